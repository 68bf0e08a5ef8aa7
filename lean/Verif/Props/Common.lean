/-
Property theorems for `_common.py`: C12, C13, C14.
-/
import Verif.Proofs.Common
namespace Meshio.Props

/-! ## C12 Concatenating cell data and splitting it again is lossless -/

/-- Splitting the concatenation of at least one block at the block lengths returns
the blocks.  `bs` are the per-block arrays (rows), empty blocks allowed. -/
theorem C12_split_of_concat {α : Type} (bs : List (List α)) (h : bs ≠ []) :
    cellDataFromRaw (bs.map List.length) bs.flatten = bs :=
  cellDataFromRaw_flatten bs h

example : ([[1, 2], [], [3]] : List (List Nat)) ≠ [] := by decide

/-- Conversely the pieces of a raw array of the right total length have the block
lengths and concatenate back to the raw array. -/
theorem C12_concat_of_split {α : Type} (lens : List Nat) (raw : List α) (hne : lens ≠ [])
    (h : raw.length = lens.sum) :
    (cellDataFromRaw lens raw).map List.length = lens ∧
      (cellDataFromRaw lens raw).flatten = raw := by
  obtain ⟨bs, h1, h2⟩ := exists_chunks lens raw h
  subst h1; subst h2
  have hbs : bs ≠ [] := by simpa using hne
  rw [cellDataFromRaw_flatten bs hbs]
  exact ⟨rfl, rfl⟩

example : ([2, 0, 1] : List Nat) ≠ [] ∧ (["a", "b", "c"] : List String).length = [2, 0, 1].sum := by
  decide

/-- The concatenation used for writing is the concatenation of the rows, and it
fails exactly for an empty list or incompatible shapes. -/
theorem C12_raw_rows {ρ : Type} (blocks : List (NArr ρ)) (t : List Nat) (hne : blocks ≠ [])
    (ht : ∀ b ∈ blocks, b.tail = t) :
    rawFromCellData blocks = .ok ⟨t, (blocks.map (·.rows)).flatten⟩ :=
  npConcat_of_tails hne ht

example : ([⟨[3], [0, 1]⟩, ⟨[3], []⟩] : List (NArr Nat)) ≠ [] ∧
    ∀ b ∈ ([⟨[3], [0, 1]⟩, ⟨[3], []⟩] : List (NArr Nat)), b.tail = [3] := by decide

/-- With no blocks at all, the split returns one piece although there are zero
blocks: reading raw data for a mesh without cells cannot be lossless. -/
theorem C12_no_blocks_false {α : Type} (raw : List α) : cellDataFromRaw [] raw = [raw] := by
  simp [cellDataFromRaw, npSplit, cumsum, cumsumFrom, slicesBetween, slice]

/-! ## C13 join_strings can be uniquely split -/

/-- Whenever `join_strings` returns `(joined, c)`, splitting `joined` at `c` yields
the original non-empty list. -/
theorem C13_join_split (strings : List String) (hne : strings ≠ []) (joined : String) (c : Char)
    (h : joinStrings strings = .ok (joined, c)) : pySplit c joined = strings := by
  unfold joinStrings at h
  split at h
  · cases h
  · next c' hc =>
    cases h
    have := (firstChar_some hc).2
    simp only [Bool.not_eq_true'] at this
    exact pySplit_pyJoin c strings hne (isInAny_eq_false.mp this)

example : ["a-b", "c"] ≠ [] ∧ joinStrings ["a-b", "c"] = .ok ("a-b_c", '_') := by decide

/-- `join_strings` fails exactly if each of the five candidates occurs in a string,
and then with AssertionError. -/
theorem C13_fails_iff (strings : List String) :
    (∃ e, joinStrings strings = .error e) ↔
      ∀ c ∈ ['-', '_', '#', '+', '/'], ∃ s ∈ strings, c ∈ s.toList := by
  have key : ∀ c : Char, ((!isInAny c strings) = false) ↔ ∃ s ∈ strings, c ∈ s.toList := by
    intro c
    cases hb : isInAny c strings with
    | false =>
      have := isInAny_eq_false.mp hb
      simp only [Bool.not_false, Bool.true_eq_false, false_iff, not_exists, not_and]
      exact this
    | true =>
      simp only [Bool.not_true, true_iff]
      apply Classical.byContradiction
      intro hn
      have : isInAny c strings = false := isInAny_eq_false.mpr (by
        intro s hs hm; exact hn ⟨s, hs, hm⟩)
      rw [this] at hb; cases hb
  unfold joinStrings
  constructor
  · rintro ⟨e, he⟩
    split at he
    · next hn => intro c hc; exact (key c).mp (firstChar_none.mp hn c hc)
    · cases he
  · intro h
    have : firstChar (fun c => !isInAny c strings) ['-', '_', '#', '+', '/'] = none :=
      firstChar_none.mpr (fun c hc => (key c).mpr (h c hc))
    rw [this]; exact ⟨_, rfl⟩

/-! ## C14 replace_space yields a blank-free reversible name -/

/-- The result has no blank, the same length, and replacing the returned character
by a blank gives the input back. -/
theorem C14_replace_space (s r : String) (c : Char) (h : replaceSpace s = .ok (r, c)) :
    ' ' ∉ r.toList ∧ r.toList.length = s.toList.length ∧ replaceChar c ' ' r = s := by
  unfold replaceSpace at h
  split at h
  · cases h
  · next c' hc =>
    cases h
    have hmem := (firstChar_some hc).1
    have hni : c ∉ s.toList := by
      have := (firstChar_some hc).2
      simp only [charIn, Bool.not_eq_true'] at this
      simpa using this
    have hcs : c ≠ ' ' := by
      intro e; subst e; revert hmem; decide
    refine ⟨?_, ?_, ?_⟩
    · simp only [replaceChar, String.toList_ofList, List.mem_map, not_exists, not_and]
      intro x _ hx
      by_cases e : x = ' '
      · rw [if_pos e] at hx; exact hcs hx
      · rw [if_neg e] at hx; exact e hx
    · simp [replaceChar]
    · simp only [replaceChar, String.toList_ofList, List.map_map]
      have : s.toList.map ((fun x => if x = c then ' ' else x) ∘ fun x => if x = ' ' then c else x)
          = s.toList := by
        conv => rhs; rw [← List.map_id s.toList]
        apply List.map_congr_left
        intro x hx
        by_cases e : x = ' '
        · simp [e]
        · have : x ≠ c := fun e' => hni (e' ▸ hx)
          simp [e, this]
      rw [this, String.ofList_toList]

example : replaceSpace "my_set name" = .ok ("my_set-name", '-') := by decide

/-- `replace_space` fails exactly if all six candidate characters occur. -/
theorem C14_fails_iff (s : String) :
    (∃ e, replaceSpace s = .error e) ↔ ∀ c ∈ ['_', '-', '+', 'X', '/', '#'], c ∈ s.toList := by
  have key : ∀ c : Char, ((!charIn c s) = false) ↔ c ∈ s.toList := by
    intro c; simp [charIn]
  unfold replaceSpace
  constructor
  · rintro ⟨e, he⟩
    split at he
    · next hn => intro c hc; exact (key c).mp (firstChar_none.mp hn c hc)
    · cases he
  · intro h
    have : firstChar (fun c => !charIn c s) ['_', '-', '+', 'X', '/', '#'] = none :=
      firstChar_none.mpr (fun c hc => (key c).mpr (h c hc))
    rw [this]; exact ⟨_, rfl⟩

/-! ## C55 Formats with one integer field keep the first integer array and report the others -/

/-- If there is an integer array, the first is kept and exactly the others are reported. -/
theorem C55_first_kept (pre post : Dict Bool) (k : String) (hpre : ∀ kv ∈ pre, kv.2 = false)
    (hk : k ∉ pre.map (·.1)) :
    pickFirstIntData (pre ++ (k, true) :: post) = (some k, pre.map (·.1) ++ post.map (·.1)) := by
  have hf : (pre ++ (k, true) :: post).find? (fun kv => kv.2) = some (k, true) := by
    rw [List.find?_append, List.find?_eq_none.mpr (by intro x hx; simp [hpre x hx])]
    rfl
  have hidx : (pre.map (·.1) ++ k :: post.map (·.1)).idxOf k = (pre.map (·.1)).length := by
    rw [List.idxOf_append, if_neg hk]
    simp
  unfold pickFirstIntData
  rw [hf]
  dsimp only
  rw [show (Dict.keys (pre ++ (k, true) :: post)) = pre.map (·.1) ++ k :: post.map (·.1) by
    simp [Dict.keys], hidx, List.take_left]
  congr 2
  rw [List.drop_append]
  simp

example : pickFirstIntData [("a", false), ("b", true), ("c", true)] = (some "b", ["a", "c"]) :=
  C55_first_kept [("a", false)] [("c", true)] "b" (by decide) (by decide)

/-- The full claim: kept and reported together are all arrays. -/
def C55_reported_statement : Prop :=
  ∀ data : Dict Bool, data.Ok →
    ((pickFirstIntData data).1.toList ++ (pickFirstIntData data).2).Perm (data.map (·.1))

/-- Without an integer array nothing is kept and nothing is reported: float data are dropped
without a message. -/
theorem C55_reported_false : ¬ C55_reported_statement := by
  intro h
  have := (h [("a", false)] (by decide)).length_eq
  exact absurd this (by decide)

theorem C55_none (data : Dict Bool) (h : ∀ kv ∈ data, kv.2 = false) :
    pickFirstIntData data = (none, []) := by
  unfold pickFirstIntData
  rw [List.find?_eq_none.mpr (by intro x hx; simp [h x hx])]

/-- With an integer array the claim holds. -/
theorem C55_reported_partial (data : Dict Bool) (hd : data.Ok) (hint : ∃ kv ∈ data, kv.2 = true) :
    ((pickFirstIntData data).1.toList ++ (pickFirstIntData data).2).Perm (data.map (·.1)) := by
  obtain ⟨kv, hmem, hkv⟩ := hint
  cases hfind : data.find? (fun kv => kv.2) with
  | none =>
    have := List.find?_eq_none.mp hfind kv hmem
    simp [hkv] at this
  | some x =>
    obtain ⟨hx, pre, post, he, hpre⟩ := List.find?_eq_some_iff_append.mp hfind
    obtain ⟨k, b⟩ := x
    simp only at hx
    subst hx
    subst he
    have hk : k ∉ pre.map (·.1) := by
      have hn : ((pre ++ (k, true) :: post).map (·.1)).Nodup := hd
      rw [List.map_append, List.map_cons, List.nodup_append] at hn
      intro hmem
      exact hn.2.2 k hmem k (by simp) rfl
    rw [C55_first_kept pre post k (fun kv h => by simpa using hpre kv h) hk]
    simp only [Option.toList, List.map_append, List.map_cons]
    rw [List.singleton_append]
    exact List.perm_middle.symm

example : ∃ kv ∈ ([("a", false), ("b", true)] : Dict Bool), kv.2 = true := by decide

end Meshio.Props
