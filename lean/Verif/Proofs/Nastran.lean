/-
Reading Nastran files: lines and entries.
-/
import Verif.Spec.Nastran
import Verif.Proofs.Runs
import Verif.Proofs.Types
import Verif.Proofs.AbaqusRead
import Verif.Proofs.Flac3dWrite
namespace Meshio.Nastran
open Meshio Types Tables Spec

variable {F : Type}

/-! ## Lines -/

theorem chunks8_flatten (ws : List (List Char)) (w : List Char) (hs : ∀ v ∈ ws, v.length = 8) (h1 : 1 ≤ w.length) (h8 : w.length ≤ 8) (fuel : Nat)
    (hf : ws.length < fuel) : chunks8 fuel ((ws ++ [w]).flatten) = ws ++ [w] := by
  induction ws generalizing fuel with
  | nil =>
    obtain ⟨fuel, rfl⟩ : ∃ k, fuel = k + 1 := ⟨fuel - 1, by simp only [List.length_nil] at hf; omega⟩
    have hne : w ≠ [] := by rintro rfl; simp at h1
    simp only [List.nil_append, List.flatten_singleton]
    rw [chunks8, if_neg hne, List.take_of_length_le h8, List.drop_of_length_le h8]
    cases fuel <;> simp [chunks8]
  | cons v ws ih =>
    obtain ⟨fuel, rfl⟩ : ∃ k, fuel = k + 1 := ⟨fuel - 1, by simp only [List.length_cons] at hf; omega⟩
    have hv := hs v (by simp)
    have hne : ((v :: ws) ++ [w]).flatten ≠ [] := by
      intro h
      have := congrArg List.length h
      simp only [List.cons_append, List.flatten_cons, List.length_append, List.length_nil] at this
      omega
    rw [chunks8, if_neg hne, List.cons_append, List.flatten_cons, List.take_left' hv, List.drop_left' hv,
      ih (fun u hu => hs u (by simp [hu])) fuel (by simp only [List.length_cons] at hf; omega)]

theorem length_flatten_ge (ws : List (List Char)) (hs : ∀ v ∈ ws, v.length = 8) : ws.length ≤ ws.flatten.length := by
  induction ws with
  | nil => simp
  | cons v ws ih =>
    have := ih fun u hu => hs u (by simp [hu])
    have hv := hs v (by simp)
    simp only [List.length_cons, List.flatten_cons, List.length_append]
    omega

theorem chunkLine_words (line : List Char) (words : List (List Char)) (h : NasWords line words) :
    chunkLine (line ++ ['\n']) = .ok words := by
  unfold chunkLine
  rw [if_pos (by simp), List.dropLast_concat]
  congr 1
  rcases h with ⟨hc, rfl, hw⟩ | ⟨hc, rfl, ws, w, rfl, hs, h1, h8⟩
  · rw [if_pos hc]
    apply splitOnC_joinWith _ _ _ hw
    rintro rfl
    simp [joinWith] at hc
  · rw [if_neg hc]
    apply chunks8_flatten ws w hs h1 h8
    have := length_flatten_ge ws hs
    simp only [List.flatten_append, List.flatten_singleton, List.length_append]
    omega

theorem words_ne_nil {line : List Char} {words : List (List Char)} (h : NasWords line words) : words ≠ [] := by
  rcases h with ⟨hc, rfl, hw⟩ | ⟨hc, rfl, ws, w, rfl, hs, h1, h8⟩
  · rintro rfl
    simp [joinWith] at hc
  · simp

theorem isSkip_iff (l : List Char) (h : '\n' ∉ l) : isSkip (l ++ ['\n']) = true ↔ NasBlank l := by
  unfold isSkip NasBlank
  have e : "//".toList = ['/', '/'] := by decide
  rw [e]
  simp only [h, not_false_eq_true, true_and, Bool.or_eq_true, decide_eq_true_eq]
  match l with
  | [] => simp
  | [a] => simp
  | [a, b] => simp
  | a :: b :: c :: l =>
    simp only [List.cons_append, List.length_cons, List.length_append, List.length_nil, List.isPrefixOf, List.take_succ_cons, List.take_zero, List.head?_cons, Option.some.injEq, Bool.and_true, Bool.and_eq_true, beq_iff_eq, List.cons.injEq, and_true]
    constructor
    · rintro (((h | h) | h) | h)
      · omega
      · exact .inr (.inl h.symm)
      · exact .inr (.inr (.inr ⟨h.1.symm, h.2.symm⟩))
      · exact .inr (.inr (.inl h.symm))
    · rintro (h | h | h | h)
      · omega
      · exact .inl (.inl (.inr h.symm))
      · exact .inr h.symm
      · exact .inl (.inr ⟨h.1.symm, h.2.symm⟩)

/-- The chunks of a line, the first one being removed if the line continues another. -/
def mk (first : Bool) (l : NasLine) : Chunks := if first then l.words.map some else (l.words.map some).set 0 none

theorem mk_length (first : Bool) (l : NasLine) : (mk first l).length = l.words.length := by
  unfold mk
  cases first <;> simp

theorem mk_nine (first : Bool) (l : NasLine) : (mk first l)[9]? = some (some blank8) ↔ l.words[9]? = some eightBlanks := by
  have e : eightBlanks = blank8 := by decide
  rw [e]
  unfold mk
  cases first <;> simp

/-- The chunks of the lines of an entry. -/
def chunksOf (first : Bool) : List NasLine → List Chunks
  | [] => []
  | [l] => [mk first l]
  | l :: r => cut (mk first l) :: chunksOf false r

theorem gather_skip (done : List Chunks) (last : Chunks) (after tail : List (List Char)) (h : ∀ a ∈ after, NasBlank a) :
    gather done last (after.map (· ++ ['\n']) ++ tail) = gather done last tail := by
  induction after with
  | nil => rfl
  | cons a after ih =>
    have ha := h a (by simp)
    rw [List.map_cons, List.cons_append, gather, if_pos ((isSkip_iff a ha.1).2 ha), ih fun b hb => h b (by simp [hb])]

theorem head_nl {l : List Char} (hne : l ≠ []) : (l ++ ['\n']).head? = l.head? := by
  cases l with
  | nil => exact absurd rfl hne
  | cons a l => rfl

theorem text_ne_nil {l : NasLine} (h : l.Ok) : l.text ≠ [] := by
  intro e
  apply h.text
  rw [e]
  exact ⟨by simp, .inl (by simp)⟩

theorem gather_lines (more : List NasLine) (a : NasLine) (first : Bool) (done : List Chunks) (ha : a.Ok) (hm : ∀ l ∈ more, l.Ok)
    (hc : nasChain a more) (t : NasLine) (ht : t.Ok) (hp : ¬ NasPlus t) (hau : ¬ NasAuto ((a :: more).getLastD a) t) (tail : List (List Char)) :
    gather done (mk first a) ((a.after ++ more.flatMap (·.lines)).map (· ++ ['\n']) ++ (t.text ++ ['\n']) :: tail) =
      .ok (done ++ chunksOf first (a :: more), (t.text ++ ['\n']) :: tail) := by
  induction more generalizing a first done with
  | nil =>
    have hau : ¬ NasAuto a t := hau
    have hp' : ¬ ((t.text ++ ['\n']).head? = some '+' ∨ (t.text ++ ['\n']).head? = some '*') := by
      rw [head_nl (text_ne_nil ht)]; exact hp
    rw [List.flatMap_nil, List.append_nil, gather_skip _ _ _ _ ha.after, gather,
      if_neg (by rw [isSkip_iff _ ht.newline]; exact ht.text), if_neg hp']
    by_cases hl : (mk first a).length = 10 ∧ (mk first a)[9]? = some (some blank8)
    · rw [if_pos hl, chunkLine_words _ _ ht.words]
      simp only
      rw [if_neg]
      · rfl
      · intro hh
        exact hau ⟨by rw [← mk_length first]; exact hl.1, (mk_nine first a).1 hl.2, by rw [hh]; decide⟩
    · rw [if_neg hl]; rfl
  | cons b more ih =>
    obtain ⟨hab, hc⟩ := hc
    have hb := hm b (by simp)
    have hau' : ¬ NasAuto ((b :: more).getLastD b) t := by
      have e : (a :: b :: more).getLastD a = (b :: more).getLastD b := by
        simp only [List.getLastD_eq_getLast?, List.getLast?_cons_cons]
        cases h : (b :: more).getLast? with
        | none => simp at h
        | some x => rfl
      rwa [e] at hau
    have ih' := ih b false (done ++ [cut (mk first a)]) hb (fun l hl => hm l (by simp [hl])) hc hau'
    have e : (a.after ++ (b :: more).flatMap (·.lines)).map (· ++ ['\n']) ++ (t.text ++ ['\n']) :: tail =
        a.after.map (· ++ ['\n']) ++ ((b.text ++ ['\n']) :: ((b.after ++ more.flatMap (·.lines)).map (· ++ ['\n']) ++ (t.text ++ ['\n']) :: tail)) := by
      simp only [List.flatMap_cons, NasLine.lines, List.map_append, List.cons_append, List.map_cons, List.append_assoc]
    rw [e, gather_skip _ _ _ _ ha.after, gather, if_neg (by rw [isSkip_iff _ hb.newline]; exact hb.text), head_nl (text_ne_nil hb), chunkLine_words _ _ hb.words]
    have hset : (b.words.map some).set 0 none = mk false b := rfl
    have hfin : done ++ [cut (mk first a)] ++ chunksOf false (b :: more) = done ++ chunksOf first (a :: b :: more) := by
      rw [List.append_assoc]; rfl
    rcases hab with ⟨h1, h2⟩ | ⟨h1, h2, h3, h4⟩ <;> unfold NasPlus at h1
    · rw [if_pos h1, if_neg (by rw [mk_length]; omega)]
      simp only
      rw [hset, ih', hfin]
    · rw [if_neg h1, if_pos ⟨by rw [mk_length]; exact h2, (mk_nine first a).2 h3⟩]
      simp only
      rw [if_pos (by rw [h4]; decide), hset, ih', hfin]

/-! ## Fields -/

/-- The first chunk. -/
def lead (first : Bool) (w : List Char) : Option (List Char) := if first then some w else none

theorem mk_split (first : Bool) (l : NasLine) (w : List Char) (ws : List (List Char)) (h : l.words = w :: ws) :
    mk first l = lead first w :: ((ws.take 8).map some ++ (ws.drop 8).map some) := by
  unfold mk lead
  rw [h, ← List.map_append, List.take_append_drop]
  cases first <;> rfl

theorem cut_split (first : Bool) (l : NasLine) (w : List Char) (ws : List (List Char)) (h : l.words = w :: ws) (hl : l.words.length ≤ 10) :
    cut (mk first l) = lead first w :: ((ws.take 8).map some ++ (ws.drop 8).map fun _ => none) := by
  rw [mk_split first l w ws h]
  rw [h, List.length_cons] at hl
  unfold cut
  rcases Nat.lt_or_ge ws.length 9 with hlt | hge
  · have hd : ws.drop 8 = [] := List.drop_of_length_le (by omega)
    rw [hd]
    simp only [List.map_nil, List.append_nil]
    rw [if_neg]
    simp only [List.length_cons, List.length_map, List.length_take]
    omega
  · have hlen : (ws.take 8).length = 8 := by rw [List.length_take]; omega
    obtain ⟨x, hx⟩ : ∃ x, ws.drop 8 = [x] := by
      have : (ws.drop 8).length = 1 := by rw [List.length_drop]; omega
      exact List.length_eq_one_iff.1 this
    rw [hx, if_pos (by simp only [List.length_cons, List.length_append, List.length_map, hlen, List.length_nil])]
    simp only [List.map_cons, List.map_nil, List.set_cons_succ]
    congr 1
    rw [List.set_append_right _ _ (by rw [List.length_map, hlen]; omega)]
    rw [List.length_map, hlen]
    rfl

theorem pairUp_some (l : List (List Char)) : pairUp (l.map some) = (nasPairs l).map some := by
  match l with
  | [] => rfl
  | [a] => rfl
  | a :: b :: r => simp only [List.map_cons, pairUp, nasPairs, pairUp_some r]; rfl

theorem large_split (h : Option (List Char)) (m : List (List Char)) (e : Chunks) (h1 : m.length ≤ 8) (h2 : m.length = 8 ∨ e = []) :
    large (h :: (m.map some ++ e)) = h :: ((nasPairs m).map some ++ e.take 1) := by
  unfold large
  simp only [List.take_succ_cons, List.take_zero, List.drop_succ_cons, List.drop_zero, List.cons_append, List.nil_append]
  congr 1
  rcases h2 with h2 | rfl
  · rw [List.take_append_of_le_length (by simp [h2]), List.take_of_length_le (by simp [h2]), pairUp_some]
    congr 2
    rw [List.drop_append_of_le_length (by simp [h2]), List.drop_of_length_le (by simp [h2]), List.nil_append]
  · rw [List.append_nil, List.take_of_length_le (by simp [h1]), pairUp_some]
    congr 1
    rw [List.drop_of_length_le (by simp [h1])]

theorem filterMap_some {α : Type} (l : List α) : (l.map some).filterMap id = l := by
  induction l with
  | nil => rfl
  | cons a l ih => simp

theorem filterMap_none {α β : Type} (l : List α) : (l.map fun _ => (none : Option β)).filterMap id = [] := by
  induction l with
  | nil => rfl
  | cons a l ih => simp

theorem lead_filterMap (first : Bool) (w : List Char) (r : Chunks) :
    (lead first w :: r).filterMap id = (if first then [w] else []) ++ r.filterMap id := by
  cases first <;> simp [lead]

theorem line_fields (isLarge first : Bool) (l : NasLine) (w : List Char) (ws : List (List Char)) (h : l.words = w :: ws) :
    ((if isLarge then large (mk first l) else mk first l).filterMap id = nasLineFields isLarge first true l.words) ∧
    (l.words.length ≤ 10 → (if isLarge then large (cut (mk first l)) else cut (mk first l)).filterMap id = nasLineFields isLarge first false l.words) := by
  have h8 : (ws.take 8).length ≤ 8 := by rw [List.length_take]; omega
  have h8' : ∀ e : Chunks, ((ws.drop 8) = [] → e = []) → (ws.take 8).length = 8 ∨ e = [] := by
    intro e he
    rcases Nat.lt_or_ge ws.length 8 with hlt | hge
    · exact .inr (he (List.drop_of_length_le (by omega)))
    · left; rw [List.length_take]; omega
  have hd : (w :: ws).drop 9 = ws.drop 8 := rfl
  constructor
  · rw [mk_split first l w ws h, h]
    unfold nasLineFields
    cases isLarge
    · simp only [Bool.false_eq_true, if_false, if_true]
      rw [lead_filterMap, List.filterMap_append, filterMap_some, filterMap_some, hd]
      cases first <;> simp
    · simp only [if_true]
      rw [large_split _ _ _ h8 (h8' _ (by intro h; simp [h])), lead_filterMap, List.filterMap_append, filterMap_some, ← List.map_take, filterMap_some, hd]
      cases first <;> simp
  · intro hl
    rw [cut_split first l w ws h hl, h]
    unfold nasLineFields
    cases isLarge
    · simp only [Bool.false_eq_true, if_false]
      rw [lead_filterMap, List.filterMap_append, filterMap_some, filterMap_none]
      cases first <;> simp
    · simp only [if_true, Bool.false_eq_true, if_false]
      rw [large_split _ _ _ h8 (h8' _ (by intro h; simp [h])), lead_filterMap, List.filterMap_append, filterMap_some, ← List.map_take, filterMap_none]
      cases first <;> simp

theorem continues_length {a b : NasLine} (h : NasContinues a b) : a.words.length ≤ 10 := by
  rcases h with h | h
  · exact h.2
  · exact Nat.le_of_eq h.2.1

theorem chunks_fields (isLarge : Bool) (more : List NasLine) (a : NasLine) (first : Bool) (ha : a.Ok) (hm : ∀ l ∈ more, l.Ok) (hc : nasChain a more) :
    ((if isLarge then (chunksOf first (a :: more)).map large else chunksOf first (a :: more)).flatten).filterMap id =
      nasFields isLarge first (a :: more) := by
  induction more generalizing a first with
  | nil =>
    obtain ⟨w, ws, hw⟩ := List.exists_cons_of_ne_nil (words_ne_nil ha.words)
    have := (line_fields isLarge first a w ws hw).1
    unfold chunksOf nasFields
    rw [← this]
    cases isLarge <;> simp
  | cons b more ih =>
    obtain ⟨w, ws, hw⟩ := List.exists_cons_of_ne_nil (words_ne_nil ha.words)
    have h1 := (line_fields isLarge first a w ws hw).2 (continues_length hc.1)
    have h2 := ih b false (hm b (by simp)) (fun l hl => hm l (by simp [hl])) hc.2
    unfold chunksOf nasFields
    rw [← h1, ← h2]
    cases isLarge <;> simp

theorem fields_entry (e : NasEntry) (hl : ∀ l ∈ e.allLines, l.Ok) (hc : nasChain e.first e.more) : fields (chunksOf true e.allLines) = e.fields := by
  have ha := hl e.first (by simp [NasEntry.allLines])
  obtain ⟨w, ws, hw⟩ := List.exists_cons_of_ne_nil (words_ne_nil ha.words)
  have hm : ∀ l ∈ e.more, l.Ok := fun l h => hl l (by simp [NasEntry.allLines, h])
  have key := chunks_fields e.large e.more e.first true ha hm hc
  have hlarge : isLarge (chunksOf true (e.first :: e.more)) = e.large := by
    unfold NasEntry.large isLarge
    rw [hw]
    cases hmore : e.more with
    | nil =>
      unfold chunksOf
      rw [mk_split true e.first w ws hw]; rfl
    | cons b more =>
      unfold chunksOf
      rw [hmore] at hc
      rw [cut_split true e.first w ws hw (continues_length hc.1)]; rfl
  unfold fields NasEntry.fields NasEntry.allLines
  rw [← key, hlarge]

end Meshio.Nastran
