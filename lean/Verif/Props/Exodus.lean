/-
C42 and C56: Exodus files.
-/
import Verif.Proofs.Dim
import Verif.Proofs.Exodus
import Verif.Proofs.Types
import Verif.Base.ListX
import Verif.Base.Runs

namespace Meshio
namespace Props
open Exodus Types Tables

/-! ## C42: grouping of nodal variables -/

/-- The full property: for distinct, non-empty variable names the grouping succeeds, every stored
variable is used exactly once, and `X`/`Y`/`Z` triples are formed whenever all three names are
present. -/
def C42_statement : Prop :=
  ∀ names : List (List Char), (∀ x ∈ names, x ≠ []) → names.Nodup →
    ∃ s, categorize names = .ok s ∧ List.Perm s.used (List.range names.length) ∧
      ∀ p i j l, names[i]? = some (p ++ ['X']) → names[j]? = some (p ++ ['Y']) →
        names[l]? = some (p ++ ['Z']) → (p, i, j, l) ∈ s.triple

/-- Wrong for `uY, uX, uZ`: index 0 counts as "not found", and no triple is formed. -/
theorem C42_false : ¬ C42_statement := by
  intro h
  obtain ⟨s, hs, -, ht⟩ := h ["uY".toList, "uX".toList, "uZ".toList] (by decide) (by decide)
  have := ht ['u'] 1 0 2 (by decide) (by decide) (by decide)
  have hs' : categorize ["uY".toList, "uX".toList, "uZ".toList] = .ok
      { single := [("uY".toList, 0), ("uX".toList, 1), ("uZ".toList, 2)], double := [], triple := [],
        acc := [true, true, true] } := by decide
  rw [hs'] at hs
  cases hs
  simp at this

/-- With `X` after `Y` and `Z`, the variables `uY` and `uZ` are used twice: alone and in the triple. -/
theorem C42_used_twice_false :
    ∃ s, categorize ["a".toList, "uY".toList, "uZ".toList, "uX".toList] = .ok s ∧
      s.used = [0, 1, 2, 3, 1, 2] := by
  refine ⟨_, rfl, ?_⟩; decide

/-- A cylindrical pair and a Cartesian triple that share their `_Z` both take it. -/
theorem C42_shared_z_false :
    ∃ s, categorize ["u_R".toList, "u_X".toList, "u_Y".toList, "u_Z".toList] = .ok s ∧
      s.used = [0, 3, 1, 2, 3] := by
  refine ⟨_, rfl, ?_⟩; decide

/-- For any non-empty names, in any order and with any repetitions: the grouping succeeds, every
variable is used at least once, only stored variables are used, and each entry of the result carries
the right names. -/
theorem C42_complete (names : List (List Char)) (hne : ∀ x ∈ names, x ≠ []) :
    ∃ s, categorize names = .ok s ∧ (∀ j, j ∈ s.used ↔ j < names.length) ∧
      (∀ e ∈ s.single, names[e.2]? = some e.1) ∧
      (∀ e ∈ s.double, names[e.2.1]? = some (e.1 ++ "_R".toList) ∧
        names[e.2.2]? = some (e.1 ++ "_Z".toList)) ∧
      (∀ e ∈ s.triple, names[e.2.1]? = some (e.1 ++ "X".toList) ∧
        names[e.2.2.1]? = some (e.1 ++ "Y".toList) ∧ names[e.2.2.2]? = some (e.1 ++ "Z".toList)) := by
  obtain ⟨s, hs, hi⟩ := categorize_of_inv (names := names) (Inv1 names) (inv1_init names)
    (fun k s hk h => inv1_step hne h hk) (fun s h => h)
  refine ⟨s, hs, ?_, hi.single, hi.double, hi.triple⟩
  intro j
  constructor
  · intro hj
    rw [← hi.len]
    exact lt_of_getElem? ((hi.acc j).2 hj)
  · exact hi.below j

/-- An empty variable name makes the reader fail with an IndexError. -/
theorem C42_rejects_empty (names : List (List Char)) :
    categorize ([] :: names) = .error .indexError := by
  unfold categorize
  have : List.range (([] : List Char) :: names).length = 0 :: List.range' 1 names.length := by
    rw [List.range_eq_range', List.length_cons, List.range'_succ]
  rw [this]
  simp only [foldRes]
  have : catStep ([] :: names) (catInit (([] : List Char) :: names).length) 0 = .error .indexError := by
    unfold catStep
    rw [if_neg (by simp [catInit, List.replicate_succ])]
    rfl
  rw [this]

/-- What is true of the property: when `Y` and `Z` come after their `X`, `_Z` after its `_R`, and no
`_Z` belongs to both a pair and a triple, then every stored variable is used exactly once, the triples
are exactly the `X`/`Y`/`Z` names that are all present, the pairs exactly the `_R`/`_Z` names that are
both present, and all other variables stay alone under their own names.
Missing: other orders of the names, and a `_Z` that is shared. -/
theorem C42_partial (names : List (List Char)) (h : Ordered names) :
    ∃ s, categorize names = .ok s ∧ List.Perm s.used (List.range names.length) ∧
      (∀ p i j l, (p, i, j, l) ∈ s.triple ↔ names[i]? = some (p ++ "X".toList) ∧
        names[j]? = some (p ++ "Y".toList) ∧ names[l]? = some (p ++ "Z".toList)) ∧
      (∀ p i j, (p, i, j) ∈ s.double ↔ names[i]? = some (p ++ "_R".toList) ∧
        names[j]? = some (p ++ "_Z".toList)) ∧
      (∀ x i, (x, i) ∈ s.single → names[i]? = some x) := by
  obtain ⟨s, hs, hi⟩ := categorize_of_inv (names := names) (Inv2 names) (inv2_init names)
    (fun k s hk h' => inv2_step h h' hk) (fun s h => h.inv1)
  have hmem : ∀ j, j ∈ s.used ↔ j < names.length := by
    intro j
    constructor
    · intro hj
      rw [← hi.inv1.len]
      exact lt_of_getElem? ((hi.inv1.acc j).2 hj)
    · exact hi.inv1.below j
  refine ⟨s, hs, ?_, ?_, ?_, fun x i hx => hi.inv1.single _ hx⟩
  · rw [List.perm_ext_iff_of_nodup hi.nodup List.nodup_range]
    intro j; rw [hmem, List.mem_range]
  · intro p i j l
    exact ⟨fun hm => hi.inv1.triple _ hm, fun ⟨h1, h2, h3⟩ => hi.triples p i j l (lt_of_getElem? h1) h1 h2 h3⟩
  · intro p i j
    exact ⟨fun hm => hi.inv1.double _ hm, fun ⟨h1, h2⟩ => hi.doubles p i j (lt_of_getElem? h1) h1 h2⟩

/-- Non-trivial instance of the hypotheses: a vector, a cylindrical pair and two scalars. -/
example : Ordered ["t".toList, "uX".toList, "uY".toList, "w_R".toList, "uZ".toList, "w_Z".toList,
    "vX".toList] := by
  have key : ∀ i : Nat, ∀ x, (["t".toList, "uX".toList, "uY".toList, "w_R".toList, "uZ".toList,
      "w_Z".toList, "vX".toList] : List (List Char))[i]? = some x →
      (i, x) ∈ [(0, "t".toList), (1, "uX".toList), (2, "uY".toList), (3, "w_R".toList), (4, "uZ".toList),
        (5, "w_Z".toList), (6, "vX".toList)] := by
    intro i x h
    rcases i with _ | _ | _ | _ | _ | _ | _ | i <;> simp_all
  have last2 : ∀ (p q : List Char) (a b : Char), p ++ [a] = q ++ [b] → a = b := by
    intro p q a b h
    have := congrArg List.getLast? h; simpa using this
  refine ⟨by decide, by decide, ?_, ?_, ?_⟩
  · intro p i j l hi hj hl
    have hi := key _ _ hi; have hj := key _ _ hj; have hl := key _ _ hl
    simp only [List.mem_cons, Prod.mk.injEq, List.not_mem_nil, or_false] at hi hj hl
    rcases hi with ⟨rfl, e⟩ | ⟨rfl, e⟩ | ⟨rfl, e⟩ | ⟨rfl, e⟩ | ⟨rfl, e⟩ | ⟨rfl, e⟩ | ⟨rfl, e⟩ <;>
    rcases hj with ⟨rfl, e'⟩ | ⟨rfl, e'⟩ | ⟨rfl, e'⟩ | ⟨rfl, e'⟩ | ⟨rfl, e'⟩ | ⟨rfl, e'⟩ | ⟨rfl, e'⟩ <;>
    rcases hl with ⟨rfl, e''⟩ | ⟨rfl, e''⟩ | ⟨rfl, e''⟩ | ⟨rfl, e''⟩ | ⟨rfl, e''⟩ | ⟨rfl, e''⟩ | ⟨rfl, e''⟩ <;>
    first
    | omega
    | (exfalso; have h1 := congrArg List.getLast? e; have h2 := congrArg List.getLast? e'; have h3 := congrArg List.getLast? e''; simp at h1 h2 h3; done)
    | (exfalso; have h1 := congrArg List.dropLast e; have h2 := congrArg List.dropLast e'; simp at h1 h2; simp_all)
  · intro p i j hi hj
    have hi := key _ _ hi; have hj := key _ _ hj
    simp only [List.mem_cons, Prod.mk.injEq, List.not_mem_nil, or_false] at hi hj
    rcases hi with ⟨rfl, e⟩ | ⟨rfl, e⟩ | ⟨rfl, e⟩ | ⟨rfl, e⟩ | ⟨rfl, e⟩ | ⟨rfl, e⟩ | ⟨rfl, e⟩ <;>
    rcases hj with ⟨rfl, e'⟩ | ⟨rfl, e'⟩ | ⟨rfl, e'⟩ | ⟨rfl, e'⟩ | ⟨rfl, e'⟩ | ⟨rfl, e'⟩ | ⟨rfl, e'⟩ <;>
    first
    | omega
    | (exfalso; have h1 := congrArg List.getLast? e; have h2 := congrArg List.getLast? e'; simp at h1 h2)
  · intro p h1 h2
    exfalso
    simp only [List.mem_cons, List.not_mem_nil, or_false] at h2
    rcases h2 with e | e | e | e | e | e | e <;>
    · have h1 := congrArg List.reverse e; simp at h1

example : ∃ s, categorize ["t".toList, "uX".toList, "uY".toList, "w_R".toList, "uZ".toList,
    "w_Z".toList, "vX".toList] = .ok s ∧ s.triple = [(['u'], 1, 2, 4)] ∧ s.double = [(['w'], 3, 5)] ∧
    s.single = [("t".toList, 0), ("vX".toList, 6)] := by
  refine ⟨_, rfl, ?_⟩; decide

/-! ## C56: whole files -/

theorem upd_append {κ α : Type} [DecidableEq κ] (d : List (κ × α)) (k : κ) (v : α)
    (h : k ∉ d.map (·.1)) : upd d k v = d ++ [(k, v)] := by
  induction d with
  | nil => rfl
  | cons a d ih =>
    simp only [List.map_cons, List.mem_cons, not_or] at h
    rw [upd, if_neg (Ne.symm h.1), ih h.2]; rfl

theorem upd_mid {κ α : Type} [DecidableEq κ] (d e : List (κ × α)) (k : κ) (v w : α)
    (h : k ∉ d.map (·.1)) : upd (d ++ (k, v) :: e) k w = d ++ (k, w) :: e := by
  induction d with
  | nil => simp [upd]
  | cons a d ih =>
    simp only [List.map_cons, List.mem_cons, not_or] at h
    rw [List.cons_append, upd, if_neg (Ne.symm h.1), ih h.2]; rfl

theorem lookup_mid {κ α : Type} [BEq κ] [LawfulBEq κ] (d e : List (κ × α)) (k : κ) (v : α)
    (h : k ∉ d.map (·.1)) : (d ++ (k, v) :: e).lookup k = some v := by
  induction d with
  | nil => simp
  | cons a d ih =>
    simp only [List.map_cons, List.mem_cons, not_or] at h
    rw [List.cons_append, List.lookup_cons]
    rw [show (k == a.1) = false by simpa using h.1]
    exact ih h.2

theorem lookup_not_mem {κ α : Type} [BEq κ] [LawfulBEq κ] (d : List (κ × α)) (k : κ)
    (h : k ∉ d.map (·.1)) : d.lookup k = none := by
  induction d with
  | nil => rfl
  | cons a d ih =>
    simp only [List.map_cons, List.mem_cons, not_or] at h
    rw [List.lookup_cons, show (k == a.1) = false by simpa using h.1]
    exact ih h.2

/-- Storing distinct keys one after the other gives the list itself. -/
theorem foldl_upd {κ α : Type} [DecidableEq κ] (l d : List (κ × α))
    (h : (d.map (·.1) ++ l.map (·.1)).Nodup) :
    l.foldl (fun d e => upd d e.1 e.2) d = d ++ l := by
  induction l generalizing d with
  | nil => simp
  | cons a l ih =>
    have ha : a.1 ∉ d.map (·.1) := by
      intro hm
      rw [List.nodup_append] at h
      exact h.2.2 _ hm _ (by simp) rfl
    rw [List.foldl_cons, upd_append _ _ _ ha, ih]
    · simp
    · simpa using h

/-- The same with a body that looks its value up first. -/
theorem foldRes_upd {κ α β : Type} [DecidableEq κ] (f : List (κ × α) → β → Res (List (κ × α)))
    (key : β → κ) (val : β → α) (l : List β) (d : List (κ × α))
    (hf : ∀ d, ∀ e ∈ l, f d e = .ok (upd d (key e) (val e)))
    (h : (d.map (·.1) ++ l.map key).Nodup) :
    foldRes f d l = .ok (d ++ l.map fun e => (key e, val e)) := by
  induction l generalizing d with
  | nil => simp [foldRes]
  | cons a l ih =>
    have ha : key a ∉ d.map (·.1) := by
      intro hm
      rw [List.nodup_append] at h
      exact h.2.2 _ hm _ (by simp) rfl
    rw [foldRes, hf d a (by simp), upd_append _ _ _ ha]
    dsimp only
    rw [ih _ (fun d e he => hf d e (List.mem_cons_of_mem _ he))]
    · simp
    · simpa using h

/-- `column_stack` of three variables, as a list of triples. -/
def stack3 {F : Type} (a b c : List F) : List (List F) :=
  List.zipWith (fun x yz => [x, yz.1, yz.2]) a (b.zip c)

theorem zipWith_three {F : Type} (a b c : List F) :
    List.zipWith (· ++ ·) (List.zipWith (· ++ ·) (a.map fun x => [x]) (b.map fun x => [x]))
      (c.map fun x => [x]) = stack3 a b c := by
  induction a generalizing b c with
  | nil => simp [stack3]
  | cons x a ih =>
    cases b with
    | nil => simp [stack3]
    | cons y b =>
      cases c with
      | nil => simp [stack3]
      | cons z c => simp [stack3] at ih ⊢; exact ih b c

/-- Values of combined variables: when the names of the resulting arrays are distinct and all
variables are scalar with one value per node, the reader returns one array per group, in the order
scalars, pairs, triples, and row `i` of a triple holds the three values at node `i`. -/
theorem C42_values {F : Type} (names : List (List Char)) (vals : List (List F)) (n : Nat)
    (s : Cat) (hs : categorize names = .ok s) (hlen : ∀ v ∈ vals, v.length = n)
    (hused : ∀ j ∈ s.used, j < vals.length)
    (hd : (s.single.map (·.1) ++ s.double.map (·.1) ++ s.triple.map (·.1)).Nodup) :
    pointData names (vals.zipIdx.map fun e => ((e.2 : Int), Arr.vec e.1)) =
      .ok ((s.single.map fun e => (e.1, Arr.vec (vals[e.2]?.getD []))) ++
        (s.double.map fun e => (e.1, Arr.mat (List.zipWith (fun x y => [x, y])
          (vals[e.2.1]?.getD []) (vals[e.2.2]?.getD [])))) ++
        (s.triple.map fun e => (e.1, Arr.mat (stack3
          (vals[e.2.1]?.getD []) (vals[e.2.2.1]?.getD []) (vals[e.2.2.2]?.getD []))))) := by
  have hget : ∀ j, j ∈ s.used →
      getPd (vals.zipIdx.map fun e => ((e.2 : Int), Arr.vec e.1)) j = .ok (Arr.vec (vals[j]?.getD [])) := by
    intro j hj
    have hjl := hused j hj
    have hl : ∀ (l : List (List F)) (k : Nat), j < k + l.length → k ≤ j →
        ((l.zipIdx k).map fun e => ((e.2 : Int), Arr.vec e.1)).lookup (j : Int) =
          some (Arr.vec (l[j - k]?.getD [])) := by
      intro l
      induction l with
      | nil => intro k h1 h2; simp at h1; omega
      | cons a l ih =>
        intro k h1 h2
        simp only [List.zipIdx_cons, List.map_cons, List.lookup_cons]
        by_cases hk : j = k
        · subst hk; simp
        · rw [show ((j : Int) == (k : Int)) = false by simp; omega]
          dsimp only
          rw [ih (k + 1) (by simp at h1; omega) (by omega)]
          rw [show j - k = (j - (k + 1)) + 1 by omega, List.getElem?_cons_succ]
    unfold getPd
    rw [hl vals 0 (by omega) (by omega)]
    rfl
  have hlen' : ∀ j, j ∈ s.used → (vals[j]?.getD []).length = n := by
    intro j hj
    rw [List.getElem?_eq_getElem (hused j hj)]
    exact hlen _ (List.getElem_mem _)
  have mem1 : ∀ e ∈ s.single, e.2 ∈ s.used := fun e he => by
    simp only [Cat.used, List.mem_append, List.mem_map]
    exact Or.inl (Or.inl ⟨e, he, rfl⟩)
  have mem2 : ∀ e ∈ s.double, e.2.1 ∈ s.used ∧ e.2.2 ∈ s.used := fun e he => by
    simp only [Cat.used, List.mem_append, List.mem_flatMap]
    exact ⟨Or.inl (Or.inr ⟨e, he, by simp⟩), Or.inl (Or.inr ⟨e, he, by simp⟩)⟩
  have mem3 : ∀ e ∈ s.triple, e.2.1 ∈ s.used ∧ e.2.2.1 ∈ s.used ∧ e.2.2.2 ∈ s.used := fun e he => by
    simp only [Cat.used, List.mem_append, List.mem_flatMap]
    exact ⟨Or.inr ⟨e, he, by simp⟩, Or.inr ⟨e, he, by simp⟩, Or.inr ⟨e, he, by simp⟩⟩
  unfold pointData
  rw [hs]
  dsimp only
  rw [foldRes_upd (putSingle _) (·.1) (fun e => Arr.vec (vals[e.2]?.getD [])) s.single []
    (fun d e he => by unfold putSingle; rw [hget _ (mem1 e he)])
    (by rw [List.append_assoc, List.nodup_append] at hd; simpa using hd.1)]
  dsimp only
  rw [foldRes_upd (putDouble _) (·.1) (fun e => Arr.mat (List.zipWith (fun x y => [x, y])
      (vals[e.2.1]?.getD []) (vals[e.2.2]?.getD []))) s.double _
    (fun d e he => by
      unfold putDouble
      rw [hget _ (mem2 e he).1, hget _ (mem2 e he).2]
      dsimp only [Arr.asRows, hcat]
      rw [if_neg (by simp [hlen' _ (mem2 e he).1, hlen' _ (mem2 e he).2])]
      dsimp only
      rw [List.zipWith_map]; rfl)
    (by rw [List.nodup_append] at hd; simpa [Function.comp_def] using hd.1)]
  dsimp only
  rw [foldRes_upd (putTriple _) (·.1) (fun e => Arr.mat (stack3
      (vals[e.2.1]?.getD []) (vals[e.2.2.1]?.getD []) (vals[e.2.2.2]?.getD []))) s.triple _
    (fun d e he => by
      unfold putTriple
      rw [hget _ (mem3 e he).1, hget _ (mem3 e he).2.1, hget _ (mem3 e he).2.2]
      dsimp only [Arr.asRows, hcat]
      rw [if_neg (by simp [hlen' _ (mem3 e he).1, hlen' _ (mem3 e he).2.1])]
      dsimp only
      rw [if_neg (by simp [hlen' _ (mem3 e he).1, hlen' _ (mem3 e he).2.1, hlen' _ (mem3 e he).2.2])]
      dsimp only
      rw [zipWith_three])
    (by simpa [Function.comp_def] using hd)]
  simp

/-- Two groups may ask for the same name: the scalar `u` is lost next to `uX, uY, uZ`. -/
theorem C42_name_clash_false :
    pointData ["u".toList, "uX".toList, "uY".toList, "uZ".toList]
      [(0, Arr.vec [7]), (1, .vec [1]), (2, .vec [2]), (3, .vec [3])] =
    .ok [("u".toList, Arr.mat [[1, 2, 3]])] := by decide

/-- The full property: what is written is read back: points, cells, point data, cell data and point
sets, with their names and in order. -/
def C56_statement : Prop :=
  ∀ (m : ExMesh Int) (f : NcFile Int), m.points ≠ [] → (∀ r ∈ m.points, r.length = m.dim) →
    (m.pointData.map (·.1)).Nodup → (m.pointSets.map (·.1)).Nodup →
    write m = .ok f → read 0 f = .ok m

/-- Cell data is dropped by the writer without a message. -/
theorem C56_false : ¬ C56_statement := by
  intro h
  have := h { dim := 2, points := [[0, 0], [1, 0], [0, 1]], cells := [("triangle", [[0, 1, 2]])],
              pointData := [], cellData := [("a".toList, [[5]])], pointSets := [] } _
    (by decide) (by decide) (by decide) (by decide) rfl
  revert this; decide +kernel

/-- Point data called `uX`, `uY`, `uZ` comes back as one array `u`. -/
theorem C56_components_false :
    ∃ f, write { dim := 2, points := [[0, 0]], cells := [],
                 pointData := [("uX".toList, Arr.vec [1]), ("uY".toList, .vec [2]),
                   ("uZ".toList, .vec [3])],
                 cellData := [], pointSets := [] } = .ok f ∧
      (read 0 f).map (·.pointData) = .ok [("u".toList, Arr.mat [[1, 2, 3]])] := by
  refine ⟨_, rfl, ?_⟩; decide +kernel

/-- A name that the text tables can hold. -/
def NameOk (x : List Char) : Prop :=
  x ≠ [] ∧ x.length ≤ 33 ∧ (∀ c ∈ x, c.toNat < 128 ∧ c ≠ '\x00')

theorem nameRow_ok {x : List Char} (h : NameOk x) :
    nameRow x = .ok (x ++ List.replicate (33 - x.length) '\x00') := by
  unfold nameRow
  rw [if_neg (by have := h.2.1; omega), if_pos]
  rw [List.all_eq_true]
  intro c hc; simpa using (h.2.2 c hc).1

theorem joinName_row {x : List Char} (h : NameOk x) :
    joinName (x ++ List.replicate (33 - x.length) '\x00') = x := by
  unfold joinName
  rw [List.filter_append, List.filter_eq_self.2 (fun c hc => by simpa using (h.2.2 c hc).2),
    List.filter_eq_nil_iff.2 (fun c hc => by have := (List.mem_replicate.1 hc).2; simp [this])]
  simp

theorem names_rows {l : List (List Char)} (h : ∀ x ∈ l, NameOk x) :
    ∃ rows, mapRes nameRow l = .ok rows ∧ rows.map joinName = l := by
  refine ⟨_, mapRes_ok_of_forall (g := fun x => x ++ List.replicate (33 - x.length) '\x00')
    (fun x hx => nameRow_ok (h x hx)), ?_⟩
  rw [List.map_map]
  conv => rhs; rw [← List.map_id l]
  exact List.map_congr_left fun x hx => joinName_row (h x hx)

theorem filterMap_some {α β : Type} {f : α → Option β} {g : α → β} {l : List α}
    (h : ∀ a ∈ l, f a = some (g a)) : l.filterMap f = l.map g := by
  induction l with
  | nil => rfl
  | cons a l ih =>
    rw [List.filterMap_cons, h a (by simp), ih (fun b hb => h b (by simp [hb]))]; rfl

/-- Column-wise storage is undone by reading column-wise. -/
theorem transpose_transpose {F : Type} (d : Nat) (pts : List (List F)) (h : ∀ r ∈ pts, r.length = d) :
    transpose pts.length (transpose d pts) = pts := by
  apply List.ext_getElem?
  intro i
  unfold transpose
  rw [List.getElem?_map]
  rcases Nat.lt_or_ge i pts.length with hi | hi
  · rw [List.getElem?_eq_getElem (by simpa using hi), List.getElem?_eq_getElem hi]
    simp only [List.getElem_range, Option.map_some, Option.some.injEq]
    rw [List.filterMap_map]
    have hr := h _ (List.getElem_mem hi)
    generalize hrow : pts[i] = row at hr
    have hf : ∀ j : Nat, ∀ hj : j < d,
        ((fun a : List F => a[i]?) ∘ fun i : Nat => List.filterMap (fun a : List F => a[i]?) pts) j
          = some (row[j]'(by omega)) := by
      intro j hj
      simp only [Function.comp_apply]
      rw [show pts.filterMap (fun a : List F => a[j]?) =
          pts.map (fun a => a[j]?.getD (row[j]'(by omega))) from
        filterMap_some (fun a ha => by
          rw [List.getElem?_eq_getElem (by have := h a ha; omega)]; rfl)]
      rw [List.getElem?_map, List.getElem?_eq_getElem hi, hrow]
      simp [List.getElem?_eq_getElem (show j < row.length by omega)]
    have : ∀ m, m ≤ d → List.filterMap
        ((fun a : List F => a[i]?) ∘ fun i : Nat => List.filterMap (fun a : List F => a[i]?) pts)
        (List.range m) = row.take m := by
      intro m
      induction m with
      | zero => simp
      | succ m ih =>
        intro hm
        rw [List.range_succ, List.filterMap_append, ih (by omega), List.filterMap_cons, hf m (by omega)]
        rw [List.take_succ_eq_append_getElem (by omega)]; rfl
    rw [this d (Nat.le_refl d), List.take_of_length_le (by omega)]
  · rw [List.getElem?_eq_none (by simpa using hi), List.getElem?_eq_none hi]; rfl

theorem readVar_connect {F : Type} (s : St F) (r : List Char) (e t : String) (rows : List (List Int))
    (h : find exodusToMeshio (upper e) = some t) :
    readVar s ("connect".toList ++ r, .conn e rows) =
      .ok { s with cells := s.cells ++ [(t, rows.map fun r => r.map (· - 1))] } := by
  unfold readVar
  rw [if_neg (by simp), if_neg (by simp), if_pos (by simp)]
  simp only [h]

theorem readVar_nodal {F : Type} (s : St F) (k : Nat) (a : Arr F) :
    readVar s ("vals_nod_var".toList ++ fmtNat (k + 1), .nodal [a]) =
      .ok { s with pd := upd s.pd (k : Int) a } := by
  have hk : keyIndex (fmtNat (k + 1)) = .ok (k : Int) := by
    unfold keyIndex
    split
    · next h => exact absurd h (fmtNat_ne_nil _)
    · simp
  unfold readVar
  rw [if_neg (by simp), if_neg (by simp), if_neg (by simp), if_neg (by simp), if_neg (by simp),
    if_neg (by simp), if_neg (by simp), if_neg (by simp), if_pos (by simp)]
  have : List.drop 12 ("vals_nod_var".toList ++ fmtNat (k + 1)) = fmtNat (k + 1) := by simp
  simp only [this, hk]

theorem readVar_node {F : Type} (s : St F) (r : List Char) (l : List Int) :
    readVar s ("node_ns".toList ++ r, .ints l) = .ok { s with ns := s.ns ++ [l.map (· - 1)] } := by
  unfold readVar
  rw [if_neg (by simp), if_neg (by simp), if_neg (by simp), if_neg (by simp), if_neg (by simp),
    if_neg (by simp), if_neg (by simp), if_neg (by simp), if_neg (by simp), if_neg (by simp),
    if_neg (by simp), if_neg (by simp), if_pos (by simp)]

theorem readVar_skip {F : Type} (s : St F) (key : List Char)
    (h : key ∈ ["time_whole".toList, "coor_names".toList, "eb_prop1".toList, "ns_prop1".toList]) :
    readVar s (key, .other) = .ok s := by
  unfold readVar
  simp only [List.mem_cons, List.not_mem_nil, or_false] at h
  rcases h with rfl | rfl | rfl | rfl <;> simp

theorem readVar_nodNames {F : Type} (s : St F) (rows : List (List Char)) :
    readVar s ("name_nod_var".toList, .text rows) = .ok { s with pdNames := rows.map joinName } := by
  unfold readVar; simp

theorem readVar_nsNames {F : Type} (s : St F) (rows : List (List Char)) :
    readVar s ("ns_names".toList, .text rows) = .ok { s with nsNames := rows.map joinName } := by
  unfold readVar; simp

theorem readVar_coord {F : Type} (s : St F) (a : List (List F)) :
    readVar s ("coord".toList, .coord a) = .ok { s with points := transpose s.points.length a } := by
  unfold readVar; simp

theorem sub_add (r : List Int) : (r.map (· + 1)).map (· - 1) = r := by
  rw [List.map_map]
  conv => rhs; rw [← List.map_id r]
  exact List.map_congr_left fun x _ => by simp

/-- Each name the writer stores is recognised, in upper case, as the same cell type. -/
theorem C56_names (t e : String) (h : find meshioToExodus t = some e) :
    find exodusToMeshio (upper e) = some t := by
  have hall : ∀ q ∈ meshioToExodus, find exodusToMeshio (upper q.2) = some q.1 := by decide +kernel
  exact hall _ (find_mem h)

theorem read_conns {F : Type} (cells : List (String × List (List Int))) (k : Nat)
    (h : ∀ b ∈ cells, (find meshioToExodus b.1).isSome) :
    ∃ conns : List (List Char × Var F), mapRes connVar (cells.zipIdx k) = .ok conns ∧
      ∀ s : St F, foldRes readVar s conns = .ok { s with cells := s.cells ++ cells } := by
  induction cells generalizing k with
  | nil => exact ⟨[], rfl, fun s => by simp [foldRes]⟩
  | cons b cells ih =>
    obtain ⟨conns, hc, hr⟩ := ih (k + 1) (fun b hb => h b (List.mem_cons_of_mem _ hb))
    obtain ⟨e, he⟩ := Option.isSome_iff_exists.1 (h b (by simp))
    refine ⟨("connect".toList ++ fmtNat (k + 1), .conn e (b.2.map fun r => r.map (· + 1))) :: conns, ?_, ?_⟩
    · simp only [List.zipIdx_cons, mapRes, connVar, he, hc]
    · intro s
      rw [foldRes, readVar_connect s _ e b.1 _ (C56_names _ _ he)]
      dsimp only
      rw [hr]
      have : (List.map (fun r => List.map (· - 1) r) (List.map (fun r => List.map (· + 1) r) b.2)) = b.2 := by
        rw [List.map_map]
        conv => rhs; rw [← List.map_id b.2]
        exact List.map_congr_left fun r _ => sub_add r
      simp only [this, List.append_assoc, List.singleton_append]

theorem read_nodal {F : Type} (pd : List (List Char × Arr F)) (k : Nat) (s : St F)
    (h : ∀ j, k ≤ j → (j : Int) ∉ s.pd.map (·.1)) :
    foldRes readVar s ((pd.zipIdx k).map nodalVar) =
      .ok { s with pd := s.pd ++ (pd.zipIdx k).map fun e => ((e.2 : Int), e.1.2) } := by
  induction pd generalizing k s with
  | nil => simp [foldRes]
  | cons a pd ih =>
    simp only [List.zipIdx_cons, List.map_cons, foldRes]
    rw [show nodalVar (a, k) = ("vals_nod_var".toList ++ fmtNat (k + 1), Var.nodal [a.2]) from rfl,
      readVar_nodal, upd_append _ _ _ (h k (Nat.le_refl k))]
    dsimp only
    rw [ih (k + 1)]
    · simp
    · intro j hj
      simp only [List.map_append, List.map_cons, List.map_nil, List.mem_append, List.mem_singleton, not_or]
      exact ⟨h j (by omega), by omega⟩

theorem read_nodes {F : Type} (ps : List (List Char × List Int)) (k : Nat) (s : St F) :
    foldRes readVar s ((ps.zipIdx k).map nodeVar) = .ok { s with ns := s.ns ++ ps.map (·.2) } := by
  induction ps generalizing k s with
  | nil => simp [foldRes]
  | cons a ps ih =>
    simp only [List.zipIdx_cons, List.map_cons, foldRes]
    rw [show nodeVar (a, k) = (("node_ns".toList ++ fmtNat (k + 1), Var.ints (a.2.map (· + 1))) :
      List Char × Var F) from rfl, readVar_node]
    dsimp only
    rw [ih (k + 1), sub_add]
    simp

theorem pointData_single {F : Type} (pd : List (List Char × Arr F)) (hn : (pd.map (·.1)).Nodup)
    (hne : ∀ x ∈ pd.map (·.1), x ≠ [])
    (hx : ∀ p, p ++ ['X'] ∈ pd.map (·.1) → p ++ ['Y'] ∉ pd.map (·.1) ∨ p ++ ['Z'] ∉ pd.map (·.1))
    (hr : ∀ p, p ++ ['_', 'R'] ∈ pd.map (·.1) → p ++ ['_', 'Z'] ∉ pd.map (·.1)) :
    pointData (pd.map (·.1)) (pd.zipIdx.map fun e => ((e.2 : Int), e.1.2)) = .ok pd := by
  obtain ⟨a, ha⟩ := categorize_single hne hx hr
  unfold pointData
  rw [ha]
  dsimp only
  have key : ∀ (l : List (List Char × Arr F)) (k : Nat) (d : List (List Char × Arr F)),
      (∀ e ∈ l.zipIdx k, getPd (pd.zipIdx.map fun e => ((e.2 : Int), e.1.2)) e.2 = .ok e.1.2) →
      (d.map (·.1) ++ l.map (·.1)).Nodup →
      foldRes (putSingle (pd.zipIdx.map fun e => ((e.2 : Int), e.1.2))) d ((l.map (·.1)).zipIdx k) =
        .ok (d ++ l) := by
    intro l
    induction l with
    | nil => intro k d _ _; simp [foldRes]
    | cons b l ih =>
      intro k d hg hd
      simp only [List.map_cons, List.zipIdx_cons, foldRes, putSingle]
      rw [hg (b, k) (by simp)]
      have hb : b.1 ∉ d.map (·.1) := by
        intro hm
        rw [List.nodup_append] at hd
        exact hd.2.2 _ hm _ (by simp) rfl
      dsimp only
      rw [upd_append _ _ _ hb, ih (k + 1)]
      · simp
      · intro e he; exact hg e (by rw [List.zipIdx_cons]; exact List.mem_cons_of_mem _ he)
      · simpa using hd
  rw [key pd 0 [] ?_ (by simpa using hn)]
  · rfl
  · intro e he
    have hl : ∀ (l : List (List Char × Arr F)) (k : Nat), e ∈ l.zipIdx k →
        ((l.zipIdx k).map fun e => ((e.2 : Int), e.1.2)).lookup (e.2 : Int) = some e.1.2 := by
      intro l
      induction l with
      | nil => intro k h; simp at h
      | cons b l ih =>
        intro k h
        simp only [List.zipIdx_cons, List.map_cons, List.lookup_cons, List.mem_cons] at h ⊢
        rcases h with rfl | h
        · simp
        · have := (List.mem_zipIdx h).1
          rw [show (((e.2 : Nat) : Int) == (k : Int)) = false by simp; omega]
          exact ih (k + 1) h
    unfold getPd
    rw [hl pd 0 he]

theorem exodus_readFile_write {F : Type} (zero : F) (m : ExMesh F)
    (hp : m.points ≠ []) (hw : ∀ r ∈ m.points, r.length = m.dim) (hd : 2 ≤ m.dim)
    (ht : ∀ b ∈ m.cells, b.1 ∈ exodusToMeshio.map (·.2))
    (hpn : ∀ x ∈ m.pointData.map (·.1), NameOk x) (hpd : (m.pointData.map (·.1)).Nodup)
    (hsn : ∀ x ∈ m.pointSets.map (·.1), NameOk x) (hsd : (m.pointSets.map (·.1)).Nodup)
    (hx : ∀ p, p ++ "X".toList ∈ m.pointData.map (·.1) →
      p ++ "Y".toList ∉ m.pointData.map (·.1) ∨ p ++ "Z".toList ∉ m.pointData.map (·.1))
    (hr : ∀ p, p ++ "_R".toList ∈ m.pointData.map (·.1) → p ++ "_Z".toList ∉ m.pointData.map (·.1)) :
    ∃ f, write m = .ok f ∧ readFile zero f = .ok { m with cellData := [] } := by
  obtain ⟨conns, hc, hcr⟩ := read_conns (F := F) m.cells 0 (fun b hb => find_invDict_isSome (ht b hb))
  obtain ⟨nrows, hnr, hnr'⟩ := names_rows hpn
  obtain ⟨srows, hsr, hsr'⟩ := names_rows hsn
  have hnod : ∃ vs, nodalVars m.pointData = .ok vs ∧ ∀ s : St F, s.pd = [] → s.pdNames = [] →
      foldRes readVar s vs = .ok { s with pdNames := m.pointData.map (·.1), pd := m.pointData.zipIdx.map fun e => ((e.2 : Int), e.1.2) } := by
    unfold nodalVars
    cases hpe : m.pointData with
    | nil =>
      refine ⟨[], rfl, ?_⟩
      intro s h1 h2
      cases s; simp at h1 h2; subst h1 h2; rfl
    | cons a l =>
      rw [if_neg (by simp), ← hpe, hnr]
      refine ⟨_, rfl, ?_⟩
      intro s h1 h2
      rw [foldRes]
      rw [readVar_nodNames]
      dsimp only
      rw [read_nodal m.pointData 0 _ (by simp [h1])]
      simp [h1, hnr']
  have hset : ∃ vs, nodeVars (F := F) m.pointSets = .ok vs ∧ ∀ s : St F, s.ns = [] → s.nsNames = [] →
      foldRes readVar s vs = .ok { s with nsNames := m.pointSets.map (·.1), ns := m.pointSets.map (·.2) } := by
    unfold nodeVars
    cases hpe : m.pointSets with
    | nil =>
      refine ⟨[], rfl, ?_⟩
      intro s h1 h2
      cases s; simp at h1 h2; subst h1 h2; rfl
    | cons a l =>
      rw [if_neg (by simp), ← hpe, hsr]
      refine ⟨_, rfl, ?_⟩
      intro s h1 h2
      rw [foldRes, readVar_skip s _ (by simp)]
      dsimp only
      rw [foldRes, readVar_nsNames]
      dsimp only
      rw [read_nodes m.pointSets 0]
      simp [h1, hsr']
  obtain ⟨nod, hnod1, hnod2⟩ := hnod
  obtain ⟨sets, hset1, hset2⟩ := hset
  have hwr : write m = .ok { numNodes := m.points.length
                             vars := [("time_whole".toList, .other), ("coor_names".toList, .other),
                               ("coord".toList, .coord (transpose m.dim m.points)),
                               ("eb_prop1".toList, .other)] ++ conns ++ nod ++ sets } := by
    unfold write
    rw [if_neg (by omega), hc, hnod1, hset1]
  refine ⟨_, hwr, ?_⟩
  unfold readFile
  have hhead : ∀ s : St F, s.points.length = m.points.length → foldRes readVar s
      [("time_whole".toList, .other), ("coor_names".toList, .other),
        ("coord".toList, .coord (transpose m.dim m.points)), ("eb_prop1".toList, .other)] =
      .ok { s with points := m.points } := by
    intro s hs
    rw [foldRes, readVar_skip s _ (by simp)]
    dsimp only
    rw [foldRes, readVar_skip s _ (by simp)]
    dsimp only
    rw [foldRes, readVar_coord]
    dsimp only
    rw [foldRes, readVar_skip _ _ (by simp)]
    dsimp only
    rw [foldRes, hs, transpose_transpose _ _ hw]
  dsimp only
  rw [List.append_assoc, List.append_assoc, foldRes_append, hhead _ (by simp [St.init])]
  dsimp only
  rw [foldRes_append, hcr]
  dsimp only
  rw [foldRes_append, hnod2 _ rfl rfl]
  dsimp only
  rw [hset2 _ rfl rfl]
  dsimp only
  rw [pointData_single _ hpd (fun x hx => (hpn x hx).1) hx hr]
  dsimp only
  have hdim : ((m.points.head?.map List.length).getD 0) = m.dim := by
    cases hpp : m.points with
    | nil => exact absurd hpp hp
    | cons a l => exact hw a (by rw [hpp]; simp)
  have hsets : pointSets (m.pointSets.map (·.1)) (m.pointSets.map (·.2)) = m.pointSets := by
    unfold pointSets
    have : (m.pointSets.map (·.1)).zip (m.pointSets.map (·.2)) = m.pointSets := by
      rw [← List.unzip_fst, ← List.unzip_snd]; exact List.zip_unzip _
    rw [this, foldl_upd _ _ (by simpa using hsd)]; rfl
  have hcd : ∀ (k : Nat) (lens : List Nat), cellDataFrom ([] : List (List Char × List F)) k lens [] = [] := by
    intro k lens
    induction lens generalizing k with
    | nil => rfl
    | cons n lens ih => rw [cellDataFrom]; exact ih _
  rw [hdim, hsets]
  simp only [St.init, List.nil_append, List.zip_nil_left, hcd]

theorem exodus_checked_ok {F : Type} (m : ExMesh F) (hk : ∀ b ∈ m.cells, Spec.KnownType b.1) (hpl : ∀ e ∈ m.pointData, e.2.len = m.points.length)
    (hcl : ∀ e ∈ m.cellData, e.2.map List.length = m.cells.map fun b => b.2.length) : checked m = .ok m := by
  unfold checked
  rw [(all_hasDim (fun b : String × List (List Int) => b.1) m.cells).2 hk, if_neg (by decide), if_neg, if_neg]
  · intro h
    obtain ⟨e, he, hne⟩ := List.any_eq_true.1 h
    rw [decide_eq_true_iff] at hne
    exact hne (hcl e he)
  · intro h
    obtain ⟨e, he, hne⟩ := List.any_eq_true.1 h
    rw [decide_eq_true_iff] at hne
    exact hne (hpl e he)

/-- What is true of the property: for every mesh with at least one point, two or more coordinates,
cell types Exodus knows, and names of at most 33 ASCII letters of which none completes an `X`/`Y`/`Z`
or `_R`/`_Z` group, writing succeeds and reading returns points, cells, point data and point sets
exactly, in order, under their names.
Missing: cell data (never written), and point data whose names form groups (`C42`). -/
theorem C56_roundtrip_partial {F : Type} (zero : F) (m : ExMesh F)
    (hp : m.points ≠ []) (hw : ∀ r ∈ m.points, r.length = m.dim) (hd : 2 ≤ m.dim)
    (ht : ∀ b ∈ m.cells, b.1 ∈ exodusToMeshio.map (·.2)) (hk : ∀ b ∈ m.cells, Spec.KnownType b.1)
    (hpl : ∀ e ∈ m.pointData, e.2.len = m.points.length)
    (hpn : ∀ x ∈ m.pointData.map (·.1), NameOk x) (hpd : (m.pointData.map (·.1)).Nodup)
    (hsn : ∀ x ∈ m.pointSets.map (·.1), NameOk x) (hsd : (m.pointSets.map (·.1)).Nodup)
    (hx : ∀ p, p ++ "X".toList ∈ m.pointData.map (·.1) →
      p ++ "Y".toList ∉ m.pointData.map (·.1) ∨ p ++ "Z".toList ∉ m.pointData.map (·.1))
    (hr : ∀ p, p ++ "_R".toList ∈ m.pointData.map (·.1) → p ++ "_Z".toList ∉ m.pointData.map (·.1)) :
    ∃ f, write m = .ok f ∧ read zero f = .ok { m with cellData := [] } := by
  obtain ⟨f, h1, h2⟩ := exodus_readFile_write zero m hp hw hd ht hpn hpd hsn hsd hx hr
  refine ⟨f, h1, ?_⟩
  unfold Exodus.read
  rw [h2]
  exact exodus_checked_ok { m with cellData := [] } hk hpl (by simp)

/-- What is read is consistent: types with a dimension, a row of point data for each point, a value of cell data for each cell. -/
theorem C56_read_consistent {F : Type} (zero : F) (f : NcFile F) (m : ExMesh F) (h : Exodus.read zero f = .ok m) :
    (∀ b ∈ m.cells, Spec.KnownType b.1) ∧ (∀ e ∈ m.pointData, e.2.len = m.points.length) ∧
      ∀ e ∈ m.cellData, e.2.map List.length = m.cells.map fun b => b.2.length := by
  unfold Exodus.read at h
  split at h
  · cases h
  · unfold checked at h
    split at h
    · cases h
    · next h0 =>
      split at h
      · cases h
      · split at h
        · cases h
        · next h1 h2 =>
          injection h with h
          subst h
          simp only [List.any_eq_true, decide_eq_true_iff, not_exists, not_and, Classical.not_not] at h1 h2
          rw [Bool.not_eq_true, Bool.not_eq_false'] at h0
          exact ⟨(all_hasDim (fun b : String × List (List Int) => b.1) _).1 h0, h1, h2⟩

/-- Types Exodus has a name for but meshio has no dimension for: files with them are refused with KeyError. -/
theorem C56_types_without_dimension (t : String) (h : t ∈ exodusToMeshio.map (·.2)) :
    ¬ Spec.KnownType t ↔ t ∈ ["hexahedron9", "quad5", "triangle7", "tetra4", "tetra8", "tetra14"] :=
  (by decide +kernel : ∀ t ∈ exodusToMeshio.map (·.2), (¬ Spec.KnownType t ↔ t ∈ ["hexahedron9", "quad5", "triangle7", "tetra4", "tetra8", "tetra14"])) t h

/-- A file with such a block is refused. -/
theorem C56_refuses_type {F : Type} (zero : F) (f : NcFile F) (m : ExMesh F) (h : readFile zero f = .ok m) (b : String × List (List Int))
    (hb : b ∈ m.cells) (hk : ¬ Spec.KnownType b.1) : Exodus.read zero f = .error .keyError := by
  unfold Exodus.read
  rw [h]
  unfold checked
  dsimp only
  rw [if_pos]
  rw [Bool.not_eq_true', Bool.eq_false_iff]
  intro hall
  exact hk ((all_hasDim (fun b : String × List (List Int) => b.1) _).1 hall b hb)

example : Exodus.read (0 : Int) { numNodes := 3, vars := [("connect1".toList, .conn "TRI7" [[1, 2, 3, 1, 2, 3, 1]])] } = .error .keyError := by
  decide +kernel

/-- Non-trivial instance: a mixed mesh with a scalar, a vector array and two node sets. -/
example : ∃ f, write { dim := 3, points := [[0, 0, 0], [1, 0, 0], [0, 1, 0], [0, 0, 1]],
                       cells := [("triangle", [[0, 1, 2]]), ("tetra", [[0, 1, 2, 3]]), ("triangle", [[1, 2, 3]])],
                       pointData := [("t".toList, Arr.vec [4, 5, 6, 7]),
                         ("vX".toList, Arr.mat [[1, 2], [3, 4], [5, 6], [7, 8]])],
                       cellData := [], pointSets := [("left".toList, [0, 2]), ("top".toList, [3])] } = .ok f ∧
    (Exodus.read (0 : Nat) f).map (·.pointSets) = .ok [("left".toList, [0, 2]), ("top".toList, [3])] := by
  refine ⟨_, rfl, ?_⟩; decide +kernel

/-- A cell type without an Exodus name is refused with a KeyError; points with fewer than two
coordinates and names of more than 33 letters with an IndexError. -/
theorem C56_rejects {F : Type} (m : ExMesh F) :
    (m.dim < 2 → write m = .error .indexError) ∧
    (2 ≤ m.dim → (∃ b ∈ m.cells, b.1 ∉ exodusToMeshio.map (·.2)) → write m = .error .keyError) ∧
    (2 ≤ m.dim → (∀ b ∈ m.cells, b.1 ∈ exodusToMeshio.map (·.2)) →
      (∀ x ∈ m.pointData.map (·.1), ∀ c ∈ x, c.toNat < 128) →
      (∃ x ∈ m.pointData.map (·.1), 33 < x.length) → write m = .error .indexError) := by
  refine ⟨?_, ?_, ?_⟩
  · intro h; unfold write; rw [if_pos h]
  · intro h ⟨b, hb, hn⟩
    have hnone : find meshioToExodus b.1 = none := by
      cases hf : find meshioToExodus b.1 with
      | none => rfl
      | some e =>
        have hall : ∀ q ∈ meshioToExodus, q.1 ∈ exodusToMeshio.map (·.2) := by decide +kernel
        exact absurd (hall _ (find_mem hf)) hn
    have : ∀ (l : List (String × List (List Int))) (k : Nat), b ∈ l →
        mapRes (connVar (F := F)) (l.zipIdx k) = .error .keyError := by
      intro l
      induction l with
      | nil => intro k h; simp at h
      | cons a l ih =>
        intro k h
        rw [List.zipIdx_cons, mapRes]
        cases ha : find meshioToExodus a.1 with
        | none => simp only [connVar, ha]
        | some e =>
          rcases List.mem_cons.1 h with rfl | h
          · rw [hnone] at ha; cases ha
          · simp only [connVar, ha, ih (k + 1) h]
    unfold write
    rw [if_neg (by omega), this _ 0 hb]
  · intro h ht ha ⟨x, hx, hl⟩
    obtain ⟨conns, hc, -⟩ := read_conns (F := F) m.cells 0 (fun b hb => find_invDict_isSome (ht b hb))
    have : ∀ l : List (List Char), (∀ x ∈ l, ∀ c ∈ x, c.toNat < 128) → x ∈ l →
        mapRes nameRow l = .error .indexError := by
      intro l
      induction l with
      | nil => intro _ h; simp at h
      | cons a l ih =>
        intro hc hm
        rw [mapRes]
        by_cases hal : a.length > 33
        · simp only [nameRow, if_pos hal]
        · have : a.all (fun c => decide (c.toNat < 128)) = true := by
            rw [List.all_eq_true]; intro c hcm; simpa using hc a (by simp) c hcm
          rcases List.mem_cons.1 hm with rfl | hm
          · exact absurd hl hal
          · simp only [nameRow, if_neg hal, if_pos this,
              ih (fun y hy => hc y (List.mem_cons_of_mem _ hy)) hm]
    unfold write
    rw [if_neg (by omega), hc]
    dsimp only
    unfold nodalVars
    rw [if_neg (by intro he; rw [List.isEmpty_iff.1 he] at hx; simp at hx), this _ ha hx]

/-! ### Cell data of files written by other programs -/

/-- The usual layout of element variables: for each variable `i` (from 1) and each block `j`
(from 1) the array `vals_elem_var{i}eb{j}`. -/
def elemVars {F : Type} (vals : List (List Char × List (List F))) : List (List Char × Var F) :=
  vals.zipIdx.flatMap fun e => e.1.2.zipIdx.map fun b =>
    ("vals_elem_var".toList ++ fmtNat (e.2 + 1) ++ "eb".toList ++ fmtNat (b.2 + 1), .elem [b.1])

theorem elemIndex_eq (i j : Nat) :
    elemIndex (fmtNat (i + 1) ++ ("eb".toList ++ fmtNat (j + 1))) = ((i : Int), (j : Int)) := by
  have hd : ∀ n, ∀ c ∈ fmtNat n, c.isDigit = true := fun n c hc => fmtNat_isDigit hc
  have h1 : (fmtNat (i + 1) ++ ("eb".toList ++ fmtNat (j + 1))).takeWhile Char.isDigit = fmtNat (i + 1) := by
    rw [List.takeWhile_append_of_pos (hd _)]
    rw [show "eb".toList ++ fmtNat (j + 1) = 'e' :: 'b' :: fmtNat (j + 1) by simp]
    rw [List.takeWhile_cons_of_neg (by decide), List.append_nil]
  have h2 : (fmtNat (i + 1) ++ ("eb".toList ++ fmtNat (j + 1))).dropWhile Char.isDigit =
      'e' :: 'b' :: fmtNat (j + 1) := by
    rw [List.dropWhile_append_of_pos (hd _)]
    rw [show "eb".toList ++ fmtNat (j + 1) = 'e' :: 'b' :: fmtNat (j + 1) by simp]
    rw [List.dropWhile_cons_of_neg (by decide)]
  have h3 : (fmtNat (j + 1)).takeWhile Char.isDigit = fmtNat (j + 1) := by
    have := List.takeWhile_append_of_pos (l₂ := []) (hd (j + 1))
    simpa using this
  unfold elemIndex
  simp only [h1, h2]
  rw [if_pos (by simp)]
  simp only [List.drop_succ_cons, List.drop_zero, h3, digitsIndex, parseInt_fmtNat]
  simp

theorem readVar_elem {F : Type} (s : St F) (i j : Nat) (v : List F) :
    readVar s ("vals_elem_var".toList ++ fmtNat (i + 1) ++ "eb".toList ++ fmtNat (j + 1), .elem [v]) =
      .ok { s with cd := putElem s.cd i j v } := by
  have hdrop : List.drop 13 ("vals_elem_var".toList ++ fmtNat (i + 1) ++ "eb".toList ++ fmtNat (j + 1)) =
      fmtNat (i + 1) ++ ("eb".toList ++ fmtNat (j + 1)) := by simp
  have htake : List.take 13 ("vals_elem_var".toList ++ fmtNat (i + 1) ++ "eb".toList ++ fmtNat (j + 1)) =
      "vals_elem_var".toList := by simp
  unfold readVar
  rw [if_neg (by simp), if_neg (by simp), if_neg (by simp), if_neg (by simp), if_neg (by simp),
    if_neg (by simp), if_neg (by simp), if_neg (by simp), if_neg (by simp), if_neg (by simp), if_pos htake]
  simp only [hdrop, elemIndex_eq]

/-- All blocks of one variable. -/
theorem read_elem_blocks {F : Type} (i : Nat) (blocks : List (List F)) (k : Nat) (s : St F)
    (pre : List (Int × List (Int × List F))) (done : List (Int × List F))
    (hs : s.cd = pre ++ [((i : Int), done)]) (hpre : (i : Int) ∉ pre.map (·.1))
    (hdone : ∀ j, k ≤ j → (j : Int) ∉ done.map (·.1)) :
    foldRes readVar s ((blocks.zipIdx k).map fun b =>
      ("vals_elem_var".toList ++ fmtNat (i + 1) ++ "eb".toList ++ fmtNat (b.2 + 1), Var.elem [b.1])) =
    .ok { s with cd := pre ++ [((i : Int), done ++ (blocks.zipIdx k).map fun b => ((b.2 : Int), b.1))] } := by
  induction blocks generalizing k s done with
  | nil => simp [foldRes, ← hs]
  | cons v blocks ih =>
    simp only [List.zipIdx_cons, List.map_cons, foldRes, readVar_elem]
    have hput : putElem s.cd i k v = pre ++ [((i : Int), done ++ [((k : Int), v)])] := by
      unfold putElem
      rw [hs, lookup_mid _ _ _ _ hpre]
      rw [Option.getD_some, upd_append _ _ _ (hdone k (Nat.le_refl k)), upd_mid _ _ _ _ _ hpre]
    rw [hput]
    rw [ih (k + 1) { s with cd := pre ++ [((i : Int), done ++ [((k : Int), v)])] } (done ++ [((k : Int), v)]) rfl]
    · simp
    · intro j hj
      simp only [List.map_append, List.map_cons, List.map_nil, List.mem_append, List.mem_singleton, not_or]
      exact ⟨hdone j (by omega), by omega⟩

theorem read_elemVars {F : Type} (vals : List (List Char × List (List F))) (k : Nat) (s : St F)
    (hb : ∀ e ∈ vals, e.2 ≠ []) (hk : ∀ j, k ≤ j → (j : Int) ∉ s.cd.map (·.1)) :
    foldRes readVar s ((vals.zipIdx k).flatMap fun e => e.1.2.zipIdx.map fun b =>
      ("vals_elem_var".toList ++ fmtNat (e.2 + 1) ++ "eb".toList ++ fmtNat (b.2 + 1), Var.elem [b.1])) =
    .ok { s with cd := s.cd ++ (vals.zipIdx k).map fun e =>
      ((e.2 : Int), e.1.2.zipIdx.map fun b => ((b.2 : Int), b.1)) } := by
  induction vals generalizing k s with
  | nil => simp [foldRes]
  | cons a vals ih =>
    simp only [List.zipIdx_cons, List.flatMap_cons, foldRes_append]
    obtain ⟨v, bl, hv⟩ := List.exists_cons_of_ne_nil (hb a (by simp))
    have h1 : foldRes readVar s (a.2.zipIdx.map fun b =>
        ("vals_elem_var".toList ++ fmtNat (k + 1) ++ "eb".toList ++ fmtNat (b.2 + 1), Var.elem [b.1])) =
        .ok { s with cd := s.cd ++ [((k : Int), a.2.zipIdx.map fun b => ((b.2 : Int), b.1))] } := by
      rw [hv]
      simp only [List.zipIdx_cons, List.map_cons, foldRes, readVar_elem]
      have hput : putElem s.cd k ((0 : Nat) : Int) v = s.cd ++ [((k : Int), [(((0 : Nat) : Int), v)])] := by
        unfold putElem
        rw [lookup_not_mem _ _ (hk k (Nat.le_refl k)), Option.getD_none,
          upd_append _ _ _ (hk k (Nat.le_refl k))]
        rfl
      rw [hput]
      rw [read_elem_blocks k bl (0 + 1) { s with cd := s.cd ++ [((k : Int), [(((0 : Nat) : Int), v)])] } s.cd
        [(((0 : Nat) : Int), v)] rfl (hk k (Nat.le_refl k)) (by
          intro j hj
          simp only [List.map_cons, List.map_nil, List.mem_singleton]; omega)]
      rfl
    rw [h1]
    dsimp only
    rw [ih (k + 1) _ (fun e he => hb e (List.mem_cons_of_mem _ he)) (by
      intro j hj
      simp only [List.map_append, List.map_cons, List.map_nil, List.mem_append, List.mem_singleton, not_or]
      exact ⟨hk j (by omega), by omega⟩)]
    simp

theorem foldl_appendTo_new {F : Type} (named : List (List Char × List F)) (x : List Char × List F → List F)
    (pre : List (List Char × List (List F))) (h : (pre.map (·.1) ++ named.map (·.1)).Nodup) :
    named.foldl (fun d e => appendTo d e.1 (x e)) pre = pre ++ named.map fun e => (e.1, [x e]) := by
  induction named generalizing pre with
  | nil => simp
  | cons a named ih =>
    have ha : a.1 ∉ pre.map (·.1) := by
      intro hm
      rw [List.nodup_append] at h
      exact h.2.2 _ hm _ (by simp) rfl
    rw [List.foldl_cons, appendTo, lookup_not_mem _ _ ha, upd_append _ _ _ ha, ih]
    · simp
    · simpa using h

theorem foldl_appendTo_old {F : Type} (named : List (List Char × List F)) (x : List Char × List F → List F)
    (L : List Char × List F → List (List F))
    (pre : List (List Char × List (List F))) (h : (pre.map (·.1) ++ named.map (·.1)).Nodup) :
    named.foldl (fun d e => appendTo d e.1 (x e)) (pre ++ named.map fun e => (e.1, L e)) =
      pre ++ named.map fun e => (e.1, L e ++ [x e]) := by
  induction named generalizing pre with
  | nil => simp
  | cons a named ih =>
    have ha : a.1 ∉ pre.map (·.1) := by
      intro hm
      rw [List.nodup_append] at h
      exact h.2.2 _ hm _ (by simp) rfl
    rw [List.foldl_cons, List.map_cons, appendTo, lookup_mid _ _ _ _ ha, Option.getD_some, upd_mid _ _ _ _ _ ha]
    have := ih (pre ++ [(a.1, L a ++ [x a])]) (by simpa using h)
    simp only [List.append_assoc, List.singleton_append] at this
    rw [this]; simp

theorem cellDataFrom_old {F : Type} (named : List (List Char × List F)) (hn : (named.map (·.1)).Nodup)
    (lens : List Nat) (k : Nat) (L : List Char × List F → List (List F)) :
    cellDataFrom named k lens (named.map fun e => (e.1, L e)) =
      named.map fun e => (e.1, L e ++ splitLens lens (e.2.drop k)) := by
  induction lens generalizing k L with
  | nil => simp [cellDataFrom, splitLens]
  | cons n lens ih =>
    rw [cellDataFrom]
    have := foldl_appendTo_old named (fun e => (e.2.drop k).take n) L [] (by simpa using hn)
    simp only [List.nil_append] at this
    rw [this, ih (k + n) (fun e => L e ++ [(e.2.drop k).take n])]
    simp [splitLens, List.drop_drop]

theorem splitLens_flatten {α : Type} (l : List (List α)) : splitLens (l.map List.length) l.flatten = l := by
  induction l with
  | nil => rfl
  | cons a l ih => simp [splitLens, ih]

theorem readVar_elemNames {F : Type} (s : St F) (rows : List (List Char)) :
    readVar s ("name_elem_var".toList, .text rows) = .ok { s with cdNames := rows.map joinName } := by
  unfold readVar; simp

theorem exodus_readFile_cellData {F : Type} (zero : F) (n : Nat) (cells : List (String × List (List Int)))
    (vals : List (List Char × List (List F))) (rows : List (List Char))
    (conns : List (List Char × Var F))
    (hc : mapRes connVar cells.zipIdx = .ok conns)
    (hrows : rows.map joinName = vals.map (·.1)) (hnames : (vals.map (·.1)).Nodup) (hne : cells ≠ [])
    (hlen : ∀ e ∈ vals, e.2.map List.length = cells.map fun c => c.2.length) :
    ∃ m, readFile zero { numNodes := n, vars := conns ++ ("name_elem_var".toList, .text rows) :: elemVars vals } =
        .ok m ∧ m.cells = cells ∧ m.pointData = [] ∧ m.cellData = vals := by
  have hsome : ∀ (l : List (String × List (List Int))) (k : Nat) (cs : List (List Char × Var F)),
      mapRes connVar (l.zipIdx k) = .ok cs → ∀ b ∈ l, (find meshioToExodus b.1).isSome := by
    intro l
    induction l with
    | nil => intro k cs _ b hb; simp at hb
    | cons a l ih =>
      intro k cs h b hb
      rw [List.zipIdx_cons, mapRes] at h
      cases ha : find meshioToExodus a.1 with
      | none => simp only [connVar, ha] at h; cases h
      | some e =>
        simp only [connVar, ha] at h
        cases hr : mapRes (connVar (F := F)) (l.zipIdx (k + 1)) with
        | error e => rw [hr] at h; cases h
        | ok cs' =>
          rcases List.mem_cons.1 hb with rfl | hb
          · rw [ha]; rfl
          · exact ih _ _ hr b hb
  obtain ⟨conns', hc', hcr⟩ := read_conns (F := F) cells 0 (hsome cells 0 conns hc)
  obtain rfl : conns' = conns := by rw [hc] at hc'; cases hc'; rfl
  have hb : ∀ e ∈ vals, e.2 ≠ [] := by
    intro e he h0
    have := hlen e he
    rw [h0] at this
    exact hne (List.map_eq_nil_iff.1 this.symm)
  unfold readFile
  dsimp only
  rw [foldRes_append, hcr]
  dsimp only
  rw [foldRes, readVar_elemNames]
  dsimp only
  unfold elemVars
  rw [read_elemVars vals 0 _ hb (by simp [St.init])]
  dsimp only
  have h0 : pointData (St.init zero n).pdNames (St.init zero n).pd = .ok [] := by rfl
  rw [h0]
  refine ⟨_, rfl, rfl, rfl, ?_⟩
  dsimp only [St.init]
  simp only [List.nil_append, hrows]
  have hmerge : ∀ k : Nat, mergeBlocks ((vals.zipIdx k).map fun e =>
      ((e.2 : Int), e.1.2.zipIdx.map fun b => ((b.2 : Int), b.1))) = vals.map fun e => e.2.flatten := by
    have hz : ∀ (l : List (List F)) (k : Nat),
        ((l.zipIdx k).map fun b => ((b.2 : Int), b.1)).map (·.2) = l := by
      intro l
      induction l with
      | nil => intro k; rfl
      | cons a l ih => intro k; simp only [List.zipIdx_cons, List.map_cons, ih]
    clear hnames hrows hlen hb h0
    induction vals with
    | nil => intro k; rfl
    | cons a l ih =>
      intro k
      simp only [List.zipIdx_cons, List.map_cons, mergeBlocks]
      congr 1
      · rw [hz]
      · exact ih (k + 1)
  rw [hmerge 0]
  have hzip : (vals.map (·.1)).zip (vals.map fun e => e.2.flatten) = vals.map fun e => (e.1, e.2.flatten) := by
    rw [List.zip_map']
  rw [hzip]
  cases cells with
  | nil => exact absurd rfl hne
  | cons c cells =>
    rw [List.map_cons, cellDataFrom]
    have hn' : ((vals.map fun e => (e.1, e.2.flatten)).map (·.1)).Nodup := by
      rw [List.map_map]; exact hnames
    rw [foldl_appendTo_new _ (fun e => (e.2.drop 0).take c.2.length) [] (by simpa using hn')]
    rw [List.nil_append, cellDataFrom_old _ hn' _ _ (fun e => [(e.2.drop 0).take c.2.length])]
    rw [List.map_map]
    conv => rhs; rw [← List.map_id vals]
    refine List.map_congr_left fun e he => ?_
    have hl := hlen e he
    have := splitLens_flatten e.2
    rw [hl] at this
    simp only [List.map_cons, splitLens] at this
    simp only [Function.comp_apply, List.drop_zero, Nat.zero_add, List.singleton_append, this, id]

/-- Cell data stored by other programs in the usual layout is returned block by block: for any number
of blocks and variables with distinct names, block `j` of array `i` is what `vals_elem_var{i}eb{j}`
holds. -/
theorem C56_cell_data {F : Type} (zero : F) (n : Nat) (cells : List (String × List (List Int)))
    (vals : List (List Char × List (List F))) (rows : List (List Char))
    (conns : List (List Char × Var F))
    (hc : mapRes connVar cells.zipIdx = .ok conns)
    (hrows : rows.map joinName = vals.map (·.1)) (hnames : (vals.map (·.1)).Nodup) (hne : cells ≠ []) (hk : ∀ c ∈ cells, Spec.KnownType c.1)
    (hlen : ∀ e ∈ vals, e.2.map List.length = cells.map fun c => c.2.length) :
    ∃ m, Exodus.read zero { numNodes := n, vars := conns ++ ("name_elem_var".toList, .text rows) :: elemVars vals } =
        .ok m ∧ m.cells = cells ∧ m.cellData = vals := by
  obtain ⟨m, h1, h2, h3, h4⟩ := exodus_readFile_cellData zero n cells vals rows conns hc hrows hnames hne hlen
  refine ⟨m, ?_, h2, h4⟩
  unfold Exodus.read
  rw [h1]
  exact exodus_checked_ok m (by rw [h2]; exact hk) (by rw [h3]; simp) (by rw [h4, h2]; exact hlen)

/-- Non-trivial instance: two variables on two blocks. -/
example : ∃ m, Exodus.read (0 : Int)
    { numNodes := 3
      vars := [("connect1".toList, .conn "TRI3" [[1, 2, 3], [2, 3, 1]]), ("connect2".toList, .conn "bar2" [[1, 2]]),
        ("name_elem_var".toList, .text ["a\x00".toList, "b\x00".toList]),
        ("vals_elem_var1eb1".toList, .elem [[1, 2]]), ("vals_elem_var1eb2".toList, .elem [[3]]),
        ("vals_elem_var2eb1".toList, .elem [[4, 5]]), ("vals_elem_var2eb2".toList, .elem [[6]])] } = .ok m ∧
      m.cells = [("triangle", [[0, 1, 2], [1, 2, 0]]), ("line", [[0, 1]])] ∧
      m.cellData = [("a".toList, [[1, 2], [3]]), ("b".toList, [[4, 5], [6]])] := by
  refine ⟨_, rfl, ?_⟩; decide +kernel

/-- Only the first time step is used, blocks of equal type stay separate. -/
theorem C56_first_step {F : Type} (s : St F) (k : Nat) (a : Arr F) (later : List (Arr F)) :
    readVar s ("vals_nod_var".toList ++ fmtNat (k + 1), .nodal (a :: later)) =
      readVar s ("vals_nod_var".toList ++ fmtNat (k + 1), .nodal [a]) := by
  unfold readVar
  rw [if_neg (by simp), if_neg (by simp), if_neg (by simp), if_neg (by simp), if_neg (by simp),
    if_neg (by simp), if_neg (by simp), if_neg (by simp), if_pos (by simp)]

theorem readVar_coordx {F : Type} (s : St F) (l : List F) (p : List (List F))
    (h : setColumn s.points 0 l = .ok p) :
    readVar s ("coordx".toList, .axis l) = .ok { s with points := p } := by
  unfold readVar
  rw [if_neg (by simp), if_neg (by simp), if_neg (by simp), if_neg (by simp), if_pos rfl]
  dsimp only
  rw [h]

theorem readVar_coordy {F : Type} (s : St F) (l : List F) (p : List (List F))
    (h : setColumn s.points 1 l = .ok p) :
    readVar s ("coordy".toList, .axis l) = .ok { s with points := p } := by
  unfold readVar
  rw [if_neg (by simp), if_neg (by simp), if_neg (by simp), if_neg (by simp), if_neg (by simp), if_pos rfl]
  dsimp only
  rw [h]

theorem readVar_coordz {F : Type} (s : St F) (l : List F) (p : List (List F))
    (h : setColumn s.points 2 l = .ok p) :
    readVar s ("coordz".toList, .axis l) = .ok { s with points := p } := by
  unfold readVar
  rw [if_neg (by simp), if_neg (by simp), if_neg (by simp), if_neg (by simp), if_neg (by simp), if_neg (by simp), if_pos rfl]
  dsimp only
  rw [h]

/-- A file with separate coordinate variables: point `i` is `(x i, y i, z i)`. -/
theorem C56_axes {F : Type} (zero : F) (pts : List (F × F × F)) :
    (Exodus.read zero (NcFile.mk pts.length
        [("coordx".toList, .axis (pts.map (·.1))), ("coordy".toList, .axis (pts.map (·.2.1))),
          ("coordz".toList, .axis (pts.map (·.2.2)))])).map (·.points) =
      .ok (pts.map fun p => [p.1, p.2.1, p.2.2]) := by
  have hx : ∀ (l : List (F × F × F)), List.zipWith (fun r x => r.set 0 x)
      (List.replicate l.length [zero, zero, zero]) (l.map (·.1)) = l.map fun p => [p.1, zero, zero] := by
    intro l
    induction l with
    | nil => rfl
    | cons a l ih => simp [List.replicate_succ, ih]
  have hy : ∀ (l : List (F × F × F)), List.zipWith (fun r x => r.set 1 x)
      (l.map fun p => [p.1, zero, zero]) (l.map (·.2.1)) = l.map fun p => [p.1, p.2.1, zero] := by
    intro l
    induction l with
    | nil => rfl
    | cons a l ih => simp [ih]
  have hz : ∀ (l : List (F × F × F)), List.zipWith (fun r x => r.set 2 x)
      (l.map fun p => [p.1, p.2.1, zero]) (l.map (·.2.2)) = l.map fun p => [p.1, p.2.1, p.2.2] := by
    intro l
    induction l with
    | nil => rfl
    | cons a l ih => simp [ih]
  · unfold Exodus.read readFile
    have c0 : setColumn (List.replicate pts.length [zero, zero, zero]) 0 (pts.map (·.1)) =
        .ok (pts.map fun p => [p.1, zero, zero]) := by
      unfold setColumn
      rw [if_neg (by simp), if_pos (by simp), hx]
    have c1 : setColumn (pts.map fun p => [p.1, zero, zero]) 1 (pts.map (·.2.1)) =
        .ok (pts.map fun p => [p.1, p.2.1, zero]) := by
      unfold setColumn
      rw [if_neg (by simp), if_pos (by simp), hy]
    have c2 : setColumn (pts.map fun p => [p.1, p.2.1, zero]) 2 (pts.map (·.2.2)) =
        .ok (pts.map fun p => [p.1, p.2.1, p.2.2]) := by
      unfold setColumn
      rw [if_neg (by simp), if_pos (by simp), hz]
    rw [foldRes, readVar_coordx _ _ _ c0]
    dsimp only
    rw [foldRes, readVar_coordy _ _ _ c1]
    dsimp only
    rw [foldRes, readVar_coordz _ _ _ c2]
    rfl

example : (Exodus.read 0 (NcFile.mk 2 [("coordx".toList, .axis [1, 4]), ("coordy".toList, .axis [2, 5]),
    ("coordz".toList, .axis [3, 6])])).map (·.points) = .ok [[1, 2, 3], [4, 5, 6]] := by decide +kernel

theorem mapRes_fst {α β γ : Type} {f : α → Res (β × γ)} {k : α → β}
    (hk : ∀ a r, f a = .ok r → r.1 = k a) {l : List α} {rs : List (β × γ)}
    (h : mapRes f l = .ok rs) : rs.map (·.1) = l.map k := by
  induction l generalizing rs with
  | nil => cases h; rfl
  | cons a l ih =>
    rw [mapRes] at h
    cases ha : f a with
    | error e => rw [ha] at h; cases h
    | ok r =>
      rw [ha] at h
      dsimp only at h
      cases hl : mapRes f l with
      | error e => rw [hl] at h; cases h
      | ok rs' =>
        rw [hl] at h
        cases h
        rw [List.map_cons, List.map_cons, hk a r ha, ih hl]

theorem zipIdx_map_snd' {α β : Type} (l : List α) (g : Nat → β) :
    l.zipIdx.map (fun e => g e.2) = (List.range l.length).map g := by
  apply List.ext_getElem?
  intro i
  rw [List.getElem?_map, List.getElem?_map, List.getElem?_zipIdx]
  rcases Nat.lt_or_ge i l.length with h | h
  · simp [List.getElem?_eq_getElem h, List.getElem?_range h]
  · rw [List.getElem?_eq_none h, List.getElem?_eq_none (by simpa using h)]; rfl

/-- The names of the variables in a written file: blocks, nodal variables and node sets are each
numbered from 1, as other readers of Exodus files expect. -/
theorem C56_layout {F : Type} (m : ExMesh F) (f : NcFile F) (h : Exodus.write m = .ok f) :
    f.numNodes = m.points.length ∧
    f.vars.map (·.1) =
      ["time_whole".toList, "coor_names".toList, "coord".toList, "eb_prop1".toList] ++
      ((List.range m.cells.length).map fun k => "connect".toList ++ fmtNat (k + 1)) ++
      (if m.pointData = [] then [] else "name_nod_var".toList ::
        (List.range m.pointData.length).map fun k => "vals_nod_var".toList ++ fmtNat (k + 1)) ++
      (if m.pointSets = [] then [] else "ns_prop1".toList :: "ns_names".toList ::
        (List.range m.pointSets.length).map fun k => "node_ns".toList ++ fmtNat (k + 1)) := by
  unfold Exodus.write at h
  split at h
  · cases h
  · cases hc : mapRes (connVar (F := F)) m.cells.zipIdx with
    | error e => rw [hc] at h; cases h
    | ok conns =>
      rw [hc] at h
      dsimp only at h
      cases hn : nodalVars m.pointData with
      | error e => rw [hn] at h; cases h
      | ok nodal =>
        rw [hn] at h
        dsimp only at h
        cases hs : nodeVars (F := F) m.pointSets with
        | error e => rw [hs] at h; cases h
        | ok nodes =>
          rw [hs] at h
          cases h
          have hconn : conns.map (·.1) = (List.range m.cells.length).map fun k => "connect".toList ++ fmtNat (k + 1) := by
            rw [mapRes_fst (k := fun b : (String × List (List Int)) × Nat => "connect".toList ++ fmtNat (b.2 + 1)) _ hc]
            · exact zipIdx_map_snd' m.cells fun k => "connect".toList ++ fmtNat (k + 1)
            · intro a r ha
              unfold connVar at ha
              split at ha
              · cases ha
              · cases ha; rfl
          have hnod : nodal.map (·.1) = if m.pointData = [] then [] else "name_nod_var".toList ::
              (List.range m.pointData.length).map fun k => "vals_nod_var".toList ++ fmtNat (k + 1) := by
            unfold nodalVars at hn
            by_cases h0 : m.pointData = []
            · rw [h0] at hn ⊢; cases hn; rfl
            · rw [if_neg (by simpa using h0)] at hn
              rw [if_neg h0]
              split at hn
              · cases hn
              · cases hn
                rw [List.map_cons, List.map_map]
                exact congrArg _ (zipIdx_map_snd' m.pointData fun k => "vals_nod_var".toList ++ fmtNat (k + 1))
          have hset : nodes.map (·.1) = if m.pointSets = [] then [] else "ns_prop1".toList :: "ns_names".toList ::
              (List.range m.pointSets.length).map fun k => "node_ns".toList ++ fmtNat (k + 1) := by
            unfold nodeVars at hs
            by_cases h0 : m.pointSets = []
            · rw [h0] at hs ⊢; cases hs; rfl
            · rw [if_neg (by simpa using h0)] at hs
              rw [if_neg h0]
              split at hs
              · cases hs
              · cases hs
                rw [List.map_cons, List.map_cons, List.map_map]
                exact congrArg _ (congrArg _ (zipIdx_map_snd' m.pointSets fun k => "node_ns".toList ++ fmtNat (k + 1)))
          refine ⟨rfl, ?_⟩
          rw [List.map_append, List.map_append, List.map_append, hconn, hnod, hset]
          rfl

end Props
end Meshio
