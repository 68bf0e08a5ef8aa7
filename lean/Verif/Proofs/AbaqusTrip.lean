/-
The round trip through Abaqus files.
-/
import Verif.Proofs.AbaqusBack
namespace Meshio.Abaqus
open Meshio Types Tables Spec

variable {F : Type}

theorem pairwise_all {α : Type} {R : α → α → Prop} (l : List α) (h : ∀ a b, R a b) : l.Pairwise R := by
  induction l with
  | nil => exact List.Pairwise.nil
  | cons a l ih => exact List.pairwise_cons.mpr ⟨fun b _ => h a b, ih⟩

theorem all2_zip {α β : Type} {R : α → β → Prop} (l : List α) (m : List β) (h : All2 R l m) : ∀ p ∈ l.zip m, R p.1 p.2 := by
  induction l generalizing m with
  | nil => intro p hp; simp at hp
  | cons a l ih =>
    cases m with
    | nil => exact h.elim
    | cons b m =>
      intro p hp
      rw [List.zip_cons_cons] at hp
      rcases List.mem_cons.1 hp with rfl | hp
      · exact h.1
      · exact ih m h.2 p hp

theorem zip_zipIdx_map {α β γ : Type} (l : List α) (m : List β) (hl : l.length = m.length) (g : α → Nat → γ) (i : Nat) :
    ((l.zip m).zipIdx i).map (fun b => g b.1.1 b.2) = (l.zipIdx i).map fun b => g b.1 b.2 := by
  induction l generalizing m i with
  | nil => rfl
  | cons a l ih =>
    cases m with
    | nil => simp at hl
    | cons b m =>
      rw [List.zip_cons_cons, List.zipIdx_cons, List.zipIdx_cons, List.map_cons, List.map_cons, ih m (by simpa using hl)]

theorem partsOf_append (a b : List AbaqusItem) : partsOf (a ++ b) = partsOf a ++ partsOf b := List.filterMap_append
theorem nsetsOf_append (a b : List AbaqusItem) : nsetsOf (a ++ b) = nsetsOf a ++ nsetsOf b := List.filterMap_append
theorem elsetsOf_append (a b : List AbaqusItem) : elsetsOf (a ++ b) = elsetsOf a ++ elsetsOf b := List.filterMap_append

theorem filterMap_map_some {α β γ : Type} (l : List α) (f : α → β) (g : β → Option γ) (h : α → γ) (hh : ∀ a ∈ l, g (f a) = some (h a)) :
    (l.map f).filterMap g = l.map h := by
  induction l with
  | nil => rfl
  | cons a l ih => rw [List.map_cons, List.filterMap_cons, hh a (by simp), List.map_cons, ih fun b hb => hh b (by simp [hb])]

variable (io : FloatIO F) (version : List Char) (names : List String) (points : List (List F)) (cells : List (String × List (List Int)))
    (cellSets : Dict (List (List Int))) (pointSets : Dict (List Int))

/-- The written blocks as parts. -/
def deckParts (cells : List (String × List (List Int))) : List (String × Option String × List (Int × List Int)) :=
  cells.zipIdx.map fun b => (b.1.1, none, b.1.2.zipIdx.map fun r => (((cellsBefore cells b.2 + r.2 + 1 : Nat) : Int), r.1.map fun i => i + 1))

/-- The written sets. -/
def deckElsets (cells : List (String × List (List Int))) (cellSets : Dict (List (List Int))) : List (String × List Int) :=
  (List.range cells.length).flatMap fun k => cellSets.flatMap fun s =>
    if s.2.getD k [] = [] then [] else [(s.1, (s.2.getD k []).map fun i => i + 1 + ((cellsBefore cells k : Nat) : Int))]

theorem filterMap_flatMap' {α β γ : Type} (l : List α) (f : α → List β) (g : β → Option γ) :
    (l.flatMap f).filterMap g = l.flatMap fun a => (f a).filterMap g := by
  induction l with
  | nil => rfl
  | cons a l ih => rw [List.flatMap_cons, List.filterMap_append, ih, List.flatMap_cons]

theorem deck_parts (hl : cells.length = names.length) : (deck io version names points cells cellSets pointSets).parts = deckParts cells := by
  show partsOf _ = _
  unfold deck
  simp only
  rw [partsOf_append, partsOf_append]
  have e1 : partsOf ((cells.zip names).zipIdx.map fun b => blockItem b.1.2 b.1.1.1 (cellsBefore cells b.2) b.1.1.2) = deckParts cells := by
    unfold partsOf deckParts
    refine Eq.trans (filterMap_map_some _ _ _ (fun b => (b.1.1.1, (none : Option String), b.1.1.2.zipIdx.map fun r =>
      (((cellsBefore cells b.2 + r.2 + 1 : Nat) : Int), r.1.map fun (i : Int) => i + 1))) ?_) ?_
    · intro a _; rfl
    · exact zip_zipIdx_map cells names hl (fun b k => (b.1, (none : Option String), b.2.zipIdx.map fun r =>
        (((cellsBefore cells k + r.2 + 1 : Nat) : Int), r.1.map fun (i : Int) => i + 1))) 0
  have e2 : partsOf ((List.range cells.length).flatMap (fun k => cellSets.flatMap fun s =>
      if s.2.getD k [] = [] then [] else [elsetItem s.1 ((s.2.getD k []).map fun i => i + 1 + ((cellsBefore cells k : Nat) : Int))])) = [] := by
    unfold partsOf
    rw [List.filterMap_eq_nil_iff]
    intro i hi
    obtain ⟨k, _, hi⟩ := List.mem_flatMap.1 hi
    obtain ⟨s, _, hi⟩ := List.mem_flatMap.1 hi
    split at hi
    · cases hi
    · simp only [List.mem_singleton] at hi
      subst hi; rfl
  have e3 : partsOf (pointSets.map fun s => nsetItem s.1 (s.2.map fun i => i + 1)) = [] := by
    unfold partsOf
    rw [List.filterMap_eq_nil_iff]
    intro a ha
    obtain ⟨s, _, rfl⟩ := List.mem_map.1 ha
    rfl
  rw [e1, e2, e3, List.append_nil, List.append_nil]

theorem deck_nsets : (deck io version names points cells cellSets pointSets).nsets = pointSets.map fun s => (s.1, s.2.map fun i => i + 1) := by
  show nsetsOf _ = _
  unfold deck
  simp only
  rw [nsetsOf_append, nsetsOf_append]
  have e1 : nsetsOf ((cells.zip names).zipIdx.map fun b => blockItem b.1.2 b.1.1.1 (cellsBefore cells b.2) b.1.1.2) = [] := by
    unfold nsetsOf
    rw [List.filterMap_eq_nil_iff]
    intro a ha
    obtain ⟨s, _, rfl⟩ := List.mem_map.1 ha
    rfl
  have e2 : nsetsOf ((List.range cells.length).flatMap (fun k => cellSets.flatMap fun s =>
      if s.2.getD k [] = [] then [] else [elsetItem s.1 ((s.2.getD k []).map fun i => i + 1 + ((cellsBefore cells k : Nat) : Int))])) = [] := by
    unfold nsetsOf
    rw [List.filterMap_eq_nil_iff]
    intro i hi
    obtain ⟨k, _, hi⟩ := List.mem_flatMap.1 hi
    obtain ⟨s, _, hi⟩ := List.mem_flatMap.1 hi
    split at hi
    · cases hi
    · simp only [List.mem_singleton] at hi
      subst hi; rfl
  have e3 : nsetsOf (pointSets.map fun s => nsetItem s.1 (s.2.map fun i => i + 1)) = pointSets.map fun s => (s.1, s.2.map fun i => i + 1) := by
    unfold nsetsOf
    apply filterMap_map_some
    intro a _
    rfl
  rw [e1, e2, e3, List.nil_append, List.nil_append]

theorem deck_elsets : (deck io version names points cells cellSets pointSets).elsets = deckElsets cells cellSets := by
  show elsetsOf _ = _
  unfold deck
  simp only
  rw [elsetsOf_append, elsetsOf_append]
  have e1 : elsetsOf ((cells.zip names).zipIdx.map fun b => blockItem b.1.2 b.1.1.1 (cellsBefore cells b.2) b.1.1.2) = [] := by
    unfold elsetsOf
    rw [List.filterMap_eq_nil_iff]
    intro a ha
    obtain ⟨s, _, rfl⟩ := List.mem_map.1 ha
    rfl
  have e2 : elsetsOf ((List.range cells.length).flatMap (fun k => cellSets.flatMap fun s =>
      if s.2.getD k [] = [] then [] else [elsetItem s.1 ((s.2.getD k []).map fun i => i + 1 + ((cellsBefore cells k : Nat) : Int))])) =
      deckElsets cells cellSets := by
    unfold elsetsOf deckElsets
    rw [filterMap_flatMap']
    apply flatMap_congr'
    intro k _
    rw [filterMap_flatMap']
    apply flatMap_congr'
    intro s _
    split <;> rfl
  have e3 : elsetsOf (pointSets.map fun s => nsetItem s.1 (s.2.map fun i => i + 1)) = [] := by
    unfold elsetsOf
    rw [List.filterMap_eq_nil_iff]
    intro a ha
    obtain ⟨s, _, rfl⟩ := List.mem_map.1 ha
    rfl
  rw [e1, e2, e3, List.append_nil, List.nil_append]

theorem deck_nodes : (deck io version names points cells cellSets pointSets).nodes.filterMap (·.2) = points.zipIdx.map fun p => (((p.2 + 1 : Nat) : Int), p.1) := by
  unfold deck
  simp only
  apply filterMap_map_some
  intro a _
  rfl

theorem deck_numbers : (deck io version names points cells cellSets pointSets).numbers = numbersFrom 1 points.length := by
  unfold AbaqusFile.numbers
  rw [deck_nodes, List.map_map]
  unfold numbersFrom
  exact zipIdx_range_map points (fun _ i => (((i + 1 : Nat) : Int))) (fun i => 1 + (i : Int)) (by intro i _; omega)

theorem cellsBefore_succ (k : Nat) (b : String × List (List Int)) (h : cells[k]? = some b) :
    cellsBefore cells (k + 1) = cellsBefore cells k + b.2.length := by
  unfold cellsBefore
  rw [List.take_add_one, h]
  simp

theorem cellsBefore_mono (j k : Nat) (h : j ≤ k) : cellsBefore cells j ≤ cellsBefore cells k := by
  induction k with
  | zero => have : j = 0 := by omega
            subst this; exact Nat.le_refl _
  | succ k ih =>
    by_cases hj : j = k + 1
    · subst hj; exact Nat.le_refl _
    · refine Nat.le_trans (ih (by omega)) ?_
      unfold cellsBefore
      rw [List.take_add_one]
      simp

/-- Two blocks have no number in common. -/
theorem blocks_disjoint (j k : Nat) (a b : String × List (List Int)) (hj : cells[j]? = some a) (hk : cells[k]? = some b) (hne : j ≠ k) (i : Int)
    (h0 : 0 ≤ i) (h1 : i < (b.2.length : Int)) :
    i + 1 + ((cellsBefore cells k : Nat) : Int) ∉ numbersFrom (((cellsBefore cells j : Nat) : Int) + 1) a.2.length := by
  intro hm
  unfold numbersFrom at hm
  obtain ⟨t, ht, e⟩ := List.mem_map.1 hm
  rw [List.mem_range] at ht
  rcases Nat.lt_or_gt_of_ne hne with h | h
  · have := cellsBefore_mono cells (j + 1) k h
    rw [cellsBefore_succ cells j a hj] at this
    omega
  · have := cellsBefore_mono cells (k + 1) j h
    rw [cellsBefore_succ cells k b hk] at this
    omega

theorem idxOf?_numbersFrom (s : Int) (n : Nat) (i : Int) (h0 : 0 ≤ i) (h1 : i < (n : Int)) : (numbersFrom s n).idxOf? (s + i) = some i.toNat := by
  rw [← idPos_idxOf? _ (numbersFrom_nodup s n)]
  have := idGet_numbersFrom s n i.toNat (by omega)
  have e : s + ((i.toNat : Nat) : Int) = s + i := by omega
  rw [e] at this
  unfold idGet at this
  cases hp : idPos (numbersFrom s n) (s + i) with
  | none => rw [hp] at this; cases this
  | some j => rw [hp] at this; simpa using this

theorem idxOf_numbersFrom (n : Nat) (i : Int) (h0 : 0 ≤ i) (h1 : i < (n : Int)) : (numbersFrom 1 n).idxOf (i + 1) = i.toNat := by
  have hm : i + 1 ∈ numbersFrom 1 n := by
    unfold numbersFrom
    exact List.mem_map.2 ⟨i.toNat, by rw [List.mem_range]; omega, by omega⟩
  have e1 := idGet_idxOf _ (numbersFrom_nodup 1 n) (i + 1) hm
  have e2 := idGet_numbersFrom 1 n i.toNat (by omega)
  have e : (1 : Int) + ((i.toNat : Nat) : Int) = i + 1 := by omega
  rw [e, e1] at e2
  simpa using e2

theorem deckElsets_nodup (hw : AbaqusWritable points cells cellSets pointSets) : ((deckElsets cells cellSets).map (·.1)).Nodup := by
  have e : (deckElsets cells cellSets).map (·.1) = (List.range cells.length).flatMap fun k => (cellSets.filter fun s => decide (s.2.getD k [] ≠ [])).map (·.1) := by
    unfold deckElsets
    rw [List.map_flatMap]
    apply flatMap_congr'
    intro k _
    rw [List.map_flatMap]
    generalize hc : cellSets = d
    clear hc
    induction d with
    | nil => rfl
    | cons s d ih =>
      rw [List.flatMap_cons, ih, List.filter_cons]
      by_cases h : s.2.getD k [] = []
      · rw [if_pos h, if_neg (by rw [decide_eq_true_iff]; exact fun g => g h)]; rfl
      · rw [if_neg h, if_pos (by rw [decide_eq_true_iff]; exact h)]; rfl
  rw [e, List.nodup_iff_pairwise_ne, List.pairwise_flatMap]
  constructor
  · intro k _
    rw [← List.nodup_iff_pairwise_ne]
    exact (List.Sublist.map _ List.filter_sublist).nodup hw.cellNames.1
  · refine (List.nodup_iff_pairwise_ne.mp (List.nodup_range (n := cells.length))).imp ?_
    intro j k hjk x hx y hy exy
    subst exy
    obtain ⟨s, hs, e1⟩ := List.mem_map.1 hx
    obtain ⟨t, ht, e2⟩ := List.mem_map.1 hy
    rw [List.mem_filter, decide_eq_true_iff] at hs ht
    have : s = t := by
      obtain ⟨a, va⟩ := s
      obtain ⟨b, vb⟩ := t
      simp only at e1 e2
      subst e1; subst e2
      have h1 := Dict.get?_of_mem (d := cellSets) hw.cellNames.1 hs.1
      have h2 := Dict.get?_of_mem (d := cellSets) hw.cellNames.1 ht.1
      rw [h1, Option.some.injEq] at h2
      rw [h2]
    subst this
    obtain ⟨_, k', b, _, _, h3, _⟩ := hw.inOne s hs.1
    have a1 : j = k' := by
      by_cases h : j = k'
      · exact h
      · exact absurd (h3 j h) hs.2
    have a2 : k = k' := by
      by_cases h : k = k'
      · exact h
      · exact absurd (h3 k h) ht.2
    exact hjk (a1.trans a2.symm)

theorem deck_ok (hio : ∀ x, ',' ∉ io.fmt x) (hv : '\n' ∉ version) (hw : AbaqusWritable points cells cellSets pointSets)
    (hn : All2 (fun (b : String × List (List Int)) n => (b.1, n) ∈ abaqusWritten ∧ ∃ k, (n, b.1, k) ∈ abaqusNames ∧
      ∀ r ∈ b.2, r.length = k ∧ ∀ i ∈ r, 0 ≤ i ∧ i < (points.length : Int)) cells names) :
    (deck io version names points cells cellSets pointSets).Ok io where
  before := by
    intro l hl
    have hl : l ∈ ["*HEADING".toList, "Abaqus DataFile Version 6.14".toList, "written by meshio v".toList ++ version] := hl
    simp only [List.mem_cons, List.not_mem_nil, or_false] at hl
    rcases hl with rfl | rfl | rfl
    · exact ⟨by decide, .inr (by decide)⟩
    · exact ⟨by decide, .inr (by decide)⟩
    · exact ignored_version version hv
  head := ⟨[], (by decide : '\n' ∉ "*NODE".toList), "*NODE".toList, [], rfl, (by decide : ∀ w ∈ ["*NODE".toList], ',' ∉ w), by decide, rfl, by decide, trivial, by simp⟩
  nodes := by
    intro l hl
    obtain ⟨p, _, rfl⟩ := List.mem_map.1 hl
    exact node_line io hio p.2 p.1
  dim := by
    obtain ⟨d, hd⟩ := hw.dim
    refine ⟨d, ?_⟩
    intro p hp
    rw [deck_nodes] at hp
    obtain ⟨q, hq, rfl⟩ := List.mem_map.1 hp
    exact hd _ (List.fst_mem_of_mem_zipIdx hq)
  distinct := by rw [deck_numbers]; exact numbersFrom_nodup _ _
  items := by
    rw [deck_numbers]
    intro i hi
    rcases List.mem_append.mp hi with hi | hi
    · rcases List.mem_append.mp hi with hi | hi
      · obtain ⟨b, hb, rfl⟩ := List.mem_map.1 hi
        have hm := List.fst_mem_of_mem_zipIdx hb
        obtain ⟨_, k, h1, h2⟩ := all2_zip cells names hn b.1 hm
        exact blockItem_ok _ points.length rfl _ _ k h1 _ _ h2
      · obtain ⟨k, hk, hi⟩ := List.mem_flatMap.1 hi
        obtain ⟨s, hs, hi⟩ := List.mem_flatMap.1 hi
        by_cases he : s.2.getD k [] = []
        · rw [if_pos he] at hi; cases hi
        · rw [if_neg he] at hi
          simp only [List.mem_singleton] at hi
          subst hi
          apply elsetItem_ok _ _ (hw.cellNames.2 s hs)
          · intro x hx
            obtain ⟨y, hy, rfl⟩ := List.mem_map.1 hx
            obtain ⟨_, k', b, _, _, h3, h4⟩ := hw.inOne s hs
            have : k = k' := by
              by_cases h : k = k'
              · exact h
              · exact absurd (h3 k h) he
            subst this
            have := h4 y hy
            omega
          · simpa using he
    · obtain ⟨s, hs, rfl⟩ := List.mem_map.1 hi
      have hr := hw.inRange s hs
      apply nsetItem_ok _ _ (hw.pointNames.2 s hs)
      · intro x hx
        obtain ⟨y, hy, rfl⟩ := List.mem_map.1 hx
        have := hr y hy
        omega
      · intro x hx
        obtain ⟨y, hy, rfl⟩ := List.mem_map.1 hx
        have := hr y hy
        unfold numbersFrom
        exact List.mem_map.2 ⟨y.toNat, by rw [List.mem_range]; omega, by omega⟩

theorem deckParts_none : (deckParts cells).filterMap (·.2.1) = [] := by
  rw [List.filterMap_eq_nil_iff]
  intro p hp
  obtain ⟨b, _, rfl⟩ := List.mem_map.1 hp
  rfl

theorem deck_sets (hw : AbaqusWritable points cells cellSets pointSets) (hl : cells.length = names.length) :
    (deck io version names points cells cellSets pointSets).Sets where
  order := by
    show InOrder _
    unfold InOrder deck
    simp only
    rw [List.append_assoc, List.pairwise_append]
    refine ⟨?_, ?_, ?_⟩
    · rw [List.pairwise_map]
      exact pairwise_all _ fun a b h => h.elim
    · have hnb : ∀ i ∈ (List.range cells.length).flatMap (fun k => cellSets.flatMap fun s =>
          if s.2.getD k [] = [] then [] else [elsetItem s.1 ((s.2.getD k []).map fun i => i + 1 + ((cellsBefore cells k : Nat) : Int))]) ++
          pointSets.map (fun s => nsetItem s.1 (s.2.map fun i => i + 1)), (match i with | .block .. => False | _ => True) := by
        intro i hi
        rcases List.mem_append.mp hi with hi | hi
        · obtain ⟨k, _, hi⟩ := List.mem_flatMap.1 hi
          obtain ⟨s, _, hi⟩ := List.mem_flatMap.1 hi
          split at hi
          · cases hi
          · simp only [List.mem_singleton] at hi
            subst hi; trivial
        · obtain ⟨s, _, rfl⟩ := List.mem_map.1 hi
          trivial
      generalize (List.range cells.length).flatMap (fun k => cellSets.flatMap fun s =>
          if s.2.getD k [] = [] then [] else [elsetItem s.1 ((s.2.getD k []).map fun i => i + 1 + ((cellsBefore cells k : Nat) : Int))]) ++
          pointSets.map (fun s => nsetItem s.1 (s.2.map fun i => i + 1)) = l at hnb
      induction l with
      | nil => exact List.Pairwise.nil
      | cons i l ih =>
        rw [List.pairwise_cons]
        exact ⟨fun j hj _ => hnb j (by simp [hj]), ih fun j hj => hnb j (by simp [hj])⟩
    · intro i hi j _ h
      obtain ⟨b, _, rfl⟩ := List.mem_map.1 hi
      exact h.elim
  nsets := by
    rw [deck_nsets, List.map_map]
    exact hw.pointNames.1
  elsets := by
    rw [deck_elsets, deck_parts _ _ _ _ _ _ _ hl, deckParts_none, List.append_nil]
    exact deckElsets_nodup points cells cellSets pointSets hw
  first := by
    rw [deck_parts _ _ _ _ _ _ _ hl]
    unfold deckParts
    rw [List.pairwise_map]
    exact pairwise_all _ fun a b _ => rfl

end Meshio.Abaqus
