/-
HDF5 groups as h5py presents them, and column-major ("Fortran order") arrays.
-/
import Verif.Base.Err
namespace Meshio

/-- Comparison of names, character by character. -/
def leChars : List Char → List Char → Bool
  | [], _ => true
  | _ :: _, [] => false
  | a :: as, b :: bs => if a.toNat < b.toNat then true else if b.toNat < a.toNat then false else leChars as bs

/-- Put one entry in its place. -/
def insertBy {α : Type} (x : List Char × α) : List (List Char × α) → List (List Char × α)
  | [] => [x]
  | y :: l => if leChars x.1 y.1 then x :: y :: l else y :: insertBy x l

/-- `group.items()`: h5py visits the members of a group in the order of their names. -/
def hItems {α : Type} : List (List Char × α) → List (List Char × α)
  | [] => []
  | x :: l => insertBy x (hItems l)

/-- `group.create_group(name)` / `create_dataset(name)`: an existing name raises ValueError. -/
def hCreate {α : Type} (g : List (List Char × α)) (name : List Char) (v : α) :
    Res (List (List Char × α)) :=
  if name ∈ g.map (·.1) then .error .valueError else .ok (g ++ [(name, v)])

theorem insertBy_perm {α : Type} (x : List Char × α) (l : List (List Char × α)) :
    (insertBy x l).Perm (x :: l) := by
  induction l with
  | nil => exact List.Perm.refl _
  | cons y l ih =>
    rw [insertBy]
    split
    · exact List.Perm.refl _
    · exact (List.Perm.cons y ih).trans (List.Perm.swap x y l)

theorem hItems_perm {α : Type} (l : List (List Char × α)) : (hItems l).Perm l := by
  induction l with
  | nil => exact List.Perm.refl _
  | cons x l ih => exact (insertBy_perm x _).trans (List.Perm.cons x ih)

theorem mem_hItems {α : Type} {l : List (List Char × α)} {x : List Char × α} : x ∈ hItems l ↔ x ∈ l :=
  (hItems_perm l).mem_iff

theorem insertBy_map {α β : Type} (f : α → β) (x : List Char × α) (l : List (List Char × α)) :
    (insertBy x l).map (fun e => (e.1, f e.2)) = insertBy (x.1, f x.2) (l.map fun e => (e.1, f e.2)) := by
  induction l with
  | nil => rfl
  | cons y l ih =>
    simp only [insertBy, List.map_cons]
    split
    · rfl
    · rw [List.map_cons, ih]

/-- The order depends on the names only. -/
theorem hItems_map {α β : Type} (f : α → β) (l : List (List Char × α)) :
    (hItems l).map (fun e => (e.1, f e.2)) = hItems (l.map fun e => (e.1, f e.2)) := by
  induction l with
  | nil => rfl
  | cons x l ih => simp only [hItems, List.map_cons, insertBy_map, ih]

theorem leChars_refl (a : List Char) : leChars a a = true := by
  induction a with
  | nil => rfl
  | cons c a ih => simp [leChars, ih]

theorem leChars_total (a b : List Char) : leChars a b = true ∨ leChars b a = true := by
  induction a generalizing b with
  | nil => exact Or.inl rfl
  | cons x a ih =>
    cases b with
    | nil => exact Or.inr rfl
    | cons y b =>
      simp only [leChars]
      by_cases h1 : x.toNat < y.toNat
      · simp [h1]
      · by_cases h2 : y.toNat < x.toNat
        · simp [h2]
        · simp [h1, h2, ih b]

theorem leChars_trans {a b c : List Char} (h1 : leChars a b = true) (h2 : leChars b c = true) :
    leChars a c = true := by
  induction a generalizing b c with
  | nil => rfl
  | cons x a ih =>
    cases b with
    | nil => cases h1
    | cons y b =>
      cases c with
      | nil => cases h2
      | cons z c =>
        simp only [leChars] at h1 h2 ⊢
        by_cases a1 : x.toNat < y.toNat
        · by_cases a2 : y.toNat < z.toNat
          · rw [if_pos (by omega)]
          · rw [if_neg a2] at h2
            by_cases a3 : z.toNat < y.toNat
            · rw [if_pos a3] at h2; cases h2
            · rw [if_pos (by omega)]
        · rw [if_neg a1] at h1
          by_cases a4 : y.toNat < x.toNat
          · rw [if_pos a4] at h1; cases h1
          · rw [if_neg a4] at h1
            by_cases a2 : y.toNat < z.toNat
            · rw [if_pos (by omega)]
            · rw [if_neg a2] at h2
              by_cases a3 : z.toNat < y.toNat
              · rw [if_pos a3] at h2; cases h2
              · rw [if_neg a3] at h2
                rw [if_neg (by omega), if_neg (by omega)]
                exact ih h1 h2

theorem insertBy_sorted {α : Type} (x : List Char × α) (l : List (List Char × α))
    (h : l.Pairwise fun a b => leChars a.1 b.1 = true) :
    (insertBy x l).Pairwise fun a b => leChars a.1 b.1 = true := by
  induction l with
  | nil => simp [insertBy]
  | cons y l ih =>
    rw [insertBy]
    rw [List.pairwise_cons] at h
    by_cases hx : leChars x.1 y.1 = true
    · rw [if_pos hx, List.pairwise_cons]
      refine ⟨?_, List.pairwise_cons.2 h⟩
      intro b hb
      rcases List.mem_cons.1 hb with rfl | hb
      · exact hx
      · exact leChars_trans hx (h.1 b hb)
    · rw [if_neg hx, List.pairwise_cons]
      refine ⟨?_, ih h.2⟩
      intro b hb
      rcases List.mem_cons.1 ((insertBy_perm x l).mem_iff.1 hb) with rfl | hb
      · exact (leChars_total b.1 y.1).resolve_left hx
      · exact h.1 b hb

theorem hItems_sorted {α : Type} (l : List (List Char × α)) :
    (hItems l).Pairwise fun a b => leChars a.1 b.1 = true := by
  induction l with
  | nil => exact List.Pairwise.nil
  | cons x l ih => exact insertBy_sorted x _ ih

/-- Members stored in the order of their names are visited in the order they were stored. -/
theorem hItems_of_sorted {α : Type} (l : List (List Char × α))
    (h : l.Pairwise fun a b => leChars a.1 b.1 = true) : hItems l = l := by
  induction l with
  | nil => rfl
  | cons x l ih =>
    rw [List.pairwise_cons] at h
    rw [hItems, ih h.2]
    cases l with
    | nil => rfl
    | cons y l => rw [insertBy, if_pos (h.1 y (by simp))]

/-! ### Column-major order -/

/-- `a.flatten(order="F")` of a two-dimensional array with `w` columns. -/
def flattenF {α : Type} (w : Nat) (rows : List (List α)) : List α :=
  (List.range w).flatMap fun j : Nat => rows.filterMap fun r => r[j]?

/-- `flat.reshape((n, w), order="F")` after the size check. -/
def unflattenF {α : Type} (n w : Nat) (flat : List α) : List (List α) :=
  (List.range n).map fun i : Nat => (List.range w).filterMap fun j : Nat => flat[j * n + i]?

/-- Width of the first row (0 without rows). -/
def widthOf {α : Type} (rows : List (List α)) : Nat := (rows.head?.map List.length).getD 0

theorem filterMap_eq_map {α β : Type} {f : α → Option β} {g : α → β} {l : List α}
    (h : ∀ a ∈ l, f a = some (g a)) : l.filterMap f = l.map g := by
  induction l with
  | nil => rfl
  | cons a l ih =>
    rw [List.filterMap_cons, h a (by simp), ih (fun b hb => h b (by simp [hb]))]; rfl

theorem getElem?_flatMap_const {α β : Type} (f : α → List β) (n : Nat) (l : List α)
    (h : ∀ a ∈ l, (f a).length = n) (j i : Nat) (hi : i < n) :
    (l.flatMap f)[j * n + i]? = (l[j]?).bind fun a => (f a)[i]? := by
  induction l generalizing j with
  | nil => simp
  | cons a l ih =>
    have ha := h a (by simp)
    rw [List.flatMap_cons]
    cases j with
    | zero =>
      rw [Nat.zero_mul, Nat.zero_add, List.getElem?_append_left (by omega)]
      rfl
    | succ j =>
      rw [List.getElem?_append_right (by rw [ha, Nat.succ_mul]; omega), ha,
        show (j + 1) * n + i - n = j * n + i by rw [Nat.succ_mul]; omega,
        ih (fun b hb => h b (List.mem_cons_of_mem _ hb))]
      rfl

theorem length_column {α : Type} (rows : List (List α)) (w j : Nat) (hw : ∀ r ∈ rows, r.length = w)
    (hj : j < w) : (rows.filterMap fun r => r[j]?).length = rows.length := by
  induction rows with
  | nil => rfl
  | cons r rows ih =>
    rw [List.filterMap_cons, List.getElem?_eq_getElem (by rw [hw r (by simp)]; exact hj)]
    simp [ih (fun r hr => hw r (List.mem_cons_of_mem _ hr))]

theorem getElem?_column {α : Type} (rows : List (List α)) (w j i : Nat) (hw : ∀ r ∈ rows, r.length = w)
    (hj : j < w) : (rows.filterMap fun r => r[j]?)[i]? = (rows[i]?).bind fun r => r[j]? := by
  induction rows generalizing i with
  | nil => simp
  | cons r rows ih =>
    have hr : j < r.length := by rw [hw r (by simp)]; exact hj
    rw [List.filterMap_cons, List.getElem?_eq_getElem hr]
    cases i with
    | zero => simp [List.getElem?_eq_getElem hr]
    | succ i => simpa using ih i (fun r hr => hw r (List.mem_cons_of_mem _ hr))

/-- Entry `(i, j)` of a column-major array with `n` rows is at position `j * n + i`. -/
theorem getElem?_flattenF {α : Type} (w : Nat) (rows : List (List α)) (hw : ∀ r ∈ rows, r.length = w)
    (i j : Nat) (hi : i < rows.length) (hj : j < w) :
    (flattenF w rows)[j * rows.length + i]? = (rows[i]?).bind fun r => r[j]? := by
  unfold flattenF
  rw [getElem?_flatMap_const _ rows.length _ (fun a ha => length_column rows w a hw (List.mem_range.1 ha)) j i hi]
  rw [List.getElem?_range hj]
  simp only [Option.bind_some]
  exact getElem?_column rows w j i hw hj

theorem length_flattenF {α : Type} (w : Nat) (rows : List (List α)) (hw : ∀ r ∈ rows, r.length = w) :
    (flattenF w rows).length = w * rows.length := by
  unfold flattenF
  rw [List.length_flatMap]
  have : (List.range w).map (fun j : Nat => (rows.filterMap fun r => r[j]?).length) =
      (List.range w).map fun _ => rows.length :=
    List.map_congr_left fun j hj => length_column rows w j hw (List.mem_range.1 hj)
  rw [this, List.map_const', List.sum_replicate_nat, List.length_range]

/-- Flattening column by column and reading column by column restores the array. -/
theorem unflattenF_flattenF {α : Type} (w : Nat) (rows : List (List α)) (hw : ∀ r ∈ rows, r.length = w) :
    unflattenF rows.length w (flattenF w rows) = rows := by
  apply List.ext_getElem?
  intro i
  unfold unflattenF
  rw [List.getElem?_map]
  rcases Nat.lt_or_ge i rows.length with hi | hi
  · rw [List.getElem?_range hi, List.getElem?_eq_getElem hi]
    simp only [Option.map_some, Option.some.injEq]
    have hr := hw _ (List.getElem_mem hi)
    have : ∀ j ∈ List.range w, (flattenF w rows)[j * rows.length + i]? = (rows[i])[j]? := by
      intro j hj
      rw [getElem?_flattenF w rows hw i j hi (List.mem_range.1 hj), List.getElem?_eq_getElem hi]
      rfl
    have h2 : (List.range w).filterMap (fun j : Nat => (flattenF w rows)[j * rows.length + i]?) =
        (List.range w).filterMap (fun j : Nat => (rows[i])[j]?) := by
      clear hr
      generalize List.range w = l at this
      induction l with
      | nil => rfl
      | cons a l ih =>
        rw [List.filterMap_cons, List.filterMap_cons, this a (by simp),
          ih (fun b hb => this b (List.mem_cons_of_mem _ hb))]
    rw [h2]
    generalize rows[i] = row at hr ⊢
    subst hr
    apply List.ext_getElem?
    intro j
    have : ∀ m, m ≤ row.length → (List.range m).filterMap (fun j : Nat => row[j]?) = row.take m := by
      intro m
      induction m with
      | zero => simp
      | succ m ih =>
        intro hm
        rw [List.range_succ, List.filterMap_append, ih (by omega), List.take_succ_eq_append_getElem (by omega)]
        simp [List.getElem?_eq_getElem (show m < row.length by omega)]
    rw [this _ (Nat.le_refl _), List.take_length]
  · rw [List.getElem?_eq_none (by simpa using hi), List.getElem?_eq_none hi]; rfl

end Meshio
