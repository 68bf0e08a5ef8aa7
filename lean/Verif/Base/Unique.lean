/-
`np.unique` on integers: the sorted distinct entries.
-/
import Verif.Base.Err
namespace Meshio

/-- Put a number into a strictly ascending list. -/
def uinsert (x : Int) : List Int → List Int
  | [] => [x]
  | y :: l => if x < y then x :: y :: l else if x = y then y :: l else y :: uinsert x l

/-- `np.unique(l)` -/
def intUnique (l : List Int) : List Int := l.foldr uinsert []

theorem mem_uinsert {x a : Int} {l : List Int} : a ∈ uinsert x l ↔ a = x ∨ a ∈ l := by
  induction l with
  | nil => simp [uinsert]
  | cons y l ih =>
    rw [uinsert]
    split
    · simp
    · split
      · next h => subst h; simp
      · rw [List.mem_cons, ih, List.mem_cons]
        constructor
        · rintro (h | h | h) <;> simp [h]
        · rintro (h | h | h) <;> simp [h]

theorem mem_intUnique {a : Int} {l : List Int} : a ∈ intUnique l ↔ a ∈ l := by
  induction l with
  | nil => simp [intUnique]
  | cons x l ih =>
    have : intUnique (x :: l) = uinsert x (intUnique l) := rfl
    rw [this, mem_uinsert, ih, List.mem_cons]

theorem uinsert_sorted {x : Int} {l : List Int} (h : l.Pairwise (· < ·)) : (uinsert x l).Pairwise (· < ·) := by
  induction l with
  | nil => simp [uinsert]
  | cons y l ih =>
    rw [List.pairwise_cons] at h
    rw [uinsert]
    split
    · next hx =>
      rw [List.pairwise_cons]
      refine ⟨?_, List.pairwise_cons.2 h⟩
      intro a ha
      rcases List.mem_cons.1 ha with rfl | ha
      · exact hx
      · have := h.1 a ha
        omega
    · split
      · exact List.pairwise_cons.2 h
      · rw [List.pairwise_cons]
        refine ⟨?_, ih h.2⟩
        intro a ha
        rcases mem_uinsert.1 ha with rfl | ha
        · omega
        · exact h.1 a ha

/-- The entries come out in ascending order, each once. -/
theorem intUnique_sorted (l : List Int) : (intUnique l).Pairwise (· < ·) := by
  induction l with
  | nil => exact List.Pairwise.nil
  | cons x l ih => exact uinsert_sorted ih

/-- A strictly ascending list with the same entries is the result. -/
theorem intUnique_eq {l u : List Int} (hs : u.Pairwise (· < ·)) (hm : ∀ a, a ∈ u ↔ a ∈ l) : intUnique l = u := by
  have h1 := intUnique_sorted l
  refine List.Perm.eq_of_pairwise ?_ h1 hs ?_
  · intro a b _ _ h1 h2
    omega
  · rw [List.perm_ext_iff_of_nodup]
    · intro a
      rw [mem_intUnique, hm]
    · exact h1.imp (fun h e => by omega)
    · exact hs.imp (fun h e => by omega)

end Meshio
