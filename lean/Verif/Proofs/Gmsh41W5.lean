/-
Writing Gmsh files of version 4.1: the order of the nodes.
-/
import Verif.Proofs.Gmsh41W4
namespace Meshio.Gmsh41
open Meshio Types Tables Gmsh Spec

variable {F : Type}

theorem entLt_irrefl (a : Int × Int) : ¬ EntLt a a := by
  unfold EntLt
  omega

theorem before_irrefl (m : In F) (i : Nat) : ¬ Msh4Before m i i := by
  rintro (h | ⟨-, h⟩)
  · exact entLt_irrefl _ h
  · omega

theorem before_asymm (m : In F) (i j : Nat) (h : Msh4Before m i j) : ¬ Msh4Before m j i := by
  unfold Msh4Before at *
  generalize (msh4NodeOwners m).getD i (0, 0) = a at *
  generalize (msh4NodeOwners m).getD j (0, 0) = b at *
  rcases h with h | ⟨h1, h2⟩
  · rintro (h' | ⟨h', -⟩)
    · exact entLt_irrefl a (entLt_trans h h')
    · rw [h'] at h; exact entLt_irrefl _ h
  · rintro (h' | ⟨-, h'⟩)
    · rw [h1] at h'; exact entLt_irrefl _ h'
    · omega

theorem order_sorted (lim : Nat) (m : In F) (h : Msh4In lim m) : (msh4Order m).Pairwise (Msh4Before m) := by
  have hown : ∀ e : Int × Int, ∀ i ∈ (List.range m.points.length).filter (fun i => decide ((msh4NodeOwners m)[i]? = some e)),
      (msh4NodeOwners m).getD i (0, 0) = e := by
    intro e i hi
    have := of_decide_eq_true (List.mem_filter.1 hi).2
    rw [List.getD_eq_getElem?_getD, this]
    rfl
  unfold msh4Order
  rw [List.pairwise_flatMap]
  refine ⟨?_, ?_⟩
  · intro e _
    refine List.Pairwise.imp_of_mem (R := (· < ·)) ?_ (List.pairwise_lt_range.filter _)
    intro a b ha hb hab
    right
    exact ⟨by rw [hown e a ha, hown e b hb], hab⟩
  · refine (pairUnique_sorted (msh4NodeOwners m)).imp ?_
    intro a b hab i hi j hj
    left
    rw [hown a i hi, hown b j hj]
    exact hab

theorem pos_inj (lim : Nat) (m : In F) (h : Msh4In lim m) (i j : Nat) (hi : i < m.points.length) (hj : j < m.points.length)
    (he : msh4Pos m i = msh4Pos m j) : i = j := by
  have h1 := getD_map_pos lim m h i hi
  have h2 := getD_map_pos lim m h j hj
  rw [he] at h1
  omega

theorem pairwise_idxOf {α : Type} [DecidableEq α] {R : α → α → Prop} (l : List α) (hp : l.Pairwise R) (a b : α) (ha : a ∈ l) (hb : b ∈ l)
    (h : l.idxOf a < l.idxOf b) : R a b := by
  have h1 := List.idxOf_lt_length_iff.2 ha
  have h2 := List.idxOf_lt_length_iff.2 hb
  have := List.pairwise_iff_getElem.1 hp _ _ h1 h2 h
  rwa [List.getElem_idxOf h1, List.getElem_idxOf h2] at this

theorem pos_before (lim : Nat) (m : In F) (h : Msh4In lim m) (i j : Nat) (hi : i < m.points.length) (hj : j < m.points.length) :
    msh4Pos m i < msh4Pos m j ↔ Msh4Before m i j := by
  have mi := (mem_order lim m h i).2 hi
  have mj := (mem_order lim m h j).2 hj
  constructor
  · exact pairwise_idxOf _ (order_sorted lim m h) i j mi mj
  · intro hb
    by_cases h1 : msh4Pos m i < msh4Pos m j
    · exact h1
    · exfalso
      by_cases h2 : msh4Pos m j < msh4Pos m i
      · exact before_asymm m i j hb (pairwise_idxOf _ (order_sorted lim m h) j i mj mi h2)
      · have := pos_inj lim m h i j hi hj (by omega)
        subst this
        exact before_irrefl m i hb

theorem order_id (lim : Nat) (m : In F) (h : Msh4In lim m)
    (hs : ∀ i j, i < j → j < m.points.length → ¬ EntLt ((msh4NodeOwners m).getD j (0, 0)) ((msh4NodeOwners m).getD i (0, 0))) :
    msh4Order m = List.range m.points.length := by
  refine List.Perm.eq_of_pairwise (le := fun a b => a < b) (by intros; omega) ?_ List.pairwise_lt_range (order_perm lim m h)
  refine List.Pairwise.imp_of_mem (R := Msh4Before m) ?_ (order_sorted lim m h)
  intro a b ha hb hab
  have ha' := (mem_order lim m h a).1 ha
  have hb' := (mem_order lim m h b).1 hb
  rcases hab with hab | ⟨-, hab⟩
  · by_cases h1 : a < b
    · exact h1
    · exfalso
      by_cases h2 : b < a
      · exact hs b a h2 ha' hab
      · have : a = b := by omega
        subst this
        exact entLt_irrefl _ hab
  · exact hab

theorem pos_id (lim : Nat) (m : In F) (h : Msh4In lim m)
    (hs : ∀ i j, i < j → j < m.points.length → ¬ EntLt ((msh4NodeOwners m).getD j (0, 0)) ((msh4NodeOwners m).getD i (0, 0)))
    (i : Nat) (hi : i < m.points.length) : msh4Pos m i = i := by
  have h1 := getD_map_pos lim m h i hi
  rw [order_id lim m h hs] at h1
  have h2 := pos_lt lim m h i hi
  rw [List.getD_eq_getElem?_getD, List.getElem?_map, List.getElem?_range h2] at h1
  simp at h1
  exact h1

/-! ### Refusals of the writer -/

theorem writeEntity_cases (io : GmshFloat F) (binary : Bool) (m : In F) (cdt : List (Int × Int)) (e : Int × Int) (h : m.physical = none)
    (h1 : (matching cdt e).length ≤ 1) : (∃ t, writeEntity io binary m cdt e = .ok t) ∨ writeEntity io binary m cdt e = .error .keyError := by
  unfold writeEntity
  rw [if_neg (by omega)]
  cases (matching cdt e).head? with
  | none => exact Or.inl ⟨_, rfl⟩
  | some k =>
    right
    simp only
    rw [h]
    rfl

end Meshio.Gmsh41
