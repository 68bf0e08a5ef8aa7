/-
Helper lemmas about the model of `_mesh.py`.
-/
import Verif.Model.Mesh
import Verif.Spec.Mesh
import Verif.Proofs.Common
namespace Meshio
variable {P R : Type}

theorem startsWith_iff (p s : String) :
    startsWith p s = true ↔ ∃ rest, s.toList = p.toList ++ rest := by
  unfold startsWith
  rw [List.isPrefixOf_iff_prefix]
  constructor
  · rintro ⟨r, hr⟩; exact ⟨r, hr.symm⟩
  · rintro ⟨r, hr⟩; exact ⟨r, hr.symm⟩

theorem CellBlock.new_known {t : String} {data : NArr (List Int)} (h : Spec.KnownType t) :
    ∃ d, CellBlock.new t data = .ok (⟨t, data⟩, d) := by
  unfold CellBlock.new
  by_cases hp : startsWith "polyhedron" t = true
  · rw [if_pos hp]; exact ⟨_, rfl⟩
  · rw [if_neg hp]
    rcases h with h | h
    · exact absurd ((startsWith_iff _ _).mpr h) hp
    · obtain ⟨v, hv⟩ := (Dict.mem_keys_iff topologicalDimension t).mp h
      rw [hv]; exact ⟨_, rfl⟩

theorem CellBlock.new_unknown {t : String} {data : NArr (List Int)} (h : ¬ Spec.KnownType t) :
    CellBlock.new t data = .error .keyError := by
  unfold CellBlock.new
  have hp : ¬ startsWith "polyhedron" t = true := fun hp => h (.inl ((startsWith_iff _ _).mp hp))
  rw [if_neg hp]
  have : topologicalDimension.get? t = none :=
    (Dict.get?_eq_none_iff _ _).mpr (fun hm => h (.inr hm))
  rw [this]

theorem mapRes_new_known {cells : List (String × NArr (List Int))}
    (h : ∀ c ∈ cells, Spec.KnownType c.1) :
    ∃ r, mapRes (fun c => CellBlock.new c.1 c.2) cells = .ok r ∧
      r.map (·.1) = cells.map (fun c => ⟨c.1, c.2⟩) := by
  induction cells with
  | nil => exact ⟨[], rfl, rfl⟩
  | cons c l ih =>
    obtain ⟨r, hr, hm⟩ := ih (fun x hx => h x (List.mem_cons_of_mem _ hx))
    obtain ⟨d, hd⟩ := CellBlock.new_known (data := c.2) (h c (by simp))
    refine ⟨(⟨c.1, c.2⟩, d) :: r, ?_, ?_⟩
    · simp only [mapRes, hd, hr]
    · simp [hm]

theorem mapRes_new_unknown {cells : List (String × NArr (List Int))}
    (h : ¬ ∀ c ∈ cells, Spec.KnownType c.1) :
    mapRes (fun c => CellBlock.new c.1 c.2) cells = .error .keyError := by
  induction cells with
  | nil => exact absurd (by simp) h
  | cons c l ih =>
    by_cases hc : Spec.KnownType c.1
    · obtain ⟨d, hd⟩ := CellBlock.new_known (data := c.2) hc
      have : ¬ ∀ x ∈ l, Spec.KnownType x.1 := by
        intro hl; apply h
        intro x hx
        rcases List.mem_cons.mp hx with hx | hx
        · rw [hx]; exact hc
        · exact hl x hx
      simp only [mapRes, hd, ih this]
    · simp only [mapRes, CellBlock.new_unknown hc]

theorem checkPointData_eq (n : Nat) (pd : Dict (DataArr R)) :
    (checkPointData n pd = .ok () ∧ Spec.PointDataOk n pd) ∨
    (checkPointData n pd = .error .valueError ∧ ¬ Spec.PointDataOk n pd) := by
  induction pd with
  | nil => left; exact ⟨rfl, by simp [Spec.PointDataOk]⟩
  | cons kv pd ih =>
    obtain ⟨k, a⟩ := kv
    simp only [checkPointData]
    by_cases h : a.len ≠ n
    · right
      rw [if_pos h]
      refine ⟨rfl, fun hok => h ?_⟩
      exact hok (k, a) (by simp)
    · rw [if_neg h]
      have h' : a.arr.rows.length = n := Classical.byContradiction h
      rcases ih with ⟨h1, h2⟩ | ⟨h1, h2⟩
      · left
        refine ⟨h1, ?_⟩
        intro x hx
        rcases List.mem_cons.mp hx with hx | hx
        · rw [hx]; exact h'
        · exact h2 x hx
      · right
        exact ⟨h1, fun hok => h2 (fun x hx => hok x (List.mem_cons_of_mem _ hx))⟩

theorem checkBlockLens_eq (l : List (DataArr R)) (cells : List CellBlock)
    (hl : l.length = cells.length) :
    (checkBlockLens l cells = .ok () ∧
      l.map (fun a => a.arr.rows.length) = cells.map (fun c => c.data.rows.length)) ∨
    (checkBlockLens l cells = .error .valueError ∧
      ¬ l.map (fun a => a.arr.rows.length) = cells.map (fun c => c.data.rows.length)) := by
  induction l generalizing cells with
  | nil =>
    cases cells with
    | nil => left; exact ⟨rfl, rfl⟩
    | cons => simp at hl
  | cons a l ih =>
    cases cells with
    | nil => simp at hl
    | cons c cs =>
      simp only [checkBlockLens, List.map_cons, List.cons.injEq]
      by_cases h : a.len ≠ c.len
      · right; rw [if_pos h]; exact ⟨rfl, fun hh => h hh.1⟩
      · rw [if_neg h]
        have h' : a.arr.rows.length = c.data.rows.length := Classical.byContradiction h
        rcases ih cs (by simpa using hl) with ⟨h1, h2⟩ | ⟨h1, h2⟩
        · left; exact ⟨h1, h', h2⟩
        · right; exact ⟨h1, fun hh => h2 hh.2⟩

theorem checkCellData_eq (cells : List CellBlock) (cd : Dict (List (DataArr R))) :
    (checkCellData cells cd = .ok () ∧
      Spec.CellDataOk (cells.map (fun c => c.data.rows.length)) cd) ∨
    (checkCellData cells cd = .error .valueError ∧
      ¬ Spec.CellDataOk (cells.map (fun c => c.data.rows.length)) cd) := by
  induction cd with
  | nil => left; exact ⟨rfl, by simp [Spec.CellDataOk]⟩
  | cons kl cd ih =>
    obtain ⟨k, l⟩ := kl
    simp only [checkCellData]
    by_cases h : l.length ≠ cells.length
    · right
      rw [if_pos h]
      refine ⟨rfl, fun hok => h ?_⟩
      have := congrArg List.length (hok (k, l) (by simp))
      simpa using this
    · rw [if_neg h]
      have h' : l.length = cells.length := Classical.byContradiction h
      rcases checkBlockLens_eq l cells h' with ⟨h1, h2⟩ | ⟨h1, h2⟩
      · rw [h1]
        rcases ih with ⟨h3, h4⟩ | ⟨h3, h4⟩
        · left
          refine ⟨h3, ?_⟩
          intro x hx
          rcases List.mem_cons.mp hx with hx | hx
          · rw [hx]; exact h2
          · exact h4 x hx
        · right
          exact ⟨h3, fun hok => h4 (fun x hx => hok x (List.mem_cons_of_mem _ hx))⟩
      · right
        rw [h1]
        exact ⟨rfl, fun hok => h2 (hok (k, l) (by simp))⟩

end Meshio
