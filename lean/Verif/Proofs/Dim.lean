/-
Helper lemmas about types with a dimension.
-/
import Verif.Model.Dim
import Verif.Proofs.Mesh
namespace Meshio

theorem hasDim_iff (t : String) : hasDim t = true ↔ Spec.KnownType t := by
  unfold hasDim Spec.KnownType
  rw [Bool.or_eq_true, startsWith_iff, Option.isSome_iff_exists]
  exact or_congr Iff.rfl (Dict.mem_keys_iff topologicalDimension t).symm

instance (t : String) : Decidable (Spec.KnownType t) := decidable_of_iff _ (hasDim_iff t)

/-- `hasDim` decides whether the constructor of `CellBlock` accepts a type. -/
theorem hasDim_new (t : String) (data : NArr (List Int)) :
    (hasDim t = true → ∃ d, CellBlock.new t data = .ok (⟨t, data⟩, d)) ∧ (hasDim t = false → CellBlock.new t data = .error .keyError) := by
  refine ⟨fun h => CellBlock.new_known ((hasDim_iff t).1 h), fun h => CellBlock.new_unknown ?_⟩
  intro hk
  rw [(hasDim_iff t).2 hk] at h
  cases h

theorem all_hasDim {α : Type} (g : α → String) (l : List α) : l.all (fun a => hasDim (g a)) = true ↔ ∀ a ∈ l, Spec.KnownType (g a) := by
  rw [List.all_eq_true]
  exact ⟨fun h a ha => (hasDim_iff _).1 (h a ha), fun h a ha => (hasDim_iff _).2 (h a ha)⟩

end Meshio
