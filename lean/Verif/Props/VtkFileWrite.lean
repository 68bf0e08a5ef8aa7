/-
C63: what is written to a legacy VTK file, and that it is read back.
-/
import Verif.Props.VtkFile
import Verif.Proofs.VtkFileWrite
namespace Meshio.Props
open Meshio Meshio.Spec Meshio.Vtk Meshio.VtkFile

variable {V : Type} {io : VtkIO V} {has : String → V → Prop}

/-- **The file written says what the mesh is**, in both versions, as text and in binary. -/
theorem C63_file (hio : VtkLaws io has) {v : Ver} {binary : Bool} {m : In V} (h : VtkMesh has v binary m) (title : List Char) (ht : '\n' ∉ title) :
    ∃ s, write io v title binary m = .ok s ∧ vtkFileSays io has v (!binary) "UNSTRUCTURED_GRID" (vtkSections io.zero m) s :=
  write_says hio h title ht

theorem vtkw_points (zero : String → V) (m : In V) : vtkPoints (vtkSections zero m) = some (vtkKept zero m.points) := by
  unfold vtkSections
  by_cases h1 : m.pointData = [] <;> by_cases h2 : m.cellData = [] <;> simp [h1, h2, vtkPoints]

theorem vtkw_cells (zero : String → V) (m : In V) : vtkCells (vtkSections zero m) = some (vtkCellsOf m.cells) := by
  unfold vtkSections
  by_cases h1 : m.pointData = [] <;> by_cases h2 : m.cellData = [] <;> simp [h1, h2, vtkCells]

theorem vtkw_types (zero : String → V) (m : In V) : vtkTypes (vtkSections zero m) = some ((vtkCellsOf m.cells).map (·.1)) := by
  unfold vtkSections
  by_cases h1 : m.pointData = [] <;> by_cases h2 : m.cellData = [] <;> simp [h1, h2, vtkTypes]

theorem vtkw_pointData (zero : String → V) (m : In V) :
    vtkArraysFor .point {} (vtkSections zero m) = m.pointData.map fun kv => (kv.1, vtkKept zero kv.2) := by
  unfold vtkSections
  by_cases h1 : m.pointData = [] <;> by_cases h2 : m.cellData = [] <;> simp [h1, h2, vtkArraysFor, VtkSec.next, VtkSec.named]

theorem vtkw_cellData (zero : String → V) (m : In V) :
    vtkArraysFor .cell {} (vtkSections zero m) = m.cellData.map fun kv => (kv.1, vtkKept zero (vtkJoin kv.2)) := by
  unfold vtkSections
  by_cases h1 : m.pointData = [] <;> by_cases h2 : m.cellData = [] <;> simp [h1, h2, vtkArraysFor, VtkSec.next, VtkSec.named]

theorem vtkw_other (zero : String → V) (m : In V) : vtkArraysFor .other {} (vtkSections zero m) = [] := by
  unfold vtkSections
  by_cases h1 : m.pointData = [] <;> by_cases h2 : m.cellData = [] <;> simp [h1, h2, vtkArraysFor, VtkSec.next, VtkSec.named]

theorem vtkw_dict {α : Type} (l : List (String × α)) (h : (l.map (·.1)).Nodup) : vtkDict l = l := by
  have := dict_of_nodup l h [] (by simp [Dict.keys])
  simpa [vtkDict] using this

/-- The mesh that comes back: neighbouring blocks of the same type and width are one, rows of two got a zero, arrays with one column have
one axis. -/
def vtkBack (zero : String → V) (m : In V) : Out V :=
  ⟨some (vtkKept zero m.points), fuse (m.cells.map Blk2.blk), m.pointData.map fun kv => (kv.1, vtkKept zero kv.2),
    m.cellData.map fun kv => (kv.1, (fuseData (m.cells.map Blk2.blk) (vtkKept zero (vtkJoin kv.2)).rows).map fun rows =>
      ⟨(vtkKept zero (vtkJoin kv.2)).dtype, (vtkKept zero (vtkJoin kv.2)).tail, rows⟩), []⟩

theorem vtkw_lengths {v : Ver} {binary : Bool} {m : In V} (h : VtkMesh has v binary m) :
    ∀ kv ∈ m.cellData, (vtkKept io.zero (vtkJoin kv.2)).rows.length = (vtkCellsOf m.cells).length := by
  intro kv hkv
  obtain ⟨-, hl, -⟩ := h.cellData kv hkv
  rw [(kept_rows _).2.2.2.2, length_vtkCellsOf]
  unfold vtkJoin totalCells
  simp only [List.length_flatMap, hl]

theorem vtkw_codes {v : Ver} {binary : Bool} {m : In V} (h : VtkMesh has v binary m) :
    ∀ b ∈ m.cells.map Blk2.blk, ∃ c, vtkCode b.1 = some c := by
  intro b hb
  obtain ⟨b', hb', rfl⟩ := List.mem_map.1 hb
  exact (h.cells b' hb').1

theorem vtkw_rows (bs : List Blk2) : (rowsOf (bs.map Blk2.blk)).length = (vtkCellsOf bs).length := by
  rw [← cellsOf_blk, cellsOf_eq, List.length_map]

theorem vtkw_cellData_back {v : Ver} {binary : Bool} {m : In V} (h : VtkMesh has v binary m) :
    vtkCellData (vtkCellsOf m.cells) (m.cellData.map fun kv => (kv.1, vtkKept io.zero (vtkJoin kv.2))) = (vtkBack io.zero m).cellData := by
  have hb : vtkBlocks (vtkCellsOf m.cells) = fuse (m.cells.map Blk2.blk) := by
    rw [← cellsOf_blk]; exact vtkBlocks_cellsOf _ (vtkw_codes h)
  unfold vtkCellData vtkBack
  rw [hb]
  simp only
  by_cases hc : m.cellData = []
  · rw [hc]; simp
  · obtain ⟨kv, hkv⟩ := List.exists_mem_of_ne_nil _ hc
    have hne := (h.cellData kv hkv).1
    rw [if_neg]
    · rw [List.map_map]
      apply List.map_congr_left
      intro kv hkv
      simp only [Function.comp_def]
      rw [← cellsOf_blk, vtkData_cellsOf _ (vtkw_codes h) _ (by rw [vtkw_lengths h kv hkv, vtkw_rows])]
    · intro e
      have := C19_fuse_rows (m.cells.map Blk2.blk)
      rw [e] at this
      have hl := vtkw_rows m.cells
      rw [← this] at hl
      exact hne (cells_nil h.cells (List.length_eq_zero_iff.1 hl.symm))

theorem vtkw_fixed {v : Ver} {binary : Bool} {m : In V} (h : VtkMesh has v binary m)
    (hk : ∀ b ∈ m.cells, KnownType b.type) : ∀ c ∈ vtkCellsOf m.cells, ∀ t, vtkName c.1 = some t → KnownType t := by
  intro c hc t ht
  obtain ⟨b, hb, hc⟩ := List.mem_flatMap.1 hc
  obtain ⟨r, hr, rfl⟩ := List.mem_map.1 hc
  obtain ⟨⟨code, hcode⟩, -⟩ := h.cells b hb
  simp only [hcode, Option.getD_some] at ht
  rw [vtkCode_iff.1 hcode] at ht
  cases ht
  exact hk b hb

/-- **Version 4.2: cells of fixed size are read back with all data.** -/
theorem C63_roundtrip42 (hio : VtkLaws io has) {binary : Bool} {m : In V} (h : VtkMesh has .v42 binary m)
    (hfix : ∀ b ∈ m.cells, KnownType b.type ∧ FixedBlock b.blk) (title : List Char) (ht : '\n' ∉ title) :
    ∃ s, write io .v42 title binary m = .ok s ∧ read io s = .ok (vtkBack io.zero m) := by
  obtain ⟨s, hw, hs⟩ := C63_file hio h title ht
  refine ⟨s, hw, ?_⟩
  have hn1 : ((m.pointData.map fun kv => (kv.1, vtkKept io.zero kv.2)).map (·.1)).Nodup := by rw [List.map_map]; exact h.pointNames.1
  have hn2 : ((m.cellData.map fun kv => (kv.1, vtkKept io.zero (vtkJoin kv.2))).map (·.1)).Nodup := by rw [List.map_map]; exact h.cellNames.1
  have := C62_read42 hio hs (vtkw_points _ _) (vtkw_cells _ _) (vtkw_types _ _)
    (by
      rw [← cellsOf_blk]
      apply fixed_cells
      intro b hb
      obtain ⟨b', hb', rfl⟩ := List.mem_map.1 hb
      exact (hfix b' hb').2)
    (vtkw_fixed h fun b hb => (hfix b hb).1)
    (by
      rw [vtkw_pointData]
      intro kv hkv
      obtain ⟨x, hx, rfl⟩ := List.mem_map.1 hkv
      simp only
      rw [(kept_rows _).2.2.2.2, (kept_rows _).2.2.2.2]
      exact (h.pointData x hx).2)
    (by
      rw [vtkw_cellData]
      intro kv hkv
      obtain ⟨x, hx, rfl⟩ := List.mem_map.1 hkv
      exact vtkw_lengths h x hx)
  rw [this, vtkw_pointData, vtkw_cellData, vtkw_other, vtkw_dict _ hn1, vtkw_dict _ hn2, vtkw_cellData_back h, ← cellsOf_blk,
    vtkBlocks_cellsOf _ (vtkw_codes h)]
  rfl

/-- With polygons of version 4.2 the cells come back, but no cell data. -/
theorem C63_polygons42_partial (hio : VtkLaws io has) {binary : Bool} {m : In V} (h : VtkMesh has .v42 binary m)
    (hk : ∀ b ∈ m.cells, KnownType b.type) (hp : ∃ b ∈ m.cells, b.type = "polygon") (title : List Char) (ht : '\n' ∉ title) :
    ∃ s, write io .v42 title binary m = .ok s ∧ read io s = .ok { vtkBack io.zero m with cellData := [] } := by
  obtain ⟨s, hw, hs⟩ := C63_file hio h title ht
  refine ⟨s, hw, ?_⟩
  have hn1 : ((m.pointData.map fun kv => (kv.1, vtkKept io.zero kv.2)).map (·.1)).Nodup := by rw [List.map_map]; exact h.pointNames.1
  have := C62_read42_polygons hio hs (vtkw_points _ _) (vtkw_cells _ _) (vtkw_types _ _)
    (by
      intro c hc
      obtain ⟨b, hb, hc⟩ := List.mem_flatMap.1 hc
      obtain ⟨r, hr, rfl⟩ := List.mem_map.1 hc
      obtain ⟨⟨code, hcode⟩, -, -, h4, h5⟩ := h.cells b hb
      simp only [StreamCell, hcode, Option.getD_some, length_toVtk]
      refine ⟨⟨_, vtkCode_iff.1 hcode⟩, fun e => ?_⟩
      subst e
      have hn := vtkCode_iff.1 hcode
      rw [(by decide +kernel : vtkName 13 = some "wedge")] at hn
      injection hn with hn
      rw [h4 r hr, h5 hn.symm])
    (by
      obtain ⟨b, hb, hbt⟩ := hp
      obtain ⟨r, hr⟩ := List.exists_mem_of_ne_nil _ (h.cells b hb).2.1
      refine ⟨_, List.mem_flatMap.2 ⟨b, hb, List.mem_map.2 ⟨r, hr, rfl⟩⟩, ?_⟩
      simp only [hbt]
      decide +kernel)
    (vtkw_fixed h hk)
    (by
      rw [vtkw_pointData]
      intro kv hkv
      obtain ⟨x, hx, rfl⟩ := List.mem_map.1 hkv
      simp only
      rw [(kept_rows _).2.2.2.2, (kept_rows _).2.2.2.2]
      exact (h.pointData x hx).2)
  rw [this, vtkw_pointData, vtkw_other, vtkw_dict _ hn1, ← cellsOf_blk, vtkBlocks_cellsOf _ (vtkw_codes h)]
  rfl

/-- **Version 5.1: any non-empty list of blocks is read back with all data**, also polygons. -/
theorem C63_roundtrip51 (hio : VtkLaws io has) {binary : Bool} {m : In V} (h : VtkMesh has .v51 binary m) (hne : m.cells ≠ [])
    (hb : ∀ b ∈ m.cells, Block51 b) (title : List Char) (ht : '\n' ∉ title) :
    ∃ s, write io .v51 title binary m = .ok s ∧ read io s = .ok (vtkBack io.zero m) := by
  obtain ⟨s, hw, hs⟩ := C63_file hio h title ht
  refine ⟨s, hw, ?_⟩
  have hn1 : ((m.pointData.map fun kv => (kv.1, vtkKept io.zero kv.2)).map (·.1)).Nodup := by rw [List.map_map]; exact h.pointNames.1
  have hn2 : ((m.cellData.map fun kv => (kv.1, vtkKept io.zero (vtkJoin kv.2))).map (·.1)).Nodup := by rw [List.map_map]; exact h.cellNames.1
  have := C62_read51 hio hs (vtkw_points _ _) (vtkw_cells _ _) (vtkw_types _ _) (fun e => hne (cells_nil h.cells e))
    (by
      intro c hc
      obtain ⟨b, hb', hc⟩ := List.mem_flatMap.1 hc
      obtain ⟨r, hr, rfl⟩ := List.mem_map.1 hc
      obtain ⟨⟨code, h1, h2, h3⟩, _, _, h4⟩ := hb b hb'
      refine .inr ⟨b.type, ?_, h2, ?_⟩
      · simp only [h1, Option.getD_some]; exact vtkCode_iff.1 h1
      · simp only [h1, Option.getD_some, length_toVtk, h4 _ hr]; exact h3)
    (by
      rw [vtkw_pointData]
      intro kv hkv
      obtain ⟨x, hx, rfl⟩ := List.mem_map.1 hkv
      simp only
      rw [(kept_rows _).2.2.2.2, (kept_rows _).2.2.2.2]
      exact (h.pointData x hx).2)
    (by
      rw [vtkw_cellData]
      intro kv hkv
      obtain ⟨x, hx, rfl⟩ := List.mem_map.1 hkv
      exact vtkw_lengths h x hx)
  rw [this, vtkw_pointData, vtkw_cellData, vtkw_other, vtkw_dict _ hn1, vtkw_dict _ hn2, vtkw_cellData_back h, ← cellsOf_blk,
    vtkBlocks_cellsOf _ (vtkw_codes h)]
  rfl

/-- A cloud of points written by the 5.1 writer cannot be read (IndexError). -/
theorem C63_no_cells51 (hio : VtkLaws io has) {binary : Bool} {m : In V} (h : VtkMesh has .v51 binary m) (hne : m.cells = []) (title : List Char)
    (ht : '\n' ∉ title) : ∃ s, write io .v51 title binary m = .ok s ∧ read io s = .error .indexError := by
  obtain ⟨s, hw, hs⟩ := C63_file hio h title ht
  refine ⟨s, hw, C62_read51_no_cells hio hs ?_ ?_⟩
  · rw [vtkw_cells, hne]; rfl
  · rw [vtkw_types, hne]; rfl

end Meshio.Props
