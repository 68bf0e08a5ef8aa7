/-
Property theorems for mesh construction: C01.
-/
import Verif.Proofs.Mesh
namespace Meshio.Props
open Meshio Spec
variable {P R : Type}

section
variable (points : List P) (cells : List (String × NArr (List Int)))
  (pd : Dict (DataArr R)) (cd : Dict (List (DataArr R)))
  (ps : Dict (List Nat)) (cs : Dict (List (Option (List Nat))))

/-- C01: construction succeeds exactly for known cell types and data that matches
points and cell blocks in number and length. -/
theorem C01_accepts_iff :
    (∃ m, Mesh.new points cells pd cd ps cs = .ok m) ↔
      (∀ c ∈ cells, KnownType c.1) ∧ PointDataOk points.length pd ∧
        CellDataOk (cells.map (fun c => c.2.rows.length)) cd := by
  by_cases hk : ∀ c ∈ cells, KnownType c.1
  · obtain ⟨r, hr, hm⟩ := mapRes_new_known hk
    have hlens : (r.map (·.1)).map (fun c => c.data.rows.length)
        = cells.map (fun c => c.2.rows.length) := by rw [hm]; simp
    unfold Mesh.new
    rw [hr]
    rcases checkPointData_eq points.length pd with ⟨h1, h2⟩ | ⟨h1, h2⟩
    · rcases checkCellData_eq (r.map (·.1)) cd with ⟨h3, h4⟩ | ⟨h3, h4⟩
      · rw [hlens] at h4
        simp only [h1, h3]
        exact ⟨fun _ => ⟨hk, h2, h4⟩, fun _ => ⟨_, rfl⟩⟩
      · rw [hlens] at h4
        simp only [h1, h3]
        exact ⟨fun ⟨_, h⟩ => (nomatch h), fun h => absurd h.2.2 h4⟩
    · simp only [h1]
      exact ⟨fun ⟨_, h⟩ => (nomatch h), fun h => absurd h.2.1 h2⟩
  · unfold Mesh.new
    rw [mapRes_new_unknown hk]
    exact ⟨fun ⟨_, h⟩ => (nomatch h), fun h => absurd h.1 hk⟩

/-- C01: the mesh holds exactly what it was given, in order. -/
theorem C01_result (m : Mesh P R) (h : Mesh.new points cells pd cd ps cs = .ok m) :
    m.points = points ∧ m.cells = cells.map (fun c => ⟨c.1, c.2⟩) ∧ m.pointData = pd ∧
      m.cellData = cd ∧ m.pointSets = ps ∧ m.cellSets = cs := by
  have hk := ((C01_accepts_iff points cells pd cd ps cs).mp ⟨m, h⟩).1
  obtain ⟨r, hr, hm⟩ := mapRes_new_known hk
  unfold Mesh.new at h
  rw [hr] at h
  simp only at h
  split at h
  · cases h
  · split at h
    · cases h
    · cases h; exact ⟨rfl, hm, rfl, rfl, rfl, rfl⟩

/-- C01: every accepted mesh is consistent. -/
theorem C01_consistent (m : Mesh P R) (h : Mesh.new points cells pd cd ps cs = .ok m) :
    Consistent m := by
  have h1 := (C01_accepts_iff points cells pd cd ps cs).mp ⟨m, h⟩
  obtain ⟨e1, e2, e3, e4, _, _⟩ := C01_result points cells pd cd ps cs m h
  unfold Consistent
  rw [e1, e2, e3, e4]
  refine ⟨h1.2.1, ?_⟩
  simpa [Function.comp_def] using h1.2.2

/-- C01: a rejected input raises KeyError if a cell type is unknown and ValueError
if the types are known but the data does not fit. -/
theorem C01_error_kind (e : Err) (h : Mesh.new points cells pd cd ps cs = .error e) :
    (¬ (∀ c ∈ cells, KnownType c.1) ∧ e = .keyError) ∨
      ((∀ c ∈ cells, KnownType c.1) ∧ e = .valueError) := by
  by_cases hk : ∀ c ∈ cells, KnownType c.1
  · right
    obtain ⟨r, hr, hm⟩ := mapRes_new_known hk
    refine ⟨hk, ?_⟩
    unfold Mesh.new at h
    rw [hr] at h
    rcases checkPointData_eq points.length pd with ⟨h1, _⟩ | ⟨h1, _⟩
    · rcases checkCellData_eq (r.map (·.1)) cd with ⟨h3, _⟩ | ⟨h3, _⟩
      · simp only [h1, h3] at h; cases h
      · simp only [h1, h3] at h; cases h; rfl
    · simp only [h1] at h; cases h; rfl
  · left
    unfold Mesh.new at h
    rw [mapRes_new_unknown hk] at h
    cases h
    exact ⟨hk, rfl⟩

end

/-- A mesh with two blocks, point data and cell data, used to show that hypotheses
can be met. -/
def demoMesh : Mesh Nat Nat where
  points := [10, 11, 12, 13, 14]
  cells := [⟨"triangle", ⟨[3], [[0, 1, 2], [1, 2, 3]]⟩⟩, ⟨"line", ⟨[2], [[0, 4]]⟩⟩,
            ⟨"triangle", ⟨[3], [[2, 3, 4]]⟩⟩]
  pointData := [("p", ⟨false, ⟨[], [.other 0, .other 1, .other 2, .other 3, .other 4]⟩⟩)]
  cellData := [("a", [intArr [7, 8], intArr [9], intArr [7]])]
  pointSets := [("left", [0, 1]), ("right", [2, 3, 4])]
  cellSets := [("A", [some [0], some [0], some []]), ("B", [some [1], some [], some [0]])]

example : Mesh.new demoMesh.points (demoMesh.cells.map (fun c => (c.type, c.data)))
    demoMesh.pointData demoMesh.cellData demoMesh.pointSets demoMesh.cellSets = .ok demoMesh := by
  decide

/-- One array too few is rejected. -/
example : Mesh.new (P := Nat) (R := Nat) [1] [("line", ⟨[2], [[0, 0]]⟩)] [] [("a", [])] [] []
    = .error .valueError := by decide

end Meshio.Props
