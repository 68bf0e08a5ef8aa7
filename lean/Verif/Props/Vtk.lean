/-
C18: `vtk_cells_from_data`.
-/
import Verif.Proofs.Vtk
import Verif.Base.ListX
namespace Meshio.Props
open Meshio Meshio.Spec Meshio.Vtk

variable {R : Type}

/-- C18.  For every non-empty list of readable VTK cells, their concatenated node lists
(with anything after them), their end offsets, their type codes and any number of data
arrays with one row per cell decode to exactly: one block per maximal run of cells of
equal type and size, in file order, every cell with its own nodes in meshio order, cells
of types meshio does not know left out, and every data array cut at the same places. -/
theorem C18_decode (cs : List VtkCell) (hne : cs ≠ []) (hcs : ∀ c ∈ cs, Readable c)
    (extra : List Int) (raw : Dict (List R)) (hraw : Dict.Ok raw)
    (hdata : ∀ kd ∈ raw, kd.2.length = cs.length) :
    vtkCellsFromData (connectivityOf cs ++ extra) (endsFrom 0 cs) (cs.map (·.1)) raw =
      .ok (vtkBlocks cs,
        if vtkBlocks cs = [] then [] else raw.map (fun kd => (kd.1, vtkData cs kd.2))) :=
  vtkCellsFromData_ok cs hne hcs extra raw hraw hdata

/-- The cell as the mesh has it: type name and nodes in meshio order. -/
def C18_cell (c : VtkCell) : Option (String × List Int) :=
  (vtkName c.1).map (fun t => (t, fromVtk c.1 c.2))

private theorem vtkBlock_cells (r : List VtkCell) (hu : ∀ a ∈ r, ∀ b ∈ r, a.1 = b.1) :
    ((vtkBlock r).toList.flatMap (fun b => b.2.map (fun row => (b.1, row)))) =
      r.filterMap C18_cell := by
  cases r with
  | nil => rfl
  | cons c r =>
    have hc : ∀ d ∈ c :: r, d.1 = c.1 := fun d hd => hu d hd c (by simp)
    cases hn : vtkName c.1 with
    | none =>
      simp only [vtkBlock, hn]
      symm
      simp only [Option.map_none, Option.toList_none, List.flatMap_nil, List.filterMap_eq_nil_iff]
      intro d hd
      simp [C18_cell, hc d hd, hn]
    | some t =>
      simp only [vtkBlock, hn, Option.map_some, Option.toList_some, List.flatMap_cons,
        List.flatMap_nil, List.append_nil, List.map_map]
      rw [← List.filterMap_eq_map]
      apply filterMap_congr'
      intro d hd
      simp [C18_cell, hc d hd, hn]

/-- No cell of a known type is lost, none is invented and the order is the file's. -/
theorem C18_cells_in_order (cs : List VtkCell) :
    (vtkBlocks cs).flatMap (fun b => b.2.map (fun row => (b.1, row))) = cs.filterMap C18_cell := by
  unfold vtkBlocks
  rw [flatMap_filterMap_toList]
  have h := flatten_runsBy (fun c : VtkCell => (c.1, c.2.length)) cs
  conv => rhs; rw [← h]
  rw [filterMap_flatten]
  unfold vtkRuns
  apply flatMap_congr'
  intro r hr
  apply vtkBlock_cells
  intro a ha b hb
  have := runsBy_uniform _ _ r hr a ha b hb
  simp only [Prod.mk.injEq] at this
  exact this.1

/-- The data rows, in order, are those of the cells of known types. -/
theorem C18_data_in_order (cs : List VtkCell) (d : List R) :
    (vtkData cs d).flatten =
      (cs.zip d).filterMap (fun cx => (vtkName cx.1.1).map (fun _ => cx.2)) := by
  unfold vtkData
  have h := flatten_runsBy (fun c : VtkCell × R => (c.1.1, c.1.2.length)) (cs.zip d)
  conv => rhs; rw [← h]
  rw [filterMap_flatten, ← List.flatMap_id, flatMap_filterMap_toList]
  apply flatMap_congr'
  intro r hr
  have hu := runsBy_uniform _ _ r hr
  cases r with
  | nil => rfl
  | cons c r =>
    have hc : ∀ x ∈ c :: r, x.1.1 = c.1.1 := by
      intro x hx
      have := hu x hx c (by simp)
      simp only [Prod.mk.injEq] at this
      exact this.1
    cases hn : vtkName c.1.1 with
    | none =>
      simp only [vtkRunData, hn, Option.map_none, Option.toList_none, List.flatMap_nil]
      symm
      rw [List.filterMap_eq_nil_iff]
      intro x hx; simp [hc x hx, hn]
    | some t =>
      simp only [vtkRunData, hn, Option.map_some, Option.toList_some, List.flatMap_cons,
        List.flatMap_nil, List.append_nil, id]
      rw [← List.filterMap_eq_map]
      apply filterMap_congr'
      intro x hx; simp [hc x hx, hn]

/-- Data has one piece per block, of the length of the block. -/
theorem C18_data_shape (cs : List VtkCell) (d : List R) (hd : d.length = cs.length) :
    (vtkData cs d).map List.length = (vtkBlocks cs).map (fun b => b.2.length) := by
  have h3 := slices_piecesOf (runLens (cs.map (fun c => (c.1, c.2.length))))
      (fun n hn => runLens_pos hn) cs d 0 (by rw [sum_runLens]; simp) (by rw [hd]; simp)
  have hz : (cs.zip d).map (fun c => (c.1.1, c.1.2.length)) =
      cs.map (fun c => (c.1, c.2.length)) := by
    have : (cs.zip d).map (fun c => (c.1.1, c.1.2.length)) =
        ((cs.zip d).map (·.1)).map (fun c => (c.1, c.2.length)) := by simp
    rw [this, List.map_fst_zip (by rw [hd]; omega)]
  unfold vtkData
  rw [runsBy_eq_splitLens, hz, ← List.drop_zero (l := d), ← h3, ← vtkRuns_splitLens]
  unfold vtkBlocks
  rw [← map_fst_piecesOf 0, List.map_map, List.map_map]
  have key : ∀ (rs : List (List VtkCell)) (a : Nat), a + rs.flatten.length ≤ d.length →
      (piecesOf a rs).map (List.length ∘ fun p => pySlice d p.2.1 p.2.2) =
      (piecesOf a rs).map ((fun b => b.2.length) ∘ (·.1)) := by
    intro rs
    induction rs with
    | nil => intro a _; rfl
    | cons r rs ih =>
      intro a ha
      simp only [List.flatten_cons, List.length_append] at ha
      simp only [piecesOf, List.map_append]
      rw [ih (a + r.length) (by omega)]
      congr 1
      cases r with
      | nil => rfl
      | cons c r =>
        cases hn : vtkName c.1 with
        | none => simp [vtkBlock, hn]
        | some t => simp [vtkBlock, hn, pySlice] at ha ⊢; omega
  apply key
  rw [vtkRuns, flatten_runsBy]; omega

/-- Neighbouring runs cannot be joined: they differ in type or size. -/
theorem C18_runs_maximal (cs : List VtkCell) (pre post : List (List VtkCell))
    (r s : List VtkCell) (h : vtkRuns cs = pre ++ r :: s :: post) :
    ∀ a ∈ r, ∀ b ∈ s, ¬ (a.1 = b.1 ∧ a.2.length = b.2.length) := by
  intro a ha b hb e
  exact runsBy_maximal _ cs pre post r s h a ha b hb (by simp [e.1, e.2])

/-- Runs have one type and one size and cut the cells without loss. -/
theorem C18_runs_uniform (cs : List VtkCell) :
    (vtkRuns cs).flatten = cs ∧
      ∀ r ∈ vtkRuns cs, r ≠ [] ∧ ∀ a ∈ r, ∀ b ∈ r, a.1 = b.1 ∧ a.2.length = b.2.length :=
  ⟨flatten_runsBy _ cs, fun r hr => ⟨runsBy_ne_nil _ _ r hr, fun a ha b hb => by
    have := runsBy_uniform _ _ r hr a ha b hb
    simpa using this⟩⟩

/-- Offsets and types of different lengths are refused with ReadError. -/
theorem C18_length_mismatch (conn offsets : List Int) (types : List Nat) (raw : Dict (List R))
    (h : offsets.length ≠ types.length) :
    vtkCellsFromData conn offsets types raw = .error .readError := by
  simp [vtkCellsFromData, h]

/-- The boundary case: a file without any cell makes the decoder fail with IndexError
(so "all arrays" in C18 must exclude the empty ones). -/
theorem C18_empty (conn : List Int) (raw : Dict (List R)) :
    vtkCellsFromData conn [] [] raw = .error .indexError := by
  simp [vtkCellsFromData, startEnd, breaksFrom, foldRes, typeRun]

/-- A mixed case: two triangles, a polygon with five nodes, one with four, an unknown
type, a wedge (whose nodes are reordered). -/
def C18_example : List VtkCell :=
  [(5, [0, 1, 2]), (5, [2, 1, 3]), (7, [0, 1, 2, 3, 4]), (7, [4, 5, 6, 7]), (99, [1]),
   (13, [0, 1, 2, 3, 4, 5])]

example : (∀ c ∈ C18_example, Readable c) ∧
    vtkBlocks C18_example =
      [("triangle", [[0, 1, 2], [2, 1, 3]]), ("polygon", [[0, 1, 2, 3, 4]]),
       ("polygon", [[4, 5, 6, 7]]), ("wedge", [[0, 2, 1, 3, 5, 4]])] ∧
    vtkData C18_example ["a", "b", "c", "d", "e", "f"] = [["a", "b"], ["c"], ["d"], ["f"]] := by
  refine ⟨?_, by decide +kernel, by decide +kernel⟩
  intro c hc
  simp only [C18_example, List.mem_cons, List.not_mem_nil, or_false] at hc
  rcases hc with rfl | rfl | rfl | rfl | rfl | rfl
  · exact .inr ⟨"triangle", by decide +kernel, .inr (by decide +kernel), .inr (by decide +kernel)⟩
  · exact .inr ⟨"triangle", by decide +kernel, .inr (by decide +kernel), .inr (by decide +kernel)⟩
  · exact .inr ⟨"polygon", by decide +kernel, .inr (by decide +kernel), .inl (by decide +kernel)⟩
  · exact .inr ⟨"polygon", by decide +kernel, .inr (by decide +kernel), .inl (by decide +kernel)⟩
  · exact .inl (by decide +kernel)
  · exact .inr ⟨"wedge", by decide +kernel, .inr (by decide +kernel), .inr (by decide +kernel)⟩

end Meshio.Props
