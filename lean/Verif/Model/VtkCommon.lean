/-
Model of `vtk_cells_from_data`, /repo/src/meshio/_vtk_common.py:89-181.
-/
import Verif.Base.Runs
import Verif.Model.Mesh
import Verif.Model.Types
namespace Meshio.Vtk
open Meshio Meshio.Tables Meshio.Types

/-- A cell block as the readers build it: type name and rows of node numbers. -/
abbrev Blk := String × List (List Int)

/-- `special_cells`, /repo/src/meshio/_vtk_common.py:121-130. -/
def specialCells : List String :=
  ["polygon", "VTK_LAGRANGE_CURVE", "VTK_LAGRANGE_TRIANGLE", "VTK_LAGRANGE_QUADRILATERAL",
   "VTK_LAGRANGE_TETRAHEDRON", "VTK_LAGRANGE_HEXAHEDRON", "VTK_LAGRANGE_WEDGE",
   "VTK_LAGRANGE_PYRAMID"]

/-- `new_order` before the shift by the cell size, /repo/src/meshio/_vtk_common.py:152-154
and 169-171.  (`np.arange(n)` of a negative number is empty.) -/
def newOrder (code : Nat) (n : Int) : List Nat :=
  match vtkToMeshioOrder code with
  | some p => p
  | none => List.range n.toNat

/-- `connectivity[np.add.outer(offs, new_order - n)]`,
/repo/src/meshio/_vtk_common.py:155-158 and 172-175.  Simplification: integers are
unbounded (the dtype of `offsets` is assumed signed and wide enough). -/
def gatherRows (conn : List Int) (offs : List Int) (order : List Nat) (n : Int) :
    Res (List (List Int)) :=
  mapRes (fun o => mapRes (fun (j : Nat) => npIndex conn (o + ((j : Int) - n))) order) offs

/-- `np.diff(a)` -/
def npDiff : List Int → List Int
  | a :: b :: l => (b - a) :: npDiff (b :: l)
  | _ => []

/-- `CellBlock(meshio_type, rows)`: raises KeyError for a type without dimension
(/repo/src/meshio/_mesh.py:85-101). -/
def newBlk (t : String) (rows : List (List Int)) : Res Blk :=
  match CellBlock.new t ⟨[], rows⟩ with
  | .error e => .error e
  | .ok _ => .ok (t, rows)

variable {R : Type}

/-- The state of the loop: `cells` and `cell_data`. -/
abbrev St (R : Type) := List Blk × Dict (List (List R))

/-- `for name, d in cell_data_raw.items(): cell_data.setdefault(name, []).append(f(d))`,
/repo/src/meshio/_vtk_common.py:161-164 and 176-179. -/
def addData (f : List R → Res (List R)) : Dict (List (List R)) → Dict (List R) →
    Res (Dict (List (List R)))
  | cd, [] => .ok cd
  | cd, (name, d) :: raw =>
    match f d with
    | .error e => .error e
    | .ok rows => addData f (cd.set name ((cd.get? name).getD [] ++ [rows])) raw

/-- `d[start + items]` (fancy indexing: IndexError past the end). -/
def gatherData (s e : Nat) (d : List R) : Res (List R) :=
  if e ≤ d.length then .ok (pySlice d s e) else .error .indexError

/-- The loop body for a block of variable-size cells, one size run `[cs, ce)`,
/repo/src/meshio/_vtk_common.py:148-164. -/
def sizeRun (conn : List Int) (raw : Dict (List R)) (code : Nat) (t : String) (start : Nat)
    (startCn sizes : List Int) (st : St R) (se : Nat × Nat) : Res (St R) :=
  match sizes[se.1]? with
  | none => .error .indexError
  | some sz =>
    match gatherRows conn (pySlice startCn (se.1 + 1) (se.2 + 1)) (newOrder code sz) sz with
    | .error e => .error e
    | .ok rows =>
      match newBlk t rows with
      | .error e => .error e
      | .ok blk =>
        match addData (gatherData (start + se.1) (start + se.2)) st.2 raw with
        | .error e => .error e
        | .ok cd => .ok (st.1 ++ [blk], cd)

/-- The loop body for one run `[start, end)` of equal VTK types,
/repo/src/meshio/_vtk_common.py:109-179. -/
def typeRun (conn offsets : List Int) (types : List Nat) (raw : Dict (List R)) (st : St R)
    (se : Nat × Nat) : Res (St R) :=
  match types[se.1]? with
  | none => .error .indexError
  | some code =>
    match find vtkToMeshio code with
    | none => .ok st
    | some t =>
      if t ∈ specialCells then
        let first : Int := if se.1 = 0 then 0 else (offsets[se.1 - 1]?).getD 0
        let startCn := first :: pySlice offsets se.1 se.2
        let sizes := npDiff startCn
        foldRes (sizeRun conn raw code t se.1 startCn sizes) st (startEnd sizes)
      else
        match numNodesPerCell.get? t with
        | none => .error .keyError
        | some n =>
          match gatherRows conn (pySlice offsets se.1 se.2) (newOrder code n) n with
          | .error e => .error e
          | .ok rows =>
            match newBlk t rows with
            | .error e => .error e
            | .ok blk =>
              match addData (fun d => .ok (pySlice d se.1 se.2)) st.2 raw with
              | .error e => .error e
              | .ok cd => .ok (st.1 ++ [blk], cd)

/-- `vtk_cells_from_data`, /repo/src/meshio/_vtk_common.py:89-181.  `offsets` are the end
positions of the cells in `conn`. -/
def vtkCellsFromData (conn offsets : List Int) (types : List Nat) (raw : Dict (List R)) :
    Res (St R) :=
  if offsets.length ≠ types.length then .error .readError
  else foldRes (typeRun conn offsets types raw) ([], []) (startEnd types)

end Meshio.Vtk
