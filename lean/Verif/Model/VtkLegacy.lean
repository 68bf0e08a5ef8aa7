/-
Model of the legacy VTK cell sections: `translate_cells` and `_write_cells` of
/repo/src/meshio/vtk/_vtk_42.py, `_write_cells` and the CELLS section of
/repo/src/meshio/vtk/_vtk_51.py, at the level of the integer arrays in the file.
-/
import Verif.Model.VtkCommon
namespace Meshio.Vtk
open Meshio Meshio.Tables Meshio.Types

variable {R : Type}

/-- Polygon branch, the walk over the stream, /repo/src/meshio/vtk/_vtk_42.py:518-530: for
each cell its position in `connectivity` and its node count.  (The comparison in line 529
compares the counts with themselves.) -/
def walk (conn : List Int) : Nat → Int → Res (List (Int × Int))
  | 0, _ => .ok []
  | m + 1, off =>
    match npIndex conn off with
    | .error e => .error e
    | .ok n =>
      match walk conn m (off + n + 1) with
      | .error e => .error e
      | .ok l => .ok ((off, n) :: l)

/-- Polygon branch, one cell: /repo/src/meshio/vtk/_vtk_42.py:534-544. -/
def polyCell (conn : List Int) (x : Nat × (Int × Int)) : Res (String × List Int) :=
  match mapRes (fun (j : Nat) => npIndex conn (x.2.1 + 1 + j)) (newOrder x.1 x.2.2) with
  | .error e => .error e
  | .ok cell =>
    match find vtkToMeshio x.1 with
    | none => .error .keyError
    | some t => .ok (t, cell)

/-- `cells[-1][0] == cell_type and len(cell) == len(cells[-1][1][-1])`,
/repo/src/meshio/vtk/_vtk_42.py:546-552. -/
def polySame (b : Blk) (c : String × List Int) : Bool :=
  b.1 == c.1 && (b.2.getLast?.map List.length == some c.2.length)

/-- `cells[-1][1].append(cell)`, line 553. -/
def polyApp (b : Blk) (c : String × List Int) : Blk := (b.1, b.2 ++ [c.2])

/-- `(cell_type, [cell])`, line 556. -/
def polyNew (c : String × List Int) : Blk := (c.1, [c.2])

/-- Exclusive running sum of `numnodes + 1` (line 573), from `i`. -/
def cellStarts : Int → List Int → List Int
  | _, [] => []
  | i, n :: ns => i :: cellStarts (i + (n + 1)) ns

/-- The loop body of the other branch, /repo/src/meshio/vtk/_vtk_42.py:582-597. -/
def typeRun42 (conn offsets numnodes : List Int) (types : List Nat) (raw : Dict (List R))
    (st : St R) (se : Nat × Nat) : Res (St R) :=
  if se.1 = se.2 then .ok st
  else
    match types[se.1]?, numnodes[se.1]? with
    | some code, some n =>
      match find vtkToMeshio code with
      | none => .error .keyError
      | some t =>
        match mapRes (fun o => mapRes (fun (j : Nat) => npIndex conn (o + (1 + j)))
            (newOrder code n)) (pySlice offsets se.1 se.2) with
        | .error e => .error e
        | .ok rows =>
          match addData (fun d => .ok (pySlice d se.1 se.2)) st.2 raw with
          | .error e => .error e
          | .ok cd => .ok (st.1 ++ [(t, rows)], cd)
    | _, _ => .error .indexError

/-- `translate_cells`, /repo/src/meshio/vtk/_vtk_42.py:507-599.  Types are taken to be
non-negative. -/
def translateCells (conn : List Int) (types : List Nat) (raw : Dict (List R)) : Res (St R) :=
  if 7 ∈ types then
    match walk conn types.length 0 with
    | .error e => .error e
    | .ok offs =>
      match mapRes (polyCell conn) (types.zip offs) with
      | .error e => .error e
      | .ok cs => .ok (cs.foldl (pushBy polySame polyApp polyNew) [], [])
  else if types.any (fun t => decide (vtkNumNodes.length ≤ t)) then .error .readError
  else
    let numnodes := types.map (fun t => (vtkNumNodes[t]?).getD 0)
    if numnodes.any (fun n => decide (n ≤ 0)) then .error .readError
    else
      let offsets := cellStarts 0 numnodes
      match mapRes (npIndex conn) offsets with
      | .error e => .error e
      | .ok counts =>
        if numnodes ≠ counts then .error .readError
        else foldRes (typeRun42 conn offsets numnodes types raw) ([], []) (startEnd types)

/-- One row of a block in the file's node order:
`d[:, new_order]`, /repo/src/meshio/vtk/_vtk_42.py:691-693, _vtk_51.py:595-598. -/
def outRow (t : String) (row : List Int) : Res (List Int) := pickOpt row (meshioToVtkOrder t)

/-- The CELLS section of version 4.2 for one block: each row preceded by its length,
/repo/src/meshio/vtk/_vtk_42.py:687-700 and 704-716.  A block is a two-dimensional array,
so `n = c.data.shape[1]` is the length of its rows. -/
def cellsOut42 (b : Blk) : Res (List Int) :=
  match mapRes (outRow b.1) b.2 with
  | .error e => .error e
  | .ok rows => .ok ((b.2.zip rows).flatMap (fun x => (x.1.length : Int) :: x.2))

/-- The CELL_TYPES section for one block, /repo/src/meshio/vtk/_vtk_42.py:718-730,
_vtk_51.py:617-629. -/
def typesOut (b : Blk) : Res (List Nat) :=
  match find meshioToVtk b.1 with
  | none => .error .keyError
  | some c => .ok (List.replicate b.2.length c)

/-- `_write_cells` of version 4.2: the two integer arrays,
/repo/src/meshio/vtk/_vtk_42.py:680-730. -/
def writeCells42 (bs : List Blk) : Res (List Int × List Nat) :=
  match mapRes cellsOut42 bs with
  | .error e => .error e
  | .ok cells =>
    match mapRes typesOut bs with
    | .error e => .error e
    | .ok types => .ok (cells.flatten, types.flatten)

/-- A block of the 5.1 writer needs its array's width even if it has no rows:
`m, n = cell_block.data.shape`. -/
structure Blk2 where
  type : String
  width : Nat
  rows : List (List Int)
deriving DecidableEq, Repr

/-- The offsets of the 5.1 writer, /repo/src/meshio/vtk/_vtk_51.py:579-585:
`offsets.append(np.arange(k + n, k + (m + 1) * n, n)); k = offsets[-1][-1]`.  An empty block
raises IndexError, a width of zero ZeroDivisionError (`valueError` here). -/
def offsetsOut51 : Int → List Blk2 → Res (List Int)
  | _, [] => .ok []
  | k, b :: bs =>
    if b.width = 0 then .error .valueError
    else if b.rows = [] then .error .indexError
    else
      let offs := (List.range b.rows.length).map (fun (i : Nat) => k + b.width + (i : Int) * b.width)
      match offsetsOut51 (offs.getLast?.getD 0) bs with
      | .error e => .error e
      | .ok rest => .ok (offs ++ rest)

/-- `_write_cells` of version 5.1: offsets, connectivity and types,
/repo/src/meshio/vtk/_vtk_51.py:573-629. -/
def writeCells51 (bs : List Blk2) : Res (List Int × List Int × List Nat) :=
  match offsetsOut51 0 bs with
  | .error e => .error e
  | .ok offs =>
    match mapRes (fun b : Blk2 => mapRes (outRow b.type) b.rows) bs with
    | .error e => .error e
    | .ok conn =>
      match mapRes (fun b : Blk2 => typesOut (b.type, b.rows)) bs with
      | .error e => .error e
      | .ok types => .ok (0 :: offs, conn.flatten.flatten, types.flatten)

/-- The reader of a version 5.1 CELLS section and what follows,
/repo/src/meshio/vtk/_vtk_51.py:164-166 and 110-112. -/
def readCells51 (offsets conn : List Int) (types : List Nat) (raw : Dict (List R)) : Res (St R) :=
  match offsets.head?, offsets.getLast? with
  | some a, some z =>
    if a ≠ 0 then .error .assertionError
    else if z ≠ conn.length then .error .assertionError
    else vtkCellsFromData conn (offsets.drop 1) types raw
  | _, _ => .error .indexError

/-- `_generate_cells`, /repo/src/meshio/vtk/_vtk_42.py:293-335 (the same function is in
_vtk_51.py:265-307): connectivity rows (each with its leading count) and type codes.  With
no axis of more than one point the last branch indexes an empty list. -/
def generateCells (dim : List Nat) : Res (List (List Nat) × List Nat) :=
  let e := (dim.filter (fun d => decide (d > 1))).map (fun d => d - 1)
  let no := e.foldl (· * ·) 1
  match e with
  | [_] => .ok ((List.range no).map (fun i => [2, i, i + 1]), List.replicate no 3)
  | [e0, _] =>
    .ok ((List.range no).map (fun i =>
        let a := i + i / e0
        [4, a, a + 1, a + 2 + e0, a + 2 + e0 - 1]),
      List.replicate no 9)
  | e0 :: e1 :: _ =>
    .ok ((List.range no).map (fun i =>
        let a := i + (e0 + e1 + 1) * (i / (e0 * e1)) + (i % (e0 * e1)) / e0
        let b := a + (1 + e0) * (1 + e1)
        [8, a, a + 1, a + 2 + e0, a + 2 + e0 - 1, b, b + 1, b + 2 + e0, b + 2 + e0 - 1]),
      List.replicate no 12)
  | [] => .error .indexError

/-- `np.mgrid[0:x, 0:y, 0:z]` flattened in Fortran order: component `c` at flat position
`p` (`reshape(-1, order="F")` lets the first index run fastest). -/
def mgridF (x y : Nat) (p : Nat) : Nat × Nat × Nat := (p % x, p / x % y, p / x / y)

/-- One point of the grid. -/
def gridPoint {F : Type} (ax ay az : List F) (p : Nat) : Res (List F) :=
  match ax[(mgridF ax.length ay.length p).1]?, ay[(mgridF ax.length ay.length p).2.1]?,
      az[(mgridF ax.length ay.length p).2.2]? with
  | some a, some b, some c => .ok [a, b, c]
  | _, _, _ => .error .indexError

/-- `_generate_points`, /repo/src/meshio/vtk/_vtk_42.py:338-349 (_vtk_51.py:310-321). -/
def generatePoints {F : Type} (ax ay az : List F) : Res (List (List F)) :=
  mapRes (gridPoint ax ay az) (List.range (ax.length * ay.length * az.length))

end Meshio.Vtk
