/-
Exodus II: the variables of the netCDF file, the reader and the writer.

The netCDF library is not modelled: a file is its ordered collection of named variables
(`nc.variables`, in creation order), each with the array that was stored in it, together with the
size of the dimension `num_nodes`.  Text variables are `S1` tables: one character per entry,
entries never assigned hold the NUL character, and reading drops NUL characters (numpy strips them
from `S1` items).  Numbers are kept as they are (the dtype tables of the writer are left out).
-/
import Verif.Base.Err
import Verif.Base.Num
import Verif.Model.Types
import Verif.Model.Dim

namespace Meshio
namespace Exodus
open Types Tables

/-! ## Grouping of variable names -/

/-- `names.index(x)` inside `try/except ValueError` (`None` if missing),
/repo/src/meshio/exodus/_exodus.py:208-215, :227-230. -/
def pyIndex (names : List (List Char)) (x : List Char) : Option Nat := names.idxOf? x

/-- Truth value of an index used as in `if iy and iz`: `None` and `0` are false,
/repo/src/meshio/exodus/_exodus.py:216, :231. -/
def truthy : Option Nat → Option Nat
  | some (k + 1) => some (k + 1)
  | _ => none

/-- `single`, `double`, `triple` and `is_accounted_for` of `categorize`,
/repo/src/meshio/exodus/_exodus.py:194-197. -/
structure Cat where
  single : List (List Char × Nat)
  double : List (List Char × Nat × Nat)
  triple : List (List Char × Nat × Nat × Nat)
  acc : List Bool
deriving DecidableEq, Repr

/-- One round of the loop, /repo/src/meshio/exodus/_exodus.py:199-241. -/
def catStep (names : List (List Char)) (s : Cat) (k : Nat) : Res Cat :=
  if s.acc[k]? = some true then .ok s
  else
    match names[k]? with
    | none => .error .indexError
    | some name =>
      match name.getLast? with
      | none => .error .indexError
      | some c =>
        if c = 'X' then
          match truthy (pyIndex names (name.dropLast ++ ['Y'])),
              truthy (pyIndex names (name.dropLast ++ ['Z'])) with
          | some iy, some iz =>
            .ok { s with
              triple := s.triple ++ [(name.dropLast, k, iy, iz)]
              acc := ((s.acc.set k true).set iy true).set iz true }
          | _, _ => .ok { s with single := s.single ++ [(name, k)], acc := s.acc.set k true }
        else if name.drop (name.length - 2) = ['_', 'R'] then
          match truthy (pyIndex names (name.take (name.length - 2) ++ ['_', 'Z'])) with
          | some iz =>
            .ok { s with
              double := s.double ++ [(name.take (name.length - 2), k, iz)]
              acc := (s.acc.set k true).set iz true }
          | none => .ok { s with single := s.single ++ [(name, k)], acc := s.acc.set k true }
        else .ok { s with single := s.single ++ [(name, k)], acc := s.acc.set k true }

/-- State before the loop. -/
def catInit (n : Nat) : Cat := { single := [], double := [], triple := [], acc := List.replicate n false }

/-- `categorize(names)`, /repo/src/meshio/exodus/_exodus.py:191-245. -/
def categorize (names : List (List Char)) : Res Cat :=
  match foldRes (catStep names) (catInit names.length) (List.range names.length) with
  | .error e => .error e
  | .ok s => if s.acc.all id then .ok s else .error .readError

/-! ## Files -/

/-- A numpy array of values at the nodes: one-dimensional, or a row per node. -/
inductive Arr (F : Type) where
  | vec (l : List F)
  | mat (rows : List (List F))
deriving DecidableEq, Repr

/-- One netCDF variable. -/
inductive Var (F : Type) where
  /-- an `S1` table -/
  | text (rows : List (List Char))
  /-- `connect*` with its attribute `elem_type` -/
  | conn (elem : String) (rows : List (List Int))
  /-- `coord`: a row per coordinate axis -/
  | coord (axes : List (List F))
  /-- `coordx`, `coordy`, `coordz` -/
  | axis (l : List F)
  /-- `vals_nod_var*`: an array per time step -/
  | nodal (steps : List (Arr F))
  /-- `vals_elem_var*`: an array per time step -/
  | elem (steps : List (List F))
  /-- a list of integers -/
  | ints (l : List Int)
  /-- anything else -/
  | other
deriving DecidableEq, Repr

/-- The file: size of `num_nodes`, variables in creation order. -/
structure NcFile (F : Type) where
  numNodes : Nat
  vars : List (List Char × Var F)
deriving DecidableEq, Repr

/-- The parts of a mesh that the reader returns and the writer takes.
`dim` is `points.shape[1]`. -/
structure ExMesh (F : Type) where
  dim : Nat
  points : List (List F)
  cells : List (String × List (List Int))
  pointData : List (List Char × Arr F)
  cellData : List (List Char × List (List F))
  pointSets : List (List Char × List Int)
deriving DecidableEq, Repr

/-- `d[k] = v` -/
def upd {κ α : Type} [DecidableEq κ] (d : List (κ × α)) (k : κ) (v : α) : List (κ × α) :=
  match d with
  | [] => [(k, v)]
  | (k', v') :: d' => if k' = k then (k, v) :: d' else (k', v') :: upd d' k v

/-- `b"".join(c).decode("UTF-8")` for ASCII names. -/
def joinName (c : List Char) : List Char := c.filter (· ≠ '\x00')

/-- `a.T` for an array with `n` columns. -/
def transpose {F : Type} (n : Nat) (axes : List (List F)) : List (List F) :=
  (List.range n).map fun i : Nat => axes.filterMap fun a => a[i]?

/-- `points[:, j] = l` (broadcasting of one value is left out). -/
def setColumn {F : Type} (points : List (List F)) (j : Nat) (l : List F) : Res (List (List F)) :=
  if points.length ≠ l.length then .error .valueError
  else if points.all (fun r => decide (j < r.length)) then
    .ok (List.zipWith (fun r x => r.set j x) points l)
  else .error .indexError

/-- Local variables of the reading loop, /repo/src/meshio/exodus/_exodus.py:80-91. -/
structure St (F : Type) where
  points : List (List F)
  pdNames : List (List Char)
  cdNames : List (List Char)
  pd : List (Int × Arr F)
  cd : List (Int × List (Int × List F))
  cells : List (String × List (List Int))
  nsNames : List (List Char)
  ns : List (List Int)
deriving DecidableEq, Repr

/-- `key[n:]` read as a number minus one, 0 if the key ends there,
/repo/src/meshio/exodus/_exodus.py:121. -/
def keyIndex (rest : List Char) : Res Int :=
  match rest with
  | [] => .ok 0
  | _ =>
    match parseInt rest with
    | none => .error .valueError
    | some k => .ok (k - 1)

/-- Group of digits as in `(\\d+)?`, minus one, 0 if missing,
/repo/src/meshio/exodus/_exodus.py:132-134. -/
def digitsIndex (ds : List Char) : Int :=
  match parseInt ds with
  | none => 0
  | some k => k - 1

/-- The two groups of `re.match("vals_elem_var(\\d+)?(?:eb(\\d+))?", key)` applied to what follows
`vals_elem_var`, /repo/src/meshio/exodus/_exodus.py:132-134. -/
def elemIndex (rest : List Char) : Int × Int :=
  let a := rest.takeWhile Char.isDigit
  let r := rest.dropWhile Char.isDigit
  (digitsIndex a,
    if r.take 2 = ['e', 'b'] then digitsIndex ((r.drop 2).takeWhile Char.isDigit) else 0)

/-- `cd[idx][block] = value` with `cd[idx] = {}` before if missing,
/repo/src/meshio/exodus/_exodus.py:138-140. -/
def putElem {F : Type} (cd : List (Int × List (Int × List F))) (idx block : Int) (v : List F) :
    List (Int × List (Int × List F)) :=
  upd cd idx (upd ((cd.lookup idx).getD []) block v)

/-- `value.elem_type.upper()` -/
def upper (s : String) : String := String.ofList (s.toList.map Char.toUpper)

/-- One variable of the file, /repo/src/meshio/exodus/_exodus.py:93-154.  The text records
`info_records` and `qa_records` only fill `mesh.info` and are skipped.  A variable whose contents
have the wrong shape for its name is left out of the model. -/
def readVar {F : Type} (s : St F) (kv : List Char × Var F) : Res (St F) :=
  let key := kv.1
  if key = "info_records".toList then .ok s
  else if key = "qa_records".toList then .ok s
  else if key.take 7 = "connect".toList then
    match kv.2 with
    | .conn elem rows =>
      match find exodusToMeshio (upper elem) with
      | none => .error .keyError
      | some t => .ok { s with cells := s.cells ++ [(t, rows.map fun r => r.map (· - 1))] }
    | _ => .error .unmodelled
  else if key = "coord".toList then
    match kv.2 with
    | .coord axes => .ok { s with points := transpose s.points.length axes }
    | _ => .error .unmodelled
  else if key = "coordx".toList then
    match kv.2 with
    | .axis l =>
      match setColumn s.points 0 l with
      | .error e => .error e
      | .ok p => .ok { s with points := p }
    | _ => .error .unmodelled
  else if key = "coordy".toList then
    match kv.2 with
    | .axis l =>
      match setColumn s.points 1 l with
      | .error e => .error e
      | .ok p => .ok { s with points := p }
    | _ => .error .unmodelled
  else if key = "coordz".toList then
    match kv.2 with
    | .axis l =>
      match setColumn s.points 2 l with
      | .error e => .error e
      | .ok p => .ok { s with points := p }
    | _ => .error .unmodelled
  else if key = "name_nod_var".toList then
    match kv.2 with
    | .text rows => .ok { s with pdNames := rows.map joinName }
    | _ => .error .unmodelled
  else if key.take 12 = "vals_nod_var".toList then
    match keyIndex (key.drop 12) with
    | .error e => .error e
    | .ok idx =>
      match kv.2 with
      | .nodal (v :: _) => .ok { s with pd := upd s.pd idx v }
      | .nodal [] => .error .indexError
      | _ => .error .unmodelled
  else if key = "name_elem_var".toList then
    match kv.2 with
    | .text rows => .ok { s with cdNames := rows.map joinName }
    | _ => .error .unmodelled
  else if key.take 13 = "vals_elem_var".toList then
    match kv.2 with
    | .elem (v :: _) =>
      .ok { s with cd := putElem s.cd (elemIndex (key.drop 13)).1 (elemIndex (key.drop 13)).2 v }
    | .elem [] => .error .indexError
    | _ => .error .unmodelled
  else if key = "ns_names".toList then
    match kv.2 with
    | .text rows => .ok { s with nsNames := rows.map joinName }
    | _ => .error .unmodelled
  else if key.take 7 = "node_ns".toList then
    match kv.2 with
    | .ints l => .ok { s with ns := s.ns ++ [l.map (· - 1)] }
    | _ => .error .unmodelled
  else .ok s

/-- State before the loop: `np.zeros((num_nodes, 3))` and empty collections. -/
def St.init {F : Type} (zero : F) (n : Nat) : St F :=
  { points := List.replicate n [zero, zero, zero], pdNames := [], cdNames := [], pd := [], cd := [],
    cells := [], nsNames := [], ns := [] }

/-- `np.concatenate(list(value.values()))` for each entry of `cd`,
/repo/src/meshio/exodus/_exodus.py:157-158. -/
def mergeBlocks {F : Type} (cd : List (Int × List (Int × List F))) : List (List F) :=
  cd.map fun e => (e.2.map (·.2)).flatten

/-- Columns of an array, as `np.column_stack` uses it: a one-dimensional array is one column. -/
def Arr.asRows {F : Type} : Arr F → List (List F)
  | .vec l => l.map fun x => [x]
  | .mat rows => rows

/-- `np.column_stack(...)` of two arrays. -/
def hcat {F : Type} (a b : List (List F)) : Res (List (List F)) :=
  if a.length ≠ b.length then .error .valueError else .ok (List.zipWith (· ++ ·) a b)

/-- `pd[idx]` -/
def getPd {F : Type} (pd : List (Int × Arr F)) (k : Nat) : Res (Arr F) :=
  match pd.lookup (k : Int) with
  | none => .error .keyError
  | some a => .ok a

/-- `point_data[name] = pd[idx]`, /repo/src/meshio/exodus/_exodus.py:165-166. -/
def putSingle {F : Type} (pd : List (Int × Arr F)) (d : List (List Char × Arr F))
    (e : List Char × Nat) : Res (List (List Char × Arr F)) :=
  match getPd pd e.2 with
  | .error e => .error e
  | .ok a => .ok (upd d e.1 a)

/-- `point_data[name] = np.column_stack([pd[idx0], pd[idx1]])`,
/repo/src/meshio/exodus/_exodus.py:167-168. -/
def putDouble {F : Type} (pd : List (Int × Arr F)) (d : List (List Char × Arr F))
    (e : List Char × Nat × Nat) : Res (List (List Char × Arr F)) :=
  match getPd pd e.2.1, getPd pd e.2.2 with
  | .error e, _ => .error e
  | _, .error e => .error e
  | .ok a, .ok b =>
    match hcat a.asRows b.asRows with
    | .error e => .error e
    | .ok r => .ok (upd d e.1 (.mat r))

/-- `point_data[name] = np.column_stack([pd[idx0], pd[idx1], pd[idx2]])`,
/repo/src/meshio/exodus/_exodus.py:169-170. -/
def putTriple {F : Type} (pd : List (Int × Arr F)) (d : List (List Char × Arr F))
    (e : List Char × Nat × Nat × Nat) : Res (List (List Char × Arr F)) :=
  match getPd pd e.2.1, getPd pd e.2.2.1, getPd pd e.2.2.2 with
  | .error e, _, _ => .error e
  | _, .error e, _ => .error e
  | _, _, .error e => .error e
  | .ok a, .ok b, .ok c =>
    match hcat a.asRows b.asRows with
    | .error e => .error e
    | .ok r =>
      match hcat r c.asRows with
      | .error e => .error e
      | .ok r => .ok (upd d e.1 (.mat r))

/-- `point_data`, /repo/src/meshio/exodus/_exodus.py:160-170. -/
def pointData {F : Type} (names : List (List Char)) (pd : List (Int × Arr F)) :
    Res (List (List Char × Arr F)) :=
  match categorize names with
  | .error e => .error e
  | .ok c =>
    match foldRes (putSingle pd) [] c.single with
    | .error e => .error e
    | .ok d =>
      match foldRes (putDouble pd) d c.double with
      | .error e => .error e
      | .ok d => foldRes (putTriple pd) d c.triple

/-- `cell_data[name].append(x)` with `cell_data[name] = []` before if missing,
/repo/src/meshio/exodus/_exodus.py:177-179. -/
def appendTo {F : Type} (d : List (List Char × List (List F))) (name : List Char) (x : List F) :
    List (List Char × List (List F)) :=
  upd d name ((d.lookup name).getD [] ++ [x])

/-- The two nested loops over blocks and variables, /repo/src/meshio/exodus/_exodus.py:172-180;
`lens` are the numbers of cells of the blocks. -/
def cellDataFrom {F : Type} (named : List (List Char × List F)) :
    Nat → List Nat → List (List Char × List (List F)) → List (List Char × List (List F))
  | _, [], d => d
  | k, n :: lens, d =>
    cellDataFrom named (k + n) lens
      (named.foldl (fun d e => appendTo d e.1 ((e.2.drop k).take n)) d)

/-- `{name: dat for name, dat in zip(ns_names, ns)}`, /repo/src/meshio/exodus/_exodus.py:182. -/
def pointSets (names : List (List Char)) (ns : List (List Int)) : List (List Char × List Int) :=
  (names.zip ns).foldl (fun d e => upd d e.1 e.2) []

/-- `len(a)` -/
def Arr.len {F : Type} : Arr F → Nat
  | .vec l => l.length
  | .mat rows => rows.length

/-- The checks of the `Mesh` constructor, /repo/src/meshio/_mesh.py:149-187: types with a dimension, a row of point data for each
point, a value of cell data for each cell. -/
def checked {F : Type} (m : ExMesh F) : Res (ExMesh F) :=
  if !(m.cells.all fun b => hasDim b.1) then .error .keyError
  else if m.pointData.any (fun e => decide (e.2.len ≠ m.points.length)) then .error .valueError
  else if m.cellData.any (fun e => decide (e.2.map List.length ≠ m.cells.map fun b => b.2.length)) then .error .valueError
  else .ok m

/-- `read(filename)`, /repo/src/meshio/exodus/_exodus.py:70-191, up to the call of the `Mesh` constructor.  `dim` of the result is
the width of the first point. -/
def readFile {F : Type} (zero : F) (f : NcFile F) : Res (ExMesh F) :=
  match foldRes readVar (St.init zero f.numNodes) f.vars with
  | .error e => .error e
  | .ok s =>
    match pointData s.pdNames s.pd with
    | .error e => .error e
    | .ok pd =>
      .ok { dim := (s.points.head?.map List.length).getD 0
            points := s.points
            cells := s.cells
            pointData := pd
            cellData := cellDataFrom (s.cdNames.zip (mergeBlocks s.cd)) 0
              (s.cells.map fun c => c.2.length) []
            pointSets := pointSets s.nsNames s.ns }

/-- `read(filename)`, /repo/src/meshio/exodus/_exodus.py:70-191. -/
def read {F : Type} (zero : F) (f : NcFile F) : Res (ExMesh F) :=
  match readFile zero f with
  | .error e => .error e
  | .ok m => checked m

/-! ## Writing -/

/-- One row of an `S1` table with 33 columns, /repo/src/meshio/exodus/_exodus.py:333-335, :362-363:
a longer name raises IndexError.  Letters outside ASCII (several bytes) are left out. -/
def nameRow (name : List Char) : Res (List Char) :=
  if name.length > 33 then .error .indexError
  else if name.all (fun c => decide (c.toNat < 128)) then
    .ok (name ++ List.replicate (33 - name.length) '\x00')
  else .error .unmodelled

/-- `connect{k + 1}`, /repo/src/meshio/exodus/_exodus.py:308-318. -/
def connVar {F : Type} (b : (String × List (List Int)) × Nat) : Res (List Char × Var F) :=
  match find meshioToExodus b.1.1 with
  | none => .error .keyError
  | some e => .ok ("connect".toList ++ fmtNat (b.2 + 1), .conn e (b.1.2.map fun r => r.map (· + 1)))

/-- `vals_nod_var{k + 1}`, /repo/src/meshio/exodus/_exodus.py:339-352. -/
def nodalVar {F : Type} (e : (List Char × Arr F) × Nat) : List Char × Var F :=
  ("vals_nod_var".toList ++ fmtNat (e.2 + 1), .nodal [e.1.2])

/-- `node_ns{k + 1}`, /repo/src/meshio/exodus/_exodus.py:364-370. -/
def nodeVar {F : Type} (e : (List Char × List Int) × Nat) : List Char × Var F :=
  ("node_ns".toList ++ fmtNat (e.2 + 1), .ints (e.1.2.map (· + 1)))

/-- Point data part, /repo/src/meshio/exodus/_exodus.py:320-352. -/
def nodalVars {F : Type} (pd : List (List Char × Arr F)) : Res (List (List Char × Var F)) :=
  if pd.isEmpty then .ok []
  else
    match mapRes nameRow (pd.map (·.1)) with
    | .error e => .error e
    | .ok rows => .ok (("name_nod_var".toList, .text rows) :: pd.zipIdx.map nodalVar)

/-- Node set part, /repo/src/meshio/exodus/_exodus.py:354-370. -/
def nodeVars {F : Type} (ps : List (List Char × List Int)) : Res (List (List Char × Var F)) :=
  if ps.isEmpty then .ok []
  else
    match mapRes nameRow (ps.map (·.1)) with
    | .error e => .error e
    | .ok rows =>
      .ok (("ns_prop1".toList, .other) :: ("ns_names".toList, .text rows) :: ps.zipIdx.map nodeVar)

/-- `write(filename, mesh)`, /repo/src/meshio/exodus/_exodus.py:262-370.  `coor_names[1, 0]` raises
IndexError for points with fewer than two coordinates.  Cell data, field data and cell sets are not
written by the code. -/
def write {F : Type} (m : ExMesh F) : Res (NcFile F) :=
  if m.dim < 2 then .error .indexError
  else
    match mapRes connVar m.cells.zipIdx with
    | .error e => .error e
    | .ok conns =>
      match nodalVars m.pointData with
      | .error e => .error e
      | .ok nodal =>
        match nodeVars m.pointSets with
        | .error e => .error e
        | .ok nodes =>
          .ok { numNodes := m.points.length
                vars := [("time_whole".toList, .other), ("coor_names".toList, .other),
                    ("coord".toList, .coord (transpose m.dim m.points)),
                    ("eb_prop1".toList, .other)] ++ conns ++ nodal ++ nodes }

end Exodus
end Meshio
