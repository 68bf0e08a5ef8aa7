/-
Abaqus inp files: /repo/src/meshio/abaqus/_abaqus.py.
-/
import Verif.Base.File
import Verif.Base.IdMap
import Verif.Base.Lines
import Verif.Model.Common
import Verif.Model.Mesh
import Verif.Model.Types

namespace Meshio
namespace Abaqus
open Types Tables

variable {F : Type}

/-- An entry of a list in `cell_sets`: an array of cells, or (when a set names another one) the list of that set. -/
inductive Entry where
  | ids (l : List Nat)
  | list (l : List (List Nat))
deriving DecidableEq

/-- The mesh that is read. -/
structure Out (F : Type) where
  points : List (List F)
  cells : List (String × List (List Nat))
  pointSets : Dict (List Nat)
  cellSets : Dict (List Entry)
deriving DecidableEq

/-- The variables of `read_buffer`, /repo/src/meshio/abaqus/_abaqus.py:112-123.  `pids` are the keys of `point_ids` in the order of
their assignment, `cellIds` those of the dicts in `cell_ids`; `elemSets` holds the lengths of the arrays `arange(n)`. -/
structure St (F : Type) where
  points : List (List F)
  pids : Option (List Int)
  cells : List (String × List (List Nat))
  cellIds : List (List Int)
  pointSets : Dict (List Nat)
  cellSets : Dict (List Entry)
  elemSets : Dict Nat
  order : List String
deriving DecidableEq

/-- /repo/src/meshio/abaqus/_abaqus.py:112-123 -/
def St.init : St F := ⟨[], none, [], [], [], [], [], []⟩

/-- `str.upper` on ASCII. -/
def upper (s : List Char) : List Char := s.map Char.toUpper

/-- `line.startswith("*")` -/
def isStar (l : List Char) : Bool := l.head? == some '*'

/-- `line.partition(",")[0].strip().replace("*", "").upper()`, /repo/src/meshio/abaqus/_abaqus.py:135. -/
def keyword (l : List Char) : List Char := upper ((strip (l.takeWhile (· != ','))).filter (· != '*'))

/-! ## Parameters -/

/-- One word of the line in `get_param_map`, /repo/src/meshio/abaqus/_abaqus.py:357-367. -/
def addParam (m : Dict (Option (List Char))) (w : List Char) : Res (Dict (Option (List Char))) :=
  match splitOnC '=' w with
  | [a] => .ok (Dict.set m (String.ofList (upper (strip a))) none)
  | [a, b] => .ok (Dict.set m (String.ofList (upper (strip a))) (some (strip b)))
  | _ => .error .readError

/-- `get_param_map` with one required key, /repo/src/meshio/abaqus/_abaqus.py:339-375. -/
def getParams (line : List Char) (required : String) : Res (Dict (Option (List Char))) :=
  match foldRes addParam [] (splitOnC ',' line) with
  | .error e => .error e
  | .ok m => if Dict.has m required then .ok m else .error .runtimeError

/-- `params_map[key]` as the name of a set.  A key without a value gives the name None, which is not modelled. -/
def nameOf (m : Dict (Option (List Char))) (key : String) : Res String :=
  match Dict.get? m key with
  | some (some v) => .ok (String.ofList v)
  | some none => .error .unmodelled
  | none => .error .keyError

/-! ## Sections -/

/-- `int(w)` -/
def intWord (w : List Char) : Res Int :=
  match parseInt (strip w) with
  | some i => .ok i
  | none => .error .valueError

/-- `float(w)` -/
def floatWord (io : FloatIO F) (w : List Char) : Res F :=
  match io.parse (strip w) with
  | some x => .ok x
  | none => .error .valueError

/-- The lines up to one with a star (without blank ones), and the lines from there on: the loops of `_read_nodes`, `_read_cells` and
`_read_set`, /repo/src/meshio/abaqus/_abaqus.py:236-241, 262-268, 381-386. -/
def dataLines (ls : List (List Char)) : List (List Char) := (ls.takeWhile fun l => !isStar l).filter fun l => decide (strip l ≠ [])

/-- See `dataLines`. -/
def afterData (ls : List (List Char)) : List (List Char) := ls.dropWhile fun l => !isStar l

/-- One line of `_read_nodes`, /repo/src/meshio/abaqus/_abaqus.py:243-246. -/
def nodeLine (io : FloatIO F) (l : List Char) : Res (Int × List F) :=
  match splitOnC ',' (strip l) with
  | [] => .error .indexError
  | w :: ws =>
    match intWord w with
    | .error e => .error e
    | .ok i =>
      match mapRes (floatWord io) ws with
      | .error e => .error e
      | .ok x => .ok (i, x)

/-- `_read_nodes`, /repo/src/meshio/abaqus/_abaqus.py:232-249; rows of different lengths are no array. -/
def readNodes (io : FloatIO F) (ls : List (List Char)) : Res (List (Int × List F)) :=
  match mapRes (nodeLine io) (dataLines ls) with
  | .error e => .error e
  | .ok ps => if ps.all fun p => decide (p.2.length = ((ps.head?.map (·.2.length)).getD 0)) then .ok ps else .error .valueError

/-- The numbers of one line, /repo/src/meshio/abaqus/_abaqus.py:269. -/
def cellLine (l : List Char) : Res (List Int) := mapRes intWord ((splitOnC ',' (strip l)).filter fun w => decide (w ≠ []))

/-- `_read_cells`, /repo/src/meshio/abaqus/_abaqus.py:252-285: type, cells and the numbers of the elements. -/
def readCells (m : Dict (Option (List Char))) (pids : List Int) (ls : List (List Char)) : Res (String × List (List Nat) × List Int) :=
  match Dict.get? m "TYPE" with
  | none => .error .keyError
  | some none => .error .readError
  | some (some t) =>
    match find abaqusToMeshio (String.ofList t) with
    | none => .error .readError
    | some ct =>
      match find numNodesPerCell ct with
      | none => .error .keyError
      | some n =>
        match mapRes cellLine (dataLines ls) with
        | .error e => .error e
        | .ok idx =>
          if idx.flatten.length % (n + 1) ≠ 0 then .error .readError
          else
            let rows := rowsN (n + 1) (idx.flatten.length / (n + 1)) idx.flatten
            match mapRes (fun r => mapRes (idGet pids) (r.drop 1)) rows with
            | .error e => .error e
            | .ok cells => .ok (ct, cells, rows.map fun r => r.headD 0)

/-- `s.strip(",")` -/
def stripCommas (s : List Char) : List Char := ((s.dropWhile (· == ',')).reverse.dropWhile (· == ',')).reverse

/-- `s.isnumeric()` on ASCII. -/
def isNumeric (s : List Char) : Bool := !s.isEmpty && s.all Char.isDigit

/-- One line of `_read_set`, /repo/src/meshio/abaqus/_abaqus.py:388-392: numbers, or the name of a set. -/
def setLine (l : List Char) : Res (List Int × List (List Char)) :=
  match splitOnC ',' (stripCommas (strip l)) with
  | [] => .error .indexError
  | w :: ws =>
    if isNumeric w then
      match mapRes intWord (w :: ws) with
      | .error e => .error e
      | .ok r => .ok (r, [])
    else .ok ([], [w])

/-- `np.arange(a, b, s)`; a step of zero is an error that is not modelled. -/
def arange (a b s : Int) : Res (List Int) :=
  if s = 0 then .error .unmodelled
  else .ok ((List.range (if 0 < s then (b - a + s - 1) / s else (a - b - s - 1) / (-s)).toNat).map fun (i : Nat) => a + (i : Int) * s)

/-- `_read_set`, /repo/src/meshio/abaqus/_abaqus.py:378-399.  That the numbers are stored in four bytes is not modelled. -/
def readSet (m : Dict (Option (List Char))) (ls : List (List Char)) : Res (List Int × List (List Char)) :=
  match mapRes setLine (dataLines ls) with
  | .error e => .error e
  | .ok r =>
    if Dict.has m "GENERATE" then
      match r.flatMap (·.1) with
      | [a, b, s] =>
        match arange a (b + 1) s with
        | .error e => .error e
        | .ok ids => .ok (ids, r.flatMap (·.2))
      | _ => .error .readError
    else .ok (r.flatMap (·.1), r.flatMap (·.2))

/-! ## The main loop -/

/-- `*NODE`, /repo/src/meshio/abaqus/_abaqus.py:137. -/
def nodeSection (io : FloatIO F) (st : St F) (ls : List (List Char)) : Res (St F) :=
  match readNodes io ls with
  | .error e => .error e
  | .ok ps => .ok { st with points := ps.map (·.2), pids := some (ps.map (·.1)) }

/-- `*ELEMENT`, /repo/src/meshio/abaqus/_abaqus.py:138-149, with the dimension that `CellBlock` looks up, /repo/src/meshio/_mesh.py:97. -/
def elementSection (st : St F) (line : List Char) (ls : List (List Char)) : Res (St F) :=
  match st.pids with
  | none => .error .readError
  | some pids =>
    match getParams line "TYPE" with
    | .error e => .error e
    | .ok m =>
      match readCells m pids ls with
      | .error e => .error e
      | .ok r =>
        match Dict.get? topologicalDimension r.1 with
        | none => .error .keyError
        | some _ =>
          if Dict.has m "ELSET" then
            match nameOf m "ELSET" with
            | .error e => .error e
            | .ok name => .ok { st with cells := st.cells ++ [(r.1, r.2.1)], cellIds := st.cellIds ++ [r.2.2],
                                        elemSets := Dict.set st.elemSets name r.2.1.length, order := st.order ++ [name] }
          else .ok { st with cells := st.cells ++ [(r.1, r.2.1)], cellIds := st.cellIds ++ [r.2.2] }

/-- `*NSET`, /repo/src/meshio/abaqus/_abaqus.py:150-156. -/
def nsetSection (st : St F) (line : List Char) (ls : List (List Char)) : Res (St F) :=
  match getParams line "NSET" with
  | .error e => .error e
  | .ok m =>
    match readSet m ls with
    | .error e => .error e
    | .ok r =>
      match nameOf m "NSET" with
      | .error e => .error e
      | .ok name =>
        match st.pids with
        | none => if r.1.isEmpty then .ok { st with pointSets := Dict.set st.pointSets name [] } else .error .typeError
        | some pids =>
          match mapRes (idGet pids) r.1 with
          | .error e => .error e
          | .ok l => .ok { st with pointSets := Dict.set st.pointSets name l }

/-- The entry for the name of a set, /repo/src/meshio/abaqus/_abaqus.py:174-180.  Sets that name themselves or sets of names are not
modelled; nor is it that the list is the same object. -/
def namedEntry (st : St F) (name : String) (w : List Char) : Res Entry :=
  if String.ofList w = name then .error .unmodelled
  else
    match Dict.get? st.cellSets (String.ofList w) with
    | some l =>
      match mapRes (fun e => match e with | Entry.ids i => (.ok i : Res (List Nat)) | Entry.list _ => .error .unmodelled) l with
      | .error e => .error e
      | .ok l => .ok (.list l)
    | none =>
      match Dict.get? st.elemSets (String.ofList w) with
      | some n => .ok (.ids (List.range n))
      | none => .error .readError

/-- `*ELSET`, /repo/src/meshio/abaqus/_abaqus.py:157-180. -/
def elsetSection (st : St F) (line : List Char) (ls : List (List Char)) : Res (St F) :=
  match getParams line "ELSET" with
  | .error e => .error e
  | .ok m =>
    match readSet m ls with
    | .error e => .error e
    | .ok r =>
      match nameOf m "ELSET" with
      | .error e => .error e
      | .ok name =>
        if r.1 ≠ [] then
          .ok { st with cellSets := Dict.set st.cellSets name (st.cellIds.map fun ids => .ids (r.1.filterMap (idPos ids))) }
        else
          match mapRes (namedEntry st name) r.2 with
          | .error e => .error e
          | .ok l => .ok { st with cellSets := Dict.set st.cellSets name l }

/-- `merge`, /repo/src/meshio/abaqus/_abaqus.py:288-336. -/
def merge (st : St F) (o : Out F) : Res (St F) :=
  if st.points ≠ [] ∧ (st.points.head?.map (·.length)) ≠ (o.points.head?.map (·.length)) then .error .valueError
  else
    .ok { st with points := st.points ++ o.points
                  cells := st.cells ++ o.cells.map fun b => (b.1, b.2.map fun r => r.map (· + st.points.length))
                  pointSets := o.pointSets.foldl (fun d kv => Dict.set d kv.1 (kv.2.map (· + st.points.length))) st.pointSets }

/-- `*INCLUDE`, /repo/src/meshio/abaqus/_abaqus.py:181-204; `inc` reads the file of that name.  Where the file is looked for is not
modelled. -/
def includeSection (inc : List Char → Res (Out F)) (st : St F) (line : List Char) : Res (St F) :=
  match inc (strip ((splitOnC '=' line).getLast?.getD [])) with
  | .error e => .error e
  | .ok o => if o.points = [] then .ok st else merge st o

/-- The loop over the lines, /repo/src/meshio/abaqus/_abaqus.py:125-207. -/
def loop (io : FloatIO F) (inc : List Char → Res (Out F)) : Nat → St F → List (List Char) → Res (St F)
  | _, st, [] => .ok st
  | 0, _, _ => .error .eofLoop
  | fuel + 1, st, line :: ls =>
    if ['*', '*'].isPrefixOf line then loop io inc fuel st ls
    else
      let k := keyword line
      if k = "NODE".toList then
        match nodeSection io st ls with
        | .error e => .error e
        | .ok st => loop io inc fuel st (afterData ls)
      else if k = "ELEMENT".toList then
        match elementSection st line ls with
        | .error e => .error e
        | .ok st => loop io inc fuel st (afterData ls)
      else if k = "NSET".toList then
        match nsetSection st line ls with
        | .error e => .error e
        | .ok st => loop io inc fuel st (afterData ls)
      else if k = "ELSET".toList then
        match elsetSection st line ls with
        | .error e => .error e
        | .ok st => loop io inc fuel st (afterData ls)
      else if k = "INCLUDE".toList then
        match includeSection inc st line with
        | .error e => .error e
        | .ok st => loop io inc fuel st ls
      else loop io inc fuel st ls

/-- The sets of the ELEMENT lines, /repo/src/meshio/abaqus/_abaqus.py:209-219: the `i`-th one is put into the `i`-th place. -/
def elementSets (ncells : Nat) (elemSets : Dict Nat) : Nat → List String → Dict (List Entry) → Res (Dict (List Entry))
  | _, [], d => .ok d
  | i, name :: order, d =>
    match Dict.get? elemSets name with
    | none => .error .keyError
    | some n =>
      match Dict.get? d name with
      | some l =>
        if i < l.length then elementSets ncells elemSets (i + 1) order (Dict.set d name (l.set i (.ids (List.range n))))
        else .error .indexError
      | none =>
        elementSets ncells elemSets (i + 1) order
          (Dict.set d name ((List.range ncells).map fun ic => .ids (if i = ic then List.range n else [])))

/-- `read_buffer`, /repo/src/meshio/abaqus/_abaqus.py:111-229. -/
def read (io : FloatIO F) (inc : List Char → Res (Out F)) (text : List Char) : Res (Out F) :=
  match loop io inc (fileLines text).length St.init (fileLines text) with
  | .error e => .error e
  | .ok st =>
    match elementSets st.cells.length st.elemSets 0 st.order st.cellSets with
    | .error e => .error e
    | .ok sets => .ok ⟨st.points, st.cells, st.pointSets, sets⟩

/-- `read` with files that include others, /repo/src/meshio/abaqus/_abaqus.py:104-108, 189: `fs` gives the text of a file.  Files that
include each other in a circle exceed any `depth`. -/
def readFile (io : FloatIO F) (fs : List Char → Option (List Char)) : Nat → List Char → Res (Out F)
  | 0, _ => .error .eofLoop
  | depth + 1, name =>
    match fs name with
    | none => .error .fileNotFound
    | some text => read io (readFile io fs depth) text

/-! ## Writing -/

/-- `range(0, len(l), 8)` slices, /repo/src/meshio/abaqus/_abaqus.py:435, 445. -/
def rows8 {α : Type} : Nat → List α → List (List α)
  | 0, _ => []
  | fuel + 1, l => if l = [] then [] else l.take 8 :: rows8 fuel (l.drop 8)

/-- `",\n".join(...) + "\n"` -/
def joinRows : List (List Char) → List Char
  | [] => ['\n']
  | [r] => r ++ ['\n']
  | r :: rs => r ++ ",\n".toList ++ joinRows rs

/-- One set, /repo/src/meshio/abaqus/_abaqus.py:432-438, 443-447. -/
def setText (word : String) (name : String) (members : List Int) : List Char :=
  '*' :: (word.toList ++ ", ".toList ++ word.toList ++ "=".toList ++ name.toList ++ "\n".toList ++
    joinRows ((rows8 members.length (members.map fmtInt)).map (joinWith ',')))

/-- One point, /repo/src/meshio/abaqus/_abaqus.py:410-412. -/
def pointText (io : FloatIO F) (p : List F × Nat) : List Char :=
  fmtNat (p.2 + 1) ++ p.1.flatMap (fun x => ", ".toList ++ io.fmt x) ++ "\n".toList

/-- The blocks, /repo/src/meshio/abaqus/_abaqus.py:413-424. -/
def blocksText (translate : Bool) : Nat → List (String × List (List Int)) → Res (List Char)
  | _, [] => .ok []
  | eid, b :: bs =>
    match if translate then find (invDict abaqusToMeshio) b.1 else some b.1 with
    | none => .error .keyError
    | some name =>
      match blocksText translate (eid + b.2.length) bs with
      | .error e => .error e
      | .ok s => .ok ("*ELEMENT, TYPE=".toList ++ name.toList ++ "\n".toList ++
          (b.2.zipIdx eid).flatMap (fun r => fmtNat (r.2 + 1) ++ ",".toList ++ joinWith ',' (r.1.map fun i => fmtInt (i + 1)) ++ "\n".toList) ++ s)

/-- One element set of one block, /repo/src/meshio/abaqus/_abaqus.py:430-438. -/
def elsetText (ic offset : Nat) (kv : String × List (List Int)) : Res (List Char) :=
  match kv.2[ic]? with
  | none => .error .indexError
  | some v => .ok (if v.length > 0 then setText "ELSET" kv.1 (v.map fun i => i + 1 + (offset : Int)) else [])

/-- The element sets, /repo/src/meshio/abaqus/_abaqus.py:426-439. -/
def elsetsText (sets : Dict (List (List Int))) : Nat → Nat → List (String × List (List Int)) → Res (List Char)
  | _, _, [] => .ok []
  | ic, offset, b :: bs =>
    match mapRes (elsetText ic offset) sets with
    | .error e => .error e
    | .ok l =>
      match elsetsText sets (ic + 1) (offset + b.2.length) bs with
      | .error e => .error e
      | .ok s => .ok (l.flatten ++ s)

/-- `write`, /repo/src/meshio/abaqus/_abaqus.py:402-447. -/
def write (io : FloatIO F) (version : List Char) (translate : Bool) (points : List (List F)) (cells : List (String × List (List Int)))
    (cellSets : Dict (List (List Int))) (pointSets : Dict (List Int)) : Res (List Char) :=
  match blocksText translate 0 cells with
  | .error e => .error e
  | .ok b =>
    match elsetsText cellSets 0 0 cells with
    | .error e => .error e
    | .ok s =>
      .ok ("*HEADING\nAbaqus DataFile Version 6.14\nwritten by meshio v".toList ++ version ++ "\n*NODE\n".toList ++
        points.zipIdx.flatMap (pointText io) ++ b ++ s ++ pointSets.flatMap fun kv => setText "NSET" kv.1 (kv.2.map (· + 1)))

end Abaqus
end Meshio
