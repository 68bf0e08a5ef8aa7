/-
Nastran bulk data: /repo/src/meshio/nastran/_nastran.py.
-/
import Verif.Base.File
import Verif.Base.Hex
import Verif.Base.IdMap
import Verif.Base.Lines
import Verif.Base.Runs
import Verif.Model.Common
import Verif.Model.Mesh
import Verif.Model.Types

namespace Meshio
namespace Nastran
open Types Tables

variable {F : Type}

/-- Floats: `np.format_float_scientific(x, exp_digits=1, precision=11)`, `f"{x:f}"`, `float(s)` and zero. -/
structure NasIO (F : Type) where
  sci : F → List Char
  fixed : F → List Char
  parse : List Char → Option F
  zero : F

/-- The mesh that is read: `points`, `points_id`, the blocks, `cells_id` and the arrays `nastran:ref`. -/
structure Out (F : Type) where
  points : List (List F)
  pids : List Int
  cells : List (String × List (List Nat))
  cids : List (List Int)
  prefs : Option (List Int)
  crefs : Option (List (List Int))
deriving DecidableEq

/-- The lists of `read_buffer`, /repo/src/meshio/nastran/_nastran.py:64-71. -/
structure St (F : Type) where
  points : List (List F)
  pids : List Int
  prefs : List Int
  cells : List (String × List (List Int))
  cids : List (List Int)
  crefs : List (List Int)
deriving DecidableEq

def St.init : St F := ⟨[], [], [], [], [], []⟩

/-! ## Lines -/

/-- Blank lines and comments, /repo/src/meshio/nastran/_nastran.py:115, 137. -/
def isSkip (l : List Char) : Bool := decide (l.length < 4) || ['$'].isPrefixOf l || "//".toList.isPrefixOf l || ['#'].isPrefixOf l

/-- Pieces of eight characters, /repo/src/meshio/nastran/_nastran.py:467-468; the first argument bounds their number. -/
def chunks8 : Nat → List Char → List (List Char)
  | 0, _ => []
  | fuel + 1, l => if l = [] then [] else l.take 8 :: chunks8 fuel (l.drop 8)

/-- `_chunk_line`, /repo/src/meshio/nastran/_nastran.py:459-469 -/
def chunkLine (l : List Char) : Res (List (List Char)) :=
  if l.getLast? = some '\n' then
    .ok (if ',' ∈ l.dropLast then splitOnC ',' l.dropLast else chunks8 l.dropLast.length l.dropLast)
  else .error .assertionError

/-- Eight blanks. -/
def blank8 : List Char := "        ".toList

/-- A list of chunks; `none` is a removed one. -/
abbrev Chunks := List (Option (List Char))

/-- `chunks[-1][9] = None` if there are ten, /repo/src/meshio/nastran/_nastran.py:148-153, 163. -/
def cut (c : Chunks) : Chunks := if c.length = 10 then c.set 9 none else c

/-- The continuation lines, /repo/src/meshio/nastran/_nastran.py:130-171: the chunks of the lines of the entry, and the lines from the
next entry on.  `done` are the chunks of all lines but the last one. -/
def gather (done : List Chunks) (last : Chunks) : List (List Char) → Res (List Chunks × List (List Char))
  | [] => .error .readError
  | l :: ls =>
    if isSkip l then gather done last ls
    else if l.head? = some '+' ∨ l.head? = some '*' then
      if 10 < last.length then .error .assertionError
      else
        match chunkLine l with
        | .error e => .error e
        | .ok c => gather (done ++ [cut last]) ((c.map some).set 0 none) ls
    else if last.length = 10 ∧ last[9]? = some (some blank8) then
      match chunkLine l with
      | .error e => .error e
      | .ok c => if c.head? = some blank8 then gather (done ++ [cut last]) ((c.map some).set 0 none) ls else .ok (done ++ [last], l :: ls)
    else .ok (done ++ [last], l :: ls)

/-- Two chunks form a field, /repo/src/meshio/nastran/_nastran.py:180-198.  (None of them is a removed one.) -/
def pairUp : Chunks → Chunks
  | [] => []
  | [a] => [a]
  | a :: b :: r => (a.bind fun x => b.map (x ++ ·)) :: pairUp r

/-- The large field format, /repo/src/meshio/nastran/_nastran.py:175-205. -/
def large (c : Chunks) : Chunks := c.take 1 ++ pairUp ((c.drop 1).take 8) ++ (c.drop 9).take 1

/-- `chunks[0][0].startswith("GRID*")`, /repo/src/meshio/nastran/_nastran.py:174. -/
def isLarge : List Chunks → Bool
  | (some k :: _) :: _ => "GRID*".toList.isPrefixOf k
  | _ => false

/-- The fields of an entry, /repo/src/meshio/nastran/_nastran.py:173-214. -/
def fields (cs : List Chunks) : List (List Char) :=
  (((if isLarge cs then cs.map large else cs).flatten).filterMap id).map strip

/-! ## Entries -/

/-- `int(s)` -/
def intWord (w : List Char) : Res Int :=
  match parseInt w with
  | some i => .ok i
  | none => .error .valueError

/-- `chunks[i]` -/
def fieldAt (fs : List (List Char)) (i : Nat) : Res (List Char) :=
  match fs[i]? with
  | some w => .ok w
  | none => .error .indexError

/-- `_nastran_string_to_float`, /repo/src/meshio/nastran/_nastran.py:451-456. -/
def floatWord (io : NasIO F) (w : List Char) : Res F :=
  match io.parse w with
  | some x => .ok x
  | none =>
    match strip w with
    | [] => .error .indexError
    | c :: cs =>
      match io.parse (c :: cs.flatMap fun d => if d = '+' ∨ d = '-' then ['e', d] else [d]) with
      | some x => .ok x
      | none => .error .valueError

/-- The field with a reference: empty, or an integer, /repo/src/meshio/nastran/_nastran.py:220-222, 229-230. -/
def refWord (w : List Char) : Res (Option Int) :=
  if w = [] then .ok none
  else
    match intWord w with
    | .error e => .error e
    | .ok i => .ok (some i)

/-- A point, /repo/src/meshio/nastran/_nastran.py:218-224. -/
def addPoint (io : NasIO F) (st : St F) (fs : List (List Char)) : Res (St F) :=
  match fieldAt fs 1 with
  | .error e => .error e
  | .ok w1 =>
    match intWord w1 with
    | .error e => .error e
    | .ok id =>
      match fieldAt fs 2 with
      | .error e => .error e
      | .ok w2 =>
        match refWord w2 with
        | .error e => .error e
        | .ok ref =>
          match mapRes (floatWord io) ((fs.drop 3).take 3) with
          | .error e => .error e
          | .ok x => .ok { st with points := st.points ++ [x], pids := st.pids ++ [id], prefs := st.prefs ++ ref.toList }

/-- The types with more nodes, /repo/src/meshio/nastran/_nastran.py:78-96. -/
def promoted (t : String) : Option (String × String) :=
  if t = "tetra" then some ("tetra10", "CTETRA_")
  else if t = "pyramid" then some ("pyramid13", "CPYRA_")
  else if t = "wedge" then some ("wedge15", "CPENTA_")
  else if t = "hexahedron" then some ("hexahedron20", "CHEXA_")
  else none

/-- The type of a cell with its nodes, /repo/src/meshio/nastran/_nastran.py:74-98. -/
def cellOf (keyword : String) (nodes : List Int) : Res (String × List Int) :=
  match find nastranToMeshio keyword with
  | none => .error .keyError
  | some t =>
    match find numNodesPerCell t with
    | none => .error .keyError
    | some n =>
      if n < nodes.length then
        match promoted t with
        | none => .error .assertionError
        | some p =>
          match reorder nastranToVtkOrder p.2 nodes with
          | .error e => .error e
          | .ok c => .ok (p.1, c)
      else
        match reorder nastranToVtkOrder keyword nodes with
        | .error e => .error e
        | .ok c => .ok (t, c)

/-- `l[-1].append(a)` -/
def appendLast {α : Type} (l : List (List α)) (a : α) : Res (List (List α)) :=
  match l.getLast? with
  | none => .error .indexError
  | some b => .ok (l.dropLast ++ [b ++ [a]])

/-- Append a cell, /repo/src/meshio/nastran/_nastran.py:100-110. -/
def push (st : St F) (t : String) (cell : List Int) (id : Int) (ref : Option Int) : Res (St F) :=
  if st.cells.getLast?.map (·.1) = some t then
    match appendLast st.cids id with
    | .error e => .error e
    | .ok cids =>
      match ref with
      | none => .ok { st with cells := pushTyped st.cells (t, cell), cids := cids }
      | some r =>
        match appendLast st.crefs r with
        | .error e => .error e
        | .ok crefs => .ok { st with cells := pushTyped st.cells (t, cell), cids := cids, crefs := crefs }
  else .ok { st with cells := pushTyped st.cells (t, cell), cids := st.cids ++ [[id]], crefs := st.crefs ++ (ref.toList.map ([·])) }

/-- The names of which only two nodes are read, /repo/src/meshio/nastran/_nastran.py:232. -/
def bars : List String := ["CBAR", "CBEAM", "CBUSH", "CBUSH1D", "CGAP"]

/-- A cell, /repo/src/meshio/nastran/_nastran.py:227-250. -/
def addCell (st : St F) (keyword : String) (fs : List (List Char)) : Res (St F) :=
  match fieldAt fs 1 with
  | .error e => .error e
  | .ok w1 =>
    match intWord w1 with
    | .error e => .error e
    | .ok id =>
      match fieldAt fs 2 with
      | .error e => .error e
      | .ok w2 =>
        match refWord w2 with
        | .error e => .error e
        | .ok ref =>
          match mapRes intWord ((if keyword ∈ bars then (fs.drop 3).take 2 else fs.drop 3).filter fun w => decide (w ≠ [])) with
          | .error e => .error e
          | .ok nodes =>
            match cellOf keyword nodes with
            | .error e => .error e
            | .ok c => push st c.1 c.2 id ref

/-- One entry, /repo/src/meshio/nastran/_nastran.py:215-250. -/
def entry (io : NasIO F) (st : St F) (fs : List (List Char)) : Res (St F) :=
  match fs.head? with
  | none => .error .indexError
  | some k =>
    if k = "GRID".toList ∨ k = "GRID*".toList then addPoint io st fs
    else if (find nastranToMeshio (String.ofList k)).isSome then addCell st (String.ofList k) fs
    else .ok st

/-- The entries up to ENDDATA, /repo/src/meshio/nastran/_nastran.py:120-250; the first argument bounds their number. -/
def loop (io : NasIO F) : Nat → St F → List (List Char) → Res (St F)
  | 0, _, _ => .error .eofLoop
  | _, _, [] => .error .readError
  | fuel + 1, st, l :: ls =>
    if "ENDDATA".toList.isPrefixOf l then .ok st
    else
      match chunkLine l with
      | .error e => .error e
      | .ok c =>
        match gather [] (c.map some) ls with
        | .error e => .error e
        | .ok r =>
          match entry io st (fields r.1) with
          | .error e => .error e
          | .ok st => loop io fuel st r.2

/-- The block as an array, /repo/src/meshio/nastran/_nastran.py:254-256, with the dimension that `CellBlock` looks up,
/repo/src/meshio/_mesh.py:97; rows of different lengths are no array. -/
def checkBlock (b : String × List (List Int)) : Res (String × List (List Int)) :=
  if b.2.all fun r => decide (r.length = ((b.2.head?.map (·.length)).getD 0)) then
    match Dict.get? topologicalDimension b.1 with
    | none => .error .keyError
    | some _ => .ok b
  else .error .valueError

/-- Numbers of points become positions, /repo/src/meshio/nastran/_nastran.py:260-263; `np.vectorize` refuses an empty array. -/
def resolve (pids : List Int) (b : String × List (List Int)) : Res (String × List (List Nat)) :=
  if b.2.flatten = [] then .error .valueError
  else
    match mapRes (mapRes (idGet pids)) b.2 with
    | .error e => .error e
    | .ok rows => .ok (b.1, rows)

/-- Building the mesh, /repo/src/meshio/nastran/_nastran.py:251-273.  That integers are stored in eight bytes is not modelled. -/
def finish (st : St F) : Res (Out F) :=
  if st.points.all fun p => decide (p.length = ((st.points.head?.map (·.length)).getD 0)) then
    match mapRes checkBlock st.cells with
    | .error e => .error e
    | .ok cells =>
      match mapRes (resolve st.pids) cells with
      | .error e => .error e
      | .ok cells => .ok ⟨st.points, st.pids, cells, st.cids, if st.prefs = [] then none else some st.prefs,
          if st.crefs = [] then none else some st.crefs⟩
  else .error .valueError

/-- The lines after `BEGIN BULK`, /repo/src/meshio/nastran/_nastran.py:56-61. -/
def afterBegin : List (List Char) → Res (List (List Char))
  | [] => .error .runtimeError
  | l :: ls => if "BEGIN BULK".toList.isPrefixOf (strip l) then .ok ls else afterBegin ls

/-- `read_buffer`, /repo/src/meshio/nastran/_nastran.py:54-273.  Without any entry the reader never ends (112-118). -/
def read (io : NasIO F) (text : List Char) : Res (Out F) :=
  match afterBegin (fileLines text) with
  | .error e => .error e
  | .ok ls =>
    match ls.dropWhile isSkip with
    | [] => .error .eofLoop
    | l :: ls =>
      match loop io (ls.length + 1) St.init (l :: ls) with
      | .error e => .error e
      | .ok st => finish st

/-! ## Writing -/

/-- `{:<n}` -/
def padRight (n : Nat) (s : List Char) : List Char := s ++ List.replicate (n - s.length) ' '

/-- `{:>n}` -/
def padLeft (n : Nat) (s : List Char) : List Char := List.replicate (n - s.length) ' ' ++ s

/-- `_float_rstrip`, /repo/src/meshio/nastran/_nastran.py:387-388. -/
def floatRstrip (io : NasIO F) (x : F) : Res (List Char) := .ok (((io.fixed x).reverse.dropWhile (· == '0')).reverse.take 8)

/-- `_float_to_nastran_string`, /repo/src/meshio/nastran/_nastran.py:391-417. -/
def floatString (io : NasIO F) (x : F) : Res (List Char) :=
  let out := (io.sci x).map fun c => if c = 'e' then 'E' else c
  if out.length ≤ 16 then .ok out else .error .assertionError

/-- The formats of points, /repo/src/meshio/nastran/_nastran.py:297-308. -/
inductive PointFormat where
  | free | small | large
deriving DecidableEq

/-- `point_format` -/
def pointFormat (s : String) : Res PointFormat :=
  if s = "free" then .ok .free
  else if s = "fixed-small" then .ok .small
  else if s = "fixed-large" then .ok .large
  else .error .runtimeError

/-- `grid_fmt.format(...)` -/
def gridText (p : PointFormat) (id : Nat) (ref x y z : List Char) : List Char :=
  match p with
  | .free => "GRID,".toList ++ fmtNat id ++ ",".toList ++ ref ++ ",".toList ++ x ++ ",".toList ++ y ++ ",".toList ++ z ++ "\n".toList
  | .small => "GRID    ".toList ++ padRight 8 (fmtNat id) ++ padRight 8 ref ++ padLeft 8 x ++ padLeft 8 y ++ padLeft 8 z ++ "\n".toList
  | .large => "GRID*   ".toList ++ padRight 16 (fmtNat id) ++ padRight 16 ref ++ padLeft 16 x ++ padLeft 16 y ++
      "\n*       ".toList ++ padLeft 16 z ++ "\n".toList

/-- `str(refs[i])`, or nothing, /repo/src/meshio/nastran/_nastran.py:340, 353-359.  References are taken to be integers. -/
def refText (refs : Option (List Int)) (i : Nat) : Res (List Char) :=
  match refs with
  | none => .ok []
  | some l =>
    match l[i]? with
    | none => .error .indexError
    | some r => .ok (fmtInt r)

/-- `float_fmt`, /repo/src/meshio/nastran/_nastran.py:297-308. -/
def floatText (io : NasIO F) : PointFormat → F → Res (List Char)
  | .small => floatRstrip io
  | _ => floatString io

/-- One point, /repo/src/meshio/nastran/_nastran.py:338-342. -/
def pointText (io : NasIO F) (p : PointFormat) (refs : Option (List Int)) (x : List F × Nat) : Res (List Char) :=
  match mapRes (floatText io p) x.1 with
  | .error e => .error e
  | .ok fx =>
    match refText refs x.2 with
    | .error e => .error e
    | .ok ref =>
      match fx with
      | a :: b :: c :: _ => .ok (gridText p (x.2 + 1) ref a b c)
      | _ => .error .indexError

/-- The formats of cells, /repo/src/meshio/nastran/_nastran.py:310-322: width of numbers, continuation character, `nipl1`, `nipl2`;
none of these is set in the free format. -/
inductive CellFormat where
  | free
  | fixed (large : Bool) (width : Nat) (char : Char) (n1 n2 : Nat)
deriving DecidableEq

/-- `cell_format` -/
def cellFormat (s : String) : Res CellFormat :=
  if s = "free" then .ok .free
  else if s = "fixed-small" then .ok (.fixed false 8 '+' 6 14)
  else if s = "fixed-large" then .ok (.fixed true 16 '*' 2 6)
  else .error .runtimeError

/-- One cell, /repo/src/meshio/nastran/_nastran.py:357-382, `id` being its number. -/
def cellText (f : CellFormat) (name : List Char) (id : Nat) (ref : List Char) (cell : List Int) : Res (List Char) :=
  match f with
  | .free => .error .unboundLocal
  | .fixed isLarge w ch n1 n2 =>
    let name := if isLarge then name ++ ['*'] else name
    match reorder vtkToNastranOrder (String.ofList name) (cell.map (· + 1)) with
    | .error e => .error e
    | .ok cell1 =>
      let conn (l : List Int) := l.flatMap fun i => padRight w (fmtInt i)
      let info := padRight 8 name ++ padRight w (fmtNat id) ++ padRight w ref
      let flag (k : Char) := [ch, k] ++ padRight 6 (hexNat id)
      if n1 < cell1.length then
        if n2 < cell1.length then
          .ok (info ++ conn (cell1.take n1) ++ flag '1' ++ "\n".toList ++ flag '1' ++ conn ((cell1.take n2).drop n1) ++ flag '2' ++ "\n".toList ++
            flag '2' ++ conn (cell1.drop n2) ++ "\n".toList)
        else .ok (info ++ conn (cell1.take n1) ++ flag '1' ++ "\n".toList ++ flag '1' ++ conn ((cell1.take n2).drop n1) ++ "\n".toList)
      else .ok (info ++ conn (cell1.take n1) ++ "\n".toList)

/-- The cells of a block, /repo/src/meshio/nastran/_nastran.py:357-382; `id` cells precede those left and `ic` of them in this block. -/
def cellsText (f : CellFormat) (name : List Char) (refs : Option (List Int)) : Nat → Nat → List (List Int) → Res (List Char)
  | _, _, [] => .ok []
  | id, ic, c :: cs =>
    match refText refs ic with
    | .error e => .error e
    | .ok ref =>
      match cellText f name (id + 1) ref c with
      | .error e => .error e
      | .ok s =>
        match cellsText f name refs (id + 1) (ic + 1) cs with
        | .error e => .error e
        | .ok r => .ok (s ++ r)

/-- `cell_refs[ic]`, /repo/src/meshio/nastran/_nastran.py:353-356. -/
def blockRefs (refs : Option (List (List Int))) (k : Nat) : Res (Option (List Int)) :=
  match refs with
  | none => .ok none
  | some l =>
    match l[k]? with
    | none => .error .indexError
    | some r => .ok (some r)

/-- The blocks, /repo/src/meshio/nastran/_nastran.py:344-382. -/
def blocksText (f : CellFormat) (refs : Option (List (List Int))) : Nat → Nat → List (String × List (List Int)) → Res (List Char)
  | _, _, [] => .ok []
  | id, k, b :: bs =>
    match find meshioToNastran b.1 with
    | none => .error .keyError
    | some name =>
      match blockRefs refs k with
      | .error e => .error e
      | .ok r =>
        match cellsText f name.toList r id 0 b.2 with
        | .error e => .error e
        | .ok s =>
          match blocksText f refs (id + b.2.length) (k + 1) bs with
          | .error e => .error e
          | .ok t => .ok (s ++ t)

/-- `write`, /repo/src/meshio/nastran/_nastran.py:296-384, for points with `dim` columns. -/
def write (io : NasIO F) (version : List Char) (pf cf : String) (dim : Nat) (points : List (List F)) (prefs : Option (List Int))
    (cells : List (String × List (List Int))) (crefs : Option (List (List Int))) : Res (List Char) :=
  match pointFormat pf with
  | .error e => .error e
  | .ok p =>
    match cellFormat cf with
    | .error e => .error e
    | .ok c =>
      match mapRes (pointText io p prefs) ((if dim = 2 then points.map (· ++ [io.zero]) else points).zipIdx) with
      | .error e => .error e
      | .ok ps =>
        match blocksText c crefs 0 0 cells with
        | .error e => .error e
        | .ok bs => .ok ("$ Nastran file written by meshio v".toList ++ version ++ "\nBEGIN BULK\n".toList ++ ps.flatten ++ bs ++ "ENDDATA\n".toList)

end Nastran
end Meshio
