/-
ANSYS (Fluent) msh files: /repo/src/meshio/ansys/_ansys.py.
-/
import Verif.Base.BinText
import Verif.Base.Hex
import Verif.Base.Dict
import Verif.Model.Types
import Verif.Model.Medit

namespace Meshio
namespace Ansys
open Types Tables
open Medit (BinFloat)

variable {F : Type}

/-- Floats as text (`%.16e`, `float`) and as four or eight bytes. -/
structure AnsFloat (F : Type) extends FloatIO F where
  bin : BinFloat F

/-! ## Reading -/

/-- `_skip_to`, /repo/src/meshio/ansys/_ansys.py:19-22; at the end of the file it never ends. -/
def skipTo (c : Char) : List Char → Res (List Char)
  | [] => .error .eofLoop
  | x :: s => if x = c then .ok s else skipTo c s

/-- `_skip_close`, /repo/src/meshio/ansys/_ansys.py:25-31; at the end of the file it never ends. -/
def skipClose : List Char → Nat → Res (List Char)
  | s, 0 => .ok s
  | [], _ + 1 => .error .eofLoop
  | c :: s, n + 1 => if c = '(' then skipClose s (n + 2) else if c = ')' then skipClose s n else skipClose s (n + 1)

/-- `line.count("(") == line.count(")")` -/
def balanced (line : List Char) : Bool := line.count '(' == line.count ')'

/-- `(|20|30)` followed by the key at the start of the text: what was in front, and what follows. -/
def prefixOf (key s : List Char) : Option (List Char × List Char) :=
  if key <+: s then some ([], s.drop key.length)
  else if ['2', '0'] ++ key <+: s then some (['2', '0'], s.drop (2 + key.length))
  else if ['3', '0'] ++ key <+: s then some (['3', '0'], s.drop (2 + key.length))
  else none

/-- The match of `\s*\(\s*(|20|30)key\s*\(([^\)]*)\).*`: the two groups, /repo/src/meshio/ansys/_ansys.py:41,103,192. -/
def header (key line : List Char) : Option (List Char × List Char) :=
  match line.dropWhile isWs with
  | '(' :: s =>
    match prefixOf key (s.dropWhile isWs) with
    | none => none
    | some (g, s) =>
      match s.dropWhile isWs with
      | '(' :: s => if ')' ∈ s then some (g, s.takeWhile fun c => decide (c ≠ ')')) else none
      | _ => none
  | _ => none

/-- Words as numbers; ValueError if one is none. -/
def parseRow {α : Type} (parse : List Char → Option α) (ws : List (List Char)) : Res (List α) :=
  mapRes (fun w => match parse w with | some x => .ok x | none => .error .valueError) ws

/-- `[int(num, 16) for num in out.group(2).split()]` -/
def numbers (s : List Char) : Res (List Int) := parseRow parseHex (splitWs s)

/-- The header of a section: the encoding and the first five numbers; AssertionError if it does not match, ReadError if there
are fewer numbers, /repo/src/meshio/ansys/_ansys.py:41-46,103-107,192-197. -/
def sectionHead (key line : List Char) (nonempty : Bool) : Res (List Char × Int × Int × Int × Int × Int) :=
  match header key line with
  | none => .error .assertionError
  | some (g, inner) =>
    if nonempty ∧ inner = [] then .error .assertionError
    else
      match numbers inner with
      | .error e => .error e
      | .ok (a :: b :: c :: d :: e :: _) => .ok (g, a, b, c, d, e)
      | .ok _ => .error .readError

/-- `line.strip()[-1] == "("` -/
def opened (line : List Char) : Bool := (strip line).getLast? == some '('

/-- The next line that is not blank, and the rest; at the end of the file the loop never ends
(/repo/src/meshio/ansys/_ansys.py:71-73,230-232).  The first argument bounds the number of lines. -/
def nextLine : Nat → List Char → Res (List Char × List Char)
  | 0, _ => .error .eofLoop
  | n + 1, s =>
    if s = [] then .error .eofLoop
    else if strip (readLine s).1 = [] then nextLine n (readLine s).2
    else .ok (readLine s)

/-- The lines of coordinates, /repo/src/meshio/ansys/_ansys.py:66-78. -/
def pointRows (io : AnsFloat F) (dim : Nat) : Nat → List Char → Res (List (List F) × List Char)
  | 0, s => .ok ([], s)
  | n + 1, s =>
    match nextLine (s.length + 1) s with
    | .error e => .error e
    | .ok (line, s) =>
      if (splitWs line).length ≠ dim then .error .readError
      else
        match parseRow io.parse (splitWs line) with
        | .error e => .error e
        | .ok row =>
          match pointRows io dim n s with
          | .error e => .error e
          | .ok (rows, s) => .ok (row :: rows, s)

/-- Lines of `k` node numbers and `extra` further words, /repo/src/meshio/ansys/_ansys.py:155-163,253-265. -/
def nodeRows (k extra : Nat) : Nat → List Char → Res (List (List Int) × List Char)
  | 0, s => .ok ([], s)
  | n + 1, s =>
    if (splitWs (readLine s).1).length ≠ k + extra then .error .readError
    else
      match parseRow parseHex ((splitWs (readLine s).1).take k) with
      | .error e => .error e
      | .ok row =>
        match nodeRows k extra n (readLine s).2 with
        | .error e => .error e
        | .ok (rows, s) => .ok (row :: rows, s)

/-- `np.fromfile` and `reshape` for integers of `w` bytes. -/
def intRows (w n k : Nat) (s : List Char) : Res (List (List Int) × List Char) :=
  match reshape n k (getInts w (n * k) s).1 with
  | .error e => .error e
  | .ok rows => .ok (rows, (getInts w (n * k) s).2)

/-- `np.fromfile` and `reshape` for floats of `w` bytes. -/
def floatRows (io : AnsFloat F) (w n k : Nat) (s : List Char) : Res (List (List F) × List Char) :=
  match reshape n k ((blocks w (n * k) s).1.map fun b => io.bin.dec false w (toBytes b)) with
  | .error e => .error e
  | .ok rows => .ok (rows, (blocks w (n * k) s).2)

/-- The number of bytes of an item. -/
def itemSize (g : List Char) : Nat := if g = ['2', '0'] then 4 else 8

/-- What is kept while reading: the arrays of points with their dimensions, the cells, the index of the first point, and the
index of the last point so far. -/
structure St (F : Type) where
  points : List (Nat × List (List F))
  cells : List (String × List (List Int))
  first : Option Int
  last : Option Int

/-- `_read_points`, /repo/src/meshio/ansys/_ansys.py:34-94, together with what happens to its result (:338-345).  Negative
counts: `np.empty` raises a ValueError; what `np.fromfile` does is not modelled. -/
def readPoints (io : AnsFloat F) (line s : List Char) (st : St F) : Res (St F × List Char) :=
  if balanced line then .ok ({ st with first := none, last := none }, s)
  else
    match sectionHead ['1', '0'] line false with
    | .error e => .error e
    | .ok (g, _, b, c, _, dim) =>
      if st.last.isSome ∧ st.last ≠ some (b - 1) then .error .readError
      else
        match if opened line then .ok s else skipTo '(' s with
        | .error e => .error e
        | .ok s =>
          if c - b + 1 < 0 ∨ dim < 0 then .error (if g = [] then .valueError else .unmodelled)
          else
            match if g = [] then pointRows io dim.toNat (c - b + 1).toNat s
              else floatRows io (itemSize g) (c - b + 1).toNat dim.toNat s with
            | .error e => .error e
            | .ok (rows, s) =>
              match skipClose s 2 with
              | .error e => .error e
              | .ok s => .ok (⟨st.points ++ [(dim.toNat, rows)], st.cells, some (st.first.getD b), some c⟩, s)

/-- Looking for the opening bracket of a cell section, /repo/src/meshio/ansys/_ansys.py:128-141: the rest of the file, or (if
another character than white space comes first) the rest behind the next closing bracket. -/
def openCells : List Char → Res (Bool × List Char)
  | [] => .error .eofLoop
  | c :: s =>
    if c = '(' then .ok (true, s)
    else if isWs c then openCells s
    else
      match skipTo ')' s with
      | .error e => .error e
      | .ok s => .ok (false, s)

/-- The data of a cell section, /repo/src/meshio/ansys/_ansys.py:155-176. -/
def cellRows (g : List Char) (n : Int) (k : Nat) (s : List Char) : Res (List (List Int) × List Char) :=
  if n < 0 then .error (if g = [] then .valueError else .unmodelled)
  else if g = [] then nodeRows k 0 n.toNat s
  else intRows (itemSize g) n.toNat k s

/-- `_read_cells`, /repo/src/meshio/ansys/_ansys.py:97-180, and what happens to its result (:347-352). -/
def readCells (line s : List Char) (st : St F) : Res (St F × List Char) :=
  if balanced line then .ok (st, s)
  else
    match sectionHead ['1', '2'] line true with
    | .error e => .error e
    | .ok (g, _, b, c, zone, type) =>
      if zone = 0 then .ok (st, s)
      else
        match if type = 0 then some none else if type < 0 then none else (find ansysToMeshio type.toNat).map some with
        | none => .error .keyError
        | some key =>
          match if opened line then .ok (true, s) else openCells s with
          | .error e => .error e
          | .ok (false, s) => .ok (st, s)
          | .ok (true, s) =>
            match key with
            | none =>
              match skipClose s 2 with
              | .error e => .error e
              | .ok s => .ok (st, s)
            | some (t, k) =>
              match cellRows g (c - b + 1) k s with
              | .error e => .error e
              | .ok (rows, s) =>
                match skipClose s 2 with
                | .error e => .error e
                | .ok s => .ok ({ st with cells := st.cells ++ [(t, rows)] }, s)

/-- `element_type_to_key_num_nodes` of `_read_faces` without `mixed`, /repo/src/meshio/ansys/_ansys.py:203-208. -/
def faceTypes : List (Nat × String × Nat) := [(2, "line", 2), (3, "triangle", 3), (4, "quad", 4)]

/-- `data[type_string].append(row)`, /repo/src/meshio/ansys/_ansys.py:243-248. -/
def pushRow (d : Dict (List (List Int))) (t : String) (r : List Int) : Dict (List (List Int)) :=
  Dict.set d t (((Dict.get? d t).getD []) ++ [r])

/-- The lines of a mixed face section, /repo/src/meshio/ansys/_ansys.py:229-248. -/
def mixedRows : Nat → List Char → Dict (List (List Int)) → Res (Dict (List (List Int)) × List Char)
  | 0, s, d => .ok (d, s)
  | n + 1, s, d =>
    match nextLine (s.length + 1) s with
    | .error e => .error e
    | .ok (line, s) =>
      match splitWs line with
      | [] => .error .indexError
      | w :: ws =>
        match parseHex w with
        | none => .error .valueError
        | some i =>
          if i = 0 then .error .readError
          else
            match if i < 0 then none else find faceTypes i.toNat with
            | none => .error .keyError
            | some (t, k) =>
              if ws.length + 1 ≠ k + 3 then .error .readError
              else
                match parseRow parseHex (ws.take k) with
                | .error e => .error e
                | .ok row => mixedRows n s (pushRow d t row)

/-- `_read_faces`, /repo/src/meshio/ansys/_ansys.py:183-295, and what happens to its result (:354-358). -/
def readFaces (line s : List Char) (st : St F) : Res (St F × List Char) :=
  if balanced line then .ok (st, s)
  else
    match sectionHead ['1', '3'] line true with
    | .error e => .error e
    | .ok (g, _, b, c, _, type) =>
      match if type = 0 then some none else if type < 0 then none else (find faceTypes type.toNat).map some with
      | none => .error .keyError
      | some key =>
        match if opened line then .ok s else skipTo '(' s with
        | .error e => .error e
        | .ok s =>
          match key with
          | none =>
            if g ≠ [] then .error .readError
            else
              match mixedRows (c - b + 1).toNat s [] with
              | .error e => .error e
              | .ok (d, s) =>
                match skipClose s 2 with
                | .error e => .error e
                | .ok s => .ok ({ st with cells := st.cells ++ d }, s)
          | some (t, k) =>
            if c - b + 1 < 0 then .error (if g = [] then .valueError else .unmodelled)
            else
              match if g = [] then nodeRows k 2 (c - b + 1).toNat s else intRows (itemSize g) (c - b + 1).toNat (k + 2) s with
              | .error e => .error e
              | .ok (rows, s) =>
                match skipClose s 2 with
                | .error e => .error e
                | .ok s => .ok ({ st with cells := st.cells ++ [(t, rows.map (·.take k))] }, s)

/-- The index of a line: the match of `\s*\(\s*([0-9]+).*`, /repo/src/meshio/ansys/_ansys.py:320-325. -/
def indexOf (line : List Char) : Option (List Char) :=
  match line.dropWhile isWs with
  | '(' :: s => if (s.dropWhile isWs).takeWhile Char.isDigit = [] then none else some ((s.dropWhile isWs).takeWhile Char.isDigit)
  | _ => none

/-- One line of the loop, /repo/src/meshio/ansys/_ansys.py:313-378.  The index 45 leaves the rest alone; the indices 0, 1, 2, 39
and unknown ones skip to the end of the section. -/
def readSection (io : AnsFloat F) (line s : List Char) (st : St F) : Res (St F × List Char) :=
  if strip line = [] then .ok (st, s)
  else
    match indexOf line with
    | none => .error .readError
    | some i =>
      if i = ['0'] ∨ i = ['1'] ∨ i = ['2'] then
        match skipClose s (line.count '(' - line.count ')') with
        | .error e => .error e
        | .ok s => .ok (st, s)
      else if (prefixOf ['1', '0'] i).isSome then readPoints io line s st
      else if (prefixOf ['1', '2'] i).isSome then readCells line s st
      else if (prefixOf ['1', '3'] i).isSome then readFaces line s st
      else if i = ['4', '5'] then .ok (st, s)
      else
        match skipClose s (line.count '(' - line.count ')') with
        | .error e => .error e
        | .ok s => .ok (st, s)

/-- The loop of `read`, /repo/src/meshio/ansys/_ansys.py:311-378; the first argument bounds the number of lines. -/
def loop (io : AnsFloat F) : Nat → List Char → St F → Res (St F)
  | 0, _, _ => .error .eofLoop
  | n + 1, s, st =>
    if s = [] then .ok st
    else
      match readSection io (readLine s).1 (readLine s).2 st with
      | .error e => .error e
      | .ok (st, s) => loop io n s st

/-- What is read. -/
structure Out (F : Type) where
  points : List (List F)
  cells : List (String × List (List Int))
deriving DecidableEq

/-- The end of `read`, /repo/src/meshio/ansys/_ansys.py:380-388: the arrays of points must be of one dimension, and the cells
are counted from the first point.  (The 64-bit range of numbers is left out.) -/
def finish (st : St F) : Res (Out F) :=
  if st.points = [] ∨ (st.points.all fun p => p.1 == ((st.points.map (·.1)).headD 0)) = false then .error .valueError
  else
    match st.first with
    | none => if st.cells = [] then .ok ⟨st.points.flatMap (·.2), []⟩ else .error .typeError
    | some i => .ok ⟨st.points.flatMap (·.2), st.cells.map fun c => (c.1, c.2.map fun r => r.map (· - i))⟩

/-- `read`, /repo/src/meshio/ansys/_ansys.py:298-388; bytes are characters (`Base/BinText.lean`), decoding is left out. -/
def read (io : AnsFloat F) (s : List Char) : Res (Out F) :=
  match loop io (s.length + 1) s ⟨[], [], none, none⟩ with
  | .error e => .error e
  | .ok st => finish st

/-! ## Writing -/

/-- A cell block; `width` is 4 for int32, 8 for int64 and 0 for any other type of integers. -/
structure Blk where
  type : String
  rows : List (List Int)
  width : Nat
deriving DecidableEq

/-- Lines of words, as written by `np.savetxt`. -/
def saveText (rows : List (List (List Char))) : List Char := linesText (rows.map (joinWith ' '))

/-- The points, /repo/src/meshio/ansys/_ansys.py:410-421; `single` is for float32, in which case four bytes are written. -/
def pointText (io : AnsFloat F) (binary single : Bool) (dim : Nat) (points : List (List F)) : List Char :=
  '(' :: (if binary then "3010".toList else "10".toList) ++ " (1 ".toList ++ fmtHex 1 ++ ' ' :: fmtHex points.length ++ " 1 ".toList ++
    fmtHex dim ++ ")(\n".toList ++
    if binary then
      points.flatten.flatMap (fun x => toChars (io.bin.enc false (if single then 4 else 8) x)) ++ "\n)".toList ++ "End of Binary Section 3010)\n".toList
    else saveText (points.map fun p => p.map io.fmt) ++ "))\n".toList

/-- One cell block, /repo/src/meshio/ansys/_ansys.py:440-462. -/
def cellText (binary : Bool) (first : Int) (b : Blk) : Res (List Char) :=
  match if binary then (if b.width = 4 then some "2012".toList else if b.width = 8 then some "3012".toList else none) else some "12".toList with
  | none => .error .keyError
  | some key =>
    match find meshioToAnsys b.type with
    | none => .error .keyError
    | some t => .ok ('(' :: key ++ " (1 ".toList ++ fmtHex first ++ ' ' :: fmtHex (first + b.rows.length - 1) ++ " 1 ".toList ++ fmtNat t ++ ")(\n".toList ++
        if binary then (b.rows.map fun r => r.map (· + 1)).flatMap (putInts b.width) ++ "\n)".toList ++ "End of Binary Section ".toList ++ key ++ ")\n".toList
        else saveText (b.rows.map fun r => (r.map (· + 1)).map fmtHex) ++ "))\n".toList)

/-- All cell blocks, /repo/src/meshio/ansys/_ansys.py:434-462. -/
def cellTexts (binary : Bool) : Int → List Blk → Res (List Char)
  | _, [] => .ok []
  | first, b :: bs =>
    match cellText binary first b with
    | .error e => .error e
    | .ok t =>
      match cellTexts binary (first + b.rows.length) bs with
      | .error e => .error e
      | .ok ts => .ok (t ++ ts)

/-- `write`, /repo/src/meshio/ansys/_ansys.py:391-462.  (What has been written before an exception is left out.) -/
def write (io : AnsFloat F) (version : List Char) (binary single : Bool) (dim : Nat) (points : List (List F)) (cells : List Blk) : Res (List Char) :=
  if dim ≠ 2 ∧ dim ≠ 3 then .error .writeError
  else
    match cellTexts binary 0 cells with
    | .error e => .error e
    | .ok t => .ok ("(1 \"meshio ".toList ++ version ++ "\")\n".toList ++ "(2 ".toList ++ fmtNat dim ++ ")\n".toList ++
        "(10 (0 ".toList ++ fmtHex 1 ++ ' ' :: fmtHex points.length ++ " 0))\n".toList ++
        "(12 (0 1 ".toList ++ fmtHex (cells.map fun b => b.rows.length).sum ++ " 0))\n".toList ++
        pointText io binary single dim points ++ t)

end Ansys
end Meshio
