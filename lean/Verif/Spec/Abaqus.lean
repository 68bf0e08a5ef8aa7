/-
What Abaqus files say, and what is written.
-/
import Verif.Model.Abaqus
import Verif.Base.All2
namespace Meshio.Spec
open Meshio Abaqus

variable {F : Type}

/-- The names of the element types: type of cells and number of nodes. -/
def abaqusNames : List (String × String × Nat) :=
  [("T2D2", "line", 2), ("T2D2H", "line", 2), ("T2D3", "line3", 3), ("T2D3H", "line3", 3), ("T3D2", "line", 2), ("T3D2H", "line", 2),
   ("T3D3", "line3", 3), ("T3D3H", "line3", 3), ("B21", "line", 2), ("B21H", "line", 2), ("B22", "line3", 3), ("B22H", "line3", 3),
   ("B31", "line", 2), ("B31H", "line", 2), ("B32", "line3", 3), ("B32H", "line3", 3), ("B33", "line3", 3), ("B33H", "line3", 3),
   ("CPS4", "quad", 4), ("CPS4R", "quad", 4), ("S4", "quad", 4), ("S4R", "quad", 4), ("S4RS", "quad", 4), ("S4RSW", "quad", 4),
   ("S4R5", "quad", 4), ("S8R", "quad8", 8), ("S8R5", "quad8", 8), ("S9R5", "quad9", 9), ("CPS3", "triangle", 3),
   ("STRI3", "triangle", 3), ("S3", "triangle", 3), ("S3R", "triangle", 3), ("S3RS", "triangle", 3), ("R3D3", "triangle", 3),
   ("STRI65", "triangle6", 6), ("C3D8", "hexahedron", 8), ("C3D8H", "hexahedron", 8), ("C3D8I", "hexahedron", 8),
   ("C3D8IH", "hexahedron", 8), ("C3D8R", "hexahedron", 8), ("C3D8RH", "hexahedron", 8), ("C3D20", "hexahedron20", 20),
   ("C3D20H", "hexahedron20", 20), ("C3D20R", "hexahedron20", 20), ("C3D20RH", "hexahedron20", 20), ("C3D4", "tetra", 4),
   ("C3D10", "tetra10", 10), ("C3D10H", "tetra10", 10), ("C3D10I", "tetra10", 10), ("C3D10M", "tetra10", 10),
   ("C3D10MH", "tetra10", 10), ("C3D6", "wedge", 6), ("CAX4P", "quad", 4), ("CPE6", "triangle6", 6)]

/-- One option of a keyword line: `KEY` or `KEY=value`, with any blanks, the key in either case. -/
def IsOption (w : List Char) (o : String × Option String) : Prop :=
  match o.2 with
  | none => '=' ∉ w ∧ (strip w).map Char.toUpper = o.1.toList
  | some v => ∃ a b, w = a ++ '=' :: b ∧ '=' ∉ a ∧ '=' ∉ b ∧ (strip a).map Char.toUpper = o.1.toList ∧ strip b = v.toList

/-- The line `*WORD, KEY=value, ...`, the word in either case. -/
def IsKeyLine (word : String) (options : List (String × Option String)) (line : List Char) : Prop :=
  '\n' ∉ line ∧ ∃ w0 ws, line = joinWith ',' (w0 :: ws) ∧ (∀ w ∈ w0 :: ws, ',' ∉ w) ∧ '=' ∉ w0 ∧ w0.head? = some '*' ∧
    (strip w0).map Char.toUpper = '*' :: word.toList ∧ All2 IsOption ws options ∧ (options.map (·.1)).Nodup

/-- A line of a section: it does not start with a star. -/
def IsData (line : List Char) : Prop := '\n' ∉ line ∧ line.head? ≠ some '*'

/-- A line that starts none of the sections the reader knows.  Stars do not count, and neither does what follows a comma. -/
def IsIgnored (line : List Char) : Prop :=
  '\n' ∉ line ∧ (line.take 2 = ['*', '*'] ∨
    ∀ w ∈ ["NODE", "ELEMENT", "NSET", "ELSET", "INCLUDE"],
      ((strip (line.takeWhile (· != ','))).filter (· != '*')).map Char.toUpper ≠ w.toList)

/-- A blank line, or one with a number and coordinates. -/
def IsNode (io : FloatIO F) (l : List Char × Option (Int × List F)) : Prop :=
  IsData l.1 ∧
    match l.2 with
    | none => strip l.1 = []
    | some p => ∃ w ws, strip l.1 = joinWith ',' (w :: ws) ∧ (∀ u ∈ w :: ws, ',' ∉ u) ∧ parseInt (strip w) = some p.1 ∧
        All2 (fun w x => io.parse (strip w) = some x) ws p.2

/-- A line with numbers between commas; nothing may stand between two commas. -/
def IsNumbers (l : List Char × List Int) : Prop :=
  IsData l.1 ∧ ∃ ws, strip l.1 = joinWith ',' ws ∧ (∀ w ∈ ws, ',' ∉ w) ∧
    All2 (fun w i => parseInt (strip w) = some i) (ws.filter (· ≠ [])) l.2

/-- A blank line, or one with the members of a set and any number of commas at the end.  The first number is not signed and
the comma follows at once. -/
def IsMembers (l : List Char × List Int) : Prop :=
  IsData l.1 ∧
    ((l.2 = [] ∧ strip l.1 = []) ∨
      ∃ w ws k, strip l.1 = joinWith ',' (w :: ws) ++ List.replicate k ',' ∧ (∀ u ∈ w :: ws, ',' ∉ u) ∧ w ≠ [] ∧ w.all Char.isDigit = true ∧
        All2 (fun w i => parseInt (strip w) = some i) (w :: ws) l.2)

/-- `members` are the numbers from `a` to `b` (inclusive) in steps of `s`. -/
def Stepped (a b s : Int) (members : List Int) : Prop :=
  members.Pairwise (· < ·) ∧ ∀ x, x ∈ members ↔ a ≤ x ∧ x ≤ b ∧ s ∣ x - a

/-- The set that these numbers stand for, without and with `GENERATE`. -/
def IsSet (generate : Bool) (numbers members : List Int) : Prop :=
  if generate then ∃ a b s, numbers = [a, b, s] ∧ 0 < s ∧ Stepped a b s members else members = numbers

/-- A part of a file after the nodes. -/
inductive AbaqusItem where
  /-- comments, sections the reader does not know -/
  | other (head : List Char) (lines : List (List Char))
  /-- cells: line of the section, name of the type, name of a set they form, lines, and for each cell its number and its nodes -/
  | block (head : List Char) (name : String) (type : String) (set : Option String) (lines : List (List Char × List Int))
      (rows : List (Int × List Int))
  /-- a set of nodes: line of the section, name, lines, members -/
  | nset (head : List Char) (name : String) (lines : List (List Char × List Int)) (members : List Int)
  /-- a set of cells -/
  | elset (head : List Char) (name : String) (lines : List (List Char × List Int)) (members : List Int)

def AbaqusItem.lines : AbaqusItem → List (List Char)
  | .other h ls => h :: ls
  | .block h _ _ _ ls _ => h :: ls.map (·.1)
  | .nset h _ ls _ => h :: ls.map (·.1)
  | .elset h _ ls _ => h :: ls.map (·.1)

/-- Well-formed parts; the nodes have the given numbers. -/
def AbaqusItem.Ok (numbers : List Int) : AbaqusItem → Prop
  | .other h ls => h.head? = some '*' ∧ IsIgnored h ∧ ∀ l ∈ ls, IsIgnored l
  | .block h name type set ls rows => ∃ n options, (name, type, n) ∈ abaqusNames ∧ IsKeyLine "ELEMENT" options h ∧
      ("TYPE", some name) ∈ options ∧ (∀ o ∈ options, o.1 = "ELSET" → o.2 ≠ none ∧ o.2 = set) ∧
      (set ≠ none → ("ELSET", set) ∈ options) ∧ (∀ l ∈ ls, IsNumbers l) ∧
      (ls.flatMap (·.2)) = rows.flatMap (fun r => r.1 :: r.2) ∧ (rows.map (·.1)).Nodup ∧
      ∀ r ∈ rows, r.2.length = n ∧ ∀ k ∈ r.2, k ∈ numbers
  | .nset h name ls members => ∃ options, IsKeyLine "NSET" options h ∧ ("NSET", some name) ∈ options ∧ (∀ l ∈ ls, IsMembers l) ∧
      IsSet ((options.map (·.1)).contains "GENERATE") (ls.flatMap (·.2)) members ∧ ∀ k ∈ members, k ∈ numbers
  | .elset h name ls members => ∃ options, IsKeyLine "ELSET" options h ∧ ("ELSET", some name) ∈ options ∧ (∀ l ∈ ls, IsMembers l) ∧
      IsSet ((options.map (·.1)).contains "GENERATE") (ls.flatMap (·.2)) members ∧ members ≠ []

/-- The file: lines that are not read, the numbered nodes, the other parts. -/
structure AbaqusFile (F : Type) where
  before : List (List Char)
  head : List Char
  nodes : List (List Char × Option (Int × List F))
  items : List AbaqusItem

def AbaqusFile.lines (f : AbaqusFile F) : List (List Char) :=
  f.before ++ f.head :: f.nodes.map (·.1) ++ f.items.flatMap (·.lines)

/-- The numbers of the nodes. -/
def AbaqusFile.numbers (f : AbaqusFile F) : List Int := (f.nodes.filterMap (·.2)).map (·.1)

/-- The blocks: type, set, rows. -/
def AbaqusFile.parts (f : AbaqusFile F) : List (String × Option String × List (Int × List Int)) :=
  f.items.filterMap fun i => match i with | .block _ _ t s _ rows => some (t, s, rows) | _ => none

/-- The sets of nodes. -/
def AbaqusFile.nsets (f : AbaqusFile F) : List (String × List Int) :=
  f.items.filterMap fun i => match i with | .nset _ name _ members => some (name, members) | _ => none

/-- The sets of cells that have their own section. -/
def AbaqusFile.elsets (f : AbaqusFile F) : List (String × List Int) :=
  f.items.filterMap fun i => match i with | .elset _ name _ members => some (name, members) | _ => none

/-- Every part is well-formed; nodes have distinct numbers and the same number of coordinates. -/
structure AbaqusFile.Ok (io : FloatIO F) (f : AbaqusFile F) : Prop where
  before : ∀ l ∈ f.before, IsIgnored l
  head : ∃ options, IsKeyLine "NODE" options f.head
  nodes : ∀ l ∈ f.nodes, IsNode io l
  dim : ∃ d, ∀ p ∈ f.nodes.filterMap (·.2), p.2.length = d
  distinct : f.numbers.Nodup
  items : ∀ i ∈ f.items, i.Ok f.numbers

/-- Sets of cells follow the last cells; no name is used twice; the cells that name their set come first. -/
structure AbaqusFile.Sets (f : AbaqusFile F) : Prop where
  order : f.items.Pairwise fun i j => (match i with | .elset .. => True | _ => False) → (match j with | .block .. => False | _ => True)
  nsets : (f.nsets.map (·.1)).Nodup
  elsets : (f.elsets.map (·.1) ++ f.parts.filterMap (·.2.1)).Nodup
  first : f.parts.Pairwise fun p q => p.2.1 = none → q.2.1 = none

/-- What the file says: a number stands for the node or cell that carries it. -/
def AbaqusFile.mesh (f : AbaqusFile F) : Out F where
  points := (f.nodes.filterMap (·.2)).map (·.2)
  cells := f.parts.map fun p => (p.1, p.2.2.map fun r => r.2.map f.numbers.idxOf)
  pointSets := f.nsets.map fun s => (s.1, s.2.map f.numbers.idxOf)
  cellSets :=
    f.elsets.map (fun s => (s.1, f.parts.map fun p => .ids (s.2.filterMap fun k => (p.2.2.map (·.1)).idxOf? k))) ++
    f.parts.zipIdx.filterMap fun p => p.1.2.1.map fun name =>
      (name, f.parts.zipIdx.map fun q => .ids (if q.2 = p.2 then List.range q.1.2.2.length else []))

/-! ## Writing -/

/-- The names that are written. -/
def abaqusWritten : List (String × String) :=
  [("line", "B31H"), ("line3", "B33H"), ("quad", "CAX4P"), ("quad8", "S8R5"), ("quad9", "S9R5"), ("triangle", "R3D3"),
   ("triangle6", "CPE6"), ("hexahedron", "C3D8RH"), ("hexahedron20", "C3D20RH"), ("tetra", "C3D4"), ("tetra4", "C3D4H"),
   ("tetra10", "C3D10MH"), ("wedge", "C3D6"), ("wedge15", "C3D15")]

/-- Eight to a line. -/
def eights {α : Type} (l : List α) : List (List α) := (List.range ((l.length + 7) / 8)).map fun i => (l.drop (8 * i)).take 8

/-- The section of a set: all rows but the last end with a comma; an empty set has a blank line. -/
def abaqusSet (word name : String) (members : List Int) : List (List Char) :=
  ("*" ++ word ++ ", " ++ word ++ "=" ++ name).toList ::
    (match (eights members).reverse with
    | [] => [[]]
    | r :: rs => (rs.reverse.map fun q => joinWith ',' (q.map fmtInt) ++ [',']) ++ [joinWith ',' (r.map fmtInt)])

/-- The section of a block whose first cell has the number `first + 1`. -/
def abaqusBlock (name : String) (first : Nat) (rows : List (List Int)) : List (List Char) :=
  ("*ELEMENT, TYPE=" ++ name).toList ::
    rows.zipIdx.map fun r => fmtNat (first + r.2 + 1) ++ ',' :: joinWith ',' (r.1.map fun i => fmtInt (i + 1))

/-- The number of cells in the first `k` blocks. -/
def cellsBefore (cells : List (String × List (List Int))) (k : Nat) : Nat := ((cells.take k).map (·.2.length)).sum

/-- The file that is written; `names` are the names of the types of the blocks. -/
def abaqusLines (io : FloatIO F) (version : List Char) (names : List String) (points : List (List F))
    (cells : List (String × List (List Int))) (cellSets : Dict (List (List Int))) (pointSets : Dict (List Int)) : List (List Char) :=
  ["*HEADING".toList, "Abaqus DataFile Version 6.14".toList, "written by meshio v".toList ++ version, "*NODE".toList] ++
  points.zipIdx.map (fun p => fmtNat (p.2 + 1) ++ p.1.flatMap fun x => ", ".toList ++ io.fmt x) ++
  (cells.zip names).zipIdx.flatMap (fun b => abaqusBlock b.1.2 (cellsBefore cells b.2) b.1.1.2) ++
  (List.range cells.length).flatMap (fun k => cellSets.flatMap fun s =>
    if s.2.getD k [] = [] then [] else abaqusSet "ELSET" s.1 ((s.2.getD k []).map fun i => i + 1 + ((cellsBefore cells k : Nat) : Int))) ++
  pointSets.flatMap fun s => abaqusSet "NSET" s.1 (s.2.map fun i => i + 1)

/-- A name that can be written and read: no blanks at its ends, none of the characters with a meaning. -/
def AbaqusName (name : String) : Prop := strip name.toList = name.toList ∧ ',' ∉ name.toList ∧ '=' ∉ name.toList ∧ '\n' ∉ name.toList

/-- A mesh that can be written and read: known types with the right numbers of nodes; names that can be written; sets with one array
for each block, all but one of them empty. -/
structure AbaqusWritable (points : List (List F)) (cells : List (String × List (List Int))) (cellSets : Dict (List (List Int)))
    (pointSets : Dict (List Int)) : Prop where
  dim : ∃ d, ∀ p ∈ points, p.length = d
  types : ∀ b ∈ cells, ∃ name n, (b.1, name) ∈ abaqusWritten ∧ (name, b.1, n) ∈ abaqusNames ∧
    ∀ r ∈ b.2, r.length = n ∧ ∀ i ∈ r, 0 ≤ i ∧ i < (points.length : Int)
  cellNames : (cellSets.map (·.1)).Nodup ∧ ∀ s ∈ cellSets, AbaqusName s.1
  pointNames : (pointSets.map (·.1)).Nodup ∧ ∀ s ∈ pointSets, AbaqusName s.1
  inOne : ∀ s ∈ cellSets, s.2.length = cells.length ∧ ∃ k b, cells[k]? = some b ∧ s.2.getD k [] ≠ [] ∧
    (∀ j, j ≠ k → s.2.getD j [] = []) ∧ ∀ i ∈ s.2.getD k [], 0 ≤ i ∧ i < (b.2.length : Int)
  inRange : ∀ s ∈ pointSets, ∀ i ∈ s.2, 0 ≤ i ∧ i < (points.length : Int)

end Meshio.Spec
