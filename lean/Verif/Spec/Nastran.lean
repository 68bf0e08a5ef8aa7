/-
What Nastran files say, and what is written.
-/
import Verif.Model.Nastran
import Verif.Spec.Runs
import Verif.Base.All2
namespace Meshio.Spec
open Meshio Nastran

variable {F : Type}

/-- The names of entries for cells: type, number of nodes, and for each node of the cell its place in the entry. -/
def nastranNames : List (String × String × Nat × List Nat) :=
  [("CELAS1", "vertex", 1, [0]), ("CBEAM", "line", 2, [0, 1]), ("CBUSH", "line", 2, [0, 1]), ("CBUSH1D", "line", 2, [0, 1]),
   ("CROD", "line", 2, [0, 1]), ("CGAP", "line", 2, [0, 1]), ("CBAR", "line", 2, [0, 1]),
   ("CTRIAR", "triangle", 3, [0, 1, 2]), ("CTRIA3", "triangle", 3, [0, 1, 2]),
   ("CTRAX6", "triangle6", 6, [0, 2, 4, 1, 3, 5]), ("CTRIAX6", "triangle6", 6, [0, 2, 4, 1, 3, 5]),
   ("CTRIA6", "triangle6", 6, [0, 1, 2, 3, 4, 5]),
   ("CQUADR", "quad", 4, [0, 1, 2, 3]), ("CSHEAR", "quad", 4, [0, 1, 2, 3]), ("CQUAD4", "quad", 4, [0, 1, 2, 3]),
   ("CQUAD8", "quad8", 8, [0, 1, 2, 3, 4, 5, 6, 7]), ("CQUAD9", "quad9", 9, [0, 1, 2, 3, 4, 5, 6, 7, 8]),
   ("CTETRA", "tetra", 4, [0, 1, 2, 3]), ("CTETRA", "tetra10", 10, [0, 1, 2, 3, 4, 5, 6, 7, 8, 9]),
   ("CTETRA_", "tetra10", 10, [0, 1, 2, 3, 4, 5, 6, 7, 8, 9]),
   ("CPYRAM", "pyramid", 5, [0, 1, 2, 3, 4]), ("CPYRA", "pyramid", 5, [0, 1, 2, 3, 4]),
   ("CPENTA", "wedge", 6, [0, 1, 2, 3, 4, 5]), ("CHEXA", "hexahedron", 8, [0, 1, 2, 3, 4, 5, 6, 7]),
   ("CHEXA", "hexahedron20", 20, [0, 1, 2, 3, 4, 5, 6, 7, 8, 9, 10, 11, 16, 17, 18, 19, 12, 13, 14, 15]),
   ("CHEXA_", "hexahedron20", 20, [0, 1, 2, 3, 4, 5, 6, 7, 8, 9, 10, 11, 16, 17, 18, 19, 12, 13, 14, 15])]

/-- One-dimensional elements: what follows the second node is an orientation. -/
def nastranBars : List String := ["CBAR", "CBEAM", "CBUSH", "CBUSH1D", "CGAP"]

/-- Blank lines and comments. -/
def NasBlank (line : List Char) : Prop :=
  '\n' ∉ line ∧ (line.length < 3 ∨ line.head? = some '$' ∨ line.head? = some '#' ∨ line.take 2 = ['/', '/'])

/-- The words of a line: separated by commas, or eight columns wide (the last one may be shorter). -/
def NasWords (line : List Char) (words : List (List Char)) : Prop :=
  (',' ∈ line ∧ line = joinWith ',' words ∧ ∀ w ∈ words, ',' ∉ w) ∨
  (',' ∉ line ∧ line = words.flatten ∧ ∃ ws w, words = ws ++ [w] ∧ (∀ v ∈ ws, v.length = 8) ∧ 1 ≤ w.length ∧ w.length ≤ 8)

/-- A line with its words, and the blank lines and comments after it. -/
structure NasLine where
  text : List Char
  words : List (List Char)
  after : List (List Char)

/-- The lines. -/
def NasLine.lines (l : NasLine) : List (List Char) := l.text :: l.after

structure NasLine.Ok (l : NasLine) : Prop where
  newline : '\n' ∉ l.text
  text : ¬ NasBlank l.text
  words : NasWords l.text l.words
  after : ∀ a ∈ l.after, NasBlank a

/-- Eight blanks. -/
def eightBlanks : List Char := List.replicate 8 ' '

/-- A line that starts with a continuation character. -/
def NasPlus (l : NasLine) : Prop := l.text.head? = some '+' ∨ l.text.head? = some '*'

/-- A line without such a character that yet continues the line before: the tenth word there and the first word here are blank. -/
def NasAuto (a b : NasLine) : Prop := a.words.length = 10 ∧ a.words[9]? = some eightBlanks ∧ b.words.head? = some eightBlanks

/-- Does the line `b` continue the line `a`?  A line that is continued has at most ten words. -/
def NasContinues (a b : NasLine) : Prop := (NasPlus b ∧ a.words.length ≤ 10) ∨ (¬ NasPlus b ∧ NasAuto a b)

/-- Two words of eight columns form one of sixteen. -/
def nasPairs : List (List Char) → List (List Char)
  | [] => []
  | [a] => [a]
  | a :: b :: r => (a ++ b) :: nasPairs r

/-- The fields of a line: the first word is the name of the entry, or a continuation mark; the tenth one is a mark if the line is
continued. -/
def nasLineFields (large first last : Bool) (words : List (List Char)) : List (List Char) :=
  (if first then words.take 1 else []) ++
  (if large then nasPairs ((words.drop 1).take 8) else (words.drop 1).take 8) ++
  (if last then (if large then (words.drop 9).take 1 else words.drop 9) else [])

/-- An entry: its first line and those that continue it. -/
structure NasEntry where
  first : NasLine
  more : List NasLine

def NasEntry.allLines (e : NasEntry) : List NasLine := e.first :: e.more

def NasEntry.lines (e : NasEntry) : List (List Char) := e.allLines.flatMap (·.lines)

/-- Is the entry in the large format? -/
def NasEntry.large (e : NasEntry) : Bool := "GRID*".toList.isPrefixOf (e.first.words.headD [])

/-- The last line of the entry. -/
def NasEntry.last (e : NasEntry) : NasLine := e.allLines.getLastD e.first

/-- Each line continues the one before. -/
def nasChain : NasLine → List NasLine → Prop
  | _, [] => True
  | a, b :: r => NasContinues a b ∧ nasChain b r

/-- The fields of the lines that follow; the last one keeps its tenth word. -/
def nasFields (large : Bool) (first : Bool) : List NasLine → List (List Char)
  | [] => []
  | [l] => nasLineFields large first true l.words
  | l :: r => nasLineFields large first false l.words ++ nasFields large false r

def NasEntry.fields (e : NasEntry) : List (List Char) := (nasFields e.large true e.allLines).map strip

/-- What an entry says. -/
inductive NasItem (F : Type) where
  /-- a point: number, reference, coordinates -/
  | grid (id : Int) (ref : Option Int) (x : List F)
  /-- a cell: name, type, places of the nodes, number, reference, nodes in the order of the entry -/
  | cell (name type : String) (order : List Nat) (id : Int) (ref : Option Int) (nodes : List Int)
  /-- something else -/
  | other

/-- The field with the reference may be empty. -/
def NasRef (w : List Char) (ref : Option Int) : Prop :=
  match ref with
  | none => w = []
  | some r => w ≠ [] ∧ parseInt w = some r

/-- A float, or a mantissa followed by a signed exponent without a letter. -/
def NasFloat (io : NasIO F) (w : List Char) (x : F) : Prop :=
  io.parse w = some x ∨
  (io.parse w = none ∧ ∃ c m s e, w = c :: m ++ s :: e ∧ strip w = w ∧ (s = '+' ∨ s = '-') ∧ '+' ∉ m ++ e ∧ '-' ∉ m ++ e ∧
    io.parse (c :: m ++ 'e' :: s :: e) = some x)

/-- Is this what the fields say? -/
def NasItem.Is (io : NasIO F) (fields : List (List Char)) : NasItem F → Prop
  | .grid id ref x => ∃ k w1 w2 ws, fields = k :: w1 :: w2 :: ws ∧ (k = "GRID".toList ∨ k = "GRID*".toList) ∧ parseInt w1 = some id ∧
      NasRef w2 ref ∧ All2 (NasFloat io) (ws.take 3) x
  | .cell name type order id ref nodes => ∃ w1 w2 ws, fields = name.toList :: w1 :: w2 :: ws ∧ parseInt w1 = some id ∧ NasRef w2 ref ∧
      (name, type, nodes.length, order) ∈ nastranNames ∧
      All2 (fun w i => parseInt w = some i) ((if name ∈ nastranBars then ws.take 2 else ws).filter fun w => decide (w ≠ [])) nodes
  | .other => ∃ k ws, fields = k :: ws ∧ k ≠ "GRID".toList ∧ k ≠ "GRID*".toList ∧
      ∀ name ∈ nastranNames.map (·.1) ++ ["CPYRA_", "CPENTA_"], k ≠ name.toList

/-- The file: lines up to `BEGIN BULK`, blank lines, entries, the line `ENDDATA`, and anything after it. -/
structure NasFile (F : Type) where
  before : List (List Char)
  start : List Char
  blank : List (List Char)
  entries : List (NasEntry × NasItem F)
  fin : NasLine
  rest : List Char

def NasFile.text (f : NasFile F) : List Char :=
  linesText (f.before ++ f.start :: f.blank ++ f.entries.flatMap (·.1.lines) ++ [f.fin.text]) ++ f.rest

/-- The first lines of the entries, with `ENDDATA`. -/
def NasFile.heads (f : NasFile F) : List NasLine := f.entries.map (·.1.first) ++ [f.fin]

/-- The points. -/
def NasFile.points (f : NasFile F) : List (Int × Option Int × List F) :=
  f.entries.filterMap fun e => match e.2 with | .grid id ref x => some (id, ref, x) | _ => none

/-- The cells: type, number, reference, nodes in the order of the type. -/
def NasFile.cells (f : NasFile F) : List (String × Int × Option Int × List Int) :=
  f.entries.filterMap fun e => match e.2 with
    | .cell _ t order id ref nodes => some (t, id, ref, order.map fun i => nodes.getD i 0)
    | _ => none

/-- The file is well formed, though cells may refer to numbers that no point carries. -/
structure NasFile.Shape (io : NasIO F) (f : NasFile F) : Prop where
  before : ∀ l ∈ f.before, '\n' ∉ l ∧ ¬ "BEGIN BULK".toList <+: strip l
  start : '\n' ∉ f.start ∧ "BEGIN BULK".toList <+: strip f.start
  blank : ∀ l ∈ f.blank, NasBlank l
  lines : ∀ e ∈ f.entries, ∀ l ∈ e.1.allLines, l.Ok
  chains : ∀ e ∈ f.entries, nasChain e.1.first e.1.more
  starts : ∀ e ∈ f.entries, ¬ "ENDDATA".toList <+: e.1.first.text
  /-- no entry continues the one before -/
  fresh : ∀ p ∈ f.entries.zip f.heads.tail, ¬ NasPlus p.2 ∧ ¬ NasAuto p.1.1.last p.2
  fin : f.fin.Ok ∧ "ENDDATA".toList <+: f.fin.text
  items : ∀ e ∈ f.entries, e.2.Is io e.1.fields
  distinct : (f.points.map (·.1)).Nodup
  dim : ∃ d, ∀ p ∈ f.points, p.2.2.length = d
  /-- all cells have a reference, or none -/
  refs : (∀ c ∈ f.cells, c.2.2.1 ≠ none) ∨ ∀ c ∈ f.cells, c.2.2.1 = none

/-- The file is well formed. -/
structure NasFile.Ok (io : NasIO F) (f : NasFile F) : Prop extends NasFile.Shape io f where
  nodes : ∀ c ∈ f.cells, ∀ k ∈ c.2.2.2, k ∈ f.points.map (·.1)

/-- What the file says: cells of one type in a row form a block, and a number stands for the point that carries it. -/
def NasFile.mesh (f : NasFile F) : Out F where
  points := f.points.map (·.2.2)
  pids := f.points.map (·.1)
  cells := groupRuns (f.cells.map fun c => (c.1, c.2.2.2.map (f.points.map (·.1)).idxOf))
  cids := (groupRuns (f.cells.map fun c => (c.1, c.2.1))).map (·.2)
  prefs := if f.points.filterMap (·.2.1) = [] then none else some (f.points.filterMap (·.2.1))
  crefs := if f.cells.filterMap (·.2.2.1) = [] then none else some ((groupRuns (f.cells.map fun c => (c.1, c.2.2.1.getD 0))).map (·.2))

/-! ## Writing -/

/-- The names that are written: type, name, number of nodes, and for each node of the entry its place in the cell. -/
def nastranWritten : List (String × String × Nat × List Nat) :=
  [("vertex", "CELAS1", 1, [0]), ("line", "CBAR", 2, [0, 1]), ("triangle", "CTRIA3", 3, [0, 1, 2]), ("triangle6", "CTRIA6", 6, [0, 1, 2, 3, 4, 5]),
   ("quad", "CQUAD4", 4, [0, 1, 2, 3]), ("quad8", "CQUAD8", 8, [0, 1, 2, 3, 4, 5, 6, 7]), ("quad9", "CQUAD9", 9, [0, 1, 2, 3, 4, 5, 6, 7, 8]),
   ("tetra", "CTETRA", 4, [0, 1, 2, 3]), ("tetra10", "CTETRA_", 10, [0, 1, 2, 3, 4, 5, 6, 7, 8, 9]), ("pyramid", "CPYRA", 5, [0, 1, 2, 3, 4]),
   ("pyramid13", "CPYRA_", 13, [0, 1, 2, 3, 4, 5, 6, 7, 8, 9, 10, 11, 12]), ("wedge", "CPENTA", 6, [0, 1, 2, 3, 4, 5]),
   ("wedge15", "CPENTA_", 15, [0, 1, 2, 3, 4, 5, 6, 7, 8, 12, 13, 14, 9, 10, 11]), ("hexahedron", "CHEXA", 8, [0, 1, 2, 3, 4, 5, 6, 7]),
   ("hexahedron20", "CHEXA_", 20, [0, 1, 2, 3, 4, 5, 6, 7, 8, 9, 10, 11, 16, 17, 18, 19, 12, 13, 14, 15])]

/-- Text at the left, or at the right, of a column. -/
def nasLeft (n : Nat) (s : List Char) : List Char := s ++ List.replicate (n - s.length) ' '
def nasRight (n : Nat) (s : List Char) : List Char := List.replicate (n - s.length) ' ' ++ s

/-- The text of a coordinate: the first eight characters of the decimal number without trailing zeros, or the scientific one with the
letter E. -/
def nasShown (io : NasIO F) (pf : String) (x : F) : List Char :=
  if pf = "fixed-small" then ((io.fixed x).reverse.dropWhile (· == '0')).reverse.take 8
  else (io.sci x).map fun c => if c = 'e' then 'E' else c

/-- The lines of a point. -/
def nasGrid (pf : String) (id : Nat) (ref x y z : List Char) : List (List Char) :=
  if pf = "free" then [joinWith ',' ["GRID".toList, fmtNat id, ref, x, y, z]]
  else if pf = "fixed-small" then [nasLeft 8 "GRID".toList ++ nasLeft 8 (fmtNat id) ++ nasLeft 8 ref ++ nasRight 8 x ++ nasRight 8 y ++ nasRight 8 z]
  else [nasLeft 8 "GRID*".toList ++ nasLeft 16 (fmtNat id) ++ nasLeft 16 ref ++ nasRight 16 x ++ nasRight 16 y, nasLeft 8 "*".toList ++ nasRight 16 z]

/-- The lines of a cell in the small format: six nodes in the first line, eight in the second; a continuation mark ends a line and begins
the next one. -/
def nasCell (name : List Char) (id : Nat) (ref : List Char) (nodes : List (List Char)) : List (List Char) :=
  let mark (k : Char) := '+' :: k :: hexNat id
  let rows := if nodes.length ≤ 6 then [[name, fmtNat id, ref] ++ nodes]
    else if nodes.length ≤ 14 then [[name, fmtNat id, ref] ++ nodes.take 6 ++ [mark '1'], [mark '1'] ++ nodes.drop 6]
    else [[name, fmtNat id, ref] ++ nodes.take 6 ++ [mark '1'], [mark '1'] ++ (nodes.drop 6).take 8 ++ [mark '2'], [mark '2'] ++ nodes.drop 14]
  rows.map fun ws => ws.flatMap (nasLeft 8)

/-- The name and the order of a type. -/
def nasName (t : String) : List Char := ((nastranWritten.find? fun e => e.1 = t).map fun e => e.2.1.toList).getD []
def nasOrder (t : String) : List Nat := ((nastranWritten.find? fun e => e.1 = t).map fun e => e.2.2.2).getD []

/-- The cells in order, each with its reference. -/
def nasCells {α : Type} (cells : List (String × List (List α))) (crefs : Option (List (List Int))) : List (Option Int × String × List α) :=
  cells.zipIdx.flatMap fun b => b.1.2.zipIdx.map fun r => (crefs.map fun l => (l.getD b.2 []).getD r.2 0, b.1.1, r.1)

/-- The text of a reference. -/
def nasRefText (ref : Option Int) : List Char := (ref.map fmtInt).getD []

/-- The lines of the points and of the cells; points and cells are numbered from one. -/
def nasPointLines (io : NasIO F) (pf : String) (points : List (List F)) (prefs : Option (List Int)) : List (List Char) :=
  points.zipIdx.flatMap fun p => nasGrid pf (p.2 + 1) (nasRefText (prefs.map fun l => l.getD p.2 0))
    (nasShown io pf (p.1.getD 0 io.zero)) (nasShown io pf (p.1.getD 1 io.zero)) (nasShown io pf (p.1.getD 2 io.zero))
def nasCellLines (cells : List (String × List (List Int))) (crefs : Option (List (List Int))) : List (List Char) :=
  (nasCells cells crefs).zipIdx.flatMap fun c => nasCell (nasName c.1.2.1) (c.2 + 1) (nasRefText c.1.1)
    ((nasOrder c.1.2.1).map fun i => fmtInt (c.1.2.2.getD i 0 + 1))

/-- The text that is written. -/
def nasWritten (io : NasIO F) (version : List Char) (pf : String) (points : List (List F)) (prefs : Option (List Int))
    (cells : List (String × List (List Int))) (crefs : Option (List (List Int))) : List Char :=
  linesText (["$ Nastran file written by meshio v".toList ++ version, "BEGIN BULK".toList] ++ nasPointLines io pf points prefs ++
    nasCellLines cells crefs ++ ["ENDDATA".toList])

/-- What can be written. -/
structure NasWritable (io : NasIO F) (pf : String) (points : List (List F)) (prefs : Option (List Int))
    (cells : List (String × List (List Int))) (crefs : Option (List (List Int))) : Prop where
  format : pf = "free" ∨ pf = "fixed-small" ∨ pf = "fixed-large"
  three : ∀ p ∈ points, p.length = 3
  fits : ∀ p ∈ points, ∀ x ∈ p, (nasShown io pf x).length ≤ 16
  pointRefs : ∀ l, prefs = some l → l.length = points.length
  rows : ∀ b ∈ cells, ∃ e ∈ nastranWritten, e.1 = b.1 ∧ ∀ r ∈ b.2, r.length = e.2.2.1
  cellRefs : ∀ l, crefs = some l → l.map (·.length) = cells.map (·.2.length)

/-- Numbers that fit into their columns, and coordinates that are read as `val` says. -/
structure NasKeeps (io : NasIO F) (pf : String) (val : F → F) (points : List (List F)) (prefs : Option (List Int))
    (cells : List (String × List (List Nat))) (crefs : Option (List (List Int))) : Prop where
  types : ∀ b ∈ cells, b.1 ≠ "wedge15" ∧ b.1 ≠ "pyramid13"
  nodes : ∀ b ∈ cells, ∀ r ∈ b.2, ∀ i ∈ r, i < points.length
  number : points.length < 10 ^ 8
  count : (cells.map (·.2.length)).sum < 16 ^ 6
  pointRefs : ∀ l, prefs = some l → ∀ r ∈ l, (pf = "fixed-small" → (fmtInt r).length ≤ 8) ∧ (pf = "fixed-large" → (fmtInt r).length ≤ 16)
  cellRefs : ∀ l, crefs = some l → ∀ k ∈ l, ∀ r ∈ k, (fmtInt r).length ≤ 8
  shown : ∀ p ∈ points, ∀ x ∈ p, IsTok (nasShown io pf x) ∧ ',' ∉ nasShown io pf x ∧ NasFloat io (nasShown io pf x) (val x)

/-- The mesh that comes back: blocks of one type in a row form one block, and empty ones vanish. -/
def nasBack (val : F → F) (points : List (List F)) (prefs : Option (List Int)) (cells : List (String × List (List Nat)))
    (crefs : Option (List (List Int))) : Out F where
  points := points.map (·.map val)
  pids := (List.range points.length).map fun i => ((i : Nat) : Int) + 1
  cells := groupRuns (rowsOf cells)
  cids := (groupRuns ((rowsOf cells).zipIdx.map fun c => (c.1.1, (c.2 : Int) + 1))).map (·.2)
  prefs := if points = [] then none else prefs
  crefs := if rowsOf cells = [] then none
    else crefs.map fun l => (groupRuns (rowsOf ((cells.map (·.1)).zip l))).map (·.2)

end Meshio.Spec
