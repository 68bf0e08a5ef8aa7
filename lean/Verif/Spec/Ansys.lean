/-
What ANSYS (Fluent) msh files say, independently of how meshio reads and writes them.
-/
import Verif.Model.Ansys
import Verif.Base.Sort

namespace Meshio
namespace Spec
namespace Ansys
open Meshio.Ansys (AnsFloat Blk)

variable {F : Type}

/-! ## The pieces of a file -/

/-- White space within a line. -/
def Space (s : List Char) : Prop := ∀ c ∈ s, isWs c = true ∧ c ≠ '\n'

instance (s : List Char) : Decidable (Space s) := by unfold Space; exact inferInstance

/-- The text closes `n` open brackets, the last one with its last character. -/
def Closes (n : Nat) (s : List Char) : Prop :=
  n + s.count '(' = s.count ')' ∧ ∀ p q, s = p ++ q → q ≠ [] → p.count ')' < n + p.count '('

/-- How the data of a section are given: as text, or as binary numbers of four or eight bytes. -/
inductive Enc where
  | text
  | bin4
  | bin8
deriving DecidableEq

/-- What the encoding adds in front of the index of a section. -/
def Enc.tag : Enc → List Char
  | .text => []
  | .bin4 => "20".toList
  | .bin8 => "30".toList

/-- The number of bytes of a number. -/
def Enc.bytes : Enc → Nat
  | .text => 0
  | .bin4 => 4
  | .bin8 => 8

/-- The sections with data. -/
def pointsKey : List Char := "10".toList
def cellsKey : List Char := "12".toList
def facesKey : List Char := "13".toList

/-- The index of a section is one of those with the given key. -/
def Indexed (key i : List Char) : Prop := ∃ e : Enc, e.tag ++ key <+: i

/-- The head of a section with data, up to the bracket that opens the data: `(10 (1 1 a 1 3)(`, with hexadecimal numbers; the
bracket may be on the line of the numbers (which ends behind it) or on a later line. -/
inductive Head (key : List Char) (enc : Enc) (first last kind elem : Int) : List Char → Prop
  | same (w0 w1 w2 w3 w4 inner : List Char) (zone : Int) (more : List Int) :
      Space w0 → Space w1 → Space w2 → Space w3 → Space w4 → '\n' ∉ inner → '(' ∉ inner → ')' ∉ inner →
      (splitWs inner).map parseHex = ([zone, first, last, kind, elem] ++ more).map some →
      Head key enc first last kind elem
        (w0 ++ '(' :: (w1 ++ (enc.tag ++ key ++ (w2 ++ '(' :: (inner ++ ')' :: (w3 ++ '(' :: (w4 ++ ['\n'])))))))
  | next (w0 w1 w2 w3 w4 inner : List Char) (zone : Int) (more : List Int) :
      Space w0 → Space w1 → Space w2 → Space w3 → (∀ c ∈ w4, isWs c = true) → '\n' ∉ inner → '(' ∉ inner → ')' ∉ inner →
      (splitWs inner).map parseHex = ([zone, first, last, kind, elem] ++ more).map some →
      Head key enc first last kind elem
        (w0 ++ '(' :: (w1 ++ (enc.tag ++ key ++ (w2 ++ '(' :: (inner ++ ')' :: (w3 ++ '\n' :: (w4 ++ ['('])))))))

/-- Coordinates: lines of `dim` numbers, with blank lines in between, or binary numbers. -/
inductive PointRows (io : AnsFloat F) (dim : Nat) : Enc → List Char → List (List F) → Prop
  | nil : PointRows io dim .text [] []
  | cons (blanks : List (List Char)) (line : List Char) (row : List F) (text : List Char) (rows : List (List F)) :
      (∀ b ∈ blanks, Space b) → '\n' ∉ line → row.length = dim → 0 < dim → (splitWs line).map io.parse = row.map some →
      PointRows io dim .text text rows →
      PointRows io dim .text (linesText blanks ++ (line ++ '\n' :: text)) (row :: rows)
  | bin (e : Enc) (rows : List (List F)) : e ≠ .text → (∀ r ∈ rows, r.length = dim) →
      PointRows io dim e (rows.flatten.flatMap fun x => toChars (io.bin.enc false e.bytes x))
        (rows.map fun r => r.map (io.bin.rnd e.bytes))

/-- Rows of `k` node numbers, each followed by `extra` further numbers: lines, or binary numbers. -/
inductive NodeRows (k extra : Nat) : Enc → List Char → List (List Int) → Prop
  | nil : NodeRows k extra .text [] []
  | cons (line : List Char) (row : List Int) (text : List Char) (rows : List (List Int)) :
      '\n' ∉ line → row.length = k → (splitWs line).length = k + extra → ((splitWs line).take k).map parseHex = row.map some →
      NodeRows k extra .text text rows →
      NodeRows k extra .text (line ++ '\n' :: text) (row :: rows)
  | bin (e : Enc) (rows : List (List Int)) : e ≠ .text → (∀ r ∈ rows, r.length = k + extra ∧ ∀ z ∈ r, IsInt e.bytes z) →
      NodeRows k extra e (rows.flatMap (putInts e.bytes)) (rows.map (·.take k))

/-- The cell types of the cell sections, with the number of their nodes. -/
def cellType : Int → Option (String × Nat)
  | 1 => some ("triangle", 3)
  | 2 => some ("tetra", 4)
  | 3 => some ("quad", 4)
  | 4 => some ("hexahedron", 8)
  | 5 => some ("pyramid", 5)
  | 6 => some ("wedge", 6)
  | _ => none

/-- The face types of the face sections, with the number of their nodes. -/
def faceType : Int → Option (String × Nat)
  | 2 => some ("line", 2)
  | 3 => some ("triangle", 3)
  | 4 => some ("quad", 4)
  | _ => none

/-- The lines of a mixed face section: each has the type, the nodes and the two cells, with blank lines in between. -/
inductive MixedRows : List Char → List (String × List Int) → Prop
  | nil : MixedRows [] []
  | cons (blanks : List (List Char)) (line w : List Char) (ws : List (List Char)) (i : Int) (t : String) (k : Nat) (row : List Int)
      (text : List Char) (rows : List (String × List Int)) :
      (∀ b ∈ blanks, Space b) → '\n' ∉ line → splitWs line = w :: ws → parseHex w = some i → faceType i = some (t, k) →
      ws.length = k + 2 → row.length = k → (ws.take k).map parseHex = row.map some →
      MixedRows text rows →
      MixedRows (linesText blanks ++ (line ++ '\n' :: text)) ((t, row) :: rows)

/-- Entries grouped by their names, in the order in which the names first appear. -/
def groups (l : List (String × List Int)) : List (String × List (List Int)) :=
  (distinct (l.map (·.1))).map fun t => (t, (l.filter fun p => decide (p.1 = t)).map (·.2))

/-- What a section says. -/
inductive Item (F : Type) where
  | nothing
  | totalPoints
  | points (first : Int) (dim : Nat) (rows : List (List F))
  | cells (blocks : List (String × List (List Int)))

/-- The text of a section, and what it says. -/
inductive Section (io : AnsFloat F) : List Char → Item F → Prop
  | blank (w : List Char) : Space w → Section io (w ++ ['\n']) .nothing
  | note (w0 w1 i rest tail : List Char) : Space w0 → Space w1 → '\n' ∉ rest → i ≠ [] → (∀ c ∈ i, c.isDigit = true) →
      (∀ c, rest.head? = some c → c.isDigit = false) →
      i ≠ "45".toList → ¬ Indexed pointsKey i → ¬ Indexed cellsKey i → ¬ Indexed facesKey i →
      Closes ((1 + rest.count '(') - rest.count ')') tail →
      Section io (w0 ++ '(' :: (w1 ++ (i ++ (rest ++ '\n' :: tail)))) .nothing
  | zone (w0 w1 rest : List Char) : Space w0 → Space w1 → '\n' ∉ rest → (∀ c, rest.head? = some c → c.isDigit = false) →
      Section io (w0 ++ '(' :: (w1 ++ ("45".toList ++ (rest ++ ['\n'])))) .nothing
  | total (w0 w1 i rest : List Char) : Space w0 → Space w1 → '\n' ∉ rest → (∀ c ∈ i, c.isDigit = true) →
      (∀ c, rest.head? = some c → c.isDigit = false) → 1 + rest.count '(' = rest.count ')' →
      Indexed cellsKey i ∨ Indexed facesKey i →
      Section io (w0 ++ '(' :: (w1 ++ (i ++ (rest ++ ['\n'])))) .nothing
  | totalPoints (w0 w1 i rest : List Char) : Space w0 → Space w1 → '\n' ∉ rest → (∀ c ∈ i, c.isDigit = true) →
      (∀ c, rest.head? = some c → c.isDigit = false) → 1 + rest.count '(' = rest.count ')' →
      Indexed pointsKey i →
      Section io (w0 ++ '(' :: (w1 ++ (i ++ (rest ++ ['\n'])))) .totalPoints
  | points (enc : Enc) (first kind : Int) (dim : Nat) (rows : List (List F)) (head data close : List Char) :
      Head pointsKey enc first (first + rows.length - 1) kind dim head → PointRows io dim enc data rows → Closes 2 close →
      Section io (head ++ (data ++ close)) (.points first dim rows)
  | cells (enc : Enc) (first kind elem : Int) (t : String) (k : Nat) (rows : List (List Int)) (head data close : List Char) :
      kind ≠ 0 → cellType elem = some (t, k) →
      Head cellsKey enc first (first + rows.length - 1) kind elem head → NodeRows k 0 enc data rows → Closes 2 close →
      Section io (head ++ (data ++ close)) (.cells [(t, rows)])
  | mixedCells (enc : Enc) (first last kind : Int) (head close : List Char) :
      kind ≠ 0 → Head cellsKey enc first last kind 0 head → Closes 2 close → Section io (head ++ close) .nothing
  | faces (enc : Enc) (first kind elem : Int) (t : String) (k : Nat) (rows : List (List Int)) (head data close : List Char) :
      faceType elem = some (t, k) →
      Head facesKey enc first (first + rows.length - 1) kind elem head → NodeRows k 2 enc data rows → Closes 2 close →
      Section io (head ++ (data ++ close)) (.cells [(t, rows)])
  | mixedFaces (first kind : Int) (rows : List (String × List Int)) (head data close : List Char) :
      Head facesKey .text first (first + rows.length - 1) kind 0 head → MixedRows data rows → Closes 2 close →
      Section io (head ++ (data ++ close)) (.cells (groups rows))

/-! ## What a file says -/

/-- The point sections: the number of the first point, the dimension and the coordinates. -/
def pointItems (l : List (Item F)) : List (Int × Nat × List (List F)) :=
  l.filterMap fun
    | .points a d rows => some (a, d, rows)
    | _ => none

/-- All cell blocks. -/
def cellItems (l : List (Item F)) : List (String × List (List Int)) :=
  l.flatMap fun
    | .cells b => b
    | _ => []

/-- Each point section goes on where the one before ended. -/
def Consecutive : List (Int × Nat × List (List F)) → Prop
  | [] => True
  | [_] => True
  | p :: q :: l => q.1 = p.1 + p.2.2.length ∧ Consecutive (q :: l)

/-- No total number of points is given behind a point section. -/
def TotalsFirst (l : List (Item F)) : Prop :=
  ∃ A B, l = A ++ B ∧ (∀ x ∈ A, ∀ a d r, x ≠ Item.points a d r) ∧ ∀ x ∈ B, x ≠ Item.totalPoints

/-! ## What is written -/

/-- The type numbers of cells. -/
def typeNumber (t : String) : Option Nat :=
  if t = "triangle" then some 1 else if t = "tetra" then some 2 else if t = "quad" then some 3 else if t = "hexahedron" then some 4
  else if t = "pyramid" then some 5 else if t = "wedge" then some 6 else none

/-- The number of nodes of these cells. -/
def nodes (t : String) : Option Nat :=
  if t = "triangle" then some 3 else if t = "tetra" then some 4 else if t = "quad" then some 4 else if t = "hexahedron" then some 8
  else if t = "pyramid" then some 5 else if t = "wedge" then some 6 else none

/-- A block that can be written: its cells have the right number of nodes, which are integers of the right size if they are
written in binary. -/
structure Good (binary : Bool) (b : Blk) : Prop where
  nodes : ∃ k, Ansys.nodes b.type = some k ∧ ∀ r ∈ b.rows, r.length = k
  width : binary = true → (b.width = 4 ∨ b.width = 8) ∧ ∀ r ∈ b.rows, ∀ i ∈ r, IsInt b.width (i + 1)

/-- The head of a section that is written, from its parts. -/
def headText (index : String) (first last : Int) (elem : Nat) : List Char :=
  '(' :: index.toList ++ " (1 ".toList ++ fmtHex first ++ " ".toList ++ fmtHex last ++ " 1 ".toList ++ fmtHex elem ++ ")(\n".toList

/-- The section of the points: text, or numbers of `size` bytes. -/
def pointsText (io : AnsFloat F) (binary : Bool) (size dim : Nat) (points : List (List F)) : List Char :=
  if binary then
    headText "3010" 1 points.length dim ++ (points.flatten.flatMap fun x => toChars (io.bin.enc false size x)) ++
      "\n)End of Binary Section 3010)\n".toList
  else
    headText "10" 1 points.length dim ++ linesText (points.map fun p => joinWith ' ' (p.map io.fmt)) ++ "))\n".toList

/-- The section of a block whose first cell has the number `first` (counted from 0). -/
def cellsText (binary : Bool) (first : Nat) (b : Blk) : List Char :=
  if binary then
    headText (if b.width = 4 then "2012" else "3012") first ((first : Int) + b.rows.length - 1) ((typeNumber b.type).getD 0) ++
      (b.rows.flatMap fun r => putInts b.width (r.map (· + 1))) ++
      "\n)End of Binary Section ".toList ++ (if b.width = 4 then "2012)\n" else "3012)\n").toList
  else
    headText "12" first ((first : Int) + b.rows.length - 1) ((typeNumber b.type).getD 0) ++
      linesText (b.rows.map fun r => joinWith ' ' (r.map fun i => fmtHex (i + 1))) ++ "))\n".toList

/-- The sections of all blocks. -/
def allCellsText (binary : Bool) : Nat → List Blk → List Char
  | _, [] => []
  | first, b :: bs => cellsText binary first b ++ allCellsText binary (first + b.rows.length) bs

/-- The whole file. -/
def fileText (io : AnsFloat F) (version : List Char) (binary : Bool) (size dim : Nat) (points : List (List F)) (cells : List Blk) : List Char :=
  "(1 \"meshio ".toList ++ version ++ "\")\n".toList ++
  "(2 ".toList ++ fmtNat dim ++ ")\n".toList ++
  "(10 (0 1 ".toList ++ fmtHex points.length ++ " 0))\n".toList ++
  "(12 (0 1 ".toList ++ fmtHex (cells.map fun b => b.rows.length).sum ++ " 0))\n".toList ++
  pointsText io binary size dim points ++ allCellsText binary 0 cells

end Ansys
end Spec
end Meshio
