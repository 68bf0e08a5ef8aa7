/-
What a legacy VTK file says: a header of three lines, the kind of data set, and sections.  Each section begins with a line whose
first word (in upper or lower case) tells what it is; numbers are text (separated by white space of any kind) or big-endian bytes
followed by a line end.
-/
import Verif.Model.VtkFile
import Verif.Spec.Vtk
import Verif.Spec.Grid
namespace Meshio.Spec
open VtkFile

variable {V : Type}

/-- What is assumed about numbers: `has d x` says that `x` is a number of the numpy type `d`. -/
structure VtkLaws (io : VtkIO V) (has : String → V → Prop) : Prop where
  tok : ∀ d x, has d x → IsTok (io.fmt x)
  parse : ∀ d x, d ≠ "bool" → has d x → io.parse d (io.fmt x) = some x
  length : ∀ d x, (io.enc d x).length = itemSize d
  dec : ∀ d x, has d x → io.dec d (io.enc d x) = x
  zero : ∀ d, has d (io.zero d)

/-- The word is the number. -/
def Numeral (w : List Char) (n : Nat) : Prop := parseInt w = some (n : Int)

/-- A line that begins with the keyword, in capitals or not, followed by words; then comes `s'`. -/
def VtkHead (key : String) (args : List (List Char)) (s s' : List Char) : Prop :=
  ∃ l w, '\n' ∉ l ∧ splitWs l = w :: args ∧ upper w = key.toList ∧ s = l ++ '\n' :: s'

/-- The word is VTK's name, in capitals or not, of the numpy type `d`. -/
def VtkWord (v : Ver) (w : List Char) (d : String) : Prop := ∃ name, lower w = String.toList name ∧ (name, d) ∈ dtypes v

/-- Numbers in a text file, then `rest`. -/
def VtkText {α : Type} (parse : List Char → Option α) (xs : List α) (s rest : List Char) : Prop :=
  ∃ t, s = t ++ rest ∧ (splitWs t).map parse = xs.map some ∧ (xs = [] → t = []) ∧ (∀ c, t.getLast? = some c → isWs c = true) ∧
    (xs ≠ [] → ∀ c, rest.head? = some c → isWs c = false)

/-- Numbers of the numpy type `d`, then `rest`. -/
def VtkValues (io : VtkIO V) (has : String → V → Prop) (ascii : Bool) (d : String) (xs : List V) (s rest : List Char) : Prop :=
  if ascii then VtkText (io.parse d) xs s rest else (∀ x ∈ xs, has d x) ∧ s = xs.flatMap (io.enc d) ++ '\n' :: rest

/-- Integers of `k` bytes, then `rest`. -/
def VtkInts (ascii : Bool) (k : Nat) (xs : List Int) (s rest : List Char) : Prop :=
  if ascii then VtkText parseInt xs s rest else (∀ x ∈ xs, IsInt k x) ∧ s = xs.flatMap (putBig k) ++ '\n' :: rest

/-- A line of white space. -/
def VtkBlank (l : List Char) : Prop := '\n' ∉ l ∧ splitWs l = []

/-- A section of metadata: up to a blank line. -/
def VtkMeta (s rest : List Char) : Prop :=
  ∃ ls b, (∀ x ∈ ls, '\n' ∉ x ∧ splitWs x ≠ []) ∧ VtkBlank b ∧ s = linesText (ls ++ [b]) ++ rest

/-- An array of a field: perhaps metadata, a line with name, numbers of components and tuples and type, and the numbers. -/
def VtkArray (io : VtkIO V) (has : String → V → Prop) (v : Ver) (ascii : Bool) (name : String) (a : Arr V) (s rest : List Char) : Prop :=
  ∃ s0 s' l c n t d,
    (s = s0 ∨ ∃ m s1, '\n' ∉ m ∧ (splitWs m).head? = some "METADATA".toList ∧ s = m ++ '\n' :: s1 ∧ VtkMeta s1 s0) ∧
    '\n' ∉ l ∧ splitWs l = [name.toList, c, n, t] ∧ s0 = l ++ '\n' :: s' ∧ Numeral c (a.tail.headD 1) ∧ Numeral n a.rows.length ∧
    VtkWord v t d ∧ canonical d = a.dtype ∧ VtkValues io has ascii d a.rows.flatten s' rest

/-- Several arrays. -/
def VtkArrays (io : VtkIO V) (has : String → V → Prop) (v : Ver) (ascii : Bool) : List (String × Arr V) → List Char → List Char → Prop
  | [], s, rest => s = rest
  | x :: l, s, rest => ∃ s', VtkArray io has v ascii x.1 x.2 s s' ∧ VtkArrays io has v ascii l s' rest

/-- The sections. -/
inductive VtkSec (V : Type) where
  | blank
  | metadata
  | points (a : Arr V)
  | cells (cs : List VtkCell)
  | types (l : List Nat)
  | pointData (n : Nat)
  | cellData (n : Nat)
  | arrays (l : List (String × Arr V))
  | scalars (name : String) (a : Arr V)
  | vectors (name : String) (a : Arr V)
  | tensors (name : String) (a : Arr V)
  | lookup (n : Nat)
  | colors (k : Nat)
  | dims (x y z : Nat)
  | floats (key : String) (x y z : V)
  | coords (key : String) (a : Arr V)

/-- The integer arrays of the section CELLS of version 5.1. -/
def VtkOffsets (ascii : Bool) (cs : List VtkCell) (s rest : List Char) : Prop :=
  ∃ l1 k1 t1 e1 d1 s1 s2 l2 k2 t2 e2 d2 s3,
    '\n' ∉ l1 ∧ "OFFSETS".toList <+: l1 ∧ splitWs l1 = k1 :: t1 :: e1 ∧ (String.ofList t1, d1) ∈ dtypes .v51 ∧ s = l1 ++ '\n' :: s1 ∧
    VtkInts ascii (itemSize d1) (0 :: endsFrom 0 cs) s1 s2 ∧
    '\n' ∉ l2 ∧ "CONNECTIVITY".toList <+: l2 ∧ splitWs l2 = k2 :: t2 :: e2 ∧ (String.ofList t2, d2) ∈ dtypes .v51 ∧ s2 = l2 ++ '\n' :: s3 ∧
    VtkInts ascii (itemSize d2) (connectivityOf cs) s3 rest

/-- The text `s` begins with the section; then comes `rest`.  `num` is the number of points or cells the section is about. -/
def VtkSec.Says (io : VtkIO V) (has : String → V → Prop) (v : Ver) (ascii : Bool) (num : Option Nat) (s rest : List Char) : VtkSec V → Prop
  | .blank => ∃ b, VtkBlank b ∧ s = b ++ '\n' :: rest
  | .metadata => ∃ e s', VtkHead "METADATA" e s s' ∧ VtkMeta s' rest
  | .points a => ∃ w t e d s', VtkHead "POINTS" (w :: t :: e) s s' ∧ Numeral w a.rows.length ∧ VtkWord v t d ∧ canonical d = a.dtype ∧
      VtkValues io has ascii d a.rows.flatten s' rest
  | .cells cs =>
    match v with
    | .v42 => ∃ w1 w2 e s', VtkHead "CELLS" (w1 :: w2 :: e) s s' ∧ Numeral w1 cs.length ∧ Numeral w2 (streamOf cs).length ∧
        VtkInts ascii 4 (streamOf cs) s' rest
    | .v51 => ∃ w1 w2 e s', VtkHead "CELLS" (w1 :: w2 :: e) s s' ∧ Numeral w1 (cs.length + 1) ∧ Numeral w2 (connectivityOf cs).length ∧
        VtkOffsets ascii cs s' rest
  | .types l => ∃ w e s', VtkHead "CELL_TYPES" (w :: e) s s' ∧ Numeral w l.length ∧
      if ascii then VtkText parseInt (l.map Int.ofNat) s' rest
      else (∀ x ∈ l, IsInt 4 (x : Int)) ∧ ((∃ b, VtkBlank b ∧ s' = (l.map Int.ofNat).flatMap (putBig 4) ++ (b ++ '\n' :: rest)) ∨
        rest = [] ∧ s' = (l.map Int.ofNat).flatMap (putBig 4))
  | .pointData n => ∃ w e, VtkHead "POINT_DATA" (w :: e) s rest ∧ Numeral w n
  | .cellData n => ∃ w e, VtkHead "CELL_DATA" (w :: e) s rest ∧ Numeral w n
  | .arrays l => ∃ w1 w2 e s', VtkHead "FIELD" (w1 :: w2 :: e) s s' ∧ Numeral w2 l.length ∧ VtkArrays io has v ascii l s' rest
  | .scalars name a => ∃ t e d s' l lt tn s'', VtkHead "SCALARS" (name.toList :: t :: e) s s' ∧ VtkWord v t d ∧ canonical d = a.dtype ∧
      ((e = [] ∧ a.tail = [1]) ∨ ∃ k w e', e = w :: e' ∧ Numeral w k ∧ a.tail = [k]) ∧
      '\n' ∉ l ∧ splitWs l = [lt, tn] ∧ upper lt = "LOOKUP_TABLE".toList ∧ s' = l ++ '\n' :: s'' ∧
      VtkValues io has ascii d a.rows.flatten s'' rest
  | .vectors name a => ∃ t e d s', VtkHead "VECTORS" (name.toList :: t :: e) s s' ∧ VtkWord v t d ∧ canonical d = a.dtype ∧
      VtkValues io has ascii d a.rows.flatten s' rest
  | .tensors name a => ∃ t e d s', VtkHead "TENSORS" (name.toList :: t :: e) s s' ∧ VtkWord v t d ∧ canonical d = a.dtype ∧
      VtkValues io has ascii d a.rows.flatten s' rest
  | .lookup n => ∃ w1 w2 e s', VtkHead "LOOKUP_TABLE" (w1 :: w2 :: e) s s' ∧ Numeral w2 n ∧
      ∃ xs : List V, xs.length = 4 * n ∧ VtkText io.toFloat xs s' rest
  | .colors k => ∃ w1 w2 e b, VtkHead "COLOR_SCALARS" (w1 :: w2 :: e) s (b ++ rest) ∧ Numeral w2 k ∧ b.length = num.getD 0 * k
  | .dims x y z => ∃ w1 w2 w3, VtkHead "DIMENSIONS" [w1, w2, w3] s rest ∧ Numeral w1 x ∧ Numeral w2 y ∧ Numeral w3 z
  | .floats key x y z => ∃ w1 w2 w3, VtkHead key [w1, w2, w3] s rest ∧ io.toFloat w1 = some x ∧ io.toFloat w2 = some y ∧ io.toFloat w3 = some z
  | .coords key a => ∃ w t e d s', VtkHead key (w :: t :: e) s s' ∧ Numeral w a.rows.length ∧ VtkWord v t d ∧ canonical d = a.dtype ∧
      VtkValues io has ascii d a.rows.flatten s' rest

/-- What the arrays that follow belong to: the data set, nothing in particular, the points, or the cells. -/
inductive VtkTarget where
  | dataset
  | other
  | point
  | cell
deriving DecidableEq, Repr

/-- … and how many they have to be (if it is known). -/
structure VtkCtx where
  target : VtkTarget := .dataset
  num : Option Nat := none
deriving DecidableEq

def VtkSec.next (c : VtkCtx) : VtkSec V → VtkCtx
  | .points _ => { c with target := .other }
  | .cells _ => ⟨.other, none⟩
  | .types _ => ⟨.other, none⟩
  | .pointData n => ⟨.point, some n⟩
  | .cellData n => ⟨.cell, some n⟩
  | .lookup _ => { c with num := none }
  | _ => c

/-- The arrays of a section. -/
def VtkSec.named : VtkSec V → List (String × Arr V)
  | .arrays l => l
  | .scalars name a => [(name, a)]
  | .vectors name a => [(name, a)]
  | .tensors name a => [(name, a)]
  | _ => []

/-- Words that describe the data set. -/
def vtkReserved : List String :=
  ["type", "DIMENSIONS", "ORIGIN", "SPACING", "ASPECT_RATIO", "X_COORDINATES", "Y_COORDINATES", "Z_COORDINATES"]

/-- The rows have the shape of the array, and the type is one of numpy's. -/
def Arr.Rows (k : Nat) (a : Arr V) : Prop := ∀ r ∈ a.rows, r.length = k

/-- An array of a field has one or two axes; with one component it has one axis. -/
def Arr.Field (a : Arr V) : Prop := (a.tail = [] ∧ Arr.Rows 1 a) ∨ ∃ k, a.tail = [k] ∧ k ≠ 1 ∧ Arr.Rows k a

/-- The section is in order at its place in a data set of kind `t`. -/
def VtkSec.Ok (ascii : Bool) (t : String) (c : VtkCtx) (x : VtkSec V) : Prop :=
  (c.target = .dataset → ∀ kv ∈ x.named, kv.1 ∉ vtkReserved) ∧
  match x with
    | .points a => a.tail = [3] ∧ Arr.Rows 3 a
    | .arrays l => (l.map (·.1)).Nodup ∧ ∀ kv ∈ l, Arr.Field kv.2 ∧ kv.1 ≠ "METADATA"
    | .scalars _ a => c.num = some a.rows.length ∧ ∃ k, a.tail = [k] ∧ 1 ≤ k ∧ k ≤ 4 ∧ Arr.Rows k a
    | .vectors _ a => c.num = some a.rows.length ∧ a.tail = [3] ∧ Arr.Rows 3 a
    | .tensors _ a => c.num = some a.rows.length ∧ a.tail = [3, 3] ∧ Arr.Rows 9 a
    | .lookup _ => True
    | .colors _ => ascii = false ∧ c.num.isSome
    | .dims _ _ _ => c.target = .dataset ∧ t ∈ ["STRUCTURED_POINTS", "STRUCTURED_GRID", "RECTILINEAR_GRID"]
    | .floats key _ _ _ => c.target = .dataset ∧ t = "STRUCTURED_POINTS" ∧ key ∈ ["ORIGIN", "SPACING", "ASPECT_RATIO"]
    | .coords key a => c.target = .dataset ∧ t = "RECTILINEAR_GRID" ∧ key ∈ ["X_COORDINATES", "Y_COORDINATES", "Z_COORDINATES"] ∧
        a.tail = [] ∧ Arr.Rows 1 a
    | _ => True

/-- Sections one after the other. -/
def vtkSays (io : VtkIO V) (has : String → V → Prop) (v : Ver) (ascii : Bool) (t : String) :
    VtkCtx → List (VtkSec V) → List Char → Prop
  | _, [], s => s = []
  | c, x :: l, s => ∃ s', x.Ok ascii t c ∧ x.Says io has v ascii c.num s s' ∧ vtkSays io has v ascii t (x.next c) l s'

/-- The arrays that belong to a target, in their order in the file. -/
def vtkArraysFor (g : VtkTarget) : VtkCtx → List (VtkSec V) → List (String × Arr V)
  | _, [] => []
  | c, x :: l => (if c.target = g then x.named else []) ++ vtkArraysFor g (x.next c) l

/-- The points: the last section of that name. -/
def vtkPoints (l : List (VtkSec V)) : Option (Arr V) :=
  (l.filterMap fun x => match x with
    | .points a => some a
    | _ => none).getLast?

/-- The cells: the last section of that name, and the last list of types. -/
def vtkCells (l : List (VtkSec V)) : Option (List VtkCell) :=
  (l.filterMap fun x => match x with
    | .cells cs => some cs
    | _ => none).getLast?

def vtkTypes (l : List (VtkSec V)) : Option (List Nat) :=
  (l.filterMap fun x => match x with
    | .types ts => some ts
    | _ => none).getLast?

/-- Dimensions, axes and the like. -/
def vtkDims (l : List (VtkSec V)) : Option (Nat × Nat × Nat) :=
  (l.filterMap fun x => match x with
    | .dims x y z => some (x, y, z)
    | _ => none).getLast?

def vtkFloats (key : String) (l : List (VtkSec V)) : Option (V × V × V) :=
  (l.filterMap fun s => match s with
    | .floats k x y z => if k = key then some (x, y, z) else none
    | _ => none).getLast?

def vtkCoords (key : String) (l : List (VtkSec V)) : Option (Arr V) :=
  (l.filterMap fun x => match x with
    | .coords k a => if k = key then some a else none
    | _ => none).getLast?

/-- A file of version 5.1 or of an older one. -/
def vtkFileSays (io : VtkIO V) (has : String → V → Prop) (v : Ver) (ascii : Bool) (t : String) (l : List (VtkSec V)) (s : List Char) : Prop :=
  ∃ version title fmt e s1 s2, IsTok version ∧ (version = "5.1".toList ↔ v = .v51) ∧ '\n' ∉ title ∧
    '\n' ∉ fmt ∧ upper (strip fmt) = (if ascii then "ASCII" else "BINARY").toList ∧
    s = linesText ["# vtk DataFile Version ".toList ++ version, title, fmt] ++ s1 ∧
    (∃ w, upper w = t.toList ∧ VtkHead "DATASET" (w :: e) s1 s2) ∧ vtkSays io has v ascii t {} l s2

/-- Arrays by name; a later one replaces an earlier one of the same name. -/
def vtkDict {α : Type} (l : List (String × α)) : Dict α := l.foldl (fun d kv => Dict.set d kv.1 kv.2) []

/-! ## What is written -/

/-- An array with one or two axes of numbers of a type that the version knows. -/
structure VtkArr (has : String → V → Prop) (v : Ver) (binary : Bool) (a : Arr V) : Prop where
  dtype : ∃ name, (name, a.dtype) ∈ dtypes v
  int : a.dtype ≠ "int"
  text : binary = false → a.dtype ≠ "bool"
  shape : (a.tail = [] ∧ Arr.Rows 1 a) ∨ ∃ k, a.tail = [k] ∧ 0 < k ∧ Arr.Rows k a
  vals : ∀ r ∈ a.rows, ∀ x ∈ r, has a.dtype x

/-- The array in the file: rows of two get a zero, and with one component there is one axis. -/
def vtkKept (zero : String → V) (a : Arr V) : Arr V :=
  if a.tail = [1] then ⟨a.dtype, [], a.rows⟩
  else if a.tail = [2] then ⟨a.dtype, [3], a.rows.map (· ++ [zero a.dtype])⟩
  else a

/-- The arrays of all blocks as one. -/
def vtkJoin (l : List (Arr V)) : Arr V := ⟨((l.head?).map (·.dtype)).getD "", ((l.head?).map (·.tail)).getD [], l.flatMap (·.rows)⟩

/-- The cells in the file. -/
def vtkCellsOf (bs : List Vtk.Blk2) : List VtkCell :=
  bs.flatMap fun b => b.rows.map fun r => ((vtkCode b.type).getD 0, toVtk b.type r)

/-- A mesh that can be written: points in the plane or in space, blocks with cells, and data of matching lengths under names that are
words.  In binary files the integers have to fit. -/
structure VtkMesh (has : String → V → Prop) (v : Ver) (binary : Bool) (m : In V) : Prop where
  points : VtkArr has v binary m.points ∧ (m.points.tail = [2] ∨ m.points.tail = [3]) ∧ m.points.rows ≠ []
  cells : ∀ b ∈ m.cells, (∃ c, vtkCode b.type = some c) ∧ b.rows ≠ [] ∧ b.width ≠ 0 ∧ (∀ r ∈ b.rows, r.length = b.width) ∧
    (b.type = "wedge" → b.width = 6)
  fits : binary = true → match v with
    | .v42 => ∀ x ∈ streamOf (vtkCellsOf m.cells), IsInt 4 x
    | .v51 => ∀ x ∈ endsFrom 0 (vtkCellsOf m.cells) ++ connectivityOf (vtkCellsOf m.cells), IsInt 8 x
  pointNames : (m.pointData.map (·.1)).Nodup ∧ ∀ kv ∈ m.pointData, IsTok kv.1.toList ∧ kv.1 ≠ "METADATA"
  pointData : ∀ kv ∈ m.pointData, VtkArr has v binary kv.2 ∧ kv.2.rows.length = m.points.rows.length
  cellNames : (m.cellData.map (·.1)).Nodup ∧ ∀ kv ∈ m.cellData, IsTok kv.1.toList ∧ kv.1 ≠ "METADATA"
  cellData : ∀ kv ∈ m.cellData, m.cells ≠ [] ∧ kv.2.map (·.rows.length) = m.cells.map (·.rows.length) ∧
    ∀ a ∈ kv.2, VtkArr has v binary a ∧ a.dtype = (vtkJoin kv.2).dtype ∧ a.tail = (vtkJoin kv.2).tail

/-- The sections written: data only if there are any. -/
def vtkSections (zero : String → V) (m : In V) : List (VtkSec V) :=
  [.points (vtkKept zero m.points), .cells (vtkCellsOf m.cells), .types ((vtkCellsOf m.cells).map (·.1))] ++
  (if m.pointData = [] then [] else [.pointData m.points.rows.length, .arrays (m.pointData.map fun kv => (kv.1, vtkKept zero kv.2))]) ++
  (if m.cellData = [] then [] else [.cellData (vtkCellsOf m.cells).length, .arrays (m.cellData.map fun kv => (kv.1, vtkKept zero (vtkJoin kv.2)))])

end Meshio.Spec
