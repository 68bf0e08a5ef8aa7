/-
What is assumed of a mesh written to a VTU file, and what the file says then.
-/
import Verif.Spec.VtuFile
import Verif.Spec.VtkFile
import Verif.Spec.Cxml
import Verif.Spec.Mesh
import Verif.Spec.Vtk
import Verif.Model.Common
namespace Meshio.Spec
open Meshio.VtuFile Meshio.VtkFile Meshio.Vtu Meshio.Vtk

variable {F : Type}

/-- What is assumed of floats and compressors: text is read back as a rounded number, bytes exactly if the number `has` that many bytes. -/
structure VtuLaws (io : VtuIO F) (has : Nat → F → Prop) (rnd : F → F) : Prop where
  parse : ∀ x, io.parse (io.fmt x) = some (rnd x)
  tok : ∀ x, IsTok (io.fmt x)
  text : ∀ x, PlainText (io.fmt x)
  length : ∀ big n x, (io.enc big n x).length = n
  dec : ∀ big n x, has n x → io.dec big (io.enc big n x) = x
  comp : ∀ l b, io.decomp l (io.comp l b) = .ok b

/-- A number of a type. -/
def VtuNum (has : Nat → F → Prop) (d : String) (isz : Nat) (v : Num F) : Prop :=
  match v with
  | .flt x => (d = "float32" ∨ d = "float64") ∧ has isz x
  | .int i => (d ∈ ["int8", "int16", "int32", "int64"] ∧ IsInt isz i) ∨
      (d ∈ ["uint8", "uint16", "uint32", "uint64"] ∧ 0 ≤ i ∧ i < (256 ^ isz : Nat))

/-- An array with one or two axes of numbers of a type that VTU knows. -/
def VtuArr (has : Nat → F → Prop) (a : Arr (Num F)) : Prop :=
  (∃ t isz, (t, a.dtype, isz) ∈ vtuKinds ∧ ∀ r ∈ a.rows, ∀ v ∈ r, VtuNum has a.dtype isz v) ∧
  ((a.tail = [] ∧ ∀ r ∈ a.rows, r.length = 1) ∨ ∃ k, a.tail = [k] ∧ 0 < k ∧ ∀ r ∈ a.rows, r.length = k)

/-- The sizes of a binary array fit the header integers.  A compressed array must not be empty. -/
def VtuFits (io : VtuIO F) (o : Opts) (a : Arr (Num F)) : Prop :=
  o.binary = true → ∃ w, (o.header.getD "UInt32", w) ∈ vtuHeaders ∧ (arrBytes io o.sysBig a).length < 256 ^ w ∧
    ∀ c, o.compression = some c → (c = "lzma" ∨ c = "zlib") ∧ arrBytes io o.sysBig a ≠ [] ∧ 32768 < 256 ^ w ∧
      ((chunkIt (arrBytes io o.sysBig a) 32768).map fun b => (io.comp (decide (c = "lzma")) b).length).sum < 256 ^ w

/-- In text files floats are rounded. -/
def vtuRound (rnd : F → F) : Num F → Num F
  | .flt x => .flt (rnd x)
  | .int i => .int i

/-- The array in the file. -/
def vtuKept (rnd : F → F) (o : Opts) (a : Arr (Num F)) : Arr (Num F) :=
  if o.binary = true then a else ⟨a.dtype, a.tail, a.rows.map fun r => r.map (vtuRound rnd)⟩

/-- Points of the plane get a third coordinate. -/
def vtuSpace (zero : F) (a : Arr (Num F)) : Arr (Num F) :=
  if a.tail = [2] then
    ⟨a.dtype, [3], a.rows.map (· ++ [if a.dtype = "float32" ∨ a.dtype = "float64" then .flt zero else .int 0])⟩
  else a

/-- A section is written if there is something in it. -/
def vtuOpt (d : Dict (Arr (Num F))) : Option (Dict (Arr (Num F))) := if d = [] then none else some d

/-- An array that can be written under a name. -/
def VtuGood (io : VtuIO F) (has : Nat → F → Prop) (o : Opts) (x : String × Arr (Num F)) : Prop :=
  PlainValue x.1 ∧ VtuArr has x.2 ∧ VtuFits io o x.2

/-- An array of integers. -/
def vtuInts (d : String) (l : List Int) : Arr (Num F) := ⟨d, [], l.map fun i => [.int i]⟩

/-- What is common to all meshes that can be written: arrays VTU can hold, data of matching lengths. -/
structure VtuData (io : VtuIO F) (has : Nat → F → Prop) (o : Opts) (m : VtuFile.In F) (lens : List Nat) : Prop where
  header : ∀ h ∈ o.header, PlainValue h
  points : VtuGood io has o ("Points", vtuSpace io.zero m.points) ∧ m.points.tail ≠ []
  pointNames : (m.pointData.map (·.1)).Nodup
  pointData : ∀ kv ∈ m.pointData, VtuGood io has o kv ∧ kv.2.rows.length = m.points.rows.length
  cellNames : (m.cellData.map (·.1)).Nodup
  cellData : ∀ kv ∈ m.cellData, VtuGood io has o (kv.1, vtkJoin kv.2) ∧ kv.2.map (·.rows.length) = lens ∧
    ∀ a ∈ kv.2, a.dtype = (vtkJoin kv.2).dtype ∧ a.tail = (vtkJoin kv.2).tail

/-- A mesh of ordinary cells. -/
structure VtuRows (io : VtuIO F) (has : Nat → F → Prop) (o : Opts) (m : VtuFile.In F) (bs : List Blk2) : Prop where
  cells : m.cells = bs.map .rows
  blocks : ∀ b ∈ bs, (∃ c, vtkCode b.type = some c ∧ KnownType b.type ∧ (c ∈ varSize ∨ numNodesPerCell.get? b.type = some b.width)) ∧
    ∀ r ∈ b.rows, r.length = b.width
  nonempty : ∀ b ∈ bs.dropLast, b.rows ≠ []
  anyCell : ∃ b ∈ bs, b.rows ≠ []
  arrays : ∀ x ∈ ([("connectivity", vtuInts m.idx (connectivityOf (vtkCellsOf bs))), ("offsets", vtuInts m.idx (endsFrom 0 (vtkCellsOf bs))),
    ("types", vtuInts "int64" ((vtkCellsOf bs).map fun c => (c.1 : Int)))] : List (String × Arr (Num F))), VtuGood io has o x
  data : VtuData io has o m (bs.map (·.rows.length))

/-- A mesh of polyhedra. -/
structure VtuPolys (io : VtuIO F) (has : Nat → F → Prop) (o : Opts) (m : VtuFile.In F) (bs : List (String × List PolyCell)) : Prop where
  cells : m.cells = bs.map fun b => .poly b.1 b.2
  anyCell : bs.flatMap (·.2) ≠ []
  faces : ∀ c ∈ bs.flatMap (·.2), c ≠ []
  arrays : ∀ l ∈ [(writePolyVtu (bs.map (·.2))).connectivity, (writePolyVtu (bs.map (·.2))).offsets,
      (writePolyVtu (bs.map (·.2))).types.map Int.ofNat, (writePolyVtu (bs.map (·.2))).faces.getD [],
      ((writePolyVtu (bs.map (·.2))).faceoffsets.getD []).map Int.ofNat],
    VtuArr has (vtuInts "int64" l) ∧ VtuFits io o (vtuInts "int64" l)
  data : VtuData io has o m (bs.map (·.2.length))

end Meshio.Spec
