/-
Model of /repo/src/meshio/stl/_stl.py: text files as characters, binary files as bytes.
-/
import Verif.Base.File
import Verif.Base.ByteIO
import Verif.Base.Sort
import Verif.Base.Runs
import Verif.Model.Mesh
namespace Meshio.Stl
open Meshio

variable {F R : Type}

/-- What the readers return: points, the rows of the triangle block, `facet_normals`
(`none` when there are no cell data). -/
structure StlMesh (F : Type) where
  points : List (List F)
  triangles : List (List Nat)
  normals : Option (List (List F))
deriving DecidableEq

/-- The `comments` of `_read_ascii`, /repo/src/meshio/stl/_stl.py:117. -/
def comments : List (List Char) :=
  ["solid".toList, "outer loop".toList, "endloop".toList, "endfacet".toList, "endsolid".toList]

/-- One line of `iter_loadtxt`, /repo/src/meshio/stl/_stl.py:66-71: nothing for a comment,
else the last three words. -/
def lineItems (line : List Char) : Option (List (List Char)) :=
  let line := strip line
  if comments.any (fun c => c.isPrefixOf line) then none
  else some ((splitWs line).drop ((splitWs line).length - 3))

/-- `float(item)` -/
def toFloat (fio : FloatIO F) (t : List Char) : Res F :=
  match fio.parse t with
  | some x => .ok x
  | none => .error .valueError

/-- `iter_loadtxt.rowlength`, /repo/src/meshio/stl/_stl.py:76-80. -/
def rowLength (items : List (List (List Char))) : Nat :=
  match items.getLast? with
  | none => 3
  | some it => it.length

/-- `iter_loadtxt`, /repo/src/meshio/stl/_stl.py:51-84: the row length is the number of words
of the last line that is no comment, 3 without such a line. -/
def loadtxt (fio : FloatIO F) (s : List Char) : Res (List (List F)) :=
  let items := (fileLines s).filterMap lineItems
  match mapRes (toFloat fio) items.flatten with
  | .error e => .error e
  | .ok vals =>
    let r := rowLength items
    if r = 0 ∨ vals.length % r ≠ 0 then .error .valueError
    else .ok (rowsN r (vals.length / r) vals)

/-- `data_from_facets`, /repo/src/meshio/stl/_stl.py:145-162, after `np.concatenate(facets)`;
`le` is the order of the rows that `np.unique` sorts by. -/
def fromPts [DecidableEq F] (le : List F → List F → Bool) (pts : List (List F)) :
    List (List F) × List (List Nat) :=
  if pts = [] then ([], [])
  else
    let u := uniqueStable le pts
    (u.1, rowsN 3 (u.2.length / 3) u.2)

/-- Rows 0, 4, 8, ... -/
def everyFourth : List (List F) → List (List F)
  | a :: _ :: _ :: _ :: l => a :: everyFourth l
  | a :: _ => [a]
  | [] => []

/-- The other rows. -/
def otherRows : List (List F) → List (List F)
  | _ :: b :: c :: d :: l => b :: c :: d :: otherRows l
  | _ :: l => l
  | [] => []

/-- `_read_ascii`, /repo/src/meshio/stl/_stl.py:87-142. -/
def readAscii [DecidableEq F] (fio : FloatIO F) (le : List F → List F → Bool) (s : List Char) :
    Res (StlMesh F) :=
  match loadtxt fio s with
  | .error e => .error e
  | .ok data =>
    if data.length % 4 ≠ 0 then .error .readError
    else
      let normals := everyFourth data
      let pts := otherRows data
      if pts.length = 0 then .ok ⟨[], [], none⟩
      else
        let pc := fromPts le pts
        .ok ⟨pc.1, pc.2, some normals⟩

/-- `_read_binary`, /repo/src/meshio/stl/_stl.py:165-183, on the bytes after the number of
triangles: 12 bytes of normal, 36 bytes of coordinates, 2 bytes per triangle. -/
def readBinary [DecidableEq F] (bio : ByteIO 4 F) (le : List F → List F → Bool) (n : Nat)
    (s : List Byte) : StlMesh F :=
  let facets := (items 50 n s).map (fun r => rowsN 3 3 ((items 4 9 (r.drop 12)).map bio.dec))
  let pc := fromPts le facets.flatten
  ⟨pc.1, pc.2, none⟩

/-- `line.decode()`; text with bytes above 127 is left out of the model. -/
def decode (s : List Byte) : Res (List Char) :=
  if s.all (fun b => decide (b.val < 128)) then .ok (s.map (fun b => Char.ofNat b.val))
  else .error .unmodelled

/-- The bytes of a text of ASCII characters. -/
def encode (s : List Char) : List Byte := s.map (fun c => Fin.ofNat 256 c.toNat)

/-- The outcome of `read`: which reader, and what it returned. -/
inductive Outcome (F G : Type) where
  | ascii (m : StlMesh F)
  | binary (m : StlMesh G)

/-- `f.readline()` on a binary file. -/
def skipLine : List Byte → List Byte
  | [] => []
  | b :: l => if b.val = 10 then l else skipLine l

/-- `_read_ascii` on the bytes that are left. -/
def readText {G : Type} [DecidableEq F] (fio : FloatIO F) (le : List F → List F → Bool)
    (s : List Byte) : Res (Outcome F G) :=
  match decode s with
  | .error e => .error e
  | .ok t =>
    match readAscii fio le t with
    | .error e => .error e
    | .ok m => .ok (.ascii m)

/-- `read`, /repo/src/meshio/stl/_stl.py:19-46.  `mul50` is the product `num_triangles * 50`
(exact for NumPy 1, modulo `2^32` for NumPy 2). -/
def read {G : Type} [DecidableEq F] [DecidableEq G] (fio : FloatIO F) (le : List F → List F → Bool)
    (bio : ByteIO 4 G) (leG : List G → List G → Bool) (mul50 : Nat → Nat) (s : List Byte) :
    Res (Outcome F G) :=
  if s.length < 80 then readText fio le s
  else if s.length < 84 then .error .indexError
  else
    let n := natDec false ((s.drop 80).take 4)
    if 84 + mul50 n = s.length then .ok (.binary (readBinary bio leG n (s.drop 84)))
    else readText fio le (skipLine s)

/-- `points[tri]`, /repo/src/meshio/stl/_stl.py:201. -/
def gather (points : List (List F)) (tri : List (List Int)) : Res (List (List (List F))) :=
  mapRes (fun r => mapRes (npIndex points) r) tri

/-- `"... {} {} {}".format(*v)` -/
def line3 (fio : FloatIO F) (pre : List Char) (v : List F) : Res (List Char) :=
  match v with
  | a :: b :: c :: _ => .ok (pre ++ joinWith ' ' [fio.fmt a, fio.fmt b, fio.fmt c])
  | _ => .error .indexError

/-- The lines of one facet, /repo/src/meshio/stl/_stl.py:218-229. -/
def facetLines (fio : FloatIO F) (f : List (List F) × List F) : Res (List (List Char)) :=
  match f.1 with
  | p :: q :: r :: _ =>
    match line3 fio "facet normal ".toList f.2, line3 fio "  vertex ".toList p,
      line3 fio "  vertex ".toList q, line3 fio "  vertex ".toList r with
    | .ok a, .ok b, .ok c, .ok d =>
      .ok [a, " outer loop".toList, b, c, d, " endloop".toList, "endfacet".toList]
    | _, _, _, _ => .error .indexError
  | _ => .error .indexError

/-- `_write_ascii`, /repo/src/meshio/stl/_stl.py:213-232. -/
def writeAscii (fio : FloatIO F) (pts : List (List (List F))) (normals : List (List F)) :
    Res (List Char) :=
  match mapRes (facetLines fio) (pts.zip normals) with
  | .error e => .error e
  | .ok ls => .ok (linesText ("solid".toList :: (ls.flatten ++ ["endsolid".toList])))

/-- The 80 characters of the header, /repo/src/meshio/stl/_stl.py:238-240. -/
def header (version : List Char) : List Char :=
  let msg := "This file was generated by meshio v".toList ++ version ++ ['.']
  msg ++ List.replicate (79 - msg.length) 'X' ++ ['\n']

/-- `_write_binary`, /repo/src/meshio/stl/_stl.py:235-256, for facets and normals of the
right shape (numpy raises ValueError otherwise, except for shapes it can broadcast, which are
left out). -/
def writeBinary (bio : ByteIO 4 F) (version : List Char) (pts : List (List (List F)))
    (normals : List (List F)) : Res (List Byte) :=
  if pts.length = normals.length ∧ (∀ p ∈ pts, p.length = 3 ∧ ∀ v ∈ p, v.length = 3) ∧
      (∀ v ∈ normals, v.length = 3) then
    .ok (encode (header version) ++ (natEnc false 4 (pts.length % 256 ^ 4) ++
      (pts.zip normals).flatMap (fun f => f.2.flatMap bio.enc ++ (f.1.flatten.flatMap bio.enc ++
        natEnc false 2 0))))
  else .error .valueError

/-- `write`, /repo/src/meshio/stl/_stl.py:184-210, up to the choice of the format: the
facets and normals to be written.  `dim` is `mesh.points.shape[1]`, `given` the value of
`mesh.get_cell_data("facet_normals", "triangle")` if there are such data, `normal` the
computation of the normal of a facet. -/
def facetsOf (zero : F) (dim : Nat) (normal : List (List F) → List F)
    (given : Option (Res (List (List F)))) (m : Mesh (List F) R) :
    Res (List (List (List F)) × List (List F)) :=
  let points := if dim = 2 then m.points.map (· ++ [zero]) else m.points
  match m.getCellsType "triangle" with
  | .error e => .error e
  | .ok tri =>
    match gather points tri.rows with
    | .error e => .error e
    | .ok pts =>
      match given with
      | none => .ok (pts, pts.map normal)
      | some (.ok n) => .ok (pts, n)
      | some (.error e) => .error e

end Meshio.Stl
