/-
Model of /repo/src/meshio/off/_off.py on the characters of the file.
-/
import Verif.Base.File
import Verif.Model.Mesh
namespace Meshio.Off
open Meshio

variable {F R : Type}

/-- "fast forward to the next significant line", /repo/src/meshio/off/_off.py:34-37; at the
end of the file the loop never ends (`fuel` counts characters). -/
def skipComments : Nat → List Char → Res (List Char × List Char)
  | 0, _ => .error .eofLoop
  | fuel + 1, s =>
    let line := strip (readLine s).1
    if line ≠ [] ∧ line.head? ≠ some '#' then .ok (line, (readLine s).2)
    else skipComments fuel (readLine s).2

/-- `num_verts, num_faces, _ = line.split(" ")` and the two `int`,
/repo/src/meshio/off/_off.py:41-43.  A negative count makes numpy read everything; that is
left out. -/
def counts (line : List Char) : Res (Nat × Nat) :=
  match splitOnC ' ' line with
  | [a, b, _] =>
    match parseInt a, parseInt b with
    | some v, some f => if v < 0 ∨ f < 0 then .error .unmodelled else .ok (v.toNat, f.toNat)
    | _, _ => .error .valueError
  | _ => .error .valueError

/-- The part after the header, /repo/src/meshio/off/_off.py:45-51. -/
def body (fio : FloatIO F) (nv nf : Nat) (s : List Char) : Res (List (List F) × List (List Int)) :=
  let v := scan fio.parse (3 * nv) s
  match reshape nv 3 v.1 with
  | .error e => .error e
  | .ok verts =>
    match reshape nf 4 (scan parseInt (4 * nf) v.2).1 with
    | .error e => .error e
    | .ok data =>
      if data.all (fun r => r.head? == some 3) then .ok (verts, data.map (List.drop 1))
      else .error .readError

/-- `read_buffer`, /repo/src/meshio/off/_off.py:23-53: points and the rows of the triangle
block. -/
def read (fio : FloatIO F) (s : List Char) : Res (List (List F) × List (List Int)) :=
  if strip (readLine s).1 ≠ "OFF".toList then .error .readError
  else
    match skipComments (s.length + 1) (readLine s).2 with
    | .error e => .error e
    | .ok (line, rest) =>
      match counts line with
      | .error e => .error e
      | .ok (nv, nf) => body fio nv nf rest

/-- `"\n".join([fmt.format(*row) for row in rows]) + "\n"`, /repo/src/meshio/off/_off.py:84-86
and 92-94. -/
def rowsText (rows : List (List (List Char))) : List Char :=
  joinWith '\n' (rows.map (joinWith ' ')) ++ ['\n']

/-- The text written, /repo/src/meshio/off/_off.py:73-94. -/
def text (fio : FloatIO F) (points : List (List F)) (tri : List (List Int)) : List Char :=
  "OFF\n".toList ++ ("# Created by meshio\n\n".toList ++
    (joinWith ' ' [fmtNat points.length, fmtNat tri.length, fmtNat 0] ++ "\n\n".toList ++
      (rowsText (points.map (·.map fio.fmt)) ++ rowsText (tri.map (fun r => fmtInt 3 :: r.map fmtInt)))))

/-- `write`, /repo/src/meshio/off/_off.py:56-94.  `dim` is `mesh.points.shape[1]`, `zero` the
float 0. -/
def write (fio : FloatIO F) (zero : F) (dim : Nat) (m : Mesh (List F) R) : Res (List Char) :=
  let points := if dim = 2 then m.points.map (· ++ [zero]) else m.points
  match m.getCellsType "triangle" with
  | .error e => .error e
  | .ok tri => .ok (text fio points tri.rows)

end Meshio.Off
