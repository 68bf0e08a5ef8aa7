/-
Model of /repo/src/meshio/neuroglancer/_neuroglancer.py on the bytes of the file.
-/
import Verif.Base.ByteIO
import Verif.Base.File
namespace Meshio.Neuroglancer
open Meshio

variable {F : Type}

/-- `write_buffer`, /repo/src/meshio/neuroglancer/_neuroglancer.py:23-40.  Points are float32
values (the conversion from float64 comes before).  `struct.pack("<I", n)` fails for
`n ≥ 2^32`; `np.asarray(c.data, "<I")` keeps the value modulo `2^32`. -/
def write (fio : ByteIO 4 F) (points : List (List F)) (cells : List (String × List (List Int))) :
    Res (List Byte) :=
  if points.length < 256 ^ 4 then
    .ok (natEnc false 4 points.length ++ ((points.flatten.flatMap fio.enc) ++
      (cells.filter (fun c => c.1 == "triangle")).flatMap (fun c =>
        c.2.flatten.flatMap (fun i => natEnc false 4 (i % ((256 : Int) ^ 4)).toNat))))
  else .error .structError

/-- `read_buffer`, /repo/src/meshio/neuroglancer/_neuroglancer.py:48-84. -/
def read (fio : ByteIO 4 F) (s : List Byte) : Res (List (List F) × List (List Int)) :=
  if (s.take 4).length ≠ 4 then .error .structError
  else
    let n := natDec false (s.take 4)
    let buf := (s.drop 4).take (4 * 3 * n)
    if buf.length ≠ 4 * 3 * n then .error .readError
    else
      let vertices := rowsN 3 n ((items 4 (3 * n) buf).map fio.dec)
      let rest := s.drop (4 + 4 * 3 * n)
      if rest.length % (3 * 4) ≠ 0 then .error .readError
      else
        let flat := (items 4 (rest.length / 4) rest).map (fun b => (natDec false b : Int))
        let triangles := rowsN 3 (rest.length / 12) flat
        if triangles.any (fun r => r.any (fun i => decide (i > (n : Int)))) then .error .readError
        else .ok (vertices, triangles)

end Meshio.Neuroglancer
