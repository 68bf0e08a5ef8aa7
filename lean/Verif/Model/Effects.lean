/-
What writers do to the mesh of the caller: the assignments to attributes of `mesh` in the `write` functions.  The writers of the other
formats contain no such assignment.
-/
import Verif.Model.Common
import Verif.Model.Mesh

namespace Meshio
namespace Effects

variable {P R C : Type}

/-- `pad`, /repo/src/meshio/vtk/_vtk_42.py:601-602; `zero` appends a zero to a row. -/
def padVal (zero : R → R) : Val R → Val R
  | .int i => .int i
  | .other r => .other (zero r)

/-- Rows of two become rows of three, /repo/src/meshio/vtk/_vtk_42.py:616-622. -/
def padArr (zero : R → R) (a : DataArr R) : DataArr R :=
  if a.arr.tail = [2] then ⟨a.isInt, ⟨[3], a.arr.rows.map (padVal zero)⟩⟩ else a

/-- The mesh after `write` of version 4.2, /repo/src/meshio/vtk/_vtk_42.py:600-655.  (Points are padded in a copy.) -/
def vtk42 (zero : R → R) (m : Mesh P R) : Mesh P R :=
  { m with
    pointData := m.pointData.map fun kv => (kv.1, padArr zero kv.2)
    cellData := m.cellData.map fun kv => (kv.1, kv.2.map (padArr zero)) }

/-- Sets become data, /repo/src/meshio/vtu/_vtu.py:629-645.  The name of the data is passed to `point_sets_to_data` as the character that
joins names. -/
def setsToData (m : Mesh P R) : Res (Mesh P R) :=
  match (if m.pointSets.length > 0 then
      match joinStrings m.pointSets.keys with
      | .error e => Except.error e
      | .ok k =>
        match replaceSpace k.1 with
        | .error e => .error e
        | .ok k => m.pointSetsToData k.1
    else .ok m) with
  | .error e => .error e
  | .ok m =>
    if m.cellSets.length > 0 then
      match joinStrings m.cellSets.keys with
      | .error e => .error e
      | .ok k =>
        match replaceSpace k.1 with
        | .error e => .error e
        | .ok k => m.cellSetsToData (some k.1)
    else .ok m

/-- The mesh after `write` of version 5.1, /repo/src/meshio/vtk/_vtk_51.py:483-530. -/
def vtk51 (zero : R → R) (m : Mesh P R) : Res (Mesh P R) := setsToData (vtk42 zero m)

/-- The mesh after `write` of VTU, /repo/src/meshio/vtu/_vtu.py:581-701.  Changes of the byte order do not change values. -/
def vtu (m : Mesh P R) : Res (Mesh P R) := setsToData m

/-- `astype(np.int32)` -/
def wrap32 (i : Int) : Int := (i + 2 ^ 31) % 2 ^ 32 - 2 ^ 31

/-- The types PLY knows, /repo/src/meshio/ply/_ply.py:441. -/
def plyTypes : List String := ["vertex", "line", "triangle", "quad", "polygon"]

/-- The mesh after `write` of PLY, /repo/src/meshio/ply/_ply.py:440-462; `wide` tells whether the array of a block has eight byte
integers. -/
def ply (wide : CellBlock → Bool) (m : Mesh P R) : Mesh P R :=
  if ((m.cells.filter fun c => plyTypes.contains c.type).map (·.len)).sum > 0 then
    { m with cells := m.cells.map fun c => if wide c then ⟨c.type, ⟨c.data.tail, c.data.rows.map (·.map wrap32)⟩⟩ else c }
  else m

/-- The mesh after `write` of AVS-UCD, /repo/src/meshio/avsucd/_avsucd.py:148-153, for points with `dim` columns. -/
def avsucd (zero : C) (dim : Nat) (m : Mesh (List C) R) : Mesh (List C) R :=
  if dim = 2 then { m with points := m.points.map (· ++ [zero]) } else m

end Effects
end Meshio
