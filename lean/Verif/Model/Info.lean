/-
The consistency report of `meshio info`.
-/
import Verif.Base.Err

namespace Meshio
namespace Info

/-- The two warnings that `meshio info` can print,
/repo/src/meshio/_cli/_info.py:28 and :38. -/
inductive Warning where
  | inconsistent
  | unused
deriving DecidableEq, Repr

/-- One cell block: a row of point indices per cell. -/
abbrev Block := List (List Int)

/-- `np.any(cells.data > mesh.points.shape[0])`, /repo/src/meshio/_cli/_info.py:27. -/
def anyAbove (n : Nat) (b : Block) : Bool := b.any fun row => row.any fun z => decide (z > (n : Int))

/-- Position of numpy index `z` in an array of length `n`: negative numbers count from the end,
anything else raises IndexError. -/
def position (n : Nat) (z : Int) : Res Nat :=
  if 0 ≤ z then (if z < n then .ok z.toNat else .error .indexError)
  else if -(n : Int) ≤ z then .ok (z + n).toNat
  else .error .indexError

/-- `point_is_used[z] = True` for one index. -/
def mark (used : List Bool) (z : Int) : Res (List Bool) :=
  match position used.length z with
  | .error e => .error e
  | .ok p => .ok (used.set p true)

/-- `info(args)` after reading the mesh, /repo/src/meshio/_cli/_info.py:24-40: the warnings printed.
The fancy assignment `point_is_used[cells.data] = True` is modelled index by index (its effect and
its IndexError do not depend on the order). -/
def info (n : Nat) (cells : List Block) : Res (List Warning) :=
  if cells.any (anyAbove n) then .ok [.inconsistent]
  else
    match foldRes mark (List.replicate n false) (cells.flatten.flatten) with
    | .error e => .error e
    | .ok used => .ok (if used.any (fun b => !b) then [.unused] else [])

end Info
end Meshio
