/-
Which types a cell block can have, /repo/src/meshio/_mesh.py:85-101: the constructor looks the dimension up and raises KeyError for
other types.  Every reader that builds cell blocks, itself or through the `Mesh` constructor, inherits this check.
-/
import Verif.Model.Mesh
namespace Meshio

/-- The constructor of `CellBlock` accepts the type. -/
def hasDim (t : String) : Bool := startsWith "polyhedron" t || (topologicalDimension.get? t).isSome

end Meshio
