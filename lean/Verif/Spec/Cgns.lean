/-
What a CGNS file says, as far as meshio reads it.
-/
import Verif.Model.Cgns
namespace Meshio.Spec
open Meshio Meshio.Cgns

variable {F : Type}

/-- There is such a node at the end of the path. -/
inductive CgnsAt : Node F → List String → Node F → Prop
  | here (n : Node F) : CgnsAt n [] n
  | down (l : List (List Char × Node F)) (m n : Node F) (p : String) (ps : List String) :
      l.lookup p.toList = some m → CgnsAt m ps n → CgnsAt (.group l) (p :: ps) n

/-- The arrays of a file. -/
structure CgnsArrays (f : Node F) (points : List (F × F × F)) (range conn : List Int) : Prop where
  x : CgnsAt f ["Base", "Zone1", "GridCoordinates", "CoordinateX", " data"] (.floats (points.map (·.1)))
  y : CgnsAt f ["Base", "Zone1", "GridCoordinates", "CoordinateY", " data"] (.floats (points.map (·.2.1)))
  z : CgnsAt f ["Base", "Zone1", "GridCoordinates", "CoordinateZ", " data"] (.floats (points.map (·.2.2)))
  range : CgnsAt f ["Base", "Zone1", "GridElements", "ElementRange", " data"] (.ints range)
  conn : CgnsAt f ["Base", "Zone1", "GridElements", "ElementConnectivity", " data"] (.ints conn)

/-- The file holds these points and these tetrahedra, whose nodes are counted from 1. -/
def CgnsSays (f : Node F) (points : List (F × F × F)) (tets : List (Int × Int × Int × Int)) : Prop :=
  CgnsArrays f points [1, (tets.length : Int)] (tets.flatMap fun t => [t.1 + 1, t.2.1 + 1, t.2.2.1 + 1, t.2.2.2 + 1])

/-- Points and cells as rows of numbers. -/
def cgnsRow (p : F × F × F) : List F := [p.1, p.2.1, p.2.2]
def cgnsTet (t : Int × Int × Int × Int) : List Int := [t.1, t.2.1, t.2.2.1, t.2.2.2]

end Meshio.Spec
