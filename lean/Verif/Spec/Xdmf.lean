/-
XDMF files: what a Mixed topology holds.
-/
import Verif.Spec.Runs
namespace Meshio.Spec

/-- Linear cell types of a Mixed topology with their XDMF code and number of nodes
(https://xdmf.org/index.php/XDMF_Model_and_Format). -/
def xdmfMixed : List (String × Nat × Nat) :=
  [("vertex", 1, 1), ("line", 2, 2), ("triangle", 4, 3), ("quad", 5, 4), ("tetra", 6, 4), ("pyramid", 7, 5),
   ("wedge", 8, 6), ("hexahedron", 9, 8)]

/-- What stands before the nodes of a cell in the stream the reader expects: the code, and for a line
the number of its nodes. -/
def xdmfHeader (t : String) : List Int :=
  if t = "vertex" then [1]
  else if t = "line" then [2, 2]
  else if t = "triangle" then [4]
  else if t = "quad" then [5]
  else if t = "tetra" then [6]
  else if t = "pyramid" then [7]
  else if t = "wedge" then [8]
  else if t = "hexahedron" then [9]
  else []

/-- The stream of a list of cells. -/
def xdmfStream (cs : List (String × List Int)) : List Int := cs.flatMap fun c => xdmfHeader c.1 ++ c.2

/-- A cell of a linear type with the right number of nodes. -/
def XdmfCell (c : String × List Int) : Prop := ∃ x, (c.1, x, c.2.length) ∈ xdmfMixed

end Meshio.Spec
