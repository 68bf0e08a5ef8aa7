/-
Specifications for VTU pieces and polyhedra.
-/
import Verif.Spec.Vtk
import Mathlib.Data.List.Dedup
namespace Meshio.Spec

/-- The number of different nodes of a polyhedron given by its faces. -/
def polyNodes (c : List (List Int)) : Nat := c.flatten.dedup.length

/-- The type name of a polyhedron: `polyhedron` and its number of nodes. -/
def polyName (c : List (List Int)) : String := "polyhedron" ++ strInt (polyNodes c)

/-- The distinct entries of a list in order of first appearance. -/
def firstSeen {α : Type} [DecidableEq α] : List α → List α
  | [] => []
  | a :: l => a :: (firstSeen l).filter (fun b => decide (b ≠ a))

/-- The polyhedra of one type, in file order. -/
def polysOf (cs : List (List (List Int))) (t : String) : List (List (List Int)) :=
  cs.filter (fun c => decide (polyName c = t))

/-- The data rows of the polyhedra of one type. -/
def polyRows {R : Type} (cs : List (List (List Int))) (d : List R) (t : String) : List R :=
  ((cs.zip d).filter (fun p => decide (polyName p.1 = t))).map (·.2)

end Meshio.Spec
