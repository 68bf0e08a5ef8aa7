/-
What the grouping of Exodus variables is supposed to do.
-/
import Verif.Model.Exodus

namespace Meshio
namespace Exodus

/-- The variables that appear in the result. -/
def Cat.used (s : Cat) : List Nat :=
  s.single.map (·.2) ++ s.double.flatMap (fun e => [e.2.1, e.2.2]) ++
    s.triple.flatMap (fun e => [e.2.1, e.2.2.1, e.2.2.2])

/-- The names of combined variables are stored in the usual way. -/
structure Ordered (names : List (List Char)) : Prop where
  nonempty : ∀ x ∈ names, x ≠ []
  nodup : names.Nodup
  xyz : ∀ (p : List Char) (i j l : Nat), names[i]? = some (p ++ ['X']) → names[j]? = some (p ++ ['Y']) →
    names[l]? = some (p ++ ['Z']) → i < j ∧ i < l
  rz : ∀ (p : List Char) (i j : Nat), names[i]? = some (p ++ ['_', 'R']) → names[j]? = some (p ++ ['_', 'Z']) → i < j
  sep : ∀ p : List Char, p ++ ['_', 'R'] ∈ names → p ++ ['_', 'X'] ∈ names → p ++ ['_', 'Y'] ∈ names →
    p ++ ['_', 'Z'] ∉ names

end Exodus
end Meshio
