/-
What a MED file can hold, and the order in which it is read back.
-/
import Verif.Model.Med

namespace Meshio
namespace Spec
open Med Types Tables

/-- The MED name of a cell type. -/
def medName (t : String) : List Char := ((find meshioToMed t).getD "").toList

/-- The order in which the blocks of a mesh are visited: by their MED names. -/
def medOrder {β : Type} (cells : List (String × β)) : List Nat :=
  (hItems (cells.zipIdx.map fun c => (medName c.1.1, c.2))).map (·.2)

/-- The entries of `l` at the given positions. -/
def select {α : Type} (order : List Nat) (l : List α) : List α := order.filterMap fun i : Nat => l[i]?

/-- Rows of equal width. -/
def Uniform {α : Type} (rows : List (List α)) : Prop := ∀ r ∈ rows, r.length = widthOf rows

/-- Arrays that keep their shape when they go through the file: not empty, and no second axis of
length one. -/
def DataOk {F : Type} : Arr F → Prop
  | .vec l => l ≠ []
  | .mat rows => rows ≠ [] ∧ Uniform rows ∧ widthOf rows ≠ 1
  | .cube _ => False

/-- The same for cell data of a block with `n` nodes per cell: three axes are possible when the second
one runs over the nodes. -/
def CellOk {F : Type} (n : Nat) : Arr F → Prop
  | .cube rows => rows ≠ [] ∧ n ≠ 1 ∧ n ≠ 0 ∧
      ∃ c, ∀ r ∈ rows, r.length = n ∧ ∀ q ∈ r, q.length = c
  | a => DataOk a

/-- A name that a family can hold. -/
def FamilyNameOk (s : List Char) : Prop :=
  s.length ≤ 80 ∧ (∀ c ∈ s, c.toNat < 128 ∧ c ≠ '\x00' ∧ c ≠ '/') ∧
    (∀ c, s.head? = some c → isWs c = false) ∧ (∀ c, s.getLast? = some c → isWs c = false)

end Spec
end Meshio
