/-
Model of /repo/src/meshio/_common.py.
-/
import Verif.Base.Err
import Verif.Base.Dict
import Verif.Base.Text

namespace Meshio

/-- `num_nodes_per_cell`, /repo/src/meshio/_common.py:10-87 (same order). -/
def numNodesPerCell : Dict Nat :=
  [("vertex", 1), ("line", 2), ("triangle", 3), ("quad", 4), ("quad8", 8), ("tetra", 4),
   ("hexahedron", 8), ("hexahedron20", 20), ("hexahedron24", 24), ("wedge", 6), ("pyramid", 5),
   ("line3", 3), ("triangle6", 6), ("quad9", 9), ("tetra10", 10), ("hexahedron27", 27),
   ("wedge15", 15), ("wedge18", 18), ("pyramid13", 13), ("pyramid14", 14), ("line4", 4),
   ("triangle10", 10), ("quad16", 16), ("tetra20", 20), ("wedge40", 40), ("hexahedron64", 64),
   ("line5", 5), ("triangle15", 15), ("quad25", 25), ("tetra35", 35), ("wedge75", 75),
   ("hexahedron125", 125), ("line6", 6), ("triangle21", 21), ("quad36", 36), ("tetra56", 56),
   ("wedge126", 126), ("hexahedron216", 216), ("line7", 7), ("triangle28", 28), ("quad49", 49),
   ("tetra84", 84), ("wedge196", 196), ("hexahedron343", 343), ("line8", 8),
   ("triangle36", 36), ("quad64", 64), ("tetra120", 120), ("wedge288", 288),
   ("hexahedron512", 512), ("line9", 9), ("triangle45", 45), ("quad81", 81), ("tetra165", 165),
   ("wedge405", 405), ("hexahedron729", 729), ("line10", 10), ("triangle55", 55),
   ("quad100", 100), ("tetra220", 220), ("wedge550", 550), ("hexahedron1000", 1000),
   ("hexahedron1331", 1331), ("line11", 11), ("triangle66", 66), ("quad121", 121),
   ("tetra286", 286)]

/-- A numpy array seen as a list of rows: `tail` is `shape[1:]`, `rows` are the
entries along axis 0.  Modelling choice: an array of shape `(n, k)` has
`tail = [k]` and rows that are lists of length `k`; an array of shape `(n,)` has
`tail = []`. -/
structure NArr (ρ : Type) where
  tail : List Nat
  rows : List ρ
deriving DecidableEq, Repr

namespace NArr
variable {ρ : Type}
/-- `len(a)` = `a.shape[0]` -/
def len (a : NArr ρ) : Nat := a.rows.length
end NArr

/-- `np.concatenate(list)` along axis 0: raises ValueError for an empty list and
for arrays whose shapes differ beyond axis 0.  (dtype promotion is not modelled.) -/
def npConcat {ρ : Type} : List (NArr ρ) → Res (NArr ρ)
  | [] => .error .valueError
  | a :: l =>
    if l.all (fun b => b.tail = a.tail) then .ok ⟨a.tail, a.rows ++ (l.map (·.rows)).flatten⟩
    else .error .valueError

/-- `np.cumsum(list)`: running sums, starting from `s`. -/
def cumsumFrom (s : Nat) : List Nat → List Nat
  | [] => []
  | n :: l => (s + n) :: cumsumFrom (s + n) l

/-- `np.cumsum` -/
def cumsum (l : List Nat) : List Nat := cumsumFrom 0 l

/-- `a[st:end]` on the rows of an array, `0 ≤ st`. -/
def slice {α : Type} (a : List α) (st en : Nat) : List α := (a.take en).drop st

/-- The slices `a[p₀:p₁], a[p₁:p₂], …` between consecutive division points. -/
def slicesBetween {α : Type} (a : List α) : List Nat → List (List α)
  | [] => []
  | [_] => []
  | p :: q :: r => slice a p q :: slicesBetween a (q :: r)

/-- `np.split(a, indices)`: numpy cuts at `[0] + indices + [len(a)]`. -/
def npSplit {α : Type} (a : List α) (idx : List Nat) : List (List α) :=
  slicesBetween a (0 :: idx ++ [a.length])

/-- `cell_data_from_raw` for one data array, /repo/src/meshio/_common.py:90-92.
`lens` is `[len(c) for c in cells]`. -/
def cellDataFromRaw {α : Type} (lens : List Nat) (raw : List α) : List (List α) :=
  npSplit raw (cumsum lens).dropLast

/-- `raw_from_cell_data` for one data array, /repo/src/meshio/_common.py:95-96. -/
def rawFromCellData {ρ : Type} (blocks : List (NArr ρ)) : Res (NArr ρ) := npConcat blocks

/-- `_pick_first_int_data`, /repo/src/meshio/_common.py:104-122.  The argument
lists the keys with a flag "the first entry has an integer dtype". -/
def pickFirstIntData (data : Dict Bool) : Option String × List String :=
  let keys := data.keys
  match data.find? (fun kv => kv.2) with
  | some (key, _) =>
    let idx := keys.idxOf key
    (some key, keys.take idx ++ keys.drop (idx + 1))
  | none => (none, [])

/-- `c in s` for a one-character string `c`. -/
def charIn (c : Char) (s : String) : Bool := s.toList.contains c

/-- `is_in_any`, /repo/src/meshio/_common.py:141-146 (for one-character strings,
the only use in the code). -/
def isInAny (c : Char) : List String → Bool
  | [] => false
  | s :: l => if charIn c s then true else isInAny c l

/-- The loop `for c in possible: if ok(c): char = c; break`. -/
def firstChar (ok : Char → Bool) : List Char → Option Char
  | [] => none
  | c :: l => if ok c then some c else firstChar ok l

/-- `join_strings`, /repo/src/meshio/_common.py:149-158. -/
def joinStrings (strings : List String) : Res (String × Char) :=
  match firstChar (fun c => !isInAny c strings) ['-', '_', '#', '+', '/'] with
  | none => .error .assertionError
  | some c => .ok (pyJoin c strings, c)

/-- `s.replace(a, b)` for one-character strings. -/
def replaceChar (a b : Char) (s : String) : String :=
  String.ofList (s.toList.map (fun x => if x = a then b else x))

/-- `replace_space`, /repo/src/meshio/_common.py:161-169. -/
def replaceSpace (s : String) : Res (String × Char) :=
  match firstChar (fun c => !charIn c s) ['_', '-', '+', 'X', '/', '#'] with
  | none => .error .assertionError
  | some c => .ok (replaceChar ' ' c s, c)

end Meshio
