/-
Maximal runs of neighbouring equal entries.
-/
namespace Meshio.Spec

/-- Maximal runs of neighbouring entries with the same key. -/
def runsBy {α κ : Type} [DecidableEq κ] (k : α → κ) : List α → List (List α)
  | [] => []
  | a :: l =>
    match runsBy k l with
    | (b :: r) :: rest => if k a = k b then (a :: b :: r) :: rest else [a] :: (b :: r) :: rest
    | other => [a] :: other

/-- Blocks of a list of typed rows: neighbouring rows of equal key share a block. -/
def groupRuns {κ α : Type} [DecidableEq κ] (l : List (κ × α)) : List (κ × List α) :=
  (runsBy (·.1) l).filterMap (fun r => r.head?.map (fun x => (x.1, r.map (·.2))))

/-- The typed rows of a list of blocks. -/
def rowsOf {κ α : Type} (bs : List (κ × List α)) : List (κ × α) :=
  bs.flatMap (fun b => b.2.map (fun r => (b.1, r)))

end Meshio.Spec
