/-
What an SVG picture of a mesh shows.
-/
import Verif.Model.Svg
import Verif.Spec.Cxml
namespace Meshio.Spec
open Meshio Meshio.Svg

variable {F : Type}

/-- Characters that mean themselves in XML. -/
def SvgPlain (s : List Char) : Prop := ∀ c ∈ s, c ∉ ['&', '<', '>', '"', '\r', '\n', '\t']

/-- The cells that are drawn: name, number of corners, and whether the last corner is connected with the first one. -/
def svgShapes : List (String × Nat × Bool) := [("line", 2, false), ("triangle", 3, true), ("quad", 4, true)]

/-- A mesh that can be drawn: points in the plane or flat ones, cells with the right number of corners, which exist. -/
structure SvgMesh (a : Arith F) (m : Svg.In F) : Prop where
  okDim : 2 ≤ m.dim
  okPoints : ∀ p ∈ m.points, p.length = m.dim
  okFlat : m.dim = 3 → ∀ p ∈ m.points, ∀ z ∈ p[2]?, a.flat z = true
  okCells : ∀ b ∈ m.blocks, ∀ s ∈ svgShapes, b.1 = s.1 → ∀ c ∈ b.2, c.length = s.2.1 ∧ ∀ i ∈ c, 0 ≤ i ∧ i < m.points.length

/-- The cells that are drawn, in order, and whether they are closed. -/
def drawn (m : Svg.In F) : List (Bool × List Int) :=
  m.blocks.flatMap fun b => (svgShapes.filter fun s => s.1 = b.1).flatMap fun s => b.2.map fun c => (s.2.2, c)

/-- A path through points: `M` for the first one, `L` for the others, `Z` at the end of a closed one. -/
def svgPath (a : Arith F) (f : List Char) (closed : Bool) (ps : List (F × F)) : List Char :=
  (ps.mapIdx fun i p => (if i = 0 then ['M', ' '] else ['L', ' ']) ++ a.fmt f p.1 ++ [' '] ++ a.fmt f p.2).flatten ++ (if closed then ['Z'] else [])

/-- The first two coordinates of each point. -/
def flatPoints (m : Svg.In F) : List (F × F) := m.points.filterMap fun p => match p with | x :: y :: _ => some (x, y) | _ => none

/-- Exact arithmetic. -/
structure ExactArith (a : Arith Rat) : Prop where
  okZero : a.zero = 0
  okAdd : a.add = (· + ·)
  okSub : a.sub = (· - ·)
  okMul : a.mul = (· * ·)
  okDiv : a.div = (· / ·)
  okLe : ∀ x y, a.le x y = decide (x ≤ y)
  okIsZero : ∀ x, a.isZero x = decide (x = 0)

end Meshio.Spec
