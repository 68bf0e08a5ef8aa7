/-
Specification of structured grids.
-/
namespace Meshio.Spec

/-- The cells over the axes of a grid.  An axis is (number of points, distance between
the numbers of two neighbouring points along it).  The first axis runs fastest. -/
def gridCells : List (Nat × Nat) → List (List Nat)
  | [(d, s)] => (List.range (d - 1)).map (fun i => [i * s, i * s + s])
  | [(d, s), (d', s')] =>
    (List.range (d' - 1)).flatMap (fun j => (List.range (d - 1)).map (fun i =>
      let b := i * s + j * s'
      [b, b + s, b + s + s', b + s']))
  | [(d, s), (d', s'), (d'', s'')] =>
    (List.range (d'' - 1)).flatMap (fun k => (List.range (d' - 1)).flatMap (fun j =>
      (List.range (d - 1)).map (fun i =>
        let b := i * s + j * s' + k * s''
        [b, b + s, b + s + s', b + s', b + s'', b + s + s'', b + s + s' + s'', b + s' + s''])))
  | _ => []

/-- The axes with at least two points of a grid of `x*y*z` points numbered with `x`
fastest. -/
def gridAxes (x y z : Nat) : List (Nat × Nat) :=
  [(x, 1), (y, x), (z, x * y)].filter (fun a => decide (a.1 > 1))

/-- VTK code of the cells of a grid with so many axes: line, quad, hexahedron. -/
def gridCode : Nat → Nat
  | 1 => 3
  | 2 => 9
  | _ => 12

/-- The points of a grid: x fastest. -/
def gridPoints {F : Type} (ax ay az : List F) : List (List F) :=
  az.flatMap (fun c => ay.flatMap (fun b => ax.map (fun a => [a, b, c])))

end Meshio.Spec
