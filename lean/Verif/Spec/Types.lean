/-
Specifications for type tables and node orders: shapes, element counts, and the
reference elements of Gmsh, VTK, Nastran and UGRID as their manuals number them.
-/
namespace Meshio.Spec

/-- Cell shapes. -/
inductive Shape where
  | vertex | line | triangle | quad | tetra | hexahedron | wedge | pyramid
deriving DecidableEq, Repr

/-- Topological dimension of a shape. -/
def Shape.dim : Shape → Nat
  | .vertex => 0
  | .line => 1
  | .triangle | .quad => 2
  | _ => 3

/-- Number of nodes of the complete (Lagrange) element of order `p`. -/
def lagrange (s : Shape) (p : Nat) : Nat :=
  match s with
  | .vertex => 1
  | .line => p + 1
  | .triangle => (p + 1) * (p + 2) / 2
  | .quad => (p + 1) ^ 2
  | .tetra => (p + 1) * (p + 2) * (p + 3) / 6
  | .hexahedron => (p + 1) ^ 3
  | .wedge => (p + 1) * ((p + 1) * (p + 2) / 2)
  | .pyramid => (p + 1) * (p + 2) * (2 * p + 3) / 6

/-- Corners and edges of a shape: the second order serendipity element has one node
on each. -/
def serendipity2 : Shape → Nat
  | .vertex => 1
  | .line => 2 + 1
  | .triangle => 3 + 3
  | .quad => 4 + 4
  | .tetra => 4 + 6
  | .hexahedron => 8 + 12
  | .wedge => 6 + 9
  | .pyramid => 5 + 8

/-- The 24-node hexahedron of VTK: corners, edges and the four lateral faces. -/
def biquadraticHex : Nat := 8 + 12 + 4

/-- Names of the shapes as they appear in cell type names. -/
def Shape.name : Shape → String
  | .vertex => "vertex" | .line => "line" | .triangle => "triangle" | .quad => "quad"
  | .tetra => "tetra" | .hexahedron => "hexahedron" | .wedge => "wedge" | .pyramid => "pyramid"

def allShapes : List Shape :=
  [.vertex, .line, .triangle, .quad, .tetra, .hexahedron, .wedge, .pyramid]

/-- A cell type name `t` denotes an `n`-node element of shape `s`: the plain shape name
stands for the first order element; otherwise the name is the shape name followed by
the number of nodes. -/
def Names (t : String) (s : Shape) (n : Nat) : Prop :=
  (t = s.name ∧ n = lagrange s 1) ∨ t = s.name ++ toString n

instance (t : String) (s : Shape) (n : Nat) : Decidable (Names t s n) := by
  unfold Names; exact inferInstance

/-- `n` is a legal node count for shape `s`: a Lagrange element of some order, a second
order serendipity element, or the biquadratic hexahedron. -/
def LegalCount (s : Shape) (n : Nat) : Prop :=
  (∃ p, 1 ≤ p ∧ n = lagrange s p) ∨ n = serendipity2 s ∨
    (s = .hexahedron ∧ n = biquadraticHex)

/-- Every type for which the writer has a code is recovered by the reader from that code. -/
def RoundTrips {κ : Type} (toCode : String → Option κ) (fromCode : κ → Option String) : Prop :=
  ∀ t c, toCode t = some c → fromCode c = some t

/-- Element types of the Gmsh manual ("MSH file format", `elm-type`) and of Gmsh's list
of element types: number, shape, number of nodes. -/
def gmshManual : List (Nat × Shape × Nat) :=
  [(1, .line, 2), (2, .triangle, 3), (3, .quad, 4), (4, .tetra, 4), (5, .hexahedron, 8),
   (6, .wedge, 6), (7, .pyramid, 5), (8, .line, 3), (9, .triangle, 6), (10, .quad, 9),
   (11, .tetra, 10), (12, .hexahedron, 27), (13, .wedge, 18), (14, .pyramid, 14),
   (15, .vertex, 1), (16, .quad, 8), (17, .hexahedron, 20), (18, .wedge, 15), (19, .pyramid, 13),
   (21, .triangle, 10), (23, .triangle, 15), (25, .triangle, 21), (26, .line, 4), (27, .line, 5),
   (28, .line, 6), (29, .tetra, 20), (30, .tetra, 35), (31, .tetra, 56), (36, .quad, 16),
   (37, .quad, 25), (38, .quad, 36), (42, .triangle, 28), (43, .triangle, 36), (44, .triangle, 45),
   (45, .triangle, 55), (46, .triangle, 66), (47, .quad, 49), (48, .quad, 64), (49, .quad, 81),
   (50, .quad, 100), (51, .quad, 121), (62, .line, 7), (63, .line, 8), (64, .line, 9),
   (65, .line, 10), (66, .line, 11), (71, .tetra, 84), (72, .tetra, 120), (73, .tetra, 165),
   (74, .tetra, 220), (75, .tetra, 286), (90, .wedge, 40), (91, .wedge, 75),
   (92, .hexahedron, 64), (93, .hexahedron, 125), (94, .hexahedron, 216), (95, .hexahedron, 343),
   (96, .hexahedron, 512), (97, .hexahedron, 729), (98, .hexahedron, 1000), (106, .wedge, 126),
   (107, .wedge, 196), (108, .wedge, 288), (109, .wedge, 405), (110, .wedge, 550)]

/-- Fixed-size cells of VTK (vtkCellType.h) that are one of the shapes above. -/
def vtkManual : List (Nat × Shape × Nat) :=
  [(1, .vertex, 1), (3, .line, 2), (5, .triangle, 3), (9, .quad, 4), (10, .tetra, 4),
   (12, .hexahedron, 8), (13, .wedge, 6), (14, .pyramid, 5), (21, .line, 3), (22, .triangle, 6),
   (23, .quad, 8), (24, .tetra, 10), (25, .hexahedron, 20), (26, .wedge, 15), (27, .pyramid, 13),
   (28, .quad, 9), (29, .hexahedron, 27), (30, .quad, 6), (31, .wedge, 12), (32, .wedge, 18),
   (33, .hexahedron, 24), (34, .triangle, 7), (35, .line, 4)]

/-- A node of a reference element, described by the (sorted) corners of the entity it
sits on: `[i]` a corner, `[i,j]` the middle of an edge, four corners the middle of a
face, eight the centre. -/
abbrev Site := List Nat

/-- Gmsh manual, "Node ordering": second order elements. -/
def gmshSites : List (String × List Site) :=
  [("tetra10", [[0], [1], [2], [3], [0,1], [1,2], [0,2], [0,3], [2,3], [1,3]]),
   ("hexahedron20", [[0], [1], [2], [3], [4], [5], [6], [7],
      [0,1], [0,3], [0,4], [1,2], [1,5], [2,3], [2,6], [3,7], [4,5], [4,7], [5,6], [6,7]]),
   ("hexahedron27", [[0], [1], [2], [3], [4], [5], [6], [7],
      [0,1], [0,3], [0,4], [1,2], [1,5], [2,3], [2,6], [3,7], [4,5], [4,7], [5,6], [6,7],
      [0,1,2,3], [0,1,4,5], [0,3,4,7], [1,2,5,6], [2,3,6,7], [4,5,6,7], [0,1,2,3,4,5,6,7]]),
   ("wedge15", [[0], [1], [2], [3], [4], [5],
      [0,1], [0,2], [0,3], [1,2], [1,4], [2,5], [3,4], [3,5], [4,5]]),
   ("pyramid13", [[0], [1], [2], [3], [4],
      [0,1], [0,3], [0,4], [1,2], [1,4], [2,3], [2,4], [3,4]])]

/-- VTK documentation (vtkQuadraticTetra, vtkQuadraticHexahedron,
vtkTriQuadraticHexahedron, vtkQuadraticWedge, vtkQuadraticPyramid), which is also
meshio's own order. -/
def vtkSites : List (String × List Site) :=
  [("tetra10", [[0], [1], [2], [3], [0,1], [1,2], [0,2], [0,3], [1,3], [2,3]]),
   ("hexahedron20", [[0], [1], [2], [3], [4], [5], [6], [7],
      [0,1], [1,2], [2,3], [0,3], [4,5], [5,6], [6,7], [4,7], [0,4], [1,5], [2,6], [3,7]]),
   ("hexahedron27", [[0], [1], [2], [3], [4], [5], [6], [7],
      [0,1], [1,2], [2,3], [0,3], [4,5], [5,6], [6,7], [4,7], [0,4], [1,5], [2,6], [3,7],
      [0,3,4,7], [1,2,5,6], [0,1,4,5], [2,3,6,7], [0,1,2,3], [4,5,6,7], [0,1,2,3,4,5,6,7]]),
   ("wedge15", [[0], [1], [2], [3], [4], [5],
      [0,1], [1,2], [0,2], [3,4], [4,5], [3,5], [0,3], [1,4], [2,5]]),
   ("pyramid13", [[0], [1], [2], [3], [4],
      [0,1], [1,2], [2,3], [0,3], [0,4], [1,4], [2,4], [3,4]]),
   ("triangle6", [[0], [1], [2], [0,1], [1,2], [0,2]])]

/-- MSC/NX Nastran manual: CHEXA with 20 and CPENTA with 15 nodes number the vertical
edges before the top ones; CTRIAX6 goes around the triangle. -/
def nastranSites : List (String × String × List Site) :=
  [("CHEXA_", "hexahedron20", [[0], [1], [2], [3], [4], [5], [6], [7],
      [0,1], [1,2], [2,3], [0,3], [0,4], [1,5], [2,6], [3,7], [4,5], [5,6], [6,7], [4,7]]),
   ("CPENTA_", "wedge15", [[0], [1], [2], [3], [4], [5],
      [0,1], [1,2], [0,2], [0,3], [1,4], [2,5], [3,4], [4,5], [3,5]]),
   ("CTRIAX6", "triangle6", [[0], [0,1], [1], [1,2], [2], [0,2]])]

end Meshio.Spec
