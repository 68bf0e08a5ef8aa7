/-
What a UGRID file says, after the description of the format: seven counts, coordinates, triangles, quads, their tags, and
then the cells of the volume; nodes count from one.
-/
import Verif.Model.Ugrid
namespace Meshio.Spec
open Ugrid

variable {α F : Type}

/-- The contents of a file; cells with meshio's node numbers and node order. -/
structure UgridFile (F : Type) where
  points : List (List F)
  triangle : List (List Int)
  quad : List (List Int)
  triangleTags : List Int
  quadTags : List Int
  tetra : List (List Int)
  pyramid : List (List Int)
  wedge : List (List Int)
  hexahedron : List (List Int)

/-- Rows have the right length and numbers can be stored. -/
structure UgridFile.Ok (fits : Int → Prop) (S : UgridFile F) : Prop where
  points : ∀ p ∈ S.points, p.length = 3
  triangle : ∀ r ∈ S.triangle, r.length = 3 ∧ ∀ z ∈ r, fits (z + 1)
  quad : ∀ r ∈ S.quad, r.length = 4 ∧ ∀ z ∈ r, fits (z + 1)
  tetra : ∀ r ∈ S.tetra, r.length = 4 ∧ ∀ z ∈ r, fits (z + 1)
  pyramid : ∀ r ∈ S.pyramid, r.length = 5 ∧ ∀ z ∈ r, fits (z + 1)
  wedge : ∀ r ∈ S.wedge, r.length = 6 ∧ ∀ z ∈ r, fits (z + 1)
  hexahedron : ∀ r ∈ S.hexahedron, r.length = 8 ∧ ∀ z ∈ r, fits (z + 1)
  triangleTags : S.triangleTags.length = S.triangle.length ∧ ∀ z ∈ S.triangleTags, fits z
  quadTags : S.quadTags.length = S.quad.length ∧ ∀ z ∈ S.quadTags, fits z

/-- The seven counts. -/
def UgridFile.counts (S : UgridFile F) : List Int :=
  [S.points.length, S.triangle.length, S.quad.length, S.tetra.length, S.pyramid.length, S.wedge.length, S.hexahedron.length]

/-- Node numbers of a cell in the file. -/
def ugridNodes (r : List Int) : List Int := r.map (· + 1)

/-- A pyramid is stored with its base as 1, 0, 3, 4 and its apex third: meshio's `0 1 2 3 4` becomes `1 0 4 2 3`. -/
def ugridPyramidNodes : List Int → List Int
  | [a, b, c, d, e] => [b + 1, a + 1, e + 1, c + 1, d + 1]
  | r => r

/-- The file.  A Fortran file has record markers `a`, `b`, `c`. -/
def UgridFile.text (S : UgridFile F) (m : Medium α F) (marks : Option (Int × Int × Int)) : List α :=
  (match marks with | some (a, _, _) => m.putInts [[a]] | none => []) ++ m.putInts [S.counts] ++
  (match marks with | some (_, b, c) => m.putInts [[b]] ++ m.putInts [[c]] | none => []) ++ m.putFlts S.points ++
  m.putInts (S.triangle.map ugridNodes) ++ m.putInts (S.quad.map ugridNodes) ++
  m.putInts (S.triangleTags.map fun z => [z]) ++ m.putInts (S.quadTags.map fun z => [z]) ++
  m.putInts (S.tetra.map ugridNodes) ++ m.putInts (S.pyramid.map ugridPyramidNodes) ++
  m.putInts (S.wedge.map ugridNodes) ++ m.putInts (S.hexahedron.map ugridNodes)

/-- The blocks of the mesh: those with cells; cells of the volume have no tags. -/
def UgridFile.blocks (S : UgridFile F) : List Blk :=
  ([⟨"triangle", S.triangle, S.triangleTags⟩, ⟨"quad", S.quad, S.quadTags⟩,
    ⟨"tetra", S.tetra, S.tetra.map fun _ => 0⟩, ⟨"pyramid", S.pyramid, S.pyramid.map fun _ => 0⟩,
    ⟨"wedge", S.wedge, S.wedge.map fun _ => 0⟩, ⟨"hexahedron", S.hexahedron, S.hexahedron.map fun _ => 0⟩] : List Blk).filter
    fun b => decide (b.rows ≠ [])

end Meshio.Spec
