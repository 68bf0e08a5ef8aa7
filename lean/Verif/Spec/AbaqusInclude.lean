/-
Abaqus files that include other files, and sets that name other sets.
-/
import Verif.Spec.Abaqus
namespace Meshio.Spec
open Meshio Abaqus

variable {F : Type}

/-- The sets of cells that have their own section: for each block the positions of the members. -/
def AbaqusFile.ownSets (f : AbaqusFile F) : List (String × List (List Nat)) :=
  f.elsets.map fun s => (s.1, f.parts.map fun p => s.2.filterMap fun k => (p.2.2.map (·.1)).idxOf? k)

/-- The sets that the cells name, in a mesh of `n` blocks: the whole block, nothing of the others. -/
def AbaqusFile.blockSets (f : AbaqusFile F) (n : Nat) : List (String × List Entry) :=
  f.parts.zipIdx.filterMap fun p => p.1.2.1.map fun name =>
    (name, (List.range n).map fun j => .ids (if p.2 = j then List.range p.1.2.2.length else []))

/-- What a file says that includes another one: the points of the other file follow, its cells and sets of points are shifted,
its sets of cells are left out. -/
def AbaqusFile.including (f : AbaqusFile F) (o : Out F) : Out F where
  points := f.mesh.points ++ o.points
  cells := f.mesh.cells ++ o.cells.map fun b => (b.1, b.2.map fun r => r.map fun i => i + f.mesh.points.length)
  pointSets := f.mesh.pointSets ++ o.pointSets.map fun s => (s.1, s.2.map fun i => i + f.mesh.points.length)
  cellSets := f.ownSets.map (fun s => (s.1, s.2.map .ids)) ++ f.blockSets (f.parts.length + o.cells.length)

/-- A line with the name of a set; whatever follows a comma is not read. -/
def IsSetName (l : List Char × String) : Prop :=
  IsData l.1 ∧ ∃ ws k, strip l.1 = joinWith ',' (l.2.toList :: ws) ++ List.replicate k ',' ∧ (∀ u ∈ l.2.toList :: ws, ',' ∉ u ∧ u ≠ []) ∧
    l.2.toList.all Char.isDigit = false

/-- What the name of a set stands for: the lists of its own section, or the cells that name it. -/
def AbaqusFile.named (f : AbaqusFile F) (name : String) (e : Entry) : Prop :=
  (∃ l, (name, l) ∈ f.ownSets ∧ e = .list l) ∨ (∃ t rows, (t, some name, rows) ∈ f.parts ∧ e = .ids (List.range rows.length))

end Meshio.Spec
