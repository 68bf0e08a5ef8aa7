/-
How a legacy VTK file can begin: the header, the kind of data set and some sections that are in order; then comes anything.
-/
import Verif.Spec.VtkFile
namespace Meshio.Spec
open VtkFile

variable {V : Type}

/-- Sections one after the other, then `rest`. -/
def vtkBegins (io : VtkIO V) (has : String → V → Prop) (v : Ver) (ascii : Bool) (t : String) :
    VtkCtx → List (VtkSec V) → List Char → List Char → Prop
  | _, [], s, rest => s = rest
  | c, x :: l, s, rest => ∃ s', x.Ok ascii t c ∧ x.Says io has v ascii c.num s s' ∧ vtkBegins io has v ascii t (x.next c) l s' rest

/-- A file with a header, the kind `t` of the data set (one of the four kinds), the sections `l`, and then `rest`. -/
def vtkFileBegins (io : VtkIO V) (has : String → V → Prop) (v : Ver) (ascii : Bool) (t : String) (l : List (VtkSec V)) (s rest : List Char) : Prop :=
  ∃ version title fmt e s1 s2, IsTok version ∧ (version = "5.1".toList ↔ v = .v51) ∧ '\n' ∉ title ∧
    '\n' ∉ fmt ∧ upper (strip fmt) = (if ascii then "ASCII" else "BINARY").toList ∧
    s = linesText ["# vtk DataFile Version ".toList ++ version, title, fmt] ++ s1 ∧
    (∃ w, upper w = t.toList ∧ VtkHead "DATASET" (w :: e) s1 s2) ∧
    t ∈ ["UNSTRUCTURED_GRID", "STRUCTURED_POINTS", "STRUCTURED_GRID", "RECTILINEAR_GRID"] ∧ vtkBegins io has v ascii t {} l s2 rest

/-- The number of points or cells that the next section is about, as far as the sections say. -/
def vtkCount (l : List (VtkSec V)) : Option Nat := (l.foldl VtkSec.next {}).num

/-- Bytes of numbers of a type, not followed by the end of a line. -/
def VtkOpen (io : VtkIO V) (d : String) (xs : List V) (s : List Char) : Prop :=
  ∃ rest, s = xs.flatMap (io.enc d) ++ rest ∧ rest.head? ≠ some '\n'

end Meshio.Spec
