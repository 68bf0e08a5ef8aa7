/-
When a document can be written without escaping anything, and what it says.
-/
import Verif.Model.Cxml
namespace Meshio.Spec
open Meshio.Cxml

/-- A name of an element or of an attribute. -/
def XmlName (n : String) : Prop :=
  (∃ c ∈ n.toList.head?, c.isAlpha = true ∨ c = '_' ∨ c = ':') ∧
    ∀ c ∈ n.toList, c.isAlphanum = true ∨ c = '_' ∨ c = ':' ∨ c = '.' ∨ c = '-'

/-- A value that means itself between double quotes. -/
def PlainValue (v : String) : Prop := ∀ c ∈ v.toList, c ≠ '"' ∧ c ≠ '<' ∧ c ≠ '&' ∧ c ≠ '\n' ∧ c ≠ '\t' ∧ c ≠ '\r'

/-- Text that means itself. -/
def PlainText (t : List Char) : Prop := ∀ c ∈ t, c ≠ '<' ∧ c ≠ '&'

/-- The text of a comment: XML allows no `--` in it. -/
def PlainComment (t : List Char) : Prop := ¬ ['-', '-'] <:+: t ++ ['-']

/-- A document all of whose names, values, texts and comments mean themselves. -/
def PlainDoc : Out → Prop
  | .nil => True
  | .comment t r => PlainComment t ∧ PlainDoc r
  | .elem n as x ch r =>
    XmlName n ∧ (∀ a ∈ as, XmlName a.1 ∧ PlainValue a.2) ∧ (as.map (·.1)).Nodup ∧ (∀ t ∈ x, PlainText t) ∧ PlainDoc ch ∧ PlainDoc r

/-- A document with proper names; values, texts and comments are arbitrary. -/
def WellNamed : Out → Prop
  | .nil => True
  | .comment _ r => WellNamed r
  | .elem n as _ ch r => XmlName n ∧ (∀ a ∈ as, XmlName a.1) ∧ (as.map (·.1)).Nodup ∧ WellNamed ch ∧ WellNamed r

/-- The line ends of the comments before the first element. -/
def commentLines : Out → List Char
  | .comment _ r => '\n' :: commentLines r
  | _ => []

/-- A text on a line of its own. -/
def ownLine (x : Option (List Char)) : List Char := (x.map (· ++ ['\n'])).getD []

/-- The elements, without the comments.  The text of an element is the given one on lines of its own. -/
def saidTree : Out → Xml
  | .nil => .nil
  | .comment _ r => saidTree r
  | .elem n as x ch r =>
    .cons n as ('\n' :: (ownLine x ++ commentLines ch)) (saidTree ch) (saidTree r)

end Meshio.Spec
