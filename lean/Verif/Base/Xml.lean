/-
XML documents as Python's `xml.etree.ElementTree` reads them (standard library): elements with attributes, the text before the first
child, and children.  Text after an element (`tail`) is dropped, as nothing in /repo uses it; after the root element it should be blank.

Simplifications: names consist of ASCII letters, digits and `_ : . -`; there are no document types, processing instructions (other than the
declaration), CDATA sections or numeric entities; characters that XML forbids and line ends other than `\n` are not treated.
-/
import Verif.Base.File
namespace Meshio

/-- A sequence of elements: tag, attributes, text, children; and the elements after it. -/
inductive Xml where
  | nil
  | cons (tag : String) (attrs : List (String × String)) (text : List Char) (children rest : Xml)
deriving DecidableEq, Repr

/-- An element. -/
structure XmlElem where
  tag : String
  attrs : List (String × String)
  text : List Char
  children : Xml
deriving DecidableEq, Repr

/-- The elements of a sequence. -/
def Xml.elems : Xml → List XmlElem
  | .nil => []
  | .cons t a x c r => ⟨t, a, x, c⟩ :: r.elems

/-- The elements inside an element. -/
def XmlElem.kids (e : XmlElem) : List XmlElem := e.children.elems

/-- `e.attrib.get(k)` -/
def XmlElem.attr? (e : XmlElem) (k : String) : Option String := (e.attrs.find? fun a => a.1 == k).map (·.2)

namespace XmlParse

def nameStart (c : Char) : Bool := c.isAlpha || c == '_' || c == ':'

def nameChar (c : Char) : Bool := c.isAlphanum || c == '_' || c == ':' || c == '.' || c == '-'

/-- A name and what follows. -/
def name (s : List Char) : Option (List Char × List Char) :=
  match s with
  | [] => none
  | c :: _ => if nameStart c then some (s.takeWhile nameChar, s.dropWhile nameChar) else none

def isSpace (c : Char) : Bool := c == ' ' || c == '\t' || c == '\n' || c == '\r'

/-- The five entities. -/
def entities : List (List Char × Char) :=
  [("lt;".toList, '<'), ("gt;".toList, '>'), ("amp;".toList, '&'), ("quot;".toList, '"'), ("apos;".toList, '\'')]

/-- Entities replaced; `none` if there is another one.  (`n` bounds the number of characters.) -/
def unescapeF : Nat → List Char → Option (List Char)
  | _, [] => some []
  | 0, _ :: _ => none
  | n + 1, c :: s =>
    if c = '&' then
      match entities.find? fun e => e.1.isPrefixOf s with
      | none => none
      | some e => (unescapeF n (s.drop e.1.length)).map (e.2 :: ·)
    else (unescapeF n s).map (c :: ·)

def unescape (s : List Char) : Option (List Char) := unescapeF s.length s

/-- The value of an attribute after `=`: quoted, without `<`; white space becomes blanks. -/
def value (s : List Char) : Option (List Char × List Char) :=
  match s with
  | [] => none
  | q :: s =>
    if q = '"' ∨ q = '\'' then
      match s.dropWhile (· ≠ q) with
      | [] => none
      | _ :: r =>
        if '<' ∈ s.takeWhile (· ≠ q) then none
        else (unescape ((s.takeWhile (· ≠ q)).map fun c => if isSpace c then ' ' else c)).map fun v => (v, r)
    else none

/-- The attributes and the end of a tag; the flag says that the element is empty (`/>`). -/
def attrs : Nat → List Char → Option (List (String × String) × Bool × List Char)
  | 0, _ => none
  | n + 1, s =>
    match s.dropWhile isSpace with
    | '>' :: r => some ([], false, r)
    | '/' :: '>' :: r => some ([], true, r)
    | t =>
      if (s.head?).all fun c => !isSpace c then none
      else
        match name t with
        | none => none
        | some (k, r) =>
          match r.dropWhile isSpace with
          | '=' :: r =>
            match value (r.dropWhile isSpace) with
            | none => none
            | some (v, r) =>
              match attrs n r with
              | none => none
              | some (as, e, r) => if as.any (fun a => a.1 == String.ofList k) then none else some ((String.ofList k, String.ofList v) :: as, e, r)
          | _ => none

/-- What follows the first `-->`. -/
def afterComment : List Char → Option (List Char)
  | [] => none
  | c :: s => if "-->".toList.isPrefixOf (c :: s) then some (s.drop 2) else afterComment s

/-- The rest of an end tag after `</`. -/
def endTag (tag : List Char) (s : List Char) : Option (List Char) :=
  match name s with
  | none => none
  | some (k, r) =>
    if k = tag then
      match r.dropWhile isSpace with
      | [] => none
      | c :: r => if c = '>' then some r else none
    else none

/-- Text and elements up to an end tag or the end: the text before the first element, the elements, and what follows. -/
def nodes : Nat → List Char → Option (List Char × Xml × List Char)
  | 0, _ => none
  | n + 1, s =>
    match unescape (s.takeWhile (· ≠ '<')) with
    | none => none
    | some t =>
      match s.dropWhile (· ≠ '<') with
      | [] => some (t, .nil, [])
      | _ :: r =>
        if ['/'].isPrefixOf r then some (t, .nil, '<' :: r)
        else if "!--".toList.isPrefixOf r then
          match afterComment (r.drop 3) with
          | none => none
          | some r => (nodes n r).map fun x => (t ++ x.1, x.2.1, x.2.2)
        else
          match name r with
          | none => none
          | some (k, r) =>
            match attrs (r.length + 1) r with
            | none => none
            | some (as, true, r) => (nodes n r).map fun x => (t, .cons (String.ofList k) as [] .nil x.2.1, x.2.2)
            | some (as, false, r) =>
              match nodes n r with
              | none => none
              | some (x, ch, r) =>
                match (if ['<', '/'].isPrefixOf r then endTag k (r.drop 2) else none) with
                | none => none
                | some r => (nodes n r).map fun y => (t, .cons (String.ofList k) as x ch y.2.1, y.2.2)

/-- What follows the first `?>`. -/
def afterDecl : List Char → Option (List Char)
  | [] => none
  | c :: s => if "?>".toList.isPrefixOf (c :: s) then some (s.drop 1) else afterDecl s

end XmlParse

/-- `ET.parse(filename).getroot()`; `none` is a ParseError. -/
def parseXml (s : List Char) : Option XmlElem :=
  match (if "<?xml".toList.isPrefixOf s then XmlParse.afterDecl s else some s) with
  | none => none
  | some s =>
    match XmlParse.nodes (s.length + 1) s with
    | some (t, .cons tag as x ch .nil, []) => if t.all isWs then some ⟨tag, as, x, ch⟩ else none
    | _ => none

end Meshio
