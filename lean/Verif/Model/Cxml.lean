/-
The XML writer /repo/src/meshio/_cxml/etree.py.
-/
import Verif.Base.Xml
namespace Meshio
namespace Cxml

/-- Elements and comments to be written, one after the other: `Element` and `SubElement`
(/repo/src/meshio/_cxml/etree.py:10-23, 38-41) with what `text_writer` writes (the attribute `text` is not used), and `Comment` (44-46). -/
inductive Out where
  | nil
  | comment (text : List Char) (rest : Out)
  | elem (name : String) (attrs : List (String × String)) (text : Option (List Char)) (children rest : Out)
deriving DecidableEq, Repr

/-- One attribute, /repo/src/meshio/_cxml/etree.py:25. -/
def attr (a : String × String) : List Char := a.1.toList ++ ('=' :: '"' :: (a.2.toList ++ ['"']))

/-- The start tag, /repo/src/meshio/_cxml/etree.py:25-26. -/
def openTag (name : String) (attrs : List (String × String)) : List Char :=
  '<' :: (joinWith ' ' (name.toList :: attrs.map attr) ++ ['>', '\n'])

/-- What `text_writer` writes, /repo/src/meshio/_cxml/etree.py:30-32. -/
def textOut : Option (List Char) → List Char
  | none => []
  | some x => x ++ ['\n']

/-- `Element.write` and `Comment.write`, /repo/src/meshio/_cxml/etree.py:24-36, 48-49. -/
def Out.write : Out → List Char
  | .nil => []
  | .comment t r => "<!--".toList ++ (t ++ ("-->\n".toList ++ r.write))
  | .elem n as x ch r =>
    openTag n as ++ (textOut x ++ (ch.write ++ ('<' :: '/' :: (n.toList ++ ('>' :: '\n' :: r.write)))))

/-- `ElementTree.write`, /repo/src/meshio/_cxml/etree.py:52-60. -/
def document (o : Out) : List Char := "<?xml version=\"1.0\"?>\n".toList ++ o.write

end Cxml
end Meshio
