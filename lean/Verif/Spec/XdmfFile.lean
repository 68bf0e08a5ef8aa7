/-
XDMF documents: what a name, a number and a document must look like.
-/
import Verif.Base.Num
import Verif.Base.Xml
namespace Meshio.Spec

/-- A name that XML keeps in an attribute: without line ends and tabs. -/
def XdmfNameText (s : List Char) : Prop := ∀ c ∈ s, c ≠ '\n' ∧ c ≠ '\t' ∧ c ≠ '\r'

instance (s : List Char) : Decidable (XdmfNameText s) := by unfold XdmfNameText; exact inferInstance

/-- The major number of a version: what stands before the first dot. -/
def XdmfMajor (v : String) (k : Char) : Prop := v.toList = [k] ∨ ∃ r, v.toList = k :: '.' :: r

/-- One child of a grid. -/
structure XdmfGridChild (c : XmlElem) : Prop where
  tag : c.tag ∈ ["Topology", "Geometry", "Information", "Attribute"]
  item : c.tag ≠ "Information" → ∃ x, c.kids = [x] ∧ (c.attr? "TopologyType" ≠ some "Mixed" → x.attr? "Reference" = none)
  named : c.tag = "Attribute" → ∃ n, c.attr? "Name" = some n
  center : c.tag = "Attribute" → ∃ ce ∈ ["Node", "Cell", "Grid"], c.attr? "Center" = some ce

/-- A document with one grid of known elements, one of them the geometry. -/
structure XdmfDocument (root : XmlElem) : Prop where
  tag : root.tag = "Xdmf"
  version : ∃ v, root.attr? "Version" = some v ∧ (XdmfMajor v '2' ∨ XdmfMajor v '3')
  grid : ∃ domain grid, root.kids = [domain] ∧ domain.tag = "Domain" ∧ domain.kids = [grid] ∧ grid.tag = "Grid" ∧
    (∀ c ∈ grid.kids, XdmfGridChild c) ∧ ∃ c ∈ grid.kids, c.tag = "Geometry"

/-- An element that both versions describe alike: not a Mixed topology, three coordinates, data of points or cells, and the names of the
attributes that version 2 uses. -/
structure XdmfBoth (c : XmlElem) : Prop where
  topology : c.tag = "Topology" → c.attr? "Type" = none ∧ ∃ ty, c.attr? "TopologyType" = some ty ∧ ty ≠ "Mixed"
  geometry : c.tag = "Geometry" → c.attr? "Type" = none ∧ c.attr? "GeometryType" = some "XYZ"
  data : c.tag = "Attribute" → (∃ n, c.attr? "Name" = some n) ∧ ∃ ce, c.attr? "Center" = some ce ∧ ce ≠ "Grid"

/-- The number type of a data item: that of `DataType` or of `NumberType`, of which only one may be there; Float by default. -/
def XdmfType (e : XmlElem) (ty : String) : Prop :=
  (e.attr? "DataType" = some ty ∧ e.attr? "NumberType" = none) ∨ (e.attr? "NumberType" = some ty ∧ e.attr? "DataType" = none) ∨
    (ty = "Float" ∧ e.attr? "DataType" = none ∧ e.attr? "NumberType" = none)

/-- Exactly one of two attributes is there, with this value. -/
def XdmfOneOf (c : XmlElem) (k k' v : String) : Prop :=
  (c.attr? k = some v ∧ c.attr? k' = none) ∨ (c.attr? k = none ∧ c.attr? k' = some v)

/-- A child of a grid of version 3. -/
structure XdmfChild3 (c : XmlElem) : Prop where
  topology : c.tag = "Topology" → ∃ ty, XdmfOneOf c "Type" "TopologyType" ty
  geometry : c.tag = "Geometry" → XdmfOneOf c "Type" "GeometryType" "XY" ∨ XdmfOneOf c "Type" "GeometryType" "XYZ"
  center : c.tag = "Attribute" → c.attr? "Center" = some "Node" ∨ c.attr? "Center" = some "Cell"

/-- A child of a grid of version 2. -/
structure XdmfChild2 (c : XmlElem) : Prop where
  topology : c.tag = "Topology" → ∃ ty, c.attr? "TopologyType" = some ty
  geometry : c.tag = "Geometry" → c.attr? "GeometryType" = none ∨ c.attr? "GeometryType" = some "XYZ"
  center : c.tag = "Attribute" → ∃ ce ∈ ["Node", "Cell", "Grid"], c.attr? "Center" = some ce

end Meshio.Spec
