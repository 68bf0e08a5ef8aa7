/-
Documents of XDMF time series.
-/
import Verif.Spec.XdmfFile
namespace Meshio.Spec

/-- A document of version 3 with a temporal collection, and the grids the reader uses: the steps are the children of the last collection
of the domain; the mesh is the last uniform grid of the domain, or the first uniform step if there is none. -/
structure XdmfSeriesDocument (root : XmlElem) (steps : List XmlElem) (mesh : XmlElem) : Prop where
  tag : root.tag = "Xdmf"
  version : ∃ v, root.attr? "Version" = some v ∧ XdmfMajor v '3'
  domain : ∃ domain pre coll post, root.kids = [domain] ∧ domain.tag = "Domain" ∧ domain.kids = pre ++ coll :: post ∧
    coll.tag = "Grid" ∧ coll.attr? "GridType" = some "Collection" ∧ coll.attr? "CollectionType" = some "Temporal" ∧
    (∀ g ∈ post, g.attr? "GridType" ≠ some "Collection") ∧ steps = coll.kids ∧
    mesh.tag = "Grid" ∧ mesh.attr? "GridType" = some "Uniform" ∧
    ((∃ before after, domain.kids = before ++ mesh :: after ∧ ∀ g ∈ after, g.attr? "GridType" ≠ some "Uniform") ∨
     ((∀ g ∈ domain.kids, g.attr? "GridType" ≠ some "Uniform") ∧
       ∃ before after, steps = before ++ mesh :: after ∧ ∀ g ∈ before, g.attr? "GridType" ≠ some "Uniform"))

/-- A child of the grid with the mesh. -/
structure XdmfSeriesMeshChild (c : XmlElem) : Prop where
  item : c.tag = "Topology" ∨ c.tag = "Geometry" → ∃ x, c.kids = [x]
  geometry : c.tag = "Geometry" → ∀ ty, c.attr? "GeometryType" = some ty → ty = "XY" ∨ ty = "XYZ"
  topology : c.tag = "Topology" → (c.attr? "Type" = none ∧ ∃ ty, c.attr? "TopologyType" = some ty) ∨
    (c.attr? "TopologyType" = none ∧ ∃ ty, c.attr? "Type" = some ty)

/-- A child of a step. -/
structure XdmfSeriesStepChild (c : XmlElem) : Prop where
  time : c.tag = "Time" → ∃ v, c.attr? "Value" = some v
  item : c.tag = "Attribute" → ∃ x, c.kids = [x]
  named : c.tag = "Attribute" → ∃ n, c.attr? "Name" = some n
  center : c.tag = "Attribute" → c.attr? "Center" = some "Node" ∨ c.attr? "Center" = some "Cell"

/-- An attribute that says something. -/
def XdmfSays (e : XmlElem) (k v : String) : Prop := e.attr? k = some v ∧ v ≠ ""

/-- The number type of a data item: what `DataType` or `NumberType` says, of which at most one may be there; Float by default. -/
def XdmfSeriesType (e : XmlElem) (ty : String) : Prop :=
  (XdmfSays e "DataType" ty ∧ ∀ v, ¬ XdmfSays e "NumberType" v) ∨ (XdmfSays e "NumberType" ty ∧ ∀ v, ¬ XdmfSays e "DataType" v) ∨
    (ty = "Float" ∧ ∀ v, ¬ XdmfSays e "DataType" v ∧ ¬ XdmfSays e "NumberType" v)

end Meshio.Spec
