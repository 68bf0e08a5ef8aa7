/-
HMF files: /repo/src/meshio/hmf/_hmf.py.  Arrays and meshes are those of the XDMF model; compression is
left to h5py.
-/
import Verif.Model.Xdmf
import Verif.Model.Mesh

namespace Meshio
namespace Hmf
open Types Tables Xdmf

/-- A member of the group `grid`. -/
inductive Node (F : Type) where
  | dset (attrs : Dict String) (a : Nd F)
  | group (members : List (List Char × Nd F))
deriving DecidableEq, Repr

/-- An HMF file: attributes and domains, which hold grids. -/
structure File (F : Type) where
  attrs : Dict String
  domains : List (List Char × List (List Char × List (List Char × Node F)))

/-- A name that h5py takes as one component of a path. -/
def plainName (n : List Char) : Bool := n ≠ [] && n ≠ ['.'] && !n.contains '/'

/-- `group.create_dataset(name, ..)`; names with a path in them are left out. -/
def createDset {F : Type} (g : List (List Char × Nd F)) (e : List Char × Nd F) : Res (List (List Char × Nd F)) :=
  if plainName e.1 then hCreate g e.1 e.2 else .error .unmodelled

/-- Names of the members of the grid. -/
def kGeometry : List Char := "Geometry".toList
def kNode : List Char := "NodeAttributes".toList
def kCell : List Char := "CellAttributes".toList
def kTopology : List Char := "Topology".toList

/-- `f"Topology{k}"` -/
def topologyName (k : Nat) : List Char := kTopology ++ fmtNat k

/-- `_write_points`, /repo/src/meshio/hmf/_hmf.py:76-83. -/
def putPoints {F : Type} (grid : List (List Char × Node F)) (p : Nd F) : Res (List (List Char × Node F)) :=
  match p.inner with
  | [] => .error .indexError
  | d :: _ => hCreate grid kGeometry (.dset [("GeometryType", String.ofList ("XYZ".toList.take d))] p)

/-- One block, /repo/src/meshio/hmf/_hmf.py:86-95. -/
def putBlock {F : Type} (grid : List (List Char × Node F)) (b : (String × List (List Int)) × Nat) :
    Res (List (List Char × Node F)) :=
  match xdmfName b.1.1 with
  | none => .error .keyError
  | some ty => hCreate grid (topologyName b.2) (.dset [("TopologyType", ty)] (connNd (widthOf b.1.2) b.1.2))

/-- `write`, /repo/src/meshio/hmf/_hmf.py:58-73,86-95,129-151. -/
def write {F : Type} (m : XMesh F) : Res (File F) :=
  match putPoints [] m.points with
  | .error e => .error e
  | .ok g =>
    match foldRes putBlock g m.cells.zipIdx with
    | .error e => .error e
    | .ok g =>
      match foldRes createDset [] m.pointData with
      | .error e => .error e
      | .ok na =>
        match hCreate g kNode (.group na) with
        | .error e => .error e
        | .ok g =>
          match rawCellData m.cellData with
          | .error e => .error e
          | .ok raw =>
            match foldRes createDset [] raw with
            | .error e => .error e
            | .ok ca =>
              match hCreate g kCell (.group ca) with
              | .error e => .error e
              | .ok g =>
                .ok { attrs := [("type", "hmf"), ("version", "0.1-alpha")]
                      domains := [("domain".toList, [("grid".toList, g)])] }

/-- Local variables of the reader, /repo/src/meshio/hmf/_hmf.py:21-24. -/
structure St (F : Type) where
  points : Option (Nd F)
  cells : List (String × List (List Int))
  pd : List (List Char × Nd F)
  cdRaw : List (List Char × Nd F)
deriving DecidableEq, Repr

/-- `d[k] = v` for `cells`. -/
def setCells (d : List (String × List (List Int))) (k : String) (v : List (List Int)) : List (String × List (List Int)) :=
  match d with
  | [] => [(k, v)]
  | (k', v') :: d' => if k' = k then (k, v) :: d' else (k', v') :: setCells d' k v

/-- The arrays of `CellAttributes` or `NodeAttributes`, put into a dictionary. -/
def putAll {F : Type} (d : List (List Char × Nd F)) (l : List (List Char × Nd F)) : List (List Char × Nd F) :=
  l.foldl (fun d e => upd d e.1 e.2) d

/-- One member of the grid, /repo/src/meshio/hmf/_hmf.py:26-43. -/
def readNode {F : Type} (s : St F) (kv : List Char × Node F) : Res (St F) :=
  if kv.1.take 8 = kTopology then
    match kv.2 with
    | .group _ => .error .keyError
    | .dset attrs a =>
      match Dict.get? attrs "TopologyType" with
      | none => .error .keyError
      | some ty =>
        match find xdmfToMeshio ty with
        | none => .error .keyError
        | some t =>
          match mapRes valInts a.rows with
          | .error e => .error e
          | .ok rows => .ok { s with cells := setCells s.cells t rows }
  else if kv.1 = kGeometry then
    match kv.2 with
    | .group _ => .error .keyError
    | .dset attrs a =>
      match Dict.get? attrs "GeometryType" with
      | none => .error .keyError
      | some ty => if ty ∈ ["X", "XY", "XYZ"] then .ok { s with points := some a } else .error .assertionError
  else if kv.1 = kCell then
    match kv.2 with
    | .dset _ _ => .error .attributeError
    | .group l => .ok { s with cdRaw := putAll s.cdRaw (hItems l) }
  else if kv.1 = kNode then
    match kv.2 with
    | .dset _ _ => .error .attributeError
    | .group l => .ok { s with pd := putAll s.pd (hItems l) }
  else .error .assertionError

/-- The checks of `Mesh.__init__`, /repo/src/meshio/_mesh.py:140-187. -/
def newMesh {F : Type} (m : XMesh F) : Res (XMesh F) :=
  if !(m.cells.all fun b => startsWith "polyhedron" b.1 || (Dict.get? topologicalDimension b.1).isSome) then .error .keyError
  else if !(m.pointData.all fun e => e.2.rows.length = m.points.rows.length) then .error .valueError
  else if !(m.cellData.all fun e => (e.2.map fun a => a.rows.length) = m.cells.map fun b => b.2.length) then .error .valueError
  else .ok m

/-- `read`, /repo/src/meshio/hmf/_hmf.py:8-52.  `cell_data_from_raw(cells, ..)` is given the dictionary of
the cells: `len(c) for c in cells` are the lengths of its keys, the type names.  A grid without
`Geometry` leaves `points = None`, which is left out. -/
def read {F : Type} (f : File F) : Res (XMesh F) :=
  match Dict.get? f.attrs "type" with
  | none => .error .keyError
  | some ty =>
    if ty ≠ "hmf" then .error .assertionError
    else
      match Dict.get? f.attrs "version" with
      | none => .error .keyError
      | some v =>
        if v ≠ "0.1-alpha" then .error .assertionError
        else if f.domains.length ≠ 1 then .error .assertionError
        else
          match f.domains.lookup "domain".toList with
          | none => .error .keyError
          | some domain =>
            if domain.length ≠ 1 then .error .assertionError
            else
              match domain.lookup "grid".toList with
              | none => .error .keyError
              | some grid =>
                match foldRes readNode { points := none, cells := [], pd := [], cdRaw := [] } (hItems grid) with
                | .error e => .error e
                | .ok s =>
                  match s.points with
                  | none => .error .unmodelled
                  | some p =>
                    newMesh { points := p, cells := s.cells, pointData := s.pd,
                              cellData := s.cdRaw.map fun e => (e.1, splitNd (s.cells.map fun b => b.1.length) e.2) }

end Hmf
end Meshio
