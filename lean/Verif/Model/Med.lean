/-
MED/Salome files.

HDF5 itself is not modelled: a file is a record of the groups, data sets and attributes the code
uses.  A group is the list of its members in creation order; `hItems` gives the order in which h5py
visits them (by name), `hCreate` refuses an existing name.  Left out: attributes that no reader of
meshio looks at, the component names `NOM` (field data `med:nom`), and several meshes per file.
-/
import Verif.Base.Hdf
import Verif.Base.Num
import Verif.Base.File
import Verif.Model.Types
import Verif.Model.Dim
import Verif.Model.Common

namespace Meshio
namespace Med
open Types Tables

/-- A numpy array of data with one, two or three axes. -/
inductive Arr (F : Type) where
  | vec (l : List F)
  | mat (rows : List (List F))
  | cube (rows : List (List (List F)))
deriving DecidableEq, Repr

/-- `len(data)` -/
def Arr.len {F : Type} : Arr F → Nat
  | .vec l => l.length
  | .mat rows => rows.length
  | .cube rows => rows.length

/-- `data.flatten(order="F")`, /repo/src/meshio/med/_med.py:441.  The entry `(i, g, c)` of a
three-dimensional array with shape `(n, G, C)` goes to position `i + n * (g + G * c)`: this is the
column-major order of the two-dimensional array whose rows are the column-major rows. -/
def Arr.flatF {F : Type} : Arr F → List F
  | .vec l => l
  | .mat rows => flattenF (widthOf rows) rows
  | .cube rows =>
    let flat := rows.map fun r => flattenF (widthOf r) r
    flattenF (widthOf flat) flat

/-- A data set `CO` with its attributes: `NBR`, `NGA`, and the 1-based numbers listed in the profile
(`none` for `MED_NO_PROFILE_INTERNAL`). -/
structure Profile (F : Type) where
  nbr : Nat
  nga : Nat
  index : Option (List Int)
  co : List F
deriving DecidableEq, Repr

/-- Members of one time step: support name (`NOE`, `MAI.TR3`, ...) and values. -/
abbrev Supports (F : Type) := List (List Char × Profile F)

/-- A field: time steps by name, each with the printed time (`{t:g}`) and its supports. -/
abbrev Field (F : Type) := List (List Char × (List Char × Supports F))

/-- One cell type group under `MAI`. -/
structure MedCells where
  nod : List Int
  nbr : Nat
  fam : Option (List Int)
deriving DecidableEq, Repr

/-- One family: its number and its names, 80 characters each. -/
structure Family where
  num : Int
  names : List (List Char)
deriving DecidableEq, Repr

/-- The file. -/
structure MedFile (F : Type) where
  esp : Nat
  coo : List F
  nbr : Nat
  ptFam : Option (List Int)
  mai : List (List Char × MedCells)
  noeud : List (List Char × Family)
  eleme : List (List Char × Family)
  cha : List (List Char × Field F)

/-- The parts of a mesh that MED files hold.  `pointTags` and `cellTags` are
`point_data["point_tags"]` and `cell_data["cell_tags"]`, `pointFam` and `cellFam` the attributes
`mesh.point_tags` and `mesh.cell_tags`. -/
structure MedMesh (F : Type) where
  dim : Nat
  points : List (List F)
  cells : List (String × List (List Int))
  pointTags : Option (List Int)
  cellTags : Option (List (List Int))
  pointData : List (List Char × Arr F)
  cellData : List (List Char × List (Arr F))
  pointFam : List (Int × List (List Char))
  cellFam : List (Int × List (List Char))
deriving DecidableEq, Repr

/-! ## Reading -/

/-- `flat.reshape(n, -1, order="F")`: numpy refuses to infer the size when `n` is 0. -/
def reshape2 {α : Type} (n : Nat) (flat : List α) : Res (List (List α)) :=
  if n = 0 then .error .valueError
  else if flat.length % n ≠ 0 then .error .valueError
  else .ok (unflattenF n (flat.length / n) flat)

/-- `flat.reshape(n, g, -1, order="F")`. -/
def reshape3 {α : Type} (n g : Nat) (flat : List α) : Res (List (List (List α))) :=
  if n * g = 0 then .error .valueError
  else if flat.length % (n * g) ≠ 0 then .error .valueError
  else
    let c := flat.length / (n * g)
    .ok ((unflattenF n (g * c) flat).map fun r => unflattenF g c r)

/-- `values[index] = v` for one position (negative positions count from the end). -/
def putRow {α : Type} (rows : List α) (e : Int × α) : Res (List α) :=
  if 0 ≤ e.1 ∧ e.1 < rows.length then .ok (rows.set e.1.toNat e.2)
  else if -(rows.length : Int) ≤ e.1 ∧ e.1 < 0 then .ok (rows.set (e.1 + rows.length).toNat e.2)
  else .error .indexError

/-- `values = np.full(..., nan); values[index_profile] = values_profile`,
/repo/src/meshio/med/_med.py:166-170, :186-194. -/
def scatter {α : Type} (blank : α) (n : Nat) (index : List Int) (vals : List α) : Res (List α) :=
  foldRes putRow (List.replicate n blank) ((index.map (· - 1)).zip vals)

/-- "cut off for scalars", /repo/src/meshio/med/_med.py:171-172, :199-200. -/
def cutScalars {F : Type} (rows : List (List F)) : Arr F :=
  if widthOf rows = 1 then .vec rows.flatten else .mat rows

/-- `_read_nodal_data`, /repo/src/meshio/med/_med.py:158-173.  The number of values in the profile
(`PROFILS/.../NBR`) is the length of its list. -/
def readNodal {F : Type} (nan : F) (p : Profile F) : Res (Arr F) :=
  match p.index with
  | none =>
    match reshape2 p.nbr p.co with
    | .error e => .error e
    | .ok rows => .ok (cutScalars rows)
  | some idx =>
    match reshape2 idx.length p.co with
    | .error e => .error e
    | .ok vals =>
      match scatter (List.replicate (widthOf vals) nan) p.nbr idx vals with
      | .error e => .error e
      | .ok rows => .ok (cutScalars rows)

/-- `values[:, 0, :]` -/
def firstGauss {F : Type} (rows : List (List (List F))) : List (List F) := rows.map fun r => r.headD []

/-- End of `_read_cell_data`, /repo/src/meshio/med/_med.py:196-201. -/
def squeeze {F : Type} (nga : Nat) (rows : List (List (List F))) : Arr F :=
  if nga = 1 then cutScalars (firstGauss rows) else .cube rows

/-- `_read_cell_data`, /repo/src/meshio/med/_med.py:176-201. -/
def readCell {F : Type} (nan : F) (p : Profile F) : Res (Arr F) :=
  match p.index with
  | none =>
    match reshape3 p.nbr p.nga p.co with
    | .error e => .error e
    | .ok rows => .ok (squeeze p.nga rows)
  | some idx =>
    match reshape3 idx.length p.nga p.co with
    | .error e => .error e
    | .ok vals =>
      match scatter (List.replicate p.nga (List.replicate (widthOf (vals.headD [])) nan)) p.nbr idx vals with
      | .error e => .error e
      | .ok rows => .ok (squeeze p.nga rows)

/-- `d[k] = v` -/
def upd {α : Type} (d : List (List Char × α)) (k : List Char) (v : α) : List (List Char × α) :=
  match d with
  | [] => [(k, v)]
  | (k', v') :: d' => if k' = k then (k, v) :: d' else (k', v') :: upd d' k v

/-- `point_data` and `cell_data` while fields are read; `None` entries are blocks without values. -/
structure Data (F : Type) where
  pd : List (List Char × Arr F)
  cd : List (List Char × List (Option (Arr F)))
deriving DecidableEq, Repr

/-- `supp.partition(".")[2]` -/
def afterDot (supp : List Char) : List Char := (supp.dropWhile (· ≠ '.')).drop 1

/-- One support of one time step, /repo/src/meshio/med/_med.py:144-155. -/
def readSupport {F : Type} (nan : F) (types : List String) (name : List Char) (d : Data F)
    (s : List Char × Profile F) : Res (Data F) :=
  if s.1 = "NOE".toList then
    match readNodal nan s.2 with
    | .error e => .error e
    | .ok a => .ok { d with pd := upd d.pd name a }
  else
    match find medToMeshio (String.ofList (afterDot s.1)) with
    | none => .error .keyError
    | some t =>
      match types.idxOf? t with
      | none => .error .assertionError
      | some k =>
        match readCell nan s.2 with
        | .error e => .error e
        | .ok a =>
          .ok { d with
            cd := upd d.cd name (((d.cd.lookup name).getD (List.replicate types.length none)).set k (some a)) }

/-- Name under which time step `i` is stored, /repo/src/meshio/med/_med.py:130-138. -/
def stepName (name : List Char) (single : Bool) (i : Nat) (time : List Char) : List Char :=
  if single then name else name ++ "[".toList ++ fmtNat i ++ "] - ".toList ++ time

/-- One field, /repo/src/meshio/med/_med.py:124-155. -/
def readField {F : Type} (nan : F) (types : List String) (d : Data F)
    (f : List Char × Field F) : Res (Data F) :=
  foldRes (fun d (s : (List Char × (List Char × Supports F)) × Nat) =>
      foldRes (readSupport nan types (stepName f.1 (f.2.length = 1) s.2 s.1.2.1)) d (hItems s.1.2.2))
    d (hItems f.2).zipIdx

/-- One cell type, /repo/src/meshio/med/_med.py:89-94. -/
def readBlock (b : List Char × MedCells) : Res (String × List (List Int)) :=
  match find medToMeshio (String.ofList b.1) with
  | none => .error .keyError
  | some t =>
    match reshape2 b.2.nbr b.2.nod with
    | .error e => .error e
    | .ok rows => .ok (t, rows.map fun r => r.map (· - 1))

/-- `str.strip()` followed by `rstrip("\\x00")`, /repo/src/meshio/med/_med.py:212. -/
def familyName (s : List Char) : List Char :=
  ((strip s).reverse.dropWhile (· = '\x00')).reverse

/-- `d[k] = v` with integer keys -/
def updI {α : Type} (d : List (Int × α)) (k : Int) (v : α) : List (Int × α) :=
  match d with
  | [] => [(k, v)]
  | (k', v') :: d' => if k' = k then (k, v) :: d' else (k', v') :: updI d' k v

/-- `_read_families`, /repo/src/meshio/med/_med.py:204-214. -/
def readFamilies (g : List (List Char × Family)) : List (Int × List (List Char)) :=
  (hItems g).foldl (fun d f => updI d f.2.num (f.2.names.map familyName)) []

/-- One block of cell data in the `Mesh` constructor, /repo/src/meshio/_mesh.py:179-187: a block that was never set is `None`, of
which `len()` cannot be taken; others have a value for each of the `n` cells. -/
def complete {F : Type} (x : Option (Arr F) × Nat) : Res (Arr F) :=
  match x.1 with
  | none => .error .typeError
  | some a => if a.len = x.2 then .ok a else .error .valueError

/-- `read(filename)`, /repo/src/meshio/med/_med.py:36-121, with the checks of the `Mesh` constructor, /repo/src/meshio/_mesh.py:142-187:
types with a dimension, a value for each point, then for each cell. -/
def read {F : Type} (nan : F) (f : MedFile F) : Res (MedMesh F) :=
  if f.coo.length ≠ f.nbr * f.esp then .error .valueError
  else
    match mapRes readBlock (hItems f.mai) with
    | .error e => .error e
    | .ok cells =>
      let tags := (hItems f.mai).filterMap fun b => b.2.fam
      match foldRes (readField nan (cells.map (·.1))) { pd := [], cd := [] } (hItems f.cha) with
      | .error e => .error e
      | .ok d =>
        if !(cells.all fun b => hasDim b.1) then .error .keyError
        else if f.ptFam.any (fun t => decide (t.length ≠ f.nbr)) then .error .valueError
        else if d.pd.any (fun e => decide (e.2.len ≠ f.nbr)) then .error .valueError
        else if tags ≠ [] ∧ tags.map List.length ≠ cells.map (fun b => b.2.length) then .error .valueError
        else
          match mapRes (fun e : List Char × List (Option (Arr F)) =>
              (mapRes complete (e.2.zip (cells.map fun b => b.2.length))).map fun l => (e.1, l)) d.cd with
          | .error e => .error e
          | .ok cd =>
            .ok { dim := f.esp
                  points := unflattenF f.nbr f.esp f.coo
                  cells := cells
                  pointTags := f.ptFam
                  cellTags := if tags = [] then none else some tags
                  pointData := d.pd
                  cellData := cd
                  pointFam := readFamilies f.noeud
                  cellFam := readFamilies f.eleme }

/-! ## Writing -/

/-- The only time step the writer creates, /repo/src/meshio/med/_med.py:407. -/
def stepKey : List Char := "0000000000000000000100000000000000000001".toList

/-- `_write_data` after the choice of the support, /repo/src/meshio/med/_med.py:389-441: a new field,
or one more support in an existing field. -/
def putField {F : Type} (cha : List (List Char × Field F)) (name supp : List Char) (p : Profile F) :
    Res (List (List Char × Field F)) :=
  match cha.lookup name with
  | none => .ok (cha ++ [(name, [(stepKey, ("0".toList, [(supp, p)]))])])
  | some f =>
    match f with
    | [(k, (t, sups))] =>
      match hCreate sups supp p with
      | .error e => .error e
      | .ok sups' => .ok (upd cha name [(k, (t, sups'))])
    | _ => .error .unmodelled

/-- Values for the default profile, /repo/src/meshio/med/_med.py:431-441. -/
def fullProfile {F : Type} (nga : Nat) (a : Arr F) : Profile F :=
  { nbr := a.len, nga := nga, index := none, co := a.flatF }

/-- One point data array, /repo/src/meshio/med/_med.py:331-338. -/
def putNodal {F : Type} (cha : List (List Char × Field F)) (e : List Char × Arr F) :
    Res (List (List Char × Field F)) :=
  putField cha e.1 "NOE".toList (fullProfile 1 e.2)

/-- One block of one cell data array, /repo/src/meshio/med/_med.py:346-371: one or two axes give an
element field, three axes with one value per node a nodal field of the element; others are skipped. -/
def putCellBlock {F : Type} (name : List Char) (cha : List (List Char × Field F))
    (e : (String × List (List Int)) × Arr F) : Res (List (List Char × Field F)) :=
  match find meshioToMed e.1.1 with
  | none => .error .keyError
  | some med =>
    match e.2 with
    | .cube rows =>
      match Dict.get? numNodesPerCell e.1.1 with
      | none => .error .keyError
      | some n =>
        if widthOf rows = n then putField cha name ("NOE.".toList ++ med.toList) (fullProfile n e.2)
        else .ok cha
    | a => putField cha name ("MAI.".toList ++ med.toList) (fullProfile 1 a)

/-- One cell data array, /repo/src/meshio/med/_med.py:342-372. -/
def putCellData {F : Type} (cells : List (String × List (List Int))) (cha : List (List Char × Field F))
    (e : List Char × List (Arr F)) : Res (List (List Char × Field F)) :=
  foldRes (putCellBlock e.1) cha (cells.zip e.2)

/-- One cell block, /repo/src/meshio/med/_med.py:278-298. -/
def putBlock (tags : Option (List (List Int))) (mai : List (List Char × MedCells))
    (b : (String × List (List Int)) × Nat) : Res (List (List Char × MedCells)) :=
  match find meshioToMed b.1.1 with
  | none => .error .keyError
  | some med =>
    match tags with
    | none =>
      hCreate mai med.toList
        { nod := (flattenF (widthOf b.1.2) b.1.2).map (· + 1), nbr := b.1.2.length, fam := none }
    | some ts =>
      match ts[b.2]? with
      | none => .error .indexError
      | some t =>
        hCreate mai med.toList
          { nod := (flattenF (widthOf b.1.2) b.1.2).map (· + 1), nbr := b.1.2.length, fam := some t }

/-- `_family_name`, /repo/src/meshio/med/_med.py:451-455. -/
def familyKey (f : Int × List (List Char)) : List Char :=
  "FAM".toList ++ '_' :: (fmtInt f.1 ++ '_' :: joinWith '_' f.2)

/-- `name + "\\x00" * (80 - len(name))`: a longer name does not fit in the data set,
/repo/src/meshio/med/_med.py:466-469.  Characters outside ASCII are left out. -/
def name80 (s : List Char) : Res (List Char) :=
  if s.length > 80 then .error .valueError
  else if s.all (fun c => decide (c.toNat < 128)) then .ok (s ++ List.replicate (80 - s.length) '\x00')
  else .error .unmodelled

/-- One family, /repo/src/meshio/med/_med.py:458-469.  Names with a slash would create nested groups
and are left out. -/
def putFamily (g : List (List Char × Family)) (f : Int × List (List Char)) :
    Res (List (List Char × Family)) :=
  if '/' ∈ familyKey f then .error .unmodelled
  else
    match mapRes name80 f.2 with
    | .error e => .error e
    | .ok names => hCreate g (familyKey f) { num := f.1, names := names }

/-- `write(filename, mesh)`, /repo/src/meshio/med/_med.py:217-372. -/
def write {F : Type} (m : MedMesh F) : Res (MedFile F) :=
  if ¬ (m.cells.map (·.1)).Nodup then .error .writeError
  else
    match foldRes (putBlock m.cellTags) [] m.cells.zipIdx with
    | .error e => .error e
    | .ok mai =>
      match foldRes putFamily [] m.pointFam with
      | .error e => .error e
      | .ok noeud =>
        match foldRes putFamily [] m.cellFam with
        | .error e => .error e
        | .ok eleme =>
          match foldRes putNodal [] m.pointData with
          | .error e => .error e
          | .ok cha =>
            match foldRes (putCellData m.cells) cha m.cellData with
            | .error e => .error e
            | .ok cha =>
              .ok { esp := m.dim, coo := flattenF m.dim m.points, nbr := m.points.length,
                    ptFam := m.pointTags, mai := mai, noeud := noeud, eleme := eleme, cha := cha }

end Med
end Meshio
