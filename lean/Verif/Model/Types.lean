/-
Type code translation and node reordering, per format, on top of the tables.
-/
import Verif.Base.Err
import Verif.Model.Tables
namespace Meshio.Types
open Meshio Meshio.Tables

/-- `d[k] = v` on an association list with arbitrary keys. -/
def assocSet {κ ν : Type} [DecidableEq κ] : List (κ × ν) → κ → ν → List (κ × ν)
  | [], k, v => [(k, v)]
  | (k', v') :: d, k, v => if k' = k then (k, v) :: d else (k', v') :: assocSet d k v

/-- The comprehension `{v: k for k, v in d.items()}` by which most formats derive the
inverse table (e.g. /repo/src/meshio/_vtk_common.py:68, gmsh/common.py:161,
avsucd/_avsucd.py:24, abaqus/_abaqus.py:101, nastran/_nastran.py:45,
permas/_permas.py:57, exodus/_exodus.py:66, med/_med.py:31): a later entry overwrites
an earlier one with the same value. -/
def invDict {κ ν : Type} [DecidableEq ν] (d : List (κ × ν)) : List (ν × κ) :=
  d.foldl (fun acc kv => assocSet acc kv.2 kv.1) []

/-- Indexing `d[k]` in a dict (`none` = KeyError). -/
def find {κ ν : Type} [DecidableEq κ] : List (κ × ν) → κ → Option ν
  | [], _ => none
  | (k', v) :: d, k => if k' = k then some v else find d k

/-- `meshio_to_vtk_type`, /repo/src/meshio/_vtk_common.py:68. -/
def meshioToVtk : List (String × Nat) := invDict vtkToMeshio
/-- `_meshio_to_gmsh_type`, /repo/src/meshio/gmsh/common.py:161. -/
def meshioToGmsh : List (String × Nat) := invDict gmshToMeshio
/-- `meshio_type_to_xdmf_index`, /repo/src/meshio/xdmf/common.py:108. -/
def meshioToXdmfIdx : List (String × Nat) := invDict xdmfIdxToMeshio
/-- `xdmf_to_meshio_type`, /repo/src/meshio/xdmf/common.py:65. -/
def xdmfToMeshio : List (String × String) :=
  (meshioToXdmf.flatMap (fun kv => kv.2.map (fun v => (v, kv.1)))).foldl
    (fun acc vk => assocSet acc vk.1 vk.2) []
/-- The XDMF writer uses the first name in the list: `meshio_to_xdmf_type[t][0]`,
/repo/src/meshio/xdmf/main.py:427. -/
def xdmfName (t : String) : Option String := (find meshioToXdmf t).bind List.head?
/-- `avsucd_to_meshio_type`, /repo/src/meshio/avsucd/_avsucd.py:24. -/
def avsucdToMeshio : List (String × String) := invDict meshioToAvsucd
/-- `med_to_meshio_type`, /repo/src/meshio/med/_med.py:31. -/
def medToMeshio : List (String × String) := invDict meshioToMed
/-- `meshio_to_exodus_type`, /repo/src/meshio/exodus/_exodus.py:66. -/
def meshioToExodus : List (String × String) := invDict exodusToMeshio
/-- `meshio_to_abaqus_type`, /repo/src/meshio/abaqus/_abaqus.py:101. -/
def meshioToAbaqus : List (String × String) := invDict abaqusToMeshio
/-- `meshio_to_nastran_type`, /repo/src/meshio/nastran/_nastran.py:45. -/
def meshioToNastran : List (String × String) := invDict nastranToMeshio
/-- `meshio_to_permas_type`, /repo/src/meshio/permas/_permas.py:57. -/
def meshioToPermas : List (String × String) := invDict permasToMeshio

/-- Tables of a Netgen element section by topological dimension
(`netgen_to_meshio_type`, /repo/src/meshio/netgen/_netgen.py:56-61). -/
def netgenToMeshio : Nat → List (Nat × String)
  | 0 => netgen0dToMeshio
  | 1 => netgen1dToMeshio
  | 2 => netgen2dToMeshio
  | 3 => netgen3dToMeshio
  | _ => []

/-- The inner loop that inverts a node map: `ipmap = list(range(n))`, then
`ipmap[pmap[i]] = i` for each `i`, /repo/src/meshio/netgen/_netgen.py:102-107. -/
def invPerm (pmap : List Nat) : List Nat :=
  pmap.zipIdx.foldl (fun ip pi => ip.set pi.1 pi.2) (List.range pmap.length)

/-- `meshio_to_netgen_pmap`, /repo/src/meshio/netgen/_netgen.py:101-107. -/
def netgenIPmap : List (String × List Nat) := netgenPmap.map (fun tp => (tp.1, invPerm tp.2))

/-- `avsucd_to_meshio_order`, /repo/src/meshio/avsucd/_avsucd.py:39-42. -/
def avsucdToMeshioOrder : List (String × List Nat) :=
  meshioToAvsucdOrder.map (fun kv => (kv.1, if kv.1 ≠ "pyramid" then kv.2 else [1, 2, 3, 4, 0]))

/-- Row `r[idx]` for an index list: `[r[i] for i in idx]`, the row form of
`data[:, idx]`.  An index past the end is an IndexError. -/
def pick {α : Type} (r : List α) (idx : List Nat) : Res (List α) :=
  mapRes (fun i => match r[i]? with
    | some a => .ok a
    | none => .error .indexError) idx

/-- Reorder a row by a per-type table; a type without entry is left as it is
(`_gmsh_to_meshio_order` / `_meshio_to_gmsh_order`, /repo/src/meshio/gmsh/common.py:164-213;
same shape as Nastran's `_convert_to_…_ordering`, nastran/_nastran.py:472-537). -/
def reorder {α : Type} (table : List (String × List Nat)) (t : String) (r : List α) :
    Res (List α) :=
  match find table t with
  | none => .ok r
  | some p => pick r p

/-- Reorder a row by a per-type table; a type without entry is a KeyError
(`v[:, meshio_to_avsucd_order[t]]`, /repo/src/meshio/avsucd/_avsucd.py:224;
`netgen_to_meshio_pmap[t]`, netgen/_netgen.py:170,329;
`meshio_to_flac3d_order[t]`, flac3d/_flac3d.py). -/
def reorderStrict {α : Type} (table : List (String × List Nat)) (t : String) (r : List α) :
    Res (List α) :=
  match find table t with
  | none => .error .keyError
  | some p => pick r p

/-- `vtk_to_meshio_order`, /repo/src/meshio/_vtk_common.py:71-80: only type 13. -/
def vtkToMeshioOrder (vtkType : Nat) : Option (List Nat) :=
  if vtkType = 13 then some [0, 2, 1, 3, 5, 4] else none

/-- `meshio_to_vtk_order`, /repo/src/meshio/_vtk_common.py:83-86. -/
def meshioToVtkOrder (t : String) : Option (List Nat) :=
  if t = "wedge" then some [0, 2, 1, 3, 5, 4] else none

/-- `data if order is None else data[:, order]`. -/
def pickOpt {α : Type} (r : List α) : Option (List Nat) → Res (List α)
  | none => .ok r
  | some p => pick r p

/-- UGRID reader's reordering, /repo/src/meshio/ugrid/_ugrid.py:130-131. -/
def ugridRead {α : Type} (t : String) (r : List α) : Res (List α) :=
  if t = "pyramid" then pick r ugridPyramidRead else .ok r

/-- UGRID writer's reordering, /repo/src/meshio/ugrid/_ugrid.py:271-272. -/
def ugridWrite {α : Type} (t : String) (r : List α) : Res (List α) :=
  if t = "pyramid" then pick r ugridPyramidWrite else .ok r

/-- PERMAS writer's reordering, /repo/src/meshio/permas/_permas.py:242-281. -/
def permasWrite {α : Type} (t : String) (r : List α) : Res (List α) :=
  if t = "tetra10" then pick r permas_tet10
  else if t = "triangle6" then pick r permas_tria6
  else if t = "quad9" then pick r permas_quad9
  else if t = "wedge15" then pick r permas_wedge15
  else .ok r

/-- The PERMAS reader takes the nodes in file order
(`_read_cells`, /repo/src/meshio/permas/_permas.py:136-158). -/
def permasRead {α : Type} (_t : String) (r : List α) : Res (List α) := .ok r

/-- MDPA: the test `"hexahedron20" in cells` compares the string with `CellBlock`
objects and is never true, so neither the reader
(`_prepare_cells`, /repo/src/meshio/mdpa/_mdpa.py:200-236) nor the writer
(/repo/src/meshio/mdpa/_mdpa.py:450-487) reorders anything. -/
def mdpaReorder {α : Type} (_t : String) (r : List α) : Res (List α) := .ok r

end Meshio.Types
