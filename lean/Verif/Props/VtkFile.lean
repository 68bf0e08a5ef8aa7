/-
C62: what is read from a legacy VTK file.
-/
import Verif.Proofs.VtkFileMesh
namespace Meshio.Props
open Meshio Meshio.Spec Meshio.Vtk Meshio.VtkFile

variable {V : Type} {io : VtkIO V} {has : String → V → Prop}

/-! ## Unstructured grids -/

/-- The cell data by block. -/
def vtkCellData (cs : List VtkCell) (raw : Dict (Arr V)) : Dict (List (Arr V)) :=
  if vtkBlocks cs = [] then [] else raw.map fun kv => (kv.1, (vtkData cs kv.2.rows).map fun rows => ⟨kv.2.dtype, kv.2.tail, rows⟩)

theorem vtk_lengths {cs : List VtkCell} {raw : Dict (Arr V)} (hcd : ∀ kv ∈ raw, kv.2.rows.length = cs.length) :
    ∀ kv ∈ vtkCellData cs raw, kv.2.map (·.rows.length) = (vtkBlocks cs).map (·.2.length) := by
  unfold vtkCellData
  split
  · intro kv hkv; cases hkv
  · exact outData_lengths cs raw hcd

theorem vtk_cellArrays {cs : List VtkCell} {raw : Dict (Arr V)} (h : Dict.Ok raw) :
    cellArrays raw (if vtkBlocks cs = [] then [] else (raw.map fun kv => (kv.1, kv.2.rows)).map fun kd => (kd.1, vtkData cs kd.2)) =
      vtkCellData cs raw := by
  unfold vtkCellData
  split
  · rfl
  · exact cellArrays_ok cs raw h

theorem vtk_raw_ok {raw : Dict (Arr V)} (h : Dict.Ok raw) : Dict.Ok (raw.map fun kv => (kv.1, kv.2.rows)) := by
  unfold Dict.Ok Dict.keys at *; rw [List.map_map]; exact h

/-- **A file of version 4.2 (or older)** of cells of fixed size is read as it says: the points, the maximal runs of cells of one type in
meshio's node order, the arrays of points and, cut into blocks, of cells, all by name, and the arrays that belong to neither. -/
theorem C62_read42 (hio : VtkLaws io has) {ascii : Bool} {l : List (VtkSec V)} {s : List Char}
    (h : vtkFileSays io has .v42 ascii "UNSTRUCTURED_GRID" l s) {p : Arr V} (hp : vtkPoints l = some p) {cs : List VtkCell}
    (hc : vtkCells l = some cs) (ht : vtkTypes l = some (cs.map (·.1))) (hfix : ∀ c ∈ cs, FixedCell c)
    (hknown : ∀ c ∈ cs, ∀ t, vtkName c.1 = some t → KnownType t)
    (hpd : ∀ kv ∈ vtkArraysFor .point {} l, kv.2.rows.length = p.rows.length)
    (hcd : ∀ kv ∈ vtkArraysFor .cell {} l, kv.2.rows.length = cs.length) :
    read io s = .ok ⟨some p, vtkBlocks cs, vtkDict (vtkArraysFor .point {} l), vtkCellData cs (vtkDict (vtkArraysFor .cell {} l)),
      vtkDict (vtkArraysFor .other {} l)⟩ := by
  obtain ⟨info, hf, h1, -⟩ := final_ok hio (by decide) h
  rw [hc] at h1
  have hcd' : ∀ kv ∈ info.cellRaw, kv.2.rows.length = cs.length := by rw [hf.cellRaw]; exact fun kv hkv => hcd kv (mem_vtkDict hkv)
  have hok : Dict.Ok info.cellRaw := by rw [hf.cellRaw]; exact vtkDict_ok _
  have htr := translateCells_fixed cs hfix [] (info.cellRaw.map fun kv => (kv.1, kv.2.rows)) (vtk_raw_ok hok)
    (by intro kd hkd; obtain ⟨kv, hkv, rfl⟩ := List.mem_map.1 hkd; exact hcd' kv hkv)
  rw [List.append_nil] at htr
  rw [hf.read, finish42 info (streamOf cs) (cs.map (·.1)) (checkMesh_unstructured info hf.type (by rw [h1]; rfl) (by rw [hf.types, ht]; rfl)) h1
    (by rw [hf.types, ht]) htr, vtk_cellArrays hok,
    build_ok info p (by rw [hf.points, hp]) _ (known_blocks cs hknown) (by rw [hf.pointData]; exact fun kv hkv => hpd kv (mem_vtkDict hkv)) _
      (vtk_lengths hcd'), hf.pointData, hf.cellRaw, hf.fieldData]

/-- With a polygon anywhere in the file all cell data are lost. -/
theorem C62_read42_polygons (hio : VtkLaws io has) {ascii : Bool} {l : List (VtkSec V)} {s : List Char}
    (h : vtkFileSays io has .v42 ascii "UNSTRUCTURED_GRID" l s) {p : Arr V} (hp : vtkPoints l = some p) {cs : List VtkCell}
    (hc : vtkCells l = some cs) (ht : vtkTypes l = some (cs.map (·.1))) (hcs : ∀ c ∈ cs, StreamCell c) (hpoly : ∃ c ∈ cs, c.1 = 7)
    (hknown : ∀ c ∈ cs, ∀ t, vtkName c.1 = some t → KnownType t)
    (hpd : ∀ kv ∈ vtkArraysFor .point {} l, kv.2.rows.length = p.rows.length) :
    read io s = .ok ⟨some p, vtkBlocks cs, vtkDict (vtkArraysFor .point {} l), [], vtkDict (vtkArraysFor .other {} l)⟩ := by
  obtain ⟨info, hf, h1, -⟩ := final_ok hio (by decide) h
  rw [hc] at h1
  have htr := translateCells_poly cs hcs hpoly [] (info.cellRaw.map fun kv => (kv.1, kv.2.rows))
  rw [List.append_nil] at htr
  rw [hf.read, finish42 info (streamOf cs) (cs.map (·.1)) (checkMesh_unstructured info hf.type (by rw [h1]; rfl) (by rw [hf.types, ht]; rfl)) h1
    (by rw [hf.types, ht]) htr]
  refine (build_ok info p (by rw [hf.points, hp]) _ (known_blocks cs hknown) (by rw [hf.pointData]; exact fun kv hkv => hpd kv (mem_vtkDict hkv)) _
    (fun kv hkv => by cases hkv)).trans ?_
  rw [hf.pointData, hf.fieldData]
  rfl

/-- **A file of version 5.1** with at least one cell, of any readable types. -/
theorem C62_read51 (hio : VtkLaws io has) {ascii : Bool} {l : List (VtkSec V)} {s : List Char}
    (h : vtkFileSays io has .v51 ascii "UNSTRUCTURED_GRID" l s) {p : Arr V} (hp : vtkPoints l = some p) {cs : List VtkCell}
    (hc : vtkCells l = some cs) (ht : vtkTypes l = some (cs.map (·.1))) (hne : cs ≠ []) (hcs : ∀ c ∈ cs, Readable c)
    (hpd : ∀ kv ∈ vtkArraysFor .point {} l, kv.2.rows.length = p.rows.length)
    (hcd : ∀ kv ∈ vtkArraysFor .cell {} l, kv.2.rows.length = cs.length) :
    read io s = .ok ⟨some p, vtkBlocks cs, vtkDict (vtkArraysFor .point {} l), vtkCellData cs (vtkDict (vtkArraysFor .cell {} l)),
      vtkDict (vtkArraysFor .other {} l)⟩ := by
  obtain ⟨info, hf, h1, h2, -⟩ := final_ok hio (by decide) h
  have h2 := h2 rfl
  rw [hc] at h1 h2
  have hcd' : ∀ kv ∈ info.cellRaw, kv.2.rows.length = cs.length := by rw [hf.cellRaw]; exact fun kv hkv => hcd kv (mem_vtkDict hkv)
  have hok : Dict.Ok info.cellRaw := by rw [hf.cellRaw]; exact vtkDict_ok _
  have htr := vtkCellsFromData_ok cs hne hcs [] (info.cellRaw.map fun kv => (kv.1, kv.2.rows)) (vtk_raw_ok hok)
    (by intro kd hkd; obtain ⟨kv, hkv, rfl⟩ := List.mem_map.1 hkd; exact hcd' kv hkv)
  rw [List.append_nil] at htr
  have hknown : ∀ c ∈ cs, ∀ t, vtkName c.1 = some t → KnownType t := by
    intro c hc t e
    rcases hcs c hc with h | ⟨t', h, hk, -⟩
    · rw [h] at e; cases e
    · rw [h] at e; cases e; exact hk
  rw [hf.read, finish51 info (connectivityOf cs) (endsFrom 0 cs) (cs.map (·.1))
    (checkMesh_unstructured info hf.type (by rw [h1]; rfl) (by rw [hf.types, ht]; rfl)) h1 (by rw [hf.types, ht]) h2 htr, vtk_cellArrays hok,
    build_ok info p (by rw [hf.points, hp]) _ (known_blocks cs hknown) (by rw [hf.pointData]; exact fun kv hkv => hpd kv (mem_vtkDict hkv)) _
      (vtk_lengths hcd'), hf.pointData, hf.cellRaw, hf.fieldData]

/-- A file of version 5.1 without cells (a cloud of points) cannot be read. -/
theorem C62_read51_no_cells (hio : VtkLaws io has) {ascii : Bool} {l : List (VtkSec V)} {s : List Char}
    (h : vtkFileSays io has .v51 ascii "UNSTRUCTURED_GRID" l s) (hc : vtkCells l = some []) (ht : vtkTypes l = some []) :
    read io s = .error .indexError := by
  obtain ⟨info, hf, h1, h2, -⟩ := final_ok hio (by decide) h
  have h2 := h2 rfl
  rw [hc] at h1 h2
  rw [hf.read]
  unfold finish
  rw [checkMesh_unstructured info hf.type (by rw [h1]; rfl) (by rw [hf.types, ht]; rfl)]
  have h3 := hf.types
  rw [ht] at h3
  simp only [h1, h2, h3, Option.map_some]
  rfl

/-- Without a section CELLS or CELL_TYPES the file is refused. -/
theorem C62_no_cells (hio : VtkLaws io has) {v : Ver} {ascii : Bool} {l : List (VtkSec V)} {s : List Char}
    (h : vtkFileSays io has v ascii "UNSTRUCTURED_GRID" l s) (hc : vtkCells l = none ∨ vtkTypes l = none) : read io s = .error .readError := by
  obtain ⟨info, hf, h1, -⟩ := final_ok hio (by decide) h
  rw [hf.read]
  unfold finish checkMesh
  rw [hf.type]
  simp only [if_true]
  rcases hc with hc | hc
  · rw [hc] at h1
    rw [h1]
    rfl
  · rw [hf.types, hc]
    cases info.conn <;> rfl

/-! ## Structured grids (version 4.2) -/

/-- The mesh of a grid: all cells in one block, of lines, quads or hexahedra (as many axes as have more than one point); data as in the file. -/
def vtkGrid (p : Arr V) (x y z : Nat) (l : List (VtkSec V)) : Out V :=
  ⟨some p, [((match (gridAxes x y z).length with
      | 1 => "line"
      | 2 => "quad"
      | _ => "hexahedron"), (gridCells (gridAxes x y z)).map fun r => r.map Int.ofNat)],
    vtkDict (vtkArraysFor .point {} l), (vtkDict (vtkArraysFor .cell {} l)).map fun kv => (kv.1, [kv.2]), vtkDict (vtkArraysFor .other {} l)⟩

theorem vtk_gridName (x y z : Nat) (h : 1 < x ∨ 1 < y ∨ 1 < z) : gridName (gridAxes x y z).length = (match (gridAxes x y z).length with
      | 1 => "line"
      | 2 => "quad"
      | _ => "hexahedron") := by
  have := (gridCells_length x y z h).1
  generalize (gridAxes x y z).length = n at this
  have hm : n = 1 ∨ n = 2 ∨ n = 3 := by simpa using this
  rcases hm with rfl | rfl | rfl <;> rfl

theorem vtk_grid {info : Info V} {l : List (VtkSec V)} {s : List Char} {t : String} (hf : Final io .v42 t l s info) {p : Arr V} {x y z : Nat}
    (hx : 0 < x) (hy : 0 < y) (hz : 0 < z) (h : 1 < x ∨ 1 < y ∨ 1 < z) (hck : checkMesh io info = gridInfo info (some p) [(x : Int), y, z])
    (hpd : ∀ kv ∈ vtkArraysFor .point {} l, kv.2.rows.length = p.rows.length)
    (hcd : ∀ kv ∈ vtkArraysFor .cell {} l, kv.2.rows.length = (gridCells (gridAxes x y z)).length) :
    read io s = .ok (vtkGrid p x y z l) := by
  rw [hf.read, finish_grid hx hy hz h hck (by rw [hf.cellRaw]; exact vtkDict_ok _)
    (by rw [hf.pointData]; exact fun kv hkv => hpd kv (mem_vtkDict hkv)) (by rw [hf.cellRaw]; exact fun kv hkv => hcd kv (mem_vtkDict hkv)),
    hf.pointData, hf.cellRaw, hf.fieldData, vtk_gridName x y z h]
  rfl

/-- **STRUCTURED_GRID**: the points of the file, with the cells of the grid. -/
theorem C62_structured_grid (hio : VtkLaws io has) {ascii : Bool} {l : List (VtkSec V)} {s : List Char}
    (h : vtkFileSays io has .v42 ascii "STRUCTURED_GRID" l s) {p : Arr V} (hp : vtkPoints l = some p) {x y z : Nat}
    (hd : vtkDims l = some (x, y, z)) (hx : 0 < x) (hy : 0 < y) (hz : 0 < z) (h1 : 1 < x ∨ 1 < y ∨ 1 < z)
    (hpd : ∀ kv ∈ vtkArraysFor .point {} l, kv.2.rows.length = p.rows.length)
    (hcd : ∀ kv ∈ vtkArraysFor .cell {} l, kv.2.rows.length = (gridCells (gridAxes x y z)).length) :
    read io s = .ok (vtkGrid p x y z l) := by
  obtain ⟨info, hf, -, -, hdim, -⟩ := final_ok hio (by decide) h
  refine vtk_grid hf hx hy hz h1 ?_ hpd hcd
  unfold checkMesh dimensions
  rw [hf.type, hdim, hd, hf.points, hp]
  rfl

/-- **RECTILINEAR_GRID**: the points are all combinations of the coordinates, x fastest. -/
theorem C62_rectilinear_grid (hio : VtkLaws io has) {ascii : Bool} {l : List (VtkSec V)} {s : List Char}
    (h : vtkFileSays io has .v42 ascii "RECTILINEAR_GRID" l s) {ax ay az : Arr V} (hax : vtkCoords "X_COORDINATES" l = some ax)
    (hay : vtkCoords "Y_COORDINATES" l = some ay) (haz : vtkCoords "Z_COORDINATES" l = some az) {x y z : Nat}
    (hd : vtkDims l = some (x, y, z)) (hx : 0 < x) (hy : 0 < y) (hz : 0 < z) (h1 : 1 < x ∨ 1 < y ∨ 1 < z)
    (hpd : ∀ kv ∈ vtkArraysFor .point {} l, kv.2.rows.length = ax.rows.flatten.length * ay.rows.flatten.length * az.rows.flatten.length)
    (hcd : ∀ kv ∈ vtkArraysFor .cell {} l, kv.2.rows.length = (gridCells (gridAxes x y z)).length) :
    read io s = .ok (vtkGrid ⟨ax.dtype, [3], gridPoints ax.rows.flatten ay.rows.flatten az.rows.flatten⟩ x y z l) := by
  obtain ⟨info, hf, -, -, hdim, -, hco⟩ := final_ok hio (by decide) h
  have cx := hco "X_COORDINATES" (by decide)
  have cy := hco "Y_COORDINATES" (by decide)
  have cz := hco "Z_COORDINATES" (by decide)
  rw [hax] at cx
  rw [hay] at cy
  rw [haz] at cz
  rw [hd] at hdim
  refine vtk_grid hf hx hy hz h1 ?_ ?_ hcd
  · unfold checkMesh
    rw [hf.type]
    simp only [axis, dimensions, cx, cy, cz, hdim, Option.map_some, C20_points]
    rfl
  · intro kv hkv
    rw [hpd kv hkv]
    simp only
    rw [C20_points_count]

/-- **STRUCTURED_POINTS**: the points are all combinations of equally spaced coordinates. -/
theorem C62_structured_points (hio : VtkLaws io has) {ascii : Bool} {l : List (VtkSec V)} {s : List Char}
    (h : vtkFileSays io has .v42 ascii "STRUCTURED_POINTS" l s) {o1 o2 o3 s1 s2 s3 : V} (hor : vtkFloats "ORIGIN" l = some (o1, o2, o3))
    (hsp : (vtkFloats "SPACING" l).or (vtkFloats "ASPECT_RATIO" l) = some (s1, s2, s3)) {x y z : Nat}
    (hd : vtkDims l = some (x, y, z)) (hx : 0 < x) (hy : 0 < y) (hz : 0 < z) (h1 : 1 < x ∨ 1 < y ∨ 1 < z)
    (hpd : ∀ kv ∈ vtkArraysFor .point {} l,
      kv.2.rows.length = (io.linspace o1 s1 x).length * (io.linspace o2 s2 y).length * (io.linspace o3 s3 z).length)
    (hcd : ∀ kv ∈ vtkArraysFor .cell {} l, kv.2.rows.length = (gridCells (gridAxes x y z)).length) :
    read io s = .ok (vtkGrid ⟨"float64", [3], gridPoints (io.linspace o1 s1 x) (io.linspace o2 s2 y) (io.linspace o3 s3 z)⟩ x y z l) := by
  obtain ⟨info, hf, -, -, hdim, hfl, -⟩ := final_ok hio (by decide) h
  have co := hfl "ORIGIN" (by decide)
  have cs := hfl "SPACING" (by decide)
  have ca := hfl "ASPECT_RATIO" (by decide)
  rw [hor] at co
  rw [hd] at hdim
  refine vtk_grid hf hx hy hz h1 ?_ ?_ hcd
  · unfold checkMesh
    rw [hf.type]
    have e : three info (if (Dict.get? info.dataset "SPACING").isSome then "SPACING" else "ASPECT_RATIO") = .ok [s1, s2, s3] := by
      unfold three
      cases hs : vtkFloats "SPACING" l with
      | some w =>
        rw [hs] at cs hsp
        cases hsp
        rw [cs]
        simp only [Option.map_some, Option.isSome_some, if_true, cs]
      | none =>
        rw [hs] at cs hsp
        rw [Option.none_or] at hsp
        rw [hsp] at ca
        rw [cs]
        simp only [Option.map_none, Option.isSome_none, Bool.false_eq_true, if_false, ca, Option.map_some]
    simp only
    rw [if_neg (by decide), if_pos trivial, e]
    simp only [dimensions, hdim, three, co, Option.map_some, Int.toNat_natCast, C20_points]
    rw [if_neg (by omega)]
  · intro kv hkv
    rw [hpd kv hkv]
    simp only
    rw [C20_points_count]

/-- A structured grid in a file of version 5.1 is a TypeError, whatever it contains. -/
theorem C62_structured51 (hio : VtkLaws io has) {ascii : Bool} {l : List (VtkSec V)} {s : List Char}
    (h : vtkFileSays io has .v51 ascii "STRUCTURED_GRID" l s) {x y z : Nat} (hc : vtkCells l = none) (hd : vtkDims l = some (x, y, z))
    (hx : 0 < x) (hy : 0 < y) (hz : 0 < z) (h1 : 1 < x ∨ 1 < y ∨ 1 < z) : read io s = .error .typeError := by
  obtain ⟨info, hf, -, ho, hdim, -⟩ := final_ok hio (by decide) h
  have ho := ho rfl
  rw [hc] at ho
  rw [hf.read]
  unfold finish checkMesh dimensions
  rw [hf.type, hdim, hd]
  simp only [Option.map_some]
  rw [if_neg (by decide), if_neg (by decide), if_neg (by decide)]
  unfold gridInfo
  have e : [(x : Int), (y : Int), (z : Int)].map Int.toNat = [x, y, z] := rfl
  rw [e, C20_cells x y z hx hy hz h1]
  simp only [ho, Option.map_none]

/-! ## What is lost -/

/-- Fields of the data set as a whole (where VTK keeps e.g. TIME and CYCLE) are read and dropped. -/
theorem C62_dataset_fields_lost (hio : VtkLaws io has) {ascii : Bool} {x : List (String × Arr V)} {l : List (VtkSec V)} {s : List Char}
    (h : vtkFileSays io has .v42 ascii "UNSTRUCTURED_GRID" (.arrays x :: l) s) {p : Arr V} (hp : vtkPoints l = some p) {cs : List VtkCell}
    (hc : vtkCells l = some cs) (ht : vtkTypes l = some (cs.map (·.1))) (hfix : ∀ c ∈ cs, FixedCell c)
    (hknown : ∀ c ∈ cs, ∀ t, vtkName c.1 = some t → KnownType t)
    (hpd : ∀ kv ∈ vtkArraysFor .point {} l, kv.2.rows.length = p.rows.length)
    (hcd : ∀ kv ∈ vtkArraysFor .cell {} l, kv.2.rows.length = cs.length) :
    read io s = .ok ⟨some p, vtkBlocks cs, vtkDict (vtkArraysFor .point {} l), vtkCellData cs (vtkDict (vtkArraysFor .cell {} l)),
      vtkDict (vtkArraysFor .other {} l)⟩ :=
  C62_read42 hio h (p := p) hp (cs := cs) hc ht hfix hknown hpd hcd

/-- Bytes of VTK's number types, by VTK's documentation (`long` is left out: it depends on the machine). -/
def vtkBytes (name : String) : Option Nat :=
  if name ∈ ["char", "unsigned_char", "vtktypeint8", "vtktypeuint8"] then some 1
  else if name ∈ ["short", "unsigned_short", "vtktypeint16", "vtktypeuint16"] then some 2
  else if name ∈ ["int", "unsigned_int", "float", "vtktypeint32", "vtktypeuint32"] then some 4
  else if name ∈ ["double", "vtktypeint64", "vtktypeuint64"] then some 8
  else none

/-- Numbers in binary files have the size VTK gives them — but not `int` in files of version 5.1. -/
def C62_sizes_statement : Prop := ∀ v, ∀ e ∈ dtypes v, ∀ n, vtkBytes e.1 = some n → itemSize e.2 = n

theorem C62_sizes_false : ¬ C62_sizes_statement := by
  intro h
  have := h .v51 ("int", "int") (by decide) 4 (by decide)
  exact absurd this (by decide)

theorem C62_sizes_partial : ∀ v, ∀ e ∈ dtypes v, ∀ n, vtkBytes e.1 = some n → (v = .v51 → e.1 ≠ "int") → itemSize e.2 = n := by
  intro v e he n hn hv
  have : ∀ e ∈ dtypes v, (v = .v51 → e.1 ≠ "int") → (vtkBytes e.1).all (fun n => decide (itemSize e.2 = n)) = true := by
    cases v <;> decide +kernel
  have := this e he hv
  rw [hn] at this
  simpa using this

/-- The numpy types: signed, unsigned and floating point as the name says. -/
theorem C62_types : ∀ v, ∀ e ∈ dtypes v, e.1 ≠ "bit" →
    ("float" ∈ [e.1] ∨ "double" ∈ [e.1] ↔ "float".toList <+: e.2.toList) ∧
    ("unsigned".toList <+: e.1.toList ∨ "vtktypeuint".toList <+: e.1.toList ↔ "uint".toList <+: e.2.toList) := by
  intro v
  cases v <;> decide +kernel

/-! ## Files that are refused -/

/-- The first line has to be VTK's. -/
theorem C62_bad_magic (s : List Char) (h : ¬ "# vtk DataFile Version".toList <+: strip (readLine s).1) : read io s = .error .readError := by
  unfold VtkFile.read
  exact if_pos h

/-- The third line has to be ASCII or BINARY. -/
theorem C62_bad_format (a t f s : List Char) (ha : '\n' ∉ a) (ht : '\n' ∉ t) (hf : '\n' ∉ f)
    (h : upper (strip f) ≠ "ASCII".toList ∧ upper (strip f) ≠ "BINARY".toList) :
    read io (linesText [a, t, f] ++ s) = .error .readError := by
  have e : linesText [a, t, f] ++ s = a ++ '\n' :: (t ++ '\n' :: (f ++ '\n' :: s)) := by simp [linesText]
  unfold VtkFile.read
  rw [e, readLine_append a _ ha]
  simp only
  split
  · rfl
  · unfold readBuffer
    rw [readLine_append t _ ht]
    simp only
    rw [readLine_append f _ hf, strip_nl']
    exact if_pos h

/-- A data set of another kind (POLYDATA, FIELD) is refused. -/
theorem C62_bad_dataset (a t f d s : List Char) (ha : '\n' ∉ a) (ht : '\n' ∉ t) (hf : '\n' ∉ f) (hd : '\n' ∉ d) {w k : List Char} {e : List (List Char)}
    (hk : splitWs d = k :: w :: e) (hk' : upper k = "DATASET".toList)
    (hw : String.ofList (upper w) ∉ ["UNSTRUCTURED_GRID", "STRUCTURED_POINTS", "STRUCTURED_GRID", "RECTILINEAR_GRID"]) :
    read io (linesText [a, t, f, d] ++ s) = .error .readError := by
  have e : linesText [a, t, f, d] ++ s = a ++ '\n' :: (t ++ '\n' :: (f ++ '\n' :: (d ++ '\n' :: s))) := by simp [linesText]
  unfold VtkFile.read
  rw [e, readLine_append a _ ha]
  simp only
  split
  · rfl
  · unfold readBuffer
    rw [readLine_append t _ ht]
    simp only
    rw [readLine_append f _ hf]
    simp only
    split
    · rfl
    · rw [readLoop, if_neg (by simp), readLine_append d _ hd, splitWs_nl, hk]
      simp only
      rw [hk', if_pos (by decide)]
      unfold readSection
      rw [if_neg (by decide), if_pos (by decide)]
      have hn : (Types.find datasetInfos (String.ofList (upper w))).isNone := by
        cases hfi : Types.find datasetInfos (String.ofList (upper w)) with
        | none => rfl
        | some y => exact absurd (List.mem_map.2 ⟨_, Types.find_mem hfi, rfl⟩ : _ ∈ datasetInfos.map (·.1)) hw
      simp only [List.getElem?_cons_succ, List.getElem?_cons_zero]
      rw [if_pos hn]

/-- The words a section or an array of a legacy VTK file can begin with, as the file format documents them. -/
def vtkWords : List String :=
  ["METADATA", "DATASET", "POINTS", "CELLS", "CELL_TYPES", "POINT_DATA", "CELL_DATA", "LOOKUP_TABLE", "COLOR_SCALARS",
   "SCALARS", "VECTORS", "TENSORS", "FIELD",
   "DIMENSIONS", "ORIGIN", "SPACING", "ASPECT_RATIO", "X_COORDINATES", "Y_COORDINATES", "Z_COORDINATES"]

/-- Once the kind of the dataset is known, a line that begins with any other word where a section has to begin is refused. -/
theorem C62_unknown_section (v : Ver) (ascii : Bool) (n : Nat) (info : Info V) {t : String} (ht : info.type = some t)
    (d s : List Char) (hd : '\n' ∉ d) {w : List Char} {e : List (List Char)} (hk : splitWs d = w :: e)
    (hw : String.ofList (upper w) ∉ vtkWords) :
    readLoop io v ascii (n + 1) info (d ++ '\n' :: s) = .error .readError := by
  have hsec : ∀ x ∈ sections, x ∈ vtkWords := by decide +kernel
  have hinf : ∀ p ∈ datasetInfos, ∀ x ∈ p.2, x ∈ vtkWords := by decide +kernel
  have hget : String.ofList (upper w) ∉ (Types.find datasetInfos t).getD [] := by
    cases hfi : Types.find datasetInfos t with
    | none => simp
    | some y => exact fun hm => hw (hinf _ (Types.find_mem hfi) _ hm)
  rw [readLoop, if_neg (by simp), readLine_append d _ hd, splitWs_nl, hk]
  simp only
  rw [if_neg (fun hm => hw (hsec _ hm))]
  unfold readSubsection
  rw [ht]
  simp only
  have hne : ∀ x ∈ vtkWords, String.ofList (upper w) ≠ x := fun x hx hm => hw (hm ▸ hx)
  rw [if_neg hget, if_neg (hne "SCALARS" (by decide)), if_neg (hne "VECTORS" (by decide)), if_neg (hne "TENSORS" (by decide)),
    if_neg (hne "FIELD" (by decide))]

end Meshio.Props
