/-
C62 and C63: numbers that meet the assumptions, files and meshes that meet the hypotheses, and meshes that are not written or not read
back.
-/
import Verif.Props.VtkFileWrite
import Verif.Proofs.Flac3dWrite
namespace Meshio.Props
open Meshio Meshio.Spec Meshio.Vtk Meshio.VtkFile

variable {V : Type} {io : VtkIO V} {has : String → V → Prop}

/-- Integers as numbers of any type. -/
def vtkIntIO : VtkIO Int where
  fmt := fmtInt
  parse _ := parseInt
  enc d x := putBig (itemSize d) x
  dec _ := getBig
  zero _ := 0
  toFloat := parseInt
  linspace o s n := (List.range n).map fun i : Nat => o + s * (i : Int)

theorem vtkIntIO_laws : VtkLaws vtkIntIO (fun d x => IsInt (itemSize d) x) where
  tok _ x _ := isTok_fmtInt x
  parse _ x _ _ := parseInt_fmtInt x
  length d x := length_putBig _ _
  dec d x h := getBig_putBig _ _ h
  zero d := by
    have : 0 < 256 ^ itemSize d := Nat.pow_pos (by decide)
    constructor
    · show -((256 ^ itemSize d : Nat) : Int) ≤ 2 * 0; omega
    · show 2 * (0 : Int) < ((256 ^ itemSize d : Nat) : Int); omega

/-! ## A mesh -/

def vtkEx : In Int :=
  ⟨⟨"float64", [2], [[0, 0], [1, 0], [1, 1], [0, 1], [2, 0]]⟩,
    [⟨"triangle", 3, [[0, 1, 2], [0, 2, 3]]⟩, ⟨"line", 2, [[0, 4]]⟩],
    [("u", ⟨"int32", [], [[1], [2], [3], [4], [-5]]⟩), ("v", ⟨"float32", [2], [[1, 2], [3, 4], [5, 6], [7, 8], [9, 10]]⟩)],
    [("a", [⟨"int64", [], [[7], [8]]⟩, ⟨"int64", [], [[9]]⟩])]⟩

theorem vtkEx_arr {v : Ver} {binary : Bool} {a : Arr Int} (h1 : a.dtype ∈ ["float64", "float32", "int32", "int64"])
    (h2 : (a.tail = [] ∧ ∀ r ∈ a.rows, r.length = 1) ∨ (a.tail = [2] ∧ ∀ r ∈ a.rows, r.length = 2))
    (h3 : ∀ r ∈ a.rows, ∀ x ∈ r, IsInt (itemSize a.dtype) x) : VtkArr (fun d x => IsInt (itemSize d) x) v binary a where
  dtype := by
    have : ∀ d ∈ ["float64", "float32", "int32", "int64"], (dtypes v).any (fun e => e.2 == d) = true := by cases v <;> decide +kernel
    obtain ⟨e, he, h⟩ := List.any_eq_true.1 (this _ h1)
    exact ⟨e.1, by rw [← eq_of_beq h]; exact he⟩
  int := by
    intro e
    rw [e] at h1
    exact absurd h1 (by decide)
  text := by
    intro _ e
    rw [e] at h1
    exact absurd h1 (by decide)
  shape := by
    rcases h2 with h | h
    · exact .inl h
    · exact .inr ⟨2, h.1, by decide, h.2⟩
  vals := h3

theorem vtkEx_ok (v : Ver) (binary : Bool) : VtkMesh (fun d x => IsInt (itemSize d) x) v binary vtkEx where
  points := ⟨vtkEx_arr (by decide) (.inr (by decide)) (by decide +kernel), .inl rfl, by decide⟩
  cells := by
    have : ∀ b ∈ vtkEx.cells, (vtkCode b.type).isSome ∧ b.rows ≠ [] ∧ b.width ≠ 0 ∧ (∀ r ∈ b.rows, r.length = b.width) ∧
        (b.type = "wedge" → b.width = 6) := by decide +kernel
    exact fun b hb => ⟨Option.isSome_iff_exists.1 (this b hb).1, (this b hb).2⟩
  fits := by
    have h1 : ∀ x ∈ streamOf (vtkCellsOf vtkEx.cells), IsInt 4 x := by decide +kernel
    have h2 : ∀ x ∈ endsFrom 0 (vtkCellsOf vtkEx.cells) ++ connectivityOf (vtkCellsOf vtkEx.cells), IsInt 8 x := by decide +kernel
    cases v
    · exact fun _ => h1
    · exact fun _ => h2
  pointNames := ⟨by decide, by
    have : ∀ kv ∈ vtkEx.pointData, (kv.1.toList ≠ [] ∧ ∀ c ∈ kv.1.toList, isWs c = false) ∧ kv.1 ≠ "METADATA" := by decide +kernel
    exact this⟩
  pointData := by
    intro kv hkv
    have : kv = ("u", ⟨"int32", [], [[1], [2], [3], [4], [-5]]⟩) ∨
        kv = ("v", ⟨"float32", [2], [[1, 2], [3, 4], [5, 6], [7, 8], [9, 10]]⟩) := by simpa [vtkEx] using hkv
    rcases this with rfl | rfl
    · exact ⟨vtkEx_arr (by decide) (.inl (by decide)) (by decide +kernel), by decide⟩
    · exact ⟨vtkEx_arr (by decide) (.inr (by decide)) (by decide +kernel), by decide⟩
  cellNames := ⟨by decide, by
    have : ∀ kv ∈ vtkEx.cellData, (kv.1.toList ≠ [] ∧ ∀ c ∈ kv.1.toList, isWs c = false) ∧ kv.1 ≠ "METADATA" := by decide +kernel
    exact this⟩
  cellData := by
    intro kv hkv
    have : kv = ("a", [⟨"int64", [], [[7], [8]]⟩, ⟨"int64", [], [[9]]⟩]) := by simpa [vtkEx] using hkv
    subst this
    refine ⟨by decide, by decide, fun a ha => ?_⟩
    have : a = ⟨"int64", [], [[7], [8]]⟩ ∨ a = ⟨"int64", [], [[9]]⟩ := by simpa using ha
    rcases this with rfl | rfl
    · exact ⟨vtkEx_arr (by decide) (.inl (by decide)) (by decide +kernel), rfl, rfl⟩
    · exact ⟨vtkEx_arr (by decide) (.inl (by decide)) (by decide +kernel), rfl, rfl⟩

theorem vtkEx_fixed : ∀ b ∈ vtkEx.cells, KnownType b.type ∧ FixedBlock b.blk := by
  intro b hb
  have : b = ⟨"triangle", 3, [[0, 1, 2], [0, 2, 3]]⟩ ∨ b = ⟨"line", 2, [[0, 4]]⟩ := by simpa [vtkEx] using hb
  rcases this with rfl | rfl
  · exact ⟨.inr (by decide +kernel), 5, by decide +kernel, 3, by decide +kernel, by decide, by decide⟩
  · exact ⟨.inr (by decide +kernel), 3, by decide +kernel, 2, by decide +kernel, by decide, by decide⟩

theorem vtkEx_back : vtkBack vtkIntIO.zero vtkEx =
    ⟨some ⟨"float64", [3], [[0, 0, 0], [1, 0, 0], [1, 1, 0], [0, 1, 0], [2, 0, 0]]⟩,
      [("triangle", [[0, 1, 2], [0, 2, 3]]), ("line", [[0, 4]])],
      [("u", ⟨"int32", [], [[1], [2], [3], [4], [-5]]⟩), ("v", ⟨"float32", [3], [[1, 2, 0], [3, 4, 0], [5, 6, 0], [7, 8, 0], [9, 10, 0]]⟩)],
      [("a", [⟨"int64", [], [[7], [8]]⟩, ⟨"int64", [], [[9]]⟩])], []⟩ := by decide +kernel

/-- The mesh meets the hypotheses of `C63_roundtrip42`: points and vectors in the plane come back in space, everything else as it was. -/
example : ∃ s, write vtkIntIO .v42 "title".toList true vtkEx = .ok s ∧ read vtkIntIO s = .ok
    ⟨some ⟨"float64", [3], [[0, 0, 0], [1, 0, 0], [1, 1, 0], [0, 1, 0], [2, 0, 0]]⟩,
      [("triangle", [[0, 1, 2], [0, 2, 3]]), ("line", [[0, 4]])],
      [("u", ⟨"int32", [], [[1], [2], [3], [4], [-5]]⟩), ("v", ⟨"float32", [3], [[1, 2, 0], [3, 4, 0], [5, 6, 0], [7, 8, 0], [9, 10, 0]]⟩)],
      [("a", [⟨"int64", [], [[7], [8]]⟩, ⟨"int64", [], [[9]]⟩])], []⟩ := by
  have := C63_roundtrip42 vtkIntIO_laws (vtkEx_ok .v42 true) vtkEx_fixed "title".toList (by decide)
  have e : vtkBack vtkIntIO.zero vtkEx = _ := vtkEx_back
  rw [e] at this
  exact this

/-- … and of `C63_roundtrip51`. -/
example : ∃ s, write vtkIntIO .v51 "title".toList false vtkEx = .ok s ∧ read vtkIntIO s = .ok (vtkBack vtkIntIO.zero vtkEx) := by
  refine C63_roundtrip51 vtkIntIO_laws (vtkEx_ok .v51 false) (by decide) ?_ "title".toList (by decide)
  intro b hb
  have : b = ⟨"triangle", 3, [[0, 1, 2], [0, 2, 3]]⟩ ∨ b = ⟨"line", 2, [[0, 4]]⟩ := by simpa [vtkEx] using hb
  rcases this with rfl | rfl
  · exact ⟨⟨5, by decide +kernel, .inr (by decide +kernel), .inr (by decide +kernel)⟩, by decide, by decide, by decide⟩
  · exact ⟨⟨3, by decide +kernel, .inr (by decide +kernel), .inr (by decide +kernel)⟩, by decide, by decide, by decide⟩

/-! ## Structured grids -/

instance vtk_decNumeral (w : List Char) (n : Nat) : Decidable (Numeral w n) := by unfold Numeral; infer_instance

/-- A file with structured points. -/
def vtkExGrid : List Char :=
  "# vtk DataFile Version 3.0\nvolume\nascii\nDATASET structured_points\nDIMENSIONS 3 2 1\nOrigin 1 2 3\nSPACING 1 2 1\nPOINT_DATA 6\nSCALARS d int\nLOOKUP_TABLE default\n1 2 3\n4 5 6\nCELL_DATA 2\nFIELD f 1\ng 1 2 int\n7 8\n".toList

theorem vtkExGrid_says : vtkFileSays vtkIntIO (fun d x => IsInt (itemSize d) x) .v42 true "STRUCTURED_POINTS"
    [.dims 3 2 1, .floats "ORIGIN" 1 2 3, .floats "SPACING" 1 2 1, .pointData 6, .scalars "d" ⟨"int32", [1], [[1], [2], [3], [4], [5], [6]]⟩,
      .cellData 2, .arrays [("g", ⟨"int32", [], [[7], [8]]⟩)]] vtkExGrid := by
  refine ⟨"3.0".toList, "volume".toList, "ascii".toList, [], _, "DIMENSIONS 3 2 1\nOrigin 1 2 3\nSPACING 1 2 1\nPOINT_DATA 6\nSCALARS d int\nLOOKUP_TABLE default\n1 2 3\n4 5 6\nCELL_DATA 2\nFIELD f 1\ng 1 2 int\n7 8\n".toList,
    ?_, by decide, by decide, by decide, by decide +kernel,
    (show vtkExGrid = linesText ["# vtk DataFile Version ".toList ++ "3.0".toList, "volume".toList, "ascii".toList] ++
      "DATASET structured_points\nDIMENSIONS 3 2 1\nOrigin 1 2 3\nSPACING 1 2 1\nPOINT_DATA 6\nSCALARS d int\nLOOKUP_TABLE default\n1 2 3\n4 5 6\nCELL_DATA 2\nFIELD f 1\ng 1 2 int\n7 8\n".toList by decide +kernel),
    ⟨"structured_points".toList, by decide +kernel, "DATASET structured_points".toList, "DATASET".toList, by decide, by decide +kernel, by decide +kernel, by decide +kernel⟩, ?_⟩
  · exact (show ("3.0".toList ≠ [] ∧ ∀ c ∈ "3.0".toList, isWs c = false) by decide +kernel)
  refine ⟨"Origin 1 2 3\nSPACING 1 2 1\nPOINT_DATA 6\nSCALARS d int\nLOOKUP_TABLE default\n1 2 3\n4 5 6\nCELL_DATA 2\nFIELD f 1\ng 1 2 int\n7 8\n".toList, ⟨(fun _ kv hkv => nomatch hkv), rfl, by decide⟩,
    ⟨"3".toList, "2".toList, "1".toList, ⟨"DIMENSIONS 3 2 1".toList, "DIMENSIONS".toList, by decide +kernel, by decide +kernel, by decide +kernel, by decide +kernel⟩, by decide +kernel, by decide +kernel, by decide +kernel⟩, ?_⟩
  refine ⟨"SPACING 1 2 1\nPOINT_DATA 6\nSCALARS d int\nLOOKUP_TABLE default\n1 2 3\n4 5 6\nCELL_DATA 2\nFIELD f 1\ng 1 2 int\n7 8\n".toList, ⟨(fun _ kv hkv => nomatch hkv), rfl, rfl, by decide⟩,
    ⟨"1".toList, "2".toList, "3".toList, ⟨"Origin 1 2 3".toList, "Origin".toList, by decide +kernel, by decide +kernel, by decide +kernel, by decide +kernel⟩, by decide +kernel, by decide +kernel, by decide +kernel⟩, ?_⟩
  refine ⟨"POINT_DATA 6\nSCALARS d int\nLOOKUP_TABLE default\n1 2 3\n4 5 6\nCELL_DATA 2\nFIELD f 1\ng 1 2 int\n7 8\n".toList, ⟨(fun _ kv hkv => nomatch hkv), rfl, rfl, by decide⟩,
    ⟨"1".toList, "2".toList, "1".toList, ⟨"SPACING 1 2 1".toList, "SPACING".toList, by decide +kernel, by decide +kernel, by decide +kernel, by decide +kernel⟩, by decide +kernel, by decide +kernel, by decide +kernel⟩, ?_⟩
  refine ⟨"SCALARS d int\nLOOKUP_TABLE default\n1 2 3\n4 5 6\nCELL_DATA 2\nFIELD f 1\ng 1 2 int\n7 8\n".toList, ⟨(fun _ kv hkv => nomatch hkv), trivial⟩,
    ⟨"6".toList, [], ⟨"POINT_DATA 6".toList, "POINT_DATA".toList, by decide +kernel, by decide +kernel, by decide +kernel, by decide +kernel⟩, by decide +kernel⟩, ?_⟩
  refine ⟨"CELL_DATA 2\nFIELD f 1\ng 1 2 int\n7 8\n".toList, ⟨(fun h => nomatch h), rfl, 1, rfl, by decide, by decide, by unfold Arr.Rows; decide⟩,
    ⟨"int".toList, [], "int32", _, "LOOKUP_TABLE default".toList, "LOOKUP_TABLE".toList, "default".toList, "1 2 3\n4 5 6\nCELL_DATA 2\nFIELD f 1\ng 1 2 int\n7 8\n".toList,
      ⟨"SCALARS d int".toList, "SCALARS".toList, by decide +kernel, by decide +kernel, by decide +kernel, rfl⟩, ⟨"int", by decide +kernel, by decide +kernel⟩, by decide, .inl ⟨rfl, rfl⟩,
      by decide +kernel, by decide +kernel, by decide +kernel, by decide +kernel,
      ⟨"1 2 3\n4 5 6\n".toList, by decide +kernel, by decide +kernel, by decide, ?_, ?_⟩⟩, ?_⟩
  · intro c hc
    cases (show some '\n' = some c from hc)
    rfl
  · intro _ c hc
    cases (show some 'C' = some c from hc)
    rfl
  refine ⟨"FIELD f 1\ng 1 2 int\n7 8\n".toList, ⟨(fun h => nomatch h), trivial⟩,
    ⟨"2".toList, [], ⟨"CELL_DATA 2".toList, "CELL_DATA".toList, by decide +kernel, by decide +kernel, by decide +kernel, by decide +kernel⟩, by decide +kernel⟩, ?_⟩
  refine ⟨[], ⟨(fun h => nomatch h), by decide, ?_⟩,
    ⟨"f".toList, "1".toList, [], "g 1 2 int\n7 8\n".toList, ⟨"FIELD f 1".toList, "FIELD".toList, by decide +kernel, by decide +kernel, by decide +kernel, by decide +kernel⟩, by decide +kernel, ?_⟩, rfl⟩
  · intro kv hkv
    cases List.mem_singleton.1 hkv
    exact ⟨.inl ⟨rfl, by unfold Arr.Rows; decide⟩, by decide⟩
  · refine ⟨[], ⟨_, "7 8\n".toList, "g 1 2 int".toList, "1".toList, "2".toList, "int".toList, "int32", .inl rfl, by decide +kernel, by decide +kernel, by decide +kernel, by decide +kernel, by decide +kernel,
      ⟨"int", by decide +kernel, by decide +kernel⟩, by decide, ⟨"7 8\n".toList, by decide +kernel, by decide +kernel, by decide, ?_, ?_⟩⟩, rfl⟩
    · intro c hc
      cases (show some '\n' = some c from hc)
      rfl
    · intro _ c hc
      cases hc

/-- It meets the hypotheses of `C62_structured_points`. -/
example : read vtkIntIO vtkExGrid = .ok ⟨some ⟨"float64", [3], [[1, 2, 3], [2, 2, 3], [3, 2, 3], [1, 4, 3], [2, 4, 3], [3, 4, 3]]⟩,
    [("quad", [[0, 1, 4, 3], [1, 2, 5, 4]])], [("d", ⟨"int32", [1], [[1], [2], [3], [4], [5], [6]]⟩)], [("g", [⟨"int32", [], [[7], [8]]⟩])], []⟩ := by
  rw [C62_structured_points vtkIntIO_laws vtkExGrid_says (o1 := 1) (o2 := 2) (o3 := 3) (s1 := 1) (s2 := 2) (s3 := 1) (by decide +kernel) (by decide +kernel) (x := 3) (y := 2) (z := 1)
    (by decide +kernel) (by decide) (by decide) (by decide) (by decide) (by decide +kernel) (by decide +kernel)]
  decide +kernel

/-! ## What is refused -/

/-- An array whose name contains a blank is not written. -/
theorem C63_blank_name (io : VtkIO V) (v : Ver) (title : List Char) (binary : Bool) (m : In V) {kv : String × Arr V} (hkv : kv ∈ m.pointData)
    (hb : ' ' ∈ kv.1.toList) (s : List Char) : write io v title binary m ≠ .ok s := by
  intro h
  unfold write at h
  have hw : ∀ t, writeData io v binary "POINT_DATA".toList m.points.rows.length (m.pointData.map fun kv => (kv.1, pad io kv.2)) ≠ .ok t := by
    intro t ht
    unfold writeData writeFields at ht
    rw [if_neg (by intro e; rw [List.map_eq_nil_iff.1 e] at hkv; cases hkv)] at ht
    obtain ⟨e, he⟩ := Flac3d.mapRes_error (f := fun kv : String × Arr V => writeArray io v binary kv.1 kv.2) (l := m.pointData.map fun kv => (kv.1, pad io kv.2))
      (a := (kv.1, pad io kv.2)) (List.mem_map.2 ⟨kv, hkv, rfl⟩) (by unfold writeArray; exact if_pos hb)
    rw [he] at ht
    cases ht
  repeat' split at h
  all_goals first | cases h | skip
  exact hw _ ‹_›

/-- Neither are cells of a type for which VTK has no number. -/
theorem C63_no_code (io : VtkIO V) (v : Ver) (title : List Char) (binary : Bool) (m : In V) {b : Blk2} (hb : b ∈ m.cells)
    (hc : vtkCode b.type = none) (s : List Char) : write io v title binary m ≠ .ok s := by
  intro h
  unfold write at h
  have hf : Types.find Types.meshioToVtk b.type = none := by
    cases hf : Types.find Types.meshioToVtk b.type with
    | none => rfl
    | some c =>
      have k : ∀ e ∈ Types.meshioToVtk, (vtkCode e.1).isSome := by decide +kernel
      have := k _ (Types.find_mem hf)
      rw [hc] at this
      cases this
  have hw : ∀ t, writeTypes binary m.cells ≠ .ok t := by
    intro t ht
    unfold writeTypes at ht
    obtain ⟨e, he⟩ := Flac3d.mapRes_error (f := fun b : Blk2 => typesOut (b.type, b.rows)) hb (e := .keyError) (by simp only [typesOut, hf])
    rw [he] at ht
    cases ht
  repeat' split at h
  all_goals first | cases h | skip
  exact hw _ ‹_›

/-- … and points of a type the version does not know. -/
theorem C63_points_type (io : VtkIO V) (v : Ver) (title : List Char) (binary : Bool) (m : In V) (hd : ∀ e ∈ dtypes v, e.2 ≠ m.points.dtype) :
    write io v title binary m = .error .keyError := by
  have : vtkDtype v (pad io m.points).dtype = none := by
    have e : (pad io m.points).dtype = m.points.dtype := by unfold pad; split <;> rfl
    rw [e]
    unfold vtkDtype
    rw [List.find?_eq_none.2 (fun x hx => by simpa using hd x hx)]
    rfl
  unfold write writePoints
  rw [this]

/-! ## The version -/

/-- The first line tells the version. -/
theorem C63_version (io : VtkIO V) (v : Ver) (title : List Char) (binary : Bool) (m : In V) {s : List Char} (h : write io v title binary m = .ok s) :
    (match v with
      | .v42 => "# vtk DataFile Version 4.2\n".toList
      | .v51 => "# vtk DataFile Version 5.1\n".toList) <+: s := by
  unfold write at h
  repeat' split at h
  all_goals first | cases h | skip
  have hl : ∀ (a : List Char) l, linesText (a :: l) = a ++ ['\n'] ++ linesText l := fun a l => by simp [linesText]
  have h1 : "# vtk DataFile Version 4.2\n".toList = "# vtk DataFile Version 4.2".toList ++ ['\n'] := by decide +kernel
  have h2 : "# vtk DataFile Version 5.1\n".toList = "# vtk DataFile Version 5.1".toList ++ ['\n'] := by decide +kernel
  cases v
  · simp only [header, hl, List.append_assoc, h1]
    rw [← List.append_assoc]
    exact List.prefix_append _ _
  · simp only [header, hl, List.append_assoc, h2]
    rw [← List.append_assoc]
    exact List.prefix_append _ _

/-- A format name that ends in the digits of a version writes that version — false: `vtk51` writes version 4.2. -/
def C63_named_version_statement : Prop := ∀ e ∈ writers, (e.1 = "vtk42" → e.2 = .v42) ∧ (e.1 = "vtk51" → e.2 = .v51)

theorem C63_named_version_false : ¬ C63_named_version_statement := by
  intro h
  exact absurd ((h ("vtk51", .v42) (by decide)).2 rfl) (by decide)

theorem C63_named_version_partial : Types.find writers "vtk42" = some .v42 ∧ Types.find writers "vtk" = some .v51 ∧
    Types.find writers "vtk51" = some .v42 ∧ writers.length = 3 := by decide +kernel

/-! ## What does not come back -/

/-- Everything that is written is read back — false. -/
def C63_roundtrip_statement : Prop := ∀ (v : Ver) (binary : Bool) (m : In Int) (s : List Char),
  write vtkIntIO v "title".toList binary m = .ok s → read vtkIntIO s = .ok (vtkBack vtkIntIO.zero m)

/-- A cloud of points. -/
theorem C63_roundtrip_false : ¬ C63_roundtrip_statement := by
  intro h
  have := h .v51 true ⟨⟨"float64", [3], [[0, 0, 0]]⟩, [], [], []⟩ _ rfl
  revert this
  decide +kernel

/-- A matrix at each point, an array with three axes, is announced with three components and cannot be read, or is read as something else. -/
theorem C63_matrices_lost : (write vtkIntIO .v42 "title".toList false
    ⟨⟨"float64", [3], [[0, 0, 0]]⟩, [⟨"vertex", 1, [[0]]⟩], [("T", ⟨"float64", [3, 3], [[1, 2, 3, 4, 5, 6, 7, 8, 9]]⟩)], []⟩).bind (read vtkIntIO) ≠
      .ok ⟨some ⟨"float64", [3], [[0, 0, 0]]⟩, [("vertex", [[0]])], [("T", ⟨"float64", [3, 3], [[1, 2, 3, 4, 5, 6, 7, 8, 9]]⟩)], [], []⟩ := by
  decide +kernel

/-- An array with one column comes back with one axis. -/
theorem C63_column_axis_lost (zero : String → V) (d : String) (rows : List (List V)) : vtkKept zero ⟨d, [1], rows⟩ = ⟨d, [], rows⟩ := rfl

end Meshio.Props
