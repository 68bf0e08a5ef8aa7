/-
C66: writing VTU files.
-/
import Verif.Proofs.VtuFileWrite
import Verif.Props.VtuFile
import Verif.Props.VtkFileWrite
namespace Meshio.Props
open Meshio Meshio.Spec Meshio.VtuFile Meshio.VtkFile Meshio.Vtu Meshio.Vtk Meshio.Tables

variable {F : Type} {io : VtuIO F} {has : Nat → F → Prop} {rnd : F → F} {o : Opts}

/-- The mesh in the file: points in space, floats rounded in text files, the cell data of all blocks together. -/
def vtuPieceOf (rnd : F → F) (zero : F) (o : Opts) (m : VtuFile.In F) (c : CellArrays) : VtuPiece F :=
  ⟨vtuKept rnd o (vtuSpace zero m.points), c, vtuOpt (m.pointData.map fun kv => (kv.1, vtuKept rnd o kv.2)),
    vtuOpt (m.cellData.map fun kv => (kv.1, vtuKept rnd o (vtkJoin kv.2)))⟩

theorem vtuw_space (io : VtuIO F) (a : Arr (Num F)) : pad3 io a = vtuSpace io.zero a := by
  unfold pad3 vtuSpace
  have : isFloat a.dtype = decide (a.dtype = "float32" ∨ a.dtype = "float64") := by
    unfold isFloat
    rw [Bool.decide_or]
    rfl
  rw [this]
  simp only [decide_eq_true_eq]

theorem vtuw_space_rows (zero : F) (a : Arr (Num F)) : (vtuSpace zero a).rows.length = a.rows.length := by
  unfold vtuSpace
  split <;> simp

theorem vtuw_space_tail (zero : F) (a : Arr (Num F)) (h : a.tail ≠ []) : (vtuSpace zero a).tail ≠ [] := by
  unfold vtuSpace
  split
  · simp
  · exact h

theorem vtuw_join (l : List (Arr (Num F))) (h : ∀ a ∈ l, a.dtype = (vtkJoin l).dtype ∧ a.tail = (vtkJoin l).tail) (hne : l ≠ []) :
    concat l = .ok (vtkJoin l) := by
  cases l with
  | nil => exact absurd rfl hne
  | cons a l =>
    unfold concat
    simp only
    rw [if_neg, if_neg]
    · rfl
    · simp only [List.any_eq_true, decide_eq_true_eq, not_exists, not_and, Decidable.not_not]
      intro b hb; exact (h b (by simp [hb])).1
    · simp only [List.any_eq_true, decide_eq_true_eq, not_exists, not_and, Decidable.not_not]
      intro b hb; exact (h b (by simp [hb])).2

theorem vtuw_fields {m : VtuFile.In F} {lens : List Nat} (h : VtuData io has o m lens) (hne : lens ≠ []) :
    VtkFile.cellFields m.cellData = .ok (m.cellData.map fun kv => (kv.1, vtkJoin kv.2)) := by
  unfold VtkFile.cellFields
  apply mapRes_ok_of_forall
  intro kv hkv
  obtain ⟨-, hl, hs⟩ := h.cellData kv hkv
  rw [vtuw_join _ hs (by intro e; rw [e] at hl; exact hne hl.symm)]
  rfl

theorem vtuw_ints (d : String) (l : List Int) : vtuKept rnd o (vtuInts d l) = vtuInts d l := by
  unfold vtuKept vtuInts
  split
  · rfl
  · simp [vtuRound]

theorem vtuw_all {m : VtuFile.In F} {lens : List Nat} (hio : VtuLaws io has rnd) (h : VtuData io has o m lens) (hne : lens ≠ [])
    {ca : List (String × Arr (Num F))} {c : CellArrays}
    (hca : cellArrs m = .ok ca) (hblk : ¬ ((rowBlocks m.cells).isNone ∧ (polyBlocks m.cells).isNone)) (hca0 : ca ≠ []) (hcn : (ca.map (·.1)).Nodup)
    (hsay : CellsSay (keptAll rnd o ca) c) (hcg : ∀ x ∈ ca, VtuGood io has o x) (hl : c.types.length = c.offsets.length)
    (hnc : c.offsets.length = (m.cells.map inLen).sum) (version : List Char) (hv : PlainComment ("This file was created by meshio v".toList ++ version)) :
    ∃ s root, VtuFile.write io version o m = .ok s ∧ parseXml s = some root ∧ ∀ sysBig, SaysVtu io sysBig root [vtuPieceOf rnd io.zero o m c] [] := by
  have := write_says hio (vtuw_fields h hne) hca hblk hca0 hcn hsay (by rw [vtuw_space]; exact h.points.1)
    (by rw [vtuw_space]; exact vtuw_space_tail _ _ h.points.2) hcg (fun x hx => (h.pointData x hx).1) h.pointNames
    (by
      intro x hx
      obtain ⟨kv, hkv, rfl⟩ := List.mem_map.1 hx
      exact (h.cellData kv hkv).1)
    (by rw [List.map_map]; exact h.cellNames) hl (by rw [vtuw_space]; exact vtuw_space_rows _ _) hnc h.header version hv
  rw [vtuw_space] at this
  unfold keptAll at this
  rw [List.map_map] at this
  exact this

theorem vtuw_rowBlocks (bs : List Blk2) : rowBlocks (bs.map .rows) = some bs := by
  induction bs with
  | nil => rfl
  | cons b bs ih => simp [rowBlocks, ih]

theorem vtuw_lens (bs : List Blk2) : (vtkCellsOf bs).length = (bs.map (·.rows.length)).sum := by
  unfold vtkCellsOf
  simp [List.length_flatMap]

/-- **The file of a mesh of ordinary cells** holds the points, the nodes of the cells in VTK's order with their end positions and type
numbers, and the data. -/
theorem C66_file (hio : VtuLaws io has rnd) {m : VtuFile.In F} {bs : List Blk2} (h : VtuRows io has o m bs) (version : List Char)
    (hv : PlainComment ("This file was created by meshio v".toList ++ version)) :
    ∃ s root, VtuFile.write io version o m = .ok s ∧ parseXml s = some root ∧ ∀ sysBig, SaysVtu io sysBig root
      [vtuPieceOf rnd io.zero o m ⟨connectivityOf (vtkCellsOf bs), endsFrom 0 (vtkCellsOf bs), (vtkCellsOf bs).map (·.1), none, none⟩] [] := by
  have hne : bs ≠ [] := by
    rintro rfl
    obtain ⟨b, hb, -⟩ := h.anyCell
    cases hb
  have hw := writeRowsVtu_ok bs (fun b hb => VtuWritable.writable (h.blocks b hb)) h.nonempty (fun b hb => (h.blocks b hb).2)
  rw [cellsOf_blk] at hw
  refine vtuw_all hio h.data (by simpa using hne)
    (ca := [("connectivity", vtuInts m.idx (connectivityOf (vtkCellsOf bs))), ("offsets", vtuInts m.idx (endsFrom 0 (vtkCellsOf bs))),
      ("types", vtuInts "int64" ((vtkCellsOf bs).map fun c => (c.1 : Int)))]) ?_ ?_ (by simp) (by simp) ?_ h.arrays ?_ ?_ version hv
  · unfold cellArrs
    rw [h.cells, if_neg (by simpa using hne), vtuw_rowBlocks]
    simp only [hw, arraysOf, List.map_map]
    rfl
  · rw [h.cells, vtuw_rowBlocks]; simp
  · unfold keptAll
    simp only [List.map_cons, List.map_nil, vtuw_ints]
    refine ⟨⟨_, rfl, .inl rfl, rfl⟩, ⟨_, rfl, .inl rfl, rfl⟩, ⟨_, rfl, .inl rfl, ?_⟩, rfl, rfl⟩
    simp only [vtuInts, List.map_map]
    rfl
  · simp [length_endsFrom]
  · rw [h.cells, List.map_map, length_endsFrom, vtuw_lens]
    rfl

/-- What comes back: neighbouring blocks of one type and width as one. -/
def vtuBack (rnd : F → F) (zero : F) (o : Opts) (m : VtuFile.In F) (bs : List Blk2) : VtuFile.Out F :=
  ⟨vtuKept rnd o (vtuSpace zero m.points), (fuse (bs.map fun b => (b.type, b.rows))).map fun b => .rows b.1 b.2,
    m.pointData.map fun kv => (kv.1, vtuKept rnd o kv.2),
    m.cellData.map fun kv => (kv.1, (fuseData (bs.map fun b => (b.type, b.rows)) (vtuKept rnd o (vtkJoin kv.2)).rows).map fun rows =>
      ⟨(vtkJoin kv.2).dtype, (vtkJoin kv.2).tail, rows⟩), []⟩

theorem vtuw_opt (d : Dict (Arr (Num F))) : (vtuOpt d).getD [] = d := by
  unfold vtuOpt
  split
  · rename_i h; rw [h]; rfl
  · rfl

theorem vtuw_rows_length (a : Arr (Num F)) : (vtuKept rnd o a).rows.length = a.rows.length := by
  rw [← List.length_map (f := List.length), (kept_dtype _).2.2, List.length_map]

theorem vtuw_pd {m : VtuFile.In F} {lens : List Nat} (h : VtuData io has o m lens) (c : CellArrays) :
    ∀ d ∈ (vtuPieceOf rnd io.zero o m c).pointData, Dict.Ok d ∧ ∀ kv ∈ d, kv.2.rows.length = (vtuPieceOf rnd io.zero o m c).points.rows.length := by
  intro d hd
  have e : d = keptAll rnd o m.pointData := by
    simp only [vtuPieceOf, vtuOpt] at hd
    split at hd
    · cases hd
    · cases hd; rfl
  subst e
  refine ⟨keptAll_ok h.pointNames, ?_⟩
  intro kv hkv
  obtain ⟨x, hx, rfl⟩ := List.mem_map.1 hkv
  simp only [vtuPieceOf, vtuw_rows_length, vtuw_space_rows]
  exact (h.pointData x hx).2

theorem vtuw_cd {m : VtuFile.In F} {lens : List Nat} (h : VtuData io has o m lens) (c : CellArrays) :
    ∀ d ∈ (vtuPieceOf rnd io.zero o m c).cellData, Dict.Ok d ∧ ∀ kv ∈ d, kv.2.rows.length = lens.sum := by
  intro d hd
  have e : d = keptAll rnd o (m.cellData.map fun kv => (kv.1, vtkJoin kv.2)) := by
    simp only [vtuPieceOf, vtuOpt] at hd
    split at hd
    · cases hd
    · cases hd; simp [keptAll]
  subst e
  refine ⟨keptAll_ok (by rw [List.map_map]; exact h.cellNames), ?_⟩
  intro kv hkv
  obtain ⟨x, hx, rfl⟩ := List.mem_map.1 hkv
  obtain ⟨y, hy, rfl⟩ := List.mem_map.1 hx
  simp only [vtuw_rows_length]
  obtain ⟨-, hl, -⟩ := h.cellData y hy
  rw [← hl]
  simp [vtkJoin, List.length_flatMap]

/-- **A mesh of ordinary cells is read back**, on any machine. -/
theorem C66_roundtrip (hio : VtuLaws io has rnd) {m : VtuFile.In F} {bs : List Blk2} (h : VtuRows io has o m bs) (version : List Char)
    (hv : PlainComment ("This file was created by meshio v".toList ++ version)) :
    ∃ s, VtuFile.write io version o m = .ok s ∧ ∀ sysBig, VtuFile.read io sysBig s = .ok (vtuBack rnd io.zero o m bs) := by
  obtain ⟨s, root, h1, h2, h3⟩ := C66_file hio h version hv
  refine ⟨s, h1, fun sysBig => ?_⟩
  have hcodes : ∀ b ∈ bs.map Blk2.blk, ∃ c, vtkCode b.1 = some c := by
    intro b hb
    obtain ⟨b', hb', rfl⟩ := List.mem_map.1 hb
    obtain ⟨⟨c, hc, _⟩, _⟩ := h.blocks b' hb'
    exact ⟨c, hc⟩
  have hcne : vtkCellsOf bs ≠ [] := by
    obtain ⟨b, hb, hr⟩ := h.anyCell
    obtain ⟨r, hr⟩ := List.exists_mem_of_ne_nil _ hr
    exact List.ne_nil_of_mem (List.mem_flatMap.2 ⟨b, hb, List.mem_map.2 ⟨r, hr, rfl⟩⟩)
  have hread : ∀ c ∈ vtkCellsOf bs, Readable c := by
    intro c hc
    obtain ⟨b, hb, hc⟩ := List.mem_flatMap.1 hc
    obtain ⟨r, hr, rfl⟩ := List.mem_map.1 hc
    obtain ⟨⟨code, k1, k2, k3⟩, k4⟩ := h.blocks b hb
    refine .inr ⟨b.type, ?_, k2, ?_⟩
    · simp only [k1, Option.getD_some]; exact vtkCode_iff.mp k1
    · simp only [k1, Option.getD_some, length_toVtk, k4 r hr]; exact k3
  have hlen : ∀ kv ∈ m.cellData, (vtuKept rnd o (vtkJoin kv.2)).rows.length = (vtkCellsOf bs).length := by
    intro kv hkv
    obtain ⟨-, hl, -⟩ := h.data.cellData kv hkv
    rw [vtuw_rows_length, vtuw_lens, ← hl]
    simp [vtkJoin, List.length_flatMap]
  have hfne : vtkBlocks (vtkCellsOf bs) ≠ [] := by
    rw [← cellsOf_blk, vtkBlocks_cellsOf _ hcodes]
    intro e
    have := C19_fuse_rows (bs.map Blk2.blk)
    rw [e] at this
    have hl := vtkw_rows bs
    rw [← this] at hl
    exact hcne (List.length_eq_zero_iff.1 hl.symm)
  unfold VtuFile.read
  rw [h2]
  simp only
  rw [C65_read_partial (h3 sysBig) rfl hcne hread (vtuw_pd h.data _) (by rw [vtuw_lens]; exact vtuw_cd h.data _), if_neg hfne]
  unfold vtuBack
  have hblk : (bs.map fun b => (b.type, b.rows)) = bs.map Blk2.blk := rfl
  rw [hblk, ← vtkBlocks_cellsOf _ hcodes, cellsOf_blk]
  simp only [vtuPieceOf, vtuw_opt, Except.ok.injEq, VtuFile.Out.mk.injEq, true_and, and_true]
  rw [List.map_map]
  apply List.map_congr_left
  intro kv hkv
  simp only [Function.comp_def, (kept_dtype (vtkJoin kv.2)).1, (kept_dtype (vtkJoin kv.2)).2.1]
  rw [← cellsOf_blk, vtkData_cellsOf _ hcodes _ (by rw [hlen kv hkv, vtkw_rows])]

/-! ### Polyhedra -/

theorem vtuw_polyBlocks (bs : List (String × List PolyCell)) : polyBlocks (bs.map fun b => .poly b.1 b.2) = some (bs.map (·.2)) := by
  induction bs with
  | nil => rfl
  | cons b bs ih => simp [polyBlocks, ih]

theorem vtuw_rowBlocks_poly (bs : List (String × List PolyCell)) (h : bs ≠ []) : rowBlocks (bs.map fun b => .poly b.1 b.2) = none := by
  cases bs with
  | nil => exact absurd rfl h
  | cons b bs => rfl

theorem vtuw_cumsum (k : Int) (l : List Int) : (Vtu.cumsum k l).length = l.length := by
  induction l generalizing k with
  | nil => rfl
  | cons a l ih => simp [Vtu.cumsum, ih]

/-- **The file of a mesh of polyhedra.** -/
theorem C66_file_poly (hio : VtuLaws io has rnd) {m : VtuFile.In F} {bs : List (String × List PolyCell)} (h : VtuPolys io has o m bs) (version : List Char)
    (hv : PlainComment ("This file was created by meshio v".toList ++ version)) :
    ∃ s root, VtuFile.write io version o m = .ok s ∧ parseXml s = some root ∧ ∀ sysBig, SaysVtu io sysBig root
      [vtuPieceOf rnd io.zero o m (writePolyVtu (bs.map (·.2)))] [] := by
  have hne : bs ≠ [] := by
    rintro rfl
    exact h.anyCell rfl
  have hf := h.arrays
  generalize hc : writePolyVtu (bs.map (·.2)) = c at hf
  have hcf : c.faces = some (c.faces.getD []) ∧ c.faceoffsets = some (c.faceoffsets.getD []) ∧ c.types.length = c.offsets.length ∧
      c.offsets.length = (bs.map (·.2.length)).sum := by
    subst hc
    refine ⟨rfl, rfl, ?_, ?_⟩ <;> simp [writePolyVtu, vtuw_cumsum, List.length_flatten, Function.comp_def]
  obtain ⟨hf1, hf2, hl1, hl2⟩ := hcf
  simp only [List.mem_cons, List.not_mem_nil, or_false, forall_eq_or_imp, forall_eq] at hf
  refine vtuw_all hio h.data (by simpa using hne)
    (ca := [("connectivity", vtuInts "int64" c.connectivity), ("offsets", vtuInts "int64" c.offsets),
        ("types", vtuInts "int64" (c.types.map Int.ofNat)), ("faces", vtuInts "int64" (c.faces.getD [])),
        ("faceoffsets", vtuInts "int64" ((c.faceoffsets.getD []).map Int.ofNat))]) ?_ ?_ (by simp) (by simp) ?_ ?_ hl1 ?_ version hv
  · unfold cellArrs
    rw [h.cells, if_neg (by simpa using hne), vtuw_rowBlocks_poly bs hne, vtuw_polyBlocks]
    simp only [hc]
    rfl
  · rw [h.cells, vtuw_polyBlocks]; simp
  · unfold keptAll
    simp only [List.map_cons, List.map_nil, vtuw_ints]
    refine ⟨⟨_, rfl, .inl rfl, rfl⟩, ⟨_, rfl, .inl rfl, rfl⟩, ⟨_, rfl, .inl rfl, rfl⟩, ?_, ?_⟩
    · rw [hf1]; exact ⟨_, rfl, .inl rfl, rfl⟩
    · rw [hf2]; exact ⟨_, rfl, .inl rfl, rfl⟩
  · intro x hx
    simp only [List.mem_cons, List.not_mem_nil, or_false] at hx
    have hn : ∀ n ∈ ["connectivity", "offsets", "types", "faces", "faceoffsets"], PlainValue n := by unfold PlainValue; decide +kernel
    rcases hx with rfl | rfl | rfl | rfl | rfl
    · exact ⟨hn _ (by simp), hf.1⟩
    · exact ⟨hn _ (by simp), hf.2.1⟩
    · exact ⟨hn _ (by simp), hf.2.2.1⟩
    · exact ⟨hn _ (by simp), hf.2.2.2.1⟩
    · exact ⟨hn _ (by simp), hf.2.2.2.2⟩
  · rw [h.cells, List.map_map, hl2]
    rfl

/-- **Polyhedra are read back** if they are in the order of their numbers of nodes: one block per number of nodes.  Missing: other orders,
see `C23_false`. -/
theorem C66_roundtrip_poly_partial (hio : VtuLaws io has rnd) {m : VtuFile.In F} {bs : List (String × List PolyCell)} (h : VtuPolys io has o m bs)
    (hasc : (firstSeen ((bs.flatMap (·.2)).map polyNodes)).Pairwise (· < ·)) (version : List Char)
    (hv : PlainComment ("This file was created by meshio v".toList ++ version)) :
    ∃ s, VtuFile.write io version o m = .ok s ∧ ∀ sysBig, VtuFile.read io sysBig s = .ok
      ⟨vtuKept rnd o (vtuSpace io.zero m.points),
        (firstSeen ((bs.flatMap (·.2)).map polyName)).map fun t => .poly t (polysOf (bs.flatMap (·.2)) t),
        m.pointData.map fun kv => (kv.1, vtuKept rnd o kv.2),
        m.cellData.map fun kv => (kv.1, (firstSeen ((bs.flatMap (·.2)).map polyName)).map fun t =>
          ⟨(vtkJoin kv.2).dtype, (vtkJoin kv.2).tail, polyRows (bs.flatMap (·.2)) (vtuKept rnd o (vtkJoin kv.2)).rows t⟩), []⟩ := by
  obtain ⟨s, root, h1, h2, h3⟩ := C66_file_poly hio h version hv
  refine ⟨s, h1, fun sysBig => ?_⟩
  have e : bs.flatMap (·.2) = (bs.map (·.2)).flatten := List.flatMap_def ..
  have hl : (bs.map (·.2)).flatten.length = (bs.map (·.2.length)).sum := by simp [List.length_flatten, Function.comp_def]
  have ha := h.anyCell
  have hfaces := h.faces
  rw [e] at ha hasc hfaces
  unfold VtuFile.read
  rw [h2]
  simp only
  rw [C65_poly_partial (h3 sysBig) rfl ha hfaces hasc (vtuw_pd h.data _) (by rw [hl]; exact vtuw_cd h.data _), ← e]
  simp only [vtuPieceOf, vtuw_opt, Except.ok.injEq, VtuFile.Out.mk.injEq, true_and, and_true, List.map_map]
  apply List.map_congr_left
  intro kv _
  simp only [Function.comp_def, (kept_dtype (vtkJoin kv.2)).1, (kept_dtype (vtkJoin kv.2)).2.1]

/-! ### A concrete mesh -/

/-- Three points of the plane, a triangle and a vertex. -/
def vtuMesh : VtuFile.In Int :=
  ⟨vtuTriPts 0 0 1 0 0 1, [.rows ⟨"triangle", 3, [[0, 1, 2]]⟩, .rows ⟨"vertex", 1, [[2]]⟩], "int64",
    [("p", ⟨"uint8", [], [[.int 255], [.int 0], [.int 7]]⟩)], [("a", [⟨"int32", [2], [[.int (-1), .int 2]]⟩, ⟨"int32", [2], [[.int 3, .int 4]]⟩])]⟩

theorem vtuInt_laws : VtuLaws vtuInt IsInt id where
  parse := parseInt_fmtInt
  tok := isTok_fmtInt
  text x := fmtInt_plain x
  length := fun _ _ _ => length_intEnc ..
  dec := fun _ _ _ h => intDec_intEnc _ _ _ h
  comp := fun _ _ => rfl

instance (d : String) (isz : Nat) (v : Num Int) : Decidable (VtuNum IsInt d isz v) := by
  unfold VtuNum
  cases v <;> simp only <;> unfold IsInt <;> infer_instance

theorem vtu_good {o : Opts} {x : String × Arr (Num Int)} {t : String} {isz : Nat} (h1 : PlainValue x.1) (h2 : (t, x.2.dtype, isz) ∈ vtuKinds)
    (h3 : ∀ r ∈ x.2.rows, ∀ v ∈ r, VtuNum IsInt x.2.dtype isz v)
    (h4 : (x.2.tail = [] ∧ ∀ r ∈ x.2.rows, r.length = 1) ∨ (∃ k, x.2.tail = [k] ∧ 0 < k ∧ ∀ r ∈ x.2.rows, r.length = k))
    (h5 : o.header = none) (h6 : ∀ big, (arrBytes vtuInt big x.2).length < 256 ^ 4) (h7 : o.compression = none) : VtuGood vtuInt IsInt o x :=
  ⟨h1, ⟨⟨t, isz, h2, h3⟩, h4⟩, fun _ => ⟨4, by rw [h5]; decide, h6 _, by intro c hc; rw [h7] at hc; cases hc⟩⟩

/-- The concrete mesh can be written, as text and in binary. -/
theorem vtuMesh_ok (binary sysBig : Bool) : VtuRows vtuInt IsInt ⟨binary, none, none, sysBig⟩ vtuMesh [⟨"triangle", 3, [[0, 1, 2]]⟩, ⟨"vertex", 1, [[2]]⟩] where
  cells := rfl
  blocks := by
    intro b hb
    simp only [List.mem_cons, List.not_mem_nil, or_false] at hb
    rcases hb with rfl | rfl
    · exact ⟨⟨5, by decide +kernel, .inr (by decide +kernel), .inr (by decide +kernel)⟩, by simp⟩
    · exact ⟨⟨1, by decide +kernel, .inr (by decide +kernel), .inr (by decide +kernel)⟩, by simp⟩
  nonempty := by decide
  anyCell := ⟨_, List.mem_cons_self, by simp⟩
  arrays := by
    intro x hx
    simp only [List.mem_cons, List.not_mem_nil, or_false] at hx
    rcases hx with rfl | rfl | rfl
    · exact vtu_good (t := "Int64") (isz := 8) (by unfold PlainValue; decide +kernel) (by decide +kernel) (by decide +kernel) (.inl (by decide +kernel)) rfl (by decide +kernel) rfl
    · exact vtu_good (t := "Int64") (isz := 8) (by unfold PlainValue; decide +kernel) (by decide +kernel) (by decide +kernel) (.inl (by decide +kernel)) rfl (by decide +kernel) rfl
    · exact vtu_good (t := "Int64") (isz := 8) (by unfold PlainValue; decide +kernel) (by decide +kernel) (by decide +kernel) (.inl (by decide +kernel)) rfl (by decide +kernel) rfl
  data := by
    refine ⟨by simp, ⟨?_, by decide +kernel⟩, by decide +kernel, ?_, by decide +kernel, ?_⟩
    · exact vtu_good (t := "Float64") (isz := 8) (by unfold PlainValue; decide +kernel) (by decide +kernel) (by decide +kernel)
        (.inr ⟨3, by decide +kernel, by decide, by decide +kernel⟩) rfl (by decide +kernel) rfl
    · intro kv hkv
      simp only [vtuMesh, List.mem_singleton] at hkv
      subst hkv
      exact ⟨vtu_good (t := "UInt8") (isz := 1) (by unfold PlainValue; decide +kernel) (by decide +kernel) (by decide +kernel)
        (.inl (by decide +kernel)) rfl (by decide +kernel) rfl, by decide +kernel⟩
    · intro kv hkv
      simp only [vtuMesh, List.mem_singleton] at hkv
      subst hkv
      exact ⟨vtu_good (t := "Int32") (isz := 4) (by unfold PlainValue; decide +kernel) (by decide +kernel) (by decide +kernel)
        (.inr ⟨2, by decide +kernel, by decide, by decide +kernel⟩) rfl (by decide +kernel) rfl, by decide +kernel, by decide +kernel⟩

theorem vtu_version : PlainComment ("This file was created by meshio v".toList ++ "5.3.5".toList) := by
  unfold PlainComment
  decide +kernel

example (binary sysBig : Bool) : ∃ s, VtuFile.write vtuInt "5.3.5".toList ⟨binary, none, none, sysBig⟩ vtuMesh = .ok s ∧
    ∀ b, VtuFile.read vtuInt b s = .ok (vtuBack id 0 ⟨binary, none, none, sysBig⟩ vtuMesh [⟨"triangle", 3, [[0, 1, 2]]⟩, ⟨"vertex", 1, [[2]]⟩]) :=
  C66_roundtrip vtuInt_laws (vtuMesh_ok binary sysBig) _ vtu_version

/-- Five points, a tetrahedron and a pyramid as polyhedra. -/
def vtuPolyCells : List (String × List PolyCell) :=
  [("polyhedron", [[[0, 1, 2], [0, 1, 3], [0, 2, 3], [1, 2, 3]]]),
   ("polyhedron", [[[0, 1, 2, 3], [0, 1, 4], [1, 2, 4], [2, 3, 4], [3, 0, 4]]])]

def vtuPolyMesh : VtuFile.In Int :=
  ⟨⟨"float32", [3], [[.flt 0, .flt 0, .flt 0], [.flt 1, .flt 0, .flt 0], [.flt 1, .flt 1, .flt 0], [.flt 0, .flt 1, .flt 0], [.flt 0, .flt 0, .flt 1]]⟩,
    vtuPolyCells.map fun b => .poly b.1 b.2, "int64", [], [("a", [⟨"int16", [], [[.int 5]]⟩, ⟨"int16", [], [[.int 6]]⟩])]⟩

theorem vtuPolyMesh_ok (binary sysBig : Bool) : VtuPolys vtuInt IsInt ⟨binary, none, none, sysBig⟩ vtuPolyMesh vtuPolyCells where
  cells := rfl
  anyCell := by decide +kernel
  faces := by decide +kernel
  arrays := by
    intro l hl
    have key : ∀ l : List Int, (∀ i ∈ l, IsInt 8 i) → (∀ big, (arrBytes vtuInt big (vtuInts "int64" l)).length < 256 ^ 4) →
        VtuArr IsInt (vtuInts "int64" l : Arr (Num Int)) ∧ VtuFits vtuInt ⟨binary, none, none, sysBig⟩ (vtuInts "int64" l) := by
      intro l h1 h2
      refine ⟨⟨⟨"Int64", 8, (by decide +kernel : ("Int64", "int64", 8) ∈ vtuKinds), ?_⟩, .inl ⟨rfl, by simp [vtuInts]⟩⟩,
        fun _ => ⟨4, (by decide +kernel : ("UInt32", 4) ∈ vtuHeaders), h2 _, by simp⟩⟩
      intro r hr v hv
      obtain ⟨i, hi, rfl⟩ := List.mem_map.1 hr
      rw [List.mem_singleton.1 hv]
      exact .inl ⟨(by decide +kernel : "int64" ∈ ["int8", "int16", "int32", "int64"]), h1 i hi⟩
    simp only [List.mem_cons, List.not_mem_nil, or_false] at hl
    rcases hl with rfl | rfl | rfl | rfl | rfl <;> exact key _ (by unfold IsInt; decide +kernel) (by decide +kernel)
  data := by
    refine ⟨by simp, ⟨?_, by decide +kernel⟩, by decide +kernel, by simp [vtuPolyMesh], by decide +kernel, ?_⟩
    · exact vtu_good (t := "Float32") (isz := 4) (by unfold PlainValue; decide +kernel) (by decide +kernel) (by decide +kernel)
        (.inr ⟨3, by decide +kernel, by decide, by decide +kernel⟩) rfl (by decide +kernel) rfl
    · intro kv hkv
      simp only [vtuPolyMesh, List.mem_singleton] at hkv
      subst hkv
      exact ⟨vtu_good (t := "Int16") (isz := 2) (by unfold PlainValue; decide +kernel) (by decide +kernel) (by decide +kernel)
        (.inl (by decide +kernel)) rfl (by decide +kernel) rfl, by decide +kernel, by decide +kernel⟩

example (binary sysBig : Bool) : ∃ s r, VtuFile.write vtuInt "5.3.5".toList ⟨binary, none, none, sysBig⟩ vtuPolyMesh = .ok s ∧
    (∀ b, VtuFile.read vtuInt b s = .ok r) ∧ r.cells = [.poly "polyhedron4" [[[0, 1, 2], [0, 1, 3], [0, 2, 3], [1, 2, 3]]],
      .poly "polyhedron5" [[[0, 1, 2, 3], [0, 1, 4], [1, 2, 4], [2, 3, 4], [3, 0, 4]]]] := by
  obtain ⟨s, h1, h2⟩ := C66_roundtrip_poly_partial vtuInt_laws (vtuPolyMesh_ok binary sysBig) (by decide +kernel) _ vtu_version
  exact ⟨s, _, h1, h2, (by decide +kernel : (firstSeen ((vtuPolyCells.flatMap (·.2)).map polyName)).map
    (fun t => VtuBlock.poly t (polysOf (vtuPolyCells.flatMap (·.2)) t)) = _)⟩

/-! ### What cannot be written or is not read back -/

/-- The property one would like: what the writer accepts, the reader reads. -/
def C66_readable_statement : Prop :=
  ∀ (F : Type) (io : VtuIO F) (has : Nat → F → Prop) (rnd : F → F), VtuLaws io has rnd → ∀ (version : List Char) (o : Opts) (m : VtuFile.In F) s,
    PlainComment ("This file was created by meshio v".toList ++ version) → VtuFile.write io version o m = .ok s →
    ∀ sysBig, ∃ r, VtuFile.read io sysBig s = .ok r ∧ r.points.rows.length = m.points.rows.length ∧ r.pointData.map (·.1) = m.pointData.map (·.1)

/-- The concrete mesh without cells. -/
def vtuNoCells : VtuFile.In Int := ⟨vtuTriPts 0 0 1 0 0 1, [], "int64", [], []⟩

/-- The concrete mesh with another name of the point data. -/
def vtuNamed (n : String) : VtuFile.In Int := { vtuMesh with pointData := vtuMesh.pointData.map fun kv => (n, kv.2) }

/-- Meshes without cells are written to files that are not read. -/
theorem vtuNoCells_unread : (VtuFile.write vtuInt "5".toList ⟨false, none, none, false⟩ vtuNoCells).bind (VtuFile.read vtuInt false) = .error .readError := by
  decide +kernel

theorem C66_readable_false : ¬ C66_readable_statement := by
  intro h
  cases hs : VtuFile.write vtuInt "5".toList ⟨false, none, none, false⟩ vtuNoCells with
  | error e =>
    have := vtuNoCells_unread
    rw [hs] at this
    have h2 : (VtuFile.write vtuInt "5".toList ⟨false, none, none, false⟩ vtuNoCells).toOption.isSome = true := by decide +kernel
    rw [hs] at h2
    cases h2
  | ok s =>
    obtain ⟨r, h1, -⟩ := h Int vtuInt IsInt id vtuInt_laws "5".toList _ _ s (by unfold PlainComment; decide +kernel) hs false
    have := vtuNoCells_unread
    rw [hs] at this
    have h2 : VtuFile.read vtuInt false s = .error .readError := this
    rw [h2] at h1
    cases h1

/-- A name with `&amp;` comes back as another name. -/
theorem C66_name_changed :
    ((VtuFile.write vtuInt "5".toList ⟨false, none, none, false⟩ (vtuNamed "a&amp;b")).bind (VtuFile.read vtuInt false)).map (fun r => r.pointData.map (·.1)) = .ok ["a&b"] := by
  decide +kernel

/-- Polyhedra next to other cells are refused. -/
theorem C66_mixed_refused (io : VtuIO F) (version : List Char) (o : Opts) (m : VtuFile.In F) (b : Blk2) (t : String) (c : List PolyCell)
    (h1 : .rows b ∈ m.cells) (h2 : .poly t c ∈ m.cells) : VtuFile.write io version o m = .error .valueError := by
  have k1 : ∀ l : List InBlock, .poly t c ∈ l → rowBlocks l = none := by
    intro l
    induction l with
    | nil => intro h; cases h
    | cons x l ih =>
      intro h
      rcases List.mem_cons.1 h with rfl | h'
      · rfl
      · cases x with
        | rows b => simp [rowBlocks, ih h']
        | poly _ _ => rfl
  have k2 : ∀ l : List InBlock, .rows b ∈ l → polyBlocks l = none := by
    intro l
    induction l with
    | nil => intro h; cases h
    | cons x l ih =>
      intro h
      rcases List.mem_cons.1 h with rfl | h'
      · rfl
      · cases x with
        | rows b => rfl
        | poly _ _ => simp [polyBlocks, ih h']
  unfold VtuFile.write
  rw [if_pos (by simp [k1 _ h2, k2 _ h1])]

/-- A compression other than lzma and zlib is refused; so is a number type VTU does not know. -/
theorem C66_refused (io : VtuIO F) (version : List Char) (o : Opts) (m : VtuFile.In F) :
    (∀ c, o.binary = true → o.compression = some c → c ≠ "lzma" → c ≠ "zlib" → ∀ s, VtuFile.write io version o m ≠ .ok s) ∧
    (∀ kv ∈ m.pointData, (∀ t isz, (t, kv.2.dtype, isz) ∉ vtuKinds) → ∀ s, VtuFile.write io version o m ≠ .ok s) := by
  constructor
  · intro c hb hc h1 h2 s hs
    have e : rootAttrs o = .error .assertionError := by
      simp [rootAttrs, compressorAttr, hb, hc, Types.find, compressions, Ne.symm h1, Ne.symm h2, Except.map]
    unfold VtuFile.write at hs
    rw [e] at hs
    split at hs <;> cases hs
  · intro kv hkv hk s hs
    have hn : vtuName kv.2.dtype = none := by
      unfold vtuName
      rw [Option.map_eq_none_iff, List.find?_eq_none]
      intro x hx he
      have : ∀ x ∈ vtuTypes, ∃ e ∈ vtuKinds, e.1 = x.1 ∧ e.2.1 = x.2 := by decide +kernel
      obtain ⟨⟨a, b, isz⟩, hi, h3, h4⟩ := this x hx
      simp only at h3 h4
      subst h3 h4
      have he : x.2 = kv.2.dtype := by simpa using he
      rw [he] at hi
      exact hk _ _ hi
    have key : ∀ (l : List (String × Arr (Num F))) k, kv ∈ l → arrElems io o l ≠ .ok k := by
      intro l
      induction l with
      | nil => intro k h; cases h
      | cons x l ih =>
        intro k h hw
        obtain ⟨n, a⟩ := x
        unfold arrElems at hw
        rcases List.mem_cons.1 h with rfl | h
        · unfold arrElem at hw
          simp only [hn] at hw
          cases hw
        · split at hw
          · cases hw
          · cases hr : arrElems io o l with
            | error e => rw [hr] at hw; cases hw
            | ok r => exact ih r h hr
    have hd : ∀ k1 k, dataSec io o "PointData" m.pointData k1 ≠ .ok k := by
      intro k1 k h
      unfold dataSec at h
      rw [if_neg (List.ne_nil_of_mem hkv)] at h
      cases hr : arrElems io o m.pointData with
      | error e => rw [hr] at h; cases h
      | ok r => exact key _ r hkv hr
    have hsec : ∀ k, VtuFile.sections io o m ≠ .ok k := by
      intro k h
      unfold VtuFile.sections at h
      split at h
      · cases h
      · split at h
        · cases h
        · split at h
          · cases h
          · split at h
            · cases h
            · rename_i hh
              exact hd _ _ hh
    unfold VtuFile.write at hs
    split at hs
    · cases hs
    · split at hs
      · cases hs
      · split at hs
        · cases hs
        · rename_i hh
          exact hsec _ hh

/-- An array with three or more axes is written without its shape. -/
theorem C66_shape_dropped (io : VtuIO F) (o : Opts) (n : String) (a : Arr (Num F)) (h : 2 ≤ a.tail.length) (as : List (String × String)) (x : List Char)
    (he : arrElem io o n a = .ok (as, x)) : "NumberOfComponents" ∉ as.map (·.1) := by
  unfold arrElem at he
  split at he
  · cases he
  · split at he
    · cases he
    · simp only [Except.ok.injEq, Prod.mk.injEq] at he
      obtain ⟨rfl, -⟩ := he
      have : compAttr a.tail = [] := by
        cases ht : a.tail with
        | nil => rfl
        | cons k l =>
          cases l with
          | nil => rw [ht] at h; simp at h
          | cons k' l => rfl
      simp [this]

end Meshio.Props
