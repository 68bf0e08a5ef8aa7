/-
C40 and C57: XDMF files.
-/
import Verif.Proofs.Xdmf
import Verif.Props.Types
namespace Meshio
namespace Props
open Xdmf Types Tables Spec

variable {F T : Type}

/-! ## C40: Mixed topologies -/

/-- C40.  For blocks of linear types, the stream the writer makes is, cell by cell in order, the XDMF code
of the type (1 vertex, 2 line, 4 triangle, 5 quad, 6 tetra, 7 pyramid, 8 wedge, 9 hexahedron), for
vertices and lines the number of nodes, then the nodes. -/
theorem C40_stream (cells : List (String × List (List Int))) (h : ∀ b ∈ cells, b.1 ∈ xdmfMixed.map (·.1)) :
    mixedStream cells = .ok ((rowsOf cells).flatMap fun c =>
      (if c.1 = "vertex" then [1, 1] else xdmfHeader c.1) ++ c.2) :=
  mixedStream_ok cells h

example : mixedStream [("vertex", [[7]]), ("line", [[0, 1]]), ("tetra", [[0, 1, 2, 3]])] =
    .ok [1, 1, 7, 2, 2, 0, 1, 6, 0, 1, 2, 3] := by decide +kernel

/-- The dimension the writer declares is the number of integers it writes, whatever the types. -/
theorem C40_dims (cells : List (String × List (List Int))) (cd : List Int)
    (hu : ∀ b ∈ cells, ∀ r ∈ b.2, r.length = widthOf b.2) (h : mixedStream cells = .ok cd) :
    mixedDim cells = cd.length :=
  mixedDim_eq cells cd hu h

example : mixedDim [("vertex", [[7]]), ("line", [[0, 1]]), ("tetra10", [[0, 1, 2, 3, 4, 5, 6, 7, 8, 9]])] = 18 := by
  decide +kernel

/-- The reader: any non-empty sequence of linear cells, each preceded by its code (and the number of nodes
for a line), is read as these cells in order, one block per run of cells of one type. -/
theorem C40_decode (cs : List (String × List Int)) (hne : cs ≠ []) (h : ∀ c ∈ cs, XdmfCell c) :
    translateMixed (xdmfStream cs) = .ok (groupRuns cs) :=
  translateMixed_stream cs hne h

/-- C40 in full: any blocks the writer takes come back. -/
def C40_statement : Prop :=
  ∀ (cells : List (String × List (List Int))) (cd : List Int),
    (∀ b ∈ cells, ∀ r ∈ b.2, r.length = widthOf b.2) → rowsOf cells ≠ [] → mixedStream cells = .ok cd →
    translateMixed cd = .ok (groupRuns (rowsOf cells))

/-- It is false: the writer puts the number of nodes before a vertex, as XDMF asks for, but the reader
takes it for the node. -/
theorem C40_vertex_false : ¬ C40_statement := by
  intro h
  have := h [("triangle", [[0, 1, 2]]), ("vertex", [[4]])] [4, 0, 1, 2, 1, 1, 4] (by decide) (by decide) (by decide +kernel)
  revert this
  decide +kernel

/-- Higher order cells can be written but not read: KeyError. -/
theorem C40_order2_false :
    (mixedStream [("triangle6", [[0, 1, 2, 3, 4, 5]]), ("line", [[0, 1]])]).isOk = true ∧
    mixedStream [("triangle6", [[0, 1, 2, 3, 4, 5]]), ("line", [[0, 1]])] = .ok [36, 0, 1, 2, 3, 4, 5, 2, 2, 0, 1] ∧
    translateMixed [36, 0, 1, 2, 3, 4, 5, 2, 2, 0, 1] = .error .keyError := by decide +kernel

/-- Without any cell the reader fails. -/
theorem C40_empty : mixedStream [("triangle", []), ("quad", [])] = .ok [] ∧ translateMixed [] = .error .indexError := by
  decide +kernel

/-- C40 for blocks of linear types other than vertices, with at least one cell: the cells come back in
order, neighbouring blocks of one type fused and empty blocks gone. -/
theorem C40_roundtrip_partial (cells : List (String × List (List Int))) (hne : rowsOf cells ≠ [])
    (ht : ∀ b ∈ cells, b.1 ∈ xdmfMixed.map (·.1) ∧ b.1 ≠ "vertex") (hc : ∀ c ∈ rowsOf cells, XdmfCell c) :
    ∃ cd, mixedStream cells = .ok cd ∧ mixedDim cells = cd.length ∧ translateMixed cd = .ok (groupRuns (rowsOf cells)) := by
  have hs : mixedStream cells = .ok (xdmfStream (rowsOf cells)) := by
    rw [C40_stream cells (fun b hb => (ht b hb).1)]
    congr 1
    unfold xdmfStream
    have hv : ∀ c ∈ rowsOf cells, c.1 ≠ "vertex" := by
      intro c hc
      obtain ⟨b, hb, hr⟩ := List.mem_flatMap.1 hc
      obtain ⟨r, _, rfl⟩ := List.mem_map.1 hr
      exact (ht b hb).2
    generalize rowsOf cells = rows at hv
    clear hne ht hc
    induction rows with
    | nil => rfl
    | cons c rows ih =>
      rw [List.flatMap_cons, List.flatMap_cons, ih (fun x hx => hv x (by simp [hx])), if_neg (hv c (by simp))]
  have hu : ∀ b ∈ cells, ∀ r ∈ b.2, r.length = widthOf b.2 := by
    intro b hb r hr
    have width : ∀ e ∈ xdmfMixed, ∀ e' ∈ xdmfMixed, e.1 = e'.1 → e.2.2 = e'.2.2 := by decide +kernel
    have cell : ∀ r ∈ b.2, XdmfCell (b.1, r) := fun r hr =>
      hc _ (List.mem_flatMap.2 ⟨b, hb, List.mem_map.2 ⟨r, hr, rfl⟩⟩)
    obtain ⟨x, hx⟩ := cell r hr
    cases hb2 : b.2 with
    | nil => rw [hb2] at hr; cases hr
    | cons r0 rs =>
      obtain ⟨y, hy⟩ := cell r0 (by rw [hb2]; simp)
      exact width _ hx _ hy rfl
  exact ⟨_, hs, C40_dims cells _ hu hs, C40_decode _ hne hc⟩

example : (∀ b ∈ [("line", [[0, 1]]), ("triangle", [[0, 1, 2], [1, 2, 3]])], b.1 ∈ xdmfMixed.map (·.1) ∧ b.1 ≠ "vertex") ∧
    translateMixed [2, 2, 0, 1, 4, 0, 1, 2, 4, 1, 2, 3] =
      .ok [("line", [[0, 1]]), ("triangle", [[0, 1, 2], [1, 2, 3]])] := by decide +kernel

/-- Lines with another number of nodes are refused. -/
theorem C40_rejects_polyline (n : Int) (hn : n ≠ 2) (rest : List Int) :
    translateMixed (2 :: n :: rest) = .error .readError := by
  unfold translateMixed scanMixed cellSpan
  simp [hn, find, xdmfIdxNumNodes]

/-- A code the reader does not know is refused. -/
theorem C40_rejects_code (x : Nat) (hx : x ∉ [1, 2, 4, 5, 6, 7, 8, 9, 11]) (rest : List Int) :
    translateMixed ((x : Int) :: rest) = .error .keyError := by
  have hf : find xdmfIdxNumNodes x = none := by
    cases h : find xdmfIdxNumNodes x with
    | none => rfl
    | some n =>
      have hm := find_mem h
      have : ∀ e ∈ xdmfIdxNumNodes, e.1 ∈ [1, 2, 4, 5, 6, 7, 8, 9, 11] := by decide
      exact absurd (this _ hm) hx
  unfold translateMixed scanMixed cellSpan
  rw [if_neg (by omega), Int.toNat_natCast, hf]

/-! ## C57: whole files -/

/-- An array XDMF can hold in the given format: a known type, rectangular; as text only the types
`np.savetxt` has a format for, and at most two axes. -/
structure ArrayOk (fmt : Fmt) (a : Nd F) : Prop where
  dtype : a.dtype ∈ ["int8", "int16", "int32", "int64", "uint8", "uint16", "uint32", "uint64", "float32", "float64"]
  rect : ∀ r ∈ a.rows, r.length = prod a.inner
  text : fmt = .xml → a.dtype ∈ ["int32", "int64", "uint32", "uint64", "float32", "float64"] ∧ a.inner.length < 2

/-- An array that can be point or cell data: scalars, 2 or 3 or 6 or 9 components, or matrices. -/
def AttrShape (inner : List Nat) : Prop :=
  inner ∈ [[], [1], [2], [3], [6], [9]] ∨ inner.length = 2

/-- A mesh XDMF can hold. -/
structure XdmfOk (fmt : Fmt) (m : XMesh F) : Prop where
  points : ArrayOk fmt m.points
  dim : m.points.inner = [2] ∨ m.points.inner = [3]
  single : ∀ b, m.cells = [b] → (∃ ty, xdmfName b.1 = some ty) ∧ KnownType b.1 ∧ ∀ r ∈ b.2, r.length = widthOf b.2
  mixed : 2 ≤ m.cells.length → rowsOf m.cells ≠ [] ∧ (∀ b ∈ m.cells, b.1 ∈ xdmfMixed.map (·.1) ∧ b.1 ≠ "vertex") ∧
    ∀ c ∈ rowsOf m.cells, XdmfCell c
  pointNames : (m.pointData.map (·.1)).Nodup
  pointData : ∀ e ∈ m.pointData, ArrayOk fmt e.2 ∧ AttrShape e.2.inner
  pointRows : ∀ e ∈ m.pointData, e.2.rows.length = m.points.rows.length
  cellNames : (m.cellData.map (·.1)).Nodup
  cellBlocks : ∀ e ∈ m.cellData, m.cells ≠ [] ∧ e.2.map (fun a => a.rows.length) = m.cells.map fun b => b.2.length
  cellData : ∀ e ∈ m.cellData, ∃ dtype inner, AttrShape inner ∧
    ∀ a ∈ e.2, a.dtype = dtype ∧ a.inner = inner ∧ ArrayOk fmt a

/-- The blocks as they come back: several blocks are fused to one block per run of cells of one type. -/
def fused (cells : List (String × List (List Int))) : List (String × List (List Int)) :=
  if 2 ≤ cells.length then groupRuns (rowsOf cells) else cells

/-- The arrays of a data set put together and cut again at the given block lengths. -/
def recut (lens : List Nat) (l : List (Nd F)) : List (Nd F) :=
  (splitLens lens (l.flatMap (·.rows))).map fun r =>
    { dtype := (l.head?.map (·.dtype)).getD "", inner := (l.head?.map (·.inner)).getD [], rows := r }

private theorem writable_of {fmt : Fmt} {c : Cfg} (hf : c.fmt = fmt) {a : Nd F} (h : ArrayOk fmt a) : Writable false c a := by
  refine ⟨?_, ?_⟩
  · have : ∀ t ∈ ["int8", "int16", "int32", "int64", "uint8", "uint16", "uint32", "uint64", "float32", "float64"],
        (find numpyToXdmf t).isSome = true := by decide +kernel
    exact this _ h.dtype
  · intro hx
    rw [hf] at hx
    exact ⟨(h.text hx).1, Or.inr (h.text hx).2⟩

theorem attrType_of {inner : List Nat} (h : AttrShape inner) : ∃ ty, attributeType inner = .ok ty := by
  rcases h with h | h
  · have : ∀ i ∈ ([[], [1], [2], [3], [6], [9]] : List (List Nat)), ∃ ty, attributeType i = .ok ty := by
      intro i hi
      simp only [List.mem_cons, List.not_mem_nil, or_false] at hi
      rcases hi with rfl | rfl | rfl | rfl | rfl | rfl <;> exact ⟨_, rfl⟩
    exact this _ h
  · unfold attributeType
    split
    · exact ⟨_, rfl⟩
    · split
      · exact ⟨_, rfl⟩
      · split
        · exact ⟨_, rfl⟩
        · split
          · exact ⟨_, rfl⟩
          · split
            · next h' => exact absurd h h'
            · exact ⟨_, rfl⟩

private theorem rowsOf_lengths (cells : List (String × List (List Int))) :
    (cells.map fun b => b.2.length).sum = (rowsOf cells).length := by
  unfold rowsOf
  induction cells with
  | nil => rfl
  | cons b cells ih => simp only [List.map_cons, List.sum_cons, List.flatMap_cons, List.length_append, List.length_map, ih]

theorem fused_lengths (cells : List (String × List (List Int))) :
    ((fused cells).map fun b => b.2.length).sum = (cells.map fun b => b.2.length).sum := by
  unfold fused
  split
  · rw [rowsOf_lengths, rowsOf_lengths, rowsOf_groupRuns]
  · rfl

private theorem length_rows (l : List (Nd F)) :
    (l.flatMap (·.rows)).length = (l.map fun a => a.rows.length).sum := by
  induction l with
  | nil => rfl
  | cons a l ih => simp only [List.flatMap_cons, List.length_append, List.map_cons, List.sum_cons, ih]

/-- The arrays of a data set put together. -/
def joined (e : List Char × List (Nd F)) : List Char × Nd F :=
  (e.1, { dtype := (e.2.head?.map (·.dtype)).getD "", inner := (e.2.head?.map (·.inner)).getD [],
          rows := e.2.flatMap (·.rows) })

private theorem raw_ok {fmt : Fmt} (m : XMesh F) (h : XdmfOk fmt m) :
    rawCellData m.cellData = .ok (m.cellData.map joined) := by
  unfold rawCellData
  apply mapRes_ok_of_forall
  intro e he
  obtain ⟨dtype, inner, _, ha⟩ := h.cellData e he
  obtain ⟨hne, hl⟩ := h.cellBlocks e he
  have hne2 : e.2 ≠ [] := by
    intro e0
    rw [e0] at hl
    exact hne (by simpa using hl.symm)
  rw [concatNd_ok hne2 (fun a h => ⟨(ha a h).1, (ha a h).2.1⟩)]
  unfold joined
  cases he2 : e.2 with
  | nil => exact absurd he2 hne2
  | cons a l =>
    obtain ⟨h1, h2, _⟩ := ha a (by rw [he2]; simp)
    simp only [List.head?_cons, Option.map_some, Option.getD_some, h1, h2]
    rfl

private theorem cellTopology {c : Cfg} (m : XMesh F) (h : XdmfOk c.fmt m) (s : W F × List (Elem F T))
    (ds : List (Desc F T)) (hg : Good c s ds) :
    ∃ s' topo, putCells c s m.cells = .ok s' ∧ Good c s' (ds ++ topo) ∧
      (∀ d ∈ topo, ∀ a, d.arr = some a → Rect a) ∧
      ∀ r : RSt F, r.cells = [] → foldRes (readDesc (T := T)) r topo = .ok { r with cells := fused m.cells } := by
  cases hcells : m.cells with
  | nil =>
    refine ⟨s, [], rfl, by simpa using hg, by simp, ?_⟩
    intro r hr
    obtain ⟨p, cs, pd, cd⟩ := r
    simp only at hr
    subst hr
    rfl
  | cons b rest =>
    cases rest with
    | nil =>
      obtain ⟨⟨ty, hty⟩, hkn, hu⟩ := h.single b hcells
      obtain ⟨arrs, hi, hgr⟩ := hg
      have hrect := rect_connNd (F := F) (widthOf b.2) b.2 hu
      obtain ⟨w', it, more, h1, h2, h3⟩ := putItem_ok (flat := false) hi
        (writable_int (F := F) false c [widthOf b.2] (by simp) (b.2.map fun r => r.map Xdmf.Val.int))
        [b.2.length, widthOf b.2] (by simp [Nd.shape])
      refine ⟨(w', s.2 ++ [.topology ty [it]]), [.topology ty (connNd (widthOf b.2) b.2)], ?_,
        good_add hgr h2 ⟨it, rfl, h3⟩, ?_, ?_⟩
      · unfold putCells
        simp only
        unfold putSingle
        rw [hty]
        simp only
        unfold connNd
        rw [h1]
      · intro d hd a ha
        simp only [List.mem_singleton] at hd
        subst hd
        simp only [Desc.arr, Option.some.injEq] at ha
        subst ha
        exact hrect
      · intro r hr
        have hmix : ty ≠ "Mixed" := by
          have key : ∀ kv ∈ meshioToXdmf, kv.2.head? ≠ some "Mixed" := by decide +kernel
          unfold xdmfName at hty
          cases hf : find meshioToXdmf b.1 with
          | none => rw [hf] at hty; cases hty
          | some l =>
            rw [hf] at hty
            intro e
            subst e
            exact key _ (find_mem hf) hty
        have ht := C16_xdmf_name b.1 ty hty
        rw [readDesc_topology r ty _ _ (readTopology_single r.cells ty b.1 (widthOf b.2) b.2 hmix ht hkn), hr]
        rfl
    | cons b2 rest =>
      have hlen : 2 ≤ m.cells.length := by rw [hcells]; simp
      obtain ⟨hne, ht, hc⟩ := h.mixed hlen
      obtain ⟨cd, g1, g2, g3⟩ := C40_roundtrip_partial m.cells hne ht hc
      rw [hcells] at g1 g2 g3
      obtain ⟨arrs, hi, hgr⟩ := hg
      obtain ⟨w', it, more, h1, h2, h3⟩ := putItem_ok (flat := false) hi
        (writable_int (F := F) false c [] (by simp) (cd.map fun i => [Xdmf.Val.int i]))
        [mixedDim (b :: b2 :: rest)] (by simp [Nd.shape, g2])
      refine ⟨(w', s.2 ++ [.topology "Mixed" [it]]), [.topology "Mixed" (flatNd cd)], ?_,
        good_add hgr h2 ⟨it, rfl, h3⟩, ?_, ?_⟩
      · unfold putCells
        simp only
        rw [g1]
        simp only
        unfold flatNd
        rw [h1]
      · intro d hd a ha
        simp only [List.mem_singleton] at hd
        subst hd
        simp only [Desc.arr, Option.some.injEq] at ha
        subst ha
        exact rect_flatNd cd
      · intro r hr
        rw [readDesc_topology r _ _ _ (readTopology_mixed r.cells _ cd g3)]
        unfold fused
        rw [if_pos (by simp)]

/-- C57.  A mesh XDMF can hold, written in any of the three formats (numbers in the XML, one binary file
per array, or an HDF5 file), comes back: the same points, point data under the same names in the same
order, the cells in order with several blocks fused to runs of one type, and the cell data cut at the
blocks that come back.  It holds whatever files were there before. -/
theorem C57_fused (c : Cfg) (hc : NamesOk c) (fs : Files F) (m : XMesh F) (h : XdmfOk c.fmt m) :
    ∃ w grid, Xdmf.write (T := T) c (start c fs) m = .ok (w, grid) ∧
      Xdmf.read c.dir w.files grid = .ok { m with
        cells := fused m.cells
        cellData := m.cellData.map fun e => (e.1, recut ((fused m.cells).map fun b => b.2.length) e.2) } := by
  -- points
  obtain ⟨d, hd, hdim⟩ : ∃ d, m.points.inner = [d] ∧ (d = 2 ∨ d = 3) := by
    rcases h.dim with h | h
    · exact ⟨2, h, Or.inl rfl⟩
    · exact ⟨3, h, Or.inr rfl⟩
  obtain ⟨w1, it1, more1, p1, p2, p3⟩ := putItem_ok (inv_start c fs) (writable_of rfl h.points) m.points.shape rfl
  have hp : putPoints (T := T) c (start c fs, []) m.points = .ok (w1, [] ++ [.geometry (geometryType d) [it1]]) := by
    unfold putPoints
    rw [hd]
    simp only
    rw [if_neg (by omega), p1]
  have hg1 : Good (T := T) c (w1, [] ++ [.geometry (geometryType d) [it1]]) ([] ++ [.geometry (geometryType d) m.points]) :=
    good_add (arrs := []) trivial p2 ⟨it1, rfl, p3⟩
  -- cells
  obtain ⟨s2, topo, t1, t2, t3, t4⟩ := cellTopology m h _ _ hg1
  -- point data
  obtain ⟨s3, q1, q2⟩ := putAttrs_ok (flat := false) "Node" m.pointData s2 _ t2 (fun e he =>
    ⟨attrType_of (h.pointData e he).2, writable_of rfl (h.pointData e he).1⟩)
  -- cell data
  have hraw := raw_ok m h
  have hrawOk : ∀ e ∈ m.cellData.map joined, AttrShape e.2.inner ∧ Writable false c e.2 ∧ Rect e.2 := by
    intro e he
    obtain ⟨e0, he0, rfl⟩ := List.mem_map.1 he
    obtain ⟨dtype, inner, hsh, ha⟩ := h.cellData e0 he0
    obtain ⟨hne, hl⟩ := h.cellBlocks e0 he0
    cases he2 : e0.2 with
    | nil => rw [he2] at hl; exact absurd (by simpa using hl.symm) hne
    | cons a l =>
      obtain ⟨h1, h2, h3⟩ := ha a (by rw [he2]; simp)
      unfold joined
      simp only [he2, List.head?_cons, Option.map_some, Option.getD_some]
      refine ⟨by rw [h2]; exact hsh, ?_, ?_⟩
      · have hw : Writable false c a := writable_of rfl h3
        exact hw
      · intro r hr
        obtain ⟨a', ha', hr'⟩ := List.mem_flatMap.1 hr
        obtain ⟨g1, g2, g3⟩ := ha a' (by rw [he2]; exact ha')
        have := g3.rect r hr'
        rw [g2, ← h2] at this
        exact this
  obtain ⟨s4, r1, r2⟩ := putAttrs_ok (flat := false) "Cell" _ s3 _ q2 (fun e he =>
    ⟨attrType_of (hrawOk e he).1, (hrawOk e he).2.1⟩)
  refine ⟨s4.1, s4.2, ?_, ?_⟩
  · unfold Xdmf.write
    rw [hp]
    simp only
    rw [t1]
    simp only
    rw [q1]
    simp only
    rw [hraw]
    simp only
    rw [r1]
  · obtain ⟨arrs, hi, hgrid⟩ := r2
    unfold Xdmf.read
    rw [foldRes_grid (readElem c.dir s4.1.files) readDesc (fun d => ∀ a, d.arr = some a → Rect a)
      (fun e d s he hp => readElem_desc hc hi e d he hp s) _ _ hgrid]
    · rw [foldRes_append, foldRes_append, foldRes_append]
      have hgeo : foldRes (readDesc (T := T)) { points := none, cells := [], pd := [], cdRaw := [] }
          ([] ++ [.geometry (geometryType d) m.points]) =
          .ok { points := some m.points, cells := [], pd := [], cdRaw := [] } := by
        have : geometryType d = "XY" ∨ geometryType d = "XYZ" := by
          rcases hdim with rfl | rfl
          · exact Or.inl (by decide)
          · exact Or.inr (by decide)
        simp only [List.nil_append, foldRes, readDesc]
        rw [if_pos this]
      rw [hgeo]
      simp only
      rw [t4 _ rfl]
      simp only
      rw [readAttrs_node _ _ (by simpa using h.pointNames)]
      simp only
      rw [readAttrs_cell _ _ (by
        simp only [List.nil_append, List.map_map]
        exact h.cellNames)]
      simp only [List.nil_append, List.map_map]
      have hcd : (m.cellData.map ((fun e => (e.1, splitNd ((fused m.cells).map fun b => b.2.length) e.2)) ∘ joined)) =
          m.cellData.map fun e => (e.1, recut ((fused m.cells).map fun b => b.2.length) e.2) := ?_
      rw [hcd]
      · unfold checked
        rw [if_neg, if_neg]
        · intro hany
          obtain ⟨e, he, hne⟩ := List.any_eq_true.1 hany
          obtain ⟨e0, he0, rfl⟩ := List.mem_map.1 he
          rw [decide_eq_true_iff] at hne
          apply hne
          unfold recut
          rw [List.map_map]
          refine Eq.trans ?_ (map_length_splitLens _ (e0.2.flatMap (·.rows)) ?_)
          · rfl
          · rw [fused_lengths, ← (h.cellBlocks e0 he0).2, length_rows]
            exact Nat.le_refl _
        · intro hany
          obtain ⟨e, he, hne⟩ := List.any_eq_true.1 hany
          rw [decide_eq_true_iff] at hne
          exact hne (h.pointRows e he)
      apply List.map_congr_left
      intro e he
      simp only [Function.comp]
      congr 1
      unfold splitNd recut joined
      simp only
      rw [cellDataFromRaw_splitLens]
      · intro e0
        obtain ⟨hne, _⟩ := h.cellBlocks e he
        have hfu : fused m.cells = [] := by simpa using e0
        unfold fused at hfu
        split at hfu
        · next hl =>
          have := rowsOf_groupRuns (rowsOf m.cells)
          rw [hfu] at this
          exact (h.mixed hl).1 this.symm
        · exact hne hfu
      · obtain ⟨_, hl⟩ := h.cellBlocks e he
        rw [fused_lengths, ← hl, length_rows]
    · intro d hd a ha
      simp only [List.nil_append, List.mem_append, List.mem_singleton, List.mem_map] at hd
      rcases hd with ((rfl | hd) | ⟨e, he, rfl⟩) | ⟨e, he, rfl⟩
      · simp only [Desc.arr, Option.some.injEq] at ha
        subst ha
        exact h.points.rect
      · exact t3 d hd a ha
      · simp only [Desc.arr, Option.some.injEq] at ha
        subst ha
        exact (h.pointData e he).1.rect
      · simp only [Desc.arr, Option.some.injEq] at ha
        subst ha
        exact (hrawOk e (List.mem_map.2 he)).2.2

theorem recut_same (l : List (Nd F)) (dtype : String) (inner : List Nat)
    (h : ∀ a ∈ l, a.dtype = dtype ∧ a.inner = inner) : recut (l.map fun a => a.rows.length) l = l := by
  unfold recut
  have h1 : splitLens (l.map fun a => a.rows.length) (l.flatMap (·.rows)) = l.map (·.rows) := by
    clear h
    induction l with
    | nil => rfl
    | cons a l ih => simp only [List.map_cons, List.flatMap_cons, splitLens, List.take_left', List.drop_left', ih]
  rw [h1, List.map_map]
  conv => rhs; rw [← List.map_id l]
  apply List.map_congr_left
  intro a ha
  obtain ⟨h2, h3⟩ := h a ha
  cases hl : l with
  | nil => rw [hl] at ha; cases ha
  | cons b l' =>
    obtain ⟨h4, h5⟩ := h b (by rw [hl]; simp)
    obtain ⟨dt, inn, rows⟩ := a
    simp only at h2 h3
    simp [h4, h5, h2, h3]

/-- C57, exactly: if no block is empty and neighbouring blocks have different types (or there is at most
one block) the mesh comes back unchanged. -/
theorem C57_roundtrip_partial (c : Cfg) (hc : NamesOk c) (fs : Files F) (m : XMesh F) (h : XdmfOk c.fmt m)
    (hb : 2 ≤ m.cells.length → (∀ b ∈ m.cells, b.2 ≠ []) ∧
      ∀ pre a b post, m.cells = pre ++ a :: b :: post → a.1 ≠ b.1) :
    ∃ w grid, Xdmf.write (T := T) c (start c fs) m = .ok (w, grid) ∧ Xdmf.read c.dir w.files grid = .ok m := by
  obtain ⟨w, grid, h1, h2⟩ := C57_fused (T := T) c hc fs m h
  refine ⟨w, grid, h1, ?_⟩
  rw [h2]
  have hf : fused m.cells = m.cells := by
    unfold fused
    split
    · next hl => exact groupRuns_rowsOf _ (hb hl).1 (hb hl).2
    · rfl
  have hcd : (m.cellData.map fun e => (e.1, recut (m.cells.map fun b => b.2.length) e.2)) = m.cellData := by
    conv => rhs; rw [← List.map_id m.cellData]
    apply List.map_congr_left
    intro e he
    obtain ⟨dtype, inner, _, ha⟩ := h.cellData e he
    rw [← (h.cellBlocks e he).2, recut_same e.2 dtype inner (fun a h => ⟨(ha a h).1, (ha a h).2.1⟩)]
    rfl
  rw [hf, hcd]

/-- A mesh with two blocks, vector point data and integer cell data. -/
def C57_example : XMesh Int :=
  { points := { dtype := "float64", inner := [2], rows := [[.flt 0, .flt 0], [.flt 1, .flt 0], [.flt 0, .flt 1]] }
    cells := [("line", [[0, 1], [1, 2]]), ("triangle", [[0, 1, 2]])]
    pointData := [("u".toList, { dtype := "float32", inner := [3], rows := [[.flt 1, .flt 2, .flt 3], [.flt 4, .flt 5, .flt 6], [.flt 7, .flt 8, .flt 9]] })]
    cellData := [("id".toList, [{ dtype := "int64", inner := [], rows := [[.int 5], [.int 6]] }, { dtype := "int64", inner := [], rows := [[.int 7]] }])] }

example : ∃ w grid, Xdmf.write (T := Nat) ⟨.hdf, "d/".toList, "d/".toList, "a".toList⟩ (start ⟨.hdf, "d/".toList, "d/".toList, "a".toList⟩ []) C57_example = .ok (w, grid) ∧
    Xdmf.read "d/".toList w.files grid = .ok C57_example := by
  refine ⟨_, _, rfl, ?_⟩
  decide +kernel

example : NamesOk ⟨.hdf, "d/".toList, "d/".toList, "a".toList⟩ :=
  ⟨by decide, by decide, by decide, by decide⟩

/-- C57 in full: whatever the writer accepts comes back, up to fused blocks. -/
def C57_statement : Prop :=
  ∀ (c : Cfg) (m : XMesh Int) (w : W Int) (grid : List (Elem Int Nat)), c.dir = c.heavyDir →
    Xdmf.write c (start c []) m = .ok (w, grid) →
    (Xdmf.read c.dir w.files grid).map (·.points) = .ok m.points

/-- It is false: a name with a colon in it gives an HDF5 reference that cannot be split again. -/
theorem C57_colon_false : ¬ C57_statement := by
  intro h
  have := h ⟨.hdf, [], [], "a:b".toList⟩
    { points := { dtype := "float64", inner := [2], rows := [] }, cells := [], pointData := [], cellData := [] } _ _ rfl rfl
  revert this
  decide +kernel

/-- Points with one coordinate can be written but not read: the geometry type "X" is illegal. -/
theorem C57_line_false : ∃ w grid,
    Xdmf.write (T := Nat) ⟨.xml, [], [], "a".toList⟩ (start ⟨.xml, [], [], "a".toList⟩ [])
      { points := { dtype := "float64", inner := [1], rows := [[.flt 0]] }, cells := [], pointData := [], cellData := [] : XMesh Int } = .ok (w, grid) ∧
    Xdmf.read [] w.files grid = .error .readError := by
  refine ⟨_, _, rfl, ?_⟩
  decide +kernel

/-- A topology of a type without a dimension in meshio is refused with KeyError. -/
theorem C57_refuses_type (cells : List (String × List (List Int))) (ty t : String) (a : Nd F) (h1 : ty ≠ "Mixed")
    (h2 : find xdmfToMeshio ty = some t) (h3 : ¬ KnownType t) : readTopology cells ty a = .error .keyError := by
  unfold readTopology
  rw [if_neg h1, h2]
  simp only
  rw [if_pos]
  rw [Bool.not_eq_true', Bool.eq_false_iff]
  exact fun h => h3 ((hasDim_iff t).1 h)

/-- These are all of them: the names XDMF gives to types meshio has no dimension for. -/
theorem C57_types_without_dimension (ty t : String) (h : find xdmfToMeshio ty = some t) :
    ¬ KnownType t ↔ t ∈ ["wedge15", "pyramid13", "hexahedron24", "hexahedron1331"] := by
  have key : ∀ kv ∈ xdmfToMeshio, (¬ KnownType kv.2 ↔ kv.2 ∈ ["wedge15", "pyramid13", "hexahedron24", "hexahedron1331"]) := by decide +kernel
  exact key _ (find_mem h)

example : find xdmfToMeshio "Wedge_15" = some "wedge15" := by decide +kernel

/-- What is read is consistent: a row of point data for each point, a row of cell data for each cell. -/
theorem C57_read_consistent (dir : List Char) (fs : Files F) (grid : List (Elem F T)) (m : XMesh F) (h : Xdmf.read dir fs grid = .ok m) :
    (∀ e ∈ m.pointData, e.2.rows.length = m.points.rows.length) ∧
      ∀ e ∈ m.cellData, e.2.map (fun a => a.rows.length) = m.cells.map fun b => b.2.length := by
  unfold Xdmf.read at h
  split at h
  · cases h
  · split at h
    · cases h
    · unfold checked at h
      split at h
      · cases h
      · split at h
        · cases h
        · next h1 h2 =>
          injection h with h
          subst h
          simp only [List.any_eq_true, decide_eq_true_iff, not_exists, not_and, Classical.not_not] at h1 h2
          exact ⟨h1, h2⟩

/-- Points with more than three coordinates are refused with WriteError. -/
theorem C57_rejects_dim (c : Cfg) (w : W F) (m : XMesh F) (d : Nat) (h : m.points.inner = [d]) (hd : 3 < d) :
    Xdmf.write (T := T) c w m = .error .writeError := by
  unfold Xdmf.write putPoints
  rw [h]
  simp only
  rw [if_pos hd]

/-- Data with 4, 5, 7, 8 or more than 9 components is refused (with ReadError, although it is the
writer): in fact exactly those shapes are accepted that are scalars, have 2, 3, 6 or 9 components, or
have three axes. -/
theorem C57_attribute_shapes (inner : List Nat) :
    (attributeType inner).isOk = true ↔ (inner ∈ [[], [1], [2], [3], [6], [9]] ∨ inner.length = 2) := by
  constructor
  · intro h
    unfold attributeType at h
    split at h
    · next h' => rcases h' with rfl | rfl <;> simp
    · split at h
      · next h' => rcases h' with rfl | rfl <;> simp
      · split at h
        · next h' => rcases h' with rfl | rfl <;> simp
        · split at h
          · next h' => rw [h']; simp
          · split at h
            · cases h
            · next h' => exact Or.inr (Decidable.not_not.1 h')
  · intro h
    obtain ⟨ty, ht⟩ := attrType_of h
    rw [ht]
    rfl

/-- The XDMF name of the kind of data. -/
theorem C57_attribute_names :
    attributeType [] = .ok "Scalar" ∧ attributeType [1] = .ok "Scalar" ∧ attributeType [2] = .ok "Vector" ∧
    attributeType [3] = .ok "Vector" ∧ attributeType [6] = .ok "Tensor6" ∧ attributeType [9] = .ok "Tensor" ∧
    attributeType [3, 3] = .ok "Tensor" ∧ ∀ a b : Nat, ¬ (a = 3 ∧ b = 3) → attributeType [a, b] = .ok "Matrix" := by
  refine ⟨rfl, rfl, rfl, rfl, rfl, rfl, rfl, ?_⟩
  intro a b h
  unfold attributeType
  simp [h]

/-- Small integers and arrays with three axes cannot be written as text. -/
theorem C57_rejects_text (c : Cfg) (w : W F) (dims : List Nat) (a : Nd F) (hc : c.fmt = .xml)
    (ha : a.dtype ∈ ["int8", "int16", "uint8", "uint16"]) : putItem false c w dims a = .error .keyError := by
  have h1 : ∀ t ∈ ["int8", "int16", "uint8", "uint16"], (find numpyToXdmf t).isSome = true ∧ t ∉ printable := by
    decide +kernel
  obtain ⟨h2, h3⟩ := h1 _ ha
  obtain ⟨n, hn⟩ := Option.isSome_iff_exists.1 h2
  unfold putItem putText
  rw [hn, hc]
  simp only
  rw [if_pos h3]

/-- The number type and precision of every type. -/
theorem C57_number_types :
    (["int8", "int16", "int32", "int64", "uint8", "uint16", "uint32", "uint64", "float32", "float64"].map (find numpyToXdmf)) =
      [some ("Int", "1"), some ("Int", "2"), some ("Int", "4"), some ("Int", "8"), some ("UInt", "1"), some ("UInt", "2"),
       some ("UInt", "4"), some ("UInt", "8"), some ("Float", "4"), some ("Float", "8")] := by decide +kernel

end Props
end Meshio
