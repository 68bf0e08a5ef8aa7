/-
C21, C23, C53: VTU pieces, polyhedra and the cell arrays of the writer.
-/
import Verif.Proofs.VtuCells
namespace Meshio.Props
open Meshio Meshio.Spec Meshio.Vtk Meshio.Vtu Meshio.Tables

variable {R : Type}

/-! ## C21: several pieces -/

/-- A piece of a file: points, cells in VTK terms, and cell data by name. -/
structure FilePiece (P R : Type) where
  points : List P
  cells : List VtkCell
  data : Dict (List R)

/-- A piece meshio can read. -/
def FilePiece.Ok {P : Type} (p : FilePiece P R) : Prop :=
  p.cells ≠ [] ∧ (∀ c ∈ p.cells, Readable c) ∧ Dict.Ok p.data ∧
    ∀ kd ∈ p.data, kd.2.length = p.cells.length

/-- The piece as stored in the file. -/
def FilePiece.stored {P : Type} (p : FilePiece P R) : PieceIn P R :=
  ⟨p.cells.length, some p.points,
    some ⟨connectivityOf p.cells, endsFrom 0 p.cells, p.cells.map (·.1), none, none⟩, none, some p.data⟩

/-- The rows of blocks of ordinary cells. -/
def vtuRows : List VtuBlock → List (String × List Int)
  | [] => []
  | .rows t d :: l => d.map (fun r => (t, r)) ++ vtuRows l
  | .poly _ _ :: l => vtuRows l

/-- The rows a file with these pieces stands for: each piece's node numbers count from the
first point of the piece. -/
def fileRows {P : Type} : Nat → List (FilePiece P R) → List (String × List Int)
  | _, [] => []
  | n, p :: ps =>
    (rowsOf (vtkBlocks p.cells)).map (fun x => (x.1, x.2.map (· + (n : Int)))) ++
      fileRows (n + p.points.length) ps

/-- C21 as stated: reading a file of several pieces gives the points and the cells of all
pieces. -/
def C21_statement : Prop :=
  ∀ ps : List (FilePiece Nat Nat), ps ≠ [] → (∀ p ∈ ps, p.Ok) →
    ∃ pts pd blocks cd, readPieces (ps.map FilePiece.stored) = .ok (pts, pd, blocks, cd) ∧
      pts = ps.flatMap (·.points) ∧ vtuRows blocks = fileRows 0 ps

theorem pointOffsets_eq {P : Type} (n : Nat) (p : FilePiece P R) (ps : List (FilePiece P R)) :
    ∃ offs : List Int, pointOffsets n ((p :: ps).map (·.points)) = offs ∧
      offs.length = ps.length + 1 ∧
      offs.getLast? = some (((n + ((p :: ps).dropLast.map (·.points.length)).sum : Nat)) : Int) := by
  induction ps generalizing n p with
  | nil => exact ⟨_, rfl, rfl, by simp [pointOffsets]⟩
  | cons q ps ih =>
    obtain ⟨offs, h1, h2, h3⟩ := ih (n + p.points.length) q
    simp only [List.map_cons, pointOffsets] at h1 ⊢
    refine ⟨_, rfl, by rw [h1]; simp [h2], ?_⟩
    rw [h1]
    cases offs with
    | nil => simp at h2
    | cons o offs =>
      rw [List.getLast?_cons_cons, h3]
      rw [show (p :: q :: ps).dropLast = p :: (q :: ps).dropLast from rfl, List.map_cons, List.sum_cons,
        Nat.add_assoc]

theorem filterMap_some {α β : Type} (f : α → Option β) (g : α → β) (l : List α)
    (h : ∀ a ∈ l, f a = some (g a)) : l.filterMap f = l.map g := by
  rw [← List.filterMap_eq_map]
  exact filterMap_congr' (fun a ha => by rw [h a ha]; rfl)

/-- What the reader does: the points of all pieces, but only the cells and the cell data of
the last piece. -/
theorem C21_last_piece {P : Type} (ps : List (FilePiece P R)) (h : ∀ p ∈ ps, p.Ok) (p : FilePiece P R)
    (hl : ps.getLast? = some p) :
    readPieces (ps.map FilePiece.stored) = .ok (ps.flatMap (·.points), none,
      (vtkBlocks p.cells).map (fun b => VtuBlock.rows b.1
        (b.2.map (fun r => r.map (· + (((ps.dropLast.map (·.points.length)).sum : Nat) : Int))))),
      if vtkBlocks p.cells = [] then [] else p.data.map (fun kd => (kd.1, vtkData p.cells kd.2))) := by
  have hne : ps ≠ [] := by rintro rfl; simp at hl
  have e1 : (ps.map FilePiece.stored).filterMap (·.points) = ps.map (·.points) := by
    rw [List.filterMap_map]; exact filterMap_some _ _ _ (fun _ _ => rfl)
  have e2 : (ps.map FilePiece.stored).filterMap (·.cells) = ps.map (fun p => arraysOf p.cells) := by
    rw [List.filterMap_map]; exact filterMap_some _ _ _ (fun _ _ => rfl)
  have e3 : (ps.map FilePiece.stored).filterMap (·.cellData) = ps.map (·.data) := by
    rw [List.filterMap_map]; exact filterMap_some _ _ _ (fun _ _ => rfl)
  have e4 : (ps.map FilePiece.stored).filterMap (·.pointData) = [] := by
    rw [List.filterMap_map, List.filterMap_eq_nil_iff]; intro _ _; rfl
  unfold readPieces
  rw [if_neg (by simpa using hne)]
  have hb : ¬ ((ps.map FilePiece.stored).any badCounts = true) := by
    simp only [List.any_map, List.any_eq_true, Function.comp_def, not_exists, not_and]
    intro q _
    simp [badCounts, FilePiece.stored, length_endsFrom]
  rw [if_neg hb, e1, e2, e3, e4]
  simp only [List.length_map, ne_eq, not_true_eq_false, if_false,
    List.map_eq_nil_iff, hne, joinPointData]
  obtain ⟨q, qs, rfl⟩ : ∃ q qs, ps = q :: qs := by
    cases ps with
    | nil => exact absurd rfl hne
    | cons q qs => exact ⟨q, qs, rfl⟩
  obtain ⟨offs, h1, h2, h3⟩ := pointOffsets_eq 0 q qs
  rw [h1]
  -- attach the offsets to the pieces
  have key : ∃ pcs : List (PieceCells R), offs = pcs.map (·.offset) ∧
      (q :: qs).map (fun p => arraysOf p.cells) = pcs.map (fun p => arraysOf p.cells) ∧
      (q :: qs).map (·.data) = pcs.map (·.data) ∧ (∀ x ∈ pcs, x.Ok) ∧
      pcs.getLast? = some ⟨(((0 + ((q :: qs).dropLast.map (·.points.length)).sum : Nat)) : Int), p.cells, p.data⟩ := by
    refine ⟨(offs.zip (q :: qs)).map (fun x => ⟨x.1, x.2.cells, x.2.data⟩), ?_, ?_, ?_, ?_, ?_⟩
    · rw [List.map_map]
      have : (fun x : Int × FilePiece P R => (PieceCells.mk x.1 x.2.cells x.2.data).offset) = Prod.fst := rfl
      simp only [Function.comp_def]
      rw [this, List.map_fst_zip (by simp [h2])]
    · rw [List.map_map]
      simp only [Function.comp_def]
      rw [show (fun x : Int × FilePiece P R => arraysOf x.2.cells) = (fun p : FilePiece P R => arraysOf p.cells) ∘ Prod.snd from rfl,
        ← List.map_map, List.map_snd_zip (by simp [h2])]
    · rw [List.map_map]
      simp only [Function.comp_def]
      rw [show (fun x : Int × FilePiece P R => x.2.data) = (fun p : FilePiece P R => p.data) ∘ Prod.snd from rfl,
        ← List.map_map, List.map_snd_zip (by simp [h2])]
    · intro x hx
      obtain ⟨y, hy, rfl⟩ := List.mem_map.mp hx
      exact h y.2 (List.of_mem_zip hy).2
    · rw [List.getLast?_map]
      have hz : (offs.zip (q :: qs)).getLast? = some
          ((((0 + ((q :: qs).dropLast.map (·.points.length)).sum : Nat)) : Int), p) := by
        have : (offs.zip (q :: qs)).length = qs.length + 1 := by simp [h2]
        rw [List.getLast?_eq_getElem?] at h3 hl ⊢
        rw [this]
        rw [h2] at h3
        simp only [List.length_cons] at hl
        rw [List.getElem?_zip_eq_some]
        exact ⟨h3, hl⟩
      rw [hz]; rfl
  obtain ⟨pcs, k1, k2, k3, k4, k5⟩ := key
  rw [k1, k2, k3, organize_ok pcs k4 _ k5]
  simp only [pieceSt, Nat.zero_add]
  rfl

/-- C21 is false: with two pieces the cells of the first one are lost. -/
theorem C21_false : ¬ C21_statement := by
  intro h
  have hok : ∀ p ∈ [FilePiece.mk [10, 11, 12] [(5, [0, 1, 2])] ([] : Dict (List Nat)),
      FilePiece.mk [13, 14, 15] [(5, [0, 1, 2])] []], p.Ok := by
    intro p hp
    have hr : Readable (5, [0, 1, 2]) :=
      .inr ⟨"triangle", by decide +kernel, .inr (by decide +kernel), .inr (by decide +kernel)⟩
    simp only [List.mem_cons, List.not_mem_nil, or_false] at hp
    rcases hp with rfl | rfl <;>
      exact ⟨by simp, by intro c hc; simp only [List.mem_singleton] at hc; subst hc; exact hr,
        by decide, by simp⟩
  obtain ⟨pts, pd, blocks, cd, h1, _, h3⟩ := h _ (by simp) hok
  rw [C21_last_piece _ hok _ rfl] at h1
  injection h1 with h1
  injection h1 with _ h1
  injection h1 with _ h1
  injection h1 with h1 _
  subst h1
  exact absurd h3 (by decide +kernel)

/-- A file with one piece is read completely, with all data. -/
theorem C21_single_partial {P : Type} (p : FilePiece P R) (h : p.Ok) :
    readPieces [p.stored] = .ok (p.points, none,
      (vtkBlocks p.cells).map (fun b => VtuBlock.rows b.1 b.2),
      if vtkBlocks p.cells = [] then [] else p.data.map (fun kd => (kd.1, vtkData p.cells kd.2))) := by
  have := C21_last_piece [p] (by intro q hq; simp only [List.mem_singleton] at hq; subst hq; exact h) p rfl
  simp only [List.map_cons, List.map_nil] at this
  rw [this]
  simp

/-- No data are mixed up between points: whenever the reader succeeds, the points are those
of all pieces in order. -/
theorem C21_points {P : Type} (ps : List (PieceIn P R)) (pts : List P) (pd : Option (Dict (List R)))
    (bs : List VtuBlock) (cd : Dict (List (List R))) (h : readPieces ps = .ok (pts, pd, bs, cd)) :
    pts = ps.flatMap (fun p => p.points.getD []) := by
  have e : (ps.filterMap (·.points)).flatten = ps.flatMap (fun p => p.points.getD []) := by
    clear h
    induction ps with
    | nil => rfl
    | cons p ps ih =>
      rw [List.flatMap_cons, ← ih]
      cases hp : p.points <;> simp [hp]
  unfold readPieces at h
  split at h
  · cases h
  split at h
  · cases h
  dsimp only at h
  revert h
  generalize (if ps.filterMap (·.cellData) = [] then List.replicate (ps.filterMap (·.cells)).length []
    else ps.filterMap (·.cellData) : List (Dict (List R))) = raws
  intro h
  split at h
  · cases h
  split at h
  · cases h
  split at h
  · cases h
  split at h
  · cases h
  · simp only [Except.ok.injEq, Prod.mk.injEq] at h
    rw [← h.1, e]

/-- Point data: whenever the reader succeeds, each array of the first piece's names is the
concatenation of the pieces' arrays. -/
theorem C21_point_data (d : Dict (List R)) (ds : List (Dict (List R))) (r : Dict (List R))
    (h : joinPointData (d :: ds) = .ok (some r)) :
    r.map (·.1) = d.keys ∧ ∀ kv ∈ r, ∀ x ∈ d :: ds, ∃ a, x.get? kv.1 = some a ∧
      kv.2 = (d :: ds).flatMap (fun x => (x.get? kv.1).getD []) := by
  have hj : ∀ (k : String) (l : List (Dict (List R))) (a : List R), joinKey k l = .ok a →
      (∀ x ∈ l, ∃ b, x.get? k = some b) ∧ a = l.flatMap (fun x => (x.get? k).getD []) := by
    intro k l
    induction l with
    | nil => intro a h; cases h; simp
    | cons x l ih =>
      intro a h
      simp only [joinKey] at h
      split at h
      · cases h
      · next b hb =>
        split at h
        · cases h
        · next c hc =>
          obtain ⟨h1, h2⟩ := ih c hc
          cases h
          refine ⟨?_, ?_⟩
          · intro y hy
            rcases List.mem_cons.mp hy with rfl | hy
            · exact ⟨b, hb⟩
            · exact h1 y hy
          · rw [List.flatMap_cons, hb, h2]; rfl
  have hm : ∀ (ks : List String) (r : Dict (List R)), mapRes (joinEntry (d :: ds)) ks = .ok r →
      r.map (·.1) = ks ∧ ∀ kv ∈ r, joinKey kv.1 (d :: ds) = .ok kv.2 := by
    intro ks
    induction ks with
    | nil => intro r h; cases h; simp
    | cons k ks ih =>
      intro r h
      simp only [mapRes] at h
      split at h
      · cases h
      · next b hb =>
        split at h
        · cases h
        · next c hc =>
          cases h
          obtain ⟨h1, h2⟩ := ih c hc
          unfold joinEntry at hb
          split at hb
          · cases hb
          · next a ha =>
            cases hb
            refine ⟨by simp [h1], ?_⟩
            intro kv hkv
            rcases List.mem_cons.mp hkv with rfl | hkv
            · exact ha
            · exact h2 kv hkv
  simp only [joinPointData] at h
  split at h
  · cases h
  · next pd hpd =>
    cases h
    obtain ⟨h1, h2⟩ := hm _ _ hpd
    refine ⟨h1, ?_⟩
    intro kv hkv x hx
    obtain ⟨h3, h4⟩ := hj kv.1 _ _ (h2 kv hkv)
    obtain ⟨a, ha⟩ := h3 x hx
    exact ⟨a, ha, h4⟩

example : joinPointData [[("a", [1, 2])], [("a", [3]), ("b", [4])]] = .ok (some [("a", [1, 2, 3])]) := by
  decide +kernel

/-! ## C53: cells written to a VTU file -/

/-- A block of ordinary cells that VTU can hold. -/
def VtuWritable (b : Blk2) : Prop :=
  (∃ c, vtkCode b.type = some c ∧ KnownType b.type ∧
    (c ∈ varSize ∨ numNodesPerCell.get? b.type = some b.width)) ∧
  ∀ r ∈ b.rows, r.length = b.width

theorem VtuWritable.writable {b : Blk2} (h : VtuWritable b) : Writable b.blk := by
  obtain ⟨⟨c, hc, _, hs⟩, hr⟩ := h
  refine ⟨⟨c, hc⟩, fun e r hr' => ?_⟩
  rw [hr r hr']
  have e : b.type = "wedge" := e
  rw [e] at hc hs
  have h1 : vtkCode "wedge" = some 13 := by decide +kernel
  rw [h1] at hc
  cases hc
  rcases hs with hs | hs
  · exact absurd hs (by decide)
  · have h6 : numNodesPerCell.get? "wedge" = some 6 := by decide +kernel
    rw [h6] at hs
    injection hs with hs
    exact hs.symm

/-- C53 as stated: any list of blocks comes back with all cells and their data. -/
def C53_statement : Prop :=
  ∀ (bs : List Blk2) (raw : Dict (List Nat)), (∀ b ∈ bs, VtuWritable b) → Dict.Ok raw →
    (∀ kd ∈ raw, kd.2.length = (rowsOf (bs.map Blk2.blk)).length) →
    ∃ arr blocks cd, writeRowsVtu bs = .ok arr ∧
      organizeCells [0] [arr] [raw] = .ok (blocks, cd) ∧
      vtuRows blocks = rowsOf (bs.map Blk2.blk)

/-- False: an empty block before another block cannot be written. -/
theorem C53_false : ¬ C53_statement := by
  intro h
  have hok : ∀ b ∈ [Blk2.mk "triangle" 3 [], Blk2.mk "line" 2 [[0, 1]]], VtuWritable b := by
    intro b hb
    simp only [List.mem_cons, List.not_mem_nil, or_false] at hb
    rcases hb with rfl | rfl
    · exact ⟨⟨5, by decide +kernel, .inr (by decide +kernel), .inr (by decide +kernel)⟩, by simp⟩
    · exact ⟨⟨3, by decide +kernel, .inr (by decide +kernel), .inr (by decide +kernel)⟩, by decide⟩
  obtain ⟨arr, _, _, h1, _⟩ := h _ [] hok (by decide) (by simp)
  have : writeRowsVtu [Blk2.mk "triangle" 3 [], Blk2.mk "line" 2 [[0, 1]]] = .error .indexError := by
    rfl
  rw [this] at h1
  cases h1

theorem offsetsOutVtu_empty (pre : List Blk2) (b b' : Blk2) (post : List Blk2) (hb : b.rows = [])
    (prev : Option (List Int)) :
    offsetsOutVtu prev (pre ++ b :: b' :: post) = .error .indexError := by
  have hbase : ∀ e, baseOf prev = .error e → e = .indexError := by
    intro e he
    unfold baseOf at he
    split at he
    · cases he
    · split at he
      · cases he; rfl
      · cases he
  induction pre generalizing prev with
  | nil =>
    cases hp : baseOf prev with
    | error e => simp [offsetsOutVtu, hp, hbase e hp]
    | ok z =>
      have h0 : baseOf (some []) = .error .indexError := rfl
      rw [List.nil_append, offsetsOutVtu, hp]
      simp only [hb, List.length_nil, List.range_zero, List.map_nil]
      rw [offsetsOutVtu, h0]
  | cons a pre ih =>
    rw [List.cons_append, offsetsOutVtu]
    cases hp : baseOf prev with
    | error e => rw [hbase e hp]
    | ok z =>
      simp only []
      rw [ih]
      intro e he
      unfold baseOf at he
      split at he
      · cases he
      · split at he
        · cases he; rfl
        · cases he

/-- An empty block anywhere before another one always fails. -/
theorem C53_empty_block (pre : List Blk2) (b b' : Blk2) (post : List Blk2)
    (hb : b.rows = []) (hall : ∀ x ∈ pre ++ b :: b' :: post, Writable x.blk) :
    writeRowsVtu (pre ++ b :: b' :: post) = .error .indexError := by
  unfold writeRowsVtu
  rw [mapRes_ok_of_forall (g := fun b : Blk2 => b.rows.map (toVtk b.type))]
  · simp only [offsetsOutVtu_empty pre b b' post hb]
  · intro x hx
    obtain ⟨_, h2⟩ := hall x hx
    apply mapRes_ok_of_forall
    intro r hr
    exact outRow_ok x.type r (fun e => h2 e r hr)

/-- The arrays written: all node lists in VTK order, their end positions, and the type
codes. -/
theorem C53_arrays (bs : List Blk2) (h : ∀ b ∈ bs, VtuWritable b)
    (hne : ∀ b ∈ bs.dropLast, b.rows ≠ []) :
    ∃ arr, writeRowsVtu bs = .ok arr ∧
      arr.connectivity = (rowsOf (bs.map Blk2.blk)).flatMap (fun x => toVtk x.1 x.2) ∧
      arr.types = (rowsOf (bs.map Blk2.blk)).map (fun x => (vtkCode x.1).getD 0) ∧
      arr.offsets = endsFrom 0 ((rowsOf (bs.map Blk2.blk)).map (fun x => ((vtkCode x.1).getD 0, x.2))) := by
  refine ⟨_, writeRowsVtu_ok bs (fun b hb => (h b hb).writable) hne (fun b hb => (h b hb).2), ?_, ?_, ?_⟩
  · simp only [arraysOf, cellsOf_eq, connectivityOf, List.flatMap_map]
  · simp only [arraysOf, cellsOf_eq, List.map_map, Function.comp_def]
  · simp only [arraysOf, cellsOf_eq]
    generalize rowsOf (bs.map Blk2.blk) = rows
    have : ∀ (k : Nat) (rows : List (String × List Int)),
        endsFrom k (rows.map (fun x => ((vtkCode x.1).getD 0, toVtk x.1 x.2))) =
          endsFrom k (rows.map (fun x => ((vtkCode x.1).getD 0, x.2))) := by
      intro k rows
      induction rows generalizing k with
      | nil => rfl
      | cons x rows ih => simp only [List.map_cons, endsFrom, length_toVtk, ih]
    exact this 0 rows

/-- What holds: when no block but the last is empty and there is at least one cell,
everything comes back with its data. -/
theorem C53_roundtrip_partial (bs : List Blk2) (h : ∀ b ∈ bs, VtuWritable b)
    (hne : ∀ b ∈ bs.dropLast, b.rows ≠ []) (hrows : rowsOf (bs.map Blk2.blk) ≠ [])
    (raw : Dict (List R)) (hraw : Dict.Ok raw)
    (hdata : ∀ kd ∈ raw, kd.2.length = (rowsOf (bs.map Blk2.blk)).length) :
    ∃ arr, writeRowsVtu bs = .ok arr ∧
      organizeCells [0] [arr] [raw] =
        .ok ((fuse (bs.map Blk2.blk)).map (fun b => VtuBlock.rows b.1 b.2),
          raw.map (fun kd => (kd.1, fuseData (bs.map Blk2.blk) kd.2))) := by
  refine ⟨_, writeRowsVtu_ok bs (fun b hb => (h b hb).writable) hne (fun b hb => (h b hb).2), ?_⟩
  have hc : ∀ b ∈ bs.map Blk2.blk, ∃ c, vtkCode b.1 = some c := by
    intro b hb
    obtain ⟨b', hb', rfl⟩ := List.mem_map.mp hb
    obtain ⟨⟨c, hc, _⟩, _⟩ := h b' hb'
    exact ⟨c, hc⟩
  have hl : (cellsOf (bs.map Blk2.blk)).length = (rowsOf (bs.map Blk2.blk)).length := by
    rw [cellsOf_eq]; simp
  have hcne : cellsOf (bs.map Blk2.blk) ≠ [] := by
    intro e
    rw [e] at hl
    exact hrows (List.length_eq_zero_iff.mp hl.symm)
  have hread : ∀ c ∈ cellsOf (bs.map Blk2.blk), Readable c := by
    intro c hcm
    rw [cellsOf_eq] at hcm
    obtain ⟨x, hx, rfl⟩ := List.mem_map.mp hcm
    obtain ⟨b, hb, e, hr⟩ := mem_rowsOf hx
    obtain ⟨b', hb', rfl⟩ := List.mem_map.mp hb
    obtain ⟨⟨code, h1, h2, h3⟩, h4⟩ := h b' hb'
    have e : x.1 = b'.type := e
    refine .inr ⟨b'.type, ?_, h2, ?_⟩
    · simp only [e, h1, Option.getD_some]; exact vtkCode_iff.mp h1
    · simp only [e, h1, Option.getD_some, length_toVtk, h4 _ hr]; exact h3
  have h2 := organize_ok [PieceCells.mk 0 (cellsOf (bs.map Blk2.blk)) raw]
    (by
      intro p hp
      simp only [List.mem_singleton] at hp
      subst hp
      exact ⟨hcne, hread, hraw, fun kd hkd => by rw [hdata kd hkd, hl]⟩) _ rfl
  simp only [List.map_cons, List.map_nil] at h2
  rw [h2]
  have hfne : fuse (bs.map Blk2.blk) ≠ [] := by
    unfold fuse
    intro e
    have hf := flatten_runsBy (fun x : String × List Int => (x.1, x.2.length))
      (rowsOf (bs.map Blk2.blk))
    rw [List.filterMap_eq_nil_iff] at e
    cases hr : runsBy (fun x : String × List Int => (x.1, x.2.length)) (rowsOf (bs.map Blk2.blk)) with
    | nil => rw [hr] at hf; exact hrows hf.symm
    | cons r rs =>
      have h1 := e r (by rw [hr]; simp)
      cases r with
      | nil => exact runsBy_ne_nil _ _ [] (by rw [hr]; simp) rfl
      | cons x r => simp at h1
  simp only [pieceSt, List.getLast_singleton, vtkBlocks_cellsOf _ hc, if_neg hfne]
  have : raw.map (fun kd => (kd.1, vtkData (cellsOf (bs.map Blk2.blk)) kd.2)) =
      raw.map (fun kd => (kd.1, fuseData (bs.map Blk2.blk) kd.2)) := by
    apply List.map_congr_left
    intro kd hkd
    rw [vtkData_cellsOf _ hc kd.2 (hdata kd hkd)]
  rw [this]
  simp

/-- A mesh without any cell block is written without cell arrays and then not readable. -/
theorem C53_no_cells {P : Type} (points : List P) (pd : Option (Dict (List R))) :
    readPieces [(⟨0, some points, none, pd, none⟩ : PieceIn P R)] = .error .readError ∨
    readPieces [(⟨0, some points, none, pd, none⟩ : PieceIn P R)] = .error .keyError := by
  unfold readPieces
  simp only [List.cons_ne_nil, if_false, List.any_cons, badCounts, List.any_nil, Bool.or_self,
    Bool.false_eq_true, List.filterMap_cons, List.filterMap_nil, if_true, List.length_nil,
    List.replicate_zero, ne_eq, not_true_eq_false]
  split
  · next e he =>
    right
    cases pd with
    | none => simp [joinPointData] at he
    | some d =>
      unfold joinPointData at he
      simp only [] at he
      split at he
      · next e' he' =>
        cases he
        have : ∀ (ks : List String) (e : Err), mapRes (joinEntry [d]) ks = .error e → e = .keyError := by
          intro ks
          induction ks with
          | nil => intro e h; cases h
          | cons k ks ih =>
            intro e h
            simp only [mapRes] at h
            split at h
            · next e1 h1 =>
              cases h
              unfold joinEntry at h1
              split at h1
              · next e2 h2 =>
                cases h1
                simp only [joinKey] at h2
                split at h2
                · cases h2; rfl
                · cases h2
              · cases h1
            · next b hb =>
              split at h
              · next e1 h1 => cases h; exact ih _ h1
              · cases h
        rw [this _ _ he']
      · cases he
  · left
    simp [organizeCells, pointOffsets]

/-- Non-trivial instance: triangles, then a polygon, then an empty block at the end. -/
example : (∀ b ∈ [Blk2.mk "triangle" 3 [[0, 1, 2], [1, 2, 3]], Blk2.mk "polygon" 5 [[0, 1, 2, 3, 4]],
      Blk2.mk "line" 2 []], VtuWritable b) := by
  intro b hb
  simp only [List.mem_cons, List.not_mem_nil, or_false] at hb
  rcases hb with rfl | rfl | rfl
  · exact ⟨⟨5, by decide +kernel, .inr (by decide +kernel), .inr (by decide +kernel)⟩, by decide⟩
  · exact ⟨⟨7, by decide +kernel, .inr (by decide +kernel), .inl (by decide)⟩, by decide⟩
  · exact ⟨⟨3, by decide +kernel, .inr (by decide +kernel), .inr (by decide +kernel)⟩, by simp⟩

/-! ## C23: polyhedra -/

/-- C23 as stated: every polyhedron comes back with its faces in a block named after its
number of nodes, and each data array is split along the same blocks. -/
def C23_statement : Prop :=
  ∀ (bs : List (List (List (List Int)))) (raw : Dict (List Nat)),
    bs.flatten ≠ [] → (∀ c ∈ bs.flatten, c ≠ []) → Dict.Ok raw →
    (∀ kd ∈ raw, kd.2.length = bs.flatten.length) →
    ∃ blocks : List (String × List (List (List Int))),
      organizeCells [0] [writePolyVtu bs] [raw] = .ok (blocks.map (fun b => VtuBlock.poly b.1 b.2),
        raw.map (fun kd => (kd.1, blocks.map (fun b => polyRows bs.flatten kd.2 b.1)))) ∧
      ∀ b ∈ blocks, b.2 = polysOf bs.flatten b.1

/-- What is read, in terms of the cells written (in block order): blocks in order of first
appearance, data by ascending size. -/
theorem C23_read (bs : List (List (List (List Int)))) (hne : bs.flatten ≠ [])
    (hc : ∀ c ∈ bs.flatten, c ≠ []) (raw : Dict (List R)) (hraw : Dict.Ok raw)
    (hd : ∀ kd ∈ raw, kd.2.length = bs.flatten.length) :
    organizeCells [0] [writePolyVtu bs] [raw] =
      .ok ((firstSeen (bs.flatten.map polyName)).map (fun t => VtuBlock.poly t (polysOf bs.flatten t)),
        raw.map (fun kd => (kd.1, (npUnique (bs.flatten.map (fun c => (polyNodes c : Int)))).map
          (fun sz => rowsOfSize (bs.flatten.map (fun c => (polyNodes c : Int))) sz kd.2)))) := by
  rw [writePolyVtu_eq]
  generalize bs.flatten = cs at *
  have hlen : 0 < cs.length := List.length_pos_iff.mpr hne
  have h1 : ([(⟨(cs.map (fun c => npUnique c.flatten)).flatten,
      Vtu.cumsum 0 (cs.map (fun c => (polyNodes c : Int))), List.replicate cs.length 42,
      some (cs.flatMap faceData), some (endsN 0 (cs.map (fun c => (faceData c).length)))⟩ : CellArrays)].any
      (fun c => decide (42 ∈ c.types))) = true := by
    simp only [List.any_cons, List.any_nil, Bool.or_false, decide_eq_true_eq, List.mem_replicate]
    exact ⟨by omega, trivial⟩
  have h2 : ¬ ((List.replicate cs.length 42).any (fun t => decide (t ≠ 42)) = true) := by
    simp [List.any_replicate]
  unfold organizeCells
  rw [if_neg (by simp), if_pos h1]
  simp only [if_neg h2]
  rw [polyhedronCells_ok cs hne hc raw hraw hd]
  simp only []
  congr 2
  have hk := groupTypes_keys (cs.map (fun c => (polyName c, c)))
  rw [List.map_map] at hk
  simp only [Function.comp_def] at hk
  rw [dedup_eq_firstSeen] at hk
  have hok := groupTypes_ok (cs.map (fun c => (polyName c, c)))
  have hg := groupTypes_get? (cs.map (fun c => (polyName c, c)))
  generalize groupTypes (cs.map (fun c => (polyName c, c))) = D at *
  rw [← hk]
  unfold Dict.keys
  rw [List.map_map]
  apply List.map_congr_left
  intro kv hkv
  have h3 := Dict.get?_of_mem hok (show (kv.1, kv.2) ∈ D from hkv)
  rw [hg kv.1] at h3
  split at h3
  · cases h3
  · injection h3 with h3
    simp only [Function.comp_def]
    congr 1
    rw [← h3, List.filter_map, List.map_map]
    simp only [Function.comp_def, List.map_id', polysOf]

/-- C23 is false: if a polyhedron with more nodes comes first, the data of the blocks are
swapped. -/
theorem C23_false : ¬ C23_statement := by
  intro h
  have hc : ∀ c ∈ [[[[0, 1, 2], [1, 2, 3]]], [[[0, 1, 2]]]].flatten, c ≠ ([] : List (List Int)) := by decide
  obtain ⟨blocks, h1, _⟩ := h [[[[0, 1, 2], [1, 2, 3]]], [[[0, 1, 2]]]] [("a", [1, 2])]
    (by decide) hc (by decide) (by decide)
  rw [C23_read _ (by decide) hc _ (by decide) (by decide)] at h1
  injection h1 with h1
  injection h1 with h1 h2
  have e1 : blocks.map (fun b => b.1) = ["polyhedron4", "polyhedron3"] := by
    have := congrArg (List.map (fun b : VtuBlock => match b with
      | .poly t _ => t
      | .rows t _ => t)) h1
    rw [List.map_map, List.map_map] at this
    simp only [Function.comp_def] at this
    rw [← this]
    decide +kernel
  have e2 : blocks.map (fun b => polyRows [[[[0, 1, 2], [1, 2, 3]]], [[[0, 1, 2]]]].flatten [1, 2] b.1) =
      [[1], [2]] := by
    have : blocks.map (fun b => polyRows [[[[0, 1, 2], [1, 2, 3]]], [[[0, 1, 2]]]].flatten [1, 2] b.1) =
        (blocks.map (fun b => b.1)).map (fun t => polyRows [[[[0, 1, 2], [1, 2, 3]]], [[[0, 1, 2]]]].flatten [1, 2] t) := by
      rw [List.map_map]; rfl
    rw [this, e1]
    decide +kernel
  simp only [List.map_cons, List.map_nil, e2] at h2
  exact absurd h2 (by decide +kernel)

/-- What holds: if the node counts appear in ascending order, all polyhedra come back with
their faces and their data. -/
theorem C23_ascending_partial (bs : List (List (List (List Int)))) (hne : bs.flatten ≠ [])
    (hc : ∀ c ∈ bs.flatten, c ≠ []) (raw : Dict (List R)) (hraw : Dict.Ok raw)
    (hd : ∀ kd ∈ raw, kd.2.length = bs.flatten.length)
    (hasc : (firstSeen (bs.flatten.map polyNodes)).Pairwise (· < ·)) :
    ∃ blocks : List (String × List (List (List Int))),
      organizeCells [0] [writePolyVtu bs] [raw] = .ok (blocks.map (fun b => VtuBlock.poly b.1 b.2),
        raw.map (fun kd => (kd.1, blocks.map (fun b => polyRows bs.flatten kd.2 b.1)))) ∧
      ∀ b ∈ blocks, b.2 = polysOf bs.flatten b.1 := by
  refine ⟨(firstSeen (bs.flatten.map polyName)).map (fun t => (t, polysOf bs.flatten t)), ?_, ?_⟩
  · rw [C23_read bs hne hc raw hraw hd, List.map_map]
    congr 2
    apply List.map_congr_left
    intro kd hkd
    congr 1
    rw [List.map_map]
    simp only [Function.comp_def]
    have hdl := hd kd hkd
    generalize bs.flatten = cs at *
    -- names are made from the sizes
    have hn : cs.map polyName = (cs.map polyNodes).map (fun n => "polyhedron" ++ strInt ((n : Nat) : Int)) := by
      rw [List.map_map]; rfl
    rw [hn, firstSeen_map _ _ (by
      intro a _ b _ h
      have := congrArg String.toList h
      simp only [String.toList_append, List.append_cancel_left_eq] at this
      have := strInt_injective (String.ext_iff.mpr this)
      exact_mod_cast this)]
    have hu : npUnique (cs.map (fun c => (polyNodes c : Int))) =
        (firstSeen (cs.map polyNodes)).map (fun (n : Nat) => (n : Int)) := by
      apply eq_of_pairwise_lt (pairwise_npUnique _)
      · rw [List.pairwise_map]
        exact hasc.imp (fun h => by exact_mod_cast h)
      · intro x
        rw [mem_npUnique]
        simp only [List.mem_map, mem_firstSeen]
        constructor
        · rintro ⟨c, hc, rfl⟩; exact ⟨_, ⟨c, hc, rfl⟩, rfl⟩
        · rintro ⟨_, ⟨c, hc, rfl⟩, rfl⟩; exact ⟨c, hc, rfl⟩
    rw [hu, List.map_map, List.map_map]
    apply List.map_congr_left
    intro n hn'
    simp only [Function.comp_def, rowsOfSize, polyRows]
    generalize kd.2 = d at *
    clear hn' hu hn hasc hc hne hd
    induction cs generalizing d with
    | nil => rfl
    | cons c cs ih =>
      cases d with
      | nil => simp
      | cons x d =>
        have ih := ih d (by simpa using hdl)
        simp only [List.map_cons, List.zip_cons_cons, List.filterMap_cons, List.filter_cons]
        have : (polyName c = "polyhedron" ++ strInt ((n : Nat) : Int)) ↔ ((polyNodes c : Int) = (n : Int)) := by
          unfold polyName
          constructor
          · intro h
            have := congrArg String.toList h
            simp only [String.toList_append, List.append_cancel_left_eq] at this
            exact strInt_injective (String.ext_iff.mpr this)
          · intro h; rw [h]
        by_cases hcn : (polyNodes c : Int) = (n : Int)
        · simp only [hcn, if_true, this.mpr hcn, decide_true, List.map_cons, ih]
        · have h' : ¬ (polyName c = "polyhedron" ++ strInt ((n : Nat) : Int)) := fun h => hcn (this.mp h)
          simp only [hcn, if_false, h', decide_false, Bool.false_eq_true, ih]
  · intro b hb
    obtain ⟨t, _, rfl⟩ := List.mem_map.mp hb
    rfl

/-- Every polyhedron is in the block of its name, and every block has at least one. -/
theorem C23_complete (cs : List (List (List Int))) (c : List (List Int)) (hc : c ∈ cs) :
    polyName c ∈ firstSeen (cs.map polyName) ∧ c ∈ polysOf cs (polyName c) := by
  refine ⟨(mem_firstSeen _ _).mpr (List.mem_map.mpr ⟨c, hc, rfl⟩), ?_⟩
  unfold polysOf
  simp [hc]

/-- Non-trivial instance: a tetrahedron and a pyramid given by their faces. -/
example : firstSeen ([[[0, 1, 2], [0, 1, 3], [0, 2, 3], [1, 2, 3]],
      [[0, 1, 2, 3], [0, 1, 4], [1, 2, 4], [2, 3, 4], [3, 0, 4]]].map polyNodes) = [4, 5] := by
  decide +kernel

end Meshio.Props
