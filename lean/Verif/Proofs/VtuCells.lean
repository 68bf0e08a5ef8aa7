/-
Lemmas about VTU cells.
-/
import Verif.Model.VtuCells
import Verif.Spec.Vtu
import Verif.Proofs.VtkLegacy
import Verif.Proofs.MeshViews
import Verif.Proofs.MeshSets
import Mathlib.Data.List.Perm.Basic
namespace Meshio.Vtu
open Meshio Meshio.Spec Meshio.Vtk Meshio.Tables Meshio.Types

variable {R : Type}

/-! ### Ordinary cells -/

theorem offsetsOutVtu_ok (bs : List Blk2) (prev : Option (List Int)) (k : Nat)
    (hp : baseOf prev = .ok (k : Int)) (hne : ∀ b ∈ bs.dropLast, b.rows ≠ [])
    (h : ∀ b ∈ bs, ∀ r ∈ b.rows, r.length = b.width) :
    offsetsOutVtu prev bs = .ok (endsFrom k (cellsOf (bs.map Blk2.blk))) := by
  induction bs generalizing k prev with
  | nil => rfl
  | cons b bs ih =>
    have h3 := h b (by simp)
    have e : cellsOf ((b :: bs).map Blk2.blk) =
        b.rows.map (fun r => ((vtkCode b.type).getD 0, toVtk b.type r)) ++
          cellsOf (bs.map Blk2.blk) := by simp [cellsOf, Blk2.blk]
    have hoffs : (List.range b.rows.length).map (fun (i : Nat) => (b.width : Int) * ((i : Int) + 1) + k) =
        (List.range b.rows.length).map (fun (i : Nat) => (k : Int) + b.width + (i : Int) * b.width) := by
      apply List.map_congr_left
      intro i _
      rw [Int.mul_add, Int.mul_comm]; omega
    simp only [offsetsOutVtu, hp]
    rw [e, endsFrom_append, ends_block k b.width _ _ _ h3, conn_block_length b.width _ _ _ h3, hoffs]
    cases bs with
    | nil => simp [offsetsOutVtu, cellsOf, endsFrom]
    | cons b' bs =>
      have hbne : b.rows ≠ [] := hne b (by simp)
      have hk : baseOf (some ((List.range b.rows.length).map
          (fun (i : Nat) => (k : Int) + b.width + (i : Int) * b.width))) =
          .ok ((k + b.rows.length * b.width : Nat) : Int) := by
        unfold baseOf
        rcases List.eq_nil_or_concat b.rows with e | ⟨l, r, e⟩
        · exact absurd e hbne
        · rw [e]
          simp only [List.concat_eq_append, List.length_append, List.length_cons, List.length_nil,
            List.range_succ, List.map_append, List.map_cons, List.map_nil, List.getLast?_append,
            List.getLast?_singleton, Option.some_or, Nat.zero_add]
          push_cast
          rw [Int.add_mul]; congr 1; omega
      rw [ih _ _ hk (fun x hx => hne x (by
          rw [List.dropLast_cons_of_ne_nil (by simp)]; exact List.mem_cons_of_mem _ hx))
        (fun x hx => h x (List.mem_cons_of_mem _ hx))]

/-- The arrays of a list of cells. -/
def arraysOf (cs : List VtkCell) : CellArrays :=
  ⟨connectivityOf cs, endsFrom 0 cs, cs.map (·.1), none, none⟩

theorem writeRowsVtu_ok (bs : List Blk2) (hw : ∀ b ∈ bs, Writable b.blk)
    (hne : ∀ b ∈ bs.dropLast, b.rows ≠ []) (h : ∀ b ∈ bs, ∀ r ∈ b.rows, r.length = b.width) :
    writeRowsVtu bs = .ok (arraysOf (cellsOf (bs.map Blk2.blk))) := by
  unfold writeRowsVtu
  have h0 := offsetsOutVtu_ok bs none 0 rfl hne h
  rw [mapRes_ok_of_forall (g := fun b : Blk2 => b.rows.map (toVtk b.type))]
  · rw [h0, mapRes_ok_of_forall (g := fun b : Blk2 => (cellsOf [b.blk]).map (·.1))]
    · have h1 : (bs.map (fun b => b.rows.map (toVtk b.type))).flatten.flatten =
          connectivityOf (cellsOf (bs.map Blk2.blk)) := by
        clear h h0 hw hne
        induction bs with
        | nil => rfl
        | cons b bs ih =>
          simp only [List.map_cons, List.flatten_cons, List.flatten_append, ih]
          simp [connectivityOf, cellsOf, Blk2.blk, List.flatMap, Function.comp_def]
      have h2 : (bs.map (fun b => (cellsOf [b.blk]).map (·.1))).flatten =
          (cellsOf (bs.map Blk2.blk)).map (·.1) := by
        clear h h0 h1 hw hne
        induction bs with
        | nil => rfl
        | cons b bs ih => simp only [List.map_cons, List.flatten_cons, ih]; simp [cellsOf]
      simp only [h1, h2, arraysOf]
    · intro b hb
      obtain ⟨⟨c, hc⟩, _⟩ := hw b hb
      simp only [Blk2.blk] at hc
      simp [typesOut, find_meshioToVtk hc, cellsOf, Blk2.blk, hc, Function.comp_def, List.map_const']
  · intro b hb
    obtain ⟨_, h2⟩ := hw b hb
    apply mapRes_ok_of_forall
    intro r hr
    exact outRow_ok b.type r (fun e => h2 e r hr)

theorem readable_ne_42 {c : VtkCell} (h : Readable c) : c.1 ≠ 42 := by
  intro e
  rcases h with h | ⟨t, h1, _, h3⟩
  · rw [e] at h
    exact absurd h (by decide +kernel)
  · rw [e] at h1 h3
    have : vtkName 42 = some "polyhedron" := by decide +kernel
    rw [this] at h1
    cases h1
    rcases h3 with h3 | h3
    · exact absurd h3 (by decide)
    · have : numNodesPerCell.get? "polyhedron" = none := by decide +kernel
      rw [this] at h3; cases h3

/-- One piece of a file: its first point number, its cells and its cell data. -/
structure PieceCells (R : Type) where
  offset : Int
  cells : List VtkCell
  data : Dict (List R)

/-- A piece that can be read. -/
def PieceCells.Ok (p : PieceCells R) : Prop :=
  p.cells ≠ [] ∧ (∀ c ∈ p.cells, Readable c) ∧ Dict.Ok p.data ∧
    ∀ kd ∈ p.data, kd.2.length = p.cells.length

/-- What reading a piece on its own gives. -/
def pieceSt (p : PieceCells R) : St R :=
  (vtkBlocks p.cells,
    if vtkBlocks p.cells = [] then [] else p.data.map (fun kd => (kd.1, vtkData p.cells kd.2)))

theorem piece_read (p : PieceCells R) (h : p.Ok) :
    vtkCellsFromData (arraysOf p.cells).connectivity (arraysOf p.cells).offsets
      (arraysOf p.cells).types p.data = .ok (pieceSt p) := by
  have := vtkCellsFromData_ok p.cells h.1 h.2.1 [] p.data h.2.2.1 h.2.2.2
  rw [List.append_nil] at this
  exact this

theorem lastPiece_ok (ps : List (PieceCells R)) (h : ∀ p ∈ ps, p.Ok) (st : Option (Int × St R)) :
    lastPiece (ps.map (fun p => (p.offset, arraysOf p.cells, p.data))) st =
      .ok (match ps.getLast? with
        | none => st
        | some p => some (p.offset, pieceSt p)) := by
  induction ps generalizing st with
  | nil => rfl
  | cons p ps ih =>
    simp only [List.map_cons, lastPiece, piece_read p (h p (by simp))]
    rw [ih (fun q hq => h q (by simp [hq]))]
    cases ps with
    | nil => rfl
    | cons q ps =>
      rw [List.getLast?_cons_cons]
      cases hq : (q :: ps).getLast? with
      | none => simp at hq
      | some z => rfl

theorem zip3_map (ps : List (PieceCells R)) :
    (ps.map (·.offset)).zip ((ps.map (fun p => arraysOf p.cells)).zip (ps.map (·.data))) =
      ps.map (fun p => (p.offset, arraysOf p.cells, p.data)) := by
  induction ps with
  | nil => rfl
  | cons p ps ih => simp [ih]

theorem organize_ok (ps : List (PieceCells R)) (h : ∀ p ∈ ps, p.Ok) (p : PieceCells R)
    (hl : ps.getLast? = some p) :
    organizeCells (ps.map (·.offset)) (ps.map (fun p => arraysOf p.cells)) (ps.map (·.data)) =
      .ok ((vtkBlocks p.cells).map (fun b => .rows b.1 (b.2.map (fun r => r.map (· + p.offset)))),
        (pieceSt p).2) := by
  unfold organizeCells
  rw [if_neg (by simp)]
  have h42 : ¬ ((ps.map (fun p => arraysOf p.cells)).any (fun c => decide (42 ∈ c.types)) = true) := by
    simp only [List.any_map, List.any_eq_true, Function.comp_def, decide_eq_true_eq, not_exists, not_and]
    intro q hq hm
    simp only [arraysOf, List.mem_map] at hm
    obtain ⟨c, hc, e⟩ := hm
    exact readable_ne_42 ((h q hq).2.1 c hc) e
  rw [if_neg h42, zip3_map, lastPiece_ok ps h none, hl]
  rfl

/-! ### Polyhedra -/

theorem npUnique_length (l : List Int) : (npUnique l).length = l.dedup.length := by
  apply List.Perm.length_eq
  apply (List.perm_ext_iff_of_nodup _ (List.nodup_dedup l)).mpr
  · intro a; rw [mem_npUnique, List.mem_dedup]
  · exact (pairwise_npUnique l).imp (fun h => Int.ne_of_lt h)

/-- The entries written for one polyhedron. -/
def faceData (c : PolyCell) : List Int := (c.length : Int) :: c.flatMap (fun f => (f.length : Int) :: f)

/-- Cumulative ends. -/
def endsN : Nat → List Nat → List Nat
  | _, [] => []
  | i, n :: ns => (i + n) :: endsN (i + n) ns

/-- Cumulative starts. -/
def startsN : Nat → List Nat → List Nat
  | _, [] => []
  | i, n :: ns => i :: startsN (i + n) ns

theorem cons_dropLast_endsN (i n : Nat) (ns : List Nat) :
    i :: (endsN i (n :: ns)).dropLast = startsN i (n :: ns) := by
  induction ns generalizing i n with
  | nil => rfl
  | cons m ns ih =>
    rw [startsN, endsN]
    have : (endsN (i + n) (m :: ns)) ≠ [] := by simp [endsN]
    rw [List.dropLast_cons_of_ne_nil this, ih]

theorem endsN_append (i : Nat) (a b : List Nat) : endsN i (a ++ b) = endsN i a ++ endsN (i + a.sum) b := by
  induction a generalizing i with
  | nil => simp [endsN]
  | cons n a ih => simp only [List.cons_append, endsN, ih, List.sum_cons, Nat.add_assoc]

theorem endsN_shift (i j : Nat) (l : List Nat) : (endsN i l).map (· + j) = endsN (i + j) l := by
  induction l generalizing i with
  | nil => rfl
  | cons n l ih =>
    simp only [endsN, List.map_cons, ih]
    rw [show i + n + j = i + j + n by omega]

theorem getLast?_endsN (i : Nat) (l : List Nat) (h : l ≠ []) : (endsN i l).getLast? = some (i + l.sum) := by
  induction l generalizing i with
  | nil => exact absurd rfl h
  | cons n l ih =>
    cases l with
    | nil => simp [endsN]
    | cons m l =>
      have := ih (i + n) (by simp)
      rw [endsN, endsN, List.getLast?_cons_cons, ← endsN, this]
      simp; omega

theorem faceCells_eq (data : List Int) (cs : List PolyCell) :
    faceCells data cs = (data ++ cs.flatMap faceData,
      endsN data.length (cs.map (fun c => (faceData c).length))) := by
  induction cs generalizing data with
  | nil => simp [faceCells, endsN]
  | cons c cs ih =>
    have e : data ++ ((c.length : Int) :: c.flatMap (fun f => (f.length : Int) :: f)) =
        data ++ faceData c := rfl
    simp only [faceCells, e, ih, List.flatMap_cons, List.append_assoc, List.map_cons, endsN,
      List.length_append]

theorem sum_faceData (cs : List PolyCell) :
    (cs.map (fun c => (faceData c).length)).sum = (cs.flatMap faceData).length := by
  rw [List.length_flatMap]

theorem facesOut_eq (bs : List (List PolyCell)) (F : List Int) (O : List Nat)
    (hinv : (O = [] ∧ F = []) ∨ O.getLast? = some F.length) :
    facesOut (F, O) bs = (F ++ bs.flatten.flatMap faceData,
      O ++ endsN F.length (bs.flatten.map (fun c => (faceData c).length))) := by
  induction bs generalizing F O with
  | nil => simp [facesOut, endsN]
  | cons b bs ih =>
    rw [facesOut]
    simp only [faceCells_eq, List.nil_append, List.length_nil]
    have hoffs : shiftOffs O (endsN 0 (b.map (fun c => (faceData c).length))) =
        endsN F.length (b.map (fun c => (faceData c).length)) := by
      unfold shiftOffs
      rcases hinv with ⟨h1, h2⟩ | h
      · subst h1 h2; rfl
      · rw [h]
        simp only
        rw [endsN_shift, Nat.zero_add]
    rw [hoffs, ih]
    · simp only [List.flatten_cons, List.flatMap_append, List.append_assoc, List.map_append,
        endsN_append, sum_faceData, List.length_append]
    · by_cases hb : b = []
      · subst hb; simpa [endsN] using hinv
      · right
        rw [List.getLast?_append, getLast?_endsN _ _ (by simpa using hb)]
        simp [List.length_flatMap]

theorem readFaces_ok (fs : List (List Int)) (pre post : List Int) :
    readFaces (pre ++ (fs.flatMap (fun f => (f.length : Int) :: f) ++ post)) fs.length pre.length =
      .ok fs := by
  induction fs generalizing pre with
  | nil => rfl
  | cons f fs ih =>
    simp only [List.length_cons, readFaces, List.flatMap_cons, List.cons_append, List.append_assoc]
    rw [List.getElem?_append_right (by omega), Nat.sub_self, List.getElem?_cons_zero]
    simp only [Int.toNat_natCast]
    have := ih (pre ++ ((f.length : Int) :: f))
    simp only [List.append_assoc, List.cons_append, List.length_append, List.length_cons] at this
    rw [show pre.length + f.length + 1 = pre.length + (f.length + 1) by omega, this]
    have hs : pySlice (pre ++ ((f.length : Int) :: (f ++ (fs.flatMap (fun f => (f.length : Int) :: f) ++ post))))
        (pre.length + 1) (pre.length + (f.length + 1)) = f := by
      unfold pySlice
      rw [← List.drop_drop, List.drop_left' rfl]
      simp only [List.drop_succ_cons, List.drop_zero]
      rw [show pre.length + (f.length + 1) - (pre.length + 1) = f.length by omega, List.take_left' rfl]
    rw [hs]

theorem polyCellAt_ok (c : PolyCell) (hc : c ≠ []) (pre post : List Int) :
    polyCellAt (pre ++ (faceData c ++ post)) pre.length = .ok (polyName c, c) := by
  unfold polyCellAt faceData
  rw [List.getElem?_append_right (by omega), Nat.sub_self, List.cons_append, List.getElem?_cons_zero]
  simp only [Int.toNat_natCast]
  have := readFaces_ok c (pre ++ [(c.length : Int)]) post
  simp only [List.append_assoc, List.cons_append, List.nil_append, List.length_append, List.length_cons,
    List.length_nil, Nat.zero_add] at this
  rw [this]
  cases c with
  | nil => exact absurd rfl hc
  | cons f fs =>
    simp only [polyName, polyNodes, npUnique_length]

theorem polyCells_ok (cs : List PolyCell) (h : ∀ c ∈ cs, c ≠ []) (pre : List Int) :
    mapRes (polyCellAt (pre ++ cs.flatMap faceData)) (startsN pre.length (cs.map (fun c => (faceData c).length))) =
      .ok (cs.map (fun c => (polyName c, c))) := by
  induction cs generalizing pre with
  | nil => rfl
  | cons c cs ih =>
    simp only [List.map_cons, startsN, mapRes, List.flatMap_cons]
    rw [polyCellAt_ok c (h c (by simp))]
    have := ih (fun x hx => h x (by simp [hx])) (pre ++ faceData c)
    simp only [List.append_assoc, List.length_append] at this
    rw [this]

theorem npDiff_cumsum (a : Int) (l : List Int) : npDiff (a :: cumsum a l) = l := by
  induction l generalizing a with
  | nil => rfl
  | cons n l ih =>
    simp only [cumsum, npDiff]
    rw [ih]
    congr 1; omega

theorem foldRes_addData (raw : Dict (List R)) (hraw : Dict.Ok raw) (f : Int → List R → Res (List R))
    (g : Int → List R → List R) (szs : List Int)
    (hf : ∀ sz ∈ szs, ∀ kd ∈ raw, f sz kd.2 = .ok (g sz kd.2)) (pre : List Int) :
    foldRes (fun cd sz => addData (f sz) cd raw)
      (if pre = [] then [] else raw.map (fun kd => (kd.1, pre.map (fun sz => g sz kd.2)))) szs =
      .ok (if pre ++ szs = [] then []
        else raw.map (fun kd => (kd.1, (pre ++ szs).map (fun sz => g sz kd.2)))) := by
  induction szs generalizing pre with
  | nil => simp [foldRes]
  | cons sz szs ih =>
    have h1 : addData (f sz)
        (if pre = [] then [] else raw.map (fun kd => (kd.1, pre.map (fun sz => g sz kd.2)))) raw =
        .ok (if pre ++ [sz] = [] then []
          else raw.map (fun kd => (kd.1, (pre ++ [sz]).map (fun sz => g sz kd.2)))) := by
      by_cases hp : pre = []
      · subst hp
        have := addData_first (f sz) (g sz) [] raw hraw (hf sz (by simp))
        simpa using this
      · rw [if_neg hp]
        have := addData_next (f sz) (g sz) (fun d => pre.map (fun sz => g sz d)) [] raw hraw
          (hf sz (by simp))
        simpa using this
    simp only [foldRes, h1]
    rw [ih (fun s hs => hf s (by simp [hs])) (pre ++ [sz])]
    simp

/-- The rows of the cells with `sz` nodes. -/
def rowsOfSize (sizes : List Int) (sz : Int) (d : List R) : List R :=
  (sizes.zip d).filterMap (fun p => if p.1 = sz then some p.2 else none)

theorem dataOfSize_ok (sizes : List Int) (sz : Int) (d : List R) (h : d.length = sizes.length) :
    dataOfSize sizes sz d = .ok (rowsOfSize sizes sz d) := by
  unfold dataOfSize rowsOfSize
  rw [if_pos]
  intro p hp _
  have := List.snd_lt_of_mem_zipIdx hp
  omega

theorem polyhedronCells_ok (cs : List PolyCell) (hne : cs ≠ []) (hc : ∀ c ∈ cs, c ≠ [])
    (raw : Dict (List R)) (hraw : Dict.Ok raw) (hd : ∀ kd ∈ raw, kd.2.length = cs.length) :
    polyhedronCells (cumsum 0 (cs.map (fun c => (polyNodes c : Int)))) (cs.flatMap faceData)
      (endsN 0 (cs.map (fun c => (faceData c).length))) raw =
      .ok (groupTypes (cs.map (fun c => (polyName c, c))),
        raw.map (fun kd => (kd.1, (npUnique (cs.map (fun c => (polyNodes c : Int)))).map
          (fun sz => rowsOfSize (cs.map (fun c => (polyNodes c : Int))) sz kd.2)))) := by
  unfold polyhedronCells
  have h1 := polyCells_ok cs hc []
  rw [List.nil_append, List.length_nil] at h1
  have hs : 0 :: (endsN 0 (cs.map (fun c => (faceData c).length))).dropLast =
      startsN 0 (cs.map (fun c => (faceData c).length)) := by
    cases cs with
    | nil => exact absurd rfl hne
    | cons c cs => exact cons_dropLast_endsN 0 _ _
  rw [hs, h1, npDiff_cumsum]
  have h2 := foldRes_addData raw hraw (dataOfSize (cs.map (fun c => (polyNodes c : Int))))
    (rowsOfSize (cs.map (fun c => (polyNodes c : Int)))) (npUnique (cs.map (fun c => (polyNodes c : Int))))
    (fun sz _ kd hkd => dataOfSize_ok _ _ _ (by rw [hd kd hkd]; simp)) []
  simp only [if_true, List.nil_append] at h2
  simp only [h2]
  rw [if_neg]
  intro e
  cases cs with
  | nil => exact hne rfl
  | cons c cs =>
    have : (polyNodes c : Int) ∈ npUnique ((c :: cs).map (fun c => (polyNodes c : Int))) := by
      rw [mem_npUnique]; simp
    rw [e] at this; simp at this

theorem writePolyVtu_eq (bs : List (List PolyCell)) :
    writePolyVtu bs = ⟨(bs.flatten.map (fun c => npUnique c.flatten)).flatten,
      cumsum 0 (bs.flatten.map (fun c => (polyNodes c : Int))), List.replicate bs.flatten.length 42,
      some (bs.flatten.flatMap faceData),
      some (endsN 0 (bs.flatten.map (fun c => (faceData c).length)))⟩ := by
  unfold writePolyVtu
  have h := facesOut_eq bs [] [] (.inl ⟨rfl, rfl⟩)
  simp only [List.nil_append, List.length_nil] at h
  simp only [h, List.map_map, Function.comp_def, npUnique_length, polyNodes]

/-! Names and sizes -/

theorem strInt_injective {i j : Int} (h : strInt i = strInt j) : i = j := by
  unfold strInt at h
  have := congrArg String.toList h
  simp only [String.toList_ofList] at this
  exact fmtInt_injective this

theorem polyName_iff (c c' : PolyCell) : polyName c = polyName c' ↔ polyNodes c = polyNodes c' := by
  unfold polyName
  constructor
  · intro h
    have := congrArg String.toList h
    simp only [String.toList_append, List.append_cancel_left_eq] at this
    have := strInt_injective (String.ext_iff.mpr this)
    exact_mod_cast this
  · intro h; rw [h]

theorem foldl_firstSeen {α : Type} [DecidableEq α] (l acc : List α) :
    l.foldl (fun acc x => if x ∈ acc then acc else acc ++ [x]) acc =
      acc ++ (firstSeen l).filter (fun x => decide (x ∉ acc)) := by
  induction l generalizing acc with
  | nil => simp [firstSeen]
  | cons a l ih =>
    rw [List.foldl_cons, ih]
    by_cases h : a ∈ acc
    · simp only [if_pos h, firstSeen, List.filter_cons, h, not_true_eq_false, decide_false,
        Bool.false_eq_true, if_false, List.filter_filter]
      congr 1
      apply List.filter_congr
      intro x _
      by_cases hx : x ∈ acc
      · simp [hx]
      · have : x ≠ a := fun e => hx (e ▸ h)
        simp [hx, this]
    · rw [if_neg h]
      simp only [firstSeen, List.filter_cons, h, not_false_eq_true, decide_true, if_true,
        List.filter_filter, List.append_assoc, List.cons_append, List.nil_append]
      congr 2
      apply List.filter_congr
      intro x _
      by_cases hx : x ∈ acc <;> by_cases hxa : x = a <;> simp [hx, hxa]

theorem dedup_eq_firstSeen (l : List String) : dedup l = firstSeen l := by
  have := foldl_firstSeen l []
  unfold dedup
  rw [this]
  simp

theorem mem_firstSeen {α : Type} [DecidableEq α] (l : List α) (x : α) : x ∈ firstSeen l ↔ x ∈ l := by
  induction l with
  | nil => simp [firstSeen]
  | cons a l ih =>
    simp only [firstSeen, List.mem_cons, List.mem_filter, ih, decide_eq_true_eq]
    by_cases h : x = a <;> simp [h]

theorem firstSeen_map {α β : Type} [DecidableEq α] [DecidableEq β] (f : α → β) (l : List α)
    (h : ∀ a ∈ l, ∀ b ∈ l, f a = f b → a = b) : firstSeen (l.map f) = (firstSeen l).map f := by
  induction l with
  | nil => rfl
  | cons a l ih =>
    simp only [List.map_cons, firstSeen]
    rw [ih (fun x hx y hy => h x (by simp [hx]) y (by simp [hy])), List.filter_map]
    congr 2
    apply List.filter_congr
    intro x hx
    have hxl : x ∈ l := (mem_firstSeen l x).mp hx
    simp only [Function.comp_def, decide_eq_decide]
    constructor
    · intro hne e; exact hne (by rw [e])
    · intro hne e; exact hne (h x (by simp [hxl]) a (by simp) e)

end Meshio.Vtu
