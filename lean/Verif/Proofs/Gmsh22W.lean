/-
Writing Gmsh files of version 2.2.
-/
import Verif.Proofs.Gmsh22
namespace Meshio.Gmsh22
open Types Tables Spec Gmsh

variable {F : Type}

theorem numbersFrom_eq (n : Nat) : numbersFrom 1 n = (List.range n).map fun (i : Nat) => (1 + i : Int) := rfl

theorem zip_numbers {α : Type} (l : List α) : (numbersFrom 1 l.length).zip l = l.zipIdx.map fun p => (1 + (p.2 : Int), p.1) := by
  apply List.ext_getElem
  · simp [numbersFrom]
  · intro i h1 h2
    simp [numbersFrom]

theorem fmtInt_one_add (i : Nat) : fmtInt (1 + (i : Int)) = fmtNat (i + 1) := by
  rw [← fmtInt_ofNat, show (1 + (i : Int)) = Int.ofNat (i + 1) from by simp; omega]
  rfl

/-! ### Nodes -/

theorem pad_points (zero : F) (m : In F)
    (h : (m.dim = 3 ∧ ∀ p ∈ m.points, p.length = 3) ∨ (m.dim = 2 ∧ ∀ p ∈ m.points, p.length = 2)) :
    (if m.dim = 2 then m.points.map (· ++ [zero]) else m.points) = mshPoints zero m ∧ ∀ p ∈ mshPoints zero m, p.length = 3 := by
  unfold mshPoints
  rcases h with ⟨hd, hp⟩ | ⟨hd, hp⟩
  · rw [if_neg (by omega)]
    have e : m.points.map (fun p => if p.length = 2 then p ++ [zero] else p) = m.points := by
      conv => rhs; rw [← List.map_id m.points]
      apply List.map_congr_left
      intro p h
      rw [if_neg (by rw [hp p h]; omega)]
      rfl
    rw [e]
    exact ⟨rfl, hp⟩
  · rw [if_pos hd]
    have e : m.points.map (fun p => if p.length = 2 then p ++ [zero] else p) = m.points.map (· ++ [zero]) := by
      apply List.map_congr_left
      intro p h
      rw [if_pos (hp p h)]
    rw [e]
    refine ⟨rfl, ?_⟩
    intro p h
    obtain ⟨q, hq, rfl⟩ := List.mem_map.1 h
    rw [List.length_append, hp q hq]
    rfl

theorem writeNodes_ok (io : GmshFloat F) (binary : Bool) (m : In F)
    (h : (m.dim = 3 ∧ ∀ p ∈ m.points, p.length = 3) ∨ (m.dim = 2 ∧ ∀ p ∈ m.points, p.length = 2)) :
    writeNodes io binary m.dim m.points = .ok (mshNodes io (!binary) (numbersFrom 1 m.points.length) (mshPoints io.zero m)) := by
  obtain ⟨h1, h2⟩ := pad_points io.zero m h
  have hl : m.points.length = (mshPoints io.zero m).length := by simp [mshPoints]
  unfold writeNodes mshNodes
  simp only
  rw [h1, hl]
  generalize mshPoints io.zero m = pts at h2
  cases binary with
  | true =>
    rw [mapRes_ok_of_forall (g := fun pi : List F × Nat => putInt 4 (1 + (pi.2 : Int)) ++ pi.1.flatMap (putF io))]
    · simp only [Bool.not_true, Bool.false_eq_true, if_false, if_true]
      rw [zip_numbers, List.flatMap_map, ← List.flatMap_def]
      simp only [List.append_assoc]
    · intro pi hpi
      unfold nodeRow
      rw [if_pos rfl, if_pos (h2 _ (List.fst_mem_of_mem_zipIdx hpi))]
  | false =>
    rw [mapRes_ok_of_forall (g := fun pi : List F × Nat => joinWith ' ' (fmtInt (1 + (pi.2 : Int)) :: pi.1.map io.fmt) ++ ['\n'])]
    · simp only [Bool.not_false, Bool.false_eq_true, if_false, if_true]
      rw [zip_numbers, List.map_map, List.append_nil, List.append_assoc]
      congr 2
      congr 1
      unfold linesText
      rw [List.flatMap_map, ← List.flatMap_def]
      rfl
    · intro pi hpi
      have := h2 _ (List.fst_mem_of_mem_zipIdx hpi)
      unfold nodeRow
      rw [if_neg (by simp)]
      obtain ⟨p, i⟩ := pi
      match p, this with
      | [x, y, z], _ =>
        simp only [fmtInt_one_add]
        rfl

/-! ### Elements -/

theorem getD_flatten (l : List (List Int)) (k j : Nat) (hk : k < l.length) (hj : j < (l.getD k []).length) :
    (l.getD k []).getD j 0 = l.flatten.getD ((l.take k).flatten.length + j) 0 := by
  induction l generalizing k with
  | nil => simp at hk
  | cons x l ih =>
    cases k with
    | zero =>
      simp only [List.getD_cons_zero] at hj ⊢
      simp only [List.take_zero, List.flatten_nil, List.length_nil, Nat.zero_add, List.flatten_cons]
      rw [List.getD_eq_getElem?_getD, List.getD_eq_getElem?_getD, List.getElem?_append_left hj]
    | succ k =>
      simp only [List.getD_cons_succ] at hj ⊢
      rw [ih k (by simpa using hk) hj]
      simp only [List.take_succ_cons, List.flatten_cons, List.length_append, List.getD_eq_getElem?_getD]
      rw [List.getElem?_append_right (by omega)]
      congr 2
      omega

theorem length_take_flatten (l : List (List Int)) (lens : List Nat) (h : l.map (·.length) = lens) (k : Nat) :
    (l.take k).flatten.length = (lens.take k).sum := by
  rw [List.length_flatten, ← h, List.map_take]

theorem blockTags_ok (td : List (List (List Int))) (k : Nat) (h : ∀ l ∈ td, k < l.length) :
    blockTags td k = .ok (td.map fun l => l.getD k []) := by
  unfold blockTags
  apply mapRes_ok_of_forall
  intro l hl
  rw [List.getD_eq_getElem?_getD, List.getElem?_eq_getElem (h l hl)]
  rfl

theorem tagRows_ok (n : Nat) (hn : n ≠ 0) (cols : List (List Int)) (hne : cols ≠ []) (h : ∀ c ∈ cols, c.length = n) :
    tagRows n cols = .ok ((List.range n).map fun i => cols.map fun c => c.getD i 0) := by
  have hh : (cols.headD []).length = n := by
    cases cols with
    | nil => exact absurd rfl hne
    | cons c l => exact h c (by simp)
  unfold tagRows
  rw [if_pos, if_neg (by omega), hh]
  rw [List.all_eq_true]
  intro c hc
  rw [decide_eq_true_iff, hh]
  exact h c hc

theorem nodes_numbered (n : Nat) (t : String) (r : List Int) (hs : Dict.get? numNodesPerCell t = some r.length)
    (hz : ∀ z ∈ r, 0 ≤ z ∧ z < n) (num : Int) (tags : List Int) :
    reorder gmshGmshOrdering t r = .ok (gmshRow t r) ∧
      (⟨num, t, tags, r.map Int.toNat⟩ : MshElem).nodes (numbersFrom 1 n) = (gmshRow t r).map (· + 1) := by
  have h1 := gmshRow_spec t r (by intro k hk; rw [hs] at hk; exact Option.some.inj hk)
  refine ⟨h1.1, ?_⟩
  have h2 := reorder_map (fun z : Int => z + 1) gmshGmshOrdering t _ _ h1.1
  unfold MshElem.nodes
  have e : (r.map Int.toNat).map (fun p => (numbersFrom 1 n).getD p 0) = r.map (· + 1) := by
    rw [List.map_map]
    apply List.map_congr_left
    intro z hzr
    obtain ⟨z0, z1⟩ := hz z hzr
    have hlt : z.toNat < (numbersFrom 1 n).length := by rw [length_numbersFrom]; omega
    simp only [Function.comp]
    rw [List.getD_eq_getElem?_getD, List.getElem?_eq_getElem hlt]
    simp only [numbersFrom, List.getElem_map, List.getElem_range, Option.getD_some]
    omega
  show gmshRow t ((r.map Int.toNat).map fun p => (numbersFrom 1 n).getD p 0) = _
  rw [e]
  unfold gmshRow
  rw [h2, h1.1]

/-- The elements of a block. -/
def blockElems (tags : List (List Int)) (start : Nat) (t : String) (rows : List (List Int)) : List MshElem :=
  (rows.zipIdx start).map fun ri => ⟨1 + (ri.2 : Int), t, tags.map fun c => c.getD ri.2 0, ri.1.map Int.toNat⟩

theorem zipIdx_start {α : Type} (l : List α) (s : Nat) : l.zipIdx s = l.zipIdx.map fun p => (p.1, s + p.2) := by
  apply List.ext_getElem
  · simp
  · intro i h1 h2
    simp

theorem writeBlock_ok (binary : Bool) (n : Nat) (start : Nat) (t : String) (rows : List (List Int)) (hne : rows ≠ [])
    (hc : (find meshioToGmsh t).isSome)
    (hr : ∀ r ∈ rows, Dict.get? numNodesPerCell t = some r.length ∧ ∀ z ∈ r, 0 ≤ z ∧ z < n)
    (cols tags : List (List Int)) (hcols : cols ≠ []) (hlen : ∀ c ∈ cols, c.length = rows.length)
    (htags : ∀ i, i < rows.length → (cols.map fun c => c.getD i 0) = tags.map fun c => c.getD (start + i) 0) :
    writeBlock binary start t rows cols = .ok (if binary then mshChunk (numbersFrom 1 n) (blockElems tags start t rows)
      else linesText ((blockElems tags start t rows).map (MshElem.line (numbersFrom 1 n)))) := by
  obtain ⟨code, hcode⟩ := Option.isSome_iff_exists.1 hc
  have hgc : gmshCode t = code := by unfold gmshCode; rw [hcode]; rfl
  have h1 : mapRes (reorder gmshGmshOrdering t) rows = .ok (rows.map (gmshRow t)) := by
    apply mapRes_ok_of_forall
    intro r h
    exact (nodes_numbered n t r (hr r h).1 (hr r h).2 0 []).1
  have hl0 : rows.length ≠ 0 := by simpa using hne
  have hfcd : (List.range rows.length).map (fun i => cols.map fun c => c.getD i 0) =
      (List.range rows.length).map fun i => tags.map fun c => c.getD (start + i) 0 := by
    apply List.map_congr_left
    intro i hi
    exact htags i (List.mem_range.1 hi)
  have hzip : (((List.range rows.length).map fun i => tags.map fun c => c.getD (start + i) 0).zip (rows.map (gmshRow t))).zipIdx =
      rows.zipIdx.map fun ri => ((tags.map fun c => c.getD (start + ri.2) 0, gmshRow t ri.1), ri.2) := by
    apply List.ext_getElem
    · simp
    · intro i h1 h2
      simp
  have hel : blockElems tags start t rows =
      rows.zipIdx.map fun ri => ⟨1 + ((start + ri.2 : Nat) : Int), t, tags.map fun c => c.getD (start + ri.2) 0, ri.1.map Int.toNat⟩ := by
    unfold blockElems
    rw [zipIdx_start, List.map_map]
    rfl
  unfold writeBlock
  rw [h1]
  simp only [List.length_map]
  rw [tagRows_ok rows.length hl0 cols hcols hlen]
  simp only
  rw [hcode]
  simp only
  rw [hfcd, List.length_map, List.length_range, hzip]
  cases binary with
  | true =>
    rw [if_pos rfl, if_neg (by simp), if_pos rfl]
    congr 1
    rw [List.flatMap_map]
    have hhead : ∃ e es, blockElems tags start t rows = e :: es ∧ e.type = t ∧ e.tags.length = tags.length := by
      cases hz : rows with
      | nil => exact absurd hz hne
      | cons r rs =>
        unfold blockElems
        rw [List.zipIdx_cons, List.map_cons]
        exact ⟨_, _, rfl, rfl, by simp⟩
    obtain ⟨e, es, he1, he2, he3⟩ := hhead
    have hlenE : (blockElems tags start t rows).length = rows.length := by simp [blockElems]
    have hch : mshChunk (numbersFrom 1 n) (blockElems tags start t rows) =
        putInts 4 [(gmshCode t : Int), (rows.length : Int), (tags.length : Int)] ++
          (blockElems tags start t rows).flatMap fun e => putInts 4 (e.num :: (e.tags ++ e.nodes (numbersFrom 1 n))) := by
      rw [← hlenE, he1]
      unfold mshChunk
      simp only
      rw [he2, he3]
    rw [hch, hgc, hel, List.flatMap_map]
    congr 1
    · have : ((((List.range rows.length).map fun i => tags.map fun c => c.getD (start + i) 0).headD []).length : Nat) = tags.length := by
        obtain ⟨k, hk⟩ := Nat.exists_eq_succ_of_ne_zero hl0
        rw [hk, List.range_succ_eq_map, List.map_cons, List.headD_cons, List.length_map]
      rw [this]
    · apply flatMap_congr'
      intro ri hri
      have hm := List.fst_mem_of_mem_zipIdx hri
      unfold elemBin
      rw [(nodes_numbered n t ri.1 (hr _ hm).1 (hr _ hm).2 _ _).2]
      congr 2
      simp only
      omega
  | false =>
    rw [if_neg (by simp), if_neg (by simp), if_neg (by simp)]
    congr 1
    rw [List.flatMap_map, hel, List.map_map]
    unfold linesText
    rw [List.flatMap_map]
    apply flatMap_congr'
    intro ri hri
    have hm := List.fst_mem_of_mem_zipIdx hri
    unfold elemText
    simp only [Function.comp]
    unfold MshElem.line
    rw [(nodes_numbered n t ri.1 (hr _ hm).1 (hr _ hm).2 _ _).2]
    simp only
    rw [hgc, List.map_append, List.map_append]
    simp only [List.map_cons, List.map_nil, List.length_map, List.map_map, fmtInt_ofNat]
    rw [fmtInt_one_add]
    rfl

theorem mshChunks_cons (tags : List (List Int)) (start : Nat) (t : String) (rows : List (List Int)) (cells : List (String × List (List Int))) :
    mshChunks tags start ((t, rows) :: cells) = blockElems tags start t rows :: mshChunks tags (start + rows.length) cells := rfl

theorem writeBlocks_ok (binary : Bool) (n : Nat) (td : List (List (List Int))) (hne : td ≠ []) (all : List (String × List (List Int)))
    (htd : ∀ l ∈ td, l.map (·.length) = all.map (·.2.length)) (pre cells : List (String × List (List Int))) (hall : all = pre ++ cells)
    (hc : ∀ b ∈ cells, b.2 ≠ [] ∧ (find meshioToGmsh b.1).isSome ∧
      ∀ r ∈ b.2, Dict.get? numNodesPerCell b.1 = some r.length ∧ ∀ z ∈ r, 0 ≤ z ∧ z < n) :
    writeBlocks binary td pre.length (pre.map (·.2.length)).sum cells =
      .ok (if binary then (mshChunks (td.map List.flatten) (pre.map (·.2.length)).sum cells).flatMap (mshChunk (numbersFrom 1 n))
        else linesText ((mshChunks (td.map List.flatten) (pre.map (·.2.length)).sum cells).flatten.map (MshElem.line (numbersFrom 1 n)))) := by
  induction cells generalizing pre with
  | nil => cases binary <;> rfl
  | cons b cells ih =>
    obtain ⟨t, rows⟩ := b
    obtain ⟨hb1, hb2, hb3⟩ := hc (t, rows) (by simp)
    have hk : ∀ l ∈ td, pre.length < l.length := by
      intro l hl
      have := congrArg List.length (htd l hl)
      rw [List.length_map, List.length_map, hall, List.length_append, List.length_cons] at this
      omega
    have hlen : ∀ l ∈ td, (l.getD pre.length []).length = rows.length := by
      intro l hl
      have h1 := congrArg (fun x => x[pre.length]?) (htd l hl)
      simp only [List.getElem?_map] at h1
      rw [hall, List.getElem?_append_right (by omega), Nat.sub_self, List.getElem?_cons_zero,
        List.getElem?_eq_getElem (hk l hl)] at h1
      simp only [Option.map_some, Option.some.injEq] at h1
      rw [List.getD_eq_getElem?_getD, List.getElem?_eq_getElem (hk l hl)]
      exact h1
    rw [writeBlocks, blockTags_ok td _ hk]
    simp only
    rw [writeBlock_ok binary n _ t rows hb1 hb2 hb3 _ (td.map List.flatten) (by simpa using hne)]
    · simp only
      have e1 : pre.length + 1 = (pre ++ [(t, rows)]).length := by simp
      have e2 : (pre.map (·.2.length)).sum + rows.length = ((pre ++ [(t, rows)]).map (·.2.length)).sum := by simp
      rw [e1, e2, ih (pre ++ [(t, rows)]) (by rw [hall]; simp) (fun b hb => hc b (by simp [hb])), mshChunks_cons, ← e2]
      simp only
      cases binary with
      | true => simp only [if_true, List.flatMap_cons]
      | false =>
        simp only [Bool.false_eq_true, if_false, List.flatten_cons, List.map_append, linesText_append]
    · intro c hcm
      obtain ⟨l, hl, rfl⟩ := List.mem_map.1 hcm
      exact hlen l hl
    · intro i hi
      rw [List.map_map, List.map_map]
      apply List.map_congr_left
      intro l hl
      simp only [Function.comp]
      rw [getD_flatten l pre.length i (hk l hl) (by rw [hlen l hl]; exact hi), length_take_flatten l _ (htd l hl), hall,
        List.map_append, List.take_left' (by simp)]

theorem length_mshChunks (tags : List (List Int)) (start : Nat) (cells : List (String × List (List Int))) :
    (mshChunks tags start cells).flatten.length = (cells.map (·.2.length)).sum := by
  induction cells generalizing start with
  | nil => rfl
  | cons b cells ih =>
    rw [mshChunks_cons, List.flatten_cons, List.length_append, ih]
    simp [blockElems]

theorem tagData_lens (lim : Nat) (m : In F) (h : MshIn lim m) : ∀ l ∈ tagData m, l.map (·.length) = m.cells.map (·.2.length) := by
  have hz : ∀ o : Option (List (List Int)), o = m.physical ∨ o = m.geometrical →
      (o.getD (m.cells.map fun b => List.replicate b.2.length 0)).map (·.length) = m.cells.map (·.2.length) := by
    intro o ho
    cases hoo : o with
    | none => simp
    | some l =>
      refine (h.tags l ?_).1
      rcases ho with ho | ho <;> rw [← ho, hoo] <;> simp
  intro l hl
  unfold tagData at hl
  simp only [List.mem_append, List.mem_cons, List.not_mem_nil, or_false] at hl
  rcases hl with (rfl | rfl) | hl
  · exact hz _ (Or.inl rfl)
  · exact hz _ (Or.inr rfl)
  · cases hc : m.cellTags with
    | none => rw [hc] at hl; simp at hl
    | some l' =>
      rw [hc] at hl
      simp only [List.mem_singleton] at hl
      subst hl
      exact (h.tags l (by rw [hc]; simp)).1

theorem tagData_eq (m : In F) : (tagData m).map List.flatten = mshTags m := by
  unfold tagData mshTags mshTag
  cases m.cellTags <;> rfl

theorem writeElements_ok (lim : Nat) (binary : Bool) (m : In F) (h : MshIn lim m) :
    writeElements binary (tagData m) m.cells =
      .ok (mshElems (!binary) (numbersFrom 1 m.points.length) (mshChunks (mshTags m) 0 m.cells)) := by
  unfold writeElements mshElems
  have := writeBlocks_ok binary m.points.length (tagData m) (by simp [tagData]) m.cells (tagData_lens lim m h) [] m.cells rfl h.cells
  simp only [List.length_nil, List.map_nil, List.sum_nil] at this
  rw [this, tagData_eq, length_mshChunks]
  cases binary <;> simp

/-! ### Data -/

theorem components_eq (a : NArr (List F)) : components a = mshWidth a := by
  unfold components mshWidth
  cases a.tail with
  | nil => rfl
  | cons k l => simp

theorem writeData_ok (io : GmshFloat F) (binary : Bool) (tag : List Char) (name : String) (n : Nat) (a : NArr (List F))
    (h : MshArray n a) :
    writeData io binary tag name.toList a = .ok ((mshData name a).text io (!binary) tag (numbersFrom 1 n)) := by
  obtain ⟨h1, h2, h3, h4⟩ := h
  unfold writeData
  rw [if_neg (by omega), components_eq, if_neg (by omega)]
  unfold MshData.text mshData
  simp only
  rw [← h3, zip_numbers]
  congr 1
  have hh : linesText ['$' :: tag, ['1'], '"' :: (name.toList ++ ['"']), ['1'], "0.0".toList, ['3'], ['0'], fmtNat (mshWidth a), fmtNat a.rows.length] =
      linesText (['$' :: tag, fmtNat (([] : List (List Char)).length + 1), '"' :: (name.toList ++ ['"'])] ++ [] ++ (fmtNat ["0.0".toList].length :: ["0.0".toList]) ++
      (fmtNat (([] : List Int).length + 3) :: fmtInt 0 :: fmtNat (mshWidth a) :: fmtNat a.rows.length :: ([] : List Int).map fmtInt)) := rfl
  rw [hh, List.append_assoc, List.append_assoc]
  congr 1
  rw [← List.append_assoc]
  congr 1
  cases binary with
  | true =>
    simp only [Bool.not_true, Bool.false_eq_true, if_false, if_true]
    rw [List.flatMap_map]
    rfl
  | false =>
    simp only [Bool.not_false, Bool.false_eq_true, if_false, if_true, List.append_nil]
    rw [List.map_map]
    unfold linesText
    rw [List.flatMap_map]
    apply flatMap_congr'
    intro xi _
    unfold dataRow
    rw [if_neg (by simp)]
    simp only [Function.comp, fmtInt_one_add]

theorem writeDatas_ok (io : GmshFloat F) (binary : Bool) (tag : List Char) (n : Nat) (d : Dict (NArr (List F)))
    (h : ∀ kv ∈ d, MshArray n kv.2) :
    writeDatas io binary tag d = .ok (d.flatMap fun kv => (mshData kv.1 kv.2).text io (!binary) tag (numbersFrom 1 n)) := by
  induction d with
  | nil => rfl
  | cons kv d ih =>
    obtain ⟨k, a⟩ := kv
    rw [writeDatas, writeData_ok io binary tag k n a (h (k, a) (by simp))]
    simp only
    rw [ih fun x hx => h x (by simp [hx])]
    rfl

theorem rawData_ok (d : Dict (List (NArr (List F)))) (h : ∀ kv ∈ d, kv.2 ≠ [] ∧ ∀ a ∈ kv.2, a.tail = (mshConcat kv.2).tail) :
    rawData d = .ok (d.map fun kv => (kv.1, mshConcat kv.2)) := by
  induction d with
  | nil => rfl
  | cons kv d ih =>
    obtain ⟨k, l⟩ := kv
    obtain ⟨h1, h2⟩ := h (k, l) (by simp)
    rw [rawData, rawFromCellData, npConcat_of_tails h1 h2]
    simp only
    rw [ih fun x hx => h x (by simp [hx])]
    rfl

/-! ### The file -/

theorem headerText_eq (binary : Bool) : headerText binary = mshHeader (!binary) := by
  cases binary with
  | true =>
    unfold headerText mshHeader
    simp only [Bool.not_true, Bool.false_eq_true, if_false, if_true, List.append_assoc]
  | false =>
    unfold headerText mshHeader
    simp only [Bool.not_false, Bool.false_eq_true, if_false, if_true, List.append_assoc]

theorem nameEntry_eq (d : Dict (List Int)) (h : ∀ kv ∈ d, kv.2.length = 2) : d.filterMap nameEntry = d.map mshEntry := by
  induction d with
  | nil => rfl
  | cons kv d ih =>
    obtain ⟨k, l⟩ := kv
    have hl := h (k, l) (by simp)
    simp only at hl
    match l, hl with
    | [a, b], _ =>
      rw [List.filterMap_cons, show nameEntry (k, [a, b]) = some (mshEntry (k, [a, b])) from rfl, List.map_cons]
      simp only
      rw [ih fun x hx => h x (by simp [hx])]

theorem writePeriodic_eq (io : GmshFloat F) (l : List (Periodic F)) (ascii : Bool) (ids nums : List Int) :
    writePeriodic io l = (MshSec.periodic l).text io ascii ids nums := by
  unfold writePeriodic MshSec.text
  have : linkLines io = mshLink io := by
    funext p
    unfold linkLines mshLink
    simp only [List.append_assoc, List.cons_append, List.nil_append]
    rfl
  rw [this]

theorem writeNames_eq (io : GmshFloat F) (d : Dict (List Int)) (names : List (Int × Int × List Char))
    (h : names = (d.filterMap nameEntry).mergeSort nameLe) (ascii : Bool) (ids nums : List Int) :
    writeNames d = (if names = [] then [] else [MshSec.names (F := F) names]).flatMap (MshSec.text io ascii ids nums) := by
  unfold writeNames
  simp only
  rw [← h]
  by_cases h0 : names = []
  · rw [if_pos h0, if_pos h0]; rfl
  · rw [if_neg h0, if_neg h0]
    simp only [List.flatMap_cons, List.flatMap_nil, List.append_nil, MshSec.text]
    rfl

theorem elems_num (tags : List (List Int)) (start : Nat) (cells : List (String × List (List Int))) :
    (mshChunks tags start cells).flatten.map (·.num) =
      (List.range (cells.map (·.2.length)).sum).map fun (i : Nat) => (1 + ((start + i : Nat) : Int)) := by
  induction cells generalizing start with
  | nil => rfl
  | cons b cells ih =>
    obtain ⟨t, rows⟩ := b
    rw [mshChunks_cons, List.flatten_cons, List.map_append, ih, List.map_cons, List.sum_cons, List.range_add, List.map_append, List.map_map]
    congr 1
    · unfold blockElems
      rw [zipIdx_start, List.map_map, List.map_map]
      apply List.ext_getElem
      · simp
      · intro i h1 h2
        simp
    · apply List.map_congr_left
      intro i _
      simp only [Function.comp]
      omega

theorem length_rowsOf {β : Type} (cells : List (String × List β)) : (rowsOf cells).length = (cells.map (·.2.length)).sum := by
  unfold rowsOf
  induction cells with
  | nil => rfl
  | cons b cells ih => rw [List.flatMap_cons, List.length_append, ih]; simp

theorem nums_file (zero : F) (m : In F) (names : List (Int × Int × List Char)) :
    (mshFile zero m names).elems.map (·.num) = numbersFrom 1 (rowsOf m.cells).length := by
  show (mshChunks (mshTags m) 0 m.cells).flatten.map (·.num) = _
  rw [elems_num, length_rowsOf]
  unfold numbersFrom
  apply List.map_congr_left
  intro i _
  omega

theorem write_ok (io : GmshFloat F) (binary : Bool) (m : In F) (h : MshIn io.lim m) (names : List (Int × Int × List Char))
    (hn : names = (m.fieldData.filterMap nameEntry).mergeSort nameLe) :
    Gmsh22.write io binary m = .ok ((mshFile io.zero m names).text io (!binary)) := by
  have hpd : m.pointData.filter (fun kv => kv.1 ≠ "gmsh:dim_tags") = m.pointData := by
    rw [List.filter_eq_self]
    intro kv hkv
    simpa using (h.pointData.2 kv hkv).1
  unfold Gmsh22.write
  rw [writeNodes_ok io binary m h.points.2]
  simp only
  rw [writeElements_ok io.lim binary m h]
  simp only
  rw [hpd, writeDatas_ok io binary _ m.points.length m.pointData fun kv hkv => (h.pointData.2 kv hkv).2.2]
  simp only
  rw [rawData_ok m.cellData fun kv hkv => ⟨(h.cellData.2 kv hkv).2.2.1, (h.cellData.2 kv hkv).2.2.2.2.1⟩]
  simp only
  rw [writeDatas_ok io binary _ (rowsOf m.cells).length (m.cellData.map fun kv => (kv.1, mshConcat kv.2)) (by
    intro kv hkv
    obtain ⟨x, hx, rfl⟩ := List.mem_map.1 hkv
    exact (h.cellData.2 x hx).2.2.2.2.2)]
  simp only
  congr 1
  unfold MshFile.text
  rw [nums_file, headerText_eq, writeNames_eq io m.fieldData names hn (!binary) (numbersFrom 1 m.points.length) (numbersFrom 1 (rowsOf m.cells).length)]
  unfold mshFile
  simp only [List.append_assoc, List.flatMap_nil, List.nil_append, List.flatMap_append, List.flatMap_map]
  congr 4
  cases m.periodic with
  | none => rfl
  | some l =>
    simp only [Option.toList_some, List.map_cons, List.map_nil, List.flatMap_cons, List.flatMap_nil, List.append_nil]
    rw [writePeriodic_eq io l (!binary) (numbersFrom 1 m.points.length) (numbersFrom 1 (rowsOf m.cells).length)]
    rfl

end Meshio.Gmsh22
