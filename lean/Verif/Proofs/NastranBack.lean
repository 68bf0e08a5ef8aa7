/-
What is written to a Nastran file is read back: the whole file.
-/
import Verif.Proofs.NastranTrip
import Verif.Proofs.AbaqusTrip
import Verif.Proofs.AbaqusMesh
namespace Meshio.Nastran
open Meshio Types Tables Spec

variable {F : Type}

theorem hexGo_length (f n k : Nat) (hn : n < 16 ^ (k + 1)) (hf : n ≤ f) : (hexGo f n).length ≤ k + 1 := by
  induction k generalizing f n with
  | zero =>
    cases f with
    | zero => simp [hexGo]
    | succ f =>
      rw [hexGo, if_pos (by omega)]; simp
  | succ k ih =>
    cases f with
    | zero => simp [hexGo]
    | succ f =>
      rw [hexGo]
      split
      · simp
      · have : n / 16 < 16 ^ (k + 1) := by
          rw [Nat.div_lt_iff_lt_mul (by decide)]
          rw [Nat.pow_succ] at hn
          exact hn
        have h2 := ih f (n / 16) this (by omega)
        rw [List.length_append, List.length_singleton]; omega

theorem hexNat_length (n : Nat) (h : n < 16 ^ 6) : (hexNat n).length ≤ 6 := hexGo_length n n 5 h (Nat.le_refl n)

theorem fmtNat_length (n k : Nat) (hk : 0 < k) (h : n < 10 ^ k) : (fmtNat n).length ≤ k := (Nat.length_toDigits_le_iff (by decide) hk).2 h

/-! ## Cells with their references -/

theorem nasCells_from {α β : Type} (f : α → β) (crefs : Option (List (List Int))) (cells : List (String × List (List α))) (k : Nat) :
    (((cells.map fun b => (b.1, b.2.map (·.map f))).zipIdx k).flatMap fun b => b.1.2.zipIdx.map fun r => (crefs.map fun l => (l.getD b.2 []).getD r.2 0, b.1.1, r.1)) =
    ((cells.zipIdx k).flatMap fun b => b.1.2.zipIdx.map fun r => (crefs.map fun l => (l.getD b.2 []).getD r.2 0, b.1.1, r.1)).map fun c => (c.1, c.2.1, c.2.2.map f) := by
  induction cells generalizing k with
  | nil => rfl
  | cons b cells ih =>
    simp only [List.map_cons, List.zipIdx_cons, List.flatMap_cons, List.map_append]
    rw [ih (k + 1), List.zipIdx_map]
    simp only [List.map_map]
    rfl

theorem nasCells_map {α β : Type} (f : α → β) (crefs : Option (List (List Int))) (cells : List (String × List (List α))) :
    nasCells (cells.map fun b => (b.1, b.2.map (·.map f))) crefs = (nasCells cells crefs).map fun c => (c.1, c.2.1, c.2.2.map f) := nasCells_from f crefs cells 0

theorem nasCells_rows_from {α : Type} (crefs : Option (List (List Int))) (cells : List (String × List (List α))) (k : Nat) :
    ((cells.zipIdx k).flatMap fun b => b.1.2.zipIdx.map fun r => (crefs.map fun l => (l.getD b.2 []).getD r.2 0, b.1.1, r.1)).map (·.2) = rowsOf cells := by
  induction cells generalizing k with
  | nil => rfl
  | cons b cells ih =>
    simp only [List.zipIdx_cons, List.flatMap_cons, List.map_append]
    rw [ih (k + 1)]
    unfold rowsOf
    rw [List.flatMap_cons]
    congr 1
    rw [List.map_map]
    exact Abaqus.map_zipIdx_fst (fun r => (b.1, r)) b.2 0

theorem nasCells_rows {α : Type} (crefs : Option (List (List Int))) (cells : List (String × List (List α))) :
    (nasCells cells crefs).map (·.2) = rowsOf cells := nasCells_rows_from crefs cells 0

theorem zipIdx_getD (l : List Int) (rows : List (List Nat)) (t : String) (h : l.length = rows.length) :
    (rows.zipIdx.map fun r => (t, l.getD r.2 0)) = l.map fun r => (t, r) := by
  apply List.ext_getElem
  · simp [h]
  · intro i h1 h2
    simp only [List.length_map, List.length_zipIdx] at h1
    simp only [List.getElem_map, List.getElem_zipIdx, Nat.zero_add]
    rw [List.getD_eq_getElem?_getD, List.getElem?_eq_getElem (by omega)]
    rfl

theorem nasCells_refs_from (l : List (List Int)) (cells : List (String × List (List Nat))) (k : Nat) (h : (l.drop k).map (·.length) = cells.map (·.2.length)) :
    (((cells.zipIdx k).flatMap fun b => b.1.2.zipIdx.map fun r => ((some l).map fun l => (l.getD b.2 []).getD r.2 0, b.1.1, r.1)).map fun c => (c.2.1, c.1.getD 0)) =
      rowsOf ((cells.map (·.1)).zip (l.drop k)) := by
  induction cells generalizing k with
  | nil => rfl
  | cons b cells ih =>
    cases hd : l.drop k with
    | nil => rw [hd] at h; cases h
    | cons q t =>
      rw [hd, List.map_cons, List.map_cons, List.cons.injEq] at h
      have ht : l.drop (k + 1) = t := by rw [← List.tail_drop, hd]; rfl
      have hq : l.getD k [] = q := by
        have := List.getElem?_drop (xs := l) (i := k) (j := 0)
        rw [hd] at this
        rw [List.getD_eq_getElem?_getD]
        simp at this
        rw [← this]; rfl
      simp only [List.map_cons, List.zip_cons_cons, List.zipIdx_cons, List.flatMap_cons, List.map_append]
      rw [ih (k + 1) (by rw [ht]; exact h.2), ht]
      unfold rowsOf
      rw [List.flatMap_cons]
      congr 1
      rw [List.map_map, ← zipIdx_getD q b.2 b.1 h.1, ← hq]
      rfl

theorem nasCells_refs (l : List (List Int)) (cells : List (String × List (List Nat))) (h : l.map (·.length) = cells.map (·.2.length)) :
    ((nasCells cells (some l)).map fun c => (c.2.1, c.1.getD 0)) = rowsOf ((cells.map (·.1)).zip l) := nasCells_refs_from l cells 0 h

theorem rowsOf_length {κ α : Type} (cells : List (κ × List α)) : (rowsOf cells).length = (cells.map (·.2.length)).sum := by
  induction cells with
  | nil => rfl
  | cons b cells ih =>
    unfold rowsOf at *
    rw [List.flatMap_cons, List.length_append, ih, List.length_map, List.map_cons, List.sum_cons]

/-! ## The file -/

/-- The number, the reference and the coordinates of a point. -/
def itemPoint (val : F → F) (prefs : Option (List Int)) (p : List F × Nat) : NasItem F :=
  .grid ((p.2 : Int) + 1) (prefs.map fun l => l.getD p.2 0) (p.1.map val)

/-- The entry of a point. -/
def entryPoint (io : NasIO F) (pf : String) (prefs : Option (List Int)) (p : List F × Nat) : NasEntry :=
  gridEntry pf (p.2 + 1) (nasRefText (prefs.map fun l => l.getD p.2 0)) (nasShown io pf (p.1.getD 0 io.zero)) (nasShown io pf (p.1.getD 1 io.zero)) (nasShown io pf (p.1.getD 2 io.zero))

/-- What is said of a cell. -/
def itemCell (c : (Option Int × String × List Int) × Nat) : NasItem F :=
  .cell (String.ofList (nasName c.1.2.1)) c.1.2.1 (nasOrder c.1.2.1) ((c.2 : Int) + 1) c.1.1 ((nasOrder c.1.2.1).map fun i => c.1.2.2.getD i 0 + 1)

/-- The entry of a cell. -/
def entryCell (c : (Option Int × String × List Int) × Nat) : NasEntry :=
  cellEntry (nasName c.1.2.1) (c.2 + 1) (nasRefText c.1.1) ((nasOrder c.1.2.1).map fun i => fmtInt (c.1.2.2.getD i 0 + 1))

/-- The file that is written. -/
def fileOf (io : NasIO F) (val : F → F) (version : List Char) (pf : String) (points : List (List F)) (prefs : Option (List Int)) (cls : List (Option Int × String × List Int)) : NasFile F where
  before := ["$ Nastran file written by meshio v".toList ++ version]
  start := "BEGIN BULK".toList
  blank := []
  entries := points.zipIdx.map (fun p => (entryPoint io pf prefs p, itemPoint val prefs p)) ++ cls.zipIdx.map fun c => (entryCell c, itemCell c)
  fin := ⟨"ENDDATA".toList, ["ENDDATA".toList], []⟩
  rest := []

theorem parseInt_ref (r : Option Int) : NasRef (nasRefText r) r := by
  cases r with
  | none => rfl
  | some r => exact ⟨(isTok_fmtInt r).1, parseInt_fmtInt r⟩

theorem parse_succ (i : Nat) : parseInt (fmtNat (i + 1)) = some ((i : Int) + 1) := by
  rw [parseInt_fmtNat]; rfl

theorem point_ok (io : NasIO F) (val : F → F) (pf : String) (hpf : pf = "free" ∨ pf = "fixed-small" ∨ pf = "fixed-large") (prefs : Option (List Int))
    (p : List F) (i : Nat) (h3 : p.length = 3) (hfit : ∀ x ∈ p, (nasShown io pf x).length ≤ 16) (hi : i + 1 < 10 ^ 8)
    (hr : (pf = "fixed-small" → (nasRefText (prefs.map fun l => l.getD i 0)).length ≤ 8) ∧ (pf = "fixed-large" → (nasRefText (prefs.map fun l => l.getD i 0)).length ≤ 16))
    (hs : ∀ x ∈ p, IsTok (nasShown io pf x) ∧ ',' ∉ nasShown io pf x ∧ NasFloat io (nasShown io pf x) (val x)) :
    EntryOk (entryPoint io pf prefs (p, i)) (nasGrid pf (i + 1) (nasRefText (prefs.map fun l => l.getD i 0))
      (nasShown io pf (p.getD 0 io.zero)) (nasShown io pf (p.getD 1 io.zero)) (nasShown io pf (p.getD 2 io.zero))) (entryPoint io pf prefs (p, i)).fields ∧
    (itemPoint val prefs (p, i)).Is io (entryPoint io pf prefs (p, i)).fields := by
  have hi8 : (fmtNat (i + 1)).length ≤ 8 := fmtNat_length _ 8 (by decide) (by omega)
  match p, h3 with
  | [a, b, c], _ =>
    obtain ⟨ta, ca, fa⟩ := hs a (by simp)
    obtain ⟨tb, cb, fb⟩ := hs b (by simp)
    obtain ⟨tc, cc, fc⟩ := hs c (by simp)
    have la := hfit a (by simp)
    have lb := hfit b (by simp)
    have lc := hfit c (by simp)
    have hent : entryPoint io pf prefs ([a, b, c], i) = gridEntry pf (i + 1) (nasRefText (prefs.map fun l => l.getD i 0)) (nasShown io pf a) (nasShown io pf b) (nasShown io pf c) := rfl
    have hlines : nasGrid pf (i + 1) (nasRefText (prefs.map fun l => l.getD i 0)) (nasShown io pf ([a, b, c].getD 0 io.zero)) (nasShown io pf ([a, b, c].getD 1 io.zero)) (nasShown io pf ([a, b, c].getD 2 io.zero)) =
      nasGrid pf (i + 1) (nasRefText (prefs.map fun l => l.getD i 0)) (nasShown io pf a) (nasShown io pf b) (nasShown io pf c) := rfl
    have key : ∃ k, (k = "GRID".toList ∨ k = "GRID*".toList) ∧ EntryOk (gridEntry pf (i + 1) (nasRefText (prefs.map fun l => l.getD i 0)) (nasShown io pf a) (nasShown io pf b) (nasShown io pf c))
        (nasGrid pf (i + 1) (nasRefText (prefs.map fun l => l.getD i 0)) (nasShown io pf a) (nasShown io pf b) (nasShown io pf c))
        [k, fmtNat (i + 1), nasRefText (prefs.map fun l => l.getD i 0), nasShown io pf a, nasShown io pf b, nasShown io pf c] := by
      rcases hpf with rfl | rfl | rfl
      · exact ⟨_, .inl rfl, gridEntry_free _ _ _ _ _ (ref_tok _) (clean_ref _) ⟨ta, ca⟩ ⟨tb, cb⟩ ⟨tc, cc⟩⟩
      · have h8 : ∀ x, (nasShown io "fixed-small" x).length ≤ 8 := by
          intro x
          unfold nasShown
          rw [if_pos rfl, List.length_take]; omega
        exact ⟨_, .inl rfl, gridEntry_small _ _ _ _ _ hi8 (ref_tok _) (clean_ref _) (hr.1 rfl) ⟨ta, ca⟩ ⟨tb, cb⟩ ⟨tc, cc⟩ (h8 a) (h8 b) (h8 c)⟩
      · exact ⟨_, .inr rfl, gridEntry_large _ _ _ _ _ (by omega) (ref_tok _) (clean_ref _) (hr.2 rfl) ⟨ta, ca⟩ ⟨tb, cb⟩ ⟨tc, cc⟩ la lb lc⟩
    obtain ⟨k, hk, hok⟩ := key
    rw [hent, hlines]
    refine ⟨⟨hok.lines, rfl, hok.ok, hok.chain, hok.head, hok.last⟩, ?_⟩
    rw [hok.fields]
    exact ⟨k, _, _, _, rfl, hk, parse_succ i, parseInt_ref _, ⟨fa, fb, fc, trivial⟩⟩

theorem written_names : ∀ e ∈ nastranWritten, e.1 ≠ "wedge15" → e.1 ≠ "pyramid13" → (e.2.1, e.1, e.2.2.1, e.2.2.2) ∈ nastranNames := by decide +kernel

theorem written_text : ∀ e ∈ nastranWritten, IsTok e.2.1.toList ∧ (',' ∉ e.2.1.toList ∧ '\n' ∉ e.2.1.toList) ∧ e.2.1.toList.length ≤ 8 ∧ e.2.1.toList.head? = some 'C' ∧
    (e.2.1 ∈ nastranBars → e.2.2.1 = 2) ∧ (e.2.2.2.map fun i => e.2.2.2.getD i 0) = List.range e.2.2.1 := by decide +kernel

theorem filter_fmtInt (l : List Int) : (l.map fmtInt).filter (fun w => decide (w ≠ [])) = l.map fmtInt := by
  rw [List.filter_eq_self]
  intro w hw
  obtain ⟨i, _, rfl⟩ := List.mem_map.1 hw
  exact decide_eq_true (isTok_fmtInt i).1

theorem cell_ok (io : NasIO F) (e : String × String × Nat × List Nat) (he : e ∈ nastranWritten) (h1 : e.1 ≠ "wedge15") (h2 : e.1 ≠ "pyramid13") (ref : Option Int) (row : List Int) (i n : Nat)
    (hrow : row.length = e.2.2.1) (hi : i + 1 < 16 ^ 6) (hn : n < 10 ^ 8) (hr : (nasRefText ref).length ≤ 8) (hnode : ∀ k ∈ row, 0 ≤ k ∧ k < (n : Int)) :
    EntryOk (entryCell ((ref, e.1, row), i)) (cellLines ((ref, e.1, row), i)) (entryCell ((ref, e.1, row), i)).fields ∧
    (itemCell ((ref, e.1, row), i) : NasItem F).Is io (entryCell ((ref, e.1, row), i)).fields := by
  obtain ⟨_, hname, horder, holen, hlt, h20, _⟩ := written_find e he
  obtain ⟨tok, clean, len, head, hbar, _⟩ := written_text e he
  have hok : EntryOk (entryCell ((ref, e.1, row), i)) (cellLines ((ref, e.1, row), i)) (e.2.1.toList :: fmtNat (i + 1) :: nasRefText ref :: (e.2.2.2.map fun j => fmtInt (row.getD j 0 + 1))) := by
    unfold entryCell cellLines
    simp only
    rw [hname, horder]
    apply cellEntry_ok _ _ _ _ tok clean len head (fmtNat_length _ 8 (by decide) (by omega)) (hexNat_length _ hi) (ref_tok ref) (clean_ref ref) hr
    · intro w hw
      obtain ⟨j, hj, rfl⟩ := List.mem_map.1 hw
      refine ⟨isTok_fmtInt _, clean_fmtInt _, ?_⟩
      have hjl : j < row.length := by rw [hrow]; exact hlt j hj
      have hd : row.getD j 0 = row[j] := by rw [List.getD_eq_getElem?_getD, List.getElem?_eq_getElem hjl]; rfl
      have := hnode row[j] (List.getElem_mem hjl)
      rw [hd]
      have hc : (row[j] + 1 : Int) = ((row[j].toNat + 1 : Nat) : Int) := by omega
      rw [hc]
      exact fmtNat_length _ 8 (by decide) (by omega)
    · rw [List.length_map, holen]; exact h20
  refine ⟨⟨hok.lines, rfl, hok.ok, hok.chain, hok.head, hok.last⟩, ?_⟩
  rw [hok.fields]
  unfold itemCell
  simp only
  rw [hname, horder, String.ofList_toList]
  refine ⟨_, _, _, rfl, parse_succ i, parseInt_ref ref, ?_, ?_⟩
  · rw [List.length_map, holen]
    exact written_names e he h1 h2
  · have hw : (if e.2.1 ∈ nastranBars then (e.2.2.2.map fun j => fmtInt (row.getD j 0 + 1)).take 2 else e.2.2.2.map fun j => fmtInt (row.getD j 0 + 1)) =
        (e.2.2.2.map fun j => row.getD j 0 + 1).map fmtInt := by
      rw [List.map_map]
      split
      · rename_i hb
        exact List.take_of_length_le (by rw [List.length_map, holen, hbar hb]; decide)
      · rfl
    rw [hw, filter_fmtInt]
    have : All2 (fun w i => parseInt w = some i) ((e.2.2.2.map fun j => row.getD j 0 + 1).map fmtInt) ((e.2.2.2.map fun j => row.getD j 0 + 1).map id) :=
      all2_map fun x _ => parseInt_fmtInt x
    rwa [List.map_id] at this

/-! ## The whole file -/

section
variable (io : NasIO F) (val : F → F) (version : List Char) (pf : String) (points : List (List F)) (prefs : Option (List Int))
  (cells : List (String × List (List Nat))) (crefs : Option (List (List Int)))

/-- The cells as they are given to the writer. -/
def asInt (cells : List (String × List (List Nat))) : List (String × List (List Int)) := cells.map fun b => (b.1, b.2.map (·.map Int.ofNat))

/-- The file of a mesh. -/
def meshFile : NasFile F := fileOf io val version pf points prefs (nasCells (asInt cells) crefs)

theorem filterMap_point (l : List (List F × Nat)) :
    (l.map fun p => (entryPoint io pf prefs p, itemPoint val prefs p)).filterMap (fun e => match e.2 with | .grid id ref x => some (id, ref, x) | _ => none) =
      l.map fun p => ((p.2 : Int) + 1, prefs.map (fun l => l.getD p.2 0), p.1.map val) := by
  induction l with
  | nil => rfl
  | cons a l ih => simp only [List.map_cons, itemPoint, List.filterMap_cons] at ih ⊢; rw [ih]

theorem filterMap_point' (l : List ((Option Int × String × List Int) × Nat)) :
    (l.map fun c => (entryCell c, (itemCell c : NasItem F))).filterMap (fun e => match e.2 with | .grid id ref x => some (id, ref, x) | _ => none) = [] := by
  induction l with
  | nil => rfl
  | cons a l ih => simp only [List.map_cons, itemCell, List.filterMap_cons] at ih ⊢; exact ih

theorem meshFile_points : (meshFile io val version pf points prefs cells crefs).points =
    points.zipIdx.map fun p => ((p.2 : Int) + 1, prefs.map (fun l => l.getD p.2 0), p.1.map val) := by
  unfold NasFile.points meshFile fileOf
  simp only [List.filterMap_append]
  exact (congr (congrArg HAppend.hAppend (filterMap_point io val pf prefs _)) (filterMap_point' _)).trans (List.append_nil _)

/-- What is read of a cell. -/
def cellBack (c : (Option Int × String × List Int) × Nat) : String × Int × Option Int × List Int :=
  (c.1.2.1, (c.2 : Int) + 1, c.1.1, (nasOrder c.1.2.1).map fun i => ((nasOrder c.1.2.1).map fun i => c.1.2.2.getD i 0 + 1).getD i 0)

theorem filterMap_cell (l : List (List F × Nat)) :
    (l.map fun p => (entryPoint io pf prefs p, itemPoint val prefs p)).filterMap (fun e => match e.2 with
      | .cell _ t order id ref nodes => some (t, id, ref, order.map fun i => nodes.getD i 0)
      | _ => none) = ([] : Cls) := by
  induction l with
  | nil => rfl
  | cons a l ih => simp only [List.map_cons, itemPoint, List.filterMap_cons] at ih ⊢; exact ih

theorem filterMap_cell' (l : List ((Option Int × String × List Int) × Nat)) :
    (l.map fun c => (entryCell c, (itemCell c : NasItem F))).filterMap (fun e => match e.2 with
      | .cell _ t order id ref nodes => some (t, id, ref, order.map fun i => nodes.getD i 0)
      | _ => none) = l.map cellBack := by
  induction l with
  | nil => rfl
  | cons a l ih => simp only [List.map_cons, itemCell, List.filterMap_cons] at ih ⊢; rw [ih]; rfl

theorem meshFile_cells' : (meshFile io val version pf points prefs cells crefs).cells = (nasCells (asInt cells) crefs).zipIdx.map cellBack := by
  unfold NasFile.cells meshFile fileOf
  simp only [List.filterMap_append]
  exact (congr (congrArg HAppend.hAppend (filterMap_cell io val pf prefs _)) (filterMap_cell' _)).trans (List.nil_append _)

theorem back_order (e : String × String × Nat × List Nat) (he : e ∈ nastranWritten) (row : List Int) (hr : row.length = e.2.2.1) :
    (e.2.2.2.map fun i => (e.2.2.2.map fun i => row.getD i 0 + 1).getD i 0) = row.map (· + 1) := by
  obtain ⟨_, _, _, holen, hlt, _, _⟩ := written_find e he
  obtain ⟨_, _, _, _, _, hinv⟩ := written_text e he
  have h1 : (e.2.2.2.map fun i => (e.2.2.2.map fun i => row.getD i 0 + 1).getD i 0) = (e.2.2.2.map fun i => e.2.2.2.getD i 0).map fun i => row.getD i 0 + 1 := by
    rw [List.map_map]
    apply List.map_congr_left
    intro i hi
    have hil : i < e.2.2.2.length := by rw [holen]; exact hlt i hi
    simp [hil]
  rw [h1, hinv, ← hr]
  apply List.ext_getElem
  · simp
  · intro i h1 h2
    simp at h1
    simp [h1]

theorem mem_nasCells {α : Type} (cells : List (String × List (List α))) (c : Option Int × String × List α) (hc : c ∈ nasCells cells crefs) :
    ∃ b ∈ cells, c.2.1 = b.1 ∧ c.2.2 ∈ b.2 := by
  have : c.2 ∈ rowsOf cells := by rw [← nasCells_rows crefs cells]; exact List.mem_map_of_mem hc
  unfold rowsOf at this
  obtain ⟨b, hb, hm⟩ := List.mem_flatMap.1 this
  obtain ⟨r, hr, he⟩ := List.mem_map.1 hm
  exact ⟨b, hb, by rw [← he], by rw [← he]; exact hr⟩

theorem nasCells_length {α : Type} (cells : List (String × List (List α))) : (nasCells cells crefs).length = (cells.map (·.2.length)).sum := by
  rw [← rowsOf_length, ← nasCells_rows crefs cells, List.length_map]

variable {io val version pf points prefs cells crefs}

theorem asInt_length : ((asInt cells).map (·.2.length)) = cells.map (·.2.length) := by
  unfold asInt
  rw [List.map_map]
  apply List.map_congr_left
  intro b _
  simp

theorem mem_asInt {b : String × List (List Int)} (hb : b ∈ asInt cells) : ∃ b' ∈ cells, b = (b'.1, b'.2.map (·.map Int.ofNat)) := by
  obtain ⟨b', hb', he⟩ := List.mem_map.1 hb
  exact ⟨b', hb', he.symm⟩

/-- What is known of a cell of the mesh. -/
theorem cell_facts (hw : NasWritable io pf points prefs (asInt cells) crefs) (hk : NasKeeps io pf val points prefs cells crefs)
    (c : Option Int × String × List Int) (hc : c ∈ nasCells (asInt cells) crefs) :
    ∃ e ∈ nastranWritten, e.1 = c.2.1 ∧ c.2.2.length = e.2.2.1 ∧ e.1 ≠ "wedge15" ∧ e.1 ≠ "pyramid13" ∧ ∀ k ∈ c.2.2, 0 ≤ k ∧ k < (points.length : Int) := by
  obtain ⟨b, hb, h1, h2⟩ := mem_nasCells crefs _ c hc
  obtain ⟨e, he, heb, hlen⟩ := hw.rows b hb
  obtain ⟨b', hb', rfl⟩ := mem_asInt hb
  have ht := hk.types b' hb'
  refine ⟨e, he, by rw [heb, h1], hlen _ h2, by rw [heb]; exact ht.1, by rw [heb]; exact ht.2, ?_⟩
  intro k hkr
  obtain ⟨r, hr, hre⟩ := List.mem_map.1 h2
  rw [← hre] at hkr
  obtain ⟨i, hi, rfl⟩ := List.mem_map.1 hkr
  have := hk.nodes b' hb' r hr i hi
  exact ⟨Int.natCast_nonneg i, Int.ofNat_lt.2 this⟩

theorem cellBack_eq (hw : NasWritable io pf points prefs (asInt cells) crefs) (hk : NasKeeps io pf val points prefs cells crefs)
    (c : (Option Int × String × List Int) × Nat) (hc : c ∈ (nasCells (asInt cells) crefs).zipIdx) :
    cellBack c = (c.1.2.1, (c.2 : Int) + 1, c.1.1, c.1.2.2.map (· + 1)) := by
  obtain ⟨e, he, h1, h2, _, _, _⟩ := cell_facts hw hk c.1 (List.fst_mem_of_mem_zipIdx hc)
  unfold cellBack
  rw [← h1, (written_find e he).2.2.1, back_order e he _ h2]

theorem meshFile_cells (hw : NasWritable io pf points prefs (asInt cells) crefs) (hk : NasKeeps io pf val points prefs cells crefs) :
    (meshFile io val version pf points prefs cells crefs).cells =
      (nasCells cells crefs).zipIdx.map fun c => (c.1.2.1, (c.2 : Int) + 1, c.1.1, c.1.2.2.map fun i => ((i : Nat) : Int) + 1) := by
  rw [meshFile_cells', List.map_congr_left (cellBack_eq hw hk)]
  unfold asInt
  rw [nasCells_map, List.zipIdx_map, List.map_map]
  apply List.map_congr_left
  intro c _
  simp only [Function.comp, Prod.map, List.map_map, id]
  rfl

theorem ref_length (hw : NasWritable io pf points prefs (asInt cells) crefs) (hk : NasKeeps io pf val points prefs cells crefs) (c : Option Int × String × List Int)
    (hc : c ∈ nasCells (asInt cells) crefs) : (nasRefText c.1).length ≤ 8 := by
  unfold nasCells at hc
  obtain ⟨b, hb, hm⟩ := List.mem_flatMap.1 hc
  obtain ⟨r, hr, he⟩ := List.mem_map.1 hm
  subst he
  cases hcr : crefs with
  | none => simp [nasRefText]
  | some l =>
    have hlens := hw.cellRefs l hcr
    have hb2 : b.2 < (asInt cells).length := by
      have := List.snd_lt_of_mem_zipIdx hb
      simpa using this
    have hl : b.2 < l.length := by
      have := congrArg List.length hlens
      simp only [List.length_map] at this
      rw [this]; exact hb2
    have hr2 : r.2 < b.1.2.length := by
      have := List.snd_lt_of_mem_zipIdx hr
      simpa using this
    have hbe : b.1 = (asInt cells)[b.2] := by
      have := List.fst_eq_of_mem_zipIdx hb
      simpa using this
    have hq : l.getD b.2 [] = l[b.2] := by rw [List.getD_eq_getElem?_getD, List.getElem?_eq_getElem hl]; rfl
    have hql : l[b.2].length = b.1.2.length := by
      have h1 : (l.map (·.length))[b.2]? = ((asInt cells).map (·.2.length))[b.2]? := by rw [hlens]
      rw [List.getElem?_map, List.getElem?_map, List.getElem?_eq_getElem hl, List.getElem?_eq_getElem hb2] at h1
      simp only [Option.map_some, Option.some.injEq] at h1
      rw [h1, hbe]
    simp only [Option.map_some, nasRefText, Option.getD_some]
    rw [hq]
    have : r.2 < l[b.2].length := by rw [hql]; exact hr2
    rw [List.getD_eq_getElem?_getD, List.getElem?_eq_getElem this]
    exact hk.cellRefs l hcr _ (List.getElem_mem hl) _ (List.getElem_mem this)

theorem entry_point (hw : NasWritable io pf points prefs (asInt cells) crefs) (hk : NasKeeps io pf val points prefs cells crefs) (p : List F × Nat) (hp : p ∈ points.zipIdx) :
    EntryOk (entryPoint io pf prefs p) (nasGrid pf (p.2 + 1) (nasRefText (prefs.map fun l => l.getD p.2 0))
      (nasShown io pf (p.1.getD 0 io.zero)) (nasShown io pf (p.1.getD 1 io.zero)) (nasShown io pf (p.1.getD 2 io.zero))) (entryPoint io pf prefs p).fields ∧
    (itemPoint val prefs p).Is io (entryPoint io pf prefs p).fields := by
  obtain ⟨x, i⟩ := p
  have hx := List.fst_mem_of_mem_zipIdx hp
  have hi : i < points.length := by
    have := List.snd_lt_of_mem_zipIdx hp
    simpa using this
  refine point_ok io val pf hw.format prefs x i (hw.three x hx) (hw.fits x hx) (by have := hk.number; omega) ?_ (hk.shown x hx)
  cases hpr : prefs with
  | none => simp [nasRefText]
  | some l =>
    have hl := hw.pointRefs l hpr
    have hil : i < l.length := by omega
    have := hk.pointRefs l hpr l[i] (List.getElem_mem hil)
    simp only [Option.map_some, nasRefText, Option.getD_some]
    rw [List.getD_eq_getElem?_getD, List.getElem?_eq_getElem hil]
    exact this

theorem entry_cell (hw : NasWritable io pf points prefs (asInt cells) crefs) (hk : NasKeeps io pf val points prefs cells crefs)
    (c : (Option Int × String × List Int) × Nat) (hc : c ∈ (nasCells (asInt cells) crefs).zipIdx) :
    EntryOk (entryCell c) (cellLines c) (entryCell c).fields ∧ (itemCell c : NasItem F).Is io (entryCell c).fields := by
  obtain ⟨⟨ref, t, row⟩, i⟩ := c
  have hm := List.fst_mem_of_mem_zipIdx hc
  obtain ⟨e, hew, h1, h2, h3, h4, h5⟩ := cell_facts hw hk _ hm
  simp only at h1
  subst h1
  have hi : i < (nasCells (asInt cells) crefs).length := by
    have := List.snd_lt_of_mem_zipIdx hc
    simpa using this
  rw [nasCells_length, asInt_length] at hi
  exact cell_ok (F := F) io e hew h3 h4 ref row i points.length h2 (by have := hk.count; omega) hk.number (ref_length hw hk _ hm) h5

/-- All entries are as they should be. -/
theorem entries_ok (hw : NasWritable io pf points prefs (asInt cells) crefs) (hk : NasKeeps io pf val points prefs cells crefs) :
    ∀ e ∈ (meshFile io val version pf points prefs cells crefs).entries, ∃ ls, EntryOk e.1 ls e.1.fields ∧ e.2.Is io e.1.fields := by
  intro e he
  unfold meshFile fileOf at he
  simp only [List.mem_append] at he
  rcases he with he | he
  · obtain ⟨p, hp, rfl⟩ := List.mem_map.1 he
    exact ⟨_, entry_point hw hk p hp⟩
  · obtain ⟨c, hc, rfl⟩ := List.mem_map.1 he
    exact ⟨_, entry_cell hw hk c hc⟩

theorem meshFile_text (hw : NasWritable io pf points prefs (asInt cells) crefs) (hk : NasKeeps io pf val points prefs cells crefs) :
    (meshFile io val version pf points prefs cells crefs).text = nasWritten io version pf points prefs (asInt cells) crefs := by
  unfold NasFile.text nasWritten meshFile fileOf nasPointLines nasCellLines
  simp only [List.append_nil, List.flatMap_append, List.flatMap_map, List.cons_append, List.nil_append, List.append_assoc]
  rw [flatMap_congr' (l := points.zipIdx) (fun p hp => (entry_point hw hk p hp).1.lines),
    flatMap_congr' (l := (nasCells (asInt cells) crefs).zipIdx) (fun c hc => (entry_cell hw hk c hc).1.lines)]
  rfl

theorem pids_eq (points : List (List F)) : (points.zipIdx.map fun p => ((p.2 : Int) + 1)) = numbersFrom 1 points.length := by
  unfold numbersFrom
  apply List.ext_getElem
  · simp
  · intro i h1 h2
    simp only [List.getElem_map, List.getElem_zipIdx, List.getElem_range, Nat.zero_add]
    omega

theorem meshFile_ids : ((meshFile io val version pf points prefs cells crefs).points.map (·.1)) = numbersFrom 1 points.length := by
  rw [meshFile_points, List.map_map]
  exact pids_eq points

theorem fresh_all {G : Type} (es : List (NasEntry × G)) (fin : NasLine) (hes : ∀ e ∈ es, e.1.last.words.length ≠ 10 ∧ ¬ NasPlus e.1.first) (hf : ¬ NasPlus fin) :
    ∀ p ∈ es.zip (es.map (·.1.first) ++ [fin]).tail, ¬ NasPlus p.2 ∧ ¬ NasAuto p.1.1.last p.2 := by
  intro p hp
  have h1 := List.of_mem_zip hp
  refine ⟨?_, fun h => (hes p.1 h1.1).1 h.1⟩
  have h2 := List.mem_of_mem_tail h1.2
  rcases List.mem_append.1 h2 with h | h
  · obtain ⟨e, he, hee⟩ := List.mem_map.1 h
    rw [← hee]; exact (hes e he).2
  · rw [List.mem_singleton] at h
    rw [h]; exact hf

theorem meshFile_ok (hv : '\n' ∉ version) (hw : NasWritable io pf points prefs (asInt cells) crefs) (hk : NasKeeps io pf val points prefs cells crefs) :
    (meshFile io val version pf points prefs cells crefs).Ok io := by
  have hent := entries_ok (version := version) hw hk
  have hhead : ∀ e ∈ (meshFile io val version pf points prefs cells crefs).entries, e.1.first.text.head? = some 'G' ∨ e.1.first.text.head? = some 'C' := by
    intro e he
    obtain ⟨_, h, _⟩ := hent e he
    exact h.head
  have hfin : (meshFile io val version pf points prefs cells crefs).fin = ⟨"ENDDATA".toList, ["ENDDATA".toList], []⟩ := rfl
  have hstart : (meshFile io val version pf points prefs cells crefs).start = "BEGIN BULK".toList := rfl
  refine ⟨⟨?_, by rw [hstart]; exact ⟨by decide, by decide⟩, by simp [meshFile, fileOf], ?_, ?_, ?_, ?_, ⟨by rw [hfin]; exact ⟨by decide, not_blank (c := 'E') (by decide) (by decide) (by decide) (by decide) (by decide),
    .inr ⟨by decide, by decide, [], "ENDDATA".toList, rfl, by simp, by decide, by decide⟩, by simp⟩, by rw [hfin]; decide⟩, ?_, ?_, ?_, ?_⟩, ?_⟩
  · intro l hl
    have hl : l = "$ Nastran file written by meshio v".toList ++ version := by simpa [meshFile, fileOf] using hl
    subst hl
    refine ⟨?_, ?_⟩
    · rw [List.mem_append, not_or]
      exact ⟨by decide, hv⟩
    · obtain ⟨r, hr⟩ := strip_prefix "$ Nastran file written by meshio v".toList (by decide) (by decide) (by decide) version
      rw [hr]
      intro h
      have h' : 'B' :: "EGIN BULK".toList <+: '$' :: (" Nastran file written by meshio v".toList ++ r) := h
      exact absurd (List.cons_prefix_cons.1 h').1 (by decide)
  · intro e he l hl
    obtain ⟨_, h, _⟩ := hent e he
    exact h.ok l hl
  · intro e he
    obtain ⟨_, h, _⟩ := hent e he
    exact h.chain
  · intro e he hp
    have hh := hhead e he
    obtain ⟨s, hs⟩ := hp
    rw [← hs] at hh
    rcases hh with hh | hh
    · exact absurd hh (by simp)
    · exact absurd hh (by simp)
  · apply fresh_all
    · intro e he
      obtain ⟨_, h, _⟩ := hent e he
      refine ⟨h.last, ?_⟩
      rintro (hp | hp)
      · rcases h.head with hh | hh <;> rw [hh] at hp <;> exact absurd hp (by decide)
      · rcases h.head with hh | hh <;> rw [hh] at hp <;> exact absurd hp (by decide)
    · rw [hfin]
      rintro (h | h) <;> exact absurd h (by decide)
  · intro e he
    obtain ⟨_, _, h⟩ := hent e he
    exact h
  · rw [meshFile_ids]; exact numbersFrom_nodup 1 _
  · refine ⟨3, ?_⟩
    rw [meshFile_points]
    intro p hp
    obtain ⟨q, hq, rfl⟩ := List.mem_map.1 hp
    simp only [List.length_map]
    exact hw.three _ (List.fst_mem_of_mem_zipIdx hq)
  · rw [meshFile_cells hw hk]
    cases hcr : crefs with
    | none =>
      right
      intro c hc
      obtain ⟨q, hq, rfl⟩ := List.mem_map.1 hc
      have hm := List.fst_mem_of_mem_zipIdx hq
      unfold nasCells at hm
      obtain ⟨b, _, hm⟩ := List.mem_flatMap.1 hm
      obtain ⟨r, _, he⟩ := List.mem_map.1 hm
      simp only
      rw [← he]; rfl
    | some l =>
      left
      intro c hc
      obtain ⟨q, hq, rfl⟩ := List.mem_map.1 hc
      have hm := List.fst_mem_of_mem_zipIdx hq
      unfold nasCells at hm
      obtain ⟨b, _, hm⟩ := List.mem_flatMap.1 hm
      obtain ⟨r, _, he⟩ := List.mem_map.1 hm
      simp only
      rw [← he]
      simp
  · rw [meshFile_ids, meshFile_cells hw hk]
    intro c hc k hkc
    obtain ⟨q, hq, rfl⟩ := List.mem_map.1 hc
    obtain ⟨i, hi, rfl⟩ := List.mem_map.1 hkc
    obtain ⟨b, hb, _, h2⟩ := mem_nasCells crefs cells q.1 (List.fst_mem_of_mem_zipIdx hq)
    have := hk.nodes b hb _ h2 i hi
    unfold numbersFrom
    exact List.mem_map.2 ⟨i, List.mem_range.2 this, by omega⟩

theorem nasCells_ref (c : Option Int × String × List Nat) (hc : c ∈ nasCells cells crefs) : (crefs = none → c.1 = none) ∧ (crefs ≠ none → c.1 ≠ none) := by
  unfold nasCells at hc
  obtain ⟨b, _, hm⟩ := List.mem_flatMap.1 hc
  obtain ⟨r, _, he⟩ := List.mem_map.1 hm
  cases crefs with
  | none => exact ⟨fun _ => by rw [← he]; rfl, fun h => absurd rfl h⟩
  | some l => exact ⟨fun h => by simp at h, fun _ => by rw [← he]; simp⟩

theorem filterMap_none_nil {α β : Type} (g : α → Option β) (l : List α) (h : ∀ a ∈ l, g a = none) : l.filterMap g = [] := by
  induction l with
  | nil => rfl
  | cons a l ih => rw [List.filterMap_cons, h a (by simp)]; exact ih fun b hb => h b (by simp [hb])

theorem filterMap_some_nil {α β : Type} (g : α → Option β) (l : List α) (h : ∀ a ∈ l, g a ≠ none) : l.filterMap g = [] ↔ l = [] := by
  cases l with
  | nil => simp
  | cons a l =>
    obtain ⟨b, hb⟩ := Option.ne_none_iff_exists'.1 (h a (by simp))
    rw [List.filterMap_cons, hb]
    simp

theorem meshFile_mesh (hw : NasWritable io pf points prefs (asInt cells) crefs) (hk : NasKeeps io pf val points prefs cells crefs) :
    (meshFile io val version pf points prefs cells crefs).mesh = nasBack val points prefs cells crefs := by
  unfold NasFile.mesh nasBack
  rw [meshFile_ids, meshFile_cells hw hk, meshFile_points]
  simp only [List.map_map, Function.comp_def]
  congr 1
  · exact Abaqus.map_zipIdx_fst (·.map val) points 0
  · unfold numbersFrom
    apply List.map_congr_left
    intro i _
    omega
  · congr 1
    rw [← nasCells_rows crefs cells]
    rw [← Abaqus.map_zipIdx_fst (·.2) (nasCells cells crefs) 0]
    apply List.map_congr_left
    intro c hc
    obtain ⟨b, hb, _, h2⟩ := mem_nasCells crefs cells c.1 (List.fst_mem_of_mem_zipIdx hc)
    have : c.1.2.2.map (fun i : Nat => (numbersFrom 1 points.length).idxOf ((i : Int) + 1)) = c.1.2.2 := by
      conv => rhs; rw [← List.map_id c.1.2.2]
      apply List.map_congr_left
      intro i hi
      have := hk.nodes b hb _ h2 i hi
      rw [Abaqus.idxOf_numbersFrom _ _ (by omega) (by omega)]
      rfl
    rw [this]
  · rw [← nasCells_rows crefs cells, List.zipIdx_map, List.map_map]
    rfl
  · rw [List.filterMap_map]
    cases hpr : prefs with
    | none =>
      rw [filterMap_none_nil _ _ (by intro a _; rfl), if_pos rfl]
      split <;> rfl
    | some l =>
      have hl := hw.pointRefs l hpr
      have : points.zipIdx.filterMap ((fun p : Int × Option Int × List F => p.2.1) ∘ fun p => ((p.2 : Int) + 1, (some l).map (fun l => l.getD p.2 0), p.1.map val)) = l := by
        rw [show ((fun p : Int × Option Int × List F => p.2.1) ∘ fun p : List F × Nat => ((p.2 : Int) + 1, (some l).map (fun l => l.getD p.2 0), p.1.map val)) = fun p => some (l.getD p.2 0) from rfl]
        rw [List.filterMap_eq_map']
        apply List.ext_getElem
        · simp [hl]
        · intro i h1 h2
          simp [h2]
      rw [this]
      have hiff : l = [] ↔ points = [] := by
        rw [← List.length_eq_zero_iff, ← List.length_eq_zero_iff, hl]
      by_cases hp : points = []
      · rw [if_pos hp, if_pos (hiff.2 hp)]
      · rw [if_neg hp, if_neg (mt hiff.1 hp)]
  · rw [List.filterMap_map]
    have hempty : (nasCells cells crefs).zipIdx = [] ↔ rowsOf cells = [] := by
      rw [← nasCells_rows crefs cells]
      simp
    cases hcr : crefs with
    | none =>
      rw [filterMap_none_nil _ _ (by
        intro a ha
        exact (nasCells_ref (crefs := none) a.1 (List.fst_mem_of_mem_zipIdx ha)).1 rfl), if_pos rfl]
      split <;> rfl
    | some l =>
      rw [hcr] at hempty
      have hiff := filterMap_some_nil ((fun c : String × Int × Option Int × List Int => c.2.2.1) ∘ fun c : (Option Int × String × List Nat) × Nat => (c.1.2.1, (c.2 : Int) + 1, c.1.1, c.1.2.2.map fun i : Nat => (i : Int) + 1)) (nasCells cells (some l)).zipIdx (by
        intro a ha
        exact (nasCells_ref (crefs := some l) a.1 (List.fst_mem_of_mem_zipIdx ha)).2 (by simp))
      by_cases hp : rowsOf cells = []
      · rw [if_pos hp, if_pos (hiff.2 (hempty.2 hp))]
      · rw [if_neg hp, if_neg (fun h => hp (hempty.1 (hiff.1 h))), Option.map_some]
        congr 2
        rw [← nasCells_refs l cells ((hw.cellRefs l hcr).trans asInt_length)]
        exact congrArg groupRuns (Abaqus.map_zipIdx_fst (fun c : Option Int × String × List Nat => (c.2.1, c.1.getD 0)) _ 0)

theorem roundtrip (hv : '\n' ∉ version) (hw : NasWritable io pf points prefs (asInt cells) crefs) (hk : NasKeeps io pf val points prefs cells crefs) :
    read io (nasWritten io version pf points prefs (asInt cells) crefs) = .ok (nasBack val points prefs cells crefs) := by
  rw [← meshFile_text (version := version) hw hk, read_ok io _ (meshFile_ok hv hw hk), meshFile_mesh hw hk]

end

end Meshio.Nastran
