/-
Writing Nastran files: the exact text.
-/
import Verif.Proofs.NastranRead
namespace Meshio.Nastran
open Meshio Types Tables Spec

variable {F : Type}

theorem padRight_eq : padRight = nasLeft := rfl
theorem padLeft_eq : padLeft = nasRight := rfl

theorem refText_ok (refs : Option (List Int)) (i : Nat) (h : ∀ l, refs = some l → i < l.length) :
    refText refs i = .ok (nasRefText (refs.map fun l => l.getD i 0)) := by
  unfold refText nasRefText
  cases refs with
  | none => rfl
  | some l =>
    have := h l rfl
    simp [List.getElem?_eq_getElem this]

/-- The format that a name stands for. -/
def IsFormat (pf : String) (p : PointFormat) : Prop := (pf = "free" ∧ p = .free) ∨ (pf = "fixed-small" ∧ p = .small) ∨ (pf = "fixed-large" ∧ p = .large)

theorem pointFormat_ok (pf : String) (h : pf = "free" ∨ pf = "fixed-small" ∨ pf = "fixed-large") : ∃ p, pointFormat pf = .ok p ∧ IsFormat pf p := by
  rcases h with rfl | rfl | rfl
  · exact ⟨.free, rfl, .inl ⟨rfl, rfl⟩⟩
  · exact ⟨.small, rfl, .inr (.inl ⟨rfl, rfl⟩)⟩
  · exact ⟨.large, rfl, .inr (.inr ⟨rfl, rfl⟩)⟩

theorem gridText_ok (pf : String) (p : PointFormat) (h : IsFormat pf p) (id : Nat) (ref x y z : List Char) :
    gridText p id ref x y z = linesText (nasGrid pf id ref x y z) := by
  rcases h with ⟨rfl, rfl⟩ | ⟨rfl, rfl⟩ | ⟨rfl, rfl⟩
  · unfold gridText nasGrid
    rw [if_pos rfl]
    have e1 : "GRID,".toList = "GRID".toList ++ [','] := by decide
    have e2 : ",".toList = [','] := by decide
    have e3 : "\n".toList = ['\n'] := by decide
    simp only [e1, e2, e3, linesText, List.flatMap_cons, List.flatMap_nil, joinWith, List.append_nil, List.append_assoc, List.cons_append, List.nil_append]
  · unfold gridText nasGrid
    rw [if_neg (by decide), if_pos rfl]
    have e1 : "GRID    ".toList = nasLeft 8 "GRID".toList := by decide
    have e3 : "\n".toList = ['\n'] := by decide
    simp only [e1, e3, linesText, List.flatMap_cons, List.flatMap_nil, List.append_nil, padRight_eq, padLeft_eq]
  · unfold gridText nasGrid
    rw [if_neg (by decide), if_neg (by decide)]
    have e1 : "GRID*   ".toList = nasLeft 8 "GRID*".toList := by decide
    have e2 : "\n*       ".toList = '\n' :: nasLeft 8 "*".toList := by decide
    have e3 : "\n".toList = ['\n'] := by decide
    simp only [e1, e2, e3, linesText, List.flatMap_cons, List.flatMap_nil, List.append_nil, padRight_eq, padLeft_eq, List.append_assoc, List.cons_append, List.nil_append]

theorem shown_ok (io : NasIO F) (pf : String) (p : PointFormat) (h : IsFormat pf p) (xs : List F) (hl : ∀ x ∈ xs, (nasShown io pf x).length ≤ 16) :
    mapRes (floatText io p) xs = .ok (xs.map (nasShown io pf)) := by
  apply mapRes_ok_of_forall
  intro x hx
  have hlx := hl x hx
  rcases h with ⟨rfl, rfl⟩ | ⟨rfl, rfl⟩ | ⟨rfl, rfl⟩
  · have e : nasShown io "free" x = (io.sci x).map fun c => if c = 'e' then 'E' else c := if_neg (by decide)
    rw [e] at hlx ⊢
    exact if_pos hlx
  · have e : nasShown io "fixed-small" x = ((io.fixed x).reverse.dropWhile (· == '0')).reverse.take 8 := if_pos rfl
    rw [e]; rfl
  · have e : nasShown io "fixed-large" x = (io.sci x).map fun c => if c = 'e' then 'E' else c := if_neg (by decide)
    rw [e] at hlx ⊢
    exact if_pos hlx

theorem linesText_flatMap {α : Type} (l : List α) (g : α → List (List Char)) : (l.map fun a => linesText (g a)).flatten = linesText (l.flatMap g) := by
  induction l with
  | nil => rfl
  | cons a l ih => rw [List.map_cons, List.flatten_cons, ih, List.flatMap_cons, linesText_append]

theorem points_ok (io : NasIO F) (pf : String) (p : PointFormat) (h : IsFormat pf p) (points : List (List F)) (prefs : Option (List Int))
    (h3 : ∀ p ∈ points, p.length = 3) (hf : ∀ p ∈ points, ∀ x ∈ p, (nasShown io pf x).length ≤ 16) (hp : ∀ l, prefs = some l → l.length = points.length) :
    ∃ ps, mapRes (pointText io p prefs) points.zipIdx = .ok ps ∧ ps.flatten = linesText (nasPointLines io pf points prefs) := by
  refine ⟨_, mapRes_ok_of_forall (g := fun q => linesText (nasGrid pf (q.2 + 1) (nasRefText (prefs.map fun l => l.getD q.2 0))
    (nasShown io pf (q.1.getD 0 io.zero)) (nasShown io pf (q.1.getD 1 io.zero)) (nasShown io pf (q.1.getD 2 io.zero)))) ?_, by unfold nasPointLines; exact linesText_flatMap _ _⟩
  rintro ⟨x, i⟩ hx
  have hmem : x ∈ points := List.fst_mem_of_mem_zipIdx hx
  have hi : i < points.length := by
    have := List.snd_lt_of_mem_zipIdx hx
    simpa using this
  unfold pointText
  simp only
  rw [shown_ok io pf p h x (hf x hmem), refText_ok prefs i (fun l hl => by rw [hp l hl]; exact hi)]
  have hlen := h3 x hmem
  match x, hlen with
  | [a, b, c], _ =>
    simp only [List.map_cons, List.map_nil]
    rw [gridText_ok pf p h]
    rfl

/-! ## Cells -/

theorem written_find : ∀ e ∈ nastranWritten, find meshioToNastran e.1 = some e.2.1 ∧ nasName e.1 = e.2.1.toList ∧ nasOrder e.1 = e.2.2.2 ∧
    e.2.2.2.length = e.2.2.1 ∧ (∀ i ∈ e.2.2.2, i < e.2.2.1) ∧ e.2.2.1 ≤ 20 ∧
    (find vtkToNastranOrder e.2.1).getD (List.range e.2.2.1) = e.2.2.2 := by decide +kernel

theorem reorder_written (e : String × String × Nat × List Nat) (he : e ∈ nastranWritten) (row : List Int) (hr : row.length = e.2.2.1) :
    reorder vtkToNastranOrder e.2.1 row = .ok (e.2.2.2.map fun i => row.getD i 0) := by
  obtain ⟨_, _, _, _, hlt, _, h⟩ := written_find e he
  unfold reorder
  cases hk : find vtkToNastranOrder e.2.1 with
  | none =>
    rw [hk] at h
    rw [← h, Option.getD_none, ← hr, range_getD]
  | some o =>
    rw [hk, Option.getD_some] at h
    subst h
    exact Flac3d.pick_atD 0 (by rw [hr]; exact hlt)

theorem flag_eq (id : Nat) (k : Char) : ['+', k] ++ nasLeft 6 (hexNat id) = nasLeft 8 ('+' :: k :: hexNat id) := by
  unfold nasLeft
  simp only [List.cons_append, List.nil_append, List.length_cons]
  rw [show 8 - ((hexNat id).length + 1 + 1) = 6 - (hexNat id).length by omega]

theorem take_drop_comm' {α : Type} (l : List α) : (l.take 14).drop 6 = (l.drop 6).take 8 := by
  rw [List.drop_take]

theorem cellText_ok (e : String × String × Nat × List Nat) (he : e ∈ nastranWritten) (id : Nat) (ref : List Char) (row : List Int) (hr : row.length = e.2.2.1) :
    cellText (.fixed false 8 '+' 6 14) e.2.1.toList id ref row =
      .ok (linesText (nasCell (nasName e.1) id ref ((nasOrder e.1).map fun i => fmtInt (row.getD i 0 + 1)))) := by
  obtain ⟨_, hname, horder, hlen, hlt, _, _⟩ := written_find e he
  rw [hname, horder]
  have hrow : (e.2.2.2.map fun i => fmtInt (row.getD i 0 + 1)) = (e.2.2.2.map fun i => (row.map (· + 1)).getD i 0).map fmtInt := by
    rw [List.map_map]
    apply List.map_congr_left
    intro i hi
    have := hlt i hi
    rw [← hr] at this
    simp [this]
  rw [hrow]
  unfold cellText
  simp only [Bool.false_eq_true, if_false, String.ofList_toList]
  rw [reorder_written e he (row.map (· + 1)) (by rw [List.length_map, hr])]
  simp only
  generalize (e.2.2.2.map fun i => (row.map (· + 1)).getD i 0) = nodes
  have e3 : "\n".toList = ['\n'] := by decide
  have econn : ∀ l : List Int, (l.flatMap fun i => nasLeft 8 (fmtInt i)) = (l.map fmtInt).flatMap (nasLeft 8) := by
    intro l
    rw [List.flatMap_map]
  unfold nasCell
  dsimp only
  rw [List.length_map]
  by_cases h6 : 6 < nodes.length
  · rw [if_pos h6, if_neg (show ¬ nodes.length ≤ 6 by omega)]
    by_cases h14 : 14 < nodes.length
    · rw [if_pos h14, if_neg (show ¬ nodes.length ≤ 14 by omega)]
      simp only [padRight_eq]
      simp only [flag_eq, econn, e3, take_drop_comm']
      simp only [linesText, List.map_cons, List.map_nil, List.flatMap_cons, List.flatMap_nil, List.flatMap_append, List.append_nil, List.append_assoc,
        List.cons_append, List.nil_append, List.map_take, List.map_drop]
    · rw [if_neg h14, if_pos (show nodes.length ≤ 14 by omega)]
      simp only [padRight_eq]
      simp only [flag_eq, econn, e3, take_drop_comm']
      have ht : (nodes.drop 6).take 8 = nodes.drop 6 := List.take_of_length_le (by rw [List.length_drop]; omega)
      rw [ht]
      simp only [linesText, List.map_cons, List.map_nil, List.flatMap_cons, List.flatMap_nil, List.flatMap_append, List.append_nil, List.append_assoc,
        List.cons_append, List.nil_append, List.map_take, List.map_drop]
  · rw [if_neg h6, if_pos (show nodes.length ≤ 6 by omega)]
    simp only [padRight_eq]
    simp only [econn, e3]
    have ht : nodes.take 6 = nodes := List.take_of_length_le (by omega)
    rw [ht]
    simp only [linesText, List.map_cons, List.map_nil, List.flatMap_cons, List.flatMap_nil, List.flatMap_append, List.append_nil, List.append_assoc,
      List.cons_append, List.nil_append]

/-- The lines of one numbered cell. -/
def cellLines (c : (Option Int × String × List Int) × Nat) : List (List Char) :=
  nasCell (nasName c.1.2.1) (c.2 + 1) (nasRefText c.1.1) ((nasOrder c.1.2.1).map fun i => fmtInt (c.1.2.2.getD i 0 + 1))

theorem cellsText_ok (e : String × String × Nat × List Nat) (he : e ∈ nastranWritten) (refs : Option (List Int)) (id ic : Nat) (rows : List (List Int))
    (hr : ∀ r ∈ rows, r.length = e.2.2.1) (hl : ∀ l, refs = some l → ic + rows.length ≤ l.length) :
    cellsText (.fixed false 8 '+' 6 14) e.2.1.toList refs id ic rows =
      .ok (linesText ((((rows.zipIdx ic).map fun r => (refs.map fun l => l.getD r.2 0, e.1, r.1)).zipIdx id).flatMap cellLines)) := by
  induction rows generalizing id ic with
  | nil => rfl
  | cons r rows ih =>
    have ih := ih (id + 1) (ic + 1) (fun x hx => hr x (by simp [hx])) (fun l hl' => by have := hl l hl'; simp only [List.length_cons] at this; omega)
    rw [cellsText, refText_ok refs ic (fun l hl' => by have := hl l hl'; simp only [List.length_cons] at this; omega)]
    simp only
    rw [cellText_ok e he _ _ r (hr r (by simp))]
    simp only
    rw [ih]
    simp only [List.zipIdx_cons, List.map_cons, List.flatMap_cons, linesText_append]
    rfl

theorem blocksText_ok (crefs : Option (List (List Int))) (id k : Nat) (cells : List (String × List (List Int)))
    (hc : ∀ b ∈ cells, ∃ e ∈ nastranWritten, e.1 = b.1 ∧ ∀ r ∈ b.2, r.length = e.2.2.1)
    (hl : ∀ l, crefs = some l → (l.drop k).map (·.length) = cells.map (·.2.length)) :
    blocksText (.fixed false 8 '+' 6 14) crefs id k cells =
      .ok (linesText ((((cells.zipIdx k).flatMap fun b => b.1.2.zipIdx.map fun r => (crefs.map fun l => (l.getD b.2 []).getD r.2 0, b.1.1, r.1)).zipIdx id).flatMap cellLines)) := by
  induction cells generalizing id k with
  | nil => rfl
  | cons b bs ih =>
    obtain ⟨e, he, heb, hr⟩ := hc b (by simp)
    have hk : ∀ l, crefs = some l → ∃ q, l[k]? = some q ∧ q.length = b.2.length ∧ (l.drop (k + 1)).map (·.length) = bs.map (·.2.length) := by
      intro l hcl
      have := hl l hcl
      cases hd : l.drop k with
      | nil => rw [hd] at this; cases this
      | cons q t =>
        rw [hd, List.map_cons, List.map_cons, List.cons.injEq] at this
        refine ⟨q, ?_, this.1, ?_⟩
        · have := List.getElem?_drop (xs := l) (i := k) (j := 0)
          rw [hd] at this
          simpa using this.symm
        · rw [← List.tail_drop, hd]; exact this.2
    have ih := ih (id + b.2.length) (k + 1) (fun x hx => hc x (by simp [hx])) (fun l hcl => by obtain ⟨q, _, _, h⟩ := hk l hcl; exact h)
    rw [blocksText, ← heb, (written_find e he).1]
    simp only
    have hsel : blockRefs crefs k = .ok (crefs.map fun l => l.getD k []) := by
      unfold blockRefs
      cases crefs with
      | none => rfl
      | some l =>
        obtain ⟨q, hq, _, _⟩ := hk l rfl
        simp only [hq, Option.map_some, List.getD_eq_getElem?_getD, Option.getD_some]
    rw [hsel]
    simp only
    rw [cellsText_ok e he _ id 0 b.2 hr (by
      intro l hcl
      cases crefs with
      | none => cases hcl
      | some l' =>
        obtain ⟨q, hq, hql, _⟩ := hk l' rfl
        simp only [Option.map_some, Option.some.injEq, List.getD_eq_getElem?_getD, hq, Option.getD_some] at hcl
        subst hcl
        omega)]
    simp only
    rw [ih]
    simp only [List.zipIdx_cons, List.flatMap_cons, List.zipIdx_append, List.flatMap_append, linesText_append, List.length_map, List.length_zipIdx]
    rw [heb]
    cases crefs <;> rfl

theorem write_ok (io : NasIO F) (version : List Char) (pf : String) (dim : Nat) (points : List (List F)) (prefs : Option (List Int))
    (cells : List (String × List (List Int))) (crefs : Option (List (List Int)))
    (h : NasWritable io pf (if dim = 2 then points.map (· ++ [io.zero]) else points) prefs cells crefs) :
    write io version pf "fixed-small" dim points prefs cells crefs =
      .ok (nasWritten io version pf (if dim = 2 then points.map (· ++ [io.zero]) else points) prefs cells crefs) := by
  obtain ⟨p, hp, hpf⟩ := pointFormat_ok pf h.format
  unfold write
  rw [hp]
  have hcf : cellFormat "fixed-small" = .ok (.fixed false 8 '+' 6 14) := rfl
  simp only [hcf]
  generalize (if dim = 2 then points.map (· ++ [io.zero]) else points) = pts at *
  obtain ⟨ps, hps, hflat⟩ := points_ok io pf p hpf pts prefs h.three h.fits h.pointRefs
  rw [hps]
  simp only
  rw [blocksText_ok crefs 0 0 cells h.rows (fun l hl => h.cellRefs l hl), hflat]
  simp only
  unfold nasWritten nasCellLines nasCells
  have e1 : "\nBEGIN BULK\n".toList = '\n' :: ("BEGIN BULK".toList ++ ['\n']) := by decide
  have e2 : "ENDDATA\n".toList = "ENDDATA".toList ++ ['\n'] := by decide
  rw [e1, e2]
  simp only [linesText_append, List.append_assoc, List.cons_append, List.nil_append]
  simp only [linesText, List.flatMap_cons, List.flatMap_nil, List.flatMap_append, List.append_nil, List.append_assoc, List.cons_append, List.nil_append]
  rfl

end Meshio.Nastran
