/-
Helper lemmas for Tecplot files: writing.
-/
import Verif.Proofs.TecplotRead
import Verif.Proofs.Types

namespace Meshio
namespace Tecplot
open Types Tables
open Meshio.Spec.Tecplot (VName Word Style Entry Sep Group Location Record Separated textKeys numberKeys capital Comment joined Var Points coordinate
  File pointData cellData typeOf zoneWidth)

variable {F : Type}

/-! ## Characters -/

theorem isWs_toUpper (c : Char) : isWs c.toUpper = isWs c := by
  by_cases h : 97 ≤ c.toNat ∧ c.toNat ≤ 122
  · have hn : ∀ n, n ≤ 122 → 97 ≤ n → isWs (Char.ofNat n).toUpper = isWs (Char.ofNat n) := by decide
    have := hn c.toNat h.2 h.1
    rw [Char.ofNat_toNat] at this
    exact this
  · unfold Char.toUpper
    rw [dif_neg]
    intro h'
    apply h
    have h1 := h'.1
    have h2 := h'.2
    rw [UInt32.le_iff_toNat_le] at h1 h2
    exact ⟨h1, h2⟩

theorem isDigit_toUpper (c : Char) (h : c.isDigit = true) : c.toUpper = c := by
  unfold Char.toUpper
  rw [dif_neg]
  intro h'
  have h1 := h'.1
  simp only [Char.isDigit, ge_iff_le, Bool.and_eq_true, decide_eq_true_eq] at h
  have h2 := h.2
  rw [UInt32.le_iff_toNat_le] at h1 h2
  have : 'a'.val.toNat ≤ 57 := Nat.le_trans h1 h2
  exact absurd this (by decide)

theorem upper_fmtNat (n : Nat) : upper (fmtNat n) = fmtNat n := by
  unfold upper
  have : (fmtNat n).map Char.toUpper = (fmtNat n).map id := by
    apply List.map_congr_left
    intro c hc
    exact isDigit_toUpper c (fmtNat_isDigit hc)
  rw [this, List.map_id]

theorem upper_append (a b : List Char) : upper (a ++ b) = upper a ++ upper b := List.map_append

theorem isTok_upper {t : List Char} (h : IsTok t) : IsTok (upper t) := by
  refine ⟨?_, ?_⟩
  · unfold upper
    simpa using h.1
  · intro c hc
    obtain ⟨d, hd, rfl⟩ := List.mem_map.mp hc
    rw [isWs_toUpper]
    exact h.2 d hd

theorem upper_joinWith (ts : List (List Char)) : upper (joinWith ' ' ts) = joinWith ' ' (ts.map upper) := by
  induction ts with
  | nil => rfl
  | cons t ts ih =>
    cases ts with
    | nil => rfl
    | cons u ts =>
      rw [joinWith, upper_append]
      rw [List.map_cons] at ih ⊢
      rw [List.map_cons, joinWith]
      · congr 1
        show ' ' :: upper (joinWith ' ' (u :: ts)) = _
        rw [ih]

theorem strip_id {s : List Char} (h1 : ∀ c, s.head? = some c → isWs c = false) (h2 : ∀ c, s.getLast? = some c → isWs c = false) : strip s = s := by
  have := strip_trim h1 h2 [] (by simp)
  rwa [List.append_nil] at this

/-- The text starts with this character and ends with that one. -/
theorem strip_ends (a b : Char) (ha : isWs a = false) (hb : isWs b = false) (s : List Char) : strip (a :: s ++ [b]) = a :: s ++ [b] := by
  apply strip_id
  · intro c hc
    simp at hc
    exact hc ▸ ha
  · intro c hc
    rw [List.getLast?_concat] at hc
    simp at hc
    exact hc ▸ hb

/-! ## Tables -/

theorem tableLines_rows (io : TecIO F) (ncol : Nat) (h : 0 < ncol) (l : List F) : ∃ rows : List (List F),
    tableLines io ncol l = rows.map (fun r => joinWith ' ' (r.map io.fmt)) ∧ rows.flatten = l ∧ ∀ r ∈ rows, r ≠ [] := by
  refine ⟨(rowsN ncol (l.length / ncol) l ++ [l.drop (l.length / ncol * ncol)]).filter fun r => decide (r ≠ []), rfl, ?_, ?_⟩
  · have hf : ∀ rs : List (List F), (rs.filter fun r => decide (r ≠ [])).flatten = rs.flatten := by
      intro rs
      induction rs with
      | nil => rfl
      | cons r rs ih =>
        cases r with
        | nil => rw [List.filter_cons_of_neg (by simp), ih]; rfl
        | cons a r => rw [List.filter_cons_of_pos (by simp), List.flatten_cons, ih, List.flatten_cons]
    rw [hf, List.flatten_append]
    have hle : l.length / ncol * ncol ≤ l.length := Nat.div_mul_le_self _ _
    have h1 : rowsN ncol (l.length / ncol) l = rowsN ncol (l.length / ncol) (l.take (l.length / ncol * ncol)) := by
      generalize l.length / ncol = n at *
      clear hf
      induction n generalizing l with
      | zero => rfl
      | succ n ih =>
        rw [rowsN, rowsN]
        have hs : (n + 1) * ncol = n * ncol + ncol := Nat.succ_mul n ncol
        congr 1
        · rw [List.take_take, Nat.min_eq_left (by omega)]
        · rw [ih (l.drop ncol) (by rw [List.length_drop]; omega), List.drop_take, hs, Nat.add_sub_cancel]
    rw [h1, flatten_rowsN _ _ _ (by rw [List.length_take]; omega)]
    simp
  · intro r hr
    exact of_decide_eq_true (List.mem_filter.mp hr).2

theorem tables_rows (io : TecIO F) (vs : List (List F)) : ∃ rows : List (List F),
    vs.flatMap (tableLines io 20) = rows.map (fun r => joinWith ' ' (r.map io.fmt)) ∧ rows.flatten = vs.flatten ∧ ∀ r ∈ rows, r ≠ [] := by
  induction vs with
  | nil => exact ⟨[], rfl, rfl, by simp⟩
  | cons v vs ih =>
    obtain ⟨r1, a1, a2, a3⟩ := tableLines_rows io 20 (by decide) v
    obtain ⟨r2, b1, b2, b3⟩ := ih
    refine ⟨r1 ++ r2, ?_, ?_, ?_⟩
    · rw [List.flatMap_cons, a1, b1, List.map_append]
    · rw [List.flatten_append, a2, b2, List.flatten_cons]
    · intro r hr
      rcases List.mem_append.mp hr with h | h
      · exact a3 r h
      · exact b3 r h

theorem fmt_toks (io : TecIO F) (r : List F) : ∀ t ∈ r.map io.fmt, IsTok t := by
  intro t ht
  obtain ⟨x, _, rfl⟩ := List.mem_map.mp ht
  exact io.tok x

theorem row_line_comment (ts : List (List Char)) (h : ∀ t ∈ ts, IsTok t) (hc : ∀ t ∈ ts, t.head? ≠ some '#') : ¬ Comment (joinWith ' ' ts) := by
  unfold Comment
  rw [strip_line' ts h]
  cases ts with
  | nil => simp [joinWith]
  | cons t ts =>
    rw [joinWith_head _ _ _ (h t (by simp)).1]
    exact hc t (by simp)

/-! ## The names -/

theorem nameList_ends (n : String) (ns : List String) : ∃ m, nameList (n :: ns) = '"' :: m ++ ['"'] := by
  induction ns generalizing n with
  | nil => exact ⟨n.toList, rfl⟩
  | cons k ns ih =>
    obtain ⟨m, hm⟩ := ih k
    refine ⟨n.toList ++ '"' :: ',' :: ' ' :: '"' :: m, ?_⟩
    rw [nameList, hm]
    simp

theorem nameList_words (ns : List String) (h : ∀ n ∈ ns, Word n.toList) :
    words (nameList ns) = (ns.map fun n => VName.quoted n.toList).flatMap VName.words := by
  have hw : ∀ n : List Char, Word n → IsWord ('"' :: (n ++ ['"'])) := by
    intro n hn
    refine ⟨⟨by simp, ?_⟩, ?_⟩
    · intro c hc
      simp only [List.mem_cons, List.mem_append, List.mem_nil_iff, or_false] at hc
      rcases hc with rfl | hc | rfl
      · decide
      · exact (hn c hc).1
      · decide
    · intro hc
      simp only [List.mem_cons, List.mem_append, List.mem_nil_iff, or_false] at hc
      rcases hc with hc | hc | hc
      · cases hc
      · exact (hn _ hc).2.1 rfl
      · cases hc
  induction ns with
  | nil => rfl
  | cons n ns ih =>
    cases ns with
    | nil =>
      rw [nameList, words_last (hw _ (h n (by simp)))]
      rfl
    | cons m ns =>
      rw [nameList, show '"' :: (n.toList ++ '"' :: ',' :: ' ' :: nameList (m :: ns)) = ('"' :: (n.toList ++ ['"'])) ++ ',' :: (' ' :: nameList (m :: ns)) by simp,
        words_cons (hw _ (h n (by simp))) (Or.inl rfl), words_sep (Or.inr rfl), ih (fun k hk => h k (by simp [hk]))]
      rfl

theorem nameList_no_eq (ns : List String) (h : ∀ n ∈ ns, Word n.toList) : '=' ∉ nameList ns ∧ '\n' ∉ nameList ns := by
  induction ns with
  | nil => simp [nameList]
  | cons n ns ih =>
    have h1 : '=' ∉ n.toList := fun hc => (h n (by simp) _ hc).2.2.2 rfl
    have h2 : '\n' ∉ n.toList := fun hc => by
      have := (h n (by simp) _ hc).1
      revert this
      decide
    cases ns with
    | nil =>
      rw [nameList]
      simp [h1, h2]
    | cons m ns =>
      obtain ⟨i1, i2⟩ := ih (fun k hk => h k (by simp [hk]))
      rw [nameList]
      simp [h1, h2, i1, i2]

/-! ## The zone record -/

/-- The variables of a written file. -/
def varsOf (pv cv : List (String × List F)) : List (Var F) :=
  (pv.map fun v => ⟨v.1, false, v.2⟩) ++ cv.map fun v => ⟨v.1, true, v.2⟩

/-- The entries of a written record. -/
def wEntries (nn nc : Nat) (zt : String) (sep : List Char) : List Entry :=
  [⟨"NODES", .spaced, fmtNat nn, [',', ' ']⟩, ⟨"ELEMENTS", .spaced, fmtNat nc, [',', ' ']⟩,
   ⟨"DATAPACKING", .spaced, "BLOCK".toList, [',', ' ']⟩, ⟨"ZONETYPE", .spaced, zt.toList, sep⟩]

/-- The range of the cell variables. -/
def wRange (a b : Nat) : List Char := if a = b then fmtNat a else fmtNat a ++ '-' :: fmtNat b

/-- The written record. -/
def wRecord (nn nc : Nat) (zt : String) (a b : Nat) : Record :=
  if a ≤ b then ⟨none, wEntries nn nc zt [',', ' '],
    some (⟨" = ".toList, '[' :: wRange a b ++ "] = CELLCENTERED".toList, [⟨a, if a = b then none else some b, true⟩], []⟩, [])⟩
  else ⟨none, wEntries nn nc zt [], none⟩

/-- The element types that are written. -/
def zoneTypes : List String := ["FELINESEG", "FETRIANGLE", "FEQUADRILATERAL", "FETETRAHEDRON", "FEBRICK"]

theorem zt_chars : ∀ zt ∈ zoneTypes, zt.toList ≠ [] ∧
    (∀ c ∈ zt.toList, isWs c = false ∧ c ≠ ',' ∧ c ≠ '"' ∧ c ≠ '=' ∧ c ≠ '(' ∧ c ≠ ')') ∧ 'V' ∉ zt.toList ∧ upper zt.toList = zt.toList ∧ '\n' ∉ zt.toList := by
  decide +kernel

theorem fmtNat_clean (n : Nat) : ∀ c ∈ fmtNat n, isWs c = false ∧ c ≠ ',' ∧ c ≠ '"' ∧ c ≠ '=' ∧ c ≠ '(' ∧ c ≠ ')' := by
  intro c hc
  have hd := fmtNat_isDigit hc
  refine ⟨isWs_false_of_isDigit hd, ?_, ?_, ?_, ?_, ?_⟩ <;> exact ne_of_isDigit hd (by decide)

theorem wEntries_ok (nn nc : Nat) (zt : String) (hz : zt ∈ zoneTypes) (sep : List Char) (hs : Sep sep) : ∀ e ∈ wEntries nn nc zt sep, e.Ok := by
  intro e he
  unfold wEntries at he
  simp only [List.mem_cons, List.mem_nil_iff, or_false] at he
  have hcb : Sep [',', ' '] := by
    intro c hc
    simp only [List.mem_cons, List.mem_nil_iff, or_false] at hc
    exact hc
  obtain ⟨z1, z2, _⟩ := zt_chars zt hz
  rcases he with rfl | rfl | rfl | rfl
  · exact ⟨Or.inr ⟨(by decide +kernel : "NODES" ∈ numberKeys), by simp⟩, fmtNat_ne_nil nn, fmtNat_clean nn, hcb⟩
  · exact ⟨Or.inr ⟨(by decide +kernel : "ELEMENTS" ∈ numberKeys), by simp⟩, fmtNat_ne_nil nc, fmtNat_clean nc, hcb⟩
  · exact ⟨Or.inl (by decide +kernel), by decide +kernel, by decide +kernel, hcb⟩
  · exact ⟨Or.inl (by decide +kernel : "ZONETYPE" ∈ textKeys), z1, z2, hs⟩

theorem wEntries_text (nn nc : Nat) (zt : String) (sep : List Char) : (wEntries nn nc zt sep).flatMap Entry.text =
    "NODES = ".toList ++ fmtNat nn ++ ", ELEMENTS = ".toList ++ fmtNat nc ++ ", DATAPACKING = BLOCK, ZONETYPE = ".toList ++ zt.toList ++ sep := by
  have e1 : "NODES = ".toList = "NODES".toList ++ " = ".toList := by decide +kernel
  have e2 : ", ELEMENTS = ".toList = [',', ' '] ++ "ELEMENTS".toList ++ " = ".toList := by decide +kernel
  have e3 : ", DATAPACKING = BLOCK, ZONETYPE = ".toList = [',', ' '] ++ "DATAPACKING".toList ++ " = ".toList ++ "BLOCK".toList ++ [',', ' '] ++ "ZONETYPE".toList ++ " = ".toList := by
    decide +kernel
  rw [e1, e2, e3]
  unfold wEntries
  simp only [List.flatMap_cons, List.flatMap_nil, Entry.text, Style.text]
  generalize "NODES".toList = a
  generalize "ELEMENTS".toList = b
  generalize "DATAPACKING".toList = c
  generalize "ZONETYPE".toList = d
  generalize "BLOCK".toList = e
  generalize " = ".toList = f
  simp

theorem wEntries_no_loc (nn nc : Nat) (zt : String) (hz : zt ∈ zoneTypes) (sep : List Char) (hs : Sep sep) :
    ¬ "VARLOCATION".toList <:+: (wEntries nn nc zt sep).flatMap Entry.text := by
  intro h
  have hV : 'V' ∈ "VARLOCATION".toList := by decide +kernel
  have := h.subset hV
  rw [wEntries_text] at this
  have d : ∀ n, 'V' ∉ fmtNat n := fun n => digits_ne (by decide)
  have hsV : 'V' ∉ sep := fun hc => by
    have := hs _ hc
    revert this
    decide
  have l1 : 'V' ∉ "NODES = ".toList := by decide +kernel
  have l2 : 'V' ∉ ", ELEMENTS = ".toList := by decide +kernel
  have l3 : 'V' ∉ ", DATAPACKING = BLOCK, ZONETYPE = ".toList := by decide +kernel
  simp only [List.mem_append] at this
  rcases this with (((((h | h) | h) | h) | h) | h) | h
  · exact l1 h
  · exact d _ h
  · exact l2 h
  · exact d _ h
  · exact l3 h
  · exact (zt_chars zt hz).2.2.1 h
  · exact hsV h

theorem separated_w (nn nc : Nat) (zt : String) (sep : List Char) : Separated (wEntries nn nc zt sep) := by
  intro e he
  unfold wEntries at he
  simp only [List.dropLast, List.mem_cons, List.mem_nil_iff, or_false] at he
  rcases he with rfl | rfl | rfl <;> simp

theorem wRange_chars (a b : Nat) : ∀ c ∈ wRange a b, c.isDigit = true ∨ c = '-' := by
  intro c hc
  unfold wRange at hc
  split at hc
  · exact Or.inl (fmtNat_isDigit hc)
  · rcases List.mem_append.mp hc with h | h
    · exact Or.inl (fmtNat_isDigit h)
    · rcases List.mem_cons.mp h with h | h
      · exact Or.inr h
      · exact Or.inl (fmtNat_isDigit h)

theorem wRange_not_mem (a b : Nat) (c : Char) (h : c.isDigit = false) (h' : c ≠ '-') : c ∉ wRange a b := by
  intro hc
  rcases wRange_chars a b c hc with h1 | h1
  · rw [h] at h1; cases h1
  · exact h' h1

theorem wRange_group (a b : Nat) : wRange a b = groupNum ⟨a, if a = b then none else some b, true⟩ := by
  unfold wRange groupNum
  by_cases h : a = b
  · simp [h]
  · simp [h]

theorem wRecord_ok (nn nc : Nat) (zt : String) (hz : zt ∈ zoneTypes) (a b : Nat) : (wRecord nn nc zt a b).Ok := by
  have hcb : Sep [',', ' '] := by
    intro c hc
    simp only [List.mem_cons, List.mem_nil_iff, or_false] at hc
    exact hc
  have hnil : Sep [] := by intro c hc; cases hc
  unfold wRecord
  by_cases h : a ≤ b
  · rw [if_pos h]
    refine ⟨(by intro s t sep hh; cases hh), wEntries_ok nn nc zt hz _ hcb, separated_w _ _ _ _, (by intro hh; cases hh), ?_⟩
    intro l es hl
    obtain ⟨rfl, rfl⟩ := Prod.mk.inj (Option.some.inj hl)
    refine ⟨⟨(by decide +kernel : '(' ∉ " = ".toList), (by decide +kernel : ')' ∉ " = ".toList), (by decide +kernel : '"' ∉ " = ".toList), ?_, ?_, hnil, ?_, by simp⟩, by simp, (by intro e he; cases he), Or.inl rfl, ?_,
      wEntries_no_loc nn nc zt hz _ hcb⟩
    · have h1 := wRange_not_mem a b ')' (by decide) (by decide)
      have h2 : ')' ∉ "] = CELLCENTERED".toList := by decide +kernel
      generalize "] = CELLCENTERED".toList = x at *
      simp [h1, h2]
    · have h1 := wRange_not_mem a b '"' (by decide) (by decide)
      have h2 : '"' ∉ "] = CELLCENTERED".toList := by decide +kernel
      generalize "] = CELLCENTERED".toList = x at *
      simp [h1, h2]
    · have h1 : ("] = CELLCENTERED".toList.filter fun c => decide (c ≠ ' ')) = ']' :: '=' :: "CELLCENTERED".toList := by decide +kernel
      have h2 : (wRange a b).filter (fun c => decide (c ≠ ' ')) = wRange a b := by
        rw [List.filter_eq_self]
        intro c hc
        apply decide_eq_true
        rintro rfl
        exact wRange_not_mem a b ' ' (by decide) (by decide) hc
      rw [List.cons_append, List.filter_cons_of_pos (by decide), List.filter_append, h1, h2]
      show _ = Group.text _
      rw [group_text, ← wRange_group]
      simp only [if_true]
      generalize "CELLCENTERED".toList = x
      simp
    · intro e he
      unfold wEntries at he
      simp only [List.mem_cons, List.mem_nil_iff, or_false] at he
      rcases he with rfl | rfl | rfl | rfl <;> simp
  · rw [if_neg h]
    exact ⟨(by intro s t sep hh; cases hh), wEntries_ok nn nc zt hz _ hnil, separated_w _ _ _ _, fun _ => wEntries_no_loc nn nc zt hz _ hnil,
      (by intro l es hl; cases hl)⟩

theorem wRecord_get (nn nc : Nat) (zt : String) (a b : Nat) : (wRecord nn nc zt a b).get "F" = none ∧ (wRecord nn nc zt a b).get "N" = none ∧
    (wRecord nn nc zt a b).get "E" = none ∧ (wRecord nn nc zt a b).get "NV" = none ∧
    (wRecord nn nc zt a b).get "NODES" = some (fmtNat nn) ∧ (wRecord nn nc zt a b).get "ELEMENTS" = some (fmtNat nc) ∧
    (wRecord nn nc zt a b).get "DATAPACKING" = some "BLOCK".toList ∧ (wRecord nn nc zt a b).get "ZONETYPE" = some zt.toList := by
  have hall : ∃ sep, (wRecord nn nc zt a b).all = wEntries nn nc zt sep := by
    unfold wRecord Record.all
    split
    · exact ⟨_, List.append_nil _⟩
    · exact ⟨_, List.append_nil _⟩
  obtain ⟨sep, hall⟩ := hall
  unfold Record.get
  rw [hall]
  unfold wEntries
  generalize "BLOCK".toList = x
  refine ⟨?_, ?_, ?_, ?_, ?_, ?_, ?_, ?_⟩ <;> simp [List.find?]

theorem varsOf_cell (pv cv : List (String × List F)) : (varsOf pv cv).map (·.cell) = List.replicate pv.length false ++ List.replicate cv.length true := by
  unfold varsOf
  rw [List.map_append, List.map_map, List.map_map]
  congr 1
  · rw [List.eq_replicate_iff]
    simp
  · rw [List.eq_replicate_iff]
    simp

theorem wRecord_says (nn nc : Nat) (zt : String) (pv cv : List (String × List F)) :
    (wRecord nn nc zt (pv.length + 1) (if cv = [] then 0 else pv.length + cv.length)).Says nn nc true zt.toList ((varsOf pv cv).map (·.cell)) := by
  obtain ⟨g1, g2, g3, g4, g5, g6, g7, g8⟩ := wRecord_get nn nc zt (pv.length + 1) (if cv = [] then 0 else pv.length + cv.length)
  have hnv : (wRecord nn nc zt (pv.length + 1) (if cv = [] then 0 else pv.length + cv.length)).num "NV" = none := by
    unfold Record.num
    rw [g4]
    rfl
  have hcv : ∀ hne : cv ≠ [], (if cv = [] then 0 else pv.length + cv.length) = pv.length + cv.length ∧ 0 < cv.length := by
    intro hne
    exact ⟨by rw [if_neg hne], List.length_pos_iff.mpr hne⟩
  refine ⟨Or.inr ⟨g1, g7, g8⟩, Or.inr ⟨g2, ?_⟩, Or.inr ⟨g3, ?_⟩, ?_, ?_, ?_⟩
  · unfold Record.num
    rw [g5]
    simp
  · unfold Record.num
    rw [g6]
    simp
  · intro nv hh
    rw [hnv] at hh
    cases hh
  · intro l es hl g hg
    rw [varsOf_cell]
    by_cases hne : cv = []
    · subst hne
      unfold wRecord at hl
      rw [if_neg (by simp)] at hl
      cases hl
    · obtain ⟨h1, h2⟩ := hcv hne
      rw [h1] at hl
      unfold wRecord at hl
      rw [if_pos (by omega)] at hl
      obtain ⟨rfl, rfl⟩ := Prod.mk.inj (Option.some.inj hl)
      simp only [List.mem_singleton] at hg
      subst hg
      simp only [List.length_append, List.length_replicate]
      refine ⟨by omega, ?_, by omega⟩
      split <;> simp <;> omega
  · intro j x hx
    rw [varsOf_cell] at hx
    unfold Record.centered
    rw [hnv]
    simp only [true_and]
    by_cases hne : cv = []
    · subst hne
      have hl : (wRecord nn nc zt (pv.length + 1) (if ([] : List (String × List F)) = [] then 0 else pv.length + ([] : List (String × List F)).length)).location = none := by
        unfold wRecord
        rw [if_neg (by simp)]
      rw [hl]
      simp only [List.length_nil, List.replicate_zero, List.append_nil] at hx
      have := List.mem_of_getElem? hx
      rw [List.mem_replicate] at this
      rw [this.2]
      simp
    · obtain ⟨h1, h2⟩ := hcv hne
      rw [h1]
      have hl : (wRecord nn nc zt (pv.length + 1) (pv.length + cv.length)).location =
          some (⟨" = ".toList, '[' :: wRange (pv.length + 1) (pv.length + cv.length) ++ "] = CELLCENTERED".toList,
            [⟨pv.length + 1, if pv.length + 1 = pv.length + cv.length then none else some (pv.length + cv.length), true⟩], []⟩, []) := by
        unfold wRecord
        rw [if_pos (by omega)]
      rw [hl]
      have hr : (if pv.length + 1 = pv.length + cv.length then none else some (pv.length + cv.length)).getD (pv.length + 1) = pv.length + cv.length := by
        split
        · next h => simp [h]
        · rfl
      have hmem : (∃ l es, some ((⟨" = ".toList, '[' :: wRange (pv.length + 1) (pv.length + cv.length) ++ "] = CELLCENTERED".toList,
            [⟨pv.length + 1, if pv.length + 1 = pv.length + cv.length then none else some (pv.length + cv.length), true⟩], []⟩ : Location), ([] : List Entry)) = some (l, es) ∧
          ∃ g ∈ l.groups, g.cell = true ∧ g.lo ≤ j + 1 ∧ j + 1 ≤ g.hi.getD g.lo) ↔ pv.length ≤ j ∧ j < pv.length + cv.length := by
        constructor
        · rintro ⟨l, es, he, g, hg, _, h3, h4⟩
          obtain ⟨rfl, rfl⟩ := Prod.mk.inj (Option.some.inj he)
          simp only [List.mem_singleton] at hg
          subst hg
          simp only at h3 h4
          rw [hr] at h4
          omega
        · intro hj
          refine ⟨_, _, rfl, _, List.mem_singleton.mpr rfl, rfl, ?_, ?_⟩
          · simp only
            omega
          · simp only
            rw [hr]
            omega
      rw [hmem]
      rw [List.getElem?_append] at hx
      simp only [List.length_replicate, List.getElem?_replicate] at hx
      by_cases hj : j < pv.length
      · rw [if_pos hj, if_pos hj] at hx
        cases hx
        simp
        omega
      · rw [if_neg hj] at hx
        split at hx
        · cases hx
          simp
          omega
        · cases hx

/-! ## The file -/

/-- The written file. -/
def wFile (io : TecIO F) (version : List Char) (pv cv : List (String × List F)) (nn nc : Nat) (zt : String) (rows : List (List Int)) : File where
  before := ["TITLE = \"Written by meshio v".toList ++ version ++ ['"']]
  names := ["VARIABLES = ".toList ++ nameList ((pv ++ cv).map (·.1))]
  zone := zoneLines nn nc zt (pv.length + 1) (if cv = [] then 0 else pv.length + cv.length)
  data := (pv ++ cv).flatMap fun v => tableLines io 20 v.2
  cells := rows.map fun r => joinWith ' ' ((r.map (· + 1)).map fmtInt)
  after := []

theorem textOf_lines (io : TecIO F) (version : List Char) (pv cv : List (String × List F)) (nn nc : Nat) (zt : String) (rows : List (List Int)) :
    textOf io version pv cv nn nc zt rows = linesText (wFile io version pv cv nn nc zt rows).lines := by
  unfold textOf File.lines wFile
  simp

/-- The first two lines of the record. -/
theorem strip_zone1 (nn nc : Nat) : strip ("ZONE NODES = ".toList ++ fmtNat nn ++ ", ELEMENTS = ".toList ++ fmtNat nc ++ ",".toList) =
    "ZONE NODES = ".toList ++ fmtNat nn ++ ", ELEMENTS = ".toList ++ fmtNat nc ++ ",".toList := by
  have e1 : "ZONE NODES = ".toList = 'Z' :: "ONE NODES = ".toList := by decide +kernel
  have e2 : ",".toList = [','] := by decide +kernel
  rw [e1, e2]
  generalize "ONE NODES = ".toList = x
  generalize ", ELEMENTS = ".toList = y
  have := strip_ends 'Z' ',' (by decide) (by decide) (x ++ (fmtNat nn ++ (y ++ fmtNat nc)))
  simpa using this

theorem strip_zone2 (zt : String) (hz : zt ∈ zoneTypes) : ∀ w : List Char, (w = [] ∨ w = ",".toList) →
    strip ("DATAPACKING = BLOCK, ZONETYPE = ".toList ++ zt.toList ++ w) = "DATAPACKING = BLOCK, ZONETYPE = ".toList ++ zt.toList ++ w ∧
    upper ("DATAPACKING = BLOCK, ZONETYPE = ".toList ++ zt.toList ++ w) = "DATAPACKING = BLOCK, ZONETYPE = ".toList ++ zt.toList ++ w ∧
    ¬ Comment ("DATAPACKING = BLOCK, ZONETYPE = ".toList ++ zt.toList ++ w) ∧ '\n' ∉ "DATAPACKING = BLOCK, ZONETYPE = ".toList ++ zt.toList ++ w := by
  have h : ∀ zt ∈ zoneTypes, ∀ w ∈ [[], ",".toList],
    strip ("DATAPACKING = BLOCK, ZONETYPE = ".toList ++ zt.toList ++ w) = "DATAPACKING = BLOCK, ZONETYPE = ".toList ++ zt.toList ++ w ∧
    upper ("DATAPACKING = BLOCK, ZONETYPE = ".toList ++ zt.toList ++ w) = "DATAPACKING = BLOCK, ZONETYPE = ".toList ++ zt.toList ++ w ∧
    ¬ Comment ("DATAPACKING = BLOCK, ZONETYPE = ".toList ++ zt.toList ++ w) ∧ '\n' ∉ "DATAPACKING = BLOCK, ZONETYPE = ".toList ++ zt.toList ++ w := by
    decide +kernel
  intro w hw
  exact h zt hz w (by simpa using hw)

theorem wRange_if (a b : Nat) : (if a = b then fmtNat a else fmtNat a ++ '-' :: fmtNat b) = wRange a b := rfl

theorem upper_wRange (a b : Nat) : upper (wRange a b) = wRange a b := by
  unfold wRange
  split
  · exact upper_fmtNat a
  · rw [upper_append, upper_fmtNat]
    show _ ++ '-'.toUpper :: upper (fmtNat b) = _
    rw [upper_fmtNat]
    rfl

theorem strip_zone3 (a b : Nat) :
    strip ("VARLOCATION = ([".toList ++ wRange a b ++ "] = CELLCENTERED)".toList) = "VARLOCATION = ([".toList ++ wRange a b ++ "] = CELLCENTERED)".toList ∧
    upper ("VARLOCATION = ([".toList ++ wRange a b ++ "] = CELLCENTERED)".toList) = "VARLOCATION = ([".toList ++ wRange a b ++ "] = CELLCENTERED)".toList ∧
    ¬ Comment ("VARLOCATION = ([".toList ++ wRange a b ++ "] = CELLCENTERED)".toList) ∧ '\n' ∉ "VARLOCATION = ([".toList ++ wRange a b ++ "] = CELLCENTERED)".toList := by
  have hs : strip ("VARLOCATION = ([".toList ++ wRange a b ++ "] = CELLCENTERED)".toList) = "VARLOCATION = ([".toList ++ wRange a b ++ "] = CELLCENTERED)".toList := by
    have e1 : "VARLOCATION = ([".toList = 'V' :: "ARLOCATION = ([".toList := by decide +kernel
    have e2 : "] = CELLCENTERED)".toList = "] = CELLCENTERED".toList ++ [')'] := by decide +kernel
    rw [e1, e2]
    generalize "ARLOCATION = ([".toList = x
    generalize "] = CELLCENTERED".toList = y
    have := strip_ends 'V' ')' (by decide) (by decide) (x ++ (wRange a b ++ y))
    simpa using this
  refine ⟨hs, ?_, ?_, ?_⟩
  · rw [upper_append, upper_append, upper_wRange]
    have e1 : upper "VARLOCATION = ([".toList = "VARLOCATION = ([".toList := by decide +kernel
    have e2 : upper "] = CELLCENTERED)".toList = "] = CELLCENTERED)".toList := by decide +kernel
    rw [e1, e2]
  · unfold Comment
    rw [hs]
    have e1 : "VARLOCATION = ([".toList = 'V' :: "ARLOCATION = ([".toList := by decide +kernel
    rw [e1]
    simp
  · have h1 := wRange_not_mem a b '\n' (by decide) (by decide)
    have h2 : '\n' ∉ "VARLOCATION = ([".toList := by decide +kernel
    have h3 : '\n' ∉ "] = CELLCENTERED)".toList := by decide +kernel
    generalize "VARLOCATION = ([".toList = x at *
    generalize "] = CELLCENTERED)".toList = y at *
    simp [h1, h2, h3]

theorem zone_joined (nn nc : Nat) (zt : String) (hz : zt ∈ zoneTypes) (a b : Nat) :
    joined (zoneLines nn nc zt a b) = "ZONE ".toList ++ (wRecord nn nc zt a b).text := by
  have e0 : "ZONE NODES = ".toList = "ZONE ".toList ++ "NODES = ".toList := by decide +kernel
  have e1 : ",".toList = [','] := by decide +kernel
  have e2 : ", DATAPACKING = BLOCK, ZONETYPE = ".toList = ',' :: ' ' :: "DATAPACKING = BLOCK, ZONETYPE = ".toList := by decide +kernel
  have e3 : "VARLOCATION = ([".toList = "VARLOCATION".toList ++ " = ".toList ++ ['(', '['] := by decide +kernel
  have e4 : "] = CELLCENTERED)".toList = "] = CELLCENTERED".toList ++ [')'] := by decide +kernel
  unfold zoneLines wRecord
  by_cases h : a ≤ b
  · rw [if_pos h, if_pos h]
    show joinWith ' ' [strip _, upper (strip _), upper (strip _)] = _
    rw [strip_zone1, (strip_zone2 zt hz _ (Or.inr rfl)).1, (strip_zone2 zt hz _ (Or.inr rfl)).2.1, wRange_if, (strip_zone3 a b).1, (strip_zone3 a b).2.1]
    show _ = _ ++ ([] ++ (wEntries nn nc zt [',', ' ']).flatMap Entry.text ++ (("VARLOCATION".toList ++ " = ".toList ++ '(' :: (('[' :: wRange a b ++ "] = CELLCENTERED".toList) ++ ')' :: [])) ++ []))
    rw [wEntries_text]
    rw [e0, e1, e2, e3, e4]
    simp only [joinWith]
    generalize "ZONE ".toList = x1
    generalize "NODES = ".toList = x2
    generalize "DATAPACKING = BLOCK, ZONETYPE = ".toList = x3
    generalize "VARLOCATION".toList = x4
    generalize "] = CELLCENTERED".toList = x5
    generalize ", ELEMENTS = ".toList = x6
    generalize " = ".toList = x7
    simp
  · rw [if_neg h, if_neg h]
    show joinWith ' ' [strip _, upper (strip _)] = _
    have := strip_zone2 zt hz _ (Or.inl rfl)
    rw [List.append_nil] at this
    rw [strip_zone1, this.1, this.2.1]
    show _ = _ ++ ([] ++ (wEntries nn nc zt []).flatMap Entry.text ++ [])
    rw [wEntries_text]
    rw [e0, e1, e2]
    simp only [joinWith]
    generalize "ZONE ".toList = x1
    generalize "NODES = ".toList = x2
    generalize "DATAPACKING = BLOCK, ZONETYPE = ".toList = x3
    generalize ", ELEMENTS = ".toList = x6
    simp

theorem zone_first (nn nc : Nat) : "ZONE".toList <+: capital (strip ("ZONE NODES = ".toList ++ fmtNat nn ++ ", ELEMENTS = ".toList ++ fmtNat nc ++ ",".toList)) := by
  rw [strip_zone1]
  show "ZONE".toList <+: upper _
  rw [upper_append, upper_append, upper_append, upper_append]
  have e : upper "ZONE NODES = ".toList = "ZONE".toList ++ " NODES = ".toList := by decide +kernel
  rw [e]
  generalize "ZONE".toList = x
  simp

theorem kw_split (kw rest : List Char) (h : IsTok kw) (c : Char) (hc : isWs c = true) : ∃ ts, splitWs (kw ++ c :: rest) = kw :: ts :=
  ⟨_, splitWs_tok_ws h hc rest⟩

theorem zone_rest (io : TecIO F) (nn nc : Nat) (zt : String) (hz : zt ∈ zoneTypes) (a b : Nat) :
    ∃ l ls, zoneLines nn nc zt a b = l :: ls ∧ "ZONE".toList <+: capital (strip l) ∧
      ∀ k ∈ ls, ∃ t ts, splitWs (capital (strip k)) = t :: ts ∧ io.parse t = none := by
  have hd : ∀ w : List Char, (w = [] ∨ w = ",".toList) → ∃ t ts, splitWs (capital (strip ("DATAPACKING = BLOCK, ZONETYPE = ".toList ++ zt.toList ++ w))) = t :: ts ∧ io.parse t = none := by
    intro w hw
    show ∃ t ts, splitWs (upper _) = t :: ts ∧ _
    rw [(strip_zone2 zt hz w hw).1, (strip_zone2 zt hz w hw).2.1]
    have e : "DATAPACKING = BLOCK, ZONETYPE = ".toList = "DATAPACKING".toList ++ ' ' :: "= BLOCK, ZONETYPE = ".toList := by decide +kernel
    rw [e, List.append_assoc, List.append_assoc, List.cons_append]
    exact ⟨_, _, splitWs_tok_ws ⟨by decide +kernel, by decide +kernel⟩ (by decide) _, io.no_datapacking⟩
  have hv : ∃ t ts, splitWs (capital (strip ("VARLOCATION = ([".toList ++ wRange a b ++ "] = CELLCENTERED)".toList))) = t :: ts ∧ io.parse t = none := by
    show ∃ t ts, splitWs (upper _) = t :: ts ∧ _
    rw [(strip_zone3 a b).1, (strip_zone3 a b).2.1]
    have e : "VARLOCATION = ([".toList = "VARLOCATION".toList ++ ' ' :: "= ([".toList := by decide +kernel
    rw [e, List.append_assoc, List.append_assoc, List.cons_append]
    exact ⟨_, _, splitWs_tok_ws ⟨by decide +kernel, by decide +kernel⟩ (by decide) _, io.no_varlocation⟩
  unfold zoneLines
  by_cases h : a ≤ b
  · rw [if_pos h]
    refine ⟨_, _, rfl, zone_first nn nc, ?_⟩
    intro k hk
    rcases List.mem_cons.mp hk with rfl | hk
    · exact hd _ (Or.inr rfl)
    · rw [List.mem_singleton] at hk
      subst hk
      exact hv
  · rw [if_neg h]
    refine ⟨_, _, rfl, zone_first nn nc, ?_⟩
    intro k hk
    have := hd [] (Or.inl rfl)
    rw [List.append_nil] at this
    have hk' : k = "DATAPACKING = BLOCK, ZONETYPE = ".toList ++ zt.toList := List.mem_singleton.mp hk
    subst hk'
    exact this

theorem zone_clean (nn nc : Nat) (zt : String) (hz : zt ∈ zoneTypes) (a b : Nat) : ∀ l ∈ zoneLines nn nc zt a b, ¬ Comment l ∧ '\n' ∉ l := by
  have h1 : ¬ Comment ("ZONE NODES = ".toList ++ fmtNat nn ++ ", ELEMENTS = ".toList ++ fmtNat nc ++ ",".toList) ∧
      '\n' ∉ "ZONE NODES = ".toList ++ fmtNat nn ++ ", ELEMENTS = ".toList ++ fmtNat nc ++ ",".toList := by
    constructor
    · unfold Comment
      rw [strip_zone1]
      have e1 : "ZONE NODES = ".toList = 'Z' :: "ONE NODES = ".toList := by decide +kernel
      rw [e1]
      simp
    · have a1 : '\n' ∉ "ZONE NODES = ".toList := by decide +kernel
      have a2 : '\n' ∉ ", ELEMENTS = ".toList := by decide +kernel
      have a3 : '\n' ∉ ",".toList := by decide +kernel
      have a4 : ∀ n, '\n' ∉ fmtNat n := fun n => digits_ne (by decide)
      generalize "ZONE NODES = ".toList = x at *
      generalize ", ELEMENTS = ".toList = y at *
      generalize ",".toList = z at *
      simp [a1, a2, a3, a4]
  intro l hl
  unfold zoneLines at hl
  rcases List.mem_append.mp hl with hl | hl
  · rw [List.mem_singleton] at hl
    subst hl
    exact h1
  · by_cases h : a ≤ b
    · rw [if_pos h] at hl
      rcases List.mem_cons.mp hl with rfl | hl
      · exact ⟨(strip_zone2 zt hz _ (Or.inr rfl)).2.2.1, (strip_zone2 zt hz _ (Or.inr rfl)).2.2.2⟩
      · rw [List.mem_singleton] at hl
        subst hl
        exact ⟨(strip_zone3 a b).2.2.1, (strip_zone3 a b).2.2.2⟩
    · rw [if_neg h, List.mem_singleton] at hl
      subst hl
      have := strip_zone2 zt hz _ (Or.inl rfl)
      rw [List.append_nil] at this
      exact ⟨this.2.2.1, this.2.2.2⟩

theorem names_strip (n : String) (ns : List String) : strip ("VARIABLES = ".toList ++ nameList (n :: ns)) = "VARIABLES = ".toList ++ nameList (n :: ns) := by
  obtain ⟨m, hm⟩ := nameList_ends n ns
  rw [hm]
  have e1 : "VARIABLES = ".toList = 'V' :: "ARIABLES = ".toList := by decide +kernel
  rw [e1]
  generalize "ARIABLES = ".toList = x
  have := strip_ends 'V' '"' (by decide) (by decide) (x ++ '"' :: m)
  simpa using this

theorem title_strip (version : List Char) : strip ("TITLE = \"Written by meshio v".toList ++ version ++ ['"']) = "TITLE = \"Written by meshio v".toList ++ version ++ ['"'] := by
  have e1 : "TITLE = \"Written by meshio v".toList = 'T' :: "ITLE = \"Written by meshio v".toList := by decide +kernel
  rw [e1]
  generalize "ITLE = \"Written by meshio v".toList = x
  have := strip_ends 'T' '"' (by decide) (by decide) (x ++ version)
  simpa using this

/-- The variables that are written have names that are words, and there is at least one value of the first one. -/
theorem wFile_says (io : TecIO F) (version : List Char) (pv cv : List (String × List F)) (nn nc : Nat) (zt : String) (rows : List (List Int))
    (hz : zt ∈ zoneTypes) (hpv : pv ≠ []) (hnames : ∀ v ∈ pv ++ cv, Word v.1.toList) (hp : ∀ v ∈ pv, v.2.length = nn) (hc : ∀ v ∈ cv, v.2.length = nc)
    (hnc : rows.length = nc) (h0 : 0 < nc) (h1 : 0 < nn) (k : Nat) (hk : 0 < k) (hw : ∀ r ∈ rows, r.length = k) :
    (wFile io version pv cv nn nc zt rows).Says io ((pv ++ cv).map fun v => VName.quoted v.1.toList)
      (wRecord nn nc zt (pv.length + 1) (if cv = [] then 0 else pv.length + cv.length)) nn nc true zt.toList (varsOf pv cv) rows := by
  have hvv : (varsOf pv cv).flatMap (·.values) = ((pv ++ cv).map (·.2)).flatten := by
    unfold varsOf
    rw [List.flatMap_append, List.map_append, List.flatten_append]
    congr 1 <;> rw [List.flatMap_def, List.map_map] <;> rfl
  have hvn : (pv ++ cv).map (fun v => VName.quoted v.1.toList) = ((pv ++ cv).map (·.1)).map fun n => VName.quoted n.toList := by
    rw [List.map_map]
    rfl
  have hnm : ∀ n ∈ (pv ++ cv).map (·.1), Word n.toList := by
    intro n hn
    obtain ⟨v, hv, rfl⟩ := List.mem_map.mp hn
    exact hnames v hv
  obtain ⟨v0, pv', rfl⟩ := List.exists_cons_of_ne_nil hpv
  obtain ⟨drows, d1, d2, d3⟩ := tables_rows io ((v0 :: pv' ++ cv).map (·.2))
  have hdata : (wFile io version (v0 :: pv') cv nn nc zt rows).data = drows.map fun r => joinWith ' ' (r.map io.fmt) := by
    rw [← d1, List.flatMap_map]
    rfl
  refine ⟨?_, ?_, ?_, ?_, ?_, zone_rest io nn nc zt hz _ _, zone_joined nn nc zt hz _ _, wRecord_ok nn nc zt hz _ _, wRecord_says nn nc zt _ _, ?_, ?_, ?_, ?_, ?_,
    ⟨hnc, h0, h1⟩, ⟨k, hw⟩⟩
  · intro l hl
    have hl' : l = "TITLE = \"Written by meshio v".toList ++ version ++ ['"'] := List.mem_singleton.mp hl
    subst hl'
    rw [title_strip]
    have e1 : "TITLE = \"Written by meshio v".toList = 'T' :: "ITLE = \"Written by meshio v".toList := by decide +kernel
    have e2 : "VARIABLES".toList = 'V' :: "ARIABLES".toList := by decide +kernel
    have e3 : "ZONE".toList = 'Z' :: "ONE".toList := by decide +kernel
    rw [e1, e2, e3]
    generalize "ITLE = \"Written by meshio v".toList = x
    refine ⟨by simp, ?_, ?_⟩
    · intro h
      simp [capital, List.cons_prefix_cons] at h
    · intro h
      simp [capital, List.cons_prefix_cons] at h
  · refine ⟨"VARIABLES ".toList, ' ' :: nameList (((v0 :: pv') ++ cv).map (·.1)), ?_, by decide +kernel, ?_, ?_⟩
    · show strip ("VARIABLES = ".toList ++ nameList (v0.1 :: (pv' ++ cv).map (·.1))) = _
      rw [names_strip]
      have e : "VARIABLES = ".toList = "VARIABLES ".toList ++ ['=', ' '] := by decide +kernel
      rw [e, List.append_assoc]
      rfl
    · have := (nameList_no_eq _ hnm).1
      intro hh
      rcases List.mem_cons.mp hh with hh | hh
      · cases hh
      · exact this hh
    · show words (' ' :: nameList _) = _
      rw [words_sep (Or.inr rfl), nameList_words _ hnm, hvn]
  · refine ⟨_, [], rfl, ?_, by intro k hk; cases hk⟩
    show "VARIABLES".toList <+: capital (strip ("VARIABLES = ".toList ++ nameList (v0.1 :: (pv' ++ cv).map (·.1))))
    rw [names_strip]
    show _ <+: upper _
    rw [upper_append]
    have e : upper "VARIABLES = ".toList = "VARIABLES".toList ++ " = ".toList := by decide +kernel
    rw [e, List.append_assoc]
    exact List.prefix_append _ _
  · intro n hn
    obtain ⟨v, hv, rfl⟩ := List.mem_map.mp hn
    exact hnames v hv
  · unfold varsOf
    rw [List.map_append, List.map_append, List.map_append]
    simp only [List.map_map]
    rfl
  · have hv0 : v0.2 ≠ [] := by
      intro h
      have := hp v0 (by simp)
      rw [h] at this
      simp at this
      omega
    cases drows with
    | nil =>
      exfalso
      rw [List.flatten_nil] at d2
      have := d2.symm
      rw [List.cons_append, List.map_cons, List.flatten_cons, List.append_eq_nil_iff] at this
      exact hv0 this.1
    | cons r drows =>
      cases r with
      | nil => exact absurd rfl (d3 [] (by simp))
      | cons x r =>
        rw [hdata]
        refine ⟨_, _, upper (io.fmt x), r.map fun y => upper (io.fmt y), rfl, ?_, io.upper_num x⟩
        rw [strip_line' _ (fmt_toks io _)]
        show splitWs (upper _) = _
        rw [upper_joinWith, splitWs_joinWith (by decide)]
        · simp
        · intro t ht
          obtain ⟨u, hu, rfl⟩ := List.mem_map.mp ht
          exact isTok_upper (fmt_toks io _ u hu)
  · intro v hv
    unfold varsOf at hv
    rcases List.mem_append.mp hv with hv | hv
    · obtain ⟨w, hw, rfl⟩ := List.mem_map.mp hv
      exact hp w hw
    · obtain ⟨w, hw, rfl⟩ := List.mem_map.mp hv
      exact hc w hw
  · intro _
    rw [hdata, hvv, ← d2]
    clear d1 d2 d3 hdata
    induction drows with
    | nil => rfl
    | cons r drows ih =>
      rw [List.map_cons, List.flatMap_cons, List.map_append, ih, List.flatten_cons, List.map_append, splitWs_joinWith (by decide) _ (fmt_toks io r)]
      congr 1
      rw [List.map_map]
      apply List.map_congr_left
      intro x _
      exact io.parse_fmt x
  · intro h
    cases h
  · show (((rows.map fun r => joinWith ' ' ((r.map (· + 1)).map fmtInt)).filter _).map _) = _
    have htok : ∀ r : List Int, ∀ t ∈ (r.map (· + 1)).map fmtInt, IsTok t := by
      intro r t ht
      obtain ⟨x, _, rfl⟩ := List.mem_map.mp ht
      exact isTok_fmtInt x
    rw [List.filter_eq_self.mpr]
    · rw [List.map_map]
      apply List.map_congr_left
      intro r _
      show (splitWs (joinWith ' ' ((r.map (· + 1)).map fmtInt))).map parseInt = _
      rw [splitWs_joinWith (by decide) _ (htok r), List.map_map, List.map_map]
      apply List.map_congr_left
      intro x _
      exact parseInt_fmtInt _
    · intro l hl
      obtain ⟨r, hr, rfl⟩ := List.mem_map.mp hl
      apply decide_eq_true
      rw [splitWs_joinWith (by decide) _ (htok r)]
      intro h
      have := hw r hr
      rw [List.map_map, List.map_eq_nil_iff] at h
      rw [h] at this
      simp at this
      omega

theorem wFile_clean (io : TecIO F) (version : List Char) (pv cv : List (String × List F)) (nn nc : Nat) (zt : String) (rows : List (List Int))
    (hz : zt ∈ zoneTypes) (hpv : pv ≠ []) (hnames : ∀ v ∈ pv ++ cv, Word v.1.toList) (hv : '\n' ∉ version) :
    ∀ l ∈ (wFile io version pv cv nn nc zt rows).lines, ¬ Comment l ∧ '\n' ∉ l := by
  have hnm : ∀ n ∈ (pv ++ cv).map (·.1), Word n.toList := by
    intro n hn
    obtain ⟨v, hv, rfl⟩ := List.mem_map.mp hn
    exact hnames v hv
  intro l hl
  unfold File.lines at hl
  simp only [List.mem_append] at hl
  rcases hl with ((((h | h) | h) | h) | h) | h
  · have hl' : l = "TITLE = \"Written by meshio v".toList ++ version ++ ['"'] := List.mem_singleton.mp h
    subst hl'
    have hn : '\n' ∉ "TITLE = \"Written by meshio v".toList := by decide +kernel
    constructor
    · unfold Comment
      rw [title_strip]
      have e1 : "TITLE = \"Written by meshio v".toList = 'T' :: "ITLE = \"Written by meshio v".toList := by decide +kernel
      rw [e1]
      simp
    · generalize "TITLE = \"Written by meshio v".toList = x at *
      simp [hn, hv]
  · obtain ⟨v0, pv', rfl⟩ := List.exists_cons_of_ne_nil hpv
    have hl' : l = "VARIABLES = ".toList ++ nameList (((v0 :: pv') ++ cv).map (·.1)) := List.mem_singleton.mp h
    subst hl'
    have hn : '\n' ∉ "VARIABLES = ".toList := by decide +kernel
    constructor
    · unfold Comment
      rw [List.cons_append, List.map_cons, names_strip]
      have e1 : "VARIABLES = ".toList = 'V' :: "ARIABLES = ".toList := by decide +kernel
      rw [e1]
      simp
    · have := (nameList_no_eq _ hnm).2
      intro hc
      rcases List.mem_append.mp hc with hc | hc
      · exact hn hc
      · exact this hc
  · exact zone_clean nn nc zt hz _ _ l h
  · obtain ⟨drows, d1, _, _⟩ := tables_rows io ((pv ++ cv).map (·.2))
    have hdata : (wFile io version pv cv nn nc zt rows).data = drows.map fun r => joinWith ' ' (r.map io.fmt) := by
      rw [← d1, List.flatMap_map]
      rfl
    rw [hdata] at h
    obtain ⟨r, _, rfl⟩ := List.mem_map.mp h
    refine ⟨row_line_comment _ (fmt_toks io r) ?_, no_newline_line _ (fmt_toks io r)⟩
    intro t ht
    obtain ⟨x, _, rfl⟩ := List.mem_map.mp ht
    exact io.no_hash x
  · obtain ⟨r, _, rfl⟩ := List.mem_map.mp h
    have htok : ∀ t ∈ (r.map (· + 1)).map fmtInt, IsTok t := by
      intro t ht
      obtain ⟨x, _, rfl⟩ := List.mem_map.mp ht
      exact isTok_fmtInt x
    refine ⟨row_line_comment _ htok ?_, no_newline_line _ htok⟩
    intro t ht
    obtain ⟨x, _, rfl⟩ := List.mem_map.mp ht
    intro hh
    have := List.mem_of_mem_head? hh
    exact absurd this (not_mem_fmtInt (by decide) (by decide) _)
  · cases h

end Tecplot
end Meshio
