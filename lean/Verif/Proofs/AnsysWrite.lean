/-
Writing ANSYS msh files, and reading them back.
-/
import Verif.Proofs.Ansys

namespace Meshio
namespace Ansys
open Types Tables
open Spec.Ansys

variable {F : Type}

theorem typeNumber_eq (t : String) : find meshioToAnsys t = typeNumber t := by
  unfold typeNumber
  by_cases h1 : t = "triangle"
  · subst h1; decide +kernel
  · by_cases h2 : t = "tetra"
    · subst h2; decide +kernel
    · by_cases h3 : t = "quad"
      · subst h3; decide +kernel
      · by_cases h4 : t = "hexahedron"
        · subst h4; decide +kernel
        · by_cases h5 : t = "pyramid"
          · subst h5; decide +kernel
          · by_cases h6 : t = "wedge"
            · subst h6; decide +kernel
            · simp only [h1, h2, h3, h4, h5, h6, if_false]
              simp [find, meshioToAnsys, Ne.symm h1, Ne.symm h2, Ne.symm h3, Ne.symm h4, Ne.symm h5, Ne.symm h6]

theorem nodes_facts {t : String} {k : Nat} (h : nodes t = some k) :
    ∃ n, typeNumber t = some n ∧ cellType (n : Int) = some (t, k) ∧ fmtNat n = fmtHex n := by
  unfold nodes at h
  by_cases h1 : t = "triangle"
  · subst h1; rw [if_pos rfl] at h; cases h; exact ⟨1, by decide +kernel, by decide +kernel, by decide +kernel⟩
  rw [if_neg h1] at h
  by_cases h2 : t = "tetra"
  · subst h2; rw [if_pos rfl] at h; cases h; exact ⟨2, by decide +kernel, by decide +kernel, by decide +kernel⟩
  rw [if_neg h2] at h
  by_cases h3 : t = "quad"
  · subst h3; rw [if_pos rfl] at h; cases h; exact ⟨3, by decide +kernel, by decide +kernel, by decide +kernel⟩
  rw [if_neg h3] at h
  by_cases h4 : t = "hexahedron"
  · subst h4; rw [if_pos rfl] at h; cases h; exact ⟨4, by decide +kernel, by decide +kernel, by decide +kernel⟩
  rw [if_neg h4] at h
  by_cases h5 : t = "pyramid"
  · subst h5; rw [if_pos rfl] at h; cases h; exact ⟨5, by decide +kernel, by decide +kernel, by decide +kernel⟩
  rw [if_neg h5] at h
  by_cases h6 : t = "wedge"
  · subst h6; rw [if_pos rfl] at h; cases h; exact ⟨6, by decide +kernel, by decide +kernel, by decide +kernel⟩
  rw [if_neg h6] at h
  cases h

theorem cellText_eq {binary : Bool} {b : Blk} (h : Good binary b) (first : Nat) : cellText binary first b = .ok (cellsText binary first b) := by
  obtain ⟨k, hk, -⟩ := h.nodes
  obtain ⟨n, hn, -, hf⟩ := nodes_facts hk
  unfold cellText cellsText headText
  rw [typeNumber_eq, hn]
  cases binary with
  | false =>
    simp only [Bool.false_eq_true, if_false]
    simp [saveText, hf, List.map_map, Function.comp_def]
  | true =>
    simp only [if_true]
    rcases (h.width rfl).1 with hw | hw
    · simp [hw, hf, List.flatMap_map]
    · simp [hw, hf, List.flatMap_map]

theorem cellTexts_eq {binary : Bool} {cells : List Blk} (h : ∀ b ∈ cells, Good binary b) (first : Nat) :
    cellTexts binary first cells = .ok (allCellsText binary first cells) := by
  induction cells generalizing first with
  | nil => rfl
  | cons b cells ih =>
    rw [cellTexts, cellText_eq (h b (by simp))]
    simp only
    have := ih (fun b hb => h b (by simp [hb])) (first + b.rows.length)
    rw [show (first : Int) + (b.rows.length : Int) = ((first + b.rows.length : Nat) : Int) by omega, this]
    rfl

theorem write_eq (io : AnsFloat F) (version : List Char) (binary single : Bool) {dim : Nat} (hd : dim = 2 ∨ dim = 3) (points : List (List F))
    {cells : List Blk} (h : ∀ b ∈ cells, Good binary b) :
    write io version binary single dim points cells = .ok (fileText io version binary (if single then 4 else 8) dim points cells) := by
  unfold write
  rw [if_neg (by omega), show (0 : Int) = ((0 : Nat) : Int) from rfl, cellTexts_eq h 0]
  simp only
  have h1 : fmtHex 1 = ['1'] := by decide +kernel
  congr 1
  unfold fileText pointText pointsText headText
  cases binary <;> simp [h1, saveText, List.map_map, Function.comp_def]

/-! ## The sections that are written -/

theorem closes_of_skipClose (s : List Char) (n : Nat) (h : skipClose s n = .ok []) : Closes n s := by
  induction s generalizing n with
  | nil =>
    cases n with
    | zero => exact ⟨rfl, by intro p q hpq hq; have := List.append_eq_nil_iff.1 hpq.symm; exact absurd this.2 hq⟩
    | succ n => cases h
  | cons c s ih =>
    cases n with
    | zero => cases h
    | succ n =>
      rw [skipClose] at h
      by_cases hc : c = '('
      · subst hc
        rw [if_pos rfl] at h
        obtain ⟨h1, h2⟩ := ih _ h
        refine ⟨by simp [List.count_cons]; omega, ?_⟩
        intro p q hpq hq
        cases p with
        | nil => simp
        | cons d p =>
          simp only [List.cons_append, List.cons.injEq] at hpq
          obtain ⟨rfl, hpq⟩ := hpq
          have := h2 p q hpq hq
          simp [List.count_cons]; omega
      · rw [if_neg hc] at h
        by_cases hc' : c = ')'
        · subst hc'
          rw [if_pos rfl] at h
          obtain ⟨h1, h2⟩ := ih _ h
          refine ⟨by simp [List.count_cons]; omega, ?_⟩
          intro p q hpq hq
          cases p with
          | nil => simp
          | cons d p =>
            simp only [List.cons_append, List.cons.injEq] at hpq
            obtain ⟨rfl, hpq⟩ := hpq
            have := h2 p q hpq hq
            simp [List.count_cons]; omega
        · rw [if_neg hc'] at h
          obtain ⟨h1, h2⟩ := ih _ h
          refine ⟨by simp [List.count_cons, hc, hc']; omega, ?_⟩
          intro p q hpq hq
          cases p with
          | nil => simp
          | cons d p =>
            simp only [List.cons_append, List.cons.injEq] at hpq
            obtain ⟨rfl, hpq⟩ := hpq
            have := h2 p q hpq hq
            simp [List.count_cons, hc, hc']; omega

theorem head_written {key : List Char} (enc : Enc) (index : String) (hi : index.toList = enc.tag ++ key) (first last : Int) (elem : Nat) :
    Head key enc first last 1 elem (headText index first last elem) := by
  have hsp : Space ([] : List Char) := by intro c hc; cases hc
  have h := Head.same (key := key) (enc := enc) [] [] [' '] [] []
    (joinWith ' ' [fmtHex 1, fmtHex first, fmtHex last, fmtHex 1, fmtHex elem]) (first := first) (last := last) (kind := 1) (elem := elem) 1 []
    hsp hsp (by intro c hc; simp at hc; subst hc; decide) hsp hsp ?_ ?_ ?_ ?_
  · have h1 : fmtHex 1 = ['1'] := by decide +kernel
    unfold headText
    rw [hi]
    rw [h1] at h
    simpa [joinWith] using h
  · apply not_mem_joinWith
    · decide
    · intro t ht
      simp only [List.mem_cons, List.not_mem_nil, or_false] at ht
      rcases ht with rfl | rfl | rfl | rfl | rfl <;> exact not_mem_fmtHex (by decide) (by decide +kernel) _
  · apply not_mem_joinWith
    · decide
    · intro t ht
      simp only [List.mem_cons, List.not_mem_nil, or_false] at ht
      rcases ht with rfl | rfl | rfl | rfl | rfl <;> exact not_mem_fmtHex (by decide) (by decide +kernel) _
  · apply not_mem_joinWith
    · decide
    · intro t ht
      simp only [List.mem_cons, List.not_mem_nil, or_false] at ht
      rcases ht with rfl | rfl | rfl | rfl | rfl <;> exact not_mem_fmtHex (by decide) (by decide +kernel) _
  · rw [← splitWs_nl, splitWs_line _ (by
      intro t ht
      simp only [List.mem_cons, List.not_mem_nil, or_false] at ht
      rcases ht with rfl | rfl | rfl | rfl | rfl <;> exact isTok_fmtHex _)]
    simp

theorem points_written (io : AnsFloat F) (dim : Nat) (hd : 0 < dim) (points : List (List F)) (hp : ∀ p ∈ points, p.length = dim) :
    PointRows io dim .text (linesText (points.map fun p => joinWith ' ' (p.map io.fmt))) points := by
  induction points with
  | nil => exact .nil
  | cons p points ih =>
    rw [List.map_cons, linesText_cons]
    have htok : ∀ t ∈ p.map io.fmt, IsTok t := by
      intro t ht
      obtain ⟨x, -, rfl⟩ := List.mem_map.1 ht
      exact io.tok x
    have := PointRows.cons (io := io) (dim := dim) [] (joinWith ' ' (p.map io.fmt)) p _ points (by simp) (no_newline_line _ htok) (hp p (by simp)) hd
      (by rw [← splitWs_nl, splitWs_line _ htok, List.map_map]
          apply List.map_congr_left
          intro x _
          exact io.parse_fmt x) (ih fun p hp' => hp p (by simp [hp']))
    exact this

theorem nodes_written (k : Nat) (rows : List (List Int)) (hr : ∀ r ∈ rows, r.length = k) :
    NodeRows k 0 .text (linesText (rows.map fun r => joinWith ' ' (r.map fun i => fmtHex (i + 1)))) (rows.map fun r => r.map (· + 1)) := by
  induction rows with
  | nil => exact .nil
  | cons r rows ih =>
    rw [List.map_cons, List.map_cons, linesText_cons]
    have htok : ∀ t ∈ r.map fun i => fmtHex (i + 1), IsTok t := by
      intro t ht
      obtain ⟨x, -, rfl⟩ := List.mem_map.1 ht
      exact isTok_fmtHex _
    have hw : splitWs (joinWith ' ' (r.map fun i => fmtHex (i + 1))) = r.map fun i => fmtHex (i + 1) := by
      rw [← splitWs_nl, splitWs_line _ htok]
    refine NodeRows.cons _ _ _ _ (no_newline_line _ htok) (by rw [List.length_map, hr r (by simp)]) ?_ ?_ (ih fun q hq => hr q (by simp [hq]))
    · rw [hw, List.length_map, hr r (by simp)]; rfl
    · rw [hw, List.take_of_length_le (by rw [List.length_map, hr r (by simp)]; exact Nat.le_refl _), List.map_map, List.map_map]
      apply List.map_congr_left
      intro x _
      exact parseHex_fmtHex _

theorem space_nil : Space ([] : List Char) := by intro c hc; cases hc

theorem space_one : Space [' '] := by
  intro c hc
  simp at hc
  subst hc
  decide

theorem closes_nil : Closes 0 [] := closes_of_skipClose _ _ rfl

theorem section_nl (io : AnsFloat F) : Section io ['\n'] .nothing := by
  have := Section.blank (io := io) [] space_nil
  simpa using this

theorem snoc_nl (a : String) (b : List Char) (h : a.toList = b ++ ['\n']) (x : List Char) : x ++ a.toList = (x ++ b) ++ ['\n'] := by
  rw [h, List.append_assoc]

/-- The sections of a block. -/
theorem block_sections (io : AnsFloat F) {binary : Bool} {b : Blk} (h : Good binary b) (first : Nat) :
    ∃ t, cellsText binary first b = t ++ ['\n'] ∧ Section io t (.cells [(b.type, b.rows.map fun r => r.map (· + 1))]) := by
  obtain ⟨k, hk, hr⟩ := h.nodes
  obtain ⟨n, hn, hct, -⟩ := nodes_facts hk
  have hlen : (first : Int) + (b.rows.length : Int) - 1 = first + ((b.rows.map fun r => r.map (· + 1)).length : Int) - 1 := by
    rw [List.length_map]
  cases binary with
  | false =>
    refine ⟨headText "12" first ((first : Int) + b.rows.length - 1) n ++
      (linesText (b.rows.map fun r => joinWith ' ' (r.map fun i => fmtHex (i + 1))) ++ "))".toList), ?_, ?_⟩
    · unfold cellsText
      rw [if_neg (by decide), hn]
      simp
    · have hh := head_written (key := cellsKey) .text "12" (by decide) first ((first : Int) + b.rows.length - 1) n
      rw [hlen] at hh ⊢
      exact Section.cells .text first 1 n b.type k _ _ _ _ (by decide) hct hh (nodes_written k b.rows hr) (closes_of_skipClose _ _ (by decide +kernel))
  | true =>
    obtain ⟨hw, hint⟩ := h.width rfl
    have hfull : ∀ e : Enc, e ≠ .text → e.bytes = b.width → NodeRows k 0 e (b.rows.flatMap fun r => putInts b.width (r.map (· + 1)))
        (b.rows.map fun r => r.map (· + 1)) := by
      intro e he hb
      have := NodeRows.bin (k := k) (extra := 0) e (b.rows.map fun r => r.map (· + 1)) he (by
        intro r hr'
        obtain ⟨q, hq, rfl⟩ := List.mem_map.1 hr'
        refine ⟨by rw [List.length_map, hr q hq]; rfl, ?_⟩
        intro z hz
        obtain ⟨i, hi, rfl⟩ := List.mem_map.1 hz
        rw [hb]
        exact hint q hq i hi)
      rw [map_take_id (by
        intro r hr'
        obtain ⟨q, hq, rfl⟩ := List.mem_map.1 hr'
        rw [List.length_map, hr q hq]
        exact Nat.le_refl _), List.flatMap_map, hb] at this
      exact this
    rcases hw with hw | hw
    · refine ⟨headText "2012" first ((first : Int) + b.rows.length - 1) n ++
        ((b.rows.flatMap fun r => putInts b.width (r.map (· + 1))) ++ "\n)End of Binary Section 2012)".toList), ?_, ?_⟩
      · unfold cellsText
        rw [if_pos rfl, hn, if_pos hw, if_pos hw]
        simp
      · have hh := head_written (key := cellsKey) .bin4 "2012" (by decide) first ((first : Int) + b.rows.length - 1) n
        rw [hlen] at hh ⊢
        exact Section.cells .bin4 first 1 n b.type k _ _ _ _ (by decide) hct hh (hfull .bin4 (by decide) hw.symm)
          (closes_of_skipClose _ _ (by decide +kernel))
    · refine ⟨headText "3012" first ((first : Int) + b.rows.length - 1) n ++
        ((b.rows.flatMap fun r => putInts b.width (r.map (· + 1))) ++ "\n)End of Binary Section 3012)".toList), ?_, ?_⟩
      · unfold cellsText
        rw [if_pos rfl, hn, if_neg (by omega), if_neg (by omega)]
        simp
      · have hh := head_written (key := cellsKey) .bin8 "3012" (by decide) first ((first : Int) + b.rows.length - 1) n
        rw [hlen] at hh ⊢
        exact Section.cells .bin8 first 1 n b.type k _ _ _ _ (by decide) hct hh (hfull .bin8 (by decide) hw.symm)
          (closes_of_skipClose _ _ (by decide +kernel))

theorem blocks_sections (io : AnsFloat F) {binary : Bool} {cells : List Blk} (h : ∀ b ∈ cells, Good binary b) (first : Nat) :
    ∃ secs : List (List Char × Item F), allCellsText binary first cells = secs.flatMap (·.1) ∧ (∀ s ∈ secs, Section io s.1 s.2) ∧
      pointItems (secs.map (·.2)) = [] ∧ (∀ x ∈ secs.map (·.2), x ≠ Item.totalPoints) ∧
      cellItems (secs.map (·.2)) = cells.map fun b => (b.type, b.rows.map fun r => r.map (· + 1)) := by
  induction cells generalizing first with
  | nil => exact ⟨[], rfl, by simp, rfl, by simp, rfl⟩
  | cons b cells ih =>
    obtain ⟨secs, h1, h2, h3, h4, h5⟩ := ih (fun b hb => h b (by simp [hb])) (first + b.rows.length)
    obtain ⟨t, ht, hs⟩ := block_sections io (h b (by simp)) first
    refine ⟨(t, .cells [(b.type, b.rows.map fun r => r.map (· + 1))]) :: (['\n'], .nothing) :: secs, ?_, ?_, ?_, ?_, ?_⟩
    · rw [allCellsText, ht, h1]; simp
    · intro s hs'
      rw [List.mem_cons, List.mem_cons] at hs'
      rcases hs' with rfl | rfl | hs'
      · exact hs
      · exact section_nl io
      · exact h2 s hs'
    · exact h3
    · intro x hx
      rw [List.map_cons, List.map_cons, List.mem_cons, List.mem_cons] at hx
      rcases hx with rfl | rfl | hx
      · simp
      · simp
      · exact h4 x hx
    · show [(b.type, b.rows.map fun r => r.map (· + 1))] ++ ([] ++ cellItems (secs.map (·.2))) = _
      rw [h5]; rfl

theorem point_section (io : AnsFloat F) (binary : Bool) {dim : Nat} (hd : 0 < dim) (points : List (List F)) (hp : ∀ p ∈ points, p.length = dim) :
    ∃ t, pointsText io binary 8 dim points = t ++ ['\n'] ∧ Section io t (.points 1 dim points) := by
  have hlen : ((points.length : Nat) : Int) = 1 + (points.length : Int) - 1 := by omega
  cases binary with
  | false =>
    refine ⟨headText "10" 1 points.length dim ++ (linesText (points.map fun p => joinWith ' ' (p.map io.fmt)) ++ "))".toList), ?_, ?_⟩
    · unfold pointsText
      rw [if_neg (by decide)]
      simp
    · have hh := head_written (key := pointsKey) .text "10" (by decide) 1 points.length dim
      rw [hlen] at hh ⊢
      exact Section.points .text 1 1 dim points _ _ _ hh (points_written io dim hd points hp) (closes_of_skipClose _ _ (by decide +kernel))
  | true =>
    refine ⟨headText "3010" 1 points.length dim ++ ((points.flatten.flatMap fun x => toChars (io.bin.enc false 8 x)) ++
      "\n)End of Binary Section 3010)".toList), ?_, ?_⟩
    · unfold pointsText
      rw [if_pos rfl]
      simp
    · have hh := head_written (key := pointsKey) .bin8 "3010" (by decide) 1 points.length dim
      rw [hlen] at hh ⊢
      have hb := PointRows.bin (io := io) (dim := dim) .bin8 points (by decide) hp
      have hid : (points.map fun r => r.map (io.bin.rnd Enc.bin8.bytes)) = points := by
        have : ∀ r : List F, r.map (io.bin.rnd Enc.bin8.bytes) = r := by
          intro r
          conv => rhs; rw [← List.map_id r]
          apply List.map_congr_left
          intro x _
          exact io.bin.rnd8 x
        simp [this]
      rw [hid] at hb
      exact Section.points .bin8 1 1 dim points _ _ _ hh hb (closes_of_skipClose _ _ (by decide +kernel))

theorem head_not_digit (s : String) (t : List Char) (h : (s.toList.head?.map Char.isDigit) = some false) :
    ∀ c, (s.toList ++ t).head? = some c → c.isDigit = false := by
  intro c hc
  cases hs : s.toList with
  | nil => rw [hs] at h; cases h
  | cons d l =>
    rw [hs] at h hc
    cases hc
    simpa using h

theorem not_indexed_short {key i : List Char} (hk : IsKey key) (h : i.length < 2) : ¬ Indexed key i := by
  rintro ⟨e, he⟩
  have := he.length_le
  rcases hk with rfl | rfl | rfl <;> cases e <;> simp [Enc.tag, pointsKey, cellsKey, facesKey] at this <;> omega

theorem count_fmtHex (i : Int) : (fmtHex i).count '(' = 0 ∧ (fmtHex i).count ')' = 0 :=
  ⟨List.count_eq_zero.2 (not_mem_fmtHex (by decide) (by decide +kernel) i), List.count_eq_zero.2 (not_mem_fmtHex (by decide) (by decide +kernel) i)⟩

theorem file_sections (io : AnsFloat F) (version : List Char) (hv : ∀ c ∈ version, c ≠ '(' ∧ c ≠ ')' ∧ c ≠ '\n') (binary : Bool) {dim : Nat}
    (hd : dim = 2 ∨ dim = 3) (points : List (List F)) (hp : ∀ p ∈ points, p.length = dim) {cells : List Blk} (h : ∀ b ∈ cells, Good binary b) :
    ∃ secs : List (List Char × Item F), fileText io version binary 8 dim points cells = secs.flatMap (·.1) ∧ (∀ s ∈ secs, Section io s.1 s.2) ∧
      pointItems (secs.map (·.2)) = [(1, dim, points)] ∧ TotalsFirst (secs.map (·.2)) ∧
      cellItems (secs.map (·.2)) = cells.map fun b => (b.type, b.rows.map fun r => r.map (· + 1)) := by
  obtain ⟨secs, h1, h2, h3, h4, h5⟩ := blocks_sections io h 0
  obtain ⟨t, ht, hs⟩ := point_section io binary (show 0 < dim by omega) points hp
  have hc0 : (version.count '(') = 0 := List.count_eq_zero.2 fun hm => (hv _ hm).1 rfl
  have hc1 : (version.count ')') = 0 := List.count_eq_zero.2 fun hm => (hv _ hm).2.1 rfl
  have s1 : Section io ("(1 \"meshio ".toList ++ version ++ "\")\n".toList) .nothing := by
    have := Section.note (io := io) [] [] "1".toList (" \"meshio ".toList ++ (version ++ "\")".toList)) [] space_nil space_nil
      (by simp only [List.mem_append, not_or]; exact ⟨by decide, fun hm => (hv _ hm).2.2 rfl, by decide⟩) (by decide) (by decide)
      (head_not_digit _ _ (by decide)) (by decide) (not_indexed_short isKey_points (by decide)) (not_indexed_short isKey_cells (by decide))
      (not_indexed_short isKey_faces (by decide)) (by
        rw [List.count_append, List.count_append, List.count_append, List.count_append, hc0, hc1]
        exact closes_nil)
    simpa using this
  have s2 : Section io ("(2 ".toList ++ fmtNat dim ++ ")\n".toList) .nothing := by
    have := Section.note (io := io) [] [] "2".toList (" ".toList ++ (fmtNat dim ++ ")".toList)) [] space_nil space_nil
      (by rcases hd with rfl | rfl <;> decide) (by decide) (by decide)
      (head_not_digit _ _ (by decide)) (by decide) (not_indexed_short isKey_points (by decide)) (not_indexed_short isKey_cells (by decide))
      (not_indexed_short isKey_faces (by decide)) (by
        rcases hd with rfl | rfl <;> exact closes_nil)
    simpa using this
  have s3 : Section io ("(10 (0 1 ".toList ++ fmtHex points.length ++ " 0))\n".toList) .totalPoints := by
    have := Section.totalPoints (io := io) [] [] "10".toList (" (0 1 ".toList ++ (fmtHex points.length ++ " 0))".toList)) space_nil space_nil
      (by simp only [List.mem_append, not_or]; exact ⟨by decide, not_mem_fmtHex (by decide) (by decide +kernel) _, by decide⟩) (by decide)
      (head_not_digit _ _ (by decide)) (by
        rw [List.count_append, List.count_append, List.count_append, List.count_append, (count_fmtHex _).1, (count_fmtHex _).2]
        decide) ⟨.text, by decide⟩
    simpa using this
  have s4 : Section io ("(12 (0 1 ".toList ++ fmtHex (cells.map fun b => b.rows.length).sum ++ " 0))\n".toList) .nothing := by
    have := Section.total (io := io) [] [] "12".toList (" (0 1 ".toList ++ (fmtHex (cells.map fun b => b.rows.length).sum ++ " 0))".toList)) space_nil space_nil
      (by simp only [List.mem_append, not_or]; exact ⟨by decide, not_mem_fmtHex (by decide) (by decide +kernel) _, by decide⟩) (by decide)
      (head_not_digit _ _ (by decide)) (by
        rw [List.count_append, List.count_append, List.count_append, List.count_append, (count_fmtHex _).1, (count_fmtHex _).2]
        decide) (Or.inl ⟨.text, by decide⟩)
    simpa using this
  refine ⟨[("(1 \"meshio ".toList ++ version ++ "\")\n".toList, .nothing), ("(2 ".toList ++ fmtNat dim ++ ")\n".toList, .nothing),
    ("(10 (0 1 ".toList ++ fmtHex points.length ++ " 0))\n".toList, .totalPoints),
    ("(12 (0 1 ".toList ++ fmtHex (cells.map fun b => b.rows.length).sum ++ " 0))\n".toList, .nothing), (t, .points 1 dim points), (['\n'], .nothing)] ++ secs, ?_, ?_, ?_, ?_, ?_⟩
  rotate_left
  · intro s hs'
    rw [List.mem_append] at hs'
    rcases hs' with hs' | hs'
    · simp only [List.mem_cons, List.not_mem_nil, or_false] at hs'
      rcases hs' with rfl | rfl | rfl | rfl | rfl | rfl
      · exact s1
      · exact s2
      · exact s3
      · exact s4
      · exact hs
      · exact section_nl io
    · exact h2 s hs'
  · show (1, dim, points) :: pointItems (secs.map (·.2)) = _
    rw [h3]
  · refine ⟨[.nothing, .nothing, .totalPoints, .nothing], [.points 1 dim points, .nothing] ++ secs.map (·.2), rfl, ?_, ?_⟩
    · intro x hx a d r
      simp only [List.mem_cons, List.not_mem_nil, or_false] at hx
      rcases hx with rfl | rfl | rfl | rfl <;> simp
    · intro x hx
      rw [List.mem_append] at hx
      rcases hx with hx | hx
      · simp only [List.mem_cons, List.not_mem_nil, or_false] at hx
        rcases hx with rfl | rfl <;> simp
      · exact h4 x hx
  · show [] ++ cellItems (secs.map (·.2)) = _
    rw [h5]; rfl
  · unfold fileText
    rw [ht, h1]
    simp

theorem roundtrip (io : AnsFloat F) (version : List Char) (hv : ∀ c ∈ version, c ≠ '(' ∧ c ≠ ')' ∧ c ≠ '\n') (binary : Bool) {dim : Nat}
    (hd : dim = 2 ∨ dim = 3) (points : List (List F)) (hp : ∀ p ∈ points, p.length = dim) {cells : List Blk} (h : ∀ b ∈ cells, Good binary b) :
    read io (fileText io version binary 8 dim points cells) = .ok ⟨points, cells.map fun b => (b.type, b.rows)⟩ := by
  obtain ⟨secs, h1, h2, h3, h4, h5⟩ := file_sections io version hv binary hd points hp h
  rw [h1, read_sections io secs h2 h4 (by rw [h3]; trivial) dim (by rw [h3]; simp) 1 (by rw [h3]; rfl), h3, h5]
  simp [List.map_map, Function.comp_def]

end Ansys
end Meshio
