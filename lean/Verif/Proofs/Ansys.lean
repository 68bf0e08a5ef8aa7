/-
Reading ANSYS msh files.
-/
import Verif.Spec.Ansys
import Verif.Base.Words
import Verif.Base.Scan
import Verif.Base.Groups

namespace Meshio
namespace Ansys
open Types Tables
open Spec.Ansys

variable {F : Type}

theorem skipClose_closes {n : Nat} {s : List Char} (h : Closes n s) (r : List Char) : skipClose (s ++ r) n = .ok r := by
  induction s generalizing n with
  | nil =>
    have := h.1
    simp at this
    subst this
    cases r <;> rfl
  | cons c s ih =>
    have h0 := h.2 [] (c :: s) rfl (by simp)
    simp at h0
    obtain ⟨m, rfl⟩ : ∃ m, n = m + 1 := ⟨n - 1, by omega⟩
    rw [List.cons_append, skipClose]
    have h1 := h.1
    have h2 := fun p q (hs : s = p ++ q) hq => h.2 (c :: p) q (by rw [hs]; rfl) hq
    by_cases hc : c = '('
    · subst hc
      rw [if_pos rfl]
      refine ih ⟨?_, ?_⟩
      · simp [List.count_cons] at h1; omega
      · intro p q hs hq
        have := h2 p q hs hq
        simp [List.count_cons] at this; omega
    · rw [if_neg hc]
      by_cases hc' : c = ')'
      · subst hc'
        rw [if_pos rfl]
        refine ih ⟨?_, ?_⟩
        · simp [List.count_cons] at h1; omega
        · intro p q hs hq
          have := h2 p q hs hq
          simp [List.count_cons] at this; omega
      · rw [if_neg hc']
        refine ih ⟨?_, ?_⟩
        · simp [List.count_cons, hc, hc'] at h1; omega
        · intro p q hs hq
          have := h2 p q hs hq
          simp [List.count_cons, hc, hc'] at this; omega

theorem space_ws {s : List Char} (h : Space s) : ∀ c ∈ s, isWs c = true := fun c hc => (h c hc).1

theorem space_nl {s : List Char} (h : Space s) : '\n' ∉ s := fun hc => (h _ hc).2 rfl

theorem not_mem_of_ws {s : List Char} (h : ∀ c ∈ s, isWs c = true) {c : Char} (hc : isWs c = false) : c ∉ s := by
  intro hm
  rw [h c hm] at hc
  exact absurd hc (by decide)

theorem dropWhile_ws {w r : List Char} (h : ∀ c ∈ w, isWs c = true) (hr : ∀ c, r.head? = some c → isWs c = false) :
    (w ++ r).dropWhile isWs = r := by
  induction w with
  | nil =>
    cases r with
    | nil => rfl
    | cons c r => rw [List.nil_append, List.dropWhile_cons_of_neg (by rw [hr c rfl]; decide)]
  | cons c w ih =>
    rw [List.cons_append, List.dropWhile_cons_of_pos (h c (by simp)), ih fun c hc => h c (by simp [hc])]

theorem takeWhile_stop {p : Char → Bool} {a r : List Char} (h : ∀ c ∈ a, p c = true) (hr : ∀ c, r.head? = some c → p c = false) :
    (a ++ r).takeWhile p = a := by
  induction a with
  | nil =>
    cases r with
    | nil => rfl
    | cons c r => rw [List.nil_append, List.takeWhile_cons_of_neg (by rw [hr c rfl]; decide)]
  | cons c a ih =>
    rw [List.cons_append, List.takeWhile_cons_of_pos (h c (by simp)), ih fun c hc => h c (by simp [hc])]

theorem indexOf_line {w0 w1 i r : List Char} (h0 : Space w0) (h1 : Space w1) (hi : i ≠ []) (hd : ∀ c ∈ i, c.isDigit = true)
    (hr : ∀ c, r.head? = some c → c.isDigit = false) : indexOf (w0 ++ '(' :: (w1 ++ (i ++ r))) = some i := by
  unfold indexOf
  rw [dropWhile_ws (space_ws h0) (by simp; decide)]
  simp only
  have : (w1 ++ (i ++ r)).dropWhile isWs = i ++ r := by
    refine dropWhile_ws (space_ws h1) ?_
    intro c hc
    cases i with
    | nil => exact absurd rfl hi
    | cons d i =>
      cases hc
      exact isWs_false_of_isDigit (hd _ (by simp))
  rw [this, takeWhile_stop hd hr, if_neg hi]

theorem strip_line_ne {w0 r : List Char} : strip (w0 ++ '(' :: r) ≠ [] := by
  intro h
  have := splitWs_eq_nil.1 (strip_eq_nil.1 h) '(' (by simp)
  exact absurd this (by decide)

theorem prefixOf_isSome {key i : List Char} : (prefixOf key i).isSome = true ↔ Indexed key i := by
  unfold prefixOf Indexed
  by_cases h1 : key <+: i
  · rw [if_pos h1]
    exact ⟨fun _ => ⟨.text, h1⟩, fun _ => rfl⟩
  · rw [if_neg h1]
    by_cases h2 : ['2', '0'] ++ key <+: i
    · rw [if_pos h2]
      exact ⟨fun _ => ⟨.bin4, h2⟩, fun _ => rfl⟩
    · rw [if_neg h2]
      by_cases h3 : ['3', '0'] ++ key <+: i
      · rw [if_pos h3]
        exact ⟨fun _ => ⟨.bin8, h3⟩, fun _ => rfl⟩
      · rw [if_neg h3]
        refine ⟨fun h => absurd h (by decide), ?_⟩
        rintro ⟨e, he⟩
        cases e
        · exact absurd he h1
        · exact absurd he h2
        · exact absurd he h3

/-- The keys in use. -/
def IsKey (key : List Char) : Prop := key = pointsKey ∨ key = cellsKey ∨ key = facesKey

theorem prefixOf_tag {key : List Char} (hk : IsKey key) (e : Enc) (s : List Char) :
    prefixOf key (e.tag ++ key ++ s) = some (e.tag, s) := by
  rcases hk with rfl | rfl | rfl <;> cases e <;> simp [prefixOf, Enc.tag, pointsKey, cellsKey, facesKey]

theorem tag_digits {key : List Char} (hk : IsKey key) (e : Enc) : e.tag ++ key ≠ [] ∧ ∀ c ∈ e.tag ++ key, c.isDigit = true := by
  rcases hk with rfl | rfl | rfl <;> cases e <;> exact (by decide +kernel)

/-- The first line of a section with data, up to the closing bracket of the numbers. -/
theorem header_line {key : List Char} (hk : IsKey key) (e : Enc) {w0 w1 w2 inner : List Char} (h0 : Space w0) (h1 : Space w1) (h2 : Space w2)
    (hi : ')' ∉ inner) (r : List Char) :
    header key (w0 ++ '(' :: (w1 ++ (e.tag ++ key ++ (w2 ++ '(' :: (inner ++ ')' :: r))))) = some (e.tag, inner) := by
  unfold header
  rw [dropWhile_ws (space_ws h0) (by simp; decide)]
  simp only
  have : (w1 ++ (e.tag ++ key ++ (w2 ++ '(' :: (inner ++ ')' :: r)))).dropWhile isWs = e.tag ++ key ++ (w2 ++ '(' :: (inner ++ ')' :: r)) := by
    refine dropWhile_ws (space_ws h1) ?_
    intro c hc
    obtain ⟨hne, hd⟩ := tag_digits hk e
    revert hc hne hd
    generalize e.tag ++ key = i
    intro hc hne hd
    cases i with
    | nil => exact absurd rfl hne
    | cons d i =>
      cases hc
      exact isWs_false_of_isDigit (hd _ (by simp))
  rw [this, prefixOf_tag hk]
  simp only
  rw [dropWhile_ws (space_ws h2) (by simp; decide)]
  simp only
  rw [if_pos (by simp), takeWhile_stop]
  · intro c hc
    simp only [decide_eq_true_eq]
    rintro rfl
    exact hi hc
  · intro c hc
    cases hc
    decide

theorem parseRow_ok {α : Type} {parse : List Char → Option α} {ws : List (List Char)} {row : List α} (h : ws.map parse = row.map some) :
    parseRow parse ws = .ok row := by
  unfold parseRow
  induction ws generalizing row with
  | nil =>
    cases row with
    | nil => rfl
    | cons _ _ => simp at h
  | cons w ws ih =>
    cases row with
    | nil => simp at h
    | cons x row =>
      simp only [List.map_cons, List.cons.injEq] at h
      rw [mapRes, h.1]
      simp only
      rw [ih h.2]

theorem count_ws {w : List Char} (h : ∀ c ∈ w, isWs c = true) {c : Char} (hc : isWs c = false) : w.count c = 0 :=
  List.count_eq_zero.2 (not_mem_of_ws h hc)

theorem count_tag {key : List Char} (hk : IsKey key) (e : Enc) : (e.tag ++ key).count '(' = 0 ∧ (e.tag ++ key).count ')' = 0 := by
  rcases hk with rfl | rfl | rfl <;> cases e <;> exact (by decide +kernel)

theorem readLine_nl {l : List Char} (h : '\n' ∉ l) (r : List Char) : readLine (l ++ '\n' :: r) = (l ++ ['\n'], r) :=
  readLine_append l r h

theorem opened_end {w0 w : List Char} (h0 : ∀ c ∈ w0, isWs c = true) (h : ∀ c ∈ w, isWs c = true) (m : List Char) {c : Char} (hc : isWs c = false) :
    opened (w0 ++ '(' :: (m ++ c :: w)) = (c == '(') := by
  have hs : strip (w0 ++ '(' :: (m ++ c :: w)) = '(' :: (m ++ [c]) := by
    have h1 : strip (w0 ++ '(' :: (m ++ c :: w)) = strip ('(' :: (m ++ [c]) ++ w) := by
      have e : '(' :: (m ++ [c]) ++ w = '(' :: (m ++ c :: w) := by simp
      rw [e]
      unfold strip
      rw [dropWhile_ws h0 (by simp; decide), List.dropWhile_cons_of_neg (by decide)]
    rw [h1]
    refine strip_trim ?_ ?_ w h
    · intro d hd
      cases hd
      decide
    · intro d hd
      rw [← List.cons_append, List.getLast?_append] at hd
      cases hd
      exact hc
  unfold opened
  rw [hs, ← List.cons_append, List.getLast?_append]
  simp

theorem sectionHead_ok {key line : List Char} {nonempty : Bool} {g inner : List Char} {zone first last kind elem : Int} {more : List Int}
    (h1 : header key line = some (g, inner))
    (h2 : (splitWs inner).map parseHex = ([zone, first, last, kind, elem] ++ more).map some) :
    sectionHead key line nonempty = .ok (g, zone, first, last, kind, elem) := by
  unfold sectionHead
  rw [h1]
  simp only
  rw [if_neg (by rintro ⟨-, rfl⟩; simp at h2), numbers, parseRow_ok h2]
  rfl

/-- What the first line of a section with data gives, and how its data are reached. -/
theorem head_facts {key : List Char} (hk : IsKey key) {enc : Enc} {first last kind elem : Int} {head : List Char}
    (h : Head key enc first last kind elem head) (nonempty : Bool) :
    ∃ line s, '\n' ∉ line ∧ (∀ r, head ++ r = line ++ '\n' :: (s ++ r)) ∧
      balanced (line ++ ['\n']) = false ∧ strip (line ++ ['\n']) ≠ [] ∧ indexOf (line ++ ['\n']) = some (enc.tag ++ key) ∧
      (∃ zone, sectionHead key (line ++ ['\n']) nonempty = .ok (enc.tag, zone, first, last, kind, elem)) ∧
      ((opened (line ++ ['\n']) = true ∧ s = []) ∨
        (opened (line ++ ['\n']) = false ∧ ∃ w, s = w ++ ['('] ∧ ∀ c ∈ w, isWs c = true)) := by
  have hne := (tag_digits hk enc).1
  have hd := (tag_digits hk enc).2
  have hcnt := count_tag hk enc
  have hnl : '\n' ∉ enc.tag ++ key := fun hm => absurd (hd _ hm) (by decide)
  cases h with
  | same w0 w1 w2 w3 w4 inner zone more h0 h1 h2 h3 h4 hi1 hi2 hi3 hnum =>
    refine ⟨w0 ++ '(' :: (w1 ++ (enc.tag ++ key ++ (w2 ++ '(' :: (inner ++ ')' :: (w3 ++ '(' :: w4))))), [], ?_, ?_, ?_, ?_, ?_, ⟨zone, ?_⟩, ?_⟩
    · simp only [List.mem_append, List.mem_cons, not_or]
      rw [List.mem_append, not_or] at hnl
      exact ⟨space_nl h0, by decide, space_nl h1, hnl, space_nl h2, by decide, hi1, by decide, space_nl h3, by decide, space_nl h4⟩
    · intro r; simp
    · unfold balanced
      have e1 := count_ws (space_ws h0) (c := '(') (by decide)
      have e2 := count_ws (space_ws h1) (c := '(') (by decide)
      have e3 := count_ws (space_ws h2) (c := '(') (by decide)
      have e4 := count_ws (space_ws h3) (c := '(') (by decide)
      have e5 := count_ws (space_ws h4) (c := '(') (by decide)
      have f1 := count_ws (space_ws h0) (c := ')') (by decide)
      have f2 := count_ws (space_ws h1) (c := ')') (by decide)
      have f3 := count_ws (space_ws h2) (c := ')') (by decide)
      have f4 := count_ws (space_ws h3) (c := ')') (by decide)
      have f5 := count_ws (space_ws h4) (c := ')') (by decide)
      have e6 := List.count_eq_zero.2 hi2
      have f6 := List.count_eq_zero.2 hi3
      rw [List.count_append, List.count_append] at hcnt
      simp only [List.count_append, List.count_cons, List.count_nil, e1, e2, e3, e4, e5, e6, f1, f2, f3, f4, f5, f6, hcnt.1, hcnt.2]
      decide
    · rw [List.append_assoc, List.cons_append]
      exact strip_line_ne
    · have e : w0 ++ '(' :: (w1 ++ (enc.tag ++ key ++ (w2 ++ '(' :: (inner ++ ')' :: (w3 ++ '(' :: w4))))) ++ ['\n'] =
        w0 ++ '(' :: (w1 ++ ((enc.tag ++ key) ++ (w2 ++ '(' :: (inner ++ ')' :: (w3 ++ '(' :: (w4 ++ ['\n'])))))) := by simp
      rw [e]
      refine indexOf_line h0 h1 hne hd ?_
      intro c hc
      cases w2 with
      | nil => cases hc; decide
      | cons d w2 =>
        cases hc
        cases hx : c.isDigit
        · rfl
        · have := (h2 c (by simp)).1
          rw [isWs_false_of_isDigit hx] at this
          exact absurd this (by decide)
    · have e : w0 ++ '(' :: (w1 ++ (enc.tag ++ key ++ (w2 ++ '(' :: (inner ++ ')' :: (w3 ++ '(' :: w4))))) ++ ['\n'] =
        w0 ++ '(' :: (w1 ++ (enc.tag ++ key ++ (w2 ++ '(' :: (inner ++ ')' :: (w3 ++ '(' :: (w4 ++ ['\n'])))))) := by simp
      rw [e]
      exact sectionHead_ok (header_line hk enc h0 h1 h2 hi3 _) hnum
    · left
      refine ⟨?_, rfl⟩
      have e : w0 ++ '(' :: (w1 ++ (enc.tag ++ key ++ (w2 ++ '(' :: (inner ++ ')' :: (w3 ++ '(' :: w4))))) ++ ['\n'] =
        w0 ++ '(' :: ((w1 ++ (enc.tag ++ key ++ (w2 ++ '(' :: (inner ++ ')' :: w3)))) ++ '(' :: (w4 ++ ['\n'])) := by simp
      rw [e, opened_end (space_ws h0) _ _ (by decide)]
      · decide
      · intro c hc
        rw [List.mem_append, List.mem_singleton] at hc
        rcases hc with hc | rfl
        · exact space_ws h4 c hc
        · decide
  | next w0 w1 w2 w3 w4 inner zone more h0 h1 h2 h3 h4 hi1 hi2 hi3 hnum =>
    refine ⟨w0 ++ '(' :: (w1 ++ (enc.tag ++ key ++ (w2 ++ '(' :: (inner ++ ')' :: w3)))), w4 ++ ['('], ?_, ?_, ?_, ?_, ?_, ⟨zone, ?_⟩, ?_⟩
    · simp only [List.mem_append, List.mem_cons, not_or]
      rw [List.mem_append, not_or] at hnl
      exact ⟨space_nl h0, by decide, space_nl h1, hnl, space_nl h2, by decide, hi1, by decide, space_nl h3⟩
    · intro r; simp
    · unfold balanced
      have e1 := count_ws (space_ws h0) (c := '(') (by decide)
      have e2 := count_ws (space_ws h1) (c := '(') (by decide)
      have e3 := count_ws (space_ws h2) (c := '(') (by decide)
      have e4 := count_ws (space_ws h3) (c := '(') (by decide)
      have f1 := count_ws (space_ws h0) (c := ')') (by decide)
      have f2 := count_ws (space_ws h1) (c := ')') (by decide)
      have f3 := count_ws (space_ws h2) (c := ')') (by decide)
      have f4 := count_ws (space_ws h3) (c := ')') (by decide)
      have e6 := List.count_eq_zero.2 hi2
      have f6 := List.count_eq_zero.2 hi3
      rw [List.count_append, List.count_append] at hcnt
      simp only [List.count_append, List.count_cons, List.count_nil, e1, e2, e3, e4, e6, f1, f2, f3, f4, f6, hcnt.1, hcnt.2]
      decide
    · rw [List.append_assoc, List.cons_append]
      exact strip_line_ne
    · have e : w0 ++ '(' :: (w1 ++ (enc.tag ++ key ++ (w2 ++ '(' :: (inner ++ ')' :: w3)))) ++ ['\n'] =
        w0 ++ '(' :: (w1 ++ ((enc.tag ++ key) ++ (w2 ++ '(' :: (inner ++ ')' :: (w3 ++ ['\n']))))) := by simp
      rw [e]
      refine indexOf_line h0 h1 hne hd ?_
      intro c hc
      cases w2 with
      | nil => cases hc; decide
      | cons d w2 =>
        cases hc
        cases hx : c.isDigit
        · rfl
        · have := (h2 c (by simp)).1
          rw [isWs_false_of_isDigit hx] at this
          exact absurd this (by decide)
    · have e : w0 ++ '(' :: (w1 ++ (enc.tag ++ key ++ (w2 ++ '(' :: (inner ++ ')' :: w3)))) ++ ['\n'] =
        w0 ++ '(' :: (w1 ++ (enc.tag ++ key ++ (w2 ++ '(' :: (inner ++ ')' :: (w3 ++ ['\n']))))) := by simp
      rw [e]
      exact sectionHead_ok (header_line hk enc h0 h1 h2 hi3 _) hnum
    · right
      refine ⟨?_, w4, rfl, h4⟩
      have e : w0 ++ '(' :: (w1 ++ (enc.tag ++ key ++ (w2 ++ '(' :: (inner ++ ')' :: w3)))) ++ ['\n'] =
        w0 ++ '(' :: ((w1 ++ (enc.tag ++ key ++ (w2 ++ '(' :: inner))) ++ ')' :: (w3 ++ ['\n'])) := by simp
      rw [e, opened_end (space_ws h0) _ _ (by decide)]
      · decide
      · intro c hc
        rw [List.mem_append, List.mem_singleton] at hc
        rcases hc with hc | rfl
        · exact space_ws h3 c hc
        · decide

/-! ## The data -/

theorem skipTo_ws {w : List Char} (h : ∀ c ∈ w, isWs c = true) (s : List Char) : skipTo '(' (w ++ '(' :: s) = .ok s := by
  induction w with
  | nil => rw [List.nil_append, skipTo, if_pos rfl]
  | cons c w ih =>
    rw [List.cons_append, skipTo, if_neg, ih fun c hc => h c (by simp [hc])]
    rintro rfl
    exact absurd (h '(' (by simp)) (by decide)

theorem openCells_ws {w : List Char} (h : ∀ c ∈ w, isWs c = true) (s : List Char) : openCells (w ++ '(' :: s) = .ok (true, s) := by
  induction w with
  | nil => rw [List.nil_append, openCells, if_pos rfl]
  | cons c w ih =>
    rw [List.cons_append, openCells, if_neg, if_pos (h c (by simp)), ih fun c hc => h c (by simp [hc])]
    rintro rfl
    exact absurd (h '(' (by simp)) (by decide)

theorem splitWs_nl_line (l : List Char) : splitWs (l ++ ['\n']) = splitWs l := splitWs_nl l

theorem nextLine_blanks {blanks : List (List Char)} (hb : ∀ b ∈ blanks, Space b) {line : List Char} (hl : '\n' ∉ line)
    (hne : splitWs line ≠ []) (s : List Char) (n : Nat) (hn : blanks.length < n) :
    nextLine n (linesText blanks ++ (line ++ '\n' :: s)) = .ok (line ++ ['\n'], s) := by
  induction blanks generalizing n with
  | nil =>
    obtain ⟨m, rfl⟩ : ∃ m, n = m + 1 := ⟨n - 1, by simp at hn; omega⟩
    show nextLine (m + 1) (line ++ '\n' :: s) = _
    rw [nextLine, if_neg (by simp), readLine_nl hl, if_neg]
    rw [strip_eq_nil, splitWs_nl]
    exact hne
  | cons b blanks ih =>
    obtain ⟨m, rfl⟩ : ∃ m, n = m + 1 := ⟨n - 1, by simp at hn; omega⟩
    rw [linesText_cons, List.append_assoc, List.cons_append, nextLine, if_neg (by simp), readLine_nl (space_nl (hb b (by simp))), if_pos]
    · exact ih (fun b hb' => hb b (by simp [hb'])) m (by simp at hn; omega)
    · rw [strip_eq_nil, splitWs_nl, splitWs_eq_nil]
      exact space_ws (hb b (by simp))

theorem nextLine_blanks' {blanks : List (List Char)} (hb : ∀ b ∈ blanks, Space b) {line : List Char} (hl : '\n' ∉ line)
    (hne : splitWs line ≠ []) (s : List Char) :
    nextLine ((linesText blanks ++ (line ++ '\n' :: s)).length + 1) (linesText blanks ++ (line ++ '\n' :: s)) = .ok (line ++ ['\n'], s) := by
  apply nextLine_blanks hb hl hne
  have := length_linesText_ge blanks
  rw [List.length_append]
  omega

theorem pointRows_text (io : AnsFloat F) (dim : Nat) {e : Enc} {text : List Char} {rows : List (List F)} (h : PointRows io dim e text rows)
    (he : e = .text) (s : List Char) : pointRows io dim rows.length (text ++ s) = .ok (rows, s) := by
  induction h with
  | nil => rfl
  | cons blanks line row text rows hb hl hr hd hp _ ih =>
    have hlen : (splitWs line).length = dim := by
      have := congrArg List.length hp
      simpa [hr] using this
    have hne : splitWs line ≠ [] := by
      intro h0
      rw [h0] at hlen
      simp at hlen
      omega
    have e1 : linesText blanks ++ (line ++ '\n' :: text) ++ s = linesText blanks ++ (line ++ '\n' :: (text ++ s)) := by simp
    rw [e1, List.length_cons, pointRows, nextLine_blanks' hb hl hne]
    simp only
    rw [splitWs_nl, if_neg (by rw [hlen]; simp), parseRow_ok hp]
    simp only
    rw [ih he]
  | bin e rows hne _ => exact absurd he hne

theorem pointRows_bin (io : AnsFloat F) (dim : Nat) {e : Enc} {text : List Char} {rows : List (List F)} (h : PointRows io dim e text rows)
    (he : e ≠ .text) (s : List Char) : floatRows io e.bytes rows.length dim (text ++ s) = .ok (rows, s) := by
  cases h with
  | nil => exact absurd rfl he
  | cons => exact absurd rfl he
  | bin _ rows _ hr =>
    have hl : rows.flatten.length = rows.length * dim := length_flatten_const dim rows hr
    have hb : blocks e.bytes (rows.length * dim) ((rows.flatten.flatMap fun x => toChars (io.bin.enc false e.bytes x)) ++ s) =
        (rows.flatten.map (fun x => toChars (io.bin.enc false e.bytes x)), s) := by
      have := blocks_append e.bytes (rows.flatten.map fun x => toChars (io.bin.enc false e.bytes x)) (by
        intro x hx
        obtain ⟨y, -, rfl⟩ := List.mem_map.1 hx
        rw [length_toChars, io.bin.len]) s
      rw [List.length_map, hl, ← List.flatMap_def] at this
      exact this
    unfold floatRows
    rw [List.length_map, hb]
    simp only
    rw [List.map_map]
    have hf : (fun b => io.bin.dec false e.bytes (toBytes b)) ∘ (fun x => toChars (io.bin.enc false e.bytes x)) = io.bin.rnd e.bytes := by
      funext x
      simp only [Function.comp, toBytes_toChars, io.bin.dec_enc]
    rw [hf, List.map_flatten]
    have := reshape_flatten dim (rows.map fun r => r.map (io.bin.rnd e.bytes)) (by
      intro r hr'
      obtain ⟨q, hq, rfl⟩ := List.mem_map.1 hr'
      rw [List.length_map, hr q hq])
    rw [List.length_map] at this
    rw [this]

theorem nodeRows_text (k extra : Nat) {e : Enc} {text : List Char} {rows : List (List Int)} (h : NodeRows k extra e text rows)
    (he : e = .text) (s : List Char) : nodeRows k extra rows.length (text ++ s) = .ok (rows, s) := by
  induction h with
  | nil => rfl
  | cons line row text rows hl hr hlen hp _ ih =>
    have e1 : line ++ '\n' :: text ++ s = line ++ '\n' :: (text ++ s) := by simp
    rw [e1, List.length_cons, nodeRows, readLine_nl hl]
    simp only
    rw [splitWs_nl, if_neg (by rw [hlen]; simp), parseRow_ok hp]
    simp only
    rw [ih he]
  | bin e rows hne _ => exact absurd he hne

theorem putInts_rows (w : Nat) (rows : List (List Int)) : rows.flatMap (putInts w) = putInts w rows.flatten := by
  induction rows with
  | nil => rfl
  | cons r rows ih => simp only [List.flatMap_cons, ih, List.flatten_cons, putInts, List.flatMap_append]

theorem map_take_id {k : Nat} {rows : List (List Int)} (h : ∀ r ∈ rows, r.length ≤ k) : rows.map (·.take k) = rows := by
  induction rows with
  | nil => rfl
  | cons r rows ih =>
    rw [List.map_cons, ih fun q hq => h q (by simp [hq]), List.take_of_length_le (h r (by simp))]

theorem nodeRows_bin_full (k extra : Nat) {e : Enc} {rows : List (List Int)} (he : e ≠ .text)
    (hr : ∀ r ∈ rows, r.length = k + extra ∧ ∀ z ∈ r, IsInt e.bytes z) (s : List Char) :
    intRows e.bytes rows.length (k + extra) (rows.flatMap (putInts e.bytes) ++ s) = .ok (rows, s) := by
  have hl : rows.flatten.length = rows.length * (k + extra) := length_flatten_const _ rows fun r h => (hr r h).1
  unfold intRows
  rw [putInts_rows, ← hl, getInts_putInts]
  · simp only
    rw [reshape_flatten _ _ fun r h => (hr r h).1]
  · intro z hz
    obtain ⟨r, hr', hz⟩ := List.mem_flatten.1 hz
    exact (hr r hr').2 z hz

theorem nodeRows_take {k extra : Nat} {e : Enc} {text : List Char} {rows : List (List Int)} (h : NodeRows k extra e text rows)
    (he : e = .text) : rows.map (·.take k) = rows := by
  induction h with
  | nil => rfl
  | cons line row text rows hl hr hlen hp _ ih =>
    rw [List.map_cons, ih he, List.take_of_length_le (by omega)]
  | bin e rows hne _ => exact absurd he hne

theorem nodeRows_bin (k extra : Nat) {e : Enc} {text : List Char} {rows : List (List Int)} (h : NodeRows k extra e text rows)
    (he : e ≠ .text) (s : List Char) :
    ∃ full, intRows e.bytes rows.length (k + extra) (text ++ s) = .ok (full, s) ∧ full.map (·.take k) = rows := by
  cases h with
  | nil => exact absurd rfl he
  | cons => exact absurd rfl he
  | bin _ rows _ hr =>
    refine ⟨rows, ?_, rfl⟩
    rw [List.length_map]
    exact nodeRows_bin_full k extra he hr s

theorem faceTypes_eq {i : Int} {t : String} {k : Nat} (h : faceType i = some (t, k)) :
    ¬ i < 0 ∧ i ≠ 0 ∧ find faceTypes i.toNat = some (t, k) := by
  unfold faceType at h
  split at h
  · cases h; exact (by decide +kernel)
  · cases h; exact (by decide +kernel)
  · cases h; exact (by decide +kernel)
  · cases h

theorem cellTypes_eq {i : Int} {t : String} {k : Nat} (h : cellType i = some (t, k)) :
    ¬ i < 0 ∧ i ≠ 0 ∧ find ansysToMeshio i.toNat = some (t, k) := by
  unfold cellType at h
  split at h
  · cases h; exact (by decide +kernel)
  · cases h; exact (by decide +kernel)
  · cases h; exact (by decide +kernel)
  · cases h; exact (by decide +kernel)
  · cases h; exact (by decide +kernel)
  · cases h; exact (by decide +kernel)
  · cases h

theorem mixedRows_text {text : List Char} {rows : List (String × List Int)} (h : MixedRows text rows) (s : List Char)
    (d : Dict (List (List Int))) :
    mixedRows rows.length (text ++ s) d = .ok (rows.foldl (fun d p => pushDict d p.1 p.2) d, s) := by
  induction h generalizing d with
  | nil => rfl
  | cons blanks line w ws i t k row text rows hb hl hw hi ht hlen hr hp _ ih =>
    have e1 : linesText blanks ++ (line ++ '\n' :: text) ++ s = linesText blanks ++ (line ++ '\n' :: (text ++ s)) := by simp
    rw [e1, List.length_cons, mixedRows, nextLine_blanks' hb hl (by rw [hw]; simp)]
    simp only
    rw [splitWs_nl, hw]
    simp only
    obtain ⟨h1, h2, h3⟩ := faceTypes_eq ht
    rw [hi]
    simp only
    rw [if_neg h2, if_neg h1, h3]
    simp only
    rw [if_neg (by rw [hlen]; simp), parseRow_ok hp]
    simp only
    rw [ih]
    rfl

/-! ## The sections -/

/-- What a section does. -/
def apply (st : St F) : Item F → St F
  | .nothing => st
  | .totalPoints => { st with first := none, last := none }
  | .points a d rows => ⟨st.points ++ [(d, rows)], st.cells, some (st.first.getD a), some (a + rows.length - 1)⟩
  | .cells b => { st with cells := st.cells ++ b }

theorem isKey_points : IsKey pointsKey := Or.inl rfl
theorem isKey_cells : IsKey cellsKey := Or.inr (Or.inl rfl)
theorem isKey_faces : IsKey facesKey := Or.inr (Or.inr rfl)

theorem readSection_points (io : AnsFloat F) {line s : List Char} (st : St F) {i : List Char} (h1 : strip line ≠ []) (h2 : indexOf line = some i)
    (h3 : Indexed pointsKey i) : readSection io line s st = readPoints io line s st := by
  unfold readSection
  rw [if_neg h1, h2]
  simp only
  have h4 : ¬ (i = ['0'] ∨ i = ['1'] ∨ i = ['2']) := by
    rintro (rfl | rfl | rfl) <;>
    · obtain ⟨e, he⟩ := h3
      have := he.length_le
      cases e <;> simp [Enc.tag, pointsKey] at this
  rw [if_neg h4, if_pos (show (prefixOf ['1', '0'] i).isSome = true from prefixOf_isSome.2 h3)]

theorem indexed_disjoint {i : List Char} {k l : List Char} (hk : IsKey k) (hl : IsKey l) (h1 : Indexed k i) (h2 : Indexed l i) : k = l := by
  obtain ⟨e, r, hr⟩ := h1
  obtain ⟨f, q, hq⟩ := h2
  rw [← hr] at hq
  rcases hk with rfl | rfl | rfl <;> rcases hl with rfl | rfl | rfl <;> first | rfl | (cases e <;> cases f <;> simp [Enc.tag, pointsKey, cellsKey, facesKey] at hq)

theorem not_small {i : List Char} {k : List Char} (hk : IsKey k) (h : Indexed k i) : ¬ (i = ['0'] ∨ i = ['1'] ∨ i = ['2']) := by
  obtain ⟨e, he⟩ := h
  have := he.length_le
  rintro (rfl | rfl | rfl) <;> rcases hk with rfl | rfl | rfl <;> cases e <;> simp [Enc.tag, pointsKey, cellsKey, facesKey] at this

theorem not_indexed_of {i k l : List Char} (hk : IsKey k) (hl : IsKey l) (hne : k ≠ l) (h : Indexed k i) : ¬ (prefixOf l i).isSome = true := by
  intro h'
  exact hne (indexed_disjoint hk hl h (prefixOf_isSome.1 h'))

theorem readSection_cells (io : AnsFloat F) {line s : List Char} (st : St F) {i : List Char} (h1 : strip line ≠ []) (h2 : indexOf line = some i)
    (h3 : Indexed cellsKey i) : readSection io line s st = readCells line s st := by
  unfold readSection
  rw [if_neg h1, h2]
  simp only
  have e1 := not_indexed_of isKey_cells isKey_points (by decide) h3
  rw [if_neg (not_small isKey_cells h3), if_neg (show ¬ (prefixOf ['1', '0'] i).isSome = true from e1),
    if_pos (show (prefixOf ['1', '2'] i).isSome = true from prefixOf_isSome.2 h3)]

theorem readSection_faces (io : AnsFloat F) {line s : List Char} (st : St F) {i : List Char} (h1 : strip line ≠ []) (h2 : indexOf line = some i)
    (h3 : Indexed facesKey i) : readSection io line s st = readFaces line s st := by
  unfold readSection
  rw [if_neg h1, h2]
  simp only
  have e1 := not_indexed_of isKey_faces isKey_points (by decide) h3
  have e2 := not_indexed_of isKey_faces isKey_cells (by decide) h3
  rw [if_neg (not_small isKey_faces h3), if_neg (show ¬ (prefixOf ['1', '0'] i).isSome = true from e1),
    if_neg (show ¬ (prefixOf ['1', '2'] i).isSome = true from e2), if_pos (show (prefixOf ['1', '3'] i).isSome = true from prefixOf_isSome.2 h3)]

theorem indexed_tag (key : List Char) (e : Enc) : Indexed key (e.tag ++ key) := ⟨e, List.prefix_refl _⟩

theorem tag_nil {e : Enc} : e.tag = [] ↔ e = .text := by cases e <;> decide +kernel

theorem itemSize_tag {e : Enc} (h : e ≠ .text) : itemSize e.tag = e.bytes := by
  cases e
  · exact absurd rfl h
  · decide +kernel
  · decide +kernel

theorem line_facts {w0 w1 i rest : List Char} (h0 : Space w0) (h1 : Space w1) (hnl : '\n' ∉ rest) (hd : ∀ c ∈ i, c.isDigit = true)
    (hr : ∀ c, rest.head? = some c → c.isDigit = false) :
    '\n' ∉ w0 ++ '(' :: (w1 ++ (i ++ rest)) ∧
      (w0 ++ '(' :: (w1 ++ (i ++ rest))) ++ ['\n'] = w0 ++ '(' :: (w1 ++ (i ++ (rest ++ ['\n']))) ∧
      (∀ c, (rest ++ ['\n']).head? = some c → c.isDigit = false) ∧
      ∀ c, c.isDigit = false → isWs c = false → c ≠ '\n' →
        (w0 ++ '(' :: (w1 ++ (i ++ (rest ++ ['\n'])))).count c = (if c = '(' then 1 else 0) + rest.count c := by
  refine ⟨?_, by simp, ?_, ?_⟩
  · simp only [List.mem_append, List.mem_cons, not_or]
    exact ⟨space_nl h0, by decide, space_nl h1, fun hm => absurd (hd _ hm) (by decide), hnl⟩
  · intro c hc
    cases rest with
    | nil => cases hc; decide
    | cons d rest => exact hr c hc
  · intro c hcd hcw hcn
    have e1 := count_ws (space_ws h0) hcw
    have e2 := count_ws (space_ws h1) hcw
    have e3 : i.count c = 0 := List.count_eq_zero.2 fun hm => by rw [hd c hm] at hcd; exact absurd hcd (by decide)
    simp only [List.count_append, List.count_cons, List.count_nil, e1, e2, e3]
    have e4 : ('\n' == c) = false := by simpa using Ne.symm hcn
    rw [e4]
    by_cases hx : c = '('
    · subst hx; simp; omega
    · have e5 : ('(' == c) = false := by simpa using Ne.symm hx
      rw [e5, if_neg hx]; simp

theorem indexed_ne_nil {key i : List Char} (hk : IsKey key) (h : Indexed key i) : i ≠ [] := by
  obtain ⟨e, he⟩ := h
  rintro rfl
  have := he.length_le
  rcases hk with rfl | rfl | rfl <;> cases e <;> simp [Enc.tag, pointsKey, cellsKey, facesKey] at this

theorem section_ok (io : AnsFloat F) {text : List Char} {item : Item F} (h : Section io text item) (st : St F)
    (hst : ∀ a d r, item = .points a d r → st.last = none ∨ st.last = some (a - 1)) (r : List Char) :
    readSection io (readLine (text ++ r)).1 (readLine (text ++ r)).2 st = .ok (apply st item, r) := by
  cases h with
  | blank w hw =>
    rw [List.append_assoc, List.singleton_append, readLine_nl (space_nl hw)]
    unfold readSection
    rw [if_pos]
    · rfl
    · rw [strip_eq_nil, splitWs_nl, splitWs_eq_nil]
      exact space_ws hw
  | note w0 w1 i rest tail h0 h1 hnl hi hd hr h45 hp hc hf hcl =>
    obtain ⟨hli, e', hr', hcnt⟩ := line_facts h0 h1 hnl hd hr
    have e : w0 ++ '(' :: (w1 ++ (i ++ (rest ++ '\n' :: tail))) ++ r = (w0 ++ '(' :: (w1 ++ (i ++ rest))) ++ '\n' :: (tail ++ r) := by simp
    rw [e, readLine_nl hli]
    simp only
    rw [e']
    unfold readSection
    rw [if_neg strip_line_ne, indexOf_line h0 h1 hi hd hr']
    simp only
    have hk : skipClose (tail ++ r) (List.count '(' (w0 ++ '(' :: (w1 ++ (i ++ (rest ++ ['\n'])))) - List.count ')' (w0 ++ '(' :: (w1 ++ (i ++ (rest ++ ['\n'])))))
        = .ok r := by
      rw [hcnt '(' (by decide) (by decide) (by decide), hcnt ')' (by decide) (by decide) (by decide), if_pos rfl,
        if_neg (by decide), Nat.zero_add]
      exact skipClose_closes hcl r
    rw [hk]
    have n1 : ¬ (prefixOf ['1', '0'] i).isSome = true := fun h => hp (prefixOf_isSome.1 h)
    have n2 : ¬ (prefixOf ['1', '2'] i).isSome = true := fun h => hc (prefixOf_isSome.1 h)
    have n3 : ¬ (prefixOf ['1', '3'] i).isSome = true := fun h => hf (prefixOf_isSome.1 h)
    rw [if_neg n1, if_neg n2, if_neg n3, if_neg (show ¬ i = ['4', '5'] from h45)]
    simp only [ite_self]
    rfl
  | zone w0 w1 rest h0 h1 hnl hr =>
    have hd : ∀ c ∈ "45".toList, c.isDigit = true := by decide
    obtain ⟨hli, e', hr', hcnt⟩ := line_facts h0 h1 hnl hd hr
    have e : w0 ++ '(' :: (w1 ++ ("45".toList ++ (rest ++ ['\n']))) ++ r = (w0 ++ '(' :: (w1 ++ ("45".toList ++ rest))) ++ '\n' :: r := by simp
    rw [e, readLine_nl hli]
    simp only
    rw [e']
    unfold readSection
    rw [if_neg strip_line_ne, indexOf_line h0 h1 (by decide) hd hr']
    simp only
    rw [if_neg (by decide +kernel), if_neg (by decide +kernel), if_neg (by decide +kernel), if_neg (by decide +kernel), if_pos (by decide +kernel)]
    rfl
  | total w0 w1 i rest h0 h1 hnl hd hr hct hi =>
    obtain ⟨hli, e', hr', hcnt⟩ := line_facts h0 h1 hnl hd hr
    have e : w0 ++ '(' :: (w1 ++ (i ++ (rest ++ ['\n']))) ++ r = (w0 ++ '(' :: (w1 ++ (i ++ rest))) ++ '\n' :: r := by simp
    rw [e, readLine_nl hli]
    simp only
    rw [e']
    have hbal : balanced (w0 ++ '(' :: (w1 ++ (i ++ (rest ++ ['\n'])))) = true := by
      unfold balanced
      rw [hcnt '(' (by decide) (by decide) (by decide), hcnt ')' (by decide) (by decide) (by decide), if_pos rfl,
        if_neg (by decide), Nat.zero_add]
      exact beq_iff_eq.2 hct
    rcases hi with hi | hi
    · rw [readSection_cells io st strip_line_ne (indexOf_line h0 h1 (indexed_ne_nil isKey_cells hi) hd hr') hi, readCells, if_pos hbal]
      rfl
    · rw [readSection_faces io st strip_line_ne (indexOf_line h0 h1 (indexed_ne_nil isKey_faces hi) hd hr') hi, readFaces, if_pos hbal]
      rfl
  | totalPoints w0 w1 i rest h0 h1 hnl hd hr hct hi =>
    obtain ⟨hli, e', hr', hcnt⟩ := line_facts h0 h1 hnl hd hr
    have e : w0 ++ '(' :: (w1 ++ (i ++ (rest ++ ['\n']))) ++ r = (w0 ++ '(' :: (w1 ++ (i ++ rest))) ++ '\n' :: r := by simp
    rw [e, readLine_nl hli]
    simp only
    rw [e']
    have hbal : balanced (w0 ++ '(' :: (w1 ++ (i ++ (rest ++ ['\n'])))) = true := by
      unfold balanced
      rw [hcnt '(' (by decide) (by decide) (by decide), hcnt ')' (by decide) (by decide) (by decide), if_pos rfl,
        if_neg (by decide), Nat.zero_add]
      exact beq_iff_eq.2 hct
    rw [readSection_points io st strip_line_ne (indexOf_line h0 h1 (indexed_ne_nil isKey_points hi) hd hr') hi, readPoints, if_pos hbal]
    rfl
  | points enc first kind dim rows head data close hh hd hc =>
    obtain ⟨line, s, hnl, hsplit, hbal, hstrip, hidx, ⟨zone, hsec⟩, hopen⟩ := head_facts isKey_points hh false
    have e : head ++ (data ++ close) ++ r = line ++ '\n' :: (s ++ (data ++ (close ++ r))) := by
      rw [List.append_assoc, hsplit]; simp
    rw [e, readLine_nl hnl]
    simp only
    rw [readSection_points io st hstrip hidx (indexed_tag _ _), readPoints, if_neg (by rw [hbal]; decide)]
    rw [show sectionHead ['1', '0'] (line ++ ['\n']) false = _ from hsec]
    simp only
    have hl : ¬ (st.last.isSome = true ∧ st.last ≠ some (first - 1)) := by
      rcases hst first dim rows rfl with h | h
      · rw [h]; simp
      · rw [h]; simp
    rw [if_neg hl]
    have ho : (if opened (line ++ ['\n']) = true then Except.ok (s ++ (data ++ (close ++ r))) else skipTo '(' (s ++ (data ++ (close ++ r)))) =
        (.ok (data ++ (close ++ r)) : Res (List Char)) := by
      rcases hopen with ⟨h, rfl⟩ | ⟨h, w, rfl, hw⟩
      · rw [if_pos h]; rfl
      · rw [if_neg (by rw [h]; decide), List.append_assoc, List.singleton_append, skipTo_ws hw]
    rw [ho]
    simp only
    have en : (first + (rows.length : Int) - 1 - first + 1).toNat = rows.length := by omega
    rw [if_neg (by omega), en]
    have hr : (if enc.tag = [] then pointRows io ((dim : Int)).toNat rows.length (data ++ (close ++ r))
        else floatRows io (itemSize enc.tag) rows.length ((dim : Int)).toNat (data ++ (close ++ r))) = .ok (rows, close ++ r) := by
      by_cases he : enc = .text
      · rw [if_pos (tag_nil.2 he)]
        exact pointRows_text io dim hd he _
      · rw [if_neg (fun h => he (tag_nil.1 h)), itemSize_tag he]
        exact pointRows_bin io dim hd he _
    rw [hr]
    simp only
    rw [skipClose_closes hc]
    rfl
  | cells enc first kind elem t k rows head data close hkind ht hh hd hc =>
    obtain ⟨line, s, hnl, hsplit, hbal, hstrip, hidx, ⟨zone, hsec⟩, hopen⟩ := head_facts isKey_cells hh true
    have e : head ++ (data ++ close) ++ r = line ++ '\n' :: (s ++ (data ++ (close ++ r))) := by
      rw [List.append_assoc, hsplit]; simp
    rw [e, readLine_nl hnl]
    simp only
    rw [readSection_cells io st hstrip hidx (indexed_tag _ _), readCells, if_neg (by rw [hbal]; decide)]
    rw [show sectionHead ['1', '2'] (line ++ ['\n']) true = _ from hsec]
    simp only
    obtain ⟨t1, t2, t3⟩ := cellTypes_eq ht
    rw [if_neg hkind, if_neg t2, if_neg t1, t3]
    simp only [Option.map_some]
    have ho : (if opened (line ++ ['\n']) = true then Except.ok (true, s ++ (data ++ (close ++ r))) else openCells (s ++ (data ++ (close ++ r)))) =
        (.ok (true, data ++ (close ++ r)) : Res (Bool × List Char)) := by
      rcases hopen with ⟨h, rfl⟩ | ⟨h, w, rfl, hw⟩
      · rw [if_pos h]; rfl
      · rw [if_neg (by rw [h]; decide), List.append_assoc, List.singleton_append, openCells_ws hw]
    rw [ho]
    simp only
    have en : (first + (rows.length : Int) - 1 - first + 1).toNat = rows.length := by omega
    have hr : cellRows enc.tag (first + (rows.length : Int) - 1 - first + 1) k (data ++ (close ++ r)) = .ok (rows, close ++ r) := by
      unfold cellRows
      rw [if_neg (by omega), en]
      by_cases he : enc = .text
      · rw [if_pos (tag_nil.2 he)]
        exact nodeRows_text k 0 hd he _
      · rw [if_neg (fun h => he (tag_nil.1 h)), itemSize_tag he]
        obtain ⟨full, h1, h2⟩ := nodeRows_bin k 0 hd he (close ++ r)
        have h3 : full = rows := by
          cases hd with
          | nil => exact absurd rfl he
          | cons => exact absurd rfl he
          | bin _ rows' _ hr' =>
            have hx := nodeRows_bin_full k 0 he hr' (close ++ r)
            rw [List.length_map] at h1
            rw [hx] at h1
            cases h1
            exact (map_take_id fun q hq => Nat.le_of_eq (hr' q hq).1).symm
        rw [← h3]
        rw [← h3] at h1
        exact h1
    rw [hr]
    simp only
    rw [skipClose_closes hc]
    rfl
  | mixedCells enc first last kind head close hkind hh hc =>
    obtain ⟨line, s, hnl, hsplit, hbal, hstrip, hidx, ⟨zone, hsec⟩, hopen⟩ := head_facts isKey_cells hh true
    have e : head ++ close ++ r = line ++ '\n' :: (s ++ (close ++ r)) := by
      rw [List.append_assoc, hsplit]
    rw [e, readLine_nl hnl]
    simp only
    rw [readSection_cells io st hstrip hidx (indexed_tag _ _), readCells, if_neg (by rw [hbal]; decide)]
    rw [show sectionHead ['1', '2'] (line ++ ['\n']) true = _ from hsec]
    simp only
    rw [if_neg hkind, if_pos trivial]
    simp only
    have ho : (if opened (line ++ ['\n']) = true then Except.ok (true, s ++ (close ++ r)) else openCells (s ++ (close ++ r))) =
        (.ok (true, close ++ r) : Res (Bool × List Char)) := by
      rcases hopen with ⟨h, rfl⟩ | ⟨h, w, rfl, hw⟩
      · rw [if_pos h]; rfl
      · rw [if_neg (by rw [h]; decide), List.append_assoc, List.singleton_append, openCells_ws hw]
    rw [ho]
    simp only
    rw [skipClose_closes hc]
    rfl
  | faces enc first kind elem t k rows head data close ht hh hd hc =>
    obtain ⟨line, s, hnl, hsplit, hbal, hstrip, hidx, ⟨zone, hsec⟩, hopen⟩ := head_facts isKey_faces hh true
    have e : head ++ (data ++ close) ++ r = line ++ '\n' :: (s ++ (data ++ (close ++ r))) := by
      rw [List.append_assoc, hsplit]; simp
    rw [e, readLine_nl hnl]
    simp only
    rw [readSection_faces io st hstrip hidx (indexed_tag _ _), readFaces, if_neg (by rw [hbal]; decide)]
    rw [show sectionHead ['1', '3'] (line ++ ['\n']) true = _ from hsec]
    simp only
    obtain ⟨t1, t2, t3⟩ := faceTypes_eq ht
    rw [if_neg t2, if_neg t1, t3]
    simp only [Option.map_some]
    have ho : (if opened (line ++ ['\n']) = true then Except.ok (s ++ (data ++ (close ++ r))) else skipTo '(' (s ++ (data ++ (close ++ r)))) =
        (.ok (data ++ (close ++ r)) : Res (List Char)) := by
      rcases hopen with ⟨h, rfl⟩ | ⟨h, w, rfl, hw⟩
      · rw [if_pos h]; rfl
      · rw [if_neg (by rw [h]; decide), List.append_assoc, List.singleton_append, skipTo_ws hw]
    rw [ho]
    simp only
    have en : (first + (rows.length : Int) - 1 - first + 1).toNat = rows.length := by omega
    rw [if_neg (by omega), en]
    have hr : ∃ full, (if enc.tag = [] then nodeRows k 2 rows.length (data ++ (close ++ r))
        else intRows (itemSize enc.tag) rows.length (k + 2) (data ++ (close ++ r))) = .ok (full, close ++ r) ∧ full.map (·.take k) = rows := by
      by_cases he : enc = .text
      · rw [if_pos (tag_nil.2 he)]
        exact ⟨rows, nodeRows_text k 2 hd he _, nodeRows_take hd he⟩
      · rw [if_neg (fun h => he (tag_nil.1 h)), itemSize_tag he]
        exact nodeRows_bin k 2 hd he (close ++ r)
    obtain ⟨full, h1, h2⟩ := hr
    rw [h1]
    simp only
    rw [skipClose_closes hc]
    simp only [h2]
    rfl
  | mixedFaces first kind rows head data close hh hd hc =>
    obtain ⟨line, s, hnl, hsplit, hbal, hstrip, hidx, ⟨zone, hsec⟩, hopen⟩ := head_facts isKey_faces hh true
    have e : head ++ (data ++ close) ++ r = line ++ '\n' :: (s ++ (data ++ (close ++ r))) := by
      rw [List.append_assoc, hsplit]; simp
    rw [e, readLine_nl hnl]
    simp only
    rw [readSection_faces io st hstrip hidx (indexed_tag _ _), readFaces, if_neg (by rw [hbal]; decide)]
    rw [show sectionHead ['1', '3'] (line ++ ['\n']) true = _ from hsec]
    simp only
    rw [if_pos trivial]
    simp only
    have ho : (if opened (line ++ ['\n']) = true then Except.ok (s ++ (data ++ (close ++ r))) else skipTo '(' (s ++ (data ++ (close ++ r)))) =
        (.ok (data ++ (close ++ r)) : Res (List Char)) := by
      rcases hopen with ⟨h, rfl⟩ | ⟨h, w, rfl, hw⟩
      · rw [if_pos h]; rfl
      · rw [if_neg (by rw [h]; decide), List.append_assoc, List.singleton_append, skipTo_ws hw]
    rw [ho]
    simp only
    rw [if_neg (show ¬ Enc.text.tag ≠ [] by decide)]
    have en : (first + (rows.length : Int) - 1 - first + 1).toNat = rows.length := by omega
    rw [en, mixedRows_text hd, foldl_pushDict]
    simp only
    rw [skipClose_closes hc]
    rfl

/-! ## Files -/

theorem section_ne_nil {io : AnsFloat F} {text : List Char} {item : Item F} (h : Section io text item) : text ≠ [] := by
  have hh : ∀ {key enc first last kind elem head}, Head key enc first last kind elem head → head ≠ [] := by
    intro key enc first last kind elem head h
    cases h <;> simp
  cases h <;> first
    | (intro h; simp at h; done)
    | (rename_i h1 _ _; intro h; exact hh h1 (List.append_eq_nil_iff.1 h).1)
    | (rename_i h1 _; intro h; exact hh h1 (List.append_eq_nil_iff.1 h).1)

/-- Whenever points are given, they go on where those before ended. -/
def Fits (st : St F) : List (Item F) → Prop
  | [] => True
  | x :: l => (∀ a d r, x = .points a d r → st.last = none ∨ st.last = some (a - 1)) ∧ Fits (apply st x) l

theorem loop_sections (io : AnsFloat F) (secs : List (List Char × Item F)) (h : ∀ s ∈ secs, Section io s.1 s.2) (st : St F)
    (hf : Fits st (secs.map (·.2))) (n : Nat) (hn : (secs.flatMap (·.1)).length < n) :
    loop io n (secs.flatMap (·.1)) st = .ok ((secs.map (·.2)).foldl apply st) := by
  induction secs generalizing st n with
  | nil =>
    obtain ⟨m, rfl⟩ : ∃ m, n = m + 1 := ⟨n - 1, by simp at hn; omega⟩
    rfl
  | cons x secs ih =>
    obtain ⟨m, rfl⟩ : ∃ m, n = m + 1 := ⟨n - 1, by omega⟩
    have hx := h x (by simp)
    have hne := section_ne_nil hx
    have hpos := List.length_pos_iff.2 hne
    rw [List.flatMap_cons, List.length_append] at hn
    rw [List.flatMap_cons, loop, if_neg (by simp [hne]), section_ok io hx st hf.1]
    simp only
    rw [ih (fun s hs => h s (by simp [hs])) _ hf.2 m (by omega)]
    rfl

theorem foldl_apply_nopoints (l : List (Item F)) (h : ∀ x ∈ l, ∀ a d r, x ≠ Item.points a d r) (st : St F) (h1 : st.first = none) (h2 : st.last = none) :
    (l.foldl apply st) = ⟨st.points, st.cells ++ cellItems l, none, none⟩ ∧ Fits st l ∧ pointItems l = [] := by
  induction l generalizing st with
  | nil =>
    obtain ⟨p, c, f, l⟩ := st
    simp only at h1 h2
    subst h1 h2
    exact ⟨by simp [cellItems], trivial, rfl⟩
  | cons x l ih =>
    have h' := fun y hy => h y (List.mem_cons_of_mem x hy)
    cases x with
    | nothing =>
      obtain ⟨e1, e2, e3⟩ := ih h' st h1 h2
      exact ⟨e1, ⟨by intro a d r hx; exact absurd hx (by simp), e2⟩, e3⟩
    | totalPoints =>
      obtain ⟨e1, e2, e3⟩ := ih h' (apply st .totalPoints) rfl rfl
      exact ⟨e1, ⟨by intro a d r hx; exact absurd hx (by simp), e2⟩, e3⟩
    | points a d r => exact absurd rfl (h (.points a d r) (by simp) a d r)
    | cells b =>
      obtain ⟨e1, e2, e3⟩ := ih h' (apply st (.cells b)) h1 h2
      refine ⟨?_, ⟨by intro a d r hx; exact absurd hx (by simp), e2⟩, e3⟩
      rw [List.foldl_cons, e1]
      simp [apply, cellItems]

/-- The points so far end at `last`, and the next section goes on there. -/
def FollowsLast (last : Option Int) (l : List (Int × Nat × List (List F))) : Prop :=
  (∀ p, l.head? = some p → last = none ∨ last = some (p.1 - 1)) ∧ Consecutive l

theorem foldl_apply_nototal (l : List (Item F)) (h : ∀ x ∈ l, x ≠ Item.totalPoints) (st : St F) (hc : FollowsLast st.last (pointItems l)) :
    (l.foldl apply st).points = st.points ++ (pointItems l).map (fun p => (p.2.1, p.2.2)) ∧
      (l.foldl apply st).cells = st.cells ++ cellItems l ∧
      (l.foldl apply st).first = (st.first.or ((pointItems l).head?.map (·.1))) ∧ Fits st l := by
  induction l generalizing st with
  | nil => exact ⟨by simp [pointItems], by simp [cellItems], by simp [pointItems], trivial⟩
  | cons x l ih =>
    have h' := fun y hy => h y (List.mem_cons_of_mem x hy)
    cases x with
    | nothing =>
      obtain ⟨e1, e2, e3, e4⟩ := ih h' st hc
      exact ⟨e1, e2, e3, ⟨by intro a d r hx; exact absurd hx (by simp), e4⟩⟩
    | totalPoints => exact absurd rfl (h .totalPoints (by simp))
    | points a d r =>
      have hp : pointItems (Item.points a d r :: l) = (a, d, r) :: pointItems l := rfl
      rw [hp] at hc
      obtain ⟨e1, e2, e3, e4⟩ := ih h' (apply st (.points a d r)) (by
        refine ⟨?_, ?_⟩
        · intro p hpp
          right
          cases hq : pointItems l with
          | nil => rw [hq] at hpp; cases hpp
          | cons q m =>
            rw [hq] at hpp hc
            cases hpp
            have := hc.2.1
            simp only [apply]
            rw [this]
        · cases hq : pointItems l with
          | nil => exact trivial
          | cons q m =>
            rw [hq] at hc
            exact hc.2.2)
      rw [List.foldl_cons, hp]
      refine ⟨by rw [e1]; simp [apply], by rw [e2]; rfl, ?_, ?_, e4⟩
      · rw [e3]
        simp only [apply, List.head?_cons, Option.map_some]
        cases st.first <;> rfl
      · intro a' d' r' hx
        cases hx
        exact hc.1 (a, d, r) rfl
    | cells b =>
      obtain ⟨e1, e2, e3, e4⟩ := ih h' (apply st (.cells b)) hc
      rw [List.foldl_cons]
      refine ⟨e1, ?_, e3, ⟨by intro a d r hx; exact absurd hx (by simp), e4⟩⟩
      rw [e2]
      simp [apply, cellItems]

theorem fits_append (st : St F) (a b : List (Item F)) : Fits st (a ++ b) ↔ Fits st a ∧ Fits (a.foldl apply st) b := by
  induction a generalizing st with
  | nil => simp [Fits]
  | cons x a ih => simp only [List.cons_append, Fits, ih, List.foldl_cons, and_assoc]

theorem read_sections (io : AnsFloat F) (secs : List (List Char × Item F)) (h : ∀ s ∈ secs, Section io s.1 s.2)
    (ht : TotalsFirst (secs.map (·.2))) (hc : Consecutive (pointItems (secs.map (·.2)))) (dim : Nat)
    (hd : ∀ p ∈ pointItems (secs.map (·.2)), p.2.1 = dim) (first : Int)
    (hfirst : (pointItems (secs.map (·.2))).head?.map (·.1) = some first) :
    read io (secs.flatMap (·.1)) =
      .ok ⟨(pointItems (secs.map (·.2))).flatMap (·.2.2),
        (cellItems (secs.map (·.2))).map fun b => (b.1, b.2.map fun r => r.map (· - first))⟩ := by
  obtain ⟨A, B, hAB, hA, hB⟩ := ht
  have hpA := foldl_apply_nopoints A hA ⟨[], [], none, none⟩ rfl rfl
  have hpts : pointItems (A ++ B) = pointItems B := by
    have : pointItems (A ++ B) = pointItems A ++ pointItems B := List.filterMap_append
    rw [this, hpA.2.2, List.nil_append]
  have hcl : cellItems (A ++ B) = cellItems A ++ cellItems B := List.flatMap_append
  rw [hAB, hpts] at hc hd hfirst
  have hpB := foldl_apply_nototal B hB (A.foldl apply ⟨[], [], none, none⟩) ⟨by
    intro p _
    left
    rw [hpA.1], hc⟩
  have hfit : Fits (⟨[], [], none, none⟩ : St F) (secs.map (·.2)) := by
    rw [hAB, fits_append]
    exact ⟨hpA.2.1, hpB.2.2.2⟩
  unfold read
  rw [loop_sections io secs h _ hfit _ (by omega), hAB, List.foldl_append, hpts, hcl]
  simp only
  obtain ⟨e1, e2, e3, -⟩ := hpB
  revert e1 e2 e3
  generalize B.foldl apply (A.foldl apply ⟨[], [], none, none⟩) = st
  intro e1 e2 e3
  rw [hpA.1] at e1 e2 e3
  simp only [List.nil_append, Option.none_or] at e1 e2 e3
  rw [hfirst] at e3
  unfold finish
  have hne : pointItems B ≠ [] := by
    intro h0
    rw [h0] at hfirst
    cases hfirst
  obtain ⟨q, m, hqm⟩ := List.exists_cons_of_ne_nil hne
  have hall : ¬ (st.points = [] ∨ (st.points.all fun p => p.1 == ((st.points.map (·.1)).headD 0)) = false) := by
    rintro (h | h)
    · rw [e1, hqm] at h; simp at h
    · rw [← Bool.not_eq_true, List.all_eq_true] at h
      apply h
      intro p hp
      rw [e1] at hp ⊢
      obtain ⟨p', hp', rfl⟩ := List.mem_map.1 hp
      rw [hqm] at hp' hd ⊢
      simp only [List.map_cons, List.headD_cons, beq_iff_eq]
      rw [hd p' hp', hd q (by simp)]
  rw [if_neg hall, e3]
  simp only [e1, e2, List.flatMap_map]

end Ansys
end Meshio
