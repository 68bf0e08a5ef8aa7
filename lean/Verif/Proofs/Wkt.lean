/-
Lemmas about WKT texts.
-/
import Verif.Spec.Wkt
namespace Meshio.Wkt
open Re Spec

variable {F : Type}

/-- A character that ends a number: neither digit nor point. -/
def Stop (rest : List Char) : Prop := ∀ c, rest.head? = some c → c.isDigit = false ∧ c ≠ '.'

theorem first_sign_none {s : List Char} (h : ∀ c, s.head? = some c → c ≠ '+' ∧ c ≠ '-') : first sign s = some s := by
  refine first_opt_none (ends_chr_of_head ?_)
  intro c hc
  simp [h c hc]

theorem ends_dot {s : List Char} (h : ∀ c, s.head? = some c → c ≠ '.') : ends (lit '.') s = [] := by
  refine ends_chr_of_head ?_
  intro c hc
  simp [h c hc]

theorem first_dot_none {s : List Char} (h : ∀ c, s.head? = some c → c ≠ '.') : first (opt (lit '.')) s = some s :=
  first_opt_none (ends_dot h)

/-- The whole of a plain number is taken. -/
theorem first_float {t : List Char} (ht : Plain t) {rest : List Char} (hr : Stop rest) : first floatRe (t ++ rest) = some rest := by
  obtain ⟨sgn, d1, d2, hs, h1, h2, h⟩ := ht
  have hsign : ∀ u : List Char, (∀ c, u.head? = some c → c ≠ '+' ∧ c ≠ '-') → first sign (sgn ++ u) = some u := by
    intro u hu
    rcases hs with rfl | rfl | rfl
    · exact first_sign_none hu
    · exact first_alt_left (by simp [first, ends])
    · exact first_alt_left (by simp [first, ends])
  have hdig : ∀ c : Char, c.isDigit = true → c ≠ '+' ∧ c ≠ '-' ∧ c ≠ '.' := fun c hc =>
    ⟨ne_of_isDigit hc (by decide), ne_of_isDigit hc (by decide), ne_of_isDigit hc (by decide)⟩
  unfold floatRe
  rcases h with ⟨hne, rfl | rfl⟩ | ⟨rfl, hne, rfl⟩
  · rw [List.append_assoc]
    refine first_seq (hsign _ ?_) (first_alt_left (first_seq (first_plus_chr d1 rest hne h1 fun c hc => (hr c hc).1)
      (first_seq (first_dot_none fun c hc => (hr c hc).2) ?_)))
    · intro c hc
      cases d1 with
      | nil => exact absurd rfl hne
      | cons x d =>
        simp only [List.cons_append, List.head?_cons, Option.some.injEq] at hc
        subst hc
        have := hdig x (h1 x (by simp))
        exact ⟨this.1, this.2.1⟩
    · exact first_star_stop (ends_chr_of_head fun c hc => (hr c hc).1)
  · rw [List.append_assoc, List.append_assoc, List.cons_append]
    refine first_seq (hsign _ ?_) (first_alt_left (first_seq (first_plus_chr d1 ('.' :: (d2 ++ rest)) hne h1 ?_)
      (first_seq (s1 := d2 ++ rest) (first_alt_left (first_lit _ _)) (first_star_chr d2 rest h2 fun c hc => (hr c hc).1))))
    · intro c hc
      cases d1 with
      | nil => exact absurd rfl hne
      | cons x d =>
        simp only [List.cons_append, List.head?_cons, Option.some.injEq] at hc
        subst hc
        have := hdig x (h1 x (by simp))
        exact ⟨this.1, this.2.1⟩
    · intro c hc
      simp only [List.head?_cons, Option.some.injEq] at hc
      subst hc
      decide
  · rw [List.append_assoc, List.cons_append]
    have hd : ∀ c, ('.' :: (d2 ++ rest)).head? = some c → c.isDigit = false := by
      intro c hc
      simp only [List.head?_cons, Option.some.injEq] at hc
      subst hc
      decide
    refine first_seq (hsign _ ?_) ?_
    · intro c hc
      simp only [List.head?_cons, Option.some.injEq] at hc
      subst hc
      decide
    · have e : ends (seq (plus dig) (seq (opt (lit '.')) (star dig))) ('.' :: (d2 ++ rest)) = [] := by
        refine ends_seq_nil ?_
        intro x hx
        exfalso
        have h0 : ends (plus dig) ('.' :: (d2 ++ rest)) = [] := by
          unfold plus
          refine ends_seq_nil ?_
          intro y hy
          unfold dig at hy
          rw [ends_chr_of_head hd] at hy
          simp at hy
        rw [h0] at hx
        simp at hx
      rw [first_alt_right e]
      exact first_seq (first_star_stop (ends_chr_of_head hd)) (first_seq (s1 := d2 ++ rest) (first_alt_left (first_lit _ _))
        (first_plus_chr d2 rest hne h2 fun c hc => (hr c hc).1))

/-- No number begins with another character. -/
theorem ends_float_nil {s : List Char} (h : ∀ c, s.head? = some c → c.isDigit = false ∧ c ≠ '.' ∧ c ≠ '+' ∧ c ≠ '-') :
    ends floatRe s = [] := by
  cases s with
  | nil => decide
  | cons c s =>
    obtain ⟨h1, h2, h3, h4⟩ := h c rfl
    have hstar : ends (star dig) (c :: s) = [c :: s] := by
      rw [ends, List.length_cons, starEnds]
      unfold dig
      rw [ends, h1]
      rfl
    unfold floatRe sign opt plus
    simp only [ends, dig, lit] at hstar ⊢
    simp [h1, h2, h3, h4, ends] at hstar ⊢
    rw [hstar]
    simp [h1, h2, ends]

theorem plain_ne_nil {t : List Char} (ht : Plain t) : t ≠ [] := by
  obtain ⟨sgn, d1, d2, hs, h1, h2, h⟩ := ht
  rcases h with ⟨hne, rfl | rfl⟩ | ⟨rfl, hne, rfl⟩
  · simp [hne]
  · simp
  · simp

theorem not_matches_float : ¬ Matches floatRe [] := by
  intro h
  unfold floatRe at h
  have key : ∀ r : Re, ∀ u : List Char, Matches r u → ∀ a, r = chr a → u.length = 1 := by
    intro r u hm a e
    cases hm with
    | chr _ => rfl
    | _ => cases e
  have seqInv : ∀ a b u, Matches (seq a b) u → ∃ v w, u = v ++ w ∧ Matches a v ∧ Matches b w := by
    intro a b u hm
    cases hm with
    | seq h1 h2 => exact ⟨_, _, rfl, h1, h2⟩
  obtain ⟨v, w, e, -, h2⟩ := seqInv _ _ _ h
  have hw : w = [] := (List.append_eq_nil_iff.1 e.symm).2
  subst hw
  have plusNe : ¬ Matches (plus dig) [] := by
    intro hp
    obtain ⟨v, w, e, h1, -⟩ := seqInv _ _ _ hp
    have hv : v = [] := (List.append_eq_nil_iff.1 e.symm).1
    subst hv
    have := key _ _ h1 _ rfl
    cases this
  cases h2 with
  | altl h2 =>
    obtain ⟨v, w, e, h1, -⟩ := seqInv _ _ _ h2
    have hv : v = [] := (List.append_eq_nil_iff.1 e.symm).1
    subst hv
    exact plusNe h1
  | altr h2 =>
    obtain ⟨v, w, e, -, h3⟩ := seqInv _ _ _ h2
    have hw : w = [] := (List.append_eq_nil_iff.1 e.symm).2
    subst hw
    obtain ⟨v, w, e, -, h3⟩ := seqInv _ _ _ h3
    have hw : w = [] := (List.append_eq_nil_iff.1 e.symm).2
    subst hw
    exact plusNe h3

theorem matches_seq_nil {a b : Re} (h : Matches (seq a b) []) : Matches a [] ∧ Matches b [] := by
  have seqInv : ∀ u, Matches (seq a b) u → ∃ v w, u = v ++ w ∧ Matches a v ∧ Matches b w := by
    intro u hm
    cases hm with
    | seq h1 h2 => exact ⟨_, _, rfl, h1, h2⟩
  obtain ⟨v, w, e, h1, h2⟩ := seqInv _ h
  obtain ⟨rfl, rfl⟩ := List.append_eq_nil_iff.1 e.symm
  exact ⟨h1, h2⟩

theorem not_matches_point : ¬ Matches pointRe [] := fun h => not_matches_float (matches_seq_nil h).1

theorem not_matches_tri : ¬ Matches triRe [] := by
  intro h
  have := (matches_seq_nil h).1
  have key : ∀ u, Matches (lit '(') u → u.length = 1 := by
    intro u hm
    cases hm with
    | chr _ => rfl
  have := key _ this
  cases this

/-! ### Corners -/

theorem first_blank {w rest : List Char} (hw : Blank w) (hr : ∀ c, rest.head? = some c → isWs c = false) :
    first (star ws) (w ++ rest) = some rest := first_star_chr w rest hw hr

theorem first_blanks {w rest : List Char} (hne : w ≠ []) (hw : Blank w) (hr : ∀ c, rest.head? = some c → isWs c = false) :
    first (plus ws) (w ++ rest) = some rest := first_plus_chr w rest hne hw hr

/-- The first character of a plain number. -/
theorem plain_head {t : List Char} (ht : Plain t) : ∃ c r, t = c :: r ∧ (c.isDigit = true ∨ c = '.' ∨ c = '+' ∨ c = '-') := by
  obtain ⟨sgn, d1, d2, hs, h1, h2, h⟩ := ht
  rcases hs with rfl | rfl | rfl
  · rcases h with ⟨hne, h⟩ | ⟨rfl, hne, rfl⟩
    · cases d1 with
      | nil => exact absurd rfl hne
      | cons c d =>
        rcases h with rfl | rfl
        · exact ⟨c, d, rfl, Or.inl (h1 c (by simp))⟩
        · exact ⟨c, d ++ '.' :: d2, rfl, Or.inl (h1 c (by simp))⟩
    · exact ⟨'.', d2, rfl, by simp⟩
  · rcases h with ⟨hne, rfl | rfl⟩ | ⟨rfl, hne, rfl⟩
    · exact ⟨'+', d1, rfl, by simp⟩
    · exact ⟨'+', d1 ++ '.' :: d2, rfl, by simp⟩
    · exact ⟨'+', '.' :: d2, rfl, by simp⟩
  · rcases h with ⟨hne, rfl | rfl⟩ | ⟨rfl, hne, rfl⟩
    · exact ⟨'-', d1, rfl, by simp⟩
    · exact ⟨'-', d1 ++ '.' :: d2, rfl, by simp⟩
    · exact ⟨'-', '.' :: d2, rfl, by simp⟩

theorem plain_head_notWs {t : List Char} (ht : Plain t) (rest : List Char) :
    ∀ c, (t ++ rest).head? = some c → isWs c = false := by
  obtain ⟨x, r, rfl, h⟩ := plain_head ht
  intro c hc
  simp only [List.cons_append, List.head?_cons, Option.some.injEq] at hc
  subst hc
  rcases h with h | rfl | rfl | rfl
  · exact isWs_false_of_isDigit h
  · decide
  · decide
  · decide

theorem stop_blank {w : List Char} (hw : Blank w) {rest : List Char} (hr : Stop rest) : Stop (w ++ rest) := by
  cases w with
  | nil => exact hr
  | cons c w =>
    intro d hd
    simp only [List.cons_append, List.head?_cons, Option.some.injEq] at hd
    subst hd
    have h := hw c (by simp)
    refine ⟨?_, ?_⟩
    · cases hd : c.isDigit with
      | false => rfl
      | true => rw [isWs_false_of_isDigit hd] at h; cases h
    · intro e; subst e; exact absurd h (by decide)

/-- The text after a corner: blanks and a comma or parenthesis. -/
def After (rest : List Char) : Prop := ∃ w c r, rest = w ++ c :: r ∧ Blank w ∧ (c = ',' ∨ c = ')')

theorem After.stop {rest : List Char} (h : After rest) : Stop rest := by
  obtain ⟨w, c, r, rfl, hw, hc⟩ := h
  refine stop_blank hw ?_
  intro d hd
  simp only [List.head?_cons, Option.some.injEq] at hd
  subst hd
  rcases hc with rfl | rfl <;> decide

theorem After.noFourth {rest : List Char} (h : After rest) : ends (seq (plus ws) floatRe) rest = [] := by
  obtain ⟨w, c, r, rfl, hw, hc⟩ := h
  refine ends_seq_nil ?_
  intro e he
  obtain ⟨u, hu, hub⟩ := ends_plus_chr_mem he
  refine ends_float_nil ?_
  have hcn : c.isDigit = false ∧ c ≠ '.' ∧ c ≠ '+' ∧ c ≠ '-' := by rcases hc with rfl | rfl <;> decide
  have hcw : isWs c = false := by rcases hc with rfl | rfl <;> decide
  intro d hd
  rcases List.append_eq_append_iff.1 hu with ⟨a, h1, h2⟩ | ⟨a, h1, h2⟩
  · cases a with
    | nil =>
      rw [List.nil_append] at h2
      rw [← h2] at hd
      simp only [List.head?_cons, Option.some.injEq] at hd
      subst hd
      exact hcn
    | cons x a =>
      rw [List.cons_append] at h2
      injection h2 with h3 h4
      exfalso
      have := hub c (by rw [h1, h3]; simp)
      rw [hcw] at this
      cases this
  · cases a with
    | nil =>
      rw [List.nil_append] at h2
      rw [h2] at hd
      simp only [List.head?_cons, Option.some.injEq] at hd
      subst hd
      exact hcn
    | cons x a =>
      rw [h2] at hd
      simp only [List.cons_append, List.head?_cons, Option.some.injEq] at hd
      subst hd
      have hx := hw x (by rw [h1]; simp)
      refine ⟨?_, ?_, ?_, ?_⟩
      · cases hd : x.isDigit with
        | false => rfl
        | true => rw [isWs_false_of_isDigit hd] at hx; cases hx
      all_goals intro e; subst e; exact absurd hx (by decide)

theorem first_point (fmt : F → List Char) (c : WktCorner F) (h : c.Ok fmt) {rest : List Char} (hr : After rest) :
    first pointRe (c.text fmt ++ rest) = some rest := by
  obtain ⟨x, l⟩ := c
  obtain ⟨hcount, hb, hpx, hp⟩ := h
  simp only at hcount hb hpx hp
  unfold pointRe WktCorner.text
  simp only [seqs]
  have step : ∀ (w : List Char) (y : F) (u : List Char), Blank w → w ≠ [] → Stop (w ++ (fmt y ++ u)) := by
    intro w y u hw hne
    cases w with
    | nil => exact absurd rfl hne
    | cons c w =>
      have : Stop ((c :: w) ++ []) := stop_blank hw (by intro d hd; simp at hd)
      intro d hd
      exact this d (by simpa using hd)
  rcases hcount with hl | hl
  · match l, hl with
    | [(w1, y), (w2, z)], _ =>
      have hb1 := hb (w1, y) (by simp)
      have hb2 := hb (w2, z) (by simp)
      have hp1 := hp (w1, y) (by simp)
      have hp2 := hp (w2, z) (by simp)
      simp only at hb1 hb2 hp1 hp2
      simp only [List.flatMap_cons, List.flatMap_nil, List.append_nil, List.append_assoc]
      refine first_seq (first_float hpx (step w1 y _ hb1.1 hb1.2)) ?_
      refine first_seq (first_blanks hb1.2 hb1.1 (plain_head_notWs hp1 _)) ?_
      refine first_seq (first_float hp1 (step w2 z _ hb2.1 hb2.2)) ?_
      refine first_seq (first_blanks hb2.2 hb2.1 (plain_head_notWs hp2 _)) ?_
      refine first_seq (first_float hp2 hr.stop) ?_
      exact first_seq (first_opt_none hr.noFourth) (first_eps _)
  · match l, hl with
    | [(w1, y), (w2, z), (w3, t)], _ =>
      have hb1 := hb (w1, y) (by simp)
      have hb2 := hb (w2, z) (by simp)
      have hb3 := hb (w3, t) (by simp)
      have hp1 := hp (w1, y) (by simp)
      have hp2 := hp (w2, z) (by simp)
      have hp3 := hp (w3, t) (by simp)
      simp only at hb1 hb2 hb3 hp1 hp2 hp3
      simp only [List.flatMap_cons, List.flatMap_nil, List.append_nil, List.append_assoc]
      refine first_seq (first_float hpx (step w1 y _ hb1.1 hb1.2)) ?_
      refine first_seq (first_blanks hb1.2 hb1.1 (plain_head_notWs hp1 _)) ?_
      refine first_seq (first_float hp1 (step w2 z _ hb2.1 hb2.2)) ?_
      refine first_seq (first_blanks hb2.2 hb2.1 (plain_head_notWs hp2 _)) ?_
      refine first_seq (first_float hp2 (step w3 t _ hb3.1 hb3.2)) ?_
      refine first_seq (s1 := rest) (first_alt_left ?_) (first_eps _)
      exact first_seq (first_blanks hb3.2 hb3.1 (plain_head_notWs hp3 _)) (first_float hp3 hr.stop)

/-! ### Polygons -/

theorem ends_point_nil {s : List Char} (h : ∀ c, s.head? = some c → c.isDigit = false ∧ c ≠ '.' ∧ c ≠ '+' ∧ c ≠ '-') :
    ends pointRe s = [] := by
  refine ends_seq_nil ?_
  intro e he
  rw [ends_float_nil h] at he
  simp at he

theorem corner_head (fmt : F → List Char) (c : WktCorner F) (h : c.Ok fmt) (rest : List Char) :
    ∀ d, (c.text fmt ++ rest).head? = some d → isWs d = false := by
  unfold WktCorner.text
  rw [List.append_assoc]
  exact plain_head_notWs h.plain.1 _

theorem notWs_of {c : Char} (hc : isWs c = false) (s : List Char) : ∀ d, (c :: s).head? = some d → isWs d = false := by
  intro d hd
  simp only [List.head?_cons, Option.some.injEq] at hd
  subst hd
  exact hc

theorem first_next (fmt : F → List Char) (c : WktCorner F) (h : c.Ok fmt) {w w' rest : List Char} (hw : Blank w) (hw' : Blank w')
    (hr : After rest) : first nextRe (w ++ ',' :: (w' ++ (c.text fmt ++ rest))) = some rest := by
  unfold nextRe
  simp only [seqs]
  exact first_seq (first_blank hw (notWs_of (by decide) _)) (first_seq (first_lit _ _)
    (first_seq (first_blank hw' (corner_head fmt c h _)) (first_seq (first_point fmt c h hr) (first_eps _))))

theorem first_tri (fmt : F → List Char) (t : WktTri F) (h : t.Ok fmt) (rest : List Char) :
    first triRe (t.text fmt ++ rest) = some rest := by
  obtain ⟨b1, b2, b3, b4, b5, b6, b7, b8, b9, b10⟩ := h.blanks
  unfold triRe WktTri.text
  simp only [seqs, List.cons_append, List.append_assoc, List.nil_append]
  refine first_seq (first_lit _ _) ?_
  refine first_seq (first_blank b1 (notWs_of (by decide) _)) ?_
  refine first_seq (first_lit _ _) ?_
  refine first_seq (first_blank b2 (corner_head fmt _ h.a _)) ?_
  refine first_seq (first_point fmt _ h.a ⟨_, ',', _, rfl, b3, by simp⟩) ?_
  refine first_seq (first_next fmt _ h.b b3 b4 ⟨_, ',', _, rfl, b5, by simp⟩) ?_
  refine first_seq (first_next fmt _ h.c b5 b6 ⟨_, ',', _, rfl, b7, by simp⟩) ?_
  refine first_seq (first_next fmt _ h.d b7 b8 ⟨_, ')', _, rfl, b9, by simp⟩) ?_
  refine first_seq (first_blank b9 (notWs_of (by decide) _)) ?_
  refine first_seq (first_lit _ _) ?_
  refine first_seq (first_blank b10 (notWs_of (by decide) _)) ?_
  exact first_seq (first_lit _ _) (first_eps _)

/-- Characters before a number. -/
def Skip (u : List Char) : Prop := ∀ c ∈ u, c.isDigit = false ∧ c ≠ '.' ∧ c ≠ '+' ∧ c ≠ '-'

theorem blank_skip {w : List Char} (h : Blank w) : Skip w := by
  intro c hc
  have hx := h c hc
  refine ⟨?_, ?_, ?_, ?_⟩
  · cases hd : c.isDigit with
    | false => rfl
    | true => rw [isWs_false_of_isDigit hd] at hx; cases hx
  all_goals intro e; subst e; exact absurd hx (by decide)

theorem find_skip_point (u s : List Char) (h : Skip u) : findIter pointRe (u ++ s) = findIter pointRe s := by
  induction u with
  | nil => rfl
  | cons c u ih =>
    rw [List.cons_append, findIter_miss (ends_point_nil ?_), ih fun d hd => h d (by simp [hd])]
    intro d hd
    simp only [List.head?_cons, Option.some.injEq] at hd
    subst hd
    exact h c (by simp)

theorem find_skip_float (u s : List Char) (h : Skip u) : findIter floatRe (u ++ s) = findIter floatRe s := by
  induction u with
  | nil => rfl
  | cons c u ih =>
    rw [List.cons_append, findIter_miss (ends_float_nil ?_), ih fun d hd => h d (by simp [hd])]
    intro d hd
    simp only [List.head?_cons, Option.some.injEq] at hd
    subst hd
    exact h c (by simp)

theorem skip_cons {c : Char} (hc : c.isDigit = false ∧ c ≠ '.' ∧ c ≠ '+' ∧ c ≠ '-') {u : List Char} (h : Skip u) : Skip (c :: u) := by
  intro d hd
  rcases List.mem_cons.1 hd with rfl | hd
  · exact hc
  · exact h d hd

theorem skip_append {u v : List Char} (h1 : Skip u) (h2 : Skip v) : Skip (u ++ v) := by
  intro d hd
  rcases List.mem_append.1 hd with hd | hd
  · exact h1 d hd
  · exact h2 d hd

/-- The corners found in a polygon. -/
theorem find_points (fmt : F → List Char) (t : WktTri F) (h : t.Ok fmt) :
    findIter pointRe (t.text fmt) = [t.a.text fmt, t.b.text fmt, t.c.text fmt, t.d.text fmt] := by
  obtain ⟨b1, b2, b3, b4, b5, b6, b7, b8, b9, b10⟩ := h.blanks
  have hopen : ('('.isDigit = false ∧ '(' ≠ '.' ∧ '(' ≠ '+' ∧ '(' ≠ '-') := by decide
  have hclose : (')'.isDigit = false ∧ ')' ≠ '.' ∧ ')' ≠ '+' ∧ ')' ≠ '-') := by decide
  have hcomma : (','.isDigit = false ∧ ',' ≠ '.' ∧ ',' ≠ '+' ∧ ',' ≠ '-') := by decide
  unfold WktTri.text
  have e1 : ∀ X, '(' :: (t.w1 ++ '(' :: (t.w2 ++ X)) = ('(' :: (t.w1 ++ ('(' :: t.w2))) ++ X := by intro X; simp
  have e2 : ∀ (w w' X : List Char), w ++ ',' :: (w' ++ X) = (w ++ ',' :: w') ++ X := by intro w w' X; simp
  rw [e1, find_skip_point _ _ (skip_cons hopen (skip_append (blank_skip b1) (skip_cons hopen (blank_skip b2)))),
    findIter_hit not_matches_point (first_point fmt _ h.a ⟨_, ',', _, rfl, b3, by simp⟩)]
  congr 1
  rw [e2, find_skip_point _ _ (skip_append (blank_skip b3) (skip_cons hcomma (blank_skip b4))),
    findIter_hit not_matches_point (first_point fmt _ h.b ⟨_, ',', _, rfl, b5, by simp⟩)]
  congr 1
  rw [e2, find_skip_point _ _ (skip_append (blank_skip b5) (skip_cons hcomma (blank_skip b6))),
    findIter_hit not_matches_point (first_point fmt _ h.c ⟨_, ',', _, rfl, b7, by simp⟩)]
  congr 1
  rw [e2, find_skip_point _ _ (skip_append (blank_skip b7) (skip_cons hcomma (blank_skip b8))),
    findIter_hit not_matches_point (first_point fmt _ h.d ⟨_, ')', _, rfl, b9, by simp⟩)]
  congr 1
  have e3 : t.w3 ++ ')' :: (t.w4 ++ [')']) = (t.w3 ++ ')' :: (t.w4 ++ [')'])) ++ [] := by simp
  rw [e3, find_skip_point _ _ (skip_append (blank_skip b9) (skip_cons hclose (skip_append (blank_skip b10) (skip_cons hclose (by intro c hc; simp at hc)))))]
  rfl

/-- The numbers found in a corner. -/
theorem find_floats (fmt : F → List Char) (c : WktCorner F) (h : c.Ok fmt) : findIter floatRe (c.text fmt) = c.coords.map fmt := by
  obtain ⟨x, l⟩ := c
  obtain ⟨-, hb, hpx, hp⟩ := h
  unfold WktCorner.text WktCorner.coords
  simp only at hb hpx hp ⊢
  induction l generalizing x with
  | nil =>
    rw [List.flatMap_nil]
    have := findIter_hit not_matches_float (first_float hpx (rest := []) (by intro c hc; simp at hc))
    rw [this]
    rfl
  | cons r l ih =>
    have hb1 := hb r (by simp)
    have hstop : Stop ((r :: l).flatMap fun r => r.1 ++ fmt r.2) := by
      rw [List.flatMap_cons, List.append_assoc]
      obtain ⟨w, y⟩ := r
      cases w with
      | nil => exact absurd rfl hb1.2
      | cons c w =>
        have : Stop ((c :: w) ++ []) := stop_blank hb1.1 (by intro d hd; simp at hd)
        intro d hd
        exact this d (by simpa using hd)
    rw [findIter_hit not_matches_float (first_float hpx hstop), List.flatMap_cons, List.append_assoc,
      find_skip_float _ _ (blank_skip hb1.1), ih r.2 (fun q hq => hb q (by simp [hq])) (hp r (by simp)) (fun q hq => hp q (by simp [hq]))]
    simp

theorem floats_ok (io : FloatIO F) (l : List F) : mapRes (toFloat io.parse) (l.map io.fmt) = .ok l := by
  induction l with
  | nil => rfl
  | cons x l ih => rw [List.map_cons, mapRes, ih, toFloat, io.parse_fmt]

/-! ### Lists of polygons -/

theorem ends_tri_nil {s : List Char} (h : ∀ c, s.head? = some c → c ≠ '(') : ends triRe s = [] := by
  refine ends_seq_nil ?_
  intro e he
  unfold lit at he
  rw [ends_chr_of_head (by intro c hc; simp [h c hc])] at he
  simp at he

theorem blank_split {u w a b : List Char} {c d : Char} (hu : Blank u) (hw : Blank w) (hc : isWs c = false) (hd : isWs d = false)
    (h : u ++ c :: a = w ++ d :: b) : c = d ∧ a = b := by
  induction u generalizing w with
  | nil =>
    cases w with
    | nil => injection h with h1 h2; exact ⟨h1, h2⟩
    | cons x w =>
      injection h with h1 h2
      have := hw x (by simp)
      rw [← h1, hc] at this
      cases this
  | cons y u ih =>
    cases w with
    | nil =>
      injection h with h1 h2
      have := hu y (by simp)
      rw [h1, hd] at this
      cases this
    | cons x w =>
      rw [List.cons_append, List.cons_append] at h
      injection h with h1 h2
      exact ih (fun c hc => hu c (by simp [hc])) (fun c hc => hw c (by simp [hc])) h2

theorem ends_lit_mem {c : Char} {s e : List Char} (h : e ∈ ends (lit c) s) : s = c :: e := by
  cases s with
  | nil => simp [lit, ends] at h
  | cons x s =>
    unfold lit at h
    rw [ends] at h
    split at h
    · next hx =>
      rw [List.mem_singleton] at h
      rw [h, of_decide_eq_true hx]
    · simp at h

/-- The outer parenthesis is not the beginning of a polygon. -/
theorem ends_tri_outer {w : List Char} (hw : Blank w) {d : Char} (X : List Char)
    (h : d = ')' ∨ (d = '(' ∧ ∃ w1 Y, Blank w1 ∧ X = w1 ++ '(' :: Y)) : ends triRe ('(' :: (w ++ d :: X)) = [] := by
  unfold triRe
  simp only [seqs]
  refine ends_seq_nil ?_
  intro e1 he1
  have h1 := ends_lit_mem he1
  injection h1 with _ h1
  subst h1
  refine ends_seq_nil ?_
  intro e2 he2
  obtain ⟨u, hu, hub⟩ := ends_star_chr_mem he2
  refine ends_seq_nil ?_
  intro e3 he3
  have h3 := ends_lit_mem he3
  subst h3
  have hdw : isWs d = false := by rcases h with rfl | ⟨rfl, -⟩ <;> decide
  obtain ⟨hd, hX⟩ := blank_split hw hub hdw (by decide) hu
  rcases h with rfl | ⟨rfl, w1, Y, hw1, rfl⟩
  · exact absurd hd (by decide)
  · subst hX
    refine ends_seq_nil ?_
    intro e4 he4
    obtain ⟨u', hu', hub'⟩ := ends_star_chr_mem he4
    have : ends pointRe e4 = [] := by
      refine ends_point_nil ?_
      cases e4 with
      | nil => intro c hc; simp at hc
      | cons x e4 =>
        intro c hc
        simp only [List.head?_cons, Option.some.injEq] at hc
        subst hc
        cases hxw : isWs x with
        | true => exact blank_skip (w := [x]) (by intro c hc; rw [List.mem_singleton] at hc; subst hc; exact hxw) x (by simp)
        | false =>
          obtain ⟨h5, -⟩ := blank_split hw1 hub' (by decide) hxw hu'
          subst h5
          decide
    rw [ends, this]
    rfl

/-- One polygon with the blanks before it and what follows. -/
def itemRe : Re := seqs [star ws, triRe, star ws, opt (lit ',')]

theorem tri_head (fmt : F → List Char) (t : WktTri F) : ∃ X, t.text fmt = '(' :: (t.w1 ++ '(' :: X) := ⟨_, rfl⟩

theorem items_head (fmt : F → List Char) (l : List (WktTri F × List Char × Option (List Char))) (tail : List Char) :
    ∃ c r, l.flatMap (wktItem fmt) ++ ')' :: tail = c :: r ∧ (c = '(' ∨ c = ')') := by
  cases l with
  | nil => exact ⟨')', tail, rfl, Or.inr rfl⟩
  | cons t l =>
    obtain ⟨X, hX⟩ := tri_head fmt t.1
    rw [List.flatMap_cons, wktItem, hX]
    exact ⟨'(', _, rfl, Or.inl rfl⟩

theorem ends_item_nil {lead : List Char} (hl : Blank lead) (tail : List Char) : ends itemRe (lead ++ ')' :: tail) = [] := by
  unfold itemRe
  simp only [seqs]
  refine ends_seq_nil ?_
  intro e he
  obtain ⟨u, hu, hub⟩ := ends_star_chr_mem he
  have : ends triRe e = [] := by
    refine ends_tri_nil ?_
    intro c hc e'
    subst e'
    cases e with
    | nil => simp at hc
    | cons x e =>
      simp only [List.head?_cons, Option.some.injEq] at hc
      subst hc
      obtain ⟨h1, -⟩ := blank_split hl hub (by decide) (by decide) hu
      exact absurd h1 (by decide)
  rw [ends, this]
  rfl

theorem first_items (fmt : F → List Char) (l : List (WktTri F × List Char × Option (List Char)))
    (h : ∀ r ∈ l, r.1.Ok fmt ∧ Blank r.2.1 ∧ ∀ w, r.2.2 = some w → Blank w) (lead : List Char) (hl : Blank lead) (tail : List Char) :
    ∃ lead', Blank lead' ∧
      first (star itemRe) (lead ++ (l.flatMap (wktItem fmt) ++ ')' :: tail)) = some (lead' ++ ')' :: tail) := by
  induction l generalizing lead with
  | nil => exact ⟨lead, hl, first_star_stop (ends_item_nil hl tail)⟩
  | cons t l ih =>
    obtain ⟨ht, hw, hw'⟩ := h t (by simp)
    obtain ⟨X, hX⟩ := tri_head fmt t.1
    have hwsTri : ∀ Z c, (t.1.text fmt ++ Z).head? = some c → isWs c = false := by
      intro Z c hc
      rw [hX] at hc
      simp only [List.cons_append, List.head?_cons, Option.some.injEq] at hc
      subst hc
      decide
    cases ho : t.2.2 with
    | none =>
      obtain ⟨lead', h1, h2⟩ := ih (fun r hr => h r (by simp [hr])) [] (by intro c hc; simp at hc)
      refine ⟨lead', h1, ?_⟩
      refine first_star_step (s1 := l.flatMap (wktItem fmt) ++ ')' :: tail) ?_ ?_ h2
      · rw [List.flatMap_cons, wktItem, ho]
        simp only [List.append_nil, List.append_assoc]
        unfold itemRe
        simp only [seqs]
        obtain ⟨c, r, hc, hcc⟩ := items_head fmt l tail
        refine first_seq (first_blank hl (hwsTri _)) (first_seq (first_tri fmt _ ht _) (first_seq (first_blank hw ?_)
          (first_seq (first_opt_none ?_) (first_eps _))))
        · rw [hc]
          exact notWs_of (by rcases hcc with rfl | rfl <;> decide) _
        · rw [hc]
          refine ends_chr_of_head ?_
          intro d hd
          simp only [List.head?_cons, Option.some.injEq] at hd
          subst hd
          rcases hcc with rfl | rfl <;> decide
      · rw [List.flatMap_cons, wktItem, hX]
        simp
        omega
    | some w =>
      obtain ⟨lead', h1, h2⟩ := ih (fun r hr => h r (by simp [hr])) w (hw' w ho)
      refine ⟨lead', h1, ?_⟩
      refine first_star_step (s1 := w ++ (l.flatMap (wktItem fmt) ++ ')' :: tail)) ?_ ?_ h2
      · rw [List.flatMap_cons, wktItem, ho]
        simp only [List.append_assoc, List.cons_append]
        unfold itemRe
        simp only [seqs]
        exact first_seq (first_blank hl (hwsTri _)) (first_seq (first_tri fmt _ ht _) (first_seq (first_blank hw (notWs_of (by decide) _))
          (first_seq (first_alt_left (first_lit _ _)) (first_eps _))))
      · rw [List.flatMap_cons, wktItem, hX, ho]
        simp
        omega

theorem find_skip_tri (u s : List Char) (h : '(' ∉ u) : findIter triRe (u ++ s) = findIter triRe s := by
  induction u with
  | nil => rfl
  | cons c u ih =>
    rw [List.cons_append, findIter_miss (ends_tri_nil ?_), ih fun hd => h (by simp [hd])]
    intro d hd e
    simp only [List.head?_cons, Option.some.injEq] at hd
    subst hd
    exact h (by simp [e])

theorem blank_noParen {w : List Char} (h : Blank w) : '(' ∉ w := by
  intro hm
  exact absurd (h _ hm) (by decide)

theorem find_items (fmt : F → List Char) (l : List (WktTri F × List Char × Option (List Char)))
    (h : ∀ r ∈ l, r.1.Ok fmt ∧ Blank r.2.1 ∧ ∀ w, r.2.2 = some w → Blank w) :
    findIter triRe (l.flatMap (wktItem fmt) ++ [')']) = l.map fun r => r.1.text fmt := by
  induction l with
  | nil => exact (by decide : findIter triRe [')'] = [])
  | cons t l ih =>
    obtain ⟨ht, hw, hw'⟩ := h t (by simp)
    rw [List.flatMap_cons, wktItem, List.append_assoc, List.append_assoc, findIter_hit not_matches_tri (first_tri fmt _ ht _),
      List.append_assoc, find_skip_tri _ _ (blank_noParen hw), List.map_cons]
    congr 1
    cases ho : t.2.2 with
    | none => exact ih fun r hr => h r (by simp [hr])
    | some w =>
      simp only
      rw [find_skip_tri, ih fun r hr => h r (by simp [hr])]
      intro hm
      rcases List.mem_cons.1 hm with hm | hm
      · exact absurd hm (by decide)
      · exact blank_noParen (hw' w ho) hm

/-- The match of a whole text. -/
theorem first_tin (fmt : F → List Char) (t : WktTin F) (h : t.Ok fmt) (tail : List Char) :
    first tinRe ('T' :: 'I' :: 'N' :: (t.w1 ++ '(' :: (t.w2 ++ (t.tris.flatMap (wktItem fmt) ++ ')' :: tail)))) = some tail := by
  obtain ⟨-, b1, b2⟩ := h.blanks
  unfold tinRe
  simp only [seqs]
  obtain ⟨lead', hl, hf⟩ := first_items fmt t.tris h.tris t.w2 b2 tail
  exact first_seq (first_lit _ _) (first_seq (first_lit _ _) (first_seq (first_lit _ _) (first_seq (first_blank b1 (notWs_of (by decide) _))
    (first_seq (first_lit _ _) (first_seq hf (first_seq (first_blank hl (notWs_of (by decide) _)) (first_seq (first_lit _ _) (first_eps _))))))))

theorem find_tin (fmt : F → List Char) (t : WktTin F) (h : t.Ok fmt) :
    findIter triRe ('T' :: 'I' :: 'N' :: (t.w1 ++ '(' :: (t.w2 ++ (t.tris.flatMap (wktItem fmt) ++ [')'])))) =
      t.tris.map fun r => r.1.text fmt := by
  obtain ⟨-, b1, b2⟩ := h.blanks
  have e : ∀ X, 'T' :: 'I' :: 'N' :: (t.w1 ++ X) = ('T' :: 'I' :: 'N' :: t.w1) ++ X := fun X => rfl
  rw [e, find_skip_tri _ _ (by
    intro hm
    simp only [List.mem_cons] at hm
    rcases hm with hm | hm | hm | hm
    · exact absurd hm (by decide)
    · exact absurd hm (by decide)
    · exact absurd hm (by decide)
    · exact blank_noParen b1 hm)]
  rw [findIter_miss, find_skip_tri _ _ (blank_noParen b2), find_items fmt _ h.tris]
  cases hl : t.tris with
  | nil => exact ends_tri_outer b2 [] (Or.inl rfl)
  | cons r l =>
    obtain ⟨X, hX⟩ := tri_head fmt r.1
    have hr := (h.tris r (by rw [hl]; simp)).1
    rw [List.flatMap_cons, wktItem, hX]
    simp only [List.cons_append, List.append_assoc]
    exact ends_tri_outer b2 _ (Or.inr ⟨rfl, r.1.w1, _, hr.blanks.1, rfl⟩)

/-! ### Numbering the corners -/

theorem intern_spec [DecidableEq F] (pts : List (List F)) (p : List F) (hn : pts.Nodup) :
    pts <+: (intern pts p).1 ∧ (intern pts p).1.Nodup ∧ (intern pts p).1[(intern pts p).2]? = some p ∧
      ∀ q ∈ (intern pts p).1, q ∈ pts ∨ q = p := by
  unfold intern
  by_cases h : p ∈ pts
  · rw [if_pos h]
    refine ⟨List.prefix_refl _, hn, ?_, fun q hq => Or.inl hq⟩
    have := List.idxOf_lt_length_iff.2 h
    rw [List.getElem?_eq_getElem this, List.getElem_idxOf]
  · rw [if_neg h]
    refine ⟨List.prefix_append _ _, ?_, ?_, ?_⟩
    · rw [List.nodup_append]
      refine ⟨hn, by simp, ?_⟩
      intro a ha b hb e
      rw [List.mem_singleton] at hb
      subst hb
      subst e
      exact h ha
    · simp
    · intro q hq
      rcases List.mem_append.1 hq with hq | hq
      · exact Or.inl hq
      · exact Or.inr (List.mem_singleton.1 hq)

theorem getElem?_of_prefix {α : Type} {l l' : List α} (h : l <+: l') {i : Nat} {a : α} (hi : l[i]? = some a) : l'[i]? = some a := by
  obtain ⟨t, rfl⟩ := h
  have : i < l.length := by
    rcases Nat.lt_or_ge i l.length with h | h
    · exact h
    · rw [List.getElem?_eq_none h] at hi; cases hi
  rw [List.getElem?_append_left this]
  exact hi

theorem addPoint_ok [DecidableEq F] (io : FloatIO F) (st : List (List F) × List Nat) (c : WktCorner F) (h : c.Ok io.fmt) :
    addPoint io.parse st (c.text io.fmt) = .ok ((intern st.1 c.coords).1, st.2 ++ [(intern st.1 c.coords).2]) := by
  unfold addPoint
  rw [find_floats io.fmt c h, floats_ok]

/-- One polygon: its corners are among the points afterwards, at the numbers that are stored. -/
theorem addTri_ok [DecidableEq F] (io : FloatIO F) (st : Out F) (hn : st.points.Nodup) (t : WktTri F) (h : t.Ok io.fmt) :
    (t.d.coords ≠ t.a.coords → addTri io.parse st (t.text io.fmt) = .error .valueError) ∧
    (t.d.coords = t.a.coords → ∃ pts row, addTri io.parse st (t.text io.fmt) = .ok ⟨pts, st.cells ++ [row]⟩ ∧
      st.points <+: pts ∧ pts.Nodup ∧ row.map (fun i => pts[i]?) = t.corners.map some ∧
      ∀ q ∈ pts, q ∈ st.points ∨ q ∈ t.corners) := by
  obtain ⟨p1, n1, g1, m1⟩ := intern_spec st.points t.a.coords hn
  obtain ⟨p2, n2, g2, m2⟩ := intern_spec (intern st.points t.a.coords).1 t.b.coords n1
  obtain ⟨p3, n3, g3, m3⟩ := intern_spec (intern (intern st.points t.a.coords).1 t.b.coords).1 t.c.coords n2
  obtain ⟨p4, n4, g4, m4⟩ := intern_spec (intern (intern (intern st.points t.a.coords).1 t.b.coords).1 t.c.coords).1 t.d.coords n3
  have hrun : foldRes (addPoint io.parse) (st.points, []) (findIter pointRe (t.text io.fmt)) =
      .ok ((intern (intern (intern (intern st.points t.a.coords).1 t.b.coords).1 t.c.coords).1 t.d.coords).1,
        [(intern st.points t.a.coords).2, (intern (intern st.points t.a.coords).1 t.b.coords).2,
         (intern (intern (intern st.points t.a.coords).1 t.b.coords).1 t.c.coords).2,
         (intern (intern (intern (intern st.points t.a.coords).1 t.b.coords).1 t.c.coords).1 t.d.coords).2]) := by
    rw [find_points io.fmt t h]
    simp only [foldRes, addPoint_ok io _ _ h.a, addPoint_ok io _ _ h.b, addPoint_ok io _ _ h.c, addPoint_ok io _ _ h.d,
      List.nil_append, List.cons_append]
  generalize intern st.points t.a.coords = r1 at *
  generalize intern r1.1 t.b.coords = r2 at *
  generalize intern r2.1 t.c.coords = r3 at *
  generalize intern r3.1 t.d.coords = r4 at *
  have ga : r4.1[r1.2]? = some t.a.coords := getElem?_of_prefix (p2.trans (p3.trans p4)) g1
  have gb : r4.1[r2.2]? = some t.b.coords := getElem?_of_prefix (p3.trans p4) g2
  have gc : r4.1[r3.2]? = some t.c.coords := getElem?_of_prefix p4 g3
  unfold addTri
  rw [hrun]
  simp only [List.head?_cons, List.getLast?_cons_cons, List.getLast?_singleton]
  constructor
  · intro hne
    rw [if_pos]
    intro e
    rw [e, ga] at g4
    exact hne (Option.some.inj g4).symm
  · intro he
    have hidx : r4.2 = r1.2 := by
      have hl : r1.2 < r4.1.length := by
        rcases Nat.lt_or_ge r1.2 r4.1.length with h | h
        · exact h
        · rw [List.getElem?_eq_none h] at ga; cases ga
      rw [he, ← ga] at g4
      exact ((List.getElem?_inj hl n4).1 g4.symm).symm
    rw [if_neg (by simp [hidx])]
    refine ⟨r4.1, [r1.2, r2.2, r3.2], rfl, p1.trans (p2.trans (p3.trans p4)), n4, ?_, ?_⟩
    · simp only [List.map_cons, List.map_nil, ga, gb, gc, WktTri.corners]
    · intro q hq
      unfold WktTri.corners
      rcases m4 q hq with hq | rfl
      · rcases m3 q hq with hq | rfl
        · rcases m2 q hq with hq | rfl
          · rcases m1 q hq with hq | rfl
            · exact Or.inl hq
            · simp
          · simp
        · simp
      · rw [he]; simp

theorem addTris_ok [DecidableEq F] (io : FloatIO F) (l : List (WktTri F × List Char × Option (List Char)))
    (h : ∀ r ∈ l, r.1.Ok io.fmt) (st : Out F) (hn : st.points.Nodup) (hc : ∀ r ∈ l, r.1.d.coords = r.1.a.coords) :
    ∃ pts rows, foldRes (addTri io.parse) st (l.map fun r => r.1.text io.fmt) = .ok ⟨pts, st.cells ++ rows⟩ ∧
      st.points <+: pts ∧ pts.Nodup ∧ rows.map (fun r => r.map fun i => pts[i]?) = (l.map fun r => r.1.corners.map some) ∧
      ∀ q ∈ pts, q ∈ st.points ∨ ∃ r ∈ l, q ∈ r.1.corners := by
  induction l generalizing st with
  | nil => exact ⟨st.points, [], by simp [foldRes], List.prefix_refl _, hn, rfl, fun q hq => Or.inl hq⟩
  | cons t l ih =>
    obtain ⟨pts1, row, e1, p1, n1, g1, m1⟩ := (addTri_ok io st hn t.1 (h t (by simp))).2 (hc t (by simp))
    obtain ⟨pts, rows, e2, p2, n2, g2, m2⟩ := ih (fun r hr => h r (by simp [hr])) ⟨pts1, st.cells ++ [row]⟩ n1
      (fun r hr => hc r (by simp [hr]))
    refine ⟨pts, row :: rows, ?_, p1.trans p2, n2, ?_, ?_⟩
    · rw [List.map_cons, foldRes, e1]
      simp only
      rw [e2]
      simp
    · rw [List.map_cons, List.map_cons, g2]
      congr 1
      rw [← g1]
      refine List.map_congr_left ?_
      intro i hi
      have hmem : pts1[i]? ∈ t.1.corners.map some := by rw [← g1]; exact List.mem_map_of_mem hi
      obtain ⟨q, -, hq⟩ := List.mem_map.1 hmem
      rw [← hq]
      exact getElem?_of_prefix p2 hq.symm
    · intro q hq
      rcases m2 q hq with hq | ⟨r, hr, hq⟩
      · rcases m1 q hq with hq | hq
        · exact Or.inl hq
        · exact Or.inr ⟨t, by simp, hq⟩
      · exact Or.inr ⟨r, by simp [hr], hq⟩

theorem strip_mid {w x tail : List Char} {a c : Char} (hw : Blank w) (ha : isWs a = false) (hc : isWs c = false) :
    ∃ tail', strip (w ++ (a :: (x ++ c :: tail))) = a :: (x ++ c :: tail') := by
  unfold strip
  have h1 : (w ++ (a :: (x ++ c :: tail))).dropWhile isWs = a :: (x ++ c :: tail) := by
    rw [List.dropWhile_append_of_pos hw, List.dropWhile_cons, ha]
    rfl
  rw [h1]
  change ∃ tail', rstrip (a :: (x ++ c :: tail)) = _
  obtain ⟨v, hv, hvs⟩ := rstrip_append (a :: (x ++ c :: tail))
  generalize rstrip (a :: (x ++ c :: tail)) = r at hv
  have hv' : (a :: x) ++ c :: tail = r ++ v := hv
  rcases List.append_eq_append_iff.1 hv' with ⟨b, h2, h3⟩ | ⟨b, h2, h3⟩
  · cases b with
    | nil =>
      rw [List.nil_append] at h3
      have := hvs c (by rw [← h3]; simp)
      rw [hc] at this
      cases this
    | cons y b =>
      rw [List.cons_append] at h3
      injection h3 with h4 h5
      exact ⟨b, by rw [h2, h4]; rfl⟩
  · have := hvs c (by rw [h3]; simp)
    rw [hc] at this
    cases this

/-- Everything but the checks at the end. -/
theorem read_text [DecidableEq F] (io : FloatIO F) (t : WktTin F) (h : t.Ok io.fmt) :
    read io.parse (t.text io.fmt) =
      match foldRes (addTri io.parse) ⟨[], []⟩ (t.tris.map fun r => r.1.text io.fmt) with
      | .error e => .error e
      | .ok m => if m.points.all (fun p => decide (p.length = (m.points.headD []).length)) then .ok m else .error .readError := by
  unfold WktTin.text
  have e : ∀ tail, 'T' :: 'I' :: 'N' :: (t.w1 ++ '(' :: (t.w2 ++ (t.tris.flatMap (wktItem io.fmt) ++ ')' :: tail))) =
      'T' :: (('I' :: 'N' :: (t.w1 ++ '(' :: (t.w2 ++ t.tris.flatMap (wktItem io.fmt)))) ++ ')' :: tail) := by
    intro tail
    simp
  rw [e]
  obtain ⟨tail', ht⟩ := strip_mid (x := 'I' :: 'N' :: (t.w1 ++ '(' :: (t.w2 ++ t.tris.flatMap (wktItem io.fmt)))) (tail := t.tail)
    (a := 'T') (c := ')') h.blanks.1 (by decide) (by decide)
  unfold read
  rw [ht, ← e, first_tin io.fmt t h tail']
  simp only
  have hb : before ('T' :: 'I' :: 'N' :: (t.w1 ++ '(' :: (t.w2 ++ (t.tris.flatMap (wktItem io.fmt) ++ ')' :: tail')))) tail' =
      'T' :: 'I' :: 'N' :: (t.w1 ++ '(' :: (t.w2 ++ (t.tris.flatMap (wktItem io.fmt) ++ [')']))) := by
    have := before_append ('T' :: 'I' :: 'N' :: (t.w1 ++ '(' :: (t.w2 ++ (t.tris.flatMap (wktItem io.fmt) ++ [')'])))) tail'
    rw [← this]
    congr 1
    simp
  rw [hb, find_tin io.fmt t h]
  rfl

end Meshio.Wkt
