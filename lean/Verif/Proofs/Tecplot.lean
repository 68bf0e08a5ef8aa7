/-
Helper lemmas for Tecplot files: reading.
-/
import Verif.Spec.Tecplot
import Verif.Base.Words
import Verif.Base.Scan
import Verif.Proofs.Common

namespace Meshio
namespace Tecplot
open Types Tables
open Meshio.Spec.Tecplot (VName Word Style Entry Sep Group Location Record Separated textKeys numberKeys capital Comment joined Var Points coordinate)

variable {F : Type}

theorem inLines_linesText (ls : List (List Char)) (h : ∀ l ∈ ls, '\n' ∉ l) :
    inLines (linesText ls) = (ls.filter fun l => decide (¬ Comment l)).map strip := by
  unfold inLines
  rw [fileLines_linesText' _ h, List.map_map, List.filter_map]
  have e : strip ∘ (fun x => x ++ ['\n']) = strip := by
    funext l
    exact strip_nl' l
  rw [e]
  rfl

theorem quotedLines_run (ls : List (List Char)) (h : ∀ k ∈ ls, k.head? = some '"') (l : List Char) (rest : List (List Char))
    (hl : (upper l).head? ≠ some '"') : quotedLines (ls ++ l :: rest) = (ls.map upper, l :: rest) := by
  induction ls with
  | nil =>
    rw [List.nil_append, quotedLines, if_neg hl]
    rfl
  | cons k ls ih =>
    have hk : (upper k).head? = some '"' := by
      have := h k (by simp)
      unfold upper
      rw [List.head?_map, this]
      decide
    rw [List.cons_append, quotedLines, if_pos hk, ih (fun k hk => h k (by simp [hk]))]
    rfl

theorem infoLines_run (p : List Char → Bool) (ls : List (List Char)) (h : ∀ k ∈ ls, ∃ t ts, splitWs (upper k) = t :: ts ∧ p t = false)
    (l : List Char) (rest : List (List Char)) (hl : ∃ t ts, splitWs (upper l) = t :: ts ∧ p t = true) :
    infoLines p (ls ++ l :: rest) = .ok (ls.map upper, l :: rest) := by
  induction ls with
  | nil =>
    obtain ⟨t, ts, h1, h2⟩ := hl
    rw [List.nil_append, infoLines]
    simp only [h1, h2, if_true]
    rfl
  | cons k ls ih =>
    obtain ⟨t, ts, h1, h2⟩ := h k (by simp)
    rw [List.cons_append, infoLines]
    simp only [h1, h2]
    rw [if_neg (by simp), ih (fun k hk => h k (by simp [hk]))]
    rfl

/-! ## Names -/

theorem unquote_word {w : List Char} (h : Word w) : unquote w = w := by
  unfold unquote
  rw [List.filter_eq_self]
  intro c hc
  exact decide_eq_true (h c hc).2.2.1

theorem not_half_word {w : List Char} (h : Word w) : halfQuoted w = false := by
  unfold halfQuoted
  apply decide_eq_false
  rintro ⟨h1, _⟩
  exact (h _ h1).2.2.1 rfl

theorem varNames_step {w : List Char} (h : halfQuoted w = false) (ws : List (List Char)) (r : List (List Char)) (hr : varNames ws = .ok r) :
    varNames (w :: ws) = .ok (unquote w :: r) := by
  cases ws with
  | nil =>
    rw [varNames] at hr
    cases hr
    rw [varNames, if_neg (by simp [h])]
  | cons v ws =>
    rw [varNames, if_neg (by simp [h]), hr]

theorem varNames_ok (ns : List VName) (h : ∀ n ∈ ns, n.Ok) : varNames (ns.flatMap VName.words) = .ok (ns.map VName.name) := by
  induction ns with
  | nil => rfl
  | cons n ns ih =>
    have ih' := ih (fun m hm => h m (by simp [hm]))
    have hn := h n (by simp)
    rw [List.flatMap_cons, List.map_cons]
    cases n with
    | plain w =>
      obtain ⟨_, hw⟩ := hn
      simp only [VName.words, VName.name, List.cons_append, List.nil_append]
      rw [varNames_step (not_half_word hw) _ _ ih', unquote_word hw]
    | quoted w =>
      have hw : Word w := hn
      simp only [VName.words, VName.name, List.cons_append, List.nil_append]
      rw [varNames_step _ _ _ ih']
      · congr 2
        unfold unquote
        rw [List.filter_cons_of_neg (by simp), List.filter_append, List.filter_cons_of_neg (by simp)]
        simp only [List.filter_nil, List.append_nil]
        exact unquote_word hw
      · unfold halfQuoted
        apply decide_eq_false
        rintro ⟨_, h2⟩
        apply h2
        refine ⟨rfl, ?_⟩
        rw [← List.cons_append, List.getLast?_append]
        rfl
    | two a b =>
      obtain ⟨ha, hwa, hwb⟩ := hn
      simp only [VName.words, VName.name, List.cons_append, List.nil_append]
      rw [varNames, if_pos, ih']
      · simp only [Except.ok.injEq, List.cons.injEq, and_true]
        unfold unquote
        rw [List.cons_append, List.filter_cons_of_neg (by simp), List.filter_append]
        rw [List.filter_cons_of_pos (by decide), List.filter_append, List.filter_cons_of_neg (by simp)]
        simp only [List.filter_nil, List.append_nil]
        have e1 := unquote_word hwa
        have e2 := unquote_word hwb
        unfold unquote at e1 e2
        rw [e1, e2]
      · unfold halfQuoted
        apply decide_eq_true
        refine ⟨by simp, ?_⟩
        rintro ⟨_, h2⟩
        cases a with
        | nil => exact ha rfl
        | cons c a =>
          rw [List.getLast?_cons_cons] at h2
          exact (hwa _ (List.mem_of_getLast? h2)).2.2.1 rfl

theorem readVariables_ok (line kw rest : List Char) (names : List VName) (h : line = kw ++ '=' :: rest) (h1 : '=' ∉ kw) (h2 : '=' ∉ rest)
    (hw : splitWs (rest.map fun c => if c = ',' then ' ' else c) = names.flatMap VName.words) (hn : ∀ n ∈ names, n.Ok)
    (hx : "X" ∈ (names.map VName.name).map String.ofList ∨ "x" ∈ (names.map VName.name).map String.ofList)
    (hy : "Y" ∈ (names.map VName.name).map String.ofList ∨ "y" ∈ (names.map VName.name).map String.ofList) :
    readVariables line = .ok ((names.map VName.name).map String.ofList) := by
  unfold readVariables
  rw [h, splitOnC_append_sep _ _ _ h1, splitOnC_not_mem _ _ h2]
  simp only [List.getElem?_cons_succ, List.getElem?_cons_zero]
  unfold words
  rw [hw, varNames_ok _ hn]
  simp only
  rw [if_neg (by rintro ⟨h1, h2⟩; rcases hx with h | h; exact h1 h; exact h2 h),
    if_neg (by rintro ⟨h1, h2⟩; rcases hy with h | h; exact h1 h; exact h2 h)]

/-! ## The zone record -/

theorem findSub_none_of_not_mem {c : Char} {p : List Char} (hp : c ∈ p) {s : List Char} (h : c ∉ s) : findSub p s = none := by
  induction s with
  | nil =>
    rw [findSub, if_neg]
    rintro rfl
    cases hp
  | cons d s ih =>
    rw [findSub, if_neg, ih (fun hh => h (by simp [hh]))]
    · rfl
    · intro hh
      rw [List.isPrefixOf_iff_prefix] at hh
      exact h (hh.subset hp)

theorem findSub_char (c : Char) (a s : List Char) (h : c ∉ a) : findSub [c] (a ++ c :: s) = some a.length := by
  induction a with
  | nil => simp [findSub]
  | cons d a ih =>
    have hd : ¬ c = d := fun e => h (by simp [e])
    rw [List.cons_append, findSub, if_neg (by simp [hd]), ih (fun hh => h (by simp [hh]))]
    rfl

theorem findSub_none_of_not_infix {p s : List Char} (hp : p ≠ []) (h : ¬ p <:+: s) : findSub p s = none := by
  induction s with
  | nil => rw [findSub, if_neg hp]
  | cons d s ih =>
    rw [findSub, if_neg, ih (fun hh => h (List.infix_cons hh))]
    · rfl
    · intro hh
      rw [List.isPrefixOf_iff_prefix] at hh
      exact h hh.isInfix

theorem findSub_first {p : List Char} (a s : List Char) (h : ¬ p <:+: a) (hl : ∀ c, a.getLast? = some c → c ∉ p) :
    findSub p (a ++ (p ++ s)) = some a.length := by
  induction a with
  | nil =>
    cases hps : p ++ s with
    | nil =>
      have : p = [] := (List.append_eq_nil_iff.mp hps).1
      rw [List.nil_append, findSub, if_pos this]
      rfl
    | cons c t =>
      rw [List.nil_append, findSub, if_pos]
      · rfl
      · rw [List.isPrefixOf_iff_prefix, ← hps]
        exact List.prefix_append _ _
  | cons d a ih =>
    rw [List.cons_append, findSub, if_neg, ih]
    · rfl
    · exact fun hh => h (List.infix_cons hh)
    · intro c hc
      apply hl
      cases a with
      | nil => cases hc
      | cons e a => rw [List.getLast?_cons_cons]; exact hc
    · intro hh
      rw [List.isPrefixOf_iff_prefix, ← List.cons_append] at hh
      by_cases hlen : p.length ≤ (d :: a).length
      · exact h ((List.prefix_append_right_inj [] |>.mp (by
          have := List.prefix_of_prefix_length_le hh (List.prefix_append (d :: a) (p ++ s)) hlen
          simpa using this)).isInfix)
      · have := List.prefix_of_prefix_length_le (List.prefix_append (d :: a) (p ++ s)) hh (by omega)
        obtain ⟨c, hc⟩ : ∃ c, (d :: a).getLast? = some c := ⟨_, List.getLast?_eq_some_getLast (by simp)⟩
        exact hl c hc (this.subset (List.mem_of_getLast? hc))

theorem replaceAll_skip (p q : List Char) (k : Nat) (a s : List Char) (h : a.length = k) : replaceAll p q k (a ++ s) = replaceAll p q 0 s := by
  induction a generalizing k with
  | nil =>
    rw [← h]
    rfl
  | cons c a ih =>
    rw [← h, List.cons_append, List.length_cons, replaceAll]
    exact ih _ rfl

theorem replaceAll_none (p q : List Char) (c : Char) (hc : c ∈ p) (s : List Char) (h : c ∉ s) : replaceAll p q 0 s = s := by
  induction s with
  | nil => rfl
  | cons d s ih =>
    rw [replaceAll, if_neg, ih (fun hh => h (by simp [hh]))]
    intro hh
    rw [List.isPrefixOf_iff_prefix] at hh
    exact h (hh.subset hc)

theorem replaceAll_one (q a b t : List Char) (ha : '"' ∉ a) (hb : '"' ∉ b) :
    replaceAll ('"' :: (t ++ ['"'])) q 0 (a ++ ('"' :: (t ++ ['"'])) ++ b) = a ++ q ++ b := by
  induction a with
  | nil =>
    rw [List.nil_append, List.cons_append, replaceAll, if_pos]
    · rw [replaceAll_skip _ _ _ _ _ (by simp), replaceAll_none _ _ '"' (by simp) _ hb]
      rfl
    · rw [List.isPrefixOf_iff_prefix, ← List.cons_append]
      exact List.prefix_append _ _
  | cons c a ih =>
    rw [List.cons_append, List.cons_append, replaceAll, if_neg, ih (fun hh => ha (by simp [hh]))]
    · simp
    · intro hh
      rw [List.isPrefixOf_iff_prefix] at hh
      have := List.cons_prefix_cons.mp hh
      exact ha (by rw [this.1]; simp)

theorem bound_nat (n k : Nat) (h : k ≤ n) : bound n (k : Int) = k := by
  unfold bound
  rw [if_neg (by omega)]
  omega

theorem slicePy_nat {α : Type} (a b c : List α) : slicePy (a ++ b ++ c) (a.length : Int) ((a.length + b.length : Nat) : Int) = b := by
  unfold slicePy
  rw [bound_nat _ _ (by simp), bound_nat _ _ (by simp), List.append_assoc, List.drop_left' rfl, Nat.add_sub_cancel_left, List.take_left' rfl]

theorem takeTitle_none (s : List Char) (h : '"' ∉ s) : takeTitle s = (s, none) := by
  unfold takeTitle
  rw [findSub_none_of_not_mem (c := '"') (by simp) h]

theorem takeTitle_some (a t b : List Char) (ha : '"' ∉ a) (ht : '"' ∉ t) (hb : '"' ∉ b) :
    takeTitle (a ++ '"' :: (t ++ '"' :: b)) = (a ++ "PLACEHOLDER".toList ++ b, some t) := by
  have hd : (a ++ '"' :: (t ++ '"' :: b)).drop (a.length + 1) = t ++ '"' :: b := by
    rw [show a ++ '"' :: (t ++ '"' :: b) = (a ++ ['"']) ++ (t ++ '"' :: b) by simp]
    exact List.drop_left' (by simp)
  have hi : findInt ['"'] (t ++ '"' :: b) = (t.length : Int) := by
    unfold findInt
    rw [findSub_char _ _ _ ht]
  unfold takeTitle
  rw [findSub_char _ _ _ ha]
  simp only
  rw [hd, hi]
  have e1 : slicePy (a ++ '"' :: (t ++ '"' :: b)) (a.length : Int) ((a.length : Int) + t.length + 2) = '"' :: (t ++ ['"']) := by
    have := slicePy_nat a ('"' :: (t ++ ['"'])) b
    rw [← this]
    congr 1
    · simp
    · simp only [List.length_cons, List.length_append, List.length_nil]
      omega
  have e2 : slicePy (a ++ '"' :: (t ++ '"' :: b)) ((a.length : Int) + 1) ((a.length : Int) + t.length + 2 - 1) = t := by
    have := slicePy_nat (a ++ ['"']) t ('"' :: b)
    rw [show a ++ ['"'] ++ t ++ '"' :: b = a ++ '"' :: (t ++ '"' :: b) by simp] at this
    rw [show ((a.length : Int) + 1) = ((a ++ ['"']).length : Int) by simp,
      show ((a.length : Int) + t.length + 2 - 1) = (((a ++ ['"']).length + t.length : Nat) : Int) by simp; omega]
    exact this
  rw [e1, e2]
  have e3 := replaceAll_one "PLACEHOLDER".toList a b t ha hb
  rw [show a ++ '"' :: (t ++ '"' :: b) = a ++ ('"' :: (t ++ ['"'])) ++ b by simp, e3]

theorem takeLocation_none (s : List Char) (h : ¬ "VARLOCATION".toList <:+: s) : takeLocation s = (s, none) := by
  unfold takeLocation
  rw [findSub_none_of_not_infix (by decide +kernel) h]

theorem takeLocation_some (a gap inner b : List Char) (ha : ¬ "VARLOCATION".toList <:+: a) (hl : ∀ c, a.getLast? = some c → c = ',' ∨ c = ' ')
    (hp : '(' ∉ a ∧ ')' ∉ a) (hg : '(' ∉ gap ∧ ')' ∉ gap) (hi : ')' ∉ inner) :
    takeLocation (a ++ ("VARLOCATION".toList ++ (gap ++ '(' :: (inner ++ ')' :: b)))) =
      (a ++ b, some ('(' :: (inner.filter fun c => decide (c ≠ ' ')) ++ [')'])) := by
  unfold takeLocation
  rw [findSub_first _ _ ha (by
    intro c hc
    rcases hl c hc with rfl | rfl <;> decide +kernel)]
  simp only
  have hv : '(' ∉ "VARLOCATION".toList ∧ ')' ∉ "VARLOCATION".toList := by decide +kernel
  generalize "VARLOCATION".toList = v at *
  have e1 : findInt ['('] (a ++ (v ++ (gap ++ '(' :: (inner ++ ')' :: b)))) = ((a ++ v ++ gap).length : Int) := by
    unfold findInt
    have := findSub_char '(' (a ++ v ++ gap) (inner ++ ')' :: b) (by simp [hp.1, hv.1, hg.1])
    rw [show a ++ (v ++ (gap ++ '(' :: (inner ++ ')' :: b))) = a ++ v ++ gap ++ '(' :: (inner ++ ')' :: b) by simp, this]
  have e2 : findInt [')'] (a ++ (v ++ (gap ++ '(' :: (inner ++ ')' :: b)))) = ((a ++ v ++ gap ++ '(' :: inner).length : Int) := by
    unfold findInt
    have := findSub_char ')' (a ++ v ++ gap ++ '(' :: inner) b (by simp [hp.2, hv.2, hg.2, hi])
    rw [show a ++ (v ++ (gap ++ '(' :: (inner ++ ')' :: b))) = a ++ v ++ gap ++ '(' :: inner ++ ')' :: b by simp, this]
  rw [e1, e2]
  have e3 := slicePy_nat (a ++ v ++ gap) ('(' :: (inner ++ [')'])) b
  have e4 := slicePy_nat (a ++ v ++ gap ++ '(' :: (inner ++ [')'])) b []
  rw [List.append_nil] at e4
  have t1 : a ++ (v ++ (gap ++ '(' :: (inner ++ ')' :: b))) = a ++ v ++ gap ++ '(' :: (inner ++ [')']) ++ b := by simp
  rw [List.take_left' rfl, t1]
  rw [show ((a ++ v ++ gap ++ '(' :: inner).length : Int) + 1 = (((a ++ v ++ gap).length + ('(' :: (inner ++ [')'])).length : Nat) : Int) by
    simp; omega]
  rw [e3]
  rw [show (((a ++ v ++ gap).length + ('(' :: (inner ++ [')'])).length : Nat) : Int) = ((a ++ v ++ gap ++ '(' :: (inner ++ [')'])).length : Int) by simp; omega,
    show (((a ++ v ++ gap ++ '(' :: (inner ++ [')']) ++ b).length : Nat) : Int) = (((a ++ v ++ gap ++ '(' :: (inner ++ [')'])).length + b.length : Nat) : Int) by
      rw [List.length_append]]
  rw [e4]
  rw [List.filter_cons_of_pos (by decide), List.filter_append, List.filter_cons_of_pos (by decide), List.filter_nil]
  rfl

/-! ### Words -/

/-- Commas become blanks. -/
def blank (c : Char) : Char := if c = ',' then ' ' else c

theorem words_eq (s : List Char) : words s = splitWs (s.map blank) := rfl

/-- A word of a record. -/
def IsWord (t : List Char) : Prop := IsTok t ∧ ',' ∉ t

theorem blank_word {t : List Char} (h : IsWord t) : t.map blank = t := by
  have : t.map blank = t.map id := by
    apply List.map_congr_left
    intro c hc
    unfold blank
    rw [if_neg]
    · rfl
    · rintro rfl
      exact h.2 hc
  rw [this, List.map_id]

theorem words_sep {c : Char} (hc : c = ',' ∨ c = ' ') (s : List Char) : words (c :: s) = words s := by
  rw [words_eq, List.map_cons, words_eq]
  have : blank c = ' ' := by rcases hc with rfl | rfl <;> rfl
  rw [this, splitWs_ws (by decide)]

theorem words_seps {w : List Char} (hw : Sep w) (s : List Char) : words (w ++ s) = words s := by
  induction w with
  | nil => rfl
  | cons c w ih =>
    rw [List.cons_append, words_sep (hw c (by simp)), ih (fun d hd => hw d (by simp [hd]))]

theorem words_cons {t : List Char} (ht : IsWord t) {c : Char} (hc : c = ',' ∨ c = ' ') (s : List Char) :
    words (t ++ c :: s) = t :: words s := by
  rw [words_eq, List.map_append, List.map_cons, blank_word ht, words_eq]
  have : blank c = ' ' := by rcases hc with rfl | rfl <;> rfl
  rw [this, splitWs_tok_ws ht.1 (by decide)]

theorem words_last {t : List Char} (ht : IsWord t) : words t = [t] := by
  rw [words_eq, blank_word ht, splitWs_tok ht.1]

theorem words_tok {t : List Char} (ht : IsWord t) (w s : List Char) (hw : Sep w) (hne : w ≠ [] ∨ s = []) : words (t ++ (w ++ s)) = t :: words s := by
  cases w with
  | nil =>
    rcases hne with h | rfl
    · exact absurd rfl h
    · rw [List.append_nil, List.append_nil, words_last ht]
      rfl
  | cons c w =>
    rw [List.cons_append, words_cons ht (hw c (by simp)), words_seps (fun d hd => hw d (by simp [hd]))]

/-- The words of an entry. -/
def bodyWords (k : List Char) (s : Style) (v : List Char) : List (List Char) :=
  match s with
  | .spaced => [k, ['='], v]
  | .tight => [k ++ '=' :: v]
  | .left => [k ++ ['='], v]
  | .right => [k, '=' :: v]
  | .bare => [k, v]

theorem isWord_eq : IsWord ['='] := by
  refine ⟨⟨by simp, by decide⟩, by decide⟩

theorem IsWord.append {a b : List Char} (ha : IsWord a) (hb : IsWord b) : IsWord (a ++ b) := by
  refine ⟨⟨by simp [ha.1.1], ?_⟩, by simp [ha.2, hb.2]⟩
  intro c hc
  rcases List.mem_append.mp hc with h | h
  · exact ha.1.2 c h
  · exact hb.1.2 c h

theorem words_body (k v : List Char) (st : Style) (hk : IsWord k) (hv : IsWord v) (w s : List Char) (hw : Sep w) (hne : w ≠ [] ∨ s = []) :
    words (k ++ st.text ++ v ++ w ++ s) = bodyWords k st v ++ words s := by
  cases st with
  | spaced =>
    rw [show k ++ Style.spaced.text ++ v ++ w ++ s = k ++ ' ' :: (['='] ++ ' ' :: (v ++ (w ++ s))) by simp [Style.text],
      words_cons hk (Or.inr rfl), words_cons isWord_eq (Or.inr rfl), words_tok hv _ _ hw hne]
    rfl
  | tight =>
    rw [show k ++ Style.tight.text ++ v ++ w ++ s = (k ++ (['='] ++ v)) ++ (w ++ s) by simp [Style.text],
      words_tok (hk.append (isWord_eq.append hv)) _ _ hw hne]
    rfl
  | left =>
    rw [show k ++ Style.left.text ++ v ++ w ++ s = (k ++ ['=']) ++ ' ' :: (v ++ (w ++ s)) by simp [Style.text],
      words_cons (hk.append isWord_eq) (Or.inr rfl), words_tok hv _ _ hw hne]
    rfl
  | right =>
    rw [show k ++ Style.right.text ++ v ++ w ++ s = k ++ ' ' :: ((['='] ++ v) ++ (w ++ s)) by simp [Style.text],
      words_cons hk (Or.inr rfl), words_tok (isWord_eq.append hv) _ _ hw hne]
    rfl
  | bare =>
    rw [show k ++ Style.bare.text ++ v ++ w ++ s = k ++ ' ' :: (v ++ (w ++ s)) by simp [Style.text],
      words_cons hk (Or.inr rfl), words_tok hv _ _ hw hne]
    rfl

/-- The words that are left without single equals signs. -/
def usedWords (k : List Char) (s : Style) (v : List Char) : List (List Char) :=
  (bodyWords k s v).filter fun w => decide (w ≠ ['='])

theorem pairs_entry (k v : List Char) (st : Style) (hk : '=' ∉ k) (hv : '=' ∉ v) (hk' : k ≠ []) (hv' : v ≠ []) (ws : List (List Char)) (z : Zone) :
    pairs (usedWords k st v ++ ws) z = match put z k v with
      | .error e => .error e
      | .ok z => pairs ws z := by
  have hke : k ≠ ['='] := by rintro rfl; exact hk (by simp)
  have hve : v ≠ ['='] := by rintro rfl; exact hv (by simp)
  have hnk : noEq k = k := by
    unfold noEq
    rw [List.filter_eq_self]
    intro c hc
    exact decide_eq_true (fun e => hk (e ▸ hc))
  have hnv : noEq v = v := by
    unfold noEq
    rw [List.filter_eq_self]
    intro c hc
    exact decide_eq_true (fun e => hv (e ▸ hc))
  have two : ∀ a b : List Char, '=' ∉ a → noEq b = v → a = k → pairs (a :: b :: ws) z = match put z k v with
      | .error e => .error e
      | .ok z => pairs ws z := by
    intro a b ha hb hak
    rw [pairs, if_neg ha, hb, hak]
    rfl
  cases st with
  | spaced =>
    have : usedWords k .spaced v = [k, v] := by simp [usedWords, bodyWords, hke, hve]
    rw [this]
    exact two k v hk hnv rfl
  | bare =>
    have : usedWords k .bare v = [k, v] := by simp [usedWords, bodyWords, hke, hve]
    rw [this]
    exact two k v hk hnv rfl
  | right =>
    have : usedWords k .right v = [k, '=' :: v] := by simp [usedWords, bodyWords, hke, hv']
    rw [this]
    refine two k _ hk ?_ rfl
    unfold noEq at hnv ⊢
    rw [List.filter_cons_of_neg (by simp)]
    exact hnv
  | left =>
    have : usedWords k .left v = [k ++ ['='], v] := by
      simp only [usedWords, bodyWords]
      rw [List.filter_cons_of_pos, List.filter_cons_of_pos (by simpa using hve)]
      · rfl
      · apply decide_eq_true
        intro e
        have := congrArg List.length e
        simp at this
        exact hk' this
    rw [this]
    show pairs ((k ++ ['=']) :: v :: ws) z = _
    rw [pairs, if_pos (by simp), if_neg (by simp [tight])]
    have : noEq (k ++ ['=']) = k := by
      unfold noEq at hnk ⊢
      rw [List.filter_append, hnk]
      simp
    rw [this]
    rfl
  | tight =>
    have hne : k ++ '=' :: v ≠ ['='] := by
      intro e
      have := congrArg List.length e
      simp at this
      exact hk' (List.length_eq_zero_iff.mp (by omega))
    have : usedWords k .tight v = [k ++ '=' :: v] := by simp [usedWords, bodyWords, hne]
    rw [this]
    have ht : tight (k ++ '=' :: v) = true := by
      unfold tight
      have h1 : (k ++ '=' :: v).head? ≠ some '=' := by
        cases k with
        | nil => exact absurd rfl hk'
        | cons c k =>
          intro e
          simp at e
          exact hk (by simp [e])
      have h2 : (k ++ '=' :: v).getLast? ≠ some '=' := by
        intro e
        cases v with
        | nil => exact absurd rfl hv'
        | cons c v =>
          rw [show k ++ '=' :: c :: v = (k ++ ['=']) ++ (c :: v) by simp, List.getLast?_append] at e
          cases hl : (c :: v).getLast? with
          | none => simp at hl
          | some d =>
            rw [hl] at e
            simp at e
            exact hv (e ▸ List.mem_of_getLast? hl)
      rw [decide_eq_false h1, decide_eq_false h2]
      rfl
    have hp : putTight z (k ++ '=' :: v) = put z k v := by
      unfold putTight
      rw [splitOnC_append_sep _ _ _ hk, splitOnC_not_mem _ _ hv]
    cases ws with
    | nil =>
      show pairs [k ++ '=' :: v] z = _
      rw [pairs, if_pos ⟨by simp, ht⟩, hp]
      cases put z k v <;> rfl
    | cons u ws =>
      show pairs ((k ++ '=' :: v) :: u :: ws) z = _
      rw [pairs, if_pos (by simp), if_pos ht, hp]
      rfl

theorem key_word (e : Entry) (h : e.Ok) : IsWord e.key.toList ∧ '=' ∉ e.key.toList := by
  have : e.key ∈ textKeys ++ numberKeys := by
    rcases h.1 with h | h
    · exact List.mem_append_left _ h
    · exact List.mem_append_right _ h.1
  have hk : ∀ k ∈ textKeys ++ numberKeys, k.toList ≠ [] ∧ (∀ c ∈ k.toList, isWs c = false) ∧ ',' ∉ k.toList ∧ '=' ∉ k.toList := by
    decide +kernel
  obtain ⟨h1, h2, h3, h4⟩ := hk _ this
  exact ⟨⟨⟨h1, h2⟩, h3⟩, h4⟩

theorem value_word (e : Entry) (h : e.Ok) : IsWord e.value ∧ '=' ∉ e.value := by
  obtain ⟨_, hne, hc, _⟩ := h
  exact ⟨⟨⟨hne, fun c h => (hc c h).1⟩, fun h => (hc _ h).2.1 rfl⟩, fun h => (hc _ h).2.2.2.1 rfl⟩

/-- The used words of entries. -/
def entryWords (es : List Entry) : List (List Char) := es.flatMap fun e => usedWords e.key.toList e.style e.value

theorem words_entries (es : List Entry) (h : ∀ e ∈ es, e.Ok) (hs : Separated es) (s : List Char) (hl : s = [] ∨ ∀ e ∈ es, e.sep ≠ []) :
    ((words (es.flatMap Entry.text ++ s)).filter fun w => decide (w ≠ ['='])) =
      entryWords es ++ (words s).filter fun w => decide (w ≠ ['=']) := by
  induction es with
  | nil => rfl
  | cons e es ih =>
    have he := h e (by simp)
    have hs' : Separated es := by
      intro x hx
      apply hs
      cases es with
      | nil => cases hx
      | cons y es => rw [List.dropLast_cons_cons]; exact List.mem_cons_of_mem _ hx
    have ih' := ih (fun x hx => h x (by simp [hx])) hs' (hl.imp id (fun h x hx => h x (by simp [hx])))
    rw [List.flatMap_cons, Entry.text, List.append_assoc, words_body _ _ _ (key_word e he).1 (value_word e he).1 _ _ he.2.2.2,
      List.filter_append, ih']
    · unfold entryWords
      rw [List.flatMap_cons, List.append_assoc]
      rfl
    · cases es with
      | nil =>
        rcases hl with rfl | hl
        · exact Or.inr rfl
        · exact Or.inl (hl e (by simp))
      | cons y es =>
        left
        apply hs
        rw [List.dropLast_cons_cons]
        simp

/-- One entry of the dictionary. -/
def putEntry (z : Zone) (e : Entry) : Res Zone := put z e.key.toList e.value

theorem pairs_entries (es : List Entry) (h : ∀ e ∈ es, e.Ok) (ws : List (List Char)) (z : Zone) :
    pairs (entryWords es ++ ws) z = match foldRes putEntry z es with
      | .error e => .error e
      | .ok z => pairs ws z := by
  induction es generalizing z with
  | nil => rfl
  | cons e es ih =>
    have he := h e (by simp)
    unfold entryWords
    rw [List.flatMap_cons, List.append_assoc,
      pairs_entry _ _ _ (key_word e he).2 (value_word e he).2 (key_word e he).1.1.1 (value_word e he).1.1.1]
    rw [foldRes]
    show (match putEntry z e with
      | .error e => (.error e : Res Zone)
      | .ok z => pairs (entryWords es ++ ws) z) = _
    cases putEntry z e with
    | error e => rfl
    | ok z' => exact ih (fun x hx => h x (by simp [hx])) z'

/-- The value of a key among entries. -/
def getIn (es : List Entry) (k : String) : Option (List Char) := (es.reverse.find? fun e => decide (e.key = k)).map (·.value)

theorem getIn_cons (e : Entry) (es : List Entry) (k : String) :
    getIn (e :: es) k = (getIn es k).or (if e.key = k then some e.value else none) := by
  unfold getIn
  rw [List.reverse_cons, List.find?_append]
  cases h : es.reverse.find? fun e => decide (e.key = k) with
  | none =>
    by_cases hk : e.key = k
    · simp [hk]
    · simp [hk]
  | some x => simp

theorem putEntries (es : List Entry) (h : ∀ e ∈ es, e.Ok) (z : Zone) : ∃ z', foldRes putEntry z es = .ok z' ∧
    (∀ k, k ∈ textKeys → z'.strs.get? k = (getIn es k).or (z.strs.get? k)) ∧
    (∀ k, k ∈ numberKeys → z'.ints.get? k = ((getIn es k).bind parseInt).or (z.ints.get? k)) ∧
    z'.strs.get? "VARLOCATION" = z.strs.get? "VARLOCATION" := by
  induction es generalizing z with
  | nil => exact ⟨z, rfl, by intros; simp [getIn], by intros; simp [getIn], rfl⟩
  | cons e es ih =>
    have he := h e (by simp)
    have hes : ∀ x ∈ es, x.Ok := fun x hx => h x (by simp [hx])
    rcases he.1 with hk | ⟨hk, hi⟩
    · have hp : putEntry z e = .ok { z with strs := z.strs.set e.key e.value } := by
        unfold putEntry put
        simp only [String.ofList_toList]
        rw [if_pos ((by decide +kernel : ∀ k ∈ textKeys, k ∈ strKeys) _ hk)]
      obtain ⟨z', h1, h2, h3, h4⟩ := ih hes { z with strs := z.strs.set e.key e.value }
      refine ⟨z', by rw [foldRes, hp]; exact h1, ?_, ?_, ?_⟩
      · intro k hkk
        rw [h2 k hkk, getIn_cons]
        simp only [Dict.get?_set]
        by_cases hek : e.key = k
        · rw [if_pos hek]
          subst hek
          simp
        · rw [if_neg hek, if_neg (by intro h; exact hek h.symm)]
          simp
      · intro k hkk
        rw [h3 k hkk, getIn_cons]
        have hek : ¬ e.key = k := by
          rintro rfl
          exact (by decide +kernel : ∀ k ∈ textKeys, k ∉ numberKeys) _ hk hkk
        rw [if_neg hek]
        simp
      · rw [h4]
        simp only [Dict.get?_set]
        rw [if_neg]
        intro h
        rw [← h] at hk
        exact (by decide +kernel : "VARLOCATION" ∉ textKeys) hk
    · obtain ⟨i, hi⟩ := Option.isSome_iff_exists.mp hi
      have hp : putEntry z e = .ok { z with ints := z.ints.set e.key i } := by
        unfold putEntry put
        simp only [String.ofList_toList]
        rw [if_neg ((by decide +kernel : ∀ k ∈ numberKeys, k ∉ strKeys) _ hk), if_pos ((by decide +kernel : ∀ k ∈ numberKeys, k ∈ intKeys) _ hk), hi]
      obtain ⟨z', h1, h2, h3, h4⟩ := ih hes { z with ints := z.ints.set e.key i }
      refine ⟨z', by rw [foldRes, hp]; exact h1, ?_, ?_, h4⟩
      · intro k hkk
        rw [h2 k hkk, getIn_cons]
        have hek : ¬ e.key = k := by
          rintro rfl
          exact (by decide +kernel : ∀ k ∈ textKeys, k ∉ numberKeys) _ hkk hk
        rw [if_neg hek]
        simp
      · intro k hkk
        rw [h3 k hkk, getIn_cons]
        simp only [Dict.get?_set]
        by_cases hek : e.key = k
        · rw [if_pos hek]
          subst hek
          cases hg : getIn es e.key with
          | none => simp [hi]
          | some v =>
            have hvi : (parseInt v).isSome = true := by
              unfold getIn at hg
              obtain ⟨x, hx, rfl⟩ := Option.map_eq_some_iff.mp hg
              have hm := List.mem_of_find?_eq_some hx
              have hxk := List.find?_some hx
              simp only [decide_eq_true_eq] at hxk
              rcases (hes x (List.mem_reverse.mp hm)).1 with h' | h'
              · rw [hxk] at h'
                exact absurd hk ((by decide +kernel : ∀ k ∈ textKeys, k ∉ numberKeys) _ h')
              · exact h'.2
            obtain ⟨j, hj⟩ := Option.isSome_iff_exists.mp hvi
            simp [hj]
        · rw [if_neg hek, if_neg (by intro h; exact hek h.symm)]
          simp

/-! ### The zone record -/

theorem not_infix_sep {p a b : List Char} {c : Char} (hc : c ∉ p) (ha : ¬ p <:+: a) (hb : ¬ p <:+: b) : ¬ p <:+: a ++ c :: b := by
  induction a with
  | nil =>
    intro h
    rcases List.infix_cons_iff.mp h with h | h
    · cases p with
      | nil => exact hb (List.nil_infix)
      | cons d p =>
        rw [List.cons_prefix_cons] at h
        exact hc (by simp [h.1])
    · exact hb h
  | cons d a ih =>
    intro h
    rw [List.cons_append] at h
    rcases List.infix_cons_iff.mp h with h | h
    · obtain ⟨t, ht⟩ := h
      have hle : p.length ≤ (d :: a).length := by
        rcases Nat.lt_or_ge (d :: a).length p.length with h' | h'
        · exfalso
          apply hc
          have := congrArg (fun l : List Char => l[(d :: a).length]?) ht
          rw [List.getElem?_append_left h'] at this
          rw [show d :: (a ++ c :: b) = (d :: a) ++ c :: b by rfl, List.getElem?_append_right (by simp), Nat.sub_self] at this
          exact List.mem_of_getElem? this
        · exact h'
      have : p <+: d :: a := List.prefix_of_prefix_length_le ⟨t, ht⟩ ⟨c :: b, rfl⟩ hle
      exact ha this.isInfix
    · exact ih (fun h => ha (List.infix_cons h)) h

/-- No quotes and no parentheses. -/
def Clean (s : List Char) : Prop := '"' ∉ s ∧ '(' ∉ s ∧ ')' ∉ s

theorem Clean.append {a b : List Char} (ha : Clean a) (hb : Clean b) : Clean (a ++ b) := by
  refine ⟨?_, ?_, ?_⟩
  · simp [ha.1, hb.1]
  · simp [ha.2.1, hb.2.1]
  · simp [ha.2.2, hb.2.2]

theorem clean_sep {s : List Char} (h : Sep s) : Clean s := by
  refine ⟨fun hc => ?_, fun hc => ?_, fun hc => ?_⟩ <;>
  · have := h _ hc
    revert this
    decide

theorem clean_style (s : Style) : Clean s.text := by
  unfold Clean
  cases s <;> decide +kernel

theorem clean_entry (e : Entry) (h : e.Ok) : Clean e.text := by
  have hk : Clean e.key.toList := by
    have : e.key ∈ textKeys ++ numberKeys := by
      rcases h.1 with h | h
      · exact List.mem_append_left _ h
      · exact List.mem_append_right _ h.1
    exact (by unfold Clean; decide +kernel : ∀ k ∈ textKeys ++ numberKeys, Clean k.toList) _ this
  have hv : Clean e.value :=
    ⟨fun hc => (h.2.2.1 _ hc).2.2.1 rfl, fun hc => (h.2.2.1 _ hc).2.2.2.2.1 rfl, fun hc => (h.2.2.1 _ hc).2.2.2.2.2 rfl⟩
  unfold Entry.text
  exact ((hk.append (clean_style _)).append hv).append (clean_sep h.2.2.2)

theorem clean_entries (es : List Entry) (h : ∀ e ∈ es, e.Ok) : Clean (es.flatMap Entry.text) := by
  induction es with
  | nil => exact ⟨by simp, by simp, by simp⟩
  | cons e es ih =>
    rw [List.flatMap_cons]
    exact (clean_entry e (h e (by simp))).append (ih (fun x hx => h x (by simp [hx])))

/-- The text of the location. -/
def locText : Option (Location × List Entry) → List Char
  | none => []
  | some (l, es) => l.text ++ es.flatMap Entry.text

theorem quote_loc (r : Record) (h : r.Ok) : '"' ∉ locText r.location := by
  cases hl : r.location with
  | none => simp [locText]
  | some p =>
    obtain ⟨l, es⟩ := p
    obtain ⟨h1, h2, _⟩ := h.h_loc l es hl
    have hc := (clean_entries es h2).1
    have hv : '"' ∉ "VARLOCATION".toList := by decide +kernel
    have hs := (clean_sep h1.2.2.2.2.2.1).1
    unfold locText Location.text
    generalize "VARLOCATION".toList = v at *
    simp [hc, hv, hs, h1.2.2.1, h1.2.2.2.2.1]

/-- What the title leaves behind. -/
structure Pre (pre : List Char) (W : List (List Char)) (tt : Option (List Char)) : Prop where
  clean : Clean pre
  loc : ∀ s, ¬ "VARLOCATION".toList <:+: s → ¬ "VARLOCATION".toList <:+: pre ++ s
  last : ∀ c, pre.getLast? = some c → c = ',' ∨ c = ' '
  words : ∀ s, ((Tecplot.words (pre ++ s)).filter fun w => decide (w ≠ ['='])) = W ++ ((Tecplot.words s).filter fun w => decide (w ≠ ['=']))
  pairs : ∀ ws z, ∃ z', Tecplot.pairs (W ++ ws) z = Tecplot.pairs ws z' ∧ z'.ints = z.ints ∧ ∀ k, k ≠ "T" → z'.strs.get? k = z.strs.get? k

theorem sep_last {s : List Char} (h : Sep s) (c : Char) (hc : s.getLast? = some c) : c = ',' ∨ c = ' ' :=
  h c (List.mem_of_getLast? hc)

theorem takeTitle_record (r : Record) (h : r.Ok) : ∃ pre W tt, Pre pre W tt ∧
    takeTitle r.text = (pre ++ (r.entries.flatMap Entry.text ++ locText r.location), tt) := by
  have hb : '"' ∉ r.entries.flatMap Entry.text ++ locText r.location := by
    simp only [List.mem_append, not_or]
    exact ⟨(clean_entries _ h.h_entries).1, quote_loc r h⟩
  have hrt : r.text = (match r.title with | none => [] | some (s, t, sep) => 'T' :: s.text ++ '"' :: (t ++ '"' :: sep)) ++
      (r.entries.flatMap Entry.text ++ locText r.location) := by
    unfold Record.text locText
    cases r.location
    · rw [List.append_nil, List.append_nil]
      rfl
    · rw [List.append_assoc]
      rfl
  rw [hrt]
  generalize r.entries.flatMap Entry.text ++ locText r.location = body at *
  cases ht : r.title with
  | none =>
    refine ⟨[], [], none, ⟨⟨by simp, by simp, by simp⟩, fun s h => h, by simp, fun s => rfl, fun ws z => ⟨z, rfl, rfl, fun _ _ => rfl⟩⟩, ?_⟩
    rw [List.nil_append, takeTitle_none _ hb]
  | some p =>
    obtain ⟨s, t, sep⟩ := p
    obtain ⟨h1, h2, h3⟩ := h.h_title s t sep ht
    have hw : IsWord "PLACEHOLDER".toList ∧ '=' ∉ "PLACEHOLDER".toList ∧ Clean "PLACEHOLDER".toList := by
      refine ⟨⟨⟨by decide +kernel, by decide +kernel⟩, by decide +kernel⟩, by decide +kernel, by unfold Clean; decide +kernel⟩
    have hT : IsWord ['T'] := ⟨⟨by simp, by decide⟩, by decide⟩
    refine ⟨('T' :: s.text) ++ "PLACEHOLDER".toList ++ sep, usedWords ['T'] s "PLACEHOLDER".toList, some t, ⟨?_, ?_, ?_, ?_, ?_⟩, ?_⟩
    · have : Clean ('T' :: s.text) := Clean.append (a := ['T']) (by unfold Clean; decide) (clean_style s)
      exact (this.append hw.2.2).append (clean_sep h2)
    · intro u hu
      have h0 : ¬ "VARLOCATION".toList <:+: ('T' :: s.text) ++ "PLACEHOLDER".toList := by
        rw [← hasSub_iff]
        cases s <;> decide +kernel
      have hv : ',' ∉ "VARLOCATION".toList ∧ ' ' ∉ "VARLOCATION".toList := by decide +kernel
      generalize "VARLOCATION".toList = v at *
      generalize ('T' :: s.text) ++ "PLACEHOLDER".toList = pre at *
      rw [List.append_assoc]
      have : ¬ v <:+: sep ++ u ∧ ∀ pre, ¬ v <:+: pre → ¬ v <:+: pre ++ (sep ++ u) := by
        clear h0 ht
        induction sep with
        | nil => exact absurd rfl h3
        | cons c sep ih =>
          have hc : c ∉ v := by
            rcases h2 c (by simp) with rfl | rfl
            · exact hv.1
            · exact hv.2
          have hin : ¬ v <:+: sep ++ u := by
            cases sep with
            | nil => exact hu
            | cons d sep => exact (ih (fun x hx => h2 x (by simp [hx])) (by simp)).1
          have hvn : ¬ v <:+: [] := by
            intro h
            rw [List.infix_nil] at h
            rw [h] at hin
            exact hin List.nil_infix
          exact ⟨not_infix_sep (a := []) hc hvn hin, fun pre hp => not_infix_sep hc hp hin⟩
      exact this.2 _ h0
    · intro c hc
      rw [List.getLast?_append] at hc
      cases hl : sep.getLast? with
      | none => rw [List.getLast?_eq_none_iff] at hl; exact absurd hl h3
      | some d =>
        rw [hl] at hc
        simp at hc
        exact hc ▸ sep_last h2 d hl
    · intro u
      have := words_body ['T'] "PLACEHOLDER".toList s hT hw.1 sep u h2 (Or.inl h3)
      have e : ('T' :: s.text) ++ "PLACEHOLDER".toList ++ sep ++ u = ['T'] ++ s.text ++ "PLACEHOLDER".toList ++ sep ++ u := rfl
      rw [e, this, List.filter_append]
      rfl
    · intro ws z
      rw [pairs_entry _ _ _ (by decide) hw.2.1 (by simp) hw.1.1.1]
      have hp : put z ['T'] "PLACEHOLDER".toList = .ok { z with strs := z.strs.set "T" "PLACEHOLDER".toList } := by
        unfold put
        have : String.ofList ['T'] = "T" := by decide +kernel
        rw [this]
        rfl
      rw [hp]
      refine ⟨_, rfl, rfl, ?_⟩
      intro k hk
      simp only [Dict.get?_set]
      rw [if_neg hk]
    · have := takeTitle_some ('T' :: s.text) t (sep ++ body) (by
        have := (clean_style s).1
        simp [this]) h1 (by simp [(clean_sep h2).1, hb])
      rw [show 'T' :: s.text ++ "PLACEHOLDER".toList ++ sep ++ body = 'T' :: s.text ++ "PLACEHOLDER".toList ++ (sep ++ body) from
        List.append_assoc _ _ _, ← this]
      simp

theorem readZone_ok (r : Record) (h : r.Ok) : ∃ z, readZone ("ZONE ".toList ++ r.text) = .ok z ∧
    (∀ k ∈ textKeys, z.strs.get? k = r.get k) ∧ (∀ k ∈ numberKeys, z.ints.get? k = r.num k) ∧
    z.strs.get? "VARLOCATION" = r.location.map fun p => '(' :: joinWith ',' (p.1.groups.map Group.text) ++ [')'] := by
  obtain ⟨pre, W, tt, hp, ht⟩ := takeTitle_record r h
  have hd : ("ZONE ".toList ++ r.text).drop 5 = r.text := List.drop_left' (by decide +kernel)
  have key : ∃ rest lo, takeLocation (pre ++ (r.entries.flatMap Entry.text ++ locText r.location)) = (pre ++ rest, lo) ∧
      ((words rest).filter fun w => decide (w ≠ ['='])) = entryWords r.all ∧
      lo = r.location.map fun p => '(' :: joinWith ',' (p.1.groups.map Group.text) ++ [')'] := by
    cases hl : r.location with
    | none =>
      refine ⟨r.entries.flatMap Entry.text, none, ?_, ?_, rfl⟩
      · have := h.h_none hl
        unfold locText
        rw [List.append_nil, takeLocation_none _ (hp.loc _ this)]
      · have := words_entries r.entries h.h_entries h.h_sep [] (Or.inl rfl)
        rw [List.append_nil] at this
        rw [this]
        unfold Record.all
        rw [hl, List.append_nil]
        exact List.append_nil _
    | some p =>
      obtain ⟨l, es⟩ := p
      obtain ⟨h1, h2, h3, _, h5, h6⟩ := h.h_loc l es hl
      refine ⟨r.entries.flatMap Entry.text ++ (l.sep ++ es.flatMap Entry.text), _, ?_, ?_, rfl⟩
      · have hc := hp.clean.append (clean_entries _ h.h_entries)
        have := takeLocation_some (pre ++ r.entries.flatMap Entry.text) l.gap l.inner (l.sep ++ es.flatMap Entry.text) (hp.loc _ h6) (by
          intro c hc
          cases hrev : r.entries.reverse with
          | nil =>
            have : r.entries = [] := by simpa using hrev
            rw [this] at hc
            simp only [List.flatMap_nil, List.append_nil] at hc
            exact hp.last c hc
          | cons e es' =>
            have he : r.entries = es'.reverse ++ [e] := by
              rw [← List.reverse_reverse r.entries, hrev, List.reverse_cons]
            have hm : e ∈ r.entries := by rw [he]; simp
            have hs := (h.h_entries e hm).2.2.2
            have hne := h5 e hm
            rw [he] at hc
            simp only [List.flatMap_append, List.flatMap_cons, List.flatMap_nil, List.append_nil, Entry.text] at hc
            rw [← List.append_assoc, ← List.append_assoc, List.getLast?_append] at hc
            cases hls : e.sep.getLast? with
            | none => rw [List.getLast?_eq_none_iff] at hls; exact absurd hls hne
            | some d =>
              rw [hls] at hc
              simp at hc
              exact hc ▸ sep_last hs d hls) hc.2 ⟨h1.1, h1.2.1⟩ h1.2.2.2.1
        rw [h1.2.2.2.2.2.2.1] at this
        simp only [Option.map_some]
        rw [List.append_assoc] at this
        have e : pre ++ (r.entries.flatMap Entry.text ++ locText (some (l, es))) =
            pre ++ (r.entries.flatMap Entry.text ++ ("VARLOCATION".toList ++ (l.gap ++ '(' :: (l.inner ++ ')' :: (l.sep ++ es.flatMap Entry.text))))) := by
          unfold locText Location.text
          generalize "VARLOCATION".toList = v
          simp
        rw [e, this, List.append_assoc]
      · rw [words_entries r.entries h.h_entries h.h_sep _ (Or.inr h5), words_seps h1.2.2.2.2.2.1]
        have := words_entries es h2 h3 [] (Or.inl rfl)
        rw [List.append_nil] at this
        rw [this]
        unfold Record.all
        rw [hl]
        unfold entryWords
        rw [List.flatMap_append]
        simp only [List.append_assoc]
        congr 1
        exact List.append_nil _
  obtain ⟨rest, lo, hk1, hk2, hk3⟩ := key
  have hall : ∀ e ∈ r.all, e.Ok := by
    intro e he
    unfold Record.all at he
    rcases List.mem_append.mp he with he | he
    · exact h.h_entries e he
    · cases hl : r.location with
      | none => rw [hl] at he; cases he
      | some p =>
        obtain ⟨l, es⟩ := p
        rw [hl] at he
        exact (h.h_loc l es hl).2.1 e he
  let z0 : Zone := ⟨locDict lo, []⟩
  obtain ⟨z1, hz1, hz1i, hz1s⟩ := hp.pairs (entryWords r.all) z0
  obtain ⟨z2, hz2, h2s, h2i, h2l⟩ := putEntries r.all hall z1
  have hpairs : pairs (W ++ entryWords r.all) z0 = .ok z2 := by
    rw [hz1]
    have := pairs_entries r.all hall [] z1
    rw [List.append_nil, hz2] at this
    rw [this]
    rfl
  have g1 : ∀ k ∈ textKeys, z2.strs.get? k = r.get k := by
    intro k hk
    rw [h2s k hk, hz1s k ((by decide +kernel : ∀ k ∈ textKeys, k ≠ "T") k hk)]
    have : z0.strs.get? k = none := by
      show Dict.get? (locDict lo) k = none
      cases lo with
      | none => rfl
      | some s =>
        simp only [locDict, Dict.get?_cons]
        rw [if_neg ((by decide +kernel : ∀ k ∈ textKeys, k ≠ "VARLOCATION") k hk)]
        rfl
    rw [this, Option.or_none]
    rfl
  have g2 : ∀ k ∈ numberKeys, z2.ints.get? k = r.num k := by
    intro k hk
    rw [h2i k hk, hz1i]
    show Option.or _ none = _
    rw [Option.or_none]
    rfl
  have g3 : z2.strs.get? "VARLOCATION" = r.location.map fun p => '(' :: joinWith ',' (p.1.groups.map Group.text) ++ [')'] := by
    rw [h2l, hz1s _ (by decide), ← hk3]
    show Dict.get? (locDict lo) "VARLOCATION" = lo
    cases lo with
    | none => rfl
    | some s =>
      simp only [locDict, Dict.get?_cons]
      rw [if_pos trivial]
  have hz : readZone ("ZONE ".toList ++ r.text) = withTitle z2 tt := by
    unfold readZone
    rw [hd, ht]
    simp only
    rw [hk1]
    simp only
    rw [hp.words, hk2]
    show (match pairs (W ++ entryWords r.all) z0 with
      | .error e => (.error e : Res Zone)
      | .ok z => withTitle z tt) = _
    rw [hpairs]
  cases tt with
  | none => exact ⟨z2, hz, g1, g2, g3⟩
  | some s =>
    rw [withTitle] at hz
    by_cases hs : s = []
    · rw [if_pos hs] at hz
      exact ⟨z2, hz, g1, g2, g3⟩
    · rw [if_neg hs] at hz
      refine ⟨_, hz, ?_, g2, ?_⟩
      · intro k hk
        simp only [Dict.get?_set]
        rw [if_neg ((by decide +kernel : ∀ k ∈ textKeys, k ≠ "T") k hk), g1 k hk]
      · simp only [Dict.get?_set]
        rw [if_neg (by decide), g3]

end Tecplot
end Meshio
