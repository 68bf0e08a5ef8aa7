/-
Python's `re` for patterns made of character classes, sequences, alternatives and greedy repetition, as a backtracking matcher.
-/
import Verif.Base.File
namespace Meshio

/-- Patterns. -/
inductive Re where
  | eps : Re
  | chr (p : Char → Bool) : Re
  | seq (a b : Re) : Re
  | alt (a b : Re) : Re
  | star (a : Re) : Re

namespace Re

/-- `a?` -/
def opt (a : Re) : Re := alt a eps

/-- `a+` -/
def plus (a : Re) : Re := seq a (star a)

/-- A fixed character. -/
def lit (c : Char) : Re := chr fun d => decide (d = c)

/-- Patterns one after the other. -/
def seqs : List Re → Re
  | [] => eps
  | a :: l => seq a (seqs l)

/-- Repeat as often as possible; an iteration has to consume something. -/
def starEnds (f : List Char → List (List Char)) : Nat → List Char → List (List Char)
  | 0, s => [s]
  | n + 1, s => ((f s).filter fun e => decide (e.length < s.length)).flatMap (starEnds f n) ++ [s]

/-- What can remain of a text after a match at its beginning, in the order in which backtracking tries the matches. -/
def ends : Re → List Char → List (List Char)
  | eps, s => [s]
  | chr _, [] => []
  | chr p, c :: s => if p c then [s] else []
  | seq a b, s => (ends a s).flatMap (ends b)
  | alt a b, s => ends a s ++ ends b s
  | star a, s => starEnds (ends a) s.length s

/-- `re.match(s)`: what remains of the text. -/
def first (r : Re) (s : List Char) : Option (List Char) := (ends r s).head?

/-- The part of `s` before `e`. -/
def before (s e : List Char) : List Char := s.take (s.length - e.length)

/-- `re.finditer(s)` for a pattern that does not match the empty text: the texts of the matches from left to right. -/
def findIterF (r : Re) : Nat → List Char → List (List Char)
  | 0, _ => []
  | _, [] => []
  | n + 1, c :: s =>
    match first r (c :: s) with
    | some e => before (c :: s) e :: findIterF r n e
    | none => findIterF r n s

/-- `re.finditer(s)` -/
def findIter (r : Re) (s : List Char) : List (List Char) := findIterF r s.length s

/-! ### The language of a pattern -/

/-- The texts a pattern matches. -/
inductive Matches : Re → List Char → Prop
  | eps : Matches eps []
  | chr {p : Char → Bool} {c : Char} : p c = true → Matches (chr p) [c]
  | seq {a b : Re} {u v : List Char} : Matches a u → Matches b v → Matches (seq a b) (u ++ v)
  | altl {a b : Re} {u : List Char} : Matches a u → Matches (alt a b) u
  | altr {a b : Re} {u : List Char} : Matches b u → Matches (alt a b) u
  | starNil {a : Re} : Matches (star a) []
  | starCons {a : Re} {u v : List Char} : Matches a u → Matches (star a) v → Matches (star a) (u ++ v)

theorem ends_sound (r : Re) : ∀ s e, e ∈ ends r s → ∃ u, s = u ++ e ∧ Matches r u := by
  induction r with
  | eps =>
    intro s e h
    rw [ends, List.mem_singleton] at h
    subst h
    exact ⟨[], rfl, .eps⟩
  | chr p =>
    intro s e h
    cases s with
    | nil => simp [ends] at h
    | cons c s =>
      rw [ends] at h
      split at h
      · next hp =>
        rw [List.mem_singleton] at h
        subst h
        exact ⟨[c], rfl, .chr hp⟩
      · simp at h
  | seq a b iha ihb =>
    intro s e h
    rw [ends] at h
    obtain ⟨m, hm, he⟩ := List.mem_flatMap.1 h
    obtain ⟨u, rfl, hu⟩ := iha s m hm
    obtain ⟨v, rfl, hv⟩ := ihb m e he
    exact ⟨u ++ v, by simp, .seq hu hv⟩
  | alt a b iha ihb =>
    intro s e h
    rw [ends] at h
    rcases List.mem_append.1 h with h | h
    · obtain ⟨u, h1, hu⟩ := iha s e h
      exact ⟨u, h1, .altl hu⟩
    · obtain ⟨u, h1, hu⟩ := ihb s e h
      exact ⟨u, h1, .altr hu⟩
  | star a iha =>
    intro s e h
    rw [ends] at h
    generalize s.length = n at h
    induction n generalizing s with
    | zero =>
      rw [starEnds, List.mem_singleton] at h
      subst h
      exact ⟨[], rfl, .starNil⟩
    | succ n ih =>
      rw [starEnds] at h
      rcases List.mem_append.1 h with h | h
      · obtain ⟨m, hm, he⟩ := List.mem_flatMap.1 h
        obtain ⟨u, rfl, hu⟩ := iha s m (List.mem_filter.1 hm).1
        obtain ⟨v, rfl, hv⟩ := ih m he
        exact ⟨u ++ v, by simp, .starCons hu hv⟩
      · rw [List.mem_singleton] at h
        subst h
        exact ⟨[], rfl, .starNil⟩

/-- The characters a pattern can consume. -/
def uses : Re → Char → Bool
  | eps, _ => false
  | chr p, c => p c
  | seq a b, c => uses a c || uses b c
  | alt a b, c => uses a c || uses b c
  | star a, c => uses a c

theorem Matches.uses {r : Re} {u : List Char} (h : Matches r u) : ∀ c ∈ u, r.uses c = true := by
  induction h with
  | eps => simp
  | chr hp => intro d hd; rw [List.mem_singleton] at hd; subst hd; exact hp
  | seq _ _ iha ihb =>
    intro c hc
    rw [Re.uses, Bool.or_eq_true]
    rcases List.mem_append.1 hc with hc | hc
    · exact Or.inl (iha c hc)
    · exact Or.inr (ihb c hc)
  | altl _ ih => intro c hc; rw [Re.uses, Bool.or_eq_true]; exact Or.inl (ih c hc)
  | altr _ ih => intro c hc; rw [Re.uses, Bool.or_eq_true]; exact Or.inr (ih c hc)
  | starNil => simp
  | starCons _ _ iha ihb =>
    intro c hc
    rcases List.mem_append.1 hc with hc | hc
    · exact iha c hc
    · exact ihb c hc

/-! ### The preferred match -/

theorem first_eps (s : List Char) : first eps s = some s := rfl

theorem first_lit (c : Char) (s : List Char) : first (lit c) (c :: s) = some s := by
  simp [first, lit, ends]

theorem first_seq {a b : Re} {s s1 s2 : List Char} (h1 : first a s = some s1) (h2 : first b s1 = some s2) :
    first (seq a b) s = some s2 := by
  unfold first at *
  rw [ends]
  cases ha : ends a s with
  | nil => rw [ha] at h1; cases h1
  | cons x l =>
    rw [ha] at h1
    cases h1
    rw [List.flatMap_cons]
    cases hb : ends b s1 with
    | nil => rw [hb] at h2; cases h2
    | cons y k =>
      rw [hb] at h2
      cases h2
      rfl

theorem first_alt_left {a b : Re} {s s1 : List Char} (h1 : first a s = some s1) : first (alt a b) s = some s1 := by
  unfold first at *
  rw [ends]
  cases ha : ends a s with
  | nil => rw [ha] at h1; cases h1
  | cons x l => rw [ha] at h1; exact h1

theorem first_alt_right {a b : Re} {s : List Char} (h1 : ends a s = []) : first (alt a b) s = first b s := by
  unfold first
  rw [ends, h1]
  rfl

theorem first_opt_none {a : Re} {s : List Char} (h1 : ends a s = []) : first (opt a) s = some s := first_alt_right h1

theorem starEnds_fuel (f : List Char → List (List Char)) (n : Nat) (s : List Char) (h : s.length ≤ n) :
    starEnds f n s = starEnds f s.length s := by
  induction n using Nat.strongRecOn generalizing s with
  | ind n ih =>
    cases n with
    | zero =>
      have : s.length = 0 := by omega
      rw [this]
    | succ n =>
      cases hs : s.length with
      | zero =>
        have : ((f s).filter fun e => decide (e.length < s.length)) = [] := by
          rw [List.filter_eq_nil_iff]
          intro e _
          simp [hs]
        rw [starEnds, starEnds, this]
        rfl
      | succ k =>
        rw [starEnds, starEnds]
        congr 1
        refine flatMap_congr' ?_
        intro e he
        have hlt := (List.mem_filter.1 he).2
        rw [decide_eq_true_eq] at hlt
        rw [ih n (by omega) e (by omega), ih k (by omega) e (by omega)]

theorem first_star_step {a : Re} {s s1 s2 : List Char} (h1 : first a s = some s1) (hl : s1.length < s.length)
    (h2 : first (star a) s1 = some s2) : first (star a) s = some s2 := by
  unfold first at *
  rw [ends] at *
  cases hn : s.length with
  | zero => omega
  | succ n =>
    rw [starEnds]
    cases ha : ends a s with
    | nil => rw [ha] at h1; cases h1
    | cons x l =>
      rw [ha] at h1
      cases h1
      rw [List.filter_cons, if_pos (by simpa using hl), List.flatMap_cons, starEnds_fuel _ n _ (by omega)]
      cases hb : starEnds (ends a) s1.length s1 with
      | nil => rw [hb] at h2; cases h2
      | cons y k => rw [hb] at h2; exact h2

theorem first_star_stop {a : Re} {s : List Char} (h : ends a s = []) : first (star a) s = some s := by
  unfold first
  rw [ends]
  cases hn : s.length with
  | zero => rfl
  | succ n => rw [starEnds, h]; rfl

theorem ends_chr_of_head {p : Char → Bool} {s : List Char} (h : ∀ c, s.head? = some c → p c = false) : ends (chr p) s = [] := by
  cases s with
  | nil => rfl
  | cons c s => rw [ends, h c rfl]; rfl

/-- A run of characters of a class is taken as a whole. -/
theorem first_star_chr {p : Char → Bool} (u rest : List Char) (hu : ∀ c ∈ u, p c = true)
    (hr : ∀ c, rest.head? = some c → p c = false) : first (star (chr p)) (u ++ rest) = some rest := by
  induction u with
  | nil => exact first_star_stop (ends_chr_of_head hr)
  | cons c u ih =>
    refine first_star_step (s1 := u ++ rest) ?_ (by simp) (ih fun d hd => hu d (by simp [hd]))
    rw [List.cons_append, first, ends, hu c (by simp)]
    rfl

theorem first_plus_chr {p : Char → Bool} (u rest : List Char) (hne : u ≠ []) (hu : ∀ c ∈ u, p c = true)
    (hr : ∀ c, rest.head? = some c → p c = false) : first (plus (chr p)) (u ++ rest) = some rest := by
  cases u with
  | nil => exact absurd rfl hne
  | cons c u =>
    refine first_seq (s1 := u ++ rest) ?_ (first_star_chr u rest (fun d hd => hu d (by simp [hd])) hr)
    rw [List.cons_append, first, ends, hu c (by simp)]
    rfl

theorem ends_seq_nil {a b : Re} {s : List Char} (h : ∀ e ∈ ends a s, ends b e = []) : ends (seq a b) s = [] := by
  rw [ends, List.flatMap_eq_nil_iff]
  exact h

theorem ends_star_chr_mem {p : Char → Bool} {s e : List Char} (h : e ∈ ends (star (chr p)) s) :
    ∃ u, s = u ++ e ∧ ∀ c ∈ u, p c = true := by
  obtain ⟨u, h1, h2⟩ := ends_sound _ _ _ h
  exact ⟨u, h1, fun c hc => h2.uses c hc⟩

theorem ends_plus_chr_mem {p : Char → Bool} {s e : List Char} (h : e ∈ ends (plus (chr p)) s) :
    ∃ u, s = u ++ e ∧ ∀ c ∈ u, p c = true := by
  obtain ⟨u, h1, h2⟩ := ends_sound _ _ _ h
  refine ⟨u, h1, fun c hc => ?_⟩
  have := h2.uses c hc
  simpa [plus, uses] using this

/-! ### Scanning -/

theorem before_append (t rest : List Char) : before (t ++ rest) rest = t := by
  unfold before
  rw [List.length_append, Nat.add_sub_cancel, List.take_left]

theorem first_suffix {r : Re} {s e : List Char} (h : first r s = some e) : ∃ u, s = u ++ e ∧ Matches r u := by
  refine ends_sound r s e ?_
  unfold first at h
  exact List.mem_of_mem_head? h

theorem findIterF_fuel (r : Re) (hr : ¬ Matches r []) (n : Nat) (s : List Char) (h : s.length ≤ n) :
    findIterF r n s = findIterF r s.length s := by
  induction n using Nat.strongRecOn generalizing s with
  | ind n ih =>
    cases s with
    | nil => cases n <;> rfl
    | cons c s =>
      cases n with
      | zero => simp at h
      | succ n =>
        simp only [List.length_cons] at h ⊢
        rw [findIterF, findIterF]
        cases hf : first r (c :: s) with
        | none => exact ih n (by omega) s (by omega)
        | some e =>
          obtain ⟨u, hu, hm⟩ := first_suffix hf
          have hl := congrArg List.length hu
          rw [List.length_cons, List.length_append] at hl
          have : u.length ≠ 0 := by
            intro h0
            have := List.eq_nil_of_length_eq_zero h0
            subst this
            exact hr hm
          simp only
          rw [ih n (by omega) e (by omega)]
          by_cases hlt : s.length < n + 1
          · rw [ih s.length (by omega) e (by omega)]
          · omega

theorem findIter_hit {r : Re} (hr : ¬ Matches r []) {t rest : List Char} (h : first r (t ++ rest) = some rest) :
    findIter r (t ++ rest) = t :: findIter r rest := by
  cases t with
  | nil =>
    obtain ⟨u, hu, hm⟩ := first_suffix h
    have hl := congrArg List.length hu
    rw [List.nil_append, List.length_append] at hl
    have := List.eq_nil_of_length_eq_zero (by omega : u.length = 0)
    subst this
    exact absurd hm hr
  | cons c t =>
    unfold findIter
    rw [List.cons_append, List.length_cons, findIterF]
    rw [List.cons_append] at h
    rw [h]
    simp only
    rw [findIterF_fuel r hr (t ++ rest).length rest (by simp)]
    congr 1
    exact before_append (c :: t) rest

theorem findIter_miss {r : Re} {c : Char} {s : List Char} (h : ends r (c :: s) = []) : findIter r (c :: s) = findIter r s := by
  unfold findIter
  rw [List.length_cons, findIterF]
  have : first r (c :: s) = none := by unfold first; rw [h]; rfl
  rw [this]

theorem findIter_nil (r : Re) : findIter r [] = [] := rfl

end Re
end Meshio
