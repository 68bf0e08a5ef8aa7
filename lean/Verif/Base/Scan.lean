/-
`np.fromfile(..., sep=" ")` over whole rows of numbers.
-/
import Verif.Base.Lines
namespace Meshio

variable {F : Type}

theorem scan_step' (parse : List Char → Option F) (n : Nat) (w t : List Char) (hw : ∀ c ∈ w, isWs c = true) (ht : IsTok t)
    (x : F) (hx : parse t = some x) (c : Char) (hc : isWs c = true) (s : List Char) :
    scan parse (n + 1) (w ++ (t ++ c :: s)) = (x :: (scan parse n (c :: s)).1, (scan parse n (c :: s)).2) := by
  have e1 : (w ++ (t ++ c :: s)).dropWhile isWs = t ++ c :: s := by
    rw [List.dropWhile_append_of_pos hw]
    apply dropWhile_head_not
    intro d hd
    obtain ⟨hne, hws⟩ := ht
    cases t with
    | nil => exact absurd rfl hne
    | cons a t => simp only [List.cons_append, List.head?_cons, Option.some.injEq] at hd; subst hd; exact hws a (by simp)
  have e2 : (t ++ c :: s).takeWhile (fun c => !isWs c) = t := by
    rw [List.takeWhile_append_of_pos (by intro d hd; simp [ht.2 d hd])]
    simp [hc]
  have e3 : (t ++ c :: s).dropWhile (fun c => !isWs c) = c :: s := by
    rw [List.dropWhile_append_of_pos (by intro d hd; simp [ht.2 d hd])]
    simp [hc]
  rw [scan]
  simp only [e1, e2, e3, hx]
  rw [if_neg (by simp)]

theorem scan_row' {A : Type} (parse : List Char → Option F) (fmt : A → List Char) (rnd : A → F) (htok : ∀ x, IsTok (fmt x))
    (xs : List A) (hp : ∀ x ∈ xs, parse (fmt x) = some (rnd x)) (hne : xs ≠ []) (w : List Char)
    (hw : ∀ c ∈ w, isWs c = true) (n : Nat) (s : List Char) :
    scan parse (xs.length + n) (w ++ (joinWith ' ' (xs.map fmt) ++ '\n' :: s)) =
      (xs.map rnd ++ (scan parse n ('\n' :: s)).1, (scan parse n ('\n' :: s)).2) := by
  induction xs generalizing w with
  | nil => exact absurd rfl hne
  | cons x xs ih =>
    cases xs with
    | nil =>
      rw [show [x].length + n = n + 1 by simp; omega]
      exact scan_step' parse n w _ hw (htok x) _ (hp x (by simp)) '\n' (by decide) s
    | cons y ys =>
      have ih := ih (fun z hz => hp z (by simp [hz])) (by simp) [' '] (by intro c hc; simp at hc; subst hc; decide)
      have e : joinWith ' ' ((x :: y :: ys).map fmt) ++ '\n' :: s =
          fmt x ++ ' ' :: (joinWith ' ' ((y :: ys).map fmt) ++ '\n' :: s) := by
        simp [joinWith]
      rw [e, show (x :: y :: ys).length + n = ((y :: ys).length + n) + 1 by simp; omega,
        scan_step' parse _ w _ hw (htok x) _ (hp x (by simp)) ' ' (by decide)]
      simp only [List.cons_append, List.nil_append] at ih
      rw [ih]
      rfl

/-- Reading whole rows stops before the last newline. -/
theorem scan_rows' {A : Type} (parse : List Char → Option F) (fmt : A → List Char) (rnd : A → F) (htok : ∀ x, IsTok (fmt x))
    (rows : List (List A)) (hp : ∀ r ∈ rows, ∀ x ∈ r, parse (fmt x) = some (rnd x)) (hne : ∀ r ∈ rows, r ≠ []) (w : List Char)
    (hw : ∀ c ∈ w, isWs c = true) (rest : List Char) :
    scan parse rows.flatten.length (w ++ (linesText (rows.map fun r => joinWith ' ' (r.map fmt)) ++ rest)) =
      (rows.flatten.map rnd, if rows = [] then w ++ rest else '\n' :: rest) := by
  induction rows generalizing w with
  | nil => simp [scan, linesText]
  | cons r rows ih =>
    rw [List.flatten_cons, List.length_append, List.map_cons, linesText_cons, List.append_assoc, List.cons_append,
      scan_row' parse fmt rnd htok r (hp r (by simp)) (hne r (by simp)) w hw]
    have := ih (fun r' h' => hp r' (by simp [h'])) (fun r' h' => hne r' (by simp [h'])) ['\n']
      (by intro c hc; simp at hc; subst hc; decide)
    rw [List.cons_append, List.nil_append] at this
    rw [this]
    cases rows <;> simp

theorem splitWs_tok_split (s : List Char) (t : List Char) (ts : List (List Char)) (h : splitWs s = t :: ts) :
    ∃ w r, s = w ++ (t ++ r) ∧ (∀ c ∈ w, isWs c = true) ∧ IsTok t ∧ (∀ c, r.head? = some c → isWs c = true) ∧ splitWs r = ts := by
  obtain ⟨h1, h2, h3⟩ := splitWs_dropTok s t ts h
  have hhead : ∀ c, (s.dropWhile isWs).head? = some c → isWs c = false := by
    intro c hc
    have := List.head?_dropWhile_not isWs s
    rw [hc] at this
    simpa using this
  refine ⟨s.takeWhile isWs, (s.dropWhile isWs).dropWhile (fun c => !isWs c), ?_, takeWhile_all _ _, ⟨?_, ?_⟩, ?_, h2⟩
  · conv => lhs; rw [← List.takeWhile_append_dropWhile (p := isWs) (l := s),
      ← List.takeWhile_append_dropWhile (p := fun c => !isWs c) (l := s.dropWhile isWs), h1]
  · rw [← h1]
    cases hs : s.dropWhile isWs with
    | nil => exact absurd hs h3
    | cons c u => rw [hs] at hhead; simp [hhead c rfl]
  · intro c hc
    rw [← h1] at hc
    simpa using takeWhile_all _ _ _ hc
  · intro c hc
    have := List.head?_dropWhile_not (fun c => !isWs c) (s.dropWhile isWs)
    rw [hc] at this
    simpa using this

/-- Reading all the numbers of a text that ends with whitespace; what follows the text does not begin with whitespace. -/
theorem scan_text (parse : List Char → Option F) (toks : List (List Char)) (xs : List F) (hp : toks.map parse = xs.map some)
    (a : List Char) (ha : splitWs a = toks) (hend : ∀ c, a.getLast? = some c → isWs c = true) (rest : List Char)
    (hr : ∀ c, rest.head? = some c → isWs c = false) :
    (scan parse xs.length (a ++ rest)).1 = xs ∧ (scan parse xs.length (a ++ rest)).2.dropWhile isWs = rest := by
  induction xs generalizing a toks with
  | nil =>
    have : toks = [] := by simpa using hp
    subst this
    refine ⟨rfl, ?_⟩
    show (a ++ rest).dropWhile isWs = rest
    rw [List.dropWhile_append_of_pos (splitWs_eq_nil.1 ha), dropWhile_head_not hr]
  | cons x xs ih =>
    cases toks with
    | nil => simp at hp
    | cons t toks =>
      simp only [List.map_cons, List.cons.injEq] at hp
      obtain ⟨w, r, rfl, hw, ht, hrw, hts⟩ := splitWs_tok_split a t toks ha
      have hrne : r ≠ [] := by
        intro e
        subst e
        obtain ⟨hne, hws⟩ := ht
        have := hend (t.getLast hne) (by
          rw [List.append_nil, List.getLast?_append, List.getLast?_eq_some_getLast hne]; rfl)
        rw [hws _ (List.getLast_mem hne)] at this
        cases this
      obtain ⟨c, r', rfl⟩ := List.exists_cons_of_ne_nil hrne
      have hc : isWs c = true := hrw c rfl
      have e : w ++ (t ++ c :: r') ++ rest = w ++ (t ++ c :: (r' ++ rest)) := by simp
      rw [e, List.length_cons, scan_step' parse xs.length w t hw ht x hp.1 c hc (r' ++ rest)]
      have := ih toks hp.2 (c :: r') hts (by
        intro d hd
        apply hend
        rw [List.getLast?_append, List.getLast?_append, hd]; rfl)
      rw [List.cons_append] at this
      exact ⟨by rw [this.1], this.2⟩

/-- The words of lines. -/
theorem splitWs_lines (ls : List (List Char)) : splitWs (linesText ls) = ls.flatMap splitWs := by
  induction ls with
  | nil => rfl
  | cons l ls ih =>
    rw [linesText_cons, List.flatMap_cons, ← ih]
    have h1 : ∀ (s cur r : List Char), splitWsGo (s ++ '\n' :: r) cur = splitWsGo s cur ++ splitWsGo r [] := by
      intro s
      induction s with
      | nil =>
        intro cur r
        simp only [List.nil_append, splitWsGo, show isWs '\n' = true by decide, if_true]
        split <;> simp
      | cons c s ih =>
        intro cur r
        simp only [List.cons_append, splitWsGo, ih]
        split
        · split <;> simp
        · rfl
    exact h1 l [] _

theorem linesText_end (ls : List (List Char)) : ∀ c, (linesText ls).getLast? = some c → isWs c = true := by
  intro c hc
  induction ls with
  | nil => cases hc
  | cons l ls ih =>
    rw [linesText_cons, List.getLast?_append] at hc
    cases ls with
    | nil =>
      simp [linesText] at hc
      subst hc; decide
    | cons m ls =>
      apply ih
      have hne : linesText (m :: ls) ≠ [] := by rw [linesText_cons]; simp
      obtain ⟨d, r, hd⟩ := List.exists_cons_of_ne_nil hne
      rw [hd, List.getLast?_cons_cons] at hc
      rw [hd]
      rw [List.getLast?_eq_some_getLast (by simp : d :: r ≠ [])] at hc ⊢
      exact hc

end Meshio
