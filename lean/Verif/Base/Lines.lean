/-
Lines of tokens: lemmas shared by the text formats.
-/
import Verif.Base.File
namespace Meshio

variable {F : Type}

/-- Floats with the conversions from and to integers.  `lim` bounds the integers that a float
represents exactly (2^53 for double precision). -/
structure NumIO (F : Type) extends FloatIO F where
  ofInt : Int → F
  toInt : F → Int
  lim : Nat
  parse_int : ∀ i : Int, i.natAbs < lim → parse (fmtInt i) = some (ofInt i)
  toInt_ofInt : ∀ i : Int, i.natAbs < lim → toInt (ofInt i) = i

/-- Integers are a possible choice, with any bound. -/
def NumIO.int (lim : Nat) : NumIO Int where
  toFloatIO := FloatIO.int
  ofInt := id
  toInt := id
  lim := lim
  parse_int i _ := parseInt_fmtInt i
  toInt_ofInt _ _ := rfl

theorem NumIO.ofInt_inj (nio : NumIO F) {i j : Int} (hi : i.natAbs < nio.lim) (hj : j.natAbs < nio.lim)
    (h : nio.ofInt i = nio.ofInt j) : i = j := by
  rw [← nio.toInt_ofInt i hi, ← nio.toInt_ofInt j hj, h]

theorem isTok_fmtNat (n : Nat) : IsTok (fmtNat n) := isTok_fmtInt (n : Int)

theorem joinWith_head (c : Char) (t : List Char) (ts : List (List Char)) (ht : t ≠ []) :
    (joinWith c (t :: ts)).head? = t.head? := by
  cases t with
  | nil => exact absurd rfl ht
  | cons a t => cases ts <;> rfl

theorem joinWith_getLast (c : Char) (ts : List (List Char)) (t : List Char) (ht : t ≠ []) :
    (joinWith c (ts ++ [t])).getLast? = t.getLast? := by
  induction ts with
  | nil => rfl
  | cons a ts ih =>
    have e : joinWith c (a :: ts ++ [t]) = a ++ c :: joinWith c (ts ++ [t]) := by
      cases ts <;> rfl
    have hne : joinWith c (ts ++ [t]) ≠ [] := by
      intro h0
      rw [h0] at ih
      simp only [List.getLast?_nil] at ih
      exact ht (List.getLast?_eq_none_iff.mp ih.symm)
    rw [e, List.getLast?_append, List.getLast?_cons, ih]
    cases hl : t.getLast? with
    | none => exact absurd (List.getLast?_eq_none_iff.mp hl) ht
    | some x => simp

theorem joinWith_ne_nil (c : Char) (t : List Char) (ts : List (List Char)) (ht : t ≠ []) :
    joinWith c (t :: ts) ≠ [] := by
  cases t with
  | nil => exact absurd rfl ht
  | cons a t => cases ts <;> simp [joinWith]

/-- A line of tokens has no whitespace at its ends. -/
theorem strip_line (toks : List (List Char)) (h : ∀ t ∈ toks, IsTok t) (w : List Char)
    (hw : ∀ c ∈ w, isWs c = true) : strip (joinWith ' ' toks ++ w) = joinWith ' ' toks := by
  cases toks with
  | nil =>
    show strip w = []
    rw [strip_eq_nil, splitWs_eq_nil]
    exact hw
  | cons t ts =>
    apply strip_trim _ _ w hw
    · intro c hc
      obtain ⟨hne, hws⟩ := h t (by simp)
      rw [joinWith_head _ _ _ hne] at hc
      exact hws c (List.mem_of_mem_head? hc)
    · intro c hc
      obtain ⟨pre, l, hl⟩ : ∃ pre l, t :: ts = pre ++ [l] := by
        rcases List.eq_nil_or_concat (t :: ts) with h | ⟨a, b, h⟩
        · cases h
        · exact ⟨a, b, by rw [h, List.concat_eq_append]⟩
      obtain ⟨hne, hws⟩ := h l (by rw [hl]; simp)
      rw [hl, joinWith_getLast _ _ _ hne] at hc
      exact hws c (List.mem_of_getLast? hc)

theorem strip_line' (toks : List (List Char)) (h : ∀ t ∈ toks, IsTok t) :
    strip (joinWith ' ' toks) = joinWith ' ' toks := by
  simpa using strip_line toks h [] (by simp)

theorem strip_line_nl (toks : List (List Char)) (h : ∀ t ∈ toks, IsTok t) :
    strip (joinWith ' ' toks ++ ['\n']) = joinWith ' ' toks :=
  strip_line toks h ['\n'] (by intro c hc; simp only [List.mem_singleton] at hc; subst hc; decide)

/-- `line.split(" ")` on a line of tokens. -/
theorem splitOnC_line (t : List Char) (ts : List (List Char)) (h : ∀ x ∈ t :: ts, IsTok x) :
    splitOnC ' ' (joinWith ' ' (t :: ts)) = t :: ts :=
  splitOnC_joinWith ' ' _ (by simp) (by
    intro x hx hm
    exact absurd ((h x hx).2 ' ' hm) (by decide))

theorem splitWs_line (ts : List (List Char)) (h : ∀ x ∈ ts, IsTok x) :
    splitWs (joinWith ' ' ts ++ ['\n']) = ts := by
  have := splitWs_joinWith_ws (w := ' ') (w' := '\n') (by decide) (by decide) ts h []
  simpa using this

theorem no_newline_line (ts : List (List Char)) (h : ∀ x ∈ ts, IsTok x) :
    '\n' ∉ joinWith ' ' ts :=
  not_mem_joinWith (by decide) _ (fun t ht => (h t ht).no_newline)

/-- `np.fromfile(..., sep=" ")` on tokens that are numbers. -/
theorem scan_toks (parse : List Char → Option F) (toks : List (List Char)) (xs : List F)
    (hp : toks.map parse = xs.map some) (s : List Char) (ts : List (List Char))
    (h : splitWs s = toks ++ ts) :
    (scan parse xs.length s).1 = xs ∧ splitWs (scan parse xs.length s).2 = ts := by
  induction xs generalizing s toks with
  | nil =>
    have : toks = [] := by simpa using hp
    subst this
    exact ⟨rfl, by simpa [scan] using h⟩
  | cons x xs ih =>
    cases toks with
    | nil => simp at hp
    | cons t toks =>
      simp only [List.map_cons, List.cons.injEq] at hp
      obtain ⟨h1, h2, h3⟩ := splitWs_dropTok s t (toks ++ ts) (by simpa using h)
      obtain ⟨h4, h5⟩ := ih toks hp.2 _ h2
      simp only [List.length_cons, scan, h1, hp.1, if_neg h3]
      exact ⟨by rw [h4], h5⟩

/-- The tokens of lines. -/
theorem splitWs_linesText (rows : List (List (List Char))) (h : ∀ r ∈ rows, ∀ t ∈ r, IsTok t)
    (s : List Char) :
    splitWs (linesText (rows.map (joinWith ' ')) ++ s) = rows.flatten ++ splitWs s := by
  induction rows with
  | nil => rfl
  | cons r rows ih =>
    have ih := ih (fun r' hr' => h r' (by simp [hr']))
    simp only [linesText, List.map_cons, List.flatMap_cons, List.append_assoc, List.cons_append,
      List.nil_append] at ih ⊢
    rw [splitWs_joinWith_ws (by decide) (by decide) _ (h r (by simp)), ih]
    simp

theorem linesText_append (a b : List (List Char)) : linesText (a ++ b) = linesText a ++ linesText b := by
  simp [linesText]

theorem linesText_cons (a : List Char) (b : List (List Char)) :
    linesText (a :: b) = a ++ '\n' :: linesText b := by
  simp [linesText]

theorem length_linesText_ge (a : List (List Char)) : a.length ≤ (linesText a).length := by
  induction a with
  | nil => simp [linesText]
  | cons x a ih => rw [linesText_cons]; simp; omega

/-- Stripping keeps a token at the beginning. -/
theorem strip_tok_append {t : List Char} (ht : IsTok t) (s : List Char) : ∃ r, strip (t ++ s) = t ++ r := by
  obtain ⟨hne, hws⟩ := ht
  have e : strip (t ++ s) = rstrip (t ++ s) := by
    cases t with
    | nil => exact absurd rfl hne
    | cons c t =>
      have : (c :: t ++ s).dropWhile isWs = c :: t ++ s := by
        rw [List.cons_append, List.dropWhile_cons, hws c (by simp)]; rfl
      unfold strip rstrip
      rw [this]
  rw [e]
  obtain ⟨w, h1, h2⟩ := rstrip_append (t ++ s)
  rcases List.append_eq_append_iff.mp h1.symm with ⟨a, ha, hb⟩ | ⟨a, ha, hb⟩
  · cases a with
    | nil => exact ⟨[], by rw [List.append_nil] at ha ⊢; exact ha.symm⟩
    | cons c a =>
      have m1 : c ∈ t := by rw [ha]; simp
      have m2 : c ∈ w := by rw [hb]; simp
      have := hws c m1
      rw [h2 c m2] at this
      cases this
  · exact ⟨a, ha⟩

end Meshio
