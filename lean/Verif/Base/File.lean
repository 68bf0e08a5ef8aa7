/-
Text files: lines, stripping, numbers separated by whitespace, and rows of fixed width.
-/
import Verif.Base.Err
import Verif.Base.Num
import Verif.Base.ListX
namespace Meshio

/-- Float text: how a format prints a float and how it parses it.  The laws say that
parsing returns the printed value and that a printed value has no blanks in it.  Both are
assumptions about Python/numpy (shortest repr, `float(s)`), recorded in DESIGN.md. -/
structure FloatIO (F : Type) where
  fmt : F → List Char
  parse : List Char → Option F
  parse_fmt : ∀ x, parse (fmt x) = some x
  tok : ∀ x, IsTok (fmt x)

/-- Integers are a possible choice of values. -/
def FloatIO.int : FloatIO Int := ⟨fmtInt, parseInt, parseInt_fmtInt, isTok_fmtInt⟩

/-- The lines of a text file as `for line in f` or repeated `f.readline()` yields them, each
with its newline (the last one possibly without).  Universal newlines are not modelled. -/
def fileLines : List Char → List (List Char)
  | [] => []
  | c :: s =>
    if c = '\n' then ['\n'] :: fileLines s
    else
      match fileLines s with
      | [] => [[c]]
      | l :: ls => (c :: l) :: ls

/-- `f.readline()`: the line and the rest of the file. -/
def readLine : List Char → List Char × List Char
  | [] => ([], [])
  | c :: s => if c = '\n' then (['\n'], s) else (c :: (readLine s).1, (readLine s).2)

theorem readLine_append (a s : List Char) (h : '\n' ∉ a) :
    readLine (a ++ '\n' :: s) = (a ++ ['\n'], s) := by
  induction a with
  | nil => simp [readLine]
  | cons c a ih =>
    have hc : c ≠ '\n' := fun e => h (by simp [e])
    have := ih (fun hm => h (by simp [hm]))
    simp [readLine, hc, this]

theorem fileLines_append (a s : List Char) (h : '\n' ∉ a) :
    fileLines (a ++ '\n' :: s) = (a ++ ['\n']) :: fileLines s := by
  induction a with
  | nil => simp [fileLines]
  | cons c a ih =>
    have hc : c ≠ '\n' := fun e => h (by simp [e])
    have := ih (fun hm => h (by simp [hm]))
    simp [fileLines, hc, this]

theorem length_readLine (s : List Char) (h : s ≠ []) : (readLine s).2.length < s.length := by
  induction s with
  | nil => exact absurd rfl h
  | cons c s ih =>
    unfold readLine
    split
    · simp
    · cases s with
      | nil => simp [readLine]
      | cons d s =>
        have := ih (by simp)
        simp only [List.length_cons] at this ⊢
        omega

/-- Text made of complete lines. -/
def linesText (l : List (List Char)) : List Char := l.flatMap (· ++ ['\n'])

theorem fileLines_linesText (l : List (List Char)) (h : ∀ a ∈ l, '\n' ∉ a) (s : List Char) :
    fileLines (linesText l ++ s) = l.map (· ++ ['\n']) ++ fileLines s := by
  induction l with
  | nil => rfl
  | cons a l ih =>
    have e : linesText (a :: l) ++ s = a ++ '\n' :: (linesText l ++ s) := by
      simp [linesText]
    rw [e, fileLines_append _ _ (h a (by simp)), ih (fun b hb => h b (by simp [hb]))]
    rfl

theorem fileLines_linesText' (l : List (List Char)) (h : ∀ a ∈ l, '\n' ∉ a) :
    fileLines (linesText l) = l.map (· ++ ['\n']) := by
  have := fileLines_linesText l h []
  simpa [fileLines] using this

/-- `s.strip()` -/
def strip (s : List Char) : List Char := ((s.dropWhile isWs).reverse.dropWhile isWs).reverse

/-- `s.rstrip()` -/
def rstrip (s : List Char) : List Char := (s.reverse.dropWhile isWs).reverse

/-- `s.lstrip()` -/
def lstrip (s : List Char) : List Char := s.dropWhile isWs

theorem splitWs_dropWhile (s : List Char) : splitWs (s.dropWhile isWs) = splitWs s := by
  induction s with
  | nil => rfl
  | cons c s ih =>
    rw [List.dropWhile_cons]
    split
    · next h => rw [ih, splitWs_ws h]
    · rfl

theorem splitWsGo_ws_end (w : List Char) (hw : ∀ c ∈ w, isWs c = true) (s cur : List Char) :
    splitWsGo (s ++ w) cur = splitWsGo s cur := by
  induction s generalizing cur with
  | nil =>
    rw [List.nil_append]
    induction w generalizing cur with
    | nil => rfl
    | cons c w ih =>
      have hc := hw c (by simp)
      have hw' : ∀ d ∈ w, isWs d = true := fun d hd => hw d (by simp [hd])
      simp only [splitWsGo, hc, if_true]
      split
      · next h => rw [ih hw']; rfl
      · rw [ih hw']; simp [splitWsGo]
  | cons c s ih => simp only [List.cons_append, splitWsGo, ih]

theorem takeWhile_all {α : Type} (p : α → Bool) (l : List α) : ∀ a ∈ l.takeWhile p, p a = true := by
  induction l with
  | nil => simp
  | cons b l ih =>
    intro a ha
    rw [List.takeWhile_cons] at ha
    split at ha
    · next h =>
      rcases List.mem_cons.mp ha with rfl | ha
      · exact h
      · exact ih a ha
    · simp at ha

theorem dropWhile_all {α : Type} (p : α → Bool) (l : List α) (h : ∀ a ∈ l, p a = true) :
    l.dropWhile p = [] := by
  induction l with
  | nil => rfl
  | cons b l ih =>
    rw [List.dropWhile_cons, h b (by simp)]
    exact ih (fun a ha => h a (by simp [ha]))

theorem rstrip_append (s : List Char) : ∃ w, s = rstrip s ++ w ∧ ∀ c ∈ w, isWs c = true := by
  refine ⟨(s.reverse.takeWhile isWs).reverse, ?_, ?_⟩
  · unfold rstrip
    rw [← List.reverse_append, List.takeWhile_append_dropWhile, List.reverse_reverse]
  · intro c hc
    rw [List.mem_reverse] at hc
    exact takeWhile_all _ _ _ hc

theorem splitWs_rstrip (s : List Char) : splitWs (rstrip s) = splitWs s := by
  obtain ⟨w, h1, h2⟩ := rstrip_append s
  have : splitWs s = splitWs (rstrip s ++ w) := congrArg splitWs h1
  rw [this]
  unfold splitWs
  rw [splitWsGo_ws_end w h2]

/-- Stripping does not change the tokens. -/
theorem splitWs_strip (s : List Char) : splitWs (strip s) = splitWs s := by
  have : strip s = rstrip (s.dropWhile isWs) := rfl
  rw [this, splitWs_rstrip, splitWs_dropWhile]

theorem splitWs_eq_nil {s : List Char} : splitWs s = [] ↔ ∀ c ∈ s, isWs c = true := by
  constructor
  · intro h
    have : ∀ (s cur : List Char), splitWsGo s cur = [] → cur = [] ∧ ∀ c ∈ s, isWs c = true := by
      intro s
      induction s with
      | nil =>
        intro cur h
        simp only [splitWsGo] at h
        split at h
        · next h' => exact ⟨h', by simp⟩
        · cases h
      | cons c s ih =>
        intro cur h
        simp only [splitWsGo] at h
        split at h
        · next hc =>
          split at h
          · next hcur =>
            refine ⟨hcur, ?_⟩
            intro d hd
            rcases List.mem_cons.mp hd with rfl | hd
            · exact hc
            · exact (ih _ h).2 d hd
          · cases h
        · exact absurd (ih _ h).1 (by simp)
    exact (this s [] h).2
  · intro h
    have := splitWsGo_ws_end s h [] []
    rw [List.nil_append] at this
    exact this

/-- A line is blank exactly when it has no tokens. -/
theorem strip_eq_nil {s : List Char} : strip s = [] ↔ splitWs s = [] := by
  constructor
  · intro h; rw [← splitWs_strip, h]; rfl
  · intro h
    rw [splitWs_eq_nil] at h
    unfold strip
    rw [dropWhile_all _ _ h]
    rfl

theorem dropWhile_head_not {p : Char → Bool} {s : List Char} (h : ∀ c, s.head? = some c → p c = false) :
    s.dropWhile p = s := by
  cases s with
  | nil => rfl
  | cons c s => rw [List.dropWhile_cons, h c rfl]; rfl

/-- Text that neither starts nor ends with whitespace is not changed by `strip`. -/
theorem strip_trim {s : List Char} (h1 : ∀ c, s.head? = some c → isWs c = false)
    (h2 : ∀ c, s.getLast? = some c → isWs c = false) (w : List Char) (hw : ∀ c ∈ w, isWs c = true) :
    strip (s ++ w) = s := by
  cases s with
  | nil =>
    unfold strip
    rw [List.nil_append, dropWhile_all _ _ hw]; rfl
  | cons c s =>
    have e : (c :: s ++ w).dropWhile isWs = c :: s ++ w :=
      dropWhile_head_not (by intro d hd; exact h1 d (by simpa using hd))
    unfold strip
    rw [e]
    rw [List.reverse_append, List.dropWhile_append_of_pos (by
      intro d hd; rw [List.mem_reverse] at hd; exact hw d hd)]
    rw [dropWhile_head_not (by
      intro d hd; rw [List.head?_reverse] at hd; exact h2 d hd), List.reverse_reverse]

theorem strip_head {c : Char} (hc : isWs c = false) (s : List Char) :
    (strip (c :: s)).head? = some c := by
  have e : strip (c :: s) = rstrip (c :: s) := by
    have : (c :: s).dropWhile isWs = c :: s := by rw [List.dropWhile_cons, hc]; rfl
    unfold strip rstrip
    rw [this]
  rw [e]
  obtain ⟨w, h1, h2⟩ := rstrip_append (c :: s)
  cases hr : rstrip (c :: s) with
  | nil =>
    rw [hr, List.nil_append] at h1
    have := h2 c (by rw [← h1]; simp)
    rw [hc] at this; cases this
  | cons d r =>
    rw [hr, List.cons_append] at h1
    injection h1 with h1 _
    rw [h1]; rfl

/-- A line made of tokens has these tokens, is not blank and starts with the first of them. -/
theorem line_tokens (t : List Char) (ts : List (List Char)) (h : ∀ x ∈ t :: ts, IsTok x) :
    splitWs (strip (joinWith ' ' (t :: ts) ++ ['\n'])) = t :: ts ∧
      strip (joinWith ' ' (t :: ts) ++ ['\n']) ≠ [] ∧
      (strip (joinWith ' ' (t :: ts) ++ ['\n'])).head? = t.head? := by
  have h1 : splitWs (joinWith ' ' (t :: ts) ++ ['\n']) = t :: ts := by
    have := splitWs_joinWith_ws (w := ' ') (w' := '\n') (by decide) (by decide) (t :: ts) h []
    simpa using this
  refine ⟨by rw [splitWs_strip, h1], ?_, ?_⟩
  · intro e
    rw [strip_eq_nil, h1] at e
    cases e
  · obtain ⟨hne, hws⟩ := h t (by simp)
    cases t with
    | nil => exact absurd rfl hne
    | cons c t =>
      have : ∃ r, joinWith ' ' ((c :: t) :: ts) ++ ['\n'] = c :: r := by
        cases ts with
        | nil => exact ⟨_, rfl⟩
        | cons a ts => exact ⟨_, rfl⟩
      obtain ⟨r, hr⟩ := this
      rw [hr, strip_head (hws c (by simp))]
      rfl

theorem not_mem_joinWith {c d : Char} (hcd : c ≠ d) (l : List (List Char)) (h : ∀ t ∈ l, c ∉ t) :
    c ∉ joinWith d l := by
  induction l with
  | nil => simp [joinWith]
  | cons a l ih =>
    cases l with
    | nil => exact h a (by simp)
    | cons b r =>
      simp only [joinWith, List.mem_append, List.mem_cons, not_or]
      exact ⟨h a (by simp), hcd, ih (fun t ht => h t (by simp [ht]))⟩

theorem IsTok.no_newline {t : List Char} (h : IsTok t) : '\n' ∉ t := by
  intro hm
  have := h.2 _ hm
  exact absurd this (by decide)

/-! ### Numbers separated by whitespace -/

variable {F : Type}

/-- `np.fromfile(f, dtype, count, sep=" ")`: up to `count` numbers, and the rest of the
file.  Simplification: a number extends to the next whitespace; reading stops at text that
is not a number (numpy then returns fewer items). -/
def scan (parse : List Char → Option F) : Nat → List Char → List F × List Char
  | 0, s => ([], s)
  | n + 1, s =>
    let s' := s.dropWhile isWs
    match parse (s'.takeWhile (fun c => !isWs c)) with
    | none => ([], s')
    | some x =>
      if s' = [] then ([], [])
      else
        let r := scan parse n (s'.dropWhile (fun c => !isWs c))
        (x :: r.1, r.2)

theorem splitWs_dropTok (s : List Char) (t : List Char) (ts : List (List Char))
    (h : splitWs s = t :: ts) :
    (s.dropWhile isWs).takeWhile (fun c => !isWs c) = t ∧
      splitWs ((s.dropWhile isWs).dropWhile (fun c => !isWs c)) = ts ∧ s.dropWhile isWs ≠ [] := by
  have h' : splitWs (s.dropWhile isWs) = t :: ts := by rw [splitWs_dropWhile, h]
  have hhead : ∀ c, (s.dropWhile isWs).head? = some c → isWs c = false := by
    intro c hc
    have := List.head?_dropWhile_not isWs s
    rw [hc] at this
    simpa using this
  have hne : s.dropWhile isWs ≠ [] := by intro e; rw [e] at h'; cases h'
  generalize s.dropWhile isWs = u at *
  have hsplit : u = u.takeWhile (fun c => !isWs c) ++ u.dropWhile (fun c => !isWs c) :=
    (List.takeWhile_append_dropWhile).symm
  have htok : IsTok (u.takeWhile (fun c => !isWs c)) := by
    refine ⟨?_, fun c hc => ?_⟩
    · cases u with
      | nil => exact absurd rfl hne
      | cons c u => simp [hhead c rfl]
    · have := takeWhile_all _ _ _ hc
      simpa using this
  have hd : ∀ c, (u.dropWhile (fun c => !isWs c)).head? = some c → isWs c = true := by
    intro c hc
    have := List.head?_dropWhile_not (fun c => !isWs c) u
    rw [hc] at this
    simpa using this
  generalize u.takeWhile (fun c => !isWs c) = a at *
  generalize u.dropWhile (fun c => !isWs c) = b at *
  subst hsplit
  cases b with
  | nil =>
    rw [List.append_nil, splitWs_tok htok] at h'
    injection h' with h1 h2
    exact ⟨h1, by rw [← h2]; rfl, hne⟩
  | cons c b =>
    rw [splitWs_tok_ws htok (hd c rfl)] at h'
    injection h' with h1 h2
    exact ⟨h1, by rw [splitWs_ws (hd c rfl), h2], hne⟩

/-- `scan` reads the first tokens; what follows are the remaining tokens. -/
theorem scan_ok (parse : List Char → Option F) (fmt : F → List Char) (xs : List F)
    (hp : ∀ x ∈ xs, parse (fmt x) = some x) (s : List Char) (ts : List (List Char))
    (h : splitWs s = xs.map fmt ++ ts) :
    (scan parse xs.length s).1 = xs ∧ splitWs (scan parse xs.length s).2 = ts := by
  induction xs generalizing s with
  | nil => exact ⟨rfl, by simpa [scan] using h⟩
  | cons x xs ih =>
    obtain ⟨h1, h2, h3⟩ := splitWs_dropTok s _ _ (by simpa using h)
    obtain ⟨h4, h5⟩ := ih (fun y hy => hp y (by simp [hy])) _ h2
    simp only [List.length_cons, scan, h1, hp x (by simp), if_neg h3]
    exact ⟨by rw [h4], h5⟩

/-- The tokens of rows printed one per line. -/
theorem splitWs_rows (rows : List (List (List Char))) (h : ∀ r ∈ rows, ∀ t ∈ r, IsTok t)
    (s : List Char) :
    splitWs (joinWith '\n' (rows.map (joinWith ' ')) ++ '\n' :: s) = rows.flatten ++ splitWs s := by
  induction rows with
  | nil => simp [joinWith, splitWs_ws (show isWs '\n' = true by decide)]
  | cons r rows ih =>
    have ih := ih (fun r' hr' => h r' (by simp [hr']))
    cases rows with
    | nil =>
      simp only [List.map_cons, List.map_nil, joinWith]
      rw [splitWs_joinWith_ws (by decide) (by decide) _ (h r (by simp))]
      simp
    | cons r' rows =>
      simp only [List.map_cons, joinWith, List.append_assoc, List.cons_append] at ih ⊢
      rw [splitWs_joinWith_ws (by decide) (by decide) _ (h r (by simp)), ih]
      simp

/-! ### Rows of fixed width -/

/-- `a.reshape(n, k)` on the flat entries. -/
def rowsN {α : Type} (k : Nat) : Nat → List α → List (List α)
  | 0, _ => []
  | n + 1, l => l.take k :: rowsN k n (l.drop k)

/-- `a.reshape(n, k)`; ValueError if the number of entries is different. -/
def reshape {α : Type} (n k : Nat) (l : List α) : Res (List (List α)) :=
  if l.length = n * k then .ok (rowsN k n l) else .error .valueError

theorem rowsN_flatten {α : Type} (k : Nat) (rows : List (List α)) (h : ∀ r ∈ rows, r.length = k)
    (rest : List α) : rowsN k rows.length (rows.flatten ++ rest) = rows := by
  induction rows with
  | nil => rfl
  | cons r rows ih =>
    have hr := h r (by simp)
    simp only [List.length_cons, rowsN, List.flatten_cons, List.append_assoc]
    rw [List.take_append_of_le_length (by omega), List.drop_append_of_le_length (by omega), ← hr,
      List.take_length, List.drop_length, List.nil_append, hr, ih (fun r' h' => h r' (by simp [h']))]

theorem length_flatten_const {α : Type} (k : Nat) (rows : List (List α))
    (h : ∀ r ∈ rows, r.length = k) : rows.flatten.length = rows.length * k := by
  induction rows with
  | nil => simp
  | cons r rows ih =>
    simp only [List.flatten_cons, List.length_append, List.length_cons,
      h r (by simp), ih (fun r' h' => h r' (by simp [h'])), Nat.succ_mul]
    omega

/-- Flattening and reshaping gives the rows back. -/
theorem reshape_flatten {α : Type} (k : Nat) (rows : List (List α)) (h : ∀ r ∈ rows, r.length = k) :
    reshape rows.length k rows.flatten = .ok rows := by
  unfold reshape
  rw [if_pos (length_flatten_const k rows h)]
  have := rowsN_flatten k rows h []
  rw [List.append_nil] at this
  rw [this]

theorem length_rowsN {α : Type} (k n : Nat) (l : List α) : (rowsN k n l).length = n := by
  induction n generalizing l with
  | zero => rfl
  | succ n ih => simp [rowsN, ih]

theorem rowsN_widths {α : Type} (k n : Nat) (l : List α) (h : l.length = n * k) :
    ∀ r ∈ rowsN k n l, r.length = k := by
  induction n generalizing l with
  | zero => simp [rowsN]
  | succ n ih =>
    rw [Nat.succ_mul] at h
    intro r hr
    rcases List.mem_cons.mp hr with rfl | hr
    · rw [List.length_take]; omega
    · exact ih _ (by rw [List.length_drop]; omega) r hr

theorem flatten_rowsN {α : Type} (k n : Nat) (l : List α) (h : l.length = n * k) :
    (rowsN k n l).flatten = l := by
  induction n generalizing l with
  | zero => simp at h; subst h; rfl
  | succ n ih =>
    rw [Nat.succ_mul] at h
    simp only [rowsN, List.flatten_cons]
    rw [ih _ (by rw [List.length_drop]; omega), List.take_append_drop]

end Meshio
