/-
Decimal numbers as text: `str(n)`, `int(s)`, and `str.split()` on whitespace.
-/
import Verif.Base.Text
namespace Meshio

/-- `str(n)` / `f"{n:d}"` for a natural number. -/
def fmtNat (n : Nat) : List Char := Nat.toDigits 10 n

/-- `str(i)` / `f"{i:d}"` for an integer. -/
def fmtInt : Int → List Char
  | .ofNat n => fmtNat n
  | .negSucc n => '-' :: fmtNat (n + 1)

/-- `int(s)` on plain decimal digits (no sign). -/
def parseNat (s : List Char) : Option Nat :=
  if s ≠ [] ∧ s.all Char.isDigit then some (Nat.ofDigitChars 10 s 0) else none

/-- `int(s)` on an optionally signed decimal.  Simplification: Python also accepts
surrounding blanks and underscores between digits; meshio never produces those. -/
def parseInt (s : List Char) : Option Int :=
  match s with
  | '-' :: r => (parseNat r).map (fun n => -(n : Int))
  | '+' :: r => (parseNat r).map (fun n => (n : Int))
  | r => (parseNat r).map (fun n => (n : Int))

theorem ne_of_isDigit {c d : Char} (h : c.isDigit = true) (hd : d.isDigit = false) : c ≠ d := by
  intro e; subst e; rw [h] at hd; cases hd

theorem fmtNat_isDigit {n : Nat} {c : Char} (h : c ∈ fmtNat n) : c.isDigit = true :=
  Nat.isDigit_of_mem_toDigits (by decide) (by decide) h

theorem fmtNat_ne_nil (n : Nat) : fmtNat n ≠ [] := Nat.toDigits_ne_nil

theorem parseNat_fmtNat (n : Nat) : parseNat (fmtNat n) = some n := by
  unfold parseNat
  rw [if_pos]
  · unfold fmtNat; rw [Nat.ofDigitChars_toDigits (by decide) (by decide)]
  · refine ⟨fmtNat_ne_nil n, ?_⟩
    rw [List.all_eq_true]; intro c hc; exact fmtNat_isDigit hc

theorem parseInt_eq_of_head_isDigit {s : List Char} (hne : s ≠ [])
    (h : ∀ c ∈ s, c.isDigit = true) : parseInt s = (parseNat s).map (fun n => (n : Int)) := by
  cases s with
  | nil => exact absurd rfl hne
  | cons c r =>
    have hc := h c (by simp)
    have h1 : c ≠ '-' := ne_of_isDigit hc (by decide)
    have h2 : c ≠ '+' := ne_of_isDigit hc (by decide)
    unfold parseInt
    split
    · next e => injection e with e _; exact absurd e h1
    · next e => injection e with e _; exact absurd e h2
    · rfl

@[simp] theorem parseInt_fmtNat (n : Nat) : parseInt (fmtNat n) = some (n : Int) := by
  rw [parseInt_eq_of_head_isDigit (fmtNat_ne_nil n) (fun c hc => fmtNat_isDigit hc),
    parseNat_fmtNat]; rfl

/-- Printing an integer and parsing it returns the integer. -/
@[simp] theorem parseInt_fmtInt (i : Int) : parseInt (fmtInt i) = some i := by
  cases i with
  | ofNat n => exact parseInt_fmtNat n
  | negSucc n =>
    simp only [fmtInt, parseInt, parseNat_fmtNat]
    rfl

theorem fmtInt_injective {i j : Int} (h : fmtInt i = fmtInt j) : i = j := by
  have := congrArg parseInt h
  simpa using this

theorem fmtInt_ne_nil (i : Int) : fmtInt i ≠ [] := by
  cases i with
  | ofNat n => exact fmtNat_ne_nil n
  | negSucc n => simp [fmtInt]

theorem fmtInt_chars {i : Int} {c : Char} (h : c ∈ fmtInt i) : c = '-' ∨ c.isDigit = true := by
  cases i with
  | ofNat n => exact .inr (fmtNat_isDigit h)
  | negSucc n =>
    simp only [fmtInt, List.mem_cons] at h
    rcases h with h | h
    · exact .inl h
    · exact .inr (fmtNat_isDigit h)

/-- A character that is neither `-` nor a digit does not occur in a printed integer. -/
theorem not_mem_fmtInt {c : Char} (h1 : c ≠ '-') (h2 : c.isDigit = false) (i : Int) :
    c ∉ fmtInt i := by
  intro h
  rcases fmtInt_chars h with h | h
  · exact h1 h
  · rw [h2] at h; cases h

theorem fmtInt_ofNat (n : Nat) : fmtInt (n : Int) = fmtNat n := rfl

/-- `str(i)` as a `String`. -/
def strInt (i : Int) : String := String.ofList (fmtInt i)

/-- Whitespace in the sense of `str.split()` and `str.isspace()` (ASCII part:
blank, \t, \n, \v, \f, \r and the separators 0x1c-0x1f). -/
def isWs (c : Char) : Bool :=
  c = ' ' || (9 ≤ c.toNat && c.toNat ≤ 13) || (28 ≤ c.toNat && c.toNat ≤ 31)

theorem isWs_false_of_isDigit {c : Char} (h : c.isDigit = true) : isWs c = false := by
  have h1 : c ≠ ' ' := ne_of_isDigit h (by decide)
  simp only [Char.isDigit, ge_iff_le, Bool.and_eq_true, decide_eq_true_eq] at h
  have h48 : 48 ≤ c.toNat := by
    have := h.1; rw [UInt32.le_iff_toNat_le] at this; simpa using this
  simp only [isWs, h1, decide_false, Bool.false_or, Bool.or_eq_false_iff, Bool.and_eq_false_iff,
    decide_eq_false_iff_not]
  omega

theorem isWs_false_of_mem_fmtInt {i : Int} {c : Char} (h : c ∈ fmtInt i) : isWs c = false := by
  rcases fmtInt_chars h with h | h
  · subst h; decide
  · exact isWs_false_of_isDigit h

/-- Loop of `str.split()`: `cur` is the token being collected, reversed. -/
def splitWsGo : List Char → List Char → List (List Char)
  | [], cur => if cur = [] then [] else [cur.reverse]
  | c :: s, cur =>
    if isWs c then
      if cur = [] then splitWsGo s [] else cur.reverse :: splitWsGo s []
    else splitWsGo s (c :: cur)

/-- `s.split()`: maximal runs of non-whitespace characters. -/
def splitWs (s : List Char) : List (List Char) := splitWsGo s []

/-- A token: non-empty and free of whitespace. -/
def IsTok (t : List Char) : Prop := t ≠ [] ∧ ∀ c ∈ t, isWs c = false

instance (t : List Char) : Decidable (IsTok t) := by unfold IsTok; exact inferInstance

theorem isTok_fmtInt (i : Int) : IsTok (fmtInt i) :=
  ⟨fmtInt_ne_nil i, fun _ h => isWs_false_of_mem_fmtInt h⟩

theorem splitWsGo_append {t : List Char} (ht : ∀ c ∈ t, isWs c = false) (s cur : List Char) :
    splitWsGo (t ++ s) cur = splitWsGo s (t.reverse ++ cur) := by
  induction t generalizing cur with
  | nil => rfl
  | cons c t ih =>
    have hc : isWs c = false := ht c (by simp)
    simp only [List.cons_append, splitWsGo, hc, Bool.false_eq_true, if_false]
    rw [ih (fun d hd => ht d (by simp [hd]))]
    simp

/-- A token followed by a whitespace character is split off. -/
theorem splitWs_tok_ws {t : List Char} (ht : IsTok t) {w : Char} (hw : isWs w = true)
    (s : List Char) : splitWs (t ++ w :: s) = t :: splitWs s := by
  unfold splitWs
  rw [splitWsGo_append ht.2]
  simp only [List.append_nil, splitWsGo, hw, if_true, List.reverse_eq_nil_iff, ht.1,
    List.reverse_reverse, if_false]

theorem splitWs_tok {t : List Char} (ht : IsTok t) : splitWs t = [t] := by
  unfold splitWs
  have := splitWsGo_append ht.2 [] []
  rw [List.append_nil] at this
  rw [this]
  simp only [List.append_nil, splitWsGo, List.reverse_eq_nil_iff, ht.1, List.reverse_reverse,
    if_false]

@[simp] theorem splitWs_nil : splitWs [] = [] := rfl

theorem splitWs_ws {w : Char} (hw : isWs w = true) (s : List Char) :
    splitWs (w :: s) = splitWs s := by
  simp [splitWs, splitWsGo, hw]

/-- Tokens joined by blanks split back into the tokens. -/
theorem splitWs_joinWith {w : Char} (hw : isWs w = true) (l : List (List Char))
    (h : ∀ t ∈ l, IsTok t) : splitWs (joinWith w l) = l := by
  induction l with
  | nil => rfl
  | cons a l ih =>
    cases l with
    | nil => exact splitWs_tok (h a (by simp))
    | cons b r =>
      simp only [joinWith]
      rw [splitWs_tok_ws (h a (by simp)) hw, ih]
      intro t ht; exact h t (List.mem_cons_of_mem _ ht)

/-- Tokens joined by blanks, then a whitespace character and more text. -/
theorem splitWs_joinWith_ws {w w' : Char} (hw : isWs w = true) (hw' : isWs w' = true)
    (l : List (List Char)) (h : ∀ t ∈ l, IsTok t) (s : List Char) :
    splitWs (joinWith w l ++ w' :: s) = l ++ splitWs s := by
  induction l with
  | nil => simp [joinWith, splitWs_ws hw']
  | cons a l ih =>
    cases l with
    | nil => exact splitWs_tok_ws (h a (by simp)) hw' s
    | cons b r =>
      simp only [joinWith, List.append_assoc, List.cons_append]
      rw [splitWs_tok_ws (h a (by simp)) hw, ih (fun t ht => h t (List.mem_cons_of_mem _ ht))]
      rfl

end Meshio
