/-
Hexadecimal numbers as text: `f"{n:x}"` and `int(s, 16)`.
-/
import Verif.Base.Num
namespace Meshio

/-- The digit of a number below 16. -/
def hexChar (n : Nat) : Char := "0123456789abcdef".toList[n]?.getD '0'

/-- The value of a digit; upper-case letters are accepted as well. -/
def hexDigit (c : Char) : Option Nat :=
  if '0' ≤ c ∧ c ≤ '9' then some (c.toNat - 48)
  else if 'a' ≤ c ∧ c ≤ 'f' then some (c.toNat - 87)
  else if 'A' ≤ c ∧ c ≤ 'F' then some (c.toNat - 55)
  else none

/-- The digits of a number (the first argument bounds their number). -/
def hexGo : Nat → Nat → List Char
  | 0, n => [hexChar (n % 16)]
  | k + 1, n => if n < 16 then [hexChar n] else hexGo k (n / 16) ++ [hexChar (n % 16)]

/-- `f"{n:x}"` for a natural number. -/
def hexNat (n : Nat) : List Char := hexGo n n

/-- `f"{i:x}"` for an integer. -/
def fmtHex : Int → List Char
  | .ofNat n => hexNat n
  | .negSucc n => '-' :: hexNat (n + 1)

/-- The value of digits, most significant first. -/
def hexVal (s : List Char) : Option Nat := s.foldl (fun a c => a.bind fun v => (hexDigit c).map fun d => 16 * v + d) (some 0)

/-- `int(s, 16)` on digits. -/
def parseHexNat (s : List Char) : Option Nat := if s = [] then none else hexVal s

/-- `int(s, 16)`.  Simplification: Python also accepts `0x`, surrounding blanks and underscores. -/
def parseHex (s : List Char) : Option Int :=
  match s with
  | '-' :: r => (parseHexNat r).map (fun n => -(n : Int))
  | '+' :: r => (parseHexNat r).map (fun n => (n : Int))
  | r => (parseHexNat r).map (fun n => (n : Int))

theorem hexDigit_hexChar : ∀ n, n < 16 → hexDigit (hexChar n) = some n := by decide

theorem hexGo_chars (k n : Nat) : ∀ c ∈ hexGo k n, c ∈ "0123456789abcdef".toList := by
  have hc : ∀ n, n < 16 → hexChar n ∈ "0123456789abcdef".toList := by decide +kernel
  induction k generalizing n with
  | zero =>
    intro c h
    rw [hexGo, List.mem_singleton] at h
    subst h
    exact hc _ (Nat.mod_lt _ (by decide))
  | succ k ih =>
    intro c h
    rw [hexGo] at h
    split at h
    · next hn =>
      rw [List.mem_singleton] at h
      subst h
      exact hc _ hn
    · rcases List.mem_append.mp h with h | h
      · exact ih _ c h
      · rw [List.mem_singleton] at h
        subst h
        exact hc _ (Nat.mod_lt _ (by decide))

theorem hexNat_chars (n : Nat) : ∀ c ∈ hexNat n, c ∈ "0123456789abcdef".toList := hexGo_chars n n

theorem hexGo_ne_nil (k n : Nat) : hexGo k n ≠ [] := by
  cases k with
  | zero => simp [hexGo]
  | succ k => rw [hexGo]; split <;> simp

theorem hexVal_hexGo (k n : Nat) (h : n ≤ k) : hexVal (hexGo k n) = some n := by
  induction k generalizing n with
  | zero =>
    have : n = 0 := by omega
    subst this
    decide
  | succ k ih =>
    rw [hexGo]
    by_cases hn : n < 16
    · rw [if_pos hn]
      unfold hexVal
      simp [hexDigit_hexChar n hn]
    · rw [if_neg hn]
      have := ih (n / 16) (by omega)
      unfold hexVal at this ⊢
      rw [List.foldl_append, this]
      simp [hexDigit_hexChar (n % 16) (Nat.mod_lt _ (by decide))]
      omega

theorem parseHexNat_hexNat (n : Nat) : parseHexNat (hexNat n) = some n := by
  unfold parseHexNat hexNat
  rw [if_neg (hexGo_ne_nil n n), hexVal_hexGo n n (Nat.le_refl n)]

/-- Printing an integer and reading it back. -/
@[simp] theorem parseHex_fmtHex (i : Int) : parseHex (fmtHex i) = some i := by
  cases i with
  | ofNat n =>
    show parseHex (hexNat n) = _
    have hne := hexGo_ne_nil n n
    cases hs : hexNat n with
    | nil => exact absurd hs hne
    | cons c r =>
      have hc := hexNat_chars n c (by rw [hs]; simp)
      have h1 : c ≠ '-' := by rintro rfl; revert hc; decide +kernel
      have h2 : c ≠ '+' := by rintro rfl; revert hc; decide +kernel
      unfold parseHex
      split
      · next e => injection e with e _; exact absurd e h1
      · next e => injection e with e _; exact absurd e h2
      · rw [← hs, parseHexNat_hexNat]
        rfl
  | negSucc n =>
    simp only [fmtHex, parseHex, parseHexNat_hexNat]
    rfl

theorem fmtHex_chars (i : Int) : ∀ c ∈ fmtHex i, c = '-' ∨ c ∈ "0123456789abcdef".toList := by
  intro c h
  cases i with
  | ofNat n => exact Or.inr (hexNat_chars n c h)
  | negSucc n =>
    rcases List.mem_cons.mp h with h | h
    · exact Or.inl h
    · exact Or.inr (hexNat_chars _ c h)

theorem not_mem_fmtHex {c : Char} (h1 : c ≠ '-') (h2 : c ∉ "0123456789abcdef".toList) (i : Int) : c ∉ fmtHex i := by
  intro h
  rcases fmtHex_chars i c h with h | h
  · exact h1 h
  · exact h2 h

theorem isTok_fmtHex (i : Int) : IsTok (fmtHex i) := by
  refine ⟨?_, ?_⟩
  · cases i with
    | ofNat n => exact hexGo_ne_nil n n
    | negSucc n => simp [fmtHex]
  · intro c h
    rcases fmtHex_chars i c h with h | h
    · subst h; decide
    · exact (by decide +kernel : ∀ c ∈ "0123456789abcdef".toList, isWs c = false) c h

end Meshio
