/-
base64 as in Python's standard library: `base64.b64encode` and the default (lenient)
`base64.b64decode`, i.e. `binascii.a2b_base64`.  This part is not meshio code; the model is
taken from the documented behaviour of the library (the decoder ignores characters outside
the alphabet and stops at a complete padding).
-/
import Verif.Base.Err
import Verif.Base.Bytes
namespace Meshio

/-- The alphabet. -/
def b64Alphabet : List Char :=
  "ABCDEFGHIJKLMNOPQRSTUVWXYZabcdefghijklmnopqrstuvwxyz0123456789+/".toList

/-- Character of a six-bit number. -/
def b64Char (n : Nat) : Char := b64Alphabet[n % 64]?.getD 'A'

/-- Six-bit number of a character. -/
def b64Val (c : Char) : Option Nat :=
  if c ∈ b64Alphabet then some (b64Alphabet.idxOf c) else none

/-- `base64.b64encode` -/
def b64enc : List Byte → List Char
  | [] => []
  | [a] => [b64Char (a.val / 4), b64Char (a.val % 4 * 16), '=', '=']
  | [a, b] => [b64Char (a.val / 4), b64Char (a.val % 4 * 16 + b.val / 16),
      b64Char (b.val % 16 * 4), '=']
  | a :: b :: c :: l => b64Char (a.val / 4) :: b64Char (a.val % 4 * 16 + b.val / 16) ::
      b64Char (b.val % 16 * 4 + c.val / 64) :: b64Char (c.val % 64) :: b64enc l

/-- The loop of `a2b_base64`: `q` is the position in the group of four, `p` the number of
padding characters seen, `left` the bits left over. -/
def b64loop (q p left : Nat) : List Char → Res (List Byte)
  | [] => if q = 0 then .ok [] else .error .valueError
  | c :: l =>
    if c = '=' then
      if 2 ≤ q then
        if 4 ≤ q + (p + 1) then .ok [] else b64loop q (p + 1) left l
      else b64loop q p left l
    else
      match b64Val c with
      | none => b64loop q p left l
      | some v =>
        match q with
        | 0 => b64loop 1 0 v l
        | 1 =>
          match b64loop 2 0 (v % 16) l with
          | .error e => .error e
          | .ok r => .ok (Fin.ofNat 256 (left * 4 + v / 16) :: r)
        | 2 =>
          match b64loop 3 0 (v % 4) l with
          | .error e => .error e
          | .ok r => .ok (Fin.ofNat 256 (left * 16 + v / 4) :: r)
        | _ =>
          match b64loop 0 0 0 l with
          | .error e => .error e
          | .ok r => .ok (Fin.ofNat 256 (left * 64 + v) :: r)

/-- `base64.b64decode` -/
def b64dec (l : List Char) : Res (List Byte) := b64loop 0 0 0 l

theorem b64Val_b64Char {n : Nat} (h : n < 64) : b64Val (b64Char n) = some n := by
  have k : ∀ n ∈ List.range 64, b64Val (b64Char n) = some n := by decide +kernel
  exact k n (by simpa using h)

theorem b64Char_ne_pad (n : Nat) : b64Char n ≠ '=' := by
  have k : ∀ n ∈ List.range 64, b64Char n ≠ '=' := by decide +kernel
  have := k (n % 64) (by simpa using Nat.mod_lt n (by omega))
  unfold b64Char at this ⊢
  rwa [Nat.mod_mod] at this

theorem loop0 {v : Nat} (h : v < 64) (p left : Nat) (l : List Char) :
    b64loop 0 p left (b64Char v :: l) = b64loop 1 0 v l := by
  simp only [b64loop, if_neg (b64Char_ne_pad v), b64Val_b64Char h]

theorem loop1 {v : Nat} (h : v < 64) (p left : Nat) (l : List Char) :
    b64loop 1 p left (b64Char v :: l) =
      match b64loop 2 0 (v % 16) l with
      | .error e => .error e
      | .ok r => .ok (Fin.ofNat 256 (left * 4 + v / 16) :: r) := by
  simp only [b64loop, if_neg (b64Char_ne_pad v), b64Val_b64Char h]

theorem loop2 {v : Nat} (h : v < 64) (p left : Nat) (l : List Char) :
    b64loop 2 p left (b64Char v :: l) =
      match b64loop 3 0 (v % 4) l with
      | .error e => .error e
      | .ok r => .ok (Fin.ofNat 256 (left * 16 + v / 4) :: r) := by
  simp only [b64loop, if_neg (b64Char_ne_pad v), b64Val_b64Char h]

theorem loop3 {v : Nat} (h : v < 64) (p left : Nat) (l : List Char) :
    b64loop 3 p left (b64Char v :: l) =
      match b64loop 0 0 0 l with
      | .error e => .error e
      | .ok r => .ok (Fin.ofNat 256 (left * 64 + v) :: r) := by
  simp only [b64loop, if_neg (b64Char_ne_pad v), b64Val_b64Char h]

theorem ofNat_eq (b : Byte) (n : Nat) (h : n = b.val) : Fin.ofNat 256 n = b := by
  subst h; exact Fin.ofNat_val_eq_self b

/-- Decoding what was encoded, with more text behind it: complete groups go on, padding
stops the decoder. -/
theorem b64dec_enc_append (bs : List Byte) (rest : List Char) :
    b64dec (b64enc bs ++ rest) =
      if bs.length % 3 = 0 then
        match b64dec rest with
        | .error e => .error e
        | .ok r => .ok (bs ++ r)
      else .ok bs := by
  unfold b64dec
  induction bs using b64enc.induct with
  | case1 =>
    simp only [b64enc, List.nil_append, List.length_nil, Nat.zero_mod, if_true]
    cases b64loop 0 0 0 rest <;> rfl
  | case2 a =>
    have ha := a.isLt
    simp only [b64enc, List.cons_append, List.nil_append]
    rw [loop0 (by omega), loop1 (by omega)]
    simp only [b64loop, if_true, show ¬ (4 ≤ 2 + (0 + 1)) by omega, if_false,
      show 4 ≤ 2 + (0 + 1 + 1) by omega, Nat.le_refl]
    simp only [List.length_cons, List.length_nil]
    rw [if_neg (by omega), ofNat_eq a _ (by omega)]
  | case3 a b =>
    have ha := a.isLt
    have hb := b.isLt
    simp only [b64enc, List.cons_append, List.nil_append]
    rw [loop0 (by omega), loop1 (by omega), loop2 (by omega)]
    simp only [b64loop, if_true, show 4 ≤ 3 + (0 + 1) by omega, show 2 ≤ 3 by omega]
    simp only [List.length_cons, List.length_nil]
    rw [if_neg (by omega), ofNat_eq a _ (by omega), ofNat_eq b _ (by omega)]
  | case4 a b c l ih =>
    have ha := a.isLt
    have hb := b.isLt
    have hc := c.isLt
    simp only [b64enc, List.cons_append]
    rw [loop0 (by omega), loop1 (by omega), loop2 (by omega), loop3 (by omega), ih]
    have hm : (a :: b :: c :: l).length % 3 = l.length % 3 := by simp; omega
    rw [hm]
    by_cases h0 : l.length % 3 = 0
    · simp only [h0, if_true]
      cases b64loop 0 0 0 rest with
      | error e => rfl
      | ok r =>
        simp only [List.cons_append]
        rw [ofNat_eq a _ (by omega), ofNat_eq b _ (by omega), ofNat_eq c _ (by omega)]
    · simp only [h0, if_false]
      rw [ofNat_eq a _ (by omega), ofNat_eq b _ (by omega), ofNat_eq c _ (by omega)]

theorem b64dec_enc (bs : List Byte) : b64dec (b64enc bs) = .ok bs := by
  have h := b64dec_enc_append bs []
  rw [List.append_nil] at h
  rw [h]
  split
  · simp [b64dec, b64loop]
  · rfl

/-- Length of the encoding: four characters per started group of three bytes. -/
theorem length_b64enc (bs : List Byte) : (b64enc bs).length = (bs.length + 2) / 3 * 4 := by
  induction bs using b64enc.induct with
  | case1 => rfl
  | case2 a => simp [b64enc]
  | case3 a b => simp [b64enc]
  | case4 a b c l ih =>
    simp only [b64enc, List.length_cons, ih]
    omega

/-- Encoding of a concatenation after complete groups. -/
theorem b64enc_append (a b : List Byte) (h : a.length % 3 = 0) :
    b64enc (a ++ b) = b64enc a ++ b64enc b := by
  induction a using b64enc.induct with
  | case1 => rfl
  | case2 a => simp at h
  | case3 a b => simp at h
  | case4 x y z l ih =>
    have : l.length % 3 = 0 := by simp at h; omega
    simp only [List.cons_append, b64enc, ih this]

/-- A sequence of encoded byte strings decodes without error. -/
theorem b64dec_many (l : List (List Byte)) : ∃ r, b64dec (l.flatMap b64enc) = .ok r := by
  induction l with
  | nil => exact ⟨[], by simp [b64dec, b64loop]⟩
  | cons a l ih =>
    obtain ⟨r, hr⟩ := ih
    rw [List.flatMap_cons, b64dec_enc_append, hr]
    by_cases h : a.length % 3 = 0
    · exact ⟨_, if_pos h⟩
    · exact ⟨_, if_neg h⟩

/-- What follows only appears behind the decoded bytes. -/
theorem b64dec_prefix (bs : List Byte) (l : List (List Byte)) :
    ∃ r, b64dec (b64enc bs ++ l.flatMap b64enc) = .ok (bs ++ r) := by
  obtain ⟨r, hr⟩ := b64dec_many l
  rw [b64dec_enc_append, hr]
  by_cases h : bs.length % 3 = 0
  · exact ⟨r, if_pos h⟩
  · exact ⟨[], by rw [if_neg h, List.append_nil]⟩

end Meshio
