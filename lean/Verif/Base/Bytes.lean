/-
Bytes and fixed-width integers.
-/
namespace Meshio

/-- A byte. -/
abbrev Byte := Fin 256

/-- Little-endian bytes of a natural number, `k` of them (higher digits are cut off, as by
numpy's `astype`). -/
def leEnc : Nat → Nat → List Byte
  | 0, _ => []
  | k + 1, n => Fin.ofNat 256 n :: leEnc k (n / 256)

/-- Value of little-endian bytes. -/
def leDec : List Byte → Nat
  | [] => 0
  | b :: l => b.val + 256 * leDec l

/-- Unsigned integer in either byte order. -/
def natEnc (big : Bool) (k n : Nat) : List Byte :=
  if big then (leEnc k n).reverse else leEnc k n

def natDec (big : Bool) (l : List Byte) : Nat := if big then leDec l.reverse else leDec l

/-- Two's complement. -/
def intEnc (big : Bool) (k : Nat) (z : Int) : List Byte :=
  natEnc big k (z % ((256 : Int) ^ k)).toNat

def intDec (big : Bool) (l : List Byte) : Int :=
  let n := natDec big l
  if 2 * n < 256 ^ l.length then (n : Int) else (n : Int) - 256 ^ l.length

theorem length_leEnc (k n : Nat) : (leEnc k n).length = k := by
  induction k generalizing n with
  | zero => rfl
  | succ k ih => simp [leEnc, ih]

theorem length_natEnc (big : Bool) (k n : Nat) : (natEnc big k n).length = k := by
  unfold natEnc
  split <;> simp [length_leEnc]

theorem length_intEnc (big : Bool) (k : Nat) (z : Int) : (intEnc big k z).length = k :=
  length_natEnc _ _ _

theorem leDec_leEnc (k n : Nat) (h : n < 256 ^ k) : leDec (leEnc k n) = n := by
  induction k generalizing n with
  | zero => simp at h; simp [leEnc, leDec, h]
  | succ k ih =>
    have : n / 256 < 256 ^ k := by
      rw [Nat.pow_succ] at h
      exact Nat.div_lt_of_lt_mul (by rw [Nat.mul_comm]; exact h)
    simp only [leEnc, leDec, ih _ this, Fin.val_ofNat]
    omega

theorem natDec_natEnc (big : Bool) (k n : Nat) (h : n < 256 ^ k) :
    natDec big (natEnc big k n) = n := by
  unfold natDec natEnc
  cases big
  · simp [leDec_leEnc k n h]
  · simp [leDec_leEnc k n h]

/-- Range of a `k`-byte signed integer. -/
def IsInt (k : Nat) (z : Int) : Prop := -(256 ^ k : Nat) ≤ 2 * z ∧ 2 * z < (256 ^ k : Nat)

instance (k : Nat) (z : Int) : Decidable (IsInt k z) := by unfold IsInt; exact inferInstance

theorem intDec_intEnc (big : Bool) (k : Nat) (z : Int) (h : IsInt k z) :
    intDec big (intEnc big k z) = z := by
  unfold IsInt at h
  have hpos : 0 < 256 ^ k := Nat.pow_pos (by omega)
  have e : ((256 : Int) ^ k) = ((256 ^ k : Nat) : Int) := by simp
  unfold intDec
  have hm : (z % ((256 : Int) ^ k)).toNat < 256 ^ k := by
    rw [e]
    have := Int.emod_lt_of_pos z (b := ((256 ^ k : Nat) : Int)) (by omega)
    have := Int.emod_nonneg z (b := ((256 ^ k : Nat) : Int)) (by omega)
    omega
  simp only [length_intEnc]
  unfold intEnc
  rw [natDec_natEnc big k _ hm, e]
  generalize 256 ^ k = M at *
  by_cases hz : 0 ≤ z
  · have : z % (M : Int) = z := Int.emod_eq_of_lt hz (by omega)
    rw [this]
    split <;> omega
  · have : z % (M : Int) = z + M := by
      rw [← Int.add_emod_right, Int.emod_eq_of_lt (by omega) (by omega)]
    rw [this]
    split <;> omega

/-- Cut a byte string into items of `k` bytes; a remainder is an error in numpy's
`frombuffer`, here it is dropped. -/
def items (k : Nat) : Nat → List Byte → List (List Byte)
  | 0, _ => []
  | n + 1, l => l.take k :: items k n (l.drop k)

theorem items_flatMap {α : Type} (k : Nat) (f : α → List Byte) (l : List α)
    (h : ∀ a ∈ l, (f a).length = k) (rest : List Byte) :
    items k l.length (l.flatMap f ++ rest) = l.map f := by
  induction l with
  | nil => rfl
  | cons a l ih =>
    have ha := h a (by simp)
    simp only [List.length_cons, items, List.flatMap_cons, List.append_assoc, List.map_cons]
    rw [List.take_append_of_le_length (by omega), List.take_of_length_le (by omega),
      List.drop_append_of_le_length (by omega), List.drop_of_length_le (by omega),
      List.nil_append, ih (fun b hb => h b (by simp [hb]))]

theorem length_flatMap_const {α : Type} (k : Nat) (f : α → List Byte) (l : List α)
    (h : ∀ a ∈ l, (f a).length = k) : (l.flatMap f).length = l.length * k := by
  induction l with
  | nil => simp
  | cons a l ih =>
    simp only [List.flatMap_cons, List.length_append, h a (by simp),
      ih (fun b hb => h b (by simp [hb])), List.length_cons, Nat.add_mul]
    omega

end Meshio
