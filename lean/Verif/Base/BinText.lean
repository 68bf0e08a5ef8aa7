/-
Files opened in binary mode, read by lines and by blocks of bytes: a file is a list of characters, a byte being the character
of that code.
-/
import Verif.Base.ByteIO
import Verif.Base.Lines
namespace Meshio

/-- Bytes as characters. -/
def toChars (l : List Byte) : List Char := l.map fun b => Char.ofNat b.val

/-- Characters as bytes. -/
def toBytes (l : List Char) : List Byte := l.map fun c => Fin.ofNat 256 c.toNat

theorem toBytes_toChars (l : List Byte) : toBytes (toChars l) = l := by
  unfold toBytes toChars
  rw [List.map_map]
  have : ((fun c : Char => Fin.ofNat 256 c.toNat) ∘ fun b : Byte => Char.ofNat b.val) = id := by
    funext b
    revert b
    decide +kernel
  rw [this, List.map_id]

theorem length_toChars (l : List Byte) : (toChars l).length = l.length := by simp [toChars]

theorem toChars_append (a b : List Byte) : toChars (a ++ b) = toChars a ++ toChars b := by simp [toChars]

theorem toBytes_append (a b : List Char) : toBytes (a ++ b) = toBytes a ++ toBytes b := by simp [toBytes]

/-- `array.tofile(f)` for integers of `k` bytes, little-endian. -/
def putInt (k : Nat) (z : Int) : List Char := toChars (intEnc false k z)

/-- A little-endian integer. -/
def getInt (l : List Char) : Int := intDec false (toBytes l)

theorem length_putInt (k : Nat) (z : Int) : (putInt k z).length = k := by
  rw [putInt, length_toChars, length_intEnc]

theorem getInt_putInt (k : Nat) (z : Int) (h : IsInt k z) : getInt (putInt k z) = z := by
  unfold getInt putInt
  rw [toBytes_toChars, intDec_intEnc _ _ _ h]

/-- `np.fromfile(f, count=n, dtype)` with items of `k` bytes: the items, fewer at the end of the file, and the rest. -/
def blocks (k : Nat) : Nat → List Char → List (List Char) × List Char
  | 0, s => ([], s)
  | n + 1, s =>
    if s.length < k then ([], [])
    else ((s.take k) :: (blocks k n (s.drop k)).1, (blocks k n (s.drop k)).2)

theorem blocks_append (k : Nat) (l : List (List Char)) (h : ∀ x ∈ l, x.length = k) (s : List Char) :
    blocks k l.length (l.flatten ++ s) = (l, s) := by
  induction l with
  | nil => rfl
  | cons x l ih =>
    have hx := h x (by simp)
    rw [List.length_cons, List.flatten_cons, List.append_assoc, blocks, if_neg (by rw [List.length_append]; omega),
      List.take_left' hx, List.drop_left' hx, ih fun y hy => h y (by simp [hy])]

/-- A row of integers. -/
def putInts (k : Nat) (l : List Int) : List Char := l.flatMap (putInt k)

/-- `np.fromfile(f, count=n, dtype)` for integers. -/
def getInts (k n : Nat) (s : List Char) : List Int × List Char := ((blocks k n s).1.map getInt, (blocks k n s).2)

theorem length_putInts (k : Nat) (l : List Int) : (putInts k l).length = k * l.length := by
  unfold putInts
  induction l with
  | nil => simp
  | cons z l ih => rw [List.flatMap_cons, List.length_append, length_putInt, ih, List.length_cons, Nat.mul_succ]; omega

theorem getInts_putInts (k : Nat) (l : List Int) (h : ∀ z ∈ l, IsInt k z) (s : List Char) :
    getInts k l.length (putInts k l ++ s) = (l, s) := by
  unfold getInts putInts
  have := blocks_append k (l.map (putInt k)) (by
    intro x hx
    obtain ⟨z, -, rfl⟩ := List.mem_map.1 hx
    exact length_putInt k z) s
  rw [List.length_map, ← List.flatMap_def] at this
  rw [this]
  simp only [List.map_map]
  congr 1
  rw [List.map_congr_left (f := getInt ∘ putInt k) (g := id) (fun z hz => getInt_putInt k z (h z hz)), List.map_id]

end Meshio
