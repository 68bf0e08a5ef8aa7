/-
Values stored in a fixed number of bytes.
-/
import Verif.Base.Bytes
namespace Meshio

theorem length_items (k n : Nat) (l : List Byte) : (items k n l).length = n := by
  induction n generalizing l with
  | zero => rfl
  | succ n ih => simp [items, ih]

theorem items_flatMap' {α : Type} (k : Nat) (f : α → List Byte) (l : List α)
    (h : ∀ a ∈ l, (f a).length = k) : items k l.length (l.flatMap f) = l.map f := by
  simpa using items_flatMap k f l h []

/-- Values stored in `k` bytes, e.g. float32 for `k = 4`: encoding and decoding are inverse. -/
structure ByteIO (k : Nat) (F : Type) where
  enc : F → List Byte
  dec : List Byte → F
  len : ∀ x, (enc x).length = k
  dec_enc : ∀ x, dec (enc x) = x

/-- Bit patterns of `k` bytes are a possible choice of values. -/
def ByteIO.word (k : Nat) : ByteIO k (Fin (256 ^ k)) where
  enc x := natEnc false k x.val
  dec l := ⟨natDec false l % 256 ^ k, Nat.mod_lt _ (Nat.pow_pos (by omega))⟩
  len x := length_natEnc _ _ _
  dec_enc x := by
    apply Fin.ext
    show natDec false (natEnc false k x.val) % 256 ^ k = x.val
    rw [natDec_natEnc _ _ _ x.isLt, Nat.mod_eq_of_lt x.isLt]

end Meshio
