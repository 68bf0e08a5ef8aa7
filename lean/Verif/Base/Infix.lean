/-
Text inside text: `p in s`, and `s.replace(p, q)` for patterns of two characters.
-/
namespace Meshio

/-- `p in s` -/
def hasSub (p : List Char) : List Char → Bool
  | [] => p.isEmpty
  | c :: s => p.isPrefixOf (c :: s) || hasSub p s

theorem hasSub_iff (p s : List Char) : hasSub p s = true ↔ p <:+: s := by
  induction s with
  | nil => simp [hasSub, List.isEmpty_iff]
  | cons c s ih =>
    rw [hasSub, Bool.or_eq_true, List.isPrefixOf_iff_prefix, ih, List.infix_cons_iff]

/-- A text with a character that does not occur is not inside. -/
theorem hasSub_of_not_mem {p s : List Char} {c : Char} (hp : c ∈ p) (hs : c ∉ s) : hasSub p s = false := by
  rw [Bool.eq_false_iff]
  intro h
  rw [hasSub_iff] at h
  exact hs (h.subset hp)

/-- `s.replace(ab, q)` -/
def replace2 (a b : Char) (q : List Char) : List Char → List Char
  | x :: y :: s => if x = a ∧ y = b then q ++ replace2 a b q s else x :: replace2 a b q (y :: s)
  | s => s

end Meshio
