/-
C48: the consistency report of `meshio info`.
-/
import Verif.Model.Info

namespace Meshio
namespace Props
open Info

/-- Some cell refers to the point index `z`. -/
def Refers (cells : List Block) (z : Int) : Prop := ∃ b ∈ cells, ∃ row ∈ b, z ∈ row

/-- The full property: `meshio info` ends normally, and it prints the warning about an inconsistent
mesh exactly when some cell refers to a point that does not exist. -/
def C48_statement : Prop :=
  ∀ (n : Nat) (cells : List Block), ∃ ws, info n cells = .ok ws ∧
    (Warning.inconsistent ∈ ws ↔ ∃ z, Refers cells z ∧ ¬ (0 ≤ z ∧ z < n))

theorem anyAbove_iff (n : Nat) (cells : List Block) :
    cells.any (anyAbove n) = true ↔ ∃ z, Refers cells z ∧ z > (n : Int) := by
  simp only [List.any_eq_true, anyAbove, decide_eq_true_eq, Refers]
  constructor
  · rintro ⟨b, hb, row, hr, z, hz, h⟩; exact ⟨z, ⟨b, hb, row, hr, hz⟩, h⟩
  · rintro ⟨z, ⟨b, hb, row, hr, hz⟩, h⟩; exact ⟨b, hb, row, hr, z, hz, h⟩

theorem mem_flatten_iff (cells : List Block) (z : Int) : z ∈ cells.flatten.flatten ↔ Refers cells z := by
  simp only [List.mem_flatten, Refers]
  constructor
  · rintro ⟨row, ⟨b, hb, hr⟩, hz⟩; exact ⟨b, hb, row, hr, hz⟩
  · rintro ⟨b, hb, row, hr, hz⟩; exact ⟨row, ⟨b, hb, hr⟩, hz⟩

theorem position_ok {n : Nat} {z : Int} (h0 : -(n : Int) ≤ z) (h1 : z < n) :
    ∃ p, p < n ∧ position n z = .ok p ∧ ((p : Int) = z ∨ (p : Int) = z + n) ∧ (0 ≤ z → (p : Int) = z) := by
  unfold position
  by_cases h : 0 ≤ z
  · rw [if_pos h, if_pos h1]; exact ⟨z.toNat, by omega, rfl, by omega, by omega⟩
  · rw [if_neg h, if_pos h0]; exact ⟨(z + n).toNat, by omega, rfl, by omega, by omega⟩

theorem position_error {n : Nat} {z : Int} (h : ¬ (-(n : Int) ≤ z ∧ z < n)) :
    position n z = .error .indexError := by
  unfold position
  by_cases h0 : 0 ≤ z
  · rw [if_pos h0, if_neg (by omega)]
  · rw [if_neg h0, if_neg (by omega)]

theorem marks_error (l : List Int) (used : List Bool)
    (h : ∃ z ∈ l, ¬ (-(used.length : Int) ≤ z ∧ z < used.length)) :
    foldRes mark used l = .error .indexError := by
  induction l generalizing used with
  | nil => simp at h
  | cons a l ih =>
    simp only [foldRes, mark]
    by_cases ha : -(used.length : Int) ≤ a ∧ a < used.length
    · obtain ⟨p, -, hp, -⟩ := position_ok ha.1 ha.2
      rw [hp]
      apply ih
      obtain ⟨z, hz, hb⟩ := h
      rcases List.mem_cons.1 hz with rfl | hz
      · exact absurd ha hb
      · exact ⟨z, hz, by simpa using hb⟩
    · rw [position_error ha]

theorem marks_ok (l : List Int) (used : List Bool)
    (h : ∀ z ∈ l, -(used.length : Int) ≤ z ∧ z < used.length) :
    ∃ r, foldRes mark used l = .ok r ∧ r.length = used.length ∧
      ∀ p, p < used.length → (r[p]? = some true ↔
        used[p]? = some true ∨ (p : Int) ∈ l ∨ (p : Int) - used.length ∈ l) := by
  induction l generalizing used with
  | nil => exact ⟨used, rfl, rfl, by simp⟩
  | cons a l ih =>
    have ha := h a (by simp)
    obtain ⟨p, hpn, hp, hpa, hpos⟩ := position_ok ha.1 ha.2
    obtain ⟨r, hr, hl, hm⟩ := ih (used.set p true) (fun z hz => by
      simpa using h z (List.mem_cons_of_mem _ hz))
    refine ⟨r, ?_, by simpa using hl, ?_⟩
    · simp only [foldRes, mark, hp]; exact hr
    · intro q hq
      have := hm q (by simpa using hq)
      rw [this]
      simp only [List.length_set, List.mem_cons, List.getElem?_set]
      by_cases hqp : p = q
      · subst hqp
        simp only [if_true, hq]
        constructor
        · intro _
          rcases hpa with hpa | hpa
          · exact Or.inr (Or.inl (Or.inl hpa))
          · exact Or.inr (Or.inr (Or.inl (by omega)))
        · intro _; simp
      · rw [if_neg hqp]
        have h1 : (q : Int) ≠ a := by
          intro e
          have := hpos (by omega)
          omega
        have h2 : (q : Int) - used.length ≠ a := by
          intro e
          rcases hpa with hpa | hpa
          · omega
          · omega
        simp [h1, h2]

/-- The check compares with `>` instead of `>=`, and ignores negative numbers: the statement is
false.  A cell that uses index `n` of a mesh with `n` points ends in an IndexError instead of the
warning, and a negative index is not reported at all. -/
theorem C48_false : ¬ C48_statement := by
  intro h
  obtain ⟨ws, hw, -⟩ := h 3 [[[0, 1, 3]]]
  have : info 3 [[[0, 1, 3]]] = .error .indexError := by decide
  rw [this] at hw; cases hw

/-- A negative index passes the check without any warning. -/
theorem C48_negative_false :
    info 3 [[[0, 1, -1]]] = .ok [] ∧ Refers [[[0, 1, -1]]] (-1) := by
  refine ⟨by decide, [[0, 1, -1]], by simp, [0, 1, -1], by simp, by simp⟩

/-- Exactly when each outcome occurs, for every mesh: the warning about an inconsistent mesh comes
exactly when some index exceeds the number of points; without such an index, the command ends in an
IndexError exactly when some index equals the number of points or lies below its negative. -/
theorem C48_outcomes (n : Nat) (cells : List Block) :
    (info n cells = .ok [.inconsistent] ↔ ∃ z, Refers cells z ∧ (n : Int) < z) ∧
    (info n cells = .error .indexError ↔
      (∀ z, Refers cells z → z ≤ n) ∧ ∃ z, Refers cells z ∧ (z = n ∨ z < -(n : Int))) ∧
    (∀ e, info n cells = .error e → e = .indexError) := by
  by_cases h : cells.any (anyAbove n) = true
  · have hi : info n cells = .ok [.inconsistent] := by unfold info; rw [if_pos h]
    have hz := (anyAbove_iff n cells).1 h
    rw [hi]
    refine ⟨⟨fun _ => hz, fun _ => rfl⟩, ⟨fun h => (by cases h), ?_⟩, fun e he => (by cases he)⟩
    rintro ⟨h1, -⟩
    obtain ⟨z, hr, hz⟩ := hz
    have := h1 z hr; omega
  · have hz : ¬ ∃ z, Refers cells z ∧ z > (n : Int) := fun hh => h ((anyAbove_iff n cells).2 hh)
    have hle : ∀ z, Refers cells z → z ≤ n := fun z hr => by
      by_cases hc : z > (n : Int)
      · exact absurd ⟨z, hr, hc⟩ hz
      · omega
    have hlen : (List.replicate n false).length = n := by simp
    by_cases hb : ∃ z ∈ cells.flatten.flatten, ¬ (-(n : Int) ≤ z ∧ z < n)
    · have hi : info n cells = .error .indexError := by
        unfold info; rw [if_neg h, marks_error _ _ (by rw [hlen]; exact hb)]
      rw [hi]
      refine ⟨⟨fun h => (by cases h), fun hh => absurd hh hz⟩, ⟨fun _ => ⟨hle, ?_⟩, fun _ => rfl⟩,
        fun e he => by cases he; rfl⟩
      obtain ⟨z, hm, hb⟩ := hb
      have hr := (mem_flatten_iff cells z).1 hm
      have := hle z hr
      exact ⟨z, hr, by omega⟩
    · have hall : ∀ z ∈ cells.flatten.flatten, -(n : Int) ≤ z ∧ z < n := fun z hm => by
        by_cases hc : -(n : Int) ≤ z ∧ z < n
        · exact hc
        · exact absurd ⟨z, hm, hc⟩ hb
      obtain ⟨r, hr, -, -⟩ := marks_ok _ (List.replicate n false) (by rw [hlen]; exact hall)
      have hi : ∃ ws, info n cells = .ok ws ∧ ws ≠ [.inconsistent] := by
        unfold info; rw [if_neg h, hr]
        refine ⟨_, rfl, ?_⟩
        split <;> simp
      obtain ⟨ws, hi, hw⟩ := hi
      rw [hi]
      refine ⟨⟨fun h => (by cases h; exact absurd rfl hw), fun hh => absurd hh hz⟩,
        ⟨fun h => (by cases h), ?_⟩, fun e he => (by cases he)⟩
      rintro ⟨-, z, hr, hz⟩
      have := hall z ((mem_flatten_iff cells z).2 hr)
      omega

/-- `meshio info` never prints both warnings, and nothing else. -/
theorem C48_single_warning (n : Nat) (cells : List Block) (ws : List Warning)
    (h : info n cells = .ok ws) : ws = [] ∨ ws = [.inconsistent] ∨ ws = [.unused] := by
  unfold info at h
  split at h
  · cases h; simp
  · split at h
    · cases h
    · cases h; split <;> simp

/-- What is true of the property: when no index is negative and none equals the number of points,
the command ends normally and the warning about an inconsistent mesh is printed exactly when some
cell refers to a point that does not exist.
Missing: indices equal to the number of points (IndexError) and negative indices (silent, or
IndexError below `-n`). -/
theorem C48_partial (n : Nat) (cells : List Block)
    (h : ∀ z, Refers cells z → 0 ≤ z ∧ z ≠ n) :
    ∃ ws, info n cells = .ok ws ∧
      (Warning.inconsistent ∈ ws ↔ ∃ z, Refers cells z ∧ ¬ (0 ≤ z ∧ z < n)) := by
  obtain ⟨h1, h2, h3⟩ := C48_outcomes n cells
  have heq : (∃ z, Refers cells z ∧ (n : Int) < z) ↔ ∃ z, Refers cells z ∧ ¬ (0 ≤ z ∧ z < n) := by
    constructor
    · rintro ⟨z, hr, hz⟩; exact ⟨z, hr, by omega⟩
    · rintro ⟨z, hr, hz⟩; have := h z hr; exact ⟨z, hr, by omega⟩
  rw [heq] at h1
  cases hi : info n cells with
  | error e =>
    have := h3 e hi; subst this
    obtain ⟨-, z, hr, hz⟩ := h2.1 hi
    have := h z hr; omega
  | ok ws =>
    refine ⟨ws, rfl, ?_⟩
    rw [← h1, hi]
    rcases C48_single_warning n cells ws hi with rfl | rfl | rfl <;> simp

/-- A consistent mesh is never called inconsistent, and the other warning is printed exactly when
some point belongs to no cell. -/
theorem C48_unused (n : Nat) (cells : List Block)
    (h : ∀ z, Refers cells z → 0 ≤ z ∧ z < n) :
    ∃ ws, info n cells = .ok ws ∧ Warning.inconsistent ∉ ws ∧
      (Warning.unused ∈ ws ↔ ∃ p : Nat, p < n ∧ ¬ Refers cells p) := by
  have ha : ¬ cells.any (anyAbove n) = true := by
    intro hh
    obtain ⟨z, hr, hz⟩ := (anyAbove_iff n cells).1 hh
    have := h z hr; omega
  obtain ⟨r, hr, hl, hm⟩ := marks_ok cells.flatten.flatten (List.replicate n false) (by
    intro z hz
    have := h z ((mem_flatten_iff cells z).1 hz)
    simp only [List.length_replicate]; omega)
  have hi : info n cells = .ok (if r.any (fun b => !b) then [.unused] else []) := by
    unfold info; rw [if_neg ha, hr]
  refine ⟨_, hi, by split <;> simp, ?_⟩
  simp only [List.length_replicate] at hl hm
  have hkey : r.any (fun b => !b) = true ↔ ∃ p : Nat, p < n ∧ ¬ Refers cells p := by
    simp only [List.any_eq_true]
    constructor
    · rintro ⟨b, hb, hbf⟩
      obtain ⟨p, hp, rfl⟩ := List.mem_iff_getElem.1 hb
      refine ⟨p, by omega, ?_⟩
      intro hc
      have : r[p]? = some true := (hm p (by omega)).2 (Or.inr (Or.inl ((mem_flatten_iff cells p).2 hc)))
      rw [List.getElem?_eq_getElem hp] at this
      simp only [Option.some.injEq] at this
      rw [this] at hbf; simp at hbf
    · rintro ⟨p, hp, hc⟩
      refine ⟨r[p]'(by omega), List.getElem_mem _, ?_⟩
      cases hv : r[p]'(by omega) with
      | false => rfl
      | true =>
        exfalso
        have h1 : r[p]? = some true := by rw [List.getElem?_eq_getElem (by omega), hv]
        rcases (hm p hp).1 h1 with h2 | h2 | h2
        · rw [List.getElem?_replicate] at h2; simp [hp] at h2
        · exact hc ((mem_flatten_iff cells p).1 h2)
        · have := h _ ((mem_flatten_iff cells _).1 h2); omega
  rw [← hkey]
  split <;> simp_all

/-- Non-trivial instances: two blocks, one of them refers to a point far outside; a mesh with an
unused point; a mesh without findings. -/
example : info 4 [[[0, 1, 2]], [[1, 2, 7]]] = .ok [.inconsistent] ∧
    info 4 [[[0, 1, 2]], [[0, 2]]] = .ok [.unused] ∧
    info 4 [[[0, 1, 2]], [[3, 2]]] = .ok [] := by decide

example : ∀ z, Refers [[[0, 1, 2]], [[3, 2]]] z → 0 ≤ z ∧ z < (4 : Nat) := by
  intro z hz
  have := (mem_flatten_iff _ z).2 hz
  clear hz; revert z; decide

end Props
end Meshio
