/-
Helper lemmas about the model of `_common.py`.
-/
import Verif.Model.Common
namespace Meshio

theorem cumsumFrom_length (s : Nat) (l : List Nat) : (cumsumFrom s l).length = l.length := by
  induction l generalizing s with
  | nil => rfl
  | cons n l ih => simp [cumsumFrom, ih]

theorem cumsumFrom_ne_nil (s n : Nat) (l : List Nat) : cumsumFrom s (n :: l) ≠ [] := by
  simp [cumsumFrom]

theorem slice_self_append {α : Type} (pre a b : List α) :
    slice (pre ++ a ++ b) pre.length (pre.length + a.length) = a := by
  unfold slice
  rw [List.append_assoc, List.take_append, List.drop_append]
  simp

/-- Cutting `pre ++ concat` at the division points behind `pre` gives the pieces. -/
theorem slicesBetween_flatten {α : Type} (pre : List α) (bs : List (List α)) :
    slicesBetween (pre ++ bs.flatten) (pre.length :: cumsumFrom pre.length (bs.map List.length))
      = bs := by
  induction bs generalizing pre with
  | nil => rfl
  | cons b bs ih =>
    simp only [List.map_cons, cumsumFrom, slicesBetween, List.flatten_cons]
    rw [← List.append_assoc, slice_self_append]
    have := ih (pre ++ b)
    rw [List.length_append] at this
    rw [this]

theorem cumsumFrom_getLast {s : Nat} {l : List Nat} (h : cumsumFrom s l ≠ []) :
    (cumsumFrom s l).getLast h = s + l.sum := by
  induction l generalizing s with
  | nil => exact absurd rfl h
  | cons n l ih =>
    simp only [cumsumFrom]
    cases l with
    | nil => simp [cumsumFrom]
    | cons m r =>
      rw [List.getLast_cons (cumsumFrom_ne_nil _ _ _), ih]
      simp; omega

theorem dropLast_append_total {lens : List Nat} (h : lens ≠ []) (s : Nat) :
    (cumsumFrom s lens).dropLast ++ [s + lens.sum] = cumsumFrom s lens := by
  cases lens with
  | nil => exact absurd rfl h
  | cons n l =>
    have hne := cumsumFrom_ne_nil s n l
    rw [← cumsumFrom_getLast hne]
    exact List.dropLast_concat_getLast hne

theorem sum_map_length_flatten {α : Type} (bs : List (List α)) :
    (bs.map List.length).sum = bs.flatten.length := by
  rw [List.length_flatten]

theorem cellDataFromRaw_flatten {α : Type} (bs : List (List α)) (h : bs ≠ []) :
    cellDataFromRaw (bs.map List.length) bs.flatten = bs := by
  unfold cellDataFromRaw npSplit cumsum
  rw [List.cons_append, ← sum_map_length_flatten, ← Nat.zero_add (List.sum _),
    dropLast_append_total (by simpa using h)]
  exact slicesBetween_flatten [] bs

theorem exists_chunks {α : Type} (lens : List Nat) (raw : List α) (h : raw.length = lens.sum) :
    ∃ bs : List (List α), bs.map List.length = lens ∧ bs.flatten = raw := by
  induction lens generalizing raw with
  | nil =>
    refine ⟨[], rfl, ?_⟩
    have : raw.length = 0 := by simpa using h
    exact (List.length_eq_zero_iff.mp this).symm
  | cons n l ih =>
    simp only [List.sum_cons] at h
    obtain ⟨bs, h1, h2⟩ := ih (raw.drop n) (by rw [List.length_drop]; omega)
    refine ⟨raw.take n :: bs, ?_, ?_⟩
    · simp only [List.map_cons, h1, List.length_take]; congr 1; omega
    · simp [h2]

theorem npConcat_of_tails {ρ : Type} {blocks : List (NArr ρ)} {t : List Nat} (hne : blocks ≠ [])
    (ht : ∀ b ∈ blocks, b.tail = t) :
    npConcat blocks = .ok ⟨t, (blocks.map (·.rows)).flatten⟩ := by
  cases blocks with
  | nil => exact absurd rfl hne
  | cons a l =>
    have ha : a.tail = t := ht a (by simp)
    have hl : l.all (fun b => b.tail = a.tail) = true := by
      rw [List.all_eq_true]; intro b hb
      simp [ha, ht b (List.mem_cons_of_mem _ hb)]
    simp only [npConcat]
    rw [if_pos hl, ha]
    rfl

theorem npConcat_ok {ρ : Type} {blocks : List (NArr ρ)} {a : NArr ρ}
    (h : npConcat blocks = .ok a) :
    blocks ≠ [] ∧ (∀ b ∈ blocks, b.tail = a.tail) ∧ a.rows = (blocks.map (·.rows)).flatten := by
  cases blocks with
  | nil => cases h
  | cons b l =>
    simp only [npConcat] at h
    split at h
    · next hall =>
      cases h
      rw [List.all_eq_true] at hall
      refine ⟨by simp, ?_, rfl⟩
      intro c hc
      rcases List.mem_cons.mp hc with hc | hc
      · rw [hc]
      · simpa using hall c hc
    · cases h

theorem npConcat_error {ρ : Type} {blocks : List (NArr ρ)} {e : Err}
    (h : npConcat blocks = .error e) : e = .valueError := by
  cases blocks with
  | nil => cases h; rfl
  | cons b l =>
    simp only [npConcat] at h
    split at h
    · cases h
    · cases h; rfl

theorem isInAny_eq_false {c : Char} {l : List String} :
    isInAny c l = false ↔ ∀ s ∈ l, c ∉ s.toList := by
  induction l with
  | nil => simp [isInAny]
  | cons s l ih =>
    simp only [isInAny, charIn, List.mem_cons, forall_eq_or_imp]
    by_cases h : s.toList.contains c = true
    · simp only [h, if_true]
      have : c ∈ s.toList := by simpa using h
      simp [this]
    · have h' : c ∉ s.toList := by simpa using h
      simp [h', ih]

theorem firstChar_some {ok : Char → Bool} {l : List Char} {c : Char}
    (h : firstChar ok l = some c) : c ∈ l ∧ ok c = true := by
  induction l with
  | nil => cases h
  | cons x l ih =>
    simp only [firstChar] at h
    split at h
    · next hx => cases h; exact ⟨by simp, hx⟩
    · exact ⟨List.mem_cons_of_mem _ (ih h).1, (ih h).2⟩

theorem firstChar_none {ok : Char → Bool} {l : List Char} :
    firstChar ok l = none ↔ ∀ c ∈ l, ok c = false := by
  induction l with
  | nil => simp [firstChar]
  | cons x l ih =>
    simp only [firstChar, List.mem_cons, forall_eq_or_imp]
    by_cases hx : ok x = true
    · simp [hx]
    · simp [hx, ih]

/-- The chosen character is the first acceptable one. -/
theorem firstChar_eq_find? (ok : Char → Bool) (l : List Char) : firstChar ok l = l.find? ok := by
  induction l with
  | nil => rfl
  | cons x l ih =>
    simp only [firstChar, List.find?]
    cases ok x <;> simp [ih]

end Meshio
