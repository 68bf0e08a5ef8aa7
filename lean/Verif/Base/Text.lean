/-
Text vocabulary: strings as lists of characters, `str.join`, `str.split`.
-/
namespace Meshio

/-- `sep.join(parts)` for a one-character separator. -/
def joinWith (c : Char) : List (List Char) → List Char
  | [] => []
  | [a] => a
  | a :: b :: r => a ++ c :: joinWith c (b :: r)

/-- `s.split(c)` for a one-character separator (never returns the empty list). -/
def splitOnC (c : Char) : List Char → List (List Char)
  | [] => [[]]
  | x :: xs =>
    if x = c then [] :: splitOnC c xs
    else
      match splitOnC c xs with
      | [] => [[x]]
      | h :: t => (x :: h) :: t

theorem splitOnC_ne_nil (c : Char) (s : List Char) : splitOnC c s ≠ [] := by
  cases s with
  | nil => simp [splitOnC]
  | cons x xs =>
    simp only [splitOnC]
    split
    · simp
    · split <;> simp

theorem splitOnC_append_sep (c : Char) (a s : List Char) (h : c ∉ a) :
    splitOnC c (a ++ c :: s) = a :: splitOnC c s := by
  induction a with
  | nil => simp [splitOnC]
  | cons x xs ih =>
    have hx : x ≠ c := by intro e; exact h (by simp [e])
    have hxs : c ∉ xs := fun hm => h (List.mem_cons_of_mem _ hm)
    simp only [List.cons_append, splitOnC, if_neg hx, ih hxs]

theorem splitOnC_not_mem (c : Char) (a : List Char) (h : c ∉ a) : splitOnC c a = [a] := by
  induction a with
  | nil => rfl
  | cons x xs ih =>
    have hx : x ≠ c := by intro e; exact h (by simp [e])
    have hxs : c ∉ xs := fun hm => h (List.mem_cons_of_mem _ hm)
    simp only [splitOnC, if_neg hx, ih hxs]

/-- Joining with a character that occurs in no part can be undone by splitting. -/
theorem splitOnC_joinWith (c : Char) (l : List (List Char)) (hne : l ≠ [])
    (h : ∀ a ∈ l, c ∉ a) : splitOnC c (joinWith c l) = l := by
  induction l with
  | nil => exact absurd rfl hne
  | cons a l ih =>
    cases l with
    | nil => exact splitOnC_not_mem c a (h a (by simp))
    | cons b r =>
      simp only [joinWith]
      rw [splitOnC_append_sep c a _ (h a (by simp)), ih (by simp)]
      intro x hx; exact h x (List.mem_cons_of_mem _ hx)

theorem joinWith_splitOnC (c : Char) (s : List Char) : joinWith c (splitOnC c s) = s := by
  induction s with
  | nil => rfl
  | cons x xs ih =>
    simp only [splitOnC]
    have hne := splitOnC_ne_nil c xs
    split
    · next h =>
      subst h
      cases hs : splitOnC x xs with
      | nil => exact absurd hs hne
      | cons a r => rw [hs] at ih; simp only [joinWith, List.nil_append, ih]
    · cases hs : splitOnC c xs with
      | nil => exact absurd hs hne
      | cons a r =>
        rw [hs] at ih
        cases r with
        | nil => simp only [joinWith] at ih ⊢; rw [ih]
        | cons b r => simp only [joinWith, List.cons_append] at ih ⊢; rw [ih]

/-- `sep.join(strings)` on `String`s, one-character separator. -/
def pyJoin (c : Char) (l : List String) : String :=
  String.ofList (joinWith c (l.map String.toList))

/-- `s.split(c)` on `String`s, one-character separator. -/
def pySplit (c : Char) (s : String) : List String :=
  (splitOnC c s.toList).map String.ofList

theorem pySplit_pyJoin (c : Char) (l : List String) (hne : l ≠ [])
    (h : ∀ s ∈ l, c ∉ s.toList) : pySplit c (pyJoin c l) = l := by
  unfold pySplit pyJoin
  rw [String.toList_ofList, splitOnC_joinWith c _ (by simpa using hne)]
  · simp [Function.comp_def]
  · intro a ha
    obtain ⟨s, hs, rfl⟩ := List.mem_map.mp ha
    exact h s hs

end Meshio
