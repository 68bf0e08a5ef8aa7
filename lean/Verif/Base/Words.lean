/-
Words of lines, and stripping text with a known beginning.
-/
import Verif.Base.Scan
namespace Meshio

theorem mem_splitWsGo {c : Char} (hc : isWs c = false) (s cur : List Char) (h : c ∈ s ∨ c ∈ cur) :
    ∃ t ∈ splitWsGo s cur, c ∈ t := by
  induction s generalizing cur with
  | nil =>
    have : c ∈ cur := by simpa using h
    rw [splitWsGo, if_neg (by rintro rfl; simp at this)]
    exact ⟨cur.reverse, List.mem_singleton.2 rfl, by simpa using this⟩
  | cons d s ih =>
    simp only [splitWsGo]
    split
    · next hd =>
      have hcd : c ≠ d := by rintro rfl; rw [hc] at hd; cases hd
      split
      · next e =>
        subst e
        exact ih [] (by simpa [hcd] using h)
      · rcases h with h | h
        · obtain ⟨t, ht, htc⟩ := ih [] (.inl (by simpa [hcd] using h))
          exact ⟨t, List.mem_cons_of_mem _ ht, htc⟩
        · exact ⟨_, List.mem_cons_self, by simpa using h⟩
    · refine ih (d :: cur) ?_
      rcases h with h | h
      · rcases List.mem_cons.1 h with rfl | h
        · exact .inr (by simp)
        · exact .inl h
      · exact .inr (by simp [h])

/-- A character of a line that is not whitespace belongs to a word. -/
theorem mem_splitWs {c : Char} (hc : isWs c = false) {s : List Char} (h : c ∈ s) : ∃ t ∈ splitWs s, c ∈ t :=
  mem_splitWsGo hc s [] (.inl h)

/-- The newline is not a word. -/
theorem splitWs_nl (l : List Char) : splitWs (l ++ ['\n']) = splitWs l := by
  have := splitWsGo_ws_end ['\n'] (by intro c hc; simp only [List.mem_singleton] at hc; subst hc; decide) l []
  exact this

/-- Text between two characters that are not whitespace survives stripping. -/
theorem strip_prefix (a : List Char) (hne : a ≠ []) (h1 : ∀ c, a.head? = some c → isWs c = false)
    (h2 : ∀ c, a.getLast? = some c → isWs c = false) (s : List Char) : ∃ r, strip (a ++ s) = a ++ r := by
  have hd : (a ++ s).dropWhile isWs = a ++ s := by
    refine dropWhile_head_not ?_
    intro c hc
    cases a with
    | nil => exact absurd rfl hne
    | cons d a => exact h1 c (by simpa using hc)
  unfold strip
  rw [hd, List.reverse_append]
  by_cases hs : ∀ c ∈ s.reverse, isWs c = true
  · rw [List.dropWhile_append_of_pos hs, dropWhile_head_not (by
      intro c hc; rw [List.head?_reverse] at hc; exact h2 c hc), List.reverse_reverse]
    exact ⟨[], by simp⟩
  · refine ⟨(s.reverse.dropWhile isWs).reverse, ?_⟩
    have : (s.reverse.dropWhile isWs) ≠ [] := by
      intro e
      apply hs
      intro c hc
      have := List.takeWhile_append_dropWhile (p := isWs) (l := s.reverse)
      rw [e, List.append_nil] at this
      rw [← this] at hc
      exact takeWhile_all _ _ _ hc
    rw [List.dropWhile_append, if_neg (by simpa [List.isEmpty_iff] using this)]
    simp

theorem strip_getLast_of_eq {s : List Char} (h : strip s = s) : ∀ c, s.getLast? = some c → isWs c = false := by
  intro c hc
  unfold strip at h
  have h' : (s.dropWhile isWs).reverse.dropWhile isWs = s.reverse := by
    have := congrArg List.reverse h
    rwa [List.reverse_reverse] at this
  have hx := List.head?_dropWhile_not isWs (s.dropWhile isWs).reverse
  rw [h', List.head?_reverse, hc] at hx
  simpa using hx

/-- A prefix that is not a prefix of the beginning. -/
theorem not_prefix_of_not_prefix {p a r : List Char} (hl : p.length ≤ a.length) (h : ¬ p <+: a) : ¬ p <+: a ++ r := by
  intro hp
  exact h (List.prefix_of_prefix_length_le hp (List.prefix_append _ _) hl)

/-- A line with a newline at its end. -/
theorem strip_nl' (l : List Char) : strip (l ++ ['\n']) = strip l := by
  by_cases h : ∀ c ∈ l, isWs c = true
  · have h' : ∀ c ∈ l ++ ['\n'], isWs c = true := by
      intro c hc
      rcases List.mem_append.1 hc with hc | hc
      · exact h c hc
      · simp only [List.mem_singleton] at hc; subst hc; decide
    unfold strip
    rw [dropWhile_all _ _ h, dropWhile_all _ _ h']
  · unfold strip
    have : l.dropWhile isWs ≠ [] := by
      intro e
      apply h
      intro c hc
      have := List.takeWhile_append_dropWhile (p := isWs) (l := l)
      rw [e, List.append_nil] at this
      rw [← this] at hc
      exact takeWhile_all _ _ _ hc
    rw [List.dropWhile_append, if_neg (by simpa [List.isEmpty_iff] using this), List.reverse_append]
    simp only [List.reverse_cons, List.reverse_nil, List.nil_append, List.cons_append, List.dropWhile_cons]
    rw [show isWs '\n' = true by decide]
    rfl

end Meshio
