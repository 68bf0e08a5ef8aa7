/-
Lemmas about `Exodus.categorize`.
-/
import Verif.Spec.Exodus

namespace Meshio
namespace Exodus
open Types Tables

theorem pyIndex_some {names : List (List Char)} {x : List Char} {i : Nat}
    (h : pyIndex names x = some i) : names[i]? = some x := by
  unfold pyIndex List.idxOf? at h
  rw [List.findIdx?_eq_some_iff_getElem] at h
  obtain ⟨hi, h1, -⟩ := h
  rw [List.getElem?_eq_getElem hi]
  simpa using h1

theorem pyIndex_none {names : List (List Char)} {x : List Char}
    (h : pyIndex names x = none) : x ∉ names := by
  unfold pyIndex List.idxOf? at h
  rw [List.findIdx?_eq_none_iff] at h
  intro hm
  have := h x hm
  simp at this

theorem getElem?_inj_of_nodup {α : Type} {l : List α} (hn : l.Nodup) {i j : Nat} {x : α}
    (hi : l[i]? = some x) (hj : l[j]? = some x) : i = j := by
  have h1 : i < l.length := by
    rcases Nat.lt_or_ge i l.length with h | h
    · exact h
    · rw [List.getElem?_eq_none h] at hi; cases hi
  exact (List.getElem?_inj h1 hn).1 (by rw [hi, hj])

theorem pyIndex_of_nodup {names : List (List Char)} (hn : names.Nodup) {x : List Char} {i : Nat}
    (h : names[i]? = some x) : pyIndex names x = some i := by
  cases hp : pyIndex names x with
  | none => exact absurd (List.mem_of_getElem? h) (pyIndex_none hp)
  | some j => rw [getElem?_inj_of_nodup hn h (pyIndex_some hp)]

theorem truthy_some {o : Option Nat} {i : Nat} : truthy o = some i ↔ o = some i ∧ 0 < i := by
  cases o with
  | none => simp [truthy]
  | some k =>
    cases k with
    | zero => simp [truthy]; omega
    | succ k => simp [truthy]; omega

theorem lt_of_getElem? {α : Type} {l : List α} {i : Nat} {x : α} (h : l[i]? = some x) :
    i < l.length := by
  rcases Nat.lt_or_ge i l.length with h' | h'
  · exact h'
  · rw [List.getElem?_eq_none h'] at h; cases h

theorem drop_two_eq {name : List Char} (h : name.drop (name.length - 2) = ['_', 'R']) :
    name = name.take (name.length - 2) ++ ['_', 'R'] := by
  conv => lhs; rw [← List.take_append_drop (name.length - 2) name, h]

/-- The three ways a round can go for a variable that is not used yet. -/
theorem catStep_cases {names : List (List Char)} {s : Cat} {k : Nat} {name : List Char}
    (hk : names[k]? = some name) (hne : name ≠ []) (hacc : s.acc[k]? ≠ some true) :
    (∃ p iy iz, name = p ++ ['X'] ∧ names[iy]? = some (p ++ ['Y']) ∧ names[iz]? = some (p ++ ['Z']) ∧
      catStep names s k = .ok { s with
        triple := s.triple ++ [(p, k, iy, iz)]
        acc := ((s.acc.set k true).set iy true).set iz true }) ∨
    (∃ p iz, name = p ++ ['_', 'R'] ∧ names[iz]? = some (p ++ ['_', 'Z']) ∧
      catStep names s k = .ok { s with
        double := s.double ++ [(p, k, iz)]
        acc := (s.acc.set k true).set iz true }) ∨
    ((∀ p, name = p ++ ['X'] → truthy (pyIndex names (p ++ ['Y'])) = none ∨
        truthy (pyIndex names (p ++ ['Z'])) = none) ∧
      (∀ p, name = p ++ ['_', 'R'] → truthy (pyIndex names (p ++ ['_', 'Z'])) = none) ∧
      catStep names s k = .ok { s with single := s.single ++ [(name, k)], acc := s.acc.set k true }) := by
  unfold catStep
  rw [if_neg hacc, hk]
  dsimp only
  obtain ⟨q, c, rfl⟩ : ∃ q c, name = q ++ [c] :=
    ⟨name.dropLast, name.getLast hne, (List.dropLast_concat_getLast hne).symm⟩
  simp only [List.getLast?_concat, List.dropLast_concat]
  by_cases hc : c = 'X'
  · subst hc
    rw [if_pos rfl]
    split
    · next iy iz hy hz =>
      left
      exact ⟨q, iy, iz, rfl, pyIndex_some (truthy_some.1 hy).1, pyIndex_some (truthy_some.1 hz).1, rfl⟩
    · next hno =>
      right; right
      refine ⟨?_, ?_, rfl⟩
      · intro p hp
        obtain rfl : q = p := List.append_cancel_right hp
        cases hy : truthy (pyIndex names (q ++ ['Y'])) with
        | none => exact Or.inl rfl
        | some iy =>
          cases hz : truthy (pyIndex names (q ++ ['Z'])) with
          | none => exact Or.inr rfl
          | some iz => exact absurd hz (hno iy iz hy)
      · intro p hp
        have : (q ++ ['X']).getLast? = (p ++ ['_', 'R']).getLast? := by rw [hp]
        simp at this
  · rw [if_neg hc]
    by_cases hr : (q ++ [c]).drop ((q ++ [c]).length - 2) = ['_', 'R']
    · rw [if_pos hr]
      have hq := drop_two_eq hr
      generalize hp : (q ++ [c]).take ((q ++ [c]).length - 2) = p at hq ⊢
      split
      · next iz hz =>
        right; left
        exact ⟨p, iz, hq, pyIndex_some (truthy_some.1 hz).1, rfl⟩
      · next hz =>
        right; right
        refine ⟨?_, ?_, rfl⟩
        · intro p' hp'
          have : (q ++ [c]).getLast? = (p' ++ ['X']).getLast? := by rw [hp']
          simp at this; exact absurd this hc
        · intro p' hp'
          have : p = p' := List.append_cancel_right (hq.symm.trans hp')
          subst this; exact hz
    · rw [if_neg hr]
      right; right
      refine ⟨?_, ?_, rfl⟩
      · intro p' hp'
        have : (q ++ [c]).getLast? = (p' ++ ['X']).getLast? := by rw [hp']
        simp at this; exact absurd this hc
      · intro p' hp'
        exfalso; apply hr
        rw [hp']
        simp

/-- What holds before round `k`, whatever the names are. -/
structure Inv1 (names : List (List Char)) (k : Nat) (s : Cat) : Prop where
  len : s.acc.length = names.length
  acc : ∀ j, s.acc[j]? = some true ↔ j ∈ s.used
  below : ∀ j, j < k → j ∈ s.used
  triple : ∀ e ∈ s.triple, names[e.2.1]? = some (e.1 ++ ['X']) ∧
    names[e.2.2.1]? = some (e.1 ++ ['Y']) ∧ names[e.2.2.2]? = some (e.1 ++ ['Z'])
  double : ∀ e ∈ s.double, names[e.2.1]? = some (e.1 ++ ['_', 'R']) ∧
    names[e.2.2]? = some (e.1 ++ ['_', 'Z'])
  single : ∀ e ∈ s.single, names[e.2]? = some e.1

theorem mem_used_triple {s : Cat} {e : List Char × Nat × Nat × Nat} {a : List Bool} {j : Nat} :
    j ∈ Cat.used { s with triple := s.triple ++ [e], acc := a } ↔
      j ∈ s.used ∨ j = e.2.1 ∨ j = e.2.2.1 ∨ j = e.2.2.2 := by
  simp [Cat.used, or_assoc, List.mem_append]

theorem mem_used_double {s : Cat} {e : List Char × Nat × Nat} {a : List Bool} {j : Nat} :
    j ∈ Cat.used { s with double := s.double ++ [e], acc := a } ↔
      j ∈ s.used ∨ j = e.2.1 ∨ j = e.2.2 := by
  simp only [Cat.used, List.mem_append, List.flatMap_append, List.flatMap_cons, List.flatMap_nil,
    List.mem_cons, List.not_mem_nil, or_false, List.append_nil]
  constructor
  · rintro ((h | h | h) | h)
    · exact Or.inl (Or.inl (Or.inl h))
    · exact Or.inl (Or.inl (Or.inr h))
    · exact Or.inr h
    · exact Or.inl (Or.inr h)
  · rintro (((h | h) | h) | h)
    · exact Or.inl (Or.inl h)
    · exact Or.inl (Or.inr (Or.inl h))
    · exact Or.inr h
    · exact Or.inl (Or.inr (Or.inr h))

theorem mem_used_single {s : Cat} {e : List Char × Nat} {a : List Bool} {j : Nat} :
    j ∈ Cat.used { s with single := s.single ++ [e], acc := a } ↔ j ∈ s.used ∨ j = e.2 := by
  simp only [Cat.used, List.mem_append, List.map_append, List.map_cons, List.map_nil,
    List.mem_cons, List.not_mem_nil, or_false]
  constructor
  · rintro (((h | h) | h) | h)
    · exact Or.inl (Or.inl (Or.inl h))
    · exact Or.inr h
    · exact Or.inl (Or.inl (Or.inr h))
    · exact Or.inl (Or.inr h)
  · rintro (((h | h) | h) | h)
    · exact Or.inl (Or.inl (Or.inl h))
    · exact Or.inl (Or.inr h)
    · exact Or.inr h
    · exact Or.inl (Or.inl (Or.inr h))

theorem set_true {l : List Bool} {i j : Nat} (hi : i < l.length) :
    (l.set i true)[j]? = some true ↔ l[j]? = some true ∨ j = i := by
  rw [List.getElem?_set]
  by_cases h : i = j
  · subst h; simp [hi]
  · rw [if_neg h]; simp [Ne.symm h]

theorem inv1_step {names : List (List Char)} (hne : ∀ x ∈ names, x ≠ []) {k : Nat} {s : Cat}
    (h : Inv1 names k s) (hk : k < names.length) :
    ∃ s', catStep names s k = .ok s' ∧ Inv1 names (k + 1) s' := by
  by_cases hacc : s.acc[k]? = some true
  · refine ⟨s, by unfold catStep; rw [if_pos hacc], h.len, h.acc, ?_, h.triple, h.double, h.single⟩
    intro j hj
    rcases Nat.lt_or_ge j k with h' | h'
    · exact h.below j h'
    · obtain rfl : j = k := by omega
      exact (h.acc j).1 hacc
  · have hk' : names[k]? = some names[k] := List.getElem?_eq_getElem hk
    have hkl : k < s.acc.length := by rw [h.len]; exact hk
    rcases catStep_cases hk' (hne _ (List.getElem_mem hk)) hacc with
      ⟨p, iy, iz, hn, hy, hz, e⟩ | ⟨p, iz, hn, hz, e⟩ | ⟨-, -, e⟩
    · have hyl := lt_of_getElem? hy
      have hzl := lt_of_getElem? hz
      refine ⟨_, e, ?_, ?_, ?_, ?_, h.double, h.single⟩
      · simp [h.len]
      · intro j
        rw [mem_used_triple]
        rw [set_true (by simp [h.len]; exact hzl), set_true (by simp [h.len]; exact hyl),
          set_true hkl, h.acc, or_assoc, or_assoc]
      · intro j hj
        rw [mem_used_triple]
        rcases Nat.lt_or_ge j k with h' | h'
        · exact Or.inl (h.below j h')
        · exact Or.inr (Or.inl (by dsimp only; omega))
      · intro e he
        rcases List.mem_append.1 he with he | he
        · exact h.triple e he
        · obtain rfl := List.mem_singleton.1 he
          exact ⟨by rw [← hn]; exact hk', hy, hz⟩
    · have hzl := lt_of_getElem? hz
      refine ⟨_, e, ?_, ?_, ?_, h.triple, ?_, h.single⟩
      · simp [h.len]
      · intro j
        rw [mem_used_double]
        rw [set_true (by simp [h.len]; exact hzl), set_true hkl, h.acc, or_assoc]
      · intro j hj
        rw [mem_used_double]
        rcases Nat.lt_or_ge j k with h' | h'
        · exact Or.inl (h.below j h')
        · exact Or.inr (Or.inl (by dsimp only; omega))
      · intro e he
        rcases List.mem_append.1 he with he | he
        · exact h.double e he
        · obtain rfl := List.mem_singleton.1 he
          exact ⟨by rw [← hn]; exact hk', hz⟩
    · refine ⟨_, e, ?_, ?_, ?_, h.triple, h.double, ?_⟩
      · simp [h.len]
      · intro j
        rw [mem_used_single, set_true hkl, h.acc]
      · intro j hj
        rw [mem_used_single]
        rcases Nat.lt_or_ge j k with h' | h'
        · exact Or.inl (h.below j h')
        · exact Or.inr (by dsimp only; omega)
      · intro e he
        rcases List.mem_append.1 he with he | he
        · exact h.single e he
        · obtain rfl := List.mem_singleton.1 he
          exact hk'

theorem inv1_init (names : List (List Char)) : Inv1 names 0 (catInit names.length) := by
  refine ⟨by simp [catInit], ?_, fun j hj => by omega, by simp [catInit], by simp [catInit], by simp [catInit]⟩
  intro j
  simp only [catInit, Cat.used, List.getElem?_replicate]
  split <;> simp

/-- A loop over `range n` keeps an invariant. -/
theorem foldRes_range {σ : Type} (f : σ → Nat → Res σ) (P : Nat → σ → Prop) (n : Nat)
    (hstep : ∀ k s, k < n → P k s → ∃ s', f s k = .ok s' ∧ P (k + 1) s') :
    ∀ m k s, k + m = n → P k s → ∃ s', foldRes f s (List.range' k m) = .ok s' ∧ P n s' := by
  intro m
  induction m with
  | zero => intro k s hk hp; exact ⟨s, rfl, by simpa using hk ▸ hp⟩
  | succ m ih =>
    intro k s hk hp
    obtain ⟨s', h1, h2⟩ := hstep k s (by omega) hp
    obtain ⟨s'', h3, h4⟩ := ih (k + 1) s' (by omega) h2
    refine ⟨s'', ?_, h4⟩
    simp only [List.range'_succ, foldRes, h1]
    exact h3

theorem categorize_of_inv {names : List (List Char)} (P : Nat → Cat → Prop)
    (h0 : P 0 (catInit names.length))
    (hstep : ∀ k s, k < names.length → P k s → ∃ s', catStep names s k = .ok s' ∧ P (k + 1) s')
    (hend : ∀ s, P names.length s → Inv1 names names.length s) :
    ∃ s, categorize names = .ok s ∧ P names.length s := by
  obtain ⟨s, hs, hp⟩ := foldRes_range (catStep names) P names.length hstep names.length 0 _
    (by omega) h0
  refine ⟨s, ?_, hp⟩
  have hi := hend s hp
  unfold categorize
  rw [List.range_eq_range', hs]
  dsimp only
  rw [if_pos]
  rw [List.all_eq_true]
  intro b hb
  obtain ⟨j, hj, rfl⟩ := List.mem_iff_getElem.1 hb
  have := (hi.acc j).2 (hi.below j (by rw [← hi.len]; exact hj))
  rw [List.getElem?_eq_getElem hj] at this
  simpa using this

/-- Variable `j` belongs to a group that starts at `i`. -/
def Target (names : List (List Char)) (i j : Nat) : Prop :=
  (∃ p, names[i]? = some (p ++ ['X']) ∧ p ++ ['Y'] ∈ names ∧ p ++ ['Z'] ∈ names ∧
    (names[j]? = some (p ++ ['Y']) ∨ names[j]? = some (p ++ ['Z']))) ∨
  (∃ p, names[i]? = some (p ++ ['_', 'R']) ∧ names[j]? = some (p ++ ['_', 'Z']))

/-- What holds before round `k` for names in the usual order. -/
structure Inv2 (names : List (List Char)) (k : Nat) (s : Cat) : Prop where
  inv1 : Inv1 names k s
  nodup : s.used.Nodup
  above : ∀ j ∈ s.used, k ≤ j → ∃ i, i < k ∧ Target names i j
  triples : ∀ p i j l, i < k → names[i]? = some (p ++ ['X']) → names[j]? = some (p ++ ['Y']) →
    names[l]? = some (p ++ ['Z']) → (p, i, j, l) ∈ s.triple
  doubles : ∀ p i j, i < k → names[i]? = some (p ++ ['_', 'R']) → names[j]? = some (p ++ ['_', 'Z']) →
    (p, i, j) ∈ s.double

theorem nodup_used_triple {s : Cat} {p : List Char} {i j l : Nat} {a : List Bool} (h : s.used.Nodup)
    (hi : i ∉ s.used) (hj : j ∉ s.used) (hl : l ∉ s.used) (hij : i ≠ j) (hil : i ≠ l) (hjl : j ≠ l) :
    (Cat.used { s with triple := s.triple ++ [(p, i, j, l)], acc := a }).Nodup := by
  have : Cat.used { s with triple := s.triple ++ [(p, i, j, l)], acc := a } = s.used ++ [i, j, l] := by
    simp [Cat.used]
  rw [this, List.nodup_append]
  refine ⟨h, by simp [hij, hil, hjl], ?_⟩
  intro x hx y hy e
  subst e
  simp only [List.mem_cons, List.not_mem_nil, or_false] at hy
  rcases hy with rfl | rfl | rfl
  · exact hi hx
  · exact hj hx
  · exact hl hx

theorem nodup_used_double {s : Cat} {p : List Char} {i l : Nat} {a : List Bool} (h : s.used.Nodup)
    (hi : i ∉ s.used) (hl : l ∉ s.used) (hil : i ≠ l) :
    (Cat.used { s with double := s.double ++ [(p, i, l)], acc := a }).Nodup := by
  have : List.Perm (Cat.used { s with double := s.double ++ [(p, i, l)], acc := a })
      (s.used ++ [i, l]) := by
    simp only [Cat.used, List.flatMap_append, List.flatMap_cons, List.flatMap_nil, List.append_nil,
      List.append_assoc]
    refine List.Perm.append_left _ (List.Perm.append_left _ List.perm_append_comm)
  rw [this.nodup_iff, List.nodup_append]
  refine ⟨h, by simp [hil], ?_⟩
  intro x hx y hy e
  subst e
  simp only [List.mem_cons, List.not_mem_nil, or_false] at hy
  rcases hy with rfl | rfl
  · exact hi hx
  · exact hl hx

theorem nodup_used_single {s : Cat} {p : List Char} {i : Nat} {a : List Bool} (h : s.used.Nodup)
    (hi : i ∉ s.used) :
    (Cat.used { s with single := s.single ++ [(p, i)], acc := a }).Nodup := by
  have : List.Perm (Cat.used { s with single := s.single ++ [(p, i)], acc := a })
      (s.used ++ [i]) := by
    simp only [Cat.used, List.map_append, List.map_cons, List.map_nil, List.append_assoc]
    refine List.Perm.append_left _ ?_
    rw [← List.append_assoc (List.flatMap _ _)]
    exact List.perm_append_comm
  rw [this.nodup_iff, List.nodup_append]
  refine ⟨h, by simp, ?_⟩
  intro x hx y hy e
  subst e
  simp only [List.mem_cons, List.not_mem_nil, or_false] at hy
  subst hy; exact hi hx

theorem last_ne {p q : List Char} {a b : Char} (hab : a ≠ b) : p ++ [a] ≠ q ++ [b] := by
  intro h
  have := congrArg List.getLast? h
  simp at this; exact hab this

theorem two_eq {p q : List Char} {a b c : Char} (h : p ++ [c] = q ++ [a, b]) : p = q ++ [a] ∧ c = b := by
  have h' : p ++ [c] = (q ++ [a]) ++ [b] := by simpa using h
  have := List.append_inj' h' rfl
  exact ⟨this.1, by simpa using this.2⟩

theorem inv2_step {names : List (List Char)} (ho : Ordered names) {k : Nat} {s : Cat}
    (h : Inv2 names k s) (hk : k < names.length) :
    ∃ s', catStep names s k = .ok s' ∧ Inv2 names (k + 1) s' := by
  obtain ⟨s', hs', hi'⟩ := inv1_step ho.nonempty h.inv1 hk
  suffices hsuf : s'.used.Nodup ∧ (∀ j ∈ s'.used, k + 1 ≤ j → ∃ i, i < k + 1 ∧ Target names i j) ∧
      (∀ p i j l, i < k + 1 → names[i]? = some (p ++ ['X']) → names[j]? = some (p ++ ['Y']) →
        names[l]? = some (p ++ ['Z']) → (p, i, j, l) ∈ s'.triple) ∧
      (∀ p i j, i < k + 1 → names[i]? = some (p ++ ['_', 'R']) →
        names[j]? = some (p ++ ['_', 'Z']) → (p, i, j) ∈ s'.double) from
    ⟨s', hs', hi', hsuf.1, hsuf.2.1, hsuf.2.2.1, hsuf.2.2.2⟩
  have hk' : names[k]? = some names[k] := List.getElem?_eq_getElem hk
  have inj := fun {i j : Nat} {x : List Char} (a : names[i]? = some x) (b : names[j]? = some x) =>
    getElem?_inj_of_nodup ho.nodup a b
  -- a variable that starts a group is never a target
  have notX : ∀ i p, names[i]? = some (p ++ ['X']) → ∀ i', ¬ Target names i' i := by
    rintro i p hp i' (⟨q, -, -, -, hq | hq⟩ | ⟨q, -, hq⟩)
    · rw [hp] at hq; exact last_ne (by decide) (Option.some.inj hq)
    · rw [hp] at hq; exact last_ne (by decide) (Option.some.inj hq)
    · rw [hp] at hq; have := (two_eq (Option.some.inj hq)).2; exact absurd this (by decide)
  have notR : ∀ i p, names[i]? = some (p ++ ['_', 'R']) → ∀ i', ¬ Target names i' i := by
    rintro i p hp i' (⟨q, -, -, -, hq | hq⟩ | ⟨q, -, hq⟩)
    · rw [hp] at hq; have := (two_eq (Option.some.inj hq).symm).2; exact absurd this (by decide)
    · rw [hp] at hq; have := (two_eq (Option.some.inj hq).symm).2; exact absurd this (by decide)
    · rw [hp] at hq
      have h2 := Option.some.inj hq
      have := List.append_inj' h2 rfl
      simp at this
  by_cases hacc : s.acc[k]? = some true
  · have hku : k ∈ s.used := (h.inv1.acc k).1 hacc
    have e : catStep names s k = .ok s := by unfold catStep; rw [if_pos hacc]
    rw [e] at hs'; cases hs'
    obtain ⟨i0, hi0, ht⟩ := h.above k hku (Nat.le_refl k)
    refine ⟨h.nodup, ?_, ?_, ?_⟩
    · intro j hj hkj
      obtain ⟨i, hi, t⟩ := h.above j hj (by omega)
      exact ⟨i, by omega, t⟩
    · intro p i j l hi hx hy hz
      rcases Nat.lt_or_ge i k with h' | h'
      · exact h.triples p i j l h' hx hy hz
      · obtain rfl : i = k := by omega
        exact absurd ht (notX i p hx i0)
    · intro p i j hi hr hz
      rcases Nat.lt_or_ge i k with h' | h'
      · exact h.doubles p i j h' hr hz
      · obtain rfl : i = k := by omega
        exact absurd ht (notR i p hr i0)
  · have hku : k ∉ s.used := fun hc => hacc ((h.inv1.acc k).2 hc)
    rcases catStep_cases hk' (ho.nonempty _ (List.getElem_mem hk)) hacc with
      ⟨p, iy, iz, hn, hy, hz, e⟩ | ⟨p, iz, hn, hz, e⟩ | ⟨hx, hr, e⟩
    · rw [e] at hs'; cases hs'
      rw [hn] at hk'
      obtain ⟨hky, hkz⟩ := ho.xyz p k iy iz hk' hy hz
      have hyu : iy ∉ s.used := by
        intro hc
        obtain ⟨i, hi, ⟨q, h1, h2, h3, h4 | h4⟩ | ⟨q, h1, h4⟩⟩ := h.above iy hc (by omega)
        · rw [hy] at h4
          have : p = q := List.append_cancel_right (Option.some.inj h4)
          subst this
          have := inj h1 hk'; omega
        · rw [hy] at h4; exact last_ne (by decide) (Option.some.inj h4)
        · rw [hy] at h4; have := (two_eq (Option.some.inj h4)).2; exact absurd this (by decide)
      have hzu : iz ∉ s.used := by
        intro hc
        obtain ⟨i, hi, ⟨q, h1, h2, h3, h4 | h4⟩ | ⟨q, h1, h4⟩⟩ := h.above iz hc (by omega)
        · rw [hz] at h4; exact last_ne (by decide) (Option.some.inj h4)
        · rw [hz] at h4
          have : p = q := List.append_cancel_right (Option.some.inj h4)
          subst this
          have := inj h1 hk'; omega
        · rw [hz] at h4
          obtain ⟨rfl, -⟩ := two_eq (Option.some.inj h4)
          refine ho.sep q (List.mem_of_getElem? h1) ?_ ?_ ?_
          · have := List.mem_of_getElem? hk'; simpa using this
          · have := List.mem_of_getElem? hy; simpa using this
          · have := List.mem_of_getElem? hz; simpa using this
      have hyz : iy ≠ iz := by
        rintro rfl
        rw [hy] at hz; exact last_ne (by decide) (Option.some.inj hz)
      refine ⟨nodup_used_triple h.nodup hku hyu hzu (by omega) (by omega) hyz, ?_, ?_, ?_⟩
      · intro j hj hkj
        rcases mem_used_triple.1 hj with hj | hj | hj | hj
        · obtain ⟨i, hi, t⟩ := h.above j hj (by omega)
          exact ⟨i, by omega, t⟩
        · dsimp only at hj; omega
        · dsimp only at hj; subst hj
          exact ⟨k, by omega, Or.inl ⟨p, hk', List.mem_of_getElem? hy, List.mem_of_getElem? hz, Or.inl hy⟩⟩
        · dsimp only at hj; subst hj
          exact ⟨k, by omega, Or.inl ⟨p, hk', List.mem_of_getElem? hy, List.mem_of_getElem? hz, Or.inr hz⟩⟩
      · intro p' i j l hi hx' hy' hz'
        rcases Nat.lt_or_ge i k with h' | h'
        · exact List.mem_append.2 (Or.inl (h.triples p' i j l h' hx' hy' hz'))
        · obtain rfl : i = k := by omega
          rw [hk'] at hx'
          have : p = p' := List.append_cancel_right (Option.some.inj hx')
          subst this
          rw [inj hy' hy, inj hz' hz]
          exact List.mem_append.2 (Or.inr (List.mem_singleton.2 rfl))
      · intro p' i j hi hr' hz'
        rcases Nat.lt_or_ge i k with h' | h'
        · exact h.doubles p' i j h' hr' hz'
        · obtain rfl : i = k := by omega
          rw [hk'] at hr'
          have := (two_eq (Option.some.inj hr')).2; exact absurd this (by decide)
    · rw [e] at hs'; cases hs'
      rw [hn] at hk'
      have hkz := ho.rz p k iz hk' hz
      have hzu : iz ∉ s.used := by
        intro hc
        obtain ⟨i, hi, ⟨q, h1, h2, h3, h4 | h4⟩ | ⟨q, h1, h4⟩⟩ := h.above iz hc (by omega)
        · rw [hz] at h4; have := (two_eq (Option.some.inj h4).symm).2; exact absurd this (by decide)
        · rw [hz] at h4
          obtain ⟨rfl, -⟩ := two_eq (Option.some.inj h4).symm
          refine ho.sep p (List.mem_of_getElem? hk') ?_ ?_ ?_
          · have := List.mem_of_getElem? h1; simpa using this
          · simpa using h2
          · simpa using h3
        · rw [hz] at h4
          have : p = q := List.append_cancel_right (Option.some.inj h4)
          subst this
          have := inj h1 hk'; omega
      refine ⟨nodup_used_double h.nodup hku hzu (by omega), ?_, ?_, ?_⟩
      · intro j hj hkj
        rcases mem_used_double.1 hj with hj | hj | hj
        · obtain ⟨i, hi, t⟩ := h.above j hj (by omega)
          exact ⟨i, by omega, t⟩
        · dsimp only at hj; omega
        · dsimp only at hj; subst hj
          exact ⟨k, by omega, Or.inr ⟨p, hk', hz⟩⟩
      · intro p' i j l hi hx' hy' hz'
        rcases Nat.lt_or_ge i k with h' | h'
        · exact h.triples p' i j l h' hx' hy' hz'
        · obtain rfl : i = k := by omega
          rw [hk'] at hx'
          have := (two_eq (Option.some.inj hx').symm).2; exact absurd this (by decide)
      · intro p' i j hi hr' hz'
        rcases Nat.lt_or_ge i k with h' | h'
        · exact List.mem_append.2 (Or.inl (h.doubles p' i j h' hr' hz'))
        · obtain rfl : i = k := by omega
          rw [hk'] at hr'
          have : p = p' := List.append_cancel_right (Option.some.inj hr')
          subst this
          rw [inj hz' hz]
          exact List.mem_append.2 (Or.inr (List.mem_singleton.2 rfl))
    · rw [e] at hs'; cases hs'
      refine ⟨nodup_used_single h.nodup hku, ?_, ?_, ?_⟩
      · intro j hj hkj
        rcases mem_used_single.1 hj with hj | hj
        · obtain ⟨i, hi, t⟩ := h.above j hj (by omega)
          exact ⟨i, by omega, t⟩
        · dsimp only at hj; omega
      · intro p' i j l hi hx' hy' hz'
        rcases Nat.lt_or_ge i k with h' | h'
        · exact h.triples p' i j l h' hx' hy' hz'
        · obtain rfl : i = k := by omega
          obtain ⟨h1, h2⟩ := ho.xyz p' i j l hx' hy' hz'
          rw [hk'] at hx'
          have ty := truthy_some.2 ⟨pyIndex_of_nodup ho.nodup hy', by omega⟩
          have tz := truthy_some.2 ⟨pyIndex_of_nodup ho.nodup hz', by omega⟩
          rcases hx p' (Option.some.inj hx') with hh | hh
          · rw [ty] at hh; cases hh
          · rw [tz] at hh; cases hh
      · intro p' i j hi hr' hz'
        rcases Nat.lt_or_ge i k with h' | h'
        · exact h.doubles p' i j h' hr' hz'
        · obtain rfl : i = k := by omega
          have h1 := ho.rz p' i j hr' hz'
          rw [hk'] at hr'
          have tz := truthy_some.2 ⟨pyIndex_of_nodup ho.nodup hz', by omega⟩
          have hh := hr p' (Option.some.inj hr')
          rw [tz] at hh; cases hh

theorem inv2_init (names : List (List Char)) : Inv2 names 0 (catInit names.length) := by
  refine ⟨inv1_init names, by simp [catInit, Cat.used], by simp [catInit, Cat.used], ?_, ?_⟩
  · intro p i j l hi; omega
  · intro p i j hi; omega

/-- Names of which none asks for a combination: all of them are single. -/
theorem categorize_single {names : List (List Char)} (hne : ∀ x ∈ names, x ≠ [])
    (hx : ∀ p, p ++ ['X'] ∈ names → p ++ ['Y'] ∉ names ∨ p ++ ['Z'] ∉ names)
    (hr : ∀ p, p ++ ['_', 'R'] ∈ names → p ++ ['_', 'Z'] ∉ names) :
    ∃ a, categorize names = .ok { single := names.zipIdx, double := [], triple := [], acc := a } := by
  have key := categorize_of_inv (names := names)
    (fun k s => Inv1 names k s ∧ s.single = (names.take k).zipIdx ∧ s.double = [] ∧ s.triple = [])
    ⟨inv1_init names, by simp [catInit], rfl, rfl⟩ ?_ (fun s h => h.1)
  · obtain ⟨s, hs, -, h1, h2, h3⟩ := key
    refine ⟨s.acc, ?_⟩
    rw [hs]
    cases s
    simp only [List.take_length] at h1
    subst h1 h2 h3; rfl
  · rintro k s hk ⟨hi, h1, h2, h3⟩
    obtain ⟨s', hs', hi'⟩ := inv1_step hne hi hk
    refine ⟨s', hs', hi', ?_⟩
    have hu : ∀ j, j ∈ s.used ↔ j < k := by
      intro j
      constructor
      · intro hj
        simp only [Cat.used, h1, h2, h3, List.flatMap_nil, List.append_nil] at hj
        obtain ⟨e, he, rfl⟩ := List.mem_map.1 hj
        have := List.mem_zipIdx he
        have h5 := this.2.1
        simp only [List.length_take] at h5
        omega
      · exact hi.below j
    have hacc : s.acc[k]? ≠ some true := by
      intro hc
      have := (hu k).1 ((hi.acc k).1 hc); omega
    have hk' : names[k]? = some names[k] := List.getElem?_eq_getElem hk
    rcases catStep_cases hk' (hne _ (List.getElem_mem hk)) hacc with
      ⟨p, iy, iz, hn, hy, hz, e⟩ | ⟨p, iz, hn, hz, e⟩ | ⟨-, -, e⟩
    · rcases hx p (hn ▸ List.getElem_mem hk) with h' | h'
      · exact absurd (List.mem_of_getElem? hy) h'
      · exact absurd (List.mem_of_getElem? hz) h'
    · exact absurd (List.mem_of_getElem? hz) (hr p (hn ▸ List.getElem_mem hk))
    · rw [e] at hs'; cases hs'
      refine ⟨?_, h2, h3⟩
      dsimp only
      rw [h1, List.take_succ_eq_append_getElem hk, List.zipIdx_append]
      simp [Nat.min_eq_left (Nat.le_of_lt hk)]

end Exodus
end Meshio
