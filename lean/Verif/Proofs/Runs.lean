/-
Lemmas on maximal runs, and the idiom "append to the last block or open a new one".
-/
import Verif.Base.Runs
import Verif.Spec.Runs
namespace Meshio
open Meshio.Spec

/-! ### Runs -/

section Runs
variable {α κ : Type} [DecidableEq κ]

theorem runsBy_ne_nil (k : α → κ) (l : List α) : ∀ r ∈ runsBy k l, r ≠ [] := by
  induction l with
  | nil => simp [runsBy]
  | cons a l ih =>
    intro r hr
    simp only [runsBy] at hr
    split at hr
    · next b r' rest h =>
      rw [h] at ih
      split at hr
      · rcases List.mem_cons.mp hr with hr | hr
        · rw [hr]; simp
        · exact ih r (List.mem_cons_of_mem _ hr)
      · rcases List.mem_cons.mp hr with hr | hr
        · rw [hr]; simp
        · exact ih r hr
    · rcases List.mem_cons.mp hr with hr | hr
      · rw [hr]; simp
      · exact ih r hr

theorem flatten_runsBy (k : α → κ) (l : List α) : (runsBy k l).flatten = l := by
  induction l with
  | nil => rfl
  | cons a l ih =>
    simp only [runsBy]
    split
    · next b r rest h =>
      rw [h] at ih
      split <;> simp_all
    · simp_all

theorem runsBy_eq_splitLens (k : α → κ) (l : List α) :
    runsBy k l = splitLens (runLens (l.map k)) l := by
  induction l with
  | nil => rfl
  | cons a l ih =>
    cases l with
    | nil => simp [runsBy, runLens, splitLens]
    | cons b l =>
      simp only [List.map_cons] at ih ⊢
      cases hr : runLens (k b :: l.map k) with
      | nil => exact absurd hr (runLens_ne_nil _ _)
      | cons n ns =>
        have hn : 0 < n := runLens_pos (l := k b :: l.map k) (by rw [hr]; simp)
        obtain ⟨m, rfl⟩ : ∃ m, n = m + 1 := ⟨n - 1, by omega⟩
        rw [hr] at ih
        simp only [splitLens, List.take_succ_cons, List.drop_succ_cons] at ih
        have e : runsBy k (a :: b :: l) =
            match runsBy k (b :: l) with
            | (b :: r) :: rest =>
              if k a = k b then (a :: b :: r) :: rest else [a] :: (b :: r) :: rest
            | other => [a] :: other := rfl
        rw [e, ih]
        simp only [runLens, hr]
        by_cases h : k a = k b
        · simp [h, splitLens]
        · simp [h, splitLens]

/-- Entries of a run share the key. -/
theorem runsBy_uniform (k : α → κ) (l : List α) :
    ∀ r ∈ runsBy k l, ∀ a ∈ r, ∀ b ∈ r, k a = k b := by
  induction l with
  | nil => simp [runsBy]
  | cons a l ih =>
    intro r hr
    simp only [runsBy] at hr
    split at hr
    · next b r' rest h =>
      rw [h] at ih
      split at hr
      · next hab =>
        rcases List.mem_cons.mp hr with hr | hr
        · subst hr
          have hu := ih (b :: r') (by simp)
          have h1 : ∀ x ∈ a :: b :: r', k x = k b := by
            intro x hx
            rcases List.mem_cons.mp hx with hx | hx
            · rw [hx, hab]
            · exact hu x hx b (by simp)
          intro x hx y hy; rw [h1 x hx, h1 y hy]
        · exact ih r (List.mem_cons_of_mem _ hr)
      · rcases List.mem_cons.mp hr with hr | hr
        · subst hr; simp
        · exact ih r hr
    · rcases List.mem_cons.mp hr with hr | hr
      · subst hr; simp
      · exact ih r hr

/-- Two neighbouring runs differ in the key. -/
theorem runsBy_cons_of_head (k : α → κ) (a b : α) (l : List α) (h : k a = k b) :
    ∃ r rest, runsBy k (b :: l) = (b :: r) :: rest ∧
      runsBy k (a :: b :: l) = (a :: b :: r) :: rest := by
  have e : runsBy k (a :: b :: l) =
      match runsBy k (b :: l) with
      | (b :: r) :: rest => if k a = k b then (a :: b :: r) :: rest else [a] :: (b :: r) :: rest
      | other => [a] :: other := rfl
  have hf := flatten_runsBy k (b :: l)
  cases hr : runsBy k (b :: l) with
  | nil => rw [hr] at hf; simp at hf
  | cons x rest =>
    cases x with
    | nil => exact absurd rfl (runsBy_ne_nil k _ [] (by rw [hr]; simp))
    | cons c r =>
      rw [hr] at hf
      have : c = b := by simp at hf; exact hf.1
      subst this
      refine ⟨r, rest, rfl, ?_⟩
      rw [e, hr]; simp [h]

theorem runsBy_cons_of_head_ne (k : α → κ) (a b : α) (l : List α) (h : k a ≠ k b) :
    runsBy k (a :: b :: l) = [a] :: runsBy k (b :: l) := by
  have e : runsBy k (a :: b :: l) =
      match runsBy k (b :: l) with
      | (b :: r) :: rest => if k a = k b then (a :: b :: r) :: rest else [a] :: (b :: r) :: rest
      | other => [a] :: other := rfl
  have hf := flatten_runsBy k (b :: l)
  cases hr : runsBy k (b :: l) with
  | nil => rw [hr] at hf; simp at hf
  | cons x rest =>
    cases x with
    | nil => exact absurd rfl (runsBy_ne_nil k _ [] (by rw [hr]; simp))
    | cons c r =>
      rw [hr] at hf
      have : c = b := by simp at hf; exact hf.1
      subst this
      rw [e, hr]; simp [h]

/-- Runs of a finer key refine the runs of a coarser one. -/
theorem runsBy_refine {μ : Type} [DecidableEq μ] (k : α → κ) (f : α → μ)
    (hkf : ∀ a b, k a = k b → f a = f b) (l : List α) :
    runsBy k l = (runsBy f l).flatMap (runsBy k) := by
  induction l with
  | nil => rfl
  | cons a l ih =>
    cases l with
    | nil => simp [runsBy]
    | cons b l =>
      by_cases hf : f a = f b
      · obtain ⟨r, rest, h1, h2⟩ := runsBy_cons_of_head f a b l hf
        rw [h1] at ih
        rw [h2]
        simp only [List.flatMap_cons] at ih ⊢
        by_cases hk : k a = k b
        · obtain ⟨s, rest', h3, h4⟩ := runsBy_cons_of_head k a b l hk
          obtain ⟨s', rest'', h5, h6⟩ := runsBy_cons_of_head k a b r hk
          rw [h4, h6]
          rw [h3, h5] at ih
          simp only [List.cons_append, List.cons.injEq, true_and] at ih ⊢
          exact ih
        · rw [runsBy_cons_of_head_ne k a b l hk, runsBy_cons_of_head_ne k a b r hk, ih]
          rfl
      · have hk : k a ≠ k b := fun e => hf (hkf a b e)
        rw [runsBy_cons_of_head_ne k a b l hk, runsBy_cons_of_head_ne f a b l hf, ih]
        simp [runsBy]

theorem map_length_runsBy (k : α → κ) (l : List α) :
    (runsBy k l).map List.length = runLens (l.map k) := by
  rw [runsBy_eq_splitLens]
  have : ∀ (ns : List Nat) (l : List α), ns.sum ≤ l.length →
      (splitLens ns l).map List.length = ns := by
    intro ns
    induction ns with
    | nil => intro l _; rfl
    | cons n ns ih =>
      intro l h
      simp only [List.sum_cons] at h
      simp only [splitLens, List.map_cons, List.length_take]
      rw [ih _ (by simp; omega), Nat.min_eq_left (by omega)]
  apply this
  rw [sum_runLens]; simp

/-- Runs by a key of keyed lists depend only on the keys. -/
theorem runsBy_congr {β : Type} (k : α → κ) (k' : β → κ) (l : List α) (l' : List β)
    (h : l.map k = l'.map k') :
    (runsBy k l).map List.length = (runsBy k' l').map List.length := by
  rw [map_length_runsBy, map_length_runsBy, h]

/-- Neighbouring runs have different keys. -/
theorem runsBy_maximal (k : α → κ) (l : List α) (pre post : List (List α)) (r s : List α)
    (h : runsBy k l = pre ++ r :: s :: post) : ∀ a ∈ r, ∀ b ∈ s, k a ≠ k b := by
  induction l generalizing pre r with
  | nil => simp [runsBy] at h
  | cons a l ih =>
    cases l with
    | nil =>
      have := congrArg List.length h
      simp [runsBy] at this
      omega
    | cons b l =>
      by_cases hk : k a = k b
      · obtain ⟨r', rest, h1, h2⟩ := runsBy_cons_of_head k a b l hk
        rw [h2] at h
        cases pre with
        | nil =>
          simp only [List.nil_append, List.cons.injEq] at h
          obtain ⟨rfl, rfl⟩ := h
          intro x hx y hy
          have hh := ih [] (b :: r') (by rw [h1]; rfl)
          rcases List.mem_cons.mp hx with rfl | hx
          · rw [hk]; exact hh b (by simp) y hy
          · exact hh x hx y hy
        | cons p pre =>
          simp only [List.cons_append, List.cons.injEq] at h
          exact ih ((b :: r') :: pre) r (by rw [h1, h.2]; rfl)
      · rw [runsBy_cons_of_head_ne k a b l hk] at h
        cases pre with
        | nil =>
          simp only [List.nil_append, List.cons.injEq] at h
          obtain ⟨rfl, h⟩ := h
          intro x hx y hy e
          simp only [List.mem_cons, List.not_mem_nil, or_false] at hx
          subst hx
          have hf := flatten_runsBy k (b :: l)
          rw [h] at hf
          have hu := runsBy_uniform k (b :: l) s (by rw [h]; simp)
          cases s with
          | nil => simp at hy
          | cons c s =>
            have : c = b := by simp at hf; exact hf.1
            subst this
            exact hk (by rw [e]; exact hu y hy c (by simp))
        | cons p pre =>
          simp only [List.cons_append, List.cons.injEq] at h
          exact ih pre r h.2

/-- If the coarse key is constant on the list, runs of the pair key are runs of the
fine key. -/
theorem runsBy_congr_key {μ : Type} [DecidableEq μ] (k : α → κ) (k' : α → μ) (l : List α)
    (h : ∀ a ∈ l, ∀ b ∈ l, (k a = k b ↔ k' a = k' b)) : runsBy k l = runsBy k' l := by
  induction l with
  | nil => rfl
  | cons a l ih =>
    have ih := ih (fun x hx y hy => h x (by simp [hx]) y (by simp [hy]))
    cases l with
    | nil => simp [runsBy]
    | cons b l =>
      have hab := h a (by simp) b (by simp)
      by_cases hk : k a = k b
      · obtain ⟨r, rest, h1, h2⟩ := runsBy_cons_of_head k a b l hk
        obtain ⟨r', rest', h3, h4⟩ := runsBy_cons_of_head k' a b l (hab.1 hk)
        rw [h2, h4]
        rw [h1, h3] at ih
        simp only [List.cons.injEq, true_and] at ih ⊢
        exact ih
      · rw [runsBy_cons_of_head_ne k a b l hk,
          runsBy_cons_of_head_ne k' a b l (fun e => hk (hab.2 e)), ih]

theorem runsBy_const (k : α → κ) (a : α) (l : List α) (h : ∀ b ∈ l, k b = k a) :
    runsBy k (a :: l) = [a :: l] := by
  induction l generalizing a with
  | nil => simp [runsBy]
  | cons b l ih =>
    have hb : k b = k a := h b (by simp)
    obtain ⟨r, rest, h1, h2⟩ := runsBy_cons_of_head k a b l hb.symm
    rw [ih b (fun c hc => by rw [h c (by simp [hc]), hb])] at h1
    rw [h2]
    simp only [List.cons.injEq, true_and] at h1
    obtain ⟨h1, h3⟩ := h1
    rw [← h1, ← h3]

end Runs


/-! ### Appending to the last block -/

theorem runsBy_append_of_ne {α κ : Type} [DecidableEq κ] (k : α → κ) (r : List α) (x a : α)
    (l : List α) (hu : ∀ y ∈ r, k y = k x) (h : k x ≠ k a) :
    runsBy k (x :: r ++ a :: l) = (x :: r) :: runsBy k (a :: l) := by
  induction r generalizing x with
  | nil => exact runsBy_cons_of_head_ne k x a l h
  | cons y r ih =>
    have hy : k y = k x := hu y (by simp)
    have := ih y (fun z hz => by rw [hu z (by simp [hz]), hy]) (by rw [hy]; exact h)
    obtain ⟨r', rest, h1, h2⟩ := runsBy_cons_of_head k x y (r ++ a :: l) hy.symm
    have e : runsBy k (x :: y :: r ++ a :: l) = (x :: y :: r') :: rest := h2
    rw [e]
    have h1' : runsBy k (y :: r ++ a :: l) = (y :: r') :: rest := h1
    rw [h1'] at this
    simp only [List.cons.injEq, true_and] at this
    rw [this.1, this.2]

/-- A left fold that appends to the last block when the key matches computes the blocks
of the maximal runs. -/
theorem foldl_pushBy {α β κ : Type} [DecidableEq κ] (k : α → κ) (same : β → α → Bool)
    (app : β → α → β) (new : α → β) (f : List α → β) (hnew : ∀ a, f [a] = new a)
    (hsame : ∀ (r : List α) (x a : α), (∀ y ∈ r, k y = k x) → (same (f (x :: r)) a = true ↔ k x = k a))
    (happ : ∀ (r : List α) (x a : α), (∀ y ∈ r, k y = k x) → k x = k a →
      f (x :: r ++ [a]) = app (f (x :: r)) a)
    (l : List α) : l.foldl (pushBy same app new) [] = (runsBy k l).map f := by
  have key : ∀ (l : List α) (pre : List β) (x : α) (r : List α), (∀ y ∈ r, k y = k x) →
      l.foldl (pushBy same app new) (pre ++ [f (x :: r)]) =
        pre ++ (runsBy k (x :: r ++ l)).map f := by
    intro l
    induction l with
    | nil =>
      intro pre x r hu
      rw [List.append_nil, runsBy_const k x r hu]
      rfl
    | cons a l ih =>
      intro pre x r hu
      rw [List.foldl_cons]
      by_cases h : k x = k a
      · have hs := (hsame r x a hu).2 h
        have : pushBy same app new (pre ++ [f (x :: r)]) a = pre ++ [f (x :: (r ++ [a]))] := by
          unfold pushBy
          simp only [List.getLast?_append, List.getLast?_singleton, Option.some_or, hs, if_true,
            List.dropLast_concat]
          rw [← happ r x a hu h]; rfl
        rw [this, ih pre x (r ++ [a])
          (by intro y hy; rcases List.mem_append.mp hy with hy | hy
              · exact hu y hy
              · simp only [List.mem_cons, List.not_mem_nil, or_false] at hy; rw [hy, h])]
        simp
      · have hs : same (f (x :: r)) a = false := by
          cases hb : same (f (x :: r)) a with
          | false => rfl
          | true => exact absurd ((hsame r x a hu).1 hb) h
        have : pushBy same app new (pre ++ [f (x :: r)]) a = pre ++ [f (x :: r)] ++ [f [a]] := by
          unfold pushBy
          simp only [List.getLast?_append, List.getLast?_singleton, Option.some_or, hs]
          rw [hnew]; rfl
        rw [this, ih (pre ++ [f (x :: r)]) a [] (by simp), runsBy_append_of_ne k r x a l hu h]
        simp
  cases l with
  | nil => rfl
  | cons a l =>
    rw [List.foldl_cons]
    have : pushBy same app new [] a = [] ++ [f [a]] := by simp [pushBy, hnew]
    rw [this, key l [] a [] (by simp)]
    rfl

/-- Runs of mapped entries. -/
theorem runsBy_map {α β κ : Type} [DecidableEq κ] (f : α → β) (k : β → κ) (l : List α) :
    runsBy k (l.map f) = (runsBy (fun a => k (f a)) l).map (List.map f) := by
  induction l with
  | nil => rfl
  | cons a l ih =>
    simp only [List.map_cons, runsBy, ih]
    cases h : runsBy (fun a => k (f a)) l with
    | nil => rfl
    | cons r rest =>
      cases r with
      | nil => rfl
      | cons b r =>
        simp only [List.map_cons]
        split <;> simp

/-- Collecting rows one by one groups them in runs of equal keys. -/
theorem foldl_pushTyped {κ α : Type} [DecidableEq κ] (l : List (κ × α)) :
    l.foldl pushTyped [] = groupRuns l := by
  have h : ∀ r ∈ runsBy (·.1) l, r ≠ [] := runsBy_ne_nil _ _
  cases l with
  | nil => rfl
  | cons a0 l0 =>
    have := foldl_pushBy (α := κ × α) (β := κ × List α) (·.1) (fun b a => b.1 = a.1)
      (fun b a => (b.1, b.2 ++ [a.2])) (fun a => (a.1, [a.2]))
      (fun r => ((r.head?.map (·.1)).getD a0.1, r.map (·.2))) (fun a => rfl)
      (by intro r x a _; exact decide_eq_true_iff) (by intro r x a _ _; simp) (a0 :: l0)
    refine Eq.trans this ?_
    unfold groupRuns
    generalize runsBy (·.1) (a0 :: l0) = rs at h
    induction rs with
    | nil => rfl
    | cons r rs ih =>
      rw [List.map_cons, ih (fun r hr => h r (by simp [hr])), List.filterMap_cons]
      cases r with
      | nil => exact absurd rfl (h [] (by simp))
      | cons x r => rfl

/-- Nothing is lost or reordered by grouping. -/
theorem rowsOf_groupRuns {κ α : Type} [DecidableEq κ] (l : List (κ × α)) : rowsOf (groupRuns l) = l := by
  have hn := runsBy_ne_nil (α := κ × α) (·.1) l
  have hu := runsBy_uniform (α := κ × α) (·.1) l
  have hf := flatten_runsBy (α := κ × α) (·.1) l
  unfold groupRuns rowsOf
  conv => rhs; rw [← hf]
  generalize runsBy (·.1) l = rs at hn hu
  clear hf
  induction rs with
  | nil => rfl
  | cons r rs ih =>
    cases r with
    | nil => exact absurd rfl (hn [] (by simp))
    | cons x r =>
      rw [List.filterMap_cons]
      simp only [List.head?_cons, Option.map_some, List.flatMap_cons, List.flatten_cons]
      rw [ih (fun r hr => hn r (by simp [hr])) (fun r hr => hu r (by simp [hr])), List.map_map]
      congr 1
      conv => rhs; rw [← List.map_id (x :: r)]
      apply List.map_congr_left
      intro y hy
      have := hu (x :: r) (by simp) y hy x (by simp)
      simp [← this]

theorem groupRuns_ne_nil {κ α : Type} [DecidableEq κ] (l : List (κ × α)) : ∀ b ∈ groupRuns l, b.2 ≠ [] := by
  intro b hb
  obtain ⟨r, hr, e⟩ := List.mem_filterMap.mp hb
  cases r with
  | nil => simp at e
  | cons x r =>
    simp only [List.head?_cons, Option.map_some, Option.some.injEq] at e
    subst e
    simp

theorem mem_groupRuns {κ α : Type} [DecidableEq κ] (l : List (κ × α)) (b : κ × List α) (hb : b ∈ groupRuns l)
    (x : α) (hx : x ∈ b.2) : (b.1, x) ∈ l := by
  rw [← rowsOf_groupRuns l]
  exact List.mem_flatMap.mpr ⟨b, hb, List.mem_map.mpr ⟨x, hx, rfl⟩⟩

theorem groupRuns_map {κ α β : Type} [DecidableEq κ] (f : α → β) (l : List (κ × α)) :
    groupRuns (l.map (fun a => (a.1, f a.2))) = (groupRuns l).map (fun b => (b.1, b.2.map f)) := by
  unfold groupRuns
  rw [runsBy_map]
  simp only
  generalize runsBy (fun a : κ × α => a.1) l = rs
  induction rs with
  | nil => rfl
  | cons r rs ih =>
    rw [List.map_cons, List.filterMap_cons, List.filterMap_cons]
    cases r with
    | nil => simpa using ih
    | cons x r => simp [ih]

theorem groupRuns_mapKey {κ α β : Type} [DecidableEq κ] (f : κ → α → β) (l : List (κ × α)) :
    groupRuns (l.map (fun a => (a.1, f a.1 a.2))) = (groupRuns l).map (fun b => (b.1, b.2.map (f b.1))) := by
  have hu := runsBy_uniform (α := κ × α) (·.1) l
  unfold groupRuns
  rw [runsBy_map]
  simp only
  generalize runsBy (fun a : κ × α => a.1) l = rs at hu
  induction rs with
  | nil => rfl
  | cons r rs ih =>
    have ih := ih (fun r hr => hu r (by simp [hr]))
    rw [List.map_cons, List.filterMap_cons, List.filterMap_cons]
    cases r with
    | nil => simpa using ih
    | cons x r =>
      have e : r.map (fun a => f a.1 a.2) = r.map (fun a => f x.1 a.2) := by
        apply List.map_congr_left
        intro y hy
        rw [show y.1 = x.1 from hu (x :: r) (by simp) y (by simp [hy]) x (by simp)]
      simpa [ih, Function.comp_def] using e

/-- Blocks without neighbours of the same key and without empty blocks are their own runs. -/
theorem groupRuns_rowsOf {κ α : Type} [DecidableEq κ] (bs : List (κ × List α)) (hne : ∀ b ∈ bs, b.2 ≠ [])
    (hd : ∀ pre a b post, bs = pre ++ a :: b :: post → a.1 ≠ b.1) : groupRuns (rowsOf bs) = bs := by
  induction bs with
  | nil => rfl
  | cons b bs ih =>
    have ih := ih (fun b hb => hne b (by simp [hb])) (by
      intro pre x y post e
      exact hd (b :: pre) x y post (by rw [e]; rfl))
    obtain ⟨k, rows⟩ := b
    cases rows with
    | nil => exact absurd rfl (hne (k, []) (by simp))
    | cons x rows =>
      have hk : ∀ y ∈ rows.map (fun r => (k, r)), y.1 = (k, x).1 := by
        intro y hy
        obtain ⟨r, _, rfl⟩ := List.mem_map.mp hy
        rfl
      have hrun : runsBy (·.1) (rowsOf ((k, x :: rows) :: bs)) =
          ((x :: rows).map (fun r => (k, r))) :: runsBy (·.1) (rowsOf bs) := by
        cases bs with
        | nil =>
          have := runsBy_const (α := κ × α) (·.1) (k, x) (rows.map (fun r => (k, r))) hk
          simpa [rowsOf, runsBy] using this
        | cons c cs =>
          obtain ⟨k', rows'⟩ := c
          cases rows' with
          | nil => exact absurd rfl (hne (k', []) (by simp))
          | cons x' rows' =>
            have hkk : k ≠ k' := hd [] (k, x :: rows) (k', x' :: rows') cs rfl
            have := runsBy_append_of_ne (α := κ × α) (·.1) (rows.map (fun r => (k, r))) (k, x) (k', x')
              (rows'.map (fun r => (k', r)) ++ rowsOf cs) hk hkk
            simpa [rowsOf] using this
      unfold groupRuns at ih ⊢
      rw [hrun, List.filterMap_cons, ih]
      simp [Function.comp_def]

end Meshio
