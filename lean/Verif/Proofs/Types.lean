/-
Lemmas on association tables, inverse tables and node reordering.
-/
import Verif.Model.Types
import Verif.Spec.Types
namespace Meshio.Types
open Meshio

section Tables
variable {κ ν : Type} [DecidableEq κ] [DecidableEq ν]

omit [DecidableEq ν] in
theorem find_mem {d : List (κ × ν)} {k : κ} {v : ν} (h : find d k = some v) : (k, v) ∈ d := by
  induction d with
  | nil => simp [find] at h
  | cons kv d ih =>
    obtain ⟨a, b⟩ := kv
    simp only [find] at h
    split at h
    · next hk => cases h; subst hk; simp
    · exact List.mem_cons_of_mem _ (ih h)

omit [DecidableEq ν] in
theorem find_of_mem {d : List (κ × ν)} (hd : (d.map (·.1)).Nodup) {k : κ} {v : ν}
    (h : (k, v) ∈ d) : find d k = some v := by
  induction d with
  | nil => simp at h
  | cons kv d ih =>
    obtain ⟨a, b⟩ := kv
    simp only [List.map_cons, List.nodup_cons] at hd
    simp only [find]
    rcases List.mem_cons.mp h with h | h
    · cases h; simp
    · have : a ≠ k := by
        intro e; subst e; exact hd.1 (List.mem_map.mpr ⟨_, h, rfl⟩)
      rw [if_neg this]; exact ih hd.2 h

omit [DecidableEq ν] in
theorem mem_assocSet {d : List (κ × ν)} {k : κ} {v : ν} {kv : κ × ν}
    (h : kv ∈ assocSet d k v) : kv = (k, v) ∨ kv ∈ d := by
  induction d with
  | nil => simp [assocSet] at h; exact .inl h
  | cons x d ih =>
    obtain ⟨a, b⟩ := x
    simp only [assocSet] at h
    split at h
    · rcases List.mem_cons.mp h with h | h
      · exact .inl h
      · exact .inr (List.mem_cons_of_mem _ h)
    · rcases List.mem_cons.mp h with h | h
      · exact .inr (by rw [h]; simp)
      · rcases ih h with h | h
        · exact .inl h
        · exact .inr (List.mem_cons_of_mem _ h)

omit [DecidableEq ν] in
theorem find_assocSet (d : List (κ × ν)) (k k' : κ) (v : ν) :
    find (assocSet d k v) k' = if k = k' then some v else find d k' := by
  induction d with
  | nil => simp [assocSet, find]
  | cons x d ih =>
    obtain ⟨a, b⟩ := x
    simp only [assocSet]
    split
    · next h => subst h; simp only [find]; split <;> rfl
    · next h =>
      simp only [find, ih]
      by_cases h1 : a = k'
      · subst h1; simp [Ne.symm h]
      · simp [h1]

omit [DecidableEq κ] in
theorem mem_invDict_aux (d : List (κ × ν)) (acc : List (ν × κ)) {v : ν} {k : κ}
    (h : (v, k) ∈ d.foldl (fun acc kv => assocSet acc kv.2 kv.1) acc) :
    (k, v) ∈ d ∨ (v, k) ∈ acc := by
  induction d generalizing acc with
  | nil => exact .inr h
  | cons x d ih =>
    rcases ih _ h with h | h
    · exact .inl (List.mem_cons_of_mem _ h)
    · rcases mem_assocSet h with h | h
      · left; obtain ⟨a, b⟩ := x; cases h; simp
      · exact .inr h

omit [DecidableEq κ] in
theorem mem_invDict {d : List (κ × ν)} {v : ν} {k : κ} (h : (v, k) ∈ invDict d) : (k, v) ∈ d := by
  rcases mem_invDict_aux d [] h with h | h
  · exact h
  · simp at h

omit [DecidableEq κ] in
theorem find_foldl_isSome (d : List (κ × ν)) (acc : List (ν × κ)) (v : ν)
    (h : (∃ k, (k, v) ∈ d) ∨ (find acc v).isSome) :
    (find (d.foldl (fun acc kv => assocSet acc kv.2 kv.1) acc) v).isSome := by
  induction d generalizing acc with
  | nil => rcases h with ⟨k, h⟩ | h
           · simp at h
           · exact h
  | cons x d ih =>
    apply ih
    rw [find_assocSet]
    rcases h with ⟨k, h⟩ | h
    · rcases List.mem_cons.mp h with h | h
      · right; subst h; simp
      · exact .inl ⟨k, h⟩
    · right; split
      · rfl
      · exact h

/-- A table with distinct keys is a left inverse of its inverted table. -/
theorem find_of_find_invDict {d : List (κ × ν)} (hd : (d.map (·.1)).Nodup) {v : ν} {k : κ}
    (h : find (invDict d) v = some k) : find d k = some v :=
  find_of_mem hd (mem_invDict (find_mem h))

omit [DecidableEq κ] in
/-- Every value of a table has an entry in the inverted table. -/
theorem find_invDict_isSome {d : List (κ × ν)} {v : ν} (h : v ∈ d.map (·.2)) :
    (find (invDict d) v).isSome := by
  obtain ⟨kv, hm, rfl⟩ := List.mem_map.mp h
  exact find_foldl_isSome d [] kv.2 (.inl ⟨kv.1, hm⟩)

end Tables

/-- Applying `p` and then `q` restores positions `0..n-1`. -/
def Undoes (p q : List Nat) (n : Nat) : Bool :=
  p.length == n && q.length == n && p.all (· < n) && q.all (· < n) &&
    (List.range n).all (fun i => ((q[i]?).bind (fun j => p[j]?)) == some i)

variable {α : Type}

theorem pick_ok {r : List α} {idx : List Nat} (h : ∀ i ∈ idx, i < r.length) :
    ∃ s, pick r idx = .ok s ∧ s.length = idx.length ∧
      ∀ k : Nat, s[k]? = (idx[k]?).bind (fun i => r[i]?) := by
  induction idx with
  | nil => exact ⟨[], rfl, rfl, by simp⟩
  | cons i idx ih =>
    obtain ⟨s, hs, hl, hg⟩ := ih (fun j hj => h j (by simp [hj]))
    have hi : i < r.length := h i (by simp)
    refine ⟨r[i] :: s, ?_, by simp [hl], ?_⟩
    · unfold pick at hs ⊢
      simp only [mapRes, List.getElem?_eq_getElem hi, hs]
    · intro k
      cases k with
      | zero => simp [List.getElem?_eq_getElem hi]
      | succ k => simpa using hg k

theorem pick_cons (r : List α) (i : Nat) (p : List Nat) :
    pick r (i :: p) = match r[i]? with
      | none => .error .indexError
      | some a =>
        match pick r p with
        | .error e => .error e
        | .ok t => .ok (a :: t) := by
  unfold pick
  simp only [mapRes]
  cases r[i]? <;> rfl

theorem pick_cons_ok {r : List α} {i : Nat} {p : List Nat} {s : List α} (h : pick r (i :: p) = .ok s) :
    ∃ a t, r[i]? = some a ∧ pick r p = .ok t ∧ s = a :: t := by
  rw [pick_cons] at h
  cases hi : r[i]? with
  | none => rw [hi] at h; exact absurd h (by simp)
  | some a =>
    rw [hi] at h
    simp only at h
    cases hm : pick r p with
    | error e => rw [hm] at h; exact absurd h (by simp)
    | ok t =>
      rw [hm] at h
      exact ⟨a, t, rfl, rfl, by cases h; rfl⟩

theorem pick_map {β : Type} (f : α → β) {r : List α} {p : List Nat} {s : List α} (h : pick r p = .ok s) :
    pick (r.map f) p = .ok (s.map f) := by
  induction p generalizing s with
  | nil => cases h; rfl
  | cons i p ih =>
    obtain ⟨a, t, hi, hp, rfl⟩ := pick_cons_ok h
    rw [pick_cons, List.getElem?_map, hi, ih hp]
    rfl

theorem mem_pick {r : List α} {p : List Nat} {s : List α} (h : pick r p = .ok s) : ∀ x ∈ s, x ∈ r := by
  induction p generalizing s with
  | nil => cases h; simp
  | cons i p ih =>
    obtain ⟨a, t, hi, hp, rfl⟩ := pick_cons_ok h
    intro x hx
    rcases List.mem_cons.mp hx with rfl | hx
    · exact List.mem_of_getElem? hi
    · exact ih hp x hx

/-- Reordering by `p` and then by `q` is the identity on rows of length `n` with
arbitrary entries. -/
theorem pick_pick_of_undoes {p q : List Nat} {n : Nat} (h : Undoes p q n = true)
    (r : List α) (hr : r.length = n) :
    ∃ s, pick r p = .ok s ∧ s.length = n ∧ pick s q = .ok r := by
  simp only [Undoes, Bool.and_eq_true, beq_iff_eq, List.all_eq_true, decide_eq_true_eq,
    List.mem_range] at h
  obtain ⟨⟨⟨⟨hp, hq⟩, hpa⟩, hqa⟩, hpq⟩ := h
  obtain ⟨s, hs, hsl, hsg⟩ := pick_ok (r := r) (idx := p) (fun i hi => by rw [hr]; exact hpa i hi)
  obtain ⟨t, ht, htl, htg⟩ := pick_ok (r := s) (idx := q)
    (fun i hi => by rw [hsl, hp]; exact hqa i hi)
  refine ⟨s, hs, by rw [hsl, hp], ?_⟩
  rw [ht]
  congr 1
  apply List.ext_getElem?
  intro k
  by_cases hk : k < n
  · have := hpq k hk
    rw [htg k]
    cases hqk : q[k]? with
    | none => rw [hqk] at this; simp at this
    | some j =>
      rw [hqk] at this
      simp only [Option.bind_some] at this ⊢
      rw [hsg j, this]; rfl
  · rw [List.getElem?_eq_none (by rw [htl, hq]; omega), List.getElem?_eq_none (by rw [hr]; omega)]

end Meshio.Types
