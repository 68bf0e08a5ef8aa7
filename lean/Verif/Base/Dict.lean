/-
Python dictionaries with insertion order.
-/
namespace Meshio

/-- A Python `dict` with string keys: association list in insertion order. -/
abbrev Dict (α : Type) := List (String × α)

namespace Dict
variable {α β : Type}

/-- `list(d.keys())` -/
def keys (d : Dict α) : List String := d.map (·.1)

/-- `list(d.values())` -/
def values (d : Dict α) : List α := d.map (·.2)

/-- `d.get(k)` -/
def get? (d : Dict α) (k : String) : Option α := d.lookup k

/-- `d[k] = v`: overwrite in place, or append a new key at the end. -/
def set (d : Dict α) (k : String) (v : α) : Dict α :=
  match d with
  | [] => [(k, v)]
  | (k', v') :: d' => if k' = k then (k, v) :: d' else (k', v') :: set d' k v

/-- `del d[k]` for an existing key (no effect on other keys). -/
def erase (d : Dict α) (k : String) : Dict α :=
  match d with
  | [] => []
  | (k', v') :: d' => if k' = k then d' else (k', v') :: erase d' k

/-- `k in d` -/
def has (d : Dict α) (k : String) : Bool := (d.get? k).isSome

/-- `d.update(e)` -/
def update (d e : Dict α) : Dict α := e.foldl (fun d kv => d.set kv.1 kv.2) d

/-- Every real dictionary has distinct keys. -/
def Ok (d : Dict α) : Prop := d.keys.Nodup

instance (d : Dict α) : Decidable d.Ok := by unfold Ok; exact inferInstance

@[simp] theorem get?_nil (k : String) : get? ([] : Dict α) k = none := rfl

theorem get?_cons (kv : String × α) (d : Dict α) (k : String) :
    get? (kv :: d) k = if k = kv.1 then some kv.2 else get? d k := by
  obtain ⟨k', v⟩ := kv
  simp only [get?, List.lookup]
  by_cases h : k = k'
  · simp [h]
  · have : (k == k') = false := by simpa using h
    simp [this, h]

theorem get?_set (d : Dict α) (k k' : String) (v : α) :
    (d.set k v).get? k' = if k' = k then some v else d.get? k' := by
  induction d with
  | nil => simp [set, get?_cons]
  | cons kv d ih =>
    obtain ⟨a, b⟩ := kv
    simp only [set]
    by_cases h : a = k
    · subst h
      simp only [if_true, get?_cons]
      by_cases h' : k' = a <;> simp [h']
    · simp only [if_neg h, get?_cons, ih]
      by_cases h' : k' = a
      · subst h'; simp [h]
      · simp [h']

theorem get?_eq_none_iff (d : Dict α) (k : String) : d.get? k = none ↔ k ∉ d.keys := by
  induction d with
  | nil => simp [keys]
  | cons kv d ih =>
    rw [get?_cons]
    by_cases h : k = kv.1
    · simp [h, keys]
    · simp only [if_neg h, ih]; simp [keys, h]

theorem mem_keys_iff (d : Dict α) (k : String) : k ∈ d.keys ↔ ∃ v, d.get? k = some v := by
  have := get?_eq_none_iff d k
  cases hg : d.get? k with
  | none => simp [this.mp hg]
  | some v =>
    simp only [Option.some.injEq, exists_eq', iff_true]
    apply Classical.byContradiction
    intro hn
    rw [this.mpr hn] at hg; cases hg

theorem mem_of_get? {d : Dict α} {k : String} {v : α} (h : d.get? k = some v) : (k, v) ∈ d := by
  induction d with
  | nil => simp at h
  | cons kv d ih =>
    rw [get?_cons] at h
    by_cases hk : k = kv.1
    · simp only [hk, if_true, Option.some.injEq] at h; subst hk; subst h; simp
    · rw [if_neg hk] at h; exact List.mem_cons_of_mem _ (ih h)

theorem get?_of_mem {d : Dict α} (hd : d.Ok) {k : String} {v : α} (h : (k, v) ∈ d) :
    d.get? k = some v := by
  induction d with
  | nil => simp at h
  | cons kv d ih =>
    simp only [Ok, keys, List.map_cons, List.nodup_cons] at hd
    rw [get?_cons]
    rcases List.mem_cons.mp h with h | h
    · subst h; simp
    · have : k ≠ kv.1 := fun he => hd.1 (by rw [← he]; exact List.mem_map.mpr ⟨_, h, rfl⟩)
      rw [if_neg this]; exact ih hd.2 h

theorem keys_set (d : Dict α) (k : String) (v : α) :
    (d.set k v).keys = if k ∈ d.keys then d.keys else d.keys ++ [k] := by
  induction d with
  | nil => simp [set, keys]
  | cons kv d ih =>
    obtain ⟨a, b⟩ := kv
    simp only [set]
    by_cases h : a = k
    · subst h; simp [keys]
    · rw [if_neg h]
      have hk : k ≠ a := fun e => h e.symm
      simp only [keys, List.map_cons, List.mem_cons, hk, false_or] at ih ⊢
      rw [ih]
      split <;> simp_all

theorem mem_keys_set (d : Dict α) (k k' : String) (v : α) :
    k' ∈ (d.set k v).keys ↔ k' = k ∨ k' ∈ d.keys := by
  rw [keys_set]; split
  · constructor
    · exact Or.inr
    · rintro (h | h)
      · subst h; assumption
      · exact h
  · simp [or_comm]

theorem Ok.set {d : Dict α} (h : d.Ok) (k : String) (v : α) : (d.set k v).Ok := by
  unfold Ok at *
  rw [keys_set]
  split
  · exact h
  · next hk =>
    rw [List.nodup_append]
    refine ⟨h, by simp, ?_⟩
    intro a ha b hb he
    simp only [List.mem_singleton] at hb
    subst hb; subst he; exact hk ha

theorem mem_set {d : Dict α} {k : String} {v : α} {kv : String × α} (h : kv ∈ d.set k v) :
    kv = (k, v) ∨ kv ∈ d := by
  induction d with
  | nil => simp [Dict.set] at h; exact .inl h
  | cons x d ih =>
    obtain ⟨a, b⟩ := x
    simp only [Dict.set] at h
    by_cases hk : a = k
    · rw [if_pos hk] at h
      rcases List.mem_cons.mp h with h | h
      · exact .inl h
      · exact .inr (List.mem_cons_of_mem _ h)
    · rw [if_neg hk] at h
      rcases List.mem_cons.mp h with h | h
      · exact .inr (by rw [h]; simp)
      · rcases ih h with h | h
        · exact .inl h
        · exact .inr (List.mem_cons_of_mem _ h)

theorem mem_erase {d : Dict α} {k : String} {kv : String × α} (h : kv ∈ d.erase k) : kv ∈ d := by
  induction d with
  | nil => simp [Dict.erase] at h
  | cons x d ih =>
    obtain ⟨a, b⟩ := x
    simp only [Dict.erase] at h
    by_cases hk : a = k
    · rw [if_pos hk] at h; exact List.mem_cons_of_mem _ h
    · rw [if_neg hk] at h
      rcases List.mem_cons.mp h with h | h
      · rw [h]; simp
      · exact List.mem_cons_of_mem _ (ih h)

theorem keys_erase_sublist (d : Dict α) (k : String) : (d.erase k).keys.Sublist d.keys := by
  induction d with
  | nil => simp [erase]
  | cons x d ih =>
    obtain ⟨a, b⟩ := x
    simp only [erase]
    by_cases h : a = k
    · simp [h, keys]
    · simp only [if_neg h, keys, List.map_cons]; exact ih.cons_cons a

theorem Ok.erase {d : Dict α} (h : d.Ok) (k : String) : (d.erase k).Ok :=
  (keys_erase_sublist d k).nodup h

theorem get?_erase {d : Dict α} (hd : d.Ok) (k k' : String) :
    (d.erase k).get? k' = if k' = k then none else d.get? k' := by
  induction d with
  | nil => simp [Dict.erase]
  | cons x d ih =>
    obtain ⟨a, b⟩ := x
    have hd' : Dict.Ok d := by
      simp only [Ok, keys, List.map_cons, List.nodup_cons] at hd; exact hd.2
    have ha : a ∉ Dict.keys d := by
      simp only [Ok, keys, List.map_cons, List.nodup_cons] at hd; exact hd.1
    simp only [Dict.erase]
    by_cases h : a = k
    · subst h
      simp only [if_true, get?_cons]
      by_cases h' : k' = a
      · subst h'; simp only [if_true]; exact (get?_eq_none_iff d k').mpr ha
      · simp [h']
    · simp only [if_neg h, get?_cons, ih hd']
      by_cases h' : k' = a
      · subst h'; simp [h]
      · simp [h']

end Dict
end Meshio
