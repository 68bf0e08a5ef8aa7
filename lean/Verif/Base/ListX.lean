/-
Small list lemmas that are not in core.
-/
namespace Meshio

theorem filterMap_congr' {α β : Type} {f g : α → Option β} {l : List α}
    (h : ∀ a ∈ l, f a = g a) : l.filterMap f = l.filterMap g := by
  induction l with
  | nil => rfl
  | cons a l ih =>
    simp only [List.filterMap_cons, h a (by simp), ih (fun b hb => h b (by simp [hb]))]

theorem flatMap_congr' {α β : Type} {f g : α → List β} {l : List α}
    (h : ∀ a ∈ l, f a = g a) : l.flatMap f = l.flatMap g := by
  induction l with
  | nil => rfl
  | cons a l ih =>
    simp only [List.flatMap_cons, h a (by simp), ih (fun b hb => h b (by simp [hb]))]

theorem filterMap_flatten {α β : Type} (f : α → Option β) (rs : List (List α)) :
    rs.flatten.filterMap f = rs.flatMap (fun r => r.filterMap f) := by
  induction rs with
  | nil => rfl
  | cons r rs ih => simp [List.filterMap_append, ih]

theorem flatMap_filterMap_toList {α β γ : Type} (f : α → Option β) (g : β → List γ)
    (l : List α) : (l.filterMap f).flatMap g = l.flatMap (fun a => (f a).toList.flatMap g) := by
  induction l with
  | nil => rfl
  | cons a l ih =>
    simp only [List.filterMap_cons, List.flatMap_cons]
    cases f a <;> simp [ih]

theorem idxOf_append_of_not_mem {α : Type} [DecidableEq α] (a : α) (l₁ l₂ : List α) (h : a ∉ l₁) :
    (l₁ ++ l₂).idxOf a = l₁.length + l₂.idxOf a := by
  rw [List.idxOf_append, if_neg h, Nat.add_comm]

theorem le_sum_of_mem {n : Nat} {l : List Nat} (h : n ∈ l) : n ≤ l.sum := by
  induction l with
  | nil => simp at h
  | cons a l ih =>
    rcases List.mem_cons.mp h with rfl | h
    · simp
    · have := ih h; simp only [List.sum_cons]; omega

theorem columns_row {α : Type} (cols : List (List α)) (n : Nat) (h : ∀ c ∈ cols, c.length = n) (i : Nat)
    (hi : i < n) : (cols.filterMap (·[i]?)).length = cols.length ∧
      ∀ k : Nat, (cols.filterMap (·[i]?))[k]? = (cols[k]?).bind (·[i]?) := by
  induction cols with
  | nil => exact ⟨rfl, fun k => by simp⟩
  | cons c cols ih =>
    obtain ⟨h1, h2⟩ := ih (fun c hc => h c (by simp [hc]))
    have hc := h c (by simp)
    have e : c[i]? = some (c[i]'(by omega)) := List.getElem?_eq_getElem (by omega)
    rw [List.filterMap_cons, e]
    refine ⟨by simp [h1], ?_⟩
    intro k
    cases k with
    | zero => simp [e]
    | succ k => simp [h2 k]

theorem column_back {α : Type} (col : List α) :
    (List.range col.length).filterMap (fun i => col[i]?) = col := by
  have : (List.range col.length).map (fun i => col[i]?) = col.map some := by
    apply List.ext_getElem
    · simp
    · intro i h1 h2
      simp at h2
      simp [List.getElem?_eq_getElem h2]
  have h2 : (List.range col.length).filterMap (fun i => col[i]?) =
      ((List.range col.length).map (fun i => col[i]?)).filterMap id := by
    rw [List.filterMap_map]; rfl
  rw [h2, this, List.filterMap_map]
  simp [Function.comp_def]

theorem zipIdx_filterMap_snd {α β : Type} (l : List α) (f : Nat → Option β) :
    l.zipIdx.filterMap (fun p => f p.2) = (List.range l.length).filterMap f := by
  have : l.zipIdx.filterMap (fun p => f p.2) = (l.zipIdx.map (·.2)).filterMap f := by
    rw [List.filterMap_map]; rfl
  rw [this, show l.zipIdx.map (fun x => x.2) = List.range' 0 l.length from List.zipIdx_map_snd ..,
    List.range_eq_range']

end Meshio
