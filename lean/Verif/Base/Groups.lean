/-
Entries collected in a dictionary of lists.
-/
import Verif.Base.Sort
import Verif.Base.Dict
namespace Meshio

variable {α : Type}

theorem distinct_snoc [DecidableEq α] (l : List α) (a : α) : distinct (l ++ [a]) = if a ∈ l then distinct l else distinct l ++ [a] := by
  induction l with
  | nil => simp [distinct]
  | cons b l ih =>
    rw [List.cons_append, distinct, ih]
    by_cases h : a ∈ l
    · rw [if_pos h, if_pos (by simp [h])]; rfl
    · rw [if_neg h]
      by_cases hb : a = b
      · subst hb
        rw [if_pos (by simp), List.filter_append]
        simp [distinct]
      · rw [if_neg (by simp [h, hb]), List.filter_append]
        simp [distinct, hb]

/-- `d.setdefault(key, []).append(value)` -/
def pushDict (d : Dict (List α)) (t : String) (r : α) : Dict (List α) := Dict.set d t (((Dict.get? d t).getD []) ++ [r])

theorem get?_mapKeys (ts : List String) (f : String → α) (t : String) :
    Dict.get? (ts.map fun t => (t, f t)) t = if t ∈ ts then some (f t) else none := by
  induction ts with
  | nil => rfl
  | cons u ts ih =>
    rw [List.map_cons, Dict.get?_cons, ih]
    by_cases h : t = u
    · subst h; simp
    · simp [h]

theorem set_mapKeys (ts : List String) (hn : ts.Nodup) (f : String → α) (t : String) (v : α) :
    Dict.set (ts.map fun t => (t, f t)) t v =
      if t ∈ ts then ts.map fun u => (u, if u = t then v else f u) else (ts.map fun t => (t, f t)) ++ [(t, v)] := by
  induction ts with
  | nil => rfl
  | cons u ts ih =>
    rw [List.nodup_cons] at hn
    rw [List.map_cons, Dict.set]
    by_cases h : u = t
    · subst h
      rw [if_pos rfl, if_pos (by simp), List.map_cons, if_pos rfl]
      congr 1
      apply List.map_congr_left
      intro w hw
      rw [if_neg]
      rintro rfl
      exact hn.1 hw
    · rw [if_neg h, ih hn.2]
      by_cases ht : t ∈ ts
      · rw [if_pos ht, if_pos (by simp [ht]), List.map_cons, if_neg h]
      · rw [if_neg ht, if_neg (by simp [ht, Ne.symm h])]
        rfl

/-- Entries grouped by their names, in the order in which the names first appear. -/
def groupsOf (l : List (String × α)) : List (String × List α) :=
  (distinct (l.map (·.1))).map fun t => (t, (l.filter fun p => decide (p.1 = t)).map (·.2))

theorem groupsOf_snoc (l : List (String × α)) (x : String × α) : groupsOf (l ++ [x]) = pushDict (groupsOf l) x.1 x.2 := by
  unfold groupsOf pushDict
  rw [List.map_append, List.map_cons, List.map_nil, distinct_snoc, get?_mapKeys, set_mapKeys _ (nodup_distinct _)]
  by_cases h : x.1 ∈ l.map (·.1)
  · rw [if_pos h, if_pos (mem_distinct.2 h), if_pos (mem_distinct.2 h)]
    apply List.map_congr_left
    intro t ht
    by_cases hx : t = x.1
    · subst hx
      simp [List.filter_append]
    · simp [List.filter_append, hx, Ne.symm hx]
  · rw [if_neg h, if_neg (fun h' => h (mem_distinct.1 h')), if_neg (fun h' => h (mem_distinct.1 h')), List.map_append]
    congr 1
    · apply List.map_congr_left
      intro t ht
      have hx : x.1 ≠ t := by
        rintro rfl
        exact h (mem_distinct.1 ht)
      simp [List.filter_append, hx]
    · have : l.filter (fun p => decide (p.1 = x.1)) = [] := by
        rw [List.filter_eq_nil_iff]
        intro p hp
        simp only [decide_eq_true_eq]
        intro hpx
        exact h (List.mem_map.2 ⟨p, hp, hpx⟩)
      simp [List.filter_append, this]

theorem foldl_pushDict (l : List (String × α)) : l.foldl (fun d p => pushDict d p.1 p.2) [] = groupsOf l := by
  have h : ∀ (m : List (String × α)) (l : List (String × α)), m.foldl (fun d p => pushDict d p.1 p.2) (groupsOf l) = groupsOf (l ++ m) := by
    intro m
    induction m with
    | nil => intro l; simp
    | cons x m ih =>
      intro l
      rw [List.foldl_cons, ← groupsOf_snoc, ih, List.append_assoc]
      rfl
  exact h l []

end Meshio
