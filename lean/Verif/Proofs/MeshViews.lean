/-
Helper lemmas about the per-type views of a mesh.
-/
import Verif.Proofs.Mesh
namespace Meshio
variable {P R : Type}

theorem Dict.get?_append {β : Type} (d : Dict (List β)) (t t' : String) (v : β) :
    (d.append t v).get? t' =
      if t' = t then some ((d.get? t).getD [] ++ [v]) else d.get? t' := by
  unfold Dict.append
  split
  · next h => rw [Dict.get?_set, h]; simp
  · next l h => rw [Dict.get?_set, h]; simp

/-- What a loop of `append`s leaves under a key. -/
theorem foldl_append_get? {β : Type} (l : List (String × β)) (d : Dict (List β)) (t : String) :
    (l.foldl (fun d tv => d.append tv.1 tv.2) d).get? t =
      (if (l.filter (fun p => decide (p.1 = t))) = [] then d.get? t
       else some ((d.get? t).getD [] ++ (l.filter (fun p => decide (p.1 = t))).map (·.2))) := by
  induction l generalizing d with
  | nil => simp
  | cons p l ih =>
    rw [List.foldl_cons, ih, Dict.get?_append]
    by_cases h : p.1 = t
    · simp only [h, if_true, List.filter_cons, decide_true, List.map_cons]
      by_cases h2 : List.filter (fun p => decide (p.1 = t)) l = []
      · simp [h2]
      · simp [h2]
    · have h' : ¬ t = p.1 := fun e => h e.symm
      have hf : (p :: l).filter (fun p => decide (p.1 = t)) = l.filter (fun p => decide (p.1 = t)) :=
        List.filter_cons_of_neg (by simpa using h)
      rw [hf, if_neg h']

theorem groupTypes_get? {β : Type} (l : List (String × β)) (t : String) :
    (groupTypes l).get? t =
      (if (l.filter (fun p => decide (p.1 = t))) = [] then none
       else some ((l.filter (fun p => decide (p.1 = t))).map (·.2))) := by
  unfold groupTypes
  rw [foldl_append_get?]
  simp

theorem Dict.Ok.append {β : Type} {d : Dict (List β)} (h : d.Ok) (t : String) (v : β) :
    (d.append t v).Ok := by
  unfold Dict.append
  split <;> exact h.set _ _

theorem Dict.keys_append {β : Type} (d : Dict (List β)) (t : String) (v : β) :
    (d.append t v).keys = if t ∈ d.keys then d.keys else d.keys ++ [t] := by
  unfold Dict.append
  split <;> rw [Dict.keys_set]

theorem foldl_append_ok {β : Type} (l : List (String × β)) (d : Dict (List β)) (h : d.Ok) :
    (l.foldl (fun d tv => d.append tv.1 tv.2) d).Ok := by
  induction l generalizing d with
  | nil => exact h
  | cons p l ih => exact ih _ (h.append _ _)

theorem groupTypes_ok {β : Type} (l : List (String × β)) : (groupTypes l).Ok :=
  foldl_append_ok l [] (by simp [Dict.Ok, Dict.keys])

theorem foldl_append_keys {β : Type} (l : List (String × β)) (d : Dict (List β)) :
    (l.foldl (fun d tv => d.append tv.1 tv.2) d).keys =
      (l.map (·.1)).foldl (fun acc x => if x ∈ acc then acc else acc ++ [x]) d.keys := by
  induction l generalizing d with
  | nil => rfl
  | cons p l ih => rw [List.foldl_cons, ih, Dict.keys_append]; rfl

theorem groupTypes_keys {β : Type} (l : List (String × β)) :
    (groupTypes l).keys = dedup (l.map (·.1)) := foldl_append_keys l []

theorem concatAll_ok_cons {ρ : Type} {t : String} {l : List (NArr ρ)} {d : Dict (List (NArr ρ))}
    {r : Dict (NArr ρ)} (h : concatAll ((t, l) :: d) = .ok r) :
    ∃ a r', npConcat l = .ok a ∧ concatAll d = .ok r' ∧ r = (t, a) :: r' := by
  simp only [concatAll] at h
  split at h
  · cases h
  · next a ha =>
    split at h
    · cases h
    · next r' hr' => cases h; exact ⟨a, r', ha, hr', rfl⟩

theorem concatAll_keys {ρ : Type} {d : Dict (List (NArr ρ))} {r : Dict (NArr ρ)}
    (h : concatAll d = .ok r) : r.keys = d.keys := by
  induction d generalizing r with
  | nil => cases h; rfl
  | cons p d ih =>
    obtain ⟨t, l⟩ := p
    obtain ⟨a, r', _, h2, h3⟩ := concatAll_ok_cons h
    subst h3
    have := ih h2
    simp only [Dict.keys, List.map_cons] at this ⊢
    rw [this]

theorem concatAll_get? {ρ : Type} {d : Dict (List (NArr ρ))} {r : Dict (NArr ρ)}
    (h : concatAll d = .ok r) (t : String) :
    (d.get? t = none ∧ r.get? t = none) ∨
      (∃ l a, d.get? t = some l ∧ r.get? t = some a ∧ npConcat l = .ok a) := by
  induction d generalizing r with
  | nil => cases h; left; exact ⟨rfl, rfl⟩
  | cons p d ih =>
    obtain ⟨t', l⟩ := p
    obtain ⟨a, r', h1, h2, h3⟩ := concatAll_ok_cons h
    subst h3
    rw [Dict.get?_cons, Dict.get?_cons]
    by_cases ht : t = t'
    · right; simp only [ht, if_true]; exact ⟨l, a, rfl, rfl, h1⟩
    · simp only [if_neg ht]; exact ih h2

theorem concatAll_ok_iff {ρ : Type} (d : Dict (List (NArr ρ))) :
    (∃ r, concatAll d = .ok r) ↔ ∀ p ∈ d, ∃ a, npConcat p.2 = .ok a := by
  induction d with
  | nil => simp [concatAll]
  | cons p d ih =>
    obtain ⟨t, l⟩ := p
    constructor
    · rintro ⟨r, hr⟩
      obtain ⟨a, r', h1, h2, _⟩ := concatAll_ok_cons hr
      intro q hq
      rcases List.mem_cons.mp hq with hq | hq
      · rw [hq]; exact ⟨a, h1⟩
      · exact ih.mp ⟨r', h2⟩ q hq
    · intro h
      obtain ⟨a, ha⟩ := h (t, l) (by simp)
      obtain ⟨r', hr'⟩ := ih.mpr (fun q hq => h q (List.mem_cons_of_mem _ hq))
      simp only at ha
      exact ⟨(t, a) :: r', by simp only [concatAll, ha, hr']⟩

theorem concatAll_error {ρ : Type} {d : Dict (List (NArr ρ))} {e : Err}
    (h : concatAll d = .error e) : e = .valueError := by
  induction d with
  | nil => cases h
  | cons p d ih =>
    obtain ⟨t, l⟩ := p
    simp only [concatAll] at h
    split at h
    · next e' he => cases h; exact npConcat_error he
    · split at h
      · next e' he => cases h; exact ih he
      · cases h

theorem npConcat_ok_iff {ρ : Type} (l : List (NArr ρ)) :
    (∃ a, npConcat l = .ok a) ↔ l ≠ [] ∧ ∀ a ∈ l, ∀ b ∈ l, a.tail = b.tail := by
  constructor
  · rintro ⟨a, ha⟩
    obtain ⟨h1, h2, _⟩ := npConcat_ok ha
    exact ⟨h1, fun x hx y hy => by rw [h2 x hx, h2 y hy]⟩
  · rintro ⟨h1, h2⟩
    cases l with
    | nil => exact absurd rfl h1
    | cons x l => exact ⟨_, npConcat_of_tails h1 (fun b hb => h2 b hb x (by simp))⟩

theorem filter_map_type {ρ : Type} (cells : List CellBlock) (f : CellBlock → ρ) (t : String) :
    ((cells.map (fun c => (c.type, f c))).filter (fun p => decide (p.1 = t))).map (·.2)
      = (cells.filter (fun c => decide (c.type = t))).map f := by
  rw [List.filter_map, List.map_map]
  rfl

theorem beq_eq_decide (t : String) :
    (fun c : CellBlock => c.type == t) = (fun c : CellBlock => decide (c.type = t)) := by
  funext c; rfl

theorem cellsOfType_eq (m : Mesh P R) (t : String) :
    Spec.cellsOfType m t =
      (((m.cells.filter (fun c => decide (c.type = t))).map (·.data)).map (·.rows)).flatten := by
  unfold Spec.cellsOfType
  rw [List.flatMap_def, List.map_map]
  rfl

theorem mapRes_entry_get? {α β : Type} (f : α → Res β) (d : Dict α) (r : Dict β)
    (h : Dict.mapValues f d = .ok r) (k : String) :
    (d.get? k = none ∧ r.get? k = none) ∨
      ∃ l b, d.get? k = some l ∧ r.get? k = some b ∧ f l = .ok b := by
  induction d generalizing r with
  | nil => cases h; left; exact ⟨rfl, rfl⟩
  | cons p d ih =>
    obtain ⟨k', l⟩ := p
    simp only [Dict.mapValues, mapRes] at h
    split at h
    · cases h
    · next b hb =>
      split at h
      · cases h
      · next bs hbs =>
        cases h
        split at hb
        · cases hb
        · next b' hb' =>
          cases hb
          rw [Dict.get?_cons, Dict.get?_cons]
          by_cases hk : k = k'
          · right; simp only [hk, if_true]; exact ⟨l, b', rfl, rfl, hb'⟩
          · simp only [if_neg hk]; exact ih _ hbs

theorem zip_swap_eq {α β : Type} (a : List α) (b : List β) :
    b.zip a = (a.zip b).map (fun x => (x.2, x.1)) := by
  induction a generalizing b with
  | nil => simp
  | cons x a ih =>
    cases b with
    | nil => rfl
    | cons y b => simp [ih]

/-- Zipping concatenations of row-aligned blocks is the concatenation of the zips. -/
theorem zip_flatten_aligned {α β γ : Type} (l : List γ) (f : γ → List α) (g : γ → List β)
    (h : ∀ x ∈ l, (f x).length = (g x).length) :
    ((l.map f).flatten).zip ((l.map g).flatten) = l.flatMap (fun x => (f x).zip (g x)) := by
  induction l with
  | nil => rfl
  | cons x l ih =>
    simp only [List.map_cons, List.flatten_cons, List.flatMap_cons]
    rw [List.zip_append (h x (by simp)), ih (fun y hy => h y (List.mem_cons_of_mem _ hy))]

theorem map_fst_filter_zip {β : Type} (cells : List CellBlock) (l : List β)
    (h : l.length = cells.length) (t : String) :
    ((cells.zip l).filter (fun cd => decide (cd.1.type = t))).map (·.1)
      = cells.filter (fun c => decide (c.type = t)) := by
  induction cells generalizing l with
  | nil => rfl
  | cons c cs ih =>
    cases l with
    | nil => simp at h
    | cons b l =>
      have ih' := ih l (by simpa using h)
      simp only [List.zip_cons_cons, List.filter_cons]
      by_cases hc : c.type = t
      · simp [hc, ih']
      · simp [hc, ih']

theorem zip_len_of_maps {l : List (DataArr R)} {cells : List CellBlock}
    (h : l.map (fun a => a.arr.rows.length) = cells.map (fun c => c.data.rows.length)) :
    ∀ x ∈ cells.zip l, x.1.data.rows.length = x.2.arr.rows.length := by
  induction cells generalizing l with
  | nil => simp
  | cons c cs ih =>
    cases l with
    | nil => simp
    | cons a l =>
      simp only [List.map_cons, List.cons.injEq] at h
      intro x hx
      simp only [List.zip_cons_cons, List.mem_cons] at hx
      rcases hx with hx | hx
      · rw [hx]; exact h.1.symm
      · exact ih h.2 x hx

theorem cellsWithData_filter (cells : List CellBlock) (l : List (DataArr R)) (t : String) :
    ((Spec.cellsWithData cells l).filter (fun p => decide (p.1 = t))).map (·.2) =
      ((cells.zip l).filter (fun cd => decide (cd.1.type = t))).flatMap
        (fun cd => cd.1.data.rows.zip cd.2.arr.rows) := by
  unfold Spec.cellsWithData
  induction cells.zip l with
  | nil => rfl
  | cons x xs ih =>
    simp only [List.flatMap_cons, List.filter_append, List.map_append, List.filter_cons, ih]
    by_cases hx : x.1.type = t
    · simp only [hx, decide_true, if_true, List.flatMap_cons, List.filter_map, List.map_map]
      congr 1
      simp [Function.comp_def]
    · simp [hx, List.filter_map, Function.comp_def]

end Meshio

namespace Meshio
variable {P R : Type}

/-- Members shifted by the running number of cells. -/
def shifted : Nat → List (Option (List Nat) × CellBlock) → List (List Nat)
  | _, [] => []
  | off, (some ms, c) :: r => ms.map (· + off) :: shifted (off + c.len) r
  | off, (none, _) :: r => shifted off r

theorem cellSetsStep_fold (l : List (Option (List Nat) × CellBlock)) (acc : SetsAcc) (t : String)
    (hsome : ∀ x ∈ l, x.2.type = t → ∃ ms, x.1 = some ms) :
    (l.foldl cellSetsStep acc).2.get? t =
      if l.filter (fun x => decide (x.2.type = t)) = [] then acc.2.get? t
      else some ((acc.2.get? t).getD [] ++
        shifted ((acc.1.get? t).getD 0) (l.filter (fun x => decide (x.2.type = t)))) := by
  induction l generalizing acc with
  | nil => simp
  | cons x l ih =>
    have ih' := fun acc => ih acc (fun y hy => hsome y (List.mem_cons_of_mem _ hy))
    rw [List.foldl_cons, ih']
    obtain ⟨o, c⟩ := x
    by_cases hc : c.type = t
    · obtain ⟨ms, hms⟩ := hsome (o, c) (by simp) hc
      simp only at hms
      subst hms
      have hf : ((some ms, c) :: l).filter (fun x => decide (x.2.type = t)) =
          (some ms, c) :: l.filter (fun x => decide (x.2.type = t)) :=
        List.filter_cons_of_pos (by simpa using hc)
      rw [hf]
      simp only [cellSetsStep, hc]
      cases hg : acc.1.get? t with
      | none =>
        simp only [Dict.get?_append, Dict.get?_set, if_true, Option.getD_none, Option.getD_some,
          shifted, Nat.zero_add, List.cons_ne_nil, if_false]
        by_cases h2 : l.filter (fun x => decide (x.2.type = t)) = []
        · rw [h2]; simp [shifted]
        · rw [if_neg h2]; simp
      | some off =>
        simp only [Dict.get?_append, Dict.get?_set, if_true, Option.getD_some,
          shifted, List.cons_ne_nil, if_false]
        by_cases h2 : l.filter (fun x => decide (x.2.type = t)) = []
        · rw [h2]; simp [shifted]
        · rw [if_neg h2]; simp
    · have hf : ((o, c) :: l).filter (fun x => decide (x.2.type = t)) =
          l.filter (fun x => decide (x.2.type = t)) :=
        List.filter_cons_of_neg (by simpa using hc)
      rw [hf]
      have hc' : ¬ t = c.type := fun e => hc e.symm
      cases o with
      | none => simp only [cellSetsStep]
      | some ms =>
        simp only [cellSetsStep]
        cases hg : acc.1.get? c.type <;> simp [Dict.get?_append, Dict.get?_set, hc']

theorem cellSetsStep_ok (l : List (Option (List Nat) × CellBlock)) (acc : SetsAcc)
    (h : acc.2.Ok) : (l.foldl cellSetsStep acc).2.Ok := by
  induction l generalizing acc with
  | nil => exact h
  | cons x l ih =>
    rw [List.foldl_cons]
    apply ih
    unfold cellSetsStep
    split
    · exact h
    · split <;> exact h.append _ _

theorem get?_filter_map {α β : Type} (d : Dict α) (hd : d.Ok) (p : α → Bool) (f : α → β)
    (t : String) :
    Dict.get? ((d.filter (fun tm => p tm.2)).map (fun tm => (tm.1, f tm.2))) t =
      (d.get? t).bind (fun v => if p v then some (f v) else none) := by
  induction d with
  | nil => rfl
  | cons x d ih =>
    obtain ⟨k, v⟩ := x
    have hd' : Dict.Ok d := by
      simp only [Dict.Ok, Dict.keys, List.map_cons, List.nodup_cons] at hd; exact hd.2
    have hk : k ∉ Dict.keys d := by
      simp only [Dict.Ok, Dict.keys, List.map_cons, List.nodup_cons] at hd; exact hd.1
    have ih' := ih hd'
    rw [Dict.get?_cons]
    by_cases hp : p v = true
    · rw [List.filter_cons_of_pos (by simpa using hp), List.map_cons, Dict.get?_cons, ih']
      by_cases ht : t = k
      · simp [ht, hp]
      · simp [ht]
    · rw [List.filter_cons_of_neg (by simpa using hp), ih']
      by_cases ht : t = k
      · have : Dict.get? d k = none := (Dict.get?_eq_none_iff d k).mpr hk
        simp [ht, hp, this]
      · simp [ht]

theorem shifted_select (pre : List (List Int)) (l : List (Option (List Nat) × CellBlock))
    (h : ∀ x ∈ l, ∃ ms, x.1 = some ms ∧ ∀ j ∈ ms, j < x.2.data.rows.length) :
    (shifted pre.length l).flatten.map
        (fun i => (pre ++ (l.map (fun x => x.2.data.rows)).flatten)[i]?) =
      l.flatMap (fun x => (x.1.getD []).map (fun j => x.2.data.rows[j]?)) := by
  induction l generalizing pre with
  | nil => rfl
  | cons x l ih =>
    obtain ⟨o, c⟩ := x
    obtain ⟨ms, hms, hr⟩ := h (o, c) (by simp)
    simp only at hms hr
    subst hms
    have ih' := ih (pre ++ c.data.rows) (fun y hy => h y (List.mem_cons_of_mem _ hy))
    simp only [shifted, List.flatten_cons, List.map_append, List.map_cons, List.flatMap_cons,
      Option.getD_some, List.map_map]
    congr 1
    · apply List.map_congr_left
      intro j hj
      have hj' := hr j hj
      simp only [Function.comp_apply]
      rw [List.getElem?_append_right (by omega), Nat.add_sub_cancel,
        List.getElem?_append_left hj']
    · rw [List.length_append] at ih'
      have e : pre.length + c.len = pre.length + c.data.rows.length := rfl
      rw [e]
      simpa [List.append_assoc] using ih'

theorem map_snd_filter_zip {α : Type} (cells : List CellBlock) (l : List α)
    (h : l.length = cells.length) (t : String) :
    ((l.zip cells).filter (fun cd => decide (cd.2.type = t))).map (·.2)
      = cells.filter (fun c => decide (c.type = t)) := by
  induction cells generalizing l with
  | nil => simp
  | cons c cs ih =>
    cases l with
    | nil => simp at h
    | cons b l =>
      have ih' := ih l (by simpa using h)
      simp only [List.zip_cons_cons, List.filter_cons]
      by_cases hc : c.type = t
      · simp [hc, ih']
      · simp [hc, ih']

end Meshio
