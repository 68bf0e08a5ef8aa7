/-
Helper lemmas about the conversions between sets and data.
-/
import Verif.Proofs.MeshViews
namespace Meshio
variable {P R : Type}

/-! ### arr[idx] = v -/

theorem foldl_set_length (idx : List Nat) (v : Int) (arr : List Int) :
    (idx.foldl (fun a i => a.set i v) arr).length = arr.length := by
  induction idx generalizing arr with
  | nil => rfl
  | cons i idx ih => rw [List.foldl_cons, ih, List.length_set]

theorem foldl_set_getElem? (idx : List Nat) (v : Int) (arr : List Int) (j : Nat)
    (hj : j < arr.length) :
    (idx.foldl (fun a i => a.set i v) arr)[j]? = if j ∈ idx then some v else arr[j]? := by
  induction idx generalizing arr with
  | nil => simp
  | cons i idx ih =>
    rw [List.foldl_cons, ih _ (by rw [List.length_set]; exact hj), List.getElem?_set]
    by_cases h1 : j ∈ idx
    · simp [h1]
    · by_cases h2 : i = j
      · subst h2; simp [h1, hj]
      · have h3 : ¬ j = i := fun e => h2 e.symm
        simp [h1, h2, h3]

theorem assignAt_ok {arr : List Int} {idx : List Nat} {v : Int} {arr' : List Int}
    (h : assignAt arr idx v = .ok arr') :
    arr'.length = arr.length ∧ (∀ j ∈ idx, j < arr.length) ∧
      ∀ j, j < arr.length → arr'[j]? = if j ∈ idx then some v else arr[j]? := by
  unfold assignAt at h
  split at h
  · next hall =>
    cases h
    rw [List.all_eq_true] at hall
    refine ⟨foldl_set_length _ _ _, fun j hj => by simpa using hall j hj, ?_⟩
    intro j hj; exact foldl_set_getElem? _ _ _ _ hj
  · cases h

theorem assignAt_of_range {arr : List Int} {idx : List Nat} (v : Int)
    (h : ∀ j ∈ idx, j < arr.length) : ∃ arr', assignAt arr idx v = .ok arr' := by
  unfold assignAt
  rw [if_pos (by rw [List.all_eq_true]; intro j hj; simpa using h j hj)]
  exact ⟨_, rfl⟩

/-! ### The tag loops -/

theorem tagLoop_ok {l : List (Option (List Nat))} {arr : List Int} {i : Nat} {arr' : List Int}
    (h : tagLoop arr i l = .ok arr') :
    arr'.length = arr.length ∧
    (∀ cc, some cc ∈ l → ∀ j ∈ cc, j < arr.length) ∧
    ∀ j v, arr'[j]? = some v →
      (arr[j]? = some v ∧ ∀ (k : Nat) (cc : List Nat), l[k]? = some (some cc) → j ∉ cc) ∨
      (∃ (k : Nat) (cc : List Nat), v = ((i + k : Nat) : Int) ∧ l[k]? = some (some cc) ∧ j ∈ cc ∧
        ∀ (k' : Nat) (cc' : List Nat), k < k' → l[k']? = some (some cc') → j ∉ cc') := by
  induction l generalizing arr i with
  | nil =>
    cases h
    refine ⟨rfl, by simp, fun j v hv => .inl ⟨hv, by simp⟩⟩
  | cons o l ih =>
    cases o with
    | none =>
      simp only [tagLoop] at h
      obtain ⟨h1, h2, h3⟩ := ih h
      refine ⟨h1, fun cc hcc => h2 cc (by simpa using hcc), ?_⟩
      intro j v hv
      rcases h3 j v hv with ⟨h4, h5⟩ | ⟨k, cc, h4, h5, h6, h7⟩
      · left
        refine ⟨h4, ?_⟩
        intro k cc hk
        cases k with
        | zero => simp at hk
        | succ k => exact h5 k cc (by simpa using hk)
      · right
        refine ⟨k + 1, cc, by rw [h4]; congr 1; omega, by simpa using h5, h6, ?_⟩
        intro k' cc' hk hk'
        cases k' with
        | zero => omega
        | succ k' => exact h7 k' cc' (by omega) (by simpa using hk')
    | some c0 =>
      simp only [tagLoop] at h
      split at h
      · cases h
      · next arr1 ha =>
        obtain ⟨a1, a2, a3⟩ := assignAt_ok ha
        obtain ⟨h1, h2, h3⟩ := ih h
        refine ⟨by rw [h1, a1], ?_, ?_⟩
        · intro cc hcc j hj
          rcases List.mem_cons.mp hcc with hcc | hcc
          · injection hcc with hcc; subst hcc; exact a2 j hj
          · rw [← a1]; exact h2 cc hcc j hj
        · intro j v hv
          have hj : j < arr.length := by
            have := (List.getElem?_eq_some_iff.mp hv).1
            omega
          rcases h3 j v hv with ⟨h4, h5⟩ | ⟨k, cc, h4, h5, h6, h7⟩
          · rw [a3 j hj] at h4
            by_cases hm : j ∈ c0
            · right
              rw [if_pos hm] at h4
              refine ⟨0, c0, by simpa using h4.symm, by simp, hm, ?_⟩
              intro k' cc' hk hk'
              cases k' with
              | zero => omega
              | succ k' => exact h5 k' cc' (by simpa using hk')
            · left
              rw [if_neg hm] at h4
              refine ⟨h4, ?_⟩
              intro k cc hk
              cases k with
              | zero =>
                simp only [List.getElem?_cons_zero, Option.some.injEq] at hk
                subst hk; exact hm
              | succ k => exact h5 k cc (by simpa using hk)
          · right
            refine ⟨k + 1, cc, by rw [h4]; congr 1; omega, by simpa using h5, h6, ?_⟩
            intro k' cc' hk hk'
            cases k' with
            | zero => omega
            | succ k' => exact h7 k' cc' (by omega) (by simpa using hk')

theorem tagLoop_of_range {l : List (Option (List Nat))} {arr : List Int} {i : Nat}
    (h : ∀ cc, some cc ∈ l → ∀ j ∈ cc, j < arr.length) : ∃ arr', tagLoop arr i l = .ok arr' := by
  induction l generalizing arr i with
  | nil => exact ⟨arr, rfl⟩
  | cons o l ih =>
    cases o with
    | none => exact ih (fun cc hcc => h cc (List.mem_cons_of_mem _ hcc))
    | some c0 =>
      obtain ⟨arr1, ha⟩ := assignAt_of_range (i : Int) (h c0 (by simp))
      simp only [tagLoop, ha]
      apply ih
      intro cc hcc j hj
      rw [(assignAt_ok ha).1]
      exact h cc (List.mem_cons_of_mem _ hcc) j hj

theorem tagLoop_isTag {l : List (Option (List Nat))} {n : Nat} {arr' : List Int}
    (h : tagLoop (List.replicate n (-1)) 0 l = .ok arr') :
    arr'.length = n ∧ ∀ j v, arr'[j]? = some v → Spec.IsTag l j v := by
  obtain ⟨h1, _, h3⟩ := tagLoop_ok h
  refine ⟨by simpa using h1, ?_⟩
  intro j v hv
  rcases h3 j v hv with ⟨h4, h5⟩ | ⟨k, cc, h4, h5, h6, h7⟩
  · left
    have : v = -1 := by
      obtain ⟨hj, he⟩ := List.getElem?_eq_some_iff.mp h4
      rw [List.getElem_replicate] at he
      exact he.symm
    exact ⟨this, h5⟩
  · right
    exact ⟨k, cc, by simpa using h4, h5, h6, h7⟩

theorem tagBlocks_ok {cells : List CellBlock} {cols : List (List (Option (List Nat)))}
    {arrs : List (List Int)} (h : tagBlocks cells cols = .ok arrs) :
    arrs.length = cols.length ∧ cols.length ≤ cells.length ∧
    ∀ (k : Nat) arr, arrs[k]? = some arr → ∃ c col, cells[k]? = some c ∧ cols[k]? = some col ∧
      tagLoop (List.replicate c.len (-1)) 0 col = .ok arr := by
  induction cols generalizing cells arrs with
  | nil =>
    have : arrs = [] := by cases cells <;> (simp [tagBlocks] at h; exact h)
    subst this
    simp
  | cons ms r ih =>
    cases cells with
    | nil => cases h
    | cons c cs =>
      simp only [tagBlocks] at h
      split at h
      · cases h
      · next arr harr =>
        split at h
        · cases h
        · next rest hrest =>
          cases h
          obtain ⟨h1, h2, h3⟩ := ih hrest
          refine ⟨by simp [h1], by simp [h2], ?_⟩
          intro k a hk
          cases k with
          | zero =>
            simp only [List.getElem?_cons_zero, Option.some.injEq] at hk
            subst hk
            exact ⟨c, ms, rfl, rfl, harr⟩
          | succ k => simpa using h3 k a (by simpa using hk)

theorem tagBlocks_of_range {cells : List CellBlock} {cols : List (List (Option (List Nat)))}
    (hl : cols.length ≤ cells.length)
    (h : ∀ (k : Nat) c col, cells[k]? = some c → cols[k]? = some col →
      ∀ cc, some cc ∈ col → ∀ j ∈ cc, j < c.len) :
    ∃ arrs, tagBlocks cells cols = .ok arrs := by
  induction cols generalizing cells with
  | nil => cases cells <;> exact ⟨[], rfl⟩
  | cons ms r ih =>
    cases cells with
    | nil => simp at hl
    | cons c cs =>
      obtain ⟨arr, harr⟩ := tagLoop_of_range (l := ms) (arr := List.replicate c.len (-1)) (i := 0)
        (by rw [List.length_replicate]; exact h 0 c ms rfl rfl)
      obtain ⟨rest, hrest⟩ := ih (cells := cs) (by simpa using hl)
        (fun k c' col hc hcol => h (k + 1) c' col (by simpa using hc) (by simpa using hcol))
      exact ⟨arr :: rest, by simp only [tagBlocks, harr, hrest]⟩

theorem zipStar_length {α : Type} {ls : List (List α)} {n : Nat} (hne : ls ≠ [])
    (h : ∀ l ∈ ls, l.length = n) : (zipStar ls).length = n := by
  induction ls with
  | nil => exact absurd rfl hne
  | cons l ls ih =>
    cases ls with
    | nil => simp [zipStar, h l (by simp)]
    | cons l' ls =>
      simp only [zipStar, List.length_zipWith]
      rw [ih (by simp) (fun x hx => h x (List.mem_cons_of_mem _ hx)), h l (by simp)]
      simp

theorem zipStar_getElem? {α : Type} {ls : List (List α)} {n : Nat} (hne : ls ≠ [])
    (h : ∀ l ∈ ls, l.length = n) (k : Nat) (hk : k < n) :
    (zipStar ls)[k]? = some (ls.filterMap (fun l => l[k]?)) := by
  induction ls with
  | nil => exact absurd rfl hne
  | cons l ls ih =>
    have hl : k < l.length := by rw [h l (by simp)]; exact hk
    cases ls with
    | nil =>
      simp [zipStar, List.getElem?_eq_getElem hl]
    | cons l' ls =>
      simp only [zipStar]
      rw [List.getElem?_zipWith, ih (by simp) (fun x hx => h x (List.mem_cons_of_mem _ hx)),
        List.getElem?_eq_getElem hl, List.filterMap_cons (a := l), List.getElem?_eq_getElem hl]

theorem filterMap_getElem? {α : Type} {ls : List (List α)} {n : Nat}
    (h : ∀ l ∈ ls, l.length = n) (k : Nat) (hk : k < n) (i : Nat) :
    (ls.filterMap (fun l => l[k]?))[i]? = (ls[i]?).bind (fun l => l[k]?) := by
  induction ls generalizing i with
  | nil => simp
  | cons l ls ih =>
    have hl : k < l.length := by rw [h l (by simp)]; exact hk
    rw [List.filterMap_cons, List.getElem?_eq_getElem hl]
    cases i with
    | zero => simp [List.getElem?_eq_getElem hl]
    | succ i =>
      simp only [List.getElem?_cons_succ]
      exact ih (fun x hx => h x (List.mem_cons_of_mem _ hx)) i

/-! ### np.unique -/

theorem mem_insertUnique (x y : Int) (l : List Int) : y ∈ insertUnique x l ↔ y = x ∨ y ∈ l := by
  induction l with
  | nil => simp [insertUnique]
  | cons z l ih =>
    simp only [insertUnique]
    split
    · simp
    · split
      · next h => subst h; simp
      · simp only [List.mem_cons, ih]
        constructor
        · rintro (h | h | h)
          · exact .inr (.inl h)
          · exact .inl h
          · exact .inr (.inr h)
        · rintro (h | h | h)
          · exact .inr (.inl h)
          · exact .inl h
          · exact .inr (.inr h)

theorem mem_npUnique (y : Int) (l : List Int) : y ∈ npUnique l ↔ y ∈ l := by
  unfold npUnique
  induction l with
  | nil => simp
  | cons x l ih => simp only [List.foldr_cons, mem_insertUnique, ih, List.mem_cons]

theorem pairwise_insertUnique (x : Int) (l : List Int) (h : l.Pairwise (· < ·)) :
    (insertUnique x l).Pairwise (· < ·) := by
  induction l with
  | nil => simp [insertUnique]
  | cons z l ih =>
    obtain ⟨h1, h2⟩ := List.pairwise_cons.mp h
    simp only [insertUnique]
    split
    · next hx =>
      refine List.pairwise_cons.mpr ⟨?_, h⟩
      intro b hb
      rcases List.mem_cons.mp hb with hb | hb
      · rw [hb]; exact hx
      · exact Int.lt_trans hx (h1 b hb)
    · split
      · exact h
      · refine List.pairwise_cons.mpr ⟨?_, ih h2⟩
        intro b hb
        rcases (mem_insertUnique x b l).mp hb with hb | hb
        · rw [hb]; omega
        · exact h1 b hb

theorem pairwise_npUnique (l : List Int) : (npUnique l).Pairwise (· < ·) := by
  unfold npUnique
  induction l with
  | nil => simp
  | cons x l ih => exact pairwise_insertUnique x _ ih

theorem eq_of_pairwise_lt {a b : List Int} (ha : a.Pairwise (· < ·)) (hb : b.Pairwise (· < ·))
    (h : ∀ x, x ∈ a ↔ x ∈ b) : a = b := by
  induction a generalizing b with
  | nil =>
    cases b with
    | nil => rfl
    | cons y b => exact absurd ((h y).mpr (by simp)) (by simp)
  | cons x a ih =>
    cases b with
    | nil => exact absurd ((h x).mp (by simp)) (by simp)
    | cons y b =>
      obtain ⟨ha1, ha2⟩ := List.pairwise_cons.mp ha
      obtain ⟨hb1, hb2⟩ := List.pairwise_cons.mp hb
      have hxy : x = y := by
        have h1 := (h x).mp (by simp)
        have h2 := (h y).mpr (by simp)
        rcases List.mem_cons.mp h1 with h1 | h1
        · exact h1
        · rcases List.mem_cons.mp h2 with h2 | h2
          · exact h2.symm
          · have := ha1 y h2; have := hb1 x h1; omega
      subst hxy
      congr 1
      apply ih ha2 hb2
      intro z
      constructor
      · intro hz
        rcases List.mem_cons.mp ((h z).mp (List.mem_cons_of_mem _ hz)) with he | he
        · have := ha1 z hz; omega
        · exact he
      · intro hz
        rcases List.mem_cons.mp ((h z).mpr (List.mem_cons_of_mem _ hz)) with he | he
        · have := hb1 z hz; omega
        · exact he

theorem pairwise_range_int (n : Nat) : ((List.range n).map (fun (i : Nat) => (i : Int))).Pairwise (· < ·) := by
  rw [List.pairwise_map]
  exact (List.pairwise_lt_range).imp (fun h => by omega)

/-- If the values are exactly `0..n-1`, `np.unique` is `[0, …, n-1]`. -/
theorem npUnique_eq_range {l : List Int} {n : Nat}
    (h : ∀ x, x ∈ l ↔ ∃ i, i < n ∧ x = (i : Int)) :
    npUnique l = (List.range n).map (fun (i : Nat) => (i : Int)) := by
  apply eq_of_pairwise_lt (pairwise_npUnique l) (pairwise_range_int n)
  intro x
  rw [mem_npUnique, h]
  simp only [List.mem_map, List.mem_range]
  constructor
  · rintro ⟨i, hi, rfl⟩; exact ⟨i, hi, rfl⟩
  · rintro ⟨i, hi, rfl⟩; exact ⟨i, hi, rfl⟩

theorem mem_npWhere (xs : List (Val R)) (tag : Int) (j : Nat) :
    j ∈ npWhere xs tag ↔ xs[j]?.bind Val.toInt? = some tag := by
  unfold npWhere
  simp only [List.mem_map, List.mem_filter]
  constructor
  · rintro ⟨⟨v, i⟩, ⟨h1, h2⟩, h3⟩
    simp only at h2 h3
    subst h3
    have := List.mem_zipIdx_iff_getElem?.mp h1
    simp only at this
    rw [this]
    simpa using h2
  · intro h
    cases hv : xs[j]? with
    | none => rw [hv] at h; cases h
    | some v =>
      rw [hv] at h
      refine ⟨(v, j), ⟨List.mem_zipIdx_iff_getElem?.mpr hv, ?_⟩, rfl⟩
      simpa using h

/-! ### Names -/

theorem pyJoinS_dash (l : List String) : pyJoinS "-" l = pyJoin '-' l := by
  induction l with
  | nil => rfl
  | cons a l ih =>
    cases l with
    | nil => simp [pyJoinS, pyJoin, joinWith]
    | cons b r =>
      rw [pyJoinS, ih]
      simp only [pyJoin, List.map_cons, joinWith]
      apply String.toList_injective
      simp

theorem dedup_foldl_nodup (l acc : List String) (h : (acc ++ l).Nodup) :
    l.foldl (fun acc x => if x ∈ acc then acc else acc ++ [x]) acc = acc ++ l := by
  induction l generalizing acc with
  | nil => simp
  | cons x l ih =>
    have hx : x ∉ acc := by
      intro hm
      rw [List.nodup_append] at h
      exact h.2.2 x hm x (by simp) rfl
    rw [List.foldl_cons, if_neg hx, ih _ (by simpa using h)]
    simp

theorem dedup_nodup {l : List String} (h : l.Nodup) : dedup l = l := by
  have := dedup_foldl_nodup l [] (by simpa using h)
  simpa [dedup] using this

theorem foldl_dict_set_keys {α β : Type} (l : List (String × α)) (f : α → β) (d : Dict β)
    (h : (d.keys ++ l.map (·.1)).Nodup) :
    (l.foldl (fun s nt => s.set nt.1 (f nt.2)) d) = d ++ l.map (fun nt => (nt.1, f nt.2)) := by
  induction l generalizing d with
  | nil => simp
  | cons x l ih =>
    have hx : x.1 ∉ d.keys := by
      intro hm
      rw [List.nodup_append] at h
      exact h.2.2 x.1 hm x.1 (by simp) rfl
    have hset : Dict.set d x.1 (f x.2) = d ++ [(x.1, f x.2)] := by
      clear ih h
      induction d with
      | nil => rfl
      | cons y d ih =>
        obtain ⟨a, b⟩ := y
        have hne : a ≠ x.1 := by intro e; exact hx (by simp [Dict.keys, e])
        have hx' : x.1 ∉ Dict.keys d := by
          intro hm; exact hx (by simp only [Dict.keys, List.map_cons]; exact List.mem_cons_of_mem _ hm)
        simp only [Dict.set, if_neg hne, ih hx', List.cons_append]
    rw [List.foldl_cons, hset, ih]
    · simp
    · simpa [Dict.keys] using h

theorem erase_set_of_not_mem {α : Type} (d : Dict α) (k : String) (v : α) (hk : k ∉ d.map (·.1)) :
    (Dict.set d k v).erase k = d := by
  induction d with
  | nil => simp [Dict.set, Dict.erase]
  | cons x d ih =>
    obtain ⟨a, b⟩ := x
    simp only [List.map_cons, List.mem_cons, not_or] at hk
    have hne : a ≠ k := fun e => hk.1 e.symm
    simp only [Dict.set, if_neg hne, Dict.erase, ih hk.2]

theorem foldl_set_get?_ne {α β : Type} (l : List (String × α)) (f : α → β) (d : Dict β)
    (name : String) (h : ∀ nt ∈ l, nt.1 ≠ name) :
    (l.foldl (fun s nt => s.set nt.1 (f nt.2)) d).get? name = d.get? name := by
  induction l generalizing d with
  | nil => rfl
  | cons x l ih =>
    rw [List.foldl_cons, ih _ (fun nt hnt => h nt (List.mem_cons_of_mem _ hnt)), Dict.get?_set]
    have : ¬ name = x.1 := fun e => h x (by simp) e.symm
    rw [if_neg this]

theorem foldl_set_get? {α β : Type} (l : List (String × α)) (f : α → β) (d : Dict β)
    (hnd : (l.map (·.1)).Nodup) (i : Nat) (name : String) (t : α) (hi : l[i]? = some (name, t)) :
    (l.foldl (fun s nt => s.set nt.1 (f nt.2)) d).get? name = some (f t) := by
  induction l generalizing d i with
  | nil => simp at hi
  | cons x l ih =>
    simp only [List.map_cons, List.nodup_cons] at hnd
    rw [List.foldl_cons]
    cases i with
    | zero =>
      simp only [List.getElem?_cons_zero, Option.some.injEq] at hi
      subst hi
      rw [foldl_set_get?_ne, Dict.get?_set, if_pos rfl]
      intro nt hnt he
      apply hnd.1
      rw [← he]
      exact List.mem_map.mpr ⟨nt, hnt, rfl⟩
    | succ i => exact ih _ hnd.2 i (by simpa using hi)

theorem foldl_set_forall {α β : Type} (l : List (String × α)) (f : α → β) (d : Dict β)
    (p : String × β → Prop) (hd : ∀ kv ∈ d, p kv) (hl : ∀ nt ∈ l, p (nt.1, f nt.2)) :
    ∀ kv ∈ l.foldl (fun s nt => s.set nt.1 (f nt.2)) d, p kv := by
  induction l generalizing d with
  | nil => exact hd
  | cons x l ih =>
    rw [List.foldl_cons]
    apply ih
    · intro kv hkv
      rcases Dict.mem_set hkv with e | e
      · rw [e]; exact hl x (by simp)
      · exact hd kv e
    · intro nt hnt; exact hl nt (List.mem_cons_of_mem _ hnt)

theorem tagPoints_eq (arr : List Int) (i : Nat) (l : List (List Nat)) :
    tagPoints arr i l = tagLoop arr i (l.map some) := by
  induction l generalizing arr i with
  | nil => rfl
  | cons cc l ih =>
    simp only [tagPoints, List.map_cons, tagLoop]
    split <;> simp [ih]

theorem dedup_foldl_nodup' (l acc : List String) (h : acc.Nodup) :
    (l.foldl (fun acc x => if x ∈ acc then acc else acc ++ [x]) acc).Nodup := by
  induction l generalizing acc with
  | nil => exact h
  | cons x l ih =>
    rw [List.foldl_cons]
    apply ih
    split
    · exact h
    · next hx =>
      rw [List.nodup_append]
      refine ⟨h, by simp, ?_⟩
      intro a ha b hb e
      simp only [List.mem_singleton] at hb
      subst hb; subst e; exact hx ha

theorem nodup_dedup (l : List String) : (dedup l).Nodup := dedup_foldl_nodup' l [] (by simp)

theorem setNames_length (alt key : String) (tags : List Int) :
    (setNames alt key tags).length = tags.length := by
  unfold setNames
  simp only
  split
  · simp
  · next h => exact Classical.byContradiction h

theorem strInt_inj {i j : Int} (h : strInt i = strInt j) : i = j := by
  unfold strInt at h
  have := congrArg String.toList h
  simp only [String.toList_ofList] at this
  exact fmtInt_injective this

theorem setNames_nodup (alt key : String) {tags : List Int} (h : tags.Pairwise (· < ·)) :
    (setNames alt key tags).Nodup := by
  unfold setNames
  simp only
  split
  · unfold List.Nodup
    rw [List.pairwise_map]
    refine h.imp ?_
    intro a b hab he
    have h1 := congrArg String.toList he
    simp only [String.toList_append, List.append_cancel_left_eq] at h1
    have := strInt_inj (String.toList_injective h1)
    omega
  · exact nodup_dedup _

theorem setNames_getElem? {alt key : String} {tags : List Int} {i : Nat} {name : String} {t : Int}
    (hi : (setNames alt key tags)[i]? = some name) (ht : tags[i]? = some t) :
    name = alt ++ strInt t ∨ (dedup (pySplit '-' key))[i]? = some name := by
  unfold setNames at hi
  simp only at hi
  split at hi
  · left
    rw [List.getElem?_map, ht] at hi
    simpa using hi.symm
  · right; exact hi

end Meshio
