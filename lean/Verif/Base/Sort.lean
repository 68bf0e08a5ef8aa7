/-
`np.argsort` and `np.unique(..., return_index=True, return_inverse=True)`.
-/
import Verif.Base.ListX
namespace Meshio

variable {α : Type}

/-- The distinct entries, in the order of their first appearance. -/
def distinct [DecidableEq α] : List α → List α
  | [] => []
  | a :: l => a :: (distinct l).filter (fun b => decide (b ≠ a))

theorem mem_distinct [DecidableEq α] {a : α} {l : List α} : a ∈ distinct l ↔ a ∈ l := by
  induction l with
  | nil => simp [distinct]
  | cons b l ih =>
    simp only [distinct, List.mem_cons, List.mem_filter, ih, decide_eq_true_eq]
    by_cases h : a = b <;> simp [h]

theorem nodup_distinct [DecidableEq α] (l : List α) : (distinct l).Nodup := by
  induction l with
  | nil => exact List.nodup_nil
  | cons b l ih =>
    rw [distinct, List.nodup_cons]
    exact ⟨by simp, ih.filter _⟩

theorem idxOf_cons_ne [DecidableEq α] {a b : α} (l : List α) (h : b ≠ a) :
    (b :: l).idxOf a = l.idxOf a + 1 := by
  rw [List.idxOf_cons]
  have : (b == a) = false := by simpa using h
  rw [this]; rfl

/-- Order of first appearance. -/
theorem pairwise_distinct [DecidableEq α] (l : List α) :
    (distinct l).Pairwise (fun a b => l.idxOf a < l.idxOf b) := by
  induction l with
  | nil => exact List.Pairwise.nil
  | cons c l ih =>
    rw [distinct, List.pairwise_cons]
    constructor
    · intro b hb
      have hb' : b ≠ c := by simpa using (List.mem_filter.mp hb).2
      rw [List.idxOf_cons_self, idxOf_cons_ne _ (Ne.symm hb')]
      omega
    · have h1 : ((distinct l).filter (fun b => decide (b ≠ c))).Pairwise
          (fun a b => l.idxOf a < l.idxOf b) := ih.filter _
      refine List.Pairwise.imp_of_mem ?_ h1
      intro a b ha hb h
      have ha' : a ≠ c := by simpa using (List.mem_filter.mp ha).2
      have hb' : b ≠ c := by simpa using (List.mem_filter.mp hb).2
      rw [idxOf_cons_ne _ (Ne.symm ha'), idxOf_cons_ne _ (Ne.symm hb')]
      omega

/-- `np.argsort(l)` -/
def argsort (l : List Nat) : List Nat :=
  (List.range l.length).mergeSort (fun i j => decide (l.getD i 0 ≤ l.getD j 0))

theorem argsort_perm (l : List Nat) : (argsort l).Perm (List.range l.length) :=
  List.mergeSort_perm _ _

theorem argsort_sorted (l : List Nat) :
    (argsort l).Pairwise (fun i j => l.getD i 0 ≤ l.getD j 0) := by
  have := List.pairwise_mergeSort (le := fun i j => decide (l.getD i 0 ≤ l.getD j 0))
    (by intro a b c; simp only [decide_eq_true_eq]; omega)
    (by intro a b; simp only [Bool.or_eq_true, decide_eq_true_eq]; omega) (List.range l.length)
  refine this.imp ?_
  intro a b h
  simpa using h

theorem map_getD_range (l : List Nat) : (List.range l.length).map (fun i => l.getD i 0) = l := by
  apply List.ext_getElem
  · simp
  · intro i h1 h2
    simp [List.getElem?_eq_getElem h2]

theorem length_argsort (l : List Nat) : (argsort l).length = l.length := by
  rw [(argsort_perm l).length_eq, List.length_range]

/-- Sorting. -/
theorem map_argsort_perm (l : List Nat) : ((argsort l).map (fun i => l.getD i 0)).Perm l := by
  have := (argsort_perm l).map (fun i => l.getD i 0)
  rw [map_getD_range] at this
  exact this

/-- The argsort of a permutation is its inverse. -/
theorem argsort_argsort {k : List Nat} (hk : k.Perm (List.range k.length)) :
    (argsort k).map (fun i => k.getD i 0) = List.range k.length := by
  apply List.Perm.eq_of_pairwise (le := fun a b => a ≤ b) (by intros; omega)
  · rw [List.pairwise_map]; exact argsort_sorted k
  · exact List.pairwise_le_range
  · exact (map_argsort_perm k).trans hk

/-- `np.unique(l, axis=0)`: the sorted distinct entries. -/
def npUniqueBy [DecidableEq α] (le : α → α → Bool) (l : List α) : List α :=
  distinct (l.mergeSort le)

/-- The idiom `_, idx, inv = np.unique(l, axis=0, return_index=True, return_inverse=True)`,
`k = np.argsort(idx)`, `l[idx[k]]`, `np.argsort(k)[inv]` (see
<https://stackoverflow.com/a/15637512/353337>). -/
def uniqueStable [DecidableEq α] (le : α → α → Bool) (l : List α) : List α × List Nat :=
  let u := npUniqueBy le l
  let idx := u.map (fun a => l.idxOf a)
  let inv := l.map (fun a => u.idxOf a)
  let k := argsort idx
  let invK := argsort k
  (k.filterMap (fun i => l[idx.getD i 0]?), inv.map (fun i => invK.getD i 0))

theorem filterMap_getElem?_range (u : List α) : (List.range u.length).filterMap (fun i => u[i]?) = u := by
  have : (List.range u.length).map (fun i => u[i]?) = u.map some := by
    apply List.ext_getElem
    · simp
    · intro i h1 h2
      simp at h2
      simp [List.getElem?_eq_getElem h2]
  have h2 : (List.range u.length).filterMap (fun i => u[i]?) =
      ((List.range u.length).map (fun i => u[i]?)).filterMap id := by
    rw [List.filterMap_map]; rfl
  rw [h2, this, List.filterMap_map]
  simp [Function.comp_def]

/-- Points and numbers: the points are the distinct entries in the order of first appearance,
the numbers their positions. -/
theorem uniqueStable_eq [DecidableEq α] (le : α → α → Bool) (l : List α) :
    uniqueStable le l = (distinct l, l.map (fun a => (distinct l).idxOf a)) := by
  unfold uniqueStable
  dsimp only
  have hmem : ∀ a, a ∈ npUniqueBy le l ↔ a ∈ l := by
    intro a
    unfold npUniqueBy
    rw [mem_distinct, (List.mergeSort_perm l le).mem_iff]
  have hnd : (npUniqueBy le l).Nodup := nodup_distinct _
  generalize npUniqueBy le l = u at *
  have hget : ∀ i (hi : i < u.length), (u.map (fun a => l.idxOf a)).getD i 0 = l.idxOf u[i] := by
    intro i hi
    rw [List.getD_eq_getElem?_getD, List.getElem?_eq_getElem (by simpa using hi)]
    simp
  have hval : ∀ i (hi : i < u.length), l[(u.map (fun a => l.idxOf a)).getD i 0]? = some u[i] := by
    intro i hi
    have hm : u[i] ∈ l := (hmem _).1 (List.getElem_mem hi)
    rw [hget i hi, List.getElem?_eq_getElem (List.idxOf_lt_length_iff.mpr hm)]
    rw [List.getElem_idxOf]
  have hrange : ∀ i ∈ argsort (u.map (fun a => l.idxOf a)), i < u.length := by
    intro i hi
    have := (argsort_perm _).mem_iff.1 hi
    simpa using this
  have hk := argsort_perm (u.map (fun a => l.idxOf a))
  have hks := argsort_sorted (u.map (fun a => l.idxOf a))
  rw [List.length_map] at hk
  generalize argsort (u.map (fun a => l.idxOf a)) = k at *
  have e1 : k.filterMap (fun i => l[(u.map (fun a => l.idxOf a)).getD i 0]?) = k.filterMap (fun i => u[i]?) := by
    apply filterMap_congr'
    intro i hi
    rw [hval i (hrange i hi), List.getElem?_eq_getElem (hrange i hi)]
  have hperm : (k.filterMap (fun i => u[i]?)).Perm u := by
    have := hk.filterMap (fun i => u[i]?)
    rw [filterMap_getElem?_range] at this
    exact this
  have hpts : k.filterMap (fun i => u[i]?) = distinct l := by
    apply List.Perm.eq_of_pairwise (le := fun a b => l.idxOf a ≤ l.idxOf b)
    · intro a b ha hb h1 h2
      have ha' : a ∈ l := (hmem a).1 (hperm.mem_iff.1 ha)
      have hb' : b ∈ l := mem_distinct.1 hb
      have e : l.idxOf a = l.idxOf b := by omega
      have h3 := List.getElem_idxOf (List.idxOf_lt_length_iff.mpr ha')
      have h4 := List.getElem_idxOf (List.idxOf_lt_length_iff.mpr hb')
      rw [← h3, ← h4]
      simp only [e]
    · rw [List.pairwise_filterMap]
      refine List.Pairwise.imp_of_mem ?_ hks
      intro i j hi hj h a ha b hb
      have hi' := hrange i hi
      have hj' := hrange j hj
      rw [hget i hi', hget j hj'] at h
      rw [List.getElem?_eq_getElem hi'] at ha
      rw [List.getElem?_eq_getElem hj'] at hb
      simp only [Option.mem_some_iff, Option.some.injEq] at ha hb
      rw [← ha, ← hb]; exact h
    · exact (pairwise_distinct l).imp (fun h => by omega)
    · rw [List.perm_ext_iff_of_nodup (hperm.nodup_iff.2 hnd) (nodup_distinct l)]
      intro a
      rw [hperm.mem_iff, hmem, mem_distinct]
  rw [e1, hpts, List.map_map]
  congr 1
  apply List.map_congr_left
  intro a ha
  simp only [Function.comp]
  have hlen : k.length = u.length := by rw [hk.length_eq, List.length_range]
  have hinv := argsort_argsort (k := k) (by rw [hlen]; exact hk)
  have hj : u.idxOf a < u.length := List.idxOf_lt_length_iff.mpr ((hmem a).2 ha)
  -- position in the list of points
  have hL : (argsort k).length = u.length := by rw [length_argsort, hlen]
  have hp : (argsort k).getD (u.idxOf a) 0 < k.length := by
    rw [List.getD_eq_getElem?_getD, List.getElem?_eq_getElem (by omega), Option.getD_some]
    have := (argsort_perm k).mem_iff.1 (List.getElem_mem (l := argsort k) (n := u.idxOf a) (by omega))
    simpa using this
  have hkp : k[(argsort k).getD (u.idxOf a) 0] = u.idxOf a := by
    have := congrArg (fun l => l[u.idxOf a]?) hinv
    simp only [List.getElem?_map] at this
    rw [List.getElem?_eq_getElem (by omega), List.getElem?_eq_getElem (by rw [List.length_range]; omega)] at this
    simp only [Option.map_some, List.getElem_range, Option.some.injEq] at this
    rw [List.getD_eq_getElem?_getD, List.getElem?_eq_getElem (by
      rw [← hlen, ← length_argsort] at hj
      have := (argsort_perm k).mem_iff.1 (List.getElem_mem hj)
      simpa using this), Option.getD_some] at this
    refine Eq.trans ?_ this
    congr 1
    rw [List.getD_eq_getElem?_getD, List.getElem?_eq_getElem (by omega), Option.getD_some]
  have hmap : k.filterMap (fun i => u[i]?) = k.pmap (fun i h => u[i]'h) hrange := by
    clear hpts hperm e1 hks hkp hp hL hinv hlen hk
    induction k with
    | nil => rfl
    | cons i k ih =>
      rw [List.filterMap_cons, List.getElem?_eq_getElem (hrange i (by simp))]
      simp only [List.pmap_cons]
      rw [ih (fun j hj => hrange j (by simp [hj]))]
  have hfin : (distinct l)[(argsort k).getD (u.idxOf a) 0]? = some a := by
    rw [← hpts, hmap, List.getElem?_eq_getElem (by rw [List.length_pmap]; exact hp), List.getElem_pmap]
    simp only [hkp]
    rw [List.getElem_idxOf]
  obtain ⟨h1, h2⟩ := List.getElem?_eq_some_iff.mp hfin
  conv => rhs; rw [← h2]
  rw [(nodup_distinct l).idxOf_getElem]

/-- Every entry is found at its number. -/
theorem distinct_idxOf [DecidableEq α] {l : List α} {a : α} (h : a ∈ l) :
    (distinct l)[(distinct l).idxOf a]? = some a := by
  have := List.idxOf_lt_length_iff.mpr (mem_distinct.2 h)
  rw [List.getElem?_eq_getElem this, List.getElem_idxOf]

/-- The same without the numbers: some function finds every entry. -/
theorem uniqueStable_spec [DecidableEq α] (le : α → α → Bool) (l : List α) :
    ∃ g : α → Nat, uniqueStable le l = (distinct l, l.map g) ∧
      ∀ a ∈ l, (distinct l)[g a]? = some a :=
  ⟨_, uniqueStable_eq le l, fun _ h => distinct_idxOf h⟩

end Meshio
