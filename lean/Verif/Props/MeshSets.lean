/-
Property theorems for the conversions between sets and data: C05, C06, C07, C02.
-/
import Verif.Proofs.MeshSets
import Verif.Props.MeshInit
namespace Meshio.Props
open Meshio Spec
variable {P R : Type}

/-! ## C05 cell_sets_to_data tags every cell with its set -/

/-- The columns `zip(*cell_sets.values())`: column `k` lists the members on block `k`. -/
theorem zipStar_col (m : Mesh P R) (hne : m.cellSets ≠ []) (hsets : SetsOk m) (k : Nat)
    (hk : k < m.cells.length) :
    ∃ col, (zipStar m.cellSets.values)[k]? = some col ∧
      ∀ i : Nat, col[i]? = (m.cellSets[i]?).bind (fun km => km.2[k]?) := by
  have hv : m.cellSets.values ≠ [] := by simpa [Dict.values] using hne
  have hl : ∀ l ∈ m.cellSets.values, l.length = m.cells.length := by
    intro l hl
    obtain ⟨km, h1, rfl⟩ := List.mem_map.mp hl
    exact hsets km h1
  refine ⟨_, zipStar_getElem? hv hl k hk, ?_⟩
  intro i
  rw [filterMap_getElem? hl k hk i]
  simp only [Dict.values, List.getElem?_map]
  cases m.cellSets[i]? <;> rfl

/-- C05: after `cell_sets_to_data` the mesh has no cell sets, one new integer entry
(under the given name, or the set names joined by "-") with one value per cell: the
number of the last set containing the cell, or -1; everything else is unchanged. -/
theorem C05_tags (m m' : Mesh P R) (hne : m.cellSets ≠ []) (hsets : SetsOk m)
    (name : Option String) (h : m.cellSetsToData name = .ok m') :
    ∃ arrs : List (List Int),
      m' = { m with
        cellSets := []
        cellData := m.cellData.set (name.getD (pyJoinS "-" (m.cellSets.map (·.1))))
          (arrs.map intArr) } ∧
      arrs.map List.length = m.cells.map (fun c => c.data.rows.length) ∧
      ∀ (k : Nat) arr j v, arrs[k]? = some arr → arr[j]? = some v →
        IsTag (m.cellSets.map (fun km => (km.2[k]?).join)) j v := by
  unfold Mesh.cellSetsToData at h
  have hpos : m.cellSets.length > 0 := List.length_pos_iff.mpr hne
  rw [if_pos hpos] at h
  split at h
  · cases h
  · next arrs harrs =>
    cases h
    obtain ⟨h1, h2, h3⟩ := tagBlocks_ok harrs
    have hv : m.cellSets.values ≠ [] := by simpa [Dict.values] using hne
    have hl : ∀ l ∈ m.cellSets.values, l.length = m.cells.length := by
      intro l hl
      obtain ⟨km, h1, rfl⟩ := List.mem_map.mp hl
      exact hsets km h1
    have hlen : arrs.length = m.cells.length := by rw [h1, zipStar_length hv hl]
    refine ⟨arrs, ?_, ?_, ?_⟩
    · cases name <;> rfl
    · apply List.ext_getElem?
      intro k
      simp only [List.getElem?_map]
      cases hk : arrs[k]? with
      | none =>
        have : arrs.length ≤ k := List.getElem?_eq_none_iff.mp hk
        rw [List.getElem?_eq_none (by omega)]
        rfl
      | some arr =>
        obtain ⟨c, col, hc, _, ht⟩ := h3 k arr hk
        rw [hc]
        simp only [Option.map_some, (tagLoop_isTag ht).1]
        rfl
    · intro k arr j v hk hj
      obtain ⟨c, col, hc, hcol, ht⟩ := h3 k arr hk
      have hkl : k < m.cells.length := (List.getElem?_eq_some_iff.mp hc).1
      obtain ⟨col', hcol', hcol''⟩ := zipStar_col m hne hsets k hkl
      rw [hcol] at hcol'; cases hcol'
      have htag := (tagLoop_isTag ht).2 j v hj
      have hcc : ∀ (i : Nat) (cc : List Nat),
          (m.cellSets.map (fun km => (km.2[k]?).join))[i]? = some (some cc) ↔ col[i]? = some (some cc) := by
        intro i cc
        rw [hcol'' i, List.getElem?_map]
        cases m.cellSets[i]? with
        | none => simp
        | some km =>
          simp only [Option.map_some, Option.bind_some, Option.some.injEq]
          cases km.2[k]? with
          | none => simp
          | some o => simp
      unfold IsTag at htag ⊢
      simp only [hcc]
      exact htag

/-- C05: the conversion succeeds exactly if all members are cells of the mesh. -/
theorem C05_succeeds_iff (m : Mesh P R) (hne : m.cellSets ≠ []) (hsets : SetsOk m)
    (name : Option String) :
    (∃ m', m.cellSetsToData name = .ok m') ↔ CellSetsInRange m := by
  have hpos : m.cellSets.length > 0 := List.length_pos_iff.mpr hne
  have hv : m.cellSets.values ≠ [] := by simpa [Dict.values] using hne
  have hl : ∀ l ∈ m.cellSets.values, l.length = m.cells.length := by
    intro l hl
    obtain ⟨km, h1, rfl⟩ := List.mem_map.mp hl
    exact hsets km h1
  constructor
  · rintro ⟨m', h⟩
    unfold Mesh.cellSetsToData at h
    rw [if_pos hpos] at h
    split at h
    · cases h
    · next arrs harrs =>
      obtain ⟨h1, h2, h3⟩ := tagBlocks_ok harrs
      intro km hkm k j hin
      obtain ⟨ms, hms, hj⟩ := hin
      have hk : k < m.cells.length := by
        rw [← hsets km hkm]; exact (List.getElem?_eq_some_iff.mp hms).1
      have hka : k < arrs.length := by rw [h1, zipStar_length hv hl]; exact hk
      obtain ⟨c, col, hc, hcol, ht⟩ := h3 k _ (List.getElem?_eq_getElem hka)
      refine ⟨c, hc, ?_⟩
      obtain ⟨col', hcol', hcol''⟩ := zipStar_col m hne hsets k hk
      rw [hcol] at hcol'; cases hcol'
      obtain ⟨i, hi⟩ := List.getElem?_of_mem hkm
      have : col[i]? = some (some ms) := by rw [hcol'' i, hi]; exact hms
      have hmem := List.mem_of_getElem? this
      have := (tagLoop_ok ht).2.1 ms hmem j hj
      simpa [CellBlock.len, NArr.len] using this
  · intro hr
    unfold Mesh.cellSetsToData
    rw [if_pos hpos]
    obtain ⟨arrs, harrs⟩ := tagBlocks_of_range (cells := m.cells)
      (cols := zipStar m.cellSets.values) (by rw [zipStar_length hv hl]; exact Nat.le_refl _) (by
        intro k c col hc hcol cc hcc j hj
        have hk : k < m.cells.length := (List.getElem?_eq_some_iff.mp hc).1
        obtain ⟨col', hcol', hcol''⟩ := zipStar_col m hne hsets k hk
        rw [hcol] at hcol'; cases hcol'
        obtain ⟨i, hi⟩ := List.getElem?_of_mem hcc
        rw [hcol'' i] at hi
        cases hkm : m.cellSets[i]? with
        | none => rw [hkm] at hi; cases hi
        | some km =>
          rw [hkm] at hi
          obtain ⟨c', hc', hj'⟩ := hr km (List.mem_of_getElem? hkm) k j ⟨cc, hi, hj⟩
          rw [hc] at hc'; cases hc'
          exact hj')
    rw [harrs]
    exact ⟨_, rfl⟩

/-- Without cell sets the call changes nothing. -/
theorem C05_no_sets (m : Mesh P R) (name : Option String) (h : m.cellSets = []) :
    m.cellSetsToData name = .ok m := by
  simp [Mesh.cellSetsToData, h]

example : demoMesh.cellSets ≠ [] ∧ SetsOk demoMesh ∧
    ∃ m', demoMesh.cellSetsToData none = .ok m' ∧
      m'.cellData.get? "A-B" = some [intArr [0, 1], intArr [0], intArr [1]] := by
  refine ⟨by decide, by unfold SetsOk; decide, ⟨_, rfl, by decide⟩⟩

/-! ## C06 Cell sets survive conversion to data and back -/

/-- C06: for a partition of the cells into named sets with distinct, dash-free names,
converting to data and back restores the same names in the same order with the same
cells, and leaves everything else as it was. -/
theorem C06_roundtrip (m : Mesh P R) (hp : CellPartition m)
    (hnodup : (m.cellSets.map (·.1)).Nodup) (hdash : ∀ n ∈ m.cellSets.map (·.1), '-' ∉ n.toList)
    (hfresh : pyJoinS "-" (m.cellSets.map (·.1)) ∉ m.cellData.map (·.1)) :
    ∃ m1 m2, m.cellSetsToData none = .ok m1 ∧
      m1.cellDataToSets (pyJoinS "-" (m.cellSets.map (·.1))) = .ok m2 ∧
      m2.cellSets.map (·.1) = m.cellSets.map (·.1) ∧
      (∀ (i : Nat) km km', m.cellSets[i]? = some km → m2.cellSets[i]? = some km' →
        km'.2.length = km.2.length ∧ ∀ k j, InSet km'.2 k j ↔ InSet km.2 k j) ∧
      m2.points = m.points ∧ m2.cells = m.cells ∧ m2.pointData = m.pointData ∧
      m2.cellData = m.cellData ∧ m2.pointSets = m.pointSets := by
  obtain ⟨m1, h1⟩ := (C05_succeeds_iff m hp.nonempty hp.sets none).mpr hp.range
  obtain ⟨arrs, e1, hlens, htags⟩ := C05_tags m m1 hp.nonempty hp.sets none h1
  have hlenA : arrs.length = m.cells.length := by
    have := congrArg List.length hlens; simpa using this
  -- value of each cell: the number of the unique set containing it
  have hval : ∀ (k : Nat) arr j v, arrs[k]? = some arr → arr[j]? = some v →
      ∀ i : Nat, (v = (i : Int) ∧ i < m.cellSets.length) ↔
        ∃ km, m.cellSets[i]? = some km ∧ InSet km.2 k j := by
    intro k arr j v hk hj i
    have ht := htags k arr j v hk hj
    have hkl : k < m.cells.length := by rw [← hlenA]; exact (List.getElem?_eq_some_iff.mp hk).1
    have hjl : j < (m.cells[k]).data.rows.length := by
      have := congrArg (fun l => l[k]?) hlens
      simp only [List.getElem?_map, hk, List.getElem?_eq_getElem hkl, Option.map_some,
        Option.some.injEq] at this
      rw [← this]; exact (List.getElem?_eq_some_iff.mp hj).1
    have hcc : ∀ (i : Nat) (cc : List Nat),
        (m.cellSets.map (fun km => (km.2[k]?).join))[i]? = some (some cc) ↔
          ∃ km, m.cellSets[i]? = some km ∧ km.2[k]? = some (some cc) := by
      intro i cc
      rw [List.getElem?_map]
      cases m.cellSets[i]? with
      | none => simp
      | some km =>
        simp only [Option.map_some, Option.some.injEq, exists_eq_left']
        cases km.2[k]? with
        | none => simp
        | some o => simp
    obtain ⟨km0, hkm0, hin0⟩ := hp.cover k _ j (List.getElem?_eq_getElem hkl) hjl
    obtain ⟨i0, hi0⟩ := List.getElem?_of_mem hkm0
    obtain ⟨ms0, hms0, hj0⟩ := hin0
    rcases ht with ⟨_, hno⟩ | ⟨i1, cc, hv, hi1, hjc, _⟩
    · exact absurd hj0 (hno i0 ms0 ((hcc i0 ms0).mpr ⟨km0, hi0, hms0⟩))
    · obtain ⟨km1, hkm1, hcc1⟩ := (hcc i1 cc).mp hi1
      constructor
      · rintro ⟨hvi, hi⟩
        have : i1 = i := by rw [hv] at hvi; omega
        subst this
        exact ⟨km1, hkm1, cc, hcc1, hjc⟩
      · rintro ⟨km, hkm, hin⟩
        have : i = i1 := hp.disjoint k j i i1 km km1 hkm hkm1 hin ⟨cc, hcc1, hjc⟩
        subst this
        exact ⟨hv, (List.getElem?_eq_some_iff.mp hkm).1⟩
  -- the key and its entry
  have hkey : pyJoinS "-" (m.cellSets.map (·.1)) = pyJoinS "-" m.cellSets.keys := rfl
  have hdata : m1.cellData.get? (pyJoinS "-" (m.cellSets.map (·.1))) = some (arrs.map intArr) := by
    rw [e1]; simp [Dict.get?_set]
  have hcellsne : arrs ≠ [] := by
    intro he
    obtain ⟨km, hkm⟩ := List.exists_mem_of_ne_nil _ hp.nonempty
    obtain ⟨k, j, hin⟩ := hp.inhabited km hkm
    obtain ⟨c, hc, _⟩ := hp.range km hkm k j hin
    have : k < m.cells.length := (List.getElem?_eq_some_iff.mp hc).1
    rw [← hlenA, he] at this; simp at this
  have hconc : npConcat ((arrs.map (intArr (R := R))).map (·.arr)) =
      .ok ⟨[], ((arrs.map (fun a => (a.map (Val.int (R := R)))))).flatten⟩ := by
    have := npConcat_of_tails (blocks := (arrs.map (intArr (R := R))).map (·.arr)) (t := [])
      (by simpa using hcellsne) (by
        intro b hb
        simp only [List.map_map, List.mem_map] at hb
        obtain ⟨a, _, rfl⟩ := hb; rfl)
    rw [this]
    simp [List.map_map, Function.comp_def, intArr]
  have hflat : (((arrs.map (fun a => (a.map (Val.int (R := R)))))).flatten).filterMap Val.toInt?
      = arrs.flatten := by
    have hid : (Val.toInt? (R := R)) ∘ Val.int = some := rfl
    rw [← List.map_flatten, List.filterMap_map, hid, List.filterMap_some]
  have htagsEq : npUnique arrs.flatten =
      (List.range m.cellSets.length).map (fun (i : Nat) => (i : Int)) := by
    apply npUnique_eq_range
    intro x
    constructor
    · intro hx
      obtain ⟨arr, harr, hxa⟩ := List.mem_flatten.mp hx
      obtain ⟨k, hk⟩ := List.getElem?_of_mem harr
      obtain ⟨j, hj⟩ := List.getElem?_of_mem hxa
      have ht := htags k arr j x hk hj
      have hv := hval k arr j x hk hj
      have hkl : k < m.cells.length := by rw [← hlenA]; exact (List.getElem?_eq_some_iff.mp hk).1
      have hjl : j < (m.cells[k]).data.rows.length := by
        have := congrArg (fun l => l[k]?) hlens
        simp only [List.getElem?_map, hk, List.getElem?_eq_getElem hkl, Option.map_some,
          Option.some.injEq] at this
        rw [← this]; exact (List.getElem?_eq_some_iff.mp hj).1
      obtain ⟨km0, hkm0, hin0⟩ := hp.cover k _ j (List.getElem?_eq_getElem hkl) hjl
      obtain ⟨i0, hi0⟩ := List.getElem?_of_mem hkm0
      have := (hv i0).mpr ⟨km0, hi0, hin0⟩
      exact ⟨i0, this.2, this.1⟩
    · rintro ⟨i, hi, rfl⟩
      obtain ⟨k, j, hin⟩ := hp.inhabited _ (List.getElem_mem hi)
      obtain ⟨c, hc, hj⟩ := hp.range _ (List.getElem_mem hi) k j hin
      have hka : k < arrs.length := by
        rw [hlenA]; exact (List.getElem?_eq_some_iff.mp hc).1
      have hja : j < (arrs[k]).length := by
        have := congrArg (fun l => l[k]?) hlens
        simp only [List.getElem?_map, hc, List.getElem?_eq_getElem hka, Option.map_some,
          Option.some.injEq] at this
        rw [this]; exact hj
      have hv := (hval k _ j _ (List.getElem?_eq_getElem hka) (List.getElem?_eq_getElem hja) i).mpr
        ⟨_, List.getElem?_eq_getElem hi, hin⟩
      rw [← hv.1]
      exact List.mem_flatten.mpr ⟨_, List.getElem_mem hka, List.getElem_mem hja⟩
  have hnames : setNames ("set-" ++ pyJoinS "-" (m.cellSets.map (·.1)) ++ "-")
      (pyJoinS "-" (m.cellSets.map (·.1)))
      ((List.range m.cellSets.length).map (fun (i : Nat) => (i : Int))) = m.cellSets.map (·.1) := by
    have hsplit : pySplit '-' (pyJoinS "-" (m.cellSets.map (·.1))) = m.cellSets.map (·.1) := by
      rw [pyJoinS_dash]
      exact pySplit_pyJoin '-' _ (by simpa using hp.nonempty) hdash
    unfold setNames
    rw [hsplit, dedup_nodup hnodup]
    simp
  let f : Int → List (Option (List Nat)) :=
    fun t => (arrs.map (intArr (R := R))).map (fun d => some (npWhere d.arr.rows t))
  have hcd : m1.cellData.erase (pyJoinS "-" (m.cellSets.map (·.1))) = m.cellData := by
    rw [e1]
    simp only [Option.getD_none]
    have : ∀ (d : Dict (List (DataArr R))) (k : String) (v : List (DataArr R)), k ∉ d.map (·.1) →
        (Dict.set d k v).erase k = d := by
      intro d k v hk
      induction d with
      | nil => simp [Dict.set, Dict.erase]
      | cons x d ih =>
        obtain ⟨a, b⟩ := x
        simp only [List.map_cons, List.mem_cons, not_or] at hk
        have hne : a ≠ k := fun e => hk.1 e.symm
        simp only [Dict.set, if_neg hne, Dict.erase, ih hk.2]
    exact this _ _ _ hfresh
  have hm1 : m1.cellSets = [] := by rw [e1]
  refine ⟨m1, { m1 with
      cellSets := ((m.cellSets.map (·.1)).zip
        ((List.range m.cellSets.length).map (fun (i : Nat) => (i : Int)))).foldl
          (fun s nt => s.set nt.1 (f nt.2)) m1.cellSets
      cellData := m1.cellData.erase (pyJoinS "-" (m.cellSets.map (·.1))) }, h1, ?_, ?_⟩
  · unfold Mesh.cellDataToSets
    rw [hdata]
    have hall : (arrs.map (intArr (R := R))).all (·.isInt) = true := by
      rw [List.all_eq_true]; intro x hx
      obtain ⟨a, _, rfl⟩ := List.mem_map.mp hx; rfl
    simp only [hall, Bool.not_true, Bool.false_eq_true, if_false, hconc, ne_eq, not_true_eq_false,
      hflat, htagsEq, hnames]
    rfl
  · have hfoldl := foldl_dict_set_keys ((m.cellSets.map (·.1)).zip
        ((List.range m.cellSets.length).map (fun (i : Nat) => (i : Int)))) f []
        (by simp only [Dict.keys, List.map_nil, List.nil_append]
            rw [List.map_fst_zip (by simp)]; exact hnodup)
    rw [hm1, hfoldl]
    simp only [List.nil_append]
    refine ⟨?_, ?_, by rw [e1], by rw [e1], by rw [e1], hcd, by rw [e1]⟩
    · rw [List.map_map]
      have : ((fun x : String × List (Option (List Nat)) => x.1) ∘
          fun nt : String × Int => (nt.1, f nt.2)) = (fun x : String × Int => x.1) := rfl
      rw [this, List.map_fst_zip (by simp)]
    · intro i km km' hkm hkm'
      have hi : i < m.cellSets.length := (List.getElem?_eq_some_iff.mp hkm).1
      have hz : ((m.cellSets.map (·.1)).zip ((List.range m.cellSets.length).map
          (fun (i : Nat) => (i : Int))))[i]? = some (km.1, (i : Int)) := by
        rw [List.getElem?_zip_eq_some]
        exact ⟨by simp [hkm], by simp [hi]⟩
      rw [List.getElem?_map, hz] at hkm'
      simp only [Option.map_some, Option.some.injEq] at hkm'
      subst hkm'
      refine ⟨?_, ?_⟩
      · simp only [f, List.length_map]
        rw [hp.sets km (List.mem_of_getElem? hkm), hlenA]
      · intro k j
        constructor
        · rintro ⟨ms, hms, hj⟩
          simp only [f, List.map_map, List.getElem?_map] at hms
          cases hk : arrs[k]? with
          | none => rw [hk] at hms; cases hms
          | some arr =>
            rw [hk] at hms
            simp only [Option.map_some, Function.comp_apply, Option.some.injEq] at hms
            subst hms
            rw [mem_npWhere] at hj
            simp only [intArr, List.getElem?_map] at hj
            cases hv : arr[j]? with
            | none => rw [hv] at hj; cases hj
            | some v =>
              rw [hv] at hj
              simp only [Option.map_some, Option.bind_some, Val.toInt?, Option.some.injEq] at hj
              obtain ⟨km2, h2, h3⟩ := (hval k arr j v hk hv i).mp ⟨hj, hi⟩
              rw [hkm] at h2; cases h2
              exact h3
        · intro hin
          obtain ⟨c, hc, hj⟩ := hp.range km (List.mem_of_getElem? hkm) k j hin
          have hka : k < arrs.length := by
            rw [hlenA]; exact (List.getElem?_eq_some_iff.mp hc).1
          have hja : j < (arrs[k]).length := by
            have := congrArg (fun l => l[k]?) hlens
            simp only [List.getElem?_map, hc, List.getElem?_eq_getElem hka, Option.map_some,
              Option.some.injEq] at this
            rw [this]; exact hj
          have hv := (hval k _ j _ (List.getElem?_eq_getElem hka) (List.getElem?_eq_getElem hja) i).mpr
            ⟨_, hkm, hin⟩
          refine ⟨npWhere ((arrs[k]).map Val.int : List (Val R)) i, ?_, ?_⟩
          · simp [f, List.getElem?_map, List.getElem?_eq_getElem hka, intArr]
          · rw [mem_npWhere]
            simp [List.getElem?_map, List.getElem?_eq_getElem hja, Val.toInt?, hv.1]

/-- The demo mesh meets the hypotheses of `C06_roundtrip`. -/
theorem demo_cellPartition : CellPartition demoMesh where
  nonempty := by decide
  sets := by unfold SetsOk; decide
  range := by
    intro km hkm k j ⟨ms, h1, h2⟩
    simp only [demoMesh, List.mem_cons, List.not_mem_nil, or_false] at hkm
    rcases hkm with h | h <;> subst h <;>
    · match k, h1 with
      | 0, h1 => simp at h1; subst h1; exact ⟨_, rfl, by simp at h2 ⊢; omega⟩
      | 1, h1 => simp at h1; subst h1; simp at h2 <;> exact ⟨_, rfl, by simp; omega⟩
      | 2, h1 => simp at h1; subst h1; simp at h2 <;> exact ⟨_, rfl, by simp; omega⟩
  cover := by
    intro k c j h1 h2
    match k, h1 with
    | 0, h1 =>
      simp only [demoMesh, List.getElem?_cons_zero, Option.some.injEq] at h1; subst h1
      match j, h2 with
      | 0, _ => exact ⟨_, List.mem_cons_self, [0], rfl, by decide⟩
      | 1, _ => exact ⟨_, List.mem_cons_of_mem _ List.mem_cons_self, [1], rfl, by decide⟩
    | 1, h1 =>
      simp [demoMesh] at h1; subst h1
      match j, h2 with
      | 0, _ => exact ⟨_, List.mem_cons_self, [0], rfl, by decide⟩
    | 2, h1 =>
      simp [demoMesh] at h1; subst h1
      match j, h2 with
      | 0, _ => exact ⟨_, List.mem_cons_of_mem _ List.mem_cons_self, [0], rfl, by decide⟩
  disjoint := by
    intro k j i i' km km' h1 h2 ⟨ms, h3, h4⟩ ⟨ms', h5, h6⟩
    match i, i', h1, h2 with
    | 0, 0, _, _ => rfl
    | 1, 1, _, _ => rfl
    | 0, 1, h1, h2 =>
      simp [demoMesh] at h1 h2; subst h1; subst h2
      match k, h3, h5 with
      | 0, h3, h5 => simp at h3 h5; subst h3; subst h5; simp at h4 h6; omega
      | 1, h3, h5 => simp at h3 h5; subst h3; subst h5; simp at h6
      | 2, h3, h5 => simp at h3 h5; subst h3; subst h5; simp at h4
    | 1, 0, h1, h2 =>
      simp [demoMesh] at h1 h2; subst h1; subst h2
      match k, h3, h5 with
      | 0, h3, h5 => simp at h3 h5; subst h3; subst h5; simp at h4 h6; omega
      | 1, h3, h5 => simp at h3 h5; subst h3; subst h5; simp at h4
      | 2, h3, h5 => simp at h3 h5; subst h3; subst h5; simp at h6
  inhabited := by
    intro km hkm
    simp only [demoMesh, List.mem_cons, List.not_mem_nil, or_false] at hkm
    rcases hkm with h | h <;> subst h
    · exact ⟨0, 0, [0], rfl, by decide⟩
    · exact ⟨0, 1, [1], rfl, by decide⟩

example : CellPartition demoMesh ∧ (demoMesh.cellSets.map (·.1)).Nodup ∧
    (∀ n ∈ demoMesh.cellSets.map (·.1), '-' ∉ n.toList) ∧
    pyJoinS "-" (demoMesh.cellSets.map (·.1)) ∉ demoMesh.cellData.map (·.1) :=
  ⟨demo_cellPartition, by decide, by decide, by decide⟩

/-- Without the covering and non-emptiness assumptions the round trip is not just
lossy, it silently swaps names: set "A" = {cell 0}, set "B" empty, cell 1 in no set.
After the round trip "A" holds cell 1 and "B" holds cell 0. -/
theorem C06_uncovered_mislabels :
    (do let m1 ← Mesh.cellSetsToData (P := Nat) (R := Nat)
          { points := [0, 1, 2], cells := [⟨"line", ⟨[2], [[0, 1], [1, 2]]⟩⟩], pointData := [],
            cellData := [], pointSets := [], cellSets := [("A", [some [0]]), ("B", [some []])] } none
        let m2 ← m1.cellDataToSets "A-B"
        pure m2.cellSets) =
      Except.ok (ε := Err) [("A", [some [1]]), ("B", [some [0]])] := by
  decide

/-! ### What cell_data_to_sets does in general -/

/-- The integer value of cell `j` of block `k`. -/
def cellValue (data : List (DataArr R)) (k j : Nat) : Option Int :=
  (data[k]?).bind (fun d => (d.arr.rows[j]?).bind Val.toInt?)

/-- C06: `cell_data_to_sets` adds one set per distinct value `t`, containing exactly
the cells with that value, under distinct names; the data entry is removed.  The
names are the dash-separated parts of the key if their number (without repetitions)
equals the number of values, else `set-<key>-<value>`. -/
theorem C06_data_to_sets (m m' : Mesh P R) (key : String)
    (h : m.cellDataToSets key = .ok m') :
    ∃ (data : List (DataArr R)) (names : List String) (tags : List Int),
      m.cellData.get? key = some data ∧ names.length = tags.length ∧ names.Nodup ∧
      tags.Pairwise (· < ·) ∧
      (∀ t, t ∈ tags ↔ ∃ d ∈ data, .int t ∈ d.arr.rows) ∧
      (∀ (i : Nat) name t, names[i]? = some name → tags[i]? = some t →
        (name = "set-" ++ key ++ "-" ++ strInt t ∨ (dedup (pySplit '-' key))[i]? = some name) ∧
        ∃ ml, m'.cellSets.get? name = some ml ∧ ml.length = data.length ∧
          ∀ k j, InSet ml k j ↔ cellValue data k j = some t) ∧
      (∀ name, name ∉ names → m'.cellSets.get? name = m.cellSets.get? name) ∧
      m'.cellData = m.cellData.erase key ∧ m'.points = m.points ∧ m'.cells = m.cells ∧
      m'.pointData = m.pointData ∧ m'.pointSets = m.pointSets := by
  unfold Mesh.cellDataToSets at h
  split at h
  · cases h
  · next data hdata =>
    split at h
    · cases h
    · split at h
      · cases h
      · next a ha =>
        split at h
        · cases h
        · cases h
          have hrows := (npConcat_ok ha).2.2
          have hlenN := setNames_length ("set-" ++ key ++ "-") key
            (npUnique (a.rows.filterMap Val.toInt?))
          have hnd := setNames_nodup ("set-" ++ key ++ "-") key
            (tags := npUnique (a.rows.filterMap Val.toInt?)) (pairwise_npUnique _)
          refine ⟨data, setNames ("set-" ++ key ++ "-") key (npUnique (a.rows.filterMap Val.toInt?)),
            npUnique (a.rows.filterMap Val.toInt?), hdata, hlenN, hnd, pairwise_npUnique _,
            ?_, ?_, ?_, rfl, rfl, rfl, rfl, rfl⟩
          · intro t
            rw [mem_npUnique, List.mem_filterMap]
            constructor
            · rintro ⟨v, hv, hvt⟩
              rw [hrows] at hv
              obtain ⟨r, hr, hvr⟩ := List.mem_flatten.mp hv
              simp only [List.map_map, List.mem_map] at hr
              obtain ⟨d, hd, rfl⟩ := hr
              refine ⟨d, hd, ?_⟩
              cases v with
              | int i => simp only [Val.toInt?, Option.some.injEq] at hvt; rw [← hvt]; exact hvr
              | other r => cases hvt
            · rintro ⟨d, hd, ht⟩
              refine ⟨.int t, ?_, rfl⟩
              rw [hrows]
              exact List.mem_flatten.mpr ⟨d.arr.rows, by
                simp only [List.map_map, List.mem_map]; exact ⟨d, hd, rfl⟩, ht⟩
          · intro i name t hi ht
            refine ⟨?_, ?_⟩
            · rcases setNames_getElem? hi ht with h1 | h1
              · exact .inl h1
              · exact .inr h1
            · refine ⟨_, foldl_set_get? _ (fun t => data.map (fun d => some (npWhere d.arr.rows t)))
                _ (by rw [List.map_fst_zip (by omega)]; exact hnd) i name t
                (List.getElem?_zip_eq_some.mpr ⟨hi, ht⟩), by simp, ?_⟩
              intro k j
              unfold InSet cellValue
              simp only [List.getElem?_map]
              cases data[k]? with
              | none => simp
              | some d => simp [mem_npWhere]
          · intro name hn
            refine foldl_set_get?_ne _ (fun t => data.map (fun d => some (npWhere d.arr.rows t)))
              _ name ?_
            intro nt hnt he
            apply hn
            rw [← he]
            exact (List.of_mem_zip hnt).1

example : ∃ m', demoMesh.cellDataToSets "a" = .ok m' ∧
    m'.cellSets.get? "set-a-7" = some [some [0], some [], some [0]] := ⟨_, rfl, by decide⟩

/-! ## C07 Point sets survive conversion to data and back -/

/-- C07: after `point_sets_to_data` every point carries the number of the last set
containing it, or -1; the sets are removed and all else is unchanged. -/
theorem C07_tags (m m' : Mesh P R) (hne : m.pointSets ≠ []) (joinChar : String)
    (h : m.pointSetsToData joinChar = .ok m') :
    ∃ arr : List Int,
      m' = { m with
        pointSets := []
        pointData := m.pointData.set (pyJoinS joinChar (m.pointSets.map (·.1))) (intArr arr) } ∧
      arr.length = m.points.length ∧
      ∀ (j : Nat) v, arr[j]? = some v → IsTag (m.pointSets.map (fun km => some km.2)) j v := by
  unfold Mesh.pointSetsToData at h
  rw [if_pos (List.length_pos_iff.mpr hne)] at h
  split at h
  · cases h
  · next arr harr =>
    cases h
    rw [tagPoints_eq] at harr
    obtain ⟨h1, h2⟩ := tagLoop_isTag harr
    refine ⟨arr, rfl, h1, ?_⟩
    intro j v hv
    have := h2 j v hv
    simpa [Dict.values, Function.comp_def] using this

/-- C07: it succeeds exactly if all members are points of the mesh. -/
theorem C07_succeeds_iff (m : Mesh P R) (hne : m.pointSets ≠ []) (joinChar : String) :
    (∃ m', m.pointSetsToData joinChar = .ok m') ↔
      ∀ km ∈ m.pointSets, ∀ j ∈ km.2, j < m.points.length := by
  unfold Mesh.pointSetsToData
  rw [if_pos (List.length_pos_iff.mpr hne), tagPoints_eq]
  constructor
  · rintro ⟨m', h⟩
    split at h
    · cases h
    · next arr harr =>
      intro km hkm j hj
      have := (tagLoop_ok harr).2.1 km.2 (by
        simp only [Dict.values, List.map_map, List.mem_map]; exact ⟨km, hkm, rfl⟩) j hj
      simpa using this
  · intro hr
    obtain ⟨arr, harr⟩ := tagLoop_of_range (l := m.pointSets.values.map some)
      (arr := List.replicate m.points.length (-1)) (i := 0) (by
        intro cc hcc j hj
        simp only [Dict.values, List.map_map, List.mem_map] at hcc
        obtain ⟨km, hkm, he⟩ := hcc
        simp only [Function.comp_apply, Option.some.injEq] at he
        subst he
        simpa using hr km hkm j hj)
    rw [harr]
    exact ⟨_, rfl⟩

/-- C07: `point_data_to_sets` adds one set per distinct value with exactly the points
carrying it, under distinct names (parts of the key, or `set-key-<value>` with the
literal word "key"). -/
theorem C07_data_to_sets (m m' : Mesh P R) (key : String)
    (h : m.pointDataToSets key = .ok m') :
    ∃ (data : DataArr R) (names : List String) (tags : List Int),
      m.pointData.get? key = some data ∧ names.length = tags.length ∧ names.Nodup ∧
      tags.Pairwise (· < ·) ∧ (∀ t, t ∈ tags ↔ .int t ∈ data.arr.rows) ∧
      (∀ (i : Nat) name t, names[i]? = some name → tags[i]? = some t →
        (name = "set-key-" ++ strInt t ∨ (dedup (pySplit '-' key))[i]? = some name) ∧
        ∃ ps, m'.pointSets.get? name = some ps ∧
          ∀ j, j ∈ ps ↔ (data.arr.rows[j]?).bind Val.toInt? = some t) ∧
      (∀ name, name ∉ names → m'.pointSets.get? name = m.pointSets.get? name) ∧
      m'.pointData = m.pointData.erase key ∧ m'.points = m.points ∧ m'.cells = m.cells ∧
      m'.cellData = m.cellData ∧ m'.cellSets = m.cellSets := by
  unfold Mesh.pointDataToSets at h
  split at h
  · cases h
  · next data hdata =>
    split at h
    · cases h
    · split at h
      · cases h
      · cases h
        have hlenN := setNames_length "set-key-" key
          (npUnique (data.arr.rows.filterMap Val.toInt?))
        have hnd := setNames_nodup "set-key-" key
          (tags := npUnique (data.arr.rows.filterMap Val.toInt?)) (pairwise_npUnique _)
        refine ⟨data, setNames "set-key-" key (npUnique (data.arr.rows.filterMap Val.toInt?)),
          npUnique (data.arr.rows.filterMap Val.toInt?), hdata, hlenN, hnd, pairwise_npUnique _,
          ?_, ?_, ?_, rfl, rfl, rfl, rfl, rfl⟩
        · intro t
          rw [mem_npUnique, List.mem_filterMap]
          constructor
          · rintro ⟨v, hv, hvt⟩
            cases v with
            | int i => simp only [Val.toInt?, Option.some.injEq] at hvt; rw [← hvt]; exact hv
            | other r => cases hvt
          · intro ht; exact ⟨.int t, ht, rfl⟩
        · intro i name t hi ht
          refine ⟨?_, ?_⟩
          · rcases setNames_getElem? hi ht with h1 | h1
            · exact .inl h1
            · exact .inr h1
          · refine ⟨_, foldl_set_get? _ (fun t => npWhere data.arr.rows t)
              _ (by rw [List.map_fst_zip (by omega)]; exact hnd) i name t
              (List.getElem?_zip_eq_some.mpr ⟨hi, ht⟩), ?_⟩
            intro j
            rw [mem_npWhere]
        · intro name hn
          apply foldl_set_get?_ne
          intro nt hnt he
          apply hn
          rw [← he]
          exact (List.of_mem_zip hnt).1

/-- C07: a partition of the points into sets with distinct, dash-free names survives
conversion to data and back. -/
theorem C07_roundtrip (m : Mesh P R) (hp : PointPartition m)
    (hnodup : (m.pointSets.map (·.1)).Nodup) (hdash : ∀ n ∈ m.pointSets.map (·.1), '-' ∉ n.toList)
    (hfresh : pyJoinS "-" (m.pointSets.map (·.1)) ∉ m.pointData.map (·.1)) :
    ∃ m1 m2, m.pointSetsToData "-" = .ok m1 ∧
      m1.pointDataToSets (pyJoinS "-" (m.pointSets.map (·.1))) = .ok m2 ∧
      m2.pointSets.map (·.1) = m.pointSets.map (·.1) ∧
      (∀ (i : Nat) km km', m.pointSets[i]? = some km → m2.pointSets[i]? = some km' →
        ∀ j, j ∈ km'.2 ↔ j ∈ km.2) ∧
      m2.points = m.points ∧ m2.cells = m.cells ∧ m2.pointData = m.pointData ∧
      m2.cellData = m.cellData ∧ m2.cellSets = m.cellSets := by
  obtain ⟨m1, h1⟩ := (C07_succeeds_iff m hp.nonempty "-").mpr hp.range
  obtain ⟨arr, e1, hlen, htags⟩ := C07_tags m m1 hp.nonempty "-" h1
  have hval : ∀ (j : Nat) v, arr[j]? = some v →
      ∀ i : Nat, (v = (i : Int) ∧ i < m.pointSets.length) ↔
        ∃ km, m.pointSets[i]? = some km ∧ j ∈ km.2 := by
    intro j v hj i
    have hjl : j < m.points.length := by rw [← hlen]; exact (List.getElem?_eq_some_iff.mp hj).1
    have hcc : ∀ (i : Nat) (cc : List Nat),
        (m.pointSets.map (fun km => some km.2))[i]? = some (some cc) ↔
          ∃ km, m.pointSets[i]? = some km ∧ km.2 = cc := by
      intro i cc
      rw [List.getElem?_map]
      cases m.pointSets[i]? <;> simp
    obtain ⟨km0, hkm0, hin0⟩ := hp.cover j hjl
    obtain ⟨i0, hi0⟩ := List.getElem?_of_mem hkm0
    rcases htags j v hj with ⟨_, hno⟩ | ⟨i1, cc, hv, hi1, hjc, _⟩
    · exact absurd hin0 (hno i0 km0.2 ((hcc i0 km0.2).mpr ⟨km0, hi0, rfl⟩))
    · obtain ⟨km1, hkm1, hcc1⟩ := (hcc i1 cc).mp hi1
      subst hcc1
      constructor
      · rintro ⟨hvi, hi⟩
        have : i1 = i := by rw [hv] at hvi; omega
        subst this
        exact ⟨km1, hkm1, hjc⟩
      · rintro ⟨km, hkm, hin⟩
        have : i = i1 := hp.disjoint j i i1 km km1 hkm hkm1 hin hjc
        subst this
        exact ⟨hv, (List.getElem?_eq_some_iff.mp hkm).1⟩
  have hdata : m1.pointData.get? (pyJoinS "-" (m.pointSets.map (·.1))) = some (intArr arr) := by
    rw [e1]; simp [Dict.get?_set]
  have hflat : (arr.map (Val.int (R := R))).filterMap Val.toInt? = arr := by
    have hid : (Val.toInt? (R := R)) ∘ Val.int = some := rfl
    rw [List.filterMap_map, hid, List.filterMap_some]
  have htagsEq : npUnique arr =
      (List.range m.pointSets.length).map (fun (i : Nat) => (i : Int)) := by
    apply npUnique_eq_range
    intro x
    constructor
    · intro hx
      obtain ⟨j, hj⟩ := List.getElem?_of_mem hx
      have hjl : j < m.points.length := by rw [← hlen]; exact (List.getElem?_eq_some_iff.mp hj).1
      obtain ⟨km0, hkm0, hin0⟩ := hp.cover j hjl
      obtain ⟨i0, hi0⟩ := List.getElem?_of_mem hkm0
      have := (hval j x hj i0).mpr ⟨km0, hi0, hin0⟩
      exact ⟨i0, this.2, this.1⟩
    · rintro ⟨i, hi, rfl⟩
      obtain ⟨j, hin⟩ := List.exists_mem_of_ne_nil _ (hp.inhabited _ (List.getElem_mem hi))
      have hj := hp.range _ (List.getElem_mem hi) j hin
      have hja : j < arr.length := by rw [hlen]; exact hj
      have hv := (hval j _ (List.getElem?_eq_getElem hja) i).mpr
        ⟨_, List.getElem?_eq_getElem hi, hin⟩
      rw [← hv.1]
      exact List.getElem_mem hja
  have hnames : setNames "set-key-" (pyJoinS "-" (m.pointSets.map (·.1)))
      ((List.range m.pointSets.length).map (fun (i : Nat) => (i : Int))) = m.pointSets.map (·.1) := by
    have hsplit : pySplit '-' (pyJoinS "-" (m.pointSets.map (·.1))) = m.pointSets.map (·.1) := by
      rw [pyJoinS_dash]
      exact pySplit_pyJoin '-' _ (by simpa using hp.nonempty) hdash
    unfold setNames
    rw [hsplit, dedup_nodup hnodup]
    simp
  let f : Int → List Nat := fun t => npWhere ((arr.map Val.int : List (Val R))) t
  have hm1 : m1.pointSets = [] := by rw [e1]
  have hpd : m1.pointData.erase (pyJoinS "-" (m.pointSets.map (·.1))) = m.pointData := by
    rw [e1]; exact erase_set_of_not_mem _ _ _ hfresh
  refine ⟨m1, { m1 with
      pointSets := ((m.pointSets.map (·.1)).zip
        ((List.range m.pointSets.length).map (fun (i : Nat) => (i : Int)))).foldl
          (fun s nt => s.set nt.1 (f nt.2)) m1.pointSets
      pointData := m1.pointData.erase (pyJoinS "-" (m.pointSets.map (·.1))) }, h1, ?_, ?_⟩
  · unfold Mesh.pointDataToSets
    rw [hdata]
    simp only [intArr, Bool.not_true, Bool.false_and, Bool.false_eq_true, if_false, ne_eq,
      not_true_eq_false, hflat, htagsEq, hnames]
    rfl
  · have hfoldl := foldl_dict_set_keys ((m.pointSets.map (·.1)).zip
        ((List.range m.pointSets.length).map (fun (i : Nat) => (i : Int)))) f []
        (by simp only [Dict.keys, List.map_nil, List.nil_append]
            rw [List.map_fst_zip (by simp)]; exact hnodup)
    rw [hm1, hfoldl]
    simp only [List.nil_append]
    refine ⟨?_, ?_, by rw [e1], by rw [e1], hpd, by rw [e1], by rw [e1]⟩
    · rw [List.map_map]
      have : ((fun x : String × List Nat => x.1) ∘
          fun nt : String × Int => (nt.1, f nt.2)) = (fun x : String × Int => x.1) := rfl
      rw [this, List.map_fst_zip (by simp)]
    · intro i km km' hkm hkm' j
      have hi : i < m.pointSets.length := (List.getElem?_eq_some_iff.mp hkm).1
      have hz : ((m.pointSets.map (·.1)).zip ((List.range m.pointSets.length).map
          (fun (i : Nat) => (i : Int))))[i]? = some (km.1, (i : Int)) := by
        rw [List.getElem?_zip_eq_some]
        exact ⟨by simp [hkm], by simp [hi]⟩
      rw [List.getElem?_map, hz] at hkm'
      simp only [Option.map_some, Option.some.injEq] at hkm'
      subst hkm'
      simp only [f, mem_npWhere, List.getElem?_map]
      constructor
      · intro hj
        cases hv : arr[j]? with
        | none => rw [hv] at hj; cases hj
        | some v =>
          rw [hv] at hj
          simp only [Option.map_some, Option.bind_some, Val.toInt?, Option.some.injEq] at hj
          obtain ⟨km2, h2, h3⟩ := (hval j v hv i).mp ⟨hj, hi⟩
          rw [hkm] at h2; cases h2
          exact h3
      · intro hin
        have hja : j < arr.length := by
          rw [hlen]; exact hp.range km (List.mem_of_getElem? hkm) j hin
        have hv := (hval j _ (List.getElem?_eq_getElem hja) i).mpr ⟨_, hkm, hin⟩
        simp [List.getElem?_eq_getElem hja, Val.toInt?, hv.1]

/-- The demo mesh meets the hypotheses of `C07_roundtrip`. -/
theorem demo_pointPartition : PointPartition demoMesh where
  nonempty := by decide
  range := by decide
  cover := by decide
  disjoint := by
    intro j i i' km km' h1 h2 h3 h4
    match i, i', h1, h2 with
    | 0, 0, _, _ => rfl
    | 1, 1, _, _ => rfl
    | 0, 1, h1, h2 => simp [demoMesh] at h1 h2; subst h1; subst h2; simp at h3 h4; omega
    | 1, 0, h1, h2 => simp [demoMesh] at h1 h2; subst h1; subst h2; simp at h3 h4; omega
  inhabited := by decide

example : PointPartition demoMesh ∧ (demoMesh.pointSets.map (·.1)).Nodup ∧
    (∀ n ∈ demoMesh.pointSets.map (·.1), '-' ∉ n.toList) ∧
    pyJoinS "-" (demoMesh.pointSets.map (·.1)) ∉ demoMesh.pointData.map (·.1) :=
  ⟨demo_pointPartition, by decide, by decide, by decide⟩

/-- The last clause of C07 (no set is lost when several arrays are converted) is
false of the code: the alternative names do not contain the data name, so the sets
of a second array overwrite those of the first.  Full statement: -/
def C07_no_set_lost_statement : Prop :=
  ∀ (m m1 m2 : Mesh Nat Nat) (k1 k2 : String), k1 ≠ k2 → m.pointSets = [] →
    m.pointDataToSets k1 = .ok m1 → m1.pointDataToSets k2 = .ok m2 →
    ∀ (data : DataArr Nat) (t : Int), m.pointData.get? k1 = some data → .int t ∈ data.arr.rows →
      ∃ kv ∈ m2.pointSets, ∀ j, j ∈ kv.2 ↔ (data.arr.rows[j]?).bind Val.toInt? = some t

theorem C07_no_set_lost_false : ¬ C07_no_set_lost_statement := by
  intro h
  let m : Mesh Nat Nat := {
    points := [0, 1, 2], cells := [], cellData := [], pointSets := [],
    cellSets := [], pointData := [("a", intArr [0, 0, 1]), ("b", intArr [0, 1, 1])] }
  let m1 : Mesh Nat Nat := { m with
    pointData := [("b", intArr [0, 1, 1])]
    pointSets := [("set-key-0", [0, 1]), ("set-key-1", [2])] }
  let m2 : Mesh Nat Nat := { m with
    pointData := []
    pointSets := [("set-key-0", [0]), ("set-key-1", [1, 2])] }
  obtain ⟨kv, hkv, hj⟩ := h m m1 m2 "a" "b" (by decide) rfl (by decide) (by decide)
    (intArr [0, 0, 1]) 0 (by decide) (by decide)
  simp only [m2, List.mem_cons, List.not_mem_nil, or_false] at hkv
  rcases hkv with e | e <;> subst e
  · have := (hj 1).mpr (by decide)
    revert this; decide
  · have := (hj 2).mp (by decide)
    revert this; decide

/-! ## C02 Mesh consistency survives every history of set/data conversions -/

/-- A conversion call. -/
inductive ConvOp where
  | cellSetsToData (name : Option String)
  | pointSetsToData (joinChar : String)
  | cellDataToSets (key : String)
  | pointDataToSets (key : String)
  | copy

/-- Perform one call; a call that raises leaves the mesh as it was. -/
def ConvOp.run (m : Mesh P R) : ConvOp → Mesh P R
  | .cellSetsToData n => match m.cellSetsToData n with | .ok m' => m' | .error _ => m
  | .pointSetsToData c => match m.pointSetsToData c with | .ok m' => m' | .error _ => m
  | .cellDataToSets k => match m.cellDataToSets k with | .ok m' => m' | .error _ => m
  | .pointDataToSets k => match m.pointDataToSets k with | .ok m' => m' | .error _ => m
  | .copy => m.copy

/-- The full property C02: consistency of the data alone is preserved. -/
def C02_statement : Prop :=
  ∀ (m : Mesh Nat Nat) (ops : List ConvOp), Consistent m → Consistent (ops.foldl ConvOp.run m)

/-- C02 is false of the code: the constructor does not check cell sets, and a cell
set with too few member lists is turned into cell data with too few arrays. -/
theorem C02_false : ¬ C02_statement := by
  intro h
  have := h { points := [0, 1], cells := [⟨"line", ⟨[2], [[0, 1]]⟩⟩], pointData := [],
              cellData := [], pointSets := [], cellSets := [("A", [])] } [.cellSetsToData none]
    ⟨by simp [PointDataOk], by simp [CellDataOk]⟩
  have h2 := this.2 ("A", []) (by decide)
  revert h2; decide

/-- One call preserves consistency of data and sets. -/
theorem C02_step (m : Mesh P R) (op : ConvOp) (h : Consistent m ∧ SetsOk m) :
    Consistent (ConvOp.run m op) ∧ SetsOk (ConvOp.run m op) := by
  obtain ⟨hc, hs⟩ := h
  cases op with
  | copy => exact ⟨hc, hs⟩
  | cellSetsToData n =>
    simp only [ConvOp.run]
    split
    · next m' hm' =>
      by_cases hne : m.cellSets = []
      · rw [C05_no_sets m n hne] at hm'; cases hm'; exact ⟨hc, hs⟩
      · obtain ⟨arrs, e, hl, _⟩ := C05_tags m m' hne hs n hm'
        subst e
        refine ⟨⟨hc.1, ?_⟩, by simp [SetsOk]⟩
        intro kl hkl
        rcases Dict.mem_set hkl with e | e
        · rw [e]; simp only [List.map_map]
          rw [← hl]
          simp [Function.comp_def, intArr]
        · exact hc.2 kl e
    · exact ⟨hc, hs⟩
  | pointSetsToData c =>
    simp only [ConvOp.run]
    split
    · next m' hm' =>
      by_cases hne : m.pointSets = []
      · have : m.pointSetsToData c = .ok m := by simp [Mesh.pointSetsToData, hne]
        rw [this] at hm'; cases hm'; exact ⟨hc, hs⟩
      · obtain ⟨arr, e, hl, _⟩ := C07_tags m m' hne c hm'
        subst e
        refine ⟨⟨?_, hc.2⟩, hs⟩
        intro kv hkv
        rcases Dict.mem_set hkv with e | e
        · rw [e]; simp [intArr, hl]
        · exact hc.1 kv e
    · exact ⟨hc, hs⟩
  | cellDataToSets k =>
    simp only [ConvOp.run]
    split
    · next m' hm' =>
      unfold Mesh.cellDataToSets at hm'
      split at hm'
      · cases hm'
      · next data hdata =>
        split at hm'
        · cases hm'
        · split at hm'
          · cases hm'
          · split at hm'
            · cases hm'
            · cases hm'
              refine ⟨⟨hc.1, fun kl hkl => hc.2 kl (Dict.mem_erase hkl)⟩, ?_⟩
              have hdl : data.length = m.cells.length := by
                have := congrArg List.length (hc.2 (k, data) (Dict.mem_of_get? hdata))
                simpa using this
              refine foldl_set_forall _ (fun t => data.map (fun d => some (npWhere d.arr.rows t))) _
                (fun kv => kv.2.length = m.cells.length) ?_ ?_
              · exact hs
              · intro nt _; simp [hdl]
    · exact ⟨hc, hs⟩
  | pointDataToSets k =>
    simp only [ConvOp.run]
    split
    · next m' hm' =>
      obtain ⟨data, _, _, _, _, _, _, _, _, _, e1, e2, e3, e4, e5⟩ := C07_data_to_sets m m' k hm'
      refine ⟨⟨?_, ?_⟩, ?_⟩
      · rw [e1, e2]; exact fun kv hkv => hc.1 kv (Dict.mem_erase hkv)
      · rw [e3, e4]; exact hc.2
      · unfold SetsOk; rw [e3, e5]; exact hs
    · exact ⟨hc, hs⟩

/-- C02 for meshes whose cell sets have one member list per block (missing: meshes
accepted by the constructor with malformed cell sets, see `C02_false`): after any
history of conversion calls the data still matches points and blocks. -/
theorem C02_history_partial (m : Mesh P R) (ops : List ConvOp) (hc : Consistent m)
    (hs : SetsOk m) :
    Consistent (ops.foldl ConvOp.run m) ∧ SetsOk (ops.foldl ConvOp.run m) := by
  induction ops generalizing m with
  | nil => exact ⟨hc, hs⟩
  | cons op ops ih =>
    have := C02_step m op ⟨hc, hs⟩
    exact ih _ this.1 this.2

example : Consistent demoMesh ∧ SetsOk demoMesh := by
  refine ⟨⟨?_, ?_⟩, ?_⟩
  · unfold PointDataOk; decide
  · unfold CellDataOk; decide
  · unfold SetsOk; decide

end Meshio.Props
