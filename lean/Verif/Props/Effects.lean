/-
C50: what writers do to the mesh of the caller.
-/
import Verif.Model.Effects
import Verif.Props.MeshSets
namespace Meshio.Props
open Meshio Effects Spec

variable {P R C : Type}

/-- Does the mesh have data with two components? -/
def NoPairs (m : Mesh P R) : Prop :=
  (∀ kv ∈ m.pointData, kv.2.arr.tail ≠ [2]) ∧ ∀ kv ∈ m.cellData, ∀ a ∈ kv.2, a.arr.tail ≠ [2]

theorem padArr_eq_iff (zero : R → R) (a : DataArr R) : padArr zero a = a ↔ a.arr.tail ≠ [2] := by
  unfold padArr
  constructor
  · intro h h2
    rw [if_pos h2] at h
    have := congrArg (fun a => a.arr.tail) h
    simp only at this
    rw [h2] at this
    exact absurd this (by decide)
  · intro h
    rw [if_neg h]

theorem map_eq_self_iff {α : Type} (f : α → α) (l : List α) : l.map f = l ↔ ∀ a ∈ l, f a = a := by
  induction l with
  | nil => simp
  | cons a l ih => simp [ih]

theorem vtk42_eq_iff (zero : R → R) (m : Mesh P R) : vtk42 zero m = m ↔ NoPairs m := by
  unfold NoPairs
  have h1 : (m.pointData.map fun kv => (kv.1, padArr zero kv.2)) = m.pointData ↔ ∀ kv ∈ m.pointData, kv.2.arr.tail ≠ [2] := by
    rw [map_eq_self_iff]
    constructor
    · intro h kv hkv
      exact (padArr_eq_iff zero _).1 (congrArg Prod.snd (h kv hkv))
    · intro h kv hkv
      rw [(padArr_eq_iff zero _).2 (h kv hkv)]
  have h2 : (m.cellData.map fun kv => (kv.1, kv.2.map (padArr zero))) = m.cellData ↔ ∀ kv ∈ m.cellData, ∀ a ∈ kv.2, a.arr.tail ≠ [2] := by
    rw [map_eq_self_iff]
    constructor
    · intro h kv hkv a ha
      exact (padArr_eq_iff zero _).1 ((map_eq_self_iff _ _).1 (congrArg Prod.snd (h kv hkv)) a ha)
    · intro h kv hkv
      rw [(map_eq_self_iff _ _).2 fun a ha => (padArr_eq_iff zero a).2 (h kv hkv a ha)]
  rw [← h1, ← h2]
  constructor
  · intro h
    exact ⟨congrArg Mesh.pointData h, congrArg Mesh.cellData h⟩
  · rintro ⟨h, h'⟩
    unfold vtk42
    rw [h, h']

/-- Writing legacy VTK 4.2 leaves the mesh as it was if and only if there are no data with two components; these get a third one, in
the mesh of the caller. -/
theorem C50_vtk42_iff (zero : R → R) (m : Mesh P R) : vtk42 zero m = m ↔ NoPairs m := vtk42_eq_iff zero m

/-- Points, cells and sets are the same in any case, and so are the names, lengths and all other arrays. -/
theorem C50_vtk42 (zero : R → R) (m : Mesh P R) :
    (vtk42 zero m).points = m.points ∧ (vtk42 zero m).cells = m.cells ∧ (vtk42 zero m).pointSets = m.pointSets ∧ (vtk42 zero m).cellSets = m.cellSets ∧
    (vtk42 zero m).pointData.map (·.1) = m.pointData.map (·.1) ∧ (vtk42 zero m).cellData.map (·.1) = m.cellData.map (·.1) ∧
    (∀ (i : Nat) (k : String) (a : DataArr R), m.pointData[i]? = some (k, a) → ∃ b, (vtk42 zero m).pointData[i]? = some (k, b) ∧ b.isInt = a.isInt ∧
      b.len = a.len ∧ (a.arr.tail ≠ [2] → b = a) ∧
      (a.arr.tail = [2] → b.arr.tail = [3] ∧ ∀ (j : Nat) (r : R), a.arr.rows[j]? = some (.other r) → b.arr.rows[j]? = some (.other (zero r)))) := by
  refine ⟨rfl, rfl, rfl, rfl, by simp [vtk42, Function.comp_def], by simp [vtk42, Function.comp_def], ?_⟩
  intro i k a h
  refine ⟨padArr zero a, by unfold vtk42; simp only; rw [List.getElem?_map, h]; rfl, ?_, ?_, fun h => (padArr_eq_iff zero a).2 h, ?_⟩
  · unfold padArr; split <;> rfl
  · unfold padArr DataArr.len NArr.len; split <;> simp
  · intro h2
    unfold padArr
    rw [if_pos h2]
    refine ⟨rfl, fun j r hr => ?_⟩
    rw [List.getElem?_map, hr]; rfl

theorem setsToData_iff (m m' : Mesh P R) (h : setsToData m = .ok m') : m' = m ↔ m.pointSets = [] ∧ m.cellSets = [] := by
  constructor
  · rintro rfl
    have key : ∀ (m m' : Mesh P R) (c : String), m.pointSetsToData c = .ok m' → m.pointSets ≠ [] → m'.pointSets = [] ∧ m'.cellSets = m.cellSets := by
      intro m m' c h hne
      obtain ⟨arr, h, _⟩ := C07_tags m m' hne c h
      rw [h]
      exact ⟨rfl, rfl⟩
    have key' : ∀ (m m' : Mesh P R) (c : Option String), m.cellSetsToData c = .ok m' → m'.cellSets = [] ∧ m'.pointSets = m.pointSets := by
      intro m m' c h
      unfold Mesh.cellSetsToData at h
      split at h
      · split at h
        · cases h
        · cases h; exact ⟨rfl, rfl⟩
      · rename_i hl
        cases h
        exact ⟨List.length_eq_zero_iff.1 (by omega), rfl⟩
    unfold setsToData at h
    by_cases hp : m'.pointSets = []
    · refine ⟨hp, ?_⟩
      rw [hp] at h
      simp only [List.length_nil, Nat.lt_irrefl, gt_iff_lt, if_false] at h
      by_cases hc : m'.cellSets = []
      · exact hc
      · rw [if_pos (List.length_pos_iff.2 hc)] at h
        split at h
        · cases h
        · split at h
          · cases h
          · exact (key' _ _ _ h).1
    · exfalso
      rw [if_pos (List.length_pos_iff.2 hp)] at h
      split at h
      · cases h
      · rename_i m1 h1
        have hm1 : m1.pointSets = [] := by
          split at h1
          · cases h1
          · split at h1
            · cases h1
            · exact (key _ _ _ h1 hp).1
        have : m'.pointSets = m1.pointSets := by
          split at h
          · split at h
            · cases h
            · split at h
              · cases h
              · exact (key' _ _ _ h).2
          · cases h; rfl
        exact hp (this.trans hm1)
  · rintro ⟨hp, hc⟩
    unfold setsToData at h
    rw [hp] at h
    simp only [List.length_nil, Nat.lt_irrefl, gt_iff_lt, if_false, hc] at h
    cases h; rfl

/-- Writing VTU leaves the mesh as it was if and only if it has no sets: these become data, in the mesh of the caller. -/
theorem C50_vtu_iff (m m' : Mesh P R) (h : vtu m = .ok m') : m' = m ↔ m.pointSets = [] ∧ m.cellSets = [] := setsToData_iff m m' h

/-- Writing legacy VTK 5.1 leaves the mesh as it was if and only if it has no sets and no data with two components. -/
theorem C50_vtk51_iff (zero : R → R) (m m' : Mesh P R) (h : vtk51 zero m = .ok m') : m' = m ↔ NoPairs m ∧ m.pointSets = [] ∧ m.cellSets = [] := by
  have h1 := setsToData_iff (vtk42 zero m) m' h
  constructor
  · rintro rfl
    have hps : ∀ m1 : Mesh P R, setsToData m1 = .ok m' → m1.pointSets = m'.pointSets → m1.cellSets = m'.cellSets → m' = m1 := by
      intro m1 h e1 e2
      have hk := setsToData_iff m1 m' h
      apply hk.2
      have hempty : m'.pointSets = [] ∧ m'.cellSets = [] := by
        have : setsToData m1 = .ok m' := h
        unfold setsToData at this
        split at this
        · cases this
        · rename_i m2 hm2
          have hp2 : m2.pointSets = [] := by
            split at hm2
            · rename_i hl
              split at hm2
              · cases hm2
              · split at hm2
                · cases hm2
                · obtain ⟨arr, e, _⟩ := C07_tags _ _ (List.length_pos_iff.1 hl) _ hm2
                  rw [e]
            · rename_i hl
              cases hm2
              exact List.length_eq_zero_iff.1 (by omega)
          split at this
          · split at this
            · cases this
            · split at this
              · cases this
              · unfold Mesh.cellSetsToData at this
                split at this
                · split at this
                  · cases this
                  · cases this; exact ⟨hp2, rfl⟩
                · rename_i hl'
                  exact absurd ‹m2.cellSets.length > 0› hl'
          · rename_i hl
            cases this
            exact ⟨hp2, List.length_eq_zero_iff.1 (by omega)⟩
      rw [e1, e2]
      exact hempty
    have := hps _ h rfl rfl
    refine ⟨(vtk42_eq_iff zero m').1 this.symm, ?_⟩
    have := h1.1 this
    exact this
  · rintro ⟨hn, hp⟩
    rw [(vtk42_eq_iff zero m).2 hn] at h1
    exact h1.2 hp

/-- Writing AVS-UCD leaves the mesh as it was if and only if the points are not in the plane: otherwise the points of the caller get a
third coordinate. -/
theorem C50_avsucd_iff (zero : C) (dim : Nat) (m : Mesh (List C) R) : avsucd zero dim m = m ↔ dim ≠ 2 ∨ m.points = [] := by
  unfold avsucd
  by_cases h : dim = 2
  · rw [if_pos h]
    constructor
    · intro he
      right
      have := congrArg Mesh.points he
      simp only at this
      cases hp : m.points with
      | nil => rfl
      | cons p ps =>
        rw [hp] at this
        simp at this
    · rintro (h' | hp)
      · exact absurd h h'
      · obtain ⟨points, cells, pd, cd, ps, cs⟩ := m
        simp only at hp
        subst hp
        rfl
  · rw [if_neg h]
    exact ⟨fun _ => .inl h, fun _ => rfl⟩

theorem wrap32_eq_iff (i : Int) : wrap32 i = i ↔ -2 ^ 31 ≤ i ∧ i < 2 ^ 31 := by
  unfold wrap32
  omega

/-- Writing PLY leaves the values of the cells as they were if and only if there is nothing to write or every number of a point fits into
four bytes; others are replaced by their remainders, in the mesh of the caller. -/
theorem C50_ply_iff (wide : CellBlock → Bool) (m : Mesh P R) :
    ply wide m = m ↔ (∀ c ∈ m.cells, c.type ∈ ["vertex", "line", "triangle", "quad", "polygon"] → c.data.rows = []) ∨
      ∀ c ∈ m.cells, wide c = true → ∀ r ∈ c.data.rows, ∀ i ∈ r, -2 ^ 31 ≤ i ∧ i < 2 ^ 31 := by
  have hsum : ((m.cells.filter fun c => plyTypes.contains c.type).map (·.len)).sum > 0 ↔
      ¬ ∀ c ∈ m.cells, c.type ∈ ["vertex", "line", "triangle", "quad", "polygon"] → c.data.rows = [] := by
    have : ((m.cells.filter fun c => plyTypes.contains c.type).map (·.len)).sum = 0 ↔
      ∀ c ∈ m.cells, c.type ∈ ["vertex", "line", "triangle", "quad", "polygon"] → c.data.rows = [] := by
      rw [List.sum_eq_zero_iff_forall_eq_nat]
      constructor
      · intro h c hc ht
        exact List.length_eq_zero_iff.1 (h _ (List.mem_map.2 ⟨c, List.mem_filter.2 ⟨hc, List.contains_iff_mem.2 ht⟩, rfl⟩))
      · intro h n hn
        obtain ⟨c, hc, rfl⟩ := List.mem_map.1 hn
        obtain ⟨h1, h2⟩ := List.mem_filter.1 hc
        exact List.length_eq_zero_iff.2 (h c h1 (List.contains_iff_mem.1 h2))
    rw [← this]
    omega
  unfold ply
  by_cases h : ∀ c ∈ m.cells, c.type ∈ ["vertex", "line", "triangle", "quad", "polygon"] → c.data.rows = []
  · rw [if_neg (fun h' => hsum.1 h' h)]
    exact ⟨fun _ => .inl h, fun _ => rfl⟩
  · rw [if_pos (hsum.2 h)]
    have hc : ∀ c : CellBlock, (if wide c then (⟨c.type, ⟨c.data.tail, c.data.rows.map (·.map wrap32)⟩⟩ : CellBlock) else c) = c ↔
        (wide c = true → ∀ r ∈ c.data.rows, ∀ i ∈ r, -2 ^ 31 ≤ i ∧ i < 2 ^ 31) := by
      intro c
      by_cases hw : wide c = true
      · rw [if_pos hw]
        obtain ⟨t, tail, rows⟩ := c
        simp only [CellBlock.mk.injEq, NArr.mk.injEq, true_and, map_eq_self_iff, wrap32_eq_iff, hw, true_implies]
      · rw [if_neg hw]
        exact ⟨fun _ h => absurd h hw, fun _ => rfl⟩
    constructor
    · intro he
      right
      have := (map_eq_self_iff _ _).1 (congrArg Mesh.cells he)
      exact fun c hcm => (hc c).1 (this c hcm)
    · rintro (h' | h')
      · exact absurd h' h
      · rw [(map_eq_self_iff _ _).2 fun c hcm => (hc c).2 (h' c hcm)]

theorem vtk42_consistent (zero : R → R) (m : Mesh P R) (h : Consistent m ∧ SetsOk m) : Consistent (vtk42 zero m) ∧ SetsOk (vtk42 zero m) := by
  have hl : ∀ a : DataArr R, (padArr zero a).arr.rows.length = a.arr.rows.length := by
    intro a
    unfold padArr
    split <;> simp
  refine ⟨⟨?_, ?_⟩, h.2⟩
  · intro kv hkv
    obtain ⟨x, hx, rfl⟩ := List.mem_map.1 hkv
    rw [hl]
    exact h.1.1 x hx
  · intro kv hkv
    obtain ⟨x, hx, rfl⟩ := List.mem_map.1 hkv
    simp only [List.map_map, Function.comp_def, hl]
    exact h.1.2 x hx

theorem setsToData_consistent (m m' : Mesh P R) (h : Consistent m ∧ SetsOk m) (hm : setsToData m = .ok m') : Consistent m' ∧ SetsOk m' := by
  have h1 : ∀ (m m' : Mesh P R) c, Consistent m ∧ SetsOk m → m.pointSetsToData c = .ok m' → Consistent m' ∧ SetsOk m' := by
    intro m m' c h hm
    have := C02_step m (.pointSetsToData c) h
    simp only [ConvOp.run, hm] at this
    exact this
  have h2 : ∀ (m m' : Mesh P R) c, Consistent m ∧ SetsOk m → m.cellSetsToData c = .ok m' → Consistent m' ∧ SetsOk m' := by
    intro m m' c h hm
    have := C02_step m (.cellSetsToData c) h
    simp only [ConvOp.run, hm] at this
    exact this
  unfold setsToData at hm
  split at hm
  · cases hm
  · rename_i m1 hm1
    have hc : Consistent m1 ∧ SetsOk m1 := by
      split at hm1
      · split at hm1
        · cases hm1
        · split at hm1
          · cases hm1
          · exact h1 _ _ _ h hm1
      · cases hm1; exact h
    split at hm
    · split at hm
      · cases hm
      · split at hm
        · cases hm
        · exact h2 _ _ _ hc hm
    · cases hm; exact hc

/-- The mesh of the caller stays consistent: data match points and cells in number and length after any of these writers. -/
theorem C50_consistent (zeroR : R → R) (zeroC : C) (wide : CellBlock → Bool) (dim : Nat) (m : Mesh (List C) R) (h : Consistent m) (hs : SetsOk m) :
    Consistent (vtk42 zeroR m) ∧ (∀ m', vtk51 zeroR m = .ok m' → Consistent m') ∧ (∀ m', vtu m = .ok m' → Consistent m') ∧
      Consistent (ply wide m) ∧ Consistent (avsucd zeroC dim m) := by
  refine ⟨(vtk42_consistent zeroR m ⟨h, hs⟩).1, fun m' hm => (setsToData_consistent _ m' (vtk42_consistent zeroR m ⟨h, hs⟩) hm).1,
    fun m' hm => (setsToData_consistent _ m' ⟨h, hs⟩ hm).1, ?_, ?_⟩
  · unfold ply
    split
    · refine ⟨h.1, ?_⟩
      intro kl hkl
      have := h.2 kl hkl
      rw [this]
      simp only [List.map_map]
      apply List.map_congr_left
      intro c _
      simp only [Function.comp]
      split <;> simp
    · exact h
  · unfold avsucd
    split
    · refine ⟨?_, h.2⟩
      intro kv hkv
      simp only [List.length_map]
      exact h.1 kv hkv
    · exact h

/-- The claim: writers do not change the mesh. -/
def C50_statement : Prop :=
  ∀ (C R : Type) (zeroR : R → R) (zeroC : C) (wide : CellBlock → Bool) (dim : Nat) (m : Mesh (List C) R), Consistent m → (∀ p ∈ m.points, p.length = dim) →
    vtk42 zeroR m = m ∧ (∀ m', vtk51 zeroR m = .ok m' → m' = m) ∧ (∀ m', vtu m = .ok m' → m' = m) ∧ ply wide m = m ∧ avsucd zeroC dim m = m

/-- Points in the plane, a vector in the plane, and a set of points. -/
def exEffects : Mesh (List Nat) (List Nat) where
  points := [[0, 0], [1, 0], [0, 1]]
  cells := [⟨"triangle", ⟨[3], [[0, 1, 2]]⟩⟩]
  pointData := [("v", ⟨false, ⟨[2], [.other [1, 2], .other [3, 4], .other [5, 6]]⟩⟩)]
  cellData := []
  pointSets := [("a", [0, 1]), ("b", [2])]
  cellSets := []

theorem exEffects_ok : Consistent exEffects := ⟨by unfold PointDataOk; decide +kernel, by unfold CellDataOk; decide +kernel⟩

theorem C50_false : ¬ C50_statement := by
  intro h
  have := (h Nat (List Nat) (· ++ [0]) 0 (fun _ => true) 2 exEffects exEffects_ok (by decide)).1
  rw [C50_vtk42_iff] at this
  exact this.1 _ (List.mem_singleton.2 rfl) rfl

/-- What is left of the mesh of the example after it was written as VTU; the two sets are under a name that repeats the names. -/
theorem C50_vtu_names : vtu exEffects = .ok { exEffects with
    pointData := [("v", ⟨false, ⟨[2], [.other [1, 2], .other [3, 4], .other [5, 6]]⟩⟩), ("aa-bb", intArr [0, 0, 1])], pointSets := [] } := by decide +kernel

example : ∃ m', vtk51 (· ++ [0]) exEffects = .ok m' ∧ m' ≠ exEffects := by
  refine ⟨_, rfl, ?_⟩
  intro h
  have := (C50_vtk51_iff (· ++ [0]) exEffects _ rfl).1 h
  exact absurd this.2.1 (by decide)

example : avsucd 0 2 exEffects ≠ exEffects := fun h => by
  rcases (C50_avsucd_iff 0 2 exEffects).1 h with h | h
  · exact h rfl
  · exact absurd h (by decide)

example : ply (fun _ => true) exEffects = exEffects := (C50_ply_iff _ _).2 (.inr (by decide +kernel))

example : ply (fun _ => true) { exEffects with cells := [⟨"line", ⟨[2], [[0, 2147483648]]⟩⟩] } ≠ { exEffects with cells := [⟨"line", ⟨[2], [[0, 2147483648]]⟩⟩] } := by decide +kernel

end Meshio.Props
