/-
Property theorems for the per-type views of a mesh: C03, C04.
-/
import Verif.Proofs.MeshViews
import Verif.Props.MeshInit
namespace Meshio.Props
open Meshio Spec
variable {P R : Type}

/-! ## C03 Per-type views are row-aligned -/

/-- `cells_dict` has a key for exactly the types that occur, and lists exactly the
cells of that type in block order. -/
theorem C03_cells_dict (m : Mesh P R) (d : Dict (NArr (List Int))) (h : m.cellsDict = .ok d)
    (t : String) :
    ((∃ c ∈ m.cells, c.type = t) → (d.get? t).map (·.rows) = some (cellsOfType m t)) ∧
    ((¬ ∃ c ∈ m.cells, c.type = t) → d.get? t = none) := by
  have hg := groupTypes_get? (m.cells.map (fun c => (c.type, c.data))) t
  have hf := filter_map_type m.cells (fun c => c.data) t
  rcases concatAll_get? h t with ⟨h1, h2⟩ | ⟨l, a, h1, h2, h3⟩
  · rw [h1] at hg
    refine ⟨fun ⟨c, hc, ht⟩ => ?_, fun _ => h2⟩
    exfalso
    have hmem : (c.type, c.data) ∈ (m.cells.map (fun c => (c.type, c.data))).filter
        (fun p => decide (p.1 = t)) :=
      List.mem_filter.mpr ⟨List.mem_map.mpr ⟨c, hc, rfl⟩, by simpa using ht⟩
    have hne : (m.cells.map (fun c => (c.type, c.data))).filter (fun p => decide (p.1 = t)) ≠ [] :=
      List.ne_nil_of_mem hmem
    rw [if_neg hne] at hg
    cases hg
  · rw [h1] at hg
    refine ⟨fun _ => ?_, fun hn => ?_⟩
    · split at hg
      · cases hg
      · injection hg with hg
        rw [hf] at hg
        subst hg
        rw [h2, Option.map_some, cellsOfType_eq]
        rw [(npConcat_ok h3).2.2]
    · exfalso
      have hnil : (m.cells.map (fun c => (c.type, c.data))).filter (fun p => decide (p.1 = t)) = [] := by
        rw [List.filter_eq_nil_iff]
        intro p hp
        obtain ⟨c, hc, rfl⟩ := List.mem_map.mp hp
        intro ht
        exact hn ⟨c, hc, by simpa using ht⟩
      rw [if_pos hnil] at hg
      cases hg

/-- The keys of `cells_dict` appear in order of first occurrence, without repetition. -/
theorem C03_cells_dict_keys (m : Mesh P R) (d : Dict (NArr (List Int)))
    (h : m.cellsDict = .ok d) :
    d.keys = dedup (m.cells.map (·.type)) ∧ d.keys.Nodup := by
  have hk := concatAll_keys h
  rw [hk]
  refine ⟨?_, groupTypes_ok _⟩
  rw [groupTypes_keys, List.map_map]; rfl

/-- `cells_dict` fails exactly if two blocks of one type have different widths, and
then with ValueError. -/
theorem C03_cells_dict_ok_iff (m : Mesh P R) :
    (∃ d, m.cellsDict = .ok d) ↔
      ∀ c ∈ m.cells, ∀ c' ∈ m.cells, c.type = c'.type → c.data.tail = c'.data.tail := by
  unfold Mesh.cellsDict
  rw [concatAll_ok_iff]
  constructor
  · intro h c hc c' hc' ht
    have hg := groupTypes_get? (m.cells.map (fun c => (c.type, c.data))) c.type
    rw [filter_map_type m.cells (fun c => c.data)] at hg
    have hne : (m.cells.map (fun c => (c.type, c.data))).filter
        (fun p => decide (p.1 = c.type)) ≠ [] :=
      List.ne_nil_of_mem (List.mem_filter.mpr ⟨List.mem_map.mpr ⟨c, hc, rfl⟩, by simp⟩)
    rw [if_neg hne] at hg
    obtain ⟨a, ha⟩ := h _ (Dict.mem_of_get? hg)
    have := (npConcat_ok ha).2.1
    rw [this c.data (List.mem_map.mpr ⟨c, List.mem_filter.mpr ⟨hc, by simp⟩, rfl⟩),
      this c'.data (List.mem_map.mpr ⟨c', List.mem_filter.mpr ⟨hc', by simp [ht]⟩, rfl⟩)]
  · intro h p hp
    have hg := Dict.get?_of_mem (groupTypes_ok _) (k := p.1) (v := p.2) hp
    rw [groupTypes_get?, filter_map_type m.cells (fun c => c.data)] at hg
    split at hg
    · cases hg
    · next hne =>
      injection hg with hg
      rw [← hg]
      refine (npConcat_ok_iff _).mpr ⟨?_, ?_⟩
      · intro he
        apply hne
        have := filter_map_type m.cells (fun c => c.data) p.1
        rw [he] at this
        exact List.map_eq_nil_iff.mp this
      · intro a ha b hb
        obtain ⟨c, hc, rfl⟩ := List.mem_map.mp ha
        obtain ⟨c', hc', rfl⟩ := List.mem_map.mp hb
        obtain ⟨hc1, hc2⟩ := List.mem_filter.mp hc
        obtain ⟨hc3, hc4⟩ := List.mem_filter.mp hc'
        exact h c hc1 c' hc3 (by simp at hc2 hc4; rw [hc2, hc4])

example : ∃ d, demoMesh.cellsDict = .ok d := by
  rw [C03_cells_dict_ok_iff]; decide

/-- `get_cells_type` lists exactly the cells of the type in block order (possibly none). -/
theorem C03_get_cells_type (m : Mesh P R) (t : String) (a : NArr (List Int))
    (h : m.getCellsType t = .ok a) : a.rows = cellsOfType m t := by
  unfold Mesh.getCellsType at h
  rw [beq_eq_decide] at h
  split at h
  · next hany =>
    have hnil : m.cells.filter (fun c => decide (c.type = t)) = [] := by
      rw [List.filter_eq_nil_iff]
      intro c hc ht
      have : m.cells.any (fun c => decide (c.type = t)) = true :=
        List.any_eq_true.mpr ⟨c, hc, ht⟩
      rw [this] at hany; simp at hany
    split at h
    · cases h
    · cases h; simp [cellsOfType, hnil]
  · rw [cellsOfType_eq]; exact (npConcat_ok h).2.2

/-- `get_cells_type` agrees with `cells_dict` on every type that occurs. -/
theorem C03_get_cells_type_eq_dict (m : Mesh P R) (d : Dict (NArr (List Int)))
    (h : m.cellsDict = .ok d) (t : String) (a b : NArr (List Int))
    (ha : m.getCellsType t = .ok a) (hb : d.get? t = some b) : a.rows = b.rows := by
  have h1 := C03_get_cells_type m t a ha
  have h2 := C03_cells_dict m d h t
  by_cases hex : ∃ c ∈ m.cells, c.type = t
  · have := h2.1 hex
    rw [hb] at this
    simp only [Option.map_some, Option.some.injEq] at this
    rw [h1, this]
  · have := h2.2 hex
    rw [hb] at this; cases this

/-- The rows of the data view of one entry, paired with the rows of the cell view,
are exactly the cells of the type with their own data, in order. -/
theorem C03_data_aligned (m : Mesh P R) (hm : Consistent m) (name t : String)
    (l : List (DataArr R)) (hl : m.cellData.get? name = some l)
    (d : Dict (NArr (List Int))) (hd : m.cellsDict = .ok d)
    (dd : Dict (Dict (NArr (Val R)))) (hdd : m.cellDataDict = .ok dd)
    (a : NArr (List Int)) (ha : d.get? t = some a) :
    ∃ e b, dd.get? name = some e ∧ e.get? t = some b ∧ a.rows.length = b.rows.length ∧
      a.rows.zip b.rows =
        ((cellsWithData m.cells l).filter (fun p => decide (p.1 = t))).map (·.2) := by
  have hlens := hm.2 (name, l) (Dict.mem_of_get? hl)
  simp only at hlens
  have hlen : l.length = m.cells.length := by
    have := congrArg List.length hlens; simpa using this
  have hex : ∃ c ∈ m.cells, c.type = t := by
    apply Classical.byContradiction
    intro hn
    rw [(C03_cells_dict m d hd t).2 hn] at ha; cases ha
  have hrows : a.rows = cellsOfType m t := by
    have := (C03_cells_dict m d hd t).1 hex
    rw [ha] at this; simpa using this
  rcases mapRes_entry_get? (cellDataDictEntry m.cells) m.cellData dd hdd name with
    ⟨h1, _⟩ | ⟨l', e, h1, h2, h3⟩
  · rw [hl] at h1; cases h1
  · rw [hl] at h1; cases h1
    have hzip : l.zip m.cells = (m.cells.zip l).map (fun x => (x.2, x.1)) := by
      exact zip_swap_eq m.cells l
    have hfil : (((l.zip m.cells).map (fun vc => (vc.2.type, vc.1.arr))).filter
        (fun p => decide (p.1 = t))).map (·.2) =
        ((m.cells.zip l).filter (fun cd => decide (cd.1.type = t))).map (fun x => x.2.arr) := by
      rw [hzip, List.map_map, List.filter_map, List.map_map]; rfl
    have hcells := map_fst_filter_zip m.cells l hlen t
    have hne : (m.cells.zip l).filter (fun cd => decide (cd.1.type = t)) ≠ [] := by
      intro he
      rw [he] at hcells
      obtain ⟨c, hc, ht⟩ := hex
      have : c ∈ m.cells.filter (fun c => decide (c.type = t)) :=
        List.mem_filter.mpr ⟨hc, by simpa using ht⟩
      rw [← hcells] at this; simp at this
    have hg := groupTypes_get? ((l.zip m.cells).map (fun vc => (vc.2.type, vc.1.arr))) t
    rw [hfil] at hg
    have hne' : ((l.zip m.cells).map (fun vc => (vc.2.type, vc.1.arr))).filter
        (fun p => decide (p.1 = t)) ≠ [] := by
      intro he; rw [he] at hfil
      exact hne (List.map_eq_nil_iff.mp hfil.symm)
    rw [if_neg hne'] at hg
    rcases concatAll_get? h3 t with ⟨h4, _⟩ | ⟨l', b, h4, h5, h6⟩
    · rw [hg] at h4; cases h4
    · rw [hg] at h4; cases h4
      have hb := (npConcat_ok h6).2.2
      rw [List.map_map] at hb
      have hal : ∀ x ∈ (m.cells.zip l).filter (fun cd => decide (cd.1.type = t)),
          x.1.data.rows.length = x.2.arr.rows.length :=
        fun x hx => zip_len_of_maps hlens x (List.mem_filter.mp hx).1
      have hrows' : a.rows = (((m.cells.zip l).filter (fun cd => decide (cd.1.type = t))).map
          (fun x => x.1.data.rows)).flatten := by
        rw [hrows, cellsOfType_eq, ← hcells, List.map_map, List.map_map]; rfl
      refine ⟨e, b, h2, h5, ?_, ?_⟩
      · rw [hrows', hb, List.length_flatten, List.length_flatten, List.map_map, List.map_map]
        congr 1
        apply List.map_congr_left
        intro x hx; exact hal x hx
      · rw [cellsWithData_filter, ← zip_flatten_aligned _ (fun x : CellBlock × DataArr R => x.1.data.rows)
          (fun x => x.2.arr.rows) hal, hrows', hb]
        rfl

/-- `get_cell_data` returns the same rows as the entry of `cell_data_dict`. -/
theorem C03_get_cell_data (m : Mesh P R) (name t : String) (l : List (DataArr R))
    (hl : m.cellData.get? name = some l) (b : NArr (Val R)) (h : m.getCellData name t = .ok b) :
    b.rows = ((m.cells.zip l).filter (fun cd => decide (cd.1.type = t))).flatMap
      (fun cd => cd.2.arr.rows) := by
  unfold Mesh.getCellData at h
  rw [hl] at h
  have := (npConcat_ok h).2.2
  rw [this, List.map_map, List.flatMap_def]
  rfl

example : Consistent demoMesh ∧ (∃ l, demoMesh.cellData.get? "a" = some l) ∧
    (∃ d, demoMesh.cellsDict = .ok d ∧ (d.get? "triangle").isSome) ∧
    ∃ dd, demoMesh.cellDataDict = .ok dd := by
  refine ⟨⟨?_, ?_⟩, ⟨_, rfl⟩, ⟨_, rfl, by decide⟩, ⟨_, rfl⟩⟩
  · unfold PointDataOk; decide
  · unfold CellDataOk; decide

/-! ## C04 cell_sets_dict indexes the per-type view -/

/-- The cells a set selects from the blocks of type `t`, block by block. -/
def Spec.picked (cells : List CellBlock) (ml : List (Option (List Nat))) (t : String) :
    List (Option (List Int)) :=
  ((ml.zip cells).filter (fun x => decide (x.2.type = t))).flatMap
    (fun x => (x.1.getD []).map (fun j => x.2.data.rows[j]?))

/-- The full property C04: for every set and every type, the indices reported by
`cell_sets_dict` select from the per-type view the cells that the set selects block
by block (a missing member list selects nothing); a type is left out exactly if
nothing of it is selected. -/
def C04_statement (m : Mesh P R) : Prop :=
  ∀ (name : String) (ml : List (Option (List Nat))), m.cellSets.get? name = some ml →
    ml.length = m.cells.length →
    (∀ x ∈ ml.zip m.cells, ∀ ms, x.1 = some ms → ∀ j ∈ ms, j < x.2.data.rows.length) →
    ∀ t, ∃ sel, m.cellSetsDict.get? name = some sel ∧
      ((sel.get? t = none ∧ Spec.picked m.cells ml t = []) ∨
       (∃ idx, sel.get? t = some idx ∧ idx ≠ [] ∧
          idx.map (fun i => (cellsOfType m t)[i]?) = Spec.picked m.cells ml t))

/-- C04 is false of the code: a member list that is `None` does not advance the
offset, so indices point into the wrong block.  Two triangle blocks, a set defined
on the second only. -/
theorem C04_false :
    ¬ ∀ m : Mesh Nat Nat, C04_statement m := by
  intro h
  have := h { points := [], cells := [⟨"triangle", ⟨[3], [[0, 1, 2]]⟩⟩, ⟨"triangle", ⟨[3], [[5, 6, 7]]⟩⟩],
              pointData := [], cellData := [], pointSets := [],
              cellSets := [("A", [none, some [0]])] } "A" [none, some [0]] rfl rfl (by decide) "triangle"
  revert this
  rintro ⟨sel, h1, h2⟩
  have : sel = [("triangle", [0])] := by
    have h3 : (some sel : Option (Dict (List Nat))) = some [("triangle", [0])] := by
      rw [← h1]; decide
    injection h3
  subst this
  rcases h2 with ⟨h2, _⟩ | ⟨idx, h2, _, h3⟩
  · revert h2; decide
  · have : idx = [0] := by
      have h4 : some idx = some [0] := by rw [← h2]; decide
      injection h4
    subst this
    revert h3; decide

/-- C04 for every type all of whose blocks have a member list (missing: blocks with
member `None`, for which the claim is false, see `C04_false`). -/
theorem C04_cell_sets_dict_partial (m : Mesh P R) (name : String) (ml : List (Option (List Nat)))
    (hs : m.cellSets.get? name = some ml) (hlen : ml.length = m.cells.length) (t : String)
    (hmem : ∀ x ∈ ml.zip m.cells, x.2.type = t →
      ∃ ms, x.1 = some ms ∧ ∀ j ∈ ms, j < x.2.data.rows.length) :
    ∃ sel, m.cellSetsDict.get? name = some sel ∧
      ((sel.get? t = none ∧ Spec.picked m.cells ml t = []) ∨
       (∃ idx, sel.get? t = some idx ∧ idx ≠ [] ∧
          idx.map (fun i => (cellsOfType m t)[i]?) = Spec.picked m.cells ml t)) := by
  refine ⟨cellSetsEntry m.cells ml, ?_, ?_⟩
  · unfold Mesh.cellSetsDict
    have : ∀ d : Dict (List (Option (List Nat))), d.get? name = some ml →
        Dict.get? (d.map (fun km => (km.1, cellSetsEntry m.cells km.2))) name =
          some (cellSetsEntry m.cells ml) := by
      intro d hd
      induction d with
      | nil => cases hd
      | cons x d ih =>
        rw [Dict.get?_cons] at hd
        rw [List.map_cons, Dict.get?_cons]
        by_cases hk : name = x.1
        · rw [if_pos hk] at hd; injection hd with hd; simp [hk, hd]
        · rw [if_neg hk] at hd; simp only [if_neg hk]; exact ih hd
    exact this _ hs
  · have hfold := cellSetsStep_fold (ml.zip m.cells) ([], []) t
      (fun x hx ht => by obtain ⟨ms, h1, _⟩ := hmem x hx ht; exact ⟨ms, h1⟩)
    simp only [Dict.get?_nil, Option.getD_none, List.nil_append] at hfold
    have hsel := shifted_select [] ((ml.zip m.cells).filter (fun x => decide (x.2.type = t)))
      (fun x hx => by
        obtain ⟨hx1, hx2⟩ := List.mem_filter.mp hx
        exact hmem x hx1 (by simpa using hx2))
    have hcells := map_snd_filter_zip m.cells ml hlen t
    have hview : (((ml.zip m.cells).filter (fun x => decide (x.2.type = t))).map
        (fun x => x.2.data.rows)).flatten = cellsOfType m t := by
      rw [cellsOfType_eq, ← hcells, List.map_map, List.map_map]; rfl
    rw [hview] at hsel
    simp only [List.length_nil, List.nil_append] at hsel
    have hget := get?_filter_map ((ml.zip m.cells).foldl cellSetsStep ([], [])).2
      (cellSetsStep_ok _ _ (by simp [Dict.Ok, Dict.keys]))
      (fun l => decide (l.flatten.length ≠ 0)) List.flatten t
    unfold cellSetsEntry
    simp only at hget ⊢
    rw [hget, hfold]
    by_cases hnil : (ml.zip m.cells).filter (fun x => decide (x.2.type = t)) = []
    · left
      rw [if_pos hnil]
      refine ⟨rfl, ?_⟩
      unfold Spec.picked; rw [hnil]; rfl
    · rw [if_neg hnil]
      simp only [Option.bind_some]
      by_cases he : (shifted 0 ((ml.zip m.cells).filter (fun x => decide (x.2.type = t)))).flatten.length = 0
      · left
        rw [if_neg (by simp [he])]
        refine ⟨rfl, ?_⟩
        rw [List.length_eq_zero_iff.mp he] at hsel
        exact hsel.symm
      · right
        rw [if_pos (by simpa using he)]
        refine ⟨_, rfl, ?_, hsel⟩
        intro h0; rw [h0] at he; exact he rfl

example : ∃ ml, demoMesh.cellSets.get? "B" = some ml ∧ ml.length = demoMesh.cells.length ∧
    ∀ x ∈ ml.zip demoMesh.cells, x.2.type = "triangle" →
      ∃ ms, x.1 = some ms ∧ ∀ j ∈ ms, j < x.2.data.rows.length := by
  refine ⟨_, rfl, rfl, ?_⟩
  intro x hx _
  simp only [demoMesh, List.zip_cons_cons, List.zip_nil_right, List.mem_cons, List.not_mem_nil,
    or_false] at hx
  rcases hx with h | h | h <;> subst h <;> exact ⟨_, rfl, by decide⟩

end Meshio.Props
