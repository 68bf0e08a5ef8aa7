/-
The mesh that is made of the parts of an Abaqus file.
-/
import Verif.Proofs.AbaqusRead
namespace Meshio.Abaqus
open Meshio Types Tables Spec

variable {F : Type}

/-- The blocks among parts. -/
def partsOf (is : List AbaqusItem) : List (String × Option String × List (Int × List Int)) :=
  is.filterMap fun i => match i with | .block _ _ t s _ rows => some (t, s, rows) | _ => none

/-- The sets of nodes among parts. -/
def nsetsOf (is : List AbaqusItem) : List (String × List Int) :=
  is.filterMap fun i => match i with | .nset _ name _ members => some (name, members) | _ => none

/-- The sets of cells among parts. -/
def elsetsOf (is : List AbaqusItem) : List (String × List Int) :=
  is.filterMap fun i => match i with | .elset _ name _ members => some (name, members) | _ => none

theorem set_fresh {α : Type} (d : Dict α) (k : String) (v : α) (h : k ∉ d.map (·.1)) : Dict.set d k v = d ++ [(k, v)] := by
  induction d with
  | nil => rfl
  | cons p d ih =>
    obtain ⟨a, b⟩ := p
    simp only [List.map_cons, List.mem_cons, not_or] at h
    unfold Dict.set
    rw [if_neg (fun e => h.1 e.symm), ih h.2]; rfl

theorem fold_cells (numbers : List Int) (is : List AbaqusItem) (st : St F) :
    (is.foldl (step numbers) st).cells = st.cells ++ (partsOf is).map (fun p => (p.1, p.2.2.map fun r => r.2.map numbers.idxOf)) ∧
    (is.foldl (step numbers) st).cellIds = st.cellIds ++ (partsOf is).map (fun p => p.2.2.map (·.1)) ∧
    (is.foldl (step numbers) st).order = st.order ++ (partsOf is).filterMap (·.2.1) ∧
    (is.foldl (step numbers) st).points = st.points := by
  induction is generalizing st with
  | nil => simp [partsOf]
  | cons i is ih =>
    rw [List.foldl_cons]
    obtain ⟨h1, h2, h3, h4⟩ := ih (step numbers st i)
    rw [h1, h2, h3, h4]
    cases i with
    | other => exact ⟨rfl, rfl, rfl, rfl⟩
    | nset => exact ⟨rfl, rfl, rfl, rfl⟩
    | elset => exact ⟨rfl, rfl, rfl, rfl⟩
    | block h n t s ls rows =>
      have e : partsOf (.block h n t s ls rows :: is) = (t, s, rows) :: partsOf is := rfl
      rw [e]
      cases s <;> simp [step]

theorem fold_pointSets (numbers : List Int) (is : List AbaqusItem) (st : St F)
    (hn : (st.pointSets.map (·.1) ++ (nsetsOf is).map (·.1)).Nodup) :
    (is.foldl (step numbers) st).pointSets = st.pointSets ++ (nsetsOf is).map (fun s => (s.1, s.2.map numbers.idxOf)) := by
  induction is generalizing st with
  | nil => simp [nsetsOf]
  | cons i is ih =>
    rw [List.foldl_cons]
    cases i with
    | other => exact ih st hn
    | elset a b c d => exact ih (step numbers st (.elset a b c d)) hn
    | block h n t s ls rows =>
      have e : (step numbers st (.block h n t s ls rows)).pointSets = st.pointSets := by cases s <;> rfl
      rw [ih _ (by rw [e]; exact hn), e]; rfl
    | nset a name c members =>
      have e : nsetsOf (.nset a name c members :: is) = (name, members) :: nsetsOf is := rfl
      rw [e, List.map_cons] at hn
      have hf : name ∉ st.pointSets.map (·.1) := by
        intro hm
        exact (List.nodup_append.mp hn).2.2 _ hm name (by simp) rfl
      have e2 : (step numbers st (.nset a name c members)).pointSets = st.pointSets ++ [(name, members.map numbers.idxOf)] :=
        set_fresh _ _ _ hf
      rw [ih, e2, e]
      · simp
      · rw [e2]; simpa using hn

theorem fold_elemSets (numbers : List Int) (is : List AbaqusItem) (st : St F)
    (hn : (st.elemSets.map (·.1) ++ (partsOf is).filterMap (·.2.1)).Nodup) :
    (is.foldl (step numbers) st).elemSets = st.elemSets ++ (partsOf is).filterMap (fun p => p.2.1.map fun name => (name, p.2.2.length)) := by
  induction is generalizing st with
  | nil => simp [partsOf]
  | cons i is ih =>
    rw [List.foldl_cons]
    cases i with
    | other => exact ih st hn
    | elset a b c d => exact ih (step numbers st (.elset a b c d)) hn
    | nset a b c d => exact ih (step numbers st (.nset a b c d)) hn
    | block h n t s ls rows =>
      have e : partsOf (.block h n t s ls rows :: is) = (t, s, rows) :: partsOf is := rfl
      cases s with
      | none => exact ih (step numbers st (.block h n t none ls rows)) hn
      | some name =>
        rw [e] at hn
        simp only [List.filterMap_cons] at hn
        have hf : name ∉ st.elemSets.map (·.1) := by
          intro hm
          exact (List.nodup_append.mp hn).2.2 _ hm name (by simp) rfl
        have e2 : (step numbers st (.block h n t (some name) ls rows)).elemSets = st.elemSets ++ [(name, rows.length)] := set_fresh _ _ _ hf
        rw [ih, e2, e]
        · simp
        · rw [e2]; simpa using hn

/-- No cells after sets of cells. -/
def InOrder (is : List AbaqusItem) : Prop :=
  is.Pairwise fun i j => (match i with | .elset .. => True | _ => False) → (match j with | .block .. => False | _ => True)

theorem fold_cellSets (numbers : List Int) (is : List AbaqusItem) (ho : InOrder is) (st : St F)
    (hn : (st.cellSets.map (·.1) ++ (elsetsOf is).map (·.1)).Nodup) :
    (is.foldl (step numbers) st).cellSets = st.cellSets ++ (elsetsOf is).map (fun s => (s.1,
      (st.cellIds ++ (partsOf is).map (fun p => p.2.2.map (·.1))).map fun ids => .ids (s.2.filterMap (idPos ids)))) := by
  induction is generalizing st with
  | nil => simp [elsetsOf]
  | cons i is ih =>
    rw [List.foldl_cons]
    unfold InOrder at ho
    rw [List.pairwise_cons] at ho
    cases i with
    | other => exact ih ho.2 st hn
    | nset a b c d => exact ih ho.2 (step numbers st (.nset a b c d)) hn
    | block h n t s ls rows =>
      have e1 : (step numbers st (.block h n t s ls rows)).cellSets = st.cellSets := by cases s <;> rfl
      have e2 : (step numbers st (.block h n t s ls rows)).cellIds = st.cellIds ++ [rows.map (·.1)] := by cases s <;> rfl
      have e : partsOf (.block h n t s ls rows :: is) = (t, s, rows) :: partsOf is := rfl
      have e' : elsetsOf (.block h n t s ls rows :: is) = elsetsOf is := rfl
      rw [e'] at hn
      rw [ih ho.2 _ (by rw [e1]; exact hn), e1, e2, e, e']
      simp
    | elset a name c members =>
      have e : elsetsOf (.elset a name c members :: is) = (name, members) :: elsetsOf is := rfl
      have e' : partsOf (.elset a name c members :: is) = partsOf is := rfl
      have e0 : partsOf is = [] := by
        unfold partsOf
        rw [List.filterMap_eq_nil_iff]
        intro j hj
        have := ho.1 j hj trivial
        cases j with
        | block => exact this.elim
        | _ => rfl
      rw [e, List.map_cons] at hn
      have hf : name ∉ st.cellSets.map (·.1) := by
        intro hm
        exact (List.nodup_append.mp hn).2.2 _ hm name (by simp) rfl
      have e2 : (step numbers st (.elset a name c members)).cellSets = st.cellSets ++
          [(name, st.cellIds.map fun ids => .ids (members.filterMap (idPos ids)))] := set_fresh _ _ _ hf
      have e3 : (step numbers st (.elset a name c members)).cellIds = st.cellIds := rfl
      rw [ih ho.2 _ (by rw [e2]; simpa using hn), e2, e, e', e0, e3]
      simp

theorem elementSets_ok (N : Nat) (elem : Dict Nat) (ps : List (String × Option String × List (Int × List Int)))
    (hfirst : ps.Pairwise fun p q => p.2.1 = none → q.2.1 = none)
    (helem : ∀ p ∈ ps, ∀ name, p.2.1 = some name → Dict.get? elem name = some p.2.2.length) (i : Nat) (d : Dict (List Entry))
    (hn : (d.map (·.1) ++ ps.filterMap (·.2.1)).Nodup) :
    elementSets N elem i (ps.filterMap (·.2.1)) d = .ok (d ++ (ps.zipIdx i).filterMap fun p => p.1.2.1.map fun name =>
      (name, (List.range N).map fun ic => .ids (if p.2 = ic then List.range p.1.2.2.length else []))) := by
  induction ps generalizing i d with
  | nil => simp [elementSets]
  | cons p ps ih =>
    rw [List.pairwise_cons] at hfirst
    obtain ⟨t, s, rows⟩ := p
    cases s with
    | none =>
      have h0 : ∀ q ∈ ps, q.2.1 = none := fun q hq => hfirst.1 q hq rfl
      have e1 : ((t, (none : Option String), rows) :: ps).filterMap (·.2.1) = [] := by
        rw [List.filterMap_eq_nil_iff]
        intro q hq
        rcases List.mem_cons.1 hq with rfl | hq
        · rfl
        · exact h0 q hq
      have e2 : (((t, (none : Option String), rows) :: ps).zipIdx i).filterMap (fun p => p.1.2.1.map fun name =>
          (name, (List.range N).map fun ic => (Entry.ids (if p.2 = ic then List.range p.1.2.2.length else [])))) = [] := by
        rw [List.filterMap_eq_nil_iff]
        intro q hq
        have hq' := List.fst_mem_of_mem_zipIdx hq
        have : q.1.2.1 = none := by
          rcases List.mem_cons.1 hq' with e | hq'
          · rw [e]
          · exact h0 _ hq'
        rw [this]; rfl
      rw [e1, e2, List.append_nil]; rfl
    | some name =>
      have e1 : ((t, some name, rows) :: ps).filterMap (·.2.1) = name :: ps.filterMap (·.2.1) := rfl
      rw [e1] at hn ⊢
      have hf : name ∉ d.map (·.1) := by
        intro hm
        exact (List.nodup_append.mp hn).2.2 _ hm name (by simp) rfl
      unfold elementSets
      rw [helem (t, some name, rows) (by simp) name rfl]
      simp only
      rw [(Dict.get?_eq_none_iff d name).mpr hf]
      simp only
      rw [set_fresh _ _ _ hf, ih hfirst.2 (fun p hp => helem p (by simp [hp]))]
      · simp [List.zipIdx_cons]
      · simpa using hn

theorem filterMap_congr' {α β : Type} {f g : α → Option β} {l : List α} (h : ∀ a ∈ l, f a = g a) : l.filterMap f = l.filterMap g := by
  induction l with
  | nil => rfl
  | cons a l ih => rw [List.filterMap_cons, List.filterMap_cons, h a (by simp), ih fun b hb => h b (by simp [hb])]

theorem zipIdx_range_map {α β : Type} (l : List α) (f : α → Nat → β) (g : Nat → β) (h : ∀ i (hi : i < l.length), f l[i] i = g i) :
    l.zipIdx.map (fun q => f q.1 q.2) = (List.range l.length).map g := by
  apply List.ext_getElem
  · simp
  · intro i h1 h2
    simp only [List.getElem_map, List.getElem_zipIdx, List.getElem_range, Nat.zero_add]
    exact h i (by simpa using h1)

theorem items_nodup {numbers : List Int} (is : List AbaqusItem) (h : ∀ i ∈ is, i.Ok numbers) : ∀ p ∈ partsOf is, (p.2.2.map (·.1)).Nodup := by
  intro p hp
  unfold partsOf at hp
  obtain ⟨i, hi, e⟩ := List.mem_filterMap.1 hp
  cases i with
  | block a b c d e' rows =>
    obtain ⟨_, _, _, _, _, _, _, _, _, hn, _⟩ := h _ hi
    simp only [Option.some.injEq] at e
    rw [← e]; exact hn
  | _ => cases e

/-- The file is read as the mesh it describes. -/
theorem read_file (io : FloatIO F) (inc : List Char → Res (Out F)) (f : AbaqusFile F) (hf : f.Ok io) (hs : f.Sets) (text : List Char)
    (ht : fileLines text = f.lines.map (· ++ ['\n'])) : read io inc text = .ok f.mesh := by
  unfold read
  rw [ht]
  obtain ⟨fuel, _, e⟩ := loop_file io inc f hf [] (by intro l hl; cases hl) 0
  rw [Nat.zero_add, List.append_nil] at e
  rw [List.length_map, e]
  have e0 : loop io inc fuel (f.items.foldl (step f.numbers) (nodesState f)) [] = .ok (f.items.foldl (step f.numbers) (nodesState f)) := by
    cases fuel <;> rfl
  rw [e0]
  simp only
  obtain ⟨c1, c2, c3, c4⟩ := fold_cells f.numbers f.items (nodesState f)
  have p1 := fold_pointSets f.numbers f.items (nodesState f) hs.nsets
  have hne : ((f.parts).filterMap (·.2.1)).Nodup := (List.nodup_append.mp hs.elsets).2.1
  have s1 := fold_elemSets f.numbers f.items (nodesState f) hne
  have d1 := fold_cellSets f.numbers f.items hs.order (nodesState f) (List.nodup_append.mp hs.elsets).1
  rw [c1, c3, c4, p1, s1, d1]
  have i1 : (nodesState f).cells = [] := rfl
  have i2 : (nodesState f).cellIds = [] := rfl
  have i3 : (nodesState f).order = [] := rfl
  have i4 : (nodesState f).elemSets = [] := rfl
  have i5 : (nodesState f).cellSets = [] := rfl
  have i6 : (nodesState f).pointSets = [] := rfl
  rw [i1, i2, i3, i4, i5, i6]
  simp only [List.nil_append, List.length_map]
  have hparts : partsOf f.items = f.parts := rfl
  have helsets : elsetsOf f.items = f.elsets := rfl
  have hnsets : nsetsOf f.items = f.nsets := rfl
  rw [hparts, helsets, hnsets]
  have helem : ∀ p ∈ f.parts, ∀ name, p.2.1 = some name →
      Dict.get? (f.parts.filterMap fun p => p.2.1.map fun name => (name, p.2.2.length)) name = some p.2.2.length := by
    intro p hp name hname
    apply Dict.get?_of_mem
    · unfold Dict.Ok Dict.keys
      have : (f.parts.filterMap fun p => p.2.1.map fun name => (name, p.2.2.length)).map (·.1) = f.parts.filterMap (·.2.1) := by
        rw [List.map_filterMap]
        congr 1
        funext p
        cases p.2.1 <;> rfl
      rw [this]; exact hne
    · exact List.mem_filterMap.2 ⟨p, hp, by rw [hname]; rfl⟩
  rw [elementSets_ok f.parts.length _ f.parts hs.first helem 0]
  · simp only
    unfold AbaqusFile.mesh
    congr 2
    · congr 1
      · apply List.map_congr_left
        intro s _
        rw [List.map_map]
        congr 1
        apply List.map_congr_left
        intro p hp
        have := items_nodup f.items hf.items p hp
        simp only [Function.comp]
        congr 1
        congr 1
        funext k
        exact idPos_idxOf? _ this k
      · apply filterMap_congr'
        intro p hp
        obtain ⟨⟨t, s, rows⟩, i⟩ := p
        cases s with
        | none => rfl
        | some name =>
          simp only [Option.map_some]
          congr 2
          symm
          have hi : f.parts[i]? = some (t, some name, rows) := by
            rw [List.mem_zipIdx_iff_getElem?] at hp; exact hp
          refine zipIdx_range_map f.parts (fun q j => Entry.ids (if j = i then List.range q.2.2.length else [])) _ ?_
          intro j hj
          by_cases hij : j = i
          · subst hij
            rw [List.getElem?_eq_getElem hj, Option.some.injEq] at hi
            rw [hi]
          · rw [if_neg hij, if_neg (fun e => hij e.symm)]
  · have := hs.elsets
    rw [List.map_map]
    exact this

end Meshio.Abaqus
