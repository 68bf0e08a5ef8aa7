/-
C43: MED files.
-/
import Verif.Proofs.Med
import Verif.Proofs.Dim

namespace Meshio
namespace Props
open Med Types Tables Spec

/-! ## Column-major arrays -/

/-- Entry `(i, j)` of a flattened array with `n` rows is at position `j * n + i`. -/
theorem C43_position {α : Type} (w : Nat) (rows : List (List α)) (hw : ∀ r ∈ rows, r.length = w)
    (i j : Nat) (hi : i < rows.length) (hj : j < w) :
    (flattenF w rows)[j * rows.length + i]? = (rows[i]?).bind fun r => r[j]? :=
  getElem?_flattenF w rows hw i j hi hj

/-- Flattening column by column and reading with the number of rows restores the array. -/
theorem C43_fortran {α : Type} (rows : List (List α)) (w : Nat) (hne : rows ≠ [])
    (h : ∀ r ∈ rows, r.length = w) : reshape2 rows.length (flattenF w rows) = .ok rows :=
  reshape2_flattenF rows w hne h

example : flattenF 3 [[1, 2, 3], [4, 5, 6]] = [1, 4, 2, 5, 3, 6] ∧
    reshape2 2 [1, 4, 2, 5, 3, 6] = .ok [[1, 2, 3], [4, 5, 6]] := by decide

/-- The connectivity a block is stored with: column by column, numbers counted from 1. -/
theorem C43_connectivity (b : (String × List (List Int)) × Nat) (hk : (find meshioToMed b.1.1).isSome)
    (w : Nat) (hne : b.1.2 ≠ []) (hw : ∀ r ∈ b.1.2, r.length = w) :
    ∃ e, putBlock none [] b = .ok [(medName b.1.1, e)] ∧ e.nbr = b.1.2.length ∧
      e.nod.length = w * b.1.2.length ∧
      ∀ (i j : Nat) (row : List Int) (v : Int), b.1.2[i]? = some row → row[j]? = some v →
        e.nod[j * b.1.2.length + i]? = some (v + 1) := by
  refine ⟨maiEntry none b, ?_, rfl, ?_, ?_⟩
  · have := putBlock_ok none [] b hk (by simp) (by simp)
    simpa using this
  · simp only [maiEntry, List.length_map]
    rw [widthOf_of_all hne hw, length_flattenF w _ hw]
  · intro i j row v hi hj
    simp only [maiEntry]
    have hil : i < b.1.2.length := by
      rcases Nat.lt_or_ge i b.1.2.length with h | h
      · exact h
      · rw [List.getElem?_eq_none h] at hi; cases hi
    have hjl : j < row.length := by
      rcases Nat.lt_or_ge j row.length with h | h
      · exact h
      · rw [List.getElem?_eq_none h] at hj; cases hj
    rw [List.getElem?_map, widthOf_of_all hne hw,
      getElem?_flattenF w _ hw i j hil (by rw [← hw row (List.mem_of_getElem? hi)]; exact hjl), hi]
    simp [hj]

example : putBlock none [] (("triangle", [[0, 1, 2], [1, 3, 2]]), 0) =
    .ok [("TR3".toList, { nod := [1, 2, 2, 4, 3, 3], nbr := 2, fam := none })] := by decide +kernel

/-! ## Whole files -/

/-- A mesh whose arrays keep their shape in a MED file. -/
structure MedOk {F : Type} (m : MedMesh F) : Prop where
  types : (m.cells.map (·.1)).Nodup
  known : ∀ b ∈ m.cells, (find meshioToMed b.1).isSome
  dims : ∀ b ∈ m.cells, KnownType b.1
  rows : ∀ b ∈ m.cells, b.2 ≠ [] ∧ Uniform b.2
  points : ∀ p ∈ m.points, p.length = m.dim
  ptTags : ∀ t, m.pointTags = some t → t.length = m.points.length
  tags : ∀ ts, m.cellTags = some ts → ts.length = m.cells.length ∧ m.cells ≠ []
  tagRows : ∀ ts, m.cellTags = some ts → ts.map List.length = m.cells.map fun b => b.2.length
  pdNames : (m.pointData.map (·.1)).Nodup
  pd : ∀ e ∈ m.pointData, DataOk e.2
  pdRows : ∀ e ∈ m.pointData, e.2.len = m.points.length
  cdNames : (m.cellData.map (·.1)).Nodup
  cdLen : ∀ e ∈ m.cellData, e.2.length = m.cells.length ∧ m.cells ≠ []
  cdRows : ∀ e ∈ m.cellData, e.2.map Arr.len = m.cells.map fun b => b.2.length
  cd : ∀ e ∈ m.cellData, ∀ x ∈ m.cells.zip e.2, ∃ n, Dict.get? numNodesPerCell x.1.1 = some n ∧ CellOk n x.2
  pfIds : (m.pointFam.map (·.1)).Nodup
  pfNames : ∀ f ∈ m.pointFam, ∀ s ∈ f.2, FamilyNameOk s
  cfIds : (m.cellFam.map (·.1)).Nodup
  cfNames : ∀ f ∈ m.cellFam, ∀ s ∈ f.2, FamilyNameOk s

/-! ### Families -/

theorem familyKey_inj {f g : Int × List (List Char)} (h : familyKey f = familyKey g) : f.1 = g.1 := by
  unfold familyKey at h
  have h1 := List.append_cancel_left h
  have h2 := (List.cons.inj h1).2
  have key : ∀ (i : Int) (r : List Char), (fmtInt i ++ '_' :: r).takeWhile (· ≠ '_') = fmtInt i := by
    intro i r
    rw [List.takeWhile_append_of_pos]
    · simp
    · intro c hc
      simp only [ne_eq, decide_not, Bool.not_eq_true', decide_eq_false_iff_not]
      intro he
      subst he
      exact not_mem_fmtInt (by decide) (by decide) i hc
  have h3 := congrArg (List.takeWhile (· ≠ '_')) h2
  rw [key, key] at h3
  exact fmtInt_injective h3

theorem name80_ok {s : List Char} (h : FamilyNameOk s) :
    name80 s = .ok (s ++ List.replicate (80 - s.length) '\x00') := by
  unfold name80
  have := h.1
  rw [if_neg (by omega), if_pos]
  rw [List.all_eq_true]
  intro c hc
  simpa using (h.2.1 c hc).1

theorem rstrip_id {s : List Char} (h : ∀ c, s.getLast? = some c → isWs c = false) :
    (s.reverse.dropWhile isWs).reverse = s := by
  rw [dropWhile_head_not (s := s.reverse) (by simpa using h), List.reverse_reverse]

theorem familyName_name80 {s : List Char} (h : FamilyNameOk s) (k : Nat) :
    familyName (s ++ List.replicate k '\x00') = s := by
  obtain ⟨_, h2, h3, h4⟩ := h
  have hst : strip (s ++ List.replicate k '\x00') = s ++ List.replicate k '\x00' := by
    unfold strip
    rw [dropWhile_head_not (s := s ++ List.replicate k '\x00')]
    · refine rstrip_id ?_
      intro c hc
      cases k with
      | zero => simp at hc; exact h4 c hc
      | succ k =>
        rw [List.replicate_succ', ← List.append_assoc, List.getLast?_append] at hc
        simp at hc
        subst hc; decide
    · intro c hc
      cases s with
      | nil =>
        cases k with
        | zero => cases hc
        | succ k => simp [List.replicate_succ] at hc; subst hc; decide
      | cons a s => exact h3 c (by simpa using hc)
  unfold familyName
  rw [hst, List.reverse_append, List.reverse_replicate]
  have hd : ∀ (k : Nat) (l : List Char), (∀ c, l.head? = some c → c ≠ '\x00') →
      (List.replicate k '\x00' ++ l).dropWhile (· = '\x00') = l := by
    intro k l hl
    induction k with
    | zero =>
      rw [List.replicate_zero, List.nil_append]
      exact dropWhile_head_not (fun c hc => by simpa using hl c hc)
    | succ k ih =>
      rw [List.replicate_succ, List.cons_append, List.dropWhile_cons]
      simpa using ih
  rw [hd k _ ?_, List.reverse_reverse]
  intro c hc
  rw [List.head?_reverse] at hc
  exact (h2 c (List.mem_of_getLast? hc)).2.1

theorem slash_familyKey {f : Int × List (List Char)} (h : ∀ s ∈ f.2, FamilyNameOk s) : '/' ∉ familyKey f := by
  unfold familyKey
  intro hm
  rcases List.mem_append.1 hm with hm | hm
  · exact absurd hm (by decide)
  · rcases List.mem_cons.1 hm with hm | hm
    · exact absurd hm (by decide)
    · rcases List.mem_append.1 hm with hm | hm
      · exact not_mem_fmtInt (by decide) (by decide) _ hm
      · rcases List.mem_cons.1 hm with hm | hm
        · exact absurd hm (by decide)
        · exact not_mem_joinWith (by decide) f.2 (fun t ht hc => ((h t ht).2.1 _ hc).2.2 rfl) hm

/-- What is stored for one family. -/
def famEntry (f : Int × List (List Char)) : List Char × Family :=
  (familyKey f, { num := f.1, names := f.2.map fun s => s ++ List.replicate (80 - s.length) '\x00' })

theorem putFamilies (l : List (Int × List (List Char))) (g : List (List Char × Family))
    (hs : ∀ f ∈ l, ∀ s ∈ f.2, FamilyNameOk s) (hn : (g.map (·.1) ++ l.map familyKey).Nodup) :
    foldRes putFamily g l = .ok (g ++ l.map famEntry) := by
  induction l generalizing g with
  | nil => simp [foldRes]
  | cons f l ih =>
    have hf : familyKey f ∉ g.map (·.1) := by
      intro hm
      rw [List.nodup_append] at hn
      exact hn.2.2 _ hm _ (by simp) rfl
    have hstep : putFamily g f = .ok (g ++ [famEntry f]) := by
      unfold putFamily
      rw [if_neg (slash_familyKey (hs f (by simp))),
        mapRes_ok_of_forall (g := fun s => s ++ List.replicate (80 - s.length) '\x00')
          (fun s h => name80_ok (hs f (by simp) s h))]
      simp only [hCreate, if_neg hf]; rfl
    rw [foldRes, hstep]
    dsimp only
    rw [ih _ (fun f h => hs f (List.mem_cons_of_mem _ h)) (by simpa [famEntry] using hn)]
    simp

theorem foldl_updI {α β : Type} (key : β → Int) (val : β → α) (l : List β) (d : List (Int × α))
    (hn : (d.map (·.1) ++ l.map key).Nodup) :
    l.foldl (fun d f => updI d (key f) (val f)) d = d ++ l.map fun f => (key f, val f) := by
  have app : ∀ (d : List (Int × α)) (k : Int) (v : α), k ∉ d.map (·.1) → updI d k v = d ++ [(k, v)] := by
    intro d k v
    induction d with
    | nil => intro _; rfl
    | cons a d ih =>
      intro h
      simp only [List.map_cons, List.mem_cons, not_or] at h
      rw [updI, if_neg (Ne.symm h.1), ih h.2]; rfl
  induction l generalizing d with
  | nil => simp
  | cons f l ih =>
    rw [List.foldl_cons, app, ih]
    · simp
    · simpa using hn
    · intro hm
      rw [List.nodup_append] at hn
      exact hn.2.2 _ hm _ (by simp) rfl

theorem nodup_familyKey (l : List (Int × List (List Char))) (h : (l.map (·.1)).Nodup) :
    (l.map familyKey).Nodup := by
  unfold List.Nodup at h ⊢
  rw [List.pairwise_map] at h ⊢
  exact h.imp fun {a b} hab he => hab (familyKey_inj he)

/-- Families with distinct numbers and proper names come back with the same numbers and names. -/
theorem C43_families (l : List (Int × List (List Char))) (hn : (l.map (·.1)).Nodup)
    (hs : ∀ f ∈ l, ∀ s ∈ f.2, FamilyNameOk s) :
    ∃ g, foldRes putFamily [] l = .ok g ∧ (readFamilies g).Perm l := by
  refine ⟨l.map famEntry, ?_, ?_⟩
  · have := putFamilies l [] hs (by simpa using nodup_familyKey l hn)
    simpa using this
  · unfold readFamilies
    rw [foldl_updI (fun f : List Char × Family => f.2.num) (fun f => f.2.names.map familyName)]
    · refine (((hItems_perm _).map _)).trans ?_
      rw [List.map_map]
      have : l.map ((fun f : List Char × Family => (f.2.num, f.2.names.map familyName)) ∘ famEntry) = l := by
        conv => rhs; rw [← List.map_id l]
        refine List.map_congr_left fun f hf => ?_
        simp only [famEntry, Function.comp_apply, List.map_map, id_eq]
        refine Prod.ext rfl ?_
        conv => rhs; rw [← List.map_id f.2]
        exact List.map_congr_left fun s h => familyName_name80 (hs f hf s h) _
      rw [this]
    · rw [List.map_nil, List.nil_append]
      refine (((hItems_perm _).map _)).nodup_iff.2 ?_
      rw [List.map_map]
      exact hn

example : foldRes putFamily [] [(-1, ["left".toList, "all".toList]), (2, ["right".toList])] =
    .ok ([(-1, ["left".toList, "all".toList]), (2, ["right".toList])].map famEntry) ∧
    readFamilies ([(-1, ["left".toList, "all".toList]), (2, ["right".toList])].map famEntry) =
      [(-1, ["left".toList, "all".toList]), (2, ["right".toList])] := by decide +kernel

/-! ### Round trip -/

theorem blockOk_of {F : Type} {m : MedMesh F} (h : MedOk m) :
    ∀ e ∈ m.cellData, ∀ x ∈ m.cells.zip e.2, BlockOk x :=
  fun e he x hx => ⟨h.known _ (List.of_mem_zip hx).1, h.cd e he x hx⟩

theorem medNames_nodup {F : Type} {m : MedMesh F} (h : MedOk m) :
    (m.cells.zipIdx.map fun b => medName b.1.1).Nodup := by
  have : m.cells.zipIdx.map (fun b => medName b.1.1) = (m.cells.map (·.1)).map medName := by
    conv => rhs; rw [← List.zipIdx_map_fst 0 m.cells, List.map_map, List.map_map]
    rfl
  rw [this]
  have ht := h.types
  unfold List.Nodup at ht ⊢
  rw [List.pairwise_map]
  refine List.Pairwise.imp_of_mem ?_ ht
  intro a b ha hb hab he
  obtain ⟨x, hx, rfl⟩ := List.mem_map.1 ha
  obtain ⟨y, hy, rfl⟩ := List.mem_map.1 hb
  exact hab (medName_inj (h.known x hx) (h.known y hy) he)

theorem chaWrite {F : Type} {m : MedMesh F} (h : MedOk m) :
    ∃ c0, foldRes putNodal [] m.pointData = .ok c0 ∧
      foldRes (putCellData m.cells) c0 m.cellData = .ok (chaOf m.cells m.pointData m.cellData) := by
  refine ⟨_, putNodals m.cells m.pointData h.pdNames, ?_⟩
  by_cases hcd : m.cellData = []
  · rw [hcd]; rfl
  · obtain ⟨e, l, he⟩ := List.exists_cons_of_ne_nil hcd
    have hne : m.cells ≠ [] := (h.cdLen e (by rw [he]; simp)).2
    have := putCellDatas m.cells m.pointData h.pdNames m.cellData []
      { nodup := h.cdNames, types := h.types, len := fun e he => (h.cdLen e he).1, ne := hne,
        ok := blockOk_of h }
    simpa using this

/-- The file that is written. -/
theorem write_ok {F : Type} {m : MedMesh F} (h : MedOk m) :
    Med.write m = .ok
      { esp := m.dim, coo := flattenF m.dim m.points, nbr := m.points.length, ptFam := m.pointTags,
        mai := m.cells.zipIdx.map (fun b => (medName b.1.1, maiEntry m.cellTags b)),
        noeud := m.pointFam.map famEntry, eleme := m.cellFam.map famEntry,
        cha := chaOf m.cells m.pointData m.cellData } := by
  obtain ⟨c0, h1, h2⟩ := chaWrite h
  have hb := putBlocks m.cellTags m.cells.zipIdx []
    (fun b hb => h.known _ (List.mem_of_getElem? (List.mem_zipIdx_iff_getElem?.1 hb)))
    (fun ts hts b hb => by
      have := List.mem_zipIdx_iff_getElem?.1 hb
      rw [(h.tags ts hts).1]
      rcases Nat.lt_or_ge b.2 m.cells.length with h | h
      · exact h
      · rw [List.getElem?_eq_none h] at this; cases this)
    (by simpa using medNames_nodup h)
  have hpf := putFamilies m.pointFam [] h.pfNames (by simpa using nodup_familyKey _ h.pfIds)
  have hcf := putFamilies m.cellFam [] h.cfNames (by simpa using nodup_familyKey _ h.cfIds)
  rw [List.nil_append] at hb hpf hcf
  unfold Med.write
  rw [if_neg (fun hc => hc h.types), hb, hpf, hcf, h1]
  simp only [h2]

theorem hItems_mai (cells : List (String × List (List Int))) (tags : Option (List (List Int))) :
    hItems (cells.zipIdx.map fun b => (medName b.1.1, maiEntry tags b)) =
      (visited cells).map fun e => (e.1, maiEntry tags e.2) := by
  unfold visited keyed
  rw [hItems_map, List.map_map]
  rfl

theorem readBlocks {F : Type} {m : MedMesh F} (h : MedOk m) :
    mapRes readBlock ((visited m.cells).map fun e => (e.1, maiEntry m.cellTags e.2)) =
      .ok (select (medOrder m.cells) m.cells) := by
  rw [select_cells]
  have key : ∀ l : List (List Char × ((String × List (List Int)) × Nat)),
      (∀ e ∈ l, readBlock (e.1, maiEntry m.cellTags e.2) = .ok e.2.1) →
      mapRes readBlock (l.map fun e => (e.1, maiEntry m.cellTags e.2)) = .ok (l.map (·.2.1)) := by
    intro l
    induction l with
    | nil => intro _; rfl
    | cons a l ih =>
      intro hl
      rw [List.map_cons, mapRes, hl a (by simp)]
      dsimp only
      rw [ih (fun e he => hl e (List.mem_cons_of_mem _ he))]
      rfl
  apply key
  intro e he
  obtain ⟨h1, h2⟩ := visited_mem he
  have hm := List.mem_of_getElem? h2
  rw [h1]
  exact readBlock_ok m.cellTags e.2 (h.known _ hm) (h.rows _ hm).1 (h.rows _ hm).2

theorem readTags {F : Type} {m : MedMesh F} (h : MedOk m) :
    ((visited m.cells).map fun e => (e.1, maiEntry m.cellTags e.2)).filterMap (fun b => b.2.fam) =
      match m.cellTags with
      | none => []
      | some ts => select (medOrder m.cells) ts := by
  rw [List.filterMap_map]
  cases hts : m.cellTags with
  | none => exact filterMap_none_of fun e _ => rfl
  | some ts =>
    have hl := (h.tags ts hts).1
    dsimp only
    unfold select
    rw [medOrder_eq, List.filterMap_map]
    rfl

theorem length_select {α : Type} (cells : List (String × List (List Int))) (l : List α)
    (h : l.length = cells.length) : (select (medOrder cells) l).length = cells.length := by
  cases hl : l with
  | nil =>
    rw [hl] at h
    unfold select
    rw [filterMap_none_of (fun i _ => by simp)]
    exact h
  | cons a l' =>
    rw [← hl, select_visited cells l h (fun i => if h : i < l.length then l[i] else a)
      (fun i hi => by rw [List.getElem?_eq_getElem (by omega)]; simp [show i < l.length by omega]),
      List.length_map, length_visited]

theorem fields_readable {F : Type} (nan : F) {m : MedMesh F} (h : MedOk m) :
    ∀ f ∈ fieldsOf m.cells m.pointData m.cellData, ∀ s ∈ f.2, Readable nan (vtypes m.cells) s := by
  have hcell : ∀ e ∈ m.cellData, ∀ s ∈ (m.cells.zip e.2).map cellSup, Readable nan (vtypes m.cells) s := by
    intro e he s hs
    obtain ⟨x, hx, rfl⟩ := List.mem_map.1 hs
    refine Or.inr ⟨cellSup_ne_noe x, ?_⟩
    rw [cellItem_sup nan _ x (blockOk_of h e he x hx)
      (mem_vtypes (List.mem_map_of_mem (List.of_mem_zip hx).1))]
    rfl
  intro f hf s hs
  unfold fieldsOf at hf
  rcases List.mem_append.1 hf with hf | hf
  · obtain ⟨e, he, rfl⟩ := List.mem_map.1 hf
    rcases List.mem_cons.1 hs with rfl | hs
    · refine Or.inl ⟨rfl, ?_⟩
      rw [noeItem_nodal nan e.2 (h.pd e he)]; rfl
    · cases hl : m.cellData.lookup e.1 with
      | none => rw [hl] at hs; cases hs
      | some arrs =>
        rw [hl] at hs
        exact hcell (e.1, arrs) (mem_of_lookup hl) s hs
  · obtain ⟨e, he, rfl⟩ := List.mem_map.1 hf
    exact hcell e (List.mem_filter.1 he).1 s hs

theorem fields_pd {F : Type} (nan : F) {m : MedMesh F} (h : MedOk m) :
    (fieldsOf m.cells m.pointData m.cellData).filterMap (fun f => (pdOf nan f.2).map fun x => (f.1, x)) =
      m.pointData := by
  unfold fieldsOf
  rw [List.filterMap_append, List.filterMap_map, List.filterMap_map]
  rw [filterMap_none_of (l := List.filter _ _)]
  · rw [List.append_nil]
    conv => rhs; rw [← List.map_id m.pointData]
    refine filterMap_eq_map fun e he => ?_
    simp only [Function.comp_apply]
    cases hl : m.cellData.lookup e.1 with
    | none =>
      have := pdOf_nodal nan e.2 (h.pd e he) []
      simp only [List.map_nil] at this
      dsimp only
      rw [this]; rfl
    | some arrs =>
      dsimp only
      rw [pdOf_nodal nan e.2 (h.pd e he)]; rfl
  · intro e _
    simp only [Function.comp_apply]
    rw [pdOf_cells]; rfl

theorem fields_cd {F : Type} (nan : F) {m : MedMesh F} (h : MedOk m) :
    ((fieldsOf m.cells m.pointData m.cellData).filterMap
      (fun f => (cdOf nan (vtypes m.cells) f.2).map fun x => (f.1, x))).Perm
      (m.cellData.map fun e => (e.1, (select (medOrder m.cells) e.2).map some)) := by
  have hval : ∀ e ∈ m.cellData, cdOf nan (vtypes m.cells) ((m.cells.zip e.2).map cellSup) =
      some ((select (medOrder m.cells) e.2).map some) := fun e he =>
    cdOf_cells nan m.cells e.2 h.types (h.cdLen e he).1 (h.cdLen e he).2 (blockOk_of h e he)
  have hval2 : ∀ e ∈ m.cellData, ∀ p, cdOf nan (vtypes m.cells) (("NOE".toList, p) :: (m.cells.zip e.2).map cellSup) =
      some ((select (medOrder m.cells) e.2).map some) := fun e he p =>
    cdOf_nodal_cells nan m.cells e.2 h.types (h.cdLen e he).1 (h.cdLen e he).2 (blockOk_of h e he) p
  refine (List.perm_ext_iff_of_nodup ?_ ?_).2 ?_
  · refine nodup_of_map (·.1) (List.Nodup.sublist (filterMap_fst_sublist _ _) ?_)
    exact nodup_fieldsOf _ _ _ h.pdNames h.cdNames
  · refine nodup_of_map (·.1) ?_
    rw [List.map_map]
    exact h.cdNames
  · intro x
    constructor
    · intro hx
      obtain ⟨f, hf, hfx⟩ := List.mem_filterMap.1 hx
      unfold fieldsOf at hf
      rcases List.mem_append.1 hf with hf | hf
      · obtain ⟨e, he, rfl⟩ := List.mem_map.1 hf
        cases hl : m.cellData.lookup e.1 with
        | none =>
          simp only [hl, cdOf_nodal] at hfx
          cases hfx
        | some arrs =>
          have hm := mem_of_lookup hl
          simp only [hl] at hfx
          rw [hval2 (e.1, arrs) hm] at hfx
          cases hfx
          exact List.mem_map.2 ⟨_, hm, rfl⟩
      · obtain ⟨e, he, rfl⟩ := List.mem_map.1 hf
        have hm := (List.mem_filter.1 he).1
        dsimp only at hfx
        rw [hval e hm] at hfx
        cases hfx
        exact List.mem_map.2 ⟨e, hm, rfl⟩
    · intro hx
      obtain ⟨e, he, rfl⟩ := List.mem_map.1 hx
      by_cases hp : e.1 ∈ m.pointData.map (·.1)
      · obtain ⟨q, hq, hqe⟩ := List.mem_map.1 hp
        refine List.mem_filterMap.2 ⟨_, List.mem_append_left _ (List.mem_map_of_mem hq), ?_⟩
        have hl : m.cellData.lookup q.1 = some e.2 := by
          rw [hqe]; exact lookup_of_mem h.cdNames he
        simp only [hl]
        rw [hval2 e he, hqe]; rfl
      · refine List.mem_filterMap.2 ⟨(e.1, (m.cells.zip e.2).map cellSup), List.mem_append_right _ ?_, ?_⟩
        · exact List.mem_map.2 ⟨e, List.mem_filter.2 ⟨he, by simpa using hp⟩, rfl⟩
        · dsimp only
          rw [hval e he]; rfl

theorem select_map {α β : Type} (o : List Nat) (l : List α) (g : α → β) : (select o l).map g = select o (l.map g) := by
  unfold select
  rw [List.map_filterMap]
  congr
  funext i
  rw [List.getElem?_map]

/-- What is proved of C43: a mesh with at most one block per type, whose arrays are not empty and have
no axis of length one to lose, comes back with its points, tags, families and data; the cell blocks, and
with them the cell tags and the blocks of every cell data array, are all permuted in the same way: by
the MED names of their types. -/
theorem C43_roundtrip_partial {F : Type} (nan : F) (m : MedMesh F) (h : MedOk m) :
    ∃ f m', Med.write m = .ok f ∧ Med.read nan f = .ok m' ∧
      m'.dim = m.dim ∧ m'.points = m.points ∧ m'.pointTags = m.pointTags ∧
      m'.cells = select (medOrder m.cells) m.cells ∧
      m'.cellTags = m.cellTags.map (select (medOrder m.cells)) ∧
      m'.pointData.Perm m.pointData ∧
      m'.cellData.Perm (m.cellData.map fun e => (e.1, select (medOrder m.cells) e.2)) ∧
      m'.pointFam.Perm m.pointFam ∧ m'.cellFam.Perm m.cellFam := by
  obtain ⟨g1, hg1, hp1⟩ := C43_families m.pointFam h.pfIds h.pfNames
  obtain ⟨g2, hg2, hp2⟩ := C43_families m.cellFam h.cfIds h.cfNames
  have e1 : g1 = m.pointFam.map famEntry := by
    have := putFamilies m.pointFam [] h.pfNames (by simpa using nodup_familyKey _ h.pfIds)
    rw [hg1] at this
    simpa using this
  have e2 : g2 = m.cellFam.map famEntry := by
    have := putFamilies m.cellFam [] h.cfNames (by simpa using nodup_familyKey _ h.cfIds)
    rw [hg2] at this
    simpa using this
  subst e1 e2
  have hcha : hItems (chaOf m.cells m.pointData m.cellData) =
      (hItems (fieldsOf m.cells m.pointData m.cellData)).map fun f => (f.1, one f.2) := by
    rw [chaOf_eq, hItems_map]
  have hperm := hItems_perm (fieldsOf m.cells m.pointData m.cellData)
  have hfields := readFields nan (vtypes m.cells) (hItems (fieldsOf m.cells m.pointData m.cellData))
    { pd := [], cd := [] }
    ((hperm.map (·.1)).nodup_iff.2 (nodup_fieldsOf _ _ _ h.pdNames h.cdNames))
    (by simp) (by simp) (fun f hf => fields_readable nan h f (mem_hItems.1 hf))
  simp only [List.nil_append] at hfields
  have hpd := hperm.filterMap (fun f => (pdOf nan f.2).map fun x => (f.1, x))
  rw [fields_pd nan h] at hpd
  have hcd := (hperm.filterMap (fun f => (cdOf nan (vtypes m.cells) f.2).map fun x => (f.1, x))).trans
    (fields_cd nan h)
  generalize (hItems (fieldsOf m.cells m.pointData m.cellData)).filterMap
    (fun f => (pdOf nan f.2).map fun x => (f.1, x)) = pd at hfields hpd
  generalize (hItems (fieldsOf m.cells m.pointData m.cellData)).filterMap
    (fun f => (cdOf nan (vtypes m.cells) f.2).map fun x => (f.1, x)) = cd at hfields hcd
  have hcomplete : mapRes (fun e : List Char × List (Option (Arr F)) =>
      (mapRes complete (e.2.zip ((select (medOrder m.cells) m.cells).map fun b => b.2.length))).map fun l => (e.1, l)) cd =
      .ok (cd.map fun e => (e.1, e.2.filterMap id)) := by
    refine mapRes_ok_of_forall fun e he => ?_
    obtain ⟨x, hx, rfl⟩ := List.mem_map.1 (hcd.mem_iff.1 he)
    dsimp only
    rw [select_map (medOrder m.cells) m.cells, ← h.cdRows x hx, ← select_map]
    generalize select (medOrder m.cells) x.2 = l
    have : mapRes complete ((l.map some).zip (l.map Arr.len)) = .ok l := by
      induction l with
      | nil => rfl
      | cons a l ih => rw [List.map_cons, List.map_cons, List.zip_cons_cons, mapRes, complete]; dsimp only; rw [if_pos rfl, ih]
    rw [this]
    simp [Except.map]
  have htl : ∀ ts, m.cellTags = some ts → (select (medOrder m.cells) ts).length = m.cells.length :=
    fun ts hts => length_select m.cells ts (h.tags ts hts).1
  have hcl : (select (medOrder m.cells) m.cells).length = m.cells.length := length_select m.cells m.cells rfl
  have hvt : (select (medOrder m.cells) m.cells).map (·.1) = vtypes m.cells := by
    rw [select_cells, List.map_map]; rfl
  refine ⟨_, { dim := m.dim, points := m.points, cells := select (medOrder m.cells) m.cells,
               pointTags := m.pointTags, cellTags := m.cellTags.map (select (medOrder m.cells)),
               pointData := pd, cellData := cd.map (fun e => (e.1, e.2.filterMap id)),
               pointFam := readFamilies (m.pointFam.map famEntry),
               cellFam := readFamilies (m.cellFam.map famEntry) },
    write_ok h, ?_, rfl, rfl, rfl, rfl, rfl, hpd, ?_, hp1, hp2⟩
  · unfold Med.read
    dsimp only
    rw [if_neg (by rw [length_flattenF m.dim m.points h.points, Nat.mul_comm]; simp), hItems_mai, readBlocks h]
    dsimp only
    rw [hcha, hvt, hfields]
    dsimp only
    rw [readTags h, hcomplete, unflattenF_flattenF m.dim m.points h.points]
    rw [(all_hasDim (fun b : String × List (List Int) => b.1) _).2 fun b hb => by
      obtain ⟨i, _, hi⟩ := List.mem_filterMap.1 hb
      exact h.dims b (List.mem_of_getElem? hi)]
    rw [if_neg (by decide), if_neg, if_neg]
    rotate_left
    · intro hx
      obtain ⟨e, he, hne⟩ := List.any_eq_true.1 hx
      rw [decide_eq_true_iff] at hne
      exact hne (h.pdRows e (hpd.mem_iff.1 he))
    · intro hx
      rw [Option.any_eq_true] at hx
      obtain ⟨t, ht, hne⟩ := hx
      rw [decide_eq_true_iff] at hne
      exact hne (h.ptTags t ht)
    cases hts : m.cellTags with
    | none => simp
    | some ts =>
      have hl := htl ts hts
      have hne : select (medOrder m.cells) ts ≠ [] := by
        intro h0
        rw [h0] at hl
        exact (h.tags ts hts).2 (List.length_eq_zero_iff.1 hl.symm)
      simp only
      rw [if_neg (by rw [select_map, select_map, h.tagRows ts hts]; simp), if_neg hne]
      rfl
  · refine (hcd.map _).trans ?_
    rw [List.map_map]
    have : m.cellData.map ((fun e : List Char × List (Option (Arr F)) => (e.1, e.2.filterMap id)) ∘
        fun e => (e.1, (select (medOrder m.cells) e.2).map some)) =
        m.cellData.map fun e => (e.1, select (medOrder m.cells) e.2) := by
      refine List.map_congr_left fun e _ => ?_
      simp [List.filterMap_map, Function.comp_def]
    rw [this]

/-- The order of the file is a permutation of the blocks. -/
theorem C43_order_perm (cells : List (String × List (List Int))) :
    (medOrder cells).Perm (List.range cells.length) := medOrder_perm cells

/-- The blocks are in the order of their MED names, and keep their order when they already were. -/
theorem C43_order_sorted (cells : List (String × List (List Int)))
    (h : cells.Pairwise fun a b => leChars (medName a.1) (medName b.1) = true) :
    select (medOrder cells) cells = cells := by
  rw [select_cells]
  have : visited cells = keyed cells := by
    refine hItems_of_sorted _ ?_
    unfold keyed
    rw [List.pairwise_map]
    have hz : cells.zipIdx.Pairwise (fun a b => leChars (medName a.1.1) (medName b.1.1) = true) := by
      rw [← List.pairwise_map (f := fun b : (String × List (List Int)) × Nat => b.1)
        (R := fun a b => leChars (medName a.1) (medName b.1) = true), List.zipIdx_map_fst]
      exact h
    exact hz
  rw [this]
  unfold keyed
  rw [List.map_map]
  conv => rhs; rw [← List.zipIdx_map_fst 0 cells]
  rfl

/-! ### What does not come back -/

/-- The full claim: a mesh without repeated types is restored by writing and reading. -/
def C43_statement : Prop :=
  ∀ m : MedMesh Int, (m.cells.map (·.1)).Nodup → (∀ b ∈ m.cells, (find meshioToMed b.1).isSome) →
    (∀ p ∈ m.points, p.length = m.dim) → (∀ b ∈ m.cells, Uniform b.2) →
    ∃ f, Med.write m = .ok f ∧ Med.read 0 f = .ok m

def medMixed : MedMesh Int :=
  { dim := 2, points := [[0, 0], [1, 0], [1, 1], [0, 1]],
    cells := [("triangle", [[0, 1, 2], [0, 2, 3]]), ("line", [[0, 1]])],
    pointTags := some [1, 2, 3, 4], cellTags := some [[-1, -2], [-3]],
    pointData := [("u".toList, .vec [5, 6, 7, 8])],
    cellData := [("u".toList, [.mat [[1, 2], [3, 4]], .mat [[5, 6]]])],
    pointFam := [(1, ["left".toList])], cellFam := [(-1, ["a".toList, "b".toList])] }

/-- The blocks are visited by name: triangles (`TR3`) before lines (`SE2`) come back as lines before
triangles. -/
theorem C43_false : ¬ C43_statement := by
  intro h
  obtain ⟨f, h1, h2⟩ := h medMixed (by decide +kernel) (by decide +kernel) (by decide +kernel)
    (by unfold Uniform; decide +kernel)
  have e : Med.write medMixed = .ok f → (Med.read 0 f).toOption.map (·.cells.map (·.1)) = some ["line", "triangle"] := by
    intro hw
    have hx : (Med.write medMixed).toOption.bind (fun f => (Med.read 0 f).toOption.map (·.cells.map (·.1))) =
        some ["line", "triangle"] := by decide +kernel
    rw [hw] at hx
    exact hx
  have := e h1
  rw [h2] at this
  exact absurd this (by decide +kernel)

theorem medMixed_ok : MedOk medMixed where
  types := by decide +kernel
  known := by decide +kernel
  dims := by decide +kernel
  rows := by unfold Uniform; decide +kernel
  points := by decide +kernel
  ptTags := by intro ts h; cases h; decide +kernel
  tagRows := by intro ts h; cases h; decide +kernel
  pdRows := by decide +kernel
  cdRows := by decide +kernel
  tags := by intro ts h; cases h; decide +kernel
  pdNames := by decide +kernel
  pd := by
    intro e he
    rcases List.mem_singleton.1 he with rfl
    exact (by simp [DataOk])
  cdNames := by decide +kernel
  cdLen := by decide +kernel
  cd := by
    intro e he x hx
    rcases List.mem_singleton.1 he with rfl
    rcases List.mem_cons.1 hx with rfl | hx
    · exact ⟨3, by decide +kernel, by unfold CellOk DataOk Uniform; decide +kernel⟩
    · rcases List.mem_singleton.1 hx with rfl
      exact ⟨2, by decide +kernel, by unfold CellOk DataOk Uniform; decide +kernel⟩
  pfIds := by decide +kernel
  pfNames := by
    intro f hf s hs
    rcases List.mem_singleton.1 hf with rfl
    rcases List.mem_singleton.1 hs with rfl
    unfold FamilyNameOk
    refine ⟨by decide +kernel, by decide +kernel, ?_, ?_⟩ <;> intro c hc <;> simp at hc <;> subst hc <;> decide
  cfIds := by decide +kernel
  cfNames := by
    intro f hf s hs
    rcases List.mem_singleton.1 hf with rfl
    rcases List.mem_cons.1 hs with rfl | hs
    · unfold FamilyNameOk
      refine ⟨by decide +kernel, by decide +kernel, ?_, ?_⟩ <;> intro c hc <;> simp at hc <;> subst hc <;> decide
    · rcases List.mem_singleton.1 hs with rfl
      unfold FamilyNameOk
      refine ⟨by decide +kernel, by decide +kernel, ?_, ?_⟩ <;> intro c hc <;> simp at hc <;> subst hc <;> decide

/-- The hypotheses of the round trip hold of a mesh with two blocks, tags, data and families. -/
example : ∃ f, Med.write medMixed = .ok f ∧ Med.read 0 f = .ok { medMixed with
    cells := [("line", [[0, 1]]), ("triangle", [[0, 1, 2], [0, 2, 3]])]
    cellTags := some [[-3], [-1, -2]]
    cellData := [("u".toList, [.mat [[5, 6]], .mat [[1, 2], [3, 4]]])] } := by
  have := medMixed_ok
  refine ⟨_, write_ok this, ?_⟩
  decide +kernel

/-- Values at the nodes of the elements (three axes). -/
example : readCell 0 (fullProfile 3 (.cube [[[1, 2], [3, 4], [5, 6]], [[7, 8], [9, 10], [11, 12]]])) =
    .ok (.cube [[[1, 2], [3, 4], [5, 6]], [[7, 8], [9, 10], [11, 12]]]) ∧
    (Arr.cube [[[1, 2], [3, 4], [5, 6]], [[7, 8], [9, 10], [11, 12]]]).flatF =
      [1, 7, 3, 9, 5, 11, 2, 8, 4, 10, 6, 12] := by decide +kernel

/-- An empty block is written, but the file cannot be read. -/
theorem C43_empty_false {F : Type} (nan : F) (m : MedMesh F) (f : MedFile F) (n : List Char) (e : MedCells)
    (hf : f.mai = [(n, e)]) (he : e.nbr = 0) : Med.read nan f ≠ .ok m := by
  intro h
  unfold Med.read at h
  split at h
  · cases h
  · have : mapRes readBlock (hItems f.mai) = .error .valueError ∨ mapRes readBlock (hItems f.mai) = .error .keyError := by
      rw [hf]
      simp only [hItems, insertBy, mapRes, readBlock, reshape2, he, if_true]
      cases find medToMeshio (String.ofList n) with
      | none => exact Or.inr rfl
      | some t => exact Or.inl rfl
    rcases this with h1 | h1 <;> rw [h1] at h <;> cases h

example : ∃ f, Med.write { medMixed with cells := [("line", [])], cellTags := none, cellData := [] } = .ok f ∧
    f.mai = [("SE2".toList, { nod := [], nbr := 0, fam := none })] := by
  refine ⟨_, rfl, ?_⟩
  decide +kernel

/-- A column of scalars comes back as a plain vector. -/
theorem C43_column_squeezed {F : Type} (nan : F) (l : List F) (h : l ≠ []) :
    readNodal nan (fullProfile 1 (.mat (l.map fun x => [x]))) = .ok (.vec l) ∧
    readCell nan (fullProfile 1 (.mat (l.map fun x => [x]))) = .ok (.vec l) := by
  have e : fullProfile 1 (Arr.mat (l.map fun x => [x])) = fullProfile 1 (.vec l) := by
    simp only [fullProfile, Arr.len, Arr.flatF, List.length_map, widthOf_map_singleton h, flattenF_one]
  rw [e]
  exact ⟨readNodal_ok nan (.vec l) h, readCell_flat nan (.vec l) h⟩

example : readNodal 0 (fullProfile 1 (.mat [[1], [2]])) = .ok (.vec [1, 2]) := by decide +kernel

/-! ### Rejections -/

/-- Two blocks of one type are refused before anything is written. -/
theorem C43_rejects_repeated {F : Type} (m : MedMesh F) (i j : Nat) (hij : i < j) (a b : String × List (List Int))
    (hi : m.cells[i]? = some a) (hj : m.cells[j]? = some b) (hab : a.1 = b.1) :
    Med.write m = .error .writeError := by
  unfold Med.write
  rw [if_pos]
  intro hn
  have hn' : ∀ (k l : Nat) (_ : k < (m.cells.map (·.1)).length) (_ : l < (m.cells.map (·.1)).length), k < l →
      (m.cells.map (·.1))[k] ≠ (m.cells.map (·.1))[l] := List.pairwise_iff_getElem.1 hn
  have hil : i < m.cells.length := by
    rcases Nat.lt_or_ge i m.cells.length with h | h
    · exact h
    · rw [List.getElem?_eq_none h] at hi; cases hi
  have hjl : j < m.cells.length := by
    rcases Nat.lt_or_ge j m.cells.length with h | h
    · exact h
    · rw [List.getElem?_eq_none h] at hj; cases hj
  refine hn' i j (by simpa using hil) (by simpa using hjl) hij ?_
  rw [List.getElem?_eq_getElem hil] at hi
  rw [List.getElem?_eq_getElem hjl] at hj
  cases hi; cases hj
  simpa using hab

example : Med.write { medMixed with cells := [("line", [[0, 1]]), ("triangle", [[0, 1, 2]]), ("line", [[1, 2]])] } =
    .error .writeError :=
  C43_rejects_repeated _ 0 2 (by decide) _ _ rfl rfl rfl

theorem foldRes_putBlock_unknown (tags : Option (List (List Int))) (l : List ((String × List (List Int)) × Nat))
    (mai : List (List Char × MedCells)) (h : ∃ b ∈ l, find meshioToMed b.1.1 = none) :
    ∃ e, foldRes (putBlock tags) mai l = .error e := by
  induction l generalizing mai with
  | nil => obtain ⟨b, hb, _⟩ := h; cases hb
  | cons a l ih =>
    rw [foldRes]
    cases hp : putBlock tags mai a with
    | error e => exact ⟨e, rfl⟩
    | ok m' =>
      obtain ⟨b, hb, hbn⟩ := h
      rcases List.mem_cons.1 hb with rfl | hb
      · unfold putBlock at hp
        rw [hbn] at hp; cases hp
      · exact ih m' ⟨b, hb, hbn⟩

/-- A cell type without a MED name makes the writer fail. -/
theorem C43_rejects_unknown {F : Type} (m : MedMesh F) (h : ∃ b ∈ m.cells, find meshioToMed b.1 = none) :
    ∃ e, Med.write m = .error e := by
  unfold Med.write
  split
  · exact ⟨_, rfl⟩
  · obtain ⟨b, hb, hn⟩ := h
    obtain ⟨i, hi⟩ := List.getElem?_of_mem hb
    obtain ⟨e, he⟩ := foldRes_putBlock_unknown m.cellTags m.cells.zipIdx [] ⟨(b, i), List.mem_zipIdx_iff_getElem?.2 hi, hn⟩
    rw [he]
    exact ⟨e, rfl⟩

example : Med.write { medMixed with cells := [("polygon", [[0, 1, 2]])] } = .error .keyError := by
  unfold Med.write; rfl

/-- A family name longer than 80 characters is refused. -/
theorem C43_rejects_long (g : List (List Char × Family)) (f : Int × List (List Char))
    (h : ∃ s ∈ f.2, 80 < s.length) : ∃ e, putFamily g f = .error e := by
  unfold putFamily
  split
  · exact ⟨_, rfl⟩
  · have : ∃ e, mapRes name80 f.2 = .error e := by
      obtain ⟨s, hm, hl⟩ := h
      generalize f.2 = l at hm
      induction l with
      | nil => cases hm
      | cons a l ih =>
        rw [mapRes]
        cases ha : name80 a with
        | error e => exact ⟨e, rfl⟩
        | ok x =>
          dsimp only
          rcases List.mem_cons.1 hm with rfl | hm
          · unfold name80 at ha
            rw [if_pos hl] at ha; cases ha
          · obtain ⟨e, he⟩ := ih hm
            rw [he]; exact ⟨e, rfl⟩
    obtain ⟨e, he⟩ := this
    rw [he]; exact ⟨e, rfl⟩

/-- Coordinates that do not fill `NBR × ESP` are refused. -/
theorem C43_rejects_points {F : Type} (nan : F) (f : MedFile F) (h : f.coo.length ≠ f.nbr * f.esp) :
    Med.read nan f = .error .valueError := by
  unfold Med.read; rw [if_pos h]

theorem med_complete_len {F : Type} (l : List (Option (Arr F))) (lens : List Nat) (r : List (Arr F)) (hl : l.length = lens.length)
    (h : mapRes complete (l.zip lens) = .ok r) : r.map Arr.len = lens := by
  induction l generalizing lens r with
  | nil =>
    cases lens with
    | nil => cases h; rfl
    | cons => cases hl
  | cons a l ih =>
    cases lens with
    | nil => cases hl
    | cons n lens =>
      rw [List.zip_cons_cons, mapRes] at h
      cases a with
      | none => cases h
      | some a =>
        unfold complete at h
        dsimp only at h
        by_cases hn : a.len = n
        · rw [if_pos hn] at h
          dsimp only at h
          split at h
          · cases h
          · next r' hr' =>
            cases h
            rw [List.map_cons, hn, ih lens r' (by simpa using hl) hr']
        · rw [if_neg hn] at h
          cases h

theorem mem_of_mapRes {α β : Type} {f : α → Res β} {l : List α} {r : List β} (h : mapRes f l = .ok r) : ∀ b ∈ r, ∃ a ∈ l, f a = .ok b := by
  induction l generalizing r with
  | nil => cases h; simp
  | cons a l ih =>
    rw [mapRes] at h
    split at h
    · cases h
    · next b hb =>
      split at h
      · cases h
      · next r' hr' =>
        cases h
        intro x hx
        rcases List.mem_cons.1 hx with rfl | hx
        · exact ⟨a, List.mem_cons_self, hb⟩
        · obtain ⟨y, hy, hyx⟩ := ih hr' x hx
          exact ⟨y, List.mem_cons_of_mem _ hy, hyx⟩

theorem med_lookup_mem {β : Type} {l : List (List Char × β)} {k : List Char} {v : β} (h : l.lookup k = some v) : (k, v) ∈ l := by
  induction l with
  | nil => cases h
  | cons e l ih =>
    rw [List.lookup_cons] at h
    by_cases hk : k = e.1
    · subst hk
      rw [beq_self_eq_true] at h
      cases h
      exact List.mem_cons_self
    · rw [show (k == e.1) = false from by simpa using hk] at h
      exact List.mem_cons_of_mem _ (ih h)

theorem length_upd_lookup {α : Type} (d : List (List Char × List α)) (k : List Char) (v : List α) (n : Nat)
    (hd : ∀ e ∈ d, e.2.length = n) (hv : v.length = n) : ∀ e ∈ upd d k v, e.2.length = n := by
  induction d with
  | nil => intro e he; rcases List.mem_singleton.1 he with rfl; exact hv
  | cons x d ih =>
    intro e he
    unfold upd at he
    split at he
    · rcases List.mem_cons.1 he with rfl | he
      · exact hv
      · exact hd e (List.mem_cons_of_mem _ he)
    · rcases List.mem_cons.1 he with rfl | he
      · exact hd _ List.mem_cons_self
      · exact ih (fun e he => hd e (List.mem_cons_of_mem _ he)) e he

theorem foldRes_invariant {σ α : Type} (P : σ → Prop) (g : σ → α → Res σ) (hg : ∀ s a s', P s → g s a = .ok s' → P s')
    (l : List α) (s s' : σ) (hs : P s) (h : foldRes g s l = .ok s') : P s' := by
  induction l generalizing s with
  | nil => cases h; exact hs
  | cons a l ih =>
    rw [foldRes] at h
    split at h
    · cases h
    · next s1 h1 => exact ih s1 (hg s a s1 hs h1) h

theorem readField_lengths {F : Type} (nan : F) (types : List String) (d d' : Data F) (f : List Char × Field F)
    (hd : ∀ e ∈ d.cd, e.2.length = types.length) (h : readField nan types d f = .ok d') : ∀ e ∈ d'.cd, e.2.length = types.length := by
  unfold readField at h
  refine foldRes_invariant (fun d : Data F => ∀ e ∈ d.cd, e.2.length = types.length) _ ?_ _ _ _ hd h
  intro d s d' hd h
  refine foldRes_invariant (fun d : Data F => ∀ e ∈ d.cd, e.2.length = types.length) _ ?_ _ _ _ hd h
  intro d s d' hd h
  unfold readSupport at h
  split at h
  · split at h
    · cases h
    · cases h; exact hd
  · split at h
    · cases h
    · split at h
      · cases h
      · split at h
        · cases h
        · cases h
          refine length_upd_lookup _ _ _ _ hd ?_
          rw [List.length_set]
          cases hl : d.cd.lookup (stepName f.1 _ _ _) with
          | none => rw [Option.getD_none, List.length_replicate]
          | some v => rw [Option.getD_some]; exact hd _ (med_lookup_mem hl)

/-- What is read is consistent: types with a dimension, a value for each point in point data and tags, a value for each cell in
cell data and tags. -/
theorem C43_read_consistent {F : Type} (nan : F) (f : MedFile F) (m : MedMesh F) (h : Med.read nan f = .ok m) :
    (∀ b ∈ m.cells, KnownType b.1) ∧ (∀ t, m.pointTags = some t → t.length = m.points.length) ∧
      (∀ e ∈ m.pointData, e.2.len = m.points.length) ∧
      (∀ ts, m.cellTags = some ts → ts.map List.length = m.cells.map fun b => b.2.length) ∧
      ∀ e ∈ m.cellData, e.2.map Arr.len = m.cells.map fun b => b.2.length := by
  unfold Med.read at h
  split at h
  · cases h
  · split at h
    · cases h
    · next cells _ =>
      simp only at h
      split at h
      · cases h
      · next d hd =>
        split at h
        · cases h
        · next h0 =>
          split at h
          · cases h
          · next h1 =>
            split at h
            · cases h
            · next h2 =>
              split at h
              · cases h
              · next h3 =>
                split at h
                · cases h
                · next cd hcd =>
                  cases h
                  have hn : (unflattenF f.nbr f.esp f.coo).length = f.nbr := by
                    simp [unflattenF]
                  rw [Bool.not_eq_true, Bool.not_eq_false'] at h0
                  refine ⟨(all_hasDim (fun b : String × List (List Int) => b.1) _).1 h0, ?_, ?_, ?_, ?_⟩
                  · intro t ht
                    dsimp only at ht ⊢
                    rw [hn]
                    rw [ht] at h1
                    simpa using h1
                  · intro e he
                    dsimp only at he ⊢
                    rw [hn]
                    simp only [List.any_eq_true, decide_eq_true_iff, not_exists, not_and, Classical.not_not] at h2
                    exact h2 e he
                  · intro ts hts
                    dsimp only at hts ⊢
                    split at hts
                    · cases hts
                    · next hne =>
                      cases hts
                      exact Classical.byContradiction fun hx => h3 ⟨hne, hx⟩
                  · intro e he
                    dsimp only at he ⊢
                    obtain ⟨x, hx, hxe⟩ := mem_of_mapRes hcd e he
                    have hl := foldRes_invariant (fun d : Data F => ∀ e ∈ d.cd, e.2.length = (cells.map (·.1)).length) _
                      (fun s a s' hs h => readField_lengths nan _ s s' a hs h) _ _ _ (by simp) hd x hx
                    cases hr : mapRes complete (x.2.zip (cells.map fun b => b.2.length)) with
                    | error e' => rw [hr] at hxe; cases hxe
                    | ok r =>
                      rw [hr] at hxe
                      cases hxe
                      exact med_complete_len x.2 _ r (by simpa using hl) hr

/-- MED has names for these two types that meshio has no dimension for. -/
theorem C43_types_without_dimension (t : String) (h : t ∈ medToMeshio.map (·.2)) :
    ¬ KnownType t ↔ t = "pyramid13" ∨ t = "wedge15" :=
  (by decide +kernel : ∀ t ∈ medToMeshio.map (·.2), (¬ KnownType t ↔ t = "pyramid13" ∨ t = "wedge15")) t h

example : Med.read (0 : Int) { esp := 1, coo := [0], nbr := 1, ptFam := none, mai := [("P13".toList, { nod := List.replicate 13 1, nbr := 1, fam := none })], noeud := [], eleme := [], cha := [] } = .error .keyError := by
  decide +kernel

/-- Tags are read for all blocks or for none: a file that gives tags for some blocks only is refused. -/
theorem C43_tags_complete {F : Type} (nan : F) (f : MedFile F) (m : MedMesh F) (h : Med.read nan f = .ok m) :
    m.cellTags = none ∨ ∃ tags, m.cellTags = some tags ∧ tags.length = m.cells.length := by
  cases ht : m.cellTags with
  | none => exact Or.inl rfl
  | some ts =>
    refine Or.inr ⟨ts, rfl, ?_⟩
    have := congrArg List.length ((C43_read_consistent nan f m h).2.2.2.1 ts ht)
    simpa using this

/-! ### Profiles and time steps -/

/-- A profile with distinct numbers in range: each value is at the entity whose (1-based) number is
listed beside it, all other entities are blank. -/
theorem C43_profile {α : Type} (blank : α) (n : Nat) (index : List Int) (vals : List α)
    (hl : vals.length = index.length) (hr : ∀ i ∈ index, 1 ≤ i ∧ i ≤ n) (hn : index.Nodup) :
    ∃ rows, scatter blank n index vals = .ok rows ∧ rows.length = n ∧
      (∀ (k : Nat) (i : Int), index[k]? = some i → rows[(i - 1).toNat]? = vals[k]?) ∧
      (∀ j : Nat, j < n → ((j : Int) + 1) ∉ index → rows[j]? = some blank) := by
  unfold scatter
  have key : ∀ (ps : List (Int × α)) (base : List α), base.length = n →
      (∀ e ∈ ps, 0 ≤ e.1 ∧ e.1 < n) → (ps.map (·.1)).Nodup →
      ∃ rows, foldRes putRow base ps = .ok rows ∧ rows.length = n ∧
        (∀ e ∈ ps, rows[e.1.toNat]? = some e.2) ∧
        (∀ j : Nat, (j : Int) ∉ ps.map (·.1) → rows[j]? = base[j]?) := by
    intro ps
    induction ps with
    | nil =>
      intro base hb _ _
      exact ⟨base, rfl, hb, (by simp), fun _ _ => rfl⟩
    | cons a ps ih =>
      intro base hb hps hnd
      rw [List.map_cons, List.nodup_cons] at hnd
      have ha := hps a (by simp)
      have hput : putRow base a = .ok (base.set a.1.toNat a.2) := by
        unfold putRow; rw [if_pos (by rw [hb]; exact ha)]
      obtain ⟨rows, h1, h2, h3, h4⟩ := ih (base.set a.1.toNat a.2) (by simpa using hb)
        (fun e he => hps e (List.mem_cons_of_mem _ he)) hnd.2
      refine ⟨rows, ?_, h2, ?_, ?_⟩
      · rw [foldRes, hput]; exact h1
      · intro e he
        rcases List.mem_cons.1 he with rfl | he
        · rw [h4 e.1.toNat (by rw [Int.toNat_of_nonneg ha.1]; exact hnd.1)]
          rw [List.getElem?_set_self (by omega)]
        · exact h3 e he
      · intro j hj
        rw [List.map_cons, List.mem_cons, not_or] at hj
        rw [h4 j hj.2, List.getElem?_set_ne]
        intro he
        apply hj.1
        rw [← he, Int.toNat_of_nonneg ha.1]
  have hmap : ((index.map (· - 1)).zip vals).map (·.1) = index.map (· - 1) :=
    List.map_fst_zip (by simp [hl])
  obtain ⟨rows, h1, h2, h3, h4⟩ := key ((index.map (· - 1)).zip vals) (List.replicate n blank) (by simp)
    (by
      intro e he
      obtain ⟨i, hi, hie⟩ := List.mem_map.1 (List.of_mem_zip he).1
      have := hr i hi
      omega)
    (by
      rw [hmap]
      unfold List.Nodup at hn ⊢
      rw [List.pairwise_map]
      exact hn.imp fun {a b} hab he => hab (by omega))
  refine ⟨rows, h1, h2, ?_, ?_⟩
  · intro k i hk
    have hkl : k < vals.length := by
      rw [hl]
      rcases Nat.lt_or_ge k index.length with h | h
      · exact h
      · rw [List.getElem?_eq_none h] at hk; cases hk
    have hm : ((i - 1), vals[k]) ∈ (index.map (· - 1)).zip vals := by
      refine List.mem_of_getElem? (i := k) ?_
      rw [List.getElem?_zip_eq_some]
      exact ⟨by simp [hk], List.getElem?_eq_getElem hkl⟩
    rw [h3 _ hm, List.getElem?_eq_getElem hkl]
  · intro j hj hjn
    rw [h4 j ?_, List.getElem?_replicate, if_pos hj]
    rw [hmap]
    intro hm
    obtain ⟨i, hi, hij⟩ := List.mem_map.1 hm
    apply hjn
    have : i = (j : Int) + 1 := by omega
    rw [← this]; exact hi

example : scatter 0 4 [3, 1] [30, 10] = .ok [10, 0, 30, 0] := by decide +kernel

/-- Several time steps of one field are kept apart: step `i` gets its number in its name. -/
theorem C43_steps_distinct (name : List Char) (i j : Nat) (s t : List Char)
    (h : stepName name false i s = stepName name false j t) : i = j := by
  unfold stepName at h
  simp only [Bool.false_eq_true, if_false, List.append_assoc] at h
  have h1 := List.append_cancel_left (List.append_cancel_left h)
  have key : ∀ (i : Nat) (r : List Char), (fmtNat i ++ ("] - ".toList ++ r)).takeWhile (· ≠ ']') = fmtNat i := by
    intro i r
    rw [List.takeWhile_append_of_pos]
    · simp
    · intro c hc
      simp only [ne_eq, decide_not, Bool.not_eq_true', decide_eq_false_iff_not]
      intro he
      subst he
      have := fmtNat_isDigit hc
      exact absurd this (by decide)
  have h2 := congrArg (List.takeWhile (· ≠ ']')) h1
  rw [key, key] at h2
  have := congrArg parseNat h2
  rw [parseNat_fmtNat, parseNat_fmtNat] at this
  exact Option.some.inj this

/-- A single time step keeps the plain name. -/
theorem C43_single_step (name s : List Char) (i : Nat) : stepName name true i s = name := rfl

example : stepName "u".toList false 2 "0.5".toList = "u[2] - 0.5".toList := by decide +kernel

end Props
end Meshio
