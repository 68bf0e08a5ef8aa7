/-
Writing Gmsh files of version 4.1: the description of what is written can be read, and the mesh it describes.
-/
import Verif.Proofs.Gmsh41W3
import Verif.Proofs.AbaqusMesh
namespace Meshio.Gmsh41
open Meshio Types Tables Gmsh Spec

variable {F : Type}

theorem elemBlocks_map {γ : Type} (m : In F) (g : Msh4Block → γ) (g' : (String × List (List Int)) × Nat → γ)
    (cells : List (String × List (List Int))) (ci start : Nat)
    (h : ∀ bi ∈ cells.zipIdx ci, ∀ start, g (blockIn m bi.2 start bi.1.1 bi.1.2) = g' bi) :
    (msh4ElemBlocks m ci start cells).map g = (cells.zipIdx ci).map g' := by
  induction cells generalizing ci start with
  | nil => rfl
  | cons b cells ih =>
    obtain ⟨t, rows⟩ := b
    rw [msh4ElemBlocks, List.zipIdx_cons, List.map_cons, List.map_cons]
    rw [List.zipIdx_cons] at h
    congr 1
    · exact h ((t, rows), ci) (by simp) start
    · exact ih (ci + 1) _ fun bi hbi => h bi (List.mem_cons_of_mem _ hbi)

theorem mem_elemBlocks (m : In F) (cells : List (String × List (List Int))) (ci start : Nat) (b : Msh4Block) (hb : b ∈ msh4ElemBlocks m ci start cells) :
    ∃ bi ∈ cells.zipIdx ci, ∃ start, b = blockIn m bi.2 start bi.1.1 bi.1.2 := by
  induction cells generalizing ci start with
  | nil => simp [msh4ElemBlocks] at hb
  | cons x cells ih =>
    obtain ⟨t, rows⟩ := x
    rw [msh4ElemBlocks] at hb
    rw [List.zipIdx_cons]
    rcases List.mem_cons.1 hb with rfl | hb
    · exact ⟨((t, rows), ci), by simp, start, rfl⟩
    · obtain ⟨bi, h1, h2⟩ := ih _ _ hb
      exact ⟨bi, List.mem_cons_of_mem _ h1, h2⟩

/-- Each entity has at most one block. -/
theorem blocks_owner (lim : Nat) (m : In F) (h : Msh4In lim m) (dt : List (Int × Int)) (hdt : m.dimTags = some dt)
    (bi : (String × List (List Int)) × Nat) (hbi : bi ∈ m.cells.zipIdx) : msh4Blocks m (msh4Owner m bi) = [bi] := by
  have hn := (h.ents dt hdt).2.2.2.2.1
  have hle := filter_nodup_le (msh4Owner m) m.cells.zipIdx hn (msh4Owner m bi)
  have hmem : bi ∈ msh4Blocks m (msh4Owner m bi) := List.mem_filter.2 ⟨hbi, by simp⟩
  change (msh4Blocks m (msh4Owner m bi)).length ≤ 1 at hle
  match hm : msh4Blocks m (msh4Owner m bi) with
  | [] => rw [hm] at hmem; simp at hmem
  | [x] => rw [hm] at hmem; simp only [List.mem_singleton] at hmem; rw [hmem]
  | x :: y :: l => rw [hm] at hle; simp at hle

theorem file_entity (zero : F) (lim : Nat) (m : In F) (h : Msh4In lim m) (names : List (Int × Int × List Char)) (dt : List (Int × Int)) (hdt : m.dimTags = some dt)
    (bi : (String × List (List Int)) × Nat) (hbi : bi ∈ m.cells.zipIdx) (start : Nat) :
    (msh4File zero m names).entity (blockIn m bi.2 start bi.1.1 bi.1.2) = some (msh4Entity zero m (msh4Owner m bi)) := by
  obtain ⟨-, e2, -, -, -, e6⟩ := h.ents dt hdt
  unfold Msh4File.entity msh4File
  simp only [hdt, Option.map_some, Option.bind_some]
  have hmem : msh4Owner m bi ∈ pairUnique dt := mem_pairUnique.2 (e6 bi hbi)
  rw [← List.map_reverse, List.find?_map]
  have : (pairUnique dt).reverse.find? ((fun e : Msh4Entity F => decide (e.dim = (blockIn m bi.2 start bi.1.1 bi.1.2).dim ∧ e.tag = (blockIn m bi.2 start bi.1.1 bi.1.2).tag)) ∘ msh4Entity zero m) =
      some (msh4Owner m bi) := by
    have hcond : ∀ e ∈ pairUnique dt, ((fun e : Msh4Entity F => decide (e.dim = (blockIn m bi.2 start bi.1.1 bi.1.2).dim ∧ e.tag = (blockIn m bi.2 start bi.1.1 bi.1.2).tag)) ∘ msh4Entity zero m) e =
        decide (e = msh4Owner m bi) := by
      intro e he
      have := e2 e (mem_pairUnique.1 he)
      simp only [Function.comp_apply]
      apply decide_eq_decide.2
      show e.1.toNat = dimOf bi.1.1 ∧ e.2 = msh4Tag m.geometrical bi.2 ↔ e = (((dimOf bi.1.1 : Nat) : Int), msh4Tag m.geometrical bi.2)
      constructor
      · rintro ⟨a, b⟩
        exact Prod.ext (by simp only; omega) b
      · rintro rfl
        exact ⟨by simp, rfl⟩
    cases hf : (pairUnique dt).reverse.find? _ with
    | none =>
      rw [List.find?_eq_none] at hf
      have := hf _ (List.mem_reverse.2 hmem)
      rw [hcond _ hmem] at this
      simp at this
    | some e =>
      have h1 := List.mem_reverse.1 (List.mem_of_find?_eq_some hf)
      have h2 := List.find?_some hf
      rw [hcond e h1] at h2
      rw [of_decide_eq_true h2]
  rw [this]
  rfl

theorem file_phys (zero : F) (lim : Nat) (m : In F) (h : Msh4In lim m) (names : List (Int × Int × List Char))
    (bi : (String × List (List Int)) × Nat) (hbi : bi ∈ m.cells.zipIdx) (start : Nat) :
    (msh4File zero m names).phys (blockIn m bi.2 start bi.1.1 bi.1.2) = if m.dimTags.isSome then [msh4Tag m.physical bi.2] else [] := by
  unfold Msh4File.phys
  cases hdt : m.dimTags with
  | none =>
    have : (msh4File zero m names).entity (blockIn m bi.2 start bi.1.1 bi.1.2) = none := by
      unfold Msh4File.entity msh4File
      simp only [hdt, Option.map_none, Option.bind_none]
    rw [this]
    rfl
  | some dt =>
    rw [file_entity zero lim m h names dt hdt bi hbi start]
    show (msh4Blocks m (msh4Owner m bi)).map _ = _
    rw [blocks_owner lim m h dt hdt bi hbi]
    rfl

theorem file_bounds (zero : F) (lim : Nat) (m : In F) (h : Msh4In lim m) (names : List (Int × Int × List Char)) (dt : List (Int × Int)) (hdt : m.dimTags = some dt)
    (bi : (String × List (List Int)) × Nat) (hbi : bi ∈ m.cells.zipIdx) (start : Nat) (hd : 0 < dimOf bi.1.1) :
    (msh4File zero m names).bounds (blockIn m bi.2 start bi.1.1 bi.1.2) = msh4Bounds m bi.2 := by
  unfold Msh4File.bounds
  rw [file_entity zero lim m h names dt hdt bi hbi start]
  show (if (msh4Owner m bi).1 = 0 then [] else (msh4Blocks m (msh4Owner m bi)).flatMap fun bi => msh4Bounds m bi.2) = _
  have h0 : (msh4Owner m bi).1 ≠ 0 := by
    show ((dimOf bi.1.1 : Nat) : Int) ≠ 0
    omega
  rw [if_neg h0, blocks_owner lim m h dt hdt bi hbi]
  simp

theorem file_nodeData (zero : F) (m : In F) (names : List (Int × Int × List Char)) :
    (msh4File zero m names).nodeData = m.pointData.map fun kv => mshData kv.1 kv.2 := by
  unfold Msh4File.nodeData Msh4File.secs msh4File
  simp only [List.append_nil, List.filterMap_append, List.filterMap_map]
  have e1 : (if names = [] then [] else [Msh4Sec.names (F := F) names]).filterMap Msh4Sec.nodeData? = [] := by
    split <;> rfl
  have e2 : m.periodic.toList.filterMap (Msh4Sec.nodeData? ∘ fun l => Msh4Sec.periodic (F := F) (l.map msh4Periodic)) = [] := by
    cases m.periodic <;> rfl
  have e3 : ∀ n : List Int, m.cellData.filterMap (Msh4Sec.nodeData? ∘ fun kv => Msh4Sec.elemData n (mshData kv.1 (mshConcat kv.2))) = [] := by
    intro n; rw [List.filterMap_eq_nil_iff]; intro a _; rfl
  have e4 : ∀ n : List Int, m.pointData.filterMap (Msh4Sec.nodeData? ∘ fun kv => Msh4Sec.nodeData n (mshData kv.1 kv.2)) =
      m.pointData.map fun kv => mshData kv.1 kv.2 := by
    intro n; rw [← List.filterMap_eq_map]; rfl
  rw [e1, e2, e3, e4]; simp

theorem file_elemData (zero : F) (m : In F) (names : List (Int × Int × List Char)) :
    (msh4File zero m names).elemData = m.cellData.map fun kv => mshData kv.1 (mshConcat kv.2) := by
  unfold Msh4File.elemData Msh4File.secs msh4File
  simp only [List.append_nil, List.filterMap_append, List.filterMap_map]
  have e1 : (if names = [] then [] else [Msh4Sec.names (F := F) names]).filterMap Msh4Sec.elemData? = [] := by
    split <;> rfl
  have e2 : m.periodic.toList.filterMap (Msh4Sec.elemData? ∘ fun l => Msh4Sec.periodic (F := F) (l.map msh4Periodic)) = [] := by
    cases m.periodic <;> rfl
  have e3 : ∀ n : List Int, m.pointData.filterMap (Msh4Sec.elemData? ∘ fun kv => Msh4Sec.nodeData n (mshData kv.1 kv.2)) = [] := by
    intro n; rw [List.filterMap_eq_nil_iff]; intro a _; rfl
  have e4 : ∀ n : List Int, m.cellData.filterMap (Msh4Sec.elemData? ∘ fun kv => Msh4Sec.elemData n (mshData kv.1 (mshConcat kv.2))) =
      m.cellData.map fun kv => mshData kv.1 (mshConcat kv.2) := by
    intro n; rw [← List.filterMap_eq_map]; rfl
  rw [e1, e2, e3, e4]; simp

theorem file_names (zero : F) (m : In F) (names : List (Int × Int × List Char)) :
    (msh4File zero m names).names = names ∧ (msh4File zero m names).names0 = names := by
  have e1 : (if names = [] then [] else [Msh4Sec.names (F := F) names]).flatMap Msh4Sec.name? = names := by
    split
    · next h => rw [h]; rfl
    · simp [Msh4Sec.name?]
  have e2 : m.periodic.toList.flatMap (fun l => Msh4Sec.name? (Msh4Sec.periodic (F := F) (l.map msh4Periodic))) = [] := by
    cases m.periodic <;> rfl
  constructor
  · unfold Msh4File.names Msh4File.secs msh4File
    simp only [List.append_nil, List.flatMap_append, List.flatMap_map]
    rw [e1, e2]
    simp [Msh4Sec.name?]
  · unfold Msh4File.names0 msh4File
    simp only [List.append_nil]
    exact e1

theorem file_periodic (zero : F) (m : In F) (names : List (Int × Int × List Char)) :
    ((msh4File zero m names).secs.filterMap Msh4Sec.periodic?).getLast? = m.periodic.map fun l => l.map msh4Periodic := by
  unfold Msh4File.secs msh4File
  simp only [List.append_nil, List.filterMap_append, List.filterMap_map]
  have e1 : (if names = [] then [] else [Msh4Sec.names (F := F) names]).filterMap Msh4Sec.periodic? = [] := by
    split <;> rfl
  have e2 : ∀ n : List Int, m.pointData.filterMap (Msh4Sec.periodic? ∘ fun kv => Msh4Sec.nodeData n (mshData kv.1 kv.2)) = [] := by
    intro n; rw [List.filterMap_eq_nil_iff]; intro a _; rfl
  have e3 : ∀ n : List Int, m.cellData.filterMap (Msh4Sec.periodic? ∘ fun kv => Msh4Sec.elemData n (mshData kv.1 (mshConcat kv.2))) = [] := by
    intro n; rw [List.filterMap_eq_nil_iff]; intro a _; rfl
  rw [e1, e2, e3]
  cases m.periodic <;> rfl

theorem pos_lt (lim : Nat) (m : In F) (h : Msh4In lim m) (i : Nat) (hi : i < m.points.length) : msh4Pos m i < m.points.length := by
  have := List.idxOf_lt_length_iff.2 ((mem_order lim m h i).2 hi)
  rw [length_order lim m h] at this
  exact this

theorem toList_keys {α : Type} (d : Dict α) (hd : (d.map (·.1)).Nodup) : (d.map fun kv => kv.1.toList).Nodup :=
  List.pairwise_map.2 ((List.pairwise_map.1 hd).imp fun h he => h (String.toList_inj.1 he))

theorem points_three (zero : F) (lim : Nat) (m : In F) (h : Msh4In lim m) : ∀ p ∈ msh4Points zero m, p.length = 3 :=
  (Gmsh22.pad_points zero ⟨m.dim, m.points, [], [], none, none, none, [], [], none⟩ h.points.2).2

theorem msh4File_ok (zero : F) (lim : Nat) (ascii : Bool) (m : In F) (h : Msh4In lim m) (names : List (Int × Int × List Char))
    (hn : names.Perm (m.fieldData.map mshEntry)) : (msh4File zero m names).Ok lim ascii 8 := by
  have hlen : (msh4File zero m names).points.length = m.points.length := by
    rw [file_points, List.length_map, length_order lim m h]
  have hplen : (msh4Points zero m).length = m.points.length := by simp [msh4Points]
  have hcells : ∀ bi ∈ m.cells.zipIdx, bi.1 ∈ m.cells := fun bi hbi => List.fst_mem_of_mem_zipIdx hbi
  refine ⟨Or.inr (Or.inr (Or.inr rfl)), ?_, ?_, ?_, ?_, ?_, ?_, ?_, ?_, ?_⟩
  · intro l hl
    cases hdt : m.dimTags with
    | none => unfold msh4File at hl; simp only [hdt, Option.map_none] at hl; cases hl
    | some dt =>
      obtain ⟨e1, e2, -⟩ := h.ents dt hdt
      have hl' : l = (pairUnique dt).map (msh4Entity zero m) := by
        unfold msh4File at hl
        simp only [hdt, Option.map_some] at hl
        exact (Option.some.inj hl).symm
      subst hl'
      refine ⟨?_, ?_⟩
      · intro x hx
        obtain ⟨e, he, rfl⟩ := List.mem_map.1 hx
        have := e2 e (mem_pairUnique.1 he)
        refine ⟨?_, ?_, ?_⟩
        · show e.1.toNat ≤ 3
          omega
        · show (List.replicate (if e.1 = 0 then 3 else 6) zero).length = if e.1.toNat = 0 then 3 else 6
          rw [List.length_replicate]
          by_cases h0 : e.1 = 0
          · rw [if_pos h0, if_pos (by omega)]
          · rw [if_neg h0, if_neg (by omega)]
        · intro h0
          change e.1.toNat = 0 at h0
          show (if e.1 = 0 then [] else _) = []
          rw [if_pos (by omega)]
      · intro b hb
        obtain ⟨bi, hbi, st, rfl⟩ := mem_elemBlocks m m.cells 0 1 b hb
        rw [file_entity zero lim m h names dt hdt bi hbi st]
        rfl
  · rw [file_ids]
    refine ⟨List.pairwise_map.2 ((nodup_order lim m h).imp fun hab h0 => hab (by omega)), ?_, ?_, ?_⟩
    · intro i hi
      obtain ⟨j, -, rfl⟩ := List.mem_map.1 hi
      omega
    · intro h0
      have := congrArg List.length h0
      rw [List.length_map, length_order lim m h] at this
      exact h.points.1 (List.length_eq_zero_iff.1 this)
    · intro p hp
      rw [file_points] at hp
      obtain ⟨i, hi, rfl⟩ := List.mem_map.1 hp
      have hi' := (mem_order lim m h i).1 hi
      apply points_three zero lim m h
      rw [List.getD_eq_getElem?_getD, List.getElem?_eq_getElem (by omega)]
      exact List.getElem_mem _
  · intro b hb
    obtain ⟨bi, hbi, st, rfl⟩ := mem_elemBlocks m m.cells 0 1 b hb
    obtain ⟨c1, c2, c3⟩ := h.cells bi.1 (hcells bi hbi)
    rw [hlen]
    refine ⟨(type_facts c2).1, c2, h.known bi.1 (hcells bi hbi), ?_, ?_⟩
    · intro h0
      have := congrArg List.length h0
      unfold blockIn at this
      simp at this
      exact c1 this
    · intro e he
      obtain ⟨ri, hri, rfl⟩ := List.mem_map.1 he
      obtain ⟨d1, d2⟩ := c3 ri.1 (List.fst_mem_of_mem_zipIdx hri)
      refine ⟨by simpa [blockIn] using d1, ?_⟩
      intro p hp
      obtain ⟨z, hz, rfl⟩ := List.mem_map.1 hp
      have := d2 z hz
      exact pos_lt lim m h _ (by omega)
  · cases hdt : m.dimTags with
    | none =>
      left
      intro b hb
      obtain ⟨bi, hbi, st, rfl⟩ := mem_elemBlocks m m.cells 0 1 b hb
      rw [file_phys zero lim m h names bi hbi st, hdt]
      rfl
    | some dt =>
      right
      intro b hb
      obtain ⟨bi, hbi, st, rfl⟩ := mem_elemBlocks m m.cells 0 1 b hb
      rw [file_phys zero lim m h names bi hbi st, hdt]
      simp
  · rw [hlen, file_numElems]
    have hnum : ∀ n, n < lim → n < 2 ^ 31 → Msh4Nums lim ascii n (numbersFrom 1 n) := by
      intro n n1 n2
      refine ⟨length_numbersFrom 1 n, ?_⟩
      split
      · intro i hi
        unfold numbersFrom at hi
        obtain ⟨k, hk, rfl⟩ := List.mem_map.1 hi
        have := List.mem_range.1 hk
        omega
      · exact ⟨rfl, n2⟩
    intro x hx
    unfold Msh4File.secs msh4File at hx
    simp only [List.append_nil, List.mem_append] at hx
    rcases hx with hx | hx | hx | hx
    · split at hx
      · simp at hx
      · simp only [List.mem_singleton] at hx
        subst hx
        intro e he
        have := hn.mem_iff.1 he
        obtain ⟨kv, hkv, rfl⟩ := List.mem_map.1 this
        exact (h.fieldData.2 kv hkv).2.2
    · obtain ⟨l, hl, rfl⟩ := List.mem_map.1 hx
      intro p hp
      obtain ⟨q, hq, rfl⟩ := List.mem_map.1 hp
      refine ⟨rfl, ?_⟩
      intro r hr
      have := ((h.periodic l (by cases hm : m.periodic with | none => rw [hm] at hl; simp at hl | some l' => rw [hm] at hl; simp at hl; rw [hl])).2 q hq).2.2.2 r hr
      exact ⟨this.1, this.2.2.1⟩
    · obtain ⟨kv, hkv, rfl⟩ := List.mem_map.1 hx
      obtain ⟨-, k2, k3⟩ := h.pointData.2 kv hkv
      refine ⟨⟨k2, ?_, ?_, k3.rows⟩, hnum _ h.size.1 h.size.2.2.1⟩
      · intro t ht; simp [mshData] at ht
      · intro t ht; simp only [mshData, List.mem_singleton] at ht; subst ht; decide
    · obtain ⟨kv, hkv, rfl⟩ := List.mem_map.1 hx
      obtain ⟨-, k2, -, -, -, k3⟩ := h.cellData.2 kv hkv
      refine ⟨⟨k2, ?_, ?_, k3.rows⟩, hnum _ h.size.2.1 h.size.2.2.2.1⟩
      · intro t ht; simp [mshData] at ht
      · intro t ht; simp only [mshData, List.mem_singleton] at ht; subst ht; decide
  · rw [(file_names zero m names).1]
    have hp := hn.map (fun e : Int × Int × List Char => e.2.2)
    rw [hp.nodup_iff, hp.mem_iff, List.map_map]
    refine ⟨toList_keys m.fieldData h.fieldData.1, ?_⟩
    intro hm
    obtain ⟨kv, hkv, he⟩ := List.mem_map.1 hm
    exact (h.fieldData.2 kv hkv).1 (String.toList_inj.1 he)
  · rw [file_nodeData, List.map_map]
    refine ⟨toList_keys m.pointData h.pointData.1, ?_⟩
    intro hm
    obtain ⟨kv, hkv, he⟩ := List.mem_map.1 hm
    exact (h.pointData.2 kv hkv).1 (String.toList_inj.1 he)
  · rw [file_elemData, List.map_map]
    have hno : ∀ s : String, (∀ kv ∈ m.cellData, kv.1 ≠ s) → s.toList ∉ m.cellData.map ((fun d : MshData F => d.name) ∘ fun kv => mshData kv.1 (mshConcat kv.2)) := by
      intro s hs hm
      obtain ⟨kv, hkv, he⟩ := List.mem_map.1 hm
      exact hs kv hkv (String.toList_inj.1 he)
    exact ⟨toList_keys m.cellData h.cellData.1, hno _ fun kv hkv => (h.cellData.2 kv hkv).1.1, hno _ fun kv hkv => (h.cellData.2 kv hkv).1.2⟩
  · intro h0
    rw [file_elemData]
    have hc0 : m.cells = [] := by
      have := congrArg (List.map fun b => b.elems.length) h0
      change (msh4ElemBlocks m 0 1 m.cells).map _ = _ at this
      rw [length_elemBlocks] at this
      simpa using this
    cases hc : m.cellData with
    | nil => rfl
    | cons kv d =>
      exfalso
      obtain ⟨-, -, k1, k2, -⟩ := h.cellData.2 kv (by rw [hc]; simp)
      rw [hc0] at k2
      simp only [List.map_nil, List.map_eq_nil_iff] at k2
      exact k1 k2

/-! ### The mesh of the written file -/

theorem tags_back (m : In F) (l : List (List Int)) (hl : Msh4Tags m l) :
    (m.cells.zipIdx.map fun bi => List.replicate bi.1.2.length (msh4Tag (some l) bi.2)) = l := by
  obtain ⟨h1, h2⟩ := hl
  have hlen : l.length = m.cells.length := by simpa using congrArg List.length h1
  apply List.ext_getElem
  · simp [hlen]
  · intro i i1 i2
    simp only [List.getElem_map, List.getElem_zipIdx, Nat.zero_add]
    have hi : i < m.cells.length := by simpa using i1
    have e1 : (l[i]).length = (m.cells[i]).2.length := by
      have := congrArg (fun x : List Nat => x[i]?) h1
      simpa [List.getElem?_map, List.getElem?_eq_getElem i2, List.getElem?_eq_getElem hi] using this
    have e2 : msh4Tag (some l) i = (l[i]).headD 0 := by
      unfold msh4Tag
      rw [Option.getD_some, List.getD_eq_getElem?_getD, List.getElem?_eq_getElem i2]
      rfl
    rw [← e1, e2]
    symm
    rw [List.eq_replicate_iff]
    exact ⟨rfl, fun z hz => (h2 _ (List.getElem_mem i2) z hz).2⟩

theorem cut_flatten {α : Type} (l : List (List α)) : cut (l.map (·.length)) l.flatten = l := by
  induction l with
  | nil => rfl
  | cons x l ih => simp [cut, ih]

theorem rows_pos (m : In F) (ci start : Nat) (t : String) (rows : List (List Int)) :
    ((blockIn m ci start t rows).elems.map fun e => e.2.map Int.ofNat) = rows.map fun r => r.map fun z => ((msh4Pos m z.toNat : Nat) : Int) := by
  unfold blockIn
  rw [List.map_map]
  apply List.ext_getElem
  · simp
  · intro i h1 h2
    simp

/-- The mesh that the written file describes. -/
theorem file_mesh (zero : F) (lim : Nat) (m : In F) (h : Msh4In lim m) (names : List (Int × Int × List Char)) :
    (msh4File zero m names).mesh =
      { points := (msh4Order m).map fun i => (msh4Points zero m).getD i []
        cells := m.cells.map fun b => (b.1, b.2.map fun r => r.map fun z => ((msh4Pos m z.toNat : Nat) : Int))
        pointData := m.pointData.map fun kv => (kv.1, mshArrayOut kv.2)
        dimTags := (msh4Order m).map fun i => (msh4NodeOwners m).getD i (0, 0)
        cellData := m.cellData.map fun kv => (kv.1, (mshArrayOut (mshConcat kv.2)).tail, kv.2.map (·.rows))
        physical := if m.dimTags.isSome then m.physical.getD [] else []
        geometrical := m.geometrical.getD (m.cells.map fun b => List.replicate b.2.length 0)
        fieldData := names.map fun e => (String.ofList e.2.2, e.2.1, e.1)
        sets := names.map fun e => (String.ofList e.2.2, m.cells.zipIdx.map fun bi =>
          if m.dimTags.isSome ∧ e.1 = (dimOf bi.1.1 : Int) ∧ e.2.1 = msh4Tag m.physical bi.2 then List.range bi.1.2.length else [])
        bounding := if m.dimTags.isSome ∧ m.cells ≠ [] then
            some (m.cells.zipIdx.map fun bi => if 0 < dimOf bi.1.1 then some (msh4Bounds m bi.2) else none)
          else none
        periodic := m.periodic.map fun l => l.map msh4Periodic } := by
  have hblen : ∀ ci start t (rows : List (List Int)), (blockIn m ci start t rows).elems.length = rows.length := by
    intros; unfold blockIn; simp
  have hmapC : ∀ {γ : Type} (c : γ) ci start t (rows : List (List Int)), ((blockIn m ci start t rows).elems.map fun _ => c) = List.replicate rows.length c := by
    intros; rw [List.map_const', hblen]
  have hcells : ((msh4ElemBlocks m 0 1 m.cells).map fun b => (b.type, b.elems.map fun e => e.2.map Int.ofNat)) =
      m.cells.map fun b => (b.1, b.2.map fun r => r.map fun z => ((msh4Pos m z.toNat : Nat) : Int)) := by
    rw [elemBlocks_map m _ (fun bi => (bi.1.1, bi.1.2.map fun r => r.map fun z => ((msh4Pos m z.toNat : Nat) : Int))) m.cells 0 1 (by
      intro bi _ st
      rw [rows_pos]
      rfl)]
    rw [← Abaqus.map_zipIdx_fst (fun b : String × List (List Int) => (b.1, b.2.map fun r => r.map fun z => ((msh4Pos m z.toNat : Nat) : Int)))]
  have hlens : ((msh4ElemBlocks m 0 1 m.cells).map fun b => b.elems.length) = m.cells.map fun b => b.2.length := length_elemBlocks m 0 1 m.cells
  have hgeo : ((msh4ElemBlocks m 0 1 m.cells).map fun b => b.elems.map fun _ => b.tag) =
      m.geometrical.getD (m.cells.map fun b => List.replicate b.2.length 0) := by
    rw [elemBlocks_map m _ (fun bi => List.replicate bi.1.2.length (msh4Tag m.geometrical bi.2)) m.cells 0 1 (by
      intro bi _ st
      exact hmapC _ _ _ _ _)]
    cases hg : m.geometrical with
    | none =>
      rw [Option.getD_none, ← Abaqus.map_zipIdx_fst (fun b : String × List (List Int) => List.replicate b.2.length (0 : Int))]
      rfl
    | some l => exact tags_back m l (h.tags l (Or.inl hg))
  have hphys : (if ∀ b ∈ msh4ElemBlocks m 0 1 m.cells, (msh4File zero m names).phys b = [] then []
      else (msh4ElemBlocks m 0 1 m.cells).map fun b => b.elems.map fun _ => ((msh4File zero m names).phys b).headD 0) =
      if m.dimTags.isSome then m.physical.getD [] else [] := by
    cases hdt : m.dimTags with
    | none =>
      rw [if_pos]
      · rfl
      · intro b hb
        obtain ⟨bi, hbi, st, rfl⟩ := mem_elemBlocks m m.cells 0 1 b hb
        rw [file_phys zero lim m h names bi hbi st, hdt]
        rfl
    | some dt =>
      obtain ⟨-, -, -, hp, -⟩ := h.ents dt hdt
      obtain ⟨l, hl⟩ := Option.isSome_iff_exists.1 hp
      have hmap : ((msh4ElemBlocks m 0 1 m.cells).map fun b => b.elems.map fun _ => ((msh4File zero m names).phys b).headD 0) = l := by
        rw [elemBlocks_map m _ (fun bi => List.replicate bi.1.2.length (msh4Tag m.physical bi.2)) m.cells 0 1 (by
          intro bi hbi st
          rw [file_phys zero lim m h names bi hbi st, hdt]
          exact hmapC _ _ _ _ _), hl]
        exact tags_back m l (h.tags l (Or.inr hl))
      rw [hmap, hl]
      simp only [Option.isSome_some, if_true, Option.getD_some]
      split
      · next hall =>
        have : m.cells = [] := by
          cases hc : m.cells with
          | nil => rfl
          | cons b bs =>
            exfalso
            have hbi : (b, 0) ∈ m.cells.zipIdx := by rw [hc]; simp
            have hmem : blockIn m 0 1 b.1 b.2 ∈ msh4ElemBlocks m 0 1 m.cells := by
              rw [hc]
              obtain ⟨t, rows⟩ := b
              simp [msh4ElemBlocks, blockIn]
            have := hall _ hmem
            rw [file_phys zero lim m h names (b, 0) hbi 1, hdt] at this
            simp at this
        have hlen := (h.tags l (Or.inr hl)).1
        rw [this] at hlen
        simp at hlen
        exact hlen.symm
      · rfl
  have hsets : ∀ e : Int × Int × List Char, ((msh4ElemBlocks m 0 1 m.cells).map fun b =>
      if e.1 = b.dim ∧ e.2.1 ∈ (msh4File zero m names).phys b then List.range b.elems.length else []) =
      m.cells.zipIdx.map fun bi => if m.dimTags.isSome ∧ e.1 = (dimOf bi.1.1 : Int) ∧ e.2.1 = msh4Tag m.physical bi.2 then List.range bi.1.2.length else [] := by
    intro e
    apply elemBlocks_map
    intro bi hbi st
    rw [file_phys zero lim m h names bi hbi st, hblen]
    have : (blockIn m bi.2 st bi.1.1 bi.1.2).dim = dimOf bi.1.1 := rfl
    rw [this]
    cases m.dimTags with
    | none => simp
    | some dt => simp
  have hbound : (if (msh4File zero m names).ents.isSome ∧ msh4ElemBlocks m 0 1 m.cells ≠ [] then
      some ((msh4ElemBlocks m 0 1 m.cells).map fun b => if 0 < b.dim then some ((msh4File zero m names).bounds b) else none) else none) =
      if m.dimTags.isSome ∧ m.cells ≠ [] then some (m.cells.zipIdx.map fun bi => if 0 < dimOf bi.1.1 then some (msh4Bounds m bi.2) else none) else none := by
    have hents : (msh4File zero m names).ents.isSome = m.dimTags.isSome := by
      unfold msh4File
      simp only
      cases m.dimTags <;> rfl
    have hne : msh4ElemBlocks m 0 1 m.cells ≠ [] ↔ m.cells ≠ [] := by
      rw [Ne, Ne, ← List.map_eq_nil_iff (f := fun b : Msh4Block => b.elems.length), hlens, List.map_eq_nil_iff]
    rw [hents]
    by_cases hc : m.dimTags.isSome ∧ m.cells ≠ []
    · rw [if_pos ⟨hc.1, hne.2 hc.2⟩, if_pos hc]
      congr 1
      obtain ⟨dt, hdt⟩ := Option.isSome_iff_exists.1 hc.1
      apply elemBlocks_map
      intro bi hbi st
      have : (blockIn m bi.2 st bi.1.1 bi.1.2).dim = dimOf bi.1.1 := rfl
      rw [this]
      by_cases h0 : 0 < dimOf bi.1.1
      · rw [if_pos h0, if_pos h0, file_bounds zero lim m h names dt hdt bi hbi st h0]
      · rw [if_neg h0, if_neg h0]
    · rw [if_neg (fun h' => hc ⟨h'.1, hne.1 h'.2⟩), if_neg hc]
  have hdim : ((msh4File zero m names).nodes.flatMap fun b => b.nodes.map fun _ => (b.dim, b.tag)) = (msh4Order m).map fun i => (msh4NodeOwners m).getD i (0, 0) := by
    unfold msh4File msh4Order
    simp only [List.flatMap_map, List.map_flatMap, List.map_map]
    apply flatMap_congr'
    intro e _
    apply List.map_congr_left
    intro i hi
    have := of_decide_eq_true (List.mem_filter.1 hi).2
    simp only [Function.comp_apply]
    rw [List.getD_eq_getElem?_getD, this]
    rfl
  have hpd : (msh4File zero m names).nodeData.map (fun d => (String.ofList d.name, d.array)) = m.pointData.map fun kv => (kv.1, mshArrayOut kv.2) := by
    rw [file_nodeData, List.map_map]
    apply List.map_congr_left
    intro kv _
    show (String.ofList kv.1.toList, _) = _
    rw [String.ofList_toList]
    rfl
  have hcd : (msh4File zero m names).elemData.map (fun d => (String.ofList d.name, d.array.tail, cut ((msh4ElemBlocks m 0 1 m.cells).map fun b => b.elems.length) d.rows)) =
      m.cellData.map fun kv => (kv.1, (mshArrayOut (mshConcat kv.2)).tail, kv.2.map (·.rows)) := by
    rw [file_elemData, List.map_map, hlens]
    apply List.map_congr_left
    intro kv hkv
    show (String.ofList kv.1.toList, _, cut _ (kv.2.map (·.rows)).flatten) = _
    rw [String.ofList_toList]
    have : m.cells.map (fun b => b.2.length) = (kv.2.map (·.rows)).map (·.length) := by
      rw [List.map_map]
      exact (h.cellData.2 kv hkv).2.2.2.1.symm
    rw [this, cut_flatten]
    rfl
  unfold Msh4File.mesh
  rw [file_points, (file_names zero m names).1, (file_names zero m names).2, file_periodic, hpd, hdim]
  have hblocks : (msh4File zero m names).blocks = msh4ElemBlocks m 0 1 m.cells := rfl
  rw [hblocks, hcells, hcd, hgeo, hphys, hbound]
  congr 1
  apply List.map_congr_left
  intro e _
  rw [hsets e]

end Meshio.Gmsh41
