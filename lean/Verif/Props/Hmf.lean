/-
C52: HMF files.
-/
import Verif.Model.Hmf
import Verif.Props.Xdmf
import Verif.Proofs.Med
namespace Meshio
namespace Props
open Xdmf Types Tables Spec

variable {F : Type}

/-! ### Order of the members of a group -/

theorem leChars_antisymm {a b : List Char} (h1 : leChars a b = true) (h2 : leChars b a = true) : a = b := by
  induction a generalizing b with
  | nil =>
    cases b with
    | nil => rfl
    | cons y b => cases h2
  | cons x a ih =>
    cases b with
    | nil => cases h1
    | cons y b =>
      simp only [leChars] at h1 h2
      by_cases a1 : x.toNat < y.toNat
      · rw [if_neg (by omega), if_pos a1] at h2; cases h2
      · rw [if_neg a1] at h1
        by_cases a2 : y.toNat < x.toNat
        · rw [if_pos a2] at h1; cases h1
        · rw [if_neg a2] at h1
          rw [if_neg a2, if_neg a1] at h2
          have : x = y := Char.ext (UInt32.toNat_inj.1 (by
            have : x.toNat = y.toNat := by omega
            exact this))
          rw [this, ih h1 h2]

theorem leChars_append (p a b : List Char) : leChars (p ++ a) (p ++ b) = leChars a b := by
  induction p with
  | nil => rfl
  | cons c p ih => simp [leChars, ih]

/-- A sorted list of the same members is what `items()` gives. -/
theorem hItems_eq {α : Type} {l l' : List (List Char × α)} (hp : l.Perm l') (hs : l'.Pairwise fun a b => leChars a.1 b.1 = true)
    (hn : (l'.map (·.1)).Nodup) : hItems l = l' := by
  have h1 := hItems_sorted l
  have h2 : (hItems l).Perm l' := (hItems_perm l).trans hp
  refine List.Perm.eq_of_pairwise ?_ h1 hs h2
  intro a b ha hb hab hba
  have hk := leChars_antisymm hab hba
  have hb' : b ∈ l' := hb
  have ha' : a ∈ l' := h2.mem_iff.1 ha
  obtain ⟨i, hi, rfl⟩ := List.getElem_of_mem ha'
  obtain ⟨j, hj, rfl⟩ := List.getElem_of_mem hb'
  have : i = j := by
    have := (List.getElem_inj (xs := l'.map (·.1)) (i := i) (j := j) (h₀ := by simpa using hi) (h₁ := by simpa using hj) hn).1
      (by simpa using hk)
    exact this
  subst this
  rfl

/-- The entries of a list in the alphabetical order of their positions written in decimal: 0, 1, 10, 11, …, 2, 20, … -/
def alphabetical {α : Type} (l : List α) : List α :=
  (hItems (l.zipIdx.map fun e => (fmtNat e.2, e.1))).map (·.2)

example : alphabetical (List.range 12) = [0, 1, 10, 11, 2, 3, 4, 5, 6, 7, 8, 9] := by decide +kernel

theorem digits_sorted : ∀ i < 10, ∀ j < 10, i < j → leChars (fmtNat i) (fmtNat j) = true := by decide +kernel

/-- Up to ten entries keep their order. -/
theorem alphabetical_id {α : Type} (l : List α) (h : l.length ≤ 10) : alphabetical l = l := by
  unfold alphabetical
  rw [hItems_of_sorted]
  · rw [List.map_map]
    have : ((fun x : List Char × α => x.2) ∘ fun e : α × Nat => (fmtNat e.2, e.1)) = (·.1) := rfl
    rw [this, List.zipIdx_map_fst]
  · rw [List.pairwise_map, List.pairwise_iff_getElem]
    intro i j hi hj hij
    simp only [List.length_zipIdx] at hi hj
    simp only [List.getElem_zipIdx, Nat.zero_add]
    exact digits_sorted i (by omega) j (by omega) hij

/-! ### Writing and reading -/

/-- The names in the file. -/
theorem C52_names : Hmf.kGeometry = "Geometry".toList ∧ Hmf.kNode = "NodeAttributes".toList ∧
    Hmf.kCell = "CellAttributes".toList ∧ Hmf.kTopology = "Topology".toList := ⟨rfl, rfl, rfl, rfl⟩

private theorem keys : Hmf.kNode ≠ Hmf.kGeometry ∧ Hmf.kCell ≠ Hmf.kGeometry ∧ Hmf.kNode ≠ Hmf.kCell ∧
    Hmf.kCell.take 8 ≠ Hmf.kTopology ∧ Hmf.kGeometry.take 8 ≠ Hmf.kTopology ∧ Hmf.kNode.take 8 ≠ Hmf.kTopology := by decide

private theorem keysT (l : List Char) : Hmf.kNode ≠ 'T' :: l ∧ Hmf.kCell ≠ 'T' :: l ∧ Hmf.kGeometry ≠ 'T' :: l := by
  refine ⟨?_, ?_, ?_⟩ <;> intro h <;> exact absurd (congrArg List.head? h) (by show ¬ (some _ = some 'T'); decide)

/-- What the writer takes: points with a number of coordinates, types with an XDMF name, names without
a path, arrays of one type and shape for each cell data name. -/
structure HmfOk (m : XMesh F) : Prop where
  dim : ∃ d, m.points.inner = [d] ∧ 1 ≤ d
  types : ∀ b ∈ m.cells, (xdmfName b.1).isSome = true
  pointNames : (m.pointData.map (·.1)).Nodup
  pointPlain : ∀ e ∈ m.pointData, Hmf.plainName e.1 = true
  cellNames : (m.cellData.map (·.1)).Nodup
  cellPlain : ∀ e ∈ m.cellData, Hmf.plainName e.1 = true
  cellData : ∀ e ∈ m.cellData, e.2 ≠ [] ∧ ∃ dtype inner, ∀ a ∈ e.2, a.dtype = dtype ∧ a.inner = inner

private theorem createAll (l acc : List (List Char × Nd F)) (hn : ((acc ++ l).map (·.1)).Nodup)
    (hp : ∀ e ∈ l, Hmf.plainName e.1 = true) : foldRes Hmf.createDset acc l = .ok (acc ++ l) := by
  induction l generalizing acc with
  | nil => simp [foldRes]
  | cons e l ih =>
    have hni : e.1 ∉ acc.map (·.1) := by
      rw [List.map_append, List.nodup_append] at hn
      intro h
      exact hn.2.2 _ h e.1 (by simp) rfl
    simp only [foldRes, Hmf.createDset, hp e (by simp), if_true, hCreate, if_neg hni]
    rw [ih (acc ++ [e]) (by simpa using hn) (fun x hx => hp x (by simp [hx]))]
    simp

private def topoNode (b : (String × List (List Int)) × Nat) : List Char × Hmf.Node F :=
  (Hmf.topologyName b.2, .dset [("TopologyType", (xdmfName b.1.1).getD "")] (connNd (widthOf b.1.2) b.1.2))

private theorem topologyName_inj {i j : Nat} (h : Hmf.topologyName i = Hmf.topologyName j) : i = j := by
  unfold Hmf.topologyName at h
  exact Xdmf.fmtNat_inj (List.append_cancel_left h)

private theorem putBlocks (l : List ((String × List (List Int)) × Nat)) (acc : List (List Char × Hmf.Node F))
    (hn : ((acc ++ l.map (topoNode (F := F))).map (·.1)).Nodup) (ht : ∀ b ∈ l, (xdmfName b.1.1).isSome = true) :
    foldRes Hmf.putBlock acc l = .ok (acc ++ l.map topoNode) := by
  induction l generalizing acc with
  | nil => simp [foldRes]
  | cons b l ih =>
    obtain ⟨ty, hty⟩ := Option.isSome_iff_exists.1 (ht b (by simp))
    have hni : Hmf.topologyName b.2 ∉ acc.map (·.1) := by
      rw [List.map_append, List.nodup_append] at hn
      intro h
      exact hn.2.2 _ h (Hmf.topologyName b.2) (by simp [topoNode]) rfl
    have hstep : Hmf.putBlock acc b = .ok (acc ++ [topoNode b]) := by
      unfold Hmf.putBlock hCreate topoNode
      rw [hty]
      simp only [if_neg hni, Option.getD_some]
    simp only [foldRes, hstep]
    rw [ih (acc ++ [topoNode b]) (by simpa using hn) (fun x hx => ht x (by simp [hx]))]
    simp

private theorem topoNames_nodup (cells : List (String × List (List Int))) :
    ((cells.zipIdx.map (topoNode (F := F))).map (·.1)).Nodup := by
  rw [List.map_map, List.Nodup, List.pairwise_map, List.pairwise_iff_getElem]
  intro i j hi hj hij h
  simp only [Function.comp, topoNode, List.getElem_zipIdx, Nat.zero_add] at h
  exact absurd (topologyName_inj h) (by omega)

private theorem topo_head {k : Nat} : ∃ l, Hmf.topologyName k = 'T' :: l := ⟨_, rfl⟩

private theorem topoNode_key {cells : List ((String × List (List Int)) × Nat)} {k : List Char}
    (h : k ∈ (cells.map (topoNode (F := F))).map (·.1)) : ∃ l, k = 'T' :: l := by
  rw [List.map_map] at h
  obtain ⟨b, _, rfl⟩ := List.mem_map.1 h
  exact topo_head

private def geoNode (p : Nd F) : List Char × Hmf.Node F :=
  (Hmf.kGeometry, .dset [("GeometryType", String.ofList ("XYZ".toList.take ((p.inner.head?).getD 0)))] p)

private theorem write_ok (m : XMesh F) (h : HmfOk m) :
    Hmf.write m = .ok { attrs := [("type", "hmf"), ("version", "0.1-alpha")]
                        domains := [("domain".toList, [("grid".toList,
                          geoNode m.points :: m.cells.zipIdx.map topoNode ++
                            [(Hmf.kNode, .group m.pointData), (Hmf.kCell, .group (m.cellData.map joined))])])] } := by
  obtain ⟨d, hd, hd1⟩ := h.dim
  have hraw : rawCellData m.cellData = .ok (m.cellData.map joined) := by
    unfold rawCellData
    apply mapRes_ok_of_forall
    intro e he
    obtain ⟨hne2, dtype, inner, ha⟩ := h.cellData e he
    rw [concatNd_ok hne2 (fun a h => ⟨(ha a h).1, (ha a h).2⟩)]
    unfold joined
    cases he2 : e.2 with
    | nil => exact absurd he2 hne2
    | cons a l =>
      obtain ⟨h1, h2⟩ := ha a (by rw [he2]; simp)
      simp only [List.head?_cons, Option.map_some, Option.getD_some, h1, h2]
      rfl
  have hg : Hmf.putPoints [] m.points = .ok [geoNode m.points] := by
    unfold Hmf.putPoints geoNode hCreate
    rw [hd]
    simp
  have hb : foldRes Hmf.putBlock [geoNode m.points] m.cells.zipIdx = .ok ([geoNode m.points] ++ m.cells.zipIdx.map topoNode) := by
    apply putBlocks
    · rw [List.map_append, List.nodup_append]
      refine ⟨by simp, topoNames_nodup m.cells, ?_⟩
      intro a ha b hb e
      simp only [List.map_cons, List.map_nil, List.mem_singleton, geoNode] at ha
      obtain ⟨l, hl⟩ := topoNode_key hb
      rw [← e, ha] at hl
      exact (keysT l).2.2 hl
    · intro b hb
      have := List.fst_mem_of_mem_zipIdx hb
      exact h.types _ this
  have hna : ∀ (x : List Char), (x = Hmf.kNode ∨ x = Hmf.kCell) →
      x ∉ ([geoNode m.points] ++ m.cells.zipIdx.map (topoNode (F := F))).map (·.1) := by
    intro x hx hm
    rw [List.map_append, List.mem_append] at hm
    rcases hm with hm | hm
    · simp only [List.map_cons, List.map_nil, List.mem_singleton, geoNode] at hm
      rcases hx with hx | hx
      · rw [hx] at hm; exact keys.1 hm
      · rw [hx] at hm; exact keys.2.1 hm
    · obtain ⟨l, hl⟩ := topoNode_key hm
      rcases hx with rfl | rfl
      · exact (keysT l).1 hl
      · exact (keysT l).2.1 hl
  unfold Hmf.write
  rw [hg]
  simp only
  rw [hb]
  simp only
  rw [createAll m.pointData [] (by simpa using h.pointNames) h.pointPlain]
  simp only
  unfold hCreate
  rw [if_neg (hna _ (Or.inl rfl)), hraw]
  simp only
  rw [createAll (m.cellData.map joined) [] (by
      simp only [List.nil_append, List.map_map]
      exact h.cellNames) (by
      intro e he
      obtain ⟨e0, h0, rfl⟩ := List.mem_map.1 he
      exact h.cellPlain e0 h0)]
  simp only
  rw [if_neg]
  · simp
  · intro hm
    rw [List.map_append, List.mem_append] at hm
    rcases hm with hm | hm
    · exact hna _ (Or.inr rfl) hm
    · simp only [List.map_cons, List.map_nil, List.mem_singleton] at hm
      exact keys.2.2.1 hm.symm

private theorem putAll_new (l acc : List (List Char × Nd F)) (hn : ((acc ++ l).map (·.1)).Nodup) :
    Hmf.putAll acc l = acc ++ l := by
  induction l generalizing acc with
  | nil => simp [Hmf.putAll]
  | cons e l ih =>
    have hni : e.1 ∉ acc.map (·.1) := by
      rw [List.map_append, List.nodup_append] at hn
      intro h
      exact hn.2.2 _ h e.1 (by simp) rfl
    unfold Hmf.putAll at *
    rw [List.foldl_cons, upd_new _ _ _ hni, ih _ (by simpa using hn)]
    simp

private theorem items_nodup {α : Type} {l : List (List Char × α)} (h : (l.map (·.1)).Nodup) : ((hItems l).map (·.1)).Nodup :=
  (((hItems_perm l).map _).nodup_iff).2 h

private theorem readTopos (l : List (List Char × (String × List (List Int)))) (hl : ∀ e ∈ l, e.1.take 8 = Hmf.kTopology)
    (ht : ∀ e ∈ l, (xdmfName e.2.1).isSome = true) (s : Hmf.St F) :
    foldRes Hmf.readNode s (l.map fun e => (e.1, .dset [("TopologyType", (xdmfName e.2.1).getD "")] (connNd (widthOf e.2.2) e.2.2))) =
      .ok { s with cells := (l.map (·.2)).foldl (fun d b => Hmf.setCells d b.1 b.2) s.cells } := by
  induction l generalizing s with
  | nil => rfl
  | cons e l ih =>
    obtain ⟨ty, hty⟩ := Option.isSome_iff_exists.1 (ht e (by simp))
    have hstep : Hmf.readNode s (e.1, .dset [("TopologyType", (xdmfName e.2.1).getD "")] (connNd (widthOf e.2.2) e.2.2)) =
        .ok { s with cells := Hmf.setCells s.cells e.2.1 e.2.2 } := by
      unfold Hmf.readNode
      simp only
      rw [if_pos (hl e (by simp)), hty]
      simp only [Option.getD_some, Dict.get?_cons, if_true, C16_xdmf_name _ _ hty, connNd, mapRes_valInts]
    simp only [List.map_cons, foldRes, hstep, List.foldl_cons]
    rw [ih (fun x hx => hl x (by simp [hx])) (fun x hx => ht x (by simp [hx]))]

private theorem attr_sorted (x : List Char) : leChars Hmf.kCell Hmf.kGeometry = true ∧
    leChars Hmf.kCell Hmf.kNode = true ∧ leChars Hmf.kGeometry Hmf.kNode = true ∧
    leChars Hmf.kCell (Hmf.kTopology ++ x) = true ∧ leChars Hmf.kGeometry (Hmf.kTopology ++ x) = true ∧
    leChars Hmf.kNode (Hmf.kTopology ++ x) = true := by
  refine ⟨by decide, by decide, by decide, ?_, ?_, ?_⟩ <;> rfl

/-- What becomes of any mesh the writer takes: the blocks are taken in the alphabetical order of their
numbers, a later block of a type replaces an earlier one, and the cell data is cut at the lengths of
the *names* of the types. -/
theorem C52_read (m : XMesh F) (h : HmfOk m) (cells : List (String × List (List Int)))
    (hcells : cells = (alphabetical m.cells).foldl (fun d b => Hmf.setCells d b.1 b.2) []) :
    ∃ f, Hmf.write m = .ok f ∧
      Hmf.read f = Hmf.newMesh { points := m.points
                                 cells := cells
                                 pointData := hItems m.pointData
                                 cellData := (hItems m.cellData).map fun e => (e.1, splitNd (cells.map fun b => b.1.length) (joined e).2) } := by
  refine ⟨_, write_ok m h, ?_⟩
  obtain ⟨d, hd, hd1⟩ := h.dim
  let topo := hItems (m.cells.zipIdx.map fun e => (fmtNat e.2, e.1))
  let mk : List Char × (String × List (List Int)) → List Char × Hmf.Node F := fun e =>
    (Hmf.kTopology ++ e.1, .dset [("TopologyType", (xdmfName e.2.1).getD "")] (connNd (widthOf e.2.2) e.2.2))
  have hmk : m.cells.zipIdx.map (topoNode (F := F)) = (m.cells.zipIdx.map fun e => (fmtNat e.2, e.1)).map mk := by
    rw [List.map_map]
    rfl
  have hperm : (m.cells.zipIdx.map (topoNode (F := F))).Perm (topo.map mk) := by
    rw [hmk]
    exact (hItems_perm _).symm.map _
  have hitems : hItems (geoNode m.points :: m.cells.zipIdx.map topoNode ++
      [(Hmf.kNode, Hmf.Node.group m.pointData), (Hmf.kCell, .group (m.cellData.map joined))]) =
      [(Hmf.kCell, .group (m.cellData.map joined)), geoNode m.points, (Hmf.kNode, .group m.pointData)] ++
        topo.map mk := by
    apply hItems_eq
    · have e1 : (geoNode m.points :: m.cells.zipIdx.map topoNode ++
          [(Hmf.kNode, Hmf.Node.group m.pointData), (Hmf.kCell, .group (m.cellData.map joined))]).Perm
          ([(Hmf.kCell, .group (m.cellData.map joined)), geoNode m.points, (Hmf.kNode, .group m.pointData)] ++
            m.cells.zipIdx.map topoNode) := by
        rw [List.cons_append]
        refine ((List.perm_append_comm).cons _).trans ?_
        simp only [List.cons_append, List.nil_append]
        refine (List.Perm.cons _ (List.Perm.swap _ _ _)).trans ?_
        exact List.Perm.swap _ _ _
      exact e1.trans (hperm.append_left _)
    · rw [List.pairwise_append]
      refine ⟨?_, ?_, ?_⟩
      · obtain ⟨a, b, c, _⟩ := attr_sorted []
        simp only [List.pairwise_cons, List.mem_cons, List.not_mem_nil, or_false, forall_eq_or_imp, forall_eq, geoNode]
        exact ⟨⟨a, b⟩, c, by simp, List.Pairwise.nil⟩
      · rw [List.pairwise_map]
        refine (hItems_sorted _).imp ?_
        intro a b hab
        show leChars (Hmf.kTopology ++ a.1) (Hmf.kTopology ++ b.1) = true
        rw [leChars_append]
        exact hab
      · intro a ha b hb
        obtain ⟨e, _, rfl⟩ := List.mem_map.1 hb
        obtain ⟨_, _, _, h4, h5, h6⟩ := attr_sorted e.1
        simp only [List.mem_cons, List.not_mem_nil, or_false] at ha
        rcases ha with rfl | rfl | rfl
        · exact h4
        · exact h5
        · exact h6
    · rw [List.map_append, List.nodup_append]
      refine ⟨?_, ?_, ?_⟩
      · simp only [geoNode, List.map_cons, List.map_nil, List.nodup_cons, List.mem_cons, List.not_mem_nil, or_false, not_or,
          not_false_eq_true, List.nodup_nil, and_true]
        exact ⟨⟨keys.2.1, keys.2.2.1.symm⟩, keys.1.symm⟩
      · exact ((hperm.map _).nodup_iff).1 (topoNames_nodup m.cells)
      · intro a ha b hb e
        have hb' : b ∈ (m.cells.zipIdx.map (topoNode (F := F))).map (·.1) := ((hperm.map _).mem_iff).2 hb
        obtain ⟨l, hl⟩ := topoNode_key hb'
        simp only [geoNode, List.map_cons, List.map_nil, List.mem_cons, List.not_mem_nil, or_false] at ha
        rw [← e] at hl
        rcases ha with rfl | rfl | rfl
        · exact (keysT l).2.1 hl
        · exact (keysT l).2.2 hl
        · exact (keysT l).1 hl
  unfold Hmf.read
  have g1 : Dict.get? [("type", "hmf"), ("version", "0.1-alpha")] "type" = some "hmf" := rfl
  have g2 : Dict.get? [("type", "hmf"), ("version", "0.1-alpha")] "version" = some "0.1-alpha" := rfl
  simp only [g1, g2, ne_eq, not_true_eq_false, if_false, List.length_cons, List.length_nil, List.lookup, beq_self_eq_true]
  rw [hitems, foldRes_append]
  have hgeo : String.ofList ("XYZ".toList.take d) ∈ ["X", "XY", "XYZ"] := by
    match d, hd1 with
    | 1, _ => decide
    | 2, _ => decide
    | d + 3, _ =>
      have : "XYZ".toList.take (d + 3) = "XYZ".toList := by simp
      rw [this]
      decide
  have hfirst : foldRes Hmf.readNode ({ points := none, cells := [], pd := [], cdRaw := [] } : Hmf.St F)
      [(Hmf.kCell, .group (m.cellData.map joined)), geoNode m.points, (Hmf.kNode, .group m.pointData)] =
      .ok { points := some m.points, cells := [], pd := hItems m.pointData, cdRaw := hItems (m.cellData.map joined) } := by
    obtain ⟨n5, n4, n6, n1, n2, n3⟩ := keys
    have s1 : ∀ s : Hmf.St F, Hmf.readNode s (Hmf.kCell, .group (m.cellData.map joined)) =
        .ok { s with cdRaw := Hmf.putAll s.cdRaw (hItems (m.cellData.map joined)) } := by
      intro s
      unfold Hmf.readNode
      rw [if_neg n1, if_neg n4, if_pos rfl]
    have s2 : ∀ s : Hmf.St F, Hmf.readNode s (geoNode m.points) = .ok { s with points := some m.points } := by
      intro s
      unfold Hmf.readNode geoNode
      rw [hd]
      simp only [List.head?_cons, Option.getD_some, Dict.get?_cons, if_true]
      rw [if_neg n2, if_pos hgeo]
    have s3 : ∀ s : Hmf.St F, Hmf.readNode s (Hmf.kNode, .group m.pointData) =
        .ok { s with pd := Hmf.putAll s.pd (hItems m.pointData) } := by
      intro s
      unfold Hmf.readNode
      rw [if_neg n3, if_neg n5, if_neg n6, if_pos rfl]
    simp only [foldRes, s1, s2, s3]
    have hcn : ((m.cellData.map joined).map (·.1)).Nodup := by
      rw [List.map_map]
      exact h.cellNames
    rw [putAll_new (hItems m.pointData) [] (by simpa using items_nodup h.pointNames),
      putAll_new (hItems (m.cellData.map joined)) [] (by simpa using items_nodup hcn)]
    simp
  rw [hfirst]
  simp only
  have hlast := readTopos (topo.map fun e => (Hmf.kTopology ++ e.1, e.2)) (by
      intro e he
      obtain ⟨e0, _, rfl⟩ := List.mem_map.1 he
      rfl) (by
      intro e he
      obtain ⟨e0, h0, rfl⟩ := List.mem_map.1 he
      have h0' : e0 ∈ m.cells.zipIdx.map fun e => (fmtNat e.2, e.1) := mem_hItems.1 h0
      obtain ⟨b, hb, rfl⟩ := List.mem_map.1 h0'
      exact h.types _ (List.fst_mem_of_mem_zipIdx hb))
    { points := some m.points, cells := [], pd := hItems m.pointData, cdRaw := hItems (m.cellData.map joined) }
  rw [List.map_map] at hlast
  have hmk2 : ((fun e : List Char × (String × List (List Int)) => (e.1, Hmf.Node.dset [("TopologyType", (xdmfName e.2.1).getD "")] (connNd (F := F) (widthOf e.2.2) e.2.2))) ∘
      fun e : List Char × (String × List (List Int)) => (Hmf.kTopology ++ e.1, e.2)) = mk := rfl
  rw [hmk2] at hlast
  rw [hlast]
  simp only
  have hc2 : ((topo.map fun e => (Hmf.kTopology ++ e.1, e.2)).map (·.2)).foldl (fun d b => Hmf.setCells d b.1 b.2) [] = cells := by
    rw [hcells, List.map_map]
    rfl
  rw [hc2]
  congr 2
  have : m.cellData.map joined = m.cellData.map fun e => (e.1, (joined e).2) := rfl
  rw [this]
  have hj := hItems_map (fun l : List (Nd F) => (joined (([] : List Char), l)).2) m.cellData
  have hj2 : (m.cellData.map fun e => (e.1, (joined e).2)) = m.cellData.map fun e => (e.1, (joined (([] : List Char), e.2)).2) := rfl
  rw [hj2, ← hj, List.map_map]
  rfl

private theorem setCells_new (l acc : List (String × List (List Int))) (hn : ((acc ++ l).map (·.1)).Nodup) :
    l.foldl (fun d b => Hmf.setCells d b.1 b.2) acc = acc ++ l := by
  have one : ∀ (d : List (String × List (List Int))) k v, k ∉ d.map (·.1) → Hmf.setCells d k v = d ++ [(k, v)] := by
    intro d k v hk
    induction d with
    | nil => rfl
    | cons a d ih =>
      obtain ⟨k', v'⟩ := a
      simp only [List.map_cons, List.mem_cons, not_or] at hk
      rw [Hmf.setCells, if_neg (fun e => hk.1 e.symm), ih hk.2]
      rfl
  induction l generalizing acc with
  | nil => simp
  | cons e l ih =>
    have hni : e.1 ∉ acc.map (·.1) := by
      rw [List.map_append, List.nodup_append] at hn
      intro h
      exact hn.2.2 _ h e.1 (by simp) rfl
    rw [List.foldl_cons, one _ _ _ hni, ih _ (by simpa using hn)]
    simp

/-- A mesh as the constructor takes it: known types, arrays as long as points and blocks. -/
structure MeshFits (m : XMesh F) : Prop where
  types : ∀ b ∈ m.cells, b.1 ∈ topologicalDimension.map (·.1)
  points : ∀ e ∈ m.pointData, e.2.rows.length = m.points.rows.length
  cells : ∀ e ∈ m.cellData, (e.2.map fun a => a.rows.length) = m.cells.map fun b => b.2.length

private theorem topDim_known {t : String} (h : t ∈ topologicalDimension.map (·.1)) : (Dict.get? topologicalDimension t).isSome = true := by
  rw [Option.isSome_iff_ne_none]
  intro e
  exact (Dict.get?_eq_none_iff _ _).1 e h

private theorem newMesh_fits {m : XMesh F} (h : MeshFits m) : Hmf.newMesh m = .ok m := by
  unfold Hmf.newMesh
  rw [if_neg, if_neg, if_neg]
  · simp only [Bool.not_eq_true, Bool.not_eq_false', List.all_eq_true, decide_eq_true_eq]
    exact h.cells
  · simp only [Bool.not_eq_true, Bool.not_eq_false', List.all_eq_true, decide_eq_true_eq]
    exact h.points
  · simp only [Bool.not_eq_true, Bool.not_eq_false', List.all_eq_true, Bool.or_eq_true]
    intro b hb
    exact Or.inr (topDim_known (h.types b hb))

/-- C52, what holds: up to ten blocks of different types come back in order; with cell data there must
be one block only.  Data comes back in the order of the names. -/
theorem C52_roundtrip_partial (m : XMesh F) (h : HmfOk m) (hf : MeshFits m) (h10 : m.cells.length ≤ 10)
    (hn : (m.cells.map (·.1)).Nodup) (hcd : m.cellData = [] ∨ m.cells.length = 1) :
    ∃ f, Hmf.write m = .ok f ∧
      Hmf.read f = .ok { m with pointData := hItems m.pointData, cellData := hItems m.cellData } := by
  have hc : (alphabetical m.cells).foldl (fun d b => Hmf.setCells d b.1 b.2) [] = m.cells := by
    rw [alphabetical_id _ h10, setCells_new _ [] (by simpa using hn)]
    rfl
  obtain ⟨f, hw, hr⟩ := C52_read m h m.cells hc.symm
  refine ⟨f, hw, ?_⟩
  rw [hr]
  have hcells : ((hItems m.cellData).map fun e => (e.1, splitNd (m.cells.map fun b => b.1.length) (joined e).2)) = hItems m.cellData := by
    rcases hcd with hcd | hcd
    · rw [hcd]; rfl
    · conv => rhs; rw [← List.map_id (hItems m.cellData)]
      apply List.map_congr_left
      intro e he
      have he' := mem_hItems.1 he
      obtain ⟨hne, dtype, inner, ha⟩ := h.cellData e he'
      have hl := congrArg List.length (hf.cells e he')
      simp only [List.length_map, hcd] at hl
      obtain ⟨n, l⟩ := e
      simp only at hl ha
      obtain ⟨a, rfl⟩ := List.length_eq_one_iff.1 hl
      obtain ⟨b, hb⟩ := List.length_eq_one_iff.1 hcd
      rw [hb]
      simp [splitNd, cellDataFromRaw, cumsum, cumsumFrom, npSplit, slicesBetween, slice, joined]
  rw [hcells]
  apply newMesh_fits
  exact ⟨hf.types, fun e he => hf.points e (mem_hItems.1 he), fun e he => hf.cells e (mem_hItems.1 he)⟩

/-- `hItems` only reorders. -/
theorem C52_data_order {α : Type} (l : List (List Char × α)) : (hItems l).Perm l := hItems_perm l

theorem lookup_setCells (d : List (String × List (List Int))) (k t : String) (v : List (List Int)) :
    (Hmf.setCells d k v).lookup t = if t = k then some v else d.lookup t := by
  induction d with
  | nil =>
    rw [Hmf.setCells, List.lookup_cons]
    by_cases h : t = k
    · simp [h]
    · have : (t == k) = false := by simpa using h
      rw [this, if_neg h]
  | cons p d ih =>
    rw [Hmf.setCells]
    by_cases h : p.1 = k
    · rw [if_pos h, List.lookup_cons, List.lookup_cons]
      by_cases ht : t = k
      · simp [ht]
      · rw [if_neg ht, h]
        have : (t == k) = false := by simpa using ht
        simp [this]
    · rw [if_neg h, List.lookup_cons, List.lookup_cons, ih]
      by_cases ht : t = k
      · have : (t == p.1) = false := by
          rw [beq_eq_false_iff_ne, ht]
          exact fun e => h e.symm
        simp only [this, if_pos ht]
      · simp only [if_neg ht]

theorem lookup_foldl_setCells (l d : List (String × List (List Int))) (t : String) :
    (l.foldl (fun d b => Hmf.setCells d b.1 b.2) d).lookup t = (l.reverse.lookup t).or (d.lookup t) := by
  induction l generalizing d with
  | nil => simp
  | cons b l ih =>
    rw [List.foldl_cons, ih, lookup_setCells, List.reverse_cons, List.lookup_append, List.lookup_cons]
    by_cases ht : t = b.1
    · subst ht
      cases l.reverse.lookup b.1 <;> simp
    · have : (t == b.1) = false := by simpa using ht
      rw [if_neg ht, this]
      cases l.reverse.lookup t <;> simp

theorem newMesh_cells (m r : XMesh F) (h : Hmf.newMesh m = .ok r) : r.cells = m.cells := by
  unfold Hmf.newMesh at h
  split at h
  · cases h
  · split at h
    · cases h
    · split at h
      · cases h
      · cases h; rfl

/-- Of several blocks of a type the last in the alphabetical order of their names is what the file says after reading. -/
theorem C52_last_block (m : XMesh F) (h : HmfOk m) :
    ∃ f, Hmf.write m = .ok f ∧ ∀ r, Hmf.read f = .ok r → ∀ t, r.cells.lookup t = (alphabetical m.cells).reverse.lookup t := by
  obtain ⟨f, hw, hr⟩ := C52_read m h _ rfl
  refine ⟨f, hw, ?_⟩
  intro r hok t
  rw [hr] at hok
  have := newMesh_cells _ _ hok
  rw [this, lookup_foldl_setCells]
  simp

/-- A mesh with one block, point data and cell data. -/
def C52_example : XMesh Int :=
  { points := { dtype := "float64", inner := [2], rows := [[.flt 0, .flt 0], [.flt 1, .flt 0], [.flt 0, .flt 1]] }
    cells := [("triangle", [[0, 1, 2]])]
    pointData := [("v".toList, { dtype := "int64", inner := [], rows := [[.int 1], [.int 2], [.int 3]] })]
    cellData := [("q".toList, [{ dtype := "int64", inner := [], rows := [[.int 5]] }])] }

example : HmfOk C52_example ∧ MeshFits C52_example ∧ C52_example.cells.length ≤ 10 ∧
    (C52_example.cells.map (·.1)).Nodup ∧ C52_example.cells.length = 1 := by
  refine ⟨⟨⟨2, rfl, by decide⟩, ?_, by decide, ?_, by decide, ?_, ?_⟩, ⟨?_, ?_, ?_⟩, by decide, by decide, by decide⟩
  · decide
  · decide
  · decide
  · intro e he
    simp only [C52_example, List.mem_singleton] at he
    subst he
    exact ⟨by simp, "int64", [], by simp⟩
  · decide
  · decide
  · decide

/-- C52 in full: a mesh that can be written comes back with its blocks. -/
def C52_statement : Prop :=
  ∀ (m : XMesh Int), HmfOk m → MeshFits m → ∃ f r, Hmf.write m = .ok f ∧ Hmf.read f = .ok r ∧ r.cells = m.cells

private def noData (cells : List (String × List (List Int))) : XMesh Int :=
  { points := { dtype := "float64", inner := [2], rows := [] }, cells := cells, pointData := [], cellData := [] }

/-- It is false: of two blocks of one type only the last is left. -/
theorem C52_same_type_false : ¬ C52_statement := by
  intro h
  obtain ⟨f, r, hw, hr, hc⟩ := h (noData [("triangle", [[0, 1, 2]]), ("line", [[0, 1]]), ("triangle", [[2, 1, 0]])])
    ⟨⟨2, rfl, by decide⟩, by decide, by decide, by decide, by decide, by decide, fun e he => by cases he⟩
    ⟨by decide, by decide, by decide⟩
  have hw' : Hmf.write (noData [("triangle", [[0, 1, 2]]), ("line", [[0, 1]]), ("triangle", [[2, 1, 0]])]) = .ok _ := rfl
  rw [hw] at hw'
  have := Except.ok.inj hw'
  subst this
  have hr' := congrArg (fun x : Res (XMesh Int) => x.map (·.cells)) hr
  simp only [Except.map, hc] at hr'
  revert hr'
  decide +kernel

/-- With more than ten blocks the order changes, even when the types are all different. -/
theorem C52_eleven_false : ∃ m : XMesh Int, HmfOk m ∧ MeshFits m ∧ (m.cells.map (·.1)).Nodup ∧
    alphabetical m.cells ≠ m.cells := by
  refine ⟨noData [("vertex", []), ("line", []), ("triangle", []), ("quad", []), ("tetra", []), ("pyramid", []), ("wedge", []),
    ("hexahedron", []), ("line3", []), ("quad9", []), ("triangle6", [])], ?_, ?_, by decide, by decide +kernel⟩
  · exact ⟨⟨2, rfl, by decide⟩, by decide, by decide, by decide, by decide, by decide, fun e he => by cases he⟩
  · exact ⟨by decide, by decide, by decide⟩

private theorem slices_lengths {α : Type} (a : List α) (lens ns : List Nat) (p : Nat) (hp : p + ns.sum = a.length)
    (hlen : lens.length = ns.length) (hpos : ∀ n ∈ ns, 0 < n)
    (h : (slicesBetween a (p :: (cumsumFrom p lens).dropLast ++ [a.length])).map List.length = ns) :
    lens.dropLast = ns.dropLast := by
  induction lens generalizing p ns with
  | nil =>
    cases ns with
    | nil => rfl
    | cons => cases hlen
  | cons x lens ih =>
    match ns, hlen with
    | n :: ns, hlen =>
      cases lens with
      | nil =>
        cases ns with
        | nil => rfl
        | cons => simp at hlen
      | cons y lens =>
        match ns, hlen with
        | n' :: ns, hlen =>
          have hc : cumsumFrom p (x :: y :: lens) = (p + x) :: cumsumFrom (p + x) (y :: lens) := rfl
          have hd : (cumsumFrom p (x :: y :: lens)).dropLast = (p + x) :: (cumsumFrom (p + x) (y :: lens)).dropLast := by
            rw [hc]
            rfl
          rw [hd] at h
          simp only [List.cons_append, slicesBetween, List.map_cons, List.cons.injEq] at h
          obtain ⟨h1, h2⟩ := h
          have hn' := hpos n' (by simp)
          simp only [List.sum_cons] at hp
          have hx : x = n := by
            unfold slice at h1
            rw [List.length_drop, List.length_take] at h1
            omega
          subst hx
          rw [List.dropLast_cons_cons, List.dropLast_cons_cons, ih (n' :: ns) (p + x) (by simp only [List.sum_cons]; omega)
            (by simpa using hlen) (fun k hk => hpos k (by simp [hk])) (by simpa using h2)]

/-- Several blocks with cell data: the file is written, but reading it raises ValueError unless every
block but the last has as many cells as its type name has letters. -/
theorem C52_cell_data_false (m : XMesh F) (h : HmfOk m) (hf : MeshFits m) (h10 : m.cells.length ≤ 10)
    (hn : (m.cells.map (·.1)).Nodup) (hcd : m.cellData ≠ []) (hpos : ∀ b ∈ m.cells, b.2 ≠ [])
    (hlen : ¬ (m.cells.map fun b => b.1.length).dropLast = (m.cells.map fun b => b.2.length).dropLast) :
    ∃ f, Hmf.write m = .ok f ∧ Hmf.read f = .error .valueError := by
  have hc : (alphabetical m.cells).foldl (fun d b => Hmf.setCells d b.1 b.2) [] = m.cells := by
    rw [alphabetical_id _ h10, setCells_new _ [] (by simpa using hn)]
    rfl
  obtain ⟨f, hw, hr⟩ := C52_read m h m.cells hc.symm
  refine ⟨f, hw, ?_⟩
  rw [hr]
  unfold Hmf.newMesh
  rw [if_neg, if_neg, if_pos]
  · cases hcd' : hItems m.cellData with
    | nil => exact absurd (List.Perm.eq_nil (hcd' ▸ hItems_perm m.cellData).symm) hcd
    | cons e l =>
      have he : e ∈ m.cellData := mem_hItems.1 (by rw [hcd']; simp)
      rw [Bool.not_eq_true', List.all_eq_false]
      refine ⟨(e.1, splitNd (m.cells.map fun b => b.1.length) (joined e).2), by simp, ?_⟩
      rw [decide_eq_true_eq]
      intro hall
      apply hlen
      simp only [splitNd, List.map_map] at hall
      refine slices_lengths (joined e).2.rows _ _ 0 ?_ (by simp) ?_ hall
      · rw [Nat.zero_add, ← hf.cells e he]
        simp [joined, List.length_flatMap]
      · intro n hn
        obtain ⟨b, hb, rfl⟩ := List.mem_map.1 hn
        exact List.length_pos_iff.2 (hpos b hb)
  · simp only [Bool.not_eq_true, Bool.not_eq_false', List.all_eq_true, decide_eq_true_eq]
    intro e he
    exact hf.points e (mem_hItems.1 he)
  · simp only [Bool.not_eq_true, Bool.not_eq_false', List.all_eq_true, Bool.or_eq_true]
    intro b hb
    exact Or.inr (topDim_known (hf.types b hb))

example : ¬ (([("triangle", [[0, 1, 2], [0, 1, 3]]), ("line", [[0, 1]])] : List (String × List (List Int))).map fun b => b.1.length).dropLast =
    (([("triangle", [[0, 1, 2], [0, 1, 3]]), ("line", [[0, 1]])] : List (String × List (List Int))).map fun b => b.2.length).dropLast := by
  decide

/-- A file of another kind or version is refused. -/
theorem C52_rejects_file (f : Hmf.File F) (t v : String) (h1 : Dict.get? f.attrs "type" = some t)
    (h2 : Dict.get? f.attrs "version" = some v) (h : t ≠ "hmf" ∨ v ≠ "0.1-alpha" ∨ f.domains.length ≠ 1) :
    Hmf.read f = .error .assertionError := by
  unfold Hmf.read
  rw [h1]
  simp only
  split
  · rfl
  · next ht =>
    rw [h2]
    simp only
    split
    · rfl
    · next hv =>
      rcases h with h | h | h
      · exact absurd h ht
      · exact absurd h hv
      · rw [if_pos h]

end Props
end Meshio
