/-
C58: MDPA files say what the mesh says, and are read back.  C49: names of entities.
-/
import Verif.Proofs.Mdpa
import Verif.Props.Types
namespace Meshio.Props
open Meshio Types Tables Spec Mdpa

variable {F : Type}

/-- A file is read as the mesh it describes: the coordinates of the nodes, and runs of neighbouring entities of the same type;
number `k` stands for the `k`-th node. -/
theorem C58_read (io : MdpaFloat F) (f : List (MdpaPart F)) (hf : ∀ p ∈ f, p.Ok io.fmt) :
    Mdpa.read io.parse (linesText (f.flatMap (·.lines))) = .ok ⟨mdpaPoints f, groupRuns (mdpaCells f)⟩ := read_ok io f hf

/-! ### Writing -/

theorem dimension_ok (cells : List (String × List (List Int))) (h : ∀ b ∈ cells, ∃ n, (b.1, n) ∈ mdpaTypes) :
    dimension cells = .ok (if cells.any (fun b => b.1 ∈ mdpaSolid) then 3 else 2) := by
  induction cells with
  | nil => rfl
  | cons b cells ih =>
    obtain ⟨n, hn⟩ := h b (by simp)
    have := (by decide +kernel : ∀ a ∈ mdpaTypes, ((find meshioToMdpa a.1).bind fun nm => (find mdpaLocalDim nm).map
      fun d => decide (d = 3)) = some (decide (a.1 ∈ mdpaSolid))) _ hn
    obtain ⟨nm, d, h1, h2, h3⟩ : ∃ nm d, find meshioToMdpa b.1 = some nm ∧ find mdpaLocalDim nm = some d ∧
        (d = 3 ↔ b.1 ∈ mdpaSolid) := by
      obtain ⟨nm, h1, h2⟩ := Option.bind_eq_some_iff.1 this
      obtain ⟨d, h2, h3⟩ := Option.map_eq_some_iff.1 h2
      exact ⟨nm, d, h1, h2, decide_eq_decide.1 h3⟩
    rw [dimension, h1]
    simp only
    rw [h2]
    simp only
    by_cases hd : d = 3
    · rw [if_pos hd, List.any_cons]
      simp [h3.1 hd]
    · rw [if_neg hd, ih fun b hb => h b (by simp [hb]), List.any_cons]
      simp only [show decide (b.1 ∈ mdpaSolid) = false from decide_eq_false fun e => hd (h3.2 e), Bool.false_or]

instance : DecidableEq (Res (List Char)) := inferInstance

/-- The name written for a type is the one of the dimension of the mesh. -/
theorem entityName_ok {t : String} {n : Nat} (h : (t, n) ∈ mdpaTypes) (solid : Bool) (hs : t ∈ mdpaSolid → solid = true) :
    entityName (if solid then 3 else 2) t = .ok (mdpaName solid t) := by
  cases solid with
  | true =>
    exact (by decide +kernel : ∀ a ∈ mdpaTypes, entityName 3 a.1 = .ok (mdpaName true a.1)) _ h
  | false =>
    refine (by decide +kernel : ∀ a ∈ mdpaTypes, a.1 ∉ mdpaSolid → entityName 2 a.1 = .ok (mdpaName false a.1)) _ h ?_
    intro e
    cases hs e

/-- The lines of a block. -/
def mdpaBlock (solid : Bool) (start : Int) (b : String × List (List Int)) : List (MdpaPart F) :=
  [.cells false (mdpaName solid b.1) b.1 (b.2.zipIdx.map fun ri =>
      (' ' :: (fmtInt (start + ri.2) ++ " 0  ".toList ++ joinWith ' ' (ri.1.map fun z => fmtInt (z + 1))),
        start + ri.2, 0, ri.1.map (· + 1))), .other []]

theorem blockLines_ok (solid : Bool) (cells pre : List (String × List (List Int))) (h : ∀ b ∈ cells, (∃ n, (b.1, n) ∈ mdpaTypes) ∧
      (b.1 ∈ mdpaSolid → solid = true)) :
    blockLines (if solid then 3 else 2) ((pre.map fun b => b.2.length).sum) cells =
      .ok (((cells.zipIdx pre.length).flatMap fun bk => mdpaBlock (F := F) solid
        (1 + ((((pre ++ cells).take bk.2).map fun b => b.2.length).sum : Nat)) bk.1).flatMap (·.lines)) := by
  induction cells generalizing pre with
  | nil => rfl
  | cons b cells ih =>
    obtain ⟨⟨n, hn⟩, hs⟩ := h b (by simp)
    rw [blockLines, entityName_ok hn solid hs]
    simp only
    have ih := ih (pre ++ [b]) fun c hc => h c (by simp [hc])
    rw [show ((pre ++ [b]).map fun b => b.2.length).sum = (pre.map fun b => b.2.length).sum + b.2.length by simp,
      show (pre ++ [b]).length = pre.length + 1 by simp, show pre ++ [b] ++ cells = pre ++ b :: cells by simp] at ih
    rw [ih, List.zipIdx_cons, List.flatMap_cons, List.flatMap_append]
    simp only
    rw [List.take_left' rfl]
    congr 1
    simp only [mdpaBlock, List.flatMap_cons, List.flatMap_nil, MdpaPart.lines, List.append_nil, List.map_map]
    simp only [List.cons_append, List.nil_append, List.append_assoc]
    congr 1
    congr 1
    refine List.map_congr_left fun ri _ => ?_
    simp only [cellLine, Function.comp_apply]
    rw [show (1 + (((pre.map fun b => b.2.length).sum : Nat) : Int) + (ri.2 : Int)) =
      (((pre.map fun b => b.2.length).sum + ri.2 + 1 : Nat) : Int) by omega]
    simp only [fmtInt_ofNat, List.append_assoc]

theorem nodeLines_ok (io : MdpaFloat F) (pts : List (List F)) (h : ∀ p ∈ pts, p.length = 3) :
    mapRes (nodeLine io.fmt) pts.zipIdx =
      .ok (pts.zipIdx.map fun pi => ' ' :: joinWith ' ' (fmtInt (1 + (pi.2 : Int)) :: pi.1.map io.fmt)) := by
  refine mapRes_ok_of_forall fun pi hpi => ?_
  have hl := h pi.1 (List.fst_mem_of_mem_zipIdx hpi)
  obtain ⟨p, k⟩ := pi
  match p, hl with
  | [x, y, z], _ =>
    simp only [nodeLine, List.map_cons, List.map_nil]
    rw [show (1 + (k : Int)) = ((k + 1 : Nat) : Int) by omega]
    rfl

theorem datasLines_ok (repr : F → List Char) (tag : List Char) (d : Dict (NArr (List F))) (h : ∀ kv ∈ d, kv.2.tail.length ≤ 1) :
    datasLines repr tag d = .ok (d.flatMap fun kv => mdpaTable repr tag kv.1 kv.2.rows) := by
  unfold datasLines
  have : mapRes (fun kv => dataLines repr tag kv.1 kv.2) d = .ok (d.map fun kv => mdpaTable repr tag kv.1 kv.2.rows) := by
    refine mapRes_ok_of_forall fun kv hkv => ?_
    have := h kv hkv
    unfold dataLines mdpaTable
    rw [if_neg (by omega)]
    simp only [Except.ok.injEq]
    congr 2
    refine List.map_congr_left fun ri _ => ?_
    rw [show (1 + (ri.2 : Int)) = ((ri.2 + 1 : Nat) : Int) by omega]
    rfl
  rw [this, List.flatMap_def]

theorem rawData_ok (d : Dict (List (NArr (List F)))) (h : ∀ kv ∈ d, kv.2 ≠ [] ∧ ∃ tail, tail.length ≤ 1 ∧ ∀ a ∈ kv.2, a.tail = tail) :
    ∃ raw, Mdpa.rawData d = .ok raw ∧ (∀ kv ∈ raw, kv.2.tail.length ≤ 1) ∧
      ∀ (G : String → List (List F) → List (List Char)),
        (raw.flatMap fun kv => G kv.1 kv.2.rows) = d.flatMap fun kv => G kv.1 (kv.2.flatMap (·.rows)) := by
  induction d with
  | nil => exact ⟨[], rfl, by simp, fun _ => rfl⟩
  | cons kv d ih =>
    obtain ⟨raw, h1, h2, h3⟩ := ih fun kv hkv => h kv (by simp [hkv])
    obtain ⟨hne, tail, ht, hall⟩ := h kv (by simp)
    refine ⟨(kv.1, ⟨tail, (kv.2.map (·.rows)).flatten⟩) :: raw, ?_, ?_, ?_⟩
    · unfold Mdpa.rawData at h1 ⊢
      rw [mapRes]
      rw [rawFromCellData, npConcat_of_tails hne hall]
      simp only
      rw [h1]
    · intro x hx
      rcases List.mem_cons.1 hx with rfl | hx
      · exact ht
      · exact h2 x hx
    · intro G
      rw [List.flatMap_cons, List.flatMap_cons, h3, List.flatMap_def (l := kv.2)]

theorem other_flatMap (l : List (List Char)) : ((l.map MdpaPart.other).flatMap (MdpaPart.lines (F := F))) = l := by
  induction l with
  | nil => rfl
  | cons a l ih => rw [List.map_cons, List.flatMap_cons, ih]; rfl

theorem mdpaFile_lines (io : MdpaFloat F) (m : In F) : (mdpaFile io m).flatMap (·.lines) =
    header ++ ("Begin Nodes".toList :: ((mdpaSpace io.zero m).zipIdx.map fun pi =>
        ' ' :: joinWith ' ' (fmtInt (1 + (pi.2 : Int)) :: pi.1.map io.fmt)) ++ ["End Nodes".toList, []] ++
      ((m.cells.zipIdx.flatMap fun bk => mdpaBlock (F := F) (mdpaIsSolid m)
        (1 + (((m.cells.take bk.2).map fun b => b.2.length).sum : Nat)) bk.1).flatMap (·.lines)) ++
      (m.pointData.flatMap fun kv => mdpaTable io.repr "NodalData".toList kv.1 kv.2.rows) ++
      (m.cellData.flatMap fun kv => mdpaTable io.repr "ElementalData".toList kv.1 (kv.2.flatMap (·.rows)))) := by
  unfold mdpaFile
  have hb : (fun bk : (String × List (List Int)) × Nat => [MdpaPart.cells (F := F) false (mdpaName (mdpaIsSolid m) bk.1.1) bk.1.1
      (bk.1.2.zipIdx.map fun ri =>
        (' ' :: (fmtInt (mdpaStart m bk.2 + ri.2) ++ " 0  ".toList ++ joinWith ' ' (ri.1.map fun z => fmtInt (z + 1))),
          mdpaStart m bk.2 + ri.2, 0, ri.1.map (· + 1))), .other []]) = fun bk => mdpaBlock (F := F) (mdpaIsSolid m)
        (1 + (((m.cells.take bk.2).map fun b => b.2.length).sum : Nat)) bk.1 := by
    funext bk
    unfold mdpaBlock mdpaStart
    rfl
  rw [hb]
  generalize (m.cells.zipIdx.flatMap fun bk => mdpaBlock (F := F) (mdpaIsSolid m)
        (1 + (((m.cells.take bk.2).map fun b => b.2.length).sum : Nat)) bk.1) = C
  rw [List.flatMap_append, List.flatMap_append, List.flatMap_append, other_flatMap, other_flatMap]
  generalize C.flatMap (MdpaPart.lines (F := F)) = D
  rw [show header = ["Begin ModelPartData".toList, "//  VARIABLE_NAME value".toList, "End ModelPartData".toList, [],
    "Begin Properties 0".toList, "End Properties".toList, []] by decide +kernel]
  simp only [List.flatMap_cons, List.flatMap_nil, MdpaPart.lines, List.append_nil, List.map_map]
  simp only [List.append_assoc, List.cons_append, List.nil_append]
  rfl

theorem mdpaSpace_length (io : MdpaFloat F) (m : In F) (h : MdpaIn m) : ∀ p ∈ mdpaSpace io.zero m, p.length = 3 := by
  intro p hp
  obtain ⟨q, hq, rfl⟩ := List.mem_map.1 hp
  have := h.points.2 q hq
  rcases h.points.1 with e | e
  · rw [if_pos (by omega)]; simp; omega
  · rw [if_neg (by omega)]; omega

/-- What is written: the header, the nodes numbered from one, a section for each block with the name of its type in the dimension
of the mesh, cells numbered from one across the blocks, and the tables of data. -/
theorem C58_write (io : MdpaFloat F) (m : In F) (h : MdpaIn m) :
    Mdpa.write io m = .ok (linesText ((mdpaFile io m).flatMap (·.lines))) := by
  have hpts : (if m.dim = 2 then m.points.map (· ++ [io.zero]) else m.points) = mdpaSpace io.zero m := by
    unfold mdpaSpace
    rcases h.points.1 with e | e
    · rw [if_pos e]
      refine List.map_congr_left fun p hp => ?_
      rw [if_pos (by rw [h.points.2 p hp, e])]
    · rw [if_neg (by omega)]
      conv => lhs; rw [← List.map_id m.points]
      refine List.map_congr_left fun p hp => ?_
      rw [if_neg (by rw [h.points.2 p hp]; omega)]
      rfl
  have hty : ∀ b ∈ m.cells, ∃ n, (b.1, n) ∈ mdpaTypes := fun b hb => by
    obtain ⟨n, hn, -⟩ := h.cells b hb
    exact ⟨n, hn⟩
  obtain ⟨raw, hr1, hr2, hr3⟩ := rawData_ok m.cellData fun kv hkv => (h.cellData kv hkv).2
  unfold Mdpa.write
  simp only
  rw [hpts, dimension_ok m.cells hty, nodeLines_ok io _ (mdpaSpace_length io m h)]
  simp only
  have hb := blockLines_ok (F := F) (mdpaIsSolid m) m.cells [] (by
    intro b hb
    refine ⟨hty b hb, fun hs => ?_⟩
    unfold mdpaIsSolid
    rw [List.any_eq_true]
    exact ⟨b, hb, decide_eq_true hs⟩)
  simp only [List.map_nil, List.sum_nil, List.nil_append, List.length_nil] at hb
  rw [show (if (m.cells.any fun b => decide (b.1 ∈ mdpaSolid)) = true then 3 else 2) = (if mdpaIsSolid m = true then 3 else 2) from rfl,
    hb]
  simp only
  rw [datasLines_ok _ _ _ (fun kv hkv => (h.pointData kv hkv).2), hr1]
  simp only
  rw [datasLines_ok _ _ _ hr2]
  simp only
  rw [hr3 (fun k rows => mdpaTable io.repr "ElementalData".toList k rows), mdpaFile_lines]
  rfl

/-! ### Round trip -/

theorem begins_other (a : List Char) (hne : a ≠ []) (h1 : ∀ c, a.head? = some c → isWs c = false)
    (h2 : ∀ c, a.getLast? = some c → isWs c = false)
    (h : ∀ w ∈ ["Begin Nodes", "Begin Elements", "Begin Conditions"], ¬ w.toList.take a.length <+: a) (s : List Char) :
    ∀ w ∈ ["Begin Nodes", "Begin Elements", "Begin Conditions"], ¬ w.toList <+: strip (a ++ s) := by
  obtain ⟨r, hr⟩ := strip_prefix a hne h1 h2 s
  rw [hr]
  intro w hw hp
  exact h w hw (List.prefix_of_prefix_length_le ((List.take_prefix _ _).trans hp) (List.prefix_append a r) (by simp; omega))

theorem table_other (repr : F → List Char) (hr : ∀ x, '\n' ∉ repr x) (tag : List Char)
    (htag : tag = "NodalData".toList ∨ tag = "ElementalData".toList) (name : String) (hn : '\n' ∉ name.toList) (rows : List (List F)) :
    ∀ l ∈ mdpaTable repr tag name rows, '\n' ∉ l ∧ ∀ w ∈ ["Begin Nodes", "Begin Elements", "Begin Conditions"], ¬ w.toList <+: strip l := by
  intro l hl
  have hempty : '\n' ∉ ([] : List Char) ∧ ∀ w ∈ ["Begin Nodes", "Begin Elements", "Begin Conditions"], ¬ w.toList <+: strip [] := by
    exact ⟨by simp, by decide⟩
  unfold mdpaTable at hl
  simp only [List.mem_append, List.mem_cons, List.not_mem_nil, or_false] at hl
  rcases hl with ((rfl | rfl) | hl) | (rfl | rfl)
  · refine ⟨?_, ?_⟩
    · intro hm
      rcases List.mem_append.1 hm with hm | hm
      · revert hm; rcases htag with rfl | rfl <;> decide
      · rcases List.mem_cons.1 hm with hm | hm
        · revert hm; decide
        · exact hn hm
    · have e : "Begin ".toList ++ tag ++ ' ' :: name.toList = ("Begin ".toList ++ tag) ++ (' ' :: name.toList) := rfl
      rw [e]
      rcases htag with rfl | rfl
      · exact begins_other _ (by decide) (by decide) (by decide) (by decide) _
      · exact begins_other _ (by decide) (by decide) (by decide) (by decide) _
  · exact hempty
  · obtain ⟨ri, -, rfl⟩ := List.mem_map.1 hl
    refine ⟨?_, ?_⟩
    · refine not_mem_joinWith (by decide) _ ?_
      intro t ht
      rcases List.mem_cons.1 ht with rfl | ht
      · exact not_mem_fmtInt (by decide) (by decide) _
      · obtain ⟨x, -, rfl⟩ := List.mem_map.1 ht
        exact hr x
    · have ht := isTok_fmtInt (1 + (ri.2 : Int))
      have key := fun s => begins_other (fmtInt (1 + (ri.2 : Int))) ht.1 (fun c hc => ht.2 c (List.mem_of_mem_head? hc))
        (fun c hc => ht.2 c (List.mem_of_getLast? hc)) (by
          intro w hw hp
          have := (by decide : ∀ w ∈ ["Begin Nodes", "Begin Elements", "Begin Conditions"], w.toList.head? = some 'B') w hw
          obtain ⟨d, t, ht'⟩ := List.exists_cons_of_ne_nil ht.1
          rw [ht'] at hp
          have hh : (w.toList.take (d :: t).length).head? = some 'B' := by rw [List.head?_take, if_neg (by simp), this]
          exact not_mem_fmtInt (by decide) (by decide) _ (ht' ▸ hp.subset (List.mem_of_mem_head? hh))) s
      cases ri.1 with
      | nil => simpa [joinWith] using key []
      | cons x xs =>
        rw [List.map_cons, joinWith]
        exact key _
  · refine ⟨?_, ?_⟩
    · intro hm
      rcases List.mem_append.1 hm with hm | hm
      · revert hm; rcases htag with rfl | rfl <;> decide
      · rcases List.mem_cons.1 hm with hm | hm
        · revert hm; decide
        · exact hn hm
    · have e : "End ".toList ++ tag ++ ' ' :: name.toList = ("End ".toList ++ tag) ++ (' ' :: name.toList) := rfl
      rw [e]
      rcases htag with rfl | rfl
      · exact begins_other _ (by decide) (by decide) (by decide) (by decide) _
      · exact begins_other _ (by decide) (by decide) (by decide) (by decide) _
  · exact hempty

theorem mdpaName_named {t : String} {n : Nat} (h : (t, n) ∈ mdpaTypes) (solid : Bool) (hs : t ∈ mdpaSolid → solid = true) :
    MdpaNamed (mdpaName solid t) t n ∧ strip (mdpaName solid t) = mdpaName solid t ∧ '\n' ∉ mdpaName solid t := by
  have key : ∀ a ∈ mdpaTypes, ∀ solid : Bool, (a.1 ∈ mdpaSolid → solid = true) →
      ((∃ k ∈ mdpaNames, k.2 = a ∧ hasSub k.1.toList (mdpaName solid a.1) = true) ∧
        ∀ k ∈ mdpaNames, hasSub k.1.toList (mdpaName solid a.1) = true → k.2 = a) ∧
      strip (mdpaName solid a.1) = mdpaName solid a.1 ∧ '\n' ∉ mdpaName solid a.1 := by decide +kernel
  obtain ⟨⟨⟨k, hk, h1, h2⟩, h3⟩, h4⟩ := key _ h solid hs
  exact ⟨⟨⟨k, hk, h1, (hasSub_iff _ _).1 h2⟩, fun k hk hi => h3 k hk ((hasSub_iff _ _).2 hi)⟩, h4⟩

theorem mdpaFile_parts (io : MdpaFloat F) (m : In F) (h : MdpaIn m) : ∀ p ∈ mdpaFile io m, p.Ok io.fmt := by
  intro p hp
  unfold mdpaFile at hp
  simp only [List.mem_append] at hp
  rcases hp with ((hp | hp) | hp) | hp
  · have hh : ∀ l ∈ header, '\n' ∉ l ∧ ∀ w ∈ ["Begin Nodes", "Begin Elements", "Begin Conditions"], ¬ w.toList <+: strip l := by
      decide +kernel
    obtain ⟨l, hl, rfl⟩ := List.mem_map.1 hp
    exact hh l hl
  · simp only [List.mem_cons, List.not_mem_nil, or_false] at hp
    rcases hp with rfl | rfl
    · intro r hr
      obtain ⟨pi, hpi, rfl⟩ := List.mem_map.1 hr
      have hl := mdpaSpace_length io m h pi.1 (List.fst_mem_of_mem_zipIdx hpi)
      have htok : ∀ t ∈ fmtInt (1 + (pi.2 : Int)) :: pi.1.map io.fmt, IsTok t := by
        intro t ht
        rcases List.mem_cons.1 ht with rfl | ht
        · exact isTok_fmtInt _
        · obtain ⟨x, -, rfl⟩ := List.mem_map.1 ht
          exact io.tok x
      refine ⟨⟨?_, ?_⟩, hl⟩
      · rw [splitWs_ws (by decide), splitWs_joinWith (by decide) _ htok]
      · intro hm
        rcases List.mem_cons.1 hm with hm | hm
        · revert hm; decide
        · exact no_newline_line _ htok hm
    · exact ⟨by simp, by decide⟩
  · obtain ⟨bk, hbk, hp⟩ := List.mem_flatMap.1 hp
    have hb := List.fst_mem_of_mem_zipIdx hbk
    simp only [List.mem_cons, List.not_mem_nil, or_false] at hp
    rcases hp with rfl | rfl
    · obtain ⟨n, hn, hrows⟩ := h.cells bk.1 hb
      have hsol : bk.1.1 ∈ mdpaSolid → mdpaIsSolid m = true := by
        intro hs
        unfold mdpaIsSolid
        rw [List.any_eq_true]
        exact ⟨bk.1, hb, decide_eq_true hs⟩
      obtain ⟨h1, h2, h3⟩ := mdpaName_named hn (mdpaIsSolid m) hsol
      refine ⟨h2, h3, n, h1, ?_⟩
      intro r hr
      obtain ⟨ri, hri, rfl⟩ := List.mem_map.1 hr
      have hl := hrows ri.1 (List.fst_mem_of_mem_zipIdx hri)
      have htok : ∀ t ∈ ri.1.map (fun z => fmtInt (z + 1)), IsTok t := by
        intro t ht
        obtain ⟨z, -, rfl⟩ := List.mem_map.1 ht
        exact isTok_fmtInt _
      refine ⟨⟨?_, ?_⟩, by simpa using hl⟩
      · show splitWs (' ' :: (fmtInt (mdpaStart m bk.2 + ri.2) ++ " 0  ".toList ++ joinWith ' ' (ri.1.map fun z => fmtInt (z + 1)))) = _
        rw [splitWs_ws (by decide), List.append_assoc]
        rw [show " 0  ".toList ++ joinWith ' ' (ri.1.map fun z => fmtInt (z + 1)) =
          ' ' :: (['0'] ++ ' ' :: ' ' :: joinWith ' ' (ri.1.map fun z => fmtInt (z + 1))) from rfl]
        rw [splitWs_tok_ws (isTok_fmtInt _) (by decide), splitWs_tok_ws (by decide) (by decide), splitWs_ws (by decide),
          splitWs_joinWith (by decide) _ htok, List.map_map]
        rfl
      · intro hm
        simp only [List.mem_cons, List.mem_append] at hm
        rcases hm with hm | (hm | hm) | hm
        · revert hm; decide
        · exact not_mem_fmtInt (by decide) (by decide) _ hm
        · revert hm; decide
        · exact no_newline_line _ htok hm
    · exact ⟨by simp, by decide⟩
  · obtain ⟨l, hl, rfl⟩ := List.mem_map.1 hp
    rcases List.mem_append.1 hl with hl | hl
    · obtain ⟨kv, hkv, hl⟩ := List.mem_flatMap.1 hl
      exact table_other io.repr io.reprLine _ (.inl rfl) _ (h.pointData kv hkv).1 _ l hl
    · obtain ⟨kv, hkv, hl⟩ := List.mem_flatMap.1 hl
      exact table_other io.repr io.reprLine _ (.inr rfl) _ (h.cellData kv hkv).1 _ l hl

theorem filterMap_other (f : MdpaPart F → Option (List (List F))) (hf : ∀ l, f (.other l) = none) (l : List (List Char)) :
    (l.map MdpaPart.other).filterMap f = [] := by
  induction l with
  | nil => rfl
  | cons a l ih => rw [List.map_cons, List.filterMap_cons, ih, hf]

theorem filterMap_nil_of {α β γ : Type} (g : α → List β) (f : β → Option γ) (l : List α) (h : ∀ a, ∀ p ∈ g a, f p = none) :
    (l.flatMap g).filterMap f = [] := by
  rw [List.filterMap_eq_nil_iff]
  intro p hp
  obtain ⟨a, -, hp⟩ := List.mem_flatMap.1 hp
  exact h a p hp

theorem mdpaFile_points (io : MdpaFloat F) (m : In F) : mdpaPoints (mdpaFile io m) = mdpaSpace io.zero m := by
  unfold mdpaPoints mdpaFile
  rw [List.filterMap_append, List.filterMap_append, List.filterMap_append, filterMap_other _ (fun _ => rfl),
    filterMap_other _ (fun _ => rfl)]
  rw [filterMap_nil_of (fun bk : (String × List (List Int)) × Nat => _) _ _ (fun bk p hp => by
    simp only [List.mem_cons, List.not_mem_nil, or_false] at hp
    rcases hp with rfl | rfl <;> rfl)]
  simp only [List.nil_append, List.append_nil, List.filterMap_cons, List.filterMap_nil, List.getLast?_singleton, Option.getD_some,
    List.map_map]
  exact List.ext_getElem (by simp) (by simp)

theorem cells_other (l : List (List Char)) : mdpaCells (l.map (MdpaPart.other (F := F))) = [] := by
  induction l with
  | nil => rfl
  | cons a l ih => rw [List.map_cons, mdpaCells, List.flatMap_cons, ← mdpaCells, ih]; rfl

theorem mdpaCells_append (a b : List (MdpaPart F)) : mdpaCells (a ++ b) = mdpaCells a ++ mdpaCells b := List.flatMap_append

theorem mdpaFile_cells (io : MdpaFloat F) (m : In F) : mdpaCells (mdpaFile io m) = rowsOf m.cells := by
  unfold mdpaFile
  rw [mdpaCells_append, mdpaCells_append, mdpaCells_append, cells_other, cells_other]
  simp only [List.nil_append, List.append_nil]
  rw [show mdpaCells [MdpaPart.nodes ((mdpaSpace io.zero m).zipIdx.map fun pi =>
    (' ' :: joinWith ' ' (fmtInt (1 + (pi.2 : Int)) :: pi.1.map io.fmt), 1 + (pi.2 : Int), pi.1)), .other []] = [] from rfl,
    List.nil_append]
  unfold mdpaCells
  rw [List.flatMap_assoc]
  unfold rowsOf
  conv => rhs; rw [← List.zipIdx_map_fst 0 m.cells, List.flatMap_map]
  refine flatMap_congr' fun bk _ => ?_
  simp only [List.flatMap_cons, List.flatMap_nil, List.append_nil, List.map_map]
  refine List.ext_getElem (by simp) ?_
  intro i h1 h2
  simp [Function.comp_def]

/-- Points and cells come back; points in the plane get a third coordinate; neighbouring blocks of the same type are merged. -/
theorem C58_roundtrip (io : MdpaFloat F) (m : In F) (h : MdpaIn m) :
    ∃ s, Mdpa.write io m = .ok s ∧ Mdpa.read io.parse s = .ok ⟨mdpaSpace io.zero m, groupRuns (rowsOf m.cells)⟩ := by
  refine ⟨_, C58_write io m h, ?_⟩
  rw [C58_read io _ (mdpaFile_parts io m h), mdpaFile_points, mdpaFile_cells]

/-- Block by block, if there are no empty blocks and no neighbours of the same type. -/
theorem C58_roundtrip_blocks (io : MdpaFloat F) (m : In F) (h : MdpaIn m) (hne : ∀ b ∈ m.cells, b.2 ≠ [])
    (hd : ∀ pre a b post, m.cells = pre ++ a :: b :: post → a.1 ≠ b.1) (h3 : m.dim = 3) :
    ∃ s, Mdpa.write io m = .ok s ∧ Mdpa.read io.parse s = .ok ⟨m.points, m.cells⟩ := by
  obtain ⟨s, h1, h2⟩ := C58_roundtrip io m h
  refine ⟨s, h1, ?_⟩
  rw [h2, groupRuns_rowsOf m.cells hne hd]
  congr 2
  unfold mdpaSpace
  conv => rhs; rw [← List.map_id m.points]
  refine List.map_congr_left fun p hp => ?_
  rw [if_neg (by rw [h.points.2 p hp]; omega)]
  rfl

/-- A type without a name is a KeyError. -/
theorem C58_refuses (io : MdpaFloat F) (m : In F) (b : String × List (List Int)) (hb : b ∈ m.cells)
    (ht : ∀ n, (b.1, n) ∉ mdpaTypes) (hp : (m.dim = 2 ∨ m.dim = 3) ∧ ∀ p ∈ m.points, p.length = m.dim) :
    Mdpa.write io m = .error .keyError := by
  have hnone : ∀ t : String, (∀ n, (t, n) ∉ mdpaTypes) → find meshioToMdpa t = none := by
    intro t ht
    cases hf : find meshioToMdpa t with
    | none => rfl
    | some nm =>
      have := (by decide +kernel : ∀ kv ∈ meshioToMdpa, ∃ a ∈ mdpaTypes, a.1 = kv.1) _ (find_mem hf)
      obtain ⟨a, ha, e⟩ := this
      exact absurd ((show a.1 = t from e) ▸ ha : (t, a.2) ∈ mdpaTypes) (ht a.2)
  have hd : ∀ cells : List (String × List (List Int)), dimension cells = .error .keyError ∨ ∃ d, dimension cells = .ok d := by
    intro cells
    induction cells with
    | nil => exact .inr ⟨2, rfl⟩
    | cons c cells ih =>
      rw [dimension]
      cases hf : find meshioToMdpa c.1 with
      | none => exact .inl rfl
      | some nm =>
        simp only
        cases find mdpaLocalDim nm with
        | none => exact .inl rfl
        | some d =>
          simp only
          by_cases e : d = 3
          · rw [if_pos e]; exact .inr ⟨3, rfl⟩
          · rw [if_neg e]; exact ih
  have hbl : ∀ (cells : List (String × List (List Int))) (dim start : Nat), b ∈ cells →
      blockLines dim start cells = .error .keyError := by
    intro cells dim
    induction cells with
    | nil => intro start h; simp at h
    | cons c cells ih =>
      intro start h
      rw [blockLines]
      rcases List.mem_cons.1 h with rfl | h
      · rw [entityName, hnone _ ht]
      · cases he : entityName dim c.1 with
        | error e =>
          unfold entityName at he
          cases hf : find meshioToMdpa c.1 with
          | none => rw [hf] at he; cases he; rfl
          | some nm => rw [hf] at he; cases he
        | ok n => simp only; rw [ih _ h]
  have hl : ∀ p ∈ (if m.dim = 2 then m.points.map (· ++ [io.zero]) else m.points), p.length = 3 := by
    intro p hp'
    rcases hp.1 with e | e
    · rw [if_pos e] at hp'
      obtain ⟨q, hq, rfl⟩ := List.mem_map.1 hp'
      simp [hp.2 q hq, e]
    · rw [if_neg (by omega)] at hp'
      rw [hp.2 p hp', e]
  unfold Mdpa.write
  simp only
  rcases hd m.cells with h | ⟨d, h⟩
  · rw [h]
  · rw [h, nodeLines_ok io _ hl]
    simp only
    rw [hbl m.cells d 0 hb]

/-! ### Names -/

/-- The name written for a type, in a mesh with or without solid cells, is read as that type: cells with this name and the number
of nodes of the type are cells of that type. -/
theorem C49_mdpa (t : String) (n : Nat) (h : (t, n) ∈ mdpaTypes) (solid : Bool) (hs : t ∈ mdpaSolid → solid = true)
    (conditions : Bool) (r : List Char × Int × Int × List Int)
    (hr : IsRow r.1 (fmtInt r.2.1 :: fmtInt r.2.2.1 :: r.2.2.2.map fmtInt)) (hl : r.2.2.2.length = n) :
    ∃ name, entityName (if solid then 3 else 2) t = .ok name ∧
      Mdpa.read (F := F) (fun _ => none) (linesText (["Begin ".toList ++ mdpaKind conditions ++ ' ' :: name] ++ [r.1] ++
        ["End ".toList ++ mdpaKind conditions])) = .ok ⟨[], [(t, [r.2.2.2.map (· - 1)])]⟩ := by
  obtain ⟨h1, h2, h3⟩ := mdpaName_named h solid hs
  refine ⟨_, entityName_ok h solid hs, ?_⟩
  obtain ⟨hne, hty⟩ := named_pos h1
  have hnl' : '\n' ∉ "Begin ".toList ++ mdpaKind conditions ++ ' ' :: mdpaName solid t := by
    intro hm
    rcases List.mem_append.1 hm with hm | hm
    · revert hm; cases conditions <;> decide
    · rcases List.mem_cons.1 hm with hm | hm
      · revert hm; decide
      · exact h3 hm
  have hrr := readRows_ok t n (types_pos hty) conditions [r] (by simpa using ⟨hr, hl⟩) _ (named_type h1) []
    [] ((linesText (["Begin ".toList ++ mdpaKind conditions ++ ' ' :: mdpaName solid t] ++ [r.1] ++
      ["End ".toList ++ mdpaKind conditions])).length + 1) (by
        have := length_linesText_ge (["Begin ".toList ++ mdpaKind conditions ++ ' ' :: mdpaName solid t] ++ [r.1] ++
          ["End ".toList ++ mdpaKind conditions])
        simp only [List.length_append, List.length_cons, List.length_nil] at this ⊢
        omega)
  unfold Mdpa.read
  have e : linesText (["Begin ".toList ++ mdpaKind conditions ++ ' ' :: mdpaName solid t] ++ [r.1] ++
      ["End ".toList ++ mdpaKind conditions]) = ("Begin ".toList ++ mdpaKind conditions ++ ' ' :: mdpaName solid t) ++
      '\n' :: (linesText ([r].map (·.1) ++ ["End ".toList ++ mdpaKind conditions]) ++ []) := by
    rw [List.append_assoc, List.singleton_append, linesText_cons, List.append_nil]; rfl
  rw [e] at hrr ⊢
  rw [readLoop, if_neg (by simp), readLine_append _ _ hnl']
  simp only
  rw [head_line conditions _ h2 hne, if_neg (by
      rw [List.isPrefixOf_iff_prefix]
      exact not_prefix_of_not_prefix (by cases conditions <;> decide) (by cases conditions <;> decide)), if_pos (by
      cases conditions
      · exact .inl (List.isPrefixOf_iff_prefix.2 ⟨' ' :: mdpaName solid t, rfl⟩)
      · exact .inr (List.isPrefixOf_iff_prefix.2 ⟨' ' :: mdpaName solid t, rfl⟩)), typeOfLine_ok, hrr]
  simp only
  have hdim : (Dict.get? topologicalDimension t).isSome = true :=
    (by decide +kernel : ∀ a ∈ mdpaTypes, (Dict.get? topologicalDimension a.1).isSome = true) _ h
  have hk : ∀ k, readLoop (F := F) (fun _ => none) k ⟨[], [(t, [r.2.2.2.map (· - 1)])]⟩ [] = .ok ⟨[], [(t, [r.2.2.2.map (· - 1)])]⟩ := by
    intro k
    cases k with
    | zero => rfl
    | succ k => rw [readLoop, if_pos rfl]
  have hf : (([r].map fun r => (t, r.2.2.2.map (· - 1))).foldl pushTyped [] : List (String × List (List Int))) =
    [(t, [r.2.2.2.map (· - 1)])] := rfl
  rw [hf, hk]
  simp only
  cases hd : Dict.get? topologicalDimension t with
  | none => rw [hd] at hdim; cases hdim
  | some d =>
    rw [mapRes, checkBlock, if_pos (by simp)]
    simp only [hd]
    rfl

/-- Not every name of Kratos is known: triangles called `Element2D3N` are read as lines with three nodes. -/
theorem C49_kratos_names : Mdpa.read parseInt "Begin Elements Element2D3N\n 1 0 1 2 3\nEnd Elements\n".toList =
    .ok ⟨[], [("line3", [[0, 1, 2]])]⟩ := by decide +kernel

/-- Node numbers are resolved through the numbering of the file. -/
def C31_mdpa_statement : Prop :=
  ∀ (io : MdpaFloat Int) (rows : List (List Char × Int × List Int)) (cell : List Char × Int × Int × List Int) (pos : List Nat),
    (∀ r ∈ rows, IsRow r.1 (fmtInt r.2.1 :: r.2.2.map io.fmt) ∧ r.2.2.length = 3) → (rows.map (·.2.1)).Nodup →
    IsRow cell.1 (fmtInt cell.2.1 :: fmtInt cell.2.2.1 :: cell.2.2.2.map fmtInt) → cell.2.2.2.length = 2 →
    pos.map (fun p => rows[p]?.map (·.2.1)) = cell.2.2.2.map some →
    Mdpa.read io.parse (linesText ((MdpaPart.nodes rows).lines ++ (MdpaPart.cells (F := Int) false "Line2D2".toList "line" [cell]).lines)) =
      .ok ⟨rows.map (·.2.2), [("line", [pos.map Int.ofNat])]⟩

/-- False: the numbers of the nodes are ignored. -/
theorem C31_mdpa_false : ¬ C31_mdpa_statement := by
  intro h
  have := h MdpaFloat.int [("2 0 0 0".toList, 2, [0, 0, 0]), ("1 5 0 0".toList, 1, [5, 0, 0])] ("1 0 1 2".toList, 1, 0, [1, 2]) [1, 0]
    (by
      intro r hr
      simp only [List.mem_cons, List.not_mem_nil, or_false] at hr
      rcases hr with rfl | rfl
      · exact ⟨⟨by decide, by decide⟩, rfl⟩
      · exact ⟨⟨by decide, by decide⟩, rfl⟩) (by decide) ⟨by decide, by decide⟩ rfl (by decide)
  revert this
  decide +kernel

/-! ### Examples -/

/-- A mesh with two types and data. -/
def mdpaExample : In Int :=
  ⟨3, [[0, 0, 0], [1, 0, 0], [0, 1, 0], [0, 0, 1]], [("tetra", [[0, 1, 2, 3]]), ("line3", [[0, 1, 2], [1, 2, 3]])],
    [("p", ⟨[], [[1], [2], [3], [4]]⟩)], [("c", [⟨[2], [[1, 2]]⟩, ⟨[2], [[3, 4], [5, 6]]⟩])]⟩

theorem mdpaExample_in : MdpaIn mdpaExample where
  points := ⟨.inr rfl, by decide⟩
  cells := by
    intro b hb
    simp only [mdpaExample, List.mem_cons, List.not_mem_nil, or_false] at hb
    rcases hb with rfl | rfl
    · exact ⟨4, by decide, by decide⟩
    · exact ⟨3, by decide, by decide⟩
  pointData := by decide
  cellData := by
    intro kv hkv
    simp only [mdpaExample, List.mem_cons, List.not_mem_nil, or_false] at hkv
    subst hkv
    exact ⟨by decide, by simp, [2], by simp, by decide⟩

example : Mdpa.write MdpaFloat.int mdpaExample = .ok (
    "Begin ModelPartData\n//  VARIABLE_NAME value\nEnd ModelPartData\n\nBegin Properties 0\nEnd Properties\n\nBegin Nodes\n 1 0 0 0\n 2 1 0 0\n 3 0 1 0\n 4 0 0 1\nEnd Nodes\n\nBegin Elements Tetrahedra3D4\n 1 0  1 2 3 4\nEnd Elements\n\nBegin Elements Line3D3\n 2 0  1 2 3\n 3 0  2 3 4\nEnd Elements\n\nBegin NodalData p\n\n1 1\n2 2\n3 3\n4 4\nEnd NodalData p\n\nBegin ElementalData c\n\n1 1 2\n2 3 4\n3 5 6\nEnd ElementalData c\n\n".toList) := by
  decide +kernel

example := C58_roundtrip_blocks MdpaFloat.int mdpaExample mdpaExample_in (by decide)
  (by
    intro pre a b post e
    have hl := congrArg List.length e
    simp [mdpaExample] at hl
    have : pre = [] := List.length_eq_zero_iff.1 (by omega)
    subst this
    cases e
    decide) rfl

example := C58_refuses MdpaFloat.int ⟨2, [], [("pyramid", [[0, 1, 2, 3, 4]])], [], []⟩ ("pyramid", [[0, 1, 2, 3, 4]]) (by simp)
  (by intro n hn; revert hn; simp [mdpaTypes]) ⟨.inl rfl, by simp⟩

example := C49_mdpa (F := Int) "line3" 3 (by decide) true (by decide) false ("7 0 3 1 2".toList, 7, 0, [3, 1, 2]) ⟨by decide, by decide⟩ rfl

end Meshio.Props
