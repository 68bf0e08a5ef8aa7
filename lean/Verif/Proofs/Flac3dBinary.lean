/-
Lemmas for FLAC3D files: binary files.
-/
import Verif.Proofs.Flac3dFinish

namespace Meshio
namespace Flac3d
open Types Tables
open Meshio.Spec (groupRuns)
open Meshio.Spec.Flac3d

variable {F : Type}

theorem length_num (k n : Nat) : (num k n).length = k := by
  unfold num
  rw [length_toChars, length_natEnc]

theorem takeU_num (k n : Nat) (h : n < 256 ^ k) (s : List Char) : takeU k (num k n ++ s) = .ok (n, s) := by
  unfold takeU
  rw [if_neg (by rw [List.length_append, length_num]; omega), List.take_left' (length_num k n), List.drop_left' (length_num k n)]
  unfold num
  rw [toBytes_toChars, natDec_natEnc _ _ _ h]

theorem takeUs_num (k : Nat) (l : List Nat) (h : ∀ n ∈ l, n < 256 ^ k) (s : List Char) :
    takeUs k l.length (l.flatMap (num k) ++ s) = .ok (l, s) := by
  induction l with
  | nil => rfl
  | cons n l ih =>
    rw [List.length_cons, List.flatMap_cons, List.append_assoc, takeUs, takeU_num k n (h n (by simp))]
    simp only
    rw [ih fun m hm => h m (by simp [hm])]

theorem pointBinary_ok (io : FlacIO F) (p : Int × List F) (hl : p.2.length = 3) (h0 : 0 ≤ p.1) (h1 : p.1 < 256 ^ 4) (s : List Char) :
    pointBinary io (pointBytes io p ++ s) = .ok (p, s) := by
  obtain ⟨i, xs⟩ := p
  match xs, hl with
  | [x, y, z], _ =>
    unfold pointBytes pointBinary
    simp only at h0 h1 ⊢
    rw [List.append_assoc, takeU_num 4 i.toNat (by omega)]
    have hlen : ∀ w : F, (toChars (io.bin.enc false 8 w)).length = 8 := by
      intro w
      rw [length_toChars, io.bin.len]
    simp only [List.flatMap_cons, List.flatMap_nil, List.append_nil, List.append_assoc]
    rw [if_neg (by
      simp only [List.length_append, hlen]
      omega), List.take_left' (hlen x)]
    have d8 : ∀ t, List.drop 8 (toChars (io.bin.enc false 8 x) ++ t) = t := fun t => List.drop_left' (hlen x)
    have d16 : List.drop 16 (toChars (io.bin.enc false 8 x) ++ (toChars (io.bin.enc false 8 y) ++ (toChars (io.bin.enc false 8 z) ++ s))) =
        toChars (io.bin.enc false 8 z) ++ s := by
      rw [show (16 : Nat) = 8 + 8 from rfl, ← List.drop_drop, d8, List.drop_left' (hlen y)]
    have d24 : List.drop 24 (toChars (io.bin.enc false 8 x) ++ (toChars (io.bin.enc false 8 y) ++ (toChars (io.bin.enc false 8 z) ++ s))) = s := by
      rw [show (24 : Nat) = 16 + 8 from rfl, ← List.drop_drop, d16, List.drop_left' (hlen z)]
    rw [d8, d16, d24, List.take_left' (hlen y), List.take_left' (hlen z)]
    simp only [toBytes_toChars, io.bin.dec_enc, io.bin.rnd8]
    rw [Int.toNat_of_nonneg h0]

theorem pointsBinary_ok (io : FlacIO F) (zids fids : List Int) (ps : List (Int × List F))
    (h : ∀ p ∈ ps, p.2.length = 3 ∧ 0 ≤ p.1 ∧ p.1 < 256 ^ 4) (st : St F) (s : List Char) :
    pointsBinary io ps.length st (ps.flatMap (pointBytes io) ++ s) =
      .ok ({ st with points := st.points ++ ps.map (·.2), pids := st.pids ++ ps.map (·.1) }, s) := by
  induction ps generalizing st with
  | nil => simp [pointsBinary]
  | cons p ps ih =>
    obtain ⟨h1, h2, h3⟩ := h p (by simp)
    rw [List.length_cons, List.flatMap_cons, List.append_assoc, pointsBinary, pointBinary_ok io p h1 h2 h3]
    simp only
    rw [ih fun q hq => h q (by simp [hq])]
    simp

theorem cellBinary_ok (pids : List Int) (hn : pids.Nodup) (hp : ∀ x ∈ pids, 0 ≤ x ∧ x < 256 ^ 4) (c : Cell) (h0 : 0 ≤ c.id)
    (h1 : c.id < 256 ^ 4) (hlen : c.nodes.length < 256 ^ 4) (t s : List Char) (h : CellBytes pids c t) :
    cellBinary pids (t ++ s) = .ok ((c.id, c.nodes), s) := by
  obtain ⟨vs, hv, rfl, hc⟩ := h
  have hvl : vs.length < 256 ^ 4 := by
    split at hc
    · omega
    · rw [← hc]; exact hlen
  have hget : ∀ v ∈ vs, 0 ≤ pids.getD v 0 ∧ pids.getD v 0 < 256 ^ 4 := by
    intro v hv'
    have := hv v hv'
    have := hp pids[v] (List.getElem_mem _)
    rw [memberIds_get (hv v hv')]
    exact this
  unfold cellBinary
  rw [List.append_assoc, takeU_num 4 _ (by omega), List.append_assoc]
  simp only
  rw [takeU_num 4 _ hvl]
  simp only
  have e : vs.flatMap (fun v => num 4 (pids.getD v 0).toNat) = (vs.map fun v => (pids.getD v 0).toNat).flatMap (num 4) := by
    rw [List.flatMap_map]
  have hus := takeUs_num 4 (vs.map fun v => (pids.getD v 0).toNat) (by
    intro n hn'
    obtain ⟨v, hv', rfl⟩ := List.mem_map.1 hn'
    have := hget v hv'
    omega) s
  rw [List.length_map] at hus
  rw [e, hus]
  simp only
  have hm : mapRes (fun (v : Nat) => idGet pids (v : Int)) (vs.map fun v => (pids.getD v 0).toNat) = .ok vs := by
    rw [Permas.mapRes_map]
    rw [mapRes_ok_of_forall (g := id), List.map_id]
    intro v hv'
    rw [Int.toNat_of_nonneg (hget v hv').1, memberIds_get (hv v hv')]
    exact idGet_getElem pids hn v (hv v hv')
  rw [hm]
  simp only
  unfold dupLast
  rw [Int.toNat_of_nonneg h0]
  by_cases h7 : vs.length = 7
  · rw [if_pos h7] at hc
    obtain ⟨v, hl, hc⟩ := hc
    rw [if_pos (by simp [h7]), hl, hc]
  · rw [if_neg h7] at hc
    rw [if_neg (by simp [h7]), hc]

theorem cellsBinary_ok (pids : List Int) (hn : pids.Nodup) (hp : ∀ x ∈ pids, 0 ≤ x ∧ x < 256 ^ 4) (table : List (Nat × String))
    (ty : Nat → String) (cells pre : List Cell) (ht : ∀ c ∈ cells, find table c.nodes.length = some (ty c.nodes.length))
    (h0 : ∀ c ∈ cells, 0 ≤ c.id ∧ c.id < 256 ^ 4 ∧ c.nodes.length < 256 ^ 4) (cs : List (List Char)) (hb : All2 (CellBytes pids) cells cs)
    (s : List Char) :
    cellsBinary pids table cells.length (groupRuns (pre.map fun c => (ty c.nodes.length, c.nodes)), pre.map (·.id)) (cs.flatten ++ s) =
      .ok ((groupRuns ((pre ++ cells).map fun c => (ty c.nodes.length, c.nodes)), (pre ++ cells).map (·.id)), s) := by
  induction cells generalizing pre cs with
  | nil =>
    cases cs with
    | nil => simp [cellsBinary]
    | cons a b => exact hb.elim
  | cons c cells ih =>
    cases cs with
    | nil => exact hb.elim
    | cons b cs =>
      obtain ⟨h1, h2, h3⟩ := h0 c (by simp)
      rw [List.length_cons, List.flatten_cons, List.append_assoc, cellsBinary, cellBinary_ok pids hn hp c h1 h2 h3 b _ hb.1]
      simp only
      unfold updateCells
      rw [ht c (by simp)]
      simp only
      have := ih (pre ++ [c]) (fun c hc => ht c (by simp [hc])) (fun c hc => h0 c (by simp [hc])) cs hb.2
      rw [List.map_append, List.map_cons, List.map_nil, groupRuns_snoc, List.map_append, List.map_cons, List.map_nil] at this
      rw [this]
      simp

theorem nameBinary_ok (io : FlacIO F) (n s : List Char) (hl : n.length < 256 ^ 2) (ha : ∀ c ∈ n, c.toNat < 128) :
    nameBinary io (num 2 n.length ++ (n ++ s)) = .ok (n, s) := by
  unfold nameBinary
  rw [takeU_num 2 _ hl]
  simp only
  rw [if_neg (by rw [List.length_append]; omega), List.take_left' rfl, List.drop_left' rfl, io.decode_ascii n ha]

theorem groupBinary_ok (io : FlacIO F) (ids : List Int) (hi : ∀ x ∈ ids, 0 ≤ x ∧ x < 256 ^ 4) (g : Group)
    (hm : ∀ i ∈ g.members, i < ids.length) (h1 : g.members.length < 256 ^ 4) (h2 : g.name.length < 256 ^ 2) (h3 : g.slot.length < 256 ^ 2)
    (h4 : ∀ c ∈ g.name ++ g.slot, c.toNat < 128) (s : List Char) :
    groupBinary io (groupBytes ids g ++ s) = .ok ((g.name, g.slot, memberIds ids g), s) := by
  unfold groupBinary groupBytes
  simp only [List.append_assoc]
  rw [nameBinary_ok io _ _ h2 fun c hc => h4 c (by simp [hc])]
  simp only
  rw [nameBinary_ok io _ _ h3 fun c hc => h4 c (by simp [hc])]
  simp only
  rw [takeU_num 4 _ h1]
  simp only
  have hget : ∀ i ∈ g.members, 0 ≤ ids.getD i 0 ∧ ids.getD i 0 < 256 ^ 4 := by
    intro i hi'
    rw [memberIds_get (hm i hi')]
    exact hi _ (List.getElem_mem _)
  have hus := takeUs_num 4 (g.members.map fun v => (ids.getD v 0).toNat) (by
    intro n hn'
    obtain ⟨v, hv', rfl⟩ := List.mem_map.1 hn'
    have := hget v hv'
    omega) s
  rw [List.length_map, List.flatMap_map] at hus
  rw [hus]
  simp only [List.map_map]
  congr 4
  unfold memberIds
  apply List.map_congr_left
  intro i hi'
  simp only [Function.comp_apply]
  rw [Int.toNat_of_nonneg (hget i hi').1]

theorem groupsBinary_ok (io : FlacIO F) (kind : String) (ids : List Int) (hi : ∀ x ∈ ids, 0 ≤ x ∧ x < 256 ^ 4) (gs pre : List Group)
    (h : ∀ g ∈ gs, (∀ i ∈ g.members, i < ids.length) ∧ g.members.length < 256 ^ 4 ∧ g.name.length < 256 ^ 2 ∧ g.slot.length < 256 ^ 2 ∧
      ∀ c ∈ g.name ++ g.slot, c.toNat < 128) (s : List Char) :
    groupsBinary io kind.toList gs.length (groupDict kind ids pre) (gs.flatMap (groupBytes ids) ++ s) =
      .ok (groupDict kind ids (pre ++ gs), s) := by
  induction gs generalizing pre with
  | nil => simp [groupsBinary]
  | cons g gs ih =>
    obtain ⟨h0, h1, h2, h3, h4⟩ := h g (by simp)
    rw [List.length_cons, List.flatMap_cons, List.append_assoc, groupsBinary, groupBinary_ok io ids hi g h0 h1 h2 h3 h4]
    simp only
    rw [setKey_key, ← groupDict_snoc, ih _ fun g hg => h g (by simp [hg])]
    simp

theorem kindBinary_ok (io : FlacIO F) (pids : List Int) (hn : pids.Nodup) (hp : ∀ x ∈ pids, 0 ≤ x ∧ x < 256 ^ 4)
    (table : List (Nat × String)) (ty : Nat → String) (kind : String) (cells : List Cell) (gs : List Group)
    (ht : ∀ c ∈ cells, find table c.nodes.length = some (ty c.nodes.length))
    (h0 : ∀ c ∈ cells, 0 ≤ c.id ∧ c.id < 256 ^ 4 ∧ c.nodes.length < 256 ^ 4) (hcl : cells.length < 256 ^ 4) (hgl : gs.length < 256 ^ 4)
    (h : ∀ g ∈ gs, (∀ i ∈ g.members, i < cells.length) ∧ g.members.length < 256 ^ 4 ∧ g.name.length < 256 ^ 2 ∧ g.slot.length < 256 ^ 2 ∧
      ∀ c ∈ g.name ++ g.slot, c.toNat < 128)
    (t s : List Char) (hb : KindBytes pids cells gs t) :
    kindBinary io pids table kind.toList (t ++ s) =
      .ok ((groupRuns (cells.map fun c => (ty c.nodes.length, c.nodes)), cells.map (·.id), groupDict kind (cells.map (·.id)) gs), s) := by
  obtain ⟨cs, hcs, rfl⟩ := hb
  unfold kindBinary
  simp only [List.append_assoc]
  rw [takeU_num 4 _ hcl]
  simp only
  have := cellsBinary_ok pids hn hp table ty cells [] ht h0 cs hcs (num 4 gs.length ++ (gs.flatMap (groupBytes (cells.map (·.id))) ++ s))
  simp only [List.map_nil, List.nil_append] at this
  rw [show groupRuns ([] : List (String × List Nat)) = [] from rfl] at this
  rw [this]
  simp only
  rw [takeU_num 4 _ hgl]
  simp only
  have hg := groupsBinary_ok io kind (cells.map (·.id)) (by
    intro x hx
    obtain ⟨c, hc, rfl⟩ := List.mem_map.1 hx
    exact ⟨(h0 c hc).1, (h0 c hc).2.1⟩) gs [] (by simpa using h) s
  rw [show groupDict kind (cells.map (·.id)) [] = [] from rfl, List.nil_append] at hg
  rw [hg]

theorem kind_size {n : Nat} (h : (zoneKind n).isSome ∨ (faceKind n).isSome) : n < 256 ^ 4 := by
  rcases h with h | h
  · unfold zoneKind at h
    split at h <;> first | decide | cases h
  · unfold faceKind at h
    split at h <;> first | decide | cases h

theorem readBinary_ok (io : FlacIO F) (g : Grid F) (hg : GridOk g) (s : List Char) (h : BinaryFile io g s) :
    readBinary io s = .ok (stOf (g.zones.map (·.id)) (g.faces.map (·.id)) g) ∧ (s.take 8).contains '\x00' = true := by
  obtain ⟨hd, z, f, hl, h00, hz, hf, rfl⟩ := h.bytes
  obtain ⟨c1, c2, c3, c4, c5⟩ := h.counts
  have hp : ∀ x ∈ g.points.map (·.1), 0 ≤ x ∧ x < 256 ^ 4 := by
    intro x hx
    obtain ⟨p, hp, rfl⟩ := List.mem_map.1 hx
    exact ⟨(h.points p hp).2.1, (h.points p hp).2.2⟩
  refine ⟨?_, ?_⟩
  · unfold readBinary
    have h2 : ∃ us, takeUs 4 2 (hd ++ (num 4 g.points.length ++ (g.points.flatMap (pointBytes io) ++ (z ++ f)))) =
        .ok (us, num 4 g.points.length ++ (g.points.flatMap (pointBytes io) ++ (z ++ f))) := by
      generalize num 4 g.points.length ++ (g.points.flatMap (pointBytes io) ++ (z ++ f)) = r
      match hd, hl with
      | [a1, a2, a3, a4, a5, a6, a7, a8], _ =>
        simp only [takeUs, takeU, List.cons_append, List.nil_append, List.length_cons]
        rw [if_neg (by omega)]
        simp only [List.drop_succ_cons, List.drop_zero, List.length_cons]
        rw [if_neg (by omega)]
        exact ⟨_, rfl⟩
    obtain ⟨us, h2⟩ := h2
    rw [h2]
    simp only
    rw [takeU_num 4 _ c1]
    simp only
    rw [pointsBinary_ok io [] [] g.points h.points]
    simp only [St.init, List.nil_append]
    have hz' := kindBinary_ok io _ hg.distinct hp flacNumNodesZone zoneType "zone" g.zones g.zgroups
      (fun c hc => find_zone _ (hg.zones.nodes c hc).1) (fun c hc => ⟨hg.zones.nonneg c hc, h.ids c (by simp [hc]),
        kind_size (Or.inl (hg.zones.nodes c hc).1)⟩) c2 c4
      (fun s hs => ⟨hg.zones.members s hs, h.groups s (by simp [hs])⟩) z f hz
    rw [show (['z', 'o', 'n', 'e'] : List Char) = "zone".toList from rfl, hz']
    simp only
    have hf' := kindBinary_ok io _ hg.distinct hp flacNumNodesFace faceType "face" g.faces g.fgroups
      (fun c hc => find_face _ (hg.faces.nodes c hc).1) (fun c hc => ⟨hg.faces.nonneg c hc, h.ids c (by simp [hc]),
        kind_size (Or.inr (hg.faces.nodes c hc).1)⟩) c3 c5
      (fun s hs => ⟨hg.faces.members s hs, h.groups s (by simp [hs])⟩) f [] hf
    rw [List.append_nil] at hf'
    rw [show (['f', 'a', 'c', 'e'] : List Char) = "face".toList from rfl, hf']
    rfl
  · rw [List.take_left' hl]
    simpa using h00

/-- A binary file is read as its grid. -/
theorem read_binary (io : FlacIO F) (g : Grid F) (hg : GridOk g) (s : List Char) (h : BinaryFile io g s) :
    read io s = .ok (mesh g) := by
  obtain ⟨h1, h2⟩ := readBinary_ok io g hg s h
  unfold read
  rw [h2, if_pos (by rfl), h1]
  exact finish_ok g hg

/-- A text file is read as its grid. -/
theorem read_text (io : FlacIO F) (items : List (Item F)) (hg : GridOk (gridOf items)) (text : List Char) (h : TextFile io items text) :
    read io text = .ok (mesh (gridOf items)) := by
  obtain ⟨lines, rfl, hnl, hs⟩ := h.lines
  unfold read
  rw [if_neg (by simpa using h.text), fileLines_linesText' _ hnl]
  have := readLoop_ok io _ _ _ hg.distinct items [] lines lines.flatten.length hs h.order rfl
    (fun c hc => (hg.zones.nodes c hc).1) (fun c hc => (hg.faces.nodes c hc).1)
    (fun g hg' => by simpa using hg.zones.members g hg') (fun g hg' => by simpa using hg.faces.members g hg') (Nat.le_refl _)
  rw [List.length_map]
  rw [show stOf ((gridOf items).zones.map (·.id)) ((gridOf items).faces.map (·.id)) (gridOf ([] : List (Item F))) = St.init from rfl] at this
  rw [this]
  exact finish_ok _ hg

end Flac3d
end Meshio
