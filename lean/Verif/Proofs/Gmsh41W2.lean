/-
Writing Gmsh files of version 4.1: nodes, elements, links.
-/
import Verif.Proofs.Gmsh41W
namespace Meshio.Gmsh41
open Meshio Types Tables Gmsh Spec

variable {F : Type}

/-! ### Nodes -/

theorem grouped_perm {α β : Type} [DecidableEq β] (key : α → β) (ks : List β) (hk : ks.Nodup) (l : List α) (h : ∀ a ∈ l, key a ∈ ks) :
    (ks.flatMap fun k => l.filter fun a => decide (key a = k)).Perm l := by
  induction ks generalizing l with
  | nil =>
    cases l with
    | nil => exact List.Perm.refl _
    | cons a l => exact absurd (h a (by simp)) (by simp)
  | cons k ks ih =>
    rw [List.nodup_cons] at hk
    have ih := ih hk.2 (l.filter fun a => !decide (key a = k)) (by
      intro a ha
      obtain ⟨h1, h2⟩ := List.mem_filter.1 ha
      rcases List.mem_cons.1 (h a h1) with h3 | h3
      · simp [h3] at h2
      · exact h3)
    rw [List.flatMap_cons]
    have e : (ks.flatMap fun k' => l.filter fun a => decide (key a = k')) =
        ks.flatMap fun k' => (l.filter fun a => !decide (key a = k)).filter fun a => decide (key a = k') := by
      apply flatMap_congr'
      intro k' hk'
      rw [List.filter_filter]
      apply List.filter_congr
      intro a _
      by_cases hh : key a = k'
      · have hne : k' ≠ k := by
          rintro rfl
          exact hk.1 hk'
        simp [hh, hne]
      · simp [hh]
    rw [e]
    exact (List.Perm.append_left _ ih).trans (List.filter_append_perm _ _)

theorem length_owners (lim : Nat) (m : In F) (h : Msh4In lim m) : (msh4NodeOwners m).length = m.points.length := by
  unfold msh4NodeOwners
  cases hdt : m.dimTags with
  | none => simp
  | some dt => exact (h.ents dt hdt).1

theorem order_perm (lim : Nat) (m : In F) (h : Msh4In lim m) : (msh4Order m).Perm (List.range m.points.length) := by
  have hl := length_owners lim m h
  have := grouped_perm (fun i => (msh4NodeOwners m)[i]?) ((pairUnique (msh4NodeOwners m)).map some)
    (List.pairwise_map.2 ((pairUnique_nodup _).imp fun hab h0 => hab (Option.some.inj h0))) (List.range m.points.length) (by
      intro i hi
      have := List.mem_range.1 hi
      rw [List.getElem?_eq_getElem (by omega)]
      exact List.mem_map.2 ⟨_, mem_pairUnique.2 (List.getElem_mem _), rfl⟩)
  rw [List.flatMap_map] at this
  exact this

theorem mem_order (lim : Nat) (m : In F) (h : Msh4In lim m) (i : Nat) : i ∈ msh4Order m ↔ i < m.points.length := by
  rw [(order_perm lim m h).mem_iff, List.mem_range]

theorem nodup_order (lim : Nat) (m : In F) (h : Msh4In lim m) : (msh4Order m).Nodup :=
  (order_perm lim m h).nodup_iff.2 List.nodup_range

theorem length_order (lim : Nat) (m : In F) (h : Msh4In lim m) : (msh4Order m).length = m.points.length := by
  rw [(order_perm lim m h).length_eq, List.length_range]

theorem file_ids (zero : F) (m : In F) (names : List (Int × Int × List Char)) : (msh4File zero m names).ids = (msh4Order m).map (· + 1) := by
  unfold Msh4File.ids msh4File msh4Order
  simp only [List.flatMap_map, List.map_flatMap, List.map_map]
  rfl

theorem file_points (zero : F) (m : In F) (names : List (Int × Int × List Char)) :
    (msh4File zero m names).points = (msh4Order m).map fun i => (msh4Points zero m).getD i [] := by
  unfold Msh4File.points msh4File msh4Order
  simp only [List.flatMap_map, List.map_flatMap, List.map_map]
  rfl

theorem getD_map_pos (lim : Nat) (m : In F) (h : Msh4In lim m) (i : Nat) (hi : i < m.points.length) :
    ((msh4Order m).map (· + 1)).getD (msh4Pos m i) 0 = i + 1 := by
  have hlt : msh4Pos m i < (msh4Order m).length := List.idxOf_lt_length_iff.2 ((mem_order lim m h i).2 hi)
  rw [List.getD_eq_getElem?_getD, List.getElem?_map, List.getElem?_eq_getElem hlt]
  simp only [Option.map_some, Option.getD_some]
  congr 1
  exact List.getElem_idxOf hlt

theorem group_nodes (dt : List (Int × Int)) (pts : List (List F)) (hl : dt.length = pts.length) (e : Int × Int) :
    (((dt.zip pts).zipIdx.filter fun x => decide (x.1.1 = e)).map fun x => (x.2, x.1.2)) =
      ((List.range pts.length).filter fun i => decide (dt[i]? = some e)).map fun i => (i, pts.getD i []) := by
  have hz : (dt.zip pts).zipIdx = (List.range pts.length).map fun i => ((dt.getD i (0, 0), pts.getD i []), i) := by
    apply List.ext_getElem
    · simp [hl]
    · intro i h1 h2
      simp only [List.length_map, List.length_range] at h2
      simp only [List.getElem_zipIdx, List.getElem_zip, List.getElem_map, List.getElem_range, List.getD_eq_getElem?_getD,
        List.getElem?_eq_getElem h2, List.getElem?_eq_getElem (show i < dt.length by omega), Option.getD_some]
      simp
  rw [hz, List.filter_map, List.map_map]
  have e2 : ((List.range pts.length).filter ((fun x : ((Int × Int) × List F) × Nat => decide (x.1.1 = e)) ∘ fun i => ((dt.getD i (0, 0), pts.getD i []), i))) =
      (List.range pts.length).filter fun i => decide (dt[i]? = some e) := by
    apply List.filter_congr
    intro i hi
    have hi := List.mem_range.1 hi
    simp only [Function.comp_apply, List.getD_eq_getElem?_getD, List.getElem?_eq_getElem (show i < dt.length by omega), Option.getD_some,
      Option.some.injEq]
  rw [e2]
  rfl

theorem piece_lines (io : GmshFloat F) (k : Nat) {α : Type} (l : List α) (words : α → List (Tok F × List Char)) (h : ∀ a ∈ l, ∀ w ∈ words a, w.1.Text io w.2) :
    Piece io true k (l.flatMap fun a => (words a).map (·.1)) (linesText (l.map fun a => joinWith ' ' ((words a).map (·.2)))) := by
  unfold linesText
  rw [List.flatMap_map]
  exact piece_flatMap l _ _ fun a ha => piece_line io k ' ' (by decide) (words a) (h a ha)

theorem nodeBlock_piece (io : GmshFloat F) (binary : Bool) (e : Int × Int) (h1 : IsInt 4 e.1) (h2 : IsInt 4 e.2) (nodes : List (Nat × List F))
    (hl : nodes.length < 2 ^ 31) (hn : ∀ p ∈ nodes, p.1 < 2 ^ 31) :
    Piece io (!binary) 8 (Msh4Nodes.toks ⟨e.1, e.2, nodes.map fun p => (p.1 + 1, p.2)⟩) (nodeBlock io binary e nodes) := by
  have h8 : (256 : Nat) ^ 8 = 18446744073709551616 := by decide
  unfold Msh4Nodes.toks nodeBlock
  simp only [List.length_map, List.map_map, List.flatMap_map]
  cases binary with
  | true =>
    rw [if_pos rfl]
    have := piece_bytes io 8 ([Tok.int e.1, .int e.2, .int 0, .size nodes.length] ++ nodes.map ((fun p => Tok.size p.1) ∘ fun p => (p.1 + 1, p.2)) ++
      nodes.flatMap fun p => p.2.map Tok.flt) (by
        intro t ht
        simp only [List.mem_append, List.mem_cons, List.not_mem_nil, or_false, List.mem_map, List.mem_flatMap] at ht
        rcases ht with ((rfl | rfl | rfl | rfl) | ⟨p, hp, rfl⟩) | ⟨p, hp, x, hx, rfl⟩
        · exact h1
        · exact h2
        · exact (by decide : IsInt 4 0)
        · show nodes.length < 256 ^ 8
          omega
        · have := hn p hp
          show p.1 + 1 < 256 ^ 8
          omega
        · trivial)
    have e3 : putInts 4 [e.1, e.2, 0] ++ putSize nodes.length ++ nodes.flatMap (fun p => putSize (p.1 + 1)) ++ nodes.flatMap (fun p => p.2.flatMap (putF io)) =
        List.flatMap (Tok.bytes io 8) ([Tok.int e.1, .int e.2, .int 0, .size nodes.length] ++ nodes.map ((fun p => Tok.size p.1) ∘ fun p => (p.1 + 1, p.2)) ++
          nodes.flatMap fun p => p.2.map Tok.flt) := by
      rw [List.flatMap_append, List.flatMap_append, List.flatMap_map, List.flatMap_assoc]
      simp only [List.flatMap_map]
      simp [putInts, Tok.bytes, putSize]
    rw [e3]
    exact this
  | false =>
    rw [if_neg (by simp)]
    have p1 := piece_line io 8 ' ' (by decide) [(Tok.int e.1, fmtInt e.1), (.int e.2, fmtInt e.2), (.int 0, fmtInt 0), (.size nodes.length, fmtNat nodes.length)] (by
      intro a ha
      simp only [List.mem_cons, List.not_mem_nil, or_false] at ha
      rcases ha with rfl | rfl | rfl | rfl
      · exact text_int io _
      · exact text_int io _
      · exact text_int io _
      · exact text_size io _)
    have p2 := piece_line io 8 '\n' (by decide) (nodes.map fun p => (Tok.size (p.1 + 1), fmtNat (p.1 + 1))) (by
      intro a ha
      obtain ⟨p, -, rfl⟩ := List.mem_map.1 ha
      exact text_size io _)
    have p3 := piece_lines io 8 nodes (fun p => p.2.map fun x => (Tok.flt x, io.fmt x)) (by
      intro a _ w hw
      obtain ⟨x, -, rfl⟩ := List.mem_map.1 hw
      exact text_flt io x)
    have := piece_append (piece_append p1 p2) p3
    simp only [List.map_map] at this
    simpa [linesText, Function.comp_def] using this

theorem writeNodes_ok (io : GmshFloat F) (binary : Bool) (m : In F) (h : Msh4In io.lim m) (names : List (Int × Int × List Char)) :
    ∃ t, writeNodes io binary m = .ok t ∧ ∀ rest, NumSec io (!binary) 8 "Nodes" (msh4File io.zero m names).nodeToks (t ++ rest) rest := by
  have hpad : (if m.dim = 2 then m.points.map (· ++ [io.zero]) else m.points) = msh4Points io.zero m :=
    (Gmsh22.pad_points io.zero ⟨m.dim, m.points, [], [], none, none, none, [], [], none⟩ h.points.2).1
  have hlen : (msh4Points io.zero m).length = m.points.length := by simp [msh4Points]
  have hown := length_owners io.lim m h
  have hpne : m.points.length ≠ 0 := fun h0 => h.points.1 (List.length_eq_zero_iff.1 h0)
  have hne : pairUnique (msh4NodeOwners m) ≠ [] := by
    intro h0
    cases ho : msh4NodeOwners m with
    | nil => rw [ho] at hown; exact hpne (by simpa using hown.symm)
    | cons e l =>
      have : e ∈ pairUnique (msh4NodeOwners m) := mem_pairUnique.2 (by rw [ho]; simp)
      rw [h0] at this
      simp at this
  have hcode : nodeEntities m (msh4Points io.zero m).length = .ok (pairUnique (msh4NodeOwners m), msh4NodeOwners m) := by
    unfold nodeEntities
    cases hdt : m.dimTags with
    | some dt => simp [msh4NodeOwners, hdt]
    | none =>
      have h1 := h.single hdt
      match hc : m.cells, h1 with
      | [b], _ =>
        have e1 : msh4NodeOwners m = List.replicate m.points.length ((dimOf b.1 : Int), 0) := by
          unfold msh4NodeOwners
          rw [hdt, hc]
          rfl
        have e2 : ∀ n, n ≠ 0 → pairUnique (List.replicate n ((dimOf b.1 : Int), (0 : Int))) = [((dimOf b.1 : Int), 0)] := by
          intro n hn
          induction n with
          | zero => exact absurd rfl hn
          | succ n ih =>
            rw [List.replicate_succ, show ∀ (y : Int × Int) l, pairUnique (y :: l) = pinsert y (pairUnique l) from fun _ _ => rfl]
            by_cases h0 : n = 0
            · subst h0; rfl
            · rw [ih h0]
              simp [pinsert, pairLt]
        simp only
        rw [hlen, e1, e2 _ hpne]
  unfold writeNodes
  simp only
  rw [hpad]
  rw [hcode]
  refine ⟨_, rfl, ?_⟩
  intro rest
  have hP := piece_append (piece_sizes_line io binary [(pairUnique (msh4NodeOwners m)).length, (msh4Points io.zero m).length, 1, (msh4Points io.zero m).length] (by
      have := length_pairUnique (msh4NodeOwners m)
      have := h.size.2.2.1
      intro n hn
      simp only [List.mem_cons, List.not_mem_nil, or_false] at hn
      rcases hn with rfl | rfl | rfl | rfl <;> omega))
    (piece_flatMap (io := io) (ascii := !binary) (k := 8) (pairUnique (msh4NodeOwners m))
      (fun e => Msh4Nodes.toks ⟨e.1, e.2, (((List.range m.points.length).filter fun i => decide ((msh4NodeOwners m)[i]? = some e)).map fun i =>
        (i, (msh4Points io.zero m).getD i [])).map fun p => (p.1 + 1, p.2)⟩)
      (fun e => nodeBlock io binary e ((((msh4NodeOwners m).zip (msh4Points io.zero m)).zipIdx.filter fun x => decide (x.1.1 = e)).map fun x => (x.2, x.1.2)))
      (by
        intro e he
        have heo := mem_pairUnique.1 he
        have hint : IsInt 4 e.1 ∧ IsInt 4 e.2 := by
          unfold msh4NodeOwners at heo
          cases hdt : m.dimTags with
          | some dt =>
            rw [hdt] at heo
            obtain ⟨a, b, c⟩ := (h.ents dt hdt).2.1 e heo
            refine ⟨?_, c⟩
            unfold IsInt
            have : (256 ^ 4 : Nat) = 4294967296 := by decide
            rw [this]
            omega
          | none =>
            rw [hdt] at heo
            have h1 := h.single hdt
            match hc : m.cells, h1 with
            | [b], _ =>
              rw [hc] at heo
              have := (List.mem_replicate.1 heo).2
              subst this
              refine ⟨?_, (by decide : IsInt 4 0)⟩
              have hd : dimOf b.1 ≤ 3 := by
                obtain ⟨c, hcc⟩ := Option.isSome_iff_exists.1 (h.cells b (by rw [hc]; simp)).2.1
                exact (by decide +kernel : ∀ kv ∈ meshioToGmsh, dimOf kv.1 ≤ 3) (b.1, c) (find_mem hcc)
              show IsInt 4 (dimOf b.1 : Int)
              unfold IsInt
              have : (256 ^ 4 : Nat) = 4294967296 := by decide
              rw [this]
              omega
        rw [group_nodes (msh4NodeOwners m) (msh4Points io.zero m) (by omega) e, hlen]
        refine nodeBlock_piece io binary e hint.1 hint.2 _ ?_ ?_
        · rw [List.length_map]
          have := List.length_filter_le (fun i => decide ((msh4NodeOwners m)[i]? = some e)) (List.range m.points.length)
          rw [List.length_range] at this
          have := h.size.2.2.1
          omega
        · intro p hp
          obtain ⟨i, hi, rfl⟩ := List.mem_map.1 hp
          have := List.mem_range.1 (List.mem_filter.1 hi).1
          have := h.size.2.2.1
          show i < 2 ^ 31
          omega))
  have htoks : (msh4File io.zero m names).nodeToks =
      [(pairUnique (msh4NodeOwners m)).length, (msh4Points io.zero m).length, 1, (msh4Points io.zero m).length].map Tok.size ++
      (pairUnique (msh4NodeOwners m)).flatMap (fun e => Msh4Nodes.toks ⟨e.1, e.2, (((List.range m.points.length).filter fun i =>
        decide ((msh4NodeOwners m)[i]? = some e)).map fun i => (i, (msh4Points io.zero m).getD i [])).map fun p => (p.1 + 1, p.2)⟩) := by
    unfold Msh4File.nodeToks
    rw [file_points, List.length_map, length_order io.lim m h, hlen]
    unfold msh4File
    simp only [List.length_map, List.flatMap_map, List.map_map]
    rfl
  rw [htoks]
  have := numSec_written io binary "Nodes" _ _ hP rest
  simp only [List.append_assoc, List.flatMap_map] at this ⊢
  exact this

end Meshio.Gmsh41
