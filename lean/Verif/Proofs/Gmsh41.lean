/-
Helper lemmas for Gmsh files of version 4.1.
-/
import Verif.Proofs.Gmsh22
import Verif.Spec.Gmsh41
namespace Meshio.Gmsh41
open Meshio Types Tables Gmsh Spec

variable {F : Type}

/-! ### Streams of numbers -/

theorem fastForward_ws (block : List Char) (hb : IsTok block) (s : List Char) (n : Nat) : ∀ w : List Char, w.length ≤ n →
    (∀ c ∈ w, isWs c = true) → fastForward block (w ++ ("$End".toList ++ block ++ '\n' :: s)) = s := by
  induction n with
  | zero =>
    intro w hw _
    have : w = [] := List.length_eq_zero_iff.1 (by omega)
    subst this
    have := fastForward_end block s hb
    rw [linesText_cons] at this
    simpa [linesText] using this
  | succ n ih =>
    intro w hw hws
    have ht := isTok_end block hb
    by_cases hn : '\n' ∈ w
    · obtain ⟨a, b, rfl, hna⟩ := List.eq_append_cons_of_mem hn
      rw [List.append_assoc, List.cons_append, fastForward_step block a _ hna]
      · exact ih b (by simp at hw; omega) fun c hc => hws c (by simp [hc])
      · have : strip (a ++ ['\n']) = [] := by
          rw [strip_eq_nil, splitWs_eq_nil]
          intro c hc
          rcases List.mem_append.1 hc with h | h
          · exact hws c (by simp [h])
          · exact nl_ws c h
        rw [this]
        exact fun e => ht.1 e.symm
    · generalize hB : "$End".toList ++ block = b at *
      have hnl : '\n' ∉ w ++ b := by
        intro hm
        rcases List.mem_append.1 hm with h | h
        · exact hn h
        · exact tok_no_nl ht h
      have hst : strip ((w ++ b) ++ ['\n']) = b := by
        have e : strip ((w ++ b) ++ ['\n']) = strip (b ++ ['\n']) := by
          unfold strip
          rw [List.append_assoc, List.dropWhile_append_of_pos hws]
        rw [e, strip_tok ht]
      have e : w ++ (b ++ '\n' :: s) = (w ++ b) ++ '\n' :: s := by simp
      rw [e]
      unfold fastForward
      rw [show ((w ++ b) ++ '\n' :: s).length = ((w ++ b) ++ s).length + 1 by simp; omega, fastForwardF, if_neg (by simp),
        readLine_append _ s hnl]
      simp only
      rw [hst, hB, if_pos rfl]

/-- Reading numbers of one kind. -/
theorem nums_stream {α : Type} (io : GmshFloat F) (ascii : Bool) (k : Nat) (mk : α → Tok F) (parse : List Char → Option α)
    (size : Nat) (dec : List Char → α) (hp : ∀ a x, (mk a).Text io x → parse x = some a)
    (hb : ∀ a, (mk a).Fits k → ((mk a).bytes io k).length = size ∧ dec ((mk a).bytes io k) = a)
    (l : List α) (ts : List (Tok F)) (s rest : List Char) (h : NumStream io ascii k (l.map mk ++ ts) s rest) :
    ∃ s', nums ascii parse size dec l.length s = (l, s') ∧ NumStream io ascii k ts s' rest := by
  cases ascii with
  | true =>
    induction l generalizing s with
    | nil => exact ⟨s, by simp [nums, scan], h⟩
    | cons a l ih =>
      rw [List.map_cons, List.cons_append, NumStream, if_pos rfl] at h
      obtain ⟨w, x, c, s', hw, hx, hc, rfl, h⟩ := h
      obtain ⟨s'', h1, h2⟩ := ih (c :: s') h
      refine ⟨s'', ?_, h2⟩
      unfold nums at h1 ⊢
      rw [if_pos rfl] at h1 ⊢
      rw [List.length_cons, scan_step' parse l.length w x hw hx.1 a (hp a x hx) c hc s', h1]
  | false =>
    induction l generalizing s with
    | nil => exact ⟨s, by simp [nums, blocks], h⟩
    | cons a l ih =>
      rw [List.map_cons, List.cons_append, NumStream, if_neg (by simp)] at h
      obtain ⟨hf, s', rfl, h⟩ := h
      obtain ⟨s'', h1, h2⟩ := ih s' h
      refine ⟨s'', ?_, h2⟩
      obtain ⟨b1, b2⟩ := hb a hf
      unfold nums at h1 ⊢
      rw [if_neg (by simp)] at h1 ⊢
      rw [List.length_cons, blocks, if_neg (by rw [List.length_append]; omega)]
      rw [Prod.mk.injEq] at h1
      rw [List.take_left' b1, List.drop_left' b1]
      simp only [List.map_cons, b2, h1.1, h1.2]

theorem ints_stream (io : GmshFloat F) (ascii : Bool) (k : Nat) (l : List Int) (ts : List (Tok F)) (s rest : List Char)
    (h : NumStream io ascii k (l.map .int ++ ts) s rest) :
    ∃ s', ints ascii l.length s = (l, s') ∧ NumStream io ascii k ts s' rest :=
  nums_stream io ascii k .int parseInt 4 getInt (fun _ _ h => h.2)
    (fun a h => ⟨length_putInt 4 a, getInt_putInt 4 a h⟩) l ts s rest h

theorem sizes_stream (io : GmshFloat F) (ascii : Bool) (k : Nat) (l : List Nat) (ts : List (Tok F)) (s rest : List Char)
    (h : NumStream io ascii k (l.map .size ++ ts) s rest) :
    ∃ s', sizes ascii k l.length s = (l, s') ∧ NumStream io ascii k ts s' rest :=
  nums_stream io ascii k .size parseSize k getSize (fun a x h => by
    unfold parseSize
    rw [h.2, Option.bind_some, if_pos (by omega), Int.toNat_natCast])
    (fun a h => ⟨by rw [Tok.bytes, length_toChars, length_natEnc], by
      show getSize (toChars (natEnc false k a)) = a
      unfold getSize
      rw [toBytes_toChars, natDec_natEnc false k a h]⟩) l ts s rest h

theorem doubles_stream (io : GmshFloat F) (ascii : Bool) (k : Nat) (l : List F) (ts : List (Tok F)) (s rest : List Char)
    (h : NumStream io ascii k (l.map .flt ++ ts) s rest) :
    ∃ s', doubles io ascii l.length s = (l, s') ∧ NumStream io ascii k ts s' rest :=
  nums_stream io ascii k .flt io.parse 8 (getF io) (fun _ _ h => h.2)
    (fun a _ => ⟨length_putF io a, getF_putF io a⟩) l ts s rest h

/-- The end of a section. -/
theorem stream_end (io : GmshFloat F) (ascii : Bool) (k : Nat) (name : List Char) (hn : IsTok name) (s rest : List Char)
    (h : NumStream io ascii k [] s ("$End".toList ++ name ++ '\n' :: rest)) : fastForward name s = rest := by
  obtain ⟨w, hw, rfl⟩ := h
  exact fastForward_ws name hn rest w.length w (Nat.le_refl _) hw

/-! ### Entities -/

/-- The entity that is collected. -/
def toEntity (e : Msh4Entity F) : Entity := ⟨e.dim, e.tag, e.phys, e.bounds⟩

theorem readEntity_stream (io : GmshFloat F) (ascii : Bool) (k : Nat) (e : Msh4Entity F) (he : e.Ok) (ts : List (Tok F))
    (s rest : List Char) (h : NumStream io ascii k (e.toks ++ ts) s rest) :
    ∃ s', readEntity io ascii k e.dim s = .ok (toEntity e, s') ∧ NumStream io ascii k ts s' rest := by
  unfold Msh4Entity.toks at h
  simp only [List.append_assoc] at h
  obtain ⟨s1, h1, h⟩ := ints_stream io ascii k [e.tag] _ s rest h
  obtain ⟨s2, h2, h⟩ := doubles_stream io ascii k e.box _ s1 rest h
  obtain ⟨s3, h3, h⟩ := sizes_stream io ascii k [e.phys.length] _ s2 rest h
  obtain ⟨s4, h4, h⟩ := ints_stream io ascii k e.phys _ s3 rest h
  rw [he.box] at h2
  unfold readEntity
  simp only [List.length_singleton] at h1 h3
  rw [h1]
  simp only
  rw [h2]
  simp only
  rw [h3]
  simp only
  rw [h4]
  simp only
  by_cases hd : e.dim = 0
  · rw [if_pos hd, List.nil_append] at h
    refine ⟨s4, ?_, h⟩
    rw [if_neg (by omega)]
    unfold toEntity
    rw [he.bounds hd]
  · rw [if_neg hd, List.append_assoc] at h
    obtain ⟨s5, h5, h⟩ := sizes_stream io ascii k [e.bounds.length] _ s4 rest h
    obtain ⟨s6, h6, h⟩ := ints_stream io ascii k e.bounds _ s5 rest h
    refine ⟨s6, ?_, h⟩
    simp only [List.length_singleton] at h5
    rw [if_pos (by omega), h5]
    simp only
    rw [h6]
    rfl

theorem readEntitiesN_stream (io : GmshFloat F) (ascii : Bool) (k d : Nat) (l : List (Msh4Entity F)) (hl : ∀ e ∈ l, e.Ok ∧ e.dim = d)
    (ts : List (Tok F)) (s rest : List Char) (h : NumStream io ascii k (l.flatMap Msh4Entity.toks ++ ts) s rest) :
    ∃ s', readEntitiesN io ascii k d l.length s = .ok (l.map toEntity, s') ∧ NumStream io ascii k ts s' rest := by
  induction l generalizing s with
  | nil => exact ⟨s, rfl, h⟩
  | cons e l ih =>
    rw [List.flatMap_cons, List.append_assoc] at h
    obtain ⟨he, hd⟩ := hl e (by simp)
    obtain ⟨s1, h1, h⟩ := readEntity_stream io ascii k e he _ s rest h
    obtain ⟨s2, h2, h⟩ := ih (fun e' he' => hl e' (by simp [he'])) s1 h
    refine ⟨s2, ?_, h⟩
    rw [hd] at h1
    rw [List.length_cons, readEntitiesN, h1]
    simp only
    rw [h2]
    rfl

theorem readEntitiesD_stream (io : GmshFloat F) (ascii : Bool) (k : Nat) (l : List (Msh4Entity F)) (hl : ∀ e ∈ l, e.Ok) (ds : List Nat)
    (ts : List (Tok F)) (s rest : List Char)
    (h : NumStream io ascii k (ds.flatMap (fun d => (l.filter fun e => decide (e.dim = d)).flatMap Msh4Entity.toks) ++ ts) s rest) :
    ∃ s', readEntitiesD io ascii k (ds.map fun d => ((l.filter fun e => decide (e.dim = d)).length, d)) s =
      .ok ((ds.flatMap fun d => l.filter fun e => decide (e.dim = d)).map toEntity, s') ∧ NumStream io ascii k ts s' rest := by
  induction ds generalizing s with
  | nil => exact ⟨s, rfl, h⟩
  | cons d ds ih =>
    rw [List.flatMap_cons, List.append_assoc] at h
    obtain ⟨s1, h1, h⟩ := readEntitiesN_stream io ascii k d (l.filter fun e => decide (e.dim = d)) (by
      intro e he
      rw [List.mem_filter, decide_eq_true_iff] at he
      exact ⟨hl e he.1, he.2⟩) _ s rest h
    obtain ⟨s2, h2, h⟩ := ih s1 h
    refine ⟨s2, ?_, h⟩
    rw [List.map_cons, readEntitiesD, h1]
    simp only
    rw [h2]
    simp

theorem sizeType_ok (k : Nat) (hk : k = 1 ∨ k = 2 ∨ k = 4 ∨ k = 8) : sizeType (k : Int) = .ok k := by
  rcases hk with rfl | rfl | rfl | rfl <;> decide

theorem tok_entities : IsTok "Entities".toList := ⟨by decide, by decide⟩

/-- The entities by dimension. -/
def sortEnts (l : List (Msh4Entity F)) : List Entity := ([0, 1, 2, 3].flatMap fun d => l.filter fun e => decide (e.dim = d)).map toEntity

theorem readEntities_stream (io : GmshFloat F) (ascii : Bool) (k : Nat) (hk : k = 1 ∨ k = 2 ∨ k = 4 ∨ k = 8) (l : List (Msh4Entity F))
    (hl : ∀ e ∈ l, e.Ok) (s rest : List Char)
    (h : NumStream io ascii k (msh4Entities l) s ("$End".toList ++ "Entities".toList ++ '\n' :: rest)) :
    readEntities io ascii k s = .ok (sortEnts l, rest) := by
  unfold msh4Entities at h
  have e : ([0, 1, 2, 3].map fun d => (Tok.size (l.filter fun e => decide (e.dim = d)).length : Tok F)) =
      ([0, 1, 2, 3].map fun d => (l.filter fun e => decide (e.dim = d)).length).map .size := by rw [List.map_map]; rfl
  rw [e] at h
  obtain ⟨s1, h1, h⟩ := sizes_stream io ascii k _ _ s _ h
  rw [← List.append_nil (List.flatMap _ _)] at h
  obtain ⟨s2, h2, h⟩ := readEntitiesD_stream io ascii k l hl [0, 1, 2, 3] [] s1 _ h
  have h3 := stream_end io ascii k _ tok_entities s2 rest h
  unfold readEntities
  rw [sizeType_ok k hk]
  simp only
  have h1' : sizes ascii k 4 s = ([0, 1, 2, 3].map fun d => (l.filter fun e => decide (e.dim = d)).length, s1) := h1
  rw [h1']
  simp only
  have e2 : ([0, 1, 2, 3].map fun d => (l.filter fun e => decide (e.dim = d)).length).zipIdx =
      [0, 1, 2, 3].map fun d => ((l.filter fun e => decide (e.dim = d)).length, d) := rfl
  rw [e2, h2]
  simp only
  rw [h3]
  rfl

/-- The entity of a block. -/
theorem entity_find (l : List (Msh4Entity F)) (hl : ∀ e ∈ l, e.dim ≤ 3) (d : Nat) (t : Int)
    (e : Msh4Entity F) (he : l.reverse.find? (fun e => decide (e.dim = d ∧ e.tag = t)) = some e) :
    entity (sortEnts l) d t = .ok (toEntity e) := by
  have hm := List.mem_reverse.1 (List.mem_of_find?_eq_some he)
  have hp := List.find?_some he
  rw [decide_eq_true_iff] at hp
  have hle := hl e hm
  unfold entity
  rw [if_neg (by omega), if_neg (by omega)]
  have hflt : (sortEnts l).filter (fun e => decide ((e.dim : Int) = d ∧ e.tag = t)) =
      (l.filter fun e => decide (e.dim = d ∧ e.tag = t)).map toEntity := by
    unfold sortEnts
    rw [List.filter_map]
    congr 1
    have hpt : ∀ d', (l.filter fun e => decide (e.dim = d')).filter ((fun e => decide ((e.dim : Int) = d ∧ e.tag = t)) ∘ toEntity) =
        if d' = d then l.filter fun e => decide (e.dim = d ∧ e.tag = t) else [] := by
      intro d'
      rw [List.filter_filter]
      by_cases hdd : d' = d
      · subst hdd
        rw [if_pos rfl]
        apply List.filter_congr
        intro a _
        rw [Bool.eq_iff_iff, Bool.and_eq_true, Function.comp_apply, decide_eq_true_iff, decide_eq_true_iff, decide_eq_true_iff,
          show (toEntity a).dim = a.dim from rfl, show (toEntity a).tag = a.tag from rfl]
        omega
      · rw [if_neg hdd, List.filter_eq_nil_iff]
        intro a _
        rw [Bool.and_eq_true, Function.comp_apply, decide_eq_true_iff, decide_eq_true_iff,
          show (toEntity a).dim = a.dim from rfl, show (toEntity a).tag = a.tag from rfl]
        omega
    simp only [List.flatMap_cons, List.flatMap_nil, List.filter_append, hpt, List.append_nil]
    have : d = 0 ∨ d = 1 ∨ d = 2 ∨ d = 3 := by omega
    rcases this with rfl | rfl | rfl | rfl <;> simp
  have h1 : (l.filter (fun e => decide (e.dim = d ∧ e.tag = t))).getLast? = some e := by
    rw [List.getLast?_eq_head?_reverse, ← List.filter_reverse, List.head?_filter, he]
  rw [hflt, List.getLast?_map, h1]
  rfl

/-! ### Nodes -/

theorem readNodeBlock_stream (io : GmshFloat F) (ascii : Bool) (k : Nat) (b : Msh4Nodes F) (hb : ∀ p ∈ b.nodes, p.2.length = 3)
    (ts : List (Tok F)) (s rest : List Char) (h : NumStream io ascii k (b.toks ++ ts) s rest) :
    ∃ s', readNodeBlock io ascii k s = .ok (⟨b.nodes.map (fun p => (p.1 : Int)), b.nodes.map (·.2),
      b.nodes.map fun _ => (b.dim, b.tag)⟩, s') ∧ NumStream io ascii k ts s' rest := by
  unfold Msh4Nodes.toks at h
  have e1 : [Tok.int b.dim, .int b.tag, .int 0, .size b.nodes.length] = ([b.dim, b.tag, 0].map .int ++ [b.nodes.length].map .size : List (Tok F)) := rfl
  have e2 : b.nodes.map (fun p => (Tok.size p.1 : Tok F)) = (b.nodes.map (·.1)).map .size := by rw [List.map_map]; rfl
  have e3 : (b.nodes.flatMap fun p => p.2.map Tok.flt) = ((b.nodes.map (·.2)).flatten).map .flt := by
    rw [List.map_flatten, List.map_map, List.flatMap_def]; rfl
  rw [e1, e2, e3] at h
  simp only [List.append_assoc] at h
  obtain ⟨s1, h1, h⟩ := ints_stream io ascii k _ _ s rest h
  obtain ⟨s2, h2, h⟩ := sizes_stream io ascii k _ _ s1 rest h
  obtain ⟨s3, h3, h⟩ := sizes_stream io ascii k _ _ s2 rest h
  obtain ⟨s4, h4, h⟩ := doubles_stream io ascii k _ _ s3 rest h
  have hw : ∀ r ∈ b.nodes.map (·.2), r.length = 3 := by
    intro r hr
    obtain ⟨p, hp, rfl⟩ := List.mem_map.1 hr
    exact hb p hp
  have h1' : ints ascii 3 s = ([b.dim, b.tag, 0], s1) := h1
  have h2' : sizes ascii k 1 s1 = ([b.nodes.length], s2) := h2
  rw [List.length_map] at h3
  rw [length_flatten_const 3 _ hw, List.length_map] at h4
  refine ⟨s4, ?_, h⟩
  unfold readNodeBlock
  rw [h1']
  simp only
  rw [if_neg (by simp), h2']
  simp only
  rw [h3]
  simp only
  rw [if_neg (by simp), h4]
  simp only
  have hr := reshape_flatten 3 _ hw
  rw [List.length_map] at hr
  rw [hr]
  simp only
  congr 3
  · rw [List.map_map]; rfl
  · exact (List.map_const' ..).symm

theorem readNodeBlocks_stream (io : GmshFloat F) (ascii : Bool) (k : Nat) (l : List (Msh4Nodes F)) (hb : ∀ b ∈ l, ∀ p ∈ b.nodes, p.2.length = 3)
    (ts : List (Tok F)) (s rest : List Char) (h : NumStream io ascii k (l.flatMap Msh4Nodes.toks ++ ts) s rest) :
    ∃ s', readNodeBlocks io ascii k l.length s = .ok (⟨l.flatMap fun b => b.nodes.map (fun p => (p.1 : Int)),
      l.flatMap fun b => b.nodes.map (·.2), l.flatMap fun b => b.nodes.map fun _ => (b.dim, b.tag)⟩, s') ∧ NumStream io ascii k ts s' rest := by
  induction l generalizing s with
  | nil => exact ⟨s, rfl, h⟩
  | cons b l ih =>
    rw [List.flatMap_cons, List.append_assoc] at h
    obtain ⟨s1, h1, h⟩ := readNodeBlock_stream io ascii k b (hb b (by simp)) _ s rest h
    obtain ⟨s2, h2, h⟩ := ih (fun e' he' => hb e' (by simp [he'])) s1 h
    refine ⟨s2, ?_, h⟩
    rw [List.length_cons, readNodeBlocks, h1]
    simp only
    rw [h2]
    rfl

theorem readNodes_stream (io : GmshFloat F) (ascii : Bool) (k : Nat) (hk : k = 1 ∨ k = 2 ∨ k = 4 ∨ k = 8) (f : Msh4File F)
    (hp : ∀ p ∈ f.points, p.length = 3) (s rest : List Char)
    (h : NumStream io ascii k ([.size f.nodes.length, .size f.points.length, .size f.nodeRange.1, .size f.nodeRange.2] ++
      f.nodes.flatMap Msh4Nodes.toks) s ("$End".toList ++ "Nodes".toList ++ '\n' :: rest)) :
    readNodes io ascii k s = .ok (⟨f.ids.map Int.ofNat, f.points, f.mesh.dimTags⟩, rest) := by
  have e1 : [Tok.size f.nodes.length, .size f.points.length, .size f.nodeRange.1, .size f.nodeRange.2] =
    ([f.nodes.length, f.points.length, f.nodeRange.1, f.nodeRange.2].map .size : List (Tok F)) := rfl
  rw [e1] at h
  obtain ⟨s1, h1, h⟩ := sizes_stream io ascii k _ _ s _ h
  rw [← List.append_nil (List.flatMap _ _)] at h
  obtain ⟨s2, h2, h⟩ := readNodeBlocks_stream io ascii k f.nodes (by
    intro b hb p hp'
    exact hp _ (List.mem_flatMap.2 ⟨b, hb, List.mem_map.2 ⟨p, hp', rfl⟩⟩)) [] s1 _ h
  have h3 := stream_end io ascii k _ Gmsh22.tok_nodes s2 rest h
  have h1' : sizes ascii k 4 s = ([f.nodes.length, f.points.length, f.nodeRange.1, f.nodeRange.2], s1) := h1
  have hids : (f.nodes.flatMap fun b => b.nodes.map (fun p => (p.1 : Int))) = f.ids.map Int.ofNat := by
    unfold Msh4File.ids
    rw [List.map_flatMap]
    apply flatMap_congr'
    intro b _
    rw [List.map_map]; rfl
  unfold readNodes
  rw [sizeType_ok k hk]
  simp only
  rw [h1']
  simp only
  rw [h2]
  simp only
  rw [if_neg, h3, hids]
  · rfl
  · simp only [ne_eq, Decidable.not_not]
    unfold Msh4File.points
    simp only [List.length_flatMap, List.length_map]

/-! ### Elements -/

/-- A row of the section of elements. -/
def rawRow (ids : List Nat) (t : String) (e : Nat × List Nat) : List Nat := e.1 :: gmshRow t (e.2.map fun p => ids.getD p 0)

/-- What is collected of a block. -/
def blockOf (f : Msh4File F) (b : Msh4Block) (rows : List (List Int)) : ElemBlock :=
  ⟨b.dim, b.tag, b.type, f.ents.map fun _ => f.phys b, f.ents.bind fun _ => if 0 < b.dim then some (f.bounds b) else none, rows⟩

theorem length_rawRow {n : Nat} (ids : List Nat) {b : Msh4Block} (hb : b.Ok n) {e : Nat × List Nat} (he : e ∈ b.elems) :
    (rawRow ids b.type e).length = 1 + e.2.length := by
  have := (Gmsh22.gmshRow_spec b.type (e.2.map fun p => ids.getD p 0) (by
    intro m hm
    rw [(hb.elems e he).1] at hm
    rw [List.length_map]
    exact Option.some.inj hm)).2.1
  unfold rawRow
  rw [List.length_cons, this, List.length_map]
  omega

theorem readElemBlock_stream (io : GmshFloat F) (ascii : Bool) (k : Nat) (f : Msh4File F) (lim : Nat) (hf : f.Ok lim ascii k)
    (b : Msh4Block) (hb : b ∈ f.blocks) (ts : List (Tok F)) (s rest : List Char)
    (h : NumStream io ascii k (b.toks f.ids ++ ts) s rest) :
    ∃ s', readElemBlock ascii k (f.ents.map sortEnts) s =
      .ok (blockOf f b (b.elems.map fun e => (rawRow f.ids b.type e).map Int.ofNat), s') ∧ NumStream io ascii k ts s' rest := by
  have hok := hf.blocks b hb
  unfold Msh4Block.toks at h
  have e1 : [Tok.int (b.dim : Int), .int b.tag, .int (gmshCode b.type), .size b.elems.length] =
    ([(b.dim : Int), b.tag, (gmshCode b.type : Int)].map .int ++ [b.elems.length].map .size : List (Tok F)) := rfl
  have e2 : (b.elems.flatMap fun e => (e.1 :: gmshRow b.type (e.2.map fun p => f.ids.getD p 0)).map (Tok.size (F := F))) =
      ((b.elems.map (rawRow f.ids b.type)).flatten).map .size := by
    rw [List.map_flatten, List.map_map, List.flatMap_def]; rfl
  rw [e1, e2] at h
  simp only [List.append_assoc] at h
  obtain ⟨s1, h1, h⟩ := ints_stream io ascii k _ _ s rest h
  obtain ⟨s2, h2, h⟩ := sizes_stream io ascii k _ _ s1 rest h
  obtain ⟨s3, h3, h⟩ := sizes_stream io ascii k _ _ s2 rest h
  obtain ⟨e0, he0⟩ := List.exists_mem_of_ne_nil _ hok.some
  have hsz := (hok.elems e0 he0).1
  have hw : ∀ r ∈ b.elems.map (rawRow f.ids b.type), r.length = 1 + e0.2.length := by
    intro r hr
    obtain ⟨e, he, rfl⟩ := List.mem_map.1 hr
    rw [length_rawRow f.ids hok he]
    have := (hok.elems e he).1
    rw [hsz] at this
    rw [Option.some.inj this]
  have h1' : ints ascii 3 s = ([(b.dim : Int), b.tag, (gmshCode b.type : Int)], s1) := h1
  have h2' : sizes ascii k 1 s1 = ([b.elems.length], s2) := h2
  have hcode : find meshioToGmsh b.type = some (gmshCode b.type) := by
    unfold gmshCode
    obtain ⟨c, hc⟩ := Option.isSome_iff_exists.1 hok.code
    rw [hc]; rfl
  have hd : decide ((0 : Int) ≤ (gmshCode b.type : Int)) = true := by rw [decide_eq_true_iff]; omega
  have hl3 : ((b.elems.map (rawRow f.ids b.type)).flatten).length = b.elems.length * (1 + e0.2.length) := by
    rw [length_flatten_const _ _ hw, List.length_map]
  rw [hl3] at h3
  have hrows := rowsN_flatten _ _ hw []
  rw [List.length_map, List.append_nil] at hrows
  refine ⟨s3, ?_, h⟩
  unfold readElemBlock
  rw [h1']
  simp only
  rw [h2']
  simp only [Int.toNat_natCast]
  rw [Props.C16_gmsh _ _ hcode, hd]
  simp only
  rw [Gmsh22.find_eq_get?, hsz]
  simp only
  rw [h3]
  simp only
  rw [if_neg (by rw [hl3]; simp), if_neg (by
    intro h0
    exact hok.some (List.length_eq_zero_iff.1 h0)), hrows, List.map_map]
  cases hE : f.ents with
  | none =>
    simp only [Option.map_none]
    unfold blockOf
    rw [hE]
    rfl
  | some l =>
    obtain ⟨hl1, hl3⟩ := hf.ents l hE
    obtain ⟨e, he⟩ := Option.isSome_iff_exists.1 (hl3 b hb)
    have he' : l.reverse.find? (fun e => decide (e.dim = b.dim ∧ e.tag = b.tag)) = some e := by
      unfold Msh4File.entity at he
      rw [hE] at he
      exact he
    simp only [Option.map_some]
    rw [entity_find l (fun e he => (hl1 e he).dim) b.dim b.tag e he']
    simp only
    unfold blockOf Msh4File.phys Msh4File.bounds
    rw [hE, he]
    simp only [Option.map_some, Option.getD_some, Option.bind_some, toEntity]
    congr 3
    by_cases h0 : 0 < b.dim
    · rw [if_pos h0, if_pos (by omega)]
    · rw [if_neg h0, if_neg (by omega)]

theorem readElemBlocks_stream (io : GmshFloat F) (ascii : Bool) (k : Nat) (f : Msh4File F) (lim : Nat) (hf : f.Ok lim ascii k)
    (l : List Msh4Block) (hl : ∀ b ∈ l, b ∈ f.blocks) (ts : List (Tok F)) (s rest : List Char)
    (h : NumStream io ascii k (l.flatMap (Msh4Block.toks f.ids) ++ ts) s rest) :
    ∃ s', readElemBlocks ascii k (f.ents.map sortEnts) l.length s =
      .ok (l.map fun b => blockOf f b (b.elems.map fun e => (rawRow f.ids b.type e).map Int.ofNat), s') ∧ NumStream io ascii k ts s' rest := by
  induction l generalizing s with
  | nil => exact ⟨s, rfl, h⟩
  | cons b l ih =>
    rw [List.flatMap_cons, List.append_assoc] at h
    obtain ⟨s1, h1, h⟩ := readElemBlock_stream io ascii k f lim hf b (hl b (by simp)) _ s rest h
    obtain ⟨s2, h2, h⟩ := ih (fun e' he' => hl e' (by simp [he'])) s1 h
    refine ⟨s2, ?_, h⟩
    rw [List.length_cons, readElemBlocks, h1]
    simp only
    rw [h2]
    rfl

theorem mapRes_map_ok {α β γ : Type} (g : α → β) (h : β → Res γ) (v : α → γ) (l : List α) (hl : ∀ a ∈ l, h (g a) = .ok (v a)) :
    mapRes h (l.map g) = .ok (l.map v) := by
  induction l with
  | nil => rfl
  | cons a l ih =>
    rw [List.map_cons, mapRes, hl a (by simp)]
    simp only
    rw [ih fun a' ha' => hl a' (by simp [ha'])]
    rfl

theorem row_ok {n : Nat} {b : Msh4Block} (hb : b.Ok n) {e : Nat × List Nat} (he : e ∈ b.elems) :
    reorder gmshGmshOrdering b.type e.2 = .ok (gmshRow b.type e.2) ∧ (gmshRow b.type e.2).length = e.2.length ∧
      reorder gmshMeshioOrdering b.type (gmshRow b.type e.2) = .ok e.2 :=
  Gmsh22.gmshRow_spec b.type e.2 (by
    intro m hm
    rw [(hb.elems e he).1] at hm
    exact Option.some.inj hm)

theorem gmshRow_map {n : Nat} {b : Msh4Block} (hb : b.Ok n) {e : Nat × List Nat} (he : e ∈ b.elems) {α : Type} (g : Nat → α) :
    gmshRow b.type (e.2.map g) = (gmshRow b.type e.2).map g := by
  have := Gmsh22.reorder_map g _ _ _ _ (row_ok hb he).1
  conv => lhs; unfold gmshRow
  rw [this]

theorem remapRows_ok {n : Nat} (ids : List Nat) (table : List Int)
    (ht : ∀ p, p < n → npIndex table ((ids.getD p 0 : Nat) - 1) = .ok (p : Int)) {b : Msh4Block} (hb : b.Ok n) (f : Msh4File F) :
    remapRows table (blockOf f b (b.elems.map fun e => (rawRow ids b.type e).map Int.ofNat)) =
      .ok (blockOf f b (b.elems.map fun e => (gmshRow b.type e.2).map Int.ofNat)) := by
  unfold remapRows
  have := mapRes_map_ok (fun e => (rawRow ids b.type e).map Int.ofNat) (fun r => mapRes (fun z => npIndex table (z - 1)) (r.drop 1))
    (fun e => (gmshRow b.type e.2).map Int.ofNat) b.elems (by
      intro e he
      rw [rawRow, List.map_cons, List.drop_succ_cons, List.drop_zero, gmshRow_map hb he, List.map_map]
      apply mapRes_map_ok
      intro p hp
      have hp' := Gmsh22.mem_reorder (row_ok hb he).1 p hp
      exact ht p ((hb.elems e he).2 p hp'))
  rw [show (blockOf f b (b.elems.map fun e => (rawRow ids b.type e).map Int.ofNat)).rows =
    b.elems.map fun e => (rawRow ids b.type e).map Int.ofNat from rfl, this]
  rfl

theorem orderRows_ok {n : Nat} {b : Msh4Block} (hb : b.Ok n) (f : Msh4File F) :
    orderRows (blockOf f b (b.elems.map fun e => (gmshRow b.type e.2).map Int.ofNat)) =
      .ok (blockOf f b (b.elems.map fun e => e.2.map Int.ofNat)) := by
  unfold orderRows
  have := mapRes_map_ok (fun e : Nat × List Nat => (gmshRow b.type e.2).map Int.ofNat) (reorder gmshMeshioOrdering b.type)
    (fun e => e.2.map Int.ofNat) b.elems (by
      intro e he
      exact Gmsh22.reorder_map Int.ofNat _ _ _ _ (row_ok hb he).2.2)
  rw [show (blockOf f b (b.elems.map fun e => (gmshRow b.type e.2).map Int.ofNat)).rows =
    b.elems.map fun e => (gmshRow b.type e.2).map Int.ofNat from rfl, show (blockOf f b (b.elems.map fun e => (gmshRow b.type e.2).map Int.ofNat)).type = b.type from rfl, this]
  simp only
  rw [if_pos ((hasDim_iff _).2 hb.known)]
  rfl

theorem physical_ok (f : Msh4File F) (hp : (∀ b ∈ f.blocks, f.phys b = []) ∨ ∀ b ∈ f.blocks, f.phys b ≠ []) :
    ((f.blocks.map fun b => blockOf f b (b.elems.map fun e => e.2.map Int.ofNat)).filterMap fun b => match b.phys with
      | some (p :: _) => some (List.replicate b.rows.length p)
      | _ => none) = f.mesh.physical := by
  have hnone : ∀ b, f.ents = none → f.phys b = [] := by
    intro b h
    unfold Msh4File.phys Msh4File.entity
    rw [h]; rfl
  show _ = if ∀ b ∈ f.blocks, f.phys b = [] then [] else f.blocks.map fun b => b.elems.map fun _ => (f.phys b).headD 0
  rw [List.filterMap_map]
  rcases hp with hp | hp
  · rw [if_pos hp, List.filterMap_eq_nil_iff]
    intro b hb
    simp only [Function.comp_apply, blockOf]
    rw [hp b hb]
    cases f.ents <;> rfl
  · have hall : ∀ bs : List Msh4Block, (∀ b ∈ bs, f.phys b ≠ []) → bs.filterMap ((fun b => match b.phys with
      | some (p :: _) => some (List.replicate b.rows.length p)
      | _ => none) ∘ fun b => blockOf f b (b.elems.map fun e => e.2.map Int.ofNat)) = bs.map fun b => b.elems.map fun _ => (f.phys b).headD 0 := by
      intro bs
      induction bs with
      | nil => intro _; rfl
      | cons b bs ih =>
        intro h
        have hb := h b (by simp)
        rw [List.map_cons, ← ih fun b' hb' => h b' (by simp [hb'])]
        cases hE : f.ents with
        | none => exact absurd (hnone b hE) hb
        | some l =>
          cases hph : f.phys b with
          | nil => exact absurd hph hb
          | cons p r =>
            rw [List.filterMap_cons_some (b := b.elems.map fun _ => p)]
            · rfl
            · simp only [Function.comp_apply, blockOf, hE, hph, Option.map_some, List.length_map]
              rw [List.map_const']
    rw [hall f.blocks hp]
    by_cases h0 : ∀ b ∈ f.blocks, f.phys b = []
    · rw [if_pos h0]
      cases hB : f.blocks with
      | nil => rfl
      | cons b bs => exact absurd (h0 b (by rw [hB]; simp)) (hp b (by rw [hB]; simp))
    · rw [if_neg h0]

theorem collect_ok (f : Msh4File F) (hp : (∀ b ∈ f.blocks, f.phys b = []) ∨ ∀ b ∈ f.blocks, f.phys b ≠ []) :
    collect (f.ents.map sortEnts) (f.names0.map fun e => (String.ofList e.2.2, e.2.1, e.1))
      (f.blocks.map fun b => blockOf f b (b.elems.map fun e => e.2.map Int.ofNat)) =
      ⟨f.mesh.cells, f.mesh.physical, f.mesh.geometrical, f.mesh.sets, f.mesh.bounding⟩ := by
  unfold collect
  congr 1
  · rw [List.map_map]; rfl
  · exact physical_ok f hp
  · rw [List.map_map]
    apply List.map_congr_left
    intro b _
    simp only [Function.comp_apply, blockOf, List.length_map]
    rw [List.map_const']
  · rw [List.map_map]
    show _ = f.names0.map fun e => (String.ofList e.2.2, f.blocks.map fun b =>
      if e.1 = b.dim ∧ e.2.1 ∈ f.phys b then List.range b.elems.length else [])
    apply List.map_congr_left
    intro e _
    simp only [Function.comp_apply, List.map_map]
    congr 1
    apply List.map_congr_left
    intro b _
    simp only [Function.comp_apply, members, blockOf, List.length_map]
    cases hE : f.ents with
    | none =>
      have : f.phys b = [] := by
        unfold Msh4File.phys Msh4File.entity
        rw [hE]; rfl
      rw [this, if_neg (by simp)]
      rfl
    | some l => rfl
  · show _ = if f.ents.isSome ∧ f.blocks ≠ [] then some (f.blocks.map fun b => if 0 < b.dim then some (f.bounds b) else none)
      else none
    cases hE : f.ents with
    | none => exact (if_neg (fun h => absurd h.1 (by simp))).symm
    | some l =>
      simp only [Option.map_some, Option.bind_some, Option.isSome_some, true_and, List.map_eq_nil_iff]
      by_cases h0 : f.blocks = []
      · rw [if_pos h0, if_neg (by simpa using h0)]
      · rw [if_neg h0, if_pos h0, List.map_map]
        congr 1
        apply List.map_congr_left
        intro b _
        simp only [Function.comp_apply, blockOf, hE, Option.bind_some]

theorem readElements_stream (io : GmshFloat F) (ascii : Bool) (k : Nat) (f : Msh4File F) (lim : Nat) (hf : f.Ok lim ascii k)
    (s rest : List Char)
    (h : NumStream io ascii k ([.size f.blocks.length, .size f.numElems, .size f.elemRange.1, .size f.elemRange.2] ++
      f.blocks.flatMap (Msh4Block.toks f.ids)) s ("$End".toList ++ "Elements".toList ++ '\n' :: rest)) :
    readElements ascii k (f.ids.map Int.ofNat) (f.ents.map sortEnts) (f.names0.map fun e => (String.ofList e.2.2, e.2.1, e.1)) s =
      .ok (⟨f.mesh.cells, f.mesh.physical, f.mesh.geometrical, f.mesh.sets, f.mesh.bounding⟩, rest) := by
  have e1 : [Tok.size f.blocks.length, .size f.numElems, .size f.elemRange.1, .size f.elemRange.2] =
    ([f.blocks.length, f.numElems, f.elemRange.1, f.elemRange.2].map .size : List (Tok F)) := rfl
  rw [e1] at h
  obtain ⟨s1, h1, h⟩ := sizes_stream io ascii k _ _ s _ h
  rw [← List.append_nil (List.flatMap _ _)] at h
  obtain ⟨s2, h2, h⟩ := readElemBlocks_stream io ascii k f lim hf f.blocks (fun _ h => h) [] s1 _ h
  have h3 := stream_end io ascii k _ Gmsh22.tok_elements s2 rest h
  have h1' : sizes ascii k 4 s = ([f.blocks.length, f.numElems, f.elemRange.1, f.elemRange.2], s1) := h1
  obtain ⟨n1, n2, n3, n4⟩ := hf.nodes
  obtain ⟨table, htab, htable⟩ := Gmsh22.remapTable_ok (f.ids.map Int.ofNat) (by simpa using n3) (by
      rw [List.nodup_iff_pairwise_ne, List.pairwise_map]
      exact (List.nodup_iff_pairwise_ne.1 n1).imp fun h e => h (Int.ofNat.inj e)) (by
      intro i hi
      obtain ⟨j, hj, rfl⟩ := List.mem_map.1 hi
      have := n2 j hj
      show (1 : Int) ≤ (j : Int)
      omega)
  have hlen : f.ids.length = f.points.length := by
    unfold Msh4File.ids Msh4File.points
    simp only [List.length_flatMap, List.length_map]
  have ht : ∀ p, p < f.points.length → npIndex table ((f.ids.getD p 0 : Nat) - 1) = .ok (p : Int) := by
    intro p hp
    have := htable p (by rw [List.length_map, hlen]; exact hp)
    have e : (f.ids.map Int.ofNat).getD p 0 = ((f.ids.getD p 0 : Nat) : Int) := by
      rw [List.getD_eq_getElem?_getD, List.getD_eq_getElem?_getD, List.getElem?_map]
      cases f.ids[p]? <;> rfl
    rw [e] at this
    exact this
  unfold readElements
  rw [sizeType_ok k hf.size]
  simp only
  rw [h1']
  simp only
  rw [h2]
  simp only
  rw [htab]
  simp only
  rw [mapRes_map_ok _ (remapRows table) (fun b => blockOf f b (b.elems.map fun e => (gmshRow b.type e.2).map Int.ofNat)) f.blocks
    (fun b hb => remapRows_ok f.ids table ht (hf.blocks b hb) f)]
  simp only
  rw [mapRes_map_ok _ orderRows (fun b => blockOf f b (b.elems.map fun e => e.2.map Int.ofNat)) f.blocks
    (fun b hb => orderRows_ok (hf.blocks b hb) f)]
  simp only
  rw [h3, collect_ok f hf.physical]

/-! ### Periodic links -/

theorem readLink_stream (io : GmshFloat F) (ascii : Bool) (k : Nat) (p : Periodic F)
    (hp : p.affine.isSome ∧ ∀ q ∈ p.pairs, 0 ≤ q.1 ∧ 0 ≤ q.2) (ts : List (Tok F)) (s rest : List Char)
    (h : NumStream io ascii k (msh4Link p ++ ts) s rest) :
    ∃ s', readLink io ascii k s = .ok (p, s') ∧ NumStream io ascii k ts s' rest := by
  obtain ⟨dim, slave, master, affine, pairs⟩ := p
  obtain ⟨a, ha⟩ := Option.isSome_iff_exists.1 hp.1
  simp only at ha
  subst ha
  have hq := hp.2
  simp only at hq
  unfold msh4Link at h
  simp only [Option.getD_some] at h
  have e1 : [Tok.int dim, .int slave, .int master, .size a.length] = ([dim, slave, master].map .int ++ [a.length].map .size : List (Tok F)) := rfl
  have e3 : (pairs.flatMap fun q => [(Tok.size (q.1 + 1).toNat : Tok F), .size (q.2 + 1).toNat]) =
      ((pairs.map fun q => [(q.1 + 1).toNat, (q.2 + 1).toNat]).flatten).map .size := by
    rw [List.map_flatten, List.map_map, List.flatMap_def]; rfl
  have e4 : [(Tok.size pairs.length : Tok F)] = [pairs.length].map .size := rfl
  rw [e1, e3, e4] at h
  simp only [List.append_assoc] at h
  obtain ⟨s1, h1, h⟩ := ints_stream io ascii k _ _ s rest h
  obtain ⟨s2, h2, h⟩ := sizes_stream io ascii k _ _ s1 rest h
  obtain ⟨s3, h3, h⟩ := doubles_stream io ascii k _ _ s2 rest h
  obtain ⟨s4, h4, h⟩ := sizes_stream io ascii k _ _ s3 rest h
  obtain ⟨s5, h5, h⟩ := sizes_stream io ascii k _ _ s4 rest h
  have hw : ∀ r ∈ pairs.map (fun q => [(q.1 + 1).toNat, (q.2 + 1).toNat]), r.length = 2 := by
    intro r hr
    obtain ⟨q, -, rfl⟩ := List.mem_map.1 hr
    rfl
  have hl : ((pairs.map fun q => [(q.1 + 1).toNat, (q.2 + 1).toNat]).flatten).length = pairs.length * 2 := by
    rw [length_flatten_const _ _ hw, List.length_map]
  rw [hl] at h5
  have hrows := rowsN_flatten _ _ hw []
  rw [List.length_map, List.append_nil] at hrows
  have h1' : ints ascii 3 s = ([dim, slave, master], s1) := h1
  have h2' : sizes ascii k 1 s1 = ([a.length], s2) := h2
  have h4' : sizes ascii k 1 s3 = ([pairs.length], s4) := h4
  refine ⟨s5, ?_, h⟩
  unfold readLink
  rw [h1']
  simp only
  rw [h2']
  simp only
  rw [h3]
  simp only
  rw [h4']
  simp only
  rw [h5]
  simp only
  rw [if_neg (by rw [hl]; simp), hrows, List.map_map]
  congr 3
  conv => rhs; rw [← List.map_id pairs]
  apply List.map_congr_left
  intro q hq'
  have := hq q hq'
  simp only [Function.comp_apply, List.getD_cons_zero, List.getD_cons_succ, id_eq]
  apply Prod.ext <;> simp only <;> omega

theorem readLinks_stream (io : GmshFloat F) (ascii : Bool) (k : Nat) (l : List (Periodic F))
    (hl : ∀ p ∈ l, p.affine.isSome ∧ ∀ q ∈ p.pairs, 0 ≤ q.1 ∧ 0 ≤ q.2) (ts : List (Tok F)) (s rest : List Char)
    (h : NumStream io ascii k (l.flatMap msh4Link ++ ts) s rest) :
    ∃ s', readLinks io ascii k l.length s = .ok (l, s') ∧ NumStream io ascii k ts s' rest := by
  induction l generalizing s with
  | nil => exact ⟨s, rfl, h⟩
  | cons b l ih =>
    rw [List.flatMap_cons, List.append_assoc] at h
    obtain ⟨s1, h1, h⟩ := readLink_stream io ascii k b (hl b (by simp)) _ s rest h
    obtain ⟨s2, h2, h⟩ := ih (fun e' he' => hl e' (by simp [he'])) s1 h
    refine ⟨s2, ?_, h⟩
    rw [List.length_cons, readLinks, h1]
    simp only
    rw [h2]

theorem readPeriodic_stream (io : GmshFloat F) (ascii : Bool) (k : Nat) (hk : k = 1 ∨ k = 2 ∨ k = 4 ∨ k = 8) (l : List (Periodic F))
    (hl : ∀ p ∈ l, p.affine.isSome ∧ ∀ q ∈ p.pairs, 0 ≤ q.1 ∧ 0 ≤ q.2) (s rest : List Char)
    (h : NumStream io ascii k (.size l.length :: l.flatMap msh4Link) s ("$End".toList ++ "Periodic".toList ++ '\n' :: rest)) :
    readPeriodic io ascii k s = .ok (l, rest) := by
  have e1 : (Tok.size l.length : Tok F) :: l.flatMap msh4Link = [l.length].map .size ++ (l.flatMap msh4Link ++ []) := by
    rw [List.append_nil]; rfl
  rw [e1] at h
  obtain ⟨s1, h1, h⟩ := sizes_stream io ascii k _ _ s _ h
  obtain ⟨s2, h2, h⟩ := readLinks_stream io ascii k l hl [] s1 _ h
  have h3 := stream_end io ascii k _ Gmsh22.tok_periodic s2 rest h
  have h1' : sizes ascii k 1 s = ([l.length], s1) := h1
  unfold readPeriodic
  rw [sizeType_ok k hk]
  simp only
  rw [h1']
  simp only
  rw [h2]
  simp only
  rw [h3]

end Meshio.Gmsh41
