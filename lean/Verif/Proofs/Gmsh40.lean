/-
Helper lemmas for Gmsh files of version 4.0: entities and nodes.
-/
import Verif.Base.Words
import Verif.Proofs.Gmsh41Read
import Verif.Spec.Gmsh40
namespace Meshio.Gmsh40
open Types Tables Gmsh Spec
open Gmsh41 (toEntity sortEnts ints_stream sizes_stream doubles_stream stream_end tok_entities)

variable {F : Type}

/-! ### Entities -/

theorem readEntity_stream (io : GmshFloat F) (ascii : Bool) (e : Msh4Entity F) (he : Msh40Entity e) (ts : List (Tok F))
    (s rest : List Char) (h : NumStream io ascii 8 (e.toks ++ ts) s rest) :
    ∃ s', readEntity io ascii e.dim s = .ok (toEntity e, s') ∧ NumStream io ascii 8 ts s' rest := by
  unfold Msh4Entity.toks at h
  simp only [List.append_assoc] at h
  obtain ⟨s1, h1, h⟩ := ints_stream io ascii 8 [e.tag] _ s rest h
  obtain ⟨s2, h2, h⟩ := doubles_stream io ascii 8 e.box _ s1 rest h
  obtain ⟨s3, h3, h⟩ := sizes_stream io ascii 8 [e.phys.length] _ s2 rest h
  obtain ⟨s4, h4, h⟩ := ints_stream io ascii 8 e.phys _ s3 rest h
  rw [he.box] at h2
  unfold readEntity
  simp only [List.length_singleton] at h1 h3
  rw [h1]
  simp only
  rw [h2]
  simp only
  rw [h3]
  simp only
  rw [h4]
  simp only
  by_cases hd : e.dim = 0
  · rw [if_pos hd, List.nil_append] at h
    refine ⟨s4, ?_, h⟩
    rw [if_neg (by omega)]
    unfold toEntity
    rw [he.bounds hd]
  · rw [if_neg hd, List.append_assoc] at h
    obtain ⟨s5, h5, h⟩ := sizes_stream io ascii 8 [e.bounds.length] _ s4 rest h
    obtain ⟨s6, h6, h⟩ := ints_stream io ascii 8 e.bounds _ s5 rest h
    refine ⟨s6, ?_, h⟩
    simp only [List.length_singleton] at h5
    rw [if_pos (by omega), h5]
    simp only
    rw [h6]
    rfl

theorem readEntitiesN_stream (io : GmshFloat F) (ascii : Bool) (d : Nat) (l : List (Msh4Entity F)) (hl : ∀ e ∈ l, Msh40Entity e ∧ e.dim = d)
    (ts : List (Tok F)) (s rest : List Char) (h : NumStream io ascii 8 (l.flatMap Msh4Entity.toks ++ ts) s rest) :
    ∃ s', readEntitiesN io ascii d l.length s = .ok (l.map toEntity, s') ∧ NumStream io ascii 8 ts s' rest := by
  induction l generalizing s with
  | nil => exact ⟨s, rfl, h⟩
  | cons e l ih =>
    rw [List.flatMap_cons, List.append_assoc] at h
    obtain ⟨he, hd⟩ := hl e (by simp)
    obtain ⟨s1, h1, h⟩ := readEntity_stream io ascii e he _ s rest h
    obtain ⟨s2, h2, h⟩ := ih (fun e' he' => hl e' (by simp [he'])) s1 h
    refine ⟨s2, ?_, h⟩
    rw [hd] at h1
    rw [List.length_cons, readEntitiesN, h1]
    simp only
    rw [h2]
    rfl

theorem readEntitiesD_stream (io : GmshFloat F) (ascii : Bool) (l : List (Msh4Entity F)) (hl : ∀ e ∈ l, Msh40Entity e) (ds : List Nat)
    (ts : List (Tok F)) (s rest : List Char)
    (h : NumStream io ascii 8 (ds.flatMap (fun d => (l.filter fun e => decide (e.dim = d)).flatMap Msh4Entity.toks) ++ ts) s rest) :
    ∃ s', readEntitiesD io ascii (ds.map fun d => ((l.filter fun e => decide (e.dim = d)).length, d)) s =
      .ok ((ds.flatMap fun d => l.filter fun e => decide (e.dim = d)).map toEntity, s') ∧ NumStream io ascii 8 ts s' rest := by
  induction ds generalizing s with
  | nil => exact ⟨s, rfl, h⟩
  | cons d ds ih =>
    rw [List.flatMap_cons, List.append_assoc] at h
    obtain ⟨s1, h1, h⟩ := readEntitiesN_stream io ascii d (l.filter fun e => decide (e.dim = d)) (by
      intro e he
      rw [List.mem_filter, decide_eq_true_iff] at he
      exact ⟨hl e he.1, he.2⟩) _ s rest h
    obtain ⟨s2, h2, h⟩ := ih s1 h
    refine ⟨s2, ?_, h⟩
    rw [List.map_cons, readEntitiesD, h1]
    simp only
    rw [h2]
    simp

theorem readEntities_stream (io : GmshFloat F) (ascii : Bool) (l : List (Msh4Entity F))
    (hl : ∀ e ∈ l, Msh40Entity e) (s rest : List Char)
    (h : NumStream io ascii 8 (msh4Entities l) s ("$End".toList ++ "Entities".toList ++ '\n' :: rest)) :
    readEntities io ascii s = .ok (sortEnts l, rest) := by
  unfold msh4Entities at h
  have e : ([0, 1, 2, 3].map fun d => (Tok.size (l.filter fun e => decide (e.dim = d)).length : Tok F)) =
      ([0, 1, 2, 3].map fun d => (l.filter fun e => decide (e.dim = d)).length).map .size := by rw [List.map_map]; rfl
  rw [e] at h
  obtain ⟨s1, h1, h⟩ := sizes_stream io ascii 8 _ _ s _ h
  rw [← List.append_nil (List.flatMap _ _)] at h
  obtain ⟨s2, h2, h⟩ := readEntitiesD_stream io ascii l hl [0, 1, 2, 3] [] s1 _ h
  have h3 := stream_end io ascii 8 _ tok_entities s2 rest h
  unfold readEntities
  have h1' : sizes ascii 8 4 s = ([0, 1, 2, 3].map fun d => (l.filter fun e => decide (e.dim = d)).length, s1) := h1
  rw [h1']
  simp only
  have e2 : ([0, 1, 2, 3].map fun d => (l.filter fun e => decide (e.dim = d)).length).zipIdx =
      [0, 1, 2, 3].map fun d => ((l.filter fun e => decide (e.dim = d)).length, d) := rfl
  rw [e2, h2]
  simp only
  rw [h3]
  rfl

/-! ### Nodes of text files -/

theorem matched_append {α β : Type} {R : α → β → Prop} (a b : List α) (m : List β) (h : Matched R (a ++ b) m) :
    ∃ m1 m2, m = m1 ++ m2 ∧ Matched R a m1 ∧ Matched R b m2 := by
  induction a generalizing m with
  | nil => exact ⟨[], m, rfl, trivial, h⟩
  | cons x a ih =>
    cases m with
    | nil => exact h.elim
    | cons y m =>
      obtain ⟨h1, h2⟩ := h
      obtain ⟨m1, m2, rfl, h3, h4⟩ := ih m h2
      exact ⟨y :: m1, m2, rfl, ⟨h1, h3⟩, h4⟩

theorem matched_length {α β : Type} {R : α → β → Prop} (a : List α) (m : List β) (h : Matched R a m) : a.length = m.length := by
  induction a generalizing m with
  | nil =>
    cases m with
    | nil => rfl
    | cons y m => exact h.elim
  | cons x a ih =>
    cases m with
    | nil => exact h.elim
    | cons y m => rw [List.length_cons, List.length_cons, ih m h.2]

theorem matched_right {α β : Type} {R : α → β → Prop} {P : β → Prop} (a : List α) (m : List β) (h : Matched R a m) (hP : ∀ x y, R x y → P y) :
    ∀ y ∈ m, P y := by
  induction a generalizing m with
  | nil =>
    cases m with
    | nil => simp
    | cons y m => exact h.elim
  | cons x a ih =>
    cases m with
    | nil => exact h.elim
    | cons y m =>
      intro z hz
      rcases List.mem_cons.1 hz with rfl | hz
      · exact hP _ _ h.1
      · exact ih m h.2 z hz

theorem toInt_tok {w : List Char} (hw : IsTok w) (z : Int) (h : parseInt w = some z) : toInt w = .ok z := by
  have : strip w = w := by rw [← strip_nl' w, strip_tok hw]
  unfold toInt
  rw [this, h]

/-- Numbers that are not floats. -/
theorem ints_words (io : GmshFloat F) (zs : List Int) (ts : List (Tok F)) (hts : Matched (fun (t : Tok F) (z : Int) => t = .int z ∨ ∃ n : Nat, t = .size n ∧ z = (n : Int)) ts zs)
    (ws : List (List Char)) (h : Matched (fun t w => Tok.Text io t w) ts ws) : mapRes toInt ws = .ok zs := by
  induction ts generalizing zs ws with
  | nil =>
    cases ws with
    | nil =>
      cases zs with
      | nil => rfl
      | cons _ _ => exact hts.elim
    | cons _ _ => exact h.elim
  | cons t ts ih =>
    cases ws with
    | nil => exact h.elim
    | cons w ws =>
      cases zs with
      | nil => exact hts.elim
      | cons z zs =>
        have hw : toInt w = .ok z := by
          rcases hts.1 with rfl | ⟨n, rfl, rfl⟩
          · exact toInt_tok h.1.1 z h.1.2
          · exact toInt_tok h.1.1 n h.1.2
        rw [mapRes, hw]
        simp only
        rw [ih zs hts.2 ws h.2]

theorem lineInts_line (io : GmshFloat F) (zs : List Int) (ts : List (Tok F)) (hts : Matched (fun (t : Tok F) (z : Int) => t = .int z ∨ ∃ n : Nat, t = .size n ∧ z = (n : Int)) ts zs)
    (line : List Char) (h : NumLine io ts line) : lineInts (line ++ ['\n']) = .ok zs := by
  unfold lineInts
  rw [splitWs_nl]
  exact ints_words io zs ts hts _ h.2

theorem nodeLine_line (io : GmshFloat F) (i : Int) (x : List F) (hx : x.length = 3) (line : List Char)
    (h : NumLine io (.int i :: x.map .flt) line) : nodeLine io true (line ++ ['\n']) = .ok (i, x) := by
  obtain ⟨-, h⟩ := h
  match x, hx with
  | [a, b, c], _ =>
    unfold nodeLine
    rw [splitWs_nl]
    match hw : splitWs line, h with
    | [w0, w1, w2, w3], ⟨h0, h1, h2, h3, _⟩ =>
      simp only
      rw [show io.parse w1 = some a from h1.2, show io.parse w2 = some b from h2.2, show io.parse w3 = some c from h3.2]
      simp only [if_true]
      rw [toInt_tok h0.1 i h0.2]

theorem nodeLines_lines (io : GmshFloat F) (total : Nat) (nodes : List (Nat × List F)) (hn : ∀ p ∈ nodes, p.2.length = 3)
    (ls : List (List Char)) (h : Matched (NumLine io) (nodes.map fun p => .int p.1 :: p.2.map .flt) ls) (idx : Nat)
    (hi : idx + nodes.length ≤ total) (rest : List Char) :
    nodeLines io total idx nodes.length (linesText ls ++ rest) = .ok (nodes.map fun p => ((p.1 : Int), p.2), rest) := by
  induction nodes generalizing ls idx with
  | nil =>
    cases ls with
    | nil => rfl
    | cons _ _ => exact h.elim
  | cons p nodes ih =>
    cases ls with
    | nil => exact h.elim
    | cons l ls =>
      obtain ⟨h1, h2⟩ := h
      rw [List.length_cons] at hi
      rw [List.length_cons, linesText_cons, List.append_assoc, List.cons_append, nodeLines, readLine_append _ _ h1.1]
      simp only
      rw [decide_eq_true (by omega), nodeLine_line io p.1 p.2 (hn p (by simp)) l h1]
      simp only
      rw [ih (fun q hq => hn q (by simp [hq])) ls h2 (idx + 1) (by omega)]
      rfl

/-- The nodes of the blocks. -/
def allNodes (l : List (Msh4Nodes F × Int)) : List (Nat × List F) := l.flatMap fun b => b.1.nodes

theorem nodeBlocksText_lines (io : GmshFloat F) (total : Nat) (l : List (Msh4Nodes F × Int)) (hn : ∀ p ∈ allNodes l, p.2.length = 3)
    (ls : List (List Char)) (h : Matched (NumLine io) (l.flatMap msh40NodeBlock) ls) (idx : Nat)
    (hi : idx + (allNodes l).length ≤ total) (rest : List Char) :
    nodeBlocksText io total idx l.length (linesText ls ++ rest) = .ok ((allNodes l).map fun p => ((p.1 : Int), p.2), rest) := by
  induction l generalizing ls idx with
  | nil =>
    cases ls with
    | nil => rfl
    | cons _ _ => exact h.elim
  | cons b l ih =>
    rw [List.flatMap_cons] at h
    obtain ⟨m1, m2, rfl, h1, h2⟩ := matched_append _ _ _ h
    cases m1 with
    | nil => exact h1.elim
    | cons l1 m1 =>
      obtain ⟨h0, h1⟩ := h1
      have ea : allNodes (b :: l) = b.1.nodes ++ allNodes l := rfl
      rw [ea] at hn hi ⊢
      rw [List.length_append] at hi
      rw [List.length_cons, linesText_append, linesText_cons, List.append_assoc, List.append_assoc, List.cons_append, nodeBlocksText,
        readLine_append _ _ h0.1]
      simp only
      rw [lineInts_line io [b.1.tag, b.1.dim, b.2, (b.1.nodes.length : Int)] [.int b.1.tag, .int b.1.dim, .int b.2, .size b.1.nodes.length]
        ⟨.inl rfl, .inl rfl, .inl rfl, .inr ⟨_, rfl, rfl⟩, trivial⟩ _ h0]
      simp only [Int.toNat_natCast]
      rw [nodeLines_lines io total b.1.nodes (fun p hp => hn p (by simp [hp])) m1 h1 idx (by omega)]
      simp only [List.length_map]
      rw [ih (fun p hp => hn p (by simp [hp])) m2 h2 _ (by omega)]
      simp

/-! ### Nodes of binary files -/

theorem sizes_put (l : List Nat) (hl : ∀ n ∈ l, n < 256 ^ 8) (s : List Char) :
    sizes false 8 l.length (l.flatMap (fun n => toChars (natEnc false 8 n)) ++ s) = (l, s) := by
  have := blocks_append 8 (l.map fun n => toChars (natEnc false 8 n)) (by
    intro x hx
    obtain ⟨y, -, rfl⟩ := List.mem_map.1 hx
    rw [length_toChars, length_natEnc]) s
  rw [List.length_map, ← List.flatMap_def] at this
  unfold sizes Gmsh41.nums
  rw [if_neg (by simp), this]
  simp only [List.map_map]
  congr 1
  conv => rhs; rw [← List.map_id l]
  apply List.map_congr_left
  intro n hn
  simp only [Function.comp_apply, id_eq]
  unfold Gmsh41.getSize
  rw [toBytes_toChars, natDec_natEnc false 8 n (hl n hn)]

theorem ints_put (l : List Int) (hl : ∀ z ∈ l, IsInt 4 z) (s : List Char) : ints false l.length (putInts 4 l ++ s) = (l, s) := by
  have := getInts_putInts 4 l hl s
  unfold ints Gmsh41.nums
  rw [if_neg (by simp)]
  exact this

/-- The bytes of a block of nodes. -/
def blockBytes (io : GmshFloat F) (b : Msh4Nodes F × Int) : List Char :=
  putInts 4 [b.1.tag, b.1.dim, b.2] ++ ([b.1.nodes.length].flatMap (fun n => toChars (natEnc false 8 n)) ++
    b.1.nodes.flatMap fun p => putInt 4 (p.1 : Int) ++ p.2.flatMap (putF io))

theorem blockBytes_eq (io : GmshFloat F) (b : Msh4Nodes F × Int) :
    (msh40NodeBlock b).flatten.flatMap (Tok.bytes io 8) = blockBytes io b := by
  unfold msh40NodeBlock blockBytes putInts
  rw [List.flatten_cons, List.flatMap_append]
  simp only [List.flatMap_cons, List.flatMap_nil, List.append_nil, Tok.bytes, List.append_assoc]
  congr 4
  induction b.1.nodes with
  | nil => rfl
  | cons p l ih =>
    rw [List.map_cons, List.flatten_cons, List.flatMap_append, ih, List.flatMap_cons, List.flatMap_cons, List.flatMap_map]
    rfl

theorem nodeBlocksBin_bytes (io : GmshFloat F) (l : List (Msh4Nodes F × Int)) (hn : ∀ p ∈ allNodes l, p.2.length = 3)
    (hf : ∀ t ∈ (l.flatMap msh40NodeBlock).flatten, Tok.Fits (F := F) 8 t) (rest : List Char) :
    nodeBlocksBin io l.length (l.flatMap (blockBytes io) ++ rest) = .ok ((allNodes l).map fun p => ((p.1 : Int), p.2), rest) := by
  induction l with
  | nil => rfl
  | cons b l ih =>
    have ea : allNodes (b :: l) = b.1.nodes ++ allNodes l := rfl
    rw [ea] at hn ⊢
    rw [List.flatMap_cons, List.flatten_append] at hf
    have hb : ∀ t ∈ (msh40NodeBlock b).flatten, Tok.Fits (F := F) 8 t := fun t ht => hf t (List.mem_append_left _ ht)
    have hhd : ∀ t ∈ ([.int b.1.tag, .int b.1.dim, .int b.2, .size b.1.nodes.length] : List (Tok F)), Tok.Fits (F := F) 8 t := by
      intro t ht
      apply hb
      rw [msh40NodeBlock, List.flatten_cons]
      exact List.mem_append_left _ ht
    have hid : ∀ p ∈ b.1.nodes, IsInt 4 (p.1 : Int) := by
      intro p hp
      have := hb (.int p.1) (by
        rw [msh40NodeBlock, List.flatten_cons]
        apply List.mem_append_right
        rw [List.mem_flatten]
        exact ⟨_, List.mem_map.2 ⟨p, hp, rfl⟩, by simp⟩)
      exact this
    rw [List.length_cons, List.flatMap_cons, nodeBlocksBin]
    have e : blockBytes io b ++ List.flatMap (blockBytes io) l ++ rest = putInts 4 [b.1.tag, b.1.dim, b.2] ++
        ([b.1.nodes.length].flatMap (fun n => toChars (natEnc false 8 n)) ++
        ((b.1.nodes.flatMap fun p => putInt 4 (p.1 : Int) ++ p.2.flatMap (putF io)) ++ (List.flatMap (blockBytes io) l ++ rest))) := by
      unfold blockBytes
      simp only [List.append_assoc]
    rw [e]
    have hi := ints_put [b.1.tag, b.1.dim, b.2] (by
      intro z hz
      exact hhd (.int z) (by
        simp only [List.mem_cons, List.not_mem_nil, or_false] at hz
        rcases hz with rfl | rfl | rfl <;> simp)) ([b.1.nodes.length].flatMap (fun n => toChars (natEnc false 8 n)) ++
        ((b.1.nodes.flatMap fun p => putInt 4 (p.1 : Int) ++ p.2.flatMap (putF io)) ++ (List.flatMap (blockBytes io) l ++ rest)))
    have hi' : ints false 3 _ = _ := hi
    rw [hi']
    have hs := sizes_put [b.1.nodes.length] (by
      intro n hn
      rw [List.mem_singleton] at hn
      subst hn
      exact hhd (.size b.1.nodes.length) (by simp)) ((b.1.nodes.flatMap fun p => putInt 4 (p.1 : Int) ++ p.2.flatMap (putF io)) ++
        (List.flatMap (blockBytes io) l ++ rest))
    have hs' : sizes false 8 1 _ = _ := hs
    simp only
    rw [hs']
    simp only
    have hbl := blocks_append 28 (b.1.nodes.map fun p => putInt 4 (p.1 : Int) ++ p.2.flatMap (putF io)) (by
      intro x hx
      obtain ⟨p, hp, rfl⟩ := List.mem_map.1 hx
      rw [List.length_append, length_putInt, length_putFs, hn p (by simp [hp])]) (List.flatMap (blockBytes io) l ++ rest)
    rw [List.length_map, ← List.flatMap_def] at hbl
    rw [hbl]
    simp only [List.length_map]
    rw [if_neg (by simp), ih (fun p hp => hn p (by simp [hp])) (fun t ht => hf t (List.mem_append_right _ ht))]
    simp only [List.map_append, List.map_map]
    congr 3
    apply List.map_congr_left
    intro p hp
    simp only [Function.comp_apply]
    have := record_put io (p.1 : Int) (hid p hp) p.2
    rwa [hn p (by simp [hp])] at this

theorem zip_map_fst {α β : Type} (l : List α) (m : List β) (h : m.length = l.length) : (l.zip m).map (·.1) = l :=
  List.map_fst_zip (by omega)

theorem allNodes_zip (f : Msh4File F) (types : List Int) (ht : types.length = f.nodes.length) :
    allNodes (f.nodes.zip types) = f.nodes.flatMap (·.nodes) := by
  unfold allNodes
  conv => rhs; rw [← zip_map_fst f.nodes types ht, List.flatMap_map]

theorem readNodes_sec (io : GmshFloat F) (ascii : Bool) (f : Msh4File F) (types : List Int) (ht : types.length = f.nodes.length)
    (hid : f.ids ≠ []) (hp : ∀ p ∈ f.points, p.length = 3) (s rest : List Char) (h : Msh40NodeSec io ascii (msh40Nodes f types) s rest) :
    ∃ s', s = '$' :: "Nodes".toList ++ '\n' :: s' ∧ rest.length ≤ s'.length ∧
      readNodes io ascii s' = .ok (⟨f.ids.map Int.ofNat, f.points, []⟩, rest) := by
  have hz := allNodes_zip f types ht
  have hpts : (allNodes (f.nodes.zip types)).map (·.2) = f.points := by
    rw [hz, List.map_flatMap]; rfl
  have hids : (allNodes (f.nodes.zip types)).map (fun p => (p.1 : Int)) = f.ids.map Int.ofNat := by
    rw [hz, Msh4File.ids, List.map_flatMap, List.map_flatMap]
    apply flatMap_congr'
    intro b _
    rw [List.map_map]; rfl
  have hlen : (allNodes (f.nodes.zip types)).length = f.points.length := by
    rw [← hpts, List.length_map]
  have hn : ∀ p ∈ allNodes (f.nodes.zip types), p.2.length = 3 := by
    intro p hp'
    apply hp
    rw [← hpts]
    exact List.mem_map.2 ⟨p, hp', rfl⟩
  have hzl : (f.nodes.zip types).length = f.nodes.length := by rw [List.length_zip, ht, Nat.min_self]
  unfold Msh40NodeSec at h
  cases ascii with
  | true =>
    rw [if_pos rfl] at h
    obtain ⟨ls, more, h, hmore, rfl⟩ := h
    unfold msh40Nodes at h
    cases ls with
    | nil => exact h.elim
    | cons l ls =>
      obtain ⟨h0, h⟩ := h
      refine ⟨l ++ '\n' :: (linesText ls ++ (linesText more ++ (linesText ["$End".toList ++ "Nodes".toList] ++ rest))), ?_, ?_, ?_⟩
      · simp only [linesText_append, linesText_cons, List.append_assoc, List.cons_append, List.nil_append]
        rfl
      · simp; omega
      · unfold readNodes
        rw [if_pos rfl]
        unfold readNodesText
        rw [readLine_append _ _ h0.1]
        simp only
        rw [lineInts_line io [(f.nodes.length : Int), (f.points.length : Int)] [.size f.nodes.length, .size f.points.length]
          ⟨.inr ⟨_, rfl, rfl⟩, .inr ⟨_, rfl, rfl⟩, trivial⟩ _ h0]
        simp only [Int.toNat_natCast]
        have hb := nodeBlocksText_lines io f.points.length _ hn ls h 0 (by omega)
          (linesText more ++ (linesText ["$End".toList ++ "Nodes".toList] ++ rest))
        rw [hzl] at hb
        rw [if_neg (by omega), hb]
        simp only [List.length_map]
        rw [if_neg (by simpa using hlen)]
        simp only
        rw [fastForward_lines "Nodes".toList Gmsh22.tok_nodes more hmore, List.map_map, List.map_map]
        congr 3
  | false =>
    rw [if_neg (by simp)] at h
    obtain ⟨hf, rfl⟩ := h
    unfold msh40Nodes at hf
    rw [List.flatten_cons] at hf
    have hby : (msh40Nodes f types).flatten.flatMap (Tok.bytes io 8) =
        [f.nodes.length, f.points.length].flatMap (fun n => toChars (natEnc false 8 n)) ++ (f.nodes.zip types).flatMap (blockBytes io) := by
      unfold msh40Nodes
      rw [List.flatten_cons, List.flatMap_append]
      congr 1
      generalize f.nodes.zip types = z
      induction z with
      | nil => rfl
      | cons b z ih => rw [List.flatMap_cons, List.flatten_append, List.flatMap_append, ih, blockBytes_eq, List.flatMap_cons]
    refine ⟨[f.nodes.length, f.points.length].flatMap (fun n => toChars (natEnc false 8 n)) ++ ((f.nodes.zip types).flatMap (blockBytes io) ++
      ('\n' :: (linesText ["$End".toList ++ "Nodes".toList] ++ rest))), ?_, ?_, ?_⟩
    · rw [hby]
      simp only [linesText_cons, List.append_assoc, List.cons_append, List.nil_append]
      rfl
    · simp; omega
    · unfold readNodes
      rw [if_neg (by simp)]
      unfold readNodesBin
      have hs := sizes_put [f.nodes.length, f.points.length] (by
        intro n hn
        exact hf (.size n) (List.mem_append_left _ (by
          simp only [List.mem_cons, List.not_mem_nil, or_false] at hn
          rcases hn with rfl | rfl <;> simp))) ((f.nodes.zip types).flatMap (blockBytes io) ++
        ('\n' :: (linesText ["$End".toList ++ "Nodes".toList] ++ rest)))
      have hs' : sizes false 8 2 _ = _ := hs
      rw [hs']
      simp only
      have hb := nodeBlocksBin_bytes io (f.nodes.zip types) hn (fun t ht => hf t (List.mem_append_right _ ht))
        ('\n' :: (linesText ["$End".toList ++ "Nodes".toList] ++ rest))
      rw [hzl] at hb
      rw [hb]
      simp only
      have hl := readLine_append [] (linesText ["$End".toList ++ "Nodes".toList] ++ rest) (by simp)
      rw [List.nil_append, List.nil_append] at hl
      rw [if_neg (by
        intro h0
        apply hid
        unfold Msh4File.ids
        rw [List.length_eq_zero_iff.1 h0]
        rfl), hl]
      simp only
      rw [if_neg (by simp)]
      simp only
      rw [fastForward_end "Nodes".toList rest Gmsh22.tok_nodes, List.map_map, List.map_map]
      congr 3

end Meshio.Gmsh40
