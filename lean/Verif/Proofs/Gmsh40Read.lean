/-
Whole Gmsh files of version 4.0.
-/
import Verif.Proofs.Gmsh40
import Verif.Proofs.Gmsh41W2
namespace Meshio.Gmsh40
open Types Tables Gmsh Spec
open Gmsh41 (toEntity sortEnts ints_stream sizes_stream doubles_stream stream_end rawRow length_rawRow entity_find mapRes_map_ok row_ok gmshRow_map
  stream_length nums_ok addSec addSec_fields cellDataFromRaw_cut tok_entities piece_line piece_lines stream_ws text_int)

variable {F : Type}

theorem linesText_none : linesText [] = [] := rfl

/-! ### Elements -/

/-- What is collected of a block. -/
def blockOf (f : Msh4File F) (b : Msh4Block) (rows : List (List Int)) : ElemBlock :=
  ⟨b.dim, b.tag, b.type, f.ents.map fun _ => f.phys b, none, rows⟩

theorem readElemBlock_stream (io : GmshFloat F) (ascii : Bool) (f : Msh4File F) (lim : Nat) (hf : Msh40Ok lim ascii f)
    (b : Msh4Block) (hb : b ∈ f.blocks) (ts : List (Tok F)) (s rest : List Char)
    (h : NumStream io ascii 8 (msh40Block f.ids b ++ ts) s rest) :
    ∃ s', readElemBlock ascii (f.ents.map sortEnts) s =
      .ok (blockOf f b (b.elems.map fun e => (rawRow f.ids b.type e).map Int.ofNat), s') ∧ NumStream io ascii 8 ts s' rest := by
  have hok := hf.blocks b hb
  unfold msh40Block at h
  have e1 : [Tok.int b.tag, .int (b.dim : Int), .int (gmshCode b.type), .size b.elems.length] =
    ([b.tag, (b.dim : Int), (gmshCode b.type : Int)].map .int ++ [b.elems.length].map .size : List (Tok F)) := rfl
  have e2 : (b.elems.flatMap fun e => (e.1 :: gmshRow b.type (e.2.map fun p => f.ids.getD p 0)).map fun (i : Nat) => (Tok.int i : Tok F)) =
      ((b.elems.map fun e => (rawRow f.ids b.type e).map Int.ofNat).flatten).map .int := by
    rw [List.map_flatten, List.map_map, List.flatMap_def]
    congr 1
    apply List.map_congr_left
    intro e _
    rw [Function.comp_apply, List.map_map]
    rfl
  rw [e1, e2] at h
  simp only [List.append_assoc] at h
  obtain ⟨s1, h1, h⟩ := ints_stream io ascii 8 _ _ s rest h
  obtain ⟨s2, h2, h⟩ := sizes_stream io ascii 8 _ _ s1 rest h
  obtain ⟨s3, h3, h⟩ := ints_stream io ascii 8 _ _ s2 rest h
  obtain ⟨e0, he0⟩ := List.exists_mem_of_ne_nil _ hok.some
  have hsz := (hok.elems e0 he0).1
  have hw : ∀ r ∈ b.elems.map (fun e => (rawRow f.ids b.type e).map Int.ofNat), r.length = 1 + e0.2.length := by
    intro r hr
    obtain ⟨e, he, rfl⟩ := List.mem_map.1 hr
    rw [List.length_map, length_rawRow f.ids hok he]
    have := (hok.elems e he).1
    rw [hsz] at this
    rw [Option.some.inj this]
  have h1' : ints ascii 3 s = ([b.tag, (b.dim : Int), (gmshCode b.type : Int)], s1) := h1
  have h2' : sizes ascii 8 1 s1 = ([b.elems.length], s2) := h2
  have hcode : find meshioToGmsh b.type = some (gmshCode b.type) := by
    unfold gmshCode
    obtain ⟨c, hc⟩ := Option.isSome_iff_exists.1 hok.code
    rw [hc]; rfl
  have hd : decide ((0 : Int) ≤ (gmshCode b.type : Int)) = true := by rw [decide_eq_true_iff]; omega
  have hl3 : ((b.elems.map fun e => (rawRow f.ids b.type e).map Int.ofNat).flatten).length = b.elems.length * (1 + e0.2.length) := by
    rw [length_flatten_const _ _ hw, List.length_map]
  rw [hl3] at h3
  have hrows := rowsN_flatten _ _ hw []
  rw [List.length_map, List.append_nil] at hrows
  refine ⟨s3, ?_, h⟩
  unfold readElemBlock
  rw [h1']
  simp only
  rw [h2']
  simp only [Int.toNat_natCast]
  rw [Props.C16_gmsh _ _ hcode, hd]
  simp only
  rw [Gmsh22.find_eq_get?, hsz]
  simp only
  rw [h3]
  simp only
  rw [if_neg (by rw [hl3]; simp), if_neg (by
    intro h0
    exact hok.some (List.length_eq_zero_iff.1 h0)), hrows]
  cases hE : f.ents with
  | none =>
    simp only [Option.map_none]
    unfold blockOf
    rw [hE]
    rfl
  | some l =>
    obtain ⟨hl1, hl3⟩ := hf.ents l hE
    obtain ⟨e, he⟩ := Option.isSome_iff_exists.1 (hl3 b hb)
    have he' : l.reverse.find? (fun e => decide (e.dim = b.dim ∧ e.tag = b.tag)) = some e := by
      unfold Msh4File.entity at he
      rw [hE] at he
      exact he
    simp only [Option.map_some]
    rw [entity_find l (fun e he => (hl1 e he).dim) b.dim b.tag e he']
    simp only
    unfold blockOf Msh4File.phys
    rw [hE, he]
    rfl

theorem readElemBlocks_stream (io : GmshFloat F) (ascii : Bool) (f : Msh4File F) (lim : Nat) (hf : Msh40Ok lim ascii f)
    (l : List Msh4Block) (hl : ∀ b ∈ l, b ∈ f.blocks) (ts : List (Tok F)) (s rest : List Char)
    (h : NumStream io ascii 8 (l.flatMap (msh40Block f.ids) ++ ts) s rest) :
    ∃ s', readElemBlocks ascii (f.ents.map sortEnts) l.length s =
      .ok (l.map fun b => blockOf f b (b.elems.map fun e => (rawRow f.ids b.type e).map Int.ofNat), s') ∧ NumStream io ascii 8 ts s' rest := by
  induction l generalizing s with
  | nil => exact ⟨s, rfl, h⟩
  | cons b l ih =>
    rw [List.flatMap_cons, List.append_assoc] at h
    obtain ⟨s1, h1, h⟩ := readElemBlock_stream io ascii f lim hf b (hl b (by simp)) _ s rest h
    obtain ⟨s2, h2, h⟩ := ih (fun e' he' => hl e' (by simp [he'])) s1 h
    refine ⟨s2, ?_, h⟩
    rw [List.length_cons, readElemBlocks, h1]
    simp only
    rw [h2]
    rfl

theorem remapRows_ok {n : Nat} (ids : List Nat) (table : List Int)
    (ht : ∀ p, p < n → npIndex table ((ids.getD p 0 : Nat) : Int) = .ok (p : Int)) {b : Msh4Block} (hb : b.Ok n) (f : Msh4File F) :
    remapRows table (blockOf f b (b.elems.map fun e => (rawRow ids b.type e).map Int.ofNat)) =
      .ok (blockOf f b (b.elems.map fun e => (gmshRow b.type e.2).map Int.ofNat)) := by
  unfold remapRows
  have := mapRes_map_ok (fun e => (rawRow ids b.type e).map Int.ofNat) (fun r => mapRes (npIndex table) (r.drop 1))
    (fun e => (gmshRow b.type e.2).map Int.ofNat) b.elems (by
      intro e he
      rw [rawRow, List.map_cons, List.drop_succ_cons, List.drop_zero, gmshRow_map hb he, List.map_map]
      apply mapRes_map_ok
      intro p hp
      have hp' := Gmsh22.mem_reorder (row_ok hb he).1 p hp
      exact ht p ((hb.elems e he).2 p hp'))
  rw [show (blockOf f b (b.elems.map fun e => (rawRow ids b.type e).map Int.ofNat)).rows =
    b.elems.map fun e => (rawRow ids b.type e).map Int.ofNat from rfl, this]
  rfl

theorem orderRows_ok {n : Nat} {b : Msh4Block} (hb : b.Ok n) (f : Msh4File F) :
    orderRows (blockOf f b (b.elems.map fun e => (gmshRow b.type e.2).map Int.ofNat)) =
      .ok (blockOf f b (b.elems.map fun e => e.2.map Int.ofNat)) := by
  unfold orderRows
  have := mapRes_map_ok (fun e : Nat × List Nat => (gmshRow b.type e.2).map Int.ofNat) (reorder gmshMeshioOrdering b.type)
    (fun e => e.2.map Int.ofNat) b.elems (by
      intro e he
      exact Gmsh22.reorder_map Int.ofNat _ _ _ _ (row_ok hb he).2.2)
  rw [show (blockOf f b (b.elems.map fun e => (gmshRow b.type e.2).map Int.ofNat)).rows =
    b.elems.map fun e => (gmshRow b.type e.2).map Int.ofNat from rfl, show (blockOf f b (b.elems.map fun e => (gmshRow b.type e.2).map Int.ofNat)).type = b.type from rfl, this]
  simp only
  rw [if_pos ((hasDim_iff _).2 hb.known)]
  rfl

theorem physical_ok (f : Msh4File F) (hp : (∀ b ∈ f.blocks, f.phys b = []) ∨ ∀ b ∈ f.blocks, f.phys b ≠ []) :
    (collect (f.blocks.map fun b => blockOf f b (b.elems.map fun e => e.2.map Int.ofNat))).physical = (msh40Mesh f).physical := by
  have := Gmsh41.physical_ok f hp
  unfold collect
  show _ = f.mesh.physical
  rw [← this, List.filterMap_map, List.filterMap_map]
  rfl

theorem collect_ok (f : Msh4File F) (hp : (∀ b ∈ f.blocks, f.phys b = []) ∨ ∀ b ∈ f.blocks, f.phys b ≠ []) :
    collect (f.blocks.map fun b => blockOf f b (b.elems.map fun e => e.2.map Int.ofNat)) =
      ⟨(msh40Mesh f).cells, (msh40Mesh f).physical, (msh40Mesh f).geometrical, [], none⟩ := by
  rw [← physical_ok f hp]
  unfold collect
  congr 1
  · rw [List.map_map]; rfl
  · rw [List.map_map]
    apply List.map_congr_left
    intro b _
    simp only [Function.comp_apply, blockOf, List.length_map]
    rw [List.map_const']

theorem readElements_stream (io : GmshFloat F) (ascii : Bool) (f : Msh4File F) (lim : Nat) (hf : Msh40Ok lim ascii f)
    (s rest : List Char)
    (h : NumStream io ascii 8 ([.size f.blocks.length, .size f.numElems] ++
      f.blocks.flatMap (msh40Block f.ids)) s ("$End".toList ++ "Elements".toList ++ '\n' :: rest)) :
    readElements ascii (f.ids.map Int.ofNat) (f.ents.map sortEnts) s =
      .ok (⟨(msh40Mesh f).cells, (msh40Mesh f).physical, (msh40Mesh f).geometrical, [], none⟩, rest) := by
  have e1 : [Tok.size f.blocks.length, .size f.numElems] = ([f.blocks.length, f.numElems].map .size : List (Tok F)) := rfl
  rw [e1] at h
  obtain ⟨s1, h1, h⟩ := sizes_stream io ascii 8 _ _ s _ h
  rw [← List.append_nil (List.flatMap _ _)] at h
  obtain ⟨s2, h2, h⟩ := readElemBlocks_stream io ascii f lim hf f.blocks (fun _ h => h) [] s1 _ h
  have h3 := stream_end io ascii 8 _ Gmsh22.tok_elements s2 rest h
  have h1' : sizes ascii 8 2 s = ([f.blocks.length, f.numElems], s1) := h1
  obtain ⟨n1, n3, n4⟩ := hf.nodes
  obtain ⟨table, htab, htable⟩ := Gmsh22.remapTable_ok ((f.ids.map Int.ofNat).map (· + 1)) (by simpa using n3) (by
      rw [List.nodup_iff_pairwise_ne, List.pairwise_map, List.pairwise_map]
      refine (List.nodup_iff_pairwise_ne.1 n1).imp fun {a b} h e => h ?_
      have e' : (a : Int) + 1 = (b : Int) + 1 := e
      omega) (by
      intro i hi
      obtain ⟨j, hj, rfl⟩ := List.mem_map.1 hi
      obtain ⟨j', hj', rfl⟩ := List.mem_map.1 hj
      show (1 : Int) ≤ (j' : Int) + 1
      omega)
  have hlen : f.ids.length = f.points.length := by
    unfold Msh4File.ids Msh4File.points
    simp only [List.length_flatMap, List.length_map]
  have ht : ∀ p, p < f.points.length → npIndex table ((f.ids.getD p 0 : Nat) : Int) = .ok (p : Int) := by
    intro p hp
    have hp' : p < f.ids.length := by omega
    have := htable p (by simpa using hp')
    have e : ((f.ids.map Int.ofNat).map (· + 1)).getD p 0 - 1 = ((f.ids.getD p 0 : Nat) : Int) := by
      rw [List.getD_eq_getElem?_getD, List.getD_eq_getElem?_getD, List.getElem?_map, List.getElem?_map, List.getElem?_eq_getElem hp']
      simp
    rw [e] at this
    exact this
  unfold readElements
  rw [h1']
  simp only
  rw [h2]
  simp only
  rw [htab]
  simp only
  rw [mapRes_map_ok _ (remapRows table) (fun b => blockOf f b (b.elems.map fun e => (gmshRow b.type e.2).map Int.ofNat)) f.blocks
    (fun b hb => remapRows_ok f.ids table ht (hf.blocks b hb) f)]
  simp only
  rw [mapRes_map_ok _ orderRows (fun b => blockOf f b (b.elems.map fun e => e.2.map Int.ofNat)) f.blocks
    (fun b hb => orderRows_ok (hf.blocks b hb) f)]
  simp only
  rw [h3, collect_ok f hf.physical]

/-! ### Periodic links -/

theorem stream_wss (io : GmshFloat F) (ts : List (Tok F)) (w s rest : List Char) (hw : ∀ c ∈ w, isWs c = true)
    (h : NumStream io true 8 ts s rest) : NumStream io true 8 ts (w ++ s) rest := by
  induction w with
  | nil => exact h
  | cons c w ih => exact stream_ws io 8 ts _ rest c (hw c (by simp)) (ih fun d hd => hw d (by simp [hd]))

theorem dropWhile_skip {w r : List Char} (h : ∀ c ∈ w, isWs c = true) (hr : ∀ c, r.head? = some c → isWs c = false) :
    (w ++ r).dropWhile isWs = r := by
  induction w with
  | nil =>
    cases r with
    | nil => rfl
    | cons c r => rw [List.nil_append, List.dropWhile_cons_of_neg (by rw [hr c rfl]; simp)]
  | cons c w ih =>
    rw [List.cons_append, List.dropWhile_cons_of_pos (h c (by simp))]
    exact ih fun d hd => h d (by simp [hd])

theorem tok_head {t : List Char} (ht : IsTok t) (s : List Char) : ∀ c, (t ++ s).head? = some c → isWs c = false := by
  intro c hc
  obtain ⟨hne, hall⟩ := ht
  cases t with
  | nil => exact absurd rfl hne
  | cons d t =>
    simp only [List.cons_append, List.head?_cons, Option.some.injEq] at hc
    subst hc
    exact hall d (by simp)

/-- The pairs of a link in a text file. -/
theorem pairs_text (io : GmshFloat F) (pairs : List (Int × Int)) (rest : List Char) :
    ∃ s', ints true (pairs.length * 2) (linesText (pairs.map fun q => joinWith ' ' [fmtInt (q.1 + 1), fmtInt (q.2 + 1)]) ++ rest) =
      ((pairs.map fun q => [q.1 + 1, q.2 + 1]).flatten, s') ∧ NumStream io true 8 [] s' rest := by
  have h := piece_lines io 8 pairs (fun q => [(Tok.int (q.1 + 1), fmtInt (q.1 + 1)), (Tok.int (q.2 + 1), fmtInt (q.2 + 1))]) (by
    intro a _ w hw
    simp only [List.mem_cons, List.not_mem_nil, or_false] at hw
    rcases hw with rfl | rfl
    · exact text_int io _
    · exact text_int io _) [] rest rest ⟨[], by simp, rfl⟩
  have e : (pairs.flatMap fun q => [(Tok.int (q.1 + 1), fmtInt (q.1 + 1)), (Tok.int (q.2 + 1), fmtInt (q.2 + 1))].map (·.1)) =
      ((pairs.map fun q => [q.1 + 1, q.2 + 1]).flatten).map (Tok.int (F := F)) := by
    rw [List.map_flatten, List.map_map, List.flatMap_def]; rfl
  rw [e] at h
  obtain ⟨s1, h1, h⟩ := ints_stream io true 8 _ _ _ _ h
  have hl : ((pairs.map fun q => [q.1 + 1, q.2 + 1]).flatten).length = pairs.length * 2 := by
    rw [length_flatten_const 2 _ (by
      intro r hr
      obtain ⟨q, -, rfl⟩ := List.mem_map.1 hr
      rfl), List.length_map]
  rw [hl] at h1
  exact ⟨s1, h1, h⟩

theorem pairs_rows (pairs : List (Int × Int)) :
    ((pairs.map fun q => [q.1 + 1, q.2 + 1]).flatten).length = pairs.length * 2 ∧
      (rowsN 2 pairs.length (pairs.map fun q => [q.1 + 1, q.2 + 1]).flatten).map (fun r => (r.getD 0 0 - 1, r.getD 1 0 - 1)) = pairs := by
  have hw : ∀ r ∈ pairs.map (fun q => [q.1 + 1, q.2 + 1]), r.length = 2 := by
    intro r hr
    obtain ⟨q, -, rfl⟩ := List.mem_map.1 hr
    rfl
  have hrows := rowsN_flatten _ _ hw []
  rw [List.length_map, List.append_nil] at hrows
  refine ⟨by rw [length_flatten_const 2 _ hw, List.length_map], ?_⟩
  rw [hrows, List.map_map]
  conv => rhs; rw [← List.map_id pairs]
  apply List.map_congr_left
  intro q _
  simp only [Function.comp_apply, List.getD_cons_zero, List.getD_cons_succ, id_eq]
  apply Prod.ext <;> simp only <;> omega

theorem linkHeadText_ok (io : GmshFloat F) (p : Periodic F) (w r : List Char) (hw : ∀ c ∈ w, isWs c = true) :
    linkHeadText io (w ++ (linesText ((match p.affine with
      | some a => ["Affine ".toList ++ joinWith ' ' (a.map io.fmt)]
      | none => []) ++ [fmtNat p.pairs.length]) ++ r)) = .ok ((p.affine, (p.pairs.length : Int)), r) := by
  unfold linkHeadText
  cases p.affine with
  | none =>
    simp only [List.nil_append, linesText_cons, List.append_assoc, List.cons_append]
    rw [dropWhile_skip hw (tok_head (isTok_fmtNat _) _), readLine_append _ _ (tok_no_nl (isTok_fmtNat _))]
    simp only
    rw [strip_tok (isTok_fmtNat _), Gmsh22.affine_not_nat]
    simp only [Bool.false_eq_true, if_false]
    rw [toInt_tok (isTok_fmtNat _) _ (parseInt_fmtNat _)]
    rfl
  | some a =>
    have hnl2 : '\n' ∉ "Affine ".toList ++ joinWith ' ' (a.map io.fmt) := by
      intro hm
      rcases List.mem_append.1 hm with hm | hm
      · exact absurd hm (by decide)
      · refine no_newline_line (a.map io.fmt) ?_ hm
        intro x hx
        obtain ⟨y, -, rfl⟩ := List.mem_map.1 hx
        exact io.tok y
    obtain ⟨r', hr1, hr2⟩ := Gmsh22.affine_line io a
    have e : linesText (["Affine ".toList ++ joinWith ' ' (a.map io.fmt)] ++ [fmtNat p.pairs.length]) ++ r =
        ("Affine ".toList ++ joinWith ' ' (a.map io.fmt)) ++ '\n' :: (fmtNat p.pairs.length ++ '\n' :: r) := by
      simp only [List.cons_append, List.nil_append, linesText_cons, List.append_assoc, linesText_none]
    simp only
    rw [e, dropWhile_skip hw (by
      intro c hc
      have : c = 'A' := by
        have e' : ("Affine ".toList ++ joinWith ' ' (a.map io.fmt)) ++ '\n' :: (fmtNat p.pairs.length ++ '\n' :: r) =
          'A' :: ("ffine ".toList ++ joinWith ' ' (a.map io.fmt) ++ '\n' :: (fmtNat p.pairs.length ++ '\n' :: r)) := rfl
        rw [e'] at hc
        simpa using hc.symm
      subst this
      decide), readLine_append _ _ hnl2]
    simp only
    rw [hr1, Gmsh22.isPrefixOf_append]
    simp only [if_true]
    have e6 : ("Affine".toList ++ r').drop 6 = r' := List.drop_left' (by decide)
    rw [e6, Gmsh22.floats_fmt io a r' hr2]
    simp only
    rw [intLine_nat]

theorem readLink_text (io : GmshFloat F) (p : Periodic F) (w rest : List Char) (hw : ∀ c ∈ w, isWs c = true) :
    ∃ w', (∀ c ∈ w', isWs c = true) ∧ readLink io true (w ++ (linesText (mshLink io p) ++ rest)) = .ok (p, w' ++ rest) := by
  generalize hL : linesText (p.pairs.map fun q => joinWith ' ' [fmtInt (q.1 + 1), fmtInt (q.2 + 1)]) ++ rest = r1
  generalize hM : linesText ((match p.affine with
      | some a => ["Affine ".toList ++ joinWith ' ' (a.map io.fmt)]
      | none => []) ++ [fmtNat p.pairs.length]) ++ r1 = r2
  have e : linesText (mshLink io p) ++ rest = (joinWith ' ' ([p.dim, p.slave, p.master].map fmtInt) ++ ['\n']) ++ r2 := by
    rw [← hM, ← hL]
    unfold mshLink
    simp only [List.cons_append, List.nil_append, linesText_cons, List.append_assoc, linesText_append, linesText_none, List.map_cons, List.map_nil]
    rfl
  have h1 := piece_line io 8 ' ' (by decide) [(Tok.int p.dim, fmtInt p.dim), (Tok.int p.slave, fmtInt p.slave), (Tok.int p.master, fmtInt p.master)] (by
    intro a ha
    simp only [List.mem_cons, List.not_mem_nil, or_false] at ha
    rcases ha with rfl | rfl | rfl <;> exact text_int io _) [] r2 r2 ⟨[], by simp, rfl⟩
  have h2 := stream_wss io _ w _ _ hw h1
  have h3 : NumStream io true 8 ([p.dim, p.slave, p.master].map .int ++ []) (w ++ ((joinWith ' ' ([p.dim, p.slave, p.master].map fmtInt) ++ ['\n']) ++ r2)) r2 := h2
  obtain ⟨s1, h4, w1, hw1, rfl⟩ := ints_stream io true 8 _ _ _ _ h3
  have h4' : ints true 3 (w ++ ((joinWith ' ' ([p.dim, p.slave, p.master].map fmtInt) ++ ['\n']) ++ r2)) = ([p.dim, p.slave, p.master], w1 ++ r2) := h4
  obtain ⟨s5, h5, w5, hw5, rfl⟩ := pairs_text io p.pairs rest
  obtain ⟨hp1, hp2⟩ := pairs_rows p.pairs
  refine ⟨w5, hw5, ?_⟩
  unfold readLink
  rw [e, h4']
  simp only [if_true]
  rw [← hM, linkHeadText_ok io p w1 r1 hw1]
  simp only
  rw [if_neg (by omega), Int.toNat_natCast, ← hL, h5]
  simp only
  rw [if_neg (by rw [hp1]; simp), hp2]

theorem readLinks_text (io : GmshFloat F) (l : List (Periodic F)) (w rest : List Char) (hw : ∀ c ∈ w, isWs c = true) :
    ∃ w', (∀ c ∈ w', isWs c = true) ∧ readLinks io true l.length (w ++ (linesText (l.flatMap (mshLink io)) ++ rest)) = .ok (l, w' ++ rest) := by
  induction l generalizing w with
  | nil => exact ⟨w, hw, rfl⟩
  | cons p l ih =>
    obtain ⟨w1, hw1, h1⟩ := readLink_text io p w (linesText (l.flatMap (mshLink io)) ++ rest) hw
    obtain ⟨w2, hw2, h2⟩ := ih w1 hw1
    refine ⟨w2, hw2, ?_⟩
    rw [List.length_cons, List.flatMap_cons, linesText_append, List.append_assoc, readLinks, h1]
    simp only
    rw [h2]

theorem doubles_put (io : GmshFloat F) (l : List F) (s : List Char) : doubles io false l.length (l.flatMap (putF io) ++ s) = (l, s) := by
  unfold doubles Gmsh41.nums
  rw [if_neg (by simp), blocks_putFs]
  simp only
  rw [map_getF_putF]

theorem readLink_bin (io : GmshFloat F) (p : Periodic F) (hi : IsInt 4 p.dim ∧ IsInt 4 p.slave ∧ IsInt 4 p.master) (hn : p.pairs.length < 2 ^ 31)
    (ha : ∀ a, p.affine = some a → a.length = 16) (hq : ∀ q ∈ p.pairs, IsInt 4 (q.1 + 1) ∧ IsInt 4 (q.2 + 1)) (rest : List Char) :
    readLink io false (msh40Link io p ++ rest) = .ok (p, rest) := by
  have hN : IsInt 8 (p.pairs.length : Int) := by
    unfold IsInt
    have : (256 : Nat) ^ 8 = 18446744073709551616 := by decide
    rw [this]
    omega
  have hP : ∀ s, ints false (p.pairs.length * 2) ((p.pairs.flatMap fun q => putInts 4 [q.1 + 1, q.2 + 1]) ++ s) =
      ((p.pairs.map fun q => [q.1 + 1, q.2 + 1]).flatten, s) := by
    intro s
    have := ints_put ((p.pairs.map fun q => [q.1 + 1, q.2 + 1]).flatten) (by
      intro z hz
      obtain ⟨r, hr, hz⟩ := List.mem_flatten.1 hz
      obtain ⟨q, hq', rfl⟩ := List.mem_map.1 hr
      simp only [List.mem_cons, List.not_mem_nil, or_false] at hz
      rcases hz with rfl | rfl
      · exact (hq q hq').1
      · exact (hq q hq').2) s
    rw [(pairs_rows p.pairs).1] at this
    rw [← this]
    congr 2
    unfold putInts
    rw [← List.flatMap_def, List.flatMap_assoc]
  have hH : ∀ s, linkHeadBin io (msh40LinkHead io p ++ s) = .ok ((p.affine, (p.pairs.length : Int)), s) := by
    intro s
    unfold linkHeadBin msh40LinkHead
    cases hA : p.affine with
    | none =>
      have := getInts_putInts 8 [(p.pairs.length : Int)] (by simpa using hN) s
      have e : putInts 8 [(p.pairs.length : Int)] = putInt 8 p.pairs.length := by simp [putInts]
      rw [e] at this
      have this' : getInts 8 1 (putInt 8 p.pairs.length ++ s) = _ := this
      simp only
      rw [this']
      simp only
      rw [if_neg (by omega)]
    | some a =>
      simp only
      generalize hR : a.flatMap (putF io) ++ toChars (natEnc false 8 p.pairs.length) ++ s = R
      have := getInts_putInts 8 [-1] (by simp; decide) R
      have e : putInts 8 [-1] = putInt 8 (-1) := by simp [putInts]
      rw [e] at this
      have this' : getInts 8 1 (putInt 8 (-1) ++ R) = _ := this
      have e2 : putInt 8 (-1) ++ a.flatMap (putF io) ++ toChars (natEnc false 8 p.pairs.length) ++ s = putInt 8 (-1) ++ R := by
        rw [← hR]; simp only [List.append_assoc]
      rw [e2, this']
      simp only
      rw [if_pos (by omega), ← hR, List.append_assoc]
      have hd := doubles_put io a (toChars (natEnc false 8 p.pairs.length) ++ s)
      rw [ha a hA] at hd
      rw [hd]
      simp only
      have hs := sizes_put [p.pairs.length] (by
        intro n hn'
        rw [List.mem_singleton] at hn'
        subst hn'
        have : (256 : Nat) ^ 8 = 18446744073709551616 := by decide
        rw [this]
        omega) s
      have hs' : sizes false 8 1 (toChars (natEnc false 8 p.pairs.length) ++ s) = ([p.pairs.length], s) := by
        simpa using hs
      rw [hs']
  unfold msh40Link readLink
  rw [List.append_assoc, List.append_assoc]
  have hi' := ints_put [p.dim, p.slave, p.master] (by simpa using hi)
  have hi'' : ∀ s, ints false 3 (putInts 4 [p.dim, p.slave, p.master] ++ s) = ([p.dim, p.slave, p.master], s) := hi'
  rw [hi'']
  simp only [Bool.false_eq_true, if_false]
  rw [hH]
  simp only
  obtain ⟨hp1, hp2⟩ := pairs_rows p.pairs
  rw [if_neg (by omega), Int.toNat_natCast, hP]
  simp only
  rw [if_neg (by rw [hp1]; simp), hp2]

theorem readLinks_bin (io : GmshFloat F) (l : List (Periodic F)) (hl : ∀ p ∈ l, (IsInt 4 p.dim ∧ IsInt 4 p.slave ∧ IsInt 4 p.master) ∧
    p.pairs.length < 2 ^ 31 ∧ (∀ a, p.affine = some a → a.length = 16) ∧ ∀ q ∈ p.pairs, IsInt 4 (q.1 + 1) ∧ IsInt 4 (q.2 + 1))
    (rest : List Char) : readLinks io false l.length (l.flatMap (msh40Link io) ++ rest) = .ok (l, rest) := by
  induction l with
  | nil => rfl
  | cons p l ih =>
    obtain ⟨h1, h2, h3, h4⟩ := hl p (by simp)
    rw [List.length_cons, List.flatMap_cons, List.append_assoc, readLinks, readLink_bin io p h1 h2 h3 h4]
    simp only
    rw [ih fun q hq => hl q (by simp [hq])]

theorem readPeriodic_ok (io : GmshFloat F) (ascii : Bool) (l : List (Periodic F)) (hl : Msh40Links ascii l) (rest : List Char) :
    ∃ b, msh40Periodic io ascii l ++ rest = '$' :: "Periodic".toList ++ '\n' :: b ∧ rest.length ≤ b.length ∧
      readPeriodic io ascii b = .ok (l, rest) := by
  cases ascii with
  | true =>
    refine ⟨(fmtNat l.length ++ ['\n']) ++ (linesText (l.flatMap (mshLink io)) ++ ("$End".toList ++ "Periodic".toList ++ '\n' :: rest)), ?_, ?_, ?_⟩
    · unfold msh40Periodic
      simp only [if_true, linesText_cons, List.append_assoc, List.cons_append, List.nil_append, linesText_none]
      rfl
    · simp; omega
    · have h1 := piece_line io 8 ' ' (by decide) [(Tok.int l.length, fmtInt l.length)] (by
        intro a ha
        rw [List.mem_singleton] at ha
        subst ha
        exact text_int io _) [] (linesText (l.flatMap (mshLink io)) ++ ("$End".toList ++ "Periodic".toList ++ '\n' :: rest))
          (linesText (l.flatMap (mshLink io)) ++ ("$End".toList ++ "Periodic".toList ++ '\n' :: rest)) ⟨[], by simp, rfl⟩
      have h2 : NumStream io true 8 ([(l.length : Int)].map .int ++ []) ((fmtNat l.length ++ ['\n']) ++
        (linesText (l.flatMap (mshLink io)) ++ ("$End".toList ++ "Periodic".toList ++ '\n' :: rest)))
          (linesText (l.flatMap (mshLink io)) ++ ("$End".toList ++ "Periodic".toList ++ '\n' :: rest)) := h1
      obtain ⟨s1, h3, w, hw, rfl⟩ := ints_stream io true 8 _ _ _ _ h2
      have h3' : ints true 1 ((fmtNat l.length ++ ['\n']) ++
        (linesText (l.flatMap (mshLink io)) ++ ("$End".toList ++ "Periodic".toList ++ '\n' :: rest))) = ([(l.length : Int)], _) := h3
      obtain ⟨w', hw', h4⟩ := readLinks_text io l w ("$End".toList ++ "Periodic".toList ++ '\n' :: rest) hw
      unfold readPeriodic
      rw [h3']
      simp only
      rw [Int.toNat_natCast, h4]
      simp only
      rw [Gmsh41.fastForward_ws _ Gmsh22.tok_periodic rest w'.length w' (Nat.le_refl _) hw']
  | false =>
    obtain ⟨hn, hl⟩ := hl rfl
    refine ⟨putInts 4 [(l.length : Int)] ++ (l.flatMap (msh40Link io) ++ ('\n' :: (linesText ["$End".toList ++ "Periodic".toList] ++ rest))), ?_, ?_, ?_⟩
    · unfold msh40Periodic putInts
      simp only [Bool.false_eq_true, if_false, linesText_cons, List.append_assoc, List.cons_append, List.nil_append, linesText_none, List.flatMap_cons,
        List.flatMap_nil]
      rfl
    · simp; omega
    · have h3 := ints_put [(l.length : Int)] (by
        intro z hz
        rw [List.mem_singleton] at hz
        subst hz
        unfold IsInt
        have : (256 : Nat) ^ 4 = 4294967296 := by decide
        rw [this]
        omega) (l.flatMap (msh40Link io) ++ ('\n' :: (linesText ["$End".toList ++ "Periodic".toList] ++ rest)))
      have h3' : ints false 1 _ = _ := h3
      unfold readPeriodic
      rw [h3']
      simp only
      rw [Int.toNat_natCast, readLinks_bin io l hl]
      simp only
      rw [fastForward_nl "Periodic".toList Gmsh22.tok_periodic rest]

/-! ### Sections -/

/-- From here on the loop gives `r`. -/
def Reads (io : GmshFloat F) (ascii : Bool) (st : St F) (s : List Char) (r : Res (St F)) : Prop :=
  ∀ n, s.length < n → readLoop io ascii n st s = r

theorem reads_section (io : GmshFloat F) (ascii : Bool) (st st' : St F) (name s s' : List Char) (r : Res (St F)) (hn : IsTok name)
    (hlen : s'.length ≤ s.length) (h : readSection io ascii st name s = .ok (st', s')) (hr : Reads io ascii st' s' r) :
    Reads io ascii st ('$' :: name ++ '\n' :: s) r := by
  intro n hlt
  cases n with
  | zero => omega
  | succ n =>
    have ht : IsTok ('$' :: name) := isTok_cons (by decide) hn
    rw [readLoop, if_neg (by simp), readLine_append _ _ (tok_no_nl ht)]
    simp only [List.cons_append, List.head?_cons, List.drop_succ_cons, List.drop_zero]
    rw [if_neg (by simp), strip_tok hn, h]
    simp only
    apply hr
    simp only [List.cons_append, List.length_cons, List.length_append] at hlt
    omega

theorem reads_numSec (io : GmshFloat F) (ascii : Bool) (st st' : St F) (name : String) (toks : List (Tok F)) (s rest : List Char)
    (r : Res (St F)) (hn : IsTok name.toList) (h : NumSec io ascii 8 name toks s rest)
    (hs : ∀ b, NumStream io ascii 8 toks b ("$End".toList ++ name.toList ++ '\n' :: rest) →
      readSection io ascii st name.toList b = .ok (st', rest)) (hr : Reads io ascii st' rest r) : Reads io ascii st s r := by
  obtain ⟨b, rfl, hb⟩ := h
  refine reads_section io ascii st st' name.toList b rest r hn ?_ (hs b hb) hr
  have := stream_length io ascii 8 toks b _ hb
  simp at this
  omega

theorem reads_sec (io : GmshFloat F) (ascii : Bool) (n m : Nat)
    (st : St F) (x : Msh4Sec F) (hx : Msh40Sec.Ok io.lim ascii n m x) (s rest : List Char) (hs : Msh40Sec.Says io ascii s rest x) (r : Res (St F))
    (hr : Reads io ascii (addSec st x) rest r) : Reads io ascii st s r := by
  cases x with
  | names l =>
    have e : s = '$' :: "PhysicalNames".toList ++ '\n' ::
        (fmtNat l.length ++ '\n' :: (linesText (l.map mshName) ++ (linesText ["$EndPhysicalNames".toList] ++ rest))) := by
      rw [show s = _ from hs]
      simp only [linesText_append, linesText_cons, List.append_assoc, List.cons_append, List.nil_append]
      rfl
    rw [e]
    refine reads_section io ascii st _ _ _ rest r ⟨by decide, by decide⟩ (by simp; omega) ?_ hr
    rw [readSection, if_pos rfl, readNames_lines _ l hx]
    rfl
  | periodic l =>
    obtain ⟨b, e, hlen, h⟩ := readPeriodic_ok io ascii l hx rest
    rw [show s = _ from hs, e]
    refine reads_section io ascii st _ _ _ rest r Gmsh22.tok_periodic hlen ?_ hr
    rw [readSection, if_neg (by decide), if_neg (by decide), if_neg (by decide), if_neg (by decide), if_pos rfl, h]
    rfl
  | nodeData nums d =>
    obtain ⟨hd, hn⟩ := hx
    obtain ⟨n1, n2, n3⟩ := nums_ok hn
    have e : s = _ := (show s = _ from hs).trans (dataText_eq io ascii "NodeData".toList nums d rest)
    rw [e]
    refine reads_section io ascii st _ _ _ rest r Gmsh22.tok_nodeData (by simp) ?_ hr
    rw [readSection, if_neg (by decide), if_neg (by decide), if_neg (by decide), if_neg (by decide), if_neg (by decide), if_pos rfl,
      readData_body io ascii _ Gmsh22.tok_nodeData nums d n hd n1 n2 n3]
    rfl
  | elemData nums d =>
    obtain ⟨hd, hn⟩ := hx
    obtain ⟨n1, n2, n3⟩ := nums_ok hn
    have e : s = _ := (show s = _ from hs).trans (dataText_eq io ascii "ElementData".toList nums d rest)
    rw [e]
    refine reads_section io ascii st _ _ _ rest r Gmsh22.tok_elemData (by simp) ?_ hr
    rw [readSection, if_neg (by decide), if_neg (by decide), if_neg (by decide), if_neg (by decide), if_neg (by decide),
      if_neg (by decide), if_pos rfl, readData_body io ascii _ Gmsh22.tok_elemData nums d m hd n1 n2 n3]
    rfl
  | other name lines =>
    obtain ⟨ht, hkn, hl⟩ := hx
    have e : s = '$' :: name ++ '\n' :: (linesText lines ++ (linesText ["$End".toList ++ name] ++ rest)) := by
      rw [show s = _ from hs]
      simp only [linesText_append, linesText_cons, List.append_assoc, List.cons_append, List.nil_append]
    rw [e]
    refine reads_section io ascii st _ _ _ rest r ht (by simp; omega) ?_ hr
    have hne : ∀ k ∈ msh4Known, name ≠ k.toList := by
      rintro k hk' rfl
      exact hkn (by rw [String.ofList_toList]; exact hk')
    rw [readSection, if_neg (hne _ (by decide)), if_neg (hne _ (by decide)), if_neg (hne _ (by decide)),
      if_neg (hne _ (by decide)), if_neg (hne _ (by decide)), if_neg (hne _ (by decide)), if_neg (hne _ (by decide)),
      fastForward_lines name ht lines hl]
    rfl

theorem reads_secs (io : GmshFloat F) (ascii : Bool) (n m : Nat)
    (l : List (Msh4Sec F)) (hl : ∀ x ∈ l, Msh40Sec.Ok io.lim ascii n m x) (st : St F) (s rest : List Char) (hs : msh40Says io ascii l s rest)
    (r : Res (St F)) (hr : Reads io ascii (l.foldl addSec st) rest r) : Reads io ascii st s r := by
  induction l generalizing st s with
  | nil =>
    have : s = rest := hs
    rw [this]
    exact hr
  | cons x l ih =>
    obtain ⟨s', h1, h2⟩ := hs
    apply reads_sec io ascii n m st x (hl x (by simp)) s s' h1
    exact ih (fun y hy => hl y (by simp [hy])) _ s' h2 hr

theorem reads_end (io : GmshFloat F) (ascii : Bool) (st : St F) : Reads io ascii st [] (.ok st) := by
  intro n hn
  cases n with
  | zero => rfl
  | succ n => rfl

/-! ### The end -/

/-- What is collected of a file. -/
structure Final (f : Msh4File F) (st : St F) : Prop where
  nodes : st.nodes = some ⟨f.ids.map Int.ofNat, f.points, []⟩
  cells : st.cells = some ⟨(msh40Mesh f).cells, (msh40Mesh f).physical, (msh40Mesh f).geometrical, [], none⟩
  fieldData : st.fieldData = (msh40Mesh f).fieldData
  pointData : st.pointData = (msh40Mesh f).pointData
  cellDataRaw : st.cellDataRaw = f.elemData.map fun d => (String.ofList d.name, d.array)
  periodic : st.periodic = (msh40Mesh f).periodic

theorem lens_cells (f : Msh4File F) : ((msh40Mesh f).cells.map fun b => b.2.length) = f.blocks.map fun b => b.elems.length := by
  show (f.blocks.map _).map _ = _
  rw [List.map_map]
  apply List.map_congr_left
  intro b _
  simp

theorem physical_ne (f : Msh4File F) : (msh40Mesh f).physical ≠ [] ↔ ∃ b ∈ f.blocks, f.phys b ≠ [] := by
  show (if ∀ b ∈ f.blocks, f.phys b = [] then [] else f.blocks.map fun b => b.elems.map fun _ => (f.phys b).headD 0) ≠ [] ↔ _
  by_cases h : ∀ b ∈ f.blocks, f.phys b = []
  · rw [if_pos h]
    constructor
    · intro h'; exact absurd rfl h'
    · rintro ⟨b, hb, hne⟩; exact absurd (h b hb) hne
  · rw [if_neg h]
    constructor
    · intro _
      simpa using h
    · rintro ⟨b, hb, -⟩ h0
      rw [List.map_eq_nil_iff] at h0
      rw [h0] at hb
      simp at hb

theorem replaced_iff (f : Msh4File F) (d : MshData F) :
    replaced ⟨(msh40Mesh f).cells, (msh40Mesh f).physical, (msh40Mesh f).geometrical, [], none⟩ (String.ofList d.name) = true ↔ msh40Hidden f d := by
  unfold replaced msh40Hidden
  rw [Bool.or_eq_true, Bool.and_eq_true, Bool.and_eq_true, decide_eq_true_iff, decide_eq_true_iff, decide_eq_true_iff, decide_eq_true_iff]
  simp only
  rw [physical_ne]
  have hs : ∀ t : String, String.ofList d.name = t ↔ d.name = t.toList := by
    intro t
    constructor
    · rintro rfl; rw [String.toList_ofList]
    · intro h; rw [h, String.ofList_toList]
  have hg : (msh40Mesh f).geometrical ≠ [] ↔ f.blocks ≠ [] := by
    show (f.blocks.map _) ≠ [] ↔ _
    rw [ne_eq, List.map_eq_nil_iff]
  rw [hs, hs, hg]
  exact Or.comm

theorem finish_ok (lim : Nat) (ascii : Bool) (f : Msh4File F) (hf : Msh40Ok lim ascii f) (st : St F) (hst : Final f st) :
    finish st = .ok (msh40Mesh f) := by
  have hND : ∀ d ∈ f.nodeData, d.rows.length = f.points.length := by
    intro d hd
    obtain ⟨x, hx, hxd⟩ := List.mem_filterMap.1 hd
    have := hf.secs x hx
    cases x with
    | nodeData nums d' =>
      cases hxd
      exact this.1.rows.1
    | _ => cases hxd
  have hED : ∀ d ∈ f.elemData, d.rows.length = f.numElems := by
    intro d hd
    obtain ⟨x, hx, hxd⟩ := List.mem_filterMap.1 hd
    have := hf.secs x hx
    cases x with
    | elemData nums d' =>
      cases hxd
      exact this.1.rows.1
    | _ => cases hxd
  have hcd : ∀ d ∈ f.elemData, cellDataFromRaw (f.blocks.map fun b => b.elems.length) d.rows =
      cut (f.blocks.map fun b => b.elems.length) d.rows ∧ (cut (f.blocks.map fun b => b.elems.length) d.rows).map (·.length) =
        f.blocks.map fun b => b.elems.length := by
    intro d hd
    apply cellDataFromRaw_cut
    · intro h0
      rw [List.map_eq_nil_iff] at h0
      rw [hf.noElems h0] at hd
      simp at hd
    · exact hED d hd
  have hcdm : ((st.cellDataRaw.map fun kv => (kv.1, kv.2.tail, cellDataFromRaw ((msh40Mesh f).cells.map fun b => b.2.length) kv.2.rows)).filter
      fun kv => !replaced ⟨(msh40Mesh f).cells, (msh40Mesh f).physical, (msh40Mesh f).geometrical, [], none⟩ kv.1) = (msh40Mesh f).cellData := by
    rw [hst.cellDataRaw, lens_cells, List.map_map, List.filter_map]
    show _ = (f.elemData.filter fun d => decide (¬ msh40Hidden f d)).map fun d => (String.ofList d.name, d.array.tail, cut (f.blocks.map fun b => b.elems.length) d.rows)
    have hflt : f.elemData.filter ((fun kv => !replaced ⟨(msh40Mesh f).cells, (msh40Mesh f).physical, (msh40Mesh f).geometrical, [], none⟩ kv.1) ∘
        ((fun kv : String × NArr (List F) => (kv.1, kv.2.tail, cellDataFromRaw (f.blocks.map fun b => b.elems.length) kv.2.rows)) ∘ fun d => (String.ofList d.name, d.array))) =
        f.elemData.filter fun d => decide (¬ msh40Hidden f d) := by
      apply List.filter_congr
      intro d _
      rw [Bool.eq_iff_iff, decide_eq_true_iff, ← replaced_iff]
      simp only [Function.comp_apply, Bool.not_eq_true', Bool.not_eq_true]
    rw [hflt]
    apply List.map_congr_left
    intro d hd
    simp only [Function.comp_apply]
    rw [show d.array.rows = d.rows from rfl, (hcd d (List.mem_filter.1 hd).1).1]
  unfold finish
  rw [hst.cells]
  simp only
  rw [hst.nodes]
  simp only
  rw [hcdm]
  rw [if_neg, if_neg, if_neg, if_neg]
  · rw [hst.pointData, hst.fieldData, hst.periodic]
    rfl
  · rintro ⟨-, h⟩
    apply h
    rw [lens_cells]
    show (f.blocks.map _).map _ = _
    rw [List.map_map]
    apply List.map_congr_left
    intro b _
    simp
  · rintro ⟨h0, h⟩
    apply h
    rw [lens_cells]
    have e : (msh40Mesh f).physical = if ∀ b ∈ f.blocks, f.phys b = [] then [] else f.blocks.map fun b => b.elems.map fun _ => (f.phys b).headD 0 := rfl
    rw [e] at h0 ⊢
    split at h0
    · exact absurd rfl h0
    · rename_i hc
      rw [if_neg hc, List.map_map]
      apply List.map_congr_left
      intro b _
      simp
  · rw [List.any_eq_true]
    rintro ⟨kv, hkv, hne⟩
    rw [decide_eq_true_iff] at hne
    apply hne
    rw [lens_cells]
    obtain ⟨d, hd, rfl⟩ := List.mem_map.1 (show kv ∈ (f.elemData.filter _).map _ from hkv)
    exact (hcd d (List.mem_filter.1 hd).1).2
  · rw [List.any_eq_true]
    rintro ⟨kv, hkv, hne⟩
    rw [decide_eq_true_iff] at hne
    apply hne
    rw [hst.pointData] at hkv
    obtain ⟨d, hd, rfl⟩ := List.mem_map.1 (show kv ∈ f.nodeData.map _ from hkv)
    exact hND d hd

theorem start_header (ascii : Bool) (s : List Char) : start (msh40Header ascii ++ s) = .ok ((.v40, 8, ascii), s) := by
  cases ascii with
  | true =>
    have e : msh40Header true ++ s = "$MeshFormat".toList ++ '\n' :: ("4.0 0 8".toList ++ '\n' :: (linesText ["$End".toList ++ "MeshFormat".toList] ++ s)) := by
      unfold msh40Header
      simp only [if_true, linesText_cons, List.append_assoc, List.cons_append, List.nil_append]
      rfl
    rw [e]
    exact Gmsh22.start_of _ "4.0".toList 8 true s .v40 (Gmsh22.readHeader_text "4.0 0 8".toList "4.0".toList ['8'] 8 (by decide) (by decide) (by decide) s) (by decide)
  | false =>
    have e : msh40Header false ++ s = "$MeshFormat".toList ++ '\n' :: ("4.0 1 8".toList ++ '\n' :: (putInt 4 1 ++ '\n' :: (linesText ["$End".toList ++ "MeshFormat".toList] ++ s))) := by
      unfold msh40Header
      simp only [Bool.false_eq_true, if_false, linesText_cons, List.append_assoc, List.cons_append, List.nil_append]
      rfl
    rw [e]
    exact Gmsh22.start_of _ "4.0".toList 8 false s .v40 (Gmsh22.readHeader_bin "4.0 1 8".toList "4.0".toList ['8'] 8 (by decide) (by decide) (by decide) s) (by decide)

theorem read_ok (io : GmshFloat F) (ascii : Bool) (f : Msh4File F) (hf : Msh40Ok io.lim ascii f) (s : List Char)
    (hs : Msh40Says io ascii f s) : Gmsh40.read io s = .ok (msh40Mesh f) := by
  obtain ⟨s1, s2, s3, s4, s5, s6, s7, types, rfl, p1, p2, p3, ⟨ht, p4⟩, p5, p6, p7⟩ := hs
  have hsec : ∀ x ∈ f.secs, Msh40Sec.Ok io.lim ascii f.points.length f.numElems x := hf.secs
  obtain ⟨a1, a2, a3, a5, a6, a7, a8⟩ := addSec_fields f.pre ({} : St F)
  generalize hA : f.pre.foldl addSec ({} : St F) = A at *
  obtain ⟨b1, b2, b3, b5, b6, b7, b8⟩ := addSec_fields f.mid0 { A with ents := f.ents.map sortEnts }
  generalize hB : f.mid0.foldl addSec { A with ents := f.ents.map sortEnts } = B at *
  obtain ⟨c1, c2, c3, c5, c6, c7, c8⟩ := addSec_fields f.mid { B with nodes := some ⟨f.ids.map Int.ofNat, f.points, []⟩ }
  generalize hC : f.mid.foldl addSec { B with nodes := some ⟨f.ids.map Int.ofNat, f.points, []⟩ } = C at *
  obtain ⟨d1, d2, d3, d5, d6, d7, d8⟩ := addSec_fields f.post
    { C with cells := some ⟨(msh40Mesh f).cells, (msh40Mesh f).physical, (msh40Mesh f).geometrical, [], none⟩ }
  generalize hD : f.post.foldl addSec
    { C with cells := some ⟨(msh40Mesh f).cells, (msh40Mesh f).physical, (msh40Mesh f).geometrical, [], none⟩ } = D at *
  simp only at b1 b2 b3 b5 b6 b7 b8 c1 c2 c3 c5 c6 c7 c8 d1 d2 d3 d5 d6 d7 d8
  have hR : Reads io ascii ({} : St F) s1 (.ok D) := by
    apply reads_secs io ascii _ _ f.pre (fun x hx => hsec x (by simp [Msh4File.secs, hx])) _ s1 s2 p1
    rw [hA]
    have hent : ∀ r, Reads io ascii { A with ents := f.ents.map sortEnts } s3 r → Reads io ascii A s2 r := by
      intro r hr
      cases hE : f.ents with
      | none =>
        rw [hE] at p2 hr
        have : s2 = s3 := p2
        rw [this]
        have hA' : A = { A with ents := none } := by
          have : A.ents = none := a2
          cases A
          simp only at this
          subst this
          rfl
        rw [hA']
        exact hr
      | some l =>
        rw [hE] at p2 hr
        refine reads_numSec io ascii A _ "Entities" _ s2 s3 r tok_entities p2 ?_ hr
        intro b hb
        rw [readSection, if_neg (by decide), if_pos rfl, readEntities_stream io ascii l (hf.ents l hE).1 b s3 hb]
        rfl
    apply hent
    apply reads_secs io ascii _ _ f.mid0 (fun x hx => hsec x (by simp [Msh4File.secs, hx])) _ s3 s4 p3
    rw [hB]
    obtain ⟨b, hb1, hb2, hb3⟩ := readNodes_sec io ascii f types ht hf.nodes.2.1 hf.nodes.2.2 s4 s5 p4
    rw [hb1]
    refine reads_section io ascii B { B with nodes := some ⟨f.ids.map Int.ofNat, f.points, []⟩ } _ _ s5 _ Gmsh22.tok_nodes hb2 ?_ ?_
    · rw [readSection, if_neg (by decide), if_neg (by decide), if_pos rfl, hb3]
    apply reads_secs io ascii _ _ f.mid (fun x hx => hsec x (by simp [Msh4File.secs, hx])) _ s5 s6 p5
    rw [hC]
    refine reads_numSec io ascii C
      { C with cells := some ⟨(msh40Mesh f).cells, (msh40Mesh f).physical, (msh40Mesh f).geometrical, [], none⟩ } "Elements" _ s6 s7 _ Gmsh22.tok_elements p6 ?_ ?_
    · intro b hb
      rw [readSection, if_neg (by decide), if_neg (by decide), if_neg (by decide), if_pos rfl, c1]
      simp only
      rw [c2, b2, readElements_stream io ascii f io.lim hf b s7 hb]
    apply reads_secs io ascii _ _ f.post (fun x hx => hsec x (by simp [Msh4File.secs, hx])) _ s7 [] p7
    rw [hD]
    exact reads_end io ascii D
  have hfin : Final f D := by
    refine ⟨?_, d3, ?_, ?_, ?_, ?_⟩
    · rw [d1, c1]
    · rw [d5, c5, b5, a5, ← List.foldl_append, ← List.foldl_append, ← List.foldl_append, ← List.map_append, ← List.map_append, ← List.map_append,
        ← List.flatMap_append, ← List.flatMap_append, ← List.flatMap_append]
      have hn : f.names = (f.pre ++ (f.mid0 ++ (f.mid ++ f.post))).flatMap Msh4Sec.name? := by
        unfold Msh4File.names Msh4File.secs; rw [List.append_assoc, List.append_assoc]
      rw [← hn]
      show List.foldl _ [] _ = _
      rw [Gmsh22.foldl_set_fresh, List.nil_append]
      · rfl
      rw [List.map_nil, List.nil_append, List.map_map]
      exact Gmsh22.nodup_ofList (fun e : Int × Int × List Char => e.2.2) _ hf.names
    · rw [d6, c6, b6, a6, ← List.foldl_append, ← List.foldl_append, ← List.foldl_append, ← List.map_append, ← List.map_append, ← List.map_append,
        ← List.filterMap_append, ← List.filterMap_append, ← List.filterMap_append]
      have hn : f.nodeData = (f.pre ++ (f.mid0 ++ (f.mid ++ f.post))).filterMap Msh4Sec.nodeData? := by
        unfold Msh4File.nodeData Msh4File.secs; rw [List.append_assoc, List.append_assoc]
      rw [← hn]
      show List.foldl _ [] _ = _
      rw [Gmsh22.foldl_set_fresh, List.nil_append]
      · rfl
      rw [List.map_nil, List.nil_append, List.map_map]
      exact Gmsh22.nodup_ofList (fun e : MshData F => e.name) _ hf.nodeData
    · rw [d7, c7, b7, a7, ← List.foldl_append, ← List.foldl_append, ← List.foldl_append, ← List.map_append, ← List.map_append, ← List.map_append,
        ← List.filterMap_append, ← List.filterMap_append, ← List.filterMap_append]
      have hn : f.elemData = (f.pre ++ (f.mid0 ++ (f.mid ++ f.post))).filterMap Msh4Sec.elemData? := by
        unfold Msh4File.elemData Msh4File.secs; rw [List.append_assoc, List.append_assoc]
      rw [← hn]
      show List.foldl _ [] _ = _
      rw [Gmsh22.foldl_set_fresh, List.nil_append]
      rw [List.map_nil, List.nil_append, List.map_map]
      exact Gmsh22.nodup_ofList (fun e : MshData F => e.name) _ hf.elemData
    · rw [d8, c8, b8, a8]
      show _ = (f.secs.filterMap Msh4Sec.periodic?).getLast?
      unfold Msh4File.secs
      rw [List.filterMap_append, List.filterMap_append, List.filterMap_append, List.getLast?_append, List.getLast?_append, List.getLast?_append]
      cases (List.filterMap Msh4Sec.periodic? f.post).getLast? <;> cases (List.filterMap Msh4Sec.periodic? f.mid).getLast? <;>
        cases (List.filterMap Msh4Sec.periodic? f.mid0).getLast? <;> cases (List.filterMap Msh4Sec.periodic? f.pre).getLast? <;> rfl
  unfold Gmsh40.read
  rw [start_header ascii s1]
  simp only
  unfold readBuffer
  rw [hR (s1.length + 1) (by omega)]
  exact finish_ok io.lim ascii f hf D hfin

end Meshio.Gmsh40
