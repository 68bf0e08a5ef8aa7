/-
Writing Gmsh files of version 4.1: elements, links, the whole file.
-/
import Verif.Proofs.Gmsh41W2
namespace Meshio.Gmsh41
open Meshio Types Tables Gmsh Spec

variable {F : Type}

theorem isInt4 {z : Int} (h : -2147483648 ≤ z ∧ z < 2147483648) : IsInt 4 z := by
  unfold IsInt
  have : (256 ^ 4 : Nat) = 4294967296 := by decide
  rw [this]
  omega

theorem type_facts {t : String} (h : (find meshioToGmsh t).isSome) : dimOf t ≤ 3 ∧ gmshCode t < 2 ^ 31 := by
  obtain ⟨c, hc⟩ := Option.isSome_iff_exists.1 h
  have h1 := (by decide +kernel : ∀ kv ∈ meshioToGmsh, dimOf kv.1 ≤ 3) (t, c) (find_mem hc)
  have h2 := (by decide +kernel : ∀ kv ∈ meshioToGmsh, kv.2 < 2 ^ 31) (t, c) (find_mem hc)
  refine ⟨h1, ?_⟩
  unfold gmshCode
  rw [hc]
  exact h2

/-! ### Elements -/

theorem written_row {t : String} {r : List Int} (hs : Dict.get? numNodesPerCell t = some r.length) :
    reorder gmshGmshOrdering t r = .ok (gmshRow t r) ∧ (∀ z ∈ gmshRow t r, z ∈ r) ∧
      ∀ {β : Type} (g : Int → β), gmshRow t (r.map g) = (gmshRow t r).map g := by
  have h1 := (Gmsh22.gmshRow_spec t r (by intro k hk; rw [hs] at hk; exact Option.some.inj hk)).1
  refine ⟨h1, fun z hz => Gmsh22.mem_reorder h1 z hz, ?_⟩
  intro β g
  have := Gmsh22.reorder_map g _ _ _ _ h1
  conv => lhs; unfold gmshRow
  rw [this]

/-- The written block of elements. -/
def blockIn (m : In F) (ci start : Nat) (t : String) (rows : List (List Int)) : Msh4Block :=
  ⟨dimOf t, msh4Tag m.geometrical ci, t, rows.zipIdx.map fun ri => (start + ri.2, ri.1.map fun z => msh4Pos m z.toNat)⟩

theorem elemBlock_piece (io : GmshFloat F) (binary : Bool) (lim : Nat) (m : In F) (h : Msh4In lim m) (ids : List Nat) (hids : ids = (msh4Order m).map (· + 1))
    (ci start : Nat) (t : String) (rows : List (List Int)) (hc : (find meshioToGmsh t).isSome)
    (hr : ∀ r ∈ rows, Dict.get? numNodesPerCell t = some r.length ∧ ∀ z ∈ r, 0 ≤ z ∧ z < m.points.length)
    (htag : IsInt 4 (msh4Tag m.geometrical ci)) (hst : start + rows.length < 2 ^ 32) :
    Piece io (!binary) 8 ((blockIn m ci start t rows).toks ids)
      (elemBlock binary start t (msh4Tag m.geometrical ci) (gmshCode t) (rows.map (gmshRow t))) := by
  have h8 : (256 : Nat) ^ 8 = 18446744073709551616 := by decide
  obtain ⟨td, tc⟩ := type_facts hc
  have hn := h.size.2.2.1
  have hrow : ∀ r ∈ rows, gmshRow t ((r.map fun z => msh4Pos m z.toNat).map fun p => ids.getD p 0) = (gmshRow t r).map fun z => (z + 1).toNat := by
    intro r hrr
    obtain ⟨h1, h2⟩ := hr r hrr
    have e : ((r.map fun z => msh4Pos m z.toNat).map fun p => ids.getD p 0) = r.map fun z => (z + 1).toNat := by
      rw [List.map_map]
      apply List.map_congr_left
      intro z hz
      obtain ⟨z0, z1⟩ := h2 z hz
      simp only [Function.comp_apply]
      rw [hids, getD_map_pos lim m h z.toNat (by omega)]
      omega
    rw [e, (written_row h1).2.2]
  have htoks : (blockIn m ci start t rows).toks ids = ([Tok.int (dimOf t), .int (msh4Tag m.geometrical ci), .int (gmshCode t), .size rows.length] : List (Tok F)) ++
      rows.zipIdx.flatMap fun ri => ((start + ri.2) :: (gmshRow t ri.1).map fun z => (z + 1).toNat).map Tok.size := by
    unfold Msh4Block.toks blockIn
    simp only [List.length_map, List.length_zipIdx, List.flatMap_map]
    congr 1
    apply flatMap_congr'
    intro ri hri
    rw [hrow ri.1 (List.fst_mem_of_mem_zipIdx hri)]
  have hz2 : (rows.map (gmshRow t)).zipIdx = rows.zipIdx.map fun ri => (gmshRow t ri.1, ri.2) := by
    apply List.ext_getElem
    · simp
    · intro i h1 h2
      simp
  rw [htoks]
  unfold elemBlock
  rw [hz2, List.length_map]
  cases binary with
  | true =>
    rw [if_pos rfl]
    have e3 : putInts 4 [(dimOf t : Int), msh4Tag m.geometrical ci, (gmshCode t : Int)] ++ putSize rows.length ++
        (rows.zipIdx.map fun ri => (gmshRow t ri.1, ri.2)).flatMap (fun r => putSize (start + r.2) ++ r.1.flatMap fun z => putSize (z + 1).toNat) =
        List.flatMap (Tok.bytes io 8) (([Tok.int (dimOf t), .int (msh4Tag m.geometrical ci), .int (gmshCode t), .size rows.length] : List (Tok F)) ++
      rows.zipIdx.flatMap fun ri => ((start + ri.2) :: (gmshRow t ri.1).map fun z => (z + 1).toNat).map Tok.size) := by
      rw [List.flatMap_append, List.flatMap_assoc, List.flatMap_map]
      simp only [List.flatMap_map, List.map_cons, List.flatMap_cons, List.map_map]
      simp [putInts, Tok.bytes, putSize]
    rw [e3]
    apply piece_bytes
    intro x hx
    simp only [List.mem_append, List.mem_cons, List.not_mem_nil, or_false, List.mem_map, List.mem_flatMap] at hx
    rcases hx with (rfl | rfl | rfl | rfl) | ⟨ri, hri, n, (rfl | ⟨z, hz, rfl⟩), rfl⟩
    · exact isInt4 (by omega)
    · exact htag
    · exact isInt4 (by omega)
    · show rows.length < 256 ^ 8
      omega
    · have : ri.2 < rows.length := by simpa using List.snd_lt_of_mem_zipIdx hri
      show start + ri.2 < 256 ^ 8
      omega
    · obtain ⟨h1, h2⟩ := hr ri.1 (List.fst_mem_of_mem_zipIdx hri)
      obtain ⟨z0, z1⟩ := h2 z ((written_row h1).2.1 z hz)
      show (z + 1).toNat < 256 ^ 8
      omega
  | false =>
    rw [if_neg (by simp)]
    have p1 := piece_line io 8 ' ' (by decide) [(Tok.int (dimOf t), fmtNat (dimOf t)), (.int (msh4Tag m.geometrical ci), fmtInt (msh4Tag m.geometrical ci)),
        (.int (gmshCode t), fmtNat (gmshCode t)), (.size rows.length, fmtNat rows.length)] (by
      intro a ha
      simp only [List.mem_cons, List.not_mem_nil, or_false] at ha
      rcases ha with rfl | rfl | rfl | rfl
      · exact text_int io _
      · exact text_int io _
      · exact text_int io _
      · exact text_size io _)
    have p2 := piece_lines io 8 rows.zipIdx (fun ri => (Tok.size (start + ri.2), fmtNat (start + ri.2)) ::
        (gmshRow t ri.1).map fun z => (Tok.size (z + 1).toNat, fmtInt (z + 1))) (by
      intro ri hri w hw
      rcases List.mem_cons.1 hw with rfl | hw
      · exact text_size io _
      · obtain ⟨z, hz, rfl⟩ := List.mem_map.1 hw
        obtain ⟨h1, h2⟩ := hr ri.1 (List.fst_mem_of_mem_zipIdx hri)
        obtain ⟨z0, z1⟩ := h2 z ((written_row h1).2.1 z hz)
        have := text_size io (z + 1).toNat
        rw [← fmtInt_ofNat, show (((z + 1).toNat : Nat) : Int) = z + 1 by omega] at this
        exact this)
    have := piece_append p1 p2
    simp only [List.map_map, List.map_cons] at this
    simpa [linesText, Function.comp_def, List.flatMap_map] using this

theorem writeElemBlocks_ok (io : GmshFloat F) (binary : Bool) (m : In F) (h : Msh4In io.lim m) (ids : List Nat) (hids : ids = (msh4Order m).map (· + 1))
    (cells pre : List (String × List (List Int))) (hall : m.cells = pre ++ cells) :
    ∃ t, writeElemBlocks binary m.geometrical pre.length (1 + (pre.map fun b => b.2.length).sum) cells = .ok t ∧
      Piece io (!binary) 8 ((msh4ElemBlocks m pre.length (1 + (pre.map fun b => b.2.length).sum) cells).flatMap (Msh4Block.toks ids)) t := by
  induction cells generalizing pre with
  | nil => exact ⟨[], rfl, piece_nil _ _ _⟩
  | cons b cells ih =>
    obtain ⟨t, rows⟩ := b
    have hmem : (t, rows) ∈ m.cells := by rw [hall]; simp
    obtain ⟨h1, h2, h3⟩ := h.cells (t, rows) hmem
    have hidx : ((t, rows), pre.length) ∈ m.cells.zipIdx := by
      rw [List.mem_zipIdx_iff_getElem?, hall]
      simp
    have hgeo : (match m.geometrical with
        | none => Except.ok 0
        | some l => firstTag (some l) pre.length : Res Int) = .ok (msh4Tag m.geometrical pre.length) ∧ IsInt 4 (msh4Tag m.geometrical pre.length) := by
      cases hg : m.geometrical with
      | none => exact ⟨rfl, isInt4 (by simp [msh4Tag])⟩
      | some l =>
        have hl := h.tags l (Or.inl hg)
        exact ⟨firstTag_ok m l hl (fun b hb => (h.cells b hb).1) _ hidx, msh4Tag_int m l hl _⟩
    have hm : mapRes (reorder gmshGmshOrdering t) rows = .ok (rows.map (gmshRow t)) :=
      mapRes_ok_of_forall fun r hr => (written_row (h3 r hr).1).1
    obtain ⟨code, hcode⟩ := Option.isSome_iff_exists.1 h2
    have hgc : gmshCode t = code := by unfold gmshCode; rw [hcode]; rfl
    have hsum : (m.cells.map fun b => b.2.length).sum = (pre.map fun b => b.2.length).sum + (rows.length + (cells.map fun b => b.2.length).sum) := by
      rw [hall]; simp
    have hsz := h.size.2.2.2.1
    obtain ⟨s, hs1, hs2⟩ := ih (pre ++ [(t, rows)]) (by rw [hall]; simp)
    rw [List.length_append, List.length_singleton, List.map_append, List.sum_append, List.map_singleton, List.sum_singleton, ← Nat.add_assoc] at hs1 hs2
    refine ⟨elemBlock binary (1 + (pre.map fun b => b.2.length).sum) t (msh4Tag m.geometrical pre.length) code (rows.map (gmshRow t)) ++ s, ?_, ?_⟩
    · unfold writeElemBlocks
      rw [hm]
      simp only
      refine Eq.trans (b := (match (.ok (msh4Tag m.geometrical pre.length) : Res Int) with
        | .error e => .error e
        | .ok tag =>
          match find meshioToGmsh t with
          | none => .error .keyError
          | some code =>
            match writeElemBlocks binary m.geometrical (pre.length + 1) (1 + (pre.map fun b => b.2.length).sum + rows.length) cells with
            | .error e => .error e
            | .ok s => .ok (elemBlock binary (1 + (pre.map fun b => b.2.length).sum) t tag code (rows.map (gmshRow t)) ++ s))) ?_ ?_
      · rw [← hgeo.1]
        cases m.geometrical <;> rfl
      · simp only
        rw [hcode]
        simp only
        rw [hs1]
    · rw [msh4ElemBlocks, List.flatMap_cons]
      refine piece_append ?_ hs2
      rw [← hgc]
      exact elemBlock_piece io binary io.lim m h ids hids pre.length _ t rows h2 h3 hgeo.2 (by omega)

theorem length_elemBlocks (m : In F) (ci start : Nat) (cells : List (String × List (List Int))) :
    (msh4ElemBlocks m ci start cells).map (fun b => b.elems.length) = cells.map fun b => b.2.length := by
  induction cells generalizing ci start with
  | nil => rfl
  | cons b cells ih =>
    obtain ⟨t, rows⟩ := b
    rw [msh4ElemBlocks, List.map_cons, List.map_cons, ih]
    simp

theorem file_numElems (zero : F) (m : In F) (names : List (Int × Int × List Char)) :
    (msh4File zero m names).numElems = (m.cells.map fun b => b.2.length).sum := by
  unfold Msh4File.numElems
  show ((msh4ElemBlocks m 0 1 m.cells).map fun b => b.elems.length).sum = _
  rw [length_elemBlocks]

theorem writeElements_ok (io : GmshFloat F) (binary : Bool) (m : In F) (h : Msh4In io.lim m) (names : List (Int × Int × List Char)) :
    ∃ t, writeElements binary m = .ok t ∧ ∀ rest, NumSec io (!binary) 8 "Elements" (msh4File io.zero m names).elemToks (t ++ rest) rest := by
  obtain ⟨t, h1, h2⟩ := writeElemBlocks_ok io binary m h _ rfl m.cells [] rfl
  simp only [List.length_nil, List.map_nil, List.sum_nil, Nat.add_zero] at h1 h2
  unfold writeElements
  simp only
  rw [h1]
  refine ⟨_, rfl, ?_⟩
  intro rest
  obtain ⟨-, -, s3, s4, s5⟩ := h.size
  have hP := piece_append (piece_sizes_line io binary [m.cells.length, (m.cells.map fun c => c.2.length).sum, 1, (m.cells.map fun c => c.2.length).sum] (by
      intro n hn
      simp only [List.mem_cons, List.not_mem_nil, or_false] at hn
      rcases hn with rfl | rfl | rfl | rfl <;> omega)) h2
  have htoks : (msh4File io.zero m names).elemToks =
      [m.cells.length, (m.cells.map fun c => c.2.length).sum, 1, (m.cells.map fun c => c.2.length).sum].map Tok.size ++
        (msh4ElemBlocks m 0 1 m.cells).flatMap (Msh4Block.toks ((msh4Order m).map (· + 1))) := by
    unfold Msh4File.elemToks
    rw [file_ids, file_numElems]
    show ([.size (msh4ElemBlocks m 0 1 m.cells).length, _, _, _] : List (Tok F)) ++ _ = _
    rw [← List.length_map (f := fun b => b.elems.length), length_elemBlocks, List.length_map]
    rfl
  rw [htoks]
  have := numSec_written io binary "Elements" _ _ hP rest
  simp only [List.append_assoc] at this ⊢
  exact this

/-! ### Links -/

theorem link_piece (io : GmshFloat F) (binary : Bool) (p : Periodic F) (hi : IsInt 4 p.dim ∧ IsInt 4 p.slave ∧ IsInt 4 p.master)
    (ha : (p.affine.getD []).length < 2 ^ 31) (hp : p.pairs.length < 2 ^ 31) (hq : ∀ q ∈ p.pairs, 0 ≤ q.1 ∧ q.1 < 2 ^ 31 ∧ 0 ≤ q.2 ∧ q.2 < 2 ^ 31) :
    Piece io (!binary) 8 (msh4Link (msh4Periodic p)) (linkText io binary p) := by
  have h8 : (256 : Nat) ^ 8 = 18446744073709551616 := by decide
  unfold msh4Link msh4Periodic linkText
  simp only [Option.getD_some]
  generalize p.affine.getD [] = aff at ha
  cases binary with
  | true =>
    rw [if_pos rfl]
    have e3 : putInts 4 [p.dim, p.slave, p.master] ++ putSize aff.length ++ aff.flatMap (putF io) ++ putSize p.pairs.length ++
      p.pairs.flatMap (fun q => putSize (q.1 + 1).toNat ++ putSize (q.2 + 1).toNat) = List.flatMap (Tok.bytes io 8)
        ([Tok.int p.dim, .int p.slave, .int p.master, .size aff.length] ++ aff.map .flt ++ [.size p.pairs.length] ++
          p.pairs.flatMap fun q => [.size (q.1 + 1).toNat, .size (q.2 + 1).toNat]) := by
      rw [List.flatMap_append, List.flatMap_append, List.flatMap_append, List.flatMap_assoc, List.flatMap_map]
      simp [putInts, Tok.bytes, putSize]
    rw [e3]
    apply piece_bytes
    intro x hx
    simp only [List.mem_append, List.mem_cons, List.not_mem_nil, or_false, List.mem_map, List.mem_flatMap] at hx
    rcases hx with (((rfl | rfl | rfl | rfl) | ⟨y, hy, rfl⟩) | rfl) | ⟨q, hqm, hx⟩
    · exact hi.1
    · exact hi.2.1
    · exact hi.2.2
    · show aff.length < 256 ^ 8
      omega
    · trivial
    · show p.pairs.length < 256 ^ 8
      omega
    · have := hq q hqm
      rcases hx with rfl | rfl
      · show (q.1 + 1).toNat < 256 ^ 8
        omega
      · show (q.2 + 1).toNat < 256 ^ 8
        omega
  | false =>
    rw [if_neg (by simp)]
    have p1 := piece_line io 8 ' ' (by decide) [(Tok.int p.dim, fmtInt p.dim), (.int p.slave, fmtInt p.slave), (.int p.master, fmtInt p.master)] (by
      intro a ha
      simp only [List.mem_cons, List.not_mem_nil, or_false] at ha
      rcases ha with rfl | rfl | rfl <;> exact text_int io _)
    have p2 : Piece io true 8 ([.size aff.length] ++ aff.map .flt)
        (if aff = [] then "0\n".toList else fmtNat aff.length ++ [' '] ++ joinWith ' ' (aff.map io.fmt) ++ ['\n']) := by
      split
      · next h0 =>
        rw [h0]
        exact piece_tok io 8 (.size 0) ['0'] '\n' (text_size io 0) (by decide)
      · have := piece_append (piece_tok io 8 (.size aff.length) _ ' ' (text_size io _) (by decide)) (piece_line io 8 ' ' (by decide) (aff.map fun x => (Tok.flt x, io.fmt x)) (by
          intro a ha
          obtain ⟨x, -, rfl⟩ := List.mem_map.1 ha
          exact text_flt io x))
        simpa [Function.comp_def] using this
    have p3 := piece_tok io 8 (.size p.pairs.length) _ '\n' (text_size io p.pairs.length) (by decide)
    have p4 := piece_lines io 8 p.pairs (fun q => [(Tok.size (q.1 + 1).toNat, fmtInt (q.1 + 1)), (Tok.size (q.2 + 1).toNat, fmtInt (q.2 + 1))]) (by
      intro q hqm w hw
      have hqq := hq q hqm
      simp only [List.mem_cons, List.not_mem_nil, or_false] at hw
      rcases hw with rfl | rfl
      · have := text_size io (q.1 + 1).toNat
        rw [← fmtInt_ofNat, show (((q.1 + 1).toNat : Nat) : Int) = q.1 + 1 by omega] at this
        exact this
      · have := text_size io (q.2 + 1).toNat
        rw [← fmtInt_ofNat, show (((q.2 + 1).toNat : Nat) : Int) = q.2 + 1 by omega] at this
        exact this)
    have := piece_append (piece_append (piece_append p1 p2) p3) p4
    simpa [linesText] using this

theorem writePeriodic_says (io : GmshFloat F) (binary : Bool) (l : List (Periodic F)) (hl : l.length < 2 ^ 31)
    (h : ∀ p ∈ l, (IsInt 4 p.dim ∧ IsInt 4 p.slave ∧ IsInt 4 p.master) ∧ (p.affine.getD []).length < 2 ^ 31 ∧ p.pairs.length < 2 ^ 31 ∧
      ∀ q ∈ p.pairs, 0 ≤ q.1 ∧ q.1 < 2 ^ 31 ∧ 0 ≤ q.2 ∧ q.2 < 2 ^ 31) (rest : List Char) :
    (Msh4Sec.periodic (l.map msh4Periodic)).Says io (!binary) 8 (writePeriodic io binary l ++ rest) rest := by
  show NumSec io (!binary) 8 "Periodic" (.size (l.map msh4Periodic).length :: (l.map msh4Periodic).flatMap msh4Link) _ _
  rw [List.length_map, List.flatMap_map]
  have hP := piece_append (piece_sizes_line io binary [l.length] (by intro n hn; simp only [List.mem_singleton] at hn; omega))
    (piece_flatMap (io := io) (ascii := !binary) (k := 8) l (fun p => msh4Link (msh4Periodic p)) (linkText io binary)
      fun p hp => link_piece io binary p (h p hp).1 (h p hp).2.1 (h p hp).2.2.1 (h p hp).2.2.2)
  have := numSec_written io binary "Periodic" _ _ hP rest
  unfold writePeriodic
  simp only [List.append_assoc, List.map_cons, List.map_nil, List.flatMap_cons, List.flatMap_nil, List.append_nil, List.cons_append, List.nil_append,
    joinWith] at this ⊢
  exact this

/-! ### The file -/

theorem says_append (io : GmshFloat F) (ascii : Bool) (k : Nat) (l1 l2 : List (Msh4Sec F)) (s1 s2 s3 : List Char)
    (h1 : msh4Says io ascii k l1 s1 s2) (h2 : msh4Says io ascii k l2 s2 s3) : msh4Says io ascii k (l1 ++ l2) s1 s3 := by
  induction l1 generalizing s1 with
  | nil =>
    have : s1 = s2 := h1
    rw [this]
    exact h2
  | cons x l ih =>
    obtain ⟨s', ha, hb⟩ := h1
    exact ⟨s', ha, ih s' hb⟩

theorem headerText_eq (binary : Bool) : headerText binary = msh4Header (!binary) 8 := by
  cases binary with
  | true =>
    unfold headerText msh4Header
    simp only [Bool.not_true, Bool.false_eq_true, if_false, if_true, List.append_assoc]
    rfl
  | false =>
    unfold headerText msh4Header
    simp only [Bool.not_false, Bool.false_eq_true, if_false, if_true, List.append_assoc]
    rfl

theorem write_ok (io : GmshFloat F) (hz : io.parse ['0'] = some io.zero) (binary : Bool) (m : In F) (h : Msh4In io.lim m)
    (names : List (Int × Int × List Char)) (hn : names = (m.fieldData.filterMap nameEntry).mergeSort nameLe) :
    ∃ s, Gmsh41.write io binary m = .ok s ∧ (msh4File io.zero m names).Says io (!binary) 8 s := by
  obtain ⟨t2, e2, p2⟩ := writeEntities_ok io hz binary m h names
  obtain ⟨t4, e4, p4⟩ := writeNodes_ok io binary m h names
  obtain ⟨t6, e6, p6⟩ := writeElements_ok io binary m h names
  unfold Gmsh41.write
  rw [e2]
  simp only
  rw [e4]
  simp only
  rw [e6]
  simp only
  rw [Gmsh22.writeDatas_ok io binary _ m.points.length m.pointData fun kv hkv => (h.pointData.2 kv hkv).2.2]
  simp only
  rw [Gmsh22.rawData_ok m.cellData fun kv hkv => ⟨(h.cellData.2 kv hkv).2.2.1, (h.cellData.2 kv hkv).2.2.2.2.1⟩]
  simp only
  rw [Gmsh22.writeDatas_ok io binary _ (m.cells.map fun b => b.2.length).sum (m.cellData.map fun kv => (kv.1, mshConcat kv.2)) (by
    intro kv hkv
    obtain ⟨x, hx, rfl⟩ := List.mem_map.1 hkv
    exact (h.cellData.2 x hx).2.2.2.2.2)]
  simp only
  refine ⟨_, rfl, ?_⟩
  have h1 : ∀ rest, msh4Says io (!binary) 8 (msh4File io.zero m names).pre (writeNames m.fieldData ++ rest) rest := by
    intro rest
    unfold msh4File
    simp only
    rw [Gmsh22.writeNames_eq io m.fieldData names hn true [] []]
    split
    · rfl
    · exact ⟨rest, by
        show _ = _
        simp only [List.flatMap_cons, List.flatMap_nil, List.append_nil, MshSec.text], rfl⟩
  have hnd : ∀ (d : Dict (NArr (List F))) (n : Nat) (rest : List Char),
      msh4Says io (!binary) 8 (d.map fun kv => .nodeData (numbersFrom 1 n) (mshData kv.1 kv.2))
        ((d.flatMap fun kv => (mshData kv.1 kv.2).text io (!binary) "NodeData".toList (numbersFrom 1 n)) ++ rest) rest := by
    intro d n rest
    induction d with
    | nil => rfl
    | cons kv d ih => exact ⟨_, by rw [List.flatMap_cons, List.append_assoc]; rfl, ih⟩
  have hed : ∀ (d : Dict (NArr (List F))) (n : Nat) (rest : List Char),
      msh4Says io (!binary) 8 (d.map fun kv => .elemData (numbersFrom 1 n) (mshData kv.1 kv.2))
        ((d.flatMap fun kv => (mshData kv.1 kv.2).text io (!binary) "ElementData".toList (numbersFrom 1 n)) ++ rest) rest := by
    intro d n rest
    induction d with
    | nil => rfl
    | cons kv d ih => exact ⟨_, by rw [List.flatMap_cons, List.append_assoc]; rfl, ih⟩
  have h7 : ∀ rest, msh4Says io (!binary) 8 (msh4File io.zero m names).post (((match m.periodic with
      | some l => writePeriodic io binary l
      | none => []) ++ ((m.pointData.flatMap fun kv => (mshData kv.1 kv.2).text io (!binary) "NodeData".toList (numbersFrom 1 m.points.length)) ++
        (m.cellData.map fun kv => (kv.1, mshConcat kv.2)).flatMap fun kv => (mshData kv.1 kv.2).text io (!binary) "ElementData".toList
          (numbersFrom 1 (m.cells.map fun b => b.2.length).sum))) ++ rest) rest := by
    intro rest
    unfold msh4File
    simp only [List.append_assoc]
    have a3 := hed (m.cellData.map fun kv => (kv.1, mshConcat kv.2)) (m.cells.map fun b => b.2.length).sum rest
    rw [List.map_map] at a3
    have a2 := says_append io (!binary) 8 _ _ _ _ _ (hnd m.pointData m.points.length _) a3
    refine says_append io (!binary) 8 _ _ _ _ _ ?_ a2
    cases hp : m.periodic with
    | none => rfl
    | some l =>
      obtain ⟨l1, l2⟩ := h.periodic l hp
      exact ⟨_, writePeriodic_says io binary l l1 l2 _, rfl⟩
  have := says_of io (!binary) 8 (msh4File io.zero m names) (writeNames m.fieldData) t2 [] t4 [] t6 _ h1 p2 (fun _ => rfl) p4 (fun _ => rfl) p6 h7
  rw [headerText_eq]
  simp only [List.append_assoc, List.nil_append] at this ⊢
  cases hp : m.periodic with
  | none => simpa only [hp] using this
  | some l => simpa only [hp] using this

end Meshio.Gmsh41
