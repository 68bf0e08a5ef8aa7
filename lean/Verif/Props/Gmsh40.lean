/-
C74, C75, C31 and C32 (for Gmsh): files of version 4.0.
-/
import Verif.Proofs.Gmsh40Fail
import Verif.Props.Gmsh41
namespace Meshio.Props
open Types Tables Spec Gmsh
open Gmsh41 (sizes ints sizes_stream ints_stream sortEnts Entity entity dimOf addSec_fields written_row)

variable {F : Type}

/-! ### Reading -/

/-- C74: every text or binary file that gives a sensible description (in particular with any white space between the numbers of
entities and elements, any distinct node numbers, unknown sections) is read as the mesh described. -/
theorem C74_read (io : GmshFloat F) (ascii : Bool) (f : Msh4File F) (h : Msh40Ok io.lim ascii f) (_ : msh4InOrder f) (s : List Char)
    (hs : Msh40Says io ascii f s) : Gmsh40.read io s = .ok (msh40Mesh f) := Gmsh40.read_ok io ascii f h s hs

/-- C74: every description whose numbers fit has such a text. -/
theorem C74_text (io : GmshFloat F) (ascii : Bool) (f : Msh4File F) (types : List Int) (ht : types.length = f.nodes.length)
    (hfit : ascii = false → Msh40Fits f types) : Msh40Says io ascii f (msh40Text io ascii f types) :=
  Gmsh40.text_says io ascii f types ht hfit

/-- C74, C32: without the assumption on the order of the data: values are taken in the order in which they are listed. -/
theorem C32_gmsh40_listed (io : GmshFloat F) (ascii : Bool) (f : Msh4File F) (h : Msh40Ok io.lim ascii f) (s : List Char)
    (hs : Msh40Says io ascii f s) : ∃ out, Gmsh40.read io s = .ok out ∧
      (∀ d ∈ f.nodeData, (String.ofList d.name, (⟨if d.width = 1 then [] else [d.width], d.rows⟩ : NArr (List F))) ∈ out.pointData) ∧
      ∀ d ∈ f.elemData, ¬ msh40Hidden f d → ∃ blocks, (String.ofList d.name, (if d.width = 1 then [] else [d.width]), blocks) ∈ out.cellData ∧
        blocks.flatten = d.rows ∧ blocks.map (·.length) = out.cells.map (·.2.length) := by
  refine ⟨_, Gmsh40.read_ok io ascii f h s hs, ?_, ?_⟩
  · intro d hd
    exact List.mem_map.2 ⟨d, hd, rfl⟩
  · intro d hd hh
    have hlen : d.rows.length = (f.blocks.map fun b => b.elems.length).sum := by
      obtain ⟨x, hx, hxd⟩ := List.mem_filterMap.1 hd
      have := h.secs x hx
      cases x with
      | elemData nums d' => cases hxd; exact this.1.rows.1
      | _ => cases hxd
    refine ⟨cut (f.blocks.map fun b => b.elems.length) d.rows, List.mem_map.2 ⟨d, List.mem_filter.2 ⟨hd, decide_eq_true hh⟩, rfl⟩, ?_, ?_⟩
    · generalize (f.blocks.map fun b => b.elems.length) = lens at hlen
      generalize d.rows = v at hlen
      induction lens generalizing v with
      | nil => simp at hlen; subst hlen; rfl
      | cons n lens ih =>
        rw [List.sum_cons] at hlen
        rw [cut, List.flatten_cons, ih _ (by rw [List.length_drop]; omega), List.take_append_drop]
    · have e : ((msh40Mesh f).cells.map fun b => b.2.length) = f.blocks.map fun b => b.elems.length := Gmsh40.lens_cells f
      rw [e]
      generalize (f.blocks.map fun b => b.elems.length) = lens at hlen
      generalize d.rows = v at hlen
      induction lens generalizing v with
      | nil => rfl
      | cons n lens ih =>
        rw [List.sum_cons] at hlen
        rw [cut, List.map_cons, ih _ (by rw [List.length_drop]; omega), List.length_take, Nat.min_eq_left (by omega)]

/-- C31 for Gmsh 4.0: node numbers may be any distinct numbers in any order, spread over any blocks; the cells are connected to
the points carrying the numbers listed for the elements. -/
theorem C31_gmsh40 (io : GmshFloat F) (ascii : Bool) (f : Msh4File F) (h : Msh40Ok io.lim ascii f) (s : List Char)
    (hs : Msh40Says io ascii f s) : ∃ out, Gmsh40.read io s = .ok out ∧ out.points = f.nodes.flatMap (fun b => b.nodes.map (·.2)) ∧
      out.cells = f.blocks.map fun b => (b.type, b.elems.map fun e => e.2.map Int.ofNat) :=
  ⟨_, Gmsh40.read_ok io ascii f h s hs, rfl, rfl⟩

/-- C74: a file without elements is refused. -/
theorem C74_refuses_no_elements (io : GmshFloat F) (ascii : Bool) (n m : Nat) (l : List (Msh4Sec F)) (hl : ∀ x ∈ l, Msh40Sec.Ok io.lim ascii n m x)
    (s : List Char) (hs : msh40Says io ascii l s []) : Gmsh40.read io (msh40Header ascii ++ s) = .error .unboundLocal := by
  have hR := Gmsh40.reads_secs io ascii n m l hl {} s [] hs _ (Gmsh40.reads_end io ascii _)
  rw [Gmsh40.read_of io ascii s _ hR]
  simp only
  unfold Gmsh40.finish
  rw [(addSec_fields l {}).2.2.1]

/-- C74: elements before the nodes are refused. -/
theorem C74_refuses_elements_first (io : GmshFloat F) (ascii : Bool) (n m : Nat) (l : List (Msh4Sec F)) (hl : ∀ x ∈ l, Msh40Sec.Ok io.lim ascii n m x)
    (s b : List Char) (hs : msh40Says io ascii l s ('$' :: "Elements".toList ++ '\n' :: b)) :
    Gmsh40.read io (msh40Header ascii ++ s) = .error .unboundLocal := by
  have hR := Gmsh40.reads_secs io ascii n m l hl {} s _ hs (.error .unboundLocal) (by
    apply Gmsh40.reads_fail io ascii _ _ _ _ Gmsh22.tok_elements
    rw [Gmsh40.readSection, if_neg (by decide), if_neg (by decide), if_neg (by decide), if_pos rfl, (addSec_fields l {}).1])
  exact Gmsh40.read_of io ascii s _ hR

/-- C74: between sections there may be nothing else, not even a blank line. -/
theorem C74_refuses_between (io : GmshFloat F) (ascii : Bool) (n m : Nat) (l : List (Msh4Sec F)) (hl : ∀ x ∈ l, Msh40Sec.Ok io.lim ascii n m x)
    (s b : List Char) (c : Char) (hc : c ≠ '$') (hs : msh40Says io ascii l s (c :: b)) :
    Gmsh40.read io (msh40Header ascii ++ s) = .error .readError :=
  Gmsh40.read_of io ascii s _ (Gmsh40.reads_secs io ascii n m l hl {} s _ hs (.error .readError) (Gmsh40.reads_line io ascii _ c b hc))

/-- The part of a file before the elements, and the elements up to a block that begins with these numbers. -/
def Msh40Until (io : GmshFloat F) (ascii : Bool) (f : Msh4File F) (bad : List (Tok F)) (s : List Char) : Prop :=
  ∃ s1 s2 s3 s4 s5 b rest n x types, s = msh40Header ascii ++ s1 ∧ msh40Says io ascii f.pre s1 s2 ∧
    (match f.ents with
      | none => s2 = s3
      | some l => NumSec io ascii 8 "Entities" (msh4Entities l) s2 s3) ∧
    msh40Says io ascii f.mid0 s3 s4 ∧ (types.length = f.nodes.length ∧ Msh40NodeSec io ascii (msh40Nodes f types) s4 s5) ∧
    msh40Says io ascii f.mid s5 ('$' :: "Elements".toList ++ '\n' :: b) ∧ f.blocks.length < n ∧
    NumStream io ascii 8 ([.size n, .size x] ++ f.blocks.flatMap (msh40Block f.ids) ++ bad) b rest

/-- C74: a block of elements of an unknown type is refused. -/
theorem C74_refuses_type (io : GmshFloat F) (ascii : Bool) (f : Msh4File F) (h : Msh40Ok io.lim ascii f) (dim tag : Int) (code n : Nat)
    (hcode : find gmshToMeshio code = none) (s : List Char) (hs : Msh40Until io ascii f [.int tag, .int dim, .int code, .size n] s) :
    Gmsh40.read io s = .error .keyError := by
  obtain ⟨s1, s2, s3, s4, s5, b, rest, n', x, types, rfl, p1, p2, p3, ⟨ht, p4⟩, p5, hn, p6⟩ := hs
  refine Gmsh40.read_bad_block io ascii f h s1 s2 s3 s4 s5 _ b rest types p1 p2 p3 ht p4 p5 rfl n' x hn _ p6 _ ?_
  intro t ht
  have e1 : [Tok.int tag, .int dim, .int code, .size n] = ([tag, dim, (code : Int)].map .int ++ ([n].map .size ++ []) : List (Tok F)) := rfl
  rw [e1] at ht
  obtain ⟨t1, h1, ht⟩ := ints_stream io ascii 8 _ _ t _ ht
  obtain ⟨t2, h2, ht⟩ := sizes_stream io ascii 8 _ _ t1 _ ht
  have h1' : ints ascii 3 t = ([tag, dim, (code : Int)], t1) := h1
  have h2' : sizes ascii 8 1 t1 = ([n], t2) := h2
  unfold Gmsh40.readElemBlock
  rw [h1']
  simp only
  rw [h2']
  simp only [Int.toNat_natCast]
  rw [hcode]

/-- C74: a block without elements is refused. -/
theorem C74_refuses_empty_block (io : GmshFloat F) (ascii : Bool) (f : Msh4File F) (h : Msh40Ok io.lim ascii f) (dim tag : Int)
    (type : String) (ht : (find meshioToGmsh type).isSome) (hw : (Dict.get? numNodesPerCell type).isSome) (s : List Char)
    (hs : Msh40Until io ascii f [.int tag, .int dim, .int (gmshCode type), .size 0] s) :
    Gmsh40.read io s = .error .valueError := by
  obtain ⟨s1, s2, s3, s4, s5, b, rest, n', x, types, rfl, p1, p2, p3, ⟨ht', p4⟩, p5, hn, p6⟩ := hs
  refine Gmsh40.read_bad_block io ascii f h s1 s2 s3 s4 s5 _ b rest types p1 p2 p3 ht' p4 p5 rfl n' x hn _ p6 _ ?_
  intro t htok
  have e1 : [Tok.int tag, .int dim, .int (gmshCode type), .size 0] = ([tag, dim, (gmshCode type : Int)].map .int ++ ([0].map .size ++ []) : List (Tok F)) := rfl
  rw [e1] at htok
  obtain ⟨t1, h1, htok⟩ := ints_stream io ascii 8 _ _ t _ htok
  obtain ⟨t2, h2, htok⟩ := sizes_stream io ascii 8 _ _ t1 _ htok
  have h1' : ints ascii 3 t = ([tag, dim, (gmshCode type : Int)], t1) := h1
  have h2' : sizes ascii 8 1 t1 = ([0], t2) := h2
  obtain ⟨c, hc⟩ := Option.isSome_iff_exists.1 ht
  obtain ⟨w, hw⟩ := Option.isSome_iff_exists.1 hw
  have hcode : find meshioToGmsh type = some (gmshCode type) := by unfold gmshCode; rw [hc]; rfl
  have hd : decide ((0 : Int) ≤ (gmshCode type : Int)) = true := by rw [decide_eq_true_iff]; omega
  unfold Gmsh40.readElemBlock
  rw [h1']
  simp only
  rw [h2']
  simp only [Int.toNat_natCast]
  rw [Props.C16_gmsh _ _ hcode, hd]
  simp only
  rw [Gmsh22.find_eq_get?, hw]
  simp only [Nat.zero_mul]
  obtain ⟨t3, h3, -⟩ := ints_stream io ascii 8 [] [] t2 _ htok
  have h3' : ints ascii 0 t2 = ([], t3) := h3
  rw [h3']
  simp

/-- C74: with a section of entities, elements of an entity that it does not list are refused. -/
theorem C74_refuses_missing_entity (io : GmshFloat F) (ascii : Bool) (f : Msh4File F) (h : Msh40Ok io.lim ascii f)
    (l : List (Msh4Entity F)) (hl : f.ents = some l) (dim : Nat) (tag : Int) (hdim : dim ≤ 3) (hno : ∀ e ∈ l, ¬ (e.dim = dim ∧ e.tag = tag))
    (type : String) (ht : (find meshioToGmsh type).isSome) (w : Nat) (hw : Dict.get? numNodesPerCell type = some w) (n : Nat) (hpos : 0 < n)
    (xs : List Int) (hxs : xs.length = n * (1 + w)) (s : List Char)
    (hs : Msh40Until io ascii f ([.int tag, .int dim, .int (gmshCode type), .size n] ++ xs.map .int) s) :
    Gmsh40.read io s = .error .keyError := by
  obtain ⟨s1, s2, s3, s4, s5, b, rest, n', x, types, rfl, p1, p2, p3, ⟨ht', p4⟩, p5, hn, p6⟩ := hs
  refine Gmsh40.read_bad_block io ascii f h s1 s2 s3 s4 s5 _ b rest types p1 p2 p3 ht' p4 p5 rfl n' x hn _ p6 _ ?_
  intro t htok
  have e1 : [Tok.int tag, .int (dim : Int), .int (gmshCode type), .size n] ++ xs.map .int =
    ([tag, (dim : Int), (gmshCode type : Int)].map .int ++ ([n].map .size ++ (xs.map .int ++ [])) : List (Tok F)) := by rw [List.append_nil]; rfl
  rw [e1] at htok
  obtain ⟨t1, h1, htok⟩ := ints_stream io ascii 8 _ _ t _ htok
  obtain ⟨t2, h2, htok⟩ := sizes_stream io ascii 8 _ _ t1 _ htok
  obtain ⟨t3, h3, htok⟩ := ints_stream io ascii 8 _ _ t2 _ htok
  have h1' : ints ascii 3 t = ([tag, (dim : Int), (gmshCode type : Int)], t1) := h1
  have h2' : sizes ascii 8 1 t1 = ([n], t2) := h2
  rw [hxs] at h3
  obtain ⟨c, hc⟩ := Option.isSome_iff_exists.1 ht
  have hcode : find meshioToGmsh type = some (gmshCode type) := by unfold gmshCode; rw [hc]; rfl
  have hd : decide ((0 : Int) ≤ (gmshCode type : Int)) = true := by rw [decide_eq_true_iff]; omega
  have hent : entity (sortEnts l) dim tag = .error .keyError := by
    unfold entity
    have a1 : ¬ ((dim : Int) < 0) := by omega
    have a2 : ¬ (3 < (dim : Int)) := by omega
    rw [if_neg a1, if_neg a2]
    have : (sortEnts l).filter (fun e => decide ((e.dim : Int) = (dim : Int) ∧ e.tag = tag)) = [] := by
      rw [List.filter_eq_nil_iff]
      intro e he
      unfold sortEnts at he
      obtain ⟨e', he', rfl⟩ := List.mem_map.1 he
      obtain ⟨d, -, hd⟩ := List.mem_flatMap.1 he'
      have := hno e' (List.mem_filter.1 hd).1
      intro h0
      have h0 : ((e'.dim : Int) = (dim : Int) ∧ e'.tag = tag) := of_decide_eq_true h0
      exact this ⟨by omega, h0.2⟩
    rw [this]
    rfl
  unfold Gmsh40.readElemBlock
  rw [h1']
  simp only
  rw [h2']
  simp only [Int.toNat_natCast]
  rw [Props.C16_gmsh _ _ hcode, hd]
  simp only
  rw [Gmsh22.find_eq_get?, hw]
  simp only
  rw [h3]
  simp only
  rw [if_neg (by rw [hxs]; simp), if_neg (by omega), hl]
  simp only [Option.map_some]
  rw [hent]

/-! ### Writing -/

/-- C75 (writing): the file of a mesh: one block of nodes numbered from one, blocks of elements, links by node number, data for
the nodes and elements numbered from one. -/
theorem C75_write (io : GmshFloat F) (binary : Bool) (m : Gmsh40.In F) (h : Msh40In io.lim binary m) :
    ∃ names s, names.Perm (m.fieldData.map mshEntry) ∧ names.Pairwise mshNameLe ∧ Gmsh40.write io binary m = .ok s ∧
      Msh40Says io (!binary) (msh40File io.zero m names) s := by
  obtain ⟨h1, h2⟩ := mshNames m.fieldData fun kv hkv => (h.fieldData.2 kv hkv).1
  obtain ⟨s, h3, h4⟩ := Gmsh40.write_ok io binary m h _ rfl
  exact ⟨_, s, h1, h2, h3, h4⟩

/-- C75 (round trip): points (with a third coordinate), blocks of cells in their order, point data, names and links are read
back; cell data too, except that geometrical tags are replaced by ones. -/
theorem C75_roundtrip_partial (io : GmshFloat F) (binary : Bool) (m : Gmsh40.In F) (h : Msh40In io.lim binary m) :
    ∃ s out, Gmsh40.write io binary m = .ok s ∧ Gmsh40.read io s = .ok out ∧
      out.points = msh40Points io.zero m ∧ out.cells = m.cells ∧
      out.pointData = m.pointData.map (fun kv => (kv.1, mshArrayOut kv.2)) ∧
      out.cellData = (m.cellData.filter fun kv => decide (kv.1 ≠ "gmsh:geometrical")).map (fun kv =>
        (kv.1, (mshArrayOut (mshConcat kv.2)).tail, kv.2.map (·.rows))) ∧
      out.physical = [] ∧ out.geometrical = m.cells.map (fun b => List.replicate b.2.length 1) ∧
      out.fieldData.Perm (m.fieldData.map fun kv => (kv.1, kv.2.getD 0 0, kv.2.getD 1 0)) ∧ out.periodic = m.periodic := by
  obtain ⟨names, s, hn, -, hw, hs⟩ := C75_write io binary m h
  have hr := Gmsh40.read_ok io _ _ (Gmsh40.msh40File_ok io.zero io.lim binary m h names hn) s hs
  rw [Gmsh40.file_mesh io.zero io.lim binary m h names] at hr
  refine ⟨s, _, hw, hr, rfl, rfl, rfl, rfl, rfl, rfl, ?_, rfl⟩
  have := hn.map fun e : Int × Int × List Char => (String.ofList e.2.2, e.2.1, e.1)
  rw [List.map_map] at this
  refine this.trans (List.Perm.of_eq ?_)
  apply List.map_congr_left
  intro kv _
  show (String.ofList kv.1.toList, _) = _
  rw [String.ofList_toList]
  rfl

theorem gmshOrdering_known : ∀ t : String, find meshioToGmsh t = none → find gmshGmshOrdering t = none := by
  intro t ht
  cases h : find gmshGmshOrdering t with
  | none => rfl
  | some l =>
    have := (by decide +kernel : ∀ kv ∈ gmshGmshOrdering, (find meshioToGmsh kv.1).isSome) (t, l) (find_mem h)
    rw [ht] at this
    cases this

/-- C75: cells of a type that Gmsh does not have are refused. -/
theorem C75_refuses_type (io : GmshFloat F) (binary : Bool) (m : Gmsh40.In F)
    (hp : (m.dim = 3 ∧ ∀ p ∈ m.points, p.length = 3) ∨ (m.dim = 2 ∧ ∀ p ∈ m.points, p.length = 2))
    (pre post : List (String × List (List Int))) (t : String) (rows : List (List Int)) (hc : m.cells = pre ++ (t, rows) :: post)
    (ht : find meshioToGmsh t = none)
    (hpre : ∀ b ∈ pre, (find meshioToGmsh b.1).isSome ∧ ∀ r ∈ b.2, Dict.get? numNodesPerCell b.1 = some r.length)
    (hw : ∀ b ∈ pre, (Dict.get? numNodesPerCell b.1).isSome) :
    Gmsh40.write io binary m = .error .keyError := by
  have hblocks : ∀ start, Gmsh40.writeElemBlocks binary start (pre ++ (t, rows) :: post) = .error .keyError := by
    clear hc
    induction pre with
    | nil =>
      intro start
      rw [List.nil_append, Gmsh40.writeElemBlocks]
      have hm : mapRes (reorder gmshGmshOrdering t) rows = .ok (rows.map id) := by
        apply mapRes_ok_of_forall
        intro r _
        unfold reorder
        rw [gmshOrdering_known t ht]
        rfl
      rw [hm]
      simp only
      rw [ht]
    | cons b pre ih =>
      intro start
      obtain ⟨t', rows'⟩ := b
      obtain ⟨h1, h2⟩ := hpre (t', rows') (by simp)
      have hm : mapRes (reorder gmshGmshOrdering t') rows' = .ok (rows'.map (gmshRow t')) :=
        mapRes_ok_of_forall fun r hr => (written_row (h2 r hr)).1
      obtain ⟨code, hcode⟩ := Option.isSome_iff_exists.1 h1
      obtain ⟨w, hww⟩ := Option.isSome_iff_exists.1 (hw (t', rows') (by simp))
      rw [List.cons_append, Gmsh40.writeElemBlocks, hm]
      simp only
      rw [hcode]
      simp only
      have hb : ∃ x, Gmsh40.elemBlock binary start t' code (rows'.map (gmshRow t')) = .ok x := by
        unfold Gmsh40.elemBlock
        cases binary with
        | true => exact ⟨_, rfl⟩
        | false =>
          rw [if_neg (by simp), Gmsh22.find_eq_get?, hww]
          simp only
          obtain ⟨l, hl⟩ : ∃ l, mapRes (Gmsh40.elemLine w start) (rows'.map (gmshRow t')).zipIdx = .ok l := by
            refine ⟨_, mapRes_ok_of_forall (g := fun r => joinWith ' ' (fmtNat (start + r.2) :: (r.1.take w).map fun z => fmtInt (z + 1))) ?_⟩
            intro r hr
            unfold Gmsh40.elemLine
            rw [if_neg]
            obtain ⟨r', hr', he⟩ := List.mem_map.1 (List.fst_mem_of_mem_zipIdx hr)
            have hs := h2 r' hr'
            rw [← he, (Gmsh22.gmshRow_spec t' r' (by intro k hk; rw [hs] at hk; exact Option.some.inj hk)).2.1]
            rw [hww] at hs
            have := Option.some.inj hs
            omega
          rw [hl]
          exact ⟨_, rfl⟩
      obtain ⟨x, hx⟩ := hb
      rw [hx]
      simp only
      rw [ih (fun b hb => hpre b (by simp [hb])) (fun b hb => hw b (by simp [hb]))]
  unfold Gmsh40.write Gmsh40.writeNodes
  rw [if_neg (by rcases hp with h | h <;> omega)]
  simp only
  unfold Gmsh40.writeElements
  simp only
  rw [hc, hblocks 0]

/-! ### Examples -/

theorem msh40Example_ok : Msh40Ok GmshFloat.word.lim true msh4Example := by
  have h := msh4Example_ok
  refine ⟨?_, ⟨h.nodes.1, h.nodes.2.2⟩, h.blocks, h.physical, ?_, h.names.1, h.nodeData.1, h.elemData.1, h.noElems⟩
  · intro l hl
    cases hl
    refine ⟨?_, by decide⟩
    intro e he
    simp only [List.mem_cons, List.not_mem_nil, or_false] at he
    rcases he with rfl | rfl <;> exact ⟨by decide, by decide, by decide⟩
  · intro x hx
    have := h.secs x hx
    cases x with
    | periodic l => intro h; cases h
    | _ => exact this

example : ∃ out, Gmsh40.read GmshFloat.word (msh40Text GmshFloat.word true msh4Example [0, 1]) = .ok out ∧
    out.cells = [("triangle", [[0, 1, 2], [0, 2, 3]]), ("line", [[1, 0]])] ∧ out.fieldData = [("skin", 9, 2), ("my edge", 8, 1)] ∧
    out.physical = [[7, 7], [8]] ∧ out.geometrical = [[1, 1], [5]] ∧ out.periodic = some [⟨1, 5, 6, some [], [(2, 9)]⟩] :=
  ⟨_, C74_read GmshFloat.word true msh4Example msh40Example_ok msh4Example_inOrder _ (C74_text _ true _ _ rfl (by simp)),
    by decide +kernel, by decide +kernel, by decide +kernel, by decide +kernel, by decide +kernel⟩

/-- Every description has such texts: the refusals above are about files that exist. -/
theorem msh40_until_text (io : GmshFloat F) (f : Msh4File F) (bad : List (Tok F)) : ∃ s, Msh40Until io true f bad s := by
  have ha : ∀ {p : Prop}, true = false → p := fun h => by cases h
  have hstream := Gmsh41.piece_text io true 8 ([.size (f.blocks.length + 1), .size 0] ++ f.blocks.flatMap (msh40Block f.ids) ++ bad) ha
    [] ['\n'] [] ⟨['\n'], by decide, rfl⟩
  rw [List.append_nil] at hstream
  have hent : ∀ s3, ∃ s2, (match f.ents with
      | none => s2 = s3
      | some l => NumSec io true 8 "Entities" (msh4Entities l) s2 s3) := by
    intro s3
    cases f.ents with
    | none => exact ⟨_, rfl⟩
    | some l => exact ⟨_, Gmsh41.numSec_text io true 8 "Entities" _ ha s3⟩
  have ht : (List.replicate f.nodes.length (0 : Int)).length = f.nodes.length := List.length_replicate
  generalize List.replicate f.nodes.length (0 : Int) = types at ht
  obtain ⟨s2, h2⟩ := hent (f.mid0.flatMap (msh40SecText io true) ++ (msh40NodesText io true (msh40Nodes f types) ++
    (f.mid.flatMap (msh40SecText io true) ++ ('$' :: "Elements".toList ++ '\n' :: (([.size (f.blocks.length + 1), .size 0] ++
    f.blocks.flatMap (msh40Block f.ids) ++ bad : List (Tok F)).flatMap (Tok.text io true 8) ++ ['\n'])))))
  exact ⟨_, _, s2, _, _, _, _, [], f.blocks.length + 1, 0, types, rfl, Gmsh40.secs40_text io true f.pre s2, h2, Gmsh40.secs40_text io true f.mid0 _,
    ⟨ht, Gmsh40.nodes_text io true _ ha _⟩, Gmsh40.secs40_text io true f.mid _, by omega, hstream⟩

example : ∃ s, Msh40Until GmshFloat.word true msh4Example [.int 1, .int 2, .int 999, .size 1] s ∧ Gmsh40.read GmshFloat.word s = .error .keyError := by
  obtain ⟨s, hs⟩ := msh40_until_text GmshFloat.word msh4Example [.int 1, .int 2, .int 999, .size 1]
  exact ⟨s, hs, C74_refuses_type GmshFloat.word true msh4Example msh40Example_ok 2 1 999 1 (by decide +kernel) s hs⟩

example : ∃ s, Msh40Until GmshFloat.word true msh4Example [.int 1, .int 2, .int (gmshCode "quad"), .size 0] s ∧
    Gmsh40.read GmshFloat.word s = .error .valueError := by
  obtain ⟨s, hs⟩ := msh40_until_text GmshFloat.word msh4Example [.int 1, .int 2, .int (gmshCode "quad"), .size 0]
  exact ⟨s, hs, C74_refuses_empty_block GmshFloat.word true msh4Example msh40Example_ok 2 1 "quad" (by decide +kernel) (by decide +kernel) s hs⟩

example : ∃ s, Msh40Until GmshFloat.word true msh4Example ([.int 77, .int (2 : Nat), .int (gmshCode "triangle"), .size 1] ++ [1, 10, 3, 4].map .int) s ∧
    Gmsh40.read GmshFloat.word s = .error .keyError := by
  obtain ⟨s, hs⟩ := msh40_until_text GmshFloat.word msh4Example ([.int 77, .int (2 : Nat), .int (gmshCode "triangle"), .size 1] ++ [1, 10, 3, 4].map .int)
  exact ⟨s, hs, C74_refuses_missing_entity GmshFloat.word true msh4Example msh40Example_ok _ rfl 2 77 (by decide) (by decide) "triangle"
    (by decide +kernel) 3 (by decide +kernel) 1 (by decide) [1, 10, 3, 4] (by decide) s hs⟩

/-- A names section, then a blank line. -/
example (b : List Char) : Gmsh40.read GmshFloat.word (msh40Header true ++ (msh4Example.pre.flatMap (msh40SecText GmshFloat.word true) ++ '\n' :: b)) =
    .error .readError := by
  refine C74_refuses_between GmshFloat.word true 4 3 msh4Example.pre ?_ _ b '\n' (by decide) (Gmsh40.secs40_text _ true _ _)
  intro x hx
  exact msh40Example_ok.secs x (by unfold Msh4File.secs; simp [hx])

/-- A mesh of the plane with two blocks, whose cell data has the tags of a file of version 2.2. -/
def msh40MeshIn : Gmsh40.In Word where
  dim := 2
  points := [[Word.of 0, Word.of 0], [Word.of 1, Word.of 0], [Word.of 1, Word.of 1], [Word.of 0, Word.of 1]]
  cells := [("triangle", [[0, 1, 2], [0, 2, 3]]), ("line", [[0, 1]])]
  pointData := [("u", ⟨[], [[Word.of 1], [Word.of 2], [Word.of 3], [Word.of 4]]⟩)]
  cellData := [("v", [⟨[3], [[Word.of 1, Word.of 2, Word.of 3], [Word.of 4, Word.of 5, Word.of 6]]⟩, ⟨[3], [[Word.of 7, Word.of 8, Word.of 9]]⟩]),
    ("gmsh:geometrical", [⟨[], [[Word.of 5], [Word.of 6]]⟩, ⟨[], [[Word.of 7]]⟩])]
  fieldData := [("skin", [9, 2])]
  periodic := some [⟨1, 5, 6, none, [(0, 1)]⟩]

theorem msh40MeshIn_in : Msh40In GmshFloat.word.lim false msh40MeshIn := by
  refine ⟨⟨by decide, Or.inr ⟨by decide, by decide⟩⟩, by decide +kernel, by decide +kernel, ⟨by decide, ?_⟩, ⟨by decide, ?_⟩, ⟨by decide, by decide⟩, ?_, by decide⟩
  · intro kv hkv
    simp only [msh40MeshIn, List.mem_singleton] at hkv
    subst hkv
    exact ⟨by decide, ⟨by decide, by decide, by decide⟩⟩
  · intro kv hkv
    simp only [msh40MeshIn, List.mem_cons, List.not_mem_nil, or_false] at hkv
    rcases hkv with rfl | rfl
    · exact ⟨by decide, by decide, by decide, by decide, ⟨by decide, by decide, by decide⟩⟩
    · exact ⟨by decide, by decide, by decide, by decide, ⟨by decide, by decide, by decide⟩⟩
  · intro l h
    cases h
    exact ⟨by decide, by decide⟩

example : ∃ s out, Gmsh40.write GmshFloat.word false msh40MeshIn = .ok s ∧ Gmsh40.read GmshFloat.word s = .ok out ∧ out.cells = msh40MeshIn.cells ∧
    out.periodic = some [⟨1, 5, 6, none, [(0, 1)]⟩] := by
  obtain ⟨s, out, h1, h2, -, h3, -, -, -, -, -, h4⟩ := C75_roundtrip_partial GmshFloat.word false msh40MeshIn msh40MeshIn_in
  exact ⟨s, out, h1, h2, h3, h4⟩

/-- In binary form without links. -/
example : ∃ s out, Gmsh40.write GmshFloat.word true { msh40MeshIn with periodic := none } = .ok s ∧ Gmsh40.read GmshFloat.word s = .ok out ∧
    out.cells = msh40MeshIn.cells := by
  have h := msh40MeshIn_in
  obtain ⟨s, out, h1, h2, -, h3, -⟩ := C75_roundtrip_partial GmshFloat.word true { msh40MeshIn with periodic := none }
    ⟨h.points, h.cells, h.known, h.pointData, h.cellData, h.fieldData, by simp, h.size⟩
  exact ⟨s, out, h1, h2, h3⟩

example : Gmsh40.write GmshFloat.word false { msh40MeshIn with cells := [("triangle", [[0, 1, 2]]), ("VTK_LAGRANGE_CURVE", [[0, 1]])] } = .error .keyError :=
  C75_refuses_type GmshFloat.word false { msh40MeshIn with cells := [("triangle", [[0, 1, 2]]), ("VTK_LAGRANGE_CURVE", [[0, 1]])] }
    (Or.inr ⟨by decide, by decide⟩) [("triangle", [[0, 1, 2]])] [] "VTK_LAGRANGE_CURVE" [[0, 1]] rfl (by decide +kernel) (by decide +kernel) (by decide +kernel)

/-! ### What does not hold -/

/-- The full statement of C75: all cell data is read back. -/
def C75_roundtrip_statement : Prop :=
  ∀ (binary : Bool) (m : Gmsh40.In Word), Msh40In GmshFloat.word.lim binary m → ∃ s out, Gmsh40.write GmshFloat.word binary m = .ok s ∧
    Gmsh40.read GmshFloat.word s = .ok out ∧ ∀ kv ∈ m.cellData, ∃ x ∈ out.cellData, x.1 = kv.1 ∧ x.2.2 = kv.2.map (·.rows)

/-- It does not hold: all entities are written with tag one, and what is read as `gmsh:geometrical` are these tags. -/
theorem C75_roundtrip_false : ¬ C75_roundtrip_statement := by
  intro h
  obtain ⟨s, out, h1, h2, h3⟩ := h false msh40MeshIn msh40MeshIn_in
  obtain ⟨s', out', h1', h2', -, -, -, hc, -⟩ := C75_roundtrip_partial GmshFloat.word false msh40MeshIn msh40MeshIn_in
  rw [h1] at h1'
  cases h1'
  rw [h2] at h2'
  cases h2'
  obtain ⟨x, hx, hx1, -⟩ := h3 ("gmsh:geometrical", [⟨[], [[Word.of 5], [Word.of 6]]⟩, ⟨[], [[Word.of 7]]⟩]) (by simp [msh40MeshIn])
  rw [hc] at hx
  obtain ⟨kv, hkv, rfl⟩ := List.mem_map.1 hx
  have := of_decide_eq_true (List.mem_filter.1 hkv).2
  exact this hx1

/-- The full statement of C75 on numbers: the data of the elements is listed by the numbers of the elements. -/
def C75_numbers_statement : Prop :=
  ∀ (binary : Bool) (m : Gmsh40.In Word), Msh40In GmshFloat.word.lim binary m → ∀ names, msh4InOrder (msh40File GmshFloat.word.zero m names)

/-- It never holds if there is cell data: the elements are numbered from zero, the data from one. -/
theorem C75_numbers_never (zero : F) (lim : Nat) (binary : Bool) (m : Gmsh40.In F) (h : Msh40In lim binary m) (names : List (Int × Int × List Char))
    (hd : m.cellData ≠ []) : ¬ msh4InOrder (msh40File zero m names) := by
  rintro ⟨-, ho⟩
  obtain ⟨kv, hkv⟩ := List.exists_mem_of_ne_nil _ hd
  have he := ho (numbersFrom 1 (m.cells.map fun b => b.2.length).sum) (mshData kv.1 (mshConcat kv.2)) (by
    unfold Msh4File.secs msh40File
    simp only [List.mem_append]
    right; right; right
    exact List.mem_map.2 ⟨kv, hkv, rfl⟩)
  obtain ⟨-, k1, k2, -⟩ := h.cellData.2 kv hkv
  cases hc : m.cells with
  | nil =>
    rw [hc] at k2
    simp only [List.map_nil, List.map_eq_nil_iff] at k2
    exact k1 k2
  | cons b cells =>
    obtain ⟨t, rows⟩ := b
    have hb := (h.cells (t, rows) (by rw [hc]; simp)).1
    cases rows with
    | nil => exact hb rfl
    | cons r rows =>
      have h0 := congrArg List.head? he
      have e1 : ((msh40File zero m names).blocks.flatMap fun b => b.elems.map (·.1)).map Int.ofNat =
          0 :: (((rows.zipIdx 1).map fun ri => ((0 + ri.2 : Nat), ri.1.map Int.toNat)).map (·.1) ++
            (msh40Blocks (0 + (r :: rows).length) cells).flatMap fun b => b.elems.map (·.1)).map Int.ofNat := by
        show ((msh40Blocks 0 m.cells).flatMap _).map _ = _
        rw [hc, msh40Blocks, List.flatMap_cons, List.zipIdx_cons]
        rfl
      rw [e1] at h0
      have hs : (m.cells.map fun b => b.2.length).sum = (rows.length + (cells.map fun b => b.2.length).sum) + 1 := by
        rw [hc]
        simp only [List.map_cons, List.sum_cons, List.length_cons]
        omega
      rw [hs] at h0
      unfold numbersFrom at h0
      rw [List.range_succ_eq_map] at h0
      simp at h0

theorem C75_numbers_false : ¬ C75_numbers_statement := fun h =>
  C75_numbers_never _ _ false msh40MeshIn msh40MeshIn_in [] (by simp [msh40MeshIn]) (h false msh40MeshIn msh40MeshIn_in [])

/-- The full statement of C75 on links: they are written as the format says. -/
def C75_links_statement : Prop :=
  ∀ (binary : Bool) (l : List (Gmsh22.Periodic Word)), Msh40Links (!binary) l →
    Gmsh40.writePeriodic GmshFloat.word binary l = msh40Periodic GmshFloat.word (!binary) l

/-- In binary files it never holds if there are links: the number of pairs has four bytes instead of eight. -/
theorem C75_links_binary (io : GmshFloat F) (l : List (Gmsh22.Periodic F)) (hl : l ≠ []) (ha : ∀ p ∈ l, p.affine = none) :
    Gmsh40.writePeriodic io true l ≠ msh40Periodic io false l := by
  intro h
  have h := congrArg List.length h
  have hlink : ∀ l : List (Gmsh22.Periodic F), (∀ p ∈ l, p.affine = none) →
      (l.flatMap (msh40Link io)).length = (l.flatMap (Gmsh40.linkText io true)).length + 4 * l.length := by
    intro l ha
    induction l with
    | nil => rfl
    | cons p l ih =>
      rw [List.flatMap_cons, List.flatMap_cons, List.length_append, List.length_append, ih fun q hq => ha q (by simp [hq])]
      have e : (msh40Link io p).length = (Gmsh40.linkText io true p).length + 4 := by
        unfold msh40Link msh40LinkHead Gmsh40.linkText
        rw [ha p (by simp)]
        have e2 : (p.pairs.flatMap fun q => putInts 4 [q.1 + 1, q.2 + 1]) = p.pairs.flatMap fun q => putInt 4 (q.1 + 1) ++ putInt 4 (q.2 + 1) := by
          apply flatMap_congr'
          intro q _
          simp [putInts]
        rw [e2]
        simp only [Option.getD_none, if_true, List.append_nil, List.length_append, length_putInt]
        omega
      rw [e, List.length_cons]
      omega
  unfold Gmsh40.writePeriodic msh40Periodic at h
  rw [if_pos rfl, if_pos rfl, if_neg (by simp)] at h
  simp only [List.length_append, hlink l ha] at h
  have : 0 < l.length := List.length_pos_iff.2 hl
  omega

/-- In text files a transformation is not marked as one. -/
theorem C75_links_transformation (io : GmshFloat F) (p : Gmsh22.Periodic F) (a : List F) (hp : p.affine = some a) (ha : a ≠ []) :
    Gmsh40.writePeriodic io false [p] ≠ msh40Periodic io true [p] := by
  obtain ⟨dim, slave, master, aff, pairs⟩ := p
  simp only at hp
  subst hp
  intro h
  unfold Gmsh40.writePeriodic msh40Periodic Gmsh40.linkText mshLink at h
  simp only [Option.getD_some, if_neg ha, Bool.false_eq_true, if_false, if_true, List.flatMap_cons, List.flatMap_nil, List.append_nil,
    List.append_assoc, linesText, List.flatMap_append] at h
  simp at h

theorem C75_links_false : ¬ C75_links_statement := fun h =>
  C75_links_binary GmshFloat.word [⟨1, 5, 6, none, [(0, 1)]⟩] (by simp) (by simp) (h true _ (by
    intro _
    exact ⟨by decide, by decide⟩))

end Meshio.Props
