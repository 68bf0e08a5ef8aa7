/-
C60, C61, C31 and C32 (for Gmsh): files of version 4.1.
-/
import Verif.Proofs.Gmsh41Fail
import Verif.Proofs.Gmsh41W5
import Verif.Props.Gmsh22
namespace Meshio.Props
open Types Tables Spec Gmsh Gmsh41

variable {F : Type}

/-! ### Reading -/

/-- The data of the file is listed in the order of its nodes and elements. -/
def msh4InOrder (f : Msh4File F) : Prop :=
  (∀ nums d, .nodeData nums d ∈ f.secs → nums = f.ids.map Int.ofNat) ∧
    ∀ nums d, .elemData nums d ∈ f.secs → nums = (f.blocks.flatMap fun b => b.elems.map (·.1)).map Int.ofNat

/-- C60: every text, or binary file with any size of the unsigned numbers, that gives a sensible description (in particular with
any white space between numbers, any distinct positive node numbers, unknown sections) is read as the mesh described. -/
theorem C60_read (io : GmshFloat F) (ascii : Bool) (k : Nat) (f : Msh4File F) (h : f.Ok io.lim ascii k) (_ : msh4InOrder f) (s : List Char)
    (hs : f.Says io ascii k s) : Gmsh41.read io s = .ok f.mesh := read_ok io ascii k f h s hs

/-- C60, C32: without the assumption on the order of the data: values are taken in the order in which they are listed. -/
theorem C32_gmsh41_listed (io : GmshFloat F) (ascii : Bool) (k : Nat) (f : Msh4File F) (h : f.Ok io.lim ascii k) (s : List Char)
    (hs : f.Says io ascii k s) : ∃ out, Gmsh41.read io s = .ok out ∧
      (∀ d ∈ f.nodeData, (String.ofList d.name, (⟨if d.width = 1 then [] else [d.width], d.rows⟩ : NArr (List F))) ∈ out.pointData) ∧
      ∀ d ∈ f.elemData, ∃ blocks, (String.ofList d.name, (if d.width = 1 then [] else [d.width]), blocks) ∈ out.cellData ∧
        blocks.flatten = d.rows ∧ blocks.map (·.length) = out.cells.map (·.2.length) := by
  refine ⟨_, read_ok io ascii k f h s hs, ?_, ?_⟩
  · intro d hd
    exact List.mem_map.2 ⟨d, hd, rfl⟩
  · intro d hd
    have hlen : d.rows.length = (f.blocks.map fun b => b.elems.length).sum := by
      obtain ⟨x, hx, hxd⟩ := List.mem_filterMap.1 hd
      have := h.secs x hx
      cases x with
      | elemData nums d' => cases hxd; exact this.1.rows.1
      | _ => cases hxd
    refine ⟨cut (f.blocks.map fun b => b.elems.length) d.rows, List.mem_map.2 ⟨d, hd, rfl⟩, ?_, ?_⟩
    · generalize (f.blocks.map fun b => b.elems.length) = lens at hlen
      generalize d.rows = v at hlen
      induction lens generalizing v with
      | nil => simp at hlen; subst hlen; rfl
      | cons n lens ih =>
        rw [List.sum_cons] at hlen
        rw [cut, List.flatten_cons, ih _ (by rw [List.length_drop]; omega), List.take_append_drop]
    · have e : (f.mesh.cells.map fun b => b.2.length) = f.blocks.map fun b => b.elems.length := lens_cells f
      rw [e]
      generalize (f.blocks.map fun b => b.elems.length) = lens at hlen
      generalize d.rows = v at hlen
      induction lens generalizing v with
      | nil => rfl
      | cons n lens ih =>
        rw [List.sum_cons] at hlen
        rw [cut, List.map_cons, ih _ (by rw [List.length_drop]; omega), List.length_take, Nat.min_eq_left (by omega)]

/-- C60: every description whose numbers fit has such a text. -/
theorem C60_text (io : GmshFloat F) (ascii : Bool) (k : Nat) (f : Msh4File F) (hfit : ascii = false → f.Fits k) : f.Says io ascii k (f.text io ascii k) :=
  text_says io ascii k f hfit

/-- C31 for Gmsh 4.1: node numbers may be any distinct positive numbers in any order, spread over any blocks; the cells are
connected to the points carrying the numbers listed for the elements. -/
theorem C31_gmsh41 (io : GmshFloat F) (ascii : Bool) (k : Nat) (f : Msh4File F) (h : f.Ok io.lim ascii k) (s : List Char)
    (hs : f.Says io ascii k s) : ∃ out, Gmsh41.read io s = .ok out ∧ out.points = f.nodes.flatMap (fun b => b.nodes.map (·.2)) ∧
      out.cells = f.blocks.map fun b => (b.type, b.elems.map fun e => e.2.map Int.ofNat) :=
  ⟨_, read_ok io ascii k f h s hs, rfl, rfl⟩

/-- C60: a file without elements is refused. -/
theorem C60_refuses_no_elements (io : GmshFloat F) (ascii : Bool) (k n m : Nat) (hk : k = 1 ∨ k = 2 ∨ k = 4 ∨ k = 8)
    (l : List (Msh4Sec F)) (hl : ∀ x ∈ l, x.Ok io.lim ascii n m) (s : List Char) (hs : msh4Says io ascii k l s []) :
    Gmsh41.read io (msh4Header ascii k ++ s) = .error .readError := by
  have hR := reads_secs io ascii k hk n m l hl {} s [] hs _ (reads_end io ascii k _)
  have := read_of io ascii k hk s _ hR
  rw [this]
  simp only
  unfold finish
  rw [(addSec_fields l {}).2.2.1]

/-- C60: elements before the nodes are refused. -/
theorem C60_refuses_elements_first (io : GmshFloat F) (ascii : Bool) (k n m : Nat) (hk : k = 1 ∨ k = 2 ∨ k = 4 ∨ k = 8)
    (l : List (Msh4Sec F)) (hl : ∀ x ∈ l, x.Ok io.lim ascii n m) (s b : List Char)
    (hs : msh4Says io ascii k l s ('$' :: "Elements".toList ++ '\n' :: b)) :
    Gmsh41.read io (msh4Header ascii k ++ s) = .error .unboundLocal := by
  have hR := reads_secs io ascii k hk n m l hl {} s _ hs (.error .unboundLocal) (by
    apply reads_fail io ascii k _ _ _ _ Gmsh22.tok_elements
    rw [readSection, if_neg (by decide), if_neg (by decide), if_neg (by decide), if_pos rfl, (addSec_fields l {}).1])
  exact read_of io ascii k hk s _ hR

/-- C60: nodes with parametric coordinates are refused. -/
theorem C60_refuses_parametric (io : GmshFloat F) (ascii : Bool) (k n m : Nat) (hk : k = 1 ∨ k = 2 ∨ k = 4 ∨ k = 8)
    (l : List (Msh4Sec F)) (hl : ∀ x ∈ l, x.Ok io.lim ascii n m) (s b rest : List Char)
    (hs : msh4Says io ascii k l s ('$' :: "Nodes".toList ++ '\n' :: b))
    (nodes : List (Msh4Nodes F)) (h3 : ∀ b ∈ nodes, ∀ p ∈ b.nodes, p.2.length = 3) (blocks x y z : Nat) (hb : nodes.length < blocks)
    (dim tag parametric : Int) (hp : parametric ≠ 0)
    (hn : NumStream io ascii k ([.size blocks, .size x, .size y, .size z] ++ nodes.flatMap Msh4Nodes.toks ++
      [.int dim, .int tag, .int parametric]) b rest) :
    Gmsh41.read io (msh4Header ascii k ++ s) = .error .readError := by
  have hR := reads_secs io ascii k hk n m l hl {} s _ hs (.error .readError) (by
    apply reads_fail io ascii k _ _ _ _ Gmsh22.tok_nodes
    rw [readSection, if_neg (by decide), if_neg (by decide), if_pos rfl]
    have e1 : [Tok.size blocks, .size x, .size y, .size z] = ([blocks, x, y, z].map .size : List (Tok F)) := rfl
    have e2 : [Tok.int dim, .int tag, .int parametric] = ([dim, tag, parametric].map .int ++ [] : List (Tok F)) := rfl
    rw [List.append_assoc, e1, e2] at hn
    obtain ⟨t1, h1, hn⟩ := sizes_stream io ascii k _ _ b _ hn
    obtain ⟨t2, h2, hn⟩ := readNodeBlocks_stream io ascii k nodes h3 _ t1 _ hn
    obtain ⟨t3, h4, hn⟩ := ints_stream io ascii k _ _ t2 _ hn
    have h1' : sizes ascii k 4 b = ([blocks, x, y, z], t1) := h1
    have h4' : ints ascii 3 t2 = ([dim, tag, parametric], t3) := h4
    have hbad : readNodeBlock io ascii k t2 = .error .readError := by
      unfold readNodeBlock
      rw [h4']
      simp only
      rw [if_pos hp]
    unfold readNodes
    rw [sizeType_ok k hk]
    simp only
    rw [h1']
    simp only
    rw [readNodeBlocks_fail io ascii k nodes.length blocks t1 t2 _ _ h2 hbad hb])
  exact read_of io ascii k hk s _ hR

/-- The part of a file before the elements, and the elements up to a block that begins with these numbers. -/
def Msh4Until (io : GmshFloat F) (ascii : Bool) (k : Nat) (f : Msh4File F) (bad : List (Tok F)) (s : List Char) : Prop :=
  ∃ s1 s2 s3 s4 s5 b rest n x y z, s = msh4Header ascii k ++ s1 ∧ msh4Says io ascii k f.pre s1 s2 ∧
    (match f.ents with
      | none => s2 = s3
      | some l => NumSec io ascii k "Entities" (msh4Entities l) s2 s3) ∧
    msh4Says io ascii k f.mid0 s3 s4 ∧ NumSec io ascii k "Nodes" f.nodeToks s4 s5 ∧
    msh4Says io ascii k f.mid s5 ('$' :: "Elements".toList ++ '\n' :: b) ∧ f.blocks.length < n ∧
    NumStream io ascii k ([.size n, .size x, .size y, .size z] ++ f.blocks.flatMap (Msh4Block.toks f.ids) ++ bad) b rest

/-- C60: a block of elements of an unknown type is refused. -/
theorem C60_refuses_type (io : GmshFloat F) (ascii : Bool) (k : Nat) (f : Msh4File F) (h : f.Ok io.lim ascii k) (dim tag : Int) (code n : Nat)
    (hcode : find gmshToMeshio code = none) (s : List Char) (hs : Msh4Until io ascii k f [.int dim, .int tag, .int code, .size n] s) :
    Gmsh41.read io s = .error .keyError := by
  obtain ⟨s1, s2, s3, s4, s5, b, rest, n', x, y, z, rfl, p1, p2, p3, p4, p5, hn, p6⟩ := hs
  refine read_bad_block io ascii k f h s1 s2 s3 s4 s5 _ b rest p1 p2 p3 p4 p5 rfl n' x y z hn _ p6 _ ?_
  intro t ht
  have e1 : [Tok.int dim, .int tag, .int code, .size n] = ([dim, tag, (code : Int)].map .int ++ ([n].map .size ++ []) : List (Tok F)) := rfl
  rw [e1] at ht
  obtain ⟨t1, h1, ht⟩ := ints_stream io ascii k _ _ t _ ht
  obtain ⟨t2, h2, ht⟩ := sizes_stream io ascii k _ _ t1 _ ht
  have h1' : ints ascii 3 t = ([dim, tag, (code : Int)], t1) := h1
  have h2' : sizes ascii k 1 t1 = ([n], t2) := h2
  unfold readElemBlock
  rw [h1']
  simp only
  rw [h2']
  simp only [Int.toNat_natCast]
  rw [hcode]

/-- C60: a block without elements is refused. -/
theorem C60_refuses_empty_block (io : GmshFloat F) (ascii : Bool) (k : Nat) (f : Msh4File F) (h : f.Ok io.lim ascii k) (dim tag : Int)
    (type : String) (ht : (find meshioToGmsh type).isSome) (hw : (Dict.get? numNodesPerCell type).isSome) (s : List Char)
    (hs : Msh4Until io ascii k f [.int dim, .int tag, .int (gmshCode type), .size 0] s) :
    Gmsh41.read io s = .error .valueError := by
  obtain ⟨s1, s2, s3, s4, s5, b, rest, n', x, y, z, rfl, p1, p2, p3, p4, p5, hn, p6⟩ := hs
  refine read_bad_block io ascii k f h s1 s2 s3 s4 s5 _ b rest p1 p2 p3 p4 p5 rfl n' x y z hn _ p6 _ ?_
  intro t htok
  have e1 : [Tok.int dim, .int tag, .int (gmshCode type), .size 0] = ([dim, tag, (gmshCode type : Int)].map .int ++ ([0].map .size ++ []) : List (Tok F)) := rfl
  rw [e1] at htok
  obtain ⟨t1, h1, htok⟩ := ints_stream io ascii k _ _ t _ htok
  obtain ⟨t2, h2, htok⟩ := sizes_stream io ascii k _ _ t1 _ htok
  have h1' : ints ascii 3 t = ([dim, tag, (gmshCode type : Int)], t1) := h1
  have h2' : sizes ascii k 1 t1 = ([0], t2) := h2
  obtain ⟨c, hc⟩ := Option.isSome_iff_exists.1 ht
  obtain ⟨w, hw⟩ := Option.isSome_iff_exists.1 hw
  have hcode : find meshioToGmsh type = some (gmshCode type) := by unfold gmshCode; rw [hc]; rfl
  have hd : decide ((0 : Int) ≤ (gmshCode type : Int)) = true := by rw [decide_eq_true_iff]; omega
  unfold readElemBlock
  rw [h1']
  simp only
  rw [h2']
  simp only [Int.toNat_natCast]
  rw [Props.C16_gmsh _ _ hcode, hd]
  simp only
  rw [Gmsh22.find_eq_get?, hw]
  simp only [Nat.zero_mul]
  obtain ⟨t3, h3, -⟩ := sizes_stream io ascii k [] [] t2 _ htok
  have h3' : sizes ascii k 0 t2 = ([], t3) := h3
  rw [h3']
  simp

/-- C60: with a section of entities, elements of an entity that it does not list are refused. -/
theorem C60_refuses_missing_entity (io : GmshFloat F) (ascii : Bool) (k : Nat) (f : Msh4File F) (h : f.Ok io.lim ascii k)
    (l : List (Msh4Entity F)) (hl : f.ents = some l) (dim : Nat) (tag : Int) (hdim : dim ≤ 3) (hno : ∀ e ∈ l, ¬ (e.dim = dim ∧ e.tag = tag))
    (type : String) (ht : (find meshioToGmsh type).isSome) (w : Nat) (hw : Dict.get? numNodesPerCell type = some w) (n : Nat) (hpos : 0 < n)
    (xs : List Nat) (hxs : xs.length = n * (1 + w)) (s : List Char)
    (hs : Msh4Until io ascii k f ([.int dim, .int tag, .int (gmshCode type), .size n] ++ xs.map .size) s) :
    Gmsh41.read io s = .error .keyError := by
  obtain ⟨s1, s2, s3, s4, s5, b, rest, n', x, y, z, rfl, p1, p2, p3, p4, p5, hn, p6⟩ := hs
  refine read_bad_block io ascii k f h s1 s2 s3 s4 s5 _ b rest p1 p2 p3 p4 p5 rfl n' x y z hn _ p6 _ ?_
  intro t htok
  have e1 : [Tok.int (dim : Int), .int tag, .int (gmshCode type), .size n] ++ xs.map .size =
    ([(dim : Int), tag, (gmshCode type : Int)].map .int ++ ([n].map .size ++ (xs.map .size ++ [])) : List (Tok F)) := by rw [List.append_nil]; rfl
  rw [e1] at htok
  obtain ⟨t1, h1, htok⟩ := ints_stream io ascii k _ _ t _ htok
  obtain ⟨t2, h2, htok⟩ := sizes_stream io ascii k _ _ t1 _ htok
  obtain ⟨t3, h3, htok⟩ := sizes_stream io ascii k _ _ t2 _ htok
  have h1' : ints ascii 3 t = ([(dim : Int), tag, (gmshCode type : Int)], t1) := h1
  have h2' : sizes ascii k 1 t1 = ([n], t2) := h2
  rw [hxs] at h3
  obtain ⟨c, hc⟩ := Option.isSome_iff_exists.1 ht
  have hcode : find meshioToGmsh type = some (gmshCode type) := by unfold gmshCode; rw [hc]; rfl
  have hd : decide ((0 : Int) ≤ (gmshCode type : Int)) = true := by rw [decide_eq_true_iff]; omega
  have hent : entity (sortEnts l) dim tag = .error .keyError := by
    unfold entity
    have a1 : ¬ ((dim : Int) < 0) := by omega
    have a2 : ¬ (3 < (dim : Int)) := by omega
    rw [if_neg a1, if_neg a2]
    have : (sortEnts l).filter (fun e => decide ((e.dim : Int) = (dim : Int) ∧ e.tag = tag)) = [] := by
      rw [List.filter_eq_nil_iff]
      intro e he
      unfold sortEnts at he
      obtain ⟨e', he', rfl⟩ := List.mem_map.1 he
      obtain ⟨d, -, hd⟩ := List.mem_flatMap.1 he'
      have := hno e' (List.mem_filter.1 hd).1
      intro h0
      have h0 : ((e'.dim : Int) = (dim : Int) ∧ e'.tag = tag) := of_decide_eq_true h0
      exact this ⟨by omega, h0.2⟩
    rw [this]
    rfl
  unfold readElemBlock
  rw [h1']
  simp only
  rw [h2']
  simp only [Int.toNat_natCast]
  rw [Props.C16_gmsh _ _ hcode, hd]
  simp only
  rw [Gmsh22.find_eq_get?, hw]
  simp only
  rw [h3]
  simp only
  rw [if_neg (by rw [hxs]; simp), if_neg (by omega), hl]
  simp only [Option.map_some]
  rw [hent]

/-! ### Writing -/

/-- C61 (writing): the file of a mesh: entities with their tags, nodes grouped by entity, elements and links by node number, data
for the nodes and elements numbered from one. -/
theorem C61_write (io : GmshFloat F) (hz : io.parse ['0'] = some io.zero) (binary : Bool) (m : In F) (h : Msh4In io.lim m) :
    ∃ names s, names.Perm (m.fieldData.map mshEntry) ∧ names.Pairwise mshNameLe ∧ Gmsh41.write io binary m = .ok s ∧
      (msh4File io.zero m names).Says io (!binary) 8 s := by
  obtain ⟨h1, h2⟩ := mshNames m.fieldData fun kv hkv => (h.fieldData.2 kv hkv).2.1
  obtain ⟨s, h3, h4⟩ := write_ok io hz binary m h _ rfl
  exact ⟨_, s, h1, h2, h3, h4⟩

/-- What is read of a written file. -/
theorem msh4_written (io : GmshFloat F) (hz : io.parse ['0'] = some io.zero) (binary : Bool) (m : In F) (h : Msh4In io.lim m) :
    ∃ names s, names.Perm (m.fieldData.map mshEntry) ∧ Gmsh41.write io binary m = .ok s ∧
      Gmsh41.read io s = .ok (msh4File io.zero m names).mesh := by
  obtain ⟨names, s, h1, -, h3, h4⟩ := C61_write io hz binary m h
  exact ⟨names, s, h1, h3, read_ok io _ _ _ (msh4File_ok io.zero io.lim _ m h names h1) s h4⟩

theorem msh4_names (m : In F) (names : List (Int × Int × List Char)) (h : names.Perm (m.fieldData.map mshEntry)) :
    (names.map fun e => (String.ofList e.2.2, e.2.1, e.1)).Perm (m.fieldData.map fun kv => (kv.1, kv.2.getD 0 0, kv.2.getD 1 0)) := by
  have := h.map fun e : Int × Int × List Char => (String.ofList e.2.2, e.2.1, e.1)
  rw [List.map_map] at this
  refine this.trans (List.Perm.of_eq ?_)
  apply List.map_congr_left
  intro kv _
  show (String.ofList kv.1.toList, _) = _
  rw [String.ofList_toList]
  rfl

/-- The members of the set of a physical name: the blocks of its dimension whose physical tag is its number. -/
def msh4Set (m : In F) (kv : String × List Int) : String × List (List Nat) :=
  (kv.1, m.cells.zipIdx.map fun bi =>
    if m.dimTags.isSome ∧ kv.2.getD 1 0 = (dimOf bi.1.1 : Int) ∧ kv.2.getD 0 0 = msh4Tag m.physical bi.2 then List.range bi.1.2.length else [])

/-- C61 (round trip): a mesh with tags that are the same for all cells of a block, and with entities of the nodes or one block,
written as text or in binary form, is read back up to the order of its nodes: they are sorted by entity.  Points (with a third
coordinate), entities of the nodes, blocks, tags (without entities of the nodes no physical tags), cell data, boundaries, names
and named sets are kept. -/
theorem C61_roundtrip_partial (io : GmshFloat F) (hz : io.parse ['0'] = some io.zero) (binary : Bool) (m : In F) (h : Msh4In io.lim m) :
    ∃ s out, ∃ pos : Nat → Nat, Gmsh41.write io binary m = .ok s ∧ Gmsh41.read io s = .ok out ∧
      (∀ i, i < m.points.length → pos i < m.points.length) ∧
      (∀ i j, i < m.points.length → j < m.points.length → (pos i < pos j ↔ Msh4Before m i j)) ∧
      out.points.length = m.points.length ∧ out.dimTags.length = m.points.length ∧
      (∀ i, i < m.points.length → out.points[pos i]? = (msh4Points io.zero m)[i]? ∧ out.dimTags[pos i]? = (msh4NodeOwners m)[i]?) ∧
      out.cells = m.cells.map (fun b => (b.1, b.2.map fun r => r.map fun z => ((pos z.toNat : Nat) : Int))) ∧
      out.cellData = m.cellData.map (fun kv => (kv.1, (mshArrayOut (mshConcat kv.2)).tail, kv.2.map (·.rows))) ∧
      out.physical = (if m.dimTags.isSome then m.physical.getD [] else []) ∧
      out.geometrical = m.geometrical.getD (m.cells.map fun b => List.replicate b.2.length 0) ∧
      out.fieldData.Perm (m.fieldData.map fun kv => (kv.1, kv.2.getD 0 0, kv.2.getD 1 0)) ∧
      out.sets.Perm (m.fieldData.map (msh4Set m)) ∧
      out.bounding = (if m.dimTags.isSome ∧ m.cells ≠ [] then
        some (m.cells.zipIdx.map fun bi => if 0 < dimOf bi.1.1 then some (msh4Bounds m bi.2) else none) else none) := by
  obtain ⟨names, s, hn, hw, hr⟩ := msh4_written io hz binary m h
  have hplen : (msh4Points io.zero m).length = m.points.length := by simp [msh4Points]
  have hown := length_owners io.lim m h
  rw [file_mesh io.zero io.lim m h names] at hr
  have hat : ∀ {α : Type} (l : List α) (d : α), l.length = m.points.length → ∀ i, i < m.points.length →
      ((msh4Order m).map fun i => l.getD i d)[msh4Pos m i]? = l[i]? := by
    intro α l d hl i hi
    have hlt : msh4Pos m i < (msh4Order m).length := List.idxOf_lt_length_iff.2 ((mem_order io.lim m h i).2 hi)
    rw [List.getElem?_map, List.getElem?_eq_getElem hlt]
    have : (msh4Order m)[msh4Pos m i] = i := List.getElem_idxOf hlt
    rw [this]
    simp only [Option.map_some]
    rw [List.getD_eq_getElem?_getD, List.getElem?_eq_getElem (by omega)]
    rfl
  refine ⟨s, _, msh4Pos m, hw, hr, pos_lt io.lim m h, pos_before io.lim m h, ?_, ?_, ?_, rfl, rfl, rfl, rfl, msh4_names m names hn, ?_, rfl⟩
  · simp only [List.length_map]; exact length_order io.lim m h
  · simp only [List.length_map]; exact length_order io.lim m h
  · intro i hi
    exact ⟨hat _ _ hplen i hi, hat _ _ hown i hi⟩
  · have := hn.map fun e : Int × Int × List Char => (String.ofList e.2.2, m.cells.zipIdx.map fun bi =>
        if m.dimTags.isSome ∧ e.1 = (dimOf bi.1.1 : Int) ∧ e.2.1 = msh4Tag m.physical bi.2 then List.range bi.1.2.length else [])
    refine this.trans (List.Perm.of_eq ?_)
    rw [List.map_map]
    apply List.map_congr_left
    intro kv _
    show (String.ofList kv.1.toList, _) = _
    rw [String.ofList_toList]
    rfl

/-- C61 (round trip): if the nodes are sorted by entity, or have none, everything is read back in the same order, also point
data and periodic links. -/
theorem C61_roundtrip_sorted (io : GmshFloat F) (hz : io.parse ['0'] = some io.zero) (binary : Bool) (m : In F) (h : Msh4In io.lim m)
    (hs : ∀ dt, m.dimTags = some dt → dt.Pairwise fun a b => ¬ EntLt b a) :
    ∃ s out, Gmsh41.write io binary m = .ok s ∧ Gmsh41.read io s = .ok out ∧
      out.points = msh4Points io.zero m ∧ out.dimTags = msh4NodeOwners m ∧ out.cells = m.cells ∧
      out.pointData = m.pointData.map (fun kv => (kv.1, mshArrayOut kv.2)) ∧
      out.cellData = m.cellData.map (fun kv => (kv.1, (mshArrayOut (mshConcat kv.2)).tail, kv.2.map (·.rows))) ∧
      out.physical = (if m.dimTags.isSome then m.physical.getD [] else []) ∧
      out.geometrical = m.geometrical.getD (m.cells.map fun b => List.replicate b.2.length 0) ∧
      out.fieldData.Perm (m.fieldData.map fun kv => (kv.1, kv.2.getD 0 0, kv.2.getD 1 0)) ∧
      out.bounding = (if m.dimTags.isSome ∧ m.cells ≠ [] then
        some (m.cells.zipIdx.map fun bi => if 0 < dimOf bi.1.1 then some (msh4Bounds m bi.2) else none) else none) ∧
      out.periodic = m.periodic.map fun l => l.map msh4Periodic := by
  obtain ⟨names, s, hn, hw, hr⟩ := msh4_written io hz binary m h
  have hplen : (msh4Points io.zero m).length = m.points.length := by simp [msh4Points]
  have hown := length_owners io.lim m h
  have hsort : ∀ i j, i < j → j < m.points.length → ¬ EntLt ((msh4NodeOwners m).getD j (0, 0)) ((msh4NodeOwners m).getD i (0, 0)) := by
    intro i j hij hj
    have h1 : (msh4NodeOwners m).getD j (0, 0) = (msh4NodeOwners m)[j]'(by omega) := by
      rw [List.getD_eq_getElem?_getD, List.getElem?_eq_getElem (by omega)]; rfl
    have h2 : (msh4NodeOwners m).getD i (0, 0) = (msh4NodeOwners m)[i]'(by omega) := by
      rw [List.getD_eq_getElem?_getD, List.getElem?_eq_getElem (by omega)]; rfl
    rw [h1, h2]
    have hp : (msh4NodeOwners m).Pairwise fun a b => ¬ EntLt b a := by
      unfold msh4NodeOwners
      cases hdt : m.dimTags with
      | none =>
        rw [Option.getD_none]
        exact List.pairwise_replicate.2 (Or.inr (entLt_irrefl _))
      | some dt => exact hs dt hdt
    exact List.pairwise_iff_getElem.1 hp _ _ _ _ hij
  rw [file_mesh io.zero io.lim m h names] at hr
  have hat : ∀ {α : Type} (l : List α) (d : α), l.length = m.points.length → ((msh4Order m).map fun i => l.getD i d) = l := by
    intro α l d hl
    rw [order_id io.lim m h hsort]
    apply List.ext_getElem
    · simp [hl]
    · intro i h1 h2
      simp [h2]
  refine ⟨s, _, hw, hr, hat _ _ hplen, hat _ _ hown, ?_, rfl, rfl, rfl, rfl, msh4_names m names hn, rfl, rfl⟩
  simp only
  conv => rhs; rw [← List.map_id m.cells]
  apply List.map_congr_left
  intro b hb
  refine Prod.ext rfl ?_
  show b.2.map _ = b.2
  conv => rhs; rw [← List.map_id b.2]
  apply List.map_congr_left
  intro r hr
  show r.map _ = r
  conv => rhs; rw [← List.map_id r]
  apply List.map_congr_left
  intro z hz
  have := ((h.cells b hb).2.2 r hr).2 z hz
  show ((msh4Pos m z.toNat : Nat) : Int) = z
  rw [pos_id io.lim m h hsort z.toNat (by omega)]
  omega

/-- C61: without entities of the nodes only meshes of one block are written. -/
theorem C61_refuses_blocks (io : GmshFloat F) (binary : Bool) (m : In F) (h1 : m.dimTags = none) (h2 : m.cells.length ≠ 1) :
    Gmsh41.write io binary m = .error .writeError := by
  unfold Gmsh41.write writeEntities
  rw [h1]
  simp only
  unfold writeNodes nodeEntities
  rw [h1]
  match hc : m.cells with
  | [] => rfl
  | [b] => rw [hc] at h2; simp at h2
  | _ :: _ :: _ => rfl

/-- C61: entities of the nodes with other dimensions than zero to three are refused. -/
theorem C61_refuses_dimension (io : GmshFloat F) (binary : Bool) (m : In F) (dt : List (Int × Int)) (h1 : m.dimTags = some dt)
    (e : Int × Int) (he : e ∈ dt) (hd : e.1 < 0 ∨ 3 < e.1) : Gmsh41.write io binary m = .error .valueError := by
  unfold Gmsh41.write writeEntities
  rw [h1]
  simp only
  rw [if_pos]
  rw [List.any_eq_true]
  exact ⟨e, mem_pairUnique.2 he, decide_eq_true hd⟩

/-- C61: with entities of the nodes there must be geometrical tags. -/
theorem C61_refuses_geometrical (io : GmshFloat F) (binary : Bool) (m : In F) (dt : List (Int × Int)) (h1 : m.dimTags = some dt)
    (hd : ∀ e ∈ dt, 0 ≤ e.1 ∧ e.1 ≤ 3) (h2 : m.geometrical = none) (h3 : m.cells ≠ []) :
    Gmsh41.write io binary m = .error .keyError := by
  unfold Gmsh41.write writeEntities
  rw [h1]
  simp only
  rw [if_neg]
  · have : cellDimTags m = .error .keyError := by
      unfold cellDimTags
      cases hc : m.cells with
      | nil => exact absurd hc h3
      | cons b bs =>
        rw [List.zipIdx_cons, mapRes, h2]
        rfl
    rw [this]
  · rw [List.any_eq_true]
    rintro ⟨e, he, h0⟩
    have := hd e (mem_pairUnique.1 he)
    have := of_decide_eq_true h0
    omega

/-- C61: a block without physical tags whose entity some node belongs to is refused. -/
theorem C61_refuses_physical (io : GmshFloat F) (binary : Bool) (m : In F) (dt : List (Int × Int)) (h1 : m.dimTags = some dt)
    (hd : ∀ e ∈ dt, 0 ≤ e.1 ∧ e.1 ≤ 3) (l : List (List Int)) (hg : m.geometrical = some l) (hl : Msh4Tags m l) (hne : ∀ b ∈ m.cells, b.2 ≠ [])
    (hnd : (m.cells.zipIdx.map (msh4Owner m)).Nodup) (h2 : m.physical = none)
    (bi : (String × List (List Int)) × Nat) (hbi : bi ∈ m.cells.zipIdx) (hmem : msh4Owner m bi ∈ dt) :
    Gmsh41.write io binary m = .error .keyError := by
  unfold Gmsh41.write writeEntities
  rw [h1]
  simp only
  have hcdt : cellDimTags m = .ok (m.cells.zipIdx.map (msh4Owner m)) := by
    unfold cellDimTags
    apply mapRes_ok_of_forall
    intro bi hbi
    rw [hg, firstTag_ok m l hl hne bi hbi]
    simp only
    unfold msh4Owner
    rw [hg]
  rw [if_neg, hcdt]
  · simp only
    rw [Abaqus.mapRes_error_of _ .keyError]
    · intro e _
      apply writeEntity_cases io binary m _ e h2
      unfold matching
      rw [List.length_map]
      have := filter_nodup_le (fun x : (Int × Int) × Nat => x.1) (m.cells.zipIdx.map (msh4Owner m)).zipIdx (by
        rw [Abaqus.map_zipIdx_fst (fun x : Int × Int => x), List.map_id']
        exact hnd) e
      exact this
    · refine ⟨msh4Owner m bi, mem_pairUnique.2 hmem, ?_⟩
      unfold writeEntity
      have hle : (matching (m.cells.zipIdx.map (msh4Owner m)) (msh4Owner m bi)).length ≤ 1 := by
        unfold matching
        rw [List.length_map]
        exact filter_nodup_le (fun x : (Int × Int) × Nat => x.1) (m.cells.zipIdx.map (msh4Owner m)).zipIdx (by
          rw [Abaqus.map_zipIdx_fst (fun x : Int × Int => x), List.map_id']
          exact hnd) (msh4Owner m bi)
      rw [if_neg (by omega)]
      have hin : bi.2 ∈ matching (m.cells.zipIdx.map (msh4Owner m)) (msh4Owner m bi) := by
        unfold matching
        refine List.mem_map.2 ⟨(msh4Owner m bi, bi.2), List.mem_filter.2 ⟨?_, by simp⟩, rfl⟩
        rw [List.mem_zipIdx_iff_getElem?, List.getElem?_map]
        have := List.mem_zipIdx_iff_getElem?.1 hbi
        have hz : m.cells.zipIdx[bi.2]? = some bi := by
          rw [List.getElem?_zipIdx, this]
          simp
        rw [hz]
        rfl
      cases hm : matching (m.cells.zipIdx.map (msh4Owner m)) (msh4Owner m bi) with
      | nil => rw [hm] at hin; simp at hin
      | cons k ks =>
        simp only [List.head?_cons]
        rw [h2]
        rfl
  · rw [List.any_eq_true]
    rintro ⟨e, he, h0⟩
    have := hd e (mem_pairUnique.1 he)
    have := of_decide_eq_true h0
    omega

/-! ### Examples -/

/-- A file with two entities, four nodes with unordered numbers, two triangles and a line, data and an unknown section. -/
def msh4Example : Msh4File Word where
  pre := [.names [(2, 9, "skin".toList), (1, 8, "my edge".toList)]]
  ents := some [⟨2, 1, List.replicate 6 (Word.of 0), [7, 9], [5]⟩, ⟨1, 5, List.replicate 6 (Word.of 0), [8], [1, -2]⟩]
  mid0 := [.other "Foo".toList ["1 2".toList]]
  nodes := [⟨1, 5, [(10, [Word.of 0, Word.of 0, Word.of 0]), (3, [Word.of 1, Word.of 0, Word.of 0])]⟩,
    ⟨2, 1, [(25, [Word.of 1, Word.of 1, Word.of 0]), (4, [Word.of 0, Word.of 1, Word.of 0])]⟩]
  nodeRange := (3, 25)
  mid := []
  blocks := [⟨2, 1, "triangle", [(5, [0, 1, 2]), (9, [0, 2, 3])]⟩, ⟨1, 5, "line", [(2, [1, 0])]⟩]
  elemRange := (2, 9)
  post := [.periodic [⟨1, 5, 6, some [], [(2, 9)]⟩],
    .nodeData [10, 3, 25, 4] ⟨"u".toList, [], ["0.0".toList], 0, [], 1, [[Word.of 1], [Word.of 2], [Word.of 3], [Word.of 4]]⟩,
    .elemData [5, 9, 2] ⟨"v".toList, [], [], 0, [], 3, [[Word.of 1, Word.of 2, Word.of 3], [Word.of 4, Word.of 5, Word.of 6], [Word.of 7, Word.of 8, Word.of 9]]⟩]

theorem msh4Example_ok : msh4Example.Ok GmshFloat.word.lim true 8 := by
  refine ⟨by decide, ?_, ⟨by decide, by decide, by decide, by decide⟩, ?_, Or.inr (by decide), ?_, ⟨by decide, by decide⟩, ⟨by decide, by decide⟩,
    ⟨by decide, by decide, by decide⟩, by decide⟩
  · intro l hl
    cases hl
    refine ⟨?_, by decide⟩
    intro e he
    simp only [List.mem_cons, List.not_mem_nil, or_false] at he
    rcases he with rfl | rfl <;> exact ⟨by decide, by decide, by decide⟩
  · intro b hb
    simp only [msh4Example, List.mem_cons, List.not_mem_nil, or_false] at hb
    rcases hb with rfl | rfl <;> exact ⟨by decide, by decide +kernel, by decide +kernel, by decide, by decide⟩
  · intro x hx
    simp only [msh4Example, Msh4File.secs, List.cons_append, List.nil_append, List.append_nil, List.mem_cons, List.not_mem_nil, or_false] at hx
    rcases hx with rfl | rfl | rfl | rfl | rfl
    · show ∀ e ∈ _, _
      decide
    · exact ⟨⟨by decide, by decide⟩, by decide, by decide⟩
    · show ∀ p ∈ _, _
      decide
    · exact ⟨⟨⟨by decide, by decide⟩, by decide, by decide, ⟨by decide, by decide⟩⟩, ⟨by decide, (by rw [if_pos rfl]; decide)⟩⟩
    · exact ⟨⟨⟨by decide, by decide⟩, by decide, by decide, ⟨by decide, by decide⟩⟩, ⟨by decide, (by rw [if_pos rfl]; decide)⟩⟩

theorem msh4Example_inOrder : msh4InOrder msh4Example := by
  constructor
  · intro nums d hx
    simp [msh4Example, Msh4File.secs] at hx
    rw [hx.1]
    decide
  · intro nums d hx
    simp [msh4Example, Msh4File.secs] at hx
    rw [hx.1]
    decide

example : ∃ out, Gmsh41.read GmshFloat.word (msh4Example.text GmshFloat.word true 8) = .ok out ∧
    out.cells = [("triangle", [[0, 1, 2], [0, 2, 3]]), ("line", [[1, 0]])] ∧ out.fieldData = [("skin", 9, 2), ("my edge", 8, 1)] ∧
    out.physical = [[7, 7], [8]] ∧ out.sets = [("skin", [[0, 1], []]), ("my edge", [[], [0]])] ∧ out.bounding = some [some [5], some [1, -2]] :=
  ⟨_, C60_read GmshFloat.word true 8 msh4Example msh4Example_ok msh4Example_inOrder _ (C60_text _ true 8 _ (by simp)),
    by decide +kernel, by decide +kernel, by decide +kernel, by decide +kernel, by decide +kernel⟩

/-- Every description has such texts: the refusals above are about files that exist. -/
theorem msh4_until_text (io : GmshFloat F) (k : Nat) (f : Msh4File F) (bad : List (Tok F)) : ∃ s, Msh4Until io true k f bad s := by
  have ha : ∀ {p : Prop}, true = false → p := fun h => by cases h
  have hstream := piece_text io true k ([.size (f.blocks.length + 1), .size 0, .size 0, .size 0] ++ f.blocks.flatMap (Msh4Block.toks f.ids) ++ bad) ha
    [] ['\n'] [] ⟨['\n'], by decide, rfl⟩
  rw [List.append_nil] at hstream
  have hmid := secs_text io true k f.mid ha ('$' :: "Elements".toList ++ '\n' :: (([.size (f.blocks.length + 1), .size 0, .size 0, .size 0] ++
    f.blocks.flatMap (Msh4Block.toks f.ids) ++ bad : List (Tok F)).flatMap (Tok.text io true k) ++ ['\n']))
  have hent : ∀ s3, ∃ s2, (match f.ents with
      | none => s2 = s3
      | some l => NumSec io true k "Entities" (msh4Entities l) s2 s3) := by
    intro s3
    cases f.ents with
    | none => exact ⟨_, rfl⟩
    | some l => exact ⟨_, numSec_text io true k "Entities" _ ha s3⟩
  have hnodes := fun r => numSec_text io true k "Nodes" f.nodeToks ha r
  obtain ⟨s2, h2⟩ := hent (f.mid0.flatMap (Msh4Sec.text io true k) ++ (numSecText io true k "Nodes" f.nodeToks ++ (f.mid.flatMap (Msh4Sec.text io true k) ++
    ('$' :: "Elements".toList ++ '\n' :: (([.size (f.blocks.length + 1), .size 0, .size 0, .size 0] ++
    f.blocks.flatMap (Msh4Block.toks f.ids) ++ bad : List (Tok F)).flatMap (Tok.text io true k) ++ ['\n'])))))
  exact ⟨_, _, s2, _, _, _, _, [], f.blocks.length + 1, 0, 0, 0, rfl, secs_text io true k f.pre ha s2, h2, secs_text io true k f.mid0 ha _,
    hnodes _, hmid, by omega, hstream⟩

example : ∃ s, Msh4Until GmshFloat.word true 8 msh4Example [.int 2, .int 1, .int 999, .size 1] s ∧ Gmsh41.read GmshFloat.word s = .error .keyError := by
  obtain ⟨s, hs⟩ := msh4_until_text GmshFloat.word 8 msh4Example [.int 2, .int 1, .int 999, .size 1]
  exact ⟨s, hs, C60_refuses_type GmshFloat.word true 8 msh4Example msh4Example_ok 2 1 999 1 (by decide +kernel) s hs⟩

example : ∃ s, Msh4Until GmshFloat.word true 8 msh4Example [.int 2, .int 1, .int (gmshCode "quad"), .size 0] s ∧
    Gmsh41.read GmshFloat.word s = .error .valueError := by
  obtain ⟨s, hs⟩ := msh4_until_text GmshFloat.word 8 msh4Example [.int 2, .int 1, .int (gmshCode "quad"), .size 0]
  exact ⟨s, hs, C60_refuses_empty_block GmshFloat.word true 8 msh4Example msh4Example_ok 2 1 "quad" (by decide +kernel) (by decide +kernel) s hs⟩

example : ∃ s, Msh4Until GmshFloat.word true 8 msh4Example ([.int (2 : Nat), .int 77, .int (gmshCode "triangle"), .size 1] ++ [1, 10, 3, 4].map .size) s ∧
    Gmsh41.read GmshFloat.word s = .error .keyError := by
  obtain ⟨s, hs⟩ := msh4_until_text GmshFloat.word 8 msh4Example ([.int (2 : Nat), .int 77, .int (gmshCode "triangle"), .size 1] ++ [1, 10, 3, 4].map .size)
  exact ⟨s, hs, C60_refuses_missing_entity GmshFloat.word true 8 msh4Example msh4Example_ok _ rfl 2 77 (by decide) (by decide) "triangle"
    (by decide +kernel) 3 (by decide +kernel) 1 (by decide) [1, 10, 3, 4] (by decide) s hs⟩

example : Gmsh41.read GmshFloat.word (msh4Header true 8 ++ msh4Example.pre.flatMap (Msh4Sec.text GmshFloat.word true 8)) = .error .readError := by
  have hs := secs_text GmshFloat.word true 8 msh4Example.pre (fun h => by cases h) []
  rw [List.append_nil] at hs
  refine C60_refuses_no_elements GmshFloat.word true 8 4 3 (by decide) msh4Example.pre ?_ _ hs
  intro x hx
  exact msh4Example_ok.secs x (by unfold Msh4File.secs; simp [hx])

/-- A mesh of the plane with two blocks; the nodes are not sorted by entity. -/
def msh4Mesh : In Word where
  dim := 2
  points := [[Word.of 0, Word.of 0], [Word.of 1, Word.of 0], [Word.of 1, Word.of 1], [Word.of 0, Word.of 1]]
  cells := [("triangle", [[0, 1, 2], [0, 2, 3]]), ("line", [[0, 1]])]
  pointData := [("u", ⟨[], [[Word.of 1], [Word.of 2], [Word.of 3], [Word.of 4]]⟩)]
  dimTags := some [(2, 1), (1, 5), (1, 5), (2, 1)]
  physical := some [[7, 7], [8]]
  geometrical := some [[1, 1], [5]]
  cellData := [("v", [⟨[3], [[Word.of 1, Word.of 2, Word.of 3], [Word.of 4, Word.of 5, Word.of 6]]⟩, ⟨[3], [[Word.of 7, Word.of 8, Word.of 9]]⟩])]
  fieldData := []
  bounding := some [some [5], some [1, -2]]
  periodic := some [⟨1, 5, 6, none, [(0, 1)]⟩]

theorem msh4Mesh_in : Msh4In GmshFloat.word.lim msh4Mesh := by
  refine ⟨⟨by decide, Or.inr ⟨by decide, by decide⟩⟩, by decide +kernel, by decide +kernel, ?_, by decide, ?_, ?_, ⟨by decide, ?_⟩, ⟨by decide, ?_⟩,
    ⟨by decide, by decide⟩, ?_, by decide⟩
  · rintro l (h | h) <;> cases h
    · exact ⟨by decide, by decide⟩
    · exact ⟨by decide, by decide⟩
  · intro dt h
    cases h
    exact ⟨by decide, by decide, by decide, by decide, by decide, by decide⟩
  · intro l _ h
    cases h
    refine ⟨by decide, ?_⟩
    intro bi hbi _
    have : bi = (("triangle", [[0, 1, 2], [0, 2, 3]]), 0) ∨ bi = (("line", [[0, 1]]), 1) := by
      simpa [msh4Mesh] using hbi
    rcases this with rfl | rfl
    · exact ⟨[5], rfl, by decide, by decide⟩
    · exact ⟨[1, -2], rfl, by decide, by decide⟩
  · intro kv hkv
    simp only [msh4Mesh, List.mem_singleton] at hkv
    subst hkv
    exact ⟨by decide, by decide, ⟨by decide, by decide, by decide⟩⟩
  · intro kv hkv
    simp only [msh4Mesh, List.mem_singleton] at hkv
    subst hkv
    exact ⟨by decide, by decide, by decide, by decide, by decide, ⟨by decide, by decide, by decide⟩⟩
  · intro l h
    cases h
    exact ⟨by decide, by decide⟩

theorem msh4_zero : GmshFloat.word.parse ['0'] = some GmshFloat.word.zero := by decide +kernel

/-- What is read of the example. -/
theorem msh4Mesh_read (binary : Bool) : ∃ s, Gmsh41.write GmshFloat.word binary msh4Mesh = .ok s ∧
    Gmsh41.read GmshFloat.word s = .ok (msh4File GmshFloat.word.zero msh4Mesh []).mesh := by
  obtain ⟨names, s, h1, h2, h3⟩ := msh4_written GmshFloat.word msh4_zero binary msh4Mesh msh4Mesh_in
  have : names = [] := h1.eq_nil
  subst this
  exact ⟨s, h2, h3⟩

example (binary : Bool) : ∃ s out, Gmsh41.write GmshFloat.word binary msh4Mesh = .ok s ∧ Gmsh41.read GmshFloat.word s = .ok out ∧
    out.cells = [("triangle", [[2, 0, 1], [2, 1, 3]]), ("line", [[2, 0]])] ∧ out.physical = [[7, 7], [8]] ∧
    out.bounding = some [some [5], some [1, -2]] := by
  obtain ⟨s, h1, h2⟩ := msh4Mesh_read binary
  exact ⟨s, _, h1, h2, by decide +kernel, by decide +kernel, by decide +kernel⟩

/-- The example with its nodes sorted. -/
def msh4Sorted : In Word := { msh4Mesh with dimTags := some [(1, 5), (1, 5), (2, 1), (2, 1)] }

theorem msh4Sorted_in : Msh4In GmshFloat.word.lim msh4Sorted := by
  have h := msh4Mesh_in
  refine ⟨h.points, h.cells, h.known, h.tags, by decide, ?_, fun l _ => h.bounds l rfl, h.pointData, h.cellData, h.fieldData, h.periodic, h.size⟩
  intro dt h
  cases h
  exact ⟨by decide, by decide, by decide, by decide, by decide, by decide⟩

example (binary : Bool) : ∃ s out, Gmsh41.write GmshFloat.word binary msh4Sorted = .ok s ∧ Gmsh41.read GmshFloat.word s = .ok out ∧
    out.cells = msh4Mesh.cells := by
  obtain ⟨s, out, h1, h2, -, -, h3, -⟩ := C61_roundtrip_sorted GmshFloat.word msh4_zero binary msh4Sorted msh4Sorted_in (by
    intro dt h
    cases h
    unfold EntLt
    decide)
  exact ⟨s, out, h1, h2, h3⟩

example : Gmsh41.write GmshFloat.word false { msh4Mesh with dimTags := none } = .error .writeError :=
  C61_refuses_blocks GmshFloat.word false { msh4Mesh with dimTags := none } rfl (by decide)

example : Gmsh41.write GmshFloat.word true { msh4Mesh with geometrical := none } = .error .keyError :=
  C61_refuses_geometrical GmshFloat.word true { msh4Mesh with geometrical := none } _ rfl (by decide) rfl (by decide)

example : Gmsh41.write GmshFloat.word true { msh4Mesh with physical := none } = .error .keyError :=
  C61_refuses_physical GmshFloat.word true { msh4Mesh with physical := none } _ rfl (by decide) _ rfl ⟨by decide, by decide⟩ (by decide) (by decide) rfl
    (("triangle", [[0, 1, 2], [0, 2, 3]]), 0) (by decide) (by decide)

/-! ### What does not hold -/

/-- The full statement of C61: also point data is kept, whatever the order of the nodes. -/
def C61_pointdata_statement : Prop :=
  ∀ (binary : Bool) (m : In Word), Msh4In GmshFloat.word.lim m → ∃ s out, ∃ pos : Nat → Nat, Gmsh41.write GmshFloat.word binary m = .ok s ∧
    Gmsh41.read GmshFloat.word s = .ok out ∧ (∀ i, i < m.points.length → out.points[pos i]? = (msh4Points GmshFloat.word.zero m)[i]?) ∧
    ∀ kv ∈ m.pointData, ∃ a, Dict.get? out.pointData kv.1 = some a ∧ ∀ i, i < m.points.length → a.rows[pos i]? = kv.2.rows[i]?

/-- It does not hold: the nodes are sorted by entity, the point data is not. -/
theorem C61_pointdata_false : ¬ C61_pointdata_statement := by
  intro h
  obtain ⟨s, out, pos, h1, h2, h3, h4⟩ := h false msh4Mesh msh4Mesh_in
  obtain ⟨s', h1', h2'⟩ := msh4Mesh_read false
  rw [h1] at h1'
  cases h1'
  rw [h2] at h2'
  cases h2'
  obtain ⟨a, ha, hrows⟩ := h4 _ (List.mem_singleton.2 rfl)
  have e : Dict.get? (msh4File GmshFloat.word.zero msh4Mesh []).mesh.pointData "u" =
    some ⟨[], [[Word.of 1], [Word.of 2], [Word.of 3], [Word.of 4]]⟩ := by decide +kernel
  have ha : Dict.get? (msh4File GmshFloat.word.zero msh4Mesh []).mesh.pointData "u" = some a := ha
  rw [e] at ha
  cases ha
  have p0 := h3 0 (by decide)
  have r0 := hrows 0 (by decide)
  have q : (msh4File GmshFloat.word.zero msh4Mesh []).mesh.points = [[Word.of 1, Word.of 0, Word.of 0], [Word.of 1, Word.of 1, Word.of 0],
    [Word.of 0, Word.of 0, Word.of 0], [Word.of 0, Word.of 1, Word.of 0]] := by decide +kernel
  rw [q] at p0
  have hp : (msh4Points GmshFloat.word.zero msh4Mesh)[0]? = some [Word.of 0, Word.of 0, Word.of 0] := by decide +kernel
  rw [hp] at p0
  rcases hk : pos 0 with _ | _ | _ | _ | k
  · rw [hk] at p0; exact absurd p0 (by decide +kernel)
  · rw [hk] at p0; exact absurd p0 (by decide +kernel)
  · rw [hk] at r0; exact absurd r0 (by decide +kernel)
  · rw [hk] at p0; exact absurd p0 (by decide +kernel)
  · rw [hk] at p0; cases p0

/-- The full statement of C61 for periodic links: they connect the same points. -/
def C61_periodic_statement : Prop :=
  ∀ (binary : Bool) (m : In Word), Msh4In GmshFloat.word.lim m → ∃ s out, ∃ pos : Nat → Nat, Gmsh41.write GmshFloat.word binary m = .ok s ∧
    Gmsh41.read GmshFloat.word s = .ok out ∧ (∀ i, i < m.points.length → out.points[pos i]? = (msh4Points GmshFloat.word.zero m)[i]?) ∧
    ∀ l, m.periodic = some l → out.periodic.map (fun l' => l'.map (·.pairs)) =
      some (l.map fun p => p.pairs.map fun q => ((pos q.1.toNat : Int), (pos q.2.toNat : Int)))

/-- It does not hold: links are read as node numbers minus one. -/
theorem C61_periodic_false : ¬ C61_periodic_statement := by
  intro h
  obtain ⟨s, out, pos, h1, h2, h3, h4⟩ := h false msh4Mesh msh4Mesh_in
  obtain ⟨s', h1', h2'⟩ := msh4Mesh_read false
  rw [h1] at h1'
  cases h1'
  rw [h2] at h2'
  cases h2'
  have h5 := h4 _ rfl
  have e : (msh4File GmshFloat.word.zero msh4Mesh []).mesh.periodic.map (fun l' => l'.map (·.pairs)) = some [[(0, 1)]] := by decide +kernel
  rw [e] at h5
  have h5 : some [[((0 : Int), (1 : Int))]] = some [[((pos 0 : Int), (pos 1 : Int))]] := h5
  have hp0 : pos 0 = 0 := by simp at h5; omega
  have p0 := h3 0 (by decide)
  rw [hp0] at p0
  exact absurd p0 (by decide +kernel)

/-- A line whose entity no node belongs to. -/
def msh4Unlisted : In Word where
  dim := 3
  points := [[Word.of 0, Word.of 0, Word.of 0], [Word.of 1, Word.of 0, Word.of 0]]
  cells := [("line", [[0, 1]])]
  pointData := []
  dimTags := some [(0, 1), (0, 2)]
  physical := some [[7]]
  geometrical := some [[5]]
  cellData := []
  fieldData := []
  bounding := none
  periodic := none

/-- The full statement of C61: what is written can be read. -/
def C61_readable_statement : Prop :=
  ∀ (m : In Word) s, Gmsh41.write GmshFloat.word false m = .ok s → ∃ out, Gmsh41.read GmshFloat.word s = .ok out

/-- It does not hold: only the entities that nodes belong to are written; the file of a line with both its nodes on points is
refused by the reader. -/
theorem C61_readable_false : ¬ C61_readable_statement := by
  intro h
  have h1 : (Gmsh41.write GmshFloat.word false msh4Unlisted).bind (fun s => (Gmsh41.read GmshFloat.word s).map fun _ => ()) = .error .keyError := by
    decide +kernel
  cases hw : Gmsh41.write GmshFloat.word false msh4Unlisted with
  | error e =>
    have : (Gmsh41.write GmshFloat.word false msh4Unlisted).toOption.isSome = true := by decide +kernel
    rw [hw] at this
    cases this
  | ok s =>
    obtain ⟨out, ho⟩ := h _ s hw
    rw [hw] at h1
    simp only [Except.bind, ho, Except.map] at h1
    cases h1

/-- A file of one line, two nodes with the numbers 1 and 3; the element lists `k`. -/
def msh4Missing (k : Nat) : List Char :=
  msh4Header true 8 ++ linesText ["$Nodes".toList, "1 2 1 3".toList, "1 1 0 2".toList, "1 3".toList, "0 0 0".toList, "1 1 1".toList, "$EndNodes".toList,
    "$Elements".toList, "1 1 1 1".toList, "1 1 1 1".toList, "1 1 ".toList ++ fmtNat k, "$EndElements".toList]

/-- The full statement of C31 for Gmsh 4.1: a number that no node carries is refused. -/
def C31_gmsh41_missing_statement : Prop :=
  ∀ k : Nat, k ≠ 1 → k ≠ 3 → ∃ e, Gmsh41.read GmshFloat.word (msh4Missing k) = .error e

/-- It does not hold: the number 2 gets the index −1. -/
theorem C31_gmsh41_missing_false : ¬ C31_gmsh41_missing_statement := by
  intro h
  obtain ⟨e, he⟩ := h 2 (by omega) (by omega)
  have : (Gmsh41.read GmshFloat.word (msh4Missing 2)).toOption.map (·.cells) = some [("line", [[0, -1]])] := by decide +kernel
  rw [he] at this
  cases this

/-- The full statement of C32 for Gmsh 4.1: a value belongs to the node whose number stands before it. -/
def C32_gmsh41_statement : Prop :=
  ∀ (f : Msh4File Word) (s : List Char) out nums d, f.Ok GmshFloat.word.lim true 8 → f.Says GmshFloat.word true 8 s → Gmsh41.read GmshFloat.word s = .ok out →
    .nodeData nums d ∈ f.secs → nums.Perm (f.ids.map Int.ofNat) → ∃ a, Dict.get? out.pointData (String.ofList d.name) = some a ∧
      ∀ i, i < f.ids.length → ∀ j : Nat, nums[j]? = some ((f.ids.getD i 0 : Nat) : Int) → a.rows[i]? = d.rows[j]?

/-- A file with values for the nodes 2 and 1, in this order. -/
def msh4Swapped : Msh4File Word where
  pre := []
  ents := none
  mid0 := []
  nodes := [⟨1, 1, [(1, [Word.of 0, Word.of 0, Word.of 0]), (2, [Word.of 1, Word.of 0, Word.of 0])]⟩]
  nodeRange := (1, 2)
  mid := []
  blocks := [⟨1, 1, "line", [(1, [0, 1])]⟩]
  elemRange := (1, 1)
  post := [.nodeData [2, 1] ⟨"u".toList, [], [], 0, [], 1, [[Word.of 20], [Word.of 10]]⟩]

theorem msh4Swapped_ok : msh4Swapped.Ok GmshFloat.word.lim true 8 := by
  refine ⟨by decide, (by intro l hl; cases hl), ⟨by decide, by decide, by decide, by decide⟩, ?_, Or.inl (by decide), ?_, ⟨by decide, by decide⟩,
    ⟨by decide, by decide⟩, ⟨by decide, by decide, by decide⟩, by decide⟩
  · intro b hb
    simp only [msh4Swapped, List.mem_cons, List.not_mem_nil, or_false] at hb
    subst hb
    exact ⟨by decide, by decide +kernel, by decide +kernel, by decide, by decide⟩
  · intro x hx
    simp only [msh4Swapped, Msh4File.secs, List.nil_append, List.append_nil, List.mem_cons, List.not_mem_nil, or_false] at hx
    subst hx
    exact ⟨⟨⟨by decide, by decide⟩, by decide, by decide, ⟨by decide, by decide⟩⟩, ⟨by decide, (by rw [if_pos rfl]; decide)⟩⟩

/-- It does not hold: values are taken in the order in which they are listed. -/
theorem C32_gmsh41_false : ¬ C32_gmsh41_statement := by
  intro h
  have hs := C60_text GmshFloat.word true 8 msh4Swapped (by simp)
  obtain ⟨a, ha, hr⟩ := h msh4Swapped _ _ [2, 1] ⟨"u".toList, [], [], 0, [], 1, [[Word.of 20], [Word.of 10]]⟩ msh4Swapped_ok hs
    (read_ok GmshFloat.word true 8 msh4Swapped msh4Swapped_ok _ hs) (by simp [msh4Swapped, Msh4File.secs]) (by decide)
  have e : Dict.get? msh4Swapped.mesh.pointData "u" = some ⟨[], [[Word.of 20], [Word.of 10]]⟩ := by decide +kernel
  have ha : Dict.get? msh4Swapped.mesh.pointData "u" = some a := ha
  rw [e] at ha
  cases ha
  have := hr 0 (by decide) 1 (by decide)
  exact absurd this (by decide +kernel)

end Meshio.Props
