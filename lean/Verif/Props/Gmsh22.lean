/-
C30, C32 and C31 (for Gmsh): files of version 2.2.
-/
import Verif.Proofs.Gmsh22W
namespace Meshio.Props
open Types Tables Spec Gmsh Gmsh22

variable {F : Type}

/-- The element of row `ri`. -/
theorem mshChunks_flatten (tags : List (List Int)) (start : Nat) (cells : List (String × List (List Int))) :
    (mshChunks tags start cells).flatten =
      ((rowsOf cells).zipIdx start).map fun ri => ⟨1 + (ri.2 : Int), ri.1.1, tags.map fun c => c.getD ri.2 0, ri.1.2.map Int.toNat⟩ := by
  induction cells generalizing start with
  | nil => rfl
  | cons b cells ih =>
    obtain ⟨t, rows⟩ := b
    have e : rowsOf ((t, rows) :: cells) = rows.map (fun r => (t, r)) ++ rowsOf cells := by
      simp [rowsOf]
    rw [mshChunks_cons, List.flatten_cons, ih, e, List.zipIdx_append, List.map_append, List.length_map]
    congr 1
    unfold blockElems
    apply List.ext_getElem
    · simp
    · intro i h1 h2
      simp

theorem mem_rowsOf {β : Type} {cells : List (String × List β)} {p : String × β} (h : p ∈ rowsOf cells) :
    ∃ b ∈ cells, b.1 = p.1 ∧ p.2 ∈ b.2 := by
  unfold rowsOf at h
  obtain ⟨b, hb, hp⟩ := List.mem_flatMap.1 h
  obtain ⟨r, hr, rfl⟩ := List.mem_map.1 hp
  exact ⟨b, hb, rfl, hr⟩

theorem isInt_nat {n : Nat} (h : n < 2 ^ 31) : IsInt 4 (n : Int) := by
  unfold IsInt
  have : (256 ^ 4 : Nat) = 4294967296 := by decide
  rw [this]
  omega

theorem mshTag_int (lim : Nat) (m : In F) (h : MshIn lim m) (o : Option (List (List Int))) (ho : o = m.physical ∨ o = m.geometrical) :
    (mshTag m o).map (·.length) = m.cells.map (·.2.length) ∧ ∀ x ∈ mshTag m o, ∀ z ∈ x, IsInt 4 z := by
  unfold mshTag
  cases hoo : o with
  | none =>
    refine ⟨by simp, ?_⟩
    intro x hx z hz
    simp only [Option.getD_none] at hx
    obtain ⟨b, -, rfl⟩ := List.mem_map.1 hx
    rw [List.mem_replicate] at hz
    rw [hz.2]
    decide
  | some l =>
    refine h.tags l ?_
    rcases ho with ho | ho <;> rw [← ho, hoo] <;> simp

theorem mshTags_int (lim : Nat) (m : In F) (h : MshIn lim m) : ∀ c ∈ mshTags m, c.length = (rowsOf m.cells).length ∧ ∀ z ∈ c, IsInt 4 z := by
  have key : ∀ l : List (List Int), (l.map (·.length) = m.cells.map (·.2.length) ∧ ∀ x ∈ l, ∀ z ∈ x, IsInt 4 z) →
      l.flatten.length = (rowsOf m.cells).length ∧ ∀ z ∈ l.flatten, IsInt 4 z := by
    rintro l ⟨h1, h2⟩
    refine ⟨by rw [List.length_flatten, h1, length_rowsOf], ?_⟩
    intro z hz
    obtain ⟨x, hx, hzx⟩ := List.mem_flatten.1 hz
    exact h2 x hx z hzx
  intro c hc
  unfold mshTags at hc
  obtain ⟨l, hl, rfl⟩ := List.mem_map.1 hc
  rcases List.mem_append.1 hl with hl | hl
  · simp only [List.mem_cons, List.not_mem_nil, or_false] at hl
    rcases hl with rfl | rfl
    · exact key _ (mshTag_int lim m h _ (Or.inl rfl))
    · exact key _ (mshTag_int lim m h _ (Or.inr rfl))
  · exact key _ (h.tags l (by simp only [List.mem_append]; right; exact hl))

/-- The elements of the file of a mesh. -/
theorem mshFile_elems (zero : F) (m : In F) (names : List (Int × Int × List Char)) :
    (mshFile zero m names).elems = (rowsOf m.cells).zipIdx.map
      fun ri => ⟨1 + (ri.2 : Int), ri.1.1, (mshTags m).map fun c => c.getD ri.2 0, ri.1.2.map Int.toNat⟩ :=
  mshChunks_flatten (mshTags m) 0 m.cells

theorem getD_isInt (c : List Int) (i : Nat) (h : ∀ z ∈ c, IsInt 4 z) : IsInt 4 (c.getD i 0) := by
  rw [List.getD_eq_getElem?_getD]
  cases hc : c[i]? with
  | none => exact (by decide : IsInt 4 0)
  | some z => exact h z (List.mem_of_getElem? hc)

theorem length_mshTags (m : In F) : 2 ≤ (mshTags m).length ∧ (mshTags m).length ≤ 3 := by
  unfold mshTags
  cases m.cellTags <;> simp

theorem mshFile_nodeData (zero : F) (m : In F) (names : List (Int × Int × List Char)) :
    (mshFile zero m names).nodeData = m.pointData.map fun kv => mshData kv.1 kv.2 := by
  unfold MshFile.nodeData MshFile.secs mshFile
  simp only [List.append_nil, List.filterMap_append, List.filterMap_map]
  have e1 : (if names = [] then [] else [MshSec.names (F := F) names]).filterMap MshSec.nodeData? = [] := by
    split <;> rfl
  have e2 : m.periodic.toList.filterMap (MshSec.nodeData? ∘ MshSec.periodic (F := F)) = [] := by
    cases m.periodic <;> rfl
  have e3 : m.cellData.filterMap (MshSec.nodeData? ∘ fun kv => MshSec.elemData (mshData kv.1 (mshConcat kv.2))) = [] := by
    rw [List.filterMap_eq_nil_iff]; intro a _; rfl
  have e4 : m.pointData.filterMap (MshSec.nodeData? ∘ fun kv => MshSec.nodeData (mshData kv.1 kv.2)) =
      m.pointData.map fun kv => mshData kv.1 kv.2 := by
    rw [← List.filterMap_eq_map]; rfl
  rw [e1, e2, e3, e4]; simp


theorem mshFile_elemData (zero : F) (m : In F) (names : List (Int × Int × List Char)) :
    (mshFile zero m names).elemData = m.cellData.map fun kv => mshData kv.1 (mshConcat kv.2) := by
  unfold MshFile.elemData MshFile.secs mshFile
  simp only [List.append_nil, List.filterMap_append, List.filterMap_map]
  have e1 : (if names = [] then [] else [MshSec.names (F := F) names]).filterMap MshSec.elemData? = [] := by
    split <;> rfl
  have e2 : m.periodic.toList.filterMap (MshSec.elemData? ∘ MshSec.periodic (F := F)) = [] := by
    cases m.periodic <;> rfl
  have e3 : m.pointData.filterMap (MshSec.elemData? ∘ fun kv => MshSec.nodeData (mshData kv.1 kv.2)) = [] := by
    rw [List.filterMap_eq_nil_iff]; intro a _; rfl
  have e4 : m.cellData.filterMap (MshSec.elemData? ∘ fun kv => MshSec.elemData (mshData kv.1 (mshConcat kv.2))) =
      m.cellData.map fun kv => mshData kv.1 (mshConcat kv.2) := by
    rw [← List.filterMap_eq_map]; rfl
  rw [e1, e2, e3, e4]; simp


theorem mshFile_names (zero : F) (m : In F) (names : List (Int × Int × List Char)) :
    (mshFile zero m names).names = names := by
  unfold MshFile.names MshFile.secs mshFile
  simp only [List.append_nil, List.flatMap_append, List.flatMap_map]
  have e1 : (if names = [] then [] else [MshSec.names (F := F) names]).flatMap MshSec.name? = names := by
    split
    · next h => rw [h]; rfl
    · simp [MshSec.name?]
  have e2 : m.periodic.toList.flatMap (fun x => MshSec.name? (MshSec.periodic (F := F) x)) = [] := by
    cases m.periodic <;> rfl
  rw [e1, e2]
  simp [MshSec.name?]


theorem mshFile_ok (zero : F) (lim : Nat) (m : In F) (h : MshIn lim m) (names : List (Int × Int × List Char))
    (hn : names.Perm (m.fieldData.map mshEntry)) : (mshFile zero m names).Ok lim := by
  have hlen : (mshPoints zero m).length = m.points.length := by simp [mshPoints]
  have hel := mshFile_elems zero m names
  have hnd := mshFile_nodeData zero m names
  have hed := mshFile_elemData zero m names
  have hnn := mshFile_names zero m names
  have hkeys : ∀ {α : Type} (d : Dict α), (d.map (·.1)).Nodup → (d.map fun kv => kv.1.toList).Nodup := by
    intro α d hd
    have := nodup_ofList (fun s : String => s.toList) (d.map (·.1))
    induction d with
    | nil => exact List.nodup_nil
    | cons kv d ih =>
      rw [List.map_cons, List.nodup_cons] at hd ⊢
      refine ⟨?_, ih hd.2 (nodup_ofList (fun s : String => s.toList) _)⟩
      intro hm
      obtain ⟨x, hx, he⟩ := List.mem_map.1 hm
      exact hd.1 (List.mem_map.2 ⟨x, hx, String.toList_inj.1 he⟩)
  refine ⟨⟨numbersFrom_nodup 1 _, ?_⟩, ⟨?_, ?_, (pad_points zero m h.points.2).2⟩, ?_, ?_, ?_, ?_, ?_, ?_, ?_⟩
  · intro i hi
    change i ∈ numbersFrom 1 m.points.length at hi
    unfold numbersFrom at hi
    obtain ⟨k, hk, rfl⟩ := List.mem_map.1 hi
    have := List.mem_range.1 hk
    obtain ⟨s1, s2, s3, s4⟩ := h.size
    refine ⟨by omega, ?_, by omega⟩
    unfold IsInt
    have : (256 ^ 4 : Nat) = 4294967296 := by decide
    rw [this]
    omega
  · intro h0
    have h1 := congrArg List.length h0
    change (mshPoints zero m).length = 0 at h1
    rw [hlen] at h1
    exact h.points.1 (List.length_eq_zero_iff.1 h1)
  · change (mshPoints zero m).length = (numbersFrom 1 m.points.length).length
    rw [hlen, length_numbersFrom]
  · intro e he
    rw [hel] at he
    obtain ⟨ri, hri, rfl⟩ := List.mem_map.1 he
    have hlt := List.snd_lt_of_mem_zipIdx hri
    have hm := List.fst_mem_of_mem_zipIdx hri
    obtain ⟨b, hb, hb1, hb2⟩ := mem_rowsOf hm
    obtain ⟨c1, c2, c3⟩ := h.cells b hb
    obtain ⟨c4, c5⟩ := c3 _ hb2
    rw [hb1] at c2 c4
    obtain ⟨s1, s2, s3, s4⟩ := h.size
    refine ⟨⟨by simpa using c4, c2, ?_, ?_, ?_⟩, by simp only; omega⟩
    · intro p hp
      obtain ⟨z, hz, rfl⟩ := List.mem_map.1 hp
      have := c5 z hz
      change z.toNat < (mshPoints zero m).length
      rw [hlen]
      omega
    · have e : (1 + (ri.2 : Int)) = ((1 + ri.2 : Nat) : Int) := by omega
      simp only
      rw [e]
      unfold IsInt
      have : (256 ^ 4 : Nat) = 4294967296 := by decide
      rw [this]
      omega
    · intro z hz
      obtain ⟨c, hc, rfl⟩ := List.mem_map.1 hz
      exact getD_isInt c _ (mshTags_int lim m h c hc).2
  · intro i hi
    by_cases h0 : (mshFile zero m names).elems = []
    · right; intro e he; rw [h0] at he; simp at he
    · left
      refine ⟨h0, ?_⟩
      intro e he
      rw [hel] at he
      obtain ⟨ri, -, rfl⟩ := List.mem_map.1 he
      have := (length_mshTags m).1
      simp only [List.length_map]
      omega
  · have hl2 : (mshFile zero m names).elems.length = (rowsOf m.cells).length := by rw [hel]; simp
    intro x hx
    rw [hl2]
    change x.Ok (mshPoints zero m).length (rowsOf m.cells).length
    rw [hlen]
    unfold MshFile.secs mshFile at hx
    simp only [List.append_nil, List.mem_append] at hx
    rcases hx with hx | hx | hx | hx
    · split at hx
      · simp at hx
      · simp only [List.mem_singleton] at hx
        subst hx
        intro e he
        have := hn.mem_iff.1 he
        obtain ⟨kv, hkv, rfl⟩ := List.mem_map.1 this
        exact (h.fieldData.2 kv hkv).2
    · obtain ⟨l, -, rfl⟩ := List.mem_map.1 hx
      trivial
    · obtain ⟨kv, hkv, rfl⟩ := List.mem_map.1 hx
      obtain ⟨-, k2, k3⟩ := h.pointData.2 kv hkv
      refine ⟨k2, ?_, ?_, k3.rows⟩
      · intro t ht; simp [mshData] at ht
      · intro t ht; simp only [mshData, List.mem_singleton] at ht; subst ht; decide
    · obtain ⟨kv, hkv, rfl⟩ := List.mem_map.1 hx
      obtain ⟨-, k2, -, -, -, k3⟩ := h.cellData.2 kv hkv
      refine ⟨k2, ?_, ?_, k3.rows⟩
      · intro t ht; simp [mshData] at ht
      · intro t ht; simp only [mshData, List.mem_singleton] at ht; subst ht; decide
  · rw [hnn]
    have := hn.map (fun e : Int × Int × List Char => e.2.2)
    rw [this.nodup_iff, List.map_map]
    exact hkeys m.fieldData h.fieldData.1
  · rw [hnd, List.map_map]
    exact hkeys m.pointData h.pointData.1
  · rw [hed, List.map_map]
    have hno : ∀ s : String, (∀ kv ∈ m.cellData, kv.1 ≠ s) → s.toList ∉ m.cellData.map ((fun d : MshData F => d.name) ∘ fun kv => mshData kv.1 (mshConcat kv.2)) := by
      intro s hs hm
      obtain ⟨kv, hkv, he⟩ := List.mem_map.1 hm
      exact hs kv hkv (String.toList_inj.1 he)
    exact ⟨hkeys m.cellData h.cellData.1, hno _ fun kv hkv => (h.cellData.2 kv hkv).1.1, hno _ fun kv hkv => (h.cellData.2 kv hkv).1.2⟩
  · intro h0
    rw [hed]
    have h1 : (rowsOf m.cells).length = 0 := by
      have := congrArg List.length h0
      rw [hel] at this
      simpa using this
    cases hc : m.cellData with
    | nil => rfl
    | cons kv d =>
      exfalso
      obtain ⟨-, -, k1, k2, -⟩ := h.cellData.2 kv (by rw [hc]; simp)
      cases hcc : m.cells with
      | nil =>
        rw [hcc] at k2
        simp only [List.map_nil, List.map_eq_nil_iff] at k2
        exact k1 k2
      | cons b bs =>
        have := (h.cells b (by rw [hcc]; simp)).1
        rw [length_rowsOf, hcc, List.map_cons, List.sum_cons] at h1
        have : b.2.length = 0 := by omega
        exact absurd (List.length_eq_zero_iff.1 this) (h.cells b (by rw [hcc]; simp)).1

theorem mshChunks_mem (tags : List (List Int)) (start : Nat) (cells : List (String × List (List Int))) :
    ∀ c ∈ mshChunks tags start cells, ∃ s, ∃ b ∈ cells, c = blockElems tags s b.1 b.2 := by
  induction cells generalizing start with
  | nil => intro c hc; simp [mshChunks] at hc
  | cons b cells ih =>
    intro c hc
    rw [show b :: cells = (b.1, b.2) :: cells from rfl, mshChunks_cons] at hc
    rcases List.mem_cons.1 hc with rfl | hc
    · exact ⟨start, b, by simp, rfl⟩
    · obtain ⟨s, b', hb', rfl⟩ := ih _ c hc
      exact ⟨s, b', by simp [hb'], rfl⟩

theorem mshFile_binary (zero : F) (lim : Nat) (m : In F) (h : MshIn lim m) (names : List (Int × Int × List Char)) :
    (mshFile zero m names).Binary := by
  have hel := mshFile_elems zero m names
  have hlenE : (mshFile zero m names).elems.length = (rowsOf m.cells).length := by rw [hel]; simp
  have htl : ∀ e ∈ (mshFile zero m names).elems, e.tags.length = (mshTags m).length := by
    intro e he
    rw [hel] at he
    obtain ⟨ri, -, rfl⟩ := List.mem_map.1 he
    simp
  refine ⟨?_, ?_, ?_, ?_, ?_⟩
  · show numbersFrom 1 m.points.length = numbersFrom 1 (mshPoints zero m).length
    simp [mshPoints]
  · rw [nums_file, hlenE]
  · intro c hc
    obtain ⟨s, b, hb, rfl⟩ := mshChunks_mem _ _ _ c hc
    have hb0 := (h.cells b hb).1
    refine ⟨?_, ?_, ?_⟩
    · intro h0
      have := congrArg List.length h0
      simp [blockElems] at this
      exact hb0 this
    · have : (blockElems (mshTags m) s b.1 b.2).length = b.2.length := by simp [blockElems]
      rw [this]
      apply isInt_nat
      have hle : b.2.length ≤ (rowsOf m.cells).length := by
        rw [length_rowsOf]
        have hx : b.2.length ∈ m.cells.map (·.2.length) := List.mem_map.2 ⟨b, hb, rfl⟩
        generalize m.cells.map (·.2.length) = l at hx
        induction l with
        | nil => simp at hx
        | cons a l ih =>
          rw [List.sum_cons]
          rcases List.mem_cons.1 hx with hx | hx
          · omega
          · have := ih hx; omega
      have := h.size.2.2.2
      omega
    · have hty : ∀ e ∈ blockElems (mshTags m) s b.1 b.2, e.type = b.1 := by
        intro e he
        unfold blockElems at he
        obtain ⟨ri, -, rfl⟩ := List.mem_map.1 he
        rfl
      intro e he e' he'
      rw [hty e he, hty e' he']
  · intro e he e' he' _
    rw [htl e he, htl e' he']
  · intro e he
    rw [htl e he]
    apply isInt_nat
    have := (length_mshTags m).2
    omega

/-- C30, C31, C32 (reading): a Gmsh file of version 2.2 is read as what it says, as text or in binary form.  Nodes may carry
any distinct positive numbers, in any order (text files): elements are connected to the points carrying the listed numbers.
Neighbouring elements of equal type form the blocks; the first two tags become `gmsh:physical` and `gmsh:geometrical` by block;
each data section becomes an array, split by block for elements; physical names and periodic links are kept; unknown sections
are skipped.  If there is element data, all blocks but the last must have two cells (see `C32_refuses_blocks`). -/
theorem C30_read (io : GmshFloat F) (ascii : Bool) (f : MshFile F) (h : f.Ok io.lim) (hb : ascii = false → f.Binary)
    (hk : f.Known) (hs : f.Split) : Gmsh22.read io (f.text io ascii) = .ok f.mesh := by
  obtain ⟨st, h1, h2⟩ := read_final io ascii f h hb
  rw [h2]
  exact finish_ok io.lim f h st h1 hk hs

/-- C30: files with elements of a type without a dimension in meshio are refused. -/
theorem C30_refuses_types (io : GmshFloat F) (ascii : Bool) (f : MshFile F) (h : f.Ok io.lim) (hb : ascii = false → f.Binary)
    (hk : ¬ f.Known) : Gmsh22.read io (f.text io ascii) = .error .keyError := by
  obtain ⟨st, h1, h2⟩ := read_final io ascii f h hb
  rw [h2]
  exact finish_unknown io.lim f h st h1 hk

/-- C30: the types of Gmsh concerned are those of the prism of 15 and the pyramid of 13 nodes, which the format knows. -/
theorem C30_types_without_dimension (t : String) (h : (find meshioToGmsh t).isSome) :
    ¬ KnownType t ↔ t = "wedge15" ∨ t = "pyramid13" := by
  have key : ∀ kv ∈ meshioToGmsh, (¬ KnownType kv.1 ↔ kv.1 = "wedge15" ∨ kv.1 = "pyramid13") := by decide +kernel
  obtain ⟨c, hc⟩ := Option.isSome_iff_exists.1 h
  exact key (t, c) (find_mem hc)

/-- C32: element data is refused unless all blocks but the last have exactly two cells: the reader cuts the values at 2, 4, …
whatever the blocks are. -/
theorem C32_refuses_blocks (io : GmshFloat F) (ascii : Bool) (f : MshFile F) (h : f.Ok io.lim) (hb : ascii = false → f.Binary)
    (hk : f.Known) (hs : ¬ f.Split) : Gmsh22.read io (f.text io ascii) = .error .valueError := by
  obtain ⟨st, h1, h2⟩ := read_final io ascii f h hb
  rw [h2]
  exact finish_split io.lim f h st h1 hk hs

/-- The order of physical names: by dimension, number, name. -/
def mshNameLe (a b : Int × Int × List Char) : Prop :=
  a.1 < b.1 ∨ (a.1 = b.1 ∧ (a.2.1 < b.2.1 ∨ (a.2.1 = b.2.1 ∧ a.2.2 ≤ b.2.2)))

theorem nameLe_iff (a b : Int × Int × List Char) : nameLe a b = true ↔ mshNameLe a b := by
  unfold nameLe mshNameLe
  by_cases h1 : a.1 = b.1
  · rw [if_neg (by simp [h1])]
    by_cases h2 : a.2.1 = b.2.1
    · rw [if_neg (by simp [h2]), decide_eq_true_iff]
      constructor
      · intro h; exact Or.inr ⟨h1, Or.inr ⟨h2, h⟩⟩
      · rintro (h | ⟨-, h | ⟨-, h⟩⟩)
        · omega
        · omega
        · exact h
    · rw [if_pos h2, decide_eq_true_iff]
      constructor
      · intro h; exact Or.inr ⟨h1, Or.inl h⟩
      · rintro (h | ⟨-, h | ⟨h, -⟩⟩)
        · omega
        · exact h
        · exact absurd h h2
  · rw [if_pos h1, decide_eq_true_iff]
    constructor
    · intro h; exact Or.inl h
    · rintro (h | ⟨h, -⟩)
      · exact h
      · exact absurd h h1

theorem mshNames (fd : Dict (List Int)) (h : ∀ kv ∈ fd, kv.2.length = 2) :
    ((fd.filterMap nameEntry).mergeSort nameLe).Perm (fd.map mshEntry) ∧
      ((fd.filterMap nameEntry).mergeSort nameLe).Pairwise mshNameLe := by
  rw [nameEntry_eq _ h]
  refine ⟨List.mergeSort_perm _ _, ?_⟩
  have := List.pairwise_mergeSort (le := nameLe) ?_ ?_ (fd.map mshEntry)
  · exact this.imp fun {a b} hab => (nameLe_iff a b).1 hab
  · intro a b c hab hbc
    rw [nameLe_iff] at *
    unfold mshNameLe at *
    rcases hab with hab | ⟨h1, hab⟩ <;> rcases hbc with hbc | ⟨h2, hbc⟩
    · left; omega
    · left; omega
    · left; omega
    · right
      refine ⟨by omega, ?_⟩
      rcases hab with hab | ⟨h3, hab⟩ <;> rcases hbc with hbc | ⟨h4, hbc⟩
      · left; omega
      · left; omega
      · left; omega
      · right; exact ⟨by omega, Std.le_trans hab hbc⟩
  · intro a b
    rw [Bool.or_eq_true, nameLe_iff, nameLe_iff]
    unfold mshNameLe
    have := Std.le_total (a := a.2.2) (b := b.2.2)
    by_cases h1 : a.1 < b.1
    · left; left; exact h1
    · by_cases h2 : b.1 < a.1
      · right; left; exact h2
      · have h3 : a.1 = b.1 := by omega
        by_cases h4 : a.2.1 < b.2.1
        · left; right; exact ⟨h3, Or.inl h4⟩
        · by_cases h5 : b.2.1 < a.2.1
          · right; right; exact ⟨h3.symm, Or.inl h5⟩
          · rcases this with h6 | h6
            · left; right; exact ⟨h3, Or.inr ⟨by omega, h6⟩⟩
            · right; right; exact ⟨h3.symm, Or.inr ⟨by omega, h6⟩⟩

/-- C30, C32 (writing): the file of a mesh.  Nodes and elements are numbered consecutively from one, points of the plane get a
third coordinate, missing physical or geometrical tags are zeros, names are sorted. -/
theorem C30_write (io : GmshFloat F) (binary : Bool) (m : In F) (h : MshIn io.lim m) :
    ∃ names, names.Perm (m.fieldData.map mshEntry) ∧ names.Pairwise mshNameLe ∧
      Gmsh22.write io binary m = .ok ((mshFile io.zero m names).text io (!binary)) := by
  obtain ⟨h1, h2⟩ := mshNames m.fieldData fun kv hkv => (h.fieldData.2 kv hkv).1
  exact ⟨_, h1, h2, write_ok io binary m h _ rfl⟩

theorem adjacent_map {β γ : Type} (cells : List (String × β)) (L : List (String × γ)) (h : L.map (·.1) = cells.map (·.1))
    (hd : ∀ pre a b post, cells = pre ++ a :: b :: post → a.1 ≠ b.1) :
    ∀ pre a b post, L = pre ++ a :: b :: post → a.1 ≠ b.1 := by
  intro pre a b post e
  rw [e, List.map_append, List.map_cons, List.map_cons] at h
  obtain ⟨p, q, hpq, -, hq⟩ := List.map_eq_append_iff.1 h.symm
  obtain ⟨x, q2, hx, hx1, hq2⟩ := List.map_eq_cons_iff.1 hq
  obtain ⟨y, q3, hy, hy1, -⟩ := List.map_eq_cons_iff.1 hq2
  have := hd p x y q3 (by rw [hpq, hx, hy])
  rw [hx1, hy1] at this
  exact this

theorem rowsOf_zip {β γ : Type} (cells : List (String × List β)) (bs : List (List γ)) (h : bs.map (·.length) = cells.map (·.2.length)) :
    ((rowsOf cells).map (·.1)).zip bs.flatten = rowsOf (List.zipWith (fun b x => (b.1, x)) cells bs) ∧
      (List.zipWith (fun (b : String × List β) (x : List γ) => (b.1, x)) cells bs).map (·.2) = bs ∧
      (List.zipWith (fun (b : String × List β) (x : List γ) => (b.1, x)) cells bs).map (·.1) = cells.map (·.1) := by
  induction cells generalizing bs with
  | nil =>
    cases bs with
    | nil => exact ⟨rfl, rfl, rfl⟩
    | cons b bs => simp at h
  | cons c cells ih =>
    cases bs with
    | nil => simp at h
    | cons b bs =>
      simp only [List.map_cons, List.cons.injEq] at h
      obtain ⟨h1, h2, h3⟩ := ih bs h.2
      refine ⟨?_, ?_, ?_⟩
      · unfold rowsOf at h1 ⊢
        simp only [List.zipWith_cons_cons, List.flatMap_cons, List.map_append, List.flatten_cons, List.map_map]
        rw [List.zip_append (by simp [h.1]), h1]
        congr 1
        apply List.ext_getElem
        · simp [h.1]
        · intro i h1 h2; simp
      · simp [h2]
      · simp [h3]

theorem byBlock_cells {β γ : Type} (cells : List (String × List β)) (hne : ∀ b ∈ cells, b.2 ≠ [])
    (hd : ∀ pre a b post, cells = pre ++ a :: b :: post → a.1 ≠ b.1)
    (bs : List (List γ)) (h : bs.map (·.length) = cells.map (·.2.length)) :
    (groupRuns (((rowsOf cells).map (·.1)).zip bs.flatten)).map (·.2) = bs := by
  obtain ⟨h1, h2, h3⟩ := rowsOf_zip cells bs h
  rw [h1, groupRuns_rowsOf, h2]
  · intro b hb
    have hm : b.2 ∈ bs := by rw [← h2]; exact List.mem_map.2 ⟨b, hb, rfl⟩
    intro h0
    have : (0 : Nat) ∈ bs.map (·.length) := List.mem_map.2 ⟨b.2, hm, by rw [h0]; rfl⟩
    rw [h] at this
    obtain ⟨c, hc, hc0⟩ := List.mem_map.1 this
    exact hne c hc (List.length_eq_zero_iff.1 hc0)
  · exact adjacent_map cells _ h3 hd

theorem map_getD_range (c : List Int) (n : Nat) (h : c.length = n) : (List.range n).map (fun i => c.getD i 0) = c := by
  subst h
  apply List.ext_getElem
  · simp
  · intro i h1 h2
    rw [List.getElem_map, List.getElem_range, List.getD_eq_getElem?_getD, List.getElem?_eq_getElem h2]
    rfl

/-- What is read back from the file of a mesh whose blocks are runs. -/
theorem mshFile_mesh (zero : F) (lim : Nat) (m : In F) (h : MshIn lim m) (names : List (Int × Int × List Char))
    (hd : ∀ pre a b post, m.cells = pre ++ a :: b :: post → a.1 ≠ b.1) :
    (mshFile zero m names).mesh =
      ⟨mshPoints zero m, m.cells, m.pointData.map fun kv => (kv.1, mshArrayOut kv.2),
        (m.cellData.map fun kv => (kv.1, Cd.data (mshArrayOut (mshConcat kv.2)).tail (kv.2.map (·.rows)))) ++
          (if m.cells = [] then [] else [("gmsh:physical", .tags (mshTag m m.physical)), ("gmsh:geometrical", .tags (mshTag m m.geometrical))]),
        names.map fun e => (String.ofList e.2.2, e.2.1, e.1), m.periodic⟩ := by
  have hel := mshFile_elems zero m names
  have hne : ∀ b ∈ m.cells, b.2 ≠ [] := fun b hb => (h.cells b hb).1
  have hlenE : (mshFile zero m names).elems.length = (rowsOf m.cells).length := by rw [hel]; simp
  have hrows : (mshFile zero m names).elems.map (fun e => (e.type, e.row.map Int.ofNat)) = rowsOf m.cells := by
    rw [hel, List.map_map]
    apply List.ext_getElem
    · simp
    · intro i h1 h2
      simp only [List.getElem_map, List.getElem_zipIdx, Function.comp, Nat.zero_add, List.map_map]
      have hm := List.getElem_mem h2
      obtain ⟨b, hb, hb1, hb2⟩ := mem_rowsOf hm
      refine Prod.ext rfl ?_
      show List.map _ _ = _
      conv => rhs; rw [← List.map_id (rowsOf m.cells)[i].2]
      apply List.map_congr_left
      intro z hz
      have := ((h.cells b hb).2.2 _ hb2).2 z hz
      show Int.ofNat z.toNat = z
      exact Int.toNat_of_nonneg this.1
  have htypes : (mshFile zero m names).elems.map (·.type) = (rowsOf m.cells).map (·.1) := by
    rw [← hrows, List.map_map]; rfl
  have htag : ∀ i, i < 2 → ∀ o, (mshTags m)[i]? = some (mshTag m o).flatten → (mshTag m o).map (·.length) = m.cells.map (·.2.length) →
      (mshFile zero m names).byBlock ((mshFile zero m names).elems.map fun e => e.tags.getD i 0) = mshTag m o := by
    intro i hi o ho hlen
    unfold MshFile.byBlock
    have hcol : ((mshFile zero m names).elems.map fun e => e.tags.getD i 0) = (mshTag m o).flatten := by
      have hl : (mshTag m o).flatten.length = (rowsOf m.cells).length := by rw [List.length_flatten, hlen, length_rowsOf]
      rw [← map_getD_range (mshTag m o).flatten _ hl, hel, List.map_map]
      apply List.ext_getElem
      · simp
      · intro j h1 h2
        simp only [List.getElem_map, List.getElem_zipIdx, Function.comp, Nat.zero_add, List.getElem_range]
        rw [List.getD_eq_getElem?_getD, List.getElem?_map, ho]
        rfl
    rw [hcol, htypes]
    exact byBlock_cells m.cells hne hd _ hlen
  have htd : ∀ i, i < 2 → ∀ name o, (mshTags m)[i]? = some (mshTag m o).flatten → (mshTag m o).map (·.length) = m.cells.map (·.2.length) →
      (mshFile zero m names).tagData name i = if m.cells = [] then [] else [(name, .tags (mshTag m o))] := by
    intro i hi name o ho hlen
    unfold MshFile.tagData
    by_cases h0 : m.cells = []
    · rw [if_pos h0, if_neg]
      rintro ⟨h1, -⟩
      apply h1
      apply List.length_eq_zero_iff.1
      rw [hlenE, h0]
      rfl
    · rw [if_neg h0, if_pos, htag i hi o ho hlen]
      refine ⟨?_, ?_⟩
      · intro h1
        rw [h1] at hlenE
        apply h0
        cases hc : m.cells with
        | nil => rfl
        | cons b bs =>
          exfalso
          have := hne b (by rw [hc]; simp)
          rw [length_rowsOf, hc, List.map_cons, List.sum_cons] at hlenE
          have h2 : b.2.length = 0 := by simp at hlenE; omega
          exact this (List.length_eq_zero_iff.1 h2)
      · intro e he
        rw [hel] at he
        obtain ⟨ri, -, rfl⟩ := List.mem_map.1 he
        have := (length_mshTags m).1
        simp only [List.length_map]
        omega
  have hp := htd 0 (by omega) "gmsh:physical" m.physical (by simp [mshTags]) (mshTag_int lim m h _ (Or.inl rfl)).1
  have hg := htd 1 (by omega) "gmsh:geometrical" m.geometrical (by simp [mshTags]) (mshTag_int lim m h _ (Or.inr rfl)).1
  have hpd : (mshFile zero m names).nodeData.map (fun d => (String.ofList d.name, d.array)) = m.pointData.map fun kv => (kv.1, mshArrayOut kv.2) := by
    rw [mshFile_nodeData, List.map_map]
    apply List.map_congr_left
    intro kv _
    show (String.ofList kv.1.toList, _) = _
    rw [String.ofList_toList]
    rfl
  have hcd : (mshFile zero m names).elemData.map (fun d => (String.ofList d.name, Cd.data d.array.tail ((mshFile zero m names).byBlock d.rows))) =
      m.cellData.map fun kv => (kv.1, Cd.data (mshArrayOut (mshConcat kv.2)).tail (kv.2.map (·.rows))) := by
    rw [mshFile_elemData, List.map_map]
    apply List.map_congr_left
    intro kv hkv
    show (String.ofList kv.1.toList, Cd.data _ ((mshFile zero m names).byBlock (kv.2.map (·.rows)).flatten)) = _
    rw [String.ofList_toList]
    unfold MshFile.byBlock
    rw [htypes, byBlock_cells m.cells hne hd]
    · rfl
    · rw [List.map_map]; exact (h.cellData.2 kv hkv).2.2.2.1
  have hper : ((mshFile zero m names).secs.filterMap MshSec.periodic?).getLast? = m.periodic := by
    unfold MshFile.secs mshFile
    simp only [List.append_nil, List.filterMap_append, List.filterMap_map]
    have e1 : (if names = [] then [] else [MshSec.names (F := F) names]).filterMap MshSec.periodic? = [] := by
      split <;> rfl
    have e2 : m.pointData.filterMap (MshSec.periodic? ∘ fun kv => MshSec.nodeData (mshData kv.1 kv.2)) = [] := by
      rw [List.filterMap_eq_nil_iff]; intro a _; rfl
    have e3 : m.cellData.filterMap (MshSec.periodic? ∘ fun kv => MshSec.elemData (mshData kv.1 (mshConcat kv.2))) = [] := by
      rw [List.filterMap_eq_nil_iff]; intro a _; rfl
    rw [e1, e2, e3]
    cases m.periodic <;> rfl
  unfold MshFile.mesh
  rw [hrows, groupRuns_rowsOf m.cells hne hd, hpd, hcd, hp, hg, hper, mshFile_names]
  congr 1
  by_cases h0 : m.cells = []
  · rw [if_pos h0, if_pos h0, if_pos h0]; rfl
  · rw [if_neg h0, if_neg h0, if_neg h0]; rfl

theorem mshFile_known (zero : F) (lim : Nat) (m : In F) (h : MshIn lim m) (names : List (Int × Int × List Char)) :
    (mshFile zero m names).Known := by
  intro e he
  rw [mshFile_elems zero m names] at he
  obtain ⟨ri, hri, rfl⟩ := List.mem_map.1 he
  obtain ⟨b, hb, hb1, -⟩ := mem_rowsOf (List.fst_mem_of_mem_zipIdx hri)
  have := h.known b hb
  rw [hb1] at this
  exact this

theorem mshFile_split (zero : F) (lim : Nat) (m : In F) (h : MshIn lim m) (names : List (Int × Int × List Char))
    (hd : ∀ pre a b post, m.cells = pre ++ a :: b :: post → a.1 ≠ b.1) :
    (mshFile zero m names).Split ↔ m.cellData = [] ∨ ∀ b ∈ m.cells.dropLast, b.2.length = 2 := by
  unfold MshFile.Split
  rw [mshFile_mesh zero lim m h names hd, mshFile_elemData, List.map_eq_nil_iff]

/-- C30, C32 (round trip): a mesh whose neighbouring blocks differ in type, without cell data other than tags or with two cells in
each block but the last, written as text or in binary form, is read back:
points (with a third coordinate), blocks with their order, physical and geometrical tags (zeros if there were none), point and
cell data of one, three or nine components (a second dimension of one is dropped), names and periodic links. -/
theorem C30_roundtrip_partial (io : GmshFloat F) (binary : Bool) (m : In F) (h : MshIn io.lim m)
    (hd : ∀ pre a b post, m.cells = pre ++ a :: b :: post → a.1 ≠ b.1)
    (hs : m.cellData = [] ∨ ∀ b ∈ m.cells.dropLast, b.2.length = 2) :
    ∃ s out, Gmsh22.write io binary m = .ok s ∧ Gmsh22.read io s = .ok out ∧
      out.points = mshPoints io.zero m ∧ out.cells = m.cells ∧
      out.pointData = m.pointData.map (fun kv => (kv.1, mshArrayOut kv.2)) ∧
      out.cellData = (m.cellData.map fun kv => (kv.1, Cd.data (mshArrayOut (mshConcat kv.2)).tail (kv.2.map (·.rows)))) ++
          (if m.cells = [] then [] else [("gmsh:physical", .tags (mshTag m m.physical)), ("gmsh:geometrical", .tags (mshTag m m.geometrical))]) ∧
      out.fieldData.Perm (m.fieldData.map fun kv => (kv.1, kv.2.getD 0 0, kv.2.getD 1 0)) ∧ out.periodic = m.periodic := by
  obtain ⟨names, hn, -, hw⟩ := C30_write io binary m h
  refine ⟨_, _, hw, C30_read io _ _ (mshFile_ok io.zero io.lim m h names hn) (fun _ => mshFile_binary io.zero io.lim m h names)
    (mshFile_known io.zero io.lim m h names) ((mshFile_split io.zero io.lim m h names hd).2 hs), ?_⟩
  rw [mshFile_mesh io.zero io.lim m h names hd]
  refine ⟨rfl, rfl, rfl, rfl, ?_, rfl⟩
  have := hn.map fun e : Int × Int × List Char => (String.ofList e.2.2, e.2.1, e.1)
  rw [List.map_map] at this
  refine this.trans (List.Perm.of_eq ?_)
  apply List.map_congr_left
  intro kv _
  show (String.ofList kv.1.toList, _) = _
  rw [String.ofList_toList]
  rfl

/-- C32: with cell data and a block other than the last that has not two cells, the file is written, but it is refused when it
is read. -/
theorem C32_written_not_read (io : GmshFloat F) (binary : Bool) (m : In F) (h : MshIn io.lim m)
    (hd : ∀ pre a b post, m.cells = pre ++ a :: b :: post → a.1 ≠ b.1)
    (hc : m.cellData ≠ []) (b : String × List (List Int)) (hb : b ∈ m.cells.dropLast) (h2 : b.2.length ≠ 2) :
    ∃ s, Gmsh22.write io binary m = .ok s ∧ Gmsh22.read io s = .error .valueError := by
  obtain ⟨names, hn, -, hw⟩ := C30_write io binary m h
  refine ⟨_, hw, C32_refuses_blocks io _ _ (mshFile_ok io.zero io.lim m h names hn) (fun _ => mshFile_binary io.zero io.lim m h names)
    (mshFile_known io.zero io.lim m h names) ?_⟩
  rw [mshFile_split io.zero io.lim m h names hd]
  rintro (h0 | h0)
  · exact hc h0
  · exact h2 (h0 b hb)

/-- C31 for Gmsh 2.2: node numbers may be any distinct positive numbers in any order; the cells are connected to the points
carrying the numbers listed on the lines of the elements. -/
theorem C31_gmsh (io : GmshFloat F) (f : MshFile F) (h : f.Ok io.lim) (hk : f.Known) (hs : f.Split) :
    ∃ out, Gmsh22.read io (f.text io true) = .ok out ∧ out.points = f.points ∧
      rowsOf out.cells = f.elems.map fun e => (e.type, e.row.map Int.ofNat) := by
  refine ⟨_, C30_read io true f h (by simp) hk hs, rfl, ?_⟩
  exact rowsOf_groupRuns _

/-- C32: arrays with another number of components than one, three or nine are refused. -/
theorem C32_refuses (io : GmshFloat F) (binary : Bool) (tag name : List Char) (a : NArr (List F)) (k : Nat) (ha : a.tail = [k])
    (h1 : k ≠ 1) (h3 : k ≠ 3) (h9 : k ≠ 9) : writeData io binary tag name a = .error .writeError := by
  unfold writeData
  have hc : components a = k := by rw [components_eq]; unfold mshWidth; rw [ha]
  rw [if_neg (by rw [ha]; simp), if_pos (by rw [hc]; exact ⟨h1, h3, h9⟩)]

/-- C32: a mesh with point data of another number of components is refused. -/
theorem C32_refuses_point_data (io : GmshFloat F) (binary : Bool) (m : In F) (h : MshIn io.lim { m with pointData := [], cellData := [] })
    (name : String) (hname : name ≠ "gmsh:dim_tags") (a : NArr (List F)) (k : Nat) (ha : a.tail = [k]) (h1 : k ≠ 1) (h3 : k ≠ 3) (h9 : k ≠ 9)
    (hm : m.pointData = [(name, a)]) : Gmsh22.write io binary m = .error .writeError := by
  unfold Gmsh22.write
  have e1 := writeNodes_ok io binary { m with pointData := [], cellData := [] } h.points.2
  have e2 := writeElements_ok io.lim binary { m with pointData := [], cellData := [] } h
  change writeNodes io binary m.dim m.points = _ at e1
  change writeElements binary (tagData m) m.cells = _ at e2
  rw [e1, e2, hm]
  simp only [List.filter_cons, ne_eq, hname, not_false_eq_true, decide_true, if_true, List.filter_nil]
  rw [writeDatas, C32_refuses io binary _ _ a k ha h1 h3 h9]

/-- C32: data sections with an entry for each entity are read as one array: one dimension if there is one component. -/
theorem C32_read_data (io : GmshFloat F) (ascii : Bool) (f : MshFile F) (h : f.Ok io.lim) (hb : ascii = false → f.Binary)
    (hk : f.Known) (hs : f.Split) :
    ∃ out, Gmsh22.read io (f.text io ascii) = .ok out ∧
      (∀ d ∈ f.nodeData, (String.ofList d.name, (⟨if d.width = 1 then [] else [d.width], d.rows⟩ : NArr (List F))) ∈ out.pointData) ∧
      ∀ d ∈ f.elemData, ∃ blocks, (String.ofList d.name, Cd.data (if d.width = 1 then [] else [d.width]) blocks) ∈ out.cellData ∧
        blocks.flatten = d.rows ∧ blocks.map (·.length) = out.cells.map (·.2.length) := by
  refine ⟨_, C30_read io ascii f h hb hk hs, ?_, ?_⟩
  · intro d hd
    exact List.mem_map.2 ⟨d, hd, rfl⟩
  · intro d hd
    have hrows : d.rows.length = f.elems.length := by
      obtain ⟨x, hx, hxd⟩ := List.mem_filterMap.1 hd
      have := h.secs x hx
      cases x with
      | elemData d' => injection hxd with hxd; subst hxd; exact this.rows.1
      | _ => cases hxd
    refine ⟨f.byBlock d.rows, List.mem_append.2 (Or.inl (List.mem_map.2 ⟨d, hd, rfl⟩)), ?_, ?_⟩
    · unfold MshFile.byBlock
      rw [flatten_rows, rowsOf_groupRuns, List.map_snd_zip]
      rw [List.length_map]; omega
    · rw [lens_byBlock f d.rows hrows]
      show _ = (groupRuns (f.elems.map fun e => (e.type, e.row.map Int.ofNat))).map _
      have e : f.elems.map (fun e => (e.type, e.row.map Int.ofNat)) = (f.elems.map (·.type)).zip (f.elems.map fun e => e.row.map Int.ofNat) := by
        rw [List.zip_map']
      rw [e, lens_zip _ _ (by simp)]

/-! ### Versions -/

/-- The part of a version before the dot. -/
def majorOf (v : List Char) : List Char := v.takeWhile (· ≠ '.')

theorem splitOnC_head (v : List Char) : (splitOnC '.' v).headD [] = majorOf v := by
  unfold majorOf
  induction v with
  | nil => rfl
  | cons c v ih =>
    rw [splitOnC]
    by_cases h : c = '.'
    · rw [if_pos h, h]; rfl
    · rw [if_neg h, List.takeWhile_cons_of_pos (by simpa using h), ← ih]
      cases splitOnC '.' v <;> rfl

theorem find_toList {ν : Type} (d : List (String × ν)) (v : List Char) :
    find d (String.ofList v) = find (d.map fun kv => (kv.1.toList, kv.2)) v := by
  induction d with
  | nil => rfl
  | cons kv d ih =>
    obtain ⟨k, x⟩ := kv
    rw [List.map_cons, find, find, ih]
    have : (k = String.ofList v) ↔ (k.toList = v) := by
      constructor
      · intro h; rw [h, String.toList_ofList]
      · intro h; rw [← h, String.ofList_toList]
    simp only [this]

/-- C30: which reader a version selects: 4.0 its own, any other version 4 the one for 4.1, any version 2 the one for 2.2;
other versions are refused. -/
theorem C30_version (v : List Char) :
    reader v = if v = "4.0".toList then .ok .v40 else if majorOf v = "2".toList then .ok .v22
      else if majorOf v = "4".toList then .ok .v41 else .error .valueError := by
  unfold reader
  rw [find_toList, find_toList, splitOnC_head]
  have e : readers.map (fun kv => (kv.1.toList, kv.2)) =
    [(['2'], Version.v22), (['2', '.', '2'], .v22), (['4', '.', '0'], .v40), (['4'], .v41), (['4', '.', '1'], .v41)] := by decide
  rw [e, show "4.0".toList = ['4', '.', '0'] from by decide, show "2".toList = ['2'] from by decide, show "4".toList = ['4'] from by decide]
  have hm : '.' ∉ majorOf v := by
    unfold majorOf
    induction v with
    | nil => simp
    | cons c v ih =>
      by_cases h : c = '.'
      · rw [h]; simp
      · rw [List.takeWhile_cons_of_pos (by simpa using h)]
        intro hm
        rcases List.mem_cons.1 hm with hm | hm
        · exact h hm.symm
        · exact ih hm
  by_cases h1 : v = ['2']
  · subst h1; decide
  · by_cases h2 : v = ['2', '.', '2']
    · subst h2; decide
    · by_cases h3 : v = ['4', '.', '0']
      · subst h3; decide
      · by_cases h4 : v = ['4']
        · subst h4; decide
        · by_cases h5 : v = ['4', '.', '1']
          · subst h5; decide
          · have hf : find [(['2'], Version.v22), (['2', '.', '2'], .v22), (['4', '.', '0'], .v40), (['4'], .v41), (['4', '.', '1'], .v41)] v = none := by
              simp only [find]
              rw [if_neg (Ne.symm h1), if_neg (Ne.symm h2), if_neg (Ne.symm h3), if_neg (Ne.symm h4), if_neg (Ne.symm h5)]
            rw [hf, if_neg h3]
            simp only [find]
            generalize majorOf v = w at hm
            by_cases w1 : w = ['2']
            · subst w1; decide
            · rw [if_neg (Ne.symm w1), if_neg w1]
              by_cases w2 : ['2', '.', '2'] = w
              · subst w2; simp at hm
              · rw [if_neg w2]
                by_cases w3 : ['4', '.', '0'] = w
                · subst w3; simp at hm
                · rw [if_neg w3]
                  by_cases w4 : w = ['4']
                  · subst w4; decide
                  · rw [if_neg (Ne.symm w4), if_neg w4]
                    by_cases w5 : ['4', '.', '1'] = w
                    · subst w5; simp at hm
                    · rw [if_neg w5]

/-- C30: versions that can be written. -/
theorem C30_writers (v : String) :
    writer v = if v = "2.2" then .ok .v22 else if v = "4.0" then .ok .v40 else if v = "4.1" then .ok .v41 else .error .writeError := by
  unfold writer writers
  simp only [find]
  by_cases h1 : "2.2" = v
  · subst h1; decide
  · rw [if_neg h1, if_neg (Ne.symm h1)]
    by_cases h2 : "4.0" = v
    · subst h2; decide
    · rw [if_neg h2, if_neg (Ne.symm h2)]
      by_cases h3 : "4.1" = v
      · subst h3; decide
      · rw [if_neg h3, if_neg (Ne.symm h3)]

/-! ### What does not hold -/

/-- A file of one line, two nodes with the numbers 1 and 3; the element lists `k`. -/
def mshMissing (k : Nat) : List Char :=
  mshHeader true ++ linesText ["$Nodes".toList, "2".toList, "1 0 0 0".toList, "3 1 1 1".toList, "$EndNodes".toList, "$Elements".toList,
    "1".toList, "1 1 0 1 ".toList ++ fmtNat k, "$EndElements".toList]

/-- The full statement of C31 for Gmsh: a number that no node carries is refused. -/
def C31_gmsh_missing_statement : Prop :=
  ∀ k : Nat, k ≠ 1 → k ≠ 3 → ∃ e, Gmsh22.read GmshFloat.word (mshMissing k) = .error e

/-- It does not hold: an element that lists the number 2 (between the numbers that exist) gets the index −1, which means the
last point; the number 0 wraps to the node of the largest number. -/
theorem C31_gmsh_missing_false : ¬ C31_gmsh_missing_statement := by
  intro h
  obtain ⟨e, he⟩ := h 2 (by omega) (by omega)
  have : (Gmsh22.read GmshFloat.word (mshMissing 2)).toOption.map (·.cells) = some [("line", [[0, -1]])] := by decide +kernel
  rw [he] at this
  cases this

/-- Numbers beyond the largest are refused. -/
theorem npIndex_beyond (table : List Int) (i : Int) (h : (table.length : Int) ≤ i) : npIndex table i = .error .indexError := by
  unfold npIndex
  have : ¬ (i < table.length) := by omega
  simp only [show 0 ≤ i from by omega, if_true]
  rw [List.getElem?_eq_none (by omega)]

/-- Values given for the nodes 2 and 1, in this order. -/
def mshSwapped : List Char :=
  mshHeader true ++ linesText ["$Nodes".toList, "2".toList, "1 0 0 0".toList, "2 1 1 1".toList, "$EndNodes".toList,
    "$NodeData".toList, "1".toList, "\"a\"".toList, "0".toList, "3".toList, "0".toList, "1".toList, "2".toList,
    "2 20".toList, "1 10".toList, "$EndNodeData".toList]

/-- The full statement of C32: a value belongs to the node whose number stands before it. -/
def C32_numbers_statement : Prop :=
  ∀ out, Gmsh22.read GmshFloat.word mshSwapped = .ok out → Dict.get? out.pointData "a" = some ⟨[], [[Word.of 10], [Word.of 20]]⟩

/-- It does not hold in text files: the numbers are dropped and the values are taken in the order of the lines (in binary
files another order is refused). -/
theorem C32_numbers_false : ¬ C32_numbers_statement := by
  intro h
  have h1 : (Gmsh22.read GmshFloat.word mshSwapped).toOption.map (fun o => Dict.get? o.pointData "a") =
      some (some ⟨[], [[Word.of 20], [Word.of 10]]⟩) := by decide +kernel
  cases hr : Gmsh22.read GmshFloat.word mshSwapped with
  | error e => rw [hr] at h1; cases h1
  | ok out =>
    rw [hr] at h1
    have h2 := h out hr
    simp only [Except.toOption, Option.map_some, Option.some.injEq] at h1
    rw [h2] at h1
    exact absurd h1 (by decide +kernel)

/-! ### An example -/

/-- Two triangles and a line, with numbers out of order. -/
def mshExample : MshFile Word where
  pre := [.names [(2, 7, "skin".toList)]]
  mid := [.other "Foo".toList ["1 2".toList]]
  post := [.nodeData ⟨"u".toList, [], ["0.0".toList], 0, [], 1, [[Word.of 1], [Word.of 2], [Word.of 3], [Word.of 4]]⟩,
    .elemData ⟨"v".toList, [], [], 0, [], 3, [[Word.of 1, Word.of 2, Word.of 3], [Word.of 4, Word.of 5, Word.of 6], [Word.of 7, Word.of 8, Word.of 9]]⟩]
  ids := [10, 3, 25, 4]
  points := [[Word.of 0, Word.of 0, Word.of 0], [Word.of 1, Word.of 0, Word.of 0], [Word.of 1, Word.of 1, Word.of 0], [Word.of 0, Word.of 1, Word.of 0]]
  chunks := [[⟨5, "triangle", [7, 1], [0, 1, 2]⟩, ⟨9, "triangle", [7, 2], [0, 2, 3]⟩], [⟨2, "line", [0, 3], [1, 0]⟩]]

theorem mshExample_ok : mshExample.Ok (2 ^ 53) := by
  refine ⟨⟨by decide, by decide⟩, ⟨by decide, by decide, by decide⟩, ?_, ?_, ?_, by decide, by decide, ⟨by decide, by decide, by decide⟩, by decide⟩
  · intro e he
    have : e = ⟨5, "triangle", [7, 1], [0, 1, 2]⟩ ∨ e = ⟨9, "triangle", [7, 2], [0, 2, 3]⟩ ∨ e = ⟨2, "line", [0, 3], [1, 0]⟩ := by
      simpa [mshExample, MshFile.elems] using he
    rcases this with rfl | rfl | rfl <;>
      exact ⟨⟨by decide +kernel, by decide +kernel, by decide, ⟨by decide, by decide⟩⟩, by decide⟩
  · intro i hi
    left
    have : i = 0 ∨ i = 1 := by omega
    rcases this with rfl | rfl
    · decide
    · decide
  · intro x hx
    simp only [mshExample, MshFile.secs, List.cons_append, List.nil_append, List.mem_cons, List.not_mem_nil, or_false] at hx
    rcases hx with rfl | rfl | rfl | rfl
    · intro e he
      simp only [List.mem_singleton] at he
      subst he
      decide
    · exact ⟨⟨by decide, by decide⟩, by decide, by decide⟩
    · exact ⟨⟨by decide, by decide⟩, by decide, by decide, ⟨by decide, by decide⟩⟩
    · exact ⟨⟨by decide, by decide⟩, by decide, by decide, ⟨by decide, by decide⟩⟩

theorem mshExample_known : mshExample.Known ∧ mshExample.Split := by
  refine ⟨?_, Or.inr ?_⟩
  · show ∀ e ∈ _, _
    decide +kernel
  · decide +kernel

example : (Gmsh22.read GmshFloat.word (mshExample.text GmshFloat.word true)).toOption.map (fun o => (o.cells, o.fieldData)) =
    some ([("triangle", [[0, 1, 2], [0, 2, 3]]), ("line", [[1, 0]])], [("skin", 7, 2)]) := by
  rw [C30_read GmshFloat.word true mshExample mshExample_ok (by simp) mshExample_known.1 mshExample_known.2]
  decide +kernel

/-- A mesh of the plane with two blocks. -/
def mshMesh : In Word where
  dim := 2
  points := [[Word.of 0, Word.of 0], [Word.of 1, Word.of 0], [Word.of 1, Word.of 1], [Word.of 0, Word.of 1]]
  cells := [("triangle", [[0, 1, 2], [0, 2, 3]]), ("line", [[0, 1]])]
  pointData := [("u", ⟨[], [[Word.of 1], [Word.of 2], [Word.of 3], [Word.of 4]]⟩)]
  physical := some [[7, 7], [8]]
  geometrical := none
  cellTags := none
  cellData := [("v", [⟨[3], [[Word.of 1, Word.of 2, Word.of 3], [Word.of 4, Word.of 5, Word.of 6]]⟩, ⟨[3], [[Word.of 7, Word.of 8, Word.of 9]]⟩])]
  fieldData := [("skin", [7, 2]), ("edge", [8, 1])]
  periodic := none

theorem mshMesh_in : MshIn (2 ^ 53) mshMesh := by
  refine ⟨⟨by decide, Or.inr ⟨by decide, by decide⟩⟩, ?_, by decide +kernel, by decide, ⟨by decide, ?_⟩, ⟨by decide, ?_⟩, ⟨by decide, by decide⟩, by decide⟩
  · decide +kernel
  · intro kv hkv
    simp only [mshMesh, List.mem_singleton] at hkv
    subst hkv
    exact ⟨by decide, by decide, ⟨by decide, by decide, by decide⟩⟩
  · intro kv hkv
    simp only [mshMesh, List.mem_singleton] at hkv
    subst hkv
    exact ⟨by decide, by decide, by decide, by decide, by decide, ⟨by decide, by decide, by decide⟩⟩

theorem msh_two_blocks {β : Type} (a b : String × β) (h : a.1 ≠ b.1) : ∀ pre x y post, [a, b] = pre ++ x :: y :: post → x.1 ≠ y.1 := by
  intro pre x y post e
  have : pre = [] := by
    cases pre with
    | nil => rfl
    | cons z pre => have := congrArg List.length e; simp at this; omega
  subst this
  simp only [List.nil_append, List.cons.injEq] at e
  rw [← e.1, ← e.2.1]
  exact h

example (binary : Bool) : ∃ s out, Gmsh22.write GmshFloat.word binary mshMesh = .ok s ∧ Gmsh22.read GmshFloat.word s = .ok out ∧ out.cells = mshMesh.cells := by
  obtain ⟨s, out, h1, h2, -, h3, -⟩ := C30_roundtrip_partial GmshFloat.word binary mshMesh mshMesh_in
    (msh_two_blocks _ _ (by decide)) (Or.inr (by decide))
  exact ⟨s, out, h1, h2, h3⟩

/-- The full statement of C30: a mesh whose neighbouring blocks differ in type is read back with the same points and cells. -/
def C30_roundtrip_statement : Prop :=
  ∀ (binary : Bool) (m : In Word), MshIn (2 ^ 53) m → (∀ pre a b post, m.cells = pre ++ a :: b :: post → a.1 ≠ b.1) →
    ∃ s out, Gmsh22.write GmshFloat.word binary m = .ok s ∧ Gmsh22.read GmshFloat.word s = .ok out ∧
      out.points = mshPoints GmshFloat.word.zero m ∧ out.cells = m.cells

/-- The full statement of C32: cell data of the form the writer accepts is read back. -/
def C32_roundtrip_statement : Prop :=
  ∀ (binary : Bool) (m : In Word), MshIn (2 ^ 53) m → (∀ pre a b post, m.cells = pre ++ a :: b :: post → a.1 ≠ b.1) →
    ∃ s out, Gmsh22.write GmshFloat.word binary m = .ok s ∧ Gmsh22.read GmshFloat.word s = .ok out ∧
      ∀ kv ∈ m.cellData, (kv.1, Cd.data (mshArrayOut (mshConcat kv.2)).tail (kv.2.map (·.rows))) ∈ out.cellData

/-- A triangle and a line with a value for each. -/
def mshOneOne : In Word where
  dim := 3
  points := [[Word.of 0, Word.of 0, Word.of 0], [Word.of 1, Word.of 0, Word.of 0], [Word.of 1, Word.of 1, Word.of 0]]
  cells := [("triangle", [[0, 1, 2]]), ("line", [[0, 1]])]
  pointData := []
  physical := none
  geometrical := none
  cellTags := none
  cellData := [("v", [⟨[], [[Word.of 1]]⟩, ⟨[], [[Word.of 2]]⟩])]
  fieldData := []
  periodic := none

theorem mshOneOne_in : MshIn (2 ^ 53) mshOneOne := by
  refine ⟨⟨by decide, Or.inl ⟨by decide, by decide⟩⟩, ?_, by decide +kernel, by decide, ⟨by decide, ?_⟩, ⟨by decide, ?_⟩, ⟨by decide, by decide⟩, by decide⟩
  · decide +kernel
  · intro kv hkv
    simp [mshOneOne] at hkv
  · intro kv hkv
    simp only [mshOneOne, List.mem_singleton] at hkv
    subst hkv
    exact ⟨by decide, by decide, by decide, by decide, by decide, ⟨by decide, by decide, by decide⟩⟩

/-- Neither holds: the file of a triangle and a line with a value for each cell is written, but refused when it is read. -/
theorem mshOneOne_refused (binary : Bool) : ∃ s, Gmsh22.write GmshFloat.word binary mshOneOne = .ok s ∧ Gmsh22.read GmshFloat.word s = .error .valueError :=
  C32_written_not_read GmshFloat.word binary mshOneOne mshOneOne_in (msh_two_blocks _ _ (by decide)) (by decide) ("triangle", [[0, 1, 2]])
    (by decide) (by decide)

theorem C30_roundtrip_false : ¬ C30_roundtrip_statement := by
  intro h
  obtain ⟨s, out, h1, h2, -⟩ := h true mshOneOne mshOneOne_in (msh_two_blocks _ _ (by decide))
  obtain ⟨s', h1', h2'⟩ := mshOneOne_refused true
  rw [h1] at h1'
  injection h1' with h1'
  subst h1'
  rw [h2] at h2'
  cases h2'

theorem C32_roundtrip_false : ¬ C32_roundtrip_statement := by
  intro h
  obtain ⟨s, out, h1, h2, -⟩ := h true mshOneOne mshOneOne_in (msh_two_blocks _ _ (by decide))
  obtain ⟨s', h1', h2'⟩ := mshOneOne_refused true
  rw [h1] at h1'
  injection h1' with h1'
  subst h1'
  rw [h2] at h2'
  cases h2'

/-- A file with a prism of 15 nodes. -/
def mshWedge : MshFile Word where
  pre := []
  mid := []
  post := []
  ids := numbersFrom 1 15
  points := List.replicate 15 [Word.of 0, Word.of 0, Word.of 0]
  chunks := [[⟨1, "wedge15", [], List.range 15⟩]]

example : Gmsh22.read GmshFloat.word (mshWedge.text GmshFloat.word true) = .error .keyError := by
  apply C30_refuses_types GmshFloat.word true mshWedge _ (by simp)
  · intro h
    exact absurd (h ⟨1, "wedge15", [], List.range 15⟩ (by simp [mshWedge, MshFile.elems])) (by decide +kernel)
  · refine ⟨⟨by decide +kernel, by decide +kernel⟩, ⟨by decide, by decide, by decide⟩, ?_, ?_, by simp [mshWedge, MshFile.secs], by decide, by decide,
      ⟨by decide, by decide, by decide⟩, by decide⟩
    · intro e he
      have : e = ⟨1, "wedge15", [], List.range 15⟩ := by simpa [mshWedge, MshFile.elems] using he
      subst this
      exact ⟨⟨by decide +kernel, by decide +kernel, by decide, ⟨by decide, by decide⟩⟩, by decide⟩
    · intro i _
      right
      intro e he
      have : e = ⟨1, "wedge15", [], List.range 15⟩ := by simpa [mshWedge, MshFile.elems] using he
      subst this
      exact Nat.zero_le _

end Meshio.Props
