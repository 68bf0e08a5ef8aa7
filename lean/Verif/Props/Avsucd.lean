/-
C45 (and C31 for AVS-UCD): what an AVS-UCD file says is what is read, whatever the numbers of nodes and cells; meshes are
written as such files and read back.
-/
import Verif.Proofs.Avsucd
namespace Meshio.Props
open Spec Avsucd Types Tables
open Netgen (nl)

variable {F : Type}

theorem avs_width_ne {l : List (DataIn F)} (h : (l.map (·.width)).sum ≠ 0 ∨ l = []) : ((l.map (·.width)).sum : Nat) ≠ 0 ↔ l ≠ [] := by
  constructor
  · intro h1 h2
    rw [h2] at h1
    exact h1 rfl
  · intro h1
    rcases h with h | h
    · exact h
    · exact absurd h h1

theorem avs_lines_noNewline (f : AvsFile F) (h : f.Ok) (fmt fmtData : F → List Char) (h1 : ∀ x, IsTok (fmt x))
    (h2 : ∀ x, IsTok (fmtData x)) : ∀ l ∈ f.lines fmt fmtData, '\n' ∉ l := by
  have hdata : ∀ (d : AvsData F) (n : Nat) (ids : List Int), d.Ok n → ∀ l ∈ d.lines fmtData ids, '\n' ∉ l := by
    intro d n ids hd l hl
    unfold AvsData.lines at hl
    split at hl
    · simp at hl
    · rcases List.mem_cons.1 hl with rfl | hl
      · refine no_newline_line _ ?_
        intro x hx
        rcases List.mem_cons.1 hx with rfl | hx
        · exact isTok_fmtNat _
        · obtain ⟨a, -, rfl⟩ := List.mem_map.1 hx
          exact isTok_fmtNat _
      · rcases List.mem_append.1 hl with hl | hl
        · obtain ⟨a, ha, rfl⟩ := List.mem_map.1 hl
          intro hm
          rcases List.mem_append.1 hm with hm | hm
          · exact (hd.names a ha).2.2 hm
          · rcases List.mem_cons.1 hm with hm | hm
            · exact absurd hm (by decide)
            · exact hd.unit hm
        · obtain ⟨p, -, rfl⟩ := List.mem_map.1 hl
          refine no_newline_line _ ?_
          intro x hx
          rcases List.mem_cons.1 hx with rfl | hx
          · exact isTok_fmtInt _
          · obtain ⟨y, -, rfl⟩ := List.mem_map.1 hx
            exact h2 y
  intro l hl
  unfold AvsFile.lines at hl
  rcases List.mem_append.1 hl with hl | hl
  · exact (h.comments l hl).2
  · rcases List.mem_cons.1 hl with rfl | hl
    · refine no_newline_line _ ?_
      intro x hx
      simp only [List.mem_cons, List.not_mem_nil, or_false] at hx
      rcases hx with rfl | rfl | rfl | rfl | rfl
      · exact isTok_fmtNat _
      · exact isTok_fmtNat _
      · exact isTok_fmtNat _
      · exact isTok_fmtNat _
      · exact isTok_fmtNat 0
    · rcases List.mem_append.1 hl with hl | hl
      · obtain ⟨i, p, -, rfl⟩ := mem_zipWith_exists hl
        refine no_newline_line _ ?_
        intro x hx
        rcases List.mem_cons.1 hx with rfl | hx
        · exact isTok_fmtInt _
        · obtain ⟨y, -, rfl⟩ := List.mem_map.1 hx
          exact h1 y
      · rcases List.mem_append.1 hl with hl | hl
        · obtain ⟨c, hc, rfl⟩ := List.mem_map.1 hl
          exact no_newline_line _ (words_tok f.ids _ c (h.cells c hc))
        · rcases List.mem_append.1 hl with hl | hl
          · exact hdata _ _ _ h.pointData l hl
          · exact hdata _ _ _ h.cellData l hl

/-- The blocks, before and after the reordering of their rows. -/
theorem avs_blocks (f : AvsFile F) (h : f.Ok) :
    ∃ g, (f.cells.map fun c => (c.type, (avsOrder c.type c.row).map Int.ofNat, c.material)).foldl pushTyped [] = g ∧
      mapRes finishBlock g = .ok (f.blocks.map fun b => (b.1, b.2.map (·.1))) ∧
      g.map (fun b => b.2.map (·.2)) = f.blocks.map fun b => b.2.map (·.2) := by
  let l : List (String × List Nat × Int) := f.cells.map fun c => (c.type, c.row, c.material)
  have e1 : (f.cells.map fun c => (c.type, (avsOrder c.type c.row).map Int.ofNat, c.material)) =
      l.map fun a => (a.1, (fun (t : String) (r : List Nat × Int) => ((avsOrder t r.1).map Int.ofNat, r.2)) a.1 a.2) := by
    rw [List.map_map]; rfl
  have e2 : f.blocks = (groupRuns l).map fun b => (b.1, b.2.map fun r => (r.1.map Int.ofNat, r.2)) := by
    unfold AvsFile.blocks
    rw [← groupRuns_map (fun r : List Nat × Int => (r.1.map Int.ofNat, r.2)) l, List.map_map]
    rfl
  refine ⟨_, rfl, ?_, ?_⟩
  · rw [foldl_pushTyped, e1,
      groupRuns_mapKey (fun (t : String) (r : List Nat × Int) => ((avsOrder t r.1).map Int.ofNat, r.2)) l, e2, Xdmf.mapRes_map,
      mapRes_ok_of_forall (g := fun b : String × List (List Nat × Int) => (b.1, b.2.map fun r => r.1.map Int.ofNat))]
    · rw [List.map_map]
      congr 1
      refine List.map_congr_left ?_
      intro b _
      simp
    · intro b hb
      refine finishBlock_ok b ?_
      intro r hr
      have := mem_groupRuns l b hb r hr
      obtain ⟨c, hc, e⟩ := List.mem_map.1 this
      rw [Prod.mk.injEq] at e
      rw [← e.1, ← e.2]
      exact (h.cells c hc).1
  · rw [foldl_pushTyped, e1,
      groupRuns_mapKey (fun (t : String) (r : List Nat × Int) => ((avsOrder t r.1).map Int.ofNat, r.2)) l, e2, List.map_map, List.map_map]
    refine List.map_congr_left ?_
    intro b _
    simp

/-- Everything up to the final checks. -/
theorem avs_read (io : AvsFloat F) (f : AvsFile F) (h : f.Ok) (h1 : f.points.length ≠ 1)
    (hm : ∀ a ∈ f.cellData.arrays, underscores a.name ≠ "avsucd:material".toList) :
    Avsucd.read io.parse (fileLines (linesText (f.lines io.fmt io.fmt14))) =
      if f.cellData.arrays ≠ [] ∧ 1 < f.blocks.length then .error .typeError
      else if f.cellData.arrays ≠ [] ∧ f.blocks.length ≠ 1 then .error .valueError
      else .ok ⟨f.points, f.blocks.map fun b => (b.1, b.2.map (·.1)), f.blocks.map fun b => b.2.map (·.2),
        f.pointData.out io.round14, f.cellData.out io.round14⟩ := by
  rw [fileLines_linesText' _ (avs_lines_noNewline f h _ _ io.tok io.tok14)]
  change Avsucd.read io.parse ((f.lines io.fmt io.fmt14).map nl) = _
  obtain ⟨w, hw⟩ := h.points
  unfold AvsFile.lines
  rw [List.map_append, List.map_cons, List.map_append, List.map_append, List.map_append]
  unfold Avsucd.read
  rw [readHeader_ok _ (fun l hl => (h.comments l hl).1)]
  simp only
  rw [readNodes_ok io f.ids f.points h.ids.2 w hw h1]
  simp only [Int.toNat_natCast]
  have hcl : (∀ c ∈ f.cells, c.Ok f.ids.length) := by rw [h.ids.2]; exact h.cells
  rw [readCellLines_ok f.ids h.ids.1 f.cells hcl]
  simp only [List.nil_append]
  obtain ⟨g, hg1, hg2, hg3⟩ := avs_blocks f h
  rw [hg1, hg2]
  simp only
  have hp : (if ((((f.pointData.arrays.map (·.width)).sum : Nat) : Int)) ≠ 0 then
      readData io.parse f.points.length f.ids ((f.pointData.lines io.fmt14 f.ids).map nl ++
        (f.cellData.lines io.fmt14 (f.cells.map (·.id))).map nl)
      else .ok ([], (f.pointData.lines io.fmt14 f.ids).map nl ++ (f.cellData.lines io.fmt14 (f.cells.map (·.id))).map nl)) =
      .ok (f.pointData.out io.round14, (f.cellData.lines io.fmt14 (f.cells.map (·.id))).map nl) := by
    by_cases ha : f.pointData.arrays = []
    · rw [if_neg (by rw [ha]; simp)]
      have e1 : f.pointData.lines io.fmt14 f.ids = [] := by unfold AvsData.lines; rw [if_pos ha]
      have e2 : f.pointData.out io.round14 = [] := by unfold AvsData.out; rw [ha]; rfl
      rw [e1, e2]
      rfl
    · rw [if_pos (by have := (avs_width_ne h.pointData.widths).2 ha; omega)]
      have := readData_ok io.parse io.fmt14 io.round14 io.parse14 io.tok14 f.ids h.ids.1 f.pointData
        (by rw [h.ids.2]; exact h.pointData) ha ((f.cellData.lines io.fmt14 (f.cells.map (·.id))).map nl)
      rw [h.ids.2] at this
      exact this
  rw [hp]
  simp only
  have hlen : (f.cells.map (·.id)).length = f.cells.length := List.length_map _
  have hc : (if ((((f.cellData.arrays.map (·.width)).sum : Nat) : Int)) ≠ 0 then
      readData io.parse f.cells.length (f.cells.map (·.id)) ((f.cellData.lines io.fmt14 (f.cells.map (·.id))).map nl)
      else .ok ([], (f.cellData.lines io.fmt14 (f.cells.map (·.id))).map nl)) =
      .ok (f.cellData.out io.round14, []) := by
    by_cases ha : f.cellData.arrays = []
    · rw [if_neg (by rw [ha]; simp)]
      have e1 : f.cellData.lines io.fmt14 (f.cells.map (·.id)) = [] := by unfold AvsData.lines; rw [if_pos ha]
      have e2 : f.cellData.out io.round14 = [] := by unfold AvsData.out; rw [ha]; rfl
      rw [e1, e2]
      rfl
    · rw [if_pos (by have := (avs_width_ne h.cellData.widths).2 ha; omega)]
      have := readData_ok io.parse io.fmt14 io.round14 io.parse14 io.tok14 (f.cells.map (·.id)) h.cellIds f.cellData
        (by rw [hlen]; exact h.cellData) ha []
      rw [hlen, List.append_nil] at this
      exact this
  rw [hc]
  simp only [List.length_map]
  have hw' : ((((f.cellData.arrays.map (·.width)).sum : Nat) : Int)) ≠ 0 ↔ f.cellData.arrays ≠ [] := by
    rw [← avs_width_ne h.cellData.widths]
    omega
  have ho : f.cellData.out io.round14 ≠ [] ↔ f.cellData.arrays ≠ [] := by
    unfold AvsData.out
    simp
  have hmat : ((f.cellData.out io.round14).any fun d => decide (d.name = "avsucd:material".toList)) = false := by
    rw [List.any_eq_false]
    intro d hd
    unfold AvsData.out at hd
    obtain ⟨a, ha, rfl⟩ := List.mem_map.1 hd
    rw [decide_eq_true_eq]
    exact hm a ha
  simp only [hw', ho, hmat, hg3, Bool.false_eq_true, if_false, ne_eq, not_true_eq_false, and_false]

/-- C45 (reading): an AVS-UCD file is read as what it says.  Nodes and cells may carry any distinct numbers, in any order, and
the rows of a table may come in any order: cells are connected to the points carrying the listed numbers, neighbouring cells of
equal type form the blocks, and each row of data goes to the point or cell it names.  (Cell data needs all cells in one block,
see `C45_refuses_mixed`, and a file needs more than one node, see `C45_one_node`.) -/
theorem C45_read (io : AvsFloat F) (f : AvsFile F) (h : f.Ok) (h1 : f.points.length ≠ 1)
    (hm : ∀ a ∈ f.cellData.arrays, underscores a.name ≠ "avsucd:material".toList)
    (hb : f.cellData.arrays = [] ∨ f.blocks.length = 1) :
    Avsucd.read io.parse (fileLines (linesText (f.lines io.fmt io.fmt14))) =
      .ok ⟨f.points, f.blocks.map fun b => (b.1, b.2.map (·.1)), f.blocks.map fun b => b.2.map (·.2),
        f.pointData.out io.round14, f.cellData.out io.round14⟩ := by
  rw [avs_read io f h h1 hm, if_neg, if_neg]
  · rintro ⟨h2, h3⟩
    rcases hb with hb | hb
    · exact h2 hb
    · exact h3 hb
  · rintro ⟨h2, h3⟩
    rcases hb with hb | hb
    · exact h2 hb
    · omega

/-- C31 (AVS-UCD): the point that a cell refers to by a number is the one that carries this number, for all distinct numbers
in any order. -/
theorem C31_avsucd (io : AvsFloat F) (f : AvsFile F) (h : f.Ok) (h1 : f.points.length ≠ 1)
    (hd : f.cellData.arrays = []) :
    ∃ m, Avsucd.read io.parse (fileLines (linesText (f.lines io.fmt io.fmt14))) = .ok m ∧ m.points = f.points ∧
      rowsOf m.cells = f.cells.map fun c => (c.type, c.row.map Int.ofNat) := by
  refine ⟨_, C45_read io f h h1 (by rw [hd]; simp) (Or.inl hd), rfl, ?_⟩
  have := rowsOf_groupRuns (f.cells.map fun c => (c.type, c.row.map Int.ofNat))
  rw [← this]
  congr 1
  unfold AvsFile.blocks
  rw [← groupRuns_map (fun r : List Int × Int => r.1), List.map_map]
  rfl

/-- C45 (refusal): a file with cell data whose cells do not form a single block cannot be read: TypeError. -/
theorem C45_refuses_mixed (io : AvsFloat F) (f : AvsFile F) (h : f.Ok) (h1 : f.points.length ≠ 1)
    (hm : ∀ a ∈ f.cellData.arrays, underscores a.name ≠ "avsucd:material".toList)
    (hd : f.cellData.arrays ≠ []) (hb : 1 < f.blocks.length) :
    Avsucd.read io.parse (fileLines (linesText (f.lines io.fmt io.fmt14))) = .error .typeError := by
  rw [avs_read io f h h1 hm, if_pos ⟨hd, hb⟩]

/-- C45 (refusal): a file with exactly one node cannot be read: IndexError. -/
theorem C45_one_node (io : AvsFloat F) (f : AvsFile F) (h : f.Ok) (h1 : f.points.length = 1) :
    Avsucd.read io.parse (fileLines (linesText (f.lines io.fmt io.fmt14))) = .error .indexError := by
  rw [fileLines_linesText' _ (avs_lines_noNewline f h _ _ io.tok io.tok14)]
  change Avsucd.read io.parse ((f.lines io.fmt io.fmt14).map nl) = _
  have hi := h.ids.2
  obtain ⟨p, hp⟩ := List.length_eq_one_iff.1 h1
  obtain ⟨i, hii⟩ := List.length_eq_one_iff.1 (hi.trans h1)
  unfold AvsFile.lines
  rw [List.map_append, List.map_cons, List.map_append, List.map_append, List.map_append]
  unfold Avsucd.read
  rw [readHeader_ok _ (fun l hl => (h.comments l hl).1)]
  simp only [hp, hii, List.zipWith_cons_cons, List.zipWith_nil_left, List.map_cons, List.map_nil]
  unfold readNodes
  have ht := Netgen.takeRows_lines [fmtInt i :: p.map io.fmt] (by simp) (by
    intro r hr t ht
    rw [List.mem_singleton] at hr
    subst hr
    rcases List.mem_cons.1 ht with rfl | ht
    · exact ⟨isTok_fmtInt _, not_mem_fmtInt (by decide) (by decide) _⟩
    · obtain ⟨z, -, rfl⟩ := List.mem_map.1 ht
      exact ⟨io.tok z, io.noHash z⟩)
  simp only [List.length_cons, List.length_nil, List.map_cons, List.map_nil, Nat.zero_add] at ht
  rw [if_pos (by simp)]
  simp only [List.length_cons, List.length_nil, Nat.zero_add, Int.toNat_natCast, ht]
  have hr : mapRes (readNode io.parse) [fmtInt i :: p.map io.fmt] = .ok [(i, p)] := by
    rw [mapRes, mapRes, readNode]
    simp only [parseInt_fmtInt]
    rw [num_fmt io.parse io.fmt id io.parse_fmt, List.map_id]
  rw [hr]
  rfl

/-! ### Unknown numbers and types -/

theorem mapRes_idGet_missing (ids : List Int) (nodes : List Int) (k : Int) (hk : k ∈ nodes) (h : k ∉ ids) :
    mapRes (idGet ids) nodes = .error .keyError := by
  induction nodes with
  | nil => simp at hk
  | cons x nodes ih =>
    rw [mapRes]
    by_cases hx : x ∈ ids
    · have hkn : k ∈ nodes := by
        rcases List.mem_cons.1 hk with rfl | e
        · exact absurd hx h
        · exact e
      rw [ih hkn]
      cases hg : idGet ids x with
      | ok v => rfl
      | error e =>
        have : ∀ e, idGet ids x = .error e → e = .keyError := by
          intro e he
          unfold idGet at he
          split at he
          · cases he
          · cases he; rfl
        rw [this e hg]
    · rw [idGet_not_mem ids x hx]

/-- The beginning of a file up to a cell that cannot be read. -/
theorem avs_bad_cell (io : AvsFloat F) (f : AvsFile F) (h : f.Ok) (h1 : f.points.length ≠ 1) (k a b : Nat) (hk : f.cells.length < k)
    (bad : List Char) (e : Err) (he : readCell f.ids bad = .error e) (rest : List (List Char)) :
    Avsucd.read io.parse (f.comments.map nl ++
      nl (joinWith ' ' [fmtNat f.points.length, fmtNat k, fmtNat a, fmtNat b, ['0']]) ::
      ((List.zipWith (fun i p => joinWith ' ' (fmtInt i :: p.map io.fmt)) f.ids f.points).map nl ++
      ((f.cells.map fun c => joinWith ' ' (c.words f.ids)).map nl ++ bad :: rest))) = .error e := by
  obtain ⟨w, hw⟩ := h.points
  unfold Avsucd.read
  rw [readHeader_ok _ (fun l hl => (h.comments l hl).1)]
  simp only
  rw [readNodes_ok io f.ids f.points h.ids.2 w hw h1]
  simp only [Int.toNat_natCast]
  have hcl : (∀ c ∈ f.cells, c.Ok f.ids.length) := by rw [h.ids.2]; exact h.cells
  have : ∀ (cs : List AvsCell) (k : Nat) (cids : List Int) (st : List (String × List (List Int × Int))),
      (∀ c ∈ cs, c.Ok f.ids.length) → cs.length < k →
      readCellLines f.ids k ((cs.map fun c => joinWith ' ' (c.words f.ids)).map nl ++ bad :: rest) cids st = .error e := by
    intro cs
    induction cs with
    | nil =>
      intro k cids st _ hk
      cases k with
      | zero => simp at hk
      | succ k =>
        rw [readCellLines]
        simp only [List.map_nil, List.nil_append, List.headD_cons, he]
    | cons c cs ih =>
      intro k cids st hcs hk
      cases k with
      | zero => simp at hk
      | succ k =>
        rw [List.map_cons, List.map_cons, List.cons_append, readCellLines]
        simp only [List.headD_cons, List.drop_succ_cons, List.drop_zero]
        rw [readCell_ok f.ids h.ids.1 c (hcs c (by simp))]
        exact ih k _ _ (fun c' h' => hcs c' (by simp [h'])) (by simpa using hk)
  rw [this f.cells k [] [] hcl hk]

/-- C45, C31 (refusal): a cell that refers to a number no node carries is a KeyError, wherever it stands in the file. -/
theorem C45_unknown_node (io : AvsFloat F) (f : AvsFile F) (h : f.Ok) (h1 : f.points.length ≠ 1) (k a b : Nat)
    (hk : f.cells.length < k) (id mat : Int) (t : String) (ht : avsTypes.lookup t ≠ none) (nodes : List Int) (z : Int)
    (hz : z ∈ nodes) (hn : z ∉ f.ids) (rest : List (List Char)) :
    Avsucd.read io.parse (f.comments.map nl ++
      nl (joinWith ' ' [fmtNat f.points.length, fmtNat k, fmtNat a, fmtNat b, ['0']]) ::
      ((List.zipWith (fun i p => joinWith ' ' (fmtInt i :: p.map io.fmt)) f.ids f.points).map nl ++
      ((f.cells.map fun c => joinWith ' ' (c.words f.ids)).map nl ++
        nl (joinWith ' ' (fmtInt id :: fmtInt mat :: avsName t :: nodes.map fmtInt)) :: rest))) = .error .keyError := by
  refine avs_bad_cell io f h h1 k a b hk _ _ ?_ rest
  cases hl : avsTypes.lookup t with
  | none => exact absurd hl ht
  | some v =>
    obtain ⟨name, e1, -, e3, -, e5, -⟩ := avs_type t v.2 (by rw [hl]; rfl)
    have hs : splitWs (nl (joinWith ' ' (fmtInt id :: fmtInt mat :: avsName t :: nodes.map fmtInt))) =
        fmtInt id :: fmtInt mat :: avsName t :: nodes.map fmtInt := by
      refine splitWs_line _ ?_
      intro x hx
      simp only [List.mem_cons] at hx
      rcases hx with rfl | rfl | rfl | hx
      · exact isTok_fmtInt _
      · exact isTok_fmtInt _
      · rw [e1]; exact e5
      · obtain ⟨y, -, rfl⟩ := List.mem_map.1 hx
        exact isTok_fmtInt _
    unfold readCell
    rw [hs]
    simp only [Netgen.intAt, List.getElem?_cons_zero, List.getElem?_cons_succ, parseInt_fmtInt, List.drop_succ_cons,
      List.drop_zero, e1, String.ofList_toList, e3, num_ints, mapRes_idGet_missing f.ids nodes z hz hn]

/-- C45 (refusal): a cell of a type that is not in the table is a KeyError. -/
theorem C45_unknown_type (io : AvsFloat F) (f : AvsFile F) (h : f.Ok) (h1 : f.points.length ≠ 1) (k a b : Nat)
    (hk : f.cells.length < k) (id mat : Int) (t : List Char) (ht : IsTok t) (hu : ∀ e ∈ avsTypes, t ≠ e.2.1.toList)
    (nodes : List Int) (rest : List (List Char)) :
    Avsucd.read io.parse (f.comments.map nl ++
      nl (joinWith ' ' [fmtNat f.points.length, fmtNat k, fmtNat a, fmtNat b, ['0']]) ::
      ((List.zipWith (fun i p => joinWith ' ' (fmtInt i :: p.map io.fmt)) f.ids f.points).map nl ++
      ((f.cells.map fun c => joinWith ' ' (c.words f.ids)).map nl ++
        nl (joinWith ' ' (fmtInt id :: fmtInt mat :: t :: nodes.map fmtInt)) :: rest))) = .error .keyError := by
  refine avs_bad_cell io f h h1 k a b hk _ _ ?_ rest
  have hs : splitWs (nl (joinWith ' ' (fmtInt id :: fmtInt mat :: t :: nodes.map fmtInt))) =
      fmtInt id :: fmtInt mat :: t :: nodes.map fmtInt := by
    refine splitWs_line _ ?_
    intro x hx
    simp only [List.mem_cons] at hx
    rcases hx with rfl | rfl | rfl | hx
    · exact isTok_fmtInt _
    · exact isTok_fmtInt _
    · exact ht
    · obtain ⟨y, -, rfl⟩ := List.mem_map.1 hx
      exact isTok_fmtInt _
  have hf : find avsucdToMeshio (String.ofList t) = none := by
    cases hf : find avsucdToMeshio (String.ofList t) with
    | none => rfl
    | some v =>
      exfalso
      have hm := find_mem hf
      have : ∀ p ∈ avsucdToMeshio, ∃ e ∈ avsTypes, p.1 = e.2.1 := by decide +kernel
      obtain ⟨e, he, h2⟩ := this _ hm
      refine hu e he ?_
      have := congrArg String.toList h2
      simpa using this
  unfold readCell
  rw [hs]
  simp only [Netgen.intAt, List.getElem?_cons_zero, List.getElem?_cons_succ, parseInt_fmtInt, List.drop_succ_cons,
    List.drop_zero, hf]

/-! ### Writing -/

theorem length_rowsOf {κ α : Type} (bs : List (κ × List α)) : (rowsOf bs).length = (bs.map fun b => b.2.length).sum := by
  unfold rowsOf
  rw [List.length_flatMap]
  simp

theorem avs_pad (zero : F) (m : In F) (h : (∀ p ∈ m.points, p.length = 3) ∨ (∀ p ∈ m.points, p.length = 2)) :
    pad zero m.points = avsPoints zero m ∧ ∀ p ∈ avsPoints zero m, p.length = 3 := by
  unfold pad avsPoints
  rcases h with h | h
  · constructor
    · rw [if_neg]
      · symm
        have : ∀ p ∈ m.points, (if p.length = 2 then p ++ [zero] else p) = id p := by
          intro p hp
          rw [if_neg (by rw [h p hp]; decide)]
          rfl
        rw [List.map_congr_left this, List.map_id]
      · cases hm : m.points with
        | nil => simp
        | cons p l =>
          rw [List.headD_cons, h p (by rw [hm]; simp)]
          decide
    · intro q hq
      obtain ⟨p, hp, rfl⟩ := List.mem_map.1 hq
      rw [if_neg (by rw [h p hp]; decide)]
      exact h p hp
  · constructor
    · cases hm : m.points with
      | nil => simp
      | cons p l =>
        rw [List.headD_cons, if_pos (h p (by rw [hm]; simp))]
        refine List.map_congr_left ?_
        intro q hq
        rw [if_pos (h q (by rw [hm]; exact hq))]
    · intro q hq
      obtain ⟨p, hp, rfl⟩ := List.mem_map.1 hq
      rw [if_pos (h p hp), List.length_append, h p hp]
      rfl

theorem zipWith_numbersFrom {α β : Type} (g : Int → α → β) (s : Int) (l : List α) :
    List.zipWith g (numbersFrom s l.length) l = l.zipIdx.map fun pi => g (s + (pi.2 : Int)) pi.1 := by
  apply List.ext_getElem?
  intro i
  rw [List.getElem?_zipWith, List.getElem?_map, List.getElem?_zipIdx]
  unfold numbersFrom
  rw [List.getElem?_map]
  by_cases hi : i < l.length
  · rw [List.getElem?_range hi, List.getElem?_eq_getElem hi]
    simp
  · rw [List.getElem?_eq_none (l := l) (by omega)]
    cases (List.range l.length)[i]? <;> simp

theorem fmtNat_succ (i : Nat) : fmtNat (i + 1) = fmtInt (1 + (i : Int)) := by
  rw [← fmtInt_ofNat]
  congr 1
  omega

theorem numbersFrom_getD (s : Int) (n i : Nat) (hi : i < n) : (numbersFrom s n).getD i 0 = s + i := by
  unfold numbersFrom
  rw [List.getD_eq_getElem?_getD, List.getElem?_map, List.getElem?_range hi]
  rfl

theorem avs_dataLines (io : AvsFloat F) (n : Nat) (l : List (DataIn F)) (hne : l ≠ []) :
    dataLines io.fmt14 n l = (⟨l, " real".toList, List.range n⟩ : AvsData F).lines io.fmt14 (numbersFrom 1 n) := by
  unfold dataLines AvsData.lines
  rw [if_neg hne]
  simp only
  congr 2
  refine List.map_congr_left ?_
  intro i hi
  rw [numbersFrom_getD 1 n i (List.mem_range.1 hi), fmtNat_succ]

theorem avs_rows (m : In F) (h : AvsIn m) : ∀ ri ∈ (rowsOf m.cells).zipIdx, ((avsTypes.lookup ri.1.1).map (·.2)) = some ri.1.2.length ∧
    (∀ z ∈ ri.1.2, 0 ≤ z ∧ z < m.points.length) ∧ ri.2 < (rowsOf m.cells).length := by
  intro ri hri
  have hlt := List.snd_lt_of_mem_zipIdx hri
  have hm := List.fst_mem_of_mem_zipIdx hri
  unfold rowsOf at hm
  obtain ⟨b, hb, hm⟩ := List.mem_flatMap.1 hm
  obtain ⟨r, hr, e⟩ := List.mem_map.1 hm
  obtain ⟨n, h1, h2⟩ := h.cells b hb
  rw [← e]
  refine ⟨?_, (h2 r hr).2, by simpa using hlt⟩
  rw [h1, (h2 r hr).1]

/-- C45 (writing): the file for a mesh is the one which says this mesh, with nodes and cells numbered from one. -/
theorem C45_write (io : AvsFloat F) (version : List Char) (m : In F) (h : AvsIn m) :
    Avsucd.write io version m = .ok ((avsFile version io.zero m).lines io.fmt io.fmt14) := by
  obtain ⟨hp1, hp2⟩ := avs_pad io.zero m h.points
  have hplen : (avsPoints io.zero m).length = m.points.length := List.length_map _
  have hclen := length_rowsOf m.cells
  unfold Avsucd.write
  simp only [hp1]
  rw [if_neg]
  · have hnodes : mapRes (nodeLine io.fmt) (avsPoints io.zero m).zipIdx =
        .ok (List.zipWith (fun i p => joinWith ' ' (fmtInt i :: p.map io.fmt)) (numbersFrom 1 m.points.length) (avsPoints io.zero m)) := by
      rw [← hplen, zipWith_numbersFrom]
      refine mapRes_ok_of_forall ?_
      intro pi hpi
      have := hp2 _ (List.fst_mem_of_mem_zipIdx hpi)
      unfold nodeLine
      obtain ⟨p, i⟩ := pi
      simp only at this ⊢
      match p, this with
      | [x, y, z], _ => simp only [fmtNat_succ]; rfl
    have hord : mapRes orderBlock m.cells = .ok (m.cells.map fun b => b.2.map fun r => (b.1, avsOrder b.1 r)) := by
      refine mapRes_ok_of_forall ?_
      intro b hb
      obtain ⟨n, h1, h2⟩ := h.cells b hb
      unfold orderBlock
      have : ∃ v, find meshioToAvsucdOrder b.1 = some v := by
        obtain ⟨name, -, -, -, -, -, hm⟩ := avs_type b.1 n h1
        have : ∀ e ∈ avsTypes, (find meshioToAvsucdOrder e.1).isSome = true := by decide +kernel
        exact Option.isSome_iff_exists.1 (this _ hm)
      obtain ⟨v, hv⟩ := this
      rw [hv]
      simp only
      rw [mapRes_ok_of_forall (g := avsOrder b.1)]
      · simp only [List.map_map]
        rfl
      · intro r hr
        refine avsOrder_eq b.1 r ?_
        rw [h1, (h2 r hr).1]
    rw [hnodes, hord]
    simp only
    have hflat : (m.cells.map fun b => b.2.map fun r => (b.1, avsOrder b.1 r)).flatten.zipIdx =
        (rowsOf m.cells).zipIdx.map fun ri => ((ri.1.1, avsOrder ri.1.1 ri.1.2), ri.2) := by
      have : (m.cells.map fun b => b.2.map fun r => (b.1, avsOrder b.1 r)).flatten =
          (rowsOf m.cells).map fun r => (r.1, avsOrder r.1 r.2) := by
        unfold rowsOf
        rw [List.map_flatMap, List.flatMap_def]
        congr 1
        refine List.map_congr_left ?_
        intro b _
        rw [List.map_map]
        rfl
      rw [this, List.zipIdx_map]
      rfl
    have hmat : m.material.getD (List.replicate (m.cells.map fun b => b.2.length).sum 0) = avsMaterial m := by
      unfold avsMaterial
      rw [hclen]
    have hml : (avsMaterial m).length = (rowsOf m.cells).length := by
      unfold avsMaterial
      cases hmm : m.material with
      | none => simp
      | some l => exact (h.material l hmm).1
    have hcells : mapRes (cellLine (avsMaterial m)) ((rowsOf m.cells).zipIdx.map fun ri => ((ri.1.1, avsOrder ri.1.1 ri.1.2), ri.2)) =
        .ok ((avsFile version io.zero m).cells.map fun c => joinWith ' ' (c.words (numbersFrom 1 m.points.length))) := by
      rw [Xdmf.mapRes_map]
      unfold avsFile
      simp only [List.map_map]
      refine mapRes_ok_of_forall ?_
      intro ri hri
      obtain ⟨h1, h2, h3⟩ := avs_rows m h ri hri
      obtain ⟨name, e1, e2, -, -, -, -⟩ := avs_type ri.1.1 _ h1
      unfold cellLine
      have hmi : (avsMaterial m)[ri.2]? = some ((avsMaterial m).getD ri.2 0) := by
        rw [List.getD_eq_getElem?_getD, List.getElem?_eq_getElem (by omega)]
        rfl
      simp only [hmi, e2, Function.comp_apply, AvsCell.words, e1, fmtNat_succ]
      congr 5
      have hw : (ri.1.2.map Int.toNat).map (fun p => (numbersFrom 1 m.points.length).getD p 0) = ri.1.2.map fun z => z + 1 := by
        rw [List.map_map]
        refine List.map_congr_left ?_
        intro z hz
        obtain ⟨hz0, hz1⟩ := h2 z hz
        simp only [Function.comp_apply]
        rw [numbersFrom_getD _ _ _ (by omega)]
        omega
      rw [hw, avsOrder_map _ _ _ h1, List.map_map]
      rfl
    rw [hflat, hmat, hcells]
    simp only
    have hpd : (if (m.pointData.map (·.width)).sum ≠ 0 then dataLines io.fmt14 (avsPoints io.zero m).length m.pointData else []) =
        (avsFile version io.zero m).pointData.lines io.fmt14 (numbersFrom 1 m.points.length) := by
      rw [hplen]
      by_cases he : m.pointData = []
      · rw [if_neg (by rw [he]; simp)]
        unfold avsFile AvsData.lines
        rw [if_pos he]
      · rw [if_pos ((avs_width_ne h.pointData.widths).2 he), avs_dataLines io _ _ he]
        rfl
    have hids : (avsFile version io.zero m).cells.map (·.id) = numbersFrom 1 (rowsOf m.cells).length := by
      unfold avsFile numbersFrom
      simp only [List.map_map]
      apply List.ext_getElem?
      intro i
      rw [List.getElem?_map, List.getElem?_map, List.getElem?_zipIdx]
      by_cases hi : i < (rowsOf m.cells).length
      · rw [List.getElem?_range hi, List.getElem?_eq_getElem hi]
        simp
      · rw [List.getElem?_eq_none (l := rowsOf m.cells) (by omega), List.getElem?_eq_none (l := List.range _) (by simpa using hi)]
        rfl
    have hcd : (if (m.cellData.map (·.width)).sum ≠ 0 then dataLines io.fmt14 (m.cells.map fun b => b.2.length).sum m.cellData else []) =
        (avsFile version io.zero m).cellData.lines io.fmt14 ((avsFile version io.zero m).cells.map (·.id)) := by
      rw [hids, ← hclen]
      by_cases he : m.cellData = []
      · rw [if_neg (by rw [he]; simp)]
        unfold avsFile AvsData.lines
        rw [if_pos he]
      · rw [if_pos ((avs_width_ne h.cellData.widths).2 he), avs_dataLines io _ _ he]
        rfl
    rw [hpd, hcd]
    unfold AvsFile.lines
    have hc2 : (avsFile version io.zero m).cells.length = (m.cells.map fun b => b.2.length).sum := by
      unfold avsFile
      simp [hclen]
    rw [hc2]
    simp only [avsFile, List.append_assoc, List.cons_append, List.nil_append, hplen]
  · rintro ⟨h1, h2⟩
    rcases h2 with h2 | h2
    · cases hmm : m.material with
      | none => exact h2 hmm
      | some l => exact (h.material l hmm).2 h1
    · rw [h.noCells h1] at h2
      exact h2 rfl

/-- The file for a mesh is a good one. -/
theorem avsFile_ok (version : List Char) (hv : '\n' ∉ version) (zero : F) (m : In F) (h : AvsIn m) : (avsFile version zero m).Ok where
  comments := by
    intro l hl
    have : l = "# Written by meshio v".toList ++ version := List.mem_singleton.1 hl
    subst this
    refine ⟨by
      have : ("# Written by meshio v".toList ++ version).takeWhile (· ≠ '#') = [] := rfl
      rw [this]
      rfl, ?_⟩
    intro hm
    rcases List.mem_append.1 hm with hm | hm
    · exact absurd hm (by decide)
    · exact hv hm
  ids := ⟨numbersFrom_nodup _ _, by rw [show (avsFile version zero m).ids = numbersFrom 1 m.points.length from rfl, length_numbersFrom]
                                    exact (List.length_map _).symm⟩
  points := ⟨3, (avs_pad zero m h.points).2⟩
  cells := by
    intro c hc
    unfold avsFile at hc
    obtain ⟨ri, hri, rfl⟩ := List.mem_map.1 hc
    obtain ⟨h1, h2, h3⟩ := avs_rows m h ri hri
    refine ⟨by simpa using h1, ?_⟩
    intro p hp
    obtain ⟨z, hz, rfl⟩ := List.mem_map.1 hp
    have := h2 z hz
    have hl : (avsFile version zero m).points.length = m.points.length := List.length_map _
    rw [hl]
    omega
  cellIds := by
    unfold avsFile
    simp only [List.map_map]
    have : (rowsOf m.cells).zipIdx.map ((fun x : AvsCell => x.id) ∘ fun ri : (String × List Int) × Nat =>
        (⟨1 + (ri.2 : Int), (avsMaterial m).getD ri.2 0, ri.1.1, ri.1.2.map Int.toNat⟩ : AvsCell)) =
        numbersFrom 1 (rowsOf m.cells).length := by
      unfold numbersFrom
      apply List.ext_getElem?
      intro i
      rw [List.getElem?_map, List.getElem?_map, List.getElem?_zipIdx]
      by_cases hi : i < (rowsOf m.cells).length
      · rw [List.getElem?_range hi, List.getElem?_eq_getElem hi]
        simp
      · rw [List.getElem?_eq_none (l := rowsOf m.cells) (by omega), List.getElem?_eq_none (l := List.range _) (by simpa using hi)]
        rfl
    rw [this]
    exact numbersFrom_nodup _ _
  pointData := by
    have hl : (avsFile version zero m).points.length = m.points.length := List.length_map _
    rw [hl]
    exact ⟨h.pointData.names, (by decide : '\n' ∉ " real".toList), h.pointData.distinct, h.pointData.rows, h.pointData.order, h.pointData.widths⟩
  cellData := by
    have hl : (avsFile version zero m).cells.length = (rowsOf m.cells).length := by unfold avsFile; simp
    rw [hl]
    exact ⟨h.cellData.names, (by decide : '\n' ∉ " real".toList), h.cellData.distinct, h.cellData.rows, h.cellData.order, h.cellData.widths⟩

theorem avsFile_blocks (version : List Char) (zero : F) (m : In F) (h : AvsIn m) :
    (avsFile version zero m).blocks = groupRuns (avsCells m) := by
  unfold AvsFile.blocks
  congr 1
  have hml : (avsMaterial m).length = (rowsOf m.cells).length := by
    unfold avsMaterial
    cases hmm : m.material with
    | none => simp
    | some l => exact (h.material l hmm).1
  unfold avsFile avsCells
  simp only [List.map_map]
  apply List.ext_getElem?
  intro i
  rw [List.getElem?_map, List.getElem?_zipIdx, List.getElem?_zipWith]
  by_cases hi : i < (rowsOf m.cells).length
  · rw [List.getElem?_eq_getElem hi, List.getElem?_eq_getElem (l := avsMaterial m) (by omega)]
    simp only [Option.map_some, Function.comp_apply, Option.some.injEq, Prod.mk.injEq, true_and, Nat.zero_add]
    refine ⟨?_, ?_⟩
    · have hm := List.getElem_mem hi
      have := avs_rows m h ((rowsOf m.cells)[i], i) (by
        rw [List.mem_zipIdx_iff_getElem?]
        exact List.getElem?_eq_getElem hi)
      rw [List.map_map]
      have hz : ∀ z ∈ (rowsOf m.cells)[i].2, (Int.ofNat ∘ Int.toNat) z = id z := by
        intro z hz
        have := (this.2.1 z hz).1
        simp only [Function.comp_apply, id]
        exact Int.toNat_of_nonneg this
      rw [List.map_congr_left hz, List.map_id]
    · rw [List.getD_eq_getElem?_getD, List.getElem?_eq_getElem (by omega)]
      rfl
  · rw [List.getElem?_eq_none (l := rowsOf m.cells) (by omega)]
    rfl

/-- C45: a mesh written to an AVS-UCD file is read back: its points (with a third coordinate), its cells with neighbouring
blocks of equal type fused, their materials (zeros if there were none), and its data, with values rounded to fourteen decimals.
Missing from the full property: meshes with a single point and meshes with cell data whose cells do not form one block (see
`C45_one_node` and `C45_refuses_mixed`); the values of data are rounded; names with commas or blanks change. -/
theorem C45_roundtrip_partial (io : AvsFloat F) (version : List Char) (hv : '\n' ∉ version) (m : In F) (h : AvsIn m)
    (h1 : m.points.length ≠ 1) (hm : ∀ a ∈ m.cellData, underscores a.name ≠ "avsucd:material".toList)
    (hb : m.cellData = [] ∨ (groupRuns (avsCells m)).length = 1) :
    ∃ ls, Avsucd.write io version m = .ok ls ∧ Avsucd.read io.parse (fileLines (linesText ls)) =
      .ok ⟨avsPoints io.zero m, (groupRuns (avsCells m)).map fun b => (b.1, b.2.map (·.1)),
        (groupRuns (avsCells m)).map fun b => b.2.map (·.2),
        m.pointData.map fun a => ⟨underscores a.name, a.width, a.rows.map fun r => some (r.map io.round14)⟩,
        m.cellData.map fun a => ⟨underscores a.name, a.width, a.rows.map fun r => some (r.map io.round14)⟩⟩ := by
  refine ⟨_, C45_write io version m h, ?_⟩
  have hl : (avsFile version io.zero m).points.length = m.points.length := List.length_map _
  rw [C45_read io _ (avsFile_ok version hv io.zero m h) (by rw [hl]; exact h1) hm (by rw [avsFile_blocks _ _ m h]; exact hb),
    avsFile_blocks _ _ m h]
  rfl

/-- C45: when the blocks of a mesh are not empty and neighbours have different types, blocks come back as they were. -/
theorem C45_same_blocks (io : AvsFloat F) (version : List Char) (hv : '\n' ∉ version) (m : In F) (h : AvsIn m)
    (h1 : m.points.length ≠ 1) (hd : m.cellData = []) (hne : ∀ b ∈ m.cells, b.2 ≠ [])
    (ht : ∀ pre a b post, m.cells = pre ++ a :: b :: post → a.1 ≠ b.1) :
    ∃ ls o, Avsucd.write io version m = .ok ls ∧ Avsucd.read io.parse (fileLines (linesText ls)) = .ok o ∧
      o.cells = m.cells ∧ o.material.flatten = avsMaterial m := by
  obtain ⟨ls, h2, h3⟩ := C45_roundtrip_partial io version hv m h h1 (by rw [hd]; simp) (Or.inl hd)
  refine ⟨ls, _, h2, h3, ?_, ?_⟩
  · simp only
    rw [← groupRuns_map (fun r : List Int × Int => r.1)]
    have : (avsCells m).map (fun a => (a.1, a.2.1)) = rowsOf m.cells := by
      unfold avsCells
      rw [List.map_zipWith]
      have hml : (avsMaterial m).length = (rowsOf m.cells).length := by
        unfold avsMaterial
        cases hmm : m.material with
        | none => simp
        | some l => exact (h.material l hmm).1
      apply List.ext_getElem?
      intro i
      rw [List.getElem?_zipWith]
      by_cases hi : i < (rowsOf m.cells).length
      · rw [List.getElem?_eq_getElem hi, List.getElem?_eq_getElem (l := avsMaterial m) (by omega)]
      · rw [List.getElem?_eq_none (l := rowsOf m.cells) (by omega)]
    rw [this]
    exact groupRuns_rowsOf _ hne ht
  · simp only
    have h5 : ∀ g : List (String × List (List Int × Int)), (g.map fun b => b.2.map (·.2)).flatten = (rowsOf g).map (·.2.2) := by
      intro g
      unfold rowsOf
      rw [List.map_flatMap, List.flatMap_def]
      congr 1
      refine List.map_congr_left ?_
      intro b _
      rw [List.map_map]
      rfl
    have h4 := h5 (groupRuns (avsCells m))
    rw [rowsOf_groupRuns] at h4
    rw [h4]
    unfold avsCells
    rw [List.map_zipWith]
    have hml : (avsMaterial m).length = (rowsOf m.cells).length := by
      unfold avsMaterial
      cases hmm : m.material with
      | none => simp
      | some l => exact (h.material l hmm).1
    apply List.ext_getElem?
    intro i
    rw [List.getElem?_zipWith]
    by_cases hi : i < (rowsOf m.cells).length
    · rw [List.getElem?_eq_getElem hi, List.getElem?_eq_getElem (l := avsMaterial m) (by omega)]
    · rw [List.getElem?_eq_none (l := rowsOf m.cells) (by omega), List.getElem?_eq_none (l := avsMaterial m) (by omega)]

/-- C45 (refusal): a block of a type that the format does not have is a KeyError. -/
theorem C45_write_unknown (io : AvsFloat F) (version : List Char) (m : In F)
    (hp : (∀ p ∈ m.points, p.length = 3) ∨ (∀ p ∈ m.points, p.length = 2)) (pre post : List (String × List (List Int)))
    (b : String × List (List Int)) (hm : m.cells = pre ++ b :: post) (hb : avsTypes.lookup b.1 = none)
    (hpre : ∀ b ∈ pre, ∃ n, ((avsTypes.lookup b.1).map (·.2)) = some n ∧ ∀ r ∈ b.2, r.length = n) :
    Avsucd.write io version m = .error .keyError := by
  obtain ⟨hp1, hp2⟩ := avs_pad io.zero m hp
  unfold Avsucd.write
  simp only [hp1]
  rw [if_neg (by rw [hm]; simp), mapRes_ok_of_forall (g := fun pi : List F × Nat => joinWith ' ' (fmtNat (pi.2 + 1) :: pi.1.map io.fmt))]
  · have hbad : orderBlock b = .error .keyError := by
      unfold orderBlock
      cases hf : find meshioToAvsucdOrder b.1 with
      | none => rfl
      | some v =>
        exfalso
        have := find_mem hf
        have ht : ∀ p ∈ meshioToAvsucdOrder, (avsTypes.lookup p.1).isSome = true := by decide +kernel
        have := ht _ this
        simp only [hb] at this
        cases this
    have : mapRes orderBlock m.cells = .error .keyError := by
      rw [hm]
      clear hm
      induction pre with
      | nil => rw [List.nil_append, mapRes, hbad]
      | cons c pre ih =>
        rw [List.cons_append, mapRes, ih (fun b' h' => hpre b' (by simp [h']))]
        obtain ⟨n, h1, h2⟩ := hpre c (by simp)
        cases hc : orderBlock c with
        | ok v => rfl
        | error e =>
          exfalso
          unfold orderBlock at hc
          have hs : ∃ v, find meshioToAvsucdOrder c.1 = some v := by
            obtain ⟨name, -, -, -, -, -, hmm⟩ := avs_type c.1 n h1
            have : ∀ e ∈ avsTypes, (find meshioToAvsucdOrder e.1).isSome = true := by decide +kernel
            exact Option.isSome_iff_exists.1 (this _ hmm)
          obtain ⟨v, hv⟩ := hs
          rw [hv] at hc
          simp only at hc
          rw [mapRes_ok_of_forall (g := avsOrder c.1)] at hc
          · cases hc
          · intro r hr
            exact avsOrder_eq c.1 r (by rw [h1, h2 r hr])
    rw [this]
  · intro pi hpi
    have := hp2 _ (List.fst_mem_of_mem_zipIdx hpi)
    unfold nodeLine
    obtain ⟨p, i⟩ := pi
    simp only at this ⊢
    match p, this with
    | [x, y, z], _ => rfl

/-! ### The hypotheses are met, and what is false -/

/-- Integers as floats. -/
def avsInt : AvsFloat Int where
  toFloatIO := FloatIO.int
  noHash := fun x => not_mem_fmtInt (by decide) (by decide) x
  zero := 0
  fmt14 := fmtInt
  tok14 := isTok_fmtInt
  round14 := id
  parse14 := fun x => parseInt_fmtInt x

/-- A file with unsorted numbers, a comment, point data given in another order, and cells of two types. -/
def avsSample : AvsFile Int where
  comments := ["# by hand".toList, []]
  ids := [70, 3, 12, 5]
  points := [[0, 0, 0], [1, 0, 0], [0, 1, 0], [0, 0, 1]]
  cells := [⟨9, 4, "tetra", [0, 1, 2, 3]⟩, ⟨2, 1, "triangle", [2, 1, 0]⟩]
  pointData := ⟨[⟨"some name".toList, 1, [[5], [6], [7], [8]]⟩, ⟨"v".toList, 2, [[1, 2], [3, 4], [5, 6], [7, 8]]⟩], " m/s".toList, [2, 0, 3, 1]⟩
  cellData := ⟨[], [], [1, 0]⟩

theorem avsSample_ok : avsSample.Ok where
  comments := by decide
  ids := by decide
  points := ⟨3, by decide⟩
  cells := by
    have : ∀ c ∈ avsSample.cells, ((avsTypes.lookup c.type).map (·.2)) = some c.row.length ∧ ∀ p ∈ c.row, p < avsSample.points.length := by
      decide +kernel
    exact this
  cellIds := by decide
  pointData := ⟨by decide +kernel, by decide, by decide +kernel, by decide, by decide, by decide⟩
  cellData := ⟨by decide, by decide, by decide, by decide, by decide, by decide⟩

example : Avsucd.read avsInt.parse (fileLines (linesText (avsSample.lines avsInt.fmt avsInt.fmt14))) =
    .ok ⟨avsSample.points, [("tetra", [[0, 1, 2, 3]]), ("triangle", [[2, 1, 0]])], [[4], [1]],
      [⟨"some_name".toList, 1, [some [5], some [6], some [7], some [8]]⟩,
       ⟨"v".toList, 2, [some [1, 2], some [3, 4], some [5, 6], some [7, 8]]⟩], []⟩ := by
  rw [C45_read avsInt avsSample avsSample_ok (by decide) (by decide) (Or.inl rfl)]
  decide +kernel

/-- A mesh with a material per cell, cell data and two blocks of different type. -/
def avsMixed : In Int where
  points := [[0, 0], [1, 0], [0, 1], [1, 1]]
  cells := [("triangle", [[0, 1, 2]]), ("line", [[0, 1]])]
  material := some [3, 4]
  pointData := []
  cellData := [⟨"t".toList, 1, [[5], [6]]⟩]

theorem avsMixed_ok : AvsIn avsMixed where
  points := Or.inr (by decide)
  cells := by
    intro b hb
    have : b = ("triangle", [[0, 1, 2]]) ∨ b = ("line", [[0, 1]]) := by
      simpa [avsMixed] using hb
    rcases this with rfl | rfl
    · exact ⟨3, by decide, by decide⟩
    · exact ⟨2, by decide, by decide⟩
  material := by
    intro l hl
    have : l = [3, 4] := (Option.some.inj hl).symm
    subst this
    exact ⟨by decide, by decide⟩
  pointData := ⟨by decide, by decide, by decide, by decide, by decide, by decide⟩
  cellData := ⟨by decide, by decide, by decide, by decide, by decide, by decide⟩
  noCells := by decide

/-- The same without the second block. -/
def avsOne : In Int := { avsMixed with cells := [("triangle", [[0, 1, 2]]), ("triangle", [[2, 1, 3]])] }

theorem avsOne_ok : AvsIn avsOne where
  points := Or.inr (by decide)
  cells := by
    intro b hb
    have : b = ("triangle", [[0, 1, 2]]) ∨ b = ("triangle", [[2, 1, 3]]) := by
      simpa [avsOne] using hb
    rcases this with rfl | rfl
    · exact ⟨3, by decide, by decide⟩
    · exact ⟨3, by decide, by decide⟩
  material := by
    intro l hl
    have : l = [3, 4] := (Option.some.inj hl).symm
    subst this
    exact ⟨by decide, by decide⟩
  pointData := ⟨by decide, by decide, by decide, by decide, by decide, by decide⟩
  cellData := ⟨by decide, by decide, by decide, by decide, by decide, by decide⟩
  noCells := by decide

/-- Two blocks of triangles are fused; materials, cell data and the padded points come back. -/
example : ∃ ls, Avsucd.write avsInt "5".toList avsOne = .ok ls ∧ Avsucd.read avsInt.parse (fileLines (linesText ls)) =
    .ok ⟨[[0, 0, 0], [1, 0, 0], [0, 1, 0], [1, 1, 0]], [("triangle", [[0, 1, 2], [2, 1, 3]])], [[3, 4]], [],
      [⟨"t".toList, 1, [some [5], some [6]]⟩]⟩ := by
  obtain ⟨ls, h1, h2⟩ := C45_roundtrip_partial avsInt "5".toList (by decide) avsOne avsOne_ok (by decide) (by decide)
    (Or.inr (by decide))
  refine ⟨ls, h1, ?_⟩
  rw [h2]
  decide

/-- The full property: every mesh that fits the format comes back. -/
def C45_statement : Prop :=
  ∀ m : In Int, AvsIn m → ∃ ls o, Avsucd.write avsInt [] m = .ok ls ∧
    Avsucd.read avsInt.parse (fileLines (linesText ls)) = .ok o

/-- It is false: with cell data and two types of cells, the file that was written cannot be read. -/
theorem C45_mixed_false : ¬ C45_statement := by
  intro h
  obtain ⟨ls, o, h1, h2⟩ := h avsMixed avsMixed_ok
  rw [C45_write avsInt [] avsMixed avsMixed_ok] at h1
  cases h1
  rw [C45_refuses_mixed avsInt _ (avsFile_ok [] (by decide) avsInt.zero avsMixed avsMixed_ok) (by decide) (by decide) (by decide)
    (by decide)] at h2
  cases h2

/-- A mesh of a single point. -/
def avsPoint : In Int := ⟨[[1, 2, 3]], [("vertex", [[0]])], none, [], []⟩

/-- It is false for a mesh of a single point, too. -/
theorem C45_one_point_false : ¬ C45_statement := by
  intro h
  have hok : AvsIn avsPoint := by
    refine ⟨Or.inl (by decide), ?_, (by intro l hl; cases hl), ⟨by decide, by decide, by decide, by decide, by decide, by decide⟩,
      ⟨by decide, by decide, by decide, by decide, by decide, by decide⟩, by decide⟩
    intro b hb
    have : b = ("vertex", [[0]]) := by simpa [avsPoint] using hb
    subst this
    exact ⟨1, by decide, by decide⟩
  obtain ⟨ls, o, h1, h2⟩ := h avsPoint hok
  rw [C45_write avsInt [] avsPoint hok] at h1
  cases h1
  rw [C45_one_node avsInt _ (avsFile_ok [] (by decide) avsInt.zero avsPoint hok) (by decide)] at h2
  cases h2

end Meshio.Props
