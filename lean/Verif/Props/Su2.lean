/-
C47: SU2 files.

The element lines of a section may mix types: they are grouped by type and every cell is kept, in order; the elements of
a boundary marker get the tag of that marker, and the boundary cells of a type are put together in one block.
-/
import Verif.Model.Mesh
import Verif.Proofs.Su2
namespace Meshio.Props
open Meshio Su2 Types Tables Spec

variable {F : Type}

/-- **Elements of mixed types.**  Whatever the order of the element lines, each type of the section gives one block,
in the order of the codes, with all cells of that type in the order of the lines; an element number at the end of the
lines is not taken for a node. -/
theorem C47_groups (e : Bool) (cs : List Su2Cell) (h : ∀ c ∈ cs, c.Ok (if e then 1 else 0)) :
    translate e (cs.flatMap (·.numbers)) = .ok ((su2Groups 0 cs).map fun b => (b.type, b.rows)) := by
  rw [translate_ok e cs h]
  unfold su2Groups
  rw [List.map_map]
  rfl

/-- No cell is lost or invented: the cells of a type in the blocks of a section are those of its lines. -/
theorem C47_no_loss (tag : Int) (cs : List Su2Cell) (e : Nat) (h : ∀ c ∈ cs, c.Ok e) (x : Int) (t : String) (n : Nat)
    (hx : su2Type x = some (t, n)) :
    ((su2Groups tag cs).filter fun b => decide (b.type = t)).flatMap (·.rows) =
      (cs.filter fun c => decide (c.code = x)).map (·.nodes) := by
  have hinj : ∀ y ∈ su2Codes, (decide (((su2Type y).map (·.1)).getD "" = t)) = decide (y = x) := by
    have hxm := (su2Type_cases hx).1
    have hxt : ((su2Type x).map (·.1)).getD "" = t := by rw [hx]; rfl
    have key : ∀ x ∈ su2Codes, ∀ y ∈ su2Codes,
        (decide (((su2Type y).map (·.1)).getD "" = ((su2Type x).map (·.1)).getD "")) = decide (y = x) := by decide +kernel
    intro y hy
    rw [← hxt]
    exact key x hxm y hy
  have hxm := (su2Type_cases hx).1
  unfold su2Groups
  rw [List.filter_map, List.filter_filter]
  have e1 : (su2Codes.filter fun y => (((fun b : Blk => decide (b.type = t)) ∘ fun x =>
      (⟨((su2Type x).map (·.1)).getD "", (cs.filter fun c => decide (c.code = x)).map (·.nodes),
        List.replicate (cs.filter fun c => decide (c.code = x)).length tag⟩ : Blk)) y && decide (y ∈ cs.map (·.code)))) =
      su2Codes.filter fun y => decide (y = x) && decide (x ∈ cs.map (·.code)) := by
    apply List.filter_congr
    intro y hy
    simp only [Function.comp_apply, hinj y hy]
    by_cases hyx : y = x
    · subst hyx; rfl
    · simp [hyx]
  rw [e1]
  by_cases hm : x ∈ cs.map (·.code)
  · have e2 : (su2Codes.filter fun y => decide (y = x) && decide (x ∈ cs.map (·.code))) = [x] := by
      simp only [hm, decide_true, Bool.and_true]
      have key : ∀ x ∈ su2Codes, (su2Codes.filter fun y => decide (y = x)) = [x] := by decide +kernel
      exact key x hxm
    rw [e2]
    simp
  · have e2 : (su2Codes.filter fun y => decide (y = x) && decide (x ∈ cs.map (·.code))) = [] := by
      simp [hm]
    have e3 : (cs.filter fun c => decide (c.code = x)) = [] := by
      rw [List.filter_eq_nil_iff]
      intro c hc
      simp only [decide_eq_true_eq]
      rintro rfl
      exact hm (List.mem_map.2 ⟨c, hc, rfl⟩)
    rw [e2, e3]
    rfl

/-- Two triangles around a quad, with element numbers. -/
example : translate true [5, 0, 1, 2, 0, 9, 0, 1, 2, 3, 1, 5, 2, 3, 4, 2] =
    .ok [("triangle", [[0, 1, 2], [2, 3, 4]]), ("quad", [[0, 1, 2, 3]])] :=
  C47_groups true [⟨5, [0, 1, 2], [0]⟩, ⟨9, [0, 1, 2, 3], [1]⟩, ⟨5, [2, 3, 4], [2]⟩] (by
    intro c hc
    simp only [List.mem_cons, List.not_mem_nil, or_false] at hc
    rcases hc with rfl | rfl | rfl
    · exact ⟨"triangle", rfl, rfl⟩
    · exact ⟨"quad", rfl, rfl⟩
    · exact ⟨"triangle", rfl, rfl⟩)

/-- **Reading.**  A file with points (columns after the coordinates are ignored), elements of the domain and boundary
markers: the points, the blocks of the domain with tag 0 and those of the markers with their tags. -/
theorem C47_read (fio : FloatIO F) (dim : Nat) (hd : dim = 2 ∨ dim = 3) (pts : List (List F)) (hne : pts ≠ []) (w : Nat)
    (hw : ∀ p ∈ pts, p.length = w) (hdw : dim ≤ w) (inner : List Su2Cell) (hi : inner ≠ []) (e : Nat) (he : e ≤ 1)
    (hc : ∀ c ∈ inner, c.Ok e) (ms : List Su2Marker) (hm : ∀ m ∈ ms, MarkerOk m) :
    ∃ bs, Su2.read fio (linesText (su2Lines fio dim pts inner ms)) = .ok (pts.map (·.take dim), bs) ∧
      bs = merge (outerTypes dim) (su2Groups 0 inner ++ su2Markers 0 ms) :=
  ⟨_, read_ok fio dim hd pts hne w hw hdw inner hi e he hc ms hm, rfl⟩

/-! ### Boundary cells -/

/-- Blocks that are not on the boundary stay as they are. -/
theorem C47_merge_rest (types : List String) (bs : List Blk) :
    (merge types bs).filter (fun b => decide (b.type ∉ types)) = bs.filter (fun b => decide (b.type ∉ types)) := by
  unfold merge
  rw [List.filter_filterMap]
  have : ∀ l : List Blk, ∀ k : Nat,
      (l.zipIdx k).filterMap (fun bi => Option.filter (fun b : Blk => decide (b.type ∉ types))
        (if bi.1.type ∈ types then
          if bs.findIdx? (fun b => b.type = bi.1.type) = some bi.2 then
            some ⟨bi.1.type, (bs.filter fun b => b.type = bi.1.type).flatMap (·.rows),
              (bs.filter fun b => b.type = bi.1.type).flatMap (·.tags)⟩
          else none
        else some bi.1)) = l.filter (fun b => decide (b.type ∉ types)) := by
    intro l
    induction l with
    | nil => intro k; rfl
    | cons b l ih =>
      intro k
      rw [List.zipIdx_cons, List.filterMap_cons, ih]
      by_cases hb : b.type ∈ types
      · by_cases hf : bs.findIdx? (fun b' => decide (b'.type = b.type)) = some k
        · simp [hb, hf, Option.filter]
        · simp [hb, hf, Option.filter]
      · simp [hb, Option.filter]
  exact this bs 0

/-- **Markers.**  The cells of a boundary type end up in one block: all of them, in the order of the file, each with the tag
it had. -/
theorem C47_merge_type (types : List String) (bs : List Blk) (t : String) (ht : t ∈ types) :
    (merge types bs).filter (fun b => decide (b.type = t)) =
      if t ∈ bs.map (·.type) then
        [⟨t, (bs.filter fun b => decide (b.type = t)).flatMap (·.rows), (bs.filter fun b => decide (b.type = t)).flatMap (·.tags)⟩]
      else [] := by
  unfold merge
  rw [List.filter_filterMap]
  have none_of : ∀ (l : List Blk) (k : Nat), (∀ b ∈ l, b.type ≠ t) →
      (l.zipIdx k).filterMap (fun bi => Option.filter (fun b : Blk => decide (b.type = t))
        (if bi.1.type ∈ types then
          if bs.findIdx? (fun b => b.type = bi.1.type) = some bi.2 then
            some ⟨bi.1.type, (bs.filter fun b => b.type = bi.1.type).flatMap (·.rows),
              (bs.filter fun b => b.type = bi.1.type).flatMap (·.tags)⟩
          else none
        else some bi.1)) = [] := by
    intro l
    induction l with
    | nil => intro k _; rfl
    | cons b l ih =>
      intro k hl
      have hb := hl b (by simp)
      rw [List.zipIdx_cons, List.filterMap_cons, ih _ (fun b' h' => hl b' (by simp [h']))]
      split
      · rfl
      · next h =>
        split at h
        · split at h <;> simp [Option.filter, hb] at h
        · simp [Option.filter, hb] at h
  have later : ∀ (l : List Blk) (k i : Nat), bs.findIdx? (fun b => decide (b.type = t)) = some i → i < k →
      (l.zipIdx k).filterMap (fun bi => Option.filter (fun b : Blk => decide (b.type = t))
        (if bi.1.type ∈ types then
          if bs.findIdx? (fun b => b.type = bi.1.type) = some bi.2 then
            some ⟨bi.1.type, (bs.filter fun b => b.type = bi.1.type).flatMap (·.rows),
              (bs.filter fun b => b.type = bi.1.type).flatMap (·.tags)⟩
          else none
        else some bi.1)) = [] := by
    intro l
    induction l with
    | nil => intro k i _ _; rfl
    | cons b l ih =>
      intro k i hf hik
      rw [List.zipIdx_cons, List.filterMap_cons, ih _ i hf (by omega)]
      split
      · rfl
      · next h =>
        by_cases hb : b.type = t
        · rw [if_pos (by rw [hb]; exact ht)] at h
          simp only [hb, hf] at h
          rw [if_neg (by simp; omega)] at h
          simp [Option.filter] at h
        · split at h
          · split at h <;> simp [Option.filter, hb] at h
          · simp [Option.filter, hb] at h
  by_cases hm : t ∈ bs.map (·.type)
  · rw [if_pos hm]
    have hidx : ∃ i, bs.findIdx? (fun b => decide (b.type = t)) = some i := by
      cases hf : bs.findIdx? (fun b => decide (b.type = t)) with
      | some i => exact ⟨i, rfl⟩
      | none =>
        rw [List.findIdx?_eq_none_iff] at hf
        obtain ⟨b, hb, hbt⟩ := List.mem_map.1 hm
        have := hf b hb
        simp [hbt] at this
    obtain ⟨i, hi⟩ := hidx
    obtain ⟨hlt, hbi, hbefore⟩ := List.findIdx?_eq_some_iff_getElem.1 hi
    have hsplit : bs = bs.take i ++ bs[i] :: bs.drop (i + 1) := by simp
    have hz : bs.zipIdx = (bs.take i).zipIdx ++ (bs[i], i) :: (bs.drop (i + 1)).zipIdx (i + 1) := by
      conv => lhs; rw [hsplit]
      rw [List.zipIdx_append, List.zipIdx_cons]
      simp [Nat.min_eq_left (Nat.le_of_lt hlt)]
    rw [hz, List.filterMap_append, List.filterMap_cons, none_of, later _ _ i hi (by omega)]
    · have hbt : bs[i].type = t := by simpa using hbi
      simp only [hbt, ht, if_true, hi]
      simp [Option.filter]
    · intro b hb hbt
      obtain ⟨j, hj, rfl⟩ := List.mem_iff_getElem.1 hb
      rw [List.length_take] at hj
      have := hbefore j (by omega)
      rw [List.getElem_take] at hbt
      simp [hbt] at this
  · rw [if_neg hm]
    exact none_of bs 0 (fun b hb hbt => hm (List.mem_map.2 ⟨b, hb, hbt⟩))

/-- A square with a triangle and a quad, and three markers, two of them numbered. -/
example : Su2.read FloatIO.int (linesText (su2Lines FloatIO.int 2 [[0, 0, 0], [1, 0, 1], [1, 1, 2], [0, 1, 3]]
      [⟨9, [0, 1, 2, 3], [0]⟩, ⟨5, [0, 1, 2], [1]⟩]
      [⟨"7".toList, [⟨3, [0, 1], []⟩]⟩, ⟨"upper".toList, [⟨3, [1, 2], []⟩, ⟨3, [2, 3], []⟩]⟩, ⟨"3".toList, [⟨3, [3, 0], []⟩]⟩])) =
    .ok ([[0, 0], [1, 0], [1, 1], [0, 1]],
      [⟨"triangle", [[0, 1, 2]], [0]⟩, ⟨"quad", [[0, 1, 2, 3]], [0]⟩,
        ⟨"line", [[0, 1], [1, 2], [2, 3], [3, 0]], [7, 8, 8, 3]⟩]) := by decide +kernel

/-! ### Writing -/

/-- The cells of the blocks as lines of a file. -/
def su2Written (cells : List (String × List (List Int))) : List Su2Cell :=
  cells.flatMap fun b => b.2.map fun r => ⟨((find meshioToSu2 b.1).getD 0 : Nat), r, []⟩

/-- Cells as they fit into a file: known types with the right number of nodes. -/
def Su2Ok (cells : List (String × List (List Int))) : Prop :=
  ∀ b ∈ cells, ∃ x : Nat, find meshioToSu2 b.1 = some x ∧ ∀ r ∈ b.2, su2Type x = some (b.1, r.length)

/-- The cells in the domain are exactly those of full dimension among the types of the format, those on the boundary
exactly those of one dimension less. -/
theorem C47_domain (dim : Nat) (hd : dim = 2 ∨ dim = 3) (t : String) (ht : (find meshioToSu2 t).isSome) :
    (t ∈ innerTypes dim ↔ topologicalDimension.get? t = some dim) ∧
      (t ∈ outerTypes dim ↔ topologicalDimension.get? t = some (dim - 1)) := by
  have key : ∀ kv ∈ meshioToSu2, ∀ dim ∈ [2, 3], (kv.1 ∈ innerTypes dim ↔ topologicalDimension.get? kv.1 = some dim) ∧
      (kv.1 ∈ outerTypes dim ↔ topologicalDimension.get? kv.1 = some (dim - 1)) := by decide +kernel
  cases h : find meshioToSu2 t with
  | none => rw [h] at ht; cases ht
  | some x => exact key _ (find_mem h) dim (by simpa using hd)

example : "pyramid" ∈ innerTypes 3 := (C47_domain 3 (Or.inr rfl) "pyramid" (by decide)).1.2 (by decide +kernel)

/-- **What is written**: the cells in the domain (2D: triangles and quads, 3D: the four volume types) of a mesh without
boundary cells, in the layout of the format. -/
theorem C47_write (fio : FloatIO F) (dim : Nat) (pts : List (List F)) (cells : List (String × List (List Int)))
    (h : Su2Ok cells) (hb : ∀ b ∈ cells, b.1 ∈ outerTypes dim → b.2 = []) :
    Su2.write fio dim pts cells =
      .ok (linesText (su2Lines fio dim pts (su2Written (cells.filter fun b => decide (b.1 ∈ innerTypes dim))) [])) := by
  unfold Su2.write
  have hl : ∀ l : List (String × List (List Int)), Su2Ok l → elemLines l = .ok (su2ElemLines (su2Written l)) := by
    intro l hl
    unfold elemLines
    rw [mapRes_ok_of_forall (g := fun b => b.2.map fun r => joinWith ' ' (fmtInt ((find meshioToSu2 b.1).getD 0 : Nat) :: r.map fmtInt))]
    · simp only
      congr 1
      clear hl
      unfold su2ElemLines su2Written
      rw [List.map_flatMap, List.flatMap_def]
      congr 1
      apply List.map_congr_left
      intro b _
      rw [List.map_map]
      apply List.map_congr_left
      intro r _
      simp [Su2Cell.numbers]
    · intro b hb
      obtain ⟨x, hx, -⟩ := hl b hb
      simp only [hx]
      rfl
  have hn : ∀ l : List (String × List (List Int)), (su2Written l).length = (l.map fun b => b.2.length).sum := by
    intro l
    induction l with
    | nil => rfl
    | cons b l ih =>
      simp only [su2Written, List.flatMap_cons, List.length_append, List.length_map, List.map_cons, List.sum_cons] at ih ⊢
      omega
  have hin : Su2Ok (cells.filter fun b => decide (b.1 ∈ innerTypes dim)) := fun b hb' => h b (List.mem_filter.1 hb').1
  simp only [hl _ hin]
  rw [if_neg]
  · unfold su2Lines row
    simp [hn]
  · rw [List.any_eq_true]
    rintro ⟨b, hbm, hb'⟩
    simp only [Bool.and_eq_true, decide_eq_true_eq, Bool.not_eq_true', List.isEmpty_eq_false_iff] at hb'
    exact hb'.2 (hb b hbm hb'.1)

/-- Blocks of the same type as one: what a mesh without boundary cells looks like after writing and reading. -/
def su2ByType (cells : List (String × List (List Int))) : List (String × List (List Int)) :=
  (su2Codes.filter fun x => decide (x ∈ (su2Written cells).map (·.code))).map fun x =>
    (((su2Type x).map (·.1)).getD "", (cells.filter fun b => decide (b.1 = ((su2Type x).map (·.1)).getD "")).flatMap (·.2))

theorem su2Written_filter (cells : List (String × List (List Int))) (h : Su2Ok cells) (x : Int) (hx : x ∈ su2Codes) :
    ((su2Written cells).filter fun c => decide (c.code = x)).map (·.nodes) =
      (cells.filter fun b => decide (b.1 = ((su2Type x).map (·.1)).getD "")).flatMap (·.2) := by
  induction cells with
  | nil => rfl
  | cons b cells ih =>
    have ih := ih (fun b' h' => h b' (by simp [h']))
    have e1 : su2Written (b :: cells) = (b.2.map fun r => (⟨((find meshioToSu2 b.1).getD 0 : Nat), r, []⟩ : Su2Cell)) ++ su2Written cells := rfl
    obtain ⟨k, hk, hr⟩ := h b (by simp)
    have hd : decide ((k : Int) = x) = decide (b.1 = ((su2Type x).map (·.1)).getD "") := by
      have key : ∀ kv ∈ meshioToSu2, ∀ x ∈ su2Codes, decide (((kv.2 : Nat) : Int) = x) = decide (kv.1 = ((su2Type x).map (·.1)).getD "") := by
        decide +kernel
      exact key _ (find_mem hk) x hx
    rw [e1, List.filter_append, List.map_append, ih, List.filter_cons, hk, Option.getD_some]
    by_cases hkx : (k : Int) = x
    · have : decide (b.1 = ((su2Type x).map (·.1)).getD "") = true := by rw [← hd]; simpa using hkx
      rw [if_pos this, List.flatMap_cons]
      congr 1
      rw [List.filter_map, List.map_map]
      have e3 : (b.2.filter ((fun c : Su2Cell => decide (c.code = x)) ∘ fun r => (⟨(k : Int), r, []⟩ : Su2Cell))) = b.2 := by
        rw [List.filter_eq_self]
        intro r _
        simpa using hkx
      rw [e3]
      simp [Function.comp_def]
    · have : ¬ decide (b.1 = ((su2Type x).map (·.1)).getD "") = true := by rw [← hd]; simpa using hkx
      rw [if_neg this]
      have e3 : ((b.2.map fun r => (⟨(k : Int), r, []⟩ : Su2Cell)).filter fun c => decide (c.code = x)) = [] := by
        rw [List.filter_eq_nil_iff]
        intro c hc
        obtain ⟨r, -, rfl⟩ := List.mem_map.1 hc
        simpa using hkx
      rw [e3]
      rfl

/-- **Round trip, full statement**: a mesh with at most one block of each type comes back with its points, its cells and,
for the boundary, the tags. -/
def C47_statement : Prop := ∀ (dim : Nat) (pts : List (List Int)) (cells : List (String × List (List Int))),
  (dim = 2 ∨ dim = 3) → pts ≠ [] → (∀ p ∈ pts, p.length = dim) → Su2Ok cells → (cells.map (·.1)).Nodup →
  (∀ b ∈ cells, b.1 ∈ innerTypes dim ∨ b.1 ∈ outerTypes dim) → (∃ b ∈ cells, b.1 ∈ innerTypes dim ∧ b.2 ≠ []) →
  ∃ s bs, Su2.write FloatIO.int dim pts cells = .ok s ∧ Su2.read FloatIO.int s = .ok (pts, bs)

/-- False: the writer stops at the first cell on the boundary. -/
theorem C47_boundary_false : ¬ C47_statement := by
  intro h
  obtain ⟨s, bs, hw, -⟩ := h 2 [[0, 0], [1, 0], [0, 1]] [("triangle", [[0, 1, 2]]), ("line", [[0, 1]])] (by simp) (by simp)
    (by decide) (by
      intro b hb
      simp only [List.mem_cons, List.not_mem_nil, or_false] at hb
      rcases hb with rfl | rfl
      · exact ⟨5, by decide, by decide⟩
      · exact ⟨3, by decide, by decide⟩) (by decide) (by decide) (by decide)
  have : Su2.write FloatIO.int 2 [[0, 0], [1, 0], [0, 1]] [("triangle", [[0, 1, 2]]), ("line", [[0, 1]])] = .error .typeError := by
    decide +kernel
  rw [this] at hw
  cases hw

/-- Any mesh with a cell on the boundary is refused. -/
theorem C47_boundary_refused (fio : FloatIO F) (dim : Nat) (pts : List (List F)) (cells : List (String × List (List Int)))
    (h : Su2Ok cells) (hb : ∃ b ∈ cells, b.1 ∈ outerTypes dim ∧ b.2 ≠ []) :
    Su2.write fio dim pts cells = .error .typeError := by
  unfold Su2.write
  have hl : ∃ ls, elemLines (cells.filter fun b => decide (b.1 ∈ innerTypes dim)) = .ok ls := by
    unfold elemLines
    rw [mapRes_ok_of_forall (g := fun b => b.2.map fun r => row (fmtInt ((find meshioToSu2 b.1).getD 0 : Nat) :: r.map fmtInt))]
    · exact ⟨_, rfl⟩
    · intro b hb
      obtain ⟨x, hx, -⟩ := h b (List.mem_filter.1 hb).1
      simp only [hx]
      rfl
  obtain ⟨ls, hl⟩ := hl
  simp only [hl]
  rw [if_pos]
  rw [List.any_eq_true]
  obtain ⟨b, hbm, h1, h2⟩ := hb
  exact ⟨b, hbm, by simp [h1, h2]⟩

/-- **Round trip without boundary cells.**  Points and cells come back, the cells of each type in their order and all with
tag 0; the blocks are in the order of the codes.  (Missing from the full statement: cells on the boundary, which are refused.) -/
theorem C47_roundtrip_partial (fio : FloatIO F) (dim : Nat) (hd : dim = 2 ∨ dim = 3) (pts : List (List F)) (hne : pts ≠ [])
    (hp : ∀ p ∈ pts, p.length = dim) (cells : List (String × List (List Int))) (h : Su2Ok cells)
    (hb : ∀ b ∈ cells, b.1 ∈ innerTypes dim) (hc : ∃ b ∈ cells, b.2 ≠ []) :
    ∃ s, Su2.write fio dim pts cells = .ok s ∧
      Su2.read fio s = .ok (pts, (su2ByType cells).map fun b => ⟨b.1, b.2, List.replicate b.2.length 0⟩) := by
  have hdisj : ∀ t ∈ innerTypes dim, t ∉ outerTypes dim := by
    rcases hd with rfl | rfl <;> decide
  refine ⟨_, C47_write fio dim pts cells h (fun b hbm hbo => absurd hbo (hdisj _ (hb b hbm))), ?_⟩
  have hfil : (cells.filter fun b => decide (b.1 ∈ innerTypes dim)) = cells := by
    rw [List.filter_eq_self]
    intro b hbm
    simpa using hb b hbm
  rw [hfil]
  have hok : ∀ c ∈ su2Written cells, c.Ok 0 := by
    intro c hcm
    unfold su2Written at hcm
    obtain ⟨b, hbm, hcb⟩ := List.mem_flatMap.1 hcm
    obtain ⟨r, hr, rfl⟩ := List.mem_map.1 hcb
    obtain ⟨x, hx, hxr⟩ := h b hbm
    exact ⟨b.1, by simp only [hx, Option.getD_some]; exact hxr r hr, rfl⟩
  have hne' : su2Written cells ≠ [] := by
    obtain ⟨b, hbm, hb0⟩ := hc
    obtain ⟨r, hr⟩ := List.exists_mem_of_ne_nil _ hb0
    exact List.ne_nil_of_mem (List.mem_flatMap.2 ⟨b, hbm, List.mem_map.2 ⟨r, hr, rfl⟩⟩)
  rw [read_ok fio dim hd pts hne dim hp (Nat.le_refl _) _ hne' 0 (by omega) hok [] (by simp)]
  have hpt : pts.map (·.take dim) = pts := by
    conv => rhs; rw [← List.map_id pts]
    apply List.map_congr_left
    intro p hpm
    rw [← hp p hpm, List.take_length]; rfl
  rw [hpt, show su2Markers 0 [] = [] from rfl, List.append_nil]
  have hgr : su2Groups 0 (su2Written cells) = (su2ByType cells).map fun b => ⟨b.1, b.2, List.replicate b.2.length 0⟩ := by
    unfold su2Groups su2ByType
    rw [List.map_map]
    apply List.map_congr_left
    intro x hx
    rw [List.mem_filter] at hx
    have := su2Written_filter cells h x hx.1
    simp only [Function.comp_apply, ← this, List.length_map]
  rw [hgr]
  congr 2
  -- nothing to merge
  have hno : ∀ b ∈ (su2ByType cells).map fun b => (⟨b.1, b.2, List.replicate b.2.length 0⟩ : Blk), b.type ∉ outerTypes dim := by
    rw [← hgr]
    intro b hbm
    unfold su2Groups at hbm
    obtain ⟨x, hx, rfl⟩ := List.mem_map.1 hbm
    rw [List.mem_filter, decide_eq_true_eq] at hx
    obtain ⟨c, hcm, hcx⟩ := List.mem_map.1 hx.2
    unfold su2Written at hcm
    obtain ⟨b', hbm', hcb⟩ := List.mem_flatMap.1 hcm
    obtain ⟨r, hr, rfl⟩ := List.mem_map.1 hcb
    obtain ⟨k, hk, hkr⟩ := h b' hbm'
    simp only [hk, Option.getD_some] at hcx
    rw [← hcx, hkr r hr]
    exact hdisj _ (hb b' hbm')
  generalize (su2ByType cells).map (fun b => (⟨b.1, b.2, List.replicate b.2.length 0⟩ : Blk)) = bs at hno
  have := C47_merge_rest (outerTypes dim) bs
  rw [show bs.filter (fun b => decide (b.type ∉ outerTypes dim)) = bs from
    List.filter_eq_self.2 (by intro b hbm; simpa using hno b hbm)] at this
  refine Eq.trans ?_ this
  symm
  rw [List.filter_eq_self]
  intro b hbm
  unfold merge at hbm
  obtain ⟨⟨b0, i⟩, hb0, hbe⟩ := List.mem_filterMap.1 hbm
  have hmem : b0 ∈ bs := List.fst_mem_of_mem_zipIdx hb0
  rw [if_neg (hno b0 hmem)] at hbe
  cases hbe
  simpa using hno b0 hmem

/-- Mixed blocks in 2D. -/
example : ∃ s, Su2.write FloatIO.int 2 [[0, 0], [1, 0], [0, 1], [1, 1]]
      [("quad", [[0, 1, 3, 2]]), ("triangle", [[0, 1, 2]]), ("quad", [[3, 2, 0, 1]])] = .ok s ∧
    Su2.read FloatIO.int s = .ok ([[0, 0], [1, 0], [0, 1], [1, 1]],
      [⟨"triangle", [[0, 1, 2]], [0]⟩, ⟨"quad", [[0, 1, 3, 2], [3, 2, 0, 1]], [0, 0]⟩]) := by
  refine ⟨_, rfl, ?_⟩
  decide +kernel

/-- **A mesh without cells in the domain** (2D: only points) is written but cannot be read. -/
theorem C47_no_cells_false (fio : FloatIO F) (dim : Nat) (hd : dim = 2 ∨ dim = 3) (pts : List (List F)) (hne : pts ≠ [])
    (hp : ∀ p ∈ pts, p.length = dim) :
    ∃ s, Su2.write fio dim pts [] = .ok s ∧ Su2.read fio s = .error .stopIteration := by
  refine ⟨_, C47_write fio dim pts [] (by intro b hb; cases hb) (by simp), ?_⟩
  obtain ⟨k, hk, h⟩ := (reads_ndime fio dim hd { dim := 0, points := none, cells := [], tag := 0 }).append
    (reads_points fio dim pts hne dim hp (Nat.le_refl _) (by omega) _ rfl)
  have e1 : linesText (su2Lines fio dim pts (su2Written (List.filter (fun b => decide (b.1 ∈ innerTypes dim)) [])) []) =
      (linesText ["NDIME= ".toList ++ fmtNat dim] ++
      linesText (("NPOIN= ".toList ++ fmtNat pts.length) :: pts.map fun p => joinWith ' ' (p.map fio.fmt))) ++
      linesText ["NELEM= ".toList ++ fmtNat 0, "NMARK= ".toList ++ fmtNat 0] := by
    rw [← linesText_append, ← linesText_append]
    congr 1
    unfold su2Lines
    simp [su2Written, su2ElemLines]
  rw [e1]
  unfold Su2.read
  obtain ⟨n, hn⟩ := Nat.exists_eq_add_of_le hk
  have hlen : ((linesText ["NDIME= ".toList ++ fmtNat dim] ++
      linesText (("NPOIN= ".toList ++ fmtNat pts.length) :: pts.map fun p => joinWith ' ' (p.map fio.fmt))) ++
      linesText ["NELEM= ".toList ++ fmtNat 0, "NMARK= ".toList ++ fmtNat 0]).length = k + (n + 18) := by
    rw [List.length_append, hn, show (linesText ["NELEM= ".toList ++ fmtNat 0, "NMARK= ".toList ++ fmtNat 0]).length = 18 by decide +kernel]
    omega
  rw [hlen, h]
  have : ∀ (st : St F) (m : Nat), readLoop fio (m + 1) st (linesText ["NELEM= ".toList ++ fmtNat 0, "NMARK= ".toList ++ fmtNat 0]) =
      .error .stopIteration := fun st m => rfl
  rw [this]

/-! ### What is refused -/

/-- Other dimensions than 2 and 3: ReadError. -/
theorem C47_rejects_dim (fio : FloatIO F) (st : St F) (d : Nat) (h2 : d ≠ 2) (h3 : d ≠ 3) (rest : List Char) :
    readSection fio st (("NDIME= ".toList ++ fmtNat d) ++ ['\n']) rest = .error .readError := by
  obtain ⟨h1, h2', h3', -⟩ := head_lit "NDIME= ".toList "NDIME".toList (fmtNat d) (by decide) (Ply.isTok_lit (by decide)) (by decide)
    (by decide) (isTok_fmtNat d) (not_eq_fmtNat d)
  unfold readSection
  rw [if_neg h1, if_neg h2', h3']
  simp only
  rw [if_pos trivial, pyInt_nat]
  simp only
  rw [if_pos ⟨by omega, by omega⟩]

/-- An element line with a wrong number of columns: ReadError; an unknown code: KeyError. -/
theorem C47_rejects_columns (x : Int) (l : List (List Char)) (t : String) (n : Nat) (hx : su2Type x = some (t, n)) :
    (l.length ≠ n → l.length ≠ n + 1 → extraColumn (fmtInt x :: l) = .error .readError) ∧
    (l.length = n → extraColumn (fmtInt x :: l) = .ok false) ∧
    (l.length = n + 1 → extraColumn (fmtInt x :: l) = .ok true) := by
  obtain ⟨-, hn, -⟩ := su2Type_cases hx
  unfold extraColumn
  simp only [parseInt_fmtInt, hn, List.length_cons]
  refine ⟨fun h1 h2 => ?_, fun h => ?_, fun h => ?_⟩
  · rw [if_neg (by omega), if_neg (by omega)]
  · rw [if_pos (by omega)]
  · rw [if_neg (by omega), if_pos (by omega)]

theorem C47_rejects_code (x : Int) (l : List (List Char)) (hx : su2Type x = none) :
    extraColumn (fmtInt x :: l) = .error .keyError := by
  have : numNodes x = none := by
    cases hn : numNodes x with
    | none => rfl
    | some n =>
      unfold numNodes at hn
      split at hn
      · cases hn
      · next hx0 =>
        have key : ∀ kv ∈ su2NumNodes, (su2Type ((kv.1 : Nat) : Int)).isSome = true := by decide +kernel
        have := key _ (find_mem hn)
        simp only [show ((x.toNat : Nat) : Int) = x by omega, hx] at this
        cases this
  unfold extraColumn
  simp only [parseInt_fmtInt, this]

end Meshio.Props
