/-
Helper lemmas for C37: how the Netgen reader works through the lines of a written file.
-/
import Verif.Model.Netgen
import Verif.Proofs.Runs
import Verif.Proofs.Types
import Verif.Props.Types
namespace Meshio.Netgen
open Meshio Types Tables Spec

variable {F : Type}

/-- The line as `f.readline()` returns it. -/
def nl (l : List Char) : List Char := l ++ ['\n']

theorem strip_nl {t : List Char} (h : IsTok t) : strip (nl t) = t := by
  have := strip_line_nl [t] (by simpa using h)
  simpa [joinWith, nl] using this

theorem fastForward_blank (ls : List (List Char)) : fastForward (nl [] :: ls) = fastForward ls := by
  rw [fastForward, if_neg (by decide)]

theorem fastForward_comment (c : List Char) (ls : List (List Char)) :
    fastForward (nl ('#' :: c) :: ls) = fastForward ls := by
  rw [fastForward, if_neg]
  rintro ⟨-, h⟩
  exact h (strip_head (by decide) _)

theorem fastForward_tok {t : List Char} (h : IsTok t) (hh : t.head? ≠ some '#') (ls : List (List Char)) :
    fastForward (nl t :: ls) = (some t, ls) := by
  rw [fastForward, strip_nl h, if_pos ⟨h.1, hh⟩]

theorem fastForward_line (toks : List (List Char)) (hne : toks ≠ []) (h : ∀ t ∈ toks, IsTok t)
    (hh : ∀ t ∈ toks, '#' ∉ t) (ls : List (List Char)) :
    fastForward (nl (joinWith ' ' toks) :: ls) = (some (joinWith ' ' toks), ls) := by
  have hs : strip (nl (joinWith ' ' toks)) = joinWith ' ' toks := strip_line_nl toks h
  rw [fastForward, hs, if_pos]
  refine ⟨?_, ?_⟩
  · cases toks with
    | nil => exact absurd rfl hne
    | cons t ts => exact joinWith_ne_nil _ _ _ (h t (by simp)).1
  · intro he
    exact not_mem_joinWith (by decide) toks hh (List.mem_of_mem_head? he)

theorem intLine_int (z : Int) (ls : List (List Char)) : intLine (nl (fmtInt z) :: ls) = .ok (z, ls) := by
  unfold intLine
  rw [List.headD_cons, strip_nl (isTok_fmtInt z), parseInt_fmtInt]
  rfl

theorem intLine_nat (n : Nat) (ls : List (List Char)) : intLine (nl (fmtNat n) :: ls) = .ok ((n : Int), ls) :=
  intLine_int (n : Int) ls

/-! ### Rows of a written cell -/

/-- A row as it stands in the file: `s` are the node numbers, `i` the index. -/
def tableRow (d n : Nat) (s : List Int) (i : Int) : List Int :=
  if d = 0 then s ++ [i]
  else if d = 1 then [i, 0] ++ (s ++ [-1, -1, 0, 0, 1, 0, 1, 0])
  else if d = 2 then [1, i, 0, 0, (n : Int)] ++ s
  else [i, (n : Int)] ++ s

theorem table_facts (t : String) (p : List Nat) (h : find netgenIPmap t = some p) (d : Nat)
    (hd : topologicalDimension.get? t = some d) :
    numNodesPerCell.get? t = some p.length ∧ d ≤ 3 ∧ (d = 0 → p.length = 1) ∧ (d = 1 → p.length = 2) ∧
      p.length < 100 := by
  have key : ∀ kv ∈ netgenIPmap, ∀ d ∈ topologicalDimension.get? kv.1,
      numNodesPerCell.get? kv.1 = some kv.2.length ∧ d ≤ 3 ∧ (d = 0 → kv.2.length = 1) ∧
        (d = 1 → kv.2.length = 2) ∧ kv.2.length < 100 := by decide +kernel
  exact key _ (find_mem h) d hd

theorem wrap32_eq {z : Int} (h : IsInt 4 z) : wrap32 z = z := intDec_intEnc false 4 z h

theorem cellRow_eq {t : String} {p : List Nat} (h : find netgenIPmap t = some p) {d : Nat}
    (hd : topologicalDimension.get? t = some d) (r : List Int) (hl : r.length = p.length)
    (hr : ∀ z ∈ r, 0 ≤ z ∧ IsInt 4 (z + 1)) (idx : Option Int) (hi : ∀ i, idx = some i → IsInt 4 i) :
    ∃ s, pick r p = .ok s ∧ s.length = p.length ∧ reorderStrict netgenPmap t s = .ok r ∧
      cellRow d p r idx = .ok (tableRow d p.length (s.map (· + 1)) (idx.getD 1)) := by
  obtain ⟨hn, hd3, h0, h1, h100⟩ := table_facts t p h d hd
  obtain ⟨s, hs, hsl, hb⟩ := Props.C17_netgen t (by rw [h]; rfl) r (fun n hn' => by
    rw [hn] at hn'; cases hn'; exact hl)
  unfold reorderStrict at hs
  rw [h] at hs
  simp only at hs
  refine ⟨s, hs, by omega, hb, ?_⟩
  unfold cellRow
  rw [hs]
  simp only
  have hsm : ∀ z ∈ s.map (· + 1), wrap32 z = z := by
    intro z hz
    obtain ⟨y, hy, rfl⟩ := List.mem_map.mp hz
    exact wrap32_eq (hr y (mem_pick hs y hy)).2
  have hsm' : (s.map (· + 1)).map wrap32 = s.map (· + 1) := by
    conv => rhs; rw [← List.map_id (s.map (· + 1))]
    exact List.map_congr_left hsm
  have hpl : wrap32 (p.length : Int) = p.length := by
    apply wrap32_eq
    unfold IsInt
    simp only [Nat.reducePow]
    omega
  have hidx : wrap32 (idx.getD 1) = idx.getD 1 := by
    apply wrap32_eq
    cases idx with
    | none => decide
    | some i => exact hi i rfl
  have w1 : wrap32 1 = 1 := by decide
  have w0 : wrap32 0 = 0 := by decide
  have wm : wrap32 (-1) = -1 := by decide
  congr 1
  rcases (show d = 0 ∨ d = 1 ∨ d = 2 ∨ d = 3 by omega) with rfl | rfl | rfl | rfl
  · obtain ⟨x, hx⟩ : ∃ x, s.map (· + 1) = [x] := by
      apply List.length_eq_one_iff.mp
      simp [hsl, hl, h0 rfl]
    rw [hx] at hsm ⊢
    have hwx := hsm x (by simp)
    cases idx with
    | none => simp [preData, postData, tableRow, hwx, w1]
    | some i =>
      simp only [Option.getD_some] at hidx
      simp [preData, postData, tableRow, hwx, indexColumn, hidx]
  · cases idx with
    | none => simp [preData, postData, tableRow, hsm', w0, w1, wm]
    | some i =>
      simp only [Option.getD_some] at hidx
      simp [preData, postData, tableRow, indexColumn, hidx, hsm', w0, w1, wm]
  · cases idx with
    | none => simp [preData, postData, tableRow, hsm', hpl, w1, w0]
    | some i =>
      simp only [Option.getD_some] at hidx
      simp [preData, postData, tableRow, indexColumn, hidx, hsm', hpl, w1, w0]
  · cases idx with
    | none => simp [preData, postData, tableRow, hsm', hpl, w1, w0]
    | some i =>
      simp only [Option.getD_some] at hidx
      simp [preData, postData, tableRow, indexColumn, hidx, hsm', hpl, w1, w0]

theorem toInts_fmt (s : List Int) : toInts (s.map fmtInt) = .ok s := by
  unfold toInts
  induction s with
  | nil => rfl
  | cons a s ih => simp only [List.map_cons, mapRes, parseInt_fmtInt, ih]

theorem intAt_fmt (row : List Int) (i : Nat) (z : Int) (h : row[i]? = some z) :
    intAt (row.map fmtInt) i = .ok z := by
  unfold intAt
  rw [List.getElem?_map, h]
  simp only [Option.map_some, parseInt_fmtInt]

/-- Where the parts of a row stand according to the reader. -/
def secParams : Nat → Nat × Nat
  | 0 => (0, 1)
  | 1 => (2, 0)
  | 2 => (5, 1)
  | _ => (2, 0)

theorem readCell_row {t : String} {p : List Nat} (h : find netgenIPmap t = some p) {d : Nat}
    (hd : topologicalDimension.get? t = some d) (s : List Int) (hl : s.length = p.length) (i : Int) :
    readCell d (secParams d).1 (secParams d).2 (joinWith ' ' ((tableRow d p.length s i).map fmtInt)) =
      .ok (t, s, i) := by
  obtain ⟨hn, hd3, h0, h1, h100⟩ := table_facts t p h d hd
  have hf := Props.C16_netgen t p d h hd
  have hdata : (splitOnC ' ' (joinWith ' ' ((tableRow d p.length s i).map fmtInt))).filter
      (fun t => decide (t ≠ [])) = (tableRow d p.length s i).map fmtInt := by
    have hne : tableRow d p.length s i ≠ [] := by
      unfold tableRow; split
      · simp
      · split
        · simp
        · split <;> simp
    cases hrow : tableRow d p.length s i with
    | nil => exact absurd hrow hne
    | cons a l =>
      rw [List.map_cons, splitOnC_line _ _ (by
        intro x hx
        rw [← List.map_cons] at hx
        obtain ⟨z, _, rfl⟩ := List.mem_map.mp hx
        exact isTok_fmtInt z)]
      rw [List.filter_eq_self]
      intro x hx
      rw [← List.map_cons] at hx
      obtain ⟨z, _, rfl⟩ := List.mem_map.mp hx
      simpa using (isTok_fmtInt z).1
  unfold readCell
  simp only [hdata]
  have sl : ∀ (a b : List Int), pySlice ((a ++ (s ++ b)).map fmtInt) a.length (a.length + p.length) = s.map fmtInt := by
    intro a b
    unfold pySlice
    rw [List.map_append, List.map_append, List.drop_left' (by simp), ← hl,
      show a.length + s.length - a.length = (s.map fmtInt).length by simp, List.take_left]
  rcases (show d = 0 ∨ d = 1 ∨ d = 2 ∨ d = 3 by omega) with rfl | rfl | rfl | rfl
  · have hs1 : s.length = 1 := by rw [hl]; exact h0 rfl
    have e : tableRow 0 p.length s i = s ++ [i] := rfl
    rw [e, intAt_fmt _ _ i (by simp [secParams, List.getElem?_append, hs1])]
    have hsl := sl [] [i]
    simp only [List.nil_append, List.length_nil, h0 rfl, Nat.zero_add] at hsl
    simp only [numNodes, secParams, if_true]
    rw [if_neg (by decide)]
    simp only [Int.reduceToNat, Nat.zero_add]
    rw [hsl, toInts_fmt]
    simp only
    rw [h0 rfl] at hf
    rw [hf]
  · have e : tableRow 1 p.length s i = [i, 0] ++ (s ++ [-1, -1, 0, 0, 1, 0, 1, 0]) := rfl
    rw [e, intAt_fmt _ _ i (by simp [secParams])]
    have hsl := sl [i, 0] [-1, -1, 0, 0, 1, 0, 1, 0]
    simp only [List.length_cons, List.length_nil, h1 rfl, Nat.zero_add, Nat.reduceAdd] at hsl
    have hnn : numNodes 1 (([i, 0] ++ (s ++ [-1, -1, 0, 0, 1, 0, 1, 0])).map fmtInt) = .ok 2 := rfl
    rw [hnn]
    simp only [secParams]
    rw [if_neg (by decide)]
    simp only [Int.reduceToNat, Nat.reduceAdd]
    rw [hsl, toInts_fmt]
    simp only
    rw [h1 rfl] at hf
    rw [hf]
  · have e : tableRow 2 p.length s i = [1, i, 0, 0, (p.length : Int)] ++ s := rfl
    rw [e, intAt_fmt _ _ i (by simp [secParams])]
    have hsl := sl [1, i, 0, 0, (p.length : Int)] []
    simp only [List.append_nil, List.length_cons, List.length_nil, Nat.zero_add, Nat.reduceAdd] at hsl
    have hnn : numNodes 2 (([1, i, 0, 0, (p.length : Int)] ++ s).map fmtInt) = .ok (p.length : Int) := by
      unfold numNodes
      rw [if_neg (by decide), if_neg (by decide), if_pos rfl]
      exact intAt_fmt _ 4 _ rfl
    rw [hnn]
    simp only [secParams]
    rw [if_neg (by omega)]
    simp only [Int.toNat_natCast]
    rw [hsl, toInts_fmt]
    simp only [hf]
  · have e : tableRow 3 p.length s i = [i, (p.length : Int)] ++ s := rfl
    rw [e, intAt_fmt _ _ i (by simp [secParams])]
    have hsl := sl [i, (p.length : Int)] []
    simp only [List.append_nil, List.length_cons, List.length_nil, Nat.zero_add, Nat.reduceAdd] at hsl
    have hnn : numNodes 3 (([i, (p.length : Int)] ++ s).map fmtInt) = .ok (p.length : Int) := by
      unfold numNodes
      rw [if_neg (by decide), if_neg (by decide), if_neg (by decide)]
      exact intAt_fmt _ 1 _ rfl
    rw [hnn]
    simp only [secParams]
    rw [if_neg (by omega)]
    simp only [Int.toNat_natCast]
    rw [hsl, toInts_fmt]
    simp only [hf]

theorem not_hash_fmtInt (z : Int) : '#' ∉ fmtInt z := not_mem_fmtInt (by decide) (by decide) z

theorem readCells_rows {X : Type} (d pi0 ii : Nat) (line : X → List Char) (cell : X → String × List Int × Int)
    (xs : List X) (hl : ∀ x ∈ xs, ∃ row : List Int, row ≠ [] ∧ line x = joinWith ' ' (row.map fmtInt))
    (h : ∀ x ∈ xs, readCell d pi0 ii (line x) = .ok (cell x)) (rest : List (List Char))
    (cells : List (String × List (List Int × Int))) :
    readCells d pi0 ii false xs.length ((xs.map line).map nl ++ rest) cells =
      .ok ((xs.map cell).foldl pushTyped cells, rest) := by
  induction xs generalizing cells with
  | nil => rfl
  | cons x xs ih =>
    obtain ⟨row, hne, hx⟩ := hl x (by simp)
    have hff := fastForward_line (row.map fmtInt) (by simpa using hne) (by
      intro t ht; obtain ⟨z, _, rfl⟩ := List.mem_map.mp ht; exact isTok_fmtInt z) (by
      intro t ht; obtain ⟨z, _, rfl⟩ := List.mem_map.mp ht; exact not_hash_fmtInt z)
      ((xs.map line).map nl ++ rest)
    rw [← hx] at hff
    rw [List.length_cons, List.map_cons, List.map_cons, List.cons_append, readCells, hff]
    simp only [Option.getD_some, h x (by simp)]
    exact ih (fun y hy => hl y (by simp [hy])) (fun y hy => h y (by simp [hy])) _

/-- The lines `a` take the reader from state `st` to state `st'`, whatever follows. -/
def Reads (fio : FloatIO F) (a : List (List Char)) (st st' : St F) : Prop :=
  ∃ n ≤ a.length, ∀ k rest, loop fio (k + n) (a ++ rest) st = loop fio k rest st'

theorem Reads.nil (fio : FloatIO F) (st : St F) : Reads fio [] st st := ⟨0, by simp, fun _ _ => rfl⟩

theorem Reads.append {fio : FloatIO F} {a b : List (List Char)} {st st' st'' : St F} (h : Reads fio a st st')
    (h' : Reads fio b st' st'') : Reads fio (a ++ b) st st'' := by
  obtain ⟨n, hn, h⟩ := h
  obtain ⟨m, hm, h'⟩ := h'
  refine ⟨m + n, by simp; omega, fun k rest => ?_⟩
  rw [List.append_assoc, ← Nat.add_assoc, h, h']

theorem Reads.one {fio : FloatIO F} {a b : List (List Char)} {t : List Char} {st st' : St F} (ha : a ≠ [])
    (hf : ∀ rest, fastForward (a ++ rest) = (some t, b ++ rest)) (ht : t ≠ "endmesh".toList)
    (hs : ∀ rest, step fio t (b ++ rest) st = .ok (st', rest)) : Reads fio a st st' := by
  refine ⟨1, List.length_pos_iff.mpr ha, fun k rest => ?_⟩
  rw [loop, hf]
  simp only
  rw [if_neg ht, hs]

theorem step_cells (fio : FloatIO F) {t : List Char} {d pi0 ii : Nat} (h1 : t ≠ "dimension".toList)
    (h2 : t ≠ "geomtype".toList) (h3 : t ≠ "points".toList) (hs : sectionOf t = some (d, pi0, ii))
    {ls ls' ls'' : List (List Char)} {st : St F} {n : Nat} {cells : List (String × List (List Int × Int))}
    (hi : intLine ls = .ok ((n : Int), ls'))
    (hr : readCells d pi0 ii st.twoLines n ls' st.cells = .ok (cells, ls'')) :
    step fio t ls st = .ok ({ st with cells := cells }, ls'') := by
  unfold step
  rw [if_neg h1, if_neg h2, if_neg h3]
  simp only [hs, hi, Int.toNat_natCast, hr]

/-- A block that can be written: known type, rows of the right width, node numbers and indices
that fit into 32 bits. -/
def Block.Ok (b : Block) : Prop :=
  (find netgenIPmap b.type).isSome ∧ b.dim.isSome ∧
  (∀ r ∈ b.rows, (∀ n, numNodesPerCell.get? b.type = some n → r.length = n) ∧ ∀ z ∈ r, 0 ≤ z ∧ IsInt 4 (z + 1)) ∧
  ∀ l, b.index = some l → l.length = b.rows.length ∧ ∀ i ∈ l, IsInt 4 i

/-- The cells of a block with their indices; without index data the index is 1. -/
def Block.cells (b : Block) : List (String × List Int × Int) :=
  (b.rows.zip (b.index.getD (List.replicate b.rows.length 1))).map (fun ri => (b.type, ri.1, ri.2))

/-- The numbers of the nodes of a cell as they stand in the file. -/
def fileNodes (t : String) (r : List Int) : List Int :=
  (match reorderStrict netgenIPmap t r with
    | .ok s => s
    | .error _ => []).map (· + 1)

/-- A cell as it stands in the file. -/
def fileCell (c : String × List Int × Int) : String × List Int × Int := (c.1, fileNodes c.1 c.2.1, c.2.2)

theorem zip_getD_index (rows : List (List Int)) (index : Option (List Int))
    (h : ∀ l, index = some l → l.length = rows.length) :
    rows.zipIdx.map (fun ri => (ri.1, (index.bind (·[ri.2]?)).getD 1)) =
      rows.zip (index.getD (List.replicate rows.length 1)) := by
  apply List.ext_getElem?
  intro k
  rw [List.getElem?_map, List.getElem?_zipIdx, List.zip, List.getElem?_zipWith]
  by_cases hk : k < rows.length
  · rw [List.getElem?_eq_getElem hk]
    cases index with
    | none => simp [hk]
    | some l =>
      have := h l rfl
      simp [List.getElem?_eq_getElem (show k < l.length by omega)]
  · rw [List.getElem?_eq_none (by omega)]
    rfl

/-- The line of a cell in the file. -/
def cellLine (d : Nat) (c : String × List Int × Int) : List Char :=
  joinWith ' ' ((tableRow d (fileNodes c.1 c.2.1).length (fileNodes c.1 c.2.1) c.2.2).map fmtInt)

theorem cellLines_eq (b : Block) (hb : b.Ok) (d : Nat) (hd : b.dim = some d) :
    cellLines d b = .ok (b.cells.map (cellLine d)) ∧
      ∀ c ∈ b.cells, readCell d (secParams d).1 (secParams d).2 (cellLine d c) = .ok (fileCell c) := by
  obtain ⟨ht, -, hrows, hidx⟩ := hb
  obtain ⟨p, hp⟩ := Option.isSome_iff_exists.mp ht
  have hn := (table_facts b.type p hp d hd).1
  have hcells : b.cells = (b.rows.zipIdx.map (fun ri => (ri.1, (b.index.bind (·[ri.2]?)).getD 1))).map
      (fun ri => (b.type, ri.1, ri.2)) := by
    unfold Block.cells
    rw [zip_getD_index _ _ (fun l hl => (hidx l hl).1)]
  have key : ∀ ri ∈ b.rows.zipIdx,
      cellRow d p ri.1 (b.index.bind (·[ri.2]?)) = .ok (tableRow d (fileNodes b.type ri.1).length
        (fileNodes b.type ri.1) ((b.index.bind (·[ri.2]?)).getD 1)) ∧
      (fileNodes b.type ri.1).length = p.length := by
    intro ri hri
    have hr := hrows _ (List.fst_mem_of_mem_zipIdx hri)
    obtain ⟨s, hs, hsl, -, hc⟩ := cellRow_eq hp hd ri.1 (hr.1 _ hn) hr.2 (b.index.bind (·[ri.2]?)) (by
      intro i hi
      cases hx : b.index with
      | none => rw [hx] at hi; simp at hi
      | some l =>
        rw [hx] at hi
        exact (hidx l hx).2 i (List.mem_of_getElem? hi))
    have hfn : fileNodes b.type ri.1 = s.map (· + 1) := by
      unfold fileNodes reorderStrict
      simp only [hp, hs]
    rw [hfn]
    refine ⟨?_, by simpa using hsl⟩
    rw [hc, List.length_map, hsl]
  constructor
  · unfold cellLines
    split
    · next h => simp [Block.cells, h]
    · rw [hp]
      simp only
      rw [mapRes_ok_of_forall (fun ri hri => (key ri hri).1)]
      simp only [hcells, List.map_map]
      rfl
  · intro c hc
    rw [hcells, List.map_map] at hc
    obtain ⟨ri, hri, rfl⟩ := List.mem_map.mp hc
    have hk := (key ri hri).2
    have := readCell_row hp hd (fileNodes b.type ri.1) hk ((b.index.bind (·[ri.2]?)).getD 1)
    unfold cellLine
    simp only [Function.comp_apply]
    rw [hk, this]
    rfl

/-- The cells of the blocks of one dimension. -/
def cellsOfDim (bs : List Block) (d : Nat) : List (String × List Int × Int) :=
  (bs.filter (fun b => b.dim == some d)).flatMap Block.cells

theorem length_cells (b : Block) (hb : b.Ok) : b.cells.length = b.rows.length := by
  unfold Block.cells
  cases h : b.index with
  | none => simp
  | some l => simp [(hb.2.2.2 l h).1]

theorem sectionLines_eq (comment title : String) (d : Nat) (bs : List Block) (hb : ∀ b ∈ bs, b.Ok) :
    sectionLines comment title d bs = .ok ([[], comment.toList, title.toList, fmtNat (cellsOfDim bs d).length] ++
      (cellsOfDim bs d).map (cellLine d)) := by
  unfold sectionLines cellsOfDim
  have hf : ∀ b ∈ bs.filter (fun b => b.dim == some d), b.Ok ∧ b.dim = some d := by
    intro b h
    rw [List.mem_filter] at h
    exact ⟨hb b h.1, by simpa using h.2⟩
  simp only
  generalize bs.filter (fun b => b.dim == some d) = fs at hf ⊢
  rw [mapRes_ok_of_forall (fun b h => (cellLines_eq b (hf b h).1 d (hf b h).2).1)]
  simp only
  rw [List.length_flatMap, List.map_flatMap, List.flatMap_def]
  congr 5
  · congr 2
    refine congrArg List.sum ?_
    apply List.map_congr_left
    intro b h
    exact (length_cells b (hf b h).1).symm

theorem tableRow_ne_nil (d n : Nat) (s : List Int) (i : Int) : tableRow d n s i ≠ [] := by
  unfold tableRow; split
  · simp
  · split
    · simp
    · split <;> simp

/-- Reading a section of cells. -/
theorem reads_section (fio : FloatIO F) (c title : List Char) (d : Nat) (bs : List Block) (hb : ∀ b ∈ bs, b.Ok)
    (ht : IsTok title) (hh : title.head? ≠ some '#') (he : title ≠ "endmesh".toList)
    (h1 : title ≠ "dimension".toList) (h2 : title ≠ "geomtype".toList) (h3 : title ≠ "points".toList)
    (hs : sectionOf title = some (d, (secParams d).1, (secParams d).2)) (st : St F) (h2l : st.twoLines = false) :
    Reads fio (([[], '#' :: c, title, fmtNat (cellsOfDim bs d).length] ++ (cellsOfDim bs d).map (cellLine d)).map nl)
      st { st with cells := ((cellsOfDim bs d).map fileCell).foldl pushTyped st.cells } := by
  apply Reads.one (t := title) (b := nl (fmtNat (cellsOfDim bs d).length) :: ((cellsOfDim bs d).map (cellLine d)).map nl)
  · simp
  · intro rest
    simp only [List.map_append, List.map_cons, List.map_nil, List.cons_append, List.nil_append]
    rw [fastForward_blank, fastForward_comment, fastForward_tok ht hh]
  · exact he
  · intro rest
    refine step_cells fio h1 h2 h3 hs (intLine_nat _ _) ?_
    rw [h2l]
    refine readCells_rows d _ _ (cellLine d) fileCell _
      (fun c _ => ⟨_, tableRow_ne_nil _ _ _ _, rfl⟩) ?_ rest st.cells
    intro c hc
    obtain ⟨b, hbm, hc⟩ := List.mem_flatMap.mp hc
    rw [List.mem_filter] at hbm
    exact (cellLines_eq b (hb b hbm.1) d (by simpa using hbm.2)).2 c hc

/-! ### Points and identifications -/

theorem takeWhile_noHash (l : List Char) (h : '#' ∉ l) : l.takeWhile (· ≠ '#') = l := by
  induction l with
  | nil => rfl
  | cons c l ih =>
    rw [List.takeWhile_cons, if_pos (by simp; rintro rfl; exact h (by simp)), ih (fun hm => h (by simp [hm]))]

theorem dataLine_line (toks : List (List Char)) (h : ∀ t ∈ toks, IsTok t ∧ '#' ∉ t) :
    dataLine (nl (joinWith ' ' toks)) = toks := by
  unfold dataLine
  rw [takeWhile_noHash]
  · exact splitWs_line toks (fun t ht => (h t ht).1)
  · unfold nl
    rw [List.mem_append]
    rintro (hm | hm)
    · exact not_mem_joinWith (by decide) toks (fun t ht => (h t ht).2) hm
    · simp at hm

theorem takeRows_lines (rows : List (List (List Char))) (hne : ∀ r ∈ rows, r ≠ [])
    (h : ∀ r ∈ rows, ∀ t ∈ r, IsTok t ∧ '#' ∉ t) (rest : List (List Char)) :
    takeRows rows.length ((rows.map (joinWith ' ')).map nl ++ rest) = (rows, rest) := by
  induction rows with
  | nil => simp [takeRows]
  | cons r rows ih =>
    rw [List.length_cons, List.map_cons, List.map_cons, List.cons_append, takeRows,
      dataLine_line r (h r (by simp)), if_neg (hne r (by simp)),
      ih (fun r hr => hne r (by simp [hr])) (fun r hr => h r (by simp [hr]))]

theorem loadtxt_rows {α : Type} (parse : List Char → Option α) (fmt : α → List Char)
    (hp : ∀ x, parse (fmt x) = some x) (k : Nat) (rows : List (List α)) (hk : ∀ r ∈ rows, r.length = k) :
    loadtxt parse (rows.map (·.map fmt)) = .ok rows := by
  unfold loadtxt
  have h1 : ∀ r : List α, mapRes (num parse) (r.map fmt) = .ok r := by
    intro r
    induction r with
    | nil => rfl
    | cons x r ih =>
      rw [List.map_cons, mapRes, num, hp]
      simp only
      rw [ih]
  have h2 : mapRes (mapRes (num parse)) (rows.map (·.map fmt)) = .ok rows := by
    clear hk
    induction rows with
    | nil => rfl
    | cons r rows ih =>
      rw [List.map_cons, mapRes, h1]
      simp only
      rw [ih]
  rw [h2]
  simp only
  rw [if_pos]
  rw [List.all_eq_true]
  intro r hr
  rw [decide_eq_true_eq, hk r hr]
  cases rows with
  | nil => exact absurd hr (by simp)
  | cons a rows => exact (hk a (by simp)).symm

theorem step_points (fio : FloatIO F) {ls ls' : List (List Char)} {st : St F} {n : Nat} (hn : n ≠ 0)
    (hi : intLine ls = .ok ((n : Int), ls')) {vs : List (List F)} {p : Points F}
    (hl : loadtxt fio.parse (takeRows n ls').1 = .ok vs) (hc : cutPoints st.dim vs = .ok p) :
    step fio "points".toList ls st = .ok ({ st with points := p }, (takeRows n ls').2) := by
  unfold step
  rw [if_neg (by decide), if_neg (by decide), if_pos rfl]
  simp only [hi, Int.toNat_natCast]
  rw [if_neg (by omega), hl]
  simp only [hc]

theorem step_points_zero (fio : FloatIO F) {ls ls' : List (List Char)} {st : St F}
    (hi : intLine ls = .ok ((0 : Nat), ls')) : step fio "points".toList ls st = .ok (st, ls') := by
  unfold step
  rw [if_neg (by decide), if_neg (by decide), if_pos rfl]
  simp only [hi]
  rw [if_pos (by decide)]

/-- Reading the points. -/
theorem reads_points (fio : FloatIO F) (hf : ∀ x, '#' ∉ fio.fmt x) (c : List Char) (zero : F) (dim : Nat)
    (hd : dim ≤ 3) (pts : List (List F)) (h1 : pts.length ≠ 1) (hp : ∀ p ∈ pts, p.length = dim) (st : St F)
    (hst : st.dim = some (dim : Int)) (hpts : st.points = .rows []) :
    Reads fio (([[], '#' :: c, "points".toList, fmtNat pts.length] ++
        pts.map (fun p => joinWith ' ' ((p ++ List.replicate (3 - dim) zero).map fio.fmt))).map nl)
      st { st with points := .rows pts } := by
  apply Reads.one (t := "points".toList) (b := nl (fmtNat pts.length) ::
    (pts.map (fun p => joinWith ' ' ((p ++ List.replicate (3 - dim) zero).map fio.fmt))).map nl)
  · simp
  · intro rest
    simp only [List.map_append, List.map_cons, List.map_nil, List.cons_append, List.nil_append]
    rw [fastForward_blank, fastForward_comment,
      fastForward_tok (by constructor <;> decide : IsTok "points".toList) (by decide)]
  · decide
  · intro rest
    by_cases h0 : pts.length = 0
    · have : pts = [] := List.length_eq_zero_iff.mp h0
      subst this
      refine Eq.trans (step_points_zero fio (ls' := rest) (intLine_nat 0 rest)) ?_
      rw [← hpts]
    · have hrows : pts.map (fun p => joinWith ' ' ((p ++ List.replicate (3 - dim) zero).map fio.fmt)) =
          ((pts.map (· ++ List.replicate (3 - dim) zero)).map (·.map fio.fmt)).map (joinWith ' ') := by
        simp [List.map_map, Function.comp_def]
      have hlen : ∀ r ∈ pts.map (· ++ List.replicate (3 - dim) zero), r.length = 3 := by
        intro r hr
        obtain ⟨p, hpm, rfl⟩ := List.mem_map.mp hr
        simp [hp p hpm]; omega
      have ht : takeRows pts.length ((pts.map (fun p => joinWith ' ' ((p ++ List.replicate (3 - dim) zero).map fio.fmt))).map nl ++ rest) =
          ((pts.map (· ++ List.replicate (3 - dim) zero)).map (·.map fio.fmt), rest) := by
        rw [hrows]
        have := takeRows_lines ((pts.map (· ++ List.replicate (3 - dim) zero)).map (·.map fio.fmt)) (by
          intro r hr
          obtain ⟨q, hq, rfl⟩ := List.mem_map.mp hr
          have := hlen q hq
          intro hn
          rw [List.map_eq_nil_iff] at hn
          rw [hn] at this; simp at this) (by
          intro r hr t htm
          obtain ⟨q, hq, rfl⟩ := List.mem_map.mp hr
          obtain ⟨x, _, rfl⟩ := List.mem_map.mp htm
          exact ⟨fio.tok x, hf x⟩) rest
        simpa using this
      have := step_points fio (st := st) h0 (intLine_nat pts.length ((pts.map (fun p => joinWith ' '
        ((p ++ List.replicate (3 - dim) zero).map fio.fmt))).map nl ++ rest))
        (vs := pts.map (· ++ List.replicate (3 - dim) zero)) (p := .rows pts) (by
          rw [ht]
          exact loadtxt_rows fio.parse fio.fmt fio.parse_fmt 3 _ hlen) (by
          rw [hst]
          unfold cutPoints
          simp only
          by_cases h3 : dim = 3
          · subst h3
            rw [if_pos (by decide)]
            simp only [Nat.sub_self, List.replicate_zero, List.append_nil, List.map_id']
            cases pts with
            | nil => rfl
            | cons a pts =>
              cases pts with
              | nil => exact absurd rfl h1
              | cons b pts => rfl
          · rw [if_neg (by omega), if_neg (by omega), if_neg (by simp; omega)]
            congr 2
            rw [List.map_map]
            conv => rhs; rw [← List.map_id pts]
            apply List.map_congr_left
            intro p hpm
            simp [← hp p hpm])
      rw [ht] at this
      exact this

theorem step_ids (fio : FloatIO F) {ls ls' : List (List Char)} {st : St F} {n : Nat} (hn : n ≠ 0)
    (hi : intLine ls = .ok ((n : Int), ls')) {vs rows : List (List Int)}
    (hl : loadtxt parseInt (takeRows n ls').1 = .ok vs) (hr : reshape n 3 vs.flatten = .ok rows) :
    step fio "identifications".toList ls st = .ok ({ st with ids := some rows }, (takeRows n ls').2) := by
  unfold step
  rw [if_neg (by decide), if_neg (by decide), if_neg (by decide)]
  rw [show sectionOf "identifications".toList = none by decide]
  simp only
  rw [if_neg (by decide), if_neg (by decide), if_pos trivial]
  simp only [hi, Int.toNat_natCast]
  rw [if_neg (by omega), hl]
  simp only [hr]

theorem step_idTypes (fio : FloatIO F) {ls ls' : List (List Char)} {st : St F} {n : Nat} (hn : n ≠ 0)
    (hi : intLine ls = .ok ((n : Int), ls')) {vs : List (List Int)}
    (hl : loadtxt parseInt (takeRows 1 ls').1 = .ok vs) (hr : vs.flatten.length = n) :
    step fio "identificationtypes".toList ls st = .ok ({ st with idTypes := some vs.flatten }, (takeRows 1 ls').2) := by
  unfold step
  rw [if_neg (by decide), if_neg (by decide), if_neg (by decide)]
  rw [show sectionOf "identificationtypes".toList = none by decide]
  simp only
  rw [if_neg (by decide), if_neg (by decide), if_neg (by decide), if_pos trivial]
  simp only [hi, Int.toNat_natCast]
  rw [if_neg (by omega), hl]
  simp only
  rw [if_pos hr]

theorem intToks (r : List Int) : ∀ t ∈ r.map fmtInt, IsTok t ∧ '#' ∉ t := by
  intro t ht
  obtain ⟨z, _, rfl⟩ := List.mem_map.mp ht
  exact ⟨isTok_fmtInt z, not_hash_fmtInt z⟩

/-- Reading the identifications. -/
theorem reads_info (fio : FloatIO F) (info : Option (List (List Int) × List Int))
    (h : ∀ i, info = some i → i.1 ≠ [] ∧ (∀ r ∈ i.1, r.length = 3) ∧ i.2 ≠ []) (st : St F)
    (h1 : st.ids = none) (h2 : st.idTypes = none) :
    Reads fio ((infoLines info).map nl) st { st with ids := info.map (·.1), idTypes := info.map (·.2) } := by
  cases info with
  | none =>
    have : ({ st with ids := none, idTypes := none } : St F) = st := by rw [← h1, ← h2]
    simp only [Option.map_none]
    rw [this]
    exact Reads.nil fio st
  | some i =>
    obtain ⟨ids, types⟩ := i
    obtain ⟨hne, h3, htn⟩ := h _ rfl
    simp only at hne h3 htn
    unfold infoLines
    simp only
    rw [← List.append_assoc, List.map_append]
    apply Reads.append (st' := { st with ids := some ids })
    · apply Reads.one (t := "identifications".toList) (b := nl (fmtNat ids.length) ::
        (ids.map (fun r => joinWith ' ' (r.map fmtInt))).map nl)
      · simp
      · intro rest
        simp only [List.map_append, List.map_cons, List.map_nil, List.cons_append, List.nil_append]
        rw [fastForward_blank,
          fastForward_tok (by constructor <;> decide : IsTok "identifications".toList) (by decide)]
      · decide
      · intro rest
        have ht : takeRows ids.length ((ids.map (fun r => joinWith ' ' (r.map fmtInt))).map nl ++ rest) =
            (ids.map (·.map fmtInt), rest) := by
          have := takeRows_lines (ids.map (·.map fmtInt)) (by
            intro r hr
            obtain ⟨q, hq, rfl⟩ := List.mem_map.mp hr
            intro hn
            rw [List.map_eq_nil_iff] at hn
            have := h3 q hq
            rw [hn] at this; simp at this) (by
            intro r hr t htm
            obtain ⟨q, hq, rfl⟩ := List.mem_map.mp hr
            exact intToks q t htm) rest
          simpa [List.map_map, Function.comp_def] using this
        have := step_ids fio (st := st) (n := ids.length) (by simpa using hne) (intLine_nat ids.length
          ((ids.map (fun r => joinWith ' ' (r.map fmtInt))).map nl ++ rest)) (vs := ids) (rows := ids) (by
            rw [ht]; exact loadtxt_rows parseInt fmtInt parseInt_fmtInt 3 ids h3) (reshape_flatten 3 ids h3)
        rw [ht] at this
        exact this
    · apply Reads.one (t := "identificationtypes".toList) (b := [nl (fmtNat types.length),
        nl (joinWith ' ' (types.map fmtInt))])
      · simp
      · intro rest
        simp only [List.map_cons, List.map_nil, List.cons_append, List.nil_append]
        rw [fastForward_blank,
          fastForward_tok (by constructor <;> decide : IsTok "identificationtypes".toList) (by decide)]
      · decide
      · intro rest
        have ht : takeRows 1 (nl (joinWith ' ' (types.map fmtInt)) :: rest) = ([types.map fmtInt], rest) := by
          have := takeRows_lines [types.map fmtInt] (by simpa using htn) (by
            intro r hr t htm
            simp only [List.mem_singleton] at hr
            subst hr
            exact intToks types t htm) rest
          simpa using this
        have := step_idTypes fio (st := { st with ids := some ids }) (n := types.length) (by simpa using htn)
          (intLine_nat types.length (nl (joinWith ' ' (types.map fmtInt)) :: rest)) (vs := [types]) (by
            rw [ht]; exact loadtxt_rows parseInt fmtInt parseInt_fmtInt types.length [types] (by simp)) (by simp)
        rw [ht] at this
        simpa using this

/-! ### Names -/

/-- The names of one codimension as they are read. -/
def nameEntries (data : List (Int × String)) (edim : Int) (s n : Nat) : Dict (Int × Int) :=
  (List.range' s n).filterMap (fun i : Nat => if nameOf data ((i : Int) + 1) = "" then none
    else some (nameOf data ((i : Int) + 1), ((i : Int) + 1, edim)))

/-- Storing entries one after the other. -/
def setAll (d : Dict (Int × Int)) (es : Dict (Int × Int)) : Dict (Int × Int) :=
  es.foldl (fun d e => Dict.set d e.1 e.2) d

/-- The line of a name. -/
def nameLine (data : List (Int × String)) (i : Nat) : List Char :=
  fmtNat (i + 1) ++ ' ' :: (nameOf data (i + 1)).toList

theorem splitWs_nameLine (data : List (Int × String)) (i : Nat) (h : nameOf data ((i : Int) + 1) ≠ "" →
    IsTok (nameOf data ((i : Int) + 1)).toList) :
    splitWs (nl (nameLine data i)) = if nameOf data ((i : Int) + 1) = "" then [fmtNat (i + 1)]
      else [fmtNat (i + 1), (nameOf data ((i : Int) + 1)).toList] := by
  unfold nl nameLine
  split
  · next h0 =>
    rw [h0]
    have := splitWs_joinWith_ws (w := ' ') (w' := ' ') (by decide) (by decide) [fmtNat (i + 1)]
      (by simpa using isTok_fmtNat _) ['\n']
    simpa [joinWith, splitWs_ws (show isWs '\n' = true by decide)] using this
  · next h0 =>
    have := splitWs_line [fmtNat (i + 1), (nameOf data ((i : Int) + 1)).toList] (by
      intro x hx
      rcases List.mem_cons.mp hx with rfl | hx
      · exact isTok_fmtNat _
      · simp only [List.mem_singleton] at hx
        subst hx
        exact h h0)
    simpa [joinWith] using this

theorem readNames_lines (data : List (Int × String)) (h : ∀ i : Int, nameOf data i ≠ "" → IsTok (nameOf data i).toList)
    (edim : Int) (n s : Nat) (rest : List (List Char)) (d : Dict (Int × Int)) :
    readNames edim n (((List.range' s n).map (nameLine data)).map nl ++ rest) d =
      .ok (setAll d (nameEntries data edim s n), rest) := by
  induction n generalizing s d with
  | zero => rfl
  | succ n ih =>
    rw [List.range'_succ, List.map_cons, List.map_cons, List.cons_append, readNames, List.headD_cons,
      splitWs_nameLine data s (h _)]
    unfold nameEntries
    rw [List.range'_succ, List.filterMap_cons]
    by_cases h0 : nameOf data ((s : Int) + 1) = ""
    · simp only [h0, if_true]
      exact ih (s + 1) d
    · simp only [h0, if_false]
      have hp : parseInt (fmtNat (s + 1)) = some ((s : Int) + 1) := parseInt_fmtInt ((s + 1 : Nat) : Int)
      rw [hp]
      simp only [List.drop_succ_cons, List.drop_zero, String.ofList_toList]
      exact ih (s + 1) _

theorem step_names (fio : FloatIO F) (c : Nat) (hc : c ≤ 3) {ls ls' ls'' : List (List Char)} {st : St F} {d : Int}
    {n : Int} {f : Dict (Int × Int)} (hd : st.dim = some d) (hi : intLine ls = .ok (n, ls'))
    (hr : readNames (d - c) n.toNat ls' st.fields = .ok (f, ls'')) :
    step fio (codimNames.getD c []) ls st = .ok ({ st with fields := f }, ls'') := by
  have hs : sectionOf (codimNames.getD c []) = none ∧ codimNames.getD c [] ∈ codimNames ∧
      codimNames.idxOf (codimNames.getD c []) = c ∧ codimNames.getD c [] ≠ "dimension".toList ∧
      codimNames.getD c [] ≠ "geomtype".toList ∧ codimNames.getD c [] ≠ "points".toList ∧
      splitWs (codimNames.getD c []) ≠ ["surf1".toList, "surf2".toList, "p1".toList, "p2".toList] := by
    rcases (show c = 0 ∨ c = 1 ∨ c = 2 ∨ c = 3 by omega) with rfl | rfl | rfl | rfl <;> decide
  obtain ⟨h1, h2, h3, h4, h5, h6, h7⟩ := hs
  unfold step
  rw [if_neg h4, if_neg h5, if_neg h6]
  simp only [h1]
  rw [if_neg h7, if_pos h2]
  simp only [hd, hi, h3, hr]

/-- The entries of a codimension. -/
def codimEntries (fields : Dict (Int × Int)) (bs : List Block) (dim c : Nat) : Dict (Int × Int) :=
  nameEntries (codimData fields bs dim c) ((dim : Int) - c) 0 (maxKey (codimData fields bs dim c)).toNat

theorem reads_codim (fio : FloatIO F) (fields : Dict (Int × Int)) (bs : List Block) (dim c : Nat) (hc : c ≤ 3)
    (h : ∀ i : Int, nameOf (codimData fields bs dim c) i ≠ "" → IsTok (nameOf (codimData fields bs dim c) i).toList)
    (st : St F) (hd : st.dim = some (dim : Int)) :
    Reads fio ((codimLines fields bs dim c).map nl) st
      { st with fields := setAll st.fields (codimEntries fields bs dim c) } := by
  unfold codimLines codimEntries
  generalize codimData fields bs dim c = data at h ⊢
  cases data with
  | nil => exact Reads.nil fio st
  | cons a l =>
    simp only
    generalize a :: l = data at h ⊢
    apply Reads.one (t := codimNames.getD c []) (b := nl (fmtInt (maxKey data)) ::
      ((List.range (maxKey data).toNat).map (nameLine data)).map nl)
    · simp
    · intro rest
      simp only [List.map_append, List.map_cons, List.map_nil, List.cons_append, List.nil_append]
      rw [fastForward_blank, fastForward_tok]
      · rfl
      · rcases (show c = 0 ∨ c = 1 ∨ c = 2 ∨ c = 3 by omega) with rfl | rfl | rfl | rfl <;>
          (constructor <;> decide)
      · rcases (show c = 0 ∨ c = 1 ∨ c = 2 ∨ c = 3 by omega) with rfl | rfl | rfl | rfl <;> decide
    · rcases (show c = 0 ∨ c = 1 ∨ c = 2 ∨ c = 3 by omega) with rfl | rfl | rfl | rfl <;> decide
    · intro rest
      refine step_names fio c hc hd (intLine_int _ _) ?_
      rw [List.range_eq_range']
      exact readNames_lines data h _ _ 0 rest _

theorem setAll_append (d a b : Dict (Int × Int)) : setAll d (a ++ b) = setAll (setAll d a) b := by
  unfold setAll
  rw [List.foldl_append]

theorem reads_codims (fio : FloatIO F) (fields : Dict (Int × Int)) (bs : List Block) (dim : Nat) (cs : List Nat)
    (hc : ∀ c ∈ cs, c ≤ 3)
    (h : ∀ c ∈ cs, ∀ i : Int, nameOf (codimData fields bs dim c) i ≠ "" →
      IsTok (nameOf (codimData fields bs dim c) i).toList)
    (st : St F) (hd : st.dim = some (dim : Int)) :
    Reads fio ((cs.flatMap (codimLines fields bs dim)).map nl) st
      { st with fields := setAll st.fields (cs.flatMap (codimEntries fields bs dim)) } := by
  induction cs generalizing st with
  | nil => exact Reads.nil fio st
  | cons c cs ih =>
    rw [List.flatMap_cons, List.map_append, List.flatMap_cons, setAll_append]
    exact Reads.append (reads_codim fio fields bs dim c (hc c (by simp)) (h c (by simp)) st hd)
      (ih (fun c hcm => hc c (by simp [hcm])) (fun c hcm => h c (by simp [hcm]))
        { st with fields := setAll st.fields (codimEntries fields bs dim c) } hd)

/-! ### The whole file -/

theorem reads_header (fio : FloatIO F) (dim : Nat) (st : St F) :
    Reads fio (([[], "dimension".toList, fmtNat dim, [], "geomtype".toList, fmtNat 0]).map nl) st
      { st with dim := some (dim : Int) } := by
  have e : ([[], "dimension".toList, fmtNat dim, [], "geomtype".toList, fmtNat 0] : List (List Char)) =
      [[], "dimension".toList, fmtNat dim] ++ [[], "geomtype".toList, fmtNat 0] := rfl
  rw [e, List.map_append]
  apply Reads.append (st' := { st with dim := some (dim : Int) })
  · apply Reads.one (t := "dimension".toList) (b := [nl (fmtNat dim)])
    · simp
    · intro rest
      simp only [List.map_cons, List.map_nil, List.cons_append, List.nil_append]
      rw [fastForward_blank, fastForward_tok (by constructor <;> decide : IsTok "dimension".toList) (by decide)]
    · decide
    · intro rest
      unfold step
      rw [if_pos rfl]
      simp only [List.cons_append, List.nil_append]
      rw [intLine_nat]
  · apply Reads.one (t := "geomtype".toList) (b := [nl (fmtNat 0)])
    · simp
    · intro rest
      simp only [List.map_cons, List.map_nil, List.cons_append, List.nil_append]
      rw [fastForward_blank, fastForward_tok (by constructor <;> decide : IsTok "geomtype".toList) (by decide)]
    · decide
    · intro rest
      unfold step
      rw [if_neg (by decide), if_pos rfl]
      simp only [List.cons_append, List.nil_append]
      rw [intLine_nat]

/-- Lines that lead to a state and `endmesh` after them. -/
theorem loop_of_reads {fio : FloatIO F} {a : List (List Char)} {st st' : St F} (h : Reads fio a st st') (fuel : Nat)
    (hf : a.length < fuel) : loop fio fuel (a ++ [nl [], nl "endmesh".toList]) st = .ok st' := by
  obtain ⟨n, hn, h⟩ := h
  obtain ⟨k, rfl⟩ : ∃ k, fuel = (k + 1) + n := ⟨fuel - n - 1, by omega⟩
  rw [h, loop, fastForward_blank, fastForward_tok (by constructor <;> decide : IsTok "endmesh".toList) (by decide)]
  rfl

end Meshio.Netgen
