/-
The legacy VTK writer: its output is a file that says the right thing.
-/
import Verif.Proofs.VtkFileMesh
namespace Meshio.VtkFile
open Meshio Meshio.Spec Meshio.Vtk

variable {V : Type} {io : VtkIO V} {has : String → V → Prop}

/-- The rest of a text begins with no white space. -/
def NoWs (s : List Char) : Prop := ∀ c, s.head? = some c → isWs c = false

theorem numeral_fmt (n : Nat) : Numeral (fmtNat n) n := parseInt_fmtNat n

theorem text_ok {α : Type} {parse : List Char → Option α} {fmt : α → List Char} (c : Char) (hc : isWs c = true) (ls : List (List α))
    (h : ∀ l ∈ ls, ∀ x ∈ l, IsTok (fmt x) ∧ parse (fmt x) = some x) (hne : ls.flatten = [] → ls = []) {rest : List Char} (hr : NoWs rest) :
    VtkText parse ls.flatten (ls.flatMap (fun l => textOf fmt c l ++ ['\n']) ++ rest) rest := by
  refine ⟨_, rfl, ?_, ?_, ?_, fun _ => hr⟩
  · clear hne
    induction ls with
    | nil => rfl
    | cons l ls ih =>
      rw [List.flatMap_cons, List.append_assoc, textOf]
      rw [show ['\n'] ++ ls.flatMap (fun l => textOf fmt c l ++ ['\n']) = '\n' :: ls.flatMap (fun l => textOf fmt c l ++ ['\n']) from rfl,
        splitWs_joinWith_ws hc (by decide) _ (by
          intro t ht
          obtain ⟨x, hx, rfl⟩ := List.mem_map.1 ht
          exact (h l (by simp) x hx).1), List.map_append, ih fun l hl => h l (by simp [hl]), List.flatten_cons, List.map_append]
      congr 1
      rw [List.map_map]
      exact List.map_congr_left fun x hx => (h l (by simp) x hx).2
  · intro e
    rw [hne e]; rfl
  · intro d hd
    rcases List.eq_nil_or_concat ls with rfl | ⟨ls', l, rfl⟩
    · cases hd
    · rw [List.concat_eq_append, List.flatMap_append, List.flatMap_cons, List.flatMap_nil, List.append_nil, ← List.append_assoc,
        List.getLast?_append] at hd
      simp only [List.getLast?_singleton, Option.some_or, Option.some.injEq] at hd
      rw [← hd]; rfl

theorem putInts_ok {binary : Bool} {k : Nat} {ls : List (List Int)} (hfit : binary = true → ∀ x ∈ ls.flatten, IsInt k x)
    (hne : ls.flatten = [] → ls = []) {rest : List Char} (hr : NoWs rest) : VtkInts (!binary) k ls.flatten (putInts binary k ls ++ rest) rest := by
  unfold VtkInts putInts
  cases binary with
  | false =>
    simp only [Bool.not_false, if_true, Bool.false_eq_true, if_false]
    exact text_ok '\n' (by decide) ls (fun l _ x _ => ⟨isTok_fmtInt x, parseInt_fmtInt x⟩) hne hr
  | true =>
    simp only [Bool.not_true, Bool.false_eq_true, if_false, if_true]
    refine ⟨hfit rfl, ?_⟩
    rw [List.append_assoc, List.flatMap_def (l := ls.flatten), List.map_flatten, List.flatten_flatten, List.flatMap_def, List.map_map]
    simp only [List.flatMap_def]
    rfl

theorem putValues_ok (hio : VtkLaws io has) {v : Ver} {binary : Bool} {a : Arr V} (hd : binary = false → a.dtype ≠ "bool")
    (hv : ∀ r ∈ a.rows, ∀ x ∈ r, has a.dtype x) (hne : a.rows.flatten ≠ []) {rest : List Char} (hr : NoWs rest) :
    VtkValues io has (!binary) a.dtype a.rows.flatten (putValues io binary a ++ rest) rest := by
  have hv' : ∀ x ∈ a.rows.flatten, has a.dtype x := by
    intro x hx
    obtain ⟨r, hr, hx⟩ := List.mem_flatten.1 hx
    exact hv r hr x hx
  unfold VtkValues putValues
  cases binary with
  | false =>
    simp only [Bool.not_false, if_true, Bool.false_eq_true, if_false]
    have := text_ok (parse := io.parse a.dtype) (fmt := io.fmt) ' ' (by decide) [a.rows.flatten]
      (fun l hl x hx => ⟨hio.tok _ x (hv' x (by rw [← List.mem_singleton.1 hl]; exact hx)),
        hio.parse _ x (hd rfl) (hv' x (by rw [← List.mem_singleton.1 hl]; exact hx))⟩) (fun e => absurd (by simpa using e) hne) hr
    simpa using this
  | true =>
    simp only [Bool.not_true, Bool.false_eq_true, if_false, if_true]
    exact ⟨hv', by rw [List.append_assoc]; rfl⟩

/-- A line of words. -/
theorem head_ok (key : String) (w : List Char) (hk : upper w = key.toList) (args : List (List Char)) (h : ∀ t ∈ w :: args, IsTok t) (s : List Char) :
    VtkHead key args (joinWith ' ' (w :: args) ++ '\n' :: s) s :=
  ⟨_, w, no_newline_line _ h, by rw [← splitWs_nl]; exact splitWs_line _ h, hk, rfl⟩

theorem noWs_tok {t : List Char} (h : IsTok t) (s : List Char) : NoWs (t ++ s) := by
  intro c hc
  cases t with
  | nil => exact absurd rfl h.1
  | cons d t =>
    simp only [List.cons_append, List.head?_cons, Option.some.injEq] at hc
    rw [← hc]
    exact h.2 d (by simp)

theorem noWs_line {w : List Char} (hw : IsTok w) (args : List (List Char)) (s : List Char) : NoWs (joinWith ' ' (w :: args) ++ s) := by
  cases args with
  | nil => exact noWs_tok hw s
  | cons a args =>
    rw [joinWith, List.append_assoc]
    exact noWs_tok hw _

/-- The word for a type. -/
theorem word_ok {v : Ver} {d : String} (h : ∃ name, (name, d) ∈ dtypes v) : ∃ t, vtkDtype v d = some t ∧ VtkWord v t.toList d ∧ IsTok t.toList := by
  obtain ⟨name, hm⟩ := h
  have : ∀ e ∈ dtypes v, ∃ t ∈ (dtypes v).map (·.1), vtkDtype v e.2 = some t ∧ lower t.toList = t.toList ∧ IsTok t.toList ∧ (t, e.2) ∈ dtypes v := by
    cases v
    · decide +kernel
    · decide +kernel
  obtain ⟨t, -, h1, h2, h3, h4⟩ := this _ hm
  exact ⟨t, h1, ⟨t, h2, h4⟩, h3⟩

/-! ### Arrays -/

theorem kept_rows (a : Arr V) : (pad io a).rows = (vtkKept io.zero a).rows ∧ (pad io a).dtype = a.dtype ∧ (vtkKept io.zero a).dtype = a.dtype ∧
    (pad io a).tail.headD 1 = (vtkKept io.zero a).tail.headD 1 ∧ (vtkKept io.zero a).rows.length = a.rows.length := by
  unfold pad vtkKept
  by_cases h1 : a.tail = [1]
  · rw [if_pos h1, if_neg (by rw [h1]; decide), h1]
    exact ⟨rfl, rfl, rfl, rfl, rfl⟩
  · rw [if_neg h1]
    by_cases h2 : a.tail = [2]
    · simp only [if_pos h2]
      exact ⟨trivial, trivial, trivial, trivial, List.length_map _⟩
    · simp only [if_neg h2, and_self]

theorem kept_vals (hio : VtkLaws io has) {v : Ver} {binary : Bool} {a : Arr V} (h : VtkArr has v binary a) :
    ∀ r ∈ (vtkKept io.zero a).rows, ∀ x ∈ r, has a.dtype x := by
  unfold vtkKept
  split
  · exact h.vals
  · split
    · intro r hr x hx
      obtain ⟨r', hr', rfl⟩ := List.mem_map.1 hr
      rcases List.mem_append.1 hx with hx | hx
      · exact h.vals r' hr' x hx
      · rw [List.mem_singleton.1 hx]; exact hio.zero _
    · exact h.vals

theorem kept_field {v : Ver} {binary : Bool} {a : Arr V} (h : VtkArr has v binary a) : Arr.Field (vtkKept io.zero a) := by
  unfold vtkKept
  rcases h.shape with ⟨ht, hr⟩ | ⟨k, ht, hk, hr⟩
  · rw [if_neg (by rw [ht]; decide), if_neg (by rw [ht]; decide)]
    exact .inl ⟨ht, hr⟩
  · by_cases h1 : k = 1
    · subst h1
      rw [if_pos ht]
      exact .inl ⟨rfl, hr⟩
    · rw [if_neg (by rw [ht]; intro e; injection e with e; exact h1 e)]
      by_cases h2 : k = 2
      · subst h2
        rw [if_pos ht]
        refine .inr ⟨3, rfl, by decide, ?_⟩
        intro r hm
        obtain ⟨r', hm', rfl⟩ := List.mem_map.1 hm
        rw [List.length_append, hr r' hm']; rfl
      · rw [if_neg (by rw [ht]; intro e; injection e with e; exact h2 e)]
        exact .inr ⟨k, ht, h1, hr⟩

theorem kept_ne {v : Ver} {binary : Bool} {a : Arr V} (h : VtkArr has v binary a) (hne : a.rows ≠ []) : (vtkKept io.zero a).rows.flatten ≠ [] := by
  have hl : (vtkKept io.zero a).rows ≠ [] := by
    intro e
    have := (kept_rows (io := io) a).2.2.2.2
    rw [e] at this
    exact hne (List.length_eq_zero_iff.1 this.symm)
  have hpos : ∀ r ∈ (vtkKept io.zero a).rows, 0 < r.length := by
    have hs : ∀ r ∈ a.rows, 0 < r.length := by
      rcases h.shape with ⟨-, hr⟩ | ⟨k, -, hk, hr⟩
      · intro r hm; rw [hr r hm]; decide
      · intro r hm; rw [hr r hm]; exact hk
    unfold vtkKept
    split
    · exact hs
    · split
      · intro r hr
        obtain ⟨r', hr', rfl⟩ := List.mem_map.1 hr
        simp
      · exact hs
  cases hq : (vtkKept io.zero a).rows with
  | nil => exact absurd hq hl
  | cons r rs =>
    have := hpos r (by rw [hq]; simp)
    intro e
    rw [List.flatten_cons, List.append_eq_nil_iff] at e
    rw [e.1] at this
    exact absurd this (Nat.lt_irrefl 0)

theorem canonical_ne {d : String} (h : d ≠ "int") : canonical d = d := if_neg h

theorem kept_values (hio : VtkLaws io has) {v : Ver} {binary : Bool} {a : Arr V} (h : VtkArr has v binary a) (hne : a.rows ≠ []) {rest : List Char}
    (hr : NoWs rest) : VtkValues io has (!binary) a.dtype (vtkKept io.zero a).rows.flatten (putValues io binary (pad io a) ++ rest) rest := by
  obtain ⟨e1, e2, e3, -⟩ := kept_rows (io := io) a
  have := putValues_ok hio (v := v) (binary := binary) (a := vtkKept io.zero a) (by rw [e3]; exact h.text) (by rw [e3]; exact kept_vals hio h)
    (kept_ne h hne) hr
  rw [e3] at this
  have hp : putValues io binary (pad io a) = putValues io binary (vtkKept io.zero a) := by
    unfold putValues
    rw [e1, e2, e3]
  rw [hp]
  exact this

theorem writePoints_ok (hio : VtkLaws io has) {v : Ver} {binary : Bool} {a : Arr V} (h : VtkArr has v binary a) (hne : a.rows ≠ []) :
    ∃ t, writePoints io v binary (pad io a) = .ok t ∧
      ∀ rest, NoWs rest → (VtkSec.points (vtkKept io.zero a)).Says io has v (!binary) none (t ++ rest) rest := by
  obtain ⟨t, h1, h2, h3⟩ := word_ok h.dtype
  obtain ⟨e1, e2, e3, e4, e5⟩ := kept_rows (io := io) a
  unfold writePoints
  rw [e2, h1]
  refine ⟨_, rfl, fun rest hr => ?_⟩
  refine ⟨fmtNat (pad io a).rows.length, t.toList, [], a.dtype, putValues io binary (pad io a) ++ rest, ?_, ?_, h2, ?_, ?_⟩
  · have := head_ok "POINTS" "POINTS".toList (by decide) [fmtNat (pad io a).rows.length, t.toList]
      (by
        intro x hx
        simp only [List.mem_cons, List.not_mem_nil, or_false] at hx
        rcases hx with rfl | rfl | rfl
        · decide
        · exact isTok_fmtNat _
        · exact h3) (putValues io binary (pad io a) ++ rest)
    simpa [joinWith, linesText] using this
  · rw [e1]; exact numeral_fmt _
  · rw [e3]; exact canonical_ne h.int
  · exact kept_values hio h hne hr

theorem writeArray_ok (hio : VtkLaws io has) {v : Ver} {binary : Bool} {a : Arr V} (h : VtkArr has v binary a) (hne : a.rows ≠ []) {name : String}
    (hn : IsTok name.toList) : ∃ t, writeArray io v binary name (pad io a) = .ok t ∧ ∀ rest, NoWs rest → NoWs (t ++ rest) ∧
      VtkArray io has v (!binary) name (vtkKept io.zero a) (t ++ rest) rest := by
  obtain ⟨t, h1, h2, h3⟩ := word_ok h.dtype
  obtain ⟨e1, e2, e3, e4, e5⟩ := kept_rows (io := io) a
  unfold writeArray
  rw [if_neg (fun hm => absurd (hn.2 _ hm) (by decide)), e2, h1]
  refine ⟨_, rfl, fun rest hr => ?_⟩
  have htok : ∀ x ∈ [name.toList, fmtNat ((pad io a).tail.headD 1), fmtNat (pad io a).rows.length, t.toList], IsTok x := by
    intro x hx
    simp only [List.mem_cons, List.not_mem_nil, or_false] at hx
    rcases hx with rfl | rfl | rfl | rfl
    · exact hn
    · exact isTok_fmtNat _
    · exact isTok_fmtNat _
    · exact h3
  have e : linesText [name.toList ++ ' ' :: fmtNat ((pad io a).tail.headD 1) ++ ' ' :: fmtNat (pad io a).rows.length ++ ' ' :: t.toList] ++
      putValues io binary (pad io a) ++ rest =
      joinWith ' ' [name.toList, fmtNat ((pad io a).tail.headD 1), fmtNat (pad io a).rows.length, t.toList] ++
        '\n' :: (putValues io binary (pad io a) ++ rest) := by
    simp [joinWith, linesText]
  rw [e]
  refine ⟨noWs_line hn _ _, _, _, _, _, _, _, a.dtype, .inl rfl, no_newline_line _ htok, by rw [← splitWs_nl]; exact splitWs_line _ htok, rfl,
    by rw [e4]; exact numeral_fmt _, by rw [e1]; exact numeral_fmt _, h2, by rw [e3]; exact canonical_ne h.int, kept_values hio h hne hr⟩

theorem writeArrays_ok (hio : VtkLaws io has) {v : Ver} {binary : Bool} (l : List (String × Arr V))
    (h : ∀ kv ∈ l, VtkArr has v binary kv.2 ∧ kv.2.rows ≠ [] ∧ IsTok kv.1.toList) :
    ∃ ts, mapRes (fun kv : String × Arr V => writeArray io v binary kv.1 kv.2) (l.map fun kv => (kv.1, pad io kv.2)) = .ok ts ∧
      ∀ rest, NoWs rest → NoWs (ts.flatten ++ rest) ∧
        VtkArrays io has v (!binary) (l.map fun kv => (kv.1, vtkKept io.zero kv.2)) (ts.flatten ++ rest) rest := by
  induction l with
  | nil => exact ⟨[], rfl, fun rest hr => ⟨hr, rfl⟩⟩
  | cons kv l ih =>
    obtain ⟨ts, h1, h2⟩ := ih fun x hx => h x (by simp [hx])
    obtain ⟨a1, a2, a3⟩ := h kv (by simp)
    obtain ⟨t, h3, h4⟩ := writeArray_ok hio a1 a2 a3
    refine ⟨t :: ts, ?_, fun rest hr => ?_⟩
    · rw [List.map_cons, mapRes, h3, h1]
    · rw [List.flatten_cons, List.append_assoc]
      obtain ⟨n1, n2⟩ := h2 rest hr
      obtain ⟨n3, n4⟩ := h4 _ n1
      exact ⟨n3, _, n4, n2⟩

theorem writeFields_ok (hio : VtkLaws io has) {v : Ver} {binary : Bool} (l : List (String × Arr V))
    (h : ∀ kv ∈ l, VtkArr has v binary kv.2 ∧ kv.2.rows ≠ [] ∧ IsTok kv.1.toList) :
    ∃ t, writeFields io v binary (l.map fun kv => (kv.1, pad io kv.2)) = .ok t ∧ ∀ rest num, NoWs rest →
      (VtkSec.arrays (l.map fun kv => (kv.1, vtkKept io.zero kv.2))).Says io has v (!binary) num (t ++ rest) rest := by
  obtain ⟨ts, h1, h2⟩ := writeArrays_ok hio l h
  unfold writeFields
  rw [h1]
  refine ⟨_, rfl, fun rest num hr => ?_⟩
  refine ⟨"FieldData".toList, fmtNat (l.map fun kv => (kv.1, pad io kv.2)).length, [], ts.flatten ++ rest, ?_, ?_, (h2 rest hr).2⟩
  · have := head_ok "FIELD" "FIELD".toList (by decide) ["FieldData".toList, fmtNat (l.map fun kv => (kv.1, pad io kv.2)).length]
      (by
        intro x hx
        simp only [List.mem_cons, List.not_mem_nil, or_false] at hx
        rcases hx with rfl | rfl | rfl
        · decide
        · decide
        · exact isTok_fmtNat _) (ts.flatten ++ rest)
    simpa [joinWith, linesText] using this
  · have : (l.map fun kv => (kv.1, pad io kv.2)).length = (l.map fun kv => (kv.1, vtkKept io.zero kv.2)).length := by simp
    rw [this]; exact numeral_fmt _

/-! ### Cells -/

theorem cellsOf_blk (bs : List Blk2) : cellsOf (bs.map Blk2.blk) = vtkCellsOf bs := by
  unfold cellsOf vtkCellsOf
  rw [List.flatMap_map]
  rfl

theorem mapRes_map {α β γ : Type} (f : β → Res γ) (g : α → β) (l : List α) : mapRes f (l.map g) = mapRes (fun a => f (g a)) l := by
  induction l with
  | nil => rfl
  | cons a l ih => rw [List.map_cons, mapRes, mapRes, ih]

/-- What the cells of a mesh are like. -/
def Blocks (bs : List Blk2) : Prop :=
  ∀ b ∈ bs, (∃ c, vtkCode b.type = some c) ∧ b.rows ≠ [] ∧ b.width ≠ 0 ∧ (∀ r ∈ b.rows, r.length = b.width) ∧ (b.type = "wedge" → b.width = 6)

theorem blocks_writable {bs : List Blk2} (h : Blocks bs) : ∀ b ∈ bs.map Blk2.blk, Writable b := by
  intro b hb
  obtain ⟨b', hb', rfl⟩ := List.mem_map.1 hb
  obtain ⟨h1, -, -, h4, h5⟩ := h b' hb'
  exact ⟨h1, fun e r hr => by rw [h4 r hr]; exact h5 e⟩

theorem length_vtkCellsOf (bs : List Blk2) : (vtkCellsOf bs).length = totalCells bs := by
  unfold vtkCellsOf totalCells
  rw [List.length_flatMap]
  simp

theorem length_conn {bs : List Blk2} (h : Blocks bs) : (connectivityOf (vtkCellsOf bs)).length = totalIdx bs := by
  induction bs with
  | nil => rfl
  | cons b bs ih =>
    have ih := ih fun b hb => h b (by simp [hb])
    have e : connectivityOf (vtkCellsOf (b :: bs)) =
        connectivityOf (b.rows.map fun r => ((vtkCode b.type).getD 0, toVtk b.type r)) ++ connectivityOf (vtkCellsOf bs) := by
      simp [connectivityOf, vtkCellsOf, List.flatMap_append]
    rw [e, List.length_append, ih, conn_block_length b.width _ _ _ (h b (by simp)).2.2.2.1]
    simp [totalIdx]

theorem length_stream (cs : List VtkCell) : (streamOf cs).length = (connectivityOf cs).length + cs.length := by
  unfold streamOf connectivityOf
  induction cs with
  | nil => rfl
  | cons c cs ih => simp only [List.flatMap_cons, List.length_append, List.length_cons, ih]; omega

theorem cells_nil {bs : List Blk2} (h : Blocks bs) (e : vtkCellsOf bs = []) : bs = [] := by
  cases bs with
  | nil => rfl
  | cons b bs =>
    have h2 := (h b (by simp)).2.1
    unfold vtkCellsOf at e
    rw [List.flatMap_cons, List.append_eq_nil_iff, List.map_eq_nil_iff] at e
    exact absurd e.1 h2

theorem writeCells42_says {binary : Bool} {bs : List Blk2} (h : Blocks bs) (hfit : binary = true → ∀ x ∈ streamOf (vtkCellsOf bs), IsInt 4 x) :
    ∃ t, writeCells42 binary bs = .ok t ∧ ∀ rest num, NoWs rest →
      (VtkSec.cells (vtkCellsOf bs) : VtkSec V).Says io has .v42 (!binary) num (t ++ rest) rest := by
  have hw := writeCells42_ok _ (blocks_writable h)
  rw [cellsOf_blk] at hw
  unfold Vtk.writeCells42 at hw
  rw [mapRes_map] at hw
  unfold writeCells42
  cases hm : mapRes (fun b : Blk2 => cellsOut42 (b.type, b.rows)) bs with
  | error e =>
    have hm' : mapRes (fun b : Blk2 => cellsOut42 b.blk) bs = .error e := hm
    rw [hm'] at hw
    cases hw
  | ok ls =>
    have hm' : mapRes (fun b : Blk2 => cellsOut42 b.blk) bs = .ok ls := hm
    rw [hm'] at hw
    simp only at hw
    have hs : ls.flatten = streamOf (vtkCellsOf bs) := by
      cases ht : mapRes typesOut (bs.map Blk2.blk) with
      | error e => rw [ht] at hw; cases hw
      | ok ts =>
        rw [ht] at hw
        injection hw with hw
        exact (Prod.mk.injEq .. ▸ hw).1
    refine ⟨_, rfl, fun rest num hr => ?_⟩
    refine ⟨fmtNat (totalCells bs), fmtNat (totalIdx bs + totalCells bs), [], putInts binary 4 ls ++ rest, ?_, ?_, ?_, ?_⟩
    · have := head_ok "CELLS" "CELLS".toList (by decide) [fmtNat (totalCells bs), fmtNat (totalIdx bs + totalCells bs)]
        (by
          intro x hx
          simp only [List.mem_cons, List.not_mem_nil, or_false] at hx
          rcases hx with rfl | rfl | rfl
          · decide
          · exact isTok_fmtNat _
          · exact isTok_fmtNat _) (putInts binary 4 ls ++ rest)
      simpa [joinWith, linesText] using this
    · rw [length_vtkCellsOf]; exact numeral_fmt _
    · rw [length_stream, length_conn h, length_vtkCellsOf]; exact numeral_fmt _
    · rw [← hs]
      apply putInts_ok (by rw [hs]; exact hfit) _ hr
      intro e
      rw [hs] at e
      have : (vtkCellsOf bs).length = 0 := by
        have := length_stream (vtkCellsOf bs)
        rw [e, List.length_nil] at this
        omega
      have := cells_nil h (List.length_eq_zero_iff.1 this)
      subst this
      cases hm; rfl

theorem writeCells51_says {binary : Bool} {bs : List Blk2} (h : Blocks bs)
    (hfit : binary = true → ∀ x ∈ endsFrom 0 (vtkCellsOf bs) ++ connectivityOf (vtkCellsOf bs), IsInt 8 x) :
    ∃ t, writeCells51 binary bs = .ok t ∧ ∀ rest num, NoWs rest →
      (VtkSec.cells (vtkCellsOf bs) : VtkSec V).Says io has .v51 (!binary) num (t ++ rest) rest := by
  have h0 := offsetsOut51_ok bs 0 (fun b hb => ⟨(h b hb).2.2.1, (h b hb).2.1, (h b hb).2.2.2.1⟩)
  rw [cellsOf_blk, Int.natCast_zero] at h0
  have h1 : mapRes (fun b : Blk2 => mapRes (outRow b.type) b.rows) bs = .ok (bs.map fun b => b.rows.map (toVtk b.type)) := by
    apply mapRes_ok_of_forall
    intro b hb
    apply mapRes_ok_of_forall
    intro r hr
    exact outRow_ok b.type r (fun e => by rw [(h b hb).2.2.2.1 r hr]; exact (h b hb).2.2.2.2 e)
  have hs : ((bs.map fun b => b.rows.map (toVtk b.type)).map List.flatten).flatten = connectivityOf (vtkCellsOf bs) := by
    clear h hfit h0 h1
    induction bs with
    | nil => rfl
    | cons b bs ih =>
      rw [List.map_cons, List.map_cons, List.flatten_cons, ih]
      simp [connectivityOf, vtkCellsOf, List.flatMap_def, Function.comp_def]
  unfold writeCells51
  rw [h0, h1]
  refine ⟨_, rfl, fun rest num hr => ?_⟩
  generalize hA : putInts binary 8 [0 :: endsFrom 0 (vtkCellsOf bs)] = A
  generalize hB : putInts binary 8 ((bs.map fun b => b.rows.map (toVtk b.type)).map List.flatten) = B
  refine ⟨fmtNat (totalCells bs + 1), fmtNat (totalIdx bs), [],
    "OFFSETS vtktypeint64".toList ++ '\n' :: (A ++ ("CONNECTIVITY vtktypeint64".toList ++ '\n' :: (B ++ rest))), ?_, ?_, ?_, ?_⟩
  · have := head_ok "CELLS" "CELLS".toList (by decide) [fmtNat (totalCells bs + 1), fmtNat (totalIdx bs)]
      (by
        intro x hx
        simp only [List.mem_cons, List.not_mem_nil, or_false] at hx
        rcases hx with rfl | rfl | rfl
        · decide
        · exact isTok_fmtNat _
        · exact isTok_fmtNat _)
      ("OFFSETS vtktypeint64".toList ++ '\n' :: (A ++ ("CONNECTIVITY vtktypeint64".toList ++ '\n' :: (B ++ rest))))
    simpa [joinWith, linesText] using this
  · rw [length_vtkCellsOf]; exact numeral_fmt _
  · rw [length_conn h]; exact numeral_fmt _
  · refine ⟨"OFFSETS vtktypeint64".toList, "OFFSETS".toList, "vtktypeint64".toList, [], "int64", _, _, "CONNECTIVITY vtktypeint64".toList, "CONNECTIVITY".toList, "vtktypeint64".toList, [], "int64", B ++ rest,
      by decide +kernel, by decide, by decide +kernel, by decide +kernel, rfl, ?_,
      by decide +kernel, by decide, by decide +kernel, by decide +kernel, rfl, ?_⟩
    · rw [← hA]
      have := putInts_ok (binary := binary) (k := 8) (ls := [0 :: endsFrom 0 (vtkCellsOf bs)])
        (rest := "CONNECTIVITY vtktypeint64".toList ++ '\n' :: (B ++ rest))
        (by
          intro hb x hx
          rw [List.flatten_cons, List.flatten_nil, List.append_nil, List.mem_cons] at hx
          rcases hx with rfl | hx
          · decide
          · exact hfit hb x (by simp [hx])) (by simp) (by intro c hc; cases hc; rfl)
      rw [List.flatten_cons, List.flatten_nil, List.append_nil] at this
      exact this
    · rw [← hB, ← hs]
      apply putInts_ok (by rw [hs]; exact fun hb x hx => hfit hb x (by simp [hx])) _ hr
      intro e
      rw [hs] at e
      have h3 := length_conn h
      rw [e] at h3
      cases bs with
      | nil => rfl
      | cons b bs =>
        exfalso
        obtain ⟨-, h2, h4, -⟩ := h b (by simp)
        have h5 : 0 < b.rows.length := List.length_pos_iff.2 h2
        have : 0 < b.rows.length * b.width := Nat.mul_pos h5 (by omega)
        simp [totalIdx] at h3
        omega

theorem code_fits {t : String} {c : Nat} (h : vtkCode t = some c) : IsInt 4 (c : Int) := by
  unfold vtkCode at h
  rw [Option.map_eq_some_iff] at h
  obtain ⟨e, he, rfl⟩ := h
  exact (by decide +kernel : ∀ e ∈ Tables.vtkToMeshio, IsInt 4 (e.1 : Int)) e (List.mem_of_find?_eq_some he)

theorem writeTypes_says {v : Ver} {binary : Bool} {bs : List Blk2} (h : Blocks bs) :
    ∃ t, writeTypes binary bs = .ok t ∧ ∀ rest num, NoWs rest →
      (VtkSec.types ((vtkCellsOf bs).map (·.1)) : VtkSec V).Says io has v (!binary) num (t ++ rest) rest := by
  have h1 : mapRes (fun b : Blk2 => typesOut (b.type, b.rows)) bs = .ok (bs.map fun b => b.rows.map fun _ => (vtkCode b.type).getD 0) := by
    apply mapRes_ok_of_forall
    intro b hb
    obtain ⟨⟨c, hc⟩, -⟩ := h b hb
    simp [typesOut, find_meshioToVtk hc, hc, List.map_const']
  have hs : (((bs.map fun b => b.rows.map fun _ => (vtkCode b.type).getD 0)).map fun l => l.map Int.ofNat).flatten =
      ((vtkCellsOf bs).map (·.1)).map Int.ofNat := by
    rw [← List.map_flatten]
    congr 1
    unfold vtkCellsOf
    rw [List.map_flatMap, List.flatMap_def]
    simp only [List.map_map, Function.comp_def]
  have hfit : ∀ x : Nat, x ∈ (vtkCellsOf bs).map (·.1) → IsInt 4 (x : Int) := by
    intro x hx
    obtain ⟨c, hc, rfl⟩ := List.mem_map.1 hx
    obtain ⟨b, hb, hc⟩ := List.mem_flatMap.1 hc
    obtain ⟨r, hr, rfl⟩ := List.mem_map.1 hc
    obtain ⟨⟨c, hc⟩, -⟩ := h b hb
    simp only [hc, Option.getD_some]
    exact code_fits hc
  unfold writeTypes
  rw [h1]
  refine ⟨_, rfl, fun rest num hr => ?_⟩
  generalize hA : putInts binary 4 (((bs.map fun b => b.rows.map fun _ => (vtkCode b.type).getD 0)).map fun l => l.map Int.ofNat) = A
  refine ⟨fmtNat (totalCells bs), [], A ++ rest, ?_, ?_, ?_⟩
  · have := head_ok "CELL_TYPES" "CELL_TYPES".toList (by decide) [fmtNat (totalCells bs)]
      (by
        intro x hx
        simp only [List.mem_cons, List.not_mem_nil, or_false] at hx
        rcases hx with rfl | rfl
        · decide
        · exact isTok_fmtNat _) (A ++ rest)
    simpa [joinWith, linesText] using this
  · rw [List.length_map, length_vtkCellsOf]; exact numeral_fmt _
  · have := putInts_ok (binary := binary) (k := 4) (ls := ((bs.map fun b => b.rows.map fun _ => (vtkCode b.type).getD 0)).map fun l => l.map Int.ofNat)
      (rest := rest) (by
        intro _ x hx
        rw [hs] at hx
        obtain ⟨y, hy, rfl⟩ := List.mem_map.1 hx
        exact hfit y hy) (by
        intro e
        rw [hs, List.map_map, List.map_eq_nil_iff] at e
        rw [cells_nil h e]; rfl) hr
    rw [hs, hA] at this
    unfold VtkInts at this
    cases binary with
    | false => exact this
    | true =>
      refine ⟨hfit, .inl ⟨[], ⟨by simp, rfl⟩, ?_⟩⟩
      exact this.2

/-! ### Data -/

theorem pad_join (l : List (Arr V)) (h : ∀ a ∈ l, a.dtype = (vtkJoin l).dtype ∧ a.tail = (vtkJoin l).tail) (hne : l ≠ []) :
    concat (l.map (pad io)) = .ok (pad io (vtkJoin l)) := by
  have hp : ∀ a ∈ l, pad io a = ⟨(vtkJoin l).dtype, (pad io (vtkJoin l)).tail, (pad io a).rows⟩ := by
    intro a ha
    obtain ⟨h1, h2⟩ := h a ha
    unfold pad
    rw [h2, ← h1]
    split <;> simp [← h2]
  have hr : (l.flatMap fun a => (pad io a).rows) = (pad io (vtkJoin l)).rows := by
    unfold pad
    by_cases ht : (vtkJoin l).tail = [2]
    · rw [if_pos ht]
      simp only
      rw [show (vtkJoin l).rows = l.flatMap (·.rows) from rfl, List.map_flatMap]
      apply flatMap_congr'
      intro a ha
      rw [if_pos (by rw [(h a ha).2, ht]), (h a ha).1]
    · rw [if_neg ht]
      apply flatMap_congr'
      intro a ha
      rw [if_neg (by rw [(h a ha).2]; exact ht)]
  cases l with
  | nil => exact absurd rfl hne
  | cons a l =>
    have ha := hp a (by simp)
    rw [List.map_cons]
    unfold concat
    have e1 : ((l.map (pad io)).any fun b => decide (b.tail ≠ (pad io a).tail)) = false := by
      rw [List.any_eq_false]
      intro b hb
      obtain ⟨c, hc, rfl⟩ := List.mem_map.1 hb
      rw [hp c (by simp [hc]), ha]
      simp
    have e2 : ((l.map (pad io)).any fun b => decide (b.dtype ≠ (pad io a).dtype)) = false := by
      rw [List.any_eq_false]
      intro b hb
      obtain ⟨c, hc, rfl⟩ := List.mem_map.1 hb
      rw [hp c (by simp [hc]), ha]
      simp
    simp only
    rw [e1, e2]
    simp only [Bool.false_eq_true, if_false]
    rw [← List.map_cons, List.flatMap_map, hr, ha]
    congr 1
    rw [show (vtkJoin (a :: l)).dtype = (pad io (vtkJoin (a :: l))).dtype from ((kept_rows _).2.1).symm]

theorem join_arr {v : Ver} {binary : Bool} (l : List (Arr V)) (h : ∀ a ∈ l, VtkArr has v binary a ∧ a.dtype = (vtkJoin l).dtype ∧ a.tail = (vtkJoin l).tail)
    (hne : l ≠ []) : VtkArr has v binary (vtkJoin l) := by
  obtain ⟨a, ha⟩ := List.exists_mem_of_ne_nil l hne
  obtain ⟨h1, h2, h3⟩ := h a ha
  refine ⟨by rw [← h2]; exact h1.dtype, by rw [← h2]; exact h1.int, by rw [← h2]; exact h1.text, ?_, ?_⟩
  · rw [← h3]
    have hrow : ∀ k, (∀ b ∈ l, b.tail = a.tail → Arr.Rows k b) → Arr.Rows k (vtkJoin l) := by
      intro k hk r hr
      obtain ⟨b, hb, hr⟩ := List.mem_flatMap.1 hr
      exact hk b hb ((h b hb).2.2.trans h3.symm) r hr
    rcases h1.shape with ⟨ht, -⟩ | ⟨k, ht, hk, -⟩
    · refine .inl ⟨ht, hrow 1 fun b hb e => ?_⟩
      rcases (h b hb).1.shape with ⟨-, hr⟩ | ⟨k, hk, -⟩
      · exact hr
      · rw [e, ht] at hk; cases hk
    · refine .inr ⟨k, ht, hk, hrow k fun b hb e => ?_⟩
      rcases (h b hb).1.shape with ⟨hk, -⟩ | ⟨k', hk', -, hr⟩
      · rw [e, ht] at hk; cases hk
      · rw [e, ht] at hk'; cases hk'; exact hr
  · intro r hr x hx
    obtain ⟨b, hb, hr⟩ := List.mem_flatMap.1 hr
    rw [← (h b hb).2.1]
    exact (h b hb).1.vals r hr x hx

theorem cellFields_ok (cd : Dict (List (Arr V))) (h : ∀ kv ∈ cd, kv.2 ≠ [] ∧ ∀ a ∈ kv.2, a.dtype = (vtkJoin kv.2).dtype ∧ a.tail = (vtkJoin kv.2).tail) :
    cellFields (cd.map fun kv => (kv.1, kv.2.map (pad io))) = .ok ((cd.map fun kv => (kv.1, vtkJoin kv.2)).map fun kv => (kv.1, pad io kv.2)) := by
  unfold cellFields
  rw [mapRes_map, mapRes_ok_of_forall (g := fun kv : String × List (Arr V) => (kv.1, pad io (vtkJoin kv.2)))]
  · rw [List.map_map]; rfl
  · intro kv hkv
    rw [pad_join kv.2 (h kv hkv).2 (h kv hkv).1]
    rfl

/-- The sections of data. -/
def dataSecs (head : VtkSec V) (l : List (String × Arr V)) : List (VtkSec V) := if l = [] then [] else [head, .arrays l]

theorem writeData_ok (hio : VtkLaws io has) {v : Ver} {binary : Bool} {t : String} (head : VtkSec V) (key : String) (w : List Char) (hw : upper w = key.toList)
    (hwt : IsTok w) (n : Nat) (hok : ∀ c, head.Ok (!binary) t c) (hsay : ∀ s rest num, VtkHead key [fmtNat n] s rest → head.Says io has v (!binary) num s rest)
    (htar : ∀ c, (head.next c).target ≠ .dataset) (l : List (String × Arr V))
    (h : ∀ kv ∈ l, VtkArr has v binary kv.2 ∧ kv.2.rows ≠ [] ∧ IsTok kv.1.toList ∧ kv.1 ≠ "METADATA") (hn : (l.map (·.1)).Nodup) :
    ∃ tx, writeData io v binary w n (l.map fun kv => (kv.1, pad io kv.2)) = .ok tx ∧ ∀ c rest more, NoWs rest →
      (∀ c', vtkSays io has v (!binary) t c' more rest) → NoWs (tx ++ rest) ∧
      vtkSays io has v (!binary) t c (dataSecs head (l.map fun kv => (kv.1, vtkKept io.zero kv.2)) ++ more) (tx ++ rest) := by
  unfold writeData dataSecs
  by_cases hl : l = []
  · subst hl
    exact ⟨[], rfl, fun c rest more hr hm => ⟨hr, hm c⟩⟩
  · rw [if_neg (by simpa using hl), if_neg (by simpa using hl)]
    obtain ⟨tx, h1, h2⟩ := writeFields_ok hio l (fun kv hkv => ⟨(h kv hkv).1, (h kv hkv).2.1, (h kv hkv).2.2.1⟩)
    rw [h1]
    refine ⟨_, rfl, fun c rest more hr hm => ?_⟩
    have e : linesText [w ++ ' ' :: fmtNat n] ++ tx ++ rest = joinWith ' ' [w, fmtNat n] ++ '\n' :: (tx ++ rest) := by
      simp [joinWith, linesText]
    rw [e]
    refine ⟨noWs_line hwt _ _, tx ++ rest, hok c, hsay _ _ _ (head_ok key w hw [fmtNat n] ?_ _), rest, ?_, h2 rest _ hr, hm _⟩
    · intro x hx
      simp only [List.mem_cons, List.not_mem_nil, or_false] at hx
      rcases hx with rfl | rfl
      · exact hwt
      · exact isTok_fmtNat _
    · refine ⟨fun e => absurd e (htar c), ?_, ?_⟩
      · rw [List.map_map]; exact hn
      · intro kv hkv
        obtain ⟨x, hx, rfl⟩ := List.mem_map.1 hkv
        exact ⟨kept_field (h x hx).1, (h x hx).2.2.2⟩

theorem write_says (hio : VtkLaws io has) {v : Ver} {binary : Bool} {m : In V} (h : VtkMesh has v binary m) (title : List Char) (ht : '\n' ∉ title) :
    ∃ s, write io v title binary m = .ok s ∧ vtkFileSays io has v (!binary) "UNSTRUCTURED_GRID" (vtkSections io.zero m) s := by
  have hb : Blocks m.cells := h.cells
  obtain ⟨t1, a1, a2⟩ := writePoints_ok hio h.points.1 h.points.2.2
  obtain ⟨t2, b1, b2⟩ : ∃ t, writeCells v binary m.cells = .ok t ∧ ∀ rest num, NoWs rest →
      (VtkSec.cells (vtkCellsOf m.cells) : VtkSec V).Says io has v (!binary) num (t ++ rest) rest := by
    have := h.fits
    cases v with
    | v42 => exact writeCells42_says hb this
    | v51 => exact writeCells51_says hb this
  obtain ⟨t3, c1, c2⟩ := writeTypes_says (io := io) (has := has) (v := v) (binary := binary) hb
  have hpr : ∀ kv ∈ m.pointData, kv.2.rows ≠ [] := by
    intro kv hkv e
    have := (h.pointData kv hkv).2
    rw [e] at this
    exact h.points.2.2 (List.length_eq_zero_iff.1 this.symm)
  obtain ⟨t4, d1, d2⟩ := writeData_ok (v := v) (binary := binary) (t := "UNSTRUCTURED_GRID") hio (.pointData m.points.rows.length) "POINT_DATA"
    "POINT_DATA".toList (by decide) (by decide) m.points.rows.length (fun c => ⟨fun _ kv hkv => (by cases hkv), trivial⟩)
    (fun s rest num hh => ⟨_, _, hh, numeral_fmt _⟩) (fun c => by simp [VtkSec.next]) m.pointData
    (fun kv hkv => ⟨(h.pointData kv hkv).1, hpr kv hkv, h.pointNames.2 kv hkv⟩) h.pointNames.1
  have hcne : ∀ kv ∈ m.cellData, kv.2 ≠ [] := by
    intro kv hkv e
    obtain ⟨hne, hl, -⟩ := h.cellData kv hkv
    rw [e] at hl
    exact hne (List.map_eq_nil_iff.1 hl.symm)
  have hcr : ∀ kv ∈ m.cellData, (vtkJoin kv.2).rows ≠ [] := by
    intro kv hkv e
    obtain ⟨hne, hl, -⟩ := h.cellData kv hkv
    have e' : kv.2.flatMap (·.rows) = [] := e
    rw [List.flatMap_eq_nil_iff] at e'
    obtain ⟨b, hb'⟩ := List.exists_mem_of_ne_nil _ hne
    have hm : b.rows.length ∈ kv.2.map (·.rows.length) := by rw [hl]; exact List.mem_map.2 ⟨b, hb', rfl⟩
    obtain ⟨a, ha, hal⟩ := List.mem_map.1 hm
    rw [e' a ha] at hal
    exact (h.cells b hb').2.1 (List.length_eq_zero_iff.1 hal.symm)
  obtain ⟨t5, e1, e2⟩ := writeData_ok (v := v) (binary := binary) (t := "UNSTRUCTURED_GRID") hio (.cellData (vtkCellsOf m.cells).length) "CELL_DATA"
    "CELL_DATA".toList (by decide) (by decide) (vtkCellsOf m.cells).length (fun c => ⟨fun _ kv hkv => (by cases hkv), trivial⟩)
    (fun s rest num hh => ⟨_, _, hh, numeral_fmt _⟩) (fun c => by simp [VtkSec.next]) (m.cellData.map fun kv => (kv.1, vtkJoin kv.2))
    (by
      intro kv hkv
      obtain ⟨x, hx, rfl⟩ := List.mem_map.1 hkv
      exact ⟨join_arr x.2 (h.cellData x hx).2.2 (hcne x hx), hcr x hx, h.cellNames.2 x hx⟩)
    (by rw [List.map_map]; exact h.cellNames.1)
  have hcf := cellFields_ok (io := io) m.cellData (fun kv hkv => ⟨hcne kv hkv, fun a ha => ((h.cellData kv hkv).2.2 a ha).2⟩)
  rw [length_vtkCellsOf] at e1
  unfold write
  rw [a1]
  simp only
  rw [b1]
  simp only [c1, d1, hcf, e1]
  refine ⟨_, rfl, ?_⟩
  have s5 := fun c => e2 c [] [] (by intro c hc; cases hc) (fun c' => rfl)
  have s4 := fun c => d2 c (t5 ++ []) _ (s5 {}).1 (fun c' => (s5 c').2)
  simp only [List.append_nil] at s4
  have w3 : ∀ s, NoWs (t3 ++ s) := by
    obtain ⟨t, h1, h2⟩ : ∃ x y, t3 = "CELL_TYPES ".toList ++ (x ++ y) := by
      unfold writeTypes at c1
      split at c1
      · cases c1
      · injection c1 with c1
        exact ⟨_, _, by rw [← c1]; simp [linesText]; rfl⟩
    intro s
    rw [h2, List.append_assoc]
    intro c hc; cases hc; rfl
  have w2 : ∀ s, NoWs (t2 ++ s) := by
    intro s c hc
    obtain ⟨x, hx⟩ : ∃ x, t2 = 'C' :: x := by
      cases v with
      | v42 =>
        unfold writeCells at b1
        simp only at b1
        unfold writeCells42 at b1
        split at b1
        · cases b1
        · injection b1 with b1
          exact ⟨_, by rw [← b1]; rfl⟩
      | v51 =>
        unfold writeCells at b1
        simp only at b1
        unfold writeCells51 at b1
        split at b1
        · cases b1
        · split at b1
          · cases b1
          · injection b1 with b1
            exact ⟨_, by rw [← b1]; rfl⟩
    rw [hx] at hc
    cases hc; rfl
  have hp3 : (vtkKept io.zero m.points).tail = [3] ∧ Arr.Rows 3 (vtkKept io.zero m.points) := by
    have := kept_field (io := io) h.points.1
    have ht : (vtkKept io.zero m.points).tail = [3] := by
      unfold vtkKept
      rcases h.points.2.1 with e | e
      · rw [if_neg (by rw [e]; decide), if_pos e]
      · rw [if_neg (by rw [e]; decide), if_neg (by rw [e]; decide), e]
    refine ⟨ht, ?_⟩
    rcases this with ⟨e, -⟩ | ⟨k, e, -, hr⟩
    · rw [ht] at e; cases e
    · rw [ht] at e; cases e; exact hr
  unfold vtkFileSays
  refine ⟨(match v with
    | .v42 => "4.2".toList
    | .v51 => "5.1".toList), title, (if binary then "BINARY".toList else "ASCII".toList), [], "DATASET UNSTRUCTURED_GRID".toList ++ '\n' :: (t1 ++ (t2 ++ (t3 ++ (t4 ++ t5)))),
    t1 ++ (t2 ++ (t3 ++ (t4 ++ t5))), ?_, ?_, ht, ?_, ?_, ?_, ⟨"UNSTRUCTURED_GRID".toList, by decide, ?_⟩, ?_⟩
  · cases v <;> decide
  · cases v <;> decide
  · cases binary <;> decide
  · cases binary <;> decide +kernel
  · unfold header
    cases v <;> simp [linesText]
  · exact ⟨"DATASET UNSTRUCTURED_GRID".toList, "DATASET".toList, by decide, by decide +kernel, by decide, rfl⟩
  · unfold vtkSections
    have hne : ∀ c, vtkSays io has v (!binary) "UNSTRUCTURED_GRID" c
        ((if m.pointData = [] then [] else [.pointData m.points.rows.length, .arrays (m.pointData.map fun kv => (kv.1, vtkKept io.zero kv.2))]) ++
          (if m.cellData = [] then [] else
            [.cellData (vtkCellsOf m.cells).length, .arrays (m.cellData.map fun kv => (kv.1, vtkKept io.zero (vtkJoin kv.2)))])) (t4 ++ t5) := by
      intro c
      have := (s4 c).2
      unfold dataSecs at this
      simpa [Function.comp_def] using this
    refine ⟨t2 ++ (t3 ++ (t4 ++ t5)), ⟨fun _ kv hkv => (by cases hkv), hp3⟩, a2 _ (w2 _), t3 ++ (t4 ++ t5), ⟨fun _ kv hkv => (by cases hkv), trivial⟩,
      b2 _ _ (w3 _), t4 ++ t5, ⟨fun _ kv hkv => (by cases hkv), trivial⟩, c2 _ _ (s4 {}).1, hne _⟩

end Meshio.VtkFile
