/-
C28: the TetGen format.
-/
import Verif.Model.Tetgen
namespace Meshio.Props
open Meshio Meshio.Tetgen

variable {F : Type}

/-- A comment line or a blank line. -/
def IsComment (l : List Char) : Prop :=
  '\n' ∉ l ∧ (strip (l ++ ['\n']) = [] ∨ (strip (l ++ ['\n'])).head? = some '#')

theorem skipComments_ok (cs : List (List Char)) (hc : ∀ c ∈ cs, IsComment c) (t : List Char)
    (ts : List (List Char)) (ht : ∀ x ∈ t :: ts, IsTok x) (hh : t.head? ≠ some '#') (rest : List Char)
    (n : Nat) (hn : cs.length < n) :
    Off.skipComments n (linesText cs ++ (joinWith ' ' (t :: ts) ++ '\n' :: rest)) =
      .ok (joinWith ' ' (t :: ts), rest) := by
  induction cs generalizing n with
  | nil =>
    cases n with
    | zero => simp at hn
    | succ n =>
      have r := readLine_append (joinWith ' ' (t :: ts)) rest (no_newline_line _ ht)
      simp only [linesText, List.flatMap_nil, List.nil_append, Off.skipComments, r,
        strip_line_nl _ ht]
      rw [if_pos]
      exact ⟨joinWith_ne_nil _ _ _ (ht t (by simp)).1, by rw [joinWith_head _ _ _ (ht t (by simp)).1]; exact hh⟩
  | cons c cs ih =>
    cases n with
    | zero => simp at hn
    | succ n =>
      obtain ⟨h1, h2⟩ := hc c (by simp)
      rw [linesText_cons, List.append_assoc, List.cons_append]
      have r := readLine_append c (linesText cs ++ (joinWith ' ' (t :: ts) ++ '\n' :: rest)) h1
      simp only [Off.skipComments, r]
      rw [if_neg, ih (fun c hcm => hc c (by simp [hcm])) n (by simp at hn; omega)]
      rintro ⟨h3, h4⟩
      rcases h2 with h | h
      · exact h3 h
      · exact h4 h

theorem ints_line (l : List Nat) (h : l ≠ []) :
    ints (joinWith ' ' (l.map fmtNat)) = .ok (l.map (fun n : Nat => (n : Int))) := by
  unfold ints
  cases l with
  | nil => exact absurd rfl h
  | cons n l =>
    have ht : ∀ x ∈ (n :: l).map fmtNat, IsTok x := by
      intro x hx
      obtain ⟨k, _, rfl⟩ := List.mem_map.mp hx
      exact isTok_fmtNat k
    rw [List.map_cons, splitOnC_line _ _ ht, ← List.map_cons]
    rw [List.filter_eq_self.mpr (by intro x hx; simpa using (ht x hx).1)]
    generalize n :: l = l
    induction l with
    | nil => rfl
    | cons n l ih => simp only [List.map_cons, mapRes, parseInt_fmtNat, ih]

/-- One row of a node file: number, coordinates, attributes, markers. -/
structure NodeRow (F : Type) where
  id : Int
  pt : List F
  attrs : List F
  refs : List F

/-- A node file: comments, the counts, the rows. -/
def nodeFile (nio : NumIO F) (fmt2 : F → List Char) (cs : List (List Char)) (na nb : Nat)
    (rs : List (NodeRow F)) : List Char :=
  linesText (cs ++ ([joinWith ' ' ([rs.length, 3, na, nb].map fmtNat)] ++
    rs.map (fun r => joinWith ' ' (fmtInt r.id :: (r.pt.map nio.fmt ++ (r.attrs.map nio.fmt ++ r.refs.map fmt2))))))

/-- The points are numbered consecutively from the number of the first. -/
def Consecutive (l : List Int) : Prop := ∀ (i : Nat) (h : i < l.length), l[i] = l.headD 0 + (i : Int)

instance (l : List Int) : Decidable (Consecutive l) :=
  if h : l = (List.range l.length).map (fun i : Nat => l.headD 0 + (i : Int)) then
    isTrue (by
      intro i hi
      have := congrArg (·[i]?) h
      simp only [List.getElem?_map, List.getElem?_eq_getElem hi] at this
      rw [List.getElem?_eq_getElem (by simpa using hi)] at this
      simpa using this)
  else
    isFalse (by
      intro hc
      apply h
      apply List.ext_getElem
      · simp
      · intro i h1 h2
        rw [hc i h1]; simp)

/-- Rows of the right shape. -/
def RowsOk (na nb : Nat) (rs : List (NodeRow F)) : Prop :=
  ∀ r ∈ rs, r.pt.length = 3 ∧ r.attrs.length = na ∧ r.refs.length = nb

/-- The values of a row. -/
def rowVals (nio : NumIO F) (r : NodeRow F) : List F := nio.ofInt r.id :: (r.pt ++ (r.attrs ++ r.refs))

theorem column_map {α β : Type} (f : β → List α) (l : List β) (k : Nat) :
    column (l.map f) k = l.filterMap (fun b => (f b)[k]?) := by
  unfold column
  rw [List.filterMap_map]
  rfl

/-- Meaning of a node file: any consecutive numbering is accepted, any other is refused; the
columns after the coordinates are the data. -/
theorem C28_nodes [DecidableEq F] (nio : NumIO F) (fmt2 : F → List Char)
    (h2 : ∀ x, nio.parse (fmt2 x) = some x ∧ IsTok (fmt2 x)) (cs : List (List Char))
    (hcs : ∀ c ∈ cs, IsComment c) (na nb : Nat) (rs : List (NodeRow F)) (hne : rs ≠ [])
    (hrs : RowsOk na nb rs)
    (hlim : ∀ r ∈ rs, r.id.natAbs + rs.length < nio.lim) :
    readNodes nio (nodeFile nio fmt2 cs na nb rs) =
      if Consecutive (rs.map (·.id)) then
        .ok ((rs.map (·.id)).headD 0, rs.map (·.pt),
          (List.range na).map (fun k => (attrName k, rs.filterMap (·.attrs[k]?))) ++
          (List.range nb).map (fun k => (refName k, rs.filterMap (·.refs[k]?))))
      else .error .readError := by
  have htok : ∀ x ∈ [rs.length, 3, na, nb].map fmtNat, IsTok x := by
    intro x hx
    obtain ⟨k, _, rfl⟩ := List.mem_map.mp hx
    exact isTok_fmtNat k
  have hfile : nodeFile nio fmt2 cs na nb rs = linesText cs ++ (joinWith ' ' ([rs.length, 3, na, nb].map fmtNat) ++
      '\n' :: linesText ((rs.map (fun r => fmtInt r.id :: (r.pt.map nio.fmt ++ (r.attrs.map nio.fmt ++ r.refs.map fmt2)))).map (joinWith ' '))) := by
    unfold nodeFile
    rw [linesText_append, linesText_append, List.map_map]
    simp [linesText]
    rfl
  have hskip := skipComments_ok cs hcs (fmtNat rs.length) ([3, na, nb].map fmtNat) htok
    (by
      intro h
      have := List.mem_of_mem_head? h
      exact absurd (fmtNat_isDigit this) (by decide))
    (linesText ((rs.map (fun r => fmtInt r.id :: (r.pt.map nio.fmt ++ (r.attrs.map nio.fmt ++ r.refs.map fmt2)))).map (joinWith ' ')))
    ((nodeFile nio fmt2 cs na nb rs).length + 1)
    (by rw [hfile, List.length_append]; have := length_linesText_ge cs; omega)
  have hw : ∀ r ∈ rs.map (rowVals nio), r.length = 4 + na + nb := by
    intro r hr
    obtain ⟨x, hx, rfl⟩ := List.mem_map.mp hr
    obtain ⟨a, b, c⟩ := hrs x hx
    simp only [rowVals, List.length_cons, List.length_append, a, b, c]
    omega
  have hl := length_flatten_const _ _ hw
  rw [List.length_map] at hl
  have htoks := splitWs_linesText (rs.map (fun r => fmtInt r.id :: (r.pt.map nio.fmt ++ (r.attrs.map nio.fmt ++ r.refs.map fmt2))))
    (by
      intro l hlm t ht
      obtain ⟨r, _, rfl⟩ := List.mem_map.mp hlm
      simp only [List.mem_cons, List.mem_append, List.mem_map] at ht
      rcases ht with rfl | ⟨x, _, rfl⟩ | ⟨x, _, rfl⟩ | ⟨x, _, rfl⟩
      · exact isTok_fmtInt _
      · exact nio.tok x
      · exact nio.tok x
      · exact (h2 x).2) []
  rw [List.append_nil, splitWs_nil, List.append_nil] at htoks
  obtain ⟨hscan, _⟩ := scan_toks nio.parse
    (rs.map (fun r => fmtInt r.id :: (r.pt.map nio.fmt ++ (r.attrs.map nio.fmt ++ r.refs.map fmt2)))).flatten
    (rs.map (rowVals nio)).flatten
    (by
      rw [List.map_flatten, List.map_flatten, List.map_map, List.map_map]
      congr 1
      apply List.map_congr_left
      intro r hr
      simp only [Function.comp, rowVals, List.map_cons, List.map_append, List.map_map]
      rw [nio.parse_int r.id (by have := hlim r hr; omega)]
      have e1 : ∀ l : List F, l.map (nio.parse ∘ nio.fmt) = l.map some := by
        intro l; apply List.map_congr_left; intro x _; exact nio.parse_fmt x
      have e2 : ∀ l : List F, l.map (nio.parse ∘ fmt2) = l.map some := by
        intro l; apply List.map_congr_left; intro x _; exact (h2 x).1
      rw [e1, e1, e2]) _ [] (by rw [htoks, List.append_nil])
  have hreshape := reshape_flatten _ _ hw
  rw [List.length_map] at hreshape
  rw [hl, Nat.mul_comm] at hscan
  unfold readNodes
  rw [show fmtNat rs.length :: [3, na, nb].map fmtNat = [rs.length, 3, na, nb].map fmtNat from rfl] at hskip
  rw [← hfile] at hskip
  rw [hskip]
  dsimp only
  rw [ints_line _ (by simp)]
  simp only [List.map_cons, List.map_nil]
  rw [if_neg (by decide), if_neg (by omega)]
  simp only [Int.toNat_natCast]
  rw [hscan, hreshape]
  dsimp only
  have hc0 : column (rs.map (rowVals nio)) 0 = rs.map (fun r => nio.ofInt r.id) := by
    rw [column_map]
    simp [rowVals]
  obtain ⟨r0, rest, hr0⟩ : ∃ r0 rest, rs = r0 :: rest := by
    cases rs with
    | nil => exact absurd rfl hne
    | cons a b => exact ⟨a, b, rfl⟩
  have hhead : (rs.map (·.id)).headD 0 = r0.id := by rw [hr0]; rfl
  have hbase : nio.toInt (nio.ofInt r0.id) = r0.id :=
    nio.toInt_ofInt _ (by have := hlim r0 (by rw [hr0]; simp); omega)
  rw [hc0]
  have hh : (rs.map (fun r => nio.ofInt r.id)).head? = some (nio.ofInt r0.id) := by rw [hr0]; rfl
  rw [hh]
  dsimp only
  rw [hbase, List.length_map]
  have hiff : rs.map (fun r => nio.ofInt r.id) = (List.range rs.length).map (fun i : Nat => nio.ofInt (r0.id + i)) ↔
      Consecutive (rs.map (·.id)) := by
    have hr0l := hlim r0 (by rw [hr0]; simp)
    constructor
    · intro h i hi
      rw [hhead]
      rw [List.length_map] at hi
      have := congrArg (·[i]?) h
      simp only [List.getElem?_map, List.getElem?_eq_getElem hi, Option.map_some] at this
      rw [List.getElem?_eq_getElem (by simpa using hi)] at this
      simp only [List.getElem_range, Option.map_some, Option.some.injEq] at this
      have hil := hlim rs[i] (List.getElem_mem hi)
      have := nio.ofInt_inj (by omega) (by omega) this
      rw [List.getElem_map]; exact this
    · intro h
      apply List.ext_getElem
      · simp
      · intro i h1 h3
        rw [List.length_map] at h1
        have := h i (by simpa using h1)
        rw [hhead, List.getElem_map] at this
        simp [this]
  by_cases hcons : Consecutive (rs.map (·.id))
  · rw [if_pos hcons, if_pos (hiff.2 hcons), hhead, List.map_map]
    have hpt : rs.map ((fun r => (r.drop 1).take 3) ∘ rowVals nio) = rs.map (·.pt) := by
      apply List.map_congr_left
      intro r hr
      simp only [Function.comp, rowVals, List.drop_succ_cons, List.drop_zero]
      exact List.take_left' (hrs r hr).1
    rw [hpt]
    congr 4
    · apply List.map_congr_left
      intro k hk
      rw [List.mem_range] at hk
      congr 1
      rw [column_map]
      apply filterMap_congr'
      intro r hr
      obtain ⟨a, b, c⟩ := hrs r hr
      simp only [rowVals]
      rw [show 4 + k = (3 + k) + 1 by omega, List.getElem?_cons_succ,
        List.getElem?_append_right (by omega), List.getElem?_append_left (by omega)]
      congr 1; omega
    · apply List.map_congr_left
      intro k hk
      rw [List.mem_range] at hk
      congr 1
      rw [column_map]
      apply filterMap_congr'
      intro r hr
      obtain ⟨a, b, c⟩ := hrs r hr
      simp only [rowVals]
      rw [show 4 + na + k = (3 + na + k) + 1 by omega, List.getElem?_cons_succ,
        List.getElem?_append_right (by omega), List.getElem?_append_right (by omega)]
      congr 1; omega
  · rw [if_neg hcons, if_neg (fun h => hcons (hiff.1 h))]

/-- One row of an element file: number, nodes, attributes. -/
structure EleRow where
  id : Int
  nodes : List Int
  attrs : List Int

/-- An element file: comments, the counts, the rows; anything may follow. -/
def eleFile (cs : List (List Char)) (na : Nat) (rs : List EleRow) (rest : List Char) : List Char :=
  linesText (cs ++ ([joinWith ' ' ([rs.length, 4, na].map fmtNat)] ++
    rs.map (fun r => joinWith ' ' (fmtInt r.id :: (r.nodes.map fmtInt ++ r.attrs.map fmtInt))))) ++ rest

/-- Meaning of an element file: the base is subtracted from the node numbers, the element
numbers play no role. -/
theorem C28_elements (base : Int) (cs : List (List Char)) (hcs : ∀ c ∈ cs, IsComment c) (na : Nat)
    (rs : List EleRow) (rest : List Char) (hrs : ∀ r ∈ rs, r.nodes.length = 4 ∧ r.attrs.length = na) :
    readEle base (eleFile cs na rs rest) =
      .ok (rs.map (fun r => r.nodes.map (· - base)),
        (List.range na).map (fun k => (refName k, rs.filterMap (·.attrs[k]?)))) := by
  have htok : ∀ x ∈ [rs.length, 4, na].map fmtNat, IsTok x := by
    intro x hx
    obtain ⟨k, _, rfl⟩ := List.mem_map.mp hx
    exact isTok_fmtNat k
  have hfile : eleFile cs na rs rest = linesText cs ++ (joinWith ' ' ([rs.length, 4, na].map fmtNat) ++
      '\n' :: (linesText ((rs.map (fun r => fmtInt r.id :: (r.nodes.map fmtInt ++ r.attrs.map fmtInt))).map (joinWith ' ')) ++ rest)) := by
    unfold eleFile
    rw [linesText_append, linesText_append, List.map_map]
    simp [linesText]
    rfl
  have hskip := skipComments_ok cs hcs (fmtNat rs.length) ([4, na].map fmtNat) htok
    (by
      intro h
      have := List.mem_of_mem_head? h
      exact absurd (fmtNat_isDigit this) (by decide))
    (linesText ((rs.map (fun r => fmtInt r.id :: (r.nodes.map fmtInt ++ r.attrs.map fmtInt))).map (joinWith ' ')) ++ rest)
    ((eleFile cs na rs rest).length + 1)
    (by rw [hfile, List.length_append]; have := length_linesText_ge cs; omega)
  have hw : ∀ r ∈ rs.map (fun r => r.id :: (r.nodes ++ r.attrs)), r.length = 5 + na := by
    intro r hr
    obtain ⟨x, hx, rfl⟩ := List.mem_map.mp hr
    obtain ⟨a, b⟩ := hrs x hx
    simp only [List.length_cons, List.length_append, a, b]
    omega
  have hl := length_flatten_const _ _ hw
  rw [List.length_map] at hl
  have htoks := splitWs_linesText (rs.map (fun r => fmtInt r.id :: (r.nodes.map fmtInt ++ r.attrs.map fmtInt)))
    (by
      intro l hlm t ht
      obtain ⟨r, _, rfl⟩ := List.mem_map.mp hlm
      simp only [List.mem_cons, List.mem_append, List.mem_map] at ht
      rcases ht with rfl | ⟨x, _, rfl⟩ | ⟨x, _, rfl⟩
      · exact isTok_fmtInt _
      · exact isTok_fmtInt _
      · exact isTok_fmtInt _) rest
  obtain ⟨hscan, _⟩ := scan_ok parseInt fmtInt
    (rs.map (fun r => r.id :: (r.nodes ++ r.attrs))).flatten (fun x _ => parseInt_fmtInt x) _ (splitWs rest) (by
      rw [htoks]
      congr 1
      rw [List.map_flatten, List.map_map]
      congr 1
      apply List.map_congr_left
      intro r _
      simp [Function.comp])
  have hreshape := reshape_flatten _ _ hw
  rw [List.length_map] at hreshape
  rw [hl, Nat.mul_comm] at hscan
  unfold readEle
  rw [show fmtNat rs.length :: [4, na].map fmtNat = [rs.length, 4, na].map fmtNat from rfl] at hskip
  rw [← hfile] at hskip
  rw [hskip]
  dsimp only
  rw [ints_line _ (by simp)]
  simp only [List.map_cons, List.map_nil]
  rw [if_neg (by decide), if_neg (by omega)]
  simp only [Int.toNat_natCast]
  rw [hscan, hreshape]
  dsimp only
  rw [List.map_map]
  congr 2
  · apply List.map_congr_left
    intro r hr
    simp only [Function.comp, List.drop_succ_cons, List.drop_zero]
    rw [List.take_left' (hrs r hr).1]
  · apply List.map_congr_left
    intro k hk
    rw [List.mem_range] at hk
    congr 1
    rw [column_map]
    apply filterMap_congr'
    intro r hr
    obtain ⟨a, b⟩ := hrs r hr
    rw [show 5 + k = (4 + k) + 1 by omega, List.getElem?_cons_succ,
      List.getElem?_append_right (by omega)]
    congr 1; omega

/-- Base 0, base 1, any base: the same mesh is read. -/
theorem C28_base [DecidableEq F] (nio : NumIO F) (fmt2 : F → List Char)
    (h2 : ∀ x, nio.parse (fmt2 x) = some x ∧ IsTok (fmt2 x)) (cs cs' : List (List Char))
    (hcs : ∀ c ∈ cs, IsComment c) (hcs' : ∀ c ∈ cs', IsComment c) (base : Int)
    (points : List (List F)) (hne : points ≠ []) (hp : ∀ p ∈ points, p.length = 3)
    (hlim : base.natAbs + 2 * points.length < nio.lim)
    (tets : List (List Int)) (ht : ∀ t ∈ tets, t.length = 4) (ids : List Int) (hid : ids.length = tets.length)
    (rest : List Char) :
    Tetgen.read nio
      (nodeFile nio fmt2 cs 0 0 (points.zipIdx.map (fun pk => ⟨base + (pk.2 : Int), pk.1, [], []⟩)))
      (eleFile cs' 0 ((ids.zip tets).map (fun it => ⟨it.1, it.2.map (· + base), []⟩)) rest) =
      .ok ⟨points, tets, [], []⟩ := by
  have hr := C28_nodes nio fmt2 h2 cs hcs 0 0 (points.zipIdx.map (fun pk => ⟨base + (pk.2 : Int), pk.1, [], []⟩))
    (by intro h; rw [List.map_eq_nil_iff, List.zipIdx_eq_nil_iff] at h; exact hne h)
    (by
      intro r hr
      obtain ⟨pk, hpk, rfl⟩ := List.mem_map.mp hr
      exact ⟨hp _ (List.fst_mem_of_mem_zipIdx hpk), rfl, rfl⟩)
    (by
      intro r hr
      obtain ⟨pk, hpk, rfl⟩ := List.mem_map.mp hr
      have := List.snd_lt_of_mem_zipIdx hpk
      simp only [List.length_map, List.length_zipIdx]
      omega)
  have he := C28_elements base cs' hcs' 0 ((ids.zip tets).map (fun it => ⟨it.1, it.2.map (· + base), []⟩)) rest
    (by
      intro r hr
      obtain ⟨it, hit, rfl⟩ := List.mem_map.mp hr
      have := List.of_mem_zip (show (it.1, it.2) ∈ ids.zip tets from hit)
      exact ⟨by simp [ht _ this.2], rfl⟩)
  have hpm : (points.zipIdx.map (fun pk => (⟨base + (pk.2 : Int), pk.1, [], []⟩ : NodeRow F))).map (·.pt) = points := by
    rw [List.map_map]
    exact List.zipIdx_map_fst ..
  have hhd : ((points.zipIdx.map (fun pk => (⟨base + (pk.2 : Int), pk.1, [], []⟩ : NodeRow F))).map (·.id)).headD 0 = base := by
    cases points with
    | nil => exact absurd rfl hne
    | cons p ps => simp [List.zipIdx_cons]
  rw [if_pos] at hr
  · unfold Tetgen.read
    rw [hr]
    dsimp only
    rw [hhd, he]
    dsimp only
    rw [hpm]
    congr 2
    rw [List.map_map]
    have : (ids.zip tets).map (fun it => it.2) = tets := List.map_snd_zip (by omega)
    conv => rhs; rw [← this]
    apply List.map_congr_left
    intro it _
    simp [Function.comp_def]
  · intro i hi
    rw [hhd]
    simp

/-- A numbering of the nodes with a gap, a repetition or in another order is refused. -/
theorem C28_nonconsecutive [DecidableEq F] (nio : NumIO F) (fmt2 : F → List Char)
    (h2 : ∀ x, nio.parse (fmt2 x) = some x ∧ IsTok (fmt2 x)) (cs : List (List Char))
    (hcs : ∀ c ∈ cs, IsComment c) (na nb : Nat) (rs : List (NodeRow F)) (hrs : RowsOk na nb rs)
    (hlim : ∀ r ∈ rs, r.id.natAbs + rs.length < nio.lim)
    (hbad : ∃ (i : Nat) (r r' : NodeRow F), rs[i]? = some r ∧ rs[i + 1]? = some r' ∧ r'.id ≠ r.id + 1)
    (ele : List Char) :
    Tetgen.read nio (nodeFile nio fmt2 cs na nb rs) ele = .error .readError := by
  obtain ⟨i, r, r', h1, h3, hne⟩ := hbad
  unfold Tetgen.read
  rw [C28_nodes nio fmt2 h2 cs hcs na nb rs (by intro h; rw [h] at h1; simp at h1) hrs hlim, if_neg]
  intro hc
  obtain ⟨hi, e1⟩ := List.getElem?_eq_some_iff.mp h1
  obtain ⟨hi', e2⟩ := List.getElem?_eq_some_iff.mp h3
  have a := hc i (by simpa using hi)
  have b := hc (i + 1) (by simpa using hi')
  rw [List.getElem_map, e1] at a
  rw [List.getElem_map, e2] at b
  apply hne
  rw [a, b]
  omega

/-! ### Writing -/

/-- The chosen attribute and marker names are the names of the data, each once. -/
theorem C28_all_point_data (keys : List String) :
    ((nodeKeys keys).1 ++ (nodeKeys keys).2).Perm keys := by
  unfold nodeKeys
  split
  · next ks _ _ r l h =>
    have hr : r ∈ ks := (List.mem_filter.mp (show r ∈ ks.filter isRef by rw [h]; simp)).1
    exact (List.perm_append_comm.trans (List.perm_cons_erase hr).symm)
  · exact List.perm_append_comm
  · exact List.Perm.refl _

theorem C28_all_cell_data (keys : List String) : (cellKeys keys).Perm keys := by
  unfold cellKeys
  split
  · next r l h =>
    have hr : r ∈ keys := (List.mem_filter.mp (show r ∈ keys.filter isRef by rw [h]; simp)).1
    exact (List.perm_cons_erase hr).symm
  · exact List.Perm.refl _

/-- The columns in the file: named by position, with the values of the chosen data. -/
def namedColumns {α : Type} (name : Nat → String) (cols : List (List α)) : Dict (List α) :=
  cols.zipIdx.map (fun ck => (name ck.2, ck.1))

theorem namedColumns_eq {α : Type} (name : Nat → String) (cols : List (List α)) (n : Nat)
    (h : ∀ c ∈ cols, c.length = n) :
    (List.range cols.length).map (fun k => (name k, (List.range n).filterMap (fun i => (cols[k]?).bind (·[i]?)))) =
      namedColumns name cols := by
  unfold namedColumns
  apply List.ext_getElem
  · simp
  · intro k h1 h2
    simp only [List.length_map, List.length_range] at h1
    simp only [List.getElem_map, List.getElem_range, List.getElem_zipIdx]
    rw [List.getElem?_eq_getElem h1]
    simp only [Option.bind_some, Nat.zero_add]
    congr 1
    have := h cols[k] (List.getElem_mem h1)
    rw [← this]
    exact column_back _

theorem commaJoin_no_newline (ks : List String) (h : ∀ k ∈ ks, '\n' ∉ k.toList) : '\n' ∉ commaJoin ks := by
  induction ks with
  | nil => simp [commaJoin]
  | cons k ks ih =>
    cases ks with
    | nil => exact h k (by simp)
    | cons k' ks =>
      simp only [commaJoin, List.mem_append, not_or]
      exact ⟨h k (by simp), by decide, ih (fun x hx => h x (by simp [hx]))⟩

theorem isComment_hash (l : List Char) (h : '\n' ∉ l) : IsComment ('#' :: l) :=
  ⟨by simp only [List.mem_cons, not_or]; exact ⟨by decide, h⟩, Or.inr (strip_head (by decide) _)⟩

theorem columns_length {α : Type} (d : Dict (List α)) (ks : List String) (h : ∀ k ∈ ks, k ∈ d.map (·.1)) :
    (columns d ks).length = ks.length := by
  unfold columns
  induction ks with
  | nil => rfl
  | cons k ks ih =>
    obtain ⟨v, hv⟩ := (Dict.mem_keys_iff d k).mp (h k (by simp))
    rw [List.filterMap_cons, hv]
    simp [ih (fun k hk => h k (by simp [hk]))]

theorem mem_columns {α : Type} (d : Dict (List α)) (ks : List String) (c : List α) (h : c ∈ columns d ks) :
    ∃ kv ∈ d, kv.2 = c := by
  unfold columns at h
  obtain ⟨k, _, hk⟩ := List.mem_filterMap.mp h
  exact ⟨(k, c), Dict.mem_of_get? hk, rfl⟩

theorem keys_no_newline {α : Type} (d : Dict α) (h : ∀ kv ∈ d, '\n' ∉ kv.1.toList) (ks : List String)
    (hp : ks.Perm (d.map (·.1))) : '\n' ∉ commaJoin ks := by
  apply commaJoin_no_newline
  intro k hk
  obtain ⟨kv, hkv, rfl⟩ := List.mem_map.mp (hp.mem_iff.mp hk)
  exact h kv hkv

theorem nodeText_file (nio : NumIO F) (fmt2 : F → List Char) (version : List Char)
    (points : List (List F)) (hp : ∀ p ∈ points, p.length = 3) (pd : Dict (List F)) :
    nodeText nio fmt2 version points pd = nodeFile nio fmt2
      (("# This file was created by meshio v".toList ++ version) ::
        (if (nodeKeys (pd.map (·.1))).1.length + (nodeKeys (pd.map (·.1))).2.length > 0 then
          ["# attribute and marker names: ".toList ++ commaJoin ((nodeKeys (pd.map (·.1))).1 ++ (nodeKeys (pd.map (·.1))).2)] else []))
      (nodeKeys (pd.map (·.1))).1.length (nodeKeys (pd.map (·.1))).2.length
      (points.zipIdx.map (fun pk => ⟨(pk.2 : Int), pk.1,
        (columns pd (nodeKeys (pd.map (·.1))).1).filterMap (·[pk.2]?),
        (columns pd (nodeKeys (pd.map (·.1))).2).filterMap (·[pk.2]?)⟩)) := by
  unfold nodeText nodeFile
  dsimp only
  congr 2
  rw [List.length_map, List.length_zipIdx, List.map_map]
  congr 1
  apply List.map_congr_left
  intro pk hpk
  simp only [Function.comp_def]
  rw [List.take_of_length_le (by rw [hp _ (List.fst_mem_of_mem_zipIdx hpk)]; exact Nat.le_refl _)]
  rfl

theorem eleText_file (version : List Char) (cells : List (String × List (List Int))) (tets : List (List Int))
    (hone : cells.filter (fun c => c.1 == "tetra") = [("tetra", tets)]) (ht : ∀ t ∈ tets, t.length = 4)
    (cd : Dict (List (List Int))) :
    eleText version cells cd = eleFile
      (("# This file was created by meshio v".toList ++ version) ::
        (if (cellKeys (cd.map (·.1))).length > 0 then ["# attribute names: ".toList ++ commaJoin (cellKeys (cd.map (·.1)))] else []))
      (cellKeys (cd.map (·.1))).length
      (tets.zipIdx.map (fun tk => ⟨(tk.2 : Int), tk.1,
        (columns cd (cellKeys (cd.map (·.1)))).filterMap (fun col => (col[0]?).bind (·[tk.2]?))⟩)) [] := by
  unfold eleText eleFile
  dsimp only
  rw [hone, List.append_nil]
  simp only [List.zipIdx_cons, List.zipIdx_nil, List.flatMap_cons, List.flatMap_nil, List.append_nil]
  congr 2
  rw [List.length_map, List.length_zipIdx, List.map_map]
  show _ :: _ = _ :: _
  congr 1
  apply List.map_congr_left
  intro tk htk
  simp only [Function.comp_def]
  rw [List.take_of_length_le (by rw [ht _ (List.fst_mem_of_mem_zipIdx htk)]; exact Nat.le_refl _)]
  rfl

/-- Writing then reading: same points, same tetrahedra, all data under the names the format
leaves them. -/
theorem C28_roundtrip_partial [DecidableEq F] (nio : NumIO F) (fmt2 : F → List Char)
    (h2 : ∀ x, nio.parse (fmt2 x) = some x ∧ IsTok (fmt2 x)) (version : List Char)
    (hv : '\n' ∉ version) (points : List (List F)) (hne : points ≠ []) (hp : ∀ p ∈ points, p.length = 3)
    (hlim : 2 * points.length < nio.lim)
    (cells : List (String × List (List Int))) (tets : List (List Int))
    (hone : cells.filter (fun c => c.1 == "tetra") = [("tetra", tets)])
    (ht : ∀ t ∈ tets, t.length = 4)
    (pd : Dict (List F)) (hpd : ∀ kv ∈ pd, kv.2.length = points.length ∧ '\n' ∉ kv.1.toList)
    (cd : Dict (List (List Int))) (hcd : ∀ kv ∈ cd, (∃ c l, kv.2 = c :: l ∧ c.length = tets.length) ∧ '\n' ∉ kv.1.toList) :
    ∃ node ele, Tetgen.write nio fmt2 version 3 points cells pd cd = .ok (node, ele) ∧
      Tetgen.read nio node ele = .ok ⟨points, tets,
        namedColumns attrName (columns pd (nodeKeys (pd.map (·.1))).1) ++
        namedColumns refName (columns pd (nodeKeys (pd.map (·.1))).2),
        namedColumns refName ((columns cd (cellKeys (cd.map (·.1)))).map (fun c => c.headD []))⟩ := by
  refine ⟨_, _, rfl, ?_⟩
  have hperm := C28_all_point_data (pd.map (·.1))
  have hpermc := C28_all_cell_data (cd.map (·.1))
  have n1 := keys_no_newline pd (fun kv h => (hpd kv h).2) _ hperm
  have n2 := keys_no_newline cd (fun kv h => (hcd kv h).2) _ hpermc
  have hver : '\n' ∉ "This file was created by meshio v".toList ++ version := by
    simp only [List.mem_append, not_or]
    exact ⟨by decide, hv⟩
  rw [nodeText_file nio fmt2 version points hp pd, eleText_file version cells tets hone ht cd]
  generalize hk1 : (nodeKeys (pd.map (·.1))).1 = ka at *
  generalize hk2 : (nodeKeys (pd.map (·.1))).2 = kb at *
  generalize hk3 : cellKeys (cd.map (·.1)) = kc at *
  have la := columns_length pd ka (fun k hk => hperm.mem_iff.mp (by simp [hk]))
  have lb := columns_length pd kb (fun k hk => hperm.mem_iff.mp (by simp [hk]))
  have lc := columns_length cd kc (fun k hk => hpermc.mem_iff.mp hk)
  have ma : ∀ ks, ∀ c ∈ columns pd ks, c.length = points.length := by
    intro ks c hc
    obtain ⟨kv, hkv, rfl⟩ := mem_columns pd ks c hc
    exact (hpd kv hkv).1
  have mc : ∀ c ∈ (columns cd kc).map (fun c => c.headD []), c.length = tets.length := by
    intro c hc
    obtain ⟨c0, hc0, rfl⟩ := List.mem_map.mp hc
    obtain ⟨kv, hkv, rfl⟩ := mem_columns cd kc c0 hc0
    obtain ⟨⟨c1, l, e, hl⟩, _⟩ := hcd kv hkv
    rw [e]; exact hl
  have hbind : ∀ i : Nat, (columns cd kc).filterMap (fun col => (col[0]?).bind (·[i]?)) =
      ((columns cd kc).map (fun c => c.headD [])).filterMap (·[i]?) := by
    intro i
    rw [List.filterMap_map]
    apply filterMap_congr'
    intro c _
    cases c <;> simp
  simp only [hbind]
  generalize hcols : (columns cd kc).map (fun c => c.headD []) = cols at *
  have lcols : cols.length = kc.length := by rw [← hcols, List.length_map, lc]
  have hr := C28_nodes nio fmt2 h2 (("# This file was created by meshio v".toList ++ version) ::
        (if ka.length + kb.length > 0 then
          ["# attribute and marker names: ".toList ++ commaJoin (ka ++ kb)] else []))
    (by
      intro c hc
      rw [List.mem_cons] at hc
      rcases hc with rfl | hc
      · exact isComment_hash (" This file was created by meshio v".toList ++ version) (by
          simp only [List.mem_append, not_or]
          exact ⟨by decide, hv⟩)
      · split at hc
        · rw [List.mem_singleton] at hc
          subst hc
          exact isComment_hash (" attribute and marker names: ".toList ++ commaJoin (ka ++ kb)) (by
            simp only [List.mem_append, not_or]
            exact ⟨by decide, n1⟩)
        · simp at hc)
    ka.length kb.length
    (points.zipIdx.map (fun pk => ⟨(pk.2 : Int), pk.1, (columns pd ka).filterMap (·[pk.2]?), (columns pd kb).filterMap (·[pk.2]?)⟩))
    (by intro h; rw [List.map_eq_nil_iff, List.zipIdx_eq_nil_iff] at h; exact hne h)
    (by
      intro r hr
      obtain ⟨pk, hpk, rfl⟩ := List.mem_map.mp hr
      have hlt := List.snd_lt_of_mem_zipIdx hpk
      rw [Nat.add_zero] at hlt
      refine ⟨hp _ (List.fst_mem_of_mem_zipIdx hpk), ?_, ?_⟩
      · exact (columns_row _ _ (ma ka) _ hlt).1.trans la
      · exact (columns_row _ _ (ma kb) _ hlt).1.trans lb)
    (by
      intro r hr
      obtain ⟨pk, hpk, rfl⟩ := List.mem_map.mp hr
      have := List.snd_lt_of_mem_zipIdx hpk
      simp only [List.length_map, List.length_zipIdx]
      omega)
  have he := C28_elements 0 (("# This file was created by meshio v".toList ++ version) ::
        (if kc.length > 0 then ["# attribute names: ".toList ++ commaJoin kc] else []))
    (by
      intro c hc
      rw [List.mem_cons] at hc
      rcases hc with rfl | hc
      · exact isComment_hash (" This file was created by meshio v".toList ++ version) (by
          simp only [List.mem_append, not_or]
          exact ⟨by decide, hv⟩)
      · split at hc
        · rw [List.mem_singleton] at hc
          subst hc
          exact isComment_hash (" attribute names: ".toList ++ commaJoin kc) (by
            simp only [List.mem_append, not_or]
            exact ⟨by decide, n2⟩)
        · simp at hc)
    kc.length
    (tets.zipIdx.map (fun tk => ⟨(tk.2 : Int), tk.1, cols.filterMap (·[tk.2]?)⟩)) []
    (by
      intro r hr
      obtain ⟨tk, htk, rfl⟩ := List.mem_map.mp hr
      have hlt := List.snd_lt_of_mem_zipIdx htk
      rw [Nat.add_zero] at hlt
      exact ⟨ht _ (List.fst_mem_of_mem_zipIdx htk), (columns_row _ _ mc _ hlt).1.trans lcols⟩)
  have hhd : ((points.zipIdx.map (fun pk => (⟨(pk.2 : Int), pk.1, (columns pd ka).filterMap (·[pk.2]?), (columns pd kb).filterMap (·[pk.2]?)⟩ : NodeRow F))).map (·.id)).headD 0 = 0 := by
    cases points with
    | nil => exact absurd rfl hne
    | cons p ps => simp [List.zipIdx_cons]
  have hcons : Consecutive ((points.zipIdx.map (fun pk => (⟨(pk.2 : Int), pk.1, (columns pd ka).filterMap (·[pk.2]?), (columns pd kb).filterMap (·[pk.2]?)⟩ : NodeRow F))).map (·.id)) := by
    intro i hi
    rw [hhd]
    simp
  rw [if_pos hcons] at hr
  · unfold Tetgen.read
    rw [hr]
    dsimp only
    rw [hhd, he]
    dsimp only
    have col1 : ∀ (name : Nat → String) (ks : List String) (cols : List (List F)) (_ : cols.length = ks.length)
        (_ : ∀ c ∈ cols, c.length = points.length),
        (List.range ks.length).map (fun k => (name k, points.zipIdx.filterMap (fun pk => (cols.filterMap (·[pk.2]?))[k]?))) =
          namedColumns name cols := by
      intro name ks cols h1 h3
      rw [← namedColumns_eq name cols _ h3, h1]
      apply List.map_congr_left
      intro k _
      congr 1
      rw [zipIdx_filterMap_snd points (fun i => (cols.filterMap (·[i]?))[k]?)]
      apply filterMap_congr'
      intro i hi
      exact (columns_row cols _ h3 i (List.mem_range.mp hi)).2 k
    have col2 : (List.range kc.length).map (fun k => (refName k, tets.zipIdx.filterMap (fun pk => (cols.filterMap (·[pk.2]?))[k]?))) =
          namedColumns refName cols := by
      rw [← namedColumns_eq refName cols _ mc, lcols]
      apply List.map_congr_left
      intro k _
      congr 1
      rw [zipIdx_filterMap_snd tets (fun i => (cols.filterMap (·[i]?))[k]?)]
      apply filterMap_congr'
      intro i hi
      exact (columns_row cols _ mc i (List.mem_range.mp hi)).2 k
    simp only [List.filterMap_map, List.map_map, Function.comp_def, Int.sub_zero, List.map_id']
    rw [col1 attrName ka _ la (ma ka), col1 refName kb _ lb (ma kb), col2,
      show points.zipIdx.map (fun x => x.1) = points from List.zipIdx_map_fst ..,
      show tets.zipIdx.map (fun x => x.1) = tets from List.zipIdx_map_fst ..]

/-- Points that are not three-dimensional are refused. -/
theorem C28_dim (nio : NumIO F) (fmt2 : F → List Char) (version : List Char) (dim : Nat) (h : dim ≠ 3)
    (points : List (List F)) (cells : List (String × List (List Int)))
    (pd : Dict (List F)) (cd : Dict (List (List Int))) :
    Tetgen.write nio fmt2 version dim points cells pd cd = .error .writeError := if_pos h

/-- The full claim: all tetrahedra come back, however they are split into blocks. -/
def C28_blocks_statement : Prop :=
  ∀ (lim : Nat) (points : List (List Int)) (cells : List (String × List (List Int))),
    points ≠ [] → (∀ p ∈ points, p.length = 3) → 2 * points.length < lim →
    (∀ c ∈ cells, c.1 = "tetra" ∧ ∀ t ∈ c.2, t.length = 4) →
    ∃ node ele m, Tetgen.write (NumIO.int lim) fmtInt [] 3 points cells [] [] = .ok (node, ele) ∧
      Tetgen.read (NumIO.int lim) node ele = .ok m ∧ m.tets = (cells.map (·.2)).flatten

/-- Of two blocks of tetrahedra the second is lost without a message. -/
theorem C28_blocks_false : ¬ C28_blocks_statement := by
  intro h
  obtain ⟨node, ele, m, h1, h2, h3⟩ := h 100 [[0, 0, 0]] [("tetra", [[0, 0, 0, 0]]), ("tetra", [[0, 0, 0, 0]])]
    (by decide) (by decide) (by decide) (by decide)
  have : Tetgen.read (NumIO.int 100) node ele = .ok ⟨[[0, 0, 0]], [[0, 0, 0, 0]], [], []⟩ := by
    injection h1 with h1
    injection h1 with ha hb
    subst ha hb
    rfl
  rw [this] at h2
  injection h2 with h2
  rw [← h2] at h3
  exact absurd h3 (by decide)

/-- A mesh without points is written but cannot be read. -/
theorem C28_empty_false (lim : Nat) : ∃ node ele,
    Tetgen.write (NumIO.int lim) fmtInt [] 3 [] [] [] [] = .ok (node, ele) ∧
      Tetgen.read (NumIO.int lim) node ele = .error .indexError :=
  ⟨_, _, rfl, rfl⟩

/-- Two points, one tetrahedron, data of each kind. -/
example : ∃ node ele, Tetgen.write (NumIO.int 100) fmtInt "5".toList 3 [[0, 1, 2], [3, 4, 5]]
    [("line", [[0, 1]]), ("tetra", [[0, 1, 1, 0]])] [("a", [7, 8]), ("b:ref", [1, 2])] [("r", [[4]])] = .ok (node, ele) ∧
      Tetgen.read (NumIO.int 100) node ele = .ok ⟨[[0, 1, 2], [3, 4, 5]], [[0, 1, 1, 0]],
        [("tetgen:attr1", [7, 8]), ("tetgen:ref", [1, 2])], [("tetgen:ref", [4])]⟩ := by
  obtain ⟨n, e, h1, h2⟩ := C28_roundtrip_partial (NumIO.int 100) fmtInt
    (fun x => ⟨parseInt_fmtInt x, isTok_fmtInt x⟩) "5".toList (by decide) [[0, 1, 2], [3, 4, 5]] (by decide)
    (by decide) (by decide) [("line", [[0, 1]]), ("tetra", [[0, 1, 1, 0]])] [[0, 1, 1, 0]] (by decide) (by decide)
    [("a", [7, 8]), ("b:ref", [1, 2])] (by decide) [("r", [[4]])]
    (by intro kv h; rw [List.mem_singleton] at h; subst h; exact ⟨⟨[4], [], rfl, rfl⟩, by decide⟩)
  refine ⟨n, e, h1, h2.trans ?_⟩
  rfl

/-- Meshes in the plane (or in any dimension but three) are not written. -/
theorem C28_rejects_write (nio : NumIO F) (fmt2 : F → List Char) (version : List Char) (dim : Nat) (h : dim ≠ 3)
    (points : List (List F)) (cells : List (String × List (List Int))) (pd : Dict (List F)) (cd : Dict (List (List Int))) :
    Tetgen.write nio fmt2 version dim points cells pd cd = .error .writeError := by
  unfold Tetgen.write
  rw [if_pos h]

/-- A node file that announces any other dimension than three is rejected. -/
theorem C28_rejects_read [DecidableEq F] (nio : NumIO F) (node ele : List Char) (line rest : List Char)
    (n dim na nb : Int) (hl : Off.skipComments (node.length + 1) node = .ok (line, rest))
    (hi : Tetgen.ints line = .ok [n, dim, na, nb]) (h : dim ≠ 3) : Tetgen.read nio node ele = .error .readError := by
  unfold Tetgen.read Tetgen.readNodes
  rw [hl]
  simp only [hi]
  rw [if_pos h]

example : Tetgen.read (NumIO.int 100) "2 2 0 0\n0 1 1\n1 2 2\n".toList [] = .error .readError := by decide +kernel

/-- The marker of the nodes: the first data with `:ref` in its name; if there is none, the first
data.  All others become attributes, in their order. -/
theorem C28_marker_choice (keys : List String) (k : String) (pre post : List String) (e : keys = pre ++ k :: post)
    (hn : k ∉ pre) :
    ((∀ x ∈ pre, Tetgen.isRef x = false) → Tetgen.isRef k = true → Tetgen.nodeKeys keys = (pre ++ post, [k])) ∧
      (pre = [] → (∀ x ∈ keys, Tetgen.isRef x = false) → Tetgen.nodeKeys keys = (post, [k])) := by
  constructor
  · intro hp hk
    unfold Tetgen.nodeKeys
    have : keys.filter Tetgen.isRef = k :: post.filter Tetgen.isRef := by
      rw [e, List.filter_append, List.filter_eq_nil_iff.mpr (by intro x hx; simp [hp x hx]), List.filter_cons_of_pos hk]
      rfl
    rw [this]
    simp only
    rw [e, List.erase_append_right _ hn, List.erase_cons_head]
  · intro hp h
    subst hp
    unfold Tetgen.nodeKeys
    rw [List.filter_eq_nil_iff.mpr (by intro x hx; simp [h x hx]), e]
    rfl

example : Tetgen.nodeKeys ["a", "b:ref", "c"] = (["a", "c"], ["b:ref"]) ∧ Tetgen.nodeKeys ["a", "c"] = (["c"], ["a"]) := by
  decide +kernel

/-- The names of the columns: `tetgen:ref`, `tetgen:ref2`, ..., `tetgen:attr1`, `tetgen:attr2`, ... -/
theorem C28_names (k : Nat) :
    Tetgen.refName 0 = "tetgen:ref" ∧ (Tetgen.refName (k + 1)).toList = "tetgen:ref".toList ++ fmtNat (k + 2) ∧
      (Tetgen.attrName k).toList = "tetgen:attr".toList ++ fmtNat (k + 1) := by
  refine ⟨by decide, ?_, ?_⟩
  · unfold Tetgen.refName
    rw [if_neg (by omega), String.toList_append]
    congr 1
    exact String.toList_ofList
  · unfold Tetgen.attrName
    rw [String.toList_append]
    congr 1
    exact String.toList_ofList

example : Tetgen.attrName 0 = "tetgen:attr1" ∧ Tetgen.refName 1 = "tetgen:ref2" := by decide +kernel

end Meshio.Props
