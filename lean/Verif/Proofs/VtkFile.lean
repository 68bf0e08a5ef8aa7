/-
The legacy VTK reader, section by section.
-/
import Verif.Spec.VtkFile
import Verif.Proofs.VtkLegacy
import Verif.Base.Words
namespace Meshio.VtkFile
open Meshio Meshio.Spec

variable {V : Type} {io : VtkIO V} {has : String → V → Prop}

/-! ### Numbers -/

theorem fromText_ok {α : Type} (parse : List Char → Option α) (xs : List α) (s rest : List Char) (h : VtkText parse xs s rest) :
    fromText parse xs.length s = (xs, rest) := by
  obtain ⟨t, rfl, hp, h0, he, hr⟩ := h
  unfold fromText
  by_cases hx : xs = []
  · subst hx
    rw [h0 rfl]
    rfl
  · rw [if_neg (fun h => hx (List.length_eq_zero_iff.1 h))]
    obtain ⟨h1, h2⟩ := scan_text parse _ xs hp t rfl he rest (hr hx)
    rw [h1, h2]

theorem readLine_nl (s : List Char) : readLine ('\n' :: s) = (['\n'], s) := by
  have := readLine_append [] s (by simp)
  simpa using this

theorem fromBytes_ok {α : Type} (k : Nat) (dec : List Char → α) (enc : α → List Char) (xs : List α)
    (hl : ∀ x ∈ xs, (enc x).length = k) (hd : ∀ x ∈ xs, dec (enc x) = x) (rest : List Char) :
    fromBytes k dec xs.length (xs.flatMap enc ++ '\n' :: rest) = .ok (xs, rest) := by
  unfold fromBytes
  have := blocks_append k (xs.map enc) (by
    intro y hy
    obtain ⟨x, hx, rfl⟩ := List.mem_map.1 hy
    exact hl x hx) ('\n' :: rest)
  rw [List.length_map, ← List.flatMap_def] at this
  rw [this]
  simp only [readLine_nl, if_true, List.map_map]
  congr 2
  conv => rhs; rw [← List.map_id xs]
  apply List.map_congr_left
  intro x hx
  exact hd x hx

theorem values_ok (hio : VtkLaws io has) {ascii : Bool} {d : String} {xs : List V} {s rest : List Char}
    (h : VtkValues io has ascii d xs s rest) : values io ascii d xs.length s = .ok (xs, rest) := by
  unfold values VtkValues at *
  cases ascii with
  | true => simp only [if_true] at h ⊢; rw [fromText_ok _ _ _ _ h]
  | false =>
    simp only [Bool.false_eq_true, if_false] at h ⊢
    obtain ⟨h, rfl⟩ := h
    exact fromBytes_ok _ _ _ xs (fun x _ => hio.length d x) (fun x hx => hio.dec d x (h x hx)) rest

theorem length_putBig (k : Nat) (z : Int) : (putBig k z).length = k := by
  rw [putBig, length_toChars, length_intEnc]

theorem getBig_putBig (k : Nat) (z : Int) (h : IsInt k z) : getBig (putBig k z) = z := by
  unfold getBig putBig
  rw [toBytes_toChars, intDec_intEnc _ _ _ h]

theorem intData_ok {ascii : Bool} {k : Nat} {xs : List Int} {s rest : List Char} (h : VtkInts ascii k xs s rest) :
    intData ascii k xs.length s = .ok (xs, rest) := by
  unfold intData VtkInts at *
  cases ascii with
  | true => simp only [if_true] at h ⊢; rw [fromText_ok _ _ _ _ h]
  | false =>
    simp only [Bool.false_eq_true, if_false] at h ⊢
    obtain ⟨h, rfl⟩ := h
    exact fromBytes_ok _ _ _ xs (fun x _ => length_putBig k x) (fun x hx => getBig_putBig k x (h x hx)) rest

/-! ### Lines -/

theorem strip_blank {b : List Char} (h : VtkBlank b) : strip (b ++ ['\n']) = [] := by
  rw [strip_eq_nil, splitWs_nl]
  exact h.2

theorem skipMetaF_ok (ls : List (List Char)) (h : ∀ x ∈ ls, '\n' ∉ x ∧ splitWs x ≠ []) (b : List Char) (hb : VtkBlank b) (rest : List Char)
    (n : Nat) : skipMetaF (n + 1 + ls.length) (linesText (ls ++ [b]) ++ rest) = rest := by
  induction ls with
  | nil =>
    have e : linesText ([] ++ [b]) ++ rest = b ++ '\n' :: rest := by simp [linesText]
    rw [e, List.length_nil, Nat.add_zero, skipMetaF, readLine_append _ _ hb.1, if_pos (strip_blank hb)]
  | cons x ls ih =>
    rw [List.cons_append, linesText_cons, List.append_assoc, List.cons_append, List.length_cons, ← Nat.add_assoc, skipMetaF,
      readLine_append _ _ (h x (by simp)).1, if_neg]
    · exact ih fun y hy => h y (by simp [hy])
    · rw [strip_eq_nil, splitWs_nl]
      exact (h x (by simp)).2

theorem skipMeta_ok {s rest : List Char} (h : VtkMeta s rest) : skipMeta s = rest := by
  obtain ⟨ls, b, h1, hb, rfl⟩ := h
  unfold skipMeta
  have h2 := length_linesText_ge (ls ++ [b])
  rw [List.length_append, List.length_singleton] at h2
  obtain ⟨n, hn⟩ := Nat.exists_eq_add_of_le (show 1 + ls.length ≤ (linesText (ls ++ [b]) ++ rest).length + 1 by
    rw [List.length_append]; omega)
  rw [show (linesText (ls ++ [b]) ++ rest).length + 1 = n + 1 + ls.length by omega]
  exact skipMetaF_ok ls h1 b hb rest n

theorem count_ok {split : List (List Char)} {i : Nat} {w : List Char} {n : Nat} (h : split[i]? = some w) (hw : Numeral w n) :
    count split i = .ok n := by
  unfold count
  unfold Numeral at hw
  rw [h]
  simp only [toInt, hw]
  rw [if_neg (by omega), Int.toNat_natCast]

theorem find_dtypes (v : Ver) {name d : String} (h : (name, d) ∈ dtypes v) : Types.find (dtypes v) name = some d := by
  cases v with
  | v42 => exact (by decide +kernel : ∀ e ∈ dtypes .v42, Types.find (dtypes .v42) e.1 = some e.2) _ h
  | v51 => exact (by decide +kernel : ∀ e ∈ dtypes .v51, Types.find (dtypes .v51) e.1 = some e.2) _ h

theorem dtype_mem {v : Ver} {w : List Char} {d : String} (h : (String.ofList w, d) ∈ dtypes v) : dtype v w = .ok d := by
  unfold dtype
  rw [find_dtypes v h]

theorem dtype_ok {v : Ver} {w : List Char} {d : String} (h : VtkWord v w d) : dtype v (lower w) = .ok d := by
  obtain ⟨name, h1, h2⟩ := h
  apply dtype_mem
  rw [h1, String.ofList_toList]
  exact h2

theorem dtypeAt_ok {v : Ver} {split : List (List Char)} {i : Nat} {w : List Char} {d : String} (h : split[i]? = some w)
    (hw : VtkWord v w d) : dtypeAt v split i = .ok d := by
  unfold dtypeAt
  rw [h]
  exact dtype_ok hw

theorem reshapeRows_ok {k : Nat} (hk : 0 < k) (rows : List (List V)) (h : ∀ r ∈ rows, r.length = k) :
    reshapeRows k rows.flatten = .ok rows := by
  unfold reshapeRows
  have hl := length_flatten_const k rows h
  rw [if_pos (by rw [hl]; exact Nat.mul_mod_left _ _), hl, Nat.mul_div_cancel _ hk]
  have := rowsN_flatten k rows h []
  rw [List.append_nil] at this
  rw [this]

/-- What the loop sees of a line. -/
theorem head_line {key : String} {args : List (List Char)} {s s' : List Char} (h : VtkHead key args s s') :
    ∃ w, splitWs (readLine s).1 = w :: args ∧ (readLine s).2 = s' ∧ upper w = key.toList ∧ s'.length < s.length := by
  obtain ⟨l, w, h1, h2, h3, rfl⟩ := h
  refine ⟨w, ?_, ?_, h3, by simp; omega⟩
  · rw [readLine_append _ _ h1]
    show splitWs (l ++ ['\n']) = _
    rw [splitWs_nl, h2]
  · rw [readLine_append _ _ h1]

theorem loop_section (io : VtkIO V) (v : Ver) (ascii : Bool) (n : Nat) (info info' : Info V) {key : String} {args : List (List Char)}
    {s s' rest : List Char} (h : VtkHead key args s s') (hk : key ∈ sections)
    (hr : ∀ w, readSection io v ascii key (w :: args) info s' = .ok (info', rest)) :
    readLoop io v ascii (n + 1) info s = readLoop io v ascii n info' rest := by
  obtain ⟨w, h1, h2, h3, h4⟩ := head_line h
  have hs : s ≠ [] := by rintro rfl; simp at h4
  rw [readLoop, if_neg hs, h1, h2]
  simp only [h3, String.ofList_toList]
  rw [if_pos hk, hr w]

theorem loop_subsection (io : VtkIO V) (v : Ver) (ascii : Bool) (n : Nat) (info info' : Info V) {key : String} {args : List (List Char)}
    {s s' rest : List Char} (h : VtkHead key args s s') (hk : key ∉ sections)
    (hr : ∀ w, readSubsection io v ascii key (w :: args) info s' = .ok (info', rest)) :
    readLoop io v ascii (n + 1) info s = readLoop io v ascii n info' rest := by
  obtain ⟨w, h1, h2, h3, h4⟩ := head_line h
  have hs : s ≠ [] := by rintro rfl; simp at h4
  rw [readLoop, if_neg hs, h1, h2]
  simp only [h3, String.ofList_toList]
  rw [if_neg hk, hr w]

/-! ### What a section does -/

/-- Arrays go where the active section says. -/
def addNamed (info : Info V) (l : List (String × Arr V)) : Info V :=
  if info.active = "POINT_DATA" then { info with pointData := l.foldl (fun d kv => Dict.set d kv.1 kv.2) info.pointData }
  else if info.active = "CELL_DATA" then { info with cellRaw := l.foldl (fun d kv => Dict.set d kv.1 kv.2) info.cellRaw }
  else if info.active = "DATASET" then { info with dataset := l.foldl (fun d kv => Dict.set d kv.1 (.arr kv.2)) info.dataset }
  else { info with fieldData := l.foldl (fun d kv => Dict.set d kv.1 kv.2) info.fieldData }

def step (v : Ver) (info : Info V) : VtkSec V → Info V
  | .points a => { info with active := "POINTS", points := some a }
  | .cells cs =>
    match v with
    | .v42 => { info with active := "CELLS", numItems := (streamOf cs).length, conn := some (streamOf cs) }
    | .v51 => { info with active := "CELLS", numItems := (connectivityOf cs).length, conn := some (connectivityOf cs), offsets := some (endsFrom 0 cs) }
  | .types l => { info with active := "CELL_TYPES", numItems := l.length, types := some l }
  | .pointData n => { info with active := "POINT_DATA", numItems := n }
  | .cellData n => { info with active := "CELL_DATA", numItems := n }
  | .arrays l => addNamed info l
  | .scalars name a => addNamed info [(name, a)]
  | .vectors name a => addNamed info [(name, a)]
  | .tensors name a => addNamed info [(name, a)]
  | .lookup n => { info with numItems := n }
  | .dims x y z => { info with dataset := Dict.set info.dataset "DIMENSIONS" (.ints [(x : Int), y, z]) }
  | .floats key x y z => { info with dataset := Dict.set info.dataset key (.floats [x, y, z]) }
  | .coords key a => { info with dataset := Dict.set info.dataset key (.arr a) }
  | _ => info

/-- The state of the reader agrees with the context. -/
structure Fits (t : String) (c : VtkCtx) (info : Info V) : Prop where
  type : info.type = some t
  active : match c.target with
    | .dataset => info.active = "DATASET"
    | .point => info.active = "POINT_DATA"
    | .cell => info.active = "CELL_DATA"
    | .other => info.active ∉ ["DATASET", "POINT_DATA", "CELL_DATA"]
  num : ∀ n, c.num = some n → info.numItems = n

theorem update_ok {t : String} {c : VtkCtx} {info : Info V} (hf : Fits t c info) (l : List (String × Arr V))
    (h : c.target = .dataset → ∀ kv ∈ l, kv.1 ∉ vtkReserved) : update info l = .ok (addNamed info l) := by
  unfold update addNamed
  have ha := hf.active
  cases hc : c.target with
  | dataset =>
    rw [hc] at ha
    simp only at ha
    have hn : l.any (fun kv => kv.1 == "type") = false := by
      rw [List.any_eq_false]
      intro kv hkv e
      have := h hc kv hkv
      rw [eq_of_beq e] at this
      exact this (by decide)
    simp only [ha, hn]
    rfl
  | other =>
    rw [hc] at ha
    simp only [List.mem_cons, List.not_mem_nil, or_false, not_or] at ha
    simp only [ha, if_false]
  | point =>
    rw [hc] at ha
    simp only at ha
    simp only [ha, if_true]
  | cell =>
    rw [hc] at ha
    simp only at ha
    simp only [ha]
    rfl

theorem fits_addNamed {t : String} {c : VtkCtx} {info : Info V} (hf : Fits t c info) (l : List (String × Arr V)) :
    Fits t c (addNamed info l) := by
  obtain ⟨h1, h2, h3⟩ := hf
  have e : (addNamed info l).type = info.type ∧ (addNamed info l).active = info.active ∧ (addNamed info l).numItems = info.numItems := by
    unfold addNamed
    split
    · exact ⟨rfl, rfl, rfl⟩
    · split
      · exact ⟨rfl, rfl, rfl⟩
      · split <;> exact ⟨rfl, rfl, rfl⟩
  exact ⟨by rw [e.1]; exact h1, by rw [e.2.1]; exact h2, by rw [e.2.2]; exact h3⟩

theorem fits_step (v : Ver) {t : String} {c : VtkCtx} {info : Info V} (hf : Fits t c info) (x : VtkSec V) :
    Fits t (x.next c) (step v info x) := by
  have hf' := hf
  obtain ⟨h1, h2, h3⟩ := hf
  cases x with
  | points a => exact ⟨h1, by simp [VtkSec.next, step], h3⟩
  | cells cs => cases v <;> exact ⟨h1, by simp [VtkSec.next, step], by simp [VtkSec.next]⟩
  | types l => exact ⟨h1, by simp [VtkSec.next, step], by simp [VtkSec.next]⟩
  | pointData n => exact ⟨h1, by simp [VtkSec.next, step], by simp [VtkSec.next, step]⟩
  | cellData n => exact ⟨h1, by simp [VtkSec.next, step], by simp [VtkSec.next, step]⟩
  | lookup n => exact ⟨h1, h2, by simp [VtkSec.next]⟩
  | arrays l => exact fits_addNamed hf' _
  | scalars name a => exact fits_addNamed hf' _
  | vectors name a => exact fits_addNamed hf' _
  | tensors name a => exact fits_addNamed hf' _
  | blank => exact hf'
  | metadata => exact hf'
  | colors k => exact hf'
  | dims x y z => exact ⟨h1, h2, h3⟩
  | floats key x y z => exact ⟨h1, h2, h3⟩
  | coords key a => exact ⟨h1, h2, h3⟩

theorem readPoints_ok (hio : VtkLaws io has) {v : Ver} {ascii : Bool} {w0 w t : List Char} {e : List (List Char)} {d : String} {a : Arr V}
    {s rest : List Char} (hw : Numeral w a.rows.length) (ht : VtkWord v t d) (hd : canonical d = a.dtype) (h3 : a.tail = [3])
    (hr : Arr.Rows 3 a) (hv : VtkValues io has ascii d a.rows.flatten s rest) :
    readPoints io v ascii (w0 :: w :: t :: e) s = .ok (a, rest) := by
  unfold readPoints
  have hl := length_flatten_const 3 a.rows hr
  rw [count_ok (w := w) rfl hw]
  simp only [dtypeAt_ok (split := w0 :: w :: t :: e) (i := 2) rfl ht]
  rw [← hl, values_ok hio hv]
  simp only [reshape_flatten 3 a.rows hr, hd]
  obtain ⟨dt, tl, rw⟩ := a
  simp only at h3
  rw [h3]

theorem map_singleton_flatten (rows : List (List V)) (h : ∀ r ∈ rows, r.length = 1) : (rows.flatten).map (fun x => [x]) = rows := by
  induction rows with
  | nil => rfl
  | cons r rows ih =>
    rw [List.flatten_cons, List.map_append, ih fun r' h' => h r' (by simp [h'])]
    have := h r (by simp)
    match r, this with
    | [x], _ => rfl

theorem readCoords_ok (hio : VtkLaws io has) {v : Ver} {ascii : Bool} {w0 w t : List Char} {e : List (List Char)} {d : String} {a : Arr V}
    {s rest : List Char} (hw : Numeral w a.rows.length) (ht : VtkWord v t d) (hd : canonical d = a.dtype) (h3 : a.tail = [])
    (hr : Arr.Rows 1 a) (hv : VtkValues io has ascii d a.rows.flatten s rest) :
    readCoords io v ascii (w0 :: w :: t :: e) s = .ok (a, rest) := by
  unfold readCoords
  have hl := length_flatten_const 1 a.rows hr
  rw [Nat.mul_one] at hl
  rw [count_ok (w := w) rfl hw]
  simp only [dtypeAt_ok (split := w0 :: w :: t :: e) (i := 2) rfl ht]
  rw [← hl, values_ok hio hv]
  simp only [map_singleton_flatten a.rows hr, hd]
  obtain ⟨dt, tl, rw⟩ := a
  simp only at h3
  rw [h3]

theorem readField_ok (hio : VtkLaws io has) {v : Ver} {ascii : Bool} {w0 t : List Char} {e : List (List Char)} {d name : String} {a : Arr V}
    {shape : List Nat} {k : Nat} (hk : 0 < k) {s rest : List Char} (ht : VtkWord v t d) (hd : canonical d = a.dtype) (h3 : a.tail = shape)
    (hr : Arr.Rows k a) (hv : VtkValues io has ascii d a.rows.flatten s rest) :
    readField io v ascii a.rows.length (w0 :: name.toList :: t :: e) shape k s = .ok ((name, a), rest) := by
  unfold readField
  have hl := length_flatten_const k a.rows hr
  simp only [List.getElem?_cons_succ, List.getElem?_cons_zero, dtype_ok ht]
  rw [Nat.mul_comm, ← hl, values_ok hio hv]
  simp only [reshapeRows_ok hk a.rows hr, hd, String.ofList_toList]
  obtain ⟨dt, tl, rw⟩ := a
  simp only at h3
  rw [h3]

theorem readScalars_ok (hio : VtkLaws io has) {v : Ver} {ascii : Bool} {w0 t lt tn l : List Char} {e : List (List Char)} {d name : String}
    {a : Arr V} {s s' rest : List Char} {k : Nat} (ht : VtkWord v t d) (hd : canonical d = a.dtype) (h3 : a.tail = [k]) (h1 : 1 ≤ k) (h4 : k ≤ 4)
    (hr : Arr.Rows k a) (he : (e = [] ∧ a.tail = [1]) ∨ ∃ k w e', e = w :: e' ∧ Numeral w k ∧ a.tail = [k])
    (hl : '\n' ∉ l) (hs : splitWs l = [lt, tn]) (hlt : upper lt = "LOOKUP_TABLE".toList) (hs' : s = l ++ '\n' :: s')
    (hv : VtkValues io has ascii d a.rows.flatten s' rest) :
    readScalars io v ascii a.rows.length (w0 :: name.toList :: t :: e) s = .ok ((name, a), rest) := by
  unfold readScalars
  have hln := length_flatten_const k a.rows hr
  simp only [List.getElem?_cons_succ, List.getElem?_cons_zero, dtype_ok ht]
  have hc : numComp e[0]? = Except.ok (k : Int) := by
    rcases he with ⟨rfl, h⟩ | ⟨k', w, e', rfl, hw, h⟩
    · rw [h3] at h
      injection h with h
      subst h
      rfl
    · rw [h3] at h
      injection h with h
      subst h
      unfold Numeral at hw
      simp only [List.getElem?_cons_zero, numComp, toInt, hw]
  subst hs'
  rw [hc, readLine_append _ _ hl]
  simp only [splitWs_nl, hs, hlt]
  rw [if_neg (by omega)]
  simp only [ne_eq, not_true_eq_false, if_false, Int.toNat_natCast]
  rw [← hln, values_ok hio hv]
  simp only [reshapeRows_ok h1 a.rows hr, hd, String.ofList_toList]
  obtain ⟨dt, tl, rw⟩ := a
  simp only at h3
  rw [h3]

theorem readFieldArray_ok (hio : VtkLaws io has) {v : Ver} {ascii : Bool} {c n t : List Char} {d name : String}
    {a : Arr V} {s rest : List Char} (hf : Arr.Field a) (hc : Numeral c (a.tail.headD 1)) (hn : Numeral n a.rows.length) (ht : VtkWord v t d)
    (hd : canonical d = a.dtype) (hv : VtkValues io has ascii d a.rows.flatten s rest) :
    readFieldArray io v ascii [name.toList, c, n, t] s = .ok ((name, a), rest) := by
  unfold readFieldArray
  simp only [count_ok (split := [c]) (i := 0) rfl hc, count_ok (split := [n]) (i := 0) rfl hn, dtype_ok ht]
  obtain ⟨dt, tl, rows⟩ := a
  rcases hf with ⟨h1, h2⟩ | ⟨k, h1, hk, h2⟩
  · simp only at h1 hd hv
    subst h1
    unfold Arr.Rows at h2
    have hl := length_flatten_const 1 rows h2
    simp only [List.headD_nil, ne_eq, not_true_eq_false, if_false]
    rw [show 1 * rows.length = rows.flatten.length by rw [hl]; omega, values_ok hio hv]
    simp only [map_singleton_flatten rows h2, hd, String.ofList_toList]
  · simp only at h1 hd hv
    subst h1
    unfold Arr.Rows at h2
    have hl := length_flatten_const k rows h2
    simp only [List.headD_cons, ne_eq]
    rw [show k * rows.length = rows.flatten.length by rw [hl, Nat.mul_comm], values_ok hio hv]
    simp only [reshape_flatten k rows h2, hd, String.ofList_toList]
    rw [if_pos hk]

theorem readFields_ok (hio : VtkLaws io has) {v : Ver} {ascii : Bool} (l : List (String × Arr V))
    (hf : ∀ kv ∈ l, Arr.Field kv.2 ∧ kv.1 ≠ "METADATA") (d : Dict (Arr V)) {s rest : List Char} (h : VtkArrays io has v ascii l s rest) :
    readFields io v ascii l.length d s = .ok (l.foldl (fun d kv => Dict.set d kv.1 kv.2) d, rest) := by
  induction l generalizing d s with
  | nil => cases h; rfl
  | cons x l ih =>
    obtain ⟨s', hx, h⟩ := h
    obtain ⟨s0, s2, ln, c, n, t, dt, h0, h1, h2, h3, h4, h5, h6, h7, h8⟩ := hx
    obtain ⟨hf1, hf2⟩ := hf x (by simp)
    have ih := ih (fun kv hkv => hf kv (by simp [hkv])) (Dict.set d x.1 x.2) h
    rw [List.length_cons, List.foldl_cons, readFields, ← ih]
    subst h3
    have ha := readFieldArray_ok (name := x.1) hio hf1 h4 h5 h6 h7 h8
    rcases h0 with rfl | ⟨m, s1, g1, g2, rfl, g3⟩
    · rw [readLine_append _ _ h1]
      simp only [splitWs_nl, h2]
      rw [if_neg, ha]
      intro e
      apply hf2
      rw [← String.ofList_toList (s := x.1), e]
      rfl
    · rw [readLine_append _ _ g1]
      simp only [splitWs_nl]
      cases hm : splitWs m with
      | nil => rw [hm] at g2; cases g2
      | cons w ws =>
        rw [hm] at g2
        simp only [List.head?_cons, Option.some.injEq] at g2
        simp only
        rw [if_pos g2, skipMeta_ok g3, readLine_append _ _ h1]
        simp only [splitWs_nl, h2, ha]

theorem readCells_ok {ascii : Bool} {w0 w1 w2 : List Char} {e : List (List Char)} {cs : List VtkCell} {s rest : List Char}
    (h1 : Numeral w1 (cs.length + 1)) (h2 : Numeral w2 (connectivityOf cs).length) (h : VtkOffsets ascii cs s rest) :
    readCells ascii (w0 :: w1 :: w2 :: e) s = .ok ((connectivityOf cs, endsFrom 0 cs), rest) := by
  obtain ⟨l1, k1, t1, e1, d1, s1, s2, l2, k2, t2, e2, d2, s3, a1, a2, a3, a4, rfl, a5, b1, b2, b3, b4, rfl, b5⟩ := h
  unfold readCells
  rw [readLine_append _ _ a1]
  have p1 : "OFFSETS".toList <+: l1 ++ ['\n'] := a2.trans (List.prefix_append _ _)
  have p2 : "CONNECTIVITY".toList <+: l2 ++ ['\n'] := b2.trans (List.prefix_append _ _)
  simp only [p1, not_true_eq_false, if_false, count_ok (split := w0 :: w1 :: w2 :: e) (i := 1) rfl h1,
    count_ok (split := w0 :: w1 :: w2 :: e) (i := 2) rfl h2, splitWs_nl, a3, List.getElem?_cons_succ, List.getElem?_cons_zero, dtype_mem a4]
  have hi := intData_ok a5
  rw [List.length_cons, Vtk.length_endsFrom] at hi
  rw [hi]
  simp only [readLine_append _ _ b1, p2, not_true_eq_false, if_false, splitWs_nl, b3, List.getElem?_cons_succ, List.getElem?_cons_zero, dtype_mem b4, intData_ok b5]
  have hl := Vtk.endsFrom_last 0 cs
  simp only [Int.natCast_zero, Nat.zero_add] at hl
  simp [hl]

theorem cellTypes_ok {ascii : Bool} {l : List Nat} {s rest : List Char}
    (h : if ascii then VtkText parseInt (l.map Int.ofNat) s rest
      else (∀ x ∈ l, IsInt 4 (x : Int)) ∧ ((∃ b, VtkBlank b ∧ s = (l.map Int.ofNat).flatMap (putBig 4) ++ (b ++ '\n' :: rest)) ∨
        rest = [] ∧ s = (l.map Int.ofNat).flatMap (putBig 4))) :
    cellTypes ascii l.length s = .ok (l.map Int.ofNat, rest) := by
  unfold cellTypes
  cases ascii with
  | true =>
    simp only [if_true] at h ⊢
    have := fromText_ok _ _ _ _ h
    rw [List.length_map] at this
    rw [this]
  | false =>
    simp only [Bool.false_eq_true, if_false] at h ⊢
    obtain ⟨h1, h⟩ := h
    have hb : ∀ u, blocks 4 l.length ((l.map Int.ofNat).flatMap (putBig 4) ++ u) = ((l.map Int.ofNat).map (putBig 4), u) := by
      intro u
      have := blocks_append 4 ((l.map Int.ofNat).map (putBig 4)) (by
        intro y hy
        obtain ⟨x, hx, rfl⟩ := List.mem_map.1 hy
        exact length_putBig 4 x) u
      rw [List.length_map, List.length_map, ← List.flatMap_def] at this
      exact this
    have hm : ((l.map Int.ofNat).map (putBig 4)).map getBig = l.map Int.ofNat := by
      rw [List.map_map]
      conv => rhs; rw [← List.map_id (l.map Int.ofNat)]
      apply List.map_congr_left
      intro z hz
      obtain ⟨x, hx, rfl⟩ := List.mem_map.1 hz
      exact getBig_putBig 4 _ (h1 x hx)
    rcases h with ⟨b, hbl, rfl⟩ | ⟨rfl, rfl⟩
    · rw [hb, readLine_append _ _ hbl.1]
      simp only [strip_blank hbl, if_true, hm]
    · have := hb []
      rw [List.append_nil] at this
      rw [this]
      have e : readLine [] = ([], []) := rfl
      simp only [e]
      rw [if_pos (by decide), hm]

theorem blocks_chars (k n : Nat) (b rest : List Char) (h : b.length = n * k) : (blocks k n (b ++ rest)).2 = rest := by
  induction n generalizing b with
  | zero =>
    rw [Nat.zero_mul] at h
    rw [List.length_eq_zero_iff.1 h]
    rfl
  | succ n ih =>
    rw [Nat.succ_mul] at h
    rw [blocks, if_neg (by rw [List.length_append]; omega)]
    simp only
    rw [List.drop_append_of_le_length (by omega)]
    exact ih _ (by rw [List.length_drop]; omega)

theorem dict_of_nodup {α : Type} (l : List (String × α)) (h : (l.map (·.1)).Nodup) (pre : Dict α) (hp : ∀ k ∈ l.map (·.1), k ∉ Dict.keys pre) :
    l.foldl (fun d kv => Dict.set d kv.1 kv.2) pre = pre ++ l := by
  induction l generalizing pre with
  | nil => simp
  | cons x l ih =>
    rw [List.map_cons, List.nodup_cons] at h
    rw [List.foldl_cons, Vtk.set_end _ _ _ (hp x.1 (by simp)), ih h.2]
    · simp
    · intro k hk hm
      simp only [Dict.keys, List.map_append, List.map_cons, List.map_nil, List.mem_append, List.mem_singleton] at hm
      rcases hm with hm | rfl
      · exact hp k (List.mem_map.2 (by
          obtain ⟨y, hy, rfl⟩ := List.mem_map.1 hk
          exact ⟨y, by simp [hy], rfl⟩)) hm
      · exact h.1 hk

theorem loop_sec (hio : VtkLaws io has) {v : Ver} {ascii : Bool} {t : String} {c : VtkCtx} {info : Info V} (hf : Fits t c info)
    (ht : (Types.find datasetInfos t).isSome)
    (x : VtkSec V) (hok : x.Ok ascii t c) {s rest : List Char} (h : x.Says io has v ascii c.num s rest) (n : Nat) :
    readLoop io v ascii (n + 1) info s = readLoop io v ascii n (step v info x) rest := by
  obtain ⟨hres, hok⟩ := hok
  have hnone : ∀ key : String, (∀ e ∈ datasetInfos, key ∉ e.2) → key ∉ (Types.find datasetInfos t).getD [] := by
    intro key hk hm
    cases hfi : Types.find datasetInfos t with
    | none => rw [hfi] at ht; cases ht
    | some l =>
      rw [hfi] at hm
      exact hk _ (Types.find_mem hfi) hm
  cases x with
  | blank =>
    obtain ⟨b, hb, rfl⟩ := h
    rw [readLoop, if_neg (by simp), readLine_append _ _ hb.1]
    simp only [splitWs_nl, hb.2]
    rfl
  | metadata =>
    obtain ⟨e, s', h, hm⟩ := h
    apply loop_section io v ascii n info _ h (by decide)
    intro w
    unfold readSection
    rw [if_pos rfl, skipMeta_ok hm]
    rfl
  | points a =>
    obtain ⟨w, t', e, d, s', h, hw, hd, hc, hv⟩ := h
    apply loop_section io v ascii n info _ h (by decide)
    intro w0
    unfold readSection
    rw [if_neg (by decide), if_neg (by decide), if_pos rfl, readPoints_ok hio hw hd hc hok.1 hok.2 hv]
    rfl
  | cells cs =>
    cases v with
    | v42 =>
      obtain ⟨w1, w2, e, s', h, -, hw, hv⟩ := h
      apply loop_section io .v42 ascii n info _ h (by decide)
      intro w0
      unfold readSection
      rw [if_neg (by decide), if_neg (by decide), if_neg (by decide), if_pos rfl]
      simp only [count_ok (split := w0 :: w1 :: w2 :: e) (i := 2) rfl hw, intData_ok hv]
      rfl
    | v51 =>
      obtain ⟨w1, w2, e, s', h, hw1, hw, hv⟩ := h
      apply loop_section io .v51 ascii n info _ h (by decide)
      intro w0
      unfold readSection
      rw [if_neg (by decide), if_neg (by decide), if_neg (by decide), if_pos rfl]
      simp only [count_ok (split := w0 :: w1 :: w2 :: e) (i := 2) rfl hw, readCells_ok hw1 hw hv]
      rfl
  | types l =>
    obtain ⟨w, e, s', h, hw, hv⟩ := h
    apply loop_section io v ascii n info _ h (by decide)
    intro w0
    unfold readSection
    rw [if_neg (by decide), if_neg (by decide), if_neg (by decide), if_neg (by decide), if_pos rfl]
    simp only [count_ok (split := w0 :: w :: e) (i := 1) rfl hw, cellTypes_ok hv]
    rw [if_neg]
    · simp only [step, List.map_map]
      have : (Int.toNat ∘ Int.ofNat) = id := by funext i; rfl
      rw [this, List.map_id]
    · simp
  | pointData m =>
    obtain ⟨w, e, h, hw⟩ := h
    apply loop_section io v ascii n info _ h (by decide)
    intro w0
    unfold readSection
    rw [if_neg (by decide), if_neg (by decide), if_neg (by decide), if_neg (by decide), if_neg (by decide), if_pos rfl]
    simp only [count_ok (split := w0 :: w :: e) (i := 1) rfl hw]
    rfl
  | cellData m =>
    obtain ⟨w, e, h, hw⟩ := h
    apply loop_section io v ascii n info _ h (by decide)
    intro w0
    unfold readSection
    rw [if_neg (by decide), if_neg (by decide), if_neg (by decide), if_neg (by decide), if_neg (by decide), if_neg (by decide), if_pos rfl]
    simp only [count_ok (split := w0 :: w :: e) (i := 1) rfl hw]
    rfl
  | lookup m =>
    obtain ⟨w1, w2, e, s', h, hw, xs, hx, hv⟩ := h
    apply loop_section io v ascii n info _ h (by decide)
    intro w0
    unfold readSection
    rw [if_neg (by decide), if_neg (by decide), if_neg (by decide), if_neg (by decide), if_neg (by decide), if_neg (by decide),
      if_neg (by decide), if_pos rfl]
    simp only [count_ok (split := w0 :: w1 :: w2 :: e) (i := 2) rfl hw]
    rw [show m * 4 = xs.length by omega, fromText_ok _ _ _ _ hv]
    rfl
  | colors k =>
    obtain ⟨w1, w2, e, b, h, hw, hb⟩ := h
    apply loop_section io v ascii n info _ h (by decide)
    intro w0
    unfold readSection
    rw [if_neg (by decide), if_neg (by decide), if_neg (by decide), if_neg (by decide), if_neg (by decide), if_neg (by decide),
      if_neg (by decide), if_neg (by decide)]
    simp only [count_ok (split := w0 :: w1 :: w2 :: e) (i := 2) rfl hw]
    obtain ⟨h1, h2⟩ := hok
    subst h1
    obtain ⟨m, hm⟩ := Option.isSome_iff_exists.1 h2
    rw [hm] at hb
    rw [hf.num m hm]
    have := blocks_chars 1 (m * k) b rest (by rw [hb]; simp)
    simp only [Bool.false_eq_true, if_false, this]
    rfl
  | arrays l =>
    obtain ⟨w1, w2, e, s', h, hw, hv⟩ := h
    apply loop_subsection io v ascii n info _ h (by decide)
    intro w0
    unfold readSubsection
    rw [hf.type]
    simp only
    rw [if_neg (hnone "FIELD" (by decide)), if_neg (by decide), if_neg (by decide), if_neg (by decide), if_pos trivial]
    simp only [count_ok (split := w0 :: w1 :: w2 :: e) (i := 2) rfl hw, readFields_ok hio l hok.2 [] hv]
    rw [dict_of_nodup l hok.1 [] (by simp [Dict.keys]), List.nil_append, update_ok hf l hres]
    rfl
  | scalars name a =>
    obtain ⟨t', e, d, s', l, lt, tn, s'', h, hd, hc, he, h1, h2, h3, h4, hv⟩ := h
    obtain ⟨hn, k, hk, hk1, hk4, hr⟩ := hok
    apply loop_subsection io v ascii n info _ h (by decide)
    intro w0
    unfold readSubsection
    rw [hf.type]
    simp only
    rw [if_neg (hnone "SCALARS" (by decide)), if_pos trivial, hf.num _ hn, readScalars_ok hio hd hc hk hk1 hk4 hr he h1 h2 h3 h4 hv]
    simp only [Except.map]
    rw [update_ok hf [(name, a)] hres]
    rfl
  | vectors name a =>
    obtain ⟨t', e, d, s', h, hd, hc, hv⟩ := h
    obtain ⟨hn, hk, hr⟩ := hok
    apply loop_subsection io v ascii n info _ h (by decide)
    intro w0
    unfold readSubsection
    rw [hf.type]
    simp only
    rw [if_neg (hnone "VECTORS" (by decide)), if_neg (by decide), if_pos trivial, hf.num _ hn, readField_ok hio (by decide) hd hc hk hr hv]
    simp only [Except.map]
    rw [update_ok hf [(name, a)] hres]
    rfl
  | tensors name a =>
    obtain ⟨t', e, d, s', h, hd, hc, hv⟩ := h
    obtain ⟨hn, hk, hr⟩ := hok
    apply loop_subsection io v ascii n info _ h (by decide)
    intro w0
    unfold readSubsection
    rw [hf.type]
    simp only
    rw [if_neg (hnone "TENSORS" (by decide)), if_neg (by decide), if_neg (by decide), if_pos trivial, hf.num _ hn,
      readField_ok hio (by decide) hd hc hk hr hv]
    simp only [Except.map]
    rw [update_ok hf [(name, a)] hres]
    rfl
  | dims x y z =>
    obtain ⟨w1, w2, w3, h, g1, g2, g3⟩ := h
    obtain ⟨hc, hk⟩ := hok
    apply loop_subsection io v ascii n info _ h (by decide)
    intro w0
    have ha := hf.active
    rw [hc] at ha
    simp only at ha
    unfold readSubsection
    rw [hf.type]
    simp only
    rw [if_pos ((by decide : ∀ t ∈ ["STRUCTURED_POINTS", "STRUCTURED_GRID", "RECTILINEAR_GRID"],
      "DIMENSIONS" ∈ (Types.find datasetInfos t).getD []) t hk), if_neg (by rw [ha]; simp), if_neg (by decide), if_pos trivial]
    unfold Numeral at g1 g2 g3
    have : mapRes toInt ((w0 :: [w1, w2, w3]).drop 1) = .ok [(x : Int), y, z] := by
      simp [mapRes, toInt, g1, g2, g3]
    rw [this, ← hf.type]
    rfl
  | floats key x y z =>
    obtain ⟨w1, w2, w3, h, g1, g2, g3⟩ := h
    obtain ⟨hc, rfl, hk⟩ := hok
    apply loop_subsection io v ascii n info _ h ((by decide : ∀ key ∈ ["ORIGIN", "SPACING", "ASPECT_RATIO"], key ∉ sections) key hk)
    intro w0
    have ha := hf.active
    rw [hc] at ha
    simp only at ha
    unfold readSubsection
    rw [hf.type]
    simp only
    obtain ⟨k1, k2, k3⟩ := (by decide : ∀ key ∈ ["ORIGIN", "SPACING", "ASPECT_RATIO"],
      key ∈ (Types.find datasetInfos "STRUCTURED_POINTS").getD [] ∧ ¬ (key = "X_COORDINATES" ∨ key = "Y_COORDINATES" ∨ key = "Z_COORDINATES") ∧
      key ≠ "DIMENSIONS") key hk
    rw [if_pos k1, if_neg (by rw [ha]; simp), if_neg k2, if_neg k3]
    simp only [List.drop_one, List.tail_cons, mapRes, g1, g2, g3]
    rw [← hf.type]
    rfl
  | coords key a =>
    obtain ⟨w, t', e, d, s', h, hw, hd, hcn, hv⟩ := h
    obtain ⟨hc, rfl, hk, ht', hr⟩ := hok
    apply loop_subsection io v ascii n info _ h
      ((by decide : ∀ key ∈ ["X_COORDINATES", "Y_COORDINATES", "Z_COORDINATES"], key ∉ sections) key hk)
    intro w0
    have ha := hf.active
    rw [hc] at ha
    simp only at ha
    unfold readSubsection
    rw [hf.type]
    simp only
    obtain ⟨k1, k2⟩ := (by decide : ∀ key ∈ ["X_COORDINATES", "Y_COORDINATES", "Z_COORDINATES"],
      key ∈ (Types.find datasetInfos "RECTILINEAR_GRID").getD [] ∧ (key = "X_COORDINATES" ∨ key = "Y_COORDINATES" ∨ key = "Z_COORDINATES")) key hk
    rw [if_pos k1, if_neg (by rw [ha]; simp), if_pos k2, readCoords_ok hio hw hd hcn ht' hr hv, ← hf.type]
    rfl

end Meshio.VtkFile
