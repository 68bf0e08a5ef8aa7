/-
Lemmas about SU2 files.
-/
import Verif.Spec.Su2
import Verif.Proofs.Ply
import Verif.Proofs.Xdmf
namespace Meshio.Su2
open Types Tables Spec

variable {F : Type}

theorem su2Type_cases {x : Int} {t : String} {n : Nat} (h : su2Type x = some (t, n)) :
    x ∈ su2Codes ∧ numNodes x = some n ∧ typeName x = some t := by
  unfold su2Type at h
  split at h <;> first | (cases h; refine ⟨by decide, by decide, by decide⟩) | cases h

/-! ## Elements -/

theorem scanTypes_skip (off : Nat) (a l : List Int) : scanTypes off (a ++ l) a.length = scanTypes off l 0 := by
  induction a with
  | nil => rfl
  | cons x a ih => exact ih

theorem scanTypes_stream (e : Nat) (cs : List Su2Cell) (h : ∀ c ∈ cs, c.Ok e) :
    scanTypes (e + 1) (cs.flatMap (·.numbers)) 0 = .ok (cs.map (·.code)) := by
  induction cs with
  | nil => rfl
  | cons c cs ih =>
    obtain ⟨t, ht, he⟩ := h c (by simp)
    obtain ⟨-, hn, -⟩ := su2Type_cases ht
    have e1 : (c :: cs).flatMap (·.numbers) = c.code :: ((c.nodes ++ c.extra) ++ cs.flatMap (·.numbers)) := by
      simp [Su2Cell.numbers]
    rw [e1, scanTypes, hn]
    have e2 : c.nodes.length + (e + 1) - 1 = (c.nodes ++ c.extra).length := by simp [he]
    simp only [e2, scanTypes_skip, ih (fun c' hc' => h c' (by simp [hc']))]
    rfl

/-- Cells with the position of their first number. -/
def annot : Nat → List Su2Cell → List (Su2Cell × Nat)
  | _, [] => []
  | r, c :: cs => (c, r) :: annot (r + c.numbers.length) cs

theorem annot_fst (r : Nat) (cs : List Su2Cell) : (annot r cs).map (·.1) = cs := by
  induction cs generalizing r with
  | nil => rfl
  | cons c cs ih => rw [annot, List.map_cons, ih]

theorem annot_mem (cs : List Su2Cell) (pre : List Int) :
    ∀ co ∈ annot pre.length cs, ∃ p q : List Int, pre ++ cs.flatMap (·.numbers) = p ++ (co.1.numbers ++ q) ∧
      p.length = co.2 ∧ co.1 ∈ cs := by
  induction cs generalizing pre with
  | nil => simp [annot]
  | cons c cs ih =>
    intro co hco
    rw [annot] at hco
    rcases List.mem_cons.1 hco with rfl | hco
    · exact ⟨pre, cs.flatMap (·.numbers), by simp, rfl, by simp⟩
    · rw [show pre.length + c.numbers.length = (pre ++ c.numbers).length by simp] at hco
      obtain ⟨p, q, h1, h2, h3⟩ := ih _ co hco
      exact ⟨p, q, by rw [← h1]; simp, h2, by simp [h3]⟩

theorem zip_offsets (e : Nat) (cs : List Su2Cell) (h : ∀ c ∈ cs, c.Ok e) (r : Nat) :
    (cs.map (·.code)).zip (offsets r ((cs.map (·.code)).map fun x => (numNodes x).getD 0 + (e + 1))) =
      (annot r cs).map fun co => (co.1.code, co.2) := by
  induction cs generalizing r with
  | nil => rfl
  | cons c cs ih =>
    obtain ⟨t, ht, he⟩ := h c (by simp)
    obtain ⟨-, hn, -⟩ := su2Type_cases ht
    simp only [List.map_cons, offsets, hn, Option.getD_some, List.zip_cons_cons, annot]
    rw [ih (fun c' hc' => h c' (by simp [hc']))]
    simp only [Su2Cell.numbers, List.length_cons, List.length_append, he]
    congr 4

theorem cellsOf_ok (e : Nat) (cs : List Su2Cell) (h : ∀ c ∈ cs, c.Ok e) (x : Int) (hx : x ∈ cs.map (·.code)) :
    cellsOf (cs.flatMap (·.numbers)) ((annot 0 cs).map fun co => (co.1.code, co.2)) x =
      .ok (((su2Type x).map (·.1)).getD "", (cs.filter fun c => decide (c.code = x)).map (·.nodes)) := by
  obtain ⟨c0, hc0, rfl⟩ := List.mem_map.1 hx
  obtain ⟨t, ht, -⟩ := h c0 hc0
  obtain ⟨-, hn, htn⟩ := su2Type_cases ht
  unfold cellsOf
  rw [hn, htn, ht]
  simp only
  have e1 : (((annot 0 cs).map fun co => (co.1.code, co.2)).filter fun p => decide (p.1 = c0.code)).map (·.2) =
      ((annot 0 cs).filter fun co => decide (co.1.code = c0.code)).map (·.2) := by
    rw [List.filter_map, List.map_map]
    rfl
  have e2 : (cs.filter fun c => decide (c.code = c0.code)).map (·.nodes) =
      ((annot 0 cs).filter fun co => decide (co.1.code = c0.code)).map (·.1.nodes) := by
    conv => lhs; rw [← annot_fst 0 cs]
    rw [List.filter_map, List.map_map]
    rfl
  rw [e1, e2, Xdmf.mapRes_map, mapRes_ok_of_forall (g := fun co : Su2Cell × Nat => co.1.nodes)]
  · rfl
  · intro co hco
    rw [List.mem_filter, decide_eq_true_eq] at hco
    obtain ⟨p, q, h1, h2, h3⟩ := annot_mem cs [] co hco.1
    rw [List.nil_append] at h1
    obtain ⟨t', ht', -⟩ := h _ h3
    rw [hco.2, ht] at ht'
    have hlen : c0.nodes.length = co.1.nodes.length := by
      simp only [Option.some.injEq, Prod.mk.injEq] at ht'
      exact ht'.2
    rw [hlen, h1, ← h2]
    have key : ∀ j : Nat, (hj : j < co.1.nodes.length) →
        npIndex (p ++ (co.1.numbers ++ q)) ((p.length + 1 + j : Nat) : Int) = .ok co.1.nodes[j] := by
      intro j hj
      have := npIndex_append p co.1.numbers q (1 + j) (by simp [Su2Cell.numbers]; omega)
      rw [show p.length + (1 + j) = p.length + 1 + j by omega] at this
      rw [this]
      congr 1
      simp only [Su2Cell.numbers, Nat.add_comm 1 j, List.getElem_cons_succ]
      rw [List.getElem_append_left hj]
    rw [mapRes_ok_of_forall (g := fun j => co.1.nodes.getD j 0)]
    · congr 1
      apply List.ext_getElem
      · simp
      · intro i h1 h2
        simp [List.getElem?_eq_getElem h2]
    · intro j hj
      rw [List.mem_range] at hj
      rw [key j hj]
      simp [List.getElem?_eq_getElem hj]

theorem codes_unique (cs : List Su2Cell) (e : Nat) (h : ∀ c ∈ cs, c.Ok e) :
    intUnique (cs.map (·.code)) = su2Codes.filter fun x => decide (x ∈ cs.map (·.code)) := by
  apply intUnique_eq
  · exact List.Pairwise.filter _ (by decide)
  · intro a
    rw [List.mem_filter, decide_eq_true_eq]
    constructor
    · exact fun ha => ha.2
    · intro ha
      refine ⟨?_, ha⟩
      obtain ⟨c, hc, rfl⟩ := List.mem_map.1 ha
      obtain ⟨t, ht, -⟩ := h c hc
      exact (su2Type_cases ht).1

/-- The meaning of a stream of elements. -/
theorem translate_ok (e : Bool) (cs : List Su2Cell) (h : ∀ c ∈ cs, c.Ok (if e then 1 else 0)) :
    translate e (cs.flatMap (·.numbers)) = .ok ((su2Codes.filter fun x => decide (x ∈ cs.map (·.code))).map fun x =>
      (((su2Type x).map (·.1)).getD "", (cs.filter fun c => decide (c.code = x)).map (·.nodes))) := by
  unfold translate
  have he : (if e then 2 else 1) = (if e then 1 else 0) + 1 := by cases e <;> rfl
  simp only [he, scanTypes_stream _ cs h, zip_offsets _ cs h, codes_unique cs _ h]
  apply mapRes_ok_of_forall
  intro x hx
  rw [List.mem_filter, decide_eq_true_eq] at hx
  exact cellsOf_ok _ cs h x hx.2

/-! ## Lines -/

theorem readLine_line (a : List Char) (h : '\n' ∉ a) (ls : List (List Char)) (rest : List Char) :
    readLine (linesText (a :: ls) ++ rest) = (a ++ ['\n'], linesText ls ++ rest) := by
  rw [linesText_cons, List.append_assoc, List.cons_append, readLine_append a _ h]

theorem takeLines_lines (ls : List (List Char)) (h : ∀ a ∈ ls, '\n' ∉ a) (rest : List Char) :
    takeLines ls.length (linesText ls ++ rest) = (ls.map (· ++ ['\n']), rest) := by
  induction ls with
  | nil => rfl
  | cons a ls ih =>
    have hr := readLine_line a (h a (by simp)) ls rest
    have hne : ∃ c s, linesText (a :: ls) ++ rest = c :: s := by
      rw [linesText_cons]
      cases a <;> exact ⟨_, _, rfl⟩
    obtain ⟨c, s, hcs⟩ := hne
    rw [hcs] at hr ⊢
    rw [List.length_cons, takeLines, hr]
    · simp only [ih (fun b hb => h b (by simp [hb])), List.map_cons]
    · simp

theorem scan_step (parse : List Char → Option F) (n : Nat) (w t : List Char) (hw : ∀ c ∈ w, isWs c = true) (ht : IsTok t)
    (x : F) (hx : parse t = some x) (c : Char) (hc : isWs c = true) (s : List Char) :
    scan parse (n + 1) (w ++ (t ++ c :: s)) = (x :: (scan parse n (c :: s)).1, (scan parse n (c :: s)).2) := by
  have e1 : (w ++ (t ++ c :: s)).dropWhile isWs = t ++ c :: s := by
    rw [List.dropWhile_append_of_pos hw]
    apply dropWhile_head_not
    intro d hd
    obtain ⟨hne, hws⟩ := ht
    cases t with
    | nil => exact absurd rfl hne
    | cons a t => simp only [List.cons_append, List.head?_cons, Option.some.injEq] at hd; subst hd; exact hws a (by simp)
  have e2 : (t ++ c :: s).takeWhile (fun c => !isWs c) = t := by
    rw [List.takeWhile_append_of_pos (by intro d hd; simp [ht.2 d hd])]
    simp [hc]
  have e3 : (t ++ c :: s).dropWhile (fun c => !isWs c) = c :: s := by
    rw [List.dropWhile_append_of_pos (by intro d hd; simp [ht.2 d hd])]
    simp [hc]
  rw [scan]
  simp only [e1, e2, e3, hx]
  rw [if_neg (by simp)]

theorem scan_row (fio : FloatIO F) (xs : List F) (hne : xs ≠ []) (w : List Char) (hw : ∀ c ∈ w, isWs c = true) (n : Nat)
    (s : List Char) : scan fio.parse (xs.length + n) (w ++ (joinWith ' ' (xs.map fio.fmt) ++ '\n' :: s)) =
      (xs ++ (scan fio.parse n ('\n' :: s)).1, (scan fio.parse n ('\n' :: s)).2) := by
  induction xs generalizing w with
  | nil => exact absurd rfl hne
  | cons x xs ih =>
    cases xs with
    | nil =>
      rw [show [x].length + n = n + 1 by simp; omega]
      exact scan_step fio.parse n w _ hw (fio.tok x) x (fio.parse_fmt x) '\n' (by decide) s
    | cons y ys =>
      have ih := ih (by simp) [' '] (by intro c hc; simp at hc; subst hc; decide)
      have e : joinWith ' ' ((x :: y :: ys).map fio.fmt) ++ '\n' :: s =
          fio.fmt x ++ ' ' :: (joinWith ' ' ((y :: ys).map fio.fmt) ++ '\n' :: s) := by
        simp [joinWith]
      rw [e, show (x :: y :: ys).length + n = ((y :: ys).length + n) + 1 by simp; omega,
        scan_step fio.parse _ w _ hw (fio.tok x) x (fio.parse_fmt x) ' ' (by decide)]
      simp only [List.cons_append, List.nil_append] at ih
      rw [ih]
      rfl

/-- `np.fromfile` over whole rows stops before the last newline. -/
theorem scan_rows (fio : FloatIO F) (rows : List (List F)) (hne : ∀ r ∈ rows, r ≠ []) (w : List Char)
    (hw : ∀ c ∈ w, isWs c = true) (rest : List Char) :
    scan fio.parse rows.flatten.length (w ++ (linesText (rows.map fun r => joinWith ' ' (r.map fio.fmt)) ++ rest)) =
      (rows.flatten, if rows = [] then w ++ rest else '\n' :: rest) := by
  induction rows generalizing w with
  | nil => simp [scan, linesText]
  | cons r rows ih =>
    rw [List.flatten_cons, List.length_append, List.map_cons, linesText_cons, List.append_assoc, List.cons_append,
      scan_row fio r (hne r (by simp)) w hw]
    have := ih (fun r' h' => hne r' (by simp [h'])) ['\n'] (by intro c hc; simp at hc; subst hc; decide)
    rw [List.cons_append, List.nil_append] at this
    rw [this]
    cases rows <;> simp

/-! ## Sections -/

/-- `a` is read from the state `st` to the state `st'` in at most as many turns as it has characters. -/
def Reads (fio : FloatIO F) (a : List Char) (st st' : St F) : Prop :=
  ∃ k, k ≤ a.length ∧ ∀ n rest, readLoop fio (k + n) st (a ++ rest) = readLoop fio n st' rest

theorem Reads.nil (fio : FloatIO F) (st : St F) : Reads fio [] st st := ⟨0, by simp, fun n _ => by simp⟩

theorem Reads.append {fio : FloatIO F} {a b : List Char} {st st' st'' : St F} (h : Reads fio a st st')
    (h' : Reads fio b st' st'') : Reads fio (a ++ b) st st'' := by
  obtain ⟨k, hk, h⟩ := h
  obtain ⟨k', hk', h'⟩ := h'
  refine ⟨k + k', by simp; omega, fun n rest => ?_⟩
  rw [Nat.add_assoc, List.append_assoc, h, h']

theorem turn {fio : FloatIO F} {line s s' : List Char} {st st' : St F} (hl : '\n' ∉ line)
    (h : readSection fio st (line ++ ['\n']) s = .ok (st', s')) (n : Nat) :
    readLoop fio (n + 1) st (line ++ '\n' :: s) = readLoop fio n st' s' := by
  have hr := readLine_append line s hl
  cases hcs : line ++ '\n' :: s with
  | nil => simp at hcs
  | cons c t =>
    rw [hcs] at hr
    rw [readLoop, hr]
    simp only [h]

theorem reads_one {fio : FloatIO F} {line : List Char} {ls : List (List Char)} {st st' : St F} (hl : '\n' ∉ line)
    (h : ∀ rest, readSection fio st (line ++ ['\n']) (linesText ls ++ rest) = .ok (st', rest)) :
    Reads fio (linesText (line :: ls)) st st' := by
  refine ⟨1, by rw [linesText_cons]; simp; omega, fun n rest => ?_⟩
  rw [linesText_cons, List.append_assoc, List.cons_append, Nat.add_comm 1 n]
  exact turn hl (h rest) n

/-- The keyword and the rest of a line. -/
theorem head_line (key v : List Char) (hk : IsTok key) (he : '=' ∉ key) (hp : key.head? ≠ some '%') (hv : IsTok v) (hve : '=' ∉ v) :
    strip ((key ++ '=' :: ' ' :: v) ++ ['\n']) ≠ [] ∧ (strip ((key ++ '=' :: ' ' :: v) ++ ['\n'])).head? ≠ some '%' ∧
    splitOnC '=' (strip ((key ++ '=' :: ' ' :: v) ++ ['\n'])) = [key, ' ' :: v] ∧ '\n' ∉ key ++ '=' :: ' ' :: v := by
  have hkt : IsTok (key ++ ['=']) := ⟨by simp, by
    intro c hc
    rcases List.mem_append.1 hc with hc | hc
    · exact hk.2 c hc
    · rw [List.mem_singleton] at hc; subst hc; decide⟩
  have e : key ++ '=' :: ' ' :: v = joinWith ' ' [key ++ ['='], v] := by simp [joinWith]
  have hs : strip ((key ++ '=' :: ' ' :: v) ++ ['\n']) = key ++ '=' :: ' ' :: v := by
    rw [e]
    exact strip_line_nl _ (by intro t ht; simp at ht; rcases ht with rfl | rfl <;> assumption)
  rw [hs]
  refine ⟨by simp, ?_, ?_, ?_⟩
  · cases key with
    | nil => exact absurd rfl hk.1
    | cons c k => simpa using hp
  · rw [splitOnC_append_sep '=' key _ he, splitOnC_not_mem]
    simp [hve]
  · simp only [List.mem_append, List.mem_cons, not_or]
    exact ⟨hk.no_newline, by decide, by decide, hv.no_newline⟩

theorem pyInt_tok (v : List Char) (hv : IsTok v) : pyInt (' ' :: v) = match parseInt v with
    | some i => .ok i
    | none => .error .valueError := by
  have : strip (' ' :: v) = v := by
    have h1 : strip (' ' :: v) = strip v := by
      unfold strip
      rw [List.dropWhile_cons, if_pos (by decide)]
    rw [h1]
    have := strip_line' [v] (by simpa using hv)
    simpa [joinWith] using this
  unfold pyInt
  rw [this]
  rfl

theorem pyInt_nat (n : Nat) : pyInt (' ' :: fmtNat n) = .ok (n : Int) := by
  rw [pyInt_tok _ (isTok_fmtNat n), show parseInt (fmtNat n) = some (n : Int) from parseInt_fmtInt (n : Int)]

theorem not_eq_fmtNat (n : Nat) : '=' ∉ fmtNat n := not_mem_fmtInt (by decide) (by decide) (n : Int)

/-- The elements of a section. -/
theorem readElems_ok (tag : Int) (e : Nat) (he : e ≤ 1) (cs : List Su2Cell) (hne : cs ≠ []) (h : ∀ c ∈ cs, c.Ok e)
    (rest : List Char) :
    readElems tag (' ' :: fmtNat cs.length) (linesText (su2ElemLines cs) ++ rest) = .ok (su2Groups tag cs, rest) := by
  have htoks : ∀ c ∈ cs, ∀ t ∈ c.numbers.map fmtInt, IsTok t := by
    intro c _ t ht
    obtain ⟨z, -, rfl⟩ := List.mem_map.1 ht
    exact isTok_fmtInt z
  have hlen : (su2ElemLines cs).length = cs.length := by simp [su2ElemLines]
  have htl := takeLines_lines (su2ElemLines cs) (by
    intro a ha
    obtain ⟨c, hc, rfl⟩ := List.mem_map.1 ha
    exact no_newline_line _ (htoks c hc)) rest
  rw [hlen] at htl
  have hsw : ∀ c ∈ cs, splitWs (joinWith ' ' (c.numbers.map fmtInt) ++ ['\n']) = c.numbers.map fmtInt :=
    fun c hc => splitWs_line _ (htoks c hc)
  have hdata : mapRes (num parseInt) (((su2ElemLines cs).map (· ++ ['\n'])).flatMap splitWs) = .ok (cs.flatMap (·.numbers)) := by
    have : ((su2ElemLines cs).map (· ++ ['\n'])).flatMap splitWs = (cs.flatMap (·.numbers)).map fmtInt := by
      clear htl hlen hne h
      unfold su2ElemLines
      induction cs with
      | nil => rfl
      | cons c cs ih =>
        simp only [List.map_cons, List.flatMap_cons, List.map_append]
        rw [hsw c (by simp), ← ih (fun c' h' => htoks c' (by simp [h'])) (fun c' h' => hsw c' (by simp [h']))]
    rw [this, Xdmf.mapRes_map, mapRes_ok_of_forall (g := id), List.map_id]
    intro z _
    simp [num, parseInt_fmtInt]
  unfold readElems
  rw [pyInt_nat]
  simp only
  rw [if_neg (by omega), show ((cs.length : Nat) : Int).toNat = cs.length by omega, htl]
  cases cs with
  | nil => exact absurd rfl hne
  | cons c cs =>
    obtain ⟨t, ht, hel⟩ := h c (by simp)
    obtain ⟨-, hn, -⟩ := su2Type_cases ht
    have hx : extraColumn (c.numbers.map fmtInt) = .ok (decide (e = 1)) := by
      unfold extraColumn
      simp only [Su2Cell.numbers, List.map_cons, parseInt_fmtInt, hn, List.length_cons, List.length_map, List.length_append, hel]
      by_cases h1 : e = 1
      · subst h1
        rw [if_neg (by omega), if_pos (by omega)]; rfl
      · have : e = 0 := by omega
        subst this
        rw [if_pos (by omega)]; rfl
    have htr := translate_ok (decide (e = 1)) (c :: cs) (by
      intro c' hc'
      have := h c' hc'
      by_cases h1 : e = 1
      · simpa [h1] using this
      · have h0 : e = 0 := by omega
        simpa [h0] using this)
    simp only [su2ElemLines, List.map_cons] at hdata ⊢
    simp only [hsw c (by simp), hx, hdata, htr]
    simp [su2Groups]

/-! ## The lines of a file -/

theorem head_lit (lit key v : List Char) (hl : lit = key ++ ['=', ' ']) (hk : IsTok key) (he : '=' ∉ key) (hp : key.head? ≠ some '%')
    (hv : IsTok v) (hve : '=' ∉ v) :
    strip ((lit ++ v) ++ ['\n']) ≠ [] ∧ (strip ((lit ++ v) ++ ['\n'])).head? ≠ some '%' ∧
    splitOnC '=' (strip ((lit ++ v) ++ ['\n'])) = [key, ' ' :: v] ∧ '\n' ∉ lit ++ v := by
  have e : lit ++ v = key ++ '=' :: ' ' :: v := by rw [hl]; simp
  rw [e]
  exact head_line key v hk he hp hv hve

theorem reads_ndime (fio : FloatIO F) (dim : Nat) (hd : dim = 2 ∨ dim = 3) (st : St F) :
    Reads fio (linesText ["NDIME= ".toList ++ fmtNat dim]) st { st with dim := dim } := by
  obtain ⟨h1, h2, h3, h4⟩ := head_lit "NDIME= ".toList "NDIME".toList (fmtNat dim) (by decide) (Ply.isTok_lit (by decide)) (by decide) (by decide)
    (isTok_fmtNat dim) (not_eq_fmtNat dim)
  refine reads_one (ls := []) h4 (fun rest => ?_)
  unfold readSection
  rw [if_neg h1, if_neg h2, h3]
  simp only
  rw [if_pos trivial, pyInt_nat]
  simp only
  rw [if_neg (by omega)]
  rfl

theorem reads_nmark (fio : FloatIO F) (n : Nat) (st : St F) :
    Reads fio (linesText ["NMARK= ".toList ++ fmtNat n]) st st := by
  obtain ⟨h1, h2, h3, h4⟩ := head_lit "NMARK= ".toList "NMARK".toList (fmtNat n) (by decide) (Ply.isTok_lit (by decide)) (by decide) (by decide)
    (isTok_fmtNat n) (not_eq_fmtNat n)
  refine reads_one (ls := []) h4 (fun rest => ?_)
  unfold readSection
  rw [if_neg h1, if_neg h2, h3]
  simp only
  rw [if_neg (by decide), if_neg (by decide), if_neg (by decide), if_neg (by decide), if_pos trivial, pyInt_nat]
  rfl

theorem reads_nelem (fio : FloatIO F) (e : Nat) (he : e ≤ 1) (cs : List Su2Cell) (hne : cs ≠ []) (h : ∀ c ∈ cs, c.Ok e)
    (st : St F) : Reads fio (linesText (("NELEM= ".toList ++ fmtNat cs.length) :: su2ElemLines cs)) st
      { st with cells := st.cells ++ su2Groups 0 cs } := by
  obtain ⟨h1, h2, h3, h4⟩ := head_lit "NELEM= ".toList "NELEM".toList (fmtNat cs.length) (by decide) (Ply.isTok_lit (by decide)) (by decide) (by decide)
    (isTok_fmtNat _) (not_eq_fmtNat _)
  refine reads_one h4 (fun rest => ?_)
  unfold readSection
  rw [if_neg h1, if_neg h2, h3]
  simp only
  rw [if_neg (by decide), if_neg (by decide), if_pos trivial, readElems_ok 0 e he cs hne h]

theorem reads_melem (fio : FloatIO F) (e : Nat) (he : e ≤ 1) (cs : List Su2Cell) (hne : cs ≠ []) (h : ∀ c ∈ cs, c.Ok e)
    (st : St F) : Reads fio (linesText (("MARKER_ELEMS= ".toList ++ fmtNat cs.length) :: su2ElemLines cs)) st
      { st with cells := st.cells ++ su2Groups st.tag cs } := by
  obtain ⟨h1, h2, h3, h4⟩ := head_lit "MARKER_ELEMS= ".toList "MARKER_ELEMS".toList (fmtNat cs.length) (by decide) (Ply.isTok_lit (by decide)) (by decide) (by decide)
    (isTok_fmtNat _) (not_eq_fmtNat _)
  refine reads_one h4 (fun rest => ?_)
  unfold readSection
  rw [if_neg h1, if_neg h2, h3]
  simp only
  rw [if_neg (by decide), if_neg (by decide), if_neg (by decide), if_pos trivial, readElems_ok st.tag e he cs hne h]

theorem reads_tag (fio : FloatIO F) (m : Su2Marker) (hm : IsTok m.name) (hme : '=' ∉ m.name) (st : St F) :
    Reads fio (linesText ["MARKER_TAG= ".toList ++ m.name]) st { st with tag := su2Tag st.tag m } := by
  obtain ⟨h1, h2, h3, h4⟩ := head_lit "MARKER_TAG= ".toList "MARKER_TAG".toList m.name (by decide) (Ply.isTok_lit (by decide)) (by decide) (by decide) hm hme
  refine reads_one (ls := []) h4 (fun rest => ?_)
  unfold readSection
  rw [if_neg h1, if_neg h2, h3]
  simp only
  rw [if_neg (by decide), if_neg (by decide), if_neg (by decide), if_neg (by decide), if_neg (by decide), if_pos trivial,
    pyInt_tok _ hm]
  unfold su2Tag
  cases parseInt m.name <;> rfl

/-- Markers as they can be written. -/
def MarkerOk (m : Su2Marker) : Prop := IsTok m.name ∧ '=' ∉ m.name ∧ m.cells ≠ [] ∧ ∃ e ≤ 1, ∀ c ∈ m.cells, c.Ok e

/-- The tag after all markers. -/
def lastTag : Int → List Su2Marker → Int
  | t, [] => t
  | t, m :: ms => lastTag (su2Tag t m) ms

theorem reads_markers (fio : FloatIO F) (ms : List Su2Marker) (h : ∀ m ∈ ms, MarkerOk m) (st : St F) :
    Reads fio (linesText (ms.flatMap su2MarkerLines)) st
      { st with cells := st.cells ++ su2Markers st.tag ms, tag := lastTag st.tag ms } := by
  induction ms generalizing st with
  | nil =>
    have : { st with cells := st.cells ++ su2Markers st.tag [], tag := lastTag st.tag [] } = st := by
      simp [su2Markers, lastTag]
    rw [this]
    exact Reads.nil fio st
  | cons m ms ih =>
    obtain ⟨h1, h2, h3, e, he, h4⟩ := h m (by simp)
    have e1 : linesText ((m :: ms).flatMap su2MarkerLines) = linesText ["MARKER_TAG= ".toList ++ m.name] ++
        (linesText (("MARKER_ELEMS= ".toList ++ fmtNat m.cells.length) :: su2ElemLines m.cells) ++
          linesText (ms.flatMap su2MarkerLines)) := by
      rw [← linesText_append, ← linesText_append]
      rfl
    rw [e1]
    have := (reads_tag fio m h1 h2 st).append ((reads_melem fio e he m.cells h3 h4 _).append (ih (fun m' h' => h m' (by simp [h'])) _))
    simpa [su2Markers, lastTag] using this

theorem reads_points (fio : FloatIO F) (dim : Nat) (pts : List (List F)) (hne : pts ≠ []) (w : Nat) (hw : ∀ p ∈ pts, p.length = w)
    (hdw : dim ≤ w) (hd : 0 < dim) (st : St F) (hst : st.dim = dim) :
    Reads fio (linesText (("NPOIN= ".toList ++ fmtNat pts.length) :: pts.map fun p => joinWith ' ' (p.map fio.fmt))) st
      { st with points := some (pts.map (·.take dim)) } := by
  obtain ⟨h1, h2, h3, h4⟩ := head_lit "NPOIN= ".toList "NPOIN".toList (fmtNat pts.length) (by decide) (Ply.isTok_lit (by decide)) (by decide) (by decide)
    (isTok_fmtNat _) (not_eq_fmtNat _)
  cases pts with
  | nil => exact absurd rfl hne
  | cons p ps =>
    have hp := hw p (by simp)
    have hps : ∀ q ∈ ps, q.length = w := fun q hq => hw q (by simp [hq])
    have htoks : ∀ t ∈ p.map fio.fmt, IsTok t := by
      intro t ht
      obtain ⟨x, -, rfl⟩ := List.mem_map.1 ht
      exact fio.tok x
    have key : ∀ rest, readSection fio st (("NPOIN= ".toList ++ fmtNat (p :: ps).length) ++ ['\n'])
        (linesText ((p :: ps).map fun p => joinWith ' ' (p.map fio.fmt)) ++ rest) =
          .ok ({ st with points := some ((p :: ps).map (·.take dim)) }, if ps = [] then rest else '\n' :: rest) := by
      intro rest
      unfold readSection
      rw [if_neg h1, if_neg h2, h3]
      simp only
      rw [if_neg (by decide), if_pos trivial]
      unfold readPoints
      rw [List.map_cons, readLine_line _ (no_newline_line _ htoks)]
      simp only [splitWs_line _ htoks]
      rw [Xdmf.mapRes_map, mapRes_ok_of_forall (g := id) (h := by intro x _; simp [num, fio.parse_fmt]), List.map_id]
      have hsp : splitWs (' ' :: fmtNat (p :: ps).length) = [fmtNat (p :: ps).length] := by
        rw [splitWs_ws (by decide), splitWs_tok (isTok_fmtNat _)]
      have hpi : parseInt (fmtNat (p :: ps).length) = some (((p :: ps).length : Nat) : Int) :=
        parseInt_fmtInt (((p :: ps).length : Nat) : Int)
      simp only [hsp, hpi]
      have hn : (((p :: ps).length : Int) - 1).toNat = ps.length := by simp
      rw [if_neg (by rw [List.length_cons]; omega), hn, hp]
      have hsc := scan_rows fio ps (by
        intro r hr e
        have := hps r hr
        rw [e] at this
        simp at this
        omega) [] (by simp) rest
      rw [length_flatten_const w ps hps, List.nil_append] at hsc
      rw [hsc]
      simp only [reshape_flatten w ps hps, hst]
      by_cases hlt : (dim : Int) < (w : Int)
      · rw [if_pos hlt]; rfl
      · rw [if_neg hlt]
        have hdw' : dim = w := by omega
        have : (p :: ps).map (·.take dim) = p :: ps := by
          conv => rhs; rw [← List.map_id (p :: ps)]
          apply List.map_congr_left
          intro q hq
          rw [hdw', ← hw q hq, List.take_length]; rfl
        rw [this]; rfl
    refine ⟨if ps = [] then 1 else 2, ?_, fun n rest => ?_⟩
    · rw [linesText_cons]
      have : ("NPOIN= ".toList).length = 7 := by decide
      simp only [List.length_append, List.length_cons, this]
      split <;> omega
    · rw [linesText_cons, List.append_assoc, List.cons_append]
      by_cases hps0 : ps = []
      · have := turn h4 (key rest) n
        simp only [if_pos hps0] at this ⊢
        rw [Nat.add_comm 1 n]
        exact this
      · have := turn h4 (key rest) (n + 1)
        simp only [if_neg hps0] at this ⊢
        rw [show 2 + n = n + 1 + 1 by omega]
        refine this.trans ?_
        refine turn (line := []) (by simp) ?_ n
        unfold readSection
        rw [if_pos (by decide)]

/-- A file is read as what it means. -/
theorem read_ok (fio : FloatIO F) (dim : Nat) (hd : dim = 2 ∨ dim = 3) (pts : List (List F)) (hne : pts ≠ []) (w : Nat)
    (hw : ∀ p ∈ pts, p.length = w) (hdw : dim ≤ w) (inner : List Su2Cell) (hi : inner ≠ []) (e : Nat) (he : e ≤ 1)
    (hc : ∀ c ∈ inner, c.Ok e) (ms : List Su2Marker) (hm : ∀ m ∈ ms, MarkerOk m) :
    Su2.read fio (linesText (su2Lines fio dim pts inner ms)) =
      .ok (pts.map (·.take dim), merge (outerTypes dim) (su2Groups 0 inner ++ su2Markers 0 ms)) := by
  have e1 : linesText (su2Lines fio dim pts inner ms) =
      linesText ["NDIME= ".toList ++ fmtNat dim] ++
      (linesText (("NPOIN= ".toList ++ fmtNat pts.length) :: pts.map fun p => joinWith ' ' (p.map fio.fmt)) ++
      (linesText (("NELEM= ".toList ++ fmtNat inner.length) :: su2ElemLines inner) ++
      (linesText ["NMARK= ".toList ++ fmtNat ms.length] ++ linesText (ms.flatMap su2MarkerLines)))) := by
    rw [← linesText_append, ← linesText_append, ← linesText_append, ← linesText_append]
    unfold su2Lines
    simp
  obtain ⟨k, hk, h⟩ := (reads_ndime fio dim hd { dim := 0, points := none, cells := [], tag := 0 }).append
    ((reads_points fio dim pts hne w hw hdw (by omega) _ rfl).append ((reads_nelem fio e he inner hi hc _).append
      ((reads_nmark fio ms.length _).append (reads_markers fio ms hm _))))
  rw [← e1] at hk h
  obtain ⟨n, hn⟩ := Nat.exists_eq_add_of_le hk
  have h' := h n []
  rw [List.append_nil, ← hn] at h'
  unfold Su2.read
  rw [h']
  cases n <;>
  · rw [readLoop]
    simp only [List.nil_append]
    congr 3
    unfold outerTypes
    rcases hd with rfl | rfl <;> rfl

end Meshio.Su2
