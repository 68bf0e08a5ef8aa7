/-
Helper lemmas for Gmsh files: lines, ends of sections, names, data.
-/
import Verif.Model.Gmsh
import Verif.Spec.Gmsh22
import Verif.Proofs.Runs
import Verif.Proofs.Types
namespace Meshio.Gmsh
open Meshio Types Tables

variable {F : Type}

theorem nl_ws : ∀ c ∈ ['\n'], isWs c = true := by
  intro c hc
  simp only [List.mem_singleton] at hc
  subst hc
  decide

theorem strip_tok {t : List Char} (h : IsTok t) : strip (t ++ ['\n']) = t :=
  strip_trim (fun c hc => h.2 c (List.mem_of_mem_head? hc)) (fun c hc => h.2 c (List.mem_of_getLast? hc)) _ nl_ws

theorem isTok_cons {c : Char} {t : List Char} (hc : isWs c = false) (h : IsTok t) : IsTok (c :: t) := by
  refine ⟨by simp, ?_⟩
  intro d hd
  rcases List.mem_cons.1 hd with rfl | hd
  · exact hc
  · exact h.2 d hd

theorem isTok_append {s t : List Char} (hs : IsTok s) (h : IsTok t) : IsTok (s ++ t) := by
  refine ⟨by simp [hs.1], ?_⟩
  intro d hd
  rcases List.mem_append.1 hd with hd | hd
  · exact hs.2 d hd
  · exact h.2 d hd

theorem isTok_end (t : List Char) (h : IsTok t) : IsTok ("$End".toList ++ t) := isTok_append ⟨by decide, by decide⟩ h

theorem tok_no_nl {t : List Char} (h : IsTok t) : '\n' ∉ t := fun hm => absurd (h.2 _ hm) (by decide)

/-! ### Ends of sections -/

theorem fastForwardF_ge (block : List Char) (n m : Nat) (s : List Char) (hn : s.length ≤ n) (hm : s.length ≤ m) :
    fastForwardF block n s = fastForwardF block m s := by
  induction n generalizing m s with
  | zero =>
    have : s = [] := List.length_eq_zero_iff.1 (by omega)
    subst this
    cases m with
    | zero => rfl
    | succ m => rw [fastForwardF, fastForwardF, if_pos rfl]
  | succ n ih =>
    cases m with
    | zero =>
      have : s = [] := List.length_eq_zero_iff.1 (by omega)
      subst this
      rw [fastForwardF, fastForwardF, if_pos rfl]
    | succ m =>
      rw [fastForwardF, fastForwardF]
      by_cases hs : s = []
      · rw [if_pos hs, if_pos hs]
      · rw [if_neg hs, if_neg hs]
        have := length_readLine s hs
        rw [ih m _ (by omega) (by omega)]

theorem fastForward_step (block a s : List Char) (ha : '\n' ∉ a) (h : strip (a ++ ['\n']) ≠ "$End".toList ++ block) :
    fastForward block (a ++ '\n' :: s) = fastForward block s := by
  unfold fastForward
  rw [show (a ++ '\n' :: s).length = (a ++ s).length + 1 by simp; omega, fastForwardF, if_neg (by simp),
    readLine_append a s ha]
  simp only
  rw [if_neg h]
  exact fastForwardF_ge _ _ _ _ (by simp) (by simp)

theorem fastForward_end (block s : List Char) (h : IsTok block) :
    fastForward block (linesText ["$End".toList ++ block] ++ s) = s := by
  have ht := isTok_end block h
  generalize hb : "$End".toList ++ block = b at *
  have e : linesText [b] ++ s = b ++ '\n' :: s := by simp [linesText]
  rw [e]
  unfold fastForward
  rw [show (b ++ '\n' :: s).length = (b ++ s).length + 1 by simp; omega, fastForwardF, if_neg (by simp),
    readLine_append b s (tok_no_nl ht)]
  simp only
  rw [strip_tok ht, hb, if_pos rfl]

theorem fastForward_lines (block : List Char) (hb : IsTok block) (ls : List (List Char))
    (h : ∀ l ∈ ls, '\n' ∉ l ∧ strip (l ++ ['\n']) ≠ "$End".toList ++ block) (s : List Char) :
    fastForward block (linesText ls ++ (linesText ["$End".toList ++ block] ++ s)) = s := by
  induction ls with
  | nil => exact fastForward_end block s hb
  | cons l ls ih =>
    rw [linesText_cons, List.append_assoc, List.cons_append,
      fastForward_step _ _ _ (h l (by simp)).1 (h l (by simp)).2]
    exact ih fun l' hl' => h l' (by simp [hl'])

/-- The newline left after numbers. -/
theorem fastForward_nl (block : List Char) (hb : IsTok block) (s : List Char) :
    fastForward block ('\n' :: (linesText ["$End".toList ++ block] ++ s)) = s := by
  have := fastForward_lines block hb [[]] (by
    intro l hl
    simp only [List.mem_singleton] at hl
    subst hl
    refine ⟨by simp, ?_⟩
    intro e
    have h2 : strip ([] ++ ['\n']) = [] := by decide
    rw [h2] at e
    exact absurd e.symm (isTok_end block hb).1) s
  simpa [linesText] using this

/-! ### The next line -/

theorem nextLineF_line (a s : List Char) (ha : '\n' ∉ a) (h : strip (a ++ ['\n']) ≠ []) (n : Nat) :
    nextLineF (n + 1) (a ++ '\n' :: s) = some (a ++ ['\n'], s) := by
  rw [nextLineF, if_neg (by simp), readLine_append a s ha]
  simp only
  rw [if_pos h]

theorem nextLine_line (a s : List Char) (ha : '\n' ∉ a) (h : strip (a ++ ['\n']) ≠ []) :
    nextLine (a ++ '\n' :: s) = some (a ++ ['\n'], s) := by
  unfold nextLine
  rw [show (a ++ '\n' :: s).length = (a ++ s).length + 1 by simp; omega]
  exact nextLineF_line a s ha h _

theorem nextLine_nil : nextLine [] = none := rfl

/-! ### Numbers on lines -/

theorem toInt_fmt (i : Int) : toInt (fmtInt i) = .ok i := by
  unfold toInt
  have : strip (fmtInt i) = fmtInt i := by
    have := strip_line' [fmtInt i] (by intro t ht; simp at ht; subst ht; exact isTok_fmtInt i)
    simpa [joinWith] using this
  rw [this, parseInt_fmtInt]

theorem toInt_fmt_nl (i : Int) : toInt (fmtInt i ++ ['\n']) = .ok i := by
  unfold toInt
  rw [strip_tok (isTok_fmtInt i), parseInt_fmtInt]

theorem intLine_fmt (i : Int) (s : List Char) : intLine (fmtInt i ++ '\n' :: s) = .ok (i, s) := by
  unfold intLine
  rw [readLine_append _ _ (tok_no_nl (isTok_fmtInt i))]
  simp only
  rw [toInt_fmt_nl]

theorem intLine_nat (n : Nat) (s : List Char) : intLine (fmtNat n ++ '\n' :: s) = .ok ((n : Int), s) := intLine_fmt n s

theorem linesN_lines {β : Type} (g : List Char → Res β) (ls : List (List Char)) (bs : List β) (h : ∀ l ∈ ls, '\n' ∉ l)
    (hg : ls.map (fun l => g (l ++ ['\n'])) = bs.map .ok) (s : List Char) :
    linesN g ls.length (linesText ls ++ s) = .ok (bs, s) := by
  induction ls generalizing bs with
  | nil =>
    have : bs = [] := by simpa using hg.symm
    subst this
    rfl
  | cons l ls ih =>
    cases bs with
    | nil => simp at hg
    | cons b bs =>
      simp only [List.map_cons, List.cons.injEq] at hg
      rw [List.length_cons, linesN, linesText_cons, List.append_assoc, List.cons_append, readLine_append _ _ (h l (by simp))]
      simp only
      rw [hg.1]
      simp only
      rw [ih bs (fun l' hl' => h l' (by simp [hl'])) hg.2]

theorem mapRes_toInt (l : List Int) : mapRes toInt (l.map fmtInt) = .ok l := by
  induction l with
  | nil => rfl
  | cons i l ih => simp only [List.map_cons, mapRes, toInt_fmt, ih]

theorem splitWs_ints (l : List Int) : splitWs (joinWith ' ' (l.map fmtInt) ++ ['\n']) = l.map fmtInt :=
  splitWs_line _ (by
    intro x hx
    obtain ⟨i, -, rfl⟩ := List.mem_map.1 hx
    exact isTok_fmtInt i)

theorem no_nl_ints (l : List Int) : '\n' ∉ joinWith ' ' (l.map fmtInt) :=
  no_newline_line _ (by
    intro x hx
    obtain ⟨i, -, rfl⟩ := List.mem_map.1 hx
    exact isTok_fmtInt i)

/-! ### Physical names -/

theorem shWs_of_not {c : Char} (h : isWs c = false) : shWs c = false := by
  cases hs : shWs c with
  | false => rfl
  | true =>
    unfold shWs at hs
    simp only [Bool.or_eq_true, decide_eq_true_eq] at hs
    rcases hs with ((rfl | rfl) | rfl) | rfl <;> exact absurd h (by decide)

theorem shlex_plain (t s cur : List Char) (q : Bool) (h : ∀ c ∈ t, shWs c = false ∧ c ≠ '\\' ∧ c ≠ '"' ∧ c ≠ '\'') :
    shlexGo (t ++ s) .word cur q = shlexGo s .word (cur ++ t) q := by
  induction t generalizing cur with
  | nil => simp
  | cons c t ih =>
    obtain ⟨h1, h2, h3, h4⟩ := h c (by simp)
    rw [List.cons_append, shlexGo, if_neg (by simp [h1]), if_neg h2, if_neg (by simp [h3, h4]), ih _ fun d hd => h d (by simp [hd])]
    simp

theorem shlex_int (i : Int) (s : List Char) :
    shlexGo (fmtInt i ++ ' ' :: s) .space [] false =
      match shlexGo s .space [] false with
      | .error e => .error e
      | .ok l => .ok (fmtInt i :: l) := by
  have hp : ∀ c ∈ fmtInt i, shWs c = false ∧ c ≠ '\\' ∧ c ≠ '"' ∧ c ≠ '\'' := by
    intro c hc
    refine ⟨shWs_of_not (isWs_false_of_mem_fmtInt hc), ?_, ?_, ?_⟩ <;>
    · rintro rfl
      exact absurd hc (not_mem_fmtInt (by decide) (by decide) i)
  cases hf : fmtInt i with
  | nil => exact absurd hf (fmtInt_ne_nil i)
  | cons c t =>
    rw [hf] at hp
    obtain ⟨h1, h2, h3, h4⟩ := hp c (by simp)
    rw [List.cons_append, shlexGo, if_neg (by simp [h1]), if_neg h2, if_neg (by simp [h3, h4]),
      shlex_plain t _ [c] false fun d hd => hp d (by simp [hd]), shlexGo, if_pos (by decide)]
    cases shlexGo s .space [] false <;> simp

theorem shlex_quoted (t s cur : List Char) (q : Bool) (h : ∀ c ∈ t, c ≠ '\\' ∧ c ≠ '"') :
    shlexGo (t ++ '"' :: s) (.quote '"') cur q = shlexGo s .word (cur ++ t) true := by
  induction t generalizing cur q with
  | nil => rw [List.nil_append, shlexGo, if_pos rfl, List.append_nil]
  | cons c t ih =>
    obtain ⟨h1, h2⟩ := h c (by simp)
    rw [List.cons_append, shlexGo, if_neg h2, if_neg (by simp [h1]), ih _ _ fun d hd => h d (by simp [hd])]
    simp

theorem nameLine_name (e : Int × Int × List Char) (h : '"' ∉ e.2.2 ∧ '\\' ∉ e.2.2) :
    nameLine (Spec.mshName e ++ ['\n']) = .ok (String.ofList e.2.2, e.2.1, e.1) := by
  obtain ⟨d, n, k⟩ := e
  have e1 : Spec.mshName (d, n, k) ++ ['\n'] = fmtInt d ++ ' ' :: (fmtInt n ++ ' ' :: '"' :: (k ++ '"' :: ['\n'])) := by
    simp [Spec.mshName, joinWith]
  have e2 : shlexGo ('"' :: (k ++ '"' :: ['\n'])) .space [] false = .ok [k] := by
    rw [shlexGo, if_neg (by decide), if_neg (by decide), if_pos (Or.inl rfl), shlex_quoted k _ _ _ (by
      intro c hc
      refine ⟨?_, ?_⟩
      · rintro rfl; exact h.2 hc
      · rintro rfl; exact h.1 hc)]
    rw [shlexGo, if_pos (by decide)]
    simp [shlexGo]
  unfold nameLine shlexSplit
  rw [e1, shlex_int, shlex_int, e2]
  simp only [toInt_fmt]

/-! ### Rows of a number and floats -/

/-- Numbers and floats on a line. -/
def numText (fmt : F → List Char) : Int ⊕ F → List Char
  | .inl i => fmtInt i
  | .inr x => fmt x

def numVal (io : GmshFloat F) : Int ⊕ F → F
  | .inl i => io.ofInt i
  | .inr x => x

theorem scan_numbered (io : GmshFloat F) (fmt : F → List Char) (htok : ∀ x, IsTok (fmt x)) (hp : ∀ x, io.parse (fmt x) = some x)
    (k : Nat) (l : List (Int × List F)) (hk : ∀ ir ∈ l, ir.2.length = k) (hl : ∀ ir ∈ l, ir.1.natAbs < io.lim) (rest : List Char) :
    scan io.parse (l.length * (1 + k)) (linesText (l.map fun ir => joinWith ' ' (fmtInt ir.1 :: ir.2.map fmt)) ++ rest) =
      ((l.map fun ir => io.ofInt ir.1 :: ir.2).flatten, if l = [] then rest else '\n' :: rest) := by
  have key := scan_rows' io.parse (numText fmt) (numVal io) (by
      rintro (i | x)
      · exact isTok_fmtInt i
      · exact htok x)
    (l.map fun ir => Sum.inl ir.1 :: ir.2.map Sum.inr) (by
      intro r hr x hx
      obtain ⟨ir, hir, rfl⟩ := List.mem_map.1 hr
      rcases List.mem_cons.1 hx with rfl | hx
      · exact io.parse_int _ (hl ir hir)
      · obtain ⟨y, -, rfl⟩ := List.mem_map.1 hx
        exact hp y) (by
      intro r hr
      obtain ⟨ir, -, rfl⟩ := List.mem_map.1 hr
      simp) [] (by simp) rest
  have e1 : ((l.map fun ir => (Sum.inl ir.1 :: ir.2.map Sum.inr : List (Int ⊕ F))).map fun r => joinWith ' ' (r.map (numText fmt))) =
      l.map fun ir => joinWith ' ' (fmtInt ir.1 :: ir.2.map fmt) := by
    rw [List.map_map]
    refine List.map_congr_left fun ir _ => ?_
    simp only [Function.comp, List.map_cons, List.map_map, numText]
    congr 2
  have e2 : (l.map fun ir => (Sum.inl ir.1 :: ir.2.map Sum.inr : List (Int ⊕ F))).flatten.length = l.length * (1 + k) := by
    have := length_flatten_const (1 + k) (l.map fun ir => (Sum.inl ir.1 :: ir.2.map Sum.inr : List (Int ⊕ F))) (by
      intro r hr
      obtain ⟨ir, hir, rfl⟩ := List.mem_map.1 hr
      simp only [List.length_cons, List.length_map, hk ir hir]
      omega)
    rw [this, List.length_map]
  have e3 : (l.map fun ir => (Sum.inl ir.1 :: ir.2.map Sum.inr : List (Int ⊕ F))).flatten.map (numVal io) =
      (l.map fun ir => io.ofInt ir.1 :: ir.2).flatten := by
    rw [List.map_flatten, List.map_map]
    congr 1
    refine List.map_congr_left fun ir _ => ?_
    simp only [Function.comp, List.map_cons, List.map_map, numVal]
    congr 1
    exact List.map_id ir.2
  rw [e1, e2, e3] at key
  rw [List.nil_append] at key
  rw [key]
  simp only [List.map_eq_nil_iff, List.nil_append]

theorem reshape_numbered (io : GmshFloat F) (k : Nat) (l : List (Int × List F)) (hk : ∀ ir ∈ l, ir.2.length = k) :
    reshape l.length (1 + k) (l.map fun ir => io.ofInt ir.1 :: ir.2).flatten = .ok (l.map fun ir => io.ofInt ir.1 :: ir.2) := by
  have := reshape_flatten (1 + k) (l.map fun ir => io.ofInt ir.1 :: ir.2) (by
    intro r hr
    obtain ⟨ir, hir, rfl⟩ := List.mem_map.1 hr
    simp only [List.length_cons, hk ir hir]
    omega)
  rwa [List.length_map] at this

theorem length_putF (io : GmshFloat F) (x : F) : (putF io x).length = 8 := by
  rw [putF, length_toChars, io.bytes.len]

theorem getF_putF (io : GmshFloat F) (x : F) : getF io (putF io x) = x := by
  rw [getF, putF, toBytes_toChars, io.bytes.dec_enc]

theorem length_putFs (io : GmshFloat F) (l : List F) : (l.flatMap (putF io)).length = 8 * l.length := by
  induction l with
  | nil => rfl
  | cons x l ih => rw [List.flatMap_cons, List.length_append, length_putF, ih, List.length_cons]; omega

theorem blocks_putFs (io : GmshFloat F) (l : List F) (s : List Char) :
    (blocks 8 l.length (l.flatMap (putF io) ++ s)) = (l.map (putF io), s) := by
  have := blocks_append 8 (l.map (putF io)) (by
    intro x hx
    obtain ⟨y, -, rfl⟩ := List.mem_map.1 hx
    exact length_putF io y) s
  rwa [List.length_map, ← List.flatMap_def] at this

theorem map_getF_putF (io : GmshFloat F) (l : List F) : (l.map (putF io)).map (getF io) = l := by
  rw [List.map_map]
  conv => rhs; rw [← List.map_id l]
  exact List.map_congr_left fun x _ => getF_putF io x

theorem record_put (io : GmshFloat F) (z : Int) (hz : IsInt 4 z) (r : List F) :
    record io r.length (putInt 4 z ++ r.flatMap (putF io)) = (z, r) := by
  unfold record
  rw [List.take_left' (length_putInt 4 z), List.drop_left' (length_putInt 4 z), getInt_putInt 4 z hz]
  have := blocks_putFs io r []
  rw [List.append_nil] at this
  rw [this, map_getF_putF]

theorem readRecords_put (io : GmshFloat F) (k : Nat) (l : List (Int × List F)) (hk : ∀ ir ∈ l, ir.2.length = k)
    (hi : ∀ ir ∈ l, IsInt 4 ir.1) (hn : l.map (·.1) = (List.range l.length).map fun (i : Nat) => (1 + i : Int)) (rest : List Char) :
    readRecords io l.length k ((l.flatMap fun ir => putInt 4 ir.1 ++ ir.2.flatMap (putF io)) ++ rest) = .ok (l.map (·.2), rest) := by
  have hb := blocks_append (4 + 8 * k) (l.map fun ir => putInt 4 ir.1 ++ ir.2.flatMap (putF io)) (by
    intro x hx
    obtain ⟨ir, hir, rfl⟩ := List.mem_map.1 hx
    rw [List.length_append, length_putInt, length_putFs, hk ir hir]) rest
  rw [List.length_map, ← List.flatMap_def] at hb
  have hr : ∀ ir ∈ l, record io k (putInt 4 ir.1 ++ ir.2.flatMap (putF io)) = ir := by
    intro ir hir
    have := record_put io ir.1 (hi ir hir) ir.2
    rw [hk ir hir] at this
    exact this
  unfold readRecords
  simp only
  rw [hb]
  simp only
  rw [List.length_map, if_neg (by simp), List.map_map,
    List.map_congr_left (g := fun ir => ir.1) (fun ir hir => by simp only [Function.comp, hr ir hir]), hn, if_neg (by simp),
    List.map_map, List.map_congr_left (g := fun ir => ir.2) (fun ir hir => by simp only [Function.comp, hr ir hir])]

theorem readRows_put (io : GmshFloat F) (ascii : Bool) (k : Nat) (l : List (Int × List F)) (hk : ∀ ir ∈ l, ir.2.length = k)
    (hl : ascii = true → ∀ ir ∈ l, ir.1.natAbs < io.lim)
    (hb : ascii = false → (∀ ir ∈ l, IsInt 4 ir.1) ∧ l.map (·.1) = (List.range l.length).map fun (i : Nat) => (1 + i : Int))
    (rest : List Char) :
    ∃ w, (w = [] ∨ w = ['\n']) ∧ readRows io ascii l.length k ((if ascii then
        linesText (l.map fun ir => joinWith ' ' (fmtInt ir.1 :: ir.2.map io.repr))
      else (l.flatMap fun ir => putInt 4 ir.1 ++ ir.2.flatMap (putF io)) ++ ['\n']) ++ rest) = .ok (l.map (·.2), w ++ rest) := by
  cases ascii with
  | true =>
    refine ⟨if l = [] then [] else ['\n'], by by_cases h : l = [] <;> simp [h], ?_⟩
    simp only [if_true, readRows]
    rw [scan_numbered io io.repr io.tokRepr io.parse_repr k l hk (hl rfl)]
    simp only
    rw [reshape_numbered io k l hk]
    simp only [List.map_map]
    congr 2
    by_cases h : l = [] <;> simp [h]
  | false =>
    refine ⟨['\n'], Or.inr rfl, ?_⟩
    simp only [Bool.false_eq_true, if_false, readRows]
    rw [List.append_assoc, readRecords_put io k l hk (hb rfl).1 (hb rfl).2]

theorem fastForward_w (block : List Char) (hb : IsTok block) (w : List Char) (hw : w = [] ∨ w = ['\n']) (s : List Char) :
    fastForward block (w ++ (linesText ["$End".toList ++ block] ++ s)) = s := by
  rcases hw with rfl | rfl
  · exact fastForward_end block s hb
  · exact fastForward_nl block hb s

theorem unquote_quoted (name : List Char) (h : '"' ∉ name) : unquote ('"' :: (name ++ ['"']) ++ ['\n']) = name := by
  unfold unquote
  rw [strip_trim (s := '"' :: (name ++ ['"'])) (by
      intro c hc
      simp only [List.head?_cons, Option.some.injEq] at hc
      subst hc
      decide) (by
      intro c hc
      rw [← List.cons_append, List.getLast?_append] at hc
      simp only [List.getLast?_singleton, Option.some_or, Option.some.injEq] at hc
      subst hc
      decide) _ nl_ws]
  have : name.filter (fun c => c ≠ '"') = name := List.filter_eq_self.2 (by
    intro c hc
    simp only [ne_eq, decide_eq_true_eq]
    rintro rfl
    exact h hc)
  rw [List.filter_cons_of_neg (by decide), List.filter_append, this]
  simp

/-- A data section after its first line. -/
def dataBody (io : GmshFloat F) (ascii : Bool) (tag : List Char) (nums : List Int) (d : Spec.MshData F) : List Char :=
  (fmtNat (d.strings.length + 1) ++ ['\n']) ++ (linesText (('"' :: (d.name ++ ['"'])) :: d.strings) ++
    ((fmtNat d.reals.length ++ ['\n']) ++ (linesText d.reals ++ ((fmtNat (d.ints.length + 3) ++ ['\n']) ++
      (linesText ((d.step :: (d.width : Int) :: (d.rows.length : Int) :: d.ints).map fmtInt) ++
    ((if ascii then linesText ((nums.zip d.rows).map fun ir => joinWith ' ' (fmtInt ir.1 :: ir.2.map io.repr))
      else ((nums.zip d.rows).flatMap fun ir => putInt 4 ir.1 ++ ir.2.flatMap (putF io)) ++ ['\n']) ++
      linesText ["$End".toList ++ tag]))))))

theorem dataText_eq (io : GmshFloat F) (ascii : Bool) (tag : List Char) (nums : List Int) (d : Spec.MshData F) (s : List Char) :
    d.text io ascii tag nums ++ s = ('$' :: tag) ++ '\n' :: (dataBody io ascii tag nums d ++ s) := by
  unfold Spec.MshData.text dataBody
  simp only [linesText_append, linesText_cons, List.append_assoc, List.cons_append, List.nil_append, List.map_cons, fmtInt_ofNat]

theorem readData_body (io : GmshFloat F) (ascii : Bool) (tag : List Char) (ht : IsTok tag) (nums : List Int) (d : Spec.MshData F)
    (n : Nat) (hd : d.Ok n) (hn : nums.length = n)
    (hl : ascii = true → ∀ i ∈ nums, i.natAbs < io.lim)
    (hb : ascii = false → (∀ i ∈ nums, IsInt 4 i) ∧ nums = (List.range n).map fun (i : Nat) => (1 + i : Int))
    (dict : Dict (NArr (List F))) (s : List Char) :
    readData io ascii tag dict (dataBody io ascii tag nums d ++ s) = .ok (Dict.set dict (String.ofList d.name) d.array, s) := by
  obtain ⟨⟨hq, hnn⟩, hs, hr, hrows, hw⟩ := hd
  have hlen : (nums.zip d.rows).length = d.rows.length := by rw [List.length_zip]; omega
  have hf : (nums.zip d.rows).map (·.1) = nums := List.map_fst_zip (by omega)
  have hsn : (nums.zip d.rows).map (·.2) = d.rows := List.map_snd_zip (by omega)
  obtain ⟨w, hww, hread⟩ := readRows_put io ascii d.width (nums.zip d.rows)
    (fun ir hir => hw _ (List.of_mem_zip hir).2)
    (fun ha ir hir => hl ha _ (List.of_mem_zip hir).1)
    (fun ha => ⟨fun ir hir => (hb ha).1 _ (List.of_mem_zip hir).1, by rw [hf, hlen, hrows, ← (hb ha).2]⟩)
    (linesText ["$End".toList ++ tag] ++ s)
  rw [hlen, hsn] at hread
  unfold dataBody readData
  simp only [List.append_assoc, List.cons_append, List.nil_append]
  rw [intLine_nat]
  simp only
  have e1 : ((d.strings.length + 1 : Nat) : Int).toNat = (('"' :: (d.name ++ ['"'])) :: d.strings).length := by simp
  rw [e1, linesN_lines (fun l => .ok (unquote l)) (('"' :: (d.name ++ ['"'])) :: d.strings)
    (d.name :: d.strings.map fun l => unquote (l ++ ['\n'])) (by
      intro l hl'
      rcases List.mem_cons.1 hl' with rfl | hl'
      · simp [hnn]
      · exact hs l hl') (by
      simp only [List.map_cons, unquote_quoted d.name hq, List.map_map]
      rfl)]
  simp only
  rw [intLine_nat]
  simp only
  have e2 : ((d.reals.length : Nat) : Int).toNat = d.reals.length := by simp
  rw [e2, linesN_lines (fun _ => .ok ()) d.reals (d.reals.map fun _ => ()) hr (by rw [List.map_map]; rfl)]
  simp only
  rw [intLine_nat]
  simp only
  have e3 : ((d.ints.length + 3 : Nat) : Int).toNat =
      ((d.step :: (d.width : Int) :: (d.rows.length : Int) :: d.ints).map fmtInt).length := by simp; omega
  rw [e3, linesN_lines toInt _ (d.step :: (d.width : Int) :: (d.rows.length : Int) :: d.ints) (by
      intro l hl'
      obtain ⟨i, -, rfl⟩ := List.mem_map.1 hl'
      exact tok_no_nl (isTok_fmtInt i)) (by
      rw [List.map_map]
      exact List.map_congr_left fun i _ => toInt_fmt_nl i)]
  simp only
  rw [if_neg (by omega), Int.toNat_natCast, Int.toNat_natCast]
  rw [hread]
  simp only
  rw [fastForward_w tag ht w hww s]
  unfold Spec.MshData.array
  have : ((d.width : Int) = 1) ↔ d.width = 1 := by omega
  simp only [this]

/-- A section of names after its first line. -/
theorem readNames_lines (fd : Dict (Int × Int)) (l : List (Int × Int × List Char))
    (h : ∀ e ∈ l, '"' ∉ e.2.2 ∧ '\\' ∉ e.2.2 ∧ '\n' ∉ e.2.2) (s : List Char) :
    readNames fd (fmtNat l.length ++ '\n' :: (linesText (l.map Spec.mshName) ++ (linesText ["$EndPhysicalNames".toList] ++ s))) =
      .ok ((l.map fun e => (String.ofList e.2.2, e.2.1, e.1)).foldl (fun fd e => Dict.set fd e.1 e.2) fd, s) := by
  unfold readNames
  rw [intLine_nat]
  simp only
  have e2 : ((l.length : Nat) : Int).toNat = (l.map Spec.mshName).length := by simp
  rw [e2, linesN_lines nameLine _ (l.map fun e => (String.ofList e.2.2, e.2.1, e.1)) (by
    intro x hx
    obtain ⟨e, he, rfl⟩ := List.mem_map.1 hx
    unfold Spec.mshName
    refine not_mem_joinWith (by decide) _ ?_
    intro t ht
    simp only [List.mem_cons, List.not_mem_nil, or_false] at ht
    rcases ht with rfl | rfl | rfl
    · exact tok_no_nl (isTok_fmtInt _)
    · exact tok_no_nl (isTok_fmtInt _)
    · simp [(h e he).2.2]) (by
    rw [List.map_map, List.map_map]
    refine List.map_congr_left fun e he => ?_
    exact nameLine_name e ⟨(h e he).1, (h e he).2.1⟩)]
  simp only
  have := fastForward_end "PhysicalNames".toList s ⟨by decide, by decide⟩
  rw [show "$EndPhysicalNames".toList = "$End".toList ++ "PhysicalNames".toList by decide, this]

end Meshio.Gmsh
