/-
Lemmas about reading PERMAS files.
-/
import Verif.Spec.Permas
import Verif.Base.Words
import Verif.Proofs.Types
import Verif.Proofs.Common
namespace Meshio
namespace Permas
open Types Tables Spec

variable {F : Type}

theorem words_split {line : List Char} {t : List Char} {ts : List (List Char)} (h : IsWords line (t :: ts)) (ht : ∀ x ∈ t :: ts, IsTok x) :
    splitOnC ' ' (strip (line ++ ['\n'])) = t :: ts := by
  rw [strip_nl', h.1]
  exact splitOnC_line t ts ht

/-- A line of words starts with none of the characters the first word does not contain. -/
theorem words_head {line t : List Char} {ts : List (List Char)} (h : IsWords line (t :: ts)) (ht : t ≠ []) {c : Char}
    (hc : isWs c = false) (hct : c ∉ t) : startsC c (line ++ ['\n']) = false := by
  unfold startsC
  cases line with
  | nil =>
    simp only [List.nil_append, List.head?_cons, beq_eq_false_iff_ne, ne_eq, Option.some.injEq]
    rintro rfl
    cases hc
  | cons d line =>
    simp only [List.cons_append, List.head?_cons, beq_eq_false_iff_ne, ne_eq, Option.some.injEq]
    rintro rfl
    have h1 := h.1
    obtain ⟨e, t', rfl⟩ := List.exists_cons_of_ne_nil ht
    have hh : (strip (d :: line)).head? = some d := by rw [strip_head hc]
    rw [h1] at hh
    have : (joinWith ' ' ((e :: t') :: ts)).head? = some e := by
      cases ts <;> rfl
    rw [this] at hh
    cases hh
    exact hct (by simp)

theorem startsC_line {c : Char} {l : List Char} (h : l.head? = some c) : startsC c (l ++ ['\n']) = true := by
  unfold startsC
  cases l with
  | nil => cases h
  | cons d l => cases h; simp

theorem floats_ok (parse : List Char → Option F) (fmt : F → List Char) (h : ∀ x, parse (fmt x) = some x) (xs : List F) :
    floats parse (xs.map fmt) = .ok xs := by
  induction xs with
  | nil => rfl
  | cons x xs ih => rw [List.map_cons, floats, h]; simp only; rw [ih]

/-- The nodes are read up to a line that starts with one of the two signs. -/
theorem readNodes_ok (io : FloatIO F) (rows : List (List Char × Int × List F))
    (h : ∀ r ∈ rows, IsWords r.1 (fmtInt r.2.1 :: r.2.2.map io.fmt)) (l : List Char)
    (hl : startsC '!' l = true ∨ startsC '$' l = true) (rest : List (List Char)) :
    readNodes io.parse (rows.map (fun r => r.1 ++ ['\n']) ++ l :: rest) = .ok (rows.map (·.2), l :: rest) := by
  induction rows with
  | nil => rw [List.map_nil, List.nil_append, readNodes, if_pos (by simpa using hl)]; rfl
  | cons r rows ih =>
    have hr := h r (by simp)
    have ht : ∀ x ∈ fmtInt r.2.1 :: r.2.2.map io.fmt, IsTok x := by
      intro x hx
      rcases List.mem_cons.1 hx with rfl | hx
      · exact isTok_fmtInt _
      · obtain ⟨y, -, rfl⟩ := List.mem_map.1 hx
        exact io.tok y
    rw [List.map_cons, List.cons_append, readNodes, if_neg (by
      rw [words_head hr (fmtInt_ne_nil _) (by decide) (not_mem_fmtInt (by decide) (by decide) _),
        words_head hr (fmtInt_ne_nil _) (by decide) (not_mem_fmtInt (by decide) (by decide) _)]
      simp), words_split hr ht]
    simp only [List.headD_cons, List.tail_cons]
    rw [parseInt_fmtInt]
    simp only
    rw [floats_ok io.parse io.fmt io.parse_fmt]
    simp only
    rw [ih fun r hr => h r (by simp [hr])]
    rfl

theorem node_ok (gids : List Int) (hn : gids.Nodup) (k : Int) (hk : k ∈ gids) :
    node gids (fmtInt k) = .ok ((gids.idxOf k : Nat) : Int) := by
  unfold node
  rw [parseInt_fmtInt]
  simp only
  have hi := List.idxOf_lt_length_iff.2 hk
  have := idGet_getElem gids hn _ hi
  rw [List.getElem_idxOf hi] at this
  rw [this]

theorem readRows_row (gids : List Int) (line : List Char) (id : Int) (ks : List Int)
    (h : IsWords line (fmtInt id :: ks.map fmtInt)) (ls : List (List Char)) :
    readRows gids [] ((line ++ ['\n']) :: ls) =
      match mapRes (node gids) (ks.map fmtInt) with
      | .error e => .error e
      | .ok new =>
        match readRows gids [] ls with
        | .error e => .error e
        | .ok r => .ok (new :: r.1, r.2) := by
  have ht : ∀ x ∈ fmtInt id :: ks.map fmtInt, IsTok x := by
    intro x hx
    rcases List.mem_cons.1 hx with rfl | hx
    · exact isTok_fmtInt _
    · obtain ⟨y, -, rfl⟩ := List.mem_map.1 hx
      exact isTok_fmtInt y
  have hf : (ks.map fmtInt).filter (fun x => decide (x ≠ [])) = ks.map fmtInt := by
    rw [List.filter_eq_self]
    intro x hx
    exact decide_eq_true (ht x (by simp [hx])).1
  have hlast : ¬ (strip (line ++ ['\n'])).getLast? = some '!' := by
    rw [strip_nl', h.1]
    intro e
    refine not_mem_joinWith (c := '!') (d := ' ') (by decide) _ ?_ (List.mem_of_getLast? e)
    intro t ht
    rcases List.mem_cons.1 ht with rfl | ht
    · exact not_mem_fmtInt (by decide) (by decide) _
    · obtain ⟨y, -, rfl⟩ := List.mem_map.1 ht
      exact not_mem_fmtInt (by decide) (by decide) _
  rw [readRows, if_neg (by
    rw [words_head h (fmtInt_ne_nil _) (by decide) (not_mem_fmtInt (by decide) (by decide) _)]; simp), words_split h ht]
  simp only [List.tail_cons]
  rw [hf]
  cases mapRes (node gids) (ks.map fmtInt) with
  | error e => rfl
  | ok new =>
    simp only [List.nil_append]
    rw [if_neg hlast]
    rfl

theorem mapRes_map {α β γ : Type} (f : β → Res γ) (g : α → β) (l : List α) : mapRes f (l.map g) = mapRes (fun a => f (g a)) l := by
  induction l with
  | nil => rfl
  | cons a l ih => rw [List.map_cons, mapRes, mapRes, ih]

theorem readRows_marks (gids : List Int) (k : Nat) (ls : List (List Char)) :
    readRows gids [] (List.replicate k ['!', '\n'] ++ ls) = readRows gids [] ls := by
  induction k with
  | zero => rfl
  | succ k ih =>
    rw [List.replicate_succ, List.cons_append, readRows, if_neg (by decide),
      show (splitOnC ' ' (strip ['!', '\n'])).tail.filter (fun x => decide (x ≠ [])) = [] by decide]
    simp only [mapRes, List.append_nil]
    rw [if_pos (by decide), ih]

/-- Cells are read up to a dollar sign or the end. -/
theorem readRows_ok (gids : List Int) (hn : gids.Nodup) (rows : List (List Char × Int × List Int))
    (h : ∀ r ∈ rows, IsWords r.1 (fmtInt r.2.1 :: r.2.2.map fmtInt) ∧ ∀ k ∈ r.2.2, k ∈ gids) (k : Nat)
    (rest : List (List Char)) (hr : ∀ l, rest.head? = some l → startsC '$' l = true) :
    readRows gids [] (rows.map (fun r => r.1 ++ ['\n']) ++ (List.replicate k ['!', '\n'] ++ rest)) =
      .ok (rows.map (fun r => r.2.2.map fun k => ((gids.idxOf k : Nat) : Int)), rest) := by
  induction rows with
  | nil =>
    rw [List.map_nil, List.nil_append, readRows_marks]
    cases rest with
    | nil => rfl
    | cons l rest => rw [readRows, if_pos (hr l rfl)]; rfl
  | cons r rows ih =>
    obtain ⟨h1, h2⟩ := h r (by simp)
    rw [List.map_cons, List.cons_append, readRows_row gids r.1 r.2.1 r.2.2 h1, ih fun r hr => h r (by simp [hr])]
    have : mapRes (node gids) (r.2.2.map fmtInt) = .ok (r.2.2.map fun k => ((gids.idxOf k : Nat) : Int)) := by
      rw [mapRes_map]
      exact mapRes_ok_of_forall fun k hk => node_ok gids hn k (h2 k hk)
    rw [this]
    rfl

/-! ### Keywords -/

theorem keyword_line (l : List Char) : keyword (l ++ ['\n']) = (l.dropWhile (· == '$')).map Char.toUpper ++ ['\n'] := by
  unfold keyword stripDollar
  have : (l ++ ['\n']).dropWhile (· == '$') = l.dropWhile (· == '$') ++ ['\n'] := by
    rw [List.dropWhile_append]
    by_cases h : (l.dropWhile (· == '$')).isEmpty
    · rw [if_pos h, List.isEmpty_iff.1 h]; rfl
    · rw [if_neg h]
  rw [this, List.reverse_append]
  show List.map Char.toUpper ((List.dropWhile (· == '$') ('\n' :: (l.dropWhile (· == '$')).reverse)).reverse) = _
  rw [List.dropWhile_cons_of_neg (by decide)]
  simp

theorem prefix_nl {w x : List Char} (hw : '\n' ∉ w) (h : w <+: x ++ ['\n']) : w <+: x := by
  obtain ⟨u, hu⟩ := h
  rcases List.append_eq_append_iff.1 hu with ⟨a, h1, h2⟩ | ⟨a, h1, h2⟩
  · exact ⟨a, h1.symm⟩
  · cases a with
    | nil => rw [h1]; simp
    | cons c a =>
      simp only [List.cons_append, List.cons.injEq] at h2
      exfalso
      apply hw
      rw [h1, h2.1]
      simp

theorem other_not_prefix {l : List Char} (h : IsOther l) (w : String) (hw : w ∈ ["COOR", "ELEMENT", "NSET", "ESET"]) :
    w.toList.isPrefixOf (keyword (l ++ ['\n'])) = false := by
  rw [Bool.eq_false_iff]
  intro e
  rw [List.isPrefixOf_iff_prefix, keyword_line] at e
  refine h.2.2 w hw (prefix_nl ?_ e)
  exact (by decide : ∀ w ∈ ["COOR", "ELEMENT", "NSET", "ESET"], '\n' ∉ w.toList) w hw

theorem readLoop_other (parse : List Char → Option F) (fuel : Nat) (st : St F) (l : List Char) (h : IsOther l) (ls : List (List Char)) :
    readLoop parse (fuel + 1) st ((l ++ ['\n']) :: ls) = readLoop parse fuel st ls := by
  have hb : startsC '!' (l ++ ['\n']) = false := by
    have := h.2.1
    cases l with
    | nil => cases this
    | cons c l => cases this; rfl
  rw [readLoop, hb]
  simp only [Bool.false_eq_true, if_false]
  rw [other_not_prefix h "COOR" (by simp), other_not_prefix h "ELEMENT" (by simp), other_not_prefix h "NSET" (by simp),
    other_not_prefix h "ESET" (by simp)]
  simp

theorem readLoop_comment (parse : List Char → Option F) (fuel : Nat) (st : St F) (l : List Char) (h : l.head? = some '!')
    (ls : List (List Char)) : readLoop parse (fuel + 1) st ((l ++ ['\n']) :: ls) = readLoop parse fuel st ls := by
  rw [readLoop, if_pos (startsC_line h)]

theorem readLoop_nil (parse : List Char → Option F) (fuel : Nat) (st : St F) : readLoop parse fuel st [] = .ok st := by
  cases fuel <;> rfl

/-! ### The line of a section -/

theorem splitOn_type (name : List Char) (hname : ' ' ∉ name ∧ '=' ∉ name) (hs : strip name = name) (t : String)
    (hf : find permasToMeshio (String.ofList name) = some t) (o : List Char) (ho : o = [] ∨ o.head? = some ' ') :
    typeOfLine ("ELEMENT TYPE=".toList ++ name ++ o ++ ['\n']) = .ok t := by
  have key : ∀ w r, (w = [] ∨ w = ['\n']) → (splitOnC ' ' ("ELEMENT TYPE=".toList ++ name ++ o ++ ['\n'])).tail =
      ("TYPE=".toList ++ name ++ w) :: r → typeOfLine ("ELEMENT TYPE=".toList ++ name ++ o ++ ['\n']) = .ok t := by
    intro w r hw e
    unfold typeOfLine
    rw [e]
    simp only
    rw [if_pos ((hasSub_iff _ _).2 ⟨[], '=' :: (name ++ w), by simp⟩)]
    have hnw : '=' ∉ name ++ w := by
      intro hm
      rcases List.mem_append.1 hm with hm | hm
      · exact hname.2 hm
      · rcases hw with rfl | rfl <;> simp at hm
    rw [show "TYPE=".toList ++ name ++ w = "TYPE".toList ++ '=' :: (name ++ w) by simp,
      splitOnC_append_sep _ _ _ (by decide), splitOnC_not_mem _ _ hnw]
    simp only [List.tail_cons]
    have : strip (name ++ w) = name := by
      rcases hw with rfl | rfl
      · rw [List.append_nil, hs]
      · rw [strip_nl', hs]
    rw [this, hf]
  rw [show "ELEMENT TYPE=".toList ++ name ++ o ++ ['\n'] = "ELEMENT".toList ++ ' ' :: ("TYPE=".toList ++ name ++ o ++ ['\n']) by simp]
    at key ⊢
  have hn : ∀ w, (w = [] ∨ w = ['\n']) → ' ' ∉ "TYPE=".toList ++ name ++ w := by
    intro w hw hm
    simp only [List.mem_append] at hm
    rcases hm with (hm | hm) | hm
    · revert hm; decide
    · exact hname.1 hm
    · rcases hw with rfl | rfl <;> simp at hm
  rcases ho with rfl | ho
  · refine key ['\n'] [] (.inr rfl) ?_
    rw [splitOnC_append_sep _ _ _ (by decide), List.append_nil, splitOnC_not_mem _ _ (hn _ (.inr rfl))]
    rfl
  · obtain ⟨o', rfl⟩ : ∃ o', o = ' ' :: o' := by
      cases o with
      | nil => cases ho
      | cons c o => cases ho; exact ⟨o, rfl⟩
    refine key [] (splitOnC ' ' (o' ++ ['\n'])) (.inl rfl) ?_
    rw [splitOnC_append_sep _ _ _ (by decide)]
    simp only [List.tail_cons, List.append_nil]
    rw [show "TYPE=".toList ++ name ++ ' ' :: o' ++ ['\n'] = ("TYPE=".toList ++ name) ++ ' ' :: (o' ++ ['\n']) by simp,
      splitOnC_append_sep _ _ _ (by simpa using hn [] (.inl rfl))]

/-- What the table says about the names. -/
theorem names_ok {name t : String} {n : Nat} (h : (name, t, n) ∈ permasNames) :
    (' ' ∉ name.toList ∧ '=' ∉ name.toList) ∧ strip name.toList = name.toList ∧ name.toList.map Char.toUpper = name.toList ∧
      find permasToMeshio name = some t ∧ (Dict.get? topologicalDimension t).isSome = true ∧ '\n' ∉ name.toList :=
  (by decide +kernel : ∀ a ∈ permasNames, (' ' ∉ a.1.toList ∧ '=' ∉ a.1.toList) ∧ strip a.1.toList = a.1.toList ∧
    a.1.toList.map Char.toUpper = a.1.toList ∧ find permasToMeshio a.1 = some a.2.1 ∧
    (Dict.get? topologicalDimension a.2.1).isSome = true ∧ '\n' ∉ a.1.toList) _ h

theorem keyword_element {name t : String} {n : Nat} (h : (name, t, n) ∈ permasNames) (o : List Char) :
    keyword (("$ELEMENT TYPE=".toList ++ name.toList ++ o) ++ ['\n']) =
      "ELEMENT TYPE=".toList ++ name.toList ++ o.map Char.toUpper ++ ['\n'] := by
  rw [keyword_line]
  have : ("$ELEMENT TYPE=".toList ++ name.toList ++ o).dropWhile (· == '$') = "ELEMENT TYPE=".toList ++ (name.toList ++ o) := by
    rw [List.append_assoc]
    generalize name.toList ++ o = x
    rfl
  rw [this, List.map_append, List.map_append, (names_ok h).2.2.1, show "ELEMENT TYPE=".toList.map Char.toUpper = "ELEMENT TYPE=".toList
    by decide]
  simp

theorem element_prefix (x : List Char) : ¬ startsC '!' ("$ELEMENT TYPE=".toList ++ x) = true ∧
    "COOR".toList.isPrefixOf ("ELEMENT TYPE=".toList ++ x) = false ∧
    "ELEMENT".toList.isPrefixOf ("ELEMENT TYPE=".toList ++ x) = true := ⟨by simp [startsC], rfl, rfl⟩

theorem checkBlock_ok (t : String) (ht : (Dict.get? topologicalDimension t).isSome = true) (rows : List (List Int)) (n : Nat)
    (h : ∀ r ∈ rows, r.length = n) : Mdpa.checkBlock (t, rows) = .ok () := by
  unfold Mdpa.checkBlock
  rw [if_pos (by
    rw [List.all_eq_true]
    intro r hr
    refine decide_eq_true ?_
    rw [h r hr]
    cases rows with
    | nil => cases hr
    | cons a rows => exact (h a (by simp)).symm)]
  cases hd : Dict.get? topologicalDimension t with
  | none => rw [hd] at ht; cases ht
  | some d => rfl

/-- A section of cells, given how its rows are read. -/
theorem readLoop_cells (parse : List Char → Option F) (fuel : Nat) (nodes : List (Int × List F)) (cells : List (String × List (List Int)))
    {name t : String} {n : Nat} (h : (name, t, n) ∈ permasNames) (o : List Char) (ho : o = [] ∨ o.head? = some ' ')
    (ls : List (List Char)) :
    readLoop parse (fuel + 1) ⟨some nodes, cells⟩ ((("$ELEMENT TYPE=".toList ++ name.toList ++ o) ++ ['\n']) :: ls) =
      match readRows (nodes.map (·.1)) [] ls with
      | .error e => .error e
      | .ok r =>
        match Mdpa.checkBlock (t, r.1) with
        | .error e => .error e
        | .ok _ => readLoop parse fuel ⟨some nodes, cells ++ [(t, r.1)]⟩ r.2 := by
  obtain ⟨h1, h2, -, h4, -, -⟩ := names_ok h
  have ho' : o.map Char.toUpper = [] ∨ (o.map Char.toUpper).head? = some ' ' := by
    rcases ho with rfl | ho
    · exact .inl rfl
    · right
      rw [List.head?_map, ho]; rfl
  have hty := splitOn_type name.toList h1 h2 t (by rw [String.ofList_toList]; exact h4) _ ho'
  rw [readLoop, keyword_element h o, hty]
  generalize hx : name.toList ++ o.map Char.toUpper ++ ['\n'] = x
  rw [show "ELEMENT TYPE=".toList ++ name.toList ++ o.map Char.toUpper ++ ['\n'] = "ELEMENT TYPE=".toList ++ x by
    rw [← hx]; simp only [List.append_assoc]]
  rw [show "$ELEMENT TYPE=".toList ++ name.toList ++ o ++ ['\n'] = "$ELEMENT TYPE=".toList ++ (name.toList ++ o ++ ['\n']) by
    simp only [List.append_assoc], if_neg (element_prefix _).1, (element_prefix _).2.1, (element_prefix _).2.2]
  rfl

theorem lines_head (numbers : List Int) (p : PermasPart) (hp : p.Ok numbers) : ∃ l ls, p.lines = l :: ls ∧
    ((∃ c, p = .comment c) ∨ l.head? = some '$') ∧ (l.head? = some '!' ∨ l.head? = some '$') := by
  cases p with
  | comment l => exact ⟨l, [], rfl, .inl ⟨l, rfl⟩, .inl hp.1⟩
  | other l => exact ⟨l, [], rfl, .inr hp.2.1, .inr hp.2.1⟩
  | cells name t o rows k => exact ⟨_, _, rfl, .inr rfl, .inr rfl⟩

/-- Parts after the nodes. -/
theorem readLoop_parts (io : FloatIO F) (nodes : List (Int × List F)) (hn : (nodes.map (·.1)).Nodup) (ps : List PermasPart)
    (hc : permasParts ps) (hp : ∀ p ∈ ps, p.Ok (nodes.map (·.1))) (cells : List (String × List (List Int))) (fuel : Nat)
    (rest : List (List Char)) (hrest : ∀ l, rest.head? = some l → startsC '$' l = true) :
    readLoop io.parse (ps.length + fuel) ⟨some nodes, cells⟩ ((ps.flatMap (·.lines)).map (· ++ ['\n']) ++ rest) =
      readLoop io.parse fuel ⟨some nodes, cells ++ ps.filterMap (·.block (nodes.map (·.1)))⟩ rest := by
  induction ps generalizing cells with
  | nil => rw [List.flatMap_nil, List.map_nil, List.filterMap_nil, List.append_nil, List.length_nil, Nat.zero_add, List.nil_append]
  | cons p ps ih =>
    have hps : ∀ p ∈ ps, p.Ok (nodes.map (·.1)) := fun q hq => hp q (by simp [hq])
    have hc' : permasParts ps := by
      cases p with
      | comment l => cases ps <;> exact hc
      | other l => cases ps <;> exact hc
      | cells name t o rows k =>
        cases ps with
        | nil => trivial
        | cons q ps => cases q <;> first | exact hc | exact absurd hc id
    rw [show (p :: ps).length + fuel = (ps.length + fuel) + 1 by simp; omega, List.flatMap_cons, List.map_append, List.append_assoc]
    cases p with
    | comment l =>
      show readLoop _ _ _ ((l ++ ['\n']) :: _) = _
      rw [readLoop_comment _ _ _ _ (hp (.comment l) (by simp)).1]
      exact ih hc' hps cells
    | other l =>
      show readLoop _ _ _ ((l ++ ['\n']) :: _) = _
      rw [readLoop_other _ _ _ _ (hp (.other l) (by simp))]
      exact ih hc' hps cells
    | cells name t o rows k =>
      obtain ⟨ho, hnl, n, hname, hrows⟩ := hp (.cells name t o rows k) (by simp)
      have e : (PermasPart.cells name t o rows k).lines.map (· ++ ['\n']) =
          (("$ELEMENT TYPE=".toList ++ name.toList ++ o) ++ ['\n']) :: (rows.map (fun r => r.1 ++ ['\n']) ++
            List.replicate k ['!', '\n']) := by
        simp [PermasPart.lines, Function.comp_def]
      rw [e, List.cons_append, List.append_assoc (rows.map _), readLoop_cells io.parse _ nodes cells hname o ho,
        readRows_ok (nodes.map (·.1)) hn rows (fun r hr => ⟨(hrows r hr).1, (hrows r hr).2.2⟩) k _ (by
          intro l hl
          cases ps with
          | nil => exact hrest l hl
          | cons q ps =>
            obtain ⟨l', ls', h1, h2, -⟩ := lines_head _ q (hps q (by simp))
            rw [List.flatMap_cons, h1] at hl
            simp only [List.cons_append, List.map_cons, List.head?_cons, Option.some.injEq] at hl
            rcases h2 with ⟨c, rfl⟩ | h2
            · exact absurd hc id
            · rw [← hl]
              exact startsC_line h2)]
      simp only
      rw [checkBlock_ok t (names_ok hname).2.2.2.2.1 _ n (by
        intro r hr
        obtain ⟨q, hq, rfl⟩ := List.mem_map.1 hr
        rw [List.length_map]
        exact (hrows q hq).2.1)]
      simp only
      refine (ih hc' hps _).trans ?_
      rw [List.filterMap_cons]
      simp only [List.append_assoc, List.singleton_append, PermasPart.block]

theorem readLoop_before (parse : List Char → Option F) (before : List (List Char))
    (h : ∀ l ∈ before, IsOther l ∨ (l.head? = some '!' ∧ '\n' ∉ l)) (st : St F) (fuel : Nat) (ls : List (List Char)) :
    readLoop parse (before.length + fuel) st (before.map (· ++ ['\n']) ++ ls) = readLoop parse fuel st ls := by
  induction before with
  | nil => rw [List.length_nil, Nat.zero_add]; rfl
  | cons l before ih =>
    rw [show (l :: before).length + fuel = (before.length + fuel) + 1 by simp; omega, List.map_cons, List.cons_append]
    rcases h l (by simp) with hl | hl
    · rw [readLoop_other _ _ _ _ hl, ih fun l hl => h l (by simp [hl])]
    · rw [readLoop_comment _ _ _ _ hl.1, ih fun l hl => h l (by simp [hl])]

theorem words_line {line : List Char} {ws : List (List Char)} (h : IsWords line ws) : '\n' ∉ line := h.2

theorem parts_lines (numbers : List Int) (p : PermasPart) (h : p.Ok numbers) : ∀ l ∈ p.lines, '\n' ∉ l := by
  intro l hl
  cases p with
  | comment c => rw [List.mem_singleton.1 hl]; exact h.2
  | other c => rw [List.mem_singleton.1 hl]; exact h.1
  | cells name t o rows k =>
    obtain ⟨-, hnl, n, hname, hrows⟩ := h
    simp only [PermasPart.lines, List.mem_append, List.mem_cons, List.mem_map, List.mem_replicate] at hl
    rcases hl with (rfl | ⟨r, hr, rfl⟩) | ⟨-, rfl⟩
    · intro hm
      simp only [List.mem_append] at hm
      rcases hm with (hm | hm) | hm
      · revert hm; decide
      · exact (names_ok hname).2.2.2.2.2 hm
      · exact hnl hm
    · exact (hrows r hr).1.2
    · decide

theorem length_parts (numbers : List Int) (ps : List PermasPart) (h : ∀ p ∈ ps, p.Ok numbers) :
    ps.length ≤ (ps.flatMap (·.lines)).length := by
  induction ps with
  | nil => simp
  | cons p ps ih =>
    have := ih fun p hp => h p (by simp [hp])
    obtain ⟨l, ls, e, -⟩ := lines_head _ p (h p (by simp))
    rw [List.flatMap_cons, e]
    simp only [List.cons_append, List.length_cons, List.length_append]; omega

theorem file_lines (io : FloatIO F) (f : PermasFile F) (h : f.Ok io.fmt) : ∀ l ∈ f.lines, '\n' ∉ l := by
  intro l hl
  simp only [PermasFile.lines, List.mem_append, List.mem_singleton] at hl
  rcases hl with ((hl | rfl) | hl) | hl
  · rcases h.before l hl with h | h
    · exact h.1
    · exact h.2
  · decide
  · obtain ⟨r, hr, rfl⟩ := List.mem_map.1 hl
    exact (h.nodes r hr).2
  · obtain ⟨p, hp, hl⟩ := List.mem_flatMap.1 hl
    exact parts_lines _ p (h.parts.2.2 p hp) l hl

theorem hids (f : PermasFile F) : (f.nodes.map (·.2)).map (·.1) = f.nodes.map (·.2.1) := by rw [List.map_map]; rfl

/-- The file with further lines. -/
theorem readLoop_file (io : FloatIO F) (f : PermasFile F) (h : f.Ok io.fmt) (rest : List (List Char))
    (hrest : ∀ l, rest.head? = some l → l.head? = some '$') :
    ∃ k, rest.length < k ∧
      readLoop io.parse (((f.lines ++ rest).map (· ++ ['\n'])).length + 1) ⟨none, []⟩ ((f.lines ++ rest).map (· ++ ['\n'])) =
        readLoop io.parse k ⟨some (f.nodes.map (·.2)), f.cells⟩ (rest.map (· ++ ['\n'])) := by
  have e : (f.lines ++ rest).map (· ++ ['\n']) = f.before.map (· ++ ['\n']) ++ (("$COOR".toList ++ ['\n']) ::
      (f.nodes.map (fun r => r.1 ++ ['\n']) ++ ((f.parts.flatMap (·.lines)).map (· ++ ['\n']) ++ rest.map (· ++ ['\n'])))) := by
    simp only [PermasFile.lines, List.map_append, List.map_cons, List.append_assoc, List.singleton_append, List.map_map]
    rfl
  have hle := length_parts _ _ h.parts.2.2
  refine ⟨f.nodes.length + ((f.parts.flatMap (·.lines)).length - f.parts.length) + rest.length + 1, by omega, ?_⟩
  have hlen : ((f.lines ++ rest).map (· ++ ['\n'])).length + 1 =
      f.before.length + ((f.parts.length + (f.nodes.length + ((f.parts.flatMap (·.lines)).length - f.parts.length) + rest.length + 1)) + 1) := by
    rw [e]; simp only [List.length_append, List.length_map, List.length_cons]; omega
  rw [hlen, e, readLoop_before _ _ h.before]
  have hk : keyword ("$COOR".toList ++ ['\n']) = "COOR\n".toList := by decide
  rw [readLoop, if_neg (by decide), hk, if_pos (by decide)]
  obtain ⟨p, ps, hps⟩ := List.exists_cons_of_ne_nil h.parts.1
  obtain ⟨l, ls, hl1, -, hl2⟩ := lines_head _ p (h.parts.2.2 p (by rw [hps]; simp))
  have hcons : (f.parts.flatMap (·.lines)).map (· ++ ['\n']) ++ rest.map (· ++ ['\n']) =
      (l ++ ['\n']) :: ((ls ++ ps.flatMap (·.lines)).map (· ++ ['\n']) ++ rest.map (· ++ ['\n'])) := by
    rw [hps, List.flatMap_cons, hl1]; rfl
  rw [hcons, readNodes_ok io f.nodes h.nodes _ (by
    rcases hl2 with h | h
    · exact .inl (startsC_line h)
    · exact .inr (startsC_line h)), ← hcons]
  simp only
  obtain ⟨d, hd⟩ := h.dim
  have hrect : rectangular ((f.nodes.map (·.2)).map (·.2)) = true := by
    unfold rectangular
    rw [List.all_eq_true]
    intro r hr
    have hr' : ∀ r ∈ (f.nodes.map (·.2)).map (·.2), r.length = d := by
      intro r hr
      rw [List.map_map] at hr
      obtain ⟨q, hq, rfl⟩ := List.mem_map.1 hr
      exact hd q hq
    rw [beq_iff_eq, hr' r hr]
    cases hx : (f.nodes.map (·.2)).map (·.2) with
    | nil => rw [hx] at hr; cases hr
    | cons a as => exact (hr' a (by rw [hx]; simp)).symm
  rw [if_pos hrect, readLoop_parts io (f.nodes.map (·.2)) (by rw [hids]; exact h.distinct) f.parts h.parts.2.1
    (by rw [hids]; exact h.parts.2.2) _ _ _ (by
      intro l hl
      rw [List.head?_map] at hl
      obtain ⟨l', h1, rfl⟩ := Option.map_eq_some_iff.1 hl
      exact startsC_line (hrest l' h1))]
  simp only [List.nil_append, hids]
  rfl

/-- The whole file. -/
theorem read_ok (io : FloatIO F) (f : PermasFile F) (h : f.Ok io.fmt) :
    Permas.read io.parse (linesText f.lines) = .ok ⟨f.nodes.map (·.2.2), f.cells⟩ := by
  unfold Permas.read
  rw [fileLines_linesText' _ (file_lines io f h)]
  obtain ⟨k, -, hk⟩ := readLoop_file io f h [] (by simp)
  rw [List.append_nil] at hk
  rw [hk, List.map_nil, readLoop_nil]
  simp only [List.map_map]
  rfl

end Permas
end Meshio
