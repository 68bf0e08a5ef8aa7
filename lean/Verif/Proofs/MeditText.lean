/-
Lemmas for Medit text files.
-/
import Verif.Proofs.Medit
import Verif.Base.Scan

namespace Meshio
namespace Medit
open Types Tables Spec.Medit

variable {F : Type}

theorem lines_blank (io : Bool → NumIO F) (n : Nat) (s : List Char) (st : St F) :
    lines io (n + 1) ('\n' :: s) st = lines io n s st := by
  rw [lines]
  rw [if_neg (List.cons_ne_nil _ _)]
  have : readLine ('\n' :: s) = (['\n'], s) := by simp [readLine]
  simp only [this]
  rw [if_pos (Or.inl (by decide))]

theorem lines_comment (io : Bool → NumIO F) (n : Nat) (t s : List Char) (ht : '\n' ∉ t) (st : St F) :
    lines io (n + 1) ('#' :: t ++ '\n' :: s) st = lines io n s st := by
  rw [lines]
  rw [if_neg (by simp)]
  rw [readLine_append ('#' :: t) s (by simp [ht])]
  simp only
  rw [if_pos (Or.inr (by rw [List.cons_append]; exact strip_head (by decide) _))]

/-- A line of words. -/
theorem lines_words (io : Bool → NumIO F) (n : Nat) (kw : List Char) (args : List (List Char)) (h : ∀ t ∈ kw :: args, IsTok t)
    (ha : kw.head? ≠ some '#') (s : List Char) (st : St F) :
    lines io (n + 1) (joinWith ' ' (kw :: args) ++ '\n' :: s) st =
      if kw.all Char.isAlpha then
        match keyword io (String.ofList kw) args s st with
        | .error e => .error e
        | .ok (st, s) => lines io n s st
      else .error .readError := by
  have hne : joinWith ' ' (kw :: args) ≠ [] := joinWith_ne_nil _ _ _ (h kw (by simp)).1
  rw [lines]
  rw [if_neg (by simp)]
  rw [readLine_append _ s (no_newline_line _ h)]
  simp only
  rw [strip_line_nl _ h, if_neg (by
    rintro (h' | h')
    · exact hne h'
    · rw [joinWith_head _ _ _ (h kw (by simp)).1] at h'; exact ha h'), splitWs_joinWith (by decide) _ h]
  rfl

theorem isWs_of_isAlpha {c : Char} (h : c.isAlpha = true) : isWs c = false := by
  cases hw : isWs c with
  | false => rfl
  | true =>
    exfalso
    unfold isWs at hw
    simp only [Char.isAlpha, Char.isUpper, Char.isLower, Bool.or_eq_true, decide_eq_true_eq, Bool.and_eq_true, ge_iff_le,
      UInt32.le_iff_toNat_le] at h hw
    have e : c.toNat = c.val.toNat := rfl
    have e1 : 'A'.val.toNat = 65 := rfl
    have e2 : 'Z'.val.toNat = 90 := rfl
    have e3 : 'a'.val.toNat = 97 := rfl
    have e4 : 'z'.val.toNat = 122 := rfl
    have e5 : ' '.val.toNat = 32 := rfl
    rw [e1, e2, e3, e4] at h
    rcases hw with (hw | hw) | hw
    · subst hw
      omega
    · omega
    · omega

theorem lines_kw (io : Bool → NumIO F) (n : Nat) (kw : String) (hk : kw.toList ≠ [] ∧ kw.toList.all Char.isAlpha = true)
    (args : List (List Char)) (h : ∀ t ∈ args, IsTok t) (s : List Char) (st : St F) :
    lines io (n + 1) (joinWith ' ' (kw.toList :: args) ++ '\n' :: s) st =
      match keyword io kw args s st with
      | .error e => .error e
      | .ok (st, s) => lines io n s st := by
  obtain ⟨h1, h2⟩ := hk
  have h2' := List.all_eq_true.mp h2
  have ht : IsTok kw.toList := by
    refine ⟨h1, fun c hc => ?_⟩
    exact isWs_of_isAlpha (h2' c hc)
  rw [lines_words io n kw.toList args (by
    intro t htm
    rcases List.mem_cons.mp htm with rfl | hm
    · exact ht
    · exact h t hm)]
  · rw [if_pos h2, String.ofList_toList]
  · intro hh
    have := h2' '#' (List.mem_of_mem_head? hh)
    exact absurd this (by decide)

theorem intLine_nat (n : Nat) (s : List Char) : intLine (fmtNat n ++ '\n' :: s) = .ok ((n : Int), s) := by
  unfold intLine
  rw [readLine_append _ _ ((isTok_fmtNat n).no_newline)]
  have : strip (fmtNat n ++ ['\n']) = fmtNat n := strip_line_nl [fmtNat n] (by simp [isTok_fmtNat])
  rw [this, ← fmtInt_ofNat, parseInt_fmtInt]

theorem scanRows_text {A α : Type} (parse : List Char → Option α) (fmt : A → List Char) (rnd : A → α) (htok : ∀ x, IsTok (fmt x))
    (rows : List (List A)) (hp : ∀ r ∈ rows, ∀ x ∈ r, parse (fmt x) = some (rnd x)) (w : Nat) (hw : 0 < w)
    (hl : ∀ r ∈ rows, r.length = w) (rest : List Char) :
    scanRows parse (rows.length : Nat) (w : Nat) (linesText (rows.map fun r => joinWith ' ' (r.map fmt)) ++ rest) =
      .ok (rows.map fun r => r.map rnd, if rows = [] then rest else '\n' :: rest) := by
  have hs := scan_rows' parse fmt rnd htok rows hp (fun r hr h0 => by have := hl r hr; rw [h0] at this; simp at this; omega) [] (by simp) rest
  rw [length_flatten_const w rows hl] at hs
  simp only [List.nil_append] at hs
  unfold scanRows
  rw [if_neg (by omega)]
  simp only [Int.toNat_natCast]
  rw [hs]
  have hr := reshape_flatten w (rows.map fun r => r.map rnd) (by
    intro r hr
    simp only [List.mem_map] at hr
    obtain ⟨r', hr', rfl⟩ := hr
    simp [hl r' hr'])
  rw [List.length_map] at hr
  simp only [List.map_flatten] at hr ⊢
  rw [hr]

theorem skipLines_text (ls : List (List Char)) (h : ∀ l ∈ ls, '\n' ∉ l) (rest : List Char) :
    skipLines ls.length (linesText ls ++ rest) = rest := by
  induction ls with
  | nil => rfl
  | cons l ls ih =>
    rw [List.length_cons, skipLines, linesText_cons, List.append_assoc, List.cons_append, readLine_append l _ (h l (by simp))]
    exact ih (fun x hx => h x (by simp [hx]))

/-- The state after some sections. -/
def ofKnown (sg : Bool) (k : Known F) : St F := ⟨k.dim, if k.version then some sg else none, k.out⟩

theorem cellKeyword_entry (name t : String) (h : cellKeyword name = some t) :
    ∃ n, 0 < n ∧ find mediAscii name = some (t, n) ∧ nodes t = some n ∧ (name.toList ≠ [] ∧ name.toList.all Char.isAlpha = true) ∧
      name ≠ "MeshVersionFormatted" ∧ name ≠ "Dimension" ∧ name ≠ "Vertices" := by
  have hk : name = "Edges" ∨ name = "Triangles" ∨ name = "Quadrilaterals" ∨ name = "Tetrahedra" ∨ name = "Prisms" ∨ name = "Pyramids" ∨
      name = "Hexahedra" ∨ name = "Hexaedra" := by
    refine Classical.byContradiction fun hn => ?_
    simp only [not_or] at hn
    simp [cellKeyword, hn] at h
  rcases hk with rfl | rfl | rfl | rfl | rfl | rfl | rfl | rfl
  · rw [show cellKeyword "Edges" = some "line" by decide] at h; cases h; exact ⟨2, by decide +kernel⟩
  · rw [show cellKeyword "Triangles" = some "triangle" by decide] at h; cases h; exact ⟨3, by decide +kernel⟩
  · rw [show cellKeyword "Quadrilaterals" = some "quad" by decide] at h; cases h; exact ⟨4, by decide +kernel⟩
  · rw [show cellKeyword "Tetrahedra" = some "tetra" by decide] at h; cases h; exact ⟨4, by decide +kernel⟩
  · rw [show cellKeyword "Prisms" = some "wedge" by decide] at h; cases h; exact ⟨6, by decide +kernel⟩
  · rw [show cellKeyword "Pyramids" = some "pyramid" by decide] at h; cases h; exact ⟨5, by decide +kernel⟩
  · rw [show cellKeyword "Hexahedra" = some "hexahedron" by decide] at h; cases h; exact ⟨8, by decide +kernel⟩
  · rw [show cellKeyword "Hexaedra" = some "hexahedron" by decide] at h; cases h; exact ⟨8, by decide +kernel⟩

/-- The newline left over by `np.fromfile`. -/
theorem lines_rest (io : Bool → NumIO F) (n : Nat) {A : Type} (rows : List A) [Decidable (rows = [])] (rest : List Char) (st : St F) :
    ∃ m, lines io (n + 1) (if rows = [] then rest else '\n' :: rest) st = lines io (n + m) rest st := by
  split
  · exact ⟨1, rfl⟩
  · exact ⟨0, lines_blank io n rest st⟩

/-- The result of a keyword with rows of numbers. -/
theorem keyword_rows (io : Bool → NumIO F) (N : Nat) (kw : String) (hk : kw.toList ≠ [] ∧ kw.toList.all Char.isAlpha = true)
    (num : Nat) (body : List (List Char)) (rest : List Char) (st st' : St F) {A : Type} (rows : List A) [Decidable (rows = [])]
    (h : keyword io kw [] (fmtNat num ++ '\n' :: (linesText body ++ rest)) st = .ok (st', if rows = [] then rest else '\n' :: rest)) :
    ∃ m, lines io (N + (linesText (kw.toList :: fmtNat num :: body)).length) (linesText (kw.toList :: fmtNat num :: body) ++ rest) st =
      lines io (N + m) rest st' := by
  have hlen : 2 ≤ (linesText (kw.toList :: fmtNat num :: body)).length := by
    have := length_linesText_ge (kw.toList :: fmtNat num :: body)
    simp only [List.length_cons] at this
    omega
  have e : linesText (kw.toList :: fmtNat num :: body) ++ rest = joinWith ' ' [kw.toList] ++ '\n' :: (fmtNat num ++ '\n' :: (linesText body ++ rest)) := by
    rw [linesText_cons, linesText_cons]
    simp [joinWith]
  obtain ⟨q, hq⟩ : ∃ q, (linesText (kw.toList :: fmtNat num :: body)).length = q + 2 := ⟨_, (Nat.sub_add_cancel hlen).symm⟩
  rw [hq, e, show N + (q + 2) = (N + q + 1) + 1 by omega, lines_kw io _ kw hk [] (by simp), h]
  simp only
  obtain ⟨m, hm⟩ := lines_rest io (N + q) rows rest st'
  exact ⟨q + m, by rw [hm]; congr 1; omega⟩

/-- The result of a keyword on one line. -/
theorem keyword_line' (io : Bool → NumIO F) (N : Nat) (kw : String) (hk : kw.toList ≠ [] ∧ kw.toList.all Char.isAlpha = true)
    (args : List (List Char)) (ha : ∀ t ∈ args, IsTok t) (body : List (List Char)) (rest : List Char) (st st' : St F)
    (h : keyword io kw args (linesText body ++ rest) st = .ok (st', rest)) :
    ∃ m, lines io (N + (linesText (joinWith ' ' (kw.toList :: args) :: body)).length)
      (linesText (joinWith ' ' (kw.toList :: args) :: body) ++ rest) st = lines io (N + m) rest st' := by
  have hlen : 1 ≤ (linesText (joinWith ' ' (kw.toList :: args) :: body)).length := by
    have := length_linesText_ge (joinWith ' ' (kw.toList :: args) :: body)
    simp only [List.length_cons] at this
    omega
  have e : linesText (joinWith ' ' (kw.toList :: args) :: body) ++ rest = joinWith ' ' (kw.toList :: args) ++ '\n' :: (linesText body ++ rest) := by
    rw [linesText_cons]
    simp
  obtain ⟨q, hq⟩ : ∃ q, (linesText (joinWith ' ' (kw.toList :: args) :: body)).length = q + 1 := ⟨_, (Nat.sub_add_cancel hlen).symm⟩
  rw [hq, e, show N + (q + 1) = (N + q) + 1 by omega, lines_kw io _ kw hk args ha, h]
  exact ⟨q, rfl⟩

theorem section_step (io : Bool → NumIO F) (sg : Bool) (sec : Section F) (k k' : Known F) (hm : sec.meaning sg k = some k')
    (hx : sec.Exact (io sg).lim) (N : Nat) (rest : List Char) :
    ∃ m, lines io (N + (linesText (sec.lines (fun b => (io b).fmt) sg)).length) (linesText (sec.lines (fun b => (io b).fmt) sg) ++ rest)
      (ofKnown sg k) = lines io (N + m) rest (ofKnown sg k') := by
  cases sec with
  | blank =>
    cases hm
    exact ⟨0, lines_blank io N rest _⟩
  | comment t =>
    simp only [Section.meaning] at hm
    split at hm
    · exact absurd hm (by simp)
    · next ht =>
      cases hm
      refine ⟨t.length + 1, ?_⟩
      have e : linesText (Section.lines (fun b => (io b).fmt) sg (Section.comment t)) ++ rest = '#' :: t ++ '\n' :: rest := by
        simp [Section.lines, linesText]
      have el : (linesText (Section.lines (fun b => (io b).fmt) sg (Section.comment t))).length = t.length + 2 := by
        simp [Section.lines, linesText]
      rw [e, el, ← Nat.add_assoc, ← Nat.add_assoc]
      exact lines_comment io _ t rest ht _
  | version v =>
    simp only [Section.meaning] at hm
    split at hm
    · next hv =>
      cases hm
      have e : Section.lines (fun b => (io b).fmt) sg (Section.version v : Section F) =
          [joinWith ' ' ("MeshVersionFormatted".toList :: [fmtNat v])] := by
        simp only [Section.lines, joinWith]
        rw [(by decide +kernel : "MeshVersionFormatted ".toList = "MeshVersionFormatted".toList ++ [' ']), List.append_assoc]
        rfl
      rw [e]
      apply keyword_line' io N "MeshVersionFormatted" (by decide +kernel) [fmtNat v] (by simp [isTok_fmtNat]) [] rest
      unfold keyword
      rw [if_pos rfl]
      simp only
      have hv' : v = 0 ∨ v = 1 ∨ v = 2 := by omega
      rcases hv' with rfl | rfl | rfl
      · have : sg = true := hv.2.mpr (by omega)
        subst this
        rw [if_pos (Or.inl (by decide))]
        rfl
      · have : sg = true := hv.2.mpr (by omega)
        subst this
        rw [if_pos (Or.inr (by decide))]
        rfl
      · have : sg = false := by
          cases hs : sg with
          | false => rfl
          | true => have := hv.2.mp hs; omega
        subst this
        rw [if_neg (by decide), if_pos (by decide)]
        rfl
    · exact absurd hm (by simp)
  | dimension d =>
    cases hm
    have e : Section.lines (fun b => (io b).fmt) sg (Section.dimension d : Section F) = [joinWith ' ' ("Dimension".toList :: [fmtNat d])] := by
      simp only [Section.lines, joinWith]
      rw [(by decide +kernel : "Dimension ".toList = "Dimension".toList ++ [' ']), List.append_assoc]
      rfl
    rw [e]
    apply keyword_line' io N "Dimension" (by decide +kernel) [fmtNat d] (by simp [isTok_fmtNat]) [] rest
    unfold keyword
    rw [if_neg (by decide), if_pos rfl]
    simp only
    rw [← fmtInt_ofNat, parseInt_fmtInt]
    rfl
  | dimensionBelow d =>
    cases hm
    apply keyword_line' io N "Dimension" (by decide +kernel) [] (by simp) [fmtNat d] rest
    unfold keyword
    rw [if_neg (by decide), if_pos rfl]
    simp only
    rw [show linesText [fmtNat d] ++ rest = fmtNat d ++ '\n' :: rest by simp [linesText], intLine_nat]
    rfl
  | vertices rows =>
    simp only [Section.meaning] at hm
    split at hm
    · next hv =>
      cases hm
      obtain ⟨hver, hdim, hlen⟩ := hv
      have hx' : ∀ r ∈ rows, r.2.natAbs < (io sg).lim := hx
      apply keyword_rows io N "Vertices" (by decide +kernel) rows.length _ rest _ _ rows
      unfold keyword
      rw [if_neg (by decide), if_neg (by decide), if_pos rfl]
      have hdim' : ¬ (ofKnown sg k).dim ≤ 0 := by show ¬ (k.dim : Int) ≤ 0; omega
      rw [if_neg hdim']
      have hsg : (ofKnown sg k).single = some sg := by simp [ofKnown, hver]
      simp only [hsg, intLine_nat]
      have e : (rows.map fun r => joinWith ' ' (r.1.map (io sg).fmt ++ [fmtInt r.2])) =
          (rows.map fun r => (r.1.map Sum.inl ++ [Sum.inr r.2] : List (F ⊕ Int))).map fun r => joinWith ' ' (r.map (Sum.elim (io sg).fmt fmtInt)) := by
        rw [List.map_map]
        apply List.map_congr_left
        intro r _
        simp [Function.comp_def]
      have hd1 : (ofKnown sg k).dim + 1 = ((k.dim + 1 : Nat) : Int) := rfl
      have hsc := scanRows_text (io sg).parse (Sum.elim (io sg).fmt fmtInt) (Sum.elim id (io sg).ofInt)
        (by intro x; cases x with | inl x => exact (io sg).tok x | inr i => exact isTok_fmtInt i)
        (rows.map fun r => (r.1.map Sum.inl ++ [Sum.inr r.2] : List (F ⊕ Int)))
        (by
          intro r hr x hxm
          simp only [List.mem_map] at hr
          obtain ⟨r', hr', rfl⟩ := hr
          simp only [List.mem_append, List.mem_map, List.mem_singleton] at hxm
          rcases hxm with ⟨y, _, rfl⟩ | rfl
          · exact (io sg).parse_fmt y
          · exact (io sg).parse_int _ (hx' r' hr'))
        (k.dim + 1) (by omega)
        (by
          intro r hr
          simp only [List.mem_map] at hr
          obtain ⟨r', hr', rfl⟩ := hr
          simp [hlen r' hr'])
        rest
      rw [List.length_map] at hsc
      rw [hd1, e, hsc]
      simp only [List.map_map, List.map_eq_nil_iff]
      have hdn : (ofKnown sg k).dim.toNat = k.dim := rfl
      have m1 : rows.map ((fun r => List.take (ofKnown sg k).dim.toNat r) ∘
          (fun r => List.map (Sum.elim id (io sg).ofInt) r) ∘ fun r => (List.map Sum.inl r.1 ++ [Sum.inr r.2] : List (F ⊕ Int))) = rows.map (·.1) := by
        apply List.map_congr_left
        intro r hr
        simp only [Function.comp, hdn]
        rw [← hlen r hr]
        simp
      have m2 : rows.map ((fun r => (Option.map (io sg).toInt (r[(ofKnown sg k).dim.toNat]?)).getD 0) ∘
          (fun r => List.map (Sum.elim id (io sg).ofInt) r) ∘ fun r => (List.map Sum.inl r.1 ++ [Sum.inr r.2] : List (F ⊕ Int))) = rows.map (·.2) := by
        apply List.map_congr_left
        intro r hr
        simp only [Function.comp, hdn]
        rw [← hlen r hr]
        simp [(io sg).toInt_ofInt _ (hx' r hr)]
      rw [m1, m2]
      simp [ofKnown, hver]
    · exact absurd hm (by simp)
  | cells name rows =>
    simp only [Section.meaning] at hm
    split at hm
    · exact absurd hm (by simp)
    · next t ht =>
      split at hm
      · next hlen =>
        cases hm
        obtain ⟨n, hn, hf, hnod, hk, h1, h2, h3⟩ := cellKeyword_entry name t ht
        have hlen' : ∀ r ∈ rows, r.1.length = n := by
          intro r hr
          have := hlen r hr
          rw [hnod] at this
          exact Option.some.inj this
        apply keyword_rows io N name hk rows.length _ rest _ _ rows
        unfold keyword
        rw [if_neg h1, if_neg h2, if_neg h3]
        simp only [hf, intLine_nat]
        have e : (rows.map fun r => joinWith ' ' (r.1.map fmtInt ++ [fmtInt r.2])) =
            (rows.map fun r => r.1 ++ [r.2]).map fun r => joinWith ' ' (r.map fmtInt) := by
          rw [List.map_map]
          apply List.map_congr_left
          intro r _
          simp [Function.comp_def]
        have hsc := scanRows_text parseInt fmtInt id isTok_fmtInt (rows.map fun r => r.1 ++ [r.2])
          (fun _ _ x _ => parseInt_fmtInt x) (n + 1) (by omega)
          (by
            intro r hr
            simp only [List.mem_map] at hr
            obtain ⟨r', hr', rfl⟩ := hr
            simp [hlen' r' hr'])
          rest
        rw [List.length_map] at hsc
        have hd1 : (n : Int) + 1 = ((n + 1 : Nat) : Int) := rfl
        rw [hd1, e, hsc]
        simp only [List.map_map, List.map_eq_nil_iff, List.map_id_fun, id_eq]
        congr 2
        simp only [ofKnown, block]
        congr 4
        congr 1
        · apply List.map_congr_left
          intro r hr
          simp only [Function.comp, id_eq]
          rw [List.take_left' (hlen' r hr)]
        · apply List.map_congr_left
          intro r hr
          exact getLastD_append_one _ _ _
      · exact absurd hm (by simp)
  | skipped name ls =>
    simp only [Section.meaning] at hm
    split at hm
    · next h =>
      cases hm
      obtain ⟨hn, hls⟩ := h
      have hk := (by decide +kernel : ∀ s ∈ ["RequiredVertices", "TangentAtVertices", "Tangents", "Ridges"],
        (s.toList ≠ [] ∧ s.toList.all Char.isAlpha = true) ∧ s ≠ "MeshVersionFormatted" ∧ s ≠ "Dimension" ∧ s ≠ "Vertices" ∧
        find mediAscii s = none ∧ s ≠ "Corners" ∧ s ≠ "Normals" ∧ s ≠ "VertexOnGeometricEdge" ∧ find ignoredInts s = none ∧
        ¬ (s = "Identifier" ∨ s = "Geometry") ∧ (s = "RequiredVertices" ∨ s = "TangentAtVertices" ∨ s = "Tangents" ∨ s = "Ridges")) name hn
      obtain ⟨hk, h1, h2, h3, h4, h5, h6, h7, h8, h9, h10⟩ := hk
      have := keyword_line' io N name hk [] (by simp) (fmtNat ls.length :: ls) rest (ofKnown sg k) (ofKnown sg k) (by
        unfold keyword
        rw [if_neg h1, if_neg h2, if_neg h3]
        simp only [h4]
        rw [if_neg h5, if_neg h6, if_neg h7]
        simp only [h8]
        rw [if_neg h9, if_pos h10, linesText_cons, List.append_assoc, List.cons_append, intLine_nat]
        simp only [Int.toNat_natCast]
        rw [skipLines_text ls hls])
      exact this
    · exact absurd hm (by simp)
  | oneLine name l =>
    simp only [Section.meaning] at hm
    split at hm
    · next h =>
      cases hm
      obtain ⟨hn, hl⟩ := h
      have hk := (by decide +kernel : ∀ s ∈ ["Identifier", "Geometry"],
        (s.toList ≠ [] ∧ s.toList.all Char.isAlpha = true) ∧ s ≠ "MeshVersionFormatted" ∧ s ≠ "Dimension" ∧ s ≠ "Vertices" ∧
        find mediAscii s = none ∧ s ≠ "Corners" ∧ s ≠ "Normals" ∧ s ≠ "VertexOnGeometricEdge" ∧ find ignoredInts s = none ∧
        (s = "Identifier" ∨ s = "Geometry")) name hn
      obtain ⟨hk, h1, h2, h3, h4, h5, h6, h7, h8, h9⟩ := hk
      have := keyword_line' io N name hk [] (by simp) [l] rest (ofKnown sg k) (ofKnown sg k) (by
        unfold keyword
        rw [if_neg h1, if_neg h2, if_neg h3]
        simp only [h4]
        rw [if_neg h5, if_neg h6, if_neg h7]
        simp only [h8]
        rw [if_pos h9, linesText_cons, show linesText [] = [] from rfl, List.append_assoc, List.cons_append, readLine_append _ _ hl]
        rfl)
      exact this
    · exact absurd hm (by simp)
  | ints name w rows =>
    simp only [Section.meaning] at hm
    split at hm
    · next h =>
      cases hm
      obtain ⟨hn, hl⟩ := h
      have hk := (by decide +kernel : ∀ s ∈ [("NormalAtVertices", 2), ("SubDomainFromMesh", 4), ("VertexOnGeometricVertex", 2), ("EdgeOnGeometricEdge", 2)],
        (s.1.toList ≠ [] ∧ s.1.toList.all Char.isAlpha = true) ∧ s.1 ≠ "MeshVersionFormatted" ∧ s.1 ≠ "Dimension" ∧ s.1 ≠ "Vertices" ∧
        find mediAscii s.1 = none ∧ s.1 ≠ "Corners" ∧ s.1 ≠ "Normals" ∧ s.1 ≠ "VertexOnGeometricEdge" ∧ find ignoredInts s.1 = some s.2 ∧ 0 < s.2) _ hn
      simp only at hk
      obtain ⟨hk, h1, h2, h3, h4, h5, h6, h7, h8, h9⟩ := hk
      apply keyword_rows io N name hk rows.length _ rest _ _ rows
      unfold keyword
      rw [if_neg h1, if_neg h2, if_neg h3]
      simp only [h4]
      rw [if_neg h5, if_neg h6, if_neg h7]
      simp only [h8, intLine_nat]
      rw [scanRows_text parseInt fmtInt id isTok_fmtInt rows (fun _ _ x _ => parseInt_fmtInt x) w h9 hl]
    · exact absurd hm (by simp)
  | corners l =>
    simp only [Section.meaning] at hm
    split at hm
    · next hver =>
      cases hm
      have hx' : ∀ i ∈ l, i.natAbs < (io sg).lim := hx
      apply keyword_rows io N "Corners" (by decide +kernel) l.length _ rest _ _ l
      unfold keyword
      rw [if_neg (by decide), if_neg (by decide), if_neg (by decide)]
      simp only [(by decide +kernel : find mediAscii "Corners" = none)]
      rw [if_pos trivial]
      have hsg : (ofKnown sg k).single = some sg := by simp [ofKnown, hver]
      simp only [hsg, intLine_nat, Option.getD_some, Int.toNat_natCast]
      rw [if_neg (by omega)]
      have hs := scan_rows' (io sg).parse fmtInt (io sg).ofInt isTok_fmtInt (l.map ([·])) (by
          intro r hr x hxm
          simp only [List.mem_map] at hr
          obtain ⟨i, hi, rfl⟩ := hr
          simp only [List.mem_singleton] at hxm
          subst hxm
          exact (io sg).parse_int _ (hx' _ hi))
        (by intro r hr h0; subst h0; simp at hr) [] (by simp) rest
      rw [length_flatten_const 1 _ (by simp), List.length_map, Nat.mul_one, List.map_map] at hs
      simp only [List.nil_append, List.map_eq_nil_iff] at hs
      have e : ((fun r : List Int => joinWith ' ' (r.map fmtInt)) ∘ fun x => [x]) = fmtInt := by funext x; rfl
      rw [e] at hs
      rw [hs]
    · exact absurd hm (by simp)
  | normals rows =>
    simp only [Section.meaning] at hm
    split at hm
    · next h =>
      cases hm
      obtain ⟨hver, hdim, hl⟩ := h
      apply keyword_rows io N "Normals" (by decide +kernel) rows.length _ rest _ _ rows
      unfold keyword
      rw [if_neg (by decide), if_neg (by decide), if_neg (by decide)]
      simp only [(by decide +kernel : find mediAscii "Normals" = none)]
      rw [if_neg (by decide), if_pos trivial]
      have hsg : (ofKnown sg k).single = some sg := by simp [ofKnown, hver]
      simp only [hsg, intLine_nat, Option.getD_some]
      have := scanRows_text (io sg).parse (io sg).fmt id (io sg).tok rows (fun _ _ x _ => (io sg).parse_fmt x) k.dim hdim hl rest
      have hd : (ofKnown sg k).dim = (k.dim : Int) := rfl
      rw [hd, this]
    · exact absurd hm (by simp)
  | onEdge rows =>
    simp only [Section.meaning] at hm
    split at hm
    · next hl =>
      cases hm
      apply keyword_rows io N "VertexOnGeometricEdge" (by decide +kernel) rows.length _ rest _ _ rows
      unfold keyword
      rw [if_neg (by decide), if_neg (by decide), if_neg (by decide)]
      simp only [(by decide +kernel : find mediAscii "VertexOnGeometricEdge" = none)]
      rw [if_neg (by decide), if_neg (by decide), if_pos trivial]
      simp only [intLine_nat]
      have := scanRows_text (io false).parse (io false).fmt id (io false).tok rows (fun _ _ x _ => (io false).parse_fmt x) 3 (by omega) hl rest
      have h3 : (3 : Int) = ((3 : Nat) : Int) := rfl
      rw [h3, this]
    · exact absurd hm (by simp)
  | finish =>
    cases hm
    apply keyword_line' io N "End" (by decide +kernel) [] (by simp) [] rest
    unfold keyword
    rw [if_neg (by decide), if_neg (by decide), if_neg (by decide)]
    simp only [(by decide +kernel : find mediAscii "End" = none)]
    rw [if_neg (by decide), if_neg (by decide), if_neg (by decide)]
    simp only [(by decide +kernel : find ignoredInts "End" = none)]
    rw [if_neg (by decide), if_neg (by decide), if_pos trivial]
    rfl

/-- A run of sections. -/
theorem sections_run (io : Bool → NumIO F) (sg : Bool) (secs : List (Section F)) (k k' : Known F) (hm : meaning sg k secs = some k')
    (hx : ∀ s ∈ secs, s.Exact (io sg).lim) (N : Nat) (rest : List Char) :
    ∃ m, lines io (N + (text (fun b => (io b).fmt) sg secs).length) (text (fun b => (io b).fmt) sg secs ++ rest) (ofKnown sg k) =
      lines io (N + m) rest (ofKnown sg k') := by
  induction secs generalizing k N with
  | nil => cases hm; exact ⟨0, rfl⟩
  | cons s secs ih =>
    rw [meaning] at hm
    cases h1 : s.meaning sg k with
    | none => rw [h1] at hm; cases hm
    | some k1 =>
      rw [h1] at hm
      simp only at hm
      have e : text (fun b => (io b).fmt) sg (s :: secs) = linesText (s.lines (fun b => (io b).fmt) sg) ++ text (fun b => (io b).fmt) sg secs := by
        unfold text
        rw [List.flatMap_cons, linesText_append]
      obtain ⟨m1, hm1⟩ := section_step io sg s k k1 h1 (hx s (by simp)) (N + (text (fun b => (io b).fmt) sg secs).length)
        (text (fun b => (io b).fmt) sg secs ++ rest)
      obtain ⟨m2, hm2⟩ := ih k1 hm (fun t ht => hx t (by simp [ht])) (N + m1)
      refine ⟨m1 + m2, ?_⟩
      rw [e, List.length_append, List.append_assoc, show ∀ a b : Nat, N + (a + b) = N + b + a by intros; omega, hm1,
        show N + (text (fun b => (io b).fmt) sg secs).length + m1 = N + m1 + (text (fun b => (io b).fmt) sg secs).length by omega, hm2,
        Nat.add_assoc]

end Medit
end Meshio
