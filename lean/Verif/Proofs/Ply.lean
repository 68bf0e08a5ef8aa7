/-
Helper lemmas for the PLY format.
-/
import Verif.Model.Ply
import Verif.Proofs.Runs
namespace Meshio.Ply
open Meshio Meshio.Spec

variable {F : Type}

theorem splitLast_ok (f n : List Char) (hf : f ≠ []) (hn : n ≠ []) (hs : ' ' ∉ n) :
    splitLast (f ++ ' ' :: n) = some (f, n) := by
  have hr : (f ++ ' ' :: n).reverse = n.reverse ++ ' ' :: f.reverse := by simp
  have h1 : (n.reverse ++ ' ' :: f.reverse).takeWhile (fun c => decide (c ≠ ' ')) = n.reverse := by
    rw [List.takeWhile_append_of_pos (by
      intro c hc
      have : c ≠ ' ' := by intro h; subst h; exact hs (by simpa using hc)
      simpa using this)]
    simp
  have h2 : (n.reverse ++ ' ' :: f.reverse).dropWhile (fun c => decide (c ≠ ' ')) = ' ' :: f.reverse := by
    rw [List.dropWhile_append_of_pos (by
      intro c hc
      have : c ≠ ' ' := by intro h; subst h; exact hs (by simpa using hc)
      simpa using this)]
    simp
  unfold splitLast
  dsimp only
  rw [hr, h1, h2]
  simp [hf, hn]

theorem property_toks (p : String × String) :
    propLine p = joinWith ' ' ["property".toList, p.1.toList, p.2.toList] := rfl

/-- Is a line of the header that is not skipped. -/
theorem isTok_lit {s : List Char} (h : (s ≠ [] ∧ s.all (fun c => !isWs c)) = true) : IsTok s := by
  simp only [eq_iff_iff, iff_true] at h
  refine ⟨h.1, ?_⟩
  intro c hc
  have := List.all_eq_true.mp h.2 c hc
  simpa using this

theorem tok_property : IsTok "property".toList := isTok_lit (by decide)

theorem take_append_lit (a b : List Char) (n : Nat) (h : n ≤ a.length) : (a ++ b).take n = a.take n :=
  List.take_append_of_le_length h

theorem matchProperty_ok (p : String × String) (h1 : IsTok p.1.toList) (h2 : IsTok p.2.toList) :
    matchProperty (propLine p) = some p := by
  unfold matchProperty propLine
  rw [if_pos (by rw [List.isPrefixOf_iff_prefix]; exact List.prefix_append _ _),
    List.drop_left' (by decide), splitLast_ok _ _ h1.1 h2.1 (by
      intro h; exact absurd (h2.2 _ h) (by decide))]
  simp

/-- The line of a face property. -/
def ctypeLine (p : CType × String) : List Char :=
  match p.1 with
  | .scalar f => propLine (f, p.2)
  | .list cf vf => "property list ".toList ++ (cf.toList ++ ' ' :: (vf.toList ++ ' ' :: p.2.toList))

def COk (p : CType × String) : Prop :=
  IsTok p.2.toList ∧
  match p.1 with
  | .scalar f => IsTok f.toList ∧ f.toList.head? ≠ some 'l'
  | .list cf vf => IsTok cf.toList ∧ IsTok vf.toList

theorem matchList_ok (cf vf n : String) (h1 : IsTok cf.toList) (h2 : IsTok vf.toList) (h3 : IsTok n.toList) :
    matchList (ctypeLine (.list cf vf, n)) = some (.list cf vf, n) := by
  have sp : ∀ {l : List Char}, IsTok l → ' ' ∉ l := by
    intro l hl h; exact absurd (hl.2 _ h) (by decide)
  unfold matchList ctypeLine
  dsimp only
  rw [if_pos (by rw [List.isPrefixOf_iff_prefix]; exact List.prefix_append _ _),
    List.drop_left' (by decide)]
  rw [show cf.toList ++ ' ' :: (vf.toList ++ ' ' :: n.toList) = (cf.toList ++ ' ' :: vf.toList) ++ ' ' :: n.toList by simp,
    splitLast_ok _ _ (by simp) h3.1 (sp h3)]
  simp only [Option.bind_some]
  rw [splitLast_ok _ _ h1.1 h2.1 (sp h2)]
  simp

theorem strip_propLine (p : String × String) (h1 : IsTok p.1.toList) (h2 : IsTok p.2.toList) :
    strip (propLine p ++ ['\n']) = propLine p := by
  rw [property_toks]
  apply strip_line_nl
  intro t ht
  simp only [List.mem_cons, List.not_mem_nil, or_false] at ht
  rcases ht with rfl | rfl | rfl
  · exact tok_property
  · exact h1
  · exact h2

theorem strip_ctypeLine (p : CType × String) (h : COk p) : strip (ctypeLine p ++ ['\n']) = ctypeLine p := by
  obtain ⟨c, n⟩ := p
  obtain ⟨hn, h⟩ := h
  cases c with
  | scalar f => exact strip_propLine (f, n) h.1 hn
  | list cf vf =>
    have : ctypeLine (.list cf vf, n) =
        joinWith ' ' ["property".toList, "list".toList, cf.toList, vf.toList, n.toList] := rfl
    rw [this]
    apply strip_line_nl
    intro t ht
    simp only [List.mem_cons, List.not_mem_nil, or_false] at ht
    rcases ht with rfl | rfl | rfl | rfl | rfl
    · exact tok_property
    · exact isTok_lit (by decide)
    · exact h.1
    · exact h.2
    · exact hn

theorem header_vertexProps (pp : List (String × String)) (h : ∀ p ∈ pp, IsTok p.1.toList ∧ IsTok p.2.toList)
    (hd : Hdr) (rest : List (List Char)) :
    header hd .vertex (pp.map (fun p => propLine p ++ ['\n']) ++ rest) =
      header { hd with pp := hd.pp ++ pp } .vertex rest := by
  induction pp generalizing hd with
  | nil => simp
  | cons p pp ih =>
    obtain ⟨h1, h2⟩ := h p (by simp)
    rw [List.map_cons, List.cons_append, header]
    rw [strip_propLine p h1 h2]
    have e7 : (propLine p).take 7 = "propert".toList := by
      unfold propLine
      rw [take_append_lit _ _ _ (by decide)]
      rfl
    have e8 : (propLine p).take 8 = "property".toList := by
      unfold propLine
      rw [take_append_lit _ _ _ (by decide)]
      rfl
    have hsk : skipped (propLine p) = false := by
      unfold skipped
      rw [e7]
      have : propLine p ≠ [] := by intro h0; rw [h0] at e7; exact absurd e7 (by decide)
      simp [this]
    rw [hsk]
    simp only [Bool.false_eq_true, if_false]
    rw [if_pos ⟨trivial, e8⟩, matchProperty_ok p h1 h2]
    simp only
    rw [ih (fun q hq => h q (by simp [hq]))]
    simp

theorem header_faceProps (cp : List (CType × String)) (h : ∀ p ∈ cp, COk p) (hd : Hdr)
    (rest : List (List Char)) :
    header hd .face (cp.map (fun p => ctypeLine p ++ ['\n']) ++ rest) =
      header { hd with cp := hd.cp ++ cp } .face rest := by
  induction cp generalizing hd with
  | nil => simp
  | cons p cp ih =>
    have hp := h p (by simp)
    rw [List.map_cons, List.cons_append, header]
    rw [strip_ctypeLine p hp]
    obtain ⟨c, n⟩ := p
    obtain ⟨hn, hc⟩ := hp
    have e8 : (ctypeLine (c, n)).take 8 = "property".toList := by
      cases c <;> (unfold ctypeLine; dsimp only; try unfold propLine) <;>
      · rw [take_append_lit _ _ _ (by decide)]
        rfl
    have e7 : (ctypeLine (c, n)).take 7 = "propert".toList := by
      have : (ctypeLine (c, n)).take 7 = ((ctypeLine (c, n)).take 8).take 7 := by
        rw [List.take_take]; rfl
      rw [this, e8]; rfl
    have hsk : skipped (ctypeLine (c, n)) = false := by
      unfold skipped
      rw [e7]
      have : ctypeLine (c, n) ≠ [] := by intro h0; rw [h0] at e7; exact absurd e7 (by decide)
      simp [this]
    rw [hsk]
    simp only [Bool.false_eq_true, if_false]
    rw [if_neg (by simp), if_pos ⟨trivial, e8⟩]
    cases c with
    | list cf vf =>
      have e13 : (ctypeLine (.list cf vf, n)).take 13 = "property list".toList := by
        unfold ctypeLine
        dsimp only
        rw [take_append_lit _ _ _ (by decide)]
        rfl
      rw [if_pos e13, matchList_ok cf vf n hc.1 hc.2 hn]
      simp only
      rw [ih (fun q hq => h q (by simp [hq]))]
      simp
    | scalar f =>
      have e13 : (ctypeLine (.scalar f, n)).take 13 ≠ "property list".toList := by
        intro h0
        obtain ⟨⟨hf, _⟩, hl⟩ := hc
        cases hfl : f.toList with
        | nil => exact hf hfl
        | cons a l =>
          have : ((ctypeLine (.scalar f, n)).take 13)[9]? = some a := by
            unfold ctypeLine propLine
            dsimp only
            rw [List.getElem?_take_of_lt (by omega), List.getElem?_append_right (by decide), hfl]
            rfl
          rw [h0] at this
          have : some 'l' = some a := this
          rw [hfl] at hl
          exact hl this.symm
      rw [if_neg e13]
      rw [show ctypeLine (.scalar f, n) = propLine (f, n) from rfl, matchProperty_ok (f, n) hc.1 hn]
      simp only
      rw [ih (fun q hq => h q (by simp [hq]))]
      simp

theorem header_end (hd : Hdr) (m : Mode) (rest : List (List Char)) :
    header hd m (("end_header".toList ++ ['\n']) :: rest) = .ok (hd, rest) := by
  rw [header]
  have : strip ("end_header".toList ++ ['\n']) = "end_header".toList := by decide
  rw [this]
  have h1 : skipped "end_header".toList = false := by decide
  have h2 : "end_header".toList.take 8 ≠ "property".toList := by decide
  rw [h1]
  simp only [Bool.false_eq_true, if_false]
  rw [if_neg (fun h => h2 h.2), if_neg (fun h => h2 h.2), if_pos trivial]

/-- An element line. -/
theorem element_line (w : List Char) (hw : IsTok w) (n : Nat) :
    strip (("element ".toList ++ (w ++ ' ' :: fmtNat n)) ++ ['\n']) = "element ".toList ++ (w ++ ' ' :: fmtNat n) := by
  have : "element ".toList ++ (w ++ ' ' :: fmtNat n) = joinWith ' ' ["element".toList, w, fmtNat n] := rfl
  rw [this]
  apply strip_line_nl
  intro t ht
  simp only [List.mem_cons, List.not_mem_nil, or_false] at ht
  rcases ht with rfl | rfl | rfl
  · exact isTok_lit (by decide)
  · exact hw
  · exact isTok_fmtNat n

theorem matchCount_ok (pre : List Char) (n : Nat) : matchCount pre (pre ++ fmtNat n) = some n := by
  unfold matchCount
  rw [if_pos (by rw [List.isPrefixOf_iff_prefix]; exact List.prefix_append _ _), List.drop_left]
  have : (fmtNat n).takeWhile Char.isDigit = fmtNat n := by
    have := List.takeWhile_append_of_pos (p := Char.isDigit) (l₁ := fmtNat n) (l₂ := [])
      (fun c hc => fmtNat_isDigit hc)
    simpa using this
  rw [this, parseNat_fmtNat]

theorem header_vertex (hd : Hdr) (n : Nat) (m : Mode) (rest : List (List Char)) :
    header hd m (("element vertex ".toList ++ fmtNat n ++ ['\n']) :: rest) =
      header { hd with nv := n } .vertex rest := by
  rw [header]
  have hs := element_line "vertex".toList (isTok_lit (by decide)) n
  have e : "element ".toList ++ ("vertex".toList ++ ' ' :: fmtNat n) = "element vertex ".toList ++ fmtNat n := by
    show _ = _
    have : "element vertex ".toList = "element ".toList ++ ("vertex".toList ++ [' ']) := by decide
    rw [this]; simp
  rw [e] at hs
  rw [hs]
  have e8 : ∀ k ≤ 15, ("element vertex ".toList ++ fmtNat n).take k = "element vertex ".toList.take k := by
    intro k hk
    exact take_append_lit _ _ _ (by have : "element vertex ".toList.length = 15 := by decide
                                    omega)
  have h1 : skipped ("element vertex ".toList ++ fmtNat n) = false := by
    unfold skipped
    rw [e8 7 (by omega)]
    have : "element vertex ".toList ++ fmtNat n ≠ [] := by
      intro h; have := List.append_eq_nil_iff.mp h; exact fmtNat_ne_nil n this.2
    simp only [this]
    decide
  have h2 : "element vertex ".toList.take 8 ≠ "property".toList := by decide
  rw [h1]
  simp only [Bool.false_eq_true, if_false]
  rw [e8 8 (by omega), if_neg (fun h => h2 h.2), if_neg (fun h => h2 h.2), if_neg, if_neg (by decide),
    matchCount_ok]
  intro h
  have := congrArg (List.take 4) h
  rw [e8 4 (by omega)] at this
  exact absurd this (by decide)

theorem header_face (hd : Hdr) (n : Nat) (m : Mode) (rest : List (List Char)) :
    header hd m (("element face ".toList ++ fmtNat n ++ ['\n']) :: rest) =
      header { hd with nc := n } .face rest := by
  rw [header]
  have hs := element_line "face".toList (isTok_lit (by decide)) n
  have e : "element ".toList ++ ("face".toList ++ ' ' :: fmtNat n) = "element face ".toList ++ fmtNat n := by
    have : "element face ".toList = "element ".toList ++ ("face".toList ++ [' ']) := by decide
    rw [this]; simp
  rw [e] at hs
  rw [hs]
  have e8 : ∀ k ≤ 13, ("element face ".toList ++ fmtNat n).take k = "element face ".toList.take k := by
    intro k hk
    exact take_append_lit _ _ _ (by have : "element face ".toList.length = 13 := by decide
                                    omega)
  have h1 : skipped ("element face ".toList ++ fmtNat n) = false := by
    unfold skipped
    rw [e8 7 (by omega)]
    have : "element face ".toList ++ fmtNat n ≠ [] := by
      intro h; have := List.append_eq_nil_iff.mp h; exact fmtNat_ne_nil n this.2
    simp only [this]
    decide
  have h2 : "element face ".toList.take 8 ≠ "property".toList := by decide
  have h3 : matchCount "element vertex ".toList ("element face ".toList ++ fmtNat n) = none := by
    unfold matchCount
    rw [if_neg]
    intro h
    rw [List.isPrefixOf_iff_prefix] at h
    obtain ⟨t, ht⟩ := h
    have h4 := congrArg (List.take 9) ht
    rw [e8 9 (by omega), take_append_lit _ _ _ (by decide)] at h4
    exact absurd h4 (by decide)
  rw [h1]
  simp only [Bool.false_eq_true, if_false]
  rw [e8 8 (by omega), if_neg (fun h => h2 h.2), if_neg (fun h => h2 h.2), if_neg, if_neg (by decide),
    h3]
  · simp only
    rw [matchCount_ok]
  intro h
  have := congrArg (List.take 4) h
  rw [e8 4 (by omega)] at this
  exact absurd this (by decide)

/-- The lines of a header. -/
def hdrLines (fm : Option Bool) (comments : List (List Char)) (h : Hdr) : List (List Char) :=
  ["ply".toList,
    (match fm with
      | none => "format ascii 1.0".toList
      | some true => "format binary_big_endian 1.0".toList
      | some false => "format binary_little_endian 1.0".toList)] ++
  (comments.map ("comment ".toList ++ ·) ++ (["element vertex ".toList ++ fmtNat h.nv] ++
    (h.pp.map propLine ++
      ((if h.cp = [] then [] else ["element face ".toList ++ fmtNat h.nc]) ++ (h.cp.map ctypeLine ++
        ["end_header".toList])))))

structure HdrOk (h : Hdr) : Prop where
  pp : ∀ p ∈ h.pp, IsTok p.1.toList ∧ IsTok p.2.toList
  cp : ∀ p ∈ h.cp, COk p
  nc : h.cp = [] → h.nc = 0

theorem skipped_comment (c : List Char) : skipped (strip (("comment ".toList ++ c) ++ ['\n'])) = true := by
  obtain ⟨r, hr⟩ := strip_tok_append (isTok_lit (s := "comment".toList) (by decide)) ((" ".toList ++ c) ++ ['\n'])
  have e : ("comment ".toList ++ c) ++ ['\n'] = "comment".toList ++ ((" ".toList ++ c) ++ ['\n']) := rfl
  rw [e, hr]
  unfold skipped
  rw [take_append_lit _ _ _ (by decide)]
  have : ("comment".toList.take 7 == "comment".toList) = true := by decide
  rw [this, Bool.or_true]

theorem header_comments (cs : List (List Char)) (hd : Hdr) (m : Mode) (rest : List (List Char)) :
    header hd m (cs.map (fun c => ("comment ".toList ++ c) ++ ['\n']) ++ rest) = header hd m rest := by
  induction cs with
  | nil => rfl
  | cons c cs ih =>
    rw [List.map_cons, List.cons_append, header, if_pos (skipped_comment c)]
    exact ih

theorem nextLine_lit (t : List Char) (h : strip (t ++ ['\n']) = t ∧ skipped t = false) (rest : List (List Char)) :
    nextLine ((t ++ ['\n']) :: rest) = .ok (t, rest) := by
  unfold nextLine
  rw [h.1, h.2]
  rfl

theorem readHeader_ok (fm : Option Bool) (cs : List (List Char)) (h : Hdr) (hok : HdrOk h)
    (rest : List (List Char)) :
    readHeader ((hdrLines fm cs h).map (· ++ ['\n']) ++ rest) = .ok (fm, h, rest) := by
  have hf : ∃ t, (match fm with
      | none => "format ascii 1.0".toList
      | some true => "format binary_big_endian 1.0".toList
      | some false => "format binary_little_endian 1.0".toList) = t ∧
        (strip (t ++ ['\n']) = t ∧ skipped t = false) ∧ format t = .ok fm := by
    cases fm with
    | none => exact ⟨_, rfl, by decide, by decide⟩
    | some b => cases b <;> exact ⟨_, rfl, by decide, by decide⟩
  obtain ⟨t, e, ht, hfm⟩ := hf
  have hface : ∀ hd : Hdr, hd.nv = h.nv → hd.pp = h.pp → hd.nc = 0 → hd.cp = [] →
      header hd .vertex (((if h.cp = [] then [] else ["element face ".toList ++ fmtNat h.nc]) ++ (h.cp.map ctypeLine ++
        ["end_header".toList])).map (· ++ ['\n']) ++ rest) = .ok (h, rest) := by
    intro hd h1 h2 h3 h4
    obtain ⟨nv, nc, pp, cp⟩ := h
    obtain ⟨nv', nc', pp', cp'⟩ := hd
    simp only at h1 h2 h3 h4
    subst h1 h2 h3 h4
    by_cases hc : cp = []
    · have := hok.nc hc
      simp only at this
      subst hc this
      exact header_end _ _ _
    · simp only [if_neg hc, List.map_append, List.map_cons, List.map_nil, List.cons_append, List.nil_append]
      rw [header_face, List.map_map, List.append_assoc]
      have := header_faceProps cp hok.cp ⟨nv', nc, pp', []⟩ ([("end_header".toList ++ ['\n'])] ++ rest)
      refine Eq.trans this ?_
      exact header_end _ _ _
  have hd : header ⟨0, 0, [], []⟩ .none ((cs.map ("comment ".toList ++ ·) ++ (["element vertex ".toList ++ fmtNat h.nv] ++
    (h.pp.map propLine ++
      ((if h.cp = [] then [] else ["element face ".toList ++ fmtNat h.nc]) ++ (h.cp.map ctypeLine ++
        ["end_header".toList]))))).map (· ++ ['\n']) ++ rest) = .ok (h, rest) := by
    rw [List.map_append, List.append_assoc, List.map_map]
    refine (header_comments cs _ _ _).trans ?_
    rw [List.map_append, List.append_assoc]
    refine (header_vertex _ _ _ _).trans ?_
    rw [List.map_append, List.append_assoc, List.map_map]
    refine (header_vertexProps h.pp hok.pp _ _).trans ?_
    exact hface _ rfl (by simp) rfl rfl
  unfold hdrLines readHeader
  rw [e, List.map_append]
  simp only [List.map_cons, List.map_nil, List.cons_append, List.nil_append, List.headD_cons, List.drop_succ_cons,
    List.drop_zero]
  have hply : strip ("ply".toList ++ ['\n']) = "ply".toList := by decide
  rw [if_neg (by rw [hply]; simp), nextLine_lit t ht]
  simp only [hfm]
  simp only [List.cons_append, List.nil_append] at hd
  rw [hd]

/-! ### Text bodies -/

theorem textRow_ok (fio : FloatIO F) (r : List F) (w : Nat) (h : r.length = w) :
    textRow fio w (joinWith ' ' (r.map fio.fmt) ++ ['\n']) = .ok r := by
  have ht : ∀ t ∈ r.map fio.fmt, IsTok t := by
    intro t ht
    obtain ⟨x, _, rfl⟩ := List.mem_map.mp ht
    exact fio.tok x
  unfold textRow
  rw [splitWs_line _ ht, if_neg (by rw [List.length_map, h]; simp)]
  clear h ht
  induction r with
  | nil => rfl
  | cons x r ih => simp only [List.map_cons, mapRes, fio.parse_fmt, ih]

theorem mapRes_textRow (fio : FloatIO F) (rows : List (List F)) (w : Nat) (h : ∀ r ∈ rows, r.length = w) :
    mapRes (textRow fio w) (rows.map (fun r => joinWith ' ' (r.map fio.fmt) ++ ['\n'])) = .ok rows := by
  induction rows with
  | nil => rfl
  | cons r rows ih =>
    simp only [List.map_cons, mapRes, textRow_ok fio r w (h r (by simp)), ih (fun r hr => h r (by simp [hr]))]

theorem mapRes_lookup (table : Dict Dtype) (pp : List (String × String))
    (h : ∀ p ∈ pp, ∃ d, Dict.get? table p.1 = some d) :
    ∃ ds, mapRes (fun p : String × String => lookup table p.1) pp = .ok ds ∧
      pp.map (fun p => Dict.get? table p.1) = ds.map some := by
  induction pp with
  | nil => exact ⟨[], rfl, rfl⟩
  | cons p pp ih =>
    obtain ⟨ds, h1, h2⟩ := ih (fun p hp => h p (by simp [hp]))
    obtain ⟨d, hd⟩ := h p (by simp)
    refine ⟨d :: ds, ?_, ?_⟩
    · simp only [mapRes, lookup, hd] at h1 ⊢
      rw [h1]
    · simp [hd, h2]

/-- The data columns after the coordinates. -/
def extraColumns (names : List String) (ex : List (List F)) : List (String × List F) :=
  names.zipIdx.map (fun ni => (ni.1, column ex ni.2))

theorem zipIdx_drop3 {α β : Type} (a b c : α) (l : List α) (f : α × Nat → β) :
    ((a :: b :: c :: l).zipIdx.drop 3).map f = l.zipIdx.map (fun ni => f (ni.1, ni.2 + 3)) := by
  simp only [List.zipIdx_cons, List.drop_succ_cons, List.drop_zero]
  rw [show (0 + 1 + 1 + 1) = 3 from rfl]
  apply List.ext_getElem
  · simp
  · intro i h1 h2
    simp [Nat.add_comm]

/-- Text points: rows of three coordinates and the data. -/
theorem asciiPoints_ok (fio : FloatIO F) (nc : Nat) (cp : List (CType × String)) (t1 t2 t3 : String)
    (extra : List (String × String)) (rows : List (List F × List F))
    (hrows : ∀ r ∈ rows, r.1.length = 3 ∧ r.2.length = extra.length) (hne : rows ≠ [])
    (hone : rows.length = 1 → extra = [])
    (htab : ∀ p ∈ (t1, "x") :: (t2, "y") :: (t3, "z") :: extra, ∃ d, Dict.get? asciiTable p.1 = some d)
    (hnd : ((((t1, "x") :: (t2, "y") :: (t3, "z") :: extra).map (·.2))).Nodup) (rest : List (List Char)) :
    asciiPoints fio ⟨rows.length, nc, (t1, "x") :: (t2, "y") :: (t3, "z") :: extra, cp⟩
      (rows.map (fun r => joinWith ' ' ((r.1 ++ r.2).map fio.fmt) ++ ['\n']) ++ rest) =
      .ok (rows.map (·.1), extraColumns (extra.map (·.2)) (rows.map (·.2))) := by
  obtain ⟨ds, h1, _⟩ := mapRes_lookup asciiTable _ htab
  have hrt : recordType asciiTable ((t1, "x") :: (t2, "y") :: (t3, "z") :: extra) = .ok ds := by
    unfold recordType
    rw [h1]
    exact if_pos hnd
  have hl : rows.length ≠ 0 := by
    intro h; exact hne (List.length_eq_zero_iff.mp h)
  unfold asciiPoints
  simp only
  rw [hrt]
  simp only
  rw [if_neg hl, if_neg (by simp), List.take_left' (by simp)]
  have hm := mapRes_textRow fio (rows.map (fun r => r.1 ++ r.2)) (extra.length + 3)
    (by
      intro r hr
      obtain ⟨x, hx, rfl⟩ := List.mem_map.mp hr
      rw [List.length_append, (hrows x hx).1, (hrows x hx).2, Nat.add_comm])
  rw [List.map_map] at hm
  rw [show ((t1, "x") :: (t2, "y") :: (t3, "z") :: extra).length = extra.length + 3 from rfl]
  rw [show (fun r : List F × List F => joinWith ' ' (List.map fio.fmt (r.1 ++ r.2)) ++ ['\n']) =
    (fun r => joinWith ' ' (List.map fio.fmt r) ++ ['\n']) ∘ fun r : List F × List F => r.1 ++ r.2 from rfl, hm]
  simp only
  rw [if_neg (by simp only [List.length_map, List.length_cons]; omega)]
  have hcs : coordColumns (((t1, "x") :: (t2, "y") :: (t3, "z") :: extra).map (·.2)) = [0, 1, 2] := by
    simp [coordColumns]
  rw [hcs, if_neg (by simp), if_neg (by
    rintro ⟨ha, hb⟩
    rw [hone ha] at hb
    simp at hb)]
  simp only [List.length_cons, List.length_nil, List.map_cons]
  rw [zipIdx_drop3]
  congr 2
  · rw [List.map_map]
    apply List.map_congr_left
    intro r hr
    obtain ⟨pt, ex⟩ := r
    obtain ⟨hp, _⟩ := hrows _ hr
    match pt, hp with
    | [a, b, c], _ => rfl
  · unfold extraColumns
    apply List.map_congr_left
    intro ni hni
    unfold column
    rw [List.filterMap_map, List.filterMap_map]
    congr 1
    apply filterMap_congr'
    intro r hr
    obtain ⟨hp, _⟩ := hrows r hr
    simp only [Function.comp_def]
    rw [List.getElem?_append_right (by omega), hp]
    congr 1

/-- One face in a text file: the vertices and the data. -/
structure Face (F : Type) where
  idx : List Int
  vals : List F

/-- The tokens of a face. -/
def Face.toks (fio : FloatIO F) (f : Face F) : List (List Char) :=
  fmtNat f.idx.length :: (f.idx.map fmtInt ++ f.vals.map fio.fmt)

theorem toInts_fmt (l : List Int) : toInts (l.map fmtInt) = .ok l := by
  unfold toInts
  induction l with
  | nil => rfl
  | cons x r ih => simp only [List.map_cons, mapRes, parseInt_fmtInt, ih]

/-- The scalar properties of a face. -/
theorem faceProps_scalars (fio : FloatIO F) (pre : List (List Char)) (vals : List F) (n : Nat)
    (ss : List (String × String)) (hl : vals.length = ss.length)
    (hs : ∀ s ∈ ss, s.2 ≠ "vertex_indices" ∧ ∃ d, Dict.get? asciiTable s.1 = some d) (st : FaceSt F) :
    faceProps fio (pre ++ vals.map fio.fmt) (ss.map (fun s => (.scalar s.1, s.2))) pre.length (some n) st =
      .ok ⟨st.blocks, (ss.zip vals).foldl (fun cd sv => addData cd sv.1.2 n sv.2) st.cd⟩ := by
  induction ss generalizing pre vals st with
  | nil =>
    cases vals with
    | nil => rfl
    | cons v vals => simp at hl
  | cons s ss ih =>
    cases vals with
    | nil => simp at hl
    | cons v vals =>
      obtain ⟨h1, d, hd⟩ := hs s (by simp)
      have hlook : lookup asciiTable s.1 = .ok d := by simp only [lookup, hd]
      have hget : (pre ++ (v :: vals).map fio.fmt)[pre.length]? = some (fio.fmt v) := by
        rw [List.getElem?_append_right (Nat.le_refl _)]; simp
      rw [List.map_cons (f := fun s : String × String => (CType.scalar s.1, s.2))]
      unfold faceProps
      rw [if_neg h1]
      simp only [hlook, hget, fio.parse_fmt]
      have := ih (pre ++ [fio.fmt v]) vals (by simpa using hl) (fun s h => hs s (by simp [h]))
        { st with cd := addData st.cd s.2 n v }
      simp only [List.length_append, List.length_cons, List.length_nil, List.append_assoc,
        List.cons_append, List.nil_append, Nat.zero_add] at this
      rw [List.map_cons, this]
      rfl

/-- What a face does to the state. -/
def faceStep (ss : List (String × String)) (st : FaceSt F) (f : Face F) : FaceSt F :=
  ⟨pushFace st.blocks (f.idx.length, f.idx),
    (ss.zip f.vals).foldl (fun cd sv => addData cd sv.1.2 f.idx.length sv.2) st.cd⟩

theorem faceProps_ok (fio : FloatIO F) (cf vf : String) (cd vd : Dtype)
    (hcf : Dict.get? asciiTable cf = some cd) (hvf : Dict.get? asciiTable vf = some vd) (hvd : vd.kind ≠ .float)
    (ss : List (String × String))
    (hs : ∀ s ∈ ss, s.2 ≠ "vertex_indices" ∧ ∃ d, Dict.get? asciiTable s.1 = some d)
    (f : Face F) (hl : f.vals.length = ss.length) (hn : f.idx.length < 255) (st : FaceSt F) :
    faceProps fio (f.toks fio) ((.list cf vf, "vertex_indices") :: ss.map (fun s => (.scalar s.1, s.2))) 0 none st =
      .ok (faceStep ss st f) := by
  have h1 : lookup asciiTable cf = .ok cd := by simp only [lookup, hcf]
  have h2 : lookup asciiTable vf = .ok vd := by simp only [lookup, hvf]
  have h3 : ((f.toks fio)[0]?).map parseInt = some (some (f.idx.length : Int)) := by
    simp [Face.toks]
  have h4 : pySlice (f.toks fio) (0 + 1) (0 + f.idx.length + 1) = f.idx.map fmtInt := by
    unfold pySlice Face.toks
    rw [Nat.zero_add, List.drop_succ_cons, List.drop_zero, Nat.zero_add, Nat.add_sub_cancel]
    exact List.take_left' (by simp)
  rw [faceProps, if_pos rfl]
  simp only [h1, h2, h3]
  rw [if_neg (by simp only [hvd, or_false]; omega)]
  simp only [Int.toNat_natCast]
  rw [h4, toInts_fmt]
  simp only
  have := faceProps_scalars fio (fmtNat f.idx.length :: f.idx.map fmtInt) f.vals f.idx.length ss hl hs
    { st with blocks := pushFace st.blocks (f.idx.length, f.idx) }
  simp only [List.length_cons, List.length_map, List.cons_append] at this
  rw [Nat.zero_add]
  exact this

theorem faces_ok (fio : FloatIO F) (cf vf : String) (cd vd : Dtype)
    (hcf : Dict.get? asciiTable cf = some cd) (hvf : Dict.get? asciiTable vf = some vd) (hvd : vd.kind ≠ .float)
    (ss : List (String × String))
    (hs : ∀ s ∈ ss, s.2 ≠ "vertex_indices" ∧ ∃ d, Dict.get? asciiTable s.1 = some d)
    (fs : List (Face F)) (hf : ∀ f ∈ fs, f.vals.length = ss.length ∧ f.idx.length < 255) (st : FaceSt F)
    (rest : List (List Char)) :
    faces fio ((.list cf vf, "vertex_indices") :: ss.map (fun s => (.scalar s.1, s.2))) fs.length
      (fs.map (fun f => joinWith ' ' (f.toks fio) ++ ['\n']) ++ rest) st = .ok (fs.foldl (faceStep ss) st) := by
  induction fs generalizing st with
  | nil => rfl
  | cons f fs ih =>
    have ht : ∀ t ∈ f.toks fio, IsTok t := by
      intro t ht
      simp only [Face.toks, List.mem_cons, List.mem_append, List.mem_map] at ht
      rcases ht with rfl | ⟨x, _, rfl⟩ | ⟨x, _, rfl⟩
      · exact isTok_fmtNat _
      · exact isTok_fmtInt _
      · exact fio.tok _
    rw [List.length_cons, List.map_cons, List.cons_append, faces, List.headD_cons, splitWs_strip,
      splitWs_line _ ht, faceProps_ok fio cf vf cd vd hcf hvf hvd ss hs f (hf f (by simp)).1 (hf f (by simp)).2]
    simp only [List.drop_succ_cons, List.drop_zero]
    rw [ih (fun f h => hf f (by simp [h]))]
    rfl

/-- The blocks: runs of faces with equally many vertices. -/
def faceBlocks (rows : List (List Int)) : List (String × List (List Int)) :=
  (runsBy List.length rows).map (fun r => (cellTypeFromCount ((r.head?.map List.length).getD 0), r))

theorem foldl_pushFace (rows : List (List Int)) :
    rows.foldl (fun bs r => pushFace bs (r.length, r)) [] = faceBlocks rows := by
  have := foldl_pushBy (α := List Int) (β := String × List (List Int)) List.length
    (fun b a => ((b.2.getLast?).map List.length) == some a.length) (fun b a => (b.1, b.2 ++ [a]))
    (fun a => (cellTypeFromCount a.length, [a]))
    (fun r => (cellTypeFromCount ((r.head?.map List.length).getD 0), r))
    (fun a => rfl)
    (by
      intro r x a hr
      simp only [beq_iff_eq]
      have : ∃ y ∈ x :: r, (x :: r).getLast? = some y := by
        refine ⟨(x :: r).getLast (by simp), List.getLast_mem _, List.getLast?_eq_some_getLast _⟩
      obtain ⟨y, hy, e⟩ := this
      rw [e]
      simp only [Option.map_some, Option.some.injEq]
      rcases List.mem_cons.mp hy with rfl | hy
      · exact Iff.rfl
      · rw [hr y hy])
    (by intro r x a _ _; rfl)
    rows
  rw [← show _ = faceBlocks rows from this]
  rfl

theorem foldl_faceStep_blocks (ss : List (String × String)) (fs : List (Face F)) (st : FaceSt F) :
    (fs.foldl (faceStep ss) st).blocks = (fs.map (·.idx)).foldl (fun bs r => pushFace bs (r.length, r)) st.blocks := by
  induction fs generalizing st with
  | nil => rfl
  | cons f fs ih => rw [List.foldl_cons, ih]; rfl

theorem addData_cons_ne (k : String) (g : List (Nat × List F)) (rest : List (String × List (Nat × List F)))
    (n : Nat) (l : List ((String × String) × F)) (h : ∀ sv ∈ l, sv.1.2 ≠ k) :
    l.foldl (fun cd sv => addData cd sv.1.2 n sv.2) ((k, g) :: rest) =
      (k, g) :: l.foldl (fun cd sv => addData cd sv.1.2 n sv.2) rest := by
  induction l generalizing rest with
  | nil => rfl
  | cons sv l ih =>
    rw [List.foldl_cons, List.foldl_cons]
    have : addData ((k, g) :: rest) sv.1.2 n sv.2 = (k, g) :: addData rest sv.1.2 n sv.2 := by
      unfold addData
      rw [List.map_cons, if_neg (fun h' => h sv (by simp) h'.symm)]
    rw [this, ih _ (fun sv h' => h sv (by simp [h']))]

theorem addData_not_mem (rest : List (String × List (Nat × List F))) (k : String) (n : Nat) (v : F)
    (h : k ∉ rest.map (·.1)) : addData rest k n v = rest := by
  unfold addData
  conv => rhs; rw [← List.map_id rest]
  apply List.map_congr_left
  intro kv hkv
  rw [if_neg]
  · rfl
  · intro e; exact h (by rw [← e]; exact List.mem_map_of_mem hkv)

theorem foldl_addData (ss : List (String × String)) (hnd : (ss.map (·.2)).Nodup) (n : Nat) (vals : List F)
    (hl : vals.length = ss.length) (gs : List (List (Nat × List F))) (hg : gs.length = ss.length) :
    (ss.zip vals).foldl (fun cd sv => addData cd sv.1.2 n sv.2) (List.zip (ss.map (·.2)) gs) =
      List.zip (ss.map (·.2)) (List.zipWith (fun g v => addTo g n v) gs vals) := by
  induction ss generalizing vals gs with
  | nil => rfl
  | cons s ss ih =>
    cases vals with
    | nil => simp at hl
    | cons v vals =>
      cases gs with
      | nil => simp at hg
      | cons g gs =>
        simp only [List.map_cons, List.nodup_cons] at hnd
        simp only [List.map_cons, List.zip_cons_cons, List.foldl_cons, List.zipWith_cons_cons]
        have e : addData ((s.2, g) :: (List.map (fun x => x.2) ss).zip gs) s.2 n v =
            (s.2, addTo g n v) :: (List.map (fun x => x.2) ss).zip gs := by
          have := addData_not_mem ((List.map (fun x => x.2) ss).zip gs) s.2 n v (by
            intro hm
            obtain ⟨kv, hkv, e⟩ := List.mem_map.mp hm
            have := (List.of_mem_zip (show (kv.1, kv.2) ∈ _ from hkv)).1
            rw [e] at this
            exact hnd.1 this)
          unfold addData at this ⊢
          rw [List.map_cons, this, if_pos rfl]
        rw [e, addData_cons_ne, ih hnd.2 vals (by simpa using hl) gs (by simpa using hg)]
        intro sv hsv e
        have := (List.of_mem_zip (show (sv.1, sv.2) ∈ _ from hsv)).1
        exact hnd.1 (by rw [← e]; exact List.mem_map_of_mem this)

/-- Values of one property, sorted by the number of vertices. -/
def collect (j : Nat) (fs : List (Face F)) (g : List (Nat × List F)) : List (Nat × List F) :=
  fs.foldl (fun g f => match f.vals[j]? with | some v => addTo g f.idx.length v | none => g) g

theorem foldl_faceStep_cd (ss : List (String × String)) (hnd : (ss.map (·.2)).Nodup) (fs : List (Face F))
    (hf : ∀ f ∈ fs, f.vals.length = ss.length) (bs : List (String × List (List Int)))
    (G : Nat → List (Nat × List F)) :
    (fs.foldl (faceStep ss) ⟨bs, List.zip (ss.map (·.2)) ((List.range ss.length).map G)⟩).cd =
      List.zip (ss.map (·.2)) ((List.range ss.length).map (fun j => collect j fs (G j))) := by
  induction fs generalizing bs G with
  | nil => rfl
  | cons f fs ih =>
    have hl := hf f (by simp)
    rw [List.foldl_cons]
    have e : faceStep ss ⟨bs, List.zip (ss.map (·.2)) ((List.range ss.length).map G)⟩ f =
        ⟨pushFace bs (f.idx.length, f.idx), List.zip (ss.map (·.2)) ((List.range ss.length).map
          (fun j => match f.vals[j]? with | some v => addTo (G j) f.idx.length v | none => G j))⟩ := by
      unfold faceStep
      simp only
      rw [foldl_addData ss hnd _ _ hl _ (by simp)]
      congr 2
      apply List.ext_getElem
      · simp [hl]
      · intro i h1 h2
        simp only [List.length_map, List.length_range] at h2
        simp [List.getElem?_eq_getElem (show i < f.vals.length by omega)]
    rw [e, ih (fun f h => hf f (by simp [h]))]
    rfl

theorem addTo_not_mem (g : List (Nat × List F)) (n : Nat) (v : F) (h : n ∉ g.map (·.1)) :
    addTo g n v = g ++ [(n, [v])] := by
  induction g with
  | nil => rfl
  | cons a g ih =>
    simp only [List.map_cons, List.mem_cons, not_or] at h
    obtain ⟨k, l⟩ := a
    rw [addTo, if_neg (fun e => h.1 e.symm), ih h.2]
    rfl

theorem addTo_last (g : List (Nat × List F)) (n : Nat) (l : List F) (v : F) (h : n ∉ g.map (·.1)) :
    addTo (g ++ [(n, l)]) n v = g ++ [(n, l ++ [v])] := by
  induction g with
  | nil => simp [addTo]
  | cons a g ih =>
    simp only [List.map_cons, List.mem_cons, not_or] at h
    obtain ⟨k, l'⟩ := a
    rw [List.cons_append, addTo, if_neg (fun e => h.1 e.symm), ih h.2]
    rfl

theorem collect_run (j : Nat) (n : Nat) (r : List (Face F)) (hr : ∀ f ∈ r, f.idx.length = n ∧ j < f.vals.length)
    (hne : r ≠ []) (g : List (Nat × List F)) (hn : n ∉ g.map (·.1)) :
    collect j r g = g ++ [(n, r.filterMap (·.vals[j]?))] := by
  have key : ∀ (r : List (Face F)) (l : List F), (∀ f ∈ r, f.idx.length = n ∧ j < f.vals.length) →
      collect j r (g ++ [(n, l)]) = g ++ [(n, l ++ r.filterMap (·.vals[j]?))] := by
    intro r
    induction r with
    | nil => intro l _; simp [collect]
    | cons f r ih =>
      intro l hr
      obtain ⟨h1, h2⟩ := hr f (by simp)
      have e := List.getElem?_eq_getElem h2
      have : collect j (f :: r) (g ++ [(n, l)]) = collect j r (g ++ [(n, l ++ [f.vals[j]])]) := by
        unfold collect
        rw [List.foldl_cons, e]
        simp only
        rw [h1, addTo_last _ _ _ _ hn]
      rw [this, ih _ (fun f hf => hr f (by simp [hf])), List.filterMap_cons, e]
      simp
  cases r with
  | nil => exact absurd rfl hne
  | cons f r =>
    obtain ⟨h1, h2⟩ := hr f (by simp)
    have e := List.getElem?_eq_getElem h2
    have : collect j (f :: r) g = collect j r (g ++ [(n, [f.vals[j]])]) := by
      unfold collect
      rw [List.foldl_cons, e]
      simp only
      rw [h1, addTo_not_mem _ _ _ hn]
    rw [this, key r _ (fun f hf => hr f (by simp [hf])), List.filterMap_cons, e]
    simp

theorem collect_append (j : Nat) (a b : List (Face F)) (g : List (Nat × List F)) :
    collect j (a ++ b) g = collect j b (collect j a g) := by
  unfold collect; rw [List.foldl_append]

/-- Runs of different sizes are kept apart. -/
theorem collect_runs (j : Nat) (rs : List (List (Face F)))
    (hr : ∀ r ∈ rs, r ≠ [] ∧ ∀ f ∈ r, f.idx.length = (r.head?.map (fun f => f.idx.length)).getD 0 ∧ j < f.vals.length)
    (hnd : (rs.map (fun r => (r.head?.map (fun f => f.idx.length)).getD 0)).Nodup)
    (g : List (Nat × List F))
    (hg : ∀ n ∈ rs.map (fun r => (r.head?.map (fun f => f.idx.length)).getD 0), n ∉ g.map (·.1)) :
    (collect j rs.flatten g).map (·.2) = g.map (·.2) ++ rs.map (fun r => r.filterMap (·.vals[j]?)) := by
  induction rs generalizing g with
  | nil => simp [collect]
  | cons r rs ih =>
    obtain ⟨hne, hu⟩ := hr r (by simp)
    rw [List.map_cons, List.nodup_cons] at hnd
    rw [List.flatten_cons, collect_append, collect_run j _ r hu hne g (hg _ (by simp)),
      ih (fun r h => hr r (by simp [h])) hnd.2]
    · simp
    · intro n hn
      rw [List.map_append, List.mem_append, not_or]
      refine ⟨hg n (by simp only [List.map_cons, List.mem_cons]; exact Or.inr hn), ?_⟩
      simp only [List.map_cons, List.map_nil, List.mem_singleton]
      rintro rfl
      exact hnd.1 hn

/-! ### Binary bodies -/

theorem byte_char : ∀ b : Byte, (Fin.ofNat 256 (Char.ofNat b.val).toNat : Byte) = b := by decide +kernel

theorem toBytes_ofBytes (b : List Byte) : toBytes (ofBytes b) = b := by
  unfold toBytes ofBytes
  rw [List.map_map]
  conv => rhs; rw [← List.map_id b]
  apply List.map_congr_left
  intro x _
  exact byte_char x

theorem flatten_fileLines (s : List Char) : (fileLines s).flatten = s := by
  induction s with
  | nil => rfl
  | cons c s ih =>
    unfold fileLines
    split
    · next h => rw [List.flatten_cons, ih, h]; rfl
    · cases hf : fileLines s with
      | nil => rw [hf] at ih; simp only [List.flatten_nil] at ih; rw [← ih]; rfl
      | cons l ls => rw [hf, List.flatten_cons] at ih; simp only [List.flatten_cons, List.cons_append]; rw [ih]

theorem length_recordBytes (tio : TypedIO F) (big : Bool) (ds : List Dtype) (xs : List F)
    (h : xs.length = ds.length) : (recordBytes tio big ds xs).length = (ds.map (·.size)).sum := by
  induction ds generalizing xs with
  | nil => cases xs <;> simp [recordBytes]
  | cons d ds ih =>
    cases xs with
    | nil => simp at h
    | cons x xs => simp [recordBytes, tio.len, ih xs (by simpa using h)]

theorem fields_recordBytes (tio : TypedIO F) (big : Bool) (ds : List Dtype) (xs : List F)
    (h : xs.length = ds.length) (hok : ∀ dx ∈ ds.zip xs, tio.ok dx.1 dx.2) :
    fields tio big ds (recordBytes tio big ds xs) = xs := by
  induction ds generalizing xs with
  | nil =>
    cases xs with
    | nil => rfl
    | cons x xs => simp at h
  | cons d ds ih =>
    cases xs with
    | nil => simp at h
    | cons x xs =>
      rw [recordBytes, fields, List.take_left' (tio.len big d x), List.drop_left' (tio.len big d x),
        tio.dec_enc big d x (hok (d, x) (by simp)), ih xs (by simpa using h)
          (fun dx hdx => hok dx (by simp [hdx]))]

/-- Does the dtype represent the integer? -/
def InRange (d : Dtype) (z : Int) : Prop :=
  match d.kind with
  | .uint => 0 ≤ z ∧ z < (256 ^ d.size : Nat)
  | .int => IsInt d.size z
  | .float => False

theorem intOf_intEnc (big : Bool) (d : Dtype) (z : Int) (h : InRange d z) :
    intOf big d (intEnc big d.size z) = z := by
  obtain ⟨k, n⟩ := d
  cases k with
  | uint =>
    obtain ⟨h1, h2⟩ := h
    show ((natDec big (natEnc big n (z % ((256 : Int) ^ n)).toNat) : Nat) : Int) = z
    have hm : z % ((256 : Int) ^ n) = z := Int.emod_eq_of_lt h1 (by simpa using h2)
    rw [hm, natDec_natEnc _ _ _ (by simp only at h2; omega)]
    omega
  | int =>
    show intDec big _ = z
    exact intDec_intEnc _ _ _ h
  | float => exact absurd h (by simp [InRange])

/-- A row of a list property: the count in `cs` bytes, then the entries. -/
def listRow (big : Bool) (cs : Nat) (vd : Dtype) (r : List Int) : List Byte :=
  natEnc big cs r.length ++ r.flatMap (intEnc big vd.size)

theorem length_listRow (big : Bool) (cs : Nat) (vd : Dtype) (r : List Int) :
    (listRow big cs vd r).length = r.length * vd.size + cs := by
  unfold listRow
  rw [List.length_append, length_natEnc, length_flatMap_const vd.size _ _ (fun a _ => length_intEnc _ _ _)]
  omega

theorem rowLengths_ok (big : Bool) (cs : Nat) (vd : Dtype) (rows : List (List Int))
    (h : ∀ r ∈ rows, r.length < 256 ^ cs) (rest : List Byte) :
    rowLengths big cs vd.size rows.length (rows.flatMap (listRow big cs vd) ++ rest) =
      rows.map (fun r => r.length * vd.size + cs) := by
  induction rows with
  | nil => rfl
  | cons r rows ih =>
    have e : (r :: rows).flatMap (listRow big cs vd) ++ rest =
        natEnc big cs r.length ++ (r.flatMap (intEnc big vd.size) ++ (rows.flatMap (listRow big cs vd) ++ rest)) := by
      simp [listRow]
    have e2 : (r :: rows).flatMap (listRow big cs vd) ++ rest =
        listRow big cs vd r ++ (rows.flatMap (listRow big cs vd) ++ rest) := by simp
    rw [List.length_cons, rowLengths]
    have ht : ((r :: rows).flatMap (listRow big cs vd) ++ rest).take cs = natEnc big cs r.length := by
      rw [e]; exact List.take_left' (length_natEnc _ _ _)
    rw [ht, natDec_natEnc _ _ _ (h r (by simp)), e2, List.drop_left' (length_listRow ..),
      ih (fun r hr => h r (by simp [hr]))]
    rfl

theorem drop_flatMap {α : Type} (f : α → List Byte) (g : α → Nat) (hfg : ∀ a, (f a).length = g a)
    (l : List α) (s : Nat) (rest : List Byte) (hs : s ≤ l.length) :
    (l.flatMap f ++ rest).drop (((l.map g).take s).sum) = (l.drop s).flatMap f ++ rest := by
  induction s generalizing l with
  | zero => simp
  | succ s ih =>
    cases l with
    | nil => simp at hs
    | cons a l =>
      simp only [List.map_cons, List.take_succ_cons, List.sum_cons, List.flatMap_cons, List.append_assoc,
        List.drop_succ_cons]
      rw [← List.drop_drop, List.drop_left' (hfg a)]
      exact ih l (by simpa using hs)

theorem take_flatMap {α : Type} (f : α → List Byte) (g : α → Nat) (hfg : ∀ a, (f a).length = g a)
    (l : List α) (s : Nat) (rest : List Byte) (hs : s ≤ l.length) :
    (l.flatMap f ++ rest).take (((l.map g).take s).sum) = (l.take s).flatMap f := by
  induction s generalizing l with
  | zero => simp
  | succ s ih =>
    cases l with
    | nil => simp at hs
    | cons a l =>
      simp only [List.map_cons, List.take_succ_cons, List.sum_cons, List.flatMap_cons, List.append_assoc]
      rw [List.take_append, List.take_of_length_le (by rw [hfg a]; omega), hfg a, Nat.add_sub_cancel_left,
        ih l (by simpa using hs)]

theorem pySlice_flatMap {α : Type} (f : α → List Byte) (g : α → Nat) (hfg : ∀ a, (f a).length = g a)
    (l : List α) (s e : Nat) (rest : List Byte) (hs : s ≤ e) (he : e ≤ l.length) :
    pySlice (l.flatMap f ++ rest) (((l.map g).take s).sum) (((l.map g).take e).sum) =
      (pySlice l s e).flatMap f := by
  unfold pySlice
  rw [drop_flatMap f g hfg l s rest (by omega)]
  have : ((l.map g).take e).sum - ((l.map g).take s).sum = (((l.drop s).map g).take (e - s)).sum := by
    have h1 : (l.map g).take e = (l.map g).take s ++ ((l.map g).drop s).take (e - s) := by
      have := List.take_append_drop s ((l.map g).take e)
      rw [List.take_take, Nat.min_eq_left hs, List.drop_take] at this
      exact this.symm
    rw [h1, List.sum_append, List.map_drop]
    omega
  rw [this, take_flatMap f g hfg _ _ rest (by simp; omega)]

theorem mapRes_map_congr {α β γ : Type} (f : α → Res β) (l : List α) (p : α → γ) (g : γ → β)
    (h : ∀ a ∈ l, f a = .ok (g (p a))) : mapRes f l = .ok ((l.map p).map g) := by
  rw [mapRes_ok_of_forall (g := fun a => g (p a)) h, List.map_map]
  rfl

theorem segsFrom_mem (i : Nat) (ns : List Nat) (se : Nat × Nat) (h : se ∈ segsFrom i ns) (hp : ∀ n ∈ ns, 0 < n) :
    se.1 < se.2 ∧ se.2 ≤ i + ns.sum := by
  induction ns generalizing i with
  | nil => simp [segsFrom] at h
  | cons n ns ih =>
    simp only [segsFrom, List.mem_cons] at h
    have := hp n (by simp)
    rcases h with rfl | h
    · simp only [List.sum_cons]; omega
    · have := ih (i + n) h (fun n hn => hp n (by simp [hn]))
      simp only [List.sum_cons]; omega

/-- A list property: runs of rows with equally many entries. -/
theorem readList_ok (one big : Bool) (cd vd : Dtype) (hvd : 0 < vd.size) (rows : List (List Int))
    (h : ∀ r ∈ rows, r.length < 256 ^ cd.size ∧ (one = true → r.length ≠ 1) ∧ ∀ z ∈ r, InRange vd z)
    (hcd : 0 < cd.size) (rest : List Byte) :
    readList one big cd vd rows.length (rows.flatMap (listRow big cd.size vd) ++ rest) =
      .ok ((rows.map (fun r => r.length * vd.size + cd.size)).sum, faceBlocks rows) := by
  have hl := rowLengths_ok big cd.size vd rows (fun r hr => (h r hr).1) rest
  unfold readList
  dsimp only
  rw [hl]
  cases rows with
  | nil => rfl
  | cons r0 rows0 =>
    generalize hrows : r0 :: rows0 = rows at *
    have hne : rows.map (fun r : List Int => r.length * vd.size + cd.size) ≠ [] := by rw [← hrows]; simp
    rw [startEnd_eq hne]
    have hpos : ∀ n ∈ runLens (rows.map (fun r : List Int => r.length * vd.size + cd.size)), 0 < n :=
      fun n hn => runLens_pos hn
    have hfilter : (segsFrom 0 (runLens (rows.map (fun r : List Int => r.length * vd.size + cd.size)))).filter
        (fun se => decide (se.1 ≠ se.2)) = segsFrom 0 (runLens (rows.map (fun r : List Int => r.length * vd.size + cd.size))) := by
      rw [List.filter_eq_self]
      intro se hse
      have := segsFrom_mem _ _ _ hse hpos
      simp; omega
    rw [hfilter]
    have hruns : (segsFrom 0 (runLens (rows.map (fun r : List Int => r.length * vd.size + cd.size)))).map
        (fun se => pySlice rows se.1 se.2) = runsBy List.length rows := by
      have e1 : runsBy (fun r : List Int => r.length * vd.size + cd.size) rows = runsBy List.length rows := by
        apply runsBy_congr_key
        intro a _ b _
        constructor
        · intro hh
          have : a.length * vd.size = b.length * vd.size := by omega
          exact Nat.eq_of_mul_eq_mul_right hvd this
        · intro hh; rw [hh]
      rw [← e1, runsBy_eq_splitLens]
      have := map_pySlice_segs (runLens (rows.map (fun r : List Int => r.length * vd.size + cd.size))) 0 rows
      simpa using this
    rw [mapRes_map_congr _ _ (fun se => pySlice rows se.1 se.2)
      (fun r => (cellTypeFromCount ((r.head?.map List.length).getD 0), r)), hruns]
    · rfl
    · intro se hse
      have hseg := segsFrom_mem _ _ _ hse hpos
      rw [sum_runLens, List.length_map, Nat.zero_add] at hseg
      have hmem : pySlice rows se.1 se.2 ∈ runsBy List.length rows := by
        rw [← hruns]; exact List.mem_map_of_mem hse
      have hu := runsBy_uniform List.length rows _ hmem
      have hnn := runsBy_ne_nil List.length rows _ hmem
      rw [pySlice_flatMap (listRow big cd.size vd) (fun r => r.length * vd.size + cd.size)
        (length_listRow big cd.size vd) rows se.1 se.2 rest (by omega) hseg.2]
      have hsub : ∀ x ∈ pySlice rows se.1 se.2, x ∈ rows := by
        intro x hx
        exact List.mem_of_mem_drop (List.mem_of_mem_take hx)
      have hhead : (pySlice rows se.1 se.2).head? = rows[se.1]? := by
        unfold pySlice
        rw [List.head?_take, if_neg (by omega), List.head?_drop]
      have hse1 : se.1 < rows.length := by omega
      rw [List.getElem?_eq_getElem hse1] at hhead
      generalize hx0 : rows[se.1] = x0 at hhead
      have hall : ∀ x ∈ pySlice rows se.1 se.2, x.length = x0.length := by
        intro x hx
        have h0 : x0 ∈ pySlice rows se.1 se.2 := List.mem_of_mem_head? hhead
        exact hu x hx x0 h0
      have hrec : (rows.map (fun r : List Int => r.length * vd.size + cd.size)).getD se.1 0 =
          x0.length * vd.size + cd.size := by
        rw [List.getD_eq_getElem?_getD, List.getElem?_map, List.getElem?_eq_getElem hse1, hx0]
        rfl
      have hx0m : x0 ∈ rows := by rw [← hx0]; exact List.getElem_mem _
      rw [hrec, hhead]
      have hlen := length_flatMap_const (x0.length * vd.size + cd.size) (listRow big cd.size vd)
        (pySlice rows se.1 se.2) (fun a ha => by rw [length_listRow, hall a ha])
      have hcols : (x0.length * vd.size + cd.size - cd.size) / vd.size = x0.length := by
        rw [Nat.add_sub_cancel, Nat.mul_div_cancel _ hvd]
      rw [if_neg (by rw [hlen]; simp), hcols, if_neg (by rintro ⟨h1, h2⟩; exact (h x0 hx0m).2.1 h1 h2)]
      congr 2
      rw [hlen, Nat.mul_div_cancel _ (by omega), items_flatMap' _ _ _ (fun a ha => by rw [length_listRow, hall a ha]),
        List.map_map]
      conv => rhs; rw [← List.map_id (pySlice rows se.1 se.2)]
      apply List.map_congr_left
      intro x hx
      simp only [Function.comp_def, id]
      unfold listRow
      rw [List.drop_left' (length_natEnc _ _ _), ← hall x hx, items_flatMap' _ _ _ (fun a _ => length_intEnc _ _ _),
        List.map_map]
      conv => rhs; rw [← List.map_id x]
      apply List.map_congr_left
      intro z hz
      exact intOf_intEnc big vd z ((h x (hsub x hx)).2.2 z hz)

end Meshio.Ply
