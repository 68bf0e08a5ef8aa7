/-
C46: triangles of WKT texts.
-/
import Verif.Proofs.Wkt
import Verif.Proofs.XdmfMixed
import Verif.Spec.Runs
namespace Meshio.Props
open Spec Wkt Re

variable {F : Type}

/-! ### Reading -/

/-- C46: from every well-formed text, with blanks anywhere, the triangles are read: the corners of the i-th triangle are those of
the i-th polygon, in order; equal corners are one point; and there are no other points. -/
theorem C46_read [DecidableEq F] (io : FloatIO F) (t : WktTin F) (h : t.Ok io.fmt) (hc : t.Closed) :
    ∃ m, Wkt.read io.parse (t.text io.fmt) = .ok m ∧ m.points.Nodup ∧
      m.cells.map (fun r => r.map fun i => m.points[i]?) = t.tris.map (fun r => r.1.corners.map some) ∧
      ∀ q ∈ m.points, ∃ r ∈ t.tris, q ∈ r.1.corners := by
  obtain ⟨n, hn⟩ := hc
  obtain ⟨pts, rows, e, -, hnd, hrows, hmem⟩ := addTris_ok io t.tris (fun r hr => (h.tris r hr).1) ⟨[], []⟩ List.nodup_nil
    (fun r hr => (hn r hr).1)
  have hmem' : ∀ q ∈ pts, ∃ r ∈ t.tris, q ∈ r.1.corners := by
    intro q hq
    rcases hmem q hq with hq | hq
    · simp at hq
    · exact hq
  refine ⟨⟨pts, rows⟩, ?_, hnd, hrows, hmem'⟩
  rw [read_text io t h, e]
  simp only [List.nil_append]
  rw [if_pos]
  rw [List.all_eq_true]
  intro p hp
  rw [decide_eq_true_eq]
  have hlen : ∀ q ∈ pts, q.length = n := by
    intro q hq
    obtain ⟨r, hr, hq⟩ := hmem' q hq
    exact (hn r hr).2 q hq
  cases pts with
  | nil => simp at hp
  | cons a pts => rw [List.headD_cons, hlen p hp, hlen a (by simp)]

/-- C46: a polygon whose last corner is not its first one stops the reader with a ValueError. -/
theorem C46_unclosed [DecidableEq F] (io : FloatIO F) (t : WktTin F) (h : t.Ok io.fmt)
    (hu : ∃ r ∈ t.tris, r.1.d.coords ≠ r.1.a.coords) : Wkt.read io.parse (t.text io.fmt) = .error .valueError := by
  rw [read_text io t h]
  have : ∀ (l : List (WktTri F × List Char × Option (List Char))) (st : Out F), (∀ r ∈ l, r.1.Ok io.fmt) → st.points.Nodup →
      (∃ r ∈ l, r.1.d.coords ≠ r.1.a.coords) →
      foldRes (addTri io.parse) st (l.map fun r => r.1.text io.fmt) = .error .valueError := by
    intro l
    induction l with
    | nil => intro st _ _ hx; obtain ⟨r, hr, -⟩ := hx; simp at hr
    | cons a l ih =>
      intro st hl hn hx
      rw [List.map_cons, foldRes]
      by_cases he : a.1.d.coords = a.1.a.coords
      · obtain ⟨pts, row, e, -, hn', -, -⟩ := (addTri_ok io st hn a.1 (hl a (by simp))).2 he
        rw [e]
        simp only
        refine ih _ (fun r hr => hl r (by simp [hr])) hn' ?_
        obtain ⟨r, hr, hne⟩ := hx
        rcases List.mem_cons.1 hr with rfl | hr
        · exact absurd he hne
        · exact ⟨r, hr, hne⟩
      · rw [(addTri_ok io st hn a.1 (hl a (by simp))).1 he]
  rw [this t.tris ⟨[], []⟩ (fun r hr => (h.tris r hr).1) List.nodup_nil hu]

/-- C46: corners with three and with four coordinates in one text are a ReadError. -/
theorem C46_mixed [DecidableEq F] (io : FloatIO F) (t : WktTin F) (h : t.Ok io.fmt)
    (hc : ∀ r ∈ t.tris, r.1.d.coords = r.1.a.coords) (hm : ∃ r ∈ t.tris, ∃ r' ∈ t.tris, ∃ p ∈ r.1.corners, ∃ q ∈ r'.1.corners, p.length ≠ q.length) :
    Wkt.read io.parse (t.text io.fmt) = .error .readError := by
  obtain ⟨pts, rows, e, -, -, hrows, -⟩ := addTris_ok io t.tris (fun r hr => (h.tris r hr).1) ⟨[], []⟩ List.nodup_nil hc
  have hin : ∀ r ∈ t.tris, ∀ p ∈ r.1.corners, p ∈ pts := by
    intro r hr p hp
    have : r.1.corners.map some ∈ rows.map (fun r => r.map fun i => pts[i]?) := by
      rw [hrows]
      exact List.mem_map.2 ⟨r, hr, rfl⟩
    obtain ⟨row, -, hrow⟩ := List.mem_map.1 this
    have : some p ∈ row.map fun i => pts[i]? := by
      rw [hrow]
      exact List.mem_map_of_mem hp
    obtain ⟨i, -, hi⟩ := List.mem_map.1 this
    exact List.mem_of_getElem? hi
  obtain ⟨r, hr, r', hr', p, hp, q, hq, hne⟩ := hm
  rw [read_text io t h, e]
  simp only
  rw [if_neg]
  intro ha
  rw [List.all_eq_true] at ha
  have h1 := ha p (hin r hr p hp)
  have h2 := ha q (hin r' hr' q hq)
  rw [decide_eq_true_eq] at h1 h2
  exact hne (h1.trans h2.symm)

/-! ### Malformed texts -/

theorem blank_of_star {u : List Char} (h : Matches (star ws) u) : Blank u := fun c hc => h.uses c hc

theorem digits_of_star {u : List Char} (h : Matches (star dig) u) : ∀ c ∈ u, c.isDigit = true := fun c hc => h.uses c hc

theorem plus_inv {p : Char → Bool} {u : List Char} (h : Matches (plus (chr p)) u) : u ≠ [] ∧ ∀ c ∈ u, p c = true := by
  constructor
  · cases h with
    | seq h1 h2 =>
      cases h1 with
      | chr => simp
  · intro c hc
    have := h.uses c hc
    simpa [plus, uses] using this

theorem lit_inv {c : Char} {u : List Char} (h : Matches (lit c) u) : u = [c] := by
  cases h with
  | chr h => rw [decide_eq_true_eq] at h; rw [h]

theorem opt_inv {r : Re} {u : List Char} (h : Matches (opt r) u) : Matches r u ∨ u = [] := by
  cases h with
  | altl h => exact Or.inl h
  | altr h => cases h; exact Or.inr rfl

theorem seq_inv {a b : Re} {u : List Char} (h : Matches (seq a b) u) : ∃ v w, u = v ++ w ∧ Matches a v ∧ Matches b w := by
  cases h with
  | seq h1 h2 => exact ⟨_, _, rfl, h1, h2⟩

theorem sign_inv {u : List Char} (h : Matches sign u) : u = [] ∨ u = ['+'] ∨ u = ['-'] := by
  rcases opt_inv h with h | h
  · cases h with
    | chr hc =>
      rw [Bool.or_eq_true, decide_eq_true_eq, decide_eq_true_eq] at hc
      rcases hc with hc | hc
      · exact Or.inr (Or.inl (by rw [hc]))
      · exact Or.inr (Or.inr (by rw [hc]))
  · exact Or.inl h

theorem float_inv {u : List Char} (h : Matches floatRe u) : Plain u := by
  obtain ⟨sg, r, rfl, hs, hr⟩ := seq_inv h
  have hs := sign_inv hs
  cases hr with
  | altl hr =>
    obtain ⟨d1, r, rfl, h1, hr⟩ := seq_inv hr
    obtain ⟨dot, d2, rfl, hd, h2⟩ := seq_inv hr
    obtain ⟨h1n, h1⟩ := plus_inv h1
    rcases opt_inv hd with hd | hd
    · rw [lit_inv hd]
      exact ⟨sg, d1, d2, hs, h1, digits_of_star h2, Or.inl ⟨h1n, Or.inr (by simp)⟩⟩
    · rw [hd]
      refine ⟨sg, d1 ++ d2, [], hs, ?_, by simp, Or.inl ⟨by simp [h1n], Or.inl (by simp)⟩⟩
      intro c hc
      rcases List.mem_append.1 hc with hc | hc
      · exact h1 c hc
      · exact digits_of_star h2 c hc
  | altr hr =>
    obtain ⟨d1, r, rfl, h1, hr⟩ := seq_inv hr
    obtain ⟨dot, d2, rfl, hd, h2⟩ := seq_inv hr
    obtain ⟨h2n, h2⟩ := plus_inv h2
    rcases opt_inv hd with hd | hd
    · rw [lit_inv hd]
      by_cases h1n : d1 = []
      · subst h1n
        exact ⟨sg, [], d2, hs, by simp, h2, Or.inr ⟨rfl, h2n, by simp⟩⟩
      · exact ⟨sg, d1, d2, hs, digits_of_star h1, h2, Or.inl ⟨h1n, Or.inr (by simp)⟩⟩
    · rw [hd]
      refine ⟨sg, d1 ++ d2, [], hs, ?_, by simp, Or.inl ⟨by simp [h2n], Or.inl (by simp)⟩⟩
      intro c hc
      rcases List.mem_append.1 hc with hc | hc
      · exact digits_of_star h1 c hc
      · exact h2 c hc

theorem point_inv {u : List Char} (h : Matches pointRe u) :
    ∃ c : WktCorner (List Char), c.Ok id ∧ u = c.text id := by
  unfold pointRe at h
  simp only [seqs] at h
  obtain ⟨x, r, rfl, hx, h⟩ := seq_inv h
  obtain ⟨w1, r, rfl, hw1, h⟩ := seq_inv h
  obtain ⟨y, r, rfl, hy, h⟩ := seq_inv h
  obtain ⟨w2, r, rfl, hw2, h⟩ := seq_inv h
  obtain ⟨z, r, rfl, hz, h⟩ := seq_inv h
  obtain ⟨o, e, rfl, ho, he⟩ := seq_inv h
  cases he
  have hb : ∀ {w : List Char}, Matches (plus ws) w → Blank w ∧ w ≠ [] := fun hw => ⟨(plus_inv hw).2, (plus_inv hw).1⟩
  rcases opt_inv ho with ho | ho
  · obtain ⟨w3, q, rfl, hw3, hq⟩ := seq_inv ho
    refine ⟨⟨x, [(w1, y), (w2, z), (w3, q)]⟩, ⟨Or.inr rfl, ?_, float_inv hx, ?_⟩, ?_⟩
    · intro r hr
      simp only [List.mem_cons, List.not_mem_nil, or_false] at hr
      rcases hr with rfl | rfl | rfl
      · exact hb hw1
      · exact hb hw2
      · exact hb hw3
    · intro r hr
      simp only [List.mem_cons, List.not_mem_nil, or_false] at hr
      rcases hr with rfl | rfl | rfl
      · exact float_inv hy
      · exact float_inv hz
      · exact float_inv hq
    · simp [WktCorner.text]
  · subst ho
    refine ⟨⟨x, [(w1, y), (w2, z)]⟩, ⟨Or.inl rfl, ?_, float_inv hx, ?_⟩, ?_⟩
    · intro r hr
      simp only [List.mem_cons, List.not_mem_nil, or_false] at hr
      rcases hr with rfl | rfl
      · exact hb hw1
      · exact hb hw2
    · intro r hr
      simp only [List.mem_cons, List.not_mem_nil, or_false] at hr
      rcases hr with rfl | rfl
      · exact float_inv hy
      · exact float_inv hz
    · simp [WktCorner.text]

theorem next_inv {u : List Char} (h : Matches nextRe u) :
    ∃ w w' c, Blank w ∧ Blank w' ∧ WktCorner.Ok id c ∧ u = w ++ ',' :: (w' ++ c.text id) := by
  unfold nextRe at h
  simp only [seqs] at h
  obtain ⟨w, r, rfl, hw, h⟩ := seq_inv h
  obtain ⟨k, r, rfl, hk, h⟩ := seq_inv h
  obtain ⟨w', r, rfl, hw', h⟩ := seq_inv h
  obtain ⟨p, e, rfl, hp, he⟩ := seq_inv h
  cases he
  obtain ⟨c, hc, rfl⟩ := point_inv hp
  exact ⟨w, w', c, blank_of_star hw, blank_of_star hw', hc, by rw [lit_inv hk]; simp⟩

theorem tri_inv {u : List Char} (h : Matches triRe u) : ∃ t : WktTri (List Char), t.Ok id ∧ u = t.text id := by
  unfold triRe at h
  simp only [seqs] at h
  obtain ⟨p1, r, rfl, hp1, h⟩ := seq_inv h
  obtain ⟨w1, r, rfl, hw1, h⟩ := seq_inv h
  obtain ⟨p2, r, rfl, hp2, h⟩ := seq_inv h
  obtain ⟨w2, r, rfl, hw2, h⟩ := seq_inv h
  obtain ⟨a, r, rfl, ha, h⟩ := seq_inv h
  obtain ⟨b, r, rfl, hb, h⟩ := seq_inv h
  obtain ⟨c, r, rfl, hc, h⟩ := seq_inv h
  obtain ⟨d, r, rfl, hd, h⟩ := seq_inv h
  obtain ⟨w3, r, rfl, hw3, h⟩ := seq_inv h
  obtain ⟨p3, r, rfl, hp3, h⟩ := seq_inv h
  obtain ⟨w4, r, rfl, hw4, h⟩ := seq_inv h
  obtain ⟨p4, e, rfl, hp4, he⟩ := seq_inv h
  cases he
  obtain ⟨a, ha', rfl⟩ := point_inv ha
  obtain ⟨wb, wb', b, hwb, hwb', hb', rfl⟩ := next_inv hb
  obtain ⟨wc, wc', c, hwc, hwc', hc', rfl⟩ := next_inv hc
  obtain ⟨wd, wd', d, hwd, hwd', hd', rfl⟩ := next_inv hd
  refine ⟨⟨w1, w2, a, wb, wb', b, wc, wc', c, wd, wd', d, w3, w4⟩, ⟨ha', hb', hc', hd', blank_of_star hw1, blank_of_star hw2, hwb, hwb',
    hwc, hwc', hwd, hwd', blank_of_star hw3, blank_of_star hw4⟩, ?_⟩
  rw [lit_inv hp1, lit_inv hp2, lit_inv hp3, lit_inv hp4]
  simp [WktTri.text]


theorem blank_append {u v : List Char} (hu : Blank u) (hv : Blank v) : Blank (u ++ v) := by
  intro c hc
  rcases List.mem_append.1 hc with hc | hc
  · exact hu c hc
  · exact hv c hc

theorem items_inv {u : List Char} (h : Matches (star itemRe) u) (wl : List Char) (hl : Blank wl) :
    ∃ (lead : List Char) (l : List (WktTri (List Char) × List Char × Option (List Char))), Blank lead ∧
      (∀ r ∈ l, r.1.Ok id ∧ Blank r.2.1 ∧ ∀ w, r.2.2 = some w → Blank w) ∧ u ++ wl = lead ++ l.flatMap (wktItem id) := by
  generalize hr : star itemRe = r at h
  induction h with
  | starNil => exact ⟨wl, [], hl, by simp, by simp⟩
  | starCons hi _ _ ih =>
    injection hr with hr
    subst hr
    obtain ⟨lead', l, hlead', hl', e⟩ := ih rfl
    unfold itemRe at hi
    simp only [seqs] at hi
    obtain ⟨w, r, rfl, hw, hi⟩ := seq_inv hi
    obtain ⟨t, r, rfl, ht, hi⟩ := seq_inv hi
    obtain ⟨w', r, rfl, hw', hi⟩ := seq_inv hi
    obtain ⟨o, x, rfl, ho, hx⟩ := seq_inv hi
    cases hx
    obtain ⟨t, ht', rfl⟩ := tri_inv ht
    rcases opt_inv ho with ho | ho
    · refine ⟨w, (t, w', some lead') :: l, blank_of_star hw, ?_, ?_⟩
      · intro r hr
        rcases List.mem_cons.1 hr with rfl | hr
        · refine ⟨ht', blank_of_star hw', ?_⟩
          intro v hv
          simp only [Option.some.injEq] at hv
          rw [← hv]
          exact hlead'
        · exact hl' r hr
      · rw [lit_inv ho, List.flatMap_cons, wktItem]
        simp only [List.append_assoc, List.append_nil, List.cons_append, List.nil_append, e]
    · refine ⟨w, (t, w' ++ lead', none) :: l, blank_of_star hw, ?_, ?_⟩
      · intro r hr
        rcases List.mem_cons.1 hr with rfl | hr
        · refine ⟨ht', blank_append (blank_of_star hw') hlead', ?_⟩
          intro v hv
          simp at hv
        · exact hl' r hr
      · rw [ho, List.flatMap_cons, wktItem]
        simp only [List.append_assoc, List.append_nil, List.nil_append, e]
  | _ => cases hr

theorem mem_takeWhile {p : Char → Bool} {l : List Char} {c : Char} (h : c ∈ l.takeWhile p) : p c = true := by
  induction l with
  | nil => simp at h
  | cons a l ih =>
    rw [List.takeWhile_cons] at h
    split at h
    · rcases List.mem_cons.1 h with rfl | h
      · assumption
      · exact ih h
    · simp at h

theorem strip_parts (s : List Char) : ∃ w w', Blank w ∧ Blank w' ∧ s = w ++ (strip s ++ w') := by
  obtain ⟨w', h1, h2⟩ := rstrip_append (s.dropWhile isWs)
  refine ⟨s.takeWhile isWs, w', ?_, h2, ?_⟩
  · intro c hc
    exact mem_takeWhile hc
  · have : strip s = rstrip (s.dropWhile isWs) := rfl
    rw [this, ← h1, List.takeWhile_append_dropWhile]

/-- C46: a text that is not of the form "TIN", parenthesis, polygons of four corners with three or four decimal numbers each,
closing parenthesis, is a ReadError.  (Spec: the texts `WktTin.text`, of which the numbers are any decimal notations.) -/
theorem C46_malformed [DecidableEq F] (parse : List Char → Option F) (s : List Char)
    (h : ∀ t : WktTin (List Char), t.Ok id → t.text id ≠ s) : Wkt.read parse s = .error .readError := by
  unfold Wkt.read
  cases hf : first tinRe (strip s) with
  | none => rfl
  | some e =>
    exfalso
    obtain ⟨u, hu, hm⟩ := first_suffix hf
    obtain ⟨w, w', hw, hw', hs⟩ := strip_parts s
    unfold tinRe at hm
    simp only [seqs] at hm
    obtain ⟨c1, r, rfl, h1, hm⟩ := seq_inv hm
    obtain ⟨c2, r, rfl, h2, hm⟩ := seq_inv hm
    obtain ⟨c3, r, rfl, h3, hm⟩ := seq_inv hm
    obtain ⟨w1, r, rfl, hw1, hm⟩ := seq_inv hm
    obtain ⟨c4, r, rfl, h4, hm⟩ := seq_inv hm
    obtain ⟨its, r, rfl, hits, hm⟩ := seq_inv hm
    obtain ⟨wl, r, rfl, hwl, hm⟩ := seq_inv hm
    obtain ⟨c5, x, rfl, h5, hx⟩ := seq_inv hm
    cases hx
    obtain ⟨lead, l, hlead, hl, he⟩ := items_inv hits wl (blank_of_star hwl)
    refine h ⟨w, w1, lead, l, e ++ w'⟩ ⟨⟨hw, blank_of_star hw1, hlead⟩, hl⟩ ?_
    rw [hs, hu, lit_inv h1, lit_inv h2, lit_inv h3, lit_inv h4, lit_inv h5]
    unfold WktTin.text
    simp only [List.append_assoc, List.cons_append, List.nil_append, List.append_nil]
    rw [← List.append_assoc its, he]
    simp

/-- In particular every other character before the first closing parenthesis is a ReadError. -/
theorem C46_bad_character [DecidableEq F] (parse : List Char → Option F) (u v : List Char) (c : Char) (hu : ')' ∉ u) (hc : c ≠ ')')
    (hw : isWs c = false) (hd : c.isDigit = false) (hs : c ∉ "TIN(,.+-".toList) :
    Wkt.read parse (u ++ c :: v) = .error .readError := by
  unfold Wkt.read
  cases hf : first tinRe (strip (u ++ c :: v)) with
  | none => rfl
  | some e =>
    exfalso
    obtain ⟨x, hx, hm⟩ := first_suffix hf
    obtain ⟨w, w', hw1, hw2, hs'⟩ := strip_parts (u ++ c :: v)
    have huse : ∀ d ∈ x, uses tinRe d = true := hm.uses
    -- the match ends with a parenthesis
    have hlast : ')' ∈ x := by
      unfold tinRe at hm
      simp only [seqs] at hm
      obtain ⟨c1, r, rfl, h1, hm⟩ := seq_inv hm
      obtain ⟨c2, r, rfl, h2, hm⟩ := seq_inv hm
      obtain ⟨c3, r, rfl, h3, hm⟩ := seq_inv hm
      obtain ⟨w1, r, rfl, hw1, hm⟩ := seq_inv hm
      obtain ⟨c4, r, rfl, h4, hm⟩ := seq_inv hm
      obtain ⟨its, r, rfl, hits, hm⟩ := seq_inv hm
      obtain ⟨wl, r, rfl, hwl, hm⟩ := seq_inv hm
      obtain ⟨c5, x, rfl, h5, hx⟩ := seq_inv hm
      rw [lit_inv h5]
      simp
    have hpc : ')' ∉ u ++ [c] := by
      intro hm
      rcases List.mem_append.1 hm with hm | hm
      · exact hu hm
      · exact hc (List.mem_singleton.1 hm).symm
    have hcx : c ∈ w ++ x := by
      rw [hx] at hs'
      have hs'' : (u ++ [c]) ++ v = (w ++ x) ++ (e ++ w') := by simpa using hs'
      rcases List.append_eq_append_iff.1 hs'' with ⟨b, h1, -⟩ | ⟨b, h1, -⟩
      · rw [h1]; simp
      · exact absurd (by rw [h1]; simp [hlast]) hpc
    rcases List.mem_append.1 hcx with hcx | hcx
    · rw [hw1 c hcx] at hw; cases hw
    · have := huse c hcx
      have hne : ∀ d ∈ "TIN(,.+-".toList, c ≠ d := fun d hd e => hs (e ▸ hd)
      have h1 := hne 'T' (by decide)
      have h2 := hne 'I' (by decide)
      have h3 := hne 'N' (by decide)
      have h4 := hne '(' (by decide)
      have h5 := hne ',' (by decide)
      have h6 := hne '.' (by decide)
      have h7 := hne '+' (by decide)
      have h8 := hne '-' (by decide)
      simp [tinRe, triRe, nextRe, pointRe, floatRe, sign, seqs, uses, lit, opt, plus, ws, dig, hw, hd, hc, h1, h2, h3, h4, h5, h6, h7, h8] at this

/-! ### Writing -/

theorem joinWith_flat (x : F) (r : List F) (fmt : F → List Char) :
    joinWith ' ' ((x :: r).map fmt) = fmt x ++ r.flatMap fun y => ' ' :: fmt y := by
  induction r generalizing x with
  | nil => simp [joinWith]
  | cons y r ih =>
    rw [List.map_cons, List.map_cons, joinWith, ← List.map_cons, ih y, List.flatMap_cons]
    simp

theorem triangles_eq (cells : List (String × List (List Int))) :
    triangles cells = ((rowsOf cells).filter fun r => decide (r.1 = "triangle")).map (·.2) := by
  unfold triangles
  induction cells with
  | nil => rfl
  | cons b cells ih =>
    have e : rowsOf (b :: cells) = b.2.map (fun r => (b.1, r)) ++ rowsOf cells := by
      simp [rowsOf]
    rw [e, List.filter_append, List.map_append, ← ih]
    by_cases h : b.1 = "triangle"
    · rw [List.filter_cons, if_pos (by simpa using h), List.flatMap_cons]
      congr 1
      rw [List.filter_map, List.map_map]
      have : ((fun r : String × List Int => decide (r.1 = "triangle")) ∘ fun r => (b.1, r)) = fun _ => true := by
        funext r
        simp [h]
      rw [this, List.filter_eq_self.2 (fun _ _ => rfl)]
      simp [Function.comp_def]
    · rw [List.filter_cons, if_neg (by simpa using h)]
      rw [List.filter_map]
      have : ((fun r : String × List Int => decide (r.1 = "triangle")) ∘ fun r => (b.1, r)) = fun _ => false := by
        funext r
        simp [h]
      rw [this, List.filter_eq_nil_iff (p := fun _ => false) |>.2 (fun _ _ => by simp)]
      simp

theorem corners_ok (points : List (List F)) (row : List Int) (ps : List (List F)) (h0 : ∀ z ∈ row, 0 ≤ z)
    (h : row.map (fun z => points[z.toNat]?) = ps.map some) : corners points row = .ok ps := by
  unfold corners
  induction row generalizing ps with
  | nil =>
    cases ps with
    | nil => rfl
    | cons p ps => simp at h
  | cons z row ih =>
    cases ps with
    | nil => simp at h
    | cons p ps =>
      rw [List.map_cons, List.map_cons] at h
      injection h with h1 h2
      have : npIndex points z = .ok p := by
        unfold npIndex
        rw [if_pos (h0 z (by simp)), h1]
      rw [mapRes, this]
      simp only
      rw [ih ps (fun z hz => h0 z (by simp [hz])) h2]

theorem mapRes_corners (points : List (List F)) (rows : List (List Int)) (tris : List (List F × List F × List F))
    (h0 : ∀ r ∈ rows, ∀ z ∈ r, 0 ≤ z)
    (h : rows.map (fun r => r.map fun z => points[z.toNat]?) = tris.map fun t => [some t.1, some t.2.1, some t.2.2]) :
    mapRes (corners points) rows = .ok (tris.map fun t => [t.1, t.2.1, t.2.2]) := by
  induction rows generalizing tris with
  | nil =>
    cases tris with
    | nil => rfl
    | cons p ps => simp at h
  | cons r rows ih =>
    cases tris with
    | nil => simp at h
    | cons t tris =>
      rw [List.map_cons, List.map_cons] at h
      injection h with h1 h2
      rw [mapRes, corners_ok points r [t.1, t.2.1, t.2.2] (h0 r (by simp)) h1]
      simp only
      rw [ih tris (fun z hz => h0 z (by simp [hz])) h2]
      rfl

theorem intercalate_flat (t : List Char) (ts : List (List Char)) (sep : List Char) :
    List.intercalate sep (t :: ts) = t ++ ts.flatMap fun x => sep ++ x := by
  induction ts generalizing t with
  | nil => simp [List.intercalate]
  | cons y ts ih =>
    have := ih y
    rw [List.flatMap_cons, List.append_assoc, ← this]
    simp [List.intercalate]

theorem triText_polygon (fmt : F → List Char) (a b c : List F) : triText fmt [a, b, c] = .ok (wktPolygon fmt a b c) := by
  unfold triText wktPolygon arrToStr
  simp only [List.map_cons, List.map_nil]

theorem mapRes_triText (fmt : F → List Char) (tris : List (List F × List F × List F)) :
    mapRes (triText fmt) (tris.map fun t => [t.1, t.2.1, t.2.2]) = .ok (tris.map fun t => wktPolygon fmt t.1 t.2.1 t.2.2) := by
  induction tris with
  | nil => rfl
  | cons t ts ih =>
    rw [List.map_cons, mapRes, triText_polygon, ih]
    rfl

/-- C46: the text of a mesh: all its triangles in order, each as a closed polygon; other cells are left out. -/
theorem C46_write (fmt : F → List Char) (points : List (List F)) (cells : List (String × List (List Int)))
    (tris : List (List F × List F × List F)) (h : WktMesh points cells tris) :
    Wkt.write fmt points cells = .ok ("TIN (".toList ++ List.intercalate ", ".toList (tris.map fun t => wktPolygon fmt t.1 t.2.1 t.2.2) ++
      ")".toList) := by
  unfold Wkt.write
  rw [mapRes_corners points (triangles cells) tris ?_ ?_]
  · simp only
    rw [mapRes_triText]
    cases tris with
    | nil => rfl
    | cons t ts =>
      simp only [List.map_cons]
      rw [intercalate_flat, List.append_assoc, List.append_assoc, List.append_assoc, List.append_assoc]
  · intro r hr
    unfold triangles at hr
    obtain ⟨b, hb, hr⟩ := List.mem_flatMap.1 hr
    obtain ⟨hb, ht⟩ := List.mem_filter.1 hb
    exact h.nodes b hb (of_decide_eq_true ht) r hr
  · rw [triangles_eq, List.map_map]
    exact h.corners

/-- A corner with single blanks. -/
theorem corner_of (fmt : F → List Char) (p : List F) (hl : p.length = 3 ∨ p.length = 4) (hp : ∀ x ∈ p, Plain (fmt x)) :
    ∃ c : WktCorner F, c.Ok fmt ∧ c.coords = p ∧ c.text fmt = joinWith ' ' (p.map fmt) := by
  cases p with
  | nil => simp at hl
  | cons x r =>
    refine ⟨⟨x, r.map fun y => ([' '], y)⟩, ⟨?_, ?_, hp x (by simp), ?_⟩, ?_, ?_⟩
    · simpa using hl
    · intro q hq
      obtain ⟨y, -, rfl⟩ := List.mem_map.1 hq
      refine ⟨?_, by simp⟩
      intro c hc
      rw [List.mem_singleton] at hc
      subst hc
      decide
    · intro q hq
      obtain ⟨y, hy, rfl⟩ := List.mem_map.1 hq
      exact hp y (by simp [hy])
    · simp [WktCorner.coords, Function.comp_def]
    · rw [joinWith_flat]
      simp [WktCorner.text, List.flatMap_map]

theorem polygon_of (fmt : F → List Char) (a b c : List F) (n : Nat) (hn : n = 3 ∨ n = 4) (ha : a.length = n ∧ ∀ x ∈ a, Plain (fmt x))
    (hb : b.length = n ∧ ∀ x ∈ b, Plain (fmt x)) (hc : c.length = n ∧ ∀ x ∈ c, Plain (fmt x)) :
    ∃ t : WktTri F, t.Ok fmt ∧ t.d.coords = t.a.coords ∧ t.corners = [a, b, c] ∧ t.text fmt = wktPolygon fmt a b c := by
  obtain ⟨ca, ha1, ha2, ha3⟩ := corner_of fmt a (by omega) ha.2
  obtain ⟨cb, hb1, hb2, hb3⟩ := corner_of fmt b (by omega) hb.2
  obtain ⟨cc, hc1, hc2, hc3⟩ := corner_of fmt c (by omega) hc.2
  have b0 : Blank [] := by intro c hc; simp at hc
  have b1 : Blank [' '] := by
    intro c hc
    rw [List.mem_singleton] at hc
    subst hc
    decide
  refine ⟨⟨[], [], ca, [], [' '], cb, [], [' '], cc, [], [' '], ca, [], []⟩, ⟨ha1, hb1, hc1, ha1, b0, b0, b0, b1, b0, b1, b0, b1, b0, b0⟩,
    rfl, ?_, ?_⟩
  · simp only [WktTri.corners, ha2, hb2, hc2]
  · simp [WktTri.text, wktPolygon, ha3, hb3, hc3]

theorem polygons_of (fmt : F → List Char) (tris : List (List F × List F × List F)) (n : Nat) (hn : n = 3 ∨ n = 4)
    (h : ∀ t ∈ tris, ∀ p ∈ [t.1, t.2.1, t.2.2], p.length = n ∧ ∀ x ∈ p, Plain (fmt x)) :
    ∃ l : List (WktTri F × List Char × Option (List Char)), (∀ r ∈ l, r.1.Ok fmt ∧ Blank r.2.1 ∧ ∀ w, r.2.2 = some w → Blank w) ∧
      (∀ r ∈ l, r.1.d.coords = r.1.a.coords ∧ ∀ p ∈ r.1.corners, p.length = n) ∧
      l.map (fun r => r.1.corners) = tris.map (fun t => [t.1, t.2.1, t.2.2]) ∧
      l.flatMap (wktItem fmt) = List.intercalate ", ".toList (tris.map fun t => wktPolygon fmt t.1 t.2.1 t.2.2) := by
  have b0 : Blank [] := by intro c hc; simp at hc
  have b1 : Blank [' '] := by
    intro c hc
    rw [List.mem_singleton] at hc
    subst hc
    decide
  induction tris with
  | nil => exact ⟨[], by simp, by simp, rfl, rfl⟩
  | cons t ts ih =>
    obtain ⟨l, h1, h2, h3, h4⟩ := ih fun t ht => h t (by simp [ht])
    have ht := h t (by simp)
    obtain ⟨w, w1, w2, w3, w4⟩ := polygon_of fmt t.1 t.2.1 t.2.2 n hn (ht _ (by simp)) (ht _ (by simp)) (ht _ (by simp))
    have hw : ∀ p ∈ w.corners, p.length = n := by
      intro p hp
      rw [w3] at hp
      exact (ht p hp).1
    cases ts with
    | nil =>
      refine ⟨[(w, [], none)], ?_, ?_, ?_, ?_⟩
      · intro r hr
        rw [List.mem_singleton] at hr
        subst hr
        exact ⟨w1, b0, by simp⟩
      · intro r hr
        rw [List.mem_singleton] at hr
        subst hr
        exact ⟨w2, hw⟩
      · simp [w3]
      · simp [wktItem, w4, List.intercalate]
    | cons t' ts =>
      refine ⟨(w, [], some [' ']) :: l, ?_, ?_, ?_, ?_⟩
      · intro r hr
        rcases List.mem_cons.1 hr with rfl | hr
        · refine ⟨w1, b0, ?_⟩
          intro v hv
          simp only [Option.some.injEq] at hv
          rw [← hv]
          exact b1
        · exact h1 r hr
      · intro r hr
        rcases List.mem_cons.1 hr with rfl | hr
        · exact ⟨w2, hw⟩
        · exact h2 r hr
      · rw [List.map_cons, h3]
        simp only [w3, List.map_cons]
      · rw [List.flatMap_cons, h4, wktItem, w4]
        simp [List.intercalate]

/-- C46 for meshes whose corners have three (or all four) coordinates that are written without exponent: the text of the mesh is
read back as the same triangles, with equal corners shared.  Missing: other coordinates, see `C46_exponent_false`, and meshes in
the plane, see `C46_plane_false`. -/
theorem C46_roundtrip_partial [DecidableEq F] (io : FloatIO F) (points : List (List F)) (cells : List (String × List (List Int)))
    (tris : List (List F × List F × List F)) (h : WktMesh points cells tris) (n : Nat) (hn : n = 3 ∨ n = 4)
    (hp : ∀ t ∈ tris, ∀ p ∈ [t.1, t.2.1, t.2.2], p.length = n ∧ ∀ x ∈ p, Plain (io.fmt x)) :
    ∃ s m, Wkt.write io.fmt points cells = .ok s ∧ Wkt.read io.parse s = .ok m ∧ m.points.Nodup ∧
      m.cells.map (fun r => r.map fun i => m.points[i]?) = tris.map (fun t => [some t.1, some t.2.1, some t.2.2]) ∧
      ∀ q ∈ m.points, ∃ t ∈ tris, q ∈ [t.1, t.2.1, t.2.2] := by
  obtain ⟨l, h1, h2, h3, h4⟩ := polygons_of io.fmt tris n hn hp
  have hblank : Blank [' '] := by
    intro c hc
    rw [List.mem_singleton] at hc
    subst hc
    decide
  have hb0 : Blank [] := by intro c hc; simp at hc
  have htext : (⟨[], [' '], [], l, []⟩ : WktTin F).text io.fmt =
      "TIN (".toList ++ List.intercalate ", ".toList (tris.map fun t => wktPolygon io.fmt t.1 t.2.1 t.2.2) ++ ")".toList := by
    rw [← h4]
    simp [WktTin.text]
  obtain ⟨m, hm, hnd, hrows, hmem⟩ := C46_read io ⟨[], [' '], [], l, []⟩ ⟨⟨hb0, hblank, hb0⟩, h1⟩ ⟨n, h2⟩
  refine ⟨_, m, C46_write io.fmt points cells tris h, htext ▸ hm, hnd, ?_, ?_⟩
  · rw [hrows]
    have := congrArg (List.map (List.map some)) h3
    rw [List.map_map, List.map_map] at this
    exact this
  · intro q hq
    obtain ⟨r, hr, hq⟩ := hmem q hq
    have : r.1.corners ∈ tris.map (fun t => [t.1, t.2.1, t.2.2]) := by
      rw [← h3]
      exact List.mem_map.2 ⟨r, hr, rfl⟩
    obtain ⟨t, ht, e⟩ := List.mem_map.1 this
    exact ⟨t, ht, e ▸ hq⟩

/-! ### A case, and what does not hold -/

/-- Two triangles with a common edge, a line that is left out, and points shared and not. -/
def wktPointsEx : List (List Int) := [[0, 0, 5], [10, 0, 0], [0, -7, 0], [10, -7, 0], [9, 9, 9]]

def wktCellsEx : List (String × List (List Int)) := [("triangle", [[0, 1, 2]]), ("line", [[4, 0]]), ("triangle", [[1, 3, 2]])]

example : WktMesh wktPointsEx wktCellsEx [([0, 0, 5], [10, 0, 0], [0, -7, 0]), ([10, 0, 0], [10, -7, 0], [0, -7, 0])] where
  nodes := by decide
  corners := by decide

theorem plain_digits (d : List Char) (h : d ≠ [] ∧ ∀ c ∈ d, c.isDigit = true) : Plain d :=
  ⟨[], d, [], Or.inl rfl, h.2, by simp, Or.inl ⟨h.1, Or.inl rfl⟩⟩

example : Plain (fmtInt 10) := plain_digits _ ⟨by decide, by decide⟩
example : Plain (fmtInt (-7)) := ⟨['-'], ['7'], [], by decide, by decide, by decide, Or.inl ⟨by decide, Or.inl (by decide)⟩⟩

example : ∃ s, Wkt.write fmtInt wktPointsEx wktCellsEx = .ok s ∧
    s = "TIN (((0 0 5, 10 0 0, 0 -7 0, 0 0 5)), ((10 0 0, 10 -7 0, 0 -7 0, 10 0 0)))".toList ∧
    Wkt.read parseInt s = .ok ⟨[[0, 0, 5], [10, 0, 0], [0, -7, 0], [10, -7, 0]], [[0, 1, 2], [1, 3, 2]]⟩ := by
  refine ⟨_, rfl, ?_, ?_⟩ <;> decide +kernel

/-- Blanks at will. -/
example : Wkt.read parseInt " TIN((( 0  0 5,10 0 0 ,0 -7 0,0 0 5) )((10 0 0, 10 -7 0, 0 -7 0, 10 0 0)) ,) and more".toList =
    .ok ⟨[[0, 0, 5], [10, 0, 0], [0, -7, 0], [10, -7, 0]], [[0, 1, 2], [1, 3, 2]]⟩ := by
  decide +kernel

/-- C46 as stated for polygons that are not closed: a ReadError. -/
def C46_unclosed_statement : Prop :=
  ∀ (t : WktTin Int), t.Ok fmtInt → (∃ r ∈ t.tris, r.1.d.coords ≠ r.1.a.coords) →
    Wkt.read parseInt (t.text fmtInt) = .error .readError

/-- One polygon that is not closed. -/
def wktOpen : WktTin Int :=
  let p (x y z : Int) : WktCorner Int := ⟨x, [([' '], y), ([' '], z)]⟩
  ⟨[], [], [], [(⟨[], [], p 0 0 0, [], [], p 1 0 0, [], [], p 0 1 0, [], [], p 0 1 1, [], []⟩, [], none)], []⟩

/-- It is a ValueError. -/
theorem C46_unclosed_false : ¬ C46_unclosed_statement := by
  intro h
  have hp : ∀ d : Char, d.isDigit = true → Plain [d] := fun d hd => plain_digits [d] ⟨by simp, by simpa using hd⟩
  have hb : Blank [] := by intro c hc; simp at hc
  have hb1 : Blank [' '] ∧ [' '] ≠ [] := by
    refine ⟨?_, by simp⟩
    intro c hc
    rw [List.mem_singleton] at hc
    subst hc
    decide
  have h0 : Plain (fmtInt 0) := hp '0' (by decide)
  have h1 : Plain (fmtInt 1) := hp '1' (by decide)
  have hc : ∀ x y z : Int, Plain (fmtInt x) → Plain (fmtInt y) → Plain (fmtInt z) →
      WktCorner.Ok fmtInt ⟨x, [([' '], y), ([' '], z)]⟩ := by
    intro x y z hx hy hz
    refine ⟨Or.inl rfl, ?_, hx, ?_⟩
    · intro r hr
      simp only [List.mem_cons, List.not_mem_nil, or_false] at hr
      rcases hr with rfl | rfl <;> exact hb1
    · intro r hr
      simp only [List.mem_cons, List.not_mem_nil, or_false] at hr
      rcases hr with rfl | rfl
      · exact hy
      · exact hz
  have hok : wktOpen.Ok fmtInt := by
    refine ⟨⟨hb, hb, hb⟩, ?_⟩
    intro r hr
    rw [wktOpen, List.mem_singleton] at hr
    subst hr
    exact ⟨⟨hc 0 0 0 h0 h0 h0, hc 1 0 0 h1 h0 h0, hc 0 1 0 h0 h1 h0, hc 0 1 1 h0 h1 h1, hb, hb, hb, hb, hb, hb, hb, hb, hb, hb⟩, hb, by simp⟩
  have := h wktOpen hok ⟨_, List.mem_singleton.2 rfl, by decide⟩
  have h2 : Wkt.read parseInt (wktOpen.text fmtInt) = .error .valueError :=
    C46_unclosed FloatIO.int wktOpen hok ⟨_, List.mem_singleton.2 rfl, by decide⟩
  rw [h2] at this
  cases this

/-- C46 as stated: the text of every mesh with points in space is read back. -/
def C46_statement : Prop :=
  ∀ (F : Type) (_ : DecidableEq F) (io : FloatIO F) (points : List (List F)) (cells : List (String × List (List Int)))
    (tris : List (List F × List F × List F)), WktMesh points cells tris → (∀ p ∈ points, p.length = 3) →
    ∃ s m, Wkt.write io.fmt points cells = .ok s ∧ Wkt.read io.parse s = .ok m

/-- Numbers one of which is printed with an exponent, as Python does below 1e-4. -/
def wktSmall : FloatIO Bool where
  fmt b := if b then "1e-05".toList else "0.0".toList
  parse t := if t = "1e-05".toList then some true else if t = "0.0".toList then some false else none
  parse_fmt b := by cases b <;> decide
  tok b := by cases b <;> (constructor <;> decide)

/-- Such a coordinate makes the text unreadable. -/
theorem C46_exponent_false : ¬ C46_statement := by
  intro h
  obtain ⟨s, m, hs, hm⟩ := h Bool inferInstance wktSmall [[false, false, true]] [("triangle", [[0, 0, 0]])]
    [([false, false, true], [false, false, true], [false, false, true])] ⟨by decide, by decide⟩ (by decide)
  have : Wkt.read wktSmall.parse "TIN (((0.0 0.0 1e-05, 0.0 0.0 1e-05, 0.0 0.0 1e-05, 0.0 0.0 1e-05)))".toList = .error .readError := by
    decide +kernel
  have e : Wkt.write wktSmall.fmt [[false, false, true]] [("triangle", [[0, 0, 0]])] =
      .ok "TIN (((0.0 0.0 1e-05, 0.0 0.0 1e-05, 0.0 0.0 1e-05, 0.0 0.0 1e-05)))".toList := by
    decide +kernel
  rw [e] at hs
  cases hs
  rw [this] at hm
  cases hm

/-- The same for meshes in the plane. -/
def C46_plane_statement : Prop :=
  ∀ (points : List (List Int)) (cells : List (String × List (List Int))) (tris : List (List Int × List Int × List Int)),
    WktMesh points cells tris → (∀ p ∈ points, p.length = 2) →
    ∃ s m, Wkt.write fmtInt points cells = .ok s ∧ Wkt.read parseInt s = .ok m

theorem C46_plane_false : ¬ C46_plane_statement := by
  intro h
  obtain ⟨s, m, hs, hm⟩ := h [[0, 0], [1, 0], [0, 1]] [("triangle", [[0, 1, 2]])] [([0, 0], [1, 0], [0, 1])] ⟨by decide, by decide⟩ (by decide)
  have : Wkt.read parseInt "TIN (((0 0, 1 0, 0 1, 0 0)))".toList = .error .readError := by decide +kernel
  have e : Wkt.write fmtInt [[0, 0], [1, 0], [0, 1]] [("triangle", [[0, 1, 2]])] = .ok "TIN (((0 0, 1 0, 0 1, 0 0)))".toList := by
    decide +kernel
  rw [e] at hs
  cases hs
  rw [this] at hm
  cases hm

end Meshio.Props
