/-
Lemmas for XDMF time series.
-/
import Verif.Proofs.Xdmf
namespace Meshio
open Spec
namespace Xdmf
open Types Tables

variable {F T : Type}

/-! ## Nothing is overwritten -/

/-- The data items of an element. -/
def Elem.items : Elem F T → List (Item F)
  | .geometry _ l => l
  | .topology _ l => l
  | .attr _ _ _ l => l
  | _ => []

/-- An item of the file: without text, or with the text of an array written before. -/
def Known (c : Cfg) (arrs : List (Nd F)) (it : Item F) : Prop :=
  it.fmt = c.fmt ∧ (it.text = .missing ∨ ∃ a, TextOf c arrs it.text a)

/-- All items of the elements. -/
def AllKnown (c : Cfg) (arrs : List (Nd F)) (es : List (Elem F T)) : Prop :=
  ∀ e ∈ es, ∀ it ∈ e.items, Known c arrs it

theorem AllKnown.mono {c : Cfg} {arrs : List (Nd F)} {es : List (Elem F T)} (h : AllKnown c arrs es) (more : List (Nd F)) :
    AllKnown c (arrs ++ more) es := by
  intro e he it hit
  obtain ⟨h1, h2⟩ := h e he it hit
  refine ⟨h1, ?_⟩
  rcases h2 with h2 | ⟨a, h2⟩
  · exact Or.inl h2
  · exact Or.inr ⟨a, h2.mono more⟩

theorem AllKnown.append {c : Cfg} {arrs : List (Nd F)} {es es' : List (Elem F T)} (h : AllKnown c arrs es)
    (h' : AllKnown c arrs es') : AllKnown c arrs (es ++ es') := by
  intro e he
  rcases List.mem_append.1 he with he | he
  · exact h e he
  · exact h' e he

/-- What a part of a call leaves behind is in order. -/
def OutOk (c : Cfg) (arrs : List (Nd F)) (o : Out F T) : Prop :=
  ∃ more, Inv c o.w (arrs ++ more) ∧ AllKnown c (arrs ++ more) o.elems

theorem outOk_nil {c : Cfg} {w : W F} {arrs : List (Nd F)} (hi : Inv c w arrs) (e : Option Err) :
    OutOk (T := T) c arrs { w := w, elems := [], err := e } :=
  ⟨[], by simpa using hi, by intro x hx; cases hx⟩

theorem outOk_addItem {c : Cfg} {w : W F} {arrs : List (Nd F)} (hi : Inv c w arrs) (mk : List (Item F) → Elem F T)
    (hmk : ∀ l, (mk l).items = l) (dims : List Nat) (a : Nd F) : OutOk c arrs (addItem c w mk dims a) := by
  unfold addItem
  cases hn : find numpyToXdmf a.dtype with
  | none =>
    refine ⟨[], by simpa using hi, ?_⟩
    intro e he it hit
    simp only [List.mem_singleton] at he
    subst he
    rw [hmk] at hit
    cases hit
  | some num =>
    simp only
    cases hp : putText true c w a with
    | error e =>
      refine ⟨[], by simpa using hi, ?_⟩
      intro e he it hit
      simp only [List.mem_singleton] at he
      subst he
      rw [hmk] at hit
      simp only [List.mem_singleton] at hit
      subst hit
      exact ⟨rfl, Or.inl rfl⟩
    | ok r =>
      obtain ⟨w', t⟩ := r
      obtain ⟨more, h1, h2⟩ := putText_inv hi hp
      refine ⟨more, h1, ?_⟩
      intro e he it hit
      simp only [List.mem_singleton] at he
      subst he
      rw [hmk] at hit
      simp only [List.mem_singleton] at hit
      subst hit
      exact ⟨rfl, Or.inr ⟨a, h2⟩⟩

theorem outOk_andThen {c : Cfg} {arrs : List (Nd F)} {o : Out F T} {f : W F → Out F T} (ho : OutOk c arrs o)
    (hf : ∀ w arrs, Inv c w arrs → OutOk c arrs (f w)) : OutOk c arrs (o.andThen f) := by
  unfold Out.andThen
  cases h : o.err with
  | some e => exact ho
  | none =>
    obtain ⟨more, h1, h2⟩ := ho
    obtain ⟨more', h3, h4⟩ := hf _ _ h1
    refine ⟨more ++ more', by rw [← List.append_assoc]; exact h3, ?_⟩
    rw [← List.append_assoc]
    exact (h2.mono more').append h4

theorem outOk_points {c : Cfg} {w : W F} {arrs : List (Nd F)} (hi : Inv c w arrs) (p : Nd F) :
    OutOk (T := T) c arrs (tsPoints c p w) := by
  unfold tsPoints
  split
  · exact outOk_nil hi _
  · split
    · exact outOk_addItem hi _ (fun _ => rfl) _ _
    · split
      · exact outOk_nil hi _
      · exact outOk_addItem hi _ (fun _ => rfl) _ _
  · exact outOk_nil hi _

theorem outOk_topo {c : Cfg} {w : W F} {arrs : List (Nd F)} (hi : Inv c w arrs) (ty : String) (e : Option Err) :
    OutOk (T := T) c arrs { w := w, elems := [.topology ty []], err := e } := by
  refine ⟨[], by simpa using hi, ?_⟩
  intro x hx it hit
  simp only [List.mem_singleton] at hx
  subst hx
  cases hit

theorem outOk_cells {c : Cfg} {w : W F} {arrs : List (Nd F)} (hi : Inv c w arrs)
    (cells : List (String × List (List Int))) : OutOk (T := T) c arrs (tsCells c cells w) := by
  unfold tsCells
  split
  · exact outOk_nil hi _
  · split
    · exact outOk_nil hi _
    · exact outOk_addItem hi _ (fun _ => rfl) _ _
  · split
    · exact outOk_topo hi _ _
    · split
      · exact outOk_topo hi _ _
      · exact outOk_addItem hi _ (fun _ => rfl) _ _

theorem outOk_attrs {c : Cfg} (center : String) (l : List (List Char × Nd F)) {w : W F} {arrs : List (Nd F)}
    (hi : Inv c w arrs) : OutOk (T := T) c arrs (tsAttrs c center l w) := by
  induction l generalizing w arrs with
  | nil => exact outOk_nil hi _
  | cons e l ih =>
    rw [tsAttrs]
    refine outOk_andThen ?_ (fun w arrs h => ih h)
    unfold tsAttr
    split
    · exact outOk_nil hi _
    · exact outOk_addItem hi _ (fun _ => rfl) _ _

theorem outOk_cellData {c : Cfg} (cd : List (List Char × List (Nd F))) {w : W F} {arrs : List (Nd F)}
    (hi : Inv c w arrs) : OutOk (T := T) c arrs (tsCellData c cd w) := by
  unfold tsCellData
  split
  · exact outOk_nil hi _
  · exact outOk_attrs _ _ hi

/-- The invariant of all histories. -/
def SeriesOk (c : Cfg) (arrs : List (Nd F)) (s : Series F T) : Prop :=
  Inv c s.w arrs ∧ ∀ g ∈ s.coll ++ s.meshes, AllKnown c arrs g

theorem step_ok (c : Cfg) (s : Series F T) (op : Op F T) (arrs : List (Nd F)) (h : SeriesOk c arrs s) :
    ∃ more, SeriesOk c (arrs ++ more) (step c s op).1 := by
  obtain ⟨hi, hk⟩ := h
  cases op with
  | mesh p cells =>
    obtain ⟨more, h1, h2⟩ := outOk_andThen (outOk_points (T := T) hi p) (fun w arrs h => outOk_cells h cells)
    refine ⟨more, h1, ?_⟩
    intro g hg
    simp only [step, List.mem_append, List.mem_singleton] at hg
    rcases hg with hg | hg | rfl
    · exact (hk g (by simp [hg])).mono more
    · exact (hk g (by simp [hg])).mono more
    · exact h2
  | data t pd cd =>
    unfold step
    simp only
    split
    · refine ⟨[], by simpa using hi, ?_⟩
      intro g hg
      simp only [List.mem_append, List.mem_singleton] at hg
      rw [List.append_nil]
      rcases hg with (hg | rfl) | hg
      · exact hk g (by simp [hg])
      · intro e he; cases he
      · exact hk g (by simp [hg])
    · obtain ⟨more, h1, h2⟩ := outOk_andThen (outOk_attrs (T := T) "Node" pd hi) (fun w arrs h => outOk_cellData cd h)
      refine ⟨more, h1, ?_⟩
      intro g hg
      simp only [List.mem_append, List.mem_singleton] at hg
      rcases hg with (hg | rfl) | hg
      · exact (hk g (by simp [hg])).mono more
      · intro e he it hit
        simp only [List.mem_cons] at he
        rcases he with rfl | rfl | he
        · cases hit
        · cases hit
        · exact h2 e he it hit
      · exact (hk g (by simp [hg])).mono more

theorem run_ok (c : Cfg) (ops : List (Op F T)) (s : Series F T) (arrs : List (Nd F)) (h : SeriesOk c arrs s) :
    ∃ more, SeriesOk c (arrs ++ more) (run c s ops).1 := by
  induction ops generalizing s arrs with
  | nil => exact ⟨[], by simpa [run] using h⟩
  | cons op ops ih =>
    obtain ⟨more, h1⟩ := step_ok c s op arrs h
    obtain ⟨more', h2⟩ := ih _ _ h1
    exact ⟨more ++ more', by rw [← List.append_assoc]; exact h2⟩

theorem seriesOk_begin (c : Cfg) (fs : Files F) : SeriesOk c [] (begin (T := T) c fs) :=
  ⟨inv_start c fs, by intro g hg; cases hg⟩

/-- A known item reads the same in all later states. -/
theorem readItem_stable {strict : Bool} {c : Cfg} (hc : NamesOk c) {w w' : W F} {arrs more : List (Nd F)}
    (hi : Inv c w arrs) (hi' : Inv c w' (arrs ++ more)) {it : Item F} (hk : Known c arrs it) :
    readItem strict c.dir w'.files it = readItem strict c.dir w.files it := by
  obtain ⟨hf, hk⟩ := hk
  rcases hk with hk | ⟨a, hk⟩
  · unfold readItem
    rw [hk]
  · have hk' := hk.mono more
    unfold readItem
    rw [hf]
    unfold TextOf at hk hk'
    unfold Inv at hi hi'
    cases hfm : c.fmt with
    | xml => rfl
    | binary =>
      rw [hfm] at hk hk' hi hi'
      obtain ⟨k, h1, h2⟩ := hk
      obtain ⟨k', h1', h2'⟩ := hk'
      have e : k = k' := by
        rw [h2] at h2'
        simp only [Text.path.injEq] at h2'
        exact binName_inj (List.append_cancel_left h2')
      subst e
      rw [h2]
      simp only [strip_bin hc, hi.2 k a h1, hi'.2 k a h1']
    | hdf =>
      rw [hfm] at hk hk' hi hi'
      obtain ⟨k, h1, h2⟩ := hk
      obtain ⟨k', h1', h2'⟩ := hk'
      have e : k = k' := by
        rw [h2] at h2'
        simp only [Text.path.injEq] at h2'
        exact setName_inj (List.append_cancel_left h2')
      subst e
      rw [h2]
      simp only
      unfold readH5
      rw [strip_h5 hc, split_h5 hc, hc.dir hfm]
      simp only
      rw [hi.2, hi'.2]
      simp only [ne_eq, not_true_eq_false, decide_false, Bool.and_false, Bool.false_eq_true, if_true, if_false,
        slash_not_mem_setName, lookup_setsOf _ _ _ h1, lookup_setsOf _ _ _ h1']

/-! ## Calls that succeed -/

theorem addItem_ok {c : Cfg} {w : W F} {a : Nd F} {arrs : List (Nd F)} (hi : Inv c w arrs) (hw : Writable true c a)
    (mk : List (Item F) → Elem F T) (dims : List Nat) (hd : dims = a.shape) :
    ∃ w' it more, addItem c w mk dims a = { w := w', elems := [mk [it]], err := none } ∧ Inv c w' (arrs ++ more) ∧
      ItemOf c (arrs ++ more) it a := by
  obtain ⟨w', t, ht⟩ := putText_ok hi hw
  obtain ⟨more, h1, h2⟩ := putText_inv hi ht
  obtain ⟨num, hn⟩ := Option.isSome_iff_exists.1 hw.1
  refine ⟨w', { num := num, dims := dims, fmt := c.fmt, text := t }, more, ?_, h1, hn, hd, rfl, h2⟩
  unfold addItem
  rw [hn]
  simp only
  rw [ht]

/-- The call succeeded and left behind elements that say so. -/
def OutSays (c : Cfg) (arrs : List (Nd F)) (o : Out F T) (ds : List (Desc F T)) : Prop :=
  o.err = none ∧ ∃ more, Inv c o.w (arrs ++ more) ∧ GridOf c (arrs ++ more) o.elems ds

theorem outSays_andThen {c : Cfg} {arrs : List (Nd F)} {o : Out F T} {f : W F → Out F T} {ds ds' : List (Desc F T)}
    (ho : OutSays c arrs o ds) (hf : ∀ w arrs, Inv c w arrs → OutSays c arrs (f w) ds') :
    OutSays c arrs (o.andThen f) (ds ++ ds') := by
  obtain ⟨h0, more, h1, h2⟩ := ho
  obtain ⟨h3, more', h4, h5⟩ := hf _ _ h1
  unfold Out.andThen
  rw [h0]
  refine ⟨h3, more ++ more', by rw [← List.append_assoc]; exact h4, ?_⟩
  rw [← List.append_assoc]
  exact (h2.mono more').append h5

theorem outSays_nil {c : Cfg} {w : W F} {arrs : List (Nd F)} (hi : Inv c w arrs) :
    OutSays (T := T) c arrs { w := w, elems := [], err := none } [] :=
  ⟨rfl, [], by simpa using hi, trivial⟩

theorem outSays_attrs {c : Cfg} (center : String) (l : List (List Char × Nd F))
    (hl : ∀ e ∈ l, (∃ ty, attributeType e.2.inner = .ok ty) ∧ Writable true c e.2) {w : W F} {arrs : List (Nd F)}
    (hi : Inv c w arrs) :
    OutSays (T := T) c arrs (tsAttrs c center l w) (l.map fun e => .attr e.1 (attrTy e.2) center e.2) := by
  induction l generalizing w arrs with
  | nil => exact outSays_nil hi
  | cons e l ih =>
    rw [tsAttrs]
    have : (List.map (fun e => Desc.attr (T := T) e.1 (attrTy e.2) center e.2) (e :: l)) =
        [.attr e.1 (attrTy e.2) center e.2] ++ l.map fun e => .attr e.1 (attrTy e.2) center e.2 := rfl
    rw [this]
    refine outSays_andThen ?_ (fun w arrs h => ih (fun x hx => hl x (by simp [hx])) h)
    obtain ⟨⟨ty, ht⟩, hw⟩ := hl e (by simp)
    obtain ⟨w', it, more, h1, h2, h3⟩ := addItem_ok (T := T) hi hw (.attr e.1 ty center) e.2.shape rfl
    have hty : attrTy e.2 = ty := by unfold attrTy; rw [ht]; rfl
    unfold tsAttr
    rw [ht]
    simp only
    rw [h1]
    exact ⟨rfl, more, h2, ⟨it, by rw [hty], h3⟩, trivial⟩

/-! ## Reading -/

/-- What the time series reader does with the elements of the mesh. -/
def tsReadDesc (s : Option (Nd F) × List (String × List (List Int))) (d : Desc F T) :
    Res (Option (Nd F) × List (String × List (List Int))) :=
  match d with
  | .topology ty a =>
    match readTopology s.2 ty a with
    | .error err => .error err
    | .ok cells => .ok (s.1, cells)
  | .geometry ty a => if ty = "XY" ∨ ty = "XYZ" then .ok (some a, s.2) else .error .readError
  | _ => .ok s

/-- What the time series reader does with the elements of a step. -/
def tsDataDesc (s : DSt F T) (d : Desc F T) : Res (DSt F T) :=
  match d with
  | .time t => .ok { s with t := some t }
  | .attr name _ center a =>
    if center = "Node" then .ok { s with pd := upd s.pd name a }
    else if center = "Cell" then .ok { s with cdRaw := upd s.cdRaw name a }
    else .error .readError
  | _ => .ok s

/-- An element the time series reader can read. -/
def ReadableDesc (c : Cfg) (d : Desc F T) : Prop := ∀ a, d.arr = some a → Rect a ∧ NonEmptyText true c a

theorem tsReadElem_desc {c : Cfg} {w : W F} {arrs : List (Nd F)} (hc : NamesOk c) (hi : Inv c w arrs)
    (e : Elem F T) (d : Desc F T) (h : ElemOf c arrs e d) (hr : ReadableDesc c d)
    (s : Option (Nd F) × List (String × List (List Int))) :
    tsReadElem c.dir w.files s e = tsReadDesc s d := by
  have ri : ∀ it a, d.arr = some a → ItemOf c arrs it a → readItem true c.dir w.files it = .ok a :=
    fun it a ha hit => readItem_ok hc hi hit (hr a ha).1 (hr a ha).2
  cases d with
  | geometry ty a =>
    obtain ⟨it, rfl, h2⟩ := h
    simp only [tsReadElem, tsReadDesc, ri it a rfl h2]
  | topology ty a =>
    obtain ⟨it, rfl, h2⟩ := h
    simp only [tsReadElem, tsReadDesc, ri it a rfl h2]
    rfl
  | attr n ty ce a =>
    obtain ⟨it, rfl, h2⟩ := h
    rfl
  | time t =>
    have h : e = .time t := h
    subst h
    rfl
  | incl =>
    have h : e = .incl := h
    subst h
    rfl

theorem tsReadData_desc {c : Cfg} {w : W F} {arrs : List (Nd F)} (hc : NamesOk c) (hi : Inv c w arrs)
    (e : Elem F T) (d : Desc F T) (h : ElemOf c arrs e d) (hr : ReadableDesc c d) (s : DSt F T) :
    tsReadData c.dir w.files s e = tsDataDesc s d := by
  have ri : ∀ it a, d.arr = some a → ItemOf c arrs it a → readItem true c.dir w.files it = .ok a :=
    fun it a ha hit => readItem_ok hc hi hit (hr a ha).1 (hr a ha).2
  cases d with
  | geometry ty a =>
    obtain ⟨it, rfl, h2⟩ := h
    rfl
  | topology ty a =>
    obtain ⟨it, rfl, h2⟩ := h
    rfl
  | attr n ty ce a =>
    obtain ⟨it, rfl, h2⟩ := h
    simp only [tsReadData, tsDataDesc, ri it a rfl h2]
  | time t =>
    have h : e = .time t := h
    subst h
    rfl
  | incl =>
    have h : e = .incl := h
    subst h
    rfl

theorem tsAttrs_node (l : List (List Char × Nd F)) (s : DSt F T) (hn : ((s.pd ++ l).map (·.1)).Nodup) :
    foldRes tsDataDesc s (l.map fun e => .attr e.1 (attrTy e.2) "Node" e.2) = .ok { s with pd := s.pd ++ l } := by
  induction l generalizing s with
  | nil => simp [foldRes]
  | cons e l ih =>
    have hnot : e.1 ∉ s.pd.map (·.1) := by
      rw [List.map_append, List.nodup_append] at hn
      intro h
      exact hn.2.2 _ h _ (by simp) rfl
    have hs : tsDataDesc s (Desc.attr (T := T) e.1 (attrTy e.2) "Node" e.2) = .ok { s with pd := s.pd ++ [e] } := by
      unfold tsDataDesc
      simp only
      rw [if_pos trivial, upd_new _ _ _ hnot]
    rw [List.map_cons, foldRes, hs]
    simp only
    rw [ih]
    · simp
    · simpa using hn

theorem tsAttrs_cell (l : List (List Char × Nd F)) (s : DSt F T) (hn : ((s.cdRaw ++ l).map (·.1)).Nodup) :
    foldRes tsDataDesc s (l.map fun e => .attr e.1 (attrTy e.2) "Cell" e.2) = .ok { s with cdRaw := s.cdRaw ++ l } := by
  induction l generalizing s with
  | nil => simp [foldRes]
  | cons e l ih =>
    have hnot : e.1 ∉ s.cdRaw.map (·.1) := by
      rw [List.map_append, List.nodup_append] at hn
      intro h
      exact hn.2.2 _ h _ (by simp) rfl
    have hs : tsDataDesc s (Desc.attr (T := T) e.1 (attrTy e.2) "Cell" e.2) = .ok { s with cdRaw := s.cdRaw ++ [e] } := by
      unfold tsDataDesc
      simp only
      rw [if_neg (by decide), if_pos trivial, upd_new _ _ _ hnot]
    rw [List.map_cons, foldRes, hs]
    simp only
    rw [ih]
    · simp
    · simpa using hn

/-! ## The stream of the time series writer -/

theorem tsRows_ok (b : String × List (List Int)) (hb : b.1 ∈ xdmfMixed.map (·.1)) (hl : b.1 ≠ "line") :
    tsRows b = .ok (b.2.flatMap fun r => xdmfHeader b.1 ++ r) := by
  obtain ⟨e, he, hn⟩ := List.mem_map.1 hb
  unfold tsRows
  rw [← hn, mixedIdx e he]
  simp only
  have : ∀ e ∈ xdmfMixed, e.1 ≠ "line" → xdmfHeader e.1 = [(e.2.1 : Int)] := by decide +kernel
  rw [this e he (by rw [hn]; exact hl)]
  rfl

theorem tsStream_ok (cells : List (String × List (List Int)))
    (h : ∀ b ∈ cells, b.1 ∈ xdmfMixed.map (·.1) ∧ b.1 ≠ "line") :
    ∃ l, mapRes tsRows cells = .ok l ∧ l.flatten = xdmfStream (rowsOf cells) := by
  refine ⟨_, mapRes_ok_of_forall (g := fun b => b.2.flatMap fun r => xdmfHeader b.1 ++ r)
    (fun b hb => tsRows_ok b (h b hb).1 (h b hb).2), ?_⟩
  unfold xdmfStream
  rw [← rowsOf_flatMap cells (fun t r => xdmfHeader t ++ r), List.flatMap]

theorem tsDim_ok (cells : List (String × List (List Int)))
    (h : ∀ b ∈ cells, b.1 ∈ xdmfMixed.map (·.1) ∧ b.1 ≠ "line") (hu : UniformCells cells) :
    (cells.map fun b => b.2.length * widthOf b.2).sum + (cells.map fun b => b.2.length).sum =
      (xdmfStream (rowsOf cells)).length := by
  unfold xdmfStream
  rw [← rowsOf_flatMap cells (fun t r => xdmfHeader t ++ r)]
  have one : ∀ e ∈ xdmfMixed, e.1 ≠ "line" → (xdmfHeader e.1).length = 1 := by decide +kernel
  induction cells with
  | nil => rfl
  | cons b cells ih =>
    have ih := ih (fun x hx => h x (by simp [hx])) (fun x hx => hu x (by simp [hx]))
    simp only [List.map_cons, List.sum_cons, List.flatMap_cons, List.length_append]
    have hb : (b.2.flatMap fun r => xdmfHeader b.1 ++ r).length = b.2.length * widthOf b.2 + b.2.length := by
      have hub := hu b (by simp)
      obtain ⟨e, he, hn⟩ := List.mem_map.1 (h b (by simp)).1
      have h1 := one e he (by rw [hn]; exact (h b (by simp)).2)
      rw [hn] at h1
      generalize widthOf b.2 = w at hub
      generalize b.2 = rows at hub
      induction rows with
      | nil => simp
      | cons r rows ih2 =>
        have ih2 := ih2 (fun x hx => hub x (by simp [hx]))
        have hr := hub r (by simp)
        simp only [List.flatMap_cons, List.length_append, List.length_cons, ih2, h1, hr, Nat.succ_mul]
        omega
    rw [hb, ← ih]
    omega

end Xdmf
end Meshio
