/-
C78: files of XDMF time series.
-/
import Verif.Proofs.XdmfSeriesFile
import Verif.Props.XdmfSeries
import Verif.Props.XdmfFile
import Verif.Spec.XdmfSeriesFile
namespace Meshio
namespace Props
open Xdmf XdmfFile Types Tables Spec

variable {F T : Type}

/-- A call whose values can be printed: names and times without line ends and tabs, times that are read back; if the numbers are in the
document, their texts are read as the numbers. -/
def SeriesText (io : SeriesIO F T) (fmt : Fmt) : Op F T → Prop
  | .mesh p _ => fmt = .xml → PrintsNumbers io.num p
  | .data t pd cd => XdmfNameText (io.fmtTime t) ∧ io.parseTime (io.fmtTime t) = some t ∧ (∀ e ∈ pd, XdmfNameText e.1) ∧
      (∀ e ∈ cd, XdmfNameText e.1) ∧
      (fmt = .xml → (∀ e ∈ pd, PrintsNumbers io.num e.2) ∧ ∀ e ∈ cd, ∀ a ∈ e.2, PrintsNumbers io.num a)

private theorem values_of {io : SeriesIO F T} {fmt : Fmt} {op : Op F T} (h : SeriesText io fmt op) : OpValues io op := by
  cases op with
  | mesh p cells => trivial
  | data t pd cd => exact ⟨h.1, h.2.2.1, h.2.2.2.1⟩

/-! ## What is written can be read -/

private theorem points_good {io : SeriesIO F T} {c : Cfg} {p : Nd F} {w : W F} (he : (tsPoints (T := T) c p w).err = none)
    (hp : Printable io.num c p) (hne : c.fmt = .xml → p.rows.flatten ≠ []) : ∀ e ∈ (tsPoints (T := T) c p w).elems, TsElemGood io e := by
  unfold tsPoints at he ⊢
  split at he
  · cases he
  · next d hd =>
    split at he
    · next h2 =>
      obtain ⟨it, h1, _, _, _, h5⟩ := addItem_out he
      rw [if_pos h2, h1]
      intro e hx
      rw [List.mem_singleton] at hx
      subst hx
      exact h5 io.num hp hne
    · next h2 =>
      split at he
      · cases he
      · next h3 =>
        obtain ⟨it, h1, _, _, _, h5⟩ := addItem_out he
        rw [if_neg h2, if_neg h3, h1]
        intro e hx
        rw [List.mem_singleton] at hx
        subst hx
        exact h5 io.num hp hne
  · cases he

private theorem flatten_ne {rows : List (List Int)} (h : rows.flatten ≠ []) (w : Nat) : (connNd (F := F) w rows).rows.flatten ≠ [] := by
  intro e
  apply h
  simp only [connNd] at e
  have hl := congrArg List.length e
  rw [List.length_flatten, List.map_map] at hl
  rw [← List.length_eq_zero_iff, List.length_flatten]
  rw [show (fun r : List (Xdmf.Val F) => r.length) ∘ (fun r : List Int => r.map Xdmf.Val.int) = List.length by funext r; simp] at hl
  exact hl

private theorem tsRows_ne (cells : List (String × List (List Int))) (l : List (List Int)) (h : mapRes tsRows cells = .ok l)
    (hne : rowsOf cells ≠ []) : l.flatten ≠ [] := by
  induction cells generalizing l with
  | nil => exact absurd rfl hne
  | cons b cells ih =>
    rw [mapRes] at h
    split at h
    · cases h
    · next y hy =>
      split at h
      · cases h
      · next ys hys =>
        injection h with h
        subst h
        rw [List.flatten_cons]
        intro e
        obtain ⟨e1, e2⟩ := List.append_eq_nil_iff.1 e
        by_cases hr : rowsOf cells = []
        · unfold tsRows at hy
          split at hy
          · cases hy
          · injection hy with hy
            subst hy
            cases hb : b.2 with
            | nil =>
              apply hne
              show rowsOf (b :: cells) = []
              unfold rowsOf at hr ⊢
              rw [List.flatMap_cons, hr, hb]
              rfl
            | cons r rs => rw [hb] at e1; simp at e1
        · exact ih ys hys hr e2

private theorem cells_good {io : SeriesIO F T} {c : Cfg} {p : Nd F} {cells : List (String × List (List Int))} {w : W F}
    (he : (tsCells (T := T) c cells w).err = none) (h : MeshOk c.fmt p cells) : ∀ e ∈ (tsCells (T := T) c cells w).elems, TsElemGood io e := by
  unfold tsCells at he ⊢
  split at he
  · intro e hx; cases hx
  · next b =>
    split at he
    · cases he
    · next ty hty =>
      obtain ⟨it, h1, _, _, _, h5⟩ := addItem_out he
      rw [h1]
      intro e hx
      rw [List.mem_singleton] at hx
      subst hx
      refine h5 io.num ?_ (fun hf => flatten_ne ((h.single b rfl).2.2.2 hf) _)
      intro _ r hr v hv
      simp only [connNd, List.mem_map] at hr
      obtain ⟨r', _, rfl⟩ := hr
      obtain ⟨i, _, rfl⟩ := List.mem_map.1 hv
      exact int_ok io.num i
  · next h0 h1 =>
    have h2 : 2 ≤ cells.length := by
      match cells, h0, h1 with
      | [], h0, _ => exact absurd rfl h0
      | [b], _, h1 => exact absurd rfl (h1 b)
      | _ :: _ :: _, _, _ => simp
    split at he
    · cases he
    · next hl =>
      split at he
      · cases he
      · next l hrows =>
        obtain ⟨it, g1, _, _, _, g5⟩ := addItem_out he
        rw [if_neg hl]
        rw [g1]
        intro e hx
        rw [List.mem_singleton] at hx
        subst hx
        refine g5 io.num ?_ (fun _ => ?_)
        · intro _ r hr v hv
          simp only [flatNd, List.mem_map] at hr
          obtain ⟨i, _, rfl⟩ := hr
          rw [List.mem_singleton] at hv
          subst hv
          exact int_ok io.num i
        · rw [flatten_flatNd]
          intro e
          exact tsRows_ne cells l hrows (h.mixed h2).1 (by simpa using e)

private theorem attrs_good {io : SeriesIO F T} {c : Cfg} {center : String} (l : List (List Char × Nd F)) {w : W F}
    (he : (tsAttrs (T := T) c center l w).err = none) (hl : ∀ x ∈ l, Printable io.num c x.2 ∧ (c.fmt = .xml → x.2.rows.flatten ≠ [])) :
    ∀ e ∈ (tsAttrs (T := T) c center l w).elems, TsElemGood io e := by
  induction l generalizing w with
  | nil => intro e hx; cases hx
  | cons x l ih =>
    obtain ⟨e1, e2, e3⟩ := andThen_none he
    unfold tsAttrs
    rw [e3]
    intro e hx
    rcases List.mem_append.1 hx with hx | hx
    · unfold tsAttr at e1 hx
      split at e1
      · cases e1
      · next ty hty =>
        obtain ⟨it, h1, _, _, _, h5⟩ := addItem_out e1
        rw [hty] at hx
        simp only at hx
        rw [h1, List.mem_singleton] at hx
        subst hx
        exact h5 io.num (hl x (by simp)).1 (hl x (by simp)).2
    · exact ih e2 (fun y hy => hl y (by simp [hy])) e hx

private theorem cellData_good {io : SeriesIO F T} {c : Cfg} {pd : List (List Char × Nd F)} {cd : List (List Char × List (Nd F))} {w : W F}
    (he : (tsCellData (T := T) c cd w).err = none) (h : DataOk c.fmt pd cd)
    (hp : c.fmt = .xml → ∀ e ∈ cd, ∀ a ∈ e.2, PrintsNumbers io.num a) (hn : ∀ e ∈ cd, XdmfNameText e.1) :
    ∀ e ∈ (tsCellData (T := T) c cd w).elems, TsElemGood io e := by
  obtain ⟨hraw, hj⟩ := series_joined_ok h
  unfold tsCellData at he ⊢
  rw [hraw] at he ⊢
  simp only at he ⊢
  refine attrs_good _ he ?_
  intro x hx
  refine ⟨(raw_good io.num cd _ hraw ?_ x hx).2.2, fun hf => ((hj x hx).2.text hf).2⟩
  intro e he
  refine ⟨hn e he, fun b hb => ?_⟩
  obtain ⟨_, dtype, inner, _, _, ha⟩ := h.cellData e he
  refine ⟨?_, xdmf_printable_of fun hf => hp hf e he b hb⟩
  intro r hr
  rw [(ha b hb).2.1]
  exact (ha b hb).2.2.1 r hr

private theorem run_good (io : SeriesIO F T) (c : Cfg) (ops : List (Op F T)) (hops : ∀ op ∈ ops, OpOk c.fmt op ∧ SeriesText io c.fmt op)
    (s : Series F T) (herr : ∀ e ∈ (run c s ops).2, e = none) (h1 : ∀ g ∈ s.coll, ∀ e ∈ g, TsElemGood io e)
    (h2 : ∀ g ∈ s.meshes, ∀ e ∈ g, TsElemGood io e) :
    (∀ g ∈ (run c s ops).1.coll, ∀ e ∈ g, TsElemGood io e) ∧ ∀ g ∈ (run c s ops).1.meshes, ∀ e ∈ g, TsElemGood io e := by
  induction ops generalizing s with
  | nil => exact ⟨h1, h2⟩
  | cons op ops ih =>
    have he := herr (step c s op).2 (by simp [run])
    refine ih (fun x hx => hops x (by simp [hx])) _ (fun e hx => herr e (by simp [run, hx])) ?_ ?_
    · cases op with
      | mesh p cells => exact h1
      | data t pd cd =>
        obtain ⟨ho, ht1, ht2, ht3, ht4, ht5⟩ := hops (.data t pd cd) (by simp)
        cases hm : s.hasMesh with
        | false => simp [step, hm] at he
        | true =>
          simp only [step, hm, Bool.not_true, Bool.false_eq_true, if_false] at he ⊢
          obtain ⟨e1, e2, e3⟩ := andThen_none he
          intro g hg
          rcases List.mem_append.1 hg with hg | hg
          · exact h1 g hg
          · rw [List.mem_singleton] at hg
            subst hg
            intro e hx
            rcases List.mem_cons.1 hx with rfl | hx
            · trivial
            · rcases List.mem_cons.1 hx with rfl | hx
              · exact ht2
              · rw [e3] at hx
                rcases List.mem_append.1 hx with hx | hx
                · exact attrs_good pd e1 (fun x hx => ⟨xdmf_printable_of fun hf => (ht5 hf).1 x hx,
                    fun hf => (((ho : DataOk c.fmt pd cd).pointData x hx).1.text hf).2⟩) e hx
                · exact cellData_good e2 ho (fun hf => (ht5 hf).2) ht4 e hx
    · cases op with
      | data t pd cd => cases hm : s.hasMesh <;> simpa [step, hm] using h2
      | mesh p cells =>
        obtain ⟨ho, ht⟩ := hops (.mesh p cells) (by simp)
        simp only [step] at he ⊢
        obtain ⟨e1, e2, e3⟩ := andThen_none he
        intro g hg
        rcases List.mem_append.1 hg with hg | hg
        · exact h2 g hg
        · rw [List.mem_singleton] at hg
          subst hg
          intro e hx
          rw [e3] at hx
          rcases List.mem_append.1 hx with hx | hx
          · exact points_good e1 (xdmf_printable_of ht) (fun hf => ((ho : MeshOk c.fmt p cells).points.text hf).2) e hx
          · exact cells_good e2 ho e hx

private theorem zip_getLast {α β : Type} (l : List α) (m : List β) (h : l.length = m.length) (b : β) (hb : m.getLast? = some b) :
    ∃ a, (l.zip m).getLast? = some (a, b) := by
  induction l generalizing m with
  | nil => cases m with
    | nil => cases hb
    | cons b m => cases h
  | cons a l ih => cases m with
    | nil => cases h
    | cons b' m =>
      cases l with
      | nil => cases m with
        | nil => simp at hb; subst hb; exact ⟨a, rfl⟩
        | cons => cases h
      | cons a2 l => cases m with
        | nil => cases h
        | cons b2 m =>
          simp only [List.getLast?_cons_cons] at hb
          obtain ⟨x, hx⟩ := ih (b2 :: m) (by simpa using h) hb
          refine ⟨x, ?_⟩
          simp only [List.zip_cons_cons, List.getLast?_cons_cons] at hx ⊢
          exact hx

/-- C78.  For every history of admissible calls that begins with a mesh (C41) and whose values can be printed, in each of the three formats
and whatever files were there before: no call raises; the text that is written when the block is left can be opened; the reader sees as many
steps as were written, each with its time, its point data and its cell data (cut at the blocks of the mesh it is given), and the last mesh. -/
theorem C78_fused (io : SeriesIO F T) (c : Cfg) (hc : NamesOk c) (fs : Files F) (p : Nd F) (cells : List (String × List (List Int)))
    (rest : List (Op F T)) (hops : ∀ op ∈ Op.mesh p cells :: rest, OpOk c.fmt op ∧ SeriesText io c.fmt op) :
    ∃ files text errs o, writeSeries io c fs (.mesh p cells :: rest) = (files, text, errs) ∧ (∀ e ∈ errs, e = none) ∧
      openSeries text = .ok o ∧ o.steps.length = (stepsOf rest).length ∧
      (∀ (k : Nat) t pd cd, (stepsOf rest)[k]? = some (t, pd, cd) → ∀ cs, tsStep io c.dir files o (some cs) k =
        .ok (t, pd, cd.map fun e => (e.1, splitNd (cs.map fun b => b.2.length) (joined e).2))) ∧
      ∀ m, ((p, cells) :: meshesOf rest).getLast? = some m → tsMesh io c.dir files o = .ok (some m.1, fused m.2) := by
  obtain ⟨s, errs, hrun⟩ : ∃ s errs, run c (begin c fs) (.mesh p cells :: rest) = (s, errs) := ⟨_, _, rfl⟩
  obtain ⟨k1, k2, k3, k4⟩ := C41_roundtrip_partial c hc fs p cells rest (fun op h => (hops op h).1) s errs hrun
  have hv := run_values io c (.mesh p cells :: rest) (fun op h => values_of (hops op h).2) (begin c fs) (by simp [begin]) (by simp [begin])
  have hg := run_good io c (.mesh p cells :: rest) hops (begin c fs) (by rw [hrun]; exact k1) (by simp [begin]) (by simp [begin])
  have hlen := run_lengths c (.mesh p cells :: rest) (begin c fs)
  rw [hrun] at hv hg hlen
  simp only [begin, List.length_nil, Nat.zero_add] at hv hg hlen
  obtain ⟨g, hgl⟩ : ∃ g, s.meshes.getLast? = some g := by
    cases hm : s.meshes.getLast? with
    | some g => exact ⟨g, rfl⟩
    | none =>
      rw [List.getLast?_eq_none_iff] at hm
      rw [hm] at hlen
      simp [meshTotals] at hlen
  obtain ⟨n, hz⟩ := zip_getLast (meshTotals (.mesh p cells :: rest)) s.meshes hlen.symm g hgl
  have hopen := open_series io s.coll _ _ hv.1 (fun m hm e he => hv.2 m.2 (List.of_mem_zip (a := m.1) (b := m.2) hm).2 e he) hz
  refine ⟨s.w.files, _, errs, _, ?_, k1, hopen, ?_, ?_, ?_⟩
  · unfold writeSeries
    rw [hrun]
  · rw [List.length_map, k2]
  · intro k t pd cd hk cs
    rw [tsStep_good io c.dir s _ (some cs) k (fun g hg' => hg.1 g (List.mem_of_getElem? hg')), k3 k t pd cd hk cs]
  · intro m hm
    rw [tsMesh_good io c.dir s.w.files _ (n, g) (fun e he => hg.2 g (List.mem_of_getLast? hgl) e he)]
    have := k4 m hm
    unfold readPointsCells at this
    rw [hgl] at this
    exact this

/-- C78, exactly: a step whose arrays are as long as the blocks of the mesh comes back as it was given. -/
theorem C78_roundtrip_partial (io : SeriesIO F T) (c : Cfg) (hc : NamesOk c) (fs : Files F) (p : Nd F) (cells : List (String × List (List Int)))
    (rest : List (Op F T)) (hops : ∀ op ∈ Op.mesh p cells :: rest, OpOk c.fmt op ∧ SeriesText io c.fmt op) :
    ∃ files text errs o, writeSeries io c fs (.mesh p cells :: rest) = (files, text, errs) ∧ (∀ e ∈ errs, e = none) ∧
      openSeries text = .ok o ∧
      ∀ (k : Nat) t pd cd, (stepsOf rest)[k]? = some (t, pd, cd) → ∀ cs : List (String × List (List Int)),
        (∀ e ∈ cd, (e.2.map fun a => a.rows.length) = cs.map fun b => b.2.length) → tsStep io c.dir files o (some cs) k = .ok (t, pd, cd) := by
  obtain ⟨files, text, errs, o, h1, h2, h3, _, h5, _⟩ := C78_fused io c hc fs p cells rest hops
  refine ⟨files, text, errs, o, h1, h2, h3, ?_⟩
  intro k t pd cd hk cs hl
  rw [h5 k t pd cd hk cs]
  obtain ⟨s, es, hrun⟩ : ∃ s errs, run c (begin c fs) (.mesh p cells :: rest) = (s, errs) := ⟨_, _, rfl⟩
  have a := C41_steps c hc fs p cells rest (fun op h => (hops op h).1) s es hrun k t pd cd hk cs hl
  obtain ⟨_, _, b, _⟩ := C41_roundtrip_partial c hc fs p cells rest (fun op h => (hops op h).1) s es hrun
  rw [b k t pd cd hk cs] at a
  exact a

private theorem stepsOf_data (steps : List (T × List (List Char × Nd F) × List (List Char × List (Nd F)))) :
    stepsOf (steps.map fun d => Op.data d.1 d.2.1 d.2.2) = steps ∧ meshesOf (steps.map fun d => Op.data d.1 d.2.1 d.2.2) = [] := by
  induction steps with
  | nil => exact ⟨rfl, rfl⟩
  | cons d steps ih => exact ⟨by simp only [List.map_cons, stepsOf, ih.1], by simp only [List.map_cons, meshesOf, ih.2]⟩

/-- C78, as it is meant: a mesh and then any number of steps are written; the file can be opened, it has as many steps, `read_points_cells`
returns the mesh and then `read_data(k)` returns time and data of step k, for all k.  The blocks of cells are those that XDMF keeps: one
block, or blocks that are not empty and of other types than their neighbours. -/
theorem C78_whole_partial (io : SeriesIO F T) (c : Cfg) (hc : NamesOk c) (fs : Files F) (p : Nd F) (cells : List (String × List (List Int)))
    (steps : List (T × List (List Char × Nd F) × List (List Char × List (Nd F))))
    (hops : ∀ op ∈ Op.mesh p cells :: steps.map (fun d => Op.data d.1 d.2.1 d.2.2), OpOk c.fmt op ∧ SeriesText io c.fmt op)
    (hb : 2 ≤ cells.length → (∀ b ∈ cells, b.2 ≠ []) ∧ ∀ pre a b post, cells = pre ++ a :: b :: post → a.1 ≠ b.1)
    (hl : ∀ d ∈ steps, ∀ e ∈ d.2.2, (e.2.map fun a => a.rows.length) = cells.map fun b => b.2.length) :
    ∃ files text errs o, writeSeries io c fs (.mesh p cells :: steps.map fun d => Op.data d.1 d.2.1 d.2.2) = (files, text, errs) ∧
      (∀ e ∈ errs, e = none) ∧ openSeries text = .ok o ∧ o.steps.length = steps.length ∧
      tsMesh io c.dir files o = .ok (some p, cells) ∧
      ∀ (k : Nat) d, steps[k]? = some d → tsStep io c.dir files o (some cells) k = .ok d := by
  obtain ⟨files, text, errs, o, h1, h2, h3, h4, _, h6⟩ := C78_fused io c hc fs p cells _ hops
  obtain ⟨files', text', errs', o', k1, _, k3, k4⟩ := C78_roundtrip_partial io c hc fs p cells _ hops
  rw [h1] at k1
  injection k1 with e1 k1
  injection k1 with e2 e3
  subst e1 e2 e3
  rw [h3] at k3
  injection k3 with k3
  subst k3
  obtain ⟨s1, s2⟩ := stepsOf_data steps
  have hf : fused cells = cells := by
    unfold fused
    split
    · next hl => exact groupRuns_rowsOf _ (hb hl).1 (hb hl).2
    · rfl
  refine ⟨files, text, errs, o, h1, h2, h3, by rw [h4, s1], ?_, ?_⟩
  · have := h6 (p, cells) (by rw [s2]; rfl)
    rw [this, hf]
  · intro k d hk
    exact k4 k d.1 d.2.1 d.2.2 (by rw [s1]; exact hk) cells (hl d (List.mem_of_getElem? hk))

/-! ## What the document looks like -/

/-- Names and times without line ends and tabs. -/
def SeriesNames (io : SeriesIO F T) : Op F T → Prop
  | .mesh _ _ => True
  | .data t pd cd => XdmfNameText (io.fmtTime t) ∧ (∀ e ∈ pd, XdmfNameText e.1) ∧ ∀ e ∈ cd, XdmfNameText e.1

/-- A mesh: the points, and nothing, one type, or Mixed. -/
def SeriesMeshHead (fmt : Fmt) (m : Nd F × List (String × List (List Int))) : List (String × List (String × String) × List (String × List (String × String))) :=
  ("Geometry", [("GeometryType", if m.1.inner = [2] then "XY" else "XYZ")], [XdmfItemHead fmt m.1.dtype m.1.shape]) ::
    match m.2 with
    | [] => []
    | [b] => [("Topology", [("TopologyType", (xdmfName b.1).getD ""), ("NumberOfElements", String.ofList (fmtNat b.2.length))],
        [XdmfItemHead fmt "int64" [b.2.length, widthOf b.2]])]
    | cells => [("Topology", [("TopologyType", "Mixed"), ("NumberOfElements", String.ofList (fmtNat (cells.map fun b => b.2.length).sum))],
        [XdmfItemHead fmt "int64" [(cells.map fun b => b.2.length * widthOf b.2).sum + (cells.map fun b => b.2.length).sum]])]

/-- A step: the reference to the mesh, the time, the point data and the cell data. -/
def SeriesStepHead (io : SeriesIO F T) (fmt : Fmt) (d : T × List (List Char × Nd F) × List (List Char × List (Nd F))) :
    List (String × List (String × String) × List (String × List (String × String))) :=
  ("ns0:include", [("xpointer", "xpointer(//Grid[@Name=\"mesh\"]/*[self::Topology or self::Geometry])")], []) ::
  ("Time", [("Value", String.ofList (io.fmtTime d.1))], []) ::
  (d.2.1.map (fun e => XdmfAttrHead fmt "Node" e.1 e.2.dtype e.2.shape) ++
    d.2.2.map fun e => XdmfAttrHead fmt "Cell" e.1 ((e.2.head?.map (·.dtype)).getD "")
      ((e.2.map fun a => a.rows.length).sum :: (e.2.head?.map (·.inner)).getD []))

/-- What is compared of a grid. -/
def SeriesGridHead (g : XmlElem) : String × List (String × String) × List (String × List (String × String) × List (String × List (String × String))) :=
  (g.tag, g.attrs, g.kids.map XdmfHead)

private theorem item_head {io : XdmfIO F} {c : Cfg} {dtype : String} {it : Item F} (h1 : find numpyToXdmf dtype = some it.num) (h3 : it.fmt = c.fmt) :
    (tsItems io [it]).tree.elems.map (fun x => (x.tag, x.attrs)) = [XdmfItemHead c.fmt dtype it.dims] := by
  unfold XdmfItemHead
  rw [h1, ← h3]
  obtain ⟨num, dims, fmt, text⟩ := it
  cases fmt <;> rfl

private theorem points_head {io : SeriesIO F T} {total : Nat} {c : Cfg} {p : Nd F} {w : W F} (he : (tsPoints (T := T) c p w).err = none) :
    (tsPoints (T := T) c p w).elems.map (fun e => XdmfHead (tsElemOf io total e)) =
      [("Geometry", [("GeometryType", if p.inner = [2] then "XY" else "XYZ")], [XdmfItemHead c.fmt p.dtype p.shape])] := by
  unfold tsPoints at he ⊢
  split at he
  · cases he
  · next d hd =>
    split at he
    · next h2 =>
      obtain ⟨it, h1, g1, g2, g3, _⟩ := addItem_out he
      subst h2
      rw [if_pos rfl, h1, hd, if_pos rfl]
      simp only [List.map_cons, List.map_nil, XdmfHead, tsElemOf, tsHead, XmlElem.kids]
      rw [item_head g1 g3, g2]
    · next h2 =>
      split at he
      · cases he
      · next h3 =>
        obtain ⟨it, h1, g1, g2, g3, _⟩ := addItem_out he
        rw [if_neg h2, if_neg h3, h1, hd, if_neg (by simpa using h2)]
        simp only [List.map_cons, List.map_nil, XdmfHead, tsElemOf, tsHead, XmlElem.kids]
        rw [item_head g1 g3, g2]
  · cases he

private theorem cells_head {io : SeriesIO F T} {c : Cfg} {p : Nd F} {cells : List (String × List (List Int))} {w : W F}
    (he : (tsCells (T := T) c cells w).err = none) :
    ("Geometry", [("GeometryType", if p.inner = [2] then "XY" else "XYZ")], [XdmfItemHead c.fmt p.dtype p.shape]) ::
      (tsCells (T := T) c cells w).elems.map (fun e => XdmfHead (tsElemOf io (cells.map fun b => b.2.length).sum e)) = SeriesMeshHead c.fmt (p, cells) := by
  unfold SeriesMeshHead
  congr 1
  unfold tsCells at he ⊢
  split at he
  · rfl
  · next b =>
    split at he
    · cases he
    · next ty hty =>
      obtain ⟨it, h1, g1, g2, g3, _⟩ := addItem_out he
      rw [h1]
      simp only [List.map_cons, List.map_nil, XdmfHead, tsElemOf, tsHead, XmlElem.kids]
      rw [item_head g1 g3, g2, hty]
      simp [connNd]
  · next h0 h1 =>
    split at he
    · cases he
    · next hl =>
      split at he
      · cases he
      · next l hrows =>
        obtain ⟨it, k1, g1, g2, g3, _⟩ := addItem_out he
        rw [if_neg hl, k1]
        simp only [List.map_cons, List.map_nil, XdmfHead, tsElemOf, tsHead, XmlElem.kids]
        rw [item_head g1 g3, g2]
        match cells, h0, h1 with
        | [], h0, _ => exact absurd rfl h0
        | [b], _, h1 => exact absurd rfl (h1 b)
        | _ :: _ :: _, _, _ => rfl

private theorem attrs_head {io : SeriesIO F T} {total : Nat} {c : Cfg} {center : String} (l : List (List Char × Nd F)) {w : W F}
    (he : (tsAttrs (T := T) c center l w).err = none) :
    (tsAttrs (T := T) c center l w).elems.map (fun e => XdmfHead (tsElemOf io total e)) =
      l.map fun e => XdmfAttrHead c.fmt center e.1 e.2.dtype e.2.shape := by
  induction l generalizing w with
  | nil => rfl
  | cons x l ih =>
    obtain ⟨e1, e2, e3⟩ := andThen_none he
    unfold tsAttrs
    rw [e3, List.map_append, ih e2, List.map_cons]
    unfold tsAttr at e1 ⊢
    split at e1
    · cases e1
    · next ty hty =>
      obtain ⟨it, h1, g1, g2, g3, _⟩ := addItem_out e1
      rw [h1]
      simp only [List.map_cons, List.map_nil, XdmfHead, tsElemOf, tsHead, XmlElem.kids]
      rw [item_head g1 g3, g2]
      unfold XdmfAttrHead
      rw [show x.2.shape.drop 1 = x.2.inner from rfl, hty]
      rfl

private theorem raw_heads {fmt : Fmt} (cd : List (List Char × List (Nd F))) (raw : List (List Char × Nd F)) (hraw : rawCellData cd = .ok raw) :
    raw.map (fun e => XdmfAttrHead fmt "Cell" e.1 e.2.dtype e.2.shape) =
      cd.map fun e => XdmfAttrHead fmt "Cell" e.1 ((e.2.head?.map (·.dtype)).getD "")
        ((e.2.map fun a => a.rows.length).sum :: (e.2.head?.map (·.inner)).getD []) := by
  unfold rawCellData at hraw
  induction cd generalizing raw with
  | nil => simp only [mapRes] at hraw; injection hraw with hraw; subst hraw; rfl
  | cons x cd ih =>
    rw [mapRes] at hraw
    split at hraw
    · cases hraw
    · next y hy =>
      split at hraw
      · cases hraw
      · next ys hys =>
        injection hraw with hraw
        subst hraw
        rw [List.map_cons, List.map_cons, ih ys hys]
        congr 1
        cases hx : x.2 with
        | nil => rw [hx] at hy; simp [concatNd, Except.map] at hy
        | cons a l =>
          rw [hx, concatNd] at hy
          split at hy
          · split at hy
            · have hy : Except.ok (x.1, _) = Except.ok y := hy
              injection hy with hy
              subst hy
              simp [Nd.shape, List.length_flatMap]
            · cases hy
          · cases hy

private theorem cellData_head {io : SeriesIO F T} {total : Nat} {c : Cfg} {cd : List (List Char × List (Nd F))} {w : W F}
    (he : (tsCellData (T := T) c cd w).err = none) :
    (tsCellData (T := T) c cd w).elems.map (fun e => XdmfHead (tsElemOf io total e)) =
      cd.map fun e => XdmfAttrHead c.fmt "Cell" e.1 ((e.2.head?.map (·.dtype)).getD "")
        ((e.2.map fun a => a.rows.length).sum :: (e.2.head?.map (·.inner)).getD []) := by
  unfold tsCellData at he ⊢
  split at he
  · cases he
  · next raw hraw => rw [attrs_head raw he, raw_heads cd raw hraw]

private theorem run_heads (io : SeriesIO F T) (c : Cfg) (ops : List (Op F T)) (s : Series F T) (herr : ∀ e ∈ (run c s ops).2, e = none) :
    ∃ steps meshes, (run c s ops).1.coll = s.coll ++ steps ∧ (run c s ops).1.meshes = s.meshes ++ meshes ∧
      steps.map (fun g => SeriesGridHead (stepElemOf io g)) = (stepsOf ops).map (fun d => ("Grid", [], SeriesStepHead io c.fmt d)) ∧
      ((meshTotals ops).zip meshes).map (fun m => SeriesGridHead (meshElemOf io m)) =
        (meshesOf ops).map (fun m => ("Grid", [("Name", "mesh"), ("GridType", "Uniform")], SeriesMeshHead c.fmt m)) ∧
      steps.length = (stepsOf ops).length ∧ meshes.length = (meshTotals ops).length ∧ ∀ g ∈ steps, ∃ r, g = Elem.incl :: r := by
  induction ops generalizing s with
  | nil => exact ⟨[], [], by simp [run], by simp [run], rfl, rfl, rfl, rfl, by simp⟩
  | cons op ops ih =>
    have he := herr (step c s op).2 (by simp [run])
    obtain ⟨steps, meshes, i1, i2, i3, i4, i5, i6, i7⟩ := ih (step c s op).1 (fun e hx => herr e (by simp [run, hx]))
    cases op with
    | mesh p cells =>
      simp only [step] at he
      obtain ⟨e1, e2, e3⟩ := andThen_none he
      refine ⟨steps, ((tsPoints (T := T) c p s.w).andThen (tsCells c cells)).elems :: meshes, i1, ?_, i3, ?_, i5, ?_, i7⟩
      · simp only [run]
        rw [i2]
        simp [step]
      · simp only [meshTotals, List.zip_cons_cons, List.map_cons, meshesOf, i4]
        congr 1
        simp only [SeriesGridHead, meshElemOf, XmlElem.kids, elems_ts, List.map_map]
        rw [e3, List.map_append]
        rw [show (tsPoints (T := T) c p s.w).elems.map (XdmfHead ∘ tsElemOf io (cells.map fun b => b.2.length).sum) = _ from points_head e1]
        rw [← cells_head (io := io) (p := p) e2]
        rfl
      · simp [meshTotals, i6]
    | data t pd cd =>
      cases hm : s.hasMesh with
      | false => simp [step, hm] at he
      | true =>
        simp only [step, hm, Bool.not_true, Bool.false_eq_true, if_false] at he
        obtain ⟨e1, e2, e3⟩ := andThen_none he
        refine ⟨(.incl :: .time t :: ((tsAttrs (T := T) c "Node" pd s.w).andThen (tsCellData c cd)).elems) :: steps, meshes, ?_, ?_, ?_, i4, ?_, i6, ?_⟩
        · simp only [run]
          rw [i1]
          simp [step, hm]
        · simp only [run]
          rw [i2]
          simp [step, hm]
        · simp only [List.map_cons, stepsOf, i3]
          congr 1
          simp only [SeriesGridHead, stepElemOf, XmlElem.kids, elems_ts, List.map_map]
          rw [e3, List.map_cons, List.map_cons, List.map_append]
          rw [show (tsAttrs (T := T) c "Node" pd s.w).elems.map (XdmfHead ∘ tsElemOf io 0) = _ from attrs_head pd e1]
          rw [show (tsCellData (T := T) c cd (tsAttrs (T := T) c "Node" pd s.w).w).elems.map (XdmfHead ∘ tsElemOf io 0) = _ from cellData_head e2]
          rfl
        · simp [stepsOf, i5]
        · intro g hg
          rcases List.mem_cons.1 hg with rfl | hg
          · exact ⟨_, rfl⟩
          · exact i7 g hg

/-- C78.  After any history none of whose calls raised, with names and times XML can keep: the text is a document of version 3 with one
domain; in it are the temporal collection, with one grid for each step (the reference to the mesh, the time, then the arrays of points and
of cells under their names, each with its type and shape), and one uniform grid named `mesh` for each mesh, in order. -/
theorem C78_document (io : SeriesIO F T) (c : Cfg) (fs : Files F) (ops : List (Op F T)) (hops : ∀ op ∈ ops, SeriesNames io op)
    (files : Files F) (text : List Char) (errs : List (Option Err)) (h : writeSeries io c fs ops = (files, text, errs))
    (herr : ∀ e ∈ errs, e = none) :
    ∃ root domain coll grids, parseXml text = some root ∧ root.tag = "Xdmf" ∧
      root.attrs = (if stepsOf ops = [] then [] else [("xmlns:ns0", "http://www.w3.org/2003/XInclude")]) ++ [("Version", "3.0")] ∧
      root.kids = [domain] ∧ domain.tag = "Domain" ∧ domain.attrs = [] ∧ domain.kids = coll :: grids ∧
      coll.tag = "Grid" ∧ coll.attrs = [("Name", "TimeSeries_meshio"), ("GridType", "Collection"), ("CollectionType", "Temporal")] ∧
      coll.kids.map SeriesGridHead = (stepsOf ops).map (fun d => ("Grid", [], SeriesStepHead io c.fmt d)) ∧
      grids.map SeriesGridHead = (meshesOf ops).map (fun m => ("Grid", [("Name", "mesh"), ("GridType", "Uniform")], SeriesMeshHead c.fmt m)) := by
  unfold writeSeries at h
  simp only [Prod.mk.injEq] at h
  obtain ⟨_, h2, h3⟩ := h
  have hv := run_values io c ops (fun op h => by cases op with | mesh p cells => trivial | data t pd cd => exact hops _ h)
    (begin c fs) (by simp [begin]) (by simp [begin])
  obtain ⟨steps, meshes, i1, i2, i3, i4, i5, i6, i7⟩ := run_heads io c ops (begin c fs) (by rw [h3]; exact herr)
  simp only [begin, List.nil_append] at i1 i2
  have hp := parse_series io (run c (begin c fs) ops).1.coll ((meshTotals ops).zip (run c (begin c fs) ops).1.meshes) hv.1
    (fun m hm e he => hv.2 m.2 (List.of_mem_zip (a := m.1) (b := m.2) hm).2 e he)
  rw [h2] at hp
  refine ⟨_, ⟨"Domain", [], [], _⟩, ⟨"Grid", collAttrs, [], (stepsEt io (run c (begin c fs) ops).1.coll).tree⟩,
    (meshesEt io ((meshTotals ops).zip (run c (begin c fs) ops).1.meshes)).tree.elems, hp, rfl, ?_, rfl, rfl, rfl, ?_, rfl, rfl, ?_, ?_⟩
  · simp only [strAttrs, rootAttrs]
    have hi : hasInclude (run c (begin c fs) ops).1.coll = decide (stepsOf ops ≠ []) := by
      rw [show (run c (begin c fs) ops).1.coll = steps from i1]
      cases hs : steps with
      | nil =>
        rw [hs] at i5
        rw [List.length_eq_zero_iff.1 i5.symm]
        rfl
      | cons g r =>
        rw [hs] at i5 i7
        obtain ⟨x, rfl⟩ := i7 g (by simp)
        have : stepsOf ops ≠ [] := by intro e; rw [e] at i5; cases i5
        simp [hasInclude, this]
    rw [hi]
    by_cases hs : stepsOf ops = []
    · rw [if_pos hs, if_neg (by simp [hs])]
      rfl
    · rw [if_neg hs, if_pos (by simp [hs])]
      simp
  · exact rfl
  · show (stepsEt io _).tree.elems.map SeriesGridHead = _
    rw [elems_steps, List.map_map, show (run c (begin c fs) ops).1.coll = steps from i1]
    exact i3
  · show (meshesEt io _).tree.elems.map SeriesGridHead = _
    rw [elems_meshes, List.map_map, show (run c (begin c fs) ops).1.meshes = meshes from i2]
    exact i4

/-- C78.  The namespace of the reference to the mesh is not that of XInclude (`http://www.w3.org/2001/XInclude`) in any document: other
programs that read XDMF files do not take the steps to share the mesh. -/
theorem C78_include_false (io : SeriesIO F T) (c : Cfg) (fs : Files F) (ops : List (Op F T)) (hops : ∀ op ∈ ops, SeriesNames io op)
    (files : Files F) (text : List Char) (errs : List (Option Err)) (h : writeSeries io c fs ops = (files, text, errs))
    (herr : ∀ e ∈ errs, e = none) (root : XmlElem) (hp : parseXml text = some root) (k : String) :
    root.attr? k ≠ some "http://www.w3.org/2001/XInclude" := by
  obtain ⟨root', _, _, _, h1, _, h3, _⟩ := C78_document io c fs ops hops files text errs h herr
  rw [hp] at h1
  injection h1 with h1
  subst h1
  unfold XmlElem.attr?
  rw [h3]
  intro e
  cases hf : List.find? (fun a : String × String => a.1 == k)
    ((if stepsOf ops = [] then [] else [("xmlns:ns0", "http://www.w3.org/2003/XInclude")]) ++ [("Version", "3.0")]) with
  | none => rw [hf] at e; cases e
  | some a =>
    rw [hf] at e
    simp only [Option.map_some, Option.some.injEq] at e
    have := List.mem_of_find?_eq_some hf
    split at this <;> simp at this
    · subst this; simp at e
    · rcases this with rfl | rfl <;> simp at e

/-! ## What can be opened and read -/

private theorem filter_last {α : Type} (p : α → Bool) (l : List α) (a : α) :
    (l.filter p).getLast? = some a ↔ ∃ pre post, l = pre ++ a :: post ∧ p a = true ∧ ∀ x ∈ post, p x = false := by
  constructor
  · induction l with
    | nil => intro h; cases h
    | cons x l ih =>
      intro h
      cases hl : (l.filter p).getLast? with
      | some b =>
        have : ((x :: l).filter p).getLast? = some b := by
          rw [List.filter_cons]
          split
          · rw [List.getLast?_cons, hl]; rfl
          · exact hl
        rw [this] at h
        injection h with h
        subst h
        obtain ⟨pre, post, h1, h2, h3⟩ := ih hl
        exact ⟨x :: pre, post, by rw [h1]; rfl, h2, h3⟩
      | none =>
        rw [List.getLast?_eq_none_iff] at hl
        rw [List.filter_cons, hl] at h
        split at h
        · next hx =>
          simp only [List.getLast?_singleton, Option.some.injEq] at h
          subst h
          refine ⟨[], l, rfl, hx, ?_⟩
          intro y hy
          rw [List.filter_eq_nil_iff] at hl
          simpa using hl y hy
        · cases h
  · rintro ⟨pre, post, rfl, h1, h2⟩
    rw [List.filter_append, List.filter_cons, if_pos h1,
      show post.filter p = [] from List.filter_eq_nil_iff.2 fun x hx => by rw [h2 x hx]; decide]
    simp

private theorem findCollection_ok {grids : List XmlElem} {coll : XmlElem} : findCollection grids = .ok coll ↔
    ∃ pre post, grids = pre ++ coll :: post ∧ coll.tag = "Grid" ∧ coll.attr? "GridType" = some "Collection" ∧
      coll.attr? "CollectionType" = some "Temporal" ∧ ∀ g ∈ post, g.attr? "GridType" ≠ some "Collection" := by
  unfold findCollection
  constructor
  · intro h
    split at h
    · cases h
    · next g hg =>
      obtain ⟨pre, post, h1, h2, h3⟩ := (filter_last _ _ _).1 hg
      split at h
      · cases h
      · next ht =>
        split at h
        · cases h
        · next hc =>
          injection h with h
          subst h
          exact ⟨pre, post, h1, by simpa using ht, by simpa using h2, by simpa using hc, fun x hx => by simpa using h3 x hx⟩
  · rintro ⟨pre, post, h1, h2, h3, h4, h5⟩
    rw [(filter_last _ grids coll).2 ⟨pre, post, h1, by simpa using h3, fun x hx => by simpa using h5 x hx⟩]
    simp only
    rw [if_neg (by simp [h2]), if_neg (by simp [h4])]

private theorem findMesh_ok {grids steps : List XmlElem} {mesh : XmlElem} : findMesh grids steps = .ok mesh ↔
    mesh.tag = "Grid" ∧ mesh.attr? "GridType" = some "Uniform" ∧
    ((∃ before after, grids = before ++ mesh :: after ∧ ∀ g ∈ after, g.attr? "GridType" ≠ some "Uniform") ∨
     ((∀ g ∈ grids, g.attr? "GridType" ≠ some "Uniform") ∧
       ∃ before after, steps = before ++ mesh :: after ∧ ∀ g ∈ before, g.attr? "GridType" ≠ some "Uniform")) := by
  unfold findMesh
  constructor
  · intro h
    split at h
    · next g hg =>
      obtain ⟨pre, post, h1, h2, h3⟩ := (filter_last _ _ _).1 hg
      split at h
      · cases h
      · next ht =>
        injection h with h
        subst h
        exact ⟨by simpa using ht, by simpa using h2, .inl ⟨pre, post, h1, fun x hx => by simpa using h3 x hx⟩⟩
    · next hn =>
      rw [List.getLast?_eq_none_iff, List.filter_eq_nil_iff] at hn
      split at h
      · next g hg =>
        obtain ⟨h2, pre, post, h1, h3⟩ := List.find?_eq_some_iff_append.1 hg
        split at h
        · cases h
        · next ht =>
          injection h with h
          subst h
          exact ⟨by simpa using ht, by simpa using h2, .inr ⟨fun x hx => by simpa using hn x hx, pre, post, h1, fun x hx => by simpa using h3 x hx⟩⟩
      · cases h
  · rintro ⟨h1, h2, h | h⟩
    · obtain ⟨pre, post, h3, h4⟩ := h
      rw [(filter_last _ grids mesh).2 ⟨pre, post, h3, by simpa using h2, fun x hx => by simpa using h4 x hx⟩]
      simp only
      rw [if_neg (by simp [h1])]
    · obtain ⟨h3, pre, post, h4, h5⟩ := h
      rw [show grids.filter (fun g => decide (g.attr? "GridType" = some "Uniform")) = [] from
        List.filter_eq_nil_iff.2 fun x hx => by simpa using h3 x hx]
      simp only [List.getLast?_nil]
      rw [List.find?_eq_some_iff_append.2 ⟨by simpa using h2, pre, post, h4, fun x hx => by simpa using h5 x hx⟩]
      simp only
      rw [if_neg (by simp [h1])]

/-- C78.  Exactly the documents of version 3 with one domain and a temporal collection in it and a uniform grid can be opened, and it is
determined which grids the reader uses. -/
theorem C78_opens (text : List Char) (root : XmlElem) (hp : parseXml text = some root) (steps : List XmlElem) (mesh : XmlElem) :
    openSeries text = .ok ⟨steps, mesh⟩ ↔ XdmfSeriesDocument root steps mesh := by
  unfold openSeries
  rw [hp]
  simp only
  unfold tsOpen
  constructor
  · intro h
    split at h
    · cases h
    · next ht =>
      split at h
      · cases h
      · next v hv =>
        split at h
        · cases h
        · next hm =>
          split at h
          · cases h
          · next domain hd =>
            split at h
            · cases h
            · next hdt =>
              split at h
              · cases h
              · next coll hc =>
                split at h
                · cases h
                · next mesh' hmesh =>
                  injection h with h
                  injection h with e1 e2
                  subst e1 e2
                  obtain ⟨pre, post, k1, k2, k3, k4, k5⟩ := findCollection_ok.1 hc
                  obtain ⟨m1, m2, m3⟩ := findMesh_ok.1 hmesh
                  exact ⟨by simpa using ht, ⟨v, hv, (xdmf_major_eq v '3' (by decide)).1 (by simpa using hm)⟩,
                    domain, pre, coll, post, xdmf_only_ok hd, by simpa using hdt, k1, k2, k3, k4, k5, rfl, m1, m2, m3⟩
  · rintro ⟨ht, ⟨v, hv, hm⟩, domain, pre, coll, post, h1, h2, h3, h4, h5, h6, h7, h8, h9, h10, h11⟩
    rw [if_neg (by simp [ht]), hv]
    simp only
    rw [if_neg (by simpa using (xdmf_major_eq v '3' (by decide)).2 hm), h1]
    simp only [only]
    rw [if_neg (by simp [h2]), findCollection_ok.2 ⟨pre, post, h3, h4, h5, h6, h7⟩]
    simp only
    rw [← h8, findMesh_ok.2 ⟨h9, h10, h11⟩]

/-- C78.  Any other document is refused: with KeyError if it is an `Xdmf` element without a version, with ReadError otherwise. -/
theorem C78_refuses (text : List Char) (root : XmlElem) (hp : parseXml text = some root) (h : ∀ steps mesh, ¬ XdmfSeriesDocument root steps mesh) :
    openSeries text = .error (if root.tag = "Xdmf" ∧ root.attr? "Version" = none then .keyError else .readError) := by
  have hno : ∀ o, openSeries text ≠ .ok o := fun o ho => h o.steps o.mesh ((C78_opens text root hp o.steps o.mesh).1 ho)
  unfold openSeries at hno ⊢
  rw [hp] at hno ⊢
  simp only at hno ⊢
  unfold tsOpen at hno ⊢
  by_cases ht : root.tag = "Xdmf"
  · simp only [ht, true_and, ne_eq, not_true_eq_false, if_false] at hno ⊢
    cases hv : root.attr? "Version" with
    | none => simp
    | some v =>
      rw [hv] at hno
      simp only [reduceCtorEq, if_false] at hno ⊢
      split
      · rfl
      · next hm =>
        rw [if_neg hm] at hno
        split
        · next e he =>
          unfold only at he
          split at he
          · cases he
          · injection he with he; rw [← he]
        · next domain hd =>
          rw [hd] at hno
          simp only at hno
          split
          · rfl
          · next hdt =>
            rw [if_neg hdt] at hno
            split
            · next e he =>
              unfold findCollection at he
              split at he
              · injection he with he; rw [← he]
              · split at he
                · injection he with he; rw [← he]
                · split at he
                  · injection he with he; rw [← he]
                  · cases he
            · next coll hc =>
              rw [hc] at hno
              simp only at hno
              split
              · next e he =>
                unfold findMesh at he
                split at he
                · split at he
                  · injection he with he; rw [← he]
                  · cases he
                · split at he
                  · split at he
                    · injection he with he; rw [← he]
                    · cases he
                  · injection he with he; rw [← he]
              · next mesh hmesh =>
                rw [hmesh] at hno
                exact absurd rfl (hno _)
  · rw [if_pos ht, if_neg (by simp [ht])]

private theorem tsOnly_ok {io : XdmfIO F} {dir : List Char} {fs : Files F} {c : XmlElem} {a : Nd F} (h : tsOnly io dir fs c = .ok a) : ∃ x, c.kids = [x] := by
  unfold tsOnly at h
  split at h
  · cases h
  · next x hx => exact ⟨x, xdmf_only_ok hx⟩

private theorem foldRes_each {α S : Type} {f : S → α → Res S} {P : α → Prop} (hf : ∀ s a s', f s a = .ok s' → P a) (l : List α) (s s' : S)
    (h : foldRes f s l = .ok s') : ∀ a ∈ l, P a := by
  induction l generalizing s with
  | nil => intro a ha; cases ha
  | cons x l ih =>
    rw [foldRes] at h
    split at h
    · cases h
    · next s1 h1 =>
      intro a ha
      rcases List.mem_cons.1 ha with rfl | ha
      · exact hf _ _ _ h1
      · exact ih s1 h a ha

/-- C78.  A mesh that is read has one data item in each topology and geometry, a known kind of points, and one type in each topology. -/
theorem C78_mesh_structure (io : SeriesIO F T) (dir : List Char) (fs : Files F) (o : Opened) r (h : tsMesh io dir fs o = .ok r) :
    ∀ c ∈ o.mesh.kids, XdmfSeriesMeshChild c := by
  unfold tsMesh at h
  refine foldRes_each ?_ _ _ _ h
  intro s c s' hs
  unfold tsMeshElem at hs
  split at hs
  · next ht =>
    split at hs
    · cases hs
    · next a ha =>
      refine ⟨fun _ => tsOnly_ok ha, fun e => absurd (ht.symm.trans e) (by decide), fun _ => ?_⟩
      unfold either at hs
      split at hs
      · cases hs
      · next he =>
        split at he
        · cases he
        · next hv1 hv2 => exact .inr ⟨hv2, _, hv1⟩
        · next hv1 hv2 => exact .inl ⟨hv1, _, hv2⟩
        · cases he
  · split at hs
    · next ht =>
      split at hs
      · next hg =>
        split at hs
        · cases hs
        · next a ha =>
          refine ⟨fun _ => tsOnly_ok ha, fun _ ty hty => ?_, fun e => absurd (ht.symm.trans e) (by decide)⟩
          rw [hty] at hg
          simpa using hg
      · cases hs
    · next h1 h2 => exact ⟨fun e => (e.elim h1 h2).elim, fun e => absurd e h2, fun e => absurd e h1⟩

/-- C78.  A step that is read is one of the steps; its time is that of one of its `Time` elements, the last one; each attribute has a name, a
place and one data item; and the cells were read before. -/
theorem C78_step_structure (io : SeriesIO F T) (dir : List Char) (fs : Files F) (o : Opened) (cells : Option (List (String × List (List Int)))) (k : Nat)
    (t : T) pd cd (h : tsStep io dir fs o cells k = .ok (t, pd, cd)) :
    ∃ g cs, o.steps[k]? = some g ∧ cells = some cs ∧ (∀ c ∈ g.kids, XdmfSeriesStepChild c) ∧
      ∃ before x after v, g.kids = before ++ x :: after ∧ x.tag = "Time" ∧ x.attr? "Value" = some v ∧ io.parseTime v.toList = some t ∧
        ∀ c ∈ after, c.tag ≠ "Time" := by
  unfold tsStep at h
  split at h
  · cases h
  · next g hg =>
    split at h
    · cases h
    · next d hd =>
      split at h
      · cases h
      · next cs =>
        split at h
        · cases h
        · next t' ht =>
          injection h with h
          injection h with h1 _
          subst h1
          refine ⟨g, cs, hg, rfl, ?_, ?_⟩
          · refine foldRes_each ?_ _ _ _ hd
            intro s c s' hs
            unfold tsStepElem at hs
            split at hs
            · next hc =>
              split at hs
              · cases hs
              · next v hv =>
                exact ⟨fun _ => ⟨v, hv⟩, fun e => absurd (hc.symm.trans e) (by decide), fun e => absurd (hc.symm.trans e) (by decide),
                  fun e => absurd (hc.symm.trans e) (by decide)⟩
            · next h1 =>
              split at hs
              · split at hs
                · cases hs
                · next a ha =>
                  split at hs
                  · next hce =>
                    split at hs
                    · cases hs
                    · next n hn => exact ⟨fun e => absurd e h1, fun _ => tsOnly_ok ha, fun _ => ⟨n, hn⟩, fun _ => hce⟩
                  · cases hs
              · next h2 => exact ⟨fun e => absurd e h1, fun e => absurd e h2, fun e => absurd e h2, fun e => absurd e h2⟩
          · have key : ∀ (l : List XmlElem) (s : DSt F T), foldRes (tsStepElem io dir fs) s l = .ok d → s.t = some t' ∧ (∀ c ∈ l, c.tag ≠ "Time") ∨
                ∃ before x after v, l = before ++ x :: after ∧ x.tag = "Time" ∧ x.attr? "Value" = some v ∧ io.parseTime v.toList = some t' ∧
                  ∀ c ∈ after, c.tag ≠ "Time" := by
              intro l
              induction l with
              | nil =>
                intro s hs
                simp only [foldRes] at hs
                injection hs with hs
                subst hs
                exact .inl ⟨ht, by simp⟩
              | cons c l ih =>
                intro s hs
                rw [foldRes] at hs
                split at hs
                · cases hs
                · next s1 h1 =>
                  rcases ih s1 hs with ⟨i1, i2⟩ | ⟨before, x, after, v, i1, i2, i3, i4, i5⟩
                  · unfold tsStepElem at h1
                    split at h1
                    · next hc =>
                      split at h1
                      · cases h1
                      · next v hv =>
                        split at h1
                        · cases h1
                        · next t1 ht1 =>
                          injection h1 with h1
                          subst h1
                          simp only [Option.some.injEq] at i1
                          subst i1
                          exact .inr ⟨[], c, l, v, rfl, hc, hv, ht1, i2⟩
                    · next hc =>
                      have hs1 : s1.t = s.t := by
                        split at h1
                        · split at h1
                          · cases h1
                          · split at h1
                            · split at h1
                              · cases h1
                              · split at h1
                                · injection h1 with h1; subst h1; rfl
                                · injection h1 with h1; subst h1; rfl
                            · cases h1
                        · injection h1 with h1; subst h1; rfl
                      refine .inl ⟨by rw [← hs1]; exact i1, ?_⟩
                      intro y hy
                      rcases List.mem_cons.1 hy with rfl | hy
                      · exact hc
                      · exact i2 y hy
                  · exact .inr ⟨c :: before, x, after, v, by rw [i1]; rfl, i2, i3, i4, i5⟩
            rcases key _ _ hd with ⟨h1, _⟩ | h1
            · cases h1
            · exact h1

/-! ## Data items -/

private theorem truthy_some {e : XmlElem} {k v : String} : XdmfFile.truthy e k = some v ↔ XdmfSays e k v := by
  unfold XdmfFile.truthy XdmfSays
  cases h : e.attr? k with
  | none => simp
  | some w =>
    simp only [Option.some.injEq]
    by_cases hw : w = ""
    · simp only [hw, if_true, reduceCtorEq, false_iff]
      rintro ⟨rfl, h2⟩
      exact h2 rfl
    · simp only [hw, if_false, Option.some.injEq]
      constructor
      · rintro rfl; exact ⟨rfl, hw⟩
      · rintro ⟨rfl, _⟩; rfl

private theorem truthy_none {e : XmlElem} {k : String} (h : XdmfFile.truthy e k = none) (v : String) : ¬ XdmfSays e k v := by
  intro hs
  rw [truthy_some.2 hs] at h
  cases h

/-- C78.  The number type of every data item: with two of them the item is refused, with ReadError, otherwise it is the one that is said. -/
theorem C78_item_type (e : XmlElem) :
    (∀ ty, tsNumberType e = .ok ty ↔ XdmfSeriesType e ty) ∧
      ((∃ a b, XdmfSays e "DataType" a ∧ XdmfSays e "NumberType" b) ↔ tsNumberType e = .error .readError) := by
  unfold tsNumberType
  cases hd : XdmfFile.truthy e "DataType" with
  | some d =>
    have hd' := truthy_some.1 hd
    cases hn : XdmfFile.truthy e "NumberType" with
    | some n =>
      have hn' := truthy_some.1 hn
      refine ⟨fun ty => ⟨fun h => (by cases h), ?_⟩, ⟨fun _ => rfl, fun _ => ⟨d, n, hd', hn'⟩⟩⟩
      rintro (⟨_, h⟩ | ⟨_, h⟩ | ⟨_, h⟩)
      · exact absurd hn' (h n)
      · exact absurd hd' (h d)
      · exact absurd hd' (h d).1
    | none =>
      have hn' := truthy_none hn
      refine ⟨fun ty => ⟨fun h => ?_, ?_⟩, ⟨fun ⟨_, b, _, hb⟩ => absurd hb (hn' b), fun h => by cases h⟩⟩
      · injection h with h; subst h; exact .inl ⟨hd', hn'⟩
      · rintro (⟨h, _⟩ | ⟨h, _⟩ | ⟨_, h⟩)
        · have := hd'.1.symm.trans h.1
          injection this with this
          rw [this]
        · exact absurd h (hn' ty)
        · exact absurd hd' (h d).1
  | none =>
    have hd' := truthy_none hd
    cases hn : XdmfFile.truthy e "NumberType" with
    | some n =>
      have hn' := truthy_some.1 hn
      refine ⟨fun ty => ⟨fun h => ?_, ?_⟩, ⟨fun ⟨a, _, ha, _⟩ => absurd ha (hd' a), fun h => by cases h⟩⟩
      · injection h with h; subst h; exact .inr (.inl ⟨hn', hd'⟩)
      · rintro (⟨h, _⟩ | ⟨h, _⟩ | ⟨_, h⟩)
        · exact absurd h (hd' ty)
        · have := hn'.1.symm.trans h.1
          injection this with this
          rw [this]
        · exact absurd hn' (h n).2
    | none =>
      have hn' := truthy_none hn
      refine ⟨fun ty => ⟨fun h => ?_, ?_⟩, ⟨fun ⟨a, _, ha, _⟩ => absurd ha (hd' a), fun h => by cases h⟩⟩
      · injection h with h; subst h; exact .inr (.inr ⟨rfl, fun v => ⟨hd' v, hn' v⟩⟩)
      · rintro (⟨h, _⟩ | ⟨h, _⟩ | ⟨h, _⟩)
        · exact absurd h (hd' ty)
        · exact absurd h (hn' ty)
        · rw [h]

/-- C78.  Every data item that is read says its dimensions, its number type and one of the three formats; unless it is in an HDF5 file it
has these dimensions and its numbers are of that type, in the precision that is said, or 4. -/
theorem C78_item (io : XdmfIO F) (dir : List Char) (fs : Files F) (e : XmlElem) (a : Nd F) (h : tsDataItem io dir fs e = .ok a) :
    ∃ d ty f, e.attr? "Dimensions" = some d ∧ XdmfSeriesType e ty ∧ e.attr? "Format" = some f ∧ f ∈ ["XML", "Binary", "HDF"] ∧
      (f ≠ "HDF" → (splitWs d.toList).map Su2.pyInt = a.shape.map (fun n => .ok (n : Int)) ∧
        ((ty, (e.attr? "Precision").getD "4"), a.dtype) ∈ xdmfToNumpy) := by
  unfold tsDataItem at h
  split at h
  · cases h
  · next it hit =>
    unfold itemAs at hit
    split at hit
    · cases hit
    · next dims hdims =>
      obtain ⟨dm, hdm, hdm'⟩ := xdmf_dims hdims
      split at hit
      · cases hit
      · next d hd =>
        have hty := ((C78_item_type e).1 d).1 hd
        split at hit
        · cases hit
        · next f hf =>
          split at hit
          · next hx =>
            split at hit
            · cases hit
            · injection hit with hit
              subst hit
              refine ⟨dm, d, f, hdm, hty, hf, by rw [hx]; decide, fun _ => ?_⟩
              unfold readItem at h
              simp only at h
              split at h
              · cases h
              · next dt hdt =>
                have : a.dtype = dt ∧ a.rows.length :: a.inner = dims := by
                  repeat' split at h
                  all_goals first | cases h; done | exact xdmf_reshape_dtype h
                refine ⟨by rw [hdm', ← this.2]; rfl, ?_⟩
                rw [this.1]
                exact find_mem hdt
          · split at hit
            · next hx =>
              injection hit with hit
              subst hit
              refine ⟨dm, d, f, hdm, hty, hf, by rw [hx]; decide, fun _ => ?_⟩
              unfold readItem at h
              simp only at h
              split at h
              · cases h
              · cases h
              · split at h
                · cases h
                · next dt hdt =>
                  have : a.dtype = dt ∧ a.rows.length :: a.inner = dims := by
                    repeat' split at h
                    all_goals first | cases h; done | exact xdmf_reshape_dtype h
                  refine ⟨by rw [hdm', ← this.2]; rfl, ?_⟩
                  rw [this.1]
                  exact find_mem hdt
            · split at hit
              · next hx => exact ⟨dm, d, f, hdm, hty, hf, by rw [hx]; decide, fun hne => absurd hx hne⟩
              · cases hit

private theorem readItem_strict {dir : List Char} {fs : Files F} {it : Item F} {a : Nd F} (h : readItem true dir fs it = .ok a) :
    readItem false dir fs it = .ok a := by
  unfold readItem at h ⊢
  cases hf : it.fmt with
  | xml =>
    rw [hf] at h
    simp only at h ⊢
    cases hn : find xdmfToNumpy it.num with
    | none => rw [hn] at h; cases h
    | some dt =>
      rw [hn] at h
      simp only at h ⊢
      cases ht : it.text with
      | numbers l =>
        rw [ht] at h
        simp only [Bool.true_and, Bool.false_and, Bool.false_eq_true, if_false] at h ⊢
        split at h
        · cases h
        · exact h
      | path s => rw [ht] at h; cases h
      | missing => rw [ht] at h; cases h
  | binary => rw [hf] at h; exact h
  | hdf =>
    rw [hf] at h
    simp only at h ⊢
    cases ht : it.text with
    | numbers l => rw [ht] at h; cases h
    | missing => rw [ht] at h; cases h
    | path s =>
      rw [ht] at h
      simp only at h ⊢
      unfold readH5 at h ⊢
      split
      · next file h5path hs =>
        rw [hs] at h
        simp only at h
        split
        · next sets hl =>
          rw [hl] at h
          simp only at h
          cases h5path with
          | nil => cases h
          | cons x rest =>
            simp only [Bool.true_and, Bool.false_and, Bool.false_eq_true, if_false] at h ⊢
            split at h
            · cases h
            · exact h
        · next hl => rw [hl] at h; cases h
        · next hl => rw [hl] at h; cases h
      · next hs =>
        split at h
        · next file h5path hs' => exact absurd hs' (hs file h5path)
        · cases h

/-- C78.  The two readers agree on data items: whatever the reader of time series reads from an item, the reader of single meshes reads
from it too, unless the item is a reference or has an empty number type. -/
theorem C78_item_agrees (io : XdmfIO F) (dir : List Char) (fs : Files F) (e : XmlElem) (a : Nd F) (h : tsDataItem io dir fs e = .ok a)
    (hr : e.attr? "Reference" = none) (he : e.attr? "DataType" ≠ some "" ∧ e.attr? "NumberType" ≠ some "") :
    readDataItem io dir fs e = .ok a := by
  have hty : numberType e = tsNumberType e := by
    unfold numberType tsNumberType XdmfFile.truthy
    cases hd : e.attr? "DataType" with
    | none =>
      cases hn : e.attr? "NumberType" with
      | none => rfl
      | some n =>
        have hne : n ≠ "" := by rintro rfl; exact he.2 hn
        simp only [hne, if_false]
    | some d =>
      have hde : d ≠ "" := by rintro rfl; exact he.1 hd
      cases hn : e.attr? "NumberType" with
      | none => simp only [hde, if_false]
      | some n =>
        have hne : n ≠ "" := by rintro rfl; exact he.2 hn
        simp only [hne, hde, if_false]
  unfold readDataItem itemOf
  rw [hr, hty]
  unfold tsDataItem at h
  split at h
  · cases h
  · next it hit =>
    simp only [hit]
    exact readItem_strict h

/-- The hypotheses are met, with the number type of version 2. -/
example : tsDataItem (F := Int) ⟨fun _ i => fmtInt i, fun t => parseInt t⟩ [] []
    ⟨"DataItem", [("Dimensions", "2"), ("NumberType", "Int"), ("Format", "XML")], "7 8".toList, .nil⟩ = .ok ⟨"int32", [], [[.int 7], [.int 8]]⟩ := by
  decide +kernel

/-! ## The two kinds of files -/

/-- C78.  The file of a single mesh is refused by the reader of time series, with ReadError. -/
theorem C78_refuses_mesh_file (io : XdmfIO F) (c : Cfg) (hc : NamesOk c) (fs : Files F) (m : XMesh F) (h : XdmfOk c.fmt m) (ht : XdmfText io c.fmt m) :
    ∃ files text, XdmfFile.write io c fs m = .ok (files, text) ∧ openSeries text = .error .readError := by
  obtain ⟨files, text, root, domain, grid, h1, h2, h3, h4, h5, h6, h7, h8, h9, _⟩ := C76_document io c hc fs m h ht
  refine ⟨files, text, h1, ?_⟩
  rw [C78_refuses text root h2, if_neg]
  · rintro ⟨_, e⟩
    unfold XmlElem.attr? at e
    rw [h4] at e
    cases e
  · intro steps mesh hd
    obtain ⟨domain', pre, coll, post, k1, _, k3, _, k5, _⟩ := hd.domain
    rw [h5] at k1
    injection k1 with k1
    subst k1
    have : coll ∈ domain.kids := by rw [k3]; simp
    rw [h7, List.mem_singleton] at this
    subst this
    unfold XmlElem.attr? at k5
    rw [h9] at k5
    cases k5

private theorem meshes_ne (c : Cfg) (fs : Files F) (ops : List (Op F T)) (hne : ops ≠ []) (herr : ∀ e ∈ (run c (begin c fs) ops).2, e = none) :
    meshesOf ops ≠ [] := by
  cases ops with
  | nil => exact absurd rfl hne
  | cons op ops =>
    cases op with
    | mesh p cells => simp [meshesOf]
    | data t pd cd =>
      have := herr (some .writeError) (by simp [run, step, begin])
      cases this

/-- C78.  The file of a time series, of any calls that all returned, is refused by `meshio.read`, with ReadError. -/
theorem C78_refused_by_read (io : SeriesIO F T) (c : Cfg) (fs : Files F) (ops : List (Op F T)) (hne : ops ≠ []) (hops : ∀ op ∈ ops, SeriesNames io op)
    (files : Files F) (text : List Char) (errs : List (Option Err)) (h : writeSeries io c fs ops = (files, text, errs))
    (herr : ∀ e ∈ errs, e = none) (dir : List Char) (fs' : Files F) : XdmfFile.read io.num dir fs' text = .error .readError := by
  obtain ⟨root, domain, coll, grids, h1, h2, h3, h4, h5, h6, h7, h8, h9, h10, h11⟩ := C78_document io c fs ops hops files text errs h herr
  have hm : meshesOf ops ≠ [] := by
    refine meshes_ne c fs ops hne ?_
    have := congrArg (fun x => x.2.2) h
    simp only [writeSeries] at this
    rw [this]
    exact herr
  have hg : grids ≠ [] := by
    intro e
    rw [e] at h11
    exact hm (List.map_eq_nil_iff.1 h11.symm)
  refine C77_rejects_grids io.num dir fs' text root h1 h2 "3.0" ?_ (.inr (.inr ⟨['0'], by decide⟩)) ?_
  · unfold XmlElem.attr?
    rw [h3]
    split <;> decide
  · rintro ⟨d, g, k1, _, k3, _⟩
    rw [h4] at k1
    injection k1 with k1
    subst k1
    rw [h7] at k3
    injection k3 with _ k3
    exact hg k3

/-- C78.  A step that is not there raises IndexError; a step read before the mesh is never read. -/
theorem C78_step_refused (io : SeriesIO F T) (dir : List Char) (fs : Files F) (o : Opened) :
    (∀ cells k, o.steps.length ≤ k → tsStep io dir fs o cells k = .error .indexError) ∧
      (∀ k, ∃ e, tsStep io dir fs o none k = .error e) ∧
      ∀ cs k r, tsStep io dir fs o (some cs) k = .ok r → tsStep io dir fs o none k = .error .readError := by
  refine ⟨?_, ?_, ?_⟩
  · intro cells k hk
    unfold tsStep
    rw [List.getElem?_eq_none hk]
  · intro k
    unfold tsStep
    split
    · exact ⟨_, rfl⟩
    · split <;> exact ⟨_, rfl⟩
  · intro cs k r h
    unfold tsStep at h ⊢
    split at h
    · cases h
    · split at h
      · cases h
      · rfl

/-! ## Examples -/

private def plainSeries : SeriesIO Int Nat := ⟨⟨fun _ i => fmtInt i, fun t => parseInt t⟩, fmtNat, parseNat⟩

private def c78ops : List (Op Int Nat) :=
  [.mesh { dtype := "float64", inner := [2], rows := [[.flt 0, .flt 0], [.flt 1, .flt 0], [.flt 0, .flt 1]] } [("triangle", [[0, 1, 2]])],
   .data 5 [("u".toList, { dtype := "float64", inner := [], rows := [[.flt 3], [.flt 4], [.flt 5]] })]
     [("q".toList, [{ dtype := "int64", inner := [], rows := [[.int 8]] }])]]

private def c78cfg : Cfg := ⟨.xml, [], [], "a".toList⟩

/-- The text of a file. -/
example : (writeSeries plainSeries c78cfg [] c78ops).2.1 =
    ("<Xdmf xmlns:ns0=\"http://www.w3.org/2003/XInclude\" Version=\"3.0\"><Domain>".toList ++
    ("<Grid Name=\"TimeSeries_meshio\" GridType=\"Collection\" CollectionType=\"Temporal\"><Grid>".toList ++
    ("<ns0:include xpointer=\"xpointer(//Grid[@Name=&quot;mesh&quot;]/*[self::Topology or self::Geometry])\" /><Time Value=\"5\" />".toList ++
    ("<Attribute Name=\"u\" AttributeType=\"Scalar\" Center=\"Node\">".toList ++
    ("<DataItem DataType=\"Float\" Dimensions=\"3\" Format=\"XML\" Precision=\"8\">3\n4\n5\n</DataItem></Attribute>".toList ++
    ("<Attribute Name=\"q\" AttributeType=\"Scalar\" Center=\"Cell\">".toList ++
    ("<DataItem DataType=\"Int\" Dimensions=\"1\" Format=\"XML\" Precision=\"8\">8\n</DataItem></Attribute></Grid></Grid>".toList ++
    ("<Grid Name=\"mesh\" GridType=\"Uniform\"><Geometry GeometryType=\"XY\">".toList ++
    ("<DataItem DataType=\"Float\" Dimensions=\"3 2\" Format=\"XML\" Precision=\"8\">0\n0\n1\n0\n0\n1\n</DataItem></Geometry>".toList ++
    ("<Topology TopologyType=\"Triangle\" NumberOfElements=\"1\">".toList ++
    ("<DataItem DataType=\"Int\" Dimensions=\"1 3\" Format=\"XML\" Precision=\"8\">0\n1\n2\n</DataItem></Topology></Grid></Domain></Xdmf>".toList))))))))))) := by
  decide +kernel

/-- The file can be opened and read. -/
example : (match openSeries (writeSeries plainSeries c78cfg [] c78ops).2.1 with | .ok o => tsMesh plainSeries [] [] o | .error e => .error e) =
    .ok (some { dtype := "float64", inner := [2], rows := [[.flt 0, .flt 0], [.flt 1, .flt 0], [.flt 0, .flt 1]] }, [("triangle", [[0, 1, 2]])]) := by
  decide +kernel

set_option synthInstance.maxHeartbeats 400000 in
set_option synthInstance.maxSize 1024 in
example : (match openSeries (writeSeries plainSeries c78cfg [] c78ops).2.1 with
      | .ok o => tsStep plainSeries [] [] o (some [("triangle", [[0, 1, 2]])]) 0 | .error e => .error e) =
    .ok (5, [("u".toList, { dtype := "float64", inner := [], rows := [[.flt 3], [.flt 4], [.flt 5]] })],
      [("q".toList, [{ dtype := "int64", inner := [], rows := [[.int 8]] }])]) := by
  decide +kernel

/-- The calls meet the hypotheses on texts. -/
example : ∀ op ∈ c78ops, SeriesText plainSeries .xml op := by
  have key : ∀ (d : String) (i : Int), IsTok (plainSeries.num.fmt d i) ∧ plainSeries.num.parse (plainSeries.num.fmt d i) = some i :=
    fun _ i => ⟨isTok_fmtInt i, parseInt_fmtInt i⟩
  intro op hop
  simp only [c78ops, List.mem_cons, List.not_mem_nil, or_false] at hop
  rcases hop with rfl | rfl
  · intro _ r hr v hv
    simp only [List.mem_cons, List.not_mem_nil, or_false] at hr
    rcases hr with rfl | rfl | rfl <;> simp only [List.mem_cons, List.not_mem_nil, or_false] at hv <;> rcases hv with rfl | rfl <;>
      exact .inr ⟨_, rfl, by decide, key _ _⟩
  · refine ⟨by decide, by decide, by decide, by decide, fun _ => ⟨?_, ?_⟩⟩
    · intro e he r hr v hv
      simp only [List.mem_cons, List.not_mem_nil, or_false] at he
      subst he
      simp only [List.mem_cons, List.not_mem_nil, or_false] at hr
      rcases hr with rfl | rfl | rfl <;> simp only [List.mem_cons, List.not_mem_nil, or_false] at hv <;> subst hv <;> exact .inr ⟨_, rfl, by decide, key _ _⟩
    · intro e he a ha r hr v hv
      simp only [List.mem_cons, List.not_mem_nil, or_false] at he
      subst he
      simp only [List.mem_cons, List.not_mem_nil, or_false] at ha
      subst ha
      simp only [List.mem_cons, List.not_mem_nil, or_false] at hr
      subst hr
      simp only [List.mem_cons, List.not_mem_nil, or_false] at hv
      subst hv
      exact .inl ⟨_, rfl, by decide⟩

/-- The calls are admissible. -/
example : ∀ op ∈ c78ops, OpOk .xml op := by
  intro op hop
  simp only [c78ops, List.mem_cons, List.not_mem_nil, or_false] at hop
  rcases hop with rfl | rfl
  · refine ⟨⟨by decide, by decide, fun _ => ⟨by decide, by simp⟩⟩, .inl rfl, ?_, fun h => absurd h (by decide)⟩
    intro b hb
    injection hb with hb
    subst hb
    exact ⟨⟨"Triangle", by decide +kernel⟩, .inr (by decide +kernel), by decide, fun _ => by decide⟩
  · refine ⟨by decide, ?_, by decide, ?_⟩
    · intro e he
      rw [List.mem_singleton] at he
      subst he
      exact ⟨⟨by decide, by decide, fun _ => ⟨by decide, by simp⟩⟩, .inl (by decide)⟩
    · intro e he
      rw [List.mem_singleton] at he
      subst he
      refine ⟨by simp, "int64", [], .inl (by decide), fun _ => by simp, ?_⟩
      intro a ha
      rw [List.mem_singleton] at ha
      subst ha
      exact ⟨rfl, rfl, by decide, by decide, fun _ => by decide⟩

private def c78empty : List (Op Int Nat) := [.mesh { dtype := "float64", inner := [2], rows := [] } [("triangle", [[0, 1, 2]])]]

/-- C78 in full: a file that was written without an exception can be read. -/
def C78_statement : Prop :=
  ∀ (io : SeriesIO Int Nat) (c : Cfg) (ops : List (Op Int Nat)) (files : Files Int) (text : List Char) (errs : List (Option Err)), NamesOk c → ops ≠ [] →
    (∀ op ∈ ops, SeriesText io c.fmt op) → writeSeries io c [] ops = (files, text, errs) → (∀ e ∈ errs, e = none) →
      ∃ o r, openSeries text = .ok o ∧ tsMesh io c.dir files o = .ok r

/-- It is false: an array without entries is written, in the document, as an element without text, and the reader stops with a TypeError. -/
theorem C78_empty_false : ¬ C78_statement := by
  intro h
  have eta : ∀ x : Files Int × List Char × List (Option Err), x = (x.1, x.2.1, x.2.2) := fun _ => rfl
  have h0 : ∀ e ∈ (writeSeries plainSeries c78cfg [] c78empty).2.2, e = none := by decide +kernel
  have ht : ∀ op ∈ c78empty, SeriesText plainSeries c78cfg.fmt op := by
    intro op hop
    unfold c78empty at hop
    rw [List.mem_singleton] at hop
    subst hop
    intro _ r hr
    cases hr
  obtain ⟨o, r, h1, h2⟩ := h plainSeries c78cfg c78empty _ _ _ ⟨by decide, by decide, by decide, by decide⟩ (by simp [c78empty]) ht (eta _) h0
  have key : (match openSeries (writeSeries plainSeries c78cfg [] c78empty).2.1 with
    | .ok o => tsMesh plainSeries c78cfg.dir (writeSeries plainSeries c78cfg [] c78empty).1 o | .error e => .error e) = .error .typeError := by
    decide +kernel
  generalize writeSeries plainSeries c78cfg [] c78empty = w at h1 h2 key
  rw [h1] at key
  simp only at key
  rw [h2] at key
  cases key

/-- Documents that are refused. -/
example : openSeries "<VTKFile Version=\"3.0\"></VTKFile>".toList = .error .readError ∧
    openSeries "<Xdmf></Xdmf>".toList = .error .keyError ∧
    openSeries "<Xdmf Version=\"2.0\"></Xdmf>".toList = .error .readError ∧
    openSeries "<Xdmf Version=\"3.0\"><Domain><Grid GridType=\"Collection\" CollectionType=\"Spatial\"></Grid></Domain></Xdmf>".toList = .error .readError ∧
    openSeries "<Xdmf Version=\"3.0\"><Domain><Grid GridType=\"Collection\" CollectionType=\"Temporal\"></Grid></Domain></Xdmf>".toList = .error .readError := by
  decide +kernel

end Props
end Meshio
