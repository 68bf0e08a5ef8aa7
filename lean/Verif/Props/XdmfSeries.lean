/-
C41: XDMF time series.
-/
import Verif.Proofs.XdmfSeries
import Verif.Props.Xdmf
namespace Meshio
namespace Props
open Xdmf Types Tables Spec

variable {F T : Type}

/-- An array of a time series: a known type, rectangular, as text only the types `np.savetxt` has a format
for and not empty. -/
structure SeriesArrayOk (fmt : Fmt) (a : Nd F) : Prop where
  dtype : a.dtype ∈ ["int8", "int16", "int32", "int64", "uint8", "uint16", "uint32", "uint64", "float32", "float64"]
  rect : ∀ r ∈ a.rows, r.length = prod a.inner
  text : fmt = .xml → a.dtype ∈ ["int32", "int64", "uint32", "uint64", "float32", "float64"] ∧ a.rows.flatten ≠ []

/-- A mesh for a time series: two or three coordinates; one block of a type with an XDMF name, or several
blocks of linear types other than lines with at least one cell, or no block. -/
structure MeshOk (fmt : Fmt) (p : Nd F) (cells : List (String × List (List Int))) : Prop where
  points : SeriesArrayOk fmt p
  dim : p.inner = [2] ∨ p.inner = [3]
  single : ∀ b, cells = [b] → (∃ ty, xdmfName b.1 = some ty) ∧ KnownType b.1 ∧ (∀ r ∈ b.2, r.length = widthOf b.2) ∧
    (fmt = .xml → b.2.flatten ≠ [])
  mixed : 2 ≤ cells.length → rowsOf cells ≠ [] ∧ (∀ b ∈ cells, b.1 ∈ xdmfMixed.map (·.1) ∧ b.1 ≠ "line") ∧
    ∀ c ∈ rowsOf cells, XdmfCell c

/-- Data for a step: distinct names, arrays of one type and shape for all blocks. -/
structure DataOk (fmt : Fmt) (pd : List (List Char × Nd F)) (cd : List (List Char × List (Nd F))) : Prop where
  pointNames : (pd.map (·.1)).Nodup
  pointData : ∀ e ∈ pd, SeriesArrayOk fmt e.2 ∧ AttrShape e.2.inner
  cellNames : (cd.map (·.1)).Nodup
  cellData : ∀ e ∈ cd, e.2 ≠ [] ∧ ∃ dtype inner, AttrShape inner ∧
    (fmt = .xml → (e.2.flatMap fun a => a.rows.flatten) ≠ []) ∧
    ∀ a ∈ e.2, a.dtype = dtype ∧ a.inner = inner ∧ (∀ r ∈ a.rows, r.length = prod inner) ∧
      dtype ∈ ["int8", "int16", "int32", "int64", "uint8", "uint16", "uint32", "uint64", "float32", "float64"] ∧
      (fmt = .xml → dtype ∈ ["int32", "int64", "uint32", "uint64", "float32", "float64"])

/-- An admissible call. -/
def OpOk (fmt : Fmt) : Op F T → Prop
  | .mesh p cells => MeshOk fmt p cells
  | .data _ pd cd => DataOk fmt pd cd

/-- The steps a history writes, in order. -/
def stepsOf : List (Op F T) → List (T × List (List Char × Nd F) × List (List Char × List (Nd F)))
  | [] => []
  | .mesh _ _ :: ops => stepsOf ops
  | .data t pd cd :: ops => (t, pd, cd) :: stepsOf ops

/-- The meshes a history writes, in order. -/
def meshesOf : List (Op F T) → List (Nd F × List (String × List (List Int)))
  | [] => []
  | .mesh p cells :: ops => (p, cells) :: meshesOf ops
  | .data _ _ _ :: ops => meshesOf ops

private theorem known_dtype : ∀ t ∈ ["int8", "int16", "int32", "int64", "uint8", "uint16", "uint32", "uint64", "float32", "float64"],
    (find numpyToXdmf t).isSome = true := by decide +kernel

private theorem series_writable {c : Cfg} {a : Nd F} (h : SeriesArrayOk c.fmt a) : Writable true c a :=
  ⟨known_dtype _ h.dtype, fun hx => ⟨(h.text hx).1, Or.inl rfl⟩⟩

private theorem series_readable {c : Cfg} {a : Nd F} (h : SeriesArrayOk c.fmt a) : Rect a ∧ NonEmptyText true c a :=
  ⟨h.rect, fun _ hx => (h.text hx).2⟩

/-- What the mesh grid says. -/
private def meshDesc (m : Nd F × List (String × List (List Int))) : List (Desc F T) :=
  [.geometry (if m.1.inner = [2] then "XY" else "XYZ") m.1] ++
    match m.2 with
    | [] => []
    | [b] => [.topology ((xdmfName b.1).getD "") (connNd (widthOf b.2) b.2)]
    | cells => [.topology "Mixed" (flatNd (xdmfStream (rowsOf cells)))]

/-- What the grid of a step says. -/
private def dataDesc (d : T × List (List Char × Nd F) × List (List Char × List (Nd F))) : List (Desc F T) :=
  [.incl, .time d.1] ++ ((d.2.1.map fun e => .attr e.1 (attrTy e.2) "Node" e.2) ++
    ((d.2.2.map joined).map fun e => .attr e.1 (attrTy e.2) "Cell" e.2))

private theorem uniform_of {cells : List (String × List (List Int))} (hc : ∀ c ∈ rowsOf cells, XdmfCell c) :
    UniformCells cells := by
  intro b hb r hr
  have width : ∀ e ∈ xdmfMixed, ∀ e' ∈ xdmfMixed, e.1 = e'.1 → e.2.2 = e'.2.2 := by decide +kernel
  have cell : ∀ r ∈ b.2, XdmfCell (b.1, r) := fun r hr =>
    hc _ (List.mem_flatMap.2 ⟨b, hb, List.mem_map.2 ⟨r, hr, rfl⟩⟩)
  obtain ⟨x, hx⟩ := cell r hr
  cases hb2 : b.2 with
  | nil => rw [hb2] at hr; cases hr
  | cons r0 rs =>
    obtain ⟨y, hy⟩ := cell r0 (by rw [hb2]; simp)
    exact width _ hx _ hy rfl

private theorem mesh_says {c : Cfg} {w : W F} {arrs : List (Nd F)} (hi : Xdmf.Inv c w arrs) (p : Nd F)
    (cells : List (String × List (List Int))) (h : MeshOk c.fmt p cells) :
    OutSays (T := T) c arrs ((tsPoints c p w).andThen (tsCells c cells)) (meshDesc (p, cells)) := by
  unfold meshDesc
  refine outSays_andThen ?_ ?_
  · rcases h.dim with hd | hd
    · obtain ⟨w', it, more, h1, h2, h3⟩ := addItem_ok (T := T) hi (series_writable h.points) (.geometry "XY") p.shape rfl
      unfold tsPoints
      rw [hd]
      simp only [if_true]
      rw [h1]
      exact ⟨rfl, more, h2, ⟨it, rfl, h3⟩, trivial⟩
    · obtain ⟨w', it, more, h1, h2, h3⟩ := addItem_ok (T := T) hi (series_writable h.points) (.geometry "XYZ") p.shape rfl
      unfold tsPoints
      rw [hd]
      have e1 : ¬ (3 : Nat) = 2 := by decide
      have e2 : ¬ ([3] : List Nat) = [2] := by decide
      simp only [if_neg e1, if_neg e2, ne_eq, not_true_eq_false, if_false]
      rw [h1]
      exact ⟨rfl, more, h2, ⟨it, rfl, h3⟩, trivial⟩
  · intro w arrs hi
    cases hcells : cells with
    | nil => exact outSays_nil hi
    | cons b rest =>
      cases rest with
      | nil =>
        obtain ⟨⟨ty, hty⟩, hkn, hu, _⟩ := h.single b hcells
        obtain ⟨w', it, more, h1, h2, h3⟩ := addItem_ok (T := T) hi
          (writable_int (F := F) true c [widthOf b.2] (by simp) (b.2.map fun r => r.map Xdmf.Val.int))
          (.topology ty) [b.2.length, widthOf b.2] (by simp [Nd.shape])
        unfold tsCells
        simp only
        rw [hty]
        simp only [Option.getD_some]
        unfold connNd
        rw [h1]
        exact ⟨rfl, more, h2, ⟨it, rfl, h3⟩, trivial⟩
      | cons b2 rest =>
        obtain ⟨hne, ht, hc⟩ := h.mixed (by rw [hcells]; simp)
        rw [hcells] at ht hc hne
        obtain ⟨l, hl, hs⟩ := tsStream_ok _ ht
        have hdim := tsDim_ok _ ht (uniform_of hc)
        obtain ⟨w', it, more, h1, h2, h3⟩ := addItem_ok (T := T) hi
          (writable_int (F := F) true c [] (by simp) ((xdmfStream (rowsOf (b :: b2 :: rest))).map fun i => [Xdmf.Val.int i]))
          (.topology "Mixed") [((b :: b2 :: rest).map fun b => b.2.length * widthOf b.2).sum +
            ((b :: b2 :: rest).map fun b => b.2.length).sum] (by
              rw [hdim]
              simp [Nd.shape])
        unfold tsCells
        simp only
        rw [if_neg, hl]
        · simp only
          rw [hs]
          unfold flatNd
          rw [h1]
          exact ⟨rfl, more, h2, ⟨it, rfl, h3⟩, trivial⟩
        · intro hany
          rw [List.any_eq_true] at hany
          obtain ⟨x, hx, hxe⟩ := hany
          exact (ht x hx).2 (by simpa using hxe)

theorem series_joined_ok {c : Cfg} {pd : List (List Char × Nd F)} {cd : List (List Char × List (Nd F))}
    (h : DataOk c.fmt pd cd) : rawCellData cd = .ok (cd.map joined) ∧
      ∀ e ∈ cd.map joined, AttrShape e.2.inner ∧ SeriesArrayOk c.fmt e.2 := by
  constructor
  · unfold rawCellData
    apply mapRes_ok_of_forall
    intro e he
    obtain ⟨hne2, dtype, inner, _, _, ha⟩ := h.cellData e he
    rw [concatNd_ok hne2 (fun a h => ⟨(ha a h).1, (ha a h).2.1⟩)]
    unfold joined
    cases he2 : e.2 with
    | nil => exact absurd he2 hne2
    | cons a l =>
      obtain ⟨h1, h2, _⟩ := ha a (by rw [he2]; simp)
      simp only [List.head?_cons, Option.map_some, Option.getD_some, h1, h2]
      rfl
  · intro e he
    obtain ⟨e0, he0, rfl⟩ := List.mem_map.1 he
    obtain ⟨hne2, dtype, inner, hsh, hemp, ha⟩ := h.cellData e0 he0
    unfold joined
    cases he2 : e0.2 with
    | nil => exact absurd he2 hne2
    | cons a l =>
      obtain ⟨h1, h2, h3, h4, h5⟩ := ha a (by rw [he2]; simp)
      simp only [List.head?_cons, Option.map_some, Option.getD_some, h1, h2]
      refine ⟨hsh, h4, ?_, ?_⟩
      · intro r hr
        obtain ⟨a', ha', hr'⟩ := List.mem_flatMap.1 hr
        exact (ha a' (by rw [he2]; exact ha')).2.2.1 r hr'
      · intro hx
        refine ⟨h5 hx, ?_⟩
        have := hemp hx
        rw [he2] at this
        intro e
        apply this
        rw [← e]
        rw [List.flatMap_def, List.flatMap_def, List.flatten_flatten, List.map_map]
        rfl

private theorem data_says {c : Cfg} {w : W F} {arrs : List (Nd F)} (hi : Xdmf.Inv c w arrs)
    (pd : List (List Char × Nd F)) (cd : List (List Char × List (Nd F))) (h : DataOk c.fmt pd cd) :
    OutSays (T := T) c arrs ((tsAttrs c "Node" pd w).andThen (tsCellData c cd))
      ((pd.map fun e => .attr e.1 (attrTy e.2) "Node" e.2) ++
        ((cd.map joined).map fun e => .attr e.1 (attrTy e.2) "Cell" e.2)) := by
  obtain ⟨hraw, hj⟩ := series_joined_ok h
  refine outSays_andThen ?_ ?_
  · exact outSays_attrs "Node" pd (fun e he =>
      ⟨attrType_of (h.pointData e he).2, series_writable (h.pointData e he).1⟩) hi
  · intro w arrs hi
    unfold tsCellData
    rw [hraw]
    exact outSays_attrs "Cell" _ (fun e he => ⟨attrType_of (hj e he).1, series_writable (hj e he).2⟩) hi

/-- The grids say so. -/
private def GridsOf (c : Cfg) (arrs : List (Nd F)) (gs : List (List (Elem F T))) (dss : List (List (Desc F T))) : Prop :=
  gs.length = dss.length ∧ ∀ (k : Nat) g d, gs[k]? = some g → dss[k]? = some d → GridOf c arrs g d

private theorem GridsOf.mono {c : Cfg} {arrs : List (Nd F)} {gs : List (List (Elem F T))} {dss : List (List (Desc F T))}
    (h : GridsOf c arrs gs dss) (more : List (Nd F)) : GridsOf c (arrs ++ more) gs dss :=
  ⟨h.1, fun k g d h1 h2 => (h.2 k g d h1 h2).mono more⟩

private theorem GridsOf.snoc {c : Cfg} {arrs : List (Nd F)} {gs : List (List (Elem F T))} {dss : List (List (Desc F T))}
    (h : GridsOf c arrs gs dss) {g : List (Elem F T)} {d : List (Desc F T)} (hg : GridOf c arrs g d) :
    GridsOf c arrs (gs ++ [g]) (dss ++ [d]) := by
  refine ⟨by simp [h.1], ?_⟩
  intro k g' d' h1 h2
  by_cases hk : k < gs.length
  · rw [List.getElem?_append_left hk] at h1
    rw [List.getElem?_append_left (by rw [← h.1]; exact hk)] at h2
    exact h.2 k g' d' h1 h2
  · rw [List.getElem?_append_right (by omega), List.getElem?_singleton] at h1
    rw [List.getElem?_append_right (by rw [← h.1]; omega), List.getElem?_singleton] at h2
    split at h1
    · next e =>
      rw [← h.1, if_pos e] at h2
      simp only [Option.some.injEq] at h1 h2
      subst h1 h2
      exact hg
    · cases h1

/-- The state after a history of admissible calls. -/
private def After (c : Cfg) (s : Series F T) (ds : List (T × List (List Char × Nd F) × List (List Char × List (Nd F))))
    (ms : List (Nd F × List (String × List (List Int)))) : Prop :=
  ∃ arrs, Xdmf.Inv c s.w arrs ∧ GridsOf c arrs s.coll (ds.map dataDesc) ∧ GridsOf c arrs s.meshes (ms.map meshDesc)

private theorem after_run (c : Cfg) (ops : List (Op F T)) (hops : ∀ op ∈ ops, OpOk c.fmt op) (s : Series F T)
    (hm : s.hasMesh = true ∨ ∃ p cells rest, ops = .mesh p cells :: rest ∨ ops = []) 
    (ds : List (T × List (List Char × Nd F) × List (List Char × List (Nd F))))
    (ms : List (Nd F × List (String × List (List Int)))) (h : After c s ds ms) :
    After c (run c s ops).1 (ds ++ stepsOf ops) (ms ++ meshesOf ops) ∧ ∀ e ∈ (run c s ops).2, e = none := by
  induction ops generalizing s ds ms with
  | nil => exact ⟨by simpa [run, stepsOf, meshesOf] using h, by simp [run]⟩
  | cons op ops ih =>
    obtain ⟨arrs, hi, h1, h2⟩ := h
    cases op with
    | mesh p cells =>
      obtain ⟨e0, more, g1, g2⟩ := mesh_says (T := T) hi p cells (hops (.mesh p cells) (by simp))
      have hstep : (step c s (.mesh p cells)).2 = none := e0
      have hs' : After c (step c s (.mesh p cells)).1 ds (ms ++ [(p, cells)]) := by
        refine ⟨arrs ++ more, g1, h1.mono more, ?_⟩
        rw [List.map_append]
        exact (h2.mono more).snoc g2
      have hm' : (step c s (.mesh p cells)).1.hasMesh = true := by
        simp only [step, e0]
        simp
      obtain ⟨r1, r2⟩ := ih (fun x hx => hops x (by simp [hx])) _ (Or.inl hm') _ _ hs'
      refine ⟨?_, ?_⟩
      · simp only [run, stepsOf, meshesOf]
        simpa using r1
      · intro e he
        simp only [run, List.mem_cons] at he
        rcases he with rfl | he
        · exact hstep
        · exact r2 e he
    | data t pd cd =>
      have hmesh : s.hasMesh = true := by
        rcases hm with hm | ⟨p, cells, rest, hm | hm⟩
        · exact hm
        · cases hm
        · cases hm
      obtain ⟨e0, more, g1, g2⟩ := data_says (T := T) hi pd cd (hops (.data t pd cd) (by simp))
      have hst : step c s (.data t pd cd) =
          ({ s with w := ((tsAttrs (T := T) c "Node" pd s.w).andThen (tsCellData c cd)).w,
                    coll := s.coll ++ [.incl :: .time t :: ((tsAttrs (T := T) c "Node" pd s.w).andThen (tsCellData c cd)).elems] }, none) := by
        unfold step
        simp only [hmesh, Bool.not_true, Bool.false_eq_true, if_false]
        rw [e0]
      have hs' : After c (step c s (.data t pd cd)).1 (ds ++ [(t, pd, cd)]) ms := by
        rw [hst]
        refine ⟨arrs ++ more, g1, ?_, h2.mono more⟩
        rw [List.map_append]
        refine (h1.mono more).snoc ?_
        exact ⟨rfl, rfl, g2⟩
      have hm' : (step c s (.data t pd cd)).1.hasMesh = true := by rw [hst]; exact hmesh
      obtain ⟨r1, r2⟩ := ih (fun x hx => hops x (by simp [hx])) _ (Or.inl hm') _ _ hs'
      refine ⟨?_, ?_⟩
      · simp only [run, stepsOf, meshesOf]
        simpa using r1
      · intro e he
        simp only [run, List.mem_cons] at he
        rcases he with rfl | he
        · rw [hst]
        · exact r2 e he

private theorem read_mesh {c : Cfg} (hc : NamesOk c) {w : W F} {arrs : List (Nd F)} (hi : Xdmf.Inv c w arrs)
    (g : List (Elem F T)) (p : Nd F) (cells : List (String × List (List Int))) (h : MeshOk c.fmt p cells)
    (hg : GridOf c arrs g (meshDesc (p, cells))) :
    foldRes (tsReadElem c.dir w.files) (none, []) g = .ok (some p, fused cells) := by
  rw [foldRes_grid (tsReadElem c.dir w.files) tsReadDesc (ReadableDesc c)
    (fun e d s he hp => tsReadElem_desc hc hi e d he hp s) _ _ hg]
  · unfold meshDesc
    rw [foldRes_append]
    have h0 : foldRes (tsReadDesc (T := T)) (none, []) [.geometry (if p.inner = [2] then "XY" else "XYZ") p] =
        .ok (some p, []) := by
      have : (if p.inner = [2] then "XY" else "XYZ") = "XY" ∨ (if p.inner = [2] then "XY" else "XYZ") = "XYZ" := by
        split
        · exact Or.inl rfl
        · exact Or.inr rfl
      simp only [foldRes, tsReadDesc]
      rw [if_pos this]
    simp only
    rw [h0]
    simp only
    cases hcells : cells with
    | nil => rfl
    | cons b rest =>
      cases rest with
      | nil =>
        obtain ⟨⟨ty, hty⟩, hkn, hu, _⟩ := h.single b hcells
        have hmix : ty ≠ "Mixed" := by
          have key : ∀ kv ∈ meshioToXdmf, kv.2.head? ≠ some "Mixed" := by decide +kernel
          have hty' := hty
          unfold xdmfName at hty'
          cases hf : find meshioToXdmf b.1 with
          | none => rw [hf] at hty'; cases hty'
          | some l =>
            rw [hf] at hty'
            intro e
            subst e
            exact key _ (find_mem hf) hty'
        have ht := C16_xdmf_name b.1 ty hty
        simp only [foldRes, tsReadDesc, hty, Option.getD_some,
          readTopology_single (F := F) [] ty b.1 (widthOf b.2) b.2 hmix ht hkn]
        rfl
      | cons b2 rest =>
        obtain ⟨hne, ht, hcl⟩ := h.mixed (by rw [hcells]; simp)
        rw [hcells] at ht hcl hne
        simp only [foldRes, tsReadDesc, readTopology_mixed (F := F) [] _ _ (C40_decode _ hne hcl)]
        unfold fused
        rw [if_pos (by simp)]
  · intro d hd
    unfold meshDesc at hd
    rcases List.mem_append.1 hd with hd | hd
    · simp only [List.mem_singleton] at hd
      subst hd
      intro a ha
      simp only [Desc.arr, Option.some.injEq] at ha
      subst ha
      exact series_readable h.points
    · cases hcells : cells with
      | nil => rw [hcells] at hd; cases hd
      | cons b rest =>
        cases rest with
        | nil =>
          rw [hcells] at hd
          simp only [List.mem_singleton] at hd
          subst hd
          intro a ha
          simp only [Desc.arr, Option.some.injEq] at ha
          subst ha
          obtain ⟨_, _, hu, hx⟩ := h.single b hcells
          refine ⟨rect_connNd _ _ hu, ?_⟩
          intro _ hxml e
          apply hx hxml
          simp only [connNd] at e
          have := congrArg List.length e
          have hlen : (b.2.map fun r => r.map (Xdmf.Val.int (F := F))).flatten.length = b.2.flatten.length := by
            rw [List.length_flatten, List.length_flatten, List.map_map]
            congr 1
            apply List.map_congr_left
            intro r _
            simp
          rw [hlen] at this
          exact List.length_eq_zero_iff.1 this
        | cons b2 rest =>
          obtain ⟨hne, ht, hcl⟩ := h.mixed (by rw [hcells]; simp)
          rw [hcells] at hd ht hcl hne
          simp only [List.mem_singleton] at hd
          subst hd
          intro a ha
          simp only [Desc.arr, Option.some.injEq] at ha
          subst ha
          refine ⟨rect_flatNd _, ?_⟩
          intro _ _ e
          rw [flatten_flatNd] at e
          have e' : xdmfStream (rowsOf (b :: b2 :: rest)) = [] := by simpa using e
          cases hr : rowsOf (b :: b2 :: rest) with
          | nil => exact hne hr
          | cons x xs =>
            rw [hr] at e'
            unfold xdmfStream at e'
            rw [List.flatMap_cons] at e'
            obtain ⟨n, hn⟩ := hcl x (by rw [hr]; simp)
            have hpos : ∀ e ∈ xdmfMixed, 0 < e.2.2 := by decide +kernel
            have := hpos _ hn
            simp only at this
            have h0 : x.2 = [] := by
              have := List.append_eq_nil_iff.1 e'
              exact (List.append_eq_nil_iff.1 this.1).2
            rw [h0] at this
            exact absurd this (by decide)

private theorem read_step {c : Cfg} (hc : NamesOk c) {w : W F} {arrs : List (Nd F)} (hi : Xdmf.Inv c w arrs)
    (g : List (Elem F T)) (t : T) (pd : List (List Char × Nd F)) (cd : List (List Char × List (Nd F)))
    (h : DataOk c.fmt pd cd) (hg : GridOf c arrs g (dataDesc (t, pd, cd))) :
    foldRes (tsReadData c.dir w.files) { t := none, pd := [], cdRaw := [] } g =
      .ok { t := some t, pd := pd, cdRaw := cd.map joined } := by
  obtain ⟨_, hj⟩ := series_joined_ok h
  rw [foldRes_grid (tsReadData c.dir w.files) tsDataDesc (ReadableDesc c)
    (fun e d s he hp => tsReadData_desc hc hi e d he hp s) _ _ hg]
  · unfold dataDesc
    rw [foldRes_append]
    have h0 : foldRes (tsDataDesc (F := F) (T := T)) { t := none, pd := [], cdRaw := [] } [.incl, .time t] =
        .ok { t := some t, pd := [], cdRaw := [] } := rfl
    rw [h0]
    simp only
    rw [foldRes_append, tsAttrs_node _ _ (by simpa using h.pointNames)]
    simp only
    rw [tsAttrs_cell _ _ (by
      simp only [List.nil_append, List.map_map]
      exact h.cellNames)]
    simp
  · intro d hd a ha
    unfold dataDesc at hd
    simp only [List.mem_append, List.mem_cons, List.not_mem_nil, or_false] at hd
    rcases hd with (rfl | rfl) | hd | hd
    · cases ha
    · cases ha
    · obtain ⟨e, he, rfl⟩ := List.mem_map.1 hd
      simp only [Desc.arr, Option.some.injEq] at ha
      subst ha
      exact series_readable (h.pointData e he).1
    · obtain ⟨e, he, rfl⟩ := List.mem_map.1 hd
      simp only [Desc.arr, Option.some.injEq] at ha
      subst ha
      exact series_readable (hj e he).2

private theorem getElem?_stepsOf_ok {fmt : Fmt} (ops : List (Op F T)) (hops : ∀ op ∈ ops, OpOk fmt op) :
    (∀ d ∈ stepsOf ops, DataOk fmt d.2.1 d.2.2) ∧ ∀ m ∈ meshesOf ops, MeshOk fmt m.1 m.2 := by
  induction ops with
  | nil => simp [stepsOf, meshesOf]
  | cons op ops ih =>
    obtain ⟨i1, i2⟩ := ih (fun x hx => hops x (by simp [hx]))
    have h0 := hops op (by simp)
    cases op with
    | mesh p cells =>
      refine ⟨i1, ?_⟩
      intro m hm
      simp only [meshesOf, List.mem_cons] at hm
      rcases hm with rfl | hm
      · exact h0
      · exact i2 m hm
    | data t pd cd =>
      refine ⟨?_, i2⟩
      intro d hd
      simp only [stepsOf, List.mem_cons] at hd
      rcases hd with rfl | hd
      · exact h0
      · exact i1 d hd

/-- C41.  For every history of admissible calls that begins with a mesh, in each of the three formats and
whatever files were there before: no call raises; the reader sees exactly the written steps, in order,
each with its time, its point data and its cell data (cut at the blocks of the mesh it was given); and
`read_points_cells` gives the last mesh written.  The heavy data must be where the reader looks for it. -/
theorem C41_roundtrip_partial (c : Cfg) (hc : NamesOk c) (fs : Files F) (p : Nd F) (cells : List (String × List (List Int)))
    (rest : List (Op F T)) (hops : ∀ op ∈ Op.mesh p cells :: rest, OpOk c.fmt op)
    (s : Series F T) (errs : List (Option Err)) (hrun : run c (begin c fs) (.mesh p cells :: rest) = (s, errs)) :
    (∀ e ∈ errs, e = none) ∧
    s.coll.length = (stepsOf rest).length ∧
    (∀ (k : Nat) t pd cd, (stepsOf rest)[k]? = some (t, pd, cd) → ∀ cs,
      readData c.dir s (some cs) k = .ok (t, pd, cd.map fun e => (e.1, splitNd (cs.map fun b => b.2.length) (joined e).2))) ∧
    ∀ m, ((p, cells) :: meshesOf rest).getLast? = some m → readPointsCells c.dir s = .ok (some m.1, fused m.2) := by
  have h0 : After c (begin (T := T) c fs) [] [] := ⟨[], inv_start c fs, ⟨rfl, by simp [begin]⟩, ⟨rfl, by simp [begin]⟩⟩
  obtain ⟨⟨arrs, hi, h1, h2⟩, h3⟩ := after_run c (.mesh p cells :: rest) hops (begin c fs)
    (Or.inr ⟨p, cells, rest, Or.inl rfl⟩) [] [] h0
  obtain ⟨k1, k2⟩ := getElem?_stepsOf_ok _ hops
  rw [hrun] at h1 h2 h3 hi
  simp only [List.nil_append, stepsOf, meshesOf] at h1 h2 h3 hi k1 k2
  refine ⟨h3, by rw [h1.1, List.length_map], ?_, ?_⟩
  · intro k t pd cd hk cs
    have hlt : k < s.coll.length := by
      rw [h1.1, List.length_map]
      rcases Nat.lt_or_ge k (stepsOf rest).length with h | h
      · exact h
      · rw [List.getElem?_eq_none h] at hk; cases hk
    have hg := h1.2 k _ _ (List.getElem?_eq_getElem hlt) (by rw [List.getElem?_map, hk]; rfl)
    unfold readData
    rw [List.getElem?_eq_getElem hlt]
    simp only
    rw [read_step hc hi _ t pd cd (k1 _ (List.mem_of_getElem? hk)) hg]
    simp only [List.map_map]
    rfl
  · intro m hm
    have hlast : ((p, cells) :: meshesOf rest)[(meshesOf rest).length]? = some m := by
      rw [List.getLast?_eq_getElem?] at hm
      simpa using hm
    have hlen : s.meshes.length = (meshesOf rest).length + 1 := by rw [h2.1]; simp
    have hlt : (meshesOf rest).length < s.meshes.length := by omega
    have hg := h2.2 (meshesOf rest).length _ _ (List.getElem?_eq_getElem hlt) (by rw [List.getElem?_map, hlast]; rfl)
    unfold readPointsCells
    rw [List.getLast?_eq_getElem?, hlen, Nat.add_sub_cancel, List.getElem?_eq_getElem hlt]
    exact read_mesh hc hi _ m.1 m.2 (k2 _ (List.mem_of_getLast? hm)) hg

/-- With arrays as long as the blocks of the mesh read, the cell data comes back as it was given. -/
theorem C41_steps (c : Cfg) (hc : NamesOk c) (fs : Files F) (p : Nd F) (cells : List (String × List (List Int)))
    (rest : List (Op F T)) (hops : ∀ op ∈ Op.mesh p cells :: rest, OpOk c.fmt op)
    (s : Series F T) (errs : List (Option Err)) (hrun : run c (begin c fs) (.mesh p cells :: rest) = (s, errs))
    (k : Nat) (t : T) (pd : List (List Char × Nd F)) (cd : List (List Char × List (Nd F)))
    (hk : (stepsOf rest)[k]? = some (t, pd, cd)) (cs : List (String × List (List Int)))
    (hlens : ∀ e ∈ cd, (e.2.map fun a => a.rows.length) = cs.map fun b => b.2.length) :
    readData c.dir s (some cs) k = .ok (t, pd, cd) := by
  obtain ⟨_, _, h, _⟩ := C41_roundtrip_partial c hc fs p cells rest hops s errs hrun
  rw [h k t pd cd hk cs]
  have hd : DataOk c.fmt pd cd :=
    (getElem?_stepsOf_ok _ hops).1 (t, pd, cd) (by simpa [stepsOf] using List.mem_of_getElem? hk)
  congr 3
  conv => rhs; rw [← List.map_id cd]
  apply List.map_congr_left
  intro e he
  obtain ⟨hne, dtype, inner, _, _, ha⟩ := hd.cellData e he
  rw [← hlens e he]
  show (e.1, splitNd (e.2.map fun a => a.rows.length) (joined e).2) = e
  obtain ⟨n, l⟩ := e
  congr 1
  have h1 := recut_same l dtype inner (fun a h => ⟨(ha a h).1, (ha a h).2.1⟩)
  conv => rhs; rw [← h1]
  unfold splitNd recut joined
  simp only
  rw [cellDataFromRaw_splitLens]
  · intro e0
    exact hne (by simpa using e0)
  · simp [List.length_flatMap]

private def c41cfg : Cfg := ⟨.hdf, [], [], "a".toList⟩

private def c41ops : List (Op Int Nat) :=
  [.mesh { dtype := "float64", inner := [2], rows := [[.flt 0, .flt 0], [.flt 1, .flt 0], [.flt 0, .flt 1]] }
      [("triangle", [[0, 1, 2]]), ("vertex", [[1]])],
   .data 0 [("u".toList, { dtype := "float64", inner := [], rows := [[.flt 3], [.flt 4], [.flt 5]] })] [],
   .data 7 [] [("q".toList, [{ dtype := "int64", inner := [], rows := [[.int 8]] }, { dtype := "int64", inner := [], rows := [[.int 9]] }])]]

set_option synthInstance.maxHeartbeats 400000 in
set_option synthInstance.maxSize 1024 in
example : (run c41cfg (begin c41cfg []) c41ops).2 = [none, none, none] ∧
    readData [] (run c41cfg (begin c41cfg []) c41ops).1 (some [("triangle", [[0, 1, 2]]), ("vertex", [[1]])]) 1 =
      .ok (7, [], [("q".toList, [{ dtype := "int64", inner := [], rows := [[.int 8]] }, { dtype := "int64", inner := [], rows := [[.int 9]] }])]) ∧
    readPointsCells [] (run c41cfg (begin c41cfg []) c41ops).1 =
      .ok (some { dtype := "float64", inner := [2], rows := [[.flt 0, .flt 0], [.flt 1, .flt 0], [.flt 0, .flt 1]] },
        [("triangle", [[0, 1, 2]]), ("vertex", [[1]])]) := by
  refine ⟨?_, ?_, ?_⟩ <;> decide +kernel

/-- C41, the other half: whatever calls were made and whatever calls follow, failing ones included, the
grids already there stay as they are and every one of their data items reads as it did: no heavy data is
overwritten. -/
theorem C41_no_overwrite (c : Cfg) (hc : NamesOk c) (fs : Files F) (ops ops' : List (Op F T)) (s s' : Series F T)
    (errs errs' : List (Option Err)) (h : run c (begin c fs) ops = (s, errs)) (h' : run c s ops' = (s', errs')) :
    s.coll <+: s'.coll ∧ s.meshes <+: s'.meshes ∧
    ∀ g ∈ s.coll ++ s.meshes, ∀ e ∈ g, ∀ it ∈ e.items, ∀ strict,
      readItem strict c.dir s'.w.files it = readItem strict c.dir s.w.files it := by
  obtain ⟨arrs, h1⟩ := run_ok c ops (begin c fs) [] (seriesOk_begin c fs)
  rw [h] at h1
  obtain ⟨more, h2⟩ := run_ok c ops' s _ h1
  rw [h'] at h2
  refine ⟨?_, ?_, ?_⟩
  · clear h1 h2 h
    induction ops' generalizing s errs' with
    | nil =>
      simp only [run, Prod.mk.injEq] at h'
      rw [h'.1]
      exact List.prefix_refl _
    | cons op ops' ih =>
      simp only [run, Prod.mk.injEq] at h'
      refine List.IsPrefix.trans ?_ (ih (step c s op).1 _ (Prod.ext h'.1 rfl))
      cases op with
      | mesh p cells => exact List.prefix_refl _
      | data t pd cd =>
        cases hm : s.hasMesh <;> simp [step, hm]
  · clear h1 h2 h
    induction ops' generalizing s errs' with
    | nil =>
      simp only [run, Prod.mk.injEq] at h'
      rw [h'.1]
      exact List.prefix_refl _
    | cons op ops' ih =>
      simp only [run, Prod.mk.injEq] at h'
      refine List.IsPrefix.trans ?_ (ih (step c s op).1 _ (Prod.ext h'.1 rfl))
      cases op with
      | mesh p cells => exact List.prefix_append _ _
      | data t pd cd =>
        cases hm : s.hasMesh <;> simp [step, hm]
  · intro g hg e he it hit strict
    exact readItem_stable hc h1.1 h2.1 (h1.2 g hg e he it hit)

/-- A history in which no mesh call succeeded. -/
private theorem no_mesh (c : Cfg) (ops : List (Op F T)) (s : Series F T) (hs : s.hasMesh = false)
    (h : ∀ (i : Nat) p cells, ops[i]? = some (.mesh p cells) → (run c s ops).2[i]? ≠ some none) :
    (run c s ops).1.hasMesh = false := by
  induction ops generalizing s with
  | nil => exact hs
  | cons op ops ih =>
    simp only [run]
    apply ih
    · cases op with
      | mesh p cells =>
        have := h 0 p cells rfl
        simp only [run, List.getElem?_cons_zero, ne_eq, Option.some.injEq] at this
        simp only [step, hs, Bool.false_or]
        simp only [step] at this
        cases ho : ((tsPoints (T := T) c p s.w).andThen (tsCells c cells)).err with
        | none => exact absurd ho this
        | some e => rfl
      | data t pd cd =>
        unfold step
        simp [hs]
    · intro i p cells hi
      have := h (i + 1) p cells (by simpa using hi)
      simpa [run] using this

/-- Data before the mesh: after any history in which no mesh was written, `write_data` raises WriteError;
no heavy data is written. -/
theorem C41_before_mesh (c : Cfg) (fs : Files F) (ops : List (Op F T)) (t : T) (pd : List (List Char × Nd F))
    (cd : List (List Char × List (Nd F)))
    (h : ∀ (i : Nat) p cells, ops[i]? = some (.mesh p cells) → (run c (begin c fs) ops).2[i]? ≠ some none) :
    (step c (run c (begin c fs) ops).1 (.data t pd cd)).2 = some .writeError ∧
    (step c (run c (begin c fs) ops).1 (.data t pd cd)).1.w = (run c (begin c fs) ops).1.w := by
  have := no_mesh c ops (begin c fs) rfl h
  unfold step
  simp [this]

example : (run c41cfg (begin c41cfg []) (.data 0 [] [] :: c41ops)).2 = [some .writeError, none, none, none] := by
  decide +kernel

/-- C41 in full: the reader sees exactly the steps whose call returned. -/
def C41_statement : Prop :=
  ∀ (c : Cfg) (ops : List (Op Int Nat)), NamesOk c →
    (run c (begin c []) ops).1.coll.length =
      ((ops.zip (run c (begin c []) ops).2).filter fun e => match e with | (.data _ _ _, none) => true | _ => false).length

/-- It is false: a refused call of `write_data` leaves an empty step in the file, which cannot be read. -/
theorem C41_refused_step_false : ¬ C41_statement := by
  intro h
  have := h c41cfg (.data 0 [] [] :: c41ops) ⟨by decide, by decide, by decide, by decide⟩
  revert this
  decide +kernel

/-- The step left behind by a refused call makes `read_data` raise ReadError. -/
theorem C41_refused_step (c : Cfg) (s : Series F T) (t : T) (pd : List (List Char × Nd F))
    (cd : List (List Char × List (Nd F))) (h : s.hasMesh = false) (dir : List Char) (cs : Option (List (String × List (List Int)))) :
    readData dir (step c s (.data t pd cd)).1 cs s.coll.length = .error .readError := by
  unfold step
  simp only [h, Bool.not_false, if_true]
  unfold readData
  simp only [List.getElem?_append_right (Nat.le_refl _), Nat.sub_self, List.getElem?_cons_zero, foldRes]
  cases cs <;> rfl

/-- Data in a format with heavy files next to the current directory is not found when the XDMF file is
elsewhere: the writer leaves out the directory, the reader puts it in. -/
theorem C41_directory_false : ∃ (s : Series Int Nat) (errs : List (Option Err)),
    run ⟨.hdf, "d/".toList, [], "a".toList⟩ (begin ⟨.hdf, "d/".toList, [], "a".toList⟩ []) c41ops = (s, errs) ∧
    (∀ e ∈ errs, e = none) ∧ readPointsCells "d/".toList s = .error .fileNotFound := by
  refine ⟨_, _, rfl, ?_, ?_⟩ <;> decide +kernel

/-- Several blocks one of which has lines: ValueError, always. -/
theorem C41_rejects_lines (c : Cfg) (s : Series F T) (p : Nd F) (cells : List (String × List (List Int)))
    (hp : (tsPoints (T := T) c p s.w).err = none) (h2 : 2 ≤ cells.length) (hl : ∃ b ∈ cells, b.1 = "line") :
    (step c s (.mesh p cells)).2 = some .valueError := by
  obtain ⟨b, hb, hbl⟩ := hl
  unfold step Out.andThen
  simp only [hp]
  unfold tsCells
  match cells, h2 with
  | x :: y :: rest, _ =>
    simp only
    rw [if_pos]
    rw [List.any_eq_true]
    exact ⟨b, hb, by simpa using hbl⟩

example : (step c41cfg (begin c41cfg [] : Series Int Nat) (.mesh { dtype := "float64", inner := [2], rows := [[.flt 0, .flt 0], [.flt 1, .flt 1]] }
    [("line", [[0, 1]]), ("vertex", [[1]])])).2 = some .valueError := by decide +kernel

/-- Points with a number of coordinates other than two or three: WriteError, and the mesh does not
count. -/
theorem C41_rejects_dim (c : Cfg) (s : Series F T) (p : Nd F) (cells : List (String × List (List Int))) (d : Nat)
    (h : p.inner = [d]) (h2 : d ≠ 2) (h3 : d ≠ 3) :
    (step c s (.mesh p cells)).2 = some .writeError ∧ (step c s (.mesh p cells)).1.hasMesh = s.hasMesh := by
  unfold step Out.andThen tsPoints
  simp [h, h2, h3]

/-- `read_data` before `read_points_cells` raises ReadError, for any step that can be read. -/
theorem C41_cells_first (dir : List Char) (s : Series F T) (k : Nat) (cs : List (String × List (List Int))) r
    (h : readData dir s (some cs) k = .ok r) : readData dir s none k = .error .readError := by
  unfold readData at *
  cases hg : s.coll[k]? with
  | none => rw [hg] at h; cases h
  | some g =>
    rw [hg] at h
    simp only at h ⊢
    cases hf : foldRes (tsReadData dir s.w.files) { t := none, pd := [], cdRaw := [] } g with
    | error e => rw [hf] at h; cases h
    | ok d => rfl

/-- A step that is not there: IndexError. -/
theorem C41_no_step (dir : List Char) (s : Series F T) (k : Nat) (cs : Option (List (String × List (List Int))))
    (h : s.coll.length ≤ k) : readData dir s cs k = .error .indexError := by
  unfold readData
  rw [List.getElem?_eq_none h]

end Props
end Meshio
