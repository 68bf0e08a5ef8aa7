/-
C37: Netgen files.

Cells go to the section of their dimension (surface, volume, edge, point elements) with Netgen's
node order and numbers from 1, together with one integer per cell; points are stored with three
coordinates; names of regions are stored by codimension.  Reading gives the cells back in the
order of the sections, neighbouring cells of a type as one block.
-/
import Verif.Proofs.Netgen
namespace Meshio.Spec

/-- The cells of a mesh in the order in which Netgen stores them: surfaces, volumes, edges,
points; cells of one dimension in the order of the mesh.  A cell is its type, its nodes and its
index, which is 1 if the mesh has no integer cell data. -/
def netgenCells (bs : List Netgen.Block) : List (String × List Int × Int) :=
  [2, 3, 1, 0].flatMap (fun d => (bs.filter (fun b => topologicalDimension.get? b.type == some d)).flatMap (fun b =>
    (b.rows.zip (b.index.getD (List.replicate b.rows.length 1))).map (fun ri => (b.type, ri.1, ri.2))))

end Meshio.Spec

namespace Meshio.Props
open Meshio Netgen Types Tables Spec

variable {F : Type}

theorem convert_block (t : String) (p : List Nat) (hp : find netgenIPmap t = some p) (d : Nat)
    (hd : topologicalDimension.get? t = some d) (rows : List (List Int × Int))
    (hr : ∀ r ∈ rows, r.1.length = p.length ∧ ∀ z ∈ r.1, 0 ≤ z ∧ IsInt 4 (z + 1)) :
    convert (t, rows.map (fun r => (fileNodes t r.1, r.2))) = .ok (t, rows.map (·.1)) := by
  have hn := (table_facts t p hp d hd).1
  have key : ∀ r ∈ rows, ∃ q, find netgenPmap t = some q ∧ ∃ s, fileNodes t r.1 = s.map (· + 1) ∧
      s.length = p.length ∧ pick s q = .ok r.1 ∧ ∀ z ∈ s, 0 ≤ z ∧ IsInt 4 (z + 1) := by
    intro r hrm
    obtain ⟨s, hs, hsl, -, -⟩ := cellRow_eq hp hd r.1 (hr r hrm).1 (hr r hrm).2 none (by simp)
    obtain ⟨s', hs', hsl', hb⟩ := C17_netgen t (by rw [hp]; rfl) r.1 (fun n hn' => by
      rw [hn] at hn'; cases hn'; exact (hr r hrm).1)
    have hfn : fileNodes t r.1 = s'.map (· + 1) := by
      unfold fileNodes
      rw [hs']
    have hs'' : pick r.1 p = .ok s' := by
      unfold reorderStrict at hs'
      rw [hp] at hs'
      exact hs'
    unfold reorderStrict at hb
    cases hq : find netgenPmap t with
    | none => rw [hq] at hb; simp at hb
    | some q =>
      rw [hq] at hb
      exact ⟨q, rfl, s', hfn, by rw [hsl', (hr r hrm).1], hb, fun z hz => (hr r hrm).2 z (mem_pick hs'' z hz)⟩
  obtain ⟨q, hq⟩ : ∃ q, find netgenPmap t = some q := by
    have k : ∀ kv ∈ netgenIPmap, (find netgenPmap kv.1).isSome := by decide +kernel
    exact Option.isSome_iff_exists.mp (k _ (find_mem hp))
  have hlen : ∀ r ∈ rows, (fileNodes t r.1).length = p.length := by
    intro r hrm
    obtain ⟨_, _, s, hfn, hsl, _⟩ := key r hrm
    rw [hfn, List.length_map, hsl]
  unfold convert
  rw [hq]
  simp only
  rw [if_neg, if_neg]
  · rw [mapRes_ok_of_forall (g := fun r => (match pick r.1 q with
      | .ok x => x
      | .error _ => []))]
    · simp only [hd]
      congr 2
      rw [List.map_map, List.map_map]
      apply List.map_congr_left
      intro r hrm
      obtain ⟨q', hq', s, hfn, hsl, hb, _⟩ := key r hrm
      rw [hq] at hq'; cases hq'
      simp only [Function.comp_apply, hfn, pick_map _ hb, List.map_map]
      conv => rhs; rw [← List.map_id r.1]
      apply List.map_congr_left
      intro z _
      simp only [Function.comp_apply, id]
      omega
    · intro x hx
      obtain ⟨r, hrm, rfl⟩ := List.mem_map.mp hx
      obtain ⟨q', hq', s, hfn, hsl, hb, _⟩ := key r hrm
      rw [hq] at hq'; cases hq'
      simp only [hfn, pick_map _ hb]
  · rw [List.any_eq_true]
    rintro ⟨x, hx, h⟩
    obtain ⟨r, hrm, rfl⟩ := List.mem_map.mp hx
    obtain ⟨_, _, s, hfn, _, _, hz⟩ := key r hrm
    rw [List.any_eq_true] at h
    obtain ⟨z, hzm, h⟩ := h
    rw [hfn] at hzm
    obtain ⟨y, hy, rfl⟩ := List.mem_map.mp hzm
    have := hz y hy
    simp only [IsInt, decide_eq_true_eq] at this h
    simp only [Nat.reducePow, Int.reducePow] at this h
    omega
  · rw [List.any_eq_true]
    rintro ⟨x, hx, h⟩
    obtain ⟨r, hrm, rfl⟩ := List.mem_map.mp hx
    cases rows with
    | nil => simp at hrm
    | cons a l =>
      simp only [List.map_cons, List.headD_cons, hlen r hrm, hlen a (by simp)] at h
      simp at h

/-- The names of all codimensions. -/
def allEntries (fields : Dict (Int × Int)) (bs : List Block) (dim : Nat) : Dict (Int × Int) :=
  (List.range (dim + 1)).flatMap (codimEntries fields bs dim)

theorem netgenCells_eq (bs : List Block) : netgenCells bs = [2, 3, 1, 0].flatMap (cellsOfDim bs) := rfl

/-- What the reader makes of a written file; the names are described by `C37_names`. -/
theorem read_written (fio : FloatIO F) (hf : ∀ x, '#' ∉ fio.fmt x) (version : List Char) (hv : '\n' ∉ version)
    (zero : F) (dim : Nat) (hd : dim ≤ 3) (pts : List (List F)) (h1 : pts.length ≠ 1)
    (hp : ∀ p ∈ pts, p.length = dim) (bs : List Block) (hb : ∀ b ∈ bs, b.Ok) (fields : Dict (Int × Int))
    (hn : ∀ c ≤ dim, ∀ i : Int, nameOf (codimData fields bs dim c) i ≠ "" →
      IsTok (nameOf (codimData fields bs dim c) i).toList)
    (info : Option (List (List Int) × List Int))
    (hi : ∀ i, info = some i → i.1 ≠ [] ∧ (∀ r ∈ i.1, r.length = 3) ∧ i.2 ≠ []) :
    ∃ s, write fio version zero dim pts bs fields info = .ok s ∧
      read fio s = .ok ⟨.rows pts, (groupRuns (netgenCells bs)).map (fun b => (b.1, b.2.map (·.1))),
        (groupRuns (netgenCells bs)).map (fun b => b.2.map (·.2)), setAll [] (allEntries fields bs dim),
        info.map (fun i => (i.1, some i.2))⟩ := by
  unfold write
  simp only [sectionLines_eq _ _ _ bs hb]
  rw [if_neg (by omega)]
  refine ⟨_, rfl, ?_⟩
  -- the reader passes over all sections
  let st0 : St F := ⟨none, .rows [], [], false, [], none, none⟩
  let L (c title : List Char) (d : Nat) : List (List Char) :=
    [[], '#' :: c, title, fmtNat (cellsOfDim bs d).length] ++ (cellsOfDim bs d).map (cellLine d)
  let P (c : List Char) : List (List Char) := [[], '#' :: c, "points".toList, fmtNat pts.length] ++
    pts.map (fun p => joinWith ' ' ((p ++ List.replicate (3 - dim) zero).map fio.fmt))
  let H : List (List Char) := [[], "dimension".toList, fmtNat dim, [], "geomtype".toList, fmtNat 0]
  let N : List (List Char) := (List.range (dim + 1)).flatMap (codimLines fields bs dim)
  let body : List (List Char) := H ++
    (L " surfnr    bcnr   domin  domout      np      p1      p2      p3".toList "surfaceelements".toList 2 ++
    (L "  matnr      np      p1      p2      p3      p4".toList "volumeelements".toList 3 ++
    (L " surfid  0   p1   p2   trignum1    trignum2   domin/surfnr1    domout/surfnr2   ednr1   dist1   ednr2   dist2".toList
      "edgesegmentsgi2".toList 1 ++
    (P "          X             Y             Z".toList ++
    (L "          pnum             index".toList "pointelements".toList 0 ++ (infoLines info ++ N))))))
  let fileSt (cs : List (String × List Int × Int)) (p : Points F) : St F :=
    ⟨some (dim : Int), p, (cs.map fileCell).foldl pushTyped [], false, [], none, none⟩
  have push : ∀ (a b : List (String × List Int × Int)),
      (b.map fileCell).foldl pushTyped ((a.map fileCell).foldl pushTyped []) =
        ((a ++ b).map fileCell).foldl pushTyped [] := by
    intro a b
    rw [List.map_append, List.foldl_append]
  have hbody : Reads fio (body.map nl) st0 { fileSt (netgenCells bs) (.rows pts) with
      fields := setAll [] (allEntries fields bs dim), ids := info.map (·.1), idTypes := info.map (·.2) } := by
    have r0 := reads_header fio dim st0
    have r1 := reads_section fio " surfnr    bcnr   domin  domout      np      p1      p2      p3".toList
      "surfaceelements".toList 2 bs hb (by constructor <;> decide) (by decide) (by decide) (by decide) (by decide)
      (by decide) (by decide) (fileSt [] (.rows [])) rfl
    have r2 := reads_section fio "  matnr      np      p1      p2      p3      p4".toList
      "volumeelements".toList 3 bs hb (by constructor <;> decide) (by decide) (by decide) (by decide) (by decide)
      (by decide) (by decide) (fileSt (cellsOfDim bs 2) (.rows [])) rfl
    have r3 := reads_section fio " surfid  0   p1   p2   trignum1    trignum2   domin/surfnr1    domout/surfnr2   ednr1   dist1   ednr2   dist2".toList
      "edgesegmentsgi2".toList 1 bs hb (by constructor <;> decide) (by decide) (by decide) (by decide) (by decide)
      (by decide) (by decide) (fileSt (cellsOfDim bs 2 ++ cellsOfDim bs 3) (.rows [])) rfl
    have r4 := reads_points fio hf "          X             Y             Z".toList zero dim hd pts h1 hp
      (fileSt ((cellsOfDim bs 2 ++ cellsOfDim bs 3) ++ cellsOfDim bs 1) (.rows [])) rfl rfl
    have r5 := reads_section fio "          pnum             index".toList
      "pointelements".toList 0 bs hb (by constructor <;> decide) (by decide) (by decide) (by decide) (by decide)
      (by decide) (by decide) (fileSt ((cellsOfDim bs 2 ++ cellsOfDim bs 3) ++ cellsOfDim bs 1) (.rows pts)) rfl
    have e : netgenCells bs = ((cellsOfDim bs 2 ++ cellsOfDim bs 3) ++ cellsOfDim bs 1) ++ cellsOfDim bs 0 := by
      rw [netgenCells_eq]
      simp [List.flatMap_cons]
    have r6 := reads_info fio info hi (fileSt (netgenCells bs) (.rows pts)) rfl rfl
    have r7 := reads_codims fio fields bs dim (List.range (dim + 1)) (by
        intro c hc; rw [List.mem_range] at hc; omega) (by
        intro c hc; rw [List.mem_range] at hc; exact hn c (by omega))
      { fileSt (netgenCells bs) (.rows pts) with ids := info.map (·.1), idTypes := info.map (·.2) } rfl
    simp only [fileSt, push] at r1 r2 r3 r4 r5
    rw [← e] at r5
    simp only [body, List.map_append]
    exact r0.append (r1.append (r2.append (r3.append (r4.append (r5.append (r6.append r7))))))
  have hnl : ∀ a ∈ ("# Generated by meshio ".toList ++ version) :: "mesh3d".toList :: (body ++ [[], "endmesh".toList]),
      '\n' ∉ a := by
    have hcell : ∀ d c, '\n' ∉ cellLine d c := by
      intro d c
      exact no_newline_line _ (fun t ht => by obtain ⟨z, _, rfl⟩ := List.mem_map.mp ht; exact isTok_fmtInt z)
    have hL : ∀ c title d, '\n' ∉ c → '\n' ∉ title → ∀ a ∈ L c title d, '\n' ∉ a := by
      intro c title d hc ht a ha
      simp only [L, List.cons_append, List.nil_append, List.mem_cons, List.mem_map] at ha
      rcases ha with rfl | rfl | rfl | rfl | ⟨x, _, rfl⟩
      · simp
      · simp [hc]
      · exact ht
      · exact (isTok_fmtNat _).no_newline
      · exact hcell _ _
    have hP : ∀ c, '\n' ∉ c → ∀ a ∈ P c, '\n' ∉ a := by
      intro c hc a ha
      simp only [P, List.cons_append, List.nil_append, List.mem_cons, List.mem_map] at ha
      rcases ha with rfl | rfl | rfl | rfl | ⟨x, _, rfl⟩
      · simp
      · simp [hc]
      · decide
      · exact (isTok_fmtNat _).no_newline
      · exact no_newline_line _ (fun t ht => by obtain ⟨z, _, rfl⟩ := List.mem_map.mp ht; exact fio.tok z)
    have hH : ∀ a ∈ H, '\n' ∉ a := by
      intro a ha
      simp only [H, List.mem_cons, List.not_mem_nil, or_false] at ha
      rcases ha with rfl | rfl | rfl | rfl | rfl | rfl
      · simp
      · decide
      · exact (isTok_fmtNat _).no_newline
      · simp
      · decide
      · exact (isTok_fmtNat _).no_newline
    have hI : ∀ a ∈ infoLines info, '\n' ∉ a := by
      intro a ha
      cases info with
      | none => simp [infoLines] at ha
      | some i =>
        simp only [infoLines, List.cons_append, List.nil_append, List.mem_cons, List.mem_append, List.mem_map,
          List.not_mem_nil, or_false] at ha
        rcases ha with rfl | rfl | rfl | ⟨r, _, rfl⟩ | rfl | rfl | rfl | rfl
        · simp
        · decide
        · exact (isTok_fmtNat _).no_newline
        · exact no_newline_line _ (fun t ht => (intToks r t ht).1)
        · simp
        · decide
        · exact (isTok_fmtNat _).no_newline
        · exact no_newline_line _ (fun t ht => (intToks _ t ht).1)
    have hN : ∀ a ∈ N, '\n' ∉ a := by
      intro a ha
      obtain ⟨c, hc, ha⟩ := List.mem_flatMap.mp ha
      rw [List.mem_range] at hc
      have hnc := hn c (by omega)
      unfold codimLines at ha
      generalize codimData fields bs dim c = data at ha hnc
      cases data with
      | nil => simp at ha
      | cons x l =>
        simp only at ha
        generalize x :: l = data at ha hnc
        simp only [List.cons_append, List.nil_append, List.mem_cons, List.mem_map] at ha
        rcases ha with rfl | rfl | rfl | ⟨i, _, rfl⟩
        · simp
        · rcases (show c = 0 ∨ c = 1 ∨ c = 2 ∨ c = 3 by omega) with rfl | rfl | rfl | rfl <;> decide
        · exact (isTok_fmtInt _).no_newline
        · intro hm
          rcases List.mem_append.mp hm with hm | hm
          · exact (isTok_fmtNat _).no_newline hm
          · rcases List.mem_cons.mp hm with hm | hm
            · exact absurd hm (by decide)
            · by_cases h0 : nameOf data ((i : Int) + 1) = ""
              · rw [h0] at hm; exact absurd hm (by decide)
              · exact (hnc _ h0).no_newline hm
    intro a ha
    simp only [body, List.mem_cons, List.mem_append, List.not_mem_nil, or_false] at ha
    rcases ha with rfl | rfl | ((ha | ha | ha | ha | ha | ha | ha | ha) | rfl | rfl)
    · intro hm
      rcases List.mem_append.mp hm with hm | hm
      · exact absurd hm (by decide)
      · exact hv hm
    · decide
    · exact hH a ha
    · exact hL _ _ _ (by decide) (by decide) a ha
    · exact hL _ _ _ (by decide) (by decide) a ha
    · exact hL _ _ _ (by decide) (by decide) a ha
    · exact hP _ (by decide) a ha
    · exact hL _ _ _ (by decide) (by decide) a ha
    · exact hI a ha
    · exact hN a ha
    · simp
    · decide
  have hfile : fileLines (linesText (("# Generated by meshio ".toList ++ version) :: "mesh3d".toList ::
      (body ++ [[], "endmesh".toList]))) = nl ('#' :: (" Generated by meshio ".toList ++ version)) ::
        nl "mesh3d".toList :: (body.map nl ++ [nl [], nl "endmesh".toList]) := by
    rw [fileLines_linesText' _ hnl]
    simp only [List.map_cons, List.map_append, List.map_nil]
    rfl
  have htext : ∀ t : List (List Char), t = (("# Generated by meshio ".toList ++ version) :: "mesh3d".toList ::
      (body ++ [[], "endmesh".toList])) → read fio (linesText t) = .ok ⟨.rows pts,
        (groupRuns (netgenCells bs)).map (fun b => (b.1, b.2.map (·.1))),
        (groupRuns (netgenCells bs)).map (fun b => b.2.map (·.2)), setAll [] (allEntries fields bs dim),
        info.map (fun i => (i.1, some i.2))⟩ := by
    intro t ht
    subst ht
    unfold Netgen.read
    simp only
    rw [hfile, fastForward_comment, fastForward_tok (by constructor <;> decide : IsTok "mesh3d".toList) (by decide)]
    simp only [ne_eq, not_true_eq_false, if_false]
    rw [loop_of_reads hbody _ (by simp; omega)]
    simp only [fileSt, foldl_pushTyped]
    have hg : groupRuns ((netgenCells bs).map fileCell) = (groupRuns (netgenCells bs)).map (fun b =>
        (b.1, b.2.map (fun r => (fileNodes b.1 r.1, r.2)))) :=
      groupRuns_mapKey (fun t (r : List Int × Int) => (fileNodes t r.1, r.2)) (netgenCells bs)
    rw [hg]
    have hc : mapRes convert ((groupRuns (netgenCells bs)).map (fun b =>
        (b.1, b.2.map (fun r => (fileNodes b.1 r.1, r.2))))) =
        .ok ((groupRuns (netgenCells bs)).map (fun b => (b.1, b.2.map (·.1)))) := by
      have hm := mem_groupRuns (netgenCells bs)
      have hne := groupRuns_ne_nil (netgenCells bs)
      generalize groupRuns (netgenCells bs) = g at hm hne
      induction g with
      | nil => rfl
      | cons b g ih =>
        rw [List.map_cons, mapRes, ih (fun b hb => hm b (by simp [hb])) (fun b hb => hne b (by simp [hb]))]
        have hblock : ∀ x ∈ b.2, ∃ bl ∈ bs, bl.type = b.1 ∧ x.1 ∈ bl.rows := by
          intro x hx
          have := hm b (by simp) x hx
          unfold netgenCells at this
          obtain ⟨d, _, this⟩ := List.mem_flatMap.mp this
          obtain ⟨bl, hbl, this⟩ := List.mem_flatMap.mp this
          obtain ⟨ri, hri, he⟩ := List.mem_map.mp this
          have h1 : bl.type = b.1 := (Prod.mk.inj he).1
          have h2 := (Prod.mk.inj he).2
          refine ⟨bl, (List.mem_filter.mp hbl).1, h1, ?_⟩
          rw [← h2]
          exact (List.of_mem_zip hri).1
        have hex : ∃ x, x ∈ b.2 := List.exists_mem_of_ne_nil _ (hne b (by simp))
        obtain ⟨x0, hx0⟩ := hex
        obtain ⟨bl, hbl, hty, _⟩ := hblock x0 hx0
        obtain ⟨hfi, hdi, _, _⟩ := hb bl hbl
        obtain ⟨p, hpp⟩ := Option.isSome_iff_exists.mp hfi
        obtain ⟨d, hdd⟩ := Option.isSome_iff_exists.mp hdi
        rw [hty] at hpp
        rw [Block.dim, hty] at hdd
        rw [convert_block b.1 p hpp d hdd b.2 (by
          intro r hr
          obtain ⟨bl', hbl', hty', hrow⟩ := hblock r hr
          have hok := (hb bl' hbl').2.2.1 r.1 hrow
          rw [hty'] at hok
          exact ⟨hok.1 _ (table_facts b.1 p hpp d hdd).1, hok.2⟩)]
        rfl
    rw [hc]
    simp only [List.map_map]
    congr 1
    congr 1
    · apply List.map_congr_left
      intro b _
      simp [Function.comp_def]
    · cases info <;> rfl
  apply htext
  simp only [body, H, L, P, N, List.append_assoc, List.cons_append, List.nil_append]
  rfl

/-! ### The round trip -/

/-- The claim of C37: a mesh over the types of Netgen comes back with its points, and with its
cells and region indices in the order of the sections. -/
def C37_statement : Prop :=
  ∀ (pts : List (List Int)) (dim : Nat) (bs : List Block), dim ≤ 3 → (∀ p ∈ pts, p.length = dim) →
    (∀ b ∈ bs, b.Ok) → ∃ s, write FloatIO.int [] 0 dim pts bs [] none = .ok s ∧ ∃ m,
      Netgen.read FloatIO.int s = .ok m ∧ m.points = .rows pts ∧
        m.cells = (groupRuns (netgenCells bs)).map (fun b => (b.1, b.2.map (·.1))) ∧
        m.index = (groupRuns (netgenCells bs)).map (fun b => b.2.map (·.2))

/-- A mesh with a single point comes back with a vector of coordinates instead of an array of
points (and cannot be read at all in the plane). -/
theorem C37_false : ¬ C37_statement := by
  intro h
  obtain ⟨s, hs, m, hm, hp, -⟩ := h [[1, 2, 3]] 3 [] (by decide) (by simp) (by simp)
  have e : (match write FloatIO.int [] (0 : Int) 3 [[1, 2, 3]] [] [] none with
    | .ok s => (match Netgen.read FloatIO.int s with
      | .ok m => decide (m.points = .flat [1, 2, 3])
      | .error _ => false)
    | .error _ => false) = true := by decide +kernel
  rw [hs] at e
  simp only at e
  rw [hm] at e
  simp only [decide_eq_true_eq] at e
  rw [hp] at e
  exact absurd e (by simp)

/-- The same mesh in the plane: the reader fails with an IndexError. -/
theorem C37_single_point_plane_false :
    ∃ s, write FloatIO.int [] (0 : Int) 2 [[1, 2]] [] [] none = .ok s ∧
      Netgen.read FloatIO.int s = .error .indexError := by
  refine ⟨_, rfl, ?_⟩
  decide +kernel

theorem nameOf_mem (data : List (Int × String)) (i : Int) (h : nameOf data i ≠ "") : (i, nameOf data i) ∈ data := by
  unfold nameOf at *
  cases hl : (data.filter (fun d => d.1 = i)).getLast? with
  | none => rw [hl] at h; exact absurd rfl h
  | some x =>
    have hx := List.mem_of_getLast? hl
    rw [List.mem_filter] at hx
    simp only [Option.map_some, Option.getD_some]
    have : x.1 = i := by simpa using hx.2
    rw [← this]
    exact hx.1

theorem nameOf_eq (data : List (Int × String)) (hf : ∀ x ∈ data, ∀ y ∈ data, x.1 = y.1 → x.2 = y.2)
    (hne : ∀ x ∈ data, x.2 ≠ "") (i : Int) (name : String) : (i, name) ∈ data ↔ nameOf data i = name ∧ name ≠ "" := by
  constructor
  · intro h
    have h0 : nameOf data i ≠ "" := by
      unfold nameOf
      cases hl : (data.filter (fun d => d.1 = i)).getLast? with
      | none =>
        rw [List.getLast?_eq_none_iff] at hl
        have : (i, name) ∈ data.filter (fun d => d.1 = i) := List.mem_filter.mpr ⟨h, by simp⟩
        rw [hl] at this
        simp at this
      | some x => exact hne x (List.mem_filter.mp (List.mem_of_getLast? hl)).1
    exact ⟨hf _ (nameOf_mem data i h0) _ h rfl, hne _ h⟩
  · rintro ⟨rfl, h⟩
    exact nameOf_mem data i h

theorem le_maxKey (data : List (Int × String)) (x : Int × String) (hx : x ∈ data) : x.1 ≤ maxKey data := by
  have : ∀ (l : List Int) (a : Int), a ≤ l.foldl max a ∧ ∀ z ∈ l, z ≤ l.foldl max a := by
    intro l
    induction l with
    | nil => simp
    | cons b l ih =>
      intro a
      obtain ⟨h1, h2⟩ := ih (max a b)
      simp only [List.foldl_cons]
      refine ⟨by omega, fun z hz => ?_⟩
      rcases List.mem_cons.mp hz with rfl | hz
      · omega
      · exact h2 z hz
  exact (this _ _).2 _ (List.mem_map.mpr ⟨x, hx, rfl⟩)

theorem get?_setAll (es : Dict (Int × Int)) (hf : ∀ a ∈ es, ∀ b ∈ es, a.1 = b.1 → a.2 = b.2) (d : Dict (Int × Int))
    (k : String) (v : Int × Int) :
    Dict.get? (setAll d es) k = some v ↔ (k, v) ∈ es ∨ ((∀ e ∈ es, e.1 ≠ k) ∧ Dict.get? d k = some v) := by
  induction es generalizing d with
  | nil => simp [setAll]
  | cons e es ih =>
    have hs : setAll d (e :: es) = setAll (Dict.set d e.1 e.2) es := rfl
    rw [hs, ih (fun a ha b hb => hf a (by simp [ha]) b (by simp [hb])), Dict.get?_set]
    by_cases hk : k = e.1
    · rw [if_pos hk]
      constructor
      · rintro (h | ⟨_, h⟩)
        · exact .inl (by simp [h])
        · cases h
          exact .inl (by rw [hk]; simp)
      · rintro (h | ⟨h, _⟩)
        · rcases List.mem_cons.mp h with h | h
          · by_cases hx : ∃ e ∈ es, e.1 = k
            case neg => exact .inr ⟨fun e he hek => hx ⟨e, he, hek⟩, by rw [← h]⟩
            case pos =>
              obtain ⟨e', he', hk'⟩ := hx
              have := hf e (by simp) e' (by simp [he']) (by rw [hk', hk])
              left
              rw [show (k, v) = e' by
                rw [← h] at this
                exact Prod.ext hk'.symm this]
              exact he'
          · exact .inl h
        · exact absurd hk.symm (h e (by simp))
    · rw [if_neg hk]
      constructor
      · rintro (h | ⟨h, h'⟩)
        · exact .inl (by simp [h])
        · refine .inr ⟨fun e' he' => ?_, h'⟩
          rcases List.mem_cons.mp he' with rfl | he'
          · exact fun h => hk h.symm
          · exact h e' he'
      · rintro (h | ⟨h, h'⟩)
        · rcases List.mem_cons.mp h with h | h
          · exact absurd (by rw [← h]) hk
          · exact .inl h
        · exact .inr ⟨fun e' he' => h e' (by simp [he']), h'⟩

/-- The names that come back, in terms of the table of names of each codimension. -/
theorem names_spec (fields : Dict (Int × Int)) (bs : List Block) (dim : Nat)
    (hne : ∀ c ≤ dim, ∀ x ∈ codimData fields bs dim c, x.2 ≠ "")
    (hfun : ∀ c ≤ dim, ∀ x ∈ codimData fields bs dim c, ∀ y ∈ codimData fields bs dim c, x.1 = y.1 → x.2 = y.2)
    (hinj : ∀ c ≤ dim, ∀ c' ≤ dim, ∀ x ∈ codimData fields bs dim c, ∀ y ∈ codimData fields bs dim c',
      x.2 = y.2 → c = c' ∧ x.1 = y.1) (name : String) (i e : Int) :
    Dict.get? (setAll [] (allEntries fields bs dim)) name = some (i, e) ↔
      ∃ c ≤ dim, e = (dim : Int) - c ∧ 1 ≤ i ∧ (i, name) ∈ codimData fields bs dim c := by
  have hmem : ∀ (name : String) (i e : Int), (name, (i, e)) ∈ allEntries fields bs dim ↔
      ∃ c ≤ dim, e = (dim : Int) - c ∧ 1 ≤ i ∧ (i, name) ∈ codimData fields bs dim c := by
    intro name i e
    unfold allEntries codimEntries nameEntries
    rw [List.mem_flatMap]
    constructor
    · rintro ⟨c, hc, h⟩
      rw [List.mem_range] at hc
      obtain ⟨j, hj, h⟩ := List.mem_filterMap.mp h
      split at h
      · simp at h
      · next h0 =>
        simp only [Option.some.injEq, Prod.mk.injEq] at h
        obtain ⟨h1, h2, h3⟩ := h
        refine ⟨c, by omega, h3.symm, by omega, ?_⟩
        rw [nameOf_eq _ (hfun c (by omega)) (hne c (by omega))]
        rw [← h2]
        exact ⟨h1, h1 ▸ h0⟩
    · rintro ⟨c, hc, he, hi, h⟩
      refine ⟨c, List.mem_range.mpr (by omega), ?_⟩
      have hle := le_maxKey _ _ h
      simp only at hle
      have hn := (nameOf_eq _ (hfun c hc) (hne c hc) i name).mp h
      refine List.mem_filterMap.mpr ⟨i.toNat - 1, ?_, ?_⟩
      · rw [List.mem_range']
        exact ⟨i.toNat - 1, by omega, by omega⟩
      · have : (((i.toNat - 1 : Nat) : Int) + 1) = i := by omega
        rw [this, hn.1, if_neg hn.2, he]
  rw [get?_setAll]
  · simp only [Dict.get?_nil, reduceCtorEq, and_false, or_false]
    exact hmem name i e
  · rintro ⟨n1, i1, e1⟩ h1 ⟨n2, i2, e2⟩ h2 hn
    simp only at hn
    subst hn
    obtain ⟨c1, hc1, rfl, _, h1⟩ := (hmem _ _ _).mp h1
    obtain ⟨c2, hc2, rfl, _, h2⟩ := (hmem _ _ _).mp h2
    obtain ⟨rfl, h⟩ := hinj c1 hc1 c2 hc2 _ h1 _ h2 rfl
    simp only at h
    rw [h]

theorem mem_codimData {fields : Dict (Int × Int)} {bs : List Block} {dim c : Nat} {x : Int × String}
    (h : x ∈ codimData fields bs dim c) :
    (x.2, (x.1, (dim : Int) - c)) ∈ fields ∨
      ((∀ f ∈ fields, f.2.2 ≠ (dim : Int) - c) ∧ x.2 = String.ofList ("cd".toList ++ (fmtNat c ++ '_' :: fmtInt x.1)) ∧
        ∃ b ∈ bs, b.dim = some (dim - c) ∧ x.1 ∈ b.index.getD []) := by
  unfold codimData at h
  split at h
  · next h0 =>
    right
    obtain ⟨i, hi, rfl⟩ := List.mem_map.mp h
    obtain ⟨b, hb, hi⟩ := List.mem_flatMap.mp hi
    rw [List.mem_filter] at hb
    refine ⟨fun f hf he => ?_, rfl, b, hb.1, by simpa using hb.2, hi⟩
    rw [List.map_eq_nil_iff, List.filter_eq_nil_iff] at h0
    exact h0 f hf (by simpa using he)
  · next h0 =>
    left
    obtain ⟨f, hf, rfl⟩ := List.mem_map.mp h
    rw [List.mem_filter] at hf
    have : f.2.2 = (dim : Int) - c := by simpa using hf.2
    rw [← this]
    exact hf.1

theorem codimData_named {fields : Dict (Int × Int)} {bs : List Block} {dim c : Nat} {i : Int} {name : String}
    (h : (name, (i, (dim : Int) - c)) ∈ fields) : (i, name) ∈ codimData fields bs dim c := by
  unfold codimData
  have hm : (i, name) ∈ (fields.filter (fun f => f.2.2 = (dim : Int) - c)).map (fun f => (f.2.1, f.1)) :=
    List.mem_map.mpr ⟨_, List.mem_filter.mpr ⟨h, by simp⟩, rfl⟩
  split
  · next h0 => rw [h0] at hm; simp at hm
  · exact hm

theorem codimData_default {bs : List Block} {dim c : Nat} {i : Int} (b : Block) (hb : b ∈ bs)
    (hd : b.dim = some (dim - c)) (hi : i ∈ b.index.getD []) :
    (i, String.ofList ("cd".toList ++ (fmtNat c ++ '_' :: fmtInt i))) ∈ codimData [] bs dim c := by
  unfold codimData
  exact List.mem_map.mpr ⟨i, List.mem_flatMap.mpr ⟨b, List.mem_filter.mpr ⟨hb, by simp [hd]⟩, hi⟩, rfl⟩

theorem isTok_default (c : Nat) (i : Int) :
    IsTok (String.ofList ("cd".toList ++ (fmtNat c ++ '_' :: fmtInt i))).toList := by
  rw [String.toList_ofList]
  refine ⟨by simp, fun x hx => ?_⟩
  rcases List.mem_append.mp hx with hx | hx
  · have : ∀ x ∈ "cd".toList, isWs x = false := by decide
    exact this x hx
  · rcases List.mem_append.mp hx with hx | hx
    · exact (isTok_fmtNat c).2 x hx
    · rcases List.mem_cons.mp hx with rfl | hx
      · decide
      · exact (isTok_fmtInt i).2 x hx

theorem codim_names_tok {fields : Dict (Int × Int)} (hn : ∀ f ∈ fields, IsTok f.1.toList) (bs : List Block)
    (dim c : Nat) (x : Int × String) (h : x ∈ codimData fields bs dim c) : IsTok x.2.toList := by
  rcases mem_codimData h with h | ⟨_, h, _⟩
  · exact hn _ h
  · rw [h]
    exact isTok_default c x.1

/-- C37 for meshes without or with at least two points: the points come back (points in the plane
without the third coordinate), every cell with its nodes in the order of the mesh and with its
region index, in the order of the sections, and the identified points. -/
theorem C37_roundtrip_partial (fio : FloatIO F) (hf : ∀ x, '#' ∉ fio.fmt x) (version : List Char)
    (hv : '\n' ∉ version) (zero : F) (dim : Nat) (hd : dim ≤ 3) (pts : List (List F)) (h1 : pts.length ≠ 1)
    (hp : ∀ p ∈ pts, p.length = dim) (bs : List Block) (hb : ∀ b ∈ bs, b.Ok) (fields : Dict (Int × Int))
    (hn : ∀ f ∈ fields, IsTok f.1.toList) (info : Option (List (List Int) × List Int))
    (hi : ∀ i, info = some i → i.1 ≠ [] ∧ (∀ r ∈ i.1, r.length = 3) ∧ i.2 ≠ []) :
    ∃ s m, write fio version zero dim pts bs fields info = .ok s ∧ Netgen.read fio s = .ok m ∧
      m.points = .rows pts ∧
      m.cells = (groupRuns (netgenCells bs)).map (fun b => (b.1, b.2.map (·.1))) ∧
      m.index = (groupRuns (netgenCells bs)).map (fun b => b.2.map (·.2)) ∧
      m.info = info.map (fun i => (i.1, some i.2)) := by
  obtain ⟨s, hw, hr⟩ := read_written fio hf version hv zero dim hd pts h1 hp bs hb fields (fun c _ i h0 =>
    codim_names_tok hn bs dim c _ (nameOf_mem _ _ h0)) info hi
  exact ⟨s, _, hw, hr, rfl, rfl, rfl, rfl⟩

/-- Blocks that already stand in the order of the sections, without neighbours of the same type,
without empty blocks and with region indices, come back as they are. -/
theorem C37_blocks_partial (fio : FloatIO F) (hf : ∀ x, '#' ∉ fio.fmt x) (version : List Char)
    (hv : '\n' ∉ version) (zero : F) (dim : Nat) (hd : dim ≤ 3) (pts : List (List F)) (h1 : pts.length ≠ 1)
    (hp : ∀ p ∈ pts, p.length = dim) (b2 b3 b1 b0 : List Block)
    (h2 : ∀ b ∈ b2, b.dim = some 2) (h3 : ∀ b ∈ b3, b.dim = some 3) (h1' : ∀ b ∈ b1, b.dim = some 1)
    (h0 : ∀ b ∈ b0, b.dim = some 0) (hb : ∀ b ∈ b2 ++ (b3 ++ (b1 ++ b0)), b.Ok ∧ b.rows ≠ [] ∧ b.index.isSome)
    (hd' : ∀ pre a b post, b2 ++ (b3 ++ (b1 ++ b0)) = pre ++ a :: b :: post → a.type ≠ b.type) :
    ∃ s m, write fio version zero dim pts (b2 ++ (b3 ++ (b1 ++ b0))) [] none = .ok s ∧ Netgen.read fio s = .ok m ∧
      m.points = .rows pts ∧ m.cells = (b2 ++ (b3 ++ (b1 ++ b0))).map (fun b => (b.type, b.rows)) ∧
      m.index.map some = (b2 ++ (b3 ++ (b1 ++ b0))).map (·.index) := by
  obtain ⟨s, m, hw, hr, hpt, hc, hx, -⟩ := C37_roundtrip_partial fio hf version hv zero dim hd pts h1 hp
    (b2 ++ (b3 ++ (b1 ++ b0))) (fun b h => (hb b h).1) [] (by simp) none (by simp)
  refine ⟨s, m, hw, hr, hpt, ?_⟩
  have hsel : ∀ (l : List Block) (d d' : Nat), (∀ b ∈ l, b.dim = some d) →
      l.filter (fun b => topologicalDimension.get? b.type == some d') = if d = d' then l else [] := by
    intro l d d' h
    split
    · next e =>
      rw [List.filter_eq_self]
      intro b hbm
      have := h b hbm
      rw [Block.dim] at this
      rw [this, e]
      simp
    · next e =>
      rw [List.filter_eq_nil_iff]
      intro b hbm
      have := h b hbm
      rw [Block.dim] at this
      rw [this]
      simpa using e
  have hcells : netgenCells (b2 ++ (b3 ++ (b1 ++ b0))) =
      rowsOf ((b2 ++ (b3 ++ (b1 ++ b0))).map (fun b => (b.type, b.rows.zip (b.index.getD [])))) := by
    unfold netgenCells
    have : ∀ d, (b2 ++ (b3 ++ (b1 ++ b0))).filter (fun b => topologicalDimension.get? b.type == some d) =
        (if 2 = d then b2 else []) ++ ((if 3 = d then b3 else []) ++ ((if 1 = d then b1 else []) ++
          (if 0 = d then b0 else []))) := by
      intro d
      rw [List.filter_append, List.filter_append, List.filter_append, hsel b2 2 d h2, hsel b3 3 d h3,
        hsel b1 1 d h1', hsel b0 0 d h0]
    simp only [List.flatMap_cons, List.flatMap_nil, this]
    have hif : ∀ (a b : Nat) (l : List Block), a ≠ b → (if a = b then l else []) = [] := fun a b l h => if_neg h
    simp only [if_true, hif 2 3 _ (by decide), hif 2 1 _ (by decide), hif 2 0 _ (by decide), hif 3 2 _ (by decide),
      hif 3 1 _ (by decide), hif 3 0 _ (by decide), hif 1 2 _ (by decide), hif 1 3 _ (by decide), hif 1 0 _ (by decide),
      hif 0 2 _ (by decide), hif 0 3 _ (by decide), hif 0 1 _ (by decide), List.nil_append, List.append_nil]
    rw [← List.flatMap_append, ← List.flatMap_append, ← List.flatMap_append]
    unfold rowsOf
    rw [List.flatMap_map]
    apply flatMap_congr'
    intro b hbm
    obtain ⟨l, hl⟩ := Option.isSome_iff_exists.mp (hb b hbm).2.2
    rw [hl]
    rfl
  have hruns : groupRuns (netgenCells (b2 ++ (b3 ++ (b1 ++ b0)))) =
      (b2 ++ (b3 ++ (b1 ++ b0))).map (fun b => (b.type, b.rows.zip (b.index.getD []))) := by
    rw [hcells]
    apply groupRuns_rowsOf
    · intro x hxm
      obtain ⟨b, hbm, rfl⟩ := List.mem_map.mp hxm
      obtain ⟨hok, hne, his⟩ := hb b hbm
      obtain ⟨l, hl⟩ := Option.isSome_iff_exists.mp his
      have hlen := (hok.2.2.2 l hl).1
      simp only [hl, Option.getD_some]
      intro hz
      have := congrArg List.length hz
      simp only [List.length_zip, hlen, Nat.min_self, List.length_nil] at this
      exact hne (List.length_eq_zero_iff.mp this)
    · intro pre a b post e
      obtain ⟨p', r', hpr, hp', hr'⟩ := List.map_eq_append_iff.mp e
      obtain ⟨a', r'', rfl, ha', hr''⟩ := List.map_eq_cons_iff.mp hr'
      obtain ⟨b', q', rfl, hb', -⟩ := List.map_eq_cons_iff.mp hr''
      have := hd' p' a' b' q' hpr
      rw [← ha', ← hb']
      exact this
  rw [hc, hx, hruns, List.map_map, List.map_map, List.map_map]
  constructor
  · apply List.map_congr_left
    intro b hbm
    obtain ⟨hok, hne, his⟩ := hb b hbm
    obtain ⟨l, hl⟩ := Option.isSome_iff_exists.mp his
    have hlen := (hok.2.2.2 l hl).1
    simp only [Function.comp_apply, hl, Option.getD_some, Prod.mk.injEq, true_and]
    exact List.map_fst_zip (by omega)
  · apply List.map_congr_left
    intro b hbm
    obtain ⟨hok, hne, his⟩ := hb b hbm
    obtain ⟨l, hl⟩ := Option.isSome_iff_exists.mp his
    have hlen := (hok.2.2.2 l hl).1
    simp only [Function.comp_apply, hl, Option.getD_some, Option.some.injEq]
    exact List.map_snd_zip (by omega)

/-- Names of regions: if every dimension in which cells carry an index has a name in the mesh,
exactly the names of the mesh come back, each with its number and dimension. -/
theorem C37_names_partial (fio : FloatIO F) (hf : ∀ x, '#' ∉ fio.fmt x) (version : List Char)
    (hv : '\n' ∉ version) (zero : F) (dim : Nat) (hd : dim ≤ 3) (pts : List (List F)) (h1 : pts.length ≠ 1)
    (hp : ∀ p ∈ pts, p.length = dim) (bs : List Block) (hb : ∀ b ∈ bs, b.Ok) (fields : Dict (Int × Int))
    (hok : fields.Ok) (hn : ∀ f ∈ fields, IsTok f.1.toList)
    (hr : ∀ f ∈ fields, 1 ≤ f.2.1 ∧ 0 ≤ f.2.2 ∧ f.2.2 ≤ dim)
    (hu : ∀ f ∈ fields, ∀ g ∈ fields, f.2 = g.2 → f.1 = g.1)
    (hg : ∀ b ∈ bs, ∀ d : Nat, b.dim = some d → d ≤ dim → b.index.getD [] ≠ [] → ∃ f ∈ fields, f.2.2 = (d : Int)) :
    ∃ s m, write fio version zero dim pts bs fields none = .ok s ∧ Netgen.read fio s = .ok m ∧
      ∀ name, Dict.get? m.fields name = Dict.get? fields name := by
  obtain ⟨s, hw, hrd⟩ := read_written fio hf version hv zero dim hd pts h1 hp bs hb fields (fun c _ i h0 =>
    codim_names_tok hn bs dim c _ (nameOf_mem _ _ h0)) none (by simp)
  refine ⟨s, _, hw, hrd, fun name => ?_⟩
  have hmem : ∀ c ≤ dim, ∀ x, x ∈ codimData fields bs dim c ↔ (x.2, (x.1, (dim : Int) - c)) ∈ fields := by
    intro c hc x
    constructor
    · intro h
      rcases mem_codimData h with h | ⟨h0, _, b, hbm, hbd, hbi⟩
      · exact h
      · obtain ⟨f, hfm, hfe⟩ := hg b hbm _ hbd (by omega) (List.ne_nil_of_mem hbi)
        exact absurd (by rw [hfe]; omega) (h0 f hfm)
    · exact codimData_named
  have spec := names_spec fields bs dim
    (fun c hc x hx he => by
      have := (hn _ ((hmem c hc x).mp hx)).1
      rw [he] at this
      exact this rfl)
    (fun c hc x hx y hy he => by
      exact hu _ ((hmem c hc x).mp hx) _ ((hmem c hc y).mp hy) (by simp [he]))
    (fun c hc c' hc' x hx y hy he => by
      have hx := Dict.get?_of_mem hok ((hmem c hc x).mp hx)
      have hy := Dict.get?_of_mem hok ((hmem c' hc' y).mp hy)
      rw [he, hy] at hx
      simp only [Option.some.injEq, Prod.mk.injEq] at hx
      exact ⟨by omega, hx.1.symm⟩) name
  apply Option.ext
  rintro ⟨i, e⟩
  rw [spec i e]
  constructor
  · rintro ⟨c, hc, rfl, _, h⟩
    exact Dict.get?_of_mem hok ((hmem c hc _).mp h)
  · intro h
    have hm := Dict.mem_of_get? h
    have hb := hr _ hm
    simp only at hb
    refine ⟨dim - e.toNat, by omega, by omega, hb.1, ?_⟩
    rw [hmem _ (by omega)]
    simp only
    rw [show ((dim : Int) - ((dim - e.toNat : Nat) : Int)) = e by omega]
    exact hm

/-- Without names in the mesh the file gets names `cd<codimension>_<index>` for all positive
indices in use, and these come back as field data the mesh did not have. -/
theorem C37_default_names (fio : FloatIO F) (hf : ∀ x, '#' ∉ fio.fmt x) (version : List Char)
    (hv : '\n' ∉ version) (zero : F) (dim : Nat) (hd : dim ≤ 3) (pts : List (List F)) (h1 : pts.length ≠ 1)
    (hp : ∀ p ∈ pts, p.length = dim) (bs : List Block) (hb : ∀ b ∈ bs, b.Ok) :
    ∃ s m, write fio version zero dim pts bs [] none = .ok s ∧ Netgen.read fio s = .ok m ∧
      ∀ name i e, Dict.get? m.fields name = some (i, e) ↔
        ∃ c ≤ dim, e = (dim : Int) - c ∧ 1 ≤ i ∧ name.toList = "cd".toList ++ (fmtNat c ++ '_' :: fmtInt i) ∧
          ∃ b ∈ bs, b.dim = some (dim - c) ∧ ∃ l, b.index = some l ∧ i ∈ l := by
  obtain ⟨s, hw, hrd⟩ := read_written fio hf version hv zero dim hd pts h1 hp bs hb [] (fun c _ i h0 =>
    codim_names_tok (by simp) bs dim c _ (nameOf_mem _ _ h0)) none (by simp)
  refine ⟨s, _, hw, hrd, fun name i e => ?_⟩
  have hmem : ∀ c, ∀ x, x ∈ codimData [] bs dim c ↔
      x.2.toList = "cd".toList ++ (fmtNat c ++ '_' :: fmtInt x.1) ∧
        ∃ b ∈ bs, b.dim = some (dim - c) ∧ ∃ l, b.index = some l ∧ x.1 ∈ l := by
    intro c x
    constructor
    · intro h
      rcases mem_codimData h with h | ⟨_, h, b, hbm, hbd, hbi⟩
      · simp at h
      · refine ⟨by rw [h, String.toList_ofList], b, hbm, hbd, ?_⟩
        cases hx : b.index with
        | none => rw [hx] at hbi; simp at hbi
        | some l => rw [hx] at hbi; exact ⟨l, rfl, hbi⟩
    · rintro ⟨h, b, hbm, hbd, l, hl, hil⟩
      have := codimData_default (bs := bs) (dim := dim) (c := c) (i := x.1) b hbm hbd (by rw [hl]; exact hil)
      rw [← h, String.ofList_toList] at this
      exact this
  have inj : ∀ c c' : Nat, ∀ i i' : Int, "cd".toList ++ (fmtNat c ++ '_' :: fmtInt i) =
      "cd".toList ++ (fmtNat c' ++ '_' :: fmtInt i') → c = c' ∧ i = i' := by
    intro c c' i i' h
    have h := List.append_cancel_left h
    have hs := congrArg (splitOnC '_') h
    have hun : ∀ z : Int, '_' ∉ fmtInt z := fun z => not_mem_fmtInt (by decide) (by decide) z
    have sp : ∀ (c : Nat) (i : Int), splitOnC '_' (fmtNat c ++ '_' :: fmtInt i) = [fmtNat c, fmtInt i] := by
      intro c i
      have := splitOnC_joinWith '_' [fmtNat c, fmtInt i] (by simp) (by
        intro x hx
        rcases List.mem_cons.mp hx with rfl | hx
        · exact hun (c : Int)
        · simp only [List.mem_singleton] at hx
          subst hx
          exact hun i)
      simpa [joinWith] using this
    rw [sp, sp] at hs
    simp only [List.cons.injEq, and_true] at hs
    refine ⟨?_, ?_⟩
    · have h1 := parseInt_fmtInt (c : Int)
      have h2 := parseInt_fmtInt (c' : Int)
      have : fmtInt (c : Int) = fmtInt (c' : Int) := hs.1
      rw [this, h2] at h1
      simp only [Option.some.injEq] at h1
      omega
    · have h1 := parseInt_fmtInt i
      rw [hs.2, parseInt_fmtInt] at h1
      simp at h1
      exact h1.symm
  rw [names_spec [] bs dim]
  · constructor
    · rintro ⟨c, hc, he, hi, h⟩
      have := (hmem c _).mp h
      exact ⟨c, hc, he, hi, this⟩
    · rintro ⟨c, hc, he, hi, h⟩
      exact ⟨c, hc, he, hi, (hmem c _).mpr h⟩
  · intro c _ x hx he
    have := (codim_names_tok (fields := []) (by simp) bs dim c x hx).1
    rw [he] at this
    exact this rfl
  · intro c _ x hx y hy he
    have h1 := ((hmem c x).mp hx).1
    have h2 := ((hmem c y).mp hy).1
    rw [he, ← h2] at h1
    exact String.toList_inj.mp h1
  · intro c _ c' _ x hx y hy he
    have h1 := ((hmem c x).mp hx).1
    have h2 := ((hmem c' y).mp hy).1
    rw [he, h2] at h1
    obtain ⟨h3, h4⟩ := inj _ _ _ _ h1
    exact ⟨h3.symm, h4.symm⟩

/-! ### The contents of the file -/

/-- The line of a cell: the position of the region index and the node numbers (from 1, in the
order of Netgen) depends on the dimension. -/
def netgenRow (d : Nat) (index : Int) (nodes : List Int) : List Int :=
  match d with
  | 0 => nodes ++ [index]
  | 1 => [index, 0] ++ nodes ++ [-1, -1, 0, 0, 1, 0, 1, 0]
  | 2 => [1, index, 0, 0, (nodes.length : Int)] ++ nodes
  | _ => [index, (nodes.length : Int)] ++ nodes

/-- A section consists of a blank line, a comment, its title, the number of cells and one line
per cell of that dimension. -/
theorem C37_section (comment title : String) (d : Nat) (bs : List Block) (hb : ∀ b ∈ bs, b.Ok) :
    ∃ lines, sectionLines comment title d bs = .ok ([[], comment.toList, title.toList, fmtNat lines.length] ++ lines) ∧
      lines = (netgenCells (bs.filter (fun b => b.dim == some d))).map (fun c =>
        joinWith ' ' ((netgenRow d c.2.2 ((match reorderStrict netgenIPmap c.1 c.2.1 with
          | .ok s => s
          | .error _ => []).map (· + 1))).map fmtInt)) := by
  have hdim : ∀ b ∈ bs, ∃ d, b.dim = some d ∧ d ≤ 3 := by
    intro b hbm
    obtain ⟨h1, h2, _, _⟩ := hb b hbm
    obtain ⟨p, hp⟩ := Option.isSome_iff_exists.mp h1
    obtain ⟨d, hd⟩ := Option.isSome_iff_exists.mp h2
    exact ⟨d, hd, (table_facts b.type p hp d hd).2.1⟩
  refine ⟨(cellsOfDim bs d).map (cellLine d), ?_, ?_⟩
  · rw [sectionLines_eq comment title d bs hb, List.length_map]
  · have e : netgenCells (bs.filter (fun b => b.dim == some d)) = cellsOfDim bs d := by
      rw [netgenCells_eq]
      have hd' : ∀ d', cellsOfDim (bs.filter (fun b => b.dim == some d)) d' = if d' = d then cellsOfDim bs d else [] := by
        intro d'
        unfold cellsOfDim
        rw [List.filter_filter]
        split
        · next h =>
          subst h
          congr 1
          apply List.filter_congr
          simp
        · next h =>
          rw [List.filter_eq_nil_iff.mpr]
          · rfl
          · intro b _ hc
            simp only [Bool.and_eq_true, beq_iff_eq] at hc
            rw [hc.1] at hc
            exact h (Option.some.inj hc.2)
      simp only [List.flatMap_cons, List.flatMap_nil, hd', List.append_nil]
      by_cases hd3 : d ≤ 3
      · rcases (show d = 0 ∨ d = 1 ∨ d = 2 ∨ d = 3 by omega) with rfl | rfl | rfl | rfl <;> simp
      · rw [if_neg (by omega), if_neg (by omega), if_neg (by omega), if_neg (by omega)]
        simp only [List.append_nil]
        unfold cellsOfDim
        rw [List.filter_eq_nil_iff.mpr]
        · rfl
        · intro b hbm hc
          obtain ⟨d', h1, h2⟩ := hdim b hbm
          rw [h1] at hc
          simp only [beq_iff_eq, Option.some.injEq] at hc
          omega
    rw [e]
    apply List.map_congr_left
    intro c hc
    unfold cellLine
    congr 2
    have : fileNodes c.1 c.2.1 = (match reorderStrict netgenIPmap c.1 c.2.1 with
          | .ok s => s
          | .error _ => []).map (· + 1) := rfl
    rw [this]
    generalize (match reorderStrict netgenIPmap c.1 c.2.1 with
          | .ok s => s
          | .error _ => []).map (· + 1) = nodes
    match d with
    | 0 => rfl
    | 1 => simp [tableRow, netgenRow]
    | 2 => rfl
    | _ + 3 => simp [tableRow, netgenRow]

/-- A file whose first line that is not blank or a comment is not `mesh3d` is rejected. -/
theorem C37_rejects_header (fio : FloatIO F) (s : List Char) (h : (fastForward (fileLines s)).1 ≠ some "mesh3d".toList) :
    Netgen.read fio s = .error .runtimeError := by
  unfold Netgen.read
  simp only
  rw [if_pos h]

/-- A section with an unknown title is rejected. -/
theorem C37_rejects_section (fio : FloatIO F) (t : List Char) (ls : List (List Char)) (st : St F)
    (ht : t ∉ ["dimension".toList, "geomtype".toList, "points".toList, "pointelements".toList, "edgesegments".toList,
      "edgesegmentsgi".toList, "edgesegmentsgi2".toList, "surfaceelements".toList, "surfaceelementsgi".toList,
      "surfaceelementsuv".toList, "volumeelements".toList, "materials".toList, "bcnames".toList, "cd2names".toList,
      "cd3names".toList, "identifications".toList, "identificationtypes".toList, "face_colours".toList,
      "singular_edge_left".toList, "singular_edge_right".toList, "singular_face_inside".toList,
      "singular_face_outside".toList, "singular_points".toList])
    (hs : splitWs t ≠ ["surf1".toList, "surf2".toList, "p1".toList, "p2".toList]) :
    step fio t ls st = .error .runtimeError := by
  simp only [List.mem_cons, List.not_mem_nil, or_false, not_or] at ht
  obtain ⟨h1, h2, h3, h4, h5, h6, h7, h8, h9, h10, h11, h12, h13, h14, h15, h16, h17, h18, h19, h20, h21, h22, h23⟩ := ht
  unfold step
  rw [if_neg h1, if_neg h2, if_neg h3]
  have : sectionOf t = none := by
    unfold sectionOf
    rw [if_neg h4, if_neg (not_or.mpr ⟨h5, not_or.mpr ⟨h6, h7⟩⟩), if_neg (not_or.mpr ⟨h8, not_or.mpr ⟨h9, h10⟩⟩), if_neg h11]
  simp only [this]
  rw [if_neg hs, if_neg (by
      simp only [codimNames, List.mem_cons, List.not_mem_nil, or_false, not_or]
      exact ⟨h12, h13, h14, h15⟩), if_neg h16, if_neg h17,
    if_neg (by
      simp only [skippedSections, List.mem_cons, List.not_mem_nil, or_false, not_or]
      exact ⟨h18, h19, h20, h21, h22, h23⟩)]

/-! ### Which data becomes the region index -/

/-- `netgen:index` if the mesh has it, else the first integer data, else none. -/
theorem C37_index_choice (cd : List (String × Bool × List (List Int))) :
    (∀ d, cd.find? (fun d => d.1 = "netgen:index") = some d → pickIndex cd = some d.2.2) ∧
    ((∀ d ∈ cd, d.1 ≠ "netgen:index") →
      (∀ pre d post, cd = pre ++ d :: post → d.2.1 = true → (∀ x ∈ pre, x.2.1 = false) → pickIndex cd = some d.2.2) ∧
      ((∀ d ∈ cd, d.2.1 = false) → pickIndex cd = none)) := by
  refine ⟨fun d h => by unfold pickIndex; rw [h], fun hno => ?_⟩
  have h0 : cd.find? (fun d => d.1 = "netgen:index") = none := by
    rw [List.find?_eq_none]
    intro d hd
    simpa using hno d hd
  constructor
  · intro pre d post e hd hpre
    unfold pickIndex
    rw [h0]
    simp only
    rw [e, List.find?_append, List.find?_eq_none.mpr (by intro x hx; simp [hpre x hx]), List.find?_cons, hd]
    rfl
  · intro h
    unfold pickIndex
    rw [h0]
    simp only
    rw [List.find?_eq_none.mpr (by intro x hx; simp [h x hx])]
    rfl

/-! ### A concrete mesh -/

/-- Two tetrahedra and two triangles with indices, and a line without. -/
def exBlocks : List Block :=
  [⟨"tetra", [[0, 1, 2, 3], [1, 2, 3, 4]], some [1, 2]⟩, ⟨"triangle", [[0, 1, 2], [1, 2, 3]], some [5, 6]⟩,
   ⟨"line", [[0, 1]], none⟩]

example : (∀ b ∈ exBlocks, (find netgenIPmap b.type).isSome ∧ b.dim.isSome ∧
    (∀ r ∈ b.rows, (∀ n ∈ numNodesPerCell.get? b.type, r.length = n) ∧ ∀ z ∈ r, 0 ≤ z ∧ IsInt 4 (z + 1)) ∧
    ∀ l ∈ b.index, l.length = b.rows.length ∧ ∀ i ∈ l, IsInt 4 i) := by decide +kernel

/-- The volumes come back after the surfaces, and the line with index 1. -/
example : ∃ s, write FloatIO.int "5".toList (0 : Int) 3 [[0, 0, 0], [1, 0, 0], [0, 1, 0], [0, 0, 1], [1, 1, 1]] exBlocks
      [("inner", (1, 3)), ("outer", (2, 3)), ("wall", (5, 2))] (some ([[1, 2, 1]], [4])) = .ok s ∧
    Netgen.read FloatIO.int s = .ok ⟨.rows [[0, 0, 0], [1, 0, 0], [0, 1, 0], [0, 0, 1], [1, 1, 1]],
      [("triangle", [[0, 1, 2], [1, 2, 3]]), ("tetra", [[0, 1, 2, 3], [1, 2, 3, 4]]), ("line", [[0, 1]])],
      [[5, 6], [1, 2], [1]], [("inner", (1, 3)), ("outer", (2, 3)), ("wall", (5, 2))], some ([[1, 2, 1]], some [4])⟩ := by
  refine ⟨_, rfl, ?_⟩
  decide +kernel

/-- Without names the file gets default names, which come back. -/
example : ∃ s, write FloatIO.int "5".toList (0 : Int) 2 [[0, 0], [1, 0], [0, 1]] [⟨"triangle", [[0, 1, 2]], some [2]⟩]
      [] none = .ok s ∧
    Netgen.read FloatIO.int s = .ok ⟨.rows [[0, 0], [1, 0], [0, 1]], [("triangle", [[0, 1, 2]])], [[2]],
      [("cd0_2", (2, 2))], none⟩ := by
  refine ⟨_, rfl, ?_⟩
  decide +kernel

end Meshio.Props
