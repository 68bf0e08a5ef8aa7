/-
Lemmas for the legacy VTK cell stream.
-/
import Verif.Model.VtkLegacy
import Verif.Proofs.Vtk
import Verif.Base.ListX
namespace Meshio.Vtk
open Meshio Meshio.Spec Meshio.Tables Meshio.Types

variable {R : Type}

/-- Positions of the cells in the stream. -/
def startsFrom : Nat → List VtkCell → List Int
  | _, [] => []
  | i, c :: cs => (i : Int) :: startsFrom (i + (c.2.length + 1)) cs

theorem startsFrom_append (i : Nat) (a b : List VtkCell) :
    startsFrom i (a ++ b) = startsFrom i a ++ startsFrom (i + (streamOf a).length) b := by
  induction a generalizing i with
  | nil => simp [startsFrom, streamOf]
  | cons c a ih =>
    have e : i + (streamOf (c :: a)).length = i + (c.2.length + 1) + (streamOf a).length := by
      simp [streamOf]; omega
    simp only [List.cons_append, startsFrom, ih, e]

theorem length_startsFrom (i : Nat) (a : List VtkCell) : (startsFrom i a).length = a.length := by
  induction a generalizing i with
  | nil => rfl
  | cons c a ih => simp [startsFrom, ih]

theorem cellStarts_eq (i : Nat) (cs : List VtkCell) :
    cellStarts i (cs.map (fun c => (c.2.length : Int))) = startsFrom i cs := by
  induction cs generalizing i with
  | nil => rfl
  | cons c cs ih =>
    simp only [List.map_cons, cellStarts, startsFrom]
    rw [← ih]
    congr 2

theorem stream_split (pre : List Int) (c : VtkCell) (cs : List VtkCell) (post : List Int) :
    pre ++ (streamOf (c :: cs) ++ post) =
      (pre ++ [(c.2.length : Int)]) ++ (c.2 ++ (streamOf cs ++ post)) := by
  simp [streamOf]

theorem counts_ok (cs : List VtkCell) (pre post : List Int) :
    mapRes (npIndex (pre ++ (streamOf cs ++ post))) (startsFrom pre.length cs) =
      .ok (cs.map (fun c => (c.2.length : Int))) := by
  induction cs generalizing pre with
  | nil => rfl
  | cons c cs ih =>
    simp only [startsFrom, mapRes]
    have h0 : npIndex (pre ++ (streamOf (c :: cs) ++ post)) (pre.length : Int) =
        .ok (c.2.length : Int) := by
      have := npIndex_append pre [(c.2.length : Int)] (c.2 ++ (streamOf cs ++ post)) 0 (by simp)
      simpa [streamOf] using this
    rw [h0]
    have e : pre ++ (streamOf (c :: cs) ++ post) =
        (pre ++ ((c.2.length : Int) :: c.2)) ++ (streamOf cs ++ post) := by simp [streamOf]
    have := ih (pre ++ ((c.2.length : Int) :: c.2))
    rw [List.length_append, List.length_cons] at this
    rw [e, this]
    simp

theorem stream_row (code : Nat) (pre nodes post : List Int) (h13 : code = 13 → nodes.length = 6) :
    mapRes (fun (j : Nat) => npIndex (pre ++ (nodes ++ post)) ((pre.length + j : Nat) : Int))
      (newOrder code nodes.length) = .ok (fromVtk code nodes) := by
  rw [← gatherRow_eq pre nodes post _ _ rfl]
  exact gather_row code pre nodes post h13

theorem streamRows_run (code n : Nat) (run : List VtkCell) (pre post : List Int)
    (hrun : ∀ c ∈ run, c.1 = code ∧ c.2.length = n) (h13 : code = 13 → n = 6) :
    mapRes (fun o => mapRes (fun (j : Nat) => npIndex (pre ++ (streamOf run ++ post)) (o + (1 + j)))
        (newOrder code n)) (startsFrom pre.length run) =
      .ok (run.map (fun c => fromVtk c.1 c.2)) := by
  induction run generalizing pre with
  | nil => rfl
  | cons c run ih =>
    obtain ⟨hc, hl⟩ := hrun c (by simp)
    simp only [startsFrom, mapRes]
    have h0 : mapRes (fun (j : Nat) => npIndex (pre ++ (streamOf (c :: run) ++ post))
        ((pre.length : Int) + (1 + (j : Int)))) (newOrder code n) = .ok (fromVtk code c.2) := by
      rw [stream_split]
      have := stream_row code (pre ++ [(c.2.length : Int)]) c.2 (streamOf run ++ post)
        (fun h => by rw [hl]; exact h13 h)
      rw [hl] at this ⊢
      rw [← this]
      congr 1
      funext j
      congr 1
      simp; omega
    rw [h0]
    have e : pre ++ (streamOf (c :: run) ++ post) =
        (pre ++ ((c.2.length : Int) :: c.2)) ++ (streamOf run ++ post) := by simp [streamOf]
    have := ih (pre ++ ((c.2.length : Int) :: c.2)) (fun d hd => hrun d (by simp [hd]))
    rw [List.length_append, List.length_cons] at this
    rw [e, this]
    simp [hc]

theorem fixed_name {c : VtkCell} (h : FixedCell c) : ∃ t, vtkName c.1 = some t := by
  have k : ∀ i ∈ List.range vtkNumNodes.length,
      (∃ n ∈ vtkNumNodes[i]?, 0 < n) → (vtkName i).isSome := by decide +kernel
  obtain ⟨h1, h2⟩ := h
  have hi : c.1 < vtkNumNodes.length := by
    rcases Nat.lt_or_ge c.1 vtkNumNodes.length with h | h
    · exact h
    · rw [List.getElem?_eq_none h] at h1; cases h1
  exact Option.isSome_iff_exists.mp (k c.1 (by simpa using hi) ⟨_, h1, by omega⟩)

theorem fixed_not_poly {c : VtkCell} (h : FixedCell c) : c.1 ≠ 7 := by
  intro e
  have := h.1
  rw [e] at this
  have h7 : vtkNumNodes[7]? = some (-1) := by decide +kernel
  rw [h7] at this
  injection this with this
  omega

theorem typeRun42_ok (raw : Dict (List R)) (hraw : Dict.Ok raw) (cs : List VtkCell)
    (hcs : ∀ c ∈ cs, FixedCell c) (extra : List Int)
    (done run rest : List VtkCell) (hsplit : cs = done ++ (run ++ rest)) (hne : run ≠ [])
    (hu : ∀ c ∈ run, ∀ c' ∈ run, c.1 = c'.1) (ps : List Piece) :
    typeRun42 (streamOf cs ++ extra) (startsFrom 0 cs) (cs.map (fun c => (c.2.length : Int)))
        (cs.map (·.1)) raw (stOf raw ps) (done.length, done.length + run.length) =
      .ok (stOf raw (ps ++ piecesOf done.length (vtkRuns run))) := by
  cases run with
  | nil => exact absurd rfl hne
  | cons c run =>
    have hcode : ∀ d ∈ c :: run, d.1 = c.1 := fun d hd => hu d hd c (by simp)
    have ht : (cs.map (·.1))[done.length]? = some c.1 := by rw [hsplit]; simp
    have hn : (cs.map (fun c => (c.2.length : Int)))[done.length]? = some (c.2.length : Int) := by
      rw [hsplit]; simp
    have hmem : ∀ d ∈ c :: run, d ∈ cs := by
      intro d hd; rw [hsplit]; simp at hd ⊢; tauto
    have hfix := hcs c (hmem c (by simp))
    obtain ⟨t, hname⟩ := fixed_name hfix
    have hfind : find vtkToMeshio c.1 = some t := by rw [← vtkName_eq]; exact hname
    have hall : ∀ d ∈ c :: run, d.1 = c.1 ∧ d.2.length = c.2.length := by
      intro d hd
      refine ⟨hcode d hd, ?_⟩
      have h1 := (hcs d (hmem d hd)).1
      rw [hcode d hd, hfix.1] at h1
      injection h1 with h1
      omega
    have h13 : c.1 = 13 → c.2.length = 6 := by
      intro e
      have h1 := hfix.1
      rw [e] at h1
      have : vtkNumNodes[13]? = some 6 := by decide +kernel
      rw [this] at h1
      injection h1 with h1
      omega
    have hconn : streamOf cs ++ extra = streamOf done ++
        (streamOf (c :: run) ++ (streamOf rest ++ extra)) := by
      rw [hsplit]; simp [streamOf]
    have hoff : pySlice (startsFrom 0 cs) done.length (done.length + (c :: run).length) =
        startsFrom (streamOf done).length (c :: run) := by
      rw [hsplit, startsFrom_append, startsFrom_append]
      have := pySlice_mid (startsFrom 0 done)
        (startsFrom (0 + (streamOf done).length) (c :: run))
        (startsFrom (0 + (streamOf done).length + (streamOf (c :: run)).length) rest)
      rw [length_startsFrom, length_startsFrom] at this
      simpa using this
    unfold typeRun42
    rw [if_neg (by simp)]
    simp only [ht, hn, hfind, hoff]
    rw [hconn, streamRows_run c.1 c.2.length (c :: run) (streamOf done) (streamOf rest ++ extra)
      hall h13]
    simp only
    rw [addData_stOf raw hraw ps (t, (c :: run).map (fun c => fromVtk c.1 c.2))
      done.length (done.length + (c :: run).length) _ (fun _ _ => rfl)]
    have hone : vtkRuns (c :: run) = [c :: run] := by
      apply runsBy_const
      intro b hb
      have := hall b (by simp [hb])
      simp [this.1, this.2]
    have hb : vtkBlock (c :: run) = some (t, (c :: run).map (fun c => fromVtk c.1 c.2)) := by
      simp only [vtkBlock, hname, Option.map_some]
    have := stOf_fst raw ps ((t, (c :: run).map (fun c => fromVtk c.1 c.2)),
        (done.length, done.length + (c :: run).length))
    simp only at this
    simp only [hone, piecesOf, hb, List.append_nil, this]

theorem typeRuns42_ok (raw : Dict (List R)) (hraw : Dict.Ok raw) (cs : List VtkCell)
    (hcs : ∀ c ∈ cs, FixedCell c) (extra : List Int)
    (done : List VtkCell) (runs : List (List VtkCell)) (hsplit : cs = done ++ runs.flatten)
    (hu : ∀ r ∈ runs, r ≠ [] ∧ ∀ c ∈ r, ∀ c' ∈ r, c.1 = c'.1) (ps : List Piece) :
    foldRes (typeRun42 (streamOf cs ++ extra) (startsFrom 0 cs)
        (cs.map (fun c => (c.2.length : Int))) (cs.map (·.1)) raw)
        (stOf raw ps) (segsFrom done.length (runs.map List.length)) =
      .ok (stOf raw (ps ++ piecesOf done.length (runs.flatMap vtkRuns))) := by
  induction runs generalizing done ps with
  | nil => simp [segsFrom, foldRes, piecesOf]
  | cons r runs ih =>
    simp only [List.flatten_cons] at hsplit
    simp only [List.map_cons, segsFrom, foldRes]
    rw [typeRun42_ok raw hraw cs hcs extra done r runs.flatten hsplit (hu r (by simp)).1
      (hu r (by simp)).2 ps]
    simp only
    have := ih (done ++ r) (by rw [hsplit]; simp) (fun r' h => hu r' (by simp [h]))
      (ps ++ piecesOf done.length (vtkRuns r))
    rw [List.length_append] at this
    rw [this, List.flatMap_cons, piecesOf_append]
    simp [vtkRuns, flatten_runsBy]

/-- The final state of the run loops in terms of the specification. -/
theorem stOf_final (raw : Dict (List R)) (cs : List VtkCell)
    (hdata : ∀ kd ∈ raw, kd.2.length = cs.length) :
    stOf raw (piecesOf 0 (vtkRuns cs)) = (vtkBlocks cs,
        if vtkBlocks cs = [] then [] else raw.map (fun kd => (kd.1, vtkData cs kd.2))) := by
  unfold stOf
  have h1 := map_fst_piecesOf 0 (vtkRuns cs)
  have h2 : (piecesOf 0 (vtkRuns cs) = []) ↔ (vtkBlocks cs = []) := by
    unfold vtkBlocks; rw [← h1]; simp
  simp only [h1, h2]
  congr 1
  split
  · rfl
  · apply List.map_congr_left
    intro kd hkd
    have h3 := slices_piecesOf (runLens (cs.map (fun c => (c.1, c.2.length))))
      (fun n hn => runLens_pos hn) cs kd.2 0 (by rw [sum_runLens]; simp)
      (by rw [hdata kd hkd]; simp)
    rw [vtkRuns_splitLens, h3]
    unfold vtkData
    rw [runsBy_eq_splitLens]
    have : (cs.zip kd.2).map (fun c => (c.1.1, c.1.2.length)) =
        cs.map (fun c => (c.1, c.2.length)) := by
      have : (cs.zip kd.2).map (fun c => (c.1.1, c.1.2.length)) =
          ((cs.zip kd.2).map (·.1)).map (fun c => (c.1, c.2.length)) := by simp
      rw [this, List.map_fst_zip (by rw [hdata kd hkd]; omega)]
    rw [this, List.drop_zero]

theorem translateCells_fixed (cs : List VtkCell) (hcs : ∀ c ∈ cs, FixedCell c)
    (extra : List Int) (raw : Dict (List R)) (hraw : Dict.Ok raw)
    (hdata : ∀ kd ∈ raw, kd.2.length = cs.length) :
    translateCells (streamOf cs ++ extra) (cs.map (·.1)) raw =
      .ok (vtkBlocks cs,
        if vtkBlocks cs = [] then [] else raw.map (fun kd => (kd.1, vtkData cs kd.2))) := by
  unfold translateCells
  have hp : 7 ∉ cs.map (·.1) := by
    intro h
    obtain ⟨c, hc, e⟩ := List.mem_map.mp h
    exact fixed_not_poly (hcs c hc) e
  rw [if_neg hp]
  have hlt : (cs.map (·.1)).any (fun t => decide (vtkNumNodes.length ≤ t)) = false := by
    rw [List.any_eq_false]
    intro x hx
    obtain ⟨c, hc, rfl⟩ := List.mem_map.mp hx
    have := (hcs c hc).1
    rcases Nat.lt_or_ge c.1 vtkNumNodes.length with h | h
    · simpa using h
    · rw [List.getElem?_eq_none h] at this; cases this
  rw [hlt]
  have hnn : (cs.map (·.1)).map (fun t => (vtkNumNodes[t]?).getD 0) =
      cs.map (fun c => (c.2.length : Int)) := by
    rw [List.map_map]
    apply List.map_congr_left
    intro c hc
    simp [(hcs c hc).1]
  simp only [hnn]
  have hpos : (cs.map (fun c => (c.2.length : Int))).any (fun n => decide (n ≤ 0)) = false := by
    rw [List.any_eq_false]
    intro x hx
    obtain ⟨c, hc, rfl⟩ := List.mem_map.mp hx
    have := (hcs c hc).2
    simp only [decide_eq_true_eq]; omega
  rw [hpos]
  have h0 := cellStarts_eq 0 cs
  simp only [Int.natCast_zero] at h0
  have hc0 := counts_ok cs [] extra
  simp only [List.nil_append, List.length_nil] at hc0
  simp only [h0, hc0, Bool.false_eq_true, if_false, ne_eq, not_true_eq_false]
  cases cs with
  | nil => simp [startEnd, breaksFrom, foldRes, typeRun42, vtkBlocks, vtkRuns, runsBy]
  | cons c cs =>
    rw [startEnd_eq (by simp)]
    have h := typeRuns42_ok raw hraw (c :: cs) hcs extra []
      (runsBy (·.1) (c :: cs)) (by simp [flatten_runsBy])
      (fun r hr => ⟨runsBy_ne_nil _ _ r hr, runsBy_uniform _ _ r hr⟩) []
    rw [map_length_runsBy] at h
    have h0 : stOf raw [] = ([], []) := by simp [stOf]
    rw [h0] at h
    simp only [List.length_nil, List.nil_append] at h
    rw [h, ← vtkRuns_refine, stOf_final raw (c :: cs) hdata]

/-! ### Polygons -/

theorem walk_ok (cs : List VtkCell) (pre post : List Int) :
    walk (pre ++ (streamOf cs ++ post)) cs.length pre.length =
      .ok ((startsFrom pre.length cs).zip (cs.map (fun c => (c.2.length : Int)))) := by
  induction cs generalizing pre with
  | nil => rfl
  | cons c cs ih =>
    simp only [List.length_cons, walk]
    have h0 : npIndex (pre ++ (streamOf (c :: cs) ++ post)) (pre.length : Int) =
        .ok (c.2.length : Int) := by
      have := npIndex_append pre [(c.2.length : Int)] (c.2 ++ (streamOf cs ++ post)) 0 (by simp)
      simpa [streamOf] using this
    rw [h0]
    have e : pre ++ (streamOf (c :: cs) ++ post) =
        (pre ++ ((c.2.length : Int) :: c.2)) ++ (streamOf cs ++ post) := by simp [streamOf]
    have := ih (pre ++ ((c.2.length : Int) :: c.2))
    rw [List.length_append, List.length_cons] at this
    have e2 : (pre.length : Int) + (c.2.length : Int) + 1 =
        ((pre.length + (c.2.length + 1) : Nat) : Int) := by push_cast; omega
    simp only [e2]
    rw [e, this]
    simp [startsFrom]

theorem polyCells_ok (cs : List VtkCell) (hcs : ∀ c ∈ cs, StreamCell c) (pre post : List Int) :
    mapRes (polyCell (pre ++ (streamOf cs ++ post)))
        ((cs.map (·.1)).zip ((startsFrom pre.length cs).zip (cs.map (fun c => (c.2.length : Int))))) =
      .ok (cs.map (fun c => ((vtkName c.1).getD "", fromVtk c.1 c.2))) := by
  induction cs generalizing pre with
  | nil => rfl
  | cons c cs ih =>
    obtain ⟨⟨t, hname⟩, h13⟩ := hcs c (by simp)
    simp only [List.map_cons, startsFrom, List.zip_cons_cons, mapRes]
    have h0 : polyCell (pre ++ (streamOf (c :: cs) ++ post))
        (c.1, ((pre.length : Int), (c.2.length : Int))) =
        .ok (t, fromVtk c.1 c.2) := by
      unfold polyCell
      have hrow : mapRes (fun (j : Nat) => npIndex (pre ++ (streamOf (c :: cs) ++ post))
          ((pre.length : Int) + 1 + (j : Int))) (newOrder c.1 c.2.length) =
            .ok (fromVtk c.1 c.2) := by
        rw [stream_split]
        have := stream_row c.1 (pre ++ [(c.2.length : Int)]) c.2 (streamOf cs ++ post) h13
        rw [← this]
        congr 1
        funext j
        congr 1
        simp
      simp only [hrow]
      rw [← vtkName_eq, hname]
    rw [h0]
    have e : pre ++ (streamOf (c :: cs) ++ post) =
        (pre ++ ((c.2.length : Int) :: c.2)) ++ (streamOf cs ++ post) := by simp [streamOf]
    have := ih (fun d hd => hcs d (by simp [hd])) (pre ++ ((c.2.length : Int) :: c.2))
    rw [List.length_append, List.length_cons] at this
    rw [e, this]
    simp [hname]

theorem length_fromVtk (code : Nat) (l : List Int) : (fromVtk code l).length = l.length := by
  unfold fromVtk
  split <;> simp

theorem vtkName_inj {a b : Nat} {t : String} (ha : vtkName a = some t) (hb : vtkName b = some t) :
    a = b := by
  rw [vtkName_eq] at ha hb
  have k : ∀ x ∈ vtkToMeshio, ∀ y ∈ vtkToMeshio, x.2 = y.2 → x.1 = y.1 := by decide +kernel
  exact k _ (find_mem ha) _ (find_mem hb) rfl

theorem poly_blocks (cs : List VtkCell) (hcs : ∀ c ∈ cs, StreamCell c) :
    (cs.map (fun c => ((vtkName c.1).getD "", fromVtk c.1 c.2))).foldl
      (pushBy polySame polyApp polyNew) [] = vtkBlocks cs := by
  rw [foldl_pushBy (fun c : String × List Int => (c.1, c.2.length)) polySame polyApp polyNew
    (fun r => (((r.head?.map (·.1)).getD ""), r.map (·.2)))]
  · unfold vtkBlocks vtkRuns
    have hlen : ((cs.map (fun c => ((vtkName c.1).getD "", fromVtk c.1 c.2))).map
        (fun c => (c.1, c.2.length))) = cs.map (fun c => ((vtkName c.1).getD "", c.2.length)) := by
      simp [length_fromVtk]
    rw [runsBy_eq_splitLens, hlen, ← map_splitLens, ← runsBy_eq_splitLens,
      runsBy_congr_key (fun c : VtkCell => ((vtkName c.1).getD "", c.2.length))
        (fun c => (c.1, c.2.length))]
    · have hin : ∀ r ∈ runsBy (fun c : VtkCell => (c.1, c.2.length)) cs,
          r ≠ [] ∧ ∀ c ∈ r, StreamCell c := by
        intro r hr
        refine ⟨runsBy_ne_nil _ _ r hr, fun c hc => hcs c ?_⟩
        rw [← flatten_runsBy (fun c : VtkCell => (c.1, c.2.length)) cs]
        exact List.mem_flatten.mpr ⟨r, hr, hc⟩
      generalize runsBy (fun c : VtkCell => (c.1, c.2.length)) cs = rs at hin
      induction rs with
      | nil => rfl
      | cons r rs ih =>
        obtain ⟨h1, h2⟩ := hin r (by simp)
        cases r with
        | nil => exact absurd rfl h1
        | cons c r =>
          obtain ⟨⟨t, hname⟩, _⟩ := h2 c (by simp)
          have := ih (fun r' h' => hin r' (by simp [h']))
          simp only [List.map_cons, List.filterMap_cons, vtkBlock, hname, Option.map_some]
          rw [this]
          simp [Function.comp_def]
    · intro a ha b hb
      obtain ⟨⟨t, h1⟩, _⟩ := hcs a ha
      obtain ⟨⟨t', h2⟩, _⟩ := hcs b hb
      simp only [h1, h2, Option.getD_some, Prod.mk.injEq, and_congr_left_iff]
      intro _
      constructor
      · intro e; rw [e] at h1; exact vtkName_inj h1 h2
      · intro e; rw [e] at h1; rw [h1] at h2; injection h2
  · intro a; rfl
  · intro r x a hu
    simp only [polySame, List.head?_cons, Option.map_some, Option.getD_some, Bool.and_eq_true,
      beq_iff_eq, Prod.mk.injEq]
    constructor
    · rintro ⟨h1, h2⟩
      refine ⟨h1, ?_⟩
      rcases List.eq_nil_or_concat r with rfl | ⟨r', y, rfl⟩
      · simpa using h2
      · have := hu y (by simp)
        simp only [Prod.mk.injEq] at this
        rw [← this.2]
        simpa [List.getLast?_cons] using h2
    · rintro ⟨h1, h2⟩
      refine ⟨h1, ?_⟩
      rcases List.eq_nil_or_concat r with rfl | ⟨r', y, rfl⟩
      · simpa using h2
      · have := hu y (by simp)
        simp only [Prod.mk.injEq] at this
        rw [← this.2] at h2
        simpa [List.getLast?_cons] using h2
  · intro r x a hu h
    simp [polyApp]

theorem translateCells_poly (cs : List VtkCell) (hcs : ∀ c ∈ cs, StreamCell c)
    (hp : ∃ c ∈ cs, c.1 = 7) (extra : List Int) (raw : Dict (List R)) :
    translateCells (streamOf cs ++ extra) (cs.map (·.1)) raw = .ok (vtkBlocks cs, []) := by
  unfold translateCells
  obtain ⟨c, hc, h7⟩ := hp
  rw [if_pos (List.mem_map.mpr ⟨c, hc, h7⟩)]
  have h1 := walk_ok cs [] extra
  simp only [List.nil_append, List.length_nil, Int.natCast_zero] at h1
  rw [List.length_map, h1]
  have h2 := polyCells_ok cs hcs [] extra
  simp only [List.nil_append, List.length_nil] at h2
  simp only [h2, poly_blocks cs hcs]

/-! ### Writing -/

/-- The cells of a list of blocks in VTK's terms. -/
def cellsOf (bs : List Blk) : List VtkCell :=
  bs.flatMap (fun b => b.2.map (fun r => ((vtkCode b.1).getD 0, toVtk b.1 r)))

theorem vtkCode_iff {t : String} {c : Nat} : vtkCode t = some c ↔ vtkName c = some t := by
  rw [vtkName_eq]
  constructor
  · intro h
    unfold vtkCode at h
    rw [Option.map_eq_some_iff] at h
    obtain ⟨e, h1, rfl⟩ := h
    have h2 := List.mem_of_find?_eq_some h1
    have h3 := List.find?_some h1
    simp only [beq_iff_eq] at h3
    have k : ∀ e ∈ vtkToMeshio, find vtkToMeshio e.1 = some e.2 := by decide +kernel
    rw [k e h2, h3]
  · intro h
    have h1 := find_mem h
    have k : ∀ e ∈ vtkToMeshio, vtkCode e.2 = some e.1 := by decide +kernel
    exact k _ h1

theorem find_meshioToVtk {t : String} {c : Nat} (h : vtkCode t = some c) :
    find meshioToVtk t = some c := by
  have h1 := vtkCode_iff.mp h
  rw [vtkName_eq] at h1
  have k : ∀ e ∈ vtkToMeshio, find meshioToVtk e.2 = some e.1 := by decide +kernel
  exact k _ (find_mem h1)

theorem outRow_ok (t : String) (row : List Int) (h : t = "wedge" → row.length = 6) :
    outRow t row = .ok (toVtk t row) := by
  unfold outRow meshioToVtkOrder toVtk
  by_cases ht : t = "wedge"
  · rw [if_pos ht, if_pos ht]
    match row, h ht with
    | [a, b, c, d, e, f], _ => rfl
  · rw [if_neg ht, if_neg ht]; rfl

theorem length_toVtk (t : String) (row : List Int) : (toVtk t row).length = row.length := by
  unfold toVtk
  split
  · split <;> simp
  · rfl

theorem fromVtk_toVtk {t : String} {c : Nat} (h : vtkCode t = some c) (row : List Int) :
    fromVtk c (toVtk t row) = row := by
  have hw : vtkCode "wedge" = some 13 := by decide +kernel
  by_cases ht : t = "wedge"
  · subst ht
    rw [hw] at h
    cases h
    unfold toVtk fromVtk
    simp only [if_true]
    match row with
    | [] => rfl
    | [a] => rfl
    | [a, b] => rfl
    | [a, b, c] => rfl
    | [a, b, c, d] => rfl
    | [a, b, c, d, e] => rfl
    | [a, b, c, d, e, f] => rfl
    | a :: b :: c :: d :: e :: f :: g :: l => rfl
  · have hc : c ≠ 13 := by
      intro e
      subst e
      have h1 := vtkCode_iff.mp h
      have h2 := vtkCode_iff.mp hw
      rw [h1] at h2
      injection h2 with h2
      exact ht h2
    unfold toVtk fromVtk
    rw [if_neg ht]
    split
    · exact absurd rfl hc
    · rfl

/-- What a block needs to be written: a type with a code, wedges with six nodes. -/
def Writable (b : Blk) : Prop :=
  (∃ c, vtkCode b.1 = some c) ∧ (b.1 = "wedge" → ∀ r ∈ b.2, r.length = 6)

theorem writeCells42_ok (bs : List Blk) (h : ∀ b ∈ bs, Writable b) :
    writeCells42 bs = .ok (streamOf (cellsOf bs), (cellsOf bs).map (·.1)) := by
  unfold writeCells42
  rw [mapRes_ok_of_forall (g := fun b => streamOf (cellsOf [b]))]
  · rw [mapRes_ok_of_forall (g := fun b => (cellsOf [b]).map (·.1))]
    · have h1 : (bs.map (fun b => streamOf (cellsOf [b]))).flatten = streamOf (cellsOf bs) := by
        clear h
        induction bs with
        | nil => rfl
        | cons b bs ih => simp only [List.map_cons, List.flatten_cons, ih]; simp [streamOf, cellsOf]
      have h2 : (bs.map (fun b => (cellsOf [b]).map (·.1))).flatten = (cellsOf bs).map (·.1) := by
        clear h h1
        induction bs with
        | nil => rfl
        | cons b bs ih => simp only [List.map_cons, List.flatten_cons, ih]; simp [cellsOf]
      simp only [h1, h2]
    · intro b hb
      obtain ⟨⟨c, hc⟩, _⟩ := h b hb
      simp [typesOut, find_meshioToVtk hc, cellsOf, hc, Function.comp_def, List.map_const']
  · intro b hb
    obtain ⟨_, hw⟩ := h b hb
    unfold cellsOut42
    rw [mapRes_ok_of_forall (g := toVtk b.1)]
    · have : ∀ l : List (List Int), ((l.zip (l.map (toVtk b.1))).flatMap
          (fun x => (x.1.length : Int) :: x.2)) =
          (l.map (fun r => ((vtkCode b.1).getD 0, toVtk b.1 r))).flatMap
            (fun c => (c.2.length : Int) :: c.2) := by
        intro l
        induction l with
        | nil => rfl
        | cons r l ih =>
          simp only [List.map_cons, List.zip_cons_cons, List.flatMap_cons, ih, length_toVtk]
      simp [streamOf, cellsOf, this]
    · intro r hr
      exact outRow_ok b.1 r (fun e => hw e r hr)

theorem cellsOf_eq (bs : List Blk) :
    cellsOf bs = (rowsOf bs).map (fun x => ((vtkCode x.1).getD 0, toVtk x.1 x.2)) := by
  unfold cellsOf rowsOf
  rw [List.map_flatMap]
  congr 1
  funext b
  rw [List.map_map]; rfl

/-- Key equivalence between rows and the cells written for them. -/
theorem row_key_iff {x y : String × List Int} (hx : ∃ c, vtkCode x.1 = some c)
    (hy : ∃ c, vtkCode y.1 = some c) :
    (((vtkCode x.1).getD 0, (toVtk x.1 x.2).length) = ((vtkCode y.1).getD 0, (toVtk y.1 y.2).length)
      ↔ (x.1, x.2.length) = (y.1, y.2.length)) := by
  obtain ⟨c, hc⟩ := hx
  obtain ⟨d, hd⟩ := hy
  simp only [hc, hd, Option.getD_some, length_toVtk, Prod.mk.injEq, and_congr_left_iff]
  intro _
  constructor
  · intro e
    have h1 := vtkCode_iff.mp hc
    have h2 := vtkCode_iff.mp hd
    rw [e, h2] at h1
    injection h1 with h1
    exact h1.symm
  · intro e; rw [e, hd] at hc; injection hc with hc; exact hc.symm

theorem mem_rowsOf {bs : List Blk} {x : String × List Int} (h : x ∈ rowsOf bs) :
    ∃ b ∈ bs, x.1 = b.1 ∧ x.2 ∈ b.2 := by
  unfold rowsOf at h
  obtain ⟨b, hb, hx⟩ := List.mem_flatMap.mp h
  obtain ⟨r, hr, rfl⟩ := List.mem_map.mp hx
  exact ⟨b, hb, rfl, hr⟩

theorem vtkBlocks_cellsOf (bs : List Blk) (h : ∀ b ∈ bs, ∃ c, vtkCode b.1 = some c) :
    vtkBlocks (cellsOf bs) = fuse bs := by
  unfold vtkBlocks vtkRuns fuse
  rw [cellsOf_eq, runsBy_eq_splitLens, List.map_map, ← map_splitLens]
  have hk := runsBy_congr_key
    ((fun c : VtkCell => (c.1, c.2.length)) ∘
      fun x : String × List Int => ((vtkCode x.1).getD 0, toVtk x.1 x.2))
    (fun x : String × List Int => (x.1, x.2.length)) (rowsOf bs)
    (by
      intro x hx y hy
      obtain ⟨b, hb, e, _⟩ := mem_rowsOf hx
      obtain ⟨b', hb', e', _⟩ := mem_rowsOf hy
      exact row_key_iff (by rw [e]; exact h b hb) (by rw [e']; exact h b' hb'))
  rw [← runsBy_eq_splitLens, hk, List.filterMap_map]
  have hin : ∀ r ∈ runsBy (fun x : String × List Int => (x.1, x.2.length)) (rowsOf bs),
      (∀ x ∈ r, ∃ c, vtkCode x.1 = some c) ∧ ∀ x ∈ r, ∀ y ∈ r, x.1 = y.1 := by
    intro r hr
    constructor
    · intro x hx
      have : x ∈ rowsOf bs := by
        rw [← flatten_runsBy (fun x : String × List Int => (x.1, x.2.length)) (rowsOf bs)]
        exact List.mem_flatten.mpr ⟨r, hr, hx⟩
      obtain ⟨b, hb, e, _⟩ := mem_rowsOf this
      rw [e]; exact h b hb
    · intro x hx y hy
      have := runsBy_uniform _ _ r hr x hx y hy
      simp only [Prod.mk.injEq] at this
      exact this.1
  apply filterMap_congr'
  intro r hr
  obtain ⟨h1, h2⟩ := hin r hr
  cases r with
  | nil => rfl
  | cons x r =>
    obtain ⟨c, hc⟩ := h1 x (by simp)
    simp only [Function.comp_def, List.map_cons, vtkBlock, hc, Option.getD_some,
      vtkCode_iff.mp hc, Option.map_some, List.head?_cons, fromVtk_toVtk hc, List.map_map]
    congr 3
    apply List.map_congr_left
    intro y hy
    have e := h2 y (by simp [hy]) x (by simp)
    simp only [e, hc, Option.getD_some, fromVtk_toVtk hc]

theorem vtkData_cellsOf (bs : List Blk) (h : ∀ b ∈ bs, ∃ c, vtkCode b.1 = some c) (d : List R)
    (hd : d.length = (rowsOf bs).length) : vtkData (cellsOf bs) d = fuseData bs d := by
  unfold vtkData fuseData
  have hz : (cellsOf bs).zip d = ((rowsOf bs).zip d).map
      (fun x => (((vtkCode x.1.1).getD 0, toVtk x.1.1 x.1.2), x.2)) := by
    rw [cellsOf_eq]
    generalize rowsOf bs = l
    induction l generalizing d with
    | nil => rfl
    | cons x l ih =>
      cases d with
      | nil => rfl
      | cons y d => 
        have := fun hd' => ih d hd'
        simp only [List.map_cons, List.zip_cons_cons]
        rw [show (List.map (fun x : String × List Int => ((vtkCode x.1).getD 0, toVtk x.1 x.2)) l).zip d
          = (l.zip d).map (fun x => (((vtkCode x.1.1).getD 0, toVtk x.1.1 x.1.2), x.2)) by
            rw [List.zip_map_left]; rfl]
  rw [hz, runsBy_eq_splitLens, List.map_map, ← map_splitLens]
  have hmem : ∀ x ∈ (rowsOf bs).zip d, ∃ c, vtkCode x.1.1 = some c := by
    intro x hx
    obtain ⟨b, hb, e, _⟩ := mem_rowsOf (List.of_mem_zip hx).1
    rw [e]; exact h b hb
  have hk := runsBy_congr_key
    ((fun c : VtkCell × R => (c.1.1, c.1.2.length)) ∘
      fun x : (String × List Int) × R => (((vtkCode x.1.1).getD 0, toVtk x.1.1 x.1.2), x.2))
    (fun x : (String × List Int) × R => (x.1.1, x.1.2.length)) ((rowsOf bs).zip d)
    (by intro x hx y hy; exact row_key_iff (hmem x hx) (hmem y hy))
  rw [← runsBy_eq_splitLens, hk, List.filterMap_map]
  have hin : ∀ r ∈ runsBy (fun x : (String × List Int) × R => (x.1.1, x.1.2.length)) ((rowsOf bs).zip d),
      r ≠ [] ∧ (∀ x ∈ r, ∃ c, vtkCode x.1.1 = some c) := by
    intro r hr
    refine ⟨runsBy_ne_nil _ _ r hr, ?_⟩
    intro x hx
    have : x ∈ (rowsOf bs).zip d := by
      rw [← flatten_runsBy (fun x : (String × List Int) × R => (x.1.1, x.1.2.length)) ((rowsOf bs).zip d)]
      exact List.mem_flatten.mpr ⟨r, hr, hx⟩
    exact hmem x this
  rw [← List.filterMap_eq_map (f := fun r : List ((String × List Int) × R) => r.map (·.2))]
  apply filterMap_congr'
  intro r hr
  obtain ⟨h0, h1⟩ := hin r hr
  cases r with
  | nil => exact absurd rfl h0
  | cons x r =>
    obtain ⟨c, hc⟩ := h1 x (by simp)
    simp only [Function.comp_def, List.map_cons, vtkRunData, hc, Option.getD_some,
      vtkCode_iff.mp hc, Option.map_some, List.map_map]

/-! ### Version 5.1 -/

/-- A block of the 5.1 writer as a block. -/
def Blk2.blk (b : Blk2) : Blk := (b.type, b.rows)

theorem ends_block (k n c : Nat) (t : String) (rows : List (List Int))
    (h : ∀ r ∈ rows, r.length = n) :
    endsFrom k (rows.map (fun r => (c, toVtk t r))) =
      (List.range rows.length).map (fun (i : Nat) => (k : Int) + n + (i : Int) * n) := by
  induction rows generalizing k with
  | nil => rfl
  | cons r rows ih =>
    have hr := h r (by simp)
    simp only [List.map_cons, endsFrom, List.length_cons, List.range_succ_eq_map, List.map_cons,
      List.map_map, length_toVtk, hr]
    rw [ih (k + n) (fun r' h' => h r' (by simp [h']))]
    congr 1
    · push_cast; omega
    · apply List.map_congr_left
      intro i _
      simp only [Function.comp_def]
      push_cast
      rw [Int.add_mul]; omega

theorem conn_block_length (n c : Nat) (t : String) (rows : List (List Int))
    (h : ∀ r ∈ rows, r.length = n) :
    (connectivityOf (rows.map (fun r => (c, toVtk t r)))).length = rows.length * n := by
  induction rows with
  | nil => simp [connectivityOf]
  | cons r rows ih =>
    have := ih (fun r' h' => h r' (by simp [h']))
    simp only [connectivityOf, List.map_cons, List.flatMap_cons, List.length_append,
      length_toVtk, List.length_cons] at this ⊢
    rw [this, h r (by simp), Nat.add_mul]; omega

theorem offsetsOut51_ok (bs : List Blk2) (k : Nat)
    (h : ∀ b ∈ bs, b.width ≠ 0 ∧ b.rows ≠ [] ∧ ∀ r ∈ b.rows, r.length = b.width) :
    offsetsOut51 k bs = .ok (endsFrom k (cellsOf (bs.map Blk2.blk))) := by
  induction bs generalizing k with
  | nil => rfl
  | cons b bs ih =>
    obtain ⟨h1, h2, h3⟩ := h b (by simp)
    unfold offsetsOut51
    rw [if_neg h1, if_neg h2]
    have hk : (((List.range b.rows.length).map
        (fun (i : Nat) => (k : Int) + b.width + (i : Int) * b.width)).getLast?.getD 0) =
        ((k + b.rows.length * b.width : Nat) : Int) := by
      rcases List.eq_nil_or_concat b.rows with e | ⟨l, r, e⟩
      · exact absurd e h2
      · rw [e]
        simp only [List.concat_eq_append, List.length_append, List.length_cons, List.length_nil,
          List.range_succ, List.map_append, List.map_cons, List.map_nil, List.getLast?_append,
          List.getLast?_singleton, Option.some_or, Option.getD_some, Nat.zero_add]
        push_cast
        rw [Int.add_mul]; omega
    simp only [hk]
    rw [ih (k + b.rows.length * b.width) (fun b' hb' => h b' (by simp [hb']))]
    have e : cellsOf ((b :: bs).map Blk2.blk) =
        b.rows.map (fun r => ((vtkCode b.type).getD 0, toVtk b.type r)) ++
          cellsOf (bs.map Blk2.blk) := by simp [cellsOf, Blk2.blk]
    rw [e, endsFrom_append, ends_block k b.width _ _ _ h3, conn_block_length b.width _ _ _ h3]

theorem endsFrom_last (i : Nat) (cs : List VtkCell) :
    ((i : Int) :: endsFrom i cs).getLast? = some (((i + (connectivityOf cs).length : Nat)) : Int) := by
  induction cs generalizing i with
  | nil => simp [endsFrom, connectivityOf]
  | cons c cs ih =>
    have := ih (i + c.2.length)
    simp only [endsFrom, List.getLast?_cons_cons]
    rw [this]
    simp [connectivityOf]; omega

theorem writeCells51_ok (bs : List Blk2)
    (h : ∀ b ∈ bs, Writable b.blk ∧ b.width ≠ 0 ∧ b.rows ≠ [] ∧ ∀ r ∈ b.rows, r.length = b.width) :
    writeCells51 bs = .ok (0 :: endsFrom 0 (cellsOf (bs.map Blk2.blk)),
      connectivityOf (cellsOf (bs.map Blk2.blk)), (cellsOf (bs.map Blk2.blk)).map (·.1)) := by
  unfold writeCells51
  have h0 := offsetsOut51_ok bs 0 (fun b hb => (h b hb).2)
  simp only [Int.natCast_zero] at h0
  rw [h0]
  rw [mapRes_ok_of_forall (g := fun b : Blk2 => b.rows.map (toVtk b.type))]
  · rw [mapRes_ok_of_forall (g := fun b : Blk2 => (cellsOf [b.blk]).map (·.1))]
    · have h1 : (bs.map (fun b => b.rows.map (toVtk b.type))).flatten.flatten =
          connectivityOf (cellsOf (bs.map Blk2.blk)) := by
        clear h h0
        induction bs with
        | nil => rfl
        | cons b bs ih =>
          simp only [List.map_cons, List.flatten_cons, List.flatten_append, ih]
          simp [connectivityOf, cellsOf, Blk2.blk, List.flatMap, Function.comp_def]
      have h2 : (bs.map (fun b => (cellsOf [b.blk]).map (·.1))).flatten =
          (cellsOf (bs.map Blk2.blk)).map (·.1) := by
        clear h h0 h1
        induction bs with
        | nil => rfl
        | cons b bs ih => simp only [List.map_cons, List.flatten_cons, ih]; simp [cellsOf]
      simp only [h1, h2]
    · intro b hb
      obtain ⟨⟨⟨c, hc⟩, _⟩, _⟩ := h b hb
      simp only [Blk2.blk] at hc
      simp [typesOut, find_meshioToVtk hc, cellsOf, hc, Blk2.blk, Function.comp_def,
        List.map_const']
  · intro b hb
    obtain ⟨⟨_, hw⟩, _⟩ := h b hb
    apply mapRes_ok_of_forall
    intro r hr
    exact outRow_ok b.type r (fun e => hw e r hr)

theorem readCells51_ok (cs : List VtkCell) (hne : cs ≠ []) (hcs : ∀ c ∈ cs, Readable c)
    (raw : Dict (List R)) (hraw : Dict.Ok raw) (hdata : ∀ kd ∈ raw, kd.2.length = cs.length) :
    readCells51 (0 :: endsFrom 0 cs) (connectivityOf cs) (cs.map (·.1)) raw =
      .ok (vtkBlocks cs,
        if vtkBlocks cs = [] then [] else raw.map (fun kd => (kd.1, vtkData cs kd.2))) := by
  unfold readCells51
  have hl := endsFrom_last 0 cs
  simp only [Int.natCast_zero, Nat.zero_add] at hl
  have := vtkCellsFromData_ok cs hne hcs [] raw hraw hdata
  rw [List.append_nil] at this
  simp [hl, this]

end Meshio.Vtk
