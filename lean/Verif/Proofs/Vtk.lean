/-
Lemmas for `vtk_cells_from_data`.
-/
import Verif.Model.VtkCommon
import Verif.Spec.Vtk
import Verif.Proofs.Types
import Verif.Proofs.Runs
import Verif.Proofs.Mesh
import Mathlib.Tactic.Tauto
namespace Meshio.Vtk
open Meshio Meshio.Spec Meshio.Tables Meshio.Types

/-! ### Data dictionaries -/

section Data
variable {R : Type}

theorem set_mid {β : Type} (pre post : Dict β) (k : String) (v v' : β)
    (h : k ∉ Dict.keys pre) : Dict.set (pre ++ (k, v) :: post) k v' = pre ++ (k, v') :: post := by
  induction pre with
  | nil => simp [Dict.set]
  | cons x pre ih =>
    obtain ⟨a, b⟩ := x
    simp only [Dict.keys, List.map_cons, List.mem_cons, not_or] at h
    simp only [List.cons_append, Dict.set]
    rw [if_neg (fun e => h.1 e.symm), ih h.2]

theorem set_end {β : Type} (pre : Dict β) (k : String) (v : β) (h : k ∉ Dict.keys pre) :
    Dict.set pre k v = pre ++ [(k, v)] := by
  induction pre with
  | nil => simp [Dict.set]
  | cons x pre ih =>
    obtain ⟨a, b⟩ := x
    simp only [Dict.keys, List.map_cons, List.mem_cons, not_or] at h
    simp only [List.cons_append, Dict.set]
    rw [if_neg (fun e => h.1 e.symm), ih h.2]

theorem get?_mid {β : Type} (pre post : Dict β) (k : String) (v : β) (h : k ∉ Dict.keys pre) :
    Dict.get? (pre ++ (k, v) :: post) k = some v := by
  induction pre with
  | nil => simp [Dict.get?_cons]
  | cons x pre ih =>
    obtain ⟨a, b⟩ := x
    simp only [Dict.keys, List.map_cons, List.mem_cons, not_or] at h
    simp only [List.cons_append, Dict.get?_cons]
    rw [if_neg h.1, ih h.2]

/-- Pieces of the output: a block and the range of cells it was made from. -/
abbrev Piece := Blk × (Nat × Nat)

/-- The loop state after the pieces `ps`. -/
def stOf (raw : Dict (List R)) (ps : List Piece) : St R :=
  (ps.map (·.1),
    if ps = [] then []
    else raw.map (fun kd => (kd.1, ps.map (fun p => pySlice kd.2 p.2.1 p.2.2))))

theorem addData_first (f : List R → Res (List R)) (g : List R → List R) (pre rem : Dict (List R))
    (hd : Dict.Ok (pre ++ rem)) (hf : ∀ kd ∈ rem, f kd.2 = .ok (g kd.2)) :
    addData f (pre.map (fun kd => (kd.1, [g kd.2]))) rem =
      .ok ((pre ++ rem).map (fun kd => (kd.1, [g kd.2]))) := by
  induction rem generalizing pre with
  | nil => simp [addData]
  | cons x rem ih =>
    obtain ⟨k, d⟩ := x
    simp only [addData, hf (k, d) (by simp)]
    have hk : k ∉ Dict.keys (pre.map (fun kd => (kd.1, [g kd.2]))) := by
      simp only [Dict.Ok, Dict.keys, List.map_append, List.map_cons, List.nodup_append,
        List.mem_cons] at hd
      intro hm
      simp only [Dict.keys, List.map_map, Function.comp_def] at hm
      exact hd.2.2 k hm k (.inl rfl) rfl
    have hg : Dict.get? (pre.map (fun kd => (kd.1, [g kd.2]))) k = none :=
      (Dict.get?_eq_none_iff _ _).2 hk
    rw [hg, set_end _ _ _ hk]
    have := ih (pre ++ [(k, d)]) (by simpa using hd) (fun kd h => hf kd (by simp [h]))
    simpa using this

theorem addData_next (f : List R → Res (List R)) (g : List R → List R)
    (o : List R → List (List R)) (pre rem : Dict (List R))
    (hd : Dict.Ok (pre ++ rem)) (hf : ∀ kd ∈ rem, f kd.2 = .ok (g kd.2)) :
    addData f (pre.map (fun kd => (kd.1, o kd.2 ++ [g kd.2])) ++ rem.map (fun kd => (kd.1, o kd.2)))
        rem =
      .ok ((pre ++ rem).map (fun kd => (kd.1, o kd.2 ++ [g kd.2]))) := by
  induction rem generalizing pre with
  | nil => simp [addData]
  | cons x rem ih =>
    obtain ⟨k, d⟩ := x
    simp only [addData, hf (k, d) (by simp)]
    have hk : k ∉ Dict.keys (pre.map (fun kd => (kd.1, o kd.2 ++ [g kd.2]))) := by
      simp only [Dict.Ok, Dict.keys, List.map_append, List.map_cons, List.nodup_append,
        List.mem_cons] at hd
      intro hm
      simp only [Dict.keys, List.map_map, Function.comp_def] at hm
      exact hd.2.2 k hm k (.inl rfl) rfl
    simp only [List.map_cons]
    rw [get?_mid _ _ _ _ hk, set_mid _ _ _ _ _ hk]
    have := ih (pre ++ [(k, d)]) (by simpa using hd) (fun kd h => hf kd (by simp [h]))
    simpa using this

theorem addData_stOf (raw : Dict (List R)) (hraw : Dict.Ok raw) (ps : List Piece) (b : Blk)
    (s e : Nat) (f : List R → Res (List R)) (hf : ∀ kd ∈ raw, f kd.2 = .ok (pySlice kd.2 s e)) :
    addData f (stOf raw ps).2 raw = .ok (stOf raw (ps ++ [(b, (s, e))])).2 := by
  cases ps with
  | nil =>
    have := addData_first f (fun d => pySlice d s e) [] raw hraw hf
    simpa [stOf] using this
  | cons p ps =>
    have := addData_next f (fun d => pySlice d s e)
      (fun d => (p :: ps).map (fun p => pySlice d p.2.1 p.2.2)) [] raw hraw hf
    simpa [stOf] using this

theorem stOf_fst (raw : Dict (List R)) (ps : List Piece) (p : Piece) :
    (stOf raw ps).1 ++ [p.1] = (stOf raw (ps ++ [p])).1 := by simp [stOf]

end Data

/-! ### One run -/

theorem vtkName_eq (code : Nat) : vtkName code = find vtkToMeshio code := by
  unfold vtkName
  generalize vtkToMeshio = l
  induction l with
  | nil => rfl
  | cons x l ih =>
    obtain ⟨a, b⟩ := x
    simp only [List.find?_cons, find]
    by_cases h : a = code
    · simp [h]
    · have : (a == code) = false := by simpa using h
      simp only [this, if_neg h]; exact ih

theorem special_iff {code : Nat} {t : String} (h : find vtkToMeshio code = some t) :
    t ∈ specialCells ↔ code ∈ varSize := by
  have k : ∀ kv ∈ vtkToMeshio, (kv.2 ∈ specialCells ↔ kv.1 ∈ varSize) := by decide +kernel
  exact k _ (find_mem h)

theorem newBlk_ok {t : String} (h : KnownType t) (rows : List (List Int)) :
    newBlk t rows = .ok (t, rows) := by
  unfold newBlk CellBlock.new
  rcases h with ⟨r, hr⟩ | h
  · have : startsWith "polyhedron" t = true := by
      unfold startsWith; rw [hr]; simp
    simp [this]
  · split
    · next e he =>
      split at he
      · cases he
      · obtain ⟨v, hv⟩ := (Dict.mem_keys_iff topologicalDimension t).mp h
        rw [hv] at he; cases he
    · rfl

theorem endsFrom_append (i : Nat) (a b : List VtkCell) :
    endsFrom i (a ++ b) = endsFrom i a ++ endsFrom (i + (connectivityOf a).length) b := by
  induction a generalizing i with
  | nil => simp [endsFrom, connectivityOf]
  | cons c a ih =>
    simp only [List.cons_append, endsFrom, ih, connectivityOf, List.flatMap_cons,
      List.length_append, Nat.add_assoc]

theorem length_endsFrom (i : Nat) (a : List VtkCell) : (endsFrom i a).length = a.length := by
  induction a generalizing i with
  | nil => rfl
  | cons c a ih => simp [endsFrom, ih]

/-- Indices `0..n-1` relative to the end of a cell give the cell. -/
theorem gatherRow_eq (pre nodes post : List Int) (order : List Nat) (n : Nat)
    (hn : nodes.length = n) :
    mapRes (fun (j : Nat) => npIndex (pre ++ (nodes ++ post))
      (((pre.length + n : Nat) : Int) + ((j : Int) - (n : Int)))) order =
    mapRes (fun (j : Nat) => npIndex (pre ++ (nodes ++ post)) ((pre.length + j : Nat) : Int)) order := by
  congr 1
  funext j
  congr 1
  push_cast; omega

theorem mapRes_range_nodes (pre nodes post : List Int) :
    mapRes (fun (j : Nat) => npIndex (pre ++ (nodes ++ post)) ((pre.length + j : Nat) : Int))
      (List.range nodes.length) = .ok nodes := by
  rw [mapRes_ok_of_forall (g := fun j => nodes[j]?.getD 0)]
  · congr 1
    apply List.ext_getElem
    · simp
    · intro i h1 h2; simp [List.getElem?_eq_getElem h2]
  · intro j hj
    rw [List.mem_range] at hj
    rw [npIndex_append pre nodes post j hj]; simp [hj]

theorem gather_row (code : Nat) (pre nodes post : List Int)
    (h13 : code = 13 → nodes.length = 6) :
    mapRes (fun (j : Nat) => npIndex (pre ++ (nodes ++ post))
      (((pre.length + nodes.length : Nat) : Int) + ((j : Int) - (nodes.length : Int))))
        (newOrder code nodes.length) = .ok (fromVtk code nodes) := by
  rw [gatherRow_eq pre nodes post _ _ rfl]
  by_cases h : code = 13
  · have h6 := h13 h
    subst h
    match nodes, h6 with
    | [a, b, c, d, e, f], _ =>
      have hn : newOrder 13 (([a, b, c, d, e, f] : List Int).length : Nat) = [0, 2, 1, 3, 5, 4] := rfl
      rw [hn]
      have hi := fun (j : Nat) (hj : j < 6) =>
        npIndex_append pre [a, b, c, d, e, f] post j (by simpa using hj)
      simp only [mapRes]
      rw [hi 0 (by omega), hi 2 (by omega), hi 1 (by omega), hi 3 (by omega), hi 5 (by omega),
        hi 4 (by omega)]
      rfl
  · have : newOrder code (nodes.length : Int) = List.range nodes.length := by
      simp [newOrder, vtkToMeshioOrder, h]
    rw [this, mapRes_range_nodes]
    congr 1
    unfold fromVtk
    split
    · exact absurd rfl h
    · rfl

theorem gatherRows_run (code n : Nat) (run : List VtkCell) (pre post : List Int)
    (hrun : ∀ c ∈ run, c.1 = code ∧ c.2.length = n) (h13 : code = 13 → n = 6) :
    gatherRows (pre ++ (connectivityOf run ++ post)) (endsFrom pre.length run)
      (newOrder code n) n = .ok (run.map (fun c => fromVtk c.1 c.2)) := by
  unfold gatherRows
  induction run generalizing pre with
  | nil => rfl
  | cons c run ih =>
    obtain ⟨hc, hl⟩ := hrun c (by simp)
    have e1 : pre ++ (connectivityOf (c :: run) ++ post) =
        pre ++ (c.2 ++ (connectivityOf run ++ post)) := by simp [connectivityOf]
    have e2 : pre ++ (c.2 ++ (connectivityOf run ++ post)) =
        (pre ++ c.2) ++ (connectivityOf run ++ post) := by simp
    simp only [endsFrom, mapRes]
    have hg := gather_row code pre c.2 (connectivityOf run ++ post) (fun h => by rw [hl]; exact h13 h)
    rw [hl] at hg
    rw [e1, hl, hg]
    have := ih (pre ++ c.2) (fun d hd => hrun d (by simp [hd]))
    rw [List.length_append, hl] at this
    rw [e2, this]
    simp [hc]

/-- Pieces for a list of runs starting at cell `a`. -/
def piecesOf (a : Nat) : List (List VtkCell) → List Piece
  | [] => []
  | r :: rs =>
    (match vtkBlock r with
      | none => []
      | some b => [(b, (a, a + r.length))]) ++ piecesOf (a + r.length) rs

theorem piecesOf_append (a : Nat) (r s : List (List VtkCell)) :
    piecesOf a (r ++ s) = piecesOf a r ++ piecesOf (a + r.flatten.length) s := by
  induction r generalizing a with
  | nil => simp [piecesOf]
  | cons x r ih =>
    simp only [List.cons_append, piecesOf, ih, List.flatten_cons, List.length_append,
      Nat.add_assoc, List.append_assoc]

theorem pySlice_mid {α : Type} (a b c : List α) :
    pySlice (a ++ (b ++ c)) a.length (a.length + b.length) = b := by
  simp [pySlice]

theorem npDiff_ends (L : Nat) (run : List VtkCell) :
    npDiff ((L : Int) :: endsFrom L run) = run.map (fun c => (c.2.length : Int)) := by
  induction run generalizing L with
  | nil => rfl
  | cons c run ih =>
    simp only [endsFrom, npDiff, List.map_cons, ih]
    congr 1
    omega

variable {R : Type}

theorem sizeRuns_ok (code : Nat) (t : String) (hname : vtkName code = some t)
    (hk : KnownType t) (h13 : code ≠ 13) (raw : Dict (List R)) (hraw : Dict.Ok raw)
    (conn : List Int) (start L : Nat) (run : List VtkCell)
    (hcode : ∀ c ∈ run, c.1 = code)
    (pre0 post0 : List Int) (hconn : conn = pre0 ++ (connectivityOf run ++ post0))
    (hL : pre0.length = L) (hdata : ∀ kd ∈ raw, start + run.length ≤ kd.2.length)
    (done : List VtkCell) (inner : List (List VtkCell)) (hsplit : run = done ++ inner.flatten)
    (hu : ∀ r ∈ inner, r ≠ [] ∧ ∀ c ∈ r, ∀ c' ∈ r, c.2.length = c'.2.length)
    (ps : List Piece) :
    foldRes (sizeRun conn raw code t start ((L : Int) :: endsFrom L run)
        (run.map (fun c => (c.2.length : Int)))) (stOf raw ps)
        (segsFrom done.length (inner.map List.length)) =
      .ok (stOf raw (ps ++ piecesOf (start + done.length) inner)) := by
  induction inner generalizing done ps with
  | nil => simp [segsFrom, foldRes, piecesOf]
  | cons r inner ih =>
    obtain ⟨hne, hlen⟩ := hu r (by simp)
    cases r with
    | nil => exact absurd rfl hne
    | cons c r =>
      simp only [List.flatten_cons] at hsplit
      have hr : ∀ d ∈ c :: r, d.1 = code ∧ d.2.length = c.2.length := by
        intro d hd
        exact ⟨hcode d (by rw [hsplit]; simp at hd ⊢; tauto), hlen d hd c (by simp)⟩
      simp only [List.map_cons, segsFrom, foldRes]
      have hs : (run.map (fun c => (c.2.length : Int)))[done.length]? = some (c.2.length : Int) := by
        rw [hsplit]; simp
      have hstep : sizeRun conn raw code t start ((L : Int) :: endsFrom L run)
          (run.map (fun c => (c.2.length : Int))) (stOf raw ps)
          (done.length, done.length + (c :: r).length) =
          .ok (stOf raw (ps ++ [((t, (c :: r).map (fun c => fromVtk c.1 c.2)),
            (start + done.length, start + done.length + (c :: r).length))])) := by
        unfold sizeRun
        simp only [hs]
        have hoff : pySlice ((L : Int) :: endsFrom L run) (done.length + 1)
            (done.length + (c :: r).length + 1) =
            endsFrom (L + (connectivityOf done).length) (c :: r) := by
          have : pySlice ((L : Int) :: endsFrom L run) (done.length + 1)
            (done.length + (c :: r).length + 1) =
              pySlice (endsFrom L run) done.length (done.length + (c :: r).length) := by
            simp only [pySlice, List.drop_succ_cons]
            congr 1; omega
          rw [this, hsplit, endsFrom_append, endsFrom_append]
          have := pySlice_mid (endsFrom L done)
            (endsFrom (L + (connectivityOf done).length) (c :: r))
            (endsFrom (L + (connectivityOf done).length + (connectivityOf (c :: r)).length)
              inner.flatten)
          rw [length_endsFrom, length_endsFrom] at this
          exact this
        rw [hoff]
        have hc : conn = (pre0 ++ connectivityOf done) ++
            (connectivityOf (c :: r) ++ (connectivityOf inner.flatten ++ post0)) := by
          rw [hconn, hsplit]; simp [connectivityOf]
        have hg := gatherRows_run code c.2.length (c :: r) (pre0 ++ connectivityOf done)
          (connectivityOf inner.flatten ++ post0) hr (fun h => absurd h h13)
        rw [← hc, List.length_append, hL] at hg
        rw [hg]
        simp only [newBlk_ok hk]
        rw [addData_stOf raw hraw ps (t, (c :: r).map (fun c => fromVtk c.1 c.2))
          (start + done.length) (start + done.length + (c :: r).length)]
        · simp only [stOf_fst raw ps ((t, (c :: r).map (fun c => fromVtk c.1 c.2)),
            (start + done.length, start + done.length + (c :: r).length))]
        · intro kd hkd
          have h1 := hdata kd hkd
          rw [hsplit] at h1
          simp only [List.length_append] at h1
          unfold gatherData
          rw [← Nat.add_assoc]
          rw [if_pos (by omega)]
      rw [hstep]
      simp only
      have hd : (done ++ (c :: r)).length = done.length + (c :: r).length := by simp
      have := ih (done ++ (c :: r)) (by rw [hsplit]; simp) (fun r' h => hu r' (by simp [h]))
        (ps ++ [((t, (c :: r).map (fun c => fromVtk c.1 c.2)),
            (start + done.length, start + done.length + (c :: r).length))])
      rw [hd] at this
      rw [this]
      have hb : vtkBlock (c :: r) = some (t, (c :: r).map (fun c => fromVtk c.1 c.2)) := by
        have hc : c.1 = code := (hr c (by simp)).1
        simp only [vtkBlock, hc, hname, Option.map_some]
      simp only [piecesOf, hb, List.append_assoc, List.cons_append, List.nil_append, Nat.add_assoc]

theorem first_ok (cs done rest : List VtkCell) (h : cs = done ++ rest) :
    (if done.length = 0 then (0 : Int) else ((endsFrom 0 cs)[done.length - 1]?).getD 0) =
      ((connectivityOf done).length : Int) := by
  rcases List.eq_nil_or_concat done with rfl | ⟨d, c, rfl⟩
  · simp [connectivityOf]
  · rw [if_neg (by simp), h]
    have : endsFrom 0 (d.concat c ++ rest) =
        endsFrom 0 d ++ (((connectivityOf (d.concat c)).length : Nat) : Int) ::
          endsFrom ((connectivityOf (d.concat c)).length) rest := by
      rw [endsFrom_append, List.concat_eq_append, endsFrom_append]
      simp [endsFrom, connectivityOf]
    rw [this, List.getElem?_append_right (by simp [length_endsFrom])]
    simp [length_endsFrom]

theorem vtkRuns_uniform {run : List VtkCell} {code : Nat} (h : ∀ c ∈ run, c.1 = code) :
    vtkRuns run = runsBy (fun c => (c.2.length : Int)) run := by
  apply runsBy_congr_key
  intro a ha b hb
  rw [h a ha, h b hb]
  simp only [Prod.mk.injEq, true_and]
  omega

theorem piecesOf_none (a : Nat) (rs : List (List VtkCell)) (h : ∀ r ∈ rs, vtkBlock r = none) :
    piecesOf a rs = [] := by
  induction rs generalizing a with
  | nil => rfl
  | cons r rs ih => simp [piecesOf, h r (by simp), ih _ (fun r' h' => h r' (by simp [h']))]

theorem typeRun_ok (raw : Dict (List R)) (hraw : Dict.Ok raw) (cs : List VtkCell)
    (hcs : ∀ c ∈ cs, Readable c) (extra : List Int)
    (hdata : ∀ kd ∈ raw, cs.length ≤ kd.2.length)
    (done run rest : List VtkCell) (hsplit : cs = done ++ (run ++ rest)) (hne : run ≠ [])
    (hu : ∀ c ∈ run, ∀ c' ∈ run, c.1 = c'.1) (ps : List Piece) :
    typeRun (connectivityOf cs ++ extra) (endsFrom 0 cs) (cs.map (·.1)) raw (stOf raw ps)
        (done.length, done.length + run.length) =
      .ok (stOf raw (ps ++ piecesOf done.length (vtkRuns run))) := by
  cases run with
  | nil => exact absurd rfl hne
  | cons c run =>
    have hcode : ∀ d ∈ c :: run, d.1 = c.1 := fun d hd => hu d hd c (by simp)
    have ht : (cs.map (·.1))[done.length]? = some c.1 := by rw [hsplit]; simp
    have hconn : connectivityOf cs ++ extra = connectivityOf done ++
        (connectivityOf (c :: run) ++ (connectivityOf rest ++ extra)) := by
      rw [hsplit]; simp [connectivityOf]
    have hoff : pySlice (endsFrom 0 cs) done.length (done.length + (c :: run).length) =
        endsFrom (connectivityOf done).length (c :: run) := by
      rw [hsplit, endsFrom_append, endsFrom_append]
      have := pySlice_mid (endsFrom 0 done)
        (endsFrom (0 + (connectivityOf done).length) (c :: run))
        (endsFrom (0 + (connectivityOf done).length + (connectivityOf (c :: run)).length) rest)
      rw [length_endsFrom, length_endsFrom] at this
      simpa using this
    have hlen : ∀ kd ∈ raw, done.length + (c :: run).length ≤ kd.2.length := by
      intro kd hkd
      have := hdata kd hkd
      rw [hsplit] at this
      simp only [List.length_append] at this
      omega
    unfold typeRun
    simp only [ht]
    have hmem : ∀ d ∈ c :: run, d ∈ cs := by
      intro d hd; rw [hsplit]; simp at hd ⊢; tauto
    rcases hcs c (hmem c (by simp)) with hnone | ⟨t, hname, hknown, hsz⟩
    · rw [← vtkName_eq, hnone]
      simp only
      rw [piecesOf_none, List.append_nil]
      intro r hr
      have hflat := flatten_runsBy (fun c : VtkCell => (c.1, c.2.length)) (c :: run)
      cases r with
      | nil => rfl
      | cons x r =>
        have : x ∈ c :: run := by
          rw [← hflat, List.mem_flatten]; exact ⟨_, hr, by simp⟩
        simp [vtkBlock, hcode x this, hnone]
    · rw [← vtkName_eq, hname]
      have hfind : find vtkToMeshio c.1 = some t := by rw [← vtkName_eq]; exact hname
      simp only
      by_cases hsp : t ∈ specialCells
      · rw [if_pos hsp, first_ok cs done ((c :: run) ++ rest) hsplit, hoff, npDiff_ends]
        have hv : c.1 ∈ varSize := (special_iff hfind).1 hsp
        have h13 : c.1 ≠ 13 := by intro e; rw [e] at hv; exact absurd hv (by decide)
        have hse : startEnd ((c :: run).map (fun c : VtkCell => (c.2.length : Int))) =
            segsFrom 0 ((vtkRuns (c :: run)).map List.length) := by
          rw [startEnd_eq (by simp), vtkRuns_uniform hcode, map_length_runsBy]
        rw [hse]
        have := sizeRuns_ok c.1 t hname hknown h13 raw hraw (connectivityOf cs ++ extra)
          done.length (connectivityOf done).length (c :: run) hcode (connectivityOf done)
          (connectivityOf rest ++ extra) hconn rfl hlen [] (vtkRuns (c :: run))
          (by simp [vtkRuns, flatten_runsBy])
          (fun r hr => ⟨runsBy_ne_nil _ _ r hr, fun a ha b hb => by
            have := runsBy_uniform _ _ r hr a ha b hb
            simp only [Prod.mk.injEq] at this
            exact this.2⟩) ps
        simpa using this
      · rw [if_neg hsp]
        have hnv : ∀ d ∈ c :: run, d.1 ∉ varSize := by
          intro d hd hh
          exact hsp ((special_iff hfind).2 (by rw [← hcode d hd]; exact hh))
        have hn : numNodesPerCell.get? t = some c.2.length := by
          rcases hsz with h | h
          · exact absurd h (hnv c (by simp))
          · exact h
        have hall : ∀ d ∈ c :: run, d.1 = c.1 ∧ d.2.length = c.2.length := by
          intro d hd
          refine ⟨hcode d hd, ?_⟩
          rcases hcs d (hmem d hd) with h | ⟨t', h1, _, h3⟩
          · rw [hcode d hd, hname] at h; cases h
          · rw [hcode d hd, hname] at h1
            cases h1
            rcases h3 with h3 | h3
            · exact absurd h3 (hnv d hd)
            · rw [hn] at h3; injection h3 with h3; omega
        have h13 : c.1 = 13 → c.2.length = 6 := by
          intro e
          have hw : vtkName 13 = some "wedge" := by decide +kernel
          rw [e, hw] at hname
          cases hname
          have h6 : numNodesPerCell.get? "wedge" = some 6 := by decide +kernel
          rw [h6] at hn; injection hn with hn; omega
        simp only [hn, hoff]
        rw [hconn, gatherRows_run c.1 c.2.length (c :: run) (connectivityOf done)
          (connectivityOf rest ++ extra) hall h13]
        simp only [newBlk_ok hknown]
        rw [addData_stOf raw hraw ps (t, (c :: run).map (fun c => fromVtk c.1 c.2))
          done.length (done.length + (c :: run).length) _ (fun _ _ => rfl)]
        have hone : vtkRuns (c :: run) = [c :: run] := by
          apply runsBy_const
          intro b hb
          have := hall b (by simp [hb])
          simp [this.1, this.2]
        have hb : vtkBlock (c :: run) = some (t, (c :: run).map (fun c => fromVtk c.1 c.2)) := by
          simp only [vtkBlock, hname, Option.map_some]
        have := stOf_fst raw ps ((t, (c :: run).map (fun c => fromVtk c.1 c.2)),
            (done.length, done.length + (c :: run).length))
        simp only at this
        simp only [hone, piecesOf, hb, List.append_nil, this]

theorem typeRuns_ok (raw : Dict (List R)) (hraw : Dict.Ok raw) (cs : List VtkCell)
    (hcs : ∀ c ∈ cs, Readable c) (extra : List Int)
    (hdata : ∀ kd ∈ raw, cs.length ≤ kd.2.length)
    (done : List VtkCell) (runs : List (List VtkCell)) (hsplit : cs = done ++ runs.flatten)
    (hu : ∀ r ∈ runs, r ≠ [] ∧ ∀ c ∈ r, ∀ c' ∈ r, c.1 = c'.1) (ps : List Piece) :
    foldRes (typeRun (connectivityOf cs ++ extra) (endsFrom 0 cs) (cs.map (·.1)) raw)
        (stOf raw ps) (segsFrom done.length (runs.map List.length)) =
      .ok (stOf raw (ps ++ piecesOf done.length (runs.flatMap vtkRuns))) := by
  induction runs generalizing done ps with
  | nil => simp [segsFrom, foldRes, piecesOf]
  | cons r runs ih =>
    simp only [List.flatten_cons] at hsplit
    simp only [List.map_cons, segsFrom, foldRes]
    rw [typeRun_ok raw hraw cs hcs extra hdata done r runs.flatten hsplit (hu r (by simp)).1
      (hu r (by simp)).2 ps]
    simp only
    have := ih (done ++ r) (by rw [hsplit]; simp) (fun r' h => hu r' (by simp [h]))
      (ps ++ piecesOf done.length (vtkRuns r))
    rw [List.length_append] at this
    rw [this, List.flatMap_cons, piecesOf_append]
    simp [vtkRuns, flatten_runsBy]

theorem vtkRuns_refine (cs : List VtkCell) : vtkRuns cs = (runsBy (·.1) cs).flatMap vtkRuns :=
  runsBy_refine _ _ (by intro a b h; simp at h; exact h.1) cs

theorem map_fst_piecesOf (a : Nat) (rs : List (List VtkCell)) :
    (piecesOf a rs).map (·.1) = rs.filterMap vtkBlock := by
  induction rs generalizing a with
  | nil => rfl
  | cons r rs ih =>
    simp only [piecesOf, List.map_append, ih, List.filterMap_cons]
    cases vtkBlock r <;> simp

theorem slices_piecesOf (ns : List Nat) (hpos : ∀ n ∈ ns, 0 < n) (cs : List VtkCell) (d : List R)
    (a : Nat) (hsum : ns.sum = cs.length) (hd : d.length = a + cs.length) :
    (piecesOf a (splitLens ns cs)).map (fun p => pySlice d p.2.1 p.2.2) =
      (splitLens ns (cs.zip (d.drop a))).filterMap vtkRunData := by
  induction ns generalizing cs a with
  | nil => rfl
  | cons n ns ih =>
    simp only [List.sum_cons] at hsum
    have hn := hpos n (by simp)
    simp only [splitLens, piecesOf, List.map_append, List.filterMap_cons]
    have hlen : (cs.take n).length = n := by simp; omega
    rw [hlen, ih (fun m hm => hpos m (by simp [hm])) (cs.drop n) (a + n) (by simp; omega)
      (by simp; omega)]
    have hz : (cs.zip (d.drop a)).drop n = (cs.drop n).zip (d.drop (a + n)) := by
      rw [List.zip, List.drop_zipWith, ← List.zip, List.drop_drop]
    rw [hz]
    cases cs with
    | nil => simp at hsum; omega
    | cons c cs =>
      obtain ⟨m, rfl⟩ : ∃ m, n = m + 1 := ⟨n - 1, by omega⟩
      cases hda : d.drop a with
      | nil => have := congrArg List.length hda; simp at this; simp at hd; omega
      | cons x dd =>
        have hl : dd.length = cs.length := by
          have := congrArg List.length hda; simp at this; simp at hd; omega
        have hs : pySlice d a (a + (m + 1)) = x :: dd.take m := by
          simp [pySlice, hda]
        have hmap : (List.take m (cs.zip dd)).map (·.2) = dd.take m := by
          rw [List.map_take, List.map_snd_zip (by omega)]
        simp only [List.take_succ_cons, vtkBlock, List.zip_cons_cons, vtkRunData]
        cases vtkName c.1 with
        | none => simp
        | some t => simp [hs, hmap]

theorem vtkRuns_splitLens (cs : List VtkCell) :
    vtkRuns cs = splitLens (runLens (cs.map (fun c => (c.1, c.2.length)))) cs :=
  runsBy_eq_splitLens _ _

theorem vtkCellsFromData_ok (cs : List VtkCell) (hne : cs ≠ []) (hcs : ∀ c ∈ cs, Readable c)
    (extra : List Int) (raw : Dict (List R)) (hraw : Dict.Ok raw)
    (hdata : ∀ kd ∈ raw, kd.2.length = cs.length) :
    vtkCellsFromData (connectivityOf cs ++ extra) (endsFrom 0 cs) (cs.map (·.1)) raw =
      .ok (vtkBlocks cs,
        if vtkBlocks cs = [] then [] else raw.map (fun kd => (kd.1, vtkData cs kd.2))) := by
  unfold vtkCellsFromData
  rw [if_neg (by simp [length_endsFrom]), startEnd_eq (by simpa using hne)]
  have h := typeRuns_ok raw hraw cs hcs extra (fun kd h => by rw [hdata kd h]; omega) []
    (runsBy (·.1) cs) (by simp [flatten_runsBy])
    (fun r hr => ⟨runsBy_ne_nil _ _ r hr, runsBy_uniform _ _ r hr⟩) []
  rw [map_length_runsBy] at h
  have h0 : stOf raw [] = ([], []) := by simp [stOf]
  rw [h0] at h
  simp only [List.length_nil, List.nil_append] at h
  rw [h, ← vtkRuns_refine]
  unfold stOf
  have h1 := map_fst_piecesOf 0 (vtkRuns cs)
  have h2 : (piecesOf 0 (vtkRuns cs) = []) ↔ (vtkBlocks cs = []) := by
    unfold vtkBlocks; rw [← h1]; simp
  simp only [h1, h2]
  congr 2
  split
  · rfl
  · apply List.map_congr_left
    intro kd hkd
    have h3 := slices_piecesOf (runLens (cs.map (fun c => (c.1, c.2.length))))
      (fun n hn => runLens_pos hn) cs kd.2 0 (by rw [sum_runLens]; simp)
      (by rw [hdata kd hkd]; simp)
    rw [vtkRuns_splitLens, h3]
    unfold vtkData
    rw [runsBy_eq_splitLens]
    have : (cs.zip kd.2).map (fun c => (c.1.1, c.1.2.length)) =
        cs.map (fun c => (c.1, c.2.length)) := by
      have : (cs.zip kd.2).map (fun c => (c.1.1, c.1.2.length)) =
          ((cs.zip kd.2).map (·.1)).map (fun c => (c.1, c.2.length)) := by simp
      rw [this, List.map_fst_zip (by rw [hdata kd hkd]; omega)]
    rw [this, List.drop_zero]

end Meshio.Vtk
