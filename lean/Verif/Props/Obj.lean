/-
C27: the OBJ format.
-/
import Verif.Model.Obj
import Verif.Proofs.Runs
namespace Meshio.Props
open Meshio Meshio.Spec Meshio.Obj

variable {F : Type}

/-- The type name for faces with a number of nodes. -/
def sizeName : Nat → String
  | 3 => "triangle"
  | 4 => "quad"
  | _ => "polygon"

/-- The blocks expected for a sequence of faces: one per maximal run of equal size. -/
def faceRuns (faces : List (List Int)) : List (String × List (List Int)) :=
  (runsBy List.length faces).filterMap (fun r => r.head?.map (fun f => (sizeName f.length, r)))

theorem objStep_line (fio : FloatIO F) (st : St F) (w : String) (hw : IsTok w.toList)
    (hc : w.toList.head? ≠ some '#') (args : List (List Char)) (ha : ∀ t ∈ args, IsTok t) :
    step fio st (outLine w args ++ ['\n']) =
      if w.toList = "v".toList then
        match floats fio args with
        | .error e => .error e
        | .ok x => .ok { st with points := st.points ++ [x] }
      else if w.toList = "vn".toList then
        match floats fio args with
        | .error e => .error e
        | .ok x => .ok { st with vn := st.vn ++ [x] }
      else if w.toList = "vt".toList then
        match floats fio args with
        | .error e => .error e
        | .ok x => .ok { st with vt := st.vt ++ [x] }
      else if w.toList = "s".toList then .ok st
      else if w.toList = "f".toList then
        match mapRes faceNode args with
        | .error e => .error e
        | .ok dat => .ok (addFace st dat)
      else if w.toList = "g".toList then
        .ok { st with groups := st.groups ++ [[]], groupIds := st.groupIds ++ [[]], gid := st.gid + 1 }
      else .ok st := by
  obtain ⟨h1, h2, h3⟩ := line_tokens w.toList args (by
    intro t ht
    rcases List.mem_cons.mp ht with rfl | ht
    · exact hw
    · exact ha t ht)
  unfold step outLine
  rw [if_neg (by
    intro h
    rcases h with h | h
    · exact h2 h
    · rw [h3] at h; exact hc h), h1]
  rfl

theorem floats_fmt (fio : FloatIO F) (r : List F) : floats fio (r.map fio.fmt) = .ok r := by
  unfold floats
  induction r with
  | nil => rfl
  | cons x r ih => simp only [List.map_cons, mapRes, fio.parse_fmt, ih]

theorem faceNode_fmt (i : Int) : faceNode (fmtInt i) = .ok i := by
  unfold faceNode
  rw [splitOnC_not_mem '/' _ (not_mem_fmtInt (by decide) (by decide) i)]
  simp

theorem toks_fmt (fio : FloatIO F) (r : List F) : ∀ t ∈ r.map fio.fmt, IsTok t := by
  intro t ht
  obtain ⟨x, _, rfl⟩ := List.mem_map.mp ht
  exact fio.tok x

theorem toks_int (r : List Int) : ∀ t ∈ r.map fmtInt, IsTok t := by
  intro t ht
  obtain ⟨x, _, rfl⟩ := List.mem_map.mp ht
  exact isTok_fmtInt x

theorem objRead_points (fio : FloatIO F) (ps : List (List F)) (st : St F) (rest : List (List Char)) :
    foldRes (step fio) st (ps.map (fun r => outLine "v" (r.map fio.fmt) ++ ['\n']) ++ rest) =
      foldRes (step fio) { st with points := st.points ++ ps } rest := by
  induction ps generalizing st with
  | nil => simp
  | cons p ps ih =>
    rw [List.map_cons, List.cons_append, foldRes, objStep_line fio st "v" (by decide) (by decide) _ (toks_fmt fio p)]
    simp only [floats_fmt, if_true]
    rw [ih]
    simp

theorem objRead_vn (fio : FloatIO F) (ps : List (List F)) (st : St F) (rest : List (List Char)) :
    foldRes (step fio) st (ps.map (fun r => outLine "vn" (r.map fio.fmt) ++ ['\n']) ++ rest) =
      foldRes (step fio) { st with vn := st.vn ++ ps } rest := by
  induction ps generalizing st with
  | nil => simp
  | cons p ps ih =>
    rw [List.map_cons, List.cons_append, foldRes, objStep_line fio st "vn" (by decide) (by decide) _ (toks_fmt fio p)]
    rw [if_neg (by decide), if_pos rfl]
    simp only [floats_fmt]
    rw [ih]
    simp

theorem objRead_vt (fio : FloatIO F) (ps : List (List F)) (st : St F) (rest : List (List Char)) :
    foldRes (step fio) st (ps.map (fun r => outLine "vt" (r.map fio.fmt) ++ ['\n']) ++ rest) =
      foldRes (step fio) { st with vt := st.vt ++ ps } rest := by
  induction ps generalizing st with
  | nil => simp
  | cons p ps ih =>
    rw [List.map_cons, List.cons_append, foldRes, objStep_line fio st "vt" (by decide) (by decide) _ (toks_fmt fio p)]
    rw [if_neg (by decide), if_neg (by decide), if_pos rfl]
    simp only [floats_fmt]
    rw [ih]
    simp

theorem objRead_faces (fio : FloatIO F) (fs : List (List Int)) (st : St F) :
    foldRes (step fio) st (fs.map (fun r => outLine "f" (r.map fmtInt) ++ ['\n'])) =
      .ok (fs.foldl addFace st) := by
  induction fs generalizing st with
  | nil => rfl
  | cons p fs ih =>
    rw [List.map_cons, foldRes, objStep_line fio st "f" (by decide) (by decide) _ (toks_int p)]
    have : mapRes faceNode (p.map fmtInt) = .ok p := by
      have := mapRes_ok_of_forall (f := faceNode) (g := fun t => (parseInt t).getD 0) (l := p.map fmtInt)
        (by
          intro t ht
          obtain ⟨x, _, rfl⟩ := List.mem_map.mp ht
          rw [faceNode_fmt]; simp)
      rw [this, List.map_map]
      simp [Function.comp_def]
    rw [if_neg (by decide), if_neg (by decide), if_neg (by decide), if_neg (by decide), if_pos rfl, this]
    simp only []
    rw [ih]
    rfl

/-- Same size as the last face of the group. -/
def sameSize (b : List (List Int)) (a : List Int) : Bool := b.getLast?.map List.length == some a.length

theorem addFace_groups (st : St F) (dat : List Int) (hne : ∀ g ∈ st.groups, g ≠ [])
    (hid : st.groupIds = st.groups.map (List.map (fun _ => st.gid))) :
    (addFace st dat).groups = pushBy sameSize (fun b a => b ++ [a]) (fun a => [a]) st.groups dat ∧
    (∀ g ∈ (addFace st dat).groups, g ≠ []) ∧
    (addFace st dat).groupIds = (addFace st dat).groups.map (List.map (fun _ => st.gid)) ∧
    (addFace st dat).gid = st.gid ∧ (addFace st dat).points = st.points ∧
    (addFace st dat).vn = st.vn ∧ (addFace st dat).vt = st.vt := by
  have key : (addFace st dat).groups = pushBy sameSize (fun b a => b ++ [a]) (fun a => [a]) st.groups dat ∧
    (∀ g ∈ (addFace st dat).groups, g ≠ []) ∧
    (addFace st dat).groupIds = (addFace st dat).groups.map (List.map (fun _ => st.gid)) := by
    rcases List.eq_nil_or_concat st.groups with h | ⟨pre, g, h⟩
    · simp [addFace, needGroup, h, hid, appendLast, pushBy]
    · rw [List.concat_eq_append] at h
      have hg : g ≠ [] := hne g (by rw [h]; simp)
      obtain ⟨r, hr⟩ : ∃ r, g.getLast? = some r := by
        cases hl : g.getLast? with
        | none => rw [List.getLast?_eq_none_iff] at hl; exact absurd hl hg
        | some r => exact ⟨r, rfl⟩
      have hpre : ∀ x ∈ pre, x ≠ [] := fun x hx => hne x (by rw [h]; simp [hx])
      by_cases hs : r.length = dat.length
      · have hn : needGroup (pre ++ [g]) dat = false := by simp [needGroup, hr, hs]
        have hsame : sameSize g dat = true := by simp [sameSize, hr, hs]
        simp only [addFace, h, hn, hid, pushBy, appendLast]
        simp [hsame]
        intro a ha
        rcases ha with ha | rfl
        · exact hpre a ha
        · simp
      · have hn : needGroup (pre ++ [g]) dat = true := by simp [needGroup, hr, hs]
        have hsame : sameSize g dat = false := by simp [sameSize, hr, hs]
        simp only [addFace, h, hn, hid, pushBy, appendLast]
        simp [hsame]
        intro a ha
        rcases ha with ha | rfl | rfl
        · exact hpre a ha
        · exact hg
        · simp
  exact ⟨key.1, key.2.1, key.2.2, rfl, rfl, rfl, rfl⟩

theorem foldl_addFace (fs : List (List Int)) (st : St F) (hne : ∀ g ∈ st.groups, g ≠ [])
    (hid : st.groupIds = st.groups.map (List.map (fun _ => st.gid))) :
    fs.foldl addFace st =
      ⟨st.points, st.vn, st.vt,
        fs.foldl (pushBy sameSize (fun b a => b ++ [a]) (fun a => [a])) st.groups,
        (fs.foldl (pushBy sameSize (fun b a => b ++ [a]) (fun a => [a])) st.groups).map
          (List.map (fun _ => st.gid)), st.gid⟩ := by
  induction fs generalizing st with
  | nil => simp only [List.foldl_nil, ← hid]
  | cons f fs ih =>
    obtain ⟨h1, h2, h3, h4, h5, h6, h7⟩ := addFace_groups st f hne hid
    rw [List.foldl_cons, ih _ h2 (by rw [h3, h4]), h1, h4, h5, h6, h7]
    rfl

theorem foldl_sameSize (fs : List (List Int)) :
    fs.foldl (pushBy sameSize (fun b a => b ++ [a]) (fun a => [a])) [] = runsBy List.length fs := by
  have := foldl_pushBy (k := List.length) (same := sameSize) (app := fun b a => b ++ [a])
    (new := fun a : List Int => [a]) (f := id) (fun _ => rfl)
    (by
      intro r x a hu
      unfold sameSize
      have : ∃ y, (x :: r).getLast? = some y ∧ y.length = x.length := by
        refine ⟨(x :: r).getLast (by simp), List.getLast?_eq_some_getLast (by simp), ?_⟩
        have := List.getLast_mem (show x :: r ≠ [] by simp)
        rcases List.mem_cons.mp this with h | h
        · rw [h]
        · exact hu _ h
      obtain ⟨y, h1, h2⟩ := this
      simp only [id, h1, Option.map_some, h2]
      simp)
    (by intro r x a _ _; simp) fs
  rw [this]; simp

theorem npArray_run {α : Type} (r : List (List α)) (h : ∀ a ∈ r, ∀ b ∈ r, a.length = b.length) :
    npArray r = .ok r := by
  cases r with
  | nil => rfl
  | cons a r =>
    unfold npArray
    simp only []
    rw [if_pos]
    rw [List.all_eq_true]
    intro b hb
    simpa using h b (by simp [hb]) a (by simp)

theorem faceType_eq (n : Nat) : faceType n = sizeName n := by
  unfold faceType
  split
  · next h => subst h; rfl
  · split
    · next h => subst h; rfl
    · next h3 h4 =>
      unfold sizeName
      split
      · exact absurd rfl h3
      · exact absurd rfl h4
      · rfl

theorem mapRes_faceBlock (fs : List (List Int)) :
    mapRes faceBlock (runsBy List.length fs) =
      .ok (faceRuns (fs.map (fun r => r.map (· - 1)))) := by
  have hu := runsBy_uniform List.length fs
  have hn := runsBy_ne_nil List.length fs
  rw [mapRes_ok_of_forall (g := fun r => (sizeName ((r.head?.getD []).length), r.map (fun f => f.map (· - 1))))]
  · congr 1
    unfold faceRuns
    rw [runsBy_map]
    simp only [List.length_map]
    rw [List.filterMap_map, ← List.filterMap_eq_map]
    apply filterMap_congr'
    intro r hr
    cases r with
    | nil => exact absurd rfl (hn _ hr)
    | cons f r => simp
  · intro r hr
    unfold faceBlock
    rw [npArray_run r (fun a ha b hb => hu r hr a ha b hb)]
    simp only [faceType_eq]

/-- What writing and reading gives, for any 3D points, faces and optional normals and
texture coordinates (one per point). -/
theorem C27_roundtrip (fio : FloatIO F) (stamp : List Char) (hstamp : '\n' ∉ stamp)
    (points : List (List F)) (hp : ∀ p ∈ points, p.length = 3)
    (cells : List (String × List (List Int)))
    (hc : ∀ c ∈ cells, c.1 ∈ ["triangle", "quad", "polygon"])
    (vn vt : Option (List (List F))) (k l : Nat)
    (hvn : ∀ d, vn = some d → d.length = points.length ∧ ∀ r ∈ d, r.length = k)
    (hvt : ∀ d, vt = some d → d.length = points.length ∧ ∀ r ∈ d, r.length = l) :
    ∃ s m, Obj.write fio stamp points cells vn vt = .ok s ∧ Obj.read fio s = .ok m ∧
      m.points = points ∧ m.cells = faceRuns (cells.flatMap (·.2)) ∧
      m.groupIds = m.cells.map (fun b => b.2.map (fun _ => -1)) ∧
      (points ≠ [] → m.vn = vn ∧ m.vt = vt) := by
  have hw : ¬ (cells.any (fun c => !(["triangle", "quad", "polygon"].contains c.1)) = true) := by
    rw [List.any_eq_true]
    rintro ⟨c, hcm, h⟩
    have := hc c hcm
    rw [List.contains_iff_mem.mpr this] at h
    cases h
  have hpl : mapRes (pointLine fio) points = .ok (points.map (fun p => outLine "v" (p.map fio.fmt))) := by
    apply mapRes_ok_of_forall
    intro p hpm
    have := hp p hpm
    match p, this with
    | [a, b, c], _ => rfl
  have hwr : Obj.write fio stamp points cells vn vt = .ok (linesText (("# Created by meshio ".toList ++ stamp) ::
      (points.map (fun p => outLine "v" (p.map fio.fmt)) ++
        ((vn.getD []).map (fun r => outLine "vn" (r.map fio.fmt)) ++
        ((vt.getD []).map (fun r => outLine "vt" (r.map fio.fmt)) ++
        (cells.flatMap (·.2)).map (fun r => outLine "f" (r.map (fun i => fmtInt (i + 1))))))))) := by
    unfold Obj.write
    rw [if_neg hw, hpl]
  -- lines have no newline inside
  have hnl : ∀ (w : String), '\n' ∉ w.toList → ∀ args : List (List Char), (∀ t ∈ args, IsTok t) →
      '\n' ∉ outLine w args := by
    intro w hw args ha
    unfold outLine
    apply not_mem_joinWith (by decide)
    intro t ht
    rcases List.mem_cons.mp ht with rfl | ht
    · exact hw
    · exact (ha t ht).no_newline
  have hfs : (cells.flatMap (·.2)).map (fun r => outLine "f" (r.map (fun i => fmtInt (i + 1)))) =
      ((cells.flatMap (·.2)).map (fun r => r.map (· + 1))).map (fun r => outLine "f" (r.map fmtInt)) := by
    rw [List.map_map]
    simp only [Function.comp_def, List.map_map]
  have hfl := fileLines_linesText' (("# Created by meshio ".toList ++ stamp) ::
      (points.map (fun p => outLine "v" (p.map fio.fmt)) ++
        ((vn.getD []).map (fun r => outLine "vn" (r.map fio.fmt)) ++
        ((vt.getD []).map (fun r => outLine "vt" (r.map fio.fmt)) ++
        (cells.flatMap (·.2)).map (fun r => outLine "f" (r.map (fun i => fmtInt (i + 1)))))))) (by
    intro a ha
    simp only [List.mem_cons, List.mem_append, List.mem_map] at ha
    rcases ha with rfl | ⟨r, _, rfl⟩ | ⟨r, _, rfl⟩ | ⟨r, _, rfl⟩ | ⟨r, _, rfl⟩
    · simp only [List.mem_append, not_or]
      exact ⟨by decide, hstamp⟩
    · exact hnl _ (by decide) _ (toks_fmt fio r)
    · exact hnl _ (by decide) _ (toks_fmt fio r)
    · exact hnl _ (by decide) _ (toks_fmt fio r)
    · apply hnl _ (by decide)
      intro t ht
      obtain ⟨x, _, rfl⟩ := List.mem_map.mp ht
      exact isTok_fmtInt _)
  have hfold : foldRes (step fio) ⟨[], [], [], [], [], -1⟩ (fileLines (linesText (("# Created by meshio ".toList ++ stamp) ::
      (points.map (fun p => outLine "v" (p.map fio.fmt)) ++
        ((vn.getD []).map (fun r => outLine "vn" (r.map fio.fmt)) ++
        ((vt.getD []).map (fun r => outLine "vt" (r.map fio.fmt)) ++
        (cells.flatMap (·.2)).map (fun r => outLine "f" (r.map (fun i => fmtInt (i + 1)))))))))) =
      .ok ⟨points, vn.getD [], vt.getD [],
        runsBy List.length ((cells.flatMap (·.2)).map (fun r => r.map (· + 1))),
        (runsBy List.length ((cells.flatMap (·.2)).map (fun r => r.map (· + 1)))).map
          (List.map (fun _ => -1)), -1⟩ := by
    rw [hfl, hfs]
    simp only [List.map_cons, List.map_append, List.map_map, Function.comp_def]
    have h0 : step fio ⟨[], [], [], [], [], -1⟩ ("# Created by meshio ".toList ++ stamp ++ ['\n']) =
        .ok ⟨[], [], [], [], [], -1⟩ := by
      unfold step
      rw [if_pos]
      right
      exact strip_head (c := '#') (by decide) _
    rw [foldRes, h0]
    simp only []
    rw [objRead_points, objRead_vn, objRead_vt]
    have hf := objRead_faces fio ((cells.flatMap (·.2)).map (fun r => r.map (· + 1)))
    simp only [List.map_map, Function.comp_def] at hf
    rw [hf, foldl_addFace _ _ (by simp) (by simp), foldl_sameSize]
    simp
  have hshift : ((cells.flatMap (·.2)).map (fun r => r.map (· + 1))).map (fun r => r.map (· - 1)) =
      cells.flatMap (·.2) := by
    rw [List.map_map]
    simp [Function.comp_def]
  have hfilt : (runsBy List.length ((cells.flatMap (·.2)).map (fun r => r.map (· + 1)))).filter
      (fun g => decide (g.length > 0)) = runsBy List.length ((cells.flatMap (·.2)).map (fun r => r.map (· + 1))) := by
    rw [List.filter_eq_self]
    intro g hg
    have := runsBy_ne_nil _ _ g hg
    simpa [List.length_pos_iff] using this
  have hfilt2 : ((runsBy List.length ((cells.flatMap (·.2)).map (fun r => r.map (· + 1)))).map
        (List.map (fun _ => (-1 : Int)))).filter
      (fun g => decide (g.length > 0)) = (runsBy List.length ((cells.flatMap (·.2)).map (fun r => r.map (· + 1)))).map
        (List.map (fun _ => (-1 : Int))) := by
    rw [List.filter_eq_self]
    intro g hg
    obtain ⟨g', hg', rfl⟩ := List.mem_map.mp hg
    have := runsBy_ne_nil _ _ g' hg'
    simpa [List.length_pos_iff] using this
  have hopt : ∀ (o : Option (List (List F))), (∀ d, o = some d → d.length = points.length) →
      ∃ o', optData points.length (o.getD []) = .ok o' ∧ (points ≠ [] → o' = o) := by
    intro o ho
    cases o with
    | none => exact ⟨none, rfl, fun _ => rfl⟩
    | some d =>
      have := ho d rfl
      simp only [Option.getD_some, optData]
      by_cases hz : d.length > 0
      · rw [if_pos hz, if_neg (by omega)]; exact ⟨_, rfl, fun _ => rfl⟩
      · rw [if_neg hz]
        refine ⟨_, rfl, fun h => absurd (List.length_eq_zero_iff.mp (by omega)) h⟩
  have hnp : ∀ (o : Option (List (List F))) (k : Nat), (∀ d, o = some d → ∀ r ∈ d, r.length = k) →
      npArray (o.getD []) = .ok (o.getD []) := by
    intro o k ho
    cases o with
    | none => rfl
    | some d => exact npArray_run d (fun a ha b hb => by rw [ho d rfl a ha, ho d rfl b hb])
  obtain ⟨vn', hvn1, hvn2⟩ := hopt vn (fun d hd => (hvn d hd).1)
  obtain ⟨vt', hvt1, hvt2⟩ := hopt vt (fun d hd => (hvt d hd).1)
  refine ⟨_, ⟨points, faceRuns (cells.flatMap (·.2)), vt', vn',
    (runsBy List.length ((cells.flatMap (·.2)).map (fun r => r.map (· + 1)))).map (List.map (fun _ => -1))⟩,
    hwr, ?_, rfl, rfl, ?_, fun h => ⟨hvn2 h, hvt2 h⟩⟩
  · unfold Obj.read
    rw [hfold]
    simp only [finish, hfilt, hfilt2, mapRes_faceBlock, hshift,
      npArray_run points (fun a ha b hb => by rw [hp a ha, hp b hb]),
      hnp vn k (fun d hd => (hvn d hd).2), hnp vt l (fun d hd => (hvt d hd).2), hvn1, hvt1]
  · rw [runsBy_map]
    simp only [List.length_map, List.map_map, Function.comp_def, faceRuns]
    have hn := runsBy_ne_nil List.length (cells.flatMap (·.2))
    generalize runsBy List.length (cells.flatMap (·.2)) = L at *
    rw [← List.filterMap_eq_map, List.map_filterMap]
    apply filterMap_congr'
    intro r hr
    cases r with
    | nil => exact absurd rfl (hn _ hr)
    | cons f r => simp

/-- Blocks have one type: a block of triangles (quads) is read as triangles (quads). -/
theorem C27_types (faces : List (List Int)) :
    ∀ b ∈ faceRuns faces, ∀ f ∈ b.2, b.1 = sizeName f.length := by
  intro b hb f hf
  unfold faceRuns at hb
  rw [List.mem_filterMap] at hb
  obtain ⟨r, hr, hb⟩ := hb
  cases r with
  | nil => simp at hb
  | cons x r =>
    simp only [List.head?_cons, Option.map_some, Option.some.injEq] at hb
    subst hb
    have := runsBy_uniform List.length faces _ hr f hf x (by simp)
    simp only [this]

/-- All faces are there, in order. -/
theorem C27_faces (faces : List (List Int)) : (faceRuns faces).flatMap (·.2) = faces := by
  have hf := flatten_runsBy List.length faces
  have hn := runsBy_ne_nil List.length faces
  unfold faceRuns
  generalize runsBy List.length faces = L at *
  subst hf
  induction L with
  | nil => rfl
  | cons r L ih =>
    cases r with
    | nil => exact absurd rfl (hn _ (by simp))
    | cons f r =>
      simp only [List.filterMap_cons, List.head?_cons, Option.map_some, List.flatMap_cons,
        List.flatten_cons]
      rw [ih (fun r' hr' => hn r' (by simp [hr']))]

/-- Texture and normal numbers after a slash are ignored. -/
theorem C27_slash (i : Int) (rest : List Char) : faceNode (fmtInt i ++ '/' :: rest) = .ok i := by
  unfold faceNode
  rw [splitOnC_append_sep '/' _ _ (not_mem_fmtInt (by decide) (by decide) i)]
  simp

/-- Cells of other types are refused with WriteError. -/
theorem C27_other_types (fio : FloatIO F) (stamp : List Char) (points : List (List F))
    (cells : List (String × List (List Int))) (vn vt : Option (List (List F)))
    (h : ∃ c ∈ cells, c.1 ∉ ["triangle", "quad", "polygon"]) :
    Obj.write fio stamp points cells vn vt = .error .writeError := by
  unfold Obj.write
  rw [if_pos]
  obtain ⟨c, hc, hn⟩ := h
  rw [List.any_eq_true]
  refine ⟨c, hc, ?_⟩
  cases h : ["triangle", "quad", "polygon"].contains c.1 with
  | false => rfl
  | true => exact absurd (List.contains_iff_mem.mp h) hn

/-- Texture coordinates are not ignored altogether: a file with one point and two texture
coordinates, which the format allows, cannot be read. -/
theorem C27_texture_false :
    Obj.read FloatIO.int "v 0 0 0\nvt 0 0\nvt 1 0\n".toList = .error .valueError := by rfl

/-- Non-trivial instance: two triangles, a quad, a pentagon. -/
example : faceRuns [[0, 1, 2], [1, 2, 3], [0, 1, 2, 3], [0, 1, 2, 3, 4]] =
    [("triangle", [[0, 1, 2], [1, 2, 3]]), ("quad", [[0, 1, 2, 3]]), ("polygon", [[0, 1, 2, 3, 4]])] := by
  decide

end Meshio.Props
