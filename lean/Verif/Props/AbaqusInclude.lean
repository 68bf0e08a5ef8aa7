/-
C33: Abaqus files that include other files, and sets that name other sets.
-/
import Verif.Proofs.AbaqusInclude
import Verif.Props.Abaqus
namespace Meshio.Props
open Types Tables Spec Abaqus

variable {F : Type}

/-- C33: a file that includes another one has the points and cells of both; the node numbers in the cells and sets of points of
the other file are shifted by the number of points before. -/
theorem C33_include (io : FloatIO F) (inc : List Char → Res (Out F)) (f : AbaqusFile F) (h : f.Ok io) (hs : f.Sets) (name : String)
    (head : List Char) (hk : IsKeyLine "INCLUDE" [("INPUT", some name)] head) (o : Out F) (ho : inc name.toList = .ok o) (d : Nat)
    (hd : ∀ p ∈ f.mesh.points ++ o.points, p.length = d) (hne : o.points ≠ [])
    (hn : (f.mesh.pointSets.map (·.1) ++ o.pointSets.map (·.1)).Nodup) (rest : List (List Char)) (hr : ∀ l ∈ rest, IsIgnored l) :
    Abaqus.read io inc (linesText (f.lines ++ head :: rest)) = .ok (f.including o) := by
  obtain ⟨h1, h2, h3, h4, -, h6⟩ := file_state io f h hs _ rfl
  generalize hst : f.items.foldl (step f.numbers) (nodesState f) = st at h1 h2 h3 h4 h6
  have hm : merge st o = .ok { st with points := f.mesh.points ++ o.points
                                       cells := f.mesh.cells ++ o.cells.map fun b => (b.1, b.2.map fun r => r.map (· + f.mesh.points.length))
                                       pointSets := f.mesh.pointSets ++ o.pointSets.map fun s => (s.1, s.2.map fun i => i + f.mesh.points.length) } := by
    unfold merge
    rw [h1, h2, h3, if_neg, foldl_set_shift _ _ _ hn]
    rintro ⟨a1, a2⟩
    apply a2
    cases hp : f.mesh.points with
    | nil => exact absurd hp a1
    | cons p ps =>
      cases hq : o.points with
      | nil => exact absurd hq hne
      | cons q qs =>
        have e1 := hd p (by rw [hp]; simp)
        have e2 := hd q (by rw [hq]; simp)
        simp [e1, e2]
  have hl := read_then io inc f h head (keyLine_star hk) hk.1 [] rest (fun l hl => (hr l hl).1) hr _ (by
    intro fuel
    rw [hst, loop_include io inc name head hk, ho]
    simp only
    rw [if_neg hne, hm]
    rfl)
  rw [List.append_assoc] at hl
  unfold Abaqus.read
  have e : f.lines ++ ([head] ++ rest) = f.lines ++ head :: rest := rfl
  rw [e] at hl
  rw [hl]
  simp only
  rw [h4, h6]
  · unfold AbaqusFile.including
    have : (f.mesh.cells ++ o.cells.map fun b => (b.1, b.2.map fun r => r.map (· + f.mesh.points.length))).length =
        f.parts.length + o.cells.length := by
      unfold AbaqusFile.mesh
      simp
    rw [this]
  · have := hs.elsets
    unfold AbaqusFile.ownSets
    rw [List.map_map, List.map_map]
    exact this

/-- C33: a file without points changes nothing. -/
theorem C33_include_empty (io : FloatIO F) (inc : List Char → Res (Out F)) (f : AbaqusFile F) (h : f.Ok io) (hs : f.Sets) (name : String)
    (head : List Char) (hk : IsKeyLine "INCLUDE" [("INPUT", some name)] head) (o : Out F) (ho : inc name.toList = .ok o) (hne : o.points = [])
    (rest : List (List Char)) (hr : ∀ l ∈ rest, IsIgnored l) :
    Abaqus.read io inc (linesText (f.lines ++ head :: rest)) = Abaqus.read io inc (linesText f.lines) := by
  have hl := read_then io inc f h head (keyLine_star hk) hk.1 [] rest (fun l hl => (hr l hl).1) hr _ (by
    intro fuel
    rw [loop_include io inc name head hk, ho]
    simp only
    rw [if_pos hne]
    rfl)
  rw [List.append_assoc] at hl
  have e : f.lines ++ ([head] ++ rest) = f.lines ++ head :: rest := rfl
  rw [e] at hl
  have hw : loop io inc (fileLines (linesText f.lines)).length St.init (fileLines (linesText f.lines)) =
      .ok (f.items.foldl (step f.numbers) (nodesState f)) := by
    obtain ⟨fuel, _, e⟩ := loop_file io inc f h [] (by intro l hl; cases hl) 0
    rw [Nat.zero_add, List.append_nil] at e
    rw [fileLines_linesText' _ (file_newline io f h), List.length_map, e]
    cases fuel <;> rfl
  unfold Abaqus.read
  rw [hl, hw]

/-- C33: an error in the included file, or a file that does not exist, is an error. -/
theorem C33_include_error (io : FloatIO F) (inc : List Char → Res (Out F)) (f : AbaqusFile F) (h : f.Ok io) (name : String)
    (head : List Char) (hk : IsKeyLine "INCLUDE" [("INPUT", some name)] head) (e : Err) (ho : inc name.toList = .error e)
    (rest : List (List Char)) (hr : AbaqusRest rest) :
    Abaqus.read io inc (linesText (f.lines ++ head :: rest)) = .error e := by
  have := read_error io inc f h (file_newline io f h) "INCLUDE" _ head hk [] rest ⟨by simp, hr.1, hr.2⟩ e fun st _ fuel => by
    rw [loop_include io inc name head hk, ho]
  simpa using this

/-- C33: a set of cells may name other sets, one on each line; what follows a comma is not read. -/
theorem C33_named_sets (io : FloatIO F) (inc : List Char → Res (Out F)) (f : AbaqusFile F) (h : f.Ok io) (hs : f.Sets) (name : String)
    (head : List Char) (hk : IsKeyLine "ELSET" [("ELSET", some name)] head) (hn : name ∉ f.elsets.map (·.1) ++ f.parts.filterMap (·.2.1))
    (lines : List (List Char × String)) (hl : ∀ l ∈ lines, IsSetName l) (entries : List Entry)
    (he : All2 (fun l e => f.named l.2 e) lines entries) (rest : List (List Char)) (hr : ∀ l ∈ rest, IsIgnored l) (hs' : AbaqusRest rest) :
    ∃ out, Abaqus.read io inc (linesText (f.lines ++ head :: lines.map (·.1) ++ rest)) = .ok out ∧
      out.points = f.mesh.points ∧ out.cells = f.mesh.cells ∧ out.pointSets = f.mesh.pointSets ∧
      out.cellSets = f.ownSets.map (fun s => (s.1, s.2.map .ids)) ++ (name, entries) :: f.blockSets f.parts.length := by
  obtain ⟨h1, h2, h3, h4, -, h6⟩ := file_state io f h hs _ rfl
  have hfresh : name ∉ (f.ownSets.map (fun s => (s.1, s.2.map Entry.ids))).map (·.1) := by
    intro hm
    apply hn
    unfold AbaqusFile.ownSets at hm
    rw [List.map_map, List.map_map] at hm
    exact List.mem_append_left _ hm
  have hnames : mapRes (namedEntry (f.items.foldl (step f.numbers) (nodesState f)) name) (lines.map (·.2.toList)) = .ok entries := by
    clear hl
    induction lines generalizing entries with
    | nil =>
      cases entries with
      | nil => rfl
      | cons => exact he.elim
    | cons l lines ih =>
      cases entries with
      | nil => exact he.elim
      | cons e entries =>
        have hne : l.2 ≠ name := by
          intro e'
          apply hn
          rcases he.1 with ⟨x, hx, -⟩ | ⟨t, rows, hx, -⟩
          · unfold AbaqusFile.ownSets at hx
            obtain ⟨s, hs1, hs2⟩ := List.mem_map.1 hx
            refine List.mem_append_left _ (List.mem_map.2 ⟨s, hs1, ?_⟩)
            rw [← e']
            exact congrArg Prod.fst hs2
          · exact List.mem_append_right _ (List.mem_filterMap.2 ⟨_, hx, by rw [← e']⟩)
        rw [List.map_cons, mapRes, namedEntry_ok io f h hs _ rfl name l.2 hne e he.1, ih entries he.2]
  have hg := getParams_keyLine "ELSET" _ head hk "ELSET" (by simp)
  obtain ⟨m, hm1, hm2⟩ := hg
  have hgen : Dict.has m "GENERATE" = false := by
    have := hm2 "GENERATE"
    rw [show ([("ELSET", some name)] : List (String × Option String)).lookup "GENERATE" = none from rfl] at this
    simp only [if_neg (show ¬ ("GENERATE" = "*" ++ "ELSET") by decide)] at this
    unfold Dict.has
    rw [this]
    rfl
  have hname : nameOf m "ELSET" = .ok name := nameOf_ok (by
    rw [hm2 "ELSET"]
    rfl)
  obtain ⟨r1, r2⟩ := readSet_names m hgen lines hl (rest.map (· ++ ['\n'])) (ends_map rest hs'.1)
  have hread := read_then io inc f h head (keyLine_star hk) hk.1 (lines.map (·.1)) rest (by
    intro l hl'
    rcases List.mem_append.1 hl' with hl' | hl'
    · obtain ⟨p, hp, rfl⟩ := List.mem_map.1 hl'
      exact (hl p hp).1.1
    · exact (hr l hl').1) hr { (f.items.foldl (step f.numbers) (nodesState f)) with
        cellSets := f.ownSets.map (fun s => (s.1, s.2.map .ids)) ++ [(name, entries)] } (by
    intro fuel
    rw [loop, if_neg (by rw [keyLine_not_comment (by decide) (by decide) hk]; simp)]
    rw [keyword_keyLine _ (by decide) _ head hk]
    simp only
    rw [if_neg (by decide), if_neg (by decide), if_neg (by decide), if_pos trivial]
    unfold elsetSection
    rw [hm1]
    simp only
    rw [r1]
    simp only
    rw [hname]
    simp only
    rw [if_neg (by simp), hnames]
    simp only
    rw [r2, h4, set_fresh _ _ _ hfresh])
  unfold Abaqus.read
  rw [hread]
  simp only
  rw [h6]
  · refine ⟨_, rfl, h1, h2, h3, ?_⟩
    have : (f.items.foldl (step f.numbers) (nodesState f)).cells.length = f.parts.length := by
      rw [h2]
      unfold AbaqusFile.mesh
      simp
    simp only
    rw [this, List.append_assoc]
    rfl
  · have h0 := hs.elsets
    unfold AbaqusFile.ownSets
    rw [List.map_append, List.map_map, List.map_map, List.append_assoc]
    rw [List.nodup_append] at h0 ⊢
    refine ⟨h0.1, ?_, ?_⟩
    · show (name :: _).Nodup
      rw [List.nodup_cons]
      exact ⟨fun hm => hn (List.mem_append_right _ hm), h0.2.1⟩
    · intro a ha b hb
      rcases List.mem_append.1 hb with hb | hb
      · rintro rfl
        rw [List.mem_singleton.1 hb] at ha
        exact hn (List.mem_append_left _ ha)
      · exact h0.2.2 a ha b hb

/-- C33: the name of a set that does not exist is a ReadError. -/
theorem C33_unknown_set (io : FloatIO F) (inc : List Char → Res (Out F)) (f : AbaqusFile F) (h : f.Ok io) (hs : f.Sets) (name : String)
    (head : List Char) (hk : IsKeyLine "ELSET" [("ELSET", some name)] head) (l : List Char × String) (hl : IsSetName l) (hne : l.2 ≠ name)
    (hno : l.2 ∉ f.elsets.map (·.1) ++ f.parts.filterMap (·.2.1)) (rest : List (List Char)) (hr : AbaqusRest rest) :
    Abaqus.read io inc (linesText (f.lines ++ head :: [l.1] ++ rest)) = .error .readError := by
  obtain ⟨-, -, -, h4, h5, -⟩ := file_state io f h hs _ rfl
  obtain ⟨m, hm1, hm2⟩ := getParams_keyLine "ELSET" _ head hk "ELSET" (by simp)
  have hgen : Dict.has m "GENERATE" = false := by
    have := hm2 "GENERATE"
    rw [show ([("ELSET", some name)] : List (String × Option String)).lookup "GENERATE" = none from rfl] at this
    simp only [if_neg (show ¬ ("GENERATE" = "*" ++ "ELSET") by decide)] at this
    unfold Dict.has
    rw [this]
    rfl
  have hname : nameOf m "ELSET" = .ok name := nameOf_ok (by
    rw [hm2 "ELSET"]
    rfl)
  obtain ⟨r1, -⟩ := readSet_names m hgen [l] (by simpa using hl) (rest.map (· ++ ['\n'])) (ends_map rest hr.1)
  have hentry : namedEntry (f.items.foldl (step f.numbers) (nodesState f)) name l.2.toList = .error .readError := by
    unfold namedEntry
    rw [String.ofList_toList, if_neg hne, h4, h5]
    have e1 : Dict.get? (f.ownSets.map fun s => (s.1, s.2.map Entry.ids)) l.2 = none := by
      rw [Dict.get?_eq_none_iff]
      intro hm
      unfold Dict.keys AbaqusFile.ownSets at hm
      rw [List.map_map, List.map_map] at hm
      exact hno (List.mem_append_left _ hm)
    have e2 : Dict.get? (f.parts.filterMap fun p => p.2.1.map fun name => (name, p.2.2.length)) l.2 = none := by
      rw [Dict.get?_eq_none_iff]
      intro hm
      unfold Dict.keys at hm
      apply hno
      apply List.mem_append_right
      have : (f.parts.filterMap fun p => p.2.1.map fun name => (name, p.2.2.length)).map (·.1) = f.parts.filterMap (·.2.1) := by
        rw [List.map_filterMap]
        congr 1
        funext p
        cases p.2.1 <;> rfl
      rw [← this]
      exact hm
    rw [e1]
    simp only
    rw [e2]
  have hnl : ∀ x ∈ f.lines ++ head :: [l.1] ++ rest, '\n' ∉ x := by
    intro x hx
    simp only [List.mem_append, List.mem_cons, List.not_mem_nil, or_false] at hx
    rcases hx with (hx | rfl | rfl) | hx
    · exact file_newline io f h x hx
    · exact hk.1
    · exact hl.1.1
    · exact hr.2 x hx
  unfold Abaqus.read
  rw [fileLines_linesText' _ hnl]
  have hend : Ends ((head ++ ['\n']) :: ([l.1].map (· ++ ['\n']) ++ rest.map (· ++ ['\n']))) := by
    intro x hx
    simp only [List.head?_cons, Option.some.injEq] at hx
    subst hx
    have := keyLine_star hk
    cases head with
    | nil => cases this
    | cons c a => exact this
  obtain ⟨fuel, hfu, e1⟩ := loop_file io inc f h _ hend (1 + rest.length + 1)
  have hlen : ((f.lines ++ head :: [l.1] ++ rest).map (· ++ ['\n'])).length = 1 + rest.length + 1 + f.lines.length := by
    simp only [List.length_map, List.length_append, List.length_cons, List.length_nil]; omega
  have hl' : (f.lines ++ head :: [l.1] ++ rest).map (· ++ ['\n']) = f.lines.map (· ++ ['\n']) ++
      ((head ++ ['\n']) :: ([l.1].map (· ++ ['\n']) ++ rest.map (· ++ ['\n']))) := by
    simp only [List.map_append, List.map_cons, List.append_assoc, List.cons_append]
  rw [hlen, hl', e1]
  obtain ⟨k, rfl⟩ : ∃ k, fuel = k + 1 := ⟨fuel - 1, by omega⟩
  rw [loop, if_neg (by rw [keyLine_not_comment (by decide) (by decide) hk]; simp)]
  rw [keyword_keyLine _ (by decide) _ head hk]
  simp only
  rw [if_neg (by decide), if_neg (by decide), if_neg (by decide), if_pos trivial]
  unfold elsetSection
  rw [hm1]
  simp only
  have r1' : readSet m ([l.1].map (· ++ ['\n']) ++ rest.map (· ++ ['\n'])) = .ok ([], [l.2.toList]) := r1
  rw [r1']
  simp only
  rw [hname]
  simp only
  rw [if_neg (by simp), mapRes, hentry]

/-! ### Examples -/

theorem exAbaqus_include : IsKeyLine "INCLUDE" [("INPUT", some "more.inp")] "*Include, input=more.inp".toList :=
  ⟨by decide, "*Include".toList, [" input=more.inp".toList], by decide, by decide, by decide, by decide, by decide,
    ⟨⟨" input".toList, "more.inp".toList, by decide, by decide, by decide, by decide, by decide⟩, trivial⟩, by decide⟩

example : Abaqus.read FloatIO.int (fun _ => .ok ⟨[[7, 7], [8, 8]], [("line", [[0, 1]])], [("both", [0, 1])], []⟩)
    (linesText (exAbaqus.lines ++ "*Include, input=more.inp".toList :: ["** end".toList])) = .ok
    { points := [[0, 0], [1, 0], [0, 1], [5, 5], [7, 7], [8, 8]],
      cells := [("triangle", [[0, 1, 2], [1, 3, 2]]), ("line", [[3, 2]]), ("line", [[4, 5]])],
      pointSets := [("gen", [2, 3]), ("both", [4, 5])],
      cellSets := [("some", [.ids [1, 0], .ids [0]]), ("E1", [.ids [0, 1], .ids [], .ids []])] } := by
  rw [C33_include FloatIO.int _ exAbaqus exAbaqus_ok exAbaqus_sets "more.inp" _ exAbaqus_include _ rfl 2 (by decide +kernel) (by decide)
    (by decide +kernel) ["** end".toList] (by intro l hl; rw [List.mem_singleton.1 hl]; exact ⟨by decide, .inl rfl⟩)]
  decide +kernel

example : Abaqus.read FloatIO.int (fun _ => .error .fileNotFound) (linesText (exAbaqus.lines ++ "*Include, input=more.inp".toList :: [])) =
    .error .fileNotFound :=
  C33_include_error FloatIO.int _ exAbaqus exAbaqus_ok "more.inp" _ exAbaqus_include _ rfl [] ⟨by decide, by decide⟩

theorem exAbaqus_elset : IsKeyLine "ELSET" [("ELSET", some "union")] "*ELSET, ELSET=union".toList :=
  ⟨by decide, "*ELSET".toList, [" ELSET=union".toList], by decide, by decide, by decide, by decide, by decide,
    ⟨⟨" ELSET".toList, "union".toList, by decide, by decide, by decide, by decide, by decide⟩, trivial⟩, by decide⟩

/-- The second name of the first line is not read. -/
example : ∃ out, Abaqus.read FloatIO.int (fun _ => .error .fileNotFound)
      (linesText (exAbaqus.lines ++ "*ELSET, ELSET=union".toList :: ["some, other".toList, "E1,".toList] ++ [])) = .ok out ∧
    out.cellSets = [("some", [.ids [1, 0], .ids [0]]), ("union", [.list [[1, 0], [0]], .ids [0, 1]]), ("E1", [.ids [0, 1], .ids []])] := by
  obtain ⟨out, h1, -, -, -, h2⟩ := C33_named_sets FloatIO.int (fun _ => .error .fileNotFound) exAbaqus exAbaqus_ok exAbaqus_sets "union" _ exAbaqus_elset
    (by decide +kernel) [("some, other".toList, "some"), ("E1,".toList, "E1")] (by
      intro l hl
      simp only [List.mem_cons, List.not_mem_nil, or_false] at hl
      rcases hl with rfl | rfl
      · exact ⟨⟨by decide, by decide⟩, [" other".toList], 0, by decide +kernel, by decide, by decide⟩
      · exact ⟨⟨by decide, by decide⟩, [], 1, by decide +kernel, by decide, by decide⟩)
    [.list [[1, 0], [0]], .ids [0, 1]]
    ⟨.inl ⟨[[1, 0], [0]], by decide +kernel, rfl⟩, .inr ⟨"triangle", [(5, [10, 20, 7]), (6, [20, 8, 7])], by decide +kernel, rfl⟩, trivial⟩
    [] (by simp) ⟨by decide, by decide⟩
  refine ⟨out, h1, ?_⟩
  rw [h2]
  decide +kernel

example : Abaqus.read FloatIO.int (fun _ => .error .fileNotFound)
      (linesText (exAbaqus.lines ++ "*ELSET, ELSET=union".toList :: ["other".toList] ++ [])) = .error .readError :=
  C33_unknown_set FloatIO.int _ exAbaqus exAbaqus_ok exAbaqus_sets "union" _ exAbaqus_elset ("other".toList, "other")
    ⟨⟨by decide, by decide⟩, [], 0, by decide +kernel, by decide, by decide⟩ (by decide) (by decide +kernel) [] ⟨by decide, by decide⟩

end Meshio.Props
