/-
Lemmas for Abaqus files that include other files, and sets that name other sets.
-/
import Verif.Spec.AbaqusInclude
import Verif.Proofs.AbaqusMesh
namespace Meshio.Abaqus
open Meshio Types Tables Spec

variable {F : Type}

/-- The state after a file. -/
theorem file_state (io : FloatIO F) (f : AbaqusFile F) (hf : f.Ok io) (hs : f.Sets) (st : St F)
    (hst : st = f.items.foldl (step f.numbers) (nodesState f)) :
    st.points = f.mesh.points ∧ st.cells = f.mesh.cells ∧ st.pointSets = f.mesh.pointSets ∧
    st.cellSets = f.ownSets.map (fun s => (s.1, s.2.map .ids)) ∧
    st.elemSets = f.parts.filterMap (fun p => p.2.1.map fun name => (name, p.2.2.length)) ∧
    ∀ n (d : Dict (List Entry)), (d.map (·.1) ++ f.parts.filterMap (·.2.1)).Nodup →
      elementSets n st.elemSets 0 st.order d = .ok (d ++ f.blockSets n) := by
  subst hst
  obtain ⟨c1, c2, c3, c4⟩ := fold_cells f.numbers f.items (nodesState f)
  have p1 := fold_pointSets f.numbers f.items (nodesState f) hs.nsets
  have hne : ((f.parts).filterMap (·.2.1)).Nodup := (List.nodup_append.mp hs.elsets).2.1
  have s1 := fold_elemSets f.numbers f.items (nodesState f) hne
  have d1 := fold_cellSets f.numbers f.items hs.order (nodesState f) (List.nodup_append.mp hs.elsets).1
  have i1 : (nodesState f).cells = [] := rfl
  have i2 : (nodesState f).cellIds = [] := rfl
  have i3 : (nodesState f).order = [] := rfl
  have i4 : (nodesState f).elemSets = [] := rfl
  have i5 : (nodesState f).cellSets = [] := rfl
  have i6 : (nodesState f).pointSets = [] := rfl
  rw [c1, c3, c4, p1, s1, d1, i1, i2, i3, i4, i5, i6]
  simp only [List.nil_append]
  have hparts : partsOf f.items = f.parts := rfl
  have helsets : elsetsOf f.items = f.elsets := rfl
  have hnsets : nsetsOf f.items = f.nsets := rfl
  rw [hparts, helsets, hnsets]
  refine ⟨rfl, rfl, rfl, ?_, rfl, ?_⟩
  · unfold AbaqusFile.ownSets
    rw [List.map_map]
    apply List.map_congr_left
    intro s _
    simp only [Function.comp, List.map_map]
    congr 1
    apply List.map_congr_left
    intro p hp
    have := items_nodup f.items hf.items p hp
    simp only [Function.comp]
    congr 1
    congr 1
    funext k
    exact idPos_idxOf? _ this k
  · intro n d hd
    have helem : ∀ p ∈ f.parts, ∀ name, p.2.1 = some name →
        Dict.get? (f.parts.filterMap fun p => p.2.1.map fun name => (name, p.2.2.length)) name = some p.2.2.length := by
      intro p hp name hname
      apply Dict.get?_of_mem
      · unfold Dict.Ok Dict.keys
        have : (f.parts.filterMap fun p => p.2.1.map fun name => (name, p.2.2.length)).map (·.1) = f.parts.filterMap (·.2.1) := by
          rw [List.map_filterMap]
          congr 1
          funext p
          cases p.2.1 <;> rfl
        rw [this]; exact hne
      · exact List.mem_filterMap.2 ⟨p, hp, by rw [hname]; rfl⟩
    exact elementSets_ok n _ f.parts hs.first helem 0 d hd

/-- A file followed by one line with a star and others: the loop goes on after that line. -/
theorem read_then (io : FloatIO F) (inc : List Char → Res (Out F)) (f : AbaqusFile F) (hf : f.Ok io) (head : List Char)
    (hh : head.head? = some '*') (hnl : '\n' ∉ head) (ls rest : List (List Char)) (hls : ∀ l ∈ ls ++ rest, '\n' ∉ l)
    (hrest : ∀ l ∈ rest, IsIgnored l) (st' : St F)
    (he : ∀ fuel, loop io inc (fuel + 1) (f.items.foldl (step f.numbers) (nodesState f))
      ((head ++ ['\n']) :: (ls.map (· ++ ['\n']) ++ rest.map (· ++ ['\n']))) = loop io inc fuel st' (rest.map (· ++ ['\n']))) :
    loop io inc (fileLines (linesText (f.lines ++ head :: ls ++ rest))).length St.init (fileLines (linesText (f.lines ++ head :: ls ++ rest))) = .ok st' := by
  have hfl := file_newline io f hf
  have hnl' : ∀ l ∈ f.lines ++ head :: ls ++ rest, '\n' ∉ l := by
    intro l hl
    simp only [List.mem_append, List.mem_cons] at hl
    rcases hl with (hl | rfl | hl) | hl
    · exact hfl l hl
    · exact hnl
    · exact hls l (by simp [hl])
    · exact hls l (by simp [hl])
  rw [fileLines_linesText' _ hnl']
  have hend : Ends ((head ++ ['\n']) :: (ls.map (· ++ ['\n']) ++ rest.map (· ++ ['\n']))) := by
    intro l hl
    simp only [List.head?_cons, Option.some.injEq] at hl
    subst hl
    cases head with
    | nil => cases hh
    | cons c a => exact hh
  obtain ⟨fuel, hfu, e1⟩ := loop_file io inc f hf _ hend (ls.length + rest.length + 1)
  have hlen : ((f.lines ++ head :: ls ++ rest).map (· ++ ['\n'])).length = ls.length + rest.length + 1 + f.lines.length := by
    simp only [List.length_map, List.length_append, List.length_cons]; omega
  have hl : (f.lines ++ head :: ls ++ rest).map (· ++ ['\n']) = f.lines.map (· ++ ['\n']) ++
      ((head ++ ['\n']) :: (ls.map (· ++ ['\n']) ++ rest.map (· ++ ['\n']))) := by
    simp only [List.map_append, List.map_cons, List.append_assoc, List.cons_append]
  rw [hlen, hl, e1]
  obtain ⟨k, rfl⟩ : ∃ k, fuel = (k + rest.length) + 1 := ⟨fuel - 1 - rest.length, by omega⟩
  rw [he]
  have := loop_ignored io inc st' rest hrest [] k
  rw [List.append_nil] at this
  rw [this]
  cases k <;> rfl

/-- The name of the included file. -/
theorem include_name {name : String} {head : List Char} (h : IsKeyLine "INCLUDE" [("INPUT", some name)] head) :
    strip ((splitOnC '=' (head ++ ['\n'])).getLast?.getD []) = name.toList := by
  obtain ⟨_, w0, ws, rfl, hc, h0, _, _, ho, _⟩ := h
  match ws, ho with
  | [w], ho =>
    obtain ⟨⟨a, b, rfl, ha, hb, -, hs⟩, -⟩ := ho
    have e : joinWith ',' [w0, a ++ '=' :: b] ++ ['\n'] = joinWith '=' [w0 ++ ',' :: a, b ++ ['\n']] := by
      simp [joinWith]
    rw [e, splitOnC_joinWith _ _ (by simp)]
    · simp only [List.getLast?_cons_cons, List.getLast?_singleton, Option.getD_some]
      rw [strip_nl', hs]
    · intro u hu
      simp only [List.mem_cons, List.not_mem_nil, or_false] at hu
      rcases hu with rfl | rfl
      · simp [h0, ha]
      · simp [hb]

theorem foldl_set_shift (d : Dict (List Nat)) (k : Nat) (l : Dict (List Nat)) (h : (d.map (·.1) ++ l.map (·.1)).Nodup) :
    l.foldl (fun d kv => Dict.set d kv.1 (kv.2.map (· + k))) d = d ++ l.map fun s => (s.1, s.2.map fun i => i + k) := by
  induction l generalizing d with
  | nil => simp
  | cons s l ih =>
    rw [List.foldl_cons]
    have hf : s.1 ∉ d.map (·.1) := by
      intro hm
      exact (List.nodup_append.mp h).2.2 _ hm s.1 (by simp) rfl
    rw [set_fresh _ _ _ hf, ih]
    · simp
    · simpa using h

theorem loop_include (io : FloatIO F) (inc : List Char → Res (Out F)) (name : String) (head : List Char)
    (hk : IsKeyLine "INCLUDE" [("INPUT", some name)] head) (st : St F) (ls : List (List Char)) (fuel : Nat) :
    loop io inc (fuel + 1) st ((head ++ ['\n']) :: ls) =
      match (match inc name.toList with
        | .error e => (.error e : Res (St F))
        | .ok o => if o.points = [] then .ok st else merge st o) with
      | .error e => .error e
      | .ok st => loop io inc fuel st ls := by
  rw [loop, if_neg (by rw [keyLine_not_comment (by decide) (by decide) hk]; simp)]
  rw [keyword_keyLine _ (by decide) _ head hk]
  simp only
  rw [if_neg (by decide), if_neg (by decide), if_neg (by decide), if_neg (by decide), if_pos trivial]
  unfold includeSection
  rw [include_name hk]
  rfl

/-! ### Sets that name sets -/

theorem nameLine (l : List Char × String) (h : IsSetName l) : setLine (l.1 ++ ['\n']) = .ok ([], [l.2.toList]) ∧ strip (l.1 ++ ['\n']) ≠ [] := by
  obtain ⟨-, ws, k, h1, h2, h3⟩ := h
  refine ⟨?_, ?_⟩
  · unfold setLine
    rw [strip_nl', h1, stripCommas_end, splitOnC_joinWith _ _ (by simp) fun u hu => (h2 u hu).1]
    · simp only
      have hn : isNumeric l.2.toList = false := by
        unfold isNumeric
        rw [h3, Bool.and_false]
      rw [hn, if_neg (by simp)]
    · rw [joinWith_head _ _ _ (h2 _ (by simp)).2]
      intro e
      exact (h2 l.2.toList (by simp)).1 (List.mem_of_mem_head? e)
    · obtain ⟨pre, u, hu⟩ : ∃ pre u, l.2.toList :: ws = pre ++ [u] := by
        rcases List.eq_nil_or_concat (l.2.toList :: ws) with h | ⟨a, b, h⟩
        · cases h
        · exact ⟨a, b, by rw [h, List.concat_eq_append]⟩
      rw [hu, joinWith_getLast _ _ _ (h2 u (by rw [hu]; simp)).2]
      intro e
      exact (h2 u (by rw [hu]; simp)).1 (List.mem_of_getLast? e)
  · rw [strip_nl', h1]
    intro e
    exact joinWith_ne_nil ',' _ ws (h2 _ (by simp)).2 (List.append_eq_nil_iff.mp e).1

theorem nameLines (ls : List (List Char × String)) (h : ∀ l ∈ ls, IsSetName l) :
    mapRes setLine (((ls.map (·.1)).map (· ++ ['\n'])).filter (fun l => decide (strip l ≠ []))) = .ok (ls.map fun l => ([], [l.2.toList])) := by
  induction ls with
  | nil => rfl
  | cons l ls ih =>
    obtain ⟨h1, h2⟩ := nameLine l (h l (by simp))
    simp only [List.map_cons, List.filter_cons]
    rw [if_pos (by simpa using h2), mapRes, h1, ih fun l hl => h l (by simp [hl])]

theorem readSet_names (m : Dict (Option (List Char))) (hg : Dict.has m "GENERATE" = false) (ls : List (List Char × String))
    (h : ∀ l ∈ ls, IsSetName l) (tail : List (List Char)) (ht : Ends tail) :
    readSet m ((ls.map (·.1)).map (· ++ ['\n']) ++ tail) = .ok ([], ls.map (·.2.toList)) ∧
      afterData ((ls.map (·.1)).map (· ++ ['\n']) ++ tail) = tail := by
  have hdata : ∀ l ∈ ls.map (·.1), IsData l := by
    intro l hl
    obtain ⟨p, hp, rfl⟩ := List.mem_map.1 hl
    exact (h p hp).1
  obtain ⟨e1, e2⟩ := section_lines _ tail hdata ht
  refine ⟨?_, e2⟩
  unfold readSet
  rw [e1, nameLines ls h]
  simp only
  rw [hg, if_neg (by simp)]
  congr 2
  · rw [List.flatMap_map, List.flatMap_eq_nil_iff]
    intro _ _
    rfl
  · rw [List.flatMap_map]
    induction ls with
    | nil => rfl
    | cons l ls ih =>
      rw [List.flatMap_cons, ih (fun l hl => h l (by simp [hl])) (fun l hl => hdata l (by simp at hl ⊢; exact .inr hl)), List.map_cons]
      · rfl
      · rw [← (section_lines (ls.map (·.1)) tail (fun l hl => hdata l (by simp at hl ⊢; exact .inr hl)) ht).1]
      · exact (section_lines (ls.map (·.1)) tail (fun l hl => hdata l (by simp at hl ⊢; exact .inr hl)) ht).2

/-- The entry that a name gives. -/
theorem namedEntry_ok (io : FloatIO F) (f : AbaqusFile F) (hf : f.Ok io) (hs : f.Sets) (st : St F)
    (hst : st = f.items.foldl (step f.numbers) (nodesState f)) (name w : String) (hw : w ≠ name) (e : Entry) (he : f.named w e) :
    namedEntry st name w.toList = .ok e := by
  obtain ⟨-, -, -, h4, h5, -⟩ := file_state io f hf hs st hst
  have hown : (f.ownSets.map (·.1)) = f.elsets.map (·.1) := by
    unfold AbaqusFile.ownSets
    rw [List.map_map]
    rfl
  have hne := (List.nodup_append.mp hs.elsets)
  unfold namedEntry
  rw [String.ofList_toList, if_neg hw, h4, h5]
  rcases he with ⟨l, hl, rfl⟩ | ⟨t, rows, hp, rfl⟩
  · have hg : Dict.get? (f.ownSets.map fun s => (s.1, s.2.map Entry.ids)) w = some (l.map .ids) := by
      apply Dict.get?_of_mem
      · unfold Dict.Ok Dict.keys
        rw [List.map_map]
        have : (f.ownSets.map (·.1)).Nodup := by rw [hown]; exact hne.1
        exact this
      · exact List.mem_map.2 ⟨(w, l), hl, rfl⟩
    rw [hg]
    simp only
    have hm : ∀ (g : Entry → Res (List Nat)) (_ : ∀ i, g (.ids i) = .ok i) (l : List (List Nat)), mapRes g (l.map .ids) = .ok l := by
      intro g hg l
      induction l with
      | nil => rfl
      | cons a l ih => rw [List.map_cons, mapRes, hg, ih]
    rw [hm _ (fun _ => rfl)]
  · have hmem : w ∈ f.parts.filterMap (·.2.1) := List.mem_filterMap.2 ⟨_, hp, rfl⟩
    have hno : Dict.get? (f.ownSets.map fun s => (s.1, s.2.map Entry.ids)) w = none := by
      rw [Dict.get?_eq_none_iff]
      intro hm
      unfold Dict.keys at hm
      rw [List.map_map] at hm
      have : w ∈ f.ownSets.map (·.1) := hm
      rw [hown] at this
      exact hne.2.2 _ this w hmem rfl
    rw [hno]
    simp only
    have hg : Dict.get? (f.parts.filterMap fun p => p.2.1.map fun name => (name, p.2.2.length)) w = some rows.length := by
      apply Dict.get?_of_mem
      · unfold Dict.Ok Dict.keys
        have : (f.parts.filterMap fun p => p.2.1.map fun name => (name, p.2.2.length)).map (·.1) = f.parts.filterMap (·.2.1) := by
          rw [List.map_filterMap]
          congr 1
          funext p
          cases p.2.1 <;> rfl
        rw [this]; exact hne.2.1
      · exact List.mem_filterMap.2 ⟨_, hp, rfl⟩
    rw [hg]

end Meshio.Abaqus
