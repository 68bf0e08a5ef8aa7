/-
Reading Abaqus files part by part.
-/
import Verif.Proofs.Abaqus
namespace Meshio.Abaqus
open Meshio Types Tables Spec

variable {F : Type}

theorem idPos_idxOf? (ids : List Int) (hn : ids.Nodup) (k : Int) : idPos ids k = ids.idxOf? k := by
  by_cases hk : k ∈ ids
  · have hl : ids.idxOf k < ids.length := List.idxOf_lt_length_iff.mpr hk
    have h := idPos_getElem ids hn (ids.idxOf k) hl
    rw [List.getElem_idxOf] at h
    rw [h]
    symm
    rw [List.idxOf?_eq_some_iff]
    refine ⟨hl, by rw [List.getElem_idxOf], ?_⟩
    intro j hj
    have := List.not_of_lt_findIdx (p := fun x => x == k) (xs := ids) (i := j) (by unfold List.idxOf at hj; exact hj)
    simpa using this
  · have h1 : idPos ids k = none := by
      have := idGet_not_mem ids k hk
      unfold idGet at this
      cases h : idPos ids k with
      | none => rfl
      | some i => rw [h] at this; cases this
    rw [h1]; symm
    rw [List.idxOf?_eq_none_iff]; exact hk

theorem idGet_idxOf (ids : List Int) (hn : ids.Nodup) (k : Int) (hk : k ∈ ids) : idGet ids k = .ok (ids.idxOf k) := by
  have hl : ids.idxOf k < ids.length := List.idxOf_lt_length_iff.mpr hk
  have h := idGet_getElem ids hn (ids.idxOf k) hl
  rwa [List.getElem_idxOf] at h

theorem mapRes_idGet (ids : List Int) (hn : ids.Nodup) (l : List Int) (h : ∀ k ∈ l, k ∈ ids) :
    mapRes (idGet ids) l = .ok (l.map ids.idxOf) := mapRes_ok_of_forall fun k hk => idGet_idxOf ids hn k (h k hk)

/-! ## GENERATE -/

theorem sorted_ext (l m : List Int) (hl : l.Pairwise (· < ·)) (hm : m.Pairwise (· < ·)) (h : ∀ x, x ∈ l ↔ x ∈ m) : l = m := by
  induction l generalizing m with
  | nil =>
    cases m with
    | nil => rfl
    | cons b m => exact absurd ((h b).mpr (by simp)) (by simp)
  | cons a l ih =>
    cases m with
    | nil => exact absurd ((h a).mp (by simp)) (by simp)
    | cons b m =>
      rw [List.pairwise_cons] at hl hm
      have hab : a = b := by
        rcases List.mem_cons.1 ((h a).mp (by simp)) with e | e
        · exact e
        · rcases List.mem_cons.1 ((h b).mpr (by simp)) with e' | e'
          · exact e'.symm
          · have := hl.1 b e'
            have := hm.1 a e
            omega
      subst hab
      rw [ih m hl.2 hm.2]
      intro x
      constructor
      · intro hx
        rcases List.mem_cons.1 ((h x).mp (by simp [hx])) with e | e
        · subst e; exact absurd (hl.1 x hx) (by omega)
        · exact e
      · intro hx
        rcases List.mem_cons.1 ((h x).mpr (by simp [hx])) with e | e
        · subst e; exact absurd (hm.1 x hx) (by omega)
        · exact e

theorem arange_stepped (a b s : Int) (hs : 0 < s) (m : List Int) (h : Stepped a b s m) : arange a (b + 1) s = .ok m := by
  have hs0 : s ≠ 0 := by omega
  unfold arange
  rw [if_neg hs0, if_pos hs]
  congr 1
  apply sorted_ext
  · rw [List.pairwise_map]
    refine (List.pairwise_lt_range).imp ?_
    intro i j hij
    have : (i : Int) * s < (j : Int) * s := Int.mul_lt_mul_of_pos_right (by omega) hs
    omega
  · exact h.1
  · intro x
    rw [h.2 x]
    constructor
    · intro hx
      obtain ⟨i, hi, rfl⟩ := List.mem_map.1 hx
      rw [List.mem_range] at hi
      have h0 : (0 : Int) ≤ (i : Int) * s := Int.mul_nonneg (by omega) (by omega)
      have h1 : ((i : Int) + 1) ≤ (b + 1 - a + s - 1) / s := by omega
      rw [Int.le_ediv_iff_mul_le hs, Int.add_mul] at h1
      refine ⟨by omega, by omega, ?_⟩
      exact ⟨i, by rw [Int.mul_comm s]; omega⟩
    · rintro ⟨h1, h2, t, ht⟩
      have ht0 : 0 ≤ t := by
        rcases Int.lt_or_le t 0 with hn | hp
        · have : s * t < 0 := Int.mul_neg_of_pos_of_neg hs hn
          omega
        · exact hp
      refine List.mem_map.2 ⟨t.toNat, ?_, ?_⟩
      · rw [List.mem_range]
        have : t + 1 ≤ (b + 1 - a + s - 1) / s := by
          rw [Int.le_ediv_iff_mul_le hs, Int.add_mul, Int.mul_comm t]; omega
        omega
      · rw [Int.toNat_of_nonneg ht0, Int.mul_comm t]; omega

/-! ## Sections -/

/-- The state after a part. -/
def step (numbers : List Int) (st : St F) : AbaqusItem → St F
  | .other _ _ => st
  | .block _ _ t s _ rows =>
    match s with
    | some name => { st with cells := st.cells ++ [(t, rows.map fun r => r.2.map numbers.idxOf)], cellIds := st.cellIds ++ [rows.map (·.1)],
                             elemSets := Dict.set st.elemSets name rows.length, order := st.order ++ [name] }
    | none => { st with cells := st.cells ++ [(t, rows.map fun r => r.2.map numbers.idxOf)], cellIds := st.cellIds ++ [rows.map (·.1)] }
  | .nset _ name _ members => { st with pointSets := Dict.set st.pointSets name (members.map numbers.idxOf) }
  | .elset _ name _ members =>
    { st with cellSets := Dict.set st.cellSets name (st.cellIds.map fun ids => .ids (members.filterMap (idPos ids))) }

theorem readNodes_ok (io : FloatIO F) (ls : List (List Char × Option (Int × List F))) (h : ∀ l ∈ ls, IsNode io l)
    (hd : ∃ d, ∀ p ∈ ls.filterMap (·.2), p.2.length = d) (tail : List (List Char)) (ht : Ends tail) :
    readNodes io ((ls.map (·.1)).map (· ++ ['\n']) ++ tail) = .ok (ls.filterMap (·.2)) ∧
      afterData ((ls.map (·.1)).map (· ++ ['\n']) ++ tail) = tail := by
  have hdata : ∀ l ∈ ls.map (·.1), IsData l := by
    intro l hl
    obtain ⟨p, hp, rfl⟩ := List.mem_map.1 hl
    exact (h p hp).1
  obtain ⟨e1, e2⟩ := section_lines _ tail hdata ht
  refine ⟨?_, e2⟩
  unfold readNodes
  rw [e1, nodeLines io ls h]
  simp only
  rw [if_pos]
  obtain ⟨d, hd⟩ := hd
  rw [List.all_eq_true]
  intro p hp
  rw [decide_eq_true_iff, hd p hp]
  cases hq : ls.filterMap (·.2) with
  | nil => rw [hq] at hp; cases hp
  | cons q qs =>
    rw [hq] at hd
    simp [hd q (by simp)]

theorem readSet_ok (m : Dict (Option (List Char))) (ls : List (List Char × List Int)) (h : ∀ l ∈ ls, IsMembers l) (members : List Int)
    (hs : IsSet (Dict.has m "GENERATE") (ls.flatMap (·.2)) members) (tail : List (List Char)) (ht : Ends tail) :
    readSet m ((ls.map (·.1)).map (· ++ ['\n']) ++ tail) = .ok (members, []) ∧
      afterData ((ls.map (·.1)).map (· ++ ['\n']) ++ tail) = tail := by
  have hdata : ∀ l ∈ ls.map (·.1), IsData l := by
    intro l hl
    obtain ⟨p, hp, rfl⟩ := List.mem_map.1 hl
    exact (h p hp).1
  obtain ⟨e1, e2⟩ := section_lines _ tail hdata ht
  refine ⟨?_, e2⟩
  obtain ⟨r, e3, e4, e5⟩ := memberLines ls h
  unfold readSet
  rw [e1, e3]
  simp only
  rw [e4, e5]
  unfold IsSet at hs
  by_cases hg : Dict.has m "GENERATE" = true
  · rw [if_pos hg] at hs
    rw [if_pos hg]
    obtain ⟨a, b, s, h1, h2, h3⟩ := hs
    rw [h1]
    simp only
    rw [arange_stepped a b s h2 members h3]
  · rw [if_neg hg] at hs
    rw [if_neg hg, hs]

theorem has_generate {word : String} {os : List (String × Option String)} {m : Dict (Option (List Char))}
    (hm : ∀ k, Dict.get? m k = match os.lookup k with
        | some v => some (v.map String.toList)
        | none => if k = "*" ++ word then some none else none) (key : String) (hk : key ≠ "*" ++ word) :
    Dict.has m key = (os.map (·.1)).contains key := by
  unfold Dict.has
  rw [hm, if_neg hk]
  cases hl : os.lookup key with
  | none =>
    rw [List.lookup_eq_none_iff] at hl
    symm
    show List.contains _ _ = false
    rw [List.contains_eq_mem, decide_eq_false_iff_not]
    intro hc
    obtain ⟨p, hp, e⟩ := List.mem_map.1 hc
    have := hl p hp
    simp [e] at this
  | some v =>
    symm
    show List.contains _ _ = true
    rw [List.contains_eq_mem, decide_eq_true_iff]
    have : (key, v) ∈ os := by
      clear hm
      induction os with
      | nil => cases hl
      | cons o os ih =>
        rw [List.lookup_cons] at hl
        cases hb : key == o.1 with
        | true =>
          rw [hb] at hl
          simp only [Option.some.injEq] at hl
          have : key = o.1 := by simpa using hb
          rw [this, ← hl]; simp
        | false =>
          rw [hb] at hl
          exact List.mem_cons_of_mem _ (ih hl)
    exact List.mem_map.2 ⟨_, this, rfl⟩

theorem nameOf_ok {m : Dict (Option (List Char))} {key name : String} (h : Dict.get? m key = some (some name.toList)) :
    nameOf m key = .ok name := by
  unfold nameOf
  rw [h]
  simp only [String.ofList_toList]

theorem abaqus_tables : ∀ k ∈ abaqusNames, find abaqusToMeshio k.1 = some k.2.1 ∧ find numNodesPerCell k.2.1 = some k.2.2 ∧
    (Dict.get? topologicalDimension k.2.1).isSome = true := by decide +kernel

theorem flat_rows (n : Nat) (rows : List (Int × List Int)) (h : ∀ r ∈ rows, r.2.length = n) :
    (rows.flatMap (fun r => r.1 :: r.2)).length = rows.length * (n + 1) ∧
    rowsN (n + 1) rows.length (rows.flatMap (fun r => r.1 :: r.2)) = rows.map fun r => r.1 :: r.2 := by
  have hw : ∀ r ∈ rows.map (fun r => r.1 :: r.2), r.length = n + 1 := by
    intro r hr
    obtain ⟨q, hq, rfl⟩ := List.mem_map.1 hr
    simp [h q hq]
  constructor
  · induction rows with
    | nil => simp
    | cons r rows ih =>
      rw [List.flatMap_cons, List.length_append, ih (fun r hr => h r (by simp [hr])) (fun r hr => hw r (by simp at hr ⊢; exact .inr hr)),
        List.length_cons, List.length_cons, h r (by simp), Nat.succ_mul]
      omega
  · have := rowsN_flatten (n + 1) _ hw []
    rw [List.append_nil, List.length_map] at this
    rwa [List.flatMap_def]

/-- What an ELEMENT section is read as, whatever follows it. -/
theorem elementSection_ok (numbers : List Int) (hn : numbers.Nodup) (st : St F) (hst : st.pids = some numbers) (h name type : _) (set ls rows)
    (hok : AbaqusItem.Ok numbers (.block h name type set ls rows)) (tail : List (List Char)) (ht : Ends tail) :
    elementSection st (h ++ ['\n']) ((ls.map (·.1)).map (· ++ ['\n']) ++ tail) = .ok (step numbers st (.block h name type set ls rows)) ∧
      afterData ((ls.map (·.1)).map (· ++ ['\n']) ++ tail) = tail := by
  obtain ⟨n, os, hname, hkey, htype, hset, hset', hls, hflat, hids, hrows⟩ := hok
  have hdata : ∀ l ∈ ls.map (·.1), IsData l := by
    intro l hl
    obtain ⟨p, hp, rfl⟩ := List.mem_map.1 hl
    exact (hls p hp).1
  obtain ⟨e1, e2⟩ := section_lines _ tail hdata ht
  refine ⟨?_, e2⟩
  obtain ⟨m, hm1, hm2⟩ := getParams_keyLine "ELEMENT" os h hkey "TYPE" (List.mem_map.2 ⟨_, htype, rfl⟩)
  have hnod : (os.map (·.1)).Nodup := by
    obtain ⟨_, _, _, _, _, _, _, _, _, h⟩ := hkey; exact h
  have hT : Dict.get? m "TYPE" = some (some name.toList) := by
    rw [hm2, lookup_option hnod htype]; rfl
  obtain ⟨t1, t2, t3⟩ := abaqus_tables _ hname
  simp only at t1 t2 t3
  obtain ⟨idx, e3, e4⟩ := numberLines ls hls
  obtain ⟨f1, f2⟩ := flat_rows n rows (fun r hr => (hrows r hr).1)
  have hrc : readCells m numbers ((ls.map (·.1)).map (· ++ ['\n']) ++ tail) =
      .ok (type, rows.map (fun r => r.2.map numbers.idxOf), rows.map (·.1)) := by
    unfold readCells
    rw [hT]
    simp only [String.ofList_toList]
    rw [t1]; simp only
    rw [t2]; simp only
    rw [e1, e3]; simp only
    rw [e4, hflat, f1]
    rw [if_neg (show ¬ (rows.length * (n + 1)) % (n + 1) ≠ 0 by rw [Nat.mul_mod_left]; simp)]
    rw [Nat.mul_div_cancel _ (by omega), f2, Permas.mapRes_map]
    have e5 : mapRes (fun (a : Int × List Int) => mapRes (idGet numbers) ((a.1 :: a.2).drop 1)) rows =
        .ok (rows.map fun r => r.2.map numbers.idxOf) := by
      apply mapRes_ok_of_forall
      intro r hr
      exact mapRes_idGet numbers hn r.2 (hrows r hr).2
    rw [e5]
    simp only [List.map_map]
    rfl
  obtain ⟨points, pids, cells, cellIds, pointSets, cellSets, elemSets, order⟩ := st
  simp only at hst
  subst hst
  unfold elementSection
  simp only
  rw [hm1]; simp only
  rw [hrc]; simp only
  obtain ⟨dim, hdim⟩ := Option.isSome_iff_exists.mp t3
  rw [hdim]; simp only
  have hel : Dict.has m "ELSET" = (os.map (·.1)).contains "ELSET" := has_generate (word := "ELEMENT") hm2 "ELSET" (by decide)
  cases set with
  | some nm =>
    have hmem := hset' (by simp)
    have : Dict.has m "ELSET" = true := by
      rw [hel, List.contains_eq_mem, decide_eq_true_iff]
      exact List.mem_map.2 ⟨_, hmem, rfl⟩
    rw [if_pos this]
    have hN : nameOf m "ELSET" = .ok nm := nameOf_ok (by rw [hm2, lookup_option hnod hmem]; rfl)
    rw [hN]; simp only [step, List.length_map]
  | none =>
    have : ¬ Dict.has m "ELSET" = true := by
      rw [hel, List.contains_eq_mem, decide_eq_true_iff]
      intro hc
      obtain ⟨o, ho, e⟩ := List.mem_map.1 hc
      obtain ⟨a, b⟩ := hset o ho e
      exact a b
    rw [if_neg this]
    rfl

theorem nsetSection_ok (numbers : List Int) (hn : numbers.Nodup) (st : St F) (hst : st.pids = some numbers) (h name : _) (ls members)
    (hok : AbaqusItem.Ok numbers (.nset h name ls members)) (tail : List (List Char)) (ht : Ends tail) :
    nsetSection st (h ++ ['\n']) ((ls.map (·.1)).map (· ++ ['\n']) ++ tail) = .ok (step numbers st (.nset h name ls members)) ∧
      afterData ((ls.map (·.1)).map (· ++ ['\n']) ++ tail) = tail := by
  obtain ⟨os, hkey, hname, hls, hset, hmem⟩ := hok
  obtain ⟨m, hm1, hm2⟩ := getParams_keyLine "NSET" os h hkey "NSET" (List.mem_map.2 ⟨_, hname, rfl⟩)
  have hnod : (os.map (·.1)).Nodup := by
    obtain ⟨_, _, _, _, _, _, _, _, _, h⟩ := hkey; exact h
  rw [← has_generate (word := "NSET") hm2 "GENERATE" (by decide)] at hset
  obtain ⟨e1, e2⟩ := readSet_ok m ls hls members hset tail ht
  refine ⟨?_, e2⟩
  obtain ⟨points, pids, cells, cellIds, pointSets, cellSets, elemSets, order⟩ := st
  simp only at hst
  subst hst
  unfold nsetSection
  rw [hm1]; simp only
  rw [e1]; simp only
  rw [nameOf_ok (m := m) (key := "NSET") (name := name) (by rw [hm2, lookup_option hnod hname]; rfl)]
  simp only
  rw [mapRes_idGet numbers hn members hmem]
  rfl

theorem elsetSection_ok (numbers : List Int) (st : St F) (h name : _) (ls members)
    (hok : AbaqusItem.Ok numbers (.elset h name ls members)) (tail : List (List Char)) (ht : Ends tail) :
    elsetSection st (h ++ ['\n']) ((ls.map (·.1)).map (· ++ ['\n']) ++ tail) = .ok (step numbers st (.elset h name ls members)) ∧
      afterData ((ls.map (·.1)).map (· ++ ['\n']) ++ tail) = tail := by
  obtain ⟨os, hkey, hname, hls, hset, hne⟩ := hok
  obtain ⟨m, hm1, hm2⟩ := getParams_keyLine "ELSET" os h hkey "ELSET" (List.mem_map.2 ⟨_, hname, rfl⟩)
  have hnod : (os.map (·.1)).Nodup := by
    obtain ⟨_, _, _, _, _, _, _, _, _, h⟩ := hkey; exact h
  rw [← has_generate (word := "ELSET") hm2 "GENERATE" (by decide)] at hset
  obtain ⟨e1, e2⟩ := readSet_ok m ls hls members hset tail ht
  refine ⟨?_, e2⟩
  unfold elsetSection
  rw [hm1]; simp only
  rw [e1]; simp only
  rw [nameOf_ok (m := m) (key := "ELSET") (name := name) (by rw [hm2, lookup_option hnod hname]; rfl)]
  simp only
  rw [if_pos hne]
  rfl

/-! ## The loop -/

theorem loop_ignored (io : FloatIO F) (inc : List Char → Res (Out F)) (st : St F) (ls : List (List Char)) (h : ∀ l ∈ ls, IsIgnored l)
    (tail : List (List Char)) (fuel : Nat) :
    loop io inc (fuel + ls.length) st (ls.map (· ++ ['\n']) ++ tail) = loop io inc fuel st tail := by
  induction ls with
  | nil => rfl
  | cons l ls ih =>
    rw [List.length_cons, ← Nat.add_assoc, List.map_cons, List.cons_append]
    rw [loop]
    obtain ⟨hnl, hl⟩ := h l (by simp)
    rw [ih (fun l hl => h l (by simp [hl]))]
    rcases hl with hl | hl
    · have : ['*', '*'].isPrefixOf (l ++ ['\n']) = true := by
        rw [List.isPrefixOf_iff_prefix]
        rw [← hl]
        exact (List.take_prefix _ _).trans (List.prefix_append _ _)
      rw [if_pos this]
    · by_cases hp : ['*', '*'].isPrefixOf (l ++ ['\n']) = true
      · rw [if_pos hp]
      · rw [if_neg hp]
        have hk : keyword (l ++ ['\n']) = ((strip (l.takeWhile (· != ','))).filter (· != '*')).map Char.toUpper := by
          unfold keyword upper
          have : strip ((l ++ ['\n']).takeWhile (· != ',')) = strip (l.takeWhile (· != ',')) := by
            by_cases hc : ',' ∈ l
            · obtain ⟨a, b, hab, hna⟩ := List.eq_append_cons_of_mem hc
              have ha : ∀ x ∈ a, (x != ',') = true := by
                intro x hx; simp only [bne_iff_ne, ne_eq]; rintro rfl; exact hna hx
              rw [hab, List.append_assoc, List.cons_append, List.takeWhile_append_of_pos ha, List.takeWhile_append_of_pos ha,
                List.takeWhile_cons, List.takeWhile_cons]
              simp
            · have ha : ∀ x ∈ l, (x != ',') = true := by
                intro x hx; simp only [bne_iff_ne, ne_eq]; rintro rfl; exact hc hx
              have e1 : l.takeWhile (· != ',') = l := by
                have := List.takeWhile_append_of_pos (l₂ := []) ha
                simpa using this
              rw [List.takeWhile_append_of_pos ha, e1]
              have : ['\n'].takeWhile (· != ',') = ['\n'] := by decide
              rw [this, strip_nl']
          rw [this]
        rw [← hk] at hl
        simp only
        rw [if_neg (hl "NODE" (by simp)), if_neg (hl "ELEMENT" (by simp)), if_neg (hl "NSET" (by simp)), if_neg (hl "ELSET" (by simp)),
          if_neg (hl "INCLUDE" (by simp))]

theorem item_star {numbers : List Int} {i : AbaqusItem} (h : i.Ok numbers) : ∃ l ls, i.lines = l :: ls ∧ l.head? = some '*' := by
  cases i with
  | other h' ls => exact ⟨_, _, rfl, h.1⟩
  | block h' a b c d e => obtain ⟨_, _, _, hk, _⟩ := h; exact ⟨_, _, rfl, keyLine_star hk⟩
  | nset h' a b c => obtain ⟨_, hk, _⟩ := h; exact ⟨_, _, rfl, keyLine_star hk⟩
  | elset h' a b c => obtain ⟨_, hk, _⟩ := h; exact ⟨_, _, rfl, keyLine_star hk⟩

theorem ends_items {numbers : List Int} (is : List AbaqusItem) (h : ∀ i ∈ is, i.Ok numbers) (tail : List (List Char)) (ht : Ends tail) :
    Ends ((is.flatMap (·.lines)).map (· ++ ['\n']) ++ tail) := by
  cases is with
  | nil => exact ht
  | cons i is =>
    obtain ⟨l, ls, e, hs⟩ := item_star (h i (by simp))
    intro l' hl'
    rw [List.flatMap_cons, e] at hl'
    simp only [List.cons_append, List.map_cons, List.head?_cons, Option.some.injEq] at hl'
    subst hl'
    cases l with
    | nil => cases hs
    | cons c l => exact hs

theorem step_pids (numbers : List Int) (st : St F) (i : AbaqusItem) : (step numbers st i).pids = st.pids := by
  cases i with
  | other => rfl
  | block a b c d e f => cases d <;> rfl
  | nset => rfl
  | elset => rfl

/-- One part. -/
theorem loop_item (io : FloatIO F) (inc : List Char → Res (Out F)) (numbers : List Int) (hn : numbers.Nodup) (st : St F)
    (hst : st.pids = some numbers) (i : AbaqusItem) (hi : i.Ok numbers) (tail : List (List Char)) (ht : Ends tail) (fuel : Nat) :
    ∃ fuel' ≥ fuel, loop io inc (fuel + i.lines.length) st (i.lines.map (· ++ ['\n']) ++ tail) = loop io inc fuel' (step numbers st i) tail := by
  cases i with
  | other h ls =>
    refine ⟨fuel, Nat.le_refl _, ?_⟩
    have := loop_ignored io inc st (h :: ls) (by
      intro l hl
      rcases List.mem_cons.1 hl with rfl | hl
      · exact hi.2.1
      · exact hi.2.2 l hl) tail fuel
    exact this
  | block h name type set ls rows =>
    obtain ⟨e1, e2⟩ := elementSection_ok numbers hn st hst h name type set ls rows hi tail ht
    obtain ⟨_, os, _, hk, _⟩ := hi
    refine ⟨fuel + (ls.map (·.1)).length, by omega, ?_⟩
    show loop io inc (fuel + (ls.map (·.1)).length + 1) st ((h ++ ['\n']) :: ((ls.map (·.1)).map (· ++ ['\n']) ++ tail)) = _
    rw [loop, if_neg (by rw [keyLine_not_comment (by decide) (by decide) hk]; simp)]
    rw [keyword_keyLine _ (by decide) os h hk]
    simp only
    rw [if_neg (by decide), if_pos trivial, e1]; simp only
    rw [e2]
  | nset h name ls members =>
    obtain ⟨e1, e2⟩ := nsetSection_ok numbers hn st hst h name ls members hi tail ht
    obtain ⟨os, hk, _⟩ := hi
    refine ⟨fuel + (ls.map (·.1)).length, by omega, ?_⟩
    show loop io inc (fuel + (ls.map (·.1)).length + 1) st ((h ++ ['\n']) :: ((ls.map (·.1)).map (· ++ ['\n']) ++ tail)) = _
    rw [loop, if_neg (by rw [keyLine_not_comment (by decide) (by decide) hk]; simp)]
    rw [keyword_keyLine _ (by decide) os h hk]
    simp only
    rw [if_neg (by decide), if_neg (by decide), if_pos trivial, e1]; simp only
    rw [e2]
  | elset h name ls members =>
    obtain ⟨e1, e2⟩ := elsetSection_ok numbers st h name ls members hi tail ht
    obtain ⟨os, hk, _⟩ := hi
    refine ⟨fuel + (ls.map (·.1)).length, by omega, ?_⟩
    show loop io inc (fuel + (ls.map (·.1)).length + 1) st ((h ++ ['\n']) :: ((ls.map (·.1)).map (· ++ ['\n']) ++ tail)) = _
    rw [loop, if_neg (by rw [keyLine_not_comment (by decide) (by decide) hk]; simp)]
    rw [keyword_keyLine _ (by decide) os h hk]
    simp only
    rw [if_neg (by decide), if_neg (by decide), if_neg (by decide), if_pos trivial, e1]; simp only
    rw [e2]

/-- All parts, whatever follows. -/
theorem loop_items (io : FloatIO F) (inc : List Char → Res (Out F)) (numbers : List Int) (hn : numbers.Nodup) (is : List AbaqusItem)
    (hi : ∀ i ∈ is, i.Ok numbers) (tail : List (List Char)) (ht : Ends tail) (st : St F) (hst : st.pids = some numbers) (fuel : Nat) :
    ∃ fuel' ≥ fuel, loop io inc (fuel + (is.flatMap (·.lines)).length) st ((is.flatMap (·.lines)).map (· ++ ['\n']) ++ tail) =
      loop io inc fuel' (is.foldl (step numbers) st) tail := by
  induction is generalizing st fuel with
  | nil => exact ⟨fuel, Nat.le_refl _, rfl⟩
  | cons i is ih =>
    have hi' : ∀ j ∈ is, j.Ok numbers := fun j hj => hi j (by simp [hj])
    rw [List.flatMap_cons, List.length_append, List.map_append, List.append_assoc, List.foldl_cons]
    obtain ⟨f1, g1, e1⟩ := loop_item io inc numbers hn st hst i (hi i (by simp)) _ (ends_items is hi' tail ht)
      (fuel + (is.flatMap (·.lines)).length)
    have e0 : fuel + (i.lines.length + (is.flatMap (·.lines)).length) = fuel + (is.flatMap (·.lines)).length + i.lines.length := by omega
    rw [e0, e1]
    obtain ⟨k, hk⟩ : ∃ k, f1 = k + (is.flatMap (·.lines)).length := ⟨f1 - (is.flatMap (·.lines)).length, by omega⟩
    subst hk
    obtain ⟨f2, g2, e2⟩ := ih hi' (step numbers st i) (by rw [step_pids]; exact hst) k
    exact ⟨f2, by omega, e2⟩

/-- The state after the nodes. -/
def nodesState (f : AbaqusFile F) : St F :=
  { (St.init : St F) with points := (f.nodes.filterMap (·.2)).map (·.2), pids := some f.numbers }

/-- A whole file, whatever follows. -/
theorem loop_file (io : FloatIO F) (inc : List Char → Res (Out F)) (f : AbaqusFile F) (hf : f.Ok io) (tail : List (List Char))
    (ht : Ends tail) (fuel : Nat) :
    ∃ fuel' ≥ fuel, loop io inc (fuel + f.lines.length) St.init (f.lines.map (· ++ ['\n']) ++ tail) =
      loop io inc fuel' (f.items.foldl (step f.numbers) (nodesState f)) tail := by
  have hlen : fuel + f.lines.length = (fuel + (f.items.flatMap (·.lines)).length + (f.nodes.map (·.1)).length + 1) + f.before.length := by
    unfold AbaqusFile.lines
    simp only [List.length_append, List.length_cons]
    omega
  have hl : f.lines.map (· ++ ['\n']) ++ tail = f.before.map (· ++ ['\n']) ++ ((f.head ++ ['\n']) :: ((f.nodes.map (·.1)).map (· ++ ['\n']) ++
      ((f.items.flatMap (·.lines)).map (· ++ ['\n']) ++ tail))) := by
    unfold AbaqusFile.lines
    simp only [List.map_append, List.map_cons, List.append_assoc, List.cons_append]
  rw [hlen, hl, loop_ignored io inc _ f.before hf.before]
  obtain ⟨os, hk⟩ := hf.head
  have hends := ends_items f.items hf.items tail ht
  obtain ⟨e1, e2⟩ := readNodes_ok io f.nodes hf.nodes hf.dim _ hends
  rw [loop, if_neg (by rw [keyLine_not_comment (by decide) (by decide) hk]; simp)]
  rw [keyword_keyLine _ (by decide) os f.head hk]
  simp only
  rw [if_pos trivial]
  unfold nodeSection
  rw [e1]; simp only
  rw [e2]
  have : fuel + (f.items.flatMap (·.lines)).length + (f.nodes.map (·.1)).length =
      (fuel + (f.nodes.map (·.1)).length) + (f.items.flatMap (·.lines)).length := by omega
  rw [this]
  obtain ⟨f', g, e⟩ := loop_items io inc f.numbers hf.distinct f.items hf.items tail ht (nodesState f) rfl (fuel + (f.nodes.map (·.1)).length)
  refine ⟨f', by omega, ?_⟩
  rw [← e]
  rfl

end Meshio.Abaqus
