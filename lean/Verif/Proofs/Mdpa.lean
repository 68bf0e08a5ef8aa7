/-
Helper lemmas for C58: how the MDPA reader works through a file.
-/
import Verif.Base.Words
import Verif.Proofs.Common
import Verif.Proofs.Runs
import Verif.Spec.Mdpa
namespace Meshio.Mdpa
open Meshio Types Tables Spec

variable {F : Type}

theorem text_append (a b : List (List Char)) (s : List Char) : linesText (a ++ b) ++ s = linesText a ++ (linesText b ++ s) := by
  rw [linesText_append, List.append_assoc]

theorem text_cons (a : List Char) (b : List (List Char)) (s : List Char) :
    linesText (a :: b) ++ s = a ++ '\n' :: (linesText b ++ s) := by
  rw [linesText_cons, List.append_assoc]; rfl

/-! ### Nodes -/

theorem countNodes_lines (ls : List (List Char)) (h : ∀ l ∈ ls, '\n' ∉ l ∧ hasSub "End Nodes".toList (l ++ ['\n']) = false)
    (rest : List Char) (fuel : Nat) (hf : ls.length < fuel) :
    countNodes fuel (linesText (ls ++ ["End Nodes".toList]) ++ rest) = .ok ls.length := by
  induction ls generalizing fuel with
  | nil =>
    cases fuel with
    | zero => omega
    | succ fuel =>
      rw [List.nil_append, text_cons, countNodes, if_neg (by simp), readLine_append _ _ (by decide),
        if_pos (by exact (by decide : hasSub "End Nodes".toList ("End Nodes".toList ++ ['\n']) = true))]
      rfl
  | cons l ls ih =>
    cases fuel with
    | zero => omega
    | succ fuel =>
      rw [List.cons_append, text_cons, countNodes, if_neg (by simp), readLine_append _ _ (h l (by simp)).1,
        if_neg (by rw [(h l (by simp)).2]; simp)]
      simp only
      rw [ih (fun l hl => h l (by simp [hl])) fuel (by simpa using hf)]
      rfl

theorem row_noEnd (io : MdpaFloat F) (r : List Char × Int × List F) (h : IsRow r.1 (fmtInt r.2.1 :: r.2.2.map io.fmt)) :
    hasSub "End Nodes".toList (r.1 ++ ['\n']) = false := by
  refine hasSub_of_not_mem (c := 'd') (by decide) ?_
  intro hm
  have : 'd' ∈ r.1 := by simpa using hm
  obtain ⟨t, ht, hd⟩ := mem_splitWs (by decide) this
  rw [h.1] at ht
  rcases List.mem_cons.1 ht with rfl | ht
  · exact not_mem_fmtInt (by decide) (by decide) _ hd
  · obtain ⟨x, -, rfl⟩ := List.mem_map.1 ht
    exact io.noD x hd

theorem readNodes_ok (io : MdpaFloat F) (rows : List (List Char × Int × List F))
    (h : ∀ r ∈ rows, IsRow r.1 (fmtInt r.2.1 :: r.2.2.map io.fmt) ∧ r.2.2.length = 3) (rest : List Char) :
    readNodes io.parse (linesText (rows.map (·.1) ++ ["End Nodes".toList]) ++ rest) = .ok (rows.map (·.2.2), rest) := by
  have hc : countNodes ((linesText (rows.map (·.1) ++ ["End Nodes".toList]) ++ rest).length + 1)
      (linesText (rows.map (·.1) ++ ["End Nodes".toList]) ++ rest) = .ok rows.length := by
    rw [countNodes_lines]
    · rw [List.length_map]
    · intro l hl
      obtain ⟨r, hr, rfl⟩ := List.mem_map.1 hl
      exact ⟨(h r hr).1.2, row_noEnd io r (h r hr).1⟩
    · have := length_linesText_ge (rows.map (·.1) ++ ["End Nodes".toList])
      rw [List.length_append] at this ⊢
      omega
  -- the numbers
  let X : Int → F := fun i => Classical.choose (io.parse_int i)
  have hX : ∀ i, io.parse (fmtInt i) = some (X i) := fun i => Classical.choose_spec (io.parse_int i)
  let vals : List (List F) := rows.map fun r => X r.2.1 :: r.2.2
  have hlen : ∀ v ∈ vals, v.length = 4 := by
    intro v hv
    obtain ⟨r, hr, rfl⟩ := List.mem_map.1 hv
    simp [(h r hr).2]
  have hvl : vals.flatten.length = rows.length * 4 := by
    rw [length_flatten_const 4 vals hlen, List.length_map]
  have hw : splitWs (linesText (rows.map (·.1))) = rows.flatMap fun r => fmtInt r.2.1 :: r.2.2.map io.fmt := by
    rw [splitWs_lines, List.flatMap_map]
    exact flatMap_congr' fun r hr => (h r hr).1.1
  have hp : (rows.flatMap fun r => fmtInt r.2.1 :: r.2.2.map io.fmt).map io.parse = vals.flatten.map some := by
    show _ = (rows.map fun r => X r.2.1 :: r.2.2).flatten.map some
    rw [← List.flatMap_def, List.map_flatMap, List.map_flatMap]
    refine flatMap_congr' fun r hr => ?_
    rw [List.map_cons, List.map_cons, hX, List.map_map]
    congr 1
    exact List.map_congr_left fun x _ => io.parse_fmt x
  have hs := scan_text io.parse _ vals.flatten hp (linesText (rows.map (·.1))) hw (linesText_end _)
    (linesText ["End Nodes".toList] ++ rest) (by intro c hc; rw [text_cons] at hc; cases hc; decide)
  rw [hvl, ← text_append] at hs
  unfold readNodes
  rw [hc]
  simp only
  have hr := reshape_flatten 4 vals hlen
  rw [show vals.length = rows.length from List.length_map _] at hr
  rw [hs.1, hr]
  simp only
  have hS : (if rows.length = 0 then linesText (rows.map (·.1) ++ ["End Nodes".toList]) ++ rest else
      (scan io.parse (rows.length * 4) (linesText (rows.map (·.1) ++ ["End Nodes".toList]) ++ rest)).2.dropWhile isWs) =
      "End Nodes".toList ++ '\n' :: rest := by
    split
    · next e =>
      rw [List.length_eq_zero_iff.1 e]
      simp [linesText]
    · rw [hs.2, text_cons]; rfl
  rw [hS, readLine_append _ _ (by decide)]
  simp only
  rw [if_neg (by rw [strip_nl']; decide)]
  congr 2
  show (rows.map fun r => X r.2.1 :: r.2.2).map (·.drop 1) = _
  rw [List.map_map]
  rfl

/-! ### Entities -/

theorem named_type {name : List Char} {t : String} {n : Nat} (h : MdpaNamed name t n) :
    typeOfName name = some t ∨ (typeOfName name = none ∧ typeOfCount (n : Int) = some t) := by
  obtain ⟨⟨k, hk, hkt, hki⟩, hall⟩ := h
  unfold typeOfName
  cases hf : mdpaToMeshio.find? fun kv => hasSub kv.1.toList name with
  | some kv =>
    left
    have h1 : hasSub kv.1.toList name = true := by simpa using List.find?_some hf
    rw [hasSub_iff] at h1
    have h2 : ∃ m ∈ mdpaNames, m.1 = kv.1 ∧ m.2.1 = kv.2 :=
      (by decide +kernel : ∀ kv ∈ mdpaToMeshio, ∃ m ∈ mdpaNames, m.1 = kv.1 ∧ m.2.1 = kv.2) kv (List.mem_of_find?_eq_some hf)
    obtain ⟨m, hm, e1, e2⟩ := h2
    have := hall m hm (by rw [e1]; exact h1)
    rw [Option.map_some, ← e2, this]
  | none =>
    right
    refine ⟨rfl, ?_⟩
    rw [List.find?_eq_none] at hf
    have h2 := (by decide +kernel : ∀ k ∈ mdpaNames, (∃ kv ∈ mdpaToMeshio, kv.1 = k.1) ∨ k = ("Line3D3", "line3", 3)) k hk
    rcases h2 with ⟨kv, hkv, e⟩ | rfl
    · exact absurd ((hasSub_iff _ _).2 (by rw [e]; exact hki)) (hf kv hkv)
    · cases hkt
      decide +kernel

theorem named_pos {name : List Char} {t : String} {n : Nat} (h : MdpaNamed name t n) : name ≠ [] ∧ (t, n) ∈ mdpaTypes := by
  obtain ⟨⟨k, hk, hkt, hki⟩, -⟩ := h
  have h2 := (by decide +kernel : ∀ k ∈ mdpaNames, k.1.toList ≠ [] ∧ k.2 ∈ mdpaTypes) k hk
  refine ⟨?_, hkt ▸ h2.2⟩
  rintro rfl
  exact h2.1 (List.infix_nil.1 hki)

theorem types_pos {t : String} {n : Nat} (h : (t, n) ∈ mdpaTypes) : 1 ≤ n :=
  (by decide : ∀ k ∈ mdpaTypes, 1 ≤ k.2) _ h

theorem readRow_ok (t : String) (n : Nat) (hn : 1 ≤ n) (t0 : Option String)
    (ht : t0 = some t ∨ (t0 = none ∧ typeOfCount (n : Int) = some t)) (cells : List (String × List (List Int)))
    (r : List Char × Int × Int × List Int) (h : IsRow r.1 (fmtInt r.2.1 :: fmtInt r.2.2.1 :: r.2.2.2.map fmtInt))
    (hl : r.2.2.2.length = n) :
    readRow t0 cells (r.1 ++ ['\n']) = .ok (t, pushTyped cells (t, r.2.2.2.map (· - 1))) := by
  unfold readRow
  have e : fmtInt r.2.1 :: fmtInt r.2.2.1 :: r.2.2.2.map fmtInt = (r.2.1 :: r.2.2.1 :: r.2.2.2).map fmtInt := rfl
  have hm : mapRes toInt ((r.2.1 :: r.2.2.1 :: r.2.2.2).map fmtInt) = .ok (r.2.1 :: r.2.2.1 :: r.2.2.2) := by
    have : ∀ l : List Int, mapRes toInt (l.map fmtInt) = .ok l := by
      intro l
      induction l with
      | nil => rfl
      | cons z l ih => rw [List.map_cons, mapRes, toInt, parseInt_fmtInt]; simp only; rw [ih]
    exact this _
  rw [splitWs_nl, h.1, e, hm]
  simp only
  have e2 : (((r.2.1 :: r.2.2.1 :: r.2.2.2).length : Nat) : Int) - 2 = (n : Int) := by
    simp only [List.length_cons, hl]; omega
  rw [e2]
  have hn2 : nodesOf (r.2.1 :: r.2.2.1 :: r.2.2.2) = r.2.2.2 := by
    unfold nodesOf
    rw [if_neg (by simp only [List.length_cons, hl]; omega)]
    rfl
  rcases ht with rfl | ⟨rfl, ht⟩
  · simp only
    rw [if_neg (by simp), hn2]
  · simp only [ht]
    rw [if_neg (by simp), hn2]

theorem row_notEnd {r : List Char × Int × Int × List Int}
    (h : IsRow r.1 (fmtInt r.2.1 :: fmtInt r.2.2.1 :: r.2.2.2.map fmtInt)) (w : List Char) (hw : 'E' ∈ w) :
    w.isPrefixOf (r.1 ++ ['\n']) = false := by
  rw [Bool.eq_false_iff]
  intro hp
  rw [List.isPrefixOf_iff_prefix] at hp
  have : 'E' ∈ r.1 := by simpa using hp.subset hw
  obtain ⟨t, ht, hd⟩ := mem_splitWs (by decide) this
  rw [h.1] at ht
  have : ∃ z, t = fmtInt z := by
    rcases List.mem_cons.1 ht with rfl | ht
    · exact ⟨_, rfl⟩
    · rcases List.mem_cons.1 ht with rfl | ht
      · exact ⟨_, rfl⟩
      · obtain ⟨z, -, rfl⟩ := List.mem_map.1 ht
        exact ⟨z, rfl⟩
  obtain ⟨z, rfl⟩ := this
  exact not_mem_fmtInt (by decide) (by decide) _ hd

theorem readRows_ok (t : String) (n : Nat) (hn : 1 ≤ n) (c : Bool) (rows : List (List Char × Int × Int × List Int))
    (h : ∀ r ∈ rows, IsRow r.1 (fmtInt r.2.1 :: fmtInt r.2.2.1 :: r.2.2.2.map fmtInt) ∧ r.2.2.2.length = n) (t0 : Option String)
    (ht : t0 = some t ∨ (t0 = none ∧ typeOfCount (n : Int) = some t)) (cells : List (String × List (List Int)))
    (rest : List Char) (fuel : Nat) (hf : rows.length < fuel) :
    readRows fuel t0 cells (linesText (rows.map (·.1) ++ ["End ".toList ++ mdpaKind c]) ++ rest) =
      .ok ((rows.map fun r => (t, r.2.2.2.map (· - 1))).foldl pushTyped cells, rest) := by
  induction rows generalizing fuel t0 cells with
  | nil =>
    cases fuel with
    | zero => omega
    | succ fuel =>
      rw [List.map_nil, List.nil_append, text_cons, readRows, readLine_append _ _ (by cases c <;> decide),
        if_pos (by exact (by revert c; decide : ∀ c, "End Elements".toList.isPrefixOf ("End ".toList ++ mdpaKind c ++ ['\n']) = true ∨
          "End Conditions".toList.isPrefixOf ("End ".toList ++ mdpaKind c ++ ['\n']) = true) c), strip_nl',
        if_pos (by cases c <;> decide)]
      rfl
  | cons r rows ih =>
    cases fuel with
    | zero => omega
    | succ fuel =>
      obtain ⟨h1, h2⟩ := h r (by simp)
      rw [List.map_cons, List.cons_append, text_cons, readRows, readLine_append _ _ h1.2,
        if_neg (by
          rw [row_notEnd h1 _ (by decide), row_notEnd h1 _ (by decide)]
          simp)]
      simp only
      rw [readRow_ok t n hn t0 ht cells r h1 h2]
      simp only
      rw [ih (fun r hr => h r (by simp [hr])) (some t) (.inl rfl) _ fuel (by simpa using hf)]
      rfl

theorem head_line (c : Bool) (name : List Char) (hs : strip name = name) (hne : name ≠ []) :
    strip (("Begin ".toList ++ mdpaKind c ++ ' ' :: name) ++ ['\n']) = "Begin ".toList ++ mdpaKind c ++ ' ' :: name := by
  refine strip_trim ?_ ?_ _ (by intro c hc; simp only [List.mem_singleton] at hc; subst hc; decide)
  · intro d hd
    have : d = 'B' := by cases c <;> (cases hd; rfl)
    subst this; decide
  · intro d hd
    refine strip_getLast_of_eq hs d ?_
    rw [List.getLast?_append] at hd
    obtain ⟨x, r, rfl⟩ := List.exists_cons_of_ne_nil hne
    rw [List.getLast?_cons_cons] at hd
    rw [List.getLast?_eq_some_getLast (by simp : x :: r ≠ [])] at hd ⊢
    exact hd

theorem typeOfLine_ok (c : Bool) (name : List Char) : typeOfLine ("Begin ".toList ++ mdpaKind c ++ ' ' :: name) = typeOfName name := by
  cases c with
  | false =>
    have e : "Begin ".toList ++ mdpaKind false ++ ' ' :: name = "Begin Elements ".toList ++ name := rfl
    rw [e, typeOfLine, if_pos (by rw [List.isPrefixOf_iff_prefix]; exact List.prefix_append _ _)]
    rw [List.drop_left' (by decide)]
  | true =>
    have e : "Begin ".toList ++ mdpaKind true ++ ' ' :: name = "Begin Conditions ".toList ++ name := rfl
    rw [e, typeOfLine, if_neg (by
      rw [List.isPrefixOf_iff_prefix]
      exact not_prefix_of_not_prefix (by decide) (by decide)), if_pos (by
      rw [List.isPrefixOf_iff_prefix]; exact List.prefix_append _ _)]
    rw [List.drop_left' (by decide)]

/-! ### The loop -/

/-- What a section does to what is collected. -/
def after (st : Out F) : MdpaPart F → Out F
  | .other _ => st
  | .nodes rows => ⟨rows.map (·.2.2), st.cells⟩
  | .cells _ _ t rows => ⟨st.points, (rows.map fun r => (t, r.2.2.2.map (· - 1))).foldl pushTyped st.cells⟩

theorem readLoop_part (io : MdpaFloat F) (p : MdpaPart F) (hp : p.Ok io.fmt) (st : Out F) (rest : List Char) (fuel : Nat) :
    readLoop io.parse (fuel + 1) st (linesText p.lines ++ rest) = readLoop io.parse fuel (after st p) rest := by
  cases p with
  | other l =>
    obtain ⟨h1, h2⟩ := hp
    have hb : ∀ w ∈ ["Begin Nodes", "Begin Elements", "Begin Conditions"], w.toList.isPrefixOf (strip (l ++ ['\n'])) = false := by
      intro w hw
      rw [strip_nl', Bool.eq_false_iff]
      intro h
      exact h2 w hw (List.isPrefixOf_iff_prefix.1 h)
    show readLoop io.parse (fuel + 1) st (linesText [l] ++ rest) = _
    rw [text_cons, readLoop, if_neg (by simp), readLine_append _ _ h1]
    simp only
    rw [if_neg (by rw [hb _ (by simp)]; simp), if_neg (by rw [hb _ (by simp), hb _ (by simp)]; simp)]
    rfl
  | nodes rows =>
    show readLoop io.parse (fuel + 1) st (linesText (["Begin Nodes".toList] ++ rows.map (·.1) ++ ["End Nodes".toList]) ++ rest) = _
    rw [List.append_assoc, List.singleton_append, text_cons, readLoop, if_neg (by simp), readLine_append _ _ (by decide)]
    simp only
    rw [if_pos (by rw [strip_nl']; decide), readNodes_ok io rows hp]
    rfl
  | cells c name t rows =>
    obtain ⟨hs, hnl, n, hn, hrows⟩ := hp
    obtain ⟨hne, hty⟩ := named_pos hn
    show readLoop io.parse (fuel + 1) st (linesText (["Begin ".toList ++ mdpaKind c ++ ' ' :: name] ++ rows.map (·.1) ++
      ["End ".toList ++ mdpaKind c]) ++ rest) = _
    have hnl' : '\n' ∉ "Begin ".toList ++ mdpaKind c ++ ' ' :: name := by
      intro hm
      rcases List.mem_append.1 hm with hm | hm
      · revert hm; cases c <;> decide
      · rcases List.mem_cons.1 hm with hm | hm
        · revert hm; decide
        · exact hnl hm
    rw [List.append_assoc, List.singleton_append, text_cons, readLoop, if_neg (by simp), readLine_append _ _ hnl']
    simp only
    rw [head_line c name hs hne, if_neg (by
      rw [List.isPrefixOf_iff_prefix]
      exact not_prefix_of_not_prefix (by cases c <;> decide) (by cases c <;> decide)), if_pos (by
      cases c
      · exact .inl (List.isPrefixOf_iff_prefix.2 ⟨' ' :: name, rfl⟩)
      · exact .inr (List.isPrefixOf_iff_prefix.2 ⟨' ' :: name, rfl⟩)), typeOfLine_ok,
      readRows_ok t n (types_pos hty) c rows hrows _ (named_type hn)]
    · rfl
    · have := length_linesText_ge (rows.map (·.1) ++ ["End ".toList ++ mdpaKind c])
      simp only [List.length_append, List.length_map, List.length_cons, List.length_nil] at this ⊢
      omega

theorem lines_ne (p : MdpaPart F) : p.lines ≠ [] := by cases p <;> simp [MdpaPart.lines]

theorem readLoop_parts (io : MdpaFloat F) (f : List (MdpaPart F)) (hf : ∀ p ∈ f, p.Ok io.fmt) (st : Out F) (fuel : Nat)
    (h : f.length < fuel) : readLoop io.parse fuel st (linesText (f.flatMap (·.lines))) = .ok (f.foldl after st) := by
  induction f generalizing st fuel with
  | nil =>
    cases fuel with
    | zero => omega
    | succ fuel => rw [List.flatMap_nil, show linesText [] = [] from rfl, readLoop, if_pos rfl]; rfl
  | cons p f ih =>
    cases fuel with
    | zero => omega
    | succ fuel =>
      rw [List.flatMap_cons, linesText_append, readLoop_part io p (hf p (by simp)), ih (fun q hq => hf q (by simp [hq])) _ _
        (by simpa using h)]
      rfl

theorem foldl_after (f : List (MdpaPart F)) (st : Out F) :
    f.foldl after st = ⟨((f.filterMap fun p => match p with
        | .nodes rows => some (rows.map fun r => r.2.2)
        | _ => none).getLast?).getD st.points, (mdpaCells f).foldl pushTyped st.cells⟩ := by
  induction f generalizing st with
  | nil => rfl
  | cons p f ih =>
    rw [List.foldl_cons, ih]
    cases p with
    | other l => rfl
    | nodes rows =>
      simp only [after, List.filterMap_cons, mdpaCells, List.flatMap_cons, List.nil_append]
      congr 1
      generalize f.filterMap _ = g
      cases g with
      | nil => rfl
      | cons a g =>
        rw [List.getLast?_cons_cons, List.getLast?_eq_some_getLast (by simp : a :: g ≠ [])]
        rfl
    | cells c name t rows =>
      simp only [after, List.filterMap_cons, mdpaCells, List.flatMap_cons, List.foldl_append]

theorem parts_length (f : List (MdpaPart F)) : f.length ≤ (linesText (f.flatMap (·.lines))).length := by
  induction f with
  | nil => simp
  | cons p f ih =>
    rw [List.flatMap_cons, linesText_append, List.length_append, List.length_cons]
    have := length_linesText_ge p.lines
    have : p.lines.length ≠ 0 := fun e => lines_ne p (List.length_eq_zero_iff.1 e)
    omega

theorem mem_mdpaCells {io : MdpaFloat F} {f : List (MdpaPart F)} (hf : ∀ p ∈ f, p.Ok io.fmt) {t : String} {r : List Int}
    (h : (t, r) ∈ mdpaCells f) : ∃ n, (t, n) ∈ mdpaTypes ∧ r.length = n := by
  obtain ⟨p, hp, hm⟩ := List.mem_flatMap.1 h
  have := hf p hp
  cases p with
  | other l => simp at hm
  | nodes rows => simp at hm
  | cells c name t' rows =>
    obtain ⟨-, -, n, hn, hrows⟩ := this
    obtain ⟨x, hx, e⟩ := List.mem_map.1 hm
    cases e
    exact ⟨n, (named_pos hn).2, by rw [List.length_map]; exact (hrows x hx).2⟩

theorem types_unique {t : String} {n n' : Nat} (h : (t, n) ∈ mdpaTypes) (h' : (t, n') ∈ mdpaTypes) : n = n' :=
  (by decide +kernel : ∀ a ∈ mdpaTypes, ∀ b ∈ mdpaTypes, a.1 = b.1 → a.2 = b.2) _ h _ h' rfl

theorem read_ok (io : MdpaFloat F) (f : List (MdpaPart F)) (hf : ∀ p ∈ f, p.Ok io.fmt) :
    read io.parse (linesText (f.flatMap (·.lines))) = .ok ⟨mdpaPoints f, groupRuns (mdpaCells f)⟩ := by
  unfold read
  rw [readLoop_parts io f hf _ _ (by have := parts_length f; omega), foldl_after]
  simp only
  rw [foldl_pushTyped]
  have : mapRes checkBlock (groupRuns (mdpaCells f)) = .ok ((groupRuns (mdpaCells f)).map fun _ => ()) := by
    refine mapRes_ok_of_forall fun b hb => ?_
    have hne := groupRuns_ne_nil _ b hb
    obtain ⟨x, l, hx⟩ := List.exists_cons_of_ne_nil hne
    obtain ⟨n, hn, hxl⟩ := mem_mdpaCells hf (mem_groupRuns _ b hb x (by rw [hx]; simp))
    unfold checkBlock
    rw [if_pos]
    · have := (by decide +kernel : ∀ a ∈ mdpaTypes, (Dict.get? topologicalDimension a.1).isSome = true) _ hn
      simp only at this
      cases hd : Dict.get? topologicalDimension b.1 with
      | none => rw [hd] at this; cases this
      | some d => rfl
    · rw [List.all_eq_true]
      intro r hr
      obtain ⟨n', hn', hrl⟩ := mem_mdpaCells hf (mem_groupRuns _ b hb r hr)
      rw [hx]
      exact decide_eq_true (by rw [List.headD_cons, hrl, hxl, types_unique hn hn'])
  rw [this]
  rfl

end Meshio.Mdpa
