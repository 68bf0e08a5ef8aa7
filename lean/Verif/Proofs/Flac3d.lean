/-
Lemmas for FLAC3D files: the lines of a text file.
-/
import Verif.Spec.Flac3d
import Verif.Proofs.Runs
import Verif.Proofs.Common
import Verif.Proofs.Ansys
import Verif.Base.Words

namespace Meshio
namespace Flac3d
open Types Tables
open Meshio.Spec (groupRuns)
open Meshio.Spec.Flac3d

variable {F : Type}

/-! ## Words -/

theorem mapRes_of_map {α β : Type} {f : α → Res β} {g : α → Option β} (hfg : ∀ a b, g a = some b → f a = .ok b)
    {l : List α} {m : List β} (h : l.map g = m.map some) : mapRes f l = .ok m := by
  induction l generalizing m with
  | nil =>
    cases m with
    | nil => rfl
    | cons b m => cases h
  | cons a l ih =>
    cases m with
    | nil => cases h
    | cons b m =>
      simp only [List.map_cons, List.cons.injEq] at h
      unfold mapRes
      rw [hfg a b h.1, ih h.2]

theorem intWord_ok {w : List Char} {i : Int} (h : parseInt w = some i) : intWord w = .ok i := by
  unfold intWord
  rw [h]

theorem floatWord_ok {io : FlacIO F} {w : List Char} {x : F} (h : io.parse w = some x) : floatWord io w = .ok x := by
  unfold floatWord
  rw [h]

theorem nodeWord_ok {pids : List Int} (hn : pids.Nodup) {w : List Char} {v : Nat} (hv : v < pids.length)
    (h : parseInt w = pids[v]?) : nodeWord pids w = .ok v := by
  unfold nodeWord
  rw [List.getElem?_eq_getElem hv] at h
  rw [intWord_ok h]
  exact idGet_getElem pids hn v hv

/-- Nodes of a cell, given by numbers among those of the points so far. -/
theorem nodes_ok {pids more : List Int} (hn : pids.Nodup) {ws : List (List Char)} {vs : List Nat} (hv : ∀ v ∈ vs, v < pids.length)
    (h : ws.map parseInt = vs.map (fun v => (pids ++ more)[v]?)) : mapRes (nodeWord pids) ws = .ok vs := by
  induction ws generalizing vs with
  | nil =>
    cases vs with
    | nil => rfl
    | cons v vs => cases h
  | cons w ws ih =>
    cases vs with
    | nil => cases h
    | cons v vs =>
      simp only [List.map_cons, List.cons.injEq] at h
      have hv1 := hv v (by simp)
      rw [List.getElem?_append_left hv1] at h
      unfold mapRes
      rw [nodeWord_ok hn hv1 h.1, ih (fun u hu => hv u (by simp [hu])) h.2]

theorem cellAscii_ok {letter : String} {pids more : List Int} (hn : pids.Nodup) {c : Cell} {l : List Char}
    (hl : CellLine letter (pids ++ more) c l) (hv : ∀ v ∈ c.nodes, v < pids.length) :
    ∃ ws, splitWs l = letter.toList :: ws ∧ cellAscii pids ws = .ok (c.id, c.nodes) := by
  obtain ⟨ty, w, ws, vs, h1, h2, h3, -, h5⟩ := hl
  refine ⟨_, h1, ?_⟩
  unfold cellAscii
  simp only
  rw [intWord_ok h2]
  simp only
  by_cases hb : ty = ['B', '7']
  · rw [if_pos (show ty = "B7".toList from hb)] at h5
    obtain ⟨v, hl, hc⟩ := h5
    rw [nodes_ok hn (fun u hu => hv u (by rw [hc]; simp [hu])) h3]
    simp only
    unfold dupLast
    rw [if_pos (by simp [hb]), hl, hc]
  · rw [if_neg (show ¬ ty = "B7".toList from hb)] at h5
    rw [nodes_ok hn (fun u hu => hv u (by rw [h5]; exact hu)) h3]
    simp only
    unfold dupLast
    rw [if_neg (by simp [hb]), h5]

/-! ## Group lines -/

theorem dropSpaces_append {g r : List Char} (hg : ∀ c ∈ g, c = ' ') (hr : r.head? ≠ some ' ') : dropSpaces (g ++ r) = r := by
  induction g with
  | nil =>
    cases r with
    | nil => rfl
    | cons c r =>
      have : (c == ' ') = false := by
        rw [beq_eq_false_iff_ne]
        intro e
        exact hr (by rw [e]; rfl)
      simp [dropSpaces, this]
  | cons c g ih =>
    have := hg c (by simp)
    subst this
    have ih := ih fun c hc => hg c (by simp [hc])
    unfold dropSpaces at ih ⊢
    simpa using ih

theorem rstripSpaces_append {s g : List Char} (hg : ∀ c ∈ g, c = ' ') (hs : s.getLast? ≠ some ' ') : rstripSpaces (s ++ g) = s := by
  unfold rstripSpaces
  rw [List.reverse_append]
  have := dropSpaces_append (g := g.reverse) (r := s.reverse) (fun c hc => hg c (by simpa using hc)) (by
    rw [List.head?_reverse]; exact hs)
  unfold dropSpaces at this
  rw [this, List.reverse_reverse]

theorem closeQuote_ok {name r : List Char} {q : Char} (hq : isQuote q = true) (hn : ∀ c ∈ name, isQuote c = false ∧ c ≠ '\n')
    (hr : upperNext r = true) : closeQuote (name ++ q :: r) = some (name, r) := by
  induction name with
  | nil =>
    show closeQuote (q :: r) = _
    unfold closeQuote
    rw [hq, hr]
    rfl
  | cons c name ih =>
    show closeQuote (c :: (name ++ q :: r)) = _
    unfold closeQuote
    have hc := hn c (by simp)
    rw [hc.1, if_neg (by simp), if_neg hc.2, ih fun c hc => hn c (by simp [hc])]

theorem isQuote_mem {q : Char} (h : q ∈ ['"', '\'']) : isQuote q = true := by
  simp only [List.mem_cons, List.mem_nil_iff, or_false] at h
  rcases h with rfl | rfl <;> rfl

theorem splitWs_word_space (w : List Char) (hw : IsTok w) (g r : List Char) (hg : g ≠ []) (hs : ∀ c ∈ g, c = ' ') :
    ∃ ws, splitWs (w ++ (g ++ r)) = w :: ws := by
  cases g with
  | nil => exact absurd rfl hg
  | cons c g =>
    have := hs c (by simp)
    subst this
    exact ⟨_, splitWs_tok_ws hw rfl (g ++ r)⟩

theorem groupLine_ok {word : String} (hw : word = "ZGROUP" ∨ word = "FGROUP") {g : Group} {l : List Char} (h : GroupLine word g l) :
    (∃ ws, splitWs (l ++ ['\n']) = word.toList :: ws) ∧ groupLine (l ++ ['\n']) = .ok (g.name, g.slot) := by
  obtain ⟨g1, g2, g3, g4, q, q', rfl, hg1, hg, hq, hq', hname, hslot, hs1, hs2, hs3⟩ := h
  have hup : ∀ c ∈ word.toList, c.isUpper = true := by
    rcases hw with rfl | rfl <;> decide
  have htok : IsTok word.toList := by
    rcases hw with rfl | rfl <;> exact ⟨by decide, by decide⟩
  have hg1' : ∀ c ∈ g1, c = ' ' := fun c hc => hg c (by simp [hc])
  have hg2' : ∀ c ∈ g2, c = ' ' := fun c hc => hg c (by simp [hc])
  have hg3' : ∀ c ∈ g3, c = ' ' := fun c hc => hg c (by simp [hc])
  have hg4' : ∀ c ∈ g4, c = ' ' := fun c hc => hg c (by simp [hc])
  refine ⟨?_, ?_⟩
  · rw [List.append_assoc, List.append_assoc]
    exact splitWs_word_space _ htok g1 _ hg1 hg1'
  · have hqne : q ≠ ' ' := by
      intro e
      subst e
      simp at hq
    have hhead : upperNext (word.toList ++ (g1 ++ q :: (g.name ++ q' :: (g2 ++ ("SLOT".toList ++ (g3 ++ (g.slot ++ g4)))))) ++ ['\n'])
          = true ∧ ((word.toList ++ (g1 ++ q :: (g.name ++ q' :: (g2 ++ ("SLOT".toList ++ (g3 ++ (g.slot ++ g4)))))) ++ ['\n']).head?
            == some ' ') = false := by
      rcases hw with rfl | rfl <;> exact ⟨rfl, rfl⟩
    have hdw : (word.toList ++ (g1 ++ q :: (g.name ++ q' :: (g2 ++ ("SLOT".toList ++ (g3 ++ (g.slot ++ g4)))))) ++ ['\n']).dropWhile
        Char.isUpper = g1 ++ q :: (g.name ++ q' :: (g2 ++ ("SLOT".toList ++ (g3 ++ (g.slot ++ g4))))) ++ ['\n'] := by
      cases g1 with
      | nil => exact absurd rfl hg1
      | cons c g1 =>
        have := hg1' c (by simp)
        subst this
        rcases hw with rfl | rfl <;> rfl
    unfold groupLine
    rw [hhead.1, hhead.2, if_pos (by rfl), hdw]
    have e1 : g1 ++ q :: (g.name ++ q' :: (g2 ++ ("SLOT".toList ++ (g3 ++ (g.slot ++ g4))))) ++ ['\n'] =
        g1 ++ q :: (g.name ++ q' :: (g2 ++ ("SLOT".toList ++ (g3 ++ (g.slot ++ (g4 ++ ['\n'])))))) := by simp
    rw [e1, dropSpaces_append hg1' (by simp [hqne])]
    simp only
    rw [if_pos (isQuote_mem hq)]
    have hslotup : dropSpaces (g2 ++ ("SLOT".toList ++ (g3 ++ (g.slot ++ (g4 ++ ['\n']))))) =
        "SLOT".toList ++ (g3 ++ (g.slot ++ (g4 ++ ['\n']))) := dropSpaces_append hg2' (by
          intro e
          have : ("SLOT".toList ++ (g3 ++ (g.slot ++ (g4 ++ ['\n'])))).head? = some 'S' := rfl
          rw [this] at e
          cases e)
    rw [closeQuote_ok (isQuote_mem hq') (by
      intro c hc
      obtain ⟨h1, h2, h3⟩ := hname c hc
      refine ⟨?_, h3⟩
      unfold isQuote
      simp [h1, h2]) (by
        unfold upperNext
        rw [hslotup]
        rfl)]
    simp only
    rw [hslotup]
    have hstop : ∀ c, (g3 ++ (g.slot ++ (g4 ++ ['\n']))).head? = some c → c.isUpper = false := by
      intro c hc
      cases g3 with
      | cons d g3 =>
        have := hg3' d (by simp)
        subst this
        simp only [List.cons_append, List.head?_cons, Option.some.injEq] at hc
        subst hc
        rfl
      | nil =>
        cases hsl : g.slot with
        | cons d s =>
          rw [hsl] at hc
          simp only [List.nil_append, List.cons_append, List.head?_cons, Option.some.injEq] at hc
          exact hs3 rfl c (by rw [hsl, List.head?_cons, hc])
        | nil =>
          rw [hsl] at hc
          cases g4 with
          | cons d g4 =>
            have := hg4' d (by simp)
            subst this
            simp only [List.nil_append, List.cons_append, List.head?_cons, Option.some.injEq] at hc
            subst hc
            rfl
          | nil =>
            simp only [List.nil_append, List.head?_cons, Option.some.injEq] at hc
            subst hc
            rfl
    have hslotw : ∀ c ∈ "SLOT".toList, c.isUpper = true := by decide
    rw [Ansys.takeWhile_stop hslotw hstop, if_pos (show "SLOT".toList = ['S', 'L', 'O', 'T'] from rfl)]
    have hdrop : ("SLOT".toList ++ (g3 ++ (g.slot ++ (g4 ++ ['\n'])))).dropWhile Char.isUpper = g3 ++ (g.slot ++ (g4 ++ ['\n'])) := by
      have h1 := List.takeWhile_append_dropWhile (p := Char.isUpper) (l := "SLOT".toList ++ (g3 ++ (g.slot ++ (g4 ++ ['\n']))))
      rw [Ansys.takeWhile_stop hslotw hstop] at h1
      exact List.append_cancel_left h1
    rw [hdrop]
    -- the slot
    have hlast : ∀ s : List Char, chomp (s ++ ['\n']) = s := by
      intro s
      unfold chomp
      rw [if_pos (by simp), List.dropLast_concat]
    by_cases hsl : g.slot = []
    · rw [hsl]
      have : g3 ++ ([] ++ (g4 ++ ['\n'])) = (g3 ++ g4) ++ ['\n'] := by simp
      rw [this, dropSpaces_append (r := ['\n']) (by
        intro c hc
        rcases List.mem_append.1 hc with h | h
        · exact hg3' c h
        · exact hg4' c h) (by simp)]
      rfl
    · rw [dropSpaces_append hg3' (by
        cases hsl' : g.slot with
        | nil => exact absurd hsl' hsl
        | cons d s =>
          rw [hsl'] at hs1
          exact hs1), ← List.append_assoc, hlast, rstripSpaces_append hg4' hs2]

/-! ## Tables -/

theorem tableLine_of_int {w : List Char} {ws : List (List Char)} {line : List Char} (h : splitWs line = w :: ws)
    (hw : (parseInt w).isSome) : tableLine line = true := by
  unfold tableLine
  rw [h]
  simp only [Bool.not_eq_true', Bool.or_eq_false_iff, beq_eq_false_iff_ne, ne_eq]
  refine ⟨⟨?_, ?_⟩, ?_⟩ <;> intro e <;> subst e <;> revert hw <;> decide

/-- The lines from here on do not begin with a line of a table. -/
def StopsAt (ls : List (List Char)) : Prop := ∀ l, ls.head? = some l → tableLine l = false

theorem readTable_stop {ls : List (List Char)} (h : StopsAt ls) : readTable ls = .ok ([], ls) := by
  cases ls with
  | nil => rfl
  | cons l ls =>
    unfold readTable
    rw [h l rfl, if_neg (by simp)]

theorem readTable_ok {rows : List (List Char)} {ids : List Int} {ls : List (List Char)} (hr : ∀ r ∈ rows, splitWs r ≠ [])
    (h : (rows.flatMap splitWs).map parseInt = ids.map some) (hs : StopsAt ls) :
    readTable (rows.map (· ++ ['\n']) ++ ls) = .ok (ids, ls) := by
  induction rows generalizing ids with
  | nil =>
    cases ids with
    | nil => exact readTable_stop hs
    | cons i ids => cases h
  | cons r rows ih =>
    rw [List.flatMap_cons, List.map_append] at h
    obtain ⟨d, ids', rfl, hd, hi⟩ := List.append_eq_map_iff.1 h
    rw [List.map_cons, List.cons_append, readTable]
    have hw : tableLine (r ++ ['\n']) = true := by
      cases hsp : splitWs r with
      | nil => exact absurd hsp (hr r (by simp))
      | cons w ws =>
        apply tableLine_of_int (w := w) (ws := ws)
        · rw [splitWs_nl, hsp]
        · rw [hsp] at hd
          cases d with
          | nil => cases hd
          | cons i d =>
            simp only [List.map_cons, List.cons.injEq] at hd
            rw [← hd.1]
            rfl
    rw [if_pos hw, splitWs_nl, mapRes_of_map (fun _ _ => intWord_ok) hd.symm]
    simp only
    rw [ih (fun r hr' => hr r (by simp [hr'])) hi.symm]

/-! ## The loop -/

/-- Types by the number of nodes. -/
def zoneType (n : Nat) : String := ((zoneKind n).map (·.1)).getD ""
def faceType (n : Nat) : String := ((faceKind n).map (·.1)).getD ""

theorem find_zone (n : Nat) (h : (zoneKind n).isSome) : find flacNumNodesZone n = some (zoneType n) := by
  unfold zoneKind at h
  split at h <;> first | rfl | cases h

theorem find_face (n : Nat) (h : (faceKind n).isSome) : find flacNumNodesFace n = some (faceType n) := by
  unfold faceKind at h
  split at h <;> first | rfl | cases h

/-- The numbers of the members of a group. -/
def memberIds (ids : List Int) (g : Group) : List Int := g.members.map fun i => ids.getD i 0

/-- A dictionary of groups. -/
def groupDict (kind : String) (ids : List Int) (gs : List Group) : Dict (List Int) :=
  gs.foldl (fun d g => Dict.set d (key kind g) (memberIds ids g)) []

/-- The state after the pieces of a grid. -/
def stOf (zids fids : List Int) (g : Grid F) : St F where
  points := g.points.map (·.2)
  pids := g.points.map (·.1)
  fcells := groupRuns (g.faces.map fun c => (faceType c.nodes.length, c.nodes))
  zcells := groupRuns (g.zones.map fun c => (zoneType c.nodes.length, c.nodes))
  fids := g.faces.map (·.id)
  zids := g.zones.map (·.id)
  fsets := groupDict "face" fids g.fgroups
  zsets := groupDict "zone" zids g.zgroups

theorem groupRuns_snoc {κ α : Type} [DecidableEq κ] (l : List (κ × α)) (x : κ × α) :
    groupRuns (l ++ [x]) = pushTyped (groupRuns l) x := by
  rw [← foldl_pushTyped, ← foldl_pushTyped, List.foldl_append]
  rfl

theorem groupDict_snoc (kind : String) (ids : List Int) (gs : List Group) (g : Group) :
    groupDict kind ids (gs ++ [g]) = Dict.set (groupDict kind ids gs) (key kind g) (memberIds ids g) := by
  unfold groupDict
  rw [List.foldl_append]
  rfl

theorem setKey_key (kind : String) (g : Group) : setKey kind.toList g.name g.slot = key kind g := by
  unfold setKey key
  congr 1
  simp

theorem members_ids {ids : List Int} {g : Group} (h : ∀ i ∈ g.members, i < ids.length) :
    g.members.map (fun i => ids[i]?) = (memberIds ids g).map some := by
  unfold memberIds
  rw [List.map_map]
  apply List.map_congr_left
  intro i hi
  have := h i hi
  simp [this]

theorem stopsAt_of {io : FlacIO F} {p z f : List Int} {items : List (Item F)} {lines : List (List (List Char))}
    (hs : All2 (Shows io p z f) items lines) (h : Stops items) : StopsAt (lines.flatten.map (· ++ ['\n'])) := by
  intro l hl
  cases items with
  | nil =>
    cases lines with
    | nil => cases hl
    | cons a b => exact hs.elim
  | cons it items =>
    cases lines with
    | nil => exact hs.elim
    | cons ls lines =>
      obtain ⟨h1, -⟩ := hs
      cases it with
      | other line =>
        obtain ⟨rfl, -⟩ := h1
        simp only [List.flatten_cons, List.cons_append, List.nil_append, List.map_cons, List.head?_cons, Option.some.injEq] at hl
        subst hl
        unfold tableLine
        rw [splitWs_nl]
        rcases h with h | h
        · rw [h]
        · cases hsp : splitWs line with
          | nil => rfl
          | cons w ws =>
            rw [hsp] at h
            simp only [List.head?_cons, Option.some.injEq] at h
            subst h
            rfl
      | point => exact h.elim
      | zone => exact h.elim
      | face => exact h.elim
      | zgroup g =>
        obtain ⟨l', rows, rfl, hg, -⟩ := h1
        simp only [List.flatten_cons, List.cons_append, List.map_cons, List.head?_cons, Option.some.injEq] at hl
        subst hl
        obtain ⟨⟨ws, hw⟩, -⟩ := groupLine_ok (Or.inl rfl) hg
        unfold tableLine
        rw [hw]
        rfl
      | fgroup g =>
        obtain ⟨l', rows, rfl, hg, -⟩ := h1
        simp only [List.flatten_cons, List.cons_append, List.map_cons, List.head?_cons, Option.some.injEq] at hl
        subst hl
        obtain ⟨⟨ws, hw⟩, -⟩ := groupLine_ok (Or.inr rfl) hg
        unfold tableLine
        rw [hw]
        rfl

theorem readLoop_ok (io : FlacIO F) (pids zids fids : List Int) (hn : pids.Nodup) (items pre : List (Item F))
    (lines : List (List (List Char))) (fuel : Nat)
    (hs : All2 (Shows io pids zids fids) items lines) (ho : InOrder (gridOf pre).points.length items)
    (hp : pids = (gridOf (pre ++ items)).points.map (·.1))
    (hz : ∀ c ∈ (gridOf items).zones, (zoneKind c.nodes.length).isSome)
    (hf : ∀ c ∈ (gridOf items).faces, (faceKind c.nodes.length).isSome)
    (hzg : ∀ g ∈ (gridOf items).zgroups, ∀ i ∈ g.members, i < zids.length)
    (hfg : ∀ g ∈ (gridOf items).fgroups, ∀ i ∈ g.members, i < fids.length)
    (hfuel : lines.flatten.length ≤ fuel) :
    readLoop io fuel (stOf zids fids (gridOf pre)) (lines.flatten.map (· ++ ['\n'])) = .ok (stOf zids fids (gridOf (pre ++ items))) := by
  induction items generalizing pre lines fuel with
  | nil =>
    cases lines with
    | cons a b => exact hs.elim
    | nil =>
      rw [List.append_nil]
      cases fuel <;> rfl
  | cons it items ih =>
    cases lines with
    | nil => exact hs.elim
    | cons ls lines =>
      obtain ⟨h1, hs⟩ := hs
      have happ : pre ++ it :: items = (pre ++ [it]) ++ items := by simp
      rw [happ] at hp ⊢
      have hpre : ∃ more, pids = (gridOf pre).points.map (·.1) ++ more := by
        rw [hp]
        refine ⟨((gridOf ([it] ++ items)).points).map (·.1), ?_⟩
        unfold gridOf
        simp only [List.filterMap_append, List.map_append, List.append_assoc]
      obtain ⟨more, hmore⟩ := hpre
      have hn' : ((gridOf pre).points.map (·.1)).Nodup := by
        rw [hmore] at hn
        exact (List.nodup_append.1 hn).1
      -- a piece with one line
      have one : ∀ (l : List Char) (rest : List (List Char)), ls = l :: rest → ∃ k, fuel = k + 1 ∧ (rest ++ lines.flatten).length ≤ k := by
        intro l rest e
        subst e
        rw [List.flatten_cons, List.length_append, List.length_cons] at hfuel
        refine ⟨fuel - 1, by omega, ?_⟩
        rw [List.length_append]
        omega
      cases it with
      | other line =>
        obtain ⟨rfl, hk⟩ := h1
        obtain ⟨k, rfl, hk2⟩ := one line [] rfl
        have hgr : gridOf (pre ++ [Item.other line]) = gridOf pre := by
          unfold gridOf
          simp
        have := ih (pre ++ [.other line]) lines k hs (by rw [hgr]; exact ho) hp hz hf hzg hfg (by simpa using hk2)
        rw [hgr] at this
        rw [List.flatten_cons, List.singleton_append, List.map_cons, readLoop, splitWs_nl]
        cases hsp : splitWs line with
        | nil =>
          simp only
          exact this
        | cons w ws =>
          have hw := hk w (by rw [hsp]; rfl)
          simp only [keywords, List.mem_cons, List.mem_nil_iff, or_false, not_or] at hw
          obtain ⟨h1, h2, h3, h4, h5⟩ := hw
          simp only
          rw [if_neg (show ¬ w = ['G'] from h1), if_neg (show ¬ w = ['Z'] from h2), if_neg (show ¬ w = ['F'] from h3),
            if_neg (show ¬ w = ['Z', 'G', 'R', 'O', 'U', 'P'] from h4), if_neg (show ¬ w = ['F', 'G', 'R', 'O', 'U', 'P'] from h5)]
          exact this
      | point id x =>
        obtain ⟨l, w, ws, rfl, hsp, hid, hx⟩ := h1
        obtain ⟨k, rfl, hk2⟩ := one l [] rfl
        have hst : ∀ p : Int × List F, p = (id, x) → stOf zids fids (gridOf (pre ++ [Item.point id x])) =
            { stOf zids fids (gridOf pre) with
              points := (stOf zids fids (gridOf pre)).points ++ [p.2], pids := (stOf zids fids (gridOf pre)).pids ++ [p.1] } := by
          intro p hp
          subst hp
          unfold stOf gridOf
          simp
        have := ih (pre ++ [.point id x]) lines k hs (by
          have : (gridOf (pre ++ [Item.point id x])).points.length = (gridOf pre).points.length + 1 := by
            unfold gridOf
            simp
          rw [this]
          exact ho) hp hz hf hzg hfg (by simpa using hk2)
        rw [hst _ rfl] at this
        rw [List.flatten_cons, List.singleton_append, List.map_cons, readLoop, splitWs_nl, hsp]
        simp only
        rw [if_pos (show "G".toList = ['G'] from rfl)]
        unfold pointAscii
        simp only
        rw [intWord_ok hid]
        simp only
        rw [mapRes_of_map (fun _ _ => floatWord_ok) hx]
        exact this
      | zone c =>
        obtain ⟨l, rfl, hl⟩ := h1
        obtain ⟨k, rfl, hk2⟩ := one l [] rfl
        obtain ⟨hv, ho⟩ := ho
        rw [hmore] at hl
        obtain ⟨ws, hsp, hc⟩ := cellAscii_ok hn' hl (by simpa using hv)
        have hkind := hz c (by unfold gridOf; simp)
        have hst : ∀ p : Int × List Nat, p = (c.id, c.nodes) → stOf zids fids (gridOf (pre ++ [Item.zone c])) =
            { stOf zids fids (gridOf pre) with
              zcells := pushTyped (stOf zids fids (gridOf pre)).zcells (zoneType c.nodes.length, c.nodes),
              zids := (stOf zids fids (gridOf pre)).zids ++ [p.1] } := by
          intro p hp
          subst hp
          unfold stOf gridOf
          simp only [List.filterMap_append, List.filterMap_cons, List.filterMap_nil, List.append_nil, List.map_append, List.map_cons,
            List.map_nil]
          rw [groupRuns_snoc]
        have := ih (pre ++ [.zone c]) lines k hs (by
          have : (gridOf (pre ++ [Item.zone c])).points.length = (gridOf pre).points.length := by
            unfold gridOf
            simp
          rw [this]
          exact ho) hp (fun c' hc' => hz c' (by
            unfold gridOf at hc' ⊢
            simp only [List.filterMap_cons, List.mem_cons]
            exact Or.inr hc')) hf hzg hfg (by simpa using hk2)
        rw [hst _ rfl] at this
        rw [List.flatten_cons, List.singleton_append, List.map_cons, readLoop, splitWs_nl, hsp]
        simp only
        rw [if_neg (show ¬ "Z".toList = ['G'] by decide), if_pos (show "Z".toList = ['Z'] from rfl)]
        show (match cellAscii ((gridOf pre).points.map (·.1)) ws with | .error e => _ | .ok c => _) = _
        rw [hc]
        simp only
        unfold updateCells
        rw [find_zone _ hkind]
        exact this
      | face c =>
        obtain ⟨l, rfl, hl⟩ := h1
        obtain ⟨k, rfl, hk2⟩ := one l [] rfl
        obtain ⟨hv, ho⟩ := ho
        rw [hmore] at hl
        obtain ⟨ws, hsp, hc⟩ := cellAscii_ok hn' hl (by simpa using hv)
        have hkind := hf c (by unfold gridOf; simp)
        have hst : ∀ p : Int × List Nat, p = (c.id, c.nodes) → stOf zids fids (gridOf (pre ++ [Item.face c])) =
            { stOf zids fids (gridOf pre) with
              fcells := pushTyped (stOf zids fids (gridOf pre)).fcells (faceType c.nodes.length, c.nodes),
              fids := (stOf zids fids (gridOf pre)).fids ++ [p.1] } := by
          intro p hp
          subst hp
          unfold stOf gridOf
          simp only [List.filterMap_append, List.filterMap_cons, List.filterMap_nil, List.append_nil, List.map_append, List.map_cons,
            List.map_nil]
          rw [groupRuns_snoc]
        have := ih (pre ++ [.face c]) lines k hs (by
          have : (gridOf (pre ++ [Item.face c])).points.length = (gridOf pre).points.length := by
            unfold gridOf
            simp
          rw [this]
          exact ho) hp hz (fun c' hc' => hf c' (by
            unfold gridOf at hc' ⊢
            simp only [List.filterMap_cons, List.mem_cons]
            exact Or.inr hc')) hzg hfg (by simpa using hk2)
        rw [hst _ rfl] at this
        rw [List.flatten_cons, List.singleton_append, List.map_cons, readLoop, splitWs_nl, hsp]
        simp only
        rw [if_neg (show ¬ "F".toList = ['G'] by decide), if_neg (show ¬ "F".toList = ['Z'] by decide),
          if_pos (show "F".toList = ['F'] from rfl)]
        show (match cellAscii ((gridOf pre).points.map (·.1)) ws with | .error e => _ | .ok c => _) = _
        rw [hc]
        simp only
        unfold updateCells
        rw [find_face _ hkind]
        exact this
      | zgroup g =>
        obtain ⟨l, rows, rfl, hg, hm1, hm2⟩ := h1
        obtain ⟨k, rfl, hk2⟩ := one l rows rfl
        obtain ⟨hst0, ho⟩ := ho
        obtain ⟨⟨ws, hsp⟩, hgl⟩ := groupLine_ok (Or.inl rfl) hg
        have hst : stOf zids fids (gridOf (pre ++ [Item.zgroup g])) =
            { stOf zids fids (gridOf pre) with
              zsets := Dict.set (stOf zids fids (gridOf pre)).zsets (setKey ['z', 'o', 'n', 'e'] g.name g.slot) (memberIds zids g) } := by
          rw [show (['z', 'o', 'n', 'e'] : List Char) = "zone".toList from rfl, setKey_key]
          unfold stOf gridOf
          simp only [List.filterMap_append, List.filterMap_cons, List.filterMap_nil, List.append_nil]
          rw [groupDict_snoc]
        have := ih (pre ++ [.zgroup g]) lines k hs (by
          have : (gridOf (pre ++ [Item.zgroup g])).points.length = (gridOf pre).points.length := by
            unfold gridOf
            simp
          rw [this]
          exact ho) hp hz hf (fun c' hc' => hzg c' (by
            unfold gridOf at hc' ⊢
            simp only [List.filterMap_cons, List.mem_cons]
            exact Or.inr hc')) hfg (by rw [List.length_append] at hk2; omega)
        rw [hst] at this
        rw [List.flatten_cons, List.cons_append, List.map_cons, readLoop, hsp]
        simp only
        rw [if_neg (show ¬ "ZGROUP".toList = ['G'] by decide), if_neg (show ¬ "ZGROUP".toList = ['Z'] by decide),
          if_neg (show ¬ "ZGROUP".toList = ['F'] by decide), if_pos (show "ZGROUP".toList = ['Z', 'G', 'R', 'O', 'U', 'P'] from rfl), hgl]
        simp only
        rw [List.map_append, readTable_ok hm1 (hm2.trans (members_ids (hzg g (by unfold gridOf; simp)))) (stopsAt_of hs hst0)]
        exact this
      | fgroup g =>
        obtain ⟨l, rows, rfl, hg, hm1, hm2⟩ := h1
        obtain ⟨k, rfl, hk2⟩ := one l rows rfl
        obtain ⟨hst0, ho⟩ := ho
        obtain ⟨⟨ws, hsp⟩, hgl⟩ := groupLine_ok (Or.inr rfl) hg
        have hst : stOf zids fids (gridOf (pre ++ [Item.fgroup g])) =
            { stOf zids fids (gridOf pre) with
              fsets := Dict.set (stOf zids fids (gridOf pre)).fsets (setKey ['f', 'a', 'c', 'e'] g.name g.slot) (memberIds fids g) } := by
          rw [show (['f', 'a', 'c', 'e'] : List Char) = "face".toList from rfl, setKey_key]
          unfold stOf gridOf
          simp only [List.filterMap_append, List.filterMap_cons, List.filterMap_nil, List.append_nil]
          rw [groupDict_snoc]
        have := ih (pre ++ [.fgroup g]) lines k hs (by
          have : (gridOf (pre ++ [Item.fgroup g])).points.length = (gridOf pre).points.length := by
            unfold gridOf
            simp
          rw [this]
          exact ho) hp hz hf hzg (fun c' hc' => hfg c' (by
            unfold gridOf at hc' ⊢
            simp only [List.filterMap_cons, List.mem_cons]
            exact Or.inr hc')) (by rw [List.length_append] at hk2; omega)
        rw [hst] at this
        rw [List.flatten_cons, List.cons_append, List.map_cons, readLoop, hsp]
        simp only
        rw [if_neg (show ¬ "FGROUP".toList = ['G'] by decide), if_neg (show ¬ "FGROUP".toList = ['Z'] by decide),
          if_neg (show ¬ "FGROUP".toList = ['F'] by decide), if_neg (show ¬ "FGROUP".toList = ['Z', 'G', 'R', 'O', 'U', 'P'] by decide),
          if_pos (show "FGROUP".toList = ['F', 'G', 'R', 'O', 'U', 'P'] from rfl), hgl]
        simp only
        rw [List.map_append, readTable_ok hm1 (hm2.trans (members_ids (hfg g (by unfold gridOf; simp)))) (stopsAt_of hs hst0)]
        exact this

end Flac3d
end Meshio
