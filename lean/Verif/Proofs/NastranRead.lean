/-
Reading Nastran files: entries, the loop, the mesh.
-/
import Verif.Proofs.Nastran
import Verif.Proofs.AbaqusMesh
namespace Meshio.Nastran
open Meshio Types Tables Spec

variable {F : Type}

/-! ## Entries -/

theorem flatMap_exp (l : List Char) (h1 : '+' ∉ l) (h2 : '-' ∉ l) :
    (l.flatMap fun d => if d = '+' ∨ d = '-' then ['e', d] else [d]) = l := by
  induction l with
  | nil => rfl
  | cons a l ih =>
    simp only [List.mem_cons, not_or] at h1 h2
    rw [List.flatMap_cons, if_neg (by rintro (rfl | rfl) <;> simp at h1 h2), ih h1.2 h2.2]; rfl

theorem floatWord_ok (io : NasIO F) (w : List Char) (x : F) (h : NasFloat io w x) : floatWord io w = .ok x := by
  unfold floatWord
  rcases h with h | ⟨h, c, m, s, e, hw, hs, hse, hp, hm, hx⟩
  · rw [h]
  · rw [h]
    simp only
    rw [hs, hw]
    simp only [List.cons_append]
    simp only [List.mem_append, not_or] at hp hm
    rw [List.flatMap_append, List.flatMap_cons, if_pos hse, flatMap_exp m hp.1 hm.1, flatMap_exp e hp.2 hm.2]
    simp only [List.cons_append, List.nil_append] at hx ⊢
    rw [hx]

theorem refWord_ok (w : List Char) (ref : Option Int) (h : NasRef w ref) : refWord w = .ok ref := by
  unfold refWord
  cases ref with
  | none => exact if_pos h
  | some r =>
    rw [if_neg h.1]
    unfold intWord
    rw [h.2]

theorem intWord_ok {w : List Char} {i : Int} (h : parseInt w = some i) : intWord w = .ok i := by
  unfold intWord; rw [h]

/-- A table of what `cellOf` decides. -/
def cellRow (e : String × String × Nat × List Nat) : Bool :=
  match find nastranToMeshio e.1 with
  | none => false
  | some t =>
    match find numNodesPerCell t with
    | none => false
    | some n =>
      let r := if n < e.2.2.1 then promoted t else some (t, e.1)
      match r with
      | none => false
      | some p => p.1 = e.2.1 && (match find nastranToVtkOrder p.2 with
        | none => e.2.2.2 = List.range e.2.2.1
        | some o => o = e.2.2.2 && o.all (· < e.2.2.1))

theorem cellRow_all : ∀ e ∈ nastranNames, cellRow e = true := by decide +kernel

theorem range_getD (l : List Int) : (List.range l.length).map (fun i => l.getD i 0) = l := by
  apply List.ext_getElem
  · simp
  · intro i h1 h2
    simp at h1
    simp [h1]

theorem reorder_row (nodes : List Int) (k : String) (order : List Nat)
    (h : (match find nastranToVtkOrder k with
        | none => (order = List.range nodes.length : Bool)
        | some o => o = order && o.all (· < nodes.length)) = true) :
    reorder nastranToVtkOrder k nodes = .ok (order.map fun i => nodes.getD i 0) := by
  unfold reorder
  cases hk : find nastranToVtkOrder k with
  | none =>
    rw [hk] at h
    simp only [decide_eq_true_eq] at h
    rw [h, range_getD]
  | some o =>
    rw [hk] at h
    simp only [Bool.and_eq_true, decide_eq_true_eq, List.all_eq_true] at h
    obtain ⟨rfl, h⟩ := h
    exact Flac3d.pick_atD 0 h

theorem cellOf_ok (name type : String) (nodes : List Int) (order : List Nat) (h : (name, type, nodes.length, order) ∈ nastranNames) :
    cellOf name nodes = .ok (type, order.map fun i => nodes.getD i 0) := by
  have hr := cellRow_all _ h
  unfold cellRow at hr
  unfold cellOf
  cases h1 : find nastranToMeshio name with
  | none => simp only [h1] at hr; cases hr
  | some t =>
    simp only [h1] at hr ⊢
    cases h2 : find numNodesPerCell t with
    | none => simp only [h2] at hr; cases hr
    | some n =>
      simp only [h2] at hr ⊢
      by_cases hn : n < nodes.length
      · rw [if_pos hn] at hr ⊢
        cases hp : promoted t with
        | none => rw [hp] at hr; cases hr
        | some p =>
          rw [hp] at hr
          simp only [Bool.and_eq_true] at hr ⊢
          rw [reorder_row nodes p.2 order hr.2]
          simp only
          rw [of_decide_eq_true hr.1]
      · rw [if_neg hn] at hr ⊢
        simp only [Bool.and_eq_true] at hr ⊢
        rw [reorder_row nodes name order hr.2]
        simp only
        rw [of_decide_eq_true hr.1]

/-! ## The state -/

abbrev Pts (F : Type) := List (Int × Option Int × List F)
abbrev Cls := List (String × Int × Option Int × List Int)

/-- The state after these points and cells. -/
def stOf (b : Bool) (pts : Pts F) (cls : Cls) : St F where
  points := pts.map (·.2.2)
  pids := pts.map (·.1)
  prefs := pts.filterMap (·.2.1)
  cells := groupRuns (cls.map fun c => (c.1, c.2.2.2))
  cids := (groupRuns cls).map (·.2.map (·.1))
  crefs := if b then (groupRuns cls).map (·.2.map (·.2.1.getD 0)) else []

theorem appendLast_concat {α : Type} (l : List (List α)) (b : List α) (a : α) : appendLast (l ++ [b]) a = .ok (l ++ [b ++ [a]]) := by
  unfold appendLast
  simp

theorem pushTyped_concat {κ α : Type} [DecidableEq κ] (l : List (κ × List α)) (b : κ × List α) (x : κ × α) :
    pushTyped (l ++ [b]) x = if b.1 = x.1 then l ++ [(b.1, b.2 ++ [x.2])] else l ++ [b] ++ [(x.1, [x.2])] := by
  unfold pushTyped pushBy
  simp

theorem push_ok (b : Bool) (pts : Pts F) (cls : Cls) (x : String × Int × Option Int × List Int) (hb : b = x.2.2.1.isSome) :
    push (stOf b pts cls) x.1 x.2.2.2 x.2.1 x.2.2.1 = .ok (stOf b pts (cls ++ [x])) := by
  have hcells : groupRuns ((cls ++ [x]).map fun c => (c.1, c.2.2.2)) = pushTyped (groupRuns (cls.map fun c => (c.1, c.2.2.2))) (x.1, x.2.2.2) := by
    rw [List.map_append, List.map_singleton, Flac3d.groupRuns_snoc]
  have hmap : groupRuns (cls.map fun c => (c.1, c.2.2.2)) = (groupRuns cls).map fun b => (b.1, b.2.map (·.2.2)) := groupRuns_map (fun v : Int × Option Int × List Int => v.2.2) cls
  have hsn := Flac3d.groupRuns_snoc cls x
  unfold push stOf
  simp only [hcells, hsn]
  generalize groupRuns cls = G at *
  rw [hmap]
  rcases List.eq_nil_or_concat G with rfl | ⟨G, g, rfl⟩
  · cases hx : x.2.2.1 with
    | none => rw [hx] at hb; subst hb; simp [pushTyped, pushBy]
    | some r => rw [hx] at hb; subst hb; simp [pushTyped, pushBy, hx]
  · simp only [List.concat_eq_append, List.map_append, List.map_singleton, pushTyped_concat, List.getLast?_append, List.getLast?_singleton, Option.map_some, Option.some_or, Option.some.injEq]
    by_cases hg : g.1 = x.1
    · rw [if_pos hg, if_pos hg, if_pos hg, appendLast_concat]
      simp only
      cases hx : x.2.2.1 with
      | none => rw [hx] at hb; subst hb; simp
      | some r =>
        rw [hx] at hb; subst hb
        simp only [Option.isSome_some, if_true, appendLast_concat]
        simp [hx]
    · rw [if_neg hg, if_neg hg, if_neg hg]
      cases hx : x.2.2.1 with
      | none => rw [hx] at hb; subst hb; simp
      | some r => rw [hx] at hb; subst hb; simp [hx]

/-! ## The loop -/

/-- The points of entries. -/
def ptsOf (es : List (NasEntry × NasItem F)) : Pts F :=
  es.filterMap fun e => match e.2 with | .grid id ref x => some (id, ref, x) | _ => none

/-- The cells of entries. -/
def clsOf (es : List (NasEntry × NasItem F)) : Cls :=
  es.filterMap fun e => match e.2 with
    | .cell _ t order id ref nodes => some (t, id, ref, order.map fun i => nodes.getD i 0)
    | _ => none

theorem names_found : ∀ e ∈ nastranNames, (find nastranToMeshio e.1).isSome = true ∧ e.1.toList ≠ "GRID".toList ∧ e.1.toList ≠ "GRID*".toList := by decide +kernel

theorem names_only : ∀ e ∈ nastranToMeshio, e.1 ∈ nastranNames.map (·.1) ++ ["CPYRA_", "CPENTA_"] := by decide +kernel

theorem bars_eq : bars = nastranBars := rfl

theorem mapRes_int (l : List (List Char)) (m : List Int) (h : All2 (fun w i => parseInt w = some i) l m) : mapRes intWord l = .ok m := by
  apply Abaqus.mapRes_all2
  exact Abaqus.all2_imp (fun _ _ => intWord_ok) l m h

theorem entry_ok (io : NasIO F) (b : Bool) (pts : Pts F) (cls : Cls) (fs : List (List Char)) (e : NasEntry) (item : NasItem F)
    (h : item.Is io fs) (hb : ∀ c ∈ clsOf [(e, item)], b = c.2.2.1.isSome) :
    entry io (stOf b pts cls) fs = .ok (stOf b (pts ++ ptsOf [(e, item)]) (cls ++ clsOf [(e, item)])) := by
  cases item with
  | grid id ref x =>
    obtain ⟨k, w1, w2, ws, rfl, hk, h1, h2, h3⟩ := h
    unfold entry
    simp only [List.head?_cons]
    rw [if_pos hk]
    unfold addPoint fieldAt
    simp only [List.getElem?_cons_succ, List.getElem?_cons_zero, List.drop_succ_cons, List.drop_zero]
    rw [intWord_ok h1, refWord_ok w2 ref h2]
    simp only
    rw [Abaqus.mapRes_all2 (floatWord io) _ _ (Abaqus.all2_imp (floatWord_ok io) _ _ h3)]
    simp only
    unfold stOf ptsOf clsOf
    simp only [List.filterMap_cons, List.filterMap_nil, List.append_nil, List.map_append, List.filterMap_append, List.map_singleton]
    cases ref <;> rfl
  | cell name type order id ref nodes =>
    obtain ⟨w1, w2, ws, rfl, h1, h2, h3, h4⟩ := h
    obtain ⟨hf, hg1, hg2⟩ := names_found _ h3
    unfold entry
    simp only [List.head?_cons]
    rw [if_neg (by rintro (h | h) <;> first | exact hg1 h | exact hg2 h), String.ofList_toList, if_pos hf]
    unfold addCell fieldAt
    simp only [List.getElem?_cons_succ, List.getElem?_cons_zero, List.drop_succ_cons, List.drop_zero]
    rw [intWord_ok h1, refWord_ok w2 ref h2]
    simp only
    rw [bars_eq, mapRes_int _ _ h4]
    simp only
    rw [cellOf_ok name type nodes order h3]
    simp only
    have := push_ok b pts cls (type, id, ref, order.map fun i => nodes.getD i 0) (hb _ (by simp [clsOf]))
    simp only at this
    rw [this]
    unfold ptsOf clsOf
    simp
  | other =>
    obtain ⟨k, ws, rfl, hk1, hk2, h3⟩ := h
    unfold entry
    simp only [List.head?_cons]
    rw [if_neg (by rintro (h | h) <;> first | exact hk1 h | exact hk2 h), if_neg]
    · unfold ptsOf clsOf
      simp
    · intro hs
      obtain ⟨t, ht⟩ := Option.isSome_iff_exists.1 hs
      have := names_only _ (find_mem ht)
      exact h3 _ this (by simp)

theorem prefix_snoc {p l : List Char} {c : Char} (hc : c ∉ p) (h : p <+: l ++ [c]) : p <+: l := by
  rcases Nat.lt_or_ge l.length p.length with hl | hl
  · have hlen := h.length_le
    simp only [List.length_append, List.length_singleton] at hlen
    have := h.eq_of_length (by simp only [List.length_append, List.length_singleton]; omega)
    rw [this] at hc
    simp at hc
  · exact List.prefix_of_prefix_length_le h (List.prefix_append l [c]) hl

theorem endLine (l : List Char) : "ENDDATA".toList.isPrefixOf (l ++ ['\n']) = true ↔ "ENDDATA".toList <+: l := by
  rw [List.isPrefixOf_iff_prefix]
  exact ⟨prefix_snoc (by decide), fun h => h.trans (List.prefix_append _ _)⟩

theorem loop_ok (io : NasIO F) (b : Bool) (es : List (NasEntry × NasItem F)) (fin : NasLine) (tail : List (List Char)) (fuel : Nat) (pts : Pts F) (cls : Cls)
    (hf : es.length < fuel) (hl : ∀ e ∈ es, ∀ l ∈ e.1.allLines, l.Ok) (hc : ∀ e ∈ es, nasChain e.1.first e.1.more)
    (hs : ∀ e ∈ es, ¬ "ENDDATA".toList <+: e.1.first.text)
    (hfr : ∀ p ∈ es.zip (es.map (·.1.first) ++ [fin]).tail, ¬ NasPlus p.2 ∧ ¬ NasAuto p.1.1.last p.2)
    (hfin : fin.Ok ∧ "ENDDATA".toList <+: fin.text) (hi : ∀ e ∈ es, e.2.Is io e.1.fields) (hb : ∀ c ∈ clsOf es, b = c.2.2.1.isSome) :
    loop io fuel (stOf b pts cls) ((es.flatMap (·.1.lines)).map (· ++ ['\n']) ++ (fin.text ++ ['\n']) :: tail) =
      .ok (stOf b (pts ++ ptsOf es) (cls ++ clsOf es)) := by
  induction es generalizing fuel pts cls with
  | nil =>
    obtain ⟨fuel, rfl⟩ : ∃ k, fuel = k + 1 := ⟨fuel - 1, by simp only [List.length_nil] at hf; omega⟩
    simp only [List.flatMap_nil, List.map_nil, List.nil_append]
    rw [loop, if_pos ((endLine _).2 hfin.2)]
    simp [ptsOf, clsOf]
  | cons e es ih =>
    obtain ⟨fuel, rfl⟩ : ∃ k, fuel = k + 1 := ⟨fuel - 1, by simp only [List.length_cons] at hf; omega⟩
    have he := hl e (by simp)
    have hfirst := he e.1.first (by simp [NasEntry.allLines])
    -- the line that follows the entry
    obtain ⟨t, tl, ht, htok, hp, hau⟩ : ∃ t tl, (es.flatMap (·.1.lines)).map (· ++ ['\n']) ++ (fin.text ++ ['\n']) :: tail = (t.text ++ ['\n']) :: tl ∧
        t.Ok ∧ ¬ NasPlus t ∧ ¬ NasAuto e.1.last t := by
      cases es with
      | nil =>
        have := hfr (e, fin) (by simp)
        exact ⟨fin, tail, rfl, hfin.1, this.1, this.2⟩
      | cons e' es =>
        have := hfr (e, e'.1.first) (by simp)
        exact ⟨e'.1.first, _, rfl, hl e' (by simp) _ (by simp [NasEntry.allLines]), this.1, this.2⟩
    have hlines : ((e :: es).flatMap (·.1.lines)).map (· ++ ['\n']) ++ (fin.text ++ ['\n']) :: tail =
        (e.1.first.text ++ ['\n']) :: ((e.1.first.after ++ e.1.more.flatMap (·.lines)).map (· ++ ['\n']) ++ (t.text ++ ['\n']) :: tl) := by
      rw [← ht]
      simp only [List.flatMap_cons, NasEntry.lines, NasEntry.allLines, NasLine.lines, List.map_append, List.cons_append, List.map_cons, List.append_assoc]
    have hg := gather_lines e.1.more e.1.first true [] hfirst (fun l h => he l (by simp [NasEntry.allLines, h])) (hc e (by simp)) t htok hp hau tl
    have hbits : clsOf (e :: es) = clsOf [e] ++ clsOf es := by
      unfold clsOf; rw [← List.filterMap_append]; rfl
    have hpits : ptsOf (e :: es) = ptsOf [e] ++ ptsOf es := by
      unfold ptsOf; rw [← List.filterMap_append]; rfl
    rw [hlines, loop, if_neg (by rw [endLine]; exact hs e (by simp)), chunkLine_words _ _ hfirst.words]
    simp only
    have hmk : e.1.first.words.map some = mk true e.1.first := rfl
    rw [hmk, hg]
    simp only [List.nil_append]
    have hfe := fields_entry e.1 he (hc e (by simp))
    unfold NasEntry.allLines at hfe
    rw [hfe, entry_ok io b pts cls e.1.fields e.1 e.2 (hi e (by simp)) (fun c hcc => hb c (by rw [hbits]; exact List.mem_append_left _ hcc))]
    simp only
    rw [← ht, ih fuel _ _ (by simp only [List.length_cons] at hf; omega) (fun x hx => hl x (by simp [hx])) (fun x hx => hc x (by simp [hx]))
      (fun x hx => hs x (by simp [hx])) ?_ (fun x hx => hi x (by simp [hx])) (fun c hcc => hb c (by rw [hbits]; exact List.mem_append_right _ hcc)),
      hbits, hpits, List.append_assoc, List.append_assoc]
    intro p hpz
    apply hfr p
    cases es with
    | nil => simp at hpz
    | cons e' es => simp only [List.map_cons, List.cons_append, List.tail_cons, List.zip_cons_cons] at hpz ⊢; exact List.mem_cons_of_mem _ hpz

/-! ## The mesh -/

theorem names_lengths : ∀ a ∈ nastranNames, ∀ b ∈ nastranNames, a.2.1 = b.2.1 → a.2.2.2.length = b.2.2.2.length := by decide +kernel

theorem names_dim : ∀ a ∈ nastranNames, (Dict.get? topologicalDimension a.2.1).isSome = true ∧ a.2.2.2 ≠ [] := by decide +kernel

/-- Rows of a type have the length of the type. -/
def RowOk (c : String × Int × Option Int × List Int) : Prop := ∃ e ∈ nastranNames, e.2.1 = c.1 ∧ e.2.2.2.length = c.2.2.2.length

theorem clsOf_rowOk (io : NasIO F) (es : List (NasEntry × NasItem F)) (hi : ∀ e ∈ es, e.2.Is io e.1.fields) : ∀ c ∈ clsOf es, RowOk c := by
  intro c hc
  obtain ⟨e, he, hec⟩ := List.mem_filterMap.1 hc
  have := hi e he
  obtain ⟨e, item⟩ := e
  cases item with
  | cell name type order id ref nodes =>
    obtain ⟨w1, w2, ws, _, _, _, h3, _⟩ := this
    simp only [Option.some.injEq] at hec
    subst hec
    exact ⟨_, h3, rfl, by simp⟩
  | grid _ _ _ => cases hec
  | other => cases hec

theorem all_head {α : Type} (l : List (List α)) (d : Nat) (h : ∀ r ∈ l, r.length = d) :
    (l.all fun r => decide (r.length = ((l.head?.map (·.length)).getD 0))) = true := by
  rw [List.all_eq_true]
  intro r hr
  cases l with
  | nil => simp at hr
  | cons a l =>
    apply decide_eq_true
    show r.length = a.length
    rw [h r hr, h a (by simp)]

theorem block_rows (cls : Cls) (hr : ∀ c ∈ cls, RowOk c) (b : String × List (List Int)) (hb : b ∈ groupRuns (cls.map fun c => (c.1, c.2.2.2))) :
    (∃ d, d ≠ 0 ∧ ∀ r ∈ b.2, r.length = d) ∧ (Dict.get? topologicalDimension b.1).isSome = true := by
  have hne := groupRuns_ne_nil _ b hb
  obtain ⟨r0, rs, hrs⟩ := List.exists_cons_of_ne_nil hne
  have key : ∀ r ∈ b.2, ∃ e ∈ nastranNames, e.2.1 = b.1 ∧ e.2.2.2.length = r.length := by
    intro r hrb
    have := mem_groupRuns _ b hb r hrb
    obtain ⟨c, hc, hce⟩ := List.mem_map.1 this
    simp only [Prod.mk.injEq] at hce
    obtain ⟨e, he, h1, h2⟩ := hr c hc
    exact ⟨e, he, by rw [h1, hce.1], by rw [h2, hce.2]⟩
  obtain ⟨e, he, h1, h2⟩ := key r0 (by rw [hrs]; simp)
  refine ⟨⟨e.2.2.2.length, ?_, ?_⟩, ?_⟩
  · intro h0
    exact (names_dim e he).2 (List.length_eq_zero_iff.1 h0)
  · intro r hrb
    obtain ⟨e', he', h1', h2'⟩ := key r hrb
    rw [← h2', names_lengths e' he' e he (h1'.trans h1.symm)]
  · rw [← h1]; exact (names_dim e he).1

theorem finish_ok (pts : Pts F) (cls : Cls) (b : Bool) (hr : ∀ c ∈ cls, RowOk c) (hd : ∃ d, ∀ p ∈ pts, p.2.2.length = d)
    (hn : (pts.map (·.1)).Nodup) (hk : ∀ c ∈ cls, ∀ k ∈ c.2.2.2, k ∈ pts.map (·.1)) :
    finish (stOf b pts cls) = .ok ⟨pts.map (·.2.2), pts.map (·.1), groupRuns (cls.map fun c => (c.1, c.2.2.2.map (pts.map (·.1)).idxOf)),
      (groupRuns cls).map (·.2.map (·.1)), if pts.filterMap (·.2.1) = [] then none else some (pts.filterMap (·.2.1)),
      if (stOf b pts cls).crefs = [] then none else some (stOf b pts cls).crefs⟩ := by
  obtain ⟨d, hd⟩ := hd
  unfold finish
  rw [if_pos (by
    show ((pts.map (·.2.2)).all _) = true
    exact all_head _ d (by
      intro r hr
      obtain ⟨p, hp, rfl⟩ := List.mem_map.1 hr
      exact hd p hp))]
  have hcells : (stOf b pts cls).cells = groupRuns (cls.map fun c => (c.1, c.2.2.2)) := rfl
  have hpids : (stOf b pts cls).pids = pts.map (·.1) := rfl
  rw [hcells, hpids]
  have hcheck : mapRes checkBlock (groupRuns (cls.map fun c => (c.1, c.2.2.2))) = .ok (groupRuns (cls.map fun c => (c.1, c.2.2.2))) := by
    have := mapRes_ok_of_forall (f := checkBlock) (g := id) (l := groupRuns (cls.map fun c => (c.1, c.2.2.2))) (by
      intro bl hbl
      obtain ⟨⟨d, _, hd⟩, hdim⟩ := block_rows cls hr bl hbl
      unfold checkBlock
      rw [if_pos (all_head bl.2 d hd)]
      obtain ⟨t, ht⟩ := Option.isSome_iff_exists.1 hdim
      rw [ht]; rfl)
    rwa [List.map_id] at this
  have hres : mapRes (resolve (pts.map (·.1))) (groupRuns (cls.map fun c => (c.1, c.2.2.2))) =
      .ok (groupRuns (cls.map fun c => (c.1, c.2.2.2.map (pts.map (·.1)).idxOf))) := by
    rw [mapRes_ok_of_forall (f := resolve (pts.map (·.1))) (g := fun bl => (bl.1, bl.2.map (·.map (pts.map (·.1)).idxOf)))]
    · rw [← groupRuns_map, List.map_map]; rfl
    · intro bl hbl
      obtain ⟨⟨d, hd0, hd⟩, _⟩ := block_rows cls hr bl hbl
      unfold resolve
      obtain ⟨r0, rs, hrs⟩ := List.exists_cons_of_ne_nil (groupRuns_ne_nil _ bl hbl)
      rw [if_neg (by
        intro h
        have h0 := hd r0 (by rw [hrs]; simp)
        rw [hrs, List.flatten_cons, List.append_eq_nil_iff] at h
        rw [h.1] at h0
        exact hd0 h0.symm)]
      rw [mapRes_ok_of_forall (f := mapRes (idGet (pts.map (·.1)))) (g := fun r => r.map (pts.map (·.1)).idxOf)]
      intro r hrb
      apply Abaqus.mapRes_idGet _ hn
      intro k hkr
      obtain ⟨c, hc, hce⟩ := List.mem_map.1 (mem_groupRuns _ bl hbl r hrb)
      simp only [Prod.mk.injEq] at hce
      exact hk c hc k (by rw [hce.2]; exact hkr)
  rw [hcheck]
  simp only
  rw [hres]
  rfl

theorem finish_missing (pts : Pts F) (cls : Cls) (b : Bool) (hr : ∀ c ∈ cls, RowOk c) (hd : ∃ d, ∀ p ∈ pts, p.2.2.length = d)
    (hk : ∃ c ∈ cls, ∃ k ∈ c.2.2.2, k ∉ pts.map (·.1)) : finish (stOf b pts cls) = .error .keyError := by
  obtain ⟨d, hd⟩ := hd
  unfold finish
  rw [if_pos (by
    show ((pts.map (·.2.2)).all _) = true
    exact all_head _ d (by
      intro r hr
      obtain ⟨p, hp, rfl⟩ := List.mem_map.1 hr
      exact hd p hp))]
  have hcells : (stOf b pts cls).cells = groupRuns (cls.map fun c => (c.1, c.2.2.2)) := rfl
  have hpids : (stOf b pts cls).pids = pts.map (·.1) := rfl
  rw [hcells, hpids]
  have hcheck : mapRes checkBlock (groupRuns (cls.map fun c => (c.1, c.2.2.2))) = .ok (groupRuns (cls.map fun c => (c.1, c.2.2.2))) := by
    have := mapRes_ok_of_forall (f := checkBlock) (g := id) (l := groupRuns (cls.map fun c => (c.1, c.2.2.2))) (by
      intro bl hbl
      obtain ⟨⟨d, _, hd⟩, hdim⟩ := block_rows cls hr bl hbl
      unfold checkBlock
      rw [if_pos (all_head bl.2 d hd)]
      obtain ⟨t, ht⟩ := Option.isSome_iff_exists.1 hdim
      rw [ht]; rfl)
    rwa [List.map_id] at this
  have hrow : ∀ r : List Int, (∃ m, mapRes (idGet (pts.map (·.1))) r = .ok m) ∨ mapRes (idGet (pts.map (·.1))) r = .error .keyError :=
    fun r => Abaqus.mapRes_ok_or _ _ r fun k _ => Abaqus.idGet_or _ k
  have hne : ∀ bl ∈ groupRuns (cls.map fun c => (c.1, c.2.2.2)), bl.2.flatten ≠ [] := by
    intro bl hbl h
    obtain ⟨⟨d, hd0, hd⟩, _⟩ := block_rows cls hr bl hbl
    obtain ⟨r0, rs, hrs⟩ := List.exists_cons_of_ne_nil (groupRuns_ne_nil _ bl hbl)
    have h0 := hd r0 (by rw [hrs]; simp)
    rw [hrs, List.flatten_cons, List.append_eq_nil_iff] at h
    rw [h.1] at h0
    exact hd0 h0.symm
  have hres : mapRes (resolve (pts.map (·.1))) (groupRuns (cls.map fun c => (c.1, c.2.2.2))) = .error .keyError := by
    obtain ⟨c, hc, k, hkc, hkn⟩ := hk
    have hmem : (c.1, c.2.2.2) ∈ rowsOf (groupRuns (cls.map fun c => (c.1, c.2.2.2))) := by
      rw [rowsOf_groupRuns]; exact List.mem_map.2 ⟨c, hc, rfl⟩
    obtain ⟨bl, hbl, hm⟩ := List.mem_flatMap.1 hmem
    obtain ⟨r, hrb, hre⟩ := List.mem_map.1 hm
    simp only [Prod.mk.injEq] at hre
    have hbad : mapRes (idGet (pts.map (·.1))) r = .error .keyError :=
      Abaqus.mapRes_error_of _ _ r (fun k _ => Abaqus.idGet_or _ k) ⟨k, by rw [hre.2]; exact hkc, idGet_not_mem _ k hkn⟩
    refine Abaqus.mapRes_error_of _ _ _ (fun bl hbl => ?_) ⟨bl, hbl, ?_⟩
    · unfold resolve
      rw [if_neg (hne bl hbl)]
      rcases Abaqus.mapRes_ok_or _ _ bl.2 (fun r _ => hrow r) with ⟨m, hm⟩ | hm
      · rw [hm]; exact .inl ⟨_, rfl⟩
      · rw [hm]; exact .inr rfl
    · unfold resolve
      rw [if_neg (hne bl hbl), Abaqus.mapRes_error_of _ _ bl.2 (fun r _ => hrow r) ⟨r, hrb, hbad⟩]
  rw [hcheck]
  simp only
  rw [hres]

theorem afterBegin_ok (before : List (List Char)) (start : List Char) (tail : List (List Char)) (hb : ∀ l ∈ before, ¬ "BEGIN BULK".toList <+: strip l)
    (hs : "BEGIN BULK".toList <+: strip start) :
    afterBegin (before.map (· ++ ['\n']) ++ (start ++ ['\n']) :: tail) = .ok tail := by
  induction before with
  | nil =>
    simp only [List.map_nil, List.nil_append]
    rw [afterBegin, strip_nl', if_pos (List.isPrefixOf_iff_prefix.2 hs)]
  | cons b before ih =>
    simp only [List.map_cons, List.cons_append]
    rw [afterBegin, strip_nl', if_neg (by rw [List.isPrefixOf_iff_prefix]; exact hb b (by simp)), ih fun l hl => hb l (by simp [hl])]

theorem dropWhile_skip (blank : List (List Char)) (h : ∀ l ∈ blank, NasBlank l) (t : NasLine) (ht : t.Ok) (tail : List (List Char)) :
    (blank.map (· ++ ['\n']) ++ (t.text ++ ['\n']) :: tail).dropWhile isSkip = (t.text ++ ['\n']) :: tail := by
  induction blank with
  | nil =>
    simp only [List.map_nil, List.nil_append]
    rw [List.dropWhile_cons_of_neg (by rw [isSkip_iff _ ht.newline]; exact ht.text)]
  | cons b blank ih =>
    have hb := h b (by simp)
    simp only [List.map_cons, List.cons_append]
    rw [List.dropWhile_cons_of_pos ((isSkip_iff b hb.1).2 hb), ih fun l hl => h l (by simp [hl])]

theorem entry_lines_length (es : List (NasEntry × NasItem F)) : es.length ≤ (es.flatMap (·.1.lines)).length := by
  induction es with
  | nil => simp
  | cons e es ih =>
    simp only [List.length_cons, List.flatMap_cons, List.length_append]
    have : 1 ≤ e.1.lines.length := by
      unfold NasEntry.lines NasEntry.allLines NasLine.lines
      simp only [List.flatMap_cons, List.length_append, List.length_cons]
      omega
    omega

/-- The text before the entries are evaluated. -/
theorem read_lines (io : NasIO F) (before : List (List Char)) (start : List Char) (blank : List (List Char)) (es : List (NasEntry × NasItem F)) (fin : NasLine)
    (rest : List Char) (hb : ∀ l ∈ before, '\n' ∉ l ∧ ¬ "BEGIN BULK".toList <+: strip l) (hs : '\n' ∉ start ∧ "BEGIN BULK".toList <+: strip start)
    (hbl : ∀ l ∈ blank, NasBlank l) (hl : ∀ e ∈ es, ∀ l ∈ e.1.allLines, l.Ok) (hfin : fin.Ok) :
    ∃ fuel, es.length < fuel ∧ read io (linesText (before ++ start :: blank ++ es.flatMap (·.1.lines) ++ [fin.text]) ++ rest) =
      match loop io fuel St.init ((es.flatMap (·.1.lines)).map (· ++ ['\n']) ++ (fin.text ++ ['\n']) :: fileLines rest) with
      | .error e => .error e
      | .ok st => finish st := by
  have hnl : ∀ a ∈ before ++ start :: blank ++ es.flatMap (·.1.lines) ++ [fin.text], '\n' ∉ a := by
    intro a ha
    simp only [List.mem_append, List.mem_cons, List.mem_flatMap, List.mem_singleton] at ha
    rcases ha with ((ha | rfl | ha) | ⟨e, he, ha⟩) | ha
    · exact (hb a ha).1
    · exact hs.1
    · exact (hbl a ha).1
    · unfold NasEntry.lines at ha
      obtain ⟨l, hle, hal⟩ := List.mem_flatMap.1 ha
      have hok := hl e he l hle
      unfold NasLine.lines at hal
      rcases List.mem_cons.1 hal with rfl | hal
      · exact hok.newline
      · exact (hok.after a hal).1
    · rcases ha with rfl | ha
      · exact hfin.newline
      · cases ha
  obtain ⟨t, tl, ht, htok⟩ : ∃ (t : NasLine) (tl : List (List Char)), (es.flatMap (·.1.lines)).map (· ++ ['\n']) ++ (fin.text ++ ['\n']) :: fileLines rest = (t.text ++ ['\n']) :: tl ∧ t.Ok := by
    cases es with
    | nil => exact ⟨fin, _, rfl, hfin⟩
    | cons e es => exact ⟨e.1.first, _, rfl, hl e (by simp) _ (by simp [NasEntry.allLines])⟩
  refine ⟨tl.length + 1, ?_, ?_⟩
  · have h1 := congrArg List.length ht
    have h2 := entry_lines_length es
    simp only [List.length_append, List.length_map, List.length_cons] at h1
    omega
  · unfold read
    rw [fileLines_linesText _ hnl rest]
    have e : (before ++ start :: blank ++ es.flatMap (·.1.lines) ++ [fin.text]).map (· ++ ['\n']) ++ fileLines rest =
        before.map (· ++ ['\n']) ++ (start ++ ['\n']) :: (blank.map (· ++ ['\n']) ++ ((es.flatMap (·.1.lines)).map (· ++ ['\n']) ++ (fin.text ++ ['\n']) :: fileLines rest)) := by
      simp only [List.map_append, List.map_cons, List.map_nil, List.append_assoc, List.cons_append, List.nil_append]
    rw [e, afterBegin_ok before start _ (fun l hl => (hb l hl).2) hs.2]
    simp only
    rw [ht, dropWhile_skip blank hbl t htok]
    rfl

/-- The file up to its last entry. -/
theorem read_state (io : NasIO F) (f : NasFile F) (h : f.Shape io) : ∃ b, (∀ c ∈ f.cells, b = c.2.2.1.isSome) ∧ read io f.text = finish (stOf b f.points f.cells) := by
  obtain ⟨b, hb⟩ : ∃ b, ∀ c ∈ f.cells, b = c.2.2.1.isSome := by
    rcases h.refs with hr | hr
    · refine ⟨true, fun c hc => ?_⟩
      have := hr c hc
      cases hx : c.2.2.1 with
      | none => exact absurd hx this
      | some _ => rfl
    · exact ⟨false, fun c hc => by rw [hr c hc]; rfl⟩
  obtain ⟨fuel, hf, hread⟩ := read_lines io f.before f.start f.blank f.entries f.fin f.rest h.before h.start h.blank h.lines h.fin.1
  have hinit : (St.init : St F) = stOf b [] [] := by unfold St.init stOf; cases b <;> rfl
  refine ⟨b, hb, ?_⟩
  unfold NasFile.text
  rw [hread, hinit, loop_ok io b f.entries f.fin _ fuel [] [] hf h.lines h.chains h.starts h.fresh h.fin h.items hb]
  simp only [List.nil_append]
  rfl

theorem read_missing (io : NasIO F) (f : NasFile F) (h : f.Shape io) (hk : ∃ c ∈ f.cells, ∃ k ∈ c.2.2.2, k ∉ f.points.map (·.1)) :
    read io f.text = .error .keyError := by
  obtain ⟨b, _, hr⟩ := read_state io f h
  rw [hr, finish_missing f.points f.cells b (clsOf_rowOk io f.entries h.items) h.dim hk]

theorem read_ok (io : NasIO F) (f : NasFile F) (h : f.Ok io) : read io f.text = .ok f.mesh := by
  obtain ⟨b, hb, hread⟩ := read_state io f h.toShape
  rw [hread, finish_ok f.points f.cells b (clsOf_rowOk io f.entries h.items) h.dim h.distinct h.nodes]
  unfold NasFile.mesh
  have hid : (groupRuns (f.cells.map fun c => (c.1, c.2.1))) = (groupRuns f.cells).map fun b => (b.1, b.2.map (·.1)) := groupRuns_map (fun v : Int × Option Int × List Int => v.1) f.cells
  have hrf : (groupRuns (f.cells.map fun c => (c.1, c.2.2.1.getD 0))) = (groupRuns f.cells).map fun b => (b.1, b.2.map (·.2.1.getD 0)) :=
    groupRuns_map (fun v : Int × Option Int × List Int => v.2.1.getD 0) f.cells
  rw [hid, hrf, List.map_map, List.map_map]
  congr 2
  unfold stOf
  simp only
  cases hcs : f.cells with
  | nil => cases b <;> rfl
  | cons c cs =>
    have hb' : ∀ x ∈ c :: cs, b = x.2.2.1.isSome := by rw [← hcs]; exact hb
    cases b with
    | false =>
      have : (c :: cs).filterMap (·.2.2.1) = [] := by
        rw [List.filterMap_eq_nil_iff]
        intro x hx
        have := hb' x hx
        cases hxx : x.2.2.1 with
        | none => rfl
        | some _ => rw [hxx] at this; cases this
      rw [this]; rfl
    | true =>
      obtain ⟨r, hr⟩ : ∃ r, c.2.2.1 = some r := Option.isSome_iff_exists.1 (hb' c (by simp)).symm
      have hne : (c :: cs).filterMap (·.2.2.1) ≠ [] := by
        rw [List.filterMap_cons, hr]; simp
      have hg : groupRuns (c :: cs) ≠ [] := by
        intro h0
        have := rowsOf_groupRuns (c :: cs)
        rw [h0] at this
        cases this
      rw [if_neg hne, if_pos rfl, if_neg (by rw [List.map_eq_nil_iff]; exact hg)]
      rfl

end Meshio.Nastran
