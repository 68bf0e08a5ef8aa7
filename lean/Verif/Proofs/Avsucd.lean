/-
Lemmas about AVS-UCD files.
-/
import Verif.Spec.Avsucd
import Verif.Proofs.Netgen
import Verif.Proofs.Runs
import Verif.Proofs.Xdmf
import Verif.Props.Types
namespace Meshio.Avsucd
open Types Tables Spec
open Netgen (nl)

variable {F : Type}

theorem mem_zipWith_exists {A B C : Type} {f : A → B → C} {as : List A} {bs : List B} {c : C} (h : c ∈ List.zipWith f as bs) :
    ∃ a b, (a, b) ∈ as.zip bs ∧ f a b = c := by
  have : List.zipWith f as bs = (as.zip bs).map fun p => f p.1 p.2 := by
    rw [List.zip, List.map_zipWith]
  rw [this] at h
  obtain ⟨⟨a, b⟩, hm, rfl⟩ := List.mem_map.1 h
  exact ⟨a, b, hm, rfl⟩

theorem takeRows_skip (n : Nat) (cm ls : List (List Char)) (h : ∀ l ∈ cm, splitWs (l.takeWhile (· ≠ '#')) = []) :
    Netgen.takeRows (n + 1) (cm.map nl ++ ls) = Netgen.takeRows (n + 1) ls := by
  induction cm with
  | nil => rfl
  | cons c cm ih =>
    have hc : Netgen.dataLine (nl c) = [] := by
      have h0 := h c (by simp)
      rw [splitWs_eq_nil] at h0
      unfold Netgen.dataLine
      rw [splitWs_eq_nil]
      intro d hd
      unfold nl at hd
      by_cases hh : '#' ∈ c
      · have : (c ++ ['\n']).takeWhile (· ≠ '#') = c.takeWhile (· ≠ '#') := by
          clear h0 hd h
          induction c with
          | nil => simp at hh
          | cons x c ihc =>
            rw [List.cons_append, List.takeWhile_cons, List.takeWhile_cons]
            by_cases hx : x = '#'
            · simp [hx]
            · rw [if_pos (by simpa using hx), if_pos (by simpa using hx), ihc]
              rcases List.mem_cons.1 hh with e | e
              · exact absurd e.symm hx
              · exact e
        rw [this] at hd
        exact h0 d hd
      · rw [Netgen.takeWhile_noHash _ hh] at h0
        have := (List.takeWhile_sublist (l := c ++ ['\n']) (· ≠ '#')).subset hd
        rcases List.mem_append.1 this with e | e
        · exact h0 d e
        · rw [List.mem_singleton] at e
          subst e
          decide
    rw [List.map_cons, List.cons_append, Netgen.takeRows, if_pos hc]
    exact ih fun l hl => h l (by simp [hl])

theorem num_fmt {A : Type} (parse : List Char → Option F) (fmt : A → List Char) (rnd : A → F)
    (hp : ∀ x, parse (fmt x) = some (rnd x)) (r : List A) : mapRes (Netgen.num parse) (r.map fmt) = .ok (r.map rnd) := by
  induction r with
  | nil => rfl
  | cons x r ih =>
    rw [List.map_cons, mapRes, Netgen.num, hp]
    simp only
    rw [ih]
    rfl

theorem num_ints (r : List Int) : mapRes (Netgen.num parseInt) (r.map fmtInt) = .ok r := by
  have := num_fmt parseInt fmtInt id (fun x => parseInt_fmtInt x) r
  simpa using this

theorem readHeader_ok (cm : List (List Char)) (h : ∀ l ∈ cm, splitWs (l.takeWhile (· ≠ '#')) = []) (a b c d : Nat)
    (rest : List (List Char)) :
    readHeader (cm.map nl ++ nl (joinWith ' ' [fmtNat a, fmtNat b, fmtNat c, fmtNat d, ['0']]) :: rest) =
      .ok (((a : Int), (b : Int), (c : Int), (d : Int)), rest) := by
  have ht := Netgen.takeRows_lines [[fmtNat a, fmtNat b, fmtNat c, fmtNat d, ['0']]] (by simp) (by
    intro r hr t ht
    rw [List.mem_singleton] at hr
    subst hr
    have hk : ∀ n : Nat, IsTok (fmtNat n) ∧ '#' ∉ fmtNat n := fun n =>
      ⟨isTok_fmtNat n, not_mem_fmtInt (by decide) (by decide) (n : Int)⟩
    simp only [List.mem_cons, List.not_mem_nil, or_false] at ht
    rcases ht with rfl | rfl | rfl | rfl | rfl
    · exact hk _
    · exact hk _
    · exact hk _
    · exact hk _
    · exact hk 0) rest
  simp only [List.length_cons, List.length_nil, List.map_cons, List.map_nil, List.cons_append, List.nil_append,
    Nat.zero_add] at ht
  unfold readHeader
  rw [takeRows_skip 0 cm _ h, ht]
  simp only
  have := num_ints [(a : Int), (b : Int), (c : Int), (d : Int), 0]
  simp only [List.map_cons, List.map_nil, fmtInt_ofNat] at this
  have h0 : fmtInt 0 = ['0'] := by decide
  rw [h0] at this
  rw [this]

theorem readNodes_ok (io : AvsFloat F) (ids : List Int) (pts : List (List F)) (hl : ids.length = pts.length)
    (w : Nat) (hw : ∀ p ∈ pts, p.length = w) (h1 : pts.length ≠ 1) (rest : List (List Char)) :
    readNodes io.parse (pts.length : Int)
      ((List.zipWith (fun i p => joinWith ' ' (fmtInt i :: p.map io.fmt)) ids pts).map nl ++ rest) = .ok ((ids, pts), rest) := by
  unfold readNodes
  by_cases h0 : pts = []
  · subst h0
    have : ids = [] := List.eq_nil_of_length_eq_zero hl
    subst this
    simp
  · have hpos : 0 < pts.length := List.length_pos_iff.2 h0
    rw [if_pos (by omega)]
    have e : (List.zipWith (fun i p => joinWith ' ' (fmtInt i :: p.map io.fmt)) ids pts) =
        (List.zipWith (fun i p => fmtInt i :: p.map io.fmt) ids pts).map (joinWith ' ') := by
      rw [List.map_zipWith]
    have hlen : (List.zipWith (fun i p => fmtInt i :: p.map io.fmt) ids pts).length = pts.length := by
      rw [List.length_zipWith, hl, Nat.min_self]
    have ht := Netgen.takeRows_lines (List.zipWith (fun i p => fmtInt i :: p.map io.fmt) ids pts) (by
        intro r hr
        obtain ⟨x, y, -, rfl⟩ := mem_zipWith_exists hr
        simp) (by
        intro r hr t ht
        obtain ⟨x, y, -, rfl⟩ := mem_zipWith_exists hr
        rcases List.mem_cons.1 ht with rfl | ht
        · exact ⟨isTok_fmtInt _, not_mem_fmtInt (by decide) (by decide) _⟩
        · obtain ⟨z, -, rfl⟩ := List.mem_map.1 ht
          exact ⟨io.tok z, io.noHash z⟩) rest
    rw [hlen] at ht
    rw [e, Int.toNat_natCast, ht]
    simp only
    have hm : mapRes (readNode io.parse) (List.zipWith (fun i p => fmtInt i :: p.map io.fmt) ids pts) = .ok (ids.zip pts) := by
      clear ht e hlen h0 h1 hpos hw
      induction ids generalizing pts with
      | nil => cases pts with | nil => rfl | cons p pts => simp at hl
      | cons i ids ih =>
        cases pts with
        | nil => simp at hl
        | cons p pts =>
          rw [List.zipWith_cons_cons, mapRes, ih pts (by simpa using hl), readNode]
          simp only [parseInt_fmtInt]
          rw [num_fmt io.parse io.fmt id io.parse_fmt, List.map_id]
          rfl
    rw [hm]
    simp only
    have hz : (ids.zip pts).length = pts.length := by rw [List.length_zip, hl, Nat.min_self]
    have hf : (ids.zip pts).map (·.1) = ids := by rw [List.map_fst_zip]; omega
    have hs : (ids.zip pts).map (·.2) = pts := by rw [List.map_snd_zip]; omega
    rw [if_neg (by omega), if_pos, hf, hs]
    rw [List.all_eq_true]
    intro r hr
    have hrm : r.2 ∈ pts := by rw [← hs]; exact List.mem_map_of_mem hr
    have hhead : ((ids.zip pts).headD (0, [])).2.length = w := by
      cases ids with
      | nil => simp at hl; exact absurd hl.symm (by simpa using h0)
      | cons i ids =>
        cases pts with
        | nil => exact absurd rfl h0
        | cons p pts => exact hw p (by simp)
    simp only [decide_eq_true_eq]
    rw [hhead]
    exact hw _ hrm

/-! ### Cells -/

theorem avs_tables : ∀ e ∈ avsTypes, find meshioToAvsucd e.1 = some e.2.1 ∧ find avsucdToMeshio e.2.1 = some e.1 ∧
    numNodesPerCell.get? e.1 = some e.2.2 ∧ e.2.1.toList ≠ [] ∧ (e.2.1.toList.all fun c => !isWs c) = true := by decide +kernel

theorem lookup_mem' {κ β : Type} [BEq κ] [LawfulBEq κ] {l : List (κ × β)} {k : κ} {v : β} (h : l.lookup k = some v) : (k, v) ∈ l := by
  induction l with
  | nil => simp at h
  | cons p l ih =>
    rw [List.lookup_cons] at h
    split at h
    · next e =>
      cases h
      have : k = p.1 := by simpa using e
      rw [this]
      exact List.mem_cons_self
    · exact List.mem_cons_of_mem _ (ih h)

/-- What is known about a type. -/
theorem avs_type (t : String) (n : Nat) (h : ((avsTypes.lookup t).map (·.2)) = some n) :
    ∃ name : String, avsName t = name.toList ∧ find meshioToAvsucd t = some name ∧ find avsucdToMeshio name = some t ∧
      numNodesPerCell.get? t = some n ∧ IsTok name.toList ∧ (t, name, n) ∈ avsTypes := by
  cases hl : avsTypes.lookup t with
  | none => rw [hl] at h; cases h
  | some v =>
    rw [hl] at h
    simp only [Option.map_some, Option.some.injEq] at h
    have hm := lookup_mem' hl
    obtain ⟨h1, h2, h3, h4, h5⟩ := avs_tables _ hm
    refine ⟨v.1, by unfold avsName; rw [hl]; rfl, h1, h2, by rw [← h]; exact h3, ⟨h4, ?_⟩, by rw [← h]; exact hm⟩
    intro c hc
    have := List.all_eq_true.1 h5 c hc
    simpa using this

theorem avsOrder_eq {α : Type} (t : String) (r : List α) (h : ((avsTypes.lookup t).map (·.2)) = some r.length) :
    reorderStrict meshioToAvsucdOrder t r = .ok (avsOrder t r) := by
  obtain ⟨name, -, -, -, -, -, hm⟩ := avs_type t _ h
  simp only [avsTypes, List.mem_cons, Prod.mk.injEq, List.not_mem_nil, or_false] at hm
  rcases hm with ⟨rfl, -, hl⟩ | ⟨rfl, -, hl⟩ | ⟨rfl, -, hl⟩ | ⟨rfl, -, hl⟩ | ⟨rfl, -, hl⟩ | ⟨rfl, -, hl⟩ | ⟨rfl, -, hl⟩ | ⟨rfl, -, hl⟩
  · match r, hl with | [a], _ => rfl
  · match r, hl with | [a, b], _ => rfl
  · match r, hl with | [a, b, c], _ => rfl
  · match r, hl with | [a, b, c, d], _ => rfl
  · match r, hl with | [a, b, c, d], _ => rfl
  · match r, hl with | [a, b, c, d, e], _ => rfl
  · match r, hl with | [a, b, c, d, e, f], _ => rfl
  · match r, hl with | [a, b, c, d, e, f, g, h], _ => rfl

theorem avsOrder_map {α β : Type} (f : α → β) (t : String) (r : List α) (h : ((avsTypes.lookup t).map (·.2)) = some r.length) :
    avsOrder t (r.map f) = (avsOrder t r).map f := by
  obtain ⟨name, -, -, -, -, -, hm⟩ := avs_type t _ h
  simp only [avsTypes, List.mem_cons, Prod.mk.injEq, List.not_mem_nil, or_false] at hm
  rcases hm with ⟨rfl, -, hl⟩ | ⟨rfl, -, hl⟩ | ⟨rfl, -, hl⟩ | ⟨rfl, -, hl⟩ | ⟨rfl, -, hl⟩ | ⟨rfl, -, hl⟩ | ⟨rfl, -, hl⟩ | ⟨rfl, -, hl⟩
  · match r, hl with | [a], _ => rfl
  · match r, hl with | [a, b], _ => rfl
  · match r, hl with | [a, b, c], _ => rfl
  · match r, hl with | [a, b, c, d], _ => rfl
  · match r, hl with | [a, b, c, d], _ => rfl
  · match r, hl with | [a, b, c, d, e], _ => rfl
  · match r, hl with | [a, b, c, d, e, f], _ => rfl
  · match r, hl with | [a, b, c, d, e, f, g, h], _ => rfl

theorem avsOrder_facts {α : Type} (t : String) (r : List α) (h : ((avsTypes.lookup t).map (·.2)) = some r.length) :
    (avsOrder t r).length = r.length ∧ reorderStrict avsucdToMeshioOrder t (avsOrder t r) = .ok r := by
  obtain ⟨name, -, hf, -, hn, -, -⟩ := avs_type t _ h
  obtain ⟨s, h1, h2, h3⟩ := Props.C17_avsucd t (by rw [hf]; rfl) r (by
    intro n e
    rw [hn] at e
    cases e
    rfl)
  rw [avsOrder_eq t r h] at h1
  cases h1
  exact ⟨h2, h3⟩

theorem words_tok (ids : List Int) (n : Nat) (c : AvsCell) (h : c.Ok n) : ∀ x ∈ c.words ids, IsTok x := by
  obtain ⟨name, h1, -, -, -, h5, -⟩ := avs_type c.type _ h.1
  intro x hx
  unfold AvsCell.words at hx
  simp only [List.mem_cons] at hx
  rcases hx with rfl | rfl | rfl | hx
  · exact isTok_fmtInt _
  · exact isTok_fmtInt _
  · rw [h1]; exact h5
  · obtain ⟨z, -, rfl⟩ := List.mem_map.1 hx
    exact isTok_fmtInt _

theorem readCell_ok (ids : List Int) (hn : ids.Nodup) (c : AvsCell) (h : c.Ok ids.length) :
    readCell ids (nl (joinWith ' ' (c.words ids))) =
      .ok (c.id, c.type, (avsOrder c.type c.row).map Int.ofNat, c.material) := by
  obtain ⟨name, h1, h2, h3, h4, h5, -⟩ := avs_type c.type _ h.1
  have hs : splitWs (nl (joinWith ' ' (c.words ids))) = c.words ids := splitWs_line _ (words_tok ids _ c h)
  unfold readCell
  rw [hs]
  unfold AvsCell.words
  simp only [Netgen.intAt, List.getElem?_cons_zero, List.getElem?_cons_succ, parseInt_fmtInt, List.drop_succ_cons,
    List.drop_zero, h1, String.ofList_toList, h3, num_ints]
  rw [avsOrder_map _ _ _ h.1, Xdmf.mapRes_map, mapRes_ok_of_forall (g := id)]
  · simp
  · intro p hp
    have hp' : p ∈ c.row := by
      have := avsOrder_eq c.type c.row h.1
      unfold reorderStrict at this
      split at this
      · cases this
      · exact mem_pick this p hp
    have hlt := h.2 p hp'
    have := idGet_getElem ids hn p hlt
    simpa [List.getD_eq_getElem?_getD, List.getElem?_eq_getElem hlt] using this

theorem readCellLines_ok (ids : List Int) (hn : ids.Nodup) (cs : List AvsCell) (h : ∀ c ∈ cs, c.Ok ids.length)
    (rest : List (List Char)) (cids : List Int) (st : List (String × List (List Int × Int))) :
    readCellLines ids cs.length ((cs.map fun c => joinWith ' ' (c.words ids)).map nl ++ rest) cids st =
      .ok ((cids ++ cs.map (·.id), (cs.map fun c => (c.type, (avsOrder c.type c.row).map Int.ofNat, c.material)).foldl
        pushTyped st), rest) := by
  induction cs generalizing cids st with
  | nil => simp [readCellLines]
  | cons c cs ih =>
    rw [List.length_cons, List.map_cons, List.map_cons, List.cons_append, readCellLines]
    simp only [List.headD_cons, List.drop_succ_cons, List.drop_zero]
    rw [readCell_ok ids hn c (h c (by simp))]
    simp only
    rw [ih (fun c' h' => h c' (by simp [h']))]
    simp

theorem finishBlock_ok (b : String × List (List Nat × Int)) (h : ∀ r ∈ b.2, ((avsTypes.lookup b.1).map (·.2)) = some r.1.length) :
    finishBlock (b.1, b.2.map fun r => ((avsOrder b.1 r.1).map Int.ofNat, r.2)) =
      .ok (b.1, b.2.map fun r => r.1.map Int.ofNat) := by
  unfold finishBlock
  rw [if_pos]
  · rw [Xdmf.mapRes_map, mapRes_ok_of_forall (g := fun r : List Nat × Int => r.1.map Int.ofNat)]
    intro r hr
    simp only
    rw [← avsOrder_map _ _ _ (h r hr)]
    exact (avsOrder_facts b.1 (r.1.map Int.ofNat) (by rw [List.length_map]; exact h r hr)).2
  · rw [List.all_eq_true]
    intro r hr
    obtain ⟨r0, hr0, rfl⟩ := List.mem_map.1 hr
    cases hb : b.2 with
    | nil => rw [hb] at hr0; simp at hr0
    | cons r1 l =>
      have e0 := h r0 hr0
      have e1 := h r1 (by rw [hb]; simp)
      rw [e0] at e1
      simp only [List.map_cons, List.headD_cons, List.length_map, decide_eq_true_eq]
      rw [(avsOrder_facts b.1 r0.1 e0).1, (avsOrder_facts b.1 r1.1 (by rw [e0]; exact e1)).1]
      exact Option.some.inj e1

/-! ### Data -/

theorem strip_head_of_eq {s : List Char} (h : strip s = s) : ∀ c, s.head? = some c → isWs c = false := by
  intro c hc
  cases s with
  | nil => simp at hc
  | cons x s =>
    simp only [List.head?_cons, Option.some.injEq] at hc
    subst hc
    cases hx : isWs x with
    | false => rfl
    | true =>
      exfalso
      have h1 : strip (x :: s) = rstrip (s.dropWhile isWs) := by
        unfold strip
        rw [List.dropWhile_cons, hx]
        rfl
      obtain ⟨w, hw, -⟩ := rstrip_append (s.dropWhile isWs)
      have h2 := congrArg List.length hw
      rw [← h1, h, List.length_append, List.length_cons] at h2
      have h3 := (List.dropWhile_sublist (l := s) isWs).length_le
      omega

theorem strip_sep (name s : List Char) (h : strip name = name) : ∃ r, strip (name ++ ',' :: s) = name ++ ',' :: r := by
  have hd : (name ++ ',' :: s).dropWhile isWs = name ++ ',' :: s := by
    refine dropWhile_head_not ?_
    intro c hc
    cases hn : name with
    | nil =>
      rw [hn] at hc
      simp only [List.nil_append, List.head?_cons, Option.some.injEq] at hc
      subst hc
      decide
    | cons x l =>
      rw [hn] at hc
      exact strip_head_of_eq h c (by rw [hn]; exact hc)
  unfold strip
  rw [hd]
  change ∃ r, rstrip (name ++ ',' :: s) = _
  obtain ⟨w, hw, hws⟩ := rstrip_append (name ++ ',' :: s)
  generalize rstrip (name ++ ',' :: s) = r at hw
  rcases List.append_eq_append_iff.1 hw with ⟨a, h1, h2⟩ | ⟨a, h1, h2⟩
  · cases a with
    | nil =>
      rw [List.nil_append] at h2
      have := hws ',' (by rw [← h2]; simp)
      exact absurd this (by decide)
    | cons x a =>
      rw [List.cons_append] at h2
      injection h2 with h3 h4
      exact ⟨a, by rw [h1, h3]⟩
  · have := hws ',' (by rw [h2]; simp)
    exact absurd this (by decide)

theorem label_ok (name u : List Char) (h1 : ',' ∉ name) (h2 : strip name = name) :
    label (nl (name ++ ',' :: u)) = underscores name := by
  unfold label nl
  rw [List.append_assoc, List.cons_append]
  obtain ⟨r, hr⟩ := strip_sep name (u ++ ['\n']) h2
  rw [hr, splitOnC_append_sep _ _ _ h1]
  simp [h2]

theorem rowVals_ok (parse : List Char → Option F) (fmt : F → List Char) (rnd : F → F) (hp : ∀ x, parse (fmt x) = some (rnd x))
    (l : List (DataIn F)) (p : Nat) (h : ∀ a ∈ l, (a.rows.getD p []).length = a.width) :
    rowVals parse (l.map (·.width)) ((l.flatMap fun a => a.rows.getD p []).map fmt) =
      .ok (l.map fun a => (a.rows.getD p []).map rnd) := by
  induction l with
  | nil => rfl
  | cons a l ih =>
    have ha := h a (by simp)
    rw [List.map_cons, List.flatMap_cons, List.map_append, rowVals.eq_def]
    simp only
    by_cases h1 : a.width = 1
    · rw [if_pos h1]
      obtain ⟨x, hx⟩ := List.length_eq_one_iff.1 (ha.trans h1)
      simp only [hx, List.map_cons, List.map_nil, List.cons_append, List.nil_append, Netgen.num, hp]
      rw [ih fun b hb => h b (by simp [hb])]
    · rw [if_neg h1]
      have ht : ((a.rows.getD p []).map fmt ++ (l.flatMap fun a => a.rows.getD p []).map fmt).take a.width =
          (a.rows.getD p []).map fmt := by
        rw [List.take_append_of_le_length (by rw [List.length_map, ha]; exact Nat.le_refl _), List.take_of_length_le]
        rw [List.length_map, ha]
        exact Nat.le_refl _
      have hdr : ((a.rows.getD p []).map fmt ++ (l.flatMap fun a => a.rows.getD p []).map fmt).drop a.width =
          (l.flatMap fun a => a.rows.getD p []).map fmt := by
        rw [List.drop_append_of_le_length (by rw [List.length_map, ha]; exact Nat.le_refl _), List.drop_of_length_le]
        · rfl
        rw [List.length_map, ha]
        exact Nat.le_refl _
      rw [ht, hdr, num_fmt parse fmt rnd hp]
      have hl : decide (((a.rows.getD p []).map rnd).length = a.width) = true := by simpa using ha
      simp only [hl]
      rw [ih fun b hb => h b (by simp [hb])]
      rfl

theorem foldl_set_getElem? {α : Type} (v : Nat → α) (order : List Nat) (c : List α) (i : Nat) :
    (order.foldl (fun c p => c.set p (v p)) c)[i]? = if i ∈ order ∧ i < c.length then some (v i) else c[i]? := by
  induction order generalizing c with
  | nil => simp
  | cons p order ih =>
    rw [List.foldl_cons, ih, List.length_set, List.getElem?_set]
    by_cases hi : i ∈ order
    · by_cases hl : i < c.length
      · simp [hi, hl]
      · have : ¬ (i ∈ p :: order ∧ i < c.length) := fun h => hl h.2
        simp only [hl, and_false, if_false]
        split
        · next e =>
          subst e
          simp [hl, List.getElem?_eq_none (Nat.le_of_not_lt hl)]
        · rfl
    · by_cases e : p = i
      · subst e
        by_cases hl : p < c.length
        · simp [hl, hi]
        · simp [hl, hi]
      · have : ¬ i = p := fun h => e h.symm
        simp [hi, e, this]

theorem foldl_set_perm {α : Type} (v : Nat → α) (order : List Nat) (n : Nat) (z : α) (h : order.Perm (List.range n)) :
    order.foldl (fun c p => c.set p (v p)) (List.replicate n z) = (List.range n).map v := by
  apply List.ext_getElem?
  intro i
  rw [foldl_set_getElem?, List.length_replicate, List.getElem?_map]
  simp only [h.mem_iff, List.mem_range, and_self]
  by_cases hi : i < n
  · rw [if_pos hi, List.getElem?_range hi]; rfl
  · rw [if_neg hi, List.getElem?_eq_none (by simpa using hi), List.getElem?_eq_none (by simpa using hi)]; rfl

theorem readRows_ok (parse : List Char → Option F) (fmt : F → List Char) (rnd : F → F) (hp : ∀ x, parse (fmt x) = some (rnd x))
    (tok : ∀ x, IsTok (fmt x)) (ids : List Int) (hn : ids.Nodup) (l : List (DataIn F)) (order : List Nat)
    (ho : ∀ p ∈ order, p < ids.length ∧ ∀ a ∈ l, (a.rows.getD p []).length = a.width)
    (rest : List (List Char)) (f : DataIn F → List (Option (List F))) :
    readRows parse ids (l.map (·.width)) order.length
      ((order.map fun p => joinWith ' ' (fmtInt (ids.getD p 0) :: (l.flatMap fun a => a.rows.getD p []).map fmt)).map nl ++ rest)
      (l.map f) =
    .ok (l.map fun a => order.foldl (fun c p => c.set p (some ((a.rows.getD p []).map rnd))) (f a), rest) := by
  induction order generalizing f with
  | nil => rfl
  | cons p order ih =>
    obtain ⟨hlt, hrow⟩ := ho p (by simp)
    have hs : splitWs (nl (joinWith ' ' (fmtInt (ids.getD p 0) :: (l.flatMap fun a => a.rows.getD p []).map fmt))) =
        fmtInt (ids.getD p 0) :: (l.flatMap fun a => a.rows.getD p []).map fmt := by
      refine splitWs_line _ ?_
      intro x hx
      rcases List.mem_cons.1 hx with rfl | hx
      · exact isTok_fmtInt _
      · obtain ⟨y, -, rfl⟩ := List.mem_map.1 hx
        exact tok y
    rw [List.length_cons, List.map_cons, List.map_cons, List.cons_append, readRows]
    simp only [List.headD_cons, List.drop_succ_cons, List.drop_zero, hs, Netgen.intAt, List.getElem?_cons_zero,
      parseInt_fmtInt]
    have hg : idGet ids (ids.getD p 0) = .ok p := by
      have := idGet_getElem ids hn p hlt
      simpa [List.getD_eq_getElem?_getD, List.getElem?_eq_getElem hlt] using this
    rw [hg]
    simp only
    rw [rowVals_ok parse fmt rnd hp l p hrow]
    simp only
    rw [List.zipWith_map, List.zipWith_self]
    exact ih (fun q hq => ho q (by simp [hq])) _

theorem range_rows {α β : Type} (rows : List (List α)) (g : List α → β) (n : Nat) (h : rows.length = n) :
    ((List.range n).map fun p => g (rows.getD p [])) = rows.map g := by
  subst h
  apply List.ext_getElem?
  intro i
  rw [List.getElem?_map, List.getElem?_map]
  by_cases hi : i < rows.length
  · rw [List.getElem?_range hi]
    simp [List.getD_eq_getElem?_getD, List.getElem?_eq_getElem hi]
  · rw [List.getElem?_eq_none (by simpa using hi), List.getElem?_eq_none (Nat.le_of_not_lt hi)]; rfl

theorem readData_ok (parse : List Char → Option F) (fmt : F → List Char) (rnd : F → F) (hp : ∀ x, parse (fmt x) = some (rnd x))
    (tok : ∀ x, IsTok (fmt x)) (ids : List Int) (hn : ids.Nodup) (d : AvsData F) (h : d.Ok ids.length) (hne : d.arrays ≠ [])
    (rest : List (List Char)) :
    readData parse ids.length ids ((d.lines fmt ids).map nl ++ rest) = .ok (d.out rnd, rest) := by
  unfold AvsData.lines
  rw [if_neg hne]
  unfold readData
  have hs : splitWs (nl (joinWith ' ' (fmtNat d.arrays.length :: d.arrays.map fun a => fmtNat a.width))) =
      fmtNat d.arrays.length :: d.arrays.map fun a => fmtNat a.width := by
    refine splitWs_line _ ?_
    intro x hx
    rcases List.mem_cons.1 hx with rfl | hx
    · exact isTok_fmtNat _
    · obtain ⟨y, -, rfl⟩ := List.mem_map.1 hx
      exact isTok_fmtNat _
  simp only [List.map_cons, List.cons_append, List.headD_cons, List.drop_succ_cons, List.drop_zero, hs]
  have hi : mapRes (Netgen.num parseInt) (d.arrays.map fun a => fmtNat a.width) = .ok (d.arrays.map fun a => (a.width : Int)) := by
    have := num_ints (d.arrays.map fun a => (a.width : Int))
    rw [List.map_map] at this
    exact this
  rw [hi]
  simp only
  have hneg : ((d.arrays.map fun a => (a.width : Int)).any fun x => decide (x < 0)) = false := by
    rw [List.any_eq_false]
    intro x hx
    obtain ⟨a, -, rfl⟩ := List.mem_map.1 hx
    simp
  rw [hneg]
  have hds : (d.arrays.map fun a => (a.width : Int)).map Int.toNat = d.arrays.map (·.width) := by
    rw [List.map_map]; rfl
  simp only [Bool.false_eq_true, if_false, hds, List.length_map]
  rw [List.map_append (f := nl), List.append_assoc]
  have hlen : d.order.length = ids.length := by
    have := h.order.length_eq
    simpa using this
  have hr := readRows_ok parse fmt rnd hp tok ids hn d.arrays d.order (by
    intro p hpm
    have hlt : p < ids.length := List.mem_range.1 (h.order.mem_iff.1 hpm)
    refine ⟨hlt, fun a ha => ?_⟩
    obtain ⟨h1, h2⟩ := h.rows a ha
    have hlt' : p < a.rows.length := by omega
    rw [List.getD_eq_getElem?_getD, List.getElem?_eq_getElem hlt']
    exact h2 _ (List.getElem_mem hlt')) rest (fun _ => List.replicate ids.length none)
  rw [hlen] at hr
  generalize (d.order.map fun p => joinWith ' ' (fmtInt (ids.getD p 0) ::
    (d.arrays.flatMap fun a => a.rows.getD p []).map fmt)).map nl ++ rest = L at hr ⊢
  have hk : ((d.arrays.map fun a => a.name ++ ',' :: d.unit).map nl).length = d.arrays.length := by simp
  have hnames : ((d.arrays.map fun a => a.name ++ ',' :: d.unit).map nl).map label =
      d.arrays.map fun a => underscores a.name := by
    rw [List.map_map, List.map_map]
    refine List.map_congr_left ?_
    intro a ha
    exact label_ok _ _ (h.names a ha).1 (h.names a ha).2.1
  generalize (d.arrays.map fun a => a.name ++ ',' :: d.unit).map nl = N at hk hnames ⊢
  have hz : d.arrays.length - (N ++ L).length = 0 := by
    rw [List.length_append, hk]; omega
  have hc : ((d.arrays.map (·.width)).map fun _ => (List.replicate ids.length none : List (Option (List F)))) =
      d.arrays.map fun _ => List.replicate ids.length none := by
    rw [List.map_map]; rfl
  rw [List.take_left' hk, List.drop_left' hk, hz, List.replicate_zero, List.append_nil, hnames, if_pos h.distinct, hc, hr]
  simp only
  unfold AvsData.out
  rw [List.zip_map', List.zipWith_map, List.zipWith_self]
  congr 2
  refine List.map_congr_left ?_
  intro a ha
  rw [foldl_set_perm _ _ _ _ h.order, range_rows a.rows (fun r => some (r.map rnd)) _ (h.rows a ha).1]

end Meshio.Avsucd
