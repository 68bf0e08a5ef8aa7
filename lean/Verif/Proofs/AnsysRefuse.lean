/-
ANSYS msh files that are refused.
-/
import Verif.Proofs.AnsysWrite

namespace Meshio
namespace Ansys
open Types Tables
open Spec.Ansys

variable {F : Type}

theorem loop_then_error (io : AnsFloat F) (secs : List (List Char × Item F)) (h : ∀ s ∈ secs, Section io s.1 s.2) (st : St F)
    (hf : Fits st (secs.map (·.2))) (rest : List Char) (hne : rest ≠ []) (e : Err)
    (he : readSection io (readLine rest).1 (readLine rest).2 ((secs.map (·.2)).foldl apply st) = .error e) (n : Nat)
    (hn : (secs.flatMap (·.1) ++ rest).length < n) :
    loop io n (secs.flatMap (·.1) ++ rest) st = .error e := by
  induction secs generalizing st n with
  | nil =>
    obtain ⟨m, rfl⟩ : ∃ m, n = m + 1 := ⟨n - 1, by simp at hn; omega⟩
    simp only [List.flatMap_nil, List.nil_append, List.map_nil, List.foldl_nil] at he ⊢
    rw [loop, if_neg hne, he]
  | cons x secs ih =>
    obtain ⟨m, rfl⟩ : ∃ m, n = m + 1 := ⟨n - 1, by omega⟩
    have hx := h x (by simp)
    have hx' := section_ne_nil hx
    have hpos := List.length_pos_iff.2 hx'
    rw [List.flatMap_cons, List.append_assoc, List.length_append] at hn
    rw [List.flatMap_cons, List.append_assoc, loop, if_neg (by simp [hx']), section_ok io hx st hf.1]
    simp only
    exact ih (fun s hs => h s (by simp [hs])) _ hf.2 he m (by omega)

/-- The sections before, as far as they matter for the next points. -/
theorem state_of (secs : List (Item F)) (ht : TotalsFirst secs) (hc : Consecutive (pointItems secs)) :
    Fits (⟨[], [], none, none⟩ : St F) secs ∧
      (secs.foldl apply ⟨[], [], none, none⟩).last = (pointItems secs).getLast?.map fun p => p.1 + (p.2.2.length : Int) - 1 := by
  obtain ⟨A, B, rfl, hA, hB⟩ := ht
  have hpA := foldl_apply_nopoints A hA ⟨[], [], none, none⟩ rfl rfl
  have hpts : pointItems (A ++ B) = pointItems B := by
    have : pointItems (A ++ B) = pointItems A ++ pointItems B := List.filterMap_append
    rw [this, hpA.2.2, List.nil_append]
  rw [hpts] at hc ⊢
  have hpB := foldl_apply_nototal B hB (A.foldl apply ⟨[], [], none, none⟩) ⟨by
    intro p _
    left
    rw [hpA.1], hc⟩
  refine ⟨(fits_append _ _ _).2 ⟨hpA.2.1, hpB.2.2.2⟩, ?_⟩
  rw [List.foldl_append]
  have hl : (A.foldl apply (⟨[], [], none, none⟩ : St F)).last = none := by rw [hpA.1]
  clear hpB hc hpts
  have key : ∀ (l : List (Item F)) (st : St F), (∀ x ∈ l, x ≠ Item.totalPoints) →
      (l.foldl apply st).last = ((pointItems l).getLast?.map fun p => p.1 + (p.2.2.length : Int) - 1).or st.last := by
    intro l
    induction l with
    | nil => intro st _; rfl
    | cons x l ih =>
      intro st h
      have h' := fun y hy => h y (List.mem_cons_of_mem x hy)
      rw [List.foldl_cons, ih _ h']
      cases x with
      | nothing => rfl
      | totalPoints => exact absurd rfl (h .totalPoints (by simp))
      | cells b => rfl
      | points a d r =>
        have hp : pointItems (Item.points a d r :: l) = (a, d, r) :: pointItems l := rfl
        rw [hp]
        cases hq : pointItems l with
        | nil => rfl
        | cons q m =>
          rw [List.getLast?_cons_cons]
          have hne : (q :: m).getLast? ≠ none := by simp
          cases hg : (q :: m).getLast? with
          | none => exact absurd hg hne
          | some z => rfl
  rw [key B _ hB, hl]
  cases (pointItems B).getLast? <;> rfl

theorem read_gap (io : AnsFloat F) (secs : List (List Char × Item F)) (h : ∀ s ∈ secs, Section io s.1 s.2)
    (ht : TotalsFirst (secs.map (·.2))) (hc : Consecutive (pointItems (secs.map (·.2)))) (p : Int × Nat × List (List F))
    (hp : (pointItems (secs.map (·.2))).getLast? = some p) (enc : Enc) (first last kind dim : Int) (head : List Char)
    (hh : Head pointsKey enc first last kind dim head) (hgap : first ≠ p.1 + p.2.2.length) (rest : List Char) :
    read io (secs.flatMap (·.1) ++ (head ++ rest)) = .error .readError := by
  obtain ⟨hf, hl⟩ := state_of (secs.map (·.2)) ht hc
  obtain ⟨line, s, hnl, hsplit, hbal, hstrip, hidx, ⟨zone, hsec⟩, hopen⟩ := head_facts isKey_points hh false
  unfold read
  rw [loop_then_error io secs h _ hf (head ++ rest) (by rw [hsplit]; simp) .readError ?_ _ (Nat.lt_succ_self _)]
  rw [hsplit, readLine_nl hnl]
  simp only
  rw [readSection_points io _ hstrip hidx (indexed_tag _ _), readPoints, if_neg (by rw [hbal]; decide)]
  rw [show sectionHead ['1', '0'] (line ++ ['\n']) false = _ from hsec]
  simp only
  rw [if_pos]
  rw [hl, hp]
  simp only [Option.map_some, Option.isSome_some, true_and, ne_eq, Option.some.injEq]
  omega

theorem pointRows_bad (io : AnsFloat F) (dim : Nat) {e : Enc} {text : List Char} {rows : List (List F)} (h : PointRows io dim e text rows)
    (he : e = .text) {blanks : List (List Char)} (hb : ∀ b ∈ blanks, Space b) {line : List Char} (hl : '\n' ∉ line) (hne : splitWs line ≠ [])
    (hd : (splitWs line).length ≠ dim) (n : Nat) (hn : rows.length < n) (s : List Char) :
    pointRows io dim n (text ++ (linesText blanks ++ (line ++ '\n' :: s))) = .error .readError := by
  induction h generalizing n with
  | nil =>
    obtain ⟨m, rfl⟩ : ∃ m, n = m + 1 := ⟨n - 1, by simp at hn; omega⟩
    rw [List.nil_append, pointRows, nextLine_blanks' hb hl hne]
    simp only
    rw [splitWs_nl, if_pos hd]
  | cons blanks' line' row text rows hb' hl' hr hd' hp _ ih =>
    obtain ⟨m, rfl⟩ : ∃ m, n = m + 1 := ⟨n - 1, by simp at hn; omega⟩
    have hlen : (splitWs line').length = dim := by
      have := congrArg List.length hp
      simpa [hr] using this
    have hne' : splitWs line' ≠ [] := by
      intro h0
      rw [h0] at hlen
      simp at hlen
      omega
    have e1 : ∀ t, linesText blanks' ++ (line' ++ '\n' :: text) ++ t = linesText blanks' ++ (line' ++ '\n' :: (text ++ t)) := by simp
    rw [e1, pointRows, nextLine_blanks' hb' hl' hne']
    simp only
    rw [splitWs_nl, if_neg (by rw [hlen]; simp), parseRow_ok hp]
    simp only
    rw [ih he m (by simp at hn; omega)]
  | bin e rows hne _ => exact absurd he hne

theorem nodeRows_bad (k extra : Nat) {e : Enc} {text : List Char} {rows : List (List Int)} (h : NodeRows k extra e text rows)
    (he : e = .text) {line : List Char} (hl : '\n' ∉ line) (hd : (splitWs line).length ≠ k + extra) (n : Nat) (hn : rows.length < n) (s : List Char) :
    nodeRows k extra n (text ++ (line ++ '\n' :: s)) = .error .readError := by
  induction h generalizing n with
  | nil =>
    obtain ⟨m, rfl⟩ : ∃ m, n = m + 1 := ⟨n - 1, by simp at hn; omega⟩
    rw [List.nil_append, nodeRows, readLine_nl hl]
    simp only
    rw [splitWs_nl, if_pos hd]
  | cons line' row text rows hl' hr hlen hp _ ih =>
    obtain ⟨m, rfl⟩ : ∃ m, n = m + 1 := ⟨n - 1, by simp at hn; omega⟩
    have e1 : ∀ t, line' ++ '\n' :: text ++ t = line' ++ '\n' :: (text ++ t) := by simp
    rw [e1, nodeRows, readLine_nl hl']
    simp only
    rw [splitWs_nl, if_neg (by rw [hlen]; simp), parseRow_ok hp]
    simp only
    rw [ih he m (by simp at hn; omega)]
  | bin e rows hne _ => exact absurd he hne

/-- A line of coordinates with a wrong number of words. -/
theorem read_bad_point (io : AnsFloat F) (secs : List (List Char × Item F)) (h : ∀ s ∈ secs, Section io s.1 s.2)
    (ht : TotalsFirst (secs.map (·.2))) (hc : Consecutive (pointItems (secs.map (·.2))))
    (first last kind : Int) (dim : Nat) (head : List Char) (hh : Head pointsKey .text first last kind dim head)
    (data : List Char) (rows : List (List F)) (hr : PointRows io dim .text data rows)
    (hlen : rows.length < last - first + 1)
    (line : List Char) (hl : '\n' ∉ line) (hne : splitWs line ≠ []) (hd : (splitWs line).length ≠ dim) (rest : List Char) :
    read io (secs.flatMap (·.1) ++ (head ++ (data ++ (line ++ '\n' :: rest)))) = .error .readError := by
  obtain ⟨hf, -⟩ := state_of (secs.map (·.2)) ht hc
  obtain ⟨hline, s, hnl, hsplit, hbal, hstrip, hidx, ⟨zone, hsec⟩, hopen⟩ := head_facts isKey_points hh false
  unfold read
  rw [loop_then_error io secs h _ hf (head ++ _) (by rw [hsplit]; simp) .readError ?_ _ (Nat.lt_succ_self _)]
  rw [hsplit, readLine_nl hnl]
  simp only
  rw [readSection_points io _ hstrip hidx (indexed_tag _ _), readPoints, if_neg (by rw [hbal]; decide)]
  rw [show sectionHead ['1', '0'] (hline ++ ['\n']) false = _ from hsec]
  simp only
  by_cases hg : ((secs.map (·.2)).foldl apply (⟨[], [], none, none⟩ : St F)).last.isSome = true ∧
      ((secs.map (·.2)).foldl apply (⟨[], [], none, none⟩ : St F)).last ≠ some (first - 1)
  · rw [if_pos hg]
  rw [if_neg hg]
  have ho : (if opened (hline ++ ['\n']) = true then Except.ok (s ++ (data ++ (line ++ '\n' :: rest))) else skipTo '(' (s ++ (data ++ (line ++ '\n' :: rest)))) =
      (.ok (data ++ (line ++ '\n' :: rest)) : Res (List Char)) := by
    rcases hopen with ⟨h, rfl⟩ | ⟨h, w, rfl, hw⟩
    · rw [if_pos h]; rfl
    · rw [if_neg (by rw [h]; decide), List.append_assoc, List.singleton_append, skipTo_ws hw]
  rw [ho]
  simp only
  have hb := pointRows_bad io dim hr rfl (blanks := []) (by simp) hl hne hd (last - first + 1).toNat (by omega) rest
  rw [if_neg (by omega), if_pos (show Enc.text.tag = [] by decide)]
  rw [show ((dim : Int)).toNat = dim by omega, show data ++ (line ++ '\n' :: rest) = data ++ (linesText [] ++ (line ++ '\n' :: rest)) from rfl, hb]

/-- A line of nodes with a wrong number of words. -/
theorem read_bad_cell (io : AnsFloat F) (secs : List (List Char × Item F)) (h : ∀ s ∈ secs, Section io s.1 s.2)
    (ht : TotalsFirst (secs.map (·.2))) (hc : Consecutive (pointItems (secs.map (·.2))))
    (first last kind elem : Int) (t : String) (k : Nat) (hkind : kind ≠ 0) (hct : cellType elem = some (t, k))
    (head : List Char) (hh : Head cellsKey .text first last kind elem head)
    (data : List Char) (rows : List (List Int)) (hr : NodeRows k 0 .text data rows)
    (hlen : rows.length < last - first + 1)
    (line : List Char) (hl : '\n' ∉ line) (hd : (splitWs line).length ≠ k) (rest : List Char) :
    read io (secs.flatMap (·.1) ++ (head ++ (data ++ (line ++ '\n' :: rest)))) = .error .readError := by
  obtain ⟨hf, -⟩ := state_of (secs.map (·.2)) ht hc
  obtain ⟨hline, s, hnl, hsplit, hbal, hstrip, hidx, ⟨zone, hsec⟩, hopen⟩ := head_facts isKey_cells hh true
  unfold read
  rw [loop_then_error io secs h _ hf (head ++ _) (by rw [hsplit]; simp) .readError ?_ _ (Nat.lt_succ_self _)]
  rw [hsplit, readLine_nl hnl]
  simp only
  rw [readSection_cells io _ hstrip hidx (indexed_tag _ _), readCells, if_neg (by rw [hbal]; decide)]
  rw [show sectionHead ['1', '2'] (hline ++ ['\n']) true = _ from hsec]
  simp only
  obtain ⟨t1, t2, t3⟩ := cellTypes_eq hct
  rw [if_neg hkind, if_neg t2, if_neg t1, t3]
  simp only [Option.map_some]
  have ho : (if opened (hline ++ ['\n']) = true then Except.ok (true, s ++ (data ++ (line ++ '\n' :: rest))) else openCells (s ++ (data ++ (line ++ '\n' :: rest)))) =
      (.ok (true, data ++ (line ++ '\n' :: rest)) : Res (Bool × List Char)) := by
    rcases hopen with ⟨h, rfl⟩ | ⟨h, w, rfl, hw⟩
    · rw [if_pos h]; rfl
    · rw [if_neg (by rw [h]; decide), List.append_assoc, List.singleton_append, openCells_ws hw]
  rw [ho]
  simp only
  unfold cellRows
  rw [if_neg (by omega), if_pos (show Enc.text.tag = [] by decide)]
  rw [nodeRows_bad k 0 hr rfl hl (by simpa using hd) _ (by omega) rest]

end Ansys
end Meshio
