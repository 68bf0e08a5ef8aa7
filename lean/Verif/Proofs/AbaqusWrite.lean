/-
Writing Abaqus files.
-/
import Verif.Proofs.AbaqusSets
namespace Meshio.Abaqus
open Meshio Types Tables Spec

variable {F : Type}

theorem eights_cons {α : Type} (l : List α) (h : l ≠ []) : eights l = l.take 8 :: eights (l.drop 8) := by
  have hl : 0 < l.length := List.length_pos_iff.mpr h
  unfold eights
  have e : (l.length + 7) / 8 = ((l.drop 8).length + 7) / 8 + 1 := by rw [List.length_drop]; omega
  rw [e, List.range_succ_eq_map, List.map_cons, List.map_map]
  congr 1
  apply List.map_congr_left
  intro i _
  simp only [Function.comp]
  rw [List.drop_drop]
  congr 2
  omega

theorem eights_nil {α : Type} : eights ([] : List α) = [] := by simp [eights]

theorem rows8_eights {α : Type} [DecidableEq α] (fuel : Nat) (l : List α) (h : l.length ≤ fuel) : rows8 fuel l = eights l := by
  induction fuel generalizing l with
  | zero =>
    have : l = [] := List.eq_nil_of_length_eq_zero (by omega)
    subst this; rw [eights_nil]; rfl
  | succ fuel ih =>
    unfold rows8
    by_cases hl : l = []
    · subst hl; rw [eights_nil]; rfl
    · rw [if_neg hl, eights_cons l hl, ih]
      rw [List.length_drop]
      omega

theorem eights_map {α β : Type} (f : α → β) (l : List α) : eights (l.map f) = (eights l).map (·.map f) := by
  unfold eights
  rw [List.length_map, List.map_map]
  apply List.map_congr_left
  intro i _
  simp [List.map_take, List.map_drop]

theorem flatten_eights {α : Type} (n : Nat) (l : List α) (h : l.length ≤ n) : (eights l).flatten = l := by
  induction n generalizing l with
  | zero =>
    have : l = [] := List.eq_nil_of_length_eq_zero (by omega)
    subst this; rw [eights_nil]; rfl
  | succ n ih =>
    by_cases hl : l = []
    · subst hl; rw [eights_nil]; rfl
    · rw [eights_cons l hl, List.flatten_cons, ih _ (by rw [List.length_drop]; have := List.length_pos_iff.mpr hl; omega),
        List.take_append_drop]

theorem eights_ne_nil {α : Type} (n : Nat) (l : List α) (h : l.length ≤ n) : ∀ r ∈ eights l, r ≠ [] := by
  induction n generalizing l with
  | zero =>
    have : l = [] := List.eq_nil_of_length_eq_zero (by omega)
    subst this; intro r hr; rw [eights_nil] at hr; cases hr
  | succ n ih =>
    by_cases hl : l = []
    · subst hl; intro r hr; rw [eights_nil] at hr; cases hr
    · rw [eights_cons l hl]
      have := List.length_pos_iff.mpr hl
      intro r hr
      rcases List.mem_cons.1 hr with rfl | hr
      · intro e
        have := congrArg List.length e
        rw [List.length_take] at this
        simp only [List.length_nil] at this
        omega
      · exact ih _ (by rw [List.length_drop]; omega) r hr

theorem joinRows_snoc (pre : List (List Char)) (r : List Char) : joinRows (pre ++ [r]) = linesText (pre.map (· ++ [','])) ++ r ++ ['\n'] := by
  induction pre with
  | nil => rfl
  | cons p pre ih =>
    have : joinRows (p :: (pre ++ [r])) = p ++ ",\n".toList ++ joinRows (pre ++ [r]) := by
      cases pre <;> rfl
    rw [List.cons_append, this, ih, List.map_cons, linesText_cons]
    simp

theorem setText_eq (word name : String) (members : List Int) : setText word name members = linesText (abaqusSet word name members) := by
  unfold setText abaqusSet
  rw [rows8_eights _ _ (by simp), eights_map, linesText_cons]
  have hh : ("*" ++ word ++ ", " ++ word ++ "=" ++ name).toList = '*' :: (word.toList ++ ", ".toList ++ word.toList ++ "=".toList ++ name.toList) := by
    simp only [String.toList_append]
    rfl
  rw [hh]
  have ht : joinRows ((eights members).map (fun r => joinWith ',' (r.map fmtInt))) =
      linesText (match (eights members).reverse with
        | [] => [[]]
        | r :: rs => (rs.reverse.map fun q => joinWith ',' (q.map fmtInt) ++ [',']) ++ [joinWith ',' (r.map fmtInt)]) := by
    cases hr : (eights members).reverse with
    | nil =>
      have : eights members = [] := by simpa using hr
      rw [this]; rfl
    | cons r rs =>
      have : eights members = rs.reverse ++ [r] := by
        have := congrArg List.reverse hr
        simpa using this
      rw [this, List.map_append, List.map_cons, List.map_nil, joinRows_snoc, linesText_append, List.map_map]
      simp [linesText, Function.comp_def]
  rw [List.map_map]
  have hc : ((joinWith ',') ∘ fun (x : List Int) => x.map fmtInt) = fun r => joinWith ',' (r.map fmtInt) := rfl
  rw [hc, ht]
  simp only [List.cons_append, List.append_assoc]
  rfl

theorem cellsBefore_cons (b : String × List (List Int)) (bs : List (String × List (List Int))) (k : Nat) :
    cellsBefore (b :: bs) (k + 1) = b.2.length + cellsBefore bs k := by
  unfold cellsBefore
  rw [List.take_succ_cons, List.map_cons, List.sum_cons]

theorem cellsBefore_zero (cells : List (String × List (List Int))) : cellsBefore cells 0 = 0 := rfl

theorem blockText_eq (name : String) (eid : Nat) (rows : List (List Int)) :
    "*ELEMENT, TYPE=".toList ++ name.toList ++ "\n".toList ++
      (rows.zipIdx eid).flatMap (fun r => fmtNat (r.2 + 1) ++ ",".toList ++ joinWith ',' (r.1.map fun i => fmtInt (i + 1)) ++ "\n".toList) =
    linesText (abaqusBlock name eid rows) := by
  unfold abaqusBlock
  rw [linesText_cons, String.toList_append]
  have : ∀ (j : Nat), (rows.zipIdx (eid + j)).flatMap (fun r => fmtNat (r.2 + 1) ++ ",".toList ++ joinWith ',' (r.1.map fun i => fmtInt (i + 1)) ++ "\n".toList) =
      linesText ((rows.zipIdx j).map fun r => fmtNat (eid + r.2 + 1) ++ ',' :: joinWith ',' (r.1.map fun i => fmtInt (i + 1))) := by
    induction rows with
    | nil => intro j; rfl
    | cons r rows ih =>
      intro j
      rw [List.zipIdx_cons, List.zipIdx_cons, List.flatMap_cons, List.map_cons, linesText_cons, Nat.add_assoc, ih]
      simp
  have h0 := this 0
  rw [Nat.add_zero] at h0
  rw [h0]
  simp

theorem blocksText_eq (translate : Bool) (cells : List (String × List (List Int))) (names : List String)
    (h : All2 (fun b n => (if translate then find (invDict abaqusToMeshio) b.1 else some b.1) = some n) cells names) (eid : Nat) :
    blocksText translate eid cells =
      .ok (linesText ((cells.zip names).zipIdx.flatMap fun b => abaqusBlock b.1.2 (eid + cellsBefore cells b.2) b.1.1.2)) := by
  induction cells generalizing names eid with
  | nil => cases names <;> rfl
  | cons b bs ih =>
    cases names with
    | nil => exact h.elim
    | cons n ns =>
      unfold blocksText
      have h1 : (if translate then find (invDict abaqusToMeshio) b.1 else some b.1) = some n := h.1
      rw [h1]
      simp only
      rw [ih ns h.2]
      simp only
      rw [blockText_eq, ← linesText_append]
      congr 2
      rw [List.zip_cons_cons, List.zipIdx_cons, List.flatMap_cons]
      congr 1
      rw [Nat.zero_add, List.zipIdx_succ, List.flatMap_map]
      apply flatMap_congr'
      intro q _
      simp only [cellsBefore_cons]
      rw [Nat.add_assoc]

theorem elsetsText_eq (sets : Dict (List (List Int))) (cells : List (String × List (List Int))) (ic offset : Nat)
    (h : ∀ s ∈ sets, ic + cells.length ≤ s.2.length) :
    elsetsText sets ic offset cells = .ok (linesText ((List.range cells.length).flatMap fun k => sets.flatMap fun s =>
      if s.2.getD (ic + k) [] = [] then [] else
        abaqusSet "ELSET" s.1 ((s.2.getD (ic + k) []).map fun i => i + 1 + (((offset + cellsBefore cells k : Nat)) : Int)))) := by
  induction cells generalizing ic offset with
  | nil => rfl
  | cons b bs ih =>
    unfold elsetsText
    have e1 : mapRes (elsetText ic offset) sets =
        .ok (sets.map fun s => linesText (if s.2.getD ic [] = [] then [] else abaqusSet "ELSET" s.1 ((s.2.getD ic []).map fun i => i + 1 + (offset : Int)))) := by
      apply mapRes_ok_of_forall
      intro s hs
      have hl := h s hs
      rw [List.length_cons] at hl
      have hi : ic < s.2.length := by omega
      have e2 : s.2.getD ic [] = s.2[ic] := by
        rw [List.getD_eq_getElem?_getD, List.getElem?_eq_getElem hi]; rfl
      unfold elsetText
      rw [List.getElem?_eq_getElem hi, e2]
      simp only
      congr 1
      by_cases hv : s.2[ic] = []
      · rw [if_pos hv, hv]; rfl
      · rw [if_neg hv, if_pos (List.length_pos_iff.mpr hv), setText_eq]
    rw [e1]
    simp only
    rw [ih (ic + 1) (offset + b.2.length) (fun s hs => by have := h s hs; rw [List.length_cons] at this; omega)]
    simp only
    rw [List.length_cons, List.range_succ_eq_map, List.flatMap_cons, linesText_append, List.flatMap_map]
    congr 2
    · rw [cellsBefore_zero, Nat.add_zero, Nat.add_zero]
      unfold linesText
      rw [List.flatMap_assoc, List.flatMap_def]
    · congr 1
      apply flatMap_congr'
      intro k _
      simp only [Nat.succ_eq_add_one, cellsBefore_cons]
      have a1 : ic + (k + 1) = ic + 1 + k := by omega
      have a2 : offset + (b.2.length + cellsBefore bs k) = offset + b.2.length + cellsBefore bs k := by omega
      rw [a1, a2]

theorem write_eq (io : FloatIO F) (version : List Char) (translate : Bool) (points : List (List F)) (cells : List (String × List (List Int)))
    (cellSets : Dict (List (List Int))) (pointSets : Dict (List Int)) (names : List String)
    (h : All2 (fun b n => (if translate then find (invDict abaqusToMeshio) b.1 else some b.1) = some n) cells names)
    (hs : ∀ s ∈ cellSets, cells.length ≤ s.2.length) :
    write io version translate points cells cellSets pointSets =
      .ok (linesText (abaqusLines io version names points cells cellSets pointSets)) := by
  unfold write
  rw [blocksText_eq translate cells names h 0]
  simp only
  rw [elsetsText_eq cellSets cells 0 0 (by simpa using hs)]
  simp only
  unfold abaqusLines
  congr 1
  have e1 : points.zipIdx.flatMap (pointText io) = linesText (points.zipIdx.map fun p => fmtNat (p.2 + 1) ++ p.1.flatMap fun x => ", ".toList ++ io.fmt x) := by
    unfold linesText
    rw [List.flatMap_map]
    apply flatMap_congr'
    intro p _
    unfold pointText
    rfl
  have e2 : pointSets.flatMap (fun kv => setText "NSET" kv.1 (kv.2.map (· + 1))) =
      linesText (pointSets.flatMap fun s => abaqusSet "NSET" s.1 (s.2.map fun i => i + 1)) := by
    unfold linesText
    rw [List.flatMap_assoc]
    apply flatMap_congr'
    intro s _
    rw [setText_eq]; rfl
  have e3 : ∀ v : List Char, "*HEADING\nAbaqus DataFile Version 6.14\nwritten by meshio v".toList ++ v ++ "\n*NODE\n".toList =
      linesText ["*HEADING".toList, "Abaqus DataFile Version 6.14".toList, "written by meshio v".toList ++ v, "*NODE".toList] := by
    intro v
    have a1 : "*HEADING\nAbaqus DataFile Version 6.14\nwritten by meshio v".toList =
        "*HEADING".toList ++ '\n' :: ("Abaqus DataFile Version 6.14".toList ++ '\n' :: "written by meshio v".toList) := by decide
    have a2 : "\n*NODE\n".toList = '\n' :: ("*NODE".toList ++ '\n' :: []) := by decide
    rw [a1, a2]
    generalize "*HEADING".toList = x1
    generalize "Abaqus DataFile Version 6.14".toList = x2
    generalize "written by meshio v".toList = x3
    generalize "*NODE".toList = x4
    simp [linesText]
  rw [e3, e1, e2]
  simp only [Nat.zero_add, linesText_append]

end Meshio.Abaqus
