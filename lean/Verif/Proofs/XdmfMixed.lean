/-
Lemmas for Mixed topologies.
-/
import Verif.Model.Xdmf
import Verif.Spec.Xdmf
import Verif.Proofs.Runs
namespace Meshio
open Spec

theorem getElem?_eq_head_pySlice {α : Type} (l : List α) (s e : Nat) (h : s < e) :
    l[s]? = (pySlice l s e).head? := by
  unfold pySlice
  rw [List.head?_take, if_neg (by omega), List.head?_drop]

theorem segsFrom_lt (ns : List Nat) (i : Nat) (h : ∀ n ∈ ns, 0 < n) : ∀ se ∈ segsFrom i ns, se.1 < se.2 := by
  induction ns generalizing i with
  | nil => simp [segsFrom]
  | cons n ns ih =>
    intro se hse
    rw [segsFrom] at hse
    rcases List.mem_cons.1 hse with rfl | hse
    · have := h n (by simp)
      simp only
      omega
    · exact ih _ (fun m hm => h m (by simp [hm])) se hse

/-- A map over the runs found by `startEnd` is a map over the runs. -/
theorem mapRes_startEnd {α β κ : Type} [DecidableEq κ] (k : α → κ) (l : List α) (hne : l ≠ [])
    (f : Nat × Nat → Res β) (g : List α → Res β)
    (h : ∀ se, l[se.1]? = (pySlice l se.1 se.2).head? → f se = g (pySlice l se.1 se.2)) :
    mapRes f (startEnd (l.map k)) = mapRes g (runsBy k l) := by
  rw [startEnd_eq (by simpa using hne), runsBy_eq_splitLens]
  have e := map_pySlice_segs (runLens (l.map k)) 0 l
  rw [List.drop_zero] at e
  rw [← e]
  have hlt := segsFrom_lt (runLens (l.map k)) 0 (fun n hn => runLens_pos hn)
  generalize segsFrom 0 (runLens (l.map k)) = segs at hlt
  clear e
  induction segs with
  | nil => rfl
  | cons se segs ih =>
    have hh := h se (getElem?_eq_head_pySlice l _ _ (hlt se (by simp)))
    have ih := ih (fun x hx => hlt x (by simp [hx]))
    simp only [mapRes, List.map_cons, hh, ih]

namespace Xdmf
open Types Tables

/-- Code of a type. -/
def codeOf (t : String) : Nat := ((xdmfHeader t).headD 0).toNat

theorem mixed_facts : ∀ e ∈ xdmfMixed, codeOf e.1 = e.2.1 ∧ find xdmfIdxNumNodes e.2.1 = some e.2.2 ∧
    find xdmfIdxToMeshio e.2.1 = some e.1 ∧
    xdmfHeader e.1 = (if e.2.1 = 2 then [2, 2] else [(e.2.1 : Int)]) := by decide +kernel

theorem codeOf_inj : ∀ a ∈ xdmfMixed, ∀ b ∈ xdmfMixed, codeOf a.1 = codeOf b.1 → a.1 = b.1 := by
  decide +kernel

theorem cell_facts {c : String × List Int} (h : XdmfCell c) :
    find xdmfIdxNumNodes (codeOf c.1) = some c.2.length ∧ find xdmfIdxToMeshio (codeOf c.1) = some c.1 ∧
    xdmfHeader c.1 = (if codeOf c.1 = 2 then [2, 2] else [(codeOf c.1 : Int)]) := by
  obtain ⟨x, hx⟩ := h
  obtain ⟨h1, h2, h3, h4⟩ := mixed_facts _ hx
  simp only at h1 h2 h3 h4
  rw [h1]
  exact ⟨h2, h3, h4⟩

theorem scanMixed_skip (row rest : List Int) (r : Nat) :
    scanMixed (row ++ rest) row.length r = scanMixed rest 0 (r + row.length) := by
  induction row generalizing r with
  | nil => rfl
  | cons x row ih =>
    rw [List.cons_append, List.length_cons, scanMixed, ih]
    congr 1
    omega

/-- Cells with the position of their code. -/
def annot : Nat → List (String × List Int) → List ((String × List Int) × Nat)
  | _, [] => []
  | r, c :: cs => (c, r) :: annot (r + (xdmfHeader c.1).length + c.2.length) cs

theorem annot_fst (r : Nat) (cs : List (String × List Int)) : (annot r cs).map (·.1) = cs := by
  induction cs generalizing r with
  | nil => rfl
  | cons c cs ih => rw [annot, List.map_cons, ih]

theorem annot_mem (cs : List (String × List Int)) (pre : List Int) :
    ∀ co ∈ annot pre.length cs, ∃ p q : List Int, pre ++ xdmfStream cs = p ++ (xdmfHeader co.1.1 ++ co.1.2 ++ q) ∧
      p.length = co.2 ∧ co.1 ∈ cs := by
  induction cs generalizing pre with
  | nil => simp [annot]
  | cons c cs ih =>
    intro co hco
    rw [annot] at hco
    rcases List.mem_cons.1 hco with rfl | hco
    · exact ⟨pre, xdmfStream cs, by simp [xdmfStream], rfl, by simp⟩
    · have hl : pre.length + (xdmfHeader c.1).length + c.2.length = (pre ++ (xdmfHeader c.1 ++ c.2)).length := by
        simp; omega
      rw [hl] at hco
      obtain ⟨p, q, h1, h2, h3⟩ := ih _ co hco
      refine ⟨p, q, ?_, h2, by simp [h3]⟩
      rw [← h1]
      simp [xdmfStream]

theorem scanMixed_stream (cs : List (String × List Int)) (h : ∀ c ∈ cs, XdmfCell c) (r : Nat) :
    scanMixed (xdmfStream cs) 0 r = .ok ((annot r cs).map fun co => ((codeOf co.1.1 : Int), co.2)) := by
  induction cs generalizing r with
  | nil => rfl
  | cons c cs ih =>
    obtain ⟨h1, h2, h3⟩ := cell_facts (h c (by simp))
    have ih := ih (fun d hd => h d (by simp [hd]))
    have es : xdmfStream (c :: cs) = xdmfHeader c.1 ++ (c.2 ++ xdmfStream cs) := by
      simp [xdmfStream]
    rw [es, h3, annot]
    by_cases hx : codeOf c.1 = 2
    · rw [if_pos hx]
      rw [hx] at h1
      have hh : (xdmfHeader c.1).length = 2 := by rw [h3, if_pos hx]; rfl
      rw [List.cons_append, List.cons_append, List.nil_append, scanMixed]
      have hsp : cellSpan 2 (List.head? (2 :: (c.2 ++ xdmfStream cs))) = .ok (c.2.length + 1) := by
        simp [cellSpan, h1]
      rw [hsp]
      simp only
      rw [scanMixed, scanMixed_skip, ih]
      simp only [List.map_cons, hx, hh]
      rw [show r + 1 + 1 + c.2.length = r + 2 + c.2.length by omega]
      rfl
    · rw [if_neg hx]
      have hh : (xdmfHeader c.1).length = 1 := by rw [h3, if_neg hx]; rfl
      rw [List.cons_append, List.nil_append, scanMixed]
      have hsp : cellSpan (codeOf c.1 : Int) (List.head? (c.2 ++ xdmfStream cs)) = .ok c.2.length := by
        unfold cellSpan
        rw [if_neg (by omega), Int.toNat_natCast, h1]
        simp only
        rw [if_neg (by omega)]
      rw [hsp]
      simp only
      rw [scanMixed_skip, ih]
      simp only [List.map_cons, hh]

/-- One block from its run. -/
def runBlock (data : List Int) (run : List (Int × Nat)) : Res (String × List (List Int)) :=
  match run.head? with
  | none => .error .indexError
  | some (x, _) =>
    match find xdmfIdxToMeshio x.toNat with
    | none => .error .keyError
    | some t =>
      match find xdmfIdxNumNodes x.toNat with
      | none => .error .keyError
      | some n =>
        match mapRes (fun to : Int × Nat =>
            mapRes (fun j : Nat => npIndex data (((j + (to.2 + if x = 2 then 2 else 1) : Nat)) : Int)) (List.range n))
            run with
        | .error e => .error e
        | .ok rows => .ok (t, rows)

theorem mapRes_map {α β γ : Type} (f : β → Res γ) (g : α → β) (l : List α) :
    mapRes f (l.map g) = mapRes (fun a => f (g a)) l := by
  induction l with
  | nil => rfl
  | cons a l ih => simp only [List.map_cons, mapRes, ih]

theorem runBlock_ok (data : List Int) (run : List ((String × List Int) × Nat))
    (hu : ∀ a ∈ run, ∀ b ∈ run, a.1.1 = b.1.1)
    (h : ∀ co ∈ run, XdmfCell co.1 ∧ ∃ p q : List Int, data = p ++ (xdmfHeader co.1.1 ++ co.1.2 ++ q) ∧ p.length = co.2)
    (c : (String × List Int) × Nat) (hc : run.head? = some c) :
    runBlock data (run.map fun co => ((codeOf co.1.1 : Int), co.2)) = .ok (c.1.1, run.map fun co => co.1.2) := by
  have hmem : c ∈ run := List.mem_of_mem_head? hc
  obtain ⟨h1, h2, h3⟩ := cell_facts (h c hmem).1
  unfold runBlock
  rw [List.head?_map, hc]
  simp only [Option.map_some, Int.toNat_natCast, h1, h2]
  rw [mapRes_map, mapRes_ok_of_forall (g := fun co => co.1.2)]
  intro co hco
  obtain ⟨hx, p, q, hd, hp⟩ := h co hco
  have ht : co.1.1 = c.1.1 := hu co hco c hmem
  obtain ⟨g1, g2, g3⟩ := cell_facts hx
  rw [ht] at g1 g3
  rw [h1] at g1
  have hn : c.1.2.length = co.1.2.length := by simpa using g1
  rw [hn]
  apply mapRes_range
  intro j b hb
  have hj : j < co.1.2.length := by
    rcases Nat.lt_or_ge j co.1.2.length with hj | hj
    · exact hj
    · rw [List.getElem?_eq_none hj] at hb; simp at hb
  have hlen : (xdmfHeader co.1.1).length = if (codeOf c.1.1 : Int) = 2 then 2 else 1 := by
    rw [ht, g3]
    by_cases h2 : codeOf c.1.1 = 2
    · rw [if_pos h2, if_pos (by omega)]; rfl
    · rw [if_neg h2, if_neg (by omega)]; rfl
  rw [← hlen, ← hp, hd]
  have := npIndex_append (p ++ xdmfHeader co.1.1) co.1.2 q j hj
  rw [show j + (p.length + (xdmfHeader co.1.1).length) = (p ++ xdmfHeader co.1.1).length + j by simp; omega]
  rw [List.append_assoc, ← List.append_assoc p]
  rw [this]
  rw [List.getElem?_eq_getElem hj] at hb
  simp only [Option.some.injEq] at hb
  rw [hb]

theorem translateMixed_stream (cs : List (String × List Int)) (hne : cs ≠ []) (h : ∀ c ∈ cs, XdmfCell c) :
    translateMixed (xdmfStream cs) = .ok (groupRuns cs) := by
  unfold translateMixed
  rw [scanMixed_stream cs h 0]
  simp only
  have hane : annot 0 cs ≠ [] := by
    cases cs with
    | nil => exact absurd rfl hne
    | cons c cs => simp [annot]
  rw [mapRes_startEnd (·.1) _ (by simpa using hane) _ (runBlock (xdmfStream cs))]
  · rw [runsBy_map]
    have hm : ∀ co ∈ annot 0 cs, ∃ p q : List Int,
        xdmfStream cs = p ++ (xdmfHeader co.1.1 ++ co.1.2 ++ q) ∧ p.length = co.2 ∧ co.1 ∈ cs := annot_mem cs []
    have hk : runsBy (fun a : (String × List Int) × Nat => ((codeOf a.1.1 : Int))) (annot 0 cs) =
        runsBy (fun a => a.1.1) (annot 0 cs) := by
      apply runsBy_congr_key
      intro a ha b hb
      constructor
      · intro e
        obtain ⟨_, _, _, _, ha⟩ := hm a ha
        obtain ⟨_, _, _, _, hb⟩ := hm b hb
        obtain ⟨x, hx⟩ := h _ ha
        obtain ⟨y, hy⟩ := h _ hb
        exact codeOf_inj _ hx _ hy (Int.ofNat.inj e)
      · intro e
        rw [e]
    rw [hk, mapRes_map]
    have hr : groupRuns cs = (runsBy (fun a => a.1.1) (annot 0 cs)).filterMap
        (fun r => r.head?.map fun c => (c.1.1, r.map fun co => co.1.2)) := by
      have e := annot_fst 0 cs
      conv => lhs; rw [← e]
      unfold groupRuns
      rw [runsBy_map, List.filterMap_map]
      congr 1
      funext r
      cases r with
      | nil => rfl
      | cons a r => simp
    rw [hr]
    have hsub : ∀ r ∈ runsBy (fun a : (String × List Int) × Nat => a.1.1) (annot 0 cs), ∀ co ∈ r, co ∈ annot 0 cs := by
      intro r hr co hco
      rw [← flatten_runsBy (fun a : (String × List Int) × Nat => a.1.1) (annot 0 cs)]
      exact List.mem_flatten.2 ⟨r, hr, hco⟩
    have hnn := runsBy_ne_nil (fun a : (String × List Int) × Nat => a.1.1) (annot 0 cs)
    have huu := runsBy_uniform (fun a : (String × List Int) × Nat => a.1.1) (annot 0 cs)
    generalize runsBy (fun a : (String × List Int) × Nat => a.1.1) (annot 0 cs) = rs at hsub hnn huu
    induction rs with
    | nil => rfl
    | cons r rs ih =>
      have ih := ih (fun x hx => hsub x (by simp [hx])) (fun x hx => hnn x (by simp [hx]))
        (fun x hx => huu x (by simp [hx]))
      cases hc : r.head? with
      | none => exact absurd (List.head?_eq_none_iff.1 hc) (hnn r (by simp))
      | some c =>
        have := runBlock_ok (xdmfStream cs) r (huu r (by simp)) (fun co hco => by
          obtain ⟨p, q, h1, h2, h3⟩ := hm co (hsub r (by simp) co hco)
          exact ⟨h _ h3, p, q, h1, h2⟩) c hc
        rw [mapRes, this, List.filterMap_cons, hc]
        simp only [Option.map_some]
        rw [ih]
  · intro se hse
    unfold mixedBlock runBlock
    rw [hse]
    rfl

end Xdmf
end Meshio
