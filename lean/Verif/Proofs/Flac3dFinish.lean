/-
Lemmas for FLAC3D files: from the pieces of a grid to the mesh.
-/
import Verif.Proofs.Flac3d
import Verif.Proofs.Xdmf
import Verif.Proofs.Permas

namespace Meshio
namespace Flac3d
open Types Tables
open Meshio.Spec (groupRuns)
open Meshio.Spec.Flac3d

variable {F : Type}

/-! ## Cells -/

theorem pick_at' {row : List Nat} {p : List Nat} (h : ∀ i ∈ p, i < row.length) : pick row p = .ok (at' 0 row p) := by
  unfold pick at'
  apply mapRes_ok_of_forall (g := fun i => row.getD i 0)
  intro i hi
  have := h i hi
  simp [this]

/-- A kind of cell and its order. -/
theorem zoneKind_order {n : Nat} (h : (zoneKind n).isSome) : ∃ p, zoneKind n = some (zoneType n, p) ∧
    find flacToMeshioOrder (zoneType n) = some p ∧ ∀ i ∈ p, i < n := by
  unfold zoneKind at h
  split at h
  · exact ⟨_, rfl, rfl, by decide⟩
  · exact ⟨_, rfl, rfl, by decide⟩
  · exact ⟨_, rfl, rfl, by decide⟩
  · exact ⟨_, rfl, rfl, by decide⟩
  · cases h

theorem faceKind_order {n : Nat} (h : (faceKind n).isSome) : ∃ p, faceKind n = some (faceType n, p) ∧
    find flacToMeshioOrder (faceType n) = some p ∧ ∀ i ∈ p, i < n := by
  unfold faceKind at h
  split at h
  · exact ⟨_, rfl, rfl, by decide⟩
  · exact ⟨_, rfl, rfl, by decide⟩
  · cases h

/-- The order of a type. -/
def orderOf (t : String) (row : List Nat) : List Nat := at' 0 row ((find flacToMeshioOrder t).getD [])

theorem orderBlocks_ok (kind : Nat → Option (String × List Nat)) (ty : Nat → String)
    (hk : ∀ n, (kind n).isSome → ∃ p, kind n = some (ty n, p) ∧ find flacToMeshioOrder (ty n) = some p ∧ ∀ i ∈ p, i < n)
    (cells : List Cell) (h : ∀ c ∈ cells, (kind c.nodes.length).isSome) :
    mapRes orderBlock (groupRuns (cells.map fun c => (ty c.nodes.length, c.nodes))) = .ok (groupRuns (cells.map (cell kind))) := by
  have e : cells.map (cell kind) = (cells.map fun c => (ty c.nodes.length, c.nodes)).map fun a => (a.1, orderOf a.1 a.2) := by
    rw [List.map_map]
    apply List.map_congr_left
    intro c hc
    obtain ⟨p, h1, h2, -⟩ := hk _ (h c hc)
    simp only [Function.comp_apply]
    unfold cell orderOf
    rw [h1, h2]
    rfl
  rw [e, groupRuns_mapKey]
  apply mapRes_ok_of_forall
  intro b hb
  have hrow : ∀ r ∈ b.2, ∃ p, find flacToMeshioOrder b.1 = some p ∧ ∀ i ∈ p, i < r.length := by
    intro r hr
    have hm := mem_groupRuns _ b hb r hr
    obtain ⟨c, hc, hce⟩ := List.mem_map.1 hm
    simp only [Prod.mk.injEq] at hce
    obtain ⟨p, -, h2, h3⟩ := hk _ (h c hc)
    rw [← hce.1, ← hce.2]
    exact ⟨p, h2, h3⟩
  have hne := groupRuns_ne_nil _ b hb
  obtain ⟨r0, hr0⟩ := List.exists_mem_of_ne_nil _ hne
  obtain ⟨p, hp, -⟩ := hrow r0 hr0
  unfold orderBlock orderOf
  rw [hp]
  simp only [Option.getD_some]
  rw [mapRes_ok_of_forall (g := fun r => at' 0 r p)]
  intro r hr
  obtain ⟨p', hp', hlt⟩ := hrow r hr
  rw [hp] at hp'
  cases hp'
  exact pick_at' hlt

theorem mapRes_append_ok {α β : Type} {f : α → Res β} {l l' : List α} {m m' : List β} (h : mapRes f l = .ok m) (h' : mapRes f l' = .ok m') :
    mapRes f (l ++ l') = .ok (m ++ m') := by
  induction l generalizing m with
  | nil =>
    cases h
    exact h'
  | cons a l ih =>
    rw [List.cons_append]
    unfold mapRes at h ⊢
    cases hf : f a with
    | error e => rw [hf] at h; cases h
    | ok b =>
      rw [hf] at h
      simp only at h
      cases hl : mapRes f l with
      | error e => rw [hl] at h; cases h
      | ok bs =>
        rw [hl] at h
        cases h
        simp only
        rw [ih hl]
        rfl

/-! ## Numbers of cells -/

theorem foldl_max_le (l : List Int) (a : Int) : a ≤ l.foldl max a ∧ ∀ x ∈ l, x ≤ l.foldl max a := by
  induction l generalizing a with
  | nil => exact ⟨Int.le_refl a, by simp⟩
  | cons b l ih =>
    obtain ⟨h1, h2⟩ := ih (max a b)
    rw [List.foldl_cons]
    refine ⟨by omega, ?_⟩
    intro x hx
    rcases List.mem_cons.1 hx with rfl | h
    · omega
    · exact h2 x h

theorem le_maxId (ids : List Int) : ∀ x ∈ ids, x ≤ maxId ids := by
  intro x hx
  cases ids with
  | nil => cases hx
  | cons a ids =>
    unfold maxId
    have := foldl_max_le ids a
    rcases List.mem_cons.1 hx with rfl | h
    · exact this.1
    · exact this.2 x h

theorem assign_all (ids : List Int) (hn : ids.Nodup) (k : Nat) (a : List Int) (h : ∀ x ∈ ids, 0 ≤ x ∧ x < (a.length : Int)) :
    ∃ a', foldRes (fun a (p : Int × Nat) => npAssign a p.1 p.2) a (ids.zipIdx k) = .ok a' ∧ a'.length = a.length ∧
      (∀ i (hi : i < ids.length), a'[(ids[i]).toNat]? = some ((k + i : Nat) : Int)) ∧
      (∀ j : Nat, (j : Int) ∉ ids → a'[j]? = a[j]?) := by
  induction ids generalizing k a with
  | nil => exact ⟨a, rfl, rfl, by intro i hi; simp at hi, fun _ _ => rfl⟩
  | cons x ids ih =>
    rw [List.nodup_cons] at hn
    have hx := h x (by simp)
    obtain ⟨a', h1, h2, h3, h4⟩ := ih hn.2 (k + 1) (a.set x.toNat k) (by
      intro y hy
      rw [List.length_set]
      exact h y (by simp [hy]))
    refine ⟨a', ?_, by rw [h2, List.length_set], ?_, ?_⟩
    · rw [List.zipIdx_cons, foldRes]
      unfold npAssign
      rw [if_pos hx]
      exact h1
    · intro i hi
      cases i with
      | zero =>
        rw [List.getElem_cons_zero]
        have : ((x.toNat : Nat) : Int) ∉ ids := by
          rw [Int.toNat_of_nonneg hx.1]
          exact hn.1
        rw [h4 _ this, List.getElem?_set_self (by omega)]
        simp
      | succ i =>
        rw [List.getElem_cons_succ]
        rw [h3 i (by simpa using hi)]
        congr 1
        omega
    · intro j hj
      simp only [List.mem_cons, not_or] at hj
      rw [h4 j hj.2, List.getElem?_set_ne]
      intro e
      exact hj.1 (by omega)

theorem inverse_ok (ids : List Int) (hne : ids ≠ []) (hn : ids.Nodup) (h0 : ∀ x ∈ ids, 0 ≤ x) :
    ∃ inv, inverse ids = .ok inv ∧ ∀ i (hi : i < ids.length), npIndex inv ids[i] = .ok (i : Int) := by
  have hmax : 0 ≤ maxId ids := by
    obtain ⟨x, hx⟩ := List.exists_mem_of_ne_nil _ hne
    have := le_maxId ids x hx
    have := h0 x hx
    omega
  obtain ⟨a', h1, -, h3, -⟩ := assign_all ids hn 0 (List.replicate (maxId ids + 1).toNat (-1)) (by
    intro x hx
    rw [List.length_replicate]
    have := le_maxId ids x hx
    have := h0 x hx
    omega)
  refine ⟨a', ?_, ?_⟩
  · unfold inverse
    rw [if_neg (by omega)]
    exact h1
  · intro i hi
    unfold npIndex
    rw [if_pos (h0 _ (List.getElem_mem hi)), h3 i hi]
    simp

theorem memberIds_get {ids : List Int} {i : Nat} (h : i < ids.length) : ids.getD i 0 = ids[i] := by simp [h]

theorem groupDict_eq (kind : String) (ids : List Int) (gs : List Group) (hn : (gs.map (key kind)).Nodup) :
    groupDict kind ids gs = gs.map fun g => (key kind g, memberIds ids g) := by
  have set_new : ∀ (d : Dict (List Int)) (k : String) (v : List Int), k ∉ d.map (·.1) → Dict.set d k v = d ++ [(k, v)] := by
    intro d k v h
    induction d with
    | nil => rfl
    | cons kv d ih =>
      obtain ⟨k', v'⟩ := kv
      simp only [List.map_cons, List.mem_cons, not_or] at h
      unfold Dict.set
      rw [if_neg (fun e => h.1 e.symm), ih h.2]
      rfl
  have key' : ∀ (gs : List Group) (acc : Dict (List Int)), (acc.map (·.1) ++ gs.map (key kind)).Nodup →
      gs.foldl (fun d g => Dict.set d (key kind g) (memberIds ids g)) acc = acc ++ gs.map fun g => (key kind g, memberIds ids g) := by
    intro gs
    induction gs with
    | nil => intro acc _; simp
    | cons g gs ih =>
      intro acc hacc
      rw [List.foldl_cons, set_new _ _ _ (by
        intro hm
        exact (List.nodup_append.1 hacc).2.2 _ hm _ (by simp) rfl), ih _ (by simpa using hacc)]
      simp
  exact key' gs [] (by simpa using hn)

theorem resolve_ok {kinds : Nat → Option (String × List Nat)} (kind : String) (n off : Nat) (cells : List Cell) (gs : List Group)
    (h : KindOk kinds kind n cells gs) :
    resolve (cells.map (·.id)) off (groupDict kind (cells.map (·.id)) gs) =
      .ok (gs.map fun g => (key kind g, g.members.map fun i => ((i + off : Nat) : Int))) := by
  rw [groupDict_eq _ _ _ h.names]
  unfold resolve
  by_cases hc : cells = []
  · subst hc
    rw [if_pos (by rfl)]
    congr 1
    apply List.map_congr_left
    intro g hg
    have : g.members = [] := by
      rw [List.eq_nil_iff_forall_not_mem]
      intro i hi
      exact absurd (h.members g hg i hi) (by simp)
    unfold memberIds
    rw [this]
    rfl
  · have hne : cells.map (·.id) ≠ [] := by simpa using hc
    rw [if_neg hne]
    obtain ⟨inv, h1, h2⟩ := inverse_ok _ hne h.distinct (by
      intro x hx
      obtain ⟨c, hc, rfl⟩ := List.mem_map.1 hx
      exact h.nonneg c hc)
    rw [h1]
    simp only
    rw [show (gs.map fun g => (key kind g, g.members.map fun i => ((i + off : Nat) : Int))) =
      (gs.map fun g => (g, memberIds (cells.map (·.id)) g)).map fun p => (key kind p.1, p.1.members.map fun i => ((i + off : Nat) : Int)) by
        rw [List.map_map]; rfl]
    rw [show (gs.map fun g => (key kind g, memberIds (cells.map (·.id)) g)) = (gs.map fun g => (g, memberIds (cells.map (·.id)) g)).map
      fun p => (key kind p.1, p.2) by rw [List.map_map]; rfl]
    rw [Permas.mapRes_map]
    apply mapRes_ok_of_forall
    intro p hp
    obtain ⟨g, hg, rfl⟩ := List.mem_map.1 hp
    simp only
    have : lookUp inv off (memberIds (cells.map (·.id)) g) = .ok (g.members.map fun i => ((i + off : Nat) : Int)) := by
      unfold lookUp memberIds
      rw [if_neg (by
        intro e
        exact h.nonempty hc g hg (List.map_eq_nil_iff.1 e)), Permas.mapRes_map]
      apply mapRes_ok_of_forall
      intro i hi
      have hlt := h.members g hg i hi
      have hlt' : i < (cells.map (·.id)).length := by simpa using hlt
      rw [memberIds_get hlt', h2 i hlt']
      simp
    rw [this]

/-! ## Sets -/

theorem le_cumsumFrom (s : Nat) (lens : List Nat) : ∀ b ∈ cumsumFrom s lens, s ≤ b := by
  induction lens generalizing s with
  | nil => simp [cumsumFrom]
  | cons n lens ih =>
    intro b hb
    unfold cumsumFrom at hb
    rcases List.mem_cons.1 hb with rfl | h
    · omega
    · have := ih (s + n) b h
      omega

theorem digitize_lt {bins : List Nat} {x : Nat} (h : ∀ b ∈ bins, x < b) : digitize bins (x : Int) = 0 := by
  unfold digitize
  rw [List.length_eq_zero_iff, List.filter_eq_nil_iff]
  intro b hb
  have := h b hb
  simp only [decide_eq_true_eq]
  omega

theorem digitize_cons (b : Nat) (bins : List Nat) (x : Nat) :
    digitize (b :: bins) (x : Int) = (if b ≤ x then 1 else 0) + digitize bins (x : Int) := by
  unfold digitize
  rw [List.filter_cons]
  by_cases h : b ≤ x
  · rw [if_pos h, if_pos (by simpa using h), List.length_cons, Nat.add_comm]
  · rw [if_neg h, if_neg (by simpa using h), Nat.zero_add]

/-- The block of a number is the segment in which it lies. -/
theorem digitize_segs (lens : List Nat) (s x : Nat) (hx : s ≤ x) (k : Nat) (se : Nat × Nat) (hk : (segsFrom s lens)[k]? = some se) :
    (digitize (cumsumFrom s lens) (x : Int) == k) = decide (se.1 ≤ x ∧ x < se.2) := by
  induction lens generalizing s k with
  | nil => simp [segsFrom] at hk
  | cons n lens ih =>
    unfold cumsumFrom
    rw [digitize_cons]
    by_cases hb : s + n ≤ x
    · rw [if_pos hb]
      cases k with
      | zero =>
        simp only [segsFrom, List.getElem?_cons_zero, Option.some.injEq] at hk
        subst hk
        simp only
        rw [decide_eq_false (by omega), beq_eq_false_iff_ne]
        omega
      | succ k =>
        simp only [segsFrom, List.getElem?_cons_succ] at hk
        rw [← ih (s + n) hb k hk]
        rw [Bool.eq_iff_iff]
        simp only [beq_iff_eq]
        omega
    · rw [if_neg hb, digitize_lt (fun b hb' => by have := le_cumsumFrom _ _ b hb'; omega)]
      cases k with
      | zero =>
        simp only [segsFrom, List.getElem?_cons_zero, Option.some.injEq] at hk
        subst hk
        simp only
        rw [decide_eq_true (by omega)]
        rfl
      | succ k =>
        simp only [segsFrom, List.getElem?_cons_succ] at hk
        have : s + n ≤ se.1 := by
          have hm : ∀ (s : Nat) (lens : List Nat) (k : Nat) (se : Nat × Nat), (segsFrom s lens)[k]? = some se → s ≤ se.1 := by
            intro s lens
            induction lens generalizing s with
            | nil => intro k se h; simp [segsFrom] at h
            | cons m lens ih =>
              intro k se h
              cases k with
              | zero =>
                simp only [segsFrom, List.getElem?_cons_zero, Option.some.injEq] at h
                subst h
                exact Nat.le_refl _
              | succ k =>
                simp only [segsFrom, List.getElem?_cons_succ] at h
                have := ih _ k se h
                omega
          exact hm _ _ _ _ hk
        rw [decide_eq_false (by omega), beq_eq_false_iff_ne]
        omega

theorem length_segsFrom (s : Nat) (lens : List Nat) : (segsFrom s lens).length = lens.length := by
  induction lens generalizing s with
  | nil => rfl
  | cons n lens ih => simp [segsFrom, ih]

theorem splitSet_perBlock (lens : List Nat) (l : List Nat) :
    splitSet (cumsum lens) lens.length (l.map fun (x : Nat) => (x : Int)) = perBlock lens l := by
  unfold splitSet perBlock cumsum
  apply List.ext_getElem
  · simp [length_segsFrom]
  · intro k h1 h2
    simp only [List.getElem_map, List.getElem_range]
    rw [List.filter_map]
    congr 1
    apply List.filter_congr
    intro x _
    simp only [Function.comp_apply]
    exact digitize_segs lens 0 x (Nat.zero_le _) k _ (List.getElem?_eq_getElem _)

theorem cumsumFrom_dropLast (s : Nat) (l : List Nat) : cumsumFrom s l.dropLast = (cumsumFrom s l).dropLast := by
  induction l generalizing s with
  | nil => rfl
  | cons n l ih =>
    cases l with
    | nil => rfl
    | cons m l =>
      rw [List.dropLast_cons_cons]
      show (s + n) :: cumsumFrom (s + n) ((m :: l).dropLast) = _
      rw [ih]
      show _ = ((s + n) :: (s + n + m) :: cumsumFrom (s + n + m) l).dropLast
      rw [List.dropLast_cons_cons]
      rfl

theorem sum_lens {κ α : Type} [DecidableEq κ] (l : List (κ × α)) : ((groupRuns l).map (·.2.length)).sum = l.length := by
  have h := congrArg List.length (rowsOf_groupRuns l)
  unfold Meshio.Spec.rowsOf at h
  rw [List.length_flatMap] at h
  simpa using h

theorem dict_update_disjoint {α : Type} (d e : Dict α) (h : (d.map (·.1) ++ e.map (·.1)).Nodup) : Dict.update d e = d ++ e := by
  have set_new : ∀ (d : Dict α) (k : String) (v : α), k ∉ d.map (·.1) → Dict.set d k v = d ++ [(k, v)] := by
    intro d k v h
    induction d with
    | nil => rfl
    | cons kv d ih =>
      obtain ⟨k', v'⟩ := kv
      simp only [List.map_cons, List.mem_cons, not_or] at h
      unfold Dict.set
      rw [if_neg (fun e => h.1 e.symm), ih h.2]
      rfl
  unfold Dict.update
  induction e generalizing d with
  | nil => simp
  | cons kv e ih =>
    rw [List.foldl_cons, set_new _ _ _ (by
      intro hm
      exact (List.nodup_append.1 h).2.2 _ hm _ (by simp) rfl), ih _ (by simpa using h)]
    simp

theorem key_ne (a b : Group) : key "face" a ≠ key "zone" b := by
  intro h
  have := congrArg String.toList h
  unfold key at this
  simp at this

/-- The pieces of a grid become the mesh. -/
theorem finish_ok (g : Grid F) (h : GridOk g) : finish (stOf (g.zones.map (·.id)) (g.faces.map (·.id)) g) = .ok (mesh g) := by
  unfold finish
  simp only [stOf]
  rw [mapRes_append_ok (orderBlocks_ok faceKind faceType (fun n => faceKind_order) g.faces fun c hc => (h.faces.nodes c hc).1)
    (orderBlocks_ok zoneKind zoneType (fun n => zoneKind_order) g.zones fun c hc => (h.zones.nodes c hc).1)]
  simp only
  rw [resolve_ok "face" g.points.length 0 g.faces g.fgroups h.faces]
  simp only
  rw [List.length_map, resolve_ok "zone" g.points.length g.faces.length g.zones g.zgroups h.zones]
  simp only
  refine (if_pos ?_).trans ?_
  · rw [List.all_eq_true]
    intro r hr
    obtain ⟨p, hp, rfl⟩ := List.mem_map.1 hr
    cases hpts : g.points with
    | nil => rw [hpts] at hp; cases hp
    | cons q qs =>
      simp only [List.map_cons, List.headD_cons, beq_iff_eq]
      exact h.dims p hp q (by rw [hpts]; simp)
  unfold mesh
  simp only
  have hb : groupRuns (g.faces.map (cell faceKind)) ++ groupRuns (g.zones.map (cell zoneKind)) = blocksOf g := rfl
  rw [hb]
  congr 2
  · -- numbers
    by_cases hbl : blocksOf g = []
    · rw [if_pos hbl, hbl]
      rfl
    · rw [if_neg hbl]
      have := Xdmf.cellDataFromRaw_splitLens ((blocksOf g).map (·.2.length))
        (g.faces.map (·.id) ++ g.zones.map (fun c => c.id + (g.faces.length : Int))) (by simpa using hbl) (by
          rw [← hb, List.map_append, List.sum_append, sum_lens, sum_lens]
          simp)
      rw [← this]
      unfold cellDataFromRaw
      rw [show cumsum ((blocksOf g).map (·.2.length)).dropLast = (cumsum ((blocksOf g).map (·.2.length))).dropLast from cumsumFrom_dropLast _ _,
        List.map_map]
      rfl
  · rw [dict_update_disjoint, List.map_append, List.map_map, List.map_map]
    · have key' : ∀ (l : List Nat), splitSet (cumsum ((blocksOf g).map (·.2.length))) (blocksOf g).length (l.map fun (x : Nat) => (x : Int)) =
          perBlock ((blocksOf g).map (·.2.length)) l := by
        intro l
        have := splitSet_perBlock ((blocksOf g).map (·.2.length)) l
        rw [List.length_map] at this
        exact this
      congr 1
      · apply List.map_congr_left
        intro s _
        simp only [Function.comp_apply, Nat.add_zero]
        rw [key']
      · apply List.map_congr_left
        intro s _
        simp only [Function.comp_apply]
        rw [show (s.members.map fun i => ((i + g.faces.length : Nat) : Int)) = (s.members.map (· + g.faces.length)).map
          (fun (x : Nat) => (x : Int)) by rw [List.map_map]; rfl, key']
    · rw [List.map_map, List.map_map, List.nodup_append]
      refine ⟨h.faces.names, h.zones.names, ?_⟩
      intro a ha b hb e
      obtain ⟨s, -, rfl⟩ := List.mem_map.1 ha
      obtain ⟨t, -, rfl⟩ := List.mem_map.1 hb
      exact key_ne s t e

end Flac3d
end Meshio
