/-
Helper lemmas for Tecplot files: the mesh, and whole files.
-/
import Verif.Proofs.TecplotZone

namespace Meshio
namespace Tecplot
open Types Tables
open Meshio.Spec.Tecplot (VName Word Style Entry Sep Group Location Record Separated textKeys numberKeys capital Comment joined Var Points coordinate
  File pointData cellData typeOf)

variable {F : Type}

/-! ## Dictionaries -/

theorem set_new {α : Type} (d : Dict α) (k : String) (v : α) (h : k ∉ d.map (·.1)) : Dict.set d k v = d ++ [(k, v)] := by
  induction d with
  | nil => rfl
  | cons x d ih =>
    obtain ⟨a, b⟩ := x
    simp only [List.map_cons, List.mem_cons, not_or] at h
    simp only [Dict.set]
    rw [if_neg (fun e => h.1 e.symm), ih h.2]
    rfl

theorem foldl_set_new {α : Type} (l : List (String × α)) (d : Dict α) (h : (d.map (·.1) ++ l.map (·.1)).Nodup) :
    l.foldl (fun d kv => Dict.set d kv.1 kv.2) d = d ++ l := by
  induction l generalizing d with
  | nil => simp
  | cons x l ih =>
    rw [List.foldl_cons, set_new _ _ _ (by
      intro hx
      rw [List.nodup_append] at h
      exact h.2.2 x.1 hx x.1 (by simp) rfl), ih _ (by simpa using h)]
    simp

theorem erase_filter {α : Type} (d : Dict α) (h : (d.map (·.1)).Nodup) (k : String) : Dict.erase d k = d.filter fun kv => decide (kv.1 ≠ k) := by
  induction d with
  | nil => rfl
  | cons x d ih =>
    obtain ⟨a, b⟩ := x
    simp only [List.map_cons, List.nodup_cons] at h
    simp only [Dict.erase]
    by_cases hk : a = k
    · rw [if_pos hk, List.filter_cons_of_neg (by simp [hk]), List.filter_eq_self.mpr]
      intro y hy
      apply decide_eq_true
      intro e
      exact h.1 (List.mem_map.mpr ⟨y, hy, by rw [e, hk]⟩)
    · rw [if_neg hk, List.filter_cons_of_pos (by simp [hk]), ih h.2]

theorem filter_nodup {d : List (String × List F)} (h : (d.map (·.1)).Nodup) (p : String × List F → Bool) : ((d.filter p).map (·.1)).Nodup :=
  (List.filter_sublist.map _).nodup h

/-! ## The data -/

/-- The data of the points, coordinates included. -/
def allPoint (vars : List (Var F)) : Dict (List F) := (vars.filter fun v => decide (v.cell = false)).map fun v => (v.name, v.values)

theorem split_ok (vars l : List (Var F)) (hnd : (vars.map (·.name)).Nodup) (hl : ∀ v ∈ l, v ∈ vars) (hln : (l.map (·.name)).Nodup)
    (pd cd : Dict (List F)) (hp : ∀ v ∈ l, v.name ∉ pd.map (·.1)) (hc : ∀ v ∈ l, v.name ∉ cd.map (·.1)) :
    foldRes (fun (st : Dict (List F) × Dict (List F)) (iv : Bool × String) =>
      match Dict.get? (vars.map fun v => (v.name, v.values)) iv.2 with
      | none => .error .keyError
      | some a => if iv.1 then .ok (st.1, st.2.set iv.2 a) else .ok (st.1.set iv.2 a, st.2)) (pd, cd) (l.map fun v => (v.cell, v.name)) =
      .ok (pd ++ allPoint l, cd ++ cellData l) := by
  induction l generalizing pd cd with
  | nil => simp [foldRes, allPoint, cellData]
  | cons v l ih =>
    have hg : Dict.get? (vars.map fun v => (v.name, v.values)) v.name = some v.values := by
      apply Dict.get?_of_mem
      · unfold Dict.Ok Dict.keys
        rw [List.map_map]
        exact hnd
      · exact List.mem_map.mpr ⟨v, hl v (by simp), rfl⟩
    rw [List.map_cons, foldRes]
    simp only [hg]
    rw [List.map_cons, List.nodup_cons] at hln
    have hv : ∀ w ∈ l, w.name ≠ v.name := fun w hw e => hln.1 (List.mem_map.mpr ⟨w, hw, e⟩)
    cases hcell : v.cell with
    | true =>
      rw [if_pos rfl]
      simp only
      rw [set_new _ _ _ (hc v (by simp)), ih (fun w hw => hl w (by simp [hw])) hln.2 _ _ (fun w hw => hp w (by simp [hw])) (by
        intro w hw
        simp only [List.map_append, List.map_cons, List.map_nil, List.mem_append, List.mem_singleton, not_or]
        exact ⟨hc w (by simp [hw]), hv w hw⟩)]
      simp [allPoint, cellData, hcell]
    | false =>
      rw [if_neg (by simp)]
      simp only
      rw [set_new _ _ _ (hp v (by simp)), ih (fun w hw => hl w (by simp [hw])) hln.2 _ _ (by
        intro w hw
        simp only [List.map_append, List.map_cons, List.map_nil, List.mem_append, List.mem_singleton, not_or]
        exact ⟨hp w (by simp [hw]), hv w hw⟩) (fun w hw => hc w (by simp [hw]))]
      simp [allPoint, cellData, hcell]

theorem has_iff (vars : List (Var F)) (n : String) : (allPoint vars).has n = true ↔ ∃ v ∈ vars, v.cell = false ∧ v.name = n := by
  unfold Dict.has
  rw [Option.isSome_iff_exists, ← Dict.mem_keys_iff]
  unfold Dict.keys allPoint
  rw [List.map_map]
  simp only [List.mem_map, List.mem_filter, decide_eq_true_eq, Function.comp]
  constructor
  · rintro ⟨v, ⟨h1, h2⟩, h3⟩
    exact ⟨v, h1, h2, h3⟩
  · rintro ⟨v, h1, h2, h3⟩
    exact ⟨v, ⟨h1, h2⟩, h3⟩

theorem has_coordinate (vars : List (Var F)) (up low : String) : (if (allPoint vars).has up = true then up else low) = coordinate vars up low := by
  unfold coordinate
  by_cases h : (allPoint vars).has up = true
  · rw [if_pos h, if_neg]
    obtain ⟨v, h1, h2, h3⟩ := (has_iff vars up).mp h
    intro he
    rw [List.isEmpty_iff, List.filter_eq_nil_iff] at he
    exact he v h1 (decide_eq_true ⟨h2, h3⟩)
  · rw [if_neg h, if_pos]
    rw [List.isEmpty_iff, List.filter_eq_nil_iff]
    intro v hv hd
    exact h ((has_iff vars up).mpr ⟨v, hv, of_decide_eq_true hd⟩)

theorem coordinate_mem (vars : List (Var F)) (up low : String) : coordinate vars up low = up ∨ coordinate vars up low = low := by
  unfold coordinate
  split
  · exact Or.inr rfl
  · exact Or.inl rfl

theorem allPoint_nodup (vars : List (Var F)) (h : (vars.map (·.name)).Nodup) : ((allPoint vars).map (·.1)).Nodup := by
  unfold allPoint
  rw [List.map_map]
  exact (List.filter_sublist.map _).nodup h

theorem allPoint_get (vars : List (Var F)) (h : (vars.map (·.name)).Nodup) (v : Var F) (hv : v ∈ vars) (hc : v.cell = false) :
    (allPoint vars).get? v.name = some v.values := by
  apply Dict.get?_of_mem (allPoint_nodup vars h)
  exact List.mem_map.mpr ⟨v, List.mem_filter.mpr ⟨hv, decide_eq_true hc⟩, rfl⟩

/-! ## The points -/

theorem columns_succ {α : Type} (n : Nat) (cols : List (List α)) :
    columns (n + 1) cols = cols.filterMap (·[0]?) :: columns n (cols.map (·.tail)) := by
  unfold columns
  rw [List.range_succ_eq_map, List.map_cons, List.map_map]
  congr 1
  apply List.map_congr_left
  intro i _
  simp only [Function.comp]
  rw [List.filterMap_map]
  apply filterMap_congr'
  intro c _
  simp [Function.comp]

theorem points_two (points : List (List F)) (h : ∀ p ∈ points, p.length = 2) :
    stack [points.filterMap (·[0]?), points.filterMap (·[1]?)] = .ok points := by
  have hl : ∀ i, i < 2 → (points.filterMap (·[i]?)).length = points.length := fun i hi => by
    induction points with
    | nil => rfl
    | cons p ps ih =>
      have hp := h p (by simp)
      have : p[i]? = some p[i] := List.getElem?_eq_getElem (by omega)
      rw [List.filterMap_cons, this]
      simp only [List.length_cons]
      rw [ih (fun q hq => h q (by simp [hq]))]
  unfold stack
  rw [if_pos (by simp [hl])]
  congr 1
  rw [List.headD_cons, hl 0 (by decide)]
  clear hl
  induction points with
  | nil => rfl
  | cons p ps ih =>
    have hp := h p (by simp)
    match p, hp with
    | [a, b], _ =>
      have ih' := ih (fun q hq => h q (by simp [hq]))
      rw [List.length_cons, columns_succ]
      congr 1

theorem points_three (points : List (List F)) (h : ∀ p ∈ points, p.length = 3) :
    stack [points.filterMap (·[0]?), points.filterMap (·[1]?), points.filterMap (·[2]?)] = .ok points := by
  have hl : ∀ i, i < 3 → (points.filterMap (·[i]?)).length = points.length := fun i hi => by
    induction points with
    | nil => rfl
    | cons p ps ih =>
      have hp := h p (by simp)
      have : p[i]? = some p[i] := List.getElem?_eq_getElem (by omega)
      rw [List.filterMap_cons, this]
      simp only [List.length_cons]
      rw [ih (fun q hq => h q (by simp [hq]))]
  unfold stack
  rw [if_pos (by simp [hl])]
  congr 1
  rw [List.headD_cons, hl 0 (by decide)]
  clear hl
  induction points with
  | nil => rfl
  | cons p ps ih =>
    have hp := h p (by simp)
    match p, hp with
    | [a, b, c], _ =>
      have ih' := ih (fun q hq => h q (by simp [hq]))
      rw [List.length_cons, columns_succ]
      congr 1

theorem typeOf_find (zt : List Char) (t : String) (h : typeOf zt = some t) : find tecplotToMeshio (String.ofList zt) = some t := by
  unfold typeOf at h
  have key : ∀ (a b : String) (u : String), find tecplotToMeshio a = some u → find tecplotToMeshio b = some u →
      (zt = a.toList ∨ zt = b.toList) → find tecplotToMeshio (String.ofList zt) = some u := by
    intro a b u ha hb hz
    rcases hz with rfl | rfl
    · rw [String.ofList_toList, ha]
    · rw [String.ofList_toList, hb]
  split at h
  · next hz => exact (Option.some.inj h) ▸ key _ _ "line" (by decide +kernel) (by decide +kernel) hz
  · split at h
    · next hz => exact (Option.some.inj h) ▸ key _ _ "triangle" (by decide +kernel) (by decide +kernel) hz
    · split at h
      · next hz => exact (Option.some.inj h) ▸ key _ _ "quad" (by decide +kernel) (by decide +kernel) hz
      · split at h
        · next hz => exact (Option.some.inj h) ▸ key _ _ "tetra" (by decide +kernel) (by decide +kernel) hz
        · split at h
          · next hz => exact (Option.some.inj h) ▸ key _ _ "hexahedron" (by decide +kernel) (by decide +kernel) hz
          · cases h

theorem mesh_ok (vars : List (Var F)) (points : List (List F)) (used : List String) (hp : Points vars points used) (hnd : (vars.map (·.name)).Nodup)
    (zt : List Char) (t : String) (ht : typeOf zt = some t) (rows : List (List Int)) (nn : Nat)
    (hv : ∀ v ∈ vars, v.values.length = if v.cell then rows.length else nn) :
    mesh (allPoint vars) (cellData vars) zt rows = .ok ⟨points, t, rows, pointData vars used, cellData vars⟩ := by
  obtain ⟨vx, hx1, hx2, hx3, hx4⟩ := hp.h_x
  obtain ⟨vy, hy1, hy2, hy3, hy4⟩ := hp.h_y
  have gx : (allPoint vars).get? (coordinate vars "X" "x") = some (points.filterMap (·[0]?)) := by
    rw [← hx3, allPoint_get vars hnd vx hx1 hx2, hx4]
  have gy : (allPoint vars).get? (coordinate vars "Y" "y") = some (points.filterMap (·[1]?)) := by
    rw [← hy3, allPoint_get vars hnd vy hy1 hy2, hy4]
  have hnn : points.length = nn := by
    have h1 := hv vx hx1
    rw [hx2, hx4] at h1
    simp only [Bool.false_eq_true, if_false] at h1
    rw [← h1]
    have hlen : ∀ p ∈ points, 0 < p.length := by
      rcases hp.h_z with ⟨_, _, h⟩ | ⟨_, _, h⟩
      · intro p hp; rw [h p hp]; decide
      · intro p hp; rw [h p hp]; decide
    clear h1 gx gy hx4 hy4 hp
    induction points with
    | nil => rfl
    | cons p ps ih =>
      have := hlen p (by simp)
      have : p[0]? = some p[0] := List.getElem?_eq_getElem this
      rw [List.filterMap_cons, this]
      simp only [List.length_cons]
      rw [ih (fun q hq => hlen q (by simp [hq]))]
  have hcd : (cellData vars).all (fun kv => kv.2.length == rows.length) = true := by
    rw [List.all_eq_true]
    intro kv hkv
    obtain ⟨v, hv', rfl⟩ := List.mem_map.mp hkv
    obtain ⟨h1, h2⟩ := List.mem_filter.mp hv'
    have := hv v h1
    rw [h2] at this
    simpa using this
  have hpd : ∀ u, (pointData vars u).all (fun kv => kv.2.length == points.length) = true := by
    intro u
    rw [List.all_eq_true]
    intro kv hkv
    obtain ⟨v, hv', rfl⟩ := List.mem_map.mp hkv
    obtain ⟨h1, h2⟩ := List.mem_filter.mp hv'
    have := hv v h1
    rw [(of_decide_eq_true h2).1] at this
    simpa [hnn] using this
  have hxy : coordinate vars "X" "x" ≠ coordinate vars "Y" "y" := by
    rcases coordinate_mem vars "X" "x" with h | h <;> rcases coordinate_mem vars "Y" "y" with h' | h' <;> rw [h, h'] <;> decide
  have hxz : coordinate vars "Z" "z" ≠ coordinate vars "X" "x" := by
    rcases coordinate_mem vars "Z" "z" with h | h <;> rcases coordinate_mem vars "X" "x" with h' | h' <;> rw [h, h'] <;> decide
  have hyz : coordinate vars "Z" "z" ≠ coordinate vars "Y" "y" := by
    rcases coordinate_mem vars "Z" "z" with h | h <;> rcases coordinate_mem vars "Y" "y" with h' | h' <;> rw [h, h'] <;> decide
  have hnp := allPoint_nodup vars hnd
  have e2 : ((allPoint vars).erase (coordinate vars "X" "x")).erase (coordinate vars "Y" "y") =
      pointData vars [coordinate vars "X" "x", coordinate vars "Y" "y"] := by
    rw [erase_filter _ hnp, erase_filter _ (filter_nodup hnp _)]
    unfold allPoint pointData
    rw [List.filter_map, List.filter_filter, List.filter_map, List.filter_filter]
    congr 1
    apply List.filter_congr
    intro v _
    rw [Bool.eq_iff_iff]
    simp [Function.comp]
    constructor
    · rintro ⟨h1, h2, h3⟩; exact ⟨h3, h2, h1⟩
    · rintro ⟨h1, h2, h3⟩; exact ⟨h3, h2, h1⟩
  have nd2 : ((pointData vars [coordinate vars "X" "x", coordinate vars "Y" "y"]).map (·.1)).Nodup := by
    unfold pointData
    rw [List.map_map]
    exact (List.filter_sublist.map _).nodup hnd
  unfold mesh
  simp only
  rw [has_coordinate, has_coordinate, gx, gy]
  simp only
  rw [e2]
  rcases hp.h_z with ⟨hu, hz, hlen⟩ | ⟨hu, ⟨vz, hz1, hz2, hz3, hz4⟩, hlen⟩
  · have h1 : ¬ (allPoint vars).has "Z" = true := by
      rw [has_iff]
      rintro ⟨v, a, b, c⟩
      exact (hz v a b).1 c
    have h2 : ¬ (allPoint vars).has "z" = true := by
      rw [has_iff]
      rintro ⟨v, a, b, c⟩
      exact (hz v a b).2 c
    rw [if_neg h1, if_neg h2]
    simp only [List.append_nil]
    rw [points_two points hlen]
    simp only
    rw [typeOf_find zt t ht]
    simp only
    rw [hpd, hcd, hu]
    rfl
  · have hzz : (if (allPoint vars).has "Z" = true then some "Z" else if (allPoint vars).has "z" = true then some "z" else none) =
        some (coordinate vars "Z" "z") := by
      have := has_coordinate vars "Z" "z"
      by_cases h1 : (allPoint vars).has "Z" = true
      · rw [if_pos h1] at this ⊢
        rw [← this]
      · rw [if_neg h1] at this ⊢
        rw [if_pos, ← this]
        rw [has_iff]
        exact ⟨vz, hz1, hz2, by rw [hz3, ← this]⟩
    rw [hzz]
    simp only
    have gz : Dict.get? (pointData vars [coordinate vars "X" "x", coordinate vars "Y" "y"]) (coordinate vars "Z" "z") =
        some (points.filterMap (·[2]?)) := by
      rw [← hz4]
      apply Dict.get?_of_mem nd2
      refine List.mem_map.mpr ⟨vz, List.mem_filter.mpr ⟨hz1, decide_eq_true ⟨hz2, ?_⟩⟩, by rw [hz3]⟩
      rw [hz3]
      simp [hxz, hyz]
    rw [gz]
    have e3 : Dict.erase (pointData vars [coordinate vars "X" "x", coordinate vars "Y" "y"]) (coordinate vars "Z" "z") =
        pointData vars [coordinate vars "X" "x", coordinate vars "Y" "y", coordinate vars "Z" "z"] := by
      rw [erase_filter _ nd2]
      unfold pointData
      rw [List.filter_map, List.filter_filter]
      congr 1
      apply List.filter_congr
      intro v _
      rw [Bool.eq_iff_iff]
      simp [Function.comp]
      constructor
      · rintro ⟨h1, h2, h3, h4⟩; exact ⟨h2, h3, h4, h1⟩
      · rintro ⟨h1, h2, h3, h4⟩; exact ⟨h4, h1, h2, h3⟩
    rw [e3]
    show (match stack [points.filterMap (·[0]?), points.filterMap (·[1]?), points.filterMap (·[2]?)] with
      | .error e => (.error e : Res (Out F))
      | .ok points => _) = _
    rw [points_three points hlen]
    simp only
    rw [typeOf_find zt t ht]
    simp only
    rw [hpd, hcd, hu]
    rfl

/-! ## The arrays -/

theorem sum_lengths (vars : List (Var F)) (nn nc : Nat) (h : ∀ v ∈ vars, v.values.length = if v.cell then nc else nn) :
    ((vars.map (·.cell)).map fun c => if c then (nc : Int) else (nn : Int)).sum = ((vars.flatMap (·.values)).length : Nat) := by
  induction vars with
  | nil => rfl
  | cons v vars ih =>
    have hv := h v (by simp)
    rw [List.map_cons, List.map_cons, List.sum_cons, ih (fun w hw => h w (by simp [hw])), List.flatMap_cons, List.length_append, hv]
    cases v.cell <;> simp

theorem arrays_block (vars : List (Var F)) (nn nc : Nat) (type : List Char) (rows : List (List F)) (hr : rows.flatten = vars.flatMap (·.values))
    (h : ∀ v ∈ vars, v.values.length = if v.cell then nc else nn) (hne : ∃ v ∈ vars, v.values ≠ []) :
    arrays ⟨nn, nc, true, type, vars.map (·.cell)⟩ rows = .ok (vars.map (·.values)) := by
  unfold arrays
  simp only [if_true]
  rw [if_neg (by omega), if_neg]
  · congr 1
    rw [hr, List.map_map]
    have e : vars.map ((fun c : Bool => if c = true then (nc : Int).toNat else (nn : Int).toNat) ∘ fun v => v.cell) = (vars.map (·.values)).map List.length := by
      rw [List.map_map]
      apply List.map_congr_left
      intro v hv
      simp only [Function.comp, Int.toNat_natCast]
      rw [h v hv]
    rw [e, List.flatMap_def, cellDataFromRaw_flatten]
    obtain ⟨v, hv, _⟩ := hne
    intro he
    rw [List.map_eq_nil_iff] at he
    rw [he] at hv
    cases hv
  · rintro rfl
    obtain ⟨v, hv, hv'⟩ := hne
    apply hv'
    have : vars.flatMap (·.values) = [] := hr.symm
    rw [List.flatMap_eq_nil_iff] at this
    exact this v hv

theorem some_map_inj {α : Type} {a b : List α} (h : a.map some = b.map some) : a = b := by
  induction a generalizing b with
  | nil => cases b with
    | nil => rfl
    | cons y b => cases h
  | cons x a ih => cases b with
    | nil => cases h
    | cons y b =>
      simp only [List.map_cons, List.cons.injEq, Option.some.injEq] at h
      rw [h.1, ih h.2]

theorem arrays_point (vars : List (Var F)) (nn nc : Nat) (type : List Char) (flags : List Bool) (rows : List (List F)) (hnn : 0 < nn)
    (hr : (rows.map fun r => r.map some) = (List.range nn).map fun i => vars.map fun v => v.values[i]?)
    (h : ∀ v ∈ vars, v.values.length = nn) :
    arrays ⟨nn, nc, false, type, flags⟩ rows = .ok (vars.map (·.values)) := by
  have hrl : rows.length = nn := by
    have := congrArg List.length hr
    simpa using this
  have hrow : ∀ (i : Nat) (r : List F), rows[i]? = some r → r.map some = vars.map fun v => v.values[i]? := by
    intro i r hi
    have := congrArg (fun l => l[i]?) hr
    simp only [List.getElem?_map, hi, Option.map_some] at this
    have hlt : i < nn := by
      rw [← hrl]
      exact (List.getElem?_eq_some_iff.mp hi).1
    rw [List.getElem?_range hlt] at this
    simpa using this
  have hlen : ∀ r ∈ rows, r.length = vars.length := by
    intro r hm
    obtain ⟨i, hi⟩ := List.getElem?_of_mem hm
    have := congrArg List.length (hrow i r hi)
    simpa using this
  have hhead : (rows.headD []).length = vars.length := by
    cases rows with
    | nil => simp at hrl; omega
    | cons r rows => exact hlen r (by simp)
  unfold arrays
  simp only [Bool.false_eq_true, if_false]
  rw [if_pos]
  · congr 1
    rw [hhead]
    unfold columns
    apply List.ext_getElem (by simp)
    intro k h1 h2
    simp only [List.length_map] at h2
    simp only [List.getElem_map, List.getElem_range]
    have hv := h vars[k] (List.getElem_mem h2)
    apply some_map_inj
    apply List.ext_getElem?
    intro i
    by_cases hi : i < nn
    · have e : rows.map (fun r => r[k]?) = (rows.filterMap (·[k]?)).map some := by
        clear hr hrow hhead hrl h1
        induction rows with
        | nil => rfl
        | cons r rows ih =>
          have := hlen r (by simp)
          have : r[k]? = some r[k] := List.getElem?_eq_getElem (by omega)
          rw [List.map_cons, List.filterMap_cons, this]
          simp only [List.map_cons]
          rw [ih (fun r hr => hlen r (by simp [hr]))]
      rw [← e, List.getElem?_map]
      have hir : i < rows.length := by omega
      rw [List.getElem?_eq_getElem hir, List.getElem?_map]
      have := congrArg (fun l => l[k]?) (hrow i rows[i] (List.getElem?_eq_getElem hir))
      simp only [List.getElem?_map] at this
      rw [List.getElem?_eq_getElem h2] at this
      simp only [Option.map_some] at this ⊢
      have hkr : k < (rows[i]).length := by rw [hlen _ (List.getElem_mem hir)]; exact h2
      rw [List.getElem?_eq_getElem hkr] at this ⊢
      rw [List.getElem?_eq_getElem (by omega)] at this ⊢
      simpa using this
    · rw [List.getElem?_eq_none, List.getElem?_eq_none]
      · simp; omega
      · rw [List.length_map]
        have := List.length_filterMap_le (fun r : List F => r[k]?) rows
        omega
  · unfold rectangular
    rw [List.all_eq_true]
    intro r hm
    rw [hhead, hlen r hm]
    simp

/-! ## Whole files -/

theorem loop_before (io : TecIO F) (before rest : List (List Char)) (v : Option (List String)) (n : Nat)
    (h : ∀ l ∈ before, l ≠ [] ∧ ¬ "VARIABLES".toList <+: upper l ∧ ¬ "ZONE".toList <+: upper l) :
    loop io (n + before.length) (before ++ rest) v = loop io n rest v := by
  induction before with
  | nil => rfl
  | cons l ls ih =>
    obtain ⟨h1, h2, h3⟩ := h l (by simp)
    rw [List.length_cons, ← Nat.add_assoc, List.cons_append, loop, if_neg, if_neg, if_neg h1, ih (fun k hk => h k (by simp [hk]))]
    · rw [List.isPrefixOf_iff_prefix]; exact h3
    · rw [List.isPrefixOf_iff_prefix]; exact h2

theorem prefix_head {p s : List Char} (h : p <+: s) (c : Char) (hc : p.head? = some c) : s.head? = some c := by
  obtain ⟨t, rfl⟩ := h
  cases p with
  | nil => cases hc
  | cons d p => simpa using hc

theorem row_some (vars : List (Var F)) (i nn : Nat) (hi : i < nn) (hvl : ∀ v ∈ vars, v.values.length = nn) :
    (vars.filterMap fun v => v.values[i]?).map some = vars.map fun v => v.values[i]? := by
  induction vars with
  | nil => rfl
  | cons v vars ih =>
    have := hvl v (by simp)
    have : v.values[i]? = some v.values[i] := List.getElem?_eq_getElem (by omega)
    rw [List.filterMap_cons, this]
    simp only [List.map_cons, this]
    rw [ih (fun w hw => hvl w (by simp [hw]))]

theorem ones_sum {α : Type} (l : List α) : (l.map fun _ => 1).sum = l.length := by
  induction l with
  | nil => rfl
  | cons a l ih =>
    rw [List.map_cons, List.sum_cons, ih, List.length_cons]
    omega

theorem read_file (io : TecIO F) (f : File) (ls : List (List Char)) (hls : ls.filter (fun l => decide (¬ Comment l)) = f.lines)
    (hnl : ∀ l ∈ ls, '\n' ∉ l) (names : List VName) (r : Record) (nn nc : Nat) (block : Bool) (type : List Char) (vars : List (Var F))
    (rows : List (List Int)) (hf : f.Says io names r nn nc block type vars rows) (hnd : (vars.map (·.name)).Nodup)
    (points : List (List F)) (used : List String) (hp : Points vars points used) (t : String) (ht : typeOf type = some t) :
    read io (linesText ls) = .ok ⟨points, t, rows, pointData vars used, cellData vars⟩ := by
  have hnames : (names.map VName.name).map String.ofList = vars.map (·.name) := by
    rw [hf.h_vars, List.map_map]
    apply List.map_congr_left
    intro v _
    simp only [Function.comp, String.ofList_toList]
  obtain ⟨vx, hx1, hx2, hx3, hx4⟩ := hp.h_x
  obtain ⟨vy, hy1, hy2, hy3, hy4⟩ := hp.h_y
  obtain ⟨hnc, hnc0, hnn0⟩ := hf.h_nc
  have hX : "X" ∈ vars.map (·.name) ∨ "x" ∈ vars.map (·.name) := by
    rcases coordinate_mem vars "X" "x" with h | h
    · left; rw [← h, ← hx3]; exact List.mem_map.mpr ⟨vx, hx1, rfl⟩
    · right; rw [← h, ← hx3]; exact List.mem_map.mpr ⟨vx, hx1, rfl⟩
  have hY : "Y" ∈ vars.map (·.name) ∨ "y" ∈ vars.map (·.name) := by
    rcases coordinate_mem vars "Y" "y" with h | h
    · left; rw [← h, ← hy3]; exact List.mem_map.mpr ⟨vy, hy1, rfl⟩
    · right; rw [← h, ← hy3]; exact List.mem_map.mpr ⟨vy, hy1, rfl⟩
  unfold read
  rw [inLines_linesText _ hnl, hls]
  obtain ⟨nl, nls, hn1, hn2, hn3⟩ := hf.h_first
  obtain ⟨zl, zls, hz1, hz2, hz3⟩ := hf.h_zone
  obtain ⟨dl, dls, dt, dts, hd1, hd2, hd3⟩ := hf.h_data
  have hlines : f.lines.map strip = f.before.map strip ++ strip nl :: (nls.map strip ++ strip zl :: (zls.map strip ++ strip dl ::
      (dls.map strip ++ (f.cells.map strip ++ f.after.map strip)))) := by
    unfold File.lines
    rw [hn1, hz1, hd1]
    simp
  have hlen : ∃ m, (f.lines.map strip).length + 1 = (m + 2) + (f.before.map strip).length := by
    refine ⟨(f.lines.map strip).length - (f.before.map strip).length - 1, ?_⟩
    rw [hlines]
    simp
    omega
  obtain ⟨m, hm⟩ := hlen
  rw [hm, hlines, loop_before io _ _ _ _ (by
    intro l hl
    obtain ⟨k, hk, rfl⟩ := List.mem_map.mp hl
    exact hf.h_before k hk)]
  have hzh : (upper (strip zl)).head? = some 'Z' := prefix_head hz2 'Z' (by decide +kernel)
  rw [loop, if_pos (by rw [List.isPrefixOf_iff_prefix]; exact hn2)]
  rw [quotedLines_run (nls.map strip) (by
    intro k hk
    obtain ⟨k', hk', rfl⟩ := List.mem_map.mp hk
    exact hn3 k' hk') (strip zl) _ (by rw [hzh]; decide)]
  simp only
  obtain ⟨kw, rest, hj, hkw, hrest, hsw⟩ := hf.h_names
  have hvars : readVariables (joinWith ' ' (strip nl :: (nls.map strip).map upper)) = .ok (vars.map (·.name)) := by
    rw [← hnames]
    apply readVariables_ok _ kw rest names _ hkw hrest hsw hf.h_vnames (by rw [hnames]; exact hX) (by rw [hnames]; exact hY)
    rw [← hj, hn1]
    unfold joined
    rw [List.map_map]
    rfl
  rw [hvars]
  simp only
  rw [loop, if_neg (by
    rw [List.isPrefixOf_iff_prefix]
    intro h
    have := prefix_head h 'V' (by decide +kernel)
    rw [hzh] at this
    cases this), if_pos (by rw [List.isPrefixOf_iff_prefix]; exact hz2)]
  unfold readZoneAll
  rw [infoLines_run _ (zls.map strip) (by
    intro k hk
    obtain ⟨k', hk', rfl⟩ := List.mem_map.mp hk
    obtain ⟨t, ts, h1, h2⟩ := hz3 k' hk'
    exact ⟨t, ts, h1, by rw [h2]; rfl⟩) (strip dl) _ ⟨dt, dts, hd2, hd3⟩]
  simp only
  obtain ⟨z, hrz, g1, g2, g3⟩ := readZone_ok r hf.h_ok
  have hzj : joinWith ' ' (strip zl :: (zls.map strip).map upper) = "ZONE ".toList ++ r.text := by
    rw [← hf.h_record, hz1]
    unfold joined
    rw [List.map_map]
    rfl
  rw [hzj, hrz]
  simp only
  have hpf := parseFezone_ok r hf.h_ok z g1 g2 g3 hf.h_says
  rw [List.length_map] at hpf
  rw [List.length_map, hpf]
  simp only
  have hcellrows : Rows parseInt (f.cells.map strip) (rows.map fun r => r.map (· + 1)) := by
    apply rows_strip
    unfold Rows
    rw [hf.h_rows, List.map_map]
    apply List.map_congr_left
    intro r _
    simp
  have hdata : ∃ data bl, (∀ b ∈ bl, splitWs b = []) ∧ arrays ⟨nn, nc, block, type, vars.map (·.cell)⟩ data = .ok (vars.map (·.values)) ∧
      takeRows io.parse (fun k => if block then k else 1)
        (if block then ((vars.map (·.cell)).map fun c => if c then (nc : Int) else (nn : Int)).sum else (nn : Int))
        (strip dl :: (dls.map strip ++ (f.cells.map strip ++ f.after.map strip))) 0 = .ok (data, bl ++ (f.cells.map strip ++ f.after.map strip)) := by
    have hdm : strip dl :: (dls.map strip ++ (f.cells.map strip ++ f.after.map strip)) = f.data.map strip ++ (f.cells.map strip ++ f.after.map strip) := by
      rw [hd1]
      simp
    rw [hdm]
    cases hb : block with
    | true =>
      subst hb
      obtain ⟨data, e1, e2⟩ := rows_of_flat io.parse f.data _ (hf.h_block rfl)
      simp only [if_true]
      rw [sum_lengths vars nn nc hf.h_values]
      obtain ⟨bl, b1, b2⟩ := takeRows_ok io.parse (fun k => k) (fun k h => h) (f.data.map strip) (f.cells.map strip ++ f.after.map strip) data
        (rows_strip _ _ _ e1) 0 (vars.flatMap (·.values)).length (by
          rw [Nat.zero_add, ← e2, List.length_flatten])
      refine ⟨data, bl, b1, ?_, b2⟩
      apply arrays_block vars nn nc type data e2 hf.h_values
      refine ⟨vx, hx1, ?_⟩
      have := hf.h_values vx hx1
      rw [hx2] at this
      simp only [Bool.false_eq_true, if_false] at this
      intro he
      rw [he] at this
      simp at this
      omega
    | false =>
      subst hb
      simp only [Bool.false_eq_true, if_false]
      have hp := hf.h_point rfl
      have hall : ∀ v ∈ vars, v.cell = false := by
        intro v hv
        obtain ⟨j, hj⟩ := List.getElem?_of_mem hv
        have := hf.h_says.h_flags j v.cell (by rw [List.getElem?_map, hj]; rfl)
        cases hc : v.cell with
        | false => rfl
        | true =>
          rw [hc] at this
          have h := this.mp rfl
          unfold Record.centered at h
          cases h.1
      have hvl : ∀ v ∈ vars, v.values.length = nn := by
        intro v hv
        have := hf.h_values v hv
        rw [hall v hv] at this
        simpa using this
      have hex : ∃ data : List (List F), (data.map fun r => r.map some) = (List.range nn).map fun i => vars.map fun v => v.values[i]? := by
        refine ⟨(List.range nn).map fun i => vars.filterMap fun v => v.values[i]?, ?_⟩
        rw [List.map_map]
        apply List.map_congr_left
        intro i hi
        rw [List.mem_range] at hi
        simp only [Function.comp]
        exact row_some vars i nn hi hvl
      obtain ⟨data, he⟩ := hex
      have hrow : Rows io.parse f.data data := by
        unfold Rows
        rw [hp, he]
      obtain ⟨bl, b1, b2⟩ := takeRows_ok io.parse (fun _ => 1) (fun _ _ => by decide) (f.data.map strip) (f.cells.map strip ++ f.after.map strip) data
        (rows_strip _ _ _ hrow) 0 nn (by
          have := congrArg List.length he
          simp only [List.length_map, List.length_range] at this
          rw [Nat.zero_add, ones_sum, this])
      exact ⟨data, bl, b1, arrays_point vars nn nc type _ data hnn0 he hvl, b2⟩
  obtain ⟨data, bl, b1, b2, b3⟩ := hdata
  rw [b3]
  simp only
  rw [takeRows_blank _ _ _ _ b1 _ _ hnc0]
  obtain ⟨bl2, _, c2⟩ := takeRows_ok parseInt (fun _ => 1) (fun _ _ => by decide) (f.cells.map strip) (f.after.map strip) _ hcellrows 0 nc (by
    rw [Nat.zero_add, ones_sum, List.length_map, hnc])
  rw [c2]
  simp only
  rw [if_neg, b2]
  · simp only
    have hzip : (vars.map (·.name)).zip (vars.map (·.values)) = vars.map fun v => (v.name, v.values) := by
      rw [List.zip_map']
    have hzip2 : (vars.map (·.cell)).zip (vars.map (·.name)) = vars.map fun v => (v.cell, v.name) := by
      rw [List.zip_map']
    rw [hzip, hzip2, foldl_set_new _ [] (by
      rw [List.map_map]
      exact hnd), List.nil_append]
    have hsp : split (vars.map fun v => (v.name, v.values)) (vars.map fun v => (v.cell, v.name)) = .ok ([] ++ allPoint vars, [] ++ cellData vars) :=
      split_ok vars vars hnd (fun _ h => h) hnd [] [] (by simp) (by simp)
    rw [hsp]
    simp only [List.nil_append]
    have hback : (rows.map fun r => r.map (· + 1)).map (fun r => r.map (· - 1)) = rows := by
      rw [List.map_map]
      have : rows.map ((fun r : List Int => r.map (· - 1)) ∘ fun r => r.map (· + 1)) = rows.map id := by
        apply List.map_congr_left
        intro r _
        simp only [Function.comp, List.map_map, id]
        have : r.map ((fun x : Int => x - 1) ∘ fun x => x + 1) = r.map id := by
          apply List.map_congr_left
          intro x _
          simp only [Function.comp, id]
          omega
        rw [this, List.map_id]
      rw [this, List.map_id]
    rw [hback]
    exact mesh_ok vars points used hp hnd type t ht rows nn (by rw [hnc]; exact hf.h_values)
  · rintro (h | h)
    · rw [List.map_eq_nil_iff] at h
      rw [h] at hnc
      simp at hnc
      omega
    · obtain ⟨k, hk⟩ := hf.h_width
      unfold rectangular at h
      rw [← Bool.not_eq_true, List.all_eq_true] at h
      apply h
      intro r hr
      obtain ⟨r', hr', rfl⟩ := List.mem_map.mp hr
      cases rows with
      | nil => cases hr'
      | cons r0 rows =>
        simp [hk r' hr', hk r0 (by simp)]

end Tecplot
end Meshio
