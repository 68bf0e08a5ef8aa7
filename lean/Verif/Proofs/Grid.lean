/-
Lemmas for structured grids.
-/
import Verif.Model.VtkLegacy
import Verif.Spec.Grid
import Verif.Base.ListX
import Mathlib.Tactic.Ring
namespace Meshio.Vtk
open Meshio Meshio.Spec

/-- Cut a range into rows. -/
theorem range_mul {α : Type} (m n : Nat) (f : Nat → α) :
    (List.range (m * n)).map f =
      (List.range n).flatMap (fun j => (List.range m).map (fun i => f (i + m * j))) := by
  induction n with
  | zero => simp
  | succ n ih =>
    rw [Nat.mul_succ, List.range_add, List.map_append, ih, List.range_succ, List.flatMap_append]
    congr 1
    simp only [List.flatMap_cons, List.flatMap_nil, List.append_nil, List.map_map]
    apply List.map_congr_left
    intro i _
    simp [Nat.add_comm]

theorem div_row {i m j : Nat} (h : i < m) : (i + m * j) / m = j := by
  rw [Nat.add_mul_div_left _ _ (by omega), Nat.div_eq_of_lt h, Nat.zero_add]

theorem mod_row {i m j : Nat} (h : i < m) : (i + m * j) % m = i := by
  rw [Nat.add_mul_mod_self_left, Nat.mod_eq_of_lt h]

theorem generate_line (e : Nat) :
    (List.range e).map (fun i => [2, i, i + 1]) =
      (gridCells [(e + 1, 1)]).map (fun r => 2 :: r) := by
  simp [gridCells]

theorem generate_quad (e0 e1 s : Nat) (hs : s = e0 + 1) :
    (List.range (e0 * e1)).map (fun i =>
        let a := i + i / e0
        [4, a, a + 1, a + 2 + e0, a + 2 + e0 - 1]) =
      (gridCells [(e0 + 1, 1), (e1 + 1, s)]).map (fun r => 4 :: r) := by
  rw [range_mul]
  simp only [gridCells, Nat.add_sub_cancel, List.map_flatMap, List.map_map]
  apply flatMap_congr'
  intro j hj
  apply List.map_congr_left
  intro i hi
  rw [List.mem_range] at hi hj
  have h1 := div_row (j := j) hi
  simp only [Function.comp_def, h1, hs]
  have e : i + e0 * j + j = i * 1 + j * (e0 + 1) := by ring
  rw [e]
  simp only [List.cons.injEq, true_and, and_true]
  generalize i * 1 + j * (e0 + 1) = b
  omega

theorem generate_hex (e0 e1 e2 s s' : Nat) (hs : s = e0 + 1) (hs' : s' = (e0 + 1) * (e1 + 1)) :
    (List.range (e0 * e1 * e2)).map (fun i =>
        let a := i + (e0 + e1 + 1) * (i / (e0 * e1)) + (i % (e0 * e1)) / e0
        let b := a + (1 + e0) * (1 + e1)
        [8, a, a + 1, a + 2 + e0, a + 2 + e0 - 1, b, b + 1, b + 2 + e0, b + 2 + e0 - 1]) =
      (gridCells [(e0 + 1, 1), (e1 + 1, s), (e2 + 1, s')]).map (fun r => 8 :: r) := by
  rw [range_mul]
  simp only [gridCells, Nat.add_sub_cancel, List.map_flatMap, List.map_map]
  apply flatMap_congr'
  intro k hk
  rw [range_mul]
  apply flatMap_congr'
  intro j hj
  apply List.map_congr_left
  intro i hi
  rw [List.mem_range] at hi hj hk
  have hlt : i + e0 * j < e0 * e1 := by
    calc i + e0 * j < e0 + e0 * j := by omega
      _ = e0 * (j + 1) := by ring
      _ ≤ e0 * e1 := Nat.mul_le_mul_left _ (by omega)
  have h1 := div_row (j := k) hlt
  have h2 := mod_row (j := k) hlt
  have h3 := div_row (j := j) hi
  simp only [Function.comp_def, h1, h2, h3, hs, hs']
  have e : i + e0 * j + e0 * e1 * k + (e0 + e1 + 1) * k + j =
      i * 1 + j * (e0 + 1) + k * ((e0 + 1) * (e1 + 1)) := by ring
  have e' : (1 + e0) * (1 + e1) = (e0 + 1) * (e1 + 1) := by ring
  rw [e, e']
  generalize i * 1 + j * (e0 + 1) + k * ((e0 + 1) * (e1 + 1)) = b
  generalize (e0 + 1) * (e1 + 1) = c
  simp only [List.cons.injEq, true_and, and_true]
  omega

theorem length_gridCells1 (d s : Nat) : (gridCells [(d, s)]).length = d - 1 := by simp [gridCells]

theorem length_gridCells2 (d s d' s' : Nat) :
    (gridCells [(d, s), (d', s')]).length = (d - 1) * (d' - 1) := by
  simp [gridCells, List.length_flatMap, List.map_const', Nat.mul_comm]

theorem length_gridCells3 (d s d' s' d'' s'' : Nat) :
    (gridCells [(d, s), (d', s'), (d'', s'')]).length = (d - 1) * (d' - 1) * (d'' - 1) := by
  simp [gridCells, List.length_flatMap, List.map_const']; ring

theorem generatePoints_ok {F : Type} (ax ay az : List F) :
    generatePoints ax ay az = .ok (gridPoints ax ay az) := by
  unfold generatePoints
  by_cases h0 : ax.length = 0 ∨ ay.length = 0
  · have : ax.length * ay.length * az.length = 0 := by
      rcases h0 with h | h <;> simp [h]
    rw [this]
    simp only [List.range_zero, mapRes]
    unfold gridPoints
    congr 1
    symm
    rcases h0 with h | h
    · have := List.length_eq_zero_iff.mp h
      subst this; simp
    · have := List.length_eq_zero_iff.mp h
      subst this; simp
  · simp only [not_or] at h0
    have hx : 0 < ax.length := by omega
    have hy : 0 < ay.length := by omega
    let d := ax[0]
    have hall : ∀ p ∈ List.range (ax.length * ay.length * az.length),
        gridPoint ax ay az p =
        .ok [ax[p % ax.length]?.getD d, ay[p / ax.length % ay.length]?.getD d,
          az[p / ax.length / ay.length]?.getD d] := by
      intro p hp
      rw [List.mem_range] at hp
      have h1 : p % ax.length < ax.length := Nat.mod_lt _ hx
      have h2 : p / ax.length % ay.length < ay.length := Nat.mod_lt _ hy
      have h3 : p / ax.length / ay.length < az.length := by
        rw [Nat.div_div_eq_div_mul]
        exact Nat.div_lt_of_lt_mul hp
      simp only [gridPoint, mgridF, List.getElem?_eq_getElem h1, List.getElem?_eq_getElem h2,
        List.getElem?_eq_getElem h3, Option.getD_some]
    rw [mapRes_ok_of_forall hall, range_mul]
    have hself : ∀ (l : List F) (β : Type) (f : F → List β),
        l.flatMap f = (List.range l.length).flatMap (fun i => f (l[i]?.getD d)) := by
      intro l β f
      have : l = (List.range l.length).map (fun i => l[i]?.getD d) := by
        apply List.ext_getElem
        · simp
        · intro i h1 h2; simp [List.getElem?_eq_getElem h1]
      conv => lhs; rw [this]
      rw [List.flatMap_map]
    have hselfm : ∀ (l : List F) (β : Type) (f : F → β),
        l.map f = (List.range l.length).map (fun i => f (l[i]?.getD d)) := by
      intro l β f
      apply List.ext_getElem
      · simp
      · intro i h1 h2
        simp only [List.length_map] at h1
        simp [List.getElem?_eq_getElem h1]
    unfold gridPoints
    rw [hself az]
    congr 1
    apply flatMap_congr'
    intro k hk
    rw [range_mul, hself ay]
    apply flatMap_congr'
    intro j hj
    rw [hselfm ax]
    apply List.map_congr_left
    intro i hi
    rw [List.mem_range] at hi hj hk
    have hlt : i + ax.length * j < ax.length * ay.length := by
      calc i + ax.length * j < ax.length + ax.length * j := by omega
        _ = ax.length * (j + 1) := by ring
        _ ≤ ax.length * ay.length := Nat.mul_le_mul_left _ (by omega)
    have e : i + ax.length * j + ax.length * ay.length * k = i + ax.length * (j + ay.length * k) := by
      ring
    rw [e, mod_row hi, div_row hi, mod_row hj, div_row hj]

end Meshio.Vtk

namespace Meshio.Vtk
open Meshio Meshio.Spec

theorem gridCells_bound1 {d s : Nat} {r : List Nat} (hr : r ∈ gridCells [(d, s)]) {p : Nat}
    (hp : p ∈ r) : p ≤ (d - 1) * s := by
  simp only [gridCells, List.mem_map, List.mem_range] at hr
  obtain ⟨i, hi, rfl⟩ := hr
  have h1 : (i + 1) * s ≤ (d - 1) * s := Nat.mul_le_mul_right _ hi
  rw [Nat.add_mul, Nat.one_mul] at h1
  simp only [List.mem_cons, List.not_mem_nil, or_false] at hp
  omega

theorem gridCells_bound2 {d s d' s' : Nat} {r : List Nat} (hr : r ∈ gridCells [(d, s), (d', s')])
    {p : Nat} (hp : p ∈ r) : p ≤ (d - 1) * s + (d' - 1) * s' := by
  simp only [gridCells, List.mem_flatMap, List.mem_map, List.mem_range] at hr
  obtain ⟨j, hj, i, hi, rfl⟩ := hr
  have h1 : (i + 1) * s ≤ (d - 1) * s := Nat.mul_le_mul_right _ hi
  have h2 : (j + 1) * s' ≤ (d' - 1) * s' := Nat.mul_le_mul_right _ hj
  rw [Nat.add_mul, Nat.one_mul] at h1 h2
  simp only [List.mem_cons, List.not_mem_nil, or_false] at hp
  omega

theorem gridCells_bound3 {d s d' s' d'' s'' : Nat} {r : List Nat}
    (hr : r ∈ gridCells [(d, s), (d', s'), (d'', s'')]) {p : Nat} (hp : p ∈ r) :
    p ≤ (d - 1) * s + (d' - 1) * s' + (d'' - 1) * s'' := by
  simp only [gridCells, List.mem_flatMap, List.mem_map, List.mem_range] at hr
  obtain ⟨k, hk, j, hj, i, hi, rfl⟩ := hr
  have h1 : (i + 1) * s ≤ (d - 1) * s := Nat.mul_le_mul_right _ hi
  have h2 : (j + 1) * s' ≤ (d' - 1) * s' := Nat.mul_le_mul_right _ hj
  have h3 : (k + 1) * s'' ≤ (d'' - 1) * s'' := Nat.mul_le_mul_right _ hk
  rw [Nat.add_mul, Nat.one_mul] at h1 h2 h3
  simp only [List.mem_cons, List.not_mem_nil, or_false] at hp
  omega

/-- A list given by an injective function on a range has no duplicates. -/
theorem nodup_map_range {α : Type} (n : Nat) (f : Nat → α)
    (h : ∀ a < n, ∀ b < n, f a = f b → a = b) : ((List.range n).map f).Nodup := by
  induction n with
  | zero => simp
  | succ n ih =>
    rw [List.range_succ, List.map_append, List.nodup_append]
    refine ⟨ih (fun a ha b hb => h a (by omega) b (by omega)), by simp, ?_⟩
    intro a ha b hb e
    simp only [List.map_cons, List.map_nil, List.mem_cons, List.not_mem_nil, or_false] at hb
    obtain ⟨i, hi, rfl⟩ := List.mem_map.mp ha
    rw [List.mem_range] at hi
    have := h i (by omega) n (by omega) (by rw [e, hb])
    omega

theorem flatMap_range_map {α : Type} (m n : Nat) (f : Nat → Nat → α) :
    (List.range n).flatMap (fun j => (List.range m).map (fun i => f i j)) =
      (List.range (m * n)).map (fun p => f (p % m) (p / m)) := by
  rw [range_mul]
  apply flatMap_congr'
  intro j _
  apply List.map_congr_left
  intro i hi
  rw [List.mem_range] at hi
  rw [mod_row hi, div_row hi]

theorem gridCells_nodup1 (d s : Nat) (hs : 0 < s) : (gridCells [(d, s)]).Nodup := by
  unfold gridCells
  apply nodup_map_range
  intro a _ b _ h
  simp only [List.cons.injEq] at h
  exact Nat.eq_of_mul_eq_mul_right hs h.1

theorem mixed2 {s s' d i j i' j' : Nat} (hs : 0 < s) (hs' : s' = d * s) (hi : i < d) (hi' : i' < d)
    (h : i * s + j * s' = i' * s + j' * s') : i = i' ∧ j = j' := by
  subst hs'
  have e1 : i * s + j * (d * s) = (i + d * j) * s := by ring
  have e2 : i' * s + j' * (d * s) = (i' + d * j') * s := by ring
  rw [e1, e2] at h
  have h := Nat.eq_of_mul_eq_mul_right hs h
  have h1 : i = i' := by
    have := congrArg (· % d) h
    simp only [mod_row hi, mod_row hi'] at this
    exact this
  have h2 : j = j' := by
    have := congrArg (· / d) h
    simp only [div_row hi, div_row hi'] at this
    exact this
  exact ⟨h1, h2⟩

theorem gridCells_nodup2 (d s d' s' : Nat) (hs : 0 < s) (hs' : s' = d * s) (hd : 1 < d) :
    (gridCells [(d, s), (d', s')]).Nodup := by
  have e := flatMap_range_map (d - 1) (d' - 1) (fun i j =>
    [i * s + j * s', i * s + j * s' + s, i * s + j * s' + s + s', i * s + j * s' + s'])
  have e' : gridCells [(d, s), (d', s')] = _ := e
  rw [e']
  apply nodup_map_range
  intro a ha b hb h
  simp only [List.cons.injEq] at h
  have ha' : a % (d - 1) < d - 1 := Nat.mod_lt _ (by omega)
  have hb' : b % (d - 1) < d - 1 := Nat.mod_lt _ (by omega)
  obtain ⟨h1, h2⟩ := mixed2 hs hs' (by omega) (by omega) h.1
  rw [← Nat.div_add_mod a (d - 1), ← Nat.div_add_mod b (d - 1), h1, h2]

theorem flatMap_range_map3 {α : Type} (l m n : Nat) (f : Nat → Nat → Nat → α) :
    (List.range n).flatMap (fun k => (List.range m).flatMap (fun j =>
      (List.range l).map (fun i => f i j k))) =
      (List.range (l * m * n)).map (fun p => f (p % (l * m) % l) (p % (l * m) / l) (p / (l * m))) := by
  rw [← flatMap_range_map (l * m) n (fun q k => f (q % l) (q / l) k)]
  apply flatMap_congr'
  intro k _
  exact flatMap_range_map l m (fun i j => f i j k)

theorem gridCells_nodup3 (d s d' s' d'' s'' : Nat) (hs : 0 < s) (hs' : s' = d * s)
    (hs'' : s'' = d' * s') (hd : 1 < d) (hd' : 1 < d') :
    (gridCells [(d, s), (d', s'), (d'', s'')]).Nodup := by
  have e := flatMap_range_map3 (d - 1) (d' - 1) (d'' - 1) (fun i j k =>
    (fun b => [b, b + s, b + s + s', b + s', b + s'', b + s + s'', b + s + s' + s'', b + s' + s''])
      (i * s + j * s' + k * s''))
  have e' : gridCells [(d, s), (d', s'), (d'', s'')] = _ := e
  rw [e']
  apply nodup_map_range
  intro a ha b hb h
  simp only [List.cons.injEq] at h
  have hpos : 0 < (d - 1) * (d' - 1) := Nat.mul_pos (by omega) (by omega)
  generalize hqa : a % ((d - 1) * (d' - 1)) = qa at h
  generalize hqb : b % ((d - 1) * (d' - 1)) = qb at h
  have hqa' : qa < (d - 1) * (d' - 1) := by rw [← hqa]; exact Nat.mod_lt _ hpos
  have hqb' : qb < (d - 1) * (d' - 1) := by rw [← hqb]; exact Nat.mod_lt _ hpos
  have hja : qa / (d - 1) < d' - 1 := Nat.div_lt_of_lt_mul hqa'
  have hjb : qb / (d - 1) < d' - 1 := Nat.div_lt_of_lt_mul hqb'
  have hia : qa % (d - 1) < d - 1 := Nat.mod_lt _ (by omega)
  have hib : qb % (d - 1) < d - 1 := Nat.mod_lt _ (by omega)
  have h0 : (qa % (d - 1) + d * (qa / (d - 1))) * s + a / ((d - 1) * (d' - 1)) * s'' =
      (qb % (d - 1) + d * (qb / (d - 1))) * s + b / ((d - 1) * (d' - 1)) * s'' := by
    have h1 := h.1
    rw [hs'] at h1
    rw [Nat.add_mul, Nat.add_mul]
    have e1 : d * (qa / (d - 1)) * s = qa / (d - 1) * (d * s) := by ring
    have e2 : d * (qb / (d - 1)) * s = qb / (d - 1) * (d * s) := by ring
    rw [e1, e2]
    exact h1
  have hlt : ∀ i j, i < d - 1 → j < d' - 1 → i + d * j < d * d' := by
    intro i j hi hj
    calc i + d * j < d + d * j := by omega
      _ = d * (j + 1) := by ring
      _ ≤ d * d' := Nat.mul_le_mul_left _ (by omega)
  obtain ⟨h1, h2⟩ := mixed2 (d := d * d') hs (by rw [hs'', hs']; ring) (hlt _ _ hia hja)
    (hlt _ _ hib hjb) h0
  have h3 : qa % (d - 1) = qb % (d - 1) := by
    have := congrArg (· % d) h1
    simp only [mod_row (show qa % (d - 1) < d by omega), mod_row (show qb % (d - 1) < d by omega)] at this
    exact this
  have h4 : qa / (d - 1) = qb / (d - 1) := by
    have := congrArg (· / d) h1
    simp only [div_row (show qa % (d - 1) < d by omega), div_row (show qb % (d - 1) < d by omega)] at this
    exact this
  have h5 : qa = qb := by
    rw [← Nat.div_add_mod qa (d - 1), ← Nat.div_add_mod qb (d - 1), h3, h4]
  rw [← Nat.div_add_mod a ((d - 1) * (d' - 1)), ← Nat.div_add_mod b ((d - 1) * (d' - 1)), h2, hqa,
    hqb, h5]

end Meshio.Vtk
