/-
Dictionaries from the numbers in a file to positions: `{int(id): i for i, id in enumerate(ids)}`.
-/
import Verif.Base.Err
namespace Meshio

/-- `{id: i for i, id in enumerate(ids)}.get(k)`: the last position wins. -/
def idPos (ids : List Int) (k : Int) : Option Nat := (ids.zipIdx.reverse).lookup k

/-- `d[k]` -/
def idGet (ids : List Int) (k : Int) : Res Nat :=
  match idPos ids k with
  | some i => .ok i
  | none => .error .keyError

theorem lookup_of_mem_nodup {κ β : Type} [BEq κ] [LawfulBEq κ] (l : List (κ × β)) (k : κ) (b : β) (hm : (k, b) ∈ l)
    (hn : (l.map (·.1)).Nodup) : l.lookup k = some b := by
  induction l with
  | nil => simp at hm
  | cons p l ih =>
    rw [List.map_cons, List.nodup_cons] at hn
    rw [List.lookup_cons]
    rcases List.mem_cons.1 hm with e | h
    · subst e; simp
    · have : (k == p.1) = false := by
        rw [beq_eq_false_iff_ne]
        intro e
        exact hn.1 (List.mem_map.2 ⟨(k, b), h, e⟩)
      rw [this]
      exact ih h hn.2

/-- Distinct numbers lead to their own positions. -/
theorem idPos_getElem (ids : List Int) (hn : ids.Nodup) (i : Nat) (hi : i < ids.length) : idPos ids ids[i] = some i := by
  unfold idPos
  apply lookup_of_mem_nodup
  · rw [List.mem_reverse, List.mem_zipIdx_iff_getElem?]
    simp [hi]
  · rw [List.map_reverse]
    rw [List.nodup_iff_pairwise_ne, List.pairwise_reverse]
    have : ids.zipIdx.map (·.1) = ids := by simp
    rw [this]
    exact hn.imp fun h e => h e.symm

theorem idGet_getElem (ids : List Int) (hn : ids.Nodup) (i : Nat) (hi : i < ids.length) : idGet ids ids[i] = .ok i := by
  unfold idGet
  rw [idPos_getElem ids hn i hi]

/-- A number that does not occur is a KeyError. -/
theorem idGet_not_mem (ids : List Int) (k : Int) (h : k ∉ ids) : idGet ids k = .error .keyError := by
  unfold idGet idPos
  have : (ids.zipIdx.reverse).lookup k = none := by
    rw [List.lookup_eq_none_iff]
    intro p hp
    rw [List.mem_reverse] at hp
    have := List.fst_mem_of_mem_zipIdx hp
    simp only [bne_iff_ne, ne_eq]
    intro e
    exact h (e ▸ this)
  rw [this]

/-- What is found is a position of that number. -/
theorem idGet_sound (ids : List Int) (k : Int) (i : Nat) (h : idGet ids k = .ok i) : ids[i]? = some k := by
  unfold idGet at h
  cases hj : idPos ids k with
  | none => rw [hj] at h; cases h
  | some j =>
    rw [hj] at h
    cases h
    unfold idPos at hj
    have : (k, i) ∈ ids.zipIdx.reverse := by
      generalize ids.zipIdx.reverse = l at hj
      induction l with
      | nil => simp at hj
      | cons p l ih =>
        rw [List.lookup_cons] at hj
        split at hj
        · next e =>
          cases hj
          have : k = p.1 := by simpa using e
          rw [this]
          exact List.mem_cons_self
        · exact List.mem_cons_of_mem _ (ih hj)
    rw [List.mem_reverse, List.mem_zipIdx_iff_getElem?] at this
    exact this

/-- Consecutive numbers from `s`. -/
def numbersFrom (s : Int) (n : Nat) : List Int := (List.range n).map fun (i : Nat) => s + (i : Int)

theorem numbersFrom_nodup (s : Int) (n : Nat) : (numbersFrom s n).Nodup := by
  unfold numbersFrom
  rw [List.nodup_iff_pairwise_ne, List.pairwise_map]
  exact (List.nodup_range (n := n)).imp fun h e => h (by omega)

theorem length_numbersFrom (s : Int) (n : Nat) : (numbersFrom s n).length = n := by simp [numbersFrom]

theorem idGet_numbersFrom (s : Int) (n : Nat) (i : Nat) (hi : i < n) : idGet (numbersFrom s n) (s + i) = .ok i := by
  have hl : i < (numbersFrom s n).length := by rw [length_numbersFrom]; exact hi
  have := idGet_getElem _ (numbersFrom_nodup s n) i hl
  simpa [numbersFrom] using this

end Meshio
