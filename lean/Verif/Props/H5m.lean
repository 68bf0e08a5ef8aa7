/-
C73: H5M files.
-/
import Verif.Proofs.H5m
namespace Meshio.Props
open Meshio Meshio.Spec Meshio.H5m Types

variable {F : Type}

/-- The file of a mesh that H5M can hold: the points, the point data and numbers of the points as tags, which are all declared as dense (class 2),
and one group for each line, triangle and tetrahedron block with MOAB's number of the type and nodes counted from 1.  Points and cells are numbered
from 1 without gaps, block after block, and `max_id` is the number after the last one. -/
theorem C73_file (ids : Bool) (m : H5m.In F) (h : H5mMesh m) :
    ∃ f, H5m.write ids m = .ok f ∧ f.coordinates = m.points ∧
      Contiguous 1 ((f.startId, m.points.length) :: f.elements.map fun e => (e.2.startId, e.2.connectivity.length)) f.maxId ∧
      f.tags.getD [] = h5mTags ids m ∧ f.globalTags = (h5mTags ids m).map (fun e => (e.1, 2)) ∧
      f.elements.length = (h5mKept m.cells).length ∧
      ∀ b ∈ m.cells, ∀ k ∈ h5mWritten, b.1 = k.1 → ∃ start, (k.2.1.toList, (⟨k.2.2, b.2.map fun r => r.map (· + 1), start⟩ : Elem)) ∈ f.elements := by
  refine ⟨_, write_eq ids m h, rfl, ⟨rfl, elemsOf_contiguous _ _⟩, ?_, rfl, ?_, ?_⟩
  · show Option.getD (if h5mTags ids m = [] then none else some (h5mTags ids m)) [] = _
    split
    · rename_i h; rw [h]; rfl
    · rfl
  · show (elemsOf _ m.cells).length = _
    rw [← (kept_perm m.cells).length_eq]
    have := congrArg List.length (elemsOf_names (1 + m.points.length) m.cells)
    simpa only [List.length_map] using this
  · show ∀ b ∈ m.cells, ∀ k ∈ h5mWritten, b.1 = k.1 → ∃ start, (k.2.1.toList, (⟨k.2.2, b.2.map fun r => r.map (· + 1), start⟩ : Elem)) ∈
      elemsOf (1 + m.points.length) m.cells
    generalize 1 + m.points.length = next
    generalize m.cells = l
    induction l generalizing next with
    | nil => simp
    | cons c l ih =>
      intro b hb k hk e
      unfold elemsOf
      rcases List.mem_cons.mp hb with rfl | hb
      · have hkk : kind k.1 = true ∧ nameOf k.1 = k.2.1.toList ∧ numOf k.1 = k.2.2 :=
          (by decide : ∀ k ∈ h5mWritten, kind k.1 = true ∧ nameOf k.1 = k.2.1.toList ∧ numOf k.1 = k.2.2) k hk
        rw [e, hkk.1, if_pos rfl, hkk.2.1, hkk.2.2]
        exact ⟨next, by simp⟩
      · split
        · obtain ⟨s, hs⟩ := ih (next + c.2.length) b hb k hk e
          exact ⟨s, by simp [hs]⟩
        · exact ih next b hb k hk e

/-- Everything that is written comes back: the points, the blocks that are written and the point data. -/
def C73_roundtrip_statement : Prop :=
  ∀ (ids : Bool) (m : H5m.In Int), H5mMesh m → ∃ f, H5m.write ids m = .ok f ∧
    H5m.read f = .ok ⟨m.points, m.cells.filter fun b => b.1 ∈ ["line", "triangle", "tetra"], m.pointData⟩

/-- False: blocks come back in the order of the names of the groups, and numbers of the points are added. -/
theorem C73_roundtrip_false : ¬ C73_roundtrip_statement := by
  intro h
  obtain ⟨f, h1, h2⟩ := h false ⟨[[0, 0]], [("triangle", [[0, 0, 0]]), ("line", [[0, 0]])], [], []⟩
    ⟨by decide, by simp, by simp, by simp, by simp⟩
  rw [show H5m.write false (⟨[[0, 0]], [("triangle", [[0, 0, 0]]), ("line", [[0, 0]])], [], []⟩ : H5m.In Int) =
    .ok ⟨[[0, 0]], 1, none, [], [("Tri3".toList, ⟨2, [[1, 1, 1]], 2⟩), ("Edge2".toList, ⟨1, [[1, 1]], 3⟩)], 4⟩ from by decide +kernel] at h1
  cases h1
  revert h2
  decide +kernel

/-- What comes back: the points; the line block, the tetrahedron block and the triangle block; the point data with the numbers of the points, in the
order of the names. -/
theorem C73_roundtrip_partial (ids : Bool) (m : H5m.In F) (h : H5mMesh m) :
    ∃ f r, H5m.write ids m = .ok f ∧ H5m.read f = .ok r ∧ r.points = m.points ∧ r.cells = h5mKept m.cells ∧
      r.pointData.Perm (h5mTags ids m) ∧ r.pointData.Pairwise fun a b => leChars a.1 b.1 = true := by
  refine ⟨_, ⟨m.points, h5mKept m.cells, hItems (h5mTags ids m)⟩, write_eq ids m h, ?_, rfl, rfl, hItems_perm _, hItems_sorted _⟩
  unfold H5m.read
  simp only
  rw [readElems _ _ h.okCells]
  simp only
  by_cases he : h5mTags ids m = []
  · rw [he]; rfl
  · rw [if_neg he]

/-- With `add_global_ids=False` and blocks in the order line, tetra, triangle and names in order nothing changes. -/
theorem C73_roundtrip_sorted (m : H5m.In F) (h : H5mMesh m) (hc : h5mKept m.cells = m.cells)
    (hs : m.pointData.Pairwise fun a b => leChars a.1 b.1 = true) :
    ∃ f, H5m.write false m = .ok f ∧ H5m.read f = .ok ⟨m.points, m.cells, m.pointData⟩ := by
  refine ⟨_, write_eq false m h, ?_⟩
  have ht : h5mTags false m = m.pointData := by unfold h5mTags; rw [if_neg (by simp)]
  rw [ht]
  unfold H5m.read
  simp only
  rw [readElems _ _ h.okCells, hc]
  simp only
  by_cases he : m.pointData = []
  · rw [he]; rfl
  · rw [if_neg he]
    simp only
    rw [hItems_of_sorted _ hs]

/-! ### Reading -/

theorem hItems_groups {α : Type} (ns : List (List Char)) (hs : ns.Pairwise fun a b => leChars a b = true ∧ a ≠ b) (l : List (List Char × α))
    (hn : (l.map (·.1)).Nodup) (hm : ∀ e ∈ l, e.1 ∈ ns) : hItems l = ns.flatMap fun n => l.filter fun e => e.1 = n := by
  have hl : l.Pairwise fun a b => a.1 ≠ b.1 := by
    have := List.pairwise_map.mp hn
    exact this
  have hpw : (ns.flatMap fun n => l.filter fun e => e.1 = n).Pairwise fun a b => leChars a.1 b.1 = true ∧ a.1 ≠ b.1 := by
    rw [List.pairwise_flatMap]
    constructor
    · intro n _
      refine List.Pairwise.imp_of_mem ?_ (hl.filter _)
      intro a b ha hb hab
      have h1 := (List.mem_filter.mp ha).2
      have h2 := (List.mem_filter.mp hb).2
      simp only [decide_eq_true_eq] at h1 h2
      exact absurd (h1.trans h2.symm) hab
    · refine hs.imp ?_
      intro a b hab x hx y hy
      have h1 := (List.mem_filter.mp hx).2
      have h2 := (List.mem_filter.mp hy).2
      simp only [decide_eq_true_eq] at h1 h2
      rw [h1, h2]
      exact hab
  apply hItems_eq
  · rw [List.perm_ext_iff_of_nodup (hl.imp fun h e => h (by rw [e])) (hpw.imp fun h e => h.2 (by rw [e]))]
    intro e
    simp only [List.mem_flatMap, List.mem_filter, decide_eq_true_eq]
    constructor
    · intro he
      exact ⟨e.1, hm e he, he, rfl⟩
    · rintro ⟨n, _, he, _⟩
      exact he
  · exact hpw.imp fun h => h.1
  · exact List.pairwise_map.mpr (hpw.imp fun h => h.2)

/-- Files from elsewhere: the groups of elements, whichever of the seven kinds there are and in whichever order they were created, give blocks in the
order of the names, with nodes counted from 0; the tags of the nodes are the point data. -/
theorem C73_read (f : H5m.File F) (hn : (f.elements.map (·.1)).Nodup) (hg : ∀ e ∈ f.elements, e.1 ∈ h5mGroups.map fun g => g.1.toList) :
    ∃ r, H5m.read f = .ok r ∧ r.points = f.coordinates ∧
      r.cells = (h5mGroups.flatMap fun g => (f.elements.filter fun e => e.1 = g.1.toList).map fun e => (g.2, e.2.connectivity.map fun r => r.map (· - 1))) ∧
      r.pointData.Perm (f.tags.getD []) := by
  have hi : hItems f.elements = h5mGroups.flatMap fun g => f.elements.filter fun e => e.1 = g.1.toList := by
    rw [hItems_groups (h5mGroups.map fun g => g.1.toList) (by decide +kernel) f.elements hn hg, List.flatMap_map]
  have hr : ∀ gs : List (String × String), (∀ g ∈ gs, g ∈ h5mGroups) →
      mapRes readElem (gs.flatMap fun g => f.elements.filter fun e => e.1 = g.1.toList) =
        .ok (gs.flatMap fun g => (f.elements.filter fun e => e.1 = g.1.toList).map fun e => (g.2, e.2.connectivity.map fun r => r.map (· - 1))) := by
    intro gs
    induction gs with
    | nil => intro _; rfl
    | cons g gs ih =>
      intro hgs
      have hfind : find h5mToMeshio (String.ofList g.1.toList) = some g.2 := by
        rw [String.ofList_toList]
        exact (by decide : ∀ g ∈ h5mGroups, find h5mToMeshio g.1 = some g.2) g (hgs g (by simp))
      have h1 : mapRes readElem (f.elements.filter fun e => e.1 = g.1.toList) =
          .ok ((f.elements.filter fun e => e.1 = g.1.toList).map fun e => (g.2, e.2.connectivity.map fun r => r.map (· - 1))) := by
        apply mapRes_ok_of_forall
        intro e he
        have hname := (List.mem_filter.mp he).2
        simp only [decide_eq_true_eq] at hname
        unfold readElem
        rw [hname, hfind]
      rw [List.flatMap_cons, List.flatMap_cons]
      exact mapRes_join h1 (ih fun x hx => hgs x (by simp [hx]))
  refine ⟨⟨f.coordinates, _, match f.tags with | some l => hItems l | none => []⟩, ?_, rfl, rfl, ?_⟩
  · unfold H5m.read
    rw [hi, hr _ fun g hg => hg]
    rfl
  · show List.Perm (match f.tags with | some l => hItems l | none => []) _
    cases f.tags with
    | none => exact List.Perm.refl _
    | some l => exact hItems_perm l

/-- A group of elements of another name is a KeyError. -/
theorem C73_unknown_group (f : H5m.File F) (e : List Char × Elem) (he : e ∈ f.elements) (h : e.1 ∉ h5mGroups.map fun g => g.1.toList) :
    H5m.read f = .error .keyError := by
  have hf : ∀ n : List Char, n ∉ h5mGroups.map (fun g => g.1.toList) → find h5mToMeshio (String.ofList n) = none := by
    intro n hn
    have hne : ∀ g ∈ h5mGroups, g.1 ≠ String.ofList n := by
      intro g hg e
      exact hn (List.mem_map.mpr ⟨g, hg, by rw [e, String.toList_ofList]⟩)
    generalize String.ofList n = t at hne
    simp only [h5mGroups, List.mem_cons, List.not_mem_nil, or_false, forall_eq_or_imp, forall_eq] at hne
    obtain ⟨a1, a2, a3, a4, a5, a6, a7⟩ := hne
    simp [find, h5mToMeshio, a1, a2, a3, a4, a5, a6, a7]
  have : ∀ l : List (List Char × Elem), e ∈ l → mapRes readElem l = .error .keyError := by
    intro l
    induction l with
    | nil => simp
    | cons x l ih =>
      intro hm
      unfold mapRes readElem
      cases hx : find h5mToMeshio (String.ofList x.1) with
      | none => rfl
      | some t =>
        simp only
        rcases List.mem_cons.mp hm with rfl | hm
        · rw [hf _ h] at hx; cases hx
        · have := ih hm
          unfold readElem at this
          rw [this]
  unfold H5m.read
  rw [this _ (mem_hItems.mpr he)]

/-! ### What is refused -/

/-- Two blocks of a type that is written. -/
theorem C73_same_type (ids : Bool) (m : H5m.In F) (h : H5mMesh { m with cells := [] }) (t : String) (ht : t ∈ ["line", "tetra", "triangle"])
    (h2 : 2 ≤ (m.cells.filter fun b => b.1 = t).length) : H5m.write ids m = .error .valueError := by
  obtain ⟨t1, t2, t3⟩ := tags_ok ids _ h
  have e : h5mTags ids { m with cells := [] } = h5mTags ids m := rfl
  rw [e] at t1 t2 t3
  unfold H5m.write
  rw [withIds_eq]
  have := putTags_ok (h5mTags ids m) [] (by simpa using t1) t2 t3
  simp only [List.map_nil, List.nil_append] at this
  rw [this]
  simp only
  rw [putBlocks_twice [] _ _ (by simp)]
  simp only [List.map_nil, List.nil_append]
  intro hn
  have hk : kind t = true := (by decide : ∀ t ∈ ["line", "tetra", "triangle"], kind t = true) t ht
  have : (m.cells.filter fun b => b.1 = t) = (m.cells.filter fun b => kind b.1).filter fun b => b.1 = t := by
    rw [List.filter_filter]
    apply List.filter_congr
    intro b _
    by_cases hb : b.1 = t
    · simp [hb, hk]
    · simp [hb]
  rw [this] at h2
  have hpw := ((List.pairwise_map.mp hn).filter fun b => b.1 = t)
  generalize hl : (m.cells.filter fun b => kind b.1).filter (fun b => b.1 = t) = l at h2 hpw
  match l, h2 with
  | a :: b :: l, _ =>
    have ha : a ∈ (m.cells.filter fun b => kind b.1).filter fun b => b.1 = t := by rw [hl]; simp
    have hb : b ∈ (m.cells.filter fun b => kind b.1).filter fun b => b.1 = t := by rw [hl]; simp
    have ha := (List.mem_filter.mp ha).2
    have hb := (List.mem_filter.mp hb).2
    simp only [decide_eq_true_eq] at ha hb
    have := (List.pairwise_cons.mp hpw).1 b (by simp)
    rw [ha, hb] at this
    exact this rfl
  | [_], h2 => simp at h2
  | [], h2 => simp at h2

/-- Cell data cannot be written: an AttributeError, and an UnboundLocalError if no block of the mesh is written. -/
theorem C73_cell_data (ids : Bool) (m : H5m.In F) (h : H5mMesh { m with cellData := [] }) (d : List Char × Nat) (hd : d ∈ m.cellData) (h0 : d.2 ≠ 0) :
    H5m.write ids m = .error (if h5mKept m.cells = [] then .unboundLocal else .attributeError) := by
  obtain ⟨t1, t2, t3⟩ := tags_ok ids _ h
  have e : h5mTags ids { m with cellData := [] } = h5mTags ids m := rfl
  rw [e] at t1 t2 t3
  unfold H5m.write
  rw [withIds_eq]
  have := putTags_ok (h5mTags ids m) [] (by simpa using t1) t2 t3
  simp only [List.map_nil, List.nil_append] at this
  rw [this]
  simp only
  rw [putBlocks_ok [] _ _ (by simpa using names_nodup m.cells h.okCells)]
  simp only [List.nil_append]
  have hc : ∀ (w : Bool) (l : List (List Char × Nat)), d ∈ l → putCellData w l = .error (if w then .attributeError else .unboundLocal) := by
    intro w l
    induction l with
    | nil => simp
    | cons x l ih =>
      intro hm
      unfold putCellData
      by_cases hx : x.2 = 0
      · rw [if_pos hx]
        rcases List.mem_cons.mp hm with rfl | hm
        · exact absurd hx h0
        · exact ih hm
      · rw [if_neg hx]
        cases w <;> rfl
  rw [hc _ _ hd]
  have hlen : (elemsOf (1 + m.points.length) m.cells).length = (h5mKept m.cells).length := by
    rw [← (kept_perm m.cells).length_eq]
    have := congrArg List.length (elemsOf_names (1 + m.points.length) m.cells)
    simpa only [List.length_map] using this
  by_cases hk : h5mKept m.cells = []
  · rw [if_pos hk]
    rw [hk] at hlen
    rw [List.length_eq_zero_iff.mp hlen]
    rfl
  · rw [if_neg hk]
    have : elemsOf (1 + m.points.length) m.cells ≠ [] := by
      intro e
      rw [e] at hlen
      exact hk (List.length_eq_zero_iff.mp hlen.symm)
    rw [List.isEmpty_eq_false_iff.mpr this]
    rfl

/-- Arrays with more than two axes cannot be written. -/
theorem C73_axes (ids : Bool) (m : H5m.In F) (hp : ∀ d ∈ m.pointData, d.1 ≠ [] ∧ d.1 ≠ ['.'] ∧ '/' ∉ d.1) (d : List Char × Arr F) (hd : d ∈ m.pointData)
    (h : d.2 = .more) : H5m.write ids m = .error .valueError := by
  have hplain : ∀ e ∈ withIds ids m, Hmf.plainName e.1 = true := by
    intro e he
    unfold withIds at he
    have h1 : ∀ e ∈ m.pointData, Hmf.plainName e.1 = true := by
      intro e he
      have := hp e he
      simp [Hmf.plainName, this]
    split at he
    · rcases List.mem_append.mp he with he | he
      · exact h1 e he
      · rw [List.mem_singleton.mp he]
        exact (by decide : Hmf.plainName "GLOBAL_ID".toList = true)
    · exact h1 e he
  have hin : d ∈ withIds ids m := by
    unfold withIds
    split
    · exact List.mem_append_left _ hd
    · exact hd
  have : ∀ (l : List (List Char × Arr F)) (g : List (List Char × Arr F) × List (List Char × Nat)), (∀ e ∈ l, Hmf.plainName e.1 = true) → d ∈ l →
      foldRes putTag g l = .error .valueError := by
    intro l
    induction l with
    | nil => intro g _ h; cases h
    | cons e l ih =>
      intro g hl hm
      unfold foldRes
      have hpe := hl e (by simp)
      by_cases hmore : e.2 = .more
      · have : putTag g e = .error .valueError := by
          unfold putTag
          rw [if_neg (by simp [hpe]), hmore]
        rw [this]
      · have hm : d ∈ l := by
          rcases List.mem_cons.mp hm with rfl | hm
          · exact absurd h hmore
          · exact hm
        cases hr : putTag g e with
        | ok g' => exact ih g' (fun e he => hl e (by simp [he])) hm
        | error err =>
          simp only
          unfold putTag at hr
          rw [if_neg (by simp [hpe])] at hr
          cases h2 : e.2 with
          | more => exact absurd h2 hmore
          | _ =>
            rw [h2] at hr
            unfold hCreate at hr
            simp only at hr
            by_cases c1 : e.1 ∈ g.1.map (·.1)
            · rw [if_pos c1] at hr; exact hr.symm
            · by_cases c2 : e.1 ∈ g.2.map (·.1)
              · rw [if_neg c1, if_pos c2] at hr; exact hr.symm
              · rw [if_neg c1, if_neg c2] at hr; cases hr
  unfold H5m.write
  rw [this _ _ hplain hin]

example := C73_axes true (⟨[[0]], [], [("a".toList, .vec [1]), ("b".toList, .more)], []⟩ : H5m.In Int) (by decide) ("b".toList, .more) (by simp) rfl

def h5mExample : H5m.In Int :=
  ⟨[[0, 0, 0], [1, 0, 0], [0, 1, 0], [0, 0, 1]], [("triangle", [[0, 1, 2], [1, 2, 3]]), ("quad", [[0, 1, 2, 3]]), ("tetra", [[0, 1, 2, 3]])],
    [("b".toList, .vec [1, 2, 3, 4]), ("a".toList, .mat 1 [[1], [2], [3], [4]])], []⟩

theorem h5mExample_ok : H5mMesh h5mExample := ⟨by decide, by decide, by decide, by decide, by decide⟩

example : H5m.write true h5mExample = .ok ⟨h5mExample.points, 1, some [("b".toList, .vec [1, 2, 3, 4]), ("a".toList, .mat 1 [[1], [2], [3], [4]]),
    ("GLOBAL_ID".toList, .ints [1, 2, 3, 4])], [("b".toList, 2), ("a".toList, 2), ("GLOBAL_ID".toList, 2)],
    [("Tri3".toList, ⟨2, [[1, 2, 3], [2, 3, 4]], 5⟩), ("Tet4".toList, ⟨5, [[1, 2, 3, 4]], 7⟩)], 8⟩ := by decide +kernel

example := C73_file true h5mExample h5mExample_ok

example := C73_roundtrip_partial true h5mExample h5mExample_ok

example := C73_roundtrip_sorted (⟨[[0]], [("line", [[0, 0]]), ("tetra", [[0, 0, 0, 0]])], [("a".toList, .vec [1]), ("b".toList, .vec [1])], []⟩ : H5m.In Int)
  ⟨by decide, by decide, by decide, by decide, by decide⟩ (by decide) (by decide)

example := C73_cell_data true { h5mExample with cellData := [("c".toList, 3)] } h5mExample_ok ("c".toList, 3) (by simp) (by decide)

example := C73_same_type true { h5mExample with cells := [("line", []), ("quad", []), ("line", [])] } ⟨by decide, by decide, by decide, by decide, by decide⟩
  "line" (by simp) (by decide)

example := C73_read (⟨[], 1, none, [], [("Tet4".toList, ⟨5, [[1, 2, 3, 4]], 7⟩), ("Quad4".toList, ⟨3, [], 7⟩)], 8⟩ : H5m.File Int) (by decide) (by decide)

example := C73_unknown_group (⟨[], 1, none, [], [("Tet10".toList, ⟨5, [], 7⟩)], 8⟩ : H5m.File Int) ("Tet10".toList, ⟨5, [], 7⟩) (by simp) (by decide)

end Meshio.Props
