/-
C72: CGNS files hold points in space and one block of tetrahedra.
-/
import Verif.Spec.Cgns
namespace Meshio.Props
open Meshio Meshio.Spec Meshio.Cgns

variable {F : Type}

theorem cgns_path {n m : Node F} {p : List String} (h : CgnsAt n p m) : Cgns.path n p = .ok m := by
  induction h with
  | here n => rfl
  | down l m n p ps hl _ ih => unfold Cgns.path member; simp only [hl, ih]

theorem cgns_columns (points : List (F × F × F)) :
    columnStack (points.map (·.1)) (points.map (·.2.1)) (points.map (·.2.2)) = .ok (points.map cgnsRow) := by
  unfold columnStack
  rw [if_pos (by simp)]
  congr 1
  induction points with
  | nil => rfl
  | cons p ps ih => simp only [List.map_cons, List.zip_cons_cons, ih]; rfl

theorem cgns_rows (tets : List (Int × Int × Int × Int)) :
    rowsOf 4 tets.length ((tets.flatMap fun t => [t.1 + 1, t.2.1 + 1, t.2.2.1 + 1, t.2.2.2 + 1]).map (· - 1)) = tets.map cgnsTet := by
  induction tets with
  | nil => rfl
  | cons t ts ih =>
    simp only [List.flatMap_cons, List.cons_append, List.nil_append, List.map_cons, List.length_cons, rowsOf, List.take_succ_cons, List.take_zero,
      List.drop_succ_cons, List.drop_zero, ih, cgnsTet, Int.add_sub_cancel]

theorem cgns_length (tets : List (Int × Int × Int × Int)) :
    (tets.flatMap fun t => [t.1 + 1, t.2.1 + 1, t.2.2.1 + 1, t.2.2.2 + 1]).length = 4 * tets.length := by
  induction tets with
  | nil => rfl
  | cons t ts ih => simp only [List.flatMap_cons, List.length_append, ih, List.length_cons, List.length_nil]; omega

theorem cgns_read (f : Node F) (points : List (F × F × F)) (lo hi : Int) (conn : List Int) (h : CgnsArrays f points [lo, hi] conn) :
    Cgns.read f = match cellsOf hi conn with
      | .error e => .error e
      | .ok cells => .ok ⟨points.map cgnsRow, [("tetra", cells)]⟩ := by
  have h1 : has f "Base" = true ∧ ∃ b, Cgns.path f ["Base"] = .ok b ∧ has b "Zone1" = true := by
    have hx := h.x
    generalize hp : ["Base", "Zone1", "GridCoordinates", "CoordinateX", " data"] = p at hx
    cases hx with
    | here => cases hp
    | down l m n p ps hl hr =>
      injection hp with e1 e2
      subst e1
      refine ⟨by unfold has; simp only [hl]; rfl, m, by unfold Cgns.path member; simp only [hl]; rfl, ?_⟩
      cases hr with
      | here => cases e2
      | down l m n p ps hl hr =>
        injection e2 with e1 e2
        subst e1
        unfold has
        simp only [hl]
        rfl
  obtain ⟨b1, b, b2, b3⟩ := h1
  unfold Cgns.read floatsAt intsAt
  rw [if_neg (by simp [b1]), b2]
  simp only
  rw [if_neg (by simp [b3])]
  simp only [cgns_path h.x, cgns_path h.y, cgns_path h.z, cgns_path h.range, cgns_path h.conn, cgns_columns]
  rfl

/-- Reading: whatever else the file holds, the points and the tetrahedra are those it says, if there is at least one tetrahedron. -/
theorem C72_read (f : Node F) (points : List (F × F × F)) (tets : List (Int × Int × Int × Int)) (h : CgnsSays f points tets) (ht : tets ≠ []) :
    Cgns.read f = .ok ⟨points.map cgnsRow, [("tetra", tets.map cgnsTet)]⟩ := by
  have hlen : 0 < tets.length := List.length_pos_iff.mpr ht
  rw [cgns_read f points _ _ _ h]
  have : cellsOf (tets.length : Int) (tets.flatMap fun t => [t.1 + 1, t.2.1 + 1, t.2.2.1 + 1, t.2.2.2 + 1]) = .ok (tets.map cgnsTet) := by
    unfold cellsOf
    rw [if_neg (by omega), Int.toNat_natCast, cgns_length, if_neg (by simp [Nat.mul_mod_left]), if_neg (by
      rw [Nat.mul_div_cancel _ hlen]; simp), cgns_rows]
  rw [this]

/-- A file of cells that have not four nodes each is refused. -/
theorem C72_not_tetrahedra (f : Node F) (points : List (F × F × F)) (lo : Int) (n w : Nat) (hn : 0 < n) (hw : w ≠ 4) (conn : List Int)
    (hc : conn.length = n * w) (h : CgnsArrays f points [lo, (n : Int)] conn) : Cgns.read f = .error .readError := by
  rw [cgns_read f points _ _ _ h]
  unfold cellsOf
  rw [if_neg (by omega), Int.toNat_natCast, hc, if_neg (by simp [Nat.mul_mod_right]), if_pos]
  rw [Nat.mul_div_cancel_left _ hn]
  exact hw

/-- A file whose numbers do not fill whole rows is refused. -/
theorem C72_ragged (f : Node F) (points : List (F × F × F)) (lo : Int) (n : Nat) (conn : List Int) (hc : ¬ n ∣ conn.length)
    (h : CgnsArrays f points [lo, (n : Int)] conn) : Cgns.read f = .error .valueError := by
  rw [cgns_read f points _ _ _ h]
  unfold cellsOf
  by_cases h0 : n = 0
  · rw [if_pos (by omega)]
  · rw [if_neg (by omega), Int.toNat_natCast, if_pos (fun e => hc (Nat.dvd_of_mod_eq_zero e))]

/-- A file without the group of the base or of the zone is refused. -/
theorem C72_malformed (l : List (List Char × Node F)) (h : l.lookup "Base".toList = none ∨
    ∃ b, l.lookup "Base".toList = some (.group b) ∧ b.lookup "Zone1".toList = none) : Cgns.read (.group l) = .error .readError := by
  unfold Cgns.read
  rcases h with h | ⟨b, h1, h2⟩
  · rw [if_pos]
    unfold has
    simp only [h]
    simp
  · rw [if_neg (by unfold has; simp only [h1]; simp)]
    have : Cgns.path (.group l) ["Base"] = .ok (.group b) := by unfold Cgns.path member; simp only [h1]; rfl
    rw [this]
    simp only
    rw [if_pos]
    unfold has
    simp only [h2]
    simp

/-- The tetrahedra of a mesh, block by block. -/
def tetBlocks (cells : List (String × List (List Int))) : List (List (List Int)) := (cells.filter fun b => b.1 = "tetra").map (·.2)

theorem tetraSets_none (val : List (List Int) → List Int) (g : List (List Char × Node F)) (cells : List (String × List (List Int)))
    (h : tetBlocks cells = []) : tetraSets val g cells = .ok g := by
  induction cells with
  | nil => rfl
  | cons b bs ih =>
    unfold tetBlocks at h ih
    rw [List.filter_cons] at h
    by_cases hb : b.1 = "tetra"
    · simp [hb] at h
    · simp only [hb, decide_false, Bool.false_eq_true, if_false] at h
      unfold tetraSets
      rw [if_neg hb, ih h]

theorem tetraSets_one (val : List (List Int) → List Int) (cells : List (String × List (List Int))) (rows : List (List Int))
    (h : tetBlocks cells = [rows]) : tetraSets val ([] : List (List Char × Node F)) cells = .ok [(" data".toList, .ints (val rows))] := by
  induction cells with
  | nil => cases h
  | cons b bs ih =>
    unfold tetBlocks at h ih
    rw [List.filter_cons] at h
    unfold tetraSets
    by_cases hb : b.1 = "tetra"
    · simp only [hb, decide_true, if_true, List.map_cons, List.cons.injEq] at h
      rw [if_pos hb]
      simp only [hCreate, List.map_nil, List.not_mem_nil, if_false, List.nil_append]
      rw [tetraSets_none _ _ _ h.2, h.1]
    · simp only [hb, decide_false, Bool.false_eq_true, if_false] at h
      rw [if_neg hb, ih h]

theorem tetraSets_two (val : List (List Int) → List Int) (cells : List (String × List (List Int))) (g : List (List Char × Node F))
    (h : 2 ≤ (tetBlocks cells).length + g.length) (h1 : 1 ≤ (tetBlocks cells).length) (hg : ∀ e ∈ g, e.1 = " data".toList) :
    tetraSets val g cells = .error .valueError := by
  induction cells generalizing g with
  | nil => simp [tetBlocks] at h1
  | cons b bs ih =>
    unfold tetBlocks at h h1 ih
    rw [List.filter_cons] at h h1
    unfold tetraSets
    by_cases hb : b.1 = "tetra"
    · simp only [hb, decide_true, if_true, List.map_cons, List.length_cons] at h h1
      rw [if_pos hb]
      unfold hCreate
      cases g with
      | nil =>
        simp only [List.map_nil, List.not_mem_nil, if_false, List.nil_append]
        simp only [List.length_nil] at h
        exact ih _ (by simp only [List.length_cons, List.length_nil]; omega) (by omega) (by simp)
      | cons e g =>
        rw [if_pos (by simp [hg e (by simp)])]
    · simp only [hb, decide_false, Bool.false_eq_true, if_false] at h h1
      rw [if_neg hb]
      exact ih g h h1 hg

theorem cgns_column (m : Cgns.In F) (h3 : m.dim = 3) (points : List (F × F × F)) (hp : m.points = points.map cgnsRow) :
    column m 0 = .ok (points.map (·.1)) ∧ column m 1 = .ok (points.map (·.2.1)) ∧ column m 2 = .ok (points.map (·.2.2)) := by
  unfold column
  rw [h3, hp]
  refine ⟨?_, ?_, ?_⟩
  all_goals
    rw [if_pos (by decide), List.filterMap_map]
    congr 1
    induction points with
    | nil => rfl
    | cons p ps ih =>
      rw [List.filterMap_cons_some (by rfl), List.map_cons]
      first
        | exact congrArg _ (filterMap_eq_map fun _ _ => rfl)

/-- Writing points in space and one block of tetrahedra: the file says these points and tetrahedra.  Cells of other types and all data are
left out. -/
theorem C72_write (m : Cgns.In F) (h3 : m.dim = 3) (points : List (F × F × F)) (hp : m.points = points.map cgnsRow)
    (tets : List (Int × Int × Int × Int)) (ht : tetBlocks m.cells = [tets.map cgnsTet]) :
    ∃ f, Cgns.write m = .ok f ∧ CgnsSays f points tets := by
  obtain ⟨c0, c1, c2⟩ := cgns_column m h3 points hp
  have hconn : (tets.map cgnsTet).flatten.map (· + 1) = tets.flatMap fun t => [t.1 + 1, t.2.1 + 1, t.2.2.1 + 1, t.2.2.2 + 1] := by
    induction tets with
    | nil => rfl
    | cons t ts ih =>
      have := fun h => ih h
      simp only [List.map_cons, List.flatten_cons, List.map_append, List.flatMap_cons]
      congr 1
      clear ht ih this
      induction ts with
      | nil => rfl
      | cons t ts ih => simp only [List.map_cons, List.flatten_cons, List.map_append, List.flatMap_cons, ih]; rfl
  unfold Cgns.write
  rw [c0, c1, c2]
  simp only
  rw [tetraSets_one _ _ _ ht, tetraSets_one _ _ _ ht]
  refine ⟨_, rfl, ?_, ?_, ?_, ?_, ?_⟩
  · exact .down _ _ _ _ _ rfl (.down _ _ _ _ _ rfl (.down _ _ _ _ _ rfl (.down _ _ _ _ _ rfl (.down _ _ _ _ _ rfl (.here _)))))
  · exact .down _ _ _ _ _ rfl (.down _ _ _ _ _ rfl (.down _ _ _ _ _ rfl (.down _ _ _ _ _ rfl (.down _ _ _ _ _ rfl (.here _)))))
  · exact .down _ _ _ _ _ rfl (.down _ _ _ _ _ rfl (.down _ _ _ _ _ rfl (.down _ _ _ _ _ rfl (.down _ _ _ _ _ rfl (.here _)))))
  · refine .down _ _ _ _ _ rfl (.down _ _ _ _ _ rfl (.down _ _ _ _ _ rfl (.down _ _ _ _ _ rfl (.down _ _ _ _ _ ?_ (.here _)))))
    simp
  · refine .down _ _ _ _ _ rfl (.down _ _ _ _ _ rfl (.down _ _ _ _ _ rfl (.down _ _ _ _ _ rfl (.down _ _ _ _ _ ?_ (.here _)))))
    rw [hconn]
    rfl

/-- Any mesh that is written can be read, and gives the points and the tetrahedra. -/
def C72_roundtrip_statement : Prop :=
  ∀ m : Cgns.In Int, ∀ f, Cgns.write m = .ok f →
    ∃ r, Cgns.read f = .ok r ∧ r.points = m.points ∧ r.cells = m.cells.filter fun b => b.1 = "tetra"

/-- False: a mesh of triangles is written without an error, and the file cannot be read. -/
theorem C72_roundtrip_false : ¬ C72_roundtrip_statement := by
  intro h
  obtain ⟨r, hr, -⟩ := h ⟨3, [[0, 0, 0], [1, 0, 0], [0, 1, 0]], [("triangle", [[0, 1, 2]])], [], []⟩ _ rfl
  exact absurd (show Except.error Err.keyError = Except.ok r from hr) (by simp)

/-- Points in space and one block of at least one tetrahedron come back. -/
theorem C72_roundtrip_partial (m : Cgns.In F) (h3 : m.dim = 3) (points : List (F × F × F)) (hp : m.points = points.map cgnsRow)
    (tets : List (Int × Int × Int × Int)) (hne : tets ≠ []) (ht : (m.cells.filter fun b => b.1 = "tetra") = [("tetra", tets.map cgnsTet)]) :
    ∃ f, Cgns.write m = .ok f ∧ Cgns.read f = .ok ⟨m.points, m.cells.filter fun b => b.1 = "tetra"⟩ := by
  obtain ⟨f, h1, h2⟩ := C72_write m h3 points hp tets (by unfold tetBlocks; rw [ht]; rfl)
  exact ⟨f, h1, by rw [C72_read f points tets h2 hne, hp, ht]⟩

/-- What is lost: a mesh without tetrahedra is written, and reading the file is a KeyError. -/
theorem C72_no_tetra (m : Cgns.In F) (h3 : m.dim = 3) (points : List (F × F × F)) (hp : m.points = points.map cgnsRow)
    (ht : ∀ b ∈ m.cells, b.1 ≠ "tetra") : ∃ f, Cgns.write m = .ok f ∧ Cgns.read f = .error .keyError := by
  obtain ⟨c0, c1, c2⟩ := cgns_column m h3 points hp
  have hb : tetBlocks m.cells = [] := by
    unfold tetBlocks
    rw [List.map_eq_nil_iff, List.filter_eq_nil_iff]
    intro b hb
    simpa using ht b hb
  unfold Cgns.write
  rw [c0, c1, c2]
  simp only
  rw [tetraSets_none _ _ _ hb, tetraSets_none _ _ _ hb]
  refine ⟨_, rfl, ?_⟩
  have := cgns_columns points
  unfold Cgns.read floatsAt intsAt
  simp [has, Cgns.path, member, dataGroup, List.lookup, this]

/-- Two blocks of tetrahedra are refused. -/
theorem C72_two_blocks (m : Cgns.In F) (h3 : m.dim = 3) (points : List (F × F × F)) (hp : m.points = points.map cgnsRow)
    (ht : 2 ≤ (tetBlocks m.cells).length) : Cgns.write m = .error .valueError := by
  obtain ⟨c0, c1, c2⟩ := cgns_column m h3 points hp
  unfold Cgns.write
  rw [c0, c1, c2]
  simp only
  rw [tetraSets_two _ _ _ (by simpa using ht) (by omega) (by simp)]

/-- Points in the plane are refused. -/
theorem C72_plane (m : Cgns.In F) (h : m.dim < 3) : Cgns.write m = .error .indexError := by
  unfold Cgns.write column
  by_cases h0 : 0 < m.dim
  · rw [if_pos h0]
    by_cases h1 : 1 < m.dim
    · rw [if_pos h1, if_neg (by omega)]
    · rw [if_neg h1]
  · rw [if_neg h0]

def cgnsExample : Cgns.In Int :=
  ⟨3, [[0, 0, 0], [1, 0, 0], [0, 1, 0], [0, 0, 1]], [("triangle", [[0, 1, 2]]), ("tetra", [[0, 1, 2, 3], [3, 1, 0, 2]])], ["p"], ["c"]⟩

example := C72_roundtrip_partial cgnsExample rfl [(0, 0, 0), (1, 0, 0), (0, 1, 0), (0, 0, 1)] rfl [(0, 1, 2, 3), (3, 1, 0, 2)] (by simp) (by decide)

example := C72_no_tetra (⟨3, [[0, 0, 0]], [("vertex", [[0]])], [], []⟩ : Cgns.In Int) rfl [(0, 0, 0)] rfl (by decide)

example := C72_two_blocks (⟨3, [[0, 0, 0]], [("tetra", [[0, 0, 0, 0]]), ("tetra", [])], [], []⟩ : Cgns.In Int) rfl [(0, 0, 0)] rfl (by decide)

/-- A file of two triangles. -/
def cgnsTriangles : Node Int :=
  .group [("Base".toList, .group [("Zone1".toList, .group
    [("GridCoordinates".toList, .group [("CoordinateX".toList, dataGroup []), ("CoordinateY".toList, dataGroup []), ("CoordinateZ".toList, dataGroup [])]),
     ("GridElements".toList, .group [("ElementRange".toList, .group [(" data".toList, .ints [1, 2])]),
       ("ElementConnectivity".toList, .group [(" data".toList, .ints [1, 2, 3, 3, 2, 1])])])])])]

example := C72_not_tetrahedra cgnsTriangles [] 1 2 3 (by decide) (by decide) [1, 2, 3, 3, 2, 1] (by decide) (by
  constructor
  all_goals exact .down _ _ _ _ _ rfl (.down _ _ _ _ _ rfl (.down _ _ _ _ _ rfl (.down _ _ _ _ _ rfl (.down _ _ _ _ _ rfl (.here _))))))

example : Cgns.read (.group [("Base".toList, .group [("Zone2".toList, .floats [(1 : Int)])])]) = .error .readError := C72_malformed _ (.inr ⟨_, rfl, rfl⟩)

end Meshio.Props
