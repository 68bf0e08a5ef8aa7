/-
C35 and C31: FLAC3D f3grid files.
-/
import Verif.Proofs.Flac3dBack
import Mathlib.Algebra.Order.Ring.Defs
import Mathlib.Algebra.Order.Group.Abs
import Mathlib.Tactic.Ring

namespace Meshio
namespace Props
open Flac3d
open Meshio.Spec (groupRuns)
open Meshio.Spec.Flac3d hiding triple
open Meshio.Spec.Flac3d (triple)

variable {F : Type}

/-- Numbers of eight bytes as floats, with signed arithmetic. -/
def flacWord : FlacIO (Fin (256 ^ 8)) where
  fmt x := fmtNat x.val
  parse s := (parseInt s).map fun i => ⟨i.toNat % 256 ^ 8, Nat.mod_lt _ (by decide)⟩
  parse_fmt x := by
    have : parseInt (fmtNat x.val) = some (x.val : Int) := parseInt_fmtInt (x.val : Int)
    rw [this]
    simp only [Option.map_some, Option.some.injEq]
    apply Fin.ext
    show (x.val : Int).toNat % 256 ^ 8 = x.val
    rw [Int.toNat_natCast, Nat.mod_eq_of_lt x.isLt]
  tok x := isTok_fmtNat x.val
  bin := Medit.BinFloat.word
  sub a b := a - b
  mul a b := a * b
  add a b := a + b
  pos x := decide (0 < x.val ∧ x.val < 2 ^ 63)
  encode := toBytes
  decode l := some (toChars l)
  encode_ascii _ _ := rfl
  decode_ascii s h := by rw [ascii_bytes s h]

/-! ## Reading -/

/-- C35, C31: a text file with points, zones, faces and groups is read as its grid: nodes and members are looked up by number,
whatever the numbers are, cells get meshio's order of nodes, and groups are split by block. -/
theorem C35_read_text (io : FlacIO F) (items : List (Item F)) (h : GridOk (gridOf items)) (text : List Char) (ht : TextFile io items text) :
    read io text = .ok (mesh (gridOf items)) := read_text io items h text ht

/-- C35, C31: so is a binary file. -/
theorem C35_read_binary (io : FlacIO F) (g : Grid F) (h : GridOk g) (s : List Char) (hs : BinaryFile io g s) :
    read io s = .ok (mesh g) := read_binary io g h s hs

/-- C31: two text files that show the same grid with different numbers of points, zones and faces give the same points, cells and
sets. -/
theorem C31_flac3d (io : FlacIO F) (i1 i2 : List (Item F)) (h1 : GridOk (gridOf i1)) (h2 : GridOk (gridOf i2)) (t1 t2 : List Char)
    (ht1 : TextFile io i1 t1) (ht2 : TextFile io i2 t2)
    (hp : (gridOf i1).points.map (·.2) = (gridOf i2).points.map (·.2))
    (hz : (gridOf i1).zones.map (·.nodes) = (gridOf i2).zones.map (·.nodes))
    (hf : (gridOf i1).faces.map (·.nodes) = (gridOf i2).faces.map (·.nodes))
    (hzg : (gridOf i1).zgroups = (gridOf i2).zgroups) (hfg : (gridOf i1).fgroups = (gridOf i2).fgroups) :
    ∃ o1 o2, read io t1 = .ok o1 ∧ read io t2 = .ok o2 ∧ o1.points = o2.points ∧ o1.cells = o2.cells ∧ o1.sets = o2.sets := by
  refine ⟨_, _, read_text io i1 h1 t1 ht1, read_text io i2 h2 t2 ht2, hp, ?_⟩
  have hc (kind : Nat → Option (String × List Nat)) (a b : List Cell) (h : a.map (·.nodes) = b.map (·.nodes)) :
      a.map (cell kind) = b.map (cell kind) := by
    have e : ∀ l : List Cell, l.map (cell kind) = (l.map (·.nodes)).map fun n => cell kind ⟨0, n⟩ := by
      intro l
      rw [List.map_map]
      rfl
    rw [e, e, h]
  have hb : blocksOf (gridOf i1) = blocksOf (gridOf i2) := by
    unfold blocksOf
    rw [hc _ _ _ hz, hc _ _ _ hf]
  have hl : (gridOf i1).faces.length = (gridOf i2).faces.length := by
    have := congrArg List.length hf
    simpa using this
  refine ⟨hb, ?_⟩
  unfold mesh
  simp only
  rw [hb, hl, hzg, hfg]

def flacItems (a b c d : Nat) : List (Item (Fin (256 ^ 8))) :=
  [.point a [0, 0, 0], .point b [1, 0, 0], .point c [0, 1, 0], .point d [0, 0, 1], .zone ⟨7, [0, 1, 2, 3]⟩, .zgroup ⟨"a".toList, "1".toList, [0]⟩]

def flacText (a b c d : String) : String :=
  "G " ++ a ++ " 0 0 0\nG " ++ b ++ " 1 0 0\nG " ++ c ++ " 0 1 0\nG " ++ d ++ " 0 0 1\nZ T4 7 " ++ a ++ " " ++ b ++ " " ++ c ++ " " ++ d ++
    "\nZGROUP \"a\" SLOT 1\n7\n"

example : read flacWord (flacText "3" "9" "5" "1").toList =
    .ok ⟨[[0, 0, 0], [1, 0, 0], [0, 1, 0], [0, 0, 1]], [("tetra", [[0, 1, 2, 3]])], [[7]], [("zone:a:1", [[0]])]⟩ := by decide +kernel

example : GridOk (gridOf (flacItems 3 9 5 1)) ∧
    read flacWord (flacText "3" "9" "5" "1").toList = .ok (mesh (gridOf (flacItems 3 9 5 1))) := by decide +kernel

/-! ## Writing -/

/-- C35: the text that is written, and what is left in the sets of the caller's mesh. -/
theorem C35_write_text (io : FlacIO F) (d : F) (version ctime : List Char) (points : List (List F)) (cells : List (String × List (List Int)))
    (sets : Dict (List (List Int))) (h : MeshOk points cells sets) :
    writeAscii io version ctime points cells sets =
      .ok (linesText (textLines io d version ctime points cells sets), leftBehind cells sets) :=
  writeAscii_ok io d version ctime points cells sets h

/-- C35: the bytes that are written, and what is left in the sets of the caller's mesh. -/
theorem C35_write_binary (io : FlacIO F) (d : F) (points : List (List F)) (cells : List (String × List (List Int)))
    (sets : Dict (List (List Int))) (h : MeshOk points cells sets) (hs : SetsOk cells sets) (hb : BinaryOk points cells sets) :
    writeBinary io points cells sets = .ok (binaryBytes io d points cells sets, leftBehind cells sets) :=
  writeBinary_ok io d points cells sets h hs hb

/-- C35: a mesh written as text is read back: zones of positive orientation with the same nodes, others mirrored, groups under
their names with members counted through all blocks. -/
theorem C35_text_partial (io : FlacIO F) (d : F) (version ctime : List Char) (hv : '\n' ∉ version) (hc : '\n' ∉ ctime)
    (points : List (List F)) (cells : List (String × List (List Int))) (sets : Dict (List (List Int)))
    (h : MeshOk points cells sets) (hs : SetsOk cells sets) (hn : TextNames sets) :
    ∃ text left, writeAscii io version ctime points cells sets = .ok (text, left) ∧ read io text = .ok (backMesh io d "1" points cells sets) := by
  refine ⟨_, _, writeAscii_ok io d version ctime points cells sets h, ?_⟩
  rw [read_text io (itemsW io d version ctime points cells sets) (by
    rw [gridOf_itemsW]
    exact gridW_ok io d "1" points cells sets h hs) _ (text_itemsW io d version ctime hv hc points cells sets h hs hn), gridOf_itemsW,
    mesh_gridW io d "1" points cells sets h]

/-- C35: so is a mesh written in binary. -/
theorem C35_binary_partial (io : FlacIO F) (d : F) (points : List (List F)) (cells : List (String × List (List Int)))
    (sets : Dict (List (List Int))) (h : MeshOk points cells sets) (hs : SetsOk cells sets) (hb : BinaryOk points cells sets) :
    ∃ s left, writeBinary io points cells sets = .ok (s, left) ∧ read io s = .ok (backMesh io d "Default" points cells sets) := by
  refine ⟨_, _, writeBinary_ok io d points cells sets h hs hb, ?_⟩
  rw [read_binary io (gridW io d "Default" points cells sets) (gridW_ok io d "Default" points cells sets h hs) _
    (binary_gridW io d points cells sets h hs hb), mesh_gridW io d "Default" points cells sets h]

def flacPoints : List (List (Fin (256 ^ 8))) := [[0, 0, 0], [1, 0, 0], [0, 1, 0], [0, 0, 1], [0, 0, 2]]

/-- Two tetrahedra, the second one of negative orientation, and one more with a middle node. -/
def flacCells : List (String × List (List Int)) := [("tetra", [[0, 1, 2, 3], [0, 2, 1, 4]]), ("tetra10", [[0, 1, 2, 4, 0, 0, 0, 0, 0, 0]])]

theorem flacMeshOk : MeshOk flacPoints flacCells [("a", [[1], [0]]), ("b c", [[], [0]])] :=
  ⟨by decide +kernel, by decide, by decide, by decide, by decide, by decide⟩

theorem flacSetsOk : SetsOk flacCells [("a", [[1], [0]]), ("b c", [[], [0]])] := by
  unfold SetsOk
  decide

example : ((writeAscii flacWord "1".toList "t".toList flacPoints flacCells [("a", [[1], [0]]), ("b c", [[], [0]])]).bind fun r => read flacWord r.1) =
    .ok ⟨flacPoints, [("tetra", [[0, 1, 2, 3], [0, 1, 2, 4], [0, 1, 2, 4]])], [[1, 2, 3]],
      [("zone:a:1", [[1, 2]]), ("zone:b c:1", [[2]])]⟩ := by decide +kernel

example : ((writeBinary flacWord flacPoints flacCells [("a", [[1], [0]]), ("b c", [[], [0]])]).bind fun r => read flacWord r.1) =
    .ok ⟨flacPoints, [("tetra", [[0, 1, 2, 3], [0, 1, 2, 4], [0, 1, 2, 4]])], [[1, 2, 3]],
      [("zone:a:Default", [[1, 2]]), ("zone:b c:Default", [[2]])]⟩ := by decide +kernel

/-- C35: one block of linear zones of positive orientation comes back with the same nodes and the same groups, and the caller's
sets are as before. -/
theorem C35_one_block (io : FlacIO F) (d : F) (version ctime : List Char) (hv : '\n' ∉ version) (hc : '\n' ∉ ctime)
    (points : List (List F)) (t k : String) (hk : zoneOf t = some k) (rows : List (List Int)) (hr : rows ≠ []) (sets : Dict (List (List Int)))
    (h : MeshOk points [(t, rows)] sets) (hs : SetsOk [(t, rows)] sets) (hn : TextNames sets)
    (hpos : ∀ r ∈ rows, r.length = size k ∧ positive io.toArith d points k r = true) :
    ∃ text, writeAscii io version ctime points [(t, rows)] sets = .ok (text, sets) ∧
      read io text = .ok ⟨points, [(k, rows.map (·.map Int.toNat))], [(List.range rows.length).map fun (i : Nat) => ((i + 1 : Nat) : Int)],
        sets.map fun kv => ("zone:" ++ kv.1 ++ ":1", kv.2)⟩ := by
  obtain ⟨text, left, h1, h2⟩ := C35_text_partial io d version ctime hv hc points [(t, rows)] sets h hs hn
  have h3 := C35_write_text io d version ctime points [(t, rows)] sets h
  have hone : ∀ kv ∈ sets, ∃ b, kv.2 = [b] := by
    intro kv hkv
    have := h.entries kv hkv
    match hkv2 : kv.2, this with
    | [b], _ => exact ⟨b, rfl⟩
  have hl : leftBehind [(t, rows)] sets = sets := by
    unfold leftBehind
    conv => rhs; rw [← List.map_id sets]
    apply List.map_congr_left
    intro kv hkv
    obtain ⟨b, hb⟩ := hone kv hkv
    simp only [id_eq, List.map_cons, List.map_nil, segsFrom, hb, List.zipWith_cons_cons, List.zipWith_nil_left, Nat.cast_zero, Int.add_zero,
      List.map_id']
    rw [← hb]
  rw [hl] at h3
  rw [h3] at h1
  injection h1 with h1
  injection h1 with h1 h4
  subst h1
  refine ⟨_, h3, ?_⟩
  rw [h2]
  congr 1
  have hz : zonesOf io d points [(t, rows)] = rows.map fun r => (k, r) := by
    unfold zonesOf
    rw [List.flatMap_cons, List.flatMap_nil, List.append_nil]
    apply List.map_congr_left
    intro r hr
    simp only
    rw [hk]
    simp only [Option.getD_some]
    unfold oriented
    rw [if_pos (hpos r hr).2, List.take_of_length_le (by rw [(hpos r hr).1])]
  have hg : groupRuns ((rows.map fun r => (k, r)).map fun z => (z.1, z.2.map Int.toNat)) = [(k, rows.map (·.map Int.toNat))] := by
    rw [List.map_map]
    have := groupRuns_rowsOf (κ := String) (α := List Nat) [(k, rows.map (·.map Int.toNat))] (by simpa using hr) (by
      intro pre a b post he
      have := congrArg List.length he
      simp at this
      omega)
    rw [← this]
    congr 1
    simp [Spec.rowsOf, Function.comp_def]
  unfold backMesh
  simp only
  rw [hz, hg]
  simp only [List.map_cons, List.map_nil, List.length_map]
  congr 1
  · rw [splitLens, splitLens, List.take_of_length_le (by simp)]
  · apply List.map_congr_left
    intro kv hkv
    obtain ⟨b, hb⟩ := hone kv hkv
    have hm := (hs kv hkv).2 ((t, rows), b) (by rw [hb]; simp)
    simp only at hm
    have hkey : "zone:" ++ kv.1 ++ ":" ++ "1" = "zone:" ++ kv.1 ++ ":1" := by
      apply String.toList_injective
      simp only [String.toList_append, List.append_assoc]
      rfl
    rw [hkey]
    congr 1
    rw [hb]
    unfold perBlock globalMembers
    simp only [List.map_cons, List.map_nil, segsFrom, List.zipWith_cons_cons, List.zipWith_nil_left, List.flatten_cons, List.flatten_nil,
      List.append_nil, Nat.cast_zero, Int.add_zero, List.map_id']
    congr 1
    rw [List.filter_eq_self.2 (by
      intro x hx
      obtain ⟨i, hi, rfl⟩ := List.mem_map.1 hx
      have := hm i hi
      simp only [decide_eq_true_eq]
      omega), List.map_map]
    conv => rhs; rw [← List.map_id b]
    apply List.map_congr_left
    intro i hi
    have := hm i hi
    simp only [Function.comp_apply, id_eq]
    omega

example : MeshOk flacPoints [("tetra", [[0, 1, 2, 3], [0, 1, 2, 4]])] [("a", [[1]])] ∧
    SetsOk [("tetra", [[0, 1, 2, 3], [0, 1, 2, 4]])] [("a", [[1]])] ∧ TextNames [("a", [[1]])] ∧
    ∀ r ∈ ([[0, 1, 2, 3], [0, 1, 2, 4]] : List (List Int)), r.length = size "tetra" ∧ positive flacWord.toArith 0 flacPoints "tetra" r = true := by
  refine ⟨⟨by decide +kernel, by decide, by decide, by decide, by decide, by decide⟩, ?_, ?_, by decide +kernel⟩
  · unfold SetsOk
    decide
  · unfold TextNames
    decide

/-- C35: a mesh with cells that are not zones (faces, say) cannot be written as text. -/
theorem C35_refused_text (io : FlacIO F) (version ctime : List Char) (points : List (List F)) (cells : List (String × List (List Int)))
    (sets : Dict (List (List Int))) (h : ∃ b ∈ cells, zoneOf b.1 = none) :
    ∃ e, writeAscii io version ctime points cells sets = .error e := by
  obtain ⟨e, he⟩ := zoneBlocks_error io points cells h
  unfold writeAscii
  cases splitFZ cells sets with
  | error e => exact ⟨e, rfl⟩
  | ok s =>
    simp only
    cases mapRes (pointLine io) points.zipIdx with
    | error e => exact ⟨e, rfl⟩
    | ok pl =>
      simp only
      rw [he]
      exact ⟨e, rfl⟩

/-- C35: nor in binary. -/
theorem C35_refused_binary (io : FlacIO F) (points : List (List F)) (cells : List (String × List (List Int)))
    (sets : Dict (List (List Int))) (h : ∃ b ∈ cells, zoneOf b.1 = none) :
    ∃ e, writeBinary io points cells sets = .error e := by
  obtain ⟨e, he⟩ := zoneBlocks_error io points cells h
  unfold writeBinary
  cases splitFZ cells sets with
  | error e => exact ⟨e, rfl⟩
  | ok s =>
    simp only
    cases packU 4 (points.length : Int) with
    | error e => exact ⟨e, rfl⟩
    | ok np =>
      simp only
      cases mapRes (packPoint io) points.zipIdx with
      | error e => exact ⟨e, rfl⟩
      | ok pl =>
        simp only
        rw [he]
        exact ⟨e, rfl⟩

example : writeAscii flacWord "1".toList "t".toList flacPoints [("tetra", [[0, 1, 2, 3]]), ("triangle", [[0, 1, 2]])] [] = .error .assertionError := by
  decide +kernel

/-! ## Orientation -/

/-- Exact arithmetic in an ordered ring. -/
structure Exact {R : Type} [CommRing R] [LinearOrder R] (ar : Arith R) : Prop where
  sub : ∀ x y, ar.sub x y = x - y
  mul : ∀ x y, ar.mul x y = x * y
  add : ∀ x y, ar.add x y = x + y
  pos : ∀ x, ar.pos x = decide (0 < x)

/-- The triple product of the first four nodes in FLAC3D's order. -/
def flacTriple {R : Type} (ar : Arith R) (d : R) (points : List (List R)) (kind : String) (row : List Int) : R :=
  let p (i : Nat) : List R := points.getD (row.getD ((flacOrder kind).getD i 0) 0).toNat []
  triple ar (p 0) (p 1) (p 2) (p 3) d

/-- Exchanging two of the three edges changes the sign. -/
theorem flacTriple_swap {R : Type} [CommRing R] [LinearOrder R] (ar : Arith R) (h : Exact ar) (p q r s : List R) (d : R) :
    triple ar p r q s d = - triple ar p q r s d ∧ triple ar p s r q d = - triple ar p q r s d := by
  constructor <;> simp only [triple, h.sub, h.mul, h.add] <;> ring

/-- C35: in exact arithmetic the zone that is written has the triple product of the given one without its sign; so zones are
written right-handed unless they are flat. -/
theorem C35_orientation {R : Type} [CommRing R] [LinearOrder R] [IsStrictOrderedRing R] (ar : Arith R) (h : Exact ar) (d : R)
    (points : List (List R)) (kind : String) (hk : kind ∈ ["tetra", "pyramid", "wedge", "hexahedron"]) (row : List Int)
    (hl : size kind ≤ row.length) :
    flacTriple ar d points kind (oriented ar d points kind row) = |flacTriple ar d points kind row| := by
  have hpos : positive ar d points kind row = decide (0 < flacTriple ar d points kind row) := h.pos _
  by_cases hp : 0 < flacTriple ar d points kind row
  · have e : oriented ar d points kind row = row.take (size kind) := by
      unfold oriented
      rw [hpos, if_pos (by simpa using hp)]
    rw [abs_of_pos hp, e]
    have hget : ∀ i, i < size kind → (row.take (size kind)).getD i 0 = row.getD i 0 := by
      intro i hi
      simp [List.getD_eq_getElem?_getD, List.getElem?_take, hi]
    unfold flacTriple
    simp only
    simp only [List.mem_cons, List.mem_nil_iff, or_false] at hk
    rcases hk with rfl | rfl | rfl | rfl <;>
      rw [hget _ (by decide), hget _ (by decide), hget _ (by decide), hget _ (by decide)]
  · have e : oriented ar d points kind row = at' 0 (row.take (size kind)) (mirror kind) := by
      unfold oriented
      rw [hpos, if_neg (by simpa using hp)]
    rw [abs_of_nonpos (not_lt.1 hp), e]
    have hget : ∀ i, i < size kind → (at' 0 (row.take (size kind)) (mirror kind)).getD i 0 = row.getD ((mirror kind).getD i 0) 0 := by
      intro i hi
      obtain ⟨-, -, -, hm, hml, -⟩ := kind_facts kind hk
      have hi' : i < (mirror kind).length := by rw [hml]; exact hi
      have h1 : (mirror kind)[i] < size kind := hm _ (List.getElem_mem hi')
      unfold at'
      simp [List.getD_eq_getElem?_getD, hi', h1]
    unfold flacTriple
    simp only
    simp only [List.mem_cons, List.mem_nil_iff, or_false] at hk
    rcases hk with rfl | rfl | rfl | rfl <;>
      rw [hget _ (by decide), hget _ (by decide), hget _ (by decide), hget _ (by decide)]
    · exact (flacTriple_swap ar h _ _ _ _ d).1
    · exact (flacTriple_swap ar h _ _ _ _ d).1
    · exact (flacTriple_swap ar h _ _ _ _ d).2
    · exact (flacTriple_swap ar h _ _ _ _ d).1

/-- Integers. -/
def flacInt : Arith Int := ⟨fun x y => x - y, fun x y => x * y, fun x y => x + y, fun x => decide (0 < x)⟩

example : Exact flacInt ∧ flacTriple flacInt 0 [[0, 0, 0], [1, 0, 0], [0, 1, 0], [0, 0, 1]] "tetra" [0, 2, 1, 3] = -1 ∧
    oriented flacInt 0 [[0, 0, 0], [1, 0, 0], [0, 1, 0], [0, 0, 1]] "tetra" [0, 2, 1, 3] = [0, 1, 2, 3] :=
  ⟨⟨fun _ _ => rfl, fun _ _ => rfl, fun _ _ => rfl, fun _ => rfl⟩, by decide, by decide⟩

/-! ## What does not hold -/

/-- C35: groups contain the same cells after a round trip. -/
def C35_groups_statement : Prop :=
  ∀ (F : Type) (io : FlacIO F) (version ctime : List Char), '\n' ∉ version → '\n' ∉ ctime → ∀ (points : List (List F))
    (cells : List (String × List (List Int))) (sets : Dict (List (List Int))), MeshOk points cells sets → SetsOk cells sets → TextNames sets →
    ∃ text left o, writeAscii io version ctime points cells sets = .ok (text, left) ∧ read io text = .ok o ∧
      o.sets.map (·.2) = sets.map (·.2)

def flacTwo : List (String × List (List Int)) := [("tetra", [[0, 1, 2, 3]]), ("pyramid", [[0, 1, 2, 3, 4]])]

theorem flacTwoOk : MeshOk flacPoints flacTwo [("a", [[0], [0]])] ∧ SetsOk flacTwo [("a", [[0], [0]])] ∧ TextNames [("a", [[0], [0]])] := by
  refine ⟨⟨by decide +kernel, by decide, by decide, by decide, by decide, by decide⟩, ?_, ?_⟩
  · unfold SetsOk
    decide
  · unfold TextNames
    decide

/-- Members in later blocks keep their numbers counted through all blocks. -/
theorem C35_groups_false : ¬ C35_groups_statement := by
  intro h
  obtain ⟨text, left, o, h1, h2, h3⟩ := h _ flacWord "1".toList "t".toList (by decide) (by decide) flacPoints flacTwo [("a", [[0], [0]])]
    flacTwoOk.1 flacTwoOk.2.1 flacTwoOk.2.2
  have e : ((writeAscii flacWord "1".toList "t".toList flacPoints flacTwo [("a", [[0], [0]])]).bind fun r => read flacWord r.1) = .ok o := by
    rw [h1]
    exact h2
  have e' : ((writeAscii flacWord "1".toList "t".toList flacPoints flacTwo [("a", [[0], [0]])]).bind fun r => read flacWord r.1) =
      .ok ⟨flacPoints, [("tetra", [[0, 1, 2, 3]]), ("pyramid", [[0, 3, 2, 1, 4]])], [[1], [2]], [("zone:a:1", [[0], [1]])]⟩ := by decide +kernel
  rw [e'] at e
  injection e with e
  rw [← e] at h3
  revert h3
  decide

/-- C35, C50: writing does not change the sets of the user's mesh. -/
def C35_unchanged_statement : Prop :=
  ∀ (F : Type) (io : FlacIO F) (version ctime : List Char) (points : List (List F)) (cells : List (String × List (List Int)))
    (sets : Dict (List (List Int))) (text : List Char) (left : Dict (List (List Int))),
    MeshOk points cells sets → writeAscii io version ctime points cells sets = .ok (text, left) → left = sets

/-- The offsets of the blocks are added to the arrays of the mesh itself. -/
theorem C35_unchanged_false : ¬ C35_unchanged_statement := by
  intro h
  have h1 := writeAscii_ok flacWord 0 "1".toList "t".toList flacPoints flacTwo [("a", [[0], [0]])] flacTwoOk.1
  have := h _ _ _ _ _ _ _ _ _ flacTwoOk.1 h1
  revert this
  decide

/-- C35: any mesh of zones whose sets have members in range can be read back after writing; sets may be empty. -/
def C35_empty_groups_statement : Prop :=
  ∀ (F : Type) (io : FlacIO F) (version ctime : List Char), '\n' ∉ version → '\n' ∉ ctime → ∀ (points : List (List F))
    (cells : List (String × List (List Int))) (sets : Dict (List (List Int))), MeshOk points cells sets → TextNames sets →
    (∀ kv ∈ sets, ∀ p ∈ cells.zip kv.2, ∀ i ∈ p.2, 0 ≤ i ∧ i < (p.1.2.length : Int)) →
    ∃ text left o, writeAscii io version ctime points cells sets = .ok (text, left) ∧ read io text = .ok o

/-- An empty group cannot be read: its empty array is of floats and does not index. -/
theorem C35_empty_groups_false : ¬ C35_empty_groups_statement := by
  intro h
  obtain ⟨text, left, o, h1, h2⟩ := h _ flacWord "1".toList "t".toList (by decide) (by decide) flacPoints [("tetra", [[0, 1, 2, 3]])] [("a", [[]])]
    ⟨by decide +kernel, by decide, by decide, by decide, by decide, by decide⟩ (by unfold TextNames; decide) (by decide)
  have e : ((writeAscii flacWord "1".toList "t".toList flacPoints [("tetra", [[0, 1, 2, 3]])] [("a", [[]])]).bind fun r => read flacWord r.1) = .ok o := by
    rw [h1]
    exact h2
  have e' : ((writeAscii flacWord "1".toList "t".toList flacPoints [("tetra", [[0, 1, 2, 3]])] [("a", [[]])]).bind fun r => read flacWord r.1) =
      .error .indexError := by decide +kernel
  rw [e'] at e
  cases e

end Props
end Meshio
