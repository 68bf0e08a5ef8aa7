/-
C70: `meshio convert`.
-/
import Verif.Props.Cli
namespace Meshio.Props
open Meshio Meshio.Cli Meshio.Spec

variable {P R : Type}

/-- The keywords for the writer: `--float-format` and `--ascii`, and no others. -/
theorem C70_keywords (a : Convert) (k : String) (v : Arg) :
    (k, v) ∈ a.kwargs ↔ (k = "float_fmt" ∧ ∃ f, a.floatFormat = some f ∧ v = .str f) ∨ (k = "binary" ∧ a.ascii = true ∧ v = .bool false) := by
  unfold Convert.kwargs
  rw [List.mem_append]
  apply or_congr
  · cases a.floatFormat with
    | none => simp
    | some f => simp
  · cases a.ascii <;> simp

theorem get?_map_writers {A B : Type} (d : Dict A) (g : A → B) (f : String) : Dict.get? (d.map fun w => (w.1, g w.2)) f = (Dict.get? d f).map g := by
  induction d with
  | nil => rfl
  | cons e d ih =>
    rw [List.map_cons, Dict.get?_cons, Dict.get?_cons, ih]
    split <;> rfl

/-- Converting a file without changes to its sets: the mesh that was read is written once, in the format that is given or belongs to the name
of the output file. -/
theorem C70_converts (a : Convert) (r : Registry (Reader (Mesh P R)) (Fn (Mesh P R))) (infile outfile : List Char) (m m' : Mesh P R)
    (calls : List String) (hr : readMesh r (.path infile true) a.inputFormat = ⟨.ok m, calls⟩) (hm : a.change m = .ok m')
    (f : String) (hf : Chosen r.exts (.path outfile false) a.outputFormat f) (w : Fn (Mesh P R)) (hw : r.writers.get? f = some w)
    (hc : ColumnsOk m'.cells) :
    convert a r infile true outfile = ⟨calls, [(f, a.kwargs, m')], (w.call a.kwargs m').map fun _ => 0⟩ := by
  unfold convert
  simp only [hr, hm]
  rw [C11_result ⟨r.exts, r.readers, r.writers.map fun w => (w.1, fun _ m => w.2.call a.kwargs m)⟩ (.path outfile false) m' a.outputFormat f
    (fun _ m => w.call a.kwargs m) hf (by
      exact (get?_map_writers r.writers (fun (w : Fn (Mesh P R)) => fun (_ : Target) (m : Mesh P R) => w.call a.kwargs m) f).trans (by rw [hw]; rfl)) hc]
  cases w.call a.kwargs m' <;> rfl

/-- Without the two options for sets the mesh is the one that was read. -/
theorem C70_unchanged (a : Convert) (h1 : a.setsToInt = false) (h2 : a.intToSets = false) (m : Mesh P R) : a.change m = .ok m := by
  unfold Convert.change
  rw [h1, h2]
  rfl

/-- Nothing is written if the file cannot be read or the mesh cannot be changed. -/
theorem C70_untouched (a : Convert) (r : Registry (Reader (Mesh P R)) (Fn (Mesh P R))) (infile outfile : List Char) (ex : Bool) :
    (∀ e calls, readMesh r (.path infile ex) a.inputFormat = ⟨.error e, calls⟩ → convert a r infile ex outfile = ⟨calls, [], .error e⟩) ∧
    (∀ m e calls, readMesh r (.path infile ex) a.inputFormat = ⟨.ok m, calls⟩ → a.change m = .error e →
      convert a r infile ex outfile = ⟨calls, [], .error e⟩) := by
  constructor
  · intro e calls h
    unfold convert
    simp only [h]
  · intro m e calls h hm
    unfold convert
    simp only [h, hm]

/-- `--sets-to-int-data` leaves no sets, and changes neither points nor cells. -/
theorem C70_sets_to_int (a : Convert) (h1 : a.setsToInt = true) (h2 : a.intToSets = false) (m m' : Mesh P R) (h : a.change m = .ok m') :
    m'.pointSets = [] ∧ m'.cellSets = [] ∧ m'.points = m.points ∧ m'.cells = m.cells ∧
      (∃ m1, m.pointSetsToData "-" = .ok m1 ∧ m1.cellSetsToData none = .ok m') := by
  unfold Convert.change at h
  rw [h1, h2] at h
  simp only [if_true, Bool.false_eq_true, if_false] at h
  cases hs : meshSetsToInt m with
  | error e => rw [hs] at h; cases h
  | ok m2 =>
    rw [hs] at h
    simp only [Except.ok.injEq] at h
    subst h
    unfold meshSetsToInt at hs
    cases hp : m.pointSetsToData "-" with
    | error e => rw [hp] at hs; cases hs
    | ok m1 =>
      rw [hp] at hs
      simp only at hs
      have e1 : m1.pointSets = [] ∧ m1.points = m.points ∧ m1.cells = m.cells := by
        unfold Mesh.pointSetsToData at hp
        split at hp
        · split at hp
          · cases hp
          · simp only [Except.ok.injEq] at hp
            subst hp
            exact ⟨rfl, rfl, rfl⟩
        · next hl =>
          simp only [Except.ok.injEq] at hp
          subst hp
          exact ⟨List.eq_nil_of_length_eq_zero (by omega), rfl, rfl⟩
      have e2 : m2.cellSets = [] ∧ m2.points = m1.points ∧ m2.cells = m1.cells ∧ m2.pointSets = m1.pointSets := by
        have hs' := hs
        unfold Mesh.cellSetsToData at hs'
        split at hs'
        · split at hs'
          · cases hs'
          · simp only [Except.ok.injEq] at hs'
            subst hs'
            exact ⟨rfl, rfl, rfl, rfl⟩
        · next hl =>
          simp only [Except.ok.injEq] at hs'
          subst hs'
          exact ⟨List.eq_nil_of_length_eq_zero (by omega), rfl, rfl, rfl⟩
      exact ⟨e2.2.2.2.trans e1.1, e2.1, e2.2.1.trans e1.2.1, e2.2.2.1.trans e1.2.2, m1, rfl, hs⟩

/-- The property one would like: `--int-data-to-sets` turns the integer data of a mesh into sets. -/
def C70_int_to_sets_statement : Prop :=
  ∀ (m : Mesh Int Int), Dict.Ok m.pointData → m.cellData = [] → (∀ e ∈ m.pointData, e.2.isInt = true ∧ e.2.arr.tail = []) →
    ∃ m', ({ intToSets := true } : Convert).change m = .ok m'

/-- A mesh with two points and one integer array. -/
def cliData : Mesh Int Int := ⟨[0, 1], [], [("a", ⟨true, ⟨[], [.int 4, .int 5]⟩⟩)], [], [], []⟩

theorem C70_int_to_sets_false : ¬ C70_int_to_sets_statement := by
  intro h
  obtain ⟨m', h'⟩ := h cliData (by decide) rfl (by decide)
  have : ({ intToSets := true } : Convert).change cliData = .error .runtimeError := by decide +kernel
  rw [this] at h'
  cases h'

theorem length_erase_of_get? {α : Type} (d : Dict α) (k : String) (v : α) (h : d.get? k = some v) : (d.erase k).length + 1 = d.length := by
  induction d with
  | nil => cases h
  | cons e d ih =>
    unfold Dict.erase
    rw [Dict.get?_cons] at h
    split at h
    · next he => rw [if_pos (by first | exact he | exact he.symm)]; rfl
    · next he =>
      rw [if_neg (by first | exact he | exact fun e => he e.symm), List.length_cons, List.length_cons, ih h]

theorem forKeys_shrinks {S : Type} (size : S → Nat) (f : String → S → Res S) (hf : ∀ k s s', f k s = .ok s' → size s' + 1 = size s) (n : Nat)
    (keys : List String) (s s' : S) (h : forKeys size f n keys s = .ok s') : keys = [] ∧ s' = s := by
  cases keys with
  | nil =>
    unfold forKeys at h
    split at h
    · cases h
    · cases h; exact ⟨rfl, rfl⟩
  | cons k keys =>
    exfalso
    unfold forKeys at h
    split at h
    · cases h
    · next hn =>
      rw [Classical.not_not] at hn
      split at h
      · cases h
      · next s1 h1 =>
        have := hf k s s1 h1
        cases keys with
        | nil => unfold forKeys at h; rw [if_pos (by omega)] at h; cases h
        | cons => unfold forKeys at h; rw [if_pos (by omega)] at h; cases h

/-- It fails for every mesh with data: the arrays are removed from the dictionary that is being iterated over.  The option is of no
effect on the other meshes. -/
theorem C70_int_to_sets (a : Convert) (h1 : a.setsToInt = false) (h2 : a.intToSets = true) (m m' : Mesh P R) :
    a.change m = .ok m' ↔ m.pointData = [] ∧ m.cellData = [] ∧ m' = m := by
  unfold Convert.change
  rw [h1, h2]
  simp only [Bool.false_eq_true, if_false, if_true]
  unfold meshIntToSets
  constructor
  · intro h
    split at h
    · cases h
    · next m1 hp =>
      obtain ⟨k1, rfl⟩ := forKeys_shrinks (fun m : Mesh P R => m.pointData.length) (fun k m => m.pointDataToSets k) (by
        intro k s s' hs
        unfold Mesh.pointDataToSets at hs
        split at hs
        · cases hs
        · next data hd =>
          split at hs
          · cases hs
          · split at hs
            · cases hs
            · simp only [Except.ok.injEq] at hs
              subst hs
              exact length_erase_of_get? _ _ _ hd) _ _ _ _ hp
      obtain ⟨k2, rfl⟩ := forKeys_shrinks (fun m : Mesh P R => m.cellData.length) (fun k m => m.cellDataToSets k) (by
        intro k s s' hs
        unfold Mesh.cellDataToSets at hs
        split at hs
        · cases hs
        · next data hd =>
          split at hs
          · cases hs
          · split at hs
            · cases hs
            · split at hs
              · cases hs
              · simp only [Except.ok.injEq] at hs
                subst hs
                exact length_erase_of_get? _ _ _ hd) _ _ _ _ h
      exact ⟨List.map_eq_nil_iff.mp k1, List.map_eq_nil_iff.mp k2, rfl⟩
  · rintro ⟨k1, k2, rfl⟩
    simp [k1, k2, Dict.keys, forKeys]

example : ({ intToSets := true } : Convert).change cliData = .error .runtimeError := by decide +kernel

/-- The writers of meshio, with their keyword parameters. -/
def allWriters : List (String × List String) := registered.flatMap (·.2.2.2)

/-- The property one would like: the options for text output can be used with every output format. -/
def C70_options_statement : Prop := ∀ (a : Convert) (w : String × List String), w ∈ allWriters → ∀ k ∈ a.kwargs, k.1 ∈ w.2

theorem C70_options_false : ¬ C70_options_statement := fun h => absurd (h { ascii := true } ("off", []) (by decide) ("binary", .bool false) (by decide)) (by decide)

/-- The output formats that take `--ascii` and `--float-format`. -/
theorem C70_options_partial : ∀ w ∈ allWriters,
    ("binary" ∈ w.2 ↔ w.1 ∈ ["ansys", "flac3d", "gmsh", "gmsh22", "mdpa", "ply", "stl", "vtk", "vtk42", "vtk51", "vtu"]) ∧
    ("float_fmt" ∈ w.2 ↔ w.1 ∈ ["abaqus", "flac3d", "gmsh", "gmsh22", "mdpa", "medit", "netgen", "svg", "tetgen"]) := by decide +kernel

/-- With the others these options are a TypeError. -/
theorem C70_option_refused (w : Fn (Mesh P R)) (a : Convert) (m : Mesh P R) (k : String × Arg) (hk : k ∈ a.kwargs) (h : k.1 ∉ w.params) :
    w.call a.kwargs m = .error .typeError := by
  unfold Fn.call
  rw [if_neg]
  intro hall
  exact h (by simpa using List.all_eq_true.mp hall k hk)

/-- The writer names that can be given are those of the formats. -/
example : allWriters.length = 33 ∧ (allWriters.map (·.1)).Nodup := by decide +kernel

/-- A conversion to VTU as text. -/
example : convert { ascii := true } ⟨[(".vtu", ["vtu"]), (".vtk", ["vtk"])], [("vtk", fun _ => .ok cliData)], [("vtu", ⟨["binary", "compression"], fun _ _ => .ok ()⟩)]⟩
    "a.vtk".toList true "b.vtu".toList = ⟨["vtk"], [("vtu", [("binary", .bool false)], cliData)], .ok 0⟩ := by decide +kernel

end Meshio.Props
