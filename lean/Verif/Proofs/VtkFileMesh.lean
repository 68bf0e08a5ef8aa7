/-
The legacy VTK reader: the mesh made of the sections.
-/
import Verif.Proofs.VtkFileRead
import Verif.Props.VtkLegacy
namespace Meshio.VtkFile
open Meshio Meshio.Spec Meshio.Vtk

variable {V : Type} {io : VtkIO V} {has : String → V → Prop}

/-! ### Dictionaries -/

theorem dict_ok {α : Type} (l : List (String × α)) (d : Dict α) (h : Dict.Ok d) : Dict.Ok (l.foldl (fun d kv => Dict.set d kv.1 kv.2) d) := by
  induction l generalizing d with
  | nil => exact h
  | cons x l ih => exact ih _ (h.set _ _)

theorem vtkDict_ok {α : Type} (l : List (String × α)) : Dict.Ok (vtkDict l) := dict_ok l [] (by simp [Dict.Ok, Dict.keys])

theorem mem_dict {α : Type} (l : List (String × α)) (d : Dict α) {kv : String × α} (h : kv ∈ l.foldl (fun d kv => Dict.set d kv.1 kv.2) d) :
    kv ∈ d ∨ kv ∈ l := by
  induction l generalizing d with
  | nil => exact .inl h
  | cons x l ih =>
    rcases ih _ h with h | h
    · rcases Dict.mem_set h with h | h
      · exact .inr (by rw [h]; simp)
      · exact .inl h
    · exact .inr (by simp [h])

theorem mem_vtkDict {α : Type} {l : List (String × α)} {kv : String × α} (h : kv ∈ vtkDict l) : kv ∈ l := by
  rcases mem_dict l [] h with h | h
  · cases h
  · exact h

theorem length_vtkData {R : Type} (cs : List VtkCell) (d : List R) (h : d.length = cs.length) :
    (vtkData cs d).map List.length = (vtkBlocks cs).map (·.2.length) := by
  have e : vtkRuns cs = (runsBy (fun c : VtkCell × R => (c.1.1, c.1.2.length)) (cs.zip d)).map (List.map (·.1)) := by
    have := runsBy_map (fun c : VtkCell × R => c.1) (fun c : VtkCell => (c.1, c.2.length)) (cs.zip d)
    rw [List.map_fst_zip (by omega)] at this
    exact this
  unfold vtkData vtkBlocks
  rw [e, List.filterMap_map, List.map_filterMap, List.map_filterMap]
  apply filterMap_congr'
  intro r _
  cases r with
  | nil => rfl
  | cons x r =>
    simp only [Function.comp_def, List.map_cons, vtkRunData, vtkBlock, Option.map_map, List.length_cons, List.length_map]

/-- Cell data as they come out. -/
def outData (cs : List VtkCell) (raw : Dict (Arr V)) : Dict (List (Arr V)) :=
  raw.map fun kv => (kv.1, (vtkData cs kv.2.rows).map fun rows => ⟨kv.2.dtype, kv.2.tail, rows⟩)

theorem cellArrays_ok (cs : List VtkCell) (raw : Dict (Arr V)) (h : Dict.Ok raw) :
    cellArrays raw ((raw.map fun kv => (kv.1, kv.2.rows)).map fun kd => (kd.1, vtkData cs kd.2)) = outData cs raw := by
  unfold cellArrays outData
  rw [List.map_map, List.map_map]
  apply List.map_congr_left
  intro kv hkv
  simp only [Function.comp_def]
  rw [Dict.get?_of_mem h (k := kv.1) (v := kv.2) hkv]
  rfl

theorem build_ok (info : Info V) (p : Arr V) (hp : info.points = some p) (cells : List Blk) (hc : ∀ b ∈ cells, KnownType b.1)
    (hpd : ∀ kv ∈ info.pointData, kv.2.rows.length = p.rows.length) (cd : Dict (List (Arr V)))
    (hcd : ∀ kv ∈ cd, kv.2.map (·.rows.length) = cells.map (·.2.length)) :
    build info cells cd = .ok ⟨some p, cells, info.pointData, cd, info.fieldData⟩ := by
  unfold build
  have h1 : (cells.all fun b => hasDim b.1) = true := (all_hasDim (fun b : Blk => b.1) cells).2 hc
  rw [h1, hp]
  simp only [Bool.not_true, Bool.false_eq_true, if_false]
  rw [if_neg, if_neg]
  · rw [Bool.not_eq_true, List.any_eq_false]
    intro kv hkv
    simp [hcd kv hkv]
  · rw [Bool.not_eq_true, List.any_eq_false]
    intro kv hkv
    simp [hpd kv hkv]

theorem known_blocks (cs : List VtkCell) (h : ∀ c ∈ cs, ∀ t, vtkName c.1 = some t → KnownType t) : ∀ b ∈ vtkBlocks cs, KnownType b.1 := by
  intro b hb
  obtain ⟨r, hr, e⟩ := List.mem_filterMap.1 hb
  cases r with
  | nil => cases e
  | cons c r =>
    simp only [vtkBlock, Option.map_eq_some_iff] at e
    obtain ⟨t, ht, rfl⟩ := e
    refine h c ?_ t ht
    rw [← flatten_runsBy (fun c : VtkCell => (c.1, c.2.length)) cs]
    exact List.mem_flatten.2 ⟨_, hr, by simp⟩

/-- The data of all blocks have the right lengths. -/
theorem outData_lengths (cs : List VtkCell) (raw : Dict (Arr V)) (h : ∀ kv ∈ raw, kv.2.rows.length = cs.length) :
    ∀ kv ∈ outData cs raw, kv.2.map (·.rows.length) = (vtkBlocks cs).map (·.2.length) := by
  intro kv hkv
  obtain ⟨x, hx, rfl⟩ := List.mem_map.1 hkv
  simp only [List.map_map, Function.comp_def]
  exact length_vtkData cs x.2.rows (h x hx)

theorem finish42 (info : Info V) (conn : List Int) (types : List Nat) (hc : checkMesh io info = .ok info) (h1 : info.conn = some conn)
    (h2 : info.types = some types) {cells : List Blk} {cd : Dict (List (List (List V)))}
    (ht : translateCells conn types (info.cellRaw.map fun kv => (kv.1, kv.2.rows)) = .ok (cells, cd)) :
    finish io .v42 info = build info cells (cellArrays info.cellRaw cd) := by
  unfold finish
  rw [hc]
  simp only [h1, h2, ht]

theorem finish51 (info : Info V) (conn offs : List Int) (types : List Nat) (hc : checkMesh io info = .ok info) (h1 : info.conn = some conn)
    (h2 : info.types = some types) (h3 : info.offsets = some offs) {cells : List Blk} {cd : Dict (List (List (List V)))}
    (ht : vtkCellsFromData conn offs types (info.cellRaw.map fun kv => (kv.1, kv.2.rows)) = .ok (cells, cd)) :
    finish io .v51 info = build info cells (cellArrays info.cellRaw cd) := by
  unfold finish
  rw [hc]
  simp only [h1, h2, h3, ht]

theorem checkMesh_unstructured (info : Info V) (h : info.type = some "UNSTRUCTURED_GRID") (h1 : info.conn.isSome) (h2 : info.types.isSome) :
    checkMesh io info = .ok info := by
  unfold checkMesh
  rw [h]
  simp only [if_true]
  rw [if_neg (by cases hx : info.conn with
    | none => rw [hx] at h1; cases h1
    | some _ => simp), if_neg (by cases hx : info.types with
    | none => rw [hx] at h2; cases h2
    | some _ => simp)]

/-! ### Entries of the data set -/

def selKey (key : String) : VtkSec V → Option (Entry V)
  | .dims x y z => if key = "DIMENSIONS" then some (.ints [(x : Int), y, z]) else none
  | .floats k x y z => if k = key then some (.floats [x, y, z]) else none
  | .coords k a => if k = key then some (.arr a) else none
  | _ => none

theorem get?_foldl_arr (l : List (String × Arr V)) (key : String) (h : ∀ kv ∈ l, kv.1 ≠ key) (d : Dict (Entry V)) :
    Dict.get? (l.foldl (fun d kv => Dict.set d kv.1 (.arr kv.2)) d) key = Dict.get? d key := by
  induction l generalizing d with
  | nil => rfl
  | cons x l ih =>
    rw [List.foldl_cons, ih fun kv hkv => h kv (by simp [hkv]), Dict.get?_set, if_neg]
    intro e
    exact h x (by simp) e.symm

theorem step_entry (v : Ver) {ascii : Bool} {t : String} {c : VtkCtx} {info : Info V} (hf : Fits t c info) (x : VtkSec V) (hok : x.Ok ascii t c)
    (key : String) (hk : key ∈ vtkReserved) : Dict.get? (step v info x).dataset key = (selKey key x).or (Dict.get? info.dataset key) := by
  have hn : ∀ l : List (String × Arr V), l = x.named → Dict.get? (addNamed info l).dataset key = Dict.get? info.dataset key := by
    intro l hl
    rw [(addNamed_dicts hf l).2.2.2]
    by_cases hc : c.target = .dataset
    · rw [if_pos hc, get?_foldl_arr]
      intro kv hkv e
      subst hl
      exact hok.1 hc kv hkv (by rw [e]; exact hk)
    · rw [if_neg hc]; rfl
  cases x with
  | cells cs => cases v <;> rfl
  | arrays l => exact (hn _ rfl).trans (by simp [selKey])
  | scalars name a => exact (hn _ rfl).trans (by simp [selKey])
  | vectors name a => exact (hn _ rfl).trans (by simp [selKey])
  | tensors name a => exact (hn _ rfl).trans (by simp [selKey])
  | dims x y z =>
    simp only [step, selKey, Dict.get?_set]
    split <;> rfl
  | floats k x y z =>
    simp only [step, selKey, Dict.get?_set]
    by_cases e : k = key
    · subst e; simp
    · rw [if_neg e, if_neg (fun h => e h.symm)]; rfl
  | coords k a =>
    simp only [step, selKey, Dict.get?_set]
    by_cases e : k = key
    · subst e; simp
    · rw [if_neg e, if_neg (fun h => e h.symm)]; rfl
  | _ => rfl

theorem final_entry (v : Ver) {ascii : Bool} {t : String} {c : VtkCtx} {info : Info V} (hf : Fits t c info) (l : List (VtkSec V)) {s : List Char}
    (h : vtkSays io has v ascii t c l s) (key : String) (hk : key ∈ vtkReserved) :
    Dict.get? (l.foldl (step v) info).dataset key = ((l.filterMap (selKey key)).getLast?).or (Dict.get? info.dataset key) := by
  induction l generalizing c info s with
  | nil => rfl
  | cons x l ih =>
    obtain ⟨s', hok, -, h⟩ := h
    rw [List.foldl_cons, ih (fits_step v hf x) h, step_entry v hf x hok key hk, List.filterMap_cons]
    cases selKey key x with
    | none => simp
    | some y =>
      simp only [List.getLast?_cons, Option.some_or]
      cases (List.filterMap (selKey key) l).getLast? <;> simp

theorem says_mem {v : Ver} {ascii : Bool} {t : String} {c : VtkCtx} (l : List (VtkSec V)) {s : List Char} (h : vtkSays io has v ascii t c l s) :
    ∀ x ∈ l, ∃ c, x.Ok ascii t c := by
  induction l generalizing c s with
  | nil => simp
  | cons x l ih =>
    obtain ⟨s', hok, -, h⟩ := h
    intro y hy
    rcases List.mem_cons.1 hy with rfl | hy
    · exact ⟨c, hok⟩
    · exact ih h y hy

theorem sel_dims {v : Ver} {ascii : Bool} {t : String} {c : VtkCtx} (l : List (VtkSec V)) {s : List Char} (h : vtkSays io has v ascii t c l s) :
    (l.filterMap (selKey "DIMENSIONS")).getLast? = (vtkDims l).map fun d => .ints [(d.1 : Int), d.2.1, d.2.2] := by
  unfold vtkDims
  rw [← filterMap_map_getLast]
  congr 1
  apply filterMap_congr'
  intro x hx
  obtain ⟨c', -, hok⟩ := says_mem l h x hx
  cases x with
  | floats k x y z =>
    obtain ⟨-, -, hk⟩ := hok
    have := (by decide : ∀ k ∈ ["ORIGIN", "SPACING", "ASPECT_RATIO"], k ≠ "DIMENSIONS") k hk
    simp [selKey, this]
  | coords k a =>
    obtain ⟨-, -, hk, -⟩ := hok
    have := (by decide : ∀ k ∈ ["X_COORDINATES", "Y_COORDINATES", "Z_COORDINATES"], k ≠ "DIMENSIONS") k hk
    simp [selKey, this]
  | _ => rfl

theorem sel_floats {v : Ver} {ascii : Bool} {t : String} {c : VtkCtx} (l : List (VtkSec V)) {s : List Char} (h : vtkSays io has v ascii t c l s)
    (key : String) (hkey : key ∈ ["ORIGIN", "SPACING", "ASPECT_RATIO"]) :
    (l.filterMap (selKey key)).getLast? = (vtkFloats key l).map fun d => .floats [d.1, d.2.1, d.2.2] := by
  unfold vtkFloats
  rw [← filterMap_map_getLast]
  congr 1
  apply filterMap_congr'
  intro x hx
  obtain ⟨c', -, hok⟩ := says_mem l h x hx
  cases x with
  | dims x y z =>
    have := (by decide : ∀ k ∈ ["ORIGIN", "SPACING", "ASPECT_RATIO"], k ≠ "DIMENSIONS") key hkey
    simp [selKey, this]
  | floats k x y z =>
    by_cases e : k = key
    · simp [selKey, e]
    · simp [selKey, e]
  | coords k a =>
    obtain ⟨-, -, hk, -⟩ := hok
    have := (by decide : ∀ k ∈ ["X_COORDINATES", "Y_COORDINATES", "Z_COORDINATES"], ∀ key ∈ ["ORIGIN", "SPACING", "ASPECT_RATIO"], k ≠ key) k hk key hkey
    simp [selKey, this]
  | _ => rfl

theorem sel_coords {v : Ver} {ascii : Bool} {t : String} {c : VtkCtx} (l : List (VtkSec V)) {s : List Char} (h : vtkSays io has v ascii t c l s)
    (key : String) (hkey : key ∈ ["X_COORDINATES", "Y_COORDINATES", "Z_COORDINATES"]) :
    (l.filterMap (selKey key)).getLast? = (vtkCoords key l).map .arr := by
  unfold vtkCoords
  rw [← filterMap_map_getLast]
  congr 1
  apply filterMap_congr'
  intro x hx
  obtain ⟨c', -, hok⟩ := says_mem l h x hx
  cases x with
  | dims x y z =>
    have := (by decide : ∀ k ∈ ["X_COORDINATES", "Y_COORDINATES", "Z_COORDINATES"], k ≠ "DIMENSIONS") key hkey
    simp [selKey, this]
  | floats k x y z =>
    obtain ⟨-, -, hk⟩ := hok
    have := (by decide : ∀ key ∈ ["X_COORDINATES", "Y_COORDINATES", "Z_COORDINATES"], ∀ k ∈ ["ORIGIN", "SPACING", "ASPECT_RATIO"], k ≠ key) key hkey k hk
    simp [selKey, this]
  | coords k a =>
    by_cases e : k = key
    · simp [selKey, e]
    · simp [selKey, e]
  | _ => rfl

/-! ### Structured grids -/

/-- The cells of a grid as cells of a file. -/
def gridFile (x y z : Nat) : List VtkCell :=
  (gridCells (gridAxes x y z)).map fun r => (gridCode (gridAxes x y z).length, r.map Int.ofNat)

theorem gridFile_stream (x y z : Nat) :
    streamOf (gridFile x y z) = ((gridCells (gridAxes x y z)).map fun r => r.length :: r).flatten.map Int.ofNat := by
  unfold streamOf gridFile
  rw [List.flatMap_map, List.map_flatten, List.map_map, List.flatMap_def]
  congr 1
  apply List.map_congr_left
  intro r _
  simp

theorem gridFile_types (x y z : Nat) : (gridFile x y z).map (·.1) =
    List.replicate (gridCells (gridAxes x y z)).length (gridCode (gridAxes x y z).length) := by
  unfold gridFile
  rw [List.map_map]
  exact List.map_const' ..

theorem gridCells_length (x y z : Nat) (h : 1 < x ∨ 1 < y ∨ 1 < z) :
    (gridAxes x y z).length ∈ [1, 2, 3] ∧ ∀ r ∈ gridCells (gridAxes x y z), r.length = 2 ^ (gridAxes x y z).length := by
  have L1 : ∀ a b : Nat, ∀ r ∈ gridCells [(a, b)], r.length = 2 := by
    intro a b r hr
    simp only [gridCells, List.mem_map] at hr
    obtain ⟨i, _, rfl⟩ := hr; rfl
  have L2 : ∀ a b c d : Nat, ∀ r ∈ gridCells [(a, b), (c, d)], r.length = 4 := by
    intro a b c d r hr
    simp only [gridCells, List.mem_flatMap, List.mem_map] at hr
    obtain ⟨j, _, i, _, rfl⟩ := hr; rfl
  have L3 : ∀ a b c d e f : Nat, ∀ r ∈ gridCells [(a, b), (c, d), (e, f)], r.length = 8 := by
    intro a b c d e f r hr
    simp only [gridCells, List.mem_flatMap, List.mem_map] at hr
    obtain ⟨k, _, j, _, i, _, rfl⟩ := hr; rfl
  by_cases h1 : 1 < x <;> by_cases h2 : 1 < y <;> by_cases h3 : 1 < z <;>
    simp only [gridAxes, List.filter_cons, gt_iff_lt, h1, h2, h3, decide_true, decide_false,
      if_true, if_false, Bool.false_eq_true, List.filter_nil]
  · exact ⟨by simp, L3 _ _ _ _ _ _⟩
  · exact ⟨by simp, L2 _ _ _ _⟩
  · exact ⟨by simp, L2 _ _ _ _⟩
  · exact ⟨by simp, L1 _ _⟩
  · exact ⟨by simp, L2 _ _ _ _⟩
  · exact ⟨by simp, L1 _ _⟩
  · exact ⟨by simp, L1 _ _⟩
  · omega

theorem gridCells_ne (x y z : Nat) (hx : 0 < x) (hy : 0 < y) (hz : 0 < z) (h : 1 < x ∨ 1 < y ∨ 1 < z) : gridCells (gridAxes x y z) ≠ [] := by
  intro e
  have := Props.C20_count x y z hx hy hz h
  rw [e] at this
  have h0 : ∀ d : Nat, 0 < (if 1 < d then d - 1 else 1) := by intro d; split <;> omega
  have := Nat.mul_pos (Nat.mul_pos (h0 x) (h0 y)) (h0 z)
  simp_all

theorem gridFile_cell (x y z : Nat) (h : 1 < x ∨ 1 < y ∨ 1 < z) :
    ∀ c ∈ gridFile x y z, c.1 = gridCode (gridAxes x y z).length ∧ c.2.length = 2 ^ (gridAxes x y z).length := by
  intro c hc
  obtain ⟨r, hr, rfl⟩ := List.mem_map.1 hc
  exact ⟨rfl, by rw [List.length_map]; exact (gridCells_length x y z h).2 r hr⟩

theorem gridFile_fixed (x y z : Nat) (h : 1 < x ∨ 1 < y ∨ 1 < z) : ∀ c ∈ gridFile x y z, FixedCell c := by
  intro c hc
  obtain ⟨h1, h2⟩ := gridFile_cell x y z h c hc
  have := (by decide +kernel : ∀ k ∈ [1, 2, 3], Tables.vtkNumNodes[gridCode k]? = some ((2 ^ k : Nat) : Int) ∧ 0 < 2 ^ k) _ (gridCells_length x y z h).1
  unfold FixedCell
  rw [h1, h2]
  exact this

theorem runsBy_const {α κ : Type} [DecidableEq κ] (k : α → κ) (x : κ) (l : List α) (h : ∀ a ∈ l, k a = x) (hne : l ≠ []) : runsBy k l = [l] := by
  induction l with
  | nil => exact absurd rfl hne
  | cons a l ih =>
    cases l with
    | nil => rfl
    | cons b l =>
      rw [runsBy, ih (fun a ha => h a (by simp [ha])) (by simp)]
      simp only
      rw [if_pos (by rw [h a (by simp), h b (by simp)])]

/-- The name of the cells of a grid. -/
def gridName (n : Nat) : String := if n = 1 then "line" else if n = 2 then "quad" else "hexahedron"

theorem gridName_ok : ∀ k ∈ [1, 2, 3], vtkName (gridCode k) = some (gridName k) ∧ KnownType (gridName k) ∧ gridCode k ≠ 13 := by
  decide +kernel

theorem gridFile_blocks (x y z : Nat) (hx : 0 < x) (hy : 0 < y) (hz : 0 < z) (h : 1 < x ∨ 1 < y ∨ 1 < z) :
    vtkBlocks (gridFile x y z) = [(gridName (gridAxes x y z).length, (gridCells (gridAxes x y z)).map fun r => r.map Int.ofNat)] := by
  have hne := gridCells_ne x y z hx hy hz h
  obtain ⟨hn, -, h13⟩ := gridName_ok _ (gridCells_length x y z h).1
  unfold vtkBlocks vtkRuns
  rw [runsBy_const _ (gridCode (gridAxes x y z).length, 2 ^ (gridAxes x y z).length) _
    (fun c hc => by rw [(gridFile_cell x y z h c hc).1, (gridFile_cell x y z h c hc).2]) (by unfold gridFile; simpa using hne)]
  have e : (gridFile x y z).map (fun c => fromVtk c.1 c.2) = (gridCells (gridAxes x y z)).map fun r => r.map Int.ofNat := by
    unfold gridFile
    rw [List.map_map]
    apply List.map_congr_left
    intro r _
    simp only [Function.comp_def]
    unfold fromVtk
    split
    · rename_i e _; exact absurd e h13
    · rfl
  cases hg : gridFile x y z with
  | nil => unfold gridFile at hg; simp at hg; exact absurd hg hne
  | cons c l =>
    rw [hg] at e
    have hc := (gridFile_cell x y z h c (by rw [hg]; simp)).1
    simp only [List.filterMap_cons, List.filterMap_nil, vtkBlock, hc, hn, Option.map_some, e]

theorem gridFile_data {R : Type} (x y z : Nat) (hx : 0 < x) (hy : 0 < y) (hz : 0 < z) (h : 1 < x ∨ 1 < y ∨ 1 < z) (d : List R)
    (hd : d.length = (gridCells (gridAxes x y z)).length) : vtkData (gridFile x y z) d = [d] := by
  have hne := gridCells_ne x y z hx hy hz h
  obtain ⟨hn, -, -⟩ := gridName_ok _ (gridCells_length x y z h).1
  have hl : (gridFile x y z).length = d.length := by unfold gridFile; rw [List.length_map, hd]
  have hg : gridFile x y z ≠ [] := by unfold gridFile; simpa using hne
  unfold vtkData
  have hall : ∀ c ∈ (gridFile x y z).zip d, c.1 ∈ gridFile x y z := by
    intro c hc
    exact (List.of_mem_zip (a := c.1) (b := c.2) hc).1
  have hz : (gridFile x y z).zip d ≠ [] := by
    intro e
    have := congrArg List.length e
    rw [List.length_zip] at this
    have : 0 < (gridFile x y z).length := List.length_pos_iff.2 hg
    simp_all
  rw [runsBy_const _ (gridCode (gridAxes x y z).length, 2 ^ (gridAxes x y z).length) _
    (fun c hc => by rw [(gridFile_cell x y z h _ (hall c hc)).1, (gridFile_cell x y z h _ (hall c hc)).2]) hz]
  have e : ((gridFile x y z).zip d).map (·.2) = d := List.map_snd_zip (by omega)
  cases hq : (gridFile x y z).zip d with
  | nil => exact absurd hq hz
  | cons c l =>
    have hc := (gridFile_cell x y z h _ (hall c (by rw [hq]; simp))).1
    rw [hq] at e
    simp only [List.filterMap_cons, List.filterMap_nil, vtkRunData, hc, hn, Option.map_some, e]

/-- A structured grid of version 4.2 whose points have been made. -/
theorem finish_grid {info : Info V} {p : Arr V} {x y z : Nat} (hx : 0 < x) (hy : 0 < y) (hz : 0 < z) (h : 1 < x ∨ 1 < y ∨ 1 < z)
    (hck : checkMesh io info = gridInfo info (some p) [(x : Int), y, z]) (hraw : Dict.Ok info.cellRaw)
    (hpd : ∀ kv ∈ info.pointData, kv.2.rows.length = p.rows.length)
    (hcd : ∀ kv ∈ info.cellRaw, kv.2.rows.length = (gridCells (gridAxes x y z)).length) :
    finish io .v42 info = .ok ⟨some p, [(gridName (gridAxes x y z).length, (gridCells (gridAxes x y z)).map fun r => r.map Int.ofNat)],
      info.pointData, info.cellRaw.map fun kv => (kv.1, [kv.2]), info.fieldData⟩ := by
  have hg : gridInfo info (some p) [(x : Int), y, z] =
      .ok { info with points := some p, conn := some (streamOf (gridFile x y z)), types := some ((gridFile x y z).map (·.1)) } := by
    unfold gridInfo
    have e : [(x : Int), (y : Int), (z : Int)].map Int.toNat = [x, y, z] := rfl
    rw [e, Props.C20_cells x y z hx hy hz h]
    simp only
    rw [gridFile_stream, gridFile_types]
  have hlen : ∀ kv ∈ info.cellRaw, kv.2.rows.length = (gridFile x y z).length := by
    intro kv hkv; rw [hcd kv hkv]; unfold gridFile; simp
  have ht := translateCells_fixed (gridFile x y z) (gridFile_fixed x y z h) [] (info.cellRaw.map fun kv => (kv.1, kv.2.rows))
    (by unfold Dict.Ok Dict.keys at *; rw [List.map_map]; exact hraw)
    (by intro kd hkd; obtain ⟨kv, hkv, rfl⟩ := List.mem_map.1 hkd; exact hlen kv hkv)
  rw [List.append_nil, gridFile_blocks x y z hx hy hz h, if_neg (by simp)] at ht
  unfold finish
  rw [hck, hg]
  simp only
  rw [ht]
  simp only
  rw [cellArrays_ok _ _ hraw]
  have ho : outData (gridFile x y z) info.cellRaw = info.cellRaw.map fun kv => (kv.1, [kv.2]) := by
    unfold outData
    apply List.map_congr_left
    intro kv hkv
    rw [gridFile_data x y z hx hy hz h _ (hcd kv hkv)]
    rfl
  refine (build_ok { info with points := some p, conn := some (streamOf (gridFile x y z)), types := some ((gridFile x y z).map (·.1)) }
    p rfl _ ?_ hpd _ ?_).trans ?_
  · intro b hb
    rw [List.mem_singleton.1 hb]
    exact (gridName_ok _ (gridCells_length x y z h).1).2.1
  · have := outData_lengths (gridFile x y z) info.cellRaw hlen
    rw [gridFile_blocks x y z hx hy hz h] at this
    exact this
  · simp only [ho]

/-! ### What is read -/

/-- What is known of the state at the end. -/
structure Final (io : VtkIO V) (v : Ver) (t : String) (l : List (VtkSec V)) (s : List Char) (info : Info V) : Prop where
  read : read io s = finish io v info
  type : info.type = some t
  points : info.points = vtkPoints l
  types : info.types = vtkTypes l
  pointData : info.pointData = vtkDict (vtkArraysFor .point {} l)
  cellRaw : info.cellRaw = vtkDict (vtkArraysFor .cell {} l)
  fieldData : info.fieldData = vtkDict (vtkArraysFor .other {} l)

theorem final_ok (hio : VtkLaws io has) {v : Ver} {ascii : Bool} {t : String} (ht : (Types.find datasetInfos t).isSome) {l : List (VtkSec V)}
    {s : List Char} (h : vtkFileSays io has v ascii t l s) : ∃ info : Info V, Final io v t l s info ∧
      info.conn = ((vtkCells l).map fun cs => match v with
        | .v42 => streamOf cs
        | .v51 => connectivityOf cs) ∧
      (v = .v51 → info.offsets = (vtkCells l).map (endsFrom 0)) ∧
      Dict.get? info.dataset "DIMENSIONS" = ((vtkDims l).map fun d => .ints [(d.1 : Int), d.2.1, d.2.2]) ∧
      (∀ key ∈ ["ORIGIN", "SPACING", "ASPECT_RATIO"], Dict.get? info.dataset key = (vtkFloats key l).map fun d => .floats [d.1, d.2.1, d.2.2]) ∧
      (∀ key ∈ ["X_COORDINATES", "Y_COORDINATES", "Z_COORDINATES"], Dict.get? info.dataset key = (vtkCoords key l).map .arr) := by
  obtain ⟨info0, h0, hr⟩ := read_header hio ht h
  have hf : Fits t {} info0 := by subst h0; exact ⟨rfl, rfl, fun n hn => by cases hn⟩
  obtain ⟨-, -, -, -, -, s2, -, -, -, -, -, -, -, hs⟩ := h
  obtain ⟨d1, d2, d3⟩ := final_dicts v hf l
  refine ⟨l.foldl (step v) info0, ⟨hr, ?_, ?_, ?_, ?_, ?_, ?_⟩, ?_, ?_, ?_, ?_, ?_⟩
  · rw [final_type, h0]
  · rw [final_points, h0]; simp
  · rw [final_types, h0]; simp
  · rw [d1, h0]; rfl
  · rw [d2, h0]; rfl
  · rw [d3, h0]; rfl
  · rw [final_conn, h0]; cases v <;> simp
  · rintro rfl
    rw [final_offsets, h0]; simp
  · rw [final_entry v hf l hs _ (by decide), sel_dims l hs, h0]
    exact Option.or_none
  · intro key hk
    rw [final_entry v hf l hs _ ((by decide : ∀ k ∈ ["ORIGIN", "SPACING", "ASPECT_RATIO"], k ∈ vtkReserved) key hk), sel_floats l hs key hk, h0]
    exact Option.or_none
  · intro key hk
    rw [final_entry v hf l hs _ ((by decide : ∀ k ∈ ["X_COORDINATES", "Y_COORDINATES", "Z_COORDINATES"], k ∈ vtkReserved) key hk),
      sel_coords l hs key hk, h0]
    exact Option.or_none

end Meshio.VtkFile
