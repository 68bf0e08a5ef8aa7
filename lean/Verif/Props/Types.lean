/-
C15: the cell type tables agree with each other.
C16: type codes translate back and forth.
C17: node orderings are mutually inverse.
-/
import Verif.Model.Mesh
import Verif.Proofs.Types
namespace Meshio.Props
open Meshio Meshio.Spec Meshio.Tables Meshio.Types

/-! ## C15 -/

/-- The claim of C15 on dimensions: a fixed-size cell type has a node count exactly if it
has a topological dimension (`polygon` and the arbitrary order VTK types have no fixed
count). -/
def C15_dimension_statement : Prop :=
  ∀ t : String, t ≠ "polygon" → (∀ r, t.toList ≠ "VTK_".toList ++ r) →
    (t ∈ numNodesPerCell.keys ↔ t ∈ topologicalDimension.keys)

/-- The claim is false: `wedge15` has a node count, but no dimension, so that a
`CellBlock` of that type cannot be built. -/
theorem C15_dimension_false : ¬ C15_dimension_statement := by
  intro h
  have := (h "wedge15" (by decide) (by intro r hr; exact absurd (congrArg (·.head?) hr) (by simp))).1
    (by decide +kernel)
  exact absurd this (by decide +kernel)

/-- What holds: four types are missing among the dimensions, and only variable-size
types are missing among the node counts. -/
theorem C15_dimension_partial (t : String) :
    (t ∈ numNodesPerCell.keys → t ∈ topologicalDimension.keys ∨
      t ∈ ["hexahedron24", "wedge15", "pyramid13", "hexahedron1331"]) ∧
    (t ∈ topologicalDimension.keys → t ∈ numNodesPerCell.keys ∨ t = "polygon" ∨
      ∃ r, t.toList = "VTK_LAGRANGE_".toList ++ r) := by
  constructor
  · revert t; decide +kernel
  · intro h
    have key : ∀ t ∈ topologicalDimension.keys, t ∈ numNodesPerCell.keys ∨ t = "polygon" ∨
        t.toList = "VTK_LAGRANGE_".toList ++ t.toList.drop 13 := by decide +kernel
    rcases key t h with h | h | h
    · exact .inl h
    · exact .inr (.inl h)
    · exact .inr (.inr ⟨_, h⟩)

/-- Every node count belongs to an element of the shape in the type's name, of a legal
size; and a dimension, where there is one, is that of the shape. -/
theorem C15_counts (t : String) (n : Nat) (h : numNodesPerCell.get? t = some n) :
    ∃ s, Names t s n ∧ LegalCount s n ∧
      (∀ d, topologicalDimension.get? t = some d → d = s.dim) := by
  have key : ∀ kv ∈ numNodesPerCell, ∃ s ∈ allShapes, Names kv.1 s kv.2 ∧
      ((∃ p ∈ List.range 11, 1 ≤ p + 1 ∧ kv.2 = lagrange s (p + 1)) ∨ kv.2 = serendipity2 s ∨
        (s = .hexahedron ∧ kv.2 = biquadraticHex)) ∧
      (∀ d ∈ topologicalDimension.get? kv.1, d = s.dim) := by decide +kernel
  obtain ⟨s, _, h1, h2, h3⟩ := key _ (Dict.mem_of_get? h)
  refine ⟨s, h1, ?_, fun d hd => h3 d hd⟩
  rcases h2 with ⟨p, _, hp, h2⟩ | h2
  · exact .inl ⟨p + 1, hp, h2⟩
  · exact .inr h2

example : numNodesPerCell.get? "wedge550" = some 550 := by decide +kernel

/-- Every dimension of a fixed-size shape is the dimension of the shape in its name. -/
theorem C15_dimensions (t : String) (d : Nat) (h : topologicalDimension.get? t = some d) :
    (∃ s n, Names t s n ∧ d = s.dim) ∨ (t = "polygon" ∧ d = 2) ∨
      ∃ r, t.toList = "VTK_LAGRANGE_".toList ++ r := by
  by_cases hn : t ∈ numNodesPerCell.keys
  · obtain ⟨n, hn⟩ := (Dict.mem_keys_iff _ _).1 hn
    obtain ⟨s, h1, _, h3⟩ := C15_counts t n hn
    exact .inl ⟨s, n, h1, h3 d h⟩
  · have hk : t ∈ topologicalDimension.keys := (Dict.mem_keys_iff _ _).2 ⟨d, h⟩
    rcases (C15_dimension_partial t).2 hk with h' | h' | h'
    · exact absurd h' hn
    · subst h'
      right; left
      have : topologicalDimension.get? "polygon" = some 2 := by decide +kernel
      rw [this] at h; cases h; exact ⟨rfl, rfl⟩
    · exact .inr (.inr h')

/-- The claim of C15 on VTK: every VTK type number the readers translate to a fixed-size
cell type has a node count. -/
def C15_vtk_statement : Prop :=
  ∀ c t, find vtkToMeshio c = some t → t ∉ ["empty", "polygon", "polyhedron"] →
    (∀ r, t.toList ≠ "VTK_".toList ++ r) → (numNodesPerCell.get? t).isSome

/-- False: e.g. VTK type 30 (`quad6`) has none. -/
theorem C15_vtk_false : ¬ C15_vtk_statement := by
  intro h
  have := h 30 "quad6" (by decide +kernel) (by decide)
    (by intro r hr; exact absurd (congrArg (·.head?) hr) (by simp))
  exact absurd this (by decide +kernel)

/-- What holds for VTK: all but six fixed-size types have a node count, and the legacy
reader's own size table agrees with it. -/
theorem C15_vtk_partial (c : Nat) (t : String) (h : find vtkToMeshio c = some t) :
    (t ∉ ["empty", "polygon", "polyhedron", "pixel", "penta_prism", "hexa_prism", "quad6",
        "wedge12", "triangle7"] → (∀ r, t.toList ≠ "VTK_".toList ++ r) →
      ∃ n, numNodesPerCell.get? t = some n ∧ vtkNumNodes[c]? = some (n : Int)) := by
  intro h1 h2
  have key : ∀ kv ∈ vtkToMeshio, kv.2 ∈ ["empty", "polygon", "polyhedron", "pixel",
        "penta_prism", "hexa_prism", "quad6", "wedge12", "triangle7"] ∨
      kv.2.toList = "VTK_".toList ++ kv.2.toList.drop 4 ∨
      ∃ n ∈ numNodesPerCell.get? kv.2, vtkNumNodes[kv.1]? = some (n : Int) := by decide +kernel
  rcases key _ (find_mem h) with h' | h' | h'
  · exact absurd h' h1
  · exact absurd h' (h2 _)
  · exact h'

example : find vtkToMeshio 25 = some "hexahedron20" ∧ vtkNumNodes[25]? = some 20 := by
  decide +kernel

/-- VTK type numbers mean what VTK says: each number of VTK's list of fixed-size cells is
translated to a type name with that shape and number of nodes, and the legacy reader
takes that many nodes. -/
theorem C15_vtk_conforms (c : Nat) (s : Shape) (n : Nat) (h : (c, s, n) ∈ vtkManual) :
    ∃ t, find vtkToMeshio c = some t ∧ Names t s n ∧ vtkNumNodes[c]? = some (n : Int) := by
  have key : ∀ e ∈ vtkManual, ∃ t ∈ find vtkToMeshio e.1, Names t e.2.1 e.2.2 ∧
      vtkNumNodes[e.1]? = some (e.2.2 : Int) := by decide +kernel
  exact key _ h

/-- Gmsh type numbers mean what Gmsh says, and each has a node count. -/
theorem C15_gmsh_conforms (c : Nat) (t : String) :
    find gmshToMeshio c = some t → ∃ s n, (c, s, n) ∈ gmshManual ∧ Names t s n ∧
      numNodesPerCell.get? t = some n := by
  intro h
  have key : ∀ kv ∈ gmshToMeshio, ∃ e ∈ gmshManual, e.1 = kv.1 ∧ Names kv.2 e.2.1 e.2.2 ∧
      numNodesPerCell.get? kv.2 = some e.2.2 := by decide +kernel
  obtain ⟨⟨c', s, n⟩, he, h1, h2, h3⟩ := key _ (find_mem h)
  simp only at h1; subst h1
  exact ⟨s, n, he, h2, h3⟩

/-- Every type number of Gmsh's manual list is translated. -/
theorem C15_gmsh_complete (c : Nat) (s : Shape) (n : Nat) (h : (c, s, n) ∈ gmshManual) :
    ∃ t, find gmshToMeshio c = some t := by
  have key : ∀ e ∈ gmshManual, ∃ t ∈ find gmshToMeshio e.1, True := by decide +kernel
  obtain ⟨t, ht, _⟩ := key _ h
  exact ⟨t, ht⟩

/-- The cell types the XDMF reader knows by number have node counts, and the size table
for mixed topologies agrees with them wherever it has an entry for such a number. -/
theorem C15_xdmf (c : Nat) (t : String) (h : find xdmfIdxToMeshio c = some t) :
    ∃ n, numNodesPerCell.get? t = some n ∧
      ∀ k, find xdmfIdxNumNodes c = some k → k = n := by
  have key : ∀ kv ∈ xdmfIdxToMeshio, ∃ n ∈ numNodesPerCell.get? kv.2,
      ∀ k ∈ find xdmfIdxNumNodes kv.1, k = n := by decide +kernel
  obtain ⟨n, hn, hk⟩ := key _ (find_mem h)
  exact ⟨n, hn, fun k hk' => hk k hk'⟩

/-- SU2, Medit and ANSYS readers take as many nodes per cell as the type has. -/
theorem C15_reader_counts (t : String) (n : Nat) :
    ((∃ c, find su2ToMeshio c = some t ∧ find su2NumNodes c = some n) ∨
     (∃ c, (c, t, n) ∈ mediBinary) ∨ (∃ c, (c, t, n) ∈ mediAscii) ∨
     (∃ c, (c, t, n) ∈ ansysToMeshio)) → numNodesPerCell.get? t = some n := by
  rintro (⟨c, h1, h2⟩ | ⟨c, h⟩ | ⟨c, h⟩ | ⟨c, h⟩)
  · have key : ∀ kv ∈ su2ToMeshio, ∀ m ∈ find su2NumNodes kv.1,
        numNodesPerCell.get? kv.2 = some m := by decide +kernel
    exact key _ (find_mem h1) n h2
  · have key : ∀ e ∈ mediBinary, numNodesPerCell.get? e.2.1 = some e.2.2 := by decide +kernel
    exact key _ h
  · have key : ∀ e ∈ mediAscii, numNodesPerCell.get? e.2.1 = some e.2.2 := by decide +kernel
    exact key _ h
  · have key : ∀ e ∈ ansysToMeshio, numNodesPerCell.get? e.2.1 = some e.2.2 := by decide +kernel
    exact key _ h

/-- Every SU2 type number that is translated has a node count. -/
theorem C15_su2_total (c : Nat) : (find su2ToMeshio c).isSome = (find su2NumNodes c).isSome := by
  have k1 : ∀ kv ∈ su2ToMeshio, (find su2NumNodes kv.1).isSome := by decide +kernel
  have k2 : ∀ kv ∈ su2NumNodes, (find su2ToMeshio kv.1).isSome := by decide +kernel
  cases h1 : find su2ToMeshio c with
  | some t => simp [k1 _ (find_mem h1)]
  | none =>
    cases h2 : find su2NumNodes c with
    | some n => have := k2 _ (find_mem h2); simp only [h1] at this; cases this
    | none => rfl

/-! ## C16 -/

section
variable {κ : Type} [DecidableEq κ]

private theorem roundTrips_of_inv {d : List (κ × String)} (h : (d.map (·.1)).Nodup) :
    RoundTrips (find (invDict d)) (find d) := fun _ _ ht => find_of_find_invDict h ht

omit [DecidableEq κ] in
private theorem roundTrips_of_table {d : List (String × κ)} {f : κ → Option String}
    (h : ∀ kv ∈ d, f kv.2 = some kv.1) : RoundTrips (find d) f :=
  fun _ _ ht => h _ (find_mem ht)
end

/-- VTK type numbers (legacy VTK and VTU). -/
theorem C16_vtk : RoundTrips (find meshioToVtk) (find vtkToMeshio) :=
  roundTrips_of_inv (by decide +kernel)
/-- Gmsh element types. -/
theorem C16_gmsh : RoundTrips (find meshioToGmsh) (find gmshToMeshio) :=
  roundTrips_of_inv (by decide +kernel)
/-- XDMF topology names (uniform grids). -/
theorem C16_xdmf_name : RoundTrips xdmfName (find xdmfToMeshio) := by
  intro t c h
  have key : ∀ kv ∈ meshioToXdmf, ∀ c ∈ kv.2.head?, find xdmfToMeshio c = some kv.1 := by
    decide +kernel
  unfold xdmfName at h
  cases hf : find meshioToXdmf t with
  | none => rw [hf] at h; cases h
  | some l => rw [hf] at h; exact key _ (find_mem hf) c h
/-- XDMF type numbers (mixed grids). -/
theorem C16_xdmf_index : RoundTrips (find meshioToXdmfIdx) (find xdmfIdxToMeshio) :=
  roundTrips_of_inv (by decide +kernel)
/-- AVS-UCD names. -/
theorem C16_avsucd : RoundTrips (find meshioToAvsucd) (find avsucdToMeshio) :=
  roundTrips_of_table (by decide +kernel)
/-- SU2 type numbers. -/
theorem C16_su2 : RoundTrips (find meshioToSu2) (find su2ToMeshio) :=
  roundTrips_of_table (by decide +kernel)
/-- Netgen: the writer puts a block into the section of its topological dimension with the
length of its node map as number of nodes; the reader looks that number up in the table
of the section. -/
theorem C16_netgen (t : String) (p : List Nat) (d : Nat) (h : find netgenIPmap t = some p)
    (hd : topologicalDimension.get? t = some d) :
    find (netgenToMeshio d) p.length = some t := by
  have key : ∀ kv ∈ netgenIPmap, ∀ d ∈ topologicalDimension.get? kv.1,
      find (netgenToMeshio d) kv.2.length = some kv.1 := by decide +kernel
  exact key _ (find_mem h) d hd
/-- Medit keywords (ASCII): the keyword is read back as type with its node count. -/
theorem C16_medit_ascii (t key : String) (n : Nat) (h : find mediAsciiWrite t = some (key, n)) :
    find mediAscii key = some (t, n) := by
  have k : ∀ kv ∈ mediAsciiWrite, find mediAscii kv.2.1 = some (kv.1, kv.2.2) := by decide +kernel
  exact k _ (find_mem h)
/-- Medit keyword numbers (binary): number → keyword name → type. -/
theorem C16_medit_binary :
    RoundTrips (find mediBinaryWrite)
      (fun c => (find medit_codes c).bind (fun e => (find mediBinary e.1).map (·.1))) :=
  roundTrips_of_table (by decide +kernel)
/-- The record format of a Medit keyword that is written has one integer per node plus
the reference. -/
theorem C16_medit_binary_format (t : String) (c : Nat) (h : find mediBinaryWrite t = some c) :
    ∃ name n, find medit_codes c = some (name, "i", String.ofList (List.replicate (n + 1) 'i')) ∧
      numNodesPerCell.get? t = some n := by
  have k : ∀ kv ∈ mediBinaryWrite, ∃ e ∈ find medit_codes kv.2, ∃ n ∈ numNodesPerCell.get? kv.1,
      e.2.1 = "i" ∧ e.2.2 = String.ofList (List.replicate (n + 1) 'i') := by decide +kernel
  obtain ⟨⟨a, b, c'⟩, he, n, hn, h1, h2⟩ := k _ (find_mem h)
  simp only at h1 h2; subst h1; subst h2
  exact ⟨a, n, he, hn⟩
/-- ANSYS element types. -/
theorem C16_ansys : RoundTrips (find meshioToAnsys) (fun c => (find ansysToMeshio c).map (·.1)) :=
  roundTrips_of_table (by decide +kernel)
/-- MED type names. -/
theorem C16_med : RoundTrips (find meshioToMed) (find medToMeshio) :=
  roundTrips_of_table (by decide +kernel)
/-- Exodus element names. -/
theorem C16_exodus : RoundTrips (find meshioToExodus) (find exodusToMeshio) :=
  roundTrips_of_inv (by decide +kernel)
/-- Abaqus element names. -/
theorem C16_abaqus : RoundTrips (find meshioToAbaqus) (find abaqusToMeshio) :=
  roundTrips_of_inv (by decide +kernel)
/-- Nastran card names. -/
theorem C16_nastran : RoundTrips (find meshioToNastran) (find nastranToMeshio) :=
  roundTrips_of_inv (by decide +kernel)
/-- PERMAS element names. -/
theorem C16_permas : RoundTrips (find meshioToPermas) (find permasToMeshio) :=
  roundTrips_of_inv (by decide +kernel)

/-- Each type a reader can produce has a code of its own for writing, in the formats whose
writer table is derived from the reader table. -/
theorem C16_inverse_total (t : String) :
    (t ∈ vtkToMeshio.map (·.2) → (find meshioToVtk t).isSome) ∧
    (t ∈ gmshToMeshio.map (·.2) → (find meshioToGmsh t).isSome) ∧
    (t ∈ xdmfIdxToMeshio.map (·.2) → (find meshioToXdmfIdx t).isSome) ∧
    (t ∈ exodusToMeshio.map (·.2) → (find meshioToExodus t).isSome) ∧
    (t ∈ abaqusToMeshio.map (·.2) → (find meshioToAbaqus t).isSome) ∧
    (t ∈ nastranToMeshio.map (·.2) → (find meshioToNastran t).isSome) ∧
    (t ∈ permasToMeshio.map (·.2) → (find meshioToPermas t).isSome) :=
  ⟨find_invDict_isSome, find_invDict_isSome, find_invDict_isSome, find_invDict_isSome,
    find_invDict_isSome, find_invDict_isSome, find_invDict_isSome⟩

example : find meshioToVtk "wedge15" = some 26 ∧ find meshioToAbaqus "quad" = some "CAX4P" ∧
    xdmfName "quad8" = some "Quadrilateral_8" ∧ find meshioToNastran "tetra10" = some "CTETRA_" ∧
    find mediBinaryWrite "pyramid" = some 49 := by decide +kernel

/-- The claim of C16 for Tecplot. -/
def C16_tecplot_statement : Prop := RoundTrips (find meshioToTecplot) (find tecplotToMeshio)

/-- False: pyramids and wedges are written as bricks. -/
theorem C16_tecplot_false : ¬ C16_tecplot_statement := by
  intro h
  exact absurd (h "pyramid" "FEBRICK" (by decide +kernel)) (by decide +kernel)

/-- For all other Tecplot types it holds. -/
theorem C16_tecplot_partial (t c : String) (h1 : t ≠ "pyramid") (h2 : t ≠ "wedge")
    (h : find meshioToTecplot t = some c) : find tecplotToMeshio c = some t := by
  have k : ∀ kv ∈ meshioToTecplot, kv.1 = "pyramid" ∨ kv.1 = "wedge" ∨
      find tecplotToMeshio kv.2 = some kv.1 := by decide +kernel
  rcases k _ (find_mem h) with h | h | h
  · exact absurd h h1
  · exact absurd h h2
  · exact h

/-- The claim of C16 for FLAC3D zones: the writer reduces a type to a base type and
writes its nodes, the reader goes by the number of nodes. -/
def C16_flac3d_statement : Prop :=
  ∀ t base n, find flacZone t = some base → numNodesPerCell.get? base = some n →
    find flacNumNodesZone n = some t

/-- False for second order zones, which come back as first order ones. -/
theorem C16_flac3d_false : ¬ C16_flac3d_statement := by
  intro h
  exact absurd (h "tetra10" "tetra" 4 (by decide +kernel) (by decide +kernel)) (by decide +kernel)

/-- First order zones and faces come back as they are. -/
theorem C16_flac3d_partial (t : String) (n : Nat) (hn : numNodesPerCell.get? t = some n) :
    (find flacZone t = some t → find flacNumNodesZone n = some t) ∧
    (find flacFace t = some t → find flacNumNodesFace n = some t) := by
  have k1 : ∀ kv ∈ flacZone, kv.1 = kv.2 → ∀ n ∈ numNodesPerCell.get? kv.1,
      find flacNumNodesZone n = some kv.1 := by decide +kernel
  have k2 : ∀ kv ∈ flacFace, kv.1 = kv.2 → ∀ n ∈ numNodesPerCell.get? kv.1,
      find flacNumNodesFace n = some kv.1 := by decide +kernel
  exact ⟨fun h => k1 _ (find_mem h) rfl n hn, fun h => k2 _ (find_mem h) rfl n hn⟩

/-! ## C17 -/

variable {α : Type}

private theorem reorder_inverse {w r : List (String × List Nat)}
    (hk : ∀ kv ∈ w, ∃ q ∈ find r kv.1, ∃ n ∈ numNodesPerCell.get? kv.1, Undoes kv.2 q n = true)
    (hn : ∀ kv ∈ r, (find w kv.1).isSome) (t : String) (row : List α)
    (hrow : ∀ n, numNodesPerCell.get? t = some n → row.length = n) :
    ∃ s, reorder w t row = .ok s ∧ s.length = row.length ∧ reorder r t s = .ok row := by
  unfold reorder
  cases hw : find w t with
  | none =>
    cases hr : find r t with
    | none => exact ⟨row, rfl, rfl, rfl⟩
    | some q => have := hn _ (find_mem hr); simp only [hw] at this; cases this
  | some p =>
    obtain ⟨q, hq, n, hn', hu⟩ := hk _ (find_mem hw)
    simp only [show find r t = some q from hq]
    have hl := hrow n hn'
    obtain ⟨s, h1, h2, h3⟩ := pick_pick_of_undoes hu row hl
    exact ⟨s, h1, by rw [h2, hl], h3⟩

private theorem reorderStrict_inverse {w r : List (String × List Nat)}
    (hk : ∀ kv ∈ w, ∃ q ∈ find r kv.1, ∃ n ∈ numNodesPerCell.get? kv.1, Undoes kv.2 q n = true)
    (t : String) (ht : (find w t).isSome) (row : List α)
    (hrow : ∀ n, numNodesPerCell.get? t = some n → row.length = n) :
    ∃ s, reorderStrict w t row = .ok s ∧ s.length = row.length ∧
      reorderStrict r t s = .ok row := by
  unfold reorderStrict
  cases hw : find w t with
  | none => rw [hw] at ht; cases ht
  | some p =>
    obtain ⟨q, hq, n, hn', hu⟩ := hk _ (find_mem hw)
    simp only [show find r t = some q from hq]
    have hl := hrow n hn'
    obtain ⟨s, h1, h2, h3⟩ := pick_pick_of_undoes hu row hl
    exact ⟨s, h1, by rw [h2, hl], h3⟩

/-- Gmsh: a row of any type (of the right length, where the type has a node count) is
restored, whatever its entries. -/
theorem C17_gmsh (t : String) (row : List α)
    (hrow : ∀ n, numNodesPerCell.get? t = some n → row.length = n) :
    ∃ s, reorder gmshGmshOrdering t row = .ok s ∧ s.length = row.length ∧
      reorder gmshMeshioOrdering t s = .ok row :=
  reorder_inverse (by decide +kernel) (by decide +kernel) t row hrow

/-- …and in the other direction: reading and writing again reproduces the file's order. -/
theorem C17_gmsh_file (t : String) (row : List α)
    (hrow : ∀ n, numNodesPerCell.get? t = some n → row.length = n) :
    ∃ s, reorder gmshMeshioOrdering t row = .ok s ∧ s.length = row.length ∧
      reorder gmshGmshOrdering t s = .ok row :=
  reorder_inverse (by decide +kernel) (by decide +kernel) t row hrow

/-- Gmsh second order elements are translated to the order of VTK: the node list of the
Gmsh reference element becomes that of the VTK reference element. -/
theorem C17_gmsh_conforms (t : String) (gs vs : List Site) (hg : find gmshSites t = some gs)
    (hv : find vtkSites t = some vs) : reorder gmshMeshioOrdering t gs = .ok vs := by
  have k : ∀ kv ∈ gmshSites, ∀ vs ∈ find vtkSites kv.1,
      reorder gmshMeshioOrdering kv.1 kv.2 = .ok vs := by decide +kernel
  exact k _ (find_mem hg) vs hv

/-- VTK: writing reorders a row by its meshio type, reading by its VTK type number. -/
theorem C17_vtk (t : String) (c : Nat) (hc : find meshioToVtk t = some c) (row : List α)
    (hrow : ∀ n, numNodesPerCell.get? t = some n → row.length = n) :
    ∃ s, pickOpt row (meshioToVtkOrder t) = .ok s ∧ s.length = row.length ∧
      pickOpt s (vtkToMeshioOrder c) = .ok row := by
  by_cases ht : t = "wedge"
  · subst ht
    have : find meshioToVtk "wedge" = some 13 := by decide +kernel
    rw [this] at hc; cases hc
    have hl := hrow 6 (by decide +kernel)
    obtain ⟨s, h1, h2, h3⟩ :=
      pick_pick_of_undoes (p := [0, 2, 1, 3, 5, 4]) (q := [0, 2, 1, 3, 5, 4]) (n := 6)
        (by decide +kernel) row hl
    refine ⟨s, ?_, by rw [h2, hl], ?_⟩
    · simpa [meshioToVtkOrder, pickOpt] using h1
    · simpa [vtkToMeshioOrder, pickOpt] using h3
  · have hc13 : c ≠ 13 := by
      intro e; subst e
      have k : ∀ kv ∈ meshioToVtk, kv.2 = 13 → kv.1 = "wedge" := by decide +kernel
      exact ht (k _ (find_mem hc) rfl)
    refine ⟨row, ?_, rfl, ?_⟩
    · simp [meshioToVtkOrder, ht, pickOpt]
    · simp [vtkToMeshioOrder, hc13, pickOpt]

/-- The VTK wedge has its two triangles turned around. -/
theorem C17_vtk_conforms (a b c d e f : α) :
    pickOpt [a, b, c, d, e, f] (vtkToMeshioOrder 13) = .ok [a, c, b, d, f, e] := rfl

/-- UGRID. -/
theorem C17_ugrid (t : String) (row : List α) (hrow : t = "pyramid" → row.length = 5) :
    ∃ s, ugridWrite t row = .ok s ∧ s.length = row.length ∧ ugridRead t s = .ok row := by
  unfold ugridWrite ugridRead
  by_cases ht : t = "pyramid"
  · simp only [ht, if_true]
    have hl := hrow ht
    obtain ⟨s, h1, h2, h3⟩ := pick_pick_of_undoes (p := ugridPyramidWrite) (q := ugridPyramidRead)
      (n := 5) (by decide +kernel) row hl
    exact ⟨s, h1, by rw [h2, hl], h3⟩
  · exact ⟨row, by simp [ht], rfl, by simp [ht]⟩

/-- In a UGRID pyramid the apex is node 3 and the base is 1-4-5-2 (AFLR3 manual,
one-based), so its base, walked around, is meshio's base up to the starting corner. -/
theorem C17_ugrid_conforms (a b c d apex : α) :
    ∃ u1 u2 u3 u4 u5, ugridWrite "pyramid" [a, b, c, d, apex] = .ok [u1, u2, u3, u4, u5] ∧
      u3 = apex ∧ [u2, u1, u4, u5] = [a, b, c, d] :=
  ⟨b, a, apex, c, d, rfl, rfl, rfl⟩

/-- AVS-UCD. -/
theorem C17_avsucd (t : String) (ht : (find meshioToAvsucd t).isSome) (row : List α)
    (hrow : ∀ n, numNodesPerCell.get? t = some n → row.length = n) :
    ∃ s, reorderStrict meshioToAvsucdOrder t row = .ok s ∧ s.length = row.length ∧
      reorderStrict avsucdToMeshioOrder t s = .ok row := by
  apply reorderStrict_inverse (by decide +kernel) t ?_ row hrow
  have k : ∀ kv ∈ meshioToAvsucd, (find meshioToAvsucdOrder kv.1).isSome := by decide +kernel
  cases h : find meshioToAvsucd t with
  | none => rw [h] at ht; cases ht
  | some c => exact k _ (find_mem h)

/-- Nastran, by the card name that is written. -/
theorem C17_nastran (card : String) (t : String) (hc : find nastranToMeshio card = some t)
    (row : List α) (hrow : ∀ n, numNodesPerCell.get? t = some n → row.length = n) :
    ∃ s, reorder vtkToNastranOrder card row = .ok s ∧ s.length = row.length ∧
      reorder nastranToVtkOrder card s = .ok row := by
  have hk : ∀ kv ∈ vtkToNastranOrder, ∃ q ∈ find nastranToVtkOrder kv.1,
      ∃ t ∈ find nastranToMeshio kv.1, ∃ n ∈ numNodesPerCell.get? t,
        Undoes kv.2 q n = true := by decide +kernel
  have hn : ∀ kv ∈ nastranToVtkOrder, (find vtkToNastranOrder kv.1).isSome := by decide +kernel
  unfold reorder
  cases hw : find vtkToNastranOrder card with
  | none =>
    cases hr : find nastranToVtkOrder card with
    | none => exact ⟨row, rfl, rfl, rfl⟩
    | some q => have := hn _ (find_mem hr); simp only [hw] at this; cases this
  | some p =>
    obtain ⟨q, hq, t', ht', n, hn', hu⟩ := hk _ (find_mem hw)
    simp only [show find nastranToVtkOrder card = some q from hq]
    rw [show find nastranToMeshio card = some t' from ht'] at hc
    cases hc
    have hl := hrow n hn'
    obtain ⟨s, h1, h2, h3⟩ := pick_pick_of_undoes hu row hl
    exact ⟨s, h1, by rw [h2, hl], h3⟩

/-- Nastran's second order solids and CTRIAX6 are translated to the order of VTK. -/
theorem C17_nastran_conforms (card t : String) (ns vs : List Site)
    (hn : find nastranSites card = some (t, ns)) (hv : find vtkSites t = some vs) :
    reorder nastranToVtkOrder card ns = .ok vs := by
  have k : ∀ kv ∈ nastranSites, ∀ vs ∈ find vtkSites kv.2.1,
      reorder nastranToVtkOrder kv.1 kv.2.2 = .ok vs := by decide +kernel
  exact k _ (find_mem hn) vs hv

/-- FLAC3D with the right-handed order table (`C35` covers the choice of the table). -/
theorem C17_flac3d (t : String) (ht : (find meshioToFlacOrder t).isSome) (row : List α)
    (hrow : ∀ n, numNodesPerCell.get? t = some n → row.length = n) :
    ∃ s, reorderStrict meshioToFlacOrder t row = .ok s ∧ s.length = row.length ∧
      reorderStrict flacToMeshioOrder t s = .ok row :=
  reorderStrict_inverse (by decide +kernel) t ht row hrow

/-- Netgen: the inverted node map (computed by the loop in the module) is undone by the
node map. -/
theorem C17_netgen (t : String) (ht : (find netgenIPmap t).isSome) (row : List α)
    (hrow : ∀ n, numNodesPerCell.get? t = some n → row.length = n) :
    ∃ s, reorderStrict netgenIPmap t row = .ok s ∧ s.length = row.length ∧
      reorderStrict netgenPmap t s = .ok row :=
  reorderStrict_inverse (by decide +kernel) t ht row hrow

/-- MDPA reorders nothing in either direction. -/
theorem C17_mdpa (t : String) (row : List α) :
    ∃ s, mdpaReorder t row = .ok s ∧ mdpaReorder t s = .ok row := ⟨row, rfl, rfl⟩

/-- The claim of C17 for PERMAS. -/
def C17_permas_statement : Prop :=
  ∀ (t : String) (row : List Nat),
    (∀ n, numNodesPerCell.get? t = some n → row.length = n) → (find meshioToPermas t).isSome →
    ∃ s, permasWrite t row = .ok s ∧ permasRead t s = .ok row

/-- False: the reader does not undo the writer's order. -/
theorem C17_permas_false : ¬ C17_permas_statement := by
  intro h
  obtain ⟨s, h1, h2⟩ := h "triangle6" [0, 1, 2, 3, 4, 5]
    (by intro n hn
        have : numNodesPerCell.get? "triangle6" = some 6 := by decide +kernel
        rw [this] at hn; cases hn; rfl) (by decide +kernel)
  have : permasWrite "triangle6" [0, 1, 2, 3, 4, 5] = .ok [0, 3, 1, 4, 2, 5] := by decide +kernel
  rw [this] at h1; cases h1
  exact absurd h2 (by decide)

/-- It holds for all but four PERMAS types. -/
theorem C17_permas_partial (t : String) (row : List α)
    (ht : t ∉ ["tetra10", "triangle6", "quad9", "wedge15"]) :
    ∃ s, permasWrite t row = .ok s ∧ permasRead t s = .ok row := by
  simp only [List.mem_cons, List.not_mem_nil, or_false, not_or] at ht
  exact ⟨row, by simp [permasWrite, ht], rfl⟩

example : ∃ s, reorder gmshGmshOrdering "hexahedron20" (List.range 20) = .ok s ∧
    s ≠ List.range 20 ∧ reorder gmshMeshioOrdering "hexahedron20" s = .ok (List.range 20) :=
  ⟨_, rfl, by decide, by decide +kernel⟩

end Meshio.Props
