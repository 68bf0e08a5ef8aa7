/-
C44: UGRID files.
-/
import Verif.Proofs.Ugrid
import Verif.Spec.Ugrid
namespace Meshio.Props
open Ugrid Types Tables Spec

variable {α F : Type}

theorem fileRow_plain {t : String} (h : t ≠ "pyramid") (r : List Int) : fileRow t r = ugridNodes r := by
  unfold fileRow ugridWrite
  rw [if_neg h]
  rfl

theorem fileRow_pyramid {r : List Int} (h : r.length = 5) : fileRow "pyramid" r = ugridPyramidNodes r := by
  match r, h with
  | [a, b, c, d, e], _ => rfl

theorem map_plain {t : String} (h : t ≠ "pyramid") (rows : List (List Int)) : rows.map (fileRow t) = rows.map ugridNodes :=
  List.map_congr_left fun r _ => fileRow_plain h r

theorem map_pyramid {rows : List (List Int)} (h : ∀ r ∈ rows, r.length = 5) :
    rows.map (fileRow "pyramid") = rows.map ugridPyramidNodes :=
  List.map_congr_left fun r hr => fileRow_pyramid (h r hr)

/-- The blocks of the surface with their tags. -/
theorem zip_blocks (cs : List (Sec × List Int)) (h : ∀ c ∈ cs, c.2.length = c.1.rows.length) :
    ((blocksOf (cs.map (·.1))).map fun b => b.2.length) = ((cs.map (·.2)).filter fun t => decide (t ≠ [])).map (·.length) ∧
    ((blocksOf (cs.map (·.1))).zip ((cs.map (·.2)).filter fun t => decide (t ≠ []))).map
        (fun bt => (⟨bt.1.1, bt.1.2, bt.2⟩ : Blk)) =
      (cs.map fun c => (⟨c.1.type, c.1.rows, c.2⟩ : Blk)).filter fun b => decide (b.rows ≠ []) := by
  induction cs with
  | nil => exact ⟨rfl, rfl⟩
  | cons c cs ih =>
    obtain ⟨i1, i2⟩ := ih fun c' h' => h c' (by simp [h'])
    have hc := h c (by simp)
    unfold blocksOf at i1 i2 ⊢
    by_cases h0 : c.1.rows = []
    · have h0' : c.2 = [] := by rw [h0] at hc; exact List.eq_nil_of_length_eq_zero (by simpa using hc)
      simp only [List.map_cons]
      rw [List.filter_cons_of_neg (by simpa using h0), List.filter_cons_of_neg (by simpa using h0'),
        List.filter_cons_of_neg (by simpa using h0)]
      exact ⟨i1, i2⟩
    · have h0' : c.2 ≠ [] := by
        intro e
        rw [e] at hc
        exact h0 (List.eq_nil_of_length_eq_zero (by simpa using hc.symm))
      simp only [List.map_cons]
      rw [List.filter_cons_of_pos (by simpa using h0), List.filter_cons_of_pos (by simpa using h0'),
        List.filter_cons_of_pos (by simpa using h0)]
      simp only [List.map_cons, List.zip_cons_cons]
      exact ⟨by rw [i1, hc], by rw [i2]⟩

theorem vol_blocks (cs : List Sec) :
    ((blocksOf cs).map fun b => (⟨b.1, b.2, List.replicate b.2.length 0⟩ : Blk)) =
      (cs.map fun c => (⟨c.type, c.rows, c.rows.map fun _ => 0⟩ : Blk)).filter fun b => decide (b.rows ≠ []) := by
  induction cs with
  | nil => rfl
  | cons c cs ih =>
    unfold blocksOf at ih ⊢
    by_cases h0 : c.rows = []
    · simpa [h0] using ih
    · simp only [List.map_cons]
      rw [List.filter_cons_of_pos (by simpa using h0), List.filter_cons_of_pos (by simpa using h0)]
      simp only [List.map_cons]
      rw [ih, List.map_const']

/-- **C44 (reading).** A file with any contents is read as it says: coordinates as the medium keeps them, node order
included, tags of the surface, whatever the record markers are and whatever follows. -/
theorem C44_read {m : Medium α F} {fits : Int → Prop} {round : F → F} (g : Good m fits round) (S : UgridFile F)
    (hS : S.Ok fits) (hc : ∀ z ∈ S.counts, fits z) (marks : Option (Int × Int × Int))
    (hm : ∀ abc, marks = some abc → fits abc.1 ∧ fits abc.2.1 ∧ fits abc.2.2) (tail : List α) :
    Ugrid.read m marks.isSome (S.text m marks ++ tail) = .ok (S.points.map fun p => p.map round, S.blocks) := by
  -- the stream after each section
  have hstart := g.start (S.text m marks ++ tail)
  have hlay : S.text m marks ++ tail =
      (if marks.isSome = true then m.putInts [[(marks.getD (0, 0, 0)).1]] else []) ++ (m.putInts [S.counts] ++
      ((if marks.isSome = true then m.putInts [[(marks.getD (0, 0, 0)).2.1]] else []) ++
      ((if marks.isSome = true then m.putInts [[(marks.getD (0, 0, 0)).2.2]] else []) ++ (m.putFlts S.points ++
      (([⟨"triangle", 3, S.triangle⟩, ⟨"quad", 4, S.quad⟩] : List Sec).flatMap (fun c => m.putInts (c.rows.map (fileRow c.type))) ++
      (([S.triangleTags, S.quadTags].flatMap fun t => m.putInts (t.map fun z => [z])) ++
      (([⟨"tetra", 4, S.tetra⟩, ⟨"pyramid", 5, S.pyramid⟩, ⟨"wedge", 6, S.wedge⟩, ⟨"hexahedron", 8, S.hexahedron⟩] :
        List Sec).flatMap (fun c => m.putInts (c.rows.map (fileRow c.type))) ++ tail))))))) := by
    simp only [List.flatMap_cons, List.flatMap_nil, List.append_nil]
    rw [map_plain (t := "triangle") (by decide), map_plain (t := "quad") (by decide), map_plain (t := "tetra") (by decide),
      map_plain (t := "wedge") (by decide), map_plain (t := "hexahedron") (by decide),
      map_pyramid fun r hr => (hS.pyramid r hr).1]
    unfold UgridFile.text
    cases marks <;> simp only [Option.isSome_none, Option.isSome_some, if_true, List.append_assoc, List.nil_append,
      Option.getD_some, Bool.false_eq_true, if_false]
  rw [hlay] at hstart ⊢
  have hfit : ∀ (x : Int × Int × Int → Int), (∀ abc, marks = some abc → fits (x abc)) →
      ∀ s rest, g.Holds s ((if marks.isSome = true then m.putInts [[x (marks.getD (0, 0, 0))]] else []) ++ rest) →
        g.Holds (skipMark m marks.isSome s) rest := by
    intro x hx s rest hs
    cases hmk : marks with
    | none => rw [hmk] at hs; simpa [skipMark] using hs
    | some abc =>
      rw [hmk] at hs
      exact skipMark_ok g true (x abc) (hx abc hmk) s rest hs
  have h1 := hfit (·.1) (fun abc h => (hm abc h).1) _ _ hstart
  obtain ⟨s2, e2, h2⟩ := g.ints _ _ _ h1 (by
    intro r hr
    rw [List.mem_singleton] at hr
    subst hr
    exact ⟨by simp [UgridFile.counts], hc⟩)
  have h3 := hfit (·.2.1) (fun abc h => (hm abc h).2.1) _ _ h2
  have h4 := hfit (·.2.2) (fun abc h => (hm abc h).2.2) _ _ h3
  obtain ⟨s5, e5, h5⟩ := g.flts _ _ _ h4 (by
    intro p hp e
    have := hS.points p hp
    rw [e] at this
    simp at this)
  have hsurf : ∀ c ∈ ([⟨"triangle", 3, S.triangle⟩, ⟨"quad", 4, S.quad⟩] : List Sec), c.Ok fits := by
    intro c hcm
    simp only [List.mem_cons, List.not_mem_nil, or_false] at hcm
    rcases hcm with rfl | rfl
    · exact ⟨Nat.succ_pos _, fun e => by first | rfl | simp at e, hS.triangle⟩
    · exact ⟨Nat.succ_pos _, fun e => by first | rfl | simp at e, hS.quad⟩
  obtain ⟨s6, e6, h6⟩ := readBlocks_ok g _ hsurf _ _ h5
  obtain ⟨s7, e7, h7⟩ := readTags_ok g [S.triangleTags, S.quadTags] (by
    intro t ht
    simp only [List.mem_cons, List.not_mem_nil, or_false] at ht
    rcases ht with rfl | rfl
    · exact hS.triangleTags.2
    · exact hS.quadTags.2) _ _ h6
  have hvol : ∀ c ∈ ([⟨"tetra", 4, S.tetra⟩, ⟨"pyramid", 5, S.pyramid⟩, ⟨"wedge", 6, S.wedge⟩,
      ⟨"hexahedron", 8, S.hexahedron⟩] : List Sec), c.Ok fits := by
    intro c hcm
    simp only [List.mem_cons, List.not_mem_nil, or_false] at hcm
    rcases hcm with rfl | rfl | rfl | rfl
    · exact ⟨Nat.succ_pos _, fun e => by first | rfl | simp at e, hS.tetra⟩
    · exact ⟨Nat.succ_pos _, fun e => by first | rfl | simp at e, hS.pyramid⟩
    · exact ⟨Nat.succ_pos _, fun e => by first | rfl | simp at e, hS.wedge⟩
    · exact ⟨Nat.succ_pos _, fun e => by first | rfl | simp at e, hS.hexahedron⟩
  obtain ⟨s8, e8, h8⟩ := readBlocks_ok g _ hvol _ _ h7
  have hcl : ([S.counts] : List (List Int)).flatten = S.counts := by simp
  rw [hcl] at e2
  have hcl2 : S.counts.length = 7 := rfl
  rw [hcl2] at e2
  unfold Ugrid.read
  rw [e2]
  simp only [UgridFile.counts]
  rw [if_neg (by omega)]
  simp only [Int.toNat_natCast]
  rw [length_flatten_const 3 _ hS.points] at e5
  rw [e5]
  have hr := reshape_flatten 3 (S.points.map fun p => p.map round) (by
    intro r hr
    obtain ⟨p, hp, rfl⟩ := List.mem_map.1 hr
    rw [List.length_map]
    exact hS.points p hp)
  rw [List.length_map, ← List.map_flatten] at hr
  rw [hr]
  simp only
  simp only [List.map_cons, List.map_nil] at e6 e7 e8
  rw [e6]
  simp only
  rw [hS.triangleTags.1, hS.quadTags.1] at e7
  rw [e7]
  simp only
  rw [e8]
  simp only
  obtain ⟨z1, z2⟩ := zip_blocks [(⟨"triangle", 3, S.triangle⟩, S.triangleTags), (⟨"quad", 4, S.quad⟩, S.quadTags)] (by
    intro c hcm
    simp only [List.mem_cons, List.not_mem_nil, or_false] at hcm
    rcases hcm with rfl | rfl
    · exact hS.triangleTags.1
    · exact hS.quadTags.1)
  simp only [List.map_cons, List.map_nil] at z1 z2
  rw [z1, if_neg (by simp), z2, vol_blocks, ← List.filter_append]
  rfl

/-! ## Writing -/

/-- The six types of the format. -/
def ugridTypes : List String := ["triangle", "quad", "tetra", "pyramid", "wedge", "hexahedron"]

/-- The cells of a type. -/
def cellsOf (cells : List (String × List (List Int))) (t : String) : List (List Int) := (cells.lookup t).getD []

/-- The file of a mesh: tags are ones. -/
def ugridOf (points : List (List F)) (cells : List (String × List (List Int))) : UgridFile F where
  points := points
  triangle := cellsOf cells "triangle"
  quad := cellsOf cells "quad"
  triangleTags := (cellsOf cells "triangle").map fun _ => 1
  quadTags := (cellsOf cells "quad").map fun _ => 1
  tetra := cellsOf cells "tetra"
  pyramid := cellsOf cells "pyramid"
  wedge := cellsOf cells "wedge"
  hexahedron := cellsOf cells "hexahedron"

theorem register_step (d : List (String × List (List Int))) (b : String × List (List Int)) (h : d.lookup b.1 = none) :
    register d b = .ok (if b.1 ∈ surfTypes ++ volTypes then b :: d else d) := by
  unfold register
  rw [h]
  simp only [Option.getD_none, List.length_nil, gt_iff_lt, Nat.lt_irrefl, if_false]
  split <;> rfl

theorem register_all (cells : List (String × List (List Int))) (d : List (String × List (List Int)))
    (hn : (cells.map (·.1)).Nodup) (hd : ∀ b ∈ cells, d.lookup b.1 = none) :
    ∃ d', foldRes register d cells = .ok d' ∧
      ∀ t ∈ surfTypes ++ volTypes, d'.lookup t = (cells.lookup t).or (d.lookup t) := by
  induction cells generalizing d with
  | nil => exact ⟨d, rfl, fun t _ => by simp⟩
  | cons b cells ih =>
    rw [List.map_cons, List.nodup_cons] at hn
    rw [foldRes, register_step d b (hd b (by simp))]
    simp only
    have hne : ∀ b' ∈ cells, (b'.1 == b.1) = false := by
      intro b' hb'
      rw [beq_eq_false_iff_ne]
      intro e
      exact hn.1 (e ▸ List.mem_map_of_mem hb')
    obtain ⟨d', h1, h2⟩ := ih (if b.1 ∈ surfTypes ++ volTypes then b :: d else d) hn.2 (by
      intro b' hb'
      split
      · rw [List.lookup_cons, hne b' hb']
        exact hd b' (by simp [hb'])
      · exact hd b' (by simp [hb']))
    refine ⟨d', h1, ?_⟩
    intro t ht
    rw [h2 t ht, List.lookup_cons]
    by_cases e : t = b.1
    · subst e
      rw [if_pos ht]
      have : cells.lookup b.1 = none := by
        rw [List.lookup_eq_none_iff]
        intro p hp
        have := hne p hp
        rw [beq_eq_false_iff_ne] at this
        simpa using fun e => this e.symm
      rw [this, List.lookup_cons]
      simp
    · have e' : (t == b.1) = false := by simpa using e
      rw [e']
      split
      · rw [List.lookup_cons, e']
      · rfl

/-- At most one block per supported type. -/
def OncePerType (cells : List (String × List (List Int))) : Prop :=
  ((cells.filter fun b => decide (b.1 ∈ ugridTypes)).map (·.1)).Nodup

theorem mem_types (t : String) : t ∈ surfTypes ++ volTypes ↔ t ∈ ugridTypes := by
  simp [surfTypes, volTypes, ugridTypes]

theorem register_filter (cells d : List (String × List (List Int))) :
    foldRes register d cells = foldRes register d (cells.filter fun b => decide (b.1 ∈ ugridTypes)) := by
  induction cells generalizing d with
  | nil => rfl
  | cons b cells ih =>
    by_cases h : b.1 ∈ ugridTypes
    · rw [List.filter_cons_of_pos (by simpa using h), foldRes, foldRes]
      cases register d b with
      | error e => rfl
      | ok d' => exact ih d'
    · rw [List.filter_cons_of_neg (by simpa using h), foldRes]
      have : register d b = .ok d := by
        unfold register
        rw [if_neg (by rw [mem_types]; exact h)]
      rw [this]
      exact ih d

theorem lookup_filter (cells : List (String × List (List Int))) (t : String) (ht : t ∈ ugridTypes) :
    (cells.filter fun b => decide (b.1 ∈ ugridTypes)).lookup t = cells.lookup t := by
  induction cells with
  | nil => rfl
  | cons b cells ih =>
    by_cases h : b.1 ∈ ugridTypes
    · rw [List.filter_cons_of_pos (by simpa using h), List.lookup_cons, List.lookup_cons, ih]
    · rw [List.filter_cons_of_neg (by simpa using h), List.lookup_cons, ih]
      have : (t == b.1) = false := by
        rw [beq_eq_false_iff_ne]
        intro e
        exact h (e ▸ ht)
      rw [this]

theorem register_rows (cells : List (String × List (List Int))) (hn : OncePerType cells) :
    ∃ d, foldRes register [] cells = .ok d ∧ ∀ t ∈ surfTypes ++ volTypes, Ugrid.rowsOf d t = cellsOf cells t := by
  obtain ⟨d, h1, h2⟩ := register_all _ [] hn (fun _ _ => rfl)
  refine ⟨d, by rw [register_filter]; exact h1, fun t ht => ?_⟩
  unfold Ugrid.rowsOf cellsOf
  rw [h2 t ht, lookup_filter _ _ ((mem_types t).1 ht)]
  simp

theorem stored_eq (t : String) (rows : List (List Int)) (h : t = "pyramid" → ∀ r ∈ rows, r.length = 5) :
    stored t rows = .ok (rows.map (fileRow t)) := by
  unfold stored
  apply mapRes_ok_of_forall
  intro r hr
  obtain ⟨s, hs, -, -⟩ := C17_ugrid t (r.map (· + 1)) (by intro e; rw [List.length_map, h e r hr])
  unfold fileRow
  rw [hs]

/-- The number written as the length of the second record. -/
def recordSize (isize : Nat) (points : List (List F)) (cells : List (String × List (List Int))) : Nat :=
  8 * points.flatten.length + (cells.map fun b => 8 * b.2.flatten.length).sum +
    ((cellsOf cells "triangle").length * isize + (cellsOf cells "quad").length * isize)

/-- **C44 (the header and the sections).** A mesh with at most one block per type and no integer cell data is written as
the file described by the format: the seven counts are the sizes of the sections, and tags are ones. -/
theorem C44_write (m : Medium α F) (fortran : Bool) (isize : Nat) (points : List (List F))
    (cells : List (String × List (List Int))) (hn : OncePerType cells)
    (hp : ∀ r ∈ cellsOf cells "pyramid", r.length = 5) :
    Ugrid.write m fortran isize false points cells = .ok
      ((ugridOf points cells).text m (if fortran then some (56, 56, (recordSize isize points cells : Int)) else none) ++
        (if fortran then m.putInts [[(recordSize isize points cells : Int)]] else [])) := by
  obtain ⟨d, h1, h2⟩ := register_rows cells hn
  unfold Ugrid.write
  rw [h1]
  simp only
  have hsurf : mapRes (fun t => stored t (Ugrid.rowsOf d t)) surfTypes =
      .ok (surfTypes.map fun t => (cellsOf cells t).map (fileRow t)) := by
    apply mapRes_ok_of_forall
    intro t ht
    rw [h2 t (List.mem_append_left _ ht), stored_eq]
    intro e
    rw [e] at ht
    exact absurd ht (by decide)
  have hvol : mapRes (fun t => stored t (Ugrid.rowsOf d t)) volTypes =
      .ok (volTypes.map fun t => (cellsOf cells t).map (fileRow t)) := by
    apply mapRes_ok_of_forall
    intro t ht
    rw [h2 t (List.mem_append_right _ ht), stored_eq]
    intro e
    rw [e]
    exact hp
  rw [hsurf, hvol]
  simp only [Bool.false_and, Bool.false_eq_true, if_false]
  have r1 := h2 "triangle" (by decide)
  have r2 := h2 "quad" (by decide)
  have r3 := h2 "tetra" (by decide)
  have r4 := h2 "pyramid" (by decide)
  have r5 := h2 "wedge" (by decide)
  have r6 := h2 "hexahedron" (by decide)
  simp only [surfTypes, volTypes, List.map_cons, List.map_nil, List.cons_append, List.nil_append, List.flatMap_cons,
    List.flatMap_nil, r1, r2, r3, r4, r5, r6, List.sum_cons, List.sum_nil, Nat.add_zero]
  rw [map_plain (t := "triangle") (by decide), map_plain (t := "quad") (by decide), map_plain (t := "tetra") (by decide),
      map_plain (t := "wedge") (by decide), map_plain (t := "hexahedron") (by decide), map_pyramid hp]
  unfold UgridFile.text
  have hones : ∀ l : List (List Int), List.replicate l.length [(1 : Int)] = (l.map fun _ => (1 : Int)).map fun z => [z] := by
    intro l
    induction l with
    | nil => rfl
    | cons a l ih => rw [List.length_cons, List.replicate_succ, ih]; rfl
  have hsize : 8 * points.flatten.length + (cells.map fun b => nbytes b.2).sum +
      ((cellsOf cells "triangle").length * isize + (cellsOf cells "quad").length * isize) = recordSize isize points cells := rfl
  rw [hones, hones, hsize]
  cases fortran <;> simp only [if_true, if_false, Bool.false_eq_true, List.append_assoc, List.nil_append, List.append_nil,
    ugridOf, UgridFile.counts] <;> rfl

/-- A mesh that can be written: points in space, cells with the right number of nodes, numbers that fit. -/
structure UgridMeshOk (fits : Int → Prop) (points : List (List F)) (cells : List (String × List (List Int))) : Prop where
  once : OncePerType cells
  coords : ∀ p ∈ points, p.length = 3
  triangle : ∀ r ∈ cellsOf cells "triangle", r.length = 3 ∧ ∀ z ∈ r, fits (z + 1)
  quad : ∀ r ∈ cellsOf cells "quad", r.length = 4 ∧ ∀ z ∈ r, fits (z + 1)
  tetra : ∀ r ∈ cellsOf cells "tetra", r.length = 4 ∧ ∀ z ∈ r, fits (z + 1)
  pyramid : ∀ r ∈ cellsOf cells "pyramid", r.length = 5 ∧ ∀ z ∈ r, fits (z + 1)
  wedge : ∀ r ∈ cellsOf cells "wedge", r.length = 6 ∧ ∀ z ∈ r, fits (z + 1)
  hexahedron : ∀ r ∈ cellsOf cells "hexahedron", r.length = 8 ∧ ∀ z ∈ r, fits (z + 1)
  counts : fits points.length ∧ ∀ t ∈ ugridTypes, fits (cellsOf cells t).length

/-- The mesh read back: one block per type that has cells, in the order of the format; surface tags are ones, others are
zeros. -/
def ugridBack (cells : List (String × List (List Int))) : List Blk :=
  (ugridTypes.filter fun t => decide (cellsOf cells t ≠ [])).map fun t =>
    ⟨t, cellsOf cells t, (cellsOf cells t).map fun _ => if t = "triangle" ∨ t = "quad" then 1 else 0⟩

theorem blocks_back (points : List (List F)) (cells : List (String × List (List Int))) :
    (ugridOf points cells).blocks = ugridBack cells := by
  unfold ugridBack UgridFile.blocks
  have : (ugridTypes.filter fun t => decide (cellsOf cells t ≠ [])).map (fun t =>
      (⟨t, cellsOf cells t, (cellsOf cells t).map fun _ => if t = "triangle" ∨ t = "quad" then 1 else 0⟩ : Blk)) =
      (ugridTypes.map (fun t =>
      (⟨t, cellsOf cells t, (cellsOf cells t).map fun _ => if t = "triangle" ∨ t = "quad" then 1 else 0⟩ : Blk))).filter
        fun b => decide (b.rows ≠ []) := by
    rw [List.filter_map]
    rfl
  rw [this]
  rfl

/-- The round trip over any good medium. -/
theorem C44_roundtrip_medium {m : Medium α F} {fits : Int → Prop} {round : F → F} (g : Good m fits round) (hone : fits 1)
    (fortran : Bool) (isize : Nat) (points : List (List F)) (cells : List (String × List (List Int)))
    (h : UgridMeshOk fits points cells)
    (hsize : fortran = true → fits 56 ∧ fits (recordSize isize points cells)) :
    ∃ s, Ugrid.write m fortran isize false points cells = .ok s ∧
      Ugrid.read m fortran s = .ok (points.map fun p => p.map round, ugridBack cells) := by
  refine ⟨_, C44_write m fortran isize points cells h.once (fun r hr => (h.pyramid r hr).1), ?_⟩
  have hS : (ugridOf points cells).Ok fits := by
    refine ⟨h.coords, h.triangle, h.quad, h.tetra, h.pyramid, h.wedge, h.hexahedron, ⟨by simp [ugridOf], ?_⟩, ⟨by simp [ugridOf], ?_⟩⟩
    · intro z hz
      obtain ⟨_, _, rfl⟩ := List.mem_map.1 hz
      exact hone
    · intro z hz
      obtain ⟨_, _, rfl⟩ := List.mem_map.1 hz
      exact hone
  have hc : ∀ z ∈ (ugridOf points cells).counts, fits z := by
    intro z hz
    simp only [UgridFile.counts, ugridOf, List.mem_cons, List.not_mem_nil, or_false] at hz
    rcases hz with rfl | rfl | rfl | rfl | rfl | rfl | rfl
    · exact h.counts.1
    all_goals exact h.counts.2 _ (by decide)
  have := C44_read g (ugridOf points cells) hS hc
    (if fortran then some (56, 56, (recordSize isize points cells : Int)) else none) (by
      intro abc e
      cases fortran with
      | false => simp at e
      | true =>
        simp only [if_true, Option.some.injEq] at e
        subst e
        exact ⟨(hsize rfl).1, (hsize rfl).1, (hsize rfl).2⟩)
    (if fortran then m.putInts [[(recordSize isize points cells : Int)]] else [])
  rw [blocks_back] at this
  refine Eq.trans ?_ this
  cases fortran <;> rfl

/-- **C44 (round trip through text files; partial: no integer cell data).** Points come back rounded to four bytes, as the
reader asks for `float32`; blocks come back one per type, with the same node order. -/
theorem C44_roundtrip_text_partial (io : FileFloat F) (points : List (List F)) (cells : List (String × List (List Int)))
    (h : UgridMeshOk (fun _ => True) points cells) :
    ∃ s, Ugrid.write (textMedium io) false 4 false points cells = .ok s ∧
      Ugrid.read (textMedium io) false s = .ok (points.map fun p => p.map io.single, ugridBack cells) :=
  C44_roundtrip_medium (goodText io) trivial false 4 points cells h (by simp)

/-- **C44 (round trip through binary files; partial: no integer cell data).** For each of the ten binary kinds of file:
eight-byte floats come back unchanged, four-byte ones rounded. -/
theorem C44_roundtrip_binary_partial (io : FileFloat F) (name : String) (t : FileType) (ht : (name, t) ∈ fileTypes)
    (hk : t.kind ≠ .ascii) (points : List (List F)) (cells : List (String × List (List Int)))
    (h : UgridMeshOk (IsInt t.isize) points cells)
    (hsize : t.kind = .fortran → IsInt t.isize (recordSize t.isize points cells)) :
    ∃ s, Ugrid.write (byteMedium io t) (decide (t.kind = .fortran)) t.isize false points cells = .ok s ∧
      Ugrid.read (byteMedium io t) (decide (t.kind = .fortran)) s =
        .ok (points.map fun p => p.map (if t.fsize = 8 then id else io.single), ugridBack cells) := by
  have key : ∀ nt ∈ fileTypes, (nt.2.fsize = 4 ∨ nt.2.fsize = 8) ∧ (nt.2.isize = 4 ∨ nt.2.isize = 8) := by decide
  obtain ⟨hf, hi⟩ := key _ ht
  have hsmall : ∀ z : Int, 0 ≤ z → z < 100 → IsInt t.isize z := by
    intro z h0 h1
    rcases hi with hi | hi
    all_goals
      simp only at hi
      rw [hi]
      unfold IsInt
      omega
  exact C44_roundtrip_medium (goodByte io t hf (by rcases hi with hi | hi <;> simp only at hi <;> omega))
    (hsmall 1 (by decide) (by decide)) _ _ points cells h
    (fun hfo => ⟨hsmall 56 (by decide) (by decide), hsize (by simpa using hfo)⟩)

/-! ### The file type -/

theorem splitOnC_append_any (c : Char) (a s : List Char) : splitOnC c (a ++ c :: s) = splitOnC c a ++ splitOnC c s := by
  induction a with
  | nil => simp [splitOnC]
  | cons x a ih =>
    rw [List.cons_append, splitOnC, splitOnC, ih]
    have := splitOnC_ne_nil c a
    split
    · rfl
    · cases h : splitOnC c a with
      | nil => exact absurd h this
      | cons y l => rfl

/-- **C44 (suffix).** `name.SUFFIX.ugrid` is read and written as the table says, and as text if the suffix is unknown. -/
theorem C44_suffix (stem suffix ext : List Char) (h1 : '.' ∉ suffix) (h2 : '.' ∉ ext) :
    fileType (stem ++ '.' :: (suffix ++ '.' :: ext)) =
      (find fileTypes (String.ofList suffix)).getD ⟨.ascii, false, 4, 4⟩ := by
  have e : splitOnC '.' (stem ++ '.' :: (suffix ++ '.' :: ext)) = splitOnC '.' stem ++ [suffix, ext] := by
    rw [splitOnC_append_any, splitOnC_append_sep _ _ _ h1, splitOnC_not_mem _ _ h2]
  unfold fileType
  simp only [e]
  rw [if_pos (by simp)]
  have : (splitOnC '.' stem ++ [suffix, ext])[(splitOnC '.' stem ++ [suffix, ext]).length - 2]? = some suffix := by
    rw [List.length_append]
    simp
  rw [this]

/-! ### What is refused -/

theorem register_keeps (t : String) (cells d : List (String × List (List Int)))
    (hd : ((d.lookup t).getD []).length > 0) (r : List (List Int)) (ht : t ∈ ugridTypes) (hr : (t, r) ∈ cells) :
    foldRes register d cells = .error .valueError := by
  induction cells generalizing d with
  | nil => simp at hr
  | cons b cells ih =>
    rw [foldRes]
    by_cases hb : b.1 = t
    · unfold register
      rw [hb, if_pos ((mem_types t).2 ht), if_pos hd]
    · have hr' : (t, r) ∈ cells := by
        rcases List.mem_cons.1 hr with e | h
        · exact absurd (by rw [← e]) hb
        · exact h
      unfold register
      by_cases c1 : b.1 ∈ surfTypes ++ volTypes
      · rw [if_pos c1]
        by_cases c2 : ((d.lookup b.1).getD []).length > 0
        · rw [if_pos c2]
        · rw [if_neg c2]
          exact ih _ (by rw [List.lookup_cons, (beq_eq_false_iff_ne (a := t) (b := b.1)).2 (fun e => hb e.symm)]; exact hd) hr'
      · rw [if_neg c1]
        exact ih _ hd hr'

theorem register_error (cells d : List (String × List (List Int))) (e : Err) (h : foldRes register d cells = .error e) :
    e = .valueError := by
  induction cells generalizing d with
  | nil => cases h
  | cons b cells ih =>
    rw [foldRes] at h
    cases hb : register d b with
    | ok d' => rw [hb] at h; exact ih d' h
    | error e' =>
      rw [hb] at h
      cases h
      unfold register at hb
      split at hb
      · split at hb
        · cases hb; rfl
        · cases hb
      · cases hb

/-- **C44 (two blocks of a type).** A mesh with a block with cells and another block of the same type is refused. -/
theorem C44_refuses_two (m : Medium α F) (fortran : Bool) (isize : Nat) (intData : Bool) (points : List (List F))
    (pre post : List (String × List (List Int))) (t : String) (r r' : List (List Int)) (ht : t ∈ ugridTypes) (hr : r ≠ [])
    (hpost : (t, r') ∈ post) :
    Ugrid.write m fortran isize intData points (pre ++ (t, r) :: post) = .error .valueError := by
  have : foldRes register [] (pre ++ (t, r) :: post) = .error .valueError := by
    rw [foldRes_append]
    cases h1 : foldRes register [] pre with
    | error e => rw [register_error _ _ _ h1]
    | ok d =>
      simp only
      rw [foldRes]
      by_cases h2 : ((d.lookup t).getD []).length > 0
      · unfold register
        rw [if_pos ((mem_types t).2 ht), if_pos h2]
      · unfold register
        rw [if_pos ((mem_types t).2 ht), if_neg h2]
        exact register_keeps t post _ (by simp [List.length_pos_iff, hr]) r' ht hpost
  unfold Ugrid.write
  rw [this]

/-- **C44 (tags).** With an integer cell data array and at least one triangle or quad, the writer fails. -/
theorem C44_refuses_tags (m : Medium α F) (fortran : Bool) (isize : Nat) (points : List (List F))
    (cells : List (String × List (List Int))) (hn : OncePerType cells)
    (h : cellsOf cells "triangle" ≠ [] ∨ cellsOf cells "quad" ≠ []) :
    Ugrid.write m fortran isize true points cells = .error .attributeError := by
  obtain ⟨d, h1, h2⟩ := register_rows cells hn
  unfold Ugrid.write
  rw [h1]
  simp only
  have hsurf : mapRes (fun t => stored t (Ugrid.rowsOf d t)) surfTypes =
      .ok (surfTypes.map fun t => (cellsOf cells t).map (fileRow t)) := by
    apply mapRes_ok_of_forall
    intro t ht
    rw [h2 t (List.mem_append_left _ ht), stored_eq]
    intro e
    rw [e] at ht
    exact absurd ht (by decide)
  rw [hsurf]
  simp only [Bool.true_and]
  rw [if_pos]
  rw [List.any_eq_true]
  rcases h with h | h
  · exact ⟨"triangle", by decide, by rw [h2 "triangle" (by decide)]; simpa using h⟩
  · exact ⟨"quad", by decide, by rw [h2 "quad" (by decide)]; simpa using h⟩

/-- **C44 (short header).** A file too short for seven counts is refused. -/
theorem C44_refuses_short (io : FileFloat F) (t : FileType) (s : List Byte) (h : s.length < 7 * t.isize) :
    Ugrid.read (byteMedium io t) false s = .error .readError := by
  unfold Ugrid.read skipMark byteMedium
  simp only [Bool.false_eq_true, if_false]
  have hlt : s.length / t.isize < 7 := by
    rw [Nat.div_lt_iff_lt_mul (by omega)]
    omega
  have hl : ((items t.isize (min 7 (s.length / t.isize)) s).map (intDec t.big)).length < 7 := by
    rw [List.length_map, length_items]
    omega
  generalize (items t.isize (min 7 (s.length / t.isize)) s).map (intDec t.big) = l at hl
  split
  · next heq =>
    rw [Prod.mk.injEq] at heq
    rw [heq.1] at hl
    simp at hl
  · rfl

/-! ### The claims as stated -/

/-- The claim with boundary tags: every mesh with at most one block per type can be written, integer data included. -/
def C44_statement : Prop :=
  ∀ (F : Type) (io : FileFloat F) (intData : Bool) (points : List (List F)) (cells : List (String × List (List Int))),
    UgridMeshOk (fun _ => True) points cells →
      ∃ s, Ugrid.write (textMedium io) false 4 intData points cells = .ok s

/-- The claim about Fortran records: the first record marker is the length of the first record in bytes. -/
def C44_marker_statement : Prop :=
  ∀ (F : Type) (io : FileFloat F) (t : FileType) (points : List (List F)) (cells : List (String × List (List Int)))
    (s : List Byte), t.kind = .fortran → Ugrid.write (byteMedium io t) true t.isize false points cells = .ok s →
      intDec t.big (s.take t.isize) = 7 * t.isize

/-- Floats with four values, of which two are representable in four bytes: for examples. -/
def fourFloats : FileFloat (Fin 4) where
  single x := if x.val < 2 then 0 else 2
  fmt x := fmtNat x.val
  tok x := isTok_fmtNat _
  parse s := if s = ['0'] ∨ s = ['1'] then some 0 else if s = ['2'] ∨ s = ['3'] then some 2 else none
  parse_fmt := by decide +kernel
  enc _ k x := if k = 0 then [] else
    (if k = 4 then (if x.val < 2 then 0 else 2) else Fin.ofNat 256 x.val) :: List.replicate (k - 1) 0
  dec _ _ b := match b with | [] => 0 | b :: _ => Fin.ofNat 4 b.val
  len := by
    intro big k x
    split
    · next h => rw [h]; rfl
    · simp only [List.length_cons, List.length_replicate]
      omega
  dec_enc8 := by decide +kernel
  dec_enc4 := by decide +kernel

/-- A mesh: a pyramid, a triangle, a block the format does not know. -/
def sampleUgridPoints : List (List (Fin 4)) := [[0, 0, 0], [2, 0, 0], [2, 2, 0], [0, 2, 0], [0, 0, 3]]
def sampleUgridCells : List (String × List (List Int)) :=
  [("pyramid", [[0, 1, 2, 3, 4]]), ("line", [[0, 1]]), ("triangle", [[0, 1, 4], [1, 2, 4]]), ("line", [[1, 2]])]

theorem sampleUgrid_ok : UgridMeshOk (fun _ => True) sampleUgridPoints sampleUgridCells :=
  ⟨by unfold OncePerType; decide, by decide, by decide, by decide, by decide, by decide, by decide, by decide, by decide⟩

theorem sampleUgrid_ok4 : UgridMeshOk (IsInt 4) sampleUgridPoints sampleUgridCells :=
  ⟨by unfold OncePerType; decide, by decide, by decide, by decide, by decide, by decide, by decide, by decide, by decide⟩

/-- **C44 fails as stated:** integer data with boundary cells cannot be written. -/
theorem C44_tags_false : ¬ C44_statement := by
  intro h
  obtain ⟨s, hs⟩ := h (Fin 4) fourFloats true sampleUgridPoints sampleUgridCells sampleUgrid_ok
  rw [C44_refuses_tags _ _ _ _ _ sampleUgrid_ok.once (Or.inl (by decide))] at hs
  cases hs

/-- **C44 fails as stated:** the marker of the first Fortran record is 56, the record has 28 bytes. -/
theorem C44_marker_false : ¬ C44_marker_statement := by
  intro h
  have := h (Fin 4) fourFloats ⟨.fortran, true, 8, 4⟩ [] [] _ rfl
    (C44_write _ _ _ _ _ (by unfold OncePerType; decide) (by decide))
  revert this
  decide +kernel

example : ∃ s, Ugrid.write (textMedium fourFloats) false 4 false sampleUgridPoints sampleUgridCells = .ok s ∧
    Ugrid.read (textMedium fourFloats) false s = .ok ([[0, 0, 0], [2, 0, 0], [2, 2, 0], [0, 2, 0], [0, 0, 2]],
      [⟨"triangle", [[0, 1, 4], [1, 2, 4]], [1, 1]⟩, ⟨"pyramid", [[0, 1, 2, 3, 4]], [0]⟩]) :=
  C44_roundtrip_text_partial fourFloats _ _ sampleUgrid_ok

example : ∃ s, Ugrid.write (byteMedium fourFloats ⟨.fortran, true, 8, 4⟩) true 4 false sampleUgridPoints sampleUgridCells = .ok s ∧
    Ugrid.read (byteMedium fourFloats ⟨.fortran, true, 8, 4⟩) true s = .ok (sampleUgridPoints,
      [⟨"triangle", [[0, 1, 4], [1, 2, 4]], [1, 1]⟩, ⟨"pyramid", [[0, 1, 2, 3, 4]], [0]⟩]) :=
  C44_roundtrip_binary_partial fourFloats "r8" ⟨.fortran, true, 8, 4⟩ (by decide) (by decide) _ _ sampleUgrid_ok4 (by decide)

example : Ugrid.write (textMedium fourFloats) false 4 false [] [("quad", [[0, 1, 2, 3]]), ("quad", [])] = .error .valueError :=
  C44_refuses_two _ _ _ _ _ [] [("quad", [])] "quad" _ [] (by decide) (by decide) (by decide)

example : Ugrid.read (byteMedium fourFloats ⟨.c, true, 8, 4⟩) false [0, 0, 0] = .error .readError :=
  C44_refuses_short _ _ _ (by decide)

example : fileType "a.b/mesh.lb8l.ugrid".toList = ⟨.c, false, 8, 8⟩ :=
  (C44_suffix "a.b/mesh".toList "lb8l".toList "ugrid".toList (by decide) (by decide)).trans (by decide +kernel)

/-- A file with tags, as another program may write it. -/
example : Ugrid.read (textMedium fourFloats) false
    "3 1 0 0 0 0 0\n0 0 0\n 2 0 0 \n\n0 2 0\n1 2 3\n7\n".toList =
      .ok ([[0, 0, 0], [2, 0, 0], [0, 2, 0]], [⟨"triangle", [[0, 1, 2]], [7]⟩]) := by decide +kernel

/-- The part of a file name that tells the kind of a binary file: `l` for little-endian, `r` for Fortran records or `b` for plain bytes, the
size of floats, and `l` for long integers. -/
def ugridSuffix (little fortran double long : Bool) : String :=
  (if little then "l" else "") ++ (if fortran then "r" else "b") ++ (if double then "8" else "4") ++ (if long then "l" else "")

/-- **The suffixes mean what the format's documentation says**; there are no others but `ascii`. -/
theorem C44_suffixes (little fortran double long : Bool) (h : long = true → fortran = false ∧ double = true) :
    find fileTypes (ugridSuffix little fortran double long) =
      some ⟨if fortran then .fortran else .c, !little, if double then 8 else 4, if long then 8 else 4⟩ := by
  revert h
  cases little <;> cases fortran <;> cases double <;> cases long <;> decide +kernel

theorem C44_suffixes_all : ∀ nt ∈ fileTypes, nt.1 = "ascii" ∧ nt.2.kind = .ascii ∨
    ∃ little fortran double long : Bool, nt.1 = ugridSuffix little fortran double long := by decide +kernel

end Meshio.Props
