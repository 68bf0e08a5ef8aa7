/-
C25: the STL format.
-/
import Verif.Model.Stl
import Verif.Props.Off
namespace Meshio.Props
open Meshio Meshio.Stl

variable {F G R : Type}

/-- The triangles show the facets: corner by corner the same coordinates, and every position
is one point. -/
def Shows (points : List (List F)) (tris : List (List Nat)) (facets : List (List (List F))) : Prop :=
  tris.map (fun t => t.map (fun i => points[i]?)) = facets.map (fun f => f.map some) ∧
    points.Nodup ∧ ∀ p ∈ points, ∃ f ∈ facets, p ∈ f

/-- Three corners with three coordinates each. -/
def FacetsOk (facets : List (List (List F))) : Prop :=
  ∀ f ∈ facets, f.length = 3 ∧ ∀ v ∈ f, v.length = 3

theorem fromPts_shows [DecidableEq F] (le : List F → List F → Bool) (facets : List (List (List F)))
    (h : ∀ f ∈ facets, f.length = 3) :
    Shows (fromPts le facets.flatten).1 (fromPts le facets.flatten).2 facets := by
  unfold fromPts
  split
  · next he =>
    have : facets = [] := by
      cases facets with
      | nil => rfl
      | cons f l =>
        have := h f (by simp)
        simp only [List.flatten_cons, List.append_eq_nil_iff] at he
        rw [he.1] at this; cases this
    subst this
    exact ⟨rfl, List.nodup_nil, by simp⟩
  · obtain ⟨g, hu, hg⟩ := uniqueStable_spec le facets.flatten
    rw [hu]
    dsimp only
    have hl := length_flatten_const 3 facets h
    have e : rowsN 3 ((facets.flatten.map g).length / 3) (facets.flatten.map g) =
        facets.map (fun f => f.map g) := by
      have := rowsN_flatten 3 (facets.map (fun f => f.map g))
        (by intro r hr; obtain ⟨f, hf, rfl⟩ := List.mem_map.mp hr; simp [h f hf]) []
      rw [List.append_nil, List.length_map] at this
      rw [List.length_map, hl, Nat.mul_div_cancel _ (by omega), List.map_flatten]
      exact this
    rw [e]
    refine ⟨?_, nodup_distinct _, ?_⟩
    · rw [List.map_map]
      apply List.map_congr_left
      intro f hf
      simp only [Function.comp, List.map_map]
      apply List.map_congr_left
      intro a ha
      exact hg a (List.mem_flatten.mpr ⟨f, hf, ha⟩)
    · intro p hp
      exact List.mem_flatten.mp (mem_distinct.1 hp)

/-! ### Text -/

theorem no_comment_f (r : List Char) : comments.any (fun c => c.isPrefixOf ('f' :: r)) = false := rfl
theorem no_comment_v (r : List Char) : comments.any (fun c => c.isPrefixOf ('v' :: r)) = false := rfl

theorem lineItems_of (line : List Char) (c : Char) (hc : (strip line).head? = some c)
    (h : c = 'f' ∨ c = 'v') (toks : List (List Char)) (hs : splitWs line = toks) :
    lineItems line = some (toks.drop (toks.length - 3)) := by
  unfold lineItems
  dsimp only
  rw [splitWs_strip, hs]
  cases hl : strip line with
  | nil => rw [hl] at hc; cases hc
  | cons d r =>
    rw [hl] at hc
    injection hc with hc
    subst hc
    rcases h with rfl | rfl
    · rw [no_comment_f]; rfl
    · rw [no_comment_v]; rfl

theorem strip_space (s : List Char) : strip (' ' :: s) = strip s := by
  unfold strip
  rw [List.dropWhile_cons]
  rfl

theorem lineItems_normal (fio : FloatIO F) (a b c : F) :
    lineItems ("facet normal ".toList ++ joinWith ' ' [fio.fmt a, fio.fmt b, fio.fmt c] ++ ['\n']) =
      some [fio.fmt a, fio.fmt b, fio.fmt c] := by
  have ht := line_tokens "facet".toList ["normal".toList, fio.fmt a, fio.fmt b, fio.fmt c] (by
    intro x hx
    simp only [List.mem_cons, List.not_mem_nil, or_false] at hx
    rcases hx with rfl | rfl | rfl | rfl | rfl
    · decide
    · decide
    · exact fio.tok _
    · exact fio.tok _
    · exact fio.tok _)
  have e : "facet normal ".toList ++ joinWith ' ' [fio.fmt a, fio.fmt b, fio.fmt c] =
      joinWith ' ' ["facet".toList, "normal".toList, fio.fmt a, fio.fmt b, fio.fmt c] := rfl
  rw [e]
  rw [lineItems_of _ 'f' (by rw [ht.2.2]; rfl) (Or.inl rfl)
    ["facet".toList, "normal".toList, fio.fmt a, fio.fmt b, fio.fmt c] (by rw [← splitWs_strip]; exact ht.1)]
  rfl

theorem lineItems_vertex (fio : FloatIO F) (a b c : F) :
    lineItems ("  vertex ".toList ++ joinWith ' ' [fio.fmt a, fio.fmt b, fio.fmt c] ++ ['\n']) =
      some [fio.fmt a, fio.fmt b, fio.fmt c] := by
  have ht := line_tokens "vertex".toList [fio.fmt a, fio.fmt b, fio.fmt c] (by
    intro x hx
    simp only [List.mem_cons, List.not_mem_nil, or_false] at hx
    rcases hx with rfl | rfl | rfl | rfl
    · decide
    · exact fio.tok _
    · exact fio.tok _
    · exact fio.tok _)
  have e : "  vertex ".toList ++ joinWith ' ' [fio.fmt a, fio.fmt b, fio.fmt c] ++ ['\n'] =
      ' ' :: ' ' :: (joinWith ' ' ["vertex".toList, fio.fmt a, fio.fmt b, fio.fmt c] ++ ['\n']) := rfl
  rw [e]
  rw [lineItems_of _ 'v' (by rw [strip_space, strip_space, ht.2.2]; rfl) (Or.inr rfl)
    ["vertex".toList, fio.fmt a, fio.fmt b, fio.fmt c]
    (by rw [splitWs_ws (by decide), splitWs_ws (by decide), ← splitWs_strip]; exact ht.1)]
  rfl

/-- The text of one facet, as the format prescribes it. -/
def facetText (fio : FloatIO F) (f : List (List F) × List F) : List (List Char) :=
  [("facet normal ".toList ++ joinWith ' ' (f.2.map fio.fmt)), " outer loop".toList] ++
    f.1.map (fun v => "  vertex ".toList ++ joinWith ' ' (v.map fio.fmt)) ++
    [" endloop".toList, "endfacet".toList]

theorem facetLines_ok (fio : FloatIO F) (f : List (List F) × List F) (h1 : f.1.length = 3)
    (h2 : ∀ v ∈ f.1, v.length = 3) (h3 : f.2.length = 3) :
    facetLines fio f = .ok (facetText fio f) := by
  obtain ⟨f, n⟩ := f
  match f, n, h1, h3 with
  | [p, q, r], [n1, n2, n3], _, _ =>
    have hp := h2 p (by simp)
    have hq := h2 q (by simp)
    have hr := h2 r (by simp)
    match p, q, r, hp, hq, hr with
    | [_, _, _], [_, _, _], [_, _, _], _, _, _ => rfl

/-- The whole text. -/
theorem C25_ascii_file (fio : FloatIO F) (facets : List (List (List F))) (normals : List (List F))
    (hf : FacetsOk facets) (hn : ∀ v ∈ normals, v.length = 3) :
    writeAscii fio facets normals = .ok (linesText ("solid".toList ::
      ((facets.zip normals).flatMap (facetText fio) ++ ["endsolid".toList]))) := by
  unfold writeAscii
  rw [mapRes_ok_of_forall (g := facetText fio)]
  · rfl
  · intro f hfm
    have := List.of_mem_zip (show (f.1, f.2) ∈ facets.zip normals from hfm)
    exact facetLines_ok fio f (hf _ this.1).1 (hf _ this.1).2 (hn _ this.2)

/-- Rows of numbers of one facet. -/
def facetRows (f : List (List F) × List F) : List (List F) := f.2 :: f.1

theorem facetText_items (fio : FloatIO F) (f : List (List F) × List F) (h1 : f.1.length = 3)
    (h2 : ∀ v ∈ f.1, v.length = 3) (h3 : f.2.length = 3) :
    ((facetText fio f).map (· ++ ['\n'])).filterMap lineItems = (facetRows f).map (fun r => r.map fio.fmt) := by
  obtain ⟨f, n⟩ := f
  match f, n, h1, h3 with
  | [p, q, r], [n1, n2, n3], _, _ =>
    have hp := h2 p (by simp)
    have hq := h2 q (by simp)
    have hr := h2 r (by simp)
    match p, q, r, hp, hq, hr with
    | [a1, a2, a3], [b1, b2, b3], [c1, c2, c3], _, _, _ =>
      have o1 : lineItems (" outer loop".toList ++ ['\n']) = none := by decide +kernel
      have o2 : lineItems (" endloop".toList ++ ['\n']) = none := by decide +kernel
      have o3 : lineItems ("endfacet".toList ++ ['\n']) = none := by decide +kernel
      simp only [facetText, List.map_cons, List.map_nil, List.cons_append, List.nil_append,
        List.filterMap_cons, lineItems_normal, lineItems_vertex, o1, o2, o3, List.filterMap_nil, facetRows]

theorem facetText_no_newline (fio : FloatIO F) (f : List (List F) × List F) :
    ∀ l ∈ facetText fio f, '\n' ∉ l := by
  have hj : ∀ v : List F, '\n' ∉ joinWith ' ' (v.map fio.fmt) := by
    intro v
    apply not_mem_joinWith (by decide)
    intro t ht
    obtain ⟨x, _, rfl⟩ := List.mem_map.mp ht
    exact (fio.tok x).no_newline
  intro l hl
  unfold facetText at hl
  simp only [List.mem_append, List.mem_cons, List.not_mem_nil, or_false, List.mem_map] at hl
  rcases hl with ((rfl | rfl) | ⟨v, _, rfl⟩) | (rfl | rfl)
  · intro h
    rcases List.mem_append.mp h with h | h
    · revert h; decide
    · exact hj _ h
  · decide
  · intro h
    rcases List.mem_append.mp h with h | h
    · revert h; decide
    · exact hj _ h
  · decide
  · decide

theorem everyFourth_rows (fs : List (List (List F) × List F)) (h : ∀ f ∈ fs, f.1.length = 3) :
    everyFourth (fs.flatMap facetRows) = fs.map (·.2) ∧ otherRows (fs.flatMap facetRows) = fs.flatMap (·.1) := by
  induction fs with
  | nil => exact ⟨rfl, rfl⟩
  | cons f fs ih =>
    obtain ⟨f, n⟩ := f
    have h1 := h (f, n) (by simp)
    obtain ⟨i1, i2⟩ := ih (fun g hg => h g (by simp [hg]))
    match f, h1 with
    | [p, q, r], _ =>
      constructor
      · show n :: everyFourth (fs.flatMap facetRows) = _
        rw [i1]; rfl
      · show p :: q :: r :: otherRows (fs.flatMap facetRows) = _
        rw [i2]; rfl

/-- The numbers in the written text. -/
theorem loadtxt_written (fio : FloatIO F) (fs : List (List (List F) × List F))
    (hf : ∀ f ∈ fs, f.1.length = 3 ∧ (∀ v ∈ f.1, v.length = 3) ∧ f.2.length = 3) (pre : List (List Char))
    (hpre : ∀ l ∈ pre, '\n' ∉ l ∧ lineItems (l ++ ['\n']) = none) :
    loadtxt fio (linesText (pre ++ (fs.flatMap (facetText fio) ++ ["endsolid".toList]))) =
      .ok (fs.flatMap facetRows) := by
  unfold loadtxt
  rw [fileLines_linesText' _ (by
    intro a ha
    simp only [List.mem_append, List.mem_cons, List.not_mem_nil, or_false, List.mem_flatMap] at ha
    rcases ha with ha | ⟨f, _, ha⟩ | rfl
    · exact (hpre a ha).1
    · exact facetText_no_newline fio f a ha
    · decide)]
  have hw : ∀ r ∈ fs.flatMap facetRows, r.length = 3 := by
    intro r hr
    obtain ⟨f, hfm, hr⟩ := List.mem_flatMap.mp hr
    rcases List.mem_cons.mp hr with rfl | hr
    · exact (hf f hfm).2.2
    · exact (hf f hfm).2.1 r hr
  have hitems : (List.map (· ++ ['\n']) (pre ++ (fs.flatMap (facetText fio) ++ ["endsolid".toList]))).filterMap lineItems =
      (fs.flatMap facetRows).map (fun r => r.map fio.fmt) := by
    rw [List.map_append, List.map_append, List.filterMap_append, List.filterMap_append]
    have h1 : (pre.map (· ++ ['\n'])).filterMap lineItems = [] := by
      rw [List.filterMap_eq_nil_iff]
      intro a ha
      obtain ⟨l, hl, rfl⟩ := List.mem_map.mp ha
      exact (hpre l hl).2
    have h3 : (["endsolid".toList].map (· ++ ['\n'])).filterMap lineItems = [] := by decide +kernel
    rw [h1, h3, List.nil_append, List.append_nil]
    clear h1 h3 hw hpre
    induction fs with
    | nil => rfl
    | cons f fs ih =>
      simp only [List.flatMap_cons, List.map_append, List.filterMap_append]
      rw [facetText_items fio f (hf f (by simp)).1 (hf f (by simp)).2.1 (hf f (by simp)).2.2,
        ih (fun g hg => hf g (by simp [hg]))]
  dsimp only
  rw [hitems]
  generalize fs.flatMap facetRows = rows at *
  have hfl : mapRes (toFloat fio) (rows.map (fun r => r.map fio.fmt)).flatten = .ok rows.flatten := by
    have e : (rows.map (fun r => r.map fio.fmt)).flatten = rows.flatten.map fio.fmt := by
      rw [List.map_flatten]
    rw [e]
    generalize rows.flatten = xs
    induction xs with
    | nil => rfl
    | cons x xs ih =>
      have : toFloat fio (fio.fmt x) = .ok x := by unfold toFloat; rw [fio.parse_fmt]
      rw [List.map_cons, mapRes, this, ih]
  rw [hfl]
  dsimp only
  have hr : rowLength (rows.map (fun r => r.map fio.fmt)) = 3 := by
    unfold rowLength
    cases hl : (rows.map (fun r => r.map fio.fmt)).getLast? with
    | none => rfl
    | some it =>
      have := List.mem_of_getLast? hl
      obtain ⟨r, hrm, rfl⟩ := List.mem_map.mp this
      simp [hw r hrm]
  rw [hr]
  have hlen := length_flatten_const 3 rows hw
  rw [if_neg (by omega)]
  have := rowsN_flatten 3 rows hw []
  rw [List.append_nil] at this
  rw [hlen, Nat.mul_div_cancel _ (by omega), this]

/-- Writing a text file and reading it gives the same facets and normals. -/
theorem C25_ascii [DecidableEq F] (fio : FloatIO F) (le : List F → List F → Bool)
    (facets : List (List (List F))) (normals : List (List F))
    (hf : FacetsOk facets) (hn : ∀ v ∈ normals, v.length = 3) (hl : normals.length = facets.length) :
    ∃ s m, writeAscii fio facets normals = .ok s ∧ readAscii fio le s = .ok m ∧
      Shows m.points m.triangles facets ∧ (facets ≠ [] → m.normals = some normals) := by
  have hzf : ∀ f ∈ facets.zip normals, f.1.length = 3 ∧ (∀ v ∈ f.1, v.length = 3) ∧ f.2.length = 3 := by
    intro f hfm
    have := List.of_mem_zip (show (f.1, f.2) ∈ facets.zip normals from hfm)
    exact ⟨(hf _ this.1).1, (hf _ this.1).2, hn _ this.2⟩
  have hz1 : (facets.zip normals).map (·.1) = facets := by
    rw [List.map_fst_zip]; omega
  have hz2 : (facets.zip normals).map (·.2) = normals := by
    rw [List.map_snd_zip]; omega
  have hload := loadtxt_written fio (facets.zip normals) hzf ["solid".toList] (by
    intro l hlm
    simp only [List.mem_cons, List.not_mem_nil, or_false] at hlm
    subst hlm
    exact ⟨by decide, by decide +kernel⟩)
  have hpts : (facets.zip normals).flatMap (·.1) = facets.flatten := by
    rw [List.flatMap_def, hz1]
  obtain ⟨e1, e2⟩ := everyFourth_rows (facets.zip normals) (fun f h => (hzf f h).1)
  rw [hz2] at e1
  rw [hpts] at e2
  have hlen4 : ((facets.zip normals).flatMap facetRows).length % 4 = 0 := by
    have : ((facets.zip normals).flatMap facetRows).length = (facets.zip normals).length * 4 := by
      rw [List.flatMap_def]
      have := length_flatten_const 4 ((facets.zip normals).map facetRows) (by
        intro r hr
        obtain ⟨f, hfm, rfl⟩ := List.mem_map.mp hr
        simp [facetRows, (hzf f hfm).1])
      rw [this, List.length_map]
    omega
  have hfl := length_flatten_const 3 facets (fun f h => (hf f h).1)
  by_cases he : facets = []
  · refine ⟨_, ⟨[], [], none⟩, C25_ascii_file fio facets normals hf hn, ?_, ?_, fun h => absurd he h⟩
    · unfold readAscii
      rw [show "solid".toList :: ((facets.zip normals).flatMap (facetText fio) ++ ["endsolid".toList]) =
        ["solid".toList] ++ ((facets.zip normals).flatMap (facetText fio) ++ ["endsolid".toList]) from rfl, hload]
      dsimp only
      rw [if_neg (by omega), e2, hfl, he]
      rfl
    · subst he; exact ⟨rfl, List.nodup_nil, by simp⟩
  · refine ⟨_, ⟨(fromPts le facets.flatten).1, (fromPts le facets.flatten).2, some normals⟩,
      C25_ascii_file fio facets normals hf hn, ?_, fromPts_shows le facets (fun f h => (hf f h).1), fun _ => rfl⟩
    unfold readAscii
    rw [show "solid".toList :: ((facets.zip normals).flatMap (facetText fio) ++ ["endsolid".toList]) =
      ["solid".toList] ++ ((facets.zip normals).flatMap (facetText fio) ++ ["endsolid".toList]) from rfl, hload]
    dsimp only
    have : facets.length ≠ 0 := fun h => he (List.length_eq_zero_iff.mp h)
    rw [if_neg (by omega), e2, hfl, if_neg (by omega), e1]

/-! ### Binary -/

theorem length_header (version : List Char) (hv : version.length ≤ 43) :
    (encode (header version)).length = 80 := by
  have h35 : "This file was generated by meshio v".toList.length = 35 := by decide
  unfold encode header
  generalize "This file was generated by meshio v".toList = msg at *
  simp only [List.length_map, List.length_append, List.length_replicate,
      List.length_cons, List.length_nil, h35]
  omega

/-- The layout of the binary file: 80 bytes, the number of triangles, and for each triangle
the normal, the three corners and two zero bytes. -/
theorem C25_binary_file (bio : ByteIO 4 F) (version : List Char) (hv : version.length ≤ 43)
    (facets : List (List (List F))) (normals : List (List F))
    (hf : FacetsOk facets) (hn : ∀ v ∈ normals, v.length = 3) (hl : normals.length = facets.length)
    (hlt : facets.length < 2 ^ 32) :
    ∃ head : List Byte, head.length = 80 ∧
      writeBinary bio version facets normals = .ok (head ++ (natEnc false 4 facets.length ++
        (facets.zip normals).flatMap (fun f => f.2.flatMap bio.enc ++
          (f.1.flatten.flatMap bio.enc ++ [0, 0])))) := by
  refine ⟨encode (header version), ?_, ?_⟩
  · exact length_header version hv
  · unfold writeBinary
    rw [if_pos ⟨hl.symm, hf, hn⟩, Nat.mod_eq_of_lt (by omega),
      show natEnc false 2 0 = [0, 0] from rfl]

theorem C25_binary_size (bio : ByteIO 4 F) (facets : List (List (List F))) (normals : List (List F))
    (hf : FacetsOk facets) (hn : ∀ v ∈ normals, v.length = 3) (hl : normals.length = facets.length) :
    ((facets.zip normals).flatMap (fun f => f.2.flatMap bio.enc ++
      (f.1.flatten.flatMap bio.enc ++ [0, 0]))).length = facets.length * 50 := by
  rw [length_flatMap_const 50]
  · rw [List.length_zip, hl, Nat.min_self]
  · intro f hfm
    have := List.of_mem_zip (show (f.1, f.2) ∈ facets.zip normals from hfm)
    have h1 := hf _ this.1
    have h2 := hn _ this.2
    have h3 := length_flatten_const 3 f.1 h1.2
    rw [List.length_append, List.length_append, length_flatMap_const 4 _ _ (fun x _ => bio.len x),
      length_flatMap_const 4 _ _ (fun x _ => bio.len x), h2, h3, h1.1]
    rfl

theorem readBinary_written [DecidableEq F] (bio : ByteIO 4 F) (le : List F → List F → Bool)
    (facets : List (List (List F))) (normals : List (List F))
    (hf : FacetsOk facets) (hn : ∀ v ∈ normals, v.length = 3) (hl : normals.length = facets.length) :
    readBinary bio le facets.length ((facets.zip normals).flatMap (fun f => f.2.flatMap bio.enc ++
      (f.1.flatten.flatMap bio.enc ++ [0, 0]))) =
      ⟨(fromPts le facets.flatten).1, (fromPts le facets.flatten).2, none⟩ := by
  have hz1 : (facets.zip normals).map (·.1) = facets := by
    rw [List.map_fst_zip]; omega
  have hzl : facets.length = (facets.zip normals).length := by
    rw [List.length_zip, hl, Nat.min_self]
  unfold readBinary
  have hit := items_flatMap' 50 (fun f : List (List F) × List F => f.2.flatMap bio.enc ++
      (f.1.flatten.flatMap bio.enc ++ [0, 0])) (facets.zip normals) (by
    intro f hfm
    have := List.of_mem_zip (show (f.1, f.2) ∈ facets.zip normals from hfm)
    have h1 := hf _ this.1
    have h2 := hn _ this.2
    have h3 := length_flatten_const 3 f.1 h1.2
    rw [List.length_append, List.length_append, length_flatMap_const 4 _ _ (fun x _ => bio.len x),
      length_flatMap_const 4 _ _ (fun x _ => bio.len x), h2, h3, h1.1]
    rfl)
  rw [hzl, hit, List.map_map]
  have : List.map ((fun r => rowsN 3 3 ((items 4 9 (r.drop 12)).map bio.dec)) ∘ fun f : List (List F) × List F =>
      f.2.flatMap bio.enc ++ (f.1.flatten.flatMap bio.enc ++ [0, 0])) (facets.zip normals) = facets := by
    conv => rhs; rw [← hz1]
    apply List.map_congr_left
    intro f hfm
    have hm := List.of_mem_zip (show (f.1, f.2) ∈ facets.zip normals from hfm)
    have h1 := hf _ hm.1
    have h2 := hn _ hm.2
    have h3 := length_flatten_const 3 f.1 h1.2
    rw [h1.1] at h3
    simp only [Function.comp]
    have hl12 : (f.2.flatMap bio.enc).length = 12 := by
      rw [length_flatMap_const 4 _ _ (fun x _ => bio.len x), h2]
    rw [List.drop_left' hl12]
    have := items_flatMap 4 bio.enc f.1.flatten (fun x _ => bio.len x) [0, 0]
    rw [h3] at this
    rw [this, List.map_map]
    have hid : f.1.flatten.map (bio.dec ∘ bio.enc) = f.1.flatten := by
      conv => rhs; rw [← List.map_id f.1.flatten]
      apply List.map_congr_left
      intro x _
      exact bio.dec_enc x
    rw [hid]
    have h4 := rowsN_flatten 3 f.1 h1.2 []
    rw [List.append_nil, h1.1] at h4
    exact h4
  rw [this]

/-! ### Which format? -/

/-- A file of at least 84 bytes is read as binary exactly if its size is that of a binary file
with the number of triangles stored in it. -/
theorem C25_detect [DecidableEq F] [DecidableEq G] (fio : FloatIO F) (le) (bio : ByteIO 4 G) (leG)
    (mul50 : Nat → Nat) (s : List Byte) (h : 84 ≤ s.length) :
    (∃ m, Stl.read fio le bio leG mul50 s = .ok (.binary m)) ↔
      84 + mul50 (natDec false ((s.drop 80).take 4)) = s.length := by
  unfold Stl.read
  rw [if_neg (by omega), if_neg (by omega)]
  dsimp only
  constructor
  · rintro ⟨m, hm⟩
    split at hm
    · next e => exact e
    · unfold readText at hm
      split at hm
      · cases hm
      · split at hm
        · cases hm
        · injection hm with hm; cases hm
  · intro e
    rw [if_pos e]
    exact ⟨_, rfl⟩

/-- Binary files are recognised and read back. -/
theorem C25_binary [DecidableEq F] [DecidableEq G] (fio : FloatIO F) (le) (bio : ByteIO 4 G) (leG)
    (version : List Char) (hv : version.length ≤ 43)
    (facets : List (List (List G))) (normals : List (List G))
    (hf : FacetsOk facets) (hn : ∀ v ∈ normals, v.length = 3) (hl : normals.length = facets.length)
    (hlt : facets.length < 2 ^ 32) :
    ∃ s m, writeBinary bio version facets normals = .ok s ∧
      Stl.read fio le bio leG (· * 50) s = .ok (.binary m) ∧ Shows m.points m.triangles facets := by
  obtain ⟨head, hh, hw⟩ := C25_binary_file bio version hv facets normals hf hn hl hlt
  refine ⟨_, ⟨(fromPts leG facets.flatten).1, (fromPts leG facets.flatten).2, none⟩, hw, ?_,
    fromPts_shows leG facets (fun f h => (hf f h).1)⟩
  · have hs := C25_binary_size bio facets normals hf hn hl
    have hrb := readBinary_written bio leG facets normals hf hn hl
    generalize (facets.zip normals).flatMap (fun f => f.2.flatMap bio.enc ++
      (f.1.flatten.flatMap bio.enc ++ [0, 0])) = body at *
    have hn4 : (natEnc false 4 facets.length).length = 4 := length_natEnc _ _ _
    have hlen : (head ++ (natEnc false 4 facets.length ++ body)).length = 84 + facets.length * 50 := by
      simp only [List.length_append, hh, hn4, hs]; omega
    unfold Stl.read
    rw [hlen, if_neg (by omega), if_neg (by omega)]
    dsimp only
    rw [List.drop_left' hh, List.take_left' hn4, natDec_natEnc _ _ _ (by omega), if_pos rfl]
    rw [show (head ++ (natEnc false 4 facets.length ++ body)).drop 84 = body by
      rw [← List.append_assoc]; exact List.drop_left' (by simp [hh, hn4])]
    rw [hrb]

/-- Text is made of ASCII characters above the control characters before the newline. -/
def Textual (s : List Char) : Prop := ∀ c ∈ s, 10 ≤ c.toNat ∧ c.toNat < 128

theorem leDec_ge (l : List Byte) (h : l.length = 4) (hb : ∀ b ∈ l, 10 ≤ b.val) :
    168430090 ≤ leDec l := by
  match l, h with
  | [a, b, c, d], _ =>
    have := hb a (by simp)
    have := hb b (by simp)
    have := hb c (by simp)
    have := hb d (by simp)
    simp only [leDec]
    omega

theorem encode_val (s : List Char) (h : Textual s) : ∀ b ∈ encode s, 10 ≤ b.val ∧ b.val < 128 := by
  intro b hb
  obtain ⟨c, hc, rfl⟩ := List.mem_map.mp hb
  have := h c hc
  have e : (Fin.ofNat 256 c.toNat).val = c.toNat % 256 := rfl
  rw [e]; omega

theorem decode_encode (s : List Char) (h : Textual s) : decode (encode s) = .ok s := by
  unfold decode
  rw [if_pos]
  · congr 1
    unfold encode
    rw [List.map_map]
    conv => rhs; rw [← List.map_id s]
    apply List.map_congr_left
    intro c hc
    have := h c hc
    simp only [Function.comp, id]
    have e : (Fin.ofNat 256 c.toNat).val = c.toNat := by
      show c.toNat % 256 = _
      omega
    rw [e, Char.ofNat_toNat]
  · rw [List.all_eq_true]
    intro b hb
    simpa using (encode_val s h b hb).2

/-- Text smaller than 8 GB is never mistaken for a binary file. -/
theorem C25_text_not_binary [DecidableEq F] [DecidableEq G] (fio : FloatIO F) (le) (bio : ByteIO 4 G)
    (leG) (s : List Char) (h : Textual s) (hsz : s.length < 84 + 168430090 * 50) :
    ∀ m, Stl.read fio le bio leG (· * 50) (encode s) ≠ .ok (.binary m) := by
  intro m hm
  have hl : (encode s).length = s.length := List.length_map _
  by_cases h84 : 84 ≤ (encode s).length
  · have := (C25_detect fio le bio leG (· * 50) (encode s) h84).1 ⟨m, hm⟩
    have hge := leDec_ge (((encode s).drop 80).take 4) (by rw [List.length_take, List.length_drop]; omega)
      (fun b hb => (encode_val s h b (List.mem_of_mem_drop (List.mem_of_mem_take hb))).1)
    have e : natDec false (((encode s).drop 80).take 4) = leDec (((encode s).drop 80).take 4) := rfl
    rw [e] at this
    omega
  · unfold Stl.read at hm
    split at hm
    · unfold readText at hm
      split at hm
      · cases hm
      · split at hm
        · cases hm
        · injection hm with hm; cases hm
    · split at hm
      · cases hm
      · next h80 h84' => exact h84 (by omega)

/-- From the bytes of a text file written by meshio back to the facets. -/
theorem C25_text [DecidableEq F] [DecidableEq G] (fio : FloatIO F) (le) (bio : ByteIO 4 G) (leG)
    (hch : ∀ x, Textual (fio.fmt x))
    (facets : List (List (List F))) (normals : List (List F))
    (hf : FacetsOk facets) (hn : ∀ v ∈ normals, v.length = 3) (hl : normals.length = facets.length) :
    ∃ s, writeAscii fio facets normals = .ok s ∧ (s.length < 84 + 168430090 * 50 →
      ∃ m, Stl.read fio le bio leG (· * 50) (encode s) = .ok (.ascii m) ∧
        Shows m.points m.triangles facets ∧ (facets ≠ [] → m.normals = some normals)) := by
  obtain ⟨s, m, hw, hr, hsh, hno⟩ := C25_ascii fio le facets normals hf hn hl
  refine ⟨s, hw, fun hsz => ⟨m, ?_, hsh, hno⟩⟩
  have hs : s = linesText ("solid".toList ::
      ((facets.zip normals).flatMap (facetText fio) ++ ["endsolid".toList])) := by
    have := C25_ascii_file fio facets normals hf hn
    rw [hw] at this
    injection this
  have happ : ∀ a b : List Char, Textual a → Textual b → Textual (a ++ b) := by
    intro a b ha hb c hc
    rcases List.mem_append.mp hc with h | h
    · exact ha c h
    · exact hb c h
  have hjoin : ∀ v : List F, Textual (joinWith ' ' (v.map fio.fmt)) := by
    intro v
    induction v with
    | nil => intro c hc; cases hc
    | cons x v ih =>
      cases v with
      | nil => exact hch x
      | cons y v =>
        show Textual (fio.fmt x ++ ' ' :: joinWith ' ' ((y :: v).map fio.fmt))
        exact happ _ _ (hch x) (happ [' '] _ (by unfold Textual; decide) ih)
  have hfacet : ∀ f, ∀ l ∈ facetText fio f, Textual l := by
    intro f l hl
    unfold facetText at hl
    simp only [List.mem_append, List.mem_cons, List.not_mem_nil, or_false, List.mem_map] at hl
    rcases hl with ((rfl | rfl) | ⟨v, _, rfl⟩) | (rfl | rfl)
    · exact happ _ _ (by unfold Textual; decide) (hjoin _)
    · unfold Textual; decide
    · exact happ _ _ (by unfold Textual; decide) (hjoin _)
    · unfold Textual; decide
    · unfold Textual; decide
  have hlines : ∀ L : List (List Char), (∀ l ∈ L, Textual l) → Textual (linesText L) := by
    intro L hL c hc
    obtain ⟨l, hl, hc⟩ := List.mem_flatMap.mp hc
    exact happ l ['\n'] (hL l hl) (by unfold Textual; decide) c hc
  have htail : Textual (linesText ((facets.zip normals).flatMap (facetText fio) ++ ["endsolid".toList])) := by
    apply hlines
    intro l hl
    rcases List.mem_append.mp hl with h | h
    · obtain ⟨f, _, h⟩ := List.mem_flatMap.mp h
      exact hfacet f l h
    · simp only [List.mem_cons, List.not_mem_nil, or_false] at h
      subst h
      unfold Textual; decide
  have hs2 : s = "solid\n".toList ++
      linesText ((facets.zip normals).flatMap (facetText fio) ++ ["endsolid".toList]) := by rw [hs]; rfl
  have htx : Textual s := by
    rw [hs2]
    exact happ _ _ (by unfold Textual; decide) htail
  have hzf : ∀ f ∈ facets.zip normals, f.1.length = 3 ∧ (∀ v ∈ f.1, v.length = 3) ∧ f.2.length = 3 := by
    intro f hfm
    have := List.of_mem_zip (show (f.1, f.2) ∈ facets.zip normals from hfm)
    exact ⟨(hf _ this.1).1, (hf _ this.1).2, hn _ this.2⟩
  have hlen : s.length < 80 ∨ 84 ≤ s.length := by
    cases hz : facets.zip normals with
    | nil =>
      left
      rw [hs2, hz]
      exact (by decide : ("solid\n".toList ++ linesText ["endsolid".toList]).length < 80)
    | cons f fs =>
      right
      obtain ⟨h1, h2, h3⟩ := hzf f (by rw [hz]; simp)
      rw [hs2, hz]
      have : 94 ≤ (linesText (facetText fio f)).length := by
        obtain ⟨f, n⟩ := f
        match f, n, h1, h3 with
        | [p, q, r], [n1, n2, n3], _, _ =>
          have hp := h2 p (by simp)
          have hq := h2 q (by simp)
          have hr := h2 r (by simp)
          have hpos : ∀ x, 1 ≤ (fio.fmt x).length := fun x =>
            List.length_pos_iff.mpr (fio.tok x).1
          match p, q, r, hp, hq, hr with
          | [a1, a2, a3], [b1, b2, b3], [c1, c2, c3], _, _, _ =>
            simp only [linesText, facetText, List.map_cons, List.map_nil, joinWith, List.cons_append,
              List.nil_append, List.flatMap_cons, List.flatMap_nil, List.length_append, List.length_cons,
              List.length_nil]
            have l1 : "facet normal ".toList.length = 13 := rfl
            have l2 : " outer loop".toList.length = 11 := rfl
            have l3 : "  vertex ".toList.length = 9 := rfl
            have l4 : " endloop".toList.length = 8 := rfl
            have l5 : "endfacet".toList.length = 8 := rfl
            have := hpos n1; have := hpos n2; have := hpos n3
            have := hpos a1; have := hpos a2; have := hpos a3
            have := hpos b1; have := hpos b2; have := hpos b3
            have := hpos c1; have := hpos c2; have := hpos c3
            omega
      simp only [List.flatMap_cons, List.append_assoc]
      rw [linesText, List.flatMap_append, List.length_append, List.length_append]
      unfold linesText at this
      omega
  have hread : readAscii fio le (linesText ((facets.zip normals).flatMap (facetText fio) ++ ["endsolid".toList])) = .ok m := by
    have h1 := loadtxt_written fio (facets.zip normals) hzf ["solid".toList] (by
      intro l hlm
      simp only [List.mem_cons, List.not_mem_nil, or_false] at hlm
      subst hlm
      exact ⟨by decide, by decide +kernel⟩)
    have h2 := loadtxt_written fio (facets.zip normals) hzf [] (by simp)
    rw [← hr, hs]
    unfold readAscii
    rw [show "solid".toList :: ((facets.zip normals).flatMap (facetText fio) ++ ["endsolid".toList]) =
      ["solid".toList] ++ ((facets.zip normals).flatMap (facetText fio) ++ ["endsolid".toList]) from rfl, h1]
    rw [List.nil_append] at h2
    rw [h2]
  have hel : (encode s).length = s.length := List.length_map _
  unfold Stl.read
  by_cases h80 : s.length < 80
  · rw [if_pos (by omega)]
    unfold readText
    rw [decode_encode s htx]
    dsimp only
    rw [hr]
  · rw [if_neg (by omega), if_neg (by omega)]
    dsimp only
    have hge := leDec_ge (((encode s).drop 80).take 4) (by rw [List.length_take, List.length_drop]; omega)
      (fun b hb => (encode_val s htx b (List.mem_of_mem_drop (List.mem_of_mem_take hb))).1)
    rw [if_neg (by
      have e : natDec false (((encode s).drop 80).take 4) = leDec (((encode s).drop 80).take 4) := rfl
      rw [e]; omega)]
    have hsk : skipLine (encode s) = encode (linesText ((facets.zip normals).flatMap (facetText fio) ++ ["endsolid".toList])) := by
      rw [hs2]
      unfold encode
      rw [List.map_append]
      rfl
    unfold readText
    rw [hsk, decode_encode _ htail]
    dsimp only
    rw [hread]

/-- The facets that are written are the triangles of the mesh with their coordinates. -/
theorem C25_facets (zero : F) (normal : List (List F) → List F) (m : Mesh (List F) R) (h : TriOk m)
    (hr : ∀ r ∈ triangles m, ∀ i ∈ r, 0 ≤ i ∧ i < m.points.length) :
    ∃ pts, facetsOf zero 3 normal none m = .ok (pts, pts.map normal) ∧
      pts.map (fun f => f.map some) = (triangles m).map (fun r => r.map (fun i => m.points[i.toNat]?)) := by
  obtain ⟨a, h1, h2⟩ := getCellsType_triangle m h
  have hg : ∃ pts, gather m.points (triangles m) = .ok pts ∧
      pts.map (fun f => f.map some) = (triangles m).map (fun r => r.map (fun i => m.points[i.toNat]?)) := by
    unfold gather
    generalize triangles m = T at *
    clear h2 h1
    induction T with
    | nil => exact ⟨[], rfl, rfl⟩
    | cons r T ih =>
      obtain ⟨pts, e1, e2⟩ := ih (fun r hr' => hr r (by simp [hr']))
      have hrow : ∃ f, mapRes (npIndex m.points) r = .ok f ∧ f.map some = r.map (fun i => m.points[i.toNat]?) := by
        have hr0 := hr r (by simp)
        clear ih e1 e2 hr
        induction r with
        | nil => exact ⟨[], rfl, rfl⟩
        | cons i r ih =>
          obtain ⟨f, f1, f2⟩ := ih (fun i hi => hr0 i (by simp [hi]))
          have hi := hr0 i (by simp)
          have hlt : i.toNat < m.points.length := by omega
          have : npIndex m.points i = .ok m.points[i.toNat] := by
            unfold npIndex
            rw [if_pos hi.1, List.getElem?_eq_getElem hlt]
          refine ⟨m.points[i.toNat] :: f, ?_, ?_⟩
          · rw [mapRes, this]; simp only []; rw [f1]
          · simp only [List.map_cons, f2, List.getElem?_eq_getElem hlt]
      obtain ⟨f, f1, f2⟩ := hrow
      refine ⟨f :: pts, ?_, ?_⟩
      · rw [mapRes, f1]; simp only []; rw [e1]
      · simp only [List.map_cons, f2, e2]
  obtain ⟨pts, g1, g2⟩ := hg
  refine ⟨pts, ?_, g2⟩
  unfold facetsOf
  dsimp only
  rw [if_neg (by omega), h1]
  simp only [h2, g1]

/-! ### Files that cannot be read -/

/-- Text files of 80 to 83 bytes cannot be read. -/
theorem C25_short_false [DecidableEq F] [DecidableEq G] (fio : FloatIO F) (le) (bio : ByteIO 4 G) (leG)
    (mul50 : Nat → Nat) (s : List Byte) (h1 : 80 ≤ s.length) (h2 : s.length < 84) :
    Stl.read fio le bio leG mul50 s = .error .indexError := by
  unfold Stl.read
  rw [if_neg (by omega), if_pos h2]

/-- A blank line at the end makes a text file unreadable. -/
theorem C25_blank_false :
    readAscii FloatIO.int (fun _ _ => true)
      "solid\nfacet normal 0 0 1\nouter loop\nvertex 0 0 0\nvertex 1 0 0\nvertex 0 1 0\nendloop\nendfacet\nendsolid\n\n".toList =
      .error .valueError := by decide +kernel

/-- Non-trivial instance: two triangles sharing an edge. -/
example : ∃ s m, writeAscii FloatIO.int [[[0, 0, 0], [1, 0, 0], [0, 1, 0]], [[1, 0, 0], [1, 1, 0], [0, 1, 0]]]
      [[0, 0, 1], [0, 0, 1]] = .ok s ∧ readAscii FloatIO.int (fun _ _ => true) s = .ok m ∧
      Shows m.points m.triangles [[[0, 0, 0], [1, 0, 0], [0, 1, 0]], [[1, 0, 0], [1, 1, 0], [0, 1, 0]]] ∧
      ([[[0, 0, 0], [1, 0, 0], [0, 1, 0]], [[1, 0, 0], [1, 1, 0], [0, 1, 0]]] ≠ ([] : List (List (List Int))) →
        m.normals = some [[0, 0, 1], [0, 0, 1]]) :=
  C25_ascii FloatIO.int _ _ _ (by unfold FacetsOk; decide) (by decide) rfl

/-- A text file whose number of vectors is not a multiple of four (normal and three corners) is
rejected. -/
theorem C25_rejects_rows [DecidableEq F] (fio : FloatIO F) (le : List F → List F → Bool) (s : List Char)
    (data : List (List F)) (h : Stl.loadtxt fio s = .ok data) (h4 : ¬ 4 ∣ data.length) :
    Stl.readAscii fio le s = .error .readError := by
  unfold Stl.readAscii
  rw [h]
  simp only
  rw [if_pos (fun h => h4 (Nat.dvd_of_mod_eq_zero h))]

example : Stl.readAscii FloatIO.int (fun _ _ => true)
    "solid\nfacet normal 0 0 1\nvertex 1 0 0\nvertex 0 1 0\nendsolid\n".toList = .error .readError := by decide +kernel

end Meshio.Props
