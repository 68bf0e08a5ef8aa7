/-
C29: the PLY format.
-/
import Verif.Proofs.Ply
namespace Meshio.Props
open Meshio Meshio.Ply Meshio.Spec

variable {F : Type}

/-! ### The type names -/

/-- The type names of the PLY format, with the 64-bit integers meshio adds. -/
def plyStandard : Dict Dtype :=
  [("char", i1), ("uchar", u1), ("short", i2), ("ushort", u2), ("int", i4), ("uint", u4), ("float", f4),
   ("double", f8), ("int8", i1), ("uint8", u1), ("int16", i2), ("uint16", u2), ("int32", i4), ("uint32", u4),
   ("float32", f4), ("float64", f8), ("int64", i8), ("uint64", u8)]

/-- Every type name the writer uses means, in the PLY format, the dtype it is used for. -/
theorem C29_written_types : ∀ d ∈ [i1, i2, i4, i8, u1, u2, u4, u8, f4, f8],
    (∃ t, typeNameTable.lookup d = some t ∧ Dict.get? plyStandard t = some d) ∧
      ∃ t, numpyToPly d = some t ∧ Dict.get? plyStandard t = some d := by
  intro d hd
  simp only [List.mem_cons, List.not_mem_nil, or_false] at hd
  rcases hd with rfl | rfl | rfl | rfl | rfl | rfl | rfl | rfl | rfl | rfl <;>
    exact ⟨⟨_, rfl, by decide⟩, _, rfl, by decide⟩

/-- The text reader understands the type of every property the writer emits, except `int16`. -/
theorem C29_text_types_partial : ∀ d ∈ [i1, i2, i4, i8, u1, u2, u4, u8, f4, f8], ∀ t,
    (typeNameTable.lookup d = some t → d ≠ i2 → Dict.get? asciiTable t = some d) ∧
      (numpyToPly d = some t → Dict.get? asciiTable t = some d) := by
  intro d hd t
  simp only [List.mem_cons, List.not_mem_nil, or_false] at hd
  rcases hd with rfl | rfl | rfl | rfl | rfl | rfl | rfl | rfl | rfl | rfl <;>
    refine ⟨fun h hn => ?_, fun h => ?_⟩ <;> injection h with h <;> subst h <;>
      first | decide | exact absurd rfl hn

/-- The binary reader understands the type of every property the writer emits, except the 16-bit
integers. -/
theorem C29_binary_types_partial : ∀ d ∈ [i1, i2, i4, i8, u1, u2, u4, u8, f4, f8], ∀ t, d ≠ i2 →
    (typeNameTable.lookup d = some t → Dict.get? binTable t = some d) ∧
      (numpyToPly d = some t → (d.kind ≠ .float ∨ d = f8 ∨ d = f4) → Dict.get? binTable t = some d) := by
  intro d hd t hn
  simp only [List.mem_cons, List.not_mem_nil, or_false] at hd
  rcases hd with rfl | rfl | rfl | rfl | rfl | rfl | rfl | rfl | rfl | rfl <;>
    refine ⟨fun h => ?_, fun h _ => ?_⟩ <;> injection h with h <;> subst h <;>
      first | decide | exact absurd rfl hn

/-- The full claim: what the writer emits, both readers understand. -/
def C29_types_statement : Prop :=
  ∀ d ∈ [i1, i2, i4, i8, u1, u2, u4, u8, f4, f8], ∀ t,
    (typeNameTable.lookup d = some t → (Dict.get? asciiTable t).isSome ∧ (Dict.get? binTable t).isSome) ∧
      (numpyToPly d = some t → (Dict.get? asciiTable t).isSome ∧ (Dict.get? binTable t).isSome)

theorem C29_types_false : ¬ C29_types_statement := by
  intro h
  have := ((h i2 (by decide) "int16").1 rfl).1
  exact absurd this (by decide)

/-- 16-bit vertex numbers are written as `short`, which the binary reader does not know. -/
theorem C29_short_false : numpyToPly i2 = some "short" ∧ Dict.get? binTable "short" = none := by decide

/-- The text reader gives every name it knows its meaning in the PLY format. -/
theorem C29_text_meaning : ∀ kv ∈ asciiTable, Dict.get? plyStandard kv.1 = some kv.2 := by decide

/-- The binary reader too, except that it takes unsigned `uchar` for signed. -/
theorem C29_binary_meaning_partial : ∀ kv ∈ binTable, kv.1 ≠ "uchar" → Dict.get? plyStandard kv.1 = some kv.2 := by
  decide

theorem C29_uchar_false : Dict.get? binTable "uchar" = some i1 ∧ Dict.get? plyStandard "uchar" = some u1 := by
  decide

/-! ### Reading -/

/-- The header is understood, whatever the properties and comments. -/
theorem C29_header (fm : Option Bool) (cs : List (List Char)) (h : Hdr) (hok : HdrOk h)
    (rest : List (List Char)) :
    readHeader ((hdrLines fm cs h).map (· ++ ['\n']) ++ rest) = .ok (fm, h, rest) :=
  readHeader_ok fm cs h hok rest

theorem lines_no_newline (fm : Option Bool) (cs : List (List Char)) (hcs : ∀ c ∈ cs, '\n' ∉ c) (h : Hdr)
    (hok : HdrOk h) : ∀ l ∈ hdrLines fm cs h, '\n' ∉ l := by
  intro l hl
  simp only [hdrLines, List.mem_append, List.mem_cons, List.not_mem_nil, or_false, List.mem_map] at hl
  rcases hl with (rfl | rfl) | ⟨c, hc, rfl⟩ | rfl | ⟨p, hp, rfl⟩ | hl | ⟨p, hp, rfl⟩ | rfl
  · decide
  · cases fm with
    | none => decide
    | some b => cases b <;> decide
  · rw [List.mem_append, not_or]
    exact ⟨by decide, hcs c hc⟩
  · rw [List.mem_append, not_or]
    exact ⟨by decide, (isTok_fmtNat _).no_newline⟩
  · rw [property_toks]
    apply no_newline_line
    intro t ht
    simp only [List.mem_cons, List.not_mem_nil, or_false] at ht
    rcases ht with rfl | rfl | rfl
    · exact tok_property
    · exact (hok.pp p hp).1
    · exact (hok.pp p hp).2
  · split at hl
    · simp at hl
    · rw [List.mem_singleton] at hl
      subst hl
      rw [List.mem_append, not_or]
      exact ⟨by decide, (isTok_fmtNat _).no_newline⟩
  · have hc := hok.cp p hp
    have := strip_ctypeLine p hc
    obtain ⟨c, n⟩ := p
    obtain ⟨hn, hc⟩ := hc
    cases c with
    | scalar f =>
      apply no_newline_line ["property".toList, f.toList, n.toList]
      intro t ht
      simp only [List.mem_cons, List.not_mem_nil, or_false] at ht
      rcases ht with rfl | rfl | rfl
      · exact tok_property
      · exact hc.1
      · exact hn
    | list cf vf =>
      apply no_newline_line ["property".toList, "list".toList, cf.toList, vf.toList, n.toList]
      intro t ht
      simp only [List.mem_cons, List.not_mem_nil, or_false] at ht
      rcases ht with rfl | rfl | rfl | rfl | rfl
      · exact tok_property
      · exact isTok_lit (by decide)
      · exact hc.1
      · exact hc.2
      · exact hn
  · decide

/-- A text file with `vertex_indices` and further properties of the faces. -/
structure TextFile (F : Type) where
  comments : List (List Char)
  types : String × String × String
  extra : List (String × String)
  rows : List (List F × List F)
  list : String × String
  scalars : List (String × String)
  faces : List (Face F)

/-- What must hold of it: known types, tokens as names, rows of the right length. -/
structure TextOk (t : TextFile F) : Prop where
  comments : ∀ c ∈ t.comments, '\n' ∉ c
  types : ∀ f ∈ [t.types.1, t.types.2.1, t.types.2.2], ∃ d, Dict.get? asciiTable f = some d
  extra : ∀ p ∈ t.extra, IsTok p.2.toList ∧ ∃ d, Dict.get? asciiTable p.1 = some d
  names : ("x" :: "y" :: "z" :: t.extra.map (·.2)).Nodup
  rows : ∀ r ∈ t.rows, r.1.length = 3 ∧ r.2.length = t.extra.length
  count : ∃ d, Dict.get? asciiTable t.list.1 = some d
  value : ∃ d, Dict.get? asciiTable t.list.2 = some d ∧ d.kind ≠ .float
  scalars : ∀ p ∈ t.scalars, IsTok p.2.toList ∧ p.2 ≠ "vertex_indices" ∧ ∃ d, Dict.get? asciiTable p.1 = some d
  scalarNames : (t.scalars.map (·.2)).Nodup
  faces : ∀ f ∈ t.faces, f.vals.length = t.scalars.length ∧ f.idx.length < 255

/-- The header of the file. -/
def TextFile.hdr (t : TextFile F) : Hdr :=
  ⟨t.rows.length, t.faces.length,
    (t.types.1, "x") :: (t.types.2.1, "y") :: (t.types.2.2, "z") :: t.extra,
    (.list t.list.1 t.list.2, "vertex_indices") :: t.scalars.map (fun s => (.scalar s.1, s.2))⟩

/-- The text of the file. -/
def TextFile.text (fio : FloatIO F) (t : TextFile F) : List Char :=
  linesText (hdrLines none t.comments t.hdr ++ (t.rows.map (fun r => joinWith ' ' ((r.1 ++ r.2).map fio.fmt)) ++
    t.faces.map (fun f => joinWith ' ' (f.toks fio))))

/-- The names in the tables are words that do not begin with `l`. -/
theorem tok_of_table (f : String) (d : Dtype) (h : Dict.get? asciiTable f = some d) :
    IsTok f.toList ∧ f.toList.head? ≠ some 'l' := by
  have hm := Dict.mem_of_get? h
  have key : ∀ kv ∈ asciiTable, (kv.1.toList ≠ [] ∧ kv.1.toList.all (fun c => !isWs c)) = true ∧
      kv.1.toList.head? ≠ some 'l' := by decide
  exact ⟨isTok_lit (key _ hm).1, (key _ hm).2⟩

theorem hdrOk_text (t : TextFile F) (h : TextOk t) : HdrOk t.hdr := by
  refine ⟨?_, ?_, ?_⟩
  · intro p hp
    simp only [TextFile.hdr, List.mem_cons] at hp
    have ht : ∀ f ∈ [t.types.1, t.types.2.1, t.types.2.2], IsTok f.toList := by
      intro f hf
      obtain ⟨d, hd⟩ := h.types f hf
      exact (tok_of_table f d hd).1
    rcases hp with rfl | rfl | rfl | hp
    · exact ⟨ht _ (by simp), (isTok_lit (by decide) : IsTok "x".toList)⟩
    · exact ⟨ht _ (by simp), (isTok_lit (by decide) : IsTok "y".toList)⟩
    · exact ⟨ht _ (by simp), (isTok_lit (by decide) : IsTok "z".toList)⟩
    · obtain ⟨h1, d, hd⟩ := h.extra p hp
      exact ⟨(tok_of_table _ d hd).1, h1⟩
  · intro p hp
    simp only [TextFile.hdr, List.mem_cons, List.mem_map] at hp
    rcases hp with rfl | ⟨s, hs, rfl⟩
    · obtain ⟨d, hd⟩ := h.count
      obtain ⟨d', hd', _⟩ := h.value
      exact ⟨(isTok_lit (by decide) : IsTok "vertex_indices".toList), (tok_of_table _ d hd).1, (tok_of_table _ d' hd').1⟩
    · obtain ⟨h1, _, d, hd⟩ := h.scalars s hs
      exact ⟨h1, tok_of_table _ d hd⟩
  · intro hc; simp [TextFile.hdr] at hc

/-- The blocks a reader must make of faces: neighbouring faces with equally many vertices share
a block, whose type is given by that number. -/
def specBlocks (rows : List (List Int)) : List (String × List (List Int)) :=
  (runsBy List.length rows).map (fun r =>
    (match (r.head?.map List.length).getD 0 with
      | 1 => "vertex" | 2 => "line" | 3 => "triangle" | 4 => "quad" | _ => "polygon", r))

theorem faceBlocks_eq (rows : List (List Int)) : faceBlocks rows = specBlocks rows := by
  unfold faceBlocks specBlocks
  apply List.map_congr_left
  intro r _
  congr 1
  unfold cellTypeFromCount
  generalize (r.head?.map List.length).getD 0 = n
  match n with
  | 0 => rfl
  | 1 => rfl
  | 2 => rfl
  | 3 => rfl
  | 4 => rfl
  | n + 5 => simp

/-- What `_read_ascii` does with the face data of a file. -/
theorem read_text (fio : FloatIO F) (tio : TypedIO F) (one : Bool) (t : TextFile F) (h : TextOk t)
    (hne : t.rows ≠ []) (hone : t.rows.length = 1 → t.extra = []) (cd : List (String × List (List F)))
    (hcd : cd = (List.zip (t.scalars.map (·.2)) ((List.range t.scalars.length).map (fun j => collect j t.faces []))).map
      (fun kv => (kv.1, kv.2.map (·.2)))) (hf : t.faces ≠ []) :
    Ply.read fio tio one (t.text fio) =
      if fits (specBlocks (t.faces.map (·.idx))) cd then
        .ok ⟨t.rows.map (·.1), extraColumns (t.extra.map (·.2)) (t.rows.map (·.2)),
          specBlocks (t.faces.map (·.idx)), cd⟩
      else .error .valueError := by
  have hl := lines_no_newline none t.comments h.comments t.hdr (hdrOk_text t h)
  have hrow : ∀ l ∈ t.rows.map (fun r => joinWith ' ' ((r.1 ++ r.2).map fio.fmt)), '\n' ∉ l := by
    intro l hl
    obtain ⟨r, _, rfl⟩ := List.mem_map.mp hl
    apply no_newline_line
    intro x hx
    obtain ⟨y, _, rfl⟩ := List.mem_map.mp hx
    exact fio.tok y
  have hface : ∀ l ∈ t.faces.map (fun f => joinWith ' ' (f.toks fio)), '\n' ∉ l := by
    intro l hl
    obtain ⟨f, _, rfl⟩ := List.mem_map.mp hl
    apply no_newline_line
    intro x hx
    simp only [Face.toks, List.mem_cons, List.mem_append, List.mem_map] at hx
    rcases hx with rfl | ⟨x, _, rfl⟩ | ⟨x, _, rfl⟩
    · exact isTok_fmtNat _
    · exact isTok_fmtInt _
    · exact fio.tok _
  have hlines : fileLines (t.text fio) = (hdrLines none t.comments t.hdr).map (· ++ ['\n']) ++
      (t.rows.map (fun r => joinWith ' ' ((r.1 ++ r.2).map fio.fmt) ++ ['\n']) ++
        t.faces.map (fun f => joinWith ' ' (f.toks fio) ++ ['\n'])) := by
    unfold TextFile.text
    rw [fileLines_linesText']
    · simp only [List.map_append, List.map_map]
      rfl
    · intro a ha
      simp only [List.mem_append] at ha
      rcases ha with ha | ha | ha
      · exact hl a ha
      · exact hrow a ha
      · exact hface a ha
  unfold Ply.read
  rw [hlines, readHeader_ok none _ _ (hdrOk_text t h)]
  simp only
  have hp := asciiPoints_ok fio t.faces.length t.hdr.cp t.types.1 t.types.2.1 t.types.2.2 t.extra t.rows h.rows hne
    hone
    (by
      intro p hp
      simp only [List.mem_cons] at hp
      rcases hp with rfl | rfl | rfl | hp
      · exact h.types _ (by simp)
      · exact h.types _ (by simp)
      · exact h.types _ (by simp)
      · exact (h.extra p hp).2) h.names (t.faces.map (fun f => joinWith ' ' (f.toks fio) ++ ['\n']))
  unfold readAscii
  rw [show t.hdr = ⟨t.rows.length, t.faces.length,
    (t.types.1, "x") :: (t.types.2.1, "y") :: (t.types.2.2, "z") :: t.extra, t.hdr.cp⟩ from rfl, hp]
  simp only
  rw [List.drop_left' (by simp)]
  obtain ⟨d1, hd1⟩ := h.count
  obtain ⟨d2, hd2, hk⟩ := h.value
  rw [if_neg (by simpa using hf)]
  have hinit : initData t.hdr.cp = List.zip (t.scalars.map (·.2)) ((List.range t.scalars.length).map
      (fun _ => ([] : List (Nat × List F)))) := by
    unfold initData
    have e1 : t.hdr.cp.filter (fun p => decide (p.2 ≠ "vertex_indices")) = t.scalars.map (fun s => (.scalar s.1, s.2)) := by
      show List.filter _ ((CType.list t.list.1 t.list.2, "vertex_indices") :: t.scalars.map (fun s => (CType.scalar s.1, s.2))) = _
      rw [List.filter_cons, if_neg (by simp), List.filter_eq_self]
      intro p hp
      obtain ⟨s, hs, rfl⟩ := List.mem_map.mp hp
      simpa using (h.scalars s hs).2.1
    rw [e1, List.map_map]
    apply List.ext_getElem
    · simp
    · intro i h1 h2; simp
  have hfs := faces_ok fio t.list.1 t.list.2 d1 d2 hd1 hd2 hk t.scalars
    (fun s hs => (h.scalars s hs).2) t.faces h.faces ⟨[], initData t.hdr.cp⟩ []
  rw [List.append_nil] at hfs
  rw [show t.hdr.cp = (.list t.list.1 t.list.2, "vertex_indices") :: t.scalars.map (fun s => (.scalar s.1, s.2)) from rfl] at hfs ⊢
  rw [hfs]
  simp only
  rw [show (CType.list t.list.1 t.list.2, "vertex_indices") :: t.scalars.map (fun s => (CType.scalar s.1, s.2)) = t.hdr.cp from rfl]
  rw [hinit, foldl_faceStep_blocks, foldl_pushFace, faceBlocks_eq,
    foldl_faceStep_cd t.scalars h.scalarNames t.faces (fun f hf => (h.faces f hf).1), ← hcd]

/-- Text files without face data: points, point data and the faces in runs. -/
theorem C29_text_reads (fio : FloatIO F) (tio : TypedIO F) (one : Bool) (t : TextFile F) (h : TextOk t)
    (hne : t.rows ≠ []) (hone : t.rows.length = 1 → t.extra = []) (hs : t.scalars = []) (hf : t.faces ≠ []) :
    Ply.read fio tio one (t.text fio) =
      .ok ⟨t.rows.map (·.1), extraColumns (t.extra.map (·.2)) (t.rows.map (·.2)),
        specBlocks (t.faces.map (·.idx)), []⟩ := by
  rw [read_text fio tio one t h hne hone [] (by rw [hs]; rfl) hf]
  exact if_pos rfl

/-- Text files with face data, if faces with equally many vertices are neighbours: the data stay
with their faces. -/
theorem C29_face_data_partial (fio : FloatIO F) (tio : TypedIO F) (one : Bool) (t : TextFile F) (h : TextOk t)
    (hne : t.rows ≠ []) (hone : t.rows.length = 1 → t.extra = []) (hf : t.faces ≠ [])
    (hnd : ((specBlocks (t.faces.map (·.idx))).map (fun b => (b.2.head?.map List.length).getD 0)).Nodup) :
    Ply.read fio tio one (t.text fio) =
      .ok ⟨t.rows.map (·.1), extraColumns (t.extra.map (·.2)) (t.rows.map (·.2)),
        specBlocks (t.faces.map (·.idx)),
        t.scalars.zipIdx.map (fun sj => (sj.1.2,
          (runsBy (fun f : Face F => f.idx.length) t.faces).map (fun r => r.filterMap (·.vals[sj.2]?))))⟩ := by
  have hruns : specBlocks (t.faces.map (·.idx)) = (runsBy (fun f : Face F => f.idx.length) t.faces).map (fun r =>
      (match (r.head?.map (fun f => f.idx.length)).getD 0 with
      | 1 => "vertex" | 2 => "line" | 3 => "triangle" | 4 => "quad" | _ => "polygon", r.map (·.idx))) := by
    unfold specBlocks
    rw [runsBy_map, List.map_map]
    apply List.map_congr_left
    intro r _
    simp [Function.comp_def, List.head?_map]
  have hcollect : ∀ j < t.scalars.length, (collect j t.faces []).map (·.2) =
      (runsBy (fun f : Face F => f.idx.length) t.faces).map (fun r => r.filterMap (·.vals[j]?)) := by
    intro j hj
    have := collect_runs j (runsBy (fun f : Face F => f.idx.length) t.faces)
      (by
        intro r hr
        refine ⟨runsBy_ne_nil _ _ r hr, ?_⟩
        intro f hfr
        refine ⟨?_, ?_⟩
        · cases r with
          | nil => simp at hfr
          | cons a r => exact runsBy_uniform (fun f : Face F => f.idx.length) t.faces _ hr f hfr a (by simp)
        · have : f ∈ t.faces := by
            rw [← flatten_runsBy (fun f : Face F => f.idx.length) t.faces]
            exact List.mem_flatten.mpr ⟨r, hr, hfr⟩
          rw [(h.faces f this).1]; exact hj)
      (by
        rw [hruns, List.map_map] at hnd
        have e : (runsBy (fun f : Face F => f.idx.length) t.faces).map (fun r => (r.head?.map (fun f => f.idx.length)).getD 0) =
          (runsBy (fun f : Face F => f.idx.length) t.faces).map ((fun b : String × List (List Int) => (b.2.head?.map List.length).getD 0) ∘
            (fun r => (match (r.head?.map (fun f => f.idx.length)).getD 0 with
      | 1 => "vertex" | 2 => "line" | 3 => "triangle" | 4 => "quad" | _ => "polygon", r.map (·.idx)))) := by
          apply List.map_congr_left
          intro r _
          simp [Function.comp_def, List.head?_map]
        rw [e]; exact hnd) [] (by simp)
    rw [flatten_runsBy] at this
    simpa using this
  have hcd : t.scalars.zipIdx.map (fun sj => (sj.1.2,
      (runsBy (fun f : Face F => f.idx.length) t.faces).map (fun r => r.filterMap (·.vals[sj.2]?)))) =
    (List.zip (t.scalars.map (·.2)) ((List.range t.scalars.length).map (fun j => collect j t.faces []))).map
      (fun kv => (kv.1, kv.2.map (·.2))) := by
    apply List.ext_getElem
    · simp
    · intro i h1 h2
      simp only [List.length_map, List.length_zipIdx] at h1
      simp [hcollect i h1]
  rw [read_text fio tio one t h hne hone _ hcd hf, if_pos]
  unfold fits
  rw [List.all_eq_true]
  intro kv hkv
  obtain ⟨sj, hsj, rfl⟩ := List.mem_map.mp hkv
  have hj := List.snd_lt_of_mem_zipIdx hsj
  rw [hruns]
  simp only [beq_iff_eq, List.map_map]
  apply List.map_congr_left
  intro r hr
  simp only [Function.comp_def, List.length_map]
  have : ∀ f ∈ r, sj.2 < f.vals.length := by
    intro f hfr
    have : f ∈ t.faces := by
      rw [← flatten_runsBy (fun f : Face F => f.idx.length) t.faces]
      exact List.mem_flatten.mpr ⟨r, hr, hfr⟩
    rw [(h.faces f this).1]; simpa using hj
  clear hr
  induction r with
  | nil => rfl
  | cons f r ih =>
    rw [List.filterMap_cons, List.getElem?_eq_getElem (this f (by simp))]
    simp [ih (fun f hf => this f (by simp [hf]))]

/-- A text file with faces of 3, 4 and again 3 vertices and one value for each face. -/
def alternating : TextFile Int :=
  ⟨[], ("int", "int", "int"), [], [([0, 0, 0], []), ([1, 0, 0], [])], ("uint8", "int32"), [("int", "a")],
    [⟨[0, 1, 0], [7]⟩, ⟨[0, 1, 0, 1], [8]⟩, ⟨[1, 1, 0], [9]⟩]⟩

theorem alternating_ok : TextOk alternating where
  comments := by decide
  types := by
    intro f hf
    have : f = "int" := by simpa [alternating] using hf
    exact ⟨i4, by rw [this]; decide⟩
  extra := by intro p hp; simp [alternating] at hp
  names := by decide
  rows := by decide
  count := ⟨u1, by decide⟩
  value := ⟨i4, by decide, by decide⟩
  scalars := by
    intro p hp
    have : p = ("int", "a") := by simpa [alternating] using hp
    subst this
    exact ⟨isTok_lit (by decide), by decide, i4, by decide⟩
  scalarNames := by decide
  faces := by
    intro f hf
    simp only [alternating, List.mem_cons, List.not_mem_nil, or_false] at hf
    rcases hf with rfl | rfl | rfl <;> decide

/-- The full claim: face data are read whatever the order of the faces. -/
def C29_face_data_statement : Prop :=
  ∀ (fio : FloatIO Int) (tio : TypedIO Int) (one : Bool) (t : TextFile Int), TextOk t → t.rows ≠ [] →
    (t.rows.length = 1 → t.extra = []) → t.faces ≠ [] →
    ∃ m, Ply.read fio tio one (t.text fio) = .ok m ∧ m.cells = specBlocks (t.faces.map (·.idx))

/-- The integers as values of every type. -/
def intTyped : TypedIO Int where
  ok d x := IsInt d.size x
  enc big d x := intEnc big d.size x
  dec big _ b := intDec big b
  len big d x := length_intEnc big d.size x
  dec_enc big d x h := intDec_intEnc big d.size x h

theorem C29_face_data_false : ¬ C29_face_data_statement := by
  intro h
  obtain ⟨m, hm, _⟩ := h FloatIO.int intTyped false alternating alternating_ok (by decide) (by decide) (by decide)
  have := read_text FloatIO.int intTyped false alternating alternating_ok (by decide) (by decide) _ rfl (by decide)
  rw [hm] at this
  rw [if_neg (by decide)] at this
  cases this

/-! ### Binary files -/

/-- A binary file with `vertex_indices`. -/
structure BinFile (F : Type) where
  big : Bool
  comments : List (List Char)
  props : List (String × String)
  rows : List (List F)
  list : String × String
  faces : List (List Int)

structure BinOk (tio : TypedIO F) (one : Bool) (t : BinFile F) (ds : List Dtype) (cd vd : Dtype) : Prop where
  comments : ∀ c ∈ t.comments, '\n' ∉ c
  props : ∀ p ∈ t.props, IsTok p.1.toList ∧ IsTok p.2.toList
  types : t.props.map (fun p => Dict.get? binTable p.1) = ds.map some
  names : (t.props.map (·.2)).Nodup
  coords : ∀ c ∈ ["x", "y", "z"], c ∈ t.props.map (·.2)
  rows : ∀ r ∈ t.rows, r.length = ds.length ∧ ∀ dx ∈ ds.zip r, tio.ok dx.1 dx.2
  count : Dict.get? binTable t.list.1 = some cd
  value : Dict.get? binTable t.list.2 = some vd
  faces : ∀ f ∈ t.faces, f.length < 256 ^ cd.size ∧ (one = true → f.length ≠ 1) ∧ ∀ z ∈ f, InRange vd z
  notFloat : vd.kind ≠ .float

def BinFile.hdr (t : BinFile F) : Hdr :=
  ⟨t.rows.length, t.faces.length, t.props, [(.list t.list.1 t.list.2, "vertex_indices")]⟩

/-- The content of the file. -/
def BinFile.content (tio : TypedIO F) (t : BinFile F) (ds : List Dtype) (cd vd : Dtype) : List Char :=
  linesText (hdrLines (some t.big) t.comments t.hdr) ++
    ofBytes (t.rows.flatMap (recordBytes tio t.big ds) ++ t.faces.flatMap (listRow t.big cd.size vd))

theorem mapRes_lookup_eq (table : Dict Dtype) (pp : List (String × String)) (ds : List Dtype)
    (h : pp.map (fun p => Dict.get? table p.1) = ds.map some) :
    mapRes (fun p : String × String => lookup table p.1) pp = .ok ds := by
  induction pp generalizing ds with
  | nil =>
    cases ds with
    | nil => rfl
    | cons d ds => simp at h
  | cons p pp ih =>
    cases ds with
    | nil => simp at h
    | cons d ds =>
      simp only [List.map_cons, List.cons.injEq] at h
      have := ih ds h.2
      simp only [mapRes, lookup, h.1] at this ⊢
      rw [this]

theorem size_pos (name : String) (d : Dtype) (h : Dict.get? binTable name = some d) :
    0 < d.size ∧ IsTok name.toList := by
  have hm := Dict.mem_of_get? h
  have key : ∀ kv ∈ binTable, 0 < kv.2.size ∧
    (kv.1.toList ≠ [] ∧ kv.1.toList.all (fun c => !isWs c)) = true := by decide
  exact ⟨(key _ hm).1, isTok_lit (key _ hm).2⟩

/-- Binary files: any order of the properties, either byte order. -/
theorem C29_binary_reads (fio : FloatIO F) (tio : TypedIO F) (one : Bool) (t : BinFile F) (ds : List Dtype)
    (cd vd : Dtype) (h : BinOk tio one t ds cd vd) :
    Ply.read fio tio one (t.content tio ds cd vd) =
      .ok ⟨t.rows.map (fun r => ["x", "y", "z"].filterMap (fun c => r[(t.props.map (·.2)).idxOf c]?)),
        ((t.props.map (·.2)).zipIdx.filter (fun ni => ni.1 ∉ ["x", "y", "z"])).map (fun ni => (ni.1, t.rows.filterMap (·[ni.2]?))),
        specBlocks t.faces, []⟩ := by
  have hcd := size_pos _ _ h.count
  have hvd := size_pos _ _ h.value
  have hok : HdrOk t.hdr := by
    refine ⟨h.props, ?_, ?_⟩
    · intro p hp
      simp only [BinFile.hdr, List.mem_singleton] at hp
      subst hp
      exact ⟨(isTok_lit (by decide) : IsTok "vertex_indices".toList), hcd.2, hvd.2⟩
    · intro hc; simp [BinFile.hdr] at hc
  have hlines : fileLines (t.content tio ds cd vd) = (hdrLines (some t.big) t.comments t.hdr).map (· ++ ['\n']) ++
      fileLines (ofBytes (t.rows.flatMap (recordBytes tio t.big ds) ++ t.faces.flatMap (listRow t.big cd.size vd))) := by
    unfold BinFile.content
    rw [fileLines_linesText]
    exact lines_no_newline _ _ h.comments _ hok
  unfold Ply.read
  rw [hlines, readHeader_ok _ _ _ hok]
  simp only
  rw [flatten_fileLines, toBytes_ofBytes]
  unfold readBinary
  have hrt : recordType binTable t.hdr.pp = .ok ds := by
    unfold recordType
    rw [show t.hdr.pp = t.props from rfl, mapRes_lookup_eq _ _ _ h.types]
    exact if_pos h.names
  rw [hrt]
  simp only
  have hx := h.coords "x" (by simp)
  have hsize : 0 < (ds.map (·.size)).sum := by
    obtain ⟨p, hp, _⟩ := List.mem_map.mp hx
    have h1 : Dict.get? binTable p.1 ∈ ds.map some := by
      rw [← h.types]; exact List.mem_map_of_mem (f := fun p : String × String => Dict.get? binTable p.1) hp
    obtain ⟨d, hd, e⟩ := List.mem_map.mp h1
    have h2 := (size_pos _ _ e.symm).1
    have := le_sum_of_mem (List.mem_map_of_mem (f := fun d : Dtype => d.size) hd)
    omega
  have hlen := length_flatMap_const ((ds.map (·.size)).sum) (recordBytes tio t.big ds) t.rows
    (fun r hr => length_recordBytes tio t.big ds r (h.rows r hr).1)
  rw [show t.hdr.nv = t.rows.length from rfl, List.take_left' hlen, List.drop_left' hlen, if_neg (by omega),
    hlen, if_neg (by simp)]
  rw [show t.hdr.pp = t.props from rfl]
  rw [if_neg (by
    rintro (hc | hc | hc)
    · exact hc hx
    · exact hc (h.coords "y" (by simp))
    · exact hc (h.coords "z" (by simp)))]
  have hcells : binaryCells one t.big t.hdr.nc t.hdr.cp (t.faces.flatMap (listRow t.big cd.size vd)) =
      .ok (specBlocks t.faces) := by
    have hr := readList_ok one t.big cd vd hvd.1 t.faces h.faces hcd.1 []
    rw [List.append_nil] at hr
    have h1 : lookup binTable t.list.1 = .ok cd := by simp only [lookup, h.count]
    have h2 : lookup binTable t.list.2 = .ok vd := by simp only [lookup, h.value]
    show binaryCells one t.big t.faces.length [(.list t.list.1 t.list.2, "vertex_indices")] _ = _
    unfold binaryCells
    simp only [h1, h2]
    rw [if_neg (by simp [h.notFloat]), hr, faceBlocks_eq]
  rw [hcells]
  simp only
  rw [Nat.mul_div_cancel _ hsize, items_flatMap' _ _ _ (fun r hr => length_recordBytes tio t.big ds r (h.rows r hr).1)]
  have hrows : (t.rows.map (recordBytes tio t.big ds)).map (fields tio t.big ds) = t.rows := by
    rw [List.map_map]
    conv => rhs; rw [← List.map_id t.rows]
    apply List.map_congr_left
    intro r hr
    exact fields_recordBytes tio t.big ds r (h.rows r hr).1 (h.rows r hr).2
  rw [hrows]
  rfl

/-! ### Writing -/

/-- Data of more dimensions are left out, the rest is written as if they were not there. -/
theorem C29_skips_vectors (fio : FloatIO F) (tio : TypedIO F) (fm : Option Bool) (c : List Char) (dim : Nat)
    (dt : Dtype) (points : List (List F)) (pd : List (String × Dtype × Option (List F))) (cells : List Block) :
    Ply.write fio tio fm c dim dt points pd cells =
      Ply.write fio tio fm c dim dt points (pd.filter (fun p => p.2.2.isSome)) cells := by
  have h1 : pointProps dt dim (pd.filter (fun p => p.2.2.isSome)) = pointProps dt dim pd := by
    unfold pointProps
    rw [List.filter_filter]
    simp
  have h2 : (pd.filter (fun p => p.2.2.isSome)).filterMap (fun p => p.2.2) = pd.filterMap (fun p => p.2.2) := by
    clear h1
    induction pd with
    | nil => rfl
    | cons p pd ih =>
      obtain ⟨n, d, o⟩ := p
      cases o with
      | none => simpa using ih
      | some v => simpa using ih
  have h3 : pointRows points (pd.filter (fun p => p.2.2.isSome)) = pointRows points pd := by
    unfold pointRows
    rw [h2]
  unfold Ply.write
  rw [h1, h3, List.filter_filter]
  simp

/-- What the writer needs of a mesh of points in space to be readable again. -/
structure WriteOk (dt : Dtype) (points : List (List F)) (pd : List (String × Dtype × List F)) (cells : List Block)
    (ct : Dtype) : Prop where
  dt : dt ∈ [i1, i4, i8, u1, u2, u4, u8, f4, f8]
  space : ∀ p ∈ points, p.length = 3
  data : ∀ p ∈ pd, IsTok p.1.toList ∧ p.2.1 ∈ [i1, i4, i8, u1, u2, u4, u8, f4, f8] ∧ p.2.2.length = points.length
  names : ("x" :: "y" :: "z" :: pd.map (·.1)).Nodup
  one : ∀ b ∈ cells, b.dt = ct ∨ (b.dt = i8 ∧ ct = i4)
  kind : ct ∈ [i1, i4, u1, u2, u4, u8]
  rows : ∀ b ∈ cells, ∀ r ∈ b.rows, r.length < 255 ∧ ∀ z ∈ r, InRange ct z

/-- The rows of the blocks of the kinds PLY can hold. -/
def faceRows (cells : List Block) : List (List Int) :=
  (cells.filter (fun b => legal.contains b.type)).flatMap (·.rows)

/-- The point data as given to the writer. -/
def given (pd : List (String × Dtype × List F)) : List (String × Dtype × Option (List F)) :=
  pd.map (fun p => (p.1, p.2.1, some p.2.2))

theorem typeName_ok (d : Dtype) (h : d ∈ [i1, i4, i8, u1, u2, u4, u8, f4, f8]) :
    ∃ t, typeNameTable.lookup d = some t ∧ Dict.get? asciiTable t = some d ∧ Dict.get? binTable t = some d := by
  simp only [List.mem_cons, List.not_mem_nil, or_false] at h
  rcases h with rfl | rfl | rfl | rfl | rfl | rfl | rfl | rfl | rfl <;> exact ⟨_, rfl, by decide, by decide⟩

theorem plyName_ok (d : Dtype) (h : d ∈ [i1, i4, u1, u2, u4, u8]) :
    ∃ t, numpyToPly d = some t ∧ Dict.get? asciiTable t = some d ∧ Dict.get? binTable t = some d ∧ d.kind ≠ .float := by
  simp only [List.mem_cons, List.not_mem_nil, or_false] at h
  rcases h with rfl | rfl | rfl | rfl | rfl | rfl <;> exact ⟨_, rfl, by decide, by decide, by decide⟩

theorem cast_ok (b : Block) (ct : Dtype) (h : b.dt = ct ∨ (b.dt = i8 ∧ ct = i4)) (hct : ct ∈ [i1, i4, u1, u2, u4, u8])
    (hr : ∀ r ∈ b.rows, ∀ z ∈ r, InRange ct z) : Ply.cast b = ⟨b.type, ct, b.rows⟩ := by
  obtain ⟨ty, d, rows⟩ := b
  unfold Ply.cast
  rcases h with h | ⟨h1, h2⟩
  · simp only at h
    subst h
    rw [if_neg]
    intro e
    simp only at e
    subst e
    exact absurd hct (by decide)
  · simp only at h1
    subst h1 h2
    rw [if_pos rfl]
    congr 1
    conv => rhs; rw [← List.map_id rows]
    apply List.map_congr_left
    intro r hr'
    conv => rhs; rw [id, ← List.map_id r]
    apply List.map_congr_left
    intro z hz
    exact intDec_intEnc _ _ _ (hr r hr' z hz)

/-- The header of the faces, and the blocks after the cast. -/
theorem faceHeader_ok (cells : List Block) (ct : Dtype) (t : String) (hct : ct ∈ [i1, i4, u1, u2, u4, u8])
    (ht : numpyToPly ct = some t) (h : ∀ b ∈ cells, b.dt = ct ∨ (b.dt = i8 ∧ ct = i4))
    (hr : ∀ b ∈ cells, ∀ r ∈ b.rows, ∀ z ∈ r, InRange ct z) (hne : faceRows cells ≠ []) :
    faceHeader cells = .ok (["element face ".toList ++ fmtNat (faceRows cells).length,
      ctypeLine (.list "uint8" t, "vertex_indices")], cells.map (fun b => ⟨b.type, ct, b.rows⟩)) := by
  have hn : ∀ cells : List Block, numFaces cells = (faceRows cells).length := by
    intro cells
    unfold numFaces faceRows
    rw [List.length_flatMap]
  have hcast : cells.map Ply.cast = cells.map (fun b => ⟨b.type, ct, b.rows⟩) :=
    List.map_congr_left (fun b hb => cast_ok b ct (h b hb) hct (hr b hb))
  have hnum : numFaces (cells.map (fun b => ⟨b.type, ct, b.rows⟩ : Block → Block)) = (faceRows cells).length := by
    rw [← hn]
    unfold numFaces
    rw [List.filter_map, List.map_map]
    rfl
  unfold faceHeader
  rw [if_neg (by rw [hn]; intro e; exact hne (List.length_eq_zero_iff.mp e))]
  simp only
  rw [hcast]
  cases cells with
  | nil => exact absurd rfl hne
  | cons b bs =>
    simp only [List.map_cons]
    rw [if_neg (by
      simp only [Bool.not_eq_true, List.any_eq_false, List.mem_cons, List.mem_map]
      rintro c (rfl | ⟨c, _, rfl⟩) <;> simp), ht]
    simp only
    rw [show ({ type := b.type, dt := ct, rows := b.rows } :: bs.map (fun b => ⟨b.type, ct, b.rows⟩ : Block → Block)) =
      (b :: bs).map (fun b => ⟨b.type, ct, b.rows⟩ : Block → Block) from rfl, hnum]
    simp [ctypeLine]

/-- The rows of points with their data. -/
theorem pointRows_given (points : List (List F)) (pd : List (String × Dtype × List F)) :
    pointRows points (given pd) = points.zipIdx.map (fun pk => pk.1 ++ (pd.map (·.2.2)).filterMap (·[pk.2]?)) := by
  have : (given pd).filterMap (fun p => p.2.2) = pd.map (·.2.2) := by
    unfold given
    rw [List.filterMap_map, ← List.filterMap_eq_map]
    rfl
  unfold pointRows
  rw [this]

/-- The columns behind the coordinates are the data. -/
theorem extraColumns_given (points : List (List F)) (pd : List (String × Dtype × List F))
    (h : ∀ p ∈ pd, p.2.2.length = points.length) :
    extraColumns (pd.map (·.1)) (points.zipIdx.map (fun pk => (pd.map (·.2.2)).filterMap (·[pk.2]?))) =
      pd.map (fun p => (p.1, p.2.2)) := by
  unfold extraColumns column
  apply List.ext_getElem
  · simp
  · intro j h1 h2
    simp only [List.length_map] at h2
    simp only [List.getElem_map, List.getElem_zipIdx, Nat.zero_add, Prod.mk.injEq, true_and]
    rw [List.filterMap_map]
    have : ∀ pk ∈ points.zipIdx, ((fun r : List F => r[j]?) ∘ fun pk : List F × Nat =>
        (pd.map (·.2.2)).filterMap (·[pk.2]?)) pk = (pd[j].2.2)[pk.2]? := by
      intro pk hpk
      have hk := List.snd_lt_of_mem_zipIdx hpk
      have := (columns_row (pd.map (·.2.2)) points.length (by
        intro c hc
        obtain ⟨p, hp, rfl⟩ := List.mem_map.mp hc
        exact h p hp) pk.2 (by simpa using hk)).2 j
      simp only [Function.comp_def]
      rw [this, List.getElem?_map, List.getElem?_eq_getElem h2]
      rfl
    rw [filterMap_congr' this, zipIdx_filterMap_snd points (fun i => (pd[j].2.2)[i]?), ← h pd[j] (List.getElem_mem h2),
      column_back]

/-- The properties of the points in the header. -/
theorem pointProps_given (dt : Dtype) (pd : List (String × Dtype × List F)) (t : String)
    (hdt : typeNameTable.lookup dt = some t)
    (h : ∀ p ∈ pd, p.2.1 ∈ [i1, i4, i8, u1, u2, u4, u8, f4, f8]) :
    pointProps dt 3 (given pd) = .ok ((t, "x") :: (t, "y") :: (t, "z") ::
      pd.map (fun p => ((typeNameTable.lookup p.2.1).getD "", p.1))) := by
  unfold pointProps
  rw [if_neg (by omega), hdt]
  have h1 : (given pd).filter (fun p => p.2.2.isSome) = given pd := by
    rw [List.filter_eq_self]
    intro p hp
    obtain ⟨q, _, rfl⟩ := List.mem_map.mp hp
    rfl
  have h2 : mapRes dataProp (given pd) =
      .ok (pd.map (fun p => ((typeNameTable.lookup p.2.1).getD "", p.1))) := by
    unfold given
    clear h1
    induction pd with
    | nil => rfl
    | cons p pd ih =>
      obtain ⟨t, ht, _⟩ := typeName_ok _ (h p (by simp))
      have := ih (fun p hp => h p (by simp [hp]))
      simp only [List.map_cons, mapRes, this, dataProp, ht]
      rfl
  rw [h1, h2]
  rfl

theorem legal_map (cells : List Block) (ct : Dtype) :
    (cells.map (fun b => ⟨b.type, ct, b.rows⟩ : Block → Block)).filter (fun b => legal.contains b.type) =
      (cells.filter (fun b => legal.contains b.type)).map (fun b => ⟨b.type, ct, b.rows⟩) := by
  rw [List.filter_map]
  rfl

theorem small_rows (cells : List Block) (ct : Dtype) (n : Nat) (hn : n ≤ 255) (h : ∀ b ∈ cells, ∀ r ∈ b.rows, r.length ≤ n) :
    ((cells.filter (fun b => legal.contains b.type)).map (fun b => ⟨b.type, ct, b.rows⟩ : Block → Block)).any
      (fun b => b.rows.any (fun r => 255 < r.length)) = false := by
  rw [List.any_eq_false]
  intro b hb
  obtain ⟨c, hc, rfl⟩ := List.mem_map.mp hb
  simp only [Bool.not_eq_true, List.any_eq_false, decide_eq_true_eq]
  intro r hr
  have := h c (List.mem_filter.mp hc).1 r hr
  omega

/-- Text files: points, point data and faces come back; the faces in blocks of neighbours with
equally many vertices.  Blocks of kinds PLY cannot hold and all cell data are left out. -/
theorem C29_text_roundtrip_partial (fio : FloatIO F) (tio : TypedIO F) (one : Bool) (c : List Char) (hc : '\n' ∉ c)
    (dt : Dtype) (points : List (List F)) (pd : List (String × Dtype × List F)) (cells : List Block) (ct : Dtype)
    (h : WriteOk dt points pd cells ct) (hne : points ≠ []) (hone : points.length = 1 → pd = [])
    (hfull : ∀ b ∈ cells, b.rows ≠ []) (hf : faceRows cells ≠ []) :
    ∃ s, Ply.write fio tio none c 3 dt points (given pd) cells = .ok s ∧
      Ply.read fio tio one s = .ok ⟨points, pd.map (fun p => (p.1, p.2.2)), specBlocks (faceRows cells), []⟩ := by
  obtain ⟨t, ht, ht', _⟩ := typeName_ok dt h.dt
  obtain ⟨u, hu, hu', _, huk⟩ := plyName_ok ct h.kind
  let tf : TextFile F := ⟨["Created by meshio v".toList ++ c], (t, t, t),
    pd.map (fun p => ((typeNameTable.lookup p.2.1).getD "", p.1)),
    points.zipIdx.map (fun pk => (pk.1, (pd.map (·.2.2)).filterMap (·[pk.2]?))), ("uint8", u), [],
    (faceRows cells).map (fun r => ⟨r, []⟩)⟩
  have hcols : ∀ p ∈ pd.map (fun p : String × Dtype × List F => p.2.2), p.length = points.length := by
    intro p hp
    obtain ⟨q, hq, rfl⟩ := List.mem_map.mp hp
    exact (h.data q hq).2.2
  have hok : TextOk tf := by
    refine ⟨?_, ?_, ?_, ?_, ?_, ⟨u1, (by decide : Dict.get? asciiTable "uint8" = some u1)⟩, ⟨ct, hu', huk⟩, by simp [tf], by simp [tf], ?_⟩
    · intro x hx
      simp only [tf, List.mem_singleton] at hx
      subst hx
      rw [List.mem_append, not_or]
      exact ⟨by decide, hc⟩
    · intro f hf
      have : f = t := by simpa [tf] using hf
      subst this
      exact ⟨dt, ht'⟩
    · intro p hp
      obtain ⟨q, hq, rfl⟩ := List.mem_map.mp hp
      obtain ⟨h1, h2, h3⟩ := h.data q hq
      obtain ⟨n, hn, hn', _⟩ := typeName_ok _ h2
      exact ⟨h1, q.2.1, by simp only [hn]; exact hn'⟩
    · have := h.names
      simpa [tf, List.map_map, Function.comp_def] using this
    · intro r hr
      obtain ⟨pk, hpk, rfl⟩ := List.mem_map.mp hr
      have hk := List.snd_lt_of_mem_zipIdx hpk
      refine ⟨h.space _ (List.fst_mem_of_mem_zipIdx hpk), ?_⟩
      have := (columns_row (pd.map (fun p => p.2.2)) points.length hcols pk.2 (by simpa using hk)).1
      simpa [tf] using this
    · intro f hf
      obtain ⟨r, hr, rfl⟩ := List.mem_map.mp hf
      refine ⟨rfl, ?_⟩
      obtain ⟨b, hb, hrb⟩ := List.mem_flatMap.mp hr
      exact (h.rows b (List.mem_filter.mp hb).1 r hrb).1
  refine ⟨tf.text fio, ?_, ?_⟩
  · unfold Ply.write
    rw [pointProps_given dt pd t ht (fun p hp => (h.data p hp).2.1)]
    simp only
    rw [faceHeader_ok cells ct u h.kind hu h.one (fun b hb r hr => (h.rows b hb r hr).2) hf]
    simp only
    rw [legal_map, small_rows cells ct 254 (by omega) (fun b hb r hr => by have := (h.rows b hb r hr).1; omega),
      if_neg (by simp), if_neg hne, pointRows_given]
    congr 1
    unfold TextFile.text
    congr 1
    have e1 : headerLines none c points.length ((t, "x") :: (t, "y") :: (t, "z") ::
      pd.map (fun p => ((typeNameTable.lookup p.2.1).getD "", p.1)))
        ["element face ".toList ++ fmtNat (faceRows cells).length, ctypeLine (.list "uint8" u, "vertex_indices")] =
      hdrLines none tf.comments tf.hdr := by
      simp [headerLines, hdrLines, TextFile.hdr, tf]
    rw [e1]
    congr 1
    congr 1
    · simp [tf]
    · show _ = ((faceRows cells).map (fun r => (⟨r, []⟩ : Face F))).map _
      unfold faceRows
      rw [List.map_map, List.map_flatMap, List.flatMap_map]
      apply flatMap_congr'
      intro b hb
      unfold blockLines
      rw [if_neg (hfull b (List.mem_filter.mp hb).1)]
      apply List.map_congr_left
      intro r _
      simp [Face.toks]
  · rw [C29_text_reads fio tio one tf hok (by
      simpa [tf] using hne) (by
      intro e
      have : points.length = 1 := by simpa [tf] using e
      simp [tf, hone this]) rfl (by simpa [tf] using hf)]
    have e1 : tf.rows.map (·.1) = points := by
      simp only [tf, List.map_map, Function.comp_def]
      exact List.zipIdx_map_fst ..
    have e2 : extraColumns (tf.extra.map (·.2)) (tf.rows.map (·.2)) = pd.map (fun p => (p.1, p.2.2)) := by
      rw [← extraColumns_given points pd (fun p hp => (h.data p hp).2.2)]
      simp [tf, List.map_map, Function.comp_def]
    have e3 : tf.faces.map (·.idx) = faceRows cells := by
      simp [tf, List.map_map, Function.comp_def]
    rw [e1, e2, e3]

/-- Binary files: the same, in either byte order, also for a single point and with blocks without
rows. -/
theorem C29_binary_roundtrip_partial (fio : FloatIO F) (tio : TypedIO F) (one big : Bool) (c : List Char)
    (hc : '\n' ∉ c) (dt : Dtype) (points : List (List F)) (pd : List (String × Dtype × List F))
    (cells : List Block) (ct : Dtype) (h : WriteOk dt points pd cells ct)
    (hfl : ∀ p ∈ points, ∀ x ∈ p, tio.ok dt x) (hpd : ∀ p ∈ pd, ∀ x ∈ p.2.2, tio.ok p.2.1 x)
    (hv : one = true → ∀ r ∈ faceRows cells, r.length ≠ 1) (hf : faceRows cells ≠ []) :
    ∃ s, Ply.write fio tio (some big) c 3 dt points (given pd) cells = .ok s ∧
      Ply.read fio tio one s = .ok ⟨points, pd.map (fun p => (p.1, p.2.2)), specBlocks (faceRows cells), []⟩ := by
  obtain ⟨t, ht, _, ht'⟩ := typeName_ok dt h.dt
  obtain ⟨u, hu, _, hu', huk⟩ := plyName_ok ct h.kind
  have hcols : ∀ p ∈ pd.map (fun p : String × Dtype × List F => p.2.2), p.length = points.length := by
    intro p hp
    obtain ⟨q, hq, rfl⟩ := List.mem_map.mp hp
    exact (h.data q hq).2.2
  let ds : List Dtype := dt :: dt :: dt :: pd.map (·.2.1)
  let bf : BinFile F := ⟨big, ["Created by meshio v".toList ++ c],
    (t, "x") :: (t, "y") :: (t, "z") :: pd.map (fun p => ((typeNameTable.lookup p.2.1).getD "", p.1)),
    pointRows points (given pd), ("uint8", u), faceRows cells⟩
  have htt := (size_pos t dt ht').2
  have hdt : ∀ p ∈ pd, Dict.get? binTable ((typeNameTable.lookup p.2.1).getD "") = some p.2.1 := by
    intro p hp
    obtain ⟨n, hn, _, hn'⟩ := typeName_ok _ (h.data p hp).2.1
    rw [hn]; exact hn'
  have hok : BinOk tio one bf ds u1 ct := by
    refine ⟨?_, ?_, ?_, ?_, ?_, ?_, (by decide : Dict.get? binTable "uint8" = some u1), hu', ?_, huk⟩
    · intro x hx
      simp only [bf, List.mem_singleton] at hx
      subst hx
      rw [List.mem_append, not_or]
      exact ⟨by decide, hc⟩
    · intro p hp
      simp only [bf, List.mem_cons, List.mem_map] at hp
      rcases hp with rfl | rfl | rfl | ⟨q, hq, rfl⟩
      · exact ⟨htt, (isTok_lit (by decide) : IsTok "x".toList)⟩
      · exact ⟨htt, (isTok_lit (by decide) : IsTok "y".toList)⟩
      · exact ⟨htt, (isTok_lit (by decide) : IsTok "z".toList)⟩
      · exact ⟨(size_pos _ _ (hdt q hq)).2, (h.data q hq).1⟩
    · simp only [bf, ds, List.map_cons, List.map_map, ht', List.cons.injEq, true_and]
      apply List.map_congr_left
      intro p hp
      exact hdt p hp
    · have := h.names
      simpa [bf, List.map_map, Function.comp_def] using this
    · intro x hx
      simp only [List.mem_cons, List.not_mem_nil, or_false] at hx
      rcases hx with rfl | rfl | rfl <;> simp [bf]
    · intro r hr
      simp only [bf, pointRows_given] at hr
      obtain ⟨pk, hpk, rfl⟩ := List.mem_map.mp hr
      have hk := List.snd_lt_of_mem_zipIdx hpk
      have hp := List.fst_mem_of_mem_zipIdx hpk
      have h3 := h.space _ hp
      have hcr := columns_row (pd.map (fun p => p.2.2)) points.length hcols pk.2 (by simpa using hk)
      refine ⟨by simp only [List.length_append, h3, hcr.1, ds]; simp; omega, ?_⟩
      obtain ⟨q, k⟩ := pk
      match q, h3 with
      | [a, b, d], _ =>
        intro dx hdx
        simp only [ds, List.cons_append, List.nil_append, List.zip_cons_cons, List.mem_cons] at hdx
        rcases hdx with rfl | rfl | rfl | hdx
        · exact hfl _ hp _ (by simp)
        · exact hfl _ hp _ (by simp)
        · exact hfl _ hp _ (by simp)
        · obtain ⟨j, hj, e⟩ := List.getElem_of_mem hdx
          simp only [List.length_zip, List.length_map] at hj
          have hjp : j < pd.length := by omega
          rw [List.getElem_zip] at e
          have := hcr.2 j
          simp only [List.getElem?_map, List.getElem?_eq_getElem hjp, Option.map_some, Option.bind_some] at this
          rw [List.getElem?_eq_getElem (by rw [hcr.1]; simpa using hjp)] at this
          subst e
          simp only [List.getElem_map]
          exact hpd _ (List.getElem_mem hjp) _ (List.mem_of_getElem? this.symm)
    · intro f hf
      refine ⟨?_, fun e => hv e f hf, ?_⟩
      · obtain ⟨b, hb, hrb⟩ := List.mem_flatMap.mp hf
        have := (h.rows b (List.mem_filter.mp hb).1 f hrb).1
        show f.length < 256 ^ 1
        omega
      · obtain ⟨b, hb, hrb⟩ := List.mem_flatMap.mp hf
        exact (h.rows b (List.mem_filter.mp hb).1 f hrb).2
  refine ⟨bf.content tio ds u1 ct, ?_, ?_⟩
  · unfold Ply.write
    rw [pointProps_given dt pd t ht (fun p hp => (h.data p hp).2.1)]
    simp only
    rw [faceHeader_ok cells ct u h.kind hu h.one (fun b hb r hr => (h.rows b hb r hr).2) hf]
    simp only
    rw [legal_map, small_rows cells ct 254 (by omega) (fun b hb r hr => by have := (h.rows b hb r hr).1; omega),
      if_neg (by simp)]
    congr 1
    unfold BinFile.content
    have e1 : headerLines (some big) c points.length ((t, "x") :: (t, "y") :: (t, "z") ::
      pd.map (fun p => ((typeNameTable.lookup p.2.1).getD "", p.1)))
        ["element face ".toList ++ fmtNat (faceRows cells).length, ctypeLine (.list "uint8" u, "vertex_indices")] =
      hdrLines (some big) bf.comments bf.hdr := by
      cases big <;> simp [headerLines, hdrLines, BinFile.hdr, bf, pointRows]
    have e2 : List.replicate 3 dt ++ ((given pd).filter (fun p => p.2.2.isSome)).map (·.2.1) = ds := by
      have h1 : (given pd).filter (fun p => p.2.2.isSome) = given pd := by
        rw [List.filter_eq_self]
        intro p hp
        obtain ⟨q, _, rfl⟩ := List.mem_map.mp hp
        rfl
      rw [h1]
      simp [given, ds, Function.comp_def, List.replicate]
    rw [e1, e2]
    congr 1
    congr 1
    congr 1
    show _ = (faceRows cells).flatMap _
    unfold faceRows
    rw [List.flatMap_map, List.flatMap_assoc]
    rfl
  · rw [C29_binary_reads fio tio one bf ds u1 ct hok]
    have hnames : bf.props.map (·.2) = "x" :: "y" :: "z" :: pd.map (·.1) := by
      simp [bf, Function.comp_def]
    rw [hnames]
    have e1 : bf.rows.map (fun r => ["x", "y", "z"].filterMap (fun c => r[("x" :: "y" :: "z" :: pd.map (·.1)).idxOf c]?)) =
        points := by
      show (pointRows points (given pd)).map _ = _
      rw [pointRows_given, List.map_map]
      have hz : points = points.zipIdx.map (·.1) := (List.zipIdx_map_fst ..).symm
      conv => rhs; rw [hz]
      apply List.map_congr_left
      intro pk hpk
      have h3 := h.space _ (List.fst_mem_of_mem_zipIdx hpk)
      obtain ⟨q, k⟩ := pk
      match q, h3 with
      | [a, b, d], _ =>
        have ix : ∀ l : List String, ("x" :: "y" :: "z" :: l).idxOf "x" = 0 := by intro l; simp
        have iy : ∀ l : List String, ("x" :: "y" :: "z" :: l).idxOf "y" = 1 := by
          intro l; simp [List.idxOf_cons]
        have iz : ∀ l : List String, ("x" :: "y" :: "z" :: l).idxOf "z" = 2 := by
          intro l; simp [List.idxOf_cons]
        simp [ix, iy, iz]
    have e2 : (("x" :: "y" :: "z" :: pd.map (·.1)).zipIdx.filter (fun ni => decide (ni.1 ∉ ["x", "y", "z"]))).map
        (fun ni => (ni.1, bf.rows.filterMap (·[ni.2]?))) = pd.map (fun p => (p.1, p.2.2)) := by
      rw [← extraColumns_given points pd (fun p hp => (h.data p hp).2.2)]
      have hnd := h.names
      simp only [List.zipIdx_cons, Nat.zero_add]
      rw [List.filter_cons_of_neg (by simp), List.filter_cons_of_neg (by simp), List.filter_cons_of_neg (by simp)]
      rw [List.filter_eq_self.mpr (by
        intro ni hni
        have hm := List.fst_mem_of_mem_zipIdx hni
        simp only [List.nodup_cons, List.mem_cons, not_or] at hnd
        simp only [List.mem_cons, List.not_mem_nil, or_false, decide_eq_true_eq, not_or]
        refine ⟨?_, ?_, ?_⟩
        · rintro e; rw [e] at hm; exact hnd.1.2.2 hm
        · rintro e; rw [e] at hm; exact hnd.2.1.2 hm
        · rintro e; rw [e] at hm; exact hnd.2.2.1 hm)]
      unfold extraColumns column
      apply List.ext_getElem
      · simp
      · intro j h1 h2
        simp only [List.length_map, List.length_zipIdx] at h1
        simp only [List.getElem_map, List.getElem_zipIdx, Nat.zero_add, Prod.mk.injEq, true_and]
        show (pointRows points (given pd)).filterMap _ = _
        rw [pointRows_given, List.filterMap_map, List.filterMap_map]
        apply filterMap_congr'
        intro pk hpk
        have h3 := h.space _ (List.fst_mem_of_mem_zipIdx hpk)
        simp only [Function.comp_def]
        rw [List.getElem?_append_right (by omega), h3]
        congr 1
        omega
    rw [e1, e2]

/-- A mesh with two kinds of faces and point data meets the hypotheses. -/
example : WriteOk f8 [[(0 : Int), 0, 0], [1, 0, 0], [0, 1, 0]] [("a", i4, [5, 6, 7])]
    [⟨"triangle", i8, [[0, 1, 2]]⟩, ⟨"line", i8, [[0, 1], [1, 2]]⟩] i4 where
  dt := by decide
  space := by decide
  data := by
    intro p hp
    rw [List.mem_singleton] at hp
    subst hp
    exact ⟨(isTok_lit (by decide) : IsTok "a".toList), by decide, by decide⟩
  names := by decide
  one := by decide
  kind := by decide
  rows := by
    intro b hb
    simp only [List.mem_cons, List.not_mem_nil, or_false] at hb
    rcases hb with rfl | rfl <;> intro r hr <;> simp only [List.mem_cons, List.not_mem_nil, or_false] at hr
    · subst hr; exact ⟨by decide, by intro z hz; show IsInt 4 z; unfold IsInt; simp at hz; omega⟩
    · rcases hr with rfl | rfl <;> exact ⟨by decide, by intro z hz; show IsInt 4 z; unfold IsInt; simp at hz; omega⟩

/-! ### What does not work -/

/-- Blocks of different integer types are refused. -/
theorem C29_mixed_types (fio : FloatIO F) (tio : TypedIO F) (fm : Option Bool) (c : List Char) (dim : Nat)
    (dt : Dtype) (points : List (List F)) (pd : List (String × Dtype × Option (List F))) (b : Block) (cells : List Block)
    (hne : faceRows (b :: cells) ≠ []) (b' : Block) (hb' : b' ∈ cells) (hd : (Ply.cast b').dt ≠ (Ply.cast b).dt)
    (props : List (String × String)) (hp : pointProps dt dim pd = .ok props) :
    Ply.write fio tio fm c dim dt points pd (b :: cells) = .error .writeError := by
  unfold Ply.write
  rw [hp]
  simp only
  unfold faceHeader
  have hn : numFaces (b :: cells) = (faceRows (b :: cells)).length := by
    unfold numFaces faceRows
    rw [List.length_flatMap]
  rw [if_neg (by rw [hn]; intro e; exact hne (List.length_eq_zero_iff.mp e))]
  simp only [List.map_cons]
  rw [if_pos (by
    rw [List.any_eq_true]
    exact ⟨Ply.cast b', by simp only [List.mem_cons, List.mem_map]; exact Or.inr ⟨b', hb', rfl⟩, by simpa using hd⟩)]

/-- The full claim: the writer's output can be read. -/
def C29_roundtrip_statement : Prop :=
  ∀ (fm : Option Bool) (dim : Nat) (dt : Dtype) (points : List (List Int))
    (pd : List (String × Dtype × Option (List Int))) (cells : List Block) (s : List Char),
    (∀ p ∈ points, p.length = dim) →
    (∀ p ∈ pd, IsTok p.1.toList ∧ ∀ v, p.2.2 = some v → v.length = points.length) →
    Ply.write FloatIO.int intTyped fm [] dim dt points pd cells = .ok s →
    ∃ m, Ply.read FloatIO.int intTyped false s = .ok m ∧ m.points = points

/-- 16-bit coordinates are written as `int16`, which the readers do not know. -/
theorem C29_roundtrip_false : ¬ C29_roundtrip_statement := by
  intro h
  obtain ⟨m, hm, _⟩ := h none 3 i2 [[7, 8, 9]] [] [] _ (by decide) (by simp) rfl
  have e : Ply.read FloatIO.int intTyped false (linesText
      (headerLines none [] 1 [("int16", "x"), ("int16", "y"), ("int16", "z")] [] ++ ["7 8 9".toList])) = .error .keyError := by
    decide +kernel
  exact absurd (e.symm.trans hm) (by simp)

/-- Points in the plane are written with two coordinates, and then not read. -/
theorem C29_plane_false : ∃ s, Ply.write FloatIO.int intTyped (some false) [] 2 f8 [[7, 8], [1, 2]] [] [] = .ok s ∧
    Ply.read FloatIO.int intTyped false s = .error .valueError := by
  refine ⟨_, rfl, ?_⟩
  decide +kernel

/-- A block without cells leaves a blank line in a text file, which the reader takes for a face. -/
theorem C29_empty_block_false : ∃ s, Ply.write FloatIO.int intTyped none [] 3 f8 [[7, 8, 9], [1, 2, 3]] []
      [⟨"line", i4, []⟩, ⟨"line", i4, [[0, 1]]⟩] = .ok s ∧
    Ply.read FloatIO.int intTyped false s = .error .indexError := by
  refine ⟨_, rfl, ?_⟩
  decide +kernel

/-- A mesh without points cannot be written as text. -/
theorem C29_no_points_false (fio : FloatIO F) (tio : TypedIO F) (c : List Char) :
    Ply.write fio tio none c 3 f8 [] [] [] = .error .indexError := by
  rfl

/-- The types of cells that are written. -/
theorem C29_legal_types (t : String) : t ∈ legal ↔
    t = "vertex" ∨ t = "line" ∨ t = "triangle" ∨ t = "quad" ∨ t = "polygon" := by
  simp [legal]

/-- Lines with `obj_info`, blank lines and comments in the header say nothing. -/
theorem C29_header_noise (h : Hdr) (l : List Char) (ls : List (List Char)) (mode : Mode) :
    ((strip l).take 8 = "obj_info".toList → Ply.header h .none (l :: ls) = Ply.header h .none ls) ∧
      (strip l = [] ∨ (strip l).take 7 = "comment".toList → Ply.header h mode (l :: ls) = Ply.header h mode ls) := by
  constructor
  · intro ht
    have h1 : skipped (strip l) = false := by
      unfold skipped
      have hne : strip l ≠ [] := by
        intro e
        rw [e] at ht
        exact absurd ht (by decide)
      have h7 : (strip l).take 7 ≠ "comment".toList := by
        have : ((strip l).take 8).take 7 = (strip l).take 7 := by rw [List.take_take]; rfl
        rw [← this, ht]
        decide
      simpa [hne] using h7
    have h2 : strip l ≠ "end_header".toList := by
      intro e
      rw [e] at ht
      exact absurd ht (by decide)
    conv => lhs; unfold Ply.header
    simp only [h1, ht, reduceCtorEq, false_and, if_false, h2, if_true, Bool.false_eq_true]
  · intro ht
    have h1 : skipped (strip l) = true := by
      unfold skipped
      rcases ht with h | h
      · rw [h]; rfl
      · rw [h]; simp
    conv => lhs; unfold Ply.header
    simp only [h1, if_true]

end Meshio.Props
