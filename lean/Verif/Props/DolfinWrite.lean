/-
C68: writing DOLFIN XML files, and reading them again.
-/
import Verif.Proofs.DolfinWrite
import Verif.Props.Dolfin
namespace Meshio.Props
open Meshio Meshio.Dolfin Meshio.Spec

variable {F : Type}

theorem dolfin_write_type {m : In F} {kind : String × String × List String} (h : DolfinMesh m kind) :
    (if m.blocks.any (fun b => b.1 = "tetra") then "tetra" else "triangle") = kind.2.1 ∧ (m.blocks.any fun b => b.1 = kind.2.1) = true := by
  obtain ⟨b, hb, hbt⟩ := h.some
  refine ⟨?_, List.any_eq_true.mpr ⟨b, hb, by simpa using hbt⟩⟩
  have hk : kind.2.1 = "triangle" ∨ kind.2.1 = "tetra" := (by decide +kernel : ∀ k ∈ dolfinKinds, k.2.1 = "triangle" ∨ k.2.1 = "tetra") kind h.okKind
  rcases hk with e | e
  · rw [e, if_neg]
    intro ha
    obtain ⟨c, hc, hct⟩ := List.any_eq_true.mp ha
    exact h.tetraFirst e c hc (by simpa using hct)
  · rw [e, if_pos]
    exact List.any_eq_true.mpr ⟨b, hb, by rw [hbt, e]; simp⟩

/-- The dimension that is written into the files with cell data. -/
def dolfinDim (zero : F → Bool) (m : In F) : Nat := if m.dim = 2 ∨ m.points.all (fun p => (p[2]?).all zero) then 2 else 3

theorem dolfin_write_eq (fio : FloatIO F) (r : Dolfin.Repr F) (zero : F → Bool) (filename : String) (m : In F) (kind : String × String × List String)
    (h : DolfinMesh m kind) :
    Dolfin.write fio r zero filename m =
      ((filename, meshText fio kind.2.1 m) :: (dataFiles r (splitext filename.toList) (dolfinDim zero m) (m.cellData.flatMap fun nl => nl.2.map fun d => (nl.1, d))).1,
        (dataFiles r (splitext filename.toList) (dolfinDim zero m) (m.cellData.flatMap fun nl => nl.2.map fun d => (nl.1, d))).2) := by
  obtain ⟨h1, h2⟩ := dolfin_write_type h
  unfold Dolfin.write
  simp only [h1]
  rw [if_neg (by rw [h2]; simp), if_neg (by have := h.okDim; omega)]
  rfl

/-- The first file is a document that holds the points and the cells of the chosen type, those of several blocks one after the other. -/
theorem C68_mesh_file (fio : FloatIO F) (hf : XmlFloats fio) (r : Dolfin.Repr F) (zero : F → Bool) (filename : String) (m : In F)
    (kind : String × String × List String) (h : DolfinMesh m kind) :
    ∃ s rest e root, Dolfin.write fio r zero filename m = ((filename, s) :: rest, e) ∧ parseXml s = some root ∧
      DolfinDoc fio root m.dim kind m.points (dolfinCells kind.2.1 m) := by
  obtain ⟨root, h1, h2⟩ := meshText_doc fio hf kind m h
  exact ⟨_, _, _, root, dolfin_write_eq fio r zero filename m kind h, h1, h2⟩

/-- The text of a small mesh. -/
example : Dolfin.write .int ⟨fmtInt, fmtInt⟩ (· == 0) "m.xml" ⟨2, [[0, 0], [5, 0], [0, 7]], [("line", [[0, 1]]), ("triangle", [[0, 1, 2]])], []⟩ =
    ([("m.xml", ("<dolfin nsmap=\"{'dolfin': 'https://fenicsproject.org/'}\">\n  <mesh celltype=\"triangle\" dim=\"2\">\n    <vertices size=\"3\">\n" ++
      "      <vertex index=\"0\" x=\"0\" y=\"0\" />\n      <vertex index=\"1\" x=\"5\" y=\"0\" />\n      <vertex index=\"2\" x=\"0\" y=\"7\" />\n" ++
      "    </vertices>\n    <cells size=\"1\">\n      <triangle index=\"0\" v0=\"0\" v1=\"1\" v2=\"2\" />\n    </cells>\n  </mesh>\n</dolfin>").toList)], none) := by
  decide +kernel

/-- Integers, and so all printed decimals, need no escaping. -/
theorem dolfin_xmlFloats_int : XmlFloats FloatIO.int := fun x c hc => plain_digit (Meshio.Dolfin.fmtInt_chars x c hc)

/-- The property one would like: every mesh with triangles or tetrahedra and numbers as cell data can be read again, with its points and the
cells of that type. -/
def C68_statement : Prop :=
  ∀ (m : In Int) (kind : String × String × List String), DolfinMesh m kind → Dict.Ok m.cellData →
    (∀ e ∈ m.cellData, DataName e.1 ∧ e.2.map Data.len = m.blocks.map (·.2.length) ∧ ∀ d ∈ e.2, ∀ n, d ≠ .other n) →
    ∃ cd, Dolfin.read .int "m.xml" (store [] (Dolfin.write .int ⟨fmtInt, fmtInt⟩ (· == 0) "m.xml" m).1) =
      .ok ⟨fullRows m.points, kind.2.1, fullRows (dolfinCells kind.2.1 m), cd⟩

/-- Two blocks of triangles with cell data. -/
def dolfinTwo : In Int :=
  ⟨2, [[0, 0], [5, 0], [5, 7], [0, 7]], [("triangle", [[0, 1, 2], [0, 2, 3]]), ("triangle", [[1, 2, 3]])],
    [("a", [.ints false [1, 2], .ints false [3]])]⟩

theorem dolfin_two_mesh : DolfinMesh dolfinTwo ("triangle", "triangle", ["v0", "v1", "v2"]) where
  okDim := .inl rfl
  okKind := by decide
  some := ⟨_, by simp [dolfinTwo]; left; rfl, rfl⟩
  tetraFirst := by intro _; decide
  points := by decide
  cells := by decide +kernel

/-- It is false: the blocks are merged into one, while their cell data go to the same file, where the last block wins. -/
theorem C68_false : ¬ C68_statement := by
  intro h
  obtain ⟨cd, hcd⟩ := h dolfinTwo _ dolfin_two_mesh (by decide) (by
    intro e he
    simp only [dolfinTwo, List.mem_cons, List.not_mem_nil, or_false] at he
    subst he
    exact ⟨⟨by decide, by decide, by decide⟩, by decide, by
      intro d hd n; simp only [List.mem_cons, List.not_mem_nil, or_false] at hd; rcases hd with rfl | rfl <;> simp⟩)
  have : Dolfin.read .int "m.xml" (store [] (Dolfin.write .int ⟨fmtInt, fmtInt⟩ (· == 0) "m.xml" dolfinTwo).1) = .error .valueError := by decide +kernel
  rw [this] at hcd
  cases hcd

/-- Every mesh that is written into a directory is read back: the points, the cells of the chosen type as one block, and the cell data, if
there is one array of numbers of the right length for each name.  The directory may hold other files, and it may list its files in any order, but
no other file may be named like cell data of this mesh.  Missing: cell data of meshes with several blocks (`C68_false`), names of cell data
with dots, and numpy 2 (`C68_numpy2`). -/
theorem C68_round_trip_partial (fio : FloatIO F) (hf : XmlFloats fio) (r : Dolfin.Repr F) (hr : OldRepr fio r) (zero : F → Bool) (base : List Char)
    (hb : PlainBase base) (hne : base ≠ []) (filename : String) (hfn : filename.toList = base ++ ".xml".toList) (m : In F)
    (kind : String × String × List String) (h : DolfinMesh m kind) (hok : Dict.Ok m.cellData)
    (hcd : ∀ e ∈ m.cellData, DataName e.1 ∧ ∃ d, e.2 = [d] ∧ d.len = (dolfinCells kind.2.1 m).length ∧ ∀ n, d ≠ .other n)
    (dir : List (String × List Char)) (hdir : Dict.Ok dir)
    (hother : ∀ f ∈ dir, ∀ n, IsDataFile base f.1 n → n ∈ m.cellData.map (·.1) ∧ f.1.toList = base ++ '_' :: (n.toList ++ ".xml".toList))
    (dir' : List (String × List Char)) (hperm : dir'.Perm (store dir (Dolfin.write fio r zero filename m).1)) :
    (Dolfin.write fio r zero filename m).2 = none ∧
    ∃ cd, Dolfin.read fio filename dir' = .ok ⟨fullRows m.points, kind.2.1, fullRows (dolfinCells kind.2.1 m), cd⟩ ∧
      Dict.Ok cd ∧ ∀ n, Dict.get? cd n = (Dict.get? m.cellData n).map fun l => l.map fullData := by
  have hbase : splitext filename.toList = base := by
    rw [hfn]
    apply splitext_xml
    cases base with
    | nil => exact absurd rfl hne
    | cons c base =>
      have : c ≠ '.' := fun e => hb c (by simp) (by rw [e]; decide)
      simp [this]
  have hw := dolfin_write_eq fio r zero filename m kind h
  rw [hbase] at hw
  have hflat : (m.cellData.flatMap fun nl => nl.2.map fun d => (nl.1, d)).map (·.1) = m.cellData.map (·.1) := by
    have : ∀ l : Dict (List (Data Int F)), (∀ e ∈ l, ∃ d, e.2 = [d]) → (l.flatMap fun nl => nl.2.map fun d => (nl.1, d)).map (·.1) = l.map (·.1) := by
      intro l
      induction l with
      | nil => intro _; rfl
      | cons e l ih =>
        intro hl
        obtain ⟨d, hd⟩ := hl e (by simp)
        rw [List.flatMap_cons, List.map_append, ih (fun e' he => hl e' (by simp [he])), hd]
        rfl
    exact this _ (fun e he => by obtain ⟨_, d, hd, _⟩ := hcd e he; exact ⟨d, hd⟩)
  have hmem : ∀ n d, (n, d) ∈ (m.cellData.flatMap fun nl => nl.2.map fun d => (nl.1, d)) ↔ (n, [d]) ∈ m.cellData := by
    intro n d
    rw [List.mem_flatMap]
    constructor
    · rintro ⟨e, he, hd⟩
      obtain ⟨d', hd', hdd⟩ := List.mem_map.mp hd
      obtain ⟨_, d2, h2, _⟩ := hcd e he
      rw [h2] at hd'
      simp only [List.mem_cons, List.not_mem_nil, or_false] at hd'
      subst hd'
      cases hdd
      rw [← h2]
      exact he
    · intro he
      exact ⟨_, he, by simp⟩
  generalize hl : (m.cellData.flatMap fun nl => nl.2.map fun d => (nl.1, d)) = l at hw hflat hmem
  obtain ⟨d1, d2, d3⟩ := dataFiles_ok fio hf r hr base (dolfinDim zero m) l (by
    intro e he n
    have := (hmem e.1 e.2).mp he
    obtain ⟨_, d', h1, _, h3⟩ := hcd _ this
    simp only [List.cons.injEq, and_true] at h1
    rw [h1]; exact h3 n)
  generalize hfs : (dataFiles r base (dolfinDim zero m) l).1 = fs at hw d2 d3
  rw [hw]
  refine ⟨d1, ?_⟩
  rw [hw] at hperm
  simp only at hperm
  -- the names are distinct
  have hfile : ∀ n, dataFile base n ≠ filename := by
    intro n e
    have := congrArg String.toList e
    rw [hfn] at this
    simp only [dataFile, String.toList_ofList] at this
    have h2 := List.append_cancel_left this
    simp at h2
  have hkeys : Dict.Ok ((filename, meshText fio kind.2.1 m) :: fs) := by
    unfold Dict.Ok Dict.keys
    rw [List.map_cons, d2]
    refine List.nodup_cons.mpr ⟨?_, ?_⟩
    · intro he
      obtain ⟨e, _, h2⟩ := List.mem_map.mp he
      exact hfile _ h2
    · have : l.map (fun e => dataFile base e.1) = (m.cellData.map (·.1)).map (dataFile base) := by rw [← hflat]; simp
      rw [this]
      have hnd : (m.cellData.map (·.1)).Nodup := hok
      refine List.pairwise_map.mpr (hnd.imp ?_)
      intro a b hab e
      exact hab (dataFile_inj e)
  have hsok : Dict.Ok (store dir ((filename, meshText fio kind.2.1 m) :: fs)) := store_ok _ _ hdir
  have hd'ok : Dict.Ok dir' := by
    unfold Dict.Ok Dict.keys
    exact (hperm.map _).nodup_iff.mpr hsok
  have hget : ∀ f s, (f, s) ∈ dir' ↔ Dict.get? (store dir ((filename, meshText fio kind.2.1 m) :: fs)) f = some s := by
    intro f s
    rw [hperm.mem_iff]
    exact ⟨fun h => Dict.get?_of_mem hsok h, fun h => Dict.mem_of_get? h⟩
  have hmesh : Dict.get? dir' filename = some (meshText fio kind.2.1 m) := by
    apply Dict.get?_of_mem hd'ok
    rw [hget, store_get? _ _ hkeys, Dict.get?_cons, if_pos rfl]
  -- which data files are there
  have hdata : ∀ f ∈ dir', ∀ n, IsDataFile base f.1 n → ∃ d, (n, [d]) ∈ m.cellData ∧ f.1 = dataFile base n ∧ FunctionDoc fio f.2 d := by
    intro f hf' n hn
    have hg := (hget f.1 f.2).mp hf'
    rw [store_get? _ _ hkeys, Dict.get?_cons] at hg
    by_cases e : f.1 = filename
    · exfalso
      obtain ⟨_, _, rest, h3⟩ := hn
      rw [e, hfn] at h3
      have h2 := List.append_cancel_left h3
      simp at h2
    · rw [if_neg e] at hg
      cases hfsg : Dict.get? fs f.1 with
      | some s =>
        rw [hfsg] at hg
        cases hg
        obtain ⟨e', he', h1, h2⟩ := d3 _ (Dict.mem_of_get? hfsg)
        have hn' : IsDataFile base f.1 e'.1 := by
          obtain ⟨⟨q1, q2, _⟩, _⟩ := hcd _ ((hmem e'.1 e'.2).mp he')
          simp only at h1
          exact ⟨q1, q2, [], by rw [h1]; simp [dataFile]⟩
        have := isDataFile_unique hb hn hn'
        subst this
        exact ⟨e'.2, (hmem _ _).mp he', h1, h2⟩
      | none =>
        rw [hfsg] at hg
        exfalso
        obtain ⟨q1, q2⟩ := hother f (Dict.mem_of_get? hg) n hn
        have : f.1 = dataFile base n := by
          apply String.toList_inj.mp
          rw [q2]; simp [dataFile]
        have hin : f.1 ∈ fs.map (·.1) := by
          rw [d2, this]
          rw [← hflat] at q1
          obtain ⟨e', he', rfl⟩ := List.mem_map.mp q1
          exact List.mem_map.mpr ⟨e', he', rfl⟩
        exact ((Dict.get?_eq_none_iff fs f.1).mp hfsg) hin
  obtain ⟨root, p1, p2⟩ := meshText_doc fio hf kind m h
  obtain ⟨cd, c1, c2, c3⟩ := C67_read fio base hb hne filename hfn dir' _ hmesh root p1 m.dim kind m.points _ p2 (by
      intro f hf' n hn
      obtain ⟨d, q1, _, q3⟩ := hdata f hf' n hn
      obtain ⟨_, d', e1, e2, _⟩ := hcd _ q1
      simp only [List.cons.injEq, and_true] at e1
      subst e1
      exact ⟨d, q3, e2⟩) (by
      have hp : dir'.Pairwise fun f g => f.1 ≠ g.1 := List.pairwise_map.mp hd'ok
      refine hp.imp_of_mem ?_
      intro f g hf' hg' hne' n hn hn'
      obtain ⟨_, _, q2, _⟩ := hdata f hf' n hn
      obtain ⟨_, _, q2', _⟩ := hdata g hg' n hn'
      exact hne' (q2.trans q2'.symm))
  refine ⟨cd, c1, c2, ?_⟩
  intro n
  cases hm : Dict.get? m.cellData n with
  | none =>
    rw [Option.map_none]
    cases hc : Dict.get? cd n with
    | none => rfl
    | some v =>
      exfalso
      obtain ⟨f, hf', hn, _⟩ := (c3 n v).mp hc
      obtain ⟨d, q1, _, _⟩ := hdata f hf' n hn
      rw [Dict.get?_of_mem hok q1] at hm
      cases hm
  | some v =>
    rw [Option.map_some]
    have hin := Dict.mem_of_get? hm
    obtain ⟨⟨q1, q2, _⟩, d, hd, _⟩ := hcd _ hin
    simp only at hd q1 q2
    subst hd
    have hl' : (n, d) ∈ l := (hmem n d).mpr hin
    have hfs' : dataFile base n ∈ fs.map (·.1) := by rw [d2]; exact List.mem_map.mpr ⟨(n, d), hl', rfl⟩
    obtain ⟨f, hf1, hf2⟩ := List.mem_map.mp hfs'
    have hfd : (f.1, f.2) ∈ dir' := by
      rw [hget, store_get? _ _ hkeys, Dict.get?_cons, if_neg (by rw [hf2]; exact hfile n)]
      have : Dict.Ok fs := (List.nodup_cons.mp hkeys).2
      rw [Dict.get?_of_mem this (show (f.1, f.2) ∈ fs from hf1)]
    have hn : IsDataFile base f.1 n := ⟨q1, q2, [], by rw [hf2]; simp [dataFile]⟩
    obtain ⟨d', r1, _, r3⟩ := hdata _ hfd n hn
    have : [d'] = [d] := by
      have := Dict.get?_of_mem hok r1
      rw [hm] at this
      exact (Option.some.inj this).symm
    cases this
    exact (c3 n _).mpr ⟨_, hfd, hn, d, r3, rfl⟩

/-- A mesh with cell data and a block that is left out. -/
def dolfinOne : In Int :=
  ⟨3, [[0, 0, 0], [5, 0, 0], [5, 7, 0], [0, 7, -9]], [("tetra", [[0, 1, 2, 3]])], [("a", [.ints false [-4]]), ("b c", [.floats [11]])]⟩

example : Dolfin.read .int "m.xml" (store [("m_a.xml", "old".toList), ("x", [])] (Dolfin.write .int ⟨fmtInt, fmtInt⟩ (· == 0) "m.xml" dolfinOne).1) =
    .ok ⟨fullRows dolfinOne.points, "tetra", fullRows [[0, 1, 2, 3]], [("a", [.ints false [some (-4)]]), ("b c", [.floats [some 11]])]⟩ := by decide +kernel

/-- The hypotheses are met, with an old file of the same name in the directory. -/
example : ∃ cd, Dolfin.read .int "m.xml" (store [("m_a.xml", "old".toList), ("x", [])] (Dolfin.write .int ⟨fmtInt, fmtInt⟩ (· == 0) "m.xml" dolfinOne).1) =
    .ok ⟨fullRows dolfinOne.points, "tetra", fullRows [[0, 1, 2, 3]], cd⟩ := by
  obtain ⟨_, cd, h, _⟩ := C68_round_trip_partial .int dolfin_xmlFloats_int ⟨fmtInt, fmtInt⟩ ⟨fun _ => rfl, fun _ => rfl⟩ (· == 0) ['m'] (by unfold PlainBase; decide +kernel) (by simp)
    "m.xml" rfl dolfinOne ("tetrahedron", "tetra", ["v0", "v1", "v2", "v3"])
    ⟨.inr rfl, by decide, ⟨_, List.mem_cons_self, rfl⟩, by decide, by decide, by decide +kernel⟩ (by decide) (by
      intro e he
      simp only [dolfinOne, List.mem_cons, List.not_mem_nil, or_false] at he
      rcases he with rfl | rfl
      · exact ⟨⟨by decide, by decide, by decide⟩, _, rfl, by decide, by intro n; simp⟩
      · exact ⟨⟨by decide, by decide, by decide⟩, _, rfl, by decide, by intro n; simp⟩)
    [("m_a.xml", "old".toList), ("x", [])] (by decide) (by
      intro f hf n hn
      simp only [List.mem_cons, List.not_mem_nil, or_false] at hf
      rcases hf with rfl | rfl
      · have : n = "a" := isDataFile_unique (base := ['m']) (by unfold PlainBase; decide +kernel) hn ⟨by decide, by decide, [], by decide⟩
        subst this
        exact ⟨by decide, by decide⟩
      · obtain ⟨_, _, rest, h3⟩ := hn
        exact absurd h3 (by simp)) _ (List.Perm.refl _)
  exact ⟨cd, h⟩

/-- Since version 2 of numpy the values are printed as `np.int64(3)`, and no file with a non-empty integer array can be read. -/
theorem C68_numpy2 (fio : FloatIO F) (dim : Nat) (u : Bool) (i : Int) (l : List Int) :
    ∃ s, dataText (newRepr fio) dim (.ints u (i :: l)) = .ok s ∧ readFunction fio s = .error .valueError := by
  obtain ⟨s, root, f, h1, h2, h3, h4, h5, h6⟩ := dataText_parse (newRepr fio) dim (.ints u (i :: l)) (if u then "uint" else "int") (by cases u <;> rfl) (by
    intro v hv
    obtain ⟨j, _, rfl⟩ := List.mem_map.mp hv
    intro c hc
    rw [String.toList_ofList] at hc
    have hc' : c ∈ "np.int64(".toList ∨ c ∈ fmtInt j ∨ c ∈ [')'] := by
      have : c ∈ "np.int64(".toList ++ fmtInt j ++ [')'] := hc
      simpa only [List.mem_append, or_assoc] using this
    rcases hc' with hc' | hc' | hc'
    · exact (by decide +kernel : ∀ c ∈ "np.int64(".toList, c ≠ '"' ∧ c ≠ '<' ∧ c ≠ '&' ∧ c ≠ '\n' ∧ c ≠ '\t' ∧ c ≠ '\r') c hc'
    · exact plain_fmtInt j c (by rw [String.toList_ofList]; exact hc')
    · exact (by decide +kernel : ∀ c ∈ [')'], c ≠ '"' ∧ c ≠ '<' ∧ c ≠ '&' ∧ c ≠ '\n' ∧ c ≠ '\t' ∧ c ≠ '\r') c hc')
  refine ⟨s, h1, ?_⟩
  have hsz : intAttr f.attrs "size" = .ok (((i :: l).length : Nat) : Int) := by
    rw [h5]
    simp only [intAttr, attrOf, functionAttrs, List.find?, num, Data.len]
    simp only [show ("type" == "size") = false by decide, show ("dim" == "size") = false by decide, show ("size" == "size") = true by decide, String.toList_ofList, parseInt_fmtNat]
  have hty : attrOf f.attrs "type" = .ok (if u then "uint" else "int") := by rw [h5]; rfl
  have hbad : parseInt ("np.int64(".toList ++ fmtInt i ++ [')']) = none := by
    generalize fmtInt i = t
    have : parseNat ("np.int64(".toList ++ t ++ [')']) = none := by
      unfold parseNat
      rw [if_neg]
      rintro ⟨_, hh⟩
      have := List.all_eq_true.mp hh 'n' (by simp)
      exact absurd this (by decide)
    have e : parseInt ("np.int64(".toList ++ t ++ [')']) = (parseNat ("np.int64(".toList ++ t ++ [')'])).map (fun n => (n : Int)) := by
      rw [show "np.int64(".toList = 'n' :: "p.int64(".toList from by simp]
      rfl
    rw [e, this]
    rfl
  unfold readFunction
  rw [h2]
  simp only [h3, h4, hsz, hty]
  rw [if_neg (by decide), if_pos (by cases u <;> simp), if_neg (by omega)]
  rw [h6]
  simp only [reprs, List.map_cons, List.mapIdx_cons, entities]
  rw [if_neg (by decide)]
  have hi : intAttr (valueAttrs 0 ((newRepr fio).int i)) "index" = .ok ((0 : Nat) : Int) := by
    simp only [intAttr, attrOf, valueAttrs, List.find?, num]
    simp only [show ("index" == "index") = true by decide, String.toList_ofList, parseInt_fmtNat]
  have hv : attrOf (valueAttrs 0 ((newRepr fio).int i)) "value" = .ok (String.ofList ((newRepr fio).int i)) := by
    simp only [attrOf, valueAttrs, List.find?]
    simp only [show ("index" == "value") = false by decide, show ("value" == "value") = true by decide]
  have hn : num parseInt (String.ofList ((newRepr fio).int i)) = .error .valueError := by
    unfold num
    rw [String.toList_ofList]
    show (match parseInt ("np.int64(".toList ++ fmtInt i ++ [')']) with | some x => .ok x | none => .error .valueError) = (.error .valueError : Res Int)
    rw [hbad]
  rw [hi, hv]
  simp only [hn]
  rw [position_nat _ _ (by simp)]

example : Dolfin.read .int "m.xml" (store [] (Dolfin.write .int (newRepr .int) (· == 0) "m.xml" dolfinOne).1) = .error .valueError := by decide +kernel

/-- Meshes without triangles and tetrahedra, and points in other dimensions, are refused before any file is written. -/
theorem C68_rejected (fio : FloatIO F) (r : Dolfin.Repr F) (zero : F → Bool) (filename : String) (m : In F)
    (h : (∀ b ∈ m.blocks, b.1 ≠ "triangle" ∧ b.1 ≠ "tetra") ∨ (m.dim ≠ 2 ∧ m.dim ≠ 3)) :
    Dolfin.write fio r zero filename m = ([], some .writeError) := by
  unfold Dolfin.write
  simp only []
  rcases h with h | h
  · have h1 : m.blocks.any (fun b => decide (b.1 = "tetra")) = false := by
      rw [List.any_eq_false]; intro b hb; simp [(h b hb).2]
    have h2 : m.blocks.any (fun b => decide (b.1 = "triangle")) = false := by
      rw [List.any_eq_false]; intro b hb; simp [(h b hb).1]
    simp [h1, h2]
  · rw [if_pos h, ite_self]

example : Dolfin.write .int ⟨fmtInt, fmtInt⟩ (· == 0) "m.xml" ⟨2, [[0, 0]], [("quad", [])], []⟩ = ([], some .writeError) := by decide +kernel

/-- Cell data that are not numbers are a WriteError, but the mesh file and the files of earlier arrays are written by then. -/
theorem C68_other_data (fio : FloatIO F) (r : Dolfin.Repr F) (zero : F → Bool) (filename : String) (m : In F) (kind : String × String × List String)
    (h : DolfinMesh m kind) (k : Nat) (n : String) (rest : List (Data Int F)) (more : Dict (List (Data Int F)))
    (hm : m.cellData = (n, .other k :: rest) :: more) :
    Dolfin.write fio r zero filename m = ([(filename, meshText fio kind.2.1 m)], some .writeError) := by
  rw [dolfin_write_eq fio r zero filename m kind h, hm]
  rfl

example : (Dolfin.write .int ⟨fmtInt, fmtInt⟩ (· == 0) "m.xml" { dolfinOne with cellData := [("a", [.other 1])] }).2 = some .writeError := by decide +kernel

/-- The files with cell data say of which dimension the mesh is: 2 if the points have two coordinates or all third coordinates are zero. -/
theorem C68_function_dim (r : Dolfin.Repr F) (dim : Nat) (d : Data Int F) (hd : ∀ n, d ≠ .other n) (hl : ∀ v ∈ reprs r d, PlainValue (String.ofList v)) :
    ∃ s root f, dataText r dim d = .ok s ∧ parseXml s = some root ∧ root.kids = [f] ∧ SaysAttr parseInt f "dim" (dim : Int) := by
  obtain ⟨t, ht⟩ : ∃ t, dtypeName d = some t := by
    cases d with
    | ints u l => cases u <;> exact ⟨_, rfl⟩
    | floats l => exact ⟨_, rfl⟩
    | other n => exact absurd rfl (hd n)
  obtain ⟨s, root, f, h1, h2, h3, _, h5, _⟩ := dataText_parse r dim d t ht hl
  exact ⟨s, root, f, h1, h2, h3, String.ofList (fmtNat dim), by simp [XmlElem.attr?, h5, functionAttrs], by rw [String.toList_ofList]; exact parseInt_fmtNat _⟩

/-- The dimension is that of the mesh, unless the mesh is flat. -/
theorem C68_dim_of_mesh (fio : FloatIO F) (r : Dolfin.Repr F) (zero : F → Bool) (filename : String) (m : In F) (kind : String × String × List String)
    (h : DolfinMesh m kind) (n : String) (d : Data Int F) (s : List Char) (dim : Nat)
    (hdim : dim = if m.dim = 2 ∨ ∀ p ∈ m.points, ∀ z ∈ p[2]?, zero z = true then 2 else 3) (hs : dataText r dim d = .ok s) (hm : m.cellData = [(n, [d])]) :
    ∃ t, Dolfin.write fio r zero filename m = ([(filename, t), (String.ofList (splitext filename.toList ++ '_' :: (n.toList ++ ".xml".toList)), s)], none) := by
  have e : dolfinDim zero m = dim := by
    rw [hdim]
    unfold dolfinDim
    have : (m.dim = 2 ∨ (m.points.all fun p => (p[2]?).all zero) = true) ↔ (m.dim = 2 ∨ ∀ p ∈ m.points, ∀ z ∈ p[2]?, zero z = true) := by
      simp only [List.all_eq_true, Option.all_eq_true, Option.mem_def]
    by_cases hc : m.dim = 2 ∨ (m.points.all fun p => (p[2]?).all zero) = true
    · rw [if_pos hc, if_pos (this.mp hc)]
    · rw [if_neg hc, if_neg (fun h' => hc (this.mpr h'))]
  refine ⟨meshText fio kind.2.1 m, ?_⟩
  rw [dolfin_write_eq fio r zero filename m kind h, hm, e]
  simp [dataFiles, hs]

end Meshio.Props
