/-
Whole Gmsh files of version 4.1.
-/
import Verif.Proofs.Gmsh41
namespace Meshio.Gmsh41
open Meshio Types Tables Gmsh Spec

variable {F : Type}

/-! ### Sections -/

theorem stream_length (io : GmshFloat F) (ascii : Bool) (k : Nat) (ts : List (Tok F)) (s rest : List Char)
    (h : NumStream io ascii k ts s rest) : rest.length ≤ s.length := by
  induction ts generalizing s with
  | nil =>
    obtain ⟨w, -, rfl⟩ := h
    simp
  | cons t ts ih =>
    rw [NumStream] at h
    split at h
    · obtain ⟨w, x, c, s', -, -, -, rfl, h⟩ := h
      have := ih _ h
      simp at this ⊢
      omega
    · obtain ⟨-, s', rfl, h⟩ := h
      have := ih _ h
      simp
      omega

/-- The effect of a section on what is collected. -/
def addSec (st : St F) : Msh4Sec F → St F
  | .names l => { st with fieldData := (l.map fun e => (String.ofList e.2.2, e.2.1, e.1)).foldl (fun fd e => Dict.set fd e.1 e.2) st.fieldData }
  | .periodic l => { st with periodic := some l }
  | .nodeData _ d => { st with pointData := Dict.set st.pointData (String.ofList d.name) d.array }
  | .elemData _ d => { st with cellDataRaw := Dict.set st.cellDataRaw (String.ofList d.name) d.array }
  | .other _ _ => st

/-- From here on the loop gives `r`. -/
def Reads (io : GmshFloat F) (ascii : Bool) (k : Nat) (st : St F) (s : List Char) (r : Res (St F)) : Prop :=
  ∀ n, s.length < n → readLoop io ascii k n st s = r

theorem reads_section (io : GmshFloat F) (ascii : Bool) (k : Nat) (st st' : St F) (name s s' : List Char) (r : Res (St F)) (hn : IsTok name)
    (hlen : s'.length ≤ s.length) (h : readSection io ascii k st name s = .ok (st', s')) (hr : Reads io ascii k st' s' r) :
    Reads io ascii k st ('$' :: name ++ '\n' :: s) r := by
  intro n hlt
  cases n with
  | zero => omega
  | succ n =>
    have ht : IsTok ('$' :: name) := isTok_cons (by decide) hn
    rw [readLoop, nextLine_line _ _ (tok_no_nl ht) (by rw [strip_tok ht]; exact ht.1)]
    simp only [List.cons_append, List.head?_cons, List.drop_succ_cons, List.drop_zero]
    rw [if_neg (by simp), strip_tok hn, h]
    simp only
    apply hr
    simp only [List.cons_append, List.length_cons, List.length_append] at hlt
    omega

theorem reads_numSec (io : GmshFloat F) (ascii : Bool) (k : Nat) (st st' : St F) (name : String) (toks : List (Tok F)) (s rest : List Char)
    (r : Res (St F)) (hn : IsTok name.toList) (h : NumSec io ascii k name toks s rest)
    (hs : ∀ b, NumStream io ascii k toks b ("$End".toList ++ name.toList ++ '\n' :: rest) →
      readSection io ascii k st name.toList b = .ok (st', rest)) (hr : Reads io ascii k st' rest r) : Reads io ascii k st s r := by
  obtain ⟨b, rfl, hb⟩ := h
  refine reads_section io ascii k st st' name.toList b rest r hn ?_ (hs b hb) hr
  have := stream_length io ascii k toks b _ hb
  simp at this
  omega

theorem nums_ok {lim : Nat} {ascii : Bool} {n : Nat} {nums : List Int} (h : Msh4Nums lim ascii n nums) :
    nums.length = n ∧ (ascii = true → ∀ i ∈ nums, i.natAbs < lim) ∧
      (ascii = false → (∀ i ∈ nums, IsInt 4 i) ∧ nums = (List.range n).map fun (i : Nat) => (1 + i : Int)) := by
  obtain ⟨h1, h2⟩ := h
  refine ⟨h1, ?_, ?_⟩
  · rintro rfl
    rw [if_pos rfl] at h2
    exact h2
  · rintro rfl
    rw [if_neg (by simp)] at h2
    refine ⟨?_, h2.1⟩
    intro i hi
    rw [h2.1] at hi
    obtain ⟨j, hj, rfl⟩ := List.mem_map.1 hi
    rw [List.mem_range] at hj
    unfold IsInt
    have : (256 ^ 4 : Nat) = 4294967296 := by decide
    rw [this]
    omega

theorem reads_sec (io : GmshFloat F) (ascii : Bool) (k : Nat) (hk : k = 1 ∨ k = 2 ∨ k = 4 ∨ k = 8) (n m : Nat)
    (st : St F) (x : Msh4Sec F) (hx : x.Ok io.lim ascii n m) (s rest : List Char) (hs : x.Says io ascii k s rest) (r : Res (St F))
    (hr : Reads io ascii k (addSec st x) rest r) : Reads io ascii k st s r := by
  cases x with
  | names l =>
    have e : s = '$' :: "PhysicalNames".toList ++ '\n' ::
        (fmtNat l.length ++ '\n' :: (linesText (l.map mshName) ++ (linesText ["$EndPhysicalNames".toList] ++ rest))) := by
      rw [show s = _ from hs]
      simp only [linesText_append, linesText_cons, List.append_assoc, List.cons_append, List.nil_append]
      rfl
    rw [e]
    refine reads_section io ascii k st _ _ _ rest r ⟨by decide, by decide⟩ (by simp; omega) ?_ hr
    rw [readSection, if_pos rfl, readNames_lines _ l hx]
    rfl
  | periodic l =>
    refine reads_numSec io ascii k st _ "Periodic" _ s rest r Gmsh22.tok_periodic hs ?_ hr
    intro b hb
    rw [readSection, if_neg (by decide), if_neg (by decide), if_neg (by decide), if_neg (by decide), if_pos rfl,
      readPeriodic_stream io ascii k hk l hx b rest hb]
    rfl
  | nodeData nums d =>
    obtain ⟨hd, hn⟩ := hx
    obtain ⟨n1, n2, n3⟩ := nums_ok hn
    have e : s = _ := (show s = _ from hs).trans (dataText_eq io ascii "NodeData".toList nums d rest)
    rw [e]
    refine reads_section io ascii k st _ _ _ rest r Gmsh22.tok_nodeData (by simp) ?_ hr
    rw [readSection, if_neg (by decide), if_neg (by decide), if_neg (by decide), if_neg (by decide), if_neg (by decide), if_pos rfl,
      readData_body io ascii _ Gmsh22.tok_nodeData nums d n hd n1 n2 n3]
    rfl
  | elemData nums d =>
    obtain ⟨hd, hn⟩ := hx
    obtain ⟨n1, n2, n3⟩ := nums_ok hn
    have e : s = _ := (show s = _ from hs).trans (dataText_eq io ascii "ElementData".toList nums d rest)
    rw [e]
    refine reads_section io ascii k st _ _ _ rest r Gmsh22.tok_elemData (by simp) ?_ hr
    rw [readSection, if_neg (by decide), if_neg (by decide), if_neg (by decide), if_neg (by decide), if_neg (by decide),
      if_neg (by decide), if_pos rfl, readData_body io ascii _ Gmsh22.tok_elemData nums d m hd n1 n2 n3]
    rfl
  | other name lines =>
    obtain ⟨ht, hkn, hl⟩ := hx
    have e : s = '$' :: name ++ '\n' :: (linesText lines ++ (linesText ["$End".toList ++ name] ++ rest)) := by
      rw [show s = _ from hs]
      simp only [linesText_append, linesText_cons, List.append_assoc, List.cons_append, List.nil_append]
    rw [e]
    refine reads_section io ascii k st _ _ _ rest r ht (by simp; omega) ?_ hr
    have hne : ∀ k ∈ msh4Known, name ≠ k.toList := by
      rintro k hk' rfl
      exact hkn (by rw [String.ofList_toList]; exact hk')
    rw [readSection, if_neg (hne _ (by decide)), if_neg (hne _ (by decide)), if_neg (hne _ (by decide)),
      if_neg (hne _ (by decide)), if_neg (hne _ (by decide)), if_neg (hne _ (by decide)), if_neg (hne _ (by decide)),
      fastForward_lines name ht lines hl]
    rfl

theorem reads_secs (io : GmshFloat F) (ascii : Bool) (k : Nat) (hk : k = 1 ∨ k = 2 ∨ k = 4 ∨ k = 8) (n m : Nat)
    (l : List (Msh4Sec F)) (hl : ∀ x ∈ l, x.Ok io.lim ascii n m) (st : St F) (s rest : List Char) (hs : msh4Says io ascii k l s rest)
    (r : Res (St F)) (hr : Reads io ascii k (l.foldl addSec st) rest r) : Reads io ascii k st s r := by
  induction l generalizing st s with
  | nil =>
    have : s = rest := hs
    rw [this]
    exact hr
  | cons x l ih =>
    obtain ⟨s', h1, h2⟩ := hs
    apply reads_sec io ascii k hk n m st x (hl x (by simp)) s s' h1
    exact ih (fun y hy => hl y (by simp [hy])) _ s' h2 hr

theorem reads_end (io : GmshFloat F) (ascii : Bool) (k : Nat) (st : St F) : Reads io ascii k st [] (.ok st) := by
  intro n hn
  cases n with
  | zero => rfl
  | succ n => rfl

theorem addSec_fields (l : List (Msh4Sec F)) (st : St F) :
    (l.foldl addSec st).nodes = st.nodes ∧ (l.foldl addSec st).ents = st.ents ∧ (l.foldl addSec st).cells = st.cells ∧
    (l.foldl addSec st).fieldData = ((l.flatMap Msh4Sec.name?).map fun e => (String.ofList e.2.2, e.2.1, e.1)).foldl
      (fun fd e => Dict.set fd e.1 e.2) st.fieldData ∧
    (l.foldl addSec st).pointData = ((l.filterMap Msh4Sec.nodeData?).map fun d => (String.ofList d.name, d.array)).foldl
      (fun fd e => Dict.set fd e.1 e.2) st.pointData ∧
    (l.foldl addSec st).cellDataRaw = ((l.filterMap Msh4Sec.elemData?).map fun d => (String.ofList d.name, d.array)).foldl
      (fun fd e => Dict.set fd e.1 e.2) st.cellDataRaw ∧
    (l.foldl addSec st).periodic = ((l.filterMap Msh4Sec.periodic?).getLast?).or st.periodic := by
  induction l generalizing st with
  | nil => exact ⟨rfl, rfl, rfl, rfl, rfl, rfl, rfl⟩
  | cons x l ih =>
    obtain ⟨h1, h2, h3, h5, h6, h7, h8⟩ := ih (addSec st x)
    rw [List.foldl_cons]
    cases x with
    | names n =>
      refine ⟨h1, h2, h3, ?_, h6, h7, h8⟩
      rw [h5, List.flatMap_cons, List.map_append, List.foldl_append]
      rfl
    | periodic p =>
      refine ⟨h1, h2, h3, h5, h6, h7, ?_⟩
      rw [h8, List.filterMap_cons, show Msh4Sec.periodic? (.periodic p) = some p from rfl]
      simp only [List.getLast?_cons]
      cases (l.filterMap Msh4Sec.periodic?).getLast? <;> rfl
    | nodeData nums d =>
      refine ⟨h1, h2, h3, h5, ?_, h7, h8⟩
      rw [h6, List.filterMap_cons, show Msh4Sec.nodeData? (.nodeData nums d) = some d from rfl]
      rfl
    | elemData nums d =>
      refine ⟨h1, h2, h3, h5, h6, ?_, h8⟩
      rw [h7, List.filterMap_cons, show Msh4Sec.elemData? (.elemData nums d) = some d from rfl]
      rfl
    | other n ls => exact ⟨h1, h2, h3, h5, h6, h7, h8⟩

/-! ### The end -/

/-- What is collected of a file. -/
structure Final (f : Msh4File F) (st : St F) : Prop where
  nodes : st.nodes = some ⟨f.ids.map Int.ofNat, f.points, f.mesh.dimTags⟩
  cells : st.cells = some ⟨f.mesh.cells, f.mesh.physical, f.mesh.geometrical, f.mesh.sets, f.mesh.bounding⟩
  fieldData : st.fieldData = f.mesh.fieldData
  pointData : st.pointData = f.mesh.pointData
  cellDataRaw : st.cellDataRaw = f.elemData.map fun d => (String.ofList d.name, d.array)
  periodic : st.periodic = f.mesh.periodic

theorem cellDataFromRaw_cut {α : Type} (lens : List Nat) (v : List α) (hne : lens ≠ []) (h : v.length = lens.sum) :
    cellDataFromRaw lens v = cut lens v ∧ (cut lens v).map (·.length) = lens := by
  have key : ∀ (lens : List Nat) (v : List α), v.length = lens.sum → (cut lens v).map (·.length) = lens ∧ (cut lens v).flatten = v := by
    intro lens
    induction lens with
    | nil =>
      intro v h
      have : v = [] := List.length_eq_zero_iff.1 (by simpa using h)
      subst this
      exact ⟨rfl, rfl⟩
    | cons n lens ih =>
      intro v h
      rw [List.sum_cons] at h
      obtain ⟨h1, h2⟩ := ih (v.drop n) (by rw [List.length_drop]; omega)
      rw [cut]
      refine ⟨?_, ?_⟩
      · rw [List.map_cons, h1, List.length_take, Nat.min_eq_left (by omega)]
      · rw [List.flatten_cons, h2, List.take_append_drop]
  obtain ⟨h1, h2⟩ := key lens v h
  have := cellDataFromRaw_flatten (cut lens v) (by
    intro e
    rw [e] at h1
    exact hne h1.symm)
  rw [h1, h2] at this
  exact ⟨this, h1⟩

theorem get?_ofList {α β : Type} (l : List α) (g : α → List Char) (v : α → β) (s : String) (h : s.toList ∉ l.map g) :
    Dict.get? (l.map fun a => (String.ofList (g a), v a)) s = none := by
  rw [Dict.get?_eq_none_iff]
  intro hm
  obtain ⟨x, hx, hxe⟩ := List.mem_map.1 hm
  obtain ⟨d, hd, rfl⟩ := List.mem_map.1 hx
  refine h (List.mem_map.2 ⟨d, hd, ?_⟩)
  rw [← hxe, String.toList_ofList]

theorem names0_sub (f : Msh4File F) : ∀ e ∈ f.names0, e ∈ f.names := by
  intro e he
  unfold Msh4File.names Msh4File.secs
  rw [List.flatMap_append]
  exact List.mem_append_left _ he

theorem lens_cells (f : Msh4File F) : (f.mesh.cells.map fun b => b.2.length) = f.blocks.map fun b => b.elems.length := by
  show (f.blocks.map _).map _ = _
  rw [List.map_map]
  apply List.map_congr_left
  intro b _
  simp

theorem finish_ok (lim : Nat) (ascii : Bool) (k : Nat) (f : Msh4File F) (hf : f.Ok lim ascii k) (st : St F) (hst : Final f st) :
    finish st = .ok f.mesh := by
  have hlen : f.ids.length = f.points.length := by
    unfold Msh4File.ids Msh4File.points
    simp only [List.length_flatMap, List.length_map]
  have hND : ∀ d ∈ f.nodeData, d.rows.length = f.points.length := by
    intro d hd
    obtain ⟨x, hx, hxd⟩ := List.mem_filterMap.1 hd
    have := hf.secs x hx
    cases x with
    | nodeData nums d' =>
      cases hxd
      exact this.1.rows.1
    | _ => cases hxd
  have hED : ∀ d ∈ f.elemData, d.rows.length = f.numElems := by
    intro d hd
    obtain ⟨x, hx, hxd⟩ := List.mem_filterMap.1 hd
    have := hf.secs x hx
    cases x with
    | elemData nums d' =>
      cases hxd
      exact this.1.rows.1
    | _ => cases hxd
  have hcd : ∀ d ∈ f.elemData, cellDataFromRaw (f.blocks.map fun b => b.elems.length) d.rows =
      cut (f.blocks.map fun b => b.elems.length) d.rows ∧ (cut (f.blocks.map fun b => b.elems.length) d.rows).map (·.length) =
        f.blocks.map fun b => b.elems.length := by
    intro d hd
    apply cellDataFromRaw_cut
    · intro h0
      rw [List.map_eq_nil_iff] at h0
      rw [hf.noElems h0] at hd
      simp at hd
    · exact hED d hd
  have hcdm : (st.cellDataRaw.map fun kv => (kv.1, kv.2.tail, cellDataFromRaw (f.mesh.cells.map fun b => b.2.length) kv.2.rows)) = f.mesh.cellData := by
    rw [hst.cellDataRaw, lens_cells, List.map_map]
    show _ = f.elemData.map fun d => (String.ofList d.name, d.array.tail, cut (f.blocks.map fun b => b.elems.length) d.rows)
    apply List.map_congr_left
    intro d hd
    simp only [Function.comp_apply]
    rw [show d.array.rows = d.rows from rfl, (hcd d hd).1]
  unfold finish
  rw [hst.cells]
  simp only
  rw [hst.nodes]
  simp only
  rw [hcdm]
  rw [if_neg, if_neg, if_neg, if_neg, if_neg, if_neg]
  · rw [hst.pointData, hst.fieldData, hst.periodic]
    rfl
  · rintro ⟨-, h⟩
    apply h
    rw [lens_cells]
    show (f.blocks.map _).map _ = _
    rw [List.map_map]
    apply List.map_congr_left
    intro b _
    simp
  · rintro ⟨h0, h⟩
    apply h
    rw [lens_cells]
    have e : f.mesh.physical = if ∀ b ∈ f.blocks, f.phys b = [] then [] else f.blocks.map fun b => b.elems.map fun _ => (f.phys b).headD 0 := rfl
    rw [e] at h0 ⊢
    split at h0
    · exact absurd rfl h0
    · rename_i hc
      rw [if_neg hc, List.map_map]
      apply List.map_congr_left
      intro b _
      simp
  · rw [List.any_eq_true]
    rintro ⟨kv, hkv, hne⟩
    rw [decide_eq_true_iff] at hne
    apply hne
    rw [lens_cells]
    obtain ⟨d, hd, rfl⟩ := List.mem_map.1 (show kv ∈ f.elemData.map _ from hkv)
    exact (hcd d hd).2
  · simp only [ne_eq, Decidable.not_not]
    show (f.nodes.flatMap _).length = f.points.length
    unfold Msh4File.points
    simp only [List.length_flatMap, List.length_map]
  · rw [List.any_eq_true]
    rintro ⟨kv, hkv, hne⟩
    rw [decide_eq_true_iff] at hne
    apply hne
    rw [hst.pointData] at hkv
    obtain ⟨d, hd, rfl⟩ := List.mem_map.1 (show kv ∈ f.nodeData.map _ from hkv)
    exact hND d hd
  · have h1 : Dict.get? st.pointData "gmsh:dim_tags" = none := by
      rw [hst.pointData]
      exact get?_ofList f.nodeData (·.name) (·.array) _ hf.nodeData.2
    have h2 : Dict.get? st.cellDataRaw "gmsh:physical" = none := by
      rw [hst.cellDataRaw]
      exact get?_ofList f.elemData (·.name) (·.array) _ hf.elemData.2.1
    have h3 : Dict.get? st.cellDataRaw "gmsh:geometrical" = none := by
      rw [hst.cellDataRaw]
      exact get?_ofList f.elemData (·.name) (·.array) _ hf.elemData.2.2
    have h4 : Dict.get? f.mesh.sets "gmsh:bounding_entities" = none := by
      refine get?_ofList f.names0 (fun e => e.2.2) _ _ ?_
      intro hm
      obtain ⟨e, he, hee⟩ := List.mem_map.1 hm
      exact hf.names.2 (List.mem_map.2 ⟨e, names0_sub f e he, hee⟩)
    rw [h1, h2, h3, h4]
    simp

theorem start_header (ascii : Bool) (k : Nat) (hk : k = 1 ∨ k = 2 ∨ k = 4 ∨ k = 8) (s : List Char) :
    start (msh4Header ascii k ++ s) = .ok ((.v41, (k : Int), ascii), s) := by
  have key : ∀ (line d : List Char) (z : Int), ascii = true → '\n' ∉ line → splitWs (line ++ ['\n']) = ["4.1".toList, ['0'], d] → toInt d = .ok z →
      start (("$MeshFormat".toList ++ '\n' :: (line ++ '\n' :: linesText ["$EndMeshFormat".toList])) ++ s) = .ok ((.v41, z, ascii), s) := by
    intro line d z ha h1 h2 h3
    have e : ("$MeshFormat".toList ++ '\n' :: (line ++ '\n' :: linesText ["$EndMeshFormat".toList])) ++ s =
        "$MeshFormat".toList ++ '\n' :: (line ++ '\n' :: (linesText ["$End".toList ++ "MeshFormat".toList] ++ s)) := by
      simp only [List.append_assoc, List.cons_append]
      rfl
    rw [e, ha]
    exact Gmsh22.start_of _ "4.1".toList z true s .v41 (Gmsh22.readHeader_text line _ d z h1 h2 h3 s) (by decide)
  have key2 : ∀ (line d : List Char) (z : Int), ascii = false → '\n' ∉ line → splitWs (line ++ ['\n']) = ["4.1".toList, ['1'], d] → toInt d = .ok z →
      start (("$MeshFormat".toList ++ '\n' :: (line ++ '\n' :: (putInt 4 1 ++ '\n' :: linesText ["$EndMeshFormat".toList]))) ++ s) = .ok ((.v41, z, ascii), s) := by
    intro line d z ha h1 h2 h3
    have e : ("$MeshFormat".toList ++ '\n' :: (line ++ '\n' :: (putInt 4 1 ++ '\n' :: linesText ["$EndMeshFormat".toList]))) ++ s =
        "$MeshFormat".toList ++ '\n' :: (line ++ '\n' :: (putInt 4 1 ++ '\n' :: (linesText ["$End".toList ++ "MeshFormat".toList] ++ s))) := by
      simp only [List.append_assoc, List.cons_append]
      rfl
    rw [e, ha]
    exact Gmsh22.start_of _ "4.1".toList z false s .v41 (Gmsh22.readHeader_bin line _ d z h1 h2 h3 s) (by decide)
  cases ascii with
  | true =>
    have e : msh4Header true k = "$MeshFormat".toList ++ '\n' :: (("4.1 0 ".toList ++ fmtNat k) ++ '\n' :: linesText ["$EndMeshFormat".toList]) := by
      unfold msh4Header
      simp only [if_true, linesText_cons, List.append_assoc, List.cons_append, List.nil_append]
      rfl
    rw [e]
    rcases hk with rfl | rfl | rfl | rfl
    · exact key _ ['1'] 1 rfl (by decide) (by decide) (by decide)
    · exact key _ ['2'] 2 rfl (by decide) (by decide) (by decide)
    · exact key _ ['4'] 4 rfl (by decide) (by decide) (by decide)
    · exact key _ ['8'] 8 rfl (by decide) (by decide) (by decide)
  | false =>
    have e : msh4Header false k = "$MeshFormat".toList ++ '\n' :: (("4.1 1 ".toList ++ fmtNat k) ++ '\n' :: (putInt 4 1 ++ '\n' :: linesText ["$EndMeshFormat".toList])) := by
      unfold msh4Header
      simp only [Bool.false_eq_true, if_false, linesText_cons, List.append_assoc, List.cons_append, List.nil_append]
      rfl
    rw [e]
    rcases hk with rfl | rfl | rfl | rfl
    · exact key2 _ ['1'] 1 rfl (by decide) (by decide) (by decide)
    · exact key2 _ ['2'] 2 rfl (by decide) (by decide) (by decide)
    · exact key2 _ ['4'] 4 rfl (by decide) (by decide) (by decide)
    · exact key2 _ ['8'] 8 rfl (by decide) (by decide) (by decide)

theorem read_ok (io : GmshFloat F) (ascii : Bool) (k : Nat) (f : Msh4File F) (hf : f.Ok io.lim ascii k) (s : List Char)
    (hs : f.Says io ascii k s) : Gmsh41.read io s = .ok f.mesh := by
  obtain ⟨s1, s2, s3, s4, s5, s6, s7, rfl, p1, p2, p3, p4, p5, p6, p7⟩ := hs
  have hk := hf.size
  have hsec : ∀ x ∈ f.secs, x.Ok io.lim ascii f.points.length f.numElems := hf.secs
  obtain ⟨a1, a2, a3, a5, a6, a7, a8⟩ := addSec_fields f.pre ({} : St F)
  generalize hA : f.pre.foldl addSec ({} : St F) = A at *
  obtain ⟨b1, b2, b3, b5, b6, b7, b8⟩ := addSec_fields f.mid0 { A with ents := f.ents.map sortEnts }
  generalize hB : f.mid0.foldl addSec { A with ents := f.ents.map sortEnts } = B at *
  obtain ⟨c1, c2, c3, c5, c6, c7, c8⟩ := addSec_fields f.mid { B with nodes := some ⟨f.ids.map Int.ofNat, f.points, f.mesh.dimTags⟩ }
  generalize hC : f.mid.foldl addSec { B with nodes := some ⟨f.ids.map Int.ofNat, f.points, f.mesh.dimTags⟩ } = C at *
  obtain ⟨d1, d2, d3, d5, d6, d7, d8⟩ := addSec_fields f.post
    { C with cells := some ⟨f.mesh.cells, f.mesh.physical, f.mesh.geometrical, f.mesh.sets, f.mesh.bounding⟩ }
  generalize hD : f.post.foldl addSec
    { C with cells := some ⟨f.mesh.cells, f.mesh.physical, f.mesh.geometrical, f.mesh.sets, f.mesh.bounding⟩ } = D at *
  simp only at b1 b2 b3 b5 b6 b7 b8 c1 c2 c3 c5 c6 c7 c8 d1 d2 d3 d5 d6 d7 d8
  have hCfd : C.fieldData = f.names0.map fun e => (String.ofList e.2.2, e.2.1, e.1) := by
    rw [c5, b5, a5, ← List.foldl_append, ← List.foldl_append, ← List.map_append, ← List.map_append, ← List.flatMap_append, ← List.flatMap_append,
      ← List.append_assoc]
    show List.foldl _ [] (f.names0.map _) = _
    rw [Gmsh22.foldl_set_fresh, List.nil_append]
    rw [List.map_nil, List.nil_append, List.map_map]
    refine Gmsh22.nodup_ofList (fun e : Int × Int × List Char => e.2.2) _ ?_
    have := hf.names.1
    unfold Msh4File.names Msh4File.secs at this
    rw [List.flatMap_append, List.map_append] at this
    exact (List.nodup_append.1 this).1
  have hR : Reads io ascii k ({} : St F) s1 (.ok D) := by
    apply reads_secs io ascii k hk _ _ f.pre (fun x hx => hsec x (by simp [Msh4File.secs, hx])) _ s1 s2 p1
    rw [hA]
    have hent : ∀ r, Reads io ascii k { A with ents := f.ents.map sortEnts } s3 r → Reads io ascii k A s2 r := by
      intro r hr
      cases hE : f.ents with
      | none =>
        rw [hE] at p2 hr
        have : s2 = s3 := p2
        rw [this]
        have hA' : A = { A with ents := none } := by
          have : A.ents = none := a2
          cases A
          simp only at this
          subst this
          rfl
        rw [hA']
        exact hr
      | some l =>
        rw [hE] at p2 hr
        refine reads_numSec io ascii k A _ "Entities" _ s2 s3 r tok_entities p2 ?_ hr
        intro b hb
        rw [readSection, if_neg (by decide), if_pos rfl, readEntities_stream io ascii k hk l (hf.ents l hE).1 b s3 hb]
        rfl
    apply hent
    apply reads_secs io ascii k hk _ _ f.mid0 (fun x hx => hsec x (by simp [Msh4File.secs, hx])) _ s3 s4 p3
    rw [hB]
    refine reads_numSec io ascii k B { B with nodes := some ⟨f.ids.map Int.ofNat, f.points, f.mesh.dimTags⟩ } "Nodes" _ s4 s5 _ Gmsh22.tok_nodes p4 ?_ ?_
    · intro b hb
      rw [readSection, if_neg (by decide), if_neg (by decide), if_pos rfl, readNodes_stream io ascii k hk f hf.nodes.2.2.2 b s5 hb]
    apply reads_secs io ascii k hk _ _ f.mid (fun x hx => hsec x (by simp [Msh4File.secs, hx])) _ s5 s6 p5
    rw [hC]
    refine reads_numSec io ascii k C
      { C with cells := some ⟨f.mesh.cells, f.mesh.physical, f.mesh.geometrical, f.mesh.sets, f.mesh.bounding⟩ } "Elements" _ s6 s7 _ Gmsh22.tok_elements p6 ?_ ?_
    · intro b hb
      rw [readSection, if_neg (by decide), if_neg (by decide), if_neg (by decide), if_pos rfl, c1]
      simp only
      rw [hCfd, c2, b2, readElements_stream io ascii k f io.lim hf b s7 hb]
    apply reads_secs io ascii k hk _ _ f.post (fun x hx => hsec x (by simp [Msh4File.secs, hx])) _ s7 [] p7
    rw [hD]
    exact reads_end io ascii k D
  have hfin : Final f D := by
    refine ⟨?_, d3, ?_, ?_, ?_, ?_⟩
    · rw [d1, c1]
    · rw [d5, hCfd]
      show _ = f.names.map fun e => (String.ofList e.2.2, e.2.1, e.1)
      have hn : f.names = f.names0 ++ f.post.flatMap Msh4Sec.name? := by
        unfold Msh4File.names Msh4File.names0 Msh4File.secs; rw [List.flatMap_append]
      rw [hn, List.map_append, Gmsh22.foldl_set_fresh]
      rw [← List.map_append, ← List.map_append, ← hn, List.map_map]
      exact Gmsh22.nodup_ofList (fun e : Int × Int × List Char => e.2.2) _ hf.names.1
    · rw [d6, c6, b6, a6, ← List.foldl_append, ← List.foldl_append, ← List.foldl_append, ← List.map_append, ← List.map_append, ← List.map_append,
        ← List.filterMap_append, ← List.filterMap_append, ← List.filterMap_append]
      have hn : f.nodeData = (f.pre ++ (f.mid0 ++ (f.mid ++ f.post))).filterMap Msh4Sec.nodeData? := by
        unfold Msh4File.nodeData Msh4File.secs; rw [List.append_assoc, List.append_assoc]
      rw [← hn]
      show List.foldl _ [] _ = _
      rw [Gmsh22.foldl_set_fresh, List.nil_append]
      · rfl
      rw [List.map_nil, List.nil_append, List.map_map]
      exact Gmsh22.nodup_ofList (fun e : MshData F => e.name) _ hf.nodeData.1
    · rw [d7, c7, b7, a7, ← List.foldl_append, ← List.foldl_append, ← List.foldl_append, ← List.map_append, ← List.map_append, ← List.map_append,
        ← List.filterMap_append, ← List.filterMap_append, ← List.filterMap_append]
      have hn : f.elemData = (f.pre ++ (f.mid0 ++ (f.mid ++ f.post))).filterMap Msh4Sec.elemData? := by
        unfold Msh4File.elemData Msh4File.secs; rw [List.append_assoc, List.append_assoc]
      rw [← hn]
      show List.foldl _ [] _ = _
      rw [Gmsh22.foldl_set_fresh, List.nil_append]
      rw [List.map_nil, List.nil_append, List.map_map]
      exact Gmsh22.nodup_ofList (fun e : MshData F => e.name) _ hf.elemData.1
    · rw [d8, c8, b8, a8]
      show _ = (f.secs.filterMap Msh4Sec.periodic?).getLast?
      unfold Msh4File.secs
      rw [List.filterMap_append, List.filterMap_append, List.filterMap_append, List.getLast?_append, List.getLast?_append, List.getLast?_append]
      cases (List.filterMap Msh4Sec.periodic? f.post).getLast? <;> cases (List.filterMap Msh4Sec.periodic? f.mid).getLast? <;>
        cases (List.filterMap Msh4Sec.periodic? f.mid0).getLast? <;> cases (List.filterMap Msh4Sec.periodic? f.pre).getLast? <;> rfl
  unfold Gmsh41.read
  rw [start_header ascii k hk s1]
  simp only
  unfold readBuffer
  rw [hR (s1.length + 1) (by omega)]
  exact finish_ok io.lim ascii k f hf D hfin

end Meshio.Gmsh41
