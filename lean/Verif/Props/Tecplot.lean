/-
C38: Tecplot files.
-/
import Verif.Proofs.TecplotCells

namespace Meshio
namespace Props
open Tecplot
open Meshio.Spec.Tecplot

variable {F : Type}

/-- Integers as numbers, for examples. -/
def tecInt : TecIO Int where
  toFloatIO := FloatIO.int
  upper_num := fun x => by
    have : Tecplot.upper (fmtInt x) = fmtInt x := by
      unfold Tecplot.upper
      have : (fmtInt x).map Char.toUpper = (fmtInt x).map id := by
        apply List.map_congr_left
        intro c hc
        rcases fmtInt_chars hc with h | h
        · subst h; decide
        · exact isDigit_toUpper c h
      rw [this, List.map_id]
    show (parseInt (Tecplot.upper (fmtInt x))).isSome = true
    rw [this, parseInt_fmtInt]
    rfl
  no_hash := fun x h => absurd (List.mem_of_mem_head? h) (not_mem_fmtInt (by decide) (by decide) x)
  no_datapacking := by decide +kernel
  no_varlocation := by decide +kernel

/-- Reading a Tecplot file: names in any of the accepted notations, a zone record with any order and spelling of its entries, data
in blocks or point by point, comments anywhere.  What is returned is what the file says. -/
theorem C38_read (io : TecIO F) (f : File) (ls : List (List Char)) (hls : ls.filter (fun l => decide (¬ Comment l)) = f.lines)
    (hnl : ∀ l ∈ ls, '\n' ∉ l) (names : List VName) (r : Record) (nn nc : Nat) (block : Bool) (type : List Char) (vars : List (Var F))
    (rows : List (List Int)) (hf : f.Says io names r nn nc block type vars rows) (hnd : (vars.map (·.name)).Nodup)
    (points : List (List F)) (used : List String) (hp : Points vars points used) (t : String) (ht : typeOf type = some t) :
    read io (linesText ls) = .ok ⟨points, t, rows, pointData vars used, cellData vars⟩ :=
  read_file io f ls hls hnl names r nn nc block type vars rows hf hnd points used hp t ht

/-- Names and values. -/
theorem varsOf_pairs (dim : Nat) (points : List (List F)) (pd cd' : Dict (Arr F)) :
    Tecplot.varsOf (pairsOf (coordinates dim points ++ (pd.filter fun kv => decide (¬ Reserved kv.1)).flatMap fun kv => Spec.Tecplot.varsOf false kv.1 kv.2))
      (pairsOf (cd'.flatMap fun kv => Spec.Tecplot.varsOf true kv.1 kv.2)) = variables dim points pd cd' := by
  unfold Tecplot.varsOf variables
  rw [back false, back true]
  · intro v hv
    obtain ⟨kv, _, hv⟩ := List.mem_flatMap.mp hv
    exact varsOf_cell_eq true _ _ v hv
  · intro v hv
    rcases List.mem_append.mp hv with hv | hv
    · unfold coordinates at hv
      simp only [List.mem_append, List.mem_cons, List.mem_nil_iff, or_false] at hv
      rcases hv with (rfl | rfl) | hv
      · rfl
      · rfl
      · split at hv
        · rw [List.mem_singleton.mp hv]
        · cases hv
    · obtain ⟨kv, _, hv⟩ := List.mem_flatMap.mp hv
      exact varsOf_cell_eq false _ _ v hv

theorem tecplot_pos (cells : List Blk) (keep : String → Bool) (elem : String → List Int → List Int) (h : ∃ b ∈ cells, keep b.type = true ∧ b.rows ≠ []) :
    0 < (elements cells keep elem).length := by
  obtain ⟨b, hb, hk, hr⟩ := h
  obtain ⟨r, rs, hrs⟩ := List.exists_cons_of_ne_nil hr
  apply List.length_pos_of_mem (a := elem b.type r)
  unfold elements cellList
  apply List.mem_map.mpr
  refine ⟨(b.type, r), ?_, rfl⟩
  apply List.mem_flatMap.mpr
  exact ⟨b, List.mem_filter.mpr ⟨hb, hk⟩, by rw [hrs]; simp⟩

theorem zoneWidth_pos (zt : String) (n : Nat) (h : zoneWidth zt = some n) : 0 < n := by
  unfold zoneWidth at h
  repeat' split at h
  all_goals first | (cases h; decide) | cases h

/-- What is written: the zone says the numbers of points and elements, the variables are the coordinates, the data of the points
and the data of the cells (columns of an array become variables of their own), each in its location, and the elements are the
cells of the written blocks. -/
theorem C38_write (io : TecIO F) (version : List Char) (hver : '\n' ∉ version) (dim : Nat) (points : List (List F)) (cells : List Blk) (pd : Dict (Arr F))
    (cd : Dict (List (Arr F))) (zt : String) (keep : String → Bool) (elem : String → List Int → List Int) (hz : ZoneFor cells zt keep elem)
    (cd' : Dict (Arr F)) (h : Writable dim points cells keep pd cd cd') (hnames : ∀ v ∈ variables dim points pd cd', Word v.name.toList) :
    ∃ (f : File) (names : List VName) (r : Record), write io version dim points cells pd cd = .ok (linesText f.lines) ∧ (∀ l ∈ f.lines, ¬ Comment l ∧ '\n' ∉ l) ∧
      f.Says io names r points.length (elements cells keep elem).length true zt.toList (variables dim points pd cd') (elements cells keep elem) := by
  obtain ⟨l1, l2⟩ := variables_lengths dim points cells keep pd cd cd' h
  have hv := varsOf_pairs dim points pd cd'
  have hcv := cellVars_eq (written cells keep) cd cd' h.h_cd (fun kv hkv => by
    obtain ⟨arrs, a1, a2, _⟩ := h.h_arr kv hkv
    exact ⟨arrs, a1, a2⟩)
  have hpv := pointVars_eq dim points pd h.h_dim
  have hne : pairsOf (coordinates dim points ++ (pd.filter fun kv => decide (¬ Reserved kv.1)).flatMap fun kv => Spec.Tecplot.varsOf false kv.1 kv.2) ≠ [] := by
    unfold coordinates pairsOf
    simp
  generalize hpvl : pairsOf (coordinates dim points ++ (pd.filter fun kv => decide (¬ Reserved kv.1)).flatMap fun kv => Spec.Tecplot.varsOf false kv.1 kv.2) = pv at *
  generalize hcvl : pairsOf (cd'.flatMap fun kv => Spec.Tecplot.varsOf true kv.1 kv.2) = cv at *
  have hw : ∀ v ∈ pv ++ cv, Word v.1.toList := by
    intro v hvm
    rw [← hv] at hnames
    unfold Tecplot.varsOf at hnames
    rcases List.mem_append.mp hvm with hm | hm
    · exact hnames ⟨v.1, false, v.2⟩ (List.mem_append_left _ (List.mem_map.mpr ⟨v, hm, rfl⟩))
    · exact hnames ⟨v.1, true, v.2⟩ (List.mem_append_right _ (List.mem_map.mpr ⟨v, hm, rfl⟩))
  obtain ⟨k, hk, hkw⟩ : ∃ k, 0 < k ∧ ∀ r ∈ elements cells keep elem, r.length = k := by
    obtain ⟨b, hb, hkb, hr⟩ := h.h_some
    obtain ⟨r, rs, hrs⟩ := List.exists_cons_of_ne_nil hr
    have h0 := (elem_facts cells h.h_shaped zt keep elem hz b hb hkb r (by rw [hrs]; simp)).1
    refine ⟨_, zoneWidth_pos zt _ h0, ?_⟩
    intro e he
    obtain ⟨b', hb', hkb', r', hr', rfl⟩ := elements_mem cells keep elem e he
    have h1 := (elem_facts cells h.h_shaped zt keep elem hz b' hb' hkb' r' hr').1
    rw [h0] at h1
    exact (Option.some.inj h1).symm
  have hzm := zone_mem cells zt keep elem hz
  have hlen := elements_length cells keep elem
  refine ⟨wFile io version pv cv points.length (elements cells keep elem).length zt (elements cells keep elem),
    (pv ++ cv).map fun v => VName.quoted v.1.toList,
    wRecord points.length (elements cells keep elem).length zt (pv.length + 1) (if cv = [] then 0 else pv.length + cv.length), ?_, ?_, ?_⟩
  · unfold write
    rw [chooseCells_zone cells h.h_shaped zt keep elem hz]
    simp only
    rw [hpv]
    simp only
    rw [hcv]
    simp only
    rw [← hlen, textOf_lines]
  · exact wFile_clean io version pv cv _ _ zt _ hzm hne hw hver
  · rw [← hv]
    exact wFile_says io version pv cv _ _ zt _ hzm hne hw l1 (by rw [hlen]; exact l2) rfl (tecplot_pos cells keep elem h.h_some)
      (List.length_pos_iff.mpr h.h_points.1) k hk hkw

/-- Every element has as many nodes as its type requires, and they are the nodes of the cell: no new ones, none left out. -/
theorem C38_elements (cells : List Blk) (hs : Shaped cells) (zt : String) (keep : String → Bool) (elem : String → List Int → List Int)
    (h : ZoneFor cells zt keep elem) : (elements cells keep elem).length = ((cells.filter fun b => keep b.type).map fun b => b.rows.length).sum ∧
    ∀ b ∈ cells, keep b.type = true → ∀ r ∈ b.rows, zoneWidth zt = some (elem b.type r).length ∧ ∀ i, i ∈ elem b.type r ↔ i ∈ r := by
  constructor
  · unfold elements cellList
    rw [List.length_map, List.length_flatMap]
    simp
  · intro b hb hk r hr
    exact elem_facts cells hs zt keep elem h b hb hk r hr

theorem tecplot_underscore (k : String) (i : Nat) : ¬ Reserved (k ++ "_" ++ String.ofList (fmtNat i)) := by
  intro h
  have hm : '_' ∈ (k ++ "_" ++ String.ofList (fmtNat i)).toList := by
    simp
  generalize k ++ "_" ++ String.ofList (fmtNat i) = n at *
  unfold Reserved at h
  rcases h with rfl | rfl | rfl | rfl | rfl | rfl <;> exact absurd hm (by decide +kernel)

theorem tecplot_names (d : Dict (Arr F)) (cell : Bool) : ∀ v ∈ (d.filter fun kv => decide (¬ Reserved kv.1)).flatMap (fun kv => Spec.Tecplot.varsOf cell kv.1 kv.2),
    ¬ Reserved v.name ∧ v.cell = cell := by
  intro v hv
  obtain ⟨kv, hkv, hv⟩ := List.mem_flatMap.mp hv
  rw [List.mem_filter] at hkv
  refine ⟨?_, varsOf_cell_eq cell _ _ v hv⟩
  have hr := of_decide_eq_true hkv.2
  cases hkva : kv.2 with
  | one l =>
    rw [hkva] at hv
    rw [List.mem_singleton.mp hv]
    exact hr
  | more =>
    rw [hkva] at hv
    cases hv
  | two n rows =>
    rw [hkva] at hv
    obtain ⟨i, _, rfl⟩ := List.mem_map.mp hv
    exact tecplot_underscore kv.1 i

theorem tecplot_coordinate (vars : List (Var F)) (v : Var F) (hv : v ∈ vars) (hc : v.cell = false) (low : String) : coordinate vars v.name low = v.name := by
  unfold coordinate
  rw [if_neg]
  intro h
  rw [List.isEmpty_iff] at h
  have : v ∈ vars.filter fun w => decide (w.cell = false ∧ w.name = v.name) := List.mem_filter.mpr ⟨hv, decide_eq_true ⟨hc, rfl⟩⟩
  rw [h] at this
  cases this

theorem tecplot_points (dim : Nat) (points : List (List F)) (pd cd' : Dict (Arr F)) (hd : dim = 2 ∨ dim = 3) (hp : ∀ p ∈ points, p.length = dim) :
    Points (variables dim points pd cd') points (["X", "Y"] ++ if dim = 3 then ["Z"] else []) := by
  have hx : (⟨"X", false, points.filterMap (·[0]?)⟩ : Var F) ∈ variables dim points pd cd' := by unfold variables coordinates; simp
  have hy : (⟨"Y", false, points.filterMap (·[1]?)⟩ : Var F) ∈ variables dim points pd cd' := by unfold variables coordinates; simp
  have cx := tecplot_coordinate _ _ hx rfl "x"
  have cy := tecplot_coordinate _ _ hy rfl "y"
  simp only at cx cy
  refine ⟨⟨_, hx, rfl, cx.symm, rfl⟩, ⟨_, hy, rfl, cy.symm, rfl⟩, ?_⟩
  rw [cx, cy]
  rcases hd with rfl | rfl
  · left
    refine ⟨rfl, ?_, hp⟩
    intro v hv hc
    unfold variables at hv
    rcases List.mem_append.mp hv with hv | hv
    · rcases List.mem_append.mp hv with hv | hv
      · unfold coordinates at hv
        simp at hv
        rcases hv with rfl | rfl <;> simp
      · have := (tecplot_names pd false v hv).1
        unfold Reserved at this
        exact ⟨fun h => this (by simp [h]), fun h => this (by simp [h])⟩
    · obtain ⟨kv, _, hv⟩ := List.mem_flatMap.mp hv
      rw [varsOf_cell_eq true _ _ v hv] at hc
      cases hc
  · right
    have hz : (⟨"Z", false, points.filterMap (·[2]?)⟩ : Var F) ∈ variables 3 points pd cd' := by unfold variables coordinates; simp
    have cz := tecplot_coordinate _ _ hz rfl "z"
    simp only at cz
    rw [cz]
    exact ⟨rfl, ⟨_, hz, rfl, rfl, rfl⟩, hp⟩

theorem tecplot_data (dim : Nat) (points : List (List F)) (pd cd' : Dict (Arr F)) (hd : dim = 2 ∨ dim = 3) :
    pointData (variables dim points pd cd') (["X", "Y"] ++ if dim = 3 then ["Z"] else []) = table false (pd.filter fun kv => decide (¬ Reserved kv.1)) ∧
    cellData (variables dim points pd cd') = table true cd' := by
  have hc : ∀ v ∈ cd'.flatMap (fun kv => Spec.Tecplot.varsOf true kv.1 kv.2), v.cell = true := by
    intro v hv
    obtain ⟨kv, _, hv⟩ := List.mem_flatMap.mp hv
    exact varsOf_cell_eq true _ _ v hv
  have hp := tecplot_names pd false
  constructor
  · unfold pointData variables table
    rw [List.filter_append, List.filter_append]
    have e1 : (coordinates dim points).filter (fun v => decide (v.cell = false ∧ v.name ∉ (["X", "Y"] ++ if dim = 3 then ["Z"] else []))) = [] := by
      rw [List.filter_eq_nil_iff]
      intro v hv
      unfold coordinates at hv
      rcases hd with rfl | rfl
      · simp at hv
        rcases hv with rfl | rfl <;> simp
      · simp at hv
        rcases hv with rfl | rfl | rfl <;> simp
    have e2 : (cd'.flatMap fun kv => Spec.Tecplot.varsOf true kv.1 kv.2).filter (fun v => decide (v.cell = false ∧ v.name ∉ (["X", "Y"] ++ if dim = 3 then ["Z"] else []))) = [] := by
      rw [List.filter_eq_nil_iff]
      intro v hv
      simp [hc v hv]
    rw [e1, e2, List.append_nil, List.nil_append, List.filter_eq_self.mpr]
    intro v hv
    obtain ⟨h1, h2⟩ := hp v hv
    apply decide_eq_true
    refine ⟨h2, fun hm => h1 ?_⟩
    unfold Reserved
    rcases hd with rfl | rfl
    · simp at hm
      rcases hm with hm | hm <;> simp [hm]
    · simp at hm
      rcases hm with hm | hm | hm <;> simp [hm]
  · unfold cellData variables table
    rw [List.filter_append, List.filter_append, List.filter_eq_nil_iff.mpr, List.filter_eq_nil_iff.mpr, List.filter_eq_self.mpr]
    · rfl
    · exact hc
    · intro v hv
      rw [(hp v hv).2]
      decide
    · intro v hv
      unfold coordinates at hv
      simp only [List.mem_append, List.mem_cons, List.mem_nil_iff, or_false] at hv
      rcases hv with (rfl | rfl) | hv
      · simp
      · simp
      · split at hv
        · rw [List.mem_singleton.mp hv]
          simp
        · cases hv

/-- A written file is read with the same points, the elements as cells, and the same variables as data. -/
theorem C38_roundtrip_partial (io : TecIO F) (version : List Char) (hver : '\n' ∉ version) (dim : Nat) (points : List (List F)) (cells : List Blk)
    (pd : Dict (Arr F)) (cd : Dict (List (Arr F))) (zt : String) (keep : String → Bool) (elem : String → List Int → List Int)
    (hz : ZoneFor cells zt keep elem) (cd' : Dict (Arr F)) (h : Writable dim points cells keep pd cd cd')
    (hnames : ∀ v ∈ variables dim points pd cd', Word v.name.toList) (hnd : ((variables dim points pd cd').map (·.name)).Nodup) :
    ∃ s t, write io version dim points cells pd cd = .ok s ∧ typeOf zt.toList = some t ∧
      read io s = .ok ⟨points, t, elements cells keep elem, table false (pd.filter fun kv => decide (¬ Reserved kv.1)), table true cd'⟩ := by
  obtain ⟨f, names, r, h1, h2, h3⟩ := C38_write io version hver dim points cells pd cd zt keep elem hz cd' h hnames
  have ht : ∀ zt ∈ zoneTypes, (typeOf zt.toList).isSome = true := by decide +kernel
  obtain ⟨t, ht⟩ := Option.isSome_iff_exists.mp (ht zt (zone_mem cells zt keep elem hz))
  refine ⟨_, t, h1, ht, ?_⟩
  obtain ⟨d1, d2⟩ := tecplot_data dim points pd cd' h.h_dim
  rw [← d1, ← d2]
  exact C38_read io f f.lines (List.filter_eq_self.mpr fun l hl => decide_eq_true (h2 l hl).1) (fun l hl => (h2 l hl).2) names r _ _ true _ _ _ h3 hnd
    points _ (tecplot_points dim points pd cd' h.h_dim h.h_points.2) t ht

/-- The zone as it is written: the line of the counts, and VARLOCATION exactly if there are variables of the cells, for exactly
their numbers. -/
theorem C38_zone_text (nn nc : Nat) (zt : String) (a b : Nat) : zoneLines nn nc zt a b =
    ("ZONE NODES = ".toList ++ fmtNat nn ++ ", ELEMENTS = ".toList ++ fmtNat nc ++ ",".toList) ::
      (if b < a then ["DATAPACKING = BLOCK, ZONETYPE = ".toList ++ zt.toList]
       else ["DATAPACKING = BLOCK, ZONETYPE = ".toList ++ zt.toList ++ ",".toList,
        "VARLOCATION = ([".toList ++ (if a = b then fmtNat a else fmtNat a ++ '-' :: fmtNat b) ++ "] = CELLCENTERED)".toList]) := by
  unfold zoneLines
  by_cases h : a ≤ b
  · rw [if_pos h, if_neg (show ¬ b < a by omega)]
    rfl
  · rw [if_neg h, if_pos (show b < a by omega)]
    rfl

/-! ## What the property claims beyond that, and what is not so -/

/-- In full: whatever mesh is written, what is read has cells with the number of nodes of their type. -/
def C38_fixed_width_statement : Prop :=
  ∀ (F : Type) (io : TecIO F) (version : List Char) (dim : Nat) (points : List (List F)) (cells : List Blk) (pd : Dict (Arr F)) (cd : Dict (List (Arr F)))
    (s : List Char) (o : Out F), Shaped cells → write io version dim points cells pd cd = .ok s → read io s = .ok o →
    ∀ r ∈ o.rows, nodes o.type = some r.length

/-- Not so: if a block of triangles comes before one of tetrahedra, only the tetrahedra are written, with eight nodes each, but
the zone type is FEQUADRILATERAL. -/
theorem C38_fixed_width_false : ¬ C38_fixed_width_statement := by
  intro h
  have := h Int tecInt "5".toList 3 [[0, 0, 0], [1, 0, 0], [0, 1, 0], [0, 0, 1]] [⟨"triangle", [[0, 1, 2]]⟩, ⟨"tetra", [[0, 1, 2, 3]]⟩] [] []
    (linesText ["TITLE = \"Written by meshio v5\"".toList, "VARIABLES = \"X\", \"Y\", \"Z\"".toList, "ZONE NODES = 4, ELEMENTS = 1,".toList,
      "DATAPACKING = BLOCK, ZONETYPE = FEQUADRILATERAL".toList, "0 1 0 0".toList, "0 0 1 0".toList, "0 0 0 1".toList, "1 2 3 3 4 4 4 4".toList])
    ⟨[[0, 0, 0], [1, 0, 0], [0, 1, 0], [0, 0, 1]], "quad", [[0, 1, 2, 2, 3, 3, 3, 3]], [], []⟩
    (by
      intro b hb n hn r hr
      simp only [List.mem_cons, List.mem_nil_iff, or_false] at hb
      rcases hb with rfl | rfl
      · rw [List.mem_singleton.mp hr]
        cases hn
        rfl
      · rw [List.mem_singleton.mp hr]
        cases hn
        rfl)
    (by decide +kernel) (by decide +kernel) [0, 1, 2, 2, 3, 3, 3, 3] (by simp)
  exact absurd this (by decide +kernel)

/-- In full: data of the points whose name is not that of a coordinate are returned by the reader. -/
def C38_roundtrip_statement : Prop :=
  ∀ (F : Type) (io : TecIO F) (version : List Char) (dim : Nat) (points : List (List F)) (cells : List Blk) (pd : Dict (Arr F)) (cd : Dict (List (Arr F)))
    (s : List Char) (zt : String) (keep : String → Bool) (elem : String → List Int → List Int) (cd' : Dict (Arr F)),
    '\n' ∉ version → ZoneFor cells zt keep elem → Writable dim points cells keep pd cd cd' → (∀ v ∈ variables dim points pd cd', Word v.name.toList) →
    write io version dim points cells pd cd = .ok s → ∀ k l, (k, Arr.one l) ∈ pd → ¬ Reserved k → ∃ o, read io s = .ok o ∧ Dict.get? o.pointData k = some l

/-- Not so if a variable of the points and one of the cells have the same name: the reader keeps one of them. -/
theorem C38_roundtrip_false : ¬ C38_roundtrip_statement := by
  intro h
  have := h Int tecInt "5".toList 2 [[0, 0], [1, 0], [0, 1]] [⟨"triangle", [[0, 1, 2], [1, 2, 0], [2, 0, 1]]⟩] [("a", .one [7, 8, 9])] [("a", [.one [4, 5, 6]])]
    (linesText ["TITLE = \"Written by meshio v5\"".toList, "VARIABLES = \"X\", \"Y\", \"a\", \"a\"".toList, "ZONE NODES = 3, ELEMENTS = 3,".toList,
      "DATAPACKING = BLOCK, ZONETYPE = FETRIANGLE,".toList, "VARLOCATION = ([4] = CELLCENTERED)".toList, "0 1 0".toList, "0 0 1".toList, "7 8 9".toList,
      "4 5 6".toList, "1 2 3".toList, "2 3 1".toList, "3 1 2".toList])
    "FETRIANGLE" (fun s => decide (s = "triangle")) alone [("a", .one [4, 5, 6])] (by decide +kernel)
    (ZoneFor.one "triangle" (by decide) ⟨_, List.mem_singleton.mpr rfl, rfl⟩ (fun b hb _ => by rw [List.mem_singleton.mp hb]))
    ⟨by decide, by decide, by
      intro b hb n hn r hr
      rw [List.mem_singleton.mp hb] at hn hr
      cases hn
      simp only [List.mem_cons, List.mem_nil_iff, or_false] at hr
      rcases hr with rfl | rfl | rfl <;> rfl, ⟨_, List.mem_singleton.mpr rfl, by decide, by decide⟩, by
      intro kv hkv _
      rw [List.mem_singleton.mp hkv]
      rfl, by decide +kernel, by
      intro kv hkv
      rw [List.filter_cons_of_pos (by decide), List.filter_nil, List.zip_cons_cons, List.zip_nil_left, List.mem_singleton] at hkv
      subst hkv
      refine ⟨[.one [4, 5, 6]], by decide +kernel, Together.one [[4, 5, 6]] (by simp), ?_⟩
      intro ba hba
      have hw : written [⟨"triangle", [[0, 1, 2], [1, 2, 0], [2, 0, 1]]⟩] (fun s => decide (s = "triangle")) =
        [(⟨"triangle", [[0, 1, 2], [1, 2, 0], [2, 0, 1]]⟩, 0)] := by decide +kernel
      rw [hw, List.zip_cons_cons, List.zip_nil_left, List.mem_singleton] at hba
      subst hba
      rfl⟩
    (by
      have : ∀ n ∈ (variables 2 [[(0 : Int), 0], [1, 0], [0, 1]] [("a", .one [7, 8, 9])] [("a", .one [4, 5, 6])]).map (·.name), ∀ c ∈ n.toList,
        isWs c = false ∧ c ≠ ',' ∧ c ≠ '"' ∧ c ≠ '=' := by decide +kernel
      intro v hv
      exact this v.name (List.mem_map.mpr ⟨v, hv, rfl⟩))
    (by decide +kernel) "a" [7, 8, 9] (by simp) (by decide)
  obtain ⟨o, h1, h2⟩ := this
  have hr : read tecInt (linesText ["TITLE = \"Written by meshio v5\"".toList, "VARIABLES = \"X\", \"Y\", \"a\", \"a\"".toList,
      "ZONE NODES = 3, ELEMENTS = 3,".toList, "DATAPACKING = BLOCK, ZONETYPE = FETRIANGLE,".toList, "VARLOCATION = ([4] = CELLCENTERED)".toList,
      "0 1 0".toList, "0 0 1".toList, "7 8 9".toList, "4 5 6".toList, "1 2 3".toList, "2 3 1".toList, "3 1 2".toList]) =
      .ok ⟨[[0, 0], [1, 0], [0, 1]], "triangle", [[0, 1, 2], [1, 2, 0], [2, 0, 1]], [("a", [4, 5, 6])], [("a", [4, 5, 6])]⟩ := by decide +kernel
  rw [hr] at h1
  cases h1
  exact absurd h2 (by decide +kernel)

/-! ## Refusals -/

/-- A mesh without a cell type that Tecplot can hold is refused. -/
theorem C38_write_refuse (io : TecIO F) (version : List Char) (dim : Nat) (points : List (List F)) (cells : List Blk) (pd : Dict (Arr F))
    (cd : Dict (List (Arr F))) (h : ∀ b ∈ cells, ¬ Known b.type) : write io version dim points cells pd cd = .error .writeError := by
  have hs : supported cells = [] := by
    rw [List.eq_nil_iff_forall_not_mem]
    intro b hb
    exact h _ (mem_supported hb).1 (mem_supported hb).2
  unfold write chooseCells
  rw [hs]
  rfl

/-- Lines and two-dimensional cells, but no others: nothing is left to be written, and numpy fails. -/
theorem C38_write_lines (io : TecIO F) (version : List Char) (dim : Nat) (points : List (List F)) (cells : List Blk) (pd : Dict (Arr F))
    (cd : Dict (List (Arr F))) (h1 : ∃ b ∈ cells, b.type = "line") (h2 : ∃ b ∈ cells, Known b.type ∧ dimension b.type = 2)
    (h : ∀ b ∈ cells, Known b.type → dimension b.type ≠ 3) : write io version dim points cells pd cd = .error .valueError := by
  obtain ⟨b, hb, tb⟩ := h1
  obtain ⟨c, hc, kc, dc⟩ := h2
  have kb : Known b.type := by rw [tb]; decide
  have db : dimension b.type = 1 := by rw [tb]; decide
  obtain ⟨i, hi⟩ := supported_of hb kb
  obtain ⟨j, hj⟩ := supported_of hc kc
  have hd : ∀ t ∈ types, dimension t = 1 ∨ dimension t = 2 ∨ dimension t = 3 := by decide
  have h2 : (distinct ((supported cells).map ndim)).length = 2 := by
    apply distinct_two _ 1 2 (by decide)
    · exact List.mem_map.mpr ⟨_, hi, by rw [ndim_eq kb, db]⟩
    · exact List.mem_map.mpr ⟨_, hj, by rw [ndim_eq kc, dc]⟩
    · intro x hx
      obtain ⟨e, he, rfl⟩ := List.mem_map.mp hx
      obtain ⟨m1, m2⟩ := mem_supported he
      rw [ndim_eq m2]
      rcases hd _ (known_mem m2) with h' | h' | h'
      · exact Or.inl h'
      · exact Or.inr h'
      · exact absurd h' (h _ m1 m2)
  have hf : (supported cells).filter (fun b => decide (ndim b = 3)) = [] := by
    rw [List.filter_eq_nil_iff]
    intro e he
    obtain ⟨m1, m2⟩ := mem_supported he
    rw [ndim_eq m2]
    simpa using h _ m1 m2
  unfold write
  rw [chooseCells_several cells ⟨b, hb, c, hc, kb, kc, fun hh => by rw [hh, dc] at db; cases db⟩]
  unfold severalCells
  simp only
  rw [if_pos h2, hf]
  rfl

/-- A zone record must name a format, an element type and the numbers of nodes and elements. -/
theorem C38_zone_refuse (z : Zone) (n : Nat) :
    (∀ f, Dict.get? z.strs "F" = some f → f ≠ "FEPOINT".toList → f ≠ "FEBLOCK".toList → parseFezone z n = .error .readError) ∧
    ((Dict.get? z.strs "F").isSome = true → Dict.get? z.strs "ET" = none → parseFezone z n = .error .readError) ∧
    (Dict.get? z.strs "F" = none → (Dict.get? z.strs "DATAPACKING" = none ∨ Dict.get? z.strs "ZONETYPE" = none) → parseFezone z n = .error .readError) ∧
    (Dict.get? z.ints "N" = none → Dict.get? z.ints "NODES" = none → parseFezone z n = .error .readError) ∧
    (Dict.get? z.ints "E" = none → Dict.get? z.ints "ELEMENTS" = none → parseFezone z n = .error .readError) := by
  have hfmt : ∀ e, formatOf z = .error e → e = .readError := by
    intro e h
    unfold formatOf at h
    repeat' split at h
    all_goals first | (cases h; rfl) | cases h
  have hcount : ∀ a b e, count z a b = .error e → e = .readError := by
    intro a b e h
    unfold count at h
    repeat' split at h
    all_goals first | (cases h; rfl) | cases h
  refine ⟨?_, ?_, ?_, ?_, ?_⟩
  · intro f hf h1 h2
    have : formatOf z = .error .readError := by
      unfold formatOf
      rw [hf]
      simp only
      rw [if_pos ⟨h1, h2⟩]
    unfold parseFezone
    rw [this]
  · intro hf he
    obtain ⟨f, hf⟩ := Option.isSome_iff_exists.mp hf
    have : formatOf z = .error .readError := by
      unfold formatOf
      rw [hf]
      simp only
      rw [he]
      split <;> rfl
    unfold parseFezone
    rw [this]
  · intro hf h
    have : formatOf z = .error .readError := by
      unfold formatOf
      rw [hf]
      simp only
      rcases h with h | h
      · rw [h]
      · rw [h]
        split <;> rfl
    unfold parseFezone
    rw [this]
  · intro h1 h2
    unfold parseFezone
    cases hf : formatOf z with
    | error e => rw [hfmt e hf]
    | ok r =>
      simp only
      have : count z "N" "NODES" = .error .readError := by
        unfold count
        rw [h1, h2]
      rw [this]
  · intro h1 h2
    unfold parseFezone
    cases hf : formatOf z with
    | error e => rw [hfmt e hf]
    | ok r =>
      simp only
      cases hn : count z "N" "NODES" with
      | error e => rw [hcount _ _ e hn]
      | ok nn =>
        simp only
        have : count z "E" "ELEMENTS" = .error .readError := by
          unfold count
          rw [h1, h2]
        rw [this]

/-! ## Examples -/

/-- A mesh of a triangle, a quadrilateral and a vertex (which is left out), with data of the points (two columns) and of the cells, is
written and read. -/
example : ∃ s, write tecInt "5".toList 2 [[0, 0], [1, 0], [1, 1], [0, 1]] [⟨"triangle", [[0, 1, 2]]⟩, ⟨"vertex", [[0]]⟩, ⟨"quad", [[0, 1, 2, 3]]⟩]
      [("p", .two 2 [[1, 2], [3, 4], [5, 6], [7, 8]])] [("c", [.one [10], .one [11], .one [12]])] = .ok s ∧
    read tecInt s = .ok ⟨[[0, 0], [1, 0], [1, 1], [0, 1]], "quad", [[0, 1, 2, 2], [0, 1, 2, 3]],
      [("p_0", [1, 3, 5, 7]), ("p_1", [2, 4, 6, 8])], [("c", [10, 12])]⟩ := by
  refine ⟨_, rfl, ?_⟩
  decide +kernel

/-- The zone of that mesh. -/
example : ZoneFor [⟨"triangle", [[0, 1, 2]]⟩, ⟨"vertex", [[0]]⟩, ⟨"quad", [[0, 1, 2, 3]]⟩] "FEQUADRILATERAL" (fun s => decide (Known s)) quadrilateral :=
  ZoneFor.flat ⟨⟨"triangle", [[0, 1, 2]]⟩, by simp, ⟨"quad", [[0, 1, 2, 3]]⟩, by simp, by decide, by decide, by decide⟩ (by decide)

/-- Wedge before triangle: the wedge is written as a brick. -/
example : ZoneFor [⟨"wedge", [[0, 1, 2, 3, 4, 5]]⟩, ⟨"triangle", [[0, 1, 2]]⟩] "FEBRICK" (fun s => decide (Known s ∧ dimension s = 3)) brick ∧
    elements [⟨"wedge", [[0, 1, 2, 3, 4, 5]]⟩, ⟨"triangle", [[0, 1, 2]]⟩] (fun s => decide (Known s ∧ dimension s = 3)) brick = [[0, 1, 4, 3, 2, 2, 5, 5]] :=
  ⟨ZoneFor.solids 2 (by decide) ⟨⟨"wedge", [[0, 1, 2, 3, 4, 5]]⟩, by simp, by decide, by decide⟩ ⟨⟨"triangle", [[0, 1, 2]]⟩, by simp, by decide, by decide⟩ (by decide)
    (by intro b hb; cases hb; decide), by decide +kernel⟩

/-- A file in another notation: FEPOINT, lower-case coordinates, comments, a title, and names without double quotes. -/
example : read tecInt (linesText ["# a comment".toList, "VARIABLES = x, y, t".toList, "ZONE T=\"one\", N=3, E=1, F=FEPOINT ET=TRIANGLE".toList,
      "0 0 5".toList, "# another".toList, "1 0 6".toList, "0 1 7".toList, "1 2 3".toList]) =
    .ok ⟨[[0, 0], [1, 0], [0, 1]], "triangle", [[0, 1, 2]], [("t", [5, 6, 7])], []⟩ := by decide +kernel

end Props
end Meshio
