/-
Helper lemmas for SVG pictures.
-/
import Verif.Spec.Svg
import Verif.Proofs.DolfinWrite
namespace Meshio.Svg
open Meshio Meshio.Spec

variable {F : Type}

theorem escAttr_plain (s : List Char) (h : SvgPlain s) : escAttr s = s := by
  induction s with
  | nil => rfl
  | cons c s ih =>
    have hc := h c (by simp)
    simp only [List.mem_cons, List.not_mem_nil, or_false, not_or] at hc
    unfold escAttr at ih ⊢
    rw [List.flatMap_cons, ih (fun d hd => h d (by simp [hd]))]
    simp [hc]

theorem escText_plain (s : List Char) (h : SvgPlain s) : escText s = s := by
  induction s with
  | nil => rfl
  | cons c s ih =>
    have hc := h c (by simp)
    simp only [List.mem_cons, List.not_mem_nil, or_false, not_or] at hc
    unfold escText at ih ⊢
    rw [List.flatMap_cons, ih (fun d hd => h d (by simp [hd]))]
    simp [hc]

theorem _root_.Meshio.Spec.SvgPlain.value {s : List Char} (h : SvgPlain s) : PlainValue (String.ofList s) := by
  intro c hc
  rw [String.toList_ofList] at hc
  have := h c hc
  simp only [List.mem_cons, List.not_mem_nil, or_false, not_or] at this
  exact ⟨this.2.2.2.1, this.2.1, this.1, this.2.2.2.2.2.1, this.2.2.2.2.2.2, this.2.2.2.2.1⟩

theorem _root_.Meshio.Spec.SvgPlain.text {s : List Char} (h : SvgPlain s) : PlainText s := by
  intro c hc
  have := h c hc
  simp only [List.mem_cons, List.not_mem_nil, or_false, not_or] at this
  exact ⟨this.2.1, this.1⟩

theorem _root_.Meshio.Spec.SvgPlain.append {s t : List Char} (hs : SvgPlain s) (ht : SvgPlain t) : SvgPlain (s ++ t) := by
  intro c hc
  rcases List.mem_append.mp hc with h | h
  · exact hs c h
  · exact ht c h

theorem _root_.Meshio.Spec.SvgPlain.flatten {l : List (List Char)} (h : ∀ s ∈ l, SvgPlain s) : SvgPlain l.flatten := by
  intro c hc
  obtain ⟨s, hs, hcs⟩ := List.mem_flatten.mp hc
  exact h s hs c hcs

instance (s : List Char) : Decidable (SvgPlain s) := by unfold SvgPlain; infer_instance

theorem svgPath_plain (a : Arith F) (ha : ∀ f x, SvgPlain (a.fmt f x)) (f : List Char) (closed : Bool) (ps : List (F × F)) :
    SvgPlain (svgPath a f closed ps) := by
  unfold svgPath
  refine SvgPlain.append (SvgPlain.flatten ?_) (by cases closed <;> decide)
  intro s hs
  obtain ⟨i, hi, rfl⟩ := List.mem_mapIdx.mp hs
  refine SvgPlain.append (SvgPlain.append (SvgPlain.append ?_ (ha _ _)) (by decide)) (ha _ _)
  split <;> decide

theorem pathData_eq (a : Arith F) (f : List Char) (k : Nat) (hk : k ≠ 0) (closed : Bool) (ps : List (F × F)) (h : ps.length = k) :
    pathData a f k closed ps = .ok (svgPath a f closed ps) := by
  unfold pathData
  rw [if_neg (by omega), List.take_of_length_le (by omega)]
  cases ps with
  | nil => exact absurd h (by simpa using Ne.symm hk)
  | cons p ps =>
    simp only [Except.ok.injEq]
    unfold svgPath
    rw [List.mapIdx_cons]
    have : (ps.mapIdx fun i p => (if i + 1 = 0 then ['M', ' '] else ['L', ' ']) ++ a.fmt f p.1 ++ [' '] ++ a.fmt f p.2) = ps.map (move a f 'L') := by
      apply List.ext_getElem?
      intro i
      simp only [List.getElem?_map, List.getElem?_mapIdx]
      cases ps[i]? with
      | none => rfl
      | some p => simp [move]
    rw [this]
    simp [move, List.flatMap_def]

theorem corner_ok (pts : List (F × F)) (i : Int) (h0 : 0 ≤ i) (h1 : i < pts.length) : ∃ p, pts[i.toNat]? = some p ∧ corner pts i = .ok p := by
  have : i.toNat < pts.length := by omega
  refine ⟨pts[i.toNat], List.getElem?_eq_getElem this, ?_⟩
  unfold corner
  rw [if_neg (by omega), List.getElem?_eq_getElem this]
  simp only []
  rw [if_neg (by omega)]

theorem corners_ok (pts : List (F × F)) (c : List Int) (h : ∀ i ∈ c, 0 ≤ i ∧ i < pts.length) :
    mapRes (corner pts) c = .ok (c.filterMap fun i => pts[i.toNat]?) ∧ (c.filterMap fun i => pts[i.toNat]?).length = c.length := by
  induction c with
  | nil => exact ⟨rfl, rfl⟩
  | cons i c ih =>
    obtain ⟨h0, h1⟩ := h i (by simp)
    obtain ⟨p, hp, hc⟩ := corner_ok pts i h0 h1
    obtain ⟨i1, i2⟩ := ih (fun j hj => h j (by simp [hj]))
    unfold mapRes
    rw [hc]
    simp only [i1]
    rw [List.filterMap_cons_some (by exact hp)]
    exact ⟨rfl, by rw [List.length_cons, List.length_cons, i2]⟩

theorem plane_ok (a : Arith F) (m : In F) (h : SvgMesh a m) : plane m = .ok (flatPoints m) ∧ (flatPoints m).length = m.points.length := by
  unfold plane flatPoints
  rw [if_neg (by have := h.okDim; omega)]
  have hd := h.okDim
  have hp := h.okPoints
  generalize m.points = l at hp
  induction l with
  | nil => exact ⟨rfl, rfl⟩
  | cons p l ih =>
    obtain ⟨i1, i2⟩ := ih (fun q hq => hp q (by simp [hq]))
    have hl := hp p (by simp)
    match p, hl with
    | [], hl => simp at hl; omega
    | [x], hl => simp at hl; omega
    | x :: y :: p, _ =>
      unfold mapRes
      simp only [i1]
      rw [List.filterMap_cons_some (by rfl)]
      exact ⟨rfl, by rw [List.length_cons, List.length_cons, i2]⟩

theorem place_length (a : Arith F) (w : Option F) (pts : List (F × F)) : (place a w pts).pts.length = pts.length := by
  unfold place
  cases w with
  | none => simp
  | some w =>
    simp only []
    split <;> simp

/-- The places of the corners of a cell. -/
def placesOf (pts : List (F × F)) (c : List Int) : List (F × F) := c.filterMap fun i => pts[i.toNat]?

theorem cells_ok (a : Arith F) (f : List Char) (pts : List (F × F)) (k : Nat) (hk : k ≠ 0) (closed : Bool) (rows : List (List Int))
    (h : ∀ c ∈ rows, c.length = k ∧ ∀ i ∈ c, 0 ≤ i ∧ i < pts.length) :
    mapRes (cellPath a f pts k closed) rows = .ok (rows.map fun c => svgPath a f closed (placesOf pts c)) := by
  induction rows with
  | nil => rfl
  | cons c rows ih =>
    obtain ⟨h1, h2⟩ := h c (by simp)
    obtain ⟨c1, c2⟩ := corners_ok pts c h2
    unfold mapRes
    have : cellPath a f pts k closed c = .ok (svgPath a f closed (placesOf pts c)) := by
      unfold cellPath
      rw [c1]
      exact pathData_eq a f k hk closed _ (c2.trans h1)
    rw [this, ih (fun d hd => h d (by simp [hd]))]
    rfl

theorem block_ok (a : Arith F) (f : List Char) (pts : List (F × F)) (b : String × List (List Int))
    (h : ∀ s ∈ svgShapes, b.1 = s.1 → ∀ c ∈ b.2, c.length = s.2.1 ∧ ∀ i ∈ c, 0 ≤ i ∧ i < pts.length) :
    blockPaths a f pts b = .ok (((svgShapes.filter fun s => s.1 = b.1).flatMap fun s => b.2.map fun c => (s.2.2, c)).map
      fun d => svgPath a f d.1 (placesOf pts d.2)) := by
  unfold blockPaths shape
  by_cases h1 : b.1 = "line"
  · rw [if_pos h1]
    simp only []
    rw [cells_ok a f pts 2 (by decide) false b.2 (h ("line", 2, false) (by decide) h1), h1]
    simp [svgShapes]
  · rw [if_neg h1]
    by_cases h2 : b.1 = "triangle"
    · rw [if_pos h2]
      simp only []
      rw [cells_ok a f pts 3 (by decide) true b.2 (h ("triangle", 3, true) (by decide) h2), h2]
      simp [svgShapes]
    · rw [if_neg h2]
      by_cases h3 : b.1 = "quad"
      · rw [if_pos h3]
        simp only []
        rw [cells_ok a f pts 4 (by decide) true b.2 (h ("quad", 4, true) (by decide) h3), h3]
        simp [svgShapes]
      · rw [if_neg h3]
        simp [svgShapes, Ne.symm h1, Ne.symm h2, Ne.symm h3]

theorem blocks_ok (a : Arith F) (f : List Char) (pts : List (F × F)) (bs : List (String × List (List Int)))
    (h : ∀ b ∈ bs, ∀ s ∈ svgShapes, b.1 = s.1 → ∀ c ∈ b.2, c.length = s.2.1 ∧ ∀ i ∈ c, 0 ≤ i ∧ i < pts.length) :
    ∃ l, mapRes (blockPaths a f pts) bs = .ok l ∧ l.flatten =
      (bs.flatMap fun b => (svgShapes.filter fun s => s.1 = b.1).flatMap fun s => b.2.map fun c => (s.2.2, c)).map
        fun d => svgPath a f d.1 (placesOf pts d.2) := by
  induction bs with
  | nil => exact ⟨[], rfl, rfl⟩
  | cons b bs ih =>
    obtain ⟨l, h1, h2⟩ := ih (fun c hc => h c (by simp [hc]))
    refine ⟨(((svgShapes.filter fun s => s.1 = b.1).flatMap fun s => b.2.map fun c => (s.2.2, c)).map
      fun d => svgPath a f d.1 (placesOf pts d.2)) :: l, ?_, ?_⟩
    · unfold mapRes
      rw [block_ok a f pts b (h b (by simp)), h1]
    · rw [List.flatten_cons, h2, List.flatMap_cons, List.map_append]

set_option maxRecDepth 8000 in
theorem text_lay (vb st : List Char) (paths : List (List Char)) (h1 : SvgPlain vb) (h2 : SvgPlain st) (h3 : ∀ d ∈ paths, SvgPlain d) :
    text vb st paths = (Lay.elem [] "svg" [("xmlns", "http://www.w3.org/2000/svg"), ("version", "1.1"), ("viewBox", String.ofList vb)]
      (.elem [] "style" [] .nil st (Dolfin.emps [] "path" (paths.map fun d => [("d", String.ofList d)]))) [] .nil).render := by
  unfold text
  rw [escAttr_plain vb h1, escText_plain st h2]
  have : (paths.flatMap fun d => "<path d=\"".toList ++ escAttr d ++ "\" />".toList) =
      (Dolfin.emps [] "path" (paths.map fun d => [("d", String.ofList d)])).render := by
    rw [Dolfin.emps_render, List.flatMap_map]
    apply flatMap_congr'
    intro d hd
    rw [escAttr_plain d (h3 d hd)]
    simp [Lay.attrsText, Cxml.attr]
  rw [this]
  generalize (Dolfin.emps [] "path" (paths.map fun d => [("d", String.ofList d)])) = l
  simp only [Lay.render]
  generalize l.render = r
  simp [Lay.attrsText, Cxml.attr]

theorem emps_plain' {paths : List (List Char)} (h : ∀ d ∈ paths, SvgPlain d) :
    (Dolfin.emps [] "path" (paths.map fun d => [("d", String.ofList d)])).Plain := by
  apply Dolfin.emps_plain _ _ _ (by decide +kernel) (by decide +kernel)
  intro as has
  obtain ⟨d, hd, rfl⟩ := List.mem_map.mp has
  refine ⟨?_, by simp⟩
  intro x hx
  simp only [List.mem_cons, List.not_mem_nil, or_false] at hx
  subst hx
  exact ⟨(by decide +kernel : XmlName "d"), (h d hd).value⟩

theorem mapRes_ok_each {α β : Type} {f : α → Res β} {l : List α} {r : List β} (h : mapRes f l = .ok r) : ∀ x ∈ l, ∃ y, f x = .ok y := by
  induction l generalizing r with
  | nil => simp
  | cons a l ih =>
    unfold mapRes at h
    split at h
    · cases h
    · rename_i y hy
      split at h
      · cases h
      · rename_i ys hys
        intro x hx
        rcases List.mem_cons.mp hx with rfl | hx
        · exact ⟨y, hy⟩
        · exact ih hys x hx

theorem minOf_spec (a : Arith Rat) (h : ExactArith a) (l : List Rat) (hl : l ≠ []) : minOf a l ∈ l ∧ ∀ x ∈ l, minOf a l ≤ x := by
  cases l with
  | nil => exact absurd rfl hl
  | cons x l =>
    unfold minOf
    have : ∀ (l : List Rat) (x : Rat), (l.foldl (fun m y => if a.le m y then m else y) x = x ∨ l.foldl (fun m y => if a.le m y then m else y) x ∈ l) ∧
        l.foldl (fun m y => if a.le m y then m else y) x ≤ x ∧ ∀ z ∈ l, l.foldl (fun m y => if a.le m y then m else y) x ≤ z := by
      intro l
      induction l with
      | nil => intro x; exact ⟨.inl rfl, by grind, by simp⟩
      | cons y l ih =>
        intro x
        rw [List.foldl_cons]
        have hle := h.okLe x y
        by_cases hxy : x ≤ y
        · rw [hle, decide_eq_true hxy]
          obtain ⟨i1, i2, i3⟩ := ih x
          simp only [if_true]
          refine ⟨?_, i2, ?_⟩
          · rcases i1 with i1 | i1
            · exact .inl i1
            · exact .inr (by simp [i1])
          · intro z hz
            rcases List.mem_cons.mp hz with rfl | hz
            · grind
            · exact i3 z hz
        · rw [hle, decide_eq_false hxy]
          obtain ⟨i1, i2, i3⟩ := ih y
          simp only [Bool.false_eq_true, if_false]
          refine ⟨?_, by grind, ?_⟩
          · rcases i1 with i1 | i1
            · exact .inr (by rw [i1]; simp)
            · exact .inr (by simp [i1])
          · intro z hz
            rcases List.mem_cons.mp hz with rfl | hz
            · exact i2
            · exact i3 z hz
    obtain ⟨h1, h2, h3⟩ := this l x
    refine ⟨?_, ?_⟩
    · rcases h1 with h1 | h1
      · exact List.mem_cons.mpr (.inl h1)
      · exact List.mem_cons.mpr (.inr h1)
    · intro z hz
      rcases List.mem_cons.mp hz with rfl | hz
      · exact h2
      · exact h3 z hz

theorem maxOf_spec (a : Arith Rat) (h : ExactArith a) (l : List Rat) (hl : l ≠ []) : maxOf a l ∈ l ∧ ∀ x ∈ l, x ≤ maxOf a l := by
  cases l with
  | nil => exact absurd rfl hl
  | cons x l =>
    unfold maxOf
    have : ∀ (l : List Rat) (x : Rat), (l.foldl (fun m y => if a.le y m then m else y) x = x ∨ l.foldl (fun m y => if a.le y m then m else y) x ∈ l) ∧
        x ≤ l.foldl (fun m y => if a.le y m then m else y) x ∧ ∀ z ∈ l, z ≤ l.foldl (fun m y => if a.le y m then m else y) x := by
      intro l
      induction l with
      | nil => intro x; exact ⟨.inl rfl, by grind, by simp⟩
      | cons y l ih =>
        intro x
        rw [List.foldl_cons]
        have hle := h.okLe y x
        by_cases hxy : y ≤ x
        · rw [hle, decide_eq_true hxy]
          obtain ⟨i1, i2, i3⟩ := ih x
          simp only [if_true]
          refine ⟨?_, i2, ?_⟩
          · rcases i1 with i1 | i1
            · exact .inl i1
            · exact .inr (by simp [i1])
          · intro z hz
            rcases List.mem_cons.mp hz with rfl | hz
            · grind
            · exact i3 z hz
        · rw [hle, decide_eq_false hxy]
          obtain ⟨i1, i2, i3⟩ := ih y
          simp only [Bool.false_eq_true, if_false]
          refine ⟨?_, by grind, ?_⟩
          · rcases i1 with i1 | i1
            · exact .inr (by rw [i1]; simp)
            · exact .inr (by simp [i1])
          · intro z hz
            rcases List.mem_cons.mp hz with rfl | hz
            · exact i2
            · exact i3 z hz
    obtain ⟨h1, h2, h3⟩ := this l x
    refine ⟨?_, ?_⟩
    · rcases h1 with h1 | h1
      · exact List.mem_cons.mpr (.inl h1)
      · exact List.mem_cons.mpr (.inr h1)
    · intro z hz
      rcases List.mem_cons.mp hz with rfl | hz
      · exact h2
      · exact h3 z hz

end Meshio.Svg
