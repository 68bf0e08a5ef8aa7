/-
C71: an SVG picture shows every line, triangle and quadrilateral of a flat mesh, in order, inside of its view box.
-/
import Verif.Proofs.Svg
namespace Meshio.Props
open Meshio Meshio.Spec Meshio.Svg

variable {F : Type}

/-- The document: the root has the view box of the placed points, then come the style sheet and one path for each line, triangle and quadrilateral,
in the order of the mesh; cells of other types are left out. -/
theorem C71_document (a : Arith F) (ha : ∀ f x, SvgPlain (a.fmt f x)) (hs : ∀ x, SvgPlain (a.str x)) (o : Opts F) (hf : SvgPlain o.fill)
    (hk : SvgPlain o.stroke) (hw : ∀ w ∈ o.strokeWidth, SvgPlain w) (m : Svg.In F) (hm : SvgMesh a m) :
    ∃ s root, Svg.write a o m = .ok s ∧ parseXml s = some root ∧ root.tag = "svg" ∧
      (let v := place a o.imageWidth (flatPoints m)
       let fm := fun x => String.ofList (a.fmt o.floatFmt x)
       root.attrs = [("xmlns", "http://www.w3.org/2000/svg"), ("version", "1.1"),
         ("viewBox", fm v.minX ++ " " ++ fm v.minY ++ " " ++ fm v.width ++ " " ++ fm v.height)] ∧
       root.kids = ⟨"style", [], ("path {fill: " ++ String.ofList o.fill ++ "; stroke: " ++ String.ofList o.stroke ++ "; stroke-width: " ++
           String.ofList (o.strokeWidth.getD (a.str (a.div v.width a.hundred))) ++ "; stroke-linejoin:bevel}").toList, .nil⟩ ::
         (drawn m).map fun c => ⟨"path", [("d", String.ofList (svgPath a o.floatFmt c.1 (c.2.filterMap fun i => v.pts[i.toNat]?)))], [], .nil⟩) := by
  obtain ⟨p1, p2⟩ := plane_ok a m hm
  have hl := place_length a o.imageWidth (flatPoints m)
  have hflat : ¬ (m.dim = 3 ∧ ¬ (m.points.all fun p => (p[2]?).all a.flat)) := by
    intro ⟨h1, h2⟩
    apply h2
    rw [List.all_eq_true]
    intro p hp
    have := hm.okFlat h1 p hp
    cases h : p[2]? with
    | none => rfl
    | some z => exact this z (by rw [h]; rfl)
  obtain ⟨l, l1, l2⟩ := blocks_ok a o.floatFmt (place a o.imageWidth (flatPoints m)).pts m.blocks (by
    intro b hb s hs e c hc
    rw [hl, p2]
    exact hm.okCells b hb s hs e c hc)
  have hw' : Svg.write a o m = .ok (text (joinWith ' ' ([(place a o.imageWidth (flatPoints m)).minX, (place a o.imageWidth (flatPoints m)).minY,
      (place a o.imageWidth (flatPoints m)).width, (place a o.imageWidth (flatPoints m)).height].map (a.fmt o.floatFmt)))
      (style a o (place a o.imageWidth (flatPoints m)).width) l.flatten) := by
    unfold Svg.write
    rw [if_neg hflat, p1]
    simp only [l1]
  have hpaths : ∀ d ∈ l.flatten, SvgPlain d := by
    intro d hd
    rw [l2] at hd
    obtain ⟨x, _, rfl⟩ := List.mem_map.mp hd
    exact svgPath_plain a ha _ _ _
  generalize place a o.imageWidth (flatPoints m) = v at *
  have hvb : SvgPlain (joinWith ' ' ([v.minX, v.minY, v.width, v.height].map (a.fmt o.floatFmt))) := by
    have sp : SvgPlain [' '] := by decide
    have := (((ha o.floatFmt v.minX).append sp).append (ha o.floatFmt v.minY)).append sp |>.append (ha o.floatFmt v.width) |>.append sp
      |>.append (ha o.floatFmt v.height)
    simpa [joinWith] using this
  have hst : SvgPlain (style a o v.width) := by
    unfold style
    refine SvgPlain.append (SvgPlain.append (SvgPlain.append (SvgPlain.append (SvgPlain.append (SvgPlain.append ?_ hf) ?_) hk) ?_) ?_) ?_
    · decide +kernel
    · decide +kernel
    · decide +kernel
    · cases h : o.strokeWidth with
      | none => exact hs _
      | some w => exact hw w (by rw [h]; rfl)
    · decide +kernel
  rw [text_lay _ _ _ hvb hst hpaths] at hw'
  refine ⟨_, _, hw', parseXml_lay _ _ _ _ ?_, rfl, ?_, ?_⟩
  · refine ⟨by decide +kernel, by decide +kernel, ⟨?_, by simp only [List.map_cons, List.map_nil]; decide +kernel⟩,
      ⟨by decide +kernel, by decide +kernel, ⟨by simp, by simp⟩, trivial, hst.text, emps_plain' hpaths⟩, by decide +kernel, trivial⟩
    intro x hx
    simp only [List.mem_cons, List.not_mem_nil, or_false] at hx
    rcases hx with rfl | rfl | rfl
    · exact ⟨by decide +kernel, by decide +kernel⟩
    · exact ⟨by decide +kernel, by decide +kernel⟩
    · exact ⟨(by decide +kernel : XmlName "viewBox"), hvb.value⟩
  · simp [joinWith, ← String.toList_inj]
  · show Xml.elems _ = _
    simp only [Lay.tree, Xml.elems, Lay.first]
    rw [Dolfin.emps_elems, l2, List.map_map, List.map_map]
    congr 1
    congr 1
    unfold style
    cases o.strokeWidth <;> simp

/-- The places of the points, with exact arithmetic: the picture is the mesh turned upside down and scaled by one positive factor in both directions
(image coordinates grow downwards), the view box is the smallest one that holds all the points, and if a width is asked for then the
view box has this width unless all points lie above each other. -/
theorem C71_view (a : Arith Rat) (ha : ExactArith a) (w : Option Rat) (hw : ∀ x ∈ w, 0 < x) (pts : List (Rat × Rat)) (hp : pts ≠ []) :
    ∃ s c : Rat, 0 < s ∧ (w = none → s = 1) ∧
      (let v := place a w pts
       v.pts = pts.map (fun p => (s * p.1, c - s * p.2)) ∧
       (∀ q ∈ v.pts, v.minX ≤ q.1 ∧ q.1 ≤ v.minX + v.width ∧ v.minY ≤ q.2 ∧ q.2 ≤ v.minY + v.height) ∧
       (∃ q ∈ v.pts, q.1 = v.minX) ∧ (∃ q ∈ v.pts, q.1 = v.minX + v.width) ∧
       (∃ q ∈ v.pts, q.2 = v.minY) ∧ (∃ q ∈ v.pts, q.2 = v.minY + v.height) ∧
       (∀ x ∈ w, (∃ p ∈ pts, ∃ q ∈ pts, p.1 ≠ q.1) → v.width = x)) := by
  have hx : pts.map (·.1) ≠ [] := by simpa using hp
  have hy : pts.map (·.2) ≠ [] := by simpa using hp
  obtain ⟨a1, a2⟩ := minOf_spec a ha _ hx
  obtain ⟨b1, b2⟩ := maxOf_spec a ha _ hx
  obtain ⟨c1, c2⟩ := minOf_spec a ha _ hy
  obtain ⟨d1, d2⟩ := maxOf_spec a ha _ hy
  simp only [List.mem_map] at a1 a2 b1 b2 c1 c2 d1 d2
  have key : ∀ s : Rat, 0 < s → ∀ v : View Rat,
      v = ⟨minOf a (pts.map (·.1)) * s, minOf a (pts.map (·.2)) * s, (maxOf a (pts.map (·.1)) - minOf a (pts.map (·.1))) * s,
        (maxOf a (pts.map (·.2)) - minOf a (pts.map (·.2))) * s,
        pts.map fun p => (p.1 * s, (maxOf a (pts.map (·.2)) + minOf a (pts.map (·.2)) - p.2) * s)⟩ →
      v.pts = pts.map (fun p => (s * p.1, s * (maxOf a (pts.map (·.2)) + minOf a (pts.map (·.2))) - s * p.2)) ∧
       (∀ q ∈ v.pts, v.minX ≤ q.1 ∧ q.1 ≤ v.minX + v.width ∧ v.minY ≤ q.2 ∧ q.2 ≤ v.minY + v.height) ∧
       (∃ q ∈ v.pts, q.1 = v.minX) ∧ (∃ q ∈ v.pts, q.1 = v.minX + v.width) ∧
       (∃ q ∈ v.pts, q.2 = v.minY) ∧ (∃ q ∈ v.pts, q.2 = v.minY + v.height) := by
    intro s hs v hv
    subst hv
    generalize minOf a (pts.map (·.1)) = x0 at *
    generalize maxOf a (pts.map (·.1)) = x1 at *
    generalize minOf a (pts.map (·.2)) = y0 at *
    generalize maxOf a (pts.map (·.2)) = y1 at *
    have mono : ∀ x y : Rat, x ≤ y → x * s ≤ y * s := fun x y h => Rat.mul_le_mul_of_nonneg_right h (by grind)
    refine ⟨?_, ?_, ?_, ?_, ?_, ?_⟩
    · apply List.map_congr_left
      intro p _
      refine Prod.ext ?_ ?_
      · show p.1 * s = s * p.1
        grind
      · show (y1 + y0 - p.2) * s = s * (y1 + y0) - s * p.2
        grind
    · intro q hq
      obtain ⟨p, hp, rfl⟩ := List.mem_map.mp hq
      have h1 := mono _ _ (a2 p.1 ⟨p, hp, rfl⟩)
      have h2 := mono _ _ (b2 p.1 ⟨p, hp, rfl⟩)
      have h3 := mono _ _ (c2 p.2 ⟨p, hp, rfl⟩)
      have h4 := mono _ _ (d2 p.2 ⟨p, hp, rfl⟩)
      refine ⟨h1, ?_, ?_, ?_⟩
      · show p.1 * s ≤ x0 * s + (x1 - x0) * s
        grind
      · show y0 * s ≤ (y1 + y0 - p.2) * s
        grind
      · show (y1 + y0 - p.2) * s ≤ y0 * s + (y1 - y0) * s
        grind
    · obtain ⟨p, hp, h⟩ := a1
      exact ⟨_, List.mem_map.mpr ⟨p, hp, rfl⟩, by rw [← h]⟩
    · obtain ⟨p, hp, h⟩ := b1
      refine ⟨_, List.mem_map.mpr ⟨p, hp, rfl⟩, ?_⟩
      show p.1 * s = x0 * s + (x1 - x0) * s
      rw [h]
      grind
    · obtain ⟨p, hp, h⟩ := d1
      refine ⟨_, List.mem_map.mpr ⟨p, hp, rfl⟩, ?_⟩
      show (y1 + y0 - p.2) * s = y0 * s
      rw [h]
      grind
    · obtain ⟨p, hp, h⟩ := c1
      refine ⟨_, List.mem_map.mpr ⟨p, hp, rfl⟩, ?_⟩
      show (y1 + y0 - p.2) * s = y0 * s + (y1 - y0) * s
      rw [h]
      grind
  have plainPlace : (⟨minOf a (pts.map (·.1)), minOf a (pts.map (·.2)), maxOf a (pts.map (·.1)) - minOf a (pts.map (·.1)),
      maxOf a (pts.map (·.2)) - minOf a (pts.map (·.2)),
      pts.map fun p => (p.1, maxOf a (pts.map (·.2)) + minOf a (pts.map (·.2)) - p.2)⟩ : View Rat) =
      ⟨minOf a (pts.map (·.1)) * 1, minOf a (pts.map (·.2)) * 1, (maxOf a (pts.map (·.1)) - minOf a (pts.map (·.1))) * 1,
        (maxOf a (pts.map (·.2)) - minOf a (pts.map (·.2))) * 1,
        pts.map fun p => (p.1 * 1, (maxOf a (pts.map (·.2)) + minOf a (pts.map (·.2)) - p.2) * 1)⟩ := by
    simp only [Rat.mul_one]
  cases w with
  | none =>
    obtain ⟨k1, k2⟩ := key 1 (by decide) _ plainPlace
    refine ⟨1, 1 * (maxOf a (pts.map (·.2)) + minOf a (pts.map (·.2))), by decide, fun _ => rfl, ?_⟩
    unfold place
    simp only [ha.okSub, ha.okAdd]
    exact ⟨k1, k2.1, k2.2.1, k2.2.2.1, k2.2.2.2.1, k2.2.2.2.2, by simp⟩
  | some x =>
    by_cases h0 : maxOf a (pts.map (·.1)) - minOf a (pts.map (·.1)) = 0
    · obtain ⟨k1, k2⟩ := key 1 (by decide) _ plainPlace
      refine ⟨1, 1 * (maxOf a (pts.map (·.2)) + minOf a (pts.map (·.2))), by decide, fun _ => rfl, ?_⟩
      unfold place
      simp only [ha.okSub, ha.okAdd, ha.okIsZero, decide_eq_true h0, if_true]
      refine ⟨k1, k2.1, k2.2.1, k2.2.2.1, k2.2.2.2.1, k2.2.2.2.2, ?_⟩
      intro _ _ ⟨p, hp, q, hq, hpq⟩
      have h1 := a2 p.1 ⟨p, hp, rfl⟩
      have h2 := b2 p.1 ⟨p, hp, rfl⟩
      have h3 := a2 q.1 ⟨q, hq, rfl⟩
      have h4 := b2 q.1 ⟨q, hq, rfl⟩
      exact absurd (by grind) hpq
    · have hpos : 0 < maxOf a (pts.map (·.1)) - minOf a (pts.map (·.1)) := by
        obtain ⟨p, hp, h⟩ := a1
        have := b2 _ ⟨p, hp, rfl⟩
        grind
      have hs : 0 < x / (maxOf a (pts.map (·.1)) - minOf a (pts.map (·.1))) := by
        have hx0 := hw x rfl
        rw [Rat.div_def]
        exact Rat.mul_pos hx0 (Rat.inv_pos.mpr hpos)
      obtain ⟨k1, k2⟩ := key _ hs _ rfl
      refine ⟨x / (maxOf a (pts.map (·.1)) - minOf a (pts.map (·.1))),
        x / (maxOf a (pts.map (·.1)) - minOf a (pts.map (·.1))) * (maxOf a (pts.map (·.2)) + minOf a (pts.map (·.2))), hs, by simp, ?_⟩
      unfold place
      simp only [ha.okSub, ha.okAdd, ha.okIsZero, ha.okMul, ha.okDiv, decide_eq_false h0, Bool.false_eq_true, if_false, List.map_map]
      refine ⟨k1, k2.1, k2.2.1, k2.2.2.1, k2.2.2.2.1, k2.2.2.2.2, ?_⟩
      intro y hy _
      have hxy : x = y := by simpa using hy
      subst hxy
      rw [Rat.mul_comm]
      exact Rat.div_mul_cancel h0

/-- A mesh in space with a point that is not flat is refused. -/
theorem C71_not_flat (a : Arith F) (o : Opts F) (m : Svg.In F) (hd : m.dim = 3) (p : List F) (hp : p ∈ m.points) (z : F) (hz : p[2]? = some z)
    (h : a.flat z = false) : Svg.write a o m = .error .writeError := by
  unfold Svg.write
  rw [if_pos]
  refine ⟨hd, ?_⟩
  intro hall
  have := List.all_eq_true.mp hall p hp
  rw [hz] at this
  simp [h] at this

/-- A drawn cell with a corner that does not exist is refused. -/
theorem C71_missing_point (a : Arith F) (o : Opts F) (m : Svg.In F) (b : String × List (List Int)) (hb : b ∈ m.blocks)
    (ht : b.1 ∈ svgShapes.map (·.1)) (c : List Int) (hc : c ∈ b.2) (i : Int) (hi : i ∈ c) (h : m.points.length ≤ i) :
    ∃ e, Svg.write a o m = .error e := by
  cases hw : Svg.write a o m with
  | error e => exact ⟨e, rfl⟩
  | ok s =>
    exfalso
    unfold Svg.write at hw
    split at hw
    · cases hw
    · split at hw
      · cases hw
      · rename_i pts hpts
        have hlen : pts.length = m.points.length := by
          unfold plane at hpts
          split at hpts
          · cases hpts
          · exact mapRes_length hpts
        dsimp only at hw
        split at hw
        · cases hw
        · rename_i paths hpaths
          obtain ⟨l, hl⟩ := mapRes_ok_each hpaths b hb
          unfold blockPaths at hl
          have hsh : ∃ k closed, shape b.1 = some (k, closed) := by
            simp only [svgShapes, List.map_cons, List.map_nil, List.mem_cons, List.not_mem_nil, or_false] at ht
            rcases ht with ht | ht | ht <;> rw [ht] <;> exact ⟨_, _, rfl⟩
          obtain ⟨k, closed, hsh⟩ := hsh
          rw [hsh] at hl
          dsimp only at hl
          obtain ⟨d, hd⟩ := mapRes_ok_each hl c hc
          unfold cellPath at hd
          split at hd
          · cases hd
          · rename_i ps hps
            obtain ⟨p, hp⟩ := mapRes_ok_each hps i hi
            unfold corner at hp
            have : (place a o.imageWidth pts).pts[(if i < 0 then i + (place a o.imageWidth pts).pts.length else i).toNat]? = none := by
              rw [List.getElem?_eq_none]
              rw [place_length, hlen, if_neg (by omega)]
              omega
            rw [this] at hp
            cases hp

/-- Drawing needs two coordinates. -/
theorem C71_needs_two_coordinates (a : Arith F) (o : Opts F) (m : Svg.In F) (h : m.dim < 2) : Svg.write a o m = .error .indexError := by
  unfold Svg.write plane
  rw [if_neg (by omega), if_pos h]

/-- Numbers that are printed as integers, for examples. -/
def ratArith : Arith Rat :=
  ⟨0, 100, (· + ·), (· - ·), (· * ·), (· / ·), fun x y => decide (x ≤ y), fun x => decide (x = 0), fun x => decide (x = 0),
    fun _ x => fmtInt x.num, fun x => fmtInt x.num⟩

def svgExample : Svg.In Rat :=
  ⟨2, [[0, 0], [2, 0], [2, 1], [0, 1]], [("vertex", [[0]]), ("quad", [[0, 1, 2, 3]]), ("triangle", [[0, 1, 2]]), ("line", [[0, 2]])]⟩

example : SvgMesh ratArith svgExample := by
  refine ⟨by decide, by decide +kernel, by decide +kernel, ?_⟩
  exact (by decide +kernel : ∀ b ∈ svgExample.blocks, ∀ s ∈ svgShapes, b.1 = s.1 → ∀ c ∈ b.2,
    c.length = s.2.1 ∧ ∀ i ∈ c, 0 ≤ i ∧ i < svgExample.points.length)

example : ExactArith ratArith := ⟨rfl, rfl, rfl, rfl, rfl, fun _ _ => rfl, fun _ => rfl⟩

example : Svg.write ratArith ⟨[], none, some 4, "none".toList, "black".toList⟩ svgExample = .ok
    ("<svg xmlns=\"http://www.w3.org/2000/svg\" version=\"1.1\" viewBox=\"0 0 4 2\"><style>path {fill: none; stroke: black; stroke-width: 1; " ++
     "stroke-linejoin:bevel}</style><path d=\"M 0 2L 4 2L 4 0L 0 0Z\" /><path d=\"M 0 2L 4 2L 4 0Z\" /><path d=\"M 0 2L 4 0\" /></svg>").toList := by
  decide +kernel

example : Svg.write ratArith ⟨[], none, none, [], []⟩ ⟨3, [[0, 0, 1]], []⟩ = .error .writeError := by decide +kernel

end Meshio.Props
