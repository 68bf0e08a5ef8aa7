/-
Lemmas about UGRID files.
-/
import Verif.Model.Ugrid
import Verif.Base.Scan
import Verif.Proofs.Xdmf
import Verif.Props.Types
namespace Meshio.Ugrid
open Types Tables

variable {α F : Type}

/-- What a medium has to do: numbers come out as they were put in, floats after rounding. -/
structure Good (m : Medium α F) (fits : Int → Prop) (round : F → F) where
  Holds : List α → List α → Prop
  start : ∀ s, Holds s s
  nil : m.putInts [] = []
  ints : ∀ s rows rest, Holds s (m.putInts rows ++ rest) → (∀ r ∈ rows, r ≠ [] ∧ ∀ z ∈ r, fits z) →
    ∃ s', m.getInts rows.flatten.length s = (rows.flatten, s') ∧ Holds s' rest
  flts : ∀ s rows rest, Holds s (m.putFlts rows ++ rest) → (∀ r ∈ rows, r ≠ []) →
    ∃ s', m.getFlts rows.flatten.length s = (rows.flatten.map round, s') ∧ Holds s' rest

/-- Text: all floats are rounded to four bytes. -/
def goodText (io : FileFloat F) : Good (textMedium io) (fun _ => True) io.single where
  Holds s t := ∃ w, (∀ c ∈ w, isWs c = true) ∧ s = w ++ t
  start s := ⟨[], by simp, rfl⟩
  nil := rfl
  ints s rows rest := by
    rintro ⟨w, hw, rfl⟩ hr
    have := scan_rows' parseInt fmtInt id isTok_fmtInt rows (fun r _ x _ => parseInt_fmtInt x) (fun r h => (hr r h).1) w hw rest
    rw [List.map_id] at this
    refine ⟨_, this, ?_⟩
    split
    · exact ⟨w, hw, rfl⟩
    · exact ⟨['\n'], by intro c hc; simp at hc; subst hc; decide, rfl⟩
  flts s rows rest := by
    rintro ⟨w, hw, rfl⟩ hr
    have := scan_rows' io.parse io.fmt io.single io.tok rows (fun r _ x _ => io.parse_fmt x) hr w hw rest
    refine ⟨_, this, ?_⟩
    split
    · exact ⟨w, hw, rfl⟩
    · exact ⟨['\n'], by intro c hc; simp at hc; subst hc; decide, rfl⟩

theorem take_items {A : Type} (k : Nat) (hk : 0 < k) (f : A → List Byte) (l : List A) (h : ∀ a ∈ l, (f a).length = k)
    (rest : List Byte) :
    items k (min l.length ((l.flatMap f ++ rest).length / k)) (l.flatMap f ++ rest) = l.map f ∧
      (l.flatMap f ++ rest).drop (k * l.length) = rest := by
  have hl : (l.flatMap f).length = l.length * k := length_flatMap_const k f l h
  have hmin : min l.length ((l.flatMap f ++ rest).length / k) = l.length := by
    rw [Nat.min_eq_left]
    rw [Nat.le_div_iff_mul_le hk, List.length_append, hl]
    omega
  rw [hmin]
  refine ⟨items_flatMap k f l h rest, ?_⟩
  rw [List.drop_left']
  rw [hl, Nat.mul_comm]

/-- Bytes: integers must fit, floats are rounded if four bytes are used. -/
def goodByte (io : FileFloat F) (t : FileType) (hf : t.fsize = 4 ∨ t.fsize = 8) (hi : 0 < t.isize) :
    Good (byteMedium io t) (IsInt t.isize) (if t.fsize = 8 then id else io.single) where
  Holds s t := s = t
  start s := rfl
  nil := rfl
  ints s rows rest := by
    rintro rfl hr
    obtain ⟨h1, h2⟩ := take_items t.isize hi (intEnc t.big t.isize) rows.flatten (fun _ _ => length_intEnc _ _ _) rest
    refine ⟨rest, ?_, rfl⟩
    show ((items t.isize (min rows.flatten.length ((rows.flatten.flatMap (intEnc t.big t.isize) ++ rest).length / t.isize))
      (rows.flatten.flatMap (intEnc t.big t.isize) ++ rest)).map (intDec t.big),
      (rows.flatten.flatMap (intEnc t.big t.isize) ++ rest).drop _) = _
    rw [h1, h2, List.map_map]
    congr 1
    conv => rhs; rw [← List.map_id rows.flatten]
    apply List.map_congr_left
    intro z hz
    obtain ⟨r, hrm, hzr⟩ := List.mem_flatten.1 hz
    exact intDec_intEnc _ _ _ ((hr r hrm).2 z hzr)
  flts s rows rest := by
    rintro rfl hr
    have hk : 0 < t.fsize := by omega
    obtain ⟨h1, h2⟩ := take_items t.fsize hk (io.enc t.big t.fsize) rows.flatten (fun _ _ => io.len _ _ _) rest
    refine ⟨rest, ?_, rfl⟩
    show ((items t.fsize (min rows.flatten.length ((rows.flatten.flatMap (io.enc t.big t.fsize) ++ rest).length / t.fsize))
      (rows.flatten.flatMap (io.enc t.big t.fsize) ++ rest)).map (io.dec t.big t.fsize),
      (rows.flatten.flatMap (io.enc t.big t.fsize) ++ rest).drop _) = _
    rw [h1, h2, List.map_map]
    congr 1
    apply List.map_congr_left
    intro z _
    rcases hf with h | h
    · rw [h]; simp only [Function.comp_apply, io.dec_enc4]; rfl
    · rw [h]; simp only [Function.comp_apply, io.dec_enc8]; rfl

/-- A section: type, number of nodes, cells. -/
structure Sec where
  type : String
  width : Nat
  rows : List (List Int)

/-- Cells fit into their section. -/
def Sec.Ok (fits : Int → Prop) (c : Sec) : Prop :=
  0 < c.width ∧ (c.type = "pyramid" → c.width = 5) ∧ ∀ r ∈ c.rows, r.length = c.width ∧ ∀ z ∈ r, fits (z + 1)

/-- The numbers of one cell in the file. -/
def fileRow (t : String) (r : List Int) : List Int :=
  match ugridWrite t (r.map (· + 1)) with
  | .ok s => s
  | .error _ => []

theorem fileRow_facts (fits : Int → Prop) (c : Sec) (h : c.Ok fits) (r : List Int) (hr : r ∈ c.rows) :
    ugridWrite c.type (r.map (· + 1)) = .ok (fileRow c.type r) ∧ (fileRow c.type r).length = c.width ∧
      ugridRead c.type (fileRow c.type r) = .ok (r.map (· + 1)) ∧ ∀ z ∈ fileRow c.type r, fits z := by
  obtain ⟨h1, h2, h3⟩ := h
  obtain ⟨hl, hz⟩ := h3 r hr
  obtain ⟨s, hs1, hs2, hs3⟩ := Props.C17_ugrid c.type (r.map (· + 1)) (by intro ht; rw [List.length_map, hl, h2 ht])
  have hfr : fileRow c.type r = s := by unfold fileRow; rw [hs1]
  rw [hfr]
  refine ⟨hs1, by rw [hs2, List.length_map, hl], hs3, ?_⟩
  intro z hzs
  have : z ∈ r.map (· + 1) := by
    unfold ugridWrite at hs1
    split at hs1
    · exact mem_pick hs1 z hzs
    · cases hs1; exact hzs
  obtain ⟨y, hy, rfl⟩ := List.mem_map.1 this
  exact hz y hy

theorem stored_ok (fits : Int → Prop) (c : Sec) (h : c.Ok fits) : stored c.type c.rows = .ok (c.rows.map (fileRow c.type)) := by
  unfold stored
  apply mapRes_ok_of_forall
  intro r hr
  exact (fileRow_facts fits c h r hr).1

/-- Blocks that have cells. -/
def blocksOf (cs : List Sec) : List (String × List (List Int)) :=
  (cs.filter fun c => decide (c.rows ≠ [])).map fun c => (c.type, c.rows)

theorem readBlocks_ok {m : Medium α F} {fits : Int → Prop} {round : F → F} (g : Good m fits round) (cs : List Sec)
    (h : ∀ c ∈ cs, c.Ok fits) (s rest : List α)
    (hs : g.Holds s ((cs.flatMap fun c => m.putInts (c.rows.map (fileRow c.type))) ++ rest)) :
    ∃ s', readBlocks m (cs.map fun c => (c.type, c.rows.length, c.width)) s = .ok (blocksOf cs, s') ∧ g.Holds s' rest := by
  induction cs generalizing s with
  | nil => exact ⟨s, rfl, hs⟩
  | cons c cs ih =>
    have hc := h c (by simp)
    have ih := ih (fun c' h' => h c' (by simp [h']))
    rw [List.flatMap_cons, List.append_assoc] at hs
    rw [List.map_cons, readBlocks]
    by_cases h0 : c.rows = []
    · rw [if_pos (by simp [h0])]
      rw [h0, List.map_nil, g.nil, List.nil_append] at hs
      obtain ⟨s', h1, h2⟩ := ih s hs
      refine ⟨s', ?_, h2⟩
      rw [h1]
      simp [blocksOf, h0]
    · rw [if_neg (by simpa using h0)]
      have hlen : ∀ r ∈ c.rows.map (fileRow c.type), r.length = c.width := by
        intro r hr
        obtain ⟨r0, hr0, rfl⟩ := List.mem_map.1 hr
        exact (fileRow_facts fits c hc r0 hr0).2.1
      obtain ⟨s1, h1, h2⟩ := g.ints s _ _ hs (by
        intro r hr
        refine ⟨?_, ?_⟩
        · intro e
          have := hlen r hr
          rw [e, List.length_nil] at this
          have := hc.1
          omega
        · obtain ⟨r0, hr0, rfl⟩ := List.mem_map.1 hr
          exact (fileRow_facts fits c hc r0 hr0).2.2.2)
      have hfl := length_flatten_const c.width _ hlen
      rw [List.length_map] at hfl
      rw [hfl] at h1
      obtain ⟨s', h3, h4⟩ := ih s1 h2
      have hrs := reshape_flatten c.width _ hlen
      rw [List.length_map] at hrs
      refine ⟨s', ?_, h4⟩
      simp only [h1, hrs]
      rw [Xdmf.mapRes_map, mapRes_ok_of_forall (g := fun r : List Int => r.map (· + 1))
        (h := fun r hr => (fileRow_facts fits c hc r hr).2.2.1)]
      simp only [h3]
      have : (c.rows.map fun r => r.map (· + 1)).map (fun r => r.map (· - 1)) = c.rows := by
        rw [List.map_map]
        conv => rhs; rw [← List.map_id c.rows]
        apply List.map_congr_left
        intro r _
        simp only [Function.comp_apply, List.map_map, id]
        conv => rhs; rw [← List.map_id r]
        apply List.map_congr_left
        intro z _
        simp only [Function.comp_apply, id]
        omega
      rw [this]
      simp [blocksOf, h0]

theorem flatten_singles {A : Type} (t : List A) : (t.map fun z => [z]).flatten = t := by
  induction t with
  | nil => rfl
  | cons z t ih => rw [List.map_cons, List.flatten_cons, ih]; rfl

theorem readTags_ok {m : Medium α F} {fits : Int → Prop} {round : F → F} (g : Good m fits round) (ts : List (List Int))
    (h : ∀ t ∈ ts, ∀ z ∈ t, fits z) (s rest : List α)
    (hs : g.Holds s ((ts.flatMap fun t => m.putInts (t.map fun z => [z])) ++ rest)) :
    ∃ s', readTags m (ts.map (·.length)) s = (ts.filter (fun t => decide (t ≠ [])), s') ∧ g.Holds s' rest := by
  induction ts generalizing s with
  | nil => exact ⟨s, rfl, hs⟩
  | cons t ts ih =>
    have ih := ih (fun c' h' => h c' (by simp [h']))
    rw [List.flatMap_cons, List.append_assoc] at hs
    rw [List.map_cons, readTags]
    by_cases h0 : t = []
    · rw [if_pos (by simp [h0])]
      rw [h0, List.map_nil, g.nil, List.nil_append] at hs
      obtain ⟨s', h1, h2⟩ := ih s hs
      exact ⟨s', by rw [h1]; simp [h0], h2⟩
    · rw [if_neg (by simpa using h0)]
      obtain ⟨s1, h1, h2⟩ := g.ints s _ _ hs (by
        intro r hr
        obtain ⟨z, hz, rfl⟩ := List.mem_map.1 hr
        refine ⟨by simp, fun y hy => ?_⟩
        rw [List.mem_singleton] at hy
        rw [hy]
        exact h t (by simp) z hz)
      have hfl : (t.map fun z => [z]).flatten = t := flatten_singles t
      rw [hfl] at h1
      obtain ⟨s', h3, h4⟩ := ih s1 h2
      refine ⟨s', ?_, h4⟩
      simp only [h1, h3]
      simp [h0]

theorem skipMark_ok {m : Medium α F} {fits : Int → Prop} {round : F → F} (g : Good m fits round) (fortran : Bool) (z : Int)
    (hz : fits z) (s rest : List α) (hs : g.Holds s ((if fortran then m.putInts [[z]] else []) ++ rest)) :
    g.Holds (skipMark m fortran s) rest := by
  unfold skipMark
  cases fortran with
  | false => simpa using hs
  | true =>
    simp only [if_true] at hs ⊢
    obtain ⟨s', h1, h2⟩ := g.ints s _ _ hs (by
      intro r hr
      rw [List.mem_singleton] at hr
      subst hr
      exact ⟨by simp, by simpa using hz⟩)
    have : [[z]].flatten.length = 1 := rfl
    rw [this] at h1
    rw [h1]
    exact h2

end Meshio.Ugrid
