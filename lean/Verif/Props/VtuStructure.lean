/-
C65: the structure that every VTU file has that is read.
-/
import Verif.Props.VtuFile
import Verif.Proofs.Svg
namespace Meshio.Props
open Meshio Meshio.Spec Meshio.VtuFile Meshio.VtkFile Meshio.Vtu Meshio.Vtk Meshio.Tables

variable {F : Type}

/-- A section of a piece: the points are one array, all others are named arrays, and the cells have at least connectivity, offsets and
types.  (A corrupt array of the point data may go without a name.) -/
def VtuSection (c : XmlElem) : Prop :=
  (∀ e ∈ c.kids, e.tag = "DataArray") ∧
  (c.tag = "Points" ∧ c.kids.length = 1 ∨ c.tag = "PointData" ∨ c.tag = "CellData" ∧ (∀ e ∈ c.kids, (e.attr? "Name").isSome) ∨
    c.tag = "Cells" ∧ (∀ e ∈ c.kids, (e.attr? "Name").isSome) ∧
      ∀ n ∈ ["connectivity", "offsets", "types"], ∃ e ∈ c.kids, e.attr? "Name" = some n)

/-- A piece: its size and its sections. -/
def VtuPieceElem (p : XmlElem) : Prop :=
  (∃ n, intAttr p "NumberOfPoints" = .ok n) ∧ (∃ n, intAttr p "NumberOfCells" = .ok n) ∧ ∀ c ∈ p.kids, VtuSection c

theorem vtus_named {io : VtuIO F} {cfg : Cfg} {l : List XmlElem} {d r : Dict (Arr (Num F))} (h : namedArrays io cfg d l = .ok r) :
    (∀ e ∈ l, e.tag = "DataArray" ∧ (e.attr? "Name").isSome) ∧
      ∀ n, (Dict.get? r n).isSome → (Dict.get? d n).isSome ∨ ∃ e ∈ l, e.attr? "Name" = some n := by
  induction l generalizing d with
  | nil => cases h; exact ⟨by simp, fun n hn => .inl hn⟩
  | cons c l ih =>
    unfold namedArrays at h
    split at h
    · cases h
    · rename_i ht
      split at h
      · cases h
      · rename_i a ha
        split at h
        · cases h
        · rename_i n hn
          obtain ⟨h1, h2⟩ := ih h
          refine ⟨?_, ?_⟩
          · intro e he
            rcases List.mem_cons.1 he with rfl | he
            · exact ⟨by simpa using ht, by rw [hn]; rfl⟩
            · exact h1 e he
          · intro m hm
            rcases h2 m hm with h3 | ⟨e, he, h3⟩
            · rw [Dict.get?_set] at h3
              by_cases hmn : m = n
              · exact .inr ⟨c, by simp, by rw [hn, hmn]⟩
              · rw [if_neg hmn] at h3
                exact .inl h3
            · exact .inr ⟨e, by simp [he], h3⟩

theorem vtus_pointData {io : VtuIO F} {cfg : Cfg} {l : List XmlElem} {d r : Dict (Arr (Num F))} (h : pointArrays io cfg d l = .ok r) :
    ∀ e ∈ l, e.tag = "DataArray" := by
  induction l generalizing d with
  | nil => simp
  | cons c l ih =>
    unfold pointArrays at h
    split at h
    · cases h
    · rename_i ht
      have hc : c.tag = "DataArray" := by simpa using ht
      split at h
      · split at h
        · intro e he
          rcases List.mem_cons.1 he with rfl | he
          · exact hc
          · exact ih h e he
        · cases h
      · split at h
        · cases h
        · intro e he
          rcases List.mem_cons.1 he with rfl | he
          · exact hc
          · exact ih h e he

theorem vtus_cells {d : Dict (Arr (Num F))} {n : Int} {c : CellArrays} (h : cellSection d n = .ok c) :
    ∀ k ∈ ["connectivity", "offsets", "types"], (Dict.get? d k).isSome := by
  unfold cellSection at h
  split at h
  · rename_i o t ho ht
    split at h
    · cases h
    · split at h
      · cases h
      · rename_i x hx
        intro k hk
        simp only [List.mem_cons, List.not_mem_nil, or_false] at hk
        rcases hk with rfl | rfl | rfl
        · rw [hx]; rfl
        · rw [ho]; rfl
        · rw [ht]; rfl
  · cases h

theorem vtus_sec {io : VtuIO F} {cfg : Cfg} {np nc : Int} {c : XmlElem} {r : String × Sec F} (h : readSec io cfg np nc c = .ok r) : VtuSection c := by
  unfold readSec at h
  split at h
  · rename_i ht
    cases hp : pointSection io cfg c.kids np with
    | error e => rw [hp] at h; cases h
    | ok a =>
      unfold pointSection at hp
      split at hp
      · rename_i e he
        split at hp
        · cases hp
        · rename_i hd
          refine ⟨?_, .inl ⟨ht, by rw [he]; rfl⟩⟩
          intro x hx
          rw [he] at hx
          rw [List.mem_singleton.1 hx]
          simpa using hd
      · cases hp
  · split at h
    · rename_i ht
      split at h
      · cases h
      · rename_i d hd
        obtain ⟨h1, h2⟩ := vtus_named hd
        refine ⟨fun e he => (h1 e he).1, .inr (.inr (.inr ⟨ht, fun e he => (h1 e he).2, ?_⟩))⟩
        intro n hn
        cases hc : cellSection d nc with
        | error e => rw [hc] at h; cases h
        | ok x =>
          rcases h2 n (vtus_cells hc n hn) with h3 | h3
          · simp [Dict.get?] at h3
          · exact h3
    · split at h
      · rename_i ht
        cases hp : pointArrays io cfg [] c.kids with
        | error e => rw [hp] at h; cases h
        | ok d => exact ⟨vtus_pointData hp, .inr (.inl ht)⟩
      · split at h
        · rename_i ht
          cases hp : namedArrays io cfg [] c.kids with
          | error e => rw [hp] at h; cases h
          | ok d =>
            obtain ⟨h1, -⟩ := vtus_named hp
            exact ⟨fun e he => (h1 e he).1, .inr (.inr (.inl ⟨ht, fun e he => (h1 e he).2⟩))⟩
        · cases h

theorem vtus_piece {io : VtuIO F} {cfg : Cfg} {p : XmlElem} {r : PieceArrs F} (h : readPiece io cfg p = .ok r) : VtuPieceElem p := by
  unfold readPiece at h
  split at h
  · rename_i np nc hp hc
    split at h
    · cases h
    · rename_i secs hs
      refine ⟨⟨_, hp⟩, ⟨_, hc⟩, ?_⟩
      intro c hcm
      obtain ⟨y, hy⟩ := Svg.mapRes_ok_each hs c hcm
      exact vtus_sec hy
  · cases h
  · cases h

/-- Whatever is read comes from one grid of pieces and field data; each piece has its numbers of points and cells, and only sections of the
four kinds, made of `DataArray`s. -/
theorem C65_structure (io : VtuIO F) (sysBig : Bool) (root : XmlElem) (m : VtuFile.Out F) (h : readRoot io sysBig root = .ok m) :
    ∀ g ∈ root.kids, g.tag = "UnstructuredGrid" →
      (∃ p ∈ g.kids, p.tag = "Piece" ∧ ∃ c ∈ p.kids, c.tag = "Points") ∧
      ∀ p ∈ g.kids, p.tag = "FieldData" ∨ p.tag = "Piece" ∧ VtuPieceElem p := by
  intro g hg hgt
  have h0 := h
  unfold readRoot at h
  split at h
  · cases h
  · rename_i c hd b hcfg
    split at h
    · cases h
    · rename_i g' a hgg
      have key : ∀ (l : List XmlElem) (g0 : Option XmlElem) (a : Option (List Char)) y, getGrid l g0 a = .ok y →
          (∀ g ∈ g0, y.1 = g) ∧ ∀ g ∈ l, g.tag = "UnstructuredGrid" → y.1 = g := by
        intro l
        induction l with
        | nil =>
          intro g0 a y h
          cases g0 with
          | none => cases h
          | some g => cases h; simp
        | cons c l ih =>
          intro g0 a y h
          unfold getGrid at h
          split at h
          · cases g0 with
            | some g => cases h
            | none =>
              obtain ⟨h1, h2⟩ := ih _ _ _ h
              refine ⟨by simp, ?_⟩
              intro g hg ht
              rcases List.mem_cons.1 hg with rfl | hg
              · exact h1 g rfl
              · exact h2 g hg ht
          · rename_i hct
            split at h
            · cases h
            · cases a with
              | some a => cases h
              | none =>
                simp only at h
                split at h
                · cases h
                · split at h
                  · cases h
                  · split at h
                    · cases h
                    · split at h
                      · cases h
                      · split at h
                        · cases h
                        · obtain ⟨h1, h2⟩ := ih _ _ _ h
                          refine ⟨h1, ?_⟩
                          intro g hg ht
                          rcases List.mem_cons.1 hg with rfl | hg
                          · exact absurd ht hct
                          · exact h2 g hg ht
      have hgeq : g' = g := (key _ _ _ _ hgg).2 g hg hgt
      subst hgeq
      unfold readGrid at h
      split at h
      · cases h
      · rename_i hk
        split at h
        · cases h
        · split at h
          · cases h
          · rename_i fields hf pieces hp
            refine ⟨?_, ?_⟩
            · unfold merge at h
              split at h
              · cases h
              · split at h
                · split at h
                  · cases h
                  · rename_i q qs hq
                    have hqm : q ∈ pieces.filterMap (·.points) := by rw [hq]; simp
                    obtain ⟨pa, hpa, hpp⟩ := List.mem_filterMap.1 hqm
                    have hfrom : ∀ (l : List XmlElem) (r : List (PieceArrs F)), mapRes (readPiece io ⟨c, hd, b, a⟩) l = .ok r → pa ∈ r →
                        ∃ x ∈ l, readPiece io ⟨c, hd, b, a⟩ x = .ok pa := by
                      intro l
                      induction l with
                      | nil => intro r h hr; cases h; simp at hr
                      | cons x l ih =>
                        intro r h hr
                        unfold mapRes at h
                        cases hx : readPiece io ⟨c, hd, b, a⟩ x with
                        | error e => rw [hx] at h; cases h
                        | ok y =>
                          rw [hx] at h
                          simp only at h
                          cases hl : mapRes (readPiece io ⟨c, hd, b, a⟩) l with
                          | error e => rw [hl] at h; cases h
                          | ok s =>
                            rw [hl] at h
                            cases h
                            rcases List.mem_cons.1 hr with rfl | hr
                            · exact ⟨x, by simp, hx⟩
                            · obtain ⟨z, hz, hz'⟩ := ih s hl hr
                              exact ⟨z, by simp [hz], hz'⟩
                    obtain ⟨p, hpm, hpr⟩ := hfrom _ _ hp hpa
                    rw [List.mem_filter, decide_eq_true_iff] at hpm
                    refine ⟨p, hpm.1, hpm.2, ?_⟩
                    unfold readPiece at hpr
                    split at hpr
                    · rename_i np nc _ _
                      split at hpr
                      · cases hpr
                      · rename_i secs hs
                        split at hpr
                        · cases hpr
                        · cases hpr
                          simp only at hpp
                          cases hget : Dict.get? secs "Points" with
                          | none => rw [hget] at hpp; cases hpp
                          | some s =>
                            have hmem := Dict.mem_of_get? hget
                            have hfrom2 : ∀ (l : List XmlElem) (r : List (String × Sec F)), mapRes (readSec io ⟨c, hd, b, a⟩ np nc) l = .ok r →
                                ∀ y ∈ r, ∃ x ∈ l, x.tag = y.1 := by
                              intro l
                              induction l with
                              | nil => intro r h y hy; cases h; simp at hy
                              | cons x l ih =>
                                intro r h y hy
                                unfold mapRes at h
                                cases hx : readSec io ⟨c, hd, b, a⟩ np nc x with
                                | error e => rw [hx] at h; cases h
                                | ok z =>
                                  rw [hx] at h
                                  simp only at h
                                  cases hl : mapRes (readSec io ⟨c, hd, b, a⟩ np nc) l with
                                  | error e => rw [hl] at h; cases h
                                  | ok s =>
                                    rw [hl] at h
                                    cases h
                                    rcases List.mem_cons.1 hy with rfl | hy
                                    · refine ⟨x, by simp, ?_⟩
                                      unfold readSec at hx
                                      split at hx
                                      · cases hq : pointSection io ⟨c, hd, b, a⟩ x.kids np with
                                        | error e => rw [hq] at hx; cases hx
                                        | ok _ => rw [hq] at hx; cases hx; rfl
                                      · split at hx
                                        · split at hx
                                          · cases hx
                                          · rename_i d _
                                            cases hq : cellSection d nc with
                                            | error e => rw [hq] at hx; cases hx
                                            | ok _ => rw [hq] at hx; cases hx; rfl
                                        · split at hx
                                          · cases hq : pointArrays io ⟨c, hd, b, a⟩ [] x.kids with
                                            | error e => rw [hq] at hx; cases hx
                                            | ok _ => rw [hq] at hx; cases hx; rfl
                                          · split at hx
                                            · cases hq : namedArrays io ⟨c, hd, b, a⟩ [] x.kids with
                                              | error e => rw [hq] at hx; cases hx
                                              | ok _ => rw [hq] at hx; cases hx; rfl
                                            · cases hx
                                    · obtain ⟨z, hz, hz'⟩ := ih s hl y hy
                                      exact ⟨z, by simp [hz], hz'⟩
                            exact hfrom2 _ _ hs _ hmem
                    · cases hpr
                    · cases hpr
                · cases h
                · cases h
            · intro p hpm
              by_cases ht : p.tag = "Piece"
              · refine .inr ⟨ht, ?_⟩
                obtain ⟨y, hy⟩ := Svg.mapRes_ok_each hp p (List.mem_filter.2 ⟨hpm, by simpa using ht⟩)
                exact vtus_piece hy
              · refine .inl ?_
                rw [List.any_eq_true] at hk
                by_cases hfd : p.tag = "FieldData"
                · exact hfd
                · exact absurd ⟨p, hpm, by simpa using ⟨ht, hfd⟩⟩ hk

/-- Hence, for instance, points that are not in a `DataArray` are not read. -/
example (e : XmlElem) (he : e.tag ≠ "DataArray") (m : VtuFile.Out Int) :
    readRoot vtuInt false ⟨"VTKFile", [("type", "UnstructuredGrid")], [],
      .cons "UnstructuredGrid" [] [] (.cons "Piece" [("NumberOfPoints", "1"), ("NumberOfCells", "0")] []
        (.cons "Points" [] [] (.cons e.tag e.attrs e.text .nil .nil) .nil) .nil) .nil⟩ ≠ .ok m := by
  intro h
  obtain ⟨-, h2⟩ := C65_structure _ _ _ _ h ⟨"UnstructuredGrid", [], [], _⟩ (by simp [XmlElem.kids, Xml.elems]; rfl) rfl
  have h3 := h2 ⟨"Piece", [("NumberOfPoints", "1"), ("NumberOfCells", "0")], [], _⟩ (by simp [XmlElem.kids, Xml.elems]; rfl)
  rcases h3 with h3 | ⟨-, -, -, h3⟩
  · exact absurd h3 (show ¬ "Piece" = "FieldData" by decide)
  · have h4 := h3 ⟨"Points", [], [], .cons e.tag e.attrs e.text .nil .nil⟩ (by simp [XmlElem.kids, Xml.elems])
    exact he (h4.1 ⟨e.tag, e.attrs, e.text, .nil⟩ (by simp [XmlElem.kids, Xml.elems]))

end Meshio.Props
