/-
Lemmas for Medit files.
-/
import Verif.Spec.Medit
import Verif.Base.ByteIO
import Verif.Proofs.Types

namespace Meshio
namespace Medit
open Types Tables Spec.Medit

variable {F : Type}

theorem takeInt_enc (big : Bool) (k : Nat) (z : Int) (h : IsInt k z) (s : List Byte) :
    takeInt big k (intEnc big k z ++ s) = .ok (z, s) := by
  have hl := length_intEnc big k z
  unfold takeInt
  rw [if_neg (by simp [hl]), List.take_left' hl, List.drop_left' hl, intDec_intEnc _ _ _ h]

/-! ### Templates -/

theorem dtype_size (z : Sizes) (dim : Nat) (l : List Char) (k : Nat) (h : templateSize z dim l = some k) :
    ∃ d, dtypeFrom dim none l = .ok d ∧ itemSize z.isz z.fsz d = k := by
  induction l using templateSize.induct generalizing k with
  | case1 =>
    simp only [templateSize, Option.some.injEq] at h
    subst h
    exact ⟨[], rfl, rfl⟩
  | case2 l ih =>
    simp only [templateSize, Option.map_eq_some_iff] at h
    obtain ⟨a, ha, e⟩ := h
    obtain ⟨d, hd, hs⟩ := ih a ha
    refine ⟨(false, 1) :: d, ?_, ?_⟩
    · simp only [dtypeFrom, hd]; rfl
    · rw [← e, ← hs]; simp [itemSize]
  | case3 l ih =>
    simp only [templateSize, Option.map_eq_some_iff] at h
    obtain ⟨a, ha, e⟩ := h
    obtain ⟨d, hd, hs⟩ := ih a ha
    refine ⟨(true, 1) :: d, ?_, ?_⟩
    · simp only [dtypeFrom, hd]; rfl
    · rw [← e, ← hs]; simp [itemSize]
  | case4 l ih =>
    simp only [templateSize, Option.map_eq_some_iff] at h
    obtain ⟨a, ha, e⟩ := h
    obtain ⟨d, hd, hs⟩ := ih a ha
    refine ⟨(true, dim) :: d, ?_, ?_⟩
    · simp only [dtypeFrom, hd]; rfl
    · rw [← e, ← hs]; simp [itemSize]
  | case5 head tail h1 h2 h3 =>
    rw [templateSize] at h
    · exact absurd h (by simp)
    · exact h1
    · exact h2
    · exact h3

theorem dtype_vertex (dim : Nat) : dtype "dri" dim = .ok [(true, dim), (false, 1)] := by
  have : "dri".toList = ['d', 'r', 'i'] := by decide
  unfold dtype
  rw [this]
  rfl

theorem dtype_ints (dim n : Nat) : dtypeFrom dim none (List.replicate n 'i') = .ok (List.replicate n (false, 1)) := by
  induction n with
  | zero => rfl
  | succ n ih => simp only [List.replicate_succ, dtypeFrom, ih]; rfl

/-- The table entry of a code for cells. -/
theorem cellCode_entry (key : Nat) (t : String) (h : cellCode key = some t) :
    ∃ name n, find medit_codes key = some (name, "i", String.ofList (List.replicate (n + 1) 'i')) ∧ find mediBinary name = some (t, n) ∧
      nodes t = some n ∧ name ≠ "GmfEnd" ∧ name ≠ "GmfReserved" ∧ name ≠ "GmfVertices" := by
  have hk : key = 5 ∨ key = 6 ∨ key = 7 ∨ key = 8 ∨ key = 9 ∨ key = 10 ∨ key = 49 := by
    refine Classical.byContradiction fun hn => ?_
    simp only [not_or] at hn
    simp [cellCode, hn] at h
  rcases hk with rfl | rfl | rfl | rfl | rfl | rfl | rfl <;> (simp only [cellCode] at h; cases h)
  · exact ⟨"GmfEdges", 2, by decide +kernel⟩
  · exact ⟨"GmfTriangles", 3, by decide +kernel⟩
  · exact ⟨"GmfQuadrilaterals", 4, by decide +kernel⟩
  · exact ⟨"GmfTetrahedra", 4, by decide +kernel⟩
  · exact ⟨"GmfPrisms", 6, by decide +kernel⟩
  · exact ⟨"GmfHexahedra", 8, by decide +kernel⟩
  · exact ⟨"GmfPyramids", 5, by decide +kernel⟩

theorem codes_small : ∀ e ∈ medit_codes, e.1 < 1000 := by decide +kernel

theorem isInt4_of_code {key : Nat} {e : String × String × String} (h : find medit_codes key = some e) : IsInt 4 key := by
  have := codes_small _ (find_mem h)
  simp only at this
  unfold IsInt
  constructor <;> omega

theorem codeOf_enc (big : Bool) (key : Nat) (e : String × String × String) (h : find medit_codes key = some e) (s : List Byte) :
    codeOf (intDec big ((intEnc big 4 key ++ s).take 4)) = some e := by
  rw [List.take_left' (length_intEnc _ _ _), intDec_intEnc _ _ _ (isInt4_of_code h)]
  unfold codeOf
  rw [if_neg (by omega)]
  simpa using h

theorem others_unused : ∀ e ∈ medit_codes, e.1 ≠ 4 → cellCode e.1 = none → e.2.1 ≠ "GmfVertices" ∧ find mediBinary e.2.1 = none := by
  decide +kernel

/-! ### Items -/

theorem items_rows {α : Type} (size : Nat) (f : α → List Byte) (rows : List α) (h : ∀ r ∈ rows, (f r).length = size) (hs : 0 < size)
    (rest : List Byte) :
    items size (min rows.length ((rows.flatMap f ++ rest).length / size)) (rows.flatMap f ++ rest) = rows.map f := by
  have hl : (rows.flatMap f ++ rest).length / size ≥ rows.length := by
    rw [List.length_append, length_flatMap_const size f rows h]
    exact (Nat.le_div_iff_mul_le hs).mpr (by omega)
  rw [Nat.min_eq_left hl]
  exact items_flatMap size f rows h rest

theorem drop_rows {α : Type} (size : Nat) (f : α → List Byte) (rows : List α) (h : ∀ r ∈ rows, (f r).length = size)
    (rest : List Byte) : (rows.flatMap f ++ rest).drop (size * rows.length) = rest := by
  apply List.drop_left'
  rw [length_flatMap_const size f rows h, Nat.mul_comm]

theorem length_ints (big : Bool) (k : Nat) (l : List Int) : (l.flatMap (intEnc big k)).length = k * l.length := by
  rw [length_flatMap_const k _ _ (fun a _ => length_intEnc _ _ _), Nat.mul_comm]

theorem length_flts (io : BinFloat F) (big : Bool) (k : Nat) (l : List F) : (l.flatMap (io.enc big k)).length = k * l.length := by
  rw [length_flatMap_const k _ _ (fun a _ => io.len _ _ _), Nat.mul_comm]

theorem vertexOf_enc (io : BinFloat F) (z : Sizes) (r : List F × Int) (h : IsInt z.isz r.2) :
    vertexOf io z r.1.length (r.1.flatMap (io.enc z.big z.fsz) ++ intEnc z.big z.isz r.2) = (r.1.map (io.rnd z.fsz), r.2) := by
  unfold vertexOf
  rw [items_flatMap _ _ _ (fun a _ => io.len _ _ _), List.drop_left' (length_flts _ _ _ _),
    List.take_of_length_le (by rw [length_intEnc]; exact Nat.le_refl _), intDec_intEnc _ _ _ h, List.map_map]
  congr 1
  exact List.map_congr_left fun x _ => io.dec_enc _ _ _

theorem getLastD_append_one {α : Type} (l : List α) (a d : α) : (l ++ [a]).getLastD d = a := by
  rw [List.getLastD_eq_getLast?, List.getLast?_append]
  rfl

theorem useItems_cells (io : BinFloat F) (z : Sizes) (hz : 0 < z.isz) (dim : Nat) (name t : String) (n : Nat) (hn : name ≠ "GmfVertices")
    (hf : find mediBinary name = some (t, n)) (rows : List (List Int × Int))
    (hr : ∀ r ∈ rows, r.1.length = n ∧ (∀ v ∈ r.1, IsInt z.isz v) ∧ IsInt z.isz r.2) (m : Out F) :
    useItems io z dim name rows.length (rows.map fun r => r.1.flatMap (intEnc z.big z.isz) ++ intEnc z.big z.isz r.2) m =
      .ok { m with cells := m.cells ++ [block t rows] } := by
  unfold useItems
  rw [if_neg hn]
  simp only [hf]
  have e1 : (rows.map fun r => r.1.flatMap (intEnc z.big z.isz) ++ intEnc z.big z.isz r.2).flatten =
      ((rows.map fun r => r.1 ++ [r.2]).flatten).flatMap (intEnc z.big z.isz) := by
    clear hr
    induction rows with
    | nil => rfl
    | cons r rows ih => simp only [List.map_cons, List.flatten_cons, ih, List.flatMap_append]; simp
  rw [e1, length_ints, Nat.mul_div_cancel_left _ hz, items_flatMap' _ _ _ (fun a _ => length_intEnc _ _ _), List.map_map]
  have e2 : ((rows.map fun r => r.1 ++ [r.2]).flatten).map (intDec z.big ∘ intEnc z.big z.isz) = (rows.map fun r => r.1 ++ [r.2]).flatten := by
    have : ∀ v ∈ (rows.map fun r => r.1 ++ [r.2]).flatten, (intDec z.big ∘ intEnc z.big z.isz) v = v := by
      intro v hv
      simp only [List.mem_flatten, List.mem_map] at hv
      obtain ⟨l, ⟨r, hr', rfl⟩, hv⟩ := hv
      simp only [List.mem_append, List.mem_singleton] at hv
      rcases hv with hv | rfl
      · exact intDec_intEnc _ _ _ ((hr r hr').2.1 v hv)
      · exact intDec_intEnc _ _ _ (hr r hr').2.2
    rw [List.map_congr_left this, List.map_id']
  rw [e2]
  have e3 := reshape_flatten (n + 1) (rows.map fun r => r.1 ++ [r.2]) (by
    intro l hl
    simp only [List.mem_map] at hl
    obtain ⟨r, hr', rfl⟩ := hl
    simp [(hr r hr').1])
  rw [List.length_map] at e3
  rw [e3]
  simp only [block, List.map_map]
  congr 5
  · apply List.map_congr_left
    intro r hr'
    simp only [Function.comp]
    rw [List.take_left' (hr r hr').1]
  · apply List.map_congr_left
    intro r hr'
    exact getLastD_append_one _ _ _

/-! ### One field -/

theorem length_cell (z : Sizes) (n : Nat) (r : List Int × Int) (h : r.1.length = n) :
    (r.1.flatMap (intEnc z.big z.isz) ++ intEnc z.big z.isz r.2).length = z.isz * (n + 1) := by
  rw [List.length_append, length_ints, length_intEnc, h, Nat.mul_add, Nat.mul_one]

theorem length_vertex (io : BinFloat F) (z : Sizes) (n : Nat) (r : List F × Int) (h : r.1.length = n) :
    (r.1.flatMap (io.enc z.big z.fsz) ++ intEnc z.big z.isz r.2).length = z.fsz * n + z.isz := by
  rw [List.length_append, length_flts, length_intEnc, h]

theorem itemSize_ints (isz fsz n : Nat) : itemSize isz fsz (List.replicate n (false, 1)) = isz * n := by
  induction n with
  | zero => rfl
  | succ n ih =>
    have : itemSize isz fsz (List.replicate (n + 1) (false, 1)) = isz * 1 + itemSize isz fsz (List.replicate n (false, 1)) := by
      simp [itemSize, List.replicate_succ]
    rw [this, ih, Nat.mul_add]
    omega

theorem fields_start (io : BinFloat F) (z : Sizes) (dim n key : Nat) (pos : Int) (name counter template : String)
    (he : find medit_codes key = some (name, counter, template)) (h1 : name ≠ "GmfEnd") (h2 : name ≠ "GmfReserved") (s : List Byte)
    (m : Out F) :
    fields io z dim (n + 1) (intEnc z.big 4 key ++ intEnc z.big z.psz pos ++ s) m =
      match (if counter = "i" then takeInt z.big z.isz s else .ok (1, s)) with
      | .error e => .error e
      | .ok (nitems, s) =>
        match dtype template dim with
        | .error e => .error e
        | .ok d =>
          if nitems < 0 then .error .unmodelled
          else
            match useItems io z dim name nitems.toNat
                (items (itemSize z.isz z.fsz d) (min nitems.toNat (s.length / itemSize z.isz z.fsz d)) s) m with
            | .error e => .error e
            | .ok st => fields io z dim n (s.drop (itemSize z.isz z.fsz d * nitems.toNat)) st := by
  rw [fields]
  rw [if_neg (by simp [length_intEnc]), List.append_assoc, codeOf_enc _ _ _ he]
  simp only [if_neg h1, if_neg h2]
  rw [List.drop_left' (length_intEnc _ _ _), List.drop_left' (length_intEnc _ _ _)]
  rfl

theorem fields_step (io : BinFloat F) (z : Sizes) (hz : 0 < z.isz) (dim : Nat) (f : Field F) (hf : f.Ok z dim) (n : Nat) (rest : List Byte)
    (m : Out F) : fields io z dim (n + 1) (f.bytes io z ++ rest) m = fields io z dim n rest (f.meaning io z m) := by
  cases f with
  | vertices pos rows =>
    obtain ⟨hn, hr⟩ := hf
    have he : find medit_codes 4 = some ("GmfVertices", "i", "dri") := by decide +kernel
    have e : Field.bytes io z (.vertices pos rows) ++ rest = intEnc z.big 4 ((4 : Nat) : Int) ++ intEnc z.big z.psz pos ++
        (intEnc z.big z.isz rows.length ++ ((rows.flatMap fun r => r.1.flatMap (io.enc z.big z.fsz) ++ intEnc z.big z.isz r.2) ++ rest)) := by
      simp only [Field.bytes, List.append_assoc]
      rfl
    rw [e, fields_start io z dim n 4 pos _ _ _ he (by decide) (by decide)]
    rw [if_pos rfl, takeInt_enc _ _ _ hn]
    simp only
    rw [dtype_vertex]
    simp only
    rw [if_neg (by omega)]
    have es : itemSize z.isz z.fsz [(true, dim), (false, 1)] = z.fsz * dim + z.isz := by simp [itemSize]
    have hlen := fun r (hr' : r ∈ rows) => length_vertex io z dim r (hr r hr').1
    rw [es, Int.toNat_natCast, items_rows _ _ _ hlen (by omega), drop_rows _ _ _ hlen]
    unfold useItems
    rw [if_pos rfl]
    simp only [Field.meaning, List.map_map]
    have hv : ∀ r ∈ rows, vertexOf io z dim (r.1.flatMap (io.enc z.big z.fsz) ++ intEnc z.big z.isz r.2) = (r.1.map (io.rnd z.fsz), r.2) := by
      intro r hr'
      have := vertexOf_enc io z r (hr r hr').2
      rwa [(hr r hr').1] at this
    have h1 := List.map_congr_left (l := rows) (f := (fun b => (vertexOf io z dim b).1) ∘ fun r => r.1.flatMap (io.enc z.big z.fsz) ++ intEnc z.big z.isz r.2)
      (g := fun r => r.1.map (io.rnd z.fsz)) (fun r hr' => congrArg Prod.fst (hv r hr'))
    have h2 := List.map_congr_left (l := rows) (f := (fun b => (vertexOf io z dim b).2) ∘ fun r => r.1.flatMap (io.enc z.big z.fsz) ++ intEnc z.big z.isz r.2)
      (g := fun r => r.2) (fun r hr' => by simp only [Function.comp]; rw [hv r hr'])
    rw [h1, h2]
  | cells key pos rows =>
    obtain ⟨hk, hn, hr⟩ := hf
    obtain ⟨t, ht⟩ := Option.isSome_iff_exists.mp hk
    obtain ⟨name, k, he, hb, hnod, h1, h2, h3⟩ := cellCode_entry key t ht
    have hr' : ∀ r ∈ rows, r.1.length = k ∧ (∀ v ∈ r.1, IsInt z.isz v) ∧ IsInt z.isz r.2 := by
      intro r hm
      have := hr r hm
      rw [ht] at this
      simp only [Option.bind_some, hnod, Option.some.injEq] at this
      exact this
    have e : Field.bytes io z (.cells key pos rows) ++ rest = intEnc z.big 4 (key : Int) ++ intEnc z.big z.psz pos ++
        (intEnc z.big z.isz rows.length ++ ((rows.flatMap fun r => r.1.flatMap (intEnc z.big z.isz) ++ intEnc z.big z.isz r.2) ++ rest)) := by
      simp only [Field.bytes, List.append_assoc]
    rw [e, fields_start io z dim n key pos _ _ _ he h1 h2]
    rw [if_pos rfl, takeInt_enc _ _ _ hn]
    simp only [dtype, String.toList_ofList]
    rw [dtype_ints]
    simp only
    rw [if_neg (by omega)]
    have hlen := fun r (hm : r ∈ rows) => length_cell z k r (hr' r hm).1
    have hpos : 0 < z.isz * (k + 1) := Nat.mul_pos hz (by omega)
    rw [itemSize_ints, Int.toNat_natCast, items_rows _ _ _ hlen hpos, drop_rows _ _ _ hlen,
      useItems_cells io z hz dim name t k h3 hb rows hr' m]
    simp only [Field.meaning, ht, Option.getD_some]
  | counted key pos k body =>
    obtain ⟨h4, hc, hn, ⟨name, counter, template⟩, he, h1, h2, hi, hs⟩ := hf
    simp only at h1 h2 hi hs
    subst hi
    obtain ⟨size, hsz, hmul⟩ := Option.map_eq_some_iff.mp hs
    obtain ⟨d, hd, hsize⟩ := dtype_size z dim _ _ hsz
    have e : Field.bytes io z (.counted key pos k body) ++ rest = intEnc z.big 4 (key : Int) ++ intEnc z.big z.psz pos ++
        (intEnc z.big z.isz k ++ (body ++ rest)) := by
      simp only [Field.bytes, List.append_assoc]
    rw [e, fields_start io z dim n key pos _ _ _ he h2 h1]
    rw [if_pos rfl, takeInt_enc _ _ _ hn]
    simp only [dtype]
    rw [hd]
    simp only
    rw [if_neg (by omega)]
    obtain ⟨hv, hu⟩ := others_unused _ (find_mem he) h4 hc
    unfold useItems
    rw [if_neg hv]
    simp only at hu
    simp only [hu]
    rw [List.drop_left' (by rw [hsize, Int.toNat_natCast, Nat.mul_comm]; exact hmul.symm)]
    rfl
  | single key pos body =>
    obtain ⟨h4, hc, ⟨name, counter, template⟩, he, h1, h2, hi, hs⟩ := hf
    simp only at h1 h2 hi hs
    subst hi
    obtain ⟨d, hd, hsize⟩ := dtype_size z dim _ _ hs
    have e : Field.bytes io z (.single key pos body) ++ rest = intEnc z.big 4 (key : Int) ++ intEnc z.big z.psz pos ++
        (body ++ rest) := by
      simp only [Field.bytes, List.append_assoc]
    rw [e, fields_start io z dim n key pos _ _ _ he h2 h1]
    rw [if_neg (by decide)]
    simp only [dtype]
    rw [hd]
    simp only
    rw [if_neg (by omega)]
    obtain ⟨hv, hu⟩ := others_unused _ (find_mem he) h4 hc
    unfold useItems
    rw [if_neg hv]
    simp only at hu
    simp only [hu]
    rw [List.drop_left' (by rw [hsize]; simp)]
    rfl

  | reserved key =>
    have he : ∀ k ∈ [0, 2, 11, 12, 51], find medit_codes k = some ("GmfReserved", "", "") := by decide +kernel
    have hk := he key hf
    show fields io z dim (n + 1) (intEnc z.big 4 (key : Int) ++ rest) m = _
    rw [fields, if_neg (by simp [length_intEnc]), codeOf_enc _ _ _ hk]
    simp only
    rw [if_neg (by decide), if_pos trivial, List.drop_left' (length_intEnc _ _ _)]
    rfl

theorem length_field (io : BinFloat F) (z : Sizes) (f : Field F) : 1 ≤ (f.bytes io z).length := by
  cases f <;> simp [Field.bytes, length_intEnc] <;> omega

/-- A run of fields. -/
theorem fields_run (io : BinFloat F) (z : Sizes) (hz : 0 < z.isz) (dim : Nat) (fs : List (Field F)) (hf : ∀ f ∈ fs, f.Ok z dim)
    (n : Nat) (rest : List Byte) (m : Out F) :
    fields io z dim (fs.length + n) (fs.flatMap (Field.bytes io z) ++ rest) m = fields io z dim n rest (fs.foldl (Field.meaning io z) m) := by
  induction fs generalizing m with
  | nil => simp
  | cons f fs ih =>
    rw [List.length_cons, show fs.length + 1 + n = (fs.length + n) + 1 by omega, List.flatMap_cons, List.append_assoc,
      fields_step io z hz dim f (hf f (by simp)), ih (fun g hg => hf g (by simp [hg]))]
    rfl

theorem length_fields (io : BinFloat F) (z : Sizes) (fs : List (Field F)) : fs.length ≤ (fs.flatMap (Field.bytes io z)).length := by
  induction fs with
  | nil => simp
  | cons f fs ih =>
    have := length_field io z f
    simp only [List.flatMap_cons, List.length_append, List.length_cons]
    omega

theorem sizes_layout (big : Bool) (v : Nat) (h : 1 ≤ v ∧ v ≤ 4) : sizes big v = .ok (layout big v) := by
  have : v = 1 ∨ v = 2 ∨ v = 3 ∨ v = 4 := by omega
  rcases this with rfl | rfl | rfl | rfl <;> cases big <;> decide

theorem layout_isz (big : Bool) (v : Nat) : 0 < (layout big v).isz := by
  unfold layout
  simp only
  split <;> omega

/-- Reading a file with a valid header. -/
theorem readBinary_header (io : BinFloat F) (big : Bool) (v dim : Nat) (pos : Int) (hv : 1 ≤ v ∧ v ≤ 4) (hd : dim = 2 ∨ dim = 3)
    (s : List Byte) :
    readBinary io (header (layout big v) v dim pos ++ s) = fields io (layout big v) dim (s.length + 1) s ⟨none, none, []⟩ := by
  have hb : (layout big v).big = big := rfl
  unfold readBinary header
  simp only [List.append_assoc, hb]
  have hcode : takeInt false 4 (intEnc big 4 1 ++ (intEnc big 4 v ++ (intEnc big 4 3 ++ (intEnc big (layout big v).psz pos ++
      (intEnc big 4 dim ++ s))))) = .ok (if big then 16777216 else 1, intEnc big 4 v ++ (intEnc big 4 3 ++
        (intEnc big (layout big v).psz pos ++ (intEnc big 4 dim ++ s)))) := by
    unfold takeInt
    rw [if_neg (by simp [length_intEnc]), List.take_left' (length_intEnc _ _ _), List.drop_left' (length_intEnc _ _ _)]
    rw [(by decide : ∀ b : Bool, intDec false (intEnc b 4 1) = if b then 16777216 else 1) big]
  rw [hcode]
  simp only
  have h1 : ¬ ((if big = true then (16777216 : Int) else 1) ≠ 1 ∧ (if big = true then (16777216 : Int) else 1) ≠ 16777216) := by
    cases big <;> decide
  rw [if_neg h1]
  have h2 : decide ((if big = true then (16777216 : Int) else 1) = 16777216) = big := by cases big <;> decide
  rw [h2, takeInt_enc _ _ _ (by unfold IsInt; constructor <;> omega)]
  simp only
  rw [sizes_layout big v hv]
  simp only
  rw [takeInt_enc _ _ _ (by unfold IsInt; constructor <;> omega)]
  simp only [ne_eq, not_true_eq_false, if_false]
  rw [List.drop_left' (length_intEnc _ _ _), takeInt_enc _ _ _ (by unfold IsInt; constructor <;> omega)]
  simp only
  rw [if_neg (by omega), Int.toNat_natCast]

/-! ### Writing -/

/-- The labels of a block. -/
def labs (cref : Option (List (List Int))) (k : Nat) (b : Blk) : List Int :=
  (cref.bind fun l => l[k]?).getD (List.replicate b.rows.length 1)

/-- The layout of written files. -/
def wz (isz : Nat) : Sizes := ⟨false, isz, 8, 8⟩

/-- The fields of the blocks. -/
def fieldList (isz : Nat) (cref : Option (List (List Int))) : Nat → Nat → List Blk → List (Field F)
  | _, _, [] => []
  | k, pos, b :: bs =>
    match find mediBinaryWrite b.type with
    | none => fieldList isz cref (k + 1) pos bs
    | some key =>
      .cells key (pos + b.rows.length * ((b.rows.headD []).length + 1) * isz + (4 + 8 + isz) : Nat)
        ((b.rows.zip (labs cref k b)).map fun rl => (rl.1.map (· + 1), rl.2)) ::
        fieldList isz cref (k + 1) (pos + b.rows.length * ((b.rows.headD []).length + 1) * isz + (4 + 8 + isz)) bs

theorem labelsOf_ok (cref : Option (List (List Int))) (k : Nat) (b : Blk)
    (h : ∀ l, cref = some l → ∃ r, l[k]? = some r ∧ r.length = b.rows.length) :
    labelsOf cref k b = .ok (labs cref k b) ∧ (labs cref k b).length = b.rows.length := by
  cases cref with
  | none => exact ⟨rfl, by simp [labs]⟩
  | some l =>
    obtain ⟨r, hr, hl⟩ := h l rfl
    simp [labelsOf, labs, hr, hl]

/-- The written code of a cell type. -/
theorem writeCode (t : String) : match find mediBinaryWrite t with
    | none => nodes t = none
    | some key => cellCode key = some t ∧ ∃ n, nodes t = some n := by
  cases h : find mediBinaryWrite t with
  | none =>
    simp only
    have hne : ∀ k ∈ mediBinaryWrite, t ≠ k.1 := by
      rintro k hk rfl
      have := (by decide +kernel : ∀ k ∈ mediBinaryWrite, find mediBinaryWrite k.1 ≠ none) k hk
      exact this h
    unfold nodes
    have h1 := hne ("line", 5) (by decide)
    have h2 := hne ("triangle", 6) (by decide)
    have h3 := hne ("quad", 7) (by decide)
    have h4 := hne ("tetra", 8) (by decide)
    have h5 := hne ("wedge", 9) (by decide)
    have h6 := hne ("pyramid", 49) (by decide)
    have h7 := hne ("hexahedron", 10) (by decide)
    rw [if_neg h1, if_neg h2, if_neg h3, if_neg h4, if_neg h5, if_neg h6, if_neg h7]
  | some key =>
    simp only
    have := (by decide +kernel : ∀ k ∈ mediBinaryWrite, cellCode k.2 = some k.1 ∧ (nodes k.1).isSome = true) _ (find_mem h)
    exact ⟨this.1, Option.isSome_iff_exists.mp this.2⟩

theorem putCell_ok (isz n : Nat) (rl : List Int × Int) (h : rl.1.length = n) :
    putCell isz n rl = .ok ((rl.1.map (· + 1)).flatMap (intEnc false isz) ++ intEnc false isz rl.2) := by
  unfold putCell
  rw [if_neg (by omega), List.take_of_length_le (by omega)]

theorem putBlocks_ok (io : BinFloat F) (isz dim : Nat) (cref : Option (List (List Int))) (k pos : Nat) (bs : List Blk)
    (hrows : ∀ b ∈ bs, ∀ n, nodes b.type = some n → ∀ r ∈ b.rows, r.length = n)
    (hc : ∀ l, cref = some l → ∀ (i : Nat) (b : Blk), bs[i]? = some b → ∃ r, l[k + i]? = some r ∧ r.length = b.rows.length) :
    putBlocks isz dim cref k pos bs =
      .ok ((fieldList (F := F) isz cref k pos bs).flatMap (Field.bytes io (wz isz)) ++ (intEnc false 4 54 ++ intEnc false 8 0)) := by
  induction bs generalizing k pos with
  | nil => rfl
  | cons b bs ih =>
    have ih' := fun pos => ih (k + 1) pos (fun c hc => hrows c (by simp [hc])) (fun l hl i c hi => by
      obtain ⟨r, hr⟩ := hc l hl (i + 1) c (by simpa using hi)
      exact ⟨r, by rw [show k + 1 + i = k + (i + 1) by omega]; exact hr⟩)
    have hw := writeCode b.type
    rw [putBlocks, fieldList]
    cases hf : find mediBinaryWrite b.type with
    | none =>
      simp only
      exact ih' pos
    | some key =>
      rw [hf] at hw
      simp only at hw ⊢
      obtain ⟨hk, n, hn⟩ := hw
      obtain ⟨name, n', he, hb, hn', _⟩ := cellCode_entry key _ hk
      have : n' = n := by rw [hn] at hn'; exact (Option.some.inj hn').symm
      subst this
      obtain ⟨hlab, hlen⟩ := labelsOf_ok cref k b (fun l hl => by
        obtain ⟨r, hr⟩ := hc l hl 0 b rfl
        exact ⟨r, hr⟩)
      rw [hlab]
      simp only [he]
      unfold dtype
      rw [String.toList_ofList, dtype_ints]
      simp only
      rw [if_neg (by simp [hlen]), List.length_replicate, Nat.add_sub_cancel]
      rw [mapRes_ok_of_forall (g := fun rl => (rl.1.map (· + 1)).flatMap (intEnc false isz) ++ intEnc false isz rl.2) (by
        intro rl hrl
        exact putCell_ok isz n' rl (hrows b (by simp) n' hn rl.1 (List.of_mem_zip hrl).1))]
      simp only
      rw [ih']
      simp only [List.flatMap_cons, Field.bytes, wz, List.length_map, List.length_zip, hlen, Nat.min_self, List.append_assoc,
        List.flatMap_map, ← List.flatMap_def]

/-- The fields are well formed. -/
theorem fieldList_ok (isz dim : Nat) (cref : Option (List (List Int))) (k pos : Nat) (bs : List Blk)
    (hrows : ∀ b ∈ bs, ∀ n, nodes b.type = some n → ∀ r ∈ b.rows, r.length = n)
    (hc : ∀ l, cref = some l → ∀ (i : Nat) (b : Blk), bs[i]? = some b → ∃ r, l[k + i]? = some r ∧ r.length = b.rows.length ∧ ∀ v ∈ r, IsInt isz v)
    (hone : IsInt isz 1) (hnodes : ∀ b ∈ bs, ∀ r ∈ b.rows, ∀ v ∈ r, IsInt isz (v + 1)) (hn : ∀ b ∈ bs, IsInt isz b.rows.length) :
    ∀ f ∈ fieldList (F := F) isz cref k pos bs, f.Ok (wz isz) dim := by
  induction bs generalizing k pos with
  | nil => intro f hf; simp [fieldList] at hf
  | cons b bs ih =>
    have ih' := fun pos => ih (k + 1) pos (fun c hc => hrows c (by simp [hc])) (fun l hl i c hi => by
      obtain ⟨r, hr⟩ := hc l hl (i + 1) c (by simpa using hi)
      exact ⟨r, by rw [show k + 1 + i = k + (i + 1) by omega]; exact hr⟩) (fun c hc => hnodes c (by simp [hc]))
      (fun c hc => hn c (by simp [hc]))
    have hw := writeCode b.type
    intro f hf
    rw [fieldList] at hf
    cases hfd : find mediBinaryWrite b.type with
    | none => rw [hfd] at hf; exact ih' pos f hf
    | some key =>
      rw [hfd] at hf hw
      simp only [List.mem_cons] at hf hw
      rcases hf with rfl | hf
      · obtain ⟨hk, n, hnn⟩ := hw
        have hlen : (labs cref k b).length = b.rows.length := (labelsOf_ok cref k b (fun l hl => by
          obtain ⟨r, hr⟩ := hc l hl 0 b rfl
          exact ⟨r, hr.1, hr.2.1⟩)).2
        refine ⟨by rw [hk]; rfl, ?_, ?_⟩
        · simp only [List.length_map, List.length_zip, hlen, Nat.min_self]
          exact hn b (by simp)
        · intro r hr
          simp only [List.mem_map] at hr
          obtain ⟨rl, hrl, rfl⟩ := hr
          obtain ⟨h1, h2⟩ := List.of_mem_zip hrl
          refine ⟨?_, ?_, ?_⟩
          · simp only [List.length_map, hk, Option.bind_some, hnn]
            rw [hrows b (by simp) n hnn _ h1]
          · intro v hv
            simp only [List.mem_map] at hv
            obtain ⟨w, hw, rfl⟩ := hv
            exact hnodes b (by simp) _ h1 w hw
          · cases hcr : cref with
            | none =>
              subst hcr
              simp only [labs, Option.bind_none, Option.getD_none, List.mem_replicate] at h2
              show IsInt isz rl.2
              rw [h2.2]
              exact hone
            | some l =>
              obtain ⟨r, hr, _, hv⟩ := hc l hcr 0 b rfl
              subst hcr
              rw [Nat.add_zero] at hr
              simp only [labs, Option.bind_some, hr, Option.getD_some] at h2
              exact hv _ h2
      · exact ih' _ f hf

theorem map_add_sub (l : List Int) : (l.map (· + 1)).map (· - 1) = l := by
  rw [List.map_map]
  have : ((fun v : Int => v - 1) ∘ fun v => v + 1) = id := by funext v; simp [Function.comp]
  rw [this, List.map_id]

theorem map_fst_zip' {α β : Type} (l : List α) (m : List β) (h : m.length = l.length) : (l.zip m).map (·.1) = l :=
  List.map_fst_zip (by omega)

theorem map_snd_zip' {α β : Type} (l : List α) (m : List β) (h : m.length = l.length) : (l.zip m).map (·.2) = m :=
  List.map_snd_zip (by omega)

theorem block_zip (t : String) (rows : List (List Int)) (labels : List Int) (h : labels.length = rows.length) :
    block t ((rows.zip labels).map fun rl => (rl.1.map (· + 1), rl.2)) = ⟨t, rows, labels⟩ := by
  unfold block
  simp only [List.map_map]
  congr 1
  · have : ((fun r : List Int × Int => r.1.map (· - 1)) ∘ fun rl : List Int × Int => (rl.1.map (· + 1), rl.2)) = fun rl => rl.1 := by
      funext rl
      exact map_add_sub rl.1
    rw [this]
    exact map_fst_zip' _ _ h
  · exact map_snd_zip' _ _ h

theorem fieldList_meaning (io : BinFloat F) (isz : Nat) (cref : Option (List (List Int))) (k pos : Nat) (bs : List Blk)
    (hc : ∀ l, cref = some l → ∀ (i : Nat) (b : Blk), bs[i]? = some b → ∃ r, l[k + i]? = some r ∧ r.length = b.rows.length) (m : Out F) :
    (fieldList isz cref k pos bs).foldl (Field.meaning io (wz isz)) m =
      { m with cells := m.cells ++ ((bs.zipIdx k).filter fun b => (nodes b.1.type).isSome).map fun b => ⟨b.1.type, b.1.rows, labs cref b.2 b.1⟩ } := by
  induction bs generalizing k pos m with
  | nil => simp [fieldList]
  | cons b bs ih =>
    have ih' := fun pos m => ih (k + 1) pos (fun l hl i c hi => by
      obtain ⟨r, hr⟩ := hc l hl (i + 1) c (by simpa using hi)
      exact ⟨r, by rw [show k + 1 + i = k + (i + 1) by omega]; exact hr⟩) m
    have hw := writeCode b.type
    rw [fieldList, List.zipIdx_cons]
    cases hfd : find mediBinaryWrite b.type with
    | none =>
      rw [hfd] at hw
      simp only at hw ⊢
      rw [ih', List.filter_cons_of_neg (by simp [hw])]
    | some key =>
      rw [hfd] at hw
      simp only at hw ⊢
      obtain ⟨hk, n, hn⟩ := hw
      have hlen : (labs cref k b).length = b.rows.length := (labelsOf_ok cref k b (fun l hl => by
          obtain ⟨r, hr⟩ := hc l hl 0 b rfl
          exact ⟨r, hr⟩)).2
      rw [List.foldl_cons, ih', List.filter_cons_of_pos (by simp [hn])]
      simp only [Field.meaning, hk, Option.getD_some, List.map_cons, block_zip _ _ _ hlen, List.append_assoc, List.cons_append,
        List.nil_append]

theorem intSize_eq (cells : List Blk) : intSize cells = fileInt cells := by
  unfold intSize fileInt
  by_cases h : ∃ b ∈ cells, b.isize = 8
  · rw [if_pos h, if_pos (by simpa using h)]
  · rw [if_neg h, if_neg (by simpa using h)]

theorem fileInt_cases (cells : List Blk) : fileInt cells = 4 ∨ fileInt cells = 8 := by
  unfold fileInt
  split
  · exact Or.inr rfl
  · exact Or.inl rfl

/-- All the fields of a written file. -/
def allFields (isz dim : Nat) (points : List (List F)) (pref : Option (List Int)) (cells : List Blk) (cref : Option (List (List Int))) :
    List (Field F) :=
  let pos : Nat := 24 + points.length * dim * 8 + points.length * isz + (4 + 8 + isz)
  .vertices pos (points.zip (pref.getD (List.replicate points.length 1))) :: fieldList isz cref 0 pos cells

theorem writeBinary_eq (io : BinFloat F) (dim : Nat) (points : List (List F)) (pref : Option (List Int)) (cells : List Blk)
    (cref : Option (List (List Int))) (h : Writable (fileInt cells) dim points pref cells cref) :
    writeBinary io dim points pref cells cref =
      .ok (header (wz (fileInt cells)) (if fileInt cells = 8 then 4 else 3) dim 24 ++
        (allFields (fileInt cells) dim points pref cells cref).flatMap (Field.bytes io (wz (fileInt cells))) ++
        (intEnc false 4 54 ++ intEnc false 8 0)) := by
  have hlen : (pref.getD (List.replicate points.length 1)).length = points.length := by
    cases hp : pref with
    | none => simp
    | some l => exact (h.h_pref l hp).1
  unfold writeBinary
  simp only [intSize_eq]
  rw [if_neg (by simp [hlen])]
  rw [putBlocks_ok io _ _ _ _ _ _ h.h_rows (fun l hl i b hi => by
    obtain ⟨r, h1, h2, _⟩ := h.h_cref l hl i b hi
    exact ⟨r, by rw [Nat.zero_add]; exact h1, h2⟩)]
  simp only [allFields, List.flatMap_cons, header, Field.bytes, List.length_zip, hlen, Nat.min_self]
  have hv : ((if fileInt cells = 8 then (4 : Nat) else 3 : Nat) : Int) = if fileInt cells = 8 then (4 : Int) else 3 := by
    split <;> rfl
  simp only [hv, List.append_assoc, wz, ← List.flatMap_def]
  rfl

/-! ### Links -/

def Field.key : Field F → Nat
  | .vertices .. => 4
  | .cells k .. => k
  | .counted k .. => k
  | .single k .. => k
  | .reserved k => k

def Field.pos : Field F → Int
  | .vertices p _ => p
  | .cells _ p _ => p
  | .counted _ p .. => p
  | .single _ p _ => p
  | .reserved _ => 0

theorem field_bytes (io : BinFloat F) (isz : Nat) (f : Field F) (hp : Field.pos f ≠ 0) :
    ∃ body, f.bytes io (wz isz) = intEnc false 4 (Field.key f) ++ intEnc false 8 (Field.pos f) ++ body := by
  cases f with
  | vertices p r => exact ⟨_, List.append_assoc _ _ _⟩
  | cells k p r => exact ⟨_, List.append_assoc _ _ _⟩
  | counted k p n b => exact ⟨_, List.append_assoc _ _ _⟩
  | single k p b => exact ⟨_, rfl⟩
  | reserved k => exact absurd rfl hp

/-- Each field ends where its position says; keys are small and not 54. -/
def Chained (io : BinFloat F) (isz : Nat) : Nat → List (Field F) → Prop
  | _, [] => True
  | o, f :: fs => Field.pos f = (o + (f.bytes io (wz isz)).length : Nat) ∧ Field.key f ≠ 54 ∧ Field.key f < 1000 ∧
      Chained io isz (o + (f.bytes io (wz isz)).length) fs

/-- Where the fields start, without the first, and the end. -/
def offsets (io : BinFloat F) (isz : Nat) : Nat → List (Field F) → List Nat
  | _, [] => []
  | o, f :: fs => (o + (f.bytes io (wz isz)).length) :: offsets io isz (o + (f.bytes io (wz isz)).length) fs

theorem intAt_left (k : Nat) (z : Int) (h : IsInt k z) (pre s : List Byte) :
    intAt k pre.length (pre ++ (intEnc false k z ++ s)) = z := by
  unfold intAt
  rw [List.drop_left' rfl, List.take_left' (length_intEnc _ _ _), intDec_intEnc _ _ _ h]

theorem isInt_key {k : Nat} (h : k < 1000) : IsInt 4 (k : Int) := by unfold IsInt; constructor <;> omega

theorem isInt8_nat {k : Nat} (h : k < 2 ^ 63) : IsInt 8 (k : Int) := by unfold IsInt; constructor <;> omega

theorem linked_chain (io : BinFloat F) (isz : Nat) (fs : List (Field F)) (pre : List Byte) (hc : Chained io isz pre.length fs)
    (hl : (pre ++ (fs.flatMap (Field.bytes io (wz isz)) ++ (intEnc false 4 54 ++ intEnc false 8 0))).length < 2 ^ 63) :
    Linked (pre ++ (fs.flatMap (Field.bytes io (wz isz)) ++ (intEnc false 4 54 ++ intEnc false 8 0))) pre.length
      (offsets io isz pre.length fs) ∧
    (pre.length :: offsets io isz pre.length fs).map (fun o => intAt 4 o (pre ++ (fs.flatMap (Field.bytes io (wz isz)) ++
      (intEnc false 4 54 ++ intEnc false 8 0)))) = (fs.map fun f => (Field.key f : Int)) ++ [54] := by
  induction fs generalizing pre with
  | nil =>
    simp only [List.flatMap_nil, List.nil_append, offsets, Linked, List.map_cons, List.map_nil]
    have e1 := intAt_left 4 54 (by decide) pre (intEnc false 8 0)
    have e2 := intAt_left 8 0 (by decide) (pre ++ intEnc false 4 54) []
    simp only [List.append_nil, List.append_assoc, List.length_append, length_intEnc] at e2
    refine ⟨⟨e1, e2, ?_⟩, by rw [e1]⟩
    simp [length_intEnc]
  | cons f fs ih =>
    obtain ⟨hp, h54, hk, hc⟩ := hc
    have e : pre ++ ((f :: fs).flatMap (Field.bytes io (wz isz)) ++ (intEnc false 4 54 ++ intEnc false 8 0)) =
        (pre ++ f.bytes io (wz isz)) ++ (fs.flatMap (Field.bytes io (wz isz)) ++ (intEnc false 4 54 ++ intEnc false 8 0)) := by
      simp [List.flatMap_cons]
    rw [e] at hl ⊢
    have hlen : (pre ++ f.bytes io (wz isz)).length = pre.length + (f.bytes io (wz isz)).length := List.length_append
    have ih := ih (pre ++ f.bytes io (wz isz)) (by rw [hlen]; exact hc) hl
    rw [hlen] at ih
    generalize htail : fs.flatMap (Field.bytes io (wz isz)) ++ (intEnc false 4 54 ++ intEnc false 8 0) = tail at *
    have htl : 0 < tail.length := by rw [← htail]; simp [length_intEnc]
    obtain ⟨body, hb⟩ := field_bytes io isz f (by have := length_field io (wz isz) f; omega)
    have hbl : 12 ≤ (f.bytes io (wz isz)).length := by rw [hb]; simp [length_intEnc]; omega
    have hpos : IsInt 8 (Field.pos f) := by
      rw [hp]
      apply isInt8_nat
      simp only [List.length_append] at hl
      omega
    have e1 : intAt 4 pre.length ((pre ++ f.bytes io (wz isz)) ++ tail) = Field.key f := by
      have := intAt_left 4 (Field.key f) (isInt_key hk) pre (intEnc false 8 (Field.pos f) ++ (body ++ tail))
      rw [hb]
      simpa only [List.append_assoc] using this
    have e2 : intAt 8 (pre.length + 4) ((pre ++ f.bytes io (wz isz)) ++ tail) = Field.pos f := by
      have := intAt_left 8 (Field.pos f) hpos (pre ++ intEnc false 4 (Field.key f)) (body ++ tail)
      rw [hb]
      simp only [List.length_append, length_intEnc] at this
      simpa only [List.append_assoc] using this
    refine ⟨⟨?_, ?_, ?_, ?_, ih.1⟩, ?_⟩
    · rw [e1]; omega
    · rw [e2, hp]
    · omega
    · simp only [List.length_append]; omega
    · rw [offsets, List.map_cons, ih.2, e1]
      rfl

theorem rows_width (b : Blk) (n : Nat) (h : ∀ r ∈ b.rows, r.length = n) :
    b.rows.length * ((b.rows.headD []).length + 1) = b.rows.length * (n + 1) := by
  cases hr : b.rows with
  | nil => simp
  | cons r rs => simp only [List.headD_cons, h r (by rw [hr]; simp)]

theorem fieldList_chained (io : BinFloat F) (isz : Nat) (cref : Option (List (List Int))) (k pos : Nat) (bs : List Blk)
    (hrows : ∀ b ∈ bs, ∀ n, nodes b.type = some n → ∀ r ∈ b.rows, r.length = n)
    (hc : ∀ l, cref = some l → ∀ (i : Nat) (b : Blk), bs[i]? = some b → ∃ r, l[k + i]? = some r ∧ r.length = b.rows.length) :
    Chained io isz pos (fieldList isz cref k pos bs) ∧
      (fieldList (F := F) isz cref k pos bs).map (fun f => cellCode (Field.key f)) =
        ((bs.zipIdx k).filter fun b => (nodes b.1.type).isSome).map fun b => some b.1.type := by
  induction bs generalizing k pos with
  | nil => exact ⟨trivial, rfl⟩
  | cons b bs ih =>
    have ih' := fun pos => ih (k + 1) pos (fun c hc => hrows c (by simp [hc])) (fun l hl i c hi => by
      obtain ⟨r, hr⟩ := hc l hl (i + 1) c (by simpa using hi)
      exact ⟨r, by rw [show k + 1 + i = k + (i + 1) by omega]; exact hr⟩)
    have hw := writeCode b.type
    rw [fieldList, List.zipIdx_cons]
    cases hfd : find mediBinaryWrite b.type with
    | none =>
      rw [hfd] at hw
      simp only at hw ⊢
      rw [List.filter_cons_of_neg (by simp [hw])]
      exact ih' pos
    | some key =>
      rw [hfd] at hw
      simp only at hw ⊢
      obtain ⟨hk, n, hn⟩ := hw
      have hlen : (labs cref k b).length = b.rows.length := (labelsOf_ok cref k b (fun l hl => by
          obtain ⟨r, hr⟩ := hc l hl 0 b rfl
          exact ⟨r, hr⟩)).2
      have hkey : key ≠ 54 ∧ key < 1000 :=
        (by decide +kernel : ∀ k ∈ mediBinaryWrite, k.2 ≠ 54 ∧ k.2 < 1000) _ (find_mem hfd)
      generalize hrl : ((b.rows.zip (labs cref k b)).map fun rl => (rl.1.map (· + 1), rl.2)) = rl
      have hrll : rl.length = b.rows.length := by rw [← hrl]; simp [hlen]
      have hw : ∀ r ∈ rl, r.1.length = n := by
        intro r hr
        rw [← hrl] at hr
        simp only [List.mem_map] at hr
        obtain ⟨x, hx, rfl⟩ := hr
        simp [hrows b (by simp) n hn x.1 (List.of_mem_zip hx).1]
      have hbl : ∀ p : Int, (Field.bytes io (wz isz) (.cells key p rl)).length =
          b.rows.length * ((b.rows.headD []).length + 1) * isz + (4 + 8 + isz) := by
        intro p
        rw [rows_width b n (hrows b (by simp) n hn)]
        simp only [Field.bytes, List.length_append, length_intEnc]
        rw [length_flatMap_const (isz * (n + 1)) _ _ (fun r hr => length_cell (wz isz) n r (hw r hr)), hrll]
        rw [Nat.mul_comm isz, ← Nat.mul_assoc]
        show 4 + 8 + isz + _ = _
        omega
      have ih'' := ih' (pos + b.rows.length * ((b.rows.headD []).length + 1) * isz + (4 + 8 + isz))
      refine ⟨⟨?_, hkey.1, hkey.2, ?_⟩, ?_⟩
      · rw [hbl]
        simp only [Field.pos]
        rw [Nat.add_assoc]
      · rw [hbl, ← Nat.add_assoc]
        exact ih''.1
      · rw [List.filter_cons_of_pos (by simp [hn]), List.map_cons, List.map_cons, ih''.2]
        simp only [Field.key, hk]

end Medit
end Meshio
