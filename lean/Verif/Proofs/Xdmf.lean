/-
Lemmas for XDMF files: every data item reads back the array it was made from, in every later state.
-/
import Verif.Proofs.Dim
import Verif.Model.XdmfSeries
import Verif.Proofs.XdmfMixed
import Verif.Proofs.Med
import Verif.Proofs.Common
namespace Meshio
open Spec
namespace Xdmf
open Types Tables

variable {F T : Type}

/-! ## Files and names -/

theorem lookup_setFile_self (fs : Files F) (p : List Char) (h : Heavy F) : (setFile fs p h).lookup p = some h := by
  induction fs with
  | nil => simp [setFile]
  | cons a fs ih =>
    obtain ⟨q, g⟩ := a
    rw [setFile]
    by_cases e : q = p
    · rw [if_pos e]; simp
    · rw [if_neg e, List.lookup_cons]
      have : (p == q) = false := by simpa using fun h => e h.symm
      rw [this]; exact ih

theorem lookup_setFile_ne (fs : Files F) (p q : List Char) (h : Heavy F) (hne : q ≠ p) :
    (setFile fs p h).lookup q = fs.lookup q := by
  induction fs with
  | nil => simp [setFile, hne]
  | cons a fs ih =>
    obtain ⟨r, g⟩ := a
    rw [setFile]
    by_cases e : r = p
    · subst e
      rw [if_pos rfl]
      have : (q == r) = false := by simpa using hne
      simp only [List.lookup_cons, this]
    · rw [if_neg e, List.lookup_cons, List.lookup_cons, ih]

theorem fmtNat_inj {i j : Nat} (h : fmtNat i = fmtNat j) : i = j := by
  have := congrArg parseNat h
  simpa [parseNat_fmtNat] using this

theorem binName_inj {c : Cfg} {i j : Nat} (h : binName c i = binName c j) : i = j := by
  unfold binName at h
  have := List.append_cancel_right h
  exact fmtNat_inj (List.append_cancel_left this)

theorem setName_inj {i j : Nat} (h : setName i = setName j) : i = j :=
  fmtNat_inj (List.append_cancel_left h)

/-- The data sets of a list of arrays. -/
def setsOf (arrs : List (Nd F)) : List (List Char × Nd F) := arrs.zipIdx.map fun e => (setName e.2, e.1)

theorem setsOf_append (arrs : List (Nd F)) (a : Nd F) :
    setsOf (arrs ++ [a]) = setsOf arrs ++ [(setName arrs.length, a)] := by
  simp [setsOf, List.zipIdx_append]

theorem mem_setsOf_names {arrs : List (Nd F)} {s : List Char} (h : s ∈ (setsOf arrs).map (·.1)) :
    ∃ k, k < arrs.length ∧ s = setName k := by
  simp only [setsOf, List.map_map, List.mem_map, Function.comp] at h
  obtain ⟨e, he, rfl⟩ := h
  have := List.mem_zipIdx_iff_getElem?.1 he
  refine ⟨e.2, ?_, rfl⟩
  rcases Nat.lt_or_ge e.2 arrs.length with h | h
  · exact h
  · rw [List.getElem?_eq_none h] at this; cases this

theorem setName_not_mem (arrs : List (Nd F)) : setName arrs.length ∉ (setsOf arrs).map (·.1) := by
  intro h
  obtain ⟨k, hk, e⟩ := mem_setsOf_names h
  have := setName_inj e
  omega

theorem lookup_setsOf (arrs : List (Nd F)) (k : Nat) (a : Nd F) (h : arrs[k]? = some a) :
    (setsOf arrs).lookup (setName k) = some a := by
  have key : ∀ (l : List (Nd F)) (n : Nat), ((l.zipIdx n).map (fun e : Nd F × Nat => (setName e.2, e.1))).lookup (setName k) =
      if n ≤ k then l[k - n]? else none := by
    intro l
    induction l with
    | nil => intro n; simp
    | cons b l ih =>
      intro n
      rw [List.zipIdx_cons, List.map_cons, List.lookup_cons]
      by_cases e : setName k = setName n
      · have := setName_inj e
        subst this
        simp
      · have hb : (setName k == setName n) = false := by simpa using e
        rw [hb, ih]
        have hne : k ≠ n := fun h => e (by rw [h])
        by_cases hnk : n ≤ k
        · rw [if_pos (by omega), if_pos hnk, show k - n = (k - (n + 1)) + 1 by omega, List.getElem?_cons_succ]
        · rw [if_neg (by omega), if_neg hnk]
  have := key arrs 0
  rw [if_pos (by omega), Nat.sub_zero, h] at this
  exact this

/-! ## The invariant -/

/-- The arrays written to heavy data so far, and where they are. -/
def Inv (c : Cfg) (w : W F) (arrs : List (Nd F)) : Prop :=
  match c.fmt with
  | .xml => True
  | .binary => w.counter = arrs.length ∧
      ∀ (k : Nat) (a : Nd F), arrs[k]? = some a → w.files.lookup (c.heavyDir ++ binName c k) = some (.raw a.dtype a.rows.flatten)
  | .hdf => w.counter = arrs.length ∧ w.files.lookup (c.heavyDir ++ h5Name c) = some (.h5 (setsOf arrs))

/-- The text of the item of an array. -/
def TextOf (c : Cfg) (arrs : List (Nd F)) (t : Text F) (a : Nd F) : Prop :=
  match c.fmt with
  | .xml => t = .numbers a.rows.flatten
  | .binary => ∃ k : Nat, arrs[k]? = some a ∧ t = .path (c.heavyDir ++ binName c k)
  | .hdf => ∃ k : Nat, arrs[k]? = some a ∧ t = .path (h5Name c ++ ":/".toList ++ setName k)

/-- The item of an array. -/
def ItemOf (c : Cfg) (arrs : List (Nd F)) (it : Item F) (a : Nd F) : Prop :=
  find numpyToXdmf a.dtype = some it.num ∧ it.dims = a.shape ∧ it.fmt = c.fmt ∧ TextOf c arrs it.text a

theorem inv_start (c : Cfg) (fs : Files F) : Inv c (start c fs) [] := by
  unfold Inv start
  cases h : c.fmt with
  | xml => trivial
  | binary => simp
  | hdf =>
    simp only [if_true]
    exact ⟨rfl, by rw [lookup_setFile_self]; rfl⟩

theorem TextOf.mono {c : Cfg} {arrs : List (Nd F)} {t : Text F} {a : Nd F} (h : TextOf c arrs t a)
    (more : List (Nd F)) : TextOf c (arrs ++ more) t a := by
  have get : ∀ k : Nat, arrs[k]? = some a → (arrs ++ more)[k]? = some a := by
    intro k hk
    have hlt : k < arrs.length := by
      rcases Nat.lt_or_ge k arrs.length with h | h
      · exact h
      · rw [List.getElem?_eq_none h] at hk; cases hk
    rw [List.getElem?_append_left hlt, hk]
  unfold TextOf at *
  cases hf : c.fmt with
  | xml => rw [hf] at h; exact h
  | binary =>
    rw [hf] at h
    obtain ⟨k, h1, h2⟩ := h
    exact ⟨k, get k h1, h2⟩
  | hdf =>
    rw [hf] at h
    obtain ⟨k, h1, h2⟩ := h
    exact ⟨k, get k h1, h2⟩

theorem ItemOf.mono {c : Cfg} {arrs : List (Nd F)} {it : Item F} {a : Nd F} (h : ItemOf c arrs it a)
    (more : List (Nd F)) : ItemOf c (arrs ++ more) it a :=
  ⟨h.1, h.2.1, h.2.2.1, h.2.2.2.mono more⟩

theorem putText_inv {flat : Bool} {c : Cfg} {w w' : W F} {a : Nd F} {t : Text F} {arrs : List (Nd F)}
    (hi : Inv c w arrs) (h : putText flat c w a = .ok (w', t)) :
    ∃ more, Inv c w' (arrs ++ more) ∧ TextOf c (arrs ++ more) t a := by
  unfold putText at h
  unfold Inv at hi ⊢
  unfold TextOf
  cases hf : c.fmt with
  | xml =>
    rw [hf] at h
    simp only at h
    split at h
    · cases h
    · split at h
      · cases h
      · simp only [Except.ok.injEq, Prod.mk.injEq] at h
        exact ⟨[], trivial, h.2.symm⟩
  | binary =>
    rw [hf] at h hi
    simp only [Except.ok.injEq, Prod.mk.injEq] at h
    obtain ⟨h1, h2⟩ := h
    obtain ⟨i1, i2⟩ := hi
    refine ⟨[a], ⟨?_, ?_⟩, arrs.length, by simp, ?_⟩
    · rw [← h1]; simp [i1]
    · intro k b hb
      rw [← h1]
      simp only
      by_cases hk : k = arrs.length
      · subst hk
        rw [i1, lookup_setFile_self]
        simp only [List.getElem?_concat_length, Option.some.injEq] at hb
        rw [hb]
      · rw [lookup_setFile_ne]
        · apply i2
          rw [List.getElem?_append] at hb
          split at hb
          · exact hb
          · next hlt =>
            rw [List.getElem?_singleton] at hb
            rw [if_neg (by omega)] at hb
            cases hb
        · intro e
          exact hk (by rw [← i1]; exact binName_inj (List.append_cancel_left e))
    · rw [← h2, i1]
  | hdf =>
    rw [hf] at h hi
    obtain ⟨i1, i2⟩ := hi
    simp only at h
    rw [i2] at h
    simp only at h
    have hc : hCreate (setsOf arrs) (setName w.counter) a = .ok (setsOf (arrs ++ [a])) := by
      unfold hCreate
      rw [i1, if_neg (setName_not_mem arrs), setsOf_append]
    rw [hc] at h
    simp only [Except.ok.injEq, Prod.mk.injEq] at h
    obtain ⟨h1, h2⟩ := h
    refine ⟨[a], ⟨?_, ?_⟩, arrs.length, by simp, ?_⟩
    · rw [← h1]; simp [i1]
    · rw [← h1]; exact lookup_setFile_self _ _ _
    · rw [← h2, i1]

/-- When the text of an array can be made. -/
def Writable (flat : Bool) (c : Cfg) (a : Nd F) : Prop :=
  (find numpyToXdmf a.dtype).isSome = true ∧
    (c.fmt = .xml → a.dtype ∈ printable ∧ (flat = true ∨ a.inner.length < 2))

theorem putText_ok {flat : Bool} {c : Cfg} {w : W F} {a : Nd F} {arrs : List (Nd F)}
    (hi : Inv c w arrs) (hw : Writable flat c a) : ∃ w' t, putText flat c w a = .ok (w', t) := by
  unfold putText
  unfold Inv at hi
  cases hf : c.fmt with
  | xml =>
    obtain ⟨h1, h2⟩ := hw.2 hf
    simp only
    rw [if_neg (by simpa using h1), if_neg]
    · exact ⟨_, _, rfl⟩
    · simp only [Bool.and_eq_true, Bool.not_eq_true', decide_eq_true_eq, not_and]
      intro hfl
      rcases h2 with h2 | h2
      · rw [h2] at hfl; cases hfl
      · omega
  | binary => exact ⟨_, _, rfl⟩
  | hdf =>
    rw [hf] at hi
    obtain ⟨i1, i2⟩ := hi
    simp only
    rw [i2]
    simp only
    unfold hCreate
    rw [i1, if_neg (setName_not_mem arrs)]
    exact ⟨_, _, rfl⟩

theorem putItem_ok {flat : Bool} {c : Cfg} {w : W F} {a : Nd F} {arrs : List (Nd F)}
    (hi : Inv c w arrs) (hw : Writable flat c a) (dims : List Nat) (hd : dims = a.shape) :
    ∃ w' it more, putItem flat c w dims a = .ok (w', it) ∧ Inv c w' (arrs ++ more) ∧ ItemOf c (arrs ++ more) it a := by
  obtain ⟨w', t, ht⟩ := putText_ok hi hw
  obtain ⟨more, h1, h2⟩ := putText_inv hi ht
  obtain ⟨num, hn⟩ := Option.isSome_iff_exists.1 hw.1
  refine ⟨w', { num := num, dims := dims, fmt := c.fmt, text := t }, more, ?_, h1, hn, hd, rfl, h2⟩
  unfold putItem
  rw [hn]
  simp only
  rw [ht]

/-! ## Reading an item -/

/-- Names that survive `strip` and `split(":")`. -/
structure NamesOk (c : Cfg) : Prop where
  lead : ∀ x, (c.heavyDir ++ c.stem).head? = some x → isWs x = false
  stem : ∀ x, c.stem.head? = some x → isWs x = false
  colon : ':' ∉ c.stem
  /-- The HDF5 file is looked for where it is. -/
  dir : c.fmt = .hdf → c.dir = c.heavyDir

theorem strip_id {s : List Char} (h1 : ∀ c, s.head? = some c → isWs c = false)
    (h2 : ∀ c, s.getLast? = some c → isWs c = false) : strip s = s := by
  have := strip_trim h1 h2 [] (by simp)
  simpa using this

theorem digit_ne {c : Char} {d : Char} (h : c.isDigit = true) (hd : d.isDigit = false) : c ≠ d := by
  intro e
  rw [e, hd] at h
  cases h

theorem head_append_digits {s r : List Char} {n : Nat} (h : ∀ x, s.head? = some x → isWs x = false) :
    ∀ x, (s ++ (fmtNat n ++ r)).head? = some x → isWs x = false := by
  intro x hx
  cases s with
  | nil =>
    have hne := fmtNat_ne_nil n
    cases hf : fmtNat n with
    | nil => exact absurd hf hne
    | cons d ds =>
      rw [hf] at hx
      simp only [List.nil_append, List.cons_append, List.head?_cons, Option.some.injEq] at hx
      subst hx
      exact isWs_false_of_isDigit (fmtNat_isDigit (n := n) (by rw [hf]; simp))
  | cons y s =>
    simp only [List.cons_append, List.head?_cons, Option.some.injEq] at hx
    subst hx
    exact h y rfl

theorem strip_bin {c : Cfg} (hc : NamesOk c) (k : Nat) : strip (c.heavyDir ++ binName c k) = c.heavyDir ++ binName c k := by
  apply strip_id
  · intro x hx
    unfold binName at hx
    rw [List.append_assoc, ← List.append_assoc] at hx
    exact head_append_digits hc.lead x hx
  · intro x hx
    unfold binName at hx
    rw [← List.append_assoc, List.getLast?_append] at hx
    have : (".bin".toList).getLast? = some 'n' := by decide
    rw [this] at hx
    simp only [Option.some_or, Option.some.injEq] at hx
    subst hx
    decide

theorem strip_h5 {c : Cfg} (hc : NamesOk c) (k : Nat) :
    strip (h5Name c ++ ":/".toList ++ setName k) = h5Name c ++ ":/".toList ++ setName k := by
  apply strip_id
  · intro x hx
    unfold h5Name at hx
    cases hs : c.stem with
    | nil =>
      rw [hs] at hx
      have : ([] ++ ".h5".toList ++ ":/".toList ++ setName k : List Char).head? = some '.' := rfl
      rw [this] at hx
      simp only [Option.some.injEq] at hx
      subst hx
      decide
    | cons y s =>
      rw [hs] at hx
      simp only [List.cons_append, List.head?_cons, Option.some.injEq] at hx
      subst hx
      exact hc.stem y (by rw [hs]; rfl)
  · intro x hx
    unfold setName at hx
    rw [← List.append_assoc, List.getLast?_append] at hx
    cases hl : (fmtNat k).getLast? with
    | none => exact absurd (List.getLast?_eq_none_iff.1 hl) (fmtNat_ne_nil k)
    | some d =>
      rw [hl] at hx
      simp only [Option.some_or, Option.some.injEq] at hx
      subst hx
      exact isWs_false_of_isDigit (fmtNat_isDigit (List.mem_of_mem_getLast? hl))

theorem split_h5 {c : Cfg} (hc : NamesOk c) (k : Nat) :
    splitOnC ':' (h5Name c ++ ":/".toList ++ setName k) = [h5Name c, '/' :: setName k] := by
  have e : h5Name c ++ ":/".toList ++ setName k = h5Name c ++ ':' :: ('/' :: setName k) := by
    simp
  rw [e, splitOnC_append_sep, splitOnC_not_mem]
  · simp only [List.mem_cons, not_or]
    refine ⟨by decide, ?_⟩
    unfold setName
    rw [List.mem_append]
    rintro (h | h)
    · exact absurd h (by decide)
    · exact digit_ne (fmtNat_isDigit h) (by decide) rfl
  · unfold h5Name
    rw [List.mem_append]
    rintro (h | h)
    · exact hc.colon h
    · exact absurd h (by decide)

theorem slash_not_mem_setName (k : Nat) : '/' ∉ setName k := by
  unfold setName
  rw [List.mem_append]
  rintro (h | h)
  · exact absurd h (by decide)
  · exact digit_ne (fmtNat_isDigit h) (by decide) rfl

theorem find_xdmfToNumpy : ∀ e ∈ numpyToXdmf, find xdmfToNumpy e.2 = some e.1 := by decide +kernel

/-- A rectangular array. -/
def Rect (a : Nd F) : Prop := ∀ r ∈ a.rows, r.length = prod a.inner

/-- An array whose text the time series reader can take. -/
def NonEmptyText (strict : Bool) (c : Cfg) (a : Nd F) : Prop :=
  strict = true → c.fmt = .xml → a.rows.flatten ≠ []

theorem reshapeNd_ok {a : Nd F} (hr : Rect a) : reshapeNd a.dtype a.shape a.rows.flatten = .ok a := by
  unfold reshapeNd Nd.shape
  simp only
  rw [reshape_flatten _ _ hr]

theorem readItem_ok {strict : Bool} {c : Cfg} {w : W F} {arrs : List (Nd F)} {it : Item F} {a : Nd F}
    (hc : NamesOk c) (hi : Inv c w arrs) (h : ItemOf c arrs it a) (hr : Rect a) (hs : NonEmptyText strict c a) :
    readItem strict c.dir w.files it = .ok a := by
  obtain ⟨h1, h2, h3, h4⟩ := h
  have hn : find xdmfToNumpy it.num = some a.dtype := by
    have := find_xdmfToNumpy _ (find_mem h1)
    exact this
  unfold readItem
  unfold TextOf at h4
  unfold Inv at hi
  rw [h3]
  cases hf : c.fmt with
  | xml =>
    rw [hf] at h4
    simp only at h4
    simp only [hn, h4, h2]
    rw [if_neg, reshapeNd_ok hr]
    simp only [Bool.and_eq_true, List.isEmpty_iff, not_and]
    intro e
    exact hs e hf
  | binary =>
    rw [hf] at h4 hi
    obtain ⟨k, hk, ht⟩ := h4
    simp only [ht, hn]
    rw [strip_bin hc, hi.2 k a hk]
    simp only [if_true, h2]
    exact reshapeNd_ok hr
  | hdf =>
    rw [hf] at h4 hi
    obtain ⟨k, hk, ht⟩ := h4
    simp only [ht]
    unfold readH5
    rw [strip_h5 hc, split_h5 hc]
    simp only
    rw [hc.dir hf, hi.2]
    simp only [ne_eq, not_true_eq_false, decide_false, Bool.and_false, Bool.false_eq_true, if_true, if_false,
      slash_not_mem_setName, lookup_setsOf _ _ _ hk]

/-! ## Grids -/

/-- What an element says: an element with the array of its item. -/
inductive Desc (F T : Type) where
  | geometry (type : String) (a : Nd F)
  | topology (type : String) (a : Nd F)
  | attr (name : List Char) (type : String) (center : String) (a : Nd F)
  | time (t : T)
  | incl

/-- The element says so. -/
def ElemOf (c : Cfg) (arrs : List (Nd F)) (e : Elem F T) (d : Desc F T) : Prop :=
  match d with
  | .geometry ty a => ∃ it, e = .geometry ty [it] ∧ ItemOf c arrs it a
  | .topology ty a => ∃ it, e = .topology ty [it] ∧ ItemOf c arrs it a
  | .attr n ty ce a => ∃ it, e = .attr n ty ce [it] ∧ ItemOf c arrs it a
  | .time t => e = .time t
  | .incl => e = .incl

/-- The grid says so. -/
def GridOf (c : Cfg) (arrs : List (Nd F)) : List (Elem F T) → List (Desc F T) → Prop
  | [], [] => True
  | e :: es, d :: ds => ElemOf c arrs e d ∧ GridOf c arrs es ds
  | _, _ => False

theorem ElemOf.mono {c : Cfg} {arrs : List (Nd F)} {e : Elem F T} {d : Desc F T} (h : ElemOf c arrs e d)
    (more : List (Nd F)) : ElemOf c (arrs ++ more) e d := by
  cases d with
  | geometry ty a => obtain ⟨it, h1, h2⟩ := h; exact ⟨it, h1, h2.mono more⟩
  | topology ty a => obtain ⟨it, h1, h2⟩ := h; exact ⟨it, h1, h2.mono more⟩
  | attr n ty ce a => obtain ⟨it, h1, h2⟩ := h; exact ⟨it, h1, h2.mono more⟩
  | time t => exact h
  | incl => exact h

theorem GridOf.mono {c : Cfg} {arrs : List (Nd F)} {es : List (Elem F T)} {ds : List (Desc F T)}
    (h : GridOf c arrs es ds) (more : List (Nd F)) : GridOf c (arrs ++ more) es ds := by
  induction es generalizing ds with
  | nil => cases ds with
    | nil => trivial
    | cons d ds => exact h
  | cons e es ih => cases ds with
    | nil => exact h
    | cons d ds => exact ⟨h.1.mono more, ih h.2⟩

theorem GridOf.append {c : Cfg} {arrs : List (Nd F)} {es es' : List (Elem F T)} {ds ds' : List (Desc F T)}
    (h : GridOf c arrs es ds) (h' : GridOf c arrs es' ds') : GridOf c arrs (es ++ es') (ds ++ ds') := by
  induction es generalizing ds with
  | nil => cases ds with
    | nil => exact h'
    | cons d ds => exact h.elim
  | cons e es ih => cases ds with
    | nil => exact h.elim
    | cons d ds => exact ⟨h.1, ih h.2⟩

/-- The array of an element. -/
def Desc.arr : Desc F T → Option (Nd F)
  | .geometry _ a => some a
  | .topology _ a => some a
  | .attr _ _ _ a => some a
  | _ => none

/-- What the reader does with an array. -/
def readDesc (s : RSt F) (d : Desc F T) : Res (RSt F) :=
  match d with
  | .topology ty a =>
    match readTopology s.cells ty a with
    | .error err => .error err
    | .ok cells => .ok { s with cells := cells }
  | .geometry ty a => if ty = "XY" ∨ ty = "XYZ" then .ok { s with points := some a } else .error .readError
  | .attr name _ center a =>
    if center = "Node" then .ok { s with pd := upd s.pd name a }
    else if center = "Cell" then .ok { s with cdRaw := upd s.cdRaw name a }
    else .error .readError
  | _ => .error .readError

theorem readElem_desc {c : Cfg} {w : W F} {arrs : List (Nd F)} (hc : NamesOk c) (hi : Inv c w arrs)
    (e : Elem F T) (d : Desc F T) (h : ElemOf c arrs e d)
    (hr : ∀ a, d.arr = some a → Rect a) (s : RSt F) :
    readElem c.dir w.files s e = readDesc s d := by
  have ri : ∀ it a, d.arr = some a → ItemOf c arrs it a → readItem false c.dir w.files it = .ok a :=
    fun it a ha hit => readItem_ok hc hi hit (hr a ha) (by intro h; cases h)
  cases d with
  | geometry ty a =>
    obtain ⟨it, rfl, h2⟩ := h
    simp only [readElem, readDesc, ri it a rfl h2]
  | topology ty a =>
    obtain ⟨it, rfl, h2⟩ := h
    simp only [readElem, readDesc, ri it a rfl h2]
    rfl
  | attr n ty ce a =>
    obtain ⟨it, rfl, h2⟩ := h
    simp only [readElem, readDesc, ri it a rfl h2]
  | time t =>
    have h : e = .time t := h
    subst h
    rfl
  | incl =>
    have h : e = .incl := h
    subst h
    rfl

theorem foldRes_grid {σ : Type} (f : σ → Elem F T → Res σ) (g : σ → Desc F T → Res σ) {c : Cfg} {arrs : List (Nd F)}
    (P : Desc F T → Prop) (hfg : ∀ e d s, ElemOf c arrs e d → P d → f s e = g s d)
    (es : List (Elem F T)) (ds : List (Desc F T)) (h : GridOf c arrs es ds) (hp : ∀ d ∈ ds, P d) (s : σ) :
    foldRes f s es = foldRes g s ds := by
  induction es generalizing ds s with
  | nil => cases ds with
    | nil => rfl
    | cons d ds => exact h.elim
  | cons e es ih => cases ds with
    | nil => exact h.elim
    | cons d ds =>
      rw [foldRes, foldRes, hfg e d s h.1 (hp d (by simp))]
      cases g s d with
      | error err => rfl
      | ok s' => exact ih ds h.2 (fun x hx => hp x (by simp [hx])) s'

/-! ## Integers -/

theorem valInts_map (l : List Int) : valInts (l.map (Val.int (F := F))) = .ok l := by
  induction l with
  | nil => rfl
  | cons i l ih => simp only [List.map_cons, valInts, ih]

theorem mapRes_valInts (rows : List (List Int)) :
    mapRes valInts (rows.map fun r => r.map (Val.int (F := F))) = .ok rows := by
  rw [mapRes_map]
  have := mapRes_ok_of_forall (f := fun r : List Int => valInts (r.map (Val.int (F := F)))) (g := fun r => r)
    (l := rows) (fun r _ => valInts_map r)
  rw [this, List.map_id']

theorem flatten_flatNd (l : List Int) : (flatNd (F := F) l).rows.flatten = l.map Val.int := by
  unfold flatNd
  simp only
  induction l with
  | nil => rfl
  | cons i l ih => simp only [List.map_cons, List.flatten_cons, ih, List.singleton_append]

theorem rect_flatNd (l : List Int) : Rect (flatNd (F := F) l) := by
  intro r hr
  simp only [flatNd, List.mem_map] at hr
  obtain ⟨i, _, rfl⟩ := hr
  rfl

theorem rect_connNd (w : Nat) (rows : List (List Int)) (h : ∀ r ∈ rows, r.length = w) :
    Rect (connNd (F := F) w rows) := by
  intro r hr
  simp only [connNd, List.mem_map] at hr
  obtain ⟨i, hi, rfl⟩ := hr
  simp [connNd, prod, h i hi]

theorem writable_int (flat : Bool) (c : Cfg) (inner : List Nat) (hi : inner.length < 2) (rows : List (List (Val F))) :
    Writable flat c { dtype := "int64", inner := inner, rows := rows } :=
  ⟨show (find numpyToXdmf "int64").isSome = true by decide,
    fun _ => ⟨show "int64" ∈ printable by decide, Or.inr hi⟩⟩

/-! ## Dictionaries -/

theorem upd_new {α : Type} (d : List (List Char × α)) (k : List Char) (v : α) (h : k ∉ d.map (·.1)) :
    upd d k v = d ++ [(k, v)] := by
  induction d with
  | nil => rfl
  | cons a d ih =>
    obtain ⟨k', v'⟩ := a
    simp only [List.map_cons, List.mem_cons, not_or] at h
    rw [upd, if_neg (fun e => h.1 e.symm), ih h.2]
    rfl

/-! ## Writing -/

/-- State of the writer. -/
def Good (c : Cfg) (s : W F × List (Elem F T)) (ds : List (Desc F T)) : Prop :=
  ∃ arrs, Inv c s.1 arrs ∧ GridOf c arrs s.2 ds

theorem good_add {c : Cfg} {w' : W F} {es : List (Elem F T)} {ds : List (Desc F T)} {arrs more : List (Nd F)}
    {e : Elem F T} {d : Desc F T} (hg : GridOf c arrs es ds) (hi : Inv c w' (arrs ++ more))
    (he : ElemOf c (arrs ++ more) e d) : Good c (w', es ++ [e]) (ds ++ [d]) :=
  ⟨arrs ++ more, hi, (hg.mono more).append ⟨he, trivial⟩⟩

theorem putAttr_ok {flat : Bool} {c : Cfg} {s : W F × List (Elem F T)} {ds : List (Desc F T)} (center : String)
    (e : List Char × Nd F) (ty : String) (hg : Good c s ds) (ht : attributeType e.2.inner = .ok ty)
    (hw : Writable flat c e.2) :
    ∃ s', putAttr flat c center s e = .ok s' ∧ Good c s' (ds ++ [.attr e.1 ty center e.2]) := by
  obtain ⟨arrs, hi, hgr⟩ := hg
  obtain ⟨w', it, more, h1, h2, h3⟩ := putItem_ok hi hw e.2.shape rfl
  refine ⟨(w', s.2 ++ [.attr e.1 ty center [it]]), ?_, good_add hgr h2 ⟨it, rfl, h3⟩⟩
  unfold putAttr
  rw [ht]
  simp only
  rw [h1]

/-- The type of the attribute of an array. -/
def attrTy (a : Nd F) : String := (attributeType a.inner).toOption.getD ""

theorem putAttrs_ok {flat : Bool} {c : Cfg} (center : String) (l : List (List Char × Nd F))
    (s : W F × List (Elem F T)) (ds : List (Desc F T)) (hg : Good c s ds)
    (hl : ∀ e ∈ l, (∃ ty, attributeType e.2.inner = .ok ty) ∧ Writable flat c e.2) :
    ∃ s', foldRes (putAttr flat c center) s l = .ok s' ∧
      Good c s' (ds ++ l.map fun e => .attr e.1 (attrTy e.2) center e.2) := by
  induction l generalizing s ds with
  | nil => exact ⟨s, rfl, by simpa using hg⟩
  | cons e l ih =>
    obtain ⟨⟨ty, ht⟩, hw⟩ := hl e (by simp)
    obtain ⟨s1, h1, h2⟩ := putAttr_ok center e ty hg ht hw
    obtain ⟨s2, h3, h4⟩ := ih s1 _ h2 (fun x hx => hl x (by simp [hx]))
    refine ⟨s2, ?_, ?_⟩
    · rw [foldRes, h1]; exact h3
    · have : attrTy e.2 = ty := by unfold attrTy; rw [ht]; rfl
      rw [List.map_cons, this]
      simpa using h4

theorem readAttrs_node (l : List (List Char × Nd F)) (s : RSt F) (hn : ((s.pd ++ l).map (·.1)).Nodup) :
    foldRes (readDesc (T := T)) s (l.map fun e => .attr e.1 (attrTy e.2) "Node" e.2) = .ok { s with pd := s.pd ++ l } := by
  induction l generalizing s with
  | nil => simp [foldRes]
  | cons e l ih =>
    have hnot : e.1 ∉ s.pd.map (·.1) := by
      rw [List.map_append, List.nodup_append] at hn
      intro h
      exact hn.2.2 _ h _ (by simp) rfl
    have hs : readDesc s (Desc.attr (T := T) e.1 (attrTy e.2) "Node" e.2) = .ok { s with pd := s.pd ++ [e] } := by
      unfold readDesc
      simp only
      rw [if_pos trivial, upd_new _ _ _ hnot]
    rw [List.map_cons, foldRes, hs]
    simp only
    rw [ih]
    · simp
    · simpa using hn

theorem readAttrs_cell (l : List (List Char × Nd F)) (s : RSt F) (hn : ((s.cdRaw ++ l).map (·.1)).Nodup) :
    foldRes (readDesc (T := T)) s (l.map fun e => .attr e.1 (attrTy e.2) "Cell" e.2) = .ok { s with cdRaw := s.cdRaw ++ l } := by
  induction l generalizing s with
  | nil => simp [foldRes]
  | cons e l ih =>
    have hnot : e.1 ∉ s.cdRaw.map (·.1) := by
      rw [List.map_append, List.nodup_append] at hn
      intro h
      exact hn.2.2 _ h _ (by simp) rfl
    have hs : readDesc s (Desc.attr (T := T) e.1 (attrTy e.2) "Cell" e.2) = .ok { s with cdRaw := s.cdRaw ++ [e] } := by
      unfold readDesc
      simp only
      rw [if_neg (by decide), if_pos trivial, upd_new _ _ _ hnot]
    rw [List.map_cons, foldRes, hs]
    simp only
    rw [ih]
    · simp
    · simpa using hn

/-! ## Streams -/

theorem mixedIdx : ∀ e ∈ xdmfMixed, find meshioToXdmfIdx e.1 = some e.2.1 := by decide +kernel

theorem header_code : ∀ e ∈ xdmfMixed, e.1 ≠ "vertex" → e.1 ≠ "line" → xdmfHeader e.1 = [(e.2.1 : Int)] := by
  decide +kernel

theorem mixedRows_ok (b : String × List (List Int)) (hb : b.1 ∈ xdmfMixed.map (·.1)) :
    mixedRows b = .ok (b.2.flatMap fun r => (if b.1 = "vertex" then [1, 1] else xdmfHeader b.1) ++ r) := by
  obtain ⟨e, he, hn⟩ := List.mem_map.1 hb
  unfold mixedRows
  rw [← hn, mixedIdx e he]
  simp only
  congr 1
  congr 1
  funext r
  unfold mixedRow
  by_cases h1 : e.1 = "vertex"
  · rw [if_pos (Or.inl h1), if_pos h1]
    have : ∀ e ∈ xdmfMixed, e.1 = "vertex" → e.2.1 = 1 := by decide +kernel
    rw [this e he h1]
    rfl
  · by_cases h2 : e.1 = "line"
    · rw [if_pos (Or.inr h2), if_neg h1, h2]
      have : ∀ e ∈ xdmfMixed, e.1 = "line" → e.2.1 = 2 := by decide +kernel
      rw [this e he h2]
      rfl
    · rw [if_neg (by simp [h1, h2]), if_neg h1, header_code e he h1 h2]
      rfl

/-- Every block has rows of one width. -/
def UniformCells (cells : List (String × List (List Int))) : Prop :=
  ∀ b ∈ cells, ∀ r ∈ b.2, r.length = widthOf b.2

theorem mixedRows_length {b : String × List (List Int)} {l : List Int} (h : mixedRows b = .ok l)
    (hu : ∀ r ∈ b.2, r.length = widthOf b.2) :
    l.length = b.2.length * widthOf b.2 + b.2.length + (if b.1 = "vertex" ∨ b.1 = "line" then b.2.length else 0) := by
  unfold mixedRows at h
  cases hf : find meshioToXdmfIdx b.1 with
  | none => rw [hf] at h; cases h
  | some idx =>
    rw [hf] at h
    simp only [Except.ok.injEq] at h
    rw [← h]
    generalize widthOf b.2 = w at hu
    generalize b.2 = rows at hu
    induction rows with
    | nil => simp
    | cons r rows ih =>
      have ih := ih (fun x hx => hu x (by simp [hx]))
      have hr := hu r (by simp)
      simp only [List.flatMap_cons, List.length_append, List.length_cons, ih]
      unfold mixedRow
      by_cases hp : b.1 = "vertex" ∨ b.1 = "line"
      · simp only [if_pos hp, List.length_cons, hr, Nat.succ_mul]; omega
      · simp only [if_neg hp, List.length_cons, hr, Nat.succ_mul]; omega

theorem sum_add_map {α : Type} (l : List α) (f g : α → Nat) :
    (l.map fun a => f a + g a).sum = (l.map f).sum + (l.map g).sum := by
  induction l with
  | nil => rfl
  | cons a l ih => simp only [List.map_cons, List.sum_cons, ih]; omega

theorem mixedDim_eq (cells : List (String × List (List Int))) (cd : List Int) (hu : UniformCells cells)
    (h : mixedStream cells = .ok cd) : mixedDim cells = cd.length := by
  unfold mixedStream at h
  cases hm : mapRes mixedRows cells with
  | error e => rw [hm] at h; cases h
  | ok l =>
    rw [hm] at h
    simp only [Except.ok.injEq] at h
    rw [← h]
    clear h
    unfold mixedDim
    induction cells generalizing l with
    | nil =>
      simp only [mapRes, Except.ok.injEq] at hm
      subst hm
      rfl
    | cons b cells ih =>
      simp only [mapRes] at hm
      cases hb : mixedRows b with
      | error e => rw [hb] at hm; cases hm
      | ok x =>
        rw [hb] at hm
        simp only at hm
        cases hc : mapRes mixedRows cells with
        | error e => rw [hc] at hm; cases hm
        | ok xs =>
          rw [hc] at hm
          simp only [Except.ok.injEq] at hm
          subst hm
          have ih := ih (fun y hy => hu y (by simp [hy])) xs hc
          have hx := mixedRows_length hb (hu b (by simp))
          simp only [List.flatten_cons, List.length_append, ← ih, hx, List.map_cons, List.sum_cons, List.filter_cons]
          by_cases hp : b.1 = "vertex" ∨ b.1 = "line"
          · simp only [if_pos hp, decide_eq_true hp, if_true, List.map_cons, List.sum_cons]; omega
          · simp only [if_neg hp, decide_eq_false hp, Bool.false_eq_true, if_false]; omega

theorem rowsOf_flatMap {β : Type} (cells : List (String × List (List Int))) (g : String → List Int → List β) :
    (cells.flatMap fun b => b.2.flatMap (g b.1)) = (rowsOf cells).flatMap fun c => g c.1 c.2 := by
  unfold rowsOf
  induction cells with
  | nil => rfl
  | cons b cells ih =>
    simp only [List.flatMap_cons, List.flatMap_append, ih]
    rw [List.flatMap_map]

theorem mixedStream_ok (cells : List (String × List (List Int))) (h : ∀ b ∈ cells, b.1 ∈ xdmfMixed.map (·.1)) :
    mixedStream cells = .ok ((rowsOf cells).flatMap fun c =>
      (if c.1 = "vertex" then [1, 1] else xdmfHeader c.1) ++ c.2) := by
  unfold mixedStream
  rw [mapRes_ok_of_forall (g := fun b => b.2.flatMap fun r => (if b.1 = "vertex" then [1, 1] else xdmfHeader b.1) ++ r)
    (fun b hb => mixedRows_ok b (h b hb))]
  simp only
  rw [← rowsOf_flatMap cells (fun t r => (if t = "vertex" then [1, 1] else xdmfHeader t) ++ r), List.flatMap]

/-! ## Concatenation and splitting -/

theorem concatNd_ok {l : List (Nd F)} {dtype : String} {inner : List Nat} (hne : l ≠ [])
    (h : ∀ a ∈ l, a.dtype = dtype ∧ a.inner = inner) :
    concatNd l = .ok { dtype := dtype, inner := inner, rows := l.flatMap (·.rows) } := by
  cases l with
  | nil => exact absurd rfl hne
  | cons a l =>
    obtain ⟨h1, h2⟩ := h a (by simp)
    unfold concatNd
    simp only
    rw [if_pos, if_pos]
    · rw [h1, h2]; rfl
    · rw [List.all_eq_true]
      intro b hb
      simp [(h b (by simp [hb])).1, h1]
    · rw [List.all_eq_true]
      intro b hb
      simp [(h b (by simp [hb])).2, h2]

theorem map_length_splitLens {α : Type} (lens : List Nat) (l : List α) (h : lens.sum ≤ l.length) :
    (splitLens lens l).map List.length = lens := by
  induction lens generalizing l with
  | nil => rfl
  | cons n ns ih =>
    simp only [List.sum_cons] at h
    simp only [splitLens, List.map_cons, List.length_take]
    rw [ih _ (by simp; omega)]
    congr 1
    omega

theorem cellDataFromRaw_splitLens {α : Type} (lens : List Nat) (l : List α) (hne : lens ≠ []) (h : l.length = lens.sum) :
    cellDataFromRaw lens l = splitLens lens l := by
  have h1 := map_length_splitLens lens l (by omega)
  have h2 : (splitLens lens l).flatten = l := flatten_splitLens lens l h.symm
  have h3 := cellDataFromRaw_flatten (splitLens lens l) (by
    intro e
    have := length_splitLens lens l
    rw [e] at this
    exact hne (List.length_eq_zero_iff.1 this.symm))
  rw [h1, h2] at h3
  exact h3

theorem readTopology_mixed (cells out : List (String × List (List Int))) (cd : List Int)
    (h : translateMixed cd = .ok out) : readTopology cells "Mixed" (flatNd (F := F) cd) = .ok out := by
  unfold readTopology
  rw [if_pos rfl, flatten_flatNd, valInts_map]
  exact h

theorem readTopology_single (cells : List (String × List (List Int))) (ty t : String) (w : Nat) (rows : List (List Int))
    (h1 : ty ≠ "Mixed") (h2 : find xdmfToMeshio ty = some t) (h3 : Spec.KnownType t) :
    readTopology cells ty (connNd (F := F) w rows) = .ok (cells ++ [(t, rows)]) := by
  unfold readTopology
  rw [if_neg h1, h2]
  simp only
  rw [(hasDim_iff t).2 h3, if_neg (by decide)]
  simp only [connNd, mapRes_valInts]

theorem readDesc_topology (r : RSt F) (ty : String) (a : Nd F) (out : List (String × List (List Int)))
    (h : readTopology r.cells ty a = .ok out) :
    foldRes (readDesc (T := T)) r [.topology ty a] = .ok { r with cells := out } := by
  simp only [foldRes, readDesc, h]

end Xdmf
end Meshio
