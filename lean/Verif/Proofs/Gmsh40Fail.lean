/-
Gmsh files of version 4.0: a text for every description; files that are refused.
-/
import Verif.Proofs.Gmsh40W
namespace Meshio.Gmsh40
open Types Tables Gmsh Spec
open Gmsh41 (sortEnts sizes sizes_stream ints_stream ints addSec addSec_fields numSec_text numSec_piece text_int text_size text_flt St tok_entities Entity
  ElemBlock piece_text)

variable {F : Type}

/-! ### A text for every description -/

theorem word_text (io : GmshFloat F) (t : Tok F) : t.Text io (t.word io) := by
  cases t with
  | int z => exact text_int io z
  | size n => exact text_size io n
  | flt x => exact text_flt io x

theorem secs40_text (io : GmshFloat F) (ascii : Bool) (l : List (Msh4Sec F)) (rest : List Char) :
    msh40Says io ascii l (l.flatMap (msh40SecText io ascii) ++ rest) rest := by
  induction l with
  | nil => rfl
  | cons x l ih =>
    refine ⟨l.flatMap (msh40SecText io ascii) ++ rest, ?_, ih⟩
    rw [List.flatMap_cons, List.append_assoc]
    cases x <;> rfl

theorem nodes_text (io : GmshFloat F) (ascii : Bool) (rows : List (List (Tok F))) (h : ascii = false → ∀ t ∈ rows.flatten, t.Fits 8) (rest : List Char) :
    Msh40NodeSec io ascii rows (msh40NodesText io ascii rows ++ rest) rest := by
  unfold Msh40NodeSec msh40NodesText
  cases ascii with
  | true =>
    rw [if_pos rfl, if_pos rfl]
    refine ⟨rows.map (fun r => joinWith ' ' (r.map (Tok.word io))), [], ?_, by simp, by rw [List.append_nil]⟩
    conv => arg 2; rw [← List.map_id rows]
    apply matched_map
    intro r _
    have := numLine_words io (r.map fun t => (t, t.word io)) (by
      intro a ha
      obtain ⟨t, -, rfl⟩ := List.mem_map.1 ha
      exact word_text io t)
    simpa [Function.comp_def] using this
  | false =>
    rw [if_neg (by simp), if_neg (by simp)]
    exact ⟨h rfl, rfl⟩

theorem text_says (io : GmshFloat F) (ascii : Bool) (f : Msh4File F) (types : List Int) (ht : types.length = f.nodes.length)
    (hfit : ascii = false → Msh40Fits f types) : Msh40Says io ascii f (msh40Text io ascii f types) := by
  have fits : ∀ l : List (Tok F), (∀ t ∈ l, t ∈ f.entToks ++ (msh40Nodes f types).flatten ++ msh40ElemToks f) → ascii = false → ∀ t ∈ l, t.Fits 8 :=
    fun l hl ha t ht => hfit ha t (hl t ht)
  refine ⟨_, _, _, _, _, _, f.post.flatMap (msh40SecText io ascii), types, rfl, secs40_text io ascii _ _, ?_, secs40_text io ascii _ _, ⟨ht, nodes_text io ascii _ (fits _ (by
    intro t ht; simp [ht])) _⟩, secs40_text io ascii _ _, numSec_text io ascii 8 "Elements" _ (fits _ (by intro t ht; simp only [List.mem_append]; exact Or.inr ht)) _, ?_⟩
  · cases hE : f.ents with
    | none => rfl
    | some l =>
      exact numSec_text io ascii 8 "Entities" _ (fits _ (by
        intro t ht
        simp only [List.mem_append]
        left; left
        unfold Msh4File.entToks
        rw [hE]
        exact ht)) _
  · have := secs40_text io ascii f.post []
    rw [List.append_nil] at this
    exact this

/-! ### Refusals -/

theorem reads_fail (io : GmshFloat F) (ascii : Bool) (st : St F) (name s : List Char) (e : Err) (hn : IsTok name)
    (h : readSection io ascii st name s = .error e) : Reads io ascii st ('$' :: name ++ '\n' :: s) (.error e) := by
  intro n hlt
  cases n with
  | zero => omega
  | succ n =>
    have ht : IsTok ('$' :: name) := isTok_cons (by decide) hn
    rw [readLoop, if_neg (by simp), readLine_append _ _ (tok_no_nl ht)]
    simp only [List.cons_append, List.head?_cons, List.drop_succ_cons, List.drop_zero]
    rw [if_neg (by simp), strip_tok hn, h]

theorem reads_line (io : GmshFloat F) (ascii : Bool) (st : St F) (c : Char) (s : List Char) (hc : c ≠ '$') :
    Reads io ascii st (c :: s) (.error .readError) := by
  intro n hlt
  cases n with
  | zero => omega
  | succ n =>
    rw [readLoop, if_neg (by simp), if_pos]
    intro h
    have : (readLine (c :: s)).1.head? = some c := by
      unfold readLine
      split <;> simp_all
    rw [this] at h
    exact hc (Option.some.inj h)

theorem read_of (io : GmshFloat F) (ascii : Bool) (s : List Char) (r : Res (St F)) (h : Reads io ascii ({} : St F) s r) :
    Gmsh40.read io (msh40Header ascii ++ s) = match (generalizing := false) r with
      | .error e => .error e
      | .ok st => finish st := by
  unfold Gmsh40.read
  rw [start_header ascii s]
  simp only
  unfold readBuffer
  rw [h (s.length + 1) (by omega)]
  cases r <;> rfl

/-- What is known when the elements are reached. -/
theorem reads_prefix (io : GmshFloat F) (ascii : Bool) (f : Msh4File F) (hf : Msh40Ok io.lim ascii f) (s1 s2 s3 s4 s5 s6 : List Char) (types : List Int)
    (p1 : msh40Says io ascii f.pre s1 s2)
    (p2 : match f.ents with
      | none => s2 = s3
      | some l => NumSec io ascii 8 "Entities" (msh4Entities l) s2 s3)
    (p3 : msh40Says io ascii f.mid0 s3 s4)
    (ht : types.length = f.nodes.length) (p4 : Msh40NodeSec io ascii (msh40Nodes f types) s4 s5)
    (p5 : msh40Says io ascii f.mid s5 s6) :
    ∃ C : St F, C.nodes = some ⟨f.ids.map Int.ofNat, f.points, []⟩ ∧ C.ents = f.ents.map sortEnts ∧ C.cells = none ∧
      ∀ r, Reads io ascii C s6 r → Reads io ascii ({} : St F) s1 r := by
  have hsec : ∀ x ∈ f.secs, Msh40Sec.Ok io.lim ascii f.points.length f.numElems x := hf.secs
  obtain ⟨a1, a2, a3, -⟩ := addSec_fields f.pre ({} : St F)
  generalize hA : f.pre.foldl addSec ({} : St F) = A at *
  obtain ⟨b1, b2, b3, -⟩ := addSec_fields f.mid0 { A with ents := f.ents.map sortEnts }
  generalize hB : f.mid0.foldl addSec { A with ents := f.ents.map sortEnts } = B at *
  obtain ⟨c1, c2, c3, -⟩ := addSec_fields f.mid { B with nodes := some ⟨f.ids.map Int.ofNat, f.points, []⟩ }
  generalize hC : f.mid.foldl addSec { B with nodes := some ⟨f.ids.map Int.ofNat, f.points, []⟩ } = C at *
  simp only at b1 b2 b3 c1 c2 c3
  refine ⟨C, c1, by rw [c2, b2], by rw [c3, b3, a3], ?_⟩
  intro r hr
  apply reads_secs io ascii _ _ f.pre (fun x hx => hsec x (by simp [Msh4File.secs, hx])) _ s1 s2 p1
  rw [hA]
  have hent : ∀ r, Reads io ascii { A with ents := f.ents.map sortEnts } s3 r → Reads io ascii A s2 r := by
    intro r hr
    cases hE : f.ents with
    | none =>
      rw [hE] at p2 hr
      have : s2 = s3 := p2
      rw [this]
      have hA' : A = { A with ents := none } := by
        have : A.ents = none := a2
        cases A
        simp only at this
        subst this
        rfl
      rw [hA']
      exact hr
    | some l =>
      rw [hE] at p2 hr
      refine reads_numSec io ascii A _ "Entities" _ s2 s3 r tok_entities p2 ?_ hr
      intro b hb
      rw [readSection, if_neg (by decide), if_pos rfl, readEntities_stream io ascii l (hf.ents l hE).1 b s3 hb]
      rfl
  apply hent
  apply reads_secs io ascii _ _ f.mid0 (fun x hx => hsec x (by simp [Msh4File.secs, hx])) _ s3 s4 p3
  rw [hB]
  obtain ⟨b, hb1, hb2, hb3⟩ := readNodes_sec io ascii f types ht hf.nodes.2.1 hf.nodes.2.2 s4 s5 p4
  rw [hb1]
  refine reads_section io ascii B { B with nodes := some ⟨f.ids.map Int.ofNat, f.points, []⟩ } _ _ s5 _ Gmsh22.tok_nodes hb2 ?_ ?_
  · rw [readSection, if_neg (by decide), if_neg (by decide), if_pos rfl, hb3]
  apply reads_secs io ascii _ _ f.mid (fun x hx => hsec x (by simp [Msh4File.secs, hx])) _ s5 s6 p5
  rw [hC]
  exact hr

theorem readElemBlocks_fail (ascii : Bool) (ents : Option (List Entity)) (n m : Nat) (s s1 : List Char) (l : List ElemBlock) (e : Err)
    (h1 : readElemBlocks ascii ents n s = .ok (l, s1)) (h2 : readElemBlock ascii ents s1 = .error e) (hm : n < m) :
    readElemBlocks ascii ents m s = .error e := by
  induction n generalizing m s l with
  | zero =>
    rw [readElemBlocks] at h1
    injection h1 with h1
    injection h1 with _ h1
    subst h1
    obtain ⟨m, rfl⟩ : ∃ m', m = m' + 1 := ⟨m - 1, by omega⟩
    rw [readElemBlocks, h2]
  | succ n ih =>
    obtain ⟨m, rfl⟩ : ∃ m', m = m' + 1 := ⟨m - 1, by omega⟩
    rw [readElemBlocks] at h1 ⊢
    cases hb : readElemBlock ascii ents s with
    | error e' => rw [hb] at h1; cases h1
    | ok x =>
      obtain ⟨b, s'⟩ := x
      rw [hb] at h1
      simp only at h1 ⊢
      cases hr : readElemBlocks ascii ents n s' with
      | error e' => rw [hr] at h1; cases h1
      | ok y =>
        obtain ⟨l', s''⟩ := y
        rw [hr] at h1
        simp only at h1
        injection h1 with h1
        injection h1 with _ h1
        subst h1
        rw [ih m s' l' hr (by omega)]

/-- An element block that is refused. -/
theorem read_bad_block (io : GmshFloat F) (ascii : Bool) (f : Msh4File F) (hf : Msh40Ok io.lim ascii f) (s1 s2 s3 s4 s5 s6 b rest : List Char) (types : List Int)
    (p1 : msh40Says io ascii f.pre s1 s2)
    (p2 : match f.ents with
      | none => s2 = s3
      | some l => NumSec io ascii 8 "Entities" (msh4Entities l) s2 s3)
    (p3 : msh40Says io ascii f.mid0 s3 s4) (ht : types.length = f.nodes.length) (p4 : Msh40NodeSec io ascii (msh40Nodes f types) s4 s5)
    (p5 : msh40Says io ascii f.mid s5 s6) (h6 : s6 = '$' :: "Elements".toList ++ '\n' :: b) (n x : Nat) (hn : f.blocks.length < n)
    (bad : List (Tok F)) (p6 : NumStream io ascii 8 ([.size n, .size x] ++ f.blocks.flatMap (msh40Block f.ids) ++ bad) b rest)
    (e : Err) (hbad : ∀ s, NumStream io ascii 8 bad s rest → readElemBlock ascii (f.ents.map sortEnts) s = .error e) :
    Gmsh40.read io (msh40Header ascii ++ s1) = .error e := by
  obtain ⟨C, c1, c2, -, hC⟩ := reads_prefix io ascii f hf s1 s2 s3 s4 s5 s6 types p1 p2 p3 ht p4 p5
  have hR : Reads io ascii C s6 (.error e) := by
    rw [h6]
    apply reads_fail io ascii C _ _ e Gmsh22.tok_elements
    rw [readSection, if_neg (by decide), if_neg (by decide), if_neg (by decide), if_pos rfl, c1]
    simp only
    have e1 : [Tok.size n, .size x] = ([n, x].map .size : List (Tok F)) := rfl
    rw [List.append_assoc, e1] at p6
    obtain ⟨t1, h1, p6⟩ := sizes_stream io ascii 8 _ _ b _ p6
    obtain ⟨t2, h2, p6⟩ := readElemBlocks_stream io ascii f io.lim hf f.blocks (fun _ h => h) bad t1 _ p6
    have h1' : sizes ascii 8 2 b = ([n, x], t1) := h1
    unfold readElements
    rw [h1']
    simp only
    rw [c2, readElemBlocks_fail ascii _ f.blocks.length n t1 t2 _ e h2 (hbad t2 p6) hn]
  have := read_of io ascii s1 _ (hC _ hR)
  exact this

end Meshio.Gmsh40
