/-
What FLAC3D f3grid files say, independently of how meshio reads and writes them.
-/
import Verif.Model.Flac3d
import Verif.Spec.Runs
import Verif.Base.All2

namespace Meshio
namespace Spec
namespace Flac3d
open Meshio.Flac3d (FlacIO Arith Out)

variable {F : Type}

/-! ## Grids -/

/-- A zone or a face: its number and the positions of its gridpoints (a seventh node given twice makes an eighth). -/
structure Cell where
  id : Int
  nodes : List Nat
deriving DecidableEq

/-- A group: the positions of its zones (or faces). -/
structure Group where
  name : List Char
  slot : List Char
  members : List Nat
deriving DecidableEq

/-- A grid: numbered points, zones and faces, and groups of zones and of faces. -/
structure Grid (F : Type) where
  points : List (Int × List F)
  zones : List Cell
  faces : List Cell
  zgroups : List Group
  fgroups : List Group

/-- The name of a group in the mesh. -/
def key (kind : String) (g : Group) : String := String.ofList (kind.toList ++ ":".toList ++ g.name ++ ":".toList ++ g.slot)

/-- The types of zones by the number of nodes, with the positions at which FLAC3D lists the nodes of a meshio cell. -/
def zoneKind : Nat → Option (String × List Nat)
  | 4 => some ("tetra", [0, 1, 2, 3])
  | 5 => some ("pyramid", [0, 1, 4, 2, 3])
  | 6 => some ("wedge", [0, 1, 3, 2, 4, 5])
  | 8 => some ("hexahedron", [0, 1, 4, 2, 3, 6, 7, 5])
  | _ => none

/-- The types of faces by the number of nodes. -/
def faceKind : Nat → Option (String × List Nat)
  | 3 => some ("triangle", [0, 1, 2])
  | 4 => some ("quad", [0, 1, 2, 3])
  | _ => none

/-- The entries of a row at given positions. -/
def at' {α : Type} (d : α) (row : List α) (p : List Nat) : List α := p.map fun i => row.getD i d

/-- The cell of a zone or face. -/
def cell (kind : Nat → Option (String × List Nat)) (c : Cell) : String × List Nat :=
  match kind c.nodes.length with
  | none => ("", [])
  | some (t, p) => (t, at' 0 c.nodes p)

/-- Members of a group that lie in each of the blocks of the given lengths; numbers count through all blocks. -/
def perBlock (lens : List Nat) (l : List Nat) : List (List Int) :=
  (segsFrom 0 lens).map fun se => (l.filter fun (x : Nat) => decide (se.1 ≤ x ∧ x < se.2)).map fun (x : Nat) => (x : Int)

/-- The blocks of a grid: the faces, then the zones, neighbours of the same type together. -/
def blocksOf (g : Grid F) : List (String × List (List Nat)) :=
  groupRuns (g.faces.map (cell faceKind)) ++ groupRuns (g.zones.map (cell zoneKind))

/-- The mesh that a grid is read as. -/
def mesh (g : Grid F) : Out F :=
  let lens := (blocksOf g).map (·.2.length)
  ⟨g.points.map (·.2), blocksOf g,
    splitLens lens (g.faces.map (·.id) ++ g.zones.map (fun c => c.id + (g.faces.length : Int))),
    g.fgroups.map (fun s => (key "face" s, perBlock lens s.members)) ++
      g.zgroups.map (fun s => (key "zone" s, perBlock lens (s.members.map (· + g.faces.length))))⟩

/-- The cells of one kind and their groups fit together. -/
structure KindOk (kind : Nat → Option (String × List Nat)) (name : String) (npoints : Nat) (cells : List Cell) (groups : List Group) : Prop where
  nodes : ∀ c ∈ cells, (kind c.nodes.length).isSome ∧ ∀ v ∈ c.nodes, v < npoints
  nonneg : ∀ c ∈ cells, 0 ≤ c.id
  distinct : (cells.map (·.id)).Nodup
  members : ∀ g ∈ groups, ∀ i ∈ g.members, i < cells.length
  nonempty : cells ≠ [] → ∀ g ∈ groups, g.members ≠ []
  names : (groups.map (key name)).Nodup

/-- A grid: numbers are distinct, nodes and members exist, groups have members, names are distinct. -/
structure GridOk (g : Grid F) : Prop where
  distinct : (g.points.map (·.1)).Nodup
  dims : ∀ p ∈ g.points, ∀ q ∈ g.points, p.2.length = q.2.length
  zones : KindOk zoneKind "zone" g.points.length g.zones g.zgroups
  faces : KindOk faceKind "face" g.points.length g.faces g.fgroups

instance (kind : Nat → Option (String × List Nat)) (name : String) (n : Nat) (cs : List Cell) (gs : List Group) :
    Decidable (KindOk kind name n cs gs) :=
  decidable_of_iff ((∀ c ∈ cs, (kind c.nodes.length).isSome ∧ ∀ v ∈ c.nodes, v < n) ∧ (∀ c ∈ cs, 0 ≤ c.id) ∧
      (cs.map (·.id)).Nodup ∧ (∀ g ∈ gs, ∀ i ∈ g.members, i < cs.length) ∧ (cs ≠ [] → ∀ g ∈ gs, g.members ≠ []) ∧
      (gs.map (key name)).Nodup)
    ⟨fun h => ⟨h.1, h.2.1, h.2.2.1, h.2.2.2.1, h.2.2.2.2.1, h.2.2.2.2.2⟩,
      fun h => ⟨h.nodes, h.nonneg, h.distinct, h.members, h.nonempty, h.names⟩⟩

instance (g : Grid F) : Decidable (GridOk g) :=
  decidable_of_iff ((g.points.map (·.1)).Nodup ∧ (∀ p ∈ g.points, ∀ q ∈ g.points, p.2.length = q.2.length) ∧
      KindOk zoneKind "zone" g.points.length g.zones g.zgroups ∧ KindOk faceKind "face" g.points.length g.faces g.fgroups)
    ⟨fun h => ⟨h.1, h.2.1, h.2.2.1, h.2.2.2⟩, fun h => ⟨h.distinct, h.dims, h.zones, h.faces⟩⟩

/-! ## Text files -/

/-- The pieces of a text file. -/
inductive Item (F : Type) where
  | other (line : List Char)
  | point (id : Int) (x : List F)
  | zone (c : Cell)
  | face (c : Cell)
  | zgroup (g : Group)
  | fgroup (g : Group)
deriving DecidableEq

/-- The words that begin a line of data. -/
def keywords : List (List Char) := ["G".toList, "Z".toList, "F".toList, "ZGROUP".toList, "FGROUP".toList]

/-- The line of a zone or face, `Z W6 1 1 2 3 4 5 6`: the numbers of its points, where a B7 has its last one only once. -/
def CellLine (letter : String) (pids : List Int) (c : Cell) (l : List Char) : Prop :=
  ∃ (ty w : List Char) (ws : List (List Char)) (vs : List Nat), splitWs l = letter.toList :: ty :: w :: ws ∧ parseInt w = some c.id ∧
    ws.map parseInt = vs.map (fun v => pids[v]?) ∧ (∀ v ∈ vs, v < pids.length) ∧
    if ty = "B7".toList then ∃ v, vs.getLast? = some v ∧ c.nodes = vs ++ [v] else c.nodes = vs

/-- The line with the name of a group, `ZGROUP "name" SLOT 1`. -/
def GroupLine (word : String) (g : Group) (l : List Char) : Prop :=
  ∃ (g1 g2 g3 g4 : List Char) (q q' : Char),
    l = word.toList ++ (g1 ++ q :: (g.name ++ q' :: (g2 ++ ("SLOT".toList ++ (g3 ++ (g.slot ++ g4)))))) ∧
    g1 ≠ [] ∧ (∀ c ∈ g1 ++ g2 ++ g3 ++ g4, c = ' ') ∧ q ∈ ['"', '\''] ∧ q' ∈ ['"', '\''] ∧
    (∀ c ∈ g.name, c ≠ '"' ∧ c ≠ '\'' ∧ c ≠ '\n') ∧ (∀ c ∈ g.slot, c ≠ '\n') ∧
    g.slot.head? ≠ some ' ' ∧ g.slot.getLast? ≠ some ' ' ∧ (g3 = [] → ∀ c, g.slot.head? = some c → c.isUpper = false)

/-- The rows with the numbers of the members of a group; no row is blank. -/
def Members (ids : List Int) (g : Group) (rows : List (List Char)) : Prop :=
  (∀ r ∈ rows, splitWs r ≠ []) ∧ (rows.flatMap splitWs).map parseInt = g.members.map (fun i => ids[i]?)

/-- The lines of a piece, where points, zones and faces have the given numbers. -/
def Shows (io : FlacIO F) (pids zids fids : List Int) : Item F → List (List Char) → Prop
  | .other line, ls => ls = [line] ∧ ∀ w, (splitWs line).head? = some w → w ∉ keywords
  | .point id x, ls => ∃ (l w : List Char) (ws : List (List Char)), ls = [l] ∧ splitWs l = "G".toList :: w :: ws ∧ parseInt w = some id ∧
      ws.map io.parse = x.map some
  | .zone c, ls => ∃ l, ls = [l] ∧ CellLine "Z" pids c l
  | .face c, ls => ∃ l, ls = [l] ∧ CellLine "F" pids c l
  | .zgroup g, ls => ∃ l rows, ls = l :: rows ∧ GroupLine "ZGROUP" g l ∧ Members zids g rows
  | .fgroup g, ls => ∃ l rows, ls = l :: rows ∧ GroupLine "FGROUP" g l ∧ Members fids g rows

/-- The table of a group ends here: with the file, another group, a blank line or a comment. -/
def Stops : List (Item F) → Prop
  | [] => True
  | .other l :: _ => splitWs l = [] ∨ (splitWs l).head? = some ['*']
  | .zgroup _ :: _ => True
  | .fgroup _ :: _ => True
  | _ :: _ => False

/-- Cells use the points before them, and the tables of groups end. -/
def InOrder : Nat → List (Item F) → Prop
  | _, [] => True
  | n, .other _ :: r => InOrder n r
  | n, .point _ _ :: r => InOrder (n + 1) r
  | n, .zone c :: r => (∀ v ∈ c.nodes, v < n) ∧ InOrder n r
  | n, .face c :: r => (∀ v ∈ c.nodes, v < n) ∧ InOrder n r
  | n, .zgroup _ :: r => Stops r ∧ InOrder n r
  | n, .fgroup _ :: r => Stops r ∧ InOrder n r

/-- The grid of a text file. -/
def gridOf (items : List (Item F)) : Grid F where
  points := items.filterMap fun | .point id x => some (id, x) | _ => none
  zones := items.filterMap fun | .zone c => some c | _ => none
  faces := items.filterMap fun | .face c => some c | _ => none
  zgroups := items.filterMap fun | .zgroup g => some g | _ => none
  fgroups := items.filterMap fun | .fgroup g => some g | _ => none

/-- A text file with these pieces. -/
structure TextFile (io : FlacIO F) (items : List (Item F)) (text : List Char) : Prop where
  lines : ∃ lines : List (List (List Char)), text = linesText lines.flatten ∧ (∀ l ∈ lines.flatten, '\n' ∉ l) ∧
    All2 (Shows io ((gridOf items).points.map (·.1)) ((gridOf items).zones.map (·.id)) ((gridOf items).faces.map (·.id))) items lines
  order : InOrder 0 items
  text : '\x00' ∉ text.take 8

/-! ## Binary files -/

/-- A number of `k` bytes, least significant first. -/
def num (k n : Nat) : List Char := toChars (natEnc false k n)

/-- A point. -/
def pointBytes (io : FlacIO F) (p : Int × List F) : List Char := num 4 p.1.toNat ++ p.2.flatMap fun x => toChars (io.bin.enc false 8 x)

/-- A zone or face with its number of nodes and the numbers of its points; one with seven nodes has an eighth equal to the
seventh. -/
def CellBytes (pids : List Int) (c : Cell) (s : List Char) : Prop :=
  ∃ vs : List Nat, (∀ v ∈ vs, v < pids.length) ∧
    s = num 4 c.id.toNat ++ (num 4 vs.length ++ vs.flatMap fun v => num 4 (pids.getD v 0).toNat) ∧
    if vs.length = 7 then ∃ v, vs.getLast? = some v ∧ c.nodes = vs ++ [v] else c.nodes = vs

/-- A group. -/
def groupBytes (ids : List Int) (g : Group) : List Char :=
  num 2 g.name.length ++ (g.name ++ (num 2 g.slot.length ++ (g.slot ++ (num 4 g.members.length ++
    g.members.flatMap fun i => num 4 (ids.getD i 0).toNat))))

/-- Cells and groups of one kind. -/
def KindBytes (pids : List Int) (cells : List Cell) (groups : List Group) (s : List Char) : Prop :=
  ∃ cs : List (List Char), All2 (CellBytes pids) cells cs ∧
    s = num 4 cells.length ++ (cs.flatten ++ (num 4 groups.length ++ groups.flatMap (groupBytes (cells.map (·.id)))))

/-- A binary file of the grid: its numbers fit into four bytes, its names are ASCII, and one of the first eight bytes is zero. -/
structure BinaryFile (io : FlacIO F) (g : Grid F) (s : List Char) : Prop where
  bytes : ∃ h z f, h.length = 8 ∧ '\x00' ∈ h ∧ KindBytes (g.points.map (·.1)) g.zones g.zgroups z ∧
    KindBytes (g.points.map (·.1)) g.faces g.fgroups f ∧
    s = h ++ (num 4 g.points.length ++ (g.points.flatMap (pointBytes io) ++ (z ++ f)))
  points : ∀ p ∈ g.points, p.2.length = 3 ∧ 0 ≤ p.1 ∧ p.1 < 256 ^ 4
  ids : ∀ c ∈ g.zones ++ g.faces, c.id < 256 ^ 4
  counts : g.points.length < 256 ^ 4 ∧ g.zones.length < 256 ^ 4 ∧ g.faces.length < 256 ^ 4 ∧ g.zgroups.length < 256 ^ 4 ∧
    g.fgroups.length < 256 ^ 4
  groups : ∀ s ∈ g.zgroups ++ g.fgroups, s.members.length < 256 ^ 4 ∧ s.name.length < 256 ^ 2 ∧ s.slot.length < 256 ^ 2 ∧
    (∀ c ∈ s.name ++ s.slot, c.toNat < 128)

/-! ## Writing -/

/-- The kind of zone of a cell type. -/
def zoneOf : String → Option String
  | "tetra" => some "tetra"
  | "tetra10" => some "tetra"
  | "pyramid" => some "pyramid"
  | "pyramid13" => some "pyramid"
  | "wedge" => some "wedge"
  | "wedge12" => some "wedge"
  | "wedge15" => some "wedge"
  | "wedge18" => some "wedge"
  | "hexahedron" => some "hexahedron"
  | "hexahedron20" => some "hexahedron"
  | "hexahedron24" => some "hexahedron"
  | "hexahedron27" => some "hexahedron"
  | _ => none

/-- Number of nodes of a kind of zone. -/
def size : String → Nat
  | "tetra" => 4
  | "pyramid" => 5
  | "wedge" => 6
  | _ => 8

/-- FLAC3D's name for a kind of zone. -/
def word : String → String
  | "tetra" => "T4"
  | "pyramid" => "P5"
  | "wedge" => "W6"
  | _ => "B8"

/-- The positions of meshio's nodes in FLAC3D's order. -/
def flacOrder : String → List Nat
  | "tetra" => [0, 1, 2, 3]
  | "pyramid" => [0, 1, 3, 4, 2]
  | "wedge" => [0, 1, 3, 2, 4, 5]
  | _ => [0, 1, 3, 4, 2, 7, 5, 6]

/-- The mirror image of a cell: the nodes are listed around the other way. -/
def mirror : String → List Nat
  | "tetra" => [0, 2, 1, 3]
  | "pyramid" => [0, 3, 2, 1, 4]
  | "wedge" => [0, 2, 1, 3, 5, 4]
  | _ => [0, 3, 2, 1, 4, 7, 6, 5]

/-- Triple product of the edges from the first of FLAC3D's nodes to the next three, as computed. -/
def triple (io : Arith F) (p q r s : List F) (d : F) : F :=
  let e (v : List F) (i : Nat) : F := io.sub (v.getD i d) (p.getD i d)
  io.add (io.add
    (io.mul (e q 0) (io.sub (io.mul (e r 1) (e s 2)) (io.mul (e r 2) (e s 1))))
    (io.mul (e q 1) (io.sub (io.mul (e r 2) (e s 0)) (io.mul (e r 0) (e s 2)))))
    (io.mul (e q 2) (io.sub (io.mul (e r 0) (e s 1)) (io.mul (e r 1) (e s 0))))

/-- The first four nodes in FLAC3D's order form a right-handed system. -/
def positive (io : Arith F) (d : F) (points : List (List F)) (kind : String) (row : List Int) : Bool :=
  let p (i : Nat) : List F := points.getD (row.getD ((flacOrder kind).getD i 0) 0).toNat []
  io.pos (triple io (p 0) (p 1) (p 2) (p 3) d)

/-- The corners of a cell, mirrored when the orientation is not positive. -/
def oriented (io : Arith F) (d : F) (points : List (List F)) (kind : String) (row : List Int) : List Int :=
  if positive io d points kind row then row.take (size kind) else at' 0 (row.take (size kind)) (mirror kind)

/-- The zones of a mesh: kinds and nodes in meshio's order. -/
def zonesOf (io : FlacIO F) (d : F) (points : List (List F)) (cells : List (String × List (List Int))) : List (String × List Int) :=
  cells.flatMap fun b => b.2.map fun r => ((zoneOf b.1).getD "", oriented io.toArith d points ((zoneOf b.1).getD "") r)

/-- The members of a set, counted through all blocks. -/
def globalMembers (cells : List (String × List (List Int))) (set : List (List Int)) : List Int :=
  (List.zipWith (fun (se : Nat × Nat) (b : List Int) => b.map fun i => i + (se.1 : Int)) (segsFrom 0 (cells.map (·.2.length))) set).flatten

/-- A list in rows of twenty. -/
def rows20 {α : Type} : Nat → List α → List (List α)
  | 0, _ => []
  | _ + 1, [] => []
  | n + 1, a :: l => (a :: l).take 20 :: rows20 n ((a :: l).drop 20)

/-- The lines of a text file. -/
def textLines (io : FlacIO F) (d : F) (version ctime : List Char) (points : List (List F)) (cells : List (String × List (List Int)))
    (sets : Dict (List (List Int))) : List (List Char) :=
  ["* FLAC3D grid produced by meshio v".toList ++ version, "* ".toList ++ ctime, "* GRIDPOINTS".toList] ++
  points.zipIdx.map (fun p => joinWith '\t' ("G".toList :: (List.replicate (8 - (fmtNat (p.2 + 1)).length) ' ' ++ fmtNat (p.2 + 1)) :: p.1.map io.fmt)) ++
  ["* ZONES".toList] ++
  (zonesOf io d points cells).zipIdx.map (fun z => joinWith ' ' ("Z".toList :: (word z.1.1).toList :: fmtNat (z.2 + 1) ::
    (at' 0 z.1.2 (flacOrder z.1.1)).map fun i => fmtInt (i + 1))) ++
  ["* ZONE GROUPS".toList] ++
  sets.flatMap (fun kv => ("ZGROUP \"".toList ++ kv.1.toList ++ "\" SLOT 1".toList) ::
    (rows20 (globalMembers cells kv.2).length (globalMembers cells kv.2)).map fun r =>
      ' ' :: joinWith ' ' (r.map fun i => fmtInt (i + 1))) ++
  ["* FACES".toList, "* FACE GROUPS".toList]

/-- The bytes of a binary file. -/
def binaryBytes (io : FlacIO F) (d : F) (points : List (List F)) (cells : List (String × List (List Int)))
    (sets : Dict (List (List Int))) : List Char :=
  num 4 1375135718 ++ num 4 3 ++ num 4 points.length ++
  points.zipIdx.flatMap (fun p => num 4 (p.2 + 1) ++ p.1.flatMap fun x => toChars (io.bin.enc false 8 x)) ++
  num 4 (zonesOf io d points cells).length ++
  (zonesOf io d points cells).zipIdx.flatMap (fun z => num 4 (z.2 + 1) ++ num 4 (size z.1.1) ++
    (at' 0 z.1.2 (flacOrder z.1.1)).flatMap fun i => num 4 (i + 1).toNat) ++
  num 4 sets.length ++
  sets.flatMap (fun kv => num 2 kv.1.toList.length ++ kv.1.toList ++ num 2 7 ++ "Default".toList ++
    num 4 (globalMembers cells kv.2).length ++ (globalMembers cells kv.2).flatMap fun i => num 4 (i + 1).toNat) ++
  num 4 0 ++ num 4 0

/-- The sets of a mesh after writing it: every entry counts through all blocks. -/
def leftBehind (cells : List (String × List (List Int))) (sets : Dict (List (List Int))) : Dict (List (List Int)) :=
  sets.map fun kv => (kv.1, List.zipWith (fun (se : Nat × Nat) (b : List Int) => b.map fun i => i + (se.1 : Int))
    (segsFrom 0 (cells.map (·.2.length))) kv.2)

/-- The mesh that is read back, with the given slot in the names of the sets: kinds of zones for types, corners for nodes. -/
def backMesh (io : FlacIO F) (d : F) (slot : String) (points : List (List F)) (cells : List (String × List (List Int)))
    (sets : Dict (List (List Int))) : Out F :=
  let blocks := groupRuns ((zonesOf io d points cells).map fun z => (z.1, z.2.map Int.toNat))
  let lens := blocks.map (·.2.length)
  ⟨points, blocks, splitLens lens ((List.range (zonesOf io d points cells).length).map fun (i : Nat) => ((i + 1 : Nat) : Int)),
    sets.map fun kv => ("zone:" ++ kv.1 ++ ":" ++ slot, perBlock lens ((globalMembers cells kv.2).map Int.toNat))⟩

/-- A mesh of zones that can be written: points in space, cells with all their corners among the points, sets with one entry for
each block. -/
structure MeshOk (points : List (List F)) (cells : List (String × List (List Int))) (sets : Dict (List (List Int))) : Prop where
  dims : ∀ p ∈ points, p.length = 3
  types : ∀ b ∈ cells, (zoneOf b.1).isSome
  nodes : ∀ b ∈ cells, ∀ r ∈ b.2, size ((zoneOf b.1).getD "") ≤ r.length ∧ ∀ i ∈ r, 0 ≤ i ∧ i < (points.length : Int)
  entries : ∀ kv ∈ sets, kv.2.length = cells.length
  names : (sets.map (·.1)).Nodup
  blocks : cells ≠ []

/-- The sets can be read back: they have members, which are cells of their blocks. -/
def SetsOk (cells : List (String × List (List Int))) (sets : Dict (List (List Int))) : Prop :=
  ∀ kv ∈ sets, kv.2.flatten ≠ [] ∧ ∀ p ∈ cells.zip kv.2, ∀ i ∈ p.2, 0 ≤ i ∧ i < (p.1.2.length : Int)

/-- Names that a text file can hold. -/
def TextNames (sets : Dict (List (List Int))) : Prop := ∀ kv ∈ sets, ∀ c ∈ kv.1.toList, c ≠ '"' ∧ c ≠ '\'' ∧ c ≠ '\n'

/-- Names and numbers that a binary file can hold. -/
structure BinaryOk (points : List (List F)) (cells : List (String × List (List Int))) (sets : Dict (List (List Int))) : Prop where
  names : ∀ kv ∈ sets, kv.1.toList.length < 256 ^ 2 ∧ ∀ c ∈ kv.1.toList, c.toNat < 128
  numPoints : points.length < 256 ^ 4
  numZones : (cells.map (·.2.length)).sum < 256 ^ 4
  numSets : sets.length < 256 ^ 4
  members : ∀ kv ∈ sets, kv.2.flatten.length < 256 ^ 4

end Flac3d
end Spec
end Meshio
