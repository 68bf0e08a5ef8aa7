/-
Model of the command line tools: /repo/src/meshio/_cli/_convert.py, _compress.py, _decompress.py, _ascii.py and _binary.py.
The parsing of the command line by `argparse` (standard library) is not modelled; a command gets the parsed arguments.
-/
import Verif.Model.Helpers

namespace Meshio.Cli

/-- The values that the tools pass as keyword arguments to writers. -/
inductive Arg where
  | bool (b : Bool)
  | str (s : String)
  | nat (n : Nat)
  | none
deriving DecidableEq, Repr

abbrev Kwargs := List (String × Arg)

/-- A `write` function: its keyword parameters and what it does when it is called. -/
structure Fn (M : Type) where
  params : List String
  run : Kwargs → M → Res Unit

/-- `f(filename, mesh, **kwargs)`: Python raises TypeError for an unexpected keyword before the body runs. -/
def Fn.call {M : Type} (f : Fn M) (kw : Kwargs) (m : M) : Res Unit :=
  if kw.all (fun a => a.1 ∈ f.params) then f.run kw m else .error .typeError

/-- What a command did: the formats whose readers were called, the calls of writers (name, keywords, mesh), and how it ended, with an
exit code or an exception. -/
structure Done (M : Type) where
  reads : List String
  writes : List (String × Kwargs × M)
  ended : Res Nat
deriving DecidableEq, Repr

/-- The commands that rewrite a file in place. -/
inductive Command where
  | compress (max : Bool)
  | decompress
  | ascii
  | binary
deriving DecidableEq, Repr

/-- `if fmt == ...` of `compress`, /repo/src/meshio/_cli/_compress.py:43-81: the keywords for the `write` function of that module. -/
def compressArgs (max : Bool) (fmt : String) : Option Kwargs :=
  if fmt = "ansys" then some [("binary", .bool true)]
  else if fmt = "cgns" then some [("compression", .str "gzip"), ("compression_opts", .nat (if max then 9 else 4))]
  else if fmt = "gmsh" then some [("binary", .bool true)]
  else if fmt = "h5m" then some [("compression", .str "gzip"), ("compression_opts", .nat (if max then 9 else 4))]
  else if fmt = "mdpa" then some [("binary", .bool true)]
  else if fmt = "ply" then some [("binary", .bool true)]
  else if fmt = "stl" then some [("binary", .bool true)]
  else if fmt = "vtk" then some [("binary", .bool true)]
  else if fmt = "vtu" then some [("binary", .bool true), ("compression", .str (if max then "lzma" else "zlib"))]
  else if fmt = "xdmf" then
    some [("data_format", .str "HDF"), ("compression", .str "gzip"), ("compression_opts", .nat (if max then 9 else 4))]
  else none

/-- The same for `decompress`, /repo/src/meshio/_cli/_decompress.py:35-45. -/
def decompressArgs (fmt : String) : Option Kwargs :=
  if fmt = "cgns" then some [("compression", .none)]
  else if fmt = "h5m" then some [("compression", .none)]
  else if fmt = "vtu" then some [("binary", .bool true), ("compression", .none)]
  else if fmt = "xdmf" then some [("data_format", .str "HDF"), ("compression", .none)]
  else none

/-- The same for `ascii`, /repo/src/meshio/_cli/_ascii.py:36-57. -/
def asciiArgs (fmt : String) : Option Kwargs :=
  if fmt = "ansys" then some [("binary", .bool false)]
  else if fmt = "flac3d" then some [("binary", .bool false)]
  else if fmt = "gmsh" then some [("binary", .bool false)]
  else if fmt = "mdpa" then some [("binary", .bool false)]
  else if fmt = "ply" then some [("binary", .bool false)]
  else if fmt = "stl" then some [("binary", .bool false)]
  else if fmt = "vtk" then some [("binary", .bool false)]
  else if fmt = "vtu" then some [("binary", .bool false)]
  else if fmt = "xdmf" then some [("data_format", .str "XML")]
  else none

/-- The same for `binary`, /repo/src/meshio/_cli/_binary.py:35-56. -/
def binaryArgs (fmt : String) : Option Kwargs :=
  if fmt = "ansys" then some [("binary", .bool true)]
  else if fmt = "flac3d" then some [("binary", .bool true)]
  else if fmt = "gmsh" then some [("binary", .bool true)]
  else if fmt = "mdpa" then some [("binary", .bool true)]
  else if fmt = "ply" then some [("binary", .bool true)]
  else if fmt = "stl" then some [("binary", .bool true)]
  else if fmt = "vtk" then some [("binary", .bool true)]
  else if fmt = "vtu" then some [("binary", .bool true)]
  else if fmt = "xdmf" then some [("data_format", .str "HDF")]
  else none

/-- The keywords of a command for a format, or none if it does not know the format. -/
def Command.args : Command → String → Option Kwargs
  | .compress max => compressArgs max
  | .decompress => decompressArgs
  | .ascii => asciiArgs
  | .binary => binaryArgs

/-- How a command ends if it does not know the format: `exit(1)`, /repo/src/meshio/_cli/_compress.py:83, _decompress.py:47, _binary.py:59, but
`return 1` in _ascii.py:60. -/
def Command.unknown : Command → Res Nat
  | .compress _ => .error (.exit 1)
  | .decompress => .error (.exit 1)
  | .ascii => .ok 1
  | .binary => .error (.exit 1)

/-- The formats of the file, /repo/src/meshio/_cli/_compress.py:29-32 and the same lines of the other commands. -/
def formatsOf (exts : Dict (List String)) (name : List Char) (inputFormat : Option String) : Res (List String) :=
  match truthy inputFormat with
  | some f => .ok [f]
  | none => filetypesFromPath exts name

/-- `compress`, /repo/src/meshio/_cli/_compress.py:28-86, `decompress`, _decompress.py:21-50, `ascii`, _ascii.py:22-64, and `binary`,
_binary.py:21-62, which differ in the keywords only.  `mods` are the `write` functions of the modules; the file sizes that are printed are
left out; `os.stat` of a missing file is FileNotFoundError. -/
def inPlace {M Wr : Type} (c : Command) (r : Registry (Reader M) Wr) (mods : String → Fn M) (name : List Char) (pathExists : Bool)
    (inputFormat : Option String) : Done M :=
  match firstOf (formatsOf r.exts name inputFormat) with
  | .error e => ⟨[], [], .error e⟩
  | .ok fmt =>
    if !pathExists then ⟨[], [], .error .fileNotFound⟩
    else
      let t := readMesh r (.path name pathExists) inputFormat
      match t.result with
      | .error e => ⟨t.calls, [], .error e⟩
      | .ok m =>
        match c.args fmt with
        | none => ⟨t.calls, [], c.unknown⟩
        | some kw =>
          match (mods fmt).call kw m with
          | .error e => ⟨t.calls, [(fmt, kw, m)], .error e⟩
          | .ok () => ⟨t.calls, [(fmt, kw, m)], .ok 0⟩

/-- The formats that `import meshio` registers, in the order of the imports in /repo/src/meshio/_cli/_ascii.py:4, _compress.py:4 and
/repo/src/meshio/__init__.py:1-33: name, extensions, whether there is a reader, and the writers with the keyword parameters of their functions
(the `register_format` calls and the signatures of the `write` functions in the modules; the lambdas of /repo/src/meshio/gmsh/main.py:110-111
set `fmt_version`; `vtk` registers the functions of its versions; `xdmf` passes everything on to `XdmfWriter`). -/
def registered : List (String × List String × Bool × List (String × List String)) := [
  ("ansys", [".msh"], true, [("ansys", ["binary"])]),
  ("flac3d", [".f3grid"], true, [("flac3d", ["float_fmt", "binary"])]),
  ("gmsh", [".msh"], true, [("gmsh22", ["binary", "float_fmt"]), ("gmsh", ["binary", "float_fmt"])]),
  ("mdpa", [".mdpa"], true, [("mdpa", ["float_fmt", "binary"])]),
  ("ply", [".ply"], true, [("ply", ["binary"])]),
  ("stl", [".stl"], true, [("stl", ["binary"])]),
  ("vtk", [".vtk"], true, [("vtk42", ["binary"]), ("vtk51", ["binary"]), ("vtk", ["binary"])]),
  ("vtu", [".vtu"], true, [("vtu", ["binary", "compression", "header_type"])]),
  ("xdmf", [".xdmf", ".xmf"], true, [("xdmf", ["data_format", "compression", "compression_opts"])]),
  ("cgns", [".cgns"], true, [("cgns", ["compression", "compression_opts"])]),
  ("h5m", [".h5m"], true, [("h5m", ["add_global_ids", "compression", "compression_opts"])]),
  ("abaqus", [".inp"], true, [("abaqus", ["float_fmt", "translate_cell_names"])]),
  ("avsucd", [".avs"], true, [("avsucd", [])]),
  ("dolfin-xml", [".xml"], true, [("dolfin-xml", [])]),
  ("exodus", [".e", ".exo", ".ex2"], true, [("exodus", [])]),
  ("hmf", [".hmf"], true, [("hmf", ["compression", "compression_opts"])]),
  ("med", [".med"], true, [("med", [])]),
  ("medit", [".mesh", ".meshb"], true, [("medit", ["float_fmt"])]),
  ("nastran", [".bdf", ".fem", ".nas"], true, [("nastran", ["point_format", "cell_format"])]),
  ("netgen", [".vol", ".vol.gz"], true, [("netgen", ["float_fmt"])]),
  ("neuroglancer", [], true, [("neuroglancer", [])]),
  ("obj", [".obj"], true, [("obj", [])]),
  ("off", [".off"], true, [("off", [])]),
  ("permas", [".post", ".post.gz", ".dato", ".dato.gz"], true, [("permas", [])]),
  ("su2", [".su2"], true, [("su2", [])]),
  ("svg", [".svg"], false, [("svg", ["float_fmt", "stroke_width", "image_width", "fill", "stroke"])]),
  ("tecplot", [".dat", ".tec"], true, [("tecplot", [])]),
  ("tetgen", [".ele", ".node"], true, [("tetgen", ["float_fmt"])]),
  ("ugrid", [".ugrid"], true, [("ugrid", [])]),
  ("wkt", [".wkt"], true, [("wkt", [])])]

/-- The keyword parameters of the `write` functions of the modules that the tools call directly: those of the writers, and `fmt_version` for
/repo/src/meshio/gmsh/main.py:88 and /repo/src/meshio/vtk/_main.py:29. -/
def moduleParams (name : String) : List String :=
  (if name = "gmsh" ∨ name = "vtk" then ["fmt_version"] else []) ++
    ((registered.flatMap (·.2.2.2)).find? (·.1 = name)).elim [] (·.2)

/-- The registry after `import meshio`. -/
def imported {Rd Wr : Type} (rd : String → Rd) (wr : String → List String → Wr) : Registry Rd Wr :=
  registered.foldl (fun r e => r.register e.1 e.2.1 (if e.2.2.1 then some (rd e.1) else none) (e.2.2.2.map fun w => (w.1, wr w.1 w.2))) Registry.init

/-- The arguments of `convert`, /repo/src/meshio/_cli/_convert.py:6-43. -/
structure Convert where
  inputFormat : Option String := none
  outputFormat : Option String := none
  ascii : Bool := false
  floatFormat : Option String := none
  setsToInt : Bool := false
  intToSets : Bool := false
deriving DecidableEq, Repr

variable {P R : Type}

/-- `for key in d: f(key)`, where `f` may change `d`: CPython checks before each step, the last one included, that the dictionary has the size
that it had at the beginning, and raises RuntimeError if not. -/
def forKeys {S : Type} (size : S → Nat) (f : String → S → Res S) (n : Nat) : List String → S → Res S
  | [], s => if size s ≠ n then .error .runtimeError else .ok s
  | k :: ks, s =>
    if size s ≠ n then .error .runtimeError
    else
      match f k s with
      | .error e => .error e
      | .ok s' => forKeys size f n ks s'

/-- `--sets-to-int-data`, /repo/src/meshio/_cli/_convert.py:53-55. -/
def meshSetsToInt (m : Mesh P R) : Res (Mesh P R) :=
  match m.pointSetsToData "-" with
  | .error e => .error e
  | .ok m => m.cellSetsToData none

/-- `--int-data-to-sets`, /repo/src/meshio/_cli/_convert.py:57-61. -/
def meshIntToSets (m : Mesh P R) : Res (Mesh P R) :=
  match forKeys (fun m => m.pointData.length) (fun k m => m.pointDataToSets k) m.pointData.length m.pointData.keys m with
  | .error e => .error e
  | .ok m => forKeys (fun m => m.cellData.length) (fun k m => m.cellDataToSets k) m.cellData.length m.cellData.keys m

/-- The changes to the mesh, /repo/src/meshio/_cli/_convert.py:50-61 (`np.ascontiguousarray` keeps the values). -/
def Convert.change (a : Convert) (m : Mesh P R) : Res (Mesh P R) :=
  match (if a.setsToInt then meshSetsToInt m else .ok m) with
  | .error e => .error e
  | .ok m => if a.intToSets then meshIntToSets m else .ok m

/-- The keywords for the writer, /repo/src/meshio/_cli/_convert.py:64-68, without `file_format`. -/
def Convert.kwargs (a : Convert) : Kwargs :=
  (match a.floatFormat with
    | some f => [("float_fmt", .str f)]
    | none => []) ++ (if a.ascii then [("binary", .bool false)] else [])

/-- `convert`, /repo/src/meshio/_cli/_convert.py:46-70.  A writer that is called with an unexpected keyword counts as called. -/
def convert (a : Convert) (r : Registry (Reader (Mesh P R)) (Fn (Mesh P R))) (infile : List Char) (pathExists : Bool) (outfile : List Char) :
    Done (Mesh P R) :=
  let t := readMesh r (.path infile pathExists) a.inputFormat
  match t.result with
  | .error e => ⟨t.calls, [], .error e⟩
  | .ok m =>
    match a.change m with
    | .error e => ⟨t.calls, [], .error e⟩
    | .ok m =>
      let w := writeMesh ⟨r.exts, r.readers, r.writers.map fun w => (w.1, fun _ m => w.2.call a.kwargs m)⟩ (.path outfile false) m a.outputFormat
      match w.result with
      | .error e => ⟨t.calls, w.calls.map fun f => (f, a.kwargs, m), .error e⟩
      | .ok () => ⟨t.calls, w.calls.map fun f => (f, a.kwargs, m), .ok 0⟩

end Meshio.Cli
