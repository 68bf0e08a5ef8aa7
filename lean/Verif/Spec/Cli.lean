/-
Specification vocabulary for the command line tools.
-/
import Verif.Model.Cli
import Verif.Spec.Helpers

namespace Meshio.Spec
open Meshio Meshio.Cli

/-- Formats that have one flag for text or binary. -/
def flagFormats : List String := ["ansys", "gmsh", "mdpa", "ply", "stl", "vtk"]

/-- What each command means for a format: the keywords of its writer.  `flac3d` has both variants, but is not made smaller. -/
def asciiMeaning : List (String × Kwargs) :=
  (flagFormats ++ ["flac3d", "vtu"]).map (fun f => (f, [("binary", .bool false)])) ++ [("xdmf", [("data_format", .str "XML")])]

def binaryMeaning : List (String × Kwargs) :=
  (flagFormats ++ ["flac3d", "vtu"]).map (fun f => (f, [("binary", .bool true)])) ++ [("xdmf", [("data_format", .str "HDF")])]

/-- gzip at level 4, or 9 for the best compression. -/
def gzip (level : Nat) : Kwargs := [("compression", .str "gzip"), ("compression_opts", .nat level)]

def compressMeaning (level : Nat) (method : String) : List (String × Kwargs) :=
  flagFormats.map (fun f => (f, [("binary", .bool true)])) ++
    [("cgns", gzip level), ("h5m", gzip level), ("xdmf", ("data_format", .str "HDF") :: gzip level),
     ("vtu", [("binary", .bool true), ("compression", .str method)])]

def decompressMeaning : List (String × Kwargs) :=
  [("cgns", [("compression", .none)]), ("h5m", [("compression", .none)]), ("xdmf", [("data_format", .str "HDF"), ("compression", .none)]),
   ("vtu", [("binary", .bool true), ("compression", .none)])]

/-- The meaning of each command. -/
def meaning : Command → List (String × Kwargs)
  | .ascii => asciiMeaning
  | .binary => binaryMeaning
  | .compress false => compressMeaning 4 "zlib"
  | .compress true => compressMeaning 9 "lzma"
  | .decompress => decompressMeaning

end Meshio.Spec
