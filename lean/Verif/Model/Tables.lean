/-
Cell type tables and node order tables of the formats, transcribed entry by entry
(in source order) from the dictionaries in the sources.
-/
namespace Meshio.Tables

/-- `vtk_to_meshio_type`, /repo/src/meshio/_vtk_common.py:8-67. -/
def vtkToMeshio : List (Nat × String) :=
  [(0, "empty"), (1, "vertex"), (3, "line"), (5, "triangle"), (7, "polygon"), (8, "pixel"), (9,
   "quad"), (10, "tetra"), (12, "hexahedron"), (13, "wedge"), (14, "pyramid"), (15,
   "penta_prism"), (16, "hexa_prism"), (21, "line3"), (22, "triangle6"), (23, "quad8"), (24,
   "tetra10"), (25, "hexahedron20"), (26, "wedge15"), (27, "pyramid13"), (28, "quad9"), (29,
   "hexahedron27"), (30, "quad6"), (31, "wedge12"), (32, "wedge18"), (33, "hexahedron24"), (34,
   "triangle7"), (35, "line4"), (42, "polyhedron"), (68, "VTK_LAGRANGE_CURVE"), (69,
   "VTK_LAGRANGE_TRIANGLE"), (70, "VTK_LAGRANGE_QUADRILATERAL"), (71,
   "VTK_LAGRANGE_TETRAHEDRON"), (72, "VTK_LAGRANGE_HEXAHEDRON"), (73, "VTK_LAGRANGE_WEDGE"),
   (74, "VTK_LAGRANGE_PYRAMID"), (75, "VTK_BEZIER_CURVE"), (76, "VTK_BEZIER_TRIANGLE"), (77,
   "VTK_BEZIER_QUADRILATERAL"), (78, "VTK_BEZIER_TETRAHEDRON"), (79, "VTK_BEZIER_HEXAHEDRON"),
   (80, "VTK_BEZIER_WEDGE"), (81, "VTK_BEZIER_PYRAMID")]

/-- `vtk_type_to_numnodes`, /repo/src/meshio/vtk/_vtk_42.py:22-61. Indexed by VTK type. -/
def vtkNumNodes : List Int :=
  [0, 1, (-1), 2, (-1), 3, (-1), (-1), (-1), 4, 4, (-1), 8, 6, 5, 10, 12, (-1), (-1), (-1),
   (-1), 3, 6, 8, 10, 20, 15, 13, 9, 27, 6, 12, 18, 24, 7, 4]

/-- `_gmsh_to_meshio_type`, /repo/src/meshio/gmsh/common.py:94-160. -/
def gmshToMeshio : List (Nat × String) :=
  [(1, "line"), (2, "triangle"), (3, "quad"), (4, "tetra"), (5, "hexahedron"), (6, "wedge"), (7,
   "pyramid"), (8, "line3"), (9, "triangle6"), (10, "quad9"), (11, "tetra10"), (12,
   "hexahedron27"), (13, "wedge18"), (14, "pyramid14"), (15, "vertex"), (16, "quad8"), (17,
   "hexahedron20"), (18, "wedge15"), (19, "pyramid13"), (21, "triangle10"), (23, "triangle15"),
   (25, "triangle21"), (26, "line4"), (27, "line5"), (28, "line6"), (29, "tetra20"), (30,
   "tetra35"), (31, "tetra56"), (36, "quad16"), (37, "quad25"), (38, "quad36"), (42,
   "triangle28"), (43, "triangle36"), (44, "triangle45"), (45, "triangle55"), (46,
   "triangle66"), (47, "quad49"), (48, "quad64"), (49, "quad81"), (50, "quad100"), (51,
   "quad121"), (62, "line7"), (63, "line8"), (64, "line9"), (65, "line10"), (66, "line11"), (71,
   "tetra84"), (72, "tetra120"), (73, "tetra165"), (74, "tetra220"), (75, "tetra286"), (90,
   "wedge40"), (91, "wedge75"), (92, "hexahedron64"), (93, "hexahedron125"), (94,
   "hexahedron216"), (95, "hexahedron343"), (96, "hexahedron512"), (97, "hexahedron729"), (98,
   "hexahedron1000"), (106, "wedge126"), (107, "wedge196"), (108, "wedge288"), (109,
   "wedge405"), (110, "wedge550")]

/-- `meshio_ordering`, /repo/src/meshio/gmsh/common.py:166-183. Used by `_gmsh_to_meshio_order`. -/
def gmshMeshioOrdering : List (String × List Nat) :=
  [("tetra10", [0, 1, 2, 3, 4, 5, 6, 7, 9, 8]), ("hexahedron20", [0, 1, 2, 3, 4, 5, 6, 7, 8, 11,
   13, 9, 16, 18, 19, 17, 10, 12, 14, 15]), ("hexahedron27", [0, 1, 2, 3, 4, 5, 6, 7, 8, 11, 13,
   9, 16, 18, 19, 17, 10, 12, 14, 15, 22, 23, 21, 24, 20, 25, 26]), ("wedge15", [0, 1, 2, 3, 4,
   5, 6, 9, 7, 12, 14, 13, 8, 10, 11]), ("pyramid13", [0, 1, 2, 3, 4, 5, 8, 10, 6, 7, 9, 11,
   12])]

/-- `gmsh_ordering`, /repo/src/meshio/gmsh/common.py:192-209. Used by `_meshio_to_gmsh_order`. -/
def gmshGmshOrdering : List (String × List Nat) :=
  [("tetra10", [0, 1, 2, 3, 4, 5, 6, 7, 9, 8]), ("hexahedron20", [0, 1, 2, 3, 4, 5, 6, 7, 8, 11,
   16, 9, 17, 10, 18, 19, 12, 15, 13, 14]), ("hexahedron27", [0, 1, 2, 3, 4, 5, 6, 7, 8, 11, 16,
   9, 17, 10, 18, 19, 12, 15, 13, 14, 24, 22, 20, 21, 23, 25, 26]), ("wedge15", [0, 1, 2, 3, 4,
   5, 6, 8, 12, 7, 13, 14, 9, 11, 10]), ("pyramid13", [0, 1, 2, 3, 4, 5, 8, 9, 6, 10, 7, 11,
   12])]

/-- `meshio_to_xdmf_type`, /repo/src/meshio/xdmf/common.py:36-64. -/
def meshioToXdmf : List (String × List String) :=
  [("vertex", ["Polyvertex"]), ("line", ["Polyline"]), ("line3", ["Edge_3"]), ("quad",
   ["Quadrilateral"]), ("quad8", ["Quadrilateral_8", "Quad_8"]), ("quad9", ["Quadrilateral_9",
   "Quad_9"]), ("pyramid", ["Pyramid"]), ("pyramid13", ["Pyramid_13"]), ("tetra",
   ["Tetrahedron"]), ("triangle", ["Triangle"]), ("triangle6", ["Triangle_6", "Tri_6"]),
   ("tetra10", ["Tetrahedron_10", "Tet_10"]), ("wedge", ["Wedge"]), ("wedge15", ["Wedge_15"]),
   ("wedge18", ["Wedge_18"]), ("hexahedron", ["Hexahedron"]), ("hexahedron20", ["Hexahedron_20",
   "Hex_20"]), ("hexahedron24", ["Hexahedron_24", "Hex_24"]), ("hexahedron27", ["Hexahedron_27",
   "Hex_27"]), ("hexahedron64", ["Hexahedron_64", "Hex_64"]), ("hexahedron125",
   ["Hexahedron_125", "Hex_125"]), ("hexahedron216", ["Hexahedron_216", "Hex_216"]),
   ("hexahedron343", ["Hexahedron_343", "Hex_343"]), ("hexahedron512", ["Hexahedron_512",
   "Hex_512"]), ("hexahedron729", ["Hexahedron_729", "Hex_729"]), ("hexahedron1000",
   ["Hexahedron_1000", "Hex_100"]), ("hexahedron1331", ["Hexahedron_1331", "Hex_1331"])]

/-- `xdmf_idx_to_meshio_type`, /repo/src/meshio/xdmf/common.py:71-107. -/
def xdmfIdxToMeshio : List (Nat × String) :=
  [(1, "vertex"), (2, "line"), (4, "triangle"), (5, "quad"), (6, "tetra"), (7, "pyramid"), (8,
   "wedge"), (9, "hexahedron"), (34, "line3"), (35, "quad9"), (36, "triangle6"), (37, "quad8"),
   (38, "tetra10"), (39, "pyramid13"), (40, "wedge15"), (41, "wedge18"), (48, "hexahedron20"),
   (49, "hexahedron24"), (50, "hexahedron27"), (51, "hexahedron64"), (52, "hexahedron125"), (53,
   "hexahedron216"), (54, "hexahedron343"), (55, "hexahedron512"), (56, "hexahedron729"), (57,
   "hexahedron1000"), (64, "hexahedron1331")]

/-- `xdmf_idx_to_num_nodes`, /repo/src/meshio/xdmf/common.py:118-128. -/
def xdmfIdxNumNodes : List (Nat × Nat) :=
  [(1, 1), (2, 2), (4, 3), (5, 4), (6, 4), (7, 5), (8, 6), (9, 8), (11, 6)]

/-- `meshio_to_avsucd_type`, /repo/src/meshio/avsucd/_avsucd.py:14-23. -/
def meshioToAvsucd : List (String × String) :=
  [("vertex", "pt"), ("line", "line"), ("triangle", "tri"), ("quad", "quad"), ("tetra", "tet"),
   ("pyramid", "pyr"), ("wedge", "prism"), ("hexahedron", "hex")]

/-- `meshio_to_avsucd_order`, /repo/src/meshio/avsucd/_avsucd.py:27-36. -/
def meshioToAvsucdOrder : List (String × List Nat) :=
  [("vertex", [0]), ("line", [0, 1]), ("triangle", [0, 1, 2]), ("quad", [0, 1, 2, 3]), ("tetra",
   [0, 1, 3, 2]), ("pyramid", [4, 0, 1, 2, 3]), ("wedge", [3, 4, 5, 0, 1, 2]), ("hexahedron",
   [4, 5, 6, 7, 0, 1, 2, 3])]

/-- `su2_type_to_numnodes`, /repo/src/meshio/su2/_su2.py:17-25. -/
def su2NumNodes : List (Nat × Nat) :=
  [(3, 2), (5, 3), (9, 4), (10, 4), (12, 8), (13, 6), (14, 5)]

/-- `su2_to_meshio_type`, /repo/src/meshio/su2/_su2.py:26-34. -/
def su2ToMeshio : List (Nat × String) :=
  [(3, "line"), (5, "triangle"), (9, "quad"), (10, "tetra"), (12, "hexahedron"), (13, "wedge"),
   (14, "pyramid")]

/-- `meshio_to_su2_type`, /repo/src/meshio/su2/_su2.py:35-43. -/
def meshioToSu2 : List (String × Nat) :=
  [("line", 3), ("triangle", 5), ("quad", 9), ("tetra", 10), ("hexahedron", 12), ("wedge", 13),
   ("pyramid", 14)]

/-- `netgen0d_to_meshio_type`, /repo/src/meshio/netgen/_netgen.py:32-34. -/
def netgen0dToMeshio : List (Nat × String) :=
  [(1, "vertex")]

/-- `netgen1d_to_meshio_type`, /repo/src/meshio/netgen/_netgen.py:35-37. -/
def netgen1dToMeshio : List (Nat × String) :=
  [(2, "line")]

/-- `netgen2d_to_meshio_type`, /repo/src/meshio/netgen/_netgen.py:38-43. -/
def netgen2dToMeshio : List (Nat × String) :=
  [(3, "triangle"), (6, "triangle6"), (4, "quad"), (8, "quad8")]

/-- `netgen3d_to_meshio_type`, /repo/src/meshio/netgen/_netgen.py:45-54. -/
def netgen3dToMeshio : List (Nat × String) :=
  [(4, "tetra"), (5, "pyramid"), (6, "wedge"), (8, "hexahedron"), (10, "tetra10"), (13,
   "pyramid13"), (15, "wedge15"), (20, "hexahedron20")]

/-- `netgen_to_meshio_pmap`, /repo/src/meshio/netgen/_netgen.py:63-99. -/
def netgenPmap : List (String × List Nat) :=
  [("vertex", [0]), ("line", [0, 1]), ("triangle", [0, 1, 2]), ("triangle6", [0, 1, 2, 5, 3,
   4]), ("quad", [0, 1, 2, 3]), ("quad8", [0, 1, 2, 3, 4, 7, 5, 6]), ("tetra", [0, 2, 1, 3]),
   ("tetra10", [0, 2, 1, 3, 5, 7, 4, 6, 9, 8]), ("pyramid", [0, 3, 2, 1, 4]), ("pyramid13", [0,
   3, 2, 1, 4, 7, 6, 8, 5, 9, 12, 11, 10]), ("wedge", [0, 2, 1, 3, 5, 4]), ("wedge15", [0, 2, 1,
   3, 5, 4, 7, 8, 6, 13, 14, 12, 9, 11, 10]), ("hexahedron", [0, 3, 2, 1, 4, 7, 6, 5]),
   ("hexahedron20", [0, 3, 2, 1, 4, 7, 6, 5, 10, 9, 11, 8, 16, 19, 18, 17, 14, 13, 15, 12])]

/-- `meshio_from_medit`, /repo/src/meshio/medit/_medit.py:55-64. Binary reader; the `GmfVertices` entry (no column count) is left out. -/
def mediBinary : List (String × String × Nat) :=
  [("GmfEdges", ("line", 2)), ("GmfTriangles", ("triangle", 3)), ("GmfQuadrilaterals", ("quad",
   4)), ("GmfTetrahedra", ("tetra", 4)), ("GmfPrisms", ("wedge", 6)), ("GmfPyramids",
   ("pyramid", 5)), ("GmfHexahedra", ("hexahedron", 8))]

/-- `meshio_from_medit`, /repo/src/meshio/medit/_medit.py:177-186. ASCII reader. -/
def mediAscii : List (String × String × Nat) :=
  [("Edges", ("line", 2)), ("Triangles", ("triangle", 3)), ("Quadrilaterals", ("quad", 4)),
   ("Tetrahedra", ("tetra", 4)), ("Prisms", ("wedge", 6)), ("Pyramids", ("pyramid", 5)),
   ("Hexahedra", ("hexahedron", 8)), ("Hexaedra", ("hexahedron", 8))]

/-- `medit_codes`, /repo/src/meshio/medit/_medit_internal.py:8-224. -/
def medit_codes : List (Nat × String × String × String) :=
  [(0, ("GmfReserved", "", "")), (1, ("GmfMeshVersionFormatted", "", "i")), (2, ("GmfReserved",
   "", "")), (3, ("GmfDimension", "", "i")), (4, ("GmfVertices", "i", "dri")), (5, ("GmfEdges",
   "i", "iii")), (6, ("GmfTriangles", "i", "iiii")), (7, ("GmfQuadrilaterals", "i", "iiiii")),
   (8, ("GmfTetrahedra", "i", "iiiii")), (9, ("GmfPrisms", "i", "iiiiiii")), (10,
   ("GmfHexahedra", "i", "iiiiiiiii")), (11, ("GmfReserved", "", "")), (12, ("GmfReserved", "",
   "")), (13, ("GmfCorners", "i", "i")), (14, ("GmfRidges", "i", "i")), (15,
   ("GmfRequiredVertices", "i", "i")), (16, ("GmfRequiredEdges", "i", "i")), (17,
   ("GmfRequiredTriangles", "i", "i")), (18, ("GmfRequiredQuadrilaterals", "i", "i")), (19,
   ("GmfTangentAtEdgeVertices", "i", "iii")), (20, ("GmfNormalAtVertices", "i", "ii")), (21,
   ("GmfNormalAtTriangleVertices", "i", "iii")), (22, ("GmfNormalAtQuadrilateralVertices", "i",
   "iiii")), (23, ("GmfAngleOfCornerBound", "", "r")), (24, ("GmfTrianglesP2", "i", "iiiiiii")),
   (25, ("GmfEdgesP2", "i", "iiii")), (26, ("GmfSolAtPyramids", "i", "sr")), (27,
   ("GmfQuadrilateralsQ2", "i", "iiiiiiiiii")), (28, ("GmfISolAtPyramids", "i", "iiiii")), (29,
   ("GmfSubDomainFromGeom", "i", "iii")), (30, ("GmfTetrahedraP2", "i", "iiiiiiiiiii")), (31,
   ("GmfFault_NearTri", "i", "i")), (32, ("GmfFault_Inter", "i", "i")), (33, ("GmfHexahedraQ2",
   "i", "iiiiiiiiiiiiiiiiiiiiiiiiiiii")), (34, ("GmfExtraVerticesAtEdges", "i", "in")), (35,
   ("GmfExtraVerticesAtTriangles", "i", "in")), (36, ("GmfExtraVerticesAtQuadrilaterals", "i",
   "in")), (37, ("GmfExtraVerticesAtTetrahedra", "i", "in")), (38, ("GmfExtraVerticesAtPrisms",
   "i", "in")), (39, ("GmfExtraVerticesAtHexahedra", "i", "in")), (40,
   ("GmfVerticesOnGeometricVertices", "i", "ii")), (41, ("GmfVerticesOnGeometricEdges", "i",
   "iirr")), (42, ("GmfVerticesOnGeometricTriangles", "i", "iirrr")), (43,
   ("GmfVerticesOnGeometricQuadrilaterals", "i", "iirrr")), (44, ("GmfEdgesOnGeometricEdges",
   "i", "ii")), (45, ("GmfFault_FreeEdge", "i", "i")), (46, ("GmfPolyhedra", "i",
   "iiiiiiiiiiiiiiiiiiiiiiiiiiiiiiiii")), (47, ("GmfPolygons", "", "iiiiiiiii")), (48,
   ("GmfFault_Overlap", "i", "i")), (49, ("GmfPyramids", "i", "iiiiii")), (50,
   ("GmfBoundingBox", "", "drdr")), (51, ("GmfReserved", "", "")), (52, ("GmfPrivateTable", "i",
   "i")), (53, ("GmfFault_BadShape", "i", "i")), (54, ("GmfEnd", "", "")), (55,
   ("GmfTrianglesOnGeometricTriangles", "i", "ii")), (56,
   ("GmfTrianglesOnGeometricQuadrilaterals", "i", "ii")), (57,
   ("GmfQuadrilateralsOnGeometricTriangles", "i", "ii")), (58,
   ("GmfQuadrilateralsOnGeometricQuadrilaterals", "i", "ii")), (59, ("GmfTangents", "i", "dr")),
   (60, ("GmfNormals", "i", "dr")), (61, ("GmfTangentAtVertices", "i", "ii")), (62,
   ("GmfSolAtVertices", "i", "sr")), (63, ("GmfSolAtEdges", "i", "sr")), (64,
   ("GmfSolAtTriangles", "i", "sr")), (65, ("GmfSolAtQuadrilaterals", "i", "sr")), (66,
   ("GmfSolAtTetrahedra", "i", "sr")), (67, ("GmfSolAtPrisms", "i", "sr")), (68,
   ("GmfSolAtHexahedra", "i", "sr")), (69, ("GmfDSolAtVertices", "i", "sr")), (70,
   ("GmfISolAtVertices", "i", "i")), (71, ("GmfISolAtEdges", "i", "ii")), (72,
   ("GmfISolAtTriangles", "i", "iii")), (73, ("GmfISolAtQuadrilaterals", "i", "iiii")), (74,
   ("GmfISolAtTetrahedra", "i", "iiii")), (75, ("GmfISolAtPrisms", "i", "iiiiii")), (76,
   ("GmfISolAtHexahedra", "i", "iiiiiiii")), (77, ("GmfIterations", "", "i")), (78, ("GmfTime",
   "", "r")), (79, ("GmfFault_SmallTri", "i", "i")), (80, ("GmfCoarseHexahedra", "i", "i")),
   (81, ("GmfComments", "i", "c")), (82, ("GmfPeriodicVertices", "i", "ii")), (83,
   ("GmfPeriodicEdges", "i", "ii")), (84, ("GmfPeriodicTriangles", "i", "ii")), (85,
   ("GmfPeriodicQuadrilaterals", "i", "ii")), (86, ("GmfPrismsP2", "i", "iiiiiiiiiiiiiiiiiii")),
   (87, ("GmfPyramidsP2", "i", "iiiiiiiiiiiiiii")), (88, ("GmfQuadrilateralsQ3", "i",
   "iiiiiiiiiiiiiiiii")), (89, ("GmfQuadrilateralsQ4", "i", "iiiiiiiiiiiiiiiiiiiiiiiiii")), (90,
   ("GmfTrianglesP3", "i", "iiiiiiiiiii")), (91, ("GmfTrianglesP4", "i", "iiiiiiiiiiiiiiii")),
   (92, ("GmfEdgesP3", "i", "iiiii")), (93, ("GmfEdgesP4", "i", "iiiiii")), (94,
   ("GmfIRefGroups", "i", "ciii")), (95, ("GmfDRefGroups", "i", "iii")), (96,
   ("GmfTetrahedraP3", "i", "iiiiiiiiiiiiiiiiiiiii")), (97, ("GmfTetrahedraP4", "i",
   "iiiiiiiiiiiiiiiiiiiiiiiiiiiiiiiiiiii")), (98, ("GmfHexahedraQ3", "i",
   "iiiiiiiiiiiiiiiiiiiiiiiiiiiiiiiiiiiiiiiiiiiiiiiiiiiiiiiiiiiiiiiii")), (99,
   ("GmfHexahedraQ4", "i",
   "iiiiiiiiiiiiiiiiiiiiiiiiiiiiiiiiiiiiiiiiiiiiiiiiiiiiiiiiiiiiiiiiiiiiiiiiiiiiiiiiiiiiiiiiiiiiiiiiiiiiiiiiiiiiiiiiiiiiiiiiiiiiii")),
   (100, ("GmfPyramidsP3", "i", "iiiiiiiiiiiiiiiiiiiiiiiiiiiiiii")), (101, ("GmfPyramidsP4",
   "i", "iiiiiiiiiiiiiiiiiiiiiiiiiiiiiiiiiiiiiiiiiiiiiiiiiiiiiiii")), (102, ("GmfPrismsP3", "i",
   "iiiiiiiiiiiiiiiiiiiiiiiiiiiiiiiiiiiiiiiii")), (103, ("GmfPrismsP4", "i",
   "iiiiiiiiiiiiiiiiiiiiiiiiiiiiiiiiiiiiiiiiiiiiiiiiiiiiiiiiiiiiiiiiiiiiiiiiiiii")), (104,
   ("GmfHOSolAtEdgesP1", "i", "hr")), (105, ("GmfHOSolAtEdgesP2", "i", "hr")), (106,
   ("GmfHOSolAtEdgesP3", "i", "hr")), (107, ("GmfHOSolAtTrianglesP1", "i", "hr")), (108,
   ("GmfHOSolAtTrianglesP2", "i", "hr")), (109, ("GmfHOSolAtTrianglesP3", "i", "hr")), (110,
   ("GmfHOSolAtQuadrilateralsQ1", "i", "hr")), (111, ("GmfHOSolAtQuadrilateralsQ2", "i", "hr")),
   (112, ("GmfHOSolAtQuadrilateralsQ3", "i", "hr")), (113, ("GmfHOSolAtTetrahedraP1", "i",
   "hr")), (114, ("GmfHOSolAtTetrahedraP2", "i", "hr")), (115, ("GmfHOSolAtTetrahedraP3", "i",
   "hr")), (116, ("GmfHOSolAtPyramidsP1", "i", "hr")), (117, ("GmfHOSolAtPyramidsP2", "i",
   "hr")), (118, ("GmfHOSolAtPyramidsP3", "i", "hr")), (119, ("GmfHOSolAtPrismsP1", "i", "hr")),
   (120, ("GmfHOSolAtPrismsP2", "i", "hr")), (121, ("GmfHOSolAtPrismsP3", "i", "hr")), (122,
   ("GmfHOSolAtHexahedraQ1", "i", "hr")), (123, ("GmfHOSolAtHexahedraQ2", "i", "hr")), (124,
   ("GmfHOSolAtHexahedraQ3", "i", "hr")), (125, ("GmfBezierBasis", "", "i")), (126,
   ("GmfByteFlow", "i", "i")), (127, ("GmfEdgesP2Ordering", "i", "i")), (128,
   ("GmfEdgesP3Ordering", "i", "i")), (129, ("GmfTrianglesP2Ordering", "i", "iii")), (130,
   ("GmfTrianglesP3Ordering", "i", "iii")), (131, ("GmfQuadrilateralsQ2Ordering", "i", "ii")),
   (132, ("GmfQuadrilateralsQ3Ordering", "i", "ii")), (133, ("GmfTetrahedraP2Ordering", "i",
   "iiii")), (134, ("GmfTetrahedraP3Ordering", "i", "iiii")), (135, ("GmfPyramidsP2Ordering",
   "i", "iii")), (136, ("GmfPyramidsP3Ordering", "i", "iii")), (137, ("GmfPrismsP2Ordering",
   "i", "iiii")), (138, ("GmfPrismsP3Ordering", "i", "iiii")), (139, ("GmfHexahedraQ2Ordering",
   "i", "iii")), (140, ("GmfHexahedraQ3Ordering", "i", "iii")), (141, ("GmfEdgesP1Ordering",
   "i", "i")), (142, ("GmfEdgesP4Ordering", "i", "i")), (143, ("GmfTrianglesP1Ordering", "i",
   "iii")), (144, ("GmfTrianglesP4Ordering", "i", "iii")), (145, ("GmfQuadrilateralsQ1Ordering",
   "i", "ii")), (146, ("GmfQuadrilateralsQ4Ordering", "i", "ii")), (147,
   ("GmfTetrahedraP1Ordering", "i", "iiii")), (148, ("GmfTetrahedraP4Ordering", "i", "iiii")),
   (149, ("GmfPyramidsP1Ordering", "i", "iii")), (150, ("GmfPyramidsP4Ordering", "i", "iii")),
   (151, ("GmfPrismsP1Ordering", "i", "iiii")), (152, ("GmfPrismsP4Ordering", "i", "iiii")),
   (153, ("GmfHexahedraQ1Ordering", "i", "iii")), (154, ("GmfHexahedraQ4Ordering", "i", "iii")),
   (155, ("GmfFloatingPointPrecision", "", "i")), (156, ("GmfHOSolAtEdgesP4", "i", "hr")), (157,
   ("GmfHOSolAtTrianglesP4", "i", "hr")), (158, ("GmfHOSolAtQuadrilateralsQ4", "i", "hr")),
   (159, ("GmfHOSolAtTetrahedraP4", "i", "hr")), (160, ("GmfHOSolAtPyramidsP4", "i", "hr")),
   (161, ("GmfHOSolAtPrismsP4", "i", "hr")), (162, ("GmfHOSolAtHexahedraQ4", "i", "hr")), (163,
   ("GmfHOSolAtEdgesP1NodesPositions", "i", "rr")), (164, ("GmfHOSolAtEdgesP2NodesPositions",
   "i", "rr")), (165, ("GmfHOSolAtEdgesP3NodesPositions", "i", "rr")), (166,
   ("GmfHOSolAtEdgesP4NodesPositions", "i", "rr")), (167,
   ("GmfHOSolAtTrianglesP1NodesPositions", "i", "rrr")), (168,
   ("GmfHOSolAtTrianglesP2NodesPositions", "i", "rrr")), (169,
   ("GmfHOSolAtTrianglesP3NodesPositions", "i", "rrr")), (170,
   ("GmfHOSolAtTrianglesP4NodesPositions", "i", "rrr")), (171,
   ("GmfHOSolAtQuadrilateralsQ1NodesPositions", "i", "rr")), (172,
   ("GmfHOSolAtQuadrilateralsQ2NodesPositions", "i", "rr")), (173,
   ("GmfHOSolAtQuadrilateralsQ3NodesPositions", "i", "rr")), (174,
   ("GmfHOSolAtQuadrilateralsQ4NodesPositions", "i", "rr")), (175,
   ("GmfHOSolAtTetrahedraP1NodesPositions", "i", "rrrr")), (176,
   ("GmfHOSolAtTetrahedraP2NodesPositions", "i", "rrrr")), (177,
   ("GmfHOSolAtTetrahedraP3NodesPositions", "i", "rrrr")), (178,
   ("GmfHOSolAtTetrahedraP4NodesPositions", "i", "rrrr")), (179,
   ("GmfHOSolAtPyramidsP1NodesPositions", "i", "rrr")), (180,
   ("GmfHOSolAtPyramidsP2NodesPositions", "i", "rrr")), (181,
   ("GmfHOSolAtPyramidsP3NodesPositions", "i", "rrr")), (182,
   ("GmfHOSolAtPyramidsP4NodesPositions", "i", "rrr")), (183,
   ("GmfHOSolAtPrismsP1NodesPositions", "i", "rrrr")), (184,
   ("GmfHOSolAtPrismsP2NodesPositions", "i", "rrrr")), (185,
   ("GmfHOSolAtPrismsP3NodesPositions", "i", "rrrr")), (186,
   ("GmfHOSolAtPrismsP4NodesPositions", "i", "rrrr")), (187,
   ("GmfHOSolAtHexahedraQ1NodesPositions", "i", "rrr")), (188,
   ("GmfHOSolAtHexahedraQ2NodesPositions", "i", "rrr")), (189,
   ("GmfHOSolAtHexahedraQ3NodesPositions", "i", "rrr")), (190,
   ("GmfHOSolAtHexahedraQ4NodesPositions", "i", "rrr")), (191, ("GmfEdgesReferenceElement", "",
   "rr")), (192, ("GmfTriangleReferenceElement", "", "rrrrrr")), (193,
   ("GmfQuadrilateralReferenceElement", "", "rrrrrrrr")), (194,
   ("GmfTetrahedronReferenceElement", "", "rrrrrrrrrrrr")), (195, ("GmfPyramidReferenceElement",
   "", "rrrrrrrrrrrrrrr")), (196, ("GmfPrismReferenceElement", "", "rrrrrrrrrrrrrrrrrr")), (197,
   ("GmfHexahedronReferenceElement", "", "rrrrrrrrrrrrrrrrrrrrrrrr")), (198,
   ("GmfBoundaryLayers", "i", "iii"))]

/-- `meshio_only["zone"]`, /repo/src/meshio/flac3d/_flac3d.py:21-34. -/
def flacZone : List (String × String) :=
  [("tetra", "tetra"), ("tetra10", "tetra"), ("pyramid", "pyramid"), ("pyramid13", "pyramid"),
   ("wedge", "wedge"), ("wedge12", "wedge"), ("wedge15", "wedge"), ("wedge18", "wedge"),
   ("hexahedron", "hexahedron"), ("hexahedron20", "hexahedron"), ("hexahedron24", "hexahedron"),
   ("hexahedron27", "hexahedron")]

/-- `meshio_only["face"]`, /repo/src/meshio/flac3d/_flac3d.py:35-42. -/
def flacFace : List (String × String) :=
  [("triangle", "triangle"), ("triangle6", "triangle"), ("triangle7", "triangle"), ("quad",
   "quad"), ("quad8", "quad"), ("quad9", "quad")]

/-- `numnodes_to_meshio_type["zone"]`, /repo/src/meshio/flac3d/_flac3d.py:47-47. -/
def flacNumNodesZone : List (Nat × String) :=
  [(4, "tetra"), (5, "pyramid"), (6, "wedge"), (8, "hexahedron")]

/-- `numnodes_to_meshio_type["face"]`, /repo/src/meshio/flac3d/_flac3d.py:48-48. -/
def flacNumNodesFace : List (Nat × String) :=
  [(3, "triangle"), (4, "quad")]

/-- `meshio_to_flac3d_type`, /repo/src/meshio/flac3d/_flac3d.py:52-59. -/
def meshioToFlac : List (String × String) :=
  [("triangle", "T3"), ("quad", "Q4"), ("tetra", "T4"), ("pyramid", "P5"), ("wedge", "W6"),
   ("hexahedron", "B8")]

/-- `flac3d_to_meshio_order`, /repo/src/meshio/flac3d/_flac3d.py:62-69. -/
def flacToMeshioOrder : List (String × List Nat) :=
  [("triangle", [0, 1, 2]), ("quad", [0, 1, 2, 3]), ("tetra", [0, 1, 2, 3]), ("pyramid", [0, 1,
   4, 2, 3]), ("wedge", [0, 1, 3, 2, 4, 5]), ("hexahedron", [0, 1, 4, 2, 3, 6, 7, 5])]

/-- `meshio_to_flac3d_order`, /repo/src/meshio/flac3d/_flac3d.py:72-79. -/
def meshioToFlacOrder : List (String × List Nat) :=
  [("triangle", [0, 1, 2]), ("quad", [0, 1, 2, 3]), ("tetra", [0, 1, 2, 3]), ("pyramid", [0, 1,
   3, 4, 2]), ("wedge", [0, 1, 3, 2, 4, 5]), ("hexahedron", [0, 1, 3, 4, 2, 7, 5, 6])]

/-- `meshio_to_flac3d_order_2`, /repo/src/meshio/flac3d/_flac3d.py:82-87. -/
def meshioToFlacOrder2 : List (String × List Nat) :=
  [("tetra", [0, 2, 1, 3]), ("pyramid", [0, 3, 1, 4, 2]), ("wedge", [0, 2, 3, 1, 5, 4]),
   ("hexahedron", [0, 3, 1, 4, 2, 5, 7, 6])]

/-- `tecplot_to_meshio_type`, /repo/src/meshio/tecplot/_tecplot.py:42-53. -/
def tecplotToMeshio : List (String × String) :=
  [("LINESEG", "line"), ("FELINESEG", "line"), ("TRIANGLE", "triangle"), ("FETRIANGLE",
   "triangle"), ("QUADRILATERAL", "quad"), ("FEQUADRILATERAL", "quad"), ("TETRAHEDRON",
   "tetra"), ("FETETRAHEDRON", "tetra"), ("BRICK", "hexahedron"), ("FEBRICK", "hexahedron")]

/-- `meshio_to_tecplot_type`, /repo/src/meshio/tecplot/_tecplot.py:56-64. -/
def meshioToTecplot : List (String × String) :=
  [("line", "FELINESEG"), ("triangle", "FETRIANGLE"), ("quad", "FEQUADRILATERAL"), ("tetra",
   "FETETRAHEDRON"), ("pyramid", "FEBRICK"), ("wedge", "FEBRICK"), ("hexahedron", "FEBRICK")]

/-- `meshio_to_tecplot_order`, /repo/src/meshio/tecplot/_tecplot.py:70-78. -/
def meshioToTecplotOrder : List (String × List Nat) :=
  [("line", [0, 1]), ("triangle", [0, 1, 2]), ("quad", [0, 1, 2, 3]), ("tetra", [0, 1, 2, 3]),
   ("pyramid", [0, 1, 2, 3, 4, 4, 4, 4]), ("wedge", [0, 1, 4, 3, 2, 2, 5, 5]), ("hexahedron",
   [0, 1, 2, 3, 4, 5, 6, 7])]

/-- `meshio_to_tecplot_order_2`, /repo/src/meshio/tecplot/_tecplot.py:81-88. -/
def meshioToTecplotOrder2 : List (String × List Nat) :=
  [("triangle", [0, 1, 2, 2]), ("quad", [0, 1, 2, 3]), ("tetra", [0, 1, 2, 2, 3, 3, 3, 3]),
   ("pyramid", [0, 1, 2, 3, 4, 4, 4, 4]), ("wedge", [0, 1, 4, 3, 2, 2, 5, 5]), ("hexahedron",
   [0, 1, 2, 3, 4, 5, 6, 7])]

/-- `meshio_type_to_ndim`, /repo/src/meshio/tecplot/_tecplot.py:91-99. -/
def tecplotNdim : List (String × Nat) :=
  [("line", 1), ("triangle", 2), ("quad", 2), ("tetra", 3), ("pyramid", 3), ("wedge", 3),
   ("hexahedron", 3)]

/-- `meshio_to_med_type`, /repo/src/meshio/med/_med.py:14-30. -/
def meshioToMed : List (String × String) :=
  [("vertex", "PO1"), ("line", "SE2"), ("line3", "SE3"), ("triangle", "TR3"), ("triangle6",
   "TR6"), ("quad", "QU4"), ("quad8", "QU8"), ("tetra", "TE4"), ("tetra10", "T10"),
   ("hexahedron", "HE8"), ("hexahedron20", "H20"), ("pyramid", "PY5"), ("pyramid13", "P13"),
   ("wedge", "PE6"), ("wedge15", "P15")]

/-- `exodus_to_meshio_type`, /repo/src/meshio/exodus/_exodus.py:20-65. -/
def exodusToMeshio : List (String × String) :=
  [("SPHERE", "vertex"), ("BEAM", "line"), ("BEAM2", "line"), ("BEAM3", "line3"), ("BAR2",
   "line"), ("SHELL", "quad"), ("SHELL4", "quad"), ("SHELL8", "quad8"), ("SHELL9", "quad9"),
   ("QUAD", "quad"), ("QUAD4", "quad"), ("QUAD5", "quad5"), ("QUAD8", "quad8"), ("QUAD9",
   "quad9"), ("TRI", "triangle"), ("TRIANGLE", "triangle"), ("TRI3", "triangle"), ("TRI6",
   "triangle6"), ("TRI7", "triangle7"), ("HEX", "hexahedron"), ("HEXAHEDRON", "hexahedron"),
   ("HEX8", "hexahedron"), ("HEX9", "hexahedron9"), ("HEX20", "hexahedron20"), ("HEX27",
   "hexahedron27"), ("TETRA", "tetra"), ("TETRA4", "tetra4"), ("TET4", "tetra4"), ("TETRA8",
   "tetra8"), ("TETRA10", "tetra10"), ("TETRA14", "tetra14"), ("PYRAMID", "pyramid"), ("WEDGE",
   "wedge")]

/-- `abaqus_to_meshio_type`, /repo/src/meshio/abaqus/_abaqus.py:17-100. -/
def abaqusToMeshio : List (String × String) :=
  [("T2D2", "line"), ("T2D2H", "line"), ("T2D3", "line3"), ("T2D3H", "line3"), ("T3D2", "line"),
   ("T3D2H", "line"), ("T3D3", "line3"), ("T3D3H", "line3"), ("B21", "line"), ("B21H", "line"),
   ("B22", "line3"), ("B22H", "line3"), ("B31", "line"), ("B31H", "line"), ("B32", "line3"),
   ("B32H", "line3"), ("B33", "line3"), ("B33H", "line3"), ("CPS4", "quad"), ("CPS4R", "quad"),
   ("S4", "quad"), ("S4R", "quad"), ("S4RS", "quad"), ("S4RSW", "quad"), ("S4R5", "quad"),
   ("S8R", "quad8"), ("S8R5", "quad8"), ("S9R5", "quad9"), ("CPS3", "triangle"), ("STRI3",
   "triangle"), ("S3", "triangle"), ("S3R", "triangle"), ("S3RS", "triangle"), ("R3D3",
   "triangle"), ("STRI65", "triangle6"), ("C3D8", "hexahedron"), ("C3D8H", "hexahedron"),
   ("C3D8I", "hexahedron"), ("C3D8IH", "hexahedron"), ("C3D8R", "hexahedron"), ("C3D8RH",
   "hexahedron"), ("C3D20", "hexahedron20"), ("C3D20H", "hexahedron20"), ("C3D20R",
   "hexahedron20"), ("C3D20RH", "hexahedron20"), ("C3D4", "tetra"), ("C3D4H", "tetra4"),
   ("C3D10", "tetra10"), ("C3D10H", "tetra10"), ("C3D10I", "tetra10"), ("C3D10M", "tetra10"),
   ("C3D10MH", "tetra10"), ("C3D6", "wedge"), ("C3D15", "wedge15"), ("CAX4P", "quad"), ("CPE6",
   "triangle6")]

/-- `nastran_to_meshio_type`, /repo/src/meshio/nastran/_nastran.py:16-43. -/
def nastranToMeshio : List (String × String) :=
  [("CELAS1", "vertex"), ("CBEAM", "line"), ("CBUSH", "line"), ("CBUSH1D", "line"), ("CROD",
   "line"), ("CGAP", "line"), ("CBAR", "line"), ("CTRIAR", "triangle"), ("CTRIA3", "triangle"),
   ("CTRAX6", "triangle6"), ("CTRIAX6", "triangle6"), ("CTRIA6", "triangle6"), ("CQUADR",
   "quad"), ("CSHEAR", "quad"), ("CQUAD4", "quad"), ("CQUAD8", "quad8"), ("CQUAD9", "quad9"),
   ("CTETRA", "tetra"), ("CTETRA_", "tetra10"), ("CPYRAM", "pyramid"), ("CPYRA", "pyramid"),
   ("CPYRA_", "pyramid13"), ("CPENTA", "wedge"), ("CPENTA_", "wedge15"), ("CHEXA",
   "hexahedron"), ("CHEXA_", "hexahedron20")]

/-- `_mdpa_to_meshio_type`, /repo/src/meshio/mdpa/_mdpa.py:24-46. -/
def mdpaToMeshio : List (String × String) :=
  [("Line2D2", "line"), ("Line3D2", "line"), ("Triangle2D3", "triangle"), ("Triangle3D3",
   "triangle"), ("Quadrilateral2D4", "quad"), ("Quadrilateral3D4", "quad"), ("Tetrahedra3D4",
   "tetra"), ("Hexahedra3D8", "hexahedron"), ("Prism3D6", "wedge"), ("Line2D3", "line3"),
   ("Triangle2D6", "triangle6"), ("Triangle3D6", "triangle6"), ("Quadrilateral2D9", "quad9"),
   ("Quadrilateral3D9", "quad9"), ("Tetrahedra3D10", "tetra10"), ("Hexahedra3D27",
   "hexahedron27"), ("Point2D", "vertex"), ("Point3D", "vertex"), ("Quadrilateral2D8", "quad8"),
   ("Quadrilateral3D8", "quad8"), ("Hexahedra3D20", "hexahedron20")]

/-- `_meshio_to_mdpa_type`, /repo/src/meshio/mdpa/_mdpa.py:48-63. -/
def meshioToMdpa : List (String × String) :=
  [("line", "Line2D2"), ("triangle", "Triangle2D3"), ("quad", "Quadrilateral2D4"), ("tetra",
   "Tetrahedra3D4"), ("hexahedron", "Hexahedra3D8"), ("wedge", "Prism3D6"), ("line3",
   "Line2D3"), ("triangle6", "Triangle2D6"), ("quad9", "Quadrilateral2D9"), ("tetra10",
   "Tetrahedra3D10"), ("hexahedron27", "Hexahedra3D27"), ("vertex", "Point2D"), ("quad8",
   "Quadrilateral2D8"), ("hexahedron20", "Hexahedra3D20")]

/-- `local_dimension_types`, /repo/src/meshio/mdpa/_mdpa.py:66-88. -/
def mdpaLocalDim : List (String × Nat) :=
  [("Line2D2", 1), ("Line3D2", 1), ("Triangle2D3", 2), ("Triangle3D3", 2), ("Quadrilateral2D4",
   2), ("Quadrilateral3D4", 2), ("Tetrahedra3D4", 3), ("Hexahedra3D8", 3), ("Prism3D6", 3),
   ("Line2D3", 1), ("Triangle2D6", 2), ("Triangle3D6", 2), ("Quadrilateral2D9", 2),
   ("Quadrilateral3D9", 2), ("Tetrahedra3D10", 3), ("Hexahedra3D27", 3), ("Point2D", 0),
   ("Point3D", 0), ("Quadrilateral2D8", 2), ("Quadrilateral3D8", 2), ("Hexahedra3D20", 3)]

/-- `permas_to_meshio_type`, /repo/src/meshio/permas/_permas.py:14-56. -/
def permasToMeshio : List (String × String) :=
  [("PLOT1", "vertex"), ("PLOTL2", "line"), ("FLA2", "line"), ("FLA3", "line3"), ("PLOTL3",
   "line3"), ("BECOS", "line"), ("BECOC", "line"), ("BETAC", "line"), ("BECOP", "line"),
   ("BETOP", "line"), ("BEAM2", "line"), ("FSCPIPE2", "line"), ("LOADA4", "quad"), ("PLOTA4",
   "quad"), ("QUAD4", "quad"), ("QUAD4S", "quad"), ("QUAMS4", "quad"), ("SHELL4", "quad"),
   ("PLOTA8", "quad8"), ("LOADA8", "quad8"), ("QUAMS8", "quad8"), ("PLOTA9", "quad9"),
   ("LOADA9", "quad9"), ("QUAMS9", "quad9"), ("PLOTA3", "triangle"), ("SHELL3", "triangle"),
   ("TRIA3", "triangle"), ("TRIA3K", "triangle"), ("TRIA3S", "triangle"), ("TRIMS3",
   "triangle"), ("LOADA6", "triangle6"), ("TRIMS6", "triangle6"), ("HEXE8", "hexahedron"),
   ("HEXFO8", "hexahedron"), ("HEXE20", "hexahedron20"), ("HEXE27", "hexahedron27"), ("TET4",
   "tetra"), ("TET10", "tetra10"), ("PYRA5", "pyramid"), ("PENTA6", "wedge"), ("PENTA15",
   "wedge15")]

/-- `medit_from_meshio`, /repo/src/meshio/medit/_medit.py:335-343. ASCII writer. -/
def mediAsciiWrite : List (String × String × Nat) :=
  [("line", ("Edges", 2)), ("triangle", ("Triangles", 3)), ("quad", ("Quadrilaterals", 4)),
   ("tetra", ("Tetrahedra", 4)), ("wedge", ("Prisms", 6)), ("pyramid", ("Pyramids", 5)),
   ("hexahedron", ("Hexahedra", 8))]

/-- `medit_from_meshio`, /repo/src/meshio/medit/_medit.py:468-476. Binary writer. -/
def mediBinaryWrite : List (String × Nat) :=
  [("line", 5), ("triangle", 6), ("quad", 7), ("tetra", 8), ("wedge", 9), ("pyramid", 49),
   ("hexahedron", 10)]

/-- `meshio_to_ansys_type`, /repo/src/meshio/ansys/_ansys.py:424-433. -/
def meshioToAnsys : List (String × Nat) :=
  [("triangle", 1), ("tetra", 2), ("quad", 3), ("hexahedron", 4), ("pyramid", 5), ("wedge", 6)]

/-- Element type table in the cell section reader, /repo/src/meshio/ansys/_ansys.py:118-126.
The `mixed` entry (no node count) is left out. -/
def ansysToMeshio : List (Nat × String × Nat) :=
  [(1, "triangle", 3), (2, "tetra", 4), (3, "quad", 4), (4, "hexahedron", 8), (5, "pyramid", 5),
   (6, "wedge", 6)]

/-- `tria6_order`, /repo/src/meshio/permas/_permas.py:242-242. -/
def permas_tria6 : List Nat :=
  [0, 3, 1, 4, 2, 5]

/-- `tet10_order`, /repo/src/meshio/permas/_permas.py:243-243. -/
def permas_tet10 : List Nat :=
  [0, 4, 1, 5, 2, 6, 7, 8, 9, 3]

/-- `quad9_order`, /repo/src/meshio/permas/_permas.py:244-244. -/
def permas_quad9 : List Nat :=
  [0, 4, 1, 7, 8, 5, 3, 6, 2]

/-- `wedge15_order`, /repo/src/meshio/permas/_permas.py:245-245. -/
def permas_wedge15 : List Nat :=
  [0, 6, 1, 7, 2, 8, 9, 10, 11, 3, 12, 4, 13, 5, 14]

/-- Node order tables of `_convert_to_vtk_ordering`, by Nastran type,
/repo/src/meshio/nastran/_nastran.py:472-503. -/
def nastranToVtkOrder : List (String × List Nat) :=
  [("CTRAX6", [0, 2, 4, 1, 3, 5]), ("CTRIAX6", [0, 2, 4, 1, 3, 5]),
   ("CHEXA_", [0, 1, 2, 3, 4, 5, 6, 7, 8, 9, 10, 11, 16, 17, 18, 19, 12, 13, 14, 15]),
   ("CPENTA_", [0, 1, 2, 3, 4, 5, 6, 7, 8, 12, 13, 14, 9, 10, 11])]

/-- Node order tables of `_convert_to_nastran_ordering`,
/repo/src/meshio/nastran/_nastran.py:506-537. -/
def vtkToNastranOrder : List (String × List Nat) :=
  [("CTRAX6", [0, 3, 1, 4, 2, 5]), ("CTRIAX6", [0, 3, 1, 4, 2, 5]),
   ("CHEXA_", [0, 1, 2, 3, 4, 5, 6, 7, 8, 9, 10, 11, 16, 17, 18, 19, 12, 13, 14, 15]),
   ("CPENTA_", [0, 1, 2, 3, 4, 5, 6, 7, 8, 12, 13, 14, 9, 10, 11])]

/-- Pyramid order of the UGRID reader, /repo/src/meshio/ugrid/_ugrid.py:130-131. -/
def ugridPyramidRead : List Nat := [1, 0, 3, 4, 2]

/-- Pyramid order of the UGRID writer, /repo/src/meshio/ugrid/_ugrid.py:271-272. -/
def ugridPyramidWrite : List Nat := [1, 0, 4, 2, 3]

end Meshio.Tables
