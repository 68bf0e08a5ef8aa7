{"id": "C01", "title": "Mesh construction accepts exactly the consistent inputs", "statement": "Constructing a Mesh succeeds if and only if every point_data array has as many rows as there are points, every cell_data entry has exactly one array per cell block, and each such array has as many rows as its block has cells; in every other case with known cell types it raises ValueError, and an unknown cell type raises KeyError. A constructed mesh holds the given points, cells and data unchanged and in order.", "quantifier": "every points array, list of cell blocks, point_data, cell_data", "why_tests_cant": "the check ranges over all lengths and all numbers of blocks and data names; a test samples a few", "anchors": ["src/meshio/_mesh.py:Mesh.__init__", "src/meshio/_mesh.py:CellBlock"]}
{"id": "C02", "title": "Mesh consistency survives every history of set/data conversions", "statement": "Starting from a consistent mesh, after any sequence of cell_sets_to_data, point_sets_to_data, cell_data_to_sets, point_data_to_sets and copy calls the data arrays still match the points and the cell blocks in number and length.", "quantifier": "all consistent meshes and all finite sequences of conversion calls", "why_tests_cant": "histories are unbounded", "anchors": ["src/meshio/_mesh.py:Mesh.cell_sets_to_data", "src/meshio/_mesh.py:Mesh.point_sets_to_data", "src/meshio/_mesh.py:Mesh.cell_data_to_sets", "src/meshio/_mesh.py:Mesh.point_data_to_sets"]}
{"id": "C03", "title": "Per-type views are row-aligned", "statement": "For every cell type, get_cells_type and cells_dict list exactly the cells of that type in block order, cell_data_dict/get_cell_data list exactly the data of those cells, and row i of the data belongs to cell i of the view; no cell of another type appears and none is lost.", "quantifier": "all meshes with any number and order of (repeated) block types", "why_tests_cant": "depends on arbitrary interleavings of block types", "anchors": ["src/meshio/_mesh.py:Mesh.get_cells_type", "src/meshio/_mesh.py:Mesh.cells_dict", "src/meshio/_mesh.py:Mesh.cell_data_dict", "src/meshio/_mesh.py:Mesh.get_cell_data"]}
{"id": "C04", "title": "cell_sets_dict indexes the per-type view", "statement": "For every cell set and cell type, the indices in cell_sets_dict select from cells_dict[type] exactly the cells which the set selects block by block from the blocks of that type.", "quantifier": "all meshes, sets (including sets undefined on some blocks) and types", "why_tests_cant": "needs all combinations of block order and missing members", "anchors": ["src/meshio/_mesh.py:Mesh.cell_sets_dict"]}
{"id": "C05", "title": "cell_sets_to_data tags every cell with its set", "statement": "After cell_sets_to_data every cell carries the number of the last set containing it, or -1 if no set contains it; the sets are removed and all other data is untouched.", "quantifier": "all meshes and all families of cell sets, overlapping or not", "why_tests_cant": "ranges over all overlapping patterns", "anchors": ["src/meshio/_mesh.py:Mesh.cell_sets_to_data"]}
{"id": "C06", "title": "Cell sets survive conversion to data and back", "statement": "If the cell sets are non-empty, disjoint and cover all cells and their names are distinct and contain no '-', then cell_sets_to_data followed by cell_data_to_sets returns the same sets under the same names.", "quantifier": "all meshes and all partitions of their cells into named sets", "why_tests_cant": "round trip over all partitions and names", "anchors": ["src/meshio/_mesh.py:Mesh.cell_sets_to_data", "src/meshio/_mesh.py:Mesh.cell_data_to_sets"]}
{"id": "C07", "title": "Point sets survive conversion to data and back", "statement": "point_sets_to_data gives each point the number of the last set containing it (-1 for none); converting back with point_data_to_sets restores every disjoint covering family of non-empty sets under its own names, and in the general case names are distinct per tag so that no set is lost.", "quantifier": "all meshes and all families of point sets", "why_tests_cant": "round trip over all families", "anchors": ["src/meshio/_mesh.py:Mesh.point_sets_to_data", "src/meshio/_mesh.py:Mesh.point_data_to_sets"]}
{"id": "C08", "title": "Format registry answers like the history of registrations", "statement": "After any sequence of register_format and deregister_format calls, the formats tried for an extension are exactly those whose registrations for that extension outnumber their deregistrations' removals, in registration order, a reader/writer lookup returns the last registered entry, and deregistering a format makes it unreachable by its extension and name.", "quantifier": "all finite histories of register/deregister", "why_tests_cant": "unbounded histories", "anchors": ["src/meshio/_helpers.py:register_format", "src/meshio/_helpers.py:deregister_format"]}
{"id": "C09", "title": "File type deduction considers every suffix, shortest first, case-insensitively", "statement": "The candidate formats for a path are the formats registered for each suffix chain (last suffix first, then the last two, ...), independent of letter case; if no suffix is registered ReadError is raised, otherwise the result is non-empty.", "quantifier": "all file names and registries", "why_tests_cant": "arbitrary suffix chains", "anchors": ["src/meshio/_helpers.py:_filetypes_from_path"]}
{"id": "C10", "title": "read tries the candidates in order and stops at the first success", "statement": "Reading a path returns the mesh of the first candidate format whose reader does not raise ReadError; an exception of another kind propagates at once without trying later formats; if all fail the process exits with status 1; a missing file raises ReadError without calling any reader; an explicitly given format is the only one tried.", "quantifier": "all registries, candidate lists and reader behaviours", "why_tests_cant": "ranges over all reader outcomes", "anchors": ["src/meshio/_helpers.py:read", "src/meshio/_helpers.py:_read_file"]}
{"id": "C11", "title": "write validates before it calls a writer", "statement": "write calls the chosen writer only if the format is known and every block of a known type has the right number of columns; otherwise WriteError is raised and no writer has been called, so no file is created. If no format is given, the first deduced format is used.", "quantifier": "all meshes, paths, formats and registries", "why_tests_cant": "all shapes and all registries", "anchors": ["src/meshio/_helpers.py:write"]}
{"id": "C12", "title": "Concatenating cell data and splitting it again is lossless", "statement": "Splitting the concatenation of per-block arrays at the block lengths returns the original per-block arrays, for any list of blocks including empty blocks, and the pieces of any raw array concatenate back to it.", "quantifier": "all block-length lists and arrays", "why_tests_cant": "all lengths including zeros", "anchors": ["src/meshio/_common.py:cell_data_from_raw", "src/meshio/_common.py:raw_from_cell_data"]}
{"id": "C13", "title": "join_strings can be uniquely split", "statement": "Whenever join_strings succeeds, splitting its result at the returned character yields the original list of strings (for non-empty lists), and it fails only if all five candidate characters occur in the strings.", "quantifier": "all lists of strings", "why_tests_cant": "all strings", "anchors": ["src/meshio/_common.py:join_strings", "src/meshio/_common.py:is_in_any"]}
{"id": "C14", "title": "replace_space yields a blank-free reversible name", "statement": "Whenever replace_space succeeds its result contains no blank, has the same length, and replacing the returned character by a blank restores the input; it fails only if all six candidate characters occur.", "quantifier": "all strings", "why_tests_cant": "all strings", "anchors": ["src/meshio/_common.py:replace_space"]}
{"id": "C15", "title": "Cell-type tables agree with each other", "statement": "Every cell type with a known node count has a topological dimension and vice versa, node counts follow the Lagrange/serendipity formulas of the shape, and every type number a reader can translate has a node count.", "quantifier": "all entries of the type tables", "why_tests_cant": "a table-wide coherence statement over several modules", "anchors": ["src/meshio/_common.py:num_nodes_per_cell", "src/meshio/_mesh.py:topological_dimension", "src/meshio/_vtk_common.py:vtk_to_meshio_type", "src/meshio/gmsh/common.py:_gmsh_to_meshio_type"]}
{"id": "C16", "title": "Type codes translate back and forth", "statement": "For each format with a numeric or named cell type table (VTK, Gmsh, XDMF, AVS-UCD, UGRID, SU2, Netgen, Medit, ANSYS, FLAC3D, Tecplot, MED, Exodus, Abaqus, Nastran, MDPA, PERMAS, CGNS, TetGen), translating a meshio cell type to the format and back gives the same cell type.", "quantifier": "all table entries of all formats", "why_tests_cant": "table-wide statement", "anchors": ["src/meshio/_vtk_common.py", "src/meshio/gmsh/common.py", "src/meshio/xdmf/common.py", "src/meshio/avsucd/_avsucd.py", "src/meshio/abaqus/_abaqus.py", "src/meshio/nastran/_nastran.py"]}
{"id": "C17", "title": "Node orderings are mutually inverse", "statement": "For every format that permutes nodes (Gmsh, VTK, UGRID, AVS-UCD, Nastran, FLAC3D, Netgen, PERMAS, MDPA), reading what was written restores the node order of every cell of every type.", "quantifier": "all cells of all types with arbitrary node labels", "why_tests_cant": "arbitrary labels and all types", "anchors": ["src/meshio/gmsh/common.py", "src/meshio/_vtk_common.py", "src/meshio/ugrid/_ugrid.py", "src/meshio/avsucd/_avsucd.py", "src/meshio/nastran/_nastran.py", "src/meshio/flac3d/_flac3d.py", "src/meshio/netgen/_netgen.py", "src/meshio/permas/_permas.py"]}
{"id": "C18", "title": "VTK connectivity decoding loses no cell and keeps data aligned", "statement": "Decoding a flat connectivity array with offsets and types yields the cells in file order, each with the nodes of its slice (in meshio ordering) and the type of its code, neighbouring equal-type cells share a block, cell data rows follow their cells; mismatching offsets/types lengths raise ReadError.", "quantifier": "all connectivity/offset/type/data arrays", "why_tests_cant": "arbitrary type runs and sizes", "anchors": ["src/meshio/_vtk_common.py:vtk_cells_from_data"]}
{"id": "C19", "title": "Legacy VTK cell stream round-trips", "statement": "The stream [n, id1..idn]* with type codes written for any list of blocks decodes to the same cells in the same order, with adjacent blocks of equal type fused, and the cell data of every cell stays with that cell.", "quantifier": "all lists of blocks of supported types, all cell data", "why_tests_cant": "arbitrary block sequences", "anchors": ["src/meshio/vtk/_vtk_42.py:translate_cells", "src/meshio/vtk/_vtk_42.py:_write_cells", "src/meshio/vtk/_vtk_51.py"]}
{"id": "C20", "title": "Structured VTK grids generate the right cells", "statement": "A structured dataset with given dimensions yields exactly prod(dim-1) cells over the non-degenerate axes, each connecting the 2^d corner grid points of its cell, all indices in range and all cells distinct; rectilinear and structured-points datasets yield one point per grid index in x-fastest order.", "quantifier": "all dimensions", "why_tests_cant": "all grid sizes", "anchors": ["src/meshio/vtk/_vtk_42.py:_generate_cells", "src/meshio/vtk/_vtk_42.py:_generate_points"]}
{"id": "C21", "title": "Multi-piece VTU files are merged completely", "statement": "Reading a VTU file with several pieces yields the points and cells of all pieces in order, with cell node numbers shifted by the number of points of earlier pieces and cell data rows kept with their cells.", "quantifier": "all numbers and contents of pieces", "why_tests_cant": "arbitrary numbers of pieces", "anchors": ["src/meshio/vtu/_vtu.py:_organize_cells", "src/meshio/vtu/_vtu.py:VtuReader.__init__"]}
{"id": "C22", "title": "VTU binary data blocks decode to the bytes that were encoded", "statement": "For every array content, reading a base64 (uncompressed or block-compressed) data array written by meshio returns the original bytes, also when other arrays follow it in the same appended section; the block header describes the number and sizes of the blocks.", "quantifier": "all byte strings, all block counts, any lossless compressor", "why_tests_cant": "all lengths including exact multiples of the block size, one more, one less, and empty", "anchors": ["src/meshio/vtu/_vtu.py:VtuReader.read_uncompressed_binary", "src/meshio/vtu/_vtu.py:VtuReader.read_compressed_binary", "src/meshio/vtu/_vtu.py:write"]}
{"id": "C23", "title": "VTU polyhedra keep faces and data", "statement": "Polyhedral cells written to VTU are read back with the same faces in the same order, grouped by number of nodes, and each polyhedron keeps its own cell data.", "quantifier": "all lists of polyhedra", "why_tests_cant": "arbitrary faces and sizes", "anchors": ["src/meshio/vtu/_vtu.py:_polyhedron_cells_from_data", "src/meshio/vtu/_vtu.py:_polyhedron_face_cells"]}
{"id": "C24", "title": "OFF round trip", "statement": "Writing a mesh with 3D points and triangle blocks to OFF and reading it back yields the same points and one triangle block with all triangles in order; a face with a node count other than 3 or a bad header raises ReadError.", "quantifier": "all meshes of triangles", "why_tests_cant": "all sizes", "anchors": ["src/meshio/off/_off.py"]}
{"id": "C25", "title": "STL facets round trip", "statement": "Writing triangles to STL (ASCII or binary) and reading back gives, for every triangle in order, three points with the same coordinates; equal coordinates share a point; a binary file is recognised by its size and an ASCII file is never mistaken for binary unless its size matches.", "quantifier": "all triangle meshes", "why_tests_cant": "all sizes and coordinate coincidences", "anchors": ["src/meshio/stl/_stl.py"]}
{"id": "C26", "title": "Neuroglancer fragments round trip and bad sizes are rejected", "statement": "Writing a triangle mesh and reading it back gives the same points and triangles; a buffer whose size does not fit its vertex count, or with a triangle referring to a missing vertex, is rejected with ReadError.", "quantifier": "all triangle meshes and all byte buffers", "why_tests_cant": "all buffers", "anchors": ["src/meshio/neuroglancer/_neuroglancer.py"]}
{"id": "C27", "title": "OBJ round trip", "statement": "Reading an OBJ file written from triangles and quads yields the same points and the same faces in order, with one block per run of equal face size; texture and normal references are ignored.", "quantifier": "all meshes and all OBJ face sequences", "why_tests_cant": "all face sequences", "anchors": ["src/meshio/obj/_obj.py"]}
{"id": "C28", "title": "TetGen index base", "statement": "Node and element files are read consistently for base 0 and base 1, non-consecutive node numbering is rejected, and writing then reading returns the same points and tetrahedra.", "quantifier": "all node/element tables", "why_tests_cant": "all sizes and bases", "anchors": ["src/meshio/tetgen/_tetgen.py"]}
{"id": "C29", "title": "PLY faces round trip", "statement": "Writing vertex/line/triangle/quad/polygon blocks to PLY and reading back yields the same faces in the same order, grouped in runs of equal size, and every dtype name the writer emits is understood by the reader.", "quantifier": "all meshes", "why_tests_cant": "all face sequences and dtypes", "anchors": ["src/meshio/ply/_ply.py"]}
{"id": "C30", "title": "Gmsh 2.2 elements round trip", "statement": "Writing a mesh to MSH 2.2 and reading it back yields the same points, the same cells in order (adjacent equal-type blocks fused) with the same physical and geometrical tags per cell; element numbers are consecutive from 1.", "quantifier": "all meshes over supported types", "why_tests_cant": "all block sequences and tags", "anchors": ["src/meshio/gmsh/_gmsh22.py"]}
{"id": "C31", "title": "Node numbers are resolved through the file's own numbering", "statement": "Readers for formats with explicit node numbers (Gmsh, Abaqus, Nastran, FLAC3D, ANSYS, AVS-UCD, MDPA, PERMAS) connect each cell to the points which carry the numbers it lists, for arbitrary distinct, unsorted, non-contiguous numbers.", "quantifier": "all injective numberings", "why_tests_cant": "all numberings", "anchors": ["src/meshio/gmsh/_gmsh22.py", "src/meshio/gmsh/_gmsh40.py", "src/meshio/gmsh/_gmsh41.py", "src/meshio/abaqus/_abaqus.py", "src/meshio/nastran/_nastran.py", "src/meshio/avsucd/_avsucd.py"]}
{"id": "C32", "title": "Gmsh data sections round trip", "statement": "Point and cell data with 1, 3 or 9 components written to $NodeData/$ElementData are read back with the same values per point/cell; other component counts raise WriteError.", "quantifier": "all data arrays", "why_tests_cant": "all sizes and widths", "anchors": ["src/meshio/gmsh/common.py:_write_data", "src/meshio/gmsh/common.py:_read_data"]}
{"id": "C33", "title": "Abaqus elements and sets round trip", "statement": "Nodes, elements and node/element sets written to an Abaqus file are read back with the same connectivity, and each set contains the same points/cells; wrongly sized element records raise ReadError; GENERATE expands to the inclusive stepped range.", "quantifier": "all meshes and sets", "why_tests_cant": "all sizes, sets over several blocks", "anchors": ["src/meshio/abaqus/_abaqus.py"]}
{"id": "C34", "title": "Nastran bulk data round trip", "statement": "Points and cells written in any of the supported point/cell formats are read back with the same connectivity and node order, including cells continued over several lines.", "quantifier": "all meshes and format choices", "why_tests_cant": "all sizes and formats", "anchors": ["src/meshio/nastran/_nastran.py"]}
{"id": "C35", "title": "FLAC3D zones are written right-handed and read back", "statement": "A zone with positive orientation is read back with the same node order, a zone with negative orientation is written as the mirrored zone, and groups contain the same cells after a round trip; writing does not change the user's mesh.", "quantifier": "all zones, all coordinates, all groups", "why_tests_cant": "all geometry", "anchors": ["src/meshio/flac3d/_flac3d.py"]}
{"id": "C36", "title": "Medit files are well linked and round trip", "statement": "In a binary Medit file every section's position field is the byte offset of the next section, the last keyword is End, and reading returns the same points, cells and references; unknown versions, dimensions and keywords are rejected.", "quantifier": "all meshes", "why_tests_cant": "all sizes", "anchors": ["src/meshio/medit/_medit.py"]}
{"id": "C37", "title": "Netgen round trip", "statement": "Writing a mesh to .vol and reading it back yields all cells with node order and region index preserved, blocks grouped by dimension (2,3,1,0).", "quantifier": "all meshes over supported types", "why_tests_cant": "all block sequences", "anchors": ["src/meshio/netgen/_netgen.py"]}
{"id": "C38", "title": "Tecplot zone describes its data", "statement": "A written Tecplot zone declares the number of nodes and cells that follow, its variable locations mark exactly the cell variables, every cell is expanded to the fixed number of nodes without inventing new nodes, and the reader returns the same points, cells and variables.", "quantifier": "all meshes", "why_tests_cant": "all mixtures of types and data", "anchors": ["src/meshio/tecplot/_tecplot.py"]}
{"id": "C39", "title": "ANSYS sections round trip", "statement": "Points and cells written to an ANSYS msh file (hexadecimal counts, 1-based node numbers) are read back block by block unchanged, in ASCII and binary.", "quantifier": "all meshes of supported types", "why_tests_cant": "all sizes", "anchors": ["src/meshio/ansys/_ansys.py"]}
{"id": "C40", "title": "XDMF mixed topology round trip", "statement": "A mesh with several blocks written as a Mixed topology is read back with the same cells in order (adjacent equal-type blocks fused), and the declared dimension equals the number of integers written.", "quantifier": "all block lists", "why_tests_cant": "all block sequences", "anchors": ["src/meshio/xdmf/common.py:translate_mixed_cells", "src/meshio/xdmf/main.py:XdmfWriter.write_cells"]}
{"id": "C41", "title": "XDMF time series keeps every step", "statement": "For any sequence of write_points_cells and write_data calls, the reader sees exactly the written steps in order with their time values and data; writing data before the mesh raises WriteError; data sets stored in the heavy-data file never overwrite each other.", "quantifier": "all call sequences", "why_tests_cant": "unbounded histories", "anchors": ["src/meshio/xdmf/time_series.py"]}
{"id": "C42", "title": "Exodus vector components are assembled exactly once", "statement": "When nodal variables are combined to vectors, every stored variable is used exactly once, and X/Y/Z triples are formed whenever all three names are present.", "quantifier": "all lists of variable names", "why_tests_cant": "all orders of names", "anchors": ["src/meshio/exodus/_exodus.py:categorize"]}
{"id": "C43", "title": "MED Fortran-order storage round trip", "statement": "Coordinates and connectivity flattened column-wise with 1-based numbers are restored exactly; two blocks of one type raise WriteError.", "quantifier": "all array shapes", "why_tests_cant": "all shapes", "anchors": ["src/meshio/med/_med.py"]}
{"id": "C44", "title": "UGRID sections round trip", "statement": "For a mesh with at most one block per supported type, the UGRID writer and reader preserve points, cells (node order included) and boundary tags, and the seven-count header equals the section sizes.", "quantifier": "all such meshes", "why_tests_cant": "all sizes", "anchors": ["src/meshio/ugrid/_ugrid.py"]}
{"id": "C45", "title": "AVS-UCD round trip", "statement": "Cells with material ids and node/cell data written to AVS-UCD are read back with the same cells (adjacent equal-type blocks fused), materials and data.", "quantifier": "all meshes", "why_tests_cant": "all sizes", "anchors": ["src/meshio/avsucd/_avsucd.py"]}
{"id": "C46", "title": "WKT TIN round trip", "statement": "Reading the WKT text of a triangle mesh yields triangles with the same corner coordinates in order, equal corners shared; unclosed or malformed polygons raise ReadError.", "quantifier": "all triangle meshes", "why_tests_cant": "all sizes", "anchors": ["src/meshio/wkt/_wkt.py"]}
{"id": "C47", "title": "SU2 element streams", "statement": "SU2 element lines of mixed types are grouped by type with all cells preserved in order, and boundary markers attach their tag to exactly their elements.", "quantifier": "all element sequences", "why_tests_cant": "all sequences", "anchors": ["src/meshio/su2/_su2.py"]}
{"id": "C48", "title": "The CLI info check finds exactly the out-of-range meshes", "statement": "meshio info reports an inconsistent mesh if and only if some cell refers to a point index that does not exist.", "quantifier": "all meshes", "why_tests_cant": "all index values", "anchors": ["src/meshio/_cli/_info.py"]}
{"id": "C49", "title": "MDPA and PERMAS entity names are recognised", "statement": "The entity name written for a cell type is recognised by the reader as the same type, for 2D and 3D meshes.", "quantifier": "all types, both dimensions", "why_tests_cant": "table-wide", "anchors": ["src/meshio/mdpa/_mdpa.py", "src/meshio/permas/_permas.py"]}
{"id": "C50", "title": "Writers do not modify the mesh they are given", "statement": "After a write the caller's mesh has the same points, cells and data as before.", "quantifier": "all meshes and formats", "why_tests_cant": "all meshes", "anchors": ["src/meshio/vtk/_vtk_42.py:write", "src/meshio/ply/_ply.py:write", "src/meshio/flac3d/_flac3d.py:split_f_z", "src/meshio/avsucd/_avsucd.py:write"]}
{"id": "C51", "title": "Compressed VTU chunking covers the data", "statement": "The chunks a compressed VTU array is cut into are non-empty, at most the block size, all but the last of full size, and concatenate to the data; the header lists their number, the full size, the last size and each compressed size.", "quantifier": "all byte lengths", "why_tests_cant": "all lengths", "anchors": ["src/meshio/vtu/_vtu.py:_chunk_it", "src/meshio/vtu/_vtu.py:write"]}
{"id": "C52", "title": "HMF round trip", "statement": "A mesh with several blocks written to HMF is read back with the same blocks in the same order and the same cell data per block.", "quantifier": "all meshes", "why_tests_cant": "all block lists", "anchors": ["src/meshio/hmf/_hmf.py"]}
{"id": "C53", "title": "VTU cell arrays round trip", "statement": "The connectivity, offsets and types arrays written to a VTU file for a list of cell blocks conform to the VTK convention (end positions, VTK node order, VTK codes) and are read back as the same cells in the same order with the same cell data per cell.", "quantifier": "all lists of blocks of supported types", "why_tests_cant": "all block lists and sizes, empty blocks included", "anchors": ["src/meshio/vtu/_vtu.py:write", "src/meshio/vtu/_vtu.py:VtuReader", "src/meshio/_vtk_common.py:vtk_cells_from_data"]}
{"id": "C54", "title": "Raw appended VTU data stay with their arrays", "statement": "When a VTU file with raw appended data is read, every DataArray receives exactly the bytes stored at its own offset.", "quantifier": "all lists of arrays, both header widths, with or without compression", "why_tests_cant": "depends on the arithmetic relation between all array sizes", "anchors": ["src/meshio/vtu/_vtu.py:_parse_raw_binary"]}
{"id": "C55", "title": "Single-integer formats keep the first integer array and report the others", "statement": "Formats with room for one integer label per entity keep the first integer-valued data array and name all remaining arrays in the warning; no array is dropped without being named.", "quantifier": "all data dictionaries", "why_tests_cant": "all key orders and dtypes", "anchors": ["src/meshio/_common.py:_pick_first_int_data"]}
{"id": "C56", "title": "Exodus files give back what was written, under the right names", "statement": "Points, cell blocks, point data and point sets written to an Exodus file are read back exactly, in order and under their names; cell data stored per block by other programs is returned for the right block and variable.", "quantifier": "all meshes with Exodus cell types, all numbers of blocks, variables and sets", "why_tests_cant": "names, numbering and block layout interact; the number of variables and blocks is unbounded", "anchors": ["src/meshio/exodus/_exodus.py:read", "src/meshio/exodus/_exodus.py:write", "src/meshio/exodus/_exodus.py:categorize"]}
{"id": "C57", "title": "An XDMF file gives back the whole mesh in each data format", "statement": "For data_format XML, Binary and HDF: points, cells, point data and cell data written by write are what read returns, with value type and shape; adjacent blocks of one type in a mixed mesh are fused and cell data is cut accordingly.", "quantifier": "all meshes with two or three coordinates, all supported value types and data shapes, all numbers of blocks and data sets, all three formats, any files already present", "why_tests_cant": "several data sets share numbered heavy files; number and shapes are unbounded and the three formats go through different code", "anchors": ["src/meshio/xdmf/main.py:XdmfReader", "src/meshio/xdmf/main.py:XdmfWriter"]}
{"id": "C58", "title": "MDPA files say what the mesh says and are read back", "statement": "A written MDPA file lists the nodes numbered from one, a section per block with the entity name of its type and the mesh dimension, cells numbered consecutively across blocks and a table per data array; reading it gives back the points (2D padded) and the cells, with adjacent blocks of one type fused. Any well-formed file is read as what it says; unknown cell types are refused.", "quantifier": "all meshes with MDPA cell types, all numbers of blocks and data arrays; all well-formed files", "why_tests_cant": "unbounded numbers of nodes, blocks and data; section names are recognised by substring search that could hit any line", "anchors": ["src/meshio/mdpa/_mdpa.py:read_buffer", "src/meshio/mdpa/_mdpa.py:write"]}
{"id": "C59", "title": "PERMAS files say what the mesh says and are read back", "statement": "A written PERMAS file lists nodes numbered from one and a section per block with the element name of its type; reading gives back the same points (2D padded) and the same blocks with the same node order. Any well-formed file, with any distinct node numbers, is read as what it says; unknown types are refused.", "quantifier": "all meshes with PERMAS cell types; all well-formed files", "why_tests_cant": "all node numberings, block counts and orders of sections", "anchors": ["src/meshio/permas/_permas.py:read_buffer", "src/meshio/permas/_permas.py:write"]}
{"id": "C60", "title": "Gmsh 4.1 files are read as the mesh they describe", "statement": "Any well-formed Gmsh 4.1 file, text or binary with size_t of 1, 2, 4 or 8 bytes, any white space between numbers in text files, any distinct positive node numbers spread over any entity blocks, with or without an Entities section, with names, periodic links, data and unknown sections, is read as the mesh it describes: blocks of cells connected to the points carrying the listed numbers, tags of their entities, named sets from all physical tags, boundaries. Files without elements, with elements before the nodes, with parametric nodes, with unknown element types, with empty element blocks or with elements of an entity that is not listed are refused.", "quantifier": "all well-formed files with all numbers of entities, node blocks, element blocks and sections; both modes and all data sizes", "why_tests_cant": "unbounded numbers of entities and blocks with cross references by number; text and binary share one tokenizing reader", "anchors": ["src/meshio/gmsh/_gmsh41.py:read_buffer", "src/meshio/gmsh/_gmsh41.py:_read_entities", "src/meshio/gmsh/_gmsh41.py:_read_nodes", "src/meshio/gmsh/_gmsh41.py:_read_elements", "src/meshio/gmsh/_gmsh41.py:_read_periodic"]}
{"id": "C61", "title": "Gmsh 4.1 files say what the mesh says and are read back", "statement": "A written Gmsh 4.1 file lists the entities of the nodes with the physical tag and the boundary of the block on them, the nodes entity by entity, the elements block by block numbered from one, periodic links, names and data; reading it gives back the same mesh up to the order of the nodes, which are sorted by entity: points, cells, tags, entities, boundaries, names, sets, cell data, point data and periodic links. Meshes that cannot be expressed (several blocks without entities, wrong dimensions, missing tags) are refused, and whatever is written can be read.", "quantifier": "all meshes with Gmsh cell types and constant tags per block; text and binary", "why_tests_cant": "unbounded numbers of nodes, entities and blocks in all orders; the reordering of nodes has to be applied to everything that refers to them", "anchors": ["src/meshio/gmsh/_gmsh41.py:write", "src/meshio/gmsh/_gmsh41.py:_write_entities", "src/meshio/gmsh/_gmsh41.py:_write_nodes", "src/meshio/gmsh/_gmsh41.py:_write_elements", "src/meshio/gmsh/_gmsh41.py:_write_periodic"]}
{"id": "C62", "title": "Legacy VTK files are read as the mesh they describe", "statement": "Any well-formed legacy VTK file, of version 5.1 or older, as text with any white space or in binary, keywords in any case, with blank lines, metadata, fields, scalars, vectors, tensors, lookup tables and color scalars in any order, is read as the mesh it describes: unstructured grids with the cells in blocks, points, point and cell data; structured grids, rectilinear grids and structured points (older versions) with all their points and cells. Files with another first line, another word than ASCII or BINARY, another data set or an unknown section are refused.", "quantifier": "all files in the grammar: all numbers and orders of sections, points, cells and arrays; both modes and versions", "why_tests_cant": "unbounded files, with text, bytes and keywords mixed; all splits of numbers over lines", "anchors": ["src/meshio/vtk/_main.py:read_buffer", "src/meshio/vtk/_vtk_42.py:read", "src/meshio/vtk/_vtk_42.py:_read_section", "src/meshio/vtk/_vtk_42.py:_read_subsection", "src/meshio/vtk/_vtk_51.py:read", "src/meshio/vtk/_vtk_51.py:_read_section"]}
{"id": "C63", "title": "Legacy VTK files say what the mesh says and are read back", "statement": "A written legacy VTK file, of version 4.2 or 5.1, as text or in binary, lists the points (in space), the cells with their types, and all point and cell data; reading it gives back the same mesh, with neighbouring blocks of the same type and width as one. The format name tells the version written. Names with blanks, cell types without number and number types VTK does not know are refused.", "quantifier": "all meshes with cells VTK knows and data with one or two axes; both versions and modes", "why_tests_cant": "unbounded meshes; every array's length, type and position decides how the bytes after it are read", "anchors": ["src/meshio/vtk/_vtk_42.py:write", "src/meshio/vtk/_vtk_51.py:write", "src/meshio/vtk/_vtk_51.py:_write_cells", "src/meshio/vtk/_main.py:register_format"]}
{"id": "C64", "title": "The XML writer writes documents that mean what was given", "statement": "A document written by the XML writer of meshio (element names, attributes, texts, comments, nested to any depth), read by an XML parser, has exactly the given elements, attribute values and texts.", "quantifier": "all element trees with any names, attribute values, texts and comments", "why_tests_cant": "values come from user-chosen names of data arrays; any character can occur in them", "anchors": ["src/meshio/_cxml/etree.py:Element", "src/meshio/_cxml/etree.py:ElementTree", "src/meshio/_cxml/etree.py:Comment"]}
{"id": "C65", "title": "VTU files are read as the mesh they describe", "statement": "Any well-formed VTU file, with numbers as text, base64, compressed base64 or appended base64 in either byte order and with any header type, sections in any order, one or more pieces, polyhedra, point, cell and field data, is read as the mesh it describes: all points, all cells with their nodes, all data with types and shapes. Other documents, unknown versions, byte orders, compressors and number types, wrong counts and corrupt arrays are refused; corrupt point data are left out.", "quantifier": "all files in the grammar: all numbers of pieces, sections, arrays, cells and compressed blocks", "why_tests_cant": "unbounded files, nested encodings with lengths in headers, several interacting attributes", "anchors": ["src/meshio/vtu/_vtu.py:VtuReader", "src/meshio/vtu/_vtu.py:get_grid", "src/meshio/vtu/_vtu.py:read"]}
{"id": "C66", "title": "VTU files hold the mesh that is written and give it back", "statement": "Writing a mesh (ordinary cells of any types, or polyhedra, with point and cell data of any of the number types of VTU) as a VTU file, as text, base64 or compressed, gives a document that says exactly that mesh: points in space, nodes in VTK's order, end positions, type numbers, data with types and numbers of components. Reading it, on a machine of any byte order, gives the mesh back. What the writer cannot express it refuses.", "quantifier": "all meshes with any numbers of points, blocks, cells and arrays, all options, all versions of meshio, byte orders of the writing and of the reading machine", "why_tests_cant": "unbounded meshes, block sizes of the compressor, all combinations of options and types; user-chosen names in XML", "anchors": ["src/meshio/vtu/_vtu.py:write", "src/meshio/vtu/_vtu.py:_polyhedron_cells_from_data", "src/meshio/_cxml/etree.py:Element"]}
{"id": "C67", "title": "DOLFIN XML files are read as what they say", "statement": "Reading a DOLFIN XML file gives the points and cells with the numbers the elements carry, whatever the order of the elements and whatever foreign elements are in between, and as cell data what the files `<name>_<data>.xml` of the same directory say. Elements out of order, unknown cell types and indices out of range are errors.", "quantifier": "all documents with any numbers of vertices and cells in any order, all directories with any other files in any order", "why_tests_cant": "unbounded documents and directories; what is in a directory depends on its history", "anchors": ["src/meshio/dolfin/_dolfin.py:read", "src/meshio/dolfin/_dolfin.py:_read_mesh", "src/meshio/dolfin/_dolfin.py:_read_cell_data"]}
{"id": "C68", "title": "DOLFIN XML files hold the mesh that is written and give it back", "statement": "Writing a mesh as DOLFIN XML gives a document with its points and all its tetrahedra, or if there are none all its triangles, and one file per array of cell data; reading it, from a directory that lists its files in any order, gives them back. Meshes without such cells, points of other dimensions and data that are no numbers are refused.", "quantifier": "all meshes with any numbers of points, blocks, cells and arrays, all directories that are written into", "why_tests_cant": "unbounded meshes, any earlier contents of the directory and any order in which it is listed", "anchors": ["src/meshio/dolfin/_dolfin.py:write", "src/meshio/dolfin/_dolfin.py:_write_mesh", "src/meshio/dolfin/_dolfin.py:_write_cell_data"]}
{"id": "C69", "title": "The in-place command line tools keep the file's format and touch only what they can rewrite", "statement": "`meshio compress`, `decompress`, `ascii` and `binary` write the mesh they have read back to the same file once, in the format of the file, with the options that the command stands for; the writer takes these options. A file that is missing, cannot be read or has a format the command does not know is left alone, and the command does not succeed.", "quantifier": "all file names, all formats that may be registered, whatever the readers make of the contents, all meshes", "why_tests_cant": "the choice of the format depends on file names and on what each reader does with any contents; the set of formats can be extended by users", "anchors": ["src/meshio/_cli/_compress.py:compress", "src/meshio/_cli/_decompress.py:decompress", "src/meshio/_cli/_ascii.py:ascii", "src/meshio/_cli/_binary.py:binary"]}
{"id": "C70", "title": "convert writes the mesh it reads", "statement": "`meshio convert` writes the mesh that the input file holds, unchanged unless sets are to be converted, once, in the output format given or belonging to the name of the output file, with the text options given. If reading or converting fails nothing is written.", "quantifier": "all meshes, names, registered formats and options", "why_tests_cant": "the behaviour is a composition of any reader, any writer and conversions on any mesh; iteration over a dictionary while it changes", "anchors": ["src/meshio/_cli/_convert.py:convert", "src/meshio/_cli/_convert.py:add_args"]}
{"id": "C71", "title": "An SVG picture shows every line, triangle and quadrilateral of a flat mesh", "statement": "Writing a flat mesh as SVG gives a well formed document with one path per line, triangle and quadrilateral, in the order of the mesh, through the corners of the cell and closed for triangles and quadrilaterals. The picture is the mesh upside down, scaled by one positive factor; all points lie in the view box, which is as small as possible and has the width asked for. A mesh that is not flat and a drawn cell whose corners do not exist are refused.", "quantifier": "all flat meshes, options and formats of numbers; the geometry for all rational coordinates", "why_tests_cant": "the statement is about every set of points and every mixture of cells; extreme coordinates are attained for some point of any mesh", "anchors": ["src/meshio/svg/_svg.py:write"]}
{"id": "C72", "title": "CGNS files hold points in space and one block of tetrahedra", "statement": "Writing a mesh of points in space with one non-empty block of tetrahedra as CGNS gives a file that says these points and tetrahedra (nodes counted from 1), and reading it gives them back. Reading any file that holds such arrays gives what it says, whatever else it holds; files with other cells and files without a base or a zone are refused. Meshes with two blocks of tetrahedra are refused; meshes without tetrahedra give a file that cannot be read.", "quantifier": "all points, connectivities and other members of a file; all meshes", "why_tests_cant": "the statement is about every connectivity and every tree of groups in a file", "anchors": ["src/meshio/cgns/_cgns.py:read", "src/meshio/cgns/_cgns.py:write"]}
{"id": "C73", "title": "H5M files number points and cells without gaps and give lines, triangles and tetrahedra back", "statement": "Writing a mesh as H5M gives one group for each line, triangle and tetrahedron block, with the number of the element type that MOAB defines, nodes counted from 1 and ranges of numbers of points and cells that follow each other without gaps up to max_id; point data and numbers of the points are tags. Reading gives the points, these blocks (ordered by the names of their groups) and the tags back. Reading any file with groups of the seven known kinds gives one block per group. Cell data, two blocks of one type, arrays with more than two axes and groups of unknown elements are errors.", "quantifier": "all meshes and all H5M files (of the modelled structure)", "why_tests_cant": "ranges of numbers depend on the sizes of all blocks, and the order of blocks on the names of all groups", "anchors": ["src/meshio/h5m/_h5m.py:read", "src/meshio/h5m/_h5m.py:write"]}
{"id": "C74", "title": "Reading a Gmsh 4.0 file gives the mesh that it describes", "statement": "Reading any text or binary file of version 4.0 that gives a description (entities, nodes in blocks with any distinct numbers, elements in blocks, links between periodic entities, names, data, unknown sections) gives the points in the order in which they are listed, the blocks of cells connected to the points that carry the listed numbers, physical and geometrical tags per block, links, names and data. Files with a line between sections, without elements, with elements before nodes, with blocks without elements, with unknown types or with entities that are not listed are refused.", "quantifier": "all files of version 4.0, in text and binary form, all node numbers and all numbers of blocks", "why_tests_cant": "node numbers may be any distinct numbers in any order, blocks may be spread in any way, and white space may be placed freely", "anchors": ["src/meshio/gmsh/_gmsh40.py:read_buffer", "src/meshio/gmsh/_gmsh40.py:_read_entities", "src/meshio/gmsh/_gmsh40.py:_read_nodes", "src/meshio/gmsh/_gmsh40.py:_read_elements", "src/meshio/gmsh/_gmsh40.py:_read_periodic"]}
{"id": "C75", "title": "Gmsh 4.0 files hold the mesh that is written and give it back", "statement": "Writing a mesh as Gmsh 4.0, in text or binary form, gives a file that holds its points (with a third coordinate), its blocks of cells in order, its links, names and data; reading it gives them back. Cells of types that Gmsh does not have are refused.", "quantifier": "all meshes with blocks of known types, one number of components per array, any names without quotation marks or line breaks", "why_tests_cant": "the statement is about every mesh, and the numbers in the file depend on the sizes of all blocks", "anchors": ["src/meshio/gmsh/_gmsh40.py:write", "src/meshio/gmsh/_gmsh40.py:_write_nodes", "src/meshio/gmsh/_gmsh40.py:_write_elements", "src/meshio/gmsh/_gmsh40.py:_write_periodic"]}
{"id": "C76", "title": "XDMF files are XML documents that hold the mesh and give it back", "statement": "Writing a mesh as XDMF, with the numbers in the document, in binary files or in an HDF5 file, gives an XML document of version 3.0 with one domain and one grid that names the points, the cells (with their type and numbers), the point data and the cell data in order, each with number type, precision, dimensions and format. Names may have any characters but line ends and tabs. Reading the document gives the mesh back, several blocks of cells fused to runs of one type.", "quantifier": "all meshes with two or three coordinates, any number types, names and formats, whatever files were there before", "why_tests_cant": "names with markup characters, any shapes and any mixture of cell types can occur", "anchors": ["src/meshio/xdmf/main.py:XdmfWriter", "src/meshio/xdmf/main.py:XdmfReader.read", "src/meshio/xdmf/main.py:_read_data_item", "src/meshio/xdmf/main.py:read_xdmf3"]}
{"id": "C77", "title": "XDMF documents of version 2 and 3 are read alike, and others are refused", "statement": "Every file that is read is a document with root Xdmf, version 2 or 3, one domain with one grid with only Topology, Geometry, Information and Attribute elements, each with one data item that is no reference; its data has one row per point or cell. Other roots, versions and numbers of domains and grids are refused with the errors given. A grid that both versions describe alike is read alike in both. A Mixed topology of version 2 gives the cells in order; field data is read from Information elements.", "quantifier": "all XML documents", "why_tests_cant": "the claim is about every document, valid or not", "anchors": ["src/meshio/xdmf/main.py:XdmfReader.read", "src/meshio/xdmf/main.py:read_xdmf2", "src/meshio/xdmf/main.py:read_xdmf3", "src/meshio/xdmf/main.py:read_information", "src/meshio/xdmf/main.py:_read_data_item"]}
{"id": "C78", "title": "XDMF time series are XML documents that hold all steps and the mesh", "statement": "The file a time series writer leaves is an XML document of version 3.0 with one temporal collection with one grid per write_data call, in order, with its time and its data by name, and one uniform grid per mesh. Every step and the last mesh are read back from the text. Exactly the documents of version 3 with one domain, a temporal collection and a uniform grid can be opened, and all others are refused. The reader of time series refuses the files of single meshes, and meshio.read refuses time series.", "quantifier": "all histories of calls, all three formats, all XML documents", "why_tests_cant": "any number of steps, names with markup characters and any documents can occur", "anchors": ["src/meshio/xdmf/time_series.py:TimeSeriesReader", "src/meshio/xdmf/time_series.py:TimeSeriesWriter"]}
