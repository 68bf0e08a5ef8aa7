{
 "claims": [
  {
   "property": "C01",
   "status": "proved",
   "theorems": [
    "Meshio.Props.C01_accepts_iff",
    "Meshio.Props.C01_result",
    "Meshio.Props.C01_consistent",
    "Meshio.Props.C01_error_kind"
   ],
   "note": ""
  },
  {
   "property": "C02",
   "status": "partial",
   "theorems": [
    "Meshio.Props.C02_false",
    "Meshio.Props.C02_step",
    "Meshio.Props.C02_history_partial"
   ],
   "note": "False in full (C02_false): the constructor does not check cell sets, and cell_sets_to_data then yields too few arrays. Proved for meshes whose sets have one member list per block."
  },
  {
   "property": "C03",
   "status": "proved",
   "theorems": [
    "Meshio.Props.C03_cells_dict",
    "Meshio.Props.C03_cells_dict_keys",
    "Meshio.Props.C03_cells_dict_ok_iff",
    "Meshio.Props.C03_get_cells_type",
    "Meshio.Props.C03_get_cells_type_eq_dict",
    "Meshio.Props.C03_data_aligned",
    "Meshio.Props.C03_get_cell_data"
   ],
   "note": ""
  },
  {
   "property": "C04",
   "status": "partial",
   "theorems": [
    "Meshio.Props.C04_false",
    "Meshio.Props.C04_cell_sets_dict_partial"
   ],
   "note": "False in full (C04_false): a member list that is None makes the view raise. Proved for sets without None."
  },
  {
   "property": "C05",
   "status": "proved",
   "theorems": [
    "Meshio.Props.C05_tags",
    "Meshio.Props.C05_succeeds_iff",
    "Meshio.Props.C05_no_sets"
   ],
   "note": ""
  },
  {
   "property": "C06",
   "status": "proved",
   "theorems": [
    "Meshio.Props.C06_roundtrip",
    "Meshio.Props.C06_uncovered_mislabels",
    "Meshio.Props.C06_data_to_sets"
   ],
   "note": ""
  },
  {
   "property": "C07",
   "status": "partial",
   "theorems": [
    "Meshio.Props.C07_tags",
    "Meshio.Props.C07_succeeds_iff",
    "Meshio.Props.C07_data_to_sets",
    "Meshio.Props.C07_roundtrip",
    "Meshio.Props.C07_no_set_lost_false"
   ],
   "note": "Tags, data->sets and the round trip are proved. The clause that no set is lost when several arrays are converted is false of the code (C07_no_set_lost_false): the alternative name contains the literal word 'key'."
  },
  {
   "property": "C08",
   "status": "proved",
   "theorems": [
    "Meshio.Props.C08_candidates",
    "Meshio.Props.C08_registration_order",
    "Meshio.Props.C08_reader",
    "Meshio.Props.C08_writer",
    "Meshio.Props.C08_deregister",
    "Meshio.Props.C08_double_registration_false"
   ],
   "note": "C08_double_registration_false: list.remove drops only one occurrence, so a format registered twice for one extension stays a candidate after deregistration; C08_deregister states exactly what holds."
  },
  {
   "property": "C09",
   "status": "proved",
   "theorems": [
    "Meshio.Props.C09_deduction",
    "Meshio.Props.C09_nonempty",
    "Meshio.Props.C09_case_insensitive"
   ],
   "note": ""
  },
  {
   "property": "C10",
   "status": "proved",
   "theorems": [
    "Meshio.Props.C10_read_path",
    "Meshio.Props.C10_missing_file",
    "Meshio.Props.C10_explicit_format",
    "Meshio.Props.C10_no_candidates",
    "Meshio.Props.C10_buffer"
   ],
   "note": ""
  },
  {
   "property": "C11",
   "status": "partial",
   "theorems": [
    "Meshio.Props.C11_calls_iff",
    "Meshio.Props.C11_result",
    "Meshio.Props.C11_error_false",
    "Meshio.Props.C11_error_partial",
    "Meshio.Props.C11_write_points_cells"
   ],
   "note": "The clause that a rejected call raises WriteError is false in full (C11_error_false): an unknown extension raises ReadError and a one-dimensional block IndexError. C11_calls_iff (writer is called iff the format is known and all blocks have the right width) is proved in full."
  },
  {
   "property": "C12",
   "status": "proved",
   "theorems": [
    "Meshio.Props.C12_split_of_concat",
    "Meshio.Props.C12_concat_of_split",
    "Meshio.Props.C12_raw_rows",
    "Meshio.Props.C12_no_blocks_false"
   ],
   "note": "C12_no_blocks_false records that zero blocks give one piece."
  },
  {
   "property": "C13",
   "status": "proved",
   "theorems": [
    "Meshio.Props.C13_join_split",
    "Meshio.Props.C13_fails_iff"
   ],
   "note": ""
  },
  {
   "property": "C14",
   "status": "proved",
   "theorems": [
    "Meshio.Props.C14_replace_space",
    "Meshio.Props.C14_fails_iff"
   ],
   "note": ""
  },
  {
   "property": "C15",
   "status": "partial",
   "theorems": [
    "Meshio.Props.C15_dimension_false",
    "Meshio.Props.C15_dimension_partial",
    "Meshio.Props.C15_counts",
    "Meshio.Props.C15_dimensions",
    "Meshio.Props.C15_vtk_false",
    "Meshio.Props.C15_vtk_partial",
    "Meshio.Props.C15_vtk_conforms",
    "Meshio.Props.C15_gmsh_conforms",
    "Meshio.Props.C15_gmsh_complete",
    "Meshio.Props.C15_xdmf",
    "Meshio.Props.C15_reader_counts",
    "Meshio.Props.C15_su2_total"
   ],
   "note": "False in full: four types with a node count have no topological dimension (C15_dimension_false) and six fixed-size VTK types have no node count (C15_vtk_false); the exact exceptions are in the _partial theorems. Counts, dimensions and conformance of VTK and Gmsh numbers to their manuals are proved for the whole tables."
  },
  {
   "property": "C16",
   "status": "partial",
   "theorems": [
    "Meshio.Props.C16_vtk",
    "Meshio.Props.C16_gmsh",
    "Meshio.Props.C16_xdmf_name",
    "Meshio.Props.C16_xdmf_index",
    "Meshio.Props.C16_avsucd",
    "Meshio.Props.C16_su2",
    "Meshio.Props.C16_netgen",
    "Meshio.Props.C16_medit_ascii",
    "Meshio.Props.C16_medit_binary",
    "Meshio.Props.C16_medit_binary_format",
    "Meshio.Props.C16_ansys",
    "Meshio.Props.C16_med",
    "Meshio.Props.C16_exodus",
    "Meshio.Props.C16_abaqus",
    "Meshio.Props.C16_nastran",
    "Meshio.Props.C16_permas",
    "Meshio.Props.C16_inverse_total",
    "Meshio.Props.C16_tecplot_false",
    "Meshio.Props.C16_tecplot_partial",
    "Meshio.Props.C16_flac3d_false",
    "Meshio.Props.C16_flac3d_partial"
   ],
   "note": "Proved for VTK, Gmsh, XDMF, AVS-UCD, SU2, Netgen, Medit, ANSYS, MED, Exodus, Abaqus, Nastran, PERMAS. False for Tecplot pyramids/wedges and FLAC3D second-order zones (negations proved, remaining types in _partial). MDPA is C49; UGRID, CGNS and TetGen have fixed types (C44, C28)."
  },
  {
   "property": "C17",
   "status": "partial",
   "theorems": [
    "Meshio.Props.C17_gmsh",
    "Meshio.Props.C17_gmsh_file",
    "Meshio.Props.C17_gmsh_conforms",
    "Meshio.Props.C17_vtk",
    "Meshio.Props.C17_vtk_conforms",
    "Meshio.Props.C17_ugrid",
    "Meshio.Props.C17_ugrid_conforms",
    "Meshio.Props.C17_avsucd",
    "Meshio.Props.C17_nastran",
    "Meshio.Props.C17_nastran_conforms",
    "Meshio.Props.C17_flac3d",
    "Meshio.Props.C17_netgen",
    "Meshio.Props.C17_mdpa",
    "Meshio.Props.C17_permas_false",
    "Meshio.Props.C17_permas_partial"
   ],
   "note": "Proved for Gmsh, VTK, UGRID, AVS-UCD, Nastran, FLAC3D, Netgen, MDPA with arbitrary labels. False for PERMAS (C17_permas_false): the reader does not undo the writer's order for four types."
  },
  {
   "property": "C18",
   "status": "proved",
   "theorems": [
    "Meshio.Props.C18_decode",
    "Meshio.Props.C18_cells_in_order",
    "Meshio.Props.C18_data_in_order",
    "Meshio.Props.C18_data_shape",
    "Meshio.Props.C18_runs_maximal",
    "Meshio.Props.C18_runs_uniform",
    "Meshio.Props.C18_length_mismatch",
    "Meshio.Props.C18_empty"
   ],
   "note": "The decoder fails with IndexError on a file without cells (C18_empty); proved for every non-empty list of readable cells."
  },
  {
   "property": "C19",
   "status": "partial",
   "theorems": [
    "Meshio.Props.C19_read42",
    "Meshio.Props.C19_write42",
    "Meshio.Props.C19_false",
    "Meshio.Props.C19_roundtrip42_partial",
    "Meshio.Props.C19_polygons42_partial",
    "Meshio.Props.C19_roundtrip51",
    "Meshio.Props.C19_empty_block51",
    "Meshio.Props.C19_fuse_rows",
    "Meshio.Props.C19_fuse_data"
   ],
   "note": "False as stated for version 4.2 (cell data dropped when a polygon is present; C19_false). Proved: full round trip for fixed-size types in 4.2, cells-only with polygons, full round trip in 5.1 for non-empty blocks."
  },
  {
   "property": "C20",
   "status": "proved",
   "theorems": [
    "Meshio.Props.C20_cells",
    "Meshio.Props.C20_single_point",
    "Meshio.Props.C20_count",
    "Meshio.Props.C20_in_range",
    "Meshio.Props.C20_distinct",
    "Meshio.Props.C20_points",
    "Meshio.Props.C20_points_count"
   ],
   "note": "A grid with a single point raises IndexError (C20_single_point); everything else is proved."
  },
  {
   "property": "C21",
   "status": "partial",
   "theorems": [
    "Meshio.Props.C21_last_piece",
    "Meshio.Props.C21_false",
    "Meshio.Props.C21_single_partial",
    "Meshio.Props.C21_points",
    "Meshio.Props.C21_point_data"
   ],
   "note": "False in full (C21_false): only the last piece's cells and cell data survive. C21_last_piece states exactly what is read for any number of pieces; points and point data are concatenated (C21_points, C21_point_data); a single piece is read completely (C21_single_partial)."
  },
  {
   "property": "C22",
   "status": "partial",
   "theorems": [
    "Meshio.Props.C22_uncompressed",
    "Meshio.Props.C22_separate_header",
    "Meshio.Props.C22_uncompressed_text",
    "Meshio.Props.C22_compressed_false",
    "Meshio.Props.C22_compressed_empty",
    "Meshio.Props.C22_compressed_partial"
   ],
   "note": "Uncompressed arrays proved for all sizes, header widths, byte orders, both header layouts. The compressed form is false for the empty array (C22_compressed_false) and proved for every non-empty one; the compressor is any function with a left inverse."
  },
  {
   "property": "C23",
   "status": "partial",
   "theorems": [
    "Meshio.Props.C23_read",
    "Meshio.Props.C23_false",
    "Meshio.Props.C23_ascending_partial",
    "Meshio.Props.C23_complete"
   ],
   "note": "False in full (C23_false): cell data blocks are ordered by node count, cells by first appearance. C23_read gives exactly what is read; the full property is proved when node counts appear in ascending order."
  },
  {
   "property": "C24",
   "status": "partial",
   "theorems": [
    "Meshio.Props.C24_file",
    "Meshio.Props.C24_roundtrip",
    "Meshio.Props.C24_roundtrip_2d",
    "Meshio.Props.C24_bad_header",
    "Meshio.Props.C24_bad_face_partial",
    "Meshio.Props.C24_bad_face_false",
    "Meshio.Props.C24_accepted",
    "Meshio.Props.C24_no_counts"
   ],
   "note": "A face line with fewer than four numbers raises ValueError instead of ReadError; a file without a counts line makes the reader loop forever (C24_no_counts). Float formatting is a parameter with parse(fmt x) = x."
  },
  {
   "property": "C25",
   "status": "partial",
   "theorems": [
    "Meshio.Props.C25_ascii_file",
    "Meshio.Props.C25_ascii",
    "Meshio.Props.C25_binary_file",
    "Meshio.Props.C25_binary_size",
    "Meshio.Props.C25_detect",
    "Meshio.Props.C25_binary",
    "Meshio.Props.C25_text_not_binary",
    "Meshio.Props.C25_text",
    "Meshio.Props.C25_facets",
    "Meshio.Props.C25_short_false",
    "Meshio.Props.C25_blank_false",
    "Meshio.Props.C25_rejects_rows"
   ],
   "note": "Round trips proved for text and binary files; text is never taken for binary below 8 GB with exact size arithmetic (NumPy 2 computes the size modulo 2^32, then C25_detect says when). False parts: files of 80 to 83 bytes raise IndexError (C25_short_false), a blank last line raises ValueError (C25_blank_false)."
  },
  {
   "property": "C26",
   "status": "partial",
   "theorems": [
    "Meshio.Props.C26_file",
    "Meshio.Props.C26_reads",
    "Meshio.Props.C26_roundtrip",
    "Meshio.Props.C26_size",
    "Meshio.Props.C26_accepted",
    "Meshio.Props.C26_missing_false",
    "Meshio.Props.C26_missing_partial",
    "Meshio.Props.C26_plane_false",
    "Meshio.Props.C26_count_limit"
   ],
   "note": "False as stated: vertex number equal to the number of vertices is accepted, 2D points are written to a file that means something else."
  },
  {
   "property": "C27",
   "status": "partial",
   "theorems": [
    "Meshio.Props.C27_roundtrip",
    "Meshio.Props.C27_types",
    "Meshio.Props.C27_faces",
    "Meshio.Props.C27_slash",
    "Meshio.Props.C27_other_types",
    "Meshio.Props.C27_texture_false"
   ],
   "note": "Round trip and grouping proved for 3D points. False part: a file whose number of texture coordinates or normals differs from the number of points raises ValueError (C27_texture_false)."
  },
  {
   "property": "C28",
   "status": "partial",
   "theorems": [
    "Meshio.Props.C28_nodes",
    "Meshio.Props.C28_elements",
    "Meshio.Props.C28_base",
    "Meshio.Props.C28_nonconsecutive",
    "Meshio.Props.C28_all_point_data",
    "Meshio.Props.C28_all_cell_data",
    "Meshio.Props.C28_roundtrip_partial",
    "Meshio.Props.C28_dim",
    "Meshio.Props.C28_blocks_false",
    "Meshio.Props.C28_empty_false",
    "Meshio.Props.C28_rejects_write",
    "Meshio.Props.C28_rejects_read",
    "Meshio.Props.C28_marker_choice",
    "Meshio.Props.C28_names"
   ],
   "note": "Readers proved for any base and any comments; the round trip is proved for one tetra block. A second tetra block is written but never read (C28_blocks_false); a mesh without points is written but not readable (C28_empty_false)."
  },
  {
   "property": "C29",
   "status": "partial",
   "theorems": [
    "Meshio.Props.C29_written_types",
    "Meshio.Props.C29_text_types_partial",
    "Meshio.Props.C29_binary_types_partial",
    "Meshio.Props.C29_types_false",
    "Meshio.Props.C29_short_false",
    "Meshio.Props.C29_text_meaning",
    "Meshio.Props.C29_binary_meaning_partial",
    "Meshio.Props.C29_uchar_false",
    "Meshio.Props.C29_header",
    "Meshio.Props.C29_text_reads",
    "Meshio.Props.C29_face_data_partial",
    "Meshio.Props.C29_face_data_false",
    "Meshio.Props.C29_binary_reads",
    "Meshio.Props.C29_skips_vectors",
    "Meshio.Props.C29_text_roundtrip_partial",
    "Meshio.Props.C29_binary_roundtrip_partial",
    "Meshio.Props.C29_mixed_types",
    "Meshio.Props.C29_roundtrip_false",
    "Meshio.Props.C29_plane_false",
    "Meshio.Props.C29_empty_block_false",
    "Meshio.Props.C29_no_points_false",
    "Meshio.Props.C29_legal_types",
    "Meshio.Props.C29_header_noise"
   ],
   "note": "Readers proved for text (any comments, extra point properties, scalar face properties) and binary files (any property order, both byte orders); round trips for points in space with at least one face of at most 254 vertices. False parts: int16 data are written with a type name the readers do not know (C29_roundtrip_false, C29_types_false, C29_short_false), uchar is read as signed (C29_uchar_false), face data are unreadable when face sizes alternate (C29_face_data_false), 2D points (C29_plane_false), blocks without cells in text files (C29_empty_block_false)."
  },
  {
   "property": "C30",
   "status": "partial",
   "theorems": [
    "Meshio.Props.C30_read",
    "Meshio.Props.C30_refuses_types",
    "Meshio.Props.C30_types_without_dimension",
    "Meshio.Props.C30_write",
    "Meshio.Props.C30_roundtrip_partial",
    "Meshio.Props.C30_version",
    "Meshio.Props.C30_writers",
    "Meshio.Props.C30_roundtrip_false"
   ],
   "note": "Gmsh 2.2, text and binary. C30_read: any well-formed file whose types have a dimension (arbitrary distinct positive node numbers in text files, any sections in any order around nodes and elements) is read as the mesh it describes; C30_write: exact text written (consecutive numbers, zero tags added, sorted names); C30_roundtrip_partial: blocks, tags, data, names and periodic links come back. False of the code: wedge15, pyramid13 etc. have Gmsh numbers but no dimension, so that files with them are written and refused on reading (C30_roundtrip_false, C30_types_without_dimension, C30_refuses_types); element data is cut at the positions 2, 4, ..., so that a mesh whose blocks have other sizes is written and refused on reading (C32_written_not_read, C32_roundtrip_false). A third tag column (cell_tags) is written but not read; empty blocks are outside the theorem's hypotheses."
  },
  {
   "property": "C31",
   "status": "partial",
   "theorems": [
    "Meshio.Props.C31_abaqus",
    "Meshio.Props.C31_abaqus_missing",
    "Meshio.Props.C31_abaqus_missing_set",
    "Meshio.Props.C31_avsucd",
    "Meshio.Props.C31_flac3d",
    "Meshio.Props.C31_gmsh",
    "Meshio.Props.C31_gmsh_missing_false",
    "Meshio.Props.C31_gmsh40",
    "Meshio.Props.C31_gmsh41",
    "Meshio.Props.C31_gmsh41_missing_false",
    "Meshio.Props.C31_mdpa_false",
    "Meshio.Props.C31_nastran",
    "Meshio.Props.C31_nastran_missing",
    "Meshio.Props.C31_permas",
    "Meshio.Props.C31_permas_missing"
   ],
   "note": "AVS-UCD: C31_avsucd (any distinct numbers in any order), with C45_unknown_node for missing numbers. PERMAS: C31_permas, C31_permas_missing (KeyError). Gmsh 2.2: C31_gmsh; the refusal of numbers no node carries is false of the code (C31_gmsh_missing_false: index -1 is used silently). MDPA: false of the code (C31_mdpa_false: the node numbers are ignored). FLAC3D: C31_flac3d (with C35_read_text, C35_read_binary). ANSYS: C39_read. Abaqus: C31_abaqus, C31_abaqus_missing, C31_abaqus_missing_set. Nastran: C31_nastran, C31_nastran_missing. Gmsh 4.1: C31_gmsh41; a missing number is again index -1 (C31_gmsh41_missing_false)."
  },
  {
   "property": "C32",
   "status": "partial",
   "theorems": [
    "Meshio.Props.C32_refuses_blocks",
    "Meshio.Props.C32_written_not_read",
    "Meshio.Props.C32_refuses",
    "Meshio.Props.C32_refuses_point_data",
    "Meshio.Props.C32_read_data",
    "Meshio.Props.C32_numbers_false",
    "Meshio.Props.C32_roundtrip_false",
    "Meshio.Props.C32_gmsh40_listed",
    "Meshio.Props.C32_gmsh41_listed",
    "Meshio.Props.C32_gmsh41_false"
   ],
   "note": "C32_read_data, C30_roundtrip_partial: one, three or nine components come back when every block but the last has exactly two cells; otherwise the reader raises ValueError (C32_refuses_blocks, C32_written_not_read, C32_roundtrip_false: the reader cuts element data at 2, 4, ...). C32_refuses, C32_refuses_point_data: WriteError for other numbers of components. In text files the entity numbers are ignored, so that data listed in another order is given to the wrong entities: C32_numbers_false. Gmsh 4.1: C32_gmsh41_listed, C32_gmsh41_false (numbers ignored)."
  },
  {
   "property": "C33",
   "status": "partial",
   "theorems": [
    "Meshio.Props.C33_read",
    "Meshio.Props.C33_names",
    "Meshio.Props.C33_elset",
    "Meshio.Props.C33_wrong_size",
    "Meshio.Props.C33_unknown_type",
    "Meshio.Props.C33_elements_first",
    "Meshio.Props.C33_write",
    "Meshio.Props.C33_write_untranslated",
    "Meshio.Props.C33_eights",
    "Meshio.Props.C33_refused",
    "Meshio.Props.C33_roundtrip_partial",
    "Meshio.Props.C33_sets_false",
    "Meshio.Props.C33_unreadable",
    "Meshio.Props.C33_named_false",
    "Meshio.Props.C33_comments_false",
    "Meshio.Props.C33_include_false",
    "Meshio.Props.C33_include",
    "Meshio.Props.C33_include_empty",
    "Meshio.Props.C33_include_error",
    "Meshio.Props.C33_named_sets",
    "Meshio.Props.C33_unknown_set"
   ],
   "note": "Reading of well-formed files (C33_read, C33_elset, C31_abaqus), the exact written text (C33_write, C33_write_untranslated), refusals (C33_wrong_size, C33_unknown_type, C33_elements_first, C33_refused) are proved for all files and meshes. The round trip is proved for sets of cells that lie in one block each (C33_roundtrip_partial). False as stated: sets over several blocks keep only the members of the last one (C33_sets_false), two types are written but cannot be read (C33_unreadable), sets named by ELEMENT lines may be attributed to the wrong block (C33_named_false), a comment among nodes drops the nodes after it (C33_comments_false), included files lose their sets of cells (C33_include_false). C33_include, C33_include_empty, C33_include_error: what INCLUDE adds; C33_named_sets, C33_unknown_set: sets that name other sets."
  },
  {
   "property": "C34",
   "status": "partial",
   "theorems": [
    "Meshio.Props.C34_read",
    "Meshio.Props.C34_names",
    "Meshio.Props.C34_complete",
    "Meshio.Props.C34_no_bulk",
    "Meshio.Props.C34_write",
    "Meshio.Props.C34_roundtrip_partial",
    "Meshio.Props.C34_roundtrip_same",
    "Meshio.Props.C34_roundtrip_false",
    "Meshio.Props.C34_large_cells_lost",
    "Meshio.Props.C34_free_cells",
    "Meshio.Props.C34_formats",
    "Meshio.Props.C34_small_truncates",
    "Meshio.Props.C34_long_float",
    "Meshio.Props.C34_wedge15_lost",
    "Meshio.Props.C34_pyramid13_lost",
    "Meshio.Props.C34_mixed_refs",
    "Meshio.Props.C34_rows",
    "Meshio.Props.C34_rows_false"
   ],
   "note": "C34_read gives the meaning of a whole bulk data file (free, small and large format, continuation lines with and without marks, comments, exponents without a letter, all cell types in their node order). C34_write pins the exact text for all three point formats; C34_roundtrip_partial/C34_roundtrip_same compose them for the default (small) cell format. The full statement (all cell formats) is false and refuted: large cells are lost on reading (C34_roundtrip_false, C34_large_cells_lost) and the free cell format raises UnboundLocalError for every mesh with cells (C34_free_cells). Further limits proved: fixed-small truncates coordinates, wedge15/pyramid13 cannot be read, partially present references misalign. Float printing and parsing are parameters. C34_rows: rows of every block that is read have one length, at most the number of nodes of the type except for tetra10 (C34_rows_false: not always that number)."
  },
  {
   "property": "C35",
   "status": "partial",
   "theorems": [
    "Meshio.Props.C35_read_text",
    "Meshio.Props.C35_read_binary",
    "Meshio.Props.C35_write_text",
    "Meshio.Props.C35_write_binary",
    "Meshio.Props.C35_text_partial",
    "Meshio.Props.C35_binary_partial",
    "Meshio.Props.C35_one_block",
    "Meshio.Props.C35_refused_text",
    "Meshio.Props.C35_refused_binary",
    "Meshio.Props.C35_orientation",
    "Meshio.Props.C35_groups_false",
    "Meshio.Props.C35_unchanged_false",
    "Meshio.Props.C35_empty_groups_false"
   ],
   "note": "Reading (text and binary, any numbering), writing (exact text and bytes), the round trips and the orientation in exact arithmetic are proved for all meshes of zones. False as stated: groups with members in later blocks come back with numbers counted through all blocks (C35_groups_false), writing changes the caller's cell_sets when there are several blocks (C35_unchanged_false), a file with an empty group cannot be read (C35_empty_groups_false); meshes with faces are refused (C35_refused_text, C35_refused_binary). What holds of groups is C35_text_partial, C35_binary_partial and, for one block, C35_one_block."
  },
  {
   "property": "C36",
   "status": "proved",
   "theorems": [
    "Meshio.Props.C36_linked",
    "Meshio.Props.C36_binary_bytes",
    "Meshio.Props.C36_binary_meaning",
    "Meshio.Props.C36_binary_roundtrip",
    "Meshio.Props.C36_rejects_code",
    "Meshio.Props.C36_rejects_version",
    "Meshio.Props.C36_rejects_dimension",
    "Meshio.Props.C36_rejects_keyword",
    "Meshio.Props.C36_text_meaning",
    "Meshio.Props.C36_text_lines",
    "Meshio.Props.C36_text_roundtrip",
    "Meshio.Props.C36_text_refuses",
    "Meshio.Props.C36_text_rejects_keyword",
    "Meshio.Props.C36_text_rejects_version",
    "Meshio.Props.C36_text_rejects_no_vertices",
    "Meshio.Props.C36_filename"
   ],
   "note": "C36_linked (positions and End), C36_binary_bytes (exact content), C36_binary_meaning (all versions, byte orders, unused fields), C36_binary_roundtrip, C36_rejects_code/_version/_dimension/_keyword (ReadError); text files: C36_text_lines, C36_text_meaning, C36_text_roundtrip, C36_text_rejects_keyword/_version (a KeyError)/_no_vertices, C36_text_refuses; C36_filename. Blocks of types without a Medit name are left out by the writer (spec: kept)."
  },
  {
   "property": "C37",
   "status": "partial",
   "theorems": [
    "Meshio.Props.C37_false",
    "Meshio.Props.C37_single_point_plane_false",
    "Meshio.Props.C37_roundtrip_partial",
    "Meshio.Props.C37_blocks_partial",
    "Meshio.Props.C37_names_partial",
    "Meshio.Props.C37_default_names",
    "Meshio.Props.C37_section",
    "Meshio.Props.C37_rejects_header",
    "Meshio.Props.C37_rejects_section",
    "Meshio.Props.C37_index_choice"
   ],
   "note": "Whole files: for every mesh over Netgen's types (0 to 3 dimensions) without or with at least two points, writer then reader give the points, the cells with node order and region index in the order surfaces, volumes, edges, points (neighbours of a type fused), the identifications, and the names of regions. The claim is false for meshes of a single point (np.loadtxt returns a vector; IndexError in the plane): C37_false. Default names are added for indices without names (C37_default_names). pyramid13 and wedge15 are outside because Mesh rejects these types. np.loadtxt/np.savetxt and the choice of 32-bit integers are trusted."
  },
  {
   "property": "C38",
   "status": "partial",
   "theorems": [
    "Meshio.Props.C38_read",
    "Meshio.Props.C38_write",
    "Meshio.Props.C38_elements",
    "Meshio.Props.C38_roundtrip_partial",
    "Meshio.Props.C38_zone_text",
    "Meshio.Props.C38_fixed_width_false",
    "Meshio.Props.C38_roundtrip_false",
    "Meshio.Props.C38_write_refuse",
    "Meshio.Props.C38_write_lines",
    "Meshio.Props.C38_zone_refuse"
   ],
   "note": "Reading: any file with the accepted notations of names, zone record, comments and data is read as what it says (C38_read). Writing: the text says the numbers of nodes and elements, the coordinates, the point variables and the cell variables in their locations, and the elements of the chosen blocks (C38_write); elements have the width of the zone type and exactly the nodes of the cell (C38_elements). Round trip proved for distinct names that are plain words, at least one point and one cell, and meshes whose zone is not the mixture that starts with two-dimensional cells. The full property is false: triangles before tetrahedra give FEQUADRILATERAL elements of eight nodes (C38_fixed_width_false), and a point variable and a cell variable of the same name are confused by the reader (C38_roundtrip_false)."
  },
  {
   "property": "C39",
   "status": "partial",
   "theorems": [
    "Meshio.Props.C39_hex",
    "Meshio.Props.C39_read",
    "Meshio.Props.C39_write",
    "Meshio.Props.C39_roundtrip_partial",
    "Meshio.Props.C39_roundtrip_false",
    "Meshio.Props.C39_total_after_points",
    "Meshio.Props.C39_gap",
    "Meshio.Props.C39_bad_row",
    "Meshio.Props.C39_write_refuse"
   ],
   "note": "Reader: any sequence of sections (comments, declarations, points in several consecutive ranges, cells, regular and mixed faces; text, 4-byte and 8-byte binary) is read as it says; writer: text determined character by character; round trip for ASCII files and for binary files with points of double precision. False in general: points of single precision are written in four bytes under the index 3010 (eight bytes), witness in C39_roundtrip_false. C39_total_after_points records that a point total behind the points makes the reader fail. Rejections: gaps in the point ranges, rows of wrong length, unsupported dimensions, cell types and integer types."
  },
  {
   "property": "C40",
   "status": "partial",
   "theorems": [
    "Meshio.Props.C40_stream",
    "Meshio.Props.C40_dims",
    "Meshio.Props.C40_decode",
    "Meshio.Props.C40_vertex_false",
    "Meshio.Props.C40_order2_false",
    "Meshio.Props.C40_empty",
    "Meshio.Props.C40_roundtrip_partial",
    "Meshio.Props.C40_rejects_polyline",
    "Meshio.Props.C40_rejects_code"
   ],
   "note": "False as stated: a vertex in a mixed topology is written with its count but read without (C40_vertex_false), and second-order types have no node count in the reader (C40_order2_false). Writer stream, declared dimension and reader proved against an independent table; round trip for linear types except vertex."
  },
  {
   "property": "C41",
   "status": "partial",
   "theorems": [
    "Meshio.Props.C41_roundtrip_partial",
    "Meshio.Props.C41_steps",
    "Meshio.Props.C41_no_overwrite",
    "Meshio.Props.C41_before_mesh",
    "Meshio.Props.C41_refused_step_false",
    "Meshio.Props.C41_refused_step",
    "Meshio.Props.C41_directory_false",
    "Meshio.Props.C41_rejects_lines",
    "Meshio.Props.C41_rejects_dim",
    "Meshio.Props.C41_cells_first",
    "Meshio.Props.C41_no_step"
   ],
   "note": "False as stated: a refused write_data leaves an unreadable step in the file (C41_refused_step_false); HDF data is put into the current directory, not next to the XDMF file (C41_directory_false). Proved for all histories: round trip of admissible calls in all formats, no overwriting even with failing calls, WriteError before the mesh. XML syntax and text of numbers trusted."
  },
  {
   "property": "C42",
   "status": "partial",
   "theorems": [
    "Meshio.Props.C42_false",
    "Meshio.Props.C42_used_twice_false",
    "Meshio.Props.C42_shared_z_false",
    "Meshio.Props.C42_complete",
    "Meshio.Props.C42_rejects_empty",
    "Meshio.Props.C42_partial",
    "Meshio.Props.C42_values",
    "Meshio.Props.C42_name_clash_false"
   ],
   "note": "False as stated: index 0 counts as missing (C42_false), Y/Z before X are used twice, a shared _Z is used twice, and a combined name can overwrite a scalar. Proved for every list of names: nothing is lost (C42_complete); exact grouping for names in the usual order (C42_partial)."
  },
  {
   "property": "C43",
   "status": "partial",
   "theorems": [
    "Meshio.Props.C43_position",
    "Meshio.Props.C43_fortran",
    "Meshio.Props.C43_connectivity",
    "Meshio.Props.C43_families",
    "Meshio.Props.C43_roundtrip_partial",
    "Meshio.Props.C43_order_perm",
    "Meshio.Props.C43_order_sorted",
    "Meshio.Props.C43_false",
    "Meshio.Props.C43_empty_false",
    "Meshio.Props.C43_column_squeezed",
    "Meshio.Props.C43_rejects_repeated",
    "Meshio.Props.C43_rejects_unknown",
    "Meshio.Props.C43_rejects_long",
    "Meshio.Props.C43_rejects_points",
    "Meshio.Props.C43_read_consistent",
    "Meshio.Props.C43_types_without_dimension",
    "Meshio.Props.C43_tags_complete",
    "Meshio.Props.C43_profile",
    "Meshio.Props.C43_steps_distinct",
    "Meshio.Props.C43_single_step"
   ],
   "note": "False as a literal round trip: h5py visits groups by name, so blocks come back in the order of MED type names (C43_false); empty blocks are written but unreadable (C43_empty_false); (n,1) arrays come back as vectors (C43_column_squeezed). Proved for all other meshes: points, tags, families and data are restored, blocks/tags/cell data permuted by one and the same permutation (C43_roundtrip_partial, C43_order_perm, C43_order_sorted); positions of the column-major 1-based connectivity (C43_connectivity); repeated types raise WriteError (C43_rejects_repeated); profiles and time step names. Not modelled: component names (NOM), several meshes per file, Gauss point data that is skipped by the writer. What is read is consistent (C43_read_consistent); pyramid13 and wedge15 have MED names but are refused on reading (C43_types_without_dimension)."
  },
  {
   "property": "C44",
   "status": "partial",
   "theorems": [
    "Meshio.Props.C44_read",
    "Meshio.Props.C44_write",
    "Meshio.Props.C44_roundtrip_medium",
    "Meshio.Props.C44_roundtrip_text_partial",
    "Meshio.Props.C44_roundtrip_binary_partial",
    "Meshio.Props.C44_suffix",
    "Meshio.Props.C44_refuses_two",
    "Meshio.Props.C44_refuses_tags",
    "Meshio.Props.C44_refuses_short",
    "Meshio.Props.C44_tags_false",
    "Meshio.Props.C44_marker_false",
    "Meshio.Props.C44_suffixes",
    "Meshio.Props.C44_suffixes_all"
   ],
   "note": "Read theorem for every well formed text, C binary and Fortran binary file with arbitrary tags and record markers (C44_read); writer's layout and counts (C44_write); round trip for all eleven file kinds for meshes without integer cell data (C44_roundtrip_*_partial). False in the code: integer cell data with any triangle or quad makes the writer raise AttributeError (C44_tags_false, C44_refuses_tags), and the first Fortran record marker is 56 instead of 28 (C44_marker_false). Text files round coordinates to four bytes. Negative counts and 2D points are not modelled. C44_suffixes: the meaning of each file suffix."
  },
  {
   "property": "C45",
   "status": "partial",
   "theorems": [
    "Meshio.Props.C45_read",
    "Meshio.Props.C45_refuses_mixed",
    "Meshio.Props.C45_one_node",
    "Meshio.Props.C45_unknown_node",
    "Meshio.Props.C45_unknown_type",
    "Meshio.Props.C45_write",
    "Meshio.Props.C45_roundtrip_partial",
    "Meshio.Props.C45_same_blocks",
    "Meshio.Props.C45_write_unknown",
    "Meshio.Props.C45_mixed_false",
    "Meshio.Props.C45_one_point_false"
   ],
   "note": "C45_read: any well-formed AVS-UCD text (arbitrary distinct node and cell numbers, table rows in any order, comments) is read as what it says; C45_write: exact text written; C45_roundtrip_partial and C45_same_blocks: round trip with padding, fused blocks, materials and rounded data. The unrestricted property is false of the code: cell data with more than one block is a TypeError on reading (C45_refuses_mixed, C45_mixed_false) and one-node files are an IndexError (C45_one_node, C45_one_point_false). Rejections: C45_unknown_node, C45_unknown_type, C45_write_unknown."
  },
  {
   "property": "C46",
   "status": "partial",
   "theorems": [
    "Meshio.Props.C46_read",
    "Meshio.Props.C46_unclosed",
    "Meshio.Props.C46_mixed",
    "Meshio.Props.C46_malformed",
    "Meshio.Props.C46_bad_character",
    "Meshio.Props.C46_write",
    "Meshio.Props.C46_roundtrip_partial",
    "Meshio.Props.C46_unclosed_false",
    "Meshio.Props.C46_exponent_false",
    "Meshio.Props.C46_plane_false"
   ],
   "note": "Reading is proved for all well-formed texts with blanks anywhere (C46_read), malformed texts are a ReadError (C46_malformed: every text outside the grammar), the written text is pinned (C46_write) and read back (C46_roundtrip_partial) for points with 3 or 4 coordinates printed without exponent. False as stated: an unclosed polygon is a ValueError (C46_unclosed_false), coordinates printed with exponent (C46_exponent_false) and meshes in the plane (C46_plane_false) give texts meshio cannot read. Regular expressions are modelled by a backtracking matcher (Base/Regex); digits and blanks are ASCII; that -0.0 == 0.0 is left out."
  },
  {
   "property": "C47",
   "status": "partial",
   "theorems": [
    "Meshio.Props.C47_groups",
    "Meshio.Props.C47_no_loss",
    "Meshio.Props.C47_read",
    "Meshio.Props.C47_merge_rest",
    "Meshio.Props.C47_merge_type",
    "Meshio.Props.C47_domain",
    "Meshio.Props.C47_write",
    "Meshio.Props.C47_boundary_false",
    "Meshio.Props.C47_boundary_refused",
    "Meshio.Props.C47_roundtrip_partial",
    "Meshio.Props.C47_no_cells_false",
    "Meshio.Props.C47_rejects_dim",
    "Meshio.Props.C47_rejects_columns",
    "Meshio.Props.C47_rejects_code"
   ],
   "note": "Reading is proved in full for the documented layout: mixed element lines, extra columns, markers with numbers or names, merging. Writing is false as stated: any boundary cell makes the writer raise TypeError (C47_boundary_false, C47_boundary_refused) and a mesh without domain cells cannot be read back (C47_no_cells_false); round trip proved for meshes without boundary cells. Float text trusted."
  },
  {
   "property": "C48",
   "status": "partial",
   "theorems": [
    "Meshio.Props.C48_false",
    "Meshio.Props.C48_negative_false",
    "Meshio.Props.C48_outcomes",
    "Meshio.Props.C48_single_warning",
    "Meshio.Props.C48_partial",
    "Meshio.Props.C48_unused"
   ],
   "note": "False as stated: index n raises IndexError, negative indices are silent (C48_false). C48_outcomes gives the exact behaviour for all meshes."
  },
  {
   "property": "C49",
   "status": "proved",
   "theorems": [
    "Meshio.Props.C49_mdpa",
    "Meshio.Props.C49_kratos_names",
    "Meshio.Props.C49_permas"
   ],
   "note": "C49_mdpa: for each MDPA type, in meshes with and without solid cells, the name written heads a section that is read back as that type (Line3D3 is recognised through the node count). C49_permas: the same for PERMAS names. C49_kratos_names records that other Kratos names (Element2D3N) are guessed from the node count."
  },
  {
   "property": "C50",
   "status": "partial",
   "theorems": [
    "Meshio.Props.C50_vtk42_iff",
    "Meshio.Props.C50_vtk42",
    "Meshio.Props.C50_vtu_iff",
    "Meshio.Props.C50_vtk51_iff",
    "Meshio.Props.C50_avsucd_iff",
    "Meshio.Props.C50_ply_iff",
    "Meshio.Props.C50_consistent",
    "Meshio.Props.C50_false",
    "Meshio.Props.C50_vtu_names"
   ],
   "note": "False as stated (C50_false). Model/Effects.lean has the assignments to the caller's mesh in the five writers that contain any besides FLAC3D (C35_unchanged_false): legacy VTK 4.2 and 5.1, VTU, PLY, AVS-UCD. For each an if-and-only-if says when the mesh is unchanged (C50_vtk42_iff, C50_vtk51_iff, C50_vtu_iff, C50_ply_iff, C50_avsucd_iff); C50_consistent: the mesh stays consistent in any case. That the other writers contain no assignment is by reading; aliasing of arrays between meshes is not modelled, nor is a write that fails half way."
  },
  {
   "property": "C51",
   "status": "proved",
   "theorems": [
    "Meshio.Props.C51_concat",
    "Meshio.Props.C51_sizes",
    "Meshio.Props.C51_header"
   ],
   "note": ""
  },
  {
   "property": "C52",
   "status": "partial",
   "theorems": [
    "Meshio.Props.C52_names",
    "Meshio.Props.C52_read",
    "Meshio.Props.C52_roundtrip_partial",
    "Meshio.Props.C52_data_order",
    "Meshio.Props.C52_last_block",
    "Meshio.Props.C52_same_type_false",
    "Meshio.Props.C52_eleven_false",
    "Meshio.Props.C52_cell_data_false",
    "Meshio.Props.C52_rejects_file"
   ],
   "note": "False as stated: blocks of the same type overwrite each other (C52_same_type_false), more than ten blocks are reordered alphabetically (C52_eleven_false), cell data is cut at the lengths of type names (C52_cell_data_false). Proved: round trip of points, cells with node order and data for at most ten blocks of different types, one block with cell data; rejection of other file versions. HDF5 storage trusted."
  },
  {
   "property": "C53",
   "status": "partial",
   "theorems": [
    "Meshio.Props.C53_false",
    "Meshio.Props.C53_empty_block",
    "Meshio.Props.C53_arrays",
    "Meshio.Props.C53_roundtrip_partial",
    "Meshio.Props.C53_no_cells"
   ],
   "note": "False in full (C53_false): an empty block before another one makes the writer raise IndexError (C53_empty_block). Proved when only the last block may be empty and at least one cell exists."
  },
  {
   "property": "C54",
   "status": "partial",
   "theorems": [
    "Meshio.Props.C54_false",
    "Meshio.Props.C54_no_clash_partial",
    "Meshio.Props.C54_plain",
    "Meshio.Props.C54_compressed"
   ],
   "note": "False in full (C54_false): an already rewritten offset can equal a later original offset, then two arrays are swapped. Proved when no clash occurs."
  },
  {
   "property": "C55",
   "status": "partial",
   "theorems": [
    "Meshio.Props.C55_first_kept",
    "Meshio.Props.C55_reported_false",
    "Meshio.Props.C55_none",
    "Meshio.Props.C55_reported_partial"
   ],
   "note": "Data without any integer array are dropped and not reported (C55_reported_false); otherwise the claim is proved (C55_reported_partial)."
  },
  {
   "property": "C56",
   "status": "partial",
   "theorems": [
    "Meshio.Props.C56_false",
    "Meshio.Props.C56_components_false",
    "Meshio.Props.C56_names",
    "Meshio.Props.C56_roundtrip_partial",
    "Meshio.Props.C56_read_consistent",
    "Meshio.Props.C56_types_without_dimension",
    "Meshio.Props.C56_refuses_type",
    "Meshio.Props.C56_rejects",
    "Meshio.Props.C56_cell_data",
    "Meshio.Props.C56_first_step",
    "Meshio.Props.C56_axes",
    "Meshio.Props.C56_layout"
   ],
   "note": "False as stated: the writer drops cell data, and X/Y/Z names come back combined. Round trip proved otherwise (C56_roundtrip_partial), cell data of foreign files in the usual layout (C56_cell_data). netCDF itself is trusted. What is read is consistent (C56_read_consistent); six types with Exodus names have no dimension and are refused (C56_types_without_dimension, C56_refuses_type)."
  },
  {
   "property": "C57",
   "status": "partial",
   "theorems": [
    "Meshio.Props.C57_fused",
    "Meshio.Props.C57_roundtrip_partial",
    "Meshio.Props.C57_colon_false",
    "Meshio.Props.C57_line_false",
    "Meshio.Props.C57_refuses_type",
    "Meshio.Props.C57_types_without_dimension",
    "Meshio.Props.C57_read_consistent",
    "Meshio.Props.C57_rejects_dim",
    "Meshio.Props.C57_attribute_shapes",
    "Meshio.Props.C57_attribute_names",
    "Meshio.Props.C57_rejects_text",
    "Meshio.Props.C57_number_types"
   ],
   "note": "False as stated: a colon in the file name breaks HDF references (C57_colon_false), 1D points are written but refused by the reader (C57_line_false). Round trip proved otherwise for all formats (C57_roundtrip_partial). XML syntax and text of numbers trusted. What is read is consistent (C57_read_consistent); types without dimension are written and refused (C57_refuses_type, C57_types_without_dimension)."
  },
  {
   "property": "C58",
   "status": "proved",
   "theorems": [
    "Meshio.Props.C58_binary",
    "Meshio.Props.C58_read",
    "Meshio.Props.C58_write",
    "Meshio.Props.C58_roundtrip",
    "Meshio.Props.C58_roundtrip_blocks",
    "Meshio.Props.C58_refuses"
   ],
   "note": "C58_read: every well-formed file (spec: list of sections) is read as what it says; C58_write: exact text; C58_roundtrip, C58_roundtrip_blocks; C58_refuses. Node numbers are positions (see C31_mdpa_false). Data are written but not read back by the code (read_buffer reads only nodes, elements, conditions into the mesh). C58_binary: asked for a binary file the writer refuses every mesh."
  },
  {
   "property": "C59",
   "status": "partial",
   "theorems": [
    "Meshio.Props.C59_read",
    "Meshio.Props.C59_continuation",
    "Meshio.Props.C59_write",
    "Meshio.Props.C59_roundtrip",
    "Meshio.Props.C59_roundtrip_false",
    "Meshio.Props.C59_roundtrip_partial",
    "Meshio.Props.C59_refuses",
    "Meshio.Props.C59_unknown_type",
    "Meshio.Props.C59_cells_first"
   ],
   "note": "C59_read, C59_write: exact meaning and text; C59_roundtrip: cells come back in the order written; False as stated: triangle6, tetra10, quad9 come back with permuted nodes (C59_roundtrip_false); C59_roundtrip_partial without these types; C59_refuses, C59_unknown_type, C59_cells_first."
  },
  {
   "property": "C60",
   "status": "proved",
   "theorems": [
    "Meshio.Props.C60_read",
    "Meshio.Props.C60_text",
    "Meshio.Props.C60_refuses_no_elements",
    "Meshio.Props.C60_refuses_elements_first",
    "Meshio.Props.C60_refuses_parametric",
    "Meshio.Props.C60_refuses_type",
    "Meshio.Props.C60_refuses_empty_block",
    "Meshio.Props.C60_refuses_missing_entity",
    "Meshio.Props.C60_comments",
    "Meshio.Props.C60_escaped_names"
   ],
   "note": "C60_read for text and binary files with every data size; C60_text: every description has such a text; C31_gmsh41: node numbers; refusals C60_refuses_no_elements, C60_refuses_elements_first, C60_refuses_parametric, C60_refuses_type, C60_refuses_empty_block, C60_refuses_missing_entity. Well-formed includes: data sections list their values in file order (C32_gmsh41_listed says what happens otherwise, C32_gmsh41_false) and entities of all element blocks have physical tags or none. C60_comments and C60_escaped_names: comments before the header, escapes in physical names. Entities listed several times: the last one counts."
  },
  {
   "property": "C61",
   "status": "partial",
   "theorems": [
    "Meshio.Props.C61_write",
    "Meshio.Props.C61_roundtrip_partial",
    "Meshio.Props.C61_roundtrip_sorted",
    "Meshio.Props.C61_refuses_blocks",
    "Meshio.Props.C61_refuses_dimension",
    "Meshio.Props.C61_refuses_geometrical",
    "Meshio.Props.C61_refuses_physical",
    "Meshio.Props.C61_pointdata_false",
    "Meshio.Props.C61_periodic_false",
    "Meshio.Props.C61_readable_false"
   ],
   "note": "C61_write: exact description of the written file (text and binary); C61_roundtrip_partial: everything but point data and periodic links comes back up to the order of the nodes; C61_roundtrip_sorted: everything comes back if the nodes are sorted by entity or have none; refusals C61_refuses_blocks, C61_refuses_dimension, C61_refuses_geometrical, C61_refuses_physical. False of the code: the reader does not reorder point data and periodic links (C61_pointdata_false, C61_periodic_false); a block whose entity no node belongs to is written and refused on reading (C61_readable_false). Without dim_tags physical tags are lost (stated in C61_roundtrip_partial). Tags that differ within a block are outside the hypotheses (only the first is written)."
  },
  {
   "property": "C62",
   "status": "partial",
   "theorems": [
    "Meshio.Props.C62_read42",
    "Meshio.Props.C62_read42_polygons",
    "Meshio.Props.C62_read51",
    "Meshio.Props.C62_read51_no_cells",
    "Meshio.Props.C62_no_cells",
    "Meshio.Props.C62_structured_grid",
    "Meshio.Props.C62_rectilinear_grid",
    "Meshio.Props.C62_structured_points",
    "Meshio.Props.C62_structured51",
    "Meshio.Props.C62_dataset_fields_lost",
    "Meshio.Props.C62_sizes_false",
    "Meshio.Props.C62_sizes_partial",
    "Meshio.Props.C62_types",
    "Meshio.Props.C62_bad_magic",
    "Meshio.Props.C62_bad_format",
    "Meshio.Props.C62_bad_dataset",
    "Meshio.Props.C62_unknown_section",
    "Meshio.Props.C62_refuses_word",
    "Meshio.Props.C62_refuses_open_points",
    "Meshio.Props.C62_refuses_open_vectors",
    "Meshio.Props.C62_refuses_open_cells",
    "Meshio.Props.C62_refuses_offsets",
    "Meshio.Props.C62_refuses_dimensions",
    "Meshio.Props.C62_refuses_type"
   ],
   "note": "C62_read42, C62_read42_polygons, C62_read51 (unstructured), C62_structured_grid, C62_rectilinear_grid, C62_structured_points: what any file in the grammar of Spec/VtkFile is read as; refusals C62_no_cells, C62_bad_magic, C62_bad_format, C62_bad_dataset, C62_unknown_section; number types C62_types, C62_sizes_partial. False of the code: `int` in binary 5.1 files is taken for 8 bytes (C62_sizes_false); 5.1 files without cells (C62_read51_no_cells: IndexError) and 5.1 structured grids (C62_structured51: TypeError) cannot be read; cell data of files with polygons (4.2) are dropped (C62_read42_polygons); fields of the data set are dropped (C62_dataset_fields_lost). Outside the grammar: negative counts, color scalars in text files, zero-length arrays among others in text files. C62_refuses_*: files in order up to a section that is not (unknown words, binary numbers without the end of the line, offsets that do not match, dimensions, types) are refused."
  },
  {
   "property": "C63",
   "status": "partial",
   "theorems": [
    "Meshio.Props.C63_blank_name",
    "Meshio.Props.C63_no_code",
    "Meshio.Props.C63_points_type",
    "Meshio.Props.C63_version",
    "Meshio.Props.C63_named_version_false",
    "Meshio.Props.C63_named_version_partial",
    "Meshio.Props.C63_roundtrip_false",
    "Meshio.Props.C63_matrices_lost",
    "Meshio.Props.C63_column_axis_lost",
    "Meshio.Props.C63_file",
    "Meshio.Props.C63_roundtrip42",
    "Meshio.Props.C63_polygons42_partial",
    "Meshio.Props.C63_roundtrip51",
    "Meshio.Props.C63_no_cells51"
   ],
   "note": "C63_file: the file written satisfies the grammar with exactly the sections of the mesh; C63_roundtrip42 and C63_roundtrip51 with all data; C63_polygons42_partial (cell data are lost); refusals C63_blank_name, C63_no_code, C63_points_type; C63_version. False of the code: C63_roundtrip_false and C63_no_cells51 (point clouds in 5.1), C63_named_version_false (vtk51 writes version 4.2), C63_matrices_lost, C63_column_axis_lost. Sets (turned into data before writing) and arrays with different dtypes per block are not in the model of the file writer."
  },
  {
   "property": "C64",
   "status": "partial",
   "theorems": [
    "Meshio.Props.C64_document_false",
    "Meshio.Props.C64_document_partial",
    "Meshio.Props.C64_lt_unreadable",
    "Meshio.Props.C64_amp_changes"
   ],
   "note": "C64_document_partial: documents whose names, values, texts and comments contain no special characters are parsed back exactly. False of the code (nothing is escaped): C64_document_false, C64_lt_unreadable (any value with `<` makes the file unreadable), C64_amp_changes (`&amp;` in a value changes it)."
  },
  {
   "property": "C65",
   "status": "partial",
   "theorems": [
    "Meshio.Props.C65_read_partial",
    "Meshio.Props.C65_poly_partial",
    "Meshio.Props.C65_last_piece",
    "Meshio.Props.C65_pieces_false",
    "Meshio.Props.C65_head_refused",
    "Meshio.Props.C65_corrupt",
    "Meshio.Props.C65_unknown_type",
    "Meshio.Props.C65_count_refused",
    "Meshio.Props.C65_no_piece",
    "Meshio.Props.C65_structure"
   ],
   "note": "C65_read_partial (one piece, ordinary cells, all encodings), C65_poly_partial (polyhedra in order of their numbers of nodes), C65_last_piece (what is read from several pieces); refusals C65_head_refused, C65_corrupt, C65_unknown_type, C65_count_refused, C65_no_piece. False of the code: C65_pieces_false (cells of all pieces but the last are lost). Raw appended data at file level, numpy type promotion between pieces and text that is not a number are not modelled. C65_structure: the elements that every file has that is read."
  },
  {
   "property": "C66",
   "status": "partial",
   "theorems": [
    "Meshio.Props.C66_file",
    "Meshio.Props.C66_roundtrip",
    "Meshio.Props.C66_file_poly",
    "Meshio.Props.C66_roundtrip_poly_partial",
    "Meshio.Props.C66_readable_false",
    "Meshio.Props.C66_name_changed",
    "Meshio.Props.C66_mixed_refused",
    "Meshio.Props.C66_refused",
    "Meshio.Props.C66_shape_dropped"
   ],
   "note": "C66_file, C66_file_poly: what the file says; C66_roundtrip (ordinary cells; text rounds floats, planar points get a zero, neighbouring blocks of one type and width come back as one), C66_roundtrip_poly_partial (polyhedra in order of their numbers of nodes); refusals C66_mixed_refused, C66_refused. False of the code: C66_readable_false (a mesh without cells is written but not read), C66_name_changed (`&amp;` in a name), C66_shape_dropped (arrays with three axes lose their shape). Field data and sets are not written by the modelled part."
  },
  {
   "property": "C67",
   "status": "partial",
   "theorems": [
    "Meshio.Props.C67_read",
    "Meshio.Props.C67_order_rejected",
    "Meshio.Props.C67_celltype_rejected",
    "Meshio.Props.C67_index_rejected",
    "Meshio.Props.C67_other_meshes_false",
    "Meshio.Props.C67_other_file_rejected",
    "Meshio.Props.C67_backup_rejected",
    "Meshio.Props.C67_no_cells",
    "Meshio.Props.C67_missing_vertex_undefined"
   ],
   "note": "C67_read: what is read, for every document that satisfies the file grammar DolfinDoc and every directory; refusals C67_order_rejected, C67_celltype_rejected, C67_index_rejected, C67_other_file_rejected. False of the code: C67_other_meshes_false (cell data of another mesh whose name begins with this mesh's name are taken, or break the reading), C67_backup_rejected (any file whose name only begins like a data file, e.g. `m_a.xml.bak`, is read), C67_missing_vertex_undefined (vertices that are missing are left undefined), C67_no_cells. Names with regular expression characters are outside of the model."
  },
  {
   "property": "C68",
   "status": "partial",
   "theorems": [
    "Meshio.Props.C68_mesh_file",
    "Meshio.Props.C68_false",
    "Meshio.Props.C68_round_trip_partial",
    "Meshio.Props.C68_numpy2",
    "Meshio.Props.C68_rejected",
    "Meshio.Props.C68_other_data",
    "Meshio.Props.C68_function_dim",
    "Meshio.Props.C68_dim_of_mesh"
   ],
   "note": "C68_mesh_file, C68_function_dim, C68_dim_of_mesh: what the files say; C68_round_trip_partial (one array per name, names without dots, no other data files of the same name in the directory); C68_rejected, C68_other_data. False of the code: C68_false (with two blocks of the type the cell data of the last one overwrites the others), C68_numpy2 (since numpy 2 written integer data cannot be read)."
  },
  {
   "property": "C69",
   "status": "partial",
   "theorems": [
    "Meshio.Props.C69_keywords",
    "Meshio.Props.C69_accepted",
    "Meshio.Props.C69_rewrites",
    "Meshio.Props.C69_untouched",
    "Meshio.Props.C69_gmsh_not_ansys",
    "Meshio.Props.C69_msh",
    "Meshio.Props.C69_same_format_false",
    "Meshio.Props.C69_same_format_partial",
    "Meshio.Props.C69_candidates",
    "Meshio.Props.C69_same_format_imported_partial",
    "Meshio.Props.C69_mdpa_binary_false",
    "Meshio.Props.C69_mdpa_ascii"
   ],
   "note": "C69_keywords, C69_accepted, C69_rewrites, C69_untouched: true for all inputs. False of the code: C69_same_format_false with C69_msh and C69_gmsh_not_ansys (a Gmsh file `x.msh` is rewritten as an ANSYS file, since the first format of the extension is taken and not the one that could read the file). C69_candidates and C69_same_format_imported_partial: this is the only such case. The parsing of the command line by argparse is not modelled. C69_mdpa_binary_false: `meshio binary` and `meshio compress` accept mdpa files but always end with WriteError there; C69_mdpa_ascii: `meshio ascii` works as the writer does."
  },
  {
   "property": "C70",
   "status": "partial",
   "theorems": [
    "Meshio.Props.C70_keywords",
    "Meshio.Props.C70_converts",
    "Meshio.Props.C70_unchanged",
    "Meshio.Props.C70_untouched",
    "Meshio.Props.C70_sets_to_int",
    "Meshio.Props.C70_int_to_sets_false",
    "Meshio.Props.C70_int_to_sets",
    "Meshio.Props.C70_options_false",
    "Meshio.Props.C70_options_partial",
    "Meshio.Props.C70_option_refused"
   ],
   "note": "C70_converts, C70_keywords, C70_unchanged, C70_untouched, C70_sets_to_int: true for all inputs. False of the code: C70_int_to_sets_false; C70_int_to_sets proves that `--int-data-to-sets` raises an error for every mesh with data and does nothing for the others. C70_options_false, C70_options_partial, C70_option_refused: `--ascii` and `--float-format` are a TypeError for the formats that are not listed."
  },
  {
   "property": "C71",
   "status": "proved",
   "theorems": [
    "Meshio.Props.C71_document",
    "Meshio.Props.C71_view",
    "Meshio.Props.C71_not_flat",
    "Meshio.Props.C71_missing_point",
    "Meshio.Props.C71_needs_two_coordinates"
   ],
   "note": "C71_document: the parsed document for all flat meshes whose numbers and options have no XML special characters. C71_view: geometry with exact rational arithmetic; the rounding of floats is not modelled. C71_not_flat, C71_missing_point, C71_needs_two_coordinates: refusals."
  },
  {
   "property": "C72",
   "status": "partial",
   "theorems": [
    "Meshio.Props.C72_read",
    "Meshio.Props.C72_not_tetrahedra",
    "Meshio.Props.C72_ragged",
    "Meshio.Props.C72_malformed",
    "Meshio.Props.C72_write",
    "Meshio.Props.C72_roundtrip_false",
    "Meshio.Props.C72_roundtrip_partial",
    "Meshio.Props.C72_no_tetra",
    "Meshio.Props.C72_two_blocks",
    "Meshio.Props.C72_plane"
   ],
   "note": "The full round trip is false (C72_roundtrip_false: cells of other types are left out). C72_roundtrip_partial: points in space and one non-empty block of tetrahedra, other cells are dropped. C72_write, C72_read: meaning of the file. C72_no_tetra, C72_two_blocks, C72_plane, C72_not_tetrahedra, C72_ragged, C72_malformed: the errors."
  },
  {
   "property": "C73",
   "status": "partial",
   "theorems": [
    "Meshio.Props.C73_file",
    "Meshio.Props.C73_roundtrip_false",
    "Meshio.Props.C73_roundtrip_partial",
    "Meshio.Props.C73_roundtrip_sorted",
    "Meshio.Props.C73_read",
    "Meshio.Props.C73_unknown_group",
    "Meshio.Props.C73_same_type",
    "Meshio.Props.C73_cell_data",
    "Meshio.Props.C73_axes"
   ],
   "note": "The full round trip is false (C73_roundtrip_false: the code writes only lines, triangles and tetrahedra). C73_roundtrip_partial: blocks of these types, ordered by the names of their groups; C73_roundtrip_sorted: exactly the mesh if its blocks and point data are in that order. C73_file, C73_read: meaning of the file. C73_cell_data, C73_same_type, C73_axes, C73_unknown_group: the errors."
  },
  {
   "property": "C74",
   "status": "proved",
   "theorems": [
    "Meshio.Props.C74_read",
    "Meshio.Props.C74_text",
    "Meshio.Props.C74_refuses_no_elements",
    "Meshio.Props.C74_refuses_elements_first",
    "Meshio.Props.C74_refuses_between",
    "Meshio.Props.C74_refuses_type",
    "Meshio.Props.C74_refuses_empty_block",
    "Meshio.Props.C74_refuses_missing_entity"
   ],
   "note": "C74_read: any file that gives a sensible description (data listed in the order of nodes and elements) is read as the mesh described; C74_text: every description has such files, in text and binary form; C31_gmsh40, C32_gmsh40_listed: node numbers and data. C74_refuses_*: the errors."
  },
  {
   "property": "C75",
   "status": "partial",
   "theorems": [
    "Meshio.Props.C75_write",
    "Meshio.Props.C75_roundtrip_partial",
    "Meshio.Props.C75_refuses_type",
    "Meshio.Props.C75_roundtrip_false",
    "Meshio.Props.C75_numbers_never",
    "Meshio.Props.C75_numbers_false",
    "Meshio.Props.C75_links_binary",
    "Meshio.Props.C75_links_transformation",
    "Meshio.Props.C75_links_false"
   ],
   "note": "The full round trip is false (C75_roundtrip_false: geometrical tags are replaced by ones). C75_roundtrip_partial: everything else is kept. C75_numbers_false, C75_numbers_never: data of elements is listed by numbers from 1 although the elements are numbered from 0. C75_links_false: binary files with periodic links (C75_links_binary) and text files with transformations (C75_links_transformation) are not as the format says. C75_write: meaning of the file. C75_refuses_type: unknown types."
  },
  {
   "property": "C76",
   "status": "partial",
   "theorems": [
    "Meshio.Props.C76_fused",
    "Meshio.Props.C76_roundtrip_partial",
    "Meshio.Props.C76_document"
   ],
   "note": "As for C57 the round trip of every mesh the writer takes is false (one coordinate, vertices and higher order cells in Mixed topologies, empty blocks). C76_fused: what comes back in general; C76_roundtrip_partial: exactly the mesh if neighbouring blocks differ and none is empty. C76_document: the document that is written, element by element."
  },
  {
   "property": "C77",
   "status": "proved",
   "theorems": [
    "Meshio.Props.C77_structure",
    "Meshio.Props.C77_kinds",
    "Meshio.Props.C77_rejects_root",
    "Meshio.Props.C77_rejects_version",
    "Meshio.Props.C77_rejects_grids",
    "Meshio.Props.C77_rejects_collection",
    "Meshio.Props.C77_rejects_reference",
    "Meshio.Props.C77_consistent",
    "Meshio.Props.C77_versions_agree",
    "Meshio.Props.C77_mixed2",
    "Meshio.Props.C77_information",
    "Meshio.Props.C77_item_type",
    "Meshio.Props.C77_item",
    "Meshio.Props.C77_information_refused"
   ],
   "note": "C77_structure: every file that is read is such a document; C77_consistent: its data matches. C77_rejects_root, C77_rejects_version, C77_rejects_grids, C77_rejects_collection, C77_rejects_reference: errors. C77_versions_agree, C77_mixed2, C77_information: what is read. C77_item_type, C77_item: number type, precision, dimensions and format of every data item that is read. C77_information_refused: errors in field data."
  },
  {
   "property": "C78",
   "status": "partial",
   "theorems": [
    "Meshio.Props.C78_fused",
    "Meshio.Props.C78_roundtrip_partial",
    "Meshio.Props.C78_whole_partial",
    "Meshio.Props.C78_document",
    "Meshio.Props.C78_include_false",
    "Meshio.Props.C78_opens",
    "Meshio.Props.C78_refuses",
    "Meshio.Props.C78_mesh_structure",
    "Meshio.Props.C78_step_structure",
    "Meshio.Props.C78_item_type",
    "Meshio.Props.C78_item",
    "Meshio.Props.C78_item_agrees",
    "Meshio.Props.C78_refuses_mesh_file",
    "Meshio.Props.C78_refused_by_read",
    "Meshio.Props.C78_step_refused",
    "Meshio.Props.C78_empty_false"
   ],
   "note": "That every file written without an exception can be read is false: C78_empty_false (an array without entries in XML format is an element without text, TypeError on reading). C78_fused, C78_roundtrip_partial: what comes back for arrays with entries. C78_whole_partial: one mesh and any number of steps, as a user writes and reads them. C78_document: the document, element by element. C78_opens, C78_refuses: exactly which documents are opened, and the errors. C78_mesh_structure, C78_step_structure, C78_step_refused: what can be read. C78_refuses_mesh_file, C78_refused_by_read: the two kinds of files are told apart. C78_include_false: the include elements are never in the XInclude namespace, so that no XInclude processor sees them. C78_item_type, C78_item, C78_item_agrees: data items, and that both readers read the same from them."
  }
 ]
}