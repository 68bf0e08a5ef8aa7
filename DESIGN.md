# meshio in Lean 4: design

## Approach

The model is a set of small total functions over `List`, `Nat`, `Int`, `Option`
and `Except Err`, one per function of `/repo/src/meshio` that carries logic.
Python exceptions are values of `Err`. numpy arrays are lists of rows, Python
dicts are association lists in insertion order, files are lists of characters,
lines, tokens or bytes, whichever level the code works on.

Layout of `/verif/lean/Verif`:

* `Base/`   generic model vocabulary (errors, dictionaries, text, bytes) with lemmas
* `Model/`  the model of the code, each definition citing file and lines
* `Spec/`   small independent specifications used in theorem statements
* `Proofs/` helper lemmas
* `Props/`  the property theorems, each with an `example` showing that its
  hypotheses can be met

## Plan per property

* **C01 Mesh construction accepts exactly the consistent inputs** — `Mesh.mk?` mirrors the constructor check by check; iff theorem against a `Consistent` predicate, proved by induction over the data dictionaries.
* **C02 Mesh consistency survives every history of set/data conversions** — each conversion is a function Mesh → Except Err Mesh; one-step invariant, lifted to op lists by induction.
* **C03 Per-type views are row-aligned** — filter/concat functions over the block list; theorem against `flatMap` specification and position-wise pairing.
* **C04 cell_sets_dict indexes the per-type view** — offset accumulation per type; negation witness for `None` members, partial theorem when no member is missing.
* **C05 cell_sets_to_data tags every cell with its set** — fold of overwrites; theorem per cell: tag = last set containing it.
* **C06 Cell sets survive conversion to data and back** — composition of C05 with np.unique/split of the key name.
* **C07 Point sets survive conversion to data and back** — same as C05/C06 for points; literal name bug as negation.
* **C08 Format registry answers like the history of registrations** — registry as state machine, histories as op lists, refinement to a multiset-of-registrations specification.
* **C09 File type deduction considers every suffix, shortest first, case-insensitively** — suffix list model of pathlib, growing reversed suffixes.
* **C10 read tries the candidates in order and stops at the first success** — readers as functions to outcome values; trace of called readers is returned by the model.
* **C11 write validates before it calls a writer** — writer call recorded in the model's output; decision theorem.
* **C12 Concatenating cell data and splitting it again is lossless** — cumsum and np.split modelled separately; inverse laws.
* **C13 join_strings can be uniquely split** — substring and join/split on char lists.
* **C14 replace_space yields a blank-free reversible name** — as C13.
* **C15 Cell-type tables agree with each other** — full tables in Lean, closed by kernel evaluation over the whole table.
* **C16 Type codes translate back and forth** — full tables, injectivity proved by kernel evaluation, lifted to all names.
* **C17 Node orderings are mutually inverse** — permutation tables; `take` of list by index list for arbitrary labels.
* **C18 VTK connectivity decoding loses no cell and keeps data aligned** — run splitting with offsets exactly as coded; theorem against a cell-by-cell specification.
* **C19 Legacy VTK cell stream round-trips** — integer stream model with reader loop.
* **C20 Structured VTK grids generate the right cells** — index arithmetic for 1D, 2D, 3D; div/mod bijection.
* **C21 Multi-piece VTU files are merged completely** — loop structure as coded (last piece only); negation plus single-piece partial theorem.
* **C22 VTU binary data blocks decode to the bytes that were encoded** — base64 codec modelled bit-exactly; compressor is a parameter with decompress∘compress = id.
* **C23 VTU polyhedra keep faces and data** — faces stream encoder/decoder; negation for data order.
* **C24 OFF round trip** — line/token model of writer and reader; float formatting is a parameter.
* **C25 STL facets round trip** — byte-level model for binary; unique-points model as parameter-free list algorithm.
* **C26 Neuroglancer fragments round trip and bad sizes are rejected** — byte-level model with u32 little endian.
* **C27 OBJ round trip** — line-level model.
* **C28 TetGen index base** — token-level model.
* **C29 PLY faces round trip** — row grouping model for ASCII and binary; dtype tables.
* **C30 Gmsh 2.2 elements round trip** — line-level model of $Elements.
* **C31 Node numbers are resolved through the file's own numbering** — id → index resolution as a function of id lists.
* **C32 Gmsh data sections round trip** — $NodeData/$ElementData token model.
* **C33 Abaqus elements and sets round trip** — line-level model of keyword sections.
* **C34 Nastran bulk data round trip** — fixed-width and comma fields on chars: a file is a list of entries with continuation lines; reader = meaning of the file, writer = exact text, composed for the round trip; the false formats are refuted.
* **C35 FLAC3D zones are written right-handed and read back** — order tables and determinant over commutative ring; group index model.
* **C36 Medit files are well linked and round trip** — byte-offset bookkeeping model.
* **C37 Netgen round trip** — section token model.
* **C38 Tecplot zone describes its data** — zone header/variable-range model.
* **C39 ANSYS sections round trip** — hex printing/parsing and section model.
* **C40 XDMF mixed topology round trip** — integer stream model: the writer's stream against an independent table, the reader's scan by induction over the cells; vertices and order-2 types as counterexamples.
* **C41 XDMF time series keeps every step** — writer as a state machine (counter, heavy files, tree) with histories of calls including failing ones; an invariant ties every data item to the array written; round trip, no overwriting and data-before-mesh by induction over histories.
* **C42 Exodus vector components are assembled exactly once** — name list algorithm; negation for exactly-once, partial for at-least-once.
* **C43 MED Fortran-order storage round trip** — column-major flatten/reshape on lists.
* **C44 UGRID sections round trip** — section model.
* **C45 AVS-UCD round trip** — line model.
* **C46 WKT TIN round trip** — char-level grammar model.
* **C47 SU2 element streams** — token stream model.
* **C48 The CLI info check finds exactly the out-of-range meshes** — comparison model; negation (off by one).
* **C49 MDPA and PERMAS entity names are recognised** — name tables; negation for line3.
* **C50 Writers do not modify the mesh they are given** — writers returning the mutated mesh; negations.
* **C51 Compressed VTU chunking covers the data** — chunk model.
* **C52 HMF round trip** — dictionary overwrite model; negation.
* **C53 VTU cell arrays round trip** — writer arrays against the VTK specification; composition with C18; failures on empty blocks as negation.
* **C54 Raw appended VTU data stay with their arrays** — byte-level model of the offset rewriting; negation by a clash of old and new offsets, partial theorem without clash.
* **C55 Single-integer formats keep the first integer array and report the others** — list model of the choice; negation for data without integers.
* **C56 Exodus files give back what was written, under the right names** — file as the ordered list of netCDF variables; reader and writer as functions on it; round trip by induction over blocks, variables and sets; negations for cell data and combined names.
* **C57 An XDMF file gives back the whole mesh in each data format** — grid as a list of elements, heavy files as a map from names to contents, three formats; the same invariant as C41; round trip by composition.
* **C58 MDPA files say what the mesh says and are read back** — line-level model of reader and writer; file grammar as specification; round trip by induction over sections.
* **C59 PERMAS files say what the mesh says and are read back** — line-level model; file grammar with arbitrary node numbers; negation for the reordered types, partial theorem without them.
* **C60 Gmsh 4.1 files are read as the mesh they describe** — character-level model of the sections over a token reader for text and binary; file description as specification, reading by induction over blocks and sections.
* **C61 Gmsh 4.1 files say what the mesh says and are read back** — character-level model of the writer; the file it describes as specification; composition with C60; negations for point data, periodic links and unlisted entities.
* **C62 Legacy VTK files are read as the mesh they describe** — character-level model of the section loop for both versions; file grammar as specification; reading by induction over the sections.
* **C63 Legacy VTK files say what the mesh says and are read back** — model of the writer; the file written satisfies the grammar of C62 with the sections of the mesh; composition; negations for point clouds in 5.1 and the name vtk51.
* **C64 The XML writer writes documents that mean what was given** — tree model of the writer and a small XML parser; parse of the written text by induction over the tree; negation by a quote in a name.
* **C65 VTU files are read as the mesh they describe** — model of the reader on parsed XML trees; file grammar as specification; reading by induction over sections and pieces; negation for several pieces.
* **C66 VTU files hold the mesh that is written and give it back** — the XML tree of the writer, parsed back by C64, satisfies the file grammar of C65; round trip from C65; negation by a mesh without cells.
* **C67 DOLFIN XML files are read as what they say** — induction over the elements of the document, with an invariant on the rows filled so far; the directory as a list of files; negations by files of other meshes and files with a longer extension.
* **C68 DOLFIN XML files hold the mesh that is written and give it back** — the text of the writer is parsed back with a general lemma on layouts of XML text and satisfies the grammar of C67; round trip from C67; negation by two blocks of triangles with cell data.
* **C69 The in-place command line tools keep the file's format and touch only what they can rewrite** — the commands as functions of the registry, the readers and the writers as parameters; tables of keywords and of registered formats; a lemma on extensions shows that at most one extension of a name is registered. Negation by Gmsh files, which the model of the ANSYS reader rejects whatever follows.
* **C70 convert writes the mesh it reads** — composition of the models of read, of the conversions of sets and of write; iteration over a dictionary with the size check of CPython. Negations: integer data to sets fails for every mesh with data; options that writers do not take.
* **C71 An SVG picture shows every line, triangle and quadrilateral of a flat mesh** — numbers are a type with operations and printing as parameters; the text is parsed by the XML reader model and compared with a specification of paths; the geometry is proved for exact rational arithmetic (floats only approximate it).
* **C72 CGNS files hold points in space and one block of tetrahedra** — an HDF5 file is a tree of groups and arrays; specification by paths into the tree.
* **C73 H5M files number points and cells without gaps and give lines, triangles and tetrahedra back** — an HDF5 file is a record of groups in the order of creation, visited in the order of names.
* **C74 Reading a Gmsh 4.0 file gives the mesh that it describes** — specification as numbers in sections, in text or binary form, with any white space; the reader is proved to give the mesh described.
* **C75 Gmsh 4.0 files hold the mesh that is written and give it back** — the writer is proved to give a file that says the description of the mesh; the round trip follows by C74.
* **C76 XDMF files are XML documents that hold the mesh and give it back** — the text is proved to be parsed as the elements of the abstract writer of C57; the round trip follows; a separate theorem gives the elements and attributes of the document.
* **C77 XDMF documents of version 2 and 3 are read alike, and others are refused** — the reader is modelled from the parsed document for both versions; structure, refusals, agreement of the versions, Mixed topologies and field data are proved for all documents.
* **C78 XDMF time series are XML documents that hold all steps and the mesh** — the text of the whole file is proved to be parsed as the grids of the abstract writer of C41; the opening of documents is characterised by an independent description of the document; the round trip follows.

## What is modelled

Functions of `/repo/src/meshio` and where their model is (`Model/X.lean`). Thin wrappers that only open the file and
call the modelled function (`read`, `write` of most formats) are left out unless they decide something.

| source | model | not modelled in it |
|---|---|---|
| `_mesh.py` | Mesh, Dim | `__repr__`, deprecated accessors' warnings, `Mesh.read` (calls `_helpers.read`) |
| `_common.py` | Common | messages (`info`, `warn`, `error`); `write_xml` is part of the writers that use it |
| `_helpers.py` | Helpers | `sys.exit` is the error `exit` |
| `_files.py` | - | opening files |
| `_vtk_common.py` | VtkCommon, Tables, Types | class `Info` (a record) |
| `_cxml/etree.py` | Cxml | the unused attributes `text` and `insert` |
| `_cli/_info.py` | Info | argument parsing, printing |
| `_cli/_main.py` | - | the parsing of the command line |
| `abaqus` | Abaqus | nothing but what the trusted base lists |
| `ansys` | Ansys | |
| `avsucd` | Avsucd | |
| `exodus` | Exodus | title and info records |
| `flac3d` | Flac3d | |
| `gmsh/common.py`, `main.py`, `_gmsh22.py`, `_gmsh41.py` | Gmsh, Gmsh22, Gmsh41 | |
| `gmsh/_gmsh40.py` | Gmsh40 | short or odd lists of periodic nodes |
| `hmf` | Hmf | |
| `mdpa` | Mdpa | `cell_data_from_raw` (unused) |
| `med` | Med | |
| `medit` | Medit | |
| `nastran` | Nastran | |
| `netgen` | Netgen | `gzip` |
| `neuroglancer` | Neuroglancer | |
| `dolfin/_dolfin.py` | Dolfin | names of files with regular expression characters; `repr` of a number is a parameter, since it differs between versions of numpy |
| `_cli/_convert.py`, `_compress.py`, `_decompress.py`, `_ascii.py`, `_binary.py` | Cli | printed file sizes; `argparse` |
| `svg` | Svg | rounding of floats; negative or NaN sizes; integer coordinates (NumPy refuses to scale them in place) |
| `cgns` | Cgns | attributes, compression |
| `h5m` | H5m | history, types of tags, compression, sets of the mesh |
| `obj`, `off`, `permas`, `ply`, `stl`, `su2`, `tecplot`, `tetgen`, `ugrid`, `wkt` | the file of that name | |
| `vtk/_main.py`, `_vtk_42.py`, `_vtk_51.py` | VtkLegacy (cell arrays), VtkFile (files) | `_skip_meta` past the end of the file; sets of the mesh |
| `vtu` | VtuArray, VtuCells, VtuFile | raw appended data at file level (its arrays are modelled), type promotion between pieces, sets of the mesh |
| `xdmf/common.py`, `main.py`, `time_series.py` | Xdmf, XdmfFile (documents), XdmfSeries, XdmfSeriesFile (documents) | compression of HDF5 |

Not modelled: the parsing of the command line.

## Trusted base

* Lean 4.33.0 kernel. Axioms at most `propext`, `Classical.choice`, `Quot.sound`;
  no axioms of our own. vcheck prints the axioms of each theorem.
* The reading of the Python source; the code was never run.
* Floats: coordinates and data values are opaque (a type parameter, or a token with
  a parse/print pair assumed to be inverse where a format prints them).
* `FloatIO F` (a type with `fmt`, `parse`, `parse (fmt x) = some x`, `fmt x` a token
  without white space) stands for float formatting; `NumIO` adds the exact embedding of
  integers below a bound; `ByteIO k F` is a `k`-byte encoding with a left inverse.
* `np.fromfile(f, sep=" ")` reads white-space separated tokens up to the count
  (`scan` in `Base/File.lean`); what numpy does with malformed text is not modelled.
* `np.unique`/`np.argsort` are modelled by a stable sort (`Base/Sort.lean`).
* numpy: arrays are lists of rows; `np.unique`, `np.split`, `np.diff`, `np.cumsum`,
  `np.concatenate`, slicing and (negative) indexing are modelled by list functions
  with numpy's documented behaviour. Integers are unbounded except where a byte width
  is part of the format (VTU headers, binary formats).
* base64: `Base/Base64.lean` models the standard encoder and the lenient decoder of
  `binascii.a2b_base64` restricted to text over the alphabet and `=`.
* Regular expressions (`Base/Regex.lean`): a backtracking matcher for the patterns WKT uses.
* Gmsh (`GmshFloat`): coordinates (`.16e`), data (`repr`, which must print a plain number: with
  numpy >= 2 it prints `np.float64(...)`) and 8-byte floats keep their values; bytes are
  characters (`Base/BinText.lean`), UTF-8 decoding is left out; int32 overflow is left out
  (the theorems bound the numbers). Gmsh 4.1: that the text `0` is the float zero; the affine
  transformation of a link is a list of floats.
* Abaqus: `upper` and `isnumeric` on ASCII; that sets are stored as int32 arrays, sets whose name is None, sets that name
  themselves or sets of names, and where included files are looked for, are not modelled.
* Nastran (`NasIO`): `np.format_float_scientific`, `f"{x:f}"` and `float(s)` are parameters; references are integers; that
  arrays hold 8-byte integers is not modelled. `NasKeeps.shown` says which value a printed coordinate has.
* ANSYS (`AnsFloat`) and FLAC3D (`FlacIO`): printing and parsing a float, its eight (or four) bytes, `str.encode` and
  `bytes.decode` on ASCII.  FLAC3D's orientation test uses abstract `sub`, `mul`, `add`, `> 0` (`Arith`); rounding of
  `np.cross` and `np.einsum` is not modelled, and `C35_orientation` is about exact arithmetic.
* MDPA and PERMAS (`MdpaFloat`), Medit (`BinFloat`, `NumIO` for 4- and 8-byte floats): printing or storing a float and
  reading it back returns it; `isalpha` is restricted to ASCII letters.
* Tecplot (`TecIO`): `float` does not depend on the case of letters, `DATAPACKING` and `VARLOCATION` are no numbers, no
  number starts with `#`; `upper` acts on ASCII letters.
* Legacy VTK (`VtkIO`, `VtkLaws`): numbers of each numpy type printed by `tofile` and read by `fromfile`, and their big-endian
  bytes; `float`, `np.linspace`. A byte is a character; UTF-8 decoding is left out. Negative counts are left out.
* zlib/lzma: any `compress`/`decompress` pair with `decompress (compress b) = b`.
* h5py: a group is the ordered list of its members; iteration is by name (h5py's default),
  creating an existing name raises ValueError. netCDF4: a file is its named dimensions and
  variables in creation order.
* The XML parser (ElementTree): `parseXml` (Base/Xml.lean) is a small parser for elements, attributes, texts, comments, the five
  named entities and the declaration; it stands for the library's parser on such documents (no CDATA, no doctype, no namespaces,
  no character references). The readers of XDMF, VTU and DOLFIN start at the text of the document; HDF5 storage is not modelled.
* VTU (`VtuIO`, laws `VtuLaws`): text and bytes of floats, zero, the compressors; text of a float is one token and is read back as a (rounded) float, bytes exactly; decompressing undoes compressing.
* XDMF: `str` of a time and `float` of it are a parameter (SeriesIO), assumed to be inverse where a theorem says so; the text of a number and of a time value reads
  back as that value; connectivity is int64; the XDMF file itself is kept apart from the heavy data
  files (their names cannot clash with it).
* The file system: a file is its content; only open modes that change the result
  (`_files.py`) appear.

## Findings (properties that are false of the code)

Each has a theorem `Cxx_..._false` with a concrete witness and a `_partial` theorem
with the strongest form proved; see the notes in `MANIFEST.json`.
