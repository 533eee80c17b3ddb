# A Lean model of sumo-challenge

Source modelled: `/repo` (facebookresearch/sumo-challenge), `sumo-api/sumo` and `tools/`.  The properties are in
`properties.jsonl`, the claims about them in `MANIFEST.json`, the experiments with wrong programs in `seeded/LOG.jsonl`.

## Layout

* `lean/Verif/Model/*`: the model, function by function.  Every definition cites file and lines and says what it simplifies.
* `lean/Verif/Spec/*`: small specifications written without the model's helpers.
* `lean/Verif/Lemmas/*`: helper lemmas.
* `lean/Verif/Props/*`: the property theorems (`C01_...`).  Each is followed by an `example` in which a concrete, non-trivial
  case meets its hypotheses.  Where the code violates a property there is a `Cxx_false...` theorem with a concrete witness
  and a `..._partial` theorem for what does hold.

Naming: a theorem is named after its property.  `_partial` means that the property as stated in `properties.jsonl` is not
fully proved; the note in `MANIFEST.json` says what is missing (nearly always because it is false of the code).

## Trusted base

* Lean 4.33.0's kernel, and Mathlib's definitions that occur in statements (`ℚ`, `ℝ`, `Real.exp`, `Real.cos`,
  `Real.arccos`, `Matrix`, `List`, ...).
* Axioms: only `propext`, `Classical.choice`, `Quot.sound`.  The last section lists which theorem uses which.  No axioms of
  our own, no `sorry`, `admit`, `native_decide` or `bv_decide`.
* The reading of the code.  Nothing of `/repo` was executed; the tie between model and code is the citation on each
  definition.
* The behaviour of third-party code, as described below.

### Modelling conventions

* A Python `dict` is an insertion-ordered association list (`Model/Py`): assignment updates in place or appends, `pop`
  removes, `d[k]` is an error if absent.
* Exceptions are values: `Except PyErr α`.  C++ undefined behaviour (out of bounds access, overflowing a buffer) and an
  uncaught C++ exception are values of `PyErr` too, so that a theorem of the form "returns or raises" excludes them.
  A C++ function that Cython calls through a declaration without `except +` has no handler: there a C++ exception is
  `terminated`, the end of the process (`unguarded` in `Model/Py`).
* `sumo-api/requirements.txt` pins Cython 0.27.3.  There a `cdef` or `cpdef` function with a C or C++ result type and no `except`
  clause discards a Python exception: it prints a message and returns zero, a default-constructed object or, for Eigen types,
  an uninitialised one (`unraisable` in `Model/Py`).  A `cdef` function declared `except +` that raises a Python exception returns
  a null pointer that the caller does not check; using it is undefined behaviour.  C++ asserts are off (distutils passes
  `-DNDEBUG`).
* Python's `sorted`/`list.sort` are stable sorts.  `np.argsort` with the default kind is not stable; it is modelled by an
  arbitrary permutation that sorts the keys, and the theorems hold for each of them.
* Values that are only compared (scores, similarities, thresholds) range over an arbitrary linear order, i.e. finite floats.
* Arithmetic is exact, in `ℚ`, in an arbitrary ordered field or in `ℝ`, except:
  - inverse depth and TIFF pages (`Model/InverseDepth`, `Model/Tiff`) are parametric in a rounding `Rounding K` and have NaN
    and infinities (`FVal`).  The theorems assume `Rounding.Lawful`: monotone, relative error at most half a unit in the last
    place.  Exponent overflow and underflow are left out;
  - average precision, the shape and semantics scores (`Model/FloatAp`) and voxel grids (`Model/FloatVoxel`) exist twice: in exact
    arithmetic, and with every operation rounded to the nearest `float64` or `float32`, ties to even (`double` in `Model/Double`,
    `single`).  The exponent is unbounded there: no overflow, no subnormal numbers.  `np.sum` may add in any order (`FlSum`);
  - so do the rotation conversions and pose error (`Model/FloatRotation`) the perceptual score (`Model/FloatPerceptual`) and point IoU
    (`Model/FloatPoints`).
    `np.sqrt` is correctly rounded, `x**2` of a numpy scalar is the rounded product.  Functions of the C library, 3×3 matrix
    products, `logm` and norms are parameters there, with at most the few assumptions named in the theorems;
  - XML text of numbers (`Model/Xml`) is modelled with `numpy`'s eight digits, over `ℚ`;
  - glTF buffers (`Model/Gltf`) hold the bits of binary32 numbers and compare them as IEEE does;
  - voxel linear indices wrap in int32 as in the code.
* An empty mean (NaN with a warning) and `math.inf` results are explicit constructors or `none`.
* Random numbers (`np.random.uniform`) are an arbitrary sequence given as a parameter; the theorems hold for every sequence.
* The downloader is a transition system: its pool's tasks interleave arbitrarily, each operation may fail and the run may be
  killed between any two steps.
* In `Model/Objects` a program is a list of calls on variables.  Python objects hold the address of a C++ object; an object no
  variable refers to is freed whenever the program says so (`Op.collect`), so that every order is covered.  Objects made within
  a call that ends with an exception are not Python-visible and left out, their C++ objects are not.  Calls are atomic.

### Third-party code replaced by its contract

| Code | Contract used |
|---|---|
| `sklearn.neighbors.BallTree` | the exact nearest distance and some index attaining it |
| `pymesh` | its boolean intersection is a volume given as a parameter; enclosed volume by the divergence formula |
| `scipy.linalg.logm` | for a rotation matrix, `sqrt(.5)*norm(logm(R))` is the angle `arccos((tr R − 1)/2)` |
| `xml.etree` | a DOM tree; writing and parsing turns empty text into `None` and normalises newlines; characters XML forbids are left out |
| JSON (`json`, picojson, nlohmann) | `Model/TinyGltf`: documents are trees; about their texts `Faithful` (`Spec/TinyGltf`) is assumed: a text is parsed to the document it was written from, numbers rounded as `printf("%.15g")` does, spaces at the end ignored.  `Lemmas/TinyExample` has a writer and a loader for which this is proved.  `Model/PicoJson`: the bytes of the metadata of TIFF files and the parser of `picojson.h` (C179, C180).  Elsewhere: values survive |
| `h5py` | a file is a dictionary of data sets and attributes |
| `ElementTree` texts, `h5py` in project folders | `Project.Env.Faithful`: what is written is read back (up to the changes XML parsers make), and an XML text that is cut off is not well formed; shown to be satisfiable by `exEnv_faithful` |
| libtiff | a file is the list of its directories with the tags used; tags and scan lines survive |
| OpenCV | `cv::Mat` is a matrix of pixels; `imread`/`imwrite` are parameters |
| tinygltf | `Model/TinyGltf`: the bundled writer and loader, section by section, for the fields of `tinygltf::Model` that are used; C121–C126 |
| PNG in glTF files | `Faithful`: a picture that was written is decoded to the same pixels, also with spaces behind it |
| GLB files in project folders | in `Scene` a parameter (`MeshOps`); `Model/Project` fills it in with `TinyGltf` (C131) |
| `zipfile` | a function from bytes to a list of members or an exception |
| PLY files (`tinyply`) | none: header and binary data are modelled byte by byte (`Model/Ply`); the text form of numbers (`Reader`) and the encoding of single precision numbers (`SingleCodec`) are parameters |
| `tempfile`, `os`, `shutil` | a map of directories and files (`Model/GlbSave`), no links or permissions; full disks in `Model/FullDisk` |

### Not modelled

* Of `tiny_gltf` what `GltfModel` does not use (names, node transformations, cameras, skins, animations, lights, extensions,
  extras, morph targets); the text of JSON documents, `stb_image*`; of `threedee/tinyply` what the wrapper does not use (writing ASCII); reading ASCII
  numbers is a parameter.
* What `matplotlib`, `pymesh` and `pyny3d` make of the drawings they are asked for; of `setup.py` the table of extensions and what `setup` does; the tests.
* Floating-point rounding outside the places named above, memory exhaustion, performance.
* Text encodings; Cython type coercions that only raise `TypeError`.
* Downloader: after Ctrl-C `pool.terminate` may kill workers before their cleanup (covered by the step `crash`).

## Plan per property

| Property | Model | How |
|---|---|---|
| C01–C05, C08 | `Assoc`: similarity cache, pruning, greedy loop, threshold loop | induction over the detection list with an invariant on assigned ground truth ids; threshold loop refined to a one-threshold spec |
| C06 | same | uniqueness (C04) applied to both orders |
| C07 | `Assoc.categoryAssoc` with its KeyError | equality with agnostic association of filtered scenes |
| C09–C17 | `Ap`: cumsum, precision, in-place interpolation, `searchsorted`; argsort as any sorting permutation | closed form by induction from the right, then order arguments |
| C18–C21 | `Scores` | from C01, C09; C19 false: the parameter is never used |
| C22–C24, C29 | `Perceptual` over `ℝ` with `Real.exp` | sums of bounded terms |
| C25–C28 | `PoseError`, `Rotation` over `ℝ` | trace bounds; finite symmetry groups; C28 false, partial theorems by range of the free angle |
| C30, C31, C34, C77 | `Points`: exact nearest neighbours over an ordered field | counting arguments; C77 false |
| C32, C76 | `BBox`: quick rejection, IoU formula, face table | C76 false: enclosed volume is 5/6 of the box |
| C33, C78 | `Scores`, `Assoc`: evaluator constructors | C33 false: arguments swapped |
| C35, C36 | `Geometry`: 3-vectors, 3×3 matrices, `Rot3`, `Pose3` | ring identities with orthogonality |
| C37 | `Rotation` quaternion/Euler conversions | four-branch case analysis; round trip fails at gimbal lock |
| C38, C42, C60 | `Xml`, `Symmetry`: DOM, `to_xml`/`from_xml`, number text | round trip with error bound; accepted documents characterised |
| C39–C41, C43, C80 | `Box` | lattice arguments, finite table of faces |
| C44–C50, C81 | `Voxel` | div/mod arithmetic; C46 false, C81 false |
| C51–C55, C58, C82–C88 | `Mesh` (with textures and materials) | index arithmetic; several false with witnesses |
| C56, C91 | `PointCloud` | list arguments; C56 false for uncoloured with coloured |
| C57, C79, C92, C93 | `Sample` over `ℝ`, random numbers as parameter | barycentric arithmetic; C92: the image of any measurable set of random pairs has area = triangle area × its measure (change of variables) |
| C59 | `Symmetry` | finite table by `decide` over the whole (finite) domain |
| C61–C65, C94–C96 | `Scene` with a file map and a heap of settings | composition of round trips; false parts with witnesses |
| C66, C67 | `Glb` bytes | independent parser as specification |
| C68, C69, C97, C98 | `Gltf`, `Mesh` | history invariant: buffers only grow; C69 false beyond INT_MAX |
| C70, C89 | `InverseDepth` with rounding | monotonicity and rounding arithmetic |
| C71, C100 | `Tiff` pages | round trip per page, page order, validation first; every file classified |
| C72, C90 | `Category` | false at id = table length and for the documented format |
| C73, C74 | `CubeMap`, `RangeImage` | per-face case analysis |
| C75 | `Downloader` | invariants over all histories; termination of failure-free runs by a decreasing measure |
| C99 | `GlbSave` | case analysis of the path |
| C101–C104 | `Ply`: header lines, type table, columns, skipping, both byte orders, writer | bytes of a described file parsed back by induction over elements, rows and columns; false parts with witnesses |
| C105–C107 | `RangeImage`, `Gltf` with `unguarded` calls | outcome of each pixel or entry; invariant of all obtainable meshes |
| C108, C109, C112, C113 | `Track`: element objects and settings dicts as references, constructors of the three classes, all metrics | frame lemmas over sequences of constructor calls; false parts with witnesses |
| C114 | `ProjectScene.load` with its header and element loops | fold lemmas: the last tag of each kind counts; false part with a witness |
| C115 | `extractTexture`, `cvImageFromImage`, `extractTexturedPrimitiveMesh` | induction over pixels; false part with a witness |
| C116 | `Texture`: buffers, numpy arrays with strides, `cv::Mat3b` headers, histories | invariant that the buffers of meshes are not those of arrays; stride arithmetic |
| C117, C118 | `Arrays`: numpy arrays by type, shape and elements; `base/vector.pyx`; constructors of `Mesh`, `TexturedMesh`, `PointCloud` | elementwise; lost exceptions as zeros or empty results |
| C119 | `Arrays`, `Rotation`: constructor of `Quaternion` | four-branch case analysis of C37 |
| C120 | `PoseHeap`: buffers, views, references of a program to arrays, rotations and poses | frame argument on buffers, for every program; witnesses for sharing |
| C121–C126 | `TinyGltf`: documents, files, GLB bytes | what is written is read back section by section (`Reads`), images and buffers through the GLB body; invariant `Good` of all histories; lengths of cut off files by case analysis |
| C127–C130 | `Objects`: the C++ heap, Python objects with pointers, variables; 24 calls | simulation by a world without pointers, invariant over all programs; witnesses for leaks and aliasing |
| C131–C133 | `Project`: paths, saving as a list of changes of the file system, XML and HDF5 texts as parameters; `Scene` over `TinyGltf` and `GlbSave` | induction over the objects; states left by a killed process as prefixes of the list with one change done in part; witnesses for relative paths and slashes in ids |
| C134–C139 | `Double`: rounding to 53 bits, ties to even; `FloatAp`: `compute_ap` and the scores with every operation rounded, sums in any order | `Lemmas/Double` (error, monotonicity, exact cases), closed form by induction, error propagation; witnesses by computation |
| C140 | `FloatVoxel`: `Voxel` with every operation rounded, `float32` or `float64` corner | error propagation axis by axis; the exact model run on shifted points; witnesses by computation |
| C141 | `FloatRotation`: `matrix_to_quat` with every operation rounded, correctly rounded square root | relative error calculus; the largest component is at least 1/2 after scaling |
| C142 | `FloatRotation`: `quat_to_euler`, `rotation_error_1`, `pose_error` with every operation rounded; C library as a parameter | which calls raise depends only on the argument of `asin`; error bound for it away from gimbal lock; witness by computation |
| C143 | `FloatPerceptual`: `Perceptual` with every operation rounded, boxes of `float32` or `float64`, library functions as parameters | score ≤ maximum as a loop invariant, by monotonicity of rounding; equality as an invariant for perfect submissions |
| C144 | `FloatPerceptual`, the iteration order of sets as a parameter | error of repeated subtraction: partial results stay below the maximum while positive; witness by computation |
| C145 | `FloatPoints`: `Points` with every operation rounded | relative error of computed distances; the root of a rounded square is not below the number; witness by computation |
| C146 | `Project` at the level of documents and files | the file loop, from the end; bounds through an independent reading of binary floats |
| C147 | the pattern language of `fnmatch`, and the downloader in a folder with any name next to others | plain names: the same steps; brackets: the pattern matches names of another length only; invariants on the rest |
| C148 | the transition system of C75, from any initial disk | invariant: tasks work on requested archives or on `*.zip` files |
| C149 | `pointsRmsssd`, `colorRmsssd` with every operation rounded, any summation order | counting roundings (`Near`), loop lemmas shared with C34 |
| C150 | `transformAllFrom` and the elements' boxes with every operation rounded; the matrix product is a parameter | the corner picked by the signs of a row is half a voxel further than any centre, more than the rounding |
| C151 | `loadN`, `saveN`: load and save with the native objects and open files | loop invariants; agreement with the model without memory; witnesses for the leaks |
| C152 | `Fl.posedBbox`, `Fl.bbox2pymesh`, `Fl.bbSimilarity`: the bounding-box track with every operation rounded | hull inside the box of the vertices; error of a rounded corner; relative error of the ratio |
| C153 | `World`, `MultiOp`, `World.step`: programs over arrays, dicts and `MultiImageTiff` objects with references | frame lemmas for each step, induction on programs; witness for the shared dict |
| C154 | `Volume`, `cppWrite`, `pyWrite`, `saveAsGltfOn`, `saveAsGlbOn`, `Ply.writePlyOn`, `Tiff.saveOn`: the savers on a disk with a given number of free bytes | induction on the files written; a cut document cannot be parsed, so a bundle that was made has all data; witnesses for cut PLY, TIFF, glTF files and pictures |
| C155 | `Fl.Rot3`, `Fl.Pose3` (rotations and poses with rounded sums; `np.dot`, sine and cosine as parameters) | induction on expressions: operator-norm distance to the exact rotation; Cauchy–Schwarz for the rounded products; transposition keeps the bound |
| C156 | `Fl.Rot3.ENU_camera`, `Fl.Pose3.ENU_camera` and the Maya ones | C155 for the product; sine and cosine are 1-Lipschitz; witness: 0.1 in single precision |
| C157 | `Gltf.Model.readIndices`, `readVector`, `extractPrimitiveMesh`, against the layout of the glTF specification (`Spec/GltfForeign`) | element by element; witnesses: byte indices, interleaved vertices |
| C158 | `Fl.unproject`, `Fl.pointFromRange`, `Fl.cloudRow` in doubles, against the exact rays (`Spec/FloatRange`) | count of roundings along the ray, the norm and the product |
| C159 | `Xml` printing and reading of poses and boxes, repeated | decimals of a given notation are a fixed point; the notation can only change once; witnesses for a change |
| C160 | `PointCloud.save`, `savetxt`, `printed18`, `readText` | nineteen digits are within half a spacing of the double, so it is the nearest one |
| C161 | `Gltf.Model.addColoredMaterial`, then the glTF writer and reader of C121-C126 | the document is that of a model whose two factors are truth values, which is read back |
| C162 | The wrapper as a function on (collector flag, clock, printed lines) with exceptions as values; an interrupt before each of its statements; threads as a transition system with one step per statement that touches the collector. | Cases; an invariant over schedules; concrete schedules for the false parts. |
| C163 | The accessors as functions of a whole number: conversion to `size_t`, then an unchecked or checked lookup. | Cases; concrete clouds for the false part. |
| C164 | `Box3d.volume` and `center` with every operation rounded by a format, which is `double` or `single`. | Monotonicity and relative error of rounding, exactness of halving. |
| C110 | `Track.defaultSettings` | computation |
| C111 | `Track` with `Assoc`, `Scores`, `Perceptual`, `PointMetrics` | greedy matching of copies is the identity; witness with thin triangles |
| C165 | `unitize` over the reals, and in double precision with a norm that is a rounded root of a rounded sum of squares. | Direct; relative error of each coordinate. |
| C166 | `on_left` over an ordered field, and in double precision with any order of additions. | Barycentric coordinates; an error calculus counting roundings. |
| C167 | `np.allclose` and `np.array_equal` entry by entry, with infinities and not-a-number. | Cases on the entries; triangle inequality. |
| C168 | The main process with an outcome for every call, and whether `pool` is bound. | Induction on the attempts. |
| C169 | The same model: log and exit status. | Induction on the attempts; witnesses. |
| C170 | The check as arithmetic on bytes. | Sums of bounded sizes. |
| C171 | `from_mesh`, `to_mesh` and `to_textured_mesh` over the models of C57 and C116. | Barycentric combinations of equal colours; the twelve triangles each lie in a face. |
| C172 | The requests to matplotlib as a list of subplots. | Cases on the options; lists equal by entries. |
| C173 | The loop over the axes, with collections that are used up by iteration. | Columns of the rotation as images of the unit vectors. |
| C174 | The pictures and the lookups. | Induction on rows; monotone inverse depth (C70). |
| C175 | Four commands and the pipe between the last two as a transition system on sets of files. | An invariant over all sequences of steps. |
| C176 | The edits of `sys.argv`. | Lists split at the first `build_ext`. |
| C177 | What `plot_pr` asks `matplotlib` for. | From C134 and the form of the sampled curve. |
| C178 | The two loops over the keys of the cache. | The cache as a map over the elements; products of lists without duplicates. |
| C179 | The bytes written by `serialize` and the parser of `picojson.h`, with the value it has filled in at an error. | Seventeen digits are closer than half a unit in the last place; the three notations are spelled from the digits; the parser step by step on the text. |
| C180 | The same. | Witness run by the kernel; the general cut from the parser on a number at the end of a text; by cases on the first character. |
| C181 | The same. | Induction on the number of steps of the parser, for values, items and members at once; characters one by one. |
| C182 | `base64_encode`, `base64_decode`, `DecodeDataURI`. | Groups of three bytes; no header is the beginning of another one. |
| C183 | Memory as a function of addresses; arrays with strides; contiguity as numpy checks it. | Address arithmetic; strides of dimensions of size 1 do not matter. |
| C184 | `mat_from_array`, `array_from_mat`. | False: three witnesses. Address arithmetic for packed rows. |
| C185 | `_parse_string`, `_parse_codepoint`, `_parse_quadhex`; the grammar of RFC 8259 as an inductive relation, UTF-8 as in Lean's library. | Induction on steps and on derivations. |
| C186 | The same. | The grammar as mutually inductive relations; induction on the number of steps, for values, items and members at once. |

## Where the code and the properties disagree

Properties that could not be proved as stated.  Each has a `_false` theorem with a concrete witness unless the entry says otherwise.

* C19 (shape_score honours the recall_samples setting): False of the code: compute_ap is called without the configured recall samples. Proved: the score does not depend on them, and that they do matter inside compute_ap.
* C25 (Pose error is infinite exactly when nothing evaluated was matched): Everything is proved except zero error for exact poses of cylindrical elements in gimbal lock, which is false (witness). Arithmetic is exact; see C142 for double precision.
* C28 (Rotation error ignores a declared cylindrical symmetry): False of the code: the free angle is copied in Euler angles, which is only invariant for the ranges in the partial theorems; witnesses given for each axis.
* C33 (VoxelEvaluator evaluates the submission against the ground truth): False of the code: the voxel evaluator hands submission and ground truth to the base class in the wrong order. Proved: the scores differ on a concrete pair, and the exact exchanged behaviour.
* C37 (Rotation representations convert back and forth): False at gimbal lock (pitch ±90°): both atan2 calls get (0,0) and the round trip loses the rotation. Proved everywhere else, with the exact value and a witness at gimbal lock.
* C38 (Poses survive serialisation): JSON and surreal round trips are exact for every pose (rotation matrices for surreal). XML keeps eight decimals only: proved with an error bound, exact for numbers with at most eight decimals and nine significant digits; as worded it is false (1/3 is not read back). Malformed documents: the exact set of accepted documents is proved; it is larger than the documented one (a rotation column of a single number is broadcast; JSON columns of any common length are accepted).
* C42 (Boxes survive serialisation): Boxes are read back to within half a unit of the eighth decimal (exactly for short decimals); exactness for all boxes is false (witness at 1/3). The set of accepted documents is characterised exactly; refusals are RuntimeError, or TypeError for a corner without text.
* C46 (Adding points repeatedly occupies the union): False of the code: when only one of the x/y sizes grows, both are replaced (voxel_grid.py:129-130) and earlier voxels move. Proved for sequences whose extents grow together; C46_union_iff says exactly when the union is right after every call.
* C52 (TexturedMesh.renumber preserves geometry): False of the code: an index beyond the renumbered block is shifted by the number of new vertices although its vertex moves by that minus the block length (TexturedMesh.cpp:52-56). Proved when all indices are in the block or nothing is renumbered; C52_other_indices states what happens otherwise.
* C53 (merge_quadrant_meshes joins four quadrants without moving a vertex): False for quadrants with more than four vertices (inherits C52). Proved for four-vertex quadrants with any triangles.
* C56 (Point cloud merge concatenates): False of the code: an uncoloured cloud merged with a coloured one is accepted and the colours no longer line up with the points (point_cloud.pyx:78-86). Proved for clouds that are both coloured or both uncoloured, for sum and for register.
* C58 (replaceGeometry keeps meshes well-formed): False of m.replace_geometry(m), which empties the mesh. Proved for distinct objects.
* C60 (Symmetry survives serialisation and malformed symmetry is reported): The error half is false: an unknown symmetry name is swallowed and None returned. Round trip and the exact set of accepted documents are proved.
* C61 (Objects survive save and load): Pose and bounds come back to within the eight decimals of the XML text (exact for short decimals); through a file ids must be non-empty. Mesh ids must not consist of dots only (the GLB name would have no extension). A missing id is always refused, but with UnboundLocalError instead of ValueError (C61_false). GLB files are a parameter here: the loaded meshes are what loading the written file gives; C131 fills it in.
* C63 (Scenes survive save and load): Proved for scenes whose elements are a ProjectObjectDict. False for scenes made by transform_pose (plain dict, save raises AttributeError) and for settings other than the three in the file.
* C64 (Scene transform_pose is a group action that keeps everything else): The action laws, the identity, the inverse and the unchanged rest are proved; the settings are replaced by the defaults (C64_false).
* C67 (gltf2glb preserves buffer and image data): False for a view without byteOffset into a buffer other than the first: it is moved to offset 0 of the file (glb_converter.pyx:186-193). Proved for the other views; image views include up to three trailing padding spaces. C67_accepts_iff characterises when the conversion succeeds; C67_documents carries the result over to JSON documents.
* C68 (GltfModel returns the meshes that were added): False for a textured mesh without a base colour texture: its material keeps texture index 0 (TexturedMesh.cpp:31-34, GltfModel.cpp:325-334), so extraction raises or returns another mesh's texture. Proved for all other meshes.
* C69 (Accessor min/max bound the data): The running minimum and maximum start from INT_MAX and INT_MIN, so data beyond these is bounded wrongly (C69_false). Proved for data within.
* C71 (Multi-page TIFF round trip): libtiff and the JSON text are parameters: a written file is the list of its pages. Everything is proved except that every refused page map raises an exception: this is false, a label page of another type or a colour image that is not contiguous in memory (a slice) makes save go on with a null pointer, because mat1w_from_array and mat3b_from_array are declared `except +` and their ValueError is not looked for.
* C72 (ColoredCategory lookups are total on known ids and raise otherwise): False of the code for an id equal to the table length (IndexError instead of the fallback) and for duplicate names. Proved otherwise.
* C75 (Interrupted downloads are resumed, not trusted): False: a file left incomplete by a killed run (or by a transfer that ends early without an exception) is taken for the archive by all later runs (download_sumo_datasets.py:240-250); it is never fetched again and extraction fails for ever. Proved: marker files are truthful after every history, a run that reports completion has extracted everything, failures that raise leave no incomplete archive, and from such a state a run without failures terminates with everything extracted.
* C76 (The bounding-box track measures the volume of the box): False of the code: the face table does not match the corner order; the solid is the box minus a corner tetrahedron, 5/6 of the volume.
* C77 (Surface errors ignore unevaluated ground truth): False of the code: unevaluated ground truth elements that are matched do count (witness). Proved when all matched ground truth elements are evaluated.
* C79 (Sampled mesh colors come from the texture at the uv coordinate): False of the code: u selects the row and v the column (mesh_evaluator.py:64-66, model_sampler.pyx:57-59). Proved that the lookup is always inside the image and which texel it gives.
* C80 (Empty meshes do not affect computed bounding boxes): False of the code: an empty mesh contributes the origin.
* C81 (Unreadable voxel files are reported as IOError): False of the code: the IOError is built but never raised; UnboundLocalError results.
* C82 (Textured merge keeps texture coordinates): False when the first mesh has fewer texture coordinates than vertices, which the constructor allows.
* C84 (Copying and transforming a mesh keeps its material): False of the code: the copy constructor and transform drop the material.
* C87 (Mesh.cube is a closed cube): False of the code: the index array is np.empty and never filled.
* C89 (Inverse depth boundaries are as documented): False as documented: negative depths do not raise but get the code of the near plane, and depths between near*PIXEL_MAX and twice that get 1, not 0. The partial theorem states what does hold.
* C90 (The documented category table format loads): False: the documented colour format raises ValueError. Proved for semicolon separated colours, the format of the shipped table.
* C93 (ModelSampler and the evaluator sample alike): False for models whose meshes have no triangles: ModelSampler then returns an array with 3 columns. Proved otherwise.
* C94 (A failed scene save leaves nothing behind): False: a failed save leaves the directory behind and a retry then fails. Proved that nothing else changes and existing projects are never touched.
* C95 (almost_equal recognises a reloaded copy): False: almost_equal is not symmetric (C95_false). Proved: scenes saved to and loaded from files are almost_equal in both directions, under the conditions of C131 (C95_scene); the comparison is characterised; it is not symmetric.
* C96 (Changing the settings of one scene does not change another): False for scenes created without settings and by transform_pose, which share DEFAULT_SETTINGS. Loaded and converted scenes have their own settings.
* C97 (update_materials gives every mesh the requested material): False: colours with a zero component are ignored (GltfModel.cpp:564) and an undecodable picture is accepted (602). Proved otherwise.
* C98 (has_same_material compares the whole material): False: number_array and number_value (so colours) are ignored (Mesh.cpp:183-190). Proved what is compared.
* C99 (save_as_glb writes the file the caller named and nothing else): False for relative paths: the path is resolved inside the temporary folder (gltf_model.pyx:266-273), so a bare name is silently lost and a path with directories raises IOError. A wrong extension leaks the temporary folder. Proved for absolute paths.
* C100 (Loading any TIFF file returns images or raises): False: a 16 bit colour page overflows its buffer (RgbdTiff.cpp:160-176) and a colour page named category or instance ends in an uncaught C++ exception. Proved for all other files.
* C101 (A point cloud survives PLY files): False: colours are written but never read back (point_cloud_ply_c.cpp:24-51), and the file of an empty cloud fails an assertion when loaded. Proved: what is written, and that points come back in order, rounded to single precision.
* C102 (Any well-formed binary PLY file loads with its own points): False: columns are read in file order whatever their names, so z, y, x come back swapped, and double coordinates overflow the buffer. Proved for every well formed binary file of either byte order with float columns in the order x, y, z, with any other elements, columns and lists.
* C103 (A missing or damaged PLY file is reported as a Python exception): False: a negative number of points is taken modulo 2^64, a missing one is undefined; a missing file or one without vertices ends the process (no `except +` in the declaration) and a truncated file gives made-up points. Proved: the only Python exception is the AssertionError for a file without points.
* C104 (Writing a point cloud as PLY never reads outside it): False: a cloud merged from one without and one with colours has fewer colours than points and is written by reading outside its memory; an unwritable file ends the process. Proved: reading outside happens exactly if there are fewer colours (but some) than points.
* C105 (create_point_cloud returns a cloud or raises): False: a colour or range image that is not contiguous in memory (a slice) makes the code read a null pointer, and an image wider than six times its height ends the process (rgbdci_360.pxd has no `except +`). Proved: this happens exactly if a pixel of valid range lies beyond the sixth face; otherwise a cloud is returned.
* C106 (update_materials reports bad entries as Python exceptions): False: a picture file that is missing or empty ends the process (gltf_model.pxd:34-35 has no `except +`). Proved: the outcome for every list of entries.
* C108 (Later evaluators do not change the results of earlier ones): False of the surface errors of a mesh evaluator: a later mesh evaluator on the same elements draws new points into them, and the first evaluator then reports other surface errors. Proved: all other metrics stay for every sequence of later constructor calls; the surface errors stay for voxels always, for meshes if no later mesh evaluator touches the elements.
* C109 (Leaving out the settings means the default settings): False of the mesh track: without settings MeshEvaluator reads settings["density"] of None and raises TypeError as soon as there is an element. Proved for bounding boxes and voxels; which missing keys raise KeyError.
* C110 (The default settings are the documented ones): False: the thresholds are 0.25 to 0.75, the recall samples 0 to 1 in steps of 0.1. Proved: what the defaults are.
* C111 (An exact copy of the ground truth gets the best result): False of the mesh track: with some random numbers the points drawn for an element and its copy are so far apart that nothing is matched. Proved: the best result for boxes with a volume and for voxel grids, if different elements are distinguishable; for meshes if the drawn points overlap enough.
* C112 (The settings of an evaluator are fixed when it is constructed): False of a dict passed by the caller: it is kept by reference, and a threshold put into it later makes pose_error raise KeyError. Proved: the construction only sorts the thresholds; an evaluator constructed without settings is unaffected by all other dicts.
* C114 (Loading a scene gives the scene of the document or a documented exception): False of a <scene> document without <elements>: UnboundLocalError instead of the documented ValueError. Proved: which documents give IOError and ValueError, what a loaded scene is, and that unknown tags are ignored. Text that is not XML (ParseError) is outside the model.
* C115 (Textures of a loaded model are its pictures): False of a texture without source (-1 in memory): images[-1] is read, undefined. Proved for textures that name a picture.
* C116 (A textured mesh owns its pictures): False of arrays with a number of channels other than three: with one or two channels memory past the end is read, with four the channels of neighbouring pixels mix. Proved for three channels and all histories; for from_mesh with a colour of three entries (with four entries the texture is not uniform).
* C117 (A mesh keeps the arrays it is made of): False of vertex arrays that do not have three rows: the exception is lost in a C function and the mesh has no vertices. Proved for arrays of three rows; element types and dimensions that are refused; meshes from Open3D.
* C118 (A point cloud keeps the points and colours it is made of): False of colours with an entry outside 0 to 255: such a colour becomes black without an exception, and fractions are cut off. Proved for entries from 0 to 255 (integer parts).
* C119 (A quaternion made of a rotation matrix is that rotation): False of 3x3 arrays of another type than float64: the exception is lost and the quaternion is computed from unset memory. Proved for float64 arrays.
* C120 (Poses and rotations are values): False: writing through Pose3().translation() changes every later Pose3(); an inverse and a pose from FromMatrix34 share the memory of the original. Proved: the value of every operation in every reachable state; nothing changes while the program writes only to arrays it made; results of products, transforms and matrix34 are independent of older arrays; an inverse follows its original.
* C121 (A model saved as a GLB file and loaded again has the same meshes): False: a model whose meshes are all empty, and one with a plain mesh of the default (empty) material, are saved but cannot be loaded (loading the first ends the process: data.at(0), tiny_gltf.h:2458, throws out of a function declared without except). Proved for every history of adding meshes (with some geometry, with materials each of whose entries has one kind of value), saving and loading: saving and loading restore every mesh, saving fails exactly from 4 GiB on, loading exactly from 2 GiB on. Assumed of JSON texts and PNG: Faithful.
* C122 (A model saved as a glTF file and loaded again has the same meshes): False for a mesh with the default (empty) material: it is written as null, and the file cannot be loaded. Proved under the conditions of C121 for files of less than 2 GiB.
* C123 (A model keeps its meshes through every sequence of adding, saving and loading): False for the material: after saving and loading, its name is also among the additional entries, so has_same_material says it is another one (C123_false). Proved, for meshes whose material is not empty and has one kind of value per entry (see C122_false for empty ones): everything else is kept, and what changes in the material is said exactly (the additional entry name, the numbers of textures, rounding).
* C125 (A GLB file that was cut off or damaged raises IOError): False: if the file is cut off behind the JSON text, the loader reads behind the end of the buffer, and so it does if the length of the JSON part is close to 2^32. Proved: exactly which lengths lead to IOError and which to undefined behaviour; IOError for every file with a header that does not fit otherwise.
* C126 (A glTF file whose other files are missing raises IOError): False for pictures: the file is loaded without them and with uninitialised sizes. Proved for the file of the buffer.
* C128 (No C++ memory is lost): False: a quaternion is never freed, a second __init__ loses the first C++ object, loading a TIFF file loses the image header of every page the file does not have, saving loses one if depth and inverse depth are given and all of them after an exception, and a failed extraction loses the meshes made before. Proved for programs without these.
* C129 (Objects behave as values with identity): False: replace_geometry of a mesh with itself empties it; merging or appending an object with itself has undefined behaviour; the sum of a single cloud is that cloud. Proved for programs without such calls.
* C130 (A call changes no object but the one it is called on, and results are new objects): False: the sum of a single cloud is the cloud itself, so that changing the sum changes it. The rest is proved for all programs.
* C131 (A project that was saved to a folder can be loaded from it): False for relative paths and scenes of meshes, all of them: saving raises IOError and leaves an empty folder behind (C131_false). Proved for absolute paths and for scenes without meshes. Poses and bounds come back to within the eight decimals of the XML text; mesh files of 4 GiB cannot be written and of 2 GiB not be loaded.
* C133 (Saving a project changes nothing outside its folder): False: an id that starts with a slash makes saving overwrite a file elsewhere. Proved for ids without slashes.
* C135 (Average precision in double precision lies in [0, 1]): False: nine correct detections of nine elements get 1 + 2^-52 (C135_false). Proved up to TP / 2^49 above 1, and exactly for area_under_curve=False.
* C139 (The shape and semantics scores survive rounding): The range is false: nine elements submitted as they are score 1 + 2^-52. The error bounds and the NaN cases are proved.
* C140 (Voxel grids survive rounding): False: with the default corner and voxels of 0.1 the bounds of the voxel of the origin leave out the origin; VoxelGrid(49).voxel_size is not 49. Rejection is proved exactly; cells, centres, bounds and voxel size up to explicit error bounds.
* C142 (Pose error never raises, also in double precision): False: for a cylinder turned by 90 degrees about the y axis, rounding pushes the argument of math.asin above 1 and pose_error raises ValueError, whatever the C library returns. Proved: exactly which inputs raise, none without cylinders, and none with one cylindrical axis when poses stay 2^-36 away from gimbal lock.
* C144 (The perceptual score is reproducible): False: with the default settings and two hallucinated boxes of volume 0.05 and 2.2 the last bit of the score depends on the order in which the set of ids is iterated. Proved: the difference is at most (elements + 1) / 2^52 + (thresholds + 1) / 2^50. In exact arithmetic the order does not matter (C24).
* C145 (Rounding and the quick rejection in point IoU): False in one respect: two points whose computed distance is exactly the threshold overlap, but their bounding boxes can be rejected, so that the quick rejection turns an IoU of 1 into 0. Proved: range, symmetry and value 1 on equal sets without exception; the exact IoU, rounded once, when no distance is within a factor 1 +- 2^-49 of the threshold; after a rejection no computed distance is below the threshold. BallTree.query is a parameter.
* C147 (The downloader works in every destination folder): False of the code: glob takes the name of the folder as a pattern (download_sumo_datasets.py:240-247). In a folder called data[1] nothing is ever extracted, but the script says so. Proved for names without *, ? and [.
* C148 (The downloader leaves other files alone): False of the code: every *.zip in the folder is extracted and deleted, the user's own too. Proved for files that are neither requested nor called *.zip.
* C151 (Loading and saving images leaves nothing behind): False of the code: each load of an Rgbd360 leaves two empty cv::Mat objects (rgbd_tiff.pyx:81-82 continues before the del); a refused file stays open or its pixels stay allocated; a save given both depths, or that cannot write, loses objects. Proved: exactly what a returning load leaves (no file, no pixels, 4 minus the number of images), exactly when a file stays open, exactly what save leaves when it returns or cannot write.
* C153 (A MultiImageTiff keeps its images): False of the code: the constructor keeps the caller's dict, so changing that dict later changes the object (and others made of it); load(path, **options) hands the options to a function that takes none. Proved: stable as long as the dict is left alone; loaded objects are stable in every program; saved files and the round trip.
* C154 (A save that returns has written everything): False of the code: the C++ writers (PLY, TIFF, glTF, pictures) never look at the state of their streams, so the calls return with incomplete files; a cut PLY file is even loaded without an error. save_as_glb: the bundle itself is written by Python and is complete when the call returns; the data are complete too (a cut document cannot be parsed); pictures cut in the temporary folder are bundled as they are. A file is written from the beginning; for TIFF what libtiff stores is a parameter.
* C156 (Cameras have the angles they are given): False of the code: the angles of the two Pose3 constructors are declared float, a C float in Cython, so they are rounded to single precision (a roll of 0.1 is off by more than 2^-30, against a rounding error below 2^-44). The Rot3 constructors are right; the Pose3 ones are right up to 2^-24 of each angle.
* C157 (Models made by other programs are read as glTF says): False of the code: indices of one byte (UNSIGNED_BYTE) are read as if they had four bytes, and byteStride is ignored, so interleaved vertices and normals are misread; both without an error. Proved for indices of two and four bytes and packed float attributes. Sparse accessors, normalised texture coordinates, primitives without indices, normals or material (which raise) and node transforms (which are ignored) are outside the statement.
* C159 (A pose or box that was loaded can be saved again without changing): False of the code: numpy prints a vector in fixed or exponential notation depending on its values, and after the first rounding the choice may change, so the second save rounds again. Proved: poses are stable from the second round on and boxes from the seventh; the numbers of a pose stay within 1.01e-8 of their size (or of 1) for ever.
* C161 (Coloured materials are kept): False of the code: metallic and roughness are set without has_number_value (GltfModel.cpp:638-644), so both are written as truth values, and the roughness under the misspelt name roughNessFactor; they never reach a file. Proved: number, name and colour, and the other materials.
* C162 (Timing a function changes neither its result nor the garbage collector): False of the code in three ways: a function that disables the collector finds it enabled again; a KeyboardInterrupt between gc.disable() and try, or in finally before gc.enable(), leaves it off (C162_interrupt says exactly when); two threads can leave it off for good. Proved: the result, the printed line, the collector for functions that leave it alone, to any nesting and when they raise, and for threads whose entries do not interleave.
* C163 (Access by index returns the element or raises): False of the code: point, color, image_size and image_uri use the unchecked operator[] of std::vector, so an index past the end reads other memory; so does color(i) for an existing point of a cloud without colours, or of one merged from clouds with and without. Proved: the element for all indices inside, exactly which indices are undefined, OverflowError for negative ones, and the whole property for meshes and columns.
* C166 (on_left tells the sides of a line): Proved in exact arithmetic. False in double precision for points within rounding of the line: a point on the right may be said to be on the left (C166_false). Proved in double precision for all other points, with an explicit bound.
* C167 (almost_equal is a similarity and == of boxes an equality): False of the code: almost_equal is neither symmetric nor transitive, and a pose with a not-a-number entry is not almost equal to itself (C167_false). Proved: the exact meaning, when something is almost equal to itself, and that exchanging the two needs a tolerance larger by 1/(1-rtol) only. The rounding of the tolerance itself is not modelled.
* C168 (The downloader reports what went wrong): False of the code before the process pool exists: the handlers use the variable pool, which is not bound yet. The program then ends before unzipping with a message about that variable, and an interrupt is not recognised (C168_false). Proved: every exception is logged in any case; the rest of the property where the pool exists.
* C169 (The downloader ends with what it did): False of the code: the exit status is 0 whatever happened (C169_false), and a stage may end without a word if files turn up between the last two looks (C169_silent_false). Proved: without exceptions the log says complete or unable to in all other cases, after up to three attempts.
* C170 (The downloader starts only if the data fits on the disk): False of the code: it counts 6 GB per archive where its comment says 6.5 GB on average, so from 21 archives on it may pass although the archives do not fit (C170_false). Proved for archives of at most 6 GB and 10 GB of extracted data.
* C172 (Showing a point cloud draws all its points): False of the code with colored=True: it takes the method colors for the array and every call raises (C172_false). Proved without colours.
* C173 (Drawn poses are the frames they stand for): False of the code for no poses and for iterators, which raise ValueError, the latter after the first axes (C173_empty_false, C173_iterator_false). Proved for sequences of one or more poses.
* C175 (setup.py cleanall removes the generated files and nothing else): False of the code for names with blanks: xargs takes them apart, so the generated file stays and another file is deleted (C175_false). Proved for names without blanks, for all interleavings.
* C176 (The command line of setup.py does what its comments say): False of cleanall: the program exits before the clean that its comment announces (C176_false). Proved for build_ext.
* C180 (Metadata that is not well formed is refused): False: readMetadata does not look at the error of picojson::parse, and an object is filled in as its text is read; for every near plane the text without its end (no version, no closing brace) is accepted, and the text of 0.25 cut after 0.2 gives another near plane. Proved: a text that does not begin with a brace is refused.
* C184 (Images of any layout pass between numpy and OpenCV unchanged): False of the code: mat_from_array looks only at the first stride and takes three channels for granted, so that OpenCV sees other bytes of views with reversed channels or transposed axes and of images with an alpha channel; array_from_mat ignores the distance of the rows and garbles parts of images (wrap.pyx:15-41, 72-97). Proved: images whose rows are packed are seen correctly, and recovered if the rows also follow each other. Nothing else in the repository calls the two functions.

Further observations that are not separate properties:

* C23: an exact copy of a scene with an unevaluated floor scores below 1 (`C23_unevaluated_floor`).
* C34: the colour error of empty matched clouds raises `ValueError` (`C34_color_empty_raises`).
* C45: linear voxel indices wrap in int32 for large extents (`C45_overflow`).
* C57: a model without meshes cannot be sampled (`C57_no_meshes`).
* C59: `!=` on `ObjectSymmetry` recurses for ever (`C59_ne_recursion`).
* C62: dictionaries whose keys differ from the elements' ids lose elements (`C62_duplicate_ids`).
* C71: if both depth and inverse depth are given for one page the last in the dictionary wins; a non-finite `near` raises only
  after the file has been truncated.
* C70, C71: a NaN in a 16 bit depth image becomes code 0 without an exception, that is infinity when loaded (`code_nan`).

## Axioms used by each theorem

Names are in the namespace `Sumo`.  From `#print axioms`.

* none (6): `C59_ne_recursion`, `C84_copy_partial`, `Timing.C162_threads_false`, `Show.C172_false`, `Show.C173_empty_false`, `Show.C173_iterator_false`
* `propext` (33): `C06_ties_depend_on_order`, `C07_ill_keyed_raises`, `C20_vectors`, `C36_columns`, `C36_scalars`, `C56_merge_partial`, `C56_merge_plain`, `C56_sum`, `C56_color_at`, `C59_eq_iff`, `C60_unknown_name_accepted`, `C67_false`, `Gltf.C106_covers`, `Gltf.Model.C115_false`, `Texture.C116_uniform_false`, `PoseHeap.C120_false`, `Objects.C127_none`, `Objects.C128_false_quaternion`, `Objects.C128_false_init`, `Objects.C128_false_extract`, `Objects.C128_false_save`, `Objects.C129_false_replace`, `Objects.C129_false_merge`, `Objects.C130_false`, `Timing.C162_threads_off`, `Access.C163_negative`, `Access.C163_false`, `DownloaderMain.C168_preparation`, `DownloaderMain.C169_false`, `Setup.C176_false`, `Wrap.C184_false`, `Wrap.C184_part_false`, `Wrap.C184_refused`
* `Quot.sound`, `propext` (68): `C38_json_missing`, `C40_merge_least`, `C40_merge_order_grouping`, `C41_bbox_tight`, `C47_voxel_size`, `C49_save_load`, `C51_vertices`, `C51_corners`, `C51_uncommon`, `C51_in_range`, `C52_renumber_partial`, `C52_other_indices`, `C52_defined`, `C52_false`, `C53_false`, `C56_create`, `C56_merge_refused`, `C56_register`, `C56_false`, `C58_replace_partial`, `C58_replace_textured_partial`, `C59_none_rejected`, `Gltf.C68_textured`, `C70_zero_is_infinity`, `Tiff.C71_refused_unwritten`, `Tiff.C71_false`, `Tiff.C71_validated_first`, `C73_faces_right_handed`, `C81_load_partial`, `C81_false`, `C82_textured_merge_partial`, `C82_false`, `C83_transform`, `C83_action`, `C83_rotate_textured`, `C86_cube_texture`, `C87_mesh_cube_partial`, `C88_dual_texture`, `C88_kept`, `C91_transform`, `C91_transform_plain`, `C91_thin`, `C96_false`, `Gltf.C98_false`, `Tiff.C100_false`, `Gltf.Model.C115_texture`, `Gltf.Model.C115_refused_partial`, `Gltf.Model.C115_base_color`, `Texture.C116_false`, `Tiff.C151_same_load`, `Tiff.C151_same_save`, `Tiff.C151_load_partial`, `Tiff.C153_saved`, `Tiff.C153_false`, `Tiff.C153_options_false`, `Tiff.C154_tiff_partial`, `Tiff.C154_tiff_false`, `Gltf.C157_false`, `Gltf.C161_added`, `Close.C167_eq`, `DownloaderMain.C169_retries_partial`, `Show.C172_partial`, `Show.C172_determines`, `Show.C173_partial`, `Show.C174_surface`, `Plots.C178_listing`, `Wrap.C183_accepted`, `Wrap.C184_alpha_false`
* `Classical.choice`, `Quot.sound`, `propext` (565): `C01_one_to_one`, `C02_matches_are_real`, `C03_no_blocking_pair`, `C03_unmatched`, `C04_greedy_unique`, `C04_greedy_unique_ties`, `C05_threshold_independent`, `C05_category_threshold_independent`, `C06_order_independent`, `C07_category_is_restriction`, `C07_same_category`, `C08_score_ranking`, `C09_ap_range`, `C09_sampled_ap_range`, `C10_ap_formula`, `C11_curve`, `C12_false_positive_never_helps`, `C12_trailing_false_positives`, `C13_fixing_a_detection`, `C14_listing_order`, `C14_ties_matter`, `C15_score_ranking`, `C16_sampled_precision`, `C16_sampled_antitone`, `C17_hits_first`, `C17_perfect`, `C17_no_hit`, `C18_shape_score_range`, `C19_recall_samples_ignored`, `C19_samples_matter_in_compute_ap_partial`, `C20_unevaluated_ignored`, `C21_semantics_score`, `C22_perceptual_range`, `C23_perfect_submission`, `C23_perfect_submission_default`, `C23_room_scale_matters`, `C23_unevaluated_floor`, `C24_set_order`, `C24_missed`, `C24_extra`, `C25_pose_error`, `C25_exact_pose_partial`, `C25_exact_pose_gimbal_lock`, `C26_geodesic_distance`, `C26_range`, `C26_spherical`, `C26_self`, `C26_no_symmetry`, `C27_least_equivalent`, `C27_invariant`, `C28_cylinder_partial`, `C28_x_axis_partial`, `C28_y_axis_partial`, `C28_z_axis_partial`, `C28_false_y`, `C28_false_z`, `C28_false_x`, `C29_room_scale`, `C29_only_floors`, `C30_range`, `C30_symmetric`, `C30_self`, `C30_empty`, `C31_value`, `C31_quick_reject_sound`, `C32_quick_reject_sound`, `C32_similarity_range`, `C32_flat`, `Track.C32_stored`, `C33_voxel_scores_differ`, `C33_voxel_exchanged_partial`, `C33_mesh_not_exchanged`, `C34_points_rms`, `C34_points_rms_values`, `C34_color_rms`, `C34_color_zero`, `C34_color_empty_raises`, `C35_pose_group`, `C35_pose_action`, `C35_pose_rigid`, `C35_pose_matrix`, `C35_mul_operator`, `C36_rotation_constructors`, `C36_angles_add`, `C36_axis_angle`, `C36_camera_heading`, `C36_camera_roll`, `C36_columns_rotation`, `C36_camera_pose`, `C37_quat_round_trip`, `C37_euler_to_quat`, `C37_euler_round_trip_partial`, `C37_euler_of_matrix`, `C37_euler_gimbal_value`, `C37_euler_gimbal_lock`, `C38_xml_round_trip_partial`, `C38_xml_exact`, `C38_false`, `C38_accepts_iff_partial`, `C38_refuses`, `C38_false_column`, `C38_json_round_trip`, `C38_false_json`, `C38_surreal_round_trip`, `C38_surreal_rotation`, `NumText.exists`, `C39_corners`, `C39_constructor`, `C41_bbox_meshes`, `C42_round_trip_partial`, `C42_exact`, `C42_false`, `C42_accepts_iff`, `C42_refuses`, `C43_box_mesh`, `C44_vectorize_linearize`, `C44_injective`, `C44_linearize_vectorize`, `C45_occupied`, `C45_overflow`, `C46_union_partial`, `C46_union_iff`, `C46_false`, `C47_rejects`, `C48_bounds`, `C49_built_grid`, `C50_voxelizer`, `C53_quadrants_partial`, `C54_long_edges`, `C54_edges_to_origin`, `C55_face_normals`, `C55_vertex_normals`, `C55_equivariant`, `C57_sample_mesh`, `C57_incomplete`, `C57_sample_element`, `C57_no_meshes`, `C57_reaches`, `C58_false`, `C59_accepts_documented`, `C59_from_strings`, `Show.C59_str`, `C59_example`, `C60_round_trip`, `C60_from_xml_partial`, `C61_round_trip_partial`, `C61_file_round_trip_partial`, `C61_empty_id_false`, `C61_missing_id_partial`, `C61_false`, `C61_defaults`, `C61_return_false`, `C62_round_trip`, `C62_duplicate_ids`, `C63_round_trip_partial`, `C63_existing`, `C63_false`, `C63_extra_settings_false`, `C64_action_partial`, `C64_false`, `C65_refuses`, `C65_converts`, `C65_succeeds`, `C66_well_formed`, `C66_size`, `C67_views_partial`, `C67_images`, `C67_images_behind`, `C67_accepts_iff`, `Gltf.C67_documents`, `Gltf.C68_partial`, `Gltf.C68_accepts`, `Gltf.C68_constructed`, `Gltf.C68_false`, `Gltf.C69_partial`, `Gltf.C69_uv_partial`, `Gltf.C69_false`, `Gltf.C69_infinite`, `C70_decode16`, `C70_decode8`, `C70_roundtrip16`, `C70_roundtrip8`, `C70_error16`, `C70_error16_exact`, `C70_error8`, `C70_monotone16`, `C70_monotone8`, `C70_upgrade`, `C70_upgrade_legacy`, `C70_image_roundtrip`, `C70_image8`, `Tiff.C71_round_trip`, `Tiff.C71_stable`, `Tiff.C71_accepts_iff`, `Tiff.C71_defined_partial`, `Tiff.C71_inverse_depth`, `Tiff.C71_legacy`, `Tiff.C71_rgbd360`, `Tiff.C71_rgbdci360`, `Tiff.C71_rgbdci360_needs_labels`, `Tiff.C71_no_metadata`, `C72_lookup_partial`, `C72_image`, `C72_missing_file`, `C72_ragged`, `C72_false`, `C73_on_face`, `C73_injective`, `C73_surjective`, `C73_vertical_seams`, `C73_up_down_seams`, `C73_beyond`, `C73_pixels`, `C74_points`, `C74_all_points`, `C74_shape_mismatch`, `Downloader.C75_markers_partial`, `Downloader.C75_complete_partial`, `Downloader.C75_failures_partial`, `Downloader.C75_resumes_partial`, `Downloader.C75_no_deadlock`, `Downloader.C75_cache_in_name`, `Downloader.C75_false`, `C76_false`, `C76_solid_volume_partial`, `C76_surface_inside_partial`, `C77_all_evaluated_partial`, `C77_false`, `C78_settings_reusable`, `C79_lookup_partial`, `C79_cell`, `C79_false`, `C80_empty_mesh_counterexample`, `C80_empty_meshes_partial`, `C82_defined`, `C83_inverse`, `C84_false`, `C85_example`, `C85_normals`, `C86_cube`, `C87_false`, `C89_boundaries_partial`, `C89_false`, `C90_semicolons_partial`, `C90_signed`, `C90_false`, `C91_round_trip`, `C92_uniform`, `C92_coefficients`, `C93_samplers_agree_partial`, `C93_false`, `C94_save_effects_partial`, `C94_false`, `C63_existing`, `C95_reloaded`, `C95_compares`, `C95_dict`, `C95_false`, `Gltf.C95_same_size`, `Project.C95_scene`, `C96_loaded_partial`, `C96_two_loads_partial`, `C65_converts`, `Gltf.C97_partial`, `Gltf.C97_kind`, `Gltf.C97_false`, `Gltf.C97_bad_picture`, `Gltf.C97_image_name`, `Gltf.C98_partial`, `GlbSave.C99_partial`, `GlbSave.C99_working_directory`, `GlbSave.C99_side_effects`, `GlbSave.C99_relative`, `GlbSave.C99_bad_name`, `GlbSave.C99_false`, `Tiff.C100_partial`, `Ply.C101_written`, `Ply.C101_round_trip_partial`, `Ply.C101_false`, `Ply.C101_empty_false`, `Ply.C102_reads_partial`, `Ply.C102_order_false`, `Ply.C102_double_false`, `Ply.C103_partial`, `Ply.C103_missing_false`, `Ply.C103_no_vertex_false`, `Ply.C103_truncated_false`, `Ply.C103_negative_false`, `Ply.C103_no_count_false`, `Ply.C104_partial`, `Ply.C104_false`, `Ply.C104_unwritable_false`, `C105_outcome_partial`, `C105_slices`, `C105_false`, `Gltf.C106_outcome_partial`, `Gltf.C106_false`, `Gltf.C107_add_never_fails`, `Track.C108_scores_stable_partial`, `Track.C108_rms_partial`, `Track.C108_false`, `Track.C109_defaults_partial`, `Track.C109_missing_keys`, `Track.C109_false`, `Track.C110_partial`, `Track.C110_false`, `Track.C111_bb_partial`, `Track.C111_voxel_partial`, `Track.C111_mesh_partial`, `Track.C111_false`, `Track.C112_sorted`, `Track.C112_own_partial`, `Track.C112_false`, `Track.C113_refused`, `Track.C113_labels`, `Track.C113_printed`, `Track.C113_copy_partial`, `C114_refused_partial`, `C114_accepted`, `C114_unknown_tags`, `C114_false`, `Texture.C116_refused`, `Texture.C116_kept_partial`, `Texture.C116_derived`, `Texture.C116_channels_undefined`, `Texture.C116_uniform`, `C117_kept_partial`, `C117_textured_partial`, `C117_refused`, `C117_rows_lost`, `C117_false`, `C117_open3d`, `C118_kept_partial`, `C118_refused`, `C118_plain`, `C118_black`, `C118_false`, `C119_matrix_partial`, `C119_vector`, `C119_refused`, `C119_false`, `PoseHeap.C120_pose_values`, `PoseHeap.C120_values`, `PoseHeap.C120_frame`, `PoseHeap.C120_fresh`, `PoseHeap.C120_inverse_follows`, `PoseHeap.C120_default_partial`, `Gltf.C121_partial`, `Gltf.C121_false`, `Gltf.C122_false`, `Gltf.C122_partial`, `Gltf.C122_false`, `Gltf.C123_partial`, `Gltf.C123_false`, `Gltf.C124`, `Gltf.C125_false`, `Gltf.C125_partial`, `Gltf.C125_overflow`, `Gltf.C126_partial`, `Gltf.C126_false`, `Objects.C127_safe`, `Objects.C127_held`, `Objects.C128_partial`, `Objects.C128_end_partial`, `Objects.C128_false_load`, `Objects.C129_partial`, `Objects.C129_ends_partial`, `Objects.C130_others`, `Objects.C130_new_partial`, `Project.C131_partial`, `Project.C131_false`, `Project.C132`, `Project.C132_taken`, `Project.C133_partial`, `Project.C133_false`, `C134_formula`, `C134_curve`, `C135_range_partial`, `C135_sampled`, `C135_false`, `C136_accuracy`, `C137_false_positive_never_helps`, `C137_trailing_false_positives`, `C138_fixing_a_detection`, `C139_shape_accuracy`, `C139_semantics_accuracy`, `C139_range_false`, `C140_rejects`, `C140_voxelizer`, `C140_occupied`, `C140_bounds_partial`, `C140_bounds_false`, `C140_bounds_false_double`, `C140_voxel_size_false`, `C141_unit_quaternion`, `C141_doubles`, `C142_false`, `C142_returns_iff`, `C142_sine_partial`, `C142_euler_partial`, `C142_no_cylinder`, `C142_cylinder_iff`, `C142_pose_error_partial`, `C142_pose_error_cylinder_partial`, `C143_range`, `C143_perfect`, `C143_missed`, `C143_extra`, `C143_room_scale`, `C144_reproducible_partial`, `C144_false`, `C145_range`, `C145_symmetric`, `C145_self`, `C145_exact`, `C145_reject_partial`, `C145_false`, `Project.C146_refused`, `Project.C146_loaded`, `Project.C146_bounds`, `Downloader.C147_plain_partial`, `Downloader.C147_sees_itself`, `Downloader.C147_brackets`, `Downloader.C147_sees_instead`, `Downloader.C147_sees_instead_negated`, `Downloader.C147_false`, `Downloader.C147_other_folder_false`, `Downloader.C148_kept_partial`, `Downloader.C148_false`, `Downloader.C148_false_run`, `C149_surface`, `C149_color`, `C149_zero`, `C150_inside`, `C150_inside_uniform`, `C150_voxel`, `C150_self`, `C150_mesh`, `C150_far`, `Tiff.C151_open_files`, `Tiff.C151_save`, `Tiff.C151_false`, `Tiff.C151_refused_false`, `C152_reject`, `C152_depth`, `C152_ratio`, `C152_exact_values`, `Tiff.C153_made_partial`, `Tiff.C153_loaded`, `Tiff.C153_round_trip`, `Tiff.C153_inverse_depth`, `Ply.C154_ply_partial`, `Ply.C154_ply_false`, `Gltf.C154_gltf_partial`, `Gltf.C154_gltf_false`, `Gltf.C154_glb_bundle`, `Gltf.C154_glb_partial`, `Gltf.C154_glb_false`, `C155_rotations`, `C155_poses`, `C155_points`, `C155_points_back`, `C155_round_trip`, `C155_distances`, `C155_growth`, `C156_rot3`, `C156_partial`, `C156_false`, `Gltf.C157_indices_partial`, `Gltf.C157_attributes_partial`, `Gltf.C157_mesh_partial`, `C158_points`, `C158_all_points`, `C158_distance`, `C158_shape_mismatch`, `leftNorm_good`, `C159_pose_partial`, `C159_pose_drift`, `C159_false`, `C159_box_partial`, `C159_box_false`, `C160_text`, `C160_injective`, `C160_own_colours_dropped`, `C160_default_color`, `Gltf.C161_partial`, `Gltf.C161_false`, `Timing.C162_result`, `Timing.C162_gc`, `Timing.C162_nested`, `Timing.C162_printed`, `Timing.C162_false`, `Timing.C162_interrupt`, `Timing.C162_threads_partial`, `Access.C163_point_partial`, `Access.C163_color_partial`, `Access.C163_images_partial`, `Access.C163_mesh`, `Access.C163_mesh_error`, `Access.C163_column`, `Fl.float64_good`, `Fl.float32_good`, `Fl.C164_center`, `Fl.C164_volume`, `Fl.C164_monotone`, `Fl.C164_inside`, `Fl.C164_center_on_boundary`, `C165_exact`, `C165_double`, `C165_not_exact`, `C166_triangle`, `C166_reverse`, `C166_rigid`, `Fl.C166_double_partial`, `Fl.C166_false`, `Close.C167_pose`, `Close.C167_box`, `Close.C167_self_partial`, `Close.C167_symmetric_partial`, `Close.C167_eq_close`, `Close.C167_false`, `DownloaderMain.C168_logged`, `DownloaderMain.C168_stage_partial`, `DownloaderMain.C168_interrupt_partial`, `DownloaderMain.C168_false`, `DownloaderMain.C169_log_partial`, `DownloaderMain.C169_gives_up_partial`, `DownloaderMain.C169_silent_false`, `DownloaderMain.C170_partial`, `DownloaderMain.C170_refuses`, `DownloaderMain.C170_false`, `Uniform.C171_colored`, `Uniform.C171_box_mesh`, `Uniform.C171_box`, `Show.C174_rgbdci`, `Show.C174_range`, `Setup.C175_partial`, `Setup.C175_safe_partial`, `Setup.C175_false`, `Setup.C176_partial`, `Plots.C177_axes`, `Plots.C177_window`, `Plots.C177_curve`, `Plots.C177_sampled`, `PicoJson.C179_round_trip`, `PicoJson.C179_injective`, `PicoJson.C179_description`, `PicoJson.C179_near`, `PicoJson.C180_false`, `PicoJson.C180_truncated_false`, `PicoJson.C180_brace_partial`, `PicoJson.C181_round_trip`, `PicoJson.C181_unique`, `Base64.C182_round_trip`, `Base64.C182_length`, `Base64.C182_plain`, `Base64.C182_uri`, `Base64.C182_buffer`, `Wrap.C183_view`, `Wrap.C183_round_trip`, `Wrap.C183_refused`, `Wrap.C184_grey_partial`, `Wrap.C184_color_partial`, `PicoJson.C185_string`, `PicoJson.C186_accepted`
