# Formal model of esheldon/meds: design

## 1. What is here

* `properties.jsonl` - the semantic properties, generated by `tools/gen_properties.py`.
* `lean/Verif/Model/*.lean` - an executable shallow model of the code, function by function, exceptions as values.
  Every definition cites the file and lines it models and says where it simplifies.
* `lean/Verif/Spec/*.lean` - small specifications written without the model's helpers (what a "tiling" is, what the pixel of a
  cutout should be, what a nearest labelled pixel is, ...).
* `lean/Verif/Lemmas/*.lean` - helper lemmas.  `lean/Verif/Examples/*.lean` - small concrete inputs.
* `lean/Verif/Props/*.lean` - the property theorems (names start with the property id) with, beside each, an `example` that meets its hypotheses.
* `MANIFEST.json` - status per property, generated by `tools/gen_manifest.py` from the theorem names in `Props` and the notes in that script.
* `seeded/LOG.jsonl` - wrong models tried against the theorems, made with `tools/mutate.py`.
* `tools/axioms.sh` - prints the axioms of all property theorems.  `tools/citations.py` - checks that the lines cited in the model exist and
  contain the name they are cited for.  `tools/imports.sh` - writes `lean/Verif.lean`.

## 2. Modelling conventions

* Python / C exceptions and error returns are values of `Except Err`.
* numpy arrays: `Img` = shape plus flat row-major list; 1-d arrays are `List`.
* Integers are unbounded `Int`/`Nat`, except in `Model/Machine`, which repeats the layout of a file with 32- and 64-bit integers, and in `Model/IntTypes`, which has stored masks and labels and the labels of the compiled uberseg with their numbers of bits.
* Floating point is exact arithmetic over `ℚ` (or `ℝ` where a square root or an angle is needed), without NaN, infinities and rounding.  Separate models redo
  some functions with every operation rounded to a double or a float32 (no overflow, no underflow), and theorems say what the rounding changes: the uberseg tree (`F32`, `Lemmas/Float32`), the
  layout of a file (`Model/Machine`, C95), the composite labels and weights (`Model/CompositeF`, C106), outlier rejection (`Model/RejectF`, C107; with NaN in
  `Model/RejectNaN`), the rough sky cut (`Model/RoughCutF`, C56) and stored pixel types (`Model/PixelTypes`).
  Storing into a FITS image of some dtype is an arbitrary function `cast : type name -> ℚ -> ℚ`, so no theorem depends on how it rounds.
* A catalogue row keeps its per-epoch columns as a list of `Slot`s (all such columns have the same width in the code).  `Model/Columns` treats the same
  tables as structured arrays with named columns, for the statements about columns.
* fitsio: an HDU list with lookup by name (first match), image slices, in-place writes at an offset.  Empty slices raise, as fitsio does; a negative
  slice start is reported as `unmodelled`, because its meaning depends on the fitsio version.
* External code is a parameter: WCS (sky2image, jacobian), PSF models, joblib (returns results in submission order), random numbers, ngmix/psc coaddition.
* A property that is false of the code is kept in its full form in `properties.jsonl`; here it has a theorem `Cxx_counterexample` (a concrete input on
  which it fails), where possible a theorem that says in general what happens instead, and a theorem with suffix `_partial` for the part that holds.

## 3. Trusted base

Lean 4.33.0 kernel; the axioms `propext`, `Classical.choice`, `Quot.sound` (checked with `#print axioms` for all property theorems, see
`tools/axioms.sh`; most theorems use all three, a few none; there are no others); the parts of Mathlib used are kernel checked like the rest.
The fidelity of the model to the text of /repo is by reading only (nothing here runs the code).

### Modelled code

| file | modelled | not modelled |
|------|----------|--------------|
| meds/maker.py | constructor (configuration, column checks, full catalogue, even boxes), layout loop with rough cut, coadd checks, trimming, resizing, start rows, PSF layout, clipped boxes, cutout and PSF writing (serial and joblib), reading of planes with background, mask and scale, metadata | printing, timing, temporary files of joblib (the result is the submitted order), fits headers and compression |
| meds/meds.py | all accessors: cutouts, mosaics, lists, jacobians, psf, sizes, source info, composite weight and seg, uberseg (Python and compiled), interpolated seg, reject_outliers, split_mosaic | `__repr__`, context manager |
| meds/extractor.py, number_extractor.py | range, catalogue and number extraction incl. the file system steps (copy, remove, cleanup) | messages |
| meds/util.py | validate_meds, dtypes and structures, wcs positions, radec to uv | |
| meds/bounds.py | all | `__repr__` |
| meds/coadd.py | MEDSCoaddMaker (types, layout, writing, ranges, metadata), MEDSCoadder (config, epoch selection, edge and central tests, symmetrizing, interpolation, masks, flags, noise images from a given sequence of deviates) | the coaddition itself (psc), the random generator, plotting, PSF fitting (all parameters) |
| meds/compare.py | comparison of catalogues and images, decisions | plotting, random choice of objects (a parameter) |
| meds/_uberseg.c, fast3tree.c | mask by direct search and by tree: build, partition, boxes, sphere search, radius doubling | python C API glue, block contents of the heap model (allocation and freeing are in `Model/TreeMem`); tree functions the package does not call (periodic searches, caches) |
| src/meds.c, meds.h | open (columns, extension list, name lengths), metadata, index checks, cutouts and mosaics of all types, distortion, source info, accessors, allocation and freeing | block sizes and contents of the heap model, failure of malloc, printing |
| src/make-meds-input.c | size tables, box sizes, the whole program on a table | cfitsio, number formatting |
| src/meds-get-cutout.c | the whole program: control flow, exit status, contents of the output file | what cfitsio leaves when writing fails |
| scripts/meds-view | grid shapes and cell numbers, sessions (objects, pictures, page), combined picture, stretch by cutout type, linear grey values | drawing, asinh scaling, colour pictures, functions not called by the program |
| scripts/meds-extract-range, meds-extract-catalog | argument parsing, exit status, effect on the disk | text of messages |
| scripts/meds-compare | exit status as a function of the parsed arguments | parsing of the arguments |
| src/test*.c | | all (they only call the library) |

## 4. Properties

How each property is modelled and proved, and the outcome.  "partial" means that it is false as stated, or proved under the stated restriction.

| id | model | how proved | outcome |
|----|-------|-----------|---------|
| C01 | Maker (layout, clipped boxes, writes) + Reader | writes to pairwise disjoint regions; clipped-box lemma; extensionality | proved |
| C02 | Reader, split_mosaic, layout | contiguity invariant of the layout | proved |
| C03 | layout fold | induction, consecutive regions | proved |
| C04 | layout per-file loop | loop invariant over files | proved |
| C05 | layout loop, coadd check | corollary of the C04 loop invariant | proved |
| C06 | slot computation | rational arithmetic, truncation lemma | proved |
| C07 | image bounds + clipped boxes | rational arithmetic + C01 | proved |
| C08 | force even | integer arithmetic | proved |
| C09 | resized data | max of list, take/drop | proved |
| C10 | read_image | field arithmetic, bit lemma | proved |
| C11 | psf layout, writers, reader | as C01 with variable shapes | proved |
| C12 | joblib psf writer | chunk concatenation; the whole write in C70_same_file | proved |
| C13 | joblib sky2image | chunk concatenation | proved |
| C14 | write twice | false: `ncutout` is not reset, counts double; general theorem + partial | partial |
| C15 | supported types | false: ormask/noise have no default value; general theorem + partial (the four others always complete); `C15_completes_iff` says exactly which inputs can be written (`Spec.Writable`) | partial |
| C16 | force into coadd | false: clipping to the bounds that selected the objects moves nothing | partial |
| C17 | index checks | false for negatives, which wrap (object and cutout index) or raise IndexError | partial |
| C18 | range extractor | slice arithmetic over ordered layouts | proved |
| C19 | range extractor | C18 twice | proved |
| C20 | range extractor, copy_all | false: other extensions are copied unshifted; proved for ranges from the start | partial |
| C21, C22 | number extractor | relayout lemma over contiguous objects | proved |
| C23 | file system state machine of the extractors | false with cleanup on equal names and for other spellings of the path | partial |
| C24 | catalogue extractor | direct | proved |
| C25, C27-C29 | composite functions | pixelwise extensionality over `ℚ` | proved |
| C26 | cseg | false on sky pixels; every pixel of the result given | partial |
| C30 | uberseg, Python | nearest point specification; false for maps with exactly two values, where the code returns early | partial |
| C31 | uberseg, tree search | tree invariant (boxes contain their points), search correct, terminates by radius doubling; every operation on positions and distances is rounded (any monotone, odd, idempotent rounding within 0.1 %; float32 is shown to be one), so the pixel found is nearest by rounded distance, and nearest if the squared diagonal is held exactly. False for stamps of 4097 pixels, and where the early return of C30 applies. With no labelled pixel at all the growth factor overflows and the radius is NaN; the search then finds every point, none of them labelled, and the weight is unchanged | partial |
| C32 | the three variants | all meet the same nearest point specification; the tree version in stamps of up to 2896 pixels on a side | proved |
| C33, C34 | reject_outliers | over `ℝ` with sqrt; median by sorting, permutation invariance | proved |
| C35 | split_mosaic | index arithmetic | proved |
| C36 | Bounds | order reasoning; `expand_bounds` false (elif) | partial |
| C37 | make_wcs_positions | ring | proved |
| C38 | tangent plane | real trigonometry | proved |
| C39 | C reader | refinement to the Python reader; false for files made with the package's default image_info | partial |
| C40 | C reader index checks | every read is inside the arrays | proved |
| C41, C42 | C reader | false: distortion of epoch 0 only; name length without room for the longest name | partial |
| C43 | fft_round_size | table induction | proved |
| C44 | get_box_size | false for limits in the wrong order | partial |
| C45 | coadd maker layout and writes | fold over objects, disjoint regions; the coadding code is a parameter | proved |
| C46 | coadder's epoch tests | case analysis; `Props/EpochTests.lean`: the flag is that of the first failed test, each test stated pixel by pixel | proved |
| C47, C58 | symmetrizing | false: one pass adds one quarter turn only; the mask's own bits are overwritten | partial |
| C48 | coadder config | false: `pop` on the caller's dictionary | partial |
| C49 | edge test disabled | false: always raises UnboundLocalError | partial |
| C50 | comparator | decision logic; false with default arguments | partial |
| C51 | viewer grid | arithmetic; 8 plots are laid out 2 x 4 | partial |
| C52 | jacobian accessors | direct + layout | proved |
| C53 | write as a step sequence | prefix invariant | proved |
| C54 | cutout types | list reasoning; false for a repeated 'image' | partial |
| C55 | get_number after extraction | false without a number column | partial |
| C56 | rough sky cut; with rounding in Model/RoughCutF | convexity of the image's outline, near linear WCS; the bounds stay right under any monotone rounding | proved |
| C57 | central region test | false for regions larger than the stamp | partial |
| C59 | interpolation of bad pixels | pixelwise; the interpolator is an arbitrary function of the positions and values of exactly the good pixels | proved |
| C60 | masks of a coadd | bitwise | proved |
| C61 | flag lists | false for a repeated bit (sum instead of or); works if and only if the flags have no bit in common | partial |
| C62 | coadd maker, several ranges | false: rows of other ranges stay filled | partial |
| C63 | constructor on the catalogue of a file, as rows and as a structured array | false: the input's `ncutout` is kept; true but for unused epoch entries once the counts are set to zero (simulation between the two runs, Lemmas/Remake) | partial |
| C64 | structured arrays: full catalogue, resizing | column by column; the layout as assignments to named columns of one structured array (Model/Table), shown equal to the row model | proved |
| C65 | metadata | false for metadata that already have version fields | partial |
| C66 | validate_meds | false for missing tables (raises); files of the maker pass | partial |
| C67 | constructor checks | case analysis | proved |
| C68 | configuration as a dictionary, extra entries | lookup through the updates; false for `psf` together with `psf_type` | partial |
| C69 | the same, reading of planes | false: `bitmask_allowed` is not used anywhere | partial |
| C70 | parallel or serial | false with both entries; C12 and C13 for the result; C70_same_file: the array-by-array layout (Model/Vector) with either setting and any number of workers leaves the same file | partial |
| C71 | colours for WCS and PSF | case analysis on the sections, position of the image in the list | proved |
| C72 | `_get_wcs` in front of the constructor: header cards, `wcs` column, PSF objects with `get_wcs`; json and esutil's WCS are parameters | positions and jacobians of the written file traced to the chosen WCS (C06 at its base); false when the PSF object has a WCS, and the size of the image is not set on a WCS from `image_info` | partial |
| C73 | make-meds-input | loop invariant of the id file; box sizes by C44; false for trailing words | partial |
| C74 | meds-get-cutout | output equals the Python reader's image (as C39); false: exit status zero on failure | partial |
| C75 | what an epoch hands to the coadd | invariant of the epoch loop: each observation's planes, jacobian, offset, seg map and PSF are looked up at its own epoch; usable pixels unchanged | proved |
| C76 | derived images of an extracted file | every derived product is a function of what C18/C21 preserve; false for cseg without `number` column | partial |
| C77 | coadds do not depend on the rest of the file | observations equal (as C76); false: target jacobian is a median over the file; proved when the targets agree | partial |
| C78 | subsets of a coadd file | coadd files are stored in catalogue order (from C45), so C18 applies; false: ormask lost, extraction by number raises; proved for ranges and the other planes | partial |
| C79 | metadata in the C reader | the nineteen reads share one status; false: a missing column loses all later ones, full string columns overflow; exact rule proved | partial |
| C80 | viewer sessions | session as a list of pictures, questions and page parts; false: leaving with q leaves the page unfinished; rest proved | partial |
| C81 | combined picture | fold of block assignments over the grid of C51, then flipud; false: cutouts upside down; place of every pixel proved | partial |
| C82 | grey values | any ordered field, NaN as none; false for a largest value of zero; proved for positive, order for all non-zero | partial |
| C83 | cutting a file | inductive definition of a split; telescoping over the tiling proved for C03: the range of pixels read for a part is the tiled interval of its objects | proved |
| C84 | noise images | the generator is a sequence of deviates and a position; the functions of the coadder are modelled once more with it, shown equal to those without after erasing the noise, and the loop invariant gives the position of each stamp | proved |
| C85 | noise and other objects | false as stated; the run over a list of objects commutes with moving the generator on by the number of pixels of the stamps before | partial |
| C86 | memory of the C reader | false as stated; the heap is a list of blocks in use, free of another block is undefined; each function is shown to lead to a heap whose blocks are a permutation of those it owns, those lost, and those before | partial |
| C87 | same object, two catalogues | from C01, C02, C04, C05, C06, C11 and C17: each names what is stored in terms of the object's own position and box; a catalogue with objects left out completes, by `C15_completes_iff` | proved |
| C88 | files made in parts | the stored pixels are the concatenation of one block per object (writer lemmas), blocks agree by C87's lemma, and pieces that follow each other are determined by their sizes; the joint file completes when the parts do, by `C15_completes_iff` | proved |
| C89 | stretch of each cutout type, then the grey values of C82, over the reals with sqrt and log10 | maximum of a monotone image of a list; false when all pixels are below minus one standard deviation | partial |
| C90 | `main` of both scripts on the disk of C23, optparse and Python's `int` | command line cases, then C23_output_on_disk; false: a failing run replaces the output | partial |
| C91 | `_read_one_image`, `_get_scale` on a disk of FITS files; path columns of str or bytes | composition with C01 and C10; false: bytes never equal the str none | partial |
| C92 | script with parsed arguments, matching by a chosen column, the draws as a parameter | equivalence proved step by step; false: tolerances only decide what is printed | partial |
| C93 | composition of the scripts' models | C92 with C18 and C21: the view of each object is the same | proved |
| C94 | two runs of the maker and reader side by side | C04 gives the images of the epochs, C06 the positions, C01/C11 the pixels | proved |
| C95 | `Model/Machine`: the layout with rounding after every operation on doubles and wrapping integers | simulation of the exact model on images with rounded positions, step by step; corners and counts stay in range, so only the centres differ | proved |
| C96 | `Model/InputProgram`: arguments, catalogue columns by name, fscanf on characters, the lines printed | false (trailing text accepted); induction over the integers of the text | partial |
| C97 | the value of %.16g as rounding to 16 significant decimal digits | false (17 digits are needed); error bounds for both roundings | partial |
| C98 | `Model/Structs` on the structured arrays of `Model/Columns` | membership of names in the descriptor, duplicates by `List.nodup_append` | proved |
| C99 | `Model/Paths`: assignment of a text to a fixed-width column of bytes, on top of `Model/Sources` | false (paths cut off); C01 and C91 composed with the stored text | partial |
| C100 | `Model/PixelTypes`: `_read_image` in 24 and 53 bit arithmetic, in-place operations on integers refused, and the write with it | false for integers; for floats rounding factors near one, and refinement of the write to the exact write of rounded images | partial |
| C101 | messages of the comparison | `Model/CompareReport.lean` has floating point numbers with NaN and infinities, `numpy.isclose`, the three kinds of messages and the loops; `Props/CompareReport.lean` states closeness, variance and the count of differing pixels by themselves, characterises the messages of each function and of a whole run, and connects the run to `Comparator.go` of `Model/Compare.lean`. | partial |
| C102 | masked pixels in outlier rejection | the model of C33; `Props/RejectMasked.lean`: the median is inside of every interval that has more than half of the values (counting in the sorted list), then the criterion of C33. | partial |
| C103 | NaN in outlier rejection | `Model/RejectNaN.lean`: the function with `none` for NaN in every operation; `Props/RejectNaN.lean`: one pixel, the loop, and the simulation by `Model/Reject.lean` without NaN. | partial |
| C104 | values of unusable pixels | the models of C59, C84; `Props/MaskedValues.lean`: two files with the same catalogue and other extensions, a simulation of the loop over epochs; symmetrizing and rejecting never make a pixel usable. | partial |
| C105 | memory of uberseg | `Model/TreeMem.lean`: arrays with bounds, blocks of the heap (as in C86's model of the C reader), node pointers as block and position while the array can move; `Lemmas/TreeMem.lean`: the arrays hold the tree of `Model/Uberseg` (a relation by ranges of points), in-place swapping is its `partition`; `Props/TreeMem.lean`. | proved |
| C106 | rounded positions and distances | `Model/CompositeF.lean`: the same functions with every operation rounded; `Lemmas/CompositeF.lean`: errors of sums of products counted as roundings of terms; `Props/RoundedLabels.lean`: against the specification of C25-C29 with a tolerance, and equality with the exact model away from borders. | proved |
| C107 | rounding in reject_outliers | `Model/RejectF.lean`: every in-place operation rounded to the type of the array it is put into; `Lemmas/RejectF.lean`: both sides of the comparison are the exact ones times factors of a counted number of roundings; `Props/RejectF.lean`: the criterion with a tolerance, equality with the exact model (C33) away from thresholds, order (C34), a witness for A = 0. | proved |
| C108 | C reader on top of the extractors | C39 reduces each C accessor to the Python one (`cutout_iff`, `mosaic_iff`), C18 and C21 say that the Python view and all columns but the start rows are unchanged; `opens_too`: what `meds_open` needs is unchanged; `C108_written_opens`: made files meet the hypotheses | proved |
| C109 | compiled uberseg with 32-bit labels (`Uberseg.fastLoop32`, `IntType.wrap`) | the tree search of C31 redone for any map of the labels (`treeZero_map`, `tree_map`), then arithmetic modulo 2^32; concrete counterexample from a written file | partial |
| C110 | `cfg.cast` of masks and seg maps instantiated with numpy's conversion of integers (`IntType.cast`) | C01 and C10 for the pixels; bits of numbers modulo 2^w (`Int.testBit_bmod`, `Int.testBit_emod`) | partial |
| C111 | the file of C45 read by the C reader of C39-C41 | invariant of the coadd loop (two epochs per row, `file_id` 0, `image_info` untouched), then the agreement theorems of C39-C41; needs the columns `wcs_path`, `sky_path`, ... in the original `image_info` (C39_counterexample otherwise) | proved |
| C112 | the extra columns of the coadd catalogue (`CRow`) | the loop invariant of C45 for the rows, the flag theorems of C46, and the number of cutouts in a list; counterexample from a written file | partial |
| C113 | `setObjData` of Model/Columns with columns of any shape | the rule is stated on shapes from the last axis, apart from the model's case distinction, and shown to be the same | proved |
| C114 | Model/Dtype: columns with types, offsets and values, -9999 assigned by numpy 1 or 2, conversion to the type of the catalogue | types by the numbers they hold (Spec.Holds) and doubles (Spec.IsDouble), apart from the model's wrap and rounding functions | partial |
| C115 | Model/Dtype: `descr` of numpy with gaps and reordered fields | packed is stated by the sums of the sizes of the fields before (Spec.Packed) | partial |
| C116 | Model/StampTypes: the write path with `subim += default_values[...]` and `bmask & badflags` as NumPy 1 and NumPy 2 make them; a guarded loop completes exactly if the loop does and all guards hold (Lemmas/StampTypes) | Spec.DefaultFits, Spec.FlagsFit (with Spec.Holds), Spec.TypesServe: which types have the number, for the planes of which a stamp is cut out | partial |
| C117 | memory of returned arrays | Model/Memory.lean has memory as a list of buffers and arrays as views into them; the functions that split a mosaic or write through the parts of one are modelled on it, the loops in place. Specification: Spec.Memory (Held, Apart, NewArrays, Returns). Lemmas/Memory.lean proves reading after writing, parts of a view, and that replacing parts in place equals putting together new ones. Proved in Props/Memory.lean. | proved |
| C118 | reject_outliers in place | Memory.rejectOutliers in Model/Memory.lean is the loop with clip and the masked store through views; C118_separate relates it step by step with Reject.rejectOutliers of C33; C118_shared follows one array through all images. Specification: Spec.Outlier, Spec.IsMedian, Spec.zeroed and Spec.Memory. Proved in Props/MemoryReject.lean. | proved |
| C119 | layout with positions of any kind | Model/NotANumber.lean follows the vectorised layout with positions that may be numbers, NaN or infinite (Compare.Flt); only the assignments are those of Model/Vector.lean, after a conversion that fails for anything but numbers. Specification: Spec.CoversN, Spec.dropping. Lemmas/NotANumber.lean; proved in Props/NotANumber.lean. | proved |
| C120 | WCS objects in a store | Model/WcsState.lean keeps WCS objects in a store, with set_naxis and position_offset as updates and all uses as reads; fresh objects are appended. Specification: Spec.withOwn, Spec.SameSource, Spec.lastUser. Lemmas/WcsState.lean: the loop over the images with the store in step with the stateless loop. Proved in Props/WcsState.lean. | proved |
| C121 | number cast to the type of the seg maps (Model/CsegType.lean) | The calls with the number wrapped as NumPy does; equal to those of C26/C27 if the type has the number, pixels in general from the composite rule, refusal by NumPy 2; all-zero uberseg from the slow rule of C30 and the stored labels of C110. Proved in Props/CsegType.lean. | partial |
| C122 | memory with the caller's objects, makers holding addresses of copies or of the objects themselves (Model/MakerHeap.lean); the program with makers as values (Spec/MakerHeap.lean) | Step-by-step correspondence of the two programs: an invariant on which cells belong to the caller and which to one maker; the file theorem and independence of later changes follow from the value program. Proved in Props/MakerHeap.lean. | proved |
| C123 | programs over variables, with blocks and extractor objects, destruction at the last reference (Model/Temporary.lean), on the directory of Model/Disk.lean; being in use (Spec/Temporary.lean) | Invariants of programs by induction: what is referred to was constructed, one object per variable, an entry that only one referenced object may remove is kept; with cleanup everywhere an entry that exists belongs to a referenced object. Proved in Props/Temporary.lean. | partial |
| C124 | pieces of text with their streams (Model/CPrint.lean); text on a stream, lines of an object and of the metadata (Spec/CPrint.lean) | The pieces of each line are computed; injectivity of the text by cutting it at line ends and blanks. Proved in Props/CPrint.lean. | partial |
| C125 | the loops of the maker for pixels of any type, with floats num/nan/inf as pixels (Model/PixelNaN.lean); which pixel is shown, background, unusable pixels, planes that differ in one pixel (Spec/PixelNaN.lean) | Pixel formulas by the tiling argument of C01 made generic; the outcome by mapping all pixels to a point (naturality of the loops). Proved in Props/PixelNaN.lean. | proved |
| C126 | the tests, symmetrizing and interpolation of an epoch with weights num/nan/inf (Model/CoaddNaN.lean); usable, unusable and NaN weight pixels, median of positive floats (Spec/CoaddNaN.lean) | The claim is false: counterexample. The tests are reduced to those of C46 by replacing NaN with 1 or -1; the pixels handed on as for C59. Proved in Props/CoaddNaN.lean; the model with numbers is a special case (C126_numbers). | partial |
| C127 | reject_outliers, the tests, interpolation and noise images of all epochs of an object with floats num/nan/inf (Model/CoaddFloat.lean); median of any floats, outlier, clipped weight (Spec/CoaddFloat.lean) | By cases on the kinds of median, value and weight for the rejection test; an invariant of the loop over the epochs for what is handed on (Props/CoaddFloat.lean). Without infinities the rejection is that of C103 (C127_without_infinities), without NaN the noise that of C84 (C127_numbers). C127_epochs (Props/EpochsFloat.lean) describes the whole loop: flags, used epochs, kept pixels and deviates. | proved |
| C128 | `getObslist` of Model/Coadd with Model/Reject; specification `Epochs.Dropped` in Spec/CoaddPixels speaks of the planes of the file only | rejection described pixel by pixel for any square root (Lemmas/RejectQ), symmetrizing through C47, interpolation through C59, composed over C75_own_epoch; the noise image (`C128_noise`) composed over object_noise | proved |
| C129 | `Model/Workers.lean`: workers as state machines (one PSF image, opening the dump, finishing it), a filesystem, any list of (worker, fault) events, `joblib.Parallel` returning in order of submission or raising a failed worker's exception, `rmtree` in `finally`. Assumed: `mkdtemp` gives a new directory, no worker runs after `Parallel` has raised, `rmtree` succeeds | invariant of every reachable state (each worker's progress against its requests, its own file, nothing outside touched), distinct job paths, measure of remaining steps; pixels through C12 | proved |
| C130 | `Model/Makers.lean`: each call as a state machine (not begun, workers running, loading file by file, ended), all calls over one filesystem, any list of actions | invariant of every reachable state: what is known of each call, directories in use are pairwise apart (siblings with different names share no path), nothing else is changed; each action changes only the directory of its own call; pixels through C12 | proved |
| C131 | `Header.reserve`: file and dictionary as state, fitsio as a parameter (own cards, effect on the dictionary) | closed form of the loop (`reserve_eq`), lookup in a header after `write_keys`; `C131_extensions` ties it to `Maker.reservedHdus` | proved |

## 5. Testing the theorems

`tools/mutate.py` edits one definition of the model in a scratch copy, rebuilds, replaces every proof that fails by `sorry` and rebuilds until the rest
goes through; a property theorem counts as failing if it then depends on `sorryAx`, as "still proved" otherwise.  Results are in `seeded/LOG.jsonl`
(`tightened` names theorems strengthened because a wrong model passed).
