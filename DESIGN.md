# Formal model of Justfunde/LayoutIdentificationAlgorithm — design

All paths are relative to `/repo/src/Common` unless stated otherwise.

## 1. Approach

The model is a set of small total computable Lean functions, one per C++ function, in
`lean/Verif/Model/*.lean`.  Each carries a comment citing file and lines.  Independent
specifications live in `lean/Verif/Spec/*.lean`, helper lemmas in `lean/Verif/Proofs/*.lean`,
and the property theorems (with non-vacuity examples beside them) in `lean/Verif/Props/*.lean`. `lean/Verif/Witness/*.lean` applies the theorems
that have hypotheses to concrete, non-trivial cases: each `example` there type-checks only if the case meets every hypothesis of the theorem it applies.

### Outcomes
`Res α` = `ok a | throw e | ub`.  `throw` carries the C++ exception class.  **Undefined behaviour is
a distinct outcome**: out-of-bounds `operator[]`, null dereference, division by zero, over-wide
shifts (platform parameter), signed overflow all produce `ub`.  `ub` is absorbing (nothing catches it);
`try/catch` blocks of the code only intercept `throw`.

### Data
* bytes and chars: `UInt8`; strings / `vector<uint8_t>`: `List UInt8`;
* `size_t`: `Nat` with explicit wrap-around (`mod 2^64`) at every place where the code can wrap
  (subtractions, products); `uint32_t` likewise mod 2^32;
* `int32_t` coordinates: `Int`, with overflow checks giving `ub` where the code does signed arithmetic;
* `double`: rationals `ℚ` with every operation passed through a rounding parameter (`rnd : ℚ → ℚ`);
  NaN is explicit where it is observable.
* Objects mutated by member functions: functions returning the new object; an exception also returns the
  object state left behind where that is observable.

### Platform parameters
Signedness of `char`, behaviour of shifts ≥ 64 (strict ISO = UB, or x86/ARM64 masked), allocation failure
points, and rounding are parameters of the model; theorems say for which values they hold.

## 2. Property plan

| ids | what is modelled | how it is proved |
|---|---|---|
| C01–C03 | ByteHandler on `UInt8`; arrays as optional lists | finite 256-entry tables by kernel `decide` lifted by a lemma; arithmetic case analysis |
| C04 | Vector2D as `List (List α)` | list lemmas |
| C05–C07, C14–C16 | BitMatrix as (dims, byte rows) | representation invariant + refinement to `Nat → Nat → Bool`, induction over operation lists |
| C08–C10 | XOR / Compare / ratios over ℚ | pointwise lemmas, counting |
| C11–C13 | Serialize / Deserialize | loop invariants over bit counters, exact UB characterisation |
| C17–C21 | Base64 encoder/decoder | induction on 3-byte groups; bit-level spec independent of the code |
| C22–C23 | Radix64 | round trip from C17 + CRC detection C25; any length: the 32-bit length passed to the checksum is modelled, so beyond 2³² characters only `Spec.covered` is protected |
| C24–C25 | CRC32 table algorithm vs bitwise spec | table by `decide`, GF(2) linearity and injectivity of the update step; the period 2³²−1 of the register by binary exponentiation of its matrix in the kernel; three flipped bits by a search through all 91639 states, run by the kernel and proved correct (Crc32Search.lean); two changed bytes by discrete logarithms, checked by the kernel (Crc32Logs.lean) |
| C26–C28 | RLE | run-list invariant |
| C29–C34 | LayoutMatrix, files as a map name → content | composition of the above; CRC detection for tampering |
| C35–C36 | LayoutConverter | induction over points / fuel-indexed reference depth |
| C37–C39 | LayoutBitmapZond | any-rounding theorems for frame properties, exact arithmetic for coverage |
| C40–C41 | LayoutBitmapGenerator | state machine |
| C42–C43, C50 | MskReader on byte lists, own `sscanf` model; grammar in Spec/Msk.lean | reader = grammar, both directions; induction over lines |
| C44–C45 | GDSII integer and real conversions | bit-vector arithmetic; rounding lemmas over ℚ |
| C46–C47, C51–C52 | GDSII reader object: entry points, record parser, post-processing | invariant over call histories; case analysis of file heads; induction over bubble sort passes and over the elements processed |
| C53 | GDSII record loop on well-formed files (encoder in Spec/GdsiiFile.lean) | parser state after each record; induction over figures, structures and padding |
| C54 | Fragment | invariant over call histories; rounding lemmas |
| C55 | LayoutPrinter | own decimal printer = positional notation; unique parsing of the text |
| C56 | BitMatrix | loop invariant (cells painted so far, values drawn so far); engine is an arbitrary function |
| C57 | GDSII record loop and post-processing on arbitrary bytes | effect of each record, invariant over the loop, fuel lemma; C52 for the post-processing |
| C58 | destructors of LayoutData, Library, Element (Model/LayoutDestroy.lean) | induction over libraries and elements; C57 and C42 for the layouts that readers make |
| C59 | GDSII record loop on a prefix | locality of each record (what it does depends only on the bytes it reads), simulation of the two runs |
| C60 | GDSII record loop | case analysis of every read, invariant of C57, suffix relation of the stream |
| C61 | GDSII record loop | one step from an arbitrary parser state |
| C62 | client loop (GeneratorTest.cpp:46-51) over MSK reader, generator, rasteriser, matrix file | composition of C50, C42, C40, C41, C39, C32; invariant over the list of layers |
| C63 | GDSII `Read` (any calls) and generator | invariant over the calls of `Read`: layers list no geometries; C41's set-up for the bitmap |
| C64 | any sequence of FlushFile/ReadFile calls on many objects and names, against a map from names to matrices (Spec/FileHistory.lean) | forward simulation, induction over the history, from C30, C31, C32 |
| C65 | generator and rasteriser, moved layout (Spec/Moved.lean) | equality of the whole drawing computation; error bounds for the covering test in `double`; counterexample computed with IEEE rounding |
| C66 | `InitFragmentsIndicies`, `InitFragmentsWorkspaces`, `GetFragmentIntersectionCnt` (GeneratorFragments.lean) | division with remainder; error bounds for every `Rounding`; the gap in `double` computed with IEEE rounding |
| C67 | `DistributeGeometries` | induction over the list with the erase/advance loop as it is written, including the increment of the end iterator |
| C68 | both `pushRectangle` | truncated quotients compared with the parts of the rectangle, exact arithmetic |
| C69 | the record loop with `ReadSection_PROPVALUE` added to the dispatch (GdsiiPropValue.lean) | the invariant of C57 |
| C70 | `DecodeHash`/`ReadFile` of an arbitrary text (no new model; specification Spec/HashText.lean) | case analysis down the function, using C20_exact for the Base64 texts and C16/C30 lemmas for the size field |
| C71 | the pipeline of C62 run twice and `Compare`/`operator==` (no new model; specification Spec/Similar.lean) | a cell on which the bitmaps differ is within δ+3/2 cells of one side of a pair of rectangles; such zones are counted; C62 and C09 give the composition |
| C72 | two runs of `ZondRectangle` (no new model; specification Spec/Enlarge.lean) | floor arithmetic on the exact description of the drawn cells, C39_exact_cells; the double version (Props/EnlargeDouble.lean) by monotonicity of rounding through every comparison |
| C73 | `ZondRectangle` with index bounds that do not begin at 0 (no new model; specification Spec/ZondPart.lean) | comparison of `NormIndicies` with the same call for bounds from 0 (`normPair_begin`), exact selection, rounding error bounds as in C39 |
| C74 | a client program composed of `ReadFile` and `operator==` (Model/Lookup.lean; not code of the repository, only modelled calls) and the pipelines of C62, C64, C71 | simulation relation of C64 carried to the end of the history, then induction over the names; rim counting (Props/SimilarLocal.lean) for the similarity bound |
| C75 | readers as heap objects behind the pointers that `GetReader` hands out (ReaderLife.lean); whether deleting through the base class works is a parameter | invariant over the history of calls; C50 for the files |
| C76 | reflection (x, y) ↦ (−y, −x) of geometries, layers and window (Spec/Transposed.lean) | the two halves of the rectangle rasteriser are the same function of negated arguments; the set of painted cells is exchanged; the gathering of geometries commutes with any map that keeps types and window tests |
| C77 | the explicit `reserve` calls with an arbitrary set of granted requests (EncodeMemory.lean); other allocations succeed | unfolding up to the refused request; length bounds of the run-length code and of Base64 for the converse |
| C78 | the copy that `LayoutMatrix::operator!` makes and the `reserve` calls may fail independently (EncodeMemory.lean) | each function either equals its counterpart with enough memory or throws; composed along the call tree |
| C79 | `std::vector` assignment row by row with given capacities and a number of allocations that still succeed (AssignMemory.lean) | induction over the rows; the outcome is the source or a mixture cut at a row |
| C80 | stretching of geometries, layers and window by whole factors (Spec/Scaled.lean; no new model) | exact: positions in cells are unchanged and the tolerance is below the spacing of whole units; `double`: both drawings equal the exact set of cells (C39_exact_cells_double) or both throw; counterexample computed with IEEE rounding |
| C81 | `FlushFile` and `ReadFile` cut into operations on POSIX files, any number of calls, schedules as lists (Model/Concurrent.lean, Spec/Concurrent.lean) | (1) invariant over the schedule: the ended calls form a sequential history, unfinished ones have changed only files they hold; then C64. (2) invariant over characters. (3) a text with zero bytes in it decodes to the same or throws (place of the end mark, checksum lines); invariant "some writer has left nothing but text behind it". (4) the file is always a prefix of the text, C31. (5) computed: texts with colliding CRC-32 prefixes |
| C82 | the rounding is a parameter of every model that uses `double`; `RoundsNormal`: agrees with `rne` on results that are 0 or normal, arbitrary elsewhere (Spec/Binary64.lean) | every value in the computations is a multiple of 2^-N and at most 2^B (`Tame N B`, Proofs/Tame.lean), with N and B tracked through every operation; so every exact result is normal and both roundings agree, function by function (Proofs/RangeZond, RangeGenerator, RangeRest) |
| C83 | `MskReader::Read` with objects at addresses, deletions and a set of failing program points (MskMemory.lean); what lines hold and what is left of them in Spec/MskMemory.lean | invariant over the lines relating boxes put in layers, boxes listed by the element, leaked texts and the live addresses; then case analysis of the points before and behind the loop |
| C84 | `IsMyFormat`, `Read`, `GetElemName` on names that are texts (no new model; `wide`, `utf8`, `latin1` in Spec/Names.lean over Lean's `String`); `wstring_convert` assumed to convert texts to UTF-8 where it matters (`Converts`) | the UTF-8 form of a character beyond ASCII is longer than one byte, by induction over the text; UTF-8 is injective; C50 for the rest |
| C85 | `ZondRectangle` with `dx = dy = 0` (no new model; Spec/ZondFresh.lean) | evaluation of the covering test with zero cell size, case analysis of `NormIndicies` for arbitrary (also infinite, NaN) quotients |
| C86 | `UnsafeGet`, `UnsafeSet`, `UnsafeSetByte` (protected; BitMatrix.lean) against `Get`, `Set`, `SetByte` | the bit-level lemmas behind C05–C08 |
| C87 | the rasteriser of C37–C39 applied to a rectangle and, one after the other, to its two parts (Spec/Cut.lean: `Gains`, `Loses`) | from the exact cells of C39 on each axis: the differences of one column against the union of two |
| C88 | two runs of the generator of C41 with the same set of selected geometries; two MSK files (C62) with the same set of rectangles | the bitmap is the union of what each geometry draws alone (C41, C38), a function of the set |
| C89 | the generator of C40/C41 on three layouts; `Compare`, `OneRatio`, XOR of C08–C10 | the set of cells of C41 is a union over the selected geometries; counting of cells |
| C90 | the zond of C39 set up for two aligned windows; the chain of C62 from the file | the exact cells of C39 in both windows, compared axis by axis; for files the first and last row and column are left out |
| C91 | `Props/Area`, `Props/AreaFile`; vocabulary `Spec/Area` | area counted in unit squares of the window; both partitions (units and cells) are refined to a common grid of `(R·H)×(C·W)` points, on which bitmap and layout differ only in cells that straddle a border or lie in the rim (C39/C62), whose number C86 bounds; the double statement adds the rounding of C10/C09; files by the chain of C62/C86 |
| C92 | `Props/AreaLookup`, `Props/Ranking` | C91 bounds the number of differing cells; C09 gives the threshold of `==`, C74 the look-up of one stored bitmap; the gap and the sum by counting unit squares |
| C93 | `Model/Sharing`, `Props/Sharing` | a world of generators, pointer variables and matrices by address; invariants over the calls: addresses change only by construction and assignment, only those who refer to a matrix change it (`Only`) |
| C94 | rasteriser, generator, MSK reader, two grids on one window (Spec/Zoom.lean; no new model) | the exact set of cells (C39_exact_cells, C39_exact_cells_double) for both grids: positions in cells are multiplied by the factor, the centre is the same, and both overshoots lie within one cell before it; whole bitmaps from C62; counterexamples in both directions computed with IEEE rounding |
| C95 | run-length code, hash text, rasteriser, generator, MSK reader (Spec/TextSize.lean; no new model) | maximal runs (C27) are one more than the changes; every box changes a row at two places at most (an injection of the changes into rows × boxes × 2); what a geometry paints is a box by inspection of the index ranges (no assumption on rounding); the rest from C41 and C62 |
| C96 | text reader with the allocator of C16 (no new model) | a text is written down for every pair of sizes (an empty run, C17/C18 for its sections, C22/C31 for checksum and frame) and evaluated by the section lemmas of C75; refusals by C16 |
| C97 | text reader, run-length decoder, `==` (no new model) | lengths through the two Base64 layers of C70's characterisation of accepted texts; every byte of code adds at most 127 bits and one change (induction over the code); cells counted by C10, compared by C09 |
| C98 | `ReadFile`, `FlushFile`, text writer and reader (no new model) | shape of what is read from C70, round trip and faithfulness of the text from C30/C32, length from C27/C95, growth with the texts of C96 |
| C99 | `splitSref` (C36, no new model) | induction over the listing of C36; the doubling chain by induction on the depth |
| C100 | `Generator.process`, `splitSref` (no new model) | the selected geometries of a layout and of its flattening are the same set (C36), then C88/C89; what a returning collection tells by inversion |
| C101 | `Generator.process`, `pathToRectList` (no new model) | as C100: the set of selected geometries does not change (C35), then C88 |
| C102 | `Generator.process`, `zondGeometry` (no new model) | C88's argument with polygons shown to paint nothing (C37), and the replacement lemmas of C101 |
| C103 | `gatherLibs`, `Generator.process` (no new model) | collection as a search for the first requested layer; outcomes as functions of it |
| C104 | the collection step by step with a budget of operations that take memory (CollectMemory.lean); conversions of paths and references fail as a whole | each step either runs out or does what the collection without a budget does; the C40 invariant for histories with such failures; monotony in the budget |
| C105 | the drawing functions with a null matrix, on no object at all (ZondNull.lean) | the nested loops either visit no cell, and then run alike on everything, or their first cell stays lit to the end |
| C106 | the implicit copy assignment failing at each member (HalfCopied.lean) | `Process` reads only layout, window, layers and tolerance; whatever the fragments, they are set up without an exception |

## 3. Trusted base

* Lean 4.33.0's kernel (and, for `vcheck`, its independent replay of every module).  No `native_decide`, no
  `bv_decide`, no axioms of our own, no compiled code in any proof: `decide` and `decide +kernel` are evaluated by
  the kernel.
* Axioms: only Lean's `propext`, `Classical.choice` and `Quot.sound`.  `AXIOMS.md` (made by `tools/axioms.py` with
  `#print axioms`) lists them theorem by theorem.
* Mathlib, for definitions that statements use: `ℚ`, `⌊·⌋`, `|·|`, `List.Forall₂`, `List.Perm` and the like.
* The reading of the C++ text into the definitions of `Model/` — this is the part a reader has to check by hand.
  Every definition names its file and lines.  The statements additionally rest on the definitions in `Spec/` and on
  the few structures defined beside the theorems in `Props/` (`PlainFile`, `Grid`, `Built`, `History`, `SetUp`, …).

### What the theorems assume about the platform
* `size_t` has 64 bits, `int` 32; two's complement; little endian (`Serialize`, the radix-64 checksum, the size field
  of a hash, the GDSII unions).  `char` signedness and over-wide shifts are parameters (C30, C32, C62).
* `double` arithmetic is `rnd` of the exact result, for *every* `rnd` with `Rounding rnd` (monotone, relative error at
  most 2^-53, exact on 53-bit numbers) or, where a statement says so, for every `rnd` whatsoever or for exact
  arithmetic.  `rne` (round to nearest, ties to even, unbounded exponent) is proved to be such a rounding.  The
  limits of the exponent are not in the model; C82 proves that no result depends on them (bar step sizes or tolerances
  outside 2^±200 set on the rasteriser by hand, and writing GDSII reals above 2^700).  Infinities and NaN arise from
  division by zero and propagate (Model/Fl.lean).
* Allocation: `BitMatrix` has an explicit allocation policy (C16, C27); C77, C79, C104 and the other claims about running
  out of memory have their own (EncodeMemory, AssignMemory, MskMemory, CollectMemory); everywhere else allocation succeeds.

## 4. What is modelled and what is not

| source (under `src/Common`) | model | not modelled / simplified |
|---|---|---|
| `Impl/ByteHandler` | ByteHandler.lean | – |
| `Include/Vector2D.h` | Vector2D.lean, AssignMemory.lean | rows are values |
| `Impl/BitMatrix` | BitMatrix.lean, AssignMemory.lean, BitMatrixRatio.lean, BitMatrixHistory.lean, Print.lean | `mt19937` is an arbitrary function of seed and draw number (C56); stream failures; `operator!` of `LayoutMatrix` copies the bitmap, which can fail only in EncodeMemory.lean (C78) |
| `Impl/Base64`, `Impl/Hash/Crc32` | Base64.lean, EncodeMemory.lean (`reserve`), Crc32.lean | – |
| `Impl/RunLengthEncoding` | Rle.lean, EncodeMemory.lean (`reserve`) | – |
| `Impl/LayoutMatrix` | LayoutMatrix.lean, AssignMemory.lean, Concurrent.lean | file system: a map from names to contents with readable/writable flags and a cut-off point for a torn write; with several programs (Concurrent.lean) POSIX semantics without locks, read errors, removal and renaming |
| `Impl/LayoutConverter`, `Include/LayoutData.hpp` | LayoutConverter.lean, Geometry.lean, LayoutData.lean, LayoutDestroy.lean | geometries are values (one class hierarchy = one record with a type tag); elements have addresses because references share them; libraries and geometries are owned by one container |
| `Impl/LayoutBitmapZond` | Zond.lean, ZondDirect.lean, ZondNull.lean, Fl.lean, Ieee.lean | – |
| `Impl/LayoutFragment` | Fragment.lean | – |
| `Impl/LayoutBitmapGenerator` | Generator.lean, CollectMemory.lean, HalfCopied.lean, GeneratorFragments.lean (the private functions no public function calls), Sharing.lean (construction, copies, destruction and the `shared_ptr` returned by `GetMatrix`) | in Sharing.lean a matrix nobody refers to any more is not freed (no one can see it), and the allocations of construction and copying succeed (HalfCopied.lean has copy assignments that fail) |
| `Impl/LayoutReader/LayoutReader.cpp`, `ReaderImpl/MskReader.cpp` | MskReader.lean, MskMemory.lean, ReaderLife.lean, Scan.lean | `sscanf` as far as the three formats need it, "C" locale; `std::regex` for the one pattern used; `wstring_convert` is an arbitrary partial function (C84: UTF-8 on texts); ReaderLife.lean has the objects and `delete`; MskMemory.lean has `Read` with failing memory requests (points listed there; requests without an effect in between are one point) |
| `ReaderImpl/GdsiiBinaryReader.cpp`, `Helpers/GDSIIHelperFunctions.cpp` | GdsiiReader.lean, GdsiiHelpers.lean, GdsiiPropValue.lean (`ReadSection_PROPVALUE`, which the program never dispatches) | see below |
| `Impl/UnitTests/LayoutPrinter` | LayoutPrinter.lean | `boost::format` only as concatenation |
| `Impl/UnitTests/GeneratorTest` | Client.lean | only the loop a client runs (C62) |
| `LayoutProcessor.h`, `TestModule.h`, other unit tests | – | no code of the library (declarations without definitions, test drivers) |

Simplifications that a reader should know:

* A thrown exception carries its class, not its text.
* Allocation succeeds in Rle.lean, Base64.lean and LayoutMatrix.lean; the claims about texts and files (C26, C30–C32, C62, C74 …) are
  therefore about runs in which the `reserve` calls succeed.  C77 says when they do: `Rle::Encode` asks for rows × rows bytes.
* GDSII: the class never sets `p_data` before testing it, so that `Read` always fails (C46).  The parser and the
  post-processing are modelled and proved nevertheless (C52, C53, C57, C59–C61), as they run once `p_data` is set —
  the member is protected, a derived class can set it.
* The moved-from source of `std::move` on standard containers is empty.
* Undefined behaviour ends the analysis: `ub` says nothing about what a particular compiler does.
