# Formal model of kpfaulkner/jxl-go: design

The model is written in Lean 4 (4.33.0) under `lean/Verif/`.

* `Verif/Model/*.lean`  – the code, function by function. Every definition cites the Go file and lines.
* `Verif/Spec/*.lean`   – small specifications written from the English property only.
* `Verif/Proofs/*.lean` – helper lemmas.
* `Verif/Props/*.lean`  – the property theorems (named `Cxx_...`), each with non-vacuity examples beside it.

## Conventions

* A Go function that can fail returns `Res α = ok a | err | panic`: `err` is a returned Go `error`,
  `panic` is a run-time panic (index out of range, division by zero, nil dereference, explicit `panic`).
  Nothing is totalised: an out-of-range index is `panic`, never a default value.
* Go fixed-width integers are `Nat`/`Int` with explicit wrap functions (`u8`, `u32`, `u64`, `i32`, `i64`),
  or `UInt8`/`BitVec` where bit patterns matter. `int` (64 bits) is `Int` with an explicit wrap only where
  a value can leave the 64-bit range.
* Slices are lists; where aliasing or spare capacity matters (C24, C25) the backing array and capacity
  are modelled.
* An `io.ReadSeeker` is a byte list with an offset. `Read(buf)` returns `min(len buf, remaining)` bytes, and
  `EOF` if `len buf > 0` and nothing remains (the behaviour of `bytes.Reader`, and of `os.File` on regular files).
* Goroutines, channels and wait groups are a transition system; theorems quantify over all runs.
* Floating point is out of the kernel-checked part, except where the claim is exact (C08) or is stated over a
  field/ℝ for the same formula (C55 and later); such simplifications are stated in the comment of the definition.

Where the code does not have the property, the theorem proved is the negation on a concrete reachable
witness, together with a `_partial` theorem for the part that does hold.

## Plan per property

| id | what is modelled | how it is proved |
|----|------------------|------------------|
| C01 | `ReadBits`, `readBit`, `ReadBool`, `ReadByte` on reader state (offset, cached byte, index) | refinement to a bit position in the list of all bits of the stream |
| C02 | same | algebra of `take`/`drop` on the refinement |
| C03 | `ShowBits` | refinement; negation at end of input |
| C04 | `SkipBits`, `Skip` | refinement; negation near the end and for the bit counter |
| C05 | `BitWriter` | induction over the write sequence |
| C06 | `ReadU32`, `ReadU64`, `ReadU8`, `ReadEnum`, `ReadICCVarint` | encoders in Spec, round trip for any suffix |
| C07 | `UnpackSigned*` with 32/64-bit wraps | omega; negation for the upper half |
| C08 | `ReadF16` | the result as a rational; kernel check of the table, lifted |
| C09 | `ZeroPadToByte` | refinement |
| C10 | `VLCTable` construction and lookup | canonical code spec; induction over symbols |
| C11 | `GetVLC` | negation with a witness |
| C12 | `generateAliasMapping` | loop invariant: mass conservation per symbol |
| C13 | `ReadSymbol` (ANS) | state bijection, induction over the message |
| C14 | `HybridIntegerConfig`, `ReadHybridInteger` | encoder in Spec; bit arithmetic |
| C15 | LZ77 part of `ReadSymbolWithMultiplier` | ring buffer refines the full history; the table of special distances equals a rule for nearby pixels |
| C16 | `ReadClusterMap` | range invariant; MTF inverse |
| C17 | `readPermutation` with its Fenwick tree | Fenwick tree refines the list of unused indices |
| C18 | TOC offsets and section binding | negation with a witness |
| C19 | `NewMATreeWithReader` | queue invariant |
| C20 | `compactify*`, `walk` | induction on the tree |
| C21 | `prePredictWP` | interval arithmetic |
| C22 | RCT | modular arithmetic on 32-bit wraps |
| C23 | squeeze rows and matrices | induction over the row |
| C24 | palette with slice aliasing | negation, partial |
| C25 | `Add`, `AddToSlice` | list lemmas; negation |
| C26 | numbers of groups, padded size, positions and sizes of groups and LF groups, the part of a channel of a group, copying the parts into the channel | a general lemma on grids; cutting and pasting a picture; negations: LF groups, empty and huge frames, channels halved too often |
| C27 | ranges of rows, Gaborish, edge-preserving filter with its passes, upsampling: steps of goroutines that write single samples, for any arithmetic | steps on different rows commute, so every interleaving equals the sequential order; refinement to the values of Spec/Filters; negations for numbers of goroutines that overflow |
| C28 | the channel of jobs and its goroutines, the goroutines that wait for a slot, what is done with errors | transition systems with any interleaving; counting invariants; a measure that every step lowers |
| C29 | reading the HF metadata: the scan for free cells, marking and placing of blocks, all types of transform | the occupancy map shows exactly the blocks placed so far; the placement is the one of the format; negations: below the bottom edge, across groups |
| C30 | block contexts, intervals of low frequencies, contexts of numbers and coefficients, the loop over the blocks of a group with any source of symbols | a source that notes the contexts asked for; an accepted block never has more non-zero coefficients than places left, which bounds the tables; mixed-radix uniqueness |
| C31 | transform types, natural order, permuted orders, reading of a pass, writing of coefficients | the comparator is a strict order and sorting has one result; Lehmer permutations; places written by the coefficient decoder |
| C32 | `ReadBoxHeader`, `readAllBoxes` over the bit reader | induction over box lists of any length; negations for empty, open, long, truncated, undersized and large boxes |
| C33 | `transposeMatrix` and `transposeBuffer` over integer and float buffers, the final canvas | per-orientation index lemmas against a table-of-sides specification of EXIF; bijection of positions |
| C34 | `NewJXLImageWithBuffer`, `transform`, `WritePNG` with all chunk writers; zlib as a pair of inverse functions | loop lemmas to the rows of an independent PNG specification; composition with C36 for the samples; a theorem on every file whatever the image, from which the negations follow |
| C35 | `WritePFM` | loop lemmas to an independent description of the file |
| C36 | `NewImageBuffer`, `Clamp`, the two casts; float32 as rounding of rationals to nearest even (`Model/F32.lean`) | pointwise refinement; error analysis of the two roundings; negations at 24 bits and above |
| C37 | `blendFrame` with all its parts on a memory of buffer slices (canvas, frame and references may be the same slice) | window lemmas for the loops; an invariant over the channels saying which buffers were converted and which were painted; negations: origins of mixed sign, frames beside the canvas, missing references |
| C38 | size header | negation (wrapping product), partial |
| C39 | ratio widths | arithmetic; negation at 2^28 |
| C40 | ICC helpers | finite table, permutation lemma |
| C41 | integer helpers | arithmetic |
| C42 | pools | invariant over histories |
| C43 | deque | refinement |
| C44 | range iterator | negation, partial |
| C45 | buffer copies with rows as addresses in a memory; image copies; `Equals` | disjointness of the new rows; negation: the copy of an image has no channels |
| C46 | `NewPassesInfo`, lookups in the passes | crash proved for every all-default header; partial for stated passes |
| C47 | restoration filter header | negation, partial |
| C48 | squeeze parameter | negation, partial |
| C49 | `invertAFV` with a pointer as argument: the package variable it is the address of, if any | refinement to the samples of Spec/VarDCT with corner flags; negation: `placeBlock` stores addresses of copies |
| C50 | modular channel decode | induction over pixels in raster order |
| C51 | matrix pools + the tail of VarDCT frame decoding on a heap of matrices | false of the code: proof that the second frame is zeroed; partial for the first |
| C52 | prefix-code description reader | negation with a concrete description; partial under a length bound |
| C53 | entropy stream reader | safety predicate over all states; negations |
| C54 | transform planner, decode loop, inverse transforms | inductive encoder relation `AppliesAll`; induction on the chain |
| C55 | default squeeze steps | equality with an independent derivation; negation with meta channels |
| C56 | image header up to the colour profile | `Follows` (the code follows a bit-string decoder), composed field by field; safety predicate for no crash; negations |
| C57 | `GetDecodedICC` with both readers and the output buffer | the profile's meaning and encoding in Spec; a calculus of actions (what is left of the commands and data, what has been produced); negations |
| C58 | `NewPassWithReader`, `decodePasses`: which pass takes which shift | equals the partition of Spec for stated passes; negations for a factor stated for the last pass |
| C59 | `NewFrameHeaderWithReader` with all its bundles | refinement of a decoder of bit strings; no crash on any stream; negations |
| C60 | `GetImageHeader` from the first byte of the file to the colour profile | composition of C32 and C56; negations |
| C61 | `ToImage` with both image constructors | as C34, to the bytes of `image.Gray` and `image.NRGBA`; negations above 8 bits and for alpha |
| C62 | `ToImage` and `WritePNG` as functions from images to images | the settled image is a fixed point; negations for 10 bits and XYB |
| C63 | as C37 | the five modes written down independently; the pixel expressions of the loops are shown equal to them; negations: shared reference, gray DCT frames, transparent pixels |
| C64 | the loop over the frames after decoding (saving, colour transform as an arbitrary function, first canvas, copying the canvas, painting) | induction over the frames; invariant: painting changes only the canvas slice and converts buffers elsewhere; negations: references saved before the colour transform, canvases with NaN, reference-only frames |
| C65 | the values of Spec/Filters over exact numbers (C27 shows that the code computes them) | weighted means; negation: upsampling of negative samples |
| C66 | both transforms for any arithmetic, with tables of cosines | loops refined to sums; over the reals orthogonality of the cosine basis (telescoping sums) |
| C68 | all block transforms with scratch spaces, the loop over blocks and channels, for any arithmetic | refinement of each method to sums in Spec/VarDCT; induction over blocks with disjoint rectangles; negations: DCT 4x4 and second passes panic |
| C69 | `dequantizeHFCoefficients`, `chromaFromLuma`, `finalizeLLF` and the choice of the blocks of a group, for any arithmetic; `0.8^e` and the products of SCALE_F are parameters | refinement of each loop to a value per coefficient (Spec/Dequant), induction over blocks with disjoint rectangles; negation for scales 0 and 1 in float32 |
| C70 | the same, with the tables of tile factors as state | invariant: a factor is there iff an earlier block covers the first pixel of the tile; blocks laid by the format's rule come row by row, hence the factor is there for blocks that keep to tiles; negation: a 16x16 block across a tile border |
| C67 | the models of C68 and C69 with real numbers, exact cosines, exact scale factors 1/(cos φ cos 2φ cos 4φ) and an AFV basis whose first function is 1/4 and whose others sum to 0 | sums of cosines (sin 8α = 8 sin α cos α cos 2α cos 4α), orthogonality; for the 8×8 types sums over halves and quarters |
| C71 | `NewLFCoefficientsWithReader` without `getLFIndex`, for any arithmetic; the readers of steps and factors; the modular stream is an abstract decoder | loops over cells; `Implements` for the readers; the int32 product and the uint32 difference are modelled with wrapping |
| C72 | `adaptiveSmooth`, for any arithmetic | loops over cells; with exact arithmetic the range, the behaviour for small and large differences; the bound of half a step for the formula of the format and a witness that the code does not keep it |
| C73 | the copy of the LF frame in `NewLFCoefficientsWithReader` | the copy is right but overwritten: the result does not depend on the LF frame |
| C74 | `NewHFGlobalWithReader` with all modes and the default parameters, for any arithmetic; the modular stream of written out matrices is an abstract decoder | safety of the readers and of every table access; the sizes from loops over cells; positivity in exact arithmetic for positive parameters and for the defaults; witnesses for zero and written out matrices |
| C75 | as C74; the curve of bands, Hornuss, DCT2, DCT4 and DCT4x8 matrices in real arithmetic with `Real.rpow` and `Real.sqrt` | `Follows` for the readers; the loops give the inverse of the specified number at every cell; the mode DCT4x8 is refused and two parameters of AFV are ignored |
| C76 | the reading of a group as in C30 and C31, with any source of symbols, and with the entropy stream | the encoder's symbols in Spec/CoefficientCoding; induction over the places of a block (every entry is 0 or its final value), over channels and blocks; C15 for the bits |
| C77 | InvertXYB and the YCbCr loop on planes of any arithmetic; performColourTransforms on float32 buffers | loops over pixels as in C70; algebra over the reals with Mathlib's matrices; cube roots by real powers |
| C78 | matrix functions, primariesToXYZ, AdaptWhitePoint, GetConversionMatrix, GetMatrix in any arithmetic | code equals Mathlib's matrix product and inverse for 3 by 3; the defining equations of the spaces then give the claim; absence of panics by shapes |
| C79 | allocation of the planes, invertSubsampling on float32 buffers | loops over rows and columns with an invariant for what is written; range and ramps by algebra |
| C80 | the loop of DecodeFrame that stores the channels of the global modular stream | each channel goes to its own plane: scatter loop with an injective target; the detour through float32 is exact below 2^24; negations by witnesses |
| C81 | GetUpWeights, performUpsampling, Upsample | the index of a weight equals the place in the triangle for all places of the three factors (complete case analysis); C27 gives the planes under any interleaving |
| C82 | LoadWithReader, ReadClusterMap, NewANSSymbolDistribution, NewPrefixSymbolDistributionWithReader, NewHybridIntegerConfigWithReader (models of C11 to C16) | a specification writes descriptions bit by bit; each reader is shown to read what is written, by induction over the items of a histogram; C11 to C13 give the meaning of the codes that result; maps that are coded themselves are described by the codes and numbers of one context, to any depth (`Spec/TreeCoding`), and read by induction over the depth |
| C83 | NewMATreeWithReader (model of C49) | a relation writes a queue of trees breadth first; the loop of the reader keeps the invariant that the rest of the numbers writes the queue of open nodes; linking by induction over the levels |
| C84 | DecodeFrame for modular frames, with the global section, LF groups, pass groups and their places (Model/ModularFrame) | a specification says when bits code a picture (from those of C48, C49, C50, C82, C83); the global stream, the groups and the pasting are shown to give the coded channels, C50 undoes the transforms, C80 stores the samples; negations for what the code gets wrong |
| C85 | Decode from the signature to the image: boxes, header, encoded profile, frames, blending, orientation, image (Model/Decode, on the models of C13, C30, C57, C84, C37, C35, C59, C61) | Spec/Decode says what a file with lossless layers is; boxes, header and each frame are shown to be read as written; a canvas invariant is kept by each frame (induction over the frames); then orientation and conversion; example: two layers, a container |
| C86 | DecodeConfig, GetImageHeader (Model/Decode) | on top of the lemmas of C85; negations for orientations that exchange the sides and for the colour model |
| C87 | the registration, Decode and DecodeConfig for readers with and without Seek, the matching of image.Decode (Model/Decode; the standard library from its documentation) | case analysis on the reader; negations for readers without Peek and for bare codestreams |
| C88 | the loop for ParseOnly and the early ends of decode (Model/Decode) | the loop never ends without an error (induction on its length); a panic for files without frames |
| C89 | NewJXLOptions (Model/Decode) | case analysis; negation for RenderVarblocks and one goroutine |
| C90 | `Model/VarDCTFrame` puts the parts of the models of C30, C31, C68 to C71, C74 to C76 and C84 together to whole VarDCT frames. `Spec/VarDCTFrame` says what is written in each section, with decoders of bits for headers and encoders for numbers. Each section is shown to be read (`Proofs/VarDCTLF`, `VarDCTGroup`), the sections by induction (`VarDCTInvert`), and the samples come from C68. `C90_single_partial`, `C90_frame_partial`: one pass, groups of side 256, no subsampling. Extra channels have integer samples and the size of the frame; their parts in the global stream and in the groups are put together as for C82 (`extraStream_ok`, `tiles_ok`). `Model/FilterFrame` adds what `DecodeFrame` does after the blocks (Gaborish, edge-preserving filter); the filters of C65 are applied in turn to the samples of the blocks. |
| C91 | `Model/ModularFrame` and `Model/VarDCTFrame`: an error of a group leaves its entry empty (`orEmpty`). `C91_modular`, `C91_vardct` by inversion of the decoder: success gives a successful run for every section, because an empty entry becomes an error (LF groups) or a panic (groups of passes). |
| C92 | Model/TransferFunction.lean over the real numbers; Spec/TransferFunction.lean: the curves of the standards | Bounds on powers by comparing integer powers; false for PQ (C92_pq_violated, C92_pq_from_violated), DCI (C92_dci_violated) and HLG (C92_hlg_violated) |
| C93 | Model/ChannelImage.lean: `channelToImage` with the copies it works on, and the accessors | C93_int_partial, C93_float_partial (each byte is next to 255 times the sample), C93_range, C93_set_get; false for images with both kinds of channels (C93_mixed_panics) and for more than 8 bits (C93_deep_violated) |
| C94 | composition of the models of C85 (files, frames, orientation) and C90 (VarDCT frames) with the colour conversion of C41; Spec/VarDCTFile.lean says what a file is and what it shows | C94_image_partial, C94_pixels_partial, C94_bytes; example files in Props/VarDCTFileWitness.lean and, with an alpha channel, Props/VarDCTAlphaFile.lean. Missing: extra channels of gray images, upsampling, headers with all fields as by default, blending other than replacing, frames kept for reference, several passes, LF frames, and what the code gets wrong (C49, C69, C71) |
| C95 | the models of files (C85) and of the sections of frames (C91), without any assumption on the file | C95_frames, C95_refused |
| C96 | the bit reader over a stream whose answers are given by an arbitrary function of the call number, the size of the buffer and the bytes left; clients as trees of calls; simulation of the reader over memory | C96_prompt_readers_partial, C96_splitting_readers_partial, C96_no_wrong_results_partial; C96_fails, C96_fails_last_byte_lost, C96_fails_no_file_read, C96_fails_skip_stops_early, C96_fails_byte_repeated |
| C97 | the three helpers over the same streams; induction over their loops | C97_reads_partial, C97_reads_exactly, C97_fills_partial, C97_reads_past_end, C97_skips_partial, C97_skips_past_end; C97_fails_reads_too_much, C97_fails_skip_panics |
| C98 | the decoder of C85; a drawing (canvas and four slots) as specification; invariant that relates the shared buffers of the store to the drawing, over all frames | C98_stacked_partial, C98_layers_partial, C98_pixels_partial; C98_fails_uncovered |
| C99 | the decoder of C85; a collage (canvas and four slots, in floats) as specification, with the formulas of C37; invariant that relates the shared buffers of the store, integers or floats, to the collage, over all frames | C99_heaped_partial, C99_blended_partial, C99_pixels_partial |
| C100 | the generator and the loops of a noise group on 64-bit words; eight xorshift128+ generators side by side as specification; invariant that relates the generator to the number of words drawn, and the buffer to the number of steps | C100_seeds, C100_words, C100_group, C100_narrow_partial, C100_fails |
| C101 | the comparison loops by index, with crashes, and the comparisons built from them; `Forall₂` in two and three dimensions as specification; chromaticities by the rounding error of one subtraction | C101_compare3, C101_compare2, C101_compare3_eq, C101_equal3_partial, C101_equal3_fails, C101_equal3_panics, C101_params, C101_matches_only, C101_matches_if, C101_matches_not_transitive |
| C102 | clamping on the model of float32, filling as a loop of assignments; by cases and by induction | C102_clamp, C102_clamp_special, C102_fill, C102_fill_outside |
| C103 | the loops for the largest sample, the peak, the scaling before a curve; by induction over the samples, with Mathlib's `IsGreatest` as specification for integers | C103_max_int, C103_max_int_partial, C103_max_int_fails, C103_max_float, C103_peak_int, C103_peak_float, C103_peak_fails, C103_bright_kept, C103_dim_fails |
| C104 | composition of C84 (frames), C81 (upsampling) and the blending of float planes on a float canvas; by induction over the frames | C104_layers, C104_image_partial, C104_pixels_partial, C104_corner_fails |
| C105 | composition of C94 (VarDCT frames), C81 (upsampling), the colour transform on the enlarged planes and the blending of float planes; by induction over the frames | C105_layers, C105_image_partial, C105_pixels_partial |
| C106 | composition of C84 (modular frames), C80 (planes in XYB), C81 (upsampling), the colour transform and the blending of float planes; by induction over the frames | C106_layers, C106_image_partial, C106_pixels_partial |

## Trusted base

Lean's kernel, with the axioms listed below; Lean's elaborator only in so far as the statements are read as written. `decide +kernel` and `rfl` are checked by the kernel; nothing
rests on compiled code. What is trusted beyond that is that the model is a faithful reading of the Go code. That reading is recorded in the comments of `Verif/Model`, each with file and
lines, and makes these assumptions:

* **Numbers.** `int` is 64 bits. `float32` is `F32`: finite rationals rounded to nearest even at 24 bits with gradual underflow, two infinities, one NaN, and one zero (the sign of zero
  is not modelled). That this rounding is that of IEEE 754 (nearest number of 24 bits, ties to even, infinity only beyond the largest number) is proved in `Props/Binary32.lean`. Go may fuse a multiplication and an addition on some processors: where a theorem is about `float32` results, the operations that could be fused are those of `FloatImpl`
  and `BlendImpl`, which are arbitrary within their stated laws. Code that is generic in `Arith α` is proved for every arithmetic, so for `float32` too. Where a theorem says "exact arithmetic", the
  same function is taken over ℝ or ℚ; rounding errors are then not bounded. Conversions of floats out of range follow the processor (`FloatImpl`).
* **Mathematical functions.** The cosines of C66 and C67 and the cube root of C77 are the real ones; `math.Pow`, `SCALE_F` (C69), the quantization weights' power (C74, C75) and the transfer
  curves of images (C61) are arbitrary functions. `CIEXY.Matches` compares exactly. Decimal constants of the code are the rationals they denote, or those rounded.
* **Standard library.** CRC-32, zlib, `fmt`, `sort`, `bytes`, `bufio`, `image` (the registry, `image.Gray`, `image.NRGBA`) behave as documented; the PNG theorem takes the compressor as an arbitrary
  function with an inverse. A reader returns as many bytes as there are. Logging and metrics have no effect. `sync.Pool` is the pool of `Model/Pool.lean`.
* **Memory.** Allocation always succeeds. Slices are values except where sharing matters (C24, C25, C37, C42, C64); rows of different buffers are never shared.
* **Concurrency.** Goroutines are interleaved at the granularity of one job (`Model/Workers.lean`) or one sample (`Model/Filters.lean`); jobs touch the places the model says they touch. `Model/ModularFrame.lean`
  reads the sections of groups one after the other, as C28 allows.
* **Parts that are parameters.** In `Model/Decode.lean` and `Model/ModularFrame.lean`, decoding of VarDCT frames and the filters of frames are arbitrary functions (`FrameParts`); the pieces of VarDCT decoding
  have models and theorems of their own (C29 to C31, C66 to C76). `Model/LFCoefficients.lean` and `Model/HFGlobal.lean` take the modular streams in them as an arbitrary reader. `testcommon.BitReaderRecorder`, through
  which the decoder reads, hands every call on to the bit reader; that it keeps a copy is not modelled.

Not modelled at all: patches (`computePatches`), splines (the code parses none and draws none), noise parameters (frames with noise are an error; the generator of noise is modelled, C100), the examples, tools and benchmark programs, and the functions listed in the last
column below.

### Where the code disagrees with the format

Beside the negations proved (theorems with `_violated`, `_fails`, `_panics`, `_wrong`, `_lost` in their names), reading the code showed: `CM_WP_D50` has a wrong y (unused);
`Frame.go:462` drops errors of `invertSubsampling`; samples of global modular channels pass through `float32`; all global modular channels are
taken to have the size of the frame; upsampling mirrors at the edge of the padded plane; the only symbol of a one-symbol distribution is not checked against the alphabet; `UnpackSigned` is wrong below
-2^30; a single-section frame ignores the length in its table of contents.

### Axioms

No axiom is declared. What each theorem of MANIFEST.json depends on, as `#print axioms` reports:

* no axioms (11 theorems): C07_not_injective, C15_special_distances, C18_violated_at_end, C20_compactify, C20_compactifyWithY, C20_refined, C25_add_witness, C26_shift_panics, C41_abs_min_wrong, C44_range_wrong, C84_odd_width_misplaced
* `propext` (17 theorems): C01_start, C04_skip_wraps, C18_permutation_ignored, C18_skip_violated, C20_leaves, C21_init, C23_violated, C26_channel_count, C26_lf_groups_wrong, C29_crosses_groups, C30_negative_number, C33_header, C35_size, C43_deque, C84_group_origins_lost, C84_group_palette_misplaced, C101_equal3_panics
* `Quot.sound`, `propext` (92 theorems): C03_failed_peek_consumes, C04_short_skip_accepted, C06_enum_range, C06_icc_varint_nonneg, C07_unpackSigned_partial, C07_bijective_partial, C07_unpackSigned64_partial, C09_zeroPad_aligned, C10_reject, C10_single, C12_alias_single, C12_violated, C13_final_state, C15_violated, C16_nesting, C16_violated, C18_single, C18_violated, C18_entries, C20_useWP, C21_violated, C22_violated, C24_depth_wrong, C24_weighted_crash, C25_addToSlice, C25_add_partial, C25_add_wrong, C27_same, C27_panics, C28_second_pass_crashes, C29_unknown_type, C30_roles, C30_large_number, C33_rejected, C36_nearest, C37_upsampled_misplaced, C38_violated, C38_violated_level10, C39_violated, C40_context_range, C40_shuffle_crashes, C40_prediction_partial, C41_ceilDiv_partial, C41_ceilDiv_zero_wrong, C41_clamp3, C41_clamp4, C41_abs_partial, C41_mirror, C41_mirror_range, C42_ragged_put_wrong, C44_range_shifted_partial, C45_image_copy_is_empty, C45_image_copy_differs, C51_repeat_decode_wrong, C52_violated, C52_violated_run, C53_violated_mtf, C53_violated_lz, C53_violated_map, C56_preview_violated, C56_extensions_violated, C57_tag21_crashes, C57_stride_crashes, C57_size_crashes, C57_commands_crash, C57_size, C58_violated, C59_blending_violated, C66_tables, C68_places, C74_stored, C81_weights, C83_every_tree, C84_failed_group_panics, C84_failed_lf_group_partial, C84_no_tree_panics, C89_options_partial, C89_violated, C93_set_get, C96_fails_last_byte_lost, C96_fails_skip_stops_early, C96_fails_byte_repeated, C96_fails, C97_reads_past_end, C97_reads_exactly, C97_fails_reads_too_much, C97_skips_partial, C97_fails_skip_panics, C97_skips_past_end, C103_max_int, C103_max_int_partial, C103_max_int_fails
* `Classical.choice`, `Quot.sound`, `propext` (410 theorems): C01_readBits, C01_history, C01_readBool, C01_readByte, C02_split, C03_showBits_partial, C03_atEnd, C04_skipBits_partial, C04_skip_then_read_partial, C04_counter_wrong, C05_roundtrip, C05_u8_roundtrip, C06_readU32, C06_readU64, C06_u64_roundtrip, C06_readU8, C06_u8_roundtrip, C06_readEnum, C06_icc_varint, C07_unpackSigned_wrong, C07_unpackSigned64_wrong, C08_readF16, C08_total, C09_zeroPad, C10_table, C10_complete, C10_described_code_partial, C10_simple_aux, C10_simple_code_partial, C11_fails_near_end, C11_violated, C11_word_decoded_partial, C12_alias_partition, C12_accepted_partial, C13_ans_roundtrip, C14_hybrid, C14_token_inj, C14_config, C14_config_valid, C15_lz77_partial, C15_lz77_history_partial, C16_entries_partial, C16_nonneg_partial, C16_mtf, C16_fixed_roundtrip, C17_permutation, C17_denotes, C17_roundtrip, C18_unpermuted_partial, C18_lengths, C18_toc, C18_skip_partial, C19_table, C19_tree, C19_link, C21_params, C21_weight, C21_predict, C21_matches, C21_step_partial, C22_lossless_partial, C23_rows, C23_columns_partial, C23_steps_partial, C23_smooth, C24_expand_partial, C24_violated, C24_colours, C26_groups_partial, C26_channel_partial, C26_reassembled, C26_counts_wrong, C26_headers, C27_rows, C27_up_rows, C27_gab, C27_gab_same, C27_epf, C27_epf_passes, C27_upsampling, C27_overflow, C28_exactly_once, C28_never_twice, C28_table, C28_terminates, C28_goes_on, C28_completes, C28_error_crashes, C28_error_ignored, C28_error_crashes_vardct, C28_slots_once, C28_slots_error, C28_slots_terminates, C28_slots_completes, C29_disjoint_partial, C29_format, C29_full, C29_bottom_panics, C30_contexts_partial, C30_table, C30_lookup, C30_block, C30_block_entries, C30_lf_index, C30_lf_roles, C30_read_table_partial, C30_inside, C30_prediction, C31_places, C31_written, C31_natural, C31_read, C32_boxes_partial, C32_empty_box_crashes, C32_open_box_crashes, C32_long_box_rejected, C32_truncated_accepted, C32_small_size_accepted, C32_large_box_crashes, C32_terminates, C33_ints, C33_floats, C33_permutation, C33_canvas, C34_png_partial, C34_every_file, C34_premultiplied_never_written, C34_gray_alpha_never_written, C34_low_depth_wrong_size, C34_hdr_wrong_size, C34_hdr_empty_profile, C34_other_colours_crash, C34_alpha_elsewhere, C34_alpha_depth_wrong_size, C35_pfm, C35_integer_images_crash, C36_float_nearest, C36_new, C36_clamp, C36_clamp_id, C36_to_float, C36_to_int, C36_rescale, C36_roundtrip_partial, C36_roundtrip_24_bits, C36_saturates_partial, C36_bright_is_black, C37_blend_partial, C37_integers_partial, C37_above_panics, C37_left_panics, C37_outside_panics, C37_no_reference_panics, C37_alpha_number_panics, C37_other_modes_rejected, C37_shared_reference_wrong, C37_transparent_nan, C37_gray_alpha_panics, C38_limits_partial, C38_accepts, C38_no_crash, C39_exact_partial, C39_sound_partial, C40_context, C40_shuffle_partial, C40_short_crashes, C40_varint, C41_ceilLog1p, C41_ceilLog1p_negative, C41_floorLog1p, C41_ceilLog2, C42_pool_get3_partial, C42_pool_get2_partial, C45_buffer_partial, C45_transfer_crashes, C45_equal_ints, C45_nan_differs_from_itself, C46_default_crashes, C46_reference_only, C46_stated_partial, C47_restoration_partial, C47_without_weights_partial, C47_weights_never_read, C47_violated, C48_headers_partial, C48_violated, C48_flags_partial, C49_intended, C49_never_flipped, C49_partial, C49_fails, C50_lossless, C50_encodable, C50_stream, C51_first_frame_partial, C51_second_frame_black, C52_simple_never_crashes_partial, C53_distribution_never_crashes, C53_symbol_never_crashes, C53_hybrid_never_crashes, C54_plan, C54_lossless, C54_stream, C55_default_partial, C55_violated, C56_header_partial, C56_no_crash, C57_profile_partial, C57_short_partial, C57_every_profile, C57_bare_ignored, C58_partition_partial, C59_header_partial, C59_no_crash, C59_empty_crop_violated, C60_container_partial, C60_bare_partial, C60_short_rejected, C60_no_codestream_crashes, C60_split_rejected, C61_to_image_partial, C61_deep_samples_lose_high_byte, C61_alpha_elsewhere, C61_gray_alpha_dropped, C61_premultiplied_never_shown, C62_repeatable_partial, C62_ten_bits_twice_differ, C62_xyb_twice_differ, C63_modes_partial, C64_kept_partial, C64_reference_partial, C64_before_transform_wrong, C64_reference_only_lost, C64_painted, C64_sample, C64_nan_overwritten, C65_gab_range, C65_gab_flat, C65_epf_range, C65_epf_weights, C65_epf_flat, C65_upsample_range_partial, C65_upsample_range_fails, C66_inverse, C66_inverse_transposed, C66_forward, C66_samples_back, C66_coefficients_back, C66_inverse_alone, C66_forward_alone, C68_stream_partial, C68_block, C68_dct4_panics, C68_group, C68_second_pass_panics, C69_coefficients, C69_scale_partial, C69_scale_fails, C70_coefficients_partial, C70_fails, C67_mean, C67_parts, C67_stream_partial, C71_correlation, C71_dequant, C71_quantizer, C71_steps_partial, C71_steps_fails, C71_samples_partial, C71_factor_fails, C72_stream_partial, C72_borders, C72_range, C72_format, C72_code, C72_fails, C73_ignored, C73_copy_partial, C73_fails, C74_fits, C74_positive, C74_defaults, C74_zero_fails, C74_raw_fails, C75_weights_partial, C75_raw, C75_reads_partial, C75_dct48_fails, C75_afv_ignored, C75_afv_fails, C76_coefficients, C76_stream, C77_formula, C77_xyb, C77_ycbcr, C77_frame, C77_gray_panics, C78_primaries, C78_conversion, C78_white, C78_rejects, C78_no_panic, C78_header, C78_degenerate, C79_planes, C79_frame, C79_range, C79_ramp, C80_planes_partial, C80_gray_panics, C80_large_fails, C80_float_image_fails, C80_subsampled_panics, C80_sizes_fail, C81_flat, C81_frame, C82_histogram, C82_every_histogram, C82_prefix, C82_fixed, C82_codes_partial, C83_tree, C84_single_partial, C84_frame_partial, C84_reference_only_panics, C85_layers_partial, C85_still_partial, C85_pixels_partial, C86_config_partial, C86_size_partial, C86_size_violated, C86_model_violated, C86_pieces_violated, C87_registered_partial, C87_violated, C87_bare_violated, C88_violated, C88_no_frames_partial, C88_no_frames_panics, C90_single_partial, C90_frame_partial, C91_modular, C91_vardct, C92_known, C92_gamma, C92_roundtrip_partial, C92_srgb_partial, C92_bt709_partial, C92_pq_violated, C92_pq_from_violated, C92_dci_violated, C92_hlg_violated, C92_codes_partial, C93_int_partial, C93_deep_violated, C93_float_partial, C93_range, C93_mixed_panics, C94_bytes, C94_image_partial, C94_pixels_partial, C95_frames, C95_refused, C96_prompt_readers_partial, C96_splitting_readers_partial, C96_no_wrong_results_partial, C96_fails_no_file_read, C97_reads_partial, C97_fills_partial, C98_stacked_partial, C98_layers_partial, C98_pixels_partial, C98_fails_uncovered, C99_heaped_partial, C99_blended_partial, C99_pixels_partial, C100_seeds, C100_words, C100_group, C100_narrow_partial, C100_fails, C101_compare3, C101_compare2, C101_compare3_eq, C101_equal3_partial, C101_equal3_fails, C101_params, C101_matches_only, C101_matches_if, C101_matches_not_transitive, C102_clamp, C102_clamp_special, C102_fill, C102_fill_outside, C103_max_float, C103_peak_int, C103_peak_float, C103_peak_fails, C103_bright_kept, C103_dim_fails, C104_layers, C104_pixels_partial, C104_image_partial, C104_corner_fails, C105_layers, C105_pixels_partial, C105_image_partial, C106_layers, C106_image_partial, C106_pixels_partial

### Functions

By file: the functions with a definition of their own or inside one that cites their lines; those of which only a part is modelled; those that are not. Constructors, getters and
functions that only print are listed as not modelled; where they are called, the model has their effect in place.

| file | modelled | in part | not modelled |
|---|---|---|---|
| bundle/AnimationHeader.go | NewAnimationHeader |  |  |
| bundle/BitDepthHeader.go | NewBitDepthHeader, NewBitDepthHeaderWithReader |  |  |
| bundle/Extensions.go | NewExtensions, NewExtensionsWithReader |  |  |
| bundle/ExtraChannelType.go | ValidateExtraChannel |  |  |
| bundle/extra_channel_info.go | NewExtraChannelInfoWithReader |  |  |
| bundle/image_header.go | ParseImageHeader, ImageHeader.GetColourChannelCount, ImageHeader.HasAlpha, ImageHeader.GetDecodedICC, shuffle, GetICCContext, readPreviewHeader, readSizeHeader, getWidthFromRatio, ImageHeader.GetUpWeights, ImageHeader.GetICCPrediction |  | NewImageHeader, ImageHeader.GetSize, ImageHeader.GetColourModel, ImageHeader.setLevel, ImageHeader.GetTotalChannelCount |
| colour/CIEPrimaries.go | CIEPrimaries.Matches |  | NewCIEPrimaries |
| colour/CIEXY.go | CIEXY.Matches, AdaptWhitePoint, isLMSValid |  | NewCIEXY |
| colour/CustomXY.go | CustomXY.readCustom |  | NewCustomXY |
| colour/OpsinInverseMatrix.go | NewOpsinInverseMatrix, NewOpsinInverseMatrixAllParams, NewOpsinInverseMatrixWithReader, OpsinInverseMatrix.GetMatrix, OpsinInverseMatrix.InvertXYB, OpsinInverseMatrix.Matches |  | OpsinInverseMatrix.bakeCbrtBias |
| colour/ToneMapping.go | NewToneMapping, NewToneMappingWithReader |  | ToneMapping.GetIntensityTarget |
| colour/colour_encoding_bundle.go | NewColourEncodingBundle, NewColourEncodingBundleWithReader |  | getWhitePoint |
| colour/colour_flags.go | ValidateWhitePoint, ValidatePrimaries, ValidateTransfer, GetPrimaries | GetWhitePoint | ValidateColourEncoding, ValidateRenderingIntent |
| colour/colour_management.go | GetConversionMatrix, primariesToXYZ, validateXY, GetXYZ, GetTransferFunction |  |  |
| colour/transfer_function.go | LinearTransferFunction.ToLinear, LinearTransferFunction.FromLinear, SRGBTransferFunction.ToLinear, SRGBTransferFunction.FromLinear, BT709TransferFunction.ToLinear, BT709TransferFunction.FromLinear, PQTransferFunction.ToLinear, PQTransferFunction.FromLinear, NewGammaTransferFunction, GammaTransferFunction.ToLinear, GammaTransferFunction.FromLinear |  |  |
| core/jxl_codestream_decoder.go | NewJXLCodestreamDecoder, JXLCodestreamDecoder.GetImageHeader, JXLCodestreamDecoder.decode, JXLCodestreamDecoder.performColourTransforms, JXLCodestreamDecoder.blendFrame, JXLCodestreamDecoder.performBlending, JXLCodestreamDecoder.convertReferenceWithDifferentBufferType, JXLCodestreamDecoder.blendAlpha, JXLCodestreamDecoder.convertCanvasWithDifferentBufferType, JXLCodestreamDecoder.copyToCanvas, JXLCodestreamDecoder.transposeBuffer, JXLCodestreamDecoder.transposeBufferInt |  | JXLCodestreamDecoder.atEnd, JXLCodestreamDecoder.ReadSignatureAndBoxes, JXLCodestreamDecoder.computePatches, JXLCodestreamDecoder.transposeBufferFloat |
| core/jxl_decoder.go | NewJXLDecoder, JXLDecoder.Decode |  | JXLDecoder.GetImageHeader |
| core/jxl_image.go | NewJXLImageWithBuffer, NewJXLImageFromJXLImage, JXLImage.GetFloatChannelData, JXLImage.SetFloatChannelData, JXLImage.GetIntChannelData, JXLImage.SetIntChannelData, JXLImage.GetExtraChannelType, JXLImage.IsIntBased, JXLImage.IsFloatBased, JXLImage.HasAlpha, JXLImage.HasICCProfile, JXLImage.NumExtraChannels, JXLImage.ChannelToImage, JXLImage.ToImage, JXLImage.createGrayScaleImage, JXLImage.create24BitImage, JXLImage.isHDR, JXLImage.transform, JXLImage.getBuffer, JXLImage.determinePeak, JXLImage.transferWithOp, JXLImage.transferImage, JXLImage.linearize, JXLImage.transferInPlace |  | JXLImage.toneMapLinear |
| core/pfm_writer.go | WritePFM |  |  |
| core/png_writer.go | PNGWriter.WritePNG, PNGWriter.writeICCP, PNGWriter.writeSRGB, PNGWriter.writeIHDR, PNGWriter.writeIDAT |  |  |
| core/read_jxl_boxes.go | BoxReader.ReadBoxHeader, BoxReader.readAllBoxes, BoxReader.SkipFully, makeTag |  | NewBoxReader |
| entropy/ANSState.go |  |  | NewANSState, ANSState.SetState |
| entropy/ANSSymbolDistribution.go | NewANSSymbolDistribution, ANSSymbolDistribution.generateAliasMapping, ANSSymbolDistribution.ReadSymbol |  |  |
| entropy/EntropyStream.go | ReadClusterMap, EntropyStream.LoadWithStream, EntropyStream.LoadWithReaderAndNumDists, EntropyStream.LoadWithReader, EntropyStream.ReadSymbol, EntropyStream.TryReadSymbol, EntropyStream.ReadSymbolWithMultiplier, EntropyStream.ReadHybridInteger, EntropyStream.ValidateFinalState |  | NewEntropyStreamWithReaderAndNumDists, NewEntropyStreamWithStream, NewEntropyStreamWithReader, EntropyStream.GetDists, EntropyStream.GetState |
| entropy/HybridIntegerConfig.go | NewHybridIntegerConfigWithReader |  | NewHybridIntegerConfig |
| entropy/PrefixSymbolDistribution.go | NewPrefixSymbolDistributionWithReader, PrefixSymbolDistribution.populateComplexPrefix, PrefixSymbolDistribution.populateSimplePrefix, PrefixSymbolDistribution.ReadSymbol |  |  |
| entropy/SymbolDistribution.go |  |  | NewSymbolDistributionBase, SymbolDistributionBase.ReadSymbol, SymbolDistributionBase.SetConfig, SymbolDistributionBase.GetConfig |
| entropy/VLCTable.go | NewVLCTableWithSymbols, VLCTable.GetVLC |  | NewVLCTable |
| frame/BlendingInfo.go | NewBlendingInfo, NewBlendingInfoWithReader |  |  |
| frame/Frame.go | Frame.ReadFrameHeader, Frame.ReadTOC, Frame.readBuffer, ctxFunc, absFloat32, readPermutation, Frame.SkipFrameData, Frame.getBitreader, Frame.DecodeFrame, Frame.setupBitReaders, Frame.IsVisible, Frame.GetColourChannelCount, Frame.GetPaddedFrameSize, Frame.decodeLFGroups, Frame.decodePasses, Frame.startWorker, Frame.doProcessing, Frame.decodePassGroupsConcurrent, Frame.invertSubsampling, Frame.performGabConvolution, Frame.performEdgePreservingFilter, mirrorCoord, copyFloatBuffers, Frame.Upsample, Frame.performUpsampling, Frame.getLFGroupSize, Frame.getLFGroupLocation, Frame.getGroupLocation, Frame.getLFGroupForGroup, Frame.groupPosInLFGroup, Frame.getGroupSize |  | Frame.getGlobalTree, Frame.setGlobalTree, Frame.getGlobalMetadata, Frame.getPasses, Frame.getFrameHeader, NewFrameWithReader, Frame.getHFGlobal, Frame.getLFGlobal, displayBuffers, displayBuffer, displayModularChannel, Frame.getNumLFGroups, Frame.InitializeNoise, Frame.RenderSplines, Frame.SynthesizeNoise, Frame.getColourChannelCount, Frame.Release, Frame.generateSignaturesForBuffer |
| frame/FrameHeader.go | NewFrameHeaderWithReader |  | FrameHeader.DisplayDebug |
| frame/HFBlockContext.go | NewHFBlockContextWithReader |  |  |
| frame/HFCoefficients.go | NewHFCoefficientsWithReader, HFCoefficients.DisplayHFCoefficients, HFCoefficients.displayQuantizedCoeffs, HFCoefficients.displayDequantHFCoeff, HFCoefficients.getBlockContext, HFCoefficients.getNonZeroContext, HFCoefficients.getCoefficientContext, HFCoefficients.bakeDequantizedCoeffs, HFCoefficients.dequantizeHFCoefficients, HFCoefficients.chromaFromLuma, HFCoefficients.finalizeLLF, getPredictedNonZeros |  | HFCoefficients.Release |
| frame/HFGlobal.go | setupDefaultParams, NewHFGlobalWithReader, HFGlobal.setupDCTParam, HFGlobal.readDCTParams, HFGlobal.generateWeights, quantMult, HFGlobal.getDCTQuantWeights, interpolate, HFGlobal.getAFVTransformWeights |  | init, HFGlobal.getHFPresets, HFGlobal.totalWeights, HFGlobal.displayWeights, HFGlobal.displaySpecificWeights, HFGlobal.Release |
| frame/HFPass.go | init, filterByType, filterByParameterIndex, filterByOrderID, NewHFPassWithReader, HFPass.getNaturalOrder, getNaturalOrderFunc |  |  |
| frame/LFChannelCorrelation.go | NewLFChannelCorrelationWithReaderAndDefault, NewLFChannelCorrelationWithReader |  | NewLFChannelCorrelation |
| frame/LFGlobal.go | NewLFGlobalWithReader | NewLFGlobal |  |
| frame/LFGroup.go | NewLFGroupWithReader |  |  |
| frame/MATree.go | NewMATreeWithReader, MATreeNode.compactifyWithY, MATreeNode.compactify, MATreeNode.useWeightedPredictor, MATreeNode.walk, MATreeNode.getSize |  | MATreeNode.isLeafNode, DisplayTree |
| frame/ModularChannel.go | init, NewModularChannelFromChannel, NewModularChannelWithAllParams, ModularChannel.allocate, ModularChannel.prediction, ModularChannel.prePredictWP, ModularChannel.west, ModularChannel.north, ModularChannel.northWest, ModularChannel.northEast, ModularChannel.northNorth, ModularChannel.northEastEast, ModularChannel.westWest, ModularChannel.errorNorth, ModularChannel.errorWest, ModularChannel.errorWestWest, ModularChannel.errorNorthWest, ModularChannel.errorNorthEast, ModularChannel.getWalkerFunc, ModularChannel.getLeafNode, ModularChannel.decode |  | absInt32 |
| frame/ModularStream.go | NewSqueezeParam, NewTransformInfo, NewModularStreamWithChannels, ModularStream.getChannels, ModularStream.decodeChannels, ModularStream.applyTransforms, inverseHorizontalSqueeze, inverseVerticalSqueeze, tendancy |  | NewModularStreamWithStreamIndex, NewModularStreamWithReader, ModularStream.getDecodedBuffer |
| frame/NoiseGroup.go | NewNoiseGroupWithHeader |  |  |
| frame/Pass.go | NewPassWithReader |  |  |
| frame/PassGroup.go | NewPassGroupWithReader, PassGroup.invertVarDCT, PassGroup.invertAFV, PassGroup.auxDCT2 |  | layBlock, PassGroup.layBlock, PassGroup.Release |
| frame/PassesInfo.go | NewPassesInfo, NewPassesInfoWithReader |  |  |
| frame/Patch.go |  |  | NewPatchWithStreamAndReader |
| frame/Quantizer.go |  |  | NewQuantizerWithReader |
| frame/RestorationFilter.go | NewRestorationFilter, NewRestorationFilterWithReader |  |  |
| frame/WPParams.go | NewWPParams |  |  |
| frame/XorShiro.go | XorShiro.fill, XorShiro.nextLong, XorShiro.fillBatch, NewXorShiroWith4Seeds, NewXorShiroWith2Seeds, splitMix64 |  |  |
| frame/dctparams.go | DCTParam.Equals |  | NewDCTParam |
| frame/hfmetadata.go | NewHFMetadataWithReader, HFMetadata.placeBlock |  |  |
| frame/lfcoefficients.go | NewLFCoefficientsWithReader, LFCoefficients.populatedLFIndex, LFCoefficients.getLFIndex, adaptiveSmooth |  |  |
| frame/transformtype.go | NewTransformType, TransformType.isVertical, TransformType.flip, TransformType.getDctSelectSize, scaleF, validateIndex, getHorizontalTransformType |  | TransformType.getPixelSize, getByOrderID |
| image/imagebuffer.go | NewImageBuffer, NewImageBufferFromInts, NewImageBufferFromFloats, NewImageBufferFromImageBuffer, copyInt32Matrix2D, ImageBuffer.MaxInt, ImageBuffer.MaxFloat, ImageBuffer.Equals, ImageBuffer.IsFloat, ImageBuffer.IsInt, ImageBuffer.CastToFloatIfMax, ImageBuffer.castToFloatBuffer, ImageBuffer.CastToIntIfMax, ImageBuffer.castToIntBuffer, ImageBuffer.Clamp, ImageBufferSliceEquals |  | copyFloat32Matrix2D |
| jxlio/IOHelper.go | ReadFullyWithOffset, ReadFully, SkipFully |  |  |
| jxlio/bitreader.go | NewBitStreamReaderWithIndex, NewBitStreamReader, BitStreamReader.Seek, BitStreamReader.Reset, BitStreamReader.AtEnd, BitStreamReader.ReadBytesToBuffer, BitStreamReader.readBit, BitStreamReader.ReadBits, BitStreamReader.ReadByteArrayWithOffsetAndLength, BitStreamReader.ReadByte, BitStreamReader.ReadEnum, BitStreamReader.ReadF16, BitStreamReader.ReadICCVarint, BitStreamReader.ReadU32, BitStreamReader.ReadBool, BitStreamReader.ReadU64, BitStreamReader.ReadU8, BitStreamReader.ShowBits, BitStreamReader.SkipBits, BitStreamReader.Skip, BitStreamReader.ReadBytesUint64, BitStreamReader.ZeroPadToByte, UnpackSigned, UnpackSigned64 |  | BitStreamReader.GetBitsCount, BitStreamReader.BitsRead |
| options/jxl_options.go | NewJXLOptions |  |  |
| reader.go | init, Decode, DecodeConfig |  |  |
| util/MathsHelper.go | generateCosineLUT, SignedPow, CeilLog1p, CeilLog1pUint64, FloorLog1p, FloorLog1pUint64, CeilLog2, Max, Clamp3, Clamp3Float32, Clamp, Abs, MatrixIdentity, MatrixVectorMultiply, MatrixMultiply, MatrixMatrixMultiply, InvertMatrix3x3, CeilDiv, TransposeMatrix, TransposeMatrixInto, Matrix3Equal, InverseDCT2D, inverseDCTHorizontal, ForwardDCT2D, forwardDCTHorizontal, MirrorCoordinate | Min | isNan, MakeSliceWithDefault |
| util/Point.go |  |  | NewPoint |
| util/RangeInterator.go | RangeIterator |  | RangeIteratorWithIntPoint |
| util/buffer_pool.go | Matrix3DPool[T].Get, Matrix3DPool[T].Put, Matrix2DPool[T].Get, Matrix2DPool[T].Put |  | Matrix3DPool[T].GetMetrics, Matrix2DPool[T].GetMetrics, MakeMatrix3DPooled, ReturnMatrix3DToPool, MakeMatrix2DPooled, ReturnMatrix2DToPool, GetPoolMetrics |
| util/deque.go | Deque[T].AddFirst, Deque[T].AddLast, Deque[T].RemoveFirst, Deque[T].RemoveLast, Deque[T].IsEmpty |  | NewDeque |
| util/misc.go | MakeMatrix2D, MakeMatrix3D, CompareMatrix2D, CompareMatrix3D, FillFloat32, Add, Rectangle.ComputeLowerCorner |  | IfThenElse, MakeMatrix4D |
| util/sliceutil.go | AddToSlice |  |  |
