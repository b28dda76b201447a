{
 "claims": [
  {
   "property": "C01",
   "status": "proved",
   "theorems": [
    "Jxl.C01_readBits",
    "Jxl.C01_start",
    "Jxl.C01_history",
    "Jxl.C01_readBool",
    "Jxl.C01_readByte"
   ],
   "note": ""
  },
  {
   "property": "C02",
   "status": "proved",
   "theorems": [
    "Jxl.C02_split"
   ],
   "note": ""
  },
  {
   "property": "C03",
   "status": "partial",
   "theorems": [
    "Jxl.C03_showBits_partial",
    "Jxl.C03_failed_peek_consumes",
    "Jxl.C03_atEnd"
   ],
   "note": "Holds when the peek succeeds. False of the code when the peek runs past the end: C03_failed_peek_consumes is the negation with a witness."
  },
  {
   "property": "C04",
   "status": "partial",
   "theorems": [
    "Jxl.C04_skipBits_partial",
    "Jxl.C04_skip_then_read_partial",
    "Jxl.C04_counter_wrong",
    "Jxl.C04_short_skip_accepted",
    "Jxl.C04_skip_wraps"
   ],
   "note": "Position is right when enough bits remain. False of the code: whole skipped bytes are not counted, a short stream.Read is accepted, Skip wraps at 2^29 bytes; negations proved."
  },
  {
   "property": "C05",
   "status": "proved",
   "theorems": [
    "Jxl.C05_roundtrip",
    "Jxl.C05_u8_roundtrip"
   ],
   "note": ""
  },
  {
   "property": "C06",
   "status": "proved",
   "theorems": [
    "Jxl.C06_readU32",
    "Jxl.C06_readU64",
    "Jxl.C06_u64_roundtrip",
    "Jxl.C06_readU8",
    "Jxl.C06_u8_roundtrip",
    "Jxl.C06_readEnum",
    "Jxl.C06_enum_range",
    "Jxl.C06_icc_varint",
    "Jxl.C06_icc_varint_nonneg"
   ],
   "note": ""
  },
  {
   "property": "C07",
   "status": "partial",
   "theorems": [
    "Jxl.C07_unpackSigned_partial",
    "Jxl.C07_unpackSigned_wrong",
    "Jxl.C07_not_injective",
    "Jxl.C07_bijective_partial",
    "Jxl.C07_unpackSigned64_partial",
    "Jxl.C07_unpackSigned64_wrong"
   ],
   "note": "Zig-zag on the lower half and on even inputs; false of the code for every odd input with the top bit set (negation proved)."
  },
  {
   "property": "C08",
   "status": "proved",
   "theorems": [
    "Jxl.C08_readF16",
    "Jxl.C08_total"
   ],
   "note": "The float32 result is represented by the rational it denotes; the float operations in ReadF16 are exact."
  },
  {
   "property": "C09",
   "status": "proved",
   "theorems": [
    "Jxl.C09_zeroPad",
    "Jxl.C09_zeroPad_aligned"
   ],
   "note": ""
  },
  {
   "property": "C10",
   "status": "proved",
   "theorems": [
    "Jxl.C10_table",
    "Jxl.C10_reject",
    "Jxl.C10_complete",
    "Jxl.C10_described_code_partial",
    "Jxl.C10_simple_aux",
    "Jxl.C10_simple_code_partial",
    "Jxl.C10_single"
   ],
   "note": "Table construction, rejection, completeness, single-symbol, simple and complex descriptions (RFC 7932) for all lengths and descriptions. The two description theorems carry the look-ahead condition that C11 is about, hence their _partial suffix."
  },
  {
   "property": "C11",
   "status": "partial",
   "theorems": [
    "Jxl.C11_fails_near_end",
    "Jxl.C11_violated",
    "Jxl.C11_word_decoded_partial"
   ],
   "note": "False of the code: every look-up with fewer bits left than the table width fails (proved for all tables), with a witness. Exact condition proved."
  },
  {
   "property": "C12",
   "status": "partial",
   "theorems": [
    "Jxl.C12_alias_partition",
    "Jxl.C12_alias_single",
    "Jxl.C12_accepted_partial",
    "Jxl.C12_violated"
   ],
   "note": "Proved for all frequency tables with sum 4096, and for every distribution accepted from a stream that has no negative frequency. False of the code otherwise: a stream with explicit frequencies above 4096 is accepted (witness)."
  },
  {
   "property": "C13",
   "status": "proved",
   "theorems": [
    "Jxl.C13_ans_roundtrip",
    "Jxl.C13_final_state"
   ],
   "note": "All messages over proper distributions, at any position of any stream; the encoder is in Spec/Stream.lean and finds its slots by search."
  },
  {
   "property": "C14",
   "status": "proved",
   "theorems": [
    "Jxl.C14_hybrid",
    "Jxl.C14_token_inj",
    "Jxl.C14_config",
    "Jxl.C14_config_valid"
   ],
   "note": "All valid configurations and all 32-bit values; configurations round-trip and every accepted configuration is valid."
  },
  {
   "property": "C15",
   "status": "partial",
   "theorems": [
    "Jxl.C15_lz77_partial",
    "Jxl.C15_lz77_history_partial",
    "Jxl.C15_violated",
    "Jxl.C15_special_distances"
   ],
   "note": "All command lists of any length up to 2^31 values, all codes, contexts and histories. False of the code for special distances below 1 (witness), which the theorem excludes."
  },
  {
   "property": "C16",
   "status": "partial",
   "theorems": [
    "Jxl.C16_entries_partial",
    "Jxl.C16_nesting",
    "Jxl.C16_nonneg_partial",
    "Jxl.C16_mtf",
    "Jxl.C16_fixed_roundtrip",
    "Jxl.C16_violated"
   ],
   "note": "Length, bound and number of clusters for every stream; move-to-front inverse for all sequences. False of the code: entries can be negative (witness)."
  },
  {
   "property": "C17",
   "status": "proved",
   "theorems": [
    "Jxl.C17_permutation",
    "Jxl.C17_denotes",
    "Jxl.C17_roundtrip"
   ],
   "note": "Every permutation read is a permutation; every permutation of every size has a Lehmer code that reads back to it."
  },
  {
   "property": "C18",
   "status": "partial",
   "theorems": [
    "Jxl.C18_unpermuted_partial",
    "Jxl.C18_single",
    "Jxl.C18_permutation_ignored",
    "Jxl.C18_violated",
    "Jxl.C18_violated_at_end",
    "Jxl.C18_lengths",
    "Jxl.C18_toc",
    "Jxl.C18_entries",
    "Jxl.C18_skip_partial",
    "Jxl.C18_skip_violated"
   ],
   "note": "Byte ranges of sections, unpermuted tables and skipping proved for all tables. False of the code for permuted tables and for the last section (witnesses)."
  },
  {
   "property": "C19",
   "status": "proved",
   "theorems": [
    "Jxl.C19_table",
    "Jxl.C19_tree",
    "Jxl.C19_link"
   ],
   "note": "Every accepted tree description is a finite binary tree whose table has no cycle and no dangling child."
  },
  {
   "property": "C20",
   "status": "proved",
   "theorems": [
    "Jxl.C20_compactify",
    "Jxl.C20_compactifyWithY",
    "Jxl.C20_refined",
    "Jxl.C20_leaves",
    "Jxl.C20_useWP"
   ],
   "note": "Specialising to channel, stream and row keeps the leaf reached, for all trees and property valuations; the weighted predictor is allocated exactly when some reachable node or leaf uses it."
  },
  {
   "property": "C21",
   "status": "partial",
   "theorems": [
    "Jxl.C21_params",
    "Jxl.C21_weight",
    "Jxl.C21_predict",
    "Jxl.C21_matches",
    "Jxl.C21_init",
    "Jxl.C21_step_partial",
    "Jxl.C21_violated"
   ],
   "note": "Parameters, weights, tables, prediction and bookkeeping proved for all samples, errors and positions whose recorded errors fit; the prediction equals an independent specification. False of the code for a sample whose eightfold is 2^31 from a sub-prediction: witness crashes. That the state is allocated whenever it is used is C20_useWP."
  },
  {
   "property": "C22",
   "status": "partial",
   "theorems": [
    "Jxl.C22_lossless_partial",
    "Jxl.C22_violated"
   ],
   "note": "All images of 32-bit samples (arithmetic wraps) and all types below 42: decoding undoes the documented forward transform. False of the code for types 42 and above, which a stream can name (proved to crash)."
  },
  {
   "property": "C23",
   "status": "partial",
   "theorems": [
    "Jxl.C23_rows",
    "Jxl.C23_columns_partial",
    "Jxl.C23_steps_partial",
    "Jxl.C23_violated",
    "Jxl.C23_smooth"
   ],
   "note": "All sizes and samples of magnitude up to 2^27: rows, columns, and any list of steps (in place or not) on any list of channels. False of the code for a channel of width 0 and odd height (crash, proved)."
  },
  {
   "property": "C24",
   "status": "partial",
   "theorems": [
    "Jxl.C24_expand_partial",
    "Jxl.C24_violated",
    "Jxl.C24_colours",
    "Jxl.C24_depth_wrong",
    "Jxl.C24_weighted_crash"
   ],
   "note": "Proved when the palette has one component or its index channel is the last one: all 32-bit indices (explicit, implicit, differences with every predictor but the weighted one), bit depth at least 3, all sizes. False of the code otherwise: channels after the index channel are lost (proved in general), witnesses for bit depth 1-2 and the weighted predictor."
  },
  {
   "property": "C25",
   "status": "partial",
   "theorems": [
    "Jxl.C25_addToSlice",
    "Jxl.C25_add_partial",
    "Jxl.C25_add_wrong",
    "Jxl.C25_add_witness"
   ],
   "note": "AddToSlice inserts (proved). util.Add is wrong at every index before the end: negation proved for all such indices."
  },
  {
   "property": "C26",
   "status": "partial",
   "theorems": [
    "Jxl.C26_groups_partial",
    "Jxl.C26_channel_partial",
    "Jxl.C26_channel_count",
    "Jxl.C26_reassembled",
    "Jxl.C26_lf_groups_wrong",
    "Jxl.C26_shift_panics",
    "Jxl.C26_counts_wrong",
    "Jxl.C26_headers"
   ],
   "note": "All headers that are read, frames with at least one pixel and fewer than 2^31 groups; the parts of every channel tile it and are put together again. False of the code, proved: LF groups are copied without their horizontal offset; an empty frame has millions of groups and a frame of 2^24 by 2^24 pixels none; a channel halved more often than the group size allows crashes the decoder."
  },
  {
   "property": "C27",
   "status": "partial",
   "theorems": [
    "Jxl.C27_rows",
    "Jxl.C27_up_rows",
    "Jxl.C27_gab",
    "Jxl.C27_same",
    "Jxl.C27_gab_same",
    "Jxl.C27_epf",
    "Jxl.C27_epf_passes",
    "Jxl.C27_upsampling",
    "Jxl.C27_panics",
    "Jxl.C27_overflow"
   ],
   "note": "For every arithmetic (so for float32 too), all sizes below 2^30 rows, all MaxGoroutines with MaxGoroutines + height < 2^31 (upsampling: all) and every interleaving of the steps: no panic, and the planes hold the specified values. False of the code, proved: MaxGoroutines a multiple of 2^32 panics, and with 2^31-1 no row is filtered. The steps read planes that are not written; the tables of inverse sigmas and weights are inputs."
  },
  {
   "property": "C28",
   "status": "partial",
   "theorems": [
    "Jxl.C28_exactly_once",
    "Jxl.C28_never_twice",
    "Jxl.C28_table",
    "Jxl.C28_terminates",
    "Jxl.C28_goes_on",
    "Jxl.C28_completes",
    "Jxl.C28_error_crashes",
    "Jxl.C28_error_ignored",
    "Jxl.C28_error_crashes_vardct",
    "Jxl.C28_second_pass_crashes",
    "Jxl.C28_slots_once",
    "Jxl.C28_slots_error",
    "Jxl.C28_slots_terminates",
    "Jxl.C28_slots_completes"
   ],
   "note": "Every schedule, any numbers of jobs and goroutines: each job exactly once, the results do not depend on the schedule, termination without deadlock; LF groups and the inversion of groups return an error exactly if a group fails. False of the code, proved: an error while a group of a pass is decoded is never returned, the program crashes or goes on. What a job computes is assumed not to depend on other jobs."
  },
  {
   "property": "C29",
   "status": "partial",
   "theorems": [
    "Jxl.C29_disjoint_partial",
    "Jxl.C29_format",
    "Jxl.C29_unknown_type",
    "Jxl.C29_full",
    "Jxl.C29_bottom_panics",
    "Jxl.C29_crosses_groups"
   ],
   "note": "Disjointness, containment and the format's placement hold for every accepted sequence of types and multipliers. False of the code, proved: a block that does not fit below is a panic, not an error, and blocks may cross the borders of groups."
  },
  {
   "property": "C30",
   "status": "partial",
   "theorems": [
    "Jxl.C30_contexts_partial",
    "Jxl.C30_roles",
    "Jxl.C30_table",
    "Jxl.C30_lookup",
    "Jxl.C30_block",
    "Jxl.C30_block_entries",
    "Jxl.C30_lf_index",
    "Jxl.C30_lf_roles",
    "Jxl.C30_read_table_partial",
    "Jxl.C30_inside",
    "Jxl.C30_large_number",
    "Jxl.C30_negative_number",
    "Jxl.C30_prediction"
   ],
   "note": "Every accepted group, for every source of symbols that are not negative and every preset of the table: contexts are in range and their roles distinct; block contexts and intervals likewise. False of the code, proved: a negative number leads to contexts outside the table, a number that is too large and a block that crosses the edge of its group crash the decoder; negative entries of the table of block contexts are not excluded."
  },
  {
   "property": "C31",
   "status": "proved",
   "theorems": [
    "Jxl.C31_places",
    "Jxl.C31_written",
    "Jxl.C31_natural",
    "Jxl.C31_read"
   ],
   "note": ""
  },
  {
   "property": "C32",
   "status": "partial",
   "theorems": [
    "Jxl.C32_boxes_partial",
    "Jxl.C32_empty_box_crashes",
    "Jxl.C32_open_box_crashes",
    "Jxl.C32_long_box_rejected",
    "Jxl.C32_truncated_accepted",
    "Jxl.C32_small_size_accepted",
    "Jxl.C32_large_box_crashes",
    "Jxl.C32_terminates"
   ],
   "note": "All sequences of well-formed boxes below 2^29 bytes; termination on every file. False of the code, proved for all contexts: empty and open boxes crash it, 64-bit sizes are rejected, truncated boxes and sizes 2 to 7 are accepted, boxes of 2^29 bytes crash it."
  },
  {
   "property": "C33",
   "status": "proved",
   "theorems": [
    "Jxl.C33_ints",
    "Jxl.C33_floats",
    "Jxl.C33_permutation",
    "Jxl.C33_rejected",
    "Jxl.C33_canvas",
    "Jxl.C33_header"
   ],
   "note": "All images with rectangular channels, all orientations 1 to 8, integer and float; every other orientation is rejected; the size announced by the header is the size of the result."
  },
  {
   "property": "C34",
   "status": "partial",
   "theorems": [
    "Jxl.C34_png_partial",
    "Jxl.C34_every_file",
    "Jxl.C34_premultiplied_never_written",
    "Jxl.C34_gray_alpha_never_written",
    "Jxl.C34_low_depth_wrong_size",
    "Jxl.C34_hdr_wrong_size",
    "Jxl.C34_hdr_empty_profile",
    "Jxl.C34_other_colours_crash",
    "Jxl.C34_alpha_elsewhere",
    "Jxl.C34_alpha_depth_wrong_size"
   ],
   "note": "Every image of ordinary range with at least 8 bits, without alpha or with alpha as first extra channel of matching depth: the file is a PNG file of the image. A second theorem describes every file that is written whatever the image. False of the code, proved: fewer than 8 bits and 8-bit HDR give rows of another size than announced, gray with alpha and premultiplied alpha are never written, BT.709/DCI/gamma/P3 without profile crash it, alpha that is not the first extra channel is replaced by another channel, alpha of another depth gives rows of the wrong size. Trusted: zlib, CRC, and the transfer curves as arbitrary functions."
  },
  {
   "property": "C35",
   "status": "proved",
   "theorems": [
    "Jxl.C35_pfm",
    "Jxl.C35_size",
    "Jxl.C35_integer_images_crash"
   ],
   "note": "All float images with enough channels; Float32bits is an arbitrary function. Integer images crash the writer (outside the property)."
  },
  {
   "property": "C36",
   "status": "partial",
   "theorems": [
    "Jxl.C36_float_nearest",
    "Jxl.C36_new",
    "Jxl.C36_clamp",
    "Jxl.C36_nearest",
    "Jxl.C36_clamp_id",
    "Jxl.C36_to_float",
    "Jxl.C36_to_int",
    "Jxl.C36_rescale",
    "Jxl.C36_roundtrip_partial",
    "Jxl.C36_roundtrip_24_bits",
    "Jxl.C36_saturates_partial",
    "Jxl.C36_bright_is_black"
   ],
   "note": "All buffers and maxima for creation, clamping and the value of each conversion; the integer to float to integer round trip is proved for maxima below 2^20. False of the code: at 24 bits the round trip loses samples, a bright float converts to black on the platforms where an overflowing conversion gives the smallest integer."
  },
  {
   "property": "C37",
   "status": "partial",
   "theorems": [
    "Jxl.C37_blend_partial",
    "Jxl.C37_integers_partial",
    "Jxl.C37_above_panics",
    "Jxl.C37_left_panics",
    "Jxl.C37_outside_panics",
    "Jxl.C37_no_reference_panics",
    "Jxl.C37_alpha_number_panics",
    "Jxl.C37_other_modes_rejected",
    "Jxl.C37_shared_reference_wrong",
    "Jxl.C37_transparent_nan",
    "Jxl.C37_gray_alpha_panics",
    "Jxl.C37_upsampled_misplaced"
   ],
   "note": "Frames at non-negative origins, or at origins left of and not below the top of the canvas, overlapping or touching it: exactly the covered pixels change, nothing fails, all other buffers keep their values. False of the code, proved: a frame above the canvas that is not left of it and a frame left of it whose top is inside crash the decoder, as do frames beside the canvas, modes with a missing reference and alpha numbers that do not exist; upsampled frames are painted at a multiple of their position."
  },
  {
   "property": "C38",
   "status": "partial",
   "theorems": [
    "Jxl.C38_limits_partial",
    "Jxl.C38_accepts",
    "Jxl.C38_violated",
    "Jxl.C38_violated_level10",
    "Jxl.C38_no_crash"
   ],
   "note": "All streams: each side of an accepted size is bounded, and the number of pixels when it is below 2^32; sizes within the limits are accepted. False of the code in general: 2^18 by 2^18 accepted at level 5 (witness), no product is rejected at level 10 (proved for all)."
  },
  {
   "property": "C39",
   "status": "partial",
   "theorems": [
    "Jxl.C39_exact_partial",
    "Jxl.C39_sound_partial",
    "Jxl.C39_violated"
   ],
   "note": "All heights and ratios, all streams: every accepted size is the format's, except 16:9 with height 2^28, which is accepted with width 0 (witness)."
  },
  {
   "property": "C40",
   "status": "partial",
   "theorems": [
    "Jxl.C40_context",
    "Jxl.C40_context_range",
    "Jxl.C40_shuffle_partial",
    "Jxl.C40_shuffle_crashes",
    "Jxl.C40_prediction_partial",
    "Jxl.C40_short_crashes",
    "Jxl.C40_varint"
   ],
   "note": "Contexts equal the format's for all histories and lie in 0..40; varints never fault; interleaving is the format's permutation for all lengths in two columns and for lengths 0 or 3 modulo 4 (or at most 2) in four. False of the code for every other length (crash, proved) and for predictions in profiles of 5 to 40 bytes (crash, proved for all)."
  },
  {
   "property": "C41",
   "status": "partial",
   "theorems": [
    "Jxl.C41_ceilLog1p",
    "Jxl.C41_ceilLog1p_negative",
    "Jxl.C41_floorLog1p",
    "Jxl.C41_ceilLog2",
    "Jxl.C41_ceilDiv_partial",
    "Jxl.C41_ceilDiv_zero_wrong",
    "Jxl.C41_clamp3",
    "Jxl.C41_clamp4",
    "Jxl.C41_abs_partial",
    "Jxl.C41_abs_min_wrong",
    "Jxl.C41_mirror",
    "Jxl.C41_mirror_range"
   ],
   "note": "CeilDiv(0,d) and Abs(minimum) violate the statement (negations proved); everything else proved for all inputs. MirrorCoordinate is modelled on unbounded integers."
  },
  {
   "property": "C42",
   "status": "partial",
   "theorems": [
    "Jxl.C42_pool_get3_partial",
    "Jxl.C42_pool_get2_partial",
    "Jxl.C42_ragged_put_wrong"
   ],
   "note": "Proved for every history in which clients only return what they hold, whole and rectangular. The pool does not check this: negation for ragged matrices, which the code returns."
  },
  {
   "property": "C43",
   "status": "proved",
   "theorems": [
    "Jxl.C43_deque"
   ],
   "note": ""
  },
  {
   "property": "C44",
   "status": "partial",
   "theorems": [
    "Jxl.C44_range_shifted_partial",
    "Jxl.C44_range_wrong"
   ],
   "note": "False of the code: the points are shifted by one column. The exact set of points is proved for all rectangles, with a witness of the violation."
  },
  {
   "property": "C45",
   "status": "partial",
   "theorems": [
    "Jxl.C45_buffer_partial",
    "Jxl.C45_image_copy_is_empty",
    "Jxl.C45_image_copy_differs",
    "Jxl.C45_transfer_crashes",
    "Jxl.C45_equal_ints",
    "Jxl.C45_nan_differs_from_itself"
   ],
   "note": "Buffer copies are equal and independent, integer buffers are compared exactly. False of the code: the copy of an image never has channels, which crashes the scaling of PQ images; a float buffer with a NaN differs from itself."
  },
  {
   "property": "C46",
   "status": "partial",
   "theorems": [
    "Jxl.C46_default_crashes",
    "Jxl.C46_reference_only",
    "Jxl.C46_stated_partial"
   ],
   "note": "False of the code: every all-default header and every reference-only frame gives a pass without parameters (crash, proved for all). Proved for headers that state their passes."
  },
  {
   "property": "C47",
   "status": "partial",
   "theorems": [
    "Jxl.C47_restoration_partial",
    "Jxl.C47_without_weights_partial",
    "Jxl.C47_weights_never_read",
    "Jxl.C47_violated"
   ],
   "note": "Bundles that are all default or have no filter iterations are read as the format defines, for all streams. False of the code otherwise: custom weights are never read (proved for all streams, witness)."
  },
  {
   "property": "C48",
   "status": "partial",
   "theorems": [
    "Jxl.C48_headers_partial",
    "Jxl.C48_violated",
    "Jxl.C48_flags_partial"
   ],
   "note": "All headers of colour transforms, palettes and squeezes read as documented; explicit squeeze steps are proved never to be read as documented, on any stream."
  },
  {
   "property": "C49",
   "status": "partial",
   "theorems": [
    "Jxl.C49_intended",
    "Jxl.C49_never_flipped",
    "Jxl.C49_partial",
    "Jxl.C49_fails"
   ],
   "note": "For every arithmetic. False of the code, proved: the corner is at the top left for every block that placeBlock stored, whatever its type, and for each of AFV1, AFV2, AFV3 there are coefficients with a wrong sample. AFV0 is right, and all four would be right if the pointers were the ones of the package variables."
  },
  {
   "property": "C50",
   "status": "proved",
   "theorems": [
    "Jxl.C50_lossless",
    "Jxl.C50_encodable",
    "Jxl.C50_stream"
   ],
   "note": "All images with samples of magnitude at most 2^26, all trees with properties and predictors in range, all earlier channels; down to the bits through C15. With the weighted predictor the encoder uses the predictor's own state functions (its internals are C21); trees without it are always encodable (C50_encodable)."
  },
  {
   "property": "C51",
   "status": "partial",
   "theorems": [
    "Jxl.C51_first_frame_partial",
    "Jxl.C51_second_frame_black",
    "Jxl.C51_repeat_decode_wrong"
   ],
   "note": "False of the code: proved that every later VarDCT frame of the same size is zeroed; holds for the first frame."
  },
  {
   "property": "C52",
   "status": "partial",
   "theorems": [
    "Jxl.C52_violated",
    "Jxl.C52_violated_run",
    "Jxl.C52_simple_never_crashes_partial"
   ],
   "note": "False of the code: two witnesses. Simple codes never crash (proved for all streams)."
  },
  {
   "property": "C53",
   "status": "partial",
   "theorems": [
    "Jxl.C53_distribution_never_crashes",
    "Jxl.C53_symbol_never_crashes",
    "Jxl.C53_hybrid_never_crashes",
    "Jxl.C53_violated_mtf",
    "Jxl.C53_violated_lz",
    "Jxl.C53_violated_map"
   ],
   "note": "ANS distributions, ANS symbols and hybrid integers never crash, proved for all streams. False of the code for move-to-front indices, negative cluster entries and LZ77 distances (witnesses)."
  },
  {
   "property": "C54",
   "status": "partial",
   "theorems": [
    "Jxl.C54_plan",
    "Jxl.C54_lossless",
    "Jxl.C54_stream"
   ],
   "note": "All chains of transforms of any length, all image sizes: the planned channels equal the encoder's and decoding returns the image, down to the bits. Within a chain, palettes are those of C24 (one component or index channel last) and squeezes list their steps or use the default without meta channels."
  },
  {
   "property": "C55",
   "status": "partial",
   "theorems": [
    "Jxl.C55_default_partial",
    "Jxl.C55_violated"
   ],
   "note": "All images without meta channels. False of the code after a palette (proved for every image size)."
  },
  {
   "property": "C56",
   "status": "partial",
   "theorems": [
    "Jxl.C56_header_partial",
    "Jxl.C56_preview_violated",
    "Jxl.C56_extensions_violated",
    "Jxl.C56_no_crash"
   ],
   "note": "All headers up to the colour profile, all streams, both levels; no crash on any stream. False of the code for previews in units of eight and for extensions with a payload (witnesses); animations are rejected; XYB colour encodings without profile are not covered."
  },
  {
   "property": "C57",
   "status": "partial",
   "theorems": [
    "Jxl.C57_profile_partial",
    "Jxl.C57_short_partial",
    "Jxl.C57_every_profile",
    "Jxl.C57_bare_ignored",
    "Jxl.C57_tag21_crashes",
    "Jxl.C57_stride_crashes",
    "Jxl.C57_size_crashes",
    "Jxl.C57_commands_crash",
    "Jxl.C57_size"
   ],
   "note": "All profiles, tags and commands (sizes below 2^31, interleaving as in C40): the decoded bytes are those described; every profile with a tag table has a stream; the size is always the announced one. False of the code when the number of tags is written as 0 (proved for all), and crashes for tag code 21, wrapped strides, sizes from 2^31 and truncated streams (witnesses)."
  },
  {
   "property": "C58",
   "status": "partial",
   "theorems": [
    "Jxl.C58_partition_partial",
    "Jxl.C58_violated"
   ],
   "note": "All stated passes in which no factor names the last pass. False of the code when one does (witness), and for headers without passes (C46)."
  },
  {
   "property": "C59",
   "status": "partial",
   "theorems": [
    "Jxl.C59_header_partial",
    "Jxl.C59_no_crash",
    "Jxl.C59_blending_violated",
    "Jxl.C59_empty_crop_violated"
   ],
   "note": "All streams, image sizes up to 2^30: the header read is the format's. No crash on any stream. Excluded: filter iterations (C47), animations, extensions with payload. False of the code for multiplicative blending without extra channels and for empty crops (witnesses)."
  },
  {
   "property": "C60",
   "status": "partial",
   "theorems": [
    "Jxl.C60_container_partial",
    "Jxl.C60_bare_partial",
    "Jxl.C60_short_rejected",
    "Jxl.C60_no_codestream_crashes",
    "Jxl.C60_split_rejected"
   ],
   "note": "All containers of ordinary boxes with one codestream box, all bare codestreams of at least 12 bytes; the header is that of C56. False of the code, proved in general: shorter files and codestreams in several parts are rejected, a container without codestream crashes it."
  },
  {
   "property": "C61",
   "status": "partial",
   "theorems": [
    "Jxl.C61_to_image_partial",
    "Jxl.C61_deep_samples_lose_high_byte",
    "Jxl.C61_alpha_elsewhere",
    "Jxl.C61_gray_alpha_dropped",
    "Jxl.C61_premultiplied_never_shown"
   ],
   "note": "Every image of ordinary range: size, bytes and alpha. False of the code, proved: above 8 bits the low bytes are shown, alpha that is not the first extra channel is replaced by another channel, gray alpha is dropped, premultiplied images are never converted."
  },
  {
   "property": "C62",
   "status": "partial",
   "theorems": [
    "Jxl.C62_repeatable_partial",
    "Jxl.C62_ten_bits_twice_differ",
    "Jxl.C62_xyb_twice_differ"
   ],
   "note": "Images whose samples have the depth of the output and whose colours need no conversion: Go image and PNG file after a rendering are as before. False of the code: a 10-bit and an XYB image change when rendered again."
  },
  {
   "property": "C63",
   "status": "partial",
   "theorems": [
    "Jxl.C63_modes_partial"
   ],
   "note": "All five modes under the conditions of C37. False of the code, proved: if the reference is the canvas itself, channels after alpha are blended with the new alpha; gray frames encoded with the DCT crash with integer alpha; transparent over transparent is NaN."
  },
  {
   "property": "C64",
   "status": "partial",
   "theorems": [
    "Jxl.C64_kept_partial",
    "Jxl.C64_reference_partial",
    "Jxl.C64_before_transform_wrong",
    "Jxl.C64_reference_only_lost",
    "Jxl.C64_painted",
    "Jxl.C64_sample",
    "Jxl.C64_nan_overwritten"
   ],
   "note": "Proved for references that hold the canvas, for every sequence of frames during which the canvas holds no NaN; integers of a reference may become floats. False of the code, proved: a frame saved before the colour transform shows the samples after it; a reference with NaN samples is overwritten by the next frame; a reference-only frame saved after the colour transform is lost."
  },
  {
   "property": "C65",
   "status": "partial",
   "theorems": [
    "Jxl.C65_gab_range",
    "Jxl.C65_gab_flat",
    "Jxl.C65_epf_range",
    "Jxl.C65_epf_weights",
    "Jxl.C65_epf_flat",
    "Jxl.C65_upsample_range_partial",
    "Jxl.C65_upsample_range_fails"
   ],
   "note": "Exact arithmetic. Upsampling only if the range has a positive number; false for negative samples, proved."
  },
  {
   "property": "C66",
   "status": "proved",
   "theorems": [
    "Jxl.C66_inverse",
    "Jxl.C66_inverse_transposed",
    "Jxl.C66_forward",
    "Jxl.C66_samples_back",
    "Jxl.C66_coefficients_back",
    "Jxl.C66_inverse_alone",
    "Jxl.C66_forward_alone",
    "Jxl.C66_tables"
   ],
   "note": "Exact real arithmetic and exact cosines for the values; for every arithmetic, float32 included: no panic, only the target rectangle is written, and the result depends on the coefficients only. Rounding errors are not bounded."
  },
  {
   "property": "C68",
   "status": "partial",
   "theorems": [
    "Jxl.C68_stream_partial",
    "Jxl.C68_block",
    "Jxl.C68_dct4_panics",
    "Jxl.C68_group",
    "Jxl.C68_second_pass_panics",
    "Jxl.C68_places"
   ],
   "note": "For every arithmetic, float32 included; AFV corners as the code places them (C49). False of the code, proved: DCT 4x4 blocks and the second pass of a group panic. Coefficients are after dequantization; that blocks do not overlap is C29."
  },
  {
   "property": "C69",
   "status": "partial",
   "theorems": [
    "Jxl.C69_coefficients",
    "Jxl.C69_scale_partial",
    "Jxl.C69_scale_fails"
   ],
   "note": "For every arithmetic. False of the code, proved: for scales 0 and 1 the unsigned exponent wraps around and the factor of the channel is 0 in float32. math.Pow and the products of SCALE_F are taken as parameters."
  },
  {
   "property": "C70",
   "status": "partial",
   "theorems": [
    "Jxl.C70_coefficients_partial",
    "Jxl.C70_fails"
   ],
   "note": "For every arithmetic. Proved for blocks laid by the rule of the format that do not cross the border of a tile unless they begin on one, and that do not cross groups. False in general, proved: a 16x16 block across a tile border gets no luma in its lower half. C68_stream_partial takes the blocks on to the samples of the frame."
  },
  {
   "property": "C67",
   "status": "partial",
   "theorems": [
    "Jxl.C67_mean",
    "Jxl.C67_parts",
    "Jxl.C67_stream_partial"
   ],
   "note": "With exact real arithmetic and exact tables: says nothing about rounding. All types but DCT 4x4 (see C68); from the stream for frames without subsampling whose blocks keep to groups and tiles."
  },
  {
   "property": "C71",
   "status": "partial",
   "theorems": [
    "Jxl.C71_correlation",
    "Jxl.C71_dequant",
    "Jxl.C71_quantizer",
    "Jxl.C71_steps_partial",
    "Jxl.C71_steps_fails",
    "Jxl.C71_samples_partial",
    "Jxl.C71_factor_fails"
   ],
   "note": "Proved for factors of at least 128 and products of scale and quantizer below 2^31. The code wraps otherwise: the factor is computed in uint32 (lfcoefficients.go:94-95, C71_factor_fails), the product in int32 (LFGlobal.go:108-110, C71_steps_fails)."
  },
  {
   "property": "C72",
   "status": "partial",
   "theorems": [
    "Jxl.C72_stream_partial",
    "Jxl.C72_borders",
    "Jxl.C72_range",
    "Jxl.C72_format",
    "Jxl.C72_code",
    "Jxl.C72_fails"
   ],
   "note": "Borders and range hold. The bound of half a step does not: the code multiplies differences by the step instead of dividing and blends in the wrong direction (lfcoefficients.go:187, 221), see C72_fails and C72_code. C72_format shows that the rule of the format keeps the bound."
  },
  {
   "property": "C73",
   "status": "partial",
   "theorems": [
    "Jxl.C73_ignored",
    "Jxl.C73_copy_partial",
    "Jxl.C73_fails"
   ],
   "note": "Does not hold: the copied samples are overwritten by numbers from the stream (no return after lfcoefficients.go:58), see C73_ignored and C73_fails. Only the copy itself is right."
  },
  {
   "property": "C74",
   "status": "partial",
   "theorems": [
    "Jxl.C74_fits",
    "Jxl.C74_stored",
    "Jxl.C74_positive",
    "Jxl.C74_defaults",
    "Jxl.C74_zero_fails",
    "Jxl.C74_raw_fails"
   ],
   "note": "Sizes and absence of crashes hold for all streams and arithmetics. Positivity holds in exact arithmetic for the defaults and for positive parameters; not for all streams: zeros give infinite weights (C74_zero_fails; only negative numbers and infinities are refused before the division), and written out numbers are not checked at all (C74_raw_fails)."
  },
  {
   "property": "C75",
   "status": "partial",
   "theorems": [
    "Jxl.C75_weights_partial",
    "Jxl.C75_raw",
    "Jxl.C75_reads_partial",
    "Jxl.C75_dct48_fails",
    "Jxl.C75_afv_ignored",
    "Jxl.C75_afv_fails"
   ],
   "note": "The modes default, Hornuss, DCT2, AFV and DCT are read as the format has them; the matrices of all modes but AFV are right in exact arithmetic. The mode DCT4x8 is never accepted (no case in setupDCTParam, C75_dct48_fails). AFV matrices use only two of the four bands: the position is not multiplied by the number of bands (HFGlobal.go:641-642, C75_afv_ignored, C75_afv_fails). Not specified: the reading of DCT4 and of written out matrices."
  },
  {
   "property": "C76",
   "status": "proved",
   "theorems": [
    "Jxl.C76_coefficients",
    "Jxl.C76_stream"
   ],
   "note": "For coefficients whose symbols fit 31 bits and whose shifted values fit an int32. The blocks of the group are given; C69 treats their choice."
  },
  {
   "property": "C77",
   "status": "proved",
   "theorems": [
    "Jxl.C77_formula",
    "Jxl.C77_xyb",
    "Jxl.C77_ycbcr",
    "Jxl.C77_frame",
    "Jxl.C77_gray_panics"
   ],
   "note": "In exact arithmetic (rounding errors of float32 are not bounded), with the real cube root for SignedPow; shapes and untouched channels for float32. C77_gray_panics records that a one-channel frame with YCbCr crashes."
  },
  {
   "property": "C78",
   "status": "proved",
   "theorems": [
    "Jxl.C78_primaries",
    "Jxl.C78_conversion",
    "Jxl.C78_white",
    "Jxl.C78_rejects",
    "Jxl.C78_no_panic",
    "Jxl.C78_header",
    "Jxl.C78_degenerate"
   ],
   "note": "In exact arithmetic. C78_degenerate records that primaries on a line are accepted and give XYZ instead of the colours of the image."
  },
  {
   "property": "C79",
   "status": "proved",
   "theorems": [
    "Jxl.C79_planes",
    "Jxl.C79_frame",
    "Jxl.C79_range",
    "Jxl.C79_ramp"
   ],
   "note": "Frames with one colour plane and chroma subsampling are excluded. Range and ramps in exact arithmetic."
  },
  {
   "property": "C80",
   "status": "partial",
   "theorems": [
    "Jxl.C80_planes_partial",
    "Jxl.C80_gray_panics",
    "Jxl.C80_large_fails",
    "Jxl.C80_float_image_fails",
    "Jxl.C80_subsampled_panics",
    "Jxl.C80_sizes_fail"
   ],
   "note": "C80_planes_partial: proved for integers below 2^24 and for XYB frames. False otherwise: C80_large_fails (integers from 2^24 on are rounded), C80_float_image_fails (float images are not read as bit patterns), C80_gray_panics, C80_subsampled_panics (crashes), C80_sizes_fail (sizes of extra channels with their own upsampling)."
  },
  {
   "property": "C81",
   "status": "proved",
   "theorems": [
    "Jxl.C81_weights",
    "Jxl.C81_flat",
    "Jxl.C81_frame"
   ],
   "note": "Planes up to 2^27 in each direction, depths 1 to 31. C81_flat in exact arithmetic with the decimal weights."
  },
  {
   "property": "C82",
   "status": "partial",
   "theorems": [
    "Jxl.C82_histogram",
    "Jxl.C82_every_histogram",
    "Jxl.C82_prefix",
    "Jxl.C82_fixed",
    "Jxl.C82_codes_partial"
   ],
   "note": "C82_histogram, C82_every_histogram and C82_prefix are complete. C82_codes_partial covers all codes, also with maps that are entropy coded themselves; 15 more bits must follow the description, since the code needs them to look up the last symbols (false of the code otherwise, C11)."
  },
  {
   "property": "C83",
   "status": "proved",
   "theorems": [
    "Jxl.C83_tree",
    "Jxl.C83_every_tree"
   ],
   "note": "Values and offsets from -2^30 on (numbers below are unpacked wrongly)."
  },
  {
   "property": "C84",
   "status": "partial",
   "theorems": [
    "Jxl.C84_single_partial",
    "Jxl.C84_frame_partial",
    "Jxl.C84_group_origins_lost",
    "Jxl.C84_group_palette_misplaced",
    "Jxl.C84_odd_width_misplaced",
    "Jxl.C84_failed_group_panics",
    "Jxl.C84_failed_lf_group_partial",
    "Jxl.C84_no_tree_panics",
    "Jxl.C84_reference_only_panics"
   ],
   "note": "C84_single_partial for frames of one section, C84_frame_partial for several. Left out: channels halved three times or more (C26_lf_groups_wrong), group transforms that move channels (C84_group_origins_lost, C84_group_palette_misplaced), channels with fewer parts than there are groups (C84_odd_width_misplaced), permuted sections (C18_violated), explicit squeeze steps (C48_violated), samples of more than 24 bits (C80_large_fails), XYB. The second part of the claim fails: a group that cannot be read panics (C84_failed_group_panics), as does a missing tree (C84_no_tree_panics) and every reference-only frame larger than a group (C84_reference_only_panics)."
  },
  {
   "property": "C85",
   "status": "partial",
   "theorems": [
    "Jxl.C85_layers_partial",
    "Jxl.C85_still_partial",
    "Jxl.C85_pixels_partial"
   ],
   "note": "C85_layers_partial for any number of layers, C85_still_partial for one frame, C85_pixels_partial for the bytes of 8-bit Go images. Left out: what C84 leaves out, blending other than replacing, places that C37 shows to be wrong, reference-only and LF frames, several codestream boxes (C15), previews (an error), XYB."
  },
  {
   "property": "C86",
   "status": "partial",
   "theorems": [
    "Jxl.C86_config_partial",
    "Jxl.C86_size_partial",
    "Jxl.C86_size_violated",
    "Jxl.C86_model_violated",
    "Jxl.C86_pieces_violated"
   ],
   "note": "C86_config_partial: DecodeConfig returns what the header states; C86_size_partial: sizes agree when the orientation keeps the sides. False otherwise: C86_size_violated (sides exchanged for orientations 5 to 8), C86_model_violated (RGBA announced, NRGBA returned), C86_pieces_violated (codestreams in several boxes fail)."
  },
  {
   "property": "C87",
   "status": "partial",
   "theorems": [
    "Jxl.C87_registered_partial",
    "Jxl.C87_violated",
    "Jxl.C87_bare_violated"
   ],
   "note": "C87_registered_partial for containers and readers with both Seek and Peek. False otherwise: C87_violated (readers without Peek are wrapped and lose Seek: an error always), C87_bare_violated (bare codestreams are not registered)."
  },
  {
   "property": "C88",
   "status": "partial",
   "theorems": [
    "Jxl.C88_violated",
    "Jxl.C88_no_frames_partial",
    "Jxl.C88_no_frames_panics"
   ],
   "note": "C88_no_frames_partial: files without frames are parsed by the core decoder. False of the code: C88_violated (ParseOnly never gives an image, and the loop over frames only ends with an error), C88_no_frames_panics (a file that ends after the image header crashes Decode)."
  },
  {
   "property": "C89",
   "status": "partial",
   "theorems": [
    "Jxl.C89_options_partial",
    "Jxl.C89_violated"
   ],
   "note": "C89_options_partial without RenderVarblocks. False: C89_violated (RenderVarblocks and a single goroutine are ignored)."
  },
  {
   "property": "C90",
   "status": "partial",
   "theorems": [
    "Jxl.C90_single_partial",
    "Jxl.C90_frame_partial"
   ],
   "note": "C90_single_partial for frames with one section, C90_frame_partial for several; LF smoothing, Gaborish, the edge-preserving filter and extra channels with integer samples are included (a frame with an alpha channel: alpha_decodes). Left out: subsampling, extra channels that are smaller than the frame (C80) or have been halved three times or more, LF frames, permuted sections (C18_violated), LF factors below 128 (C71), DCT4x4 blocks (C49), negative exponents of the factors of X and B (C69), matrices written out. Groups always have side 256 in such frames, and a second pass never decodes (C68)."
  },
  {
   "property": "C91",
   "status": "proved",
   "theorems": [
    "Jxl.C91_modular",
    "Jxl.C91_vardct"
   ],
   "note": "For VarDCT frames without LF frames in memory the LF buffer is a parameter. In the code the panic of a group that failed replaces an error (C84_failed_group_panics); what C91 says is that no picture is shown."
  },
  {
   "property": "C92",
   "status": "partial",
   "theorems": [
    "Jxl.C92_known",
    "Jxl.C92_gamma",
    "Jxl.C92_roundtrip_partial",
    "Jxl.C92_srgb_partial",
    "Jxl.C92_bt709_partial",
    "Jxl.C92_pq_violated",
    "Jxl.C92_pq_from_violated",
    "Jxl.C92_dci_violated",
    "Jxl.C92_hlg_violated",
    "Jxl.C92_codes_partial"
   ],
   "note": "Proved for the linear, sRGB, BT.709 and gamma curves, up to 1e-8 (inverses), 1e-6 (sRGB) and 1e-3 (BT.709), with exact reals in place of float64. False for PQ (a plus instead of a minus in the denominator, and a wrong exponent), for DCI (its number is taken for a gamma) and HLG (not implemented)."
  },
  {
   "property": "C93",
   "status": "partial",
   "theorems": [
    "Jxl.C93_int_partial",
    "Jxl.C93_deep_violated",
    "Jxl.C93_float_partial",
    "Jxl.C93_range",
    "Jxl.C93_set_get",
    "Jxl.C93_mixed_panics"
   ],
   "note": "Proved for images whose channels are of the same kind as the first one, with integers up to 255 or numbers in [0, 1]; bytes of numbers are next to 255 times the sample, not always the nearest. False for mixed channels (panic) and for samples of more than 8 bits (high bits are lost)."
  },
  {
   "property": "C94",
   "status": "partial",
   "theorems": [
    "Jxl.C94_bytes",
    "Jxl.C94_image_partial",
    "Jxl.C94_pixels_partial"
   ],
   "note": "Proved for frames as in C90 (no subsampling; smoothing, filters and extra channels included) that are regular, replace what they cover and are not upsampled. Gray images have no extra channels; those of others have at most 31 bits. Tables and functions for the numbers are parameters. Missing: the other kinds of frames and blending, and headers with all fields as by default (C59). The bytes of the Go image follow for 8-bit images of ordinary range (C94_pixels_partial)."
  },
  {
   "property": "C95",
   "status": "proved",
   "theorems": [
    "Jxl.C95_frames",
    "Jxl.C95_refused"
   ],
   "note": "For every file. \"Decoded without an error\" implies by C91 that all sections of the frame were there and were read. Numbers are computed with arbitrary arithmetic and tables."
  },
  {
   "property": "C96",
   "status": "partial",
   "theorems": [
    "Jxl.C96_prompt_readers_partial",
    "Jxl.C96_splitting_readers_partial",
    "Jxl.C96_no_wrong_results_partial",
    "Jxl.C96_fails_last_byte_lost",
    "Jxl.C96_fails_no_file_read",
    "Jxl.C96_fails_skip_stops_early",
    "Jxl.C96_fails_byte_repeated",
    "Jxl.C96_fails"
   ],
   "note": "False of the code for lawful readers in general (C96_fails): the end reported with the last byte loses it, a request split by the reader is an error (no file can be opened over a reader that gives one byte at a time) or, when skipping, ends early without an error, and an empty answer repeats the byte before. Proved: equal results for every client over readers that answer in full (bytes.Reader, regular files), for clients that ask for single bytes over readers that split larger requests, and no wrong value, only errors, over every lawful reader that does not stall on single bytes when at most one byte is skipped at once. The methods of the bit reader that are not primitive are clients of those that are."
  },
  {
   "property": "C97",
   "status": "partial",
   "theorems": [
    "Jxl.C97_reads_partial",
    "Jxl.C97_reads_past_end",
    "Jxl.C97_fills_partial",
    "Jxl.C97_reads_exactly",
    "Jxl.C97_fails_reads_too_much",
    "Jxl.C97_skips_partial",
    "Jxl.C97_fails_skip_panics",
    "Jxl.C97_skips_past_end"
   ],
   "note": "False of the code in general: a reader that splits its data makes ReadFullyWithOffset read too much and return a negative number, and SkipFully panics for lengths above 10000 that are no multiple of 10000. Proved: the buffer is right over every reader that keeps handing over data, the position and result over readers that answer in full, SkipFully for the other lengths, failure at the end of the data."
  },
  {
   "property": "C98",
   "status": "partial",
   "theorems": [
    "Jxl.C98_stacked_partial",
    "Jxl.C98_layers_partial",
    "Jxl.C98_pixels_partial",
    "Jxl.C98_fails_uncovered"
   ],
   "note": "False of the code for a frame that does not cover the image and names another slot than that of the frame before it: the samples around it are those of the canvas, not of the slot (C98_fails_uncovered). Proved: the image shows the frames put on the canvas one after the other, with sums over what the slots got when they were saved, hence the picture of the format if every frame covers the image or names the slot of the frame before. Missing: modes other than replace and add (which convert to floats), reference-only frames, frames saved before the colour transform, and what C85 leaves out."
  },
  {
   "property": "C99",
   "status": "partial",
   "theorems": [
    "Jxl.C99_heaped_partial",
    "Jxl.C99_blended_partial",
    "Jxl.C99_pixels_partial"
   ],
   "note": "False of the code in the cases that C98_fails_uncovered, C37_shared_reference_wrong, C37_no_reference_panics and C64_nan_overwritten show; the hypotheses exclude those: every frame covers the image or names the slot of the frame before (C99_blended_partial only), alpha is blended after the channels that use it if the frame replaces its own reference, modes that blend name a slot that was saved, and canvases before the last frame hold no NaN. Missing: the mode add next to these (C98 has it alone), reference-only frames, frames saved before the colour transform, and what C85 leaves out."
  },
  {
   "property": "C100",
   "status": "partial",
   "theorems": [
    "Jxl.C100_seeds",
    "Jxl.C100_words",
    "Jxl.C100_group",
    "Jxl.C100_narrow_partial",
    "Jxl.C100_fails"
   ],
   "note": "False of the code: it draws sixteen new words for every column instead of for every sixteenth, so in a group of more than one column the samples are not those of the format (C100_fails). Proved: the generator (C100_seeds, C100_words); which samples are set, to which numbers, and that the others stay (C100_group); equality with the format in groups of one column. The decoder does not draw noise at all (frames with noise are an error, C95)."
  },
  {
   "property": "C101",
   "status": "partial",
   "theorems": [
    "Jxl.C101_compare3",
    "Jxl.C101_compare2",
    "Jxl.C101_compare3_eq",
    "Jxl.C101_equal3_partial",
    "Jxl.C101_equal3_fails",
    "Jxl.C101_equal3_panics",
    "Jxl.C101_params",
    "Jxl.C101_matches_only",
    "Jxl.C101_matches_if",
    "Jxl.C101_matches_not_transitive"
   ],
   "note": "False of Matrix3Equal, proved: a matrix whose planes are empty is equal to every matrix with as many planes (C101_equal3_fails), and the comparison crashes if the second matrix has fewer rows (C101_equal3_panics); right for matrices of the same shape. The other comparisons are proved without restriction; the tolerance is located between 0.00009 and 0.00011. Parameters of transforms are exact numbers in the model."
  },
  {
   "property": "C102",
   "status": "proved",
   "theorems": [
    "Jxl.C102_clamp",
    "Jxl.C102_clamp_special",
    "Jxl.C102_fill",
    "Jxl.C102_fill_outside"
   ],
   "note": "All numbers, slices and ranges."
  },
  {
   "property": "C103",
   "status": "partial",
   "theorems": [
    "Jxl.C103_max_int",
    "Jxl.C103_max_int_partial",
    "Jxl.C103_max_int_fails",
    "Jxl.C103_max_float",
    "Jxl.C103_peak_int",
    "Jxl.C103_peak_float",
    "Jxl.C103_peak_fails",
    "Jxl.C103_bright_kept",
    "Jxl.C103_dim_fails"
   ],
   "note": "False of the code, proved: planes of negative samples have the maximum 0 (C103_max_int_fails), the peak of an image that is not linear crashes (C103_peak_fails), and a dim PQ image is never converted (C103_dim_fails). Proved otherwise for all planes; the peak of integer samples for depths and samples up to 24 bits."
  },
  {
   "property": "C104",
   "status": "partial",
   "theorems": [
    "Jxl.C104_layers",
    "Jxl.C104_pixels_partial",
    "Jxl.C104_image_partial",
    "Jxl.C104_corner_fails"
   ],
   "note": "False of the code, proved: the coordinates of the corner of a cropped frame are multiplied by the factor (C104_corner_fails). Proved for frames at the upper left corner (C104_image_partial), and with the corner as the code has it for all others (C104_layers); frames replace what they cover, all channels have the same factor, one codestream box. The bytes of the Go image follow for 8-bit images of ordinary range (C104_pixels_partial)."
  },
  {
   "property": "C105",
   "status": "partial",
   "theorems": [
    "Jxl.C105_layers",
    "Jxl.C105_pixels_partial",
    "Jxl.C105_image_partial"
   ],
   "note": "Proved for frames at the upper left corner (C105_image_partial), and with the corner as the code has it for all others (C105_layers; C104_corner_fails shows the difference). Colour images, frames of whole blocks that replace what they cover, the same factor for all channels, one codestream box. Left out: pictures with partial blocks, whose padding the code takes into the weighted sums at the edges. The bytes of the Go image follow for 8-bit images of ordinary range (C105_pixels_partial)."
  },
  {
   "property": "C106",
   "status": "partial",
   "theorems": [
    "Jxl.C106_layers",
    "Jxl.C106_image_partial",
    "Jxl.C106_pixels_partial"
   ],
   "note": "Proved for frames that are not made larger, anywhere, and for enlarged frames at the upper left corner (C106_image_partial); with the corner as the code has it for all others (C106_layers; C104_corner_fails shows the difference). Colour images without extra channels, frames without filters that replace what they cover, one codestream box. The bytes of the Go image follow for 8-bit images of ordinary range (C106_pixels_partial)."
  }
 ]
}