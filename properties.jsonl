{"id": "C01", "title": "Bit reads return the next bits of the input, least significant bit first", "statement": "For every byte stream, every bit position reachable by earlier successful reads and every width n<=64, ReadBits(n) returns exactly the little-endian value of the next n bits and advances the position by n; it returns an error exactly when fewer than n bits are left or n>64, and never a wrong value.", "quantifier": "all byte streams, all bit positions (aligned or not), all widths 0..64 and above", "why_tests_cant": "The fast path mixes a partial byte, whole bytes and a remainder; the number of (position, width, contents) combinations is unbounded and tests only sample a few.", "anchors": ["jxlio/bitreader.go: BitStreamReader.ReadBits, readBit, ReadBool, ReadByte, GetBitsCount"]}
{"id": "C02", "title": "Reads compose", "statement": "Reading n bits and then m bits consumes the same input and yields the same information as one read of n+m bits, whatever the alignment.", "quantifier": "all streams, positions, n+m<=64", "why_tests_cant": "Needs every split point at every alignment.", "anchors": ["jxlio/bitreader.go: BitStreamReader.ReadBits"]}
{"id": "C03", "title": "Peeking does not consume", "statement": "ShowBits(n) returns the value the next ReadBits(n) would return and leaves every later read unchanged, whether or not enough bits are available.", "quantifier": "all streams, positions and widths, including the end of the stream", "why_tests_cant": "The interesting inputs are all the ways a peek can run off the end of the input.", "anchors": ["jxlio/bitreader.go: BitStreamReader.ShowBits, AtEnd"]}
{"id": "C04", "title": "Skipping is reading and discarding", "statement": "SkipBits(n) and Skip(k) leave the reader exactly where reading and discarding n bits (8k bits) would, including the reported number of bits read, and fail when the input is too short.", "quantifier": "all streams, positions, n and k", "why_tests_cant": "Byte-wise and bit-wise parts interact with the cached byte at each of 8 alignments and with end of input.", "anchors": ["jxlio/bitreader.go: BitStreamReader.SkipBits, Skip"]}
{"id": "C05", "title": "Bit writer and bit reader are inverse", "statement": "Any sequence of values written with the bit writer at any widths, flushed to bytes and read back at the same widths yields the same values.", "quantifier": "all finite sequences of (value, width) pairs", "why_tests_cant": "The sequence length and widths are unbounded.", "anchors": ["testcommon/bitwriter.go: BitWriter", "jxlio/bitreader.go: ReadBits, ReadBool, ReadU8"]}
{"id": "C06", "title": "Variable-length header integers decode to the documented value", "statement": "ReadU32, ReadU64, ReadU8, ReadEnum and ReadICCVarint return, for every encoding of a value, exactly that value; every 64-bit number has a ReadU64 encoding; ReadEnum never returns a value above 63.", "quantifier": "all values, all encodings, all bit alignments", "why_tests_cant": "64-bit value space.", "anchors": ["jxlio/bitreader.go: ReadU32, ReadU64, ReadU8, ReadEnum, ReadICCVarint"]}
{"id": "C07", "title": "Signed unpacking is the zig-zag bijection", "statement": "UnpackSigned maps the unsigned numbers one-to-one onto the signed numbers: 2k to k and 2k-1 to -k, for every 32-bit (64-bit) input.", "quantifier": "all 2^32 (2^64) inputs", "why_tests_cant": "Exhaustive testing of 2^64 inputs is impossible and samples avoid the top half of the range.", "anchors": ["jxlio/bitreader.go: UnpackSigned, UnpackSigned64"]}
{"id": "C08", "title": "Half-precision floats decode to their exact value", "statement": "ReadF16 returns the real number denoted by the 16-bit IEEE pattern for every finite pattern and an error for every infinity or NaN.", "quantifier": "all 65536 patterns", "why_tests_cant": "The claim is about the represented real number, for all patterns, not about a list of examples.", "anchors": ["jxlio/bitreader.go: ReadF16"]}
{"id": "C09", "title": "Byte alignment", "statement": "ZeroPadToByte moves the reader to the next byte boundary, consuming fewer than 8 bits, never consuming anything when already aligned and never failing.", "quantifier": "all positions in all streams", "why_tests_cant": "All alignments after all read histories.", "anchors": ["jxlio/bitreader.go: ZeroPadToByte"]}
{"id": "C10", "title": "Prefix-code tables decode canonical codes", "statement": "For every list of code lengths whose Kraft sum is one, the lookup table decodes each symbol's canonical code word to that symbol and consumes exactly its length; over- and under-subscribed length lists are rejected.", "quantifier": "all alphabets, all length lists, all following bits", "why_tests_cant": "The space of length assignments is exponential.", "anchors": ["entropy/VLCTable.go: NewVLCTableWithSymbols, GetVLC", "entropy/PrefixSymbolDistribution.go"]}
{"id": "C11", "title": "A prefix code word can be the last thing in the input", "statement": "A complete prefix code word is decoded even if it is followed by fewer bits than the table's lookup width.", "quantifier": "all code tables, all code words, all positions relative to the end of input", "why_tests_cant": "Depends on how close every symbol of every stream is to the end of its section.", "anchors": ["entropy/VLCTable.go: GetVLC", "jxlio/bitreader.go: ShowBits"]}
{"id": "C12", "title": "The ANS alias table is an exact partition", "statement": "For every frequency table summing to 4096, the alias table maps the 4096 slots one-to-one onto pairs (symbol, offset) with offset below the symbol's frequency, so each symbol owns exactly as many slots as its frequency.", "quantifier": "all frequency tables with sum 4096 and every alphabet size", "why_tests_cant": "Astronomically many frequency tables.", "anchors": ["entropy/ANSSymbolDistribution.go: generateAliasMapping, ReadSymbol"]}
{"id": "C13", "title": "ANS decoding inverts ANS encoding", "statement": "For every distribution and every sequence of symbols with non-zero frequency, decoding the bits produced by the matching rANS encoder returns the sequence and ends in the state that is accepted as the valid final state.", "quantifier": "all distributions, all message lengths", "why_tests_cant": "Message length is unbounded; state evolves over the whole history.", "anchors": ["entropy/ANSSymbolDistribution.go: ReadSymbol", "entropy/ANSState.go", "entropy/EntropyStream.go: ValidateFinalState"]}
{"id": "C14", "title": "Hybrid integers round-trip", "statement": "For every valid hybrid-integer configuration and every 32-bit value, splitting the value into token and extra bits and decoding it returns the value.", "quantifier": "all configurations, all values", "why_tests_cant": "2^32 values for each of hundreds of configurations.", "anchors": ["entropy/HybridIntegerConfig.go", "entropy/EntropyStream.go: ReadHybridInteger"]}
{"id": "C15", "title": "LZ77 back-references copy the window", "statement": "With LZ77 enabled, the decoded sequence equals the expansion of the literal/copy commands over the whole history, including overlapping copies.", "quantifier": "all command sequences of any length", "why_tests_cant": "History-dependent with a 2^20 entry ring buffer.", "anchors": ["entropy/EntropyStream.go: ReadSymbolWithMultiplier"]}
{"id": "C16", "title": "Context clustering yields a usable map", "statement": "A successfully read cluster map has one entry per context, every entry is below the returned number of clusters; the move-to-front inverse is the textbook one.", "quantifier": "all inputs that parse", "why_tests_cant": "Adversarial inputs choose the entries.", "anchors": ["entropy/EntropyStream.go: ReadClusterMap"]}
{"id": "C17", "title": "Decoded permutations are permutations", "statement": "Whenever a permutation (of the table of contents or of a coefficient order) is read without error, the result is the permutation denoted by the Lehmer code: a rearrangement of 0..size-1 whose first skip entries are fixed.", "quantifier": "all sizes, all Lehmer codes", "why_tests_cant": "size! outcomes for every size.", "anchors": ["frame/Frame.go: readPermutation"]}
{"id": "C18", "title": "A permuted table of contents is honoured", "statement": "If the table of contents is permuted, logical section i is read from the byte range that the permutation assigns to it.", "quantifier": "all permutations, all section lengths", "why_tests_cant": "All permutations of all sizes.", "anchors": ["frame/Frame.go: ReadTOC, setupBitReaders, getBitreader, readBuffer"]}
{"id": "C19", "title": "A decoded meta-adaptive tree is a finite binary tree", "statement": "Whenever the tree is read without error, every inner node has two children that occur later, every node but the root has exactly one parent, evaluation always reaches a leaf, and the leaves carry the contexts 0..L-1, each once, where L=(n+1)/2 is the number of distributions read for them.", "quantifier": "all symbol sequences that parse", "why_tests_cant": "The tree shape is input controlled and unbounded.", "anchors": ["frame/MATree.go: NewMATreeWithReader, walk"]}
{"id": "C20", "title": "Specialising the tree does not change decoding", "statement": "Pre-evaluating the channel, stream and row tests of a tree never changes the leaf chosen for any pixel.", "quantifier": "all trees, channels, streams, rows and property values", "why_tests_cant": "All trees.", "anchors": ["frame/MATree.go: compactify, compactifyWithY, walk", "frame/ModularChannel.go: decode"]}
{"id": "C21", "title": "Weighted prediction stays inside its tables", "statement": "The self-correcting predictor never indexes outside its reciprocal table, its weights are positive, and its state is consulted only when it was allocated.", "quantifier": "all pixel values, parameters and positions", "why_tests_cant": "Ranges of intermediate values over all histories.", "anchors": ["frame/ModularChannel.go: prePredictWP, decode, prediction", "frame/MATree.go: useWeightedPredictor", "util/MathsHelper.go: FloorLog1pUint64"]}
{"id": "C22", "title": "Reversible colour transforms are lossless", "statement": "For every one of the 42 RCT types and every triple of samples, undoing the transform restores the original samples exactly, including on overflow; no RCT type that can be read crashes the decoder.", "quantifier": "all types, all 32-bit sample triples", "why_tests_cant": "2^96 triples per type.", "anchors": ["frame/ModularStream.go: applyTransforms (RCT), NewTransformInfo, permutationLUT"]}
{"id": "C23", "title": "Squeeze is lossless", "statement": "For every channel, applying the forward squeeze and then the decoder's inverse squeeze, horizontally or vertically, restores the channel for every width and height, odd or even.", "quantifier": "all matrices of samples that do not overflow", "why_tests_cant": "Unbounded sizes; each output depends on the previous one.", "anchors": ["frame/ModularStream.go: inverseHorizontalSqueeze, inverseVerticalSqueeze, tendancy"]}
{"id": "C24", "title": "Undoing a palette keeps the other channels", "statement": "Expanding a palette of numC colours replaces the index channel by numC channels, looks each index up in the palette, and leaves all other channels unchanged and in order.", "quantifier": "all channel lists, palettes and images", "why_tests_cant": "All positions of the palette in all channel lists.", "anchors": ["frame/ModularStream.go: applyTransforms (PALETTE)", "util/misc.go: Add"]}
{"id": "C25", "title": "Slice insertion helpers insert", "statement": "Add and AddToSlice return the list with the element inserted at the index, all other elements kept in order.", "quantifier": "all slices, capacities, indices and elements", "why_tests_cant": "Depends on spare capacity and aliasing.", "anchors": ["util/misc.go: Add", "util/sliceutil.go: AddToSlice"]}
{"id": "C26", "title": "Groups tile the frame", "statement": "The groups and LF groups of a frame partition its padded area: each pixel lies in exactly one group, every group is non-empty and at most the group size, and each group lies in the LF group it is assigned to.", "quantifier": "all frame sizes and group sizes", "why_tests_cant": "All dimensions up to 2^30.", "anchors": ["frame/Frame.go: ReadFrameHeader, getGroupSize, getLFGroupSize, getGroupLocation, getLFGroupForGroup, groupPosInLFGroup, GetPaddedFrameSize"]}
{"id": "C27", "title": "Filter results do not depend on the number of workers", "statement": "The rows handed to the workers are a partition of the image, so the Gaborish filter, the edge-preserving filter and upsampling produce the same picture for every MaxGoroutines value and every schedule.", "quantifier": "all heights, worker counts and interleavings", "why_tests_cant": "Schedules cannot be enumerated by tests.", "anchors": ["frame/Frame.go: performGabConvolution, performEdgePreservingFilter, performUpsampling"]}
{"id": "C28", "title": "Each pass group is processed exactly once", "statement": "Under every schedule of the worker pool each (pass, group) job is processed exactly once, the pool terminates, and an error in any job makes decoding fail with that error.", "quantifier": "all job counts, worker counts and schedules", "why_tests_cant": "Schedules and error points.", "anchors": ["frame/Frame.go: decodePassGroupsConcurrent, startWorker, doProcessing, decodeLFGroups"]}
{"id": "C29", "title": "Transform blocks never overlap", "statement": "The blocks placed in an LF group lie inside it and are pairwise disjoint, for every sequence of block types; a sequence that does not fit is reported as an error.", "quantifier": "all group sizes and block-type sequences", "why_tests_cant": "Unbounded placement histories.", "anchors": ["frame/hfmetadata.go: NewHFMetadataWithReader, placeBlock"]}
{"id": "C30", "title": "Coefficient contexts stay in their range", "statement": "Every context index computed while decoding AC coefficients is a valid index of the context table, for every stream that is not rejected; different roles never share an index.", "quantifier": "all block contexts, non-zero counts and positions", "why_tests_cant": "All reachable counter states.", "anchors": ["frame/HFCoefficients.go: getBlockContext, getNonZeroContext, getCoefficientContext", "frame/lfcoefficients.go: getLFIndex", "frame/HFBlockContext.go"]}
{"id": "C31", "title": "Coefficient orders visit every coefficient once", "statement": "For each of the 13 order classes the natural order is a rearrangement of the block's positions with the low-frequency corner first; after any permutation read from the stream the high-frequency positions written are exactly the non-LLF positions, each once and inside the block.", "quantifier": "all order classes, all transform types, all permutations", "why_tests_cant": "All permutations.", "anchors": ["frame/HFPass.go: getNaturalOrder, getNaturalOrderFunc, NewHFPassWithReader", "frame/transformtype.go", "frame/HFCoefficients.go"]}
{"id": "C32", "title": "Container boxes are located correctly", "statement": "For every well-formed box sequence the parser returns each codestream box with its exact payload offset and length; every malformed size is rejected without reading outside the file.", "quantifier": "all box sequences and sizes, including 64-bit sizes", "why_tests_cant": "Unbounded number of boxes and 64-bit sizes.", "anchors": ["core/read_jxl_boxes.go: ReadBoxHeader, readAllBoxes, SkipFully, makeTag"]}
{"id": "C33", "title": "Orientation is applied as a pixel permutation", "statement": "For each EXIF orientation 1..8 and every image the result has the right dimensions and each output pixel is the input pixel the orientation prescribes; other orientations are rejected.", "quantifier": "all images, all orientations", "why_tests_cant": "All sizes and contents.", "anchors": ["core/jxl_codestream_decoder.go: transposeBuffer, transposeBufferInt, transposeBufferFloat"]}
{"id": "C34", "title": "PNG output is well formed", "statement": "For every decoded image the PNG writer emits signature, IHDR, colour chunk, IDAT, IEND with correct lengths, and the number of bytes per row equals what the IHDR fields announce.", "quantifier": "all images, bit depths and channel layouts", "why_tests_cant": "All depth/layout combinations and sizes.", "anchors": ["core/png_writer.go: WritePNG, writeIHDR, writeIDAT, writeICCP, writeSRGB"]}
{"id": "C35", "title": "PFM output is well formed", "statement": "The PFM writer emits the header and then height*width*channels big-endian floats, bottom row first, each equal to the sample.", "quantifier": "all float images", "why_tests_cant": "All sizes.", "anchors": ["core/pfm_writer.go: WritePFM"]}
{"id": "C36", "title": "Sample conversions stay in range", "statement": "Clamping yields values in [0,max] and is the identity on that range and idempotent; conversion between integer and float buffers keeps dimensions and, for values in range, round-trips.", "quantifier": "all buffers, all maxima", "why_tests_cant": "All sample values.", "anchors": ["image/imagebuffer.go: Clamp, CastToIntIfMax, CastToFloatIfMax, NewImageBuffer"]}
{"id": "C37", "title": "Blending touches only the overlap", "statement": "Blending a frame at any signed origin reads and writes only pixels inside both the canvas and the frame and never fails.", "quantifier": "all canvas sizes, frame sizes and signed origins", "why_tests_cant": "All geometric configurations.", "anchors": ["core/jxl_codestream_decoder.go: blendFrame, copyToCanvas, performBlending"]}
{"id": "C38", "title": "Image size limits are enforced", "statement": "Every accepted size header describes an image within the limits of its level: each side and the product of the sides are bounded.", "quantifier": "all size headers", "why_tests_cant": "All 2^60 size pairs.", "anchors": ["bundle/image_header.go: readSizeHeader, readPreviewHeader"]}
{"id": "C39", "title": "Aspect-ratio widths are exact", "statement": "When the width is given by a ratio, the decoded width is floor(height*num/den) for every height.", "quantifier": "all heights, ratios 1..7", "why_tests_cant": "2^30 heights.", "anchors": ["bundle/image_header.go: getWidthFromRatio"]}
{"id": "C40", "title": "ICC decoding helpers stay in range", "statement": "ICC contexts lie in 0..40; the ICC byte shuffle is a permutation of its input; varints and predictions never fault.", "quantifier": "all byte histories and lengths", "why_tests_cant": "All histories.", "anchors": ["bundle/image_header.go: GetICCContext, GetICCPrediction, shuffle"]}
{"id": "C41", "title": "Integer helpers compute their mathematical definition", "statement": "CeilLog1p, FloorLog1p, CeilLog2, CeilDiv, Clamp, Clamp3, MirrorCoordinate and Abs compute the mathematical function their name says for every input.", "quantifier": "all inputs of the argument type", "why_tests_cant": "2^64 inputs.", "anchors": ["util/MathsHelper.go: CeilLog1p, FloorLog1p, FloorLog1pUint64, CeilLog2, CeilDiv, Clamp, Clamp3, MirrorCoordinate, Abs"]}
{"id": "C42", "title": "Pooled matrices are indistinguishable from fresh ones", "statement": "After any history of Get and Put calls, Get returns a matrix of the requested dimensions with all entries zero.", "quantifier": "all histories of Get and Put", "why_tests_cant": "History dependent.", "anchors": ["util/buffer_pool.go: Matrix3DPool, Matrix2DPool"]}
{"id": "C43", "title": "The deque is a double-ended queue", "statement": "Any sequence of deque operations behaves like the same operations on a mathematical sequence.", "quantifier": "all operation sequences", "why_tests_cant": "All histories.", "anchors": ["util/deque.go"]}
{"id": "C44", "title": "The range iterator enumerates the rectangle", "statement": "Iterating from (startX,startY) to (endX,endY) yields each point of the rectangle once.", "quantifier": "all rectangles", "why_tests_cant": "All sizes.", "anchors": ["util/RangeInterator.go"]}
{"id": "C45", "title": "Copied images are equal images", "statement": "Copying an image yields an image with the same channels and samples, independent of the original.", "quantifier": "all images", "why_tests_cant": "All images.", "anchors": ["core/jxl_image.go: NewJXLImageFromJXLImage", "image/imagebuffer.go: NewImageBufferFromImageBuffer, Equals"]}
{"id": "C46", "title": "All-default frame headers decode", "statement": "A frame whose header is all-default describes one pass whose parameters are defined, so decoding it does not fault.", "quantifier": "all images with all-default frame headers", "why_tests_cant": "Every such image.", "anchors": ["frame/PassesInfo.go", "frame/FrameHeader.go", "frame/HFCoefficients.go: NewHFCoefficientsWithReader"]}
{"id": "C47", "title": "Restoration-filter headers are parsed completely", "statement": "Every combination of restoration-filter fields allowed by the format is read field by field, so the bits after the header are interpreted at the right position.", "quantifier": "all restoration filter headers", "why_tests_cant": "All field combinations.", "anchors": ["frame/RestorationFilter.go: NewRestorationFilterWithReader"]}
{"id": "C48", "title": "Explicit squeeze parameters are parsed per the format", "statement": "Explicit squeeze parameters are decoded with the documented distributions for begin channel and channel count.", "quantifier": "all parameter values", "why_tests_cant": "All values and selectors.", "anchors": ["frame/ModularStream.go: NewSqueezeParam"]}
{"id": "C49", "title": "AFV blocks are oriented by their type", "statement": "The four AFV transforms place the corner basis in the corner given by their type.", "quantifier": "all blocks of the four AFV types", "why_tests_cant": "All coefficient values and positions.", "anchors": ["frame/PassGroup.go: invertAFV", "frame/hfmetadata.go: placeBlock"]}
{"id": "C50", "title": "Lossless modular channels decode to the encoded pixels", "statement": "For every image, every tree and every predictor, decoding the residuals that the matching encoder produces returns the image exactly.", "quantifier": "all images, trees, predictors, sizes", "why_tests_cant": "Unbounded images; prediction depends on all earlier pixels.", "anchors": ["frame/ModularChannel.go: decode, prediction, prePredictWP, west..northEastEast, getWalkerFunc"]}
{"id": "C51", "title": "Decoding does not depend on earlier decodes in the process", "statement": "The picture decoded from a file depends only on the file: decoding it a second time in the same process, or decoding another frame of the same size before it, gives the same pixels.", "quantifier": "all files and all histories of earlier decodes in the process", "why_tests_cant": "The histories are unbounded; a test decodes one file per process.", "anchors": ["frame/Frame.go:decodePassGroupsConcurrent", "frame/Frame.go:copyFloatBuffers", "util/buffer_pool.go:Matrix3DPool.Put"]}
{"id": "C52", "title": "A malformed prefix-code description is an error, not a crash", "statement": "Reading the description of a prefix code never panics, whatever the bytes: it returns a code or an error.", "quantifier": "all byte streams, positions and alphabet sizes", "why_tests_cant": "The space of malformed descriptions is unbounded; crashes depend on a combination of alphabet size, code-length code and run lengths.", "anchors": ["entropy/PrefixSymbolDistribution.go:populateComplexPrefix", "entropy/PrefixSymbolDistribution.go:populateSimplePrefix"]}
{"id": "C53", "title": "Malformed entropy-coded data is an error, not a crash", "statement": "Whatever bytes follow, reading an entropy-coded stream (its cluster map, its distributions, its symbols, its LZ77 copies) returns a value or an error; it never panics.", "quantifier": "all streams, all reader positions, all decoder states", "why_tests_cant": "The input is arbitrary; a fuzzer only samples it.", "anchors": ["entropy/ANSSymbolDistribution.go: NewANSSymbolDistribution, ReadSymbol", "entropy/EntropyStream.go: ReadClusterMap, ReadSymbolWithMultiplier, ReadHybridInteger"]}
{"id": "C54", "title": "A modular stream with transforms decodes to the encoder's image", "statement": "If an encoder applies a list of colour, palette and squeeze transforms to an image and codes the resulting channels, then the decoder works out, from the transforms alone, exactly the encoder's list of coded channels (number, order, sizes, shifts, meta channels), and decoding those channels and undoing the transforms gives back the image exactly.", "quantifier": "all images, all chains of transforms, all adaptive trees and all pixel values in range", "why_tests_cant": "The combinations of transforms, channel counts and sizes are unbounded; the decoder plans the channel list without seeing the image.", "anchors": ["frame/ModularStream.go: NewModularStreamWithReader, applyTransforms, decodeChannels, NewSqueezeParam"]}
{"id": "C55", "title": "The default squeeze is the one the format defines", "statement": "When a squeeze transform carries no parameters, the decoder derives the format's default list of steps for the current channel list: chroma first where there are three equal channels, then alternately horizontal and vertical until no side exceeds eight. After it the squeezed channels are at most 8 by 8.", "quantifier": "all channel lists, including those with palette (meta) channels in front", "why_tests_cant": "Sizes and channel lists are unbounded; the derivation loops until the sizes shrink.", "anchors": ["frame/ModularStream.go: NewModularStreamWithReader"]}
{"id": "C56", "title": "The image header is read as the format defines", "statement": "Every image header the format defines is decoded to exactly its fields (size, orientation, intrinsic size, preview, bit depth, extra channels, colour encoding, tone mapping, extensions, opsin matrix, upsampling weights), and the reader stands at the bit behind it. No byte stream crashes the header reader.", "quantifier": "all streams, positions and headers, at both levels", "why_tests_cant": "Every combination of optional fields, extra channels and coded numbers; any single misread field shifts everything behind it.", "anchors": ["bundle/image_header.go: ParseImageHeader", "bundle/extra_channel_info.go", "bundle/Extensions.go", "bundle/BitDepthHeader.go", "colour/colour_encoding_bundle.go", "colour/ToneMapping.go", "colour/OpsinInverseMatrix.go"]}
{"id": "C57", "title": "A colour profile is decoded to exactly the bytes its stream describes", "statement": "Decoding an embedded colour profile returns, byte for byte, the profile that its stream of commands and data describes (header residuals, tag table, inserted, interleaved and predicted runs), and it always has the announced size. Every profile can be stored so that it decodes to itself. An invalid stream gives an error, never a crash.", "quantifier": "all profiles, all lists of tags and commands, all data", "why_tests_cant": "The commands form a small programming language over the bytes already produced; any combination and length can occur.", "anchors": ["bundle/image_header.go: GetDecodedICC, GetICCPrediction, shuffle"]}
{"id": "C58", "title": "Progressive passes decode every modular channel exactly once", "statement": "However a frame distributes its passes over downsampling factors, every channel that belongs to the passes is decoded in exactly one pass, namely the one that completes the first factor fine enough for it.", "quantifier": "all numbers of passes, all lists of factors and last passes the format allows, all channel shifts", "why_tests_cant": "All distributions of passes, most of which no encoder emits.", "anchors": ["frame/Pass.go: NewPassWithReader", "frame/PassesInfo.go", "frame/Frame.go: decodePasses"]}
{"id": "C59", "title": "Frame headers are read as the format defines", "statement": "For every image header, a frame header is read field by field as the format defines: type, flags, chroma modes, upsampling, passes, crop, blending, references, name, filters, extensions and the size of the coded frame; the reader ends at the first bit after it. No header crashes the parser.", "quantifier": "all streams, all image sizes and numbers of extra channels", "why_tests_cant": "The fields are conditional on each other; all combinations and values occur.", "anchors": ["frame/FrameHeader.go: NewFrameHeaderWithReader", "frame/BlendingInfo.go", "frame/PassesInfo.go", "frame/RestorationFilter.go"]}
{"id": "C60", "title": "The image header is found in every kind of file", "statement": "GetImageHeader returns the header at the beginning of the codestream, whether the file is a bare codestream or a container in which other boxes precede or follow the codestream; a file without codestream is reported as an error.", "quantifier": "all files, all sequences of boxes", "why_tests_cant": "Unbounded number of boxes of any type and size.", "anchors": ["core/jxl_codestream_decoder.go: GetImageHeader, decode, ReadSignatureAndBoxes", "core/read_jxl_boxes.go"]}
{"id": "C61", "title": "Go images show the samples", "statement": "ToImage returns a Go image of the size of the decoded image whose pixels are the samples of the image (rescaled to 8 bits), with its alpha channel if it has one.", "quantifier": "all images, sizes, depths and channel layouts", "why_tests_cant": "All sizes, all sample values, all combinations of depths and channels.", "anchors": ["core/jxl_image.go: ToImage, createGrayScaleImage, create24BitImage"]}
{"id": "C62", "title": "Rendering an image does not change it", "statement": "Converting an image to a Go image or writing it to a file leaves it showing the same: a later conversion or file is the same as if the image had not been rendered before.", "quantifier": "all images and all sequences of renderings", "why_tests_cant": "Depends on the history of calls on the same image, for every image.", "anchors": ["core/jxl_image.go: ToImage, transform, transferInPlace", "core/png_writer.go: WritePNG"]}
{"id": "C63", "title": "Blending modes compute what the format defines", "statement": "When a frame is painted on the canvas, every covered sample is replaced by the value that the frame's blending mode (replace, add, blend with alpha, alpha-weighted add, multiply) defines from the sample and alpha of the reference frame and of the new frame, with or without clamping and premultiplied alpha, whatever mixture of integer and float channels takes part.", "quantifier": "all headers, channel layouts, depths, sample values, origins, sizes and blending modes", "why_tests_cant": "All combinations of modes, channel types, aliasing between reference and canvas, and sample values.", "anchors": ["core/jxl_codestream_decoder.go: blendFrame, performBlending, blendAlpha, convertReferenceWithDifferentBufferType, convertCanvasWithDifferentBufferType"]}
{"id": "C64", "title": "Saved reference frames are not changed by later frames", "statement": "A frame saved as a reference keeps the samples it had when it was saved (those of the frame itself if it is saved before the colour transform, those of the canvas otherwise) until another frame is saved in its slot, however many frames are painted in between.", "quantifier": "all sequences of frames, all slots, all headers and samples", "why_tests_cant": "Canvas, frame and references share memory; whether a later frame writes through an alias depends on the whole history of frames.", "anchors": ["core/jxl_codestream_decoder.go: decode (loop over frames), blendFrame", "image/imagebuffer.go: ImageBufferSliceEquals, Equals"]}
{"id": "C65", "title": "Filters keep samples in range and leave flat areas alone", "statement": "Gaborish with non-negative weights, the edge-preserving filter with any parameters and upsampling give no sample outside of the range of the samples they read (computed exactly), the edge-preserving filter never divides by zero, and flat areas stay as they are.", "quantifier": "all planes, sizes, weights, strengths, places and passes", "why_tests_cant": "Weights and samples are arbitrary numbers; overshoot shows only for particular combinations.", "anchors": ["frame/Frame.go: performGabConvolution, performEdgePreservingFilter, performUpsampling"]}
{"id": "C66", "title": "The inverse cosine transform is exact and undoes the forward transform", "statement": "The inverse transform of a block writes the cosine series of its coefficients into the target rectangle and nothing else, transposed if asked; the forward transform computes the coefficients; one undoes the other. What scratch spaces or the target held before, and where the block lies, does not matter.", "quantifier": "all block sizes with sides 1, 2, ... 256, all positions, all coefficients and samples, all contents of scratch spaces", "why_tests_cant": "Coefficients are arbitrary real numbers and scratch spaces are reused between blocks of different sizes.", "anchors": ["util/MathsHelper.go: InverseDCT2D, ForwardDCT2D, TransposeMatrixInto, generateCosineLUT"]}
{"id": "C68", "title": "Every block is decoded on its own", "statement": "After a group of blocks is decoded, the samples of each block are the ones that its type and its own coefficients give (DCT of all sizes, 2x2, Hornuss, 8x4, 4x8, AFV), whatever the order of the blocks, whatever pooled scratch spaces and the frame buffer held before; samples outside of the blocks stay as they were. No type that the format allows makes the decoder panic.", "quantifier": "all groups of blocks that do not overlap, all types, places, subsamplings, coefficients and contents of scratch spaces", "why_tests_cant": "Scratch spaces come from a pool with the contents of earlier uses; leftovers show only for particular sequences of blocks.", "anchors": ["frame/PassGroup.go: invertVarDCT, layBlock, auxDCT2, invertAFV"]}
{"id": "C69", "title": "Coefficients are dequantized as the format says", "statement": "The coefficients of every block are the ones of the format: those of low frequency are the scaled transform of the block's LF samples, the others its own quantized numbers with the bias rule, times the factor of the channel (0.8^(scale-2) for X and B), divided by the multiplier of the block, times the weight of the type at that place (rows and columns exchanged for tall and square DCT types). What pooled planes and scratch spaces held before does not matter.", "quantifier": "all groups of blocks that do not overlap, all types, weights, multipliers, quantized numbers, LF samples and scales 0 to 7", "why_tests_cant": "A transposed weight, a stale pooled coefficient or a wrapped exponent shows only for particular types, sequences of groups or header values.", "anchors": ["frame/HFCoefficients.go: bakeDequantizedCoeffs, dequantizeHFCoefficients, finalizeLLF", "frame/transformtype.go: NewTransformType, flip, scaleF"]}
{"id": "C70", "title": "Chroma from luma uses the factors of the tile", "statement": "In a frame without chroma subsampling, luma times the factor of the 64x64 tile in which a coefficient lies is added to each chroma coefficient that is not of low frequency.", "quantifier": "all LF groups and all ways in which blocks may be laid in them, all factors and coefficients", "why_tests_cant": "Whether the factor of a tile is known when it is needed depends on the order and the shapes of all blocks; there are too many ways to lay blocks.", "anchors": ["frame/HFCoefficients.go: chromaFromLuma", "frame/hfmetadata.go: placeBlock"]}
{"id": "C67", "title": "The LF image is the picture in small", "statement": "Before filtering, the mean of the samples of every block is the mean of its LF samples, whatever its high frequencies are; in a DCT block without high frequencies the mean of every 8x8 part is its LF sample. A preview made from the LF image therefore shows the picture.", "quantifier": "all block types, all LF samples, all high frequencies, all layouts of blocks", "why_tests_cant": "It ties the tables of cosines and of scale factors together for all 27 types and all sample values; a wrong index into a table is a small error of brightness in some blocks only.", "anchors": ["frame/HFCoefficients.go: finalizeLLF", "frame/transformtype.go: NewTransformType, scaleF", "frame/PassGroup.go: invertVarDCT", "util/MathsHelper.go: InverseDCT2D, ForwardDCT2D"]}
{"id": "C71", "title": "Low-frequency samples are the coded numbers times the quantization step", "statement": "The LF samples of a VarDCT frame without smoothing are the quantized numbers of the stream times the quantization step of their channel, plus luma times the coded factor in the chroma channels of frames without subsampling; the steps and factors are those the stream codes.", "quantifier": "all streams, all quantized numbers, all sizes and subsamplings, all arithmetics (float32 included)", "why_tests_cant": "Every LF sample of every frame goes through the formula, and the numbers that go into it (scale, quantizer, factors) have large ranges in which fixed-width products may overflow.", "anchors": ["frame/lfcoefficients.go: NewLFCoefficientsWithReader", "frame/LFGlobal.go: NewLFGlobalWithReader", "frame/LFChannelCorrelation.go: NewLFChannelCorrelationWithReader"]}
{"id": "C72", "title": "Smoothing of the low frequencies is gentle", "statement": "Adaptive smoothing of the LF samples leaves the borders of a group alone, adds no values outside of the range of a sample and its neighbours and moves no sample by more than half a quantization step.", "quantifier": "all LF groups of all sizes, all samples, all quantization steps", "why_tests_cant": "The bound relates a non-linear filter over three channels to the quantization step for all sample values.", "anchors": ["frame/lfcoefficients.go: adaptiveSmooth"]}
{"id": "C73", "title": "LF frames are used", "statement": "If a frame says that its low frequencies are those of an LF frame, its LF samples are the samples of that frame at the place of the LF group, and the stream of the frame holds no LF numbers.", "quantifier": "all LF frames, all LF groups, all streams", "why_tests_cant": "It is a claim about what influences the result: for every LF frame and every stream.", "anchors": ["frame/lfcoefficients.go: NewLFCoefficientsWithReader"]}
{"id": "C74", "title": "Quantization matrices fit their transforms and are positive", "statement": "Reading the quantization matrices never crashes, and whatever stream is accepted, there is a matrix for every transform and channel with one weight for every coefficient. The weights are positive finite numbers, whether they are the defaults or come from the stream.", "quantifier": "all streams, all 17 matrices, all modes and parameters, all arithmetics for the sizes", "why_tests_cant": "The parameters come from the stream and are arbitrary half-precision numbers; a matrix that is too small is an index out of range in a later block, a weight that is zero or infinite destroys the picture.", "anchors": ["frame/HFGlobal.go: NewHFGlobalWithReader, setupDCTParam, generateWeights, getDCTQuantWeights, getAFVTransformWeights", "frame/transformtype.go: validateIndex, getHorizontalTransformType"]}
{"id": "C75", "title": "Custom quantization matrices are honoured", "statement": "A stream may code each quantization matrix in one of eight modes. The parameters are read as the format lays them out, and the matrix is the one the format defines by them: bands with geometric interpolation by distance, Hornuss, DCT2, DCT4, DCT4x8 and AFV matrices, or written out numbers.", "quantifier": "all streams, all matrices, all modes and parameters", "why_tests_cant": "Encoders rarely use custom matrices, and the parameters range over all half-precision numbers.", "anchors": ["frame/HFGlobal.go: setupDCTParam, readDCTParams, getDCTQuantWeights, interpolate, getAFVTransformWeights, generateWeights"]}
{"id": "C76", "title": "The coefficients of a group decode to what was coded", "statement": "If an encoder writes the high-frequency coefficients of the blocks of a group as the format prescribes (for every block and channel the number of coefficients that are not zero and the coefficients up to the last of them, in the order of the pass, each in its context, through any entropy code), the decoder returns exactly these coefficients at their places, shifted by the shift of the pass, and zero elsewhere, and it stops after the last bit written.", "quantifier": "all coefficients below 2^30, all lists of blocks inside of the group, all transform types, orders, context tables, presets, subsamplings and entropy codes, at any position in any stream", "why_tests_cant": "A wrong context or place for one rare type, count or position desynchronises the entropy decoder and turns the rest of the group into noise; the combinations cannot be enumerated.", "anchors": ["frame/HFCoefficients.go: NewHFCoefficientsWithReader, getBlockContext, getNonZeroContext, getCoefficientContext, getPredictedNonZeros", "frame/HFPass.go: NewHFPassWithReader", "entropy/EntropyStream.go: ReadSymbol"]}
{"id": "C77", "title": "Colour transforms of a frame undo the encoder's", "statement": "For a frame with three colour channels, inverting XYB returns at every pixel the linear colour the encoder started from, for the matrix, biases and intensity target of the header; the YCbCr transform returns the colour that JPEG's transform started from, up to the rounding of its constants; both use the pixel alone, leave all other channels untouched, keep sizes and never fail. A frame without a transform is not changed.", "quantifier": "all images of any size, all invertible matrices, biases and intensity targets; for the last part all float32 numbers, integer and float buffers, all bit depths from 1 to 31", "why_tests_cant": "A swapped sign, bias or matrix entry shows only for particular colours, and custom matrices are rare; the numbers are a continuum.", "anchors": ["colour/OpsinInverseMatrix.go: InvertXYB, bakeCbrtBias", "core/jxl_codestream_decoder.go: performColourTransforms", "util/MathsHelper.go: SignedPow"]}
{"id": "C78", "title": "Colours are converted between colour spaces exactly", "statement": "The matrix that converts the decoded colours to the colour space of the image keeps the CIE XYZ colour of every colour if the white points are the same, and adapts it by Bradford's method if they are not, so that white stays white; it is the identity if the colour spaces are the same up to 10^-4. Chromaticities that are not allowed are an error, and no chromaticities crash the program.", "quantifier": "all pairs of colour spaces with allowed chromaticities whose primaries do not lie on a line (and whose white point is not on a line through two of them); for the absence of crashes all chromaticities in any arithmetic", "why_tests_cant": "Headers may carry any primaries and white point; a transposed matrix or exchanged arguments can agree for the common spaces or look plausible.", "anchors": ["colour/colour_management.go: GetConversionMatrix, primariesToXYZ, GetXYZ, validateXY", "colour/CIEXY.go: AdaptWhitePoint, isLMSValid, Matches", "colour/OpsinInverseMatrix.go: GetMatrix", "util/MathsHelper.go: InvertMatrix3x3, MatrixMultiply, MatrixMatrixMultiply, MatrixVectorMultiply, MatrixIdentity, TransposeMatrix"]}
{"id": "C79", "title": "Subsampled colour planes are brought to full size", "statement": "After decoding, every plane of a frame has the size of the frame, padded to whole blocks, whatever its chroma subsampling: a subsampled plane is doubled in the directions in which it is subsampled, each new sample being 3/4 of the sample that covers it and 1/4 of the next nearest; planes that are not subsampled are not touched. The range of the plane is kept, flat planes stay flat and even ramps stay even ramps.", "quantifier": "all frame sizes up to 2^30 minus 15, all subsamplings of three-colour frames, all contents of integer and float planes, any number of extra channels", "why_tests_cant": "Off-by-one errors at the border of rows and in the padding depend on the size and on the combination of subsamplings.", "anchors": ["frame/Frame.go: invertSubsampling, DecodeFrame (allocation of the buffers), GetPaddedFrameSize"]}
{"id": "C80", "title": "Modular samples become the samples of the frame", "statement": "Every sample that the global modular stream decodes ends up at its place in the plane of its channel, with its value: integers as they are, as floats where the plane has floats, as numbers in their binary representation for float images, and multiplied with the factors of the channels in XYB frames, where the channels are stored in the order Y, X, B and B is coded as a difference. Nothing else in the planes changes and no frame crashes the program.", "quantifier": "all frames and images, all decoded samples", "why_tests_cant": "Rounding shows only for large integers; order and offset of the planes depend on the combination of colour space, encoding and number of extra channels.", "anchors": ["frame/Frame.go: DecodeFrame (modular channels)", "frame/LFGlobal.go: NewLFGlobalWithReader", "frame/ModularStream.go: NewModularStreamWithStreamIndex"]}
{"id": "C81", "title": "A frame is upsampled with the weights of the image", "statement": "Upsampling makes every plane of a frame larger by the factor that the frame header gives for it (2, 4 or 8; planes with factor 1 stay as they are). The k by k samples that replace a sample are weighted sums of its 5 by 5 surroundings; the weights are those of the image header (or the default ones), unfolded from the coded half of a symmetric matrix, and mirror images of each other for mirrored places. With the default weights a flat plane stays flat up to 4e-8. The result does not depend on the number of goroutines and their schedule.", "quantifier": "all planes, sizes, factors, lists of weights, numbers of goroutines, interleavings of their steps", "why_tests_cant": "The unfolding of the weights has 2100 places; a wrong one changes the picture by a few percent at most. Schedules cannot be enumerated.", "anchors": ["frame/Frame.go: Upsample, performUpsampling", "bundle/image_header.go: GetUpWeights, DEFAULT_UP2, DEFAULT_UP4, DEFAULT_UP8"]}
{"id": "C82", "title": "The codes of an entropy-coded stream are read as they are described", "statement": "The description of the codes in front of an entropy-coded stream (LZ77 parameters, map from contexts to codes, hybrid integer configurations, prefix code lengths or ANS histograms in each of their forms: one symbol, two symbols, flat, counts with run lengths and reduced precision) is read to its last bit and gives exactly the codes that it describes. Every histogram with sum 4096 has a description.", "quantifier": "all valid descriptions of codes for any number of contexts, at any position of any data", "why_tests_cant": "The coding of histograms has many interacting cases (precision, omitted count, run lengths, variable-length logarithms), and a wrong bit count shows only in rare histograms.", "anchors": ["entropy/EntropyStream.go: LoadWithReader, ReadClusterMap", "entropy/ANSSymbolDistribution.go: NewANSSymbolDistribution", "entropy/PrefixSymbolDistribution.go: NewPrefixSymbolDistributionWithReader", "entropy/HybridIntegerConfig.go: NewHybridIntegerConfigWithReader"]}
{"id": "C83", "title": "Decision trees are read as they are written", "statement": "The decision tree of a modular stream, written breadth first with any codes, is read as the same tree: same properties, values, predictors, offsets and multipliers, leaves numbered in the order in which they are written, together with the codes for its leaves, up to the last bit. Every tree with at most 2^20 + 1 nodes whose numbers are in range can be written.", "quantifier": "all trees, all codes, all positions in all data", "why_tests_cant": "Trees have unbounded shape; linking a breadth-first list to the wrong children shows only for some shapes.", "anchors": ["frame/MATree.go: NewMATreeWithReader", "entropy/EntropyStream.go: ReadSymbol"]}
{"id": "C84", "title": "A losslessly coded frame decodes to the picture that was coded", "statement": "If the sections of a modular frame code a picture of integers (any transforms, decision tree, predictors, entropy codes, palettes, one or many groups and passes), then decoding the frame gives exactly the samples of that picture in every channel, and the reader stands at the end of the frame. Sections that cannot be read give an error.", "quantifier": "all pictures of any size and number of channels, all ways of coding them, all positions in the data", "why_tests_cant": "The result depends on the interplay of section table, groups, passes, transforms, trees and codes; each has unboundedly many configurations.", "anchors": ["frame/Frame.go: DecodeFrame, decodeLFGroups, decodePassGroupsConcurrent, doProcessing", "frame/LFGlobal.go: NewLFGlobalWithReader", "frame/ModularStream.go: NewModularStreamWithReader, decodeChannels, applyTransforms", "frame/PassGroup.go: NewPassGroupWithReader"]}
{"id": "C85", "title": "A file with losslessly coded layers decodes to the picture that it codes", "statement": "Decode of a file (bare codestream or container, with other boxes around) whose frames code pictures of integers losslessly returns an image of the displayed size with the colours, profile and channels that the header states; every sample is that of the topmost layer that covers its place, turned as the orientation says; for 8-bit images the bytes of the Go image are those samples. Neither the number of processors nor the rest of the decoder matters.", "quantifier": "all files: all headers, all profiles, any number of frames at any place, all pictures and all ways of coding them, all orientations", "why_tests_cant": "The whole pipeline from bytes to pixels takes part, with unboundedly many files; a test compares a handful of files with a reference decoder.", "anchors": ["reader.go: Decode", "core/jxl_decoder.go: NewJXLDecoder, Decode", "core/jxl_codestream_decoder.go: decode", "bundle/image_header.go: ParseImageHeader", "core/jxl_image.go: NewJXLImageWithBuffer, ToImage"]}
{"id": "C86", "title": "DecodeConfig agrees with Decode", "statement": "DecodeConfig returns the width, the height and the colour model of the image that Decode returns for the same bytes.", "quantifier": "all files with an image header", "why_tests_cant": "Must hold for every combination of orientation, colour space, box structure and profile in the header.", "anchors": ["reader.go: DecodeConfig, Decode", "core/jxl_codestream_decoder.go: GetImageHeader", "core/jxl_decoder.go: GetImageHeader"]}
{"id": "C87", "title": "Importing the package makes image.Decode read JPEG XL", "statement": "After importing the package, image.Decode and image.DecodeConfig of a reader positioned at a JPEG XL file (container or bare codestream) return what the functions of the package return for it.", "quantifier": "all files, all kinds of readers, all other registered formats that do not match", "why_tests_cant": "Depends on which interfaces the reader implements and on the wrapping by the standard library, for all readers and contents.", "anchors": ["reader.go: init, Decode, DecodeConfig"]}
{"id": "C88", "title": "Parsing only, and files without frames", "statement": "With the option ParseOnly every well-formed file is parsed to its end without an error. A file that ends after the image header gives an error, not a crash.", "quantifier": "all files and options", "why_tests_cant": "Must hold for every file; the loop that skips frames runs as often as there are frames.", "anchors": ["core/jxl_codestream_decoder.go: decode", "reader.go: Decode", "options/jxl_options.go: NewJXLOptions"]}
{"id": "C89", "title": "The decoder works with the options of the caller", "statement": "Each option that the caller sets is the one that the decoder works with, however often the options are copied; without options there is one goroutine for each processor.", "quantifier": "all options and numbers of processors", "why_tests_cant": "Ranges over all values of the options.", "anchors": ["options/jxl_options.go: NewJXLOptions", "core/jxl_decoder.go: NewJXLDecoder"]}
{"id": "C90", "title": "VarDCT frames decode to the samples of their blocks", "statement": "If the sections of a VarDCT frame code, by the rules of the format, quantized LF samples, a tiling by blocks of any kinds and sizes, chroma factors, quantization matrices, coefficient orders and quantized coefficients, with any trees, predictors and entropy codes, and modular streams with the samples of extra channels, then decoding the frame gives three planes in which each block holds the inverse transform of its dequantized coefficients (with LF samples smoothed where the frame asks for it), sharpened and smoothed by the filters that the frame asks for, a plane with its samples for each extra channel, and the reader stands after the frame.", "quantifier": "all sizes of frames, numbers of groups, tilings, coefficients, matrices, orders, trees, transforms of the LF streams and entropy codes; any arithmetic of float32", "why_tests_cant": "The space of coded frames is unbounded: tilings, contexts, orders and codes combine; tests decode a handful of files.", "anchors": ["frame/Frame.go: DecodeFrame, decodePasses, decodeLFGroups, decodePassGroupsConcurrent", "frame/LFGlobal.go: NewLFGlobalWithReader", "frame/LFGroup.go: NewLFGroupWithReader", "frame/HFGlobal.go: NewHFGlobalWithReader", "frame/HFPass.go: NewHFPassWithReader", "frame/PassGroup.go: NewPassGroupWithReader, invertVarDCT", "frame/HFCoefficients.go: NewHFCoefficientsWithReader, bakeDequantizedCoeffs"]}
{"id": "C91", "title": "A frame is never shown in part", "statement": "If decoding a frame succeeds, then the frame was complete: its global section, every LF group and every group of every pass that carries samples has been read without an error. A section that is missing, cut short or invalid never leads to a picture with holes.", "quantifier": "all bit streams, headers, tables of contents, numbers of groups and passes, for modular and VarDCT frames", "why_tests_cant": "Errors of single groups are collected from goroutines or only logged; that none of them can be lost has to hold for every group of every damaged file.", "anchors": ["frame/Frame.go: DecodeFrame, decodeLFGroups, decodePassGroupsConcurrent, doProcessing", "frame/LFGroup.go: NewLFGroupWithReader", "frame/PassGroup.go: NewPassGroupWithReader"]}
{"id": "C92", "title": "Transfer functions undo each other and are those of the standards", "statement": "For every transfer function that a colour encoding can name, converting an encoded value to linear light and back, or linear light to an encoded value and back, gives the value again; and the curves for sRGB, BT.709, PQ, DCI and HLG are those of the standards that define them.", "quantifier": "all transfer functions, all real values in [0, 1]", "why_tests_cant": "Each curve is made of two pieces with rounded constants; that the pieces meet and invert each other has to hold at every value, in particular around the thresholds.", "anchors": ["colour/transfer_function.go: SRGBTransferFunction, BT709TransferFunction, PQTransferFunction, GammaTransferFunction", "colour/colour_management.go: GetTransferFunction"]}
{"id": "C93", "title": "Single channels are shown and handed out as they are", "statement": "For every channel of a decoded image, the gray picture made of it has the size of the image and shows the samples of that channel in 8 bits; samples set through the API are the ones got afterwards and no other channel changes; an index that is not that of a channel gives an error and never a panic.", "quantifier": "all decoded images, channels of integers or of numbers, channel indices, samples", "why_tests_cant": "The conversion chooses the kind of samples by the first channel and copies all of them; that the picture belongs to the right channel has to hold for every number, kind and size of channels.", "anchors": ["core/jxl_image.go: ChannelToImage, getBuffer, GetFloatChannelData, SetFloatChannelData, GetIntChannelData, SetIntChannelData"]}
{"id": "C94", "title": "A lossy file decodes to the pictures it codes", "statement": "For every file with an image header and lossy (VarDCT) frames that is written as the format says, decoding succeeds, reads the frames one after the other and gives an image of the size and orientation of the header: each pixel has the colour of the last frame that covers it, computed from the coefficients and low frequencies that this frame codes and converted from XYB or YCbCr as the header asks, and its samples of the extra channels as fractions of their greatest value; pixels that no frame covers are zero.", "quantifier": "all files with such frames, of all sizes, numbers of frames, places and orientations; all coefficients, block layouts, trees and codes; all tables and functions in which numbers are computed", "why_tests_cant": "Goes from bytes to pixels through all stages of the decoder; a sample of files fixes the layouts, codes and places that a user may meet.", "anchors": ["core/jxl_codestream_decoder.go: decode, performColourTransforms", "core/jxl_codestream_decoder.go: blendFrame", "frame/Frame.go: DecodeFrame, ReadFrameHeader, ReadTOC", "core/jxl_image.go: NewJXLImageWithBuffer"]}
{"id": "C95", "title": "An image is returned only if every frame was decoded with all that it uses", "statement": "For every file, if decoding returns an image, then the image header was read, the file has no preview, and the frames were read one after the other from the first up to the one marked as the last; each of them was decoded without an error, and none of them asks for noise, patches or splines, which the decoder cannot draw. A file whose first frame asks for one of these never gives an image.", "quantifier": "all byte strings given as files, all numbers of frames, all contents", "why_tests_cant": "The claim is about all files that are accepted, including damaged or unusual ones; a sample of files cannot show that no frame is skipped and that no unsupported feature passes silently.", "anchors": ["core/jxl_codestream_decoder.go: decode", "frame/LFGlobal.go: NewLFGlobalWithReader", "frame/Frame.go: DecodeFrame"]}
{"id": "C96", "title": "The way a reader hands over its data makes no difference", "statement": "The decoder takes any io.ReadSeeker. For every reader that obeys the contract of io.Reader - it may hand over fewer bytes than asked for, nothing at all without an error, or report the end of the data together with the last bytes - every sequence of calls of the bit reader gives the values and errors it gives over the same bytes in memory.", "quantifier": "all readers obeying the contract (all schedules of their answers), all data, all programs of calls, each call depending on earlier replies and errors", "why_tests_cant": "Tests read from files or memory, which answer every request in full; the contract allows arbitrarily many other schedules of answers.", "anchors": ["jxlio/bitreader.go: readBit", "jxlio/bitreader.go: ReadBits", "jxlio/bitreader.go: SkipBits", "jxlio/bitreader.go: ReadBytesToBuffer", "core/read_jxl_boxes.go: ReadBoxHeader"]}
{"id": "C97", "title": "The reading helpers read and skip what they are asked to", "statement": "ReadFullyWithOffset(in, buffer, offset, len) stores the bytes offset..offset+len of the stream in the buffer, leaves the stream after them and returns the number of bytes it could not read; ReadFully fills the buffer from the start of the stream; SkipFully(in, n) moves the stream forward by n bytes; they fail when the stream is too short.", "quantifier": "all streams, offsets, lengths, buffers and schedules of the reader", "why_tests_cant": "The outcome depends on the lengths and on how the reader splits its data; the cases cannot be enumerated.", "anchors": ["jxlio/IOHelper.go: ReadFullyWithOffset", "jxlio/IOHelper.go: ReadFully", "jxlio/IOHelper.go: SkipFully"]}
{"id": "C98", "title": "A file whose frames are added to saved frames decodes to the picture that the format defines", "statement": "Decode of a file whose losslessly coded frames replace what they cover or are added to saved frames, and are saved in slots themselves, returns the image that the format defines: a covered sample is the sample of the frame, or its sum with the sample that the named slot got when a frame was last saved there; other samples are those of the slot that the frame names; a saved frame does not change when later frames are drawn. For 8-bit images the bytes of the Go image are those samples.", "quantifier": "all files: all headers, any number of frames at any place, all choices of slots, modes and sources per channel, all pictures and all ways of coding them", "why_tests_cant": "What a slot holds depends on the whole history of frames, with buffers shared between the canvas and the slots; the histories cannot be enumerated.", "anchors": ["reader.go: Decode", "core/jxl_codestream_decoder.go: decode", "core/jxl_codestream_decoder.go: blendFrame", "core/jxl_codestream_decoder.go: performBlending", "image/imagebuffer.go: ImageBufferSliceEquals"]}
{"id": "C99", "title": "A file whose frames are blended with saved frames decodes to the values that the format defines", "statement": "Decode of a file whose losslessly coded frames replace what they cover or are blended with saved frames (blend with alpha, alpha-weighted add, multiply), and are saved in slots themselves, returns the image that the format defines: a covered sample, as a fraction of the largest value of its channel, is the result of the formula of the mode applied to the sample of the frame, the sample that the named slot got when a frame was last saved there, and the alphas of both; other samples are those of the slot that the frame names; a saved frame does not change when later frames are drawn.", "quantifier": "all files: all headers, any number of frames at any place, all choices of slots, modes, sources and alpha channels per channel, all pictures and all ways of coding them, and both ways of rounding x*y+z", "why_tests_cant": "What a slot holds depends on the whole history of frames, with buffers shared between the canvas and the slots and converted from integers to floats in place; the histories cannot be enumerated.", "anchors": ["reader.go: Decode", "core/jxl_codestream_decoder.go: decode", "core/jxl_codestream_decoder.go: blendFrame", "core/jxl_codestream_decoder.go: performBlending", "image/imagebuffer.go: ImageBufferSliceEquals"]}
{"id": "C100", "title": "Noise is the noise of the format", "statement": "The noise generator gives the words that the format defines for its two seeds, whatever the sizes of the buffers it is asked to fill. Making the noise of a group sets every sample of the group in the three channels of the buffer to a number from 1 to 2 that is determined by the seed, the place of the group and the place of the sample, namely the one that the format defines, and leaves the samples outside the group as they are.", "quantifier": "all seeds, all sequences of buffer sizes, all group sizes, image sizes and places of a group, and all contents of the buffer", "why_tests_cant": "There are 2^128 seeds, and a sample depends on all the numbers drawn before it; a test that checks that some sample is not zero, as the existing one does, accepts every wrong order of the words.", "anchors": ["frame/XorShiro.go: NewXorShiroWith2Seeds", "frame/XorShiro.go: NewXorShiroWith4Seeds", "frame/XorShiro.go: fill", "frame/NoiseGroup.go: NewNoiseGroupWithHeader"]}
{"id": "C101", "title": "Comparisons say yes exactly to equal things", "statement": "Comparing two matrices with a function says yes exactly if they have the same shape and the function says yes to every pair of elements at the same place. Comparing two matrices for equality, two sets of transform parameters or two sets of colour parameters says yes exactly if they are equal (chromaticities: equal up to the tolerance of one ten-thousandth). No comparison crashes.", "quantifier": "all matrices of any shape (ragged ones included) over any type of elements, all comparison functions, all sets of parameters with numbers, infinities and NaN", "why_tests_cant": "The tests compare a few matrices of the same shape; whether a difference at any place and in any shape is seen is a statement about all of them.", "anchors": ["util/misc.go: CompareMatrix2D", "util/misc.go: CompareMatrix3D", "util/MathsHelper.go: Matrix3Equal", "frame/dctparams.go: Equals", "colour/OpsinInverseMatrix.go: Matches", "colour/CIEXY.go: Matches"]}
{"id": "C102", "title": "Clamping and filling touch nothing else", "statement": "Clamping a float to two bounds gives the number nearest to it between the bounds, whichever bound is the smaller one. Filling a range of a slice replaces exactly the elements of the range and keeps the length; an empty range changes nothing, and a range that ends outside of the slice is a crash, never a write elsewhere.", "quantifier": "all numbers, infinities and NaN, bounds in either order, all slices and index ranges", "why_tests_cant": "Numbers, slices and ranges are without limit, and errors are at the borders.", "anchors": ["util/MathsHelper.go: Clamp3Float32", "util/misc.go: FillFloat32"]}
{"id": "C103", "title": "The largest sample of a plane and the peak of an image", "statement": "MaxInt and MaxFloat return the largest sample of a buffer, wherever it is. The peak of an image is the largest sample of its green (or gray) channel as a part of full scale; an image tagged as PQ that does not reach full scale is brightened to it before another transfer curve is applied, and one that does is left alone.", "quantifier": "all planes of any shape (ragged ones included) with integers, numbers, infinities and NaN; all images, depths and transfer curves", "why_tests_cant": "The largest sample can be anywhere in a plane of any size, and all signs, infinities and NaN are possible.", "anchors": ["image/imagebuffer.go: MaxInt", "image/imagebuffer.go: MaxFloat", "core/jxl_image.go: determinePeak", "core/jxl_image.go: transferWithOp"]}
{"id": "C104", "title": "Files with losslessly coded frames that are shown larger", "statement": "A file whose losslessly coded frames have an upsampling factor of 2, 4 or 8 decodes to an image in floats: each frame is made larger by its factor, with the weights of the header or those by default, and put where its header says, one on top of the other, turned as the orientation says. The number of goroutines and the order of their work do not matter.", "quantifier": "all files of this kind (bare or in a container, with or without a profile, any size, number of frames, channels and groups), all numbers of goroutines and interleavings of their steps", "why_tests_cant": "Files, weights and schedules are unbounded in number, and the values near the edges depend on mirrored samples that few test images show.", "anchors": ["core/jxl_codestream_decoder.go: decode", "frame/Frame.go: Upsample", "frame/Frame.go: performUpsampling", "bundle/image_header.go: GetUpWeights"]}
{"id": "C105", "title": "Files with lossy frames that are shown larger", "statement": "A file whose VarDCT frames have an upsampling factor of 2, 4 or 8 decodes to an image in floats: the picture of each frame is made larger by its factor, with the weights of the header or those by default, then turned into the colours that the header asks for, and put where its header says, one on top of the other, turned as the orientation says. The number of goroutines and the order of their work do not matter.", "quantifier": "all files of this kind (bare or in a container, in XYB or not, with or without extra channels, any size, number of frames and groups), all numbers of goroutines and interleavings of their steps, and any arithmetic of floats in the blocks", "why_tests_cant": "Files, weights, coefficients and schedules are unbounded in number, and a wrong order of upsampling and colour conversion changes most pixels only slightly.", "anchors": ["core/jxl_codestream_decoder.go: decode", "frame/Frame.go: Upsample", "frame/Frame.go: performUpsampling", "core/jxl_codestream_decoder.go: performColourTransforms"]}
{"id": "C106", "title": "Files with modular frames in XYB", "statement": "A file whose frames are modular and in XYB decodes to an image in floats: the first coded channel times its factor is Y, the second is X, the sum of the first and the third is B; the frame is made larger if it has an upsampling factor, turned into the colours that the header asks for, and put where its header says, one on top of the other, turned as the orientation says. The number of goroutines that enlarge and the order of their work do not matter.", "quantifier": "all files of this kind (bare or in a container, any size, number of frames and groups, any channel transforms and entropy codes), all factors of the channels and all weights, all numbers of goroutines and interleavings of their steps", "why_tests_cant": "Files, samples, weights and schedules are unbounded in number; an exchange of X and Y or a factor of the wrong plane can look plausible on gray pictures.", "anchors": ["core/jxl_codestream_decoder.go: decode", "frame/Frame.go: DecodeFrame", "frame/Frame.go: Upsample", "core/jxl_codestream_decoder.go: performColourTransforms"]}
