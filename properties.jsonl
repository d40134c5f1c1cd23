{"id": "C01", "title": "Entropy-coded tile data decodes back to the coded symbols", "statement": "Encoding any finite sequence of symbols, each with any well-formed cumulative distribution, and finishing the coder yields bytes from which the AV1 symbol decoder (section 8.2 of the AV1 specification), given the same distributions, returns exactly the same symbols in the same order.", "quantifier": "every finite sequence of (symbol, CDF) pairs, every CDF with 2..16 strictly usable entries; no bound on the length", "why_tests_cant": "Carry propagation across arbitrarily long 0xff runs and the window refill points depend on the whole history; a test only sees a few streams.", "anchors": ["src/ec.rs: StorageBackend for WriterBase<WriterEncoder>::store", "src/ec.rs: WriterBase::lr_compute", "src/ec.rs: WriterBase<WriterEncoder>::done", "src/ec.rs: Writer::symbol"]}
{"id": "C02", "title": "Finished entropy data is decodable whatever follows it and ends with the mandated trailing bit pattern", "statement": "The bytes returned when a tile is finished decode to the coded symbols no matter which bytes follow them in memory or in the stream, and no shorter-by-design truncation of the final interval is emitted.", "quantifier": "every coded symbol sequence and every continuation of the byte stream", "why_tests_cant": "All continuations of all streams cannot be enumerated.", "anchors": ["src/ec.rs: WriterBase<WriterEncoder>::done"]}
{"id": "C03", "title": "Recording symbols and replaying them later gives the same bytes as coding them directly", "statement": "If a sequence of symbol/bool/bit/literal writes is first issued to a recording writer and that recording is replayed into an encoder, the encoder ends in exactly the state (bytes, pending window, range, bit count) it would have reached had the writes been issued to it directly.", "quantifier": "every sequence of writes and every encoder state at replay time", "why_tests_cant": "The recorder stores only the interval end points; equality must hold for every history of both writers.", "anchors": ["src/ec.rs: WriterBase<WriterRecorder>::replay", "src/ec.rs: StorageBackend for WriterBase<WriterRecorder>"]}
{"id": "C04", "title": "The rate counters agree with the encoder", "statement": "For the same sequence of writes the counting writer, the recording writer and the real encoder report the same tell() and tell_frac() values.", "quantifier": "every sequence of writes", "why_tests_cant": "Rate decisions rely on it for every possible history; unit tests sample short ones.", "anchors": ["src/ec.rs: Writer::tell", "src/ec.rs: Writer::tell_frac", "src/ec.rs: StorageBackend for WriterBase<WriterCounter>"]}
{"id": "C05", "title": "Rolling a writer back to a checkpoint undoes exactly the writes since the checkpoint", "statement": "Taking a checkpoint, issuing any writes and rolling back leaves the writer indistinguishable (by later output and by tell) from one that never saw those writes.", "quantifier": "every state, every write sequence between checkpoint and rollback, every later write sequence", "why_tests_cant": "RDO performs unbounded nested trial encodes; a missing field would only show up for particular interleavings.", "anchors": ["src/ec.rs: StorageBackend::checkpoint", "src/ec.rs: StorageBackend::rollback", "src/ec.rs: Writer::checkpoint"]}
{"id": "C06", "title": "Adaptive distributions stay well-formed for ever and match the decoder's adaptation", "statement": "Starting from a well-formed distribution, after any number of adaptation steps with any in-range symbols the distribution is still well-formed (monotone, inside the 15-bit range, terminating zero kept, counter capped at 32) and equals the one obtained by the AV1 specification's symbol adaptation process.", "quantifier": "every well-formed starting CDF, every symbol history", "why_tests_cant": "The state space of a 16-symbol CDF is astronomically large and the history unbounded.", "anchors": ["src/ec.rs: WriterBase::update_cdf", "src/ec.rs: Writer::symbol_with_update"]}
{"id": "C07", "title": "Exp-Golomb coefficient tails round-trip", "statement": "Writing any level with the Golomb escape code and reading it with the specification's read_golomb returns the level, and the prefix length never exceeds what the decoder accepts for the levels the encoder produces.", "quantifier": "every level value", "why_tests_cant": "The value range is 2^32.", "anchors": ["src/ec.rs: Writer::write_golomb"]}
{"id": "C08", "title": "Quasi-uniform and sub-exponential codes round-trip and their bit counts are exact", "statement": "The quasi-uniform, sub-exponential, and reference-relative (signed and unsigned) codes written by the encoder are decoded to the same value by the AV1 specification's decode process, and the functions that only count bits report exactly the number of bits written.", "quantifier": "every n, k, reference and value in the legal domain", "why_tests_cant": "Four-parameter family over 32-bit integers.", "anchors": ["src/ec.rs: Writer::write_quniform", "src/ec.rs: Writer::count_quniform", "src/ec.rs: Writer::write_subexp", "src/ec.rs: Writer::count_subexp", "src/ec.rs: Writer::write_unsigned_subexp_with_ref", "src/ec.rs: Writer::write_signed_subexp_with_ref", "src/ec.rs: WriterBase::recenter"]}
{"id": "C09", "title": "Header variable-length codes round-trip", "statement": "The header bit writer's quasi-uniform, sub-exponential, reference-relative signed, delta-q and fixed-width codes are decoded by the AV1 specification's header descriptors to the written values, and the reader consumes exactly the bits written.", "quantifier": "every value in the legal domain, every following bit string", "why_tests_cant": "Infinite family of followers and a large numeric domain.", "anchors": ["src/ec.rs: BCodeWriter", "src/header.rs: write_delta_q"]}
{"id": "C10", "title": "ULEB128 sizes round-trip", "statement": "Every OBU or metadata size up to 32 bits written as ULEB128 is decoded by leb128() to the same number and the decoder consumes exactly the bytes written, never more than five.", "quantifier": "every 32-bit size, every following byte string", "why_tests_cant": "2^32 values and arbitrary followers.", "anchors": ["src/header.rs: ULEB128Writer::write_uleb128"]}
{"id": "C11", "title": "Packets are well-formed sequences of OBUs", "statement": "Every packet the encoder emits can be split by a spec OBU parser into: a temporal delimiter, an optional sequence header (exactly on key frames), metadata OBUs, and frame OBUs, each with a correct size field, and the concatenation of the parsed payloads is exactly what was put in.", "quantifier": "every combination of frame kind, metadata list and payload bytes", "why_tests_cant": "Payload content and lengths are unbounded.", "anchors": ["src/encoder.rs: encode_frame", "src/encoder.rs: write_key_frame_obus", "src/encoder.rs: write_obus", "src/encoder.rs: encode_show_existing_frame", "src/header.rs: write_obu_header", "src/api/internal.rs: encode_normal_packet"]}
{"id": "C12", "title": "Tile payloads are recoverable from a tile group", "statement": "From the tile group bytes and the tile-size-bytes field announced in the frame header, a spec parser recovers every tile's bytes exactly.", "quantifier": "every list of non-empty tile payloads of any lengths below 2^32", "why_tests_cant": "Unbounded number and size of tiles.", "anchors": ["src/encoder.rs: build_raw_tile_group", "src/header.rs: write_frame_header_obu (tile_size_bytes)"]}
{"id": "C13", "title": "The sequence header round-trips through a spec parser", "statement": "For every supported configuration the sequence header bits are parsed by the specification's sequence_header_obu syntax back to the configured dimensions, bit depth, subsampling, colour description, tool flags and operating point, consuming exactly the bits written.", "quantifier": "every configuration accepted by validation (all widths/heights up to 16 bits, all colour descriptions, all time bases)", "why_tests_cant": "Product of many parameter domains.", "anchors": ["src/header.rs: write_sequence_header_obu", "src/header.rs: write_max_frame_size", "src/header.rs: write_color_config", "src/encoder.rs: Sequence::new"]}
{"id": "C14", "title": "The frame header round-trips through a spec parser", "statement": "For every frame the encoder can produce, the uncompressed header bits are parsed by the specification's uncompressed_header syntax back to the same frame type, reference map, order hint, refresh flags, quantizer, segmentation, loop-filter, CDEF and restoration parameters, consuming exactly the bits written.", "quantifier": "every header parameter record in range", "why_tests_cant": "Product of dozens of parameter domains.", "anchors": ["src/header.rs: write_frame_header_obu"]}
{"id": "C15", "title": "T.35 metadata is carried verbatim", "statement": "A T.35 message attached to an input frame that is coded in display order is written as one metadata OBU from which a spec parser recovers country code, extension byte and payload, and the OBU stops exactly at its trailing bits.", "quantifier": "every T.35 message of any length", "why_tests_cant": "Unbounded payloads.", "anchors": ["src/header.rs: write_t35_metadata_obu"]}
{"id": "C16", "title": "Every accepted frame comes out exactly once and in order", "statement": "For every interleaving of send_frame and receive_packet calls, the packets that receive_packet returns carry input frame numbers 0,1,2,... without gap, repetition or reordering, whatever the scene-cut decisions, forced key frames, reordering mode, key-frame intervals and flush time.", "quantifier": "every call interleaving, every scene-cut oracle, every number of frames, reordering on or off", "why_tests_cant": "Histories are unbounded; reordering pyramids interact with scene cuts at every phase.", "anchors": ["src/api/internal.rs: ContextInner::send_frame", "src/api/internal.rs: ContextInner::receive_packet", "src/api/internal.rs: set_frame_properties", "src/api/internal.rs: build_frame_properties", "src/api/internal.rs: InterConfig"]}
{"id": "C17", "title": "After flushing, draining terminates and delivers everything", "statement": "After flush, repeatedly calling receive_packet returns only packets (or, internally, 'frame encoded, call again'), never 'need more data', until every accepted frame has been delivered, and then LimitReached for ever; the number of calls is bounded by a linear function of the number of frames.", "quantifier": "every reachable state, every flush point", "why_tests_cant": "A liveness property over unbounded histories.", "anchors": ["src/api/internal.rs: receive_packet", "src/api/internal.rs: done_processing", "src/api/context.rs: Context::send_frame"]}
{"id": "C18", "title": "The send/receive API never panics on legal use", "statement": "No sequence of send_frame, flush and receive_packet calls makes the frame scheduler hit an unwrap on a missing map entry or an arithmetic underflow.", "quantifier": "every call sequence, every oracle", "why_tests_cant": "Panics would need a particular history to appear.", "anchors": ["src/api/internal.rs: ContextInner"]}
{"id": "C19", "title": "Key frame intervals never exceed the configured maximum", "statement": "Between two consecutive key frames of the output there are never more than max_key_frame_interval input frames, and the first frame is always a key frame.", "quantifier": "every history, every scene-cut oracle, every maximum interval", "why_tests_cant": "Depends on the whole history.", "anchors": ["src/api/internal.rs: next_keyframe_input_frameno", "src/api/internal.rs: build_frame_properties"]}
{"id": "C20", "title": "Forced key frames and detected scene cuts become key frames", "statement": "Every input frame that was declared a key frame (forced or detected) is coded as a key frame at its own position, in both low-latency and reordering mode.", "quantifier": "every set of key positions, every history", "why_tests_cant": "Scene cuts can fall on every phase of the pyramid.", "anchors": ["src/api/internal.rs: compute_keyframe_placement", "src/api/internal.rs: build_frame_properties"]}
{"id": "C21", "title": "User data attached to a frame comes back with that frame's packet", "statement": "The opaque value passed with frame n is returned in the packet that shows frame n, and T.35 metadata passed with frame n is emitted in the temporal unit of frame n and in no other.", "quantifier": "every subset of frames carrying data, every history", "why_tests_cant": "Needs all reorderings and scene-cut phases.", "anchors": ["src/api/internal.rs: send_frame (opaque_q, t35_q)", "src/api/internal.rs: finalize_packet", "src/api/internal.rs: build_frame_properties"]}
{"id": "C22", "title": "A show-existing-frame packet shows the frame it claims to show", "statement": "When the encoder emits a show-existing-frame header for input frame n, the decoder's reference slot named in the header holds the previously coded hidden frame n, not overwritten by any other frame.", "quantifier": "every history, every GOP truncation", "why_tests_cant": "Slot reuse depends on the whole refresh history.", "anchors": ["src/encoder.rs: FrameInvariants::new_inter_frame", "src/encoder.rs: update_rec_buffer", "src/api/internal.rs: InterConfig::get_slot_idx"]}
{"id": "C23", "title": "Inter frames only reference frames of their own GOP that the decoder has", "statement": "Every reference slot named by an inter frame holds a frame decoded earlier, not older than the key frame opening the current group, at every point of every history.", "quantifier": "every history", "why_tests_cant": "History dependent.", "anchors": ["src/encoder.rs: new_inter_frame", "src/encoder.rs: update_rec_buffer"]}
{"id": "C24", "title": "Order hints distinguish past from future references", "statement": "The sign-bias / backward flags derived with 6-bit wrapped order hints agree with the true display order of current frame and reference, in arbitrarily long GOPs.", "quantifier": "every history, GOPs of any length", "why_tests_cant": "Wrap-around happens only in long GOPs.", "anchors": ["src/encoder.rs: Sequence::get_relative_dist", "src/encoder.rs: set_ref_frame_sign_bias"]}
{"id": "C25", "title": "A flushed encoder accepts no further frames", "statement": "Once flush was requested (or the frame limit reached, or a still picture was supplied), send_frame with a frame returns EnoughData and changes nothing, and the frames accepted before are unaffected.", "quantifier": "every history", "why_tests_cant": "History dependent.", "anchors": ["src/api/context.rs: Context::send_frame"]}
{"id": "C26", "title": "Tiles partition the frame", "statement": "For every frame size and requested tile counts, the tile rectangles cover every pixel and every 4x4 block of the padded frame exactly once, so that the aliasing mutable views handed to worker threads never overlap.", "quantifier": "all frame sizes up to 65535, all requested tile column/row exponents, 4:2:2 or not", "why_tests_cant": "Memory safety of unsafe code depends on it for all sizes.", "anchors": ["src/tiling/tiler.rs: TilingInfo::from_target_tiles", "src/tiling/tiler.rs: TileContextIterMut::next"]}
{"id": "C27", "title": "Tile configuration obeys the AV1 limits and is derivable by the decoder", "statement": "For every accepted configuration the tile column/row exponents lie between the minimum and maximum the decoder derives, the decoder's uniform tile spacing formula gives the same tile boundaries, and no tile is wider than 4096 or larger than 4096x2304.", "quantifier": "all frame sizes, all requested tile counts", "why_tests_cant": "Unit tests try a handful of sizes.", "anchors": ["src/tiling/tiler.rs: TilingInfo::from_target_tiles", "src/header.rs: write_frame_header_obu (tile info)"]}
{"id": "C28", "title": "Configuration validation accepts only configurations the encoder can represent", "statement": "Every configuration accepted by Config::validate has dimensions, look-ahead, intervals, time base and tile counts within the ranges the bitstream writer assumes.", "quantifier": "every configuration record", "why_tests_cant": "Product domain.", "anchors": ["src/api/config/mod.rs: Config::validate"]}
{"id": "C29", "title": "Two-pass statistics round-trip under any chunking", "statement": "The per-frame records and the summary emitted by the first pass, fed to the second pass in arbitrary chunk sizes, are parsed to exactly the same metrics; the summary parser accepts every summary a completed first pass emits.", "quantifier": "every sequence of frame metrics, every chunking of the byte stream", "why_tests_cant": "Chunkings are exponential in the stream length.", "anchors": ["src/rate.rs: RCDeserialize", "src/rate.rs: emit_frame_data", "src/rate.rs: emit_summary", "src/rate.rs: twopass_in"]}
{"id": "C30", "title": "Malformed two-pass data is rejected without panicking", "statement": "Feeding arbitrary bytes as two-pass data, either in arbitrary chunks through twopass_in or packet by packet through rc_send_pass_data, is either consumed or returns an error; it never indexes outside a buffer or violates the clamp precondition. (Using both calls on one encoder does panic; there is a witness.)", "quantifier": "every byte string and chunking, interleaved with encoded frames", "why_tests_cant": "Attacker-controlled input.", "anchors": ["src/rate.rs: twopass_parse_frame_data", "src/rate.rs: twopass_in_frames_needed", "src/rate.rs: parse_summary"]}
{"id": "C31", "title": "The bit reservoir never exceeds its capacity", "statement": "With rate control active the reservoir fullness never exceeds the reservoir maximum after any frame, and equals the sum of per-temporal-unit budgets minus bits spent as long as no overflow was capped.", "quantifier": "every sequence of frame sizes", "why_tests_cant": "Unbounded history.", "anchors": ["src/rate.rs: RCState::update_state"]}
{"id": "C32", "title": "Selected quantizer indices are always codable", "statement": "Whatever the target quantizer, every selected quantizer index is in 1..255 (non-monochrome planes), and every chroma/DC delta fits the 7-bit signed delta_q syntax.", "quantifier": "every 64-bit log quantizer, bit depth, sampling", "why_tests_cant": "64-bit domain.", "anchors": ["src/rate.rs: QuantizerParameters::new_from_log_q", "src/encoder.rs: set_quantizers", "src/header.rs: write_delta_q"]}
{"id": "C33", "title": "Quantizer look-up picks the nearest table entry in the log domain", "statement": "select_dc_qi/select_ac_qi return an index whose table entry is nearest (geometrically) to the requested quantizer, for every quantizer value and bit depth.", "quantifier": "every 64-bit quantizer, 3 bit depths, both tables", "why_tests_cant": "2^64 inputs.", "anchors": ["src/quantize/mod.rs: select_qi", "src/quantize/tables.rs"]}
{"id": "C34", "title": "Reciprocal division is exact", "statement": "The multiply-and-shift division used by the quantizer equals integer division for every dividend and every non-zero divisor.", "quantifier": "every 32-bit dividend and divisor", "why_tests_cant": "2^64 pairs; the unit test covers 10^6.", "anchors": ["src/quantize/mod.rs: divu_gen", "src/quantize/mod.rs: divu_pair"]}
{"id": "C35", "title": "Quantization error is bounded and the end-of-block position is exact", "statement": "For every coefficient block the reported end-of-block is exactly one past the last non-zero level in the coding order of AV1, and all levels after it are zero. When the coefficients lie at least one quantizer step inside the range of their type, dequantization reproduces every one of them to within less than one quantizer step, with the sign preserved or zero, and gives the value that the AV1 decoding process computes.", "quantifier": "every coefficient block, every quantizer, every transform size", "why_tests_cant": "Unbounded coefficient blocks.", "anchors": ["src/quantize/mod.rs: QuantizationContext::quantize", "src/quantize/mod.rs: rust::dequantize"]}
{"id": "C36", "title": "IVF files round-trip", "statement": "Writing any header and any list of frames with the muxer and parsing with the demuxer returns the same header fields and frames, for fields within the container's field widths.", "quantifier": "every frame list", "why_tests_cant": "Unbounded lists.", "anchors": ["ivf/src/lib.rs: write_ivf_header", "ivf/src/lib.rs: write_ivf_frame", "ivf/src/lib.rs: read_header", "ivf/src/lib.rs: read_packet"]}
{"id": "C37", "title": "The lossless transform is lossless", "statement": "In lossless mode, transforming the difference of a 4x4 source block and its prediction and adding the inverse transform to the prediction reproduces the source exactly, for every bit depth, without overflow.", "quantifier": "every 4x4 source block and prediction of every bit depth", "why_tests_cant": "2^(16*17) blocks.", "anchors": ["src/transform/forward_shared.rs: fwht4", "src/transform/inverse.rs: iwht4"]}
{"id": "C38", "title": "In-loop and prediction filters keep pixels in range", "statement": "CDEF, deblocking, intra prediction and motion compensation never produce a value outside the range allowed by the bit depth, whatever the neighbouring pixels.", "quantifier": "every pixel neighbourhood and filter strength, every bit depth", "why_tests_cant": "Continuous-size input domain.", "anchors": ["src/cdef.rs", "src/deblock.rs", "src/predict.rs", "src/mc.rs"]}
{"id": "C39", "title": "Scan orders are permutations", "statement": "Each coefficient scan visits every position of the transform block exactly once and the inverse scan is its inverse.", "quantifier": "all transform sizes and types", "why_tests_cant": "Needed by every block; tests do not check it.", "anchors": ["src/scan_order.rs"]}
{"id": "C40", "title": "Speculative CDF adaptation is undone exactly", "statement": "Rolling the CDF log back to a checkpoint restores every CDF touched since, for any number and order of touched CDFs, including repeated and overlapping ones.", "quantifier": "every sequence of logged adaptations", "why_tests_cant": "Unbounded trial encodes.", "anchors": ["src/context/cdf_context.rs: CDFContextLog"]}
{"id": "C41", "title": "Coefficient coding round-trips", "statement": "The token sequence written for a block of quantized coefficients is decoded by the AV1 specification's coefs() syntax to the same coefficients.", "quantifier": "every coefficient block", "why_tests_cant": "Unbounded blocks.", "anchors": ["src/context/transform_unit.rs: write_coeffs_lv_map"]}
{"id": "C42", "title": "k-means clustering terminates and returns ordered centroids", "statement": "The one-dimensional k-means used for segmentation terminates, never indexes out of bounds, and returns centroids in non-decreasing order that lie within the data range; when all data are negative the largest centroid may be one above the data, because the division rounds towards zero.", "quantifier": "every sorted data set", "why_tests_cant": "Unbounded data.", "anchors": ["src/util/kmeans.rs"]}
{"id": "C43", "title": "Fixed-point log and exp are accurate and monotone at the integers used", "statement": "blog64 and blog32 of a positive integer are its base-2 logarithm up to a fixed number of units in the last place, and larger integers get larger logarithms; bexp64 and bexp_q24 are the base-2 exponential up to rounding and a fixed relative error, saturated at the ends; bexp64 of blog64 recovers the integer; and neither these nor the fixed point conversions overflow for in-range inputs.", "quantifier": "every in-range argument", "why_tests_cant": "2^63 arguments.", "anchors": ["src/util/logexp.rs"]}
{"id": "C44", "title": "The channel API delivers what the direct API delivers", "statement": "Frames sent over the threaded channel API yield the packet sequence of the direct API for the same frames, for every interleaving of the encoder thread with sender and receiver, and dropping the sender ends the packet stream after the last packet.", "quantifier": "every schedule of sender, encoder thread and receiver", "why_tests_cant": "Schedules are unbounded.", "anchors": ["src/api/channel/mod.rs: new_channel_internal", "src/api/channel/data.rs: FrameSender::send, PacketReceiver::recv"]}
{"id": "C45", "title": "Predicted symbol cost equals real cost", "statement": "The bit cost reported for a symbol before coding it on the real writer equals exactly the increase of the writer's fractional position when that symbol is coded, for every state, distribution and symbol.", "quantifier": "every reachable writer state, distribution and symbol", "why_tests_cant": "The state space is all (range, count) pairs and all distributions.", "anchors": ["src/ec.rs: symbol_bits, tell_frac, symbol"]}
{"id": "C46", "title": "Saving a context resets every adaptation counter and nothing else", "statement": "Resetting a probability context between frames sets the counter of every distribution to zero and leaves every probability unchanged; no distribution is forgotten, and the saved context stays usable.", "quantifier": "every context contents and every distribution of the context", "why_tests_cant": "Over a thousand distributions with arbitrary contents.", "anchors": ["src/context/cdf_context.rs: CDFContext, reset_counts"]}
{"id": "C47", "title": "Every distribution the encoder codes with is well formed", "statement": "Starting from the default probabilities of any quantizer, after any sequence of coded symbols, checkpoints and rollbacks, every distribution is well formed (decreasing, in range, counter bounded), so that the range coder and any decoder can use it, and equals the adaptation to exactly the surviving symbols.", "quantifier": "every quantizer and every coding history", "why_tests_cant": "Histories are unbounded.", "anchors": ["src/context/cdf_context.rs", "src/entropymode.rs", "src/token_cdfs.rs", "src/ec.rs: update_cdf"]}
{"id": "C48", "title": "Decoding can start at every key frame packet", "statement": "A decoder that starts with nothing at any packet marked as a key frame and reads on shows exactly the encoder reconstructions of that frame and of all later ones, in order, without ever needing a picture from before.", "quantifier": "every history of calls, every key frame packet in it, every number of following packets", "why_tests_cant": "Joining points and the reference structure before them are unbounded in number; a test seeks to a few of them.", "anchors": ["src/api/internal.rs: ContextInner::receive_packet, encode_normal_packet, encode_show_existing_packet", "src/encoder.rs: FrameInvariants::new_key_frame, new_inter_frame, update_rec_buffer"]}
{"id": "C49", "title": "Every packet shows exactly one frame", "statement": "Every packet is one temporal unit: it begins with its only temporal delimiter, exactly one of its units is displayed, that is the last one, and the sequence header is present exactly in key frame packets.", "quantifier": "every packet of every history", "why_tests_cant": "Grouping of hidden frames depends on where forced key frames, scene cuts and the flush fall in the reordering group.", "anchors": ["src/api/internal.rs: encode_normal_packet, encode_show_existing_packet, finalize_packet", "src/encoder.rs: encode_frame, encode_show_existing_frame"]}
{"id": "C50", "title": "The packets depend on the frames, not on the calls", "statement": "Two uses of an encoder that give it the same frames get the same packets, whatever the order of send_frame, flush and receive_packet calls, however often receive_packet was called early or found the encoder not ready, and whatever refused frames were offered; packets delivered before the flush do not change with the frames sent afterwards.", "quantifier": "all pairs of histories of API calls with the same accepted frames", "why_tests_cant": "The number of interleavings of calls is unbounded; a test compares a few.", "anchors": ["src/api/internal.rs: send_frame, compute_frame_invariants, receive_packet", "src/api/context.rs: send_frame, receive_packet"]}
{"id": "C51", "title": "The parallel channel codes each group of pictures as the direct API would", "statement": "Whatever the scheduling of the threads and however the application interleaves its calls, the channel that codes groups of pictures in parallel delivers, when it reports the end, exactly one packet per frame sent, numbered in order; the packets are those the direct API gives for each group of frames by itself, and the groups start where the scene detector found a new scene, except among the last frames. With at least two slots the threads never block each other, no thread panics and the threads stop after a number of steps linear in the number of frames. With one slot the channel never ends.", "quantifier": "all schedules of application, grouping, dispatching, encoding and reassembling threads; all numbers of frames and slots; all answers of the scene detector", "why_tests_cant": "The number of interleavings of five kinds of threads is unbounded; deadlocks and lost or reordered packets appear only in some of them.", "anchors": ["src/api/channel/by_gop.rs: Config::new_by_gop_channel, scenechange, encode, workerpool, reassemble, SceneChange::split, WorkerPoolSend::get_worker", "src/api/channel/data.rs: FrameSender::send, PacketReceiver::recv"]}
{"id": "C52", "title": "CDEF in the encoder is CDEF in the decoder", "statement": "Given the deblocked frame, the directional enhancement filter of the encoder leaves in every pixel of every plane the value that the AV1 specification prescribes to a decoder for the strengths, damping, skip flags and indices that were coded; it never panics, reads no pixel outside of the picture and nothing in it overflows.", "quantifier": "every frame size, chroma sampling, bit depth, pixel values, coded strengths, skip flags", "why_tests_cant": "Pixels near block, superblock and picture borders in all samplings and directions; one wrong tap makes encoder and decoder drift apart.", "anchors": ["src/cdef.rs: cdef_filter_tile, cdef_filter_superblock, cdef_analyze_superblock, cdef_find_dir, cdef_filter_block, pad_into_tmp16, adjust_strength"]}
{"id": "C53", "title": "Deblocking in the encoder is deblocking in the decoder", "statement": "Given the reconstruction, the blocks, transform sizes and skip flags that were coded and the levels of the frame header, the deblocking filter of the encoder leaves in every pixel of every plane the value that the AV1 specification prescribes to a decoder, although the encoder filters vertical and horizontal edges in another, interleaved order; it never panics.", "quantifier": "every frame size, chroma sampling, bit depth, partition into blocks and transforms, pixel values, levels", "why_tests_cant": "The order of overlapping filter taps depends on all neighbouring transform sizes; one edge filtered in another order or with another size makes encoder and decoder drift apart.", "anchors": ["src/deblock.rs: deblock_plane, deblock_filter_frame, filter_v_edge, filter_h_edge, deblock_size, deblock_level, deblock_size4_inner, deblock_size6_inner, deblock_size8_inner, deblock_size14_inner"]}
{"id": "C54", "title": "The deblocking levels are the best ones and fit the header", "statement": "Whatever source and reconstruction are, the search for the deblocking levels finishes without a panic, its levels fit the six bits of the header, and each level is the lowest of those that minimise the squared error over the lines counted for it, each line filtered as the frame will be; with the fast setting the level fits as well.", "quantifier": "all pictures, blocks, bit depths, quantizers", "why_tests_cant": "The search sums error differences instead of filtering with each level, so it is right only if each difference is put at exactly the level where the filter starts to act, for all pixel values.", "anchors": ["src/deblock.rs: sse_plane, sse_optimize, sse_size4, sse_size6, sse_size8, sse_size14, sse_v_edge, sse_h_edge, deblock_filter_optimize"]}
{"id": "C55", "title": "Loop restoration in the encoder is loop restoration in the decoder", "statement": "Given the deblocked frame and the frame after CDEF, the loop restoration of the encoder leaves in every pixel of every plane the value that the AV1 specification prescribes to a decoder for the units that were coded; no arithmetic overflows, nothing panics, and the frame is split into units and stripes as the decoder splits it, for every frame size, tiling and subsampling.", "quantifier": "every frame size, chroma sampling, bit depth, tiling, quantizer, pixel values and coded filters", "why_tests_cant": "Sliding row buffers, integral images that wrap around and stripes that cross unit and frame borders; one wrong row makes encoder and decoder drift apart.", "anchors": ["src/lrf.rs: lrf_filter_frame, sgrproj_stripe_filter, setup_integral_image, sgrproj_box_ab_r1, sgrproj_box_ab_r2, sgrproj_box_f_r1, sgrproj_box_f_r2, RestorationState::new, sgrproj_solve"]}
{"id": "C56", "title": "Inter prediction in the encoder is inter prediction in the decoder", "statement": "For every inter block, given reference pictures equal to those of the decoder, the prediction of every plane is in every pixel the value that the AV1 specification prescribes to a decoder for the motion vectors and references that were coded, with one reference or two, wherever the vectors point, also for the chroma of blocks below 8x8 that combines the motion of several blocks; no other pixel changes, nothing panics or overflows, and no contents of scratch buffers matter.", "quantifier": "every block size, position, motion vector, chroma sampling, bit depth, reference picture and neighbouring block", "why_tests_cant": "Fractions, filters, clamping far outside of the picture, 16-bit intermediates and shared chroma blocks combine to far too many cases; one wrong rounding makes encoder and decoder drift apart.", "anchors": ["src/mc.rs: put_8tap, prep_8tap, mc_avg, get_filter, SUBPEL_FILTERS", "src/predict.rs: get_mv_params, predict_inter, predict_inter_single, predict_inter_compound", "src/encoder.rs: motion_compensate"]}
{"id": "C57", "title": "Intra prediction in the encoder is intra prediction in the decoder", "statement": "For every intra block, given the same pixels around it and the same knowledge of which neighbours have been decoded, the prediction is in every pixel the value that the AV1 specification prescribes to a decoder for the mode, angle and chroma-from-luma factor that were coded, with and without the edge filter, at every border of tile and frame; no other pixel changes, all pixels stay in range and nothing panics.", "quantifier": "every mode, angle, transform size, position, chroma sampling, bit depth and pixel values", "why_tests_cant": "Eight directions with seven angles, nineteen sizes, filtered and upsampled edges and all ways the picture can end combine to far too many cases; one wrong pixel makes encoder and decoder drift apart.", "anchors": ["src/predict.rs: PredictionMode::predict_intra, dispatch_predict_intra, pred_directional, filter_edge, upsample_edge, luma_ac, pred_cfl_ac", "src/partition.rs: get_intra_edges"]}
{"id": "C58", "title": "Intra prediction only uses what the decoder has decoded, and all that it uses", "statement": "However a superblock is partitioned, the transform blocks of intra blocks are predicted in the order, at the positions and with the sizes in which a decoder decodes them; for each of them the encoder takes exactly those pixels above, right above, left and left below as available that the decoder has already decoded at that point, so that the prediction is the value the decoder computes; and the encoder uses the smooth variant of the edge filter exactly when the decoder does.", "quantifier": "every partition tree of every superblock, every transform size, chroma sampling, tile position, frame size and history of coded blocks", "why_tests_cant": "The number of partition trees of a superblock is astronomical, and availability depends on the decoding order of all of them.", "anchors": ["src/recon_intra.rs: has_top_right, has_bottom_left, has_tr_tables, has_bl_tables", "src/partition.rs: get_intra_edges", "src/encoder.rs: write_tx_blocks, encode_tx_block", "src/tiling/tile_state.rs: above_block_info, left_block_info", "src/predict.rs: IntraEdgeFilterParameters"]}
{"id": "C59", "title": "The inverse transform in the encoder is the inverse transform in the decoder", "statement": "For every transform size and type that is implemented, the levels of a block, dequantized and inverse transformed, change every pixel of the prediction to the value that the AV1 specification prescribes to a decoder that reads these levels; no other pixel changes, the pixels stay in range and no arithmetic overflows.", "quantifier": "every transform size, type, bit depth, quantizer, levels or coefficients and prediction", "why_tests_cant": "A 64-point transform has hundreds of rotations on large integers, with wrapping arithmetic and clamps between stages; one wrong rounding makes encoder and decoder drift apart on rare coefficients only.", "anchors": ["src/transform/inverse.rs: half_btf, av1_idct4 ... av1_idct64, av1_iadst4, av1_iadst8, av1_iadst16, av1_iidentity, inverse_transform_add", "src/transform/mod.rs: get_1d_tx_types, clamp_value", "src/quantize/mod.rs: dequantize"]}
{"id": "C60", "title": "Motion vector prediction in the encoder is motion vector prediction in the decoder", "statement": "For every inter block, with one reference or two, the list of candidate motion vectors that the encoder derives from the blocks around it, with their order, weights, clamping and the contexts used to code the mode and the choice of a candidate, is the list that the AV1 specification prescribes to a decoder at that point of the tile; the decoder only has to look at blocks it has decoded, and the encoder never panics, whatever stale data the blocks not yet coded hold.", "quantifier": "every tile, every partition of it, every block, references, sign biases, modes and motion vectors of the blocks before", "why_tests_cant": "The scans above and to the left take different steps in the encoder and in the specification (weights for whole rows at once, skipped rows, one sort instead of two); the cases are combinations of sizes, alignments and tile borders of all neighbours.", "anchors": ["src/context/block_unit.rs: find_mvrefs, setup_mvref_list, scan_row_mbmi, scan_col_mbmi, scan_blk_mbmi, add_ref_mv_candidate, add_extra_mv_candidate", "src/partition.rs: has_tr", "src/encoder.rs: encode_block_post_cdef (drl contexts)"]}
{"id": "C61", "title": "The mode and the motion vectors of every block are what a decoder reads", "statement": "For every inter block the encoder codes, the mode and the motion vectors with which it predicted the block are exactly what a decoder reads back: the symbols stand in the order and under the contexts in which the specification reads them, each value lies in the alphabet of its distribution, vectors copied from a candidate are that candidate in the decoder, and differences of new vectors are represented exactly; all vectors lie in the range that the specification requires, also those copied from candidates; this holds for each block and by induction for the whole tile, although the mode was chosen when the blocks around were still coded differently.", "quantifier": "every tile, partition, block, choice of references, mode and motion vectors within the range that the mode decision admits", "why_tests_cant": "Modes are renamed when the block is coded because the candidates may have changed since the mode was decided; which name is right depends on ties, zero vectors and lengths of the candidate list, and an error shows only as a picture that drifts in the decoder.", "anchors": ["src/encoder.rs: encode_block_post_cdef, encode_partition_topdown (mode remapping)", "src/context/block_unit.rs: write_compound_mode, write_inter_mode, write_drl_mode, write_mv", "src/context/mod.rs: encode_mv_component, get_mv_class, av1_get_mv_joint", "src/rdo.rs: inter_frame_rdo_mode_decision, dmv_in_range"]}
{"id": "C62", "title": "A decoder reads back every block of a tile as it was decided", "statement": "Whatever partition, modes, segments, reference frames and motion vectors are decided for the blocks of a tile, a decoder that follows the AV1 specification reads from the symbols that the encoder writes exactly these blocks, in the same order and at the same places: every symbol stands where the decoder expects it, is coded with the distribution that the decoder selects from what it has decoded so far, and lies in the alphabet of that distribution; blocks outside the frame are neither written nor read.", "quantifier": "every frame size, tile, partition tree, choice for every block, chroma sampling, segmentation setting and initial content of the context arrays", "why_tests_cant": "The distribution of each symbol depends on what was coded for the neighbours above and to the left, over any distance and any partition; one wrong context desynchronises the entropy decoder for the rest of the tile.", "anchors": ["src/encoder.rs: encode_tile, encode_partition_topdown, encode_partition_bottomup, encode_block_pre_cdef, encode_block_post_cdef", "src/context/partition_unit.rs: write_partition, partition_plane_context, update_partition_context, write_segmentation, get_segment_pred, write_skip, write_cfl_alphas", "src/context/block_unit.rs: write_intra_mode, write_intra_mode_kf, write_intra_uv_mode, write_angle_delta, intra_inter_context, get_comp_mode_ctx, get_comp_ref_type_ctx", "src/context/frame_header.rs: write_ref_frames"]}
{"id": "C63", "title": "A decoder reads back the transform sizes of every block", "statement": "Whatever partition, skip flags and transform sizes are decided for the blocks of a tile, a decoder that follows the AV1 specification reads from the symbols that the encoder writes the transform size of every block, and uses in every part of the block that lies in the frame the size that the encoder used; every symbol is coded with the distribution that the decoder selects from the transform sizes and blocks it has decoded above and to the left. When the frame header says that transform sizes are not coded, none is.", "quantifier": "every frame size, tile, partition tree, choice of inter, skip and transform size for every block, and settings of the frame", "why_tests_cant": "The distribution of each symbol depends on what was coded for the neighbours above and to the left, over any distance, any partition and any earlier transform split; one wrong context desynchronises the decoder for the rest of the tile.", "anchors": ["src/context/transform_unit.rs: write_tx_size_intra, write_tx_size_inter, get_tx_size_context, txfm_partition_context", "src/context/block_unit.rs: update_tx_size_context, reset_left_tx_context", "src/rdo.rs: rdo_tx_size_type", "src/encoder.rs: encode_block_post_cdef, encode_tile"]}
{"id": "C64", "title": "A decoder reads back the residual of every block", "statement": "Whatever partition, modes, skip flags, transform sizes and types and quantized coefficients are decided for the blocks of a tile, the encoder does not panic, and a decoder that follows the AV1 specification finds by itself the transform blocks of all planes in the order in which the encoder coded them, at the same places, of the same sizes, and reads from the coded symbols for each of them the type and the coefficients that the encoder used; transform blocks outside of the frame are neither written nor read, and skipped blocks reset the contexts in encoder and decoder alike.", "quantifier": "every frame size, tile, partition tree, chroma sampling, choice of modes, skip, transform size and type for every block, and all coefficients", "why_tests_cant": "Encoder and decoder enumerate transform blocks by different loops (a grid over the whole block; 64x64 chunks, a recursive transform tree and sub-8x8 chroma rules in the specification); transform types of chroma are not coded but derived from modes or from the luma types already decoded.", "anchors": ["src/encoder.rs: encode_block_post_cdef, write_tx_blocks, write_tx_tree, encode_tx_block, encode_tile", "src/transform/mod.rs: TxType::uv_inter, RAV1E_TX_TYPES", "src/context/transform_unit.rs: uv_intra_mode_to_tx_type_context, max_txsize_rect_lookup", "src/partition.rs: largest_chroma_tx_size, subsampled_size, has_chroma", "src/rdo.rs: rdo_tx_size_type, rdo_tx_type_decision"]}
{"id": "C65", "title": "A decoder finds every CDEF index and every loop restoration unit in its place", "statement": "The encoder holds the symbols of superblocks back until it has decided on the loop restoration filters and CDEF indices that concern them. Whatever blocks a tile consists of and whatever is decided for them, no superblock is left in the queue when the tile ends, nothing panics, and a decoder that follows the AV1 specification reads from what has been written the same blocks, for every loop restoration unit that starts in the tile the filter that the encoder has for it in the end, and for every superblock with a block that is not skipped the CDEF index that the encoder has for it in the end: a decision is never changed after it has been written.", "quantifier": "every frame size, chroma sampling, tiling, quantizer and tile; every sequence of blocks; every outcome of the filter decisions; with immediate and delayed decisions", "why_tests_cant": "A unit covers several superblocks, differs in size between planes, may be stretched over the border of the frame or of the tile and is decided when its last superblock is coded but written before its first; each superblock is written once and in order although it waits for three planes.", "anchors": ["src/encoder.rs: encode_tile, check_lf_queue, encode_block_pre_cdef", "src/context/frame_header.rs: write_lrf, write_cdef", "src/tiling/tile_restoration_state.rs: restoration_unit_index, restoration_unit_last_sb_for_rdo, get_units_region", "src/lrf.rs: RestorationState::new", "src/rdo.rs: rdo_loop_decision"]}
{"id": "C66", "title": "A decoder that knows only the headers reads back a whole tile", "statement": "The symbols of modes, transform sizes and coefficients of all blocks of a tile follow each other in one list, and what is read of it decides how the rest is read. Whatever partition, modes, segments, reference frames, motion vectors, skip flags, transform sizes and types and quantized coefficients are decided for the blocks of a tile, a decoder that follows the AV1 specification and knows nothing but the headers reads from this list exactly these blocks, in order and at their places, each with its modes, its transform size and its transform blocks with their types and coefficients, and leaves whatever follows.", "quantifier": "every frame size, tile, partition tree, chroma sampling, segmentation and transform setting, every choice for every block, all coefficients", "why_tests_cant": "The three kinds of syntax depend on each other: a wrong mode, skip flag or transform size changes where the decoder looks for transform blocks, and a wrong number of symbols of one kind shifts all that follows; round trips of each part with the other parts given say nothing about this, and no set of frames covers the combinations.", "anchors": ["src/encoder.rs: encode_block_pre_cdef, encode_block_post_cdef, encode_partition_topdown, encode_partition_bottomup, encode_tile", "src/context/block_unit.rs: BlockContext, reset_left_contexts"]}
{"id": "C67", "title": "The distortion that the decisions are based on is what it is documented to be", "statement": "The psychovisual distortion between a block of the source and its approximation, and the weight given to each part of a picture for its activity, are computed without overflow and, up to 2.5 %, are the documented function of squared error and variances; a block equal to the source has no distortion, a block that differs by more than rounding has some, and all weights are between 0.53 and 1.46, so that no part of a picture is ignored.", "quantifier": "every block size up to 8x8, every bit depth, all pixel values of source and approximation", "why_tests_cant": "Fixed point with a quadratic approximation of the inverse square root, shifts that depend on the variances and sums in narrow integers: the error depends on 128 pixel values.", "anchors": ["src/activity.rs: apply_ssim_boost, ssim_boost, ssim_boost_rsqrt, variance_8x8, ActivityMask::fill_scales", "src/dist.rs: cdef_dist_kernel"]}
{"id": "C68", "title": "Segments never switch a block to lossless coding, fit the header and never crash the encoder", "statement": "Whatever the importance scores of the blocks and whatever sequence of base quantizer indices the frames have, the encoder makes three to eight segments whose quantizer changes can be written in the frame header, in a fixed order; no block that codes a segment gets a segment with quantizer index zero, which would silently switch it to lossless coding, or one beyond the last active segment; and no frame panics while it chooses segments.", "quantifier": "every nonempty list of scores, every history of frames that make or inherit segments, every base quantizer index, every bit depth, segmentation level and block scale", "why_tests_cant": "Segments are inherited from other frames while the base quantizer index changes, so that what is true in the frame that made them may fail many frames later; clustering, logarithms and table searches lie between scores and segments.", "anchors": ["src/segmentation.rs: segmentation_optimize, segmentation_optimize_inner, select_segment, segment_idx_from_distortion", "src/encoder.rs: SegmentationState::update_threshold, get_qidx, get_initial_segmentation, compute_spatiotemporal_scores, compute_temporal_scores", "src/rdo.rs: DistortionScale::new, DistortionScale::inv_mean, DistortionScale::blog16", "src/util/logexp.rs: blog32_q11", "src/util/kmeans.rs: kmeans", "src/quantize/mod.rs: select_ac_qi"]}
{"id": "C69", "title": "Block differences that guide motion search and mode decision are exact", "statement": "The sum of absolute differences, the sum of absolute transformed differences and the weighted sum of squared differences of two blocks never overflow. The first is exact; the second is the sum of the absolute values of all coefficients of a true Hadamard transform of the difference, normalised and rounded once, between the largest difference and the sum of differences times the size of the transform; the third differs from the exact weighted sum by less than one half plus 1/128 per 4x4 block and is the exact squared error for weights of one (sizes that are multiples of 4). A result of zero means equal blocks (weights of at least one half; transform squares that cover the block).", "quantifier": "every block size up to 128x128, all pixel values of up to 12 bits (16 for absolute differences), all 32-bit weights", "why_tests_cant": "Sums in 32-bit integers over up to 16384 pixels, in-place butterflies with strides and rounding in two places: the result depends on every pixel of both blocks.", "anchors": ["src/dist.rs: get_sad, butterfly, hadamard4_1d, hadamard8_1d, hadamard2d, get_satd, get_weighted_sse", "src/rdo.rs: DistortionScale::new"]}
{"id": "C70", "title": "Motion search ends in an allowed vector that no nearby vector beats", "statement": "For any two pictures, predictors and earlier vectors, motion search ends without a failed assertion and returns a vector inside the limits of the block together with the cost that was measured for it. The search of the mode decision is at least as good as every predictor and as every vector a pixel away at its whole-pixel stage, and no vector a quarter of a pixel away from its result costs less; with stored vectors that a stream can have, the result is a multiple of a quarter of a pixel, so that coding it loses nothing. The extensive search of the first pass is at least as good as every predictor and every vector of the grid of the full search unless it stopped early at a difference below its threshold, and what it finds can be refined at every higher resolution, where the best of 4x4 vectors is taken.", "quantifier": "every content of both pictures (every function from vectors to differences), every list of predictors, every block of every frame size, every multiplier", "why_tests_cant": "The searches are loops that stop when nothing improves: that they stop, and where, depends on the pictures, and cost comparisons start from an artificial largest cost.", "anchors": ["src/me.rs: get_mv_range, get_subset_predictors, full_pixel_me, get_best_predictor, fullpel_diamond_search, hexagon_search, uneven_multi_hex_search, full_search, subpel_diamond_search, compute_mv_rd, get_mv_rate", "src/rdo.rs: inter_frame_rdo_mode_decision"]}
{"id": "C71", "title": "Estimated rates follow the table they are interpolated from", "statement": "When rates are estimated from distortions instead of counted, every quantizer index, transform size and distortion has an estimate, nothing overflows and no read leaves the table. At the distortions the table is made for the estimate is the value of the table; between two of them it lies between their values and differs by at most 9 from the straight line; beyond the last one it follows the line through the last two values, or is 0 where this is negative. Where the values of the table do not fall, a larger distortion never gets a smaller estimate. The distortion is the exact sum of squared differences of coefficients, scaled and rounded once, whenever no coefficient is off by more than 46340.", "quantifier": "every quantizer index, every transform size, every distortion below 2^42, all coefficients", "why_tests_cant": "The existing test looks at one entry; slopes of either sign are truncated, products shifted, and the last bin is extrapolated without an end.", "anchors": ["src/rdo.rs: estimate_rate", "src/rdo_tables.rs: RDO_RATE_TABLE", "src/encoder.rs: encode_tx_block"]}
{"id": "C72", "title": "The search for chroma from luma finds factors that a decoder reads back", "statement": "Whatever the pictures, the search for the factors of prediction from luma ends with factors that a stream can have; no factor from -3 to 3 costs less than the one found, and if the cost falls towards one factor from either side, this factor is found although the search may end early. The mode is offered exactly when a visible block has a factor other than zero, and then coding the factors never panics and a decoder reads the factors with which the prediction was made.", "quantifier": "every cost of every factor of both planes, that is, every content of the block", "why_tests_cant": "Where the search ends depends on how often it succeeded; a mode with two zero factors cannot be coded and makes the writer panic.", "anchors": ["src/rdo.rs: rdo_cfl_alpha", "src/context/partition_unit.rs: CFLSign::from_alpha, CFLParams::from_alpha, write_cfl_alphas"]}
{"id": "C73", "title": "Distortion counts every visible pixel of a block and nothing else", "statement": "Whatever the size of the picture, the chroma sampling and the size and place of a block, the distortion by which modes are compared is taken over exactly those luma pixels of the block, and those chroma pixels coded with it, that belong to the picture; padding never counts, and no visible pixel is left out.", "quantifier": "every frame size, chroma sampling, block size and position", "why_tests_cant": "The edge cases depend on the size of the picture modulo 8, the subsampling and the parity of the position of 4-pixel blocks, whose chroma is coded with a neighbour.", "anchors": ["src/rdo.rs: clip_visible_bsize, compute_distortion, compute_tx_distortion", "src/dist.rs: get_weighted_sse", "src/context/transform_unit.rs: has_chroma", "src/tiling/plane_region.rs: Area::to_rect"]}
{"id": "C74", "title": "Errors are weighted with the importance of the place where they are", "statement": "Whatever the size of the picture, the chroma sampling and the block, collecting the weights of errors never fails an assertion or reads outside of the list of weights, and every pixel that is compared, also in subsampled planes and at the edge of the picture, gets the weight of the 8x8 luma square in which it lies. The kernels of the psychovisual distortion cover every pixel of a block once, each inside of one such square and with its weight.", "quantifier": "every frame size, chroma sampling, block, list of weights and pixel", "why_tests_cant": "Chroma positions are converted to luma units by shifts that depend on the plane; a wrong shift weights errors with the importance of another place, which no output shows.", "anchors": ["src/rdo.rs: sse_wxh, cdef_dist_wxh, distortion_scale", "src/tiling/plane_region.rs: to_frame_block_offset", "src/encoder.rs: CodedFrameData::new"]}
{"id": "C75", "title": "The lookahead hands importance on to the places that predictions come from", "statement": "Whatever the frames, motion vectors and costs of the lookahead, handing importance on from a frame to its reference frame never accesses a block outside of the frame, and every 8x8 block of the reference frame receives from each block exactly the share of its amount that its part of the area of the reference block is. A reference block inside of the frame hands on all of its amount, amounts are never negative and never more than the part of the cost and importance of their block, and blocks that are not cheaper to predict hand nothing on.", "quantifier": "every frame size, list of blocks, motion vector (also out of the frame and negative) and cost", "why_tests_cant": "Four overlapping blocks with signed coordinates and division that rounds towards zero: an error shows only for vectors to the left of or above the frame and only as slightly worse quality.", "anchors": ["src/api/internal.rs: update_block_importances", "src/api/lookahead.rs: IMP_BLOCK_SIZE_IN_MV_UNITS, IMP_BLOCK_AREA_IN_MV_UNITS"]}
