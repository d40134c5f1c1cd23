{
 "claims": [
  {
   "property": "C01",
   "status": "proved",
   "theorems": [
    "Rav1e.Ec.encode_decode",
    "Rav1e.Ec.adaptive_encode_decode"
   ],
   "note": "Against a transcription of the AV1 specification symbol decoder (8.2)."
  },
  {
   "property": "C02",
   "status": "proved",
   "theorems": [
    "Rav1e.Ec.done_exit_ok",
    "Rav1e.Ec.done_not_regardless"
   ],
   "note": "Exit process conformance. The code comment \"regardless of the bits that follow\" is refuted by done_not_regardless."
  },
  {
   "property": "C03",
   "status": "proved",
   "theorems": [
    "Rav1e.Ec.replay_equals_direct",
    "Rav1e.Ec.replay_into",
    "Rav1e.Ec.replay_keeps_fake_bits"
   ],
   "note": "Replay of a recording equals direct coding from any start state. Fake bits are not replayed (witnessed)."
  },
  {
   "property": "C04",
   "status": "proved",
   "theorems": [
    "Rav1e.Ec.tell_agree",
    "Rav1e.Ec.tell_is_size",
    "Rav1e.Ec.fracL_spec",
    "Rav1e.Ec.tell_frac_bounds",
    "Rav1e.Ec.fake_bits_counted_twice"
   ],
   "note": "The three back ends agree; fake bits are counted twice in tell_frac (witnessed)."
  },
  {
   "property": "C05",
   "status": "proved",
   "theorems": [
    "Rav1e.Ec.rollback_exact",
    "Rav1e.Ec.rollback_bytes",
    "Rav1e.Ec.rollback_keeps_fake_bits",
    "Rav1e.Ec.rollback_with_fake"
   ],
   "note": "Any legal nesting of checkpoints."
  },
  {
   "property": "C06",
   "status": "proved",
   "theorems": [
    "Rav1e.Ec.adaptation_preserves_validity",
    "Rav1e.Ec.adaptation_matches_spec",
    "Rav1e.Ec.adaptation_needs_cap",
    "Rav1e.Ec.adaptive_encode_decode"
   ],
   "note": "Counter cap 32 is an invariant; agreement with the specification needs it."
  },
  {
   "property": "C07",
   "status": "proved",
   "theorems": [
    "Rav1e.Ec.golomb_roundtrip",
    "Rav1e.Ec.golomb_self_delimiting",
    "Rav1e.Ec.golomb_limit"
   ],
   "note": "The format itself stops at 20 bits: golomb_limit."
  },
  {
   "property": "C08",
   "status": "proved",
   "theorems": [
    "Rav1e.Ec.syntax_roundtrip",
    "Rav1e.Ec.quniform_roundtrip",
    "Rav1e.Ec.subexp_roundtrip",
    "Rav1e.Ec.signed_subexp_roundtrip",
    "Rav1e.Ec.count_quniform_exact",
    "Rav1e.Ec.count_subexp_exact",
    "Rav1e.Ec.count_signed_subexp_exact"
   ],
   "note": ""
  },
  {
   "property": "C09",
   "status": "proved",
   "theorems": [
    "Rav1e.Ec.header_code",
    "Rav1e.Ec.header_literal",
    "Rav1e.Ec.header_quniform",
    "Rav1e.Ec.header_s_refsubexpfin"
   ],
   "note": ""
  },
  {
   "property": "C40",
   "status": "proved",
   "theorems": [
    "Rav1e.Cdf.cdf_rollback_exact",
    "Rav1e.Cdf.cdf_log_has_room",
    "Rav1e.Cdf.cdf_log_access_in_bounds",
    "Rav1e.Cdf.padding_needed",
    "Rav1e.Cdf.joints_padding_superfluous"
   ],
   "note": "On the real layout of the structure."
  },
  {
   "property": "C45",
   "status": "proved",
   "theorems": [
    "Rav1e.Ec.symbolBits_width",
    "Rav1e.Ec.symbol_bits_exact",
    "Rav1e.Ec.symbol_bits_counter_underflows"
   ],
   "note": "Exact on the encoding writer; underflows on the counting writer (witnessed; no caller does this)."
  },
  {
   "property": "C46",
   "status": "proved",
   "theorems": [
    "Rav1e.Cdf.reset_counts_exact",
    "Rav1e.Cdf.reset_counts_wf"
   ],
   "note": ""
  },
  {
   "property": "C47",
   "status": "proved",
   "theorems": [
    "Rav1e.Cdf.default_cdfs_wellformed",
    "Rav1e.Cdf.default_cdfs_values",
    "Rav1e.Cdf.context_always_wellformed"
   ],
   "note": ""
  },
  {
   "property": "C16",
   "status": "proved",
   "theorems": [
    "Rav1e.Sched.packets_in_order",
    "Rav1e.Sched.decoder_sees_reconstructions"
   ],
   "note": "Valid configurations, fewer than i32::MAX frames (frame_at_limit_hangs shows why)."
  },
  {
   "property": "C17",
   "status": "proved",
   "theorems": [
    "Rav1e.Sched.drain",
    "Rav1e.Sched.receive_outcome"
   ],
   "note": "At most three calls per frame."
  },
  {
   "property": "C18",
   "status": "partial",
   "theorems": [
    "Rav1e.Sched.run_no_crash",
    "Rav1e.Sched.zero_interval_hangs",
    "Rav1e.Sched.frame_at_limit_hangs",
    "Rav1e.Ec.store_no_overflow",
    "Rav1e.Ec.done_digits_fuel"
   ],
   "note": "The whole frame scheduler and the range coder arithmetic; the block-level encoder is not modelled. Needs a positive maximum key frame interval, which Config::new_inner guarantees, and fewer than i32::MAX frames: outside both the code is proved to loop for ever."
  },
  {
   "property": "C19",
   "status": "proved",
   "theorems": [
    "Rav1e.Sched.key_interval",
    "Rav1e.Sched.key_frames_exact"
   ],
   "note": ""
  },
  {
   "property": "C20",
   "status": "proved",
   "theorems": [
    "Rav1e.Sched.requested_is_key",
    "Rav1e.Sched.key_frames_exact"
   ],
   "note": "Exact: key frames are nowhere else."
  },
  {
   "property": "C21",
   "status": "partial",
   "theorems": [
    "Rav1e.Sched.packets_in_order",
    "Rav1e.Sched.t35_travels_partial",
    "Rav1e.Sched.t35_never_invented_or_repeated",
    "Rav1e.Sched.t35_lost_with_reordering"
   ],
   "note": "The opaque value always comes back with its frame. T.35 messages do without reordering; with reordering a packet carries the messages of one frame or none and no frame's messages come twice, but the full claim is false of the code (witness)."
  },
  {
   "property": "C22",
   "status": "proved",
   "theorems": [
    "Rav1e.Sched.decoder_sees_reconstructions"
   ],
   "note": "Conforms and the displayed pictures together: the slot shown holds the reconstruction of the frame of that packet."
  },
  {
   "property": "C23",
   "status": "proved",
   "theorems": [
    "Rav1e.Sched.decoder_sees_reconstructions",
    "Rav1e.Sched.random_access"
   ],
   "note": ""
  },
  {
   "property": "C24",
   "status": "proved",
   "theorems": [
    "Rav1e.Sched.decoder_sees_reconstructions"
   ],
   "note": "Conforms requires that the 6-bit hints give the true distance for each reference."
  },
  {
   "property": "C25",
   "status": "proved",
   "theorems": [
    "Rav1e.Sched.flushed_rejects",
    "Rav1e.Sched.accepted_exactly",
    "Rav1e.Sched.packets_in_order"
   ],
   "note": ""
  },
  {
   "property": "C48",
   "status": "proved",
   "theorems": [
    "Rav1e.Sched.random_access"
   ],
   "note": ""
  },
  {
   "property": "C49",
   "status": "proved",
   "theorems": [
    "Rav1e.Sched.packet_is_temporal_unit"
   ],
   "note": ""
  },
  {
   "property": "C50",
   "status": "proved",
   "theorems": [
    "Rav1e.Sched.packets_determined_by_frames",
    "Rav1e.Sched.drained_packets_equal",
    "Rav1e.Sched.packets_ignore_later_frames"
   ],
   "note": "For the scheduler model: units, order, header fields chosen by the scheduler, references, metadata, opaque values."
  },
  {
   "property": "C26",
   "status": "proved",
   "theorems": [
    "Rav1e.Tile.tiles_cover_pixels",
    "Rav1e.Tile.tiles_inside",
    "Rav1e.Tile.tiles_nonempty",
    "Rav1e.Tile.tile_writes_disjoint",
    "Rav1e.Tile.tiles_cover_blocks",
    "Rav1e.Tile.tile_views_agree"
   ],
   "note": "Every frame size accepted by validate, every requested tile count and every result of the floating point rate limit."
  },
  {
   "property": "C27",
   "status": "partial",
   "theorems": [
    "Rav1e.Tile.tile_exponents_codable",
    "Rav1e.Tile.decoder_tiles_agree",
    "Rav1e.Tile.decoder_log2_agree",
    "Rav1e.Tile.tile_limits",
    "Rav1e.Tile.tile_area_partial",
    "Rav1e.Tile.tile_area_even_partial",
    "Rav1e.Tile.tiling_exists",
    "Rav1e.Tile.panics_iff",
    "Rav1e.Tile.tile_area_can_exceed_limit",
    "Rav1e.Tile.tile_height_not_codable_422",
    "Rav1e.Tile.tile_height_codable_422_partial",
    "Rav1e.Tile.tiles_option_not_reached",
    "Rav1e.Tile.rate_limit_panics"
   ],
   "note": "Count, width and codable exponents hold always. The area limit, the explicit heights of 4:2:2, the tiles option and the absence of panics for extreme frame rates are refuted by witnesses."
  },
  {
   "property": "C10",
   "status": "proved",
   "theorems": [
    "Rav1e.Obu.uleb128_round_trip",
    "Rav1e.Obu.uleb128_shortest",
    "Rav1e.Obu.uleb128_truncates"
   ],
   "note": "For every size below 2^32; uleb128_truncates records that larger sizes are cut."
  },
  {
   "property": "C11",
   "status": "proved",
   "theorems": [
    "Rav1e.Obu.packets_round_trip",
    "Rav1e.Obu.scheduled_packets_round_trip"
   ],
   "note": "Packets shorter than 4 GiB (size fields are cut to 32 bits beyond that); tile contents are arbitrary nonempty byte strings; segmentation may stop the encoder with its own assertion (reported separately from the writer). The 4:2:2 tile-height and film-grain chroma conditions are hypotheses because the code violates the property without them."
  },
  {
   "property": "C12",
   "status": "proved",
   "theorems": [
    "Rav1e.Obu.tile_group_round_trip",
    "Rav1e.Obu.tileFields_spec"
   ],
   "note": ""
  },
  {
   "property": "C13",
   "status": "proved",
   "theorems": [
    "Rav1e.Hdr.configured_sequence_header",
    "Rav1e.Hdr.sequence_header_round_trip",
    "Rav1e.Hdr.sequence_header_written"
   ],
   "note": ""
  },
  {
   "property": "C14",
   "status": "proved",
   "theorems": [
    "Rav1e.Hdr.frame_header_round_trip",
    "Rav1e.Hdr.show_existing_round_trip",
    "Rav1e.Hdr.stream_headers_round_trip",
    "Rav1e.Hdr.scheduled_headers_round_trip",
    "Rav1e.Hdr.film_grain_chroma_desync"
   ],
   "note": "Hypotheses on late decisions (LateOk) are the ranges the encoder computes; conditions on film grain chroma and 4:2:2 tile height are needed."
  },
  {
   "property": "C15",
   "status": "proved",
   "theorems": [
    "Rav1e.Obu.t35Obu_splits",
    "Rav1e.Obu.scheduled_packets_round_trip"
   ],
   "note": ""
  },
  {
   "property": "C32",
   "status": "proved",
   "theorems": [
    "Rav1e.Quant.chooseQi_codable",
    "Rav1e.Quant.chooseQi_late"
   ],
   "note": "From the six quantizer targets on; the targets themselves are arbitrary (log-domain arithmetic is C43)."
  },
  {
   "property": "C33",
   "status": "proved",
   "theorems": [
    "Rav1e.Quant.select_nearest"
   ],
   "note": "Each binary-search answer that is consistent with the table gives the nearest quantizer in the log domain; linearSearch_ok shows such an answer exists."
  },
  {
   "property": "C34",
   "status": "proved",
   "theorems": [
    "Rav1e.Quant.divu_exact"
   ],
   "note": "All nonzero 32-bit divisors and all 32-bit dividends."
  },
  {
   "property": "C35",
   "status": "proved",
   "theorems": [
    "Rav1e.Quant.quantize_eob",
    "Rav1e.Quant.quantize_error",
    "Rav1e.Quant.dequantize_wraps"
   ],
   "note": "Magnitudes below 2^15 (16-bit coefficients) or 2^29 (32-bit). dequantize_wraps shows that the margin of one step in the error half is needed."
  },
  {
   "property": "C39",
   "status": "proved",
   "theorems": [
    "Rav1e.Quant.scan_permutation",
    "Rav1e.Quant.scan_spec",
    "Rav1e.Quant.scan_wht"
   ],
   "note": "All 19 transform sizes and 16 types; the lossless transform type has no table (scan_wht)."
  },
  {
   "property": "C36",
   "status": "proved",
   "theorems": [
    "Rav1e.Ivf.ivf_round_trip",
    "Rav1e.Ivf.mux_bytes",
    "Rav1e.Ivf.truncated_packet",
    "Rav1e.Ivf.wrong_signature",
    "Rav1e.Ivf.ivf_width_truncates"
   ],
   "note": "Fields within the widths of the container; ivf_width_truncates shows what happens beyond."
  },
  {
   "property": "C42",
   "status": "proved",
   "theorems": [
    "Rav1e.Kmeans.kmeans_ok",
    "Rav1e.Kmeans.kmeans_above_data"
   ],
   "note": "kmeans_above_data shows that the margin above negative data is needed."
  },
  {
   "property": "C37",
   "status": "proved",
   "theorems": [
    "Rav1e.Wht.wht_lossless"
   ],
   "note": "Bit depths 8 (16-bit coefficients), 10 and 12 (32-bit)."
  },
  {
   "property": "C29",
   "status": "proved",
   "theorems": [
    "Rav1e.Rate.two_pass_round_trip",
    "Rav1e.Rate.first_pass",
    "Rav1e.Rate.parse_summary",
    "Rav1e.Rate.parse_record"
   ],
   "note": "End to end: the bytes of any finished first pass, passed to a second pass in one of three ways, in any pieces, interleaved with frames; safety and liveness. Needs a key frame and a shown frame, scale sums within i64, fewer than 2^30 calls, and with a finite buffer at most eight more hidden than shown frames in any run."
  },
  {
   "property": "C30",
   "status": "proved",
   "theorems": [
    "Rav1e.Rate.twopass_never_panics",
    "Rav1e.Rate.mixing_panics",
    "Rav1e.Rate.rejected_record_stays",
    "Rav1e.Rate.rejected_summary_stays",
    "Rav1e.Rate.query_changes_mode",
    "Rav1e.Rate.truncated_summary_accepted",
    "Rav1e.Rate.scale_sum_negative"
   ],
   "note": "At most 2^30 calls; sums of scales are unbounded in the model. mixing_panics is the witness that a caller that uses both calls on one encoder can make it panic."
  },
  {
   "property": "C31",
   "status": "proved",
   "theorems": [
    "Rav1e.Rate.reservoir_bounded",
    "Rav1e.Rate.reservoir_level",
    "Rav1e.Rate.reservoir_balance"
   ],
   "note": ""
  },
  {
   "property": "C28",
   "status": "proved",
   "theorems": [
    "Rav1e.Conf.validate_exact",
    "Rav1e.Conf.accepted_iff",
    "Rav1e.Conf.accepted_fits",
    "Rav1e.Conf.accepted_rate_in_range",
    "Rav1e.Conf.accepted_starts",
    "Rav1e.Conf.level_tables",
    "Rav1e.Conf.accepted_level_partial",
    "Rav1e.Conf.level41_too_large",
    "Rav1e.Conf.level_rate_inverted",
    "Rav1e.Conf.depth_not_validated",
    "Rav1e.Conf.accepted_then_panics"
   ],
   "note": "accepted_starts needs a bit depth of 8, 10 or 12 and a frame rate whose tile limit the frame can meet: depth_not_validated and accepted_then_panics are the witnesses that validate does not ensure either."
  },
  {
   "property": "C41",
   "status": "proved",
   "theorems": [
    "Rav1e.Coef.coefficients_roundtrip",
    "Rav1e.Coef.coefficients_roundtrip_bytes",
    "Rav1e.Coef.num_injective",
    "Rav1e.Coef.clipped_eq",
    "Rav1e.Coef.tall_block_misread"
   ],
   "note": "Whole histories of coefficient blocks, skipped blocks and superblock rows of a tile, against the specification reader, down to the bytes of the tile. Magnitudes below 2^20, a codable transform type and an exact end of block (quantize_eob). tall_block_misread is the witness that transforms of 16x64 and 64x16, which the encoder does not choose, have to be left out."
  },
  {
   "property": "C44",
   "status": "proved",
   "theorems": [
    "Rav1e.Chan.channel_delivers_direct",
    "Rav1e.Chan.no_deadlock",
    "Rav1e.Chan.worker_never_panics",
    "Rav1e.Chan.worker_terminates",
    "Rav1e.Chan.hang_up_panics",
    "Rav1e.Chan.channel_still_picture_unchecked",
    "Rav1e.Chan.empty_item_leaks_parameters"
   ],
   "note": "Single pass channel with one slot: every schedule. The receiver is kept until the end, every item has a frame, and the stream is not a still picture: the findings are the witnesses that the code needs each of the three."
  },
  {
   "property": "C52",
   "status": "proved",
   "theorems": [
    "Rav1e.Cdef.filterTile_eq_decoder",
    "Rav1e.Cdef.findDir_eq",
    "Rav1e.Cdef.findDir_no_overflow",
    "Rav1e.Cdef.filter_no_overflow"
   ],
   "note": "All frame sizes that are multiples of 8 (the planes are aligned to that), 4:0:0 to 4:4:4, 8, 10 and 12 bits. The hypothesis Same says what the decoder has read; the Rust functions, not the assembly."
  },
  {
   "property": "C38",
   "status": "proved",
   "theorems": [
    "Rav1e.Cdef.filterTile_range",
    "Rav1e.Deblock.deblockPlane_range",
    "Rav1e.Lrf.filterPlane_range",
    "Rav1e.Mc.compensate_range",
    "Rav1e.Intra.predictTx_eq_decoder",
    "Rav1e.Itx.inverseTransformAdd_range"
   ],
   "note": "CDEF, deblocking, restoration, inter and intra prediction, and the pixels after the inverse transform. The Rust functions, not the assembly."
  },
  {
   "property": "C56",
   "status": "proved",
   "theorems": [
    "Rav1e.Mc.compensate_eq_decoder",
    "Rav1e.Mc.compensate_scratch",
    "Rav1e.Mc.sharp_differs"
   ],
   "note": "All block sizes of the encoder, samplings and bit depths; regular, smooth and bilinear filters. References have the size of the frame and their borders are padded (Padded: the pad function is in v_frame, an external crate). sharp_differs is the witness that the sharp filter, which the encoder never selects, has to be left out. The Rust functions, not the assembly."
  },
  {
   "property": "C55",
   "status": "proved",
   "theorems": [
    "Rav1e.Lrf.filterPlane_eq_decoder",
    "Rav1e.Lrf.setup_same",
    "Rav1e.Lrf.restore_eq_decoder",
    "Rav1e.Lrf.solve_ok",
    "Rav1e.Lrf.no_cdef_differs",
    "Rav1e.Lrf.wiener_differs"
   ],
   "note": "All frame sizes, samplings and bit depths. CDEF has to be on: no_cdef_differs is the witness that without it encoder and decoder differ. The Rust functions, not the assembly; the floating-point statistics of sgrproj_solve are any values."
  },
  {
   "property": "C53",
   "status": "proved",
   "theorems": [
    "Rav1e.Deblock.deblockPlane_eq_decoder",
    "Rav1e.Deblock.deblockFrame_eq_decoder"
   ],
   "note": "All frame sizes, samplings and bit depths. The hypothesis Same says what the decoder has read (blocks, transform sizes, skip flags, levels; sharpness and deltas are constants of the encoder)."
  },
  {
   "property": "C54",
   "status": "proved",
   "theorems": [
    "Rav1e.Deblock.optimize_spec",
    "Rav1e.Deblock.planeLevels_range",
    "Rav1e.Deblock.fast_level_range",
    "Rav1e.Deblock.vLines_sizes",
    "Rav1e.Deblock.hLines_sizes_differ"
   ],
   "note": "hLines_sizes_differ is a finding: for horizontal edges the lines counted have the filter size of the vertical direction, so that the level is the best for other lines than those that are filtered."
  },
  {
   "property": "C51",
   "status": "proved",
   "theorems": [
    "Rav1e.Chan.Gop.parallel_delivers",
    "Rav1e.Chan.Gop.parallel_complete",
    "Rav1e.Chan.Gop.parallel_no_deadlock",
    "Rav1e.Chan.Gop.parallel_never_panics",
    "Rav1e.Chan.Gop.parallel_terminates",
    "Rav1e.Chan.Gop.one_slot_never_ends",
    "Rav1e.Chan.Gop.one_slot_blocks",
    "Rav1e.Chan.Gop.parameters_dropped",
    "Rav1e.Chan.Gop.empty_item_panics"
   ],
   "note": "Every schedule. Every item has a frame, no still picture. Assumes that the thread pool has a thread for every task; that the pool is large enough is not modelled. one_slot_never_ends proves the deadlock of new_by_gop_channel(1) for every schedule."
  },
  {
   "property": "C57",
   "status": "proved",
   "theorems": [
    "Rav1e.Intra.predictTx_eq_decoder",
    "Rav1e.Intra.cfl_eq_decoder"
   ],
   "note": "All modes of the bitstream that the encoder uses (no filter intra, palette or intra block copy), all angles, sizes, positions, samplings and bit depths. Agree says that encoder and decoder see the same frame; that its availability fields hold is C58. The Rust functions, not the assembly."
  },
  {
   "property": "C58",
   "status": "proved",
   "theorems": [
    "Rav1e.Intra.predictTx_superblock",
    "Rav1e.Intra.luma_sites",
    "Rav1e.Intra.chroma_sites",
    "Rav1e.Intra.smooth_eq_decoder"
   ],
   "note": "For every partition tree that the encoder can choose (64x64 superblocks, no vertical splits in 4:2:2) and every transform block of it. The events of the tree are the decoding order of sections 5.11.4, 5.11.5 and 5.11.34 of the specification. smooth_eq_decoder has as hypothesis that the neighbours have been coded. The partition search and trial predictions of rdo.rs are not modelled."
  },
  {
   "property": "C59",
   "status": "proved",
   "theorems": [
    "Rav1e.Itx.invTxfm_eq_decoder",
    "Rav1e.Itx.inverseTransformAdd_eq_decoder",
    "Rav1e.Itx.block_eq_decoder",
    "Rav1e.Itx.inverseTransformAdd_range",
    "Rav1e.Itx.nonconforming_differs",
    "Rav1e.Itx.nonconforming_panics",
    "Rav1e.Itx.unclamped_differs"
   ],
   "note": "All sizes, types and bit depths. Dequantized values have to fit bd + 8 bits (unclamped_differs, dequantize_wraps) and at bit depth 12 the rows have to meet the requirements of bitstream conformance (nonconforming_differs, nonconforming_panics); at 8 and 10 bits no such hypothesis is needed. The lossless transform is C37. The Rust functions, not the assembly."
  },
  {
   "property": "C60",
   "status": "proved",
   "theorems": [
    "Rav1e.Mvref.mvrefs_decoder",
    "Rav1e.Mvref.drl_decoder",
    "Rav1e.Mvref.has_tr_decoded",
    "Rav1e.Mvref.weight_lt"
   ],
   "note": "For every tile of 64x64 superblocks, every partition tree (none, horizontal, vertical, split) and every block. Rel says that the encoder holds for decoded positions what the decoder stored there, with motion vectors in quarters of a pixel; rel_envOf shows that every state of the decoder is met. No global motion and no motion field, as the frame headers say."
  },
  {
   "property": "C61",
   "status": "proved",
   "theorems": [
    "Rav1e.Mvref.motion_decoder",
    "Rav1e.Mvref.topdown_says",
    "Rav1e.Mvref.rdo_says",
    "Rav1e.Mvref.tile_motion",
    "Rav1e.Mvref.tile_vectors_valid",
    "Rav1e.Mvref.remap_far"
   ],
   "note": "For every tile of 64x64 superblocks, every partition and every block; tile_motion reads all blocks of a tile, each with the stack the decoder derives from the blocks it has read. Hypothesis NewsOk: a new vector is valid, in quarters of a pixel and within dmv_in_range of its prediction. The encoder checks the last when the mode is decided, but not after fitting the mode to another stack; remap_far shows that a vector can then be too far away, and writing it panics."
  },
  {
   "property": "C62",
   "status": "proved",
   "theorems": [
    "Rav1e.Block.blocks_decoder",
    "Rav1e.Block.tile_rt",
    "Rav1e.Block.block_rt",
    "Rav1e.Block.partition_rt"
   ],
   "note": "Symbols, distributions and contexts of partition, segment, skip flag, is_inter, reference frames, luma and chroma modes, angles, CfL, palette and filter-intra flags and motion, for every tile of 64x64 superblocks. Two decoders cannot read the same symbols differently, so contexts are part of the claim: a symbol coded with another context is not readable in the specification. EntryOk says what the mode decision has to deliver (modes and angles in range, references that exist, NewsOk of C61). Transform sizes (C63) and coefficients (C41) that follow a block, the CDEF index and loop restoration units in between are not part of this stream."
  },
  {
   "property": "C43",
   "status": "partial",
   "theorems": [
    "Rav1e.LogExp.blog64_accurate",
    "Rav1e.LogExp.blog32_accurate",
    "Rav1e.LogExp.blog64_strictMono",
    "Rav1e.LogExp.bexp64_accurate_partial",
    "Rav1e.LogExp.bexp64_clamped",
    "Rav1e.LogExp.round_trip_partial",
    "Rav1e.LogExp.round_trip_fails",
    "Rav1e.LogExp.q57ToQ24_near",
    "Rav1e.LogExp.q24ToQ57_exact_partial",
    "Rav1e.LogExp.bexpQ24_accurate_partial",
    "Rav1e.LogExp.bexpQ24_overflows",
    "Rav1e.Seg.blog32Q11_near"
   ],
   "note": "Logarithms (the polynomial for scores included) are accurate for every argument, and strictly increasing up to 2^48. The exponential is accurate except for integer parts above 30 with a fraction above 127/128, where a 32-bit sum can overflow. The round trip holds up to 2^49 outside the last 128th below powers of two from 2^31 on; round_trip_fails shows that the unrestricted claim is false of the code."
  },
  {
   "property": "C63",
   "status": "proved",
   "theorems": [
    "Rav1e.TxSize.tx_sizes_decoder",
    "Rav1e.TxSize.tx_sizes_silent",
    "Rav1e.TxSize.rows_rt",
    "Rav1e.TxSize.block_rt",
    "Rav1e.TxSize.tile_rows"
   ],
   "note": "For every tile of 64x64 superblocks, every partition tree and every choice among the sizes that rdo_tx_size_type offers (the costs that decide are not modelled). The stream holds the symbols of transform sizes only; is_inter and skip, on which they depend, are read back by C62. Chroma transform sizes follow from the luma block and are not coded."
  },
  {
   "property": "C64",
   "status": "proved",
   "theorems": [
    "Rav1e.Resid.residual_decoder",
    "Rav1e.Resid.residual_decoder_bytes",
    "Rav1e.Resid.tile_rt",
    "Rav1e.Resid.block_rt",
    "Rav1e.Resid.write_ok",
    "Rav1e.Resid.inter_type_misread"
   ],
   "note": "For every tile of 64x64 superblocks of at most 1024 units of width, every partition tree and chroma sampling. The decoder knows the modes and skip flags (C62) and reads the transform sizes (C63). CoefsOk says what the quantizer delivers (C24, C25, C35). Chosen: types among those that rdo_tx_type_decision offers, so DCT for inter blocks (inter_type_misread shows that another type would be misread), and no block higher than wide in 4:2:2. The stream holds the symbols of the residual only."
  },
  {
   "property": "C65",
   "status": "proved",
   "theorems": [
    "Rav1e.LoopSyn.side_information_roundtrip",
    "Rav1e.LoopSyn.side_information_bytes",
    "Rav1e.LoopSyn.tile_units_ok",
    "Rav1e.LoopSyn.sequence_units_ok",
    "Rav1e.LoopSyn.unit_rt"
   ],
   "note": "For every tile of every frame: tile_units_ok shows that the units that the encoder sets up meet the hypotheses CfgOk for all sizes, samplings, tilings and quantizers. The blocks are any elements that the block syntax of the decoder reads (accepts), which C62 to C64 supply; what rdo_loop_decision decides is any filter and index that can be coded (RdoOk, FilterOk; Lrf.solve_ok for the filters that are searched). Intra block copy is off, as always in rav1e."
  },
  {
   "property": "C66",
   "status": "proved",
   "theorems": [
    "Rav1e.Whole.tile_decoder",
    "Rav1e.Whole.tile_step",
    "Rav1e.Whole.node_step",
    "Rav1e.Whole.block_step",
    "Rav1e.Whole.on_rt"
   ],
   "note": "Combines C62, C63 and C64 in one list of symbols, with the decoder of Whole.Spec that reads modes, then transform sizes, then coefficients of each block inside decode_partition. Hypotheses as there: the modes can be coded (Block.encodeTile gives a result), and what is decided for every block is possible (Decided: EntryOk, Chosen and CoefsOk). CDEF indices, restoration units and delta quantizer symbols are left out; C65 adds the first two around any block syntax."
  },
  {
   "property": "C67",
   "status": "partial",
   "theorems": [
    "Rav1e.Dist.kernel_accurate",
    "Rav1e.Dist.kernel_8bit_partial",
    "Rav1e.Dist.kernel_10bit_partial",
    "Rav1e.Dist.kernel_self",
    "Rav1e.Dist.kernel_differ",
    "Rav1e.Dist.kernel_one",
    "Rav1e.Dist.kernel_12bit_wraps",
    "Rav1e.Dist.variance_eq",
    "Rav1e.Dist.activity_scale"
   ],
   "note": "Proved for all bit depths: no intermediate overflow, the exact squared error, the accuracy of the 64-bit result, and everything about the activity weights. Proved for 8 and 10 bits: the result fits in 32 bits, so the kernel returns it. False for 12 bits, proved by kernel_12bit_wraps: the conversion to 32 bits wraps, and of two approximations the one that is worse in every pixel gets the smaller distortion. kernel_one: a single pixel that is off by one may have distortion 0. The scalar code is modelled, not its SIMD variants."
  },
  {
   "property": "C68",
   "status": "partial",
   "theorems": [
    "Rav1e.Seg.fresh_total",
    "Rav1e.Seg.header_ok",
    "Rav1e.Seg.not_lossless",
    "Rav1e.Seg.panics_iff",
    "Rav1e.Seg.no_panic_partial",
    "Rav1e.Seg.normalise_centered",
    "Rav1e.Seg.later_panics",
    "Rav1e.Seg.segment0_lossless",
    "Rav1e.Seg.threshold_wraps"
   ],
   "note": "Proved without restriction: frames that make segments do not panic; headers; no block that codes its segment is lossless. Frames that inherit segments: panics_iff says exactly when the assertion of segmentation_optimize fails, no_panic_partial that it does not after normalised scores if factor and scores are at least 1/64, later_panics that it can otherwise. segment0_lossless: the segment of skipped blocks may have index 0. threshold_wraps: the cast of a delta to i8 puts thresholds out of order; not_lossless holds nevertheless."
  },
  {
   "property": "C69",
   "status": "proved",
   "theorems": [
    "Rav1e.Metric.sad_eq",
    "Rav1e.Metric.satd_eq",
    "Rav1e.Metric.satd_bounds",
    "Rav1e.Metric.satd_zero_iff",
    "Rav1e.Metric.satd_edge_loses",
    "Rav1e.Metric.weighted_accurate",
    "Rav1e.Metric.weighted_one",
    "Rav1e.Metric.weighted_zero_iff"
   ],
   "note": "The scalar code, not its SIMD variants. Blocks whose smaller side is below 4 or between 5 and 7 are not modelled for get_satd. satd_edge_loses: at an edge that the transform squares do not cover, differences can be rounded away, so that the restriction of satd_zero_iff is needed. weighted_one and weighted_zero_iff are for sizes that are multiples of 4, as the code leaves out incomplete 4x4 squares (see C73)."
  },
  {
   "property": "C70",
   "status": "proved",
   "theorems": [
    "Rav1e.Search.limits_ok",
    "Rav1e.Search.cand_in",
    "Rav1e.Search.final_search",
    "Rav1e.Search.final_codable",
    "Rav1e.Search.extensive_search",
    "Rav1e.Search.refine_search",
    "Rav1e.Search.refine_after_pass",
    "Rav1e.Search.stored_valid",
    "Rav1e.Search.stored_edge",
    "Rav1e.Search.five_fractional",
    "Rav1e.Search.umh_asymmetric"
   ],
   "note": "Differences of blocks are an arbitrary 32-bit function of the vector (C69 is about how they are computed); which earlier vectors are sampled and the order of passes are not modelled. final_codable assumes that stored vectors are ones a stream can have, which holds for every result of the pass at full resolution (stored_valid); stored_edge shows that the quarter-resolution pass can store one that is not. Two defects of the extensive search: five_fractional (the 5x5 search steps in eighths of a pixel, but blocks are read at whole pixels) and umh_asymmetric (a sign is missing in the pattern)."
  },
  {
   "property": "C71",
   "status": "proved",
   "theorems": [
    "Rav1e.RateEst.estimate_total",
    "Rav1e.RateEst.estimate_at_bin",
    "Rav1e.RateEst.estimate_between",
    "Rav1e.RateEst.estimate_beyond",
    "Rav1e.RateEst.estimate_mono",
    "Rav1e.RateEst.estimate_falls",
    "Rav1e.RateEst.txDist_exact",
    "Rav1e.RateEst.txDist_overflows"
   ],
   "note": "The table is the one of rdo_tables.rs, transcribed by a script. estimate_falls shows a consequence of the table rather than of the code: bins without data hold 99999, and where only the last bin has data the estimate falls from 99999 to 0 as the distortion grows, so that the hypothesis of estimate_mono is needed. txDist_overflows: beyond 46340 the 32-bit square always overflows; which pictures have such coefficients (64-point transforms of more than 8 bits are the candidates, as most of their coefficients are dropped) is not modelled."
  },
  {
   "property": "C72",
   "status": "proved",
   "theorems": [
    "Rav1e.CflSearch.alpha_local",
    "Rav1e.CflSearch.alpha_best",
    "Rav1e.CflSearch.alpha_missed",
    "Rav1e.CflSearch.params_decoder"
   ],
   "note": "The cost of a factor is an arbitrary function (prediction is C57, squared error C69). alpha_missed shows why a condition on the cost is needed: a better factor behind three that are no better is missed, which costs bits but makes no stream wrong. params_decoder uses the writer and the reader of C62."
  },
  {
   "property": "C73",
   "status": "partial",
   "theorems": [
    "Rav1e.Visible.luma_exact",
    "Rav1e.Visible.chroma_exact_partial",
    "Rav1e.Visible.chroma_sound",
    "Rav1e.Visible.chroma_ignored",
    "Rav1e.Visible.sse_edge_ignored",
    "Rav1e.Visible.sse_edge_example"
   ],
   "note": "Proved: the rectangle given to the distortion functions is exact for luma, never contains padding, and is exact for chroma of blocks with a visible luma pixel. False in two cases. chroma_ignored: sizes are rounded up to 8, so a 4-pixel block beyond the edge is coded, and with it visible chroma that does not count. sse_edge_ignored: inside of the rectangle the squared error (chroma, and luma when tuned for PSNR) leaves out 4x4 squares that the edge of the picture cuts. Both make mode decisions worse, no stream wrong."
  },
  {
   "property": "C74",
   "status": "proved",
   "theorems": [
    "Rav1e.Visible.luma_weights",
    "Rav1e.Visible.chroma_weights",
    "Rav1e.Visible.psychovisual_weights",
    "Rav1e.Visible.buffer_fits"
   ],
   "note": "For the rectangles that compute_distortion compares (C73), with temporal RDO; without it all weights are one. The flat buffer of weights with its stride is modelled as a list of rows, which buffer_fits justifies. The scales themselves are arbitrary (C67 is about the activity part)."
  },
  {
   "property": "C75",
   "status": "proved",
   "theorems": [
    "Rav1e.Splat.importance_by_area",
    "Rav1e.Splat.nothing_lost",
    "Rav1e.Splat.amount_bounds",
    "Rav1e.Splat.importance_nonneg"
   ],
   "note": "Amounts are rational numbers; the code keeps them in f32, and its rounding is not modelled. The costs of prediction are arbitrary numbers (C69 is about how they are computed)."
  }
 ]
}
