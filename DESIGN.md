# Formal model of rav1e in Lean 4

## Method

* The model lives in `lean/Verif/`. Every definition cites the `/repo` file and
  lines it models. Model files (`Model`), specification files (`Spec`), helper
  lemmas (`Lemmas`) and property theorems (`Theorems`) are kept apart per area.
* Machine integers are `Nat`/`Int`. Where the Rust code truncates (`as u16`,
  `<<` on a `u32`) the model truncates explicitly; where the Rust code would
  panic on overflow in debug builds and wrap in release builds, a separate
  theorem shows the operation stays in range.
* Panics (`unwrap`, `assert!`, slice indexing) are explicit error values in the
  model (`Except`/`Option`), never totalised away.
* The scene-cut detector, the RDO search and all floating-point code are
  parameters (oracles): theorems quantify over every behaviour they may have.
* "Spec" means the AV1 bitstream specification (version 1.0.0 with errata 1);
  decoders and parsers in `Spec` files are transcribed from it, not from rav1e.

## Trusted base

* Lean 4.33.0's kernel; the axioms used by the theorems are at most `propext`,
  `Classical.choice` and `Quot.sound`. No axioms are added; there is no
  `sorry`, `native_decide` or `bv_decide`.
* The faithfulness of the transcription of the cited Rust lines.
* The faithfulness of the transcription of the AV1 specification processes.

## Plan per property

* C01, C02 range coder: concrete encoder state (precarry digits, window, count)
  refined to an unbounded-precision interval coder; spec decoder (8.2) run on
  the output bytes; induction over the symbol sequence with nested intervals.
* C03-C05 writer back ends: three back ends as state machines over the same
  `store` operation; simulation relation by induction over the operations.
* C06 CDF adaptation: invariant by induction and equality with 8.2.6.
* C07-C09 codes: bit-list writers and spec readers; round-trip with arbitrary
  continuation.
* C10-C12, C15 framing: byte-list writers and spec parsers.
* C13, C14 headers: the writer is a function to a bit list, the parser is a
  transcription of the spec syntax tables; round-trip with continuation.
* C16-C25 scheduler: `ContextInner` as a state machine with `send`, `flush` and
  `receive` steps, oracle for scene cuts; a global invariant by induction over
  all call sequences.
* C26, C27 tiling: arithmetic of `from_target_tiles`; the float rate limit is a
  parameter. Cover/disjointness over all sizes.
* C28 validation: decision function and its soundness.
* C29-C31 rate control: byte-level serialisation; state machine of the second
  pass; reservoir arithmetic.
* C32, C33 quantizer choice: tables transcribed; nearest-entry theorem from
  monotonicity of the tables.
* C34, C35 quantizer: exact division theorem; per-coefficient error bounds.
* C36 IVF: byte-level round-trip.
* C37 WHT: integer lifting inverse.
* C38 filters: range theorems over all inputs.
* C39 scan orders: whole finite tables checked in the kernel.
* C40 CDF log: memory model with overlapping entries, induction over the log.
* C41 coefficient coding: token-level round-trip.
* C42 utilities.
* C43 logarithm and exponential: the shift-and-add iterations over the reals. The table entries are compared with partial sums of the
  series of `atanh` (`LogExp.Table`); the logarithm keeps `z + 2 atanh (y/x)` up to rounding (`Log`), the exponential keeps `log w` plus the remainder
  up to the fixed gain of the iterations (`Exp`); that nothing overflows next to a power of two is decided by a tree over the signs (`topOk`).
* C44 channel API: interleaving semantics of application and encoder thread over FIFO queues; the worker's
  run is a history of the direct API, so that C50 applies.
* C51 parallel channel: one state with the five kinds of threads of `by_gop.rs` and an arbitrary schedule; an
  invariant that ties the sub-groups to the specification's groups, and each worker to the invariant of C44; deadlock
  freedom by looking at which thread can be blocked on which; termination by counting the steps of each thread.
* C52 CDEF: planes as memory, the loops over superblocks, blocks and planes with the edge flags they keep, padding as
  writes to a temporary block; section 7.15 of the specification pixel by pixel; every write has the specified value and
  every pixel is written. The two orders of taps are permutations of each other; missing pixels contribute nothing.
* C53 deblocking: planes as functions of row and column; each edge filter reads and writes a small window, so that
  filters with disjoint windows commute (`run_sort`) and the interleaved order of the encoder can be sorted into the two
  passes of section 7.14 of the specification. The kernels are compared filter by filter.
* C54 deblocking levels: the tally up to a level is the squared error of the filtered line minus a constant, by cases on
  where the level meets the thresholds.
* C55 loop restoration: integral images as wrapping sums, box sums as their corner differences; the row buffers of the
  self-guided filter rotate, and hold the specified values when they are read; section 7.17 of the specification pixel by
  pixel; every pixel of every stripe and unit is written with its value. Unit sizes from `RestorationState::new`.
* C56 inter prediction: the reference plane with its borders, the two filter passes with their 16-bit intermediates, the bias
  of compound prediction; sections 7.11.3.1 to 7.11.3.4 and 5.11.33 of the specification pixel by pixel; moving the corner of
  the source into the plane is harmless because the borders are wide enough; bounds on sums of positive and negative taps.
* C57 intra prediction: the edge of a block is read off the frame as in section 7.11.2 of the specification (`intraEdges_ok`), then each
  predictor is compared pixel by pixel, directional ones zone by zone after the edge filter and the upsampling; chroma from luma
  with the clipped luma block (7.11.5). Which neighbours a decoder has is a hypothesis here (`Agree.topRight`, `Agree.bottomLeft`).
* C58 availability: `OrderSpec` decodes a partition tree block by block and marks what has been decoded (sections 5.11.4, 5.11.5, 5.11.34
  and 7.11.2 of the specification); by induction on the tree the bit tables and the coordinate tests of `recon_intra.rs` say what is marked
  (`superblock_ok`), which discharges all of `Agree` (`predictTx_superblock`); `luma_sites` and `chroma_sites` compare the loops over transform
  blocks; `smooth_eq_decoder` compares the grids of block modes after any history.
* C59 inverse transforms: `Stages` holds the butterfly networks of `inverse.rs`, transcribed stage by stage and polymorphic in the
  operations; `Spec` is section 7.13 (steps `B` and `H`, permutations). Both are run on symbolic trees, whose equality the kernel
  decides (`Sym`); `Sound` evaluates the trees in both arithmetics: the wrapping sum of `half_btf` is exact when the result is
  representable. Rows, columns, shifts, clamps and mirrored types follow in `Theorems`; `Block` puts dequantization in front.
* C60 motion vector prediction: `Spec` is section 7.10.2 of the specification with the decoding order of 5.11.4; `Order` shows what has
  been decoded around every block of a tile (and that `has_tr` says so for the block above and to the right); `Stack` and `Sort` treat the
  stack as keys with weights, so that weights may be added in another order and one stable sort equals two bubble sorts; `Rows`, `Area`,
  `Cols` show that the steps of the encoder's scans add what the decoder's add (columns by transposition); `Extra` is the extra search.
* C61 motion syntax: `SynSpec` is the reading side (sections 5.11.23 to 5.11.32); `Comp` inverts the coding of a difference of vectors, `Motion`
  that of modes and candidate indices for every mode; `Even` shows what the stack holds; `Coded` joins them with C60, block by block and for a
  whole tile. Forced hypothesis: new vectors lie within `dmv_in_range` of the final prediction (`remap_far`: nothing checks this after the mode
  has been fitted to a new stack).
* C62 block syntax: `Block.Spec` reads a tile as in sections 5.11.2 to 5.11.27 with the contexts of 8.3.2, from what has been read; a symbol is a pair
  of a distribution and a value, and reading fails if the distribution is another one. `Block.Ctx` compares the contexts under the invariant that the
  encoder's blocks show what the decoder has stored at decoded places (elsewhere anything), `Rt` the elements, `Blk` a block (the stack by C60, motion
  by C61), `Ctx2` the partition contexts, which the encoder keeps as codes of sizes and the decoder derives from the blocks, `Tile` the induction over
  trees, rows and the tile; `Coded` adds that the entries are what was decided.
* C63 transform sizes: `TxSize.Spec` reads the sizes as in sections 5.11.15 to 5.11.17 with the contexts of 8.3.2 from `InterTxSizes`, `TxSizes` and the
  blocks decoded so far; the encoder keeps one array above and one to the left. `Front` describes the order of the blocks of a tile by a frontier, the first
  undecoded row of each column and column of each row; `Rt` has the invariant that the arrays hold the sizes just behind the frontier; `Blk` reads one block
  with all shapes of splits, `Tile` the tile.
* C64 residual: `Resid.Spec` walks over the transform blocks of a block as sections 5.11.34 to 5.11.36 do (`residual`, `transform_block`, `transform_tree`,
  `get_tx_size`), derives transform types as 5.11.47 and reads coefficients with the reader of C41; `Resid.Model` has the loops of `write_tx_blocks` and `write_tx_tree`.
  Both enumerations are shown to be the same list (`write_ok`), each call is shown to meet the hypotheses of C41 (`luma_fits`, `chroma_fits`), and
  induction over blocks, rows of superblocks and the tile gives `residual_decoder`, which uses the sizes that C63 reads.
* C65 CDEF indices and restoration units: `LoopSyn.Spec` has `decode_tile` with `read_lr`, `read_lr_unit` and `read_cdef` (sections 5.11.2, 5.11.56 to 5.11.58) around
  any block syntax; `LoopSyn.Model` has `encode_tile` with its queue, `check_lf_queue`, `write_lrf` and the two recorders of a superblock. `Unit` reads back a unit,
  `Blocks` the recorders of a superblock, `Geo` says which superblock is the first of which units, `Decide` that a decision does not change what has been written,
  `Flush` compares the writing of one superblock with `read_lr` and the block syntax, `Queue` shows that the queue only delays and is empty in the end, `Setup` that the
  geometry of every tile of every frame is as assumed.
* C66 a whole tile: `Whole.Spec` has `decode_block`, `decode_partition` and `decode_tile` over one list of symbols of three kinds; the readers of C62, C63 and C64 run one
  after the other on it, and each only sees the symbols of its kind at the start, so that one symbol too many or too few makes the decoder fail. `Whole.Model` has the
  partition tree with all that is written for a block. One invariant (`Inv`) joins those of the three parts; it is carried through blocks (`block_step`), squares
  (`node_step`), rows and the tile (`tile_step`).
* C67 distortion: `Dist.Spec` has squared error, variance and the documented boost as a real function; `Dist.Model` the fixed-point code. `Rsqrt` bounds the error of the inverse
  square root, by a table for all 49152 normalised arguments and a shift lemma for the others; `Boost` the rounding, `Sums` and `Args` the sums, divisors and variances;
  `Ten` shows for 10 bits that squared error and boost are not large together (Cauchy-Schwarz, and a split by the product of the variances). The property is false for
  12 bits, so the status is partial.
* C68 segments: `Seg.Model` has the choice of segments from scores (logarithm, clustering, exponential, table search), the state that frames inherit, and its use for a block; `Seg.Spec`
  the quantizer index and the range of the header in the AV1 specification. `Blog` bounds the error of the polynomial for logarithms (a kernel check of its 32768 arguments), `Delta` shows
  that quantizer indices fall with the centroid and never reach 0, `First` bounds the lowest centroid by the mean, `Norm` that normalised scores have a mean near 1. `Theorems` proves an
  invariant of all states reachable through any history of frames (`Reach`). The result of `partition_point` is any index that fits (`IsPoint`), as thresholds may be out of order.
* C69 metrics: `Metric.Spec` has sums of absolute and squared differences and the Hadamard matrix by its definition; `Metric.Model` the loops and butterflies in place. `Had` proves by an
  invariant of the loop with strides that two passes give all coefficients, and by orthogonality of the matrix the bounds of their sum from both sides; `Theorems` puts squares, edges,
  weights and rounding together.
* C70 motion search: `Search.Model` has the candidates, patterns and loops of `me.rs` over an arbitrary function from vectors to differences; the loops end because the cost falls, which is the
  measure of their recursion. `Search.Spec` says what is measured and what a local minimum is; `Lemmas` and `Stages` prove for each stage that it keeps "nothing found or measured", that no
  candidate is better, and which multiples survive; `Passes` that limits of one resolution fit the refinement at the next. Defects found: the 5x5 search of the extensive search steps in eighths of a pixel while blocks are read at whole pixels (`five_fractional`),
  and the uneven hexagon lacks a sign (`umh_asymmetric`); both make results worse than intended, neither makes a stream wrong.
* C71 estimated rates: `RateEst.Table` is the table of `rdo_tables.rs`, `Model` the interpolation; shape and bounds of the table are checked by the kernel, all else holds for any values
  in these bounds and is proved from bounds of the truncated slope. `Spec` has the entry and the straight line. `estimate_falls`: bins without data hold 99999, so that an estimate can fall from 99999 to 0.
  `RateEst.Dist` has the distortion of coefficients; it overflows exactly if one is off by more than 46340 (`txDist_overflows`), and is exact up to rounding otherwise.
* C72 chroma from luma: `CflSearch.Model` has the loop over factors with an arbitrary cost; invariant: the best factor up to the current one has been found, and with a cost that falls towards a
  factor each step on the way succeeds, so that the counter does not end the loop. Coding uses the writer and reader of `Block`.
* C73 visible part: `Visible.Model` has the rectangles of `compute_distortion`, `Visible.Spec` says pixel by pixel what belongs to a block and to the picture; each coordinate is compared by linear
  arithmetic. Full statement: the rectangle is exact for every block; false for the chroma of blocks without visible luma (`chroma_ignored`), hence `chroma_exact_partial`.
  `Visible.Edge` shows with the model of C69 that squared errors leave out 4x4 squares that are cut by the edge of the picture (`sse_edge_ignored`).
* C74 weights: `Visible.Weights` has the conversion from pixels of a plane to 8x8 luma squares and the collection of weights; with the rectangles of C73 each coordinate is linear arithmetic.
* C75 importance: `Splat.Model` has the amounts that blocks hand on and the four blocks that share them, with `f32` as rational numbers; `Splat.Spec` measures overlaps of squares. By induction over the blocks; the overlap of intervals is linear arithmetic.
* C45-C49: read off the invariants of the scheduler, configuration and tiling models.
* C50 determinism: the scheduler invariant says exactly which units each packet holds, as a
  function of the accepted frames; two histories with the same frames are compared through it.

## Modelled code

| Modules | Code | What is abstracted |
| --- | --- | --- |
| `Ec` | `ec.rs`: `WriterBase`, `WriterEncoder`, `WriterCounter`, `WriterRecorder`, checkpoint, rollback, replay, `update_cdf`, all non-adaptive codes; the bit writer codes of `header.rs` | the buffers are lists; `store` is given the 16-bit fields the callers compute |
| `Cdf` | `context/cdf_context.rs` (layout, log, rollback, reset), the default tables of `token_cdfs.rs` and `entropymode.rs` | memory is one array of 16-bit words in the declared order |
| `Coef` | `write_coeffs_lv_map` and everything it calls, the coefficient contexts and their resets (`context/block_unit.rs`, `transform_unit.rs`, `partition_unit.rs`) | the writer is the list of its symbols; coefficients are integers |
| `Sched` | `api/internal.rs` (`ContextInner`), frame setup in `encoder.rs`, `Context::send_frame`, `flush`, `receive_packet` | pictures are identified by what they were made from; scene detection and rate control readiness are oracles; rate-distortion and motion search are left out |
| `Chan` | `api/channel/mod.rs` (`new_channel_internal` with one pass), `FrameSender`, `PacketReceiver` of `api/channel/data.rs` | `crossbeam` queues are lists; a blocked step cannot be taken; one loop turn is one step |
| `Chan.Gop*` | `api/channel/by_gop.rs` | the scene detector is an arbitrary function of the number of the question; a sub-group goes to the worker as a list of frames; the pool has a thread for every task |
| `Tile` | `tiling/tiler.rs` and the tile iterators | the floating point rate limit is any value; `Spec.rateLog2` is its exact rational counterpart |
| `Hdr` | `header.rs`: sequence header, frame header and its parts; `FrameInvariants` as far as the header depends on it | late decisions (quantizer, filters, segmentation, restoration) are any values in the ranges the encoder computes |
| `Obu` | `encoder.rs`: packets, OBUs, tile groups, metadata; ULEB128 | tile contents are any nonempty byte strings |
| `Quant` | `quantize/mod.rs`, `quantize/tables.rs`, `scan_order.rs`, quantizer choice in `rate.rs` | `bexp64`/`blog64` targets are any values |
| `Transform` | Walsh-Hadamard transform, forward and inverse | |
| `Cdef` | `cdef.rs`: direction search, block filter with padding, superblock and tile loops | `i32` values are integers with overflow theorems; planes are functions from addresses |
| `Deblock` | `deblock.rs`: filter kernels, edge filters, plane and frame loops, the choice of levels | `i32` values are integers; planes are functions of row and column; block deltas, reference deltas and sharpness have their default values |
| `Lrf` | `lrf.rs`: integral images, self-guided filter, Wiener filter, stripes and units of a frame, unit sizes, the last step of `sgrproj_solve` | planes are functions of row and column, integral images functions of the index; the floating-point solution is any pair of integers |
| `Mc` | `mc.rs`: `put_8tap`, `prep_8tap`, `mc_avg` and filters; inter prediction of `predict.rs`; `motion_compensate` of `encoder.rs` | planes are functions of the address with the extent of the allocation; `pad` of `v_frame` is the hypothesis `Padded` |
| `Intra` | `predict.rs`: all intra predictors, edge filter, upsampling, `luma_ac`; `get_intra_edges` of `partition.rs`; `has_top_right` and `has_bottom_left` of `recon_intra.rs`; the loops over transform blocks of `write_tx_blocks`; `above_block_info`, `left_block_info` and `IntraEdgeFilterParameters` | planes are functions of row and column of the tile; slices are a length and a function; `i32` sums are natural numbers |
| `Itx` | `transform/inverse.rs`: all one-dimensional inverse transforms and `inverse_transform_add`; `get_1d_tx_types` and the shifts | the networks are tables of stages; buffers are lists; `round_shift` is `v_frame`'s; the lossless transform is in `Transform` |
| `Mvref` | `find_mvrefs` of `context/block_unit.rs` and all it calls; `has_tr` of `partition.rs` | the blocks are a function of row and column; the array of candidates is a list with its capacity; weights are natural numbers (`weight_lt`) |
| `Mvref` (syntax) | the motion syntax of `encode_block_post_cdef`, the fitting of modes in `encode_partition_topdown`, the vectors of `inter_frame_rdo_mode_decision`, `write_mv`, `encode_mv_component` | output is a list of symbols with their distributions (that these are coded and read back is C01 and C06); which mode wins is not modelled |
| `Block` | `encode_tile`, the partition drivers and `encode_block_pre_cdef`, `encode_block_post_cdef` of `encoder.rs` as far as the symbols; `write_partition`, segment, skip, CfL of `context/partition_unit.rs`; mode, angle and reference syntax of `context/block_unit.rs` and `frame_header.rs` | decisions are the leaves of a tree per superblock; transform sizes (`TxSize`), coefficients, CDEF indices and restoration units are streams of their own; `update_map` is set, block deltas of the deblocking filter are off |
| `TxSize` | `write_tx_size_intra`, `write_tx_size_inter` and their contexts in `context/transform_unit.rs`; the transform size contexts of `context/block_unit.rs`; the sizes offered by `rdo_tx_size_type`; their places in `encode_block_post_cdef` and `encode_tile` | a stream of its own over the blocks of a tile; the costs that choose among the sizes are not modelled; context arrays are functions |
| `Resid` | `write_tx_blocks`, `write_tx_tree`, `encode_tx_block` (up to the call of `write_coeffs_lv_map`), `encode_block_post_cdef` and `encode_tile` as far as coefficients; derivation of chroma transform sizes and types; the types offered by `rdo_tx_type_decision` | a stream of its own over the blocks of a tile; coefficients are arguments (what the quantizer made); prediction, forward transform and distortion in `encode_tx_block` are left out (C57, C59) |
| `Whole` | `encode_block_pre_cdef` and `encode_block_post_cdef` with everything of `Block`, `TxSize` and `Resid`, `encode_partition_topdown`, `encode_tile`, `reset_left_contexts` | CDEF indices and restoration units (`LoopSyn`), delta quantizers, the decisions themselves |
| `LoopSyn` | `encode_tile`, `check_lf_queue` and `encode_block_pre_cdef` of `encoder.rs` as far as the queue and the recorders; `write_lrf`, `write_cdef`; `tiling/tile_restoration_state.rs`; unit shifts in `lrf.rs` | blocks are any lists of symbols with a skip flag; `rdo_loop_decision` is any choice of filters and indices for the units and superblocks it looks at |
| `Dist` | `cdef_dist_kernel` of `dist.rs`; `apply_ssim_boost`, `ssim_boost`, `ssim_boost_rsqrt`, `variance_8x8`, `fill_scales` of `activity.rs` | scalar code, not the SIMD variants; blocks are functions of row and column; integers with explicit overflow |
| `Metric` | `get_sad`, `get_satd`, `get_weighted_sse` and the Hadamard transforms of `dist.rs` | scalar code, not the SIMD variants; blocks are functions of row and column; transforms below 8x8 other than 4x4 are left out; integers with explicit overflow |
| `Search` | limits, predictors after sampling, costs, diamond, hexagon, uneven multi-hexagon, full and sub-pixel searches and refinement of `me.rs` | differences of blocks are an arbitrary function of the vector; sampling of stored vectors and the order of passes are left out; the threshold (floating point) is arbitrary |
| `RateEst` | `estimate_rate` and its table; the distortion of coefficients in `encode_tx_block` | coefficients are any integers |
| `CflSearch` | `rdo_cfl_alpha`, `from_alpha` | the cost of a factor is an arbitrary function |
| `Visible` | `clip_visible_bsize`, the rectangles compared by `compute_distortion`, `has_chroma`; `distortion_scale` and the weights in `sse_wxh` and `cdef_dist_wxh` | the distortion inside of the rectangle is C67 and C69; the buffer of weights is a list of rows |
| `Splat` | `update_block_importances`: fractions, amounts, the closure `propagate` | rounding of `f32`; the costs are arbitrary; iteration over motion statistics |
| `Seg` | `segmentation.rs`; `update_threshold`, `get_qidx`, `get_initial_segmentation` and the normalisation of scores of `encoder.rs`; `DistortionScale::{new, mul, inv_mean, blog16}` of `rdo.rs`; `blog32_q11` of `util/logexp.rs` | only the quantizer feature of segments, the only one that is set; `sort_unstable` is a merge sort; the scores themselves are arbitrary; integers with explicit overflow |
| `LogExp` | `util/logexp.rs` except the polynomials `bexp32_q10`, `blog32_q11` (the latter in `Seg`) | integers with explicit overflow; the counted loops are the lists of their iterations |
| `Misc` | `ivf/src/lib.rs`, the IVF muxer, `util/kmeans.rs` | |
| `Rate` | `rate.rs`: two-pass serialisation, parser, the two-pass state machine, reservoir update; `Context` and `Config` around it | `bexp64`, the log-domain filters and the quantizer search inside `select_qi` are parameters |
| `Config` | `Config::validate`, level tables, `new_context` until the tiling is fixed | |

## Code that is not modelled

Motion search (`me.rs`), the forward trigonometric transforms, the
statistics of `sgrproj_solve` in `lrf.rs`, rate-distortion optimisation (`rdo.rs` except the scales in `Seg`),
block deltas of the deblocking filter, `stats.rs`, assembly kernels, the C API,
the command line programs except the IVF muxer, `v_frame`, `av_scenechange`, `y4m`, the threads of `rayon`,
channels with rate control passes; the size of the thread pool of the parallel channel.

## Hypotheses that the code forces

* Fewer than `i32::MAX` frames, and a positive key frame interval (scheduler).
* Packets below 4 GiB: size fields are written from 32-bit values.
* Frame header round trip: no chroma scaling points of film grain in 4:2:0 without luma points
  (`GrainGood.chroma`); in 4:2:2 the tile height limit (`tile_height_codable_422_partial`).
* Two-pass: one of the two retrieval interfaces per encoder; at most 2^30 calls; sums of scales within `i64`;
  `Balanced` (at most eight more hidden than shown frames in any run) with a finite reservoir.
* Coefficients: magnitudes below 2^20 (the limit of the Golomb code); a transform type of the set of the block, not
  `WHT_WHT`; transforms other than 16x64 and 64x16; an exact end of block (`quantize_eob`); for chroma the type the
  decoder derives; positions within the context arrays; clipped sizes as in `clipped_eq`.
* Channels: the application keeps the `PacketReceiver`, every item sent contains a frame, no still picture.
* CDEF: luma sizes are multiples of 8 (`v_frame` aligns them); the decoder state `Same` (indices as coded, none where the
  whole 64x64 area is skipped).
* Deblocking: `MiCols` and `MiRows` are even; blocks start at multiples of their size and all their positions hold their
  data; the blocks of an aligned 8x8 area have one size; block sizes possible with the chroma sampling (`Deblock.Same`).
* Loop restoration: CDEF is on when a unit is filtered (`no_cdef_differs`), no Wiener unit (the encoder writes none), an even
  tile width in superblocks in 4:2:2 (ensured by the tiling).
* Inter prediction: references have the size of the frame and padded borders (`Padded`); the filter is not the sharp one
  (`sharp_differs`; the encoder always writes regular); blocks below 8x8 only in 4:2:0 and no sides of ratio 4:1, as the encoder
  partitions; the block structure of the same 8x8 pixels (`Placed`).
* Intra prediction: planes are a multiple of 8 pixels wide and high (`v_frame` aligns them), so that the last pixel of the plane is the last
  one of the last 4x4 block (`Agree.maxX`); angle deltas from -3 to 3 and only with directional modes (`Allowed`); the pixel type holds the
  bit depth. Superblocks are 64x64, tiles start at superblocks, `MiRows` and `MiCols` are even (`Tile`), no vertical split in 4:2:2 (`Ok`);
  for the smooth variant of the edge filter the neighbouring blocks have been coded. The specification reads at most `w` pixels right of and `h` pixels below the block, as the reference decoders do.
* Inverse transforms: dequantized coefficients of `bd + 8` bits (`unclamped_differs`, `dequantize_wraps`); at bit depth 12 rows as
  bitstream conformance requires them.
* Residual: tiles of at most 4096 pixels of width, coefficients as the quantizer makes them (`CoefOk`), transform types that the mode decision offers, no block higher than
  wide in 4:2:2 (the encoder makes none).
* Restoration units: filters within the ranges of the syntax (`FilterOk`), CDEF indices below `1 << cdef_bits`, no intra block copy (rav1e never sets it).
* Segments: scores between 1 and 2^28 - 1, as scales are; for the absence of panics in later frames a factor and normalised scores of at least 1/64, and `base_q_idx` not zero (`later_panics`).
* Exponential: an integer part of at most 30 or a fraction of at most 127/128; Q24 values within 31 bits.
* Configurations: bit depth 8, 10 or 12; a frame rate whose tile limit the frame size can meet.

## Findings

Where the code does not do what its documentation, its name or the AV1 specification says, the negation is a theorem.

* `done_not_regardless`: the last bytes of a tile do depend on what follows.
* `replay_keeps_fake_bits`, `rollback_keeps_fake_bits`, `fake_bits_counted_twice`: fake bits are neither replayed nor
  restored, and `tell_frac` counts them twice.
* `symbol_bits_counter_underflows`: `symbol_bits` on the counting writer.
* `adaptation_needs_cap`: adaptation equals the specification only while counters stay at most 32.
* `round_trip_fails`: `bexp64` overflows on rare arguments next to a power of two, among them `blog64(137366560918)`, and does not give back
  large numbers exactly; `bexpQ24_overflows`, `q24ToQ57_wraps`: Q24 arguments of more than 31 bits.
* `kernel_12bit_wraps`: in video of 12 bits the conversion of the psychovisual distortion to 32 bits wraps: an approximation worse in every pixel gets a smaller distortion.
* `satd_edge_loses`: the transformed difference of a block with an edge that the squares do not cover drops small differences there.
* `golomb_limit`: Golomb codes beyond 20 bits are not decodable.
* `joints_padding_superfluous`: padding of the CDF log that is not needed.
* `zero_interval_hangs`, `frame_at_limit_hangs`: endless loops in `compute_frame_invariants`.
* `t35_lost_with_reordering`: T.35 metadata of reordered frames is dropped.
* `hLines_sizes_differ`: the statistic for horizontal edges uses the filter size of the vertical direction.
* `no_cdef_differs`: without CDEF the encoder leaves out the self-guided filter of the units that it has chosen and written, so
  that its reference frames differ from the decoder's; the speed settings `cdef` and `lrf` are independent.
  `wiener_differs`: the Wiener filter takes rows outside of the frame from another plane than the decoder (not reachable).
* `sharp_differs`: with sharp filters short sides would use the smooth filter (not reachable).
* `hang_up_panics`, `channel_still_picture_unchecked`, `empty_item_leaks_parameters`: channels.
* `one_slot_never_ends`, `one_slot_blocks`: `new_by_gop_channel` with one slot deadlocks; `parameters_dropped`, `empty_item_panics`:
  the parallel channel drops frame parameters and panics on an item without a frame.  Read but not modelled: its tasks occupy
  `slots + 3` threads of the pool for as long as it runs, so that a smaller pool may never start the last of them.
* `rate_limit_panics`, `accepted_then_panics`: accepted configurations with extreme frame rates panic.
* `tile_area_can_exceed_limit`, `tile_height_not_codable_422`, `tiles_option_not_reached`: tiling.
* `film_grain_chroma_desync`: a 4:2:0 grain table with chroma points and no luma points desynchronises the header.
* `uleb128_truncates`, `ivf_width_truncates`: sizes are cut silently.
* `scan_wht`: there is no scan for `WHT_WHT`. `tall_block_misread`: the end of block of 16x64 and 64x16 is coded with
  the wrong CDF (unreachable in the encoder).
* `unclamped_differs`: the inverse transform scales coefficients of blocks of ratio 2 to 1 before it clamps them, a decoder afterwards.
  `nonconforming_differs`, `nonconforming_panics`: at bit depth 12 coefficients too large for bitstream conformance.
* `inter_type_misread`: chroma of inter blocks would get another transform type in the decoder if the luma type were not DCT and the first luma transform had no
  coefficients (not reachable).
* `dequantize_wraps`, `kmeans_above_data`: margins needed in C35 and C42.
* `mixing_panics`, `rejected_record_stays`, `rejected_summary_stays`, `query_changes_mode`,
  `truncated_summary_accepted`, `scale_sum_negative`: two-pass interface.
* `level41_too_large`, `level_rate_inverted`, `depth_not_validated`: level tables and validation.
* `later_panics`: `segmentation_optimize` fails its own assertion in a frame that inherits segments with negative deltas only; it takes scales near the upper limit, so that the
  factor that normalises them has a large rounding error. `threshold_wraps`: `update_threshold` casts deltas to `i8`, thresholds get out of order. `segment0_lossless`: segment 0, which
  a decoder may infer for skipped blocks, can be lossless in a frame that inherits segments.
* Seen but not proved: the default reference deltas of the loop filter differ from the specification (not reachable); an exponent of zero in a
  two-pass summary divides by zero in `select_qi`; scale sums may overflow `i64`; a show-existing-frame packet with
  metadata would fail a debug assertion on its size.

## Not expressible

* Visual quality, speed and rate accuracy depend on floating point heuristics
  and on the content: no executable model decides them. They are not listed.
