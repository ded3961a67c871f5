# Formal model of ezk-image

Source: `/repo` (kbalt/ezk-image at the pinned commit). Model, specification and proofs: `/verif/lean` (Lean 4.33, Mathlib
imported one module at a time). Properties: `properties.jsonl`; which theorem settles which property: `MANIFEST.json`;
mutation tests of the theorems: `seeded/LOG.jsonl`.

* `Verif/Model` – the code, function by function, with file and lines of `/repo` at every definition;
* `Verif/Spec` – what the code is supposed to do, written without the model's helpers: sample layout of the formats, what a
  conversion has to produce, standards' colorimetry, real-number formulas, strips, verdicts;
* `Verif/Proofs` – helper lemmas;
* `Verif/Props` – the theorems `Cnn_…`, with non-trivial cases (`example`) beside them. The suffix `_partial` means that the
  theorem covers only a part of its property; the comment says which. If a property is false of the code there is a
  theorem with a concrete witness, listed under "Defects" below.

## Architecture of the model

* **Memory** (`Model/Basic`) is one flat byte-addressed space `Mem = Nat → UInt8`. A Rust slice is `Slice {addr, len}`;
  `split_at`, `infer`, `crop` and `split_planes` are arithmetic on slices. Raw loads and stores (the vector code reads
  through pointers) are `Fault.ub` when the slice they were derived from is too short; Rust panics are `Fault.panic`.
  `Exec = Except Fault`; the crate's own errors are ordinary values.
* **usize** is `Nat` with checked operations (bound `2^64`): `strict_*` (`addU`, `mulU`) panics with `PanicKind.overflow`,
  division by zero panics. The plain operators `+` and `*` (`addP`, `mulP`) panic in debug builds only and wrap in release
  builds; the model stops there with the separate `PanicKind.wrap`. An execution that does not end with `wrap` is the same
  in both builds.
* **Images** (`Model/PixelFormat`, `Model/Image`): plane descriptions, `bounds_check`, `buffer_size`, `packed_strides`,
  `infer`, `Image::{new, from_buffer, from_planes, blank}`, `Cropped`, and `raw`: an arbitrary user implementation of
  `ImageRef`/`ImageMut` that obeys the contract of the trait (same values on every call).
* **Floats are a parameter** (`Model/Vector`): the pixel code is generic over a type `F` with arbitrary operations (`FOps`)
  and a `Backend F`. Layout, memory, scheduling and data-flow theorems hold for every interpretation.
  Numeric theorems instantiate `F` with ℝ (`Spec/Real`: laws of the formulas) or with binary32 (`Model/F32`: exact
  round-to-nearest-even over ℚ with subnormals, infinities, NaN and signed zeros).
* **Vector backends** (`Model/Backends`, `Model/Intrinsics`): scalar, AVX2, AVX-512 and NEON are built from models of the
  intrinsics they use. `Backend.Lawful` (`Spec/Vector`) says what a backend must do; it is proved for all four (C19), and
  the image-level theorems only use it.
* **Colour code, readers, writers, visitors, `convert`** (`Model/Color`, `Model/Formats`, `Model/Convert`) are modelled
  function by function. A visit is a read phase giving a list of stores: `visit` in the code reads its whole block before
  it stores anything.
* **Threads** (`Model/Threads`): `convert_multi_thread` runs on a shared memory weaker than any real one: loads may return
  any value a byte has had since the section began, stores are buffered, reordered and torn into bytes. All interleavings.
* **copy, resize** (`Model/Convert`, `Model/Resize`): `fast_image_resize` is a parameter `Fir`: any function of the
  rows handed to it; its planes are resized by tasks in any interleaving.
* **Programs** (`Model/World`): histories of constructing, dropping, cropping, writing and calling operations, which may
  return errors or panic half-way. The borrow checker's rules are part of the steps.

## Method per property

| id | what is proved, and how |
|----|----|
| C01, C02 | `bounds_check` against the sample-layout specification; exact characterisation of `Ok`, `Err` and panic by induction over the planes |
| C03–C05 | `buffer_size`, `packed_strides`, `infer`, constructors, `blank`; `infer` partitions the buffer (induction over plane descriptions) |
| C06, C46 | invariant of `World` histories; every store of every operation, also of one that panics later, goes through a slice of the destination's planes (`Proofs/Confined`) |
| C07–C09 | `Cropped::new`, `crop_planes`; sample mapping under exactly characterised conditions; composition |
| C10, C11 | all readers and writers as checked accesses, invariant over the visit loop |
| C12, C13 | `verdict` specification (`Spec/Verdict`), memory as explicit output |
| C14–C16, C18 | refinement of the blocked, vectorised loops to a per-pixel specification (`Spec/Convert.converted`); frame; independence of layout and vector length |
| C17 | tiling of `visit_impl`, for every vector length |
| C19 | lane-level semantics of every intrinsic used |
| C20–C22 | `split_planes` cuts into strips (`Spec/Strips`); invariant over all interleavings: memory agrees with one picture, so the final state is that of `convert`; progress and termination |
| C23–C25, C39 | exactness of binary32 on codes (proved for all codes by analysis of rounding) together with C14 |
| C26–C31, C41, C42 | real algebra and analysis on the formulas and constants of the code |
| C32, C33, C40 | consequences of C14 |
| C34, C35, C38 | store instructions of each backend as functions of the float, all floats |
| C36 | `copy`, rows and planes by induction |
| C37 | `resize` with `fast_image_resize` uninterpreted, all interleavings |
| C43–C45, C51 | forward error analysis of every rounding in the pipelines (`Proofs/Rounding`, `Accuracy`, `YuvYuv`), on every platform and column |
| C47 | real polynomials against `log`/`exp` by Taylor bounds (`Proofs/PolyBound`, `LogExp`), bit fields of binary32 (`Proofs/Bits`), rounding errors of every operation of the float code (`Proofs/SimdMath`, `SimdExp`) |
| C48 | errors of each operation of the transfer functions (`Proofs/PowApp`, `TransferApp`, `EncodeApp`) on top of C47; comparisons at the thresholds settled by the spacing of binary32 numbers; signed zeros and negative bases in `Proofs/NegLog`, `Num`; PQ by relative errors through both powers and the slope of its quotient (`Proofs/PqReal`, `PqApp`) |
| C49 | `Spec/Standards` (from IEC, ITU-R, SMPTE documents) against the formulas of the source, real analysis in `Proofs/Standards` |
| C50 | whole RGB-to-RGB conversions with a change of transfer function or primaries: errors of samples, decoding, both matrices, encoding and store composed (`Proofs/ChangeApp`, PQ: `Proofs/ChangePq`), and the continuity of the encoders (`Proofs/EncodeCont`); false for bright PQ light written to `Linear` images by AVX2 and AVX-512 |
| C52 | the signals of YUV samples, inside and outside of the RGB cube (`Proofs/DecodeTight`), decoding of signals from -1.2 to 2.2 (`Proofs/DecodeWide`, `DecodeWideLip`) or, for gamma up to 1.9 and for HLG up to 1.1 (`Proofs/DecodeInRange`), then as in C50; for PQ a backward error: the light of signals 2.4·10⁻⁶ away; false for gamma sources and for PQ signals of 2 or more on x86 and in scalar code and for NEON where a signal is below -0.04 |
| C53 | light as in C50 and C52, its signals with their sign (`Proofs/EncodeSigned`), the matrices and means of C51 applied to the values of the floats, the ideal codes `Spec.idealCodes`; HLG, PQ and gamma, steep at black, with the error of the light instead (`Props/HdrYuv`); false for NEON where light is below -0.003 and, as `C50_gamma_yuv_black` shows, for gamma destinations |
| C54 | the formulas of `ICtCpPQ` and `ICtCpHLG` over the reals against BT.2100 as written down in `Spec/Standards`: relative errors of the cone responses, relative Lipschitz bounds of both curves (`Proofs/IctcpReal`), and back (`Proofs/IctcpBack`); the same gives C26 for ICtCp |
| C55 | C54 with rounding errors: the light of 8-bit samples relative to the standard (`Proofs/IctcpLight`), cone responses relative to the brightest component (`Proofs/IctcpApp`), both curves beyond their range (`Proofs/IctcpEncode`), the last matrix (`Proofs/IctcpSignal`), range and stores; the spec is `Spec/IdealIctcp` |
| C56 | C43 and C44 against the n-bit codes of the standards, `Spec/Quantisation`; false for limited range at 10 and 12 bits and for full-range chroma at 8 bits, with witnesses |
| C57 | rounding is monotone, hence every operation of the pipelines is, in the direction of the sign of its constant (`Proofs/Monotone`); monotone stores; false between columns whose stores differ; with a change of light (`C57_change_partial`): mixes into larger primaries have no negative entries (`wider_mono`), decoders and encoders keep the order, code as in C50 |
| C58 | error bounds for the decoders on signals that rounding takes slightly out of [0, 1], the two matrices and the encoders (`Proofs/IctcpDecode`), against BT.2100 without inverting its matrices: the statement quantifies over cone signals |
| C59 | the conversion of a cell depends on the samples of that cell and the arithmetic of its columns only (`Proofs/Window`); C08 for `crop`; without a change of transfer the floats are the same with any IEEE arithmetic, so that only the stores differ, by at most one |
| C60 | both cells are moved to the origin of a picture of their own (`Proofs/Window`), where the pictures agree; without subsampling pixel by pixel |
| C61 | the float bounds of C43 and C44, then `rne` is within 1/2 and `trunc` is the floor; ideal luma of greys is a fraction of odd denominator, hence never near a tie; the white witness is evaluated exactly in binary32 by the kernel |
| C62 | the rows of every pair of matrices sum to 1 within 3·10⁻⁷, rounding is bounded relative to the light, and the encoders magnify the difference to less than 0.8 of a code (near black because the bound is relative); the witness is evaluated in binary32 by the kernel |
| C63 | rounding stores are within 1/2 code (plus the error of the floats) of the ideal value (C61); the errors of the YUV codes make less than 0.42 of a code in RGB, so rounding again returns the original |
| C64 | the ideal value of a recoding without a change is the code times the ratio of the maxima; half a code of the deeper image is at most 1/8 of a code of the other |
| C65 | RGB codes within e of the ideal ones give Y, U, V within e/255 of the original (the coefficients of each row sum to at most 1 in absolute value), and limited range shrinks this by 224/255 |
| C66 | induction over the tiles; invariant: the source is unchanged, and every pixel shows what the last tile over it made of it; each tile by C59 |
| C67 | induction over the generations, each step by C63 or C65; the cell stays flat, or the colours in gamut, since they do not change |
| C68 | `Model/Dispatch` has the choices made by feature detection, the features of every `#[target_feature]` function and the names of all intrinsics; `Spec/Cpu` says which instruction set each belongs to; case analysis |
| C69 | plain operators are `addP`/`mulP`, whose overflow is the fault `wrap`; shown unreachable: by the bounds check for valid images, because every operator before it is a strict one, and for threads by an invariant of all reachable states. `Spec/Possible` says which images a program can have |
| C70 | from C16, C23 and C36: what is converted is the picture, and `copy` keeps the picture |
| C71 | the instructions of the four 16-bit interleaved operations per platform (`Model/Wide`) against a contract (`Spec/Wide`), lane by lane |
| C72 | from C08 and C36: where the samples of a crop are; sequences of copies by induction against a picture that is pasted into (`collage`) |
| C73 | two runs: the specified samples are computed from the same pixels in both (`converted_local`) |
| C74 | powers of ±0 nearly vanish, so the light of black is below 2·10⁻¹⁰ and its encoding below half a code, even for the root of `Gamma28` (`Proofs/BlackWhite`); the light of white is at least 0.999 and so is its encoding. YUV (`Props/BlackWhiteYuv`): the signals lie between two constants, luma is monotone in the signals, and the lumas of the constants are computed by the kernel for every format, matrix and range |
| C75 | two greys a code apart differ in light by more than the error of either path (`Proofs/GreyOrder`, one case per transfer function; `GreyOrder2` for PQ and HLG), the mixing of primaries keeps the order, and the encoders keep it (`GreyOrder3`; PQ in `GreyOrder4`–`6`, band by band of light); the stores are monotone. Witness of failure between rounding and truncating columns: sRGB greys 32, 33 to linear light (`C75_order_false`). For luma the ordered signals (black by monotone operations near zero) go through a matrix row with positive coefficients, and as they lie between those of black and white the lumas stay within what a store can hold, also in full range. YUV sources: the same argument for signals that are not multiples of 1/255 but at least 1/255 apart and clear of the breaks of the decoding functions (`Proofs/GreySignals`), which the floats of the lumas 17 to 235 are, and for the bands of the PQ encoder (`GreySteep`); `Ramp` covers both kinds of source |
| C76 | the float of neutral chroma is exactly zero and the three rows of every decoding matrix then add zeros to the luma (`Proofs/LumaFloats`, a table of the 256 luma values by `decide +kernel`); the equal signals become equal light, mixing errors are bounded as for C62. To YUV: the exact chroma of three equal signals is zero, the floats stay within 0.32% of it, for greys read from RGB as from YUV (`grey_chroma`) |
| C77 | the floats of luma 16 and 235 are exactly 0 and 1 (table), so they take the path of RGB black and white (C74); luma above 235 by bounds and monotonicity of the exact decoding functions up to 1.1 and the float error of each step; YUV destinations share the luma lemmas of C74 |
| C78 | each stage of the picture computed (`readPic`, `adaptPic`, `writeBlk`) depends only on red, green and blue for every channel but alpha; consequence of C14 |
| C79 | light of a channel after the way through XYZ is its own within 1.3·10⁻⁵ (`lightIn_channel`, from C31 and the float bounds of C50); slopes of the encoders (`enc_lip`); order from the steps of the decoders (`star_*`) and the margins of `order_encode` |
| C80 | the product of the two matrices has no negative entries and columns that add to 1 (`wider_range`); linear propagation of the rounding in between through the inverse (`wider_back`); code as in C50 |
| C81 | the mean of the means of a finer format is the mean (`cellMean_cellMean`), bounds are carried through means from both sides (`cellMean_band`); code as in C61 and C51 |
| C82 | Spec/Orientation has the eight orientations; chroma cells go to chroma cells (`cellMean_place`), both codes lie in the same interval about one ideal value (C61, C51) |
| C83 | both lights lie near one exact light (`change_code`, C50); Lipschitz bounds of the transfer functions (`signal_gap`); difference of two rounded or truncated codes (`codes_apart`); YUV destinations from the bound of C53 |
| C84 | slopes of the decoders up to white (`trip_lip`), decoding undoes encoding (`trip_inverse`), clamping at white (`trip_clamp`); the rounding in between is magnified by the slope (`trip_core`), the channels are separate as in C79 |
| C85 | the decoders are convex and below the diagonal at both ends of their upper parts (`below_chord`, `below_power`, `dec_below`); encoders from decoding undoing them (`enc_above`), SDR directly (`enc_sdr_above`) |

## Defects found

Each is a theorem about a concrete witness. Where a property fails because of one, its theorem is `_partial`.

1. **Crops at the bottom edge panic.** A crop with `x > 0` that reaches the last row of an exactly sized plane panics in
   `planes()` (`C08_exact_plane_panics`; exact condition `C08_crop_panics_iff`).
2. **Crops of 16-bit formats show the wrong rows**: the byte offset of the first row is multiplied by two
   (`C08_wrong_rows_16bit`).
3. **`I444Reader` uses the stride of Y for the second row of U and V.** With unequal strides `convert` reads out of bounds
   (`C10_skewed_source_ub`, also multi-threaded `C20_skewed_source_ub`), panics (`C11_skewed_source_panics`) or converts
   the wrong samples (`C23_skewed`, `C16_skewed`). `Spec.asRead` is the picture it sees; `C14_as_read_partial` describes
   such conversions exactly.
4. **ICtCp to 4:2:0 averages the wrong pixels** (`u00, u01, u00, u00`), ignoring the lower row
   (`C33_ictcp_ignores_lower_row`), and depending on the vector length: for one red pixel AVX2 stores 90, AVX-512 128,
   where 115 is right (`C14_ictcp_false`, `C18_ictcp_false`). `Spec/Ictcp.convertedAsIs` describes what is stored;
   `C14_as_is` proves it for every conversion.
5. **BT.2020 luma weight of green is 0.322** instead of 0.678: not invertible, white is not white (`C26_bt2020_not_inverse`, `C74_yuv_white_false`, `C77_yuv_white_false`,
   `C27_bt2020_white`, `C41_bt2020_green`, `C43_bt2020_white`). White comes back from BT.2020 with a green below 80
   (`C45_bt2020_false`), luma of 200 copied from I420 to NV12 becomes 128 (`C51_bt2020_false`, also `C44_bt2020_false`). The rest of its constants are right: `C41_bt2020_encode` and
   `C41_bt2020_decode_partial` give both directions exactly, `C41_bt2020_decode_green` how far green is off.
6. **ST 240 red primary** has y = 0.329 instead of 0.340 (`C42_st240_red`).
7. **Transfer functions** have gaps at their thresholds (SDR 0.099 against 0.0993, sRGB, HLG): not inverse, not monotone;
   PQ does not map 0 to 0 (`C30_not_inverse`, `C30_encode_not_monotone`, `C30_pq_zero`).
8. **Stores that do not saturate**: AVX2 8-bit stores turn values above 32767.5 into 0 (`C34_packed8_overflow`), 16-bit stores
   values from 2³¹ (`C34_packed16_overflow`), AVX-512 planar stores wrap (`C34_avx512_wraps`). AVX2/AVX-512 round, scalar
   and NEON truncate, so the last columns of an image may be off by one code (`C35_attained`).
9. **10/12-bit destinations may get codes above their depth** (`C38_yuv_source_exceeds`), and such codes are not copied
   exactly (`C23_out_of_depth`).
10. **`convert_multi_thread` panics** where `convert` returns: no rows, no columns, short plane (`C22_*_panics`).
11. **`copy`** panics on stride 0 and different formats (`C36_panics`) and copies rows beyond the image (`C36_extra_rows`).
12. **`resize`** treats spare rows as part of the picture and overwrites them (`C37_extra_rows`, `C37_height_ignored`), panics on
   stride 0 and misaligned 16-bit planes (`C37_zero_stride_panics`, `C37_misaligned_panics`).
13. **`from_buffer` panics** on a short buffer of a multi-plane format instead of returning its error
   (`C03_short_buffer_panics`).
14. **Odd sizes**: `bounds_check` does not promise chroma for the last column or row (`C01_odd_sizes_not_covered`).
15. NEON's `lt`/`le` compare magnitudes (`vcaltq_f32`), and its `log` returns numbers for negative arguments.
16. **PQ uses another unit of light** (cd/m², 10000 at the brightest) than the other transfer functions (white 1), and nothing
   rescales: white converted to PQ becomes a signal below 0.17 (`C49_units`, `C49_white_to_pq`).
17. **YUV images with a gamma transfer function get black pixels.** Saturated colours have light that rounds slightly below 0; on
   x86 and in scalar code its root is NaN, which spreads to Y, U and V and is stored as 0 (`C50_gamma_yuv_black`: pure green;
   the right luma is above 182, `C50_gamma_yuv_ideal`). In RGB images only that component becomes 0, which is right.
18. **Changing only the layout of YUV (I420 to NV12) goes through RGB** and is not lossless where stores truncate: a luma of 16
   arrives as 15 (`C51_repack_inexact`, `C40_direct_false`). `C51_repack` bounds the loss by one code.
19. **Bright PQ light becomes black in `Linear` images** on AVX2 and AVX-512: light is not limited to white, and defect 8 turns
   what exceeds 128 times white into 0 (`C50_linear_black`); scalar code and NEON store white.
20. **Saturated colours of YUV images with a gamma transfer function become black in RGB** on x86 and in scalar code, if the
   transfer function or the primaries change: one RGB component is slightly below 0 after quantisation (red is), its power is
   NaN, and the matrices of the primaries spread it to all components (`C52_gamma_black`).
21. **NEON decodes negative signals with the wrong branch** (15): outside of the RGB cube, colours with a component below -0.04
   (sRGB) or -0.08 (SDR) get other components wrong, by 8 codes in `C52_neon_false`.
   Likewise it encodes negative light with the wrong branch: pure BT.2020 green gets the luma 186 instead of 42 in an SDR BT.709
   image (`C53_neon_false`).
22. **Limited range at 10 and 12 bits is not the standards'.** The crate scales codes by 2^n - 1 where the standards scale them by
   2^(n-8)·255: white is stored as 942 or 943 instead of 940 (12 bits: 3773 instead of 3760), neutral chroma as 513 or 514 instead of
   512 (`C56_deep_white_false`, `C56_deep_neutral_false`, exactly `C56_deep_scaled`), and the white of 10-bit video does not become
   white (`C56_deep_decode_false`).
23. **Full-range greys are tinted**: the neutral chroma code of 8-bit full-range video (JPEG's) is 128, the crate's 127.5. Every
   such grey comes out with red above green, on every platform (`C56_full_grey_false`).
24. **Gradients are not monotone at the right edge** on AVX2 and AVX-512: the last columns are truncated, the others rounded (8), so a
   brighter pixel there may get a smaller code than its darker neighbour (`C57_last_columns_false`).
   So are changes of transfer function: grey 32 of sRGB becomes 4 in linear light, grey 33 in the last columns 3 (`C75_order_false`).
25. **Tiles are not seamless** on AVX2 and AVX-512: converting a crop may store codes that are one smaller than those of the converted
   whole, in the columns that are in the scalar rest of the crop but in the vector body of the whole (`C59_narrow_false`).
26. **Visible seams in flat areas** on AVX2 and AVX-512: a flat image gets other codes in its last columns (width modulo 16 or 32) than
   before them (`C60_border_false`).
27. **White is not neutral** where stores truncate (scalar code, NEON and the last columns of the others): in BT.601 limited range white gets
   V = 127 (`C61_white_false`).
28. **A change of primaries tints white** where stores truncate: linear BT.709 white becomes (255, 254, 255) in BT.2020
   (`C62_white_false`).
29. **Every generation loses a code** where stores truncate: RGB through 10-bit YUV, 8-bit YUV through 10-bit YUV, and YUV
   through RGB turn the grey 129 into 128 and the luma 128 into 127; where they round, all three are lossless (`C63_truncating_false`,
   `C64_truncating_false`, `C65_truncating_false`).
30. **Images decay** where stores truncate: the losses of defect 29 add up, ten generations of 8-bit YUV and RGB make 117 of the
   grey 129 (`C67_drift_false`).
31. **Seams between tiles**: columns at the right end of a tile narrower than a vector are computed by the scalar code, which truncates,
   so a tile may differ by a code from the same part of the image converted as a whole (`C66_narrow_false`).
32. **AVX-512 without FMA is undefined behaviour**: `visit` asks for `avx512f` and `avx512bw`, but calls `dyn_read`, which is compiled
   for `fma` too (`C68_fma_false`). Real processors with AVX-512 have FMA; emulators and hypervisors can hide it.
33. **A crop without rows can overflow**: `crop` accepts a window of height 0 at the end of a 16-bit plane of nearly 2^63 bytes;
   `planes()` then overflows: a debug build panics, a release build continues with a wrong offset into the plane (`C69_false`). No
   real machine has such planes; for planes of less than 2^62 bytes nothing overflows.
34. **Packed 16-bit pixels on AVX2 and AVX-512** (latent, no format uses them): `load_u16_3x/4x_interleaved_2x` advance the
   pointer by `LEN` and `LEN * 3` *bytes* although a register takes `2·LEN`, so that the loads overlap;
   `write_interleaved_4x_2x_u16` stores the pixels in the order 0 1 4 5 2 3 6 7, because `unpack` works within 128-bit lanes
   and the 8-bit version is put in order by the `packus` that follows; `write_interleaved_3x_2x_u16` also uses indices above 15
   with `shuffle_epi8`, so that two of eight pixels lose two channels (`C71_false`, `C71_load3_x86`, `C71_write3_avx2`, …).
35. **Odd windows of sub-sampled formats** are accepted by `crop`; what is written to them changes the chroma of the pixels left of
   (above) the window and leaves that of the last ones (`C72_odd_false`). No documentation says that windows have to be even.
36. **PQ signals of 2 or more turn the pixel black** on x86 and in scalar code: the denominator of the PQ decoder is then below 0 and
   the power NaN. Limited-range YUV has such signals (the blue of `(255, 255, 128)` is 2.14 with BT.709), so colours beyond the
   brightest become black instead of being clamped (`C52_pq_black`).

## Trusted base

* The kernel of Lean 4.33 (`vcheck` replays every module). No `sorry`, no axioms of our own, no `native_decide`/`bv_decide`;
  `decide +kernel` is evaluated by the kernel.
* The faithfulness of the hand-written model to the Rust source, definition by definition.
* Semantics of the intrinsics (`Model/Intrinsics`, `Model/F32`), from the vendors' documentation; the floating-point
  environment is the default one: round to nearest even, no flush-to-zero (Rust guarantees this), no fused contraction.
  The arithmetic of `Model/F32` is checked against an independent definition of IEEE 754 binary32 in `Proofs/Ieee754`: `+ − · /` and
  literals are correctly rounded (nearest, ties to the even digit, overflow at the midpoint), NaN arises exactly in the cases of §7.2,
  comparisons are those of the order of the extended numbers (`add_correct`, `mul_correct`, `div_correct`, `lit_correct`, `mul_invalid`,
  `lt_iff`, `max_ranks`, …).
* `f32::powf`, `sqrt`, `ln` of the scalar code are a parameter (`Libm`), about which nothing is assumed unless a theorem
  says so. The approximations of the vector code are modelled bit by bit in `Model/SimdMath.lean` (`Platform.real`);
  theorems over `Platform.ieee` hold for any functions, theirs included.
* The borrow checker: `&mut` planes overlap nothing (`PlanesDisjoint`, `Separate`; derived from the rules of `World` in
  `C46_conversion`).
* CPU features are what `is_x86_feature_detected!` says, and `Spec/Cpu` lists rightly which instruction set intrinsics belong to.
* rayon: every closure runs, in any interleaving, and has ended when `try_for_each`/`scope` return; a panic is propagated.
* Not modelled: the insides of `fast_image_resize` and rayon, allocation failure, `Debug`/error formatting,
  big-endian targets, targets whose `usize` is not 64 bits wide, and compiler bugs.

## Axioms

Axioms on which the theorems of `MANIFEST.json` depend (`#print axioms`):

* **no axioms** (2 theorems): `C03_short_buffer_panics`, `C08_exact_plane_panics`
* **propext** (8 theorems): `C01_odd_sizes_not_covered`, `C03_buffer_size_zero_height`, `C05_infer_single`, `C06_zero_dimensions`, `C08_wrong_rows_16bit`, `C21_count`, `C68_fma_false`, `C68_vectors_used`
* **Quot.sound, propext** (20 theorems): `C03_buffer_size`, `C04_blank_total`, `C05_infer_panic`, `C05_infer_default`, `C06_constructed_valid`, `C19_lanes`, `C20_terminates`, `C21_even`, `C21_balanced`, `C21_first`, `C21_consecutive`, `C21_sum`, `C36_panics`, `C37_differ`, `C37_history`, `C37_cropped`, `C37_height_ignored`, `C68_runnable_partial`, `C68_copy`, `C69_debug_assert`
* **Classical.choice, Quot.sound, propext** (323 theorems): `C01_bounds_check_sound`, `C01_bounds_check_sound_even`, `C02_bounds_check_ok`, `C02_bounds_check_error`, `C02_bounds_check_panic`, `C03_from_buffer_accepts`, `C03_exact_size_accepted`, `C03_one_byte_less_rejected`, `C04_blank_valid`, `C05_infer_ok`, `C05_infer_disjoint`, `C06_from_planes`, `C06_history`, `C06_geometry`, `C07_crop_ok`, `C07_crop_error`, `C07_crop_panic`, `C08_crop_shows_window_partial`, `C08_crop_panics_iff`, `C09_crops_compose`, `C10_every_platform_partial`, `C10_memory_safe_partial`, `C10_skewed_source_ub`, `C10_only_444`, `C11_no_panic_partial`, `C11_skewed_source_panics`, `C11_returns_iff`, `C12_returns_verdict`, `C12_error_iff`, `C12_ok_iff_partial`, `C12_mismatch_iff`, `C12_odd_iff`, `C12_ok_iff`, `C12_otherwise`, `C13_error_leaves_memory`, `C14_as_read_partial`, `C14_as_read_shown`, `C14_every_platform_partial`, `C14_every_sample_partial`, `C14_as_is`, `C14_as_is_specified`, `C14_ictcp_false`, `C15_frame`, `C15_source_unchanged`, `C16_skewed`, `C16_layout_independent_partial`, `C17_each_pixel_once`, `C17_inside`, `C17_odd_panics`, `C18_width_independent_partial`, `C18_same_arith_partial`, `C18_ictcp_false`, `C19_every_platform_lawful`, `C19_unzip_zip`, `C19_zip_unzip`, `C19_interleaved_roundtrip`, `C20_schedules_partial`, `C20_progress_partial`, `C20_race_free_partial`, `C20_skewed_source_ub`, `C21_split`, `C21_adjacent`, `C22_same_partial`, `C22_no_rows_panics`, `C22_no_columns_panics`, `C22_short_plane_panics`, `C23_as_read`, `C23_skewed`, `C23_lossless_partial`, `C23_bytes_partial`, `C23_out_of_depth`, `C24_same_light`, `C24_reorder`, `C24_there_and_back`, `C25_opaque`, `C25_preserved`, `C26_rgb_yuv_rgb_partial`, `C26_yuv_rgb_yuv_partial`, `C26_bt2020_not_inverse`, `C26_ictcp_pq`, `C26_ictcp_hlg`, `C27_grey_partial`, `C27_bt2020_white`, `C28_full`, `C28_limited`, `C28_attained`, `C29_inverse`, `C29_values`, `C30_inverse_partial`, `C30_near_partial`, `C30_not_inverse`, `C30_encode_monotone_partial`, `C30_encode_nearly_monotone_partial`, `C30_encode_not_monotone`, `C30_decode_monotone`, `C30_zero_partial`, `C30_pq_zero`, `C30_one`, `C31_inverse`, `C31_round_trip`, `C32_iff_needed`, `C32_not_needed_partial`, `C32_needed_partial`, `C33_luma_local_partial`, `C33_chroma_local_partial`, `C33_ictcp_ignores_lower_row`, `C33_chroma420_mean_partial`, `C33_chroma422_mean_partial`, `C34_accurate`, `C34_codes_exact`, `C34_truncating_saturates`, `C34_truncating_floor`, `C34_rounding_nearest`, `C34_packed8_saturates_partial`, `C34_packed8_overflow`, `C34_packed16_saturates_partial`, `C34_packed16_overflow`, `C34_avx512_wraps`, `C35_rgb_to_yuv`, `C35_yuv_to_rgb`, `C35_one_code`, `C35_attained`, `C36_samples`, `C36_error`, `C36_ok_iff`, `C36_ok`, `C36_frame_partial`, `C36_frame_planes`, `C36_extra_rows`, `C37_no_ub`, `C37_frame`, `C37_planes_partial`, `C37_extra_rows`, `C37_zero_stride_panics`, `C37_misaligned_panics`, `C38_in_depth_partial`, `C38_yuv_source_exceeds`, `C39_store_load`, `C40_same_samples_partial`, `C40_same_destinations_partial`, `C40_direct_false`, `C41_standard_yuv_partial`, `C41_bt2020_green`, `C41_bt2020_encode`, `C41_bt2020_decode_partial`, `C41_bt2020_decode_green`, `C42_white`, `C42_primaries_partial`, `C42_st240_red`, `C43_rgb_to_yuv_partial`, `C43_bt2020_white`, `C44_yuv_to_rgb_partial`, `C44_bt2020_false`, `C45_rgb_yuv_rgb_partial`, `C45_bt2020_false`, `C46_bystander`, `C46_picture`, `C46_conversion`, `C46_result_stays`, `C47_ln`, `C47_pow`, `C47_pow_tiny`, `C47_sqrt`, `C47_pow_negative`, `C48_to_light`, `C48_to_signal`, `C48_sdr_threshold`, `C48_sdr_gap`, `C48_pq_to_light`, `C48_pq_to_signal`, `C49_to_light`, `C49_to_signal`, `C49_units`, `C49_white_to_pq`, `C50_light_partial`, `C50_linear_black`, `C50_codes_partial`, `C50_gamma_yuv_black`, `C50_gamma_yuv_ideal`, `C51_yuv_to_yuv_partial`, `C51_repack`, `C51_repack_inexact`, `C51_bt2020_false`, `C52_light_partial`, `C52_codes_partial`, `C52_pq_light_partial`, `C52_gamma_black`, `C52_pq_black`, `C52_neon_false`, `C53_rgb_partial`, `C53_yuv_partial`, `C53_neon_false`, `C53_light_partial`, `C53_light_yuv_partial`, `C53_hdr_codes_partial`, `C54_pq_encode`, `C54_hlg_encode`, `C54_grey`, `C54_signal_of_light`, `C54_pq_decode`, `C54_hlg_decode`, `C55_partial`, `C55_intensity`, `C55_grey`, `C56_encode_partial`, `C56_deep_scaled`, `C56_deep_white_false`, `C56_deep_neutral_false`, `C56_decode_partial`, `C56_deep_decode_false`, `C56_full_grey_false`, `C57_change_partial`, `C57_narrow_false`, `C57_luma_partial`, `C57_chroma_partial`, `C57_last_columns_false`, `C57_rgb_partial`, `C58_light`, `C58_grey`, `C59_window_partial`, `C59_crop_partial`, `C59_one_code_partial`, `C59_one_code_rgb_partial`, `C59_narrow_false`, `C60_equal_cells_partial`, `C60_equal_pixels_partial`, `C60_border_false`, `C61_encode_nearest_partial`, `C61_encode_floor_partial`, `C61_decode_nearest_partial`, `C61_decode_floor_partial`, `C61_grey_codes_partial`, `C61_grey_levels_partial`, `C61_white_false`, `C62_grey_partial`, `C62_white_false`, `C63_deep_lossless_partial`, `C63_truncating_false`, `C64_more_bits_lossless_partial`, `C64_truncating_false`, `C65_lossless_partial`, `C65_through_rgb_partial`, `C65_truncating_false`, `C66_tiles_partial`, `C66_cover_partial`, `C66_one_code_partial`, `C66_one_code_rgb_partial`, `C66_narrow_false`, `C67_rgb_partial`, `C67_yuv_partial`, `C67_drift_false`, `C68_memory_safe_partial`, `C69_convert_partial`, `C69_multi_thread_partial`, `C69_copy_partial`, `C69_crop_partial`, `C69_new`, `C69_resize_partial`, `C69_false`, `C70_convert_copy_partial`, `C70_copy_converted_partial`, `C70_copy_is_convert_partial`, `C70_out_of_depth_false`, `C71_lawful_partial`, `C71_in_bounds`, `C71_load3_x86`, `C71_load4_x86`, `C71_write4_avx2`, `C71_write4_avx512`, `C71_write3_avx2`, `C71_write3_avx512`, `C71_false`, `C72_region_partial`, `C72_paste_partial`, `C72_cut_partial`, `C72_returns_partial`, `C72_collage_partial`, `C72_odd_false`, `C72_16bit_false`, `C73_local_partial`, `C73_change_partial`, `C73_ictcp_false`, `C74_black`, `C74_white_partial`, `C74_yuv_black_partial`, `C74_yuv_white_partial`, `C74_yuv_white_false`, `C75_grey_order_partial`, `C75_order_false`, `C75_video_partial`, `C75_video_luma_partial`, `C75_luma_partial`, `C76_same_partial`, `C76_change_partial`, `C76_to_yuv_partial`, `C76_yuv_yuv_partial`, `C77_black`, `C77_white_partial`, `C77_yuv_black_partial`, `C77_yuv_white_partial`, `C77_yuv_white_false`, `C78_sources`, `C78_destinations`, `C79_curve_partial`, `C79_separate_partial`, `C79_order_partial`, `C80_fits`, `C80_round_trip`, `C80_narrow_clips`, `C81_detour`, `C81_repack`, `C82_rgb_to_yuv`, `C82_yuv_to_rgb`, `C82_yuv_to_yuv`, `C83_agree_partial`, `C83_pq_false`, `C83_yuv_partial`, `C83_cube_false`, `C83_to_yuv_partial`, `C84_round_trip`, `C84_dark_lost`, `C85_decode_darkens`, `C85_encode_brightens`
