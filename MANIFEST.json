{
 "claims": [
  {
   "property": "C01",
   "status": "proved",
   "theorems": [
    "Ezk.Props.C01_bounds_check_sound",
    "Ezk.Props.C01_bounds_check_sound_even",
    "Ezk.Props.C01_odd_sizes_not_covered"
   ],
   "note": "Every sample with a complete cell; for odd sizes the last chroma column/row is not promised (witness C01_odd_sizes_not_covered)."
  },
  {
   "property": "C02",
   "status": "proved",
   "theorems": [
    "Ezk.Props.C02_bounds_check_ok",
    "Ezk.Props.C02_bounds_check_error",
    "Ezk.Props.C02_bounds_check_panic"
   ],
   "note": "Exact characterisation of Ok, Err and panic."
  },
  {
   "property": "C03",
   "status": "proved",
   "theorems": [
    "Ezk.Props.C03_buffer_size",
    "Ezk.Props.C03_buffer_size_zero_height",
    "Ezk.Props.C03_from_buffer_accepts",
    "Ezk.Props.C03_exact_size_accepted",
    "Ezk.Props.C03_one_byte_less_rejected",
    "Ezk.Props.C03_short_buffer_panics"
   ],
   "note": "Exact size; rejection of a short buffer is a panic for multi-plane formats (witness)."
  },
  {
   "property": "C04",
   "status": "proved",
   "theorems": [
    "Ezk.Props.C04_blank_valid",
    "Ezk.Props.C04_blank_total"
   ],
   "note": "blank is valid whenever it returns; it returns for every size up to isize::MAX bytes."
  },
  {
   "property": "C05",
   "status": "proved",
   "theorems": [
    "Ezk.Props.C05_infer_ok",
    "Ezk.Props.C05_infer_panic",
    "Ezk.Props.C05_infer_disjoint",
    "Ezk.Props.C05_infer_default",
    "Ezk.Props.C05_infer_single"
   ],
   "note": "Exact result, exact panic condition, disjointness and containment."
  },
  {
   "property": "C06",
   "status": "proved",
   "theorems": [
    "Ezk.Props.C06_constructed_valid",
    "Ezk.Props.C06_zero_dimensions",
    "Ezk.Props.C06_from_planes",
    "Ezk.Props.C06_history",
    "Ezk.Props.C06_geometry"
   ],
   "note": "Constructors (exact), and C06_history/C06_geometry over every history of the program model (Model/World.lean)."
  },
  {
   "property": "C07",
   "status": "proved",
   "theorems": [
    "Ezk.Props.C07_crop_ok",
    "Ezk.Props.C07_crop_error",
    "Ezk.Props.C07_crop_panic"
   ],
   "note": "Exact conditions for Ok, each error, and panics of the parent's own planes()."
  },
  {
   "property": "C08",
   "status": "partial",
   "theorems": [
    "Ezk.Props.C08_crop_shows_window_partial",
    "Ezk.Props.C08_crop_panics_iff",
    "Ezk.Props.C08_exact_plane_panics",
    "Ezk.Props.C08_wrong_rows_16bit"
   ],
   "note": "False of the code (two witnesses). Exact panic condition; the window is shown for 8-bit formats with x aligned to the chroma grid, or windows starting in row 0."
  },
  {
   "property": "C09",
   "status": "proved",
   "theorems": [
    "Ezk.Props.C09_crops_compose"
   ],
   "note": "Where both ways are readable, the same bytes."
  },
  {
   "property": "C10",
   "status": "partial",
   "theorems": [
    "Ezk.Props.C10_every_platform_partial",
    "Ezk.Props.C10_memory_safe_partial",
    "Ezk.Props.C10_skewed_source_ub",
    "Ezk.Props.C10_only_444"
   ],
   "note": "False for 4:4:4 sources with unequal strides (witness). Proved for every other source and every destination, every platform; C10_only_444 says exactly which sources are left."
  },
  {
   "property": "C11",
   "status": "partial",
   "theorems": [
    "Ezk.Props.C11_no_panic_partial",
    "Ezk.Props.C11_skewed_source_panics",
    "Ezk.Props.C11_returns_iff"
   ],
   "note": "False for 4:4:4 sources with unequal strides (witness); C11_returns_iff is the exact condition."
  },
  {
   "property": "C12",
   "status": "partial",
   "theorems": [
    "Ezk.Props.C12_returns_verdict",
    "Ezk.Props.C12_error_iff",
    "Ezk.Props.C12_ok_iff_partial",
    "Ezk.Props.C12_mismatch_iff",
    "Ezk.Props.C12_odd_iff",
    "Ezk.Props.C12_ok_iff",
    "Ezk.Props.C12_otherwise"
   ],
   "note": "Errors characterised exactly for every call that returns; C12_ok_iff says exactly when Ok is returned: the verdict is Ok and a 4:4:4 source has planes long enough for the stride of Y. Otherwise the result is an index panic or undefined behaviour (C12_otherwise), so the claim 'otherwise Ok' is false for such sources."
  },
  {
   "property": "C13",
   "status": "proved",
   "theorems": [
    "Ezk.Props.C13_error_leaves_memory"
   ],
   "note": "Every image, every platform."
  },
  {
   "property": "C14",
   "status": "partial",
   "theorems": [
    "Ezk.Props.C14_as_read_partial",
    "Ezk.Props.C14_as_read_shown",
    "Ezk.Props.C14_every_platform_partial",
    "Ezk.Props.C14_every_sample_partial",
    "Ezk.Props.C14_as_is",
    "Ezk.Props.C14_as_is_specified",
    "Ezk.Props.C14_ictcp_false"
   ],
   "note": "C14_as_is gives the value of every sample of every destination (sources as read, see C10/C16 for unequal strides). It is the specified one except for the chroma of ICtCp destinations in 4:2:0 (C14_as_is_specified), where the claim is false (C14_ictcp_false)."
  },
  {
   "property": "C15",
   "status": "proved",
   "theorems": [
    "Ezk.Props.C15_frame",
    "Ezk.Props.C15_source_unchanged"
   ],
   "note": "Every successful call, every platform."
  },
  {
   "property": "C16",
   "status": "partial",
   "theorems": [
    "Ezk.Props.C16_skewed",
    "Ezk.Props.C16_layout_independent_partial"
   ],
   "note": "False for 4:4:4 sources with unequal strides (witness); proved otherwise."
  },
  {
   "property": "C17",
   "status": "proved",
   "theorems": [
    "Ezk.Props.C17_each_pixel_once",
    "Ezk.Props.C17_inside",
    "Ezk.Props.C17_odd_panics"
   ],
   "note": "Every vector length and every even size."
  },
  {
   "property": "C18",
   "status": "partial",
   "theorems": [
    "Ezk.Props.C18_width_independent_partial",
    "Ezk.Props.C18_same_arith_partial",
    "Ezk.Props.C18_ictcp_false"
   ],
   "note": "False for ICtCp 4:2:0 destinations (C18_ictcp_false: AVX2 stores 90, AVX-512 128 with the same arithmetic); proved for all others."
  },
  {
   "property": "C19",
   "status": "proved",
   "theorems": [
    "Ezk.Props.C19_every_platform_lawful",
    "Ezk.Props.C19_lanes",
    "Ezk.Props.C19_unzip_zip",
    "Ezk.Props.C19_zip_unzip",
    "Ezk.Props.C19_interleaved_roundtrip"
   ],
   "note": "All four backends, all values."
  },
  {
   "property": "C20",
   "status": "partial",
   "theorems": [
    "Ezk.Props.C20_schedules_partial",
    "Ezk.Props.C20_terminates",
    "Ezk.Props.C20_progress_partial",
    "Ezk.Props.C20_race_free_partial",
    "Ezk.Props.C20_skewed_source_ub"
   ],
   "note": "Every schedule on a weak memory; sources of C10 only (witness of UB otherwise)."
  },
  {
   "property": "C21",
   "status": "proved",
   "theorems": [
    "Ezk.Props.C21_split",
    "Ezk.Props.C21_count",
    "Ezk.Props.C21_even",
    "Ezk.Props.C21_balanced",
    "Ezk.Props.C21_first",
    "Ezk.Props.C21_consecutive",
    "Ezk.Props.C21_sum",
    "Ezk.Props.C21_adjacent"
   ],
   "note": "Every height and number of threads."
  },
  {
   "property": "C22",
   "status": "partial",
   "theorems": [
    "Ezk.Props.C22_same_partial",
    "Ezk.Props.C22_no_rows_panics",
    "Ezk.Props.C22_no_columns_panics",
    "Ezk.Props.C22_short_plane_panics"
   ],
   "note": "False of the code (three witnesses); proved for images with rows and columns."
  },
  {
   "property": "C23",
   "status": "partial",
   "theorems": [
    "Ezk.Props.C23_as_read",
    "Ezk.Props.C23_skewed",
    "Ezk.Props.C23_lossless_partial",
    "Ezk.Props.C23_bytes_partial",
    "Ezk.Props.C23_out_of_depth"
   ],
   "note": "False for unequal strides and for samples above the depth (witnesses); proved otherwise on every platform in binary32."
  },
  {
   "property": "C24",
   "status": "proved",
   "theorems": [
    "Ezk.Props.C24_same_light",
    "Ezk.Props.C24_reorder",
    "Ezk.Props.C24_there_and_back"
   ],
   "note": "Binary32, every platform."
  },
  {
   "property": "C25",
   "status": "proved",
   "theorems": [
    "Ezk.Props.C25_opaque",
    "Ezk.Props.C25_preserved"
   ],
   "note": "Every source and platform."
  },
  {
   "property": "C26",
   "status": "partial",
   "theorems": [
    "Ezk.Props.C26_rgb_yuv_rgb_partial",
    "Ezk.Props.C26_yuv_rgb_yuv_partial",
    "Ezk.Props.C26_bt2020_not_inverse",
    "Ezk.Props.C26_ictcp_pq",
    "Ezk.Props.C26_ictcp_hlg"
   ],
   "note": "False for BT2020 (witness); proved for BT601 and BT709 over the reals. ICtCp (C26_ictcp_pq, C26_ictcp_hlg): light comes back to within 0.2% of the brightest component and 0.031 cd/m2 (PQ), 2e-5 and 7e-6 of white (HLG)."
  },
  {
   "property": "C27",
   "status": "partial",
   "theorems": [
    "Ezk.Props.C27_grey_partial",
    "Ezk.Props.C27_bt2020_white"
   ],
   "note": "False for BT2020 (witness)."
  },
  {
   "property": "C28",
   "status": "proved",
   "theorems": [
    "Ezk.Props.C28_full",
    "Ezk.Props.C28_limited",
    "Ezk.Props.C28_attained"
   ],
   "note": "All matrix colour spaces, bounds attained."
  },
  {
   "property": "C29",
   "status": "proved",
   "theorems": [
    "Ezk.Props.C29_inverse",
    "Ezk.Props.C29_values"
   ],
   "note": "Over the reals."
  },
  {
   "property": "C30",
   "status": "partial",
   "theorems": [
    "Ezk.Props.C30_inverse_partial",
    "Ezk.Props.C30_near_partial",
    "Ezk.Props.C30_not_inverse",
    "Ezk.Props.C30_encode_monotone_partial",
    "Ezk.Props.C30_encode_nearly_monotone_partial",
    "Ezk.Props.C30_encode_not_monotone",
    "Ezk.Props.C30_decode_monotone",
    "Ezk.Props.C30_zero_partial",
    "Ezk.Props.C30_pq_zero",
    "Ezk.Props.C30_one"
   ],
   "note": "False for SDR, sRGB, HLG and PQ in the ways shown by witnesses; proved for the rest, with bounds for the gaps."
  },
  {
   "property": "C31",
   "status": "proved",
   "theorems": [
    "Ezk.Props.C31_inverse",
    "Ezk.Props.C31_round_trip"
   ],
   "note": "All primaries."
  },
  {
   "property": "C32",
   "status": "proved",
   "theorems": [
    "Ezk.Props.C32_iff_needed",
    "Ezk.Props.C32_not_needed_partial",
    "Ezk.Props.C32_needed_partial"
   ],
   "note": "C32_iff_needed covers every destination: one rendering per destination format, colour and width is applied to the source colours if transfer and primaries agree, to the changed colours otherwise. The _partial theorems name that rendering (not for ICtCp 4:2:0)."
  },
  {
   "property": "C33",
   "status": "partial",
   "theorems": [
    "Ezk.Props.C33_luma_local_partial",
    "Ezk.Props.C33_chroma_local_partial",
    "Ezk.Props.C33_ictcp_ignores_lower_row",
    "Ezk.Props.C33_chroma420_mean_partial",
    "Ezk.Props.C33_chroma422_mean_partial"
   ],
   "note": "False for ICtCp (witness); proved for the matrix colour spaces."
  },
  {
   "property": "C34",
   "status": "partial",
   "theorems": [
    "Ezk.Props.C34_accurate",
    "Ezk.Props.C34_codes_exact",
    "Ezk.Props.C34_truncating_saturates",
    "Ezk.Props.C34_truncating_floor",
    "Ezk.Props.C34_rounding_nearest",
    "Ezk.Props.C34_packed8_saturates_partial",
    "Ezk.Props.C34_packed8_overflow",
    "Ezk.Props.C34_packed16_saturates_partial",
    "Ezk.Props.C34_packed16_overflow",
    "Ezk.Props.C34_avx512_wraps"
   ],
   "note": "False for large values on AVX2 and AVX-512 (witnesses); exact ranges in which stores saturate."
  },
  {
   "property": "C35",
   "status": "proved",
   "theorems": [
    "Ezk.Props.C35_rgb_to_yuv",
    "Ezk.Props.C35_yuv_to_rgb",
    "Ezk.Props.C35_one_code",
    "Ezk.Props.C35_attained"
   ],
   "note": "Bound one, attained."
  },
  {
   "property": "C36",
   "status": "partial",
   "theorems": [
    "Ezk.Props.C36_samples",
    "Ezk.Props.C36_error",
    "Ezk.Props.C36_ok_iff",
    "Ezk.Props.C36_ok",
    "Ezk.Props.C36_frame_partial",
    "Ezk.Props.C36_frame_planes",
    "Ezk.Props.C36_extra_rows",
    "Ezk.Props.C36_panics"
   ],
   "note": "Samples exact; 'nothing else' is false (spare rows are copied, witness)."
  },
  {
   "property": "C37",
   "status": "partial",
   "theorems": [
    "Ezk.Props.C37_differ",
    "Ezk.Props.C37_no_ub",
    "Ezk.Props.C37_frame",
    "Ezk.Props.C37_history",
    "Ezk.Props.C37_planes_partial",
    "Ezk.Props.C37_cropped",
    "Ezk.Props.C37_height_ignored",
    "Ezk.Props.C37_extra_rows",
    "Ezk.Props.C37_zero_stride_panics",
    "Ezk.Props.C37_misaligned_panics"
   ],
   "note": "False if planes have spare rows (witness); never UB; any interleaving, fast_image_resize uninterpreted."
  },
  {
   "property": "C38",
   "status": "partial",
   "theorems": [
    "Ezk.Props.C38_in_depth_partial",
    "Ezk.Props.C38_yuv_source_exceeds"
   ],
   "note": "False for YUV sources (witness); proved for RGB sources."
  },
  {
   "property": "C39",
   "status": "proved",
   "theorems": [
    "Ezk.Props.C39_store_load"
   ],
   "note": "All 16-bit values, all platforms."
  },
  {
   "property": "C40",
   "status": "partial",
   "theorems": [
    "Ezk.Props.C40_same_samples_partial",
    "Ezk.Props.C40_same_destinations_partial",
    "Ezk.Props.C40_direct_false"
   ],
   "note": "Exception: destination with the format and colour of one of the sources, which then does not pass through RGB (C40_direct_false is a witness that this matters)."
  },
  {
   "property": "C41",
   "status": "partial",
   "theorems": [
    "Ezk.Props.C41_standard_yuv_partial",
    "Ezk.Props.C41_bt2020_green",
    "Ezk.Props.C41_bt2020_encode",
    "Ezk.Props.C41_bt2020_decode_partial",
    "Ezk.Props.C41_bt2020_decode_green"
   ],
   "note": "Proved for BT601 and BT709. False for BT2020 (witness C41_bt2020_green): its RGB to YUV direction differs from the standard in one weight (C41_bt2020_encode), red and blue of the other direction are right (C41_bt2020_decode_partial), green is off by the amount of C41_bt2020_decode_green."
  },
  {
   "property": "C42",
   "status": "partial",
   "theorems": [
    "Ezk.Props.C42_white",
    "Ezk.Props.C42_primaries_partial",
    "Ezk.Props.C42_st240_red"
   ],
   "note": "False for ST240 red (witness); all others within 1e-6."
  },
  {
   "property": "C43",
   "status": "partial",
   "theorems": [
    "Ezk.Props.C43_rgb_to_yuv_partial",
    "Ezk.Props.C43_bt2020_white"
   ],
   "note": "Matrix spaces except BT2020 (witness)."
  },
  {
   "property": "C44",
   "status": "partial",
   "theorems": [
    "Ezk.Props.C44_yuv_to_rgb_partial",
    "Ezk.Props.C44_bt2020_false"
   ],
   "note": "BT601 and BT709. BT2020 is false on every platform (C44_bt2020_false)."
  },
  {
   "property": "C45",
   "status": "partial",
   "theorems": [
    "Ezk.Props.C45_rgb_yuv_rgb_partial",
    "Ezk.Props.C45_bt2020_false"
   ],
   "note": "BT601 and BT709. BT2020 is false on every platform: white comes back with a green below 80 (C45_bt2020_false)."
  },
  {
   "property": "C46",
   "status": "proved",
   "theorems": [
    "Ezk.Props.C46_bystander",
    "Ezk.Props.C46_picture",
    "Ezk.Props.C46_conversion",
    "Ezk.Props.C46_result_stays"
   ],
   "note": "Includes panics in the middle of operations and all thread interleavings; undefined behaviour (C10) ends a history."
  },
  {
   "property": "C47",
   "status": "proved",
   "theorems": [
    "Ezk.Props.C47_ln",
    "Ezk.Props.C47_pow",
    "Ezk.Props.C47_pow_tiny",
    "Ezk.Props.C47_sqrt",
    "Ezk.Props.C47_pow_negative"
   ],
   "note": "About the crate's own approximations (x86 and NEON variants, models of the bit tricks). pow of a negative base is NaN on x86 (C47_pow_negative); overflow (y ln x > 88) and |y| > 100 are not covered."
  },
  {
   "property": "C48",
   "status": "proved",
   "theorems": [
    "Ezk.Props.C48_to_light",
    "Ezk.Props.C48_to_signal",
    "Ezk.Props.C48_sdr_threshold",
    "Ezk.Props.C48_sdr_gap",
    "Ezk.Props.C48_pq_to_light",
    "Ezk.Props.C48_pq_to_signal"
   ],
   "note": "All transfer functions; PQ with its own tolerances (C48_pq_to_light, C48_pq_to_signal). The system's powf, sqrt and ln (scalar columns) are assumed as accurate as the crate's own (Libm.Accurate, met by the models of both). C48_sdr_gap shows the one excluded number has to be excluded."
  },
  {
   "property": "C49",
   "status": "proved",
   "theorems": [
    "Ezk.Props.C49_to_light",
    "Ezk.Props.C49_to_signal",
    "Ezk.Props.C49_units",
    "Ezk.Props.C49_white_to_pq"
   ],
   "note": "Spec/Standards.lean is written down from the standards. C49_units and C49_white_to_pq: PQ light is in cd/m2, the others have white 1, and conversions do not rescale."
  },
  {
   "property": "C50",
   "status": "partial",
   "theorems": [
    "Ezk.Props.C50_light_partial",
    "Ezk.Props.C50_linear_black",
    "Ezk.Props.C50_codes_partial",
    "Ezk.Props.C50_gamma_yuv_black",
    "Ezk.Props.C50_gamma_yuv_ideal"
   ],
   "note": "Partial: false where AVX2 or AVX-512 write PQ light beyond 128 to a Linear image: it becomes black (C50_linear_black). C50_light_partial covers all the rest, PQ included: it bounds the error of the light (1.2e-5 of white; PQ sources 0.15% of the brightest component) and of the code (1.001, PQ 1.02). C50_codes_partial is the bound in codes that follows for sources other than PQ. C50_gamma_yuv_black is another defect found: NaN in YUV images with a gamma transfer function."
  },
  {
   "property": "C51",
   "status": "partial",
   "theorems": [
    "Ezk.Props.C51_yuv_to_yuv_partial",
    "Ezk.Props.C51_repack",
    "Ezk.Props.C51_repack_inexact",
    "Ezk.Props.C51_bt2020_false"
   ],
   "note": "BT601 and BT709, where the ideal code exists in the destination (C38_yuv_source_exceeds: otherwise it may leave the depth). BT2020 is false (C51_bt2020_false). Repacking is exact for rounding stores; C51_repack_inexact shows it is not for truncating ones."
  },
  {
   "property": "C52",
   "status": "partial",
   "theorems": [
    "Ezk.Props.C52_light_partial",
    "Ezk.Props.C52_codes_partial",
    "Ezk.Props.C52_pq_light_partial",
    "Ezk.Props.C52_gamma_black",
    "Ezk.Props.C52_pq_black",
    "Ezk.Props.C52_neon_false"
   ],
   "note": "Partial: BT601 and BT709 matrices. C52_light_partial: Linear, SRGB, SDR sources with any signals (NEON vector code: at least -0.04), Gamma22/Gamma28 with signals from 1e-5 to 1.9, HLG with signals up to 1.1, any destination; C52_codes_partial: the same sources, Linear, SRGB, SDR destinations; C52_pq_light_partial: PQ sources with signals up to 1. The property is false for Gamma22/Gamma28 sources on x86 and in scalar code (C52_gamma_black: one component below 0 makes the pixel black), there also for PQ sources with a signal of 2 or more (C52_pq_black), and for NEON vector code with signals below -0.04 (C52_neon_false: 48 stored where 40 is right). Not covered: larger signals (gamma above 1.9, HLG above 1.1, PQ between 1 and 2). BT2020 is false already without the change (C44_bt2020_false)."
  },
  {
   "property": "C53",
   "status": "partial",
   "theorems": [
    "Ezk.Props.C53_rgb_partial",
    "Ezk.Props.C53_yuv_partial",
    "Ezk.Props.C53_neon_false",
    "Ezk.Props.C53_light_partial",
    "Ezk.Props.C53_light_yuv_partial",
    "Ezk.Props.C53_hdr_codes_partial"
   ],
   "note": "Partial: BT601 or BT709 matrix and ideal codes in range. C53_rgb_partial: RGB sources other than PQ, destinations Linear, SRGB, SDR, in codes; C53_yuv_partial: YUV sources as in C52_light_partial, light in the range of RGB images. C53_light_partial, C53_light_yuv_partial: destinations HLG, PQ and (light above 0) gamma, all RGB sources and the same YUV sources; the error of the light is bounded and that of the code made of it. C53_hdr_codes_partial: the same in codes for HLG and PQ. False on NEON where light is below -0.003 (C53_neon_false: luma 186 stored where 42 is right) and for Gamma22/Gamma28 destinations on x86 and in scalar code where light rounds below 0 (C50_gamma_yuv_black). BT2020 is false already without the change (C44_bt2020_false)."
  },
  {
   "property": "C54",
   "status": "proved",
   "theorems": [
    "Ezk.Props.C54_pq_encode",
    "Ezk.Props.C54_hlg_encode",
    "Ezk.Props.C54_grey",
    "Ezk.Props.C54_signal_of_light",
    "Ezk.Props.C54_pq_decode",
    "Ezk.Props.C54_hlg_decode"
   ],
   "note": "Exact real arithmetic, primaries of BT.2020 (those of the standard). C54_pq_encode, C54_hlg_encode: the ICtCp the code computes for given light against BT.2100; C54_pq_decode, C54_hlg_decode: light recovered from ICtCp of the standard; C54_grey: greys are neutral; C54_signal_of_light: the transfer function is applied to that light last. Float rounding is not included."
  },
  {
   "property": "C55",
   "status": "partial",
   "theorems": [
    "Ezk.Props.C55_partial",
    "Ezk.Props.C55_intensity",
    "Ezk.Props.C55_grey"
   ],
   "note": "Binary32, all platforms, from bytes to codes, against BT.2100 (Spec/IdealIctcp). Partial because 4:2:0 chroma is wrong (C14_ictcp_false) and excluded, and because the ideal code has to be one of the destination's with the tolerance as margin; C55_intensity needs no such margin for 8 and 10 bits and for limited range, C55_grey none for greys."
  },
  {
   "property": "C56",
   "status": "partial",
   "theorems": [
    "Ezk.Props.C56_encode_partial",
    "Ezk.Props.C56_deep_scaled",
    "Ezk.Props.C56_deep_white_false",
    "Ezk.Props.C56_deep_neutral_false",
    "Ezk.Props.C56_decode_partial",
    "Ezk.Props.C56_deep_decode_false",
    "Ezk.Props.C56_full_grey_false"
   ],
   "note": "Binary32, all platforms, both directions, against Spec/Quantisation. Holds for 8-bit limited range and for luma; full-range chroma is half a code below the standards (greys of 8-bit full-range images come out tinted, C56_full_grey_false). False for limited range at 10 and 12 bits, where codes are too large by 1023/1020 and 4095/4080 (C56_deep_scaled says so exactly; witnesses C56_deep_*_false)."
  },
  {
   "property": "C57",
   "status": "partial",
   "theorems": [
    "Ezk.Props.C57_change_partial",
    "Ezk.Props.C57_narrow_false",
    "Ezk.Props.C57_luma_partial",
    "Ezk.Props.C57_chroma_partial",
    "Ezk.Props.C57_last_columns_false",
    "Ezk.Props.C57_rgb_partial"
   ],
   "note": "Binary32, any two pixels, any two platforms. C57_luma_partial, C57_chroma_partial, C57_rgb_partial: RGB and YUV without change of transfer function or primaries, matrix colour spaces, samples within depth; the pixel with the larger value must not be in a truncating column if the other is in a rounding one, without which it is false (C57_last_columns_false: in the last columns on AVX2 and AVX-512 a brighter pixel gets a smaller code). C57_change_partial: RGB to RGB with another transfer function or from BT.709/SMPTE 240M to BT.2020, up to one code, any columns, sources other than PQ, destinations Linear, SRGB, SDR. Into smaller primaries it is false (C57_narrow_false)."
  },
  {
   "property": "C58",
   "status": "proved",
   "theorems": [
    "Ezk.Props.C58_light",
    "Ezk.Props.C58_grey"
   ],
   "note": "Binary32 with each platform's functions (scalar library accurate), against BT.2100 as written down in Spec/Standards; q ranges over all cone signals in [0, 1] whose I, CT, CP are those of the codes. C58_grey: the instance for 8-bit limited-range greys."
  },
  {
   "property": "C59",
   "status": "partial",
   "theorems": [
    "Ezk.Props.C59_window_partial",
    "Ezk.Props.C59_crop_partial",
    "Ezk.Props.C59_one_code_partial",
    "Ezk.Props.C59_one_code_rgb_partial",
    "Ezk.Props.C59_narrow_false"
   ],
   "note": "C59_window: any arithmetic, any two runs; C59_crop: through Img.crop (with C08's hypotheses). Partial: excludes 4:4:4 sources with unequal strides and 4:2:0 ICtCp destinations (C10, C14), and exact equality needs the same code per column. Without that it is false (C59_narrow_false: AVX2, an 8-column crop of a dark blue image gets luma 0 where the whole image gets 1); C59_one_code and C59_one_code_rgb bound the difference by one code."
  },
  {
   "property": "C60",
   "status": "partial",
   "theorems": [
    "Ezk.Props.C60_equal_cells_partial",
    "Ezk.Props.C60_equal_pixels_partial",
    "Ezk.Props.C60_border_false"
   ],
   "note": "Any arithmetic. Partial: excludes 4:4:4 sources with unequal strides and 4:2:0 ICtCp destinations (C10, C14), and needs the same code for both columns. Without that it is false: C60_border_false, a flat dark blue image of 40 columns gets luma 1 in its first 32 columns and 0 in the last 8 on AVX2."
  },
  {
   "property": "C61",
   "status": "partial",
   "theorems": [
    "Ezk.Props.C61_encode_nearest_partial",
    "Ezk.Props.C61_encode_floor_partial",
    "Ezk.Props.C61_decode_nearest_partial",
    "Ezk.Props.C61_decode_floor_partial",
    "Ezk.Props.C61_grey_codes_partial",
    "Ezk.Props.C61_grey_levels_partial",
    "Ezk.Props.C61_white_false"
   ],
   "note": "Proved for the vector columns of AVX2 and AVX-512, BT.601 and BT.709: C61_encode_nearest, C61_decode_nearest, and exactly for greys (C61_grey_codes, C61_grey_levels). False everywhere else (scalar, NEON, the rest of the columns): there codes are cut off (C61_encode_floor, C61_decode_floor bound them), and a 2x2 white RGB image gets V = 127 in BT.601 on all platforms (C61_white_false)."
  },
  {
   "property": "C62",
   "status": "partial",
   "theorems": [
    "Ezk.Props.C62_grey_partial",
    "Ezk.Props.C62_white_false"
   ],
   "note": "Proved: the three codes differ by at most one, for every pair of transfer functions and primaries and every platform (C62_grey); left out are PQ images converted to Linear in the vector columns of AVX2 and AVX-512, where light beyond 129 is stored as 0 (C50_linear_black). Equality is false: white, linear light, BT.709 to BT.2020, is stored as R = 255, G = 254 in 2x2 images on all platforms (C62_white_false)."
  },
  {
   "property": "C63",
   "status": "partial",
   "theorems": [
    "Ezk.Props.C63_deep_lossless_partial",
    "Ezk.Props.C63_truncating_false"
   ],
   "note": "Proved for the columns whose stores round (the vector code of AVX2 and AVX-512): exact (C63_deep_lossless_partial). False where stores truncate (scalar code, NEON, last columns): the grey 129 comes back as 128 by way of I410 (C63_truncating_false)."
  },
  {
   "property": "C64",
   "status": "partial",
   "theorems": [
    "Ezk.Props.C64_more_bits_lossless_partial",
    "Ezk.Props.C64_truncating_false"
   ],
   "note": "Proved for the columns whose stores round: exact (C64_more_bits_lossless_partial). False where stores truncate: a luma of 128 comes back as 127 (C64_truncating_false)."
  },
  {
   "property": "C65",
   "status": "partial",
   "theorems": [
    "Ezk.Props.C65_lossless_partial",
    "Ezk.Props.C65_through_rgb_partial",
    "Ezk.Props.C65_truncating_false"
   ],
   "note": "Proved for the columns whose stores round: exact for 8-bit limited range (C65_lossless_partial). For all columns: off by at most 1 or 2 codes (8 bits, limited or full range), 5 (10 bits), 17 (12 bits), where stores round 0, 1, 2, 8 (C65_through_rgb_partial). Exactness is false where stores truncate (C65_truncating_false)."
  },
  {
   "property": "C66",
   "status": "partial",
   "theorems": [
    "Ezk.Props.C66_tiles_partial",
    "Ezk.Props.C66_cover_partial",
    "Ezk.Props.C66_one_code_partial",
    "Ezk.Props.C66_one_code_rgb_partial",
    "Ezk.Props.C66_narrow_false"
   ],
   "note": "Proved for any list of tiles: exact in the columns that the same code computes (C66_tiles_partial), whole memory equal if the tiles cover the image and vectors fit in their widths (C66_cover_partial), at most one code apart otherwise (C66_one_code_partial, C66_one_code_rgb_partial). Not for windows below row 0 with 16-bit samples (defect of crop, C08), 4:4:4 sources whose planes have different strides, 4:2:0 ICtCp destinations. Exactness is false of tiles narrower than a vector (C66_narrow_false)."
  },
  {
   "property": "C67",
   "status": "partial",
   "theorems": [
    "Ezk.Props.C67_rgb_partial",
    "Ezk.Props.C67_yuv_partial",
    "Ezk.Props.C67_drift_false"
   ],
   "note": "Proved by induction over the generations for the columns whose stores round (C67_rgb_partial, C67_yuv_partial). False where stores truncate: ten generations make 117 of the grey 129 (C67_drift_false)."
  },
  {
   "property": "C68",
   "status": "partial",
   "theorems": [
    "Ezk.Props.C68_runnable_partial",
    "Ezk.Props.C68_copy",
    "Ezk.Props.C68_fma_false",
    "Ezk.Props.C68_vectors_used",
    "Ezk.Props.C68_memory_safe_partial"
   ],
   "note": "Proved for every machine on which AVX-512 comes with FMA (C68_runnable_partial), copies on every machine (C68_copy). False otherwise: the AVX-512 path calls a function compiled for FMA without asking for it (C68_fma_false)."
  },
  {
   "property": "C69",
   "status": "partial",
   "theorems": [
    "Ezk.Props.C69_convert_partial",
    "Ezk.Props.C69_multi_thread_partial",
    "Ezk.Props.C69_copy_partial",
    "Ezk.Props.C69_crop_partial",
    "Ezk.Props.C69_new",
    "Ezk.Props.C69_resize_partial",
    "Ezk.Props.C69_debug_assert",
    "Ezk.Props.C69_false"
   ],
   "note": "Proved unconditionally for the constructors (C69_new), and for images whose slices are shorter than 2^62 bytes or that have at least one row for everything else but resize, which needs images that pass bounds_check. False for a crop without rows of a 16-bit plane of almost 2^63 bytes (C69_false). The debug assertions fail exactly where a release build has undefined behaviour (C69_debug_assert; when that happens is C01-C03's subject)."
  },
  {
   "property": "C70",
   "status": "partial",
   "theorems": [
    "Ezk.Props.C70_convert_copy_partial",
    "Ezk.Props.C70_copy_converted_partial",
    "Ezk.Props.C70_copy_is_convert_partial",
    "Ezk.Props.C70_out_of_depth_false"
   ],
   "note": "Proved except for 4:4:4 sources whose planes have different strides (C10). copy = convert also needs samples within the depth of the format: false otherwise (C70_out_of_depth_false)."
  },
  {
   "property": "C71",
   "status": "partial",
   "theorems": [
    "Ezk.Props.C71_lawful_partial",
    "Ezk.Props.C71_in_bounds",
    "Ezk.Props.C71_load3_x86",
    "Ezk.Props.C71_load4_x86",
    "Ezk.Props.C71_write4_avx2",
    "Ezk.Props.C71_write4_avx512",
    "Ezk.Props.C71_write3_avx2",
    "Ezk.Props.C71_write3_avx512",
    "Ezk.Props.C71_false"
   ],
   "note": "The footprint is right on every platform (C71_in_bounds) and the contract holds for the scalar and NEON code. On AVX2 and AVX-512 all four operations are wrong (C71_false); what they do instead is stated exactly. No pixel format uses them."
  },
  {
   "property": "C72",
   "status": "partial",
   "theorems": [
    "Ezk.Props.C72_region_partial",
    "Ezk.Props.C72_paste_partial",
    "Ezk.Props.C72_cut_partial",
    "Ezk.Props.C72_returns_partial",
    "Ezk.Props.C72_collage_partial",
    "Ezk.Props.C72_odd_false",
    "Ezk.Props.C72_16bit_false"
   ],
   "note": "Proved for even positions (8-bit samples, or windows in row 0): one copy (C72_region_partial, C72_paste_partial, C72_cut_partial), any number by induction (C72_collage_partial), and when they succeed (C72_returns_partial). False at odd positions of sub-sampled formats (C72_odd_false: the neighbour's chroma is overwritten) and for 16-bit samples below row 0 (C72_16bit_false, from C08)."
  },
  {
   "property": "C73",
   "status": "partial",
   "theorems": [
    "Ezk.Props.C73_local_partial",
    "Ezk.Props.C73_change_partial",
    "Ezk.Props.C73_ictcp_false"
   ],
   "note": "Proved for any arithmetic and all destinations (C73_local_partial, C73_change_partial), except the chroma of 4:2:0 ICtCp destinations, where it is false (C73_ictcp_false: on AVX2 column 24 changes the chroma of column 16), and 4:4:4 sources with unequal strides (C16_skewed: padding has an influence)."
  },
  {
   "property": "C74",
   "status": "partial",
   "theorems": [
    "Ezk.Props.C74_black",
    "Ezk.Props.C74_white_partial",
    "Ezk.Props.C74_yuv_black_partial",
    "Ezk.Props.C74_yuv_white_partial",
    "Ezk.Props.C74_yuv_white_false"
   ],
   "note": "RGB: black proved without exception (C74_black). White (C74_white_partial): 255 where stores round, 254 or 255 where they truncate (254 does occur, C62_white_false); false for PQ destinations (C49_white_to_pq) and for PQ to Linear on AVX2/AVX-512 (C50_linear_black). YUV: C74_yuv_black_partial for all matrices, every source, every destination but the gammas (NaN, C50_gamma_yuv_black), C74_yuv_white_partial for BT.601/BT.709 without PQ; exact with 8 bits where stores round, up to one code less where they truncate; with more bits up to one code and 0.2%. False in BT.2020, where white always becomes a grey of at most 165: C74_yuv_white_false. ICtCp is left out. The exclusions of gamma and PQ hold only when the transfer function or the primaries change."
  },
  {
   "property": "C75",
   "status": "partial",
   "theorems": [
    "Ezk.Props.C75_grey_order_partial",
    "Ezk.Props.C75_order_false",
    "Ezk.Props.C75_video_partial",
    "Ezk.Props.C75_video_luma_partial",
    "Ezk.Props.C75_luma_partial"
   ],
   "note": "C75_grey_order_partial: every source and destination transfer function; PQ to Linear only where stores truncate (elsewhere everything is black, C50_linear_black). False when the brighter pixel is in a column whose stores truncate and the darker in one whose stores round: C75_order_false. C75_luma_partial: luma of YUV destinations (all three matrices, both ranges, every format), neither side in PQ, black pixels included except in gamma destinations (which store NaN for it, C50_gamma_yuv_black). From 8-bit limited-range YUV with luma 16 to 235: C75_video_partial (to RGB; every pair of transfer functions, PQ to Linear as above) and C75_video_luma_partial (to YUV with a change of transfer function or primaries, neither side in PQ, not luma 16 in gamma destinations)."
  },
  {
   "property": "C76",
   "status": "partial",
   "theorems": [
    "Ezk.Props.C76_same_partial",
    "Ezk.Props.C76_change_partial",
    "Ezk.Props.C76_to_yuv_partial",
    "Ezk.Props.C76_yuv_yuv_partial"
   ],
   "note": "C76_same_partial (no change of transfer function or primaries: equal codes), C76_change_partial (three codes within one; luma at least 16, for PQ sources at most 235, PQ to Linear only where stores truncate), C76_to_yuv_partial (BT.601/709, not PQ sources, not black in gamma destinations, where the code stores NaN: C50_gamma_yuv_black). Full range and 10/12-bit sources are not claimed: false by C56_full_grey_false and C56_deep_*; a change may make the three codes differ by one: C62_white_false. C76_yuv_yuv_partial: chroma from YUV to YUV with a change (BT.601/709 destinations, no PQ sources, luma 16 to 235, not 16 in gamma destinations)."
  },
  {
   "property": "C77",
   "status": "partial",
   "theorems": [
    "Ezk.Props.C77_black",
    "Ezk.Props.C77_white_partial",
    "Ezk.Props.C77_yuv_black_partial",
    "Ezk.Props.C77_yuv_white_partial",
    "Ezk.Props.C77_yuv_white_false"
   ],
   "note": "C77_black is unrestricted (luma 16 exactly, every transfer function). C77_white_partial: 255 where stores round, 254 or 255 where they truncate; PQ destinations only without a change (the white of the other functions is dark in the unit of light of PQ, C49_white_to_pq), PQ sources in a change only with luma 235 and to Linear only where stores truncate (C50_linear_black: AVX2 and AVX-512 store light beyond 129 as 0). To YUV: C77_yuv_black_partial and C77_yuv_white_partial (gamma and PQ destinations are excluded only when the transfer function or the primaries change; BT.601/BT.709 for white). C77_yuv_white_false: with a BT.2020 destination white becomes luma of at most 165, even when I420 is only repacked as NV12."
  },
  {
   "property": "C78",
   "status": "proved",
   "theorems": [
    "Ezk.Props.C78_sources",
    "Ezk.Props.C78_destinations"
   ],
   "note": "Any float arithmetic. C78_sources puts no condition on alpha and also covers the path without RGB in between (same format and colour)."
  },
  {
   "property": "C79",
   "status": "partial",
   "theorems": [
    "Ezk.Props.C79_curve_partial",
    "Ezk.Props.C79_separate_partial",
    "Ezk.Props.C79_order_partial"
   ],
   "note": "For an accurate libm. Curve and separation: sources other than PQ, destinations Linear, SRGB and SDR; order: sources Linear, SRGB and SDR, destinations other than PQ. In the others the light of the darkest codes is less than the traces that the other channels leave after the way through XYZ, as bounded here."
  },
  {
   "property": "C80",
   "status": "proved",
   "theorems": [
    "Ezk.Props.C80_fits",
    "Ezk.Props.C80_round_trip",
    "Ezk.Props.C80_narrow_clips"
   ],
   "note": "C80_fits is about the exact light of the colours, which C50 relates to the codes. The round trip is for the transfer function Linear; with curved ones the rounding of the codes in between is magnified near black. C80_narrow_clips: from BT.2020 to the others all greens of 240 and more become one colour."
  },
  {
   "property": "C81",
   "status": "proved",
   "theorems": [
    "Ezk.Props.C81_detour",
    "Ezk.Props.C81_repack"
   ],
   "note": "BT.601 and BT.709 (for BT.2020 see the witness of C43). C81_detour: RGB sources; the bound of two codes in truncating columns leaves room for the error of binary32 next to a whole number. C81_repack: YUV sources, exact, for widths at which all columns of the repacking are vector columns of AVX2 or AVX-512; C51_repack_inexact shows that truncating stores may change a sample."
  },
  {
   "property": "C82",
   "status": "proved",
   "theorems": [
    "Ezk.Props.C82_rgb_to_yuv",
    "Ezk.Props.C82_yuv_to_rgb",
    "Ezk.Props.C82_yuv_to_yuv"
   ],
   "note": "BT.601 and BT.709 without a change of transfer function or primaries. Equality is false already of a flat image that is mirrored (C60_border_false); where the columns are computed by the same code and chroma is not averaged it holds (C60_equal_pixels_partial). C82_yuv_to_yuv excludes ideal codes outside of the depth (as C51) and the copying of one of the two images without any change."
  },
  {
   "property": "C83",
   "status": "partial",
   "theorems": [
    "Ezk.Props.C83_agree_partial",
    "Ezk.Props.C83_pq_false",
    "Ezk.Props.C83_yuv_partial",
    "Ezk.Props.C83_cube_false",
    "Ezk.Props.C83_to_yuv_partial"
   ],
   "note": "Partial: RGB destinations, and YUV destinations of 8 bits with BT.601 or BT.709, the transfer functions Linear, SRGB and SDR and ideal codes that the format has (C83_to_yuv_partial, for NEON without light below 0, see C53). C83_pq_false shows that the claim is false for PQ sources (white becomes black on AVX2 and white on NEON, see C50), C83_cube_false that it is false for YUV colours outside of the RGB cube (NEON compares magnitudes, see C52). The bounds for HLG and the gammas are not sharp; roots magnify the errors of dark light."
  },
  {
   "property": "C84",
   "status": "proved",
   "theorems": [
    "Ezk.Props.C84_round_trip",
    "Ezk.Props.C84_dark_lost"
   ],
   "note": "PQ in between is left out: its signals are for 10000 cd/m², of which white is only 1. C84_dark_lost: the sRGB codes up to 6, the SDR codes up to 2, the gamma codes up to 11 and the HLG codes up to 19 become black in a Linear image on every platform and in every column."
  },
  {
   "property": "C85",
   "status": "proved",
   "theorems": [
    "Ezk.Props.C85_decode_darkens",
    "Ezk.Props.C85_encode_brightens"
   ],
   "note": "PQ is left out, whose white is 10000 times that of the others. The SDR decoder is a little above 1 at white, which rounding hides."
  }
 ]
}