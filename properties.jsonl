{"id": "C01", "title": "bounds_check accepts only images whose every sample is addressable", "statement": "If `ImageRefExt::bounds_check` returns Ok for an image, then for every pixel (x,y) inside width x height (for subsampled channels: rounded down to the subsampling, since bounds_check divides sizes rounding down) and every channel the format stores, all bytes of that sample lie inside the slice of the plane that holds it, and the samples of one row lie inside that row's stride.", "quantifier": "for every pixel format, every width/height/stride, every list of planes of any length", "why_tests_cant": "sizes, strides and plane lengths are unbounded; a test covers a handful of shapes", "anchors": ["src/pixel_format.rs: PixelFormat::bounds_check", "src/plane_decs.rs: PlaneDesc, Op", "src/planes.rs: read_planes", "src/image_traits.rs: ImageRefExt::bounds_check"]}
{"id": "C02", "title": "bounds_check decides exactly and reports the first violation", "statement": "bounds_check returns Ok exactly when there are enough planes and every plane has stride >= packed stride and length >= stride*rows; otherwise it reports either the number of planes it found, or the first plane in order that violates (stride tested before size) together with the exact minimum and the actual value; it panics only if stride*rows or the packed stride overflows usize.", "quantifier": "for every format, size and plane list", "why_tests_cant": "a decision table over unbounded integers with overflow as a third outcome", "anchors": ["src/pixel_format.rs: PixelFormat::bounds_check, BoundsCheckError", "src/planes.rs: InvalidNumberOfPlanesError, read_planes"]}
{"id": "C03", "title": "buffer_size is exactly what a packed image needs", "statement": "`PixelFormat::buffer_size(w,h)` equals the sum over planes of packed stride times rows, a buffer of that many bytes is accepted by `Image::from_buffer` with default strides, and with one byte less it is not accepted (error or panic).", "quantifier": "for every format and every nonzero width and height whose size does not overflow", "why_tests_cant": "must hold for all sizes including odd ones and both sample widths", "anchors": ["src/pixel_format.rs: buffer_size, packed_strides", "src/image.rs: Image::from_buffer", "src/planes.rs: infer"]}
{"id": "C04", "title": "Image::blank always produces a valid image", "statement": "For every size that does not overflow, `Image::blank` yields an image that passes bounds_check and whose bytes are all zero.", "quantifier": "for every format, width, height, colour info", "why_tests_cant": "all sizes, including odd and zero", "anchors": ["src/image.rs: Image::blank", "src/pixel_format.rs: buffer_size, packed_strides"]}
{"id": "C05", "title": "plane inference partitions the buffer", "statement": "`infer` on a multi-plane format returns consecutive, pairwise disjoint slices that start at the beginning of the buffer, in plane order, each exactly stride*rows long; it panics exactly when the stride count is wrong or the buffer is shorter than the sum (or an overflow occurs). For single-plane formats it returns the whole buffer.", "quantifier": "for every format, buffer, size and optional strides", "why_tests_cant": "disjointness of the mutable slices must hold for every stride/size combination", "anchors": ["src/planes.rs: infer, infer_impl, AnySlice"]}
{"id": "C06", "title": "a constructed Image stays valid", "statement": "If from_buffer/from_planes returns Ok, the image has nonzero dimensions and passes bounds_check, and it keeps passing after any sequence of conversions, copies, resizes into it (no operation changes its geometry). Zero dimensions are rejected before anything else.", "quantifier": "for every constructor argument and every history of operations on the image", "why_tests_cant": "histories are unbounded", "anchors": ["src/image.rs: Image::new, from_buffer, from_planes"]}
{"id": "C07", "title": "crop accepts exactly the windows inside the image", "statement": "`crop` returns Ok exactly when the parent passes bounds_check and x+width <= parent width and y+height <= parent height, with the additions not overflowing; otherwise it returns the bounds-check error or WindowSizeOutOfBounds.", "quantifier": "for every image and every window with arbitrary usize fields", "why_tests_cant": "overflowing windows cannot be enumerated", "anchors": ["src/crop.rs: Cropped::new, CropError, Window"]}
{"id": "C08", "title": "a cropped image shows the window's pixels", "statement": "Sample c of pixel (i,j) of the cropped image is sample c of pixel (x+i, y+j) of the parent; reading a cropped view never panics.", "quantifier": "for every accepted window (aligned to the chroma grid), format and stride", "why_tests_cant": "positions, strides and formats are unbounded; the 16-bit and bottom-row cases are corner cases a sample misses", "anchors": ["src/crop.rs: crop_planes, ImageRef for Cropped"]}
{"id": "C09", "title": "crops compose", "statement": "Cropping a cropped image by a second window gives the same view (same samples) as cropping once with the sum of the offsets.", "quantifier": "for every image, every pair of nested windows, any nesting depth", "why_tests_cant": "nesting depth and offsets unbounded", "anchors": ["src/crop.rs: Cropped::new, crop_planes"]}
{"id": "C10", "title": "convert never touches memory outside the given planes", "statement": "`convert` performs no out-of-bounds read or write of any plane, whatever images are passed (any ImageRef/ImageMut implementation honouring the trait contract).", "quantifier": "for every pair of images, formats, strides, plane lengths, colour infos and every CPU backend", "why_tests_cant": "a single bad stride combination is undefined behaviour in release builds", "anchors": ["src/primitive.rs: Primitive::load/write", "src/formats/*/read.rs", "src/formats/*/write.rs", "src/formats/visit_2x2.rs"]}
{"id": "C11", "title": "convert never panics on valid images", "statement": "If both images pass bounds_check, have equal and even dimensions, convert returns (Ok or InvalidColorInfo) and does not panic.", "quantifier": "for every pair of valid images", "why_tests_cant": "index arithmetic must be in range for every size/stride", "anchors": ["src/lib.rs: convert", "src/formats/*"]}
{"id": "C12", "title": "convert fails exactly in the documented cases, in a fixed order", "statement": "convert returns MismatchedImageSize iff sizes differ; else OddImageDimensions iff a dimension is odd; else the source's then the destination's problems: a failing bounds check of the source, InvalidColorInfo for a YUV format with RGB colour info, then the same for the destination colour and bounds; otherwise Ok.", "quantifier": "for every pair of images and colour infos", "why_tests_cant": "the decision table ranges over arbitrary images", "anchors": ["src/lib.rs: convert, verify_input_windows, ConvertError", "src/formats/*/to_rgb.rs: new", "src/formats/*/from_rgb.rs: new"]}
{"id": "C13", "title": "a failed convert leaves the destination unchanged", "statement": "Whenever convert returns Err, no byte of memory has changed.", "quantifier": "for every pair of images", "why_tests_cant": "must hold on every error path for every input", "anchors": ["src/lib.rs: convert", "src/formats/*/write.rs: write"]}
{"id": "C14", "title": "convert writes every destination sample with the specified value", "statement": "After convert returns Ok, every sample of every pixel of the destination has the value obtained by reading the source pixel (normalise, range-expand, YUV->RGB), applying the transfer/primaries conversion iff needed, and encoding to the destination format (RGB->YUV, chroma averaged over its pixel group, range-compress, scale, quantise).", "quantifier": "for every pair of valid images, every pixel, every channel, every vector width", "why_tests_cant": "pixel positions interact with vector width, tails and strides", "anchors": ["src/lib.rs: convert", "src/formats/*", "src/color/space.rs", "src/vector/mod.rs"]}
{"id": "C15", "title": "convert leaves padding and surroundings untouched", "statement": "Convert changes no byte other than the bytes of destination samples: row padding, bytes after the last row, bytes outside a crop window and the source image keep their values.", "quantifier": "for every pair of images, every address", "why_tests_cant": "frame condition over all addresses", "anchors": ["src/formats/*/write.rs", "src/crop.rs"]}
{"id": "C16", "title": "convert does not depend on padding, strides or storage of the source", "statement": "Two source images with the same format, size, colour and samples give the same destination samples, no matter how strides, padding bytes and plane placement differ.", "quantifier": "for every two source images with equal samples", "why_tests_cant": "non-interference over unbounded padding contents", "anchors": ["src/formats/*/read.rs"]}
{"id": "C17", "title": "every 2x2 block is visited exactly once", "statement": "The traversal of the image visits each 2x2 pixel block exactly once, and never a block outside of the image, for every even size.", "quantifier": "for every even width/height and every vector length >= 1", "why_tests_cant": "tiling must be exact for every remainder width mod (2*LEN)", "anchors": ["src/formats/visit_2x2.rs: visit_impl"]}
{"id": "C18", "title": "results do not depend on the SIMD width", "statement": "Two backends whose lane arithmetic agrees produce byte-identical destinations, whatever their vector lengths and however width splits in vector part and tail.", "quantifier": "for every image pair, every two lawful vector lengths", "why_tests_cant": "lane order bugs show up only for certain widths/positions", "anchors": ["src/formats/visit_2x2.rs", "src/vector/*", "src/color/space.rs: rgbx4_to_yx4_uv"]}
{"id": "C19", "title": "SIMD lane permutations are correct", "statement": "For the scalar, AVX2, AVX-512 and NEON vectors: zip interleaves, unzip de-interleaves (and they are inverse), loads put byte i of a plane in lane i, interleaved loads split 3/4-channel pixels, and stores put lane i back at position i; each touches exactly the documented number of bytes.", "quantifier": "for all lane contents of any type", "why_tests_cant": "the contents of the lanes are arbitrary floats", "anchors": ["src/vector/mod.rs", "src/vector/avx2.rs", "src/vector/avx512.rs", "src/vector/neon.rs"]}
{"id": "C20", "title": "multi-threaded conversion equals single-threaded conversion", "statement": "For valid images, `convert_multi_thread` gives exactly the same memory and result as `convert`, for every number of threads and every interleaving of the workers.", "quantifier": "for every thread count and every schedule", "why_tests_cant": "schedules cannot be enumerated by tests", "anchors": ["src/multi_thread.rs: convert_multi_thread, split_planes"]}
{"id": "C21", "title": "the work split is a partition into even strips", "statement": "The strips handed to the workers have even positive height, their heights add up to the image height, there are at most `threads` of them, they differ by at most one 2-row section, and the plane slices of strip k directly follow those of strip k-1.", "quantifier": "for every image size and thread count", "why_tests_cant": "arithmetic over all heights and thread counts", "anchors": ["src/multi_thread.rs: split_planes"]}
{"id": "C22", "title": "multi-threaded conversion of degenerate images behaves like convert", "statement": "`convert_multi_thread` returns what `convert` returns also for empty or invalid images (no panic).", "quantifier": "for every pair of images", "why_tests_cant": "needs all degenerate inputs", "anchors": ["src/multi_thread.rs: split_planes, convert_multi_thread"]}
{"id": "C23", "title": "converting without a format or colour change is lossless", "statement": "If source and destination have the same format and colour, convert copies every sample bit-exactly.", "quantifier": "for every sample value of every format, in IEEE f32 arithmetic, on truncating and on rounding backends", "why_tests_cant": "the exactness must hold for every sample value in float arithmetic, in combination with every position", "anchors": ["src/lib.rs: convert_same_color_and_pixel_format", "src/formats/mod.rs: max_value_for_bits", "src/vector/mod.rs: write_u8"]}
{"id": "C24", "title": "channel reordering is lossless", "statement": "RGBA<->BGRA and RGB<->BGR and RGBA->RGB conversions with equal colour copy each colour channel exactly; and RGBA->BGRA->RGBA restores the image.", "quantifier": "for every image", "why_tests_cant": "every sample value and position", "anchors": ["src/formats/rgba/read.rs", "src/formats/rgba/write.rs", "src/formats/rgb/read.rs", "src/formats/rgb/write.rs"]}
{"id": "C25", "title": "alpha is opaque or preserved", "statement": "Converting from a format without alpha to RGBA/BGRA writes the maximum alpha everywhere; converting between RGBA and BGRA keeps alpha exactly, also when transfer function or primaries are converted.", "quantifier": "for every image and colour pair", "why_tests_cant": "every pixel, every colour combination", "anchors": ["src/formats/transfer_and_primaries_convert.rs", "src/formats/*/to_rgb.rs", "src/formats/rgb/read.rs"]}
{"id": "C26", "title": "YUV<->RGB matrices are inverse", "statement": "In exact arithmetic, converting RGB to YUV and back gives the same RGB, and YUV to RGB and back gives the same YUV, for every non-ICtCp colour space.", "quantifier": "for all real r,g,b / y,u,v", "why_tests_cant": "algebraic identity over the reals", "anchors": ["src/color/space.rs: make_matrices, convert_yuv_to_rgb_matrix, convert_rgb_to_yuv_matrix"]}
{"id": "C27", "title": "greys have neutral chroma and correct luma", "statement": "A grey r=g=b maps to y=r, u=v=0 and back, for every non-ICtCp colour space.", "quantifier": "for all real grey levels", "why_tests_cant": "identity over the reals", "anchors": ["src/color/space.rs: make_matrices"]}
{"id": "C28", "title": "in-range RGB gives in-range YUV codes", "statement": "For r,g,b in [0,1] the encoded Y,U,V lie in [0,1]; in limited range in [16/255,235/255] resp. [16/255,240/255], so the 8-bit codes lie in 16..=235 / 16..=240.", "quantifier": "for all real r,g,b in [0,1]", "why_tests_cant": "continuum of inputs", "anchors": ["src/formats/*/from_rgb.rs", "src/color/space.rs"]}
{"id": "C29", "title": "range expansion and compression are inverse", "statement": "The limited-range expansion on read and compression on write are inverse of each other and map [16,235] resp. [16,240] onto [0,1].", "quantifier": "for all reals", "why_tests_cant": "identity over the reals", "anchors": ["src/formats/i420/to_rgb.rs", "src/formats/i420/from_rgb.rs"]}
{"id": "C30", "title": "transfer functions are inverse and monotone", "statement": "scaled_to_linear(linear_to_scaled(x)) = x for every x in the transfer's domain, and both are monotone and map 0 to 0.", "quantifier": "for all real x >= 0, every transfer", "why_tests_cant": "transcendental functions over a continuum", "anchors": ["src/color/transfer.rs"]}
{"id": "C31", "title": "primaries matrices are inverse up to rounding", "statement": "For every primaries, xyz_to_rgb(rgb_to_xyz(c)) differs from c by at most 1e-6 times the largest component; hence converting between primaries and back is the identity up to that bound.", "quantifier": "for all real colours", "why_tests_cant": "must hold for all colour vectors", "anchors": ["src/color/primaries.rs"]}
{"id": "C32", "title": "transfer/primaries conversion happens iff needed", "statement": "If source and destination agree in transfer and primaries, the RGB values are passed on unchanged; otherwise each is linearised, mapped through XYZ and re-encoded; the decision ignores colour space and range.", "quantifier": "for every pair of colour infos", "why_tests_cant": "must hold for every combination and pixel", "anchors": ["src/formats/transfer_and_primaries_convert.rs: need_transfer_and_primaries_convert, read", "src/lib.rs: convert"]}
{"id": "C33", "title": "chroma sub-sampling averages the right pixels", "statement": "For 4:2:0 destinations the chroma sample equals the chroma of the mean RGB of its 2x2 pixels; for 4:2:2 the mean of the chroma of its two pixels; each luma sample depends only on its own pixel.", "quantifier": "for every image, position and vector length", "why_tests_cant": "position/lane interaction", "anchors": ["src/color/space.rs: rgbx4_to_yx4_uv_matrix, bt2100_rgbx4_to_yx4_uv", "src/formats/i422/from_rgb.rs"]}
{"id": "C34", "title": "stores saturate", "statement": "A value is stored as the nearest representable code: values above the maximum store the maximum, below zero store zero, and in-range values are off by less than one code from the exact value, on every backend.", "quantifier": "for every float value", "why_tests_cant": "all floats", "anchors": ["src/vector/mod.rs: write_u8", "src/vector/avx2.rs: f32x8_to_u8x8 etc.", "src/vector/avx512.rs", "src/vector/neon.rs"]}
{"id": "C35", "title": "scalar tail and SIMD body agree up to one code", "statement": "For the same in-range float the scalar store (truncating) and the AVX2 store (rounding) differ by at most one code, so the tail columns differ from the body by at most one code.", "quantifier": "for every in-range float value", "why_tests_cant": "all floats", "anchors": ["src/vector/mod.rs: write_u8", "src/vector/avx2.rs"]}
{"id": "C36", "title": "copy transfers exactly the image samples", "statement": "`copy` makes every destination sample equal to the source sample and changes nothing else.", "quantifier": "for every pair of images of one format", "why_tests_cant": "unbounded rows/strides; bytes beyond the image", "anchors": ["src/copy.rs: copy_impl, copy"]}
{"id": "C37", "title": "resize rejects differing formats and touches only image rows", "statement": "`Resizer::resize` returns DifferentFormats and changes nothing iff formats differ; otherwise every plane is resized exactly once from the matching source plane, whose view has the plane's pixel width and rows.", "quantifier": "for every pair of images and any history of calls of one Resizer", "why_tests_cant": "history and geometry unbounded", "anchors": ["src/resize.rs: Resizer::resize, FirAdapterIntoImageView"]}
{"id": "C38", "title": "10/12-bit samples stay within their bit depth", "statement": "Every 16-bit sample written by convert for a 10-bit (12-bit) format is at most 1023 (4095).", "quantifier": "for every source image and colour pair", "why_tests_cant": "depends on all float values reaching the store", "anchors": ["src/vector/*: write_u16", "src/formats/*/write.rs"]}
{"id": "C39", "title": "u16 samples survive a store/load round trip", "statement": "A 16-bit sample stored by a writer and loaded by the matching reader is the same number.", "quantifier": "for every u16, every position", "why_tests_cant": "all values and positions", "anchors": ["src/vector/mod.rs: load_u16, write_u16", "src/primitive.rs"]}
{"id": "C40", "title": "plane layouts of NV12/I420 and YUYV/I422 carry the same pixels", "statement": "Converting I420<->NV12 or I422<->YUYV source of the same samples to any common destination gives identical destinations.", "quantifier": "for every image pair with equal samples", "why_tests_cant": "all images, positions, widths", "anchors": ["src/formats/nv12/read.rs", "src/formats/yuyv/read.rs", "src/formats/i420/read.rs", "src/formats/i422/read.rs"]}
{"id": "C41", "title": "YUV follows the named standard", "statement": "For BT601, BT709 and BT2020 the luma of an RGB colour is kr*R+kg*G+kb*B with the weights of that ITU-R recommendation, and the chroma values are (B-Y)/(2(1-kb)) and (R-Y)/(2(1-kr)).", "quantifier": "for all real r,g,b, every matrix colour space", "why_tests_cant": "identity over the reals; a test compares a few colours with a tolerance that hides wrong weights", "anchors": ["src/color/space.rs: make_matrices, BT601/BT709/BT2020 constants"]}
{"id": "C42", "title": "primaries follow the named standard", "statement": "For every ColorPrimaries the rgb_to_xyz matrix maps pure red, green and blue to the CIE chromaticities of the named standard and white to D65 with luminance 1, up to 1e-6.", "quantifier": "for every primaries (finite table), exact real arithmetic", "why_tests_cant": "the repository's tests regenerate the matrices from the same chromaticities they should check", "anchors": ["src/color/primaries.rs: rgb_to_xyz_mat, generated_consts"]}
{"id": "C43", "title": "RGB to YUV is accurate to one code", "statement": "Converting an 8-bit RGB image to any YUV format with the same transfer function and primaries stores, in every Y, U and V sample, a code within 1.021 of the real number the named standard's equations (weights, mean over the chroma cell) give for the source pixels, the range being the stated part of 0..2^n-1 (C56 compares this with the standards' n-bit codes).", "quantifier": "for all images, contents, strides, windows, every platform and column, every matrix colour space, both ranges, 8/10/12 bit", "why_tests_cant": "an error bound over every binary32 rounding and every pixel value; a test compares a few colours with a tolerance", "anchors": ["src/formats/i4*/from_rgb.rs", "src/formats/i420/write.rs: I420Writer", "src/color/space.rs: make_matrices", "src/vector/*.rs: float32x4_to_*"]}
{"id": "C44", "title": "YUV to RGB is accurate to one code", "statement": "Converting a YUV image whose samples lie within their depth to RGB with the same transfer function and primaries stores, in every R, G and B byte, a value within 1.0025 of the standard's equations clamped to 0..255, the range being the stated part of 0..2^n-1 (see C56).", "quantifier": "for all images, contents, strides, windows, every platform and column, matrix colour spaces, both ranges, 8/10/12 bit", "why_tests_cant": "an error bound over every binary32 rounding and all 2^24 YUV codes per depth, with the saturation of every store instruction", "anchors": ["src/formats/i4*/to_rgb.rs", "src/color/space.rs: yuv_to_rgb", "src/formats/rgb/write.rs"]}
{"id": "C45", "title": "RGB -> YUV -> RGB round trip", "statement": "Converting RGB to YUV and back returns every channel of a pixel whose chroma cell is uniform within 4 of the original for 8-bit YUV and within 1 for 10/12-bit YUV, even when the two conversions run on different platforms.", "quantifier": "for all images, pixel values, both ranges, all YUV formats, all pairs of platforms", "why_tests_cant": "composition of two conversions over all 2^24 colours and all layouts; tests round trip one picture", "anchors": ["src/formats/i4*/from_rgb.rs", "src/formats/i4*/to_rgb.rs", "src/lib.rs: convert"]}
{"id": "C46", "title": "operations touch nothing but their destination, in any history", "statement": "Over any program run (constructing, dropping, cropping, writing, converting, converting on many threads, copying, resizing, with operations that return errors or panic half-way and are caught), an image that is neither dropped nor used as a destination keeps every byte and shows the same picture, and a conversion's result stays until it is overwritten; and the borrow rules alone give each conversion the non-overlap conditions its correctness needs.", "quantifier": "for every history of any length over any number of images, every interleaving of worker threads, every point at which an operation may panic", "why_tests_cant": "histories, interleavings and panic points are unbounded", "anchors": ["src/lib.rs: convert", "src/multi_thread.rs: convert_multi_thread, split_planes", "src/copy.rs", "src/resize.rs", "src/image.rs", "src/crop.rs"]}
{"id": "C47", "title": "the vector code's own ln, pow and sqrt are accurate", "statement": "On AVX2, AVX-512 and NEON the transfer functions use the crate's own approximations of ln, exp and pow (bit tricks and polynomials) instead of the system's. For every finite normal argument ln(x) is within 1e-7*(1+|ln x|); pow(x, y) with |y| <= 100 that does not overflow is within a relative error of 4.3e-7 + 1.7e-7*|y|*(1+|ln x|); positive powers of zero and subnormal numbers are nearly zero; sqrt is within 7e-8 relative.", "quantifier": "for every bit pattern of the base and every exponent up to 100, on each SIMD platform", "why_tests_cant": "There are 2^32 bases times as many exponents; range reduction by bit manipulation can fail at any binade boundary, at subnormals or at the clamping thresholds.", "anchors": ["src/vector/avx2.rs:51-64", "src/vector/avx2.rs:426-545", "src/vector/avx512.rs:445-564", "src/vector/neon.rs:326-476"]}
{"id": "C48", "title": "computed transfer functions are accurate", "statement": "On every platform, in every column (vector or scalar), decoding a signal in [0,1] to light and encoding light in [0,2] to a signal yields a number within 2.5e-6 of the formula in the source evaluated exactly, for Linear, Gamma22, Gamma28, SRGB, SDR and HLG (for SDR encoding except at the single float that is the code's own threshold, where the two branches are 2.5e-4 apart). For PQ: light (cd/m^2) within a relative error of 5e-4 (plus 1e-10 cd/m^2), signals of light in [0,10000] within 5e-5. In particular never NaN or infinite.", "quantifier": "for every binary32 number in range, every platform, every lane, every system powf/sqrt/ln meeting the accuracy of the crate's own", "why_tests_cant": "about 2^30 arguments per function and platform; errors hide at thresholds, binade boundaries, subnormals and signed zeros", "anchors": ["src/color/transfer.rs:38-109", "src/color/transfer.rs:112-268", "src/vector/avx2.rs:426-545", "src/vector/neon.rs:326-476"]}
{"id": "C49", "title": "transfer functions are those of the standards", "statement": "The formulas in the source agree with IEC 61966-2-1 (sRGB), BT.709/H.273 (SDR), SMPTE ST 2084 (PQ) and BT.2100 (HLG): exactly for Linear, Gamma22, Gamma28 and SRGB, within 1e-6 for HLG, within 0.2 cd/m2 of 10000 and 1e-5 of the signal for PQ, and within 1e-3 (light) and 3e-4 (signal) for SDR. PQ light is in cd/m2 while all others have white 1, and nothing rescales between them.", "quantifier": "for all signals in [0,1] and all light up to 2 (PQ: 10000)", "why_tests_cant": "agreement with a real-valued formula over a continuum; constants mistyped in one digit change all values a little", "anchors": ["src/color/transfer.rs:112-268"]}
{"id": "C50", "title": "changing transfer function and primaries is accurate", "statement": "Converting an RGB image to an RGB image with another transfer function or other primaries stores, on every platform and in every column, the code the exact formulas give. The light itself is right to 1.2e-5 of white, for PQ sources to 0.15% of the brightest component. In codes this is an error of at most 1.1 for Linear, SRGB and SDR destinations, 1.7 for PQ, 2.6 for HLG and Gamma22 and 5.5 for Gamma28 (whose roots magnify errors of dark light). Light outside of the destination's gamut counts as 0, light too bright as white; no component is NaN garbage.", "quantifier": "for all 2^24 colours, all images and sizes, all pairs of colour infos, all platforms", "why_tests_cant": "2^24 colours times 18*17 pairs of colour infos times four platforms; the worst cases are a few dark saturated colours", "anchors": ["src/color/transfer.rs", "src/color/primaries.rs", "src/formats/rgb/*", "src/lib.rs: convert"]}
{"id": "C51", "title": "YUV to YUV is accurate to one code, repacking keeps the samples", "statement": "Converting a YUV image to another YUV format, range, depth or matrix of the same transfer function and primaries stores, in every luma and chroma sample, a value within one code (plus 6e-5 of the range) of what the standards' equations give (ranges as parts of 0..2^n-1, see C56). If only the layout changes (I420 to NV12, I422 to YUYV, I420 to I444, 10 bit alike), every sample is kept within one code, and exactly on the columns of AVX2 and AVX-512 whose stores round.", "quantifier": "for all images, contents, sizes, strides, all pairs of YUV formats, ranges and matrices, every platform and column", "why_tests_cant": "two colour conversions in binary32 lie between source and destination; an error bound over all roundings for all 2^24 codes per depth and all pairs of formats", "anchors": ["src/formats/i4*/to_rgb.rs", "src/formats/i4*/from_rgb.rs", "src/color/space.rs", "src/lib.rs: convert"]}
{"id": "C52", "title": "YUV to RGB with a change of transfer function or primaries is accurate", "statement": "Converting a YUV image (BT.601 or BT.709 matrix, any range and depth) to an RGB image with another transfer function or other primaries stores, on every platform and in every column, the code the exact formulas give, also for codes that stand for colours outside of the RGB cube: the light is right to 1.4e-4 of white, and the stored code is within 1.5 codes of the exact one for Linear, SRGB and SDR destinations. One component slightly below 0, as any saturated colour has after quantisation, does not spoil the others.", "quantifier": "for all contents (all 2^24 to 2^36 codes per pixel, those outside of the RGB cube included), sizes, strides, YUV formats, ranges, destination colour infos, platforms and columns", "why_tests_cant": "an error bound over every rounding of three matrices, three powers and a store, for all codes of all depths; the failures (gamma sources on x86, NEON's comparisons) need particular colours", "anchors": ["src/formats/i4*/to_rgb.rs", "src/color/space.rs", "src/color/transfer.rs", "src/color/primaries.rs", "src/vector/neon.rs"]}
{"id": "C53", "title": "RGB or YUV to YUV with a change of transfer function or primaries is accurate", "statement": "Converting an RGB or YUV image to a YUV image (BT.601 or BT.709 matrix, any chroma sub-sampling, range and depth) with another transfer function or other primaries stores, in every luma and chroma sample whose ideal code exists in the destination, a code within one (plus 8e-5 to 1.8e-3 of the range; up to 6.2e-3 for HLG and PQ, which are steep at black) of what the exact formulas give: light of the pixels, matrices of the primaries, signals, luma or mean of the chroma of the cell. Light below 0, as saturated colours have in narrower primaries, enters with its sign on every platform, or as 0 if the transfer function is HLG or PQ.", "quantifier": "for all contents, sizes, strides, source formats and colour infos, YUV destination formats, ranges and depths, platforms and columns", "why_tests_cant": "an error bound over every rounding of up to four matrices, six powers per pixel, the mean of up to four pixels and the store, for all codes of all depths; the failure on NEON needs colours outside of the destination's primaries", "anchors": ["src/formats/i4*/from_rgb.rs", "src/color/space.rs", "src/color/transfer.rs", "src/color/primaries.rs", "src/vector/neon.rs"]}
{"id": "C54", "title": "ICtCp follows BT.2100", "statement": "With the primaries of BT.2020, ICtCp of given light is what ITU-R BT.2100 defines, for the PQ system within 4e-5 (intensity) and 3e-4 (chroma), for the HLG system within 6e-5 and 3e-4; greys are neutral. Conversely light decoded from ICtCp values of the standard is right to 0.2% of the brightest component and 0.031 cd/m2 (PQ), or 2e-4 of the brightest component and 7e-6 of white (HLG).", "quantifier": "for all colours of non-negative light up to 10000 cd/m2 (PQ) or 1 (HLG), every source transfer function, exact real arithmetic", "why_tests_cant": "two-sided bounds for a composition of matrices and transcendental functions over a continuum; PQ is so steep near black that samples say nothing about the rest", "anchors": ["src/color/space.rs: bt2100", "src/color/transfer.rs: bt2100_pq, bt2100_hlg", "src/color/primaries.rs"]}
{"id": "C55", "title": "RGB images become ICtCp images as in BT.2100, to the code", "statement": "A PQ or HLG RGB image with the primaries of BT.2020, converted to ICtCp of the same system, gets codes for the intensity and chroma that ITU-R BT.2100 prescribes for its bytes (the range being the stated part of 0..2^n-1, see C56): the error is below one code plus a share of the range of codes of 1.9e-4 (intensity), 1.3e-3 and 1.6e-3 (CT, CP of PQ), 4.5e-4 and 5.7e-4 (HLG). The chroma of greys is neutral.", "quantifier": "for all images, all RGB sources, YUV formats and depths, full and limited range, every platform, every system libm of the assumed accuracy", "why_tests_cant": "the composition of decoding, two matrices, a second transfer function and a third matrix is evaluated in binary32 with three different exp/log implementations; a test sees single pixels on one CPU", "anchors": ["src/color/space.rs: bt2100", "src/color/transfer.rs", "src/formats/i444/from_rgb.rs"]}
{"id": "C56", "title": "Codes mean what the video standards say they mean", "statement": "The Y, U and V codes written for an RGB image are the ones ITU-R BT.601/709/2020/2100 define for n-bit images: (219 Y + 16) 2^(n-8) and (224 C + 128) 2^(n-8) for limited range, (2^n - 1) Y and (2^n - 1) C + 2^(n-1) for full range, to the code; and images whose codes follow these definitions are converted to the colours they stand for: 10-bit white (940, 512, 512) becomes white, the neutral chroma code 2^(n-1) gives grey.", "quantifier": "for all images, contents, platforms and columns, both directions, both ranges, 8/10/12 bit", "why_tests_cant": "round-trip tests cannot see a scale that is wrong in both directions, and comparing with an external definition to the code has to hold for every pixel value on every platform", "anchors": ["src/color/space.rs", "src/formats/i420/read.rs", "src/formats/i420/write.rs", "src/formats/i4*/read.rs"]}
{"id": "C57", "title": "Conversions keep the order of colours", "statement": "A brighter colour never gets a smaller code: raising red, green or blue of a pixel never lowers its luma code; a chroma cell with more blue and less red and green never gets a smaller U code, one with more red and less green and blue never a smaller V code. Converting back, raising luma lowers no colour code, raising V does not lower red, raising U does not lower blue, lowering both does not lower green. This compares any two pixels, of one image or of two, so gradients stay monotone. If the transfer function changes, or the primaries to larger ones, raising red, green and blue lowers no colour code by more than one.", "quantifier": "for all images, pixels and pairs of pixels, matrix colour spaces (BT.2020 included), both ranges, 8/10/12 bit, every pair of platforms and columns", "why_tests_cant": "a statement about every pair of 2^24 colours and every rounding in between; tests look at colours one at a time", "anchors": ["src/color/space.rs: make_matrices", "src/formats/i4*/write.rs", "src/formats/rgb/write.rs", "src/vector/*.rs: float32x4_to_*"]}
{"id": "C58", "title": "ICtCp images become RGB images as BT.2100 says", "statement": "Converting an ICtCp image (PQ or HLG) to RGB of the same transfer function and primaries shows the light BT.2100 gives: if the samples of a pixel are I, CT, CP of cone signals L', M', S' between 0 and 1, every colour code stored is within 1.03 codes (HLG: 1.002) the signal of a light that differs from that of BT.2100 by at most 0.4% (HLG: 0.03%) of the largest cone response, for cone signals changed by at most 3e-6; negative light counts as 0.", "quantifier": "for all images and pixels, both systems, both ranges, 8/10/12 bit, all subsamplings, every platform with its own approximations of ln, exp and pow", "why_tests_cant": "2^24 to 2^36 sample triples per platform against a non-linear standard with three matrices; a wrong digit in one of 18 constants moves most colours by less than a test's tolerance", "anchors": ["src/color/space.rs: bt2100 pq_yuv_to_rgb, hlg_yuv_to_rgb, bt2100_yx4_uv_to_rgb", "src/color/transfer.rs", "src/color/primaries.rs", "src/vector/mod.rs"]}
{"id": "C59", "title": "Converting a part of an image gives that part of the converted image", "statement": "Images may be converted in tiles, strips or crops: if a source shows an evenly placed window of another source (a Cropped view, or a copy elsewhere with other strides), converting it stores the codes of that window of the other's conversion, in every column that both runs compute with the same code (vector body or scalar rest). In all other columns, and between different platforms, the codes differ by at most one.", "quantifier": "for all images, windows, formats, colour infos, memory contents and strides; the second part for all pairs of platforms, matrix colour spaces without a change of transfer function or primaries", "why_tests_cant": "relates two executions over all images and all ways to cut them; the boundary between vector and scalar columns depends on width and CPU", "anchors": ["src/lib.rs: convert", "src/formats/visit_2x2.rs", "src/crop.rs: Cropped", "src/vector/*.rs"]}
{"id": "C60", "title": "Equal areas get equal codes", "statement": "Flat areas stay flat and repeated patterns stay repeated: two 2x2 cells, at any even positions of one image or of two images of the same format and colour, that show the same samples get the same samples in the conversion, if their columns are computed by the same code (vector body or scalar rest). For RGB and 4:4:4 destinations the same holds for single pixels at any positions.", "quantifier": "for all images, sizes, strides, formats, colour infos, memory contents, positions and arithmetics", "why_tests_cant": "relates all pairs of positions in all pairs of executions; says that nothing but the cell's own samples enters its codes", "anchors": ["src/lib.rs: convert", "src/formats/visit_2x2.rs", "src/formats/*.rs"]}
{"id": "C61", "title": "Codes are rounded to the nearest", "statement": "The code stored is the one nearest to the ideal value of the conversion (up to the error of the floats): in particular, black, white and all greys between them get chroma 128 and luma round(16 + 219 g/255) in limited-range 8-bit images, and colours without chroma become R = G = B = round((Y - 16) 255/219).", "quantifier": "for all RGB or YUV images without a change of transfer function and primaries, all pixels and memory contents, BT.601 and BT.709", "why_tests_cant": "quantifies over all images and colours; distinguishes rounding from truncation with exact bounds on binary32 errors", "anchors": ["src/vector/avx2.rs", "src/vector/avx512.rs", "src/vector/neon.rs", "src/vector/mod.rs", "src/formats/*/write.rs"]}
{"id": "C62", "title": "Greys stay grey when the transfer function or the primaries change", "statement": "A pixel with R = G = B of an RGB image has R = G = B after a change of transfer function, of primaries or of both: all primaries the crate supports share one white point, so neutral colours must not get a tint.", "quantifier": "for all RGB images, sizes, pixels, memory contents, all pairs of transfer functions and primaries, all platforms with their own ln, exp and pow", "why_tests_cant": "quantifies over all images and all 7x7 transfer functions and 3x3 primaries; needs bounds of the floating-point error of the matrices and of the transfer functions near black, relative to the size of the light", "anchors": ["src/formats/transfer_and_primaries_convert.rs", "src/color/primaries.rs", "src/color/transfer.rs"]}
{"id": "C63", "title": "Deep YUV images carry RGB images without loss", "statement": "An RGB image converted to a 10- or 12-bit YUV image and back has the colours it started with, wherever the pixels that share a chroma sample have the same colour (everywhere, for 4:4:4).", "quantifier": "for all RGB images, sizes, pixels and memory contents, all 10- and 12-bit formats, full and limited range, BT.601 and BT.709, two platforms that may differ", "why_tests_cant": "quantifies over all 16.7 million colours, all formats and pairs of platforms; needs the errors of both conversions to add up to less than one code", "anchors": ["src/formats/i444/to_rgb.rs", "src/formats/i444/from_rgb.rs", "src/formats/rgb/read.rs", "src/formats/rgb/write.rs", "src/vector/avx2.rs", "src/vector/avx512.rs"]}
{"id": "C64", "title": "Raising the number of bits is reversible", "statement": "A YUV image converted to one with more bits per sample (the chroma as fine or finer) and then back to the old number of bits has the samples it started with.", "quantifier": "for all YUV images with samples in range, all colours (also such that RGB cannot hold), sizes and pixels, full and limited range, BT.601 and BT.709, two platforms that may differ", "why_tests_cant": "quantifies over all images, formats and pairs of platforms; every sample passes twice through RGB floats in between", "anchors": ["src/formats/i444/to_rgb.rs", "src/formats/i444/from_rgb.rs", "src/formats/rgb/read.rs", "src/formats/rgb/write.rs", "src/vector/avx2.rs", "src/vector/avx512.rs"]}
{"id": "C65", "title": "YUV images survive RGB", "statement": "A YUV image converted to RGB and back to YUV (the same bits, the chroma as fine or finer) has the samples it started with if 8-bit limited range, and otherwise samples that differ by no more than the coarser RGB codes force them to, wherever the colours are ones RGB can hold.", "quantifier": "for all YUV images, sizes, pixels and memory contents whose colours are in gamut, all RGB formats in between, full and limited range, BT.601 and BT.709, two platforms that may differ", "why_tests_cant": "quantifies over all YUV triples, formats and pairs of platforms; needs exact error bounds for both conversions", "anchors": ["src/formats/i444/to_rgb.rs", "src/formats/i444/from_rgb.rs", "src/formats/rgb/read.rs", "src/formats/rgb/write.rs", "src/vector/avx2.rs", "src/vector/avx512.rs"]}
{"id": "C66", "title": "An image may be converted tile by tile", "statement": "If parts of an image are converted one after the other into the same parts of another image, then their pixels get the samples they get when the image is converted as a whole, pixels outside of the parts keep theirs, and if the parts cover the image the memory is the same as after converting it as a whole.", "quantifier": "for all lists of windows (any number, any order, also overlapping), all images, formats, sizes, memory contents and backends; windows start at even columns and rows", "why_tests_cant": "quantifies over all lists of windows and all images; needs an induction over the tiles with an invariant on the whole memory", "anchors": ["src/crop.rs", "src/multi_thread.rs", "src/formats/visit_2x2.rs"]}
{"id": "C67", "title": "Images do not decay over the generations", "statement": "However often an RGB image is converted to 10- or 12-bit YUV and back, or an 8-bit limited-range YUV image to RGB and back, it shows the colours it started with (where RGB can hold them, and pixels that share a chroma sample have the same colour).", "quantifier": "for all numbers of generations, each in images of its own, at its own place and on its own platform; all images, sizes, pixels and memory contents, BT.601 and BT.709", "why_tests_cant": "quantifies over chains of conversions of any length; needs an induction over the generations", "anchors": ["src/formats/i444/to_rgb.rs", "src/formats/i444/from_rgb.rs", "src/formats/rgb/read.rs", "src/formats/rgb/write.rs", "src/vector/avx2.rs", "src/vector/avx512.rs"]}
{"id": "C68", "title": "Only instructions that the processor has are executed", "statement": "Whatever features a machine has, conversions and copies call only functions compiled for features it has and execute only instructions it has; vector code is used wherever the build contains some that the machine can run.", "quantifier": "for all builds (target architectures, with and without the feature unstable) and all combinations of processor features", "why_tests_cant": "tests run on one machine; the claim is about all combinations of features, also of processors the authors do not own", "anchors": ["src/formats/visit_2x2.rs", "src/formats/dyn_rgba_src.rs", "src/copy.rs", "src/vector/avx2.rs", "src/vector/avx512.rs", "src/vector/neon.rs"]}
{"id": "C69", "title": "Debug and release builds do the same", "statement": "No index or size computation of the crate overflows unnoticed, and no debug assertion fails: whatever images a program can construct, constructing, cropping, copying, resizing and converting them (also on several threads) behaves the same with and without overflow checks and debug assertions.", "quantifier": "for all formats, sizes, strides, windows, buffers, numbers of threads, platforms and memories", "why_tests_cant": "tests run in one build profile and with small images; an overflow needs sizes near the limits of the address space, combined with the right window and stride", "anchors": ["src/primitive.rs", "src/crop.rs", "src/copy.rs", "src/multi_thread.rs", "src/resize.rs", "src/formats/i444/read.rs", "src/image.rs"]}
{"id": "C70", "title": "A copy is as good as the original", "statement": "Converting a copy of an image gives the same image as converting the original; copying a converted image gives what converting to the place of the copy gives; and between images of the same format and colour, copy and convert store the same samples.", "quantifier": "for all images, formats, colours, strides, memories, platforms and arithmetics", "why_tests_cant": "copy and convert share no code, and equality is claimed for every layout and content", "anchors": ["src/copy.rs", "src/lib.rs: convert"]}
{"id": "C71", "title": "Packed 16-bit pixels", "statement": "The vector layer loads and stores interleaved pixels of three or four 16-bit values as it does those of 8 bits: every value goes to its lane and back to its place, and no byte outside the 12*LEN (16*LEN) addressed is touched.", "quantifier": "for all platforms, memories, slices and vector contents", "why_tests_cant": "no public format reaches these functions on any platform, so no test calls them; a format that is added would", "anchors": ["src/primitive.rs:60-101", "src/vector/mod.rs:106-121", "src/vector/avx2.rs:120-134, 155-170, 203-224, 387-407", "src/vector/avx512.rs", "src/vector/neon.rs"]}
{"id": "C72", "title": "Parts of images are copied to where they belong", "statement": "Copying (a part of) an image to a part of another puts its pixels there and changes nothing else: all other pixels and all bytes outside of pixels keep their values. After any number of such copies, every pixel shows what was copied there last.", "quantifier": "for all images, windows, memories and sequences of copies of any length, overlapping or not", "why_tests_cant": "combines crop and copy over arbitrary strides, windows and orders; neighbouring rows, padding and shared chroma cells around the window have to stay untouched for all of them", "anchors": ["src/copy.rs:4-31", "src/crop.rs:53-107"]}
{"id": "C73", "title": "A pixel depends on nothing but its own pixels", "statement": "The samples of a pixel of the result depend only on that pixel of the source, chroma only on the pixels that share it: no neighbour, no padding and no other memory has an influence. Colour does not depend on alpha and alpha does not depend on colour.", "quantifier": "for all pairs of images (equal in kind and width, of any layout), all pairs of memories, all pixels and channels, any arithmetic", "why_tests_cant": "non-interference is a statement about all pairs of inputs; a test compares a few", "anchors": ["src/formats/visit_2x2.rs", "src/formats/*/read.rs", "src/formats/*/write.rs", "src/formats/transfer_and_primaries_convert.rs"]}
{"id": "C74", "title": "Black stays black and white stays white", "statement": "Converting an RGB image to an RGB image of any other transfer function, primaries and channel order leaves black exactly black and white exactly white; converting it to a YUV image, with or without such a change, gives black and white the luma codes of black and white of the destination's range (16 and 235, or 0 and 255).", "quantifier": "for all images, all pairs of transfer functions and primaries, all platforms and columns, any libm of the assumed accuracy", "why_tests_cant": "the roots of gamma and HLG magnify the tiniest error at black: 49 pairs of transfer functions, 9 of primaries, four instruction sets and an unknown libm", "anchors": ["src/color/transfer.rs", "src/color/primaries.rs", "src/formats/transfer_and_primaries_convert.rs"]}
{"id": "C75", "title": "A brighter grey does not become darker", "statement": "When an RGB image is converted to another transfer function or other primaries, of two grey pixels the brighter one gets codes that are not lower than those of the darker one. The same holds of the luma codes if the destination is YUV, and of pixels without chroma of a YUV image, whether the destination is RGB or YUV.", "quantifier": "for all images, all pairs of pixels and greys, all pairs of transfer functions and primaries, all platforms, any libm of the assumed accuracy", "why_tests_cant": "the two pixels may be handled by different code (vector or scalar) with different power functions, so no single function is tested for monotonicity; every pair of greys, transfer functions and columns counts", "anchors": ["src/color/transfer.rs", "src/color/primaries.rs", "src/formats/transfer_and_primaries_convert.rs", "src/formats/rgb/write.rs"]}
{"id": "C76", "title": "Black-and-white material stays black-and-white", "statement": "A YUV pixel without chroma (U = V = 128 in 8 bits) is converted to an RGB pixel with R = G = B, namely the code of its luma stretched from 16–235 to 0–255; if the transfer function or the primaries change on the way, the three codes lie within one of each other. In the other direction, chroma made from a cell of grey RGB pixels is neutral up to rounding, also when the transfer function or the primaries change. So is chroma made from a cell of YUV pixels without chroma when the transfer function or the primaries change.", "quantifier": "for all images, all layouts of 8-bit limited-range YUV, all luma values, all matrices, all transfer functions and primaries, all columns and platforms, any libm of the assumed accuracy", "why_tests_cant": "three separate float computations per pixel, by different code in vector and scalar columns, must end in the same code for every luma value and every pair of transfer functions and primaries; a tint of one code shows in no comparison with a tolerance", "anchors": ["src/formats/i444/to_rgb.rs", "src/color/space.rs", "src/color/primaries.rs", "src/formats/transfer_and_primaries_convert.rs"]}
{"id": "C77", "title": "Video black and video white stay black and white, in RGB and in YUV", "statement": "A YUV pixel of video black (8 bits, luma 16, chroma 128) becomes R = G = B = 0, and one of video white or brighter (luma 235 to 255, chroma 128) becomes R = G = B = 255, whether or not the transfer function or the primaries change on the way. Converted to another limited-range 8-bit YUV layout or colour space, video black keeps luma 16 and video white luma 235 (one code less where stores truncate).", "quantifier": "for all images, all layouts of 8-bit limited-range YUV, all RGB and all 8-bit YUV destinations, the matrices of BT.601, BT.709 and BT.2020, all transfer functions and primaries, all columns and platforms, any libm of the assumed accuracy", "why_tests_cant": "the two ends of the range are where clamping, truncating stores and the behaviour of powf near 0 and above 1 meet; each pair of transfer functions, each pair of primaries and each kind of column runs other float code, and a lifted black or a grey white is one code away", "anchors": ["src/formats/i444/to_rgb.rs", "src/color/space.rs", "src/color/transfer.rs", "src/formats/transfer_and_primaries_convert.rs", "src/formats/rgb/write.rs"]}
{"id": "C78", "title": "The order of the channels makes no difference, and alpha does not touch the colours", "statement": "Two RGB images of any of the layouts RGBA, BGRA, RGB and BGR whose pixels have the same red, green and blue convert to the same luma, chroma or colours, whatever their alpha; an image converted to two of these layouts gets the same red, green and blue in both, and the same alpha where both have it.", "quantifier": "for all pairs of images, pixels and memory contents, all other formats and colours, all platforms and any float arithmetic", "why_tests_cant": "each layout has its own shuffles and each destination its own reader-writer pair; the claim relates two runs for every colour, alpha and column", "anchors": ["src/formats/rgb/read.rs", "src/formats/rgb/write.rs", "src/formats/rgba/read.rs", "src/formats/rgba/write.rs", "src/lib.rs"]}
{"id": "C79", "title": "A change of the transfer function alone is a tone curve", "statement": "When an RGB image is converted to one with other transfer function and the same primaries, every channel follows its own curve: the code stored depends on the code of that channel only, up to the rounding of the store, and a larger code never becomes a smaller one, whatever the other channels are.", "quantifier": "for all pairs of pixels of all images, all three channels and all contents of the others, all RGB layouts, primaries and transfer functions, all platforms and columns, any accurate libm", "why_tests_cant": "the code mixes all channels through XYZ and back even if the primaries are equal, in binary32; that nothing of one channel shows in another is a statement about all 2^24 colours, two of them at a time, on every backend", "anchors": ["src/color/mod.rs", "src/color/transfer.rs", "src/color/primaries.rs", "src/formats/transfer_and_primaries_convert.rs"]}
{"id": "C80", "title": "Colours of smaller gamuts fit into BT.2020 and come back", "statement": "Every colour of BT.709 or SMPTE 240M is a colour of BT.2020: no component becomes negative or exceeds the brightest of the colour by more than 3e-7 of it, so nothing is clipped, and an image in linear light comes back within one code when it is converted to BT.2020 and back (two where stores truncate). The other way round colours are clipped.", "quantifier": "for all images and pixels, all RGB layouts, all platforms for each of the two conversions and all columns, any accurate libm", "why_tests_cant": "the claim is about all 2^24 colours, through two conversions with rounding in between, on every pair of backends", "anchors": ["src/color/primaries.rs", "src/color/mod.rs", "src/formats/transfer_and_primaries_convert.rs"]}
{"id": "C81", "title": "A detour over a finer YUV format makes at most one code of difference", "statement": "Converting an RGB image to a YUV format of the same transfer function and primaries directly, or first to another YUV format of no less depth and resolution with the destination's colour information and from there, gives the same samples up to one code where stores round; where they truncate the detour loses at most two codes and gains at most one. Bringing a YUV image into another layout of the same depth and no less resolution before converting it to something else makes no difference at all where the stores of that first step round.", "quantifier": "for all images and pixels, all RGB layouts, all pairs of YUV formats of which one is no coarser, BT.601 and BT.709 in both ranges, all platforms and columns, any libm; in the second part all destinations and any arithmetic of the second step", "why_tests_cant": "all combinations of colours of the pixels that share a chroma sample, for more than a hundred pairs of formats, with two roundings in a row", "anchors": ["src/formats/i420/write.rs", "src/formats/visit_2x2.rs", "src/formats/mod.rs"]}
{"id": "C82", "title": "Turning or mirroring an image before or after a conversion makes at most one code of difference", "statement": "If one image shows another in any of the eight orientations (mirrored, upside down, turned by quarters, as in the orientation tag of EXIF), their conversions between RGB and YUV, or from YUV to YUV, show each other in the same orientation up to one code in every sample, whichever backends convert them. If the image is turned by a quarter, chroma has to be sub-sampled in both directions or in none.", "quantifier": "for all images, sizes, pixels, memories and formats, all eight orientations, all pairs of platforms and columns, BT.601 and BT.709, both ranges, without a change of transfer function or primaries, ideal codes that the destination has", "why_tests_cant": "all contents of all chroma cells in all orientations, where the sums of the chroma are rounded in another order and the columns change between vector body and scalar rest", "anchors": ["src/formats/visit_2x2.rs", "src/formats/i420/from_rgb.rs", "src/formats/mod.rs"]}
{"id": "C83", "title": "Changes of colour agree on all platforms and at all places", "statement": "The same colour, converted with the same change of transfer function or primaries, becomes the same colour up to one code for the transfer functions Linear, SRGB and SDR (2 for PQ, 4 for HLG and Gamma22, 10 for Gamma28; 2 if the colour comes from a YUV image), whatever the place of the pixel, the size and layout of the image and the backend: no seam shows between the vectorised columns and the rest of a row, and machines produce the same pictures.", "quantifier": "for all pairs of RGB or YUV images, pixels and memories, all layouts, all pairs of platforms and all pairs of columns, all pairs of primaries, all accurate libms", "why_tests_cant": "needs two machines with different instruction sets and all 2^24 colours for each pair of colour infos and each position in a row", "anchors": ["src/formats/transfer_and_primaries_convert.rs", "src/color/transfer.rs", "src/vector/mod.rs"]}
{"id": "C84", "title": "Images in linear light survive other transfer functions", "statement": "An image in linear light that is converted to sRGB, SDR, a gamma or HLG with the same primaries and back has its codes changed by one at most (HLG: three) where the stores round; where they truncate, codes may come back smaller by up to three (HLG: six). The other way round the dark is lost: linear light of 8 bits has no codes for it.", "quantifier": "for all images and pixels, all RGB layouts, all pairs of platforms for the two conversions and all columns, all primaries, any accurate libm", "why_tests_cant": "all colours of 2^24, where the matrices mix the channels before they are separated again, through two conversions on every pair of backends with floating-point powers and exponentials", "anchors": ["src/color/transfer.rs", "src/formats/transfer_and_primaries_convert.rs", "src/color/mod.rs"]}
{"id": "C85", "title": "Encoding light brightens the codes, decoding darkens them", "statement": "When an RGB image is converted to linear light with the same primaries (from sRGB, SDR, a gamma or HLG), no code becomes larger. When an image in linear light is converted to one of these, no code becomes smaller where the store rounds, and none by more than one where it truncates.", "quantifier": "for all images and pixels, all RGB layouts, all platforms and columns, all primaries, any accurate libm", "why_tests_cant": "all colours of 2^24, since the matrices mix the channels before they separate them again, with floating-point powers and exponentials on every backend", "anchors": ["src/color/transfer.rs", "src/formats/transfer_and_primaries_convert.rs", "src/color/mod.rs"]}
