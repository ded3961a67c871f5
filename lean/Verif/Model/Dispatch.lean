import Verif.Model.Backends

/-!
# Feature detection

Which vector code a build of the crate runs on which machine, and what that code demands of the machine.
-/

namespace Ezk

/-- `target_arch`, as far as the crate distinguishes them. (`src/lib.rs:27-37`) -/
inductive Arch
  | x86
  | x86_64
  | aarch64
  | other
  deriving DecidableEq, Repr

/-- The features of processors the crate asks for or makes use of, by Rust's names. (`src/formats/visit_2x2.rs:17-52`) -/
inductive Feature
  | sse2
  | avx
  | avx2
  | fma
  | avx512f
  | avx512bw
  | neon
  deriving DecidableEq, Repr

/-- What is decided when the crate is compiled: the target and the crate's feature `unstable`. (`Cargo.toml:32`) -/
structure Build where
  arch : Arch
  unstable : Bool

/-- `any(target_arch = "x86", target_arch = "x86_64")`, `src/formats/visit_2x2.rs:16`, `33`. -/
def Build.isX86 (b : Build) : Bool := b.arch = .x86 || b.arch = .x86_64

/-- `is_x86_feature_detected!` and `is_aarch64_feature_detected!` as a function. (`src/formats/visit_2x2.rs:17`, `34`, `51`) -/
abbrev Detected := Feature → Bool

/-- The choice made by `visit`, `src/formats/visit_2x2.rs:16-69`.  (On the target `x86` with 32 bits the AVX2 code uses
`_mm256_extract_epi64`, which exists on `x86_64` only: such a build does not compile.  Here it is treated as if it did.) -/
def visitPlatform (b : Build) (has : Detected) : Platform :=
  if (b.unstable && b.isX86) && (has .avx512f && has .avx512bw) then .avx512
  else if b.isX86 && (has .avx2 && has .fma) then .avx2
  else if b.arch = .aarch64 && has .neon then .neon
  else .scalar

/-- The features the functions `call` in `visit` are compiled for, `src/formats/visit_2x2.rs:18`, `35`, `52`. -/
def callFeatures : Platform → List Feature
  | .avx512 => [.avx512f, .avx512bw]
  | .avx2 => [.avx2]
  | .neon => [.neon]
  | .scalar => []

/-- The features `dyn_read` is compiled for, `src/formats/dyn_rgba_src.rs:27`, `50`, `57`, `78`, `95-99`. -/
def dynReadFeatures : Platform → List Feature
  | .avx512 => [.avx512f, .fma]
  | .avx2 => [.avx2, .fma]
  | .neon => [.neon]
  | .scalar => []

/-- The features `vpow` and `vln` (and `exp` and `log` of NEON) are compiled for, `src/vector/avx512.rs:56`, `61`,
`src/vector/avx2.rs:56`, `61`, `src/vector/neon.rs:54`, `58`, `325`, `387`. -/
def mathFeatures : Platform → List Feature
  | .avx512 => [.avx512f]
  | .avx2 => [.avx2, .fma]
  | .neon => [.neon]
  | .scalar => []

/-- The names of all intrinsics in the vector code of a platform, `src/vector/avx512.rs:1-727`, `src/vector/avx2.rs:1-703`,
`src/vector/neon.rs:1-634`. -/
def intrinsics : Platform → List String
  | .scalar => []
  | .avx2 =>
    ["_mm256_add_epi32", "_mm256_add_ps", "_mm256_and_ps", "_mm256_blendv_ps", "_mm256_castps_si256", "_mm256_castsi256_ps",
     "_mm256_castsi256_si128", "_mm256_cmp_ps", "_mm256_cvtepi32_ps", "_mm256_cvtepu16_epi32", "_mm256_cvtepu8_epi32",
     "_mm256_cvtps_epi32", "_mm256_cvttps_epi32", "_mm256_div_ps", "_mm256_extract_epi32", "_mm256_extract_epi64",
     "_mm256_floor_ps", "_mm256_fmadd_ps", "_mm256_max_ps", "_mm256_min_ps", "_mm256_mul_ps", "_mm256_or_ps",
     "_mm256_packus_epi16", "_mm256_packus_epi32", "_mm256_permute2f128_ps", "_mm256_permute4x64_epi64",
     "_mm256_permutevar8x32_epi32", "_mm256_permutevar8x32_ps", "_mm256_set1_epi32", "_mm256_set1_ps", "_mm256_set_epi32",
     "_mm256_setr_epi32", "_mm256_setr_epi8", "_mm256_setzero_ps", "_mm256_shuffle_epi8", "_mm256_shuffle_ps",
     "_mm256_slli_epi32", "_mm256_sqrt_ps", "_mm256_srli_epi32", "_mm256_sub_epi32", "_mm256_sub_ps", "_mm256_unpackhi_epi16",
     "_mm256_unpackhi_epi32", "_mm256_unpackhi_ps", "_mm256_unpacklo_epi16", "_mm256_unpacklo_epi32", "_mm256_unpacklo_ps",
     "_mm_set1_epi64x", "_mm_set_epi64x"]
  | .avx512 =>
    ["_mm512_add_epi32", "_mm512_add_ps", "_mm512_and_si512", "_mm512_castps_si512", "_mm512_castsi512_ps", "_mm512_cmp_ps_mask",
     "_mm512_cvtepi32_epi16", "_mm512_cvtepi32_epi8", "_mm512_cvtepi32_ps", "_mm512_cvtepu16_epi32", "_mm512_cvtepu8_epi32",
     "_mm512_cvtps_epi32", "_mm512_cvttps_epi32", "_mm512_div_ps", "_mm512_fmadd_ps", "_mm512_mask_blend_ps",
     "_mm512_maskz_expand_ps", "_mm512_max_ps", "_mm512_min_ps", "_mm512_mul_ps", "_mm512_or_si512", "_mm512_packus_epi16",
     "_mm512_packus_epi32", "_mm512_permutex2var_ps", "_mm512_permutexvar_ps", "_mm512_roundscale_ps", "_mm512_set1_epi32",
     "_mm512_set1_ps", "_mm512_set_epi8", "_mm512_setr_epi32", "_mm512_setzero_ps", "_mm512_shuffle_epi8", "_mm512_slli_epi32",
     "_mm512_sqrt_ps", "_mm512_srli_epi32", "_mm512_sub_epi32", "_mm512_sub_ps", "_mm512_unpackhi_epi16",
     "_mm512_unpackhi_epi32", "_mm512_unpackhi_ps", "_mm512_unpacklo_epi16", "_mm512_unpacklo_epi32", "_mm512_unpacklo_ps"]
  | .neon =>
    ["vaddq_f32", "vaddq_s32", "vandq_s32", "vandq_u32", "vbslq_f32", "vcaleq_f32", "vcaltq_f32", "vceqq_f32", "vcgtq_f32",
     "vcltq_f32", "vcvtq_f32_s32", "vcvtq_f32_u32", "vcvtq_s32_f32", "vcvtq_u32_f32", "vdivq_f32", "vdupq_n_f32", "vdupq_n_s32",
     "vdupq_n_u32", "vget_high_u16", "vget_low_u16", "vld3_u8", "vld3q_u16", "vld4_u8", "vld4q_u16", "vmaxq_f32", "vminq_f32",
     "vminq_u32", "vmlaq_f32", "vmovl_high_u16", "vmovl_u16", "vmovl_u8", "vmovn_u16", "vmovn_u32", "vmulq_f32", "vorrq_s32",
     "vreinterpretq_f32_s32", "vreinterpretq_f32_u32", "vreinterpretq_s32_f32", "vreinterpretq_u32_f32", "vshlq_n_s32",
     "vshrq_n_s32", "vsqrtq_f32", "vst3_u8", "vst3q_u16", "vst4_u8", "vst4q_u16", "vsubq_f32", "vsubq_s32", "vuzp1q_f32",
     "vuzp2q_f32", "vzip1q_f32", "vzip2q_f32"]

/-- The choice made by `copy`: the features its function `call` is compiled for. (`src/copy.rs:35-74`) -/
def copyFeatures (b : Build) (has : Detected) : List Feature :=
  if (b.unstable && b.isX86) && (has .avx512f && has .avx512bw) then [.avx512f, .avx512bw]
  else if b.isX86 && has .avx2 then [.avx2]
  else if b.arch = .aarch64 && has .neon then [.neon]
  else []

/-- Whether the vector code of a platform is part of the build, `src/vector/mod.rs:4-11`. -/
def Build.contains (b : Build) : Platform → Bool
  | .avx2 => b.isX86
  | .avx512 => b.unstable && b.isX86
  | .neon => b.arch = .aarch64
  | .scalar => true

end Ezk
