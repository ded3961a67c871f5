import Verif.Model.Dispatch

/-!
# What instructions demand

From Intel's Intrinsics Guide ("CPUID Flags") and Arm's Neon Intrinsics Reference.
-/

namespace Ezk.Spec

/-- The feature the instruction behind an intrinsic belongs to. -/
def instructionSet (name : String) : Option Feature :=
  if name ∈
    ["_mm_set1_epi64x", "_mm_set_epi64x"] then some .sse2
  else if name ∈
    ["_mm256_add_ps", "_mm256_and_ps", "_mm256_blendv_ps", "_mm256_castps_si256", "_mm256_castsi256_ps",
   "_mm256_castsi256_si128", "_mm256_cmp_ps", "_mm256_cvtepi32_ps", "_mm256_cvtps_epi32", "_mm256_cvttps_epi32",
   "_mm256_div_ps", "_mm256_extract_epi32", "_mm256_extract_epi64", "_mm256_floor_ps", "_mm256_max_ps", "_mm256_min_ps",
   "_mm256_mul_ps", "_mm256_or_ps", "_mm256_permute2f128_ps", "_mm256_set1_epi32", "_mm256_set1_ps", "_mm256_set_epi32",
   "_mm256_setr_epi32", "_mm256_setr_epi8", "_mm256_setzero_ps", "_mm256_shuffle_ps", "_mm256_sqrt_ps", "_mm256_sub_ps",
   "_mm256_unpackhi_ps", "_mm256_unpacklo_ps"] then some .avx
  else if name ∈
    ["_mm256_add_epi32", "_mm256_cvtepu16_epi32", "_mm256_cvtepu8_epi32", "_mm256_packus_epi16", "_mm256_packus_epi32",
   "_mm256_permute4x64_epi64", "_mm256_permutevar8x32_epi32", "_mm256_permutevar8x32_ps", "_mm256_shuffle_epi8",
   "_mm256_slli_epi32", "_mm256_srli_epi32", "_mm256_sub_epi32", "_mm256_unpackhi_epi16", "_mm256_unpackhi_epi32",
   "_mm256_unpacklo_epi16", "_mm256_unpacklo_epi32"] then some .avx2
  else if name ∈
    ["_mm256_fmadd_ps"] then some .fma
  else if name ∈
    ["_mm512_add_epi32", "_mm512_add_ps", "_mm512_and_si512", "_mm512_castps_si512", "_mm512_castsi512_ps", "_mm512_cmp_ps_mask",
   "_mm512_cvtepi32_epi16", "_mm512_cvtepi32_epi8", "_mm512_cvtepi32_ps", "_mm512_cvtepu16_epi32", "_mm512_cvtepu8_epi32",
   "_mm512_cvtps_epi32", "_mm512_cvttps_epi32", "_mm512_div_ps", "_mm512_fmadd_ps", "_mm512_mask_blend_ps",
   "_mm512_maskz_expand_ps", "_mm512_max_ps", "_mm512_min_ps", "_mm512_mul_ps", "_mm512_or_si512", "_mm512_permutex2var_ps",
   "_mm512_permutexvar_ps", "_mm512_roundscale_ps", "_mm512_set1_epi32", "_mm512_set1_ps", "_mm512_set_epi8",
   "_mm512_setr_epi32", "_mm512_setzero_ps", "_mm512_slli_epi32", "_mm512_sqrt_ps", "_mm512_srli_epi32", "_mm512_sub_epi32",
   "_mm512_sub_ps", "_mm512_unpackhi_epi32", "_mm512_unpackhi_ps", "_mm512_unpacklo_epi32", "_mm512_unpacklo_ps"] then some .avx512f
  else if name ∈
    ["_mm512_packus_epi16", "_mm512_packus_epi32", "_mm512_shuffle_epi8", "_mm512_unpackhi_epi16", "_mm512_unpacklo_epi16"] then some .avx512bw
  else if name ∈
    ["vaddq_f32", "vaddq_s32", "vandq_s32", "vandq_u32", "vbslq_f32", "vcaleq_f32", "vcaltq_f32", "vceqq_f32", "vcgtq_f32",
   "vcltq_f32", "vcvtq_f32_s32", "vcvtq_f32_u32", "vcvtq_s32_f32", "vcvtq_u32_f32", "vdivq_f32", "vdupq_n_f32", "vdupq_n_s32",
   "vdupq_n_u32", "vget_high_u16", "vget_low_u16", "vld3_u8", "vld3q_u16", "vld4_u8", "vld4q_u16", "vmaxq_f32", "vminq_f32",
   "vminq_u32", "vmlaq_f32", "vmovl_high_u16", "vmovl_u16", "vmovl_u8", "vmovn_u16", "vmovn_u32", "vmulq_f32", "vorrq_s32",
   "vreinterpretq_f32_s32", "vreinterpretq_f32_u32", "vreinterpretq_s32_f32", "vreinterpretq_u32_f32", "vshlq_n_s32",
   "vshrq_n_s32", "vsqrtq_f32", "vst3_u8", "vst3q_u16", "vst4_u8", "vst4q_u16", "vsubq_f32", "vsubq_s32", "vuzp1q_f32",
   "vuzp2q_f32", "vzip1q_f32", "vzip2q_f32"] then some .neon
  else none

/-- x86 processors with AVX2 have AVX, and those with AVX have SSE2. -/
def Consistent (has : Detected) : Prop := (has .avx2 → has .avx) ∧ (has .avx → has .sse2)

end Ezk.Spec
