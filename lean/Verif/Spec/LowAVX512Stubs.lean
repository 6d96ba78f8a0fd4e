import Verif.Spec.LowAVX512

/-!
# The stub file of the AVX-512 bindings

Extracted from pyfastutil/unsafe/SIMDLowAVX512.pyi: every method with its line in a comment, sorted by identifier.
`__init__`, `__enter__`, `__exit__` are not included. In every entry the names of the Python parameters are those of
the prototype, in the same order, after `__result` when the prototype returns a value.
-/

namespace Verif.Spec.Low

/-- The methods of the stub file. -/
def stubs : List Stub := [
  /- 11801 -/ ⟨id! "mm512_kor", [.ptr, .ptr, .ptr], false, id! "_mm512_kor", [.mask16, .mask16], some .mask16⟩,
  /- 11777 -/ ⟨id! "mm512_kand", [.ptr, .ptr, .ptr], false, id! "_mm512_kand", [.mask16, .mask16], some .mask16⟩,
  /- 11849 -/ ⟨id! "mm512_kxor", [.ptr, .ptr, .ptr], false, id! "_mm512_kxor", [.mask16, .mask16], some .mask16⟩,
  /- 11861 -/ ⟨id! "mm512_knot", [.ptr, .ptr], false, id! "_mm512_knot", [.mask16], some .mask16⟩,
  /- 16637 -/ ⟨id! "mm512_kmov", [.ptr, .ptr], false, id! "_mm512_kmov", [.mask16], some .mask16⟩,
  /- 11753 -/ ⟨id! "load_mask16", [.ptr, .ptr], false, id! "_load_mask16", [.ptr], some .mask16⟩,
  /- 1967 -/ ⟨id! "mm_rcp14_sd", [.ptr, .ptr, .ptr], false, id! "_mm_rcp14_sd", [.m128d, .m128d], some .m128d⟩,
  /- 11789 -/ ⟨id! "mm512_kandn", [.ptr, .ptr, .ptr], false, id! "_mm512_kandn", [.mask16, .mask16], some .mask16⟩,
  /- 11837 -/ ⟨id! "mm512_kxnor", [.ptr, .ptr, .ptr], false, id! "_mm512_kxnor", [.mask16, .mask16], some .mask16⟩,
  /- 2003 -/ ⟨id! "mm_rcp14_ss", [.ptr, .ptr, .ptr], false, id! "_mm_rcp14_ss", [.m128, .m128], some .m128⟩,
  /- 15381 -/ ⟨id! "mm_cvtsd_i32", [.ptr, .ptr], false, id! "_mm_cvtsd_i32", [.m128d], some .int⟩,
  /- 15393 -/ ⟨id! "mm_cvtss_i32", [.ptr, .ptr], false, id! "_mm_cvtss_i32", [.m128], some .int⟩,
  /- 15517 -/ ⟨id! "mm_cvtsd_u32", [.ptr, .ptr], false, id! "_mm_cvtsd_u32", [.m128d], some .uint⟩,
  /- 15345 -/ ⟨id! "mm_cvtss_u32", [.ptr, .ptr], false, id! "_mm_cvtss_u32", [.m128], some .uint⟩,
  /- 15469 -/ ⟨id! "mm_cvtsd_i64", [.ptr, .ptr], false, id! "_mm_cvtsd_i64", [.m128d], some .llong⟩,
  /- 15481 -/ ⟨id! "mm_cvtss_i64", [.ptr, .ptr], false, id! "_mm_cvtss_i64", [.m128], some .llong⟩,
  /- 15433 -/ ⟨id! "mm_cvtsd_u64", [.ptr, .ptr], false, id! "_mm_cvtsd_u64", [.m128d], some .ullong⟩,
  /- 15297 -/ ⟨id! "mm_cvtss_u64", [.ptr, .ptr], false, id! "_mm_cvtss_u64", [.m128], some .ullong⟩,
  /- 11765 -/ ⟨id! "store_mask16", [.ptr, .ptr], false, id! "_store_mask16", [.ptr, .mask16], none⟩,
  /- 13437 -/ ⟨id! "mm512_sub_pd", [.ptr, .ptr, .ptr], false, id! "_mm512_sub_pd", [.m512d, .m512d], some .m512d⟩,
  /- 13317 -/ ⟨id! "mm512_add_pd", [.ptr, .ptr, .ptr], false, id! "_mm512_add_pd", [.m512d, .m512d], some .m512d⟩,
  /- 13557 -/ ⟨id! "mm512_mul_pd", [.ptr, .ptr, .ptr], false, id! "_mm512_mul_pd", [.m512d, .m512d], some .m512d⟩,
  /- 13917 -/ ⟨id! "mm512_min_pd", [.ptr, .ptr, .ptr], false, id! "_mm512_min_pd", [.m512d, .m512d], some .m512d⟩,
  /- 8533 -/ ⟨id! "mm512_abs_pd", [.ptr, .ptr], false, id! "_mm512_abs_pd", [.m512d], some .m512d⟩,
  /- 141 -/ ⟨id! "mm512_set_pd", [.ptr, .int, .int, .int, .int, .int, .int, .int, .int], false, id! "_mm512_set_pd", [.double, .double, .double, .double, .double, .double, .double, .double], some .m512d⟩,
  /- 13677 -/ ⟨id! "mm512_div_pd", [.ptr, .ptr, .ptr], false, id! "_mm512_div_pd", [.m512d, .m512d], some .m512d⟩,
  /- 13797 -/ ⟨id! "mm512_max_pd", [.ptr, .ptr, .ptr], false, id! "_mm512_max_pd", [.m512d, .m512d], some .m512d⟩,
  /- 15405 -/ ⟨id! "mm_cvti32_sd", [.ptr, .ptr, .int], true, id! "_mm_cvti32_sd", [.m128d, .int], some .m128d⟩,
  /- 5337 -/ ⟨id! "mm_cvtu32_sd", [.ptr, .ptr, .int], false, id! "_mm_cvtu32_sd", [.m128d, .uint], some .m128d⟩,
  /- 15493 -/ ⟨id! "mm_cvti64_sd", [.ptr, .ptr, .int], false, id! "_mm_cvti64_sd", [.m128d, .llong], some .m128d⟩,
  /- 15033 -/ ⟨id! "mm_cvtu64_sd", [.ptr, .ptr, .int], false, id! "_mm_cvtu64_sd", [.m128d, .ullong], some .m128d⟩,
  /- 14109 -/ ⟨id! "mm_scalef_sd", [.ptr, .ptr, .ptr], false, id! "_mm_scalef_sd", [.m128d, .m128d], some .m128d⟩,
  /- 15769 -/ ⟨id! "mm_getexp_sd", [.ptr, .ptr, .ptr], false, id! "_mm_getexp_sd", [.m128d, .m128d], some .m128d⟩,
  /- 13473 -/ ⟨id! "mm512_sub_ps", [.ptr, .ptr, .ptr], false, id! "_mm512_sub_ps", [.m512, .m512], some .m512⟩,
  /- 13353 -/ ⟨id! "mm512_add_ps", [.ptr, .ptr, .ptr], false, id! "_mm512_add_ps", [.m512, .m512], some .m512⟩,
  /- 13593 -/ ⟨id! "mm512_mul_ps", [.ptr, .ptr, .ptr], false, id! "_mm512_mul_ps", [.m512, .m512], some .m512⟩,
  /- 13953 -/ ⟨id! "mm512_min_ps", [.ptr, .ptr, .ptr], false, id! "_mm512_min_ps", [.m512, .m512], some .m512⟩,
  /- 8509 -/ ⟨id! "mm512_abs_ps", [.ptr, .ptr], false, id! "_mm512_abs_ps", [.m512], some .m512⟩,
  /- 153 -/ ⟨id! "mm512_set_ps", [.ptr, .int, .int, .int, .int, .int, .int, .int, .int, .int, .int, .int, .int, .int, .int, .int, .int], false, id! "_mm512_set_ps", [.float, .float, .float, .float, .float, .float, .float, .float, .float, .float, .float, .float, .float, .float, .float, .float], some .m512⟩,
  /- 13713 -/ ⟨id! "mm512_div_ps", [.ptr, .ptr, .ptr], false, id! "_mm512_div_ps", [.m512, .m512], some .m512⟩,
  /- 13833 -/ ⟨id! "mm512_max_ps", [.ptr, .ptr, .ptr], false, id! "_mm512_max_ps", [.m512, .m512], some .m512⟩,
  /- 15419 -/ ⟨id! "mm_cvti32_ss", [.ptr, .ptr, .int], true, id! "_mm_cvti32_ss", [.m128, .int], some .m128⟩,
  /- 15045 -/ ⟨id! "mm_cvtu32_ss", [.ptr, .ptr, .int], false, id! "_mm_cvtu32_ss", [.m128, .uint], some .m128⟩,
  /- 15505 -/ ⟨id! "mm_cvti64_ss", [.ptr, .ptr, .int], false, id! "_mm_cvti64_ss", [.m128, .llong], some .m128⟩,
  /- 15021 -/ ⟨id! "mm_cvtu64_ss", [.ptr, .ptr, .int], false, id! "_mm_cvtu64_ss", [.m128, .ullong], some .m128⟩,
  /- 14121 -/ ⟨id! "mm_scalef_ss", [.ptr, .ptr, .ptr], false, id! "_mm_scalef_ss", [.m128, .m128], some .m128⟩,
  /- 15733 -/ ⟨id! "mm_getexp_ss", [.ptr, .ptr, .ptr], false, id! "_mm_getexp_ss", [.m128, .m128], some .m128⟩,
  /- 15541 -/ ⟨id! "mm_cvttsd_i32", [.ptr, .ptr], false, id! "_mm_cvttsd_i32", [.m128d], some .int⟩,
  /- 15369 -/ ⟨id! "mm_cvttss_i32", [.ptr, .ptr], false, id! "_mm_cvttss_i32", [.m128], some .int⟩,
  /- 11729 -/ ⟨id! "cvtmask16_u32", [.ptr, .ptr], false, id! "_cvtmask16_u32", [.mask16], some .uint⟩,
  /- 15529 -/ ⟨id! "mm_cvttsd_u32", [.ptr, .ptr], false, id! "_mm_cvttsd_u32", [.m128d], some .uint⟩,
  /- 15357 -/ ⟨id! "mm_cvttss_u32", [.ptr, .ptr], false, id! "_mm_cvttss_u32", [.m128], some .uint⟩,
  /- 15457 -/ ⟨id! "mm_cvttsd_i64", [.ptr, .ptr], false, id! "_mm_cvttsd_i64", [.m128d], some .llong⟩,
  /- 15321 -/ ⟨id! "mm_cvttss_i64", [.ptr, .ptr], false, id! "_mm_cvttss_i64", [.m128], some .llong⟩,
  /- 15445 -/ ⟨id! "mm_cvttsd_u64", [.ptr, .ptr], false, id! "_mm_cvttsd_u64", [.m128d], some .ullong⟩,
  /- 15309 -/ ⟨id! "mm_cvttss_u64", [.ptr, .ptr], false, id! "_mm_cvttss_u64", [.m128], some .ullong⟩,
  /- 11741 -/ ⟨id! "cvtu32_mask16", [.ptr, .int], false, id! "_cvtu32_mask16", [.uint], some .mask16⟩,
  /- 225 -/ ⟨id! "mm512_set1_pd", [.ptr, .int], false, id! "_mm512_set1_pd", [.double], some .m512d⟩,
  /- 275 -/ ⟨id! "mm512_set4_pd", [.ptr, .int, .int, .int, .int], false, id! "_mm512_set4_pd", [.double, .double, .double, .double], some .m512d⟩,
  /- 407 -/ ⟨id! "mm512_load_pd", [.ptr, .ptr], false, id! "_mm512_load_pd", [.ptr], some .m512d⟩,
  /- 10033 -/ ⟨id! "mm512_ceil_pd", [.ptr, .ptr], false, id! "_mm512_ceil_pd", [.m512d], some .m512d⟩,
  /- 13245 -/ ⟨id! "mm512_sqrt_pd", [.ptr, .ptr], false, id! "_mm512_sqrt_pd", [.m512d], some .m512d⟩,
  /- 2111 -/ ⟨id! "mm_rsqrt14_sd", [.ptr, .ptr, .ptr], false, id! "_mm_rsqrt14_sd", [.m128d, .m128d], some .m128d⟩,
  /- 15889 -/ ⟨id! "mm_getmant_sd", [.ptr, .ptr, .ptr, .enum, .enum], true, id! "_mm_getmant_sd", [.m128d, .m128d, .enum, .enum], some .m128d⟩,
  /- 311 -/ ⟨id! "mm512_setzero", [.ptr], false, id! "_mm512_setzero", [], some .m512⟩,
  /- 237 -/ ⟨id! "mm512_set1_ps", [.ptr, .int], false, id! "_mm512_set1_ps", [.float], some .m512⟩,
  /- 287 -/ ⟨id! "mm512_set4_ps", [.ptr, .int, .int, .int, .int], false, id! "_mm512_set4_ps", [.float, .float, .float, .float], some .m512⟩,
  /- 467 -/ ⟨id! "mm512_load_ps", [.ptr, .ptr], false, id! "_mm512_load_ps", [.ptr], some .m512⟩,
  /- 10021 -/ ⟨id! "mm512_ceil_ps", [.ptr, .ptr], false, id! "_mm512_ceil_ps", [.m512], some .m512⟩,
  /- 13281 -/ ⟨id! "mm512_sqrt_ps", [.ptr, .ptr], false, id! "_mm512_sqrt_ps", [.m512], some .m512⟩,
  /- 2147 -/ ⟨id! "mm_rsqrt14_ss", [.ptr, .ptr, .ptr], false, id! "_mm_rsqrt14_ss", [.m128, .m128], some .m128⟩,
  /- 15931 -/ ⟨id! "mm_getmant_ss", [.ptr, .ptr, .ptr, .enum, .enum], true, id! "_mm_getmant_ss", [.m128, .m128, .enum, .enum], some .m128⟩,
  /- 7913 -/ ⟨id! "mm512_or_si512", [.ptr, .ptr, .ptr], false, id! "_mm512_or_si512", [.m512i, .m512i], some .m512i⟩,
  /- 7925 -/ ⟨id! "mm512_or_epi32", [.ptr, .ptr, .ptr], false, id! "_mm512_or_epi32", [.m512i, .m512i], some .m512i⟩,
  /- 7961 -/ ⟨id! "mm512_or_epi64", [.ptr, .ptr, .ptr], false, id! "_mm512_or_epi64", [.m512i, .m512i], some .m512i⟩,
  /- 129 -/ ⟨id! "mm512_set_epi8", [.ptr, .int, .int, .int, .int, .int, .int, .int, .int, .int, .int, .int, .int, .int, .int, .int, .int, .int, .int, .int, .int, .int, .int, .int, .int, .int, .int, .int, .int, .int, .int, .int, .int, .int, .int, .int, .int, .int, .int, .int, .int, .int, .int, .int, .int, .int, .int, .int, .int, .int, .int, .int, .int, .int, .int, .int, .int, .int, .int, .int, .int, .int, .int, .int, .int], false, id! "_mm512_set_epi8", [.char, .char, .char, .char, .char, .char, .char, .char, .char, .char, .char, .char, .char, .char, .char, .char, .char, .char, .char, .char, .char, .char, .char, .char, .char, .char, .char, .char, .char, .char, .char, .char, .char, .char, .char, .char, .char, .char, .char, .char, .char, .char, .char, .char, .char, .char, .char, .char, .char, .char, .char, .char, .char, .char, .char, .char, .char, .char, .char, .char, .char, .char, .char, .char], some .m512i⟩,
  /- 11873 -/ ⟨id! "mm512_kunpackb", [.ptr, .ptr, .ptr], false, id! "_mm512_kunpackb", [.mask16, .mask16], some .mask16⟩,
  /- 11825 -/ ⟨id! "mm512_kortestc", [.ptr, .ptr, .ptr], false, id! "_mm512_kortestc", [.mask16, .mask16], some .int⟩,
  /- 1895 -/ ⟨id! "mm512_rcp14_pd", [.ptr, .ptr], false, id! "_mm512_rcp14_pd", [.m512d], some .m512d⟩,
  /- 14229 -/ ⟨id! "mm512_fmsub_pd", [.ptr, .ptr, .ptr, .ptr], false, id! "_mm512_fmsub_pd", [.m512d, .m512d, .m512d], some .m512d⟩,
  /- 14133 -/ ⟨id! "mm512_fmadd_pd", [.ptr, .ptr, .ptr, .ptr], false, id! "_mm512_fmadd_pd", [.m512d, .m512d, .m512d], some .m512d⟩,
  /- 443 -/ ⟨id! "mm512_store_pd", [.ptr, .ptr], false, id! "_mm512_store_pd", [.ptr, .m512d], none⟩,
  /- 10009 -/ ⟨id! "mm512_floor_pd", [.ptr, .ptr], false, id! "_mm512_floor_pd", [.m512d], some .m512d⟩,
  /- 15553 -/ ⟨id! "mm512_cvtps_pd", [.ptr, .ptr], false, id! "_mm512_cvtps_pd", [.m256], some .m512d⟩,
  /- 6631 -/ ⟨id! "mm512_loadu_pd", [.ptr, .ptr], false, id! "_mm512_loadu_pd", [.ptr], some .m512d⟩,
  /- 13509 -/ ⟨id! "mm_mask_sub_sd", [.ptr, .ptr, .ptr, .ptr, .ptr], false, id! "_mm_mask_sub_sd", [.m128d, .mask8, .m128d, .m128d], some .m128d⟩,
  /- 13389 -/ ⟨id! "mm_mask_add_sd", [.ptr, .ptr, .ptr, .ptr, .ptr], false, id! "_mm_mask_add_sd", [.m128d, .mask8, .m128d, .m128d], some .m128d⟩,
  /- 13629 -/ ⟨id! "mm_mask_mul_sd", [.ptr, .ptr, .ptr, .ptr, .ptr], false, id! "_mm_mask_mul_sd", [.m128d, .mask8, .m128d, .m128d], some .m128d⟩,
  /- 15213 -/ ⟨id! "mm_fixupimm_sd", [.ptr, .ptr, .ptr, .ptr, .int], true, id! "_mm_fixupimm_sd", [.m128d, .m128d, .m128i, .constInt], some .m128d⟩,
  /- 13989 -/ ⟨id! "mm_mask_min_sd", [.ptr, .ptr, .ptr, .ptr, .ptr], false, id! "_mm_mask_min_sd", [.m128d, .mask8, .m128d, .m128d], some .m128d⟩,
  /- 13749 -/ ⟨id! "mm_mask_div_sd", [.ptr, .ptr, .ptr, .ptr, .ptr], false, id! "_mm_mask_div_sd", [.m128d, .mask8, .m128d, .m128d], some .m128d⟩,
  /- 13869 -/ ⟨id! "mm_mask_max_sd", [.ptr, .ptr, .ptr, .ptr, .ptr], false, id! "_mm_mask_max_sd", [.m128d, .mask8, .m128d, .m128d], some .m128d⟩,
  /- 9279 -/ ⟨id! "mm512_cvtps_ph", [.ptr, .ptr, .int], true, id! "_mm512_cvtps_ph", [.m512, .constInt], some .m256i⟩,
  /- 69 -/ ⟨id! "mm512_int2mask", [.ptr, .int], false, id! "_mm512_int2mask", [.int], some .mask16⟩,
  /- 16197 -/ ⟨id! "mm_cmp_sd_mask", [.ptr, .ptr, .ptr, .int], true, id! "_mm_cmp_sd_mask", [.m128d, .m128d, .constInt], some .mask8⟩,
  /- 16225 -/ ⟨id! "mm_cmp_ss_mask", [.ptr, .ptr, .ptr, .int], true, id! "_mm_cmp_ss_mask", [.m128, .m128, .constInt], some .mask8⟩,
  /- 1931 -/ ⟨id! "mm512_rcp14_ps", [.ptr, .ptr], false, id! "_mm512_rcp14_ps", [.m512], some .m512⟩,
  /- 14277 -/ ⟨id! "mm512_fmsub_ps", [.ptr, .ptr, .ptr, .ptr], false, id! "_mm512_fmsub_ps", [.m512, .m512, .m512], some .m512⟩,
  /- 14181 -/ ⟨id! "mm512_fmadd_ps", [.ptr, .ptr, .ptr, .ptr], false, id! "_mm512_fmadd_ps", [.m512, .m512, .m512], some .m512⟩,
  /- 15625 -/ ⟨id! "mm512_cvtpd_ps", [.ptr, .ptr], false, id! "_mm512_cvtpd_ps", [.m512d], some .m256⟩,
  /- 503 -/ ⟨id! "mm512_store_ps", [.ptr, .ptr], false, id! "_mm512_store_ps", [.ptr, .m512], none⟩,
  /- 15589 -/ ⟨id! "mm512_cvtph_ps", [.ptr, .ptr], false, id! "_mm512_cvtph_ps", [.m256i], some .m512⟩,
  /- 9997 -/ ⟨id! "mm512_floor_ps", [.ptr, .ptr], false, id! "_mm512_floor_ps", [.m512], some .m512⟩,
  /- 6691 -/ ⟨id! "mm512_loadu_ps", [.ptr, .ptr], false, id! "_mm512_loadu_ps", [.ptr], some .m512⟩,
  /- 13533 -/ ⟨id! "mm_mask_sub_ss", [.ptr, .ptr, .ptr, .ptr, .ptr], false, id! "_mm_mask_sub_ss", [.m128, .mask8, .m128, .m128], some .m128⟩,
  /- 13413 -/ ⟨id! "mm_mask_add_ss", [.ptr, .ptr, .ptr, .ptr, .ptr], false, id! "_mm_mask_add_ss", [.m128, .mask8, .m128, .m128], some .m128⟩,
  /- 13653 -/ ⟨id! "mm_mask_mul_ss", [.ptr, .ptr, .ptr, .ptr, .ptr], false, id! "_mm_mask_mul_ss", [.m128, .mask8, .m128, .m128], some .m128⟩,
  /- 15255 -/ ⟨id! "mm_fixupimm_ss", [.ptr, .ptr, .ptr, .ptr, .int], true, id! "_mm_fixupimm_ss", [.m128, .m128, .m128i, .constInt], some .m128⟩,
  /- 14013 -/ ⟨id! "mm_mask_min_ss", [.ptr, .ptr, .ptr, .ptr, .ptr], false, id! "_mm_mask_min_ss", [.m128, .mask8, .m128, .m128], some .m128⟩,
  /- 13773 -/ ⟨id! "mm_mask_div_ss", [.ptr, .ptr, .ptr, .ptr, .ptr], false, id! "_mm_mask_div_ss", [.m128, .mask8, .m128, .m128], some .m128⟩,
  /- 13893 -/ ⟨id! "mm_mask_max_ss", [.ptr, .ptr, .ptr, .ptr, .ptr], false, id! "_mm_mask_max_ss", [.m128, .mask8, .m128, .m128], some .m128⟩,
  /- 81 -/ ⟨id! "mm512_mask2int", [.ptr, .ptr], false, id! "_mm512_mask2int", [.mask16], some .int⟩,
  /- 11813 -/ ⟨id! "mm512_kortestz", [.ptr, .ptr, .ptr], false, id! "_mm512_kortestz", [.mask16, .mask16], some .int⟩,
  /- 8245 -/ ⟨id! "mm512_and_si512", [.ptr, .ptr, .ptr], false, id! "_mm512_and_si512", [.m512i, .m512i], some .m512i⟩,
  /- 7997 -/ ⟨id! "mm512_xor_si512", [.ptr, .ptr, .ptr], false, id! "_mm512_xor_si512", [.m512i, .m512i], some .m512i⟩,
  /- 15009 -/ ⟨id! "mm512_cvtss_f32", [.ptr, .ptr], false, id! "_mm512_cvtss_f32", [.m512], some .float⟩,
  /- 1607 -/ ⟨id! "mm512_sra_epi32", [.ptr, .ptr, .ptr], false, id! "_mm512_sra_epi32", [.m512i, .m128i], some .m512i⟩,
  /- 1139 -/ ⟨id! "mm512_sub_epi32", [.ptr, .ptr, .ptr], false, id! "_mm512_sub_epi32", [.m512i, .m512i], some .m512i⟩,
  /- 1067 -/ ⟨id! "mm512_add_epi32", [.ptr, .ptr, .ptr], false, id! "_mm512_add_epi32", [.m512i, .m512i], some .m512i⟩,
  /- 8257 -/ ⟨id! "mm512_and_epi32", [.ptr, .ptr, .ptr], false, id! "_mm512_and_epi32", [.m512i, .m512i], some .m512i⟩,
  /- 1463 -/ ⟨id! "mm512_sll_epi32", [.ptr, .ptr, .ptr], false, id! "_mm512_sll_epi32", [.m512i, .m128i], some .m512i⟩,
  /- 8081 -/ ⟨id! "mm512_rol_epi32", [.ptr, .ptr, .int], true, id! "_mm512_rol_epi32", [.m512i, .constInt], some .m512i⟩,
  /- 1535 -/ ⟨id! "mm512_srl_epi32", [.ptr, .ptr, .ptr], false, id! "_mm512_srl_epi32", [.m512i, .m128i], some .m512i⟩,
  /- 1103 -/ ⟨id! "mm512_mul_epi32", [.ptr, .ptr, .ptr], false, id! "_mm512_mul_epi32", [.m512i, .m512i], some .m512i⟩,
  /- 12121 -/ ⟨id! "mm512_min_epi32", [.ptr, .ptr, .ptr], false, id! "_mm512_min_epi32", [.m512i, .m512i], some .m512i⟩,
  /- 8123 -/ ⟨id! "mm512_ror_epi32", [.ptr, .ptr, .int], false, id! "_mm512_ror_epi32", [.m512i, .int], some .m512i⟩,
  /- 8009 -/ ⟨id! "mm512_xor_epi32", [.ptr, .ptr, .ptr], false, id! "_mm512_xor_epi32", [.m512i, .m512i], some .m512i⟩,
  /- 4251 -/ ⟨id! "mm512_abs_epi32", [.ptr, .ptr], false, id! "_mm512_abs_epi32", [.m512i], some .m512i⟩,
  /- 105 -/ ⟨id! "mm512_set_epi32", [.ptr, .int, .int, .int, .int, .int, .int, .int, .int, .int, .int, .int, .int, .int, .int, .int, .int], false, id! "_mm512_set_epi32", [.int, .int, .int, .int, .int, .int, .int, .int, .int, .int, .int, .int, .int, .int, .int, .int], some .m512i⟩,
  /- 12085 -/ ⟨id! "mm512_max_epi32", [.ptr, .ptr, .ptr], false, id! "_mm512_max_epi32", [.m512i, .m512i], some .m512i⟩,
  /- 1175 -/ ⟨id! "mm512_mul_epu32", [.ptr, .ptr, .ptr], false, id! "_mm512_mul_epu32", [.m512i, .m512i], some .m512i⟩,
  /- 12193 -/ ⟨id! "mm512_min_epu32", [.ptr, .ptr, .ptr], false, id! "_mm512_min_epu32", [.m512i, .m512i], some .m512i⟩,
  /- 12157 -/ ⟨id! "mm512_max_epu32", [.ptr, .ptr, .ptr], false, id! "_mm512_max_epu32", [.m512i, .m512i], some .m512i⟩,
  /- 14997 -/ ⟨id! "mm512_cvtsd_f64", [.ptr, .ptr], false, id! "_mm512_cvtsd_f64", [.m512d], some .double⟩,
  /- 1391 -/ ⟨id! "mm512_sra_epi64", [.ptr, .ptr, .ptr], false, id! "_mm512_sra_epi64", [.m512i, .m128i], some .m512i⟩,
  /- 923 -/ ⟨id! "mm512_sub_epi64", [.ptr, .ptr, .ptr], false, id! "_mm512_sub_epi64", [.m512i, .m512i], some .m512i⟩,
  /- 887 -/ ⟨id! "mm512_add_epi64", [.ptr, .ptr, .ptr], false, id! "_mm512_add_epi64", [.m512i, .m512i], some .m512i⟩,
  /- 8293 -/ ⟨id! "mm512_and_epi64", [.ptr, .ptr, .ptr], false, id! "_mm512_and_epi64", [.m512i, .m512i], some .m512i⟩,
  /- 1247 -/ ⟨id! "mm512_sll_epi64", [.ptr, .ptr, .ptr], false, id! "_mm512_sll_epi64", [.m512i, .m128i], some .m512i⟩,
  /- 8161 -/ ⟨id! "mm512_rol_epi64", [.ptr, .ptr, .int], true, id! "_mm512_rol_epi64", [.m512i, .constInt], some .m512i⟩,
  /- 1319 -/ ⟨id! "mm512_srl_epi64", [.ptr, .ptr, .ptr], false, id! "_mm512_srl_epi64", [.m512i, .m128i], some .m512i⟩,
  /- 11977 -/ ⟨id! "mm512_min_epi64", [.ptr, .ptr, .ptr], false, id! "_mm512_min_epi64", [.m512i, .m512i], some .m512i⟩,
  /- 8203 -/ ⟨id! "mm512_ror_epi64", [.ptr, .ptr, .int], true, id! "_mm512_ror_epi64", [.m512i, .int], some .m512i⟩,
  /- 8045 -/ ⟨id! "mm512_xor_epi64", [.ptr, .ptr, .ptr], false, id! "_mm512_xor_epi64", [.m512i, .m512i], some .m512i⟩,
  /- 4215 -/ ⟨id! "mm512_abs_epi64", [.ptr, .ptr], false, id! "_mm512_abs_epi64", [.m512i], some .m512i⟩,
  /- 93 -/ ⟨id! "mm512_set_epi64", [.ptr, .int, .int, .int, .int, .int, .int, .int, .int], false, id! "_mm512_set_epi64", [.llong, .llong, .llong, .llong, .llong, .llong, .llong, .llong], some .m512i⟩,
  /- 11941 -/ ⟨id! "mm512_max_epi64", [.ptr, .ptr, .ptr], false, id! "_mm512_max_epi64", [.m512i, .m512i], some .m512i⟩,
  /- 12049 -/ ⟨id! "mm512_min_epu64", [.ptr, .ptr, .ptr], false, id! "_mm512_min_epu64", [.m512i, .m512i], some .m512i⟩,
  /- 12013 -/ ⟨id! "mm512_max_epu64", [.ptr, .ptr, .ptr], false, id! "_mm512_max_epu64", [.m512i, .m512i], some .m512i⟩,
  /- 117 -/ ⟨id! "mm512_set_epi16", [.ptr, .int, .int, .int, .int, .int, .int, .int, .int, .int, .int, .int, .int, .int, .int, .int, .int, .int, .int, .int, .int, .int, .int, .int, .int, .int, .int, .int, .int, .int, .int, .int, .int], false, id! "_mm512_set_epi16", [.short, .short, .short, .short, .short, .short, .short, .short, .short, .short, .short, .short, .short, .short, .short, .short, .short, .short, .short, .short, .short, .short, .short, .short, .short, .short, .short, .short, .short, .short, .short, .short], some .m512i⟩,
  /- 10657 -/ ⟨id! "kshiftli_mask16", [.ptr, .ptr, .int], true, id! "_kshiftli_mask16", [.mask16, .uint], some .mask16⟩,
  /- 10671 -/ ⟨id! "kshiftri_mask16", [.ptr, .ptr, .int], true, id! "_kshiftri_mask16", [.mask16, .uint], some .mask16⟩,
  /- 201 -/ ⟨id! "mm512_set1_epi8", [.ptr, .int], false, id! "_mm512_set1_epi8", [.char], some .m512i⟩,
  /- 14613 -/ ⟨id! "mm512_fnmsub_pd", [.ptr, .ptr, .ptr, .ptr], false, id! "_mm512_fnmsub_pd", [.m512d, .m512d, .m512d], some .m512d⟩,
  /- 14517 -/ ⟨id! "mm512_fnmadd_pd", [.ptr, .ptr, .ptr, .ptr], false, id! "_mm512_fnmadd_pd", [.m512d, .m512d, .m512d], some .m512d⟩,
  /- 14037 -/ ⟨id! "mm512_scalef_pd", [.ptr, .ptr, .ptr], false, id! "_mm512_scalef_pd", [.m512d, .m512d], some .m512d⟩,
  /- 9499 -/ ⟨id! "mm512_stream_pd", [.ptr, .ptr], false, id! "_mm512_stream_pd", [.ptr, .m512d], none⟩,
  /- 15697 -/ ⟨id! "mm512_getexp_pd", [.ptr, .ptr], false, id! "_mm512_getexp_pd", [.m512d], some .m512d⟩,
  /- 16673 -/ ⟨id! "mm512_castps_pd", [.ptr, .ptr], false, id! "_mm512_castps_pd", [.m512], some .m512d⟩,
  /- 6667 -/ ⟨id! "mm512_storeu_pd", [.ptr, .ptr], false, id! "_mm512_storeu_pd", [.ptr, .m512d], none⟩,
  /- 13521 -/ ⟨id! "mm_maskz_sub_sd", [.ptr, .ptr, .ptr, .ptr], false, id! "_mm_maskz_sub_sd", [.mask8, .m128d, .m128d], some .m128d⟩,
  /- 6775 -/ ⟨id! "mm_mask_load_sd", [.ptr, .ptr, .ptr, .ptr], false, id! "_mm_mask_load_sd", [.m128d, .mask8, .ptr], some .m128d⟩,
  /- 13401 -/ ⟨id! "mm_maskz_add_sd", [.ptr, .ptr, .ptr, .ptr], false, id! "_mm_maskz_add_sd", [.mask8, .m128d, .m128d], some .m128d⟩,
  /- 1727 -/ ⟨id! "mm_sub_round_sd", [.ptr, .ptr, .ptr, .int], true, id! "_mm_sub_round_sd", [.m128d, .m128d, .constInt], some .m128d⟩,
  /- 1643 -/ ⟨id! "mm_add_round_sd", [.ptr, .ptr, .ptr, .int], true, id! "_mm_add_round_sd", [.m128d, .m128d, .constInt], some .m128d⟩,
  /- 3039 -/ ⟨id! "mm_mul_round_sd", [.ptr, .ptr, .ptr, .int], true, id! "_mm_mul_round_sd", [.m128d, .m128d, .constInt], some .m128d⟩,
  /- 12349 -/ ⟨id! "mm_min_round_sd", [.ptr, .ptr, .ptr, .int], true, id! "_mm_min_round_sd", [.m128d, .m128d, .constInt], some .m128d⟩,
  /- 3123 -/ ⟨id! "mm_div_round_sd", [.ptr, .ptr, .ptr, .int], true, id! "_mm_div_round_sd", [.m128d, .m128d, .constInt], some .m128d⟩,
  /- 12265 -/ ⟨id! "mm_max_round_sd", [.ptr, .ptr, .ptr, .int], true, id! "_mm_max_round_sd", [.m128d, .m128d, .constInt], some .m128d⟩,
  /- 6823 -/ ⟨id! "mm_mask_move_sd", [.ptr, .ptr, .ptr, .ptr, .ptr], false, id! "_mm_mask_move_sd", [.m128d, .mask8, .m128d, .m128d], some .m128d⟩,
  /- 13641 -/ ⟨id! "mm_maskz_mul_sd", [.ptr, .ptr, .ptr, .ptr], false, id! "_mm_maskz_mul_sd", [.mask8, .m128d, .m128d], some .m128d⟩,
  /- 14001 -/ ⟨id! "mm_maskz_min_sd", [.ptr, .ptr, .ptr, .ptr], false, id! "_mm_maskz_min_sd", [.mask8, .m128d, .m128d], some .m128d⟩,
  /- 13761 -/ ⟨id! "mm_maskz_div_sd", [.ptr, .ptr, .ptr, .ptr], false, id! "_mm_maskz_div_sd", [.mask8, .m128d, .m128d], some .m128d⟩,
  /- 13881 -/ ⟨id! "mm_maskz_max_sd", [.ptr, .ptr, .ptr, .ptr], false, id! "_mm_maskz_max_sd", [.mask8, .m128d, .m128d], some .m128d⟩,
  /- 14661 -/ ⟨id! "mm512_fnmsub_ps", [.ptr, .ptr, .ptr, .ptr], false, id! "_mm512_fnmsub_ps", [.m512, .m512, .m512], some .m512⟩,
  /- 14565 -/ ⟨id! "mm512_fnmadd_ps", [.ptr, .ptr, .ptr, .ptr], false, id! "_mm512_fnmadd_ps", [.m512, .m512, .m512], some .m512⟩,
  /- 16649 -/ ⟨id! "mm512_castpd_ps", [.ptr, .ptr], false, id! "_mm512_castpd_ps", [.m512d], some .m512⟩,
  /- 14073 -/ ⟨id! "mm512_scalef_ps", [.ptr, .ptr, .ptr], false, id! "_mm512_scalef_ps", [.m512, .m512], some .m512⟩,
  /- 9487 -/ ⟨id! "mm512_stream_ps", [.ptr, .ptr], false, id! "_mm512_stream_ps", [.ptr, .m512], none⟩,
  /- 15661 -/ ⟨id! "mm512_getexp_ps", [.ptr, .ptr], false, id! "_mm512_getexp_ps", [.m512], some .m512⟩,
  /- 6727 -/ ⟨id! "mm512_storeu_ps", [.ptr, .ptr], false, id! "_mm512_storeu_ps", [.ptr, .m512], none⟩,
  /- 13545 -/ ⟨id! "mm_maskz_sub_ss", [.ptr, .ptr, .ptr, .ptr], false, id! "_mm_maskz_sub_ss", [.mask8, .m128, .m128], some .m128⟩,
  /- 6751 -/ ⟨id! "mm_mask_load_ss", [.ptr, .ptr, .ptr, .ptr], false, id! "_mm_mask_load_ss", [.m128, .mask8, .ptr], some .m128⟩,
  /- 13425 -/ ⟨id! "mm_maskz_add_ss", [.ptr, .ptr, .ptr, .ptr], false, id! "_mm_maskz_add_ss", [.mask8, .m128, .m128], some .m128⟩,
  /- 1769 -/ ⟨id! "mm_sub_round_ss", [.ptr, .ptr, .ptr, .int], true, id! "_mm_sub_round_ss", [.m128, .m128, .constInt], some .m128⟩,
  /- 1685 -/ ⟨id! "mm_add_round_ss", [.ptr, .ptr, .ptr, .int], true, id! "_mm_add_round_ss", [.m128, .m128, .constInt], some .m128⟩,
  /- 3081 -/ ⟨id! "mm_mul_round_ss", [.ptr, .ptr, .ptr, .int], true, id! "_mm_mul_round_ss", [.m128, .m128, .constInt], some .m128⟩,
  /- 12391 -/ ⟨id! "mm_min_round_ss", [.ptr, .ptr, .ptr, .int], true, id! "_mm_min_round_ss", [.m128, .m128, .constInt], some .m128⟩,
  /- 3165 -/ ⟨id! "mm_div_round_ss", [.ptr, .ptr, .ptr, .int], true, id! "_mm_div_round_ss", [.m128, .m128, .constInt], some .m128⟩,
  /- 12307 -/ ⟨id! "mm_max_round_ss", [.ptr, .ptr, .ptr, .int], true, id! "_mm_max_round_ss", [.m128, .m128, .constInt], some .m128⟩,
  /- 6799 -/ ⟨id! "mm_mask_move_ss", [.ptr, .ptr, .ptr, .ptr, .ptr], false, id! "_mm_mask_move_ss", [.m128, .mask8, .m128, .m128], some .m128⟩,
  /- 13665 -/ ⟨id! "mm_maskz_mul_ss", [.ptr, .ptr, .ptr, .ptr], false, id! "_mm_maskz_mul_ss", [.mask8, .m128, .m128], some .m128⟩,
  /- 14025 -/ ⟨id! "mm_maskz_min_ss", [.ptr, .ptr, .ptr, .ptr], false, id! "_mm_maskz_min_ss", [.mask8, .m128, .m128], some .m128⟩,
  /- 13785 -/ ⟨id! "mm_maskz_div_ss", [.ptr, .ptr, .ptr, .ptr], false, id! "_mm_maskz_div_ss", [.mask8, .m128, .m128], some .m128⟩,
  /- 13905 -/ ⟨id! "mm_maskz_max_ss", [.ptr, .ptr, .ptr, .ptr], false, id! "_mm_maskz_max_ss", [.mask8, .m128, .m128], some .m128⟩,
  /- 635 -/ ⟨id! "mm512_load_si512", [.ptr, .ptr], false, id! "_mm512_load_si512", [.ptr], some .m512i⟩,
  /- 4395 -/ ⟨id! "mm512_set1_epi32", [.ptr, .int], true, id! "_mm512_set1_epi32", [.int], some .m512i⟩,
  /- 249 -/ ⟨id! "mm512_set4_epi32", [.ptr, .int, .int, .int, .int], true, id! "_mm512_set4_epi32", [.int, .int, .int, .int], some .m512i⟩,
  /- 647 -/ ⟨id! "mm512_load_epi32", [.ptr, .ptr], false, id! "_mm512_load_epi32", [.ptr], some .m512i⟩,
  /- 1571 -/ ⟨id! "mm512_srai_epi32", [.ptr, .ptr, .int], false, id! "_mm512_srai_epi32", [.m512i, .uint], some .m512i⟩,
  /- 1427 -/ ⟨id! "mm512_slli_epi32", [.ptr, .ptr, .int], false, id! "_mm512_slli_epi32", [.m512i, .uint], some .m512i⟩,
  /- 1499 -/ ⟨id! "mm512_srli_epi32", [.ptr, .ptr, .int], false, id! "_mm512_srli_epi32", [.m512i, .uint], some .m512i⟩,
  /- 815 -/ ⟨id! "mm512_srav_epi32", [.ptr, .ptr, .ptr], false, id! "_mm512_srav_epi32", [.m512i, .m512i], some .m512i⟩,
  /- 779 -/ ⟨id! "mm512_sllv_epi32", [.ptr, .ptr, .ptr], false, id! "_mm512_sllv_epi32", [.m512i, .m512i], some .m512i⟩,
  /- 4857 -/ ⟨id! "mm512_rolv_epi32", [.ptr, .ptr, .ptr], false, id! "_mm512_rolv_epi32", [.m512i, .m512i], some .m512i⟩,
  /- 851 -/ ⟨id! "mm512_srlv_epi32", [.ptr, .ptr, .ptr], false, id! "_mm512_srlv_epi32", [.m512i, .m512i], some .m512i⟩,
  /- 4893 -/ ⟨id! "mm512_rorv_epi32", [.ptr, .ptr, .ptr], false, id! "_mm512_rorv_epi32", [.m512i, .m512i], some .m512i⟩,
  /- 4473 -/ ⟨id! "mm512_set1_epi64", [.ptr, .int], false, id! "_mm512_set1_epi64", [.llong], some .m512i⟩,
  /- 263 -/ ⟨id! "mm512_set4_epi64", [.ptr, .int, .int, .int, .int], false, id! "_mm512_set4_epi64", [.llong, .llong, .llong, .llong], some .m512i⟩,
  /- 551 -/ ⟨id! "mm512_load_epi64", [.ptr, .ptr], false, id! "_mm512_load_epi64", [.ptr], some .m512i⟩,
  /- 1355 -/ ⟨id! "mm512_srai_epi64", [.ptr, .ptr, .int], false, id! "_mm512_srai_epi64", [.m512i, .uint], some .m512i⟩,
  /- 1211 -/ ⟨id! "mm512_slli_epi64", [.ptr, .ptr, .int], false, id! "_mm512_slli_epi64", [.m512i, .uint], some .m512i⟩,
  /- 1283 -/ ⟨id! "mm512_srli_epi64", [.ptr, .ptr, .int], false, id! "_mm512_srli_epi64", [.m512i, .uint], some .m512i⟩,
  /- 995 -/ ⟨id! "mm512_srav_epi64", [.ptr, .ptr, .ptr], false, id! "_mm512_srav_epi64", [.m512i, .m512i], some .m512i⟩,
  /- 959 -/ ⟨id! "mm512_sllv_epi64", [.ptr, .ptr, .ptr], false, id! "_mm512_sllv_epi64", [.m512i, .m512i], some .m512i⟩,
  /- 4929 -/ ⟨id! "mm512_rolv_epi64", [.ptr, .ptr, .ptr], false, id! "_mm512_rolv_epi64", [.m512i, .m512i], some .m512i⟩,
  /- 1031 -/ ⟨id! "mm512_srlv_epi64", [.ptr, .ptr, .ptr], false, id! "_mm512_srlv_epi64", [.m512i, .m512i], some .m512i⟩,
  /- 4965 -/ ⟨id! "mm512_rorv_epi64", [.ptr, .ptr, .ptr], false, id! "_mm512_rorv_epi64", [.m512i, .m512i], some .m512i⟩,
  /- 213 -/ ⟨id! "mm512_set1_epi16", [.ptr, .int], false, id! "_mm512_set1_epi16", [.short], some .m512i⟩,
  /- 2039 -/ ⟨id! "mm512_rsqrt14_pd", [.ptr, .ptr], false, id! "_mm512_rsqrt14_pd", [.m512d], some .m512d⟩,
  /- 7631 -/ ⟨id! "mm512_shuffle_pd", [.ptr, .ptr, .ptr, .int], true, id! "_mm512_shuffle_pd", [.m512d, .m512d, .constInt], some .m512d⟩,
  /- 7279 -/ ⟨id! "mm512_permute_pd", [.ptr, .ptr, .int], true, id! "_mm512_permute_pd", [.m512d, .constInt], some .m512d⟩,
  /- 323 -/ ⟨id! "mm512_setzero_pd", [.ptr], false, id! "_mm512_setzero_pd", [], some .m512d⟩,
  /- 9037 -/ ⟨id! "mm512_movedup_pd", [.ptr, .ptr], false, id! "_mm512_movedup_pd", [.m512d], some .m512d⟩,
  /- 15805 -/ ⟨id! "mm512_getmant_pd", [.ptr, .ptr, .enum, .enum], true, id! "_mm512_getmant_pd", [.m512d, .enum, .enum], some .m512d⟩,
  /- 1979 -/ ⟨id! "mm_mask_rcp14_sd", [.ptr, .ptr, .ptr, .ptr, .ptr], false, id! "_mm_mask_rcp14_sd", [.m128d, .mask8, .m128d, .m128d], some .m128d⟩,
  /- 12665 -/ ⟨id! "mm_mask_fmsub_sd", [.ptr, .ptr, .ptr, .ptr, .ptr], false, id! "_mm_mask_fmsub_sd", [.m128d, .mask8, .m128d, .m128d], some .m128d⟩,
  /- 6787 -/ ⟨id! "mm_maskz_load_sd", [.ptr, .ptr, .ptr], false, id! "_mm_maskz_load_sd", [.mask8, .ptr], some .m128d⟩,
  /- 12593 -/ ⟨id! "mm_mask_fmadd_sd", [.ptr, .ptr, .ptr, .ptr, .ptr], false, id! "_mm_mask_fmadd_sd", [.m128d, .mask8, .m128d, .m128d], some .m128d⟩,
  /- 13231 -/ ⟨id! "mm_comi_round_sd", [.ptr, .ptr, .ptr, .int, .int], true, id! "_mm_comi_round_sd", [.m128d, .m128d, .constInt, .constInt], some .int⟩,
  /- 2267 -/ ⟨id! "mm_sqrt_round_sd", [.ptr, .ptr, .ptr, .int], true, id! "_mm_sqrt_round_sd", [.m128d, .m128d, .constInt], some .m128d⟩,
  /- 16099 -/ ⟨id! "mm_roundscale_sd", [.ptr, .ptr, .ptr, .int], true, id! "_mm_roundscale_sd", [.m128d, .m128d, .constInt], some .m128d⟩,
  /- 6859 -/ ⟨id! "mm_mask_store_sd", [.ptr, .ptr, .ptr], false, id! "_mm_mask_store_sd", [.ptr, .mask8, .m128d], none⟩,
  /- 6835 -/ ⟨id! "mm_maskz_move_sd", [.ptr, .ptr, .ptr, .ptr], false, id! "_mm_maskz_move_sd", [.mask8, .m128d, .m128d], some .m128d⟩,
  /- 2075 -/ ⟨id! "mm512_rsqrt14_ps", [.ptr, .ptr], false, id! "_mm512_rsqrt14_ps", [.m512], some .m512⟩,
  /- 7591 -/ ⟨id! "mm512_shuffle_ps", [.ptr, .ptr, .ptr, .int], true, id! "_mm512_shuffle_ps", [.m512, .m512, .constInt], some .m512⟩,
  /- 7321 -/ ⟨id! "mm512_permute_ps", [.ptr, .ptr, .int], true, id! "_mm512_permute_ps", [.m512, .constInt], some .m512⟩,
  /- 299 -/ ⟨id! "mm512_setzero_ps", [.ptr], false, id! "_mm512_setzero_ps", [], some .m512⟩,
  /- 15847 -/ ⟨id! "mm512_getmant_ps", [.ptr, .ptr, .enum, .enum], true, id! "_mm512_getmant_ps", [.m512, .enum, .enum], some .m512⟩,
  /- 2015 -/ ⟨id! "mm_mask_rcp14_ss", [.ptr, .ptr, .ptr, .ptr, .ptr], false, id! "_mm_mask_rcp14_ss", [.m128, .mask8, .m128, .m128], some .m128⟩,
  /- 12677 -/ ⟨id! "mm_mask_fmsub_ss", [.ptr, .ptr, .ptr, .ptr, .ptr], false, id! "_mm_mask_fmsub_ss", [.m128, .mask8, .m128, .m128], some .m128⟩,
  /- 6763 -/ ⟨id! "mm_maskz_load_ss", [.ptr, .ptr, .ptr], false, id! "_mm_maskz_load_ss", [.mask8, .ptr], some .m128⟩,
  /- 12605 -/ ⟨id! "mm_mask_fmadd_ss", [.ptr, .ptr, .ptr, .ptr, .ptr], false, id! "_mm_mask_fmadd_ss", [.m128, .mask8, .m128, .m128], some .m128⟩,
  /- 13217 -/ ⟨id! "mm_comi_round_ss", [.ptr, .ptr, .ptr, .int, .int], true, id! "_mm_comi_round_ss", [.m128, .m128, .constInt, .constInt], some .int⟩,
  /- 2309 -/ ⟨id! "mm_sqrt_round_ss", [.ptr, .ptr, .ptr, .int], true, id! "_mm_sqrt_round_ss", [.m128, .m128, .constInt], some .m128⟩,
  /- 16057 -/ ⟨id! "mm_roundscale_ss", [.ptr, .ptr, .ptr, .int], true, id! "_mm_roundscale_ss", [.m128, .m128, .constInt], some .m128⟩,
  /- 6847 -/ ⟨id! "mm_mask_store_ss", [.ptr, .ptr, .ptr], false, id! "_mm_mask_store_ss", [.ptr, .mask8, .m128], none⟩,
  /- 6811 -/ ⟨id! "mm_maskz_move_ss", [.ptr, .ptr, .ptr, .ptr], false, id! "_mm_maskz_move_ss", [.mask8, .m128, .m128], some .m128⟩,
  /- 683 -/ ⟨id! "mm512_store_si512", [.ptr, .ptr], false, id! "_mm512_store_si512", [.ptr, .m512i], none⟩,
  /- 6931 -/ ⟨id! "mm512_loadu_si512", [.ptr, .ptr], false, id! "_mm512_loadu_si512", [.ptr], some .m512i⟩,
  /- 14781 -/ ⟨id! "mm512_cvtpd_epi32", [.ptr, .ptr], false, id! "_mm512_cvtpd_epi32", [.m512d], some .m256i⟩,
  /- 695 -/ ⟨id! "mm512_store_epi32", [.ptr, .ptr], false, id! "_mm512_store_epi32", [.ptr, .m512i], none⟩,
  /- 719 -/ ⟨id! "mm512_mullo_epi32", [.ptr, .ptr, .ptr], false, id! "_mm512_mullo_epi32", [.m512i, .m512i], some .m512i⟩,
  /- 14925 -/ ⟨id! "mm512_cvtps_epi32", [.ptr, .ptr], false, id! "_mm512_cvtps_epi32", [.m512], some .m512i⟩,
  /- 6943 -/ ⟨id! "mm512_loadu_epi32", [.ptr, .ptr], false, id! "_mm512_loadu_epi32", [.ptr], some .m512i⟩,
  /- 14817 -/ ⟨id! "mm512_cvtpd_epu32", [.ptr, .ptr], false, id! "_mm512_cvtpd_epu32", [.m512d], some .m256i⟩,
  /- 14961 -/ ⟨id! "mm512_cvtps_epu32", [.ptr, .ptr], false, id! "_mm512_cvtps_epu32", [.m512], some .m512i⟩,
  /- 587 -/ ⟨id! "mm512_store_epi64", [.ptr, .ptr], false, id! "_mm512_store_epi64", [.ptr, .m512i], none⟩,
  /- 6871 -/ ⟨id! "mm512_loadu_epi64", [.ptr, .ptr], false, id! "_mm512_loadu_epi64", [.ptr], some .m512i⟩,
  /- 6533 -/ ⟨id! "mm512_insertf32x4", [.ptr, .ptr, .ptr, .int], true, id! "_mm512_insertf32x4", [.m512, .m128, .constInt], some .m512⟩,
  /- 6519 -/ ⟨id! "mm512_inserti32x4", [.ptr, .ptr, .ptr, .int], true, id! "_mm512_inserti32x4", [.m512i, .m128i, .constInt], some .m512i⟩,
  /- 6589 -/ ⟨id! "mm512_insertf64x4", [.ptr, .ptr, .ptr, .int], true, id! "_mm512_insertf64x4", [.m512d, .m256d, .constInt], some .m512d⟩,
  /- 6547 -/ ⟨id! "mm512_inserti64x4", [.ptr, .ptr, .ptr, .int], true, id! "_mm512_inserti64x4", [.m512i, .m256i, .constInt], some .m512i⟩,
  /- 11693 -/ ⟨id! "kortest_mask16_u8", [.ptr, .ptr, .ptr, .ptr], false, id! "_kortest_mask16_u8", [.mask16, .mask16, .ptr], some .uchar⟩,
  /- 6195 -/ ⟨id! "mm512_cvtepi32_pd", [.ptr, .ptr], false, id! "_mm512_cvtepi32_pd", [.m256i], some .m512d⟩,
  /- 6231 -/ ⟨id! "mm512_cvtepu32_pd", [.ptr, .ptr], false, id! "_mm512_cvtepu32_pd", [.m256i], some .m512d⟩,
  /- 13449 -/ ⟨id! "mm512_mask_sub_pd", [.ptr, .ptr, .ptr, .ptr, .ptr], false, id! "_mm512_mask_sub_pd", [.m512d, .mask8, .m512d, .m512d], some .m512d⟩,
  /- 14325 -/ ⟨id! "mm512_fmaddsub_pd", [.ptr, .ptr, .ptr, .ptr], false, id! "_mm512_fmaddsub_pd", [.m512d, .m512d, .m512d], some .m512d⟩,
  /- 13329 -/ ⟨id! "mm512_mask_add_pd", [.ptr, .ptr, .ptr, .ptr, .ptr], false, id! "_mm512_mask_add_pd", [.m512d, .mask8, .m512d, .m512d], some .m512d⟩,
  /- 14421 -/ ⟨id! "mm512_fmsubadd_pd", [.ptr, .ptr, .ptr, .ptr], false, id! "_mm512_fmsubadd_pd", [.m512d, .m512d, .m512d], some .m512d⟩,
  /- 9109 -/ ⟨id! "mm512_unpackhi_pd", [.ptr, .ptr, .ptr], false, id! "_mm512_unpackhi_pd", [.m512d, .m512d], some .m512d⟩,
  /- 13569 -/ ⟨id! "mm512_mask_mul_pd", [.ptr, .ptr, .ptr, .ptr, .ptr], false, id! "_mm512_mask_mul_pd", [.m512d, .mask8, .m512d, .m512d], some .m512d⟩,
  /- 15129 -/ ⟨id! "mm512_fixupimm_pd", [.ptr, .ptr, .ptr, .ptr, .int], true, id! "_mm512_fixupimm_pd", [.m512d, .m512d, .m512i, .constInt], some .m512d⟩,
  /- 13929 -/ ⟨id! "mm512_mask_min_pd", [.ptr, .ptr, .ptr, .ptr, .ptr], false, id! "_mm512_mask_min_pd", [.m512d, .mask8, .m512d, .m512d], some .m512d⟩,
  /- 9073 -/ ⟨id! "mm512_unpacklo_pd", [.ptr, .ptr, .ptr], false, id! "_mm512_unpacklo_pd", [.m512d, .m512d], some .m512d⟩,
  /- 8545 -/ ⟨id! "mm512_mask_abs_pd", [.ptr, .ptr, .ptr, .ptr], false, id! "_mm512_mask_abs_pd", [.m512d, .mask8, .m512d], some .m512d⟩,
  /- 13689 -/ ⟨id! "mm512_mask_div_pd", [.ptr, .ptr, .ptr, .ptr, .ptr], false, id! "_mm512_mask_div_pd", [.m512d, .mask8, .m512d, .m512d], some .m512d⟩,
  /- 359 -/ ⟨id! "mm512_mask_mov_pd", [.ptr, .ptr, .ptr, .ptr], false, id! "_mm512_mask_mov_pd", [.m512d, .mask8, .m512d], some .m512d⟩,
  /- 13809 -/ ⟨id! "mm512_mask_max_pd", [.ptr, .ptr, .ptr, .ptr, .ptr], false, id! "_mm512_mask_max_pd", [.m512d, .mask8, .m512d, .m512d], some .m512d⟩,
  /- 7405 -/ ⟨id! "mm512_permutex_pd", [.ptr, .ptr, .int], true, id! "_mm512_permutex_pd", [.m512d, .constInt], some .m512d⟩,
  /- 1991 -/ ⟨id! "mm_maskz_rcp14_sd", [.ptr, .ptr, .ptr, .ptr], false, id! "_mm_maskz_rcp14_sd", [.mask8, .m128d, .m128d], some .m128d⟩,
  /- 12689 -/ ⟨id! "mm_mask3_fmsub_sd", [.ptr, .ptr, .ptr, .ptr, .ptr], false, id! "_mm_mask3_fmsub_sd", [.m128d, .m128d, .m128d, .mask8], some .m128d⟩,
  /- 12713 -/ ⟨id! "mm_maskz_fmsub_sd", [.ptr, .ptr, .ptr, .ptr, .ptr], false, id! "_mm_maskz_fmsub_sd", [.mask8, .m128d, .m128d, .m128d], some .m128d⟩,
  /- 12809 -/ ⟨id! "mm_mask_fnmsub_sd", [.ptr, .ptr, .ptr, .ptr, .ptr], false, id! "_mm_mask_fnmsub_sd", [.m128d, .mask8, .m128d, .m128d], some .m128d⟩,
  /- 12617 -/ ⟨id! "mm_mask3_fmadd_sd", [.ptr, .ptr, .ptr, .ptr, .ptr], false, id! "_mm_mask3_fmadd_sd", [.m128d, .m128d, .m128d, .mask8], some .m128d⟩,
  /- 12641 -/ ⟨id! "mm_maskz_fmadd_sd", [.ptr, .ptr, .ptr, .ptr, .ptr], false, id! "_mm_maskz_fmadd_sd", [.mask8, .m128d, .m128d, .m128d], some .m128d⟩,
  /- 12737 -/ ⟨id! "mm_mask_fnmadd_sd", [.ptr, .ptr, .ptr, .ptr, .ptr], false, id! "_mm_mask_fnmadd_sd", [.m128d, .mask8, .m128d, .m128d], some .m128d⟩,
  /- 12509 -/ ⟨id! "mm_fmsub_round_sd", [.ptr, .ptr, .ptr, .ptr, .int], true, id! "_mm_fmsub_round_sd", [.m128d, .m128d, .m128d, .constInt], some .m128d⟩,
  /- 12481 -/ ⟨id! "mm_fmadd_round_sd", [.ptr, .ptr, .ptr, .ptr, .int], true, id! "_mm_fmadd_round_sd", [.m128d, .m128d, .m128d, .constInt], some .m128d⟩,
  /- 15781 -/ ⟨id! "mm_mask_getexp_sd", [.ptr, .ptr, .ptr, .ptr, .ptr], false, id! "_mm_mask_getexp_sd", [.m128d, .mask8, .m128d, .m128d], some .m128d⟩,
  /- 9433 -/ ⟨id! "mm_cvt_roundss_sd", [.ptr, .ptr, .ptr, .int], true, id! "_mm_cvt_roundss_sd", [.m128d, .m128, .constInt], some .m128d⟩,
  /- 16141 -/ ⟨id! "mm512_cmp_pd_mask", [.ptr, .ptr, .ptr, .int], true, id! "_mm512_cmp_pd_mask", [.m512d, .m512d, .constInt], some .mask8⟩,
  /- 16155 -/ ⟨id! "mm512_cmp_ps_mask", [.ptr, .ptr, .ptr, .int], true, id! "_mm512_cmp_ps_mask", [.m512, .m512, .constInt], some .mask16⟩,
  /- 15057 -/ ⟨id! "mm512_cvtepi32_ps", [.ptr, .ptr], false, id! "_mm512_cvtepi32_ps", [.m512i], some .m512⟩,
  /- 15093 -/ ⟨id! "mm512_cvtepu32_ps", [.ptr, .ptr], false, id! "_mm512_cvtepu32_ps", [.m512i], some .m512⟩,
  /- 13485 -/ ⟨id! "mm512_mask_sub_ps", [.ptr, .ptr, .ptr, .ptr, .ptr], false, id! "_mm512_mask_sub_ps", [.m512, .mask16, .m512, .m512], some .m512⟩,
  /- 14373 -/ ⟨id! "mm512_fmaddsub_ps", [.ptr, .ptr, .ptr, .ptr], false, id! "_mm512_fmaddsub_ps", [.m512, .m512, .m512], some .m512⟩,
  /- 13365 -/ ⟨id! "mm512_mask_add_ps", [.ptr, .ptr, .ptr, .ptr, .ptr], false, id! "_mm512_mask_add_ps", [.m512, .mask16, .m512, .m512], some .m512⟩,
  /- 14469 -/ ⟨id! "mm512_fmsubadd_ps", [.ptr, .ptr, .ptr, .ptr], false, id! "_mm512_fmsubadd_ps", [.m512, .m512, .m512], some .m512⟩,
  /- 9145 -/ ⟨id! "mm512_unpackhi_ps", [.ptr, .ptr, .ptr], false, id! "_mm512_unpackhi_ps", [.m512, .m512], some .m512⟩,
  /- 13605 -/ ⟨id! "mm512_mask_mul_ps", [.ptr, .ptr, .ptr, .ptr, .ptr], false, id! "_mm512_mask_mul_ps", [.m512, .mask16, .m512, .m512], some .m512⟩,
  /- 15171 -/ ⟨id! "mm512_fixupimm_ps", [.ptr, .ptr, .ptr, .ptr, .int], true, id! "_mm512_fixupimm_ps", [.m512, .m512, .m512i, .constInt], some .m512⟩,
  /- 13965 -/ ⟨id! "mm512_mask_min_ps", [.ptr, .ptr, .ptr, .ptr, .ptr], false, id! "_mm512_mask_min_ps", [.m512, .mask16, .m512, .m512], some .m512⟩,
  /- 12229 -/ ⟨id! "mm512_unpacklo_ps", [.ptr, .ptr, .ptr], false, id! "_mm512_unpacklo_ps", [.m512, .m512], some .m512⟩,
  /- 7841 -/ ⟨id! "mm512_movehdup_ps", [.ptr, .ptr], false, id! "_mm512_movehdup_ps", [.m512], some .m512⟩,
  /- 7877 -/ ⟨id! "mm512_moveldup_ps", [.ptr, .ptr], false, id! "_mm512_moveldup_ps", [.m512], some .m512⟩,
  /- 8521 -/ ⟨id! "mm512_mask_abs_ps", [.ptr, .ptr, .ptr, .ptr], false, id! "_mm512_mask_abs_ps", [.m512, .mask16, .m512], some .m512⟩,
  /- 13725 -/ ⟨id! "mm512_mask_div_ps", [.ptr, .ptr, .ptr, .ptr, .ptr], false, id! "_mm512_mask_div_ps", [.m512, .mask16, .m512, .m512], some .m512⟩,
  /- 383 -/ ⟨id! "mm512_mask_mov_ps", [.ptr, .ptr, .ptr, .ptr], false, id! "_mm512_mask_mov_ps", [.m512, .mask16, .m512], some .m512⟩,
  /- 13845 -/ ⟨id! "mm512_mask_max_ps", [.ptr, .ptr, .ptr, .ptr, .ptr], false, id! "_mm512_mask_max_ps", [.m512, .mask16, .m512, .m512], some .m512⟩,
  /- 2027 -/ ⟨id! "mm_maskz_rcp14_ss", [.ptr, .ptr, .ptr, .ptr], false, id! "_mm_maskz_rcp14_ss", [.mask8, .m128, .m128], some .m128⟩,
  /- 12701 -/ ⟨id! "mm_mask3_fmsub_ss", [.ptr, .ptr, .ptr, .ptr, .ptr], false, id! "_mm_mask3_fmsub_ss", [.m128, .m128, .m128, .mask8], some .m128⟩,
  /- 12725 -/ ⟨id! "mm_maskz_fmsub_ss", [.ptr, .ptr, .ptr, .ptr, .ptr], false, id! "_mm_maskz_fmsub_ss", [.mask8, .m128, .m128, .m128], some .m128⟩,
  /- 12821 -/ ⟨id! "mm_mask_fnmsub_ss", [.ptr, .ptr, .ptr, .ptr, .ptr], false, id! "_mm_mask_fnmsub_ss", [.m128, .mask8, .m128, .m128], some .m128⟩,
  /- 12629 -/ ⟨id! "mm_mask3_fmadd_ss", [.ptr, .ptr, .ptr, .ptr, .ptr], false, id! "_mm_mask3_fmadd_ss", [.m128, .m128, .m128, .mask8], some .m128⟩,
  /- 12653 -/ ⟨id! "mm_maskz_fmadd_ss", [.ptr, .ptr, .ptr, .ptr, .ptr], false, id! "_mm_maskz_fmadd_ss", [.mask8, .m128, .m128, .m128], some .m128⟩,
  /- 12749 -/ ⟨id! "mm_mask_fnmadd_ss", [.ptr, .ptr, .ptr, .ptr, .ptr], false, id! "_mm_mask_fnmadd_ss", [.m128, .mask8, .m128, .m128], some .m128⟩,
  /- 12523 -/ ⟨id! "mm_fmsub_round_ss", [.ptr, .ptr, .ptr, .ptr, .int], true, id! "_mm_fmsub_round_ss", [.m128, .m128, .m128, .constInt], some .m128⟩,
  /- 12495 -/ ⟨id! "mm_fmadd_round_ss", [.ptr, .ptr, .ptr, .ptr, .int], true, id! "_mm_fmadd_round_ss", [.m128, .m128, .m128, .constInt], some .m128⟩,
  /- 9391 -/ ⟨id! "mm_cvt_roundsd_ss", [.ptr, .ptr, .ptr, .int], true, id! "_mm_cvt_roundsd_ss", [.m128, .m128d, .constInt], some .m128⟩,
  /- 15745 -/ ⟨id! "mm_mask_getexp_ss", [.ptr, .ptr, .ptr, .ptr, .ptr], false, id! "_mm_mask_getexp_ss", [.m128, .mask8, .m128, .m128], some .m128⟩,
  /- 16661 -/ ⟨id! "mm512_castpd_si512", [.ptr, .ptr], false, id! "_mm512_castpd_si512", [.m512d], some .m512i⟩,
  /- 9475 -/ ⟨id! "mm512_stream_si512", [.ptr, .ptr], false, id! "_mm512_stream_si512", [.ptr, .m512i], none⟩,
  /- 16685 -/ ⟨id! "mm512_castps_si512", [.ptr, .ptr], false, id! "_mm512_castps_si512", [.m512], some .m512i⟩,
  /- 8329 -/ ⟨id! "mm512_andnot_si512", [.ptr, .ptr, .ptr], false, id! "_mm512_andnot_si512", [.m512i, .m512i], some .m512i⟩,
  /- 6979 -/ ⟨id! "mm512_storeu_si512", [.ptr, .ptr], false, id! "_mm512_storeu_si512", [.ptr, .m512i], none⟩,
  /- 8981 -/ ⟨id! "mm_cvt_roundsd_i32", [.ptr, .ptr, .int], true, id! "_mm_cvt_roundsd_i32", [.m128d, .constInt], some .int⟩,
  /- 8813 -/ ⟨id! "mm_cvt_roundss_i32", [.ptr, .ptr, .int], true, id! "_mm_cvt_roundss_i32", [.m128, .constInt], some .int⟩,
  /- 14709 -/ ⟨id! "mm512_cvttpd_epi32", [.ptr, .ptr], false, id! "_mm512_cvttpd_epi32", [.m512d], some .m256i⟩,
  /- 10093 -/ ⟨id! "mm512_alignr_epi32", [.ptr, .ptr, .ptr, .int], true, id! "_mm512_alignr_epi32", [.m512i, .m512i, .constInt], some .m512i⟩,
  /- 14853 -/ ⟨id! "mm512_cvttps_epi32", [.ptr, .ptr], false, id! "_mm512_cvttps_epi32", [.m512], some .m512i⟩,
  /- 8341 -/ ⟨id! "mm512_andnot_epi32", [.ptr, .ptr, .ptr], false, id! "_mm512_andnot_epi32", [.m512i, .m512i], some .m512i⟩,
  /- 6991 -/ ⟨id! "mm512_storeu_epi32", [.ptr, .ptr], false, id! "_mm512_storeu_epi32", [.ptr, .m512i], none⟩,
  /- 8953 -/ ⟨id! "mm_cvt_roundsd_u32", [.ptr, .ptr, .int], true, id! "_mm_cvt_roundsd_u32", [.m128d, .constInt], some .uint⟩,
  /- 8785 -/ ⟨id! "mm_cvt_roundss_u32", [.ptr, .ptr, .int], true, id! "_mm_cvt_roundss_u32", [.m128, .constInt], some .uint⟩,
  /- 14745 -/ ⟨id! "mm512_cvttpd_epu32", [.ptr, .ptr], false, id! "_mm512_cvttpd_epu32", [.m512d], some .m256i⟩,
  /- 14889 -/ ⟨id! "mm512_cvttps_epu32", [.ptr, .ptr], false, id! "_mm512_cvttps_epu32", [.m512], some .m512i⟩,
  /- 8897 -/ ⟨id! "mm_cvt_roundsd_i64", [.ptr, .ptr, .int], true, id! "_mm_cvt_roundsd_i64", [.m128d, .constInt], some .llong⟩,
  /- 8729 -/ ⟨id! "mm_cvt_roundss_i64", [.ptr, .ptr, .int], true, id! "_mm_cvt_roundss_i64", [.m128, .constInt], some .llong⟩,
  /- 10135 -/ ⟨id! "mm512_alignr_epi64", [.ptr, .ptr, .ptr, .int], true, id! "_mm512_alignr_epi64", [.m512i, .m512i, .constInt], some .m512i⟩,
  /- 8377 -/ ⟨id! "mm512_andnot_epi64", [.ptr, .ptr, .ptr], false, id! "_mm512_andnot_epi64", [.m512i, .m512i], some .m512i⟩,
  /- 6907 -/ ⟨id! "mm512_storeu_epi64", [.ptr, .ptr], false, id! "_mm512_storeu_epi64", [.ptr, .m512i], none⟩,
  /- 755 -/ ⟨id! "mm512_mullox_epi64", [.ptr, .ptr, .ptr], false, id! "_mm512_mullox_epi64", [.m512i, .m512i], some .m512i⟩,
  /- 8869 -/ ⟨id! "mm_cvt_roundsd_u64", [.ptr, .ptr, .int], true, id! "_mm_cvt_roundsd_u64", [.m128d, .constInt], some .ullong⟩,
  /- 8701 -/ ⟨id! "mm_cvt_roundss_u64", [.ptr, .ptr, .int], true, id! "_mm_cvt_roundss_u64", [.m128, .constInt], some .ullong⟩,
  /- 11717 -/ ⟨id! "kortestc_mask16_u8", [.ptr, .ptr, .ptr], false, id! "_kortestc_mask16_u8", [.mask16, .mask16], some .uchar⟩,
  /- 11705 -/ ⟨id! "kortestz_mask16_u8", [.ptr, .ptr, .ptr], false, id! "_kortestz_mask16_u8", [.mask16, .mask16], some .uchar⟩,
  /- 16709 -/ ⟨id! "mm512_castsi512_pd", [.ptr, .ptr], false, id! "_mm512_castsi512_pd", [.m512i], some .m512d⟩,
  /- 13461 -/ ⟨id! "mm512_maskz_sub_pd", [.ptr, .ptr, .ptr, .ptr], false, id! "_mm512_maskz_sub_pd", [.mask8, .m512d, .m512d], some .m512d⟩,
  /- 419 -/ ⟨id! "mm512_mask_load_pd", [.ptr, .ptr, .ptr, .ptr], false, id! "_mm512_mask_load_pd", [.m512d, .mask8, .ptr], some .m512d⟩,
  /- 13341 -/ ⟨id! "mm512_maskz_add_pd", [.ptr, .ptr, .ptr, .ptr], false, id! "_mm512_maskz_add_pd", [.mask8, .m512d, .m512d], some .m512d⟩,
  /- 177 -/ ⟨id! "mm512_undefined_pd", [.ptr], false, id! "_mm512_undefined_pd", [], some .m512d⟩,
  /- 2793 -/ ⟨id! "mm512_sub_round_pd", [.ptr, .ptr, .ptr, .int], true, id! "_mm512_sub_round_pd", [.m512d, .m512d, .constInt], some .m512d⟩,
  /- 2711 -/ ⟨id! "mm512_add_round_pd", [.ptr, .ptr, .ptr, .int], false, id! "_mm512_add_round_pd", [.m512d, .m512d, .constInt], some .m512d⟩,
  /- 2875 -/ ⟨id! "mm512_mul_round_pd", [.ptr, .ptr, .ptr, .int], true, id! "_mm512_mul_round_pd", [.m512d, .m512d, .constInt], some .m512d⟩,
  /- 3291 -/ ⟨id! "mm512_min_round_pd", [.ptr, .ptr, .ptr, .int], true, id! "_mm512_min_round_pd", [.m512d, .m512d, .constInt], some .m512d⟩,
  /- 2957 -/ ⟨id! "mm512_div_round_pd", [.ptr, .ptr, .ptr, .int], false, id! "_mm512_div_round_pd", [.m512d, .m512d, .constInt], some .m512d⟩,
  /- 3207 -/ ⟨id! "mm512_max_round_pd", [.ptr, .ptr, .ptr, .int], true, id! "_mm512_max_round_pd", [.m512d, .m512d, .constInt], some .m512d⟩,
  /- 10081 -/ ⟨id! "mm512_mask_ceil_pd", [.ptr, .ptr, .ptr, .ptr], false, id! "_mm512_mask_ceil_pd", [.m512d, .mask8, .m512d], some .m512d⟩,
  /- 13581 -/ ⟨id! "mm512_maskz_mul_pd", [.ptr, .ptr, .ptr, .ptr], false, id! "_mm512_maskz_mul_pd", [.mask8, .m512d, .m512d], some .m512d⟩,
  /- 13941 -/ ⟨id! "mm512_maskz_min_pd", [.ptr, .ptr, .ptr, .ptr], false, id! "_mm512_maskz_min_pd", [.mask8, .m512d, .m512d], some .m512d⟩,
  /- 10937 -/ ⟨id! "mm512_i32gather_pd", [.ptr, .ptr, .ptr, .int], true, id! "_mm512_i32gather_pd", [.m256i, .ptr, .int], some .m512d⟩,
  /- 10993 -/ ⟨id! "mm512_i64gather_pd", [.ptr, .ptr, .ptr, .int], true, id! "_mm512_i64gather_pd", [.m512i, .ptr, .int], some .m512d⟩,
  /- 13257 -/ ⟨id! "mm512_mask_sqrt_pd", [.ptr, .ptr, .ptr, .ptr], false, id! "_mm512_mask_sqrt_pd", [.m512d, .mask8, .m512d], some .m512d⟩,
  /- 13701 -/ ⟨id! "mm512_maskz_div_pd", [.ptr, .ptr, .ptr, .ptr], false, id! "_mm512_maskz_div_pd", [.mask8, .m512d, .m512d], some .m512d⟩,
  /- 371 -/ ⟨id! "mm512_maskz_mov_pd", [.ptr, .ptr, .ptr], false, id! "_mm512_maskz_mov_pd", [.mask8, .m512d], some .m512d⟩,
  /- 13821 -/ ⟨id! "mm512_maskz_max_pd", [.ptr, .ptr, .ptr, .ptr], false, id! "_mm512_maskz_max_pd", [.mask8, .m512d, .m512d], some .m512d⟩,
  /- 2123 -/ ⟨id! "mm_mask_rsqrt14_sd", [.ptr, .ptr, .ptr, .ptr, .ptr], false, id! "_mm_mask_rsqrt14_sd", [.m128d, .mask8, .m128d, .m128d], some .m128d⟩,
  /- 5363 -/ ⟨id! "mm_cvt_roundi64_sd", [.ptr, .ptr, .int, .int], true, id! "_mm_cvt_roundi64_sd", [.m128d, .llong, .constInt], some .m128d⟩,
  /- 5349 -/ ⟨id! "mm_cvt_roundu64_sd", [.ptr, .ptr, .int, .int], true, id! "_mm_cvt_roundu64_sd", [.m128d, .ullong, .constInt], some .m128d⟩,
  /- 12833 -/ ⟨id! "mm_mask3_fnmsub_sd", [.ptr, .ptr, .ptr, .ptr, .ptr], false, id! "_mm_mask3_fnmsub_sd", [.m128d, .m128d, .m128d, .mask8], some .m128d⟩,
  /- 12857 -/ ⟨id! "mm_maskz_fnmsub_sd", [.ptr, .ptr, .ptr, .ptr, .ptr], false, id! "_mm_maskz_fnmsub_sd", [.mask8, .m128d, .m128d, .m128d], some .m128d⟩,
  /- 12761 -/ ⟨id! "mm_mask3_fnmadd_sd", [.ptr, .ptr, .ptr, .ptr, .ptr], false, id! "_mm_mask3_fnmadd_sd", [.m128d, .m128d, .m128d, .mask8], some .m128d⟩,
  /- 12785 -/ ⟨id! "mm_maskz_fnmadd_sd", [.ptr, .ptr, .ptr, .ptr, .ptr], false, id! "_mm_maskz_fnmadd_sd", [.mask8, .m128d, .m128d, .m128d], some .m128d⟩,
  /- 12565 -/ ⟨id! "mm_fnmsub_round_sd", [.ptr, .ptr, .ptr, .ptr, .int], true, id! "_mm_fnmsub_round_sd", [.m128d, .m128d, .m128d, .constInt], some .m128d⟩,
  /- 12537 -/ ⟨id! "mm_fnmadd_round_sd", [.ptr, .ptr, .ptr, .ptr, .int], true, id! "_mm_fnmadd_round_sd", [.m128d, .m128d, .m128d, .constInt], some .m128d⟩,
  /- 3459 -/ ⟨id! "mm_scalef_round_sd", [.ptr, .ptr, .ptr, .int], true, id! "_mm_scalef_round_sd", [.m128d, .m128d, .constInt], some .m128d⟩,
  /- 9559 -/ ⟨id! "mm_getexp_round_sd", [.ptr, .ptr, .ptr, .int], false, id! "_mm_getexp_round_sd", [.m128d, .m128d, .constInt], some .m128d⟩,
  /- 15793 -/ ⟨id! "mm_maskz_getexp_sd", [.ptr, .ptr, .ptr, .ptr], false, id! "_mm_maskz_getexp_sd", [.mask8, .m128d, .m128d], some .m128d⟩,
  /- 15903 -/ ⟨id! "mm_mask_getmant_sd", [.ptr, .ptr, .ptr, .ptr, .ptr, .enum, .enum], true, id! "_mm_mask_getmant_sd", [.m128d, .mask8, .m128d, .m128d, .enum, .enum], some .m128d⟩,
  /- 16697 -/ ⟨id! "mm512_castsi512_ps", [.ptr, .ptr], false, id! "_mm512_castsi512_ps", [.m512i], some .m512⟩,
  /- 13497 -/ ⟨id! "mm512_maskz_sub_ps", [.ptr, .ptr, .ptr, .ptr], false, id! "_mm512_maskz_sub_ps", [.mask16, .m512, .m512], some .m512⟩,
  /- 479 -/ ⟨id! "mm512_mask_load_ps", [.ptr, .ptr, .ptr, .ptr], false, id! "_mm512_mask_load_ps", [.m512, .mask16, .ptr], some .m512⟩,
  /- 13377 -/ ⟨id! "mm512_maskz_add_ps", [.ptr, .ptr, .ptr, .ptr], false, id! "_mm512_maskz_add_ps", [.mask16, .m512, .m512], some .m512⟩,
  /- 165 -/ ⟨id! "mm512_undefined_ps", [.ptr], false, id! "_mm512_undefined_ps", [], some .m512⟩,
  /- 2835 -/ ⟨id! "mm512_sub_round_ps", [.ptr, .ptr, .ptr, .int], false, id! "_mm512_sub_round_ps", [.m512, .m512, .constInt], some .m512⟩,
  /- 2751 -/ ⟨id! "mm512_add_round_ps", [.ptr, .ptr, .ptr, .int], true, id! "_mm512_add_round_ps", [.m512, .m512, .constInt], some .m512⟩,
  /- 2917 -/ ⟨id! "mm512_mul_round_ps", [.ptr, .ptr, .ptr, .int], false, id! "_mm512_mul_round_ps", [.m512, .m512, .constInt], some .m512⟩,
  /- 3333 -/ ⟨id! "mm512_min_round_ps", [.ptr, .ptr, .ptr, .int], true, id! "_mm512_min_round_ps", [.m512, .m512, .constInt], some .m512⟩,
  /- 2997 -/ ⟨id! "mm512_div_round_ps", [.ptr, .ptr, .ptr, .int], true, id! "_mm512_div_round_ps", [.m512, .m512, .constInt], some .m512⟩,
  /- 3249 -/ ⟨id! "mm512_max_round_ps", [.ptr, .ptr, .ptr, .int], true, id! "_mm512_max_round_ps", [.m512, .m512, .constInt], some .m512⟩,
  /- 10069 -/ ⟨id! "mm512_mask_ceil_ps", [.ptr, .ptr, .ptr, .ptr], false, id! "_mm512_mask_ceil_ps", [.m512, .mask16, .m512], some .m512⟩,
  /- 13617 -/ ⟨id! "mm512_maskz_mul_ps", [.ptr, .ptr, .ptr, .ptr], false, id! "_mm512_maskz_mul_ps", [.mask16, .m512, .m512], some .m512⟩,
  /- 13977 -/ ⟨id! "mm512_maskz_min_ps", [.ptr, .ptr, .ptr, .ptr], false, id! "_mm512_maskz_min_ps", [.mask16, .m512, .m512], some .m512⟩,
  /- 10909 -/ ⟨id! "mm512_i32gather_ps", [.ptr, .ptr, .ptr, .int], true, id! "_mm512_i32gather_ps", [.m512i, .ptr, .int], some .m512⟩,
  /- 10965 -/ ⟨id! "mm512_i64gather_ps", [.ptr, .ptr, .ptr, .int], true, id! "_mm512_i64gather_ps", [.m512i, .ptr, .int], some .m256⟩,
  /- 13293 -/ ⟨id! "mm512_mask_sqrt_ps", [.ptr, .ptr, .ptr, .ptr], false, id! "_mm512_mask_sqrt_ps", [.m512, .mask16, .m512], some .m512⟩,
  /- 13737 -/ ⟨id! "mm512_maskz_div_ps", [.ptr, .ptr, .ptr, .ptr], false, id! "_mm512_maskz_div_ps", [.mask16, .m512, .m512], some .m512⟩,
  /- 395 -/ ⟨id! "mm512_maskz_mov_ps", [.ptr, .ptr, .ptr], false, id! "_mm512_maskz_mov_ps", [.mask16, .m512], some .m512⟩,
  /- 13857 -/ ⟨id! "mm512_maskz_max_ps", [.ptr, .ptr, .ptr, .ptr], false, id! "_mm512_maskz_max_ps", [.mask16, .m512, .m512], some .m512⟩,
  /- 5419 -/ ⟨id! "mm_cvt_roundi32_ss", [.ptr, .ptr, .int, .int], true, id! "_mm_cvt_roundi32_ss", [.m128, .int, .constInt], some .m128⟩,
  /- 5391 -/ ⟨id! "mm_cvt_roundu32_ss", [.ptr, .ptr, .int, .int], true, id! "_mm_cvt_roundu32_ss", [.m128, .uint, .constInt], some .m128⟩,
  /- 2159 -/ ⟨id! "mm_mask_rsqrt14_ss", [.ptr, .ptr, .ptr, .ptr, .ptr], false, id! "_mm_mask_rsqrt14_ss", [.m128, .mask8, .m128, .m128], some .m128⟩,
  /- 5461 -/ ⟨id! "mm_cvt_roundi64_ss", [.ptr, .ptr, .int, .int], true, id! "_mm_cvt_roundi64_ss", [.m128, .llong, .constInt], some .m128⟩,
  /- 5433 -/ ⟨id! "mm_cvt_roundu64_ss", [.ptr, .ptr, .int, .int], true, id! "_mm_cvt_roundu64_ss", [.m128, .ullong, .constInt], some .m128⟩,
  /- 12845 -/ ⟨id! "mm_mask3_fnmsub_ss", [.ptr, .ptr, .ptr, .ptr, .ptr], false, id! "_mm_mask3_fnmsub_ss", [.m128, .m128, .m128, .mask8], some .m128⟩,
  /- 12869 -/ ⟨id! "mm_maskz_fnmsub_ss", [.ptr, .ptr, .ptr, .ptr, .ptr], false, id! "_mm_maskz_fnmsub_ss", [.mask8, .m128, .m128, .m128], some .m128⟩,
  /- 12773 -/ ⟨id! "mm_mask3_fnmadd_ss", [.ptr, .ptr, .ptr, .ptr, .ptr], false, id! "_mm_mask3_fnmadd_ss", [.m128, .m128, .m128, .mask8], some .m128⟩,
  /- 12797 -/ ⟨id! "mm_maskz_fnmadd_ss", [.ptr, .ptr, .ptr, .ptr, .ptr], false, id! "_mm_maskz_fnmadd_ss", [.mask8, .m128, .m128, .m128], some .m128⟩,
  /- 12579 -/ ⟨id! "mm_fnmsub_round_ss", [.ptr, .ptr, .ptr, .ptr, .int], true, id! "_mm_fnmsub_round_ss", [.m128, .m128, .m128, .constInt], some .m128⟩,
  /- 12551 -/ ⟨id! "mm_fnmadd_round_ss", [.ptr, .ptr, .ptr, .ptr, .int], true, id! "_mm_fnmadd_round_ss", [.m128, .m128, .m128, .constInt], some .m128⟩,
  /- 3501 -/ ⟨id! "mm_scalef_round_ss", [.ptr, .ptr, .ptr, .int], true, id! "_mm_scalef_round_ss", [.m128, .m128, .constInt], some .m128⟩,
  /- 9523 -/ ⟨id! "mm_getexp_round_ss", [.ptr, .ptr, .ptr, .int], false, id! "_mm_getexp_round_ss", [.m128, .m128, .constInt], some .m128⟩,
  /- 15757 -/ ⟨id! "mm_maskz_getexp_ss", [.ptr, .ptr, .ptr, .ptr], false, id! "_mm_maskz_getexp_ss", [.mask8, .m128, .m128], some .m128⟩,
  /- 15945 -/ ⟨id! "mm_mask_getmant_ss", [.ptr, .ptr, .ptr, .ptr, .ptr, .enum, .enum], true, id! "_mm_mask_getmant_ss", [.m128, .mask8, .m128, .m128, .enum, .enum], some .m128⟩,
  /- 347 -/ ⟨id! "mm512_setzero_si512", [.ptr], false, id! "_mm512_setzero_si512", [], some .m512i⟩,
  /- 9009 -/ ⟨id! "mm_cvtt_roundsd_i32", [.ptr, .ptr, .int], true, id! "_mm_cvtt_roundsd_i32", [.m128d, .constInt], some .int⟩,
  /- 8841 -/ ⟨id! "mm_cvtt_roundss_i32", [.ptr, .ptr, .int], true, id! "_mm_cvtt_roundss_i32", [.m128, .constInt], some .int⟩,
  /- 2351 -/ ⟨id! "mm512_cvtepi8_epi32", [.ptr, .ptr], false, id! "_mm512_cvtepi8_epi32", [.m128i], some .m512i⟩,
  /- 2531 -/ ⟨id! "mm512_cvtepu8_epi32", [.ptr, .ptr], false, id! "_mm512_cvtepu8_epi32", [.m128i], some .m512i⟩,
  /- 4653 -/ ⟨id! "mm512_shuffle_epi32", [.ptr, .ptr, .enum], false, id! "_mm512_shuffle_epi32", [.m512i, .enum], some .m512i⟩,
  /- 335 -/ ⟨id! "mm512_setzero_epi32", [.ptr], false, id! "_mm512_setzero_epi32", [], some .m512i⟩,
  /- 7937 -/ ⟨id! "mm512_mask_or_epi32", [.ptr, .ptr, .ptr, .ptr, .ptr], false, id! "_mm512_mask_or_epi32", [.m512i, .mask16, .m512i, .m512i], some .m512i⟩,
  /- 15333 -/ ⟨id! "mm512_cvtsi512_si32", [.ptr, .ptr], false, id! "_mm512_cvtsi512_si32", [.m512i], some .int⟩,
  /- 8967 -/ ⟨id! "mm_cvt_roundsd_si32", [.ptr, .ptr, .int], true, id! "_mm_cvt_roundsd_si32", [.m128d, .constInt], some .int⟩,
  /- 8799 -/ ⟨id! "mm_cvt_roundss_si32", [.ptr, .ptr, .int], true, id! "_mm_cvt_roundss_si32", [.m128, .constInt], some .int⟩,
  /- 8995 -/ ⟨id! "mm_cvtt_roundsd_u32", [.ptr, .ptr, .int], true, id! "_mm_cvtt_roundsd_u32", [.m128d, .constInt], some .uint⟩,
  /- 8827 -/ ⟨id! "mm_cvtt_roundss_u32", [.ptr, .ptr, .int], true, id! "_mm_cvtt_roundss_u32", [.m128, .constInt], some .uint⟩,
  /- 4773 -/ ⟨id! "mm512_shuffle_f64x2", [.ptr, .ptr, .ptr, .int], true, id! "_mm512_shuffle_f64x2", [.m512d, .m512d, .constInt], some .m512d⟩,
  /- 4689 -/ ⟨id! "mm512_shuffle_i64x2", [.ptr, .ptr, .ptr, .int], true, id! "_mm512_shuffle_i64x2", [.m512i, .m512i, .constInt], some .m512i⟩,
  /- 8939 -/ ⟨id! "mm_cvtt_roundsd_i64", [.ptr, .ptr, .int], true, id! "_mm_cvtt_roundsd_i64", [.m128d, .constInt], some .llong⟩,
  /- 8757 -/ ⟨id! "mm_cvtt_roundss_i64", [.ptr, .ptr, .int], true, id! "_mm_cvtt_roundss_i64", [.m128, .constInt], some .llong⟩,
  /- 2387 -/ ⟨id! "mm512_cvtepi8_epi64", [.ptr, .ptr], false, id! "_mm512_cvtepi8_epi64", [.m128i], some .m512i⟩,
  /- 2567 -/ ⟨id! "mm512_cvtepu8_epi64", [.ptr, .ptr], false, id! "_mm512_cvtepu8_epi64", [.m128i], some .m512i⟩,
  /- 7973 -/ ⟨id! "mm512_mask_or_epi64", [.ptr, .ptr, .ptr, .ptr, .ptr], false, id! "_mm512_mask_or_epi64", [.m512i, .mask8, .m512i, .m512i], some .m512i⟩,
  /- 8883 -/ ⟨id! "mm_cvt_roundsd_si64", [.ptr, .ptr, .int], true, id! "_mm_cvt_roundsd_si64", [.m128d, .constInt], some .llong⟩,
  /- 8715 -/ ⟨id! "mm_cvt_roundss_si64", [.ptr, .ptr, .int], true, id! "_mm_cvt_roundss_si64", [.m128, .constInt], some .llong⟩,
  /- 8911 -/ ⟨id! "mm_cvtt_roundsd_u64", [.ptr, .ptr, .int], true, id! "_mm_cvtt_roundsd_u64", [.m128d, .constInt], some .ullong⟩,
  /- 8743 -/ ⟨id! "mm_cvtt_roundss_u64", [.ptr, .ptr, .int], true, id! "_mm_cvtt_roundss_u64", [.m128, .constInt], some .ullong⟩,
  /- 4815 -/ ⟨id! "mm512_shuffle_f32x4", [.ptr, .ptr, .ptr, .int], true, id! "_mm512_shuffle_f32x4", [.m512, .m512, .constInt], some .m512⟩,
  /- 4731 -/ ⟨id! "mm512_shuffle_i32x4", [.ptr, .ptr, .ptr, .int], true, id! "_mm512_shuffle_i32x4", [.m512i, .m512i, .constInt], some .m512i⟩,
  /- 5475 -/ ⟨id! "mm512_cvtepi32_epi8", [.ptr, .ptr], false, id! "_mm512_cvtepi32_epi8", [.m512i], some .m128i⟩,
  /- 6051 -/ ⟨id! "mm512_cvtepi64_epi8", [.ptr, .ptr], false, id! "_mm512_cvtepi64_epi8", [.m512i], some .m128i⟩,
  /- 1907 -/ ⟨id! "mm512_mask_rcp14_pd", [.ptr, .ptr, .ptr, .ptr], false, id! "_mm512_mask_rcp14_pd", [.m512d, .mask8, .m512d], some .m512d⟩,
  /- 14241 -/ ⟨id! "mm512_mask_fmsub_pd", [.ptr, .ptr, .ptr, .ptr, .ptr], false, id! "_mm512_mask_fmsub_pd", [.m512d, .mask8, .m512d, .m512d], some .m512d⟩,
  /- 431 -/ ⟨id! "mm512_maskz_load_pd", [.ptr, .ptr, .ptr], false, id! "_mm512_maskz_load_pd", [.mask8, .ptr], some .m512d⟩,
  /- 17513 -/ ⟨id! "mm512_reduce_add_pd", [.ptr, .ptr], false, id! "_mm512_reduce_add_pd", [.m512d], some .double⟩,
  /- 14145 -/ ⟨id! "mm512_mask_fmadd_pd", [.ptr, .ptr, .ptr, .ptr, .ptr], false, id! "_mm512_mask_fmadd_pd", [.m512d, .mask8, .m512d, .m512d], some .m512d⟩,
  /- 12433 -/ ⟨id! "mm512_mask_blend_pd", [.ptr, .ptr, .ptr, .ptr], false, id! "_mm512_mask_blend_pd", [.mask8, .m512d, .m512d], some .m512d⟩,
  /- 2183 -/ ⟨id! "mm512_sqrt_round_pd", [.ptr, .ptr, .int], true, id! "_mm512_sqrt_round_pd", [.m512d, .constInt], some .m512d⟩,
  /- 16015 -/ ⟨id! "mm512_roundscale_pd", [.ptr, .ptr, .int], true, id! "_mm512_roundscale_pd", [.m512d, .constInt], some .m512d⟩,
  /- 455 -/ ⟨id! "mm512_mask_store_pd", [.ptr, .ptr, .ptr], false, id! "_mm512_mask_store_pd", [.ptr, .mask8, .m512d], none⟩,
  /- 17525 -/ ⟨id! "mm512_reduce_mul_pd", [.ptr, .ptr], false, id! "_mm512_reduce_mul_pd", [.m512d], some .double⟩,
  /- 17561 -/ ⟨id! "mm512_reduce_min_pd", [.ptr, .ptr], false, id! "_mm512_reduce_min_pd", [.m512d], some .double⟩,
  /- 7015 -/ ⟨id! "mm512_permutevar_pd", [.ptr, .ptr, .ptr], false, id! "_mm512_permutevar_pd", [.m512d, .m512i], some .m512d⟩,
  /- 11161 -/ ⟨id! "mm512_i32scatter_pd", [.ptr, .ptr, .ptr, .int], true, id! "_mm512_i32scatter_pd", [.ptr, .m256i, .m512d, .int], none⟩,
  /- 11217 -/ ⟨id! "mm512_i64scatter_pd", [.ptr, .ptr, .ptr, .int], true, id! "_mm512_i64scatter_pd", [.ptr, .m512i, .m512d, .int], none⟩,
  /- 10057 -/ ⟨id! "mm512_mask_floor_pd", [.ptr, .ptr, .ptr, .ptr], false, id! "_mm512_mask_floor_pd", [.m512d, .mask8, .m512d], some .m512d⟩,
  /- 15565 -/ ⟨id! "mm512_mask_cvtps_pd", [.ptr, .ptr, .ptr, .ptr], false, id! "_mm512_mask_cvtps_pd", [.m512d, .mask8, .m256], some .m512d⟩,
  /- 13269 -/ ⟨id! "mm512_maskz_sqrt_pd", [.ptr, .ptr, .ptr], false, id! "_mm512_maskz_sqrt_pd", [.mask8, .m512d], some .m512d⟩,
  /- 6643 -/ ⟨id! "mm512_mask_loadu_pd", [.ptr, .ptr, .ptr, .ptr], false, id! "_mm512_mask_loadu_pd", [.m512d, .mask8, .ptr], some .m512d⟩,
  /- 17573 -/ ⟨id! "mm512_reduce_max_pd", [.ptr, .ptr], false, id! "_mm512_reduce_max_pd", [.m512d], some .double⟩,
  /- 2135 -/ ⟨id! "mm_maskz_rsqrt14_sd", [.ptr, .ptr, .ptr, .ptr], false, id! "_mm_maskz_rsqrt14_sd", [.mask8, .m128d, .m128d], some .m128d⟩,
  /- 5377 -/ ⟨id! "mm_cvt_roundsi64_sd", [.ptr, .ptr, .int, .int], true, id! "_mm_cvt_roundsi64_sd", [.m128d, .llong, .constInt], some .m128d⟩,
  /- 9747 -/ ⟨id! "mm_getmant_round_sd", [.ptr, .ptr, .ptr, .enum, .enum, .int], false, id! "_mm_getmant_round_sd", [.m128d, .m128d, .enum, .enum, .constInt], some .m128d⟩,
  /- 15227 -/ ⟨id! "mm_mask_fixupimm_sd", [.ptr, .ptr, .ptr, .ptr, .ptr, .int], true, id! "_mm_mask_fixupimm_sd", [.m128d, .mask8, .m128d, .m128i, .constInt], some .m128d⟩,
  /- 15917 -/ ⟨id! "mm_maskz_getmant_sd", [.ptr, .ptr, .ptr, .ptr, .enum, .enum], true, id! "_mm_maskz_getmant_sd", [.mask8, .m128d, .m128d, .enum, .enum], some .m128d⟩,
  /- 9307 -/ ⟨id! "mm512_mask_cvtps_ph", [.ptr, .ptr, .ptr, .ptr, .int], true, id! "_mm512_mask_cvtps_ph", [.m256i, .mask16, .m512, .constInt], some .m256i⟩,
  /- 16301 -/ ⟨id! "mm512_cmple_pd_mask", [.ptr, .ptr, .ptr], false, id! "_mm512_cmple_pd_mask", [.m512d, .m512d], some .mask8⟩,
  /- 16253 -/ ⟨id! "mm512_cmpeq_pd_mask", [.ptr, .ptr, .ptr], false, id! "_mm512_cmpeq_pd_mask", [.m512d, .m512d], some .mask8⟩,
  /- 16277 -/ ⟨id! "mm512_cmplt_pd_mask", [.ptr, .ptr, .ptr], false, id! "_mm512_cmplt_pd_mask", [.m512d, .m512d], some .mask8⟩,
  /- 16211 -/ ⟨id! "mm_mask_cmp_sd_mask", [.ptr, .ptr, .ptr, .ptr, .int], true, id! "_mm_mask_cmp_sd_mask", [.mask8, .m128d, .m128d, .constInt], some .mask8⟩,
  /- 16493 -/ ⟨id! "mm512_cmple_ps_mask", [.ptr, .ptr, .ptr], false, id! "_mm512_cmple_ps_mask", [.m512, .m512], some .mask16⟩,
  /- 16445 -/ ⟨id! "mm512_cmpeq_ps_mask", [.ptr, .ptr, .ptr], false, id! "_mm512_cmpeq_ps_mask", [.m512, .m512], some .mask16⟩,
  /- 16469 -/ ⟨id! "mm512_cmplt_ps_mask", [.ptr, .ptr, .ptr], false, id! "_mm512_cmplt_ps_mask", [.m512, .m512], some .mask16⟩,
  /- 16239 -/ ⟨id! "mm_mask_cmp_ss_mask", [.ptr, .ptr, .ptr, .ptr, .int], true, id! "_mm_mask_cmp_ss_mask", [.mask8, .m128, .m128, .constInt], some .mask8⟩,
  /- 1943 -/ ⟨id! "mm512_mask_rcp14_ps", [.ptr, .ptr, .ptr, .ptr], false, id! "_mm512_mask_rcp14_ps", [.m512, .mask16, .m512], some .m512⟩,
  /- 14289 -/ ⟨id! "mm512_mask_fmsub_ps", [.ptr, .ptr, .ptr, .ptr, .ptr], false, id! "_mm512_mask_fmsub_ps", [.m512, .mask16, .m512, .m512], some .m512⟩,
  /- 491 -/ ⟨id! "mm512_maskz_load_ps", [.ptr, .ptr, .ptr], false, id! "_mm512_maskz_load_ps", [.mask16, .ptr], some .m512⟩,
  /- 17225 -/ ⟨id! "mm512_reduce_add_ps", [.ptr, .ptr], false, id! "_mm512_reduce_add_ps", [.m512], some .float⟩,
  /- 14193 -/ ⟨id! "mm512_mask_fmadd_ps", [.ptr, .ptr, .ptr, .ptr, .ptr], false, id! "_mm512_mask_fmadd_ps", [.m512, .mask16, .m512, .m512], some .m512⟩,
  /- 12445 -/ ⟨id! "mm512_mask_blend_ps", [.ptr, .ptr, .ptr, .ptr], false, id! "_mm512_mask_blend_ps", [.mask16, .m512, .m512], some .m512⟩,
  /- 2225 -/ ⟨id! "mm512_sqrt_round_ps", [.ptr, .ptr, .int], true, id! "_mm512_sqrt_round_ps", [.m512, .constInt], some .m512⟩,
  /- 15637 -/ ⟨id! "mm512_mask_cvtpd_ps", [.ptr, .ptr, .ptr, .ptr], false, id! "_mm512_mask_cvtpd_ps", [.m256, .mask8, .m512d], some .m256⟩,
  /- 15973 -/ ⟨id! "mm512_roundscale_ps", [.ptr, .ptr, .int], true, id! "_mm512_roundscale_ps", [.m512, .constInt], some .m512⟩,
  /- 515 -/ ⟨id! "mm512_mask_store_ps", [.ptr, .ptr, .ptr], false, id! "_mm512_mask_store_ps", [.ptr, .mask16, .m512], none⟩,
  /- 15601 -/ ⟨id! "mm512_mask_cvtph_ps", [.ptr, .ptr, .ptr, .ptr], false, id! "_mm512_mask_cvtph_ps", [.m512, .mask16, .m256i], some .m512⟩,
  /- 17237 -/ ⟨id! "mm512_reduce_mul_ps", [.ptr, .ptr], false, id! "_mm512_reduce_mul_ps", [.m512], some .float⟩,
  /- 17273 -/ ⟨id! "mm512_reduce_min_ps", [.ptr, .ptr], false, id! "_mm512_reduce_min_ps", [.m512], some .float⟩,
  /- 7051 -/ ⟨id! "mm512_permutevar_ps", [.ptr, .ptr, .ptr], false, id! "_mm512_permutevar_ps", [.m512, .m512i], some .m512⟩,
  /- 11133 -/ ⟨id! "mm512_i32scatter_ps", [.ptr, .ptr, .ptr, .int], true, id! "_mm512_i32scatter_ps", [.ptr, .m512i, .m512, .int], none⟩,
  /- 11189 -/ ⟨id! "mm512_i64scatter_ps", [.ptr, .ptr, .ptr, .int], true, id! "_mm512_i64scatter_ps", [.ptr, .m512i, .m256, .int], none⟩,
  /- 10045 -/ ⟨id! "mm512_mask_floor_ps", [.ptr, .ptr, .ptr, .ptr], false, id! "_mm512_mask_floor_ps", [.m512, .mask16, .m512], some .m512⟩,
  /- 13305 -/ ⟨id! "mm512_maskz_sqrt_ps", [.ptr, .ptr, .ptr], false, id! "_mm512_maskz_sqrt_ps", [.mask16, .m512], some .m512⟩,
  /- 6703 -/ ⟨id! "mm512_mask_loadu_ps", [.ptr, .ptr, .ptr, .ptr], false, id! "_mm512_mask_loadu_ps", [.m512, .mask16, .ptr], some .m512⟩,
  /- 17285 -/ ⟨id! "mm512_reduce_max_ps", [.ptr, .ptr], false, id! "_mm512_reduce_max_ps", [.m512], some .float⟩,
  /- 5405 -/ ⟨id! "mm_cvt_roundsi32_ss", [.ptr, .ptr, .int, .int], true, id! "_mm_cvt_roundsi32_ss", [.m128, .int, .constInt], some .m128⟩,
  /- 2171 -/ ⟨id! "mm_maskz_rsqrt14_ss", [.ptr, .ptr, .ptr, .ptr], false, id! "_mm_maskz_rsqrt14_ss", [.mask8, .m128, .m128], some .m128⟩,
  /- 5447 -/ ⟨id! "mm_cvt_roundsi64_ss", [.ptr, .ptr, .int, .int], true, id! "_mm_cvt_roundsi64_ss", [.m128, .llong, .constInt], some .m128⟩,
  /- 9787 -/ ⟨id! "mm_getmant_round_ss", [.ptr, .ptr, .ptr, .enum, .enum, .int], true, id! "_mm_getmant_round_ss", [.m128, .m128, .enum, .enum, .constInt], some .m128⟩,
  /- 15269 -/ ⟨id! "mm_mask_fixupimm_ss", [.ptr, .ptr, .ptr, .ptr, .ptr, .int], true, id! "_mm_mask_fixupimm_ss", [.m128, .mask8, .m128, .m128i, .constInt], some .m128⟩,
  /- 15959 -/ ⟨id! "mm_maskz_getmant_ss", [.ptr, .ptr, .ptr, .ptr, .enum, .enum], true, id! "_mm_maskz_getmant_ss", [.mask8, .m128, .m128, .enum, .enum], some .m128⟩,
  /- 5763 -/ ⟨id! "mm512_cvtepi64_epi32", [.ptr, .ptr], false, id! "_mm512_cvtepi64_epi32", [.m512i], some .m256i⟩,
  /- 2423 -/ ⟨id! "mm512_cvtepi16_epi32", [.ptr, .ptr], false, id! "_mm512_cvtepi16_epi32", [.m256i], some .m512i⟩,
  /- 2603 -/ ⟨id! "mm512_cvtepu16_epi32", [.ptr, .ptr], false, id! "_mm512_cvtepu16_epi32", [.m256i], some .m512i⟩,
  /- 1619 -/ ⟨id! "mm512_mask_sra_epi32", [.ptr, .ptr, .ptr, .ptr, .ptr], false, id! "_mm512_mask_sra_epi32", [.m512i, .mask16, .m512i, .m128i], some .m512i⟩,
  /- 1151 -/ ⟨id! "mm512_mask_sub_epi32", [.ptr, .ptr, .ptr, .ptr, .ptr], false, id! "_mm512_mask_sub_epi32", [.m512i, .mask16, .m512i, .m512i], some .m512i⟩,
  /- 1079 -/ ⟨id! "mm512_mask_add_epi32", [.ptr, .ptr, .ptr, .ptr, .ptr], false, id! "_mm512_mask_add_epi32", [.m512i, .mask16, .m512i, .m512i], some .m512i⟩,
  /- 8269 -/ ⟨id! "mm512_mask_and_epi32", [.ptr, .ptr, .ptr, .ptr, .ptr], false, id! "_mm512_mask_and_epi32", [.m512i, .mask16, .m512i, .m512i], some .m512i⟩,
  /- 8557 -/ ⟨id! "mm512_unpackhi_epi32", [.ptr, .ptr, .ptr], false, id! "_mm512_unpackhi_epi32", [.m512i, .m512i], some .m512i⟩,
  /- 1475 -/ ⟨id! "mm512_mask_sll_epi32", [.ptr, .ptr, .ptr, .ptr, .ptr], false, id! "_mm512_mask_sll_epi32", [.m512i, .mask16, .m512i, .m128i], some .m512i⟩,
  /- 8095 -/ ⟨id! "mm512_mask_rol_epi32", [.ptr, .ptr, .ptr, .ptr, .int], true, id! "_mm512_mask_rol_epi32", [.m512i, .mask16, .m512i, .constInt], some .m512i⟩,
  /- 1547 -/ ⟨id! "mm512_mask_srl_epi32", [.ptr, .ptr, .ptr, .ptr, .ptr], false, id! "_mm512_mask_srl_epi32", [.m512i, .mask16, .m512i, .m128i], some .m512i⟩,
  /- 1115 -/ ⟨id! "mm512_mask_mul_epi32", [.ptr, .ptr, .ptr, .ptr, .ptr], false, id! "_mm512_mask_mul_epi32", [.m512i, .mask8, .m512i, .m512i], some .m512i⟩,
  /- 12145 -/ ⟨id! "mm512_mask_min_epi32", [.ptr, .ptr, .ptr, .ptr, .ptr], false, id! "_mm512_mask_min_epi32", [.m512i, .mask16, .m512i, .m512i], some .m512i⟩,
  /- 8629 -/ ⟨id! "mm512_unpacklo_epi32", [.ptr, .ptr, .ptr], false, id! "_mm512_unpacklo_epi32", [.m512i, .m512i], some .m512i⟩,
  /- 7949 -/ ⟨id! "mm512_maskz_or_epi32", [.ptr, .ptr, .ptr, .ptr], false, id! "_mm512_maskz_or_epi32", [.mask16, .m512i, .m512i], some .m512i⟩,
  /- 8135 -/ ⟨id! "mm512_mask_ror_epi32", [.ptr, .ptr, .ptr, .ptr, .int], true, id! "_mm512_mask_ror_epi32", [.m512i, .mask16, .m512i, .int], some .m512i⟩,
  /- 8021 -/ ⟨id! "mm512_mask_xor_epi32", [.ptr, .ptr, .ptr, .ptr, .ptr], false, id! "_mm512_mask_xor_epi32", [.m512i, .mask16, .m512i, .m512i], some .m512i⟩,
  /- 4263 -/ ⟨id! "mm512_mask_abs_epi32", [.ptr, .ptr, .ptr, .ptr], false, id! "_mm512_mask_abs_epi32", [.m512i, .mask16, .m512i], some .m512i⟩,
  /- 611 -/ ⟨id! "mm512_mask_mov_epi32", [.ptr, .ptr, .ptr, .ptr], false, id! "_mm512_mask_mov_epi32", [.m512i, .mask16, .m512i], some .m512i⟩,
  /- 12109 -/ ⟨id! "mm512_mask_max_epi32", [.ptr, .ptr, .ptr, .ptr, .ptr], false, id! "_mm512_mask_max_epi32", [.m512i, .mask16, .m512i, .m512i], some .m512i⟩,
  /- 9023 -/ ⟨id! "mm_cvtt_roundsd_si32", [.ptr, .ptr, .int], true, id! "_mm_cvtt_roundsd_si32", [.m128d, .constInt], some .int⟩,
  /- 8855 -/ ⟨id! "mm_cvtt_roundss_si32", [.ptr, .ptr, .int], true, id! "_mm_cvtt_roundss_si32", [.m128, .constInt], some .int⟩,
  /- 1187 -/ ⟨id! "mm512_mask_mul_epu32", [.ptr, .ptr, .ptr, .ptr, .ptr], false, id! "_mm512_mask_mul_epu32", [.m512i, .mask8, .m512i, .m512i], some .m512i⟩,
  /- 12217 -/ ⟨id! "mm512_mask_min_epu32", [.ptr, .ptr, .ptr, .ptr, .ptr], false, id! "_mm512_mask_min_epu32", [.m512i, .mask16, .m512i, .m512i], some .m512i⟩,
  /- 12181 -/ ⟨id! "mm512_mask_max_epu32", [.ptr, .ptr, .ptr, .ptr, .ptr], false, id! "_mm512_mask_max_epu32", [.m512i, .mask16, .m512i, .m512i], some .m512i⟩,
  /- 2495 -/ ⟨id! "mm512_cvtepi32_epi64", [.ptr, .ptr], false, id! "_mm512_cvtepi32_epi64", [.m256i], some .m512i⟩,
  /- 2675 -/ ⟨id! "mm512_cvtepu32_epi64", [.ptr, .ptr], false, id! "_mm512_cvtepu32_epi64", [.m256i], some .m512i⟩,
  /- 2459 -/ ⟨id! "mm512_cvtepi16_epi64", [.ptr, .ptr], false, id! "_mm512_cvtepi16_epi64", [.m128i], some .m512i⟩,
  /- 2639 -/ ⟨id! "mm512_cvtepu16_epi64", [.ptr, .ptr], false, id! "_mm512_cvtepu16_epi64", [.m128i], some .m512i⟩,
  /- 1403 -/ ⟨id! "mm512_mask_sra_epi64", [.ptr, .ptr, .ptr, .ptr, .ptr], false, id! "_mm512_mask_sra_epi64", [.m512i, .mask8, .m512i, .m128i], some .m512i⟩,
  /- 935 -/ ⟨id! "mm512_mask_sub_epi64", [.ptr, .ptr, .ptr, .ptr, .ptr], false, id! "_mm512_mask_sub_epi64", [.m512i, .mask8, .m512i, .m512i], some .m512i⟩,
  /- 899 -/ ⟨id! "mm512_mask_add_epi64", [.ptr, .ptr, .ptr, .ptr, .ptr], false, id! "_mm512_mask_add_epi64", [.m512i, .mask8, .m512i, .m512i], some .m512i⟩,
  /- 8305 -/ ⟨id! "mm512_mask_and_epi64", [.ptr, .ptr, .ptr, .ptr, .ptr], false, id! "_mm512_mask_and_epi64", [.m512i, .mask8, .m512i, .m512i], some .m512i⟩,
  /- 8593 -/ ⟨id! "mm512_unpackhi_epi64", [.ptr, .ptr, .ptr], false, id! "_mm512_unpackhi_epi64", [.m512i, .m512i], some .m512i⟩,
  /- 1259 -/ ⟨id! "mm512_mask_sll_epi64", [.ptr, .ptr, .ptr, .ptr, .ptr], false, id! "_mm512_mask_sll_epi64", [.m512i, .mask8, .m512i, .m128i], some .m512i⟩,
  /- 8175 -/ ⟨id! "mm512_mask_rol_epi64", [.ptr, .ptr, .ptr, .ptr, .int], true, id! "_mm512_mask_rol_epi64", [.m512i, .mask8, .m512i, .constInt], some .m512i⟩,
  /- 1331 -/ ⟨id! "mm512_mask_srl_epi64", [.ptr, .ptr, .ptr, .ptr, .ptr], false, id! "_mm512_mask_srl_epi64", [.m512i, .mask8, .m512i, .m128i], some .m512i⟩,
  /- 11989 -/ ⟨id! "mm512_mask_min_epi64", [.ptr, .ptr, .ptr, .ptr, .ptr], false, id! "_mm512_mask_min_epi64", [.m512i, .mask8, .m512i, .m512i], some .m512i⟩,
  /- 8665 -/ ⟨id! "mm512_unpacklo_epi64", [.ptr, .ptr, .ptr], false, id! "_mm512_unpacklo_epi64", [.m512i, .m512i], some .m512i⟩,
  /- 7985 -/ ⟨id! "mm512_maskz_or_epi64", [.ptr, .ptr, .ptr, .ptr], false, id! "_mm512_maskz_or_epi64", [.mask8, .m512i, .m512i], some .m512i⟩,
  /- 8217 -/ ⟨id! "mm512_mask_ror_epi64", [.ptr, .ptr, .ptr, .ptr, .int], true, id! "_mm512_mask_ror_epi64", [.m512i, .mask8, .m512i, .int], some .m512i⟩,
  /- 8057 -/ ⟨id! "mm512_mask_xor_epi64", [.ptr, .ptr, .ptr, .ptr, .ptr], false, id! "_mm512_mask_xor_epi64", [.m512i, .mask8, .m512i, .m512i], some .m512i⟩,
  /- 4227 -/ ⟨id! "mm512_mask_abs_epi64", [.ptr, .ptr, .ptr, .ptr], false, id! "_mm512_mask_abs_epi64", [.m512i, .mask8, .m512i], some .m512i⟩,
  /- 527 -/ ⟨id! "mm512_mask_mov_epi64", [.ptr, .ptr, .ptr, .ptr], false, id! "_mm512_mask_mov_epi64", [.m512i, .mask8, .m512i], some .m512i⟩,
  /- 11965 -/ ⟨id! "mm512_mask_max_epi64", [.ptr, .ptr, .ptr, .ptr, .ptr], false, id! "_mm512_mask_max_epi64", [.m512i, .mask8, .m512i, .m512i], some .m512i⟩,
  /- 7363 -/ ⟨id! "mm512_permutex_epi64", [.ptr, .ptr, .int], true, id! "_mm512_permutex_epi64", [.m512i, .constInt], some .m512i⟩,
  /- 8925 -/ ⟨id! "mm_cvtt_roundsd_si64", [.ptr, .ptr, .int], true, id! "_mm_cvtt_roundsd_si64", [.m128d, .constInt], some .llong⟩,
  /- 8771 -/ ⟨id! "mm_cvtt_roundss_si64", [.ptr, .ptr, .int], true, id! "_mm_cvtt_roundss_si64", [.m128, .constInt], some .llong⟩,
  /- 12061 -/ ⟨id! "mm512_mask_min_epu64", [.ptr, .ptr, .ptr, .ptr, .ptr], false, id! "_mm512_mask_min_epu64", [.m512i, .mask8, .m512i, .m512i], some .m512i⟩,
  /- 12037 -/ ⟨id! "mm512_mask_max_epu64", [.ptr, .ptr, .ptr, .ptr, .ptr], false, id! "_mm512_mask_max_epu64", [.m512i, .mask8, .m512i, .m512i], some .m512i⟩,
  /- 5619 -/ ⟨id! "mm512_cvtepi32_epi16", [.ptr, .ptr], false, id! "_mm512_cvtepi32_epi16", [.m512i], some .m256i⟩,
  /- 5907 -/ ⟨id! "mm512_cvtepi64_epi16", [.ptr, .ptr], false, id! "_mm512_cvtepi64_epi16", [.m512i], some .m128i⟩,
  /- 5523 -/ ⟨id! "mm512_cvtsepi32_epi8", [.ptr, .ptr], false, id! "_mm512_cvtsepi32_epi8", [.m512i], some .m128i⟩,
  /- 6099 -/ ⟨id! "mm512_cvtsepi64_epi8", [.ptr, .ptr], false, id! "_mm512_cvtsepi64_epi8", [.m512i], some .m128i⟩,
  /- 1919 -/ ⟨id! "mm512_maskz_rcp14_pd", [.ptr, .ptr, .ptr], false, id! "_mm512_maskz_rcp14_pd", [.mask8, .m512d], some .m512d⟩,
  /- 14253 -/ ⟨id! "mm512_mask3_fmsub_pd", [.ptr, .ptr, .ptr, .ptr, .ptr], false, id! "_mm512_mask3_fmsub_pd", [.m512d, .m512d, .m512d, .mask8], some .m512d⟩,
  /- 14265 -/ ⟨id! "mm512_maskz_fmsub_pd", [.ptr, .ptr, .ptr, .ptr, .ptr], false, id! "_mm512_maskz_fmsub_pd", [.mask8, .m512d, .m512d, .m512d], some .m512d⟩,
  /- 14625 -/ ⟨id! "mm512_mask_fnmsub_pd", [.ptr, .ptr, .ptr, .ptr, .ptr], false, id! "_mm512_mask_fnmsub_pd", [.m512d, .mask8, .m512d, .m512d], some .m512d⟩,
  /- 14157 -/ ⟨id! "mm512_mask3_fmadd_pd", [.ptr, .ptr, .ptr, .ptr, .ptr], false, id! "_mm512_mask3_fmadd_pd", [.m512d, .m512d, .m512d, .mask8], some .m512d⟩,
  /- 14169 -/ ⟨id! "mm512_maskz_fmadd_pd", [.ptr, .ptr, .ptr, .ptr, .ptr], false, id! "_mm512_maskz_fmadd_pd", [.mask8, .m512d, .m512d, .m512d], some .m512d⟩,
  /- 14529 -/ ⟨id! "mm512_mask_fnmadd_pd", [.ptr, .ptr, .ptr, .ptr, .ptr], false, id! "_mm512_mask_fnmadd_pd", [.m512d, .mask8, .m512d, .m512d], some .m512d⟩,
  /- 11501 -/ ⟨id! "mm512_mask_expand_pd", [.ptr, .ptr, .ptr, .ptr], false, id! "_mm512_mask_expand_pd", [.m512d, .mask8, .m512d], some .m512d⟩,
  /- 3655 -/ ⟨id! "mm512_fmsub_round_pd", [.ptr, .ptr, .ptr, .ptr, .int], true, id! "_mm512_fmsub_round_pd", [.m512d, .m512d, .m512d, .constInt], some .m512d⟩,
  /- 3543 -/ ⟨id! "mm512_fmadd_round_pd", [.ptr, .ptr, .ptr, .ptr, .int], true, id! "_mm512_fmadd_round_pd", [.m512d, .m512d, .m512d, .constInt], some .m512d⟩,
  /- 4323 -/ ⟨id! "mm512_broadcastsd_pd", [.ptr, .ptr], false, id! "_mm512_broadcastsd_pd", [.m128d], some .m512d⟩,
  /- 14049 -/ ⟨id! "mm512_mask_scalef_pd", [.ptr, .ptr, .ptr, .ptr, .ptr], false, id! "_mm512_mask_scalef_pd", [.m512d, .mask8, .m512d, .m512d], some .m512d⟩,
  /- 15709 -/ ⟨id! "mm512_mask_getexp_pd", [.ptr, .ptr, .ptr, .ptr], false, id! "_mm512_mask_getexp_pd", [.m512d, .mask8, .m512d], some .m512d⟩,
  /- 7519 -/ ⟨id! "mm512_permutexvar_pd", [.ptr, .ptr, .ptr], false, id! "_mm512_permutexvar_pd", [.m512i, .m512d], some .m512d⟩,
  /- 9181 -/ ⟨id! "mm512_cvt_roundps_pd", [.ptr, .ptr, .int], true, id! "_mm512_cvt_roundps_pd", [.m256, .constInt], some .m512d⟩,
  /- 15577 -/ ⟨id! "mm512_maskz_cvtps_pd", [.ptr, .ptr, .ptr], false, id! "_mm512_maskz_cvtps_pd", [.mask8, .m256], some .m512d⟩,
  /- 6655 -/ ⟨id! "mm512_maskz_loadu_pd", [.ptr, .ptr, .ptr], false, id! "_mm512_maskz_loadu_pd", [.mask8, .ptr], some .m512d⟩,
  /- 6679 -/ ⟨id! "mm512_mask_storeu_pd", [.ptr, .ptr, .ptr], false, id! "_mm512_mask_storeu_pd", [.ptr, .mask8, .m512d], none⟩,
  /- 1741 -/ ⟨id! "mm_mask_sub_round_sd", [.ptr, .ptr, .ptr, .ptr, .ptr, .int], true, id! "_mm_mask_sub_round_sd", [.m128d, .mask8, .m128d, .m128d, .constInt], some .m128d⟩,
  /- 1657 -/ ⟨id! "mm_mask_add_round_sd", [.ptr, .ptr, .ptr, .ptr, .ptr, .int], true, id! "_mm_mask_add_round_sd", [.m128d, .mask8, .m128d, .m128d, .constInt], some .m128d⟩,
  /- 3053 -/ ⟨id! "mm_mask_mul_round_sd", [.ptr, .ptr, .ptr, .ptr, .ptr, .int], true, id! "_mm_mask_mul_round_sd", [.m128d, .mask8, .m128d, .m128d, .constInt], some .m128d⟩,
  /- 7757 -/ ⟨id! "mm_fixupimm_round_sd", [.ptr, .ptr, .ptr, .ptr, .int, .int], true, id! "_mm_fixupimm_round_sd", [.m128d, .m128d, .m128i, .constInt, .constInt], some .m128d⟩,
  /- 12363 -/ ⟨id! "mm_mask_min_round_sd", [.ptr, .ptr, .ptr, .ptr, .ptr, .int], true, id! "_mm_mask_min_round_sd", [.m128d, .mask8, .m128d, .m128d, .constInt], some .m128d⟩,
  /- 3137 -/ ⟨id! "mm_mask_div_round_sd", [.ptr, .ptr, .ptr, .ptr, .ptr, .int], true, id! "_mm_mask_div_round_sd", [.m128d, .mask8, .m128d, .m128d, .constInt], some .m128d⟩,
  /- 12279 -/ ⟨id! "mm_mask_max_round_sd", [.ptr, .ptr, .ptr, .ptr, .ptr, .int], true, id! "_mm_mask_max_round_sd", [.m128d, .mask8, .m128d, .m128d, .constInt], some .m128d⟩,
  /- 15241 -/ ⟨id! "mm_maskz_fixupimm_sd", [.ptr, .ptr, .ptr, .ptr, .ptr, .int], true, id! "_mm_maskz_fixupimm_sd", [.mask8, .m128d, .m128d, .m128i, .constInt], some .m128d⟩,
  /- 9265 -/ ⟨id! "mm512_cvt_roundps_ph", [.ptr, .ptr, .int], true, id! "_mm512_cvt_roundps_ph", [.m512, .constInt], some .m256i⟩,
  /- 9335 -/ ⟨id! "mm512_maskz_cvtps_ph", [.ptr, .ptr, .ptr, .int], true, id! "_mm512_maskz_cvtps_ph", [.mask16, .m512, .constInt], some .m256i⟩,
  /- 10699 -/ ⟨id! "mm512_cmp_epi32_mask", [.ptr, .ptr, .ptr, .int], true, id! "_mm512_cmp_epi32_mask", [.m512i, .m512i, .constInt], some .mask16⟩,
  /- 10727 -/ ⟨id! "mm512_cmp_epu32_mask", [.ptr, .ptr, .ptr, .int], true, id! "_mm512_cmp_epu32_mask", [.m512i, .m512i, .constInt], some .mask16⟩,
  /- 10685 -/ ⟨id! "mm512_cmp_epi64_mask", [.ptr, .ptr, .ptr, .int], true, id! "_mm512_cmp_epi64_mask", [.m512i, .m512i, .constInt], some .mask8⟩,
  /- 10713 -/ ⟨id! "mm512_cmp_epu64_mask", [.ptr, .ptr, .ptr, .int], true, id! "_mm512_cmp_epu64_mask", [.m512i, .m512i, .constInt], some .mask8⟩,
  /- 16421 -/ ⟨id! "mm512_cmpord_pd_mask", [.ptr, .ptr, .ptr], false, id! "_mm512_cmpord_pd_mask", [.m512d, .m512d], some .mask8⟩,
  /- 16397 -/ ⟨id! "mm512_cmpnle_pd_mask", [.ptr, .ptr, .ptr], false, id! "_mm512_cmpnle_pd_mask", [.m512d, .m512d], some .mask8⟩,
  /- 16349 -/ ⟨id! "mm512_cmpneq_pd_mask", [.ptr, .ptr, .ptr], false, id! "_mm512_cmpneq_pd_mask", [.m512d, .m512d], some .mask8⟩,
  /- 16373 -/ ⟨id! "mm512_cmpnlt_pd_mask", [.ptr, .ptr, .ptr], false, id! "_mm512_cmpnlt_pd_mask", [.m512d, .m512d], some .mask8⟩,
  /- 10853 -/ ⟨id! "mm_cmp_round_sd_mask", [.ptr, .ptr, .ptr, .int, .int], true, id! "_mm_cmp_round_sd_mask", [.m128d, .m128d, .constInt, .constInt], some .mask8⟩,
  /- 16613 -/ ⟨id! "mm512_cmpord_ps_mask", [.ptr, .ptr, .ptr], false, id! "_mm512_cmpord_ps_mask", [.m512, .m512], some .mask16⟩,
  /- 16589 -/ ⟨id! "mm512_cmpnle_ps_mask", [.ptr, .ptr, .ptr], false, id! "_mm512_cmpnle_ps_mask", [.m512, .m512], some .mask16⟩,
  /- 16541 -/ ⟨id! "mm512_cmpneq_ps_mask", [.ptr, .ptr, .ptr], false, id! "_mm512_cmpneq_ps_mask", [.m512, .m512], some .mask16⟩,
  /- 16565 -/ ⟨id! "mm512_cmpnlt_ps_mask", [.ptr, .ptr, .ptr], false, id! "_mm512_cmpnlt_ps_mask", [.m512, .m512], some .mask16⟩,
  /- 10881 -/ ⟨id! "mm_cmp_round_ss_mask", [.ptr, .ptr, .ptr, .int, .int], true, id! "_mm_cmp_round_ss_mask", [.m128, .m128, .constInt, .constInt], some .mask8⟩,
  /- 1955 -/ ⟨id! "mm512_maskz_rcp14_ps", [.ptr, .ptr, .ptr], false, id! "_mm512_maskz_rcp14_ps", [.mask16, .m512], some .m512⟩,
  /- 14301 -/ ⟨id! "mm512_mask3_fmsub_ps", [.ptr, .ptr, .ptr, .ptr, .ptr], false, id! "_mm512_mask3_fmsub_ps", [.m512, .m512, .m512, .mask16], some .m512⟩,
  /- 14313 -/ ⟨id! "mm512_maskz_fmsub_ps", [.ptr, .ptr, .ptr, .ptr, .ptr], false, id! "_mm512_maskz_fmsub_ps", [.mask16, .m512, .m512, .m512], some .m512⟩,
  /- 14673 -/ ⟨id! "mm512_mask_fnmsub_ps", [.ptr, .ptr, .ptr, .ptr, .ptr], false, id! "_mm512_mask_fnmsub_ps", [.m512, .mask16, .m512, .m512], some .m512⟩,
  /- 14205 -/ ⟨id! "mm512_mask3_fmadd_ps", [.ptr, .ptr, .ptr, .ptr, .ptr], false, id! "_mm512_mask3_fmadd_ps", [.m512, .m512, .m512, .mask16], some .m512⟩,
  /- 14217 -/ ⟨id! "mm512_maskz_fmadd_ps", [.ptr, .ptr, .ptr, .ptr, .ptr], false, id! "_mm512_maskz_fmadd_ps", [.mask16, .m512, .m512, .m512], some .m512⟩,
  /- 14577 -/ ⟨id! "mm512_mask_fnmadd_ps", [.ptr, .ptr, .ptr, .ptr, .ptr], false, id! "_mm512_mask_fnmadd_ps", [.m512, .mask16, .m512, .m512], some .m512⟩,
  /- 11549 -/ ⟨id! "mm512_mask_expand_ps", [.ptr, .ptr, .ptr, .ptr], false, id! "_mm512_mask_expand_ps", [.m512, .mask16, .m512], some .m512⟩,
  /- 3711 -/ ⟨id! "mm512_fmsub_round_ps", [.ptr, .ptr, .ptr, .ptr, .int], true, id! "_mm512_fmsub_round_ps", [.m512, .m512, .m512, .constInt], some .m512⟩,
  /- 3599 -/ ⟨id! "mm512_fmadd_round_ps", [.ptr, .ptr, .ptr, .ptr, .int], true, id! "_mm512_fmadd_round_ps", [.m512, .m512, .m512, .constInt], some .m512⟩,
  /- 9349 -/ ⟨id! "mm512_cvt_roundpd_ps", [.ptr, .ptr, .int], true, id! "_mm512_cvt_roundpd_ps", [.m512d, .constInt], some .m256⟩,
  /- 15649 -/ ⟨id! "mm512_maskz_cvtpd_ps", [.ptr, .ptr, .ptr], false, id! "_mm512_maskz_cvtpd_ps", [.mask8, .m512d], some .m256⟩,
  /- 14085 -/ ⟨id! "mm512_mask_scalef_ps", [.ptr, .ptr, .ptr, .ptr, .ptr], false, id! "_mm512_mask_scalef_ps", [.m512, .mask16, .m512, .m512], some .m512⟩,
  /- 9223 -/ ⟨id! "mm512_cvt_roundph_ps", [.ptr, .ptr, .int], true, id! "_mm512_cvt_roundph_ps", [.m256i, .constInt], some .m512⟩,
  /- 15613 -/ ⟨id! "mm512_maskz_cvtph_ps", [.ptr, .ptr, .ptr], false, id! "_mm512_maskz_cvtph_ps", [.mask16, .m256i], some .m512⟩,
  /- 15673 -/ ⟨id! "mm512_mask_getexp_ps", [.ptr, .ptr, .ptr, .ptr], false, id! "_mm512_mask_getexp_ps", [.m512, .mask16, .m512], some .m512⟩,
  /- 7555 -/ ⟨id! "mm512_permutexvar_ps", [.ptr, .ptr, .ptr], false, id! "_mm512_permutexvar_ps", [.m512i, .m512], some .m512⟩,
  /- 4287 -/ ⟨id! "mm512_broadcastss_ps", [.ptr, .ptr], false, id! "_mm512_broadcastss_ps", [.m128], some .m512⟩,
  /- 6715 -/ ⟨id! "mm512_maskz_loadu_ps", [.ptr, .ptr, .ptr], false, id! "_mm512_maskz_loadu_ps", [.mask16, .ptr], some .m512⟩,
  /- 6739 -/ ⟨id! "mm512_mask_storeu_ps", [.ptr, .ptr, .ptr], false, id! "_mm512_mask_storeu_ps", [.ptr, .mask16, .m512], none⟩,
  /- 1783 -/ ⟨id! "mm_mask_sub_round_ss", [.ptr, .ptr, .ptr, .ptr, .ptr, .int], true, id! "_mm_mask_sub_round_ss", [.m128, .mask8, .m128, .m128, .constInt], some .m128⟩,
  /- 1699 -/ ⟨id! "mm_mask_add_round_ss", [.ptr, .ptr, .ptr, .ptr, .ptr, .int], true, id! "_mm_mask_add_round_ss", [.m128, .mask8, .m128, .m128, .constInt], some .m128⟩,
  /- 3095 -/ ⟨id! "mm_mask_mul_round_ss", [.ptr, .ptr, .ptr, .ptr, .ptr, .int], true, id! "_mm_mask_mul_round_ss", [.m128, .mask8, .m128, .m128, .constInt], some .m128⟩,
  /- 7799 -/ ⟨id! "mm_fixupimm_round_ss", [.ptr, .ptr, .ptr, .ptr, .int, .int], true, id! "_mm_fixupimm_round_ss", [.m128, .m128, .m128i, .constInt, .constInt], some .m128⟩,
  /- 12405 -/ ⟨id! "mm_mask_min_round_ss", [.ptr, .ptr, .ptr, .ptr, .ptr, .int], true, id! "_mm_mask_min_round_ss", [.m128, .mask8, .m128, .m128, .constInt], some .m128⟩,
  /- 3179 -/ ⟨id! "mm_mask_div_round_ss", [.ptr, .ptr, .ptr, .ptr, .ptr, .int], true, id! "_mm_mask_div_round_ss", [.m128, .mask8, .m128, .m128, .constInt], some .m128⟩,
  /- 12321 -/ ⟨id! "mm_mask_max_round_ss", [.ptr, .ptr, .ptr, .ptr, .ptr, .int], true, id! "_mm_mask_max_round_ss", [.m128, .mask8, .m128, .m128, .constInt], some .m128⟩,
  /- 15283 -/ ⟨id! "mm_maskz_fixupimm_ss", [.ptr, .ptr, .ptr, .ptr, .ptr, .int], true, id! "_mm_maskz_fixupimm_ss", [.mask8, .m128, .m128, .m128i, .constInt], some .m128⟩,
  /- 16829 -/ ⟨id! "mm512_castpd256_pd512", [.ptr, .ptr], false, id! "_mm512_castpd256_pd512", [.m256d], some .m512d⟩,
  /- 16901 -/ ⟨id! "mm512_zextpd256_pd512", [.ptr, .ptr], false, id! "_mm512_zextpd256_pd512", [.m256d], some .m512d⟩,
  /- 16793 -/ ⟨id! "mm512_castpd128_pd512", [.ptr, .ptr], false, id! "_mm512_castpd128_pd512", [.m128d], some .m512d⟩,
  /- 16865 -/ ⟨id! "mm512_zextpd128_pd512", [.ptr, .ptr], false, id! "_mm512_zextpd128_pd512", [.m128d], some .m512d⟩,
  /- 16853 -/ ⟨id! "mm512_castsi256_si512", [.ptr, .ptr], false, id! "_mm512_castsi256_si512", [.m256i], some .m512i⟩,
  /- 16925 -/ ⟨id! "mm512_zextsi256_si512", [.ptr, .ptr], false, id! "_mm512_zextsi256_si512", [.m256i], some .m512i⟩,
  /- 16817 -/ ⟨id! "mm512_castsi128_si512", [.ptr, .ptr], false, id! "_mm512_castsi128_si512", [.m128i], some .m512i⟩,
  /- 16889 -/ ⟨id! "mm512_zextsi128_si512", [.ptr, .ptr], false, id! "_mm512_zextsi128_si512", [.m128i], some .m512i⟩,
  /- 16841 -/ ⟨id! "mm512_castps256_ps512", [.ptr, .ptr], false, id! "_mm512_castps256_ps512", [.m256], some .m512⟩,
  /- 16913 -/ ⟨id! "mm512_zextps256_ps512", [.ptr, .ptr], false, id! "_mm512_zextps256_ps512", [.m256], some .m512⟩,
  /- 16805 -/ ⟨id! "mm512_castps128_ps512", [.ptr, .ptr], false, id! "_mm512_castps128_ps512", [.m128], some .m512⟩,
  /- 16877 -/ ⟨id! "mm512_zextps128_ps512", [.ptr, .ptr], false, id! "_mm512_zextps128_ps512", [.m128], some .m512⟩,
  /- 4409 -/ ⟨id! "mm512_mask_set1_epi32", [.ptr, .ptr, .ptr, .int], true, id! "_mm512_mask_set1_epi32", [.m512i, .mask16, .int], some .m512i⟩,
  /- 5811 -/ ⟨id! "mm512_cvtsepi64_epi32", [.ptr, .ptr], false, id! "_mm512_cvtsepi64_epi32", [.m512i], some .m256i⟩,
  /- 1631 -/ ⟨id! "mm512_maskz_sra_epi32", [.ptr, .ptr, .ptr, .ptr], false, id! "_mm512_maskz_sra_epi32", [.mask16, .m512i, .m128i], some .m512i⟩,
  /- 1163 -/ ⟨id! "mm512_maskz_sub_epi32", [.ptr, .ptr, .ptr, .ptr], false, id! "_mm512_maskz_sub_epi32", [.mask16, .m512i, .m512i], some .m512i⟩,
  /- 659 -/ ⟨id! "mm512_mask_load_epi32", [.ptr, .ptr, .ptr, .ptr], false, id! "_mm512_mask_load_epi32", [.m512i, .mask16, .ptr], some .m512i⟩,
  /- 1091 -/ ⟨id! "mm512_maskz_add_epi32", [.ptr, .ptr, .ptr, .ptr], false, id! "_mm512_maskz_add_epi32", [.mask16, .m512i, .m512i], some .m512i⟩,
  /- 189 -/ ⟨id! "mm512_undefined_epi32", [.ptr], false, id! "_mm512_undefined_epi32", [], some .m512i⟩,
  /- 8281 -/ ⟨id! "mm512_maskz_and_epi32", [.ptr, .ptr, .ptr, .ptr], false, id! "_mm512_maskz_and_epi32", [.mask16, .m512i, .m512i], some .m512i⟩,
  /- 1583 -/ ⟨id! "mm512_mask_srai_epi32", [.ptr, .ptr, .ptr, .ptr, .int], false, id! "_mm512_mask_srai_epi32", [.m512i, .mask16, .m512i, .uint], some .m512i⟩,
  /- 1439 -/ ⟨id! "mm512_mask_slli_epi32", [.ptr, .ptr, .ptr, .ptr, .int], false, id! "_mm512_mask_slli_epi32", [.m512i, .mask16, .m512i, .uint], some .m512i⟩,
  /- 1511 -/ ⟨id! "mm512_mask_srli_epi32", [.ptr, .ptr, .ptr, .ptr, .int], false, id! "_mm512_mask_srli_epi32", [.m512i, .mask16, .m512i, .uint], some .m512i⟩,
  /- 1487 -/ ⟨id! "mm512_maskz_sll_epi32", [.ptr, .ptr, .ptr, .ptr], false, id! "_mm512_maskz_sll_epi32", [.mask16, .m512i, .m128i], some .m512i⟩,
  /- 8109 -/ ⟨id! "mm512_maskz_rol_epi32", [.ptr, .ptr, .ptr, .int], true, id! "_mm512_maskz_rol_epi32", [.mask16, .m512i, .constInt], some .m512i⟩,
  /- 1559 -/ ⟨id! "mm512_maskz_srl_epi32", [.ptr, .ptr, .ptr, .ptr], false, id! "_mm512_maskz_srl_epi32", [.mask16, .m512i, .m128i], some .m512i⟩,
  /- 1127 -/ ⟨id! "mm512_maskz_mul_epi32", [.ptr, .ptr, .ptr, .ptr], false, id! "_mm512_maskz_mul_epi32", [.mask8, .m512i, .m512i], some .m512i⟩,
  /- 12133 -/ ⟨id! "mm512_maskz_min_epi32", [.ptr, .ptr, .ptr, .ptr], false, id! "_mm512_maskz_min_epi32", [.mask16, .m512i, .m512i], some .m512i⟩,
  /- 11021 -/ ⟨id! "mm512_i32gather_epi32", [.ptr, .ptr, .ptr, .int], true, id! "_mm512_i32gather_epi32", [.m512i, .ptr, .int], some .m512i⟩,
  /- 11077 -/ ⟨id! "mm512_i64gather_epi32", [.ptr, .ptr, .ptr, .int], true, id! "_mm512_i64gather_epi32", [.m512i, .ptr, .int], some .m256i⟩,
  /- 17069 -/ ⟨id! "mm512_reduce_or_epi32", [.ptr, .ptr], false, id! "_mm512_reduce_or_epi32", [.m512i], some .int⟩,
  /- 8149 -/ ⟨id! "mm512_maskz_ror_epi32", [.ptr, .ptr, .ptr, .int], false, id! "_mm512_maskz_ror_epi32", [.mask16, .m512i, .int], some .m512i⟩,
  /- 8033 -/ ⟨id! "mm512_maskz_xor_epi32", [.ptr, .ptr, .ptr, .ptr], false, id! "_mm512_maskz_xor_epi32", [.mask16, .m512i, .m512i], some .m512i⟩,
  /- 4275 -/ ⟨id! "mm512_maskz_abs_epi32", [.ptr, .ptr, .ptr], false, id! "_mm512_maskz_abs_epi32", [.mask16, .m512i], some .m512i⟩,
  /- 827 -/ ⟨id! "mm512_mask_srav_epi32", [.ptr, .ptr, .ptr, .ptr, .ptr], false, id! "_mm512_mask_srav_epi32", [.m512i, .mask16, .m512i, .m512i], some .m512i⟩,
  /- 791 -/ ⟨id! "mm512_mask_sllv_epi32", [.ptr, .ptr, .ptr, .ptr, .ptr], false, id! "_mm512_mask_sllv_epi32", [.m512i, .mask16, .m512i, .m512i], some .m512i⟩,
  /- 4869 -/ ⟨id! "mm512_mask_rolv_epi32", [.ptr, .ptr, .ptr, .ptr, .ptr], false, id! "_mm512_mask_rolv_epi32", [.m512i, .mask16, .m512i, .m512i], some .m512i⟩,
  /- 863 -/ ⟨id! "mm512_mask_srlv_epi32", [.ptr, .ptr, .ptr, .ptr, .ptr], false, id! "_mm512_mask_srlv_epi32", [.m512i, .mask16, .m512i, .m512i], some .m512i⟩,
  /- 623 -/ ⟨id! "mm512_maskz_mov_epi32", [.ptr, .ptr, .ptr], false, id! "_mm512_maskz_mov_epi32", [.mask16, .m512i], some .m512i⟩,
  /- 4905 -/ ⟨id! "mm512_mask_rorv_epi32", [.ptr, .ptr, .ptr, .ptr, .ptr], false, id! "_mm512_mask_rorv_epi32", [.m512i, .mask16, .m512i, .m512i], some .m512i⟩,
  /- 12097 -/ ⟨id! "mm512_maskz_max_epi32", [.ptr, .ptr, .ptr, .ptr], false, id! "_mm512_maskz_max_epi32", [.mask16, .m512i, .m512i], some .m512i⟩,
  /- 1199 -/ ⟨id! "mm512_maskz_mul_epu32", [.ptr, .ptr, .ptr, .ptr], false, id! "_mm512_maskz_mul_epu32", [.mask8, .m512i, .m512i], some .m512i⟩,
  /- 12205 -/ ⟨id! "mm512_maskz_min_epu32", [.ptr, .ptr, .ptr, .ptr], false, id! "_mm512_maskz_min_epu32", [.mask16, .m512i, .m512i], some .m512i⟩,
  /- 12169 -/ ⟨id! "mm512_maskz_max_epu32", [.ptr, .ptr, .ptr, .ptr], false, id! "_mm512_maskz_max_epu32", [.mask16, .m512i, .m512i], some .m512i⟩,
  /- 4485 -/ ⟨id! "mm512_mask_set1_epi64", [.ptr, .ptr, .ptr, .int], false, id! "_mm512_mask_set1_epi64", [.m512i, .mask8, .llong], some .m512i⟩,
  /- 1415 -/ ⟨id! "mm512_maskz_sra_epi64", [.ptr, .ptr, .ptr, .ptr], false, id! "_mm512_maskz_sra_epi64", [.mask8, .m512i, .m128i], some .m512i⟩,
  /- 947 -/ ⟨id! "mm512_maskz_sub_epi64", [.ptr, .ptr, .ptr, .ptr], false, id! "_mm512_maskz_sub_epi64", [.mask8, .m512i, .m512i], some .m512i⟩,
  /- 563 -/ ⟨id! "mm512_mask_load_epi64", [.ptr, .ptr, .ptr, .ptr], false, id! "_mm512_mask_load_epi64", [.m512i, .mask8, .ptr], some .m512i⟩,
  /- 911 -/ ⟨id! "mm512_maskz_add_epi64", [.ptr, .ptr, .ptr, .ptr], false, id! "_mm512_maskz_add_epi64", [.mask8, .m512i, .m512i], some .m512i⟩,
  /- 8317 -/ ⟨id! "mm512_maskz_and_epi64", [.ptr, .ptr, .ptr, .ptr], false, id! "_mm512_maskz_and_epi64", [.mask8, .m512i, .m512i], some .m512i⟩,
  /- 1367 -/ ⟨id! "mm512_mask_srai_epi64", [.ptr, .ptr, .ptr, .ptr, .int], false, id! "_mm512_mask_srai_epi64", [.m512i, .mask8, .m512i, .uint], some .m512i⟩,
  /- 1223 -/ ⟨id! "mm512_mask_slli_epi64", [.ptr, .ptr, .ptr, .ptr, .int], false, id! "_mm512_mask_slli_epi64", [.m512i, .mask8, .m512i, .uint], some .m512i⟩,
  /- 1295 -/ ⟨id! "mm512_mask_srli_epi64", [.ptr, .ptr, .ptr, .ptr, .int], false, id! "_mm512_mask_srli_epi64", [.m512i, .mask8, .m512i, .uint], some .m512i⟩,
  /- 1271 -/ ⟨id! "mm512_maskz_sll_epi64", [.ptr, .ptr, .ptr, .ptr], false, id! "_mm512_maskz_sll_epi64", [.mask8, .m512i, .m128i], some .m512i⟩,
  /- 8189 -/ ⟨id! "mm512_maskz_rol_epi64", [.ptr, .ptr, .ptr, .int], true, id! "_mm512_maskz_rol_epi64", [.mask8, .m512i, .constInt], some .m512i⟩,
  /- 1343 -/ ⟨id! "mm512_maskz_srl_epi64", [.ptr, .ptr, .ptr, .ptr], false, id! "_mm512_maskz_srl_epi64", [.mask8, .m512i, .m128i], some .m512i⟩,
  /- 12001 -/ ⟨id! "mm512_maskz_min_epi64", [.ptr, .ptr, .ptr, .ptr], false, id! "_mm512_maskz_min_epi64", [.mask8, .m512i, .m512i], some .m512i⟩,
  /- 11049 -/ ⟨id! "mm512_i32gather_epi64", [.ptr, .ptr, .ptr, .int], true, id! "_mm512_i32gather_epi64", [.m256i, .ptr, .int], some .m512i⟩,
  /- 11105 -/ ⟨id! "mm512_i64gather_epi64", [.ptr, .ptr, .ptr, .int], true, id! "_mm512_i64gather_epi64", [.m512i, .ptr, .int], some .m512i⟩,
  /- 17357 -/ ⟨id! "mm512_reduce_or_epi64", [.ptr, .ptr], false, id! "_mm512_reduce_or_epi64", [.m512i], some .llong⟩,
  /- 8231 -/ ⟨id! "mm512_maskz_ror_epi64", [.ptr, .ptr, .ptr, .int], true, id! "_mm512_maskz_ror_epi64", [.mask8, .m512i, .int], some .m512i⟩,
  /- 8069 -/ ⟨id! "mm512_maskz_xor_epi64", [.ptr, .ptr, .ptr, .ptr], false, id! "_mm512_maskz_xor_epi64", [.mask8, .m512i, .m512i], some .m512i⟩,
  /- 4239 -/ ⟨id! "mm512_maskz_abs_epi64", [.ptr, .ptr, .ptr], false, id! "_mm512_maskz_abs_epi64", [.mask8, .m512i], some .m512i⟩,
  /- 1007 -/ ⟨id! "mm512_mask_srav_epi64", [.ptr, .ptr, .ptr, .ptr, .ptr], false, id! "_mm512_mask_srav_epi64", [.m512i, .mask8, .m512i, .m512i], some .m512i⟩,
  /- 971 -/ ⟨id! "mm512_mask_sllv_epi64", [.ptr, .ptr, .ptr, .ptr, .ptr], false, id! "_mm512_mask_sllv_epi64", [.m512i, .mask8, .m512i, .m512i], some .m512i⟩,
  /- 4941 -/ ⟨id! "mm512_mask_rolv_epi64", [.ptr, .ptr, .ptr, .ptr, .ptr], false, id! "_mm512_mask_rolv_epi64", [.m512i, .mask8, .m512i, .m512i], some .m512i⟩,
  /- 1043 -/ ⟨id! "mm512_mask_srlv_epi64", [.ptr, .ptr, .ptr, .ptr, .ptr], false, id! "_mm512_mask_srlv_epi64", [.m512i, .mask8, .m512i, .m512i], some .m512i⟩,
  /- 539 -/ ⟨id! "mm512_maskz_mov_epi64", [.ptr, .ptr, .ptr], false, id! "_mm512_maskz_mov_epi64", [.mask8, .m512i], some .m512i⟩,
  /- 4977 -/ ⟨id! "mm512_mask_rorv_epi64", [.ptr, .ptr, .ptr, .ptr, .ptr], false, id! "_mm512_mask_rorv_epi64", [.m512i, .mask8, .m512i, .m512i], some .m512i⟩,
  /- 11953 -/ ⟨id! "mm512_maskz_max_epi64", [.ptr, .ptr, .ptr, .ptr], false, id! "_mm512_maskz_max_epi64", [.mask8, .m512i, .m512i], some .m512i⟩,
  /- 12073 -/ ⟨id! "mm512_maskz_min_epu64", [.ptr, .ptr, .ptr, .ptr], false, id! "_mm512_maskz_min_epu64", [.mask8, .m512i, .m512i], some .m512i⟩,
  /- 12025 -/ ⟨id! "mm512_maskz_max_epu64", [.ptr, .ptr, .ptr, .ptr], false, id! "_mm512_maskz_max_epu64", [.mask8, .m512i, .m512i], some .m512i⟩,
  /- 4509 -/ ⟨id! "mm512_broadcast_f32x4", [.ptr, .ptr], false, id! "_mm512_broadcast_f32x4", [.m128], some .m512⟩,
  /- 4545 -/ ⟨id! "mm512_broadcast_i32x4", [.ptr, .ptr], false, id! "_mm512_broadcast_i32x4", [.m128i], some .m512i⟩,
  /- 4581 -/ ⟨id! "mm512_broadcast_f64x4", [.ptr, .ptr], false, id! "_mm512_broadcast_f64x4", [.m256d], some .m512d⟩,
  /- 4617 -/ ⟨id! "mm512_broadcast_i64x4", [.ptr, .ptr], false, id! "_mm512_broadcast_i64x4", [.m256i], some .m512i⟩,
  /- 5667 -/ ⟨id! "mm512_cvtsepi32_epi16", [.ptr, .ptr], false, id! "_mm512_cvtsepi32_epi16", [.m512i], some .m256i⟩,
  /- 5955 -/ ⟨id! "mm512_cvtsepi64_epi16", [.ptr, .ptr], false, id! "_mm512_cvtsepi64_epi16", [.m512i], some .m128i⟩,
  /- 16757 -/ ⟨id! "mm512_castpd512_pd256", [.ptr, .ptr], false, id! "_mm512_castpd512_pd256", [.m512d], some .m256d⟩,
  /- 16781 -/ ⟨id! "mm512_castsi512_si256", [.ptr, .ptr], false, id! "_mm512_castsi512_si256", [.m512i], some .m256i⟩,
  /- 16769 -/ ⟨id! "mm512_castps512_ps256", [.ptr, .ptr], false, id! "_mm512_castps512_ps256", [.m512], some .m256⟩,
  /- 16721 -/ ⟨id! "mm512_castpd512_pd128", [.ptr, .ptr], false, id! "_mm512_castpd512_pd128", [.m512d], some .m128d⟩,
  /- 16745 -/ ⟨id! "mm512_castsi512_si128", [.ptr, .ptr], false, id! "_mm512_castsi512_si128", [.m512i], some .m128i⟩,
  /- 16733 -/ ⟨id! "mm512_castps512_ps128", [.ptr, .ptr], false, id! "_mm512_castps512_ps128", [.m512], some .m128⟩,
  /- 5571 -/ ⟨id! "mm512_cvtusepi32_epi8", [.ptr, .ptr], false, id! "_mm512_cvtusepi32_epi8", [.m512i], some .m128i⟩,
  /- 6147 -/ ⟨id! "mm512_cvtusepi64_epi8", [.ptr, .ptr], false, id! "_mm512_cvtusepi64_epi8", [.m512i], some .m128i⟩,
  /- 2051 -/ ⟨id! "mm512_mask_rsqrt14_pd", [.ptr, .ptr, .ptr, .ptr], false, id! "_mm512_mask_rsqrt14_pd", [.m512d, .mask8, .m512d], some .m512d⟩,
  /- 6351 -/ ⟨id! "mm512_extractf64x4_pd", [.ptr, .ptr, .int], true, id! "_mm512_extractf64x4_pd", [.m512d, .constInt], some .m256d⟩,
  /- 14637 -/ ⟨id! "mm512_mask3_fnmsub_pd", [.ptr, .ptr, .ptr, .ptr, .ptr], false, id! "_mm512_mask3_fnmsub_pd", [.m512d, .m512d, .m512d, .mask8], some .m512d⟩,
  /- 14649 -/ ⟨id! "mm512_maskz_fnmsub_pd", [.ptr, .ptr, .ptr, .ptr, .ptr], false, id! "_mm512_maskz_fnmsub_pd", [.mask8, .m512d, .m512d, .m512d], some .m512d⟩,
  /- 14541 -/ ⟨id! "mm512_mask3_fnmadd_pd", [.ptr, .ptr, .ptr, .ptr, .ptr], false, id! "_mm512_mask3_fnmadd_pd", [.m512d, .m512d, .m512d, .mask8], some .m512d⟩,
  /- 14553 -/ ⟨id! "mm512_maskz_fnmadd_pd", [.ptr, .ptr, .ptr, .ptr, .ptr], false, id! "_mm512_maskz_fnmadd_pd", [.mask8, .m512d, .m512d, .m512d], some .m512d⟩,
  /- 11513 -/ ⟨id! "mm512_maskz_expand_pd", [.ptr, .ptr, .ptr], false, id! "_mm512_maskz_expand_pd", [.mask8, .m512d], some .m512d⟩,
  /- 4103 -/ ⟨id! "mm512_fnmsub_round_pd", [.ptr, .ptr, .ptr, .ptr, .int], true, id! "_mm512_fnmsub_round_pd", [.m512d, .m512d, .m512d, .constInt], some .m512d⟩,
  /- 3991 -/ ⟨id! "mm512_fnmadd_round_pd", [.ptr, .ptr, .ptr, .ptr, .int], true, id! "_mm512_fnmadd_round_pd", [.m512d, .m512d, .m512d, .constInt], some .m512d⟩,
  /- 3375 -/ ⟨id! "mm512_scalef_round_pd", [.ptr, .ptr, .ptr, .int], true, id! "_mm512_scalef_round_pd", [.m512d, .m512d, .constInt], some .m512d⟩,
  /- 9635 -/ ⟨id! "mm512_getexp_round_pd", [.ptr, .ptr, .int], false, id! "_mm512_getexp_round_pd", [.m512d, .constInt], some .m512d⟩,
  /- 7645 -/ ⟨id! "mm512_mask_shuffle_pd", [.ptr, .ptr, .ptr, .ptr, .ptr, .int], true, id! "_mm512_mask_shuffle_pd", [.m512d, .mask8, .m512d, .m512d, .constInt], some .m512d⟩,
  /- 7293 -/ ⟨id! "mm512_mask_permute_pd", [.ptr, .ptr, .ptr, .ptr, .int], true, id! "_mm512_mask_permute_pd", [.m512d, .mask8, .m512d, .constInt], some .m512d⟩,
  /- 14061 -/ ⟨id! "mm512_maskz_scalef_pd", [.ptr, .ptr, .ptr, .ptr], false, id! "_mm512_maskz_scalef_pd", [.mask8, .m512d, .m512d], some .m512d⟩,
  /- 9049 -/ ⟨id! "mm512_mask_movedup_pd", [.ptr, .ptr, .ptr, .ptr], false, id! "_mm512_mask_movedup_pd", [.m512d, .mask8, .m512d], some .m512d⟩,
  /- 15721 -/ ⟨id! "mm512_maskz_getexp_pd", [.ptr, .ptr, .ptr], false, id! "_mm512_maskz_getexp_pd", [.mask8, .m512d], some .m512d⟩,
  /- 7183 -/ ⟨id! "mm512_permutex2var_pd", [.ptr, .ptr, .ptr, .ptr], false, id! "_mm512_permutex2var_pd", [.m512d, .m512i, .m512d], some .m512d⟩,
  /- 15819 -/ ⟨id! "mm512_mask_getmant_pd", [.ptr, .ptr, .ptr, .ptr, .enum, .enum], true, id! "_mm512_mask_getmant_pd", [.m512d, .mask8, .m512d, .enum, .enum], some .m512d⟩,
  /- 1755 -/ ⟨id! "mm_maskz_sub_round_sd", [.ptr, .ptr, .ptr, .ptr, .int], true, id! "_mm_maskz_sub_round_sd", [.mask8, .m128d, .m128d, .constInt], some .m128d⟩,
  /- 1671 -/ ⟨id! "mm_maskz_add_round_sd", [.ptr, .ptr, .ptr, .ptr, .int], true, id! "_mm_maskz_add_round_sd", [.mask8, .m128d, .m128d, .constInt], some .m128d⟩,
  /- 3067 -/ ⟨id! "mm_maskz_mul_round_sd", [.ptr, .ptr, .ptr, .ptr, .int], true, id! "_mm_maskz_mul_round_sd", [.mask8, .m128d, .m128d, .constInt], some .m128d⟩,
  /- 12377 -/ ⟨id! "mm_maskz_min_round_sd", [.ptr, .ptr, .ptr, .ptr, .int], true, id! "_mm_maskz_min_round_sd", [.mask8, .m128d, .m128d, .constInt], some .m128d⟩,
  /- 2281 -/ ⟨id! "mm_mask_sqrt_round_sd", [.ptr, .ptr, .ptr, .ptr, .ptr, .int], true, id! "_mm_mask_sqrt_round_sd", [.m128d, .mask8, .m128d, .m128d, .constInt], some .m128d⟩,
  /- 3151 -/ ⟨id! "mm_maskz_div_round_sd", [.ptr, .ptr, .ptr, .ptr, .int], true, id! "_mm_maskz_div_round_sd", [.mask8, .m128d, .m128d, .constInt], some .m128d⟩,
  /- 12293 -/ ⟨id! "mm_maskz_max_round_sd", [.ptr, .ptr, .ptr, .ptr, .int], true, id! "_mm_maskz_max_round_sd", [.mask8, .m128d, .m128d, .constInt], some .m128d⟩,
  /- 16113 -/ ⟨id! "mm_mask_roundscale_sd", [.ptr, .ptr, .ptr, .ptr, .ptr, .int], true, id! "_mm_mask_roundscale_sd", [.m128d, .mask8, .m128d, .m128d, .constInt], some .m128d⟩,
  /- 8413 -/ ⟨id! "mm512_test_epi32_mask", [.ptr, .ptr, .ptr], false, id! "_mm512_test_epi32_mask", [.m512i, .m512i], some .mask16⟩,
  /- 8437 -/ ⟨id! "mm512_test_epi64_mask", [.ptr, .ptr, .ptr], false, id! "_mm512_test_epi64_mask", [.m512i, .m512i], some .mask8⟩,
  /- 2087 -/ ⟨id! "mm512_mask_rsqrt14_ps", [.ptr, .ptr, .ptr, .ptr], false, id! "_mm512_mask_rsqrt14_ps", [.m512, .mask16, .m512], some .m512⟩,
  /- 6393 -/ ⟨id! "mm512_extractf32x4_ps", [.ptr, .ptr, .int], true, id! "_mm512_extractf32x4_ps", [.m512, .constInt], some .m128⟩,
  /- 14685 -/ ⟨id! "mm512_mask3_fnmsub_ps", [.ptr, .ptr, .ptr, .ptr, .ptr], false, id! "_mm512_mask3_fnmsub_ps", [.m512, .m512, .m512, .mask16], some .m512⟩,
  /- 14697 -/ ⟨id! "mm512_maskz_fnmsub_ps", [.ptr, .ptr, .ptr, .ptr, .ptr], false, id! "_mm512_maskz_fnmsub_ps", [.mask16, .m512, .m512, .m512], some .m512⟩,
  /- 14589 -/ ⟨id! "mm512_mask3_fnmadd_ps", [.ptr, .ptr, .ptr, .ptr, .ptr], false, id! "_mm512_mask3_fnmadd_ps", [.m512, .m512, .m512, .mask16], some .m512⟩,
  /- 14601 -/ ⟨id! "mm512_maskz_fnmadd_ps", [.ptr, .ptr, .ptr, .ptr, .ptr], false, id! "_mm512_maskz_fnmadd_ps", [.mask16, .m512, .m512, .m512], some .m512⟩,
  /- 11561 -/ ⟨id! "mm512_maskz_expand_ps", [.ptr, .ptr, .ptr], false, id! "_mm512_maskz_expand_ps", [.mask16, .m512], some .m512⟩,
  /- 4159 -/ ⟨id! "mm512_fnmsub_round_ps", [.ptr, .ptr, .ptr, .ptr, .int], true, id! "_mm512_fnmsub_round_ps", [.m512, .m512, .m512, .constInt], some .m512⟩,
  /- 4047 -/ ⟨id! "mm512_fnmadd_round_ps", [.ptr, .ptr, .ptr, .ptr, .int], true, id! "_mm512_fnmadd_round_ps", [.m512, .m512, .m512, .constInt], some .m512⟩,
  /- 3417 -/ ⟨id! "mm512_scalef_round_ps", [.ptr, .ptr, .ptr, .int], true, id! "_mm512_scalef_round_ps", [.m512, .m512, .constInt], some .m512⟩,
  /- 9595 -/ ⟨id! "mm512_getexp_round_ps", [.ptr, .ptr, .int], false, id! "_mm512_getexp_round_ps", [.m512, .constInt], some .m512⟩,
  /- 7605 -/ ⟨id! "mm512_mask_shuffle_ps", [.ptr, .ptr, .ptr, .ptr, .ptr, .int], true, id! "_mm512_mask_shuffle_ps", [.m512, .mask16, .m512, .m512, .constInt], some .m512⟩,
  /- 7335 -/ ⟨id! "mm512_mask_permute_ps", [.ptr, .ptr, .ptr, .ptr, .int], true, id! "_mm512_mask_permute_ps", [.m512, .mask16, .m512, .constInt], some .m512⟩,
  /- 14097 -/ ⟨id! "mm512_maskz_scalef_ps", [.ptr, .ptr, .ptr, .ptr], false, id! "_mm512_maskz_scalef_ps", [.mask16, .m512, .m512], some .m512⟩,
  /- 15685 -/ ⟨id! "mm512_maskz_getexp_ps", [.ptr, .ptr, .ptr], false, id! "_mm512_maskz_getexp_ps", [.mask16, .m512], some .m512⟩,
  /- 7231 -/ ⟨id! "mm512_permutex2var_ps", [.ptr, .ptr, .ptr, .ptr], false, id! "_mm512_permutex2var_ps", [.m512, .m512i, .m512], some .m512⟩,
  /- 15861 -/ ⟨id! "mm512_mask_getmant_ps", [.ptr, .ptr, .ptr, .ptr, .enum, .enum], true, id! "_mm512_mask_getmant_ps", [.m512, .mask16, .m512, .enum, .enum], some .m512⟩,
  /- 1797 -/ ⟨id! "mm_maskz_sub_round_ss", [.ptr, .ptr, .ptr, .ptr, .int], true, id! "_mm_maskz_sub_round_ss", [.mask8, .m128, .m128, .constInt], some .m128⟩,
  /- 1713 -/ ⟨id! "mm_maskz_add_round_ss", [.ptr, .ptr, .ptr, .ptr, .int], true, id! "_mm_maskz_add_round_ss", [.mask8, .m128, .m128, .constInt], some .m128⟩,
  /- 3109 -/ ⟨id! "mm_maskz_mul_round_ss", [.ptr, .ptr, .ptr, .ptr, .int], true, id! "_mm_maskz_mul_round_ss", [.mask8, .m128, .m128, .constInt], some .m128⟩,
  /- 12419 -/ ⟨id! "mm_maskz_min_round_ss", [.ptr, .ptr, .ptr, .ptr, .int], true, id! "_mm_maskz_min_round_ss", [.mask8, .m128, .m128, .constInt], some .m128⟩,
  /- 2323 -/ ⟨id! "mm_mask_sqrt_round_ss", [.ptr, .ptr, .ptr, .ptr, .ptr, .int], true, id! "_mm_mask_sqrt_round_ss", [.m128, .mask8, .m128, .m128, .constInt], some .m128⟩,
  /- 3193 -/ ⟨id! "mm_maskz_div_round_ss", [.ptr, .ptr, .ptr, .ptr, .int], true, id! "_mm_maskz_div_round_ss", [.mask8, .m128, .m128, .constInt], some .m128⟩,
  /- 12335 -/ ⟨id! "mm_maskz_max_round_ss", [.ptr, .ptr, .ptr, .ptr, .int], true, id! "_mm_maskz_max_round_ss", [.mask8, .m128, .m128, .constInt], some .m128⟩,
  /- 16071 -/ ⟨id! "mm_mask_roundscale_ss", [.ptr, .ptr, .ptr, .ptr, .ptr, .int], true, id! "_mm_mask_roundscale_ss", [.m128, .mask8, .m128, .m128, .constInt], some .m128⟩,
  /- 4423 -/ ⟨id! "mm512_maskz_set1_epi32", [.ptr, .ptr, .int], true, id! "_mm512_maskz_set1_epi32", [.mask16, .int], some .m512i⟩,
  /- 5859 -/ ⟨id! "mm512_cvtusepi64_epi32", [.ptr, .ptr], false, id! "_mm512_cvtusepi64_epi32", [.m512i], some .m256i⟩,
  /- 671 -/ ⟨id! "mm512_maskz_load_epi32", [.ptr, .ptr, .ptr], false, id! "_mm512_maskz_load_epi32", [.mask16, .ptr], some .m512i⟩,
  /- 17033 -/ ⟨id! "mm512_reduce_add_epi32", [.ptr, .ptr], false, id! "_mm512_reduce_add_epi32", [.m512i], some .int⟩,
  /- 17057 -/ ⟨id! "mm512_reduce_and_epi32", [.ptr, .ptr], false, id! "_mm512_reduce_and_epi32", [.m512i], some .int⟩,
  /- 12469 -/ ⟨id! "mm512_mask_blend_epi32", [.ptr, .ptr, .ptr, .ptr], false, id! "_mm512_mask_blend_epi32", [.mask16, .m512i, .m512i], some .m512i⟩,
  /- 14793 -/ ⟨id! "mm512_mask_cvtpd_epi32", [.ptr, .ptr, .ptr, .ptr], false, id! "_mm512_mask_cvtpd_epi32", [.m256i, .mask8, .m512d], some .m256i⟩,
  /- 4359 -/ ⟨id! "mm512_broadcastd_epi32", [.ptr, .ptr], false, id! "_mm512_broadcastd_epi32", [.m128i], some .m512i⟩,
  /- 707 -/ ⟨id! "mm512_mask_store_epi32", [.ptr, .ptr, .ptr], false, id! "_mm512_mask_store_epi32", [.ptr, .mask16, .m512i], none⟩,
  /- 1595 -/ ⟨id! "mm512_maskz_srai_epi32", [.ptr, .ptr, .ptr, .int], false, id! "_mm512_maskz_srai_epi32", [.mask16, .m512i, .uint], some .m512i⟩,
  /- 1451 -/ ⟨id! "mm512_maskz_slli_epi32", [.ptr, .ptr, .ptr, .int], false, id! "_mm512_maskz_slli_epi32", [.mask16, .m512i, .uint], some .m512i⟩,
  /- 1523 -/ ⟨id! "mm512_maskz_srli_epi32", [.ptr, .ptr, .ptr, .int], false, id! "_mm512_maskz_srli_epi32", [.mask16, .m512i, .uint], some .m512i⟩,
  /- 17045 -/ ⟨id! "mm512_reduce_mul_epi32", [.ptr, .ptr], false, id! "_mm512_reduce_mul_epi32", [.m512i], some .int⟩,
  /- 17129 -/ ⟨id! "mm512_reduce_min_epi32", [.ptr, .ptr], false, id! "_mm512_reduce_min_epi32", [.m512i], some .int⟩,
  /- 743 -/ ⟨id! "mm512_mask_mullo_epi32", [.ptr, .ptr, .ptr, .ptr, .ptr], false, id! "_mm512_mask_mullo_epi32", [.m512i, .mask16, .m512i, .m512i], some .m512i⟩,
  /- 11245 -/ ⟨id! "mm512_i32scatter_epi32", [.ptr, .ptr, .ptr, .int], true, id! "_mm512_i32scatter_epi32", [.ptr, .m512i, .m512i, .int], none⟩,
  /- 11301 -/ ⟨id! "mm512_i64scatter_epi32", [.ptr, .ptr, .ptr, .int], true, id! "_mm512_i64scatter_epi32", [.ptr, .m512i, .m256i, .int], none⟩,
  /- 14937 -/ ⟨id! "mm512_mask_cvtps_epi32", [.ptr, .ptr, .ptr, .ptr], false, id! "_mm512_mask_cvtps_epi32", [.m512i, .mask16, .m512], some .m512i⟩,
  /- 6955 -/ ⟨id! "mm512_mask_loadu_epi32", [.ptr, .ptr, .ptr, .ptr], false, id! "_mm512_mask_loadu_epi32", [.m512i, .mask16, .ptr], some .m512i⟩,
  /- 839 -/ ⟨id! "mm512_maskz_srav_epi32", [.ptr, .ptr, .ptr, .ptr], false, id! "_mm512_maskz_srav_epi32", [.mask16, .m512i, .m512i], some .m512i⟩,
  /- 803 -/ ⟨id! "mm512_maskz_sllv_epi32", [.ptr, .ptr, .ptr, .ptr], false, id! "_mm512_maskz_sllv_epi32", [.mask16, .m512i, .m512i], some .m512i⟩,
  /- 4881 -/ ⟨id! "mm512_maskz_rolv_epi32", [.ptr, .ptr, .ptr, .ptr], false, id! "_mm512_maskz_rolv_epi32", [.mask16, .m512i, .m512i], some .m512i⟩,
  /- 875 -/ ⟨id! "mm512_maskz_srlv_epi32", [.ptr, .ptr, .ptr, .ptr], false, id! "_mm512_maskz_srlv_epi32", [.mask16, .m512i, .m512i], some .m512i⟩,
  /- 4917 -/ ⟨id! "mm512_maskz_rorv_epi32", [.ptr, .ptr, .ptr, .ptr], false, id! "_mm512_maskz_rorv_epi32", [.mask16, .m512i, .m512i], some .m512i⟩,
  /- 17141 -/ ⟨id! "mm512_reduce_max_epi32", [.ptr, .ptr], false, id! "_mm512_reduce_max_epi32", [.m512i], some .int⟩,
  /- 14829 -/ ⟨id! "mm512_mask_cvtpd_epu32", [.ptr, .ptr, .ptr, .ptr], false, id! "_mm512_mask_cvtpd_epu32", [.m256i, .mask8, .m512d], some .m256i⟩,
  /- 17153 -/ ⟨id! "mm512_reduce_min_epu32", [.ptr, .ptr], false, id! "_mm512_reduce_min_epu32", [.m512i], some .uint⟩,
  /- 14973 -/ ⟨id! "mm512_mask_cvtps_epu32", [.ptr, .ptr, .ptr, .ptr], false, id! "_mm512_mask_cvtps_epu32", [.m512i, .mask16, .m512], some .m512i⟩,
  /- 17165 -/ ⟨id! "mm512_reduce_max_epu32", [.ptr, .ptr], false, id! "_mm512_reduce_max_epu32", [.m512i], some .uint⟩,
  /- 4497 -/ ⟨id! "mm512_maskz_set1_epi64", [.ptr, .ptr, .int], false, id! "_mm512_maskz_set1_epi64", [.mask8, .llong], some .m512i⟩,
  /- 575 -/ ⟨id! "mm512_maskz_load_epi64", [.ptr, .ptr, .ptr], false, id! "_mm512_maskz_load_epi64", [.mask8, .ptr], some .m512i⟩,
  /- 17321 -/ ⟨id! "mm512_reduce_add_epi64", [.ptr, .ptr], false, id! "_mm512_reduce_add_epi64", [.m512i], some .llong⟩,
  /- 17345 -/ ⟨id! "mm512_reduce_and_epi64", [.ptr, .ptr], false, id! "_mm512_reduce_and_epi64", [.m512i], some .llong⟩,
  /- 12457 -/ ⟨id! "mm512_mask_blend_epi64", [.ptr, .ptr, .ptr, .ptr], false, id! "_mm512_mask_blend_epi64", [.mask8, .m512i, .m512i], some .m512i⟩,
  /- 599 -/ ⟨id! "mm512_mask_store_epi64", [.ptr, .ptr, .ptr], false, id! "_mm512_mask_store_epi64", [.ptr, .mask8, .m512i], none⟩,
  /- 1379 -/ ⟨id! "mm512_maskz_srai_epi64", [.ptr, .ptr, .ptr, .int], false, id! "_mm512_maskz_srai_epi64", [.mask8, .m512i, .uint], some .m512i⟩,
  /- 1235 -/ ⟨id! "mm512_maskz_slli_epi64", [.ptr, .ptr, .ptr, .int], false, id! "_mm512_maskz_slli_epi64", [.mask8, .m512i, .uint], some .m512i⟩,
  /- 1307 -/ ⟨id! "mm512_maskz_srli_epi64", [.ptr, .ptr, .ptr, .int], false, id! "_mm512_maskz_srli_epi64", [.mask8, .m512i, .uint], some .m512i⟩,
  /- 17333 -/ ⟨id! "mm512_reduce_mul_epi64", [.ptr, .ptr], false, id! "_mm512_reduce_mul_epi64", [.m512i], some .llong⟩,
  /- 17417 -/ ⟨id! "mm512_reduce_min_epi64", [.ptr, .ptr], false, id! "_mm512_reduce_min_epi64", [.m512i], some .llong⟩,
  /- 4437 -/ ⟨id! "mm512_broadcastq_epi64", [.ptr, .ptr], false, id! "_mm512_broadcastq_epi64", [.m128i], some .m512i⟩,
  /- 11273 -/ ⟨id! "mm512_i32scatter_epi64", [.ptr, .ptr, .ptr, .int], true, id! "_mm512_i32scatter_epi64", [.ptr, .m256i, .m512i, .int], none⟩,
  /- 11329 -/ ⟨id! "mm512_i64scatter_epi64", [.ptr, .ptr, .ptr, .int], true, id! "_mm512_i64scatter_epi64", [.ptr, .m512i, .m512i, .int], none⟩,
  /- 6883 -/ ⟨id! "mm512_mask_loadu_epi64", [.ptr, .ptr, .ptr, .ptr], false, id! "_mm512_mask_loadu_epi64", [.m512i, .mask8, .ptr], some .m512i⟩,
  /- 1019 -/ ⟨id! "mm512_maskz_srav_epi64", [.ptr, .ptr, .ptr, .ptr], false, id! "_mm512_maskz_srav_epi64", [.mask8, .m512i, .m512i], some .m512i⟩,
  /- 983 -/ ⟨id! "mm512_maskz_sllv_epi64", [.ptr, .ptr, .ptr, .ptr], false, id! "_mm512_maskz_sllv_epi64", [.mask8, .m512i, .m512i], some .m512i⟩,
  /- 4953 -/ ⟨id! "mm512_maskz_rolv_epi64", [.ptr, .ptr, .ptr, .ptr], false, id! "_mm512_maskz_rolv_epi64", [.mask8, .m512i, .m512i], some .m512i⟩,
  /- 1055 -/ ⟨id! "mm512_maskz_srlv_epi64", [.ptr, .ptr, .ptr, .ptr], false, id! "_mm512_maskz_srlv_epi64", [.mask8, .m512i, .m512i], some .m512i⟩,
  /- 4989 -/ ⟨id! "mm512_maskz_rorv_epi64", [.ptr, .ptr, .ptr, .ptr], false, id! "_mm512_maskz_rorv_epi64", [.mask8, .m512i, .m512i], some .m512i⟩,
  /- 17429 -/ ⟨id! "mm512_reduce_max_epi64", [.ptr, .ptr], false, id! "_mm512_reduce_max_epi64", [.m512i], some .llong⟩,
  /- 17465 -/ ⟨id! "mm512_reduce_min_epu64", [.ptr, .ptr], false, id! "_mm512_reduce_min_epu64", [.m512i], some .ullong⟩,
  /- 17477 -/ ⟨id! "mm512_reduce_max_epu64", [.ptr, .ptr], false, id! "_mm512_reduce_max_epu64", [.m512i], some .ullong⟩,
  /- 11927 -/ ⟨id! "mm512_mask_insertf32x4", [.ptr, .ptr, .ptr, .ptr, .ptr, .int], true, id! "_mm512_mask_insertf32x4", [.m512, .mask16, .m512, .m128, .constInt], some .m512⟩,
  /- 11913 -/ ⟨id! "mm512_mask_inserti32x4", [.ptr, .ptr, .ptr, .ptr, .ptr, .int], true, id! "_mm512_mask_inserti32x4", [.m512i, .mask16, .m512i, .m128i, .constInt], some .m512i⟩,
  /- 6603 -/ ⟨id! "mm512_mask_insertf64x4", [.ptr, .ptr, .ptr, .ptr, .ptr, .int], true, id! "_mm512_mask_insertf64x4", [.m512d, .mask8, .m512d, .m256d, .constInt], some .m512d⟩,
  /- 6561 -/ ⟨id! "mm512_mask_inserti64x4", [.ptr, .ptr, .ptr, .ptr, .ptr, .int], true, id! "_mm512_mask_inserti64x4", [.m512i, .mask8, .m512i, .m256i, .constInt], some .m512i⟩,
  /- 5715 -/ ⟨id! "mm512_cvtusepi32_epi16", [.ptr, .ptr], false, id! "_mm512_cvtusepi32_epi16", [.m512i], some .m256i⟩,
  /- 6003 -/ ⟨id! "mm512_cvtusepi64_epi16", [.ptr, .ptr], false, id! "_mm512_cvtusepi64_epi16", [.m512i], some .m128i⟩,
  /- 6207 -/ ⟨id! "mm512_mask_cvtepi32_pd", [.ptr, .ptr, .ptr, .ptr], false, id! "_mm512_mask_cvtepi32_pd", [.m512d, .mask8, .m256i], some .m512d⟩,
  /- 6243 -/ ⟨id! "mm512_mask_cvtepu32_pd", [.ptr, .ptr, .ptr, .ptr], false, id! "_mm512_mask_cvtepu32_pd", [.m512d, .mask8, .m256i], some .m512d⟩,
  /- 2063 -/ ⟨id! "mm512_maskz_rsqrt14_pd", [.ptr, .ptr, .ptr], false, id! "_mm512_maskz_rsqrt14_pd", [.mask8, .m512d], some .m512d⟩,
  /- 14337 -/ ⟨id! "mm512_mask_fmaddsub_pd", [.ptr, .ptr, .ptr, .ptr, .ptr], false, id! "_mm512_mask_fmaddsub_pd", [.m512d, .mask8, .m512d, .m512d], some .m512d⟩,
  /- 14433 -/ ⟨id! "mm512_mask_fmsubadd_pd", [.ptr, .ptr, .ptr, .ptr, .ptr], false, id! "_mm512_mask_fmsubadd_pd", [.m512d, .mask8, .m512d, .m512d], some .m512d⟩,
  /- 9675 -/ ⟨id! "mm512_getmant_round_pd", [.ptr, .ptr, .enum, .enum, .int], false, id! "_mm512_getmant_round_pd", [.m512d, .enum, .enum, .constInt], some .m512d⟩,
  /- 7659 -/ ⟨id! "mm512_maskz_shuffle_pd", [.ptr, .ptr, .ptr, .ptr, .int], true, id! "_mm512_maskz_shuffle_pd", [.mask8, .m512d, .m512d, .constInt], some .m512d⟩,
  /- 7307 -/ ⟨id! "mm512_maskz_permute_pd", [.ptr, .ptr, .ptr, .int], true, id! "_mm512_maskz_permute_pd", [.mask8, .m512d, .constInt], some .m512d⟩,
  /- 9121 -/ ⟨id! "mm512_mask_unpackhi_pd", [.ptr, .ptr, .ptr, .ptr, .ptr], false, id! "_mm512_mask_unpackhi_pd", [.m512d, .mask8, .m512d, .m512d], some .m512d⟩,
  /- 15143 -/ ⟨id! "mm512_mask_fixupimm_pd", [.ptr, .ptr, .ptr, .ptr, .ptr, .int], true, id! "_mm512_mask_fixupimm_pd", [.m512d, .mask8, .m512d, .m512i, .constInt], some .m512d⟩,
  /- 9085 -/ ⟨id! "mm512_mask_unpacklo_pd", [.ptr, .ptr, .ptr, .ptr, .ptr], false, id! "_mm512_mask_unpacklo_pd", [.m512d, .mask8, .m512d, .m512d], some .m512d⟩,
  /- 9061 -/ ⟨id! "mm512_maskz_movedup_pd", [.ptr, .ptr, .ptr], false, id! "_mm512_maskz_movedup_pd", [.mask8, .m512d], some .m512d⟩,
  /- 11357 -/ ⟨id! "mm512_mask_compress_pd", [.ptr, .ptr, .ptr, .ptr], false, id! "_mm512_mask_compress_pd", [.m512d, .mask8, .m512d], some .m512d⟩,
  /- 15833 -/ ⟨id! "mm512_maskz_getmant_pd", [.ptr, .ptr, .ptr, .enum, .enum], true, id! "_mm512_maskz_getmant_pd", [.mask8, .m512d, .enum, .enum], some .m512d⟩,
  /- 7419 -/ ⟨id! "mm512_mask_permutex_pd", [.ptr, .ptr, .ptr, .ptr, .int], true, id! "_mm512_mask_permutex_pd", [.m512d, .mask8, .m512d, .constInt], some .m512d⟩,
  /- 12965 -/ ⟨id! "mm_mask_fmsub_round_sd", [.ptr, .ptr, .ptr, .ptr, .ptr, .int], true, id! "_mm_mask_fmsub_round_sd", [.m128d, .mask8, .m128d, .m128d, .constInt], some .m128d⟩,
  /- 12881 -/ ⟨id! "mm_mask_fmadd_round_sd", [.ptr, .ptr, .ptr, .ptr, .ptr, .int], true, id! "_mm_mask_fmadd_round_sd", [.m128d, .mask8, .m128d, .m128d, .constInt], some .m128d⟩,
  /- 9955 -/ ⟨id! "mm_roundscale_round_sd", [.ptr, .ptr, .ptr, .int, .int], true, id! "_mm_roundscale_round_sd", [.m128d, .m128d, .constInt, .constInt], some .m128d⟩,
  /- 2295 -/ ⟨id! "mm_maskz_sqrt_round_sd", [.ptr, .ptr, .ptr, .ptr, .int], true, id! "_mm_maskz_sqrt_round_sd", [.mask8, .m128d, .m128d, .constInt], some .m128d⟩,
  /- 16127 -/ ⟨id! "mm_maskz_roundscale_sd", [.ptr, .ptr, .ptr, .ptr, .int], true, id! "_mm_maskz_roundscale_sd", [.mask8, .m128d, .m128d, .constInt], some .m128d⟩,
  /- 9447 -/ ⟨id! "mm_mask_cvt_roundss_sd", [.ptr, .ptr, .ptr, .ptr, .ptr, .int], true, id! "_mm_mask_cvt_roundss_sd", [.m128d, .mask8, .m128d, .m128, .constInt], some .m128d⟩,
  /- 10273 -/ ⟨id! "mm512_cmpge_epi32_mask", [.ptr, .ptr, .ptr], false, id! "_mm512_cmpge_epi32_mask", [.m512i, .m512i], some .mask16⟩,
  /- 10381 -/ ⟨id! "mm512_cmple_epi32_mask", [.ptr, .ptr, .ptr], false, id! "_mm512_cmple_epi32_mask", [.m512i, .m512i], some .mask16⟩,
  /- 8461 -/ ⟨id! "mm512_testn_epi32_mask", [.ptr, .ptr, .ptr], false, id! "_mm512_testn_epi32_mask", [.m512i, .m512i], some .mask16⟩,
  /- 10177 -/ ⟨id! "mm512_cmpeq_epi32_mask", [.ptr, .ptr, .ptr], false, id! "_mm512_cmpeq_epi32_mask", [.m512i, .m512i], some .mask16⟩,
  /- 10225 -/ ⟨id! "mm512_cmpgt_epi32_mask", [.ptr, .ptr, .ptr], false, id! "_mm512_cmpgt_epi32_mask", [.m512i, .m512i], some .mask16⟩,
  /- 10477 -/ ⟨id! "mm512_cmplt_epi32_mask", [.ptr, .ptr, .ptr], false, id! "_mm512_cmplt_epi32_mask", [.m512i, .m512i], some .mask16⟩,
  /- 10309 -/ ⟨id! "mm512_cmpge_epu32_mask", [.ptr, .ptr, .ptr], false, id! "_mm512_cmpge_epu32_mask", [.m512i, .m512i], some .mask16⟩,
  /- 10405 -/ ⟨id! "mm512_cmple_epu32_mask", [.ptr, .ptr, .ptr], false, id! "_mm512_cmple_epu32_mask", [.m512i, .m512i], some .mask16⟩,
  /- 16937 -/ ⟨id! "mm512_cmpeq_epu32_mask", [.ptr, .ptr, .ptr], false, id! "_mm512_cmpeq_epu32_mask", [.m512i, .m512i], some .mask16⟩,
  /- 16985 -/ ⟨id! "mm512_cmpgt_epu32_mask", [.ptr, .ptr, .ptr], false, id! "_mm512_cmpgt_epu32_mask", [.m512i, .m512i], some .mask16⟩,
  /- 10501 -/ ⟨id! "mm512_cmplt_epu32_mask", [.ptr, .ptr, .ptr], false, id! "_mm512_cmplt_epu32_mask", [.m512i, .m512i], some .mask16⟩,
  /- 10333 -/ ⟨id! "mm512_cmpge_epi64_mask", [.ptr, .ptr, .ptr], false, id! "_mm512_cmpge_epi64_mask", [.m512i, .m512i], some .mask8⟩,
  /- 10429 -/ ⟨id! "mm512_cmple_epi64_mask", [.ptr, .ptr, .ptr], false, id! "_mm512_cmple_epi64_mask", [.m512i, .m512i], some .mask8⟩,
  /- 8485 -/ ⟨id! "mm512_testn_epi64_mask", [.ptr, .ptr, .ptr], false, id! "_mm512_testn_epi64_mask", [.m512i, .m512i], some .mask8⟩,
  /- 10213 -/ ⟨id! "mm512_cmpeq_epi64_mask", [.ptr, .ptr, .ptr], false, id! "_mm512_cmpeq_epi64_mask", [.m512i, .m512i], some .mask8⟩,
  /- 10261 -/ ⟨id! "mm512_cmpgt_epi64_mask", [.ptr, .ptr, .ptr], false, id! "_mm512_cmpgt_epi64_mask", [.m512i, .m512i], some .mask8⟩,
  /- 10525 -/ ⟨id! "mm512_cmplt_epi64_mask", [.ptr, .ptr, .ptr], false, id! "_mm512_cmplt_epi64_mask", [.m512i, .m512i], some .mask8⟩,
  /- 10357 -/ ⟨id! "mm512_cmpge_epu64_mask", [.ptr, .ptr, .ptr], false, id! "_mm512_cmpge_epu64_mask", [.m512i, .m512i], some .mask8⟩,
  /- 10453 -/ ⟨id! "mm512_cmple_epu64_mask", [.ptr, .ptr, .ptr], false, id! "_mm512_cmple_epu64_mask", [.m512i, .m512i], some .mask8⟩,
  /- 16973 -/ ⟨id! "mm512_cmpeq_epu64_mask", [.ptr, .ptr, .ptr], false, id! "_mm512_cmpeq_epu64_mask", [.m512i, .m512i], some .mask8⟩,
  /- 17021 -/ ⟨id! "mm512_cmpgt_epu64_mask", [.ptr, .ptr, .ptr], false, id! "_mm512_cmpgt_epu64_mask", [.m512i, .m512i], some .mask8⟩,
  /- 10549 -/ ⟨id! "mm512_cmplt_epu64_mask", [.ptr, .ptr, .ptr], false, id! "_mm512_cmplt_epu64_mask", [.m512i, .m512i], some .mask8⟩,
  /- 16325 -/ ⟨id! "mm512_cmpunord_pd_mask", [.ptr, .ptr, .ptr], false, id! "_mm512_cmpunord_pd_mask", [.m512d, .m512d], some .mask8⟩,
  /- 16183 -/ ⟨id! "mm512_mask_cmp_pd_mask", [.ptr, .ptr, .ptr, .ptr, .int], true, id! "_mm512_mask_cmp_pd_mask", [.mask8, .m512d, .m512d, .constInt], some .mask8⟩,
  /- 16517 -/ ⟨id! "mm512_cmpunord_ps_mask", [.ptr, .ptr, .ptr], false, id! "_mm512_cmpunord_ps_mask", [.m512, .m512], some .mask16⟩,
  /- 16169 -/ ⟨id! "mm512_mask_cmp_ps_mask", [.ptr, .ptr, .ptr, .ptr, .int], true, id! "_mm512_mask_cmp_ps_mask", [.mask16, .m512, .m512, .constInt], some .mask16⟩,
  /- 15069 -/ ⟨id! "mm512_mask_cvtepi32_ps", [.ptr, .ptr, .ptr, .ptr], false, id! "_mm512_mask_cvtepi32_ps", [.m512, .mask16, .m512i], some .m512⟩,
  /- 15105 -/ ⟨id! "mm512_mask_cvtepu32_ps", [.ptr, .ptr, .ptr, .ptr], false, id! "_mm512_mask_cvtepu32_ps", [.m512, .mask16, .m512i], some .m512⟩,
  /- 2099 -/ ⟨id! "mm512_maskz_rsqrt14_ps", [.ptr, .ptr, .ptr], false, id! "_mm512_maskz_rsqrt14_ps", [.mask16, .m512], some .m512⟩,
  /- 14385 -/ ⟨id! "mm512_mask_fmaddsub_ps", [.ptr, .ptr, .ptr, .ptr, .ptr], false, id! "_mm512_mask_fmaddsub_ps", [.m512, .mask16, .m512, .m512], some .m512⟩,
  /- 14481 -/ ⟨id! "mm512_mask_fmsubadd_ps", [.ptr, .ptr, .ptr, .ptr, .ptr], false, id! "_mm512_mask_fmsubadd_ps", [.m512, .mask16, .m512, .m512], some .m512⟩,
  /- 9711 -/ ⟨id! "mm512_getmant_round_ps", [.ptr, .ptr, .enum, .enum, .int], false, id! "_mm512_getmant_round_ps", [.m512, .enum, .enum, .constInt], some .m512⟩,
  /- 7619 -/ ⟨id! "mm512_maskz_shuffle_ps", [.ptr, .ptr, .ptr, .ptr, .int], false, id! "_mm512_maskz_shuffle_ps", [.mask16, .m512, .m512, .constInt], some .m512⟩,
  /- 7349 -/ ⟨id! "mm512_maskz_permute_ps", [.ptr, .ptr, .ptr, .int], true, id! "_mm512_maskz_permute_ps", [.mask16, .m512, .constInt], some .m512⟩,
  /- 9157 -/ ⟨id! "mm512_mask_unpackhi_ps", [.ptr, .ptr, .ptr, .ptr, .ptr], false, id! "_mm512_mask_unpackhi_ps", [.m512, .mask16, .m512, .m512], some .m512⟩,
  /- 15185 -/ ⟨id! "mm512_mask_fixupimm_ps", [.ptr, .ptr, .ptr, .ptr, .ptr, .int], true, id! "_mm512_mask_fixupimm_ps", [.m512, .mask16, .m512, .m512i, .constInt], some .m512⟩,
  /- 12241 -/ ⟨id! "mm512_mask_unpacklo_ps", [.ptr, .ptr, .ptr, .ptr, .ptr], false, id! "_mm512_mask_unpacklo_ps", [.m512, .mask16, .m512, .m512], some .m512⟩,
  /- 7853 -/ ⟨id! "mm512_mask_movehdup_ps", [.ptr, .ptr, .ptr, .ptr], false, id! "_mm512_mask_movehdup_ps", [.m512, .mask16, .m512], some .m512⟩,
  /- 7889 -/ ⟨id! "mm512_mask_moveldup_ps", [.ptr, .ptr, .ptr, .ptr], false, id! "_mm512_mask_moveldup_ps", [.m512, .mask16, .m512], some .m512⟩,
  /- 11393 -/ ⟨id! "mm512_mask_compress_ps", [.ptr, .ptr, .ptr, .ptr], false, id! "_mm512_mask_compress_ps", [.m512, .mask16, .m512], some .m512⟩,
  /- 15875 -/ ⟨id! "mm512_maskz_getmant_ps", [.ptr, .ptr, .ptr, .enum, .enum], true, id! "_mm512_maskz_getmant_ps", [.mask16, .m512, .enum, .enum], some .m512⟩,
  /- 12979 -/ ⟨id! "mm_mask_fmsub_round_ss", [.ptr, .ptr, .ptr, .ptr, .ptr, .int], true, id! "_mm_mask_fmsub_round_ss", [.m128, .mask8, .m128, .m128, .constInt], some .m128⟩,
  /- 12895 -/ ⟨id! "mm_mask_fmadd_round_ss", [.ptr, .ptr, .ptr, .ptr, .ptr, .int], true, id! "_mm_mask_fmadd_round_ss", [.m128, .mask8, .m128, .m128, .constInt], some .m128⟩,
  /- 9913 -/ ⟨id! "mm_roundscale_round_ss", [.ptr, .ptr, .ptr, .int, .int], true, id! "_mm_roundscale_round_ss", [.m128, .m128, .constInt, .constInt], some .m128⟩,
  /- 2337 -/ ⟨id! "mm_maskz_sqrt_round_ss", [.ptr, .ptr, .ptr, .ptr, .int], true, id! "_mm_maskz_sqrt_round_ss", [.mask8, .m128, .m128, .constInt], some .m128⟩,
  /- 9405 -/ ⟨id! "mm_mask_cvt_roundsd_ss", [.ptr, .ptr, .ptr, .ptr, .ptr, .int], true, id! "_mm_mask_cvt_roundsd_ss", [.m128, .mask8, .m128, .m128d, .constInt], some .m128⟩,
  /- 16085 -/ ⟨id! "mm_maskz_roundscale_ss", [.ptr, .ptr, .ptr, .ptr, .int], true, id! "_mm_maskz_roundscale_ss", [.mask8, .m128, .m128, .constInt], some .m128⟩,
  /- 9511 -/ ⟨id! "mm512_stream_load_si512", [.ptr, .ptr], false, id! "_mm512_stream_load_si512", [.ptr], some .m512i⟩,
  /- 11645 -/ ⟨id! "mm512_mask_expand_epi32", [.ptr, .ptr, .ptr, .ptr], false, id! "_mm512_mask_expand_epi32", [.m512i, .mask16, .m512i], some .m512i⟩,
  /- 5085 -/ ⟨id! "mm512_cvt_roundpd_epi32", [.ptr, .ptr, .int], true, id! "_mm512_cvt_roundpd_epi32", [.m512d, .constInt], some .m256i⟩,
  /- 14721 -/ ⟨id! "mm512_mask_cvttpd_epi32", [.ptr, .ptr, .ptr, .ptr], false, id! "_mm512_mask_cvttpd_epi32", [.m256i, .mask8, .m512d], some .m256i⟩,
  /- 14805 -/ ⟨id! "mm512_maskz_cvtpd_epi32", [.ptr, .ptr, .ptr], false, id! "_mm512_maskz_cvtpd_epi32", [.mask8, .m512d], some .m256i⟩,
  /- 731 -/ ⟨id! "mm512_maskz_mullo_epi32", [.ptr, .ptr, .ptr, .ptr], false, id! "_mm512_maskz_mullo_epi32", [.mask16, .m512i, .m512i], some .m512i⟩,
  /- 7495 -/ ⟨id! "mm512_permutexvar_epi32", [.ptr, .ptr, .ptr], false, id! "_mm512_permutexvar_epi32", [.m512i, .m512i], some .m512i⟩,
  /- 10107 -/ ⟨id! "mm512_mask_alignr_epi32", [.ptr, .ptr, .ptr, .ptr, .ptr, .int], true, id! "_mm512_mask_alignr_epi32", [.m512i, .mask16, .m512i, .m512i, .constInt], some .m512i⟩,
  /- 5253 -/ ⟨id! "mm512_cvt_roundps_epi32", [.ptr, .ptr, .int], true, id! "_mm512_cvt_roundps_epi32", [.m512, .constInt], some .m512i⟩,
  /- 14865 -/ ⟨id! "mm512_mask_cvttps_epi32", [.ptr, .ptr, .ptr, .ptr], false, id! "_mm512_mask_cvttps_epi32", [.m512i, .mask16, .m512], some .m512i⟩,
  /- 14949 -/ ⟨id! "mm512_maskz_cvtps_epi32", [.ptr, .ptr, .ptr], false, id! "_mm512_maskz_cvtps_epi32", [.mask16, .m512], some .m512i⟩,
  /- 8353 -/ ⟨id! "mm512_mask_andnot_epi32", [.ptr, .ptr, .ptr, .ptr, .ptr], false, id! "_mm512_mask_andnot_epi32", [.m512i, .mask16, .m512i, .m512i], some .m512i⟩,
  /- 6967 -/ ⟨id! "mm512_maskz_loadu_epi32", [.ptr, .ptr, .ptr], false, id! "_mm512_maskz_loadu_epi32", [.mask16, .ptr], some .m512i⟩,
  /- 7003 -/ ⟨id! "mm512_mask_storeu_epi32", [.ptr, .ptr, .ptr], false, id! "_mm512_mask_storeu_epi32", [.ptr, .mask16, .m512i], none⟩,
  /- 5127 -/ ⟨id! "mm512_cvt_roundpd_epu32", [.ptr, .ptr, .int], true, id! "_mm512_cvt_roundpd_epu32", [.m512d, .constInt], some .m256i⟩,
  /- 14757 -/ ⟨id! "mm512_mask_cvttpd_epu32", [.ptr, .ptr, .ptr, .ptr], false, id! "_mm512_mask_cvttpd_epu32", [.m256i, .mask8, .m512d], some .m256i⟩,
  /- 14841 -/ ⟨id! "mm512_maskz_cvtpd_epu32", [.ptr, .ptr, .ptr], false, id! "_mm512_maskz_cvtpd_epu32", [.mask8, .m512d], some .m256i⟩,
  /- 5295 -/ ⟨id! "mm512_cvt_roundps_epu32", [.ptr, .ptr, .int], true, id! "_mm512_cvt_roundps_epu32", [.m512, .constInt], some .m512i⟩,
  /- 14901 -/ ⟨id! "mm512_mask_cvttps_epu32", [.ptr, .ptr, .ptr, .ptr], false, id! "_mm512_mask_cvttps_epu32", [.m512i, .mask16, .m512], some .m512i⟩,
  /- 14985 -/ ⟨id! "mm512_maskz_cvtps_epu32", [.ptr, .ptr, .ptr], false, id! "_mm512_maskz_cvtps_epu32", [.mask16, .m512], some .m512i⟩,
  /- 11597 -/ ⟨id! "mm512_mask_expand_epi64", [.ptr, .ptr, .ptr, .ptr], false, id! "_mm512_mask_expand_epi64", [.m512i, .mask8, .m512i], some .m512i⟩,
  /- 7459 -/ ⟨id! "mm512_permutexvar_epi64", [.ptr, .ptr, .ptr], false, id! "_mm512_permutexvar_epi64", [.m512i, .m512i], some .m512i⟩,
  /- 10149 -/ ⟨id! "mm512_mask_alignr_epi64", [.ptr, .ptr, .ptr, .ptr, .ptr, .int], true, id! "_mm512_mask_alignr_epi64", [.m512i, .mask8, .m512i, .m512i, .constInt], some .m512i⟩,
  /- 8389 -/ ⟨id! "mm512_mask_andnot_epi64", [.ptr, .ptr, .ptr, .ptr, .ptr], false, id! "_mm512_mask_andnot_epi64", [.m512i, .mask8, .m512i, .m512i], some .m512i⟩,
  /- 6895 -/ ⟨id! "mm512_maskz_loadu_epi64", [.ptr, .ptr, .ptr], false, id! "_mm512_maskz_loadu_epi64", [.mask8, .ptr], some .m512i⟩,
  /- 6919 -/ ⟨id! "mm512_mask_storeu_epi64", [.ptr, .ptr, .ptr], false, id! "_mm512_mask_storeu_epi64", [.ptr, .mask8, .m512i], none⟩,
  /- 767 -/ ⟨id! "mm512_mask_mullox_epi64", [.ptr, .ptr, .ptr, .ptr, .ptr], false, id! "_mm512_mask_mullox_epi64", [.m512i, .mask8, .m512i, .m512i], some .m512i⟩,
  /- 11899 -/ ⟨id! "mm512_maskz_insertf32x4", [.ptr, .ptr, .ptr, .ptr, .int], true, id! "_mm512_maskz_insertf32x4", [.mask16, .m512, .m128, .constInt], some .m512⟩,
  /- 11885 -/ ⟨id! "mm512_maskz_inserti32x4", [.ptr, .ptr, .ptr, .ptr, .int], true, id! "_mm512_maskz_inserti32x4", [.mask16, .m512i, .m128i, .constInt], some .m512i⟩,
  /- 6617 -/ ⟨id! "mm512_maskz_insertf64x4", [.ptr, .ptr, .ptr, .ptr, .int], true, id! "_mm512_maskz_insertf64x4", [.mask8, .m512d, .m256d, .constInt], some .m512d⟩,
  /- 6575 -/ ⟨id! "mm512_maskz_inserti64x4", [.ptr, .ptr, .ptr, .ptr, .int], true, id! "_mm512_maskz_inserti64x4", [.mask8, .m512i, .m256i, .constInt], some .m512i⟩,
  /- 6219 -/ ⟨id! "mm512_maskz_cvtepi32_pd", [.ptr, .ptr, .ptr], false, id! "_mm512_maskz_cvtepi32_pd", [.mask8, .m256i], some .m512d⟩,
  /- 6255 -/ ⟨id! "mm512_maskz_cvtepu32_pd", [.ptr, .ptr, .ptr], false, id! "_mm512_maskz_cvtepu32_pd", [.mask8, .m256i], some .m512d⟩,
  /- 14349 -/ ⟨id! "mm512_mask3_fmaddsub_pd", [.ptr, .ptr, .ptr, .ptr, .ptr], false, id! "_mm512_mask3_fmaddsub_pd", [.m512d, .m512d, .m512d, .mask8], some .m512d⟩,
  /- 14361 -/ ⟨id! "mm512_maskz_fmaddsub_pd", [.ptr, .ptr, .ptr, .ptr, .ptr], false, id! "_mm512_maskz_fmaddsub_pd", [.mask8, .m512d, .m512d, .m512d], some .m512d⟩,
  /- 14445 -/ ⟨id! "mm512_mask3_fmsubadd_pd", [.ptr, .ptr, .ptr, .ptr, .ptr], false, id! "_mm512_mask3_fmsubadd_pd", [.m512d, .m512d, .m512d, .mask8], some .m512d⟩,
  /- 14457 -/ ⟨id! "mm512_maskz_fmsubadd_pd", [.ptr, .ptr, .ptr, .ptr, .ptr], false, id! "_mm512_maskz_fmsubadd_pd", [.mask8, .m512d, .m512d, .m512d], some .m512d⟩,
  /- 2807 -/ ⟨id! "mm512_mask_sub_round_pd", [.ptr, .ptr, .ptr, .ptr, .ptr, .int], true, id! "_mm512_mask_sub_round_pd", [.m512d, .mask8, .m512d, .m512d, .constInt], some .m512d⟩,
  /- 3767 -/ ⟨id! "mm512_fmaddsub_round_pd", [.ptr, .ptr, .ptr, .ptr, .int], true, id! "_mm512_fmaddsub_round_pd", [.m512d, .m512d, .m512d, .constInt], some .m512d⟩,
  /- 2723 -/ ⟨id! "mm512_mask_add_round_pd", [.ptr, .ptr, .ptr, .ptr, .ptr, .int], true, id! "_mm512_mask_add_round_pd", [.m512d, .mask8, .m512d, .m512d, .constInt], some .m512d⟩,
  /- 3879 -/ ⟨id! "mm512_fmsubadd_round_pd", [.ptr, .ptr, .ptr, .ptr, .int], true, id! "_mm512_fmsubadd_round_pd", [.m512d, .m512d, .m512d, .constInt], some .m512d⟩,
  /- 2889 -/ ⟨id! "mm512_mask_mul_round_pd", [.ptr, .ptr, .ptr, .ptr, .ptr, .int], true, id! "_mm512_mask_mul_round_pd", [.m512d, .mask8, .m512d, .m512d, .constInt], some .m512d⟩,
  /- 7673 -/ ⟨id! "mm512_fixupimm_round_pd", [.ptr, .ptr, .ptr, .ptr, .int, .int], true, id! "_mm512_fixupimm_round_pd", [.m512d, .m512d, .m512i, .constInt, .constInt], some .m512d⟩,
  /- 3305 -/ ⟨id! "mm512_mask_min_round_pd", [.ptr, .ptr, .ptr, .ptr, .ptr, .int], true, id! "_mm512_mask_min_round_pd", [.m512d, .mask8, .m512d, .m512d, .constInt], some .m512d⟩,
  /- 2969 -/ ⟨id! "mm512_mask_div_round_pd", [.ptr, .ptr, .ptr, .ptr, .ptr, .int], true, id! "_mm512_mask_div_round_pd", [.m512d, .mask8, .m512d, .m512d, .constInt], some .m512d⟩,
  /- 3221 -/ ⟨id! "mm512_mask_max_round_pd", [.ptr, .ptr, .ptr, .ptr, .ptr, .int], true, id! "_mm512_mask_max_round_pd", [.m512d, .mask8, .m512d, .m512d, .constInt], some .m512d⟩,
  /- 9133 -/ ⟨id! "mm512_maskz_unpackhi_pd", [.ptr, .ptr, .ptr, .ptr], false, id! "_mm512_maskz_unpackhi_pd", [.mask8, .m512d, .m512d], some .m512d⟩,
  /- 15157 -/ ⟨id! "mm512_maskz_fixupimm_pd", [.ptr, .ptr, .ptr, .ptr, .ptr, .int], true, id! "_mm512_maskz_fixupimm_pd", [.mask8, .m512d, .m512d, .m512i, .constInt], some .m512d⟩,
  /- 9097 -/ ⟨id! "mm512_maskz_unpacklo_pd", [.ptr, .ptr, .ptr, .ptr], false, id! "_mm512_maskz_unpacklo_pd", [.mask8, .m512d, .m512d], some .m512d⟩,
  /- 10951 -/ ⟨id! "mm512_mask_i32gather_pd", [.ptr, .ptr, .ptr, .ptr, .ptr, .int], true, id! "_mm512_mask_i32gather_pd", [.m512d, .mask8, .m256i, .ptr, .int], some .m512d⟩,
  /- 11007 -/ ⟨id! "mm512_mask_i64gather_pd", [.ptr, .ptr, .ptr, .ptr, .ptr, .int], true, id! "_mm512_mask_i64gather_pd", [.m512d, .mask8, .m512i, .ptr, .int], some .m512d⟩,
  /- 11369 -/ ⟨id! "mm512_maskz_compress_pd", [.ptr, .ptr, .ptr], false, id! "_mm512_maskz_compress_pd", [.mask8, .m512d], some .m512d⟩,
  /- 7433 -/ ⟨id! "mm512_maskz_permutex_pd", [.ptr, .ptr, .ptr, .int], true, id! "_mm512_maskz_permutex_pd", [.mask8, .m512d, .constInt], some .m512d⟩,
  /- 12993 -/ ⟨id! "mm_mask3_fmsub_round_sd", [.ptr, .ptr, .ptr, .ptr, .ptr, .int], true, id! "_mm_mask3_fmsub_round_sd", [.m128d, .m128d, .m128d, .mask8, .constInt], some .m128d⟩,
  /- 13021 -/ ⟨id! "mm_maskz_fmsub_round_sd", [.ptr, .ptr, .ptr, .ptr, .ptr, .int], true, id! "_mm_maskz_fmsub_round_sd", [.mask8, .m128d, .m128d, .m128d, .constInt], some .m128d⟩,
  /- 13133 -/ ⟨id! "mm_mask_fnmsub_round_sd", [.ptr, .ptr, .ptr, .ptr, .ptr, .int], true, id! "_mm_mask_fnmsub_round_sd", [.m128d, .mask8, .m128d, .m128d, .constInt], some .m128d⟩,
  /- 12909 -/ ⟨id! "mm_mask3_fmadd_round_sd", [.ptr, .ptr, .ptr, .ptr, .ptr, .int], true, id! "_mm_mask3_fmadd_round_sd", [.m128d, .m128d, .m128d, .mask8, .constInt], some .m128d⟩,
  /- 12937 -/ ⟨id! "mm_maskz_fmadd_round_sd", [.ptr, .ptr, .ptr, .ptr, .ptr, .int], true, id! "_mm_maskz_fmadd_round_sd", [.mask8, .m128d, .m128d, .m128d, .constInt], some .m128d⟩,
  /- 13049 -/ ⟨id! "mm_mask_fnmadd_round_sd", [.ptr, .ptr, .ptr, .ptr, .ptr, .int], true, id! "_mm_mask_fnmadd_round_sd", [.m128d, .mask8, .m128d, .m128d, .constInt], some .m128d⟩,
  /- 3473 -/ ⟨id! "mm_mask_scalef_round_sd", [.ptr, .ptr, .ptr, .ptr, .ptr, .int], true, id! "_mm_mask_scalef_round_sd", [.m128d, .mask8, .m128d, .m128d, .constInt], some .m128d⟩,
  /- 9571 -/ ⟨id! "mm_mask_getexp_round_sd", [.ptr, .ptr, .ptr, .ptr, .ptr, .int], false, id! "_mm_mask_getexp_round_sd", [.m128d, .mask8, .m128d, .m128d, .constInt], some .m128d⟩,
  /- 9461 -/ ⟨id! "mm_maskz_cvt_roundss_sd", [.ptr, .ptr, .ptr, .ptr, .int], true, id! "_mm_maskz_cvt_roundss_sd", [.mask8, .m128d, .m128, .constInt], some .m128d⟩,
  /- 10561 -/ ⟨id! "mm512_cmpneq_epi32_mask", [.ptr, .ptr, .ptr], false, id! "_mm512_cmpneq_epi32_mask", [.m512i, .m512i], some .mask16⟩,
  /- 10597 -/ ⟨id! "mm512_cmpneq_epu32_mask", [.ptr, .ptr, .ptr], false, id! "_mm512_cmpneq_epu32_mask", [.m512i, .m512i], some .mask16⟩,
  /- 10621 -/ ⟨id! "mm512_cmpneq_epi64_mask", [.ptr, .ptr, .ptr], false, id! "_mm512_cmpneq_epi64_mask", [.m512i, .m512i], some .mask8⟩,
  /- 10645 -/ ⟨id! "mm512_cmpneq_epu64_mask", [.ptr, .ptr, .ptr], false, id! "_mm512_cmpneq_epu64_mask", [.m512i, .m512i], some .mask8⟩,
  /- 10741 -/ ⟨id! "mm512_cmp_round_pd_mask", [.ptr, .ptr, .ptr, .int, .int], true, id! "_mm512_cmp_round_pd_mask", [.m512d, .m512d, .constInt, .constInt], some .mask8⟩,
  /- 10755 -/ ⟨id! "mm512_cmp_round_ps_mask", [.ptr, .ptr, .ptr, .int, .int], true, id! "_mm512_cmp_round_ps_mask", [.m512, .m512, .constInt, .constInt], some .mask16⟩,
  /- 6267 -/ ⟨id! "mm512_cvt_roundepi32_ps", [.ptr, .ptr, .int], true, id! "_mm512_cvt_roundepi32_ps", [.m512i, .constInt], some .m512⟩,
  /- 15081 -/ ⟨id! "mm512_maskz_cvtepi32_ps", [.ptr, .ptr, .ptr], false, id! "_mm512_maskz_cvtepi32_ps", [.mask16, .m512i], some .m512⟩,
  /- 6309 -/ ⟨id! "mm512_cvt_roundepu32_ps", [.ptr, .ptr, .int], true, id! "_mm512_cvt_roundepu32_ps", [.m512i, .constInt], some .m512⟩,
  /- 15117 -/ ⟨id! "mm512_maskz_cvtepu32_ps", [.ptr, .ptr, .ptr], false, id! "_mm512_maskz_cvtepu32_ps", [.mask16, .m512i], some .m512⟩,
  /- 14397 -/ ⟨id! "mm512_mask3_fmaddsub_ps", [.ptr, .ptr, .ptr, .ptr, .ptr], false, id! "_mm512_mask3_fmaddsub_ps", [.m512, .m512, .m512, .mask16], some .m512⟩,
  /- 14409 -/ ⟨id! "mm512_maskz_fmaddsub_ps", [.ptr, .ptr, .ptr, .ptr, .ptr], false, id! "_mm512_maskz_fmaddsub_ps", [.mask16, .m512, .m512, .m512], some .m512⟩,
  /- 14493 -/ ⟨id! "mm512_mask3_fmsubadd_ps", [.ptr, .ptr, .ptr, .ptr, .ptr], false, id! "_mm512_mask3_fmsubadd_ps", [.m512, .m512, .m512, .mask16], some .m512⟩,
  /- 14505 -/ ⟨id! "mm512_maskz_fmsubadd_ps", [.ptr, .ptr, .ptr, .ptr, .ptr], false, id! "_mm512_maskz_fmsubadd_ps", [.mask16, .m512, .m512, .m512], some .m512⟩,
  /- 2847 -/ ⟨id! "mm512_mask_sub_round_ps", [.ptr, .ptr, .ptr, .ptr, .ptr, .int], true, id! "_mm512_mask_sub_round_ps", [.m512, .mask16, .m512, .m512, .constInt], some .m512⟩,
  /- 3823 -/ ⟨id! "mm512_fmaddsub_round_ps", [.ptr, .ptr, .ptr, .ptr, .int], true, id! "_mm512_fmaddsub_round_ps", [.m512, .m512, .m512, .constInt], some .m512⟩,
  /- 2765 -/ ⟨id! "mm512_mask_add_round_ps", [.ptr, .ptr, .ptr, .ptr, .ptr, .int], true, id! "_mm512_mask_add_round_ps", [.m512, .mask16, .m512, .m512, .constInt], some .m512⟩,
  /- 3935 -/ ⟨id! "mm512_fmsubadd_round_ps", [.ptr, .ptr, .ptr, .ptr, .int], true, id! "_mm512_fmsubadd_round_ps", [.m512, .m512, .m512, .constInt], some .m512⟩,
  /- 2929 -/ ⟨id! "mm512_mask_mul_round_ps", [.ptr, .ptr, .ptr, .ptr, .ptr, .int], true, id! "_mm512_mask_mul_round_ps", [.m512, .mask16, .m512, .m512, .constInt], some .m512⟩,
  /- 7715 -/ ⟨id! "mm512_fixupimm_round_ps", [.ptr, .ptr, .ptr, .ptr, .int, .int], true, id! "_mm512_fixupimm_round_ps", [.m512, .m512, .m512i, .constInt, .constInt], some .m512⟩,
  /- 3347 -/ ⟨id! "mm512_mask_min_round_ps", [.ptr, .ptr, .ptr, .ptr, .ptr, .int], true, id! "_mm512_mask_min_round_ps", [.m512, .mask16, .m512, .m512, .constInt], some .m512⟩,
  /- 3011 -/ ⟨id! "mm512_mask_div_round_ps", [.ptr, .ptr, .ptr, .ptr, .ptr, .int], true, id! "_mm512_mask_div_round_ps", [.m512, .mask16, .m512, .m512, .constInt], some .m512⟩,
  /- 3263 -/ ⟨id! "mm512_mask_max_round_ps", [.ptr, .ptr, .ptr, .ptr, .ptr, .int], true, id! "_mm512_mask_max_round_ps", [.m512, .mask16, .m512, .m512, .constInt], some .m512⟩,
  /- 9169 -/ ⟨id! "mm512_maskz_unpackhi_ps", [.ptr, .ptr, .ptr, .ptr], false, id! "_mm512_maskz_unpackhi_ps", [.mask16, .m512, .m512], some .m512⟩,
  /- 15199 -/ ⟨id! "mm512_maskz_fixupimm_ps", [.ptr, .ptr, .ptr, .ptr, .ptr, .int], true, id! "_mm512_maskz_fixupimm_ps", [.mask16, .m512, .m512, .m512i, .constInt], some .m512⟩,
  /- 12253 -/ ⟨id! "mm512_maskz_unpacklo_ps", [.ptr, .ptr, .ptr, .ptr], false, id! "_mm512_maskz_unpacklo_ps", [.mask16, .m512, .m512], some .m512⟩,
  /- 7865 -/ ⟨id! "mm512_maskz_movehdup_ps", [.ptr, .ptr, .ptr], false, id! "_mm512_maskz_movehdup_ps", [.mask16, .m512], some .m512⟩,
  /- 7901 -/ ⟨id! "mm512_maskz_moveldup_ps", [.ptr, .ptr, .ptr], false, id! "_mm512_maskz_moveldup_ps", [.mask16, .m512], some .m512⟩,
  /- 10923 -/ ⟨id! "mm512_mask_i32gather_ps", [.ptr, .ptr, .ptr, .ptr, .ptr, .int], true, id! "_mm512_mask_i32gather_ps", [.m512, .mask16, .m512i, .ptr, .int], some .m512⟩,
  /- 10979 -/ ⟨id! "mm512_mask_i64gather_ps", [.ptr, .ptr, .ptr, .ptr, .ptr, .int], true, id! "_mm512_mask_i64gather_ps", [.m256, .mask8, .m512i, .ptr, .int], some .m256⟩,
  /- 11405 -/ ⟨id! "mm512_maskz_compress_ps", [.ptr, .ptr, .ptr], false, id! "_mm512_maskz_compress_ps", [.mask16, .m512], some .m512⟩,
  /- 13007 -/ ⟨id! "mm_mask3_fmsub_round_ss", [.ptr, .ptr, .ptr, .ptr, .ptr, .int], true, id! "_mm_mask3_fmsub_round_ss", [.m128, .m128, .m128, .mask8, .constInt], some .m128⟩,
  /- 13035 -/ ⟨id! "mm_maskz_fmsub_round_ss", [.ptr, .ptr, .ptr, .ptr, .ptr, .int], true, id! "_mm_maskz_fmsub_round_ss", [.mask8, .m128, .m128, .m128, .constInt], some .m128⟩,
  /- 13147 -/ ⟨id! "mm_mask_fnmsub_round_ss", [.ptr, .ptr, .ptr, .ptr, .ptr, .int], true, id! "_mm_mask_fnmsub_round_ss", [.m128, .mask8, .m128, .m128, .constInt], some .m128⟩,
  /- 12923 -/ ⟨id! "mm_mask3_fmadd_round_ss", [.ptr, .ptr, .ptr, .ptr, .ptr, .int], true, id! "_mm_mask3_fmadd_round_ss", [.m128, .m128, .m128, .mask8, .constInt], some .m128⟩,
  /- 12951 -/ ⟨id! "mm_maskz_fmadd_round_ss", [.ptr, .ptr, .ptr, .ptr, .ptr, .int], true, id! "_mm_maskz_fmadd_round_ss", [.mask8, .m128, .m128, .m128, .constInt], some .m128⟩,
  /- 13063 -/ ⟨id! "mm_mask_fnmadd_round_ss", [.ptr, .ptr, .ptr, .ptr, .ptr, .int], true, id! "_mm_mask_fnmadd_round_ss", [.m128, .mask8, .m128, .m128, .constInt], some .m128⟩,
  /- 3515 -/ ⟨id! "mm_mask_scalef_round_ss", [.ptr, .ptr, .ptr, .ptr, .ptr, .int], true, id! "_mm_mask_scalef_round_ss", [.m128, .mask8, .m128, .m128, .constInt], some .m128⟩,
  /- 9535 -/ ⟨id! "mm_mask_getexp_round_ss", [.ptr, .ptr, .ptr, .ptr, .ptr, .int], false, id! "_mm_mask_getexp_round_ss", [.m128, .mask8, .m128, .m128, .constInt], some .m128⟩,
  /- 9419 -/ ⟨id! "mm_maskz_cvt_roundsd_ss", [.ptr, .ptr, .ptr, .ptr, .int], true, id! "_mm_maskz_cvt_roundsd_ss", [.mask8, .m128, .m128d, .constInt], some .m128⟩,
  /- 6477 -/ ⟨id! "mm512_extracti32x4_epi32", [.ptr, .ptr, .int], true, id! "_mm512_extracti32x4_epi32", [.m512i, .constInt], some .m128i⟩,
  /- 2363 -/ ⟨id! "mm512_mask_cvtepi8_epi32", [.ptr, .ptr, .ptr, .ptr], false, id! "_mm512_mask_cvtepi8_epi32", [.m512i, .mask16, .m128i], some .m512i⟩,
  /- 2543 -/ ⟨id! "mm512_mask_cvtepu8_epi32", [.ptr, .ptr, .ptr, .ptr], false, id! "_mm512_mask_cvtepu8_epi32", [.m512i, .mask16, .m128i], some .m512i⟩,
  /- 1853 -/ ⟨id! "mm512_ternarylogic_epi32", [.ptr, .ptr, .ptr, .ptr, .int], true, id! "_mm512_ternarylogic_epi32", [.m512i, .m512i, .m512i, .constInt], some .m512i⟩,
  /- 11657 -/ ⟨id! "mm512_maskz_expand_epi32", [.ptr, .ptr, .ptr], false, id! "_mm512_maskz_expand_epi32", [.mask16, .m512i], some .m512i⟩,
  /- 5001 -/ ⟨id! "mm512_cvtt_roundpd_epi32", [.ptr, .ptr, .int], true, id! "_mm512_cvtt_roundpd_epi32", [.m512d, .constInt], some .m256i⟩,
  /- 14733 -/ ⟨id! "mm512_maskz_cvttpd_epi32", [.ptr, .ptr, .ptr], false, id! "_mm512_maskz_cvttpd_epi32", [.mask8, .m512d], some .m256i⟩,
  /- 4665 -/ ⟨id! "mm512_mask_shuffle_epi32", [.ptr, .ptr, .ptr, .ptr, .enum], false, id! "_mm512_mask_shuffle_epi32", [.m512i, .mask16, .m512i, .enum], some .m512i⟩,
  /- 7135 -/ ⟨id! "mm512_permutex2var_epi32", [.ptr, .ptr, .ptr, .ptr], false, id! "_mm512_permutex2var_epi32", [.m512i, .m512i, .m512i], some .m512i⟩,
  /- 10121 -/ ⟨id! "mm512_maskz_alignr_epi32", [.ptr, .ptr, .ptr, .ptr, .int], true, id! "_mm512_maskz_alignr_epi32", [.mask16, .m512i, .m512i, .constInt], some .m512i⟩,
  /- 5169 -/ ⟨id! "mm512_cvtt_roundps_epi32", [.ptr, .ptr, .int], true, id! "_mm512_cvtt_roundps_epi32", [.m512, .constInt], some .m512i⟩,
  /- 14877 -/ ⟨id! "mm512_maskz_cvttps_epi32", [.ptr, .ptr, .ptr], false, id! "_mm512_maskz_cvttps_epi32", [.mask16, .m512], some .m512i⟩,
  /- 8365 -/ ⟨id! "mm512_maskz_andnot_epi32", [.ptr, .ptr, .ptr, .ptr], false, id! "_mm512_maskz_andnot_epi32", [.mask16, .m512i, .m512i], some .m512i⟩,
  /- 5043 -/ ⟨id! "mm512_cvtt_roundpd_epu32", [.ptr, .ptr, .int], true, id! "_mm512_cvtt_roundpd_epu32", [.m512d, .constInt], some .m256i⟩,
  /- 14769 -/ ⟨id! "mm512_maskz_cvttpd_epu32", [.ptr, .ptr, .ptr], false, id! "_mm512_maskz_cvttpd_epu32", [.mask8, .m512d], some .m256i⟩,
  /- 5211 -/ ⟨id! "mm512_cvtt_roundps_epu32", [.ptr, .ptr, .int], true, id! "_mm512_cvtt_roundps_epu32", [.m512, .constInt], some .m512i⟩,
  /- 14913 -/ ⟨id! "mm512_maskz_cvttps_epu32", [.ptr, .ptr, .ptr], false, id! "_mm512_maskz_cvttps_epu32", [.mask16, .m512], some .m512i⟩,
  /- 4787 -/ ⟨id! "mm512_mask_shuffle_f64x2", [.ptr, .ptr, .ptr, .ptr, .ptr, .int], true, id! "_mm512_mask_shuffle_f64x2", [.m512d, .mask8, .m512d, .m512d, .constInt], some .m512d⟩,
  /- 4703 -/ ⟨id! "mm512_mask_shuffle_i64x2", [.ptr, .ptr, .ptr, .ptr, .ptr, .int], true, id! "_mm512_mask_shuffle_i64x2", [.m512i, .mask8, .m512i, .m512i, .constInt], some .m512i⟩,
  /- 6435 -/ ⟨id! "mm512_extracti64x4_epi64", [.ptr, .ptr, .int], true, id! "_mm512_extracti64x4_epi64", [.m512i, .constInt], some .m256i⟩,
  /- 2399 -/ ⟨id! "mm512_mask_cvtepi8_epi64", [.ptr, .ptr, .ptr, .ptr], false, id! "_mm512_mask_cvtepi8_epi64", [.m512i, .mask8, .m128i], some .m512i⟩,
  /- 2579 -/ ⟨id! "mm512_mask_cvtepu8_epi64", [.ptr, .ptr, .ptr, .ptr], false, id! "_mm512_mask_cvtepu8_epi64", [.m512i, .mask8, .m128i], some .m512i⟩,
  /- 1811 -/ ⟨id! "mm512_ternarylogic_epi64", [.ptr, .ptr, .ptr, .ptr, .int], true, id! "_mm512_ternarylogic_epi64", [.m512i, .m512i, .m512i, .constInt], some .m512i⟩,
  /- 11609 -/ ⟨id! "mm512_maskz_expand_epi64", [.ptr, .ptr, .ptr], false, id! "_mm512_maskz_expand_epi64", [.mask8, .m512i], some .m512i⟩,
  /- 7087 -/ ⟨id! "mm512_permutex2var_epi64", [.ptr, .ptr, .ptr, .ptr], false, id! "_mm512_permutex2var_epi64", [.m512i, .m512i, .m512i], some .m512i⟩,
  /- 10163 -/ ⟨id! "mm512_maskz_alignr_epi64", [.ptr, .ptr, .ptr, .ptr, .int], true, id! "_mm512_maskz_alignr_epi64", [.mask8, .m512i, .m512i, .constInt], some .m512i⟩,
  /- 8401 -/ ⟨id! "mm512_maskz_andnot_epi64", [.ptr, .ptr, .ptr, .ptr], false, id! "_mm512_maskz_andnot_epi64", [.mask8, .m512i, .m512i], some .m512i⟩,
  /- 4829 -/ ⟨id! "mm512_mask_shuffle_f32x4", [.ptr, .ptr, .ptr, .ptr, .ptr, .int], true, id! "_mm512_mask_shuffle_f32x4", [.m512, .mask16, .m512, .m512, .constInt], some .m512⟩,
  /- 4745 -/ ⟨id! "mm512_mask_shuffle_i32x4", [.ptr, .ptr, .ptr, .ptr, .ptr, .int], true, id! "_mm512_mask_shuffle_i32x4", [.m512i, .mask16, .m512i, .m512i, .constInt], some .m512i⟩,
  /- 5499 -/ ⟨id! "mm512_mask_cvtepi32_epi8", [.ptr, .ptr, .ptr, .ptr], false, id! "_mm512_mask_cvtepi32_epi8", [.m128i, .mask16, .m512i], some .m128i⟩,
  /- 6075 -/ ⟨id! "mm512_mask_cvtepi64_epi8", [.ptr, .ptr, .ptr, .ptr], false, id! "_mm512_mask_cvtepi64_epi8", [.m128i, .mask8, .m512i], some .m128i⟩,
  /- 17537 -/ ⟨id! "mm512_mask_reduce_add_pd", [.ptr, .ptr, .ptr], false, id! "_mm512_mask_reduce_add_pd", [.mask8, .m512d], some .double⟩,
  /- 2821 -/ ⟨id! "mm512_maskz_sub_round_pd", [.ptr, .ptr, .ptr, .ptr, .int], true, id! "_mm512_maskz_sub_round_pd", [.mask8, .m512d, .m512d, .constInt], some .m512d⟩,
  /- 2737 -/ ⟨id! "mm512_maskz_add_round_pd", [.ptr, .ptr, .ptr, .ptr, .int], true, id! "_mm512_maskz_add_round_pd", [.mask8, .m512d, .m512d, .constInt], some .m512d⟩,
  /- 2903 -/ ⟨id! "mm512_maskz_mul_round_pd", [.ptr, .ptr, .ptr, .ptr, .int], true, id! "_mm512_maskz_mul_round_pd", [.mask8, .m512d, .m512d, .constInt], some .m512d⟩,
  /- 3319 -/ ⟨id! "mm512_maskz_min_round_pd", [.ptr, .ptr, .ptr, .ptr, .int], true, id! "_mm512_maskz_min_round_pd", [.mask8, .m512d, .m512d, .constInt], some .m512d⟩,
  /- 2197 -/ ⟨id! "mm512_mask_sqrt_round_pd", [.ptr, .ptr, .ptr, .ptr, .int], true, id! "_mm512_mask_sqrt_round_pd", [.m512d, .mask8, .m512d, .constInt], some .m512d⟩,
  /- 2983 -/ ⟨id! "mm512_maskz_div_round_pd", [.ptr, .ptr, .ptr, .ptr, .int], true, id! "_mm512_maskz_div_round_pd", [.mask8, .m512d, .m512d, .constInt], some .m512d⟩,
  /- 3235 -/ ⟨id! "mm512_maskz_max_round_pd", [.ptr, .ptr, .ptr, .ptr, .int], true, id! "_mm512_maskz_max_round_pd", [.mask8, .m512d, .m512d, .constInt], some .m512d⟩,
  /- 16029 -/ ⟨id! "mm512_mask_roundscale_pd", [.ptr, .ptr, .ptr, .ptr, .int], true, id! "_mm512_mask_roundscale_pd", [.m512d, .mask8, .m512d, .constInt], some .m512d⟩,
  /- 17549 -/ ⟨id! "mm512_mask_reduce_mul_pd", [.ptr, .ptr, .ptr], false, id! "_mm512_mask_reduce_mul_pd", [.mask8, .m512d], some .double⟩,
  /- 17585 -/ ⟨id! "mm512_mask_reduce_min_pd", [.ptr, .ptr, .ptr], false, id! "_mm512_mask_reduce_min_pd", [.mask8, .m512d], some .double⟩,
  /- 7027 -/ ⟨id! "mm512_mask_permutevar_pd", [.ptr, .ptr, .ptr, .ptr, .ptr], false, id! "_mm512_mask_permutevar_pd", [.m512d, .mask8, .m512d, .m512i], some .m512d⟩,
  /- 11175 -/ ⟨id! "mm512_mask_i32scatter_pd", [.ptr, .ptr, .ptr, .ptr, .int], true, id! "_mm512_mask_i32scatter_pd", [.ptr, .mask8, .m256i, .m512d, .int], none⟩,
  /- 11231 -/ ⟨id! "mm512_mask_i64scatter_pd", [.ptr, .ptr, .ptr, .ptr, .int], true, id! "_mm512_mask_i64scatter_pd", [.ptr, .mask8, .m512i, .m512d, .int], none⟩,
  /- 13161 -/ ⟨id! "mm_mask3_fnmsub_round_sd", [.ptr, .ptr, .ptr, .ptr, .ptr, .int], true, id! "_mm_mask3_fnmsub_round_sd", [.m128d, .m128d, .m128d, .mask8, .constInt], some .m128d⟩,
  /- 13189 -/ ⟨id! "mm_maskz_fnmsub_round_sd", [.ptr, .ptr, .ptr, .ptr, .ptr, .int], true, id! "_mm_maskz_fnmsub_round_sd", [.mask8, .m128d, .m128d, .m128d, .constInt], some .m128d⟩,
  /- 13077 -/ ⟨id! "mm_mask3_fnmadd_round_sd", [.ptr, .ptr, .ptr, .ptr, .ptr, .int], true, id! "_mm_mask3_fnmadd_round_sd", [.m128d, .m128d, .m128d, .mask8, .constInt], some .m128d⟩,
  /- 13105 -/ ⟨id! "mm_maskz_fnmadd_round_sd", [.ptr, .ptr, .ptr, .ptr, .ptr, .int], true, id! "_mm_maskz_fnmadd_round_sd", [.mask8, .m128d, .m128d, .m128d, .constInt], some .m128d⟩,
  /- 3487 -/ ⟨id! "mm_maskz_scalef_round_sd", [.ptr, .ptr, .ptr, .ptr, .int], true, id! "_mm_maskz_scalef_round_sd", [.mask8, .m128d, .m128d, .constInt], some .m128d⟩,
  /- 9583 -/ ⟨id! "mm_maskz_getexp_round_sd", [.ptr, .ptr, .ptr, .ptr, .int], false, id! "_mm_maskz_getexp_round_sd", [.mask8, .m128d, .m128d, .constInt], some .m128d⟩,
  /- 9759 -/ ⟨id! "mm_mask_getmant_round_sd", [.ptr, .ptr, .ptr, .ptr, .ptr, .enum, .enum, .int], true, id! "_mm_mask_getmant_round_sd", [.m128d, .mask8, .m128d, .m128d, .enum, .enum, .constInt], some .m128d⟩,
  /- 16313 -/ ⟨id! "mm512_mask_cmple_pd_mask", [.ptr, .ptr, .ptr, .ptr], false, id! "_mm512_mask_cmple_pd_mask", [.mask8, .m512d, .m512d], some .mask8⟩,
  /- 16265 -/ ⟨id! "mm512_mask_cmpeq_pd_mask", [.ptr, .ptr, .ptr, .ptr], false, id! "_mm512_mask_cmpeq_pd_mask", [.mask8, .m512d, .m512d], some .mask8⟩,
  /- 16289 -/ ⟨id! "mm512_mask_cmplt_pd_mask", [.ptr, .ptr, .ptr, .ptr], false, id! "_mm512_mask_cmplt_pd_mask", [.mask8, .m512d, .m512d], some .mask8⟩,
  /- 16505 -/ ⟨id! "mm512_mask_cmple_ps_mask", [.ptr, .ptr, .ptr, .ptr], false, id! "_mm512_mask_cmple_ps_mask", [.mask16, .m512, .m512], some .mask16⟩,
  /- 16457 -/ ⟨id! "mm512_mask_cmpeq_ps_mask", [.ptr, .ptr, .ptr, .ptr], false, id! "_mm512_mask_cmpeq_ps_mask", [.mask16, .m512, .m512], some .mask16⟩,
  /- 16481 -/ ⟨id! "mm512_mask_cmplt_ps_mask", [.ptr, .ptr, .ptr, .ptr], false, id! "_mm512_mask_cmplt_ps_mask", [.mask16, .m512, .m512], some .mask16⟩,
  /- 17249 -/ ⟨id! "mm512_mask_reduce_add_ps", [.ptr, .ptr, .ptr], false, id! "_mm512_mask_reduce_add_ps", [.mask16, .m512], some .float⟩,
  /- 2861 -/ ⟨id! "mm512_maskz_sub_round_ps", [.ptr, .ptr, .ptr, .ptr, .int], true, id! "_mm512_maskz_sub_round_ps", [.mask16, .m512, .m512, .constInt], some .m512⟩,
  /- 2779 -/ ⟨id! "mm512_maskz_add_round_ps", [.ptr, .ptr, .ptr, .ptr, .int], true, id! "_mm512_maskz_add_round_ps", [.mask16, .m512, .m512, .constInt], some .m512⟩,
  /- 2943 -/ ⟨id! "mm512_maskz_mul_round_ps", [.ptr, .ptr, .ptr, .ptr, .int], true, id! "_mm512_maskz_mul_round_ps", [.mask16, .m512, .m512, .constInt], some .m512⟩,
  /- 3361 -/ ⟨id! "mm512_maskz_min_round_ps", [.ptr, .ptr, .ptr, .ptr, .int], true, id! "_mm512_maskz_min_round_ps", [.mask16, .m512, .m512, .constInt], some .m512⟩,
  /- 2239 -/ ⟨id! "mm512_mask_sqrt_round_ps", [.ptr, .ptr, .ptr, .ptr, .int], true, id! "_mm512_mask_sqrt_round_ps", [.m512, .mask16, .m512, .constInt], some .m512⟩,
  /- 3025 -/ ⟨id! "mm512_maskz_div_round_ps", [.ptr, .ptr, .ptr, .ptr, .int], true, id! "_mm512_maskz_div_round_ps", [.mask16, .m512, .m512, .constInt], some .m512⟩,
  /- 3277 -/ ⟨id! "mm512_maskz_max_round_ps", [.ptr, .ptr, .ptr, .ptr, .int], true, id! "_mm512_maskz_max_round_ps", [.mask16, .m512, .m512, .constInt], some .m512⟩,
  /- 15987 -/ ⟨id! "mm512_mask_roundscale_ps", [.ptr, .ptr, .ptr, .ptr, .int], true, id! "_mm512_mask_roundscale_ps", [.m512, .mask16, .m512, .constInt], some .m512⟩,
  /- 17261 -/ ⟨id! "mm512_mask_reduce_mul_ps", [.ptr, .ptr, .ptr], false, id! "_mm512_mask_reduce_mul_ps", [.mask16, .m512], some .float⟩,
  /- 17297 -/ ⟨id! "mm512_mask_reduce_min_ps", [.ptr, .ptr, .ptr], false, id! "_mm512_mask_reduce_min_ps", [.mask16, .m512], some .float⟩,
  /- 7063 -/ ⟨id! "mm512_mask_permutevar_ps", [.ptr, .ptr, .ptr, .ptr, .ptr], false, id! "_mm512_mask_permutevar_ps", [.m512, .mask16, .m512, .m512i], some .m512⟩,
  /- 11147 -/ ⟨id! "mm512_mask_i32scatter_ps", [.ptr, .ptr, .ptr, .ptr, .int], true, id! "_mm512_mask_i32scatter_ps", [.ptr, .mask16, .m512i, .m512, .int], none⟩,
  /- 11203 -/ ⟨id! "mm512_mask_i64scatter_ps", [.ptr, .ptr, .ptr, .ptr, .int], true, id! "_mm512_mask_i64scatter_ps", [.ptr, .mask8, .m512i, .m256, .int], none⟩,
  /- 17309 -/ ⟨id! "mm512_mask_reduce_max_ps", [.ptr, .ptr, .ptr], false, id! "_mm512_mask_reduce_max_ps", [.mask16, .m512], some .float⟩,
  /- 13175 -/ ⟨id! "mm_mask3_fnmsub_round_ss", [.ptr, .ptr, .ptr, .ptr, .ptr, .int], true, id! "_mm_mask3_fnmsub_round_ss", [.m128, .m128, .m128, .mask8, .constInt], some .m128⟩,
  /- 13203 -/ ⟨id! "mm_maskz_fnmsub_round_ss", [.ptr, .ptr, .ptr, .ptr, .ptr, .int], true, id! "_mm_maskz_fnmsub_round_ss", [.mask8, .m128, .m128, .m128, .constInt], some .m128⟩,
  /- 13091 -/ ⟨id! "mm_mask3_fnmadd_round_ss", [.ptr, .ptr, .ptr, .ptr, .ptr, .int], true, id! "_mm_mask3_fnmadd_round_ss", [.m128, .m128, .m128, .mask8, .constInt], some .m128⟩,
  /- 13119 -/ ⟨id! "mm_maskz_fnmadd_round_ss", [.ptr, .ptr, .ptr, .ptr, .ptr, .int], true, id! "_mm_maskz_fnmadd_round_ss", [.mask8, .m128, .m128, .m128, .constInt], some .m128⟩,
  /- 3529 -/ ⟨id! "mm_maskz_scalef_round_ss", [.ptr, .ptr, .ptr, .ptr, .int], true, id! "_mm_maskz_scalef_round_ss", [.mask8, .m128, .m128, .constInt], some .m128⟩,
  /- 9547 -/ ⟨id! "mm_maskz_getexp_round_ss", [.ptr, .ptr, .ptr, .ptr, .int], false, id! "_mm_maskz_getexp_round_ss", [.mask8, .m128, .m128, .constInt], some .m128⟩,
  /- 9801 -/ ⟨id! "mm_mask_getmant_round_ss", [.ptr, .ptr, .ptr, .ptr, .ptr, .enum, .enum, .int], true, id! "_mm_mask_getmant_round_ss", [.m128, .mask8, .m128, .m128, .enum, .enum, .constInt], some .m128⟩,
  /- 5787 -/ ⟨id! "mm512_mask_cvtepi64_epi32", [.ptr, .ptr, .ptr, .ptr], false, id! "_mm512_mask_cvtepi64_epi32", [.m256i, .mask8, .m512i], some .m256i⟩,
  /- 2435 -/ ⟨id! "mm512_mask_cvtepi16_epi32", [.ptr, .ptr, .ptr, .ptr], false, id! "_mm512_mask_cvtepi16_epi32", [.m512i, .mask16, .m256i], some .m512i⟩,
  /- 2615 -/ ⟨id! "mm512_mask_cvtepu16_epi32", [.ptr, .ptr, .ptr, .ptr], false, id! "_mm512_mask_cvtepu16_epi32", [.m512i, .mask16, .m256i], some .m512i⟩,
  /- 2375 -/ ⟨id! "mm512_maskz_cvtepi8_epi32", [.ptr, .ptr, .ptr], false, id! "_mm512_maskz_cvtepi8_epi32", [.mask16, .m128i], some .m512i⟩,
  /- 2555 -/ ⟨id! "mm512_maskz_cvtepu8_epi32", [.ptr, .ptr, .ptr], false, id! "_mm512_maskz_cvtepu8_epi32", [.mask16, .m128i], some .m512i⟩,
  /- 4677 -/ ⟨id! "mm512_maskz_shuffle_epi32", [.ptr, .ptr, .ptr, .enum], false, id! "_mm512_maskz_shuffle_epi32", [.mask16, .m512i, .enum], some .m512i⟩,
  /- 8569 -/ ⟨id! "mm512_mask_unpackhi_epi32", [.ptr, .ptr, .ptr, .ptr, .ptr], false, id! "_mm512_mask_unpackhi_epi32", [.m512i, .mask16, .m512i, .m512i], some .m512i⟩,
  /- 8641 -/ ⟨id! "mm512_mask_unpacklo_epi32", [.ptr, .ptr, .ptr, .ptr, .ptr], false, id! "_mm512_mask_unpacklo_epi32", [.m512i, .mask16, .m512i, .m512i], some .m512i⟩,
  /- 11465 -/ ⟨id! "mm512_mask_compress_epi32", [.ptr, .ptr, .ptr, .ptr], false, id! "_mm512_mask_compress_epi32", [.m512i, .mask16, .m512i], some .m512i⟩,
  /- 4801 -/ ⟨id! "mm512_maskz_shuffle_f64x2", [.ptr, .ptr, .ptr, .ptr, .int], true, id! "_mm512_maskz_shuffle_f64x2", [.mask8, .m512d, .m512d, .constInt], some .m512d⟩,
  /- 4717 -/ ⟨id! "mm512_maskz_shuffle_i64x2", [.ptr, .ptr, .ptr, .ptr, .int], true, id! "_mm512_maskz_shuffle_i64x2", [.mask8, .m512i, .m512i, .constInt], some .m512i⟩,
  /- 2507 -/ ⟨id! "mm512_mask_cvtepi32_epi64", [.ptr, .ptr, .ptr, .ptr], false, id! "_mm512_mask_cvtepi32_epi64", [.m512i, .mask8, .m256i], some .m512i⟩,
  /- 2687 -/ ⟨id! "mm512_mask_cvtepu32_epi64", [.ptr, .ptr, .ptr, .ptr], false, id! "_mm512_mask_cvtepu32_epi64", [.m512i, .mask8, .m256i], some .m512i⟩,
  /- 2471 -/ ⟨id! "mm512_mask_cvtepi16_epi64", [.ptr, .ptr, .ptr, .ptr], false, id! "_mm512_mask_cvtepi16_epi64", [.m512i, .mask8, .m128i], some .m512i⟩,
  /- 2651 -/ ⟨id! "mm512_mask_cvtepu16_epi64", [.ptr, .ptr, .ptr, .ptr], false, id! "_mm512_mask_cvtepu16_epi64", [.m512i, .mask8, .m128i], some .m512i⟩,
  /- 2411 -/ ⟨id! "mm512_maskz_cvtepi8_epi64", [.ptr, .ptr, .ptr], false, id! "_mm512_maskz_cvtepi8_epi64", [.mask8, .m128i], some .m512i⟩,
  /- 2591 -/ ⟨id! "mm512_maskz_cvtepu8_epi64", [.ptr, .ptr, .ptr], false, id! "_mm512_maskz_cvtepu8_epi64", [.mask8, .m128i], some .m512i⟩,
  /- 8605 -/ ⟨id! "mm512_mask_unpackhi_epi64", [.ptr, .ptr, .ptr, .ptr, .ptr], false, id! "_mm512_mask_unpackhi_epi64", [.m512i, .mask8, .m512i, .m512i], some .m512i⟩,
  /- 8677 -/ ⟨id! "mm512_mask_unpacklo_epi64", [.ptr, .ptr, .ptr, .ptr, .ptr], false, id! "_mm512_mask_unpacklo_epi64", [.m512i, .mask8, .m512i, .m512i], some .m512i⟩,
  /- 11429 -/ ⟨id! "mm512_mask_compress_epi64", [.ptr, .ptr, .ptr, .ptr], false, id! "_mm512_mask_compress_epi64", [.m512i, .mask8, .m512i], some .m512i⟩,
  /- 7377 -/ ⟨id! "mm512_mask_permutex_epi64", [.ptr, .ptr, .ptr, .ptr, .int], true, id! "_mm512_mask_permutex_epi64", [.m512i, .mask8, .m512i, .constInt], some .m512i⟩,
  /- 4843 -/ ⟨id! "mm512_maskz_shuffle_f32x4", [.ptr, .ptr, .ptr, .ptr, .int], true, id! "_mm512_maskz_shuffle_f32x4", [.mask16, .m512, .m512, .constInt], some .m512⟩,
  /- 4759 -/ ⟨id! "mm512_maskz_shuffle_i32x4", [.ptr, .ptr, .ptr, .ptr, .int], true, id! "_mm512_maskz_shuffle_i32x4", [.mask16, .m512i, .m512i, .constInt], some .m512i⟩,
  /- 5643 -/ ⟨id! "mm512_mask_cvtepi32_epi16", [.ptr, .ptr, .ptr, .ptr], false, id! "_mm512_mask_cvtepi32_epi16", [.m256i, .mask16, .m512i], some .m256i⟩,
  /- 5931 -/ ⟨id! "mm512_mask_cvtepi64_epi16", [.ptr, .ptr, .ptr, .ptr], false, id! "_mm512_mask_cvtepi64_epi16", [.m128i, .mask8, .m512i], some .m128i⟩,
  /- 5547 -/ ⟨id! "mm512_mask_cvtsepi32_epi8", [.ptr, .ptr, .ptr, .ptr], false, id! "_mm512_mask_cvtsepi32_epi8", [.m128i, .mask16, .m512i], some .m128i⟩,
  /- 5511 -/ ⟨id! "mm512_maskz_cvtepi32_epi8", [.ptr, .ptr, .ptr], false, id! "_mm512_maskz_cvtepi32_epi8", [.mask16, .m512i], some .m128i⟩,
  /- 6123 -/ ⟨id! "mm512_mask_cvtsepi64_epi8", [.ptr, .ptr, .ptr, .ptr], false, id! "_mm512_mask_cvtsepi64_epi8", [.m128i, .mask8, .m512i], some .m128i⟩,
  /- 6087 -/ ⟨id! "mm512_maskz_cvtepi64_epi8", [.ptr, .ptr, .ptr], false, id! "_mm512_maskz_cvtepi64_epi8", [.mask8, .m512i], some .m128i⟩,
  /- 3669 -/ ⟨id! "mm512_mask_fmsub_round_pd", [.ptr, .ptr, .ptr, .ptr, .ptr, .int], true, id! "_mm512_mask_fmsub_round_pd", [.m512d, .mask8, .m512d, .m512d, .constInt], some .m512d⟩,
  /- 3557 -/ ⟨id! "mm512_mask_fmadd_round_pd", [.ptr, .ptr, .ptr, .ptr, .ptr, .int], true, id! "_mm512_mask_fmadd_round_pd", [.m512d, .mask8, .m512d, .m512d, .constInt], some .m512d⟩,
  /- 9871 -/ ⟨id! "mm512_roundscale_round_pd", [.ptr, .ptr, .int, .int], true, id! "_mm512_roundscale_round_pd", [.m512d, .constInt, .constInt], some .m512d⟩,
  /- 2211 -/ ⟨id! "mm512_maskz_sqrt_round_pd", [.ptr, .ptr, .ptr, .int], true, id! "_mm512_maskz_sqrt_round_pd", [.mask8, .m512d, .constInt], some .m512d⟩,
  /- 4335 -/ ⟨id! "mm512_mask_broadcastsd_pd", [.ptr, .ptr, .ptr, .ptr], false, id! "_mm512_mask_broadcastsd_pd", [.m512d, .mask8, .m128d], some .m512d⟩,
  /- 16043 -/ ⟨id! "mm512_maskz_roundscale_pd", [.ptr, .ptr, .ptr, .int], true, id! "_mm512_maskz_roundscale_pd", [.mask8, .m512d, .constInt], some .m512d⟩,
  /- 7039 -/ ⟨id! "mm512_maskz_permutevar_pd", [.ptr, .ptr, .ptr, .ptr], false, id! "_mm512_maskz_permutevar_pd", [.mask8, .m512d, .m512i], some .m512d⟩,
  /- 7531 -/ ⟨id! "mm512_mask_permutexvar_pd", [.ptr, .ptr, .ptr, .ptr, .ptr], false, id! "_mm512_mask_permutexvar_pd", [.m512d, .mask8, .m512i, .m512d], some .m512d⟩,
  /- 9195 -/ ⟨id! "mm512_mask_cvt_roundps_pd", [.ptr, .ptr, .ptr, .ptr, .int], true, id! "_mm512_mask_cvt_roundps_pd", [.m512d, .mask8, .m256, .constInt], some .m512d⟩,
  /- 11525 -/ ⟨id! "mm512_mask_expandloadu_pd", [.ptr, .ptr, .ptr, .ptr], false, id! "_mm512_mask_expandloadu_pd", [.m512d, .mask8, .ptr], some .m512d⟩,
  /- 7771 -/ ⟨id! "mm_mask_fixupimm_round_sd", [.ptr, .ptr, .ptr, .ptr, .ptr, .int, .int], true, id! "_mm_mask_fixupimm_round_sd", [.m128d, .mask8, .m128d, .m128i, .constInt, .constInt], some .m128d⟩,
  /- 9773 -/ ⟨id! "mm_maskz_getmant_round_sd", [.ptr, .ptr, .ptr, .ptr, .enum, .enum, .int], true, id! "_mm_maskz_getmant_round_sd", [.mask8, .m128d, .m128d, .enum, .enum, .constInt], some .m128d⟩,
  /- 9293 -/ ⟨id! "mm512_mask_cvt_roundps_ph", [.ptr, .ptr, .ptr, .ptr, .int], true, id! "_mm512_mask_cvt_roundps_ph", [.m256i, .mask16, .m512, .constInt], some .m256i⟩,
  /- 10783 -/ ⟨id! "mm512_mask_cmp_epi32_mask", [.ptr, .ptr, .ptr, .ptr, .int], true, id! "_mm512_mask_cmp_epi32_mask", [.mask16, .m512i, .m512i, .constInt], some .mask16⟩,
  /- 10811 -/ ⟨id! "mm512_mask_cmp_epu32_mask", [.ptr, .ptr, .ptr, .ptr, .int], true, id! "_mm512_mask_cmp_epu32_mask", [.mask16, .m512i, .m512i, .constInt], some .mask16⟩,
  /- 10769 -/ ⟨id! "mm512_mask_cmp_epi64_mask", [.ptr, .ptr, .ptr, .ptr, .int], true, id! "_mm512_mask_cmp_epi64_mask", [.mask8, .m512i, .m512i, .constInt], some .mask8⟩,
  /- 10797 -/ ⟨id! "mm512_mask_cmp_epu64_mask", [.ptr, .ptr, .ptr, .ptr, .int], true, id! "_mm512_mask_cmp_epu64_mask", [.mask8, .m512i, .m512i, .constInt], some .mask8⟩,
  /- 16433 -/ ⟨id! "mm512_mask_cmpord_pd_mask", [.ptr, .ptr, .ptr, .ptr], false, id! "_mm512_mask_cmpord_pd_mask", [.mask8, .m512d, .m512d], some .mask8⟩,
  /- 16409 -/ ⟨id! "mm512_mask_cmpnle_pd_mask", [.ptr, .ptr, .ptr, .ptr], false, id! "_mm512_mask_cmpnle_pd_mask", [.mask8, .m512d, .m512d], some .mask8⟩,
  /- 16361 -/ ⟨id! "mm512_mask_cmpneq_pd_mask", [.ptr, .ptr, .ptr, .ptr], false, id! "_mm512_mask_cmpneq_pd_mask", [.mask8, .m512d, .m512d], some .mask8⟩,
  /- 16385 -/ ⟨id! "mm512_mask_cmpnlt_pd_mask", [.ptr, .ptr, .ptr, .ptr], false, id! "_mm512_mask_cmpnlt_pd_mask", [.mask8, .m512d, .m512d], some .mask8⟩,
  /- 10867 -/ ⟨id! "mm_mask_cmp_round_sd_mask", [.ptr, .ptr, .ptr, .ptr, .int, .int], true, id! "_mm_mask_cmp_round_sd_mask", [.mask8, .m128d, .m128d, .constInt, .constInt], some .mask8⟩,
  /- 16625 -/ ⟨id! "mm512_mask_cmpord_ps_mask", [.ptr, .ptr, .ptr, .ptr], false, id! "_mm512_mask_cmpord_ps_mask", [.mask16, .m512, .m512], some .mask16⟩,
  /- 16601 -/ ⟨id! "mm512_mask_cmpnle_ps_mask", [.ptr, .ptr, .ptr, .ptr], false, id! "_mm512_mask_cmpnle_ps_mask", [.mask16, .m512, .m512], some .mask16⟩,
  /- 16553 -/ ⟨id! "mm512_mask_cmpneq_ps_mask", [.ptr, .ptr, .ptr, .ptr], false, id! "_mm512_mask_cmpneq_ps_mask", [.mask16, .m512, .m512], some .mask16⟩,
  /- 16577 -/ ⟨id! "mm512_mask_cmpnlt_ps_mask", [.ptr, .ptr, .ptr, .ptr], false, id! "_mm512_mask_cmpnlt_ps_mask", [.mask16, .m512, .m512], some .mask16⟩,
  /- 10895 -/ ⟨id! "mm_mask_cmp_round_ss_mask", [.ptr, .ptr, .ptr, .ptr, .int, .int], true, id! "_mm_mask_cmp_round_ss_mask", [.mask8, .m128, .m128, .constInt, .constInt], some .mask8⟩,
  /- 3725 -/ ⟨id! "mm512_mask_fmsub_round_ps", [.ptr, .ptr, .ptr, .ptr, .ptr, .int], true, id! "_mm512_mask_fmsub_round_ps", [.m512, .mask16, .m512, .m512, .constInt], some .m512⟩,
  /- 3613 -/ ⟨id! "mm512_mask_fmadd_round_ps", [.ptr, .ptr, .ptr, .ptr, .ptr, .int], true, id! "_mm512_mask_fmadd_round_ps", [.m512, .mask16, .m512, .m512, .constInt], some .m512⟩,
  /- 9829 -/ ⟨id! "mm512_roundscale_round_ps", [.ptr, .ptr, .int, .int], true, id! "_mm512_roundscale_round_ps", [.m512, .constInt, .constInt], some .m512⟩,
  /- 2253 -/ ⟨id! "mm512_maskz_sqrt_round_ps", [.ptr, .ptr, .ptr, .int], true, id! "_mm512_maskz_sqrt_round_ps", [.mask16, .m512, .constInt], some .m512⟩,
  /- 9363 -/ ⟨id! "mm512_mask_cvt_roundpd_ps", [.ptr, .ptr, .ptr, .ptr, .int], true, id! "_mm512_mask_cvt_roundpd_ps", [.m256, .mask8, .m512d, .constInt], some .m256⟩,
  /- 16001 -/ ⟨id! "mm512_maskz_roundscale_ps", [.ptr, .ptr, .ptr, .int], true, id! "_mm512_maskz_roundscale_ps", [.mask16, .m512, .constInt], some .m512⟩,
  /- 9237 -/ ⟨id! "mm512_mask_cvt_roundph_ps", [.ptr, .ptr, .ptr, .ptr, .int], true, id! "_mm512_mask_cvt_roundph_ps", [.m512, .mask16, .m256i, .constInt], some .m512⟩,
  /- 7075 -/ ⟨id! "mm512_maskz_permutevar_ps", [.ptr, .ptr, .ptr, .ptr], false, id! "_mm512_maskz_permutevar_ps", [.mask16, .m512, .m512i], some .m512⟩,
  /- 7567 -/ ⟨id! "mm512_mask_permutexvar_ps", [.ptr, .ptr, .ptr, .ptr, .ptr], false, id! "_mm512_mask_permutexvar_ps", [.m512, .mask16, .m512i, .m512], some .m512⟩,
  /- 4299 -/ ⟨id! "mm512_mask_broadcastss_ps", [.ptr, .ptr, .ptr, .ptr], false, id! "_mm512_mask_broadcastss_ps", [.m512, .mask16, .m128], some .m512⟩,
  /- 11573 -/ ⟨id! "mm512_mask_expandloadu_ps", [.ptr, .ptr, .ptr, .ptr], false, id! "_mm512_mask_expandloadu_ps", [.m512, .mask16, .ptr], some .m512⟩,
  /- 7813 -/ ⟨id! "mm_mask_fixupimm_round_ss", [.ptr, .ptr, .ptr, .ptr, .ptr, .int, .int], true, id! "_mm_mask_fixupimm_round_ss", [.m128, .mask8, .m128, .m128i, .constInt, .constInt], some .m128⟩,
  /- 9815 -/ ⟨id! "mm_maskz_getmant_round_ss", [.ptr, .ptr, .ptr, .ptr, .enum, .enum, .int], true, id! "_mm_maskz_getmant_round_ss", [.mask8, .m128, .m128, .enum, .enum, .constInt], some .m128⟩,
  /- 5835 -/ ⟨id! "mm512_mask_cvtsepi64_epi32", [.ptr, .ptr, .ptr, .ptr], false, id! "_mm512_mask_cvtsepi64_epi32", [.m256i, .mask8, .m512i], some .m256i⟩,
  /- 5799 -/ ⟨id! "mm512_maskz_cvtepi64_epi32", [.ptr, .ptr, .ptr], false, id! "_mm512_maskz_cvtepi64_epi32", [.mask8, .m512i], some .m256i⟩,
  /- 2447 -/ ⟨id! "mm512_maskz_cvtepi16_epi32", [.ptr, .ptr, .ptr], false, id! "_mm512_maskz_cvtepi16_epi32", [.mask16, .m256i], some .m512i⟩,
  /- 2627 -/ ⟨id! "mm512_maskz_cvtepu16_epi32", [.ptr, .ptr, .ptr], false, id! "_mm512_maskz_cvtepu16_epi32", [.mask16, .m256i], some .m512i⟩,
  /- 8581 -/ ⟨id! "mm512_maskz_unpackhi_epi32", [.ptr, .ptr, .ptr, .ptr], false, id! "_mm512_maskz_unpackhi_epi32", [.mask16, .m512i, .m512i], some .m512i⟩,
  /- 8653 -/ ⟨id! "mm512_maskz_unpacklo_epi32", [.ptr, .ptr, .ptr, .ptr], false, id! "_mm512_maskz_unpacklo_epi32", [.mask16, .m512i, .m512i], some .m512i⟩,
  /- 11035 -/ ⟨id! "mm512_mask_i32gather_epi32", [.ptr, .ptr, .ptr, .ptr, .ptr, .int], true, id! "_mm512_mask_i32gather_epi32", [.m512i, .mask16, .m512i, .ptr, .int], some .m512i⟩,
  /- 11091 -/ ⟨id! "mm512_mask_i64gather_epi32", [.ptr, .ptr, .ptr, .ptr, .ptr, .int], true, id! "_mm512_mask_i64gather_epi32", [.m256i, .mask8, .m512i, .ptr, .int], some .m256i⟩,
  /- 17117 -/ ⟨id! "mm512_mask_reduce_or_epi32", [.ptr, .ptr, .ptr], false, id! "_mm512_mask_reduce_or_epi32", [.mask16, .m512i], some .int⟩,
  /- 11477 -/ ⟨id! "mm512_maskz_compress_epi32", [.ptr, .ptr, .ptr], false, id! "_mm512_maskz_compress_epi32", [.mask16, .m512i], some .m512i⟩,
  /- 2519 -/ ⟨id! "mm512_maskz_cvtepi32_epi64", [.ptr, .ptr, .ptr], false, id! "_mm512_maskz_cvtepi32_epi64", [.mask8, .m256i], some .m512i⟩,
  /- 2699 -/ ⟨id! "mm512_maskz_cvtepu32_epi64", [.ptr, .ptr, .ptr], false, id! "_mm512_maskz_cvtepu32_epi64", [.mask8, .m256i], some .m512i⟩,
  /- 2483 -/ ⟨id! "mm512_maskz_cvtepi16_epi64", [.ptr, .ptr, .ptr], false, id! "_mm512_maskz_cvtepi16_epi64", [.mask8, .m128i], some .m512i⟩,
  /- 2663 -/ ⟨id! "mm512_maskz_cvtepu16_epi64", [.ptr, .ptr, .ptr], false, id! "_mm512_maskz_cvtepu16_epi64", [.mask8, .m128i], some .m512i⟩,
  /- 8617 -/ ⟨id! "mm512_maskz_unpackhi_epi64", [.ptr, .ptr, .ptr, .ptr], false, id! "_mm512_maskz_unpackhi_epi64", [.mask8, .m512i, .m512i], some .m512i⟩,
  /- 8689 -/ ⟨id! "mm512_maskz_unpacklo_epi64", [.ptr, .ptr, .ptr, .ptr], false, id! "_mm512_maskz_unpacklo_epi64", [.mask8, .m512i, .m512i], some .m512i⟩,
  /- 11063 -/ ⟨id! "mm512_mask_i32gather_epi64", [.ptr, .ptr, .ptr, .ptr, .ptr, .int], true, id! "_mm512_mask_i32gather_epi64", [.m512i, .mask8, .m256i, .ptr, .int], some .m512i⟩,
  /- 11119 -/ ⟨id! "mm512_mask_i64gather_epi64", [.ptr, .ptr, .ptr, .ptr, .ptr, .int], true, id! "_mm512_mask_i64gather_epi64", [.m512i, .mask8, .m512i, .ptr, .int], some .m512i⟩,
  /- 17405 -/ ⟨id! "mm512_mask_reduce_or_epi64", [.ptr, .ptr, .ptr], false, id! "_mm512_mask_reduce_or_epi64", [.mask8, .m512i], some .llong⟩,
  /- 11441 -/ ⟨id! "mm512_maskz_compress_epi64", [.ptr, .ptr, .ptr], false, id! "_mm512_maskz_compress_epi64", [.mask8, .m512i], some .m512i⟩,
  /- 7391 -/ ⟨id! "mm512_maskz_permutex_epi64", [.ptr, .ptr, .ptr, .int], true, id! "_mm512_maskz_permutex_epi64", [.mask8, .m512i, .constInt], some .m512i⟩,
  /- 4521 -/ ⟨id! "mm512_mask_broadcast_f32x4", [.ptr, .ptr, .ptr, .ptr], false, id! "_mm512_mask_broadcast_f32x4", [.m512, .mask16, .m128], some .m512⟩,
  /- 4557 -/ ⟨id! "mm512_mask_broadcast_i32x4", [.ptr, .ptr, .ptr, .ptr], false, id! "_mm512_mask_broadcast_i32x4", [.m512i, .mask16, .m128i], some .m512i⟩,
  /- 4593 -/ ⟨id! "mm512_mask_broadcast_f64x4", [.ptr, .ptr, .ptr, .ptr], false, id! "_mm512_mask_broadcast_f64x4", [.m512d, .mask8, .m256d], some .m512d⟩,
  /- 4629 -/ ⟨id! "mm512_mask_broadcast_i64x4", [.ptr, .ptr, .ptr, .ptr], false, id! "_mm512_mask_broadcast_i64x4", [.m512i, .mask8, .m256i], some .m512i⟩,
  /- 5691 -/ ⟨id! "mm512_mask_cvtsepi32_epi16", [.ptr, .ptr, .ptr, .ptr], false, id! "_mm512_mask_cvtsepi32_epi16", [.m256i, .mask16, .m512i], some .m256i⟩,
  /- 5655 -/ ⟨id! "mm512_maskz_cvtepi32_epi16", [.ptr, .ptr, .ptr], false, id! "_mm512_maskz_cvtepi32_epi16", [.mask16, .m512i], some .m256i⟩,
  /- 5979 -/ ⟨id! "mm512_mask_cvtsepi64_epi16", [.ptr, .ptr, .ptr, .ptr], false, id! "_mm512_mask_cvtsepi64_epi16", [.m128i, .mask8, .m512i], some .m128i⟩,
  /- 5943 -/ ⟨id! "mm512_maskz_cvtepi64_epi16", [.ptr, .ptr, .ptr], false, id! "_mm512_maskz_cvtepi64_epi16", [.mask8, .m512i], some .m128i⟩,
  /- 5559 -/ ⟨id! "mm512_maskz_cvtsepi32_epi8", [.ptr, .ptr, .ptr], false, id! "_mm512_maskz_cvtsepi32_epi8", [.mask16, .m512i], some .m128i⟩,
  /- 5595 -/ ⟨id! "mm512_mask_cvtusepi32_epi8", [.ptr, .ptr, .ptr, .ptr], false, id! "_mm512_mask_cvtusepi32_epi8", [.m128i, .mask16, .m512i], some .m128i⟩,
  /- 6135 -/ ⟨id! "mm512_maskz_cvtsepi64_epi8", [.ptr, .ptr, .ptr], false, id! "_mm512_maskz_cvtsepi64_epi8", [.mask8, .m512i], some .m128i⟩,
  /- 6171 -/ ⟨id! "mm512_mask_cvtusepi64_epi8", [.ptr, .ptr, .ptr, .ptr], false, id! "_mm512_mask_cvtusepi64_epi8", [.m128i, .mask8, .m512i], some .m128i⟩,
  /- 6365 -/ ⟨id! "mm512_mask_extractf64x4_pd", [.ptr, .ptr, .ptr, .ptr, .int], true, id! "_mm512_mask_extractf64x4_pd", [.m256d, .mask8, .m512d, .constInt], some .m256d⟩,
  /- 3683 -/ ⟨id! "mm512_mask3_fmsub_round_pd", [.ptr, .ptr, .ptr, .ptr, .ptr, .int], true, id! "_mm512_mask3_fmsub_round_pd", [.m512d, .m512d, .m512d, .mask8, .constInt], some .m512d⟩,
  /- 3697 -/ ⟨id! "mm512_maskz_fmsub_round_pd", [.ptr, .ptr, .ptr, .ptr, .ptr, .int], true, id! "_mm512_maskz_fmsub_round_pd", [.mask8, .m512d, .m512d, .m512d, .constInt], some .m512d⟩,
  /- 4117 -/ ⟨id! "mm512_mask_fnmsub_round_pd", [.ptr, .ptr, .ptr, .ptr, .ptr, .int], true, id! "_mm512_mask_fnmsub_round_pd", [.m512d, .mask8, .m512d, .m512d, .constInt], some .m512d⟩,
  /- 3571 -/ ⟨id! "mm512_mask3_fmadd_round_pd", [.ptr, .ptr, .ptr, .ptr, .ptr, .int], true, id! "_mm512_mask3_fmadd_round_pd", [.m512d, .m512d, .m512d, .mask8, .constInt], some .m512d⟩,
  /- 3585 -/ ⟨id! "mm512_maskz_fmadd_round_pd", [.ptr, .ptr, .ptr, .ptr, .ptr, .int], true, id! "_mm512_maskz_fmadd_round_pd", [.mask8, .m512d, .m512d, .m512d, .constInt], some .m512d⟩,
  /- 4005 -/ ⟨id! "mm512_mask_fnmadd_round_pd", [.ptr, .ptr, .ptr, .ptr, .ptr, .int], true, id! "_mm512_mask_fnmadd_round_pd", [.m512d, .mask8, .m512d, .m512d, .constInt], some .m512d⟩,
  /- 3389 -/ ⟨id! "mm512_mask_scalef_round_pd", [.ptr, .ptr, .ptr, .ptr, .ptr, .int], true, id! "_mm512_mask_scalef_round_pd", [.m512d, .mask8, .m512d, .m512d, .constInt], some .m512d⟩,
  /- 9647 -/ ⟨id! "mm512_mask_getexp_round_pd", [.ptr, .ptr, .ptr, .ptr, .int], true, id! "_mm512_mask_getexp_round_pd", [.m512d, .mask8, .m512d, .constInt], some .m512d⟩,
  /- 4347 -/ ⟨id! "mm512_maskz_broadcastsd_pd", [.ptr, .ptr, .ptr], false, id! "_mm512_maskz_broadcastsd_pd", [.mask8, .m128d], some .m512d⟩,
  /- 7195 -/ ⟨id! "mm512_mask_permutex2var_pd", [.ptr, .ptr, .ptr, .ptr, .ptr], false, id! "_mm512_mask_permutex2var_pd", [.m512d, .mask8, .m512i, .m512d], some .m512d⟩,
  /- 7543 -/ ⟨id! "mm512_maskz_permutexvar_pd", [.ptr, .ptr, .ptr, .ptr], false, id! "_mm512_maskz_permutexvar_pd", [.mask8, .m512i, .m512d], some .m512d⟩,
  /- 9209 -/ ⟨id! "mm512_maskz_cvt_roundps_pd", [.ptr, .ptr, .ptr, .int], true, id! "_mm512_maskz_cvt_roundps_pd", [.mask8, .m256, .constInt], some .m512d⟩,
  /- 11537 -/ ⟨id! "mm512_maskz_expandloadu_pd", [.ptr, .ptr, .ptr], false, id! "_mm512_maskz_expandloadu_pd", [.mask8, .ptr], some .m512d⟩,
  /- 7785 -/ ⟨id! "mm_maskz_fixupimm_round_sd", [.ptr, .ptr, .ptr, .ptr, .ptr, .int, .int], true, id! "_mm_maskz_fixupimm_round_sd", [.mask8, .m128d, .m128d, .m128i, .constInt, .constInt], some .m128d⟩,
  /- 9321 -/ ⟨id! "mm512_maskz_cvt_roundps_ph", [.ptr, .ptr, .ptr, .int], true, id! "_mm512_maskz_cvt_roundps_ph", [.mask16, .m512, .constInt], some .m256i⟩,
  /- 8425 -/ ⟨id! "mm512_mask_test_epi32_mask", [.ptr, .ptr, .ptr, .ptr], false, id! "_mm512_mask_test_epi32_mask", [.mask16, .m512i, .m512i], some .mask16⟩,
  /- 8449 -/ ⟨id! "mm512_mask_test_epi64_mask", [.ptr, .ptr, .ptr, .ptr], false, id! "_mm512_mask_test_epi64_mask", [.mask8, .m512i, .m512i], some .mask8⟩,
  /- 6407 -/ ⟨id! "mm512_mask_extractf32x4_ps", [.ptr, .ptr, .ptr, .ptr, .int], true, id! "_mm512_mask_extractf32x4_ps", [.m128, .mask8, .m512, .constInt], some .m128⟩,
  /- 3739 -/ ⟨id! "mm512_mask3_fmsub_round_ps", [.ptr, .ptr, .ptr, .ptr, .ptr, .int], true, id! "_mm512_mask3_fmsub_round_ps", [.m512, .m512, .m512, .mask16, .constInt], some .m512⟩,
  /- 3753 -/ ⟨id! "mm512_maskz_fmsub_round_ps", [.ptr, .ptr, .ptr, .ptr, .ptr, .int], true, id! "_mm512_maskz_fmsub_round_ps", [.mask16, .m512, .m512, .m512, .constInt], some .m512⟩,
  /- 4173 -/ ⟨id! "mm512_mask_fnmsub_round_ps", [.ptr, .ptr, .ptr, .ptr, .ptr, .int], true, id! "_mm512_mask_fnmsub_round_ps", [.m512, .mask16, .m512, .m512, .constInt], some .m512⟩,
  /- 3627 -/ ⟨id! "mm512_mask3_fmadd_round_ps", [.ptr, .ptr, .ptr, .ptr, .ptr, .int], true, id! "_mm512_mask3_fmadd_round_ps", [.m512, .m512, .m512, .mask16, .constInt], some .m512⟩,
  /- 3641 -/ ⟨id! "mm512_maskz_fmadd_round_ps", [.ptr, .ptr, .ptr, .ptr, .ptr, .int], true, id! "_mm512_maskz_fmadd_round_ps", [.mask16, .m512, .m512, .m512, .constInt], some .m512⟩,
  /- 4061 -/ ⟨id! "mm512_mask_fnmadd_round_ps", [.ptr, .ptr, .ptr, .ptr, .ptr, .int], true, id! "_mm512_mask_fnmadd_round_ps", [.m512, .mask16, .m512, .m512, .constInt], some .m512⟩,
  /- 3431 -/ ⟨id! "mm512_mask_scalef_round_ps", [.ptr, .ptr, .ptr, .ptr, .ptr, .int], true, id! "_mm512_mask_scalef_round_ps", [.m512, .mask16, .m512, .m512, .constInt], some .m512⟩,
  /- 9607 -/ ⟨id! "mm512_mask_getexp_round_ps", [.ptr, .ptr, .ptr, .ptr, .int], true, id! "_mm512_mask_getexp_round_ps", [.m512, .mask16, .m512, .constInt], some .m512⟩,
  /- 9377 -/ ⟨id! "mm512_maskz_cvt_roundpd_ps", [.ptr, .ptr, .ptr, .int], true, id! "_mm512_maskz_cvt_roundpd_ps", [.mask8, .m512d, .constInt], some .m256⟩,
  /- 9251 -/ ⟨id! "mm512_maskz_cvt_roundph_ps", [.ptr, .ptr, .ptr, .int], true, id! "_mm512_maskz_cvt_roundph_ps", [.mask16, .m256i, .constInt], some .m512⟩,
  /- 7243 -/ ⟨id! "mm512_mask_permutex2var_ps", [.ptr, .ptr, .ptr, .ptr, .ptr], false, id! "_mm512_mask_permutex2var_ps", [.m512, .mask16, .m512i, .m512], some .m512⟩,
  /- 7579 -/ ⟨id! "mm512_maskz_permutexvar_ps", [.ptr, .ptr, .ptr, .ptr], false, id! "_mm512_maskz_permutexvar_ps", [.mask16, .m512i, .m512], some .m512⟩,
  /- 4311 -/ ⟨id! "mm512_maskz_broadcastss_ps", [.ptr, .ptr, .ptr], false, id! "_mm512_maskz_broadcastss_ps", [.mask16, .m128], some .m512⟩,
  /- 11585 -/ ⟨id! "mm512_maskz_expandloadu_ps", [.ptr, .ptr, .ptr], false, id! "_mm512_maskz_expandloadu_ps", [.mask16, .ptr], some .m512⟩,
  /- 7827 -/ ⟨id! "mm_maskz_fixupimm_round_ss", [.ptr, .ptr, .ptr, .ptr, .ptr, .int, .int], true, id! "_mm_maskz_fixupimm_round_ss", [.mask8, .m128, .m128, .m128i, .constInt, .constInt], some .m128⟩,
  /- 5847 -/ ⟨id! "mm512_maskz_cvtsepi64_epi32", [.ptr, .ptr, .ptr], false, id! "_mm512_maskz_cvtsepi64_epi32", [.mask8, .m512i], some .m256i⟩,
  /- 5883 -/ ⟨id! "mm512_mask_cvtusepi64_epi32", [.ptr, .ptr, .ptr, .ptr], false, id! "_mm512_mask_cvtusepi64_epi32", [.m256i, .mask8, .m512i], some .m256i⟩,
  /- 17081 -/ ⟨id! "mm512_mask_reduce_add_epi32", [.ptr, .ptr, .ptr], false, id! "_mm512_mask_reduce_add_epi32", [.mask16, .m512i], some .int⟩,
  /- 17105 -/ ⟨id! "mm512_mask_reduce_and_epi32", [.ptr, .ptr, .ptr], false, id! "_mm512_mask_reduce_and_epi32", [.mask16, .m512i], some .int⟩,
  /- 4371 -/ ⟨id! "mm512_mask_broadcastd_epi32", [.ptr, .ptr, .ptr, .ptr], false, id! "_mm512_mask_broadcastd_epi32", [.m512i, .mask16, .m128i], some .m512i⟩,
  /- 17093 -/ ⟨id! "mm512_mask_reduce_mul_epi32", [.ptr, .ptr, .ptr], false, id! "_mm512_mask_reduce_mul_epi32", [.mask16, .m512i], some .int⟩,
  /- 17177 -/ ⟨id! "mm512_mask_reduce_min_epi32", [.ptr, .ptr, .ptr], false, id! "_mm512_mask_reduce_min_epi32", [.mask16, .m512i], some .int⟩,
  /- 11259 -/ ⟨id! "mm512_mask_i32scatter_epi32", [.ptr, .ptr, .ptr, .ptr, .int], true, id! "_mm512_mask_i32scatter_epi32", [.ptr, .mask16, .m512i, .m512i, .int], none⟩,
  /- 11315 -/ ⟨id! "mm512_mask_i64scatter_epi32", [.ptr, .ptr, .ptr, .ptr, .int], true, id! "_mm512_mask_i64scatter_epi32", [.ptr, .mask8, .m512i, .m256i, .int], none⟩,
  /- 17189 -/ ⟨id! "mm512_mask_reduce_max_epi32", [.ptr, .ptr, .ptr], false, id! "_mm512_mask_reduce_max_epi32", [.mask16, .m512i], some .int⟩,
  /- 17201 -/ ⟨id! "mm512_mask_reduce_min_epu32", [.ptr, .ptr, .ptr], false, id! "_mm512_mask_reduce_min_epu32", [.mask16, .m512i], some .uint⟩,
  /- 17213 -/ ⟨id! "mm512_mask_reduce_max_epu32", [.ptr, .ptr, .ptr], false, id! "_mm512_mask_reduce_max_epu32", [.mask16, .m512i], some .uint⟩,
  /- 17369 -/ ⟨id! "mm512_mask_reduce_add_epi64", [.ptr, .ptr, .ptr], false, id! "_mm512_mask_reduce_add_epi64", [.mask8, .m512i], some .llong⟩,
  /- 17393 -/ ⟨id! "mm512_mask_reduce_and_epi64", [.ptr, .ptr, .ptr], false, id! "_mm512_mask_reduce_and_epi64", [.mask8, .m512i], some .llong⟩,
  /- 17381 -/ ⟨id! "mm512_mask_reduce_mul_epi64", [.ptr, .ptr, .ptr], false, id! "_mm512_mask_reduce_mul_epi64", [.mask8, .m512i], some .llong⟩,
  /- 17441 -/ ⟨id! "mm512_mask_reduce_min_epi64", [.ptr, .ptr, .ptr], false, id! "_mm512_mask_reduce_min_epi64", [.mask8, .m512i], some .llong⟩,
  /- 4449 -/ ⟨id! "mm512_mask_broadcastq_epi64", [.ptr, .ptr, .ptr, .ptr], false, id! "_mm512_mask_broadcastq_epi64", [.m512i, .mask8, .m128i], some .m512i⟩,
  /- 11287 -/ ⟨id! "mm512_mask_i32scatter_epi64", [.ptr, .ptr, .ptr, .ptr, .int], true, id! "_mm512_mask_i32scatter_epi64", [.ptr, .mask8, .m256i, .m512i, .int], none⟩,
  /- 11343 -/ ⟨id! "mm512_mask_i64scatter_epi64", [.ptr, .ptr, .ptr, .ptr, .int], true, id! "_mm512_mask_i64scatter_epi64", [.ptr, .mask8, .m512i, .m512i, .int], none⟩,
  /- 17453 -/ ⟨id! "mm512_mask_reduce_max_epi64", [.ptr, .ptr, .ptr], false, id! "_mm512_mask_reduce_max_epi64", [.mask8, .m512i], some .llong⟩,
  /- 17489 -/ ⟨id! "mm512_mask_reduce_min_epu64", [.ptr, .ptr, .ptr], false, id! "_mm512_mask_reduce_min_epu64", [.mask8, .m512i], some .ullong⟩,
  /- 17501 -/ ⟨id! "mm512_mask_reduce_max_epu64", [.ptr, .ptr, .ptr], false, id! "_mm512_mask_reduce_max_epu64", [.mask8, .m512i], some .ullong⟩,
  /- 4533 -/ ⟨id! "mm512_maskz_broadcast_f32x4", [.ptr, .ptr, .ptr], false, id! "_mm512_maskz_broadcast_f32x4", [.mask16, .m128], some .m512⟩,
  /- 4569 -/ ⟨id! "mm512_maskz_broadcast_i32x4", [.ptr, .ptr, .ptr], false, id! "_mm512_maskz_broadcast_i32x4", [.mask16, .m128i], some .m512i⟩,
  /- 4605 -/ ⟨id! "mm512_maskz_broadcast_f64x4", [.ptr, .ptr, .ptr], false, id! "_mm512_maskz_broadcast_f64x4", [.mask8, .m256d], some .m512d⟩,
  /- 4641 -/ ⟨id! "mm512_maskz_broadcast_i64x4", [.ptr, .ptr, .ptr], false, id! "_mm512_maskz_broadcast_i64x4", [.mask8, .m256i], some .m512i⟩,
  /- 5703 -/ ⟨id! "mm512_maskz_cvtsepi32_epi16", [.ptr, .ptr, .ptr], false, id! "_mm512_maskz_cvtsepi32_epi16", [.mask16, .m512i], some .m256i⟩,
  /- 5739 -/ ⟨id! "mm512_mask_cvtusepi32_epi16", [.ptr, .ptr, .ptr, .ptr], false, id! "_mm512_mask_cvtusepi32_epi16", [.m256i, .mask16, .m512i], some .m256i⟩,
  /- 5991 -/ ⟨id! "mm512_maskz_cvtsepi64_epi16", [.ptr, .ptr, .ptr], false, id! "_mm512_maskz_cvtsepi64_epi16", [.mask8, .m512i], some .m128i⟩,
  /- 6027 -/ ⟨id! "mm512_mask_cvtusepi64_epi16", [.ptr, .ptr, .ptr, .ptr], false, id! "_mm512_mask_cvtusepi64_epi16", [.m128i, .mask8, .m512i], some .m128i⟩,
  /- 5607 -/ ⟨id! "mm512_maskz_cvtusepi32_epi8", [.ptr, .ptr, .ptr], false, id! "_mm512_maskz_cvtusepi32_epi8", [.mask16, .m512i], some .m128i⟩,
  /- 6183 -/ ⟨id! "mm512_maskz_cvtusepi64_epi8", [.ptr, .ptr, .ptr], false, id! "_mm512_maskz_cvtusepi64_epi8", [.mask8, .m512i], some .m128i⟩,
  /- 6379 -/ ⟨id! "mm512_maskz_extractf64x4_pd", [.ptr, .ptr, .ptr, .int], true, id! "_mm512_maskz_extractf64x4_pd", [.mask8, .m512d, .constInt], some .m256d⟩,
  /- 4131 -/ ⟨id! "mm512_mask3_fnmsub_round_pd", [.ptr, .ptr, .ptr, .ptr, .ptr, .int], true, id! "_mm512_mask3_fnmsub_round_pd", [.m512d, .m512d, .m512d, .mask8, .constInt], some .m512d⟩,
  /- 4145 -/ ⟨id! "mm512_maskz_fnmsub_round_pd", [.ptr, .ptr, .ptr, .ptr, .ptr, .int], true, id! "_mm512_maskz_fnmsub_round_pd", [.mask8, .m512d, .m512d, .m512d, .constInt], some .m512d⟩,
  /- 4019 -/ ⟨id! "mm512_mask3_fnmadd_round_pd", [.ptr, .ptr, .ptr, .ptr, .ptr, .int], true, id! "_mm512_mask3_fnmadd_round_pd", [.m512d, .m512d, .m512d, .mask8, .constInt], some .m512d⟩,
  /- 4033 -/ ⟨id! "mm512_maskz_fnmadd_round_pd", [.ptr, .ptr, .ptr, .ptr, .ptr, .int], true, id! "_mm512_maskz_fnmadd_round_pd", [.mask8, .m512d, .m512d, .m512d, .constInt], some .m512d⟩,
  /- 3403 -/ ⟨id! "mm512_maskz_scalef_round_pd", [.ptr, .ptr, .ptr, .ptr, .int], true, id! "_mm512_maskz_scalef_round_pd", [.mask8, .m512d, .m512d, .constInt], some .m512d⟩,
  /- 9661 -/ ⟨id! "mm512_maskz_getexp_round_pd", [.ptr, .ptr, .ptr, .int], true, id! "_mm512_maskz_getexp_round_pd", [.mask8, .m512d, .constInt], some .m512d⟩,
  /- 9687 -/ ⟨id! "mm512_mask_getmant_round_pd", [.ptr, .ptr, .ptr, .ptr, .enum, .enum, .int], false, id! "_mm512_mask_getmant_round_pd", [.m512d, .mask8, .m512d, .enum, .enum, .constInt], some .m512d⟩,
  /- 7207 -/ ⟨id! "mm512_mask2_permutex2var_pd", [.ptr, .ptr, .ptr, .ptr, .ptr], false, id! "_mm512_mask2_permutex2var_pd", [.m512d, .m512i, .mask8, .m512d], some .m512d⟩,
  /- 7219 -/ ⟨id! "mm512_maskz_permutex2var_pd", [.ptr, .ptr, .ptr, .ptr, .ptr], false, id! "_mm512_maskz_permutex2var_pd", [.mask8, .m512d, .m512i, .m512d], some .m512d⟩,
  /- 9969 -/ ⟨id! "mm_mask_roundscale_round_sd", [.ptr, .ptr, .ptr, .ptr, .ptr, .int, .int], true, id! "_mm_mask_roundscale_round_sd", [.m128d, .mask8, .m128d, .m128d, .constInt, .constInt], some .m128d⟩,
  /- 10285 -/ ⟨id! "mm512_mask_cmpge_epi32_mask", [.ptr, .ptr, .ptr, .ptr], false, id! "_mm512_mask_cmpge_epi32_mask", [.mask16, .m512i, .m512i], some .mask16⟩,
  /- 10369 -/ ⟨id! "mm512_mask_cmple_epi32_mask", [.ptr, .ptr, .ptr, .ptr], false, id! "_mm512_mask_cmple_epi32_mask", [.mask16, .m512i, .m512i], some .mask16⟩,
  /- 8473 -/ ⟨id! "mm512_mask_testn_epi32_mask", [.ptr, .ptr, .ptr, .ptr], false, id! "_mm512_mask_testn_epi32_mask", [.mask16, .m512i, .m512i], some .mask16⟩,
  /- 10189 -/ ⟨id! "mm512_mask_cmpeq_epi32_mask", [.ptr, .ptr, .ptr, .ptr], false, id! "_mm512_mask_cmpeq_epi32_mask", [.mask16, .m512i, .m512i], some .mask16⟩,
  /- 10237 -/ ⟨id! "mm512_mask_cmpgt_epi32_mask", [.ptr, .ptr, .ptr, .ptr], false, id! "_mm512_mask_cmpgt_epi32_mask", [.mask16, .m512i, .m512i], some .mask16⟩,
  /- 10465 -/ ⟨id! "mm512_mask_cmplt_epi32_mask", [.ptr, .ptr, .ptr, .ptr], false, id! "_mm512_mask_cmplt_epi32_mask", [.mask16, .m512i, .m512i], some .mask16⟩,
  /- 10297 -/ ⟨id! "mm512_mask_cmpge_epu32_mask", [.ptr, .ptr, .ptr, .ptr], false, id! "_mm512_mask_cmpge_epu32_mask", [.mask16, .m512i, .m512i], some .mask16⟩,
  /- 10393 -/ ⟨id! "mm512_mask_cmple_epu32_mask", [.ptr, .ptr, .ptr, .ptr], false, id! "_mm512_mask_cmple_epu32_mask", [.mask16, .m512i, .m512i], some .mask16⟩,
  /- 16949 -/ ⟨id! "mm512_mask_cmpeq_epu32_mask", [.ptr, .ptr, .ptr, .ptr], false, id! "_mm512_mask_cmpeq_epu32_mask", [.mask16, .m512i, .m512i], some .mask16⟩,
  /- 16997 -/ ⟨id! "mm512_mask_cmpgt_epu32_mask", [.ptr, .ptr, .ptr, .ptr], false, id! "_mm512_mask_cmpgt_epu32_mask", [.mask16, .m512i, .m512i], some .mask16⟩,
  /- 10489 -/ ⟨id! "mm512_mask_cmplt_epu32_mask", [.ptr, .ptr, .ptr, .ptr], false, id! "_mm512_mask_cmplt_epu32_mask", [.mask16, .m512i, .m512i], some .mask16⟩,
  /- 10321 -/ ⟨id! "mm512_mask_cmpge_epi64_mask", [.ptr, .ptr, .ptr, .ptr], false, id! "_mm512_mask_cmpge_epi64_mask", [.mask8, .m512i, .m512i], some .mask8⟩,
  /- 10417 -/ ⟨id! "mm512_mask_cmple_epi64_mask", [.ptr, .ptr, .ptr, .ptr], false, id! "_mm512_mask_cmple_epi64_mask", [.mask8, .m512i, .m512i], some .mask8⟩,
  /- 8497 -/ ⟨id! "mm512_mask_testn_epi64_mask", [.ptr, .ptr, .ptr, .ptr], false, id! "_mm512_mask_testn_epi64_mask", [.mask8, .m512i, .m512i], some .mask8⟩,
  /- 10201 -/ ⟨id! "mm512_mask_cmpeq_epi64_mask", [.ptr, .ptr, .ptr, .ptr], false, id! "_mm512_mask_cmpeq_epi64_mask", [.mask8, .m512i, .m512i], some .mask8⟩,
  /- 10249 -/ ⟨id! "mm512_mask_cmpgt_epi64_mask", [.ptr, .ptr, .ptr, .ptr], false, id! "_mm512_mask_cmpgt_epi64_mask", [.mask8, .m512i, .m512i], some .mask8⟩,
  /- 10513 -/ ⟨id! "mm512_mask_cmplt_epi64_mask", [.ptr, .ptr, .ptr, .ptr], false, id! "_mm512_mask_cmplt_epi64_mask", [.mask8, .m512i, .m512i], some .mask8⟩,
  /- 10345 -/ ⟨id! "mm512_mask_cmpge_epu64_mask", [.ptr, .ptr, .ptr, .ptr], false, id! "_mm512_mask_cmpge_epu64_mask", [.mask8, .m512i, .m512i], some .mask8⟩,
  /- 10441 -/ ⟨id! "mm512_mask_cmple_epu64_mask", [.ptr, .ptr, .ptr, .ptr], false, id! "_mm512_mask_cmple_epu64_mask", [.mask8, .m512i, .m512i], some .mask8⟩,
  /- 16961 -/ ⟨id! "mm512_mask_cmpeq_epu64_mask", [.ptr, .ptr, .ptr, .ptr], false, id! "_mm512_mask_cmpeq_epu64_mask", [.mask8, .m512i, .m512i], some .mask8⟩,
  /- 17009 -/ ⟨id! "mm512_mask_cmpgt_epu64_mask", [.ptr, .ptr, .ptr, .ptr], false, id! "_mm512_mask_cmpgt_epu64_mask", [.mask8, .m512i, .m512i], some .mask8⟩,
  /- 10537 -/ ⟨id! "mm512_mask_cmplt_epu64_mask", [.ptr, .ptr, .ptr, .ptr], false, id! "_mm512_mask_cmplt_epu64_mask", [.mask8, .m512i, .m512i], some .mask8⟩,
  /- 16337 -/ ⟨id! "mm512_mask_cmpunord_pd_mask", [.ptr, .ptr, .ptr, .ptr], false, id! "_mm512_mask_cmpunord_pd_mask", [.mask8, .m512d, .m512d], some .mask8⟩,
  /- 16529 -/ ⟨id! "mm512_mask_cmpunord_ps_mask", [.ptr, .ptr, .ptr, .ptr], false, id! "_mm512_mask_cmpunord_ps_mask", [.mask16, .m512, .m512], some .mask16⟩,
  /- 6421 -/ ⟨id! "mm512_maskz_extractf32x4_ps", [.ptr, .ptr, .ptr, .int], true, id! "_mm512_maskz_extractf32x4_ps", [.mask8, .m512, .constInt], some .m128⟩,
  /- 4187 -/ ⟨id! "mm512_mask3_fnmsub_round_ps", [.ptr, .ptr, .ptr, .ptr, .ptr, .int], true, id! "_mm512_mask3_fnmsub_round_ps", [.m512, .m512, .m512, .mask16, .constInt], some .m512⟩,
  /- 4201 -/ ⟨id! "mm512_maskz_fnmsub_round_ps", [.ptr, .ptr, .ptr, .ptr, .ptr, .int], true, id! "_mm512_maskz_fnmsub_round_ps", [.mask16, .m512, .m512, .m512, .constInt], some .m512⟩,
  /- 4075 -/ ⟨id! "mm512_mask3_fnmadd_round_ps", [.ptr, .ptr, .ptr, .ptr, .ptr, .int], true, id! "_mm512_mask3_fnmadd_round_ps", [.m512, .m512, .m512, .mask16, .constInt], some .m512⟩,
  /- 4089 -/ ⟨id! "mm512_maskz_fnmadd_round_ps", [.ptr, .ptr, .ptr, .ptr, .ptr, .int], true, id! "_mm512_maskz_fnmadd_round_ps", [.mask16, .m512, .m512, .m512, .constInt], some .m512⟩,
  /- 3445 -/ ⟨id! "mm512_maskz_scalef_round_ps", [.ptr, .ptr, .ptr, .ptr, .int], true, id! "_mm512_maskz_scalef_round_ps", [.mask16, .m512, .m512, .constInt], some .m512⟩,
  /- 9621 -/ ⟨id! "mm512_maskz_getexp_round_ps", [.ptr, .ptr, .ptr, .int], true, id! "_mm512_maskz_getexp_round_ps", [.mask16, .m512, .constInt], some .m512⟩,
  /- 9723 -/ ⟨id! "mm512_mask_getmant_round_ps", [.ptr, .ptr, .ptr, .ptr, .enum, .enum, .int], false, id! "_mm512_mask_getmant_round_ps", [.m512, .mask16, .m512, .enum, .enum, .constInt], some .m512⟩,
  /- 7255 -/ ⟨id! "mm512_mask2_permutex2var_ps", [.ptr, .ptr, .ptr, .ptr, .ptr], false, id! "_mm512_mask2_permutex2var_ps", [.m512, .m512i, .mask16, .m512], some .m512⟩,
  /- 7267 -/ ⟨id! "mm512_maskz_permutex2var_ps", [.ptr, .ptr, .ptr, .ptr, .ptr], false, id! "_mm512_maskz_permutex2var_ps", [.mask16, .m512, .m512i, .m512], some .m512⟩,
  /- 9927 -/ ⟨id! "mm_mask_roundscale_round_ss", [.ptr, .ptr, .ptr, .ptr, .ptr, .int, .int], true, id! "_mm_mask_roundscale_round_ss", [.m128, .mask8, .m128, .m128, .constInt, .constInt], some .m128⟩,
  /- 5895 -/ ⟨id! "mm512_maskz_cvtusepi64_epi32", [.ptr, .ptr, .ptr], false, id! "_mm512_maskz_cvtusepi64_epi32", [.mask8, .m512i], some .m256i⟩,
  /- 5099 -/ ⟨id! "mm512_mask_cvt_roundpd_epi32", [.ptr, .ptr, .ptr, .ptr, .int], true, id! "_mm512_mask_cvt_roundpd_epi32", [.m256i, .mask8, .m512d, .constInt], some .m256i⟩,
  /- 4383 -/ ⟨id! "mm512_maskz_broadcastd_epi32", [.ptr, .ptr, .ptr], false, id! "_mm512_maskz_broadcastd_epi32", [.mask16, .m128i], some .m512i⟩,
  /- 7507 -/ ⟨id! "mm512_mask_permutexvar_epi32", [.ptr, .ptr, .ptr, .ptr, .ptr], false, id! "_mm512_mask_permutexvar_epi32", [.m512i, .mask16, .m512i, .m512i], some .m512i⟩,
  /- 5267 -/ ⟨id! "mm512_mask_cvt_roundps_epi32", [.ptr, .ptr, .ptr, .ptr, .int], true, id! "_mm512_mask_cvt_roundps_epi32", [.m512i, .mask16, .m512, .constInt], some .m512i⟩,
  /- 11669 -/ ⟨id! "mm512_mask_expandloadu_epi32", [.ptr, .ptr, .ptr, .ptr], false, id! "_mm512_mask_expandloadu_epi32", [.m512i, .mask16, .ptr], some .m512i⟩,
  /- 5141 -/ ⟨id! "mm512_mask_cvt_roundpd_epu32", [.ptr, .ptr, .ptr, .ptr, .int], true, id! "_mm512_mask_cvt_roundpd_epu32", [.m256i, .mask8, .m512d, .constInt], some .m256i⟩,
  /- 5309 -/ ⟨id! "mm512_mask_cvt_roundps_epu32", [.ptr, .ptr, .ptr, .ptr, .int], true, id! "_mm512_mask_cvt_roundps_epu32", [.m512i, .mask16, .m512, .constInt], some .m512i⟩,
  /- 4461 -/ ⟨id! "mm512_maskz_broadcastq_epi64", [.ptr, .ptr, .ptr], false, id! "_mm512_maskz_broadcastq_epi64", [.mask8, .m128i], some .m512i⟩,
  /- 7471 -/ ⟨id! "mm512_mask_permutexvar_epi64", [.ptr, .ptr, .ptr, .ptr, .ptr], false, id! "_mm512_mask_permutexvar_epi64", [.m512i, .mask8, .m512i, .m512i], some .m512i⟩,
  /- 11621 -/ ⟨id! "mm512_mask_expandloadu_epi64", [.ptr, .ptr, .ptr, .ptr], false, id! "_mm512_mask_expandloadu_epi64", [.m512i, .mask8, .ptr], some .m512i⟩,
  /- 5751 -/ ⟨id! "mm512_maskz_cvtusepi32_epi16", [.ptr, .ptr, .ptr], false, id! "_mm512_maskz_cvtusepi32_epi16", [.mask16, .m512i], some .m256i⟩,
  /- 6039 -/ ⟨id! "mm512_maskz_cvtusepi64_epi16", [.ptr, .ptr, .ptr], false, id! "_mm512_maskz_cvtusepi64_epi16", [.mask8, .m512i], some .m128i⟩,
  /- 3781 -/ ⟨id! "mm512_mask_fmaddsub_round_pd", [.ptr, .ptr, .ptr, .ptr, .ptr, .int], true, id! "_mm512_mask_fmaddsub_round_pd", [.m512d, .mask8, .m512d, .m512d, .constInt], some .m512d⟩,
  /- 3893 -/ ⟨id! "mm512_mask_fmsubadd_round_pd", [.ptr, .ptr, .ptr, .ptr, .ptr, .int], true, id! "_mm512_mask_fmsubadd_round_pd", [.m512d, .mask8, .m512d, .m512d, .constInt], some .m512d⟩,
  /- 7687 -/ ⟨id! "mm512_mask_fixupimm_round_pd", [.ptr, .ptr, .ptr, .ptr, .ptr, .int, .int], true, id! "_mm512_mask_fixupimm_round_pd", [.m512d, .mask8, .m512d, .m512i, .constInt, .constInt], some .m512d⟩,
  /- 9699 -/ ⟨id! "mm512_maskz_getmant_round_pd", [.ptr, .ptr, .ptr, .enum, .enum, .int], false, id! "_mm512_maskz_getmant_round_pd", [.mask8, .m512d, .enum, .enum, .constInt], some .m512d⟩,
  /- 11381 -/ ⟨id! "mm512_mask_compressstoreu_pd", [.ptr, .ptr, .ptr], false, id! "_mm512_mask_compressstoreu_pd", [.ptr, .mask8, .m512d], none⟩,
  /- 9983 -/ ⟨id! "mm_maskz_roundscale_round_sd", [.ptr, .ptr, .ptr, .ptr, .int, .int], true, id! "_mm_maskz_roundscale_round_sd", [.mask8, .m128d, .m128d, .constInt, .constInt], some .m128d⟩,
  /- 10573 -/ ⟨id! "mm512_mask_cmpneq_epi32_mask", [.ptr, .ptr, .ptr, .ptr], false, id! "_mm512_mask_cmpneq_epi32_mask", [.mask16, .m512i, .m512i], some .mask16⟩,
  /- 10585 -/ ⟨id! "mm512_mask_cmpneq_epu32_mask", [.ptr, .ptr, .ptr, .ptr], false, id! "_mm512_mask_cmpneq_epu32_mask", [.mask16, .m512i, .m512i], some .mask16⟩,
  /- 10609 -/ ⟨id! "mm512_mask_cmpneq_epi64_mask", [.ptr, .ptr, .ptr, .ptr], false, id! "_mm512_mask_cmpneq_epi64_mask", [.mask8, .m512i, .m512i], some .mask8⟩,
  /- 10633 -/ ⟨id! "mm512_mask_cmpneq_epu64_mask", [.ptr, .ptr, .ptr, .ptr], false, id! "_mm512_mask_cmpneq_epu64_mask", [.mask8, .m512i, .m512i], some .mask8⟩,
  /- 10825 -/ ⟨id! "mm512_mask_cmp_round_pd_mask", [.ptr, .ptr, .ptr, .ptr, .int, .int], true, id! "_mm512_mask_cmp_round_pd_mask", [.mask8, .m512d, .m512d, .constInt, .constInt], some .mask8⟩,
  /- 10839 -/ ⟨id! "mm512_mask_cmp_round_ps_mask", [.ptr, .ptr, .ptr, .ptr, .int, .int], true, id! "_mm512_mask_cmp_round_ps_mask", [.mask16, .m512, .m512, .constInt, .constInt], some .mask16⟩,
  /- 6281 -/ ⟨id! "mm512_mask_cvt_roundepi32_ps", [.ptr, .ptr, .ptr, .ptr, .int], true, id! "_mm512_mask_cvt_roundepi32_ps", [.m512, .mask16, .m512i, .constInt], some .m512⟩,
  /- 6323 -/ ⟨id! "mm512_mask_cvt_roundepu32_ps", [.ptr, .ptr, .ptr, .ptr, .int], true, id! "_mm512_mask_cvt_roundepu32_ps", [.m512, .mask16, .m512i, .constInt], some .m512⟩,
  /- 3837 -/ ⟨id! "mm512_mask_fmaddsub_round_ps", [.ptr, .ptr, .ptr, .ptr, .ptr, .int], true, id! "_mm512_mask_fmaddsub_round_ps", [.m512, .mask16, .m512, .m512, .constInt], some .m512⟩,
  /- 3949 -/ ⟨id! "mm512_mask_fmsubadd_round_ps", [.ptr, .ptr, .ptr, .ptr, .ptr, .int], true, id! "_mm512_mask_fmsubadd_round_ps", [.m512, .mask16, .m512, .m512, .constInt], some .m512⟩,
  /- 7729 -/ ⟨id! "mm512_mask_fixupimm_round_ps", [.ptr, .ptr, .ptr, .ptr, .ptr, .int, .int], true, id! "_mm512_mask_fixupimm_round_ps", [.m512, .mask16, .m512, .m512i, .constInt, .constInt], some .m512⟩,
  /- 9735 -/ ⟨id! "mm512_maskz_getmant_round_ps", [.ptr, .ptr, .ptr, .enum, .enum, .int], false, id! "_mm512_maskz_getmant_round_ps", [.mask16, .m512, .enum, .enum, .constInt], some .m512⟩,
  /- 11417 -/ ⟨id! "mm512_mask_compressstoreu_ps", [.ptr, .ptr, .ptr], false, id! "_mm512_mask_compressstoreu_ps", [.ptr, .mask16, .m512], none⟩,
  /- 9941 -/ ⟨id! "mm_maskz_roundscale_round_ss", [.ptr, .ptr, .ptr, .ptr, .int, .int], true, id! "_mm_maskz_roundscale_round_ss", [.mask8, .m128, .m128, .constInt, .constInt], some .m128⟩,
  /- 6491 -/ ⟨id! "mm512_mask_extracti32x4_epi32", [.ptr, .ptr, .ptr, .ptr, .int], true, id! "_mm512_mask_extracti32x4_epi32", [.m128i, .mask8, .m512i, .constInt], some .m128i⟩,
  /- 1867 -/ ⟨id! "mm512_mask_ternarylogic_epi32", [.ptr, .ptr, .ptr, .ptr, .ptr, .int], true, id! "_mm512_mask_ternarylogic_epi32", [.m512i, .mask16, .m512i, .m512i, .constInt], some .m512i⟩,
  /- 5015 -/ ⟨id! "mm512_mask_cvtt_roundpd_epi32", [.ptr, .ptr, .ptr, .ptr, .int], true, id! "_mm512_mask_cvtt_roundpd_epi32", [.m256i, .mask8, .m512d, .constInt], some .m256i⟩,
  /- 5113 -/ ⟨id! "mm512_maskz_cvt_roundpd_epi32", [.ptr, .ptr, .ptr, .int], true, id! "_mm512_maskz_cvt_roundpd_epi32", [.mask8, .m512d, .constInt], some .m256i⟩,
  /- 7147 -/ ⟨id! "mm512_mask_permutex2var_epi32", [.ptr, .ptr, .ptr, .ptr, .ptr], false, id! "_mm512_mask_permutex2var_epi32", [.m512i, .mask16, .m512i, .m512i], some .m512i⟩,
  /- 7483 -/ ⟨id! "mm512_maskz_permutexvar_epi32", [.ptr, .ptr, .ptr, .ptr], false, id! "_mm512_maskz_permutexvar_epi32", [.mask16, .m512i, .m512i], some .m512i⟩,
  /- 5183 -/ ⟨id! "mm512_mask_cvtt_roundps_epi32", [.ptr, .ptr, .ptr, .ptr, .int], true, id! "_mm512_mask_cvtt_roundps_epi32", [.m512i, .mask16, .m512, .constInt], some .m512i⟩,
  /- 5281 -/ ⟨id! "mm512_maskz_cvt_roundps_epi32", [.ptr, .ptr, .ptr, .int], true, id! "_mm512_maskz_cvt_roundps_epi32", [.mask16, .m512, .constInt], some .m512i⟩,
  /- 11681 -/ ⟨id! "mm512_maskz_expandloadu_epi32", [.ptr, .ptr, .ptr], false, id! "_mm512_maskz_expandloadu_epi32", [.mask16, .ptr], some .m512i⟩,
  /- 5057 -/ ⟨id! "mm512_mask_cvtt_roundpd_epu32", [.ptr, .ptr, .ptr, .ptr, .int], true, id! "_mm512_mask_cvtt_roundpd_epu32", [.m256i, .mask8, .m512d, .constInt], some .m256i⟩,
  /- 5155 -/ ⟨id! "mm512_maskz_cvt_roundpd_epu32", [.ptr, .ptr, .ptr, .int], true, id! "_mm512_maskz_cvt_roundpd_epu32", [.mask8, .m512d, .constInt], some .m256i⟩,
  /- 5225 -/ ⟨id! "mm512_mask_cvtt_roundps_epu32", [.ptr, .ptr, .ptr, .ptr, .int], true, id! "_mm512_mask_cvtt_roundps_epu32", [.m512i, .mask16, .m512, .constInt], some .m512i⟩,
  /- 5323 -/ ⟨id! "mm512_maskz_cvt_roundps_epu32", [.ptr, .ptr, .ptr, .int], true, id! "_mm512_maskz_cvt_roundps_epu32", [.mask16, .m512, .constInt], some .m512i⟩,
  /- 6449 -/ ⟨id! "mm512_mask_extracti64x4_epi64", [.ptr, .ptr, .ptr, .ptr, .int], true, id! "_mm512_mask_extracti64x4_epi64", [.m256i, .mask8, .m512i, .constInt], some .m256i⟩,
  /- 1825 -/ ⟨id! "mm512_mask_ternarylogic_epi64", [.ptr, .ptr, .ptr, .ptr, .ptr, .int], true, id! "_mm512_mask_ternarylogic_epi64", [.m512i, .mask8, .m512i, .m512i, .constInt], some .m512i⟩,
  /- 7099 -/ ⟨id! "mm512_mask_permutex2var_epi64", [.ptr, .ptr, .ptr, .ptr, .ptr], false, id! "_mm512_mask_permutex2var_epi64", [.m512i, .mask8, .m512i, .m512i], some .m512i⟩,
  /- 7447 -/ ⟨id! "mm512_maskz_permutexvar_epi64", [.ptr, .ptr, .ptr, .ptr], false, id! "_mm512_maskz_permutexvar_epi64", [.mask8, .m512i, .m512i], some .m512i⟩,
  /- 11633 -/ ⟨id! "mm512_maskz_expandloadu_epi64", [.ptr, .ptr, .ptr], false, id! "_mm512_maskz_expandloadu_epi64", [.mask8, .ptr], some .m512i⟩,
  /- 3795 -/ ⟨id! "mm512_mask3_fmaddsub_round_pd", [.ptr, .ptr, .ptr, .ptr, .ptr, .int], true, id! "_mm512_mask3_fmaddsub_round_pd", [.m512d, .m512d, .m512d, .mask8, .constInt], some .m512d⟩,
  /- 3809 -/ ⟨id! "mm512_maskz_fmaddsub_round_pd", [.ptr, .ptr, .ptr, .ptr, .ptr, .int], true, id! "_mm512_maskz_fmaddsub_round_pd", [.mask8, .m512d, .m512d, .m512d, .constInt], some .m512d⟩,
  /- 3907 -/ ⟨id! "mm512_mask3_fmsubadd_round_pd", [.ptr, .ptr, .ptr, .ptr, .ptr, .int], true, id! "_mm512_mask3_fmsubadd_round_pd", [.m512d, .m512d, .m512d, .mask8, .constInt], some .m512d⟩,
  /- 3921 -/ ⟨id! "mm512_maskz_fmsubadd_round_pd", [.ptr, .ptr, .ptr, .ptr, .ptr, .int], true, id! "_mm512_maskz_fmsubadd_round_pd", [.mask8, .m512d, .m512d, .m512d, .constInt], some .m512d⟩,
  /- 7701 -/ ⟨id! "mm512_maskz_fixupimm_round_pd", [.ptr, .ptr, .ptr, .ptr, .ptr, .int, .int], true, id! "_mm512_maskz_fixupimm_round_pd", [.mask8, .m512d, .m512d, .m512i, .constInt, .constInt], some .m512d⟩,
  /- 6295 -/ ⟨id! "mm512_maskz_cvt_roundepi32_ps", [.ptr, .ptr, .ptr, .int], true, id! "_mm512_maskz_cvt_roundepi32_ps", [.mask16, .m512i, .constInt], some .m512⟩,
  /- 6337 -/ ⟨id! "mm512_maskz_cvt_roundepu32_ps", [.ptr, .ptr, .ptr, .int], true, id! "_mm512_maskz_cvt_roundepu32_ps", [.mask16, .m512i, .constInt], some .m512⟩,
  /- 3851 -/ ⟨id! "mm512_mask3_fmaddsub_round_ps", [.ptr, .ptr, .ptr, .ptr, .ptr, .int], true, id! "_mm512_mask3_fmaddsub_round_ps", [.m512, .m512, .m512, .mask16, .constInt], some .m512⟩,
  /- 3865 -/ ⟨id! "mm512_maskz_fmaddsub_round_ps", [.ptr, .ptr, .ptr, .ptr, .ptr, .int], true, id! "_mm512_maskz_fmaddsub_round_ps", [.mask16, .m512, .m512, .m512, .constInt], some .m512⟩,
  /- 3963 -/ ⟨id! "mm512_mask3_fmsubadd_round_ps", [.ptr, .ptr, .ptr, .ptr, .ptr, .int], true, id! "_mm512_mask3_fmsubadd_round_ps", [.m512, .m512, .m512, .mask16, .constInt], some .m512⟩,
  /- 3977 -/ ⟨id! "mm512_maskz_fmsubadd_round_ps", [.ptr, .ptr, .ptr, .ptr, .ptr, .int], true, id! "_mm512_maskz_fmsubadd_round_ps", [.mask16, .m512, .m512, .m512, .constInt], some .m512⟩,
  /- 7743 -/ ⟨id! "mm512_maskz_fixupimm_round_ps", [.ptr, .ptr, .ptr, .ptr, .ptr, .int, .int], true, id! "_mm512_maskz_fixupimm_round_ps", [.mask16, .m512, .m512, .m512i, .constInt, .constInt], some .m512⟩,
  /- 6505 -/ ⟨id! "mm512_maskz_extracti32x4_epi32", [.ptr, .ptr, .ptr, .int], true, id! "_mm512_maskz_extracti32x4_epi32", [.mask8, .m512i, .constInt], some .m128i⟩,
  /- 1881 -/ ⟨id! "mm512_maskz_ternarylogic_epi32", [.ptr, .ptr, .ptr, .ptr, .ptr, .int], true, id! "_mm512_maskz_ternarylogic_epi32", [.mask16, .m512i, .m512i, .m512i, .constInt], some .m512i⟩,
  /- 5029 -/ ⟨id! "mm512_maskz_cvtt_roundpd_epi32", [.ptr, .ptr, .ptr, .int], true, id! "_mm512_maskz_cvtt_roundpd_epi32", [.mask8, .m512d, .constInt], some .m256i⟩,
  /- 7159 -/ ⟨id! "mm512_mask2_permutex2var_epi32", [.ptr, .ptr, .ptr, .ptr, .ptr], false, id! "_mm512_mask2_permutex2var_epi32", [.m512i, .m512i, .mask16, .m512i], some .m512i⟩,
  /- 7171 -/ ⟨id! "mm512_maskz_permutex2var_epi32", [.ptr, .ptr, .ptr, .ptr, .ptr], false, id! "_mm512_maskz_permutex2var_epi32", [.mask16, .m512i, .m512i, .m512i], some .m512i⟩,
  /- 5197 -/ ⟨id! "mm512_maskz_cvtt_roundps_epi32", [.ptr, .ptr, .ptr, .int], true, id! "_mm512_maskz_cvtt_roundps_epi32", [.mask16, .m512, .constInt], some .m512i⟩,
  /- 5071 -/ ⟨id! "mm512_maskz_cvtt_roundpd_epu32", [.ptr, .ptr, .ptr, .int], true, id! "_mm512_maskz_cvtt_roundpd_epu32", [.mask8, .m512d, .constInt], some .m256i⟩,
  /- 5239 -/ ⟨id! "mm512_maskz_cvtt_roundps_epu32", [.ptr, .ptr, .ptr, .int], true, id! "_mm512_maskz_cvtt_roundps_epu32", [.mask16, .m512, .constInt], some .m512i⟩,
  /- 6463 -/ ⟨id! "mm512_maskz_extracti64x4_epi64", [.ptr, .ptr, .ptr, .int], true, id! "_mm512_maskz_extracti64x4_epi64", [.mask8, .m512i, .constInt], some .m256i⟩,
  /- 1839 -/ ⟨id! "mm512_maskz_ternarylogic_epi64", [.ptr, .ptr, .ptr, .ptr, .ptr, .int], true, id! "_mm512_maskz_ternarylogic_epi64", [.mask8, .m512i, .m512i, .m512i, .constInt], some .m512i⟩,
  /- 7111 -/ ⟨id! "mm512_mask2_permutex2var_epi64", [.ptr, .ptr, .ptr, .ptr, .ptr], false, id! "_mm512_mask2_permutex2var_epi64", [.m512i, .m512i, .mask8, .m512i], some .m512i⟩,
  /- 7123 -/ ⟨id! "mm512_maskz_permutex2var_epi64", [.ptr, .ptr, .ptr, .ptr, .ptr], false, id! "_mm512_maskz_permutex2var_epi64", [.mask8, .m512i, .m512i, .m512i], some .m512i⟩,
  /- 9885 -/ ⟨id! "mm512_mask_roundscale_round_pd", [.ptr, .ptr, .ptr, .ptr, .int, .int], true, id! "_mm512_mask_roundscale_round_pd", [.m512d, .mask8, .m512d, .constInt, .constInt], some .m512d⟩,
  /- 9843 -/ ⟨id! "mm512_mask_roundscale_round_ps", [.ptr, .ptr, .ptr, .ptr, .int, .int], true, id! "_mm512_mask_roundscale_round_ps", [.m512, .mask16, .m512, .constInt, .constInt], some .m512⟩,
  /- 11489 -/ ⟨id! "mm512_mask_compressstoreu_epi32", [.ptr, .ptr, .ptr], false, id! "_mm512_mask_compressstoreu_epi32", [.ptr, .mask16, .m512i], none⟩,
  /- 11453 -/ ⟨id! "mm512_mask_compressstoreu_epi64", [.ptr, .ptr, .ptr], false, id! "_mm512_mask_compressstoreu_epi64", [.ptr, .mask8, .m512i], none⟩,
  /- 5487 -/ ⟨id! "mm512_mask_cvtepi32_storeu_epi8", [.ptr, .ptr, .ptr], false, id! "_mm512_mask_cvtepi32_storeu_epi8", [.ptr, .mask16, .m512i], none⟩,
  /- 6063 -/ ⟨id! "mm512_mask_cvtepi64_storeu_epi8", [.ptr, .ptr, .ptr], false, id! "_mm512_mask_cvtepi64_storeu_epi8", [.ptr, .mask8, .m512i], none⟩,
  /- 9899 -/ ⟨id! "mm512_maskz_roundscale_round_pd", [.ptr, .ptr, .ptr, .int, .int], true, id! "_mm512_maskz_roundscale_round_pd", [.mask8, .m512d, .constInt, .constInt], some .m512d⟩,
  /- 9857 -/ ⟨id! "mm512_maskz_roundscale_round_ps", [.ptr, .ptr, .ptr, .int, .int], true, id! "_mm512_maskz_roundscale_round_ps", [.mask16, .m512, .constInt, .constInt], some .m512⟩,
  /- 5775 -/ ⟨id! "mm512_mask_cvtepi64_storeu_epi32", [.ptr, .ptr, .ptr], false, id! "_mm512_mask_cvtepi64_storeu_epi32", [.ptr, .mask8, .m512i], none⟩,
  /- 5631 -/ ⟨id! "mm512_mask_cvtepi32_storeu_epi16", [.ptr, .ptr, .ptr], false, id! "_mm512_mask_cvtepi32_storeu_epi16", [.ptr, .mask16, .m512i], none⟩,
  /- 5919 -/ ⟨id! "mm512_mask_cvtepi64_storeu_epi16", [.ptr, .ptr, .ptr], false, id! "_mm512_mask_cvtepi64_storeu_epi16", [.ptr, .mask8, .m512i], none⟩,
  /- 5535 -/ ⟨id! "mm512_mask_cvtsepi32_storeu_epi8", [.ptr, .ptr, .ptr], false, id! "_mm512_mask_cvtsepi32_storeu_epi8", [.ptr, .mask16, .m512i], none⟩,
  /- 6111 -/ ⟨id! "mm512_mask_cvtsepi64_storeu_epi8", [.ptr, .ptr, .ptr], false, id! "_mm512_mask_cvtsepi64_storeu_epi8", [.ptr, .mask8, .m512i], none⟩,
  /- 5823 -/ ⟨id! "mm512_mask_cvtsepi64_storeu_epi32", [.ptr, .ptr, .ptr], false, id! "_mm512_mask_cvtsepi64_storeu_epi32", [.ptr, .mask8, .m512i], none⟩,
  /- 5679 -/ ⟨id! "mm512_mask_cvtsepi32_storeu_epi16", [.ptr, .ptr, .ptr], false, id! "_mm512_mask_cvtsepi32_storeu_epi16", [.ptr, .mask16, .m512i], none⟩,
  /- 5967 -/ ⟨id! "mm512_mask_cvtsepi64_storeu_epi16", [.ptr, .ptr, .ptr], false, id! "_mm512_mask_cvtsepi64_storeu_epi16", [.ptr, .mask8, .m512i], none⟩,
  /- 5583 -/ ⟨id! "mm512_mask_cvtusepi32_storeu_epi8", [.ptr, .ptr, .ptr], false, id! "_mm512_mask_cvtusepi32_storeu_epi8", [.ptr, .mask16, .m512i], none⟩,
  /- 6159 -/ ⟨id! "mm512_mask_cvtusepi64_storeu_epi8", [.ptr, .ptr, .ptr], false, id! "_mm512_mask_cvtusepi64_storeu_epi8", [.ptr, .mask8, .m512i], none⟩,
  /- 5871 -/ ⟨id! "mm512_mask_cvtusepi64_storeu_epi32", [.ptr, .ptr, .ptr], false, id! "_mm512_mask_cvtusepi64_storeu_epi32", [.ptr, .mask8, .m512i], none⟩,
  /- 5727 -/ ⟨id! "mm512_mask_cvtusepi32_storeu_epi16", [.ptr, .ptr, .ptr], false, id! "_mm512_mask_cvtusepi32_storeu_epi16", [.ptr, .mask16, .m512i], none⟩,
  /- 6015 -/ ⟨id! "mm512_mask_cvtusepi64_storeu_epi16", [.ptr, .ptr, .ptr], false, id! "_mm512_mask_cvtusepi64_storeu_epi16", [.ptr, .mask8, .m512i], none⟩]

end Verif.Spec.Low
