import Verif.Model.LowAVX512

/-!
# The AVX-512 bindings: the tables

Extracted from unsafe/SIMDLowAVX512.cpp: every entry of the method table (lines 34255-35637), every wrapper function
(28719-34249) and every implementation (11-28690), with its line in a comment. The rows are sorted by identifier, not
by line; the prefix `SIMDLowAVX512_` and the suffix `_impl` of the C++ functions are left out. Not included:
`__enter__`, `__exit__`.
-/

namespace Verif.LowAVX512

/-- The method table, lines 34255-35637: Python name and wrapper function. -/
def methods : List (Ident × Ident) := [
  /- 35171 -/ (id! "mm512_kor", id! "_mm512_kor"),
  /- 35169 -/ (id! "mm512_kand", id! "_mm512_kand"),
  /- 35175 -/ (id! "mm512_kxor", id! "_mm512_kxor"),
  /- 35176 -/ (id! "mm512_knot", id! "_mm512_knot"),
  /- 35558 -/ (id! "mm512_kmov", id! "_mm512_kmov"),
  /- 35167 -/ (id! "load_mask16", id! "_load_mask16"),
  /- 34410 -/ (id! "mm_rcp14_sd", id! "_mm_rcp14_sd"),
  /- 35170 -/ (id! "mm512_kandn", id! "_mm512_kandn"),
  /- 35174 -/ (id! "mm512_kxnor", id! "_mm512_kxnor"),
  /- 34413 -/ (id! "mm_rcp14_ss", id! "_mm_rcp14_ss"),
  /- 35459 -/ (id! "mm_cvtsd_i32", id! "_mm_cvtsd_i32"),
  /- 35460 -/ (id! "mm_cvtss_i32", id! "_mm_cvtss_i32"),
  /- 35470 -/ (id! "mm_cvtsd_u32", id! "_mm_cvtsd_u32"),
  /- 35456 -/ (id! "mm_cvtss_u32", id! "_mm_cvtss_u32"),
  /- 35466 -/ (id! "mm_cvtsd_i64", id! "_mm_cvtsd_i64"),
  /- 35467 -/ (id! "mm_cvtss_i64", id! "_mm_cvtss_i64"),
  /- 35463 -/ (id! "mm_cvtsd_u64", id! "_mm_cvtsd_u64"),
  /- 35452 -/ (id! "mm_cvtss_u64", id! "_mm_cvtss_u64"),
  /- 35168 -/ (id! "store_mask16", id! "_store_mask16"),
  /- 35299 -/ (id! "mm512_sub_pd", id! "_mm512_sub_pd"),
  /- 35289 -/ (id! "mm512_add_pd", id! "_mm512_add_pd"),
  /- 35309 -/ (id! "mm512_mul_pd", id! "_mm512_mul_pd"),
  /- 35339 -/ (id! "mm512_min_pd", id! "_mm512_min_pd"),
  /- 34919 -/ (id! "mm512_abs_pd", id! "_mm512_abs_pd"),
  /- 34261 -/ (id! "mm512_set_pd", id! "_mm512_set_pd"),
  /- 35319 -/ (id! "mm512_div_pd", id! "_mm512_div_pd"),
  /- 35329 -/ (id! "mm512_max_pd", id! "_mm512_max_pd"),
  /- 35461 -/ (id! "mm_cvti32_sd", id! "_mm_cvti32_sd"),
  /- 34665 -/ (id! "mm_cvtu32_sd", id! "_mm_cvtu32_sd"),
  /- 35468 -/ (id! "mm_cvti64_sd", id! "_mm_cvti64_sd"),
  /- 35432 -/ (id! "mm_cvtu64_sd", id! "_mm_cvtu64_sd"),
  /- 35355 -/ (id! "mm_scalef_sd", id! "_mm_scalef_sd"),
  /- 35491 -/ (id! "mm_getexp_sd", id! "_mm_getexp_sd"),
  /- 35302 -/ (id! "mm512_sub_ps", id! "_mm512_sub_ps"),
  /- 35292 -/ (id! "mm512_add_ps", id! "_mm512_add_ps"),
  /- 35312 -/ (id! "mm512_mul_ps", id! "_mm512_mul_ps"),
  /- 35342 -/ (id! "mm512_min_ps", id! "_mm512_min_ps"),
  /- 34917 -/ (id! "mm512_abs_ps", id! "_mm512_abs_ps"),
  /- 34262 -/ (id! "mm512_set_ps", id! "_mm512_set_ps"),
  /- 35322 -/ (id! "mm512_div_ps", id! "_mm512_div_ps"),
  /- 35332 -/ (id! "mm512_max_ps", id! "_mm512_max_ps"),
  /- 35462 -/ (id! "mm_cvti32_ss", id! "_mm_cvti32_ss"),
  /- 35433 -/ (id! "mm_cvtu32_ss", id! "_mm_cvtu32_ss"),
  /- 35469 -/ (id! "mm_cvti64_ss", id! "_mm_cvti64_ss"),
  /- 35431 -/ (id! "mm_cvtu64_ss", id! "_mm_cvtu64_ss"),
  /- 35356 -/ (id! "mm_scalef_ss", id! "_mm_scalef_ss"),
  /- 35488 -/ (id! "mm_getexp_ss", id! "_mm_getexp_ss"),
  /- 35472 -/ (id! "mm_cvttsd_i32", id! "_mm_cvttsd_i32"),
  /- 35458 -/ (id! "mm_cvttss_i32", id! "_mm_cvttss_i32"),
  /- 35165 -/ (id! "cvtmask16_u32", id! "_cvtmask16_u32"),
  /- 35471 -/ (id! "mm_cvttsd_u32", id! "_mm_cvttsd_u32"),
  /- 35457 -/ (id! "mm_cvttss_u32", id! "_mm_cvttss_u32"),
  /- 35465 -/ (id! "mm_cvttsd_i64", id! "_mm_cvttsd_i64"),
  /- 35454 -/ (id! "mm_cvttss_i64", id! "_mm_cvttss_i64"),
  /- 35464 -/ (id! "mm_cvttsd_u64", id! "_mm_cvttsd_u64"),
  /- 35453 -/ (id! "mm_cvttss_u64", id! "_mm_cvttss_u64"),
  /- 35166 -/ (id! "cvtu32_mask16", id! "_cvtu32_mask16"),
  /- 34268 -/ (id! "mm512_set1_pd", id! "_mm512_set1_pd"),
  /- 34272 -/ (id! "mm512_set4_pd", id! "_mm512_set4_pd"),
  /- 34283 -/ (id! "mm512_load_pd", id! "_mm512_load_pd"),
  /- 35033 -/ (id! "mm512_ceil_pd", id! "_mm512_ceil_pd"),
  /- 35283 -/ (id! "mm512_sqrt_pd", id! "_mm512_sqrt_pd"),
  /- 34422 -/ (id! "mm_rsqrt14_sd", id! "_mm_rsqrt14_sd"),
  /- 35500 -/ (id! "mm_getmant_sd", id! "_mm_getmant_sd"),
  /- 34275 -/ (id! "mm512_setzero", id! "_mm512_setzero"),
  /- 34269 -/ (id! "mm512_set1_ps", id! "_mm512_set1_ps"),
  /- 34273 -/ (id! "mm512_set4_ps", id! "_mm512_set4_ps"),
  /- 34288 -/ (id! "mm512_load_ps", id! "_mm512_load_ps"),
  /- 35032 -/ (id! "mm512_ceil_ps", id! "_mm512_ceil_ps"),
  /- 35286 -/ (id! "mm512_sqrt_ps", id! "_mm512_sqrt_ps"),
  /- 34425 -/ (id! "mm_rsqrt14_ss", id! "_mm_rsqrt14_ss"),
  /- 35503 -/ (id! "mm_getmant_ss", id! "_mm_getmant_ss"),
  /- 34869 -/ (id! "mm512_or_si512", id! "_mm512_or_si512"),
  /- 34870 -/ (id! "mm512_or_epi32", id! "_mm512_or_epi32"),
  /- 34873 -/ (id! "mm512_or_epi64", id! "_mm512_or_epi64"),
  /- 34260 -/ (id! "mm512_set_epi8", id! "_mm512_set_epi8"),
  /- 35177 -/ (id! "mm512_kunpackb", id! "_mm512_kunpackb"),
  /- 35173 -/ (id! "mm512_kortestc", id! "_mm512_kortestc"),
  /- 34404 -/ (id! "mm512_rcp14_pd", id! "_mm512_rcp14_pd"),
  /- 35365 -/ (id! "mm512_fmsub_pd", id! "_mm512_fmsub_pd"),
  /- 35357 -/ (id! "mm512_fmadd_pd", id! "_mm512_fmadd_pd"),
  /- 34286 -/ (id! "mm512_store_pd", id! "_mm512_store_pd"),
  /- 35031 -/ (id! "mm512_floor_pd", id! "_mm512_floor_pd"),
  /- 35473 -/ (id! "mm512_cvtps_pd", id! "_mm512_cvtps_pd"),
  /- 34767 -/ (id! "mm512_loadu_pd", id! "_mm512_loadu_pd"),
  /- 35305 -/ (id! "mm_mask_sub_sd", id! "_mm_mask_sub_sd"),
  /- 35295 -/ (id! "mm_mask_add_sd", id! "_mm_mask_add_sd"),
  /- 35315 -/ (id! "mm_mask_mul_sd", id! "_mm_mask_mul_sd"),
  /- 35446 -/ (id! "mm_fixupimm_sd", id! "_mm_fixupimm_sd"),
  /- 35345 -/ (id! "mm_mask_min_sd", id! "_mm_mask_min_sd"),
  /- 35325 -/ (id! "mm_mask_div_sd", id! "_mm_mask_div_sd"),
  /- 35335 -/ (id! "mm_mask_max_sd", id! "_mm_mask_max_sd"),
  /- 34976 -/ (id! "mm512_cvtps_ph", id! "_mm512_cvtps_ph"),
  /- 34255 -/ (id! "mm512_int2mask", id! "_mm512_int2mask"),
  /- 35522 -/ (id! "mm_cmp_sd_mask", id! "_mm_cmp_sd_mask"),
  /- 35524 -/ (id! "mm_cmp_ss_mask", id! "_mm_cmp_ss_mask"),
  /- 34407 -/ (id! "mm512_rcp14_ps", id! "_mm512_rcp14_ps"),
  /- 35369 -/ (id! "mm512_fmsub_ps", id! "_mm512_fmsub_ps"),
  /- 35361 -/ (id! "mm512_fmadd_ps", id! "_mm512_fmadd_ps"),
  /- 35479 -/ (id! "mm512_cvtpd_ps", id! "_mm512_cvtpd_ps"),
  /- 34291 -/ (id! "mm512_store_ps", id! "_mm512_store_ps"),
  /- 35476 -/ (id! "mm512_cvtph_ps", id! "_mm512_cvtph_ps"),
  /- 35030 -/ (id! "mm512_floor_ps", id! "_mm512_floor_ps"),
  /- 34772 -/ (id! "mm512_loadu_ps", id! "_mm512_loadu_ps"),
  /- 35307 -/ (id! "mm_mask_sub_ss", id! "_mm_mask_sub_ss"),
  /- 35297 -/ (id! "mm_mask_add_ss", id! "_mm_mask_add_ss"),
  /- 35317 -/ (id! "mm_mask_mul_ss", id! "_mm_mask_mul_ss"),
  /- 35449 -/ (id! "mm_fixupimm_ss", id! "_mm_fixupimm_ss"),
  /- 35347 -/ (id! "mm_mask_min_ss", id! "_mm_mask_min_ss"),
  /- 35327 -/ (id! "mm_mask_div_ss", id! "_mm_mask_div_ss"),
  /- 35337 -/ (id! "mm_mask_max_ss", id! "_mm_mask_max_ss"),
  /- 34256 -/ (id! "mm512_mask2int", id! "_mm512_mask2int"),
  /- 35172 -/ (id! "mm512_kortestz", id! "_mm512_kortestz"),
  /- 34895 -/ (id! "mm512_and_si512", id! "_mm512_and_si512"),
  /- 34876 -/ (id! "mm512_xor_si512", id! "_mm512_xor_si512"),
  /- 35430 -/ (id! "mm512_cvtss_f32", id! "_mm512_cvtss_f32"),
  /- 34383 -/ (id! "mm512_sra_epi32", id! "_mm512_sra_epi32"),
  /- 34344 -/ (id! "mm512_sub_epi32", id! "_mm512_sub_epi32"),
  /- 34338 -/ (id! "mm512_add_epi32", id! "_mm512_add_epi32"),
  /- 34896 -/ (id! "mm512_and_epi32", id! "_mm512_and_epi32"),
  /- 34371 -/ (id! "mm512_sll_epi32", id! "_mm512_sll_epi32"),
  /- 34883 -/ (id! "mm512_rol_epi32", id! "_mm512_rol_epi32"),
  /- 34377 -/ (id! "mm512_srl_epi32", id! "_mm512_srl_epi32"),
  /- 34341 -/ (id! "mm512_mul_epi32", id! "_mm512_mul_epi32"),
  /- 35197 -/ (id! "mm512_min_epi32", id! "_mm512_min_epi32"),
  /- 34886 -/ (id! "mm512_ror_epi32", id! "_mm512_ror_epi32"),
  /- 34877 -/ (id! "mm512_xor_epi32", id! "_mm512_xor_epi32"),
  /- 34581 -/ (id! "mm512_abs_epi32", id! "_mm512_abs_epi32"),
  /- 34258 -/ (id! "mm512_set_epi32", id! "_mm512_set_epi32"),
  /- 35194 -/ (id! "mm512_max_epi32", id! "_mm512_max_epi32"),
  /- 34347 -/ (id! "mm512_mul_epu32", id! "_mm512_mul_epu32"),
  /- 35203 -/ (id! "mm512_min_epu32", id! "_mm512_min_epu32"),
  /- 35200 -/ (id! "mm512_max_epu32", id! "_mm512_max_epu32"),
  /- 35429 -/ (id! "mm512_cvtsd_f64", id! "_mm512_cvtsd_f64"),
  /- 34365 -/ (id! "mm512_sra_epi64", id! "_mm512_sra_epi64"),
  /- 34326 -/ (id! "mm512_sub_epi64", id! "_mm512_sub_epi64"),
  /- 34323 -/ (id! "mm512_add_epi64", id! "_mm512_add_epi64"),
  /- 34899 -/ (id! "mm512_and_epi64", id! "_mm512_and_epi64"),
  /- 34353 -/ (id! "mm512_sll_epi64", id! "_mm512_sll_epi64"),
  /- 34889 -/ (id! "mm512_rol_epi64", id! "_mm512_rol_epi64"),
  /- 34359 -/ (id! "mm512_srl_epi64", id! "_mm512_srl_epi64"),
  /- 35185 -/ (id! "mm512_min_epi64", id! "_mm512_min_epi64"),
  /- 34892 -/ (id! "mm512_ror_epi64", id! "_mm512_ror_epi64"),
  /- 34880 -/ (id! "mm512_xor_epi64", id! "_mm512_xor_epi64"),
  /- 34578 -/ (id! "mm512_abs_epi64", id! "_mm512_abs_epi64"),
  /- 34257 -/ (id! "mm512_set_epi64", id! "_mm512_set_epi64"),
  /- 35182 -/ (id! "mm512_max_epi64", id! "_mm512_max_epi64"),
  /- 35191 -/ (id! "mm512_min_epu64", id! "_mm512_min_epu64"),
  /- 35188 -/ (id! "mm512_max_epu64", id! "_mm512_max_epu64"),
  /- 34259 -/ (id! "mm512_set_epi16", id! "_mm512_set_epi16"),
  /- 35084 -/ (id! "kshiftli_mask16", id! "_kshiftli_mask16"),
  /- 35085 -/ (id! "kshiftri_mask16", id! "_kshiftri_mask16"),
  /- 34266 -/ (id! "mm512_set1_epi8", id! "_mm512_set1_epi8"),
  /- 35397 -/ (id! "mm512_fnmsub_pd", id! "_mm512_fnmsub_pd"),
  /- 35389 -/ (id! "mm512_fnmadd_pd", id! "_mm512_fnmadd_pd"),
  /- 35349 -/ (id! "mm512_scalef_pd", id! "_mm512_scalef_pd"),
  /- 34992 -/ (id! "mm512_stream_pd", id! "_mm512_stream_pd"),
  /- 35485 -/ (id! "mm512_getexp_pd", id! "_mm512_getexp_pd"),
  /- 35561 -/ (id! "mm512_castps_pd", id! "_mm512_castps_pd"),
  /- 34770 -/ (id! "mm512_storeu_pd", id! "_mm512_storeu_pd"),
  /- 35306 -/ (id! "mm_maskz_sub_sd", id! "_mm_maskz_sub_sd"),
  /- 34779 -/ (id! "mm_mask_load_sd", id! "_mm_mask_load_sd"),
  /- 35296 -/ (id! "mm_maskz_add_sd", id! "_mm_maskz_add_sd"),
  /- 34392 -/ (id! "mm_sub_round_sd", id! "_mm_sub_round_sd"),
  /- 34386 -/ (id! "mm_add_round_sd", id! "_mm_add_round_sd"),
  /- 34494 -/ (id! "mm_mul_round_sd", id! "_mm_mul_round_sd"),
  /- 35215 -/ (id! "mm_min_round_sd", id! "_mm_min_round_sd"),
  /- 34500 -/ (id! "mm_div_round_sd", id! "_mm_div_round_sd"),
  /- 35209 -/ (id! "mm_max_round_sd", id! "_mm_max_round_sd"),
  /- 34783 -/ (id! "mm_mask_move_sd", id! "_mm_mask_move_sd"),
  /- 35316 -/ (id! "mm_maskz_mul_sd", id! "_mm_maskz_mul_sd"),
  /- 35346 -/ (id! "mm_maskz_min_sd", id! "_mm_maskz_min_sd"),
  /- 35326 -/ (id! "mm_maskz_div_sd", id! "_mm_maskz_div_sd"),
  /- 35336 -/ (id! "mm_maskz_max_sd", id! "_mm_maskz_max_sd"),
  /- 35401 -/ (id! "mm512_fnmsub_ps", id! "_mm512_fnmsub_ps"),
  /- 35393 -/ (id! "mm512_fnmadd_ps", id! "_mm512_fnmadd_ps"),
  /- 35559 -/ (id! "mm512_castpd_ps", id! "_mm512_castpd_ps"),
  /- 35352 -/ (id! "mm512_scalef_ps", id! "_mm512_scalef_ps"),
  /- 34991 -/ (id! "mm512_stream_ps", id! "_mm512_stream_ps"),
  /- 35482 -/ (id! "mm512_getexp_ps", id! "_mm512_getexp_ps"),
  /- 34775 -/ (id! "mm512_storeu_ps", id! "_mm512_storeu_ps"),
  /- 35308 -/ (id! "mm_maskz_sub_ss", id! "_mm_maskz_sub_ss"),
  /- 34777 -/ (id! "mm_mask_load_ss", id! "_mm_mask_load_ss"),
  /- 35298 -/ (id! "mm_maskz_add_ss", id! "_mm_maskz_add_ss"),
  /- 34395 -/ (id! "mm_sub_round_ss", id! "_mm_sub_round_ss"),
  /- 34389 -/ (id! "mm_add_round_ss", id! "_mm_add_round_ss"),
  /- 34497 -/ (id! "mm_mul_round_ss", id! "_mm_mul_round_ss"),
  /- 35218 -/ (id! "mm_min_round_ss", id! "_mm_min_round_ss"),
  /- 34503 -/ (id! "mm_div_round_ss", id! "_mm_div_round_ss"),
  /- 35212 -/ (id! "mm_max_round_ss", id! "_mm_max_round_ss"),
  /- 34781 -/ (id! "mm_mask_move_ss", id! "_mm_mask_move_ss"),
  /- 35318 -/ (id! "mm_maskz_mul_ss", id! "_mm_maskz_mul_ss"),
  /- 35348 -/ (id! "mm_maskz_min_ss", id! "_mm_maskz_min_ss"),
  /- 35328 -/ (id! "mm_maskz_div_ss", id! "_mm_maskz_div_ss"),
  /- 35338 -/ (id! "mm_maskz_max_ss", id! "_mm_maskz_max_ss"),
  /- 34302 -/ (id! "mm512_load_si512", id! "_mm512_load_si512"),
  /- 34593 -/ (id! "mm512_set1_epi32", id! "_mm512_set1_epi32"),
  /- 34270 -/ (id! "mm512_set4_epi32", id! "_mm512_set4_epi32"),
  /- 34303 -/ (id! "mm512_load_epi32", id! "_mm512_load_epi32"),
  /- 34380 -/ (id! "mm512_srai_epi32", id! "_mm512_srai_epi32"),
  /- 34368 -/ (id! "mm512_slli_epi32", id! "_mm512_slli_epi32"),
  /- 34374 -/ (id! "mm512_srli_epi32", id! "_mm512_srli_epi32"),
  /- 34317 -/ (id! "mm512_srav_epi32", id! "_mm512_srav_epi32"),
  /- 34314 -/ (id! "mm512_sllv_epi32", id! "_mm512_sllv_epi32"),
  /- 34629 -/ (id! "mm512_rolv_epi32", id! "_mm512_rolv_epi32"),
  /- 34320 -/ (id! "mm512_srlv_epi32", id! "_mm512_srlv_epi32"),
  /- 34632 -/ (id! "mm512_rorv_epi32", id! "_mm512_rorv_epi32"),
  /- 34599 -/ (id! "mm512_set1_epi64", id! "_mm512_set1_epi64"),
  /- 34271 -/ (id! "mm512_set4_epi64", id! "_mm512_set4_epi64"),
  /- 34295 -/ (id! "mm512_load_epi64", id! "_mm512_load_epi64"),
  /- 34362 -/ (id! "mm512_srai_epi64", id! "_mm512_srai_epi64"),
  /- 34350 -/ (id! "mm512_slli_epi64", id! "_mm512_slli_epi64"),
  /- 34356 -/ (id! "mm512_srli_epi64", id! "_mm512_srli_epi64"),
  /- 34332 -/ (id! "mm512_srav_epi64", id! "_mm512_srav_epi64"),
  /- 34329 -/ (id! "mm512_sllv_epi64", id! "_mm512_sllv_epi64"),
  /- 34635 -/ (id! "mm512_rolv_epi64", id! "_mm512_rolv_epi64"),
  /- 34335 -/ (id! "mm512_srlv_epi64", id! "_mm512_srlv_epi64"),
  /- 34638 -/ (id! "mm512_rorv_epi64", id! "_mm512_rorv_epi64"),
  /- 34267 -/ (id! "mm512_set1_epi16", id! "_mm512_set1_epi16"),
  /- 34416 -/ (id! "mm512_rsqrt14_pd", id! "_mm512_rsqrt14_pd"),
  /- 34848 -/ (id! "mm512_shuffle_pd", id! "_mm512_shuffle_pd"),
  /- 34821 -/ (id! "mm512_permute_pd", id! "_mm512_permute_pd"),
  /- 34276 -/ (id! "mm512_setzero_pd", id! "_mm512_setzero_pd"),
  /- 34957 -/ (id! "mm512_movedup_pd", id! "_mm512_movedup_pd"),
  /- 35494 -/ (id! "mm512_getmant_pd", id! "_mm512_getmant_pd"),
  /- 34411 -/ (id! "mm_mask_rcp14_sd", id! "_mm_mask_rcp14_sd"),
  /- 35239 -/ (id! "mm_mask_fmsub_sd", id! "_mm_mask_fmsub_sd"),
  /- 34780 -/ (id! "mm_maskz_load_sd", id! "_mm_maskz_load_sd"),
  /- 35233 -/ (id! "mm_mask_fmadd_sd", id! "_mm_mask_fmadd_sd"),
  /- 35282 -/ (id! "mm_comi_round_sd", id! "_mm_comi_round_sd"),
  /- 34434 -/ (id! "mm_sqrt_round_sd", id! "_mm_sqrt_round_sd"),
  /- 35515 -/ (id! "mm_roundscale_sd", id! "_mm_roundscale_sd"),
  /- 34786 -/ (id! "mm_mask_store_sd", id! "_mm_mask_store_sd"),
  /- 34784 -/ (id! "mm_maskz_move_sd", id! "_mm_maskz_move_sd"),
  /- 34419 -/ (id! "mm512_rsqrt14_ps", id! "_mm512_rsqrt14_ps"),
  /- 34845 -/ (id! "mm512_shuffle_ps", id! "_mm512_shuffle_ps"),
  /- 34824 -/ (id! "mm512_permute_ps", id! "_mm512_permute_ps"),
  /- 34274 -/ (id! "mm512_setzero_ps", id! "_mm512_setzero_ps"),
  /- 35497 -/ (id! "mm512_getmant_ps", id! "_mm512_getmant_ps"),
  /- 34414 -/ (id! "mm_mask_rcp14_ss", id! "_mm_mask_rcp14_ss"),
  /- 35240 -/ (id! "mm_mask_fmsub_ss", id! "_mm_mask_fmsub_ss"),
  /- 34778 -/ (id! "mm_maskz_load_ss", id! "_mm_maskz_load_ss"),
  /- 35234 -/ (id! "mm_mask_fmadd_ss", id! "_mm_mask_fmadd_ss"),
  /- 35281 -/ (id! "mm_comi_round_ss", id! "_mm_comi_round_ss"),
  /- 34437 -/ (id! "mm_sqrt_round_ss", id! "_mm_sqrt_round_ss"),
  /- 35512 -/ (id! "mm_roundscale_ss", id! "_mm_roundscale_ss"),
  /- 34785 -/ (id! "mm_mask_store_ss", id! "_mm_mask_store_ss"),
  /- 34782 -/ (id! "mm_maskz_move_ss", id! "_mm_maskz_move_ss"),
  /- 34306 -/ (id! "mm512_store_si512", id! "_mm512_store_si512"),
  /- 34792 -/ (id! "mm512_loadu_si512", id! "_mm512_loadu_si512"),
  /- 35411 -/ (id! "mm512_cvtpd_epi32", id! "_mm512_cvtpd_epi32"),
  /- 34307 -/ (id! "mm512_store_epi32", id! "_mm512_store_epi32"),
  /- 34309 -/ (id! "mm512_mullo_epi32", id! "_mm512_mullo_epi32"),
  /- 35423 -/ (id! "mm512_cvtps_epi32", id! "_mm512_cvtps_epi32"),
  /- 34793 -/ (id! "mm512_loadu_epi32", id! "_mm512_loadu_epi32"),
  /- 35414 -/ (id! "mm512_cvtpd_epu32", id! "_mm512_cvtpd_epu32"),
  /- 35426 -/ (id! "mm512_cvtps_epu32", id! "_mm512_cvtps_epu32"),
  /- 34298 -/ (id! "mm512_store_epi64", id! "_mm512_store_epi64"),
  /- 34787 -/ (id! "mm512_loadu_epi64", id! "_mm512_loadu_epi64"),
  /- 34760 -/ (id! "mm512_insertf32x4", id! "_mm512_insertf32x4"),
  /- 34759 -/ (id! "mm512_inserti32x4", id! "_mm512_inserti32x4"),
  /- 34764 -/ (id! "mm512_insertf64x4", id! "_mm512_insertf64x4"),
  /- 34761 -/ (id! "mm512_inserti64x4", id! "_mm512_inserti64x4"),
  /- 35162 -/ (id! "kortest_mask16_u8", id! "_kortest_mask16_u8"),
  /- 34735 -/ (id! "mm512_cvtepi32_pd", id! "_mm512_cvtepi32_pd"),
  /- 34738 -/ (id! "mm512_cvtepu32_pd", id! "_mm512_cvtepu32_pd"),
  /- 35300 -/ (id! "mm512_mask_sub_pd", id! "_mm512_mask_sub_pd"),
  /- 35373 -/ (id! "mm512_fmaddsub_pd", id! "_mm512_fmaddsub_pd"),
  /- 35290 -/ (id! "mm512_mask_add_pd", id! "_mm512_mask_add_pd"),
  /- 35381 -/ (id! "mm512_fmsubadd_pd", id! "_mm512_fmsubadd_pd"),
  /- 34963 -/ (id! "mm512_unpackhi_pd", id! "_mm512_unpackhi_pd"),
  /- 35310 -/ (id! "mm512_mask_mul_pd", id! "_mm512_mask_mul_pd"),
  /- 35440 -/ (id! "mm512_fixupimm_pd", id! "_mm512_fixupimm_pd"),
  /- 35340 -/ (id! "mm512_mask_min_pd", id! "_mm512_mask_min_pd"),
  /- 34960 -/ (id! "mm512_unpacklo_pd", id! "_mm512_unpacklo_pd"),
  /- 34920 -/ (id! "mm512_mask_abs_pd", id! "_mm512_mask_abs_pd"),
  /- 35320 -/ (id! "mm512_mask_div_pd", id! "_mm512_mask_div_pd"),
  /- 34279 -/ (id! "mm512_mask_mov_pd", id! "_mm512_mask_mov_pd"),
  /- 35330 -/ (id! "mm512_mask_max_pd", id! "_mm512_mask_max_pd"),
  /- 34830 -/ (id! "mm512_permutex_pd", id! "_mm512_permutex_pd"),
  /- 34412 -/ (id! "mm_maskz_rcp14_sd", id! "_mm_maskz_rcp14_sd"),
  /- 35241 -/ (id! "mm_mask3_fmsub_sd", id! "_mm_mask3_fmsub_sd"),
  /- 35243 -/ (id! "mm_maskz_fmsub_sd", id! "_mm_maskz_fmsub_sd"),
  /- 35251 -/ (id! "mm_mask_fnmsub_sd", id! "_mm_mask_fnmsub_sd"),
  /- 35235 -/ (id! "mm_mask3_fmadd_sd", id! "_mm_mask3_fmadd_sd"),
  /- 35237 -/ (id! "mm_maskz_fmadd_sd", id! "_mm_maskz_fmadd_sd"),
  /- 35245 -/ (id! "mm_mask_fnmadd_sd", id! "_mm_mask_fnmadd_sd"),
  /- 35227 -/ (id! "mm_fmsub_round_sd", id! "_mm_fmsub_round_sd"),
  /- 35225 -/ (id! "mm_fmadd_round_sd", id! "_mm_fmadd_round_sd"),
  /- 35492 -/ (id! "mm_mask_getexp_sd", id! "_mm_mask_getexp_sd"),
  /- 34987 -/ (id! "mm_cvt_roundss_sd", id! "_mm_cvt_roundss_sd"),
  /- 35518 -/ (id! "mm512_cmp_pd_mask", id! "_mm512_cmp_pd_mask"),
  /- 35519 -/ (id! "mm512_cmp_ps_mask", id! "_mm512_cmp_ps_mask"),
  /- 35434 -/ (id! "mm512_cvtepi32_ps", id! "_mm512_cvtepi32_ps"),
  /- 35437 -/ (id! "mm512_cvtepu32_ps", id! "_mm512_cvtepu32_ps"),
  /- 35303 -/ (id! "mm512_mask_sub_ps", id! "_mm512_mask_sub_ps"),
  /- 35377 -/ (id! "mm512_fmaddsub_ps", id! "_mm512_fmaddsub_ps"),
  /- 35293 -/ (id! "mm512_mask_add_ps", id! "_mm512_mask_add_ps"),
  /- 35385 -/ (id! "mm512_fmsubadd_ps", id! "_mm512_fmsubadd_ps"),
  /- 34966 -/ (id! "mm512_unpackhi_ps", id! "_mm512_unpackhi_ps"),
  /- 35313 -/ (id! "mm512_mask_mul_ps", id! "_mm512_mask_mul_ps"),
  /- 35443 -/ (id! "mm512_fixupimm_ps", id! "_mm512_fixupimm_ps"),
  /- 35343 -/ (id! "mm512_mask_min_ps", id! "_mm512_mask_min_ps"),
  /- 35206 -/ (id! "mm512_unpacklo_ps", id! "_mm512_unpacklo_ps"),
  /- 34863 -/ (id! "mm512_movehdup_ps", id! "_mm512_movehdup_ps"),
  /- 34866 -/ (id! "mm512_moveldup_ps", id! "_mm512_moveldup_ps"),
  /- 34918 -/ (id! "mm512_mask_abs_ps", id! "_mm512_mask_abs_ps"),
  /- 35323 -/ (id! "mm512_mask_div_ps", id! "_mm512_mask_div_ps"),
  /- 34281 -/ (id! "mm512_mask_mov_ps", id! "_mm512_mask_mov_ps"),
  /- 35333 -/ (id! "mm512_mask_max_ps", id! "_mm512_mask_max_ps"),
  /- 34415 -/ (id! "mm_maskz_rcp14_ss", id! "_mm_maskz_rcp14_ss"),
  /- 35242 -/ (id! "mm_mask3_fmsub_ss", id! "_mm_mask3_fmsub_ss"),
  /- 35244 -/ (id! "mm_maskz_fmsub_ss", id! "_mm_maskz_fmsub_ss"),
  /- 35252 -/ (id! "mm_mask_fnmsub_ss", id! "_mm_mask_fnmsub_ss"),
  /- 35236 -/ (id! "mm_mask3_fmadd_ss", id! "_mm_mask3_fmadd_ss"),
  /- 35238 -/ (id! "mm_maskz_fmadd_ss", id! "_mm_maskz_fmadd_ss"),
  /- 35246 -/ (id! "mm_mask_fnmadd_ss", id! "_mm_mask_fnmadd_ss"),
  /- 35228 -/ (id! "mm_fmsub_round_ss", id! "_mm_fmsub_round_ss"),
  /- 35226 -/ (id! "mm_fmadd_round_ss", id! "_mm_fmadd_round_ss"),
  /- 34984 -/ (id! "mm_cvt_roundsd_ss", id! "_mm_cvt_roundsd_ss"),
  /- 35489 -/ (id! "mm_mask_getexp_ss", id! "_mm_mask_getexp_ss"),
  /- 35560 -/ (id! "mm512_castpd_si512", id! "_mm512_castpd_si512"),
  /- 34990 -/ (id! "mm512_stream_si512", id! "_mm512_stream_si512"),
  /- 35562 -/ (id! "mm512_castps_si512", id! "_mm512_castps_si512"),
  /- 34902 -/ (id! "mm512_andnot_si512", id! "_mm512_andnot_si512"),
  /- 34796 -/ (id! "mm512_storeu_si512", id! "_mm512_storeu_si512"),
  /- 34953 -/ (id! "mm_cvt_roundsd_i32", id! "_mm_cvt_roundsd_i32"),
  /- 34941 -/ (id! "mm_cvt_roundss_i32", id! "_mm_cvt_roundss_i32"),
  /- 35405 -/ (id! "mm512_cvttpd_epi32", id! "_mm512_cvttpd_epi32"),
  /- 35038 -/ (id! "mm512_alignr_epi32", id! "_mm512_alignr_epi32"),
  /- 35417 -/ (id! "mm512_cvttps_epi32", id! "_mm512_cvttps_epi32"),
  /- 34903 -/ (id! "mm512_andnot_epi32", id! "_mm512_andnot_epi32"),
  /- 34797 -/ (id! "mm512_storeu_epi32", id! "_mm512_storeu_epi32"),
  /- 34951 -/ (id! "mm_cvt_roundsd_u32", id! "_mm_cvt_roundsd_u32"),
  /- 34939 -/ (id! "mm_cvt_roundss_u32", id! "_mm_cvt_roundss_u32"),
  /- 35408 -/ (id! "mm512_cvttpd_epu32", id! "_mm512_cvttpd_epu32"),
  /- 35420 -/ (id! "mm512_cvttps_epu32", id! "_mm512_cvttps_epu32"),
  /- 34947 -/ (id! "mm_cvt_roundsd_i64", id! "_mm_cvt_roundsd_i64"),
  /- 34935 -/ (id! "mm_cvt_roundss_i64", id! "_mm_cvt_roundss_i64"),
  /- 35041 -/ (id! "mm512_alignr_epi64", id! "_mm512_alignr_epi64"),
  /- 34906 -/ (id! "mm512_andnot_epi64", id! "_mm512_andnot_epi64"),
  /- 34790 -/ (id! "mm512_storeu_epi64", id! "_mm512_storeu_epi64"),
  /- 34312 -/ (id! "mm512_mullox_epi64", id! "_mm512_mullox_epi64"),
  /- 34945 -/ (id! "mm_cvt_roundsd_u64", id! "_mm_cvt_roundsd_u64"),
  /- 34933 -/ (id! "mm_cvt_roundss_u64", id! "_mm_cvt_roundss_u64"),
  /- 35164 -/ (id! "kortestc_mask16_u8", id! "_kortestc_mask16_u8"),
  /- 35163 -/ (id! "kortestz_mask16_u8", id! "_kortestz_mask16_u8"),
  /- 35564 -/ (id! "mm512_castsi512_pd", id! "_mm512_castsi512_pd"),
  /- 35301 -/ (id! "mm512_maskz_sub_pd", id! "_mm512_maskz_sub_pd"),
  /- 34284 -/ (id! "mm512_mask_load_pd", id! "_mm512_mask_load_pd"),
  /- 35291 -/ (id! "mm512_maskz_add_pd", id! "_mm512_maskz_add_pd"),
  /- 34264 -/ (id! "mm512_undefined_pd", id! "_mm512_undefined_pd"),
  /- 34476 -/ (id! "mm512_sub_round_pd", id! "_mm512_sub_round_pd"),
  /- 34470 -/ (id! "mm512_add_round_pd", id! "_mm512_add_round_pd"),
  /- 34482 -/ (id! "mm512_mul_round_pd", id! "_mm512_mul_round_pd"),
  /- 34512 -/ (id! "mm512_min_round_pd", id! "_mm512_min_round_pd"),
  /- 34488 -/ (id! "mm512_div_round_pd", id! "_mm512_div_round_pd"),
  /- 34506 -/ (id! "mm512_max_round_pd", id! "_mm512_max_round_pd"),
  /- 35037 -/ (id! "mm512_mask_ceil_pd", id! "_mm512_mask_ceil_pd"),
  /- 35311 -/ (id! "mm512_maskz_mul_pd", id! "_mm512_maskz_mul_pd"),
  /- 35341 -/ (id! "mm512_maskz_min_pd", id! "_mm512_maskz_min_pd"),
  /- 35104 -/ (id! "mm512_i32gather_pd", id! "_mm512_i32gather_pd"),
  /- 35108 -/ (id! "mm512_i64gather_pd", id! "_mm512_i64gather_pd"),
  /- 35284 -/ (id! "mm512_mask_sqrt_pd", id! "_mm512_mask_sqrt_pd"),
  /- 35321 -/ (id! "mm512_maskz_div_pd", id! "_mm512_maskz_div_pd"),
  /- 34280 -/ (id! "mm512_maskz_mov_pd", id! "_mm512_maskz_mov_pd"),
  /- 35331 -/ (id! "mm512_maskz_max_pd", id! "_mm512_maskz_max_pd"),
  /- 34423 -/ (id! "mm_mask_rsqrt14_sd", id! "_mm_mask_rsqrt14_sd"),
  /- 34667 -/ (id! "mm_cvt_roundi64_sd", id! "_mm_cvt_roundi64_sd"),
  /- 34666 -/ (id! "mm_cvt_roundu64_sd", id! "_mm_cvt_roundu64_sd"),
  /- 35253 -/ (id! "mm_mask3_fnmsub_sd", id! "_mm_mask3_fnmsub_sd"),
  /- 35255 -/ (id! "mm_maskz_fnmsub_sd", id! "_mm_maskz_fnmsub_sd"),
  /- 35247 -/ (id! "mm_mask3_fnmadd_sd", id! "_mm_mask3_fnmadd_sd"),
  /- 35249 -/ (id! "mm_maskz_fnmadd_sd", id! "_mm_maskz_fnmadd_sd"),
  /- 35231 -/ (id! "mm_fnmsub_round_sd", id! "_mm_fnmsub_round_sd"),
  /- 35229 -/ (id! "mm_fnmadd_round_sd", id! "_mm_fnmadd_round_sd"),
  /- 34524 -/ (id! "mm_scalef_round_sd", id! "_mm_scalef_round_sd"),
  /- 34997 -/ (id! "mm_getexp_round_sd", id! "_mm_getexp_round_sd"),
  /- 35493 -/ (id! "mm_maskz_getexp_sd", id! "_mm_maskz_getexp_sd"),
  /- 35501 -/ (id! "mm_mask_getmant_sd", id! "_mm_mask_getmant_sd"),
  /- 35563 -/ (id! "mm512_castsi512_ps", id! "_mm512_castsi512_ps"),
  /- 35304 -/ (id! "mm512_maskz_sub_ps", id! "_mm512_maskz_sub_ps"),
  /- 34289 -/ (id! "mm512_mask_load_ps", id! "_mm512_mask_load_ps"),
  /- 35294 -/ (id! "mm512_maskz_add_ps", id! "_mm512_maskz_add_ps"),
  /- 34263 -/ (id! "mm512_undefined_ps", id! "_mm512_undefined_ps"),
  /- 34479 -/ (id! "mm512_sub_round_ps", id! "_mm512_sub_round_ps"),
  /- 34473 -/ (id! "mm512_add_round_ps", id! "_mm512_add_round_ps"),
  /- 34485 -/ (id! "mm512_mul_round_ps", id! "_mm512_mul_round_ps"),
  /- 34515 -/ (id! "mm512_min_round_ps", id! "_mm512_min_round_ps"),
  /- 34491 -/ (id! "mm512_div_round_ps", id! "_mm512_div_round_ps"),
  /- 34509 -/ (id! "mm512_max_round_ps", id! "_mm512_max_round_ps"),
  /- 35036 -/ (id! "mm512_mask_ceil_ps", id! "_mm512_mask_ceil_ps"),
  /- 35314 -/ (id! "mm512_maskz_mul_ps", id! "_mm512_maskz_mul_ps"),
  /- 35344 -/ (id! "mm512_maskz_min_ps", id! "_mm512_maskz_min_ps"),
  /- 35102 -/ (id! "mm512_i32gather_ps", id! "_mm512_i32gather_ps"),
  /- 35106 -/ (id! "mm512_i64gather_ps", id! "_mm512_i64gather_ps"),
  /- 35287 -/ (id! "mm512_mask_sqrt_ps", id! "_mm512_mask_sqrt_ps"),
  /- 35324 -/ (id! "mm512_maskz_div_ps", id! "_mm512_maskz_div_ps"),
  /- 34282 -/ (id! "mm512_maskz_mov_ps", id! "_mm512_maskz_mov_ps"),
  /- 35334 -/ (id! "mm512_maskz_max_ps", id! "_mm512_maskz_max_ps"),
  /- 34671 -/ (id! "mm_cvt_roundi32_ss", id! "_mm_cvt_roundi32_ss"),
  /- 34669 -/ (id! "mm_cvt_roundu32_ss", id! "_mm_cvt_roundu32_ss"),
  /- 34426 -/ (id! "mm_mask_rsqrt14_ss", id! "_mm_mask_rsqrt14_ss"),
  /- 34674 -/ (id! "mm_cvt_roundi64_ss", id! "_mm_cvt_roundi64_ss"),
  /- 34672 -/ (id! "mm_cvt_roundu64_ss", id! "_mm_cvt_roundu64_ss"),
  /- 35254 -/ (id! "mm_mask3_fnmsub_ss", id! "_mm_mask3_fnmsub_ss"),
  /- 35256 -/ (id! "mm_maskz_fnmsub_ss", id! "_mm_maskz_fnmsub_ss"),
  /- 35248 -/ (id! "mm_mask3_fnmadd_ss", id! "_mm_mask3_fnmadd_ss"),
  /- 35250 -/ (id! "mm_maskz_fnmadd_ss", id! "_mm_maskz_fnmadd_ss"),
  /- 35232 -/ (id! "mm_fnmsub_round_ss", id! "_mm_fnmsub_round_ss"),
  /- 35230 -/ (id! "mm_fnmadd_round_ss", id! "_mm_fnmadd_round_ss"),
  /- 34527 -/ (id! "mm_scalef_round_ss", id! "_mm_scalef_round_ss"),
  /- 34994 -/ (id! "mm_getexp_round_ss", id! "_mm_getexp_round_ss"),
  /- 35490 -/ (id! "mm_maskz_getexp_ss", id! "_mm_maskz_getexp_ss"),
  /- 35504 -/ (id! "mm_mask_getmant_ss", id! "_mm_mask_getmant_ss"),
  /- 34278 -/ (id! "mm512_setzero_si512", id! "_mm512_setzero_si512"),
  /- 34955 -/ (id! "mm_cvtt_roundsd_i32", id! "_mm_cvtt_roundsd_i32"),
  /- 34943 -/ (id! "mm_cvtt_roundss_i32", id! "_mm_cvtt_roundss_i32"),
  /- 34440 -/ (id! "mm512_cvtepi8_epi32", id! "_mm512_cvtepi8_epi32"),
  /- 34455 -/ (id! "mm512_cvtepu8_epi32", id! "_mm512_cvtepu8_epi32"),
  /- 34614 -/ (id! "mm512_shuffle_epi32", id! "_mm512_shuffle_epi32"),
  /- 34277 -/ (id! "mm512_setzero_epi32", id! "_mm512_setzero_epi32"),
  /- 34871 -/ (id! "mm512_mask_or_epi32", id! "_mm512_mask_or_epi32"),
  /- 35455 -/ (id! "mm512_cvtsi512_si32", id! "_mm512_cvtsi512_si32"),
  /- 34952 -/ (id! "mm_cvt_roundsd_si32", id! "_mm_cvt_roundsd_si32"),
  /- 34940 -/ (id! "mm_cvt_roundss_si32", id! "_mm_cvt_roundss_si32"),
  /- 34954 -/ (id! "mm_cvtt_roundsd_u32", id! "_mm_cvtt_roundsd_u32"),
  /- 34942 -/ (id! "mm_cvtt_roundss_u32", id! "_mm_cvtt_roundss_u32"),
  /- 34623 -/ (id! "mm512_shuffle_f64x2", id! "_mm512_shuffle_f64x2"),
  /- 34617 -/ (id! "mm512_shuffle_i64x2", id! "_mm512_shuffle_i64x2"),
  /- 34950 -/ (id! "mm_cvtt_roundsd_i64", id! "_mm_cvtt_roundsd_i64"),
  /- 34937 -/ (id! "mm_cvtt_roundss_i64", id! "_mm_cvtt_roundss_i64"),
  /- 34443 -/ (id! "mm512_cvtepi8_epi64", id! "_mm512_cvtepi8_epi64"),
  /- 34458 -/ (id! "mm512_cvtepu8_epi64", id! "_mm512_cvtepu8_epi64"),
  /- 34874 -/ (id! "mm512_mask_or_epi64", id! "_mm512_mask_or_epi64"),
  /- 34946 -/ (id! "mm_cvt_roundsd_si64", id! "_mm_cvt_roundsd_si64"),
  /- 34934 -/ (id! "mm_cvt_roundss_si64", id! "_mm_cvt_roundss_si64"),
  /- 34948 -/ (id! "mm_cvtt_roundsd_u64", id! "_mm_cvtt_roundsd_u64"),
  /- 34936 -/ (id! "mm_cvtt_roundss_u64", id! "_mm_cvtt_roundss_u64"),
  /- 34626 -/ (id! "mm512_shuffle_f32x4", id! "_mm512_shuffle_f32x4"),
  /- 34620 -/ (id! "mm512_shuffle_i32x4", id! "_mm512_shuffle_i32x4"),
  /- 34675 -/ (id! "mm512_cvtepi32_epi8", id! "_mm512_cvtepi32_epi8"),
  /- 34723 -/ (id! "mm512_cvtepi64_epi8", id! "_mm512_cvtepi64_epi8"),
  /- 34405 -/ (id! "mm512_mask_rcp14_pd", id! "_mm512_mask_rcp14_pd"),
  /- 35366 -/ (id! "mm512_mask_fmsub_pd", id! "_mm512_mask_fmsub_pd"),
  /- 34285 -/ (id! "mm512_maskz_load_pd", id! "_mm512_maskz_load_pd"),
  /- 35631 -/ (id! "mm512_reduce_add_pd", id! "_mm512_reduce_add_pd"),
  /- 35358 -/ (id! "mm512_mask_fmadd_pd", id! "_mm512_mask_fmadd_pd"),
  /- 35221 -/ (id! "mm512_mask_blend_pd", id! "_mm512_mask_blend_pd"),
  /- 34428 -/ (id! "mm512_sqrt_round_pd", id! "_mm512_sqrt_round_pd"),
  /- 35509 -/ (id! "mm512_roundscale_pd", id! "_mm512_roundscale_pd"),
  /- 34287 -/ (id! "mm512_mask_store_pd", id! "_mm512_mask_store_pd"),
  /- 35632 -/ (id! "mm512_reduce_mul_pd", id! "_mm512_reduce_mul_pd"),
  /- 35635 -/ (id! "mm512_reduce_min_pd", id! "_mm512_reduce_min_pd"),
  /- 34799 -/ (id! "mm512_permutevar_pd", id! "_mm512_permutevar_pd"),
  /- 35120 -/ (id! "mm512_i32scatter_pd", id! "_mm512_i32scatter_pd"),
  /- 35124 -/ (id! "mm512_i64scatter_pd", id! "_mm512_i64scatter_pd"),
  /- 35035 -/ (id! "mm512_mask_floor_pd", id! "_mm512_mask_floor_pd"),
  /- 35474 -/ (id! "mm512_mask_cvtps_pd", id! "_mm512_mask_cvtps_pd"),
  /- 35285 -/ (id! "mm512_maskz_sqrt_pd", id! "_mm512_maskz_sqrt_pd"),
  /- 34768 -/ (id! "mm512_mask_loadu_pd", id! "_mm512_mask_loadu_pd"),
  /- 35636 -/ (id! "mm512_reduce_max_pd", id! "_mm512_reduce_max_pd"),
  /- 34424 -/ (id! "mm_maskz_rsqrt14_sd", id! "_mm_maskz_rsqrt14_sd"),
  /- 34668 -/ (id! "mm_cvt_roundsi64_sd", id! "_mm_cvt_roundsi64_sd"),
  /- 35012 -/ (id! "mm_getmant_round_sd", id! "_mm_getmant_round_sd"),
  /- 35447 -/ (id! "mm_mask_fixupimm_sd", id! "_mm_mask_fixupimm_sd"),
  /- 35502 -/ (id! "mm_maskz_getmant_sd", id! "_mm_maskz_getmant_sd"),
  /- 34978 -/ (id! "mm512_mask_cvtps_ph", id! "_mm512_mask_cvtps_ph"),
  /- 35530 -/ (id! "mm512_cmple_pd_mask", id! "_mm512_cmple_pd_mask"),
  /- 35526 -/ (id! "mm512_cmpeq_pd_mask", id! "_mm512_cmpeq_pd_mask"),
  /- 35528 -/ (id! "mm512_cmplt_pd_mask", id! "_mm512_cmplt_pd_mask"),
  /- 35523 -/ (id! "mm_mask_cmp_sd_mask", id! "_mm_mask_cmp_sd_mask"),
  /- 35546 -/ (id! "mm512_cmple_ps_mask", id! "_mm512_cmple_ps_mask"),
  /- 35542 -/ (id! "mm512_cmpeq_ps_mask", id! "_mm512_cmpeq_ps_mask"),
  /- 35544 -/ (id! "mm512_cmplt_ps_mask", id! "_mm512_cmplt_ps_mask"),
  /- 35525 -/ (id! "mm_mask_cmp_ss_mask", id! "_mm_mask_cmp_ss_mask"),
  /- 34408 -/ (id! "mm512_mask_rcp14_ps", id! "_mm512_mask_rcp14_ps"),
  /- 35370 -/ (id! "mm512_mask_fmsub_ps", id! "_mm512_mask_fmsub_ps"),
  /- 34290 -/ (id! "mm512_maskz_load_ps", id! "_mm512_maskz_load_ps"),
  /- 35607 -/ (id! "mm512_reduce_add_ps", id! "_mm512_reduce_add_ps"),
  /- 35362 -/ (id! "mm512_mask_fmadd_ps", id! "_mm512_mask_fmadd_ps"),
  /- 35222 -/ (id! "mm512_mask_blend_ps", id! "_mm512_mask_blend_ps"),
  /- 34431 -/ (id! "mm512_sqrt_round_ps", id! "_mm512_sqrt_round_ps"),
  /- 35480 -/ (id! "mm512_mask_cvtpd_ps", id! "_mm512_mask_cvtpd_ps"),
  /- 35506 -/ (id! "mm512_roundscale_ps", id! "_mm512_roundscale_ps"),
  /- 34292 -/ (id! "mm512_mask_store_ps", id! "_mm512_mask_store_ps"),
  /- 35477 -/ (id! "mm512_mask_cvtph_ps", id! "_mm512_mask_cvtph_ps"),
  /- 35608 -/ (id! "mm512_reduce_mul_ps", id! "_mm512_reduce_mul_ps"),
  /- 35611 -/ (id! "mm512_reduce_min_ps", id! "_mm512_reduce_min_ps"),
  /- 34802 -/ (id! "mm512_permutevar_ps", id! "_mm512_permutevar_ps"),
  /- 35118 -/ (id! "mm512_i32scatter_ps", id! "_mm512_i32scatter_ps"),
  /- 35122 -/ (id! "mm512_i64scatter_ps", id! "_mm512_i64scatter_ps"),
  /- 35034 -/ (id! "mm512_mask_floor_ps", id! "_mm512_mask_floor_ps"),
  /- 35288 -/ (id! "mm512_maskz_sqrt_ps", id! "_mm512_maskz_sqrt_ps"),
  /- 34773 -/ (id! "mm512_mask_loadu_ps", id! "_mm512_mask_loadu_ps"),
  /- 35612 -/ (id! "mm512_reduce_max_ps", id! "_mm512_reduce_max_ps"),
  /- 34670 -/ (id! "mm_cvt_roundsi32_ss", id! "_mm_cvt_roundsi32_ss"),
  /- 34427 -/ (id! "mm_maskz_rsqrt14_ss", id! "_mm_maskz_rsqrt14_ss"),
  /- 34673 -/ (id! "mm_cvt_roundsi64_ss", id! "_mm_cvt_roundsi64_ss"),
  /- 35015 -/ (id! "mm_getmant_round_ss", id! "_mm_getmant_round_ss"),
  /- 35450 -/ (id! "mm_mask_fixupimm_ss", id! "_mm_mask_fixupimm_ss"),
  /- 35505 -/ (id! "mm_maskz_getmant_ss", id! "_mm_maskz_getmant_ss"),
  /- 34699 -/ (id! "mm512_cvtepi64_epi32", id! "_mm512_cvtepi64_epi32"),
  /- 34446 -/ (id! "mm512_cvtepi16_epi32", id! "_mm512_cvtepi16_epi32"),
  /- 34461 -/ (id! "mm512_cvtepu16_epi32", id! "_mm512_cvtepu16_epi32"),
  /- 34384 -/ (id! "mm512_mask_sra_epi32", id! "_mm512_mask_sra_epi32"),
  /- 34345 -/ (id! "mm512_mask_sub_epi32", id! "_mm512_mask_sub_epi32"),
  /- 34339 -/ (id! "mm512_mask_add_epi32", id! "_mm512_mask_add_epi32"),
  /- 34897 -/ (id! "mm512_mask_and_epi32", id! "_mm512_mask_and_epi32"),
  /- 34921 -/ (id! "mm512_unpackhi_epi32", id! "_mm512_unpackhi_epi32"),
  /- 34372 -/ (id! "mm512_mask_sll_epi32", id! "_mm512_mask_sll_epi32"),
  /- 34884 -/ (id! "mm512_mask_rol_epi32", id! "_mm512_mask_rol_epi32"),
  /- 34378 -/ (id! "mm512_mask_srl_epi32", id! "_mm512_mask_srl_epi32"),
  /- 34342 -/ (id! "mm512_mask_mul_epi32", id! "_mm512_mask_mul_epi32"),
  /- 35199 -/ (id! "mm512_mask_min_epi32", id! "_mm512_mask_min_epi32"),
  /- 34927 -/ (id! "mm512_unpacklo_epi32", id! "_mm512_unpacklo_epi32"),
  /- 34872 -/ (id! "mm512_maskz_or_epi32", id! "_mm512_maskz_or_epi32"),
  /- 34887 -/ (id! "mm512_mask_ror_epi32", id! "_mm512_mask_ror_epi32"),
  /- 34878 -/ (id! "mm512_mask_xor_epi32", id! "_mm512_mask_xor_epi32"),
  /- 34582 -/ (id! "mm512_mask_abs_epi32", id! "_mm512_mask_abs_epi32"),
  /- 34300 -/ (id! "mm512_mask_mov_epi32", id! "_mm512_mask_mov_epi32"),
  /- 35196 -/ (id! "mm512_mask_max_epi32", id! "_mm512_mask_max_epi32"),
  /- 34956 -/ (id! "mm_cvtt_roundsd_si32", id! "_mm_cvtt_roundsd_si32"),
  /- 34944 -/ (id! "mm_cvtt_roundss_si32", id! "_mm_cvtt_roundss_si32"),
  /- 34348 -/ (id! "mm512_mask_mul_epu32", id! "_mm512_mask_mul_epu32"),
  /- 35205 -/ (id! "mm512_mask_min_epu32", id! "_mm512_mask_min_epu32"),
  /- 35202 -/ (id! "mm512_mask_max_epu32", id! "_mm512_mask_max_epu32"),
  /- 34452 -/ (id! "mm512_cvtepi32_epi64", id! "_mm512_cvtepi32_epi64"),
  /- 34467 -/ (id! "mm512_cvtepu32_epi64", id! "_mm512_cvtepu32_epi64"),
  /- 34449 -/ (id! "mm512_cvtepi16_epi64", id! "_mm512_cvtepi16_epi64"),
  /- 34464 -/ (id! "mm512_cvtepu16_epi64", id! "_mm512_cvtepu16_epi64"),
  /- 34366 -/ (id! "mm512_mask_sra_epi64", id! "_mm512_mask_sra_epi64"),
  /- 34327 -/ (id! "mm512_mask_sub_epi64", id! "_mm512_mask_sub_epi64"),
  /- 34324 -/ (id! "mm512_mask_add_epi64", id! "_mm512_mask_add_epi64"),
  /- 34900 -/ (id! "mm512_mask_and_epi64", id! "_mm512_mask_and_epi64"),
  /- 34924 -/ (id! "mm512_unpackhi_epi64", id! "_mm512_unpackhi_epi64"),
  /- 34354 -/ (id! "mm512_mask_sll_epi64", id! "_mm512_mask_sll_epi64"),
  /- 34890 -/ (id! "mm512_mask_rol_epi64", id! "_mm512_mask_rol_epi64"),
  /- 34360 -/ (id! "mm512_mask_srl_epi64", id! "_mm512_mask_srl_epi64"),
  /- 35186 -/ (id! "mm512_mask_min_epi64", id! "_mm512_mask_min_epi64"),
  /- 34930 -/ (id! "mm512_unpacklo_epi64", id! "_mm512_unpacklo_epi64"),
  /- 34875 -/ (id! "mm512_maskz_or_epi64", id! "_mm512_maskz_or_epi64"),
  /- 34893 -/ (id! "mm512_mask_ror_epi64", id! "_mm512_mask_ror_epi64"),
  /- 34881 -/ (id! "mm512_mask_xor_epi64", id! "_mm512_mask_xor_epi64"),
  /- 34579 -/ (id! "mm512_mask_abs_epi64", id! "_mm512_mask_abs_epi64"),
  /- 34293 -/ (id! "mm512_mask_mov_epi64", id! "_mm512_mask_mov_epi64"),
  /- 35184 -/ (id! "mm512_mask_max_epi64", id! "_mm512_mask_max_epi64"),
  /- 34827 -/ (id! "mm512_permutex_epi64", id! "_mm512_permutex_epi64"),
  /- 34949 -/ (id! "mm_cvtt_roundsd_si64", id! "_mm_cvtt_roundsd_si64"),
  /- 34938 -/ (id! "mm_cvtt_roundss_si64", id! "_mm_cvtt_roundss_si64"),
  /- 35192 -/ (id! "mm512_mask_min_epu64", id! "_mm512_mask_min_epu64"),
  /- 35190 -/ (id! "mm512_mask_max_epu64", id! "_mm512_mask_max_epu64"),
  /- 34687 -/ (id! "mm512_cvtepi32_epi16", id! "_mm512_cvtepi32_epi16"),
  /- 34711 -/ (id! "mm512_cvtepi64_epi16", id! "_mm512_cvtepi64_epi16"),
  /- 34679 -/ (id! "mm512_cvtsepi32_epi8", id! "_mm512_cvtsepi32_epi8"),
  /- 34727 -/ (id! "mm512_cvtsepi64_epi8", id! "_mm512_cvtsepi64_epi8"),
  /- 34406 -/ (id! "mm512_maskz_rcp14_pd", id! "_mm512_maskz_rcp14_pd"),
  /- 35367 -/ (id! "mm512_mask3_fmsub_pd", id! "_mm512_mask3_fmsub_pd"),
  /- 35368 -/ (id! "mm512_maskz_fmsub_pd", id! "_mm512_maskz_fmsub_pd"),
  /- 35398 -/ (id! "mm512_mask_fnmsub_pd", id! "_mm512_mask_fnmsub_pd"),
  /- 35359 -/ (id! "mm512_mask3_fmadd_pd", id! "_mm512_mask3_fmadd_pd"),
  /- 35360 -/ (id! "mm512_maskz_fmadd_pd", id! "_mm512_maskz_fmadd_pd"),
  /- 35390 -/ (id! "mm512_mask_fnmadd_pd", id! "_mm512_mask_fnmadd_pd"),
  /- 35146 -/ (id! "mm512_mask_expand_pd", id! "_mm512_mask_expand_pd"),
  /- 34538 -/ (id! "mm512_fmsub_round_pd", id! "_mm512_fmsub_round_pd"),
  /- 34530 -/ (id! "mm512_fmadd_round_pd", id! "_mm512_fmadd_round_pd"),
  /- 34587 -/ (id! "mm512_broadcastsd_pd", id! "_mm512_broadcastsd_pd"),
  /- 35350 -/ (id! "mm512_mask_scalef_pd", id! "_mm512_mask_scalef_pd"),
  /- 35486 -/ (id! "mm512_mask_getexp_pd", id! "_mm512_mask_getexp_pd"),
  /- 34839 -/ (id! "mm512_permutexvar_pd", id! "_mm512_permutexvar_pd"),
  /- 34969 -/ (id! "mm512_cvt_roundps_pd", id! "_mm512_cvt_roundps_pd"),
  /- 35475 -/ (id! "mm512_maskz_cvtps_pd", id! "_mm512_maskz_cvtps_pd"),
  /- 34769 -/ (id! "mm512_maskz_loadu_pd", id! "_mm512_maskz_loadu_pd"),
  /- 34771 -/ (id! "mm512_mask_storeu_pd", id! "_mm512_mask_storeu_pd"),
  /- 34393 -/ (id! "mm_mask_sub_round_sd", id! "_mm_mask_sub_round_sd"),
  /- 34387 -/ (id! "mm_mask_add_round_sd", id! "_mm_mask_add_round_sd"),
  /- 34495 -/ (id! "mm_mask_mul_round_sd", id! "_mm_mask_mul_round_sd"),
  /- 34857 -/ (id! "mm_fixupimm_round_sd", id! "_mm_fixupimm_round_sd"),
  /- 35216 -/ (id! "mm_mask_min_round_sd", id! "_mm_mask_min_round_sd"),
  /- 34501 -/ (id! "mm_mask_div_round_sd", id! "_mm_mask_div_round_sd"),
  /- 35210 -/ (id! "mm_mask_max_round_sd", id! "_mm_mask_max_round_sd"),
  /- 35448 -/ (id! "mm_maskz_fixupimm_sd", id! "_mm_maskz_fixupimm_sd"),
  /- 34975 -/ (id! "mm512_cvt_roundps_ph", id! "_mm512_cvt_roundps_ph"),
  /- 34980 -/ (id! "mm512_maskz_cvtps_ph", id! "_mm512_maskz_cvtps_ph"),
  /- 35087 -/ (id! "mm512_cmp_epi32_mask", id! "_mm512_cmp_epi32_mask"),
  /- 35089 -/ (id! "mm512_cmp_epu32_mask", id! "_mm512_cmp_epu32_mask"),
  /- 35086 -/ (id! "mm512_cmp_epi64_mask", id! "_mm512_cmp_epi64_mask"),
  /- 35088 -/ (id! "mm512_cmp_epu64_mask", id! "_mm512_cmp_epu64_mask"),
  /- 35540 -/ (id! "mm512_cmpord_pd_mask", id! "_mm512_cmpord_pd_mask"),
  /- 35538 -/ (id! "mm512_cmpnle_pd_mask", id! "_mm512_cmpnle_pd_mask"),
  /- 35534 -/ (id! "mm512_cmpneq_pd_mask", id! "_mm512_cmpneq_pd_mask"),
  /- 35536 -/ (id! "mm512_cmpnlt_pd_mask", id! "_mm512_cmpnlt_pd_mask"),
  /- 35098 -/ (id! "mm_cmp_round_sd_mask", id! "_mm_cmp_round_sd_mask"),
  /- 35556 -/ (id! "mm512_cmpord_ps_mask", id! "_mm512_cmpord_ps_mask"),
  /- 35554 -/ (id! "mm512_cmpnle_ps_mask", id! "_mm512_cmpnle_ps_mask"),
  /- 35550 -/ (id! "mm512_cmpneq_ps_mask", id! "_mm512_cmpneq_ps_mask"),
  /- 35552 -/ (id! "mm512_cmpnlt_ps_mask", id! "_mm512_cmpnlt_ps_mask"),
  /- 35100 -/ (id! "mm_cmp_round_ss_mask", id! "_mm_cmp_round_ss_mask"),
  /- 34409 -/ (id! "mm512_maskz_rcp14_ps", id! "_mm512_maskz_rcp14_ps"),
  /- 35371 -/ (id! "mm512_mask3_fmsub_ps", id! "_mm512_mask3_fmsub_ps"),
  /- 35372 -/ (id! "mm512_maskz_fmsub_ps", id! "_mm512_maskz_fmsub_ps"),
  /- 35402 -/ (id! "mm512_mask_fnmsub_ps", id! "_mm512_mask_fnmsub_ps"),
  /- 35363 -/ (id! "mm512_mask3_fmadd_ps", id! "_mm512_mask3_fmadd_ps"),
  /- 35364 -/ (id! "mm512_maskz_fmadd_ps", id! "_mm512_maskz_fmadd_ps"),
  /- 35394 -/ (id! "mm512_mask_fnmadd_ps", id! "_mm512_mask_fnmadd_ps"),
  /- 35150 -/ (id! "mm512_mask_expand_ps", id! "_mm512_mask_expand_ps"),
  /- 34542 -/ (id! "mm512_fmsub_round_ps", id! "_mm512_fmsub_round_ps"),
  /- 34534 -/ (id! "mm512_fmadd_round_ps", id! "_mm512_fmadd_round_ps"),
  /- 34981 -/ (id! "mm512_cvt_roundpd_ps", id! "_mm512_cvt_roundpd_ps"),
  /- 35481 -/ (id! "mm512_maskz_cvtpd_ps", id! "_mm512_maskz_cvtpd_ps"),
  /- 35353 -/ (id! "mm512_mask_scalef_ps", id! "_mm512_mask_scalef_ps"),
  /- 34972 -/ (id! "mm512_cvt_roundph_ps", id! "_mm512_cvt_roundph_ps"),
  /- 35478 -/ (id! "mm512_maskz_cvtph_ps", id! "_mm512_maskz_cvtph_ps"),
  /- 35483 -/ (id! "mm512_mask_getexp_ps", id! "_mm512_mask_getexp_ps"),
  /- 34842 -/ (id! "mm512_permutexvar_ps", id! "_mm512_permutexvar_ps"),
  /- 34584 -/ (id! "mm512_broadcastss_ps", id! "_mm512_broadcastss_ps"),
  /- 34774 -/ (id! "mm512_maskz_loadu_ps", id! "_mm512_maskz_loadu_ps"),
  /- 34776 -/ (id! "mm512_mask_storeu_ps", id! "_mm512_mask_storeu_ps"),
  /- 34396 -/ (id! "mm_mask_sub_round_ss", id! "_mm_mask_sub_round_ss"),
  /- 34390 -/ (id! "mm_mask_add_round_ss", id! "_mm_mask_add_round_ss"),
  /- 34498 -/ (id! "mm_mask_mul_round_ss", id! "_mm_mask_mul_round_ss"),
  /- 34860 -/ (id! "mm_fixupimm_round_ss", id! "_mm_fixupimm_round_ss"),
  /- 35219 -/ (id! "mm_mask_min_round_ss", id! "_mm_mask_min_round_ss"),
  /- 34504 -/ (id! "mm_mask_div_round_ss", id! "_mm_mask_div_round_ss"),
  /- 35213 -/ (id! "mm_mask_max_round_ss", id! "_mm_mask_max_round_ss"),
  /- 35451 -/ (id! "mm_maskz_fixupimm_ss", id! "_mm_maskz_fixupimm_ss"),
  /- 35574 -/ (id! "mm512_castpd256_pd512", id! "_mm512_castpd256_pd512"),
  /- 35580 -/ (id! "mm512_zextpd256_pd512", id! "_mm512_zextpd256_pd512"),
  /- 35571 -/ (id! "mm512_castpd128_pd512", id! "_mm512_castpd128_pd512"),
  /- 35577 -/ (id! "mm512_zextpd128_pd512", id! "_mm512_zextpd128_pd512"),
  /- 35576 -/ (id! "mm512_castsi256_si512", id! "_mm512_castsi256_si512"),
  /- 35582 -/ (id! "mm512_zextsi256_si512", id! "_mm512_zextsi256_si512"),
  /- 35573 -/ (id! "mm512_castsi128_si512", id! "_mm512_castsi128_si512"),
  /- 35579 -/ (id! "mm512_zextsi128_si512", id! "_mm512_zextsi128_si512"),
  /- 35575 -/ (id! "mm512_castps256_ps512", id! "_mm512_castps256_ps512"),
  /- 35581 -/ (id! "mm512_zextps256_ps512", id! "_mm512_zextps256_ps512"),
  /- 35572 -/ (id! "mm512_castps128_ps512", id! "_mm512_castps128_ps512"),
  /- 35578 -/ (id! "mm512_zextps128_ps512", id! "_mm512_zextps128_ps512"),
  /- 34594 -/ (id! "mm512_mask_set1_epi32", id! "_mm512_mask_set1_epi32"),
  /- 34703 -/ (id! "mm512_cvtsepi64_epi32", id! "_mm512_cvtsepi64_epi32"),
  /- 34385 -/ (id! "mm512_maskz_sra_epi32", id! "_mm512_maskz_sra_epi32"),
  /- 34346 -/ (id! "mm512_maskz_sub_epi32", id! "_mm512_maskz_sub_epi32"),
  /- 34304 -/ (id! "mm512_mask_load_epi32", id! "_mm512_mask_load_epi32"),
  /- 34340 -/ (id! "mm512_maskz_add_epi32", id! "_mm512_maskz_add_epi32"),
  /- 34265 -/ (id! "mm512_undefined_epi32", id! "_mm512_undefined_epi32"),
  /- 34898 -/ (id! "mm512_maskz_and_epi32", id! "_mm512_maskz_and_epi32"),
  /- 34381 -/ (id! "mm512_mask_srai_epi32", id! "_mm512_mask_srai_epi32"),
  /- 34369 -/ (id! "mm512_mask_slli_epi32", id! "_mm512_mask_slli_epi32"),
  /- 34375 -/ (id! "mm512_mask_srli_epi32", id! "_mm512_mask_srli_epi32"),
  /- 34373 -/ (id! "mm512_maskz_sll_epi32", id! "_mm512_maskz_sll_epi32"),
  /- 34885 -/ (id! "mm512_maskz_rol_epi32", id! "_mm512_maskz_rol_epi32"),
  /- 34379 -/ (id! "mm512_maskz_srl_epi32", id! "_mm512_maskz_srl_epi32"),
  /- 34343 -/ (id! "mm512_maskz_mul_epi32", id! "_mm512_maskz_mul_epi32"),
  /- 35198 -/ (id! "mm512_maskz_min_epi32", id! "_mm512_maskz_min_epi32"),
  /- 35110 -/ (id! "mm512_i32gather_epi32", id! "_mm512_i32gather_epi32"),
  /- 35114 -/ (id! "mm512_i64gather_epi32", id! "_mm512_i64gather_epi32"),
  /- 35594 -/ (id! "mm512_reduce_or_epi32", id! "_mm512_reduce_or_epi32"),
  /- 34888 -/ (id! "mm512_maskz_ror_epi32", id! "_mm512_maskz_ror_epi32"),
  /- 34879 -/ (id! "mm512_maskz_xor_epi32", id! "_mm512_maskz_xor_epi32"),
  /- 34583 -/ (id! "mm512_maskz_abs_epi32", id! "_mm512_maskz_abs_epi32"),
  /- 34318 -/ (id! "mm512_mask_srav_epi32", id! "_mm512_mask_srav_epi32"),
  /- 34315 -/ (id! "mm512_mask_sllv_epi32", id! "_mm512_mask_sllv_epi32"),
  /- 34630 -/ (id! "mm512_mask_rolv_epi32", id! "_mm512_mask_rolv_epi32"),
  /- 34321 -/ (id! "mm512_mask_srlv_epi32", id! "_mm512_mask_srlv_epi32"),
  /- 34301 -/ (id! "mm512_maskz_mov_epi32", id! "_mm512_maskz_mov_epi32"),
  /- 34633 -/ (id! "mm512_mask_rorv_epi32", id! "_mm512_mask_rorv_epi32"),
  /- 35195 -/ (id! "mm512_maskz_max_epi32", id! "_mm512_maskz_max_epi32"),
  /- 34349 -/ (id! "mm512_maskz_mul_epu32", id! "_mm512_maskz_mul_epu32"),
  /- 35204 -/ (id! "mm512_maskz_min_epu32", id! "_mm512_maskz_min_epu32"),
  /- 35201 -/ (id! "mm512_maskz_max_epu32", id! "_mm512_maskz_max_epu32"),
  /- 34600 -/ (id! "mm512_mask_set1_epi64", id! "_mm512_mask_set1_epi64"),
  /- 34367 -/ (id! "mm512_maskz_sra_epi64", id! "_mm512_maskz_sra_epi64"),
  /- 34328 -/ (id! "mm512_maskz_sub_epi64", id! "_mm512_maskz_sub_epi64"),
  /- 34296 -/ (id! "mm512_mask_load_epi64", id! "_mm512_mask_load_epi64"),
  /- 34325 -/ (id! "mm512_maskz_add_epi64", id! "_mm512_maskz_add_epi64"),
  /- 34901 -/ (id! "mm512_maskz_and_epi64", id! "_mm512_maskz_and_epi64"),
  /- 34363 -/ (id! "mm512_mask_srai_epi64", id! "_mm512_mask_srai_epi64"),
  /- 34351 -/ (id! "mm512_mask_slli_epi64", id! "_mm512_mask_slli_epi64"),
  /- 34357 -/ (id! "mm512_mask_srli_epi64", id! "_mm512_mask_srli_epi64"),
  /- 34355 -/ (id! "mm512_maskz_sll_epi64", id! "_mm512_maskz_sll_epi64"),
  /- 34891 -/ (id! "mm512_maskz_rol_epi64", id! "_mm512_maskz_rol_epi64"),
  /- 34361 -/ (id! "mm512_maskz_srl_epi64", id! "_mm512_maskz_srl_epi64"),
  /- 35187 -/ (id! "mm512_maskz_min_epi64", id! "_mm512_maskz_min_epi64"),
  /- 35112 -/ (id! "mm512_i32gather_epi64", id! "_mm512_i32gather_epi64"),
  /- 35116 -/ (id! "mm512_i64gather_epi64", id! "_mm512_i64gather_epi64"),
  /- 35618 -/ (id! "mm512_reduce_or_epi64", id! "_mm512_reduce_or_epi64"),
  /- 34894 -/ (id! "mm512_maskz_ror_epi64", id! "_mm512_maskz_ror_epi64"),
  /- 34882 -/ (id! "mm512_maskz_xor_epi64", id! "_mm512_maskz_xor_epi64"),
  /- 34580 -/ (id! "mm512_maskz_abs_epi64", id! "_mm512_maskz_abs_epi64"),
  /- 34333 -/ (id! "mm512_mask_srav_epi64", id! "_mm512_mask_srav_epi64"),
  /- 34330 -/ (id! "mm512_mask_sllv_epi64", id! "_mm512_mask_sllv_epi64"),
  /- 34636 -/ (id! "mm512_mask_rolv_epi64", id! "_mm512_mask_rolv_epi64"),
  /- 34336 -/ (id! "mm512_mask_srlv_epi64", id! "_mm512_mask_srlv_epi64"),
  /- 34294 -/ (id! "mm512_maskz_mov_epi64", id! "_mm512_maskz_mov_epi64"),
  /- 34639 -/ (id! "mm512_mask_rorv_epi64", id! "_mm512_mask_rorv_epi64"),
  /- 35183 -/ (id! "mm512_maskz_max_epi64", id! "_mm512_maskz_max_epi64"),
  /- 35193 -/ (id! "mm512_maskz_min_epu64", id! "_mm512_maskz_min_epu64"),
  /- 35189 -/ (id! "mm512_maskz_max_epu64", id! "_mm512_maskz_max_epu64"),
  /- 34602 -/ (id! "mm512_broadcast_f32x4", id! "_mm512_broadcast_f32x4"),
  /- 34605 -/ (id! "mm512_broadcast_i32x4", id! "_mm512_broadcast_i32x4"),
  /- 34608 -/ (id! "mm512_broadcast_f64x4", id! "_mm512_broadcast_f64x4"),
  /- 34611 -/ (id! "mm512_broadcast_i64x4", id! "_mm512_broadcast_i64x4"),
  /- 34691 -/ (id! "mm512_cvtsepi32_epi16", id! "_mm512_cvtsepi32_epi16"),
  /- 34715 -/ (id! "mm512_cvtsepi64_epi16", id! "_mm512_cvtsepi64_epi16"),
  /- 35568 -/ (id! "mm512_castpd512_pd256", id! "_mm512_castpd512_pd256"),
  /- 35570 -/ (id! "mm512_castsi512_si256", id! "_mm512_castsi512_si256"),
  /- 35569 -/ (id! "mm512_castps512_ps256", id! "_mm512_castps512_ps256"),
  /- 35565 -/ (id! "mm512_castpd512_pd128", id! "_mm512_castpd512_pd128"),
  /- 35567 -/ (id! "mm512_castsi512_si128", id! "_mm512_castsi512_si128"),
  /- 35566 -/ (id! "mm512_castps512_ps128", id! "_mm512_castps512_ps128"),
  /- 34683 -/ (id! "mm512_cvtusepi32_epi8", id! "_mm512_cvtusepi32_epi8"),
  /- 34731 -/ (id! "mm512_cvtusepi64_epi8", id! "_mm512_cvtusepi64_epi8"),
  /- 34417 -/ (id! "mm512_mask_rsqrt14_pd", id! "_mm512_mask_rsqrt14_pd"),
  /- 34747 -/ (id! "mm512_extractf64x4_pd", id! "_mm512_extractf64x4_pd"),
  /- 35399 -/ (id! "mm512_mask3_fnmsub_pd", id! "_mm512_mask3_fnmsub_pd"),
  /- 35400 -/ (id! "mm512_maskz_fnmsub_pd", id! "_mm512_maskz_fnmsub_pd"),
  /- 35391 -/ (id! "mm512_mask3_fnmadd_pd", id! "_mm512_mask3_fnmadd_pd"),
  /- 35392 -/ (id! "mm512_maskz_fnmadd_pd", id! "_mm512_maskz_fnmadd_pd"),
  /- 35147 -/ (id! "mm512_maskz_expand_pd", id! "_mm512_maskz_expand_pd"),
  /- 34570 -/ (id! "mm512_fnmsub_round_pd", id! "_mm512_fnmsub_round_pd"),
  /- 34562 -/ (id! "mm512_fnmadd_round_pd", id! "_mm512_fnmadd_round_pd"),
  /- 34518 -/ (id! "mm512_scalef_round_pd", id! "_mm512_scalef_round_pd"),
  /- 35003 -/ (id! "mm512_getexp_round_pd", id! "_mm512_getexp_round_pd"),
  /- 34849 -/ (id! "mm512_mask_shuffle_pd", id! "_mm512_mask_shuffle_pd"),
  /- 34822 -/ (id! "mm512_mask_permute_pd", id! "_mm512_mask_permute_pd"),
  /- 35351 -/ (id! "mm512_maskz_scalef_pd", id! "_mm512_maskz_scalef_pd"),
  /- 34958 -/ (id! "mm512_mask_movedup_pd", id! "_mm512_mask_movedup_pd"),
  /- 35487 -/ (id! "mm512_maskz_getexp_pd", id! "_mm512_maskz_getexp_pd"),
  /- 34813 -/ (id! "mm512_permutex2var_pd", id! "_mm512_permutex2var_pd"),
  /- 35495 -/ (id! "mm512_mask_getmant_pd", id! "_mm512_mask_getmant_pd"),
  /- 34394 -/ (id! "mm_maskz_sub_round_sd", id! "_mm_maskz_sub_round_sd"),
  /- 34388 -/ (id! "mm_maskz_add_round_sd", id! "_mm_maskz_add_round_sd"),
  /- 34496 -/ (id! "mm_maskz_mul_round_sd", id! "_mm_maskz_mul_round_sd"),
  /- 35217 -/ (id! "mm_maskz_min_round_sd", id! "_mm_maskz_min_round_sd"),
  /- 34435 -/ (id! "mm_mask_sqrt_round_sd", id! "_mm_mask_sqrt_round_sd"),
  /- 34502 -/ (id! "mm_maskz_div_round_sd", id! "_mm_maskz_div_round_sd"),
  /- 35211 -/ (id! "mm_maskz_max_round_sd", id! "_mm_maskz_max_round_sd"),
  /- 35516 -/ (id! "mm_mask_roundscale_sd", id! "_mm_mask_roundscale_sd"),
  /- 34909 -/ (id! "mm512_test_epi32_mask", id! "_mm512_test_epi32_mask"),
  /- 34911 -/ (id! "mm512_test_epi64_mask", id! "_mm512_test_epi64_mask"),
  /- 34420 -/ (id! "mm512_mask_rsqrt14_ps", id! "_mm512_mask_rsqrt14_ps"),
  /- 34750 -/ (id! "mm512_extractf32x4_ps", id! "_mm512_extractf32x4_ps"),
  /- 35403 -/ (id! "mm512_mask3_fnmsub_ps", id! "_mm512_mask3_fnmsub_ps"),
  /- 35404 -/ (id! "mm512_maskz_fnmsub_ps", id! "_mm512_maskz_fnmsub_ps"),
  /- 35395 -/ (id! "mm512_mask3_fnmadd_ps", id! "_mm512_mask3_fnmadd_ps"),
  /- 35396 -/ (id! "mm512_maskz_fnmadd_ps", id! "_mm512_maskz_fnmadd_ps"),
  /- 35151 -/ (id! "mm512_maskz_expand_ps", id! "_mm512_maskz_expand_ps"),
  /- 34574 -/ (id! "mm512_fnmsub_round_ps", id! "_mm512_fnmsub_round_ps"),
  /- 34566 -/ (id! "mm512_fnmadd_round_ps", id! "_mm512_fnmadd_round_ps"),
  /- 34521 -/ (id! "mm512_scalef_round_ps", id! "_mm512_scalef_round_ps"),
  /- 35000 -/ (id! "mm512_getexp_round_ps", id! "_mm512_getexp_round_ps"),
  /- 34846 -/ (id! "mm512_mask_shuffle_ps", id! "_mm512_mask_shuffle_ps"),
  /- 34825 -/ (id! "mm512_mask_permute_ps", id! "_mm512_mask_permute_ps"),
  /- 35354 -/ (id! "mm512_maskz_scalef_ps", id! "_mm512_maskz_scalef_ps"),
  /- 35484 -/ (id! "mm512_maskz_getexp_ps", id! "_mm512_maskz_getexp_ps"),
  /- 34817 -/ (id! "mm512_permutex2var_ps", id! "_mm512_permutex2var_ps"),
  /- 35498 -/ (id! "mm512_mask_getmant_ps", id! "_mm512_mask_getmant_ps"),
  /- 34397 -/ (id! "mm_maskz_sub_round_ss", id! "_mm_maskz_sub_round_ss"),
  /- 34391 -/ (id! "mm_maskz_add_round_ss", id! "_mm_maskz_add_round_ss"),
  /- 34499 -/ (id! "mm_maskz_mul_round_ss", id! "_mm_maskz_mul_round_ss"),
  /- 35220 -/ (id! "mm_maskz_min_round_ss", id! "_mm_maskz_min_round_ss"),
  /- 34438 -/ (id! "mm_mask_sqrt_round_ss", id! "_mm_mask_sqrt_round_ss"),
  /- 34505 -/ (id! "mm_maskz_div_round_ss", id! "_mm_maskz_div_round_ss"),
  /- 35214 -/ (id! "mm_maskz_max_round_ss", id! "_mm_maskz_max_round_ss"),
  /- 35513 -/ (id! "mm_mask_roundscale_ss", id! "_mm_mask_roundscale_ss"),
  /- 34595 -/ (id! "mm512_maskz_set1_epi32", id! "_mm512_maskz_set1_epi32"),
  /- 34707 -/ (id! "mm512_cvtusepi64_epi32", id! "_mm512_cvtusepi64_epi32"),
  /- 34305 -/ (id! "mm512_maskz_load_epi32", id! "_mm512_maskz_load_epi32"),
  /- 35591 -/ (id! "mm512_reduce_add_epi32", id! "_mm512_reduce_add_epi32"),
  /- 35593 -/ (id! "mm512_reduce_and_epi32", id! "_mm512_reduce_and_epi32"),
  /- 35224 -/ (id! "mm512_mask_blend_epi32", id! "_mm512_mask_blend_epi32"),
  /- 35412 -/ (id! "mm512_mask_cvtpd_epi32", id! "_mm512_mask_cvtpd_epi32"),
  /- 34590 -/ (id! "mm512_broadcastd_epi32", id! "_mm512_broadcastd_epi32"),
  /- 34308 -/ (id! "mm512_mask_store_epi32", id! "_mm512_mask_store_epi32"),
  /- 34382 -/ (id! "mm512_maskz_srai_epi32", id! "_mm512_maskz_srai_epi32"),
  /- 34370 -/ (id! "mm512_maskz_slli_epi32", id! "_mm512_maskz_slli_epi32"),
  /- 34376 -/ (id! "mm512_maskz_srli_epi32", id! "_mm512_maskz_srli_epi32"),
  /- 35592 -/ (id! "mm512_reduce_mul_epi32", id! "_mm512_reduce_mul_epi32"),
  /- 35599 -/ (id! "mm512_reduce_min_epi32", id! "_mm512_reduce_min_epi32"),
  /- 34311 -/ (id! "mm512_mask_mullo_epi32", id! "_mm512_mask_mullo_epi32"),
  /- 35126 -/ (id! "mm512_i32scatter_epi32", id! "_mm512_i32scatter_epi32"),
  /- 35130 -/ (id! "mm512_i64scatter_epi32", id! "_mm512_i64scatter_epi32"),
  /- 35424 -/ (id! "mm512_mask_cvtps_epi32", id! "_mm512_mask_cvtps_epi32"),
  /- 34794 -/ (id! "mm512_mask_loadu_epi32", id! "_mm512_mask_loadu_epi32"),
  /- 34319 -/ (id! "mm512_maskz_srav_epi32", id! "_mm512_maskz_srav_epi32"),
  /- 34316 -/ (id! "mm512_maskz_sllv_epi32", id! "_mm512_maskz_sllv_epi32"),
  /- 34631 -/ (id! "mm512_maskz_rolv_epi32", id! "_mm512_maskz_rolv_epi32"),
  /- 34322 -/ (id! "mm512_maskz_srlv_epi32", id! "_mm512_maskz_srlv_epi32"),
  /- 34634 -/ (id! "mm512_maskz_rorv_epi32", id! "_mm512_maskz_rorv_epi32"),
  /- 35600 -/ (id! "mm512_reduce_max_epi32", id! "_mm512_reduce_max_epi32"),
  /- 35415 -/ (id! "mm512_mask_cvtpd_epu32", id! "_mm512_mask_cvtpd_epu32"),
  /- 35601 -/ (id! "mm512_reduce_min_epu32", id! "_mm512_reduce_min_epu32"),
  /- 35427 -/ (id! "mm512_mask_cvtps_epu32", id! "_mm512_mask_cvtps_epu32"),
  /- 35602 -/ (id! "mm512_reduce_max_epu32", id! "_mm512_reduce_max_epu32"),
  /- 34601 -/ (id! "mm512_maskz_set1_epi64", id! "_mm512_maskz_set1_epi64"),
  /- 34297 -/ (id! "mm512_maskz_load_epi64", id! "_mm512_maskz_load_epi64"),
  /- 35615 -/ (id! "mm512_reduce_add_epi64", id! "_mm512_reduce_add_epi64"),
  /- 35617 -/ (id! "mm512_reduce_and_epi64", id! "_mm512_reduce_and_epi64"),
  /- 35223 -/ (id! "mm512_mask_blend_epi64", id! "_mm512_mask_blend_epi64"),
  /- 34299 -/ (id! "mm512_mask_store_epi64", id! "_mm512_mask_store_epi64"),
  /- 34364 -/ (id! "mm512_maskz_srai_epi64", id! "_mm512_maskz_srai_epi64"),
  /- 34352 -/ (id! "mm512_maskz_slli_epi64", id! "_mm512_maskz_slli_epi64"),
  /- 34358 -/ (id! "mm512_maskz_srli_epi64", id! "_mm512_maskz_srli_epi64"),
  /- 35616 -/ (id! "mm512_reduce_mul_epi64", id! "_mm512_reduce_mul_epi64"),
  /- 35623 -/ (id! "mm512_reduce_min_epi64", id! "_mm512_reduce_min_epi64"),
  /- 34596 -/ (id! "mm512_broadcastq_epi64", id! "_mm512_broadcastq_epi64"),
  /- 35128 -/ (id! "mm512_i32scatter_epi64", id! "_mm512_i32scatter_epi64"),
  /- 35132 -/ (id! "mm512_i64scatter_epi64", id! "_mm512_i64scatter_epi64"),
  /- 34788 -/ (id! "mm512_mask_loadu_epi64", id! "_mm512_mask_loadu_epi64"),
  /- 34334 -/ (id! "mm512_maskz_srav_epi64", id! "_mm512_maskz_srav_epi64"),
  /- 34331 -/ (id! "mm512_maskz_sllv_epi64", id! "_mm512_maskz_sllv_epi64"),
  /- 34637 -/ (id! "mm512_maskz_rolv_epi64", id! "_mm512_maskz_rolv_epi64"),
  /- 34337 -/ (id! "mm512_maskz_srlv_epi64", id! "_mm512_maskz_srlv_epi64"),
  /- 34640 -/ (id! "mm512_maskz_rorv_epi64", id! "_mm512_maskz_rorv_epi64"),
  /- 35624 -/ (id! "mm512_reduce_max_epi64", id! "_mm512_reduce_max_epi64"),
  /- 35627 -/ (id! "mm512_reduce_min_epu64", id! "_mm512_reduce_min_epu64"),
  /- 35628 -/ (id! "mm512_reduce_max_epu64", id! "_mm512_reduce_max_epu64"),
  /- 35181 -/ (id! "mm512_mask_insertf32x4", id! "_mm512_mask_insertf32x4"),
  /- 35180 -/ (id! "mm512_mask_inserti32x4", id! "_mm512_mask_inserti32x4"),
  /- 34765 -/ (id! "mm512_mask_insertf64x4", id! "_mm512_mask_insertf64x4"),
  /- 34762 -/ (id! "mm512_mask_inserti64x4", id! "_mm512_mask_inserti64x4"),
  /- 34695 -/ (id! "mm512_cvtusepi32_epi16", id! "_mm512_cvtusepi32_epi16"),
  /- 34719 -/ (id! "mm512_cvtusepi64_epi16", id! "_mm512_cvtusepi64_epi16"),
  /- 34736 -/ (id! "mm512_mask_cvtepi32_pd", id! "_mm512_mask_cvtepi32_pd"),
  /- 34739 -/ (id! "mm512_mask_cvtepu32_pd", id! "_mm512_mask_cvtepu32_pd"),
  /- 34418 -/ (id! "mm512_maskz_rsqrt14_pd", id! "_mm512_maskz_rsqrt14_pd"),
  /- 35374 -/ (id! "mm512_mask_fmaddsub_pd", id! "_mm512_mask_fmaddsub_pd"),
  /- 35382 -/ (id! "mm512_mask_fmsubadd_pd", id! "_mm512_mask_fmsubadd_pd"),
  /- 35006 -/ (id! "mm512_getmant_round_pd", id! "_mm512_getmant_round_pd"),
  /- 34850 -/ (id! "mm512_maskz_shuffle_pd", id! "_mm512_maskz_shuffle_pd"),
  /- 34823 -/ (id! "mm512_maskz_permute_pd", id! "_mm512_maskz_permute_pd"),
  /- 34964 -/ (id! "mm512_mask_unpackhi_pd", id! "_mm512_mask_unpackhi_pd"),
  /- 35441 -/ (id! "mm512_mask_fixupimm_pd", id! "_mm512_mask_fixupimm_pd"),
  /- 34961 -/ (id! "mm512_mask_unpacklo_pd", id! "_mm512_mask_unpacklo_pd"),
  /- 34959 -/ (id! "mm512_maskz_movedup_pd", id! "_mm512_maskz_movedup_pd"),
  /- 35134 -/ (id! "mm512_mask_compress_pd", id! "_mm512_mask_compress_pd"),
  /- 35496 -/ (id! "mm512_maskz_getmant_pd", id! "_mm512_maskz_getmant_pd"),
  /- 34831 -/ (id! "mm512_mask_permutex_pd", id! "_mm512_mask_permutex_pd"),
  /- 35263 -/ (id! "mm_mask_fmsub_round_sd", id! "_mm_mask_fmsub_round_sd"),
  /- 35257 -/ (id! "mm_mask_fmadd_round_sd", id! "_mm_mask_fmadd_round_sd"),
  /- 35027 -/ (id! "mm_roundscale_round_sd", id! "_mm_roundscale_round_sd"),
  /- 34436 -/ (id! "mm_maskz_sqrt_round_sd", id! "_mm_maskz_sqrt_round_sd"),
  /- 35517 -/ (id! "mm_maskz_roundscale_sd", id! "_mm_maskz_roundscale_sd"),
  /- 34988 -/ (id! "mm_mask_cvt_roundss_sd", id! "_mm_mask_cvt_roundss_sd"),
  /- 35052 -/ (id! "mm512_cmpge_epi32_mask", id! "_mm512_cmpge_epi32_mask"),
  /- 35061 -/ (id! "mm512_cmple_epi32_mask", id! "_mm512_cmple_epi32_mask"),
  /- 34913 -/ (id! "mm512_testn_epi32_mask", id! "_mm512_testn_epi32_mask"),
  /- 35044 -/ (id! "mm512_cmpeq_epi32_mask", id! "_mm512_cmpeq_epi32_mask"),
  /- 35048 -/ (id! "mm512_cmpgt_epi32_mask", id! "_mm512_cmpgt_epi32_mask"),
  /- 35069 -/ (id! "mm512_cmplt_epi32_mask", id! "_mm512_cmplt_epi32_mask"),
  /- 35055 -/ (id! "mm512_cmpge_epu32_mask", id! "_mm512_cmpge_epu32_mask"),
  /- 35063 -/ (id! "mm512_cmple_epu32_mask", id! "_mm512_cmple_epu32_mask"),
  /- 35583 -/ (id! "mm512_cmpeq_epu32_mask", id! "_mm512_cmpeq_epu32_mask"),
  /- 35587 -/ (id! "mm512_cmpgt_epu32_mask", id! "_mm512_cmpgt_epu32_mask"),
  /- 35071 -/ (id! "mm512_cmplt_epu32_mask", id! "_mm512_cmplt_epu32_mask"),
  /- 35057 -/ (id! "mm512_cmpge_epi64_mask", id! "_mm512_cmpge_epi64_mask"),
  /- 35065 -/ (id! "mm512_cmple_epi64_mask", id! "_mm512_cmple_epi64_mask"),
  /- 34915 -/ (id! "mm512_testn_epi64_mask", id! "_mm512_testn_epi64_mask"),
  /- 35047 -/ (id! "mm512_cmpeq_epi64_mask", id! "_mm512_cmpeq_epi64_mask"),
  /- 35051 -/ (id! "mm512_cmpgt_epi64_mask", id! "_mm512_cmpgt_epi64_mask"),
  /- 35073 -/ (id! "mm512_cmplt_epi64_mask", id! "_mm512_cmplt_epi64_mask"),
  /- 35059 -/ (id! "mm512_cmpge_epu64_mask", id! "_mm512_cmpge_epu64_mask"),
  /- 35067 -/ (id! "mm512_cmple_epu64_mask", id! "_mm512_cmple_epu64_mask"),
  /- 35586 -/ (id! "mm512_cmpeq_epu64_mask", id! "_mm512_cmpeq_epu64_mask"),
  /- 35590 -/ (id! "mm512_cmpgt_epu64_mask", id! "_mm512_cmpgt_epu64_mask"),
  /- 35075 -/ (id! "mm512_cmplt_epu64_mask", id! "_mm512_cmplt_epu64_mask"),
  /- 35532 -/ (id! "mm512_cmpunord_pd_mask", id! "_mm512_cmpunord_pd_mask"),
  /- 35521 -/ (id! "mm512_mask_cmp_pd_mask", id! "_mm512_mask_cmp_pd_mask"),
  /- 35548 -/ (id! "mm512_cmpunord_ps_mask", id! "_mm512_cmpunord_ps_mask"),
  /- 35520 -/ (id! "mm512_mask_cmp_ps_mask", id! "_mm512_mask_cmp_ps_mask"),
  /- 35435 -/ (id! "mm512_mask_cvtepi32_ps", id! "_mm512_mask_cvtepi32_ps"),
  /- 35438 -/ (id! "mm512_mask_cvtepu32_ps", id! "_mm512_mask_cvtepu32_ps"),
  /- 34421 -/ (id! "mm512_maskz_rsqrt14_ps", id! "_mm512_maskz_rsqrt14_ps"),
  /- 35378 -/ (id! "mm512_mask_fmaddsub_ps", id! "_mm512_mask_fmaddsub_ps"),
  /- 35386 -/ (id! "mm512_mask_fmsubadd_ps", id! "_mm512_mask_fmsubadd_ps"),
  /- 35009 -/ (id! "mm512_getmant_round_ps", id! "_mm512_getmant_round_ps"),
  /- 34847 -/ (id! "mm512_maskz_shuffle_ps", id! "_mm512_maskz_shuffle_ps"),
  /- 34826 -/ (id! "mm512_maskz_permute_ps", id! "_mm512_maskz_permute_ps"),
  /- 34967 -/ (id! "mm512_mask_unpackhi_ps", id! "_mm512_mask_unpackhi_ps"),
  /- 35444 -/ (id! "mm512_mask_fixupimm_ps", id! "_mm512_mask_fixupimm_ps"),
  /- 35207 -/ (id! "mm512_mask_unpacklo_ps", id! "_mm512_mask_unpacklo_ps"),
  /- 34864 -/ (id! "mm512_mask_movehdup_ps", id! "_mm512_mask_movehdup_ps"),
  /- 34867 -/ (id! "mm512_mask_moveldup_ps", id! "_mm512_mask_moveldup_ps"),
  /- 35137 -/ (id! "mm512_mask_compress_ps", id! "_mm512_mask_compress_ps"),
  /- 35499 -/ (id! "mm512_maskz_getmant_ps", id! "_mm512_maskz_getmant_ps"),
  /- 35264 -/ (id! "mm_mask_fmsub_round_ss", id! "_mm_mask_fmsub_round_ss"),
  /- 35258 -/ (id! "mm_mask_fmadd_round_ss", id! "_mm_mask_fmadd_round_ss"),
  /- 35024 -/ (id! "mm_roundscale_round_ss", id! "_mm_roundscale_round_ss"),
  /- 34439 -/ (id! "mm_maskz_sqrt_round_ss", id! "_mm_maskz_sqrt_round_ss"),
  /- 34985 -/ (id! "mm_mask_cvt_roundsd_ss", id! "_mm_mask_cvt_roundsd_ss"),
  /- 35514 -/ (id! "mm_maskz_roundscale_ss", id! "_mm_maskz_roundscale_ss"),
  /- 34993 -/ (id! "mm512_stream_load_si512", id! "_mm512_stream_load_si512"),
  /- 35158 -/ (id! "mm512_mask_expand_epi32", id! "_mm512_mask_expand_epi32"),
  /- 34647 -/ (id! "mm512_cvt_roundpd_epi32", id! "_mm512_cvt_roundpd_epi32"),
  /- 35406 -/ (id! "mm512_mask_cvttpd_epi32", id! "_mm512_mask_cvttpd_epi32"),
  /- 35413 -/ (id! "mm512_maskz_cvtpd_epi32", id! "_mm512_maskz_cvtpd_epi32"),
  /- 34310 -/ (id! "mm512_maskz_mullo_epi32", id! "_mm512_maskz_mullo_epi32"),
  /- 34837 -/ (id! "mm512_permutexvar_epi32", id! "_mm512_permutexvar_epi32"),
  /- 35039 -/ (id! "mm512_mask_alignr_epi32", id! "_mm512_mask_alignr_epi32"),
  /- 34659 -/ (id! "mm512_cvt_roundps_epi32", id! "_mm512_cvt_roundps_epi32"),
  /- 35418 -/ (id! "mm512_mask_cvttps_epi32", id! "_mm512_mask_cvttps_epi32"),
  /- 35425 -/ (id! "mm512_maskz_cvtps_epi32", id! "_mm512_maskz_cvtps_epi32"),
  /- 34904 -/ (id! "mm512_mask_andnot_epi32", id! "_mm512_mask_andnot_epi32"),
  /- 34795 -/ (id! "mm512_maskz_loadu_epi32", id! "_mm512_maskz_loadu_epi32"),
  /- 34798 -/ (id! "mm512_mask_storeu_epi32", id! "_mm512_mask_storeu_epi32"),
  /- 34650 -/ (id! "mm512_cvt_roundpd_epu32", id! "_mm512_cvt_roundpd_epu32"),
  /- 35409 -/ (id! "mm512_mask_cvttpd_epu32", id! "_mm512_mask_cvttpd_epu32"),
  /- 35416 -/ (id! "mm512_maskz_cvtpd_epu32", id! "_mm512_maskz_cvtpd_epu32"),
  /- 34662 -/ (id! "mm512_cvt_roundps_epu32", id! "_mm512_cvt_roundps_epu32"),
  /- 35421 -/ (id! "mm512_mask_cvttps_epu32", id! "_mm512_mask_cvttps_epu32"),
  /- 35428 -/ (id! "mm512_maskz_cvtps_epu32", id! "_mm512_maskz_cvtps_epu32"),
  /- 35154 -/ (id! "mm512_mask_expand_epi64", id! "_mm512_mask_expand_epi64"),
  /- 34834 -/ (id! "mm512_permutexvar_epi64", id! "_mm512_permutexvar_epi64"),
  /- 35042 -/ (id! "mm512_mask_alignr_epi64", id! "_mm512_mask_alignr_epi64"),
  /- 34907 -/ (id! "mm512_mask_andnot_epi64", id! "_mm512_mask_andnot_epi64"),
  /- 34789 -/ (id! "mm512_maskz_loadu_epi64", id! "_mm512_maskz_loadu_epi64"),
  /- 34791 -/ (id! "mm512_mask_storeu_epi64", id! "_mm512_mask_storeu_epi64"),
  /- 34313 -/ (id! "mm512_mask_mullox_epi64", id! "_mm512_mask_mullox_epi64"),
  /- 35179 -/ (id! "mm512_maskz_insertf32x4", id! "_mm512_maskz_insertf32x4"),
  /- 35178 -/ (id! "mm512_maskz_inserti32x4", id! "_mm512_maskz_inserti32x4"),
  /- 34766 -/ (id! "mm512_maskz_insertf64x4", id! "_mm512_maskz_insertf64x4"),
  /- 34763 -/ (id! "mm512_maskz_inserti64x4", id! "_mm512_maskz_inserti64x4"),
  /- 34737 -/ (id! "mm512_maskz_cvtepi32_pd", id! "_mm512_maskz_cvtepi32_pd"),
  /- 34740 -/ (id! "mm512_maskz_cvtepu32_pd", id! "_mm512_maskz_cvtepu32_pd"),
  /- 35375 -/ (id! "mm512_mask3_fmaddsub_pd", id! "_mm512_mask3_fmaddsub_pd"),
  /- 35376 -/ (id! "mm512_maskz_fmaddsub_pd", id! "_mm512_maskz_fmaddsub_pd"),
  /- 35383 -/ (id! "mm512_mask3_fmsubadd_pd", id! "_mm512_mask3_fmsubadd_pd"),
  /- 35384 -/ (id! "mm512_maskz_fmsubadd_pd", id! "_mm512_maskz_fmsubadd_pd"),
  /- 34477 -/ (id! "mm512_mask_sub_round_pd", id! "_mm512_mask_sub_round_pd"),
  /- 34546 -/ (id! "mm512_fmaddsub_round_pd", id! "_mm512_fmaddsub_round_pd"),
  /- 34471 -/ (id! "mm512_mask_add_round_pd", id! "_mm512_mask_add_round_pd"),
  /- 34554 -/ (id! "mm512_fmsubadd_round_pd", id! "_mm512_fmsubadd_round_pd"),
  /- 34483 -/ (id! "mm512_mask_mul_round_pd", id! "_mm512_mask_mul_round_pd"),
  /- 34851 -/ (id! "mm512_fixupimm_round_pd", id! "_mm512_fixupimm_round_pd"),
  /- 34513 -/ (id! "mm512_mask_min_round_pd", id! "_mm512_mask_min_round_pd"),
  /- 34489 -/ (id! "mm512_mask_div_round_pd", id! "_mm512_mask_div_round_pd"),
  /- 34507 -/ (id! "mm512_mask_max_round_pd", id! "_mm512_mask_max_round_pd"),
  /- 34965 -/ (id! "mm512_maskz_unpackhi_pd", id! "_mm512_maskz_unpackhi_pd"),
  /- 35442 -/ (id! "mm512_maskz_fixupimm_pd", id! "_mm512_maskz_fixupimm_pd"),
  /- 34962 -/ (id! "mm512_maskz_unpacklo_pd", id! "_mm512_maskz_unpacklo_pd"),
  /- 35105 -/ (id! "mm512_mask_i32gather_pd", id! "_mm512_mask_i32gather_pd"),
  /- 35109 -/ (id! "mm512_mask_i64gather_pd", id! "_mm512_mask_i64gather_pd"),
  /- 35135 -/ (id! "mm512_maskz_compress_pd", id! "_mm512_maskz_compress_pd"),
  /- 34832 -/ (id! "mm512_maskz_permutex_pd", id! "_mm512_maskz_permutex_pd"),
  /- 35265 -/ (id! "mm_mask3_fmsub_round_sd", id! "_mm_mask3_fmsub_round_sd"),
  /- 35267 -/ (id! "mm_maskz_fmsub_round_sd", id! "_mm_maskz_fmsub_round_sd"),
  /- 35275 -/ (id! "mm_mask_fnmsub_round_sd", id! "_mm_mask_fnmsub_round_sd"),
  /- 35259 -/ (id! "mm_mask3_fmadd_round_sd", id! "_mm_mask3_fmadd_round_sd"),
  /- 35261 -/ (id! "mm_maskz_fmadd_round_sd", id! "_mm_maskz_fmadd_round_sd"),
  /- 35269 -/ (id! "mm_mask_fnmadd_round_sd", id! "_mm_mask_fnmadd_round_sd"),
  /- 34525 -/ (id! "mm_mask_scalef_round_sd", id! "_mm_mask_scalef_round_sd"),
  /- 34998 -/ (id! "mm_mask_getexp_round_sd", id! "_mm_mask_getexp_round_sd"),
  /- 34989 -/ (id! "mm_maskz_cvt_roundss_sd", id! "_mm_maskz_cvt_roundss_sd"),
  /- 35076 -/ (id! "mm512_cmpneq_epi32_mask", id! "_mm512_cmpneq_epi32_mask"),
  /- 35079 -/ (id! "mm512_cmpneq_epu32_mask", id! "_mm512_cmpneq_epu32_mask"),
  /- 35081 -/ (id! "mm512_cmpneq_epi64_mask", id! "_mm512_cmpneq_epi64_mask"),
  /- 35083 -/ (id! "mm512_cmpneq_epu64_mask", id! "_mm512_cmpneq_epu64_mask"),
  /- 35090 -/ (id! "mm512_cmp_round_pd_mask", id! "_mm512_cmp_round_pd_mask"),
  /- 35091 -/ (id! "mm512_cmp_round_ps_mask", id! "_mm512_cmp_round_ps_mask"),
  /- 34741 -/ (id! "mm512_cvt_roundepi32_ps", id! "_mm512_cvt_roundepi32_ps"),
  /- 35436 -/ (id! "mm512_maskz_cvtepi32_ps", id! "_mm512_maskz_cvtepi32_ps"),
  /- 34744 -/ (id! "mm512_cvt_roundepu32_ps", id! "_mm512_cvt_roundepu32_ps"),
  /- 35439 -/ (id! "mm512_maskz_cvtepu32_ps", id! "_mm512_maskz_cvtepu32_ps"),
  /- 35379 -/ (id! "mm512_mask3_fmaddsub_ps", id! "_mm512_mask3_fmaddsub_ps"),
  /- 35380 -/ (id! "mm512_maskz_fmaddsub_ps", id! "_mm512_maskz_fmaddsub_ps"),
  /- 35387 -/ (id! "mm512_mask3_fmsubadd_ps", id! "_mm512_mask3_fmsubadd_ps"),
  /- 35388 -/ (id! "mm512_maskz_fmsubadd_ps", id! "_mm512_maskz_fmsubadd_ps"),
  /- 34480 -/ (id! "mm512_mask_sub_round_ps", id! "_mm512_mask_sub_round_ps"),
  /- 34550 -/ (id! "mm512_fmaddsub_round_ps", id! "_mm512_fmaddsub_round_ps"),
  /- 34474 -/ (id! "mm512_mask_add_round_ps", id! "_mm512_mask_add_round_ps"),
  /- 34558 -/ (id! "mm512_fmsubadd_round_ps", id! "_mm512_fmsubadd_round_ps"),
  /- 34486 -/ (id! "mm512_mask_mul_round_ps", id! "_mm512_mask_mul_round_ps"),
  /- 34854 -/ (id! "mm512_fixupimm_round_ps", id! "_mm512_fixupimm_round_ps"),
  /- 34516 -/ (id! "mm512_mask_min_round_ps", id! "_mm512_mask_min_round_ps"),
  /- 34492 -/ (id! "mm512_mask_div_round_ps", id! "_mm512_mask_div_round_ps"),
  /- 34510 -/ (id! "mm512_mask_max_round_ps", id! "_mm512_mask_max_round_ps"),
  /- 34968 -/ (id! "mm512_maskz_unpackhi_ps", id! "_mm512_maskz_unpackhi_ps"),
  /- 35445 -/ (id! "mm512_maskz_fixupimm_ps", id! "_mm512_maskz_fixupimm_ps"),
  /- 35208 -/ (id! "mm512_maskz_unpacklo_ps", id! "_mm512_maskz_unpacklo_ps"),
  /- 34865 -/ (id! "mm512_maskz_movehdup_ps", id! "_mm512_maskz_movehdup_ps"),
  /- 34868 -/ (id! "mm512_maskz_moveldup_ps", id! "_mm512_maskz_moveldup_ps"),
  /- 35103 -/ (id! "mm512_mask_i32gather_ps", id! "_mm512_mask_i32gather_ps"),
  /- 35107 -/ (id! "mm512_mask_i64gather_ps", id! "_mm512_mask_i64gather_ps"),
  /- 35138 -/ (id! "mm512_maskz_compress_ps", id! "_mm512_maskz_compress_ps"),
  /- 35266 -/ (id! "mm_mask3_fmsub_round_ss", id! "_mm_mask3_fmsub_round_ss"),
  /- 35268 -/ (id! "mm_maskz_fmsub_round_ss", id! "_mm_maskz_fmsub_round_ss"),
  /- 35276 -/ (id! "mm_mask_fnmsub_round_ss", id! "_mm_mask_fnmsub_round_ss"),
  /- 35260 -/ (id! "mm_mask3_fmadd_round_ss", id! "_mm_mask3_fmadd_round_ss"),
  /- 35262 -/ (id! "mm_maskz_fmadd_round_ss", id! "_mm_maskz_fmadd_round_ss"),
  /- 35270 -/ (id! "mm_mask_fnmadd_round_ss", id! "_mm_mask_fnmadd_round_ss"),
  /- 34528 -/ (id! "mm_mask_scalef_round_ss", id! "_mm_mask_scalef_round_ss"),
  /- 34995 -/ (id! "mm_mask_getexp_round_ss", id! "_mm_mask_getexp_round_ss"),
  /- 34986 -/ (id! "mm_maskz_cvt_roundsd_ss", id! "_mm_maskz_cvt_roundsd_ss"),
  /- 34756 -/ (id! "mm512_extracti32x4_epi32", id! "_mm512_extracti32x4_epi32"),
  /- 34441 -/ (id! "mm512_mask_cvtepi8_epi32", id! "_mm512_mask_cvtepi8_epi32"),
  /- 34456 -/ (id! "mm512_mask_cvtepu8_epi32", id! "_mm512_mask_cvtepu8_epi32"),
  /- 34401 -/ (id! "mm512_ternarylogic_epi32", id! "_mm512_ternarylogic_epi32"),
  /- 35159 -/ (id! "mm512_maskz_expand_epi32", id! "_mm512_maskz_expand_epi32"),
  /- 34641 -/ (id! "mm512_cvtt_roundpd_epi32", id! "_mm512_cvtt_roundpd_epi32"),
  /- 35407 -/ (id! "mm512_maskz_cvttpd_epi32", id! "_mm512_maskz_cvttpd_epi32"),
  /- 34615 -/ (id! "mm512_mask_shuffle_epi32", id! "_mm512_mask_shuffle_epi32"),
  /- 34809 -/ (id! "mm512_permutex2var_epi32", id! "_mm512_permutex2var_epi32"),
  /- 35040 -/ (id! "mm512_maskz_alignr_epi32", id! "_mm512_maskz_alignr_epi32"),
  /- 34653 -/ (id! "mm512_cvtt_roundps_epi32", id! "_mm512_cvtt_roundps_epi32"),
  /- 35419 -/ (id! "mm512_maskz_cvttps_epi32", id! "_mm512_maskz_cvttps_epi32"),
  /- 34905 -/ (id! "mm512_maskz_andnot_epi32", id! "_mm512_maskz_andnot_epi32"),
  /- 34644 -/ (id! "mm512_cvtt_roundpd_epu32", id! "_mm512_cvtt_roundpd_epu32"),
  /- 35410 -/ (id! "mm512_maskz_cvttpd_epu32", id! "_mm512_maskz_cvttpd_epu32"),
  /- 34656 -/ (id! "mm512_cvtt_roundps_epu32", id! "_mm512_cvtt_roundps_epu32"),
  /- 35422 -/ (id! "mm512_maskz_cvttps_epu32", id! "_mm512_maskz_cvttps_epu32"),
  /- 34624 -/ (id! "mm512_mask_shuffle_f64x2", id! "_mm512_mask_shuffle_f64x2"),
  /- 34618 -/ (id! "mm512_mask_shuffle_i64x2", id! "_mm512_mask_shuffle_i64x2"),
  /- 34753 -/ (id! "mm512_extracti64x4_epi64", id! "_mm512_extracti64x4_epi64"),
  /- 34444 -/ (id! "mm512_mask_cvtepi8_epi64", id! "_mm512_mask_cvtepi8_epi64"),
  /- 34459 -/ (id! "mm512_mask_cvtepu8_epi64", id! "_mm512_mask_cvtepu8_epi64"),
  /- 34398 -/ (id! "mm512_ternarylogic_epi64", id! "_mm512_ternarylogic_epi64"),
  /- 35155 -/ (id! "mm512_maskz_expand_epi64", id! "_mm512_maskz_expand_epi64"),
  /- 34805 -/ (id! "mm512_permutex2var_epi64", id! "_mm512_permutex2var_epi64"),
  /- 35043 -/ (id! "mm512_maskz_alignr_epi64", id! "_mm512_maskz_alignr_epi64"),
  /- 34908 -/ (id! "mm512_maskz_andnot_epi64", id! "_mm512_maskz_andnot_epi64"),
  /- 34627 -/ (id! "mm512_mask_shuffle_f32x4", id! "_mm512_mask_shuffle_f32x4"),
  /- 34621 -/ (id! "mm512_mask_shuffle_i32x4", id! "_mm512_mask_shuffle_i32x4"),
  /- 34677 -/ (id! "mm512_mask_cvtepi32_epi8", id! "_mm512_mask_cvtepi32_epi8"),
  /- 34725 -/ (id! "mm512_mask_cvtepi64_epi8", id! "_mm512_mask_cvtepi64_epi8"),
  /- 35633 -/ (id! "mm512_mask_reduce_add_pd", id! "_mm512_mask_reduce_add_pd"),
  /- 34478 -/ (id! "mm512_maskz_sub_round_pd", id! "_mm512_maskz_sub_round_pd"),
  /- 34472 -/ (id! "mm512_maskz_add_round_pd", id! "_mm512_maskz_add_round_pd"),
  /- 34484 -/ (id! "mm512_maskz_mul_round_pd", id! "_mm512_maskz_mul_round_pd"),
  /- 34514 -/ (id! "mm512_maskz_min_round_pd", id! "_mm512_maskz_min_round_pd"),
  /- 34429 -/ (id! "mm512_mask_sqrt_round_pd", id! "_mm512_mask_sqrt_round_pd"),
  /- 34490 -/ (id! "mm512_maskz_div_round_pd", id! "_mm512_maskz_div_round_pd"),
  /- 34508 -/ (id! "mm512_maskz_max_round_pd", id! "_mm512_maskz_max_round_pd"),
  /- 35510 -/ (id! "mm512_mask_roundscale_pd", id! "_mm512_mask_roundscale_pd"),
  /- 35634 -/ (id! "mm512_mask_reduce_mul_pd", id! "_mm512_mask_reduce_mul_pd"),
  /- 35637 -/ (id! "mm512_mask_reduce_min_pd", id! "_mm512_mask_reduce_min_pd"),
  /- 34800 -/ (id! "mm512_mask_permutevar_pd", id! "_mm512_mask_permutevar_pd"),
  /- 35121 -/ (id! "mm512_mask_i32scatter_pd", id! "_mm512_mask_i32scatter_pd"),
  /- 35125 -/ (id! "mm512_mask_i64scatter_pd", id! "_mm512_mask_i64scatter_pd"),
  /- 35277 -/ (id! "mm_mask3_fnmsub_round_sd", id! "_mm_mask3_fnmsub_round_sd"),
  /- 35279 -/ (id! "mm_maskz_fnmsub_round_sd", id! "_mm_maskz_fnmsub_round_sd"),
  /- 35271 -/ (id! "mm_mask3_fnmadd_round_sd", id! "_mm_mask3_fnmadd_round_sd"),
  /- 35273 -/ (id! "mm_maskz_fnmadd_round_sd", id! "_mm_maskz_fnmadd_round_sd"),
  /- 34526 -/ (id! "mm_maskz_scalef_round_sd", id! "_mm_maskz_scalef_round_sd"),
  /- 34999 -/ (id! "mm_maskz_getexp_round_sd", id! "_mm_maskz_getexp_round_sd"),
  /- 35013 -/ (id! "mm_mask_getmant_round_sd", id! "_mm_mask_getmant_round_sd"),
  /- 35531 -/ (id! "mm512_mask_cmple_pd_mask", id! "_mm512_mask_cmple_pd_mask"),
  /- 35527 -/ (id! "mm512_mask_cmpeq_pd_mask", id! "_mm512_mask_cmpeq_pd_mask"),
  /- 35529 -/ (id! "mm512_mask_cmplt_pd_mask", id! "_mm512_mask_cmplt_pd_mask"),
  /- 35547 -/ (id! "mm512_mask_cmple_ps_mask", id! "_mm512_mask_cmple_ps_mask"),
  /- 35543 -/ (id! "mm512_mask_cmpeq_ps_mask", id! "_mm512_mask_cmpeq_ps_mask"),
  /- 35545 -/ (id! "mm512_mask_cmplt_ps_mask", id! "_mm512_mask_cmplt_ps_mask"),
  /- 35609 -/ (id! "mm512_mask_reduce_add_ps", id! "_mm512_mask_reduce_add_ps"),
  /- 34481 -/ (id! "mm512_maskz_sub_round_ps", id! "_mm512_maskz_sub_round_ps"),
  /- 34475 -/ (id! "mm512_maskz_add_round_ps", id! "_mm512_maskz_add_round_ps"),
  /- 34487 -/ (id! "mm512_maskz_mul_round_ps", id! "_mm512_maskz_mul_round_ps"),
  /- 34517 -/ (id! "mm512_maskz_min_round_ps", id! "_mm512_maskz_min_round_ps"),
  /- 34432 -/ (id! "mm512_mask_sqrt_round_ps", id! "_mm512_mask_sqrt_round_ps"),
  /- 34493 -/ (id! "mm512_maskz_div_round_ps", id! "_mm512_maskz_div_round_ps"),
  /- 34511 -/ (id! "mm512_maskz_max_round_ps", id! "_mm512_maskz_max_round_ps"),
  /- 35507 -/ (id! "mm512_mask_roundscale_ps", id! "_mm512_mask_roundscale_ps"),
  /- 35610 -/ (id! "mm512_mask_reduce_mul_ps", id! "_mm512_mask_reduce_mul_ps"),
  /- 35613 -/ (id! "mm512_mask_reduce_min_ps", id! "_mm512_mask_reduce_min_ps"),
  /- 34803 -/ (id! "mm512_mask_permutevar_ps", id! "_mm512_mask_permutevar_ps"),
  /- 35119 -/ (id! "mm512_mask_i32scatter_ps", id! "_mm512_mask_i32scatter_ps"),
  /- 35123 -/ (id! "mm512_mask_i64scatter_ps", id! "_mm512_mask_i64scatter_ps"),
  /- 35614 -/ (id! "mm512_mask_reduce_max_ps", id! "_mm512_mask_reduce_max_ps"),
  /- 35278 -/ (id! "mm_mask3_fnmsub_round_ss", id! "_mm_mask3_fnmsub_round_ss"),
  /- 35280 -/ (id! "mm_maskz_fnmsub_round_ss", id! "_mm_maskz_fnmsub_round_ss"),
  /- 35272 -/ (id! "mm_mask3_fnmadd_round_ss", id! "_mm_mask3_fnmadd_round_ss"),
  /- 35274 -/ (id! "mm_maskz_fnmadd_round_ss", id! "_mm_maskz_fnmadd_round_ss"),
  /- 34529 -/ (id! "mm_maskz_scalef_round_ss", id! "_mm_maskz_scalef_round_ss"),
  /- 34996 -/ (id! "mm_maskz_getexp_round_ss", id! "_mm_maskz_getexp_round_ss"),
  /- 35016 -/ (id! "mm_mask_getmant_round_ss", id! "_mm_mask_getmant_round_ss"),
  /- 34701 -/ (id! "mm512_mask_cvtepi64_epi32", id! "_mm512_mask_cvtepi64_epi32"),
  /- 34447 -/ (id! "mm512_mask_cvtepi16_epi32", id! "_mm512_mask_cvtepi16_epi32"),
  /- 34462 -/ (id! "mm512_mask_cvtepu16_epi32", id! "_mm512_mask_cvtepu16_epi32"),
  /- 34442 -/ (id! "mm512_maskz_cvtepi8_epi32", id! "_mm512_maskz_cvtepi8_epi32"),
  /- 34457 -/ (id! "mm512_maskz_cvtepu8_epi32", id! "_mm512_maskz_cvtepu8_epi32"),
  /- 34616 -/ (id! "mm512_maskz_shuffle_epi32", id! "_mm512_maskz_shuffle_epi32"),
  /- 34922 -/ (id! "mm512_mask_unpackhi_epi32", id! "_mm512_mask_unpackhi_epi32"),
  /- 34928 -/ (id! "mm512_mask_unpacklo_epi32", id! "_mm512_mask_unpacklo_epi32"),
  /- 35143 -/ (id! "mm512_mask_compress_epi32", id! "_mm512_mask_compress_epi32"),
  /- 34625 -/ (id! "mm512_maskz_shuffle_f64x2", id! "_mm512_maskz_shuffle_f64x2"),
  /- 34619 -/ (id! "mm512_maskz_shuffle_i64x2", id! "_mm512_maskz_shuffle_i64x2"),
  /- 34453 -/ (id! "mm512_mask_cvtepi32_epi64", id! "_mm512_mask_cvtepi32_epi64"),
  /- 34468 -/ (id! "mm512_mask_cvtepu32_epi64", id! "_mm512_mask_cvtepu32_epi64"),
  /- 34450 -/ (id! "mm512_mask_cvtepi16_epi64", id! "_mm512_mask_cvtepi16_epi64"),
  /- 34465 -/ (id! "mm512_mask_cvtepu16_epi64", id! "_mm512_mask_cvtepu16_epi64"),
  /- 34445 -/ (id! "mm512_maskz_cvtepi8_epi64", id! "_mm512_maskz_cvtepi8_epi64"),
  /- 34460 -/ (id! "mm512_maskz_cvtepu8_epi64", id! "_mm512_maskz_cvtepu8_epi64"),
  /- 34925 -/ (id! "mm512_mask_unpackhi_epi64", id! "_mm512_mask_unpackhi_epi64"),
  /- 34931 -/ (id! "mm512_mask_unpacklo_epi64", id! "_mm512_mask_unpacklo_epi64"),
  /- 35140 -/ (id! "mm512_mask_compress_epi64", id! "_mm512_mask_compress_epi64"),
  /- 34828 -/ (id! "mm512_mask_permutex_epi64", id! "_mm512_mask_permutex_epi64"),
  /- 34628 -/ (id! "mm512_maskz_shuffle_f32x4", id! "_mm512_maskz_shuffle_f32x4"),
  /- 34622 -/ (id! "mm512_maskz_shuffle_i32x4", id! "_mm512_maskz_shuffle_i32x4"),
  /- 34689 -/ (id! "mm512_mask_cvtepi32_epi16", id! "_mm512_mask_cvtepi32_epi16"),
  /- 34713 -/ (id! "mm512_mask_cvtepi64_epi16", id! "_mm512_mask_cvtepi64_epi16"),
  /- 34681 -/ (id! "mm512_mask_cvtsepi32_epi8", id! "_mm512_mask_cvtsepi32_epi8"),
  /- 34678 -/ (id! "mm512_maskz_cvtepi32_epi8", id! "_mm512_maskz_cvtepi32_epi8"),
  /- 34729 -/ (id! "mm512_mask_cvtsepi64_epi8", id! "_mm512_mask_cvtsepi64_epi8"),
  /- 34726 -/ (id! "mm512_maskz_cvtepi64_epi8", id! "_mm512_maskz_cvtepi64_epi8"),
  /- 34539 -/ (id! "mm512_mask_fmsub_round_pd", id! "_mm512_mask_fmsub_round_pd"),
  /- 34531 -/ (id! "mm512_mask_fmadd_round_pd", id! "_mm512_mask_fmadd_round_pd"),
  /- 35021 -/ (id! "mm512_roundscale_round_pd", id! "_mm512_roundscale_round_pd"),
  /- 34430 -/ (id! "mm512_maskz_sqrt_round_pd", id! "_mm512_maskz_sqrt_round_pd"),
  /- 34588 -/ (id! "mm512_mask_broadcastsd_pd", id! "_mm512_mask_broadcastsd_pd"),
  /- 35511 -/ (id! "mm512_maskz_roundscale_pd", id! "_mm512_maskz_roundscale_pd"),
  /- 34801 -/ (id! "mm512_maskz_permutevar_pd", id! "_mm512_maskz_permutevar_pd"),
  /- 34840 -/ (id! "mm512_mask_permutexvar_pd", id! "_mm512_mask_permutexvar_pd"),
  /- 34970 -/ (id! "mm512_mask_cvt_roundps_pd", id! "_mm512_mask_cvt_roundps_pd"),
  /- 35148 -/ (id! "mm512_mask_expandloadu_pd", id! "_mm512_mask_expandloadu_pd"),
  /- 34858 -/ (id! "mm_mask_fixupimm_round_sd", id! "_mm_mask_fixupimm_round_sd"),
  /- 35014 -/ (id! "mm_maskz_getmant_round_sd", id! "_mm_maskz_getmant_round_sd"),
  /- 34977 -/ (id! "mm512_mask_cvt_roundps_ph", id! "_mm512_mask_cvt_roundps_ph"),
  /- 35093 -/ (id! "mm512_mask_cmp_epi32_mask", id! "_mm512_mask_cmp_epi32_mask"),
  /- 35095 -/ (id! "mm512_mask_cmp_epu32_mask", id! "_mm512_mask_cmp_epu32_mask"),
  /- 35092 -/ (id! "mm512_mask_cmp_epi64_mask", id! "_mm512_mask_cmp_epi64_mask"),
  /- 35094 -/ (id! "mm512_mask_cmp_epu64_mask", id! "_mm512_mask_cmp_epu64_mask"),
  /- 35541 -/ (id! "mm512_mask_cmpord_pd_mask", id! "_mm512_mask_cmpord_pd_mask"),
  /- 35539 -/ (id! "mm512_mask_cmpnle_pd_mask", id! "_mm512_mask_cmpnle_pd_mask"),
  /- 35535 -/ (id! "mm512_mask_cmpneq_pd_mask", id! "_mm512_mask_cmpneq_pd_mask"),
  /- 35537 -/ (id! "mm512_mask_cmpnlt_pd_mask", id! "_mm512_mask_cmpnlt_pd_mask"),
  /- 35099 -/ (id! "mm_mask_cmp_round_sd_mask", id! "_mm_mask_cmp_round_sd_mask"),
  /- 35557 -/ (id! "mm512_mask_cmpord_ps_mask", id! "_mm512_mask_cmpord_ps_mask"),
  /- 35555 -/ (id! "mm512_mask_cmpnle_ps_mask", id! "_mm512_mask_cmpnle_ps_mask"),
  /- 35551 -/ (id! "mm512_mask_cmpneq_ps_mask", id! "_mm512_mask_cmpneq_ps_mask"),
  /- 35553 -/ (id! "mm512_mask_cmpnlt_ps_mask", id! "_mm512_mask_cmpnlt_ps_mask"),
  /- 35101 -/ (id! "mm_mask_cmp_round_ss_mask", id! "_mm_mask_cmp_round_ss_mask"),
  /- 34543 -/ (id! "mm512_mask_fmsub_round_ps", id! "_mm512_mask_fmsub_round_ps"),
  /- 34535 -/ (id! "mm512_mask_fmadd_round_ps", id! "_mm512_mask_fmadd_round_ps"),
  /- 35018 -/ (id! "mm512_roundscale_round_ps", id! "_mm512_roundscale_round_ps"),
  /- 34433 -/ (id! "mm512_maskz_sqrt_round_ps", id! "_mm512_maskz_sqrt_round_ps"),
  /- 34982 -/ (id! "mm512_mask_cvt_roundpd_ps", id! "_mm512_mask_cvt_roundpd_ps"),
  /- 35508 -/ (id! "mm512_maskz_roundscale_ps", id! "_mm512_maskz_roundscale_ps"),
  /- 34973 -/ (id! "mm512_mask_cvt_roundph_ps", id! "_mm512_mask_cvt_roundph_ps"),
  /- 34804 -/ (id! "mm512_maskz_permutevar_ps", id! "_mm512_maskz_permutevar_ps"),
  /- 34843 -/ (id! "mm512_mask_permutexvar_ps", id! "_mm512_mask_permutexvar_ps"),
  /- 34585 -/ (id! "mm512_mask_broadcastss_ps", id! "_mm512_mask_broadcastss_ps"),
  /- 35152 -/ (id! "mm512_mask_expandloadu_ps", id! "_mm512_mask_expandloadu_ps"),
  /- 34861 -/ (id! "mm_mask_fixupimm_round_ss", id! "_mm_mask_fixupimm_round_ss"),
  /- 35017 -/ (id! "mm_maskz_getmant_round_ss", id! "_mm_maskz_getmant_round_ss"),
  /- 34705 -/ (id! "mm512_mask_cvtsepi64_epi32", id! "_mm512_mask_cvtsepi64_epi32"),
  /- 34702 -/ (id! "mm512_maskz_cvtepi64_epi32", id! "_mm512_maskz_cvtepi64_epi32"),
  /- 34448 -/ (id! "mm512_maskz_cvtepi16_epi32", id! "_mm512_maskz_cvtepi16_epi32"),
  /- 34463 -/ (id! "mm512_maskz_cvtepu16_epi32", id! "_mm512_maskz_cvtepu16_epi32"),
  /- 34923 -/ (id! "mm512_maskz_unpackhi_epi32", id! "_mm512_maskz_unpackhi_epi32"),
  /- 34929 -/ (id! "mm512_maskz_unpacklo_epi32", id! "_mm512_maskz_unpacklo_epi32"),
  /- 35111 -/ (id! "mm512_mask_i32gather_epi32", id! "_mm512_mask_i32gather_epi32"),
  /- 35115 -/ (id! "mm512_mask_i64gather_epi32", id! "_mm512_mask_i64gather_epi32"),
  /- 35598 -/ (id! "mm512_mask_reduce_or_epi32", id! "_mm512_mask_reduce_or_epi32"),
  /- 35144 -/ (id! "mm512_maskz_compress_epi32", id! "_mm512_maskz_compress_epi32"),
  /- 34454 -/ (id! "mm512_maskz_cvtepi32_epi64", id! "_mm512_maskz_cvtepi32_epi64"),
  /- 34469 -/ (id! "mm512_maskz_cvtepu32_epi64", id! "_mm512_maskz_cvtepu32_epi64"),
  /- 34451 -/ (id! "mm512_maskz_cvtepi16_epi64", id! "_mm512_maskz_cvtepi16_epi64"),
  /- 34466 -/ (id! "mm512_maskz_cvtepu16_epi64", id! "_mm512_maskz_cvtepu16_epi64"),
  /- 34926 -/ (id! "mm512_maskz_unpackhi_epi64", id! "_mm512_maskz_unpackhi_epi64"),
  /- 34932 -/ (id! "mm512_maskz_unpacklo_epi64", id! "_mm512_maskz_unpacklo_epi64"),
  /- 35113 -/ (id! "mm512_mask_i32gather_epi64", id! "_mm512_mask_i32gather_epi64"),
  /- 35117 -/ (id! "mm512_mask_i64gather_epi64", id! "_mm512_mask_i64gather_epi64"),
  /- 35622 -/ (id! "mm512_mask_reduce_or_epi64", id! "_mm512_mask_reduce_or_epi64"),
  /- 35141 -/ (id! "mm512_maskz_compress_epi64", id! "_mm512_maskz_compress_epi64"),
  /- 34829 -/ (id! "mm512_maskz_permutex_epi64", id! "_mm512_maskz_permutex_epi64"),
  /- 34603 -/ (id! "mm512_mask_broadcast_f32x4", id! "_mm512_mask_broadcast_f32x4"),
  /- 34606 -/ (id! "mm512_mask_broadcast_i32x4", id! "_mm512_mask_broadcast_i32x4"),
  /- 34609 -/ (id! "mm512_mask_broadcast_f64x4", id! "_mm512_mask_broadcast_f64x4"),
  /- 34612 -/ (id! "mm512_mask_broadcast_i64x4", id! "_mm512_mask_broadcast_i64x4"),
  /- 34693 -/ (id! "mm512_mask_cvtsepi32_epi16", id! "_mm512_mask_cvtsepi32_epi16"),
  /- 34690 -/ (id! "mm512_maskz_cvtepi32_epi16", id! "_mm512_maskz_cvtepi32_epi16"),
  /- 34717 -/ (id! "mm512_mask_cvtsepi64_epi16", id! "_mm512_mask_cvtsepi64_epi16"),
  /- 34714 -/ (id! "mm512_maskz_cvtepi64_epi16", id! "_mm512_maskz_cvtepi64_epi16"),
  /- 34682 -/ (id! "mm512_maskz_cvtsepi32_epi8", id! "_mm512_maskz_cvtsepi32_epi8"),
  /- 34685 -/ (id! "mm512_mask_cvtusepi32_epi8", id! "_mm512_mask_cvtusepi32_epi8"),
  /- 34730 -/ (id! "mm512_maskz_cvtsepi64_epi8", id! "_mm512_maskz_cvtsepi64_epi8"),
  /- 34733 -/ (id! "mm512_mask_cvtusepi64_epi8", id! "_mm512_mask_cvtusepi64_epi8"),
  /- 34748 -/ (id! "mm512_mask_extractf64x4_pd", id! "_mm512_mask_extractf64x4_pd"),
  /- 34540 -/ (id! "mm512_mask3_fmsub_round_pd", id! "_mm512_mask3_fmsub_round_pd"),
  /- 34541 -/ (id! "mm512_maskz_fmsub_round_pd", id! "_mm512_maskz_fmsub_round_pd"),
  /- 34571 -/ (id! "mm512_mask_fnmsub_round_pd", id! "_mm512_mask_fnmsub_round_pd"),
  /- 34532 -/ (id! "mm512_mask3_fmadd_round_pd", id! "_mm512_mask3_fmadd_round_pd"),
  /- 34533 -/ (id! "mm512_maskz_fmadd_round_pd", id! "_mm512_maskz_fmadd_round_pd"),
  /- 34563 -/ (id! "mm512_mask_fnmadd_round_pd", id! "_mm512_mask_fnmadd_round_pd"),
  /- 34519 -/ (id! "mm512_mask_scalef_round_pd", id! "_mm512_mask_scalef_round_pd"),
  /- 35004 -/ (id! "mm512_mask_getexp_round_pd", id! "_mm512_mask_getexp_round_pd"),
  /- 34589 -/ (id! "mm512_maskz_broadcastsd_pd", id! "_mm512_maskz_broadcastsd_pd"),
  /- 34814 -/ (id! "mm512_mask_permutex2var_pd", id! "_mm512_mask_permutex2var_pd"),
  /- 34841 -/ (id! "mm512_maskz_permutexvar_pd", id! "_mm512_maskz_permutexvar_pd"),
  /- 34971 -/ (id! "mm512_maskz_cvt_roundps_pd", id! "_mm512_maskz_cvt_roundps_pd"),
  /- 35149 -/ (id! "mm512_maskz_expandloadu_pd", id! "_mm512_maskz_expandloadu_pd"),
  /- 34859 -/ (id! "mm_maskz_fixupimm_round_sd", id! "_mm_maskz_fixupimm_round_sd"),
  /- 34979 -/ (id! "mm512_maskz_cvt_roundps_ph", id! "_mm512_maskz_cvt_roundps_ph"),
  /- 34910 -/ (id! "mm512_mask_test_epi32_mask", id! "_mm512_mask_test_epi32_mask"),
  /- 34912 -/ (id! "mm512_mask_test_epi64_mask", id! "_mm512_mask_test_epi64_mask"),
  /- 34751 -/ (id! "mm512_mask_extractf32x4_ps", id! "_mm512_mask_extractf32x4_ps"),
  /- 34544 -/ (id! "mm512_mask3_fmsub_round_ps", id! "_mm512_mask3_fmsub_round_ps"),
  /- 34545 -/ (id! "mm512_maskz_fmsub_round_ps", id! "_mm512_maskz_fmsub_round_ps"),
  /- 34575 -/ (id! "mm512_mask_fnmsub_round_ps", id! "_mm512_mask_fnmsub_round_ps"),
  /- 34536 -/ (id! "mm512_mask3_fmadd_round_ps", id! "_mm512_mask3_fmadd_round_ps"),
  /- 34537 -/ (id! "mm512_maskz_fmadd_round_ps", id! "_mm512_maskz_fmadd_round_ps"),
  /- 34567 -/ (id! "mm512_mask_fnmadd_round_ps", id! "_mm512_mask_fnmadd_round_ps"),
  /- 34522 -/ (id! "mm512_mask_scalef_round_ps", id! "_mm512_mask_scalef_round_ps"),
  /- 35001 -/ (id! "mm512_mask_getexp_round_ps", id! "_mm512_mask_getexp_round_ps"),
  /- 34983 -/ (id! "mm512_maskz_cvt_roundpd_ps", id! "_mm512_maskz_cvt_roundpd_ps"),
  /- 34974 -/ (id! "mm512_maskz_cvt_roundph_ps", id! "_mm512_maskz_cvt_roundph_ps"),
  /- 34818 -/ (id! "mm512_mask_permutex2var_ps", id! "_mm512_mask_permutex2var_ps"),
  /- 34844 -/ (id! "mm512_maskz_permutexvar_ps", id! "_mm512_maskz_permutexvar_ps"),
  /- 34586 -/ (id! "mm512_maskz_broadcastss_ps", id! "_mm512_maskz_broadcastss_ps"),
  /- 35153 -/ (id! "mm512_maskz_expandloadu_ps", id! "_mm512_maskz_expandloadu_ps"),
  /- 34862 -/ (id! "mm_maskz_fixupimm_round_ss", id! "_mm_maskz_fixupimm_round_ss"),
  /- 34706 -/ (id! "mm512_maskz_cvtsepi64_epi32", id! "_mm512_maskz_cvtsepi64_epi32"),
  /- 34709 -/ (id! "mm512_mask_cvtusepi64_epi32", id! "_mm512_mask_cvtusepi64_epi32"),
  /- 35595 -/ (id! "mm512_mask_reduce_add_epi32", id! "_mm512_mask_reduce_add_epi32"),
  /- 35597 -/ (id! "mm512_mask_reduce_and_epi32", id! "_mm512_mask_reduce_and_epi32"),
  /- 34591 -/ (id! "mm512_mask_broadcastd_epi32", id! "_mm512_mask_broadcastd_epi32"),
  /- 35596 -/ (id! "mm512_mask_reduce_mul_epi32", id! "_mm512_mask_reduce_mul_epi32"),
  /- 35603 -/ (id! "mm512_mask_reduce_min_epi32", id! "_mm512_mask_reduce_min_epi32"),
  /- 35127 -/ (id! "mm512_mask_i32scatter_epi32", id! "_mm512_mask_i32scatter_epi32"),
  /- 35131 -/ (id! "mm512_mask_i64scatter_epi32", id! "_mm512_mask_i64scatter_epi32"),
  /- 35604 -/ (id! "mm512_mask_reduce_max_epi32", id! "_mm512_mask_reduce_max_epi32"),
  /- 35605 -/ (id! "mm512_mask_reduce_min_epu32", id! "_mm512_mask_reduce_min_epu32"),
  /- 35606 -/ (id! "mm512_mask_reduce_max_epu32", id! "_mm512_mask_reduce_max_epu32"),
  /- 35619 -/ (id! "mm512_mask_reduce_add_epi64", id! "_mm512_mask_reduce_add_epi64"),
  /- 35621 -/ (id! "mm512_mask_reduce_and_epi64", id! "_mm512_mask_reduce_and_epi64"),
  /- 35620 -/ (id! "mm512_mask_reduce_mul_epi64", id! "_mm512_mask_reduce_mul_epi64"),
  /- 35625 -/ (id! "mm512_mask_reduce_min_epi64", id! "_mm512_mask_reduce_min_epi64"),
  /- 34597 -/ (id! "mm512_mask_broadcastq_epi64", id! "_mm512_mask_broadcastq_epi64"),
  /- 35129 -/ (id! "mm512_mask_i32scatter_epi64", id! "_mm512_mask_i32scatter_epi64"),
  /- 35133 -/ (id! "mm512_mask_i64scatter_epi64", id! "_mm512_mask_i64scatter_epi64"),
  /- 35626 -/ (id! "mm512_mask_reduce_max_epi64", id! "_mm512_mask_reduce_max_epi64"),
  /- 35629 -/ (id! "mm512_mask_reduce_min_epu64", id! "_mm512_mask_reduce_min_epu64"),
  /- 35630 -/ (id! "mm512_mask_reduce_max_epu64", id! "_mm512_mask_reduce_max_epu64"),
  /- 34604 -/ (id! "mm512_maskz_broadcast_f32x4", id! "_mm512_maskz_broadcast_f32x4"),
  /- 34607 -/ (id! "mm512_maskz_broadcast_i32x4", id! "_mm512_maskz_broadcast_i32x4"),
  /- 34610 -/ (id! "mm512_maskz_broadcast_f64x4", id! "_mm512_maskz_broadcast_f64x4"),
  /- 34613 -/ (id! "mm512_maskz_broadcast_i64x4", id! "_mm512_maskz_broadcast_i64x4"),
  /- 34694 -/ (id! "mm512_maskz_cvtsepi32_epi16", id! "_mm512_maskz_cvtsepi32_epi16"),
  /- 34697 -/ (id! "mm512_mask_cvtusepi32_epi16", id! "_mm512_mask_cvtusepi32_epi16"),
  /- 34718 -/ (id! "mm512_maskz_cvtsepi64_epi16", id! "_mm512_maskz_cvtsepi64_epi16"),
  /- 34721 -/ (id! "mm512_mask_cvtusepi64_epi16", id! "_mm512_mask_cvtusepi64_epi16"),
  /- 34686 -/ (id! "mm512_maskz_cvtusepi32_epi8", id! "_mm512_maskz_cvtusepi32_epi8"),
  /- 34734 -/ (id! "mm512_maskz_cvtusepi64_epi8", id! "_mm512_maskz_cvtusepi64_epi8"),
  /- 34749 -/ (id! "mm512_maskz_extractf64x4_pd", id! "_mm512_maskz_extractf64x4_pd"),
  /- 34572 -/ (id! "mm512_mask3_fnmsub_round_pd", id! "_mm512_mask3_fnmsub_round_pd"),
  /- 34573 -/ (id! "mm512_maskz_fnmsub_round_pd", id! "_mm512_maskz_fnmsub_round_pd"),
  /- 34564 -/ (id! "mm512_mask3_fnmadd_round_pd", id! "_mm512_mask3_fnmadd_round_pd"),
  /- 34565 -/ (id! "mm512_maskz_fnmadd_round_pd", id! "_mm512_maskz_fnmadd_round_pd"),
  /- 34520 -/ (id! "mm512_maskz_scalef_round_pd", id! "_mm512_maskz_scalef_round_pd"),
  /- 35005 -/ (id! "mm512_maskz_getexp_round_pd", id! "_mm512_maskz_getexp_round_pd"),
  /- 35007 -/ (id! "mm512_mask_getmant_round_pd", id! "_mm512_mask_getmant_round_pd"),
  /- 34815 -/ (id! "mm512_mask2_permutex2var_pd", id! "_mm512_mask2_permutex2var_pd"),
  /- 34816 -/ (id! "mm512_maskz_permutex2var_pd", id! "_mm512_maskz_permutex2var_pd"),
  /- 35028 -/ (id! "mm_mask_roundscale_round_sd", id! "_mm_mask_roundscale_round_sd"),
  /- 35053 -/ (id! "mm512_mask_cmpge_epi32_mask", id! "_mm512_mask_cmpge_epi32_mask"),
  /- 35060 -/ (id! "mm512_mask_cmple_epi32_mask", id! "_mm512_mask_cmple_epi32_mask"),
  /- 34914 -/ (id! "mm512_mask_testn_epi32_mask", id! "_mm512_mask_testn_epi32_mask"),
  /- 35045 -/ (id! "mm512_mask_cmpeq_epi32_mask", id! "_mm512_mask_cmpeq_epi32_mask"),
  /- 35049 -/ (id! "mm512_mask_cmpgt_epi32_mask", id! "_mm512_mask_cmpgt_epi32_mask"),
  /- 35068 -/ (id! "mm512_mask_cmplt_epi32_mask", id! "_mm512_mask_cmplt_epi32_mask"),
  /- 35054 -/ (id! "mm512_mask_cmpge_epu32_mask", id! "_mm512_mask_cmpge_epu32_mask"),
  /- 35062 -/ (id! "mm512_mask_cmple_epu32_mask", id! "_mm512_mask_cmple_epu32_mask"),
  /- 35584 -/ (id! "mm512_mask_cmpeq_epu32_mask", id! "_mm512_mask_cmpeq_epu32_mask"),
  /- 35588 -/ (id! "mm512_mask_cmpgt_epu32_mask", id! "_mm512_mask_cmpgt_epu32_mask"),
  /- 35070 -/ (id! "mm512_mask_cmplt_epu32_mask", id! "_mm512_mask_cmplt_epu32_mask"),
  /- 35056 -/ (id! "mm512_mask_cmpge_epi64_mask", id! "_mm512_mask_cmpge_epi64_mask"),
  /- 35064 -/ (id! "mm512_mask_cmple_epi64_mask", id! "_mm512_mask_cmple_epi64_mask"),
  /- 34916 -/ (id! "mm512_mask_testn_epi64_mask", id! "_mm512_mask_testn_epi64_mask"),
  /- 35046 -/ (id! "mm512_mask_cmpeq_epi64_mask", id! "_mm512_mask_cmpeq_epi64_mask"),
  /- 35050 -/ (id! "mm512_mask_cmpgt_epi64_mask", id! "_mm512_mask_cmpgt_epi64_mask"),
  /- 35072 -/ (id! "mm512_mask_cmplt_epi64_mask", id! "_mm512_mask_cmplt_epi64_mask"),
  /- 35058 -/ (id! "mm512_mask_cmpge_epu64_mask", id! "_mm512_mask_cmpge_epu64_mask"),
  /- 35066 -/ (id! "mm512_mask_cmple_epu64_mask", id! "_mm512_mask_cmple_epu64_mask"),
  /- 35585 -/ (id! "mm512_mask_cmpeq_epu64_mask", id! "_mm512_mask_cmpeq_epu64_mask"),
  /- 35589 -/ (id! "mm512_mask_cmpgt_epu64_mask", id! "_mm512_mask_cmpgt_epu64_mask"),
  /- 35074 -/ (id! "mm512_mask_cmplt_epu64_mask", id! "_mm512_mask_cmplt_epu64_mask"),
  /- 35533 -/ (id! "mm512_mask_cmpunord_pd_mask", id! "_mm512_mask_cmpunord_pd_mask"),
  /- 35549 -/ (id! "mm512_mask_cmpunord_ps_mask", id! "_mm512_mask_cmpunord_ps_mask"),
  /- 34752 -/ (id! "mm512_maskz_extractf32x4_ps", id! "_mm512_maskz_extractf32x4_ps"),
  /- 34576 -/ (id! "mm512_mask3_fnmsub_round_ps", id! "_mm512_mask3_fnmsub_round_ps"),
  /- 34577 -/ (id! "mm512_maskz_fnmsub_round_ps", id! "_mm512_maskz_fnmsub_round_ps"),
  /- 34568 -/ (id! "mm512_mask3_fnmadd_round_ps", id! "_mm512_mask3_fnmadd_round_ps"),
  /- 34569 -/ (id! "mm512_maskz_fnmadd_round_ps", id! "_mm512_maskz_fnmadd_round_ps"),
  /- 34523 -/ (id! "mm512_maskz_scalef_round_ps", id! "_mm512_maskz_scalef_round_ps"),
  /- 35002 -/ (id! "mm512_maskz_getexp_round_ps", id! "_mm512_maskz_getexp_round_ps"),
  /- 35010 -/ (id! "mm512_mask_getmant_round_ps", id! "_mm512_mask_getmant_round_ps"),
  /- 34819 -/ (id! "mm512_mask2_permutex2var_ps", id! "_mm512_mask2_permutex2var_ps"),
  /- 34820 -/ (id! "mm512_maskz_permutex2var_ps", id! "_mm512_maskz_permutex2var_ps"),
  /- 35025 -/ (id! "mm_mask_roundscale_round_ss", id! "_mm_mask_roundscale_round_ss"),
  /- 34710 -/ (id! "mm512_maskz_cvtusepi64_epi32", id! "_mm512_maskz_cvtusepi64_epi32"),
  /- 34648 -/ (id! "mm512_mask_cvt_roundpd_epi32", id! "_mm512_mask_cvt_roundpd_epi32"),
  /- 34592 -/ (id! "mm512_maskz_broadcastd_epi32", id! "_mm512_maskz_broadcastd_epi32"),
  /- 34838 -/ (id! "mm512_mask_permutexvar_epi32", id! "_mm512_mask_permutexvar_epi32"),
  /- 34660 -/ (id! "mm512_mask_cvt_roundps_epi32", id! "_mm512_mask_cvt_roundps_epi32"),
  /- 35160 -/ (id! "mm512_mask_expandloadu_epi32", id! "_mm512_mask_expandloadu_epi32"),
  /- 34651 -/ (id! "mm512_mask_cvt_roundpd_epu32", id! "_mm512_mask_cvt_roundpd_epu32"),
  /- 34663 -/ (id! "mm512_mask_cvt_roundps_epu32", id! "_mm512_mask_cvt_roundps_epu32"),
  /- 34598 -/ (id! "mm512_maskz_broadcastq_epi64", id! "_mm512_maskz_broadcastq_epi64"),
  /- 34835 -/ (id! "mm512_mask_permutexvar_epi64", id! "_mm512_mask_permutexvar_epi64"),
  /- 35156 -/ (id! "mm512_mask_expandloadu_epi64", id! "_mm512_mask_expandloadu_epi64"),
  /- 34698 -/ (id! "mm512_maskz_cvtusepi32_epi16", id! "_mm512_maskz_cvtusepi32_epi16"),
  /- 34722 -/ (id! "mm512_maskz_cvtusepi64_epi16", id! "_mm512_maskz_cvtusepi64_epi16"),
  /- 34547 -/ (id! "mm512_mask_fmaddsub_round_pd", id! "_mm512_mask_fmaddsub_round_pd"),
  /- 34555 -/ (id! "mm512_mask_fmsubadd_round_pd", id! "_mm512_mask_fmsubadd_round_pd"),
  /- 34852 -/ (id! "mm512_mask_fixupimm_round_pd", id! "_mm512_mask_fixupimm_round_pd"),
  /- 35008 -/ (id! "mm512_maskz_getmant_round_pd", id! "_mm512_maskz_getmant_round_pd"),
  /- 35136 -/ (id! "mm512_mask_compressstoreu_pd", id! "_mm512_mask_compressstoreu_pd"),
  /- 35029 -/ (id! "mm_maskz_roundscale_round_sd", id! "_mm_maskz_roundscale_round_sd"),
  /- 35077 -/ (id! "mm512_mask_cmpneq_epi32_mask", id! "_mm512_mask_cmpneq_epi32_mask"),
  /- 35078 -/ (id! "mm512_mask_cmpneq_epu32_mask", id! "_mm512_mask_cmpneq_epu32_mask"),
  /- 35080 -/ (id! "mm512_mask_cmpneq_epi64_mask", id! "_mm512_mask_cmpneq_epi64_mask"),
  /- 35082 -/ (id! "mm512_mask_cmpneq_epu64_mask", id! "_mm512_mask_cmpneq_epu64_mask"),
  /- 35096 -/ (id! "mm512_mask_cmp_round_pd_mask", id! "_mm512_mask_cmp_round_pd_mask"),
  /- 35097 -/ (id! "mm512_mask_cmp_round_ps_mask", id! "_mm512_mask_cmp_round_ps_mask"),
  /- 34742 -/ (id! "mm512_mask_cvt_roundepi32_ps", id! "_mm512_mask_cvt_roundepi32_ps"),
  /- 34745 -/ (id! "mm512_mask_cvt_roundepu32_ps", id! "_mm512_mask_cvt_roundepu32_ps"),
  /- 34551 -/ (id! "mm512_mask_fmaddsub_round_ps", id! "_mm512_mask_fmaddsub_round_ps"),
  /- 34559 -/ (id! "mm512_mask_fmsubadd_round_ps", id! "_mm512_mask_fmsubadd_round_ps"),
  /- 34855 -/ (id! "mm512_mask_fixupimm_round_ps", id! "_mm512_mask_fixupimm_round_ps"),
  /- 35011 -/ (id! "mm512_maskz_getmant_round_ps", id! "_mm512_maskz_getmant_round_ps"),
  /- 35139 -/ (id! "mm512_mask_compressstoreu_ps", id! "_mm512_mask_compressstoreu_ps"),
  /- 35026 -/ (id! "mm_maskz_roundscale_round_ss", id! "_mm_maskz_roundscale_round_ss"),
  /- 34757 -/ (id! "mm512_mask_extracti32x4_epi32", id! "_mm512_mask_extracti32x4_epi32"),
  /- 34402 -/ (id! "mm512_mask_ternarylogic_epi32", id! "_mm512_mask_ternarylogic_epi32"),
  /- 34642 -/ (id! "mm512_mask_cvtt_roundpd_epi32", id! "_mm512_mask_cvtt_roundpd_epi32"),
  /- 34649 -/ (id! "mm512_maskz_cvt_roundpd_epi32", id! "_mm512_maskz_cvt_roundpd_epi32"),
  /- 34810 -/ (id! "mm512_mask_permutex2var_epi32", id! "_mm512_mask_permutex2var_epi32"),
  /- 34836 -/ (id! "mm512_maskz_permutexvar_epi32", id! "_mm512_maskz_permutexvar_epi32"),
  /- 34654 -/ (id! "mm512_mask_cvtt_roundps_epi32", id! "_mm512_mask_cvtt_roundps_epi32"),
  /- 34661 -/ (id! "mm512_maskz_cvt_roundps_epi32", id! "_mm512_maskz_cvt_roundps_epi32"),
  /- 35161 -/ (id! "mm512_maskz_expandloadu_epi32", id! "_mm512_maskz_expandloadu_epi32"),
  /- 34645 -/ (id! "mm512_mask_cvtt_roundpd_epu32", id! "_mm512_mask_cvtt_roundpd_epu32"),
  /- 34652 -/ (id! "mm512_maskz_cvt_roundpd_epu32", id! "_mm512_maskz_cvt_roundpd_epu32"),
  /- 34657 -/ (id! "mm512_mask_cvtt_roundps_epu32", id! "_mm512_mask_cvtt_roundps_epu32"),
  /- 34664 -/ (id! "mm512_maskz_cvt_roundps_epu32", id! "_mm512_maskz_cvt_roundps_epu32"),
  /- 34754 -/ (id! "mm512_mask_extracti64x4_epi64", id! "_mm512_mask_extracti64x4_epi64"),
  /- 34399 -/ (id! "mm512_mask_ternarylogic_epi64", id! "_mm512_mask_ternarylogic_epi64"),
  /- 34806 -/ (id! "mm512_mask_permutex2var_epi64", id! "_mm512_mask_permutex2var_epi64"),
  /- 34833 -/ (id! "mm512_maskz_permutexvar_epi64", id! "_mm512_maskz_permutexvar_epi64"),
  /- 35157 -/ (id! "mm512_maskz_expandloadu_epi64", id! "_mm512_maskz_expandloadu_epi64"),
  /- 34548 -/ (id! "mm512_mask3_fmaddsub_round_pd", id! "_mm512_mask3_fmaddsub_round_pd"),
  /- 34549 -/ (id! "mm512_maskz_fmaddsub_round_pd", id! "_mm512_maskz_fmaddsub_round_pd"),
  /- 34556 -/ (id! "mm512_mask3_fmsubadd_round_pd", id! "_mm512_mask3_fmsubadd_round_pd"),
  /- 34557 -/ (id! "mm512_maskz_fmsubadd_round_pd", id! "_mm512_maskz_fmsubadd_round_pd"),
  /- 34853 -/ (id! "mm512_maskz_fixupimm_round_pd", id! "_mm512_maskz_fixupimm_round_pd"),
  /- 34743 -/ (id! "mm512_maskz_cvt_roundepi32_ps", id! "_mm512_maskz_cvt_roundepi32_ps"),
  /- 34746 -/ (id! "mm512_maskz_cvt_roundepu32_ps", id! "_mm512_maskz_cvt_roundepu32_ps"),
  /- 34552 -/ (id! "mm512_mask3_fmaddsub_round_ps", id! "_mm512_mask3_fmaddsub_round_ps"),
  /- 34553 -/ (id! "mm512_maskz_fmaddsub_round_ps", id! "_mm512_maskz_fmaddsub_round_ps"),
  /- 34560 -/ (id! "mm512_mask3_fmsubadd_round_ps", id! "_mm512_mask3_fmsubadd_round_ps"),
  /- 34561 -/ (id! "mm512_maskz_fmsubadd_round_ps", id! "_mm512_maskz_fmsubadd_round_ps"),
  /- 34856 -/ (id! "mm512_maskz_fixupimm_round_ps", id! "_mm512_maskz_fixupimm_round_ps"),
  /- 34758 -/ (id! "mm512_maskz_extracti32x4_epi32", id! "_mm512_maskz_extracti32x4_epi32"),
  /- 34403 -/ (id! "mm512_maskz_ternarylogic_epi32", id! "_mm512_maskz_ternarylogic_epi32"),
  /- 34643 -/ (id! "mm512_maskz_cvtt_roundpd_epi32", id! "_mm512_maskz_cvtt_roundpd_epi32"),
  /- 34811 -/ (id! "mm512_mask2_permutex2var_epi32", id! "_mm512_mask2_permutex2var_epi32"),
  /- 34812 -/ (id! "mm512_maskz_permutex2var_epi32", id! "_mm512_maskz_permutex2var_epi32"),
  /- 34655 -/ (id! "mm512_maskz_cvtt_roundps_epi32", id! "_mm512_maskz_cvtt_roundps_epi32"),
  /- 34646 -/ (id! "mm512_maskz_cvtt_roundpd_epu32", id! "_mm512_maskz_cvtt_roundpd_epu32"),
  /- 34658 -/ (id! "mm512_maskz_cvtt_roundps_epu32", id! "_mm512_maskz_cvtt_roundps_epu32"),
  /- 34755 -/ (id! "mm512_maskz_extracti64x4_epi64", id! "_mm512_maskz_extracti64x4_epi64"),
  /- 34400 -/ (id! "mm512_maskz_ternarylogic_epi64", id! "_mm512_maskz_ternarylogic_epi64"),
  /- 34807 -/ (id! "mm512_mask2_permutex2var_epi64", id! "_mm512_mask2_permutex2var_epi64"),
  /- 34808 -/ (id! "mm512_maskz_permutex2var_epi64", id! "_mm512_maskz_permutex2var_epi64"),
  /- 35022 -/ (id! "mm512_mask_roundscale_round_pd", id! "_mm512_mask_roundscale_round_pd"),
  /- 35019 -/ (id! "mm512_mask_roundscale_round_ps", id! "_mm512_mask_roundscale_round_ps"),
  /- 35145 -/ (id! "mm512_mask_compressstoreu_epi32", id! "_mm512_mask_compressstoreu_epi32"),
  /- 35142 -/ (id! "mm512_mask_compressstoreu_epi64", id! "_mm512_mask_compressstoreu_epi64"),
  /- 34676 -/ (id! "mm512_mask_cvtepi32_storeu_epi8", id! "_mm512_mask_cvtepi32_storeu_epi8"),
  /- 34724 -/ (id! "mm512_mask_cvtepi64_storeu_epi8", id! "_mm512_mask_cvtepi64_storeu_epi8"),
  /- 35023 -/ (id! "mm512_maskz_roundscale_round_pd", id! "_mm512_maskz_roundscale_round_pd"),
  /- 35020 -/ (id! "mm512_maskz_roundscale_round_ps", id! "_mm512_maskz_roundscale_round_ps"),
  /- 34700 -/ (id! "mm512_mask_cvtepi64_storeu_epi32", id! "_mm512_mask_cvtepi64_storeu_epi32"),
  /- 34688 -/ (id! "mm512_mask_cvtepi32_storeu_epi16", id! "_mm512_mask_cvtepi32_storeu_epi16"),
  /- 34712 -/ (id! "mm512_mask_cvtepi64_storeu_epi16", id! "_mm512_mask_cvtepi64_storeu_epi16"),
  /- 34680 -/ (id! "mm512_mask_cvtsepi32_storeu_epi8", id! "_mm512_mask_cvtsepi32_storeu_epi8"),
  /- 34728 -/ (id! "mm512_mask_cvtsepi64_storeu_epi8", id! "_mm512_mask_cvtsepi64_storeu_epi8"),
  /- 34704 -/ (id! "mm512_mask_cvtsepi64_storeu_epi32", id! "_mm512_mask_cvtsepi64_storeu_epi32"),
  /- 34692 -/ (id! "mm512_mask_cvtsepi32_storeu_epi16", id! "_mm512_mask_cvtsepi32_storeu_epi16"),
  /- 34716 -/ (id! "mm512_mask_cvtsepi64_storeu_epi16", id! "_mm512_mask_cvtsepi64_storeu_epi16"),
  /- 34684 -/ (id! "mm512_mask_cvtusepi32_storeu_epi8", id! "_mm512_mask_cvtusepi32_storeu_epi8"),
  /- 34732 -/ (id! "mm512_mask_cvtusepi64_storeu_epi8", id! "_mm512_mask_cvtusepi64_storeu_epi8"),
  /- 34708 -/ (id! "mm512_mask_cvtusepi64_storeu_epi32", id! "_mm512_mask_cvtusepi64_storeu_epi32"),
  /- 34696 -/ (id! "mm512_mask_cvtusepi32_storeu_epi16", id! "_mm512_mask_cvtusepi32_storeu_epi16"),
  /- 34720 -/ (id! "mm512_mask_cvtusepi64_storeu_epi16", id! "_mm512_mask_cvtusepi64_storeu_epi16")]

/-- The wrapper functions, lines 28719-34249: each calls an implementation with its own arguments. -/
def wrappers : List (Ident × Ident) := [
  /- 32383 -/ (id! "_mm512_kor", id! "_mm512_kor"),
  /- 32375 -/ (id! "_mm512_kand", id! "_mm512_kand"),
  /- 32399 -/ (id! "_mm512_kxor", id! "_mm512_kxor"),
  /- 32403 -/ (id! "_mm512_knot", id! "_mm512_knot"),
  /- 33931 -/ (id! "_mm512_kmov", id! "_mm512_kmov"),
  /- 32367 -/ (id! "_load_mask16", id! "_load_mask16"),
  /- 29339 -/ (id! "_mm_rcp14_sd", id! "_mm_rcp14_sd"),
  /- 32379 -/ (id! "_mm512_kandn", id! "_mm512_kandn"),
  /- 32395 -/ (id! "_mm512_kxnor", id! "_mm512_kxnor"),
  /- 29351 -/ (id! "_mm_rcp14_ss", id! "_mm_rcp14_ss"),
  /- 33535 -/ (id! "_mm_cvtsd_i32", id! "_mm_cvtsd_i32"),
  /- 33539 -/ (id! "_mm_cvtss_i32", id! "_mm_cvtss_i32"),
  /- 33579 -/ (id! "_mm_cvtsd_u32", id! "_mm_cvtsd_u32"),
  /- 33523 -/ (id! "_mm_cvtss_u32", id! "_mm_cvtss_u32"),
  /- 33563 -/ (id! "_mm_cvtsd_i64", id! "_mm_cvtsd_i64"),
  /- 33567 -/ (id! "_mm_cvtss_i64", id! "_mm_cvtss_i64"),
  /- 33551 -/ (id! "_mm_cvtsd_u64", id! "_mm_cvtsd_u64"),
  /- 33507 -/ (id! "_mm_cvtss_u64", id! "_mm_cvtss_u64"),
  /- 32371 -/ (id! "_store_mask16", id! "_store_mask16"),
  /- 32895 -/ (id! "_mm512_sub_pd", id! "_mm512_sub_pd"),
  /- 32855 -/ (id! "_mm512_add_pd", id! "_mm512_add_pd"),
  /- 32935 -/ (id! "_mm512_mul_pd", id! "_mm512_mul_pd"),
  /- 33055 -/ (id! "_mm512_min_pd", id! "_mm512_min_pd"),
  /- 31375 -/ (id! "_mm512_abs_pd", id! "_mm512_abs_pd"),
  /- 28743 -/ (id! "_mm512_set_pd", id! "_mm512_set_pd"),
  /- 32975 -/ (id! "_mm512_div_pd", id! "_mm512_div_pd"),
  /- 33015 -/ (id! "_mm512_max_pd", id! "_mm512_max_pd"),
  /- 33543 -/ (id! "_mm_cvti32_sd", id! "_mm_cvti32_sd"),
  /- 30359 -/ (id! "_mm_cvtu32_sd", id! "_mm_cvtu32_sd"),
  /- 33571 -/ (id! "_mm_cvti64_sd", id! "_mm_cvti64_sd"),
  /- 33427 -/ (id! "_mm_cvtu64_sd", id! "_mm_cvtu64_sd"),
  /- 33119 -/ (id! "_mm_scalef_sd", id! "_mm_scalef_sd"),
  /- 33663 -/ (id! "_mm_getexp_sd", id! "_mm_getexp_sd"),
  /- 32907 -/ (id! "_mm512_sub_ps", id! "_mm512_sub_ps"),
  /- 32867 -/ (id! "_mm512_add_ps", id! "_mm512_add_ps"),
  /- 32947 -/ (id! "_mm512_mul_ps", id! "_mm512_mul_ps"),
  /- 33067 -/ (id! "_mm512_min_ps", id! "_mm512_min_ps"),
  /- 31367 -/ (id! "_mm512_abs_ps", id! "_mm512_abs_ps"),
  /- 28747 -/ (id! "_mm512_set_ps", id! "_mm512_set_ps"),
  /- 32987 -/ (id! "_mm512_div_ps", id! "_mm512_div_ps"),
  /- 33027 -/ (id! "_mm512_max_ps", id! "_mm512_max_ps"),
  /- 33547 -/ (id! "_mm_cvti32_ss", id! "_mm_cvti32_ss"),
  /- 33431 -/ (id! "_mm_cvtu32_ss", id! "_mm_cvtu32_ss"),
  /- 33575 -/ (id! "_mm_cvti64_ss", id! "_mm_cvti64_ss"),
  /- 33423 -/ (id! "_mm_cvtu64_ss", id! "_mm_cvtu64_ss"),
  /- 33123 -/ (id! "_mm_scalef_ss", id! "_mm_scalef_ss"),
  /- 33651 -/ (id! "_mm_getexp_ss", id! "_mm_getexp_ss"),
  /- 33587 -/ (id! "_mm_cvttsd_i32", id! "_mm_cvttsd_i32"),
  /- 33531 -/ (id! "_mm_cvttss_i32", id! "_mm_cvttss_i32"),
  /- 32359 -/ (id! "_cvtmask16_u32", id! "_cvtmask16_u32"),
  /- 33583 -/ (id! "_mm_cvttsd_u32", id! "_mm_cvttsd_u32"),
  /- 33527 -/ (id! "_mm_cvttss_u32", id! "_mm_cvttss_u32"),
  /- 33559 -/ (id! "_mm_cvttsd_i64", id! "_mm_cvttsd_i64"),
  /- 33515 -/ (id! "_mm_cvttss_i64", id! "_mm_cvttss_i64"),
  /- 33555 -/ (id! "_mm_cvttsd_u64", id! "_mm_cvttsd_u64"),
  /- 33511 -/ (id! "_mm_cvttss_u64", id! "_mm_cvttss_u64"),
  /- 32363 -/ (id! "_cvtu32_mask16", id! "_cvtu32_mask16"),
  /- 28771 -/ (id! "_mm512_set1_pd", id! "_mm512_set1_pd"),
  /- 28787 -/ (id! "_mm512_set4_pd", id! "_mm512_set4_pd"),
  /- 28831 -/ (id! "_mm512_load_pd", id! "_mm512_load_pd"),
  /- 31831 -/ (id! "_mm512_ceil_pd", id! "_mm512_ceil_pd"),
  /- 32831 -/ (id! "_mm512_sqrt_pd", id! "_mm512_sqrt_pd"),
  /- 29387 -/ (id! "_mm_rsqrt14_sd", id! "_mm_rsqrt14_sd"),
  /- 33699 -/ (id! "_mm_getmant_sd", id! "_mm_getmant_sd"),
  /- 28799 -/ (id! "_mm512_setzero", id! "_mm512_setzero"),
  /- 28775 -/ (id! "_mm512_set1_ps", id! "_mm512_set1_ps"),
  /- 28791 -/ (id! "_mm512_set4_ps", id! "_mm512_set4_ps"),
  /- 28851 -/ (id! "_mm512_load_ps", id! "_mm512_load_ps"),
  /- 31827 -/ (id! "_mm512_ceil_ps", id! "_mm512_ceil_ps"),
  /- 32843 -/ (id! "_mm512_sqrt_ps", id! "_mm512_sqrt_ps"),
  /- 29399 -/ (id! "_mm_rsqrt14_ss", id! "_mm_rsqrt14_ss"),
  /- 33711 -/ (id! "_mm_getmant_ss", id! "_mm_getmant_ss"),
  /- 31175 -/ (id! "_mm512_or_si512", id! "_mm512_or_si512"),
  /- 31179 -/ (id! "_mm512_or_epi32", id! "_mm512_or_epi32"),
  /- 31191 -/ (id! "_mm512_or_epi64", id! "_mm512_or_epi64"),
  /- 28739 -/ (id! "_mm512_set_epi8", id! "_mm512_set_epi8"),
  /- 32407 -/ (id! "_mm512_kunpackb", id! "_mm512_kunpackb"),
  /- 32391 -/ (id! "_mm512_kortestc", id! "_mm512_kortestc"),
  /- 29315 -/ (id! "_mm512_rcp14_pd", id! "_mm512_rcp14_pd"),
  /- 33159 -/ (id! "_mm512_fmsub_pd", id! "_mm512_fmsub_pd"),
  /- 33127 -/ (id! "_mm512_fmadd_pd", id! "_mm512_fmadd_pd"),
  /- 28843 -/ (id! "_mm512_store_pd", id! "_mm512_store_pd"),
  /- 31823 -/ (id! "_mm512_floor_pd", id! "_mm512_floor_pd"),
  /- 33591 -/ (id! "_mm512_cvtps_pd", id! "_mm512_cvtps_pd"),
  /- 30767 -/ (id! "_mm512_loadu_pd", id! "_mm512_loadu_pd"),
  /- 32919 -/ (id! "_mm_mask_sub_sd", id! "_mm_mask_sub_sd"),
  /- 32879 -/ (id! "_mm_mask_add_sd", id! "_mm_mask_add_sd"),
  /- 32959 -/ (id! "_mm_mask_mul_sd", id! "_mm_mask_mul_sd"),
  /- 33483 -/ (id! "_mm_fixupimm_sd", id! "_mm_fixupimm_sd"),
  /- 33079 -/ (id! "_mm_mask_min_sd", id! "_mm_mask_min_sd"),
  /- 32999 -/ (id! "_mm_mask_div_sd", id! "_mm_mask_div_sd"),
  /- 33039 -/ (id! "_mm_mask_max_sd", id! "_mm_mask_max_sd"),
  /- 31603 -/ (id! "_mm512_cvtps_ph", id! "_mm512_cvtps_ph"),
  /- 28719 -/ (id! "_mm512_int2mask", id! "_mm512_int2mask"),
  /- 33787 -/ (id! "_mm_cmp_sd_mask", id! "_mm_cmp_sd_mask"),
  /- 33795 -/ (id! "_mm_cmp_ss_mask", id! "_mm_cmp_ss_mask"),
  /- 29327 -/ (id! "_mm512_rcp14_ps", id! "_mm512_rcp14_ps"),
  /- 33175 -/ (id! "_mm512_fmsub_ps", id! "_mm512_fmsub_ps"),
  /- 33143 -/ (id! "_mm512_fmadd_ps", id! "_mm512_fmadd_ps"),
  /- 33615 -/ (id! "_mm512_cvtpd_ps", id! "_mm512_cvtpd_ps"),
  /- 28863 -/ (id! "_mm512_store_ps", id! "_mm512_store_ps"),
  /- 33603 -/ (id! "_mm512_cvtph_ps", id! "_mm512_cvtph_ps"),
  /- 31819 -/ (id! "_mm512_floor_ps", id! "_mm512_floor_ps"),
  /- 30787 -/ (id! "_mm512_loadu_ps", id! "_mm512_loadu_ps"),
  /- 32927 -/ (id! "_mm_mask_sub_ss", id! "_mm_mask_sub_ss"),
  /- 32887 -/ (id! "_mm_mask_add_ss", id! "_mm_mask_add_ss"),
  /- 32967 -/ (id! "_mm_mask_mul_ss", id! "_mm_mask_mul_ss"),
  /- 33495 -/ (id! "_mm_fixupimm_ss", id! "_mm_fixupimm_ss"),
  /- 33087 -/ (id! "_mm_mask_min_ss", id! "_mm_mask_min_ss"),
  /- 33007 -/ (id! "_mm_mask_div_ss", id! "_mm_mask_div_ss"),
  /- 33047 -/ (id! "_mm_mask_max_ss", id! "_mm_mask_max_ss"),
  /- 28723 -/ (id! "_mm512_mask2int", id! "_mm512_mask2int"),
  /- 32387 -/ (id! "_mm512_kortestz", id! "_mm512_kortestz"),
  /- 31279 -/ (id! "_mm512_and_si512", id! "_mm512_and_si512"),
  /- 31203 -/ (id! "_mm512_xor_si512", id! "_mm512_xor_si512"),
  /- 33419 -/ (id! "_mm512_cvtss_f32", id! "_mm512_cvtss_f32"),
  /- 29231 -/ (id! "_mm512_sra_epi32", id! "_mm512_sra_epi32"),
  /- 29075 -/ (id! "_mm512_sub_epi32", id! "_mm512_sub_epi32"),
  /- 29051 -/ (id! "_mm512_add_epi32", id! "_mm512_add_epi32"),
  /- 31283 -/ (id! "_mm512_and_epi32", id! "_mm512_and_epi32"),
  /- 29183 -/ (id! "_mm512_sll_epi32", id! "_mm512_sll_epi32"),
  /- 31231 -/ (id! "_mm512_rol_epi32", id! "_mm512_rol_epi32"),
  /- 29207 -/ (id! "_mm512_srl_epi32", id! "_mm512_srl_epi32"),
  /- 29063 -/ (id! "_mm512_mul_epi32", id! "_mm512_mul_epi32"),
  /- 32487 -/ (id! "_mm512_min_epi32", id! "_mm512_min_epi32"),
  /- 31243 -/ (id! "_mm512_ror_epi32", id! "_mm512_ror_epi32"),
  /- 31207 -/ (id! "_mm512_xor_epi32", id! "_mm512_xor_epi32"),
  /- 30023 -/ (id! "_mm512_abs_epi32", id! "_mm512_abs_epi32"),
  /- 28731 -/ (id! "_mm512_set_epi32", id! "_mm512_set_epi32"),
  /- 32475 -/ (id! "_mm512_max_epi32", id! "_mm512_max_epi32"),
  /- 29087 -/ (id! "_mm512_mul_epu32", id! "_mm512_mul_epu32"),
  /- 32511 -/ (id! "_mm512_min_epu32", id! "_mm512_min_epu32"),
  /- 32499 -/ (id! "_mm512_max_epu32", id! "_mm512_max_epu32"),
  /- 33415 -/ (id! "_mm512_cvtsd_f64", id! "_mm512_cvtsd_f64"),
  /- 29159 -/ (id! "_mm512_sra_epi64", id! "_mm512_sra_epi64"),
  /- 29003 -/ (id! "_mm512_sub_epi64", id! "_mm512_sub_epi64"),
  /- 28991 -/ (id! "_mm512_add_epi64", id! "_mm512_add_epi64"),
  /- 31295 -/ (id! "_mm512_and_epi64", id! "_mm512_and_epi64"),
  /- 29111 -/ (id! "_mm512_sll_epi64", id! "_mm512_sll_epi64"),
  /- 31255 -/ (id! "_mm512_rol_epi64", id! "_mm512_rol_epi64"),
  /- 29135 -/ (id! "_mm512_srl_epi64", id! "_mm512_srl_epi64"),
  /- 32439 -/ (id! "_mm512_min_epi64", id! "_mm512_min_epi64"),
  /- 31267 -/ (id! "_mm512_ror_epi64", id! "_mm512_ror_epi64"),
  /- 31219 -/ (id! "_mm512_xor_epi64", id! "_mm512_xor_epi64"),
  /- 30011 -/ (id! "_mm512_abs_epi64", id! "_mm512_abs_epi64"),
  /- 28727 -/ (id! "_mm512_set_epi64", id! "_mm512_set_epi64"),
  /- 32427 -/ (id! "_mm512_max_epi64", id! "_mm512_max_epi64"),
  /- 32463 -/ (id! "_mm512_min_epu64", id! "_mm512_min_epu64"),
  /- 32451 -/ (id! "_mm512_max_epu64", id! "_mm512_max_epu64"),
  /- 28735 -/ (id! "_mm512_set_epi16", id! "_mm512_set_epi16"),
  /- 32035 -/ (id! "_kshiftli_mask16", id! "_kshiftli_mask16"),
  /- 32039 -/ (id! "_kshiftri_mask16", id! "_kshiftri_mask16"),
  /- 28763 -/ (id! "_mm512_set1_epi8", id! "_mm512_set1_epi8"),
  /- 33287 -/ (id! "_mm512_fnmsub_pd", id! "_mm512_fnmsub_pd"),
  /- 33255 -/ (id! "_mm512_fnmadd_pd", id! "_mm512_fnmadd_pd"),
  /- 33095 -/ (id! "_mm512_scalef_pd", id! "_mm512_scalef_pd"),
  /- 31667 -/ (id! "_mm512_stream_pd", id! "_mm512_stream_pd"),
  /- 33639 -/ (id! "_mm512_getexp_pd", id! "_mm512_getexp_pd"),
  /- 33943 -/ (id! "_mm512_castps_pd", id! "_mm512_castps_pd"),
  /- 30779 -/ (id! "_mm512_storeu_pd", id! "_mm512_storeu_pd"),
  /- 32923 -/ (id! "_mm_maskz_sub_sd", id! "_mm_maskz_sub_sd"),
  /- 30815 -/ (id! "_mm_mask_load_sd", id! "_mm_mask_load_sd"),
  /- 32883 -/ (id! "_mm_maskz_add_sd", id! "_mm_maskz_add_sd"),
  /- 29267 -/ (id! "_mm_sub_round_sd", id! "_mm_sub_round_sd"),
  /- 29243 -/ (id! "_mm_add_round_sd", id! "_mm_add_round_sd"),
  /- 29675 -/ (id! "_mm_mul_round_sd", id! "_mm_mul_round_sd"),
  /- 32559 -/ (id! "_mm_min_round_sd", id! "_mm_min_round_sd"),
  /- 29699 -/ (id! "_mm_div_round_sd", id! "_mm_div_round_sd"),
  /- 32535 -/ (id! "_mm_max_round_sd", id! "_mm_max_round_sd"),
  /- 30831 -/ (id! "_mm_mask_move_sd", id! "_mm_mask_move_sd"),
  /- 32963 -/ (id! "_mm_maskz_mul_sd", id! "_mm_maskz_mul_sd"),
  /- 33083 -/ (id! "_mm_maskz_min_sd", id! "_mm_maskz_min_sd"),
  /- 33003 -/ (id! "_mm_maskz_div_sd", id! "_mm_maskz_div_sd"),
  /- 33043 -/ (id! "_mm_maskz_max_sd", id! "_mm_maskz_max_sd"),
  /- 33303 -/ (id! "_mm512_fnmsub_ps", id! "_mm512_fnmsub_ps"),
  /- 33271 -/ (id! "_mm512_fnmadd_ps", id! "_mm512_fnmadd_ps"),
  /- 33935 -/ (id! "_mm512_castpd_ps", id! "_mm512_castpd_ps"),
  /- 33107 -/ (id! "_mm512_scalef_ps", id! "_mm512_scalef_ps"),
  /- 31663 -/ (id! "_mm512_stream_ps", id! "_mm512_stream_ps"),
  /- 33627 -/ (id! "_mm512_getexp_ps", id! "_mm512_getexp_ps"),
  /- 30799 -/ (id! "_mm512_storeu_ps", id! "_mm512_storeu_ps"),
  /- 32931 -/ (id! "_mm_maskz_sub_ss", id! "_mm_maskz_sub_ss"),
  /- 30807 -/ (id! "_mm_mask_load_ss", id! "_mm_mask_load_ss"),
  /- 32891 -/ (id! "_mm_maskz_add_ss", id! "_mm_maskz_add_ss"),
  /- 29279 -/ (id! "_mm_sub_round_ss", id! "_mm_sub_round_ss"),
  /- 29255 -/ (id! "_mm_add_round_ss", id! "_mm_add_round_ss"),
  /- 29687 -/ (id! "_mm_mul_round_ss", id! "_mm_mul_round_ss"),
  /- 32571 -/ (id! "_mm_min_round_ss", id! "_mm_min_round_ss"),
  /- 29711 -/ (id! "_mm_div_round_ss", id! "_mm_div_round_ss"),
  /- 32547 -/ (id! "_mm_max_round_ss", id! "_mm_max_round_ss"),
  /- 30823 -/ (id! "_mm_mask_move_ss", id! "_mm_mask_move_ss"),
  /- 32971 -/ (id! "_mm_maskz_mul_ss", id! "_mm_maskz_mul_ss"),
  /- 33091 -/ (id! "_mm_maskz_min_ss", id! "_mm_maskz_min_ss"),
  /- 33011 -/ (id! "_mm_maskz_div_ss", id! "_mm_maskz_div_ss"),
  /- 33051 -/ (id! "_mm_maskz_max_ss", id! "_mm_maskz_max_ss"),
  /- 28907 -/ (id! "_mm512_load_si512", id! "_mm512_load_si512"),
  /- 30071 -/ (id! "_mm512_set1_epi32", id! "_mm512_set1_epi32"),
  /- 28779 -/ (id! "_mm512_set4_epi32", id! "_mm512_set4_epi32"),
  /- 28911 -/ (id! "_mm512_load_epi32", id! "_mm512_load_epi32"),
  /- 29219 -/ (id! "_mm512_srai_epi32", id! "_mm512_srai_epi32"),
  /- 29171 -/ (id! "_mm512_slli_epi32", id! "_mm512_slli_epi32"),
  /- 29195 -/ (id! "_mm512_srli_epi32", id! "_mm512_srli_epi32"),
  /- 28967 -/ (id! "_mm512_srav_epi32", id! "_mm512_srav_epi32"),
  /- 28955 -/ (id! "_mm512_sllv_epi32", id! "_mm512_sllv_epi32"),
  /- 30215 -/ (id! "_mm512_rolv_epi32", id! "_mm512_rolv_epi32"),
  /- 28979 -/ (id! "_mm512_srlv_epi32", id! "_mm512_srlv_epi32"),
  /- 30227 -/ (id! "_mm512_rorv_epi32", id! "_mm512_rorv_epi32"),
  /- 30095 -/ (id! "_mm512_set1_epi64", id! "_mm512_set1_epi64"),
  /- 28783 -/ (id! "_mm512_set4_epi64", id! "_mm512_set4_epi64"),
  /- 28879 -/ (id! "_mm512_load_epi64", id! "_mm512_load_epi64"),
  /- 29147 -/ (id! "_mm512_srai_epi64", id! "_mm512_srai_epi64"),
  /- 29099 -/ (id! "_mm512_slli_epi64", id! "_mm512_slli_epi64"),
  /- 29123 -/ (id! "_mm512_srli_epi64", id! "_mm512_srli_epi64"),
  /- 29027 -/ (id! "_mm512_srav_epi64", id! "_mm512_srav_epi64"),
  /- 29015 -/ (id! "_mm512_sllv_epi64", id! "_mm512_sllv_epi64"),
  /- 30239 -/ (id! "_mm512_rolv_epi64", id! "_mm512_rolv_epi64"),
  /- 29039 -/ (id! "_mm512_srlv_epi64", id! "_mm512_srlv_epi64"),
  /- 30251 -/ (id! "_mm512_rorv_epi64", id! "_mm512_rorv_epi64"),
  /- 28767 -/ (id! "_mm512_set1_epi16", id! "_mm512_set1_epi16"),
  /- 29363 -/ (id! "_mm512_rsqrt14_pd", id! "_mm512_rsqrt14_pd"),
  /- 31091 -/ (id! "_mm512_shuffle_pd", id! "_mm512_shuffle_pd"),
  /- 30983 -/ (id! "_mm512_permute_pd", id! "_mm512_permute_pd"),
  /- 28803 -/ (id! "_mm512_setzero_pd", id! "_mm512_setzero_pd"),
  /- 31527 -/ (id! "_mm512_movedup_pd", id! "_mm512_movedup_pd"),
  /- 33675 -/ (id! "_mm512_getmant_pd", id! "_mm512_getmant_pd"),
  /- 29343 -/ (id! "_mm_mask_rcp14_sd", id! "_mm_mask_rcp14_sd"),
  /- 32655 -/ (id! "_mm_mask_fmsub_sd", id! "_mm_mask_fmsub_sd"),
  /- 30819 -/ (id! "_mm_maskz_load_sd", id! "_mm_maskz_load_sd"),
  /- 32631 -/ (id! "_mm_mask_fmadd_sd", id! "_mm_mask_fmadd_sd"),
  /- 32827 -/ (id! "_mm_comi_round_sd", id! "_mm_comi_round_sd"),
  /- 29435 -/ (id! "_mm_sqrt_round_sd", id! "_mm_sqrt_round_sd"),
  /- 33759 -/ (id! "_mm_roundscale_sd", id! "_mm_roundscale_sd"),
  /- 30843 -/ (id! "_mm_mask_store_sd", id! "_mm_mask_store_sd"),
  /- 30835 -/ (id! "_mm_maskz_move_sd", id! "_mm_maskz_move_sd"),
  /- 29375 -/ (id! "_mm512_rsqrt14_ps", id! "_mm512_rsqrt14_ps"),
  /- 31079 -/ (id! "_mm512_shuffle_ps", id! "_mm512_shuffle_ps"),
  /- 30995 -/ (id! "_mm512_permute_ps", id! "_mm512_permute_ps"),
  /- 28795 -/ (id! "_mm512_setzero_ps", id! "_mm512_setzero_ps"),
  /- 33687 -/ (id! "_mm512_getmant_ps", id! "_mm512_getmant_ps"),
  /- 29355 -/ (id! "_mm_mask_rcp14_ss", id! "_mm_mask_rcp14_ss"),
  /- 32659 -/ (id! "_mm_mask_fmsub_ss", id! "_mm_mask_fmsub_ss"),
  /- 30811 -/ (id! "_mm_maskz_load_ss", id! "_mm_maskz_load_ss"),
  /- 32635 -/ (id! "_mm_mask_fmadd_ss", id! "_mm_mask_fmadd_ss"),
  /- 32823 -/ (id! "_mm_comi_round_ss", id! "_mm_comi_round_ss"),
  /- 29447 -/ (id! "_mm_sqrt_round_ss", id! "_mm_sqrt_round_ss"),
  /- 33747 -/ (id! "_mm_roundscale_ss", id! "_mm_roundscale_ss"),
  /- 30839 -/ (id! "_mm_mask_store_ss", id! "_mm_mask_store_ss"),
  /- 30827 -/ (id! "_mm_maskz_move_ss", id! "_mm_maskz_move_ss"),
  /- 28923 -/ (id! "_mm512_store_si512", id! "_mm512_store_si512"),
  /- 30867 -/ (id! "_mm512_loadu_si512", id! "_mm512_loadu_si512"),
  /- 33343 -/ (id! "_mm512_cvtpd_epi32", id! "_mm512_cvtpd_epi32"),
  /- 28927 -/ (id! "_mm512_store_epi32", id! "_mm512_store_epi32"),
  /- 28935 -/ (id! "_mm512_mullo_epi32", id! "_mm512_mullo_epi32"),
  /- 33391 -/ (id! "_mm512_cvtps_epi32", id! "_mm512_cvtps_epi32"),
  /- 30871 -/ (id! "_mm512_loadu_epi32", id! "_mm512_loadu_epi32"),
  /- 33355 -/ (id! "_mm512_cvtpd_epu32", id! "_mm512_cvtpd_epu32"),
  /- 33403 -/ (id! "_mm512_cvtps_epu32", id! "_mm512_cvtps_epu32"),
  /- 28891 -/ (id! "_mm512_store_epi64", id! "_mm512_store_epi64"),
  /- 30847 -/ (id! "_mm512_loadu_epi64", id! "_mm512_loadu_epi64"),
  /- 30739 -/ (id! "_mm512_insertf32x4", id! "_mm512_insertf32x4"),
  /- 30735 -/ (id! "_mm512_inserti32x4", id! "_mm512_inserti32x4"),
  /- 30755 -/ (id! "_mm512_insertf64x4", id! "_mm512_insertf64x4"),
  /- 30743 -/ (id! "_mm512_inserti64x4", id! "_mm512_inserti64x4"),
  /- 32347 -/ (id! "_kortest_mask16_u8", id! "_kortest_mask16_u8"),
  /- 30639 -/ (id! "_mm512_cvtepi32_pd", id! "_mm512_cvtepi32_pd"),
  /- 30651 -/ (id! "_mm512_cvtepu32_pd", id! "_mm512_cvtepu32_pd"),
  /- 32899 -/ (id! "_mm512_mask_sub_pd", id! "_mm512_mask_sub_pd"),
  /- 33191 -/ (id! "_mm512_fmaddsub_pd", id! "_mm512_fmaddsub_pd"),
  /- 32859 -/ (id! "_mm512_mask_add_pd", id! "_mm512_mask_add_pd"),
  /- 33223 -/ (id! "_mm512_fmsubadd_pd", id! "_mm512_fmsubadd_pd"),
  /- 31551 -/ (id! "_mm512_unpackhi_pd", id! "_mm512_unpackhi_pd"),
  /- 32939 -/ (id! "_mm512_mask_mul_pd", id! "_mm512_mask_mul_pd"),
  /- 33459 -/ (id! "_mm512_fixupimm_pd", id! "_mm512_fixupimm_pd"),
  /- 33059 -/ (id! "_mm512_mask_min_pd", id! "_mm512_mask_min_pd"),
  /- 31539 -/ (id! "_mm512_unpacklo_pd", id! "_mm512_unpacklo_pd"),
  /- 31379 -/ (id! "_mm512_mask_abs_pd", id! "_mm512_mask_abs_pd"),
  /- 32979 -/ (id! "_mm512_mask_div_pd", id! "_mm512_mask_div_pd"),
  /- 28815 -/ (id! "_mm512_mask_mov_pd", id! "_mm512_mask_mov_pd"),
  /- 33019 -/ (id! "_mm512_mask_max_pd", id! "_mm512_mask_max_pd"),
  /- 31019 -/ (id! "_mm512_permutex_pd", id! "_mm512_permutex_pd"),
  /- 29347 -/ (id! "_mm_maskz_rcp14_sd", id! "_mm_maskz_rcp14_sd"),
  /- 32663 -/ (id! "_mm_mask3_fmsub_sd", id! "_mm_mask3_fmsub_sd"),
  /- 32671 -/ (id! "_mm_maskz_fmsub_sd", id! "_mm_maskz_fmsub_sd"),
  /- 32703 -/ (id! "_mm_mask_fnmsub_sd", id! "_mm_mask_fnmsub_sd"),
  /- 32639 -/ (id! "_mm_mask3_fmadd_sd", id! "_mm_mask3_fmadd_sd"),
  /- 32647 -/ (id! "_mm_maskz_fmadd_sd", id! "_mm_maskz_fmadd_sd"),
  /- 32679 -/ (id! "_mm_mask_fnmadd_sd", id! "_mm_mask_fnmadd_sd"),
  /- 32607 -/ (id! "_mm_fmsub_round_sd", id! "_mm_fmsub_round_sd"),
  /- 32599 -/ (id! "_mm_fmadd_round_sd", id! "_mm_fmadd_round_sd"),
  /- 33667 -/ (id! "_mm_mask_getexp_sd", id! "_mm_mask_getexp_sd"),
  /- 31647 -/ (id! "_mm_cvt_roundss_sd", id! "_mm_cvt_roundss_sd"),
  /- 33771 -/ (id! "_mm512_cmp_pd_mask", id! "_mm512_cmp_pd_mask"),
  /- 33775 -/ (id! "_mm512_cmp_ps_mask", id! "_mm512_cmp_ps_mask"),
  /- 33435 -/ (id! "_mm512_cvtepi32_ps", id! "_mm512_cvtepi32_ps"),
  /- 33447 -/ (id! "_mm512_cvtepu32_ps", id! "_mm512_cvtepu32_ps"),
  /- 32911 -/ (id! "_mm512_mask_sub_ps", id! "_mm512_mask_sub_ps"),
  /- 33207 -/ (id! "_mm512_fmaddsub_ps", id! "_mm512_fmaddsub_ps"),
  /- 32871 -/ (id! "_mm512_mask_add_ps", id! "_mm512_mask_add_ps"),
  /- 33239 -/ (id! "_mm512_fmsubadd_ps", id! "_mm512_fmsubadd_ps"),
  /- 31563 -/ (id! "_mm512_unpackhi_ps", id! "_mm512_unpackhi_ps"),
  /- 32951 -/ (id! "_mm512_mask_mul_ps", id! "_mm512_mask_mul_ps"),
  /- 33471 -/ (id! "_mm512_fixupimm_ps", id! "_mm512_fixupimm_ps"),
  /- 33071 -/ (id! "_mm512_mask_min_ps", id! "_mm512_mask_min_ps"),
  /- 32523 -/ (id! "_mm512_unpacklo_ps", id! "_mm512_unpacklo_ps"),
  /- 31151 -/ (id! "_mm512_movehdup_ps", id! "_mm512_movehdup_ps"),
  /- 31163 -/ (id! "_mm512_moveldup_ps", id! "_mm512_moveldup_ps"),
  /- 31371 -/ (id! "_mm512_mask_abs_ps", id! "_mm512_mask_abs_ps"),
  /- 32991 -/ (id! "_mm512_mask_div_ps", id! "_mm512_mask_div_ps"),
  /- 28823 -/ (id! "_mm512_mask_mov_ps", id! "_mm512_mask_mov_ps"),
  /- 33031 -/ (id! "_mm512_mask_max_ps", id! "_mm512_mask_max_ps"),
  /- 29359 -/ (id! "_mm_maskz_rcp14_ss", id! "_mm_maskz_rcp14_ss"),
  /- 32667 -/ (id! "_mm_mask3_fmsub_ss", id! "_mm_mask3_fmsub_ss"),
  /- 32675 -/ (id! "_mm_maskz_fmsub_ss", id! "_mm_maskz_fmsub_ss"),
  /- 32707 -/ (id! "_mm_mask_fnmsub_ss", id! "_mm_mask_fnmsub_ss"),
  /- 32643 -/ (id! "_mm_mask3_fmadd_ss", id! "_mm_mask3_fmadd_ss"),
  /- 32651 -/ (id! "_mm_maskz_fmadd_ss", id! "_mm_maskz_fmadd_ss"),
  /- 32683 -/ (id! "_mm_mask_fnmadd_ss", id! "_mm_mask_fnmadd_ss"),
  /- 32611 -/ (id! "_mm_fmsub_round_ss", id! "_mm_fmsub_round_ss"),
  /- 32603 -/ (id! "_mm_fmadd_round_ss", id! "_mm_fmadd_round_ss"),
  /- 31635 -/ (id! "_mm_cvt_roundsd_ss", id! "_mm_cvt_roundsd_ss"),
  /- 33655 -/ (id! "_mm_mask_getexp_ss", id! "_mm_mask_getexp_ss"),
  /- 33939 -/ (id! "_mm512_castpd_si512", id! "_mm512_castpd_si512"),
  /- 31659 -/ (id! "_mm512_stream_si512", id! "_mm512_stream_si512"),
  /- 33947 -/ (id! "_mm512_castps_si512", id! "_mm512_castps_si512"),
  /- 31307 -/ (id! "_mm512_andnot_si512", id! "_mm512_andnot_si512"),
  /- 30883 -/ (id! "_mm512_storeu_si512", id! "_mm512_storeu_si512"),
  /- 31511 -/ (id! "_mm_cvt_roundsd_i32", id! "_mm_cvt_roundsd_i32"),
  /- 31463 -/ (id! "_mm_cvt_roundss_i32", id! "_mm_cvt_roundss_i32"),
  /- 33319 -/ (id! "_mm512_cvttpd_epi32", id! "_mm512_cvttpd_epi32"),
  /- 31851 -/ (id! "_mm512_alignr_epi32", id! "_mm512_alignr_epi32"),
  /- 33367 -/ (id! "_mm512_cvttps_epi32", id! "_mm512_cvttps_epi32"),
  /- 31311 -/ (id! "_mm512_andnot_epi32", id! "_mm512_andnot_epi32"),
  /- 30887 -/ (id! "_mm512_storeu_epi32", id! "_mm512_storeu_epi32"),
  /- 31503 -/ (id! "_mm_cvt_roundsd_u32", id! "_mm_cvt_roundsd_u32"),
  /- 31455 -/ (id! "_mm_cvt_roundss_u32", id! "_mm_cvt_roundss_u32"),
  /- 33331 -/ (id! "_mm512_cvttpd_epu32", id! "_mm512_cvttpd_epu32"),
  /- 33379 -/ (id! "_mm512_cvttps_epu32", id! "_mm512_cvttps_epu32"),
  /- 31487 -/ (id! "_mm_cvt_roundsd_i64", id! "_mm_cvt_roundsd_i64"),
  /- 31439 -/ (id! "_mm_cvt_roundss_i64", id! "_mm_cvt_roundss_i64"),
  /- 31863 -/ (id! "_mm512_alignr_epi64", id! "_mm512_alignr_epi64"),
  /- 31323 -/ (id! "_mm512_andnot_epi64", id! "_mm512_andnot_epi64"),
  /- 30859 -/ (id! "_mm512_storeu_epi64", id! "_mm512_storeu_epi64"),
  /- 28947 -/ (id! "_mm512_mullox_epi64", id! "_mm512_mullox_epi64"),
  /- 31479 -/ (id! "_mm_cvt_roundsd_u64", id! "_mm_cvt_roundsd_u64"),
  /- 31431 -/ (id! "_mm_cvt_roundss_u64", id! "_mm_cvt_roundss_u64"),
  /- 32355 -/ (id! "_kortestc_mask16_u8", id! "_kortestc_mask16_u8"),
  /- 32351 -/ (id! "_kortestz_mask16_u8", id! "_kortestz_mask16_u8"),
  /- 33955 -/ (id! "_mm512_castsi512_pd", id! "_mm512_castsi512_pd"),
  /- 32903 -/ (id! "_mm512_maskz_sub_pd", id! "_mm512_maskz_sub_pd"),
  /- 28835 -/ (id! "_mm512_mask_load_pd", id! "_mm512_mask_load_pd"),
  /- 32863 -/ (id! "_mm512_maskz_add_pd", id! "_mm512_maskz_add_pd"),
  /- 28755 -/ (id! "_mm512_undefined_pd", id! "_mm512_undefined_pd"),
  /- 29603 -/ (id! "_mm512_sub_round_pd", id! "_mm512_sub_round_pd"),
  /- 29579 -/ (id! "_mm512_add_round_pd", id! "_mm512_add_round_pd"),
  /- 29627 -/ (id! "_mm512_mul_round_pd", id! "_mm512_mul_round_pd"),
  /- 29747 -/ (id! "_mm512_min_round_pd", id! "_mm512_min_round_pd"),
  /- 29651 -/ (id! "_mm512_div_round_pd", id! "_mm512_div_round_pd"),
  /- 29723 -/ (id! "_mm512_max_round_pd", id! "_mm512_max_round_pd"),
  /- 31847 -/ (id! "_mm512_mask_ceil_pd", id! "_mm512_mask_ceil_pd"),
  /- 32943 -/ (id! "_mm512_maskz_mul_pd", id! "_mm512_maskz_mul_pd"),
  /- 33063 -/ (id! "_mm512_maskz_min_pd", id! "_mm512_maskz_min_pd"),
  /- 32115 -/ (id! "_mm512_i32gather_pd", id! "_mm512_i32gather_pd"),
  /- 32131 -/ (id! "_mm512_i64gather_pd", id! "_mm512_i64gather_pd"),
  /- 32835 -/ (id! "_mm512_mask_sqrt_pd", id! "_mm512_mask_sqrt_pd"),
  /- 32983 -/ (id! "_mm512_maskz_div_pd", id! "_mm512_maskz_div_pd"),
  /- 28819 -/ (id! "_mm512_maskz_mov_pd", id! "_mm512_maskz_mov_pd"),
  /- 33023 -/ (id! "_mm512_maskz_max_pd", id! "_mm512_maskz_max_pd"),
  /- 29391 -/ (id! "_mm_mask_rsqrt14_sd", id! "_mm_mask_rsqrt14_sd"),
  /- 30367 -/ (id! "_mm_cvt_roundi64_sd", id! "_mm_cvt_roundi64_sd"),
  /- 30363 -/ (id! "_mm_cvt_roundu64_sd", id! "_mm_cvt_roundu64_sd"),
  /- 32711 -/ (id! "_mm_mask3_fnmsub_sd", id! "_mm_mask3_fnmsub_sd"),
  /- 32719 -/ (id! "_mm_maskz_fnmsub_sd", id! "_mm_maskz_fnmsub_sd"),
  /- 32687 -/ (id! "_mm_mask3_fnmadd_sd", id! "_mm_mask3_fnmadd_sd"),
  /- 32695 -/ (id! "_mm_maskz_fnmadd_sd", id! "_mm_maskz_fnmadd_sd"),
  /- 32623 -/ (id! "_mm_fnmsub_round_sd", id! "_mm_fnmsub_round_sd"),
  /- 32615 -/ (id! "_mm_fnmadd_round_sd", id! "_mm_fnmadd_round_sd"),
  /- 29795 -/ (id! "_mm_scalef_round_sd", id! "_mm_scalef_round_sd"),
  /- 31687 -/ (id! "_mm_getexp_round_sd", id! "_mm_getexp_round_sd"),
  /- 33671 -/ (id! "_mm_maskz_getexp_sd", id! "_mm_maskz_getexp_sd"),
  /- 33703 -/ (id! "_mm_mask_getmant_sd", id! "_mm_mask_getmant_sd"),
  /- 33951 -/ (id! "_mm512_castsi512_ps", id! "_mm512_castsi512_ps"),
  /- 32915 -/ (id! "_mm512_maskz_sub_ps", id! "_mm512_maskz_sub_ps"),
  /- 28855 -/ (id! "_mm512_mask_load_ps", id! "_mm512_mask_load_ps"),
  /- 32875 -/ (id! "_mm512_maskz_add_ps", id! "_mm512_maskz_add_ps"),
  /- 28751 -/ (id! "_mm512_undefined_ps", id! "_mm512_undefined_ps"),
  /- 29615 -/ (id! "_mm512_sub_round_ps", id! "_mm512_sub_round_ps"),
  /- 29591 -/ (id! "_mm512_add_round_ps", id! "_mm512_add_round_ps"),
  /- 29639 -/ (id! "_mm512_mul_round_ps", id! "_mm512_mul_round_ps"),
  /- 29759 -/ (id! "_mm512_min_round_ps", id! "_mm512_min_round_ps"),
  /- 29663 -/ (id! "_mm512_div_round_ps", id! "_mm512_div_round_ps"),
  /- 29735 -/ (id! "_mm512_max_round_ps", id! "_mm512_max_round_ps"),
  /- 31843 -/ (id! "_mm512_mask_ceil_ps", id! "_mm512_mask_ceil_ps"),
  /- 32955 -/ (id! "_mm512_maskz_mul_ps", id! "_mm512_maskz_mul_ps"),
  /- 33075 -/ (id! "_mm512_maskz_min_ps", id! "_mm512_maskz_min_ps"),
  /- 32107 -/ (id! "_mm512_i32gather_ps", id! "_mm512_i32gather_ps"),
  /- 32123 -/ (id! "_mm512_i64gather_ps", id! "_mm512_i64gather_ps"),
  /- 32847 -/ (id! "_mm512_mask_sqrt_ps", id! "_mm512_mask_sqrt_ps"),
  /- 32995 -/ (id! "_mm512_maskz_div_ps", id! "_mm512_maskz_div_ps"),
  /- 28827 -/ (id! "_mm512_maskz_mov_ps", id! "_mm512_maskz_mov_ps"),
  /- 33035 -/ (id! "_mm512_maskz_max_ps", id! "_mm512_maskz_max_ps"),
  /- 30383 -/ (id! "_mm_cvt_roundi32_ss", id! "_mm_cvt_roundi32_ss"),
  /- 30375 -/ (id! "_mm_cvt_roundu32_ss", id! "_mm_cvt_roundu32_ss"),
  /- 29403 -/ (id! "_mm_mask_rsqrt14_ss", id! "_mm_mask_rsqrt14_ss"),
  /- 30395 -/ (id! "_mm_cvt_roundi64_ss", id! "_mm_cvt_roundi64_ss"),
  /- 30387 -/ (id! "_mm_cvt_roundu64_ss", id! "_mm_cvt_roundu64_ss"),
  /- 32715 -/ (id! "_mm_mask3_fnmsub_ss", id! "_mm_mask3_fnmsub_ss"),
  /- 32723 -/ (id! "_mm_maskz_fnmsub_ss", id! "_mm_maskz_fnmsub_ss"),
  /- 32691 -/ (id! "_mm_mask3_fnmadd_ss", id! "_mm_mask3_fnmadd_ss"),
  /- 32699 -/ (id! "_mm_maskz_fnmadd_ss", id! "_mm_maskz_fnmadd_ss"),
  /- 32627 -/ (id! "_mm_fnmsub_round_ss", id! "_mm_fnmsub_round_ss"),
  /- 32619 -/ (id! "_mm_fnmadd_round_ss", id! "_mm_fnmadd_round_ss"),
  /- 29807 -/ (id! "_mm_scalef_round_ss", id! "_mm_scalef_round_ss"),
  /- 31675 -/ (id! "_mm_getexp_round_ss", id! "_mm_getexp_round_ss"),
  /- 33659 -/ (id! "_mm_maskz_getexp_ss", id! "_mm_maskz_getexp_ss"),
  /- 33715 -/ (id! "_mm_mask_getmant_ss", id! "_mm_mask_getmant_ss"),
  /- 28811 -/ (id! "_mm512_setzero_si512", id! "_mm512_setzero_si512"),
  /- 31519 -/ (id! "_mm_cvtt_roundsd_i32", id! "_mm_cvtt_roundsd_i32"),
  /- 31471 -/ (id! "_mm_cvtt_roundss_i32", id! "_mm_cvtt_roundss_i32"),
  /- 29459 -/ (id! "_mm512_cvtepi8_epi32", id! "_mm512_cvtepi8_epi32"),
  /- 29519 -/ (id! "_mm512_cvtepu8_epi32", id! "_mm512_cvtepu8_epi32"),
  /- 30155 -/ (id! "_mm512_shuffle_epi32", id! "_mm512_shuffle_epi32"),
  /- 28807 -/ (id! "_mm512_setzero_epi32", id! "_mm512_setzero_epi32"),
  /- 31183 -/ (id! "_mm512_mask_or_epi32", id! "_mm512_mask_or_epi32"),
  /- 33519 -/ (id! "_mm512_cvtsi512_si32", id! "_mm512_cvtsi512_si32"),
  /- 31507 -/ (id! "_mm_cvt_roundsd_si32", id! "_mm_cvt_roundsd_si32"),
  /- 31459 -/ (id! "_mm_cvt_roundss_si32", id! "_mm_cvt_roundss_si32"),
  /- 31515 -/ (id! "_mm_cvtt_roundsd_u32", id! "_mm_cvtt_roundsd_u32"),
  /- 31467 -/ (id! "_mm_cvtt_roundss_u32", id! "_mm_cvtt_roundss_u32"),
  /- 30191 -/ (id! "_mm512_shuffle_f64x2", id! "_mm512_shuffle_f64x2"),
  /- 30167 -/ (id! "_mm512_shuffle_i64x2", id! "_mm512_shuffle_i64x2"),
  /- 31499 -/ (id! "_mm_cvtt_roundsd_i64", id! "_mm_cvtt_roundsd_i64"),
  /- 31447 -/ (id! "_mm_cvtt_roundss_i64", id! "_mm_cvtt_roundss_i64"),
  /- 29471 -/ (id! "_mm512_cvtepi8_epi64", id! "_mm512_cvtepi8_epi64"),
  /- 29531 -/ (id! "_mm512_cvtepu8_epi64", id! "_mm512_cvtepu8_epi64"),
  /- 31195 -/ (id! "_mm512_mask_or_epi64", id! "_mm512_mask_or_epi64"),
  /- 31483 -/ (id! "_mm_cvt_roundsd_si64", id! "_mm_cvt_roundsd_si64"),
  /- 31435 -/ (id! "_mm_cvt_roundss_si64", id! "_mm_cvt_roundss_si64"),
  /- 31491 -/ (id! "_mm_cvtt_roundsd_u64", id! "_mm_cvtt_roundsd_u64"),
  /- 31443 -/ (id! "_mm_cvtt_roundss_u64", id! "_mm_cvtt_roundss_u64"),
  /- 30203 -/ (id! "_mm512_shuffle_f32x4", id! "_mm512_shuffle_f32x4"),
  /- 30179 -/ (id! "_mm512_shuffle_i32x4", id! "_mm512_shuffle_i32x4"),
  /- 30399 -/ (id! "_mm512_cvtepi32_epi8", id! "_mm512_cvtepi32_epi8"),
  /- 30591 -/ (id! "_mm512_cvtepi64_epi8", id! "_mm512_cvtepi64_epi8"),
  /- 29319 -/ (id! "_mm512_mask_rcp14_pd", id! "_mm512_mask_rcp14_pd"),
  /- 33163 -/ (id! "_mm512_mask_fmsub_pd", id! "_mm512_mask_fmsub_pd"),
  /- 28839 -/ (id! "_mm512_maskz_load_pd", id! "_mm512_maskz_load_pd"),
  /- 34223 -/ (id! "_mm512_reduce_add_pd", id! "_mm512_reduce_add_pd"),
  /- 33131 -/ (id! "_mm512_mask_fmadd_pd", id! "_mm512_mask_fmadd_pd"),
  /- 32583 -/ (id! "_mm512_mask_blend_pd", id! "_mm512_mask_blend_pd"),
  /- 29411 -/ (id! "_mm512_sqrt_round_pd", id! "_mm512_sqrt_round_pd"),
  /- 33735 -/ (id! "_mm512_roundscale_pd", id! "_mm512_roundscale_pd"),
  /- 28847 -/ (id! "_mm512_mask_store_pd", id! "_mm512_mask_store_pd"),
  /- 34227 -/ (id! "_mm512_reduce_mul_pd", id! "_mm512_reduce_mul_pd"),
  /- 34239 -/ (id! "_mm512_reduce_min_pd", id! "_mm512_reduce_min_pd"),
  /- 30895 -/ (id! "_mm512_permutevar_pd", id! "_mm512_permutevar_pd"),
  /- 32179 -/ (id! "_mm512_i32scatter_pd", id! "_mm512_i32scatter_pd"),
  /- 32195 -/ (id! "_mm512_i64scatter_pd", id! "_mm512_i64scatter_pd"),
  /- 31839 -/ (id! "_mm512_mask_floor_pd", id! "_mm512_mask_floor_pd"),
  /- 33595 -/ (id! "_mm512_mask_cvtps_pd", id! "_mm512_mask_cvtps_pd"),
  /- 32839 -/ (id! "_mm512_maskz_sqrt_pd", id! "_mm512_maskz_sqrt_pd"),
  /- 30771 -/ (id! "_mm512_mask_loadu_pd", id! "_mm512_mask_loadu_pd"),
  /- 34243 -/ (id! "_mm512_reduce_max_pd", id! "_mm512_reduce_max_pd"),
  /- 29395 -/ (id! "_mm_maskz_rsqrt14_sd", id! "_mm_maskz_rsqrt14_sd"),
  /- 30371 -/ (id! "_mm_cvt_roundsi64_sd", id! "_mm_cvt_roundsi64_sd"),
  /- 31747 -/ (id! "_mm_getmant_round_sd", id! "_mm_getmant_round_sd"),
  /- 33487 -/ (id! "_mm_mask_fixupimm_sd", id! "_mm_mask_fixupimm_sd"),
  /- 33707 -/ (id! "_mm_maskz_getmant_sd", id! "_mm_maskz_getmant_sd"),
  /- 31611 -/ (id! "_mm512_mask_cvtps_ph", id! "_mm512_mask_cvtps_ph"),
  /- 33819 -/ (id! "_mm512_cmple_pd_mask", id! "_mm512_cmple_pd_mask"),
  /- 33803 -/ (id! "_mm512_cmpeq_pd_mask", id! "_mm512_cmpeq_pd_mask"),
  /- 33811 -/ (id! "_mm512_cmplt_pd_mask", id! "_mm512_cmplt_pd_mask"),
  /- 33791 -/ (id! "_mm_mask_cmp_sd_mask", id! "_mm_mask_cmp_sd_mask"),
  /- 33883 -/ (id! "_mm512_cmple_ps_mask", id! "_mm512_cmple_ps_mask"),
  /- 33867 -/ (id! "_mm512_cmpeq_ps_mask", id! "_mm512_cmpeq_ps_mask"),
  /- 33875 -/ (id! "_mm512_cmplt_ps_mask", id! "_mm512_cmplt_ps_mask"),
  /- 33799 -/ (id! "_mm_mask_cmp_ss_mask", id! "_mm_mask_cmp_ss_mask"),
  /- 29331 -/ (id! "_mm512_mask_rcp14_ps", id! "_mm512_mask_rcp14_ps"),
  /- 33179 -/ (id! "_mm512_mask_fmsub_ps", id! "_mm512_mask_fmsub_ps"),
  /- 28859 -/ (id! "_mm512_maskz_load_ps", id! "_mm512_maskz_load_ps"),
  /- 34127 -/ (id! "_mm512_reduce_add_ps", id! "_mm512_reduce_add_ps"),
  /- 33147 -/ (id! "_mm512_mask_fmadd_ps", id! "_mm512_mask_fmadd_ps"),
  /- 32587 -/ (id! "_mm512_mask_blend_ps", id! "_mm512_mask_blend_ps"),
  /- 29423 -/ (id! "_mm512_sqrt_round_ps", id! "_mm512_sqrt_round_ps"),
  /- 33619 -/ (id! "_mm512_mask_cvtpd_ps", id! "_mm512_mask_cvtpd_ps"),
  /- 33723 -/ (id! "_mm512_roundscale_ps", id! "_mm512_roundscale_ps"),
  /- 28867 -/ (id! "_mm512_mask_store_ps", id! "_mm512_mask_store_ps"),
  /- 33607 -/ (id! "_mm512_mask_cvtph_ps", id! "_mm512_mask_cvtph_ps"),
  /- 34131 -/ (id! "_mm512_reduce_mul_ps", id! "_mm512_reduce_mul_ps"),
  /- 34143 -/ (id! "_mm512_reduce_min_ps", id! "_mm512_reduce_min_ps"),
  /- 30907 -/ (id! "_mm512_permutevar_ps", id! "_mm512_permutevar_ps"),
  /- 32171 -/ (id! "_mm512_i32scatter_ps", id! "_mm512_i32scatter_ps"),
  /- 32187 -/ (id! "_mm512_i64scatter_ps", id! "_mm512_i64scatter_ps"),
  /- 31835 -/ (id! "_mm512_mask_floor_ps", id! "_mm512_mask_floor_ps"),
  /- 32851 -/ (id! "_mm512_maskz_sqrt_ps", id! "_mm512_maskz_sqrt_ps"),
  /- 30791 -/ (id! "_mm512_mask_loadu_ps", id! "_mm512_mask_loadu_ps"),
  /- 34147 -/ (id! "_mm512_reduce_max_ps", id! "_mm512_reduce_max_ps"),
  /- 30379 -/ (id! "_mm_cvt_roundsi32_ss", id! "_mm_cvt_roundsi32_ss"),
  /- 29407 -/ (id! "_mm_maskz_rsqrt14_ss", id! "_mm_maskz_rsqrt14_ss"),
  /- 30391 -/ (id! "_mm_cvt_roundsi64_ss", id! "_mm_cvt_roundsi64_ss"),
  /- 31759 -/ (id! "_mm_getmant_round_ss", id! "_mm_getmant_round_ss"),
  /- 33499 -/ (id! "_mm_mask_fixupimm_ss", id! "_mm_mask_fixupimm_ss"),
  /- 33719 -/ (id! "_mm_maskz_getmant_ss", id! "_mm_maskz_getmant_ss"),
  /- 30495 -/ (id! "_mm512_cvtepi64_epi32", id! "_mm512_cvtepi64_epi32"),
  /- 29483 -/ (id! "_mm512_cvtepi16_epi32", id! "_mm512_cvtepi16_epi32"),
  /- 29543 -/ (id! "_mm512_cvtepu16_epi32", id! "_mm512_cvtepu16_epi32"),
  /- 29235 -/ (id! "_mm512_mask_sra_epi32", id! "_mm512_mask_sra_epi32"),
  /- 29079 -/ (id! "_mm512_mask_sub_epi32", id! "_mm512_mask_sub_epi32"),
  /- 29055 -/ (id! "_mm512_mask_add_epi32", id! "_mm512_mask_add_epi32"),
  /- 31287 -/ (id! "_mm512_mask_and_epi32", id! "_mm512_mask_and_epi32"),
  /- 31383 -/ (id! "_mm512_unpackhi_epi32", id! "_mm512_unpackhi_epi32"),
  /- 29187 -/ (id! "_mm512_mask_sll_epi32", id! "_mm512_mask_sll_epi32"),
  /- 31235 -/ (id! "_mm512_mask_rol_epi32", id! "_mm512_mask_rol_epi32"),
  /- 29211 -/ (id! "_mm512_mask_srl_epi32", id! "_mm512_mask_srl_epi32"),
  /- 29067 -/ (id! "_mm512_mask_mul_epi32", id! "_mm512_mask_mul_epi32"),
  /- 32495 -/ (id! "_mm512_mask_min_epi32", id! "_mm512_mask_min_epi32"),
  /- 31407 -/ (id! "_mm512_unpacklo_epi32", id! "_mm512_unpacklo_epi32"),
  /- 31187 -/ (id! "_mm512_maskz_or_epi32", id! "_mm512_maskz_or_epi32"),
  /- 31247 -/ (id! "_mm512_mask_ror_epi32", id! "_mm512_mask_ror_epi32"),
  /- 31211 -/ (id! "_mm512_mask_xor_epi32", id! "_mm512_mask_xor_epi32"),
  /- 30027 -/ (id! "_mm512_mask_abs_epi32", id! "_mm512_mask_abs_epi32"),
  /- 28899 -/ (id! "_mm512_mask_mov_epi32", id! "_mm512_mask_mov_epi32"),
  /- 32483 -/ (id! "_mm512_mask_max_epi32", id! "_mm512_mask_max_epi32"),
  /- 31523 -/ (id! "_mm_cvtt_roundsd_si32", id! "_mm_cvtt_roundsd_si32"),
  /- 31475 -/ (id! "_mm_cvtt_roundss_si32", id! "_mm_cvtt_roundss_si32"),
  /- 29091 -/ (id! "_mm512_mask_mul_epu32", id! "_mm512_mask_mul_epu32"),
  /- 32519 -/ (id! "_mm512_mask_min_epu32", id! "_mm512_mask_min_epu32"),
  /- 32507 -/ (id! "_mm512_mask_max_epu32", id! "_mm512_mask_max_epu32"),
  /- 29507 -/ (id! "_mm512_cvtepi32_epi64", id! "_mm512_cvtepi32_epi64"),
  /- 29567 -/ (id! "_mm512_cvtepu32_epi64", id! "_mm512_cvtepu32_epi64"),
  /- 29495 -/ (id! "_mm512_cvtepi16_epi64", id! "_mm512_cvtepi16_epi64"),
  /- 29555 -/ (id! "_mm512_cvtepu16_epi64", id! "_mm512_cvtepu16_epi64"),
  /- 29163 -/ (id! "_mm512_mask_sra_epi64", id! "_mm512_mask_sra_epi64"),
  /- 29007 -/ (id! "_mm512_mask_sub_epi64", id! "_mm512_mask_sub_epi64"),
  /- 28995 -/ (id! "_mm512_mask_add_epi64", id! "_mm512_mask_add_epi64"),
  /- 31299 -/ (id! "_mm512_mask_and_epi64", id! "_mm512_mask_and_epi64"),
  /- 31395 -/ (id! "_mm512_unpackhi_epi64", id! "_mm512_unpackhi_epi64"),
  /- 29115 -/ (id! "_mm512_mask_sll_epi64", id! "_mm512_mask_sll_epi64"),
  /- 31259 -/ (id! "_mm512_mask_rol_epi64", id! "_mm512_mask_rol_epi64"),
  /- 29139 -/ (id! "_mm512_mask_srl_epi64", id! "_mm512_mask_srl_epi64"),
  /- 32443 -/ (id! "_mm512_mask_min_epi64", id! "_mm512_mask_min_epi64"),
  /- 31419 -/ (id! "_mm512_unpacklo_epi64", id! "_mm512_unpacklo_epi64"),
  /- 31199 -/ (id! "_mm512_maskz_or_epi64", id! "_mm512_maskz_or_epi64"),
  /- 31271 -/ (id! "_mm512_mask_ror_epi64", id! "_mm512_mask_ror_epi64"),
  /- 31223 -/ (id! "_mm512_mask_xor_epi64", id! "_mm512_mask_xor_epi64"),
  /- 30015 -/ (id! "_mm512_mask_abs_epi64", id! "_mm512_mask_abs_epi64"),
  /- 28871 -/ (id! "_mm512_mask_mov_epi64", id! "_mm512_mask_mov_epi64"),
  /- 32435 -/ (id! "_mm512_mask_max_epi64", id! "_mm512_mask_max_epi64"),
  /- 31007 -/ (id! "_mm512_permutex_epi64", id! "_mm512_permutex_epi64"),
  /- 31495 -/ (id! "_mm_cvtt_roundsd_si64", id! "_mm_cvtt_roundsd_si64"),
  /- 31451 -/ (id! "_mm_cvtt_roundss_si64", id! "_mm_cvtt_roundss_si64"),
  /- 32467 -/ (id! "_mm512_mask_min_epu64", id! "_mm512_mask_min_epu64"),
  /- 32459 -/ (id! "_mm512_mask_max_epu64", id! "_mm512_mask_max_epu64"),
  /- 30447 -/ (id! "_mm512_cvtepi32_epi16", id! "_mm512_cvtepi32_epi16"),
  /- 30543 -/ (id! "_mm512_cvtepi64_epi16", id! "_mm512_cvtepi64_epi16"),
  /- 30415 -/ (id! "_mm512_cvtsepi32_epi8", id! "_mm512_cvtsepi32_epi8"),
  /- 30607 -/ (id! "_mm512_cvtsepi64_epi8", id! "_mm512_cvtsepi64_epi8"),
  /- 29323 -/ (id! "_mm512_maskz_rcp14_pd", id! "_mm512_maskz_rcp14_pd"),
  /- 33167 -/ (id! "_mm512_mask3_fmsub_pd", id! "_mm512_mask3_fmsub_pd"),
  /- 33171 -/ (id! "_mm512_maskz_fmsub_pd", id! "_mm512_maskz_fmsub_pd"),
  /- 33291 -/ (id! "_mm512_mask_fnmsub_pd", id! "_mm512_mask_fnmsub_pd"),
  /- 33135 -/ (id! "_mm512_mask3_fmadd_pd", id! "_mm512_mask3_fmadd_pd"),
  /- 33139 -/ (id! "_mm512_maskz_fmadd_pd", id! "_mm512_maskz_fmadd_pd"),
  /- 33259 -/ (id! "_mm512_mask_fnmadd_pd", id! "_mm512_mask_fnmadd_pd"),
  /- 32283 -/ (id! "_mm512_mask_expand_pd", id! "_mm512_mask_expand_pd"),
  /- 29851 -/ (id! "_mm512_fmsub_round_pd", id! "_mm512_fmsub_round_pd"),
  /- 29819 -/ (id! "_mm512_fmadd_round_pd", id! "_mm512_fmadd_round_pd"),
  /- 30047 -/ (id! "_mm512_broadcastsd_pd", id! "_mm512_broadcastsd_pd"),
  /- 33099 -/ (id! "_mm512_mask_scalef_pd", id! "_mm512_mask_scalef_pd"),
  /- 33643 -/ (id! "_mm512_mask_getexp_pd", id! "_mm512_mask_getexp_pd"),
  /- 31055 -/ (id! "_mm512_permutexvar_pd", id! "_mm512_permutexvar_pd"),
  /- 31575 -/ (id! "_mm512_cvt_roundps_pd", id! "_mm512_cvt_roundps_pd"),
  /- 33599 -/ (id! "_mm512_maskz_cvtps_pd", id! "_mm512_maskz_cvtps_pd"),
  /- 30775 -/ (id! "_mm512_maskz_loadu_pd", id! "_mm512_maskz_loadu_pd"),
  /- 30783 -/ (id! "_mm512_mask_storeu_pd", id! "_mm512_mask_storeu_pd"),
  /- 29271 -/ (id! "_mm_mask_sub_round_sd", id! "_mm_mask_sub_round_sd"),
  /- 29247 -/ (id! "_mm_mask_add_round_sd", id! "_mm_mask_add_round_sd"),
  /- 29679 -/ (id! "_mm_mask_mul_round_sd", id! "_mm_mask_mul_round_sd"),
  /- 31127 -/ (id! "_mm_fixupimm_round_sd", id! "_mm_fixupimm_round_sd"),
  /- 32563 -/ (id! "_mm_mask_min_round_sd", id! "_mm_mask_min_round_sd"),
  /- 29703 -/ (id! "_mm_mask_div_round_sd", id! "_mm_mask_div_round_sd"),
  /- 32539 -/ (id! "_mm_mask_max_round_sd", id! "_mm_mask_max_round_sd"),
  /- 33491 -/ (id! "_mm_maskz_fixupimm_sd", id! "_mm_maskz_fixupimm_sd"),
  /- 31599 -/ (id! "_mm512_cvt_roundps_ph", id! "_mm512_cvt_roundps_ph"),
  /- 31619 -/ (id! "_mm512_maskz_cvtps_ph", id! "_mm512_maskz_cvtps_ph"),
  /- 32047 -/ (id! "_mm512_cmp_epi32_mask", id! "_mm512_cmp_epi32_mask"),
  /- 32055 -/ (id! "_mm512_cmp_epu32_mask", id! "_mm512_cmp_epu32_mask"),
  /- 32043 -/ (id! "_mm512_cmp_epi64_mask", id! "_mm512_cmp_epi64_mask"),
  /- 32051 -/ (id! "_mm512_cmp_epu64_mask", id! "_mm512_cmp_epu64_mask"),
  /- 33859 -/ (id! "_mm512_cmpord_pd_mask", id! "_mm512_cmpord_pd_mask"),
  /- 33851 -/ (id! "_mm512_cmpnle_pd_mask", id! "_mm512_cmpnle_pd_mask"),
  /- 33835 -/ (id! "_mm512_cmpneq_pd_mask", id! "_mm512_cmpneq_pd_mask"),
  /- 33843 -/ (id! "_mm512_cmpnlt_pd_mask", id! "_mm512_cmpnlt_pd_mask"),
  /- 32091 -/ (id! "_mm_cmp_round_sd_mask", id! "_mm_cmp_round_sd_mask"),
  /- 33923 -/ (id! "_mm512_cmpord_ps_mask", id! "_mm512_cmpord_ps_mask"),
  /- 33915 -/ (id! "_mm512_cmpnle_ps_mask", id! "_mm512_cmpnle_ps_mask"),
  /- 33899 -/ (id! "_mm512_cmpneq_ps_mask", id! "_mm512_cmpneq_ps_mask"),
  /- 33907 -/ (id! "_mm512_cmpnlt_ps_mask", id! "_mm512_cmpnlt_ps_mask"),
  /- 32099 -/ (id! "_mm_cmp_round_ss_mask", id! "_mm_cmp_round_ss_mask"),
  /- 29335 -/ (id! "_mm512_maskz_rcp14_ps", id! "_mm512_maskz_rcp14_ps"),
  /- 33183 -/ (id! "_mm512_mask3_fmsub_ps", id! "_mm512_mask3_fmsub_ps"),
  /- 33187 -/ (id! "_mm512_maskz_fmsub_ps", id! "_mm512_maskz_fmsub_ps"),
  /- 33307 -/ (id! "_mm512_mask_fnmsub_ps", id! "_mm512_mask_fnmsub_ps"),
  /- 33151 -/ (id! "_mm512_mask3_fmadd_ps", id! "_mm512_mask3_fmadd_ps"),
  /- 33155 -/ (id! "_mm512_maskz_fmadd_ps", id! "_mm512_maskz_fmadd_ps"),
  /- 33275 -/ (id! "_mm512_mask_fnmadd_ps", id! "_mm512_mask_fnmadd_ps"),
  /- 32299 -/ (id! "_mm512_mask_expand_ps", id! "_mm512_mask_expand_ps"),
  /- 29867 -/ (id! "_mm512_fmsub_round_ps", id! "_mm512_fmsub_round_ps"),
  /- 29835 -/ (id! "_mm512_fmadd_round_ps", id! "_mm512_fmadd_round_ps"),
  /- 31623 -/ (id! "_mm512_cvt_roundpd_ps", id! "_mm512_cvt_roundpd_ps"),
  /- 33623 -/ (id! "_mm512_maskz_cvtpd_ps", id! "_mm512_maskz_cvtpd_ps"),
  /- 33111 -/ (id! "_mm512_mask_scalef_ps", id! "_mm512_mask_scalef_ps"),
  /- 31587 -/ (id! "_mm512_cvt_roundph_ps", id! "_mm512_cvt_roundph_ps"),
  /- 33611 -/ (id! "_mm512_maskz_cvtph_ps", id! "_mm512_maskz_cvtph_ps"),
  /- 33631 -/ (id! "_mm512_mask_getexp_ps", id! "_mm512_mask_getexp_ps"),
  /- 31067 -/ (id! "_mm512_permutexvar_ps", id! "_mm512_permutexvar_ps"),
  /- 30035 -/ (id! "_mm512_broadcastss_ps", id! "_mm512_broadcastss_ps"),
  /- 30795 -/ (id! "_mm512_maskz_loadu_ps", id! "_mm512_maskz_loadu_ps"),
  /- 30803 -/ (id! "_mm512_mask_storeu_ps", id! "_mm512_mask_storeu_ps"),
  /- 29283 -/ (id! "_mm_mask_sub_round_ss", id! "_mm_mask_sub_round_ss"),
  /- 29259 -/ (id! "_mm_mask_add_round_ss", id! "_mm_mask_add_round_ss"),
  /- 29691 -/ (id! "_mm_mask_mul_round_ss", id! "_mm_mask_mul_round_ss"),
  /- 31139 -/ (id! "_mm_fixupimm_round_ss", id! "_mm_fixupimm_round_ss"),
  /- 32575 -/ (id! "_mm_mask_min_round_ss", id! "_mm_mask_min_round_ss"),
  /- 29715 -/ (id! "_mm_mask_div_round_ss", id! "_mm_mask_div_round_ss"),
  /- 32551 -/ (id! "_mm_mask_max_round_ss", id! "_mm_mask_max_round_ss"),
  /- 33503 -/ (id! "_mm_maskz_fixupimm_ss", id! "_mm_maskz_fixupimm_ss"),
  /- 33995 -/ (id! "_mm512_castpd256_pd512", id! "_mm512_castpd256_pd512"),
  /- 34019 -/ (id! "_mm512_zextpd256_pd512", id! "_mm512_zextpd256_pd512"),
  /- 33983 -/ (id! "_mm512_castpd128_pd512", id! "_mm512_castpd128_pd512"),
  /- 34007 -/ (id! "_mm512_zextpd128_pd512", id! "_mm512_zextpd128_pd512"),
  /- 34003 -/ (id! "_mm512_castsi256_si512", id! "_mm512_castsi256_si512"),
  /- 34027 -/ (id! "_mm512_zextsi256_si512", id! "_mm512_zextsi256_si512"),
  /- 33991 -/ (id! "_mm512_castsi128_si512", id! "_mm512_castsi128_si512"),
  /- 34015 -/ (id! "_mm512_zextsi128_si512", id! "_mm512_zextsi128_si512"),
  /- 33999 -/ (id! "_mm512_castps256_ps512", id! "_mm512_castps256_ps512"),
  /- 34023 -/ (id! "_mm512_zextps256_ps512", id! "_mm512_zextps256_ps512"),
  /- 33987 -/ (id! "_mm512_castps128_ps512", id! "_mm512_castps128_ps512"),
  /- 34011 -/ (id! "_mm512_zextps128_ps512", id! "_mm512_zextps128_ps512"),
  /- 30075 -/ (id! "_mm512_mask_set1_epi32", id! "_mm512_mask_set1_epi32"),
  /- 30511 -/ (id! "_mm512_cvtsepi64_epi32", id! "_mm512_cvtsepi64_epi32"),
  /- 29239 -/ (id! "_mm512_maskz_sra_epi32", id! "_mm512_maskz_sra_epi32"),
  /- 29083 -/ (id! "_mm512_maskz_sub_epi32", id! "_mm512_maskz_sub_epi32"),
  /- 28915 -/ (id! "_mm512_mask_load_epi32", id! "_mm512_mask_load_epi32"),
  /- 29059 -/ (id! "_mm512_maskz_add_epi32", id! "_mm512_maskz_add_epi32"),
  /- 28759 -/ (id! "_mm512_undefined_epi32", id! "_mm512_undefined_epi32"),
  /- 31291 -/ (id! "_mm512_maskz_and_epi32", id! "_mm512_maskz_and_epi32"),
  /- 29223 -/ (id! "_mm512_mask_srai_epi32", id! "_mm512_mask_srai_epi32"),
  /- 29175 -/ (id! "_mm512_mask_slli_epi32", id! "_mm512_mask_slli_epi32"),
  /- 29199 -/ (id! "_mm512_mask_srli_epi32", id! "_mm512_mask_srli_epi32"),
  /- 29191 -/ (id! "_mm512_maskz_sll_epi32", id! "_mm512_maskz_sll_epi32"),
  /- 31239 -/ (id! "_mm512_maskz_rol_epi32", id! "_mm512_maskz_rol_epi32"),
  /- 29215 -/ (id! "_mm512_maskz_srl_epi32", id! "_mm512_maskz_srl_epi32"),
  /- 29071 -/ (id! "_mm512_maskz_mul_epi32", id! "_mm512_maskz_mul_epi32"),
  /- 32491 -/ (id! "_mm512_maskz_min_epi32", id! "_mm512_maskz_min_epi32"),
  /- 32139 -/ (id! "_mm512_i32gather_epi32", id! "_mm512_i32gather_epi32"),
  /- 32155 -/ (id! "_mm512_i64gather_epi32", id! "_mm512_i64gather_epi32"),
  /- 34075 -/ (id! "_mm512_reduce_or_epi32", id! "_mm512_reduce_or_epi32"),
  /- 31251 -/ (id! "_mm512_maskz_ror_epi32", id! "_mm512_maskz_ror_epi32"),
  /- 31215 -/ (id! "_mm512_maskz_xor_epi32", id! "_mm512_maskz_xor_epi32"),
  /- 30031 -/ (id! "_mm512_maskz_abs_epi32", id! "_mm512_maskz_abs_epi32"),
  /- 28971 -/ (id! "_mm512_mask_srav_epi32", id! "_mm512_mask_srav_epi32"),
  /- 28959 -/ (id! "_mm512_mask_sllv_epi32", id! "_mm512_mask_sllv_epi32"),
  /- 30219 -/ (id! "_mm512_mask_rolv_epi32", id! "_mm512_mask_rolv_epi32"),
  /- 28983 -/ (id! "_mm512_mask_srlv_epi32", id! "_mm512_mask_srlv_epi32"),
  /- 28903 -/ (id! "_mm512_maskz_mov_epi32", id! "_mm512_maskz_mov_epi32"),
  /- 30231 -/ (id! "_mm512_mask_rorv_epi32", id! "_mm512_mask_rorv_epi32"),
  /- 32479 -/ (id! "_mm512_maskz_max_epi32", id! "_mm512_maskz_max_epi32"),
  /- 29095 -/ (id! "_mm512_maskz_mul_epu32", id! "_mm512_maskz_mul_epu32"),
  /- 32515 -/ (id! "_mm512_maskz_min_epu32", id! "_mm512_maskz_min_epu32"),
  /- 32503 -/ (id! "_mm512_maskz_max_epu32", id! "_mm512_maskz_max_epu32"),
  /- 30099 -/ (id! "_mm512_mask_set1_epi64", id! "_mm512_mask_set1_epi64"),
  /- 29167 -/ (id! "_mm512_maskz_sra_epi64", id! "_mm512_maskz_sra_epi64"),
  /- 29011 -/ (id! "_mm512_maskz_sub_epi64", id! "_mm512_maskz_sub_epi64"),
  /- 28883 -/ (id! "_mm512_mask_load_epi64", id! "_mm512_mask_load_epi64"),
  /- 28999 -/ (id! "_mm512_maskz_add_epi64", id! "_mm512_maskz_add_epi64"),
  /- 31303 -/ (id! "_mm512_maskz_and_epi64", id! "_mm512_maskz_and_epi64"),
  /- 29151 -/ (id! "_mm512_mask_srai_epi64", id! "_mm512_mask_srai_epi64"),
  /- 29103 -/ (id! "_mm512_mask_slli_epi64", id! "_mm512_mask_slli_epi64"),
  /- 29127 -/ (id! "_mm512_mask_srli_epi64", id! "_mm512_mask_srli_epi64"),
  /- 29119 -/ (id! "_mm512_maskz_sll_epi64", id! "_mm512_maskz_sll_epi64"),
  /- 31263 -/ (id! "_mm512_maskz_rol_epi64", id! "_mm512_maskz_rol_epi64"),
  /- 29143 -/ (id! "_mm512_maskz_srl_epi64", id! "_mm512_maskz_srl_epi64"),
  /- 32447 -/ (id! "_mm512_maskz_min_epi64", id! "_mm512_maskz_min_epi64"),
  /- 32147 -/ (id! "_mm512_i32gather_epi64", id! "_mm512_i32gather_epi64"),
  /- 32163 -/ (id! "_mm512_i64gather_epi64", id! "_mm512_i64gather_epi64"),
  /- 34171 -/ (id! "_mm512_reduce_or_epi64", id! "_mm512_reduce_or_epi64"),
  /- 31275 -/ (id! "_mm512_maskz_ror_epi64", id! "_mm512_maskz_ror_epi64"),
  /- 31227 -/ (id! "_mm512_maskz_xor_epi64", id! "_mm512_maskz_xor_epi64"),
  /- 30019 -/ (id! "_mm512_maskz_abs_epi64", id! "_mm512_maskz_abs_epi64"),
  /- 29031 -/ (id! "_mm512_mask_srav_epi64", id! "_mm512_mask_srav_epi64"),
  /- 29019 -/ (id! "_mm512_mask_sllv_epi64", id! "_mm512_mask_sllv_epi64"),
  /- 30243 -/ (id! "_mm512_mask_rolv_epi64", id! "_mm512_mask_rolv_epi64"),
  /- 29043 -/ (id! "_mm512_mask_srlv_epi64", id! "_mm512_mask_srlv_epi64"),
  /- 28875 -/ (id! "_mm512_maskz_mov_epi64", id! "_mm512_maskz_mov_epi64"),
  /- 30255 -/ (id! "_mm512_mask_rorv_epi64", id! "_mm512_mask_rorv_epi64"),
  /- 32431 -/ (id! "_mm512_maskz_max_epi64", id! "_mm512_maskz_max_epi64"),
  /- 32471 -/ (id! "_mm512_maskz_min_epu64", id! "_mm512_maskz_min_epu64"),
  /- 32455 -/ (id! "_mm512_maskz_max_epu64", id! "_mm512_maskz_max_epu64"),
  /- 30107 -/ (id! "_mm512_broadcast_f32x4", id! "_mm512_broadcast_f32x4"),
  /- 30119 -/ (id! "_mm512_broadcast_i32x4", id! "_mm512_broadcast_i32x4"),
  /- 30131 -/ (id! "_mm512_broadcast_f64x4", id! "_mm512_broadcast_f64x4"),
  /- 30143 -/ (id! "_mm512_broadcast_i64x4", id! "_mm512_broadcast_i64x4"),
  /- 30463 -/ (id! "_mm512_cvtsepi32_epi16", id! "_mm512_cvtsepi32_epi16"),
  /- 30559 -/ (id! "_mm512_cvtsepi64_epi16", id! "_mm512_cvtsepi64_epi16"),
  /- 33971 -/ (id! "_mm512_castpd512_pd256", id! "_mm512_castpd512_pd256"),
  /- 33979 -/ (id! "_mm512_castsi512_si256", id! "_mm512_castsi512_si256"),
  /- 33975 -/ (id! "_mm512_castps512_ps256", id! "_mm512_castps512_ps256"),
  /- 33959 -/ (id! "_mm512_castpd512_pd128", id! "_mm512_castpd512_pd128"),
  /- 33967 -/ (id! "_mm512_castsi512_si128", id! "_mm512_castsi512_si128"),
  /- 33963 -/ (id! "_mm512_castps512_ps128", id! "_mm512_castps512_ps128"),
  /- 30431 -/ (id! "_mm512_cvtusepi32_epi8", id! "_mm512_cvtusepi32_epi8"),
  /- 30623 -/ (id! "_mm512_cvtusepi64_epi8", id! "_mm512_cvtusepi64_epi8"),
  /- 29367 -/ (id! "_mm512_mask_rsqrt14_pd", id! "_mm512_mask_rsqrt14_pd"),
  /- 30687 -/ (id! "_mm512_extractf64x4_pd", id! "_mm512_extractf64x4_pd"),
  /- 33295 -/ (id! "_mm512_mask3_fnmsub_pd", id! "_mm512_mask3_fnmsub_pd"),
  /- 33299 -/ (id! "_mm512_maskz_fnmsub_pd", id! "_mm512_maskz_fnmsub_pd"),
  /- 33263 -/ (id! "_mm512_mask3_fnmadd_pd", id! "_mm512_mask3_fnmadd_pd"),
  /- 33267 -/ (id! "_mm512_maskz_fnmadd_pd", id! "_mm512_maskz_fnmadd_pd"),
  /- 32287 -/ (id! "_mm512_maskz_expand_pd", id! "_mm512_maskz_expand_pd"),
  /- 29979 -/ (id! "_mm512_fnmsub_round_pd", id! "_mm512_fnmsub_round_pd"),
  /- 29947 -/ (id! "_mm512_fnmadd_round_pd", id! "_mm512_fnmadd_round_pd"),
  /- 29771 -/ (id! "_mm512_scalef_round_pd", id! "_mm512_scalef_round_pd"),
  /- 31711 -/ (id! "_mm512_getexp_round_pd", id! "_mm512_getexp_round_pd"),
  /- 31095 -/ (id! "_mm512_mask_shuffle_pd", id! "_mm512_mask_shuffle_pd"),
  /- 30987 -/ (id! "_mm512_mask_permute_pd", id! "_mm512_mask_permute_pd"),
  /- 33103 -/ (id! "_mm512_maskz_scalef_pd", id! "_mm512_maskz_scalef_pd"),
  /- 31531 -/ (id! "_mm512_mask_movedup_pd", id! "_mm512_mask_movedup_pd"),
  /- 33647 -/ (id! "_mm512_maskz_getexp_pd", id! "_mm512_maskz_getexp_pd"),
  /- 30951 -/ (id! "_mm512_permutex2var_pd", id! "_mm512_permutex2var_pd"),
  /- 33679 -/ (id! "_mm512_mask_getmant_pd", id! "_mm512_mask_getmant_pd"),
  /- 29275 -/ (id! "_mm_maskz_sub_round_sd", id! "_mm_maskz_sub_round_sd"),
  /- 29251 -/ (id! "_mm_maskz_add_round_sd", id! "_mm_maskz_add_round_sd"),
  /- 29683 -/ (id! "_mm_maskz_mul_round_sd", id! "_mm_maskz_mul_round_sd"),
  /- 32567 -/ (id! "_mm_maskz_min_round_sd", id! "_mm_maskz_min_round_sd"),
  /- 29439 -/ (id! "_mm_mask_sqrt_round_sd", id! "_mm_mask_sqrt_round_sd"),
  /- 29707 -/ (id! "_mm_maskz_div_round_sd", id! "_mm_maskz_div_round_sd"),
  /- 32543 -/ (id! "_mm_maskz_max_round_sd", id! "_mm_maskz_max_round_sd"),
  /- 33763 -/ (id! "_mm_mask_roundscale_sd", id! "_mm_mask_roundscale_sd"),
  /- 31335 -/ (id! "_mm512_test_epi32_mask", id! "_mm512_test_epi32_mask"),
  /- 31343 -/ (id! "_mm512_test_epi64_mask", id! "_mm512_test_epi64_mask"),
  /- 29379 -/ (id! "_mm512_mask_rsqrt14_ps", id! "_mm512_mask_rsqrt14_ps"),
  /- 30699 -/ (id! "_mm512_extractf32x4_ps", id! "_mm512_extractf32x4_ps"),
  /- 33311 -/ (id! "_mm512_mask3_fnmsub_ps", id! "_mm512_mask3_fnmsub_ps"),
  /- 33315 -/ (id! "_mm512_maskz_fnmsub_ps", id! "_mm512_maskz_fnmsub_ps"),
  /- 33279 -/ (id! "_mm512_mask3_fnmadd_ps", id! "_mm512_mask3_fnmadd_ps"),
  /- 33283 -/ (id! "_mm512_maskz_fnmadd_ps", id! "_mm512_maskz_fnmadd_ps"),
  /- 32303 -/ (id! "_mm512_maskz_expand_ps", id! "_mm512_maskz_expand_ps"),
  /- 29995 -/ (id! "_mm512_fnmsub_round_ps", id! "_mm512_fnmsub_round_ps"),
  /- 29963 -/ (id! "_mm512_fnmadd_round_ps", id! "_mm512_fnmadd_round_ps"),
  /- 29783 -/ (id! "_mm512_scalef_round_ps", id! "_mm512_scalef_round_ps"),
  /- 31699 -/ (id! "_mm512_getexp_round_ps", id! "_mm512_getexp_round_ps"),
  /- 31083 -/ (id! "_mm512_mask_shuffle_ps", id! "_mm512_mask_shuffle_ps"),
  /- 30999 -/ (id! "_mm512_mask_permute_ps", id! "_mm512_mask_permute_ps"),
  /- 33115 -/ (id! "_mm512_maskz_scalef_ps", id! "_mm512_maskz_scalef_ps"),
  /- 33635 -/ (id! "_mm512_maskz_getexp_ps", id! "_mm512_maskz_getexp_ps"),
  /- 30967 -/ (id! "_mm512_permutex2var_ps", id! "_mm512_permutex2var_ps"),
  /- 33691 -/ (id! "_mm512_mask_getmant_ps", id! "_mm512_mask_getmant_ps"),
  /- 29287 -/ (id! "_mm_maskz_sub_round_ss", id! "_mm_maskz_sub_round_ss"),
  /- 29263 -/ (id! "_mm_maskz_add_round_ss", id! "_mm_maskz_add_round_ss"),
  /- 29695 -/ (id! "_mm_maskz_mul_round_ss", id! "_mm_maskz_mul_round_ss"),
  /- 32579 -/ (id! "_mm_maskz_min_round_ss", id! "_mm_maskz_min_round_ss"),
  /- 29451 -/ (id! "_mm_mask_sqrt_round_ss", id! "_mm_mask_sqrt_round_ss"),
  /- 29719 -/ (id! "_mm_maskz_div_round_ss", id! "_mm_maskz_div_round_ss"),
  /- 32555 -/ (id! "_mm_maskz_max_round_ss", id! "_mm_maskz_max_round_ss"),
  /- 33751 -/ (id! "_mm_mask_roundscale_ss", id! "_mm_mask_roundscale_ss"),
  /- 30079 -/ (id! "_mm512_maskz_set1_epi32", id! "_mm512_maskz_set1_epi32"),
  /- 30527 -/ (id! "_mm512_cvtusepi64_epi32", id! "_mm512_cvtusepi64_epi32"),
  /- 28919 -/ (id! "_mm512_maskz_load_epi32", id! "_mm512_maskz_load_epi32"),
  /- 34063 -/ (id! "_mm512_reduce_add_epi32", id! "_mm512_reduce_add_epi32"),
  /- 34071 -/ (id! "_mm512_reduce_and_epi32", id! "_mm512_reduce_and_epi32"),
  /- 32595 -/ (id! "_mm512_mask_blend_epi32", id! "_mm512_mask_blend_epi32"),
  /- 33347 -/ (id! "_mm512_mask_cvtpd_epi32", id! "_mm512_mask_cvtpd_epi32"),
  /- 30059 -/ (id! "_mm512_broadcastd_epi32", id! "_mm512_broadcastd_epi32"),
  /- 28931 -/ (id! "_mm512_mask_store_epi32", id! "_mm512_mask_store_epi32"),
  /- 29227 -/ (id! "_mm512_maskz_srai_epi32", id! "_mm512_maskz_srai_epi32"),
  /- 29179 -/ (id! "_mm512_maskz_slli_epi32", id! "_mm512_maskz_slli_epi32"),
  /- 29203 -/ (id! "_mm512_maskz_srli_epi32", id! "_mm512_maskz_srli_epi32"),
  /- 34067 -/ (id! "_mm512_reduce_mul_epi32", id! "_mm512_reduce_mul_epi32"),
  /- 34095 -/ (id! "_mm512_reduce_min_epi32", id! "_mm512_reduce_min_epi32"),
  /- 28943 -/ (id! "_mm512_mask_mullo_epi32", id! "_mm512_mask_mullo_epi32"),
  /- 32203 -/ (id! "_mm512_i32scatter_epi32", id! "_mm512_i32scatter_epi32"),
  /- 32219 -/ (id! "_mm512_i64scatter_epi32", id! "_mm512_i64scatter_epi32"),
  /- 33395 -/ (id! "_mm512_mask_cvtps_epi32", id! "_mm512_mask_cvtps_epi32"),
  /- 30875 -/ (id! "_mm512_mask_loadu_epi32", id! "_mm512_mask_loadu_epi32"),
  /- 28975 -/ (id! "_mm512_maskz_srav_epi32", id! "_mm512_maskz_srav_epi32"),
  /- 28963 -/ (id! "_mm512_maskz_sllv_epi32", id! "_mm512_maskz_sllv_epi32"),
  /- 30223 -/ (id! "_mm512_maskz_rolv_epi32", id! "_mm512_maskz_rolv_epi32"),
  /- 28987 -/ (id! "_mm512_maskz_srlv_epi32", id! "_mm512_maskz_srlv_epi32"),
  /- 30235 -/ (id! "_mm512_maskz_rorv_epi32", id! "_mm512_maskz_rorv_epi32"),
  /- 34099 -/ (id! "_mm512_reduce_max_epi32", id! "_mm512_reduce_max_epi32"),
  /- 33359 -/ (id! "_mm512_mask_cvtpd_epu32", id! "_mm512_mask_cvtpd_epu32"),
  /- 34103 -/ (id! "_mm512_reduce_min_epu32", id! "_mm512_reduce_min_epu32"),
  /- 33407 -/ (id! "_mm512_mask_cvtps_epu32", id! "_mm512_mask_cvtps_epu32"),
  /- 34107 -/ (id! "_mm512_reduce_max_epu32", id! "_mm512_reduce_max_epu32"),
  /- 30103 -/ (id! "_mm512_maskz_set1_epi64", id! "_mm512_maskz_set1_epi64"),
  /- 28887 -/ (id! "_mm512_maskz_load_epi64", id! "_mm512_maskz_load_epi64"),
  /- 34159 -/ (id! "_mm512_reduce_add_epi64", id! "_mm512_reduce_add_epi64"),
  /- 34167 -/ (id! "_mm512_reduce_and_epi64", id! "_mm512_reduce_and_epi64"),
  /- 32591 -/ (id! "_mm512_mask_blend_epi64", id! "_mm512_mask_blend_epi64"),
  /- 28895 -/ (id! "_mm512_mask_store_epi64", id! "_mm512_mask_store_epi64"),
  /- 29155 -/ (id! "_mm512_maskz_srai_epi64", id! "_mm512_maskz_srai_epi64"),
  /- 29107 -/ (id! "_mm512_maskz_slli_epi64", id! "_mm512_maskz_slli_epi64"),
  /- 29131 -/ (id! "_mm512_maskz_srli_epi64", id! "_mm512_maskz_srli_epi64"),
  /- 34163 -/ (id! "_mm512_reduce_mul_epi64", id! "_mm512_reduce_mul_epi64"),
  /- 34191 -/ (id! "_mm512_reduce_min_epi64", id! "_mm512_reduce_min_epi64"),
  /- 30083 -/ (id! "_mm512_broadcastq_epi64", id! "_mm512_broadcastq_epi64"),
  /- 32211 -/ (id! "_mm512_i32scatter_epi64", id! "_mm512_i32scatter_epi64"),
  /- 32227 -/ (id! "_mm512_i64scatter_epi64", id! "_mm512_i64scatter_epi64"),
  /- 30851 -/ (id! "_mm512_mask_loadu_epi64", id! "_mm512_mask_loadu_epi64"),
  /- 29035 -/ (id! "_mm512_maskz_srav_epi64", id! "_mm512_maskz_srav_epi64"),
  /- 29023 -/ (id! "_mm512_maskz_sllv_epi64", id! "_mm512_maskz_sllv_epi64"),
  /- 30247 -/ (id! "_mm512_maskz_rolv_epi64", id! "_mm512_maskz_rolv_epi64"),
  /- 29047 -/ (id! "_mm512_maskz_srlv_epi64", id! "_mm512_maskz_srlv_epi64"),
  /- 30259 -/ (id! "_mm512_maskz_rorv_epi64", id! "_mm512_maskz_rorv_epi64"),
  /- 34195 -/ (id! "_mm512_reduce_max_epi64", id! "_mm512_reduce_max_epi64"),
  /- 34207 -/ (id! "_mm512_reduce_min_epu64", id! "_mm512_reduce_min_epu64"),
  /- 34211 -/ (id! "_mm512_reduce_max_epu64", id! "_mm512_reduce_max_epu64"),
  /- 32423 -/ (id! "_mm512_mask_insertf32x4", id! "_mm512_mask_insertf32x4"),
  /- 32419 -/ (id! "_mm512_mask_inserti32x4", id! "_mm512_mask_inserti32x4"),
  /- 30759 -/ (id! "_mm512_mask_insertf64x4", id! "_mm512_mask_insertf64x4"),
  /- 30747 -/ (id! "_mm512_mask_inserti64x4", id! "_mm512_mask_inserti64x4"),
  /- 30479 -/ (id! "_mm512_cvtusepi32_epi16", id! "_mm512_cvtusepi32_epi16"),
  /- 30575 -/ (id! "_mm512_cvtusepi64_epi16", id! "_mm512_cvtusepi64_epi16"),
  /- 30643 -/ (id! "_mm512_mask_cvtepi32_pd", id! "_mm512_mask_cvtepi32_pd"),
  /- 30655 -/ (id! "_mm512_mask_cvtepu32_pd", id! "_mm512_mask_cvtepu32_pd"),
  /- 29371 -/ (id! "_mm512_maskz_rsqrt14_pd", id! "_mm512_maskz_rsqrt14_pd"),
  /- 33195 -/ (id! "_mm512_mask_fmaddsub_pd", id! "_mm512_mask_fmaddsub_pd"),
  /- 33227 -/ (id! "_mm512_mask_fmsubadd_pd", id! "_mm512_mask_fmsubadd_pd"),
  /- 31723 -/ (id! "_mm512_getmant_round_pd", id! "_mm512_getmant_round_pd"),
  /- 31099 -/ (id! "_mm512_maskz_shuffle_pd", id! "_mm512_maskz_shuffle_pd"),
  /- 30991 -/ (id! "_mm512_maskz_permute_pd", id! "_mm512_maskz_permute_pd"),
  /- 31555 -/ (id! "_mm512_mask_unpackhi_pd", id! "_mm512_mask_unpackhi_pd"),
  /- 33463 -/ (id! "_mm512_mask_fixupimm_pd", id! "_mm512_mask_fixupimm_pd"),
  /- 31543 -/ (id! "_mm512_mask_unpacklo_pd", id! "_mm512_mask_unpacklo_pd"),
  /- 31535 -/ (id! "_mm512_maskz_movedup_pd", id! "_mm512_maskz_movedup_pd"),
  /- 32235 -/ (id! "_mm512_mask_compress_pd", id! "_mm512_mask_compress_pd"),
  /- 33683 -/ (id! "_mm512_maskz_getmant_pd", id! "_mm512_maskz_getmant_pd"),
  /- 31023 -/ (id! "_mm512_mask_permutex_pd", id! "_mm512_mask_permutex_pd"),
  /- 32751 -/ (id! "_mm_mask_fmsub_round_sd", id! "_mm_mask_fmsub_round_sd"),
  /- 32727 -/ (id! "_mm_mask_fmadd_round_sd", id! "_mm_mask_fmadd_round_sd"),
  /- 31807 -/ (id! "_mm_roundscale_round_sd", id! "_mm_roundscale_round_sd"),
  /- 29443 -/ (id! "_mm_maskz_sqrt_round_sd", id! "_mm_maskz_sqrt_round_sd"),
  /- 33767 -/ (id! "_mm_maskz_roundscale_sd", id! "_mm_maskz_roundscale_sd"),
  /- 31651 -/ (id! "_mm_mask_cvt_roundss_sd", id! "_mm_mask_cvt_roundss_sd"),
  /- 31907 -/ (id! "_mm512_cmpge_epi32_mask", id! "_mm512_cmpge_epi32_mask"),
  /- 31943 -/ (id! "_mm512_cmple_epi32_mask", id! "_mm512_cmple_epi32_mask"),
  /- 31351 -/ (id! "_mm512_testn_epi32_mask", id! "_mm512_testn_epi32_mask"),
  /- 31875 -/ (id! "_mm512_cmpeq_epi32_mask", id! "_mm512_cmpeq_epi32_mask"),
  /- 31891 -/ (id! "_mm512_cmpgt_epi32_mask", id! "_mm512_cmpgt_epi32_mask"),
  /- 31975 -/ (id! "_mm512_cmplt_epi32_mask", id! "_mm512_cmplt_epi32_mask"),
  /- 31919 -/ (id! "_mm512_cmpge_epu32_mask", id! "_mm512_cmpge_epu32_mask"),
  /- 31951 -/ (id! "_mm512_cmple_epu32_mask", id! "_mm512_cmple_epu32_mask"),
  /- 34031 -/ (id! "_mm512_cmpeq_epu32_mask", id! "_mm512_cmpeq_epu32_mask"),
  /- 34047 -/ (id! "_mm512_cmpgt_epu32_mask", id! "_mm512_cmpgt_epu32_mask"),
  /- 31983 -/ (id! "_mm512_cmplt_epu32_mask", id! "_mm512_cmplt_epu32_mask"),
  /- 31927 -/ (id! "_mm512_cmpge_epi64_mask", id! "_mm512_cmpge_epi64_mask"),
  /- 31959 -/ (id! "_mm512_cmple_epi64_mask", id! "_mm512_cmple_epi64_mask"),
  /- 31359 -/ (id! "_mm512_testn_epi64_mask", id! "_mm512_testn_epi64_mask"),
  /- 31887 -/ (id! "_mm512_cmpeq_epi64_mask", id! "_mm512_cmpeq_epi64_mask"),
  /- 31903 -/ (id! "_mm512_cmpgt_epi64_mask", id! "_mm512_cmpgt_epi64_mask"),
  /- 31991 -/ (id! "_mm512_cmplt_epi64_mask", id! "_mm512_cmplt_epi64_mask"),
  /- 31935 -/ (id! "_mm512_cmpge_epu64_mask", id! "_mm512_cmpge_epu64_mask"),
  /- 31967 -/ (id! "_mm512_cmple_epu64_mask", id! "_mm512_cmple_epu64_mask"),
  /- 34043 -/ (id! "_mm512_cmpeq_epu64_mask", id! "_mm512_cmpeq_epu64_mask"),
  /- 34059 -/ (id! "_mm512_cmpgt_epu64_mask", id! "_mm512_cmpgt_epu64_mask"),
  /- 31999 -/ (id! "_mm512_cmplt_epu64_mask", id! "_mm512_cmplt_epu64_mask"),
  /- 33827 -/ (id! "_mm512_cmpunord_pd_mask", id! "_mm512_cmpunord_pd_mask"),
  /- 33783 -/ (id! "_mm512_mask_cmp_pd_mask", id! "_mm512_mask_cmp_pd_mask"),
  /- 33891 -/ (id! "_mm512_cmpunord_ps_mask", id! "_mm512_cmpunord_ps_mask"),
  /- 33779 -/ (id! "_mm512_mask_cmp_ps_mask", id! "_mm512_mask_cmp_ps_mask"),
  /- 33439 -/ (id! "_mm512_mask_cvtepi32_ps", id! "_mm512_mask_cvtepi32_ps"),
  /- 33451 -/ (id! "_mm512_mask_cvtepu32_ps", id! "_mm512_mask_cvtepu32_ps"),
  /- 29383 -/ (id! "_mm512_maskz_rsqrt14_ps", id! "_mm512_maskz_rsqrt14_ps"),
  /- 33211 -/ (id! "_mm512_mask_fmaddsub_ps", id! "_mm512_mask_fmaddsub_ps"),
  /- 33243 -/ (id! "_mm512_mask_fmsubadd_ps", id! "_mm512_mask_fmsubadd_ps"),
  /- 31735 -/ (id! "_mm512_getmant_round_ps", id! "_mm512_getmant_round_ps"),
  /- 31087 -/ (id! "_mm512_maskz_shuffle_ps", id! "_mm512_maskz_shuffle_ps"),
  /- 31003 -/ (id! "_mm512_maskz_permute_ps", id! "_mm512_maskz_permute_ps"),
  /- 31567 -/ (id! "_mm512_mask_unpackhi_ps", id! "_mm512_mask_unpackhi_ps"),
  /- 33475 -/ (id! "_mm512_mask_fixupimm_ps", id! "_mm512_mask_fixupimm_ps"),
  /- 32527 -/ (id! "_mm512_mask_unpacklo_ps", id! "_mm512_mask_unpacklo_ps"),
  /- 31155 -/ (id! "_mm512_mask_movehdup_ps", id! "_mm512_mask_movehdup_ps"),
  /- 31167 -/ (id! "_mm512_mask_moveldup_ps", id! "_mm512_mask_moveldup_ps"),
  /- 32247 -/ (id! "_mm512_mask_compress_ps", id! "_mm512_mask_compress_ps"),
  /- 33695 -/ (id! "_mm512_maskz_getmant_ps", id! "_mm512_maskz_getmant_ps"),
  /- 32755 -/ (id! "_mm_mask_fmsub_round_ss", id! "_mm_mask_fmsub_round_ss"),
  /- 32731 -/ (id! "_mm_mask_fmadd_round_ss", id! "_mm_mask_fmadd_round_ss"),
  /- 31795 -/ (id! "_mm_roundscale_round_ss", id! "_mm_roundscale_round_ss"),
  /- 29455 -/ (id! "_mm_maskz_sqrt_round_ss", id! "_mm_maskz_sqrt_round_ss"),
  /- 31639 -/ (id! "_mm_mask_cvt_roundsd_ss", id! "_mm_mask_cvt_roundsd_ss"),
  /- 33755 -/ (id! "_mm_maskz_roundscale_ss", id! "_mm_maskz_roundscale_ss"),
  /- 31671 -/ (id! "_mm512_stream_load_si512", id! "_mm512_stream_load_si512"),
  /- 32331 -/ (id! "_mm512_mask_expand_epi32", id! "_mm512_mask_expand_epi32"),
  /- 30287 -/ (id! "_mm512_cvt_roundpd_epi32", id! "_mm512_cvt_roundpd_epi32"),
  /- 33323 -/ (id! "_mm512_mask_cvttpd_epi32", id! "_mm512_mask_cvttpd_epi32"),
  /- 33351 -/ (id! "_mm512_maskz_cvtpd_epi32", id! "_mm512_maskz_cvtpd_epi32"),
  /- 28939 -/ (id! "_mm512_maskz_mullo_epi32", id! "_mm512_maskz_mullo_epi32"),
  /- 31047 -/ (id! "_mm512_permutexvar_epi32", id! "_mm512_permutexvar_epi32"),
  /- 31855 -/ (id! "_mm512_mask_alignr_epi32", id! "_mm512_mask_alignr_epi32"),
  /- 30335 -/ (id! "_mm512_cvt_roundps_epi32", id! "_mm512_cvt_roundps_epi32"),
  /- 33371 -/ (id! "_mm512_mask_cvttps_epi32", id! "_mm512_mask_cvttps_epi32"),
  /- 33399 -/ (id! "_mm512_maskz_cvtps_epi32", id! "_mm512_maskz_cvtps_epi32"),
  /- 31315 -/ (id! "_mm512_mask_andnot_epi32", id! "_mm512_mask_andnot_epi32"),
  /- 30879 -/ (id! "_mm512_maskz_loadu_epi32", id! "_mm512_maskz_loadu_epi32"),
  /- 30891 -/ (id! "_mm512_mask_storeu_epi32", id! "_mm512_mask_storeu_epi32"),
  /- 30299 -/ (id! "_mm512_cvt_roundpd_epu32", id! "_mm512_cvt_roundpd_epu32"),
  /- 33335 -/ (id! "_mm512_mask_cvttpd_epu32", id! "_mm512_mask_cvttpd_epu32"),
  /- 33363 -/ (id! "_mm512_maskz_cvtpd_epu32", id! "_mm512_maskz_cvtpd_epu32"),
  /- 30347 -/ (id! "_mm512_cvt_roundps_epu32", id! "_mm512_cvt_roundps_epu32"),
  /- 33383 -/ (id! "_mm512_mask_cvttps_epu32", id! "_mm512_mask_cvttps_epu32"),
  /- 33411 -/ (id! "_mm512_maskz_cvtps_epu32", id! "_mm512_maskz_cvtps_epu32"),
  /- 32315 -/ (id! "_mm512_mask_expand_epi64", id! "_mm512_mask_expand_epi64"),
  /- 31035 -/ (id! "_mm512_permutexvar_epi64", id! "_mm512_permutexvar_epi64"),
  /- 31867 -/ (id! "_mm512_mask_alignr_epi64", id! "_mm512_mask_alignr_epi64"),
  /- 31327 -/ (id! "_mm512_mask_andnot_epi64", id! "_mm512_mask_andnot_epi64"),
  /- 30855 -/ (id! "_mm512_maskz_loadu_epi64", id! "_mm512_maskz_loadu_epi64"),
  /- 30863 -/ (id! "_mm512_mask_storeu_epi64", id! "_mm512_mask_storeu_epi64"),
  /- 28951 -/ (id! "_mm512_mask_mullox_epi64", id! "_mm512_mask_mullox_epi64"),
  /- 32415 -/ (id! "_mm512_maskz_insertf32x4", id! "_mm512_maskz_insertf32x4"),
  /- 32411 -/ (id! "_mm512_maskz_inserti32x4", id! "_mm512_maskz_inserti32x4"),
  /- 30763 -/ (id! "_mm512_maskz_insertf64x4", id! "_mm512_maskz_insertf64x4"),
  /- 30751 -/ (id! "_mm512_maskz_inserti64x4", id! "_mm512_maskz_inserti64x4"),
  /- 30647 -/ (id! "_mm512_maskz_cvtepi32_pd", id! "_mm512_maskz_cvtepi32_pd"),
  /- 30659 -/ (id! "_mm512_maskz_cvtepu32_pd", id! "_mm512_maskz_cvtepu32_pd"),
  /- 33199 -/ (id! "_mm512_mask3_fmaddsub_pd", id! "_mm512_mask3_fmaddsub_pd"),
  /- 33203 -/ (id! "_mm512_maskz_fmaddsub_pd", id! "_mm512_maskz_fmaddsub_pd"),
  /- 33231 -/ (id! "_mm512_mask3_fmsubadd_pd", id! "_mm512_mask3_fmsubadd_pd"),
  /- 33235 -/ (id! "_mm512_maskz_fmsubadd_pd", id! "_mm512_maskz_fmsubadd_pd"),
  /- 29607 -/ (id! "_mm512_mask_sub_round_pd", id! "_mm512_mask_sub_round_pd"),
  /- 29883 -/ (id! "_mm512_fmaddsub_round_pd", id! "_mm512_fmaddsub_round_pd"),
  /- 29583 -/ (id! "_mm512_mask_add_round_pd", id! "_mm512_mask_add_round_pd"),
  /- 29915 -/ (id! "_mm512_fmsubadd_round_pd", id! "_mm512_fmsubadd_round_pd"),
  /- 29631 -/ (id! "_mm512_mask_mul_round_pd", id! "_mm512_mask_mul_round_pd"),
  /- 31103 -/ (id! "_mm512_fixupimm_round_pd", id! "_mm512_fixupimm_round_pd"),
  /- 29751 -/ (id! "_mm512_mask_min_round_pd", id! "_mm512_mask_min_round_pd"),
  /- 29655 -/ (id! "_mm512_mask_div_round_pd", id! "_mm512_mask_div_round_pd"),
  /- 29727 -/ (id! "_mm512_mask_max_round_pd", id! "_mm512_mask_max_round_pd"),
  /- 31559 -/ (id! "_mm512_maskz_unpackhi_pd", id! "_mm512_maskz_unpackhi_pd"),
  /- 33467 -/ (id! "_mm512_maskz_fixupimm_pd", id! "_mm512_maskz_fixupimm_pd"),
  /- 31547 -/ (id! "_mm512_maskz_unpacklo_pd", id! "_mm512_maskz_unpacklo_pd"),
  /- 32119 -/ (id! "_mm512_mask_i32gather_pd", id! "_mm512_mask_i32gather_pd"),
  /- 32135 -/ (id! "_mm512_mask_i64gather_pd", id! "_mm512_mask_i64gather_pd"),
  /- 32239 -/ (id! "_mm512_maskz_compress_pd", id! "_mm512_maskz_compress_pd"),
  /- 31027 -/ (id! "_mm512_maskz_permutex_pd", id! "_mm512_maskz_permutex_pd"),
  /- 32759 -/ (id! "_mm_mask3_fmsub_round_sd", id! "_mm_mask3_fmsub_round_sd"),
  /- 32767 -/ (id! "_mm_maskz_fmsub_round_sd", id! "_mm_maskz_fmsub_round_sd"),
  /- 32799 -/ (id! "_mm_mask_fnmsub_round_sd", id! "_mm_mask_fnmsub_round_sd"),
  /- 32735 -/ (id! "_mm_mask3_fmadd_round_sd", id! "_mm_mask3_fmadd_round_sd"),
  /- 32743 -/ (id! "_mm_maskz_fmadd_round_sd", id! "_mm_maskz_fmadd_round_sd"),
  /- 32775 -/ (id! "_mm_mask_fnmadd_round_sd", id! "_mm_mask_fnmadd_round_sd"),
  /- 29799 -/ (id! "_mm_mask_scalef_round_sd", id! "_mm_mask_scalef_round_sd"),
  /- 31691 -/ (id! "_mm_mask_getexp_round_sd", id! "_mm_mask_getexp_round_sd"),
  /- 31655 -/ (id! "_mm_maskz_cvt_roundss_sd", id! "_mm_maskz_cvt_roundss_sd"),
  /- 32003 -/ (id! "_mm512_cmpneq_epi32_mask", id! "_mm512_cmpneq_epi32_mask"),
  /- 32015 -/ (id! "_mm512_cmpneq_epu32_mask", id! "_mm512_cmpneq_epu32_mask"),
  /- 32023 -/ (id! "_mm512_cmpneq_epi64_mask", id! "_mm512_cmpneq_epi64_mask"),
  /- 32031 -/ (id! "_mm512_cmpneq_epu64_mask", id! "_mm512_cmpneq_epu64_mask"),
  /- 32059 -/ (id! "_mm512_cmp_round_pd_mask", id! "_mm512_cmp_round_pd_mask"),
  /- 32063 -/ (id! "_mm512_cmp_round_ps_mask", id! "_mm512_cmp_round_ps_mask"),
  /- 30663 -/ (id! "_mm512_cvt_roundepi32_ps", id! "_mm512_cvt_roundepi32_ps"),
  /- 33443 -/ (id! "_mm512_maskz_cvtepi32_ps", id! "_mm512_maskz_cvtepi32_ps"),
  /- 30675 -/ (id! "_mm512_cvt_roundepu32_ps", id! "_mm512_cvt_roundepu32_ps"),
  /- 33455 -/ (id! "_mm512_maskz_cvtepu32_ps", id! "_mm512_maskz_cvtepu32_ps"),
  /- 33215 -/ (id! "_mm512_mask3_fmaddsub_ps", id! "_mm512_mask3_fmaddsub_ps"),
  /- 33219 -/ (id! "_mm512_maskz_fmaddsub_ps", id! "_mm512_maskz_fmaddsub_ps"),
  /- 33247 -/ (id! "_mm512_mask3_fmsubadd_ps", id! "_mm512_mask3_fmsubadd_ps"),
  /- 33251 -/ (id! "_mm512_maskz_fmsubadd_ps", id! "_mm512_maskz_fmsubadd_ps"),
  /- 29619 -/ (id! "_mm512_mask_sub_round_ps", id! "_mm512_mask_sub_round_ps"),
  /- 29899 -/ (id! "_mm512_fmaddsub_round_ps", id! "_mm512_fmaddsub_round_ps"),
  /- 29595 -/ (id! "_mm512_mask_add_round_ps", id! "_mm512_mask_add_round_ps"),
  /- 29931 -/ (id! "_mm512_fmsubadd_round_ps", id! "_mm512_fmsubadd_round_ps"),
  /- 29643 -/ (id! "_mm512_mask_mul_round_ps", id! "_mm512_mask_mul_round_ps"),
  /- 31115 -/ (id! "_mm512_fixupimm_round_ps", id! "_mm512_fixupimm_round_ps"),
  /- 29763 -/ (id! "_mm512_mask_min_round_ps", id! "_mm512_mask_min_round_ps"),
  /- 29667 -/ (id! "_mm512_mask_div_round_ps", id! "_mm512_mask_div_round_ps"),
  /- 29739 -/ (id! "_mm512_mask_max_round_ps", id! "_mm512_mask_max_round_ps"),
  /- 31571 -/ (id! "_mm512_maskz_unpackhi_ps", id! "_mm512_maskz_unpackhi_ps"),
  /- 33479 -/ (id! "_mm512_maskz_fixupimm_ps", id! "_mm512_maskz_fixupimm_ps"),
  /- 32531 -/ (id! "_mm512_maskz_unpacklo_ps", id! "_mm512_maskz_unpacklo_ps"),
  /- 31159 -/ (id! "_mm512_maskz_movehdup_ps", id! "_mm512_maskz_movehdup_ps"),
  /- 31171 -/ (id! "_mm512_maskz_moveldup_ps", id! "_mm512_maskz_moveldup_ps"),
  /- 32111 -/ (id! "_mm512_mask_i32gather_ps", id! "_mm512_mask_i32gather_ps"),
  /- 32127 -/ (id! "_mm512_mask_i64gather_ps", id! "_mm512_mask_i64gather_ps"),
  /- 32251 -/ (id! "_mm512_maskz_compress_ps", id! "_mm512_maskz_compress_ps"),
  /- 32763 -/ (id! "_mm_mask3_fmsub_round_ss", id! "_mm_mask3_fmsub_round_ss"),
  /- 32771 -/ (id! "_mm_maskz_fmsub_round_ss", id! "_mm_maskz_fmsub_round_ss"),
  /- 32803 -/ (id! "_mm_mask_fnmsub_round_ss", id! "_mm_mask_fnmsub_round_ss"),
  /- 32739 -/ (id! "_mm_mask3_fmadd_round_ss", id! "_mm_mask3_fmadd_round_ss"),
  /- 32747 -/ (id! "_mm_maskz_fmadd_round_ss", id! "_mm_maskz_fmadd_round_ss"),
  /- 32779 -/ (id! "_mm_mask_fnmadd_round_ss", id! "_mm_mask_fnmadd_round_ss"),
  /- 29811 -/ (id! "_mm_mask_scalef_round_ss", id! "_mm_mask_scalef_round_ss"),
  /- 31679 -/ (id! "_mm_mask_getexp_round_ss", id! "_mm_mask_getexp_round_ss"),
  /- 31643 -/ (id! "_mm_maskz_cvt_roundsd_ss", id! "_mm_maskz_cvt_roundsd_ss"),
  /- 30723 -/ (id! "_mm512_extracti32x4_epi32", id! "_mm512_extracti32x4_epi32"),
  /- 29463 -/ (id! "_mm512_mask_cvtepi8_epi32", id! "_mm512_mask_cvtepi8_epi32"),
  /- 29523 -/ (id! "_mm512_mask_cvtepu8_epi32", id! "_mm512_mask_cvtepu8_epi32"),
  /- 29303 -/ (id! "_mm512_ternarylogic_epi32", id! "_mm512_ternarylogic_epi32"),
  /- 32335 -/ (id! "_mm512_maskz_expand_epi32", id! "_mm512_maskz_expand_epi32"),
  /- 30263 -/ (id! "_mm512_cvtt_roundpd_epi32", id! "_mm512_cvtt_roundpd_epi32"),
  /- 33327 -/ (id! "_mm512_maskz_cvttpd_epi32", id! "_mm512_maskz_cvttpd_epi32"),
  /- 30159 -/ (id! "_mm512_mask_shuffle_epi32", id! "_mm512_mask_shuffle_epi32"),
  /- 30935 -/ (id! "_mm512_permutex2var_epi32", id! "_mm512_permutex2var_epi32"),
  /- 31859 -/ (id! "_mm512_maskz_alignr_epi32", id! "_mm512_maskz_alignr_epi32"),
  /- 30311 -/ (id! "_mm512_cvtt_roundps_epi32", id! "_mm512_cvtt_roundps_epi32"),
  /- 33375 -/ (id! "_mm512_maskz_cvttps_epi32", id! "_mm512_maskz_cvttps_epi32"),
  /- 31319 -/ (id! "_mm512_maskz_andnot_epi32", id! "_mm512_maskz_andnot_epi32"),
  /- 30275 -/ (id! "_mm512_cvtt_roundpd_epu32", id! "_mm512_cvtt_roundpd_epu32"),
  /- 33339 -/ (id! "_mm512_maskz_cvttpd_epu32", id! "_mm512_maskz_cvttpd_epu32"),
  /- 30323 -/ (id! "_mm512_cvtt_roundps_epu32", id! "_mm512_cvtt_roundps_epu32"),
  /- 33387 -/ (id! "_mm512_maskz_cvttps_epu32", id! "_mm512_maskz_cvttps_epu32"),
  /- 30195 -/ (id! "_mm512_mask_shuffle_f64x2", id! "_mm512_mask_shuffle_f64x2"),
  /- 30171 -/ (id! "_mm512_mask_shuffle_i64x2", id! "_mm512_mask_shuffle_i64x2"),
  /- 30711 -/ (id! "_mm512_extracti64x4_epi64", id! "_mm512_extracti64x4_epi64"),
  /- 29475 -/ (id! "_mm512_mask_cvtepi8_epi64", id! "_mm512_mask_cvtepi8_epi64"),
  /- 29535 -/ (id! "_mm512_mask_cvtepu8_epi64", id! "_mm512_mask_cvtepu8_epi64"),
  /- 29291 -/ (id! "_mm512_ternarylogic_epi64", id! "_mm512_ternarylogic_epi64"),
  /- 32319 -/ (id! "_mm512_maskz_expand_epi64", id! "_mm512_maskz_expand_epi64"),
  /- 30919 -/ (id! "_mm512_permutex2var_epi64", id! "_mm512_permutex2var_epi64"),
  /- 31871 -/ (id! "_mm512_maskz_alignr_epi64", id! "_mm512_maskz_alignr_epi64"),
  /- 31331 -/ (id! "_mm512_maskz_andnot_epi64", id! "_mm512_maskz_andnot_epi64"),
  /- 30207 -/ (id! "_mm512_mask_shuffle_f32x4", id! "_mm512_mask_shuffle_f32x4"),
  /- 30183 -/ (id! "_mm512_mask_shuffle_i32x4", id! "_mm512_mask_shuffle_i32x4"),
  /- 30407 -/ (id! "_mm512_mask_cvtepi32_epi8", id! "_mm512_mask_cvtepi32_epi8"),
  /- 30599 -/ (id! "_mm512_mask_cvtepi64_epi8", id! "_mm512_mask_cvtepi64_epi8"),
  /- 34231 -/ (id! "_mm512_mask_reduce_add_pd", id! "_mm512_mask_reduce_add_pd"),
  /- 29611 -/ (id! "_mm512_maskz_sub_round_pd", id! "_mm512_maskz_sub_round_pd"),
  /- 29587 -/ (id! "_mm512_maskz_add_round_pd", id! "_mm512_maskz_add_round_pd"),
  /- 29635 -/ (id! "_mm512_maskz_mul_round_pd", id! "_mm512_maskz_mul_round_pd"),
  /- 29755 -/ (id! "_mm512_maskz_min_round_pd", id! "_mm512_maskz_min_round_pd"),
  /- 29415 -/ (id! "_mm512_mask_sqrt_round_pd", id! "_mm512_mask_sqrt_round_pd"),
  /- 29659 -/ (id! "_mm512_maskz_div_round_pd", id! "_mm512_maskz_div_round_pd"),
  /- 29731 -/ (id! "_mm512_maskz_max_round_pd", id! "_mm512_maskz_max_round_pd"),
  /- 33739 -/ (id! "_mm512_mask_roundscale_pd", id! "_mm512_mask_roundscale_pd"),
  /- 34235 -/ (id! "_mm512_mask_reduce_mul_pd", id! "_mm512_mask_reduce_mul_pd"),
  /- 34247 -/ (id! "_mm512_mask_reduce_min_pd", id! "_mm512_mask_reduce_min_pd"),
  /- 30899 -/ (id! "_mm512_mask_permutevar_pd", id! "_mm512_mask_permutevar_pd"),
  /- 32183 -/ (id! "_mm512_mask_i32scatter_pd", id! "_mm512_mask_i32scatter_pd"),
  /- 32199 -/ (id! "_mm512_mask_i64scatter_pd", id! "_mm512_mask_i64scatter_pd"),
  /- 32807 -/ (id! "_mm_mask3_fnmsub_round_sd", id! "_mm_mask3_fnmsub_round_sd"),
  /- 32815 -/ (id! "_mm_maskz_fnmsub_round_sd", id! "_mm_maskz_fnmsub_round_sd"),
  /- 32783 -/ (id! "_mm_mask3_fnmadd_round_sd", id! "_mm_mask3_fnmadd_round_sd"),
  /- 32791 -/ (id! "_mm_maskz_fnmadd_round_sd", id! "_mm_maskz_fnmadd_round_sd"),
  /- 29803 -/ (id! "_mm_maskz_scalef_round_sd", id! "_mm_maskz_scalef_round_sd"),
  /- 31695 -/ (id! "_mm_maskz_getexp_round_sd", id! "_mm_maskz_getexp_round_sd"),
  /- 31751 -/ (id! "_mm_mask_getmant_round_sd", id! "_mm_mask_getmant_round_sd"),
  /- 33823 -/ (id! "_mm512_mask_cmple_pd_mask", id! "_mm512_mask_cmple_pd_mask"),
  /- 33807 -/ (id! "_mm512_mask_cmpeq_pd_mask", id! "_mm512_mask_cmpeq_pd_mask"),
  /- 33815 -/ (id! "_mm512_mask_cmplt_pd_mask", id! "_mm512_mask_cmplt_pd_mask"),
  /- 33887 -/ (id! "_mm512_mask_cmple_ps_mask", id! "_mm512_mask_cmple_ps_mask"),
  /- 33871 -/ (id! "_mm512_mask_cmpeq_ps_mask", id! "_mm512_mask_cmpeq_ps_mask"),
  /- 33879 -/ (id! "_mm512_mask_cmplt_ps_mask", id! "_mm512_mask_cmplt_ps_mask"),
  /- 34135 -/ (id! "_mm512_mask_reduce_add_ps", id! "_mm512_mask_reduce_add_ps"),
  /- 29623 -/ (id! "_mm512_maskz_sub_round_ps", id! "_mm512_maskz_sub_round_ps"),
  /- 29599 -/ (id! "_mm512_maskz_add_round_ps", id! "_mm512_maskz_add_round_ps"),
  /- 29647 -/ (id! "_mm512_maskz_mul_round_ps", id! "_mm512_maskz_mul_round_ps"),
  /- 29767 -/ (id! "_mm512_maskz_min_round_ps", id! "_mm512_maskz_min_round_ps"),
  /- 29427 -/ (id! "_mm512_mask_sqrt_round_ps", id! "_mm512_mask_sqrt_round_ps"),
  /- 29671 -/ (id! "_mm512_maskz_div_round_ps", id! "_mm512_maskz_div_round_ps"),
  /- 29743 -/ (id! "_mm512_maskz_max_round_ps", id! "_mm512_maskz_max_round_ps"),
  /- 33727 -/ (id! "_mm512_mask_roundscale_ps", id! "_mm512_mask_roundscale_ps"),
  /- 34139 -/ (id! "_mm512_mask_reduce_mul_ps", id! "_mm512_mask_reduce_mul_ps"),
  /- 34151 -/ (id! "_mm512_mask_reduce_min_ps", id! "_mm512_mask_reduce_min_ps"),
  /- 30911 -/ (id! "_mm512_mask_permutevar_ps", id! "_mm512_mask_permutevar_ps"),
  /- 32175 -/ (id! "_mm512_mask_i32scatter_ps", id! "_mm512_mask_i32scatter_ps"),
  /- 32191 -/ (id! "_mm512_mask_i64scatter_ps", id! "_mm512_mask_i64scatter_ps"),
  /- 34155 -/ (id! "_mm512_mask_reduce_max_ps", id! "_mm512_mask_reduce_max_ps"),
  /- 32811 -/ (id! "_mm_mask3_fnmsub_round_ss", id! "_mm_mask3_fnmsub_round_ss"),
  /- 32819 -/ (id! "_mm_maskz_fnmsub_round_ss", id! "_mm_maskz_fnmsub_round_ss"),
  /- 32787 -/ (id! "_mm_mask3_fnmadd_round_ss", id! "_mm_mask3_fnmadd_round_ss"),
  /- 32795 -/ (id! "_mm_maskz_fnmadd_round_ss", id! "_mm_maskz_fnmadd_round_ss"),
  /- 29815 -/ (id! "_mm_maskz_scalef_round_ss", id! "_mm_maskz_scalef_round_ss"),
  /- 31683 -/ (id! "_mm_maskz_getexp_round_ss", id! "_mm_maskz_getexp_round_ss"),
  /- 31763 -/ (id! "_mm_mask_getmant_round_ss", id! "_mm_mask_getmant_round_ss"),
  /- 30503 -/ (id! "_mm512_mask_cvtepi64_epi32", id! "_mm512_mask_cvtepi64_epi32"),
  /- 29487 -/ (id! "_mm512_mask_cvtepi16_epi32", id! "_mm512_mask_cvtepi16_epi32"),
  /- 29547 -/ (id! "_mm512_mask_cvtepu16_epi32", id! "_mm512_mask_cvtepu16_epi32"),
  /- 29467 -/ (id! "_mm512_maskz_cvtepi8_epi32", id! "_mm512_maskz_cvtepi8_epi32"),
  /- 29527 -/ (id! "_mm512_maskz_cvtepu8_epi32", id! "_mm512_maskz_cvtepu8_epi32"),
  /- 30163 -/ (id! "_mm512_maskz_shuffle_epi32", id! "_mm512_maskz_shuffle_epi32"),
  /- 31387 -/ (id! "_mm512_mask_unpackhi_epi32", id! "_mm512_mask_unpackhi_epi32"),
  /- 31411 -/ (id! "_mm512_mask_unpacklo_epi32", id! "_mm512_mask_unpacklo_epi32"),
  /- 32271 -/ (id! "_mm512_mask_compress_epi32", id! "_mm512_mask_compress_epi32"),
  /- 30199 -/ (id! "_mm512_maskz_shuffle_f64x2", id! "_mm512_maskz_shuffle_f64x2"),
  /- 30175 -/ (id! "_mm512_maskz_shuffle_i64x2", id! "_mm512_maskz_shuffle_i64x2"),
  /- 29511 -/ (id! "_mm512_mask_cvtepi32_epi64", id! "_mm512_mask_cvtepi32_epi64"),
  /- 29571 -/ (id! "_mm512_mask_cvtepu32_epi64", id! "_mm512_mask_cvtepu32_epi64"),
  /- 29499 -/ (id! "_mm512_mask_cvtepi16_epi64", id! "_mm512_mask_cvtepi16_epi64"),
  /- 29559 -/ (id! "_mm512_mask_cvtepu16_epi64", id! "_mm512_mask_cvtepu16_epi64"),
  /- 29479 -/ (id! "_mm512_maskz_cvtepi8_epi64", id! "_mm512_maskz_cvtepi8_epi64"),
  /- 29539 -/ (id! "_mm512_maskz_cvtepu8_epi64", id! "_mm512_maskz_cvtepu8_epi64"),
  /- 31399 -/ (id! "_mm512_mask_unpackhi_epi64", id! "_mm512_mask_unpackhi_epi64"),
  /- 31423 -/ (id! "_mm512_mask_unpacklo_epi64", id! "_mm512_mask_unpacklo_epi64"),
  /- 32259 -/ (id! "_mm512_mask_compress_epi64", id! "_mm512_mask_compress_epi64"),
  /- 31011 -/ (id! "_mm512_mask_permutex_epi64", id! "_mm512_mask_permutex_epi64"),
  /- 30211 -/ (id! "_mm512_maskz_shuffle_f32x4", id! "_mm512_maskz_shuffle_f32x4"),
  /- 30187 -/ (id! "_mm512_maskz_shuffle_i32x4", id! "_mm512_maskz_shuffle_i32x4"),
  /- 30455 -/ (id! "_mm512_mask_cvtepi32_epi16", id! "_mm512_mask_cvtepi32_epi16"),
  /- 30551 -/ (id! "_mm512_mask_cvtepi64_epi16", id! "_mm512_mask_cvtepi64_epi16"),
  /- 30423 -/ (id! "_mm512_mask_cvtsepi32_epi8", id! "_mm512_mask_cvtsepi32_epi8"),
  /- 30411 -/ (id! "_mm512_maskz_cvtepi32_epi8", id! "_mm512_maskz_cvtepi32_epi8"),
  /- 30615 -/ (id! "_mm512_mask_cvtsepi64_epi8", id! "_mm512_mask_cvtsepi64_epi8"),
  /- 30603 -/ (id! "_mm512_maskz_cvtepi64_epi8", id! "_mm512_maskz_cvtepi64_epi8"),
  /- 29855 -/ (id! "_mm512_mask_fmsub_round_pd", id! "_mm512_mask_fmsub_round_pd"),
  /- 29823 -/ (id! "_mm512_mask_fmadd_round_pd", id! "_mm512_mask_fmadd_round_pd"),
  /- 31783 -/ (id! "_mm512_roundscale_round_pd", id! "_mm512_roundscale_round_pd"),
  /- 29419 -/ (id! "_mm512_maskz_sqrt_round_pd", id! "_mm512_maskz_sqrt_round_pd"),
  /- 30051 -/ (id! "_mm512_mask_broadcastsd_pd", id! "_mm512_mask_broadcastsd_pd"),
  /- 33743 -/ (id! "_mm512_maskz_roundscale_pd", id! "_mm512_maskz_roundscale_pd"),
  /- 30903 -/ (id! "_mm512_maskz_permutevar_pd", id! "_mm512_maskz_permutevar_pd"),
  /- 31059 -/ (id! "_mm512_mask_permutexvar_pd", id! "_mm512_mask_permutexvar_pd"),
  /- 31579 -/ (id! "_mm512_mask_cvt_roundps_pd", id! "_mm512_mask_cvt_roundps_pd"),
  /- 32291 -/ (id! "_mm512_mask_expandloadu_pd", id! "_mm512_mask_expandloadu_pd"),
  /- 31131 -/ (id! "_mm_mask_fixupimm_round_sd", id! "_mm_mask_fixupimm_round_sd"),
  /- 31755 -/ (id! "_mm_maskz_getmant_round_sd", id! "_mm_maskz_getmant_round_sd"),
  /- 31607 -/ (id! "_mm512_mask_cvt_roundps_ph", id! "_mm512_mask_cvt_roundps_ph"),
  /- 32071 -/ (id! "_mm512_mask_cmp_epi32_mask", id! "_mm512_mask_cmp_epi32_mask"),
  /- 32079 -/ (id! "_mm512_mask_cmp_epu32_mask", id! "_mm512_mask_cmp_epu32_mask"),
  /- 32067 -/ (id! "_mm512_mask_cmp_epi64_mask", id! "_mm512_mask_cmp_epi64_mask"),
  /- 32075 -/ (id! "_mm512_mask_cmp_epu64_mask", id! "_mm512_mask_cmp_epu64_mask"),
  /- 33863 -/ (id! "_mm512_mask_cmpord_pd_mask", id! "_mm512_mask_cmpord_pd_mask"),
  /- 33855 -/ (id! "_mm512_mask_cmpnle_pd_mask", id! "_mm512_mask_cmpnle_pd_mask"),
  /- 33839 -/ (id! "_mm512_mask_cmpneq_pd_mask", id! "_mm512_mask_cmpneq_pd_mask"),
  /- 33847 -/ (id! "_mm512_mask_cmpnlt_pd_mask", id! "_mm512_mask_cmpnlt_pd_mask"),
  /- 32095 -/ (id! "_mm_mask_cmp_round_sd_mask", id! "_mm_mask_cmp_round_sd_mask"),
  /- 33927 -/ (id! "_mm512_mask_cmpord_ps_mask", id! "_mm512_mask_cmpord_ps_mask"),
  /- 33919 -/ (id! "_mm512_mask_cmpnle_ps_mask", id! "_mm512_mask_cmpnle_ps_mask"),
  /- 33903 -/ (id! "_mm512_mask_cmpneq_ps_mask", id! "_mm512_mask_cmpneq_ps_mask"),
  /- 33911 -/ (id! "_mm512_mask_cmpnlt_ps_mask", id! "_mm512_mask_cmpnlt_ps_mask"),
  /- 32103 -/ (id! "_mm_mask_cmp_round_ss_mask", id! "_mm_mask_cmp_round_ss_mask"),
  /- 29871 -/ (id! "_mm512_mask_fmsub_round_ps", id! "_mm512_mask_fmsub_round_ps"),
  /- 29839 -/ (id! "_mm512_mask_fmadd_round_ps", id! "_mm512_mask_fmadd_round_ps"),
  /- 31771 -/ (id! "_mm512_roundscale_round_ps", id! "_mm512_roundscale_round_ps"),
  /- 29431 -/ (id! "_mm512_maskz_sqrt_round_ps", id! "_mm512_maskz_sqrt_round_ps"),
  /- 31627 -/ (id! "_mm512_mask_cvt_roundpd_ps", id! "_mm512_mask_cvt_roundpd_ps"),
  /- 33731 -/ (id! "_mm512_maskz_roundscale_ps", id! "_mm512_maskz_roundscale_ps"),
  /- 31591 -/ (id! "_mm512_mask_cvt_roundph_ps", id! "_mm512_mask_cvt_roundph_ps"),
  /- 30915 -/ (id! "_mm512_maskz_permutevar_ps", id! "_mm512_maskz_permutevar_ps"),
  /- 31071 -/ (id! "_mm512_mask_permutexvar_ps", id! "_mm512_mask_permutexvar_ps"),
  /- 30039 -/ (id! "_mm512_mask_broadcastss_ps", id! "_mm512_mask_broadcastss_ps"),
  /- 32307 -/ (id! "_mm512_mask_expandloadu_ps", id! "_mm512_mask_expandloadu_ps"),
  /- 31143 -/ (id! "_mm_mask_fixupimm_round_ss", id! "_mm_mask_fixupimm_round_ss"),
  /- 31767 -/ (id! "_mm_maskz_getmant_round_ss", id! "_mm_maskz_getmant_round_ss"),
  /- 30519 -/ (id! "_mm512_mask_cvtsepi64_epi32", id! "_mm512_mask_cvtsepi64_epi32"),
  /- 30507 -/ (id! "_mm512_maskz_cvtepi64_epi32", id! "_mm512_maskz_cvtepi64_epi32"),
  /- 29491 -/ (id! "_mm512_maskz_cvtepi16_epi32", id! "_mm512_maskz_cvtepi16_epi32"),
  /- 29551 -/ (id! "_mm512_maskz_cvtepu16_epi32", id! "_mm512_maskz_cvtepu16_epi32"),
  /- 31391 -/ (id! "_mm512_maskz_unpackhi_epi32", id! "_mm512_maskz_unpackhi_epi32"),
  /- 31415 -/ (id! "_mm512_maskz_unpacklo_epi32", id! "_mm512_maskz_unpacklo_epi32"),
  /- 32143 -/ (id! "_mm512_mask_i32gather_epi32", id! "_mm512_mask_i32gather_epi32"),
  /- 32159 -/ (id! "_mm512_mask_i64gather_epi32", id! "_mm512_mask_i64gather_epi32"),
  /- 34091 -/ (id! "_mm512_mask_reduce_or_epi32", id! "_mm512_mask_reduce_or_epi32"),
  /- 32275 -/ (id! "_mm512_maskz_compress_epi32", id! "_mm512_maskz_compress_epi32"),
  /- 29515 -/ (id! "_mm512_maskz_cvtepi32_epi64", id! "_mm512_maskz_cvtepi32_epi64"),
  /- 29575 -/ (id! "_mm512_maskz_cvtepu32_epi64", id! "_mm512_maskz_cvtepu32_epi64"),
  /- 29503 -/ (id! "_mm512_maskz_cvtepi16_epi64", id! "_mm512_maskz_cvtepi16_epi64"),
  /- 29563 -/ (id! "_mm512_maskz_cvtepu16_epi64", id! "_mm512_maskz_cvtepu16_epi64"),
  /- 31403 -/ (id! "_mm512_maskz_unpackhi_epi64", id! "_mm512_maskz_unpackhi_epi64"),
  /- 31427 -/ (id! "_mm512_maskz_unpacklo_epi64", id! "_mm512_maskz_unpacklo_epi64"),
  /- 32151 -/ (id! "_mm512_mask_i32gather_epi64", id! "_mm512_mask_i32gather_epi64"),
  /- 32167 -/ (id! "_mm512_mask_i64gather_epi64", id! "_mm512_mask_i64gather_epi64"),
  /- 34187 -/ (id! "_mm512_mask_reduce_or_epi64", id! "_mm512_mask_reduce_or_epi64"),
  /- 32263 -/ (id! "_mm512_maskz_compress_epi64", id! "_mm512_maskz_compress_epi64"),
  /- 31015 -/ (id! "_mm512_maskz_permutex_epi64", id! "_mm512_maskz_permutex_epi64"),
  /- 30111 -/ (id! "_mm512_mask_broadcast_f32x4", id! "_mm512_mask_broadcast_f32x4"),
  /- 30123 -/ (id! "_mm512_mask_broadcast_i32x4", id! "_mm512_mask_broadcast_i32x4"),
  /- 30135 -/ (id! "_mm512_mask_broadcast_f64x4", id! "_mm512_mask_broadcast_f64x4"),
  /- 30147 -/ (id! "_mm512_mask_broadcast_i64x4", id! "_mm512_mask_broadcast_i64x4"),
  /- 30471 -/ (id! "_mm512_mask_cvtsepi32_epi16", id! "_mm512_mask_cvtsepi32_epi16"),
  /- 30459 -/ (id! "_mm512_maskz_cvtepi32_epi16", id! "_mm512_maskz_cvtepi32_epi16"),
  /- 30567 -/ (id! "_mm512_mask_cvtsepi64_epi16", id! "_mm512_mask_cvtsepi64_epi16"),
  /- 30555 -/ (id! "_mm512_maskz_cvtepi64_epi16", id! "_mm512_maskz_cvtepi64_epi16"),
  /- 30427 -/ (id! "_mm512_maskz_cvtsepi32_epi8", id! "_mm512_maskz_cvtsepi32_epi8"),
  /- 30439 -/ (id! "_mm512_mask_cvtusepi32_epi8", id! "_mm512_mask_cvtusepi32_epi8"),
  /- 30619 -/ (id! "_mm512_maskz_cvtsepi64_epi8", id! "_mm512_maskz_cvtsepi64_epi8"),
  /- 30631 -/ (id! "_mm512_mask_cvtusepi64_epi8", id! "_mm512_mask_cvtusepi64_epi8"),
  /- 30691 -/ (id! "_mm512_mask_extractf64x4_pd", id! "_mm512_mask_extractf64x4_pd"),
  /- 29859 -/ (id! "_mm512_mask3_fmsub_round_pd", id! "_mm512_mask3_fmsub_round_pd"),
  /- 29863 -/ (id! "_mm512_maskz_fmsub_round_pd", id! "_mm512_maskz_fmsub_round_pd"),
  /- 29983 -/ (id! "_mm512_mask_fnmsub_round_pd", id! "_mm512_mask_fnmsub_round_pd"),
  /- 29827 -/ (id! "_mm512_mask3_fmadd_round_pd", id! "_mm512_mask3_fmadd_round_pd"),
  /- 29831 -/ (id! "_mm512_maskz_fmadd_round_pd", id! "_mm512_maskz_fmadd_round_pd"),
  /- 29951 -/ (id! "_mm512_mask_fnmadd_round_pd", id! "_mm512_mask_fnmadd_round_pd"),
  /- 29775 -/ (id! "_mm512_mask_scalef_round_pd", id! "_mm512_mask_scalef_round_pd"),
  /- 31715 -/ (id! "_mm512_mask_getexp_round_pd", id! "_mm512_mask_getexp_round_pd"),
  /- 30055 -/ (id! "_mm512_maskz_broadcastsd_pd", id! "_mm512_maskz_broadcastsd_pd"),
  /- 30955 -/ (id! "_mm512_mask_permutex2var_pd", id! "_mm512_mask_permutex2var_pd"),
  /- 31063 -/ (id! "_mm512_maskz_permutexvar_pd", id! "_mm512_maskz_permutexvar_pd"),
  /- 31583 -/ (id! "_mm512_maskz_cvt_roundps_pd", id! "_mm512_maskz_cvt_roundps_pd"),
  /- 32295 -/ (id! "_mm512_maskz_expandloadu_pd", id! "_mm512_maskz_expandloadu_pd"),
  /- 31135 -/ (id! "_mm_maskz_fixupimm_round_sd", id! "_mm_maskz_fixupimm_round_sd"),
  /- 31615 -/ (id! "_mm512_maskz_cvt_roundps_ph", id! "_mm512_maskz_cvt_roundps_ph"),
  /- 31339 -/ (id! "_mm512_mask_test_epi32_mask", id! "_mm512_mask_test_epi32_mask"),
  /- 31347 -/ (id! "_mm512_mask_test_epi64_mask", id! "_mm512_mask_test_epi64_mask"),
  /- 30703 -/ (id! "_mm512_mask_extractf32x4_ps", id! "_mm512_mask_extractf32x4_ps"),
  /- 29875 -/ (id! "_mm512_mask3_fmsub_round_ps", id! "_mm512_mask3_fmsub_round_ps"),
  /- 29879 -/ (id! "_mm512_maskz_fmsub_round_ps", id! "_mm512_maskz_fmsub_round_ps"),
  /- 29999 -/ (id! "_mm512_mask_fnmsub_round_ps", id! "_mm512_mask_fnmsub_round_ps"),
  /- 29843 -/ (id! "_mm512_mask3_fmadd_round_ps", id! "_mm512_mask3_fmadd_round_ps"),
  /- 29847 -/ (id! "_mm512_maskz_fmadd_round_ps", id! "_mm512_maskz_fmadd_round_ps"),
  /- 29967 -/ (id! "_mm512_mask_fnmadd_round_ps", id! "_mm512_mask_fnmadd_round_ps"),
  /- 29787 -/ (id! "_mm512_mask_scalef_round_ps", id! "_mm512_mask_scalef_round_ps"),
  /- 31703 -/ (id! "_mm512_mask_getexp_round_ps", id! "_mm512_mask_getexp_round_ps"),
  /- 31631 -/ (id! "_mm512_maskz_cvt_roundpd_ps", id! "_mm512_maskz_cvt_roundpd_ps"),
  /- 31595 -/ (id! "_mm512_maskz_cvt_roundph_ps", id! "_mm512_maskz_cvt_roundph_ps"),
  /- 30971 -/ (id! "_mm512_mask_permutex2var_ps", id! "_mm512_mask_permutex2var_ps"),
  /- 31075 -/ (id! "_mm512_maskz_permutexvar_ps", id! "_mm512_maskz_permutexvar_ps"),
  /- 30043 -/ (id! "_mm512_maskz_broadcastss_ps", id! "_mm512_maskz_broadcastss_ps"),
  /- 32311 -/ (id! "_mm512_maskz_expandloadu_ps", id! "_mm512_maskz_expandloadu_ps"),
  /- 31147 -/ (id! "_mm_maskz_fixupimm_round_ss", id! "_mm_maskz_fixupimm_round_ss"),
  /- 30523 -/ (id! "_mm512_maskz_cvtsepi64_epi32", id! "_mm512_maskz_cvtsepi64_epi32"),
  /- 30535 -/ (id! "_mm512_mask_cvtusepi64_epi32", id! "_mm512_mask_cvtusepi64_epi32"),
  /- 34079 -/ (id! "_mm512_mask_reduce_add_epi32", id! "_mm512_mask_reduce_add_epi32"),
  /- 34087 -/ (id! "_mm512_mask_reduce_and_epi32", id! "_mm512_mask_reduce_and_epi32"),
  /- 30063 -/ (id! "_mm512_mask_broadcastd_epi32", id! "_mm512_mask_broadcastd_epi32"),
  /- 34083 -/ (id! "_mm512_mask_reduce_mul_epi32", id! "_mm512_mask_reduce_mul_epi32"),
  /- 34111 -/ (id! "_mm512_mask_reduce_min_epi32", id! "_mm512_mask_reduce_min_epi32"),
  /- 32207 -/ (id! "_mm512_mask_i32scatter_epi32", id! "_mm512_mask_i32scatter_epi32"),
  /- 32223 -/ (id! "_mm512_mask_i64scatter_epi32", id! "_mm512_mask_i64scatter_epi32"),
  /- 34115 -/ (id! "_mm512_mask_reduce_max_epi32", id! "_mm512_mask_reduce_max_epi32"),
  /- 34119 -/ (id! "_mm512_mask_reduce_min_epu32", id! "_mm512_mask_reduce_min_epu32"),
  /- 34123 -/ (id! "_mm512_mask_reduce_max_epu32", id! "_mm512_mask_reduce_max_epu32"),
  /- 34175 -/ (id! "_mm512_mask_reduce_add_epi64", id! "_mm512_mask_reduce_add_epi64"),
  /- 34183 -/ (id! "_mm512_mask_reduce_and_epi64", id! "_mm512_mask_reduce_and_epi64"),
  /- 34179 -/ (id! "_mm512_mask_reduce_mul_epi64", id! "_mm512_mask_reduce_mul_epi64"),
  /- 34199 -/ (id! "_mm512_mask_reduce_min_epi64", id! "_mm512_mask_reduce_min_epi64"),
  /- 30087 -/ (id! "_mm512_mask_broadcastq_epi64", id! "_mm512_mask_broadcastq_epi64"),
  /- 32215 -/ (id! "_mm512_mask_i32scatter_epi64", id! "_mm512_mask_i32scatter_epi64"),
  /- 32231 -/ (id! "_mm512_mask_i64scatter_epi64", id! "_mm512_mask_i64scatter_epi64"),
  /- 34203 -/ (id! "_mm512_mask_reduce_max_epi64", id! "_mm512_mask_reduce_max_epi64"),
  /- 34215 -/ (id! "_mm512_mask_reduce_min_epu64", id! "_mm512_mask_reduce_min_epu64"),
  /- 34219 -/ (id! "_mm512_mask_reduce_max_epu64", id! "_mm512_mask_reduce_max_epu64"),
  /- 30115 -/ (id! "_mm512_maskz_broadcast_f32x4", id! "_mm512_maskz_broadcast_f32x4"),
  /- 30127 -/ (id! "_mm512_maskz_broadcast_i32x4", id! "_mm512_maskz_broadcast_i32x4"),
  /- 30139 -/ (id! "_mm512_maskz_broadcast_f64x4", id! "_mm512_maskz_broadcast_f64x4"),
  /- 30151 -/ (id! "_mm512_maskz_broadcast_i64x4", id! "_mm512_maskz_broadcast_i64x4"),
  /- 30475 -/ (id! "_mm512_maskz_cvtsepi32_epi16", id! "_mm512_maskz_cvtsepi32_epi16"),
  /- 30487 -/ (id! "_mm512_mask_cvtusepi32_epi16", id! "_mm512_mask_cvtusepi32_epi16"),
  /- 30571 -/ (id! "_mm512_maskz_cvtsepi64_epi16", id! "_mm512_maskz_cvtsepi64_epi16"),
  /- 30583 -/ (id! "_mm512_mask_cvtusepi64_epi16", id! "_mm512_mask_cvtusepi64_epi16"),
  /- 30443 -/ (id! "_mm512_maskz_cvtusepi32_epi8", id! "_mm512_maskz_cvtusepi32_epi8"),
  /- 30635 -/ (id! "_mm512_maskz_cvtusepi64_epi8", id! "_mm512_maskz_cvtusepi64_epi8"),
  /- 30695 -/ (id! "_mm512_maskz_extractf64x4_pd", id! "_mm512_maskz_extractf64x4_pd"),
  /- 29987 -/ (id! "_mm512_mask3_fnmsub_round_pd", id! "_mm512_mask3_fnmsub_round_pd"),
  /- 29991 -/ (id! "_mm512_maskz_fnmsub_round_pd", id! "_mm512_maskz_fnmsub_round_pd"),
  /- 29955 -/ (id! "_mm512_mask3_fnmadd_round_pd", id! "_mm512_mask3_fnmadd_round_pd"),
  /- 29959 -/ (id! "_mm512_maskz_fnmadd_round_pd", id! "_mm512_maskz_fnmadd_round_pd"),
  /- 29779 -/ (id! "_mm512_maskz_scalef_round_pd", id! "_mm512_maskz_scalef_round_pd"),
  /- 31719 -/ (id! "_mm512_maskz_getexp_round_pd", id! "_mm512_maskz_getexp_round_pd"),
  /- 31727 -/ (id! "_mm512_mask_getmant_round_pd", id! "_mm512_mask_getmant_round_pd"),
  /- 30959 -/ (id! "_mm512_mask2_permutex2var_pd", id! "_mm512_mask2_permutex2var_pd"),
  /- 30963 -/ (id! "_mm512_maskz_permutex2var_pd", id! "_mm512_maskz_permutex2var_pd"),
  /- 31811 -/ (id! "_mm_mask_roundscale_round_sd", id! "_mm_mask_roundscale_round_sd"),
  /- 31911 -/ (id! "_mm512_mask_cmpge_epi32_mask", id! "_mm512_mask_cmpge_epi32_mask"),
  /- 31939 -/ (id! "_mm512_mask_cmple_epi32_mask", id! "_mm512_mask_cmple_epi32_mask"),
  /- 31355 -/ (id! "_mm512_mask_testn_epi32_mask", id! "_mm512_mask_testn_epi32_mask"),
  /- 31879 -/ (id! "_mm512_mask_cmpeq_epi32_mask", id! "_mm512_mask_cmpeq_epi32_mask"),
  /- 31895 -/ (id! "_mm512_mask_cmpgt_epi32_mask", id! "_mm512_mask_cmpgt_epi32_mask"),
  /- 31971 -/ (id! "_mm512_mask_cmplt_epi32_mask", id! "_mm512_mask_cmplt_epi32_mask"),
  /- 31915 -/ (id! "_mm512_mask_cmpge_epu32_mask", id! "_mm512_mask_cmpge_epu32_mask"),
  /- 31947 -/ (id! "_mm512_mask_cmple_epu32_mask", id! "_mm512_mask_cmple_epu32_mask"),
  /- 34035 -/ (id! "_mm512_mask_cmpeq_epu32_mask", id! "_mm512_mask_cmpeq_epu32_mask"),
  /- 34051 -/ (id! "_mm512_mask_cmpgt_epu32_mask", id! "_mm512_mask_cmpgt_epu32_mask"),
  /- 31979 -/ (id! "_mm512_mask_cmplt_epu32_mask", id! "_mm512_mask_cmplt_epu32_mask"),
  /- 31923 -/ (id! "_mm512_mask_cmpge_epi64_mask", id! "_mm512_mask_cmpge_epi64_mask"),
  /- 31955 -/ (id! "_mm512_mask_cmple_epi64_mask", id! "_mm512_mask_cmple_epi64_mask"),
  /- 31363 -/ (id! "_mm512_mask_testn_epi64_mask", id! "_mm512_mask_testn_epi64_mask"),
  /- 31883 -/ (id! "_mm512_mask_cmpeq_epi64_mask", id! "_mm512_mask_cmpeq_epi64_mask"),
  /- 31899 -/ (id! "_mm512_mask_cmpgt_epi64_mask", id! "_mm512_mask_cmpgt_epi64_mask"),
  /- 31987 -/ (id! "_mm512_mask_cmplt_epi64_mask", id! "_mm512_mask_cmplt_epi64_mask"),
  /- 31931 -/ (id! "_mm512_mask_cmpge_epu64_mask", id! "_mm512_mask_cmpge_epu64_mask"),
  /- 31963 -/ (id! "_mm512_mask_cmple_epu64_mask", id! "_mm512_mask_cmple_epu64_mask"),
  /- 34039 -/ (id! "_mm512_mask_cmpeq_epu64_mask", id! "_mm512_mask_cmpeq_epu64_mask"),
  /- 34055 -/ (id! "_mm512_mask_cmpgt_epu64_mask", id! "_mm512_mask_cmpgt_epu64_mask"),
  /- 31995 -/ (id! "_mm512_mask_cmplt_epu64_mask", id! "_mm512_mask_cmplt_epu64_mask"),
  /- 33831 -/ (id! "_mm512_mask_cmpunord_pd_mask", id! "_mm512_mask_cmpunord_pd_mask"),
  /- 33895 -/ (id! "_mm512_mask_cmpunord_ps_mask", id! "_mm512_mask_cmpunord_ps_mask"),
  /- 30707 -/ (id! "_mm512_maskz_extractf32x4_ps", id! "_mm512_maskz_extractf32x4_ps"),
  /- 30003 -/ (id! "_mm512_mask3_fnmsub_round_ps", id! "_mm512_mask3_fnmsub_round_ps"),
  /- 30007 -/ (id! "_mm512_maskz_fnmsub_round_ps", id! "_mm512_maskz_fnmsub_round_ps"),
  /- 29971 -/ (id! "_mm512_mask3_fnmadd_round_ps", id! "_mm512_mask3_fnmadd_round_ps"),
  /- 29975 -/ (id! "_mm512_maskz_fnmadd_round_ps", id! "_mm512_maskz_fnmadd_round_ps"),
  /- 29791 -/ (id! "_mm512_maskz_scalef_round_ps", id! "_mm512_maskz_scalef_round_ps"),
  /- 31707 -/ (id! "_mm512_maskz_getexp_round_ps", id! "_mm512_maskz_getexp_round_ps"),
  /- 31739 -/ (id! "_mm512_mask_getmant_round_ps", id! "_mm512_mask_getmant_round_ps"),
  /- 30975 -/ (id! "_mm512_mask2_permutex2var_ps", id! "_mm512_mask2_permutex2var_ps"),
  /- 30979 -/ (id! "_mm512_maskz_permutex2var_ps", id! "_mm512_maskz_permutex2var_ps"),
  /- 31799 -/ (id! "_mm_mask_roundscale_round_ss", id! "_mm_mask_roundscale_round_ss"),
  /- 30539 -/ (id! "_mm512_maskz_cvtusepi64_epi32", id! "_mm512_maskz_cvtusepi64_epi32"),
  /- 30291 -/ (id! "_mm512_mask_cvt_roundpd_epi32", id! "_mm512_mask_cvt_roundpd_epi32"),
  /- 30067 -/ (id! "_mm512_maskz_broadcastd_epi32", id! "_mm512_maskz_broadcastd_epi32"),
  /- 31051 -/ (id! "_mm512_mask_permutexvar_epi32", id! "_mm512_mask_permutexvar_epi32"),
  /- 30339 -/ (id! "_mm512_mask_cvt_roundps_epi32", id! "_mm512_mask_cvt_roundps_epi32"),
  /- 32339 -/ (id! "_mm512_mask_expandloadu_epi32", id! "_mm512_mask_expandloadu_epi32"),
  /- 30303 -/ (id! "_mm512_mask_cvt_roundpd_epu32", id! "_mm512_mask_cvt_roundpd_epu32"),
  /- 30351 -/ (id! "_mm512_mask_cvt_roundps_epu32", id! "_mm512_mask_cvt_roundps_epu32"),
  /- 30091 -/ (id! "_mm512_maskz_broadcastq_epi64", id! "_mm512_maskz_broadcastq_epi64"),
  /- 31039 -/ (id! "_mm512_mask_permutexvar_epi64", id! "_mm512_mask_permutexvar_epi64"),
  /- 32323 -/ (id! "_mm512_mask_expandloadu_epi64", id! "_mm512_mask_expandloadu_epi64"),
  /- 30491 -/ (id! "_mm512_maskz_cvtusepi32_epi16", id! "_mm512_maskz_cvtusepi32_epi16"),
  /- 30587 -/ (id! "_mm512_maskz_cvtusepi64_epi16", id! "_mm512_maskz_cvtusepi64_epi16"),
  /- 29887 -/ (id! "_mm512_mask_fmaddsub_round_pd", id! "_mm512_mask_fmaddsub_round_pd"),
  /- 29919 -/ (id! "_mm512_mask_fmsubadd_round_pd", id! "_mm512_mask_fmsubadd_round_pd"),
  /- 31107 -/ (id! "_mm512_mask_fixupimm_round_pd", id! "_mm512_mask_fixupimm_round_pd"),
  /- 31731 -/ (id! "_mm512_maskz_getmant_round_pd", id! "_mm512_maskz_getmant_round_pd"),
  /- 32243 -/ (id! "_mm512_mask_compressstoreu_pd", id! "_mm512_mask_compressstoreu_pd"),
  /- 31815 -/ (id! "_mm_maskz_roundscale_round_sd", id! "_mm_maskz_roundscale_round_sd"),
  /- 32007 -/ (id! "_mm512_mask_cmpneq_epi32_mask", id! "_mm512_mask_cmpneq_epi32_mask"),
  /- 32011 -/ (id! "_mm512_mask_cmpneq_epu32_mask", id! "_mm512_mask_cmpneq_epu32_mask"),
  /- 32019 -/ (id! "_mm512_mask_cmpneq_epi64_mask", id! "_mm512_mask_cmpneq_epi64_mask"),
  /- 32027 -/ (id! "_mm512_mask_cmpneq_epu64_mask", id! "_mm512_mask_cmpneq_epu64_mask"),
  /- 32083 -/ (id! "_mm512_mask_cmp_round_pd_mask", id! "_mm512_mask_cmp_round_pd_mask"),
  /- 32087 -/ (id! "_mm512_mask_cmp_round_ps_mask", id! "_mm512_mask_cmp_round_ps_mask"),
  /- 30667 -/ (id! "_mm512_mask_cvt_roundepi32_ps", id! "_mm512_mask_cvt_roundepi32_ps"),
  /- 30679 -/ (id! "_mm512_mask_cvt_roundepu32_ps", id! "_mm512_mask_cvt_roundepu32_ps"),
  /- 29903 -/ (id! "_mm512_mask_fmaddsub_round_ps", id! "_mm512_mask_fmaddsub_round_ps"),
  /- 29935 -/ (id! "_mm512_mask_fmsubadd_round_ps", id! "_mm512_mask_fmsubadd_round_ps"),
  /- 31119 -/ (id! "_mm512_mask_fixupimm_round_ps", id! "_mm512_mask_fixupimm_round_ps"),
  /- 31743 -/ (id! "_mm512_maskz_getmant_round_ps", id! "_mm512_maskz_getmant_round_ps"),
  /- 32255 -/ (id! "_mm512_mask_compressstoreu_ps", id! "_mm512_mask_compressstoreu_ps"),
  /- 31803 -/ (id! "_mm_maskz_roundscale_round_ss", id! "_mm_maskz_roundscale_round_ss"),
  /- 30727 -/ (id! "_mm512_mask_extracti32x4_epi32", id! "_mm512_mask_extracti32x4_epi32"),
  /- 29307 -/ (id! "_mm512_mask_ternarylogic_epi32", id! "_mm512_mask_ternarylogic_epi32"),
  /- 30267 -/ (id! "_mm512_mask_cvtt_roundpd_epi32", id! "_mm512_mask_cvtt_roundpd_epi32"),
  /- 30295 -/ (id! "_mm512_maskz_cvt_roundpd_epi32", id! "_mm512_maskz_cvt_roundpd_epi32"),
  /- 30939 -/ (id! "_mm512_mask_permutex2var_epi32", id! "_mm512_mask_permutex2var_epi32"),
  /- 31043 -/ (id! "_mm512_maskz_permutexvar_epi32", id! "_mm512_maskz_permutexvar_epi32"),
  /- 30315 -/ (id! "_mm512_mask_cvtt_roundps_epi32", id! "_mm512_mask_cvtt_roundps_epi32"),
  /- 30343 -/ (id! "_mm512_maskz_cvt_roundps_epi32", id! "_mm512_maskz_cvt_roundps_epi32"),
  /- 32343 -/ (id! "_mm512_maskz_expandloadu_epi32", id! "_mm512_maskz_expandloadu_epi32"),
  /- 30279 -/ (id! "_mm512_mask_cvtt_roundpd_epu32", id! "_mm512_mask_cvtt_roundpd_epu32"),
  /- 30307 -/ (id! "_mm512_maskz_cvt_roundpd_epu32", id! "_mm512_maskz_cvt_roundpd_epu32"),
  /- 30327 -/ (id! "_mm512_mask_cvtt_roundps_epu32", id! "_mm512_mask_cvtt_roundps_epu32"),
  /- 30355 -/ (id! "_mm512_maskz_cvt_roundps_epu32", id! "_mm512_maskz_cvt_roundps_epu32"),
  /- 30715 -/ (id! "_mm512_mask_extracti64x4_epi64", id! "_mm512_mask_extracti64x4_epi64"),
  /- 29295 -/ (id! "_mm512_mask_ternarylogic_epi64", id! "_mm512_mask_ternarylogic_epi64"),
  /- 30923 -/ (id! "_mm512_mask_permutex2var_epi64", id! "_mm512_mask_permutex2var_epi64"),
  /- 31031 -/ (id! "_mm512_maskz_permutexvar_epi64", id! "_mm512_maskz_permutexvar_epi64"),
  /- 32327 -/ (id! "_mm512_maskz_expandloadu_epi64", id! "_mm512_maskz_expandloadu_epi64"),
  /- 29891 -/ (id! "_mm512_mask3_fmaddsub_round_pd", id! "_mm512_mask3_fmaddsub_round_pd"),
  /- 29895 -/ (id! "_mm512_maskz_fmaddsub_round_pd", id! "_mm512_maskz_fmaddsub_round_pd"),
  /- 29923 -/ (id! "_mm512_mask3_fmsubadd_round_pd", id! "_mm512_mask3_fmsubadd_round_pd"),
  /- 29927 -/ (id! "_mm512_maskz_fmsubadd_round_pd", id! "_mm512_maskz_fmsubadd_round_pd"),
  /- 31111 -/ (id! "_mm512_maskz_fixupimm_round_pd", id! "_mm512_maskz_fixupimm_round_pd"),
  /- 30671 -/ (id! "_mm512_maskz_cvt_roundepi32_ps", id! "_mm512_maskz_cvt_roundepi32_ps"),
  /- 30683 -/ (id! "_mm512_maskz_cvt_roundepu32_ps", id! "_mm512_maskz_cvt_roundepu32_ps"),
  /- 29907 -/ (id! "_mm512_mask3_fmaddsub_round_ps", id! "_mm512_mask3_fmaddsub_round_ps"),
  /- 29911 -/ (id! "_mm512_maskz_fmaddsub_round_ps", id! "_mm512_maskz_fmaddsub_round_ps"),
  /- 29939 -/ (id! "_mm512_mask3_fmsubadd_round_ps", id! "_mm512_mask3_fmsubadd_round_ps"),
  /- 29943 -/ (id! "_mm512_maskz_fmsubadd_round_ps", id! "_mm512_maskz_fmsubadd_round_ps"),
  /- 31123 -/ (id! "_mm512_maskz_fixupimm_round_ps", id! "_mm512_maskz_fixupimm_round_ps"),
  /- 30731 -/ (id! "_mm512_maskz_extracti32x4_epi32", id! "_mm512_maskz_extracti32x4_epi32"),
  /- 29311 -/ (id! "_mm512_maskz_ternarylogic_epi32", id! "_mm512_maskz_ternarylogic_epi32"),
  /- 30271 -/ (id! "_mm512_maskz_cvtt_roundpd_epi32", id! "_mm512_maskz_cvtt_roundpd_epi32"),
  /- 30943 -/ (id! "_mm512_mask2_permutex2var_epi32", id! "_mm512_mask2_permutex2var_epi32"),
  /- 30947 -/ (id! "_mm512_maskz_permutex2var_epi32", id! "_mm512_maskz_permutex2var_epi32"),
  /- 30319 -/ (id! "_mm512_maskz_cvtt_roundps_epi32", id! "_mm512_maskz_cvtt_roundps_epi32"),
  /- 30283 -/ (id! "_mm512_maskz_cvtt_roundpd_epu32", id! "_mm512_maskz_cvtt_roundpd_epu32"),
  /- 30331 -/ (id! "_mm512_maskz_cvtt_roundps_epu32", id! "_mm512_maskz_cvtt_roundps_epu32"),
  /- 30719 -/ (id! "_mm512_maskz_extracti64x4_epi64", id! "_mm512_maskz_extracti64x4_epi64"),
  /- 29299 -/ (id! "_mm512_maskz_ternarylogic_epi64", id! "_mm512_maskz_ternarylogic_epi64"),
  /- 30927 -/ (id! "_mm512_mask2_permutex2var_epi64", id! "_mm512_mask2_permutex2var_epi64"),
  /- 30931 -/ (id! "_mm512_maskz_permutex2var_epi64", id! "_mm512_maskz_permutex2var_epi64"),
  /- 31787 -/ (id! "_mm512_mask_roundscale_round_pd", id! "_mm512_mask_roundscale_round_pd"),
  /- 31775 -/ (id! "_mm512_mask_roundscale_round_ps", id! "_mm512_mask_roundscale_round_ps"),
  /- 32279 -/ (id! "_mm512_mask_compressstoreu_epi32", id! "_mm512_mask_compressstoreu_epi32"),
  /- 32267 -/ (id! "_mm512_mask_compressstoreu_epi64", id! "_mm512_mask_compressstoreu_epi64"),
  /- 30403 -/ (id! "_mm512_mask_cvtepi32_storeu_epi8", id! "_mm512_mask_cvtepi32_storeu_epi8"),
  /- 30595 -/ (id! "_mm512_mask_cvtepi64_storeu_epi8", id! "_mm512_mask_cvtepi64_storeu_epi8"),
  /- 31791 -/ (id! "_mm512_maskz_roundscale_round_pd", id! "_mm512_maskz_roundscale_round_pd"),
  /- 31779 -/ (id! "_mm512_maskz_roundscale_round_ps", id! "_mm512_maskz_roundscale_round_ps"),
  /- 30499 -/ (id! "_mm512_mask_cvtepi64_storeu_epi32", id! "_mm512_mask_cvtepi64_storeu_epi32"),
  /- 30451 -/ (id! "_mm512_mask_cvtepi32_storeu_epi16", id! "_mm512_mask_cvtepi32_storeu_epi16"),
  /- 30547 -/ (id! "_mm512_mask_cvtepi64_storeu_epi16", id! "_mm512_mask_cvtepi64_storeu_epi16"),
  /- 30419 -/ (id! "_mm512_mask_cvtsepi32_storeu_epi8", id! "_mm512_mask_cvtsepi32_storeu_epi8"),
  /- 30611 -/ (id! "_mm512_mask_cvtsepi64_storeu_epi8", id! "_mm512_mask_cvtsepi64_storeu_epi8"),
  /- 30515 -/ (id! "_mm512_mask_cvtsepi64_storeu_epi32", id! "_mm512_mask_cvtsepi64_storeu_epi32"),
  /- 30467 -/ (id! "_mm512_mask_cvtsepi32_storeu_epi16", id! "_mm512_mask_cvtsepi32_storeu_epi16"),
  /- 30563 -/ (id! "_mm512_mask_cvtsepi64_storeu_epi16", id! "_mm512_mask_cvtsepi64_storeu_epi16"),
  /- 30435 -/ (id! "_mm512_mask_cvtusepi32_storeu_epi8", id! "_mm512_mask_cvtusepi32_storeu_epi8"),
  /- 30627 -/ (id! "_mm512_mask_cvtusepi64_storeu_epi8", id! "_mm512_mask_cvtusepi64_storeu_epi8"),
  /- 30531 -/ (id! "_mm512_mask_cvtusepi64_storeu_epi32", id! "_mm512_mask_cvtusepi64_storeu_epi32"),
  /- 30483 -/ (id! "_mm512_mask_cvtusepi32_storeu_epi16", id! "_mm512_mask_cvtusepi32_storeu_epi16"),
  /- 30579 -/ (id! "_mm512_mask_cvtusepi64_storeu_epi16", id! "_mm512_mask_cvtusepi64_storeu_epi16")]

/-- The implementations, lines 11-28690. -/
def impls : List (Ident × Impl) := [
  /- 20485-20502 -/ (id! "_mm512_kor", .call 3 [⟨.mask16, .deref, 1⟩, ⟨.mask16, .deref, 2⟩] (id! "_mm512_kor") [1, 2] (some .mask16)),
  /- 20447-20464 -/ (id! "_mm512_kand", .call 3 [⟨.mask16, .deref, 1⟩, ⟨.mask16, .deref, 2⟩] (id! "_mm512_kand") [1, 2] (some .mask16)),
  /- 20561-20578 -/ (id! "_mm512_kxor", .call 3 [⟨.mask16, .deref, 1⟩, ⟨.mask16, .deref, 2⟩] (id! "_mm512_kxor") [1, 2] (some .mask16)),
  /- 20580-20596 -/ (id! "_mm512_knot", .call 2 [⟨.mask16, .deref, 1⟩] (id! "_mm512_knot") [1] (some .mask16)),
  /- 27217-27233 -/ (id! "_mm512_kmov", .call 2 [⟨.mask16, .deref, 1⟩] (id! "_mm512_kmov") [1] (some .mask16)),
  /- 20410-20426 -/ (id! "_load_mask16", .call 2 [⟨.ptr, .deref, 1⟩] (id! "_load_mask16") [1] (some .mask16)),
  /- 2985-3002 -/ (id! "_mm_rcp14_sd", .call 3 [⟨.m128d, .deref, 1⟩, ⟨.m128d, .deref, 2⟩] (id! "_mm_rcp14_sd") [1, 2] (some .m128d)),
  /- 20466-20483 -/ (id! "_mm512_kandn", .call 3 [⟨.mask16, .deref, 1⟩, ⟨.mask16, .deref, 2⟩] (id! "_mm512_kandn") [1, 2] (some .mask16)),
  /- 20542-20559 -/ (id! "_mm512_kxnor", .call 3 [⟨.mask16, .deref, 1⟩, ⟨.mask16, .deref, 2⟩] (id! "_mm512_kxnor") [1, 2] (some .mask16)),
  /- 3045-3062 -/ (id! "_mm_rcp14_ss", .call 3 [⟨.m128, .deref, 1⟩, ⟨.m128, .deref, 2⟩] (id! "_mm_rcp14_ss") [1, 2] (some .m128)),
  /- 25630-25646 -/ (id! "_mm_cvtsd_i32", .call 2 [⟨.m128d, .deref, 1⟩] (id! "_mm_cvtsd_i32") [1] (some .int)),
  /- 25648-25664 -/ (id! "_mm_cvtss_i32", .call 2 [⟨.m128, .deref, 1⟩] (id! "_mm_cvtss_i32") [1] (some .int)),
  /- 25814-25830 -/ (id! "_mm_cvtsd_u32", .call 2 [⟨.m128d, .deref, 1⟩] (id! "_mm_cvtsd_u32") [1] (some .uint)),
  /- 25576-25592 -/ (id! "_mm_cvtss_u32", .call 2 [⟨.m128, .deref, 1⟩] (id! "_mm_cvtss_u32") [1] (some .uint)),
  /- 25740-25756 -/ (id! "_mm_cvtsd_i64", .call 2 [⟨.m128d, .deref, 1⟩] (id! "_mm_cvtsd_i64") [1] (some .llong)),
  /- 25758-25774 -/ (id! "_mm_cvtss_i64", .call 2 [⟨.m128, .deref, 1⟩] (id! "_mm_cvtss_i64") [1] (some .llong)),
  /- 25686-25702 -/ (id! "_mm_cvtsd_u64", .call 2 [⟨.m128d, .deref, 1⟩] (id! "_mm_cvtsd_u64") [1] (some .ullong)),
  /- 25504-25520 -/ (id! "_mm_cvtss_u64", .call 2 [⟨.m128, .deref, 1⟩] (id! "_mm_cvtss_u64") [1] (some .ullong)),
  /- 20428-20445 -/ (id! "_store_mask16", .call 2 [⟨.ptr, .deref, 0⟩, ⟨.mask16, .deref, 1⟩] (id! "_store_mask16") [0, 1] none),
  /- 22557-22574 -/ (id! "_mm512_sub_pd", .call 3 [⟨.m512d, .deref, 1⟩, ⟨.m512d, .deref, 2⟩] (id! "_mm512_sub_pd") [1, 2] (some .m512d)),
  /- 22355-22372 -/ (id! "_mm512_add_pd", .call 3 [⟨.m512d, .deref, 1⟩, ⟨.m512d, .deref, 2⟩] (id! "_mm512_add_pd") [1, 2] (some .m512d)),
  /- 22759-22776 -/ (id! "_mm512_mul_pd", .call 3 [⟨.m512d, .deref, 1⟩, ⟨.m512d, .deref, 2⟩] (id! "_mm512_mul_pd") [1, 2] (some .m512d)),
  /- 23365-23382 -/ (id! "_mm512_min_pd", .call 3 [⟨.m512d, .deref, 1⟩, ⟨.m512d, .deref, 2⟩] (id! "_mm512_min_pd") [1, 2] (some .m512d)),
  /- 14155-14171 -/ (id! "_mm512_abs_pd", .call 2 [⟨.m512d, .deref, 1⟩] (id! "_mm512_abs_pd") [1] (some .m512d)),
  /- 235-258 -/ (id! "_mm512_set_pd", .call 9 [⟨.double, .asDouble, 1⟩, ⟨.double, .asDouble, 2⟩, ⟨.double, .asDouble, 3⟩, ⟨.double, .asDouble, 4⟩, ⟨.double, .asDouble, 5⟩, ⟨.double, .asDouble, 6⟩, ⟨.double, .asDouble, 7⟩, ⟨.double, .asDouble, 8⟩] (id! "_mm512_set_pd") [1, 2, 3, 4, 5, 6, 7, 8] (some .m512d)),
  /- 22961-22978 -/ (id! "_mm512_div_pd", .call 3 [⟨.m512d, .deref, 1⟩, ⟨.m512d, .deref, 2⟩] (id! "_mm512_div_pd") [1, 2] (some .m512d)),
  /- 23163-23180 -/ (id! "_mm512_max_pd", .call 3 [⟨.m512d, .deref, 1⟩, ⟨.m512d, .deref, 2⟩] (id! "_mm512_max_pd") [1, 2] (some .m512d)),
  /- 25666-25674 -/ (id! "_mm_cvti32_sd", .unsupported),
  /- 8900-8917 -/ (id! "_mm_cvtu32_sd", .call 3 [⟨.m128d, .deref, 1⟩, ⟨.uint, .asULong, 2⟩] (id! "_mm_cvtu32_sd") [1, 2] (some .m128d)),
  /- 25776-25793 -/ (id! "_mm_cvti64_sd", .call 3 [⟨.m128d, .deref, 1⟩, ⟨.llong, .asLongLong, 2⟩] (id! "_mm_cvti64_sd") [1, 2] (some .m128d)),
  /- 25232-25249 -/ (id! "_mm_cvtu64_sd", .call 3 [⟨.m128d, .deref, 1⟩, ⟨.ullong, .asULongLong, 2⟩] (id! "_mm_cvtu64_sd") [1, 2] (some .m128d)),
  /- 23687-23704 -/ (id! "_mm_scalef_sd", .call 3 [⟨.m128d, .deref, 1⟩, ⟨.m128d, .deref, 2⟩] (id! "_mm_scalef_sd") [1, 2] (some .m128d)),
  /- 26213-26230 -/ (id! "_mm_getexp_sd", .call 3 [⟨.m128d, .deref, 1⟩, ⟨.m128d, .deref, 2⟩] (id! "_mm_getexp_sd") [1, 2] (some .m128d)),
  /- 22617-22634 -/ (id! "_mm512_sub_ps", .call 3 [⟨.m512, .deref, 1⟩, ⟨.m512, .deref, 2⟩] (id! "_mm512_sub_ps") [1, 2] (some .m512)),
  /- 22415-22432 -/ (id! "_mm512_add_ps", .call 3 [⟨.m512, .deref, 1⟩, ⟨.m512, .deref, 2⟩] (id! "_mm512_add_ps") [1, 2] (some .m512)),
  /- 22819-22836 -/ (id! "_mm512_mul_ps", .call 3 [⟨.m512, .deref, 1⟩, ⟨.m512, .deref, 2⟩] (id! "_mm512_mul_ps") [1, 2] (some .m512)),
  /- 23425-23442 -/ (id! "_mm512_min_ps", .call 3 [⟨.m512, .deref, 1⟩, ⟨.m512, .deref, 2⟩] (id! "_mm512_min_ps") [1, 2] (some .m512)),
  /- 14117-14133 -/ (id! "_mm512_abs_ps", .call 2 [⟨.m512, .deref, 1⟩] (id! "_mm512_abs_ps") [1] (some .m512)),
  /- 260-291 -/ (id! "_mm512_set_ps", .call 17 [⟨.float, .asDouble, 1⟩, ⟨.float, .asDouble, 2⟩, ⟨.float, .asDouble, 3⟩, ⟨.float, .asDouble, 4⟩, ⟨.float, .asDouble, 5⟩, ⟨.float, .asDouble, 6⟩, ⟨.float, .asDouble, 7⟩, ⟨.float, .asDouble, 8⟩, ⟨.float, .asDouble, 9⟩, ⟨.float, .asDouble, 10⟩, ⟨.float, .asDouble, 11⟩, ⟨.float, .asDouble, 12⟩, ⟨.float, .asDouble, 13⟩, ⟨.float, .asDouble, 14⟩, ⟨.float, .asDouble, 15⟩, ⟨.float, .asDouble, 16⟩] (id! "_mm512_set_ps") [1, 2, 3, 4, 5, 6, 7, 8, 9, 10, 11, 12, 13, 14, 15, 16] (some .m512)),
  /- 23021-23038 -/ (id! "_mm512_div_ps", .call 3 [⟨.m512, .deref, 1⟩, ⟨.m512, .deref, 2⟩] (id! "_mm512_div_ps") [1, 2] (some .m512)),
  /- 23223-23240 -/ (id! "_mm512_max_ps", .call 3 [⟨.m512, .deref, 1⟩, ⟨.m512, .deref, 2⟩] (id! "_mm512_max_ps") [1, 2] (some .m512)),
  /- 25676-25684 -/ (id! "_mm_cvti32_ss", .unsupported),
  /- 25251-25268 -/ (id! "_mm_cvtu32_ss", .call 3 [⟨.m128, .deref, 1⟩, ⟨.uint, .asULong, 2⟩] (id! "_mm_cvtu32_ss") [1, 2] (some .m128)),
  /- 25795-25812 -/ (id! "_mm_cvti64_ss", .call 3 [⟨.m128, .deref, 1⟩, ⟨.llong, .asLongLong, 2⟩] (id! "_mm_cvti64_ss") [1, 2] (some .m128)),
  /- 25213-25230 -/ (id! "_mm_cvtu64_ss", .call 3 [⟨.m128, .deref, 1⟩, ⟨.ullong, .asULongLong, 2⟩] (id! "_mm_cvtu64_ss") [1, 2] (some .m128)),
  /- 23706-23723 -/ (id! "_mm_scalef_ss", .call 3 [⟨.m128, .deref, 1⟩, ⟨.m128, .deref, 2⟩] (id! "_mm_scalef_ss") [1, 2] (some .m128)),
  /- 26153-26170 -/ (id! "_mm_getexp_ss", .call 3 [⟨.m128, .deref, 1⟩, ⟨.m128, .deref, 2⟩] (id! "_mm_getexp_ss") [1, 2] (some .m128)),
  /- 25850-25866 -/ (id! "_mm_cvttsd_i32", .call 2 [⟨.m128d, .deref, 1⟩] (id! "_mm_cvttsd_i32") [1] (some .int)),
  /- 25612-25628 -/ (id! "_mm_cvttss_i32", .call 2 [⟨.m128, .deref, 1⟩] (id! "_mm_cvttss_i32") [1] (some .int)),
  /- 20374-20390 -/ (id! "_cvtmask16_u32", .call 2 [⟨.mask16, .deref, 1⟩] (id! "_cvtmask16_u32") [1] (some .uint)),
  /- 25832-25848 -/ (id! "_mm_cvttsd_u32", .call 2 [⟨.m128d, .deref, 1⟩] (id! "_mm_cvttsd_u32") [1] (some .uint)),
  /- 25594-25610 -/ (id! "_mm_cvttss_u32", .call 2 [⟨.m128, .deref, 1⟩] (id! "_mm_cvttss_u32") [1] (some .uint)),
  /- 25722-25738 -/ (id! "_mm_cvttsd_i64", .call 2 [⟨.m128d, .deref, 1⟩] (id! "_mm_cvttsd_i64") [1] (some .llong)),
  /- 25540-25556 -/ (id! "_mm_cvttss_i64", .call 2 [⟨.m128, .deref, 1⟩] (id! "_mm_cvttss_i64") [1] (some .llong)),
  /- 25704-25720 -/ (id! "_mm_cvttsd_u64", .call 2 [⟨.m128d, .deref, 1⟩] (id! "_mm_cvttsd_u64") [1] (some .ullong)),
  /- 25522-25538 -/ (id! "_mm_cvttss_u64", .call 2 [⟨.m128, .deref, 1⟩] (id! "_mm_cvttss_u64") [1] (some .ullong)),
  /- 20392-20408 -/ (id! "_cvtu32_mask16", .call 2 [⟨.uint, .asULong, 1⟩] (id! "_cvtu32_mask16") [1] (some .mask16)),
  /- 380-396 -/ (id! "_mm512_set1_pd", .call 2 [⟨.double, .asDouble, 1⟩] (id! "_mm512_set1_pd") [1] (some .m512d)),
  /- 447-466 -/ (id! "_mm512_set4_pd", .call 5 [⟨.double, .asDouble, 1⟩, ⟨.double, .asDouble, 2⟩, ⟨.double, .asDouble, 3⟩, ⟨.double, .asDouble, 4⟩] (id! "_mm512_set4_pd") [1, 2, 3, 4] (some .m512d)),
  /- 652-668 -/ (id! "_mm512_load_pd", .call 2 [⟨.ptr, .deref, 1⟩] (id! "_mm512_load_pd") [1] (some .m512d)),
  /- 18330-18346 -/ (id! "_mm512_ceil_pd", .call 2 [⟨.m512d, .deref, 1⟩] (id! "_mm512_ceil_pd") [1] (some .m512d)),
  /- 22241-22257 -/ (id! "_mm512_sqrt_pd", .call 2 [⟨.m512d, .deref, 1⟩] (id! "_mm512_sqrt_pd") [1] (some .m512d)),
  /- 3219-3236 -/ (id! "_mm_rsqrt14_sd", .call 3 [⟨.m128d, .deref, 1⟩, ⟨.m128d, .deref, 2⟩] (id! "_mm_rsqrt14_sd") [1, 2] (some .m128d)),
  /- 26333-26341 -/ (id! "_mm_getmant_sd", .unsupported),
  /- 506-521 -/ (id! "_mm512_setzero", .call 1 [] (id! "_mm512_setzero") [] (some .m512)),
  /- 398-414 -/ (id! "_mm512_set1_ps", .call 2 [⟨.float, .asDouble, 1⟩] (id! "_mm512_set1_ps") [1] (some .m512)),
  /- 468-487 -/ (id! "_mm512_set4_ps", .call 5 [⟨.float, .asDouble, 1⟩, ⟨.float, .asDouble, 2⟩, ⟨.float, .asDouble, 3⟩, ⟨.float, .asDouble, 4⟩] (id! "_mm512_set4_ps") [1, 2, 3, 4] (some .m512)),
  /- 748-764 -/ (id! "_mm512_load_ps", .call 2 [⟨.ptr, .deref, 1⟩] (id! "_mm512_load_ps") [1] (some .m512)),
  /- 18312-18328 -/ (id! "_mm512_ceil_ps", .call 2 [⟨.m512, .deref, 1⟩] (id! "_mm512_ceil_ps") [1] (some .m512)),
  /- 22298-22314 -/ (id! "_mm512_sqrt_ps", .call 2 [⟨.m512, .deref, 1⟩] (id! "_mm512_sqrt_ps") [1] (some .m512)),
  /- 3279-3296 -/ (id! "_mm_rsqrt14_ss", .call 3 [⟨.m128, .deref, 1⟩, ⟨.m128, .deref, 2⟩] (id! "_mm_rsqrt14_ss") [1, 2] (some .m128)),
  /- 26363-26371 -/ (id! "_mm_getmant_ss", .unsupported),
  /- 13054-13071 -/ (id! "_mm512_or_si512", .call 3 [⟨.m512i, .deref, 1⟩, ⟨.m512i, .deref, 2⟩] (id! "_mm512_or_si512") [1, 2] (some .m512i)),
  /- 13073-13090 -/ (id! "_mm512_or_epi32", .call 3 [⟨.m512i, .deref, 1⟩, ⟨.m512i, .deref, 2⟩] (id! "_mm512_or_epi32") [1, 2] (some .m512i)),
  /- 13133-13150 -/ (id! "_mm512_or_epi64", .call 3 [⟨.m512i, .deref, 1⟩, ⟨.m512i, .deref, 2⟩] (id! "_mm512_or_epi64") [1, 2] (some .m512i)),
  /- 154-233 -/ (id! "_mm512_set_epi8", .call 65 [⟨.char, .asChar, 1⟩, ⟨.char, .asChar, 2⟩, ⟨.char, .asChar, 3⟩, ⟨.char, .asChar, 4⟩, ⟨.char, .asChar, 5⟩, ⟨.char, .asChar, 6⟩, ⟨.char, .asChar, 7⟩, ⟨.char, .asChar, 8⟩, ⟨.char, .asChar, 9⟩, ⟨.char, .asChar, 10⟩, ⟨.char, .asChar, 11⟩, ⟨.char, .asChar, 12⟩, ⟨.char, .asChar, 13⟩, ⟨.char, .asChar, 14⟩, ⟨.char, .asChar, 15⟩, ⟨.char, .asChar, 16⟩, ⟨.char, .asChar, 17⟩, ⟨.char, .asChar, 18⟩, ⟨.char, .asChar, 19⟩, ⟨.char, .asChar, 20⟩, ⟨.char, .asChar, 21⟩, ⟨.char, .asChar, 22⟩, ⟨.char, .asChar, 23⟩, ⟨.char, .asChar, 24⟩, ⟨.char, .asChar, 25⟩, ⟨.char, .asChar, 26⟩, ⟨.char, .asChar, 27⟩, ⟨.char, .asChar, 28⟩, ⟨.char, .asChar, 29⟩, ⟨.char, .asChar, 30⟩, ⟨.char, .asChar, 31⟩, ⟨.char, .asChar, 32⟩, ⟨.char, .asChar, 33⟩, ⟨.char, .asChar, 34⟩, ⟨.char, .asChar, 35⟩, ⟨.char, .asChar, 36⟩, ⟨.char, .asChar, 37⟩, ⟨.char, .asChar, 38⟩, ⟨.char, .asChar, 39⟩, ⟨.char, .asChar, 40⟩, ⟨.char, .asChar, 41⟩, ⟨.char, .asChar, 42⟩, ⟨.char, .asChar, 43⟩, ⟨.char, .asChar, 44⟩, ⟨.char, .asChar, 45⟩, ⟨.char, .asChar, 46⟩, ⟨.char, .asChar, 47⟩, ⟨.char, .asChar, 48⟩, ⟨.char, .asChar, 49⟩, ⟨.char, .asChar, 50⟩, ⟨.char, .asChar, 51⟩, ⟨.char, .asChar, 52⟩, ⟨.char, .asChar, 53⟩, ⟨.char, .asChar, 54⟩, ⟨.char, .asChar, 55⟩, ⟨.char, .asChar, 56⟩, ⟨.char, .asChar, 57⟩, ⟨.char, .asChar, 58⟩, ⟨.char, .asChar, 59⟩, ⟨.char, .asChar, 60⟩, ⟨.char, .asChar, 61⟩, ⟨.char, .asChar, 62⟩, ⟨.char, .asChar, 63⟩, ⟨.char, .asChar, 64⟩] (id! "_mm512_set_epi8") [1, 2, 3, 4, 5, 6, 7, 8, 9, 10, 11, 12, 13, 14, 15, 16, 17, 18, 19, 20, 21, 22, 23, 24, 25, 26, 27, 28, 29, 30, 31, 32, 33, 34, 35, 36, 37, 38, 39, 40, 41, 42, 43, 44, 45, 46, 47, 48, 49, 50, 51, 52, 53, 54, 55, 56, 57, 58, 59, 60, 61, 62, 63, 64] (some .m512i)),
  /- 20598-20615 -/ (id! "_mm512_kunpackb", .call 3 [⟨.mask16, .deref, 1⟩, ⟨.mask16, .deref, 2⟩] (id! "_mm512_kunpackb") [1, 2] (some .mask16)),
  /- 20523-20540 -/ (id! "_mm512_kortestc", .call 3 [⟨.mask16, .deref, 1⟩, ⟨.mask16, .deref, 2⟩] (id! "_mm512_kortestc") [1, 2] (some .int)),
  /- 2871-2887 -/ (id! "_mm512_rcp14_pd", .call 2 [⟨.m512d, .deref, 1⟩] (id! "_mm512_rcp14_pd") [1] (some .m512d)),
  /- 23891-23909 -/ (id! "_mm512_fmsub_pd", .call 4 [⟨.m512d, .deref, 1⟩, ⟨.m512d, .deref, 2⟩, ⟨.m512d, .deref, 3⟩] (id! "_mm512_fmsub_pd") [1, 2, 3] (some .m512d)),
  /- 23725-23743 -/ (id! "_mm512_fmadd_pd", .call 4 [⟨.m512d, .deref, 1⟩, ⟨.m512d, .deref, 2⟩, ⟨.m512d, .deref, 3⟩] (id! "_mm512_fmadd_pd") [1, 2, 3] (some .m512d)),
  /- 709-726 -/ (id! "_mm512_store_pd", .call 2 [⟨.ptr, .deref, 0⟩, ⟨.m512d, .deref, 1⟩] (id! "_mm512_store_pd") [0, 1] none),
  /- 18294-18310 -/ (id! "_mm512_floor_pd", .call 2 [⟨.m512d, .deref, 1⟩] (id! "_mm512_floor_pd") [1] (some .m512d)),
  /- 25868-25884 -/ (id! "_mm512_cvtps_pd", .call 2 [⟨.m256, .deref, 1⟩] (id! "_mm512_cvtps_pd") [1] (some .m512d)),
  /- 10538-10554 -/ (id! "_mm512_loadu_pd", .call 2 [⟨.ptr, .deref, 1⟩] (id! "_mm512_loadu_pd") [1] (some .m512d)),
  /- 22677-22696 -/ (id! "_mm_mask_sub_sd", .call 5 [⟨.m128d, .deref, 1⟩, ⟨.mask8, .deref, 2⟩, ⟨.m128d, .deref, 3⟩, ⟨.m128d, .deref, 4⟩] (id! "_mm_mask_sub_sd") [1, 2, 3, 4] (some .m128d)),
  /- 22475-22494 -/ (id! "_mm_mask_add_sd", .call 5 [⟨.m128d, .deref, 1⟩, ⟨.mask8, .deref, 2⟩, ⟨.m128d, .deref, 3⟩, ⟨.m128d, .deref, 4⟩] (id! "_mm_mask_add_sd") [1, 2, 3, 4] (some .m128d)),
  /- 22879-22898 -/ (id! "_mm_mask_mul_sd", .call 5 [⟨.m128d, .deref, 1⟩, ⟨.mask8, .deref, 2⟩, ⟨.m128d, .deref, 3⟩, ⟨.m128d, .deref, 4⟩] (id! "_mm_mask_mul_sd") [1, 2, 3, 4] (some .m128d)),
  /- 25444-25452 -/ (id! "_mm_fixupimm_sd", .unsupported),
  /- 23485-23504 -/ (id! "_mm_mask_min_sd", .call 5 [⟨.m128d, .deref, 1⟩, ⟨.mask8, .deref, 2⟩, ⟨.m128d, .deref, 3⟩, ⟨.m128d, .deref, 4⟩] (id! "_mm_mask_min_sd") [1, 2, 3, 4] (some .m128d)),
  /- 23081-23100 -/ (id! "_mm_mask_div_sd", .call 5 [⟨.m128d, .deref, 1⟩, ⟨.mask8, .deref, 2⟩, ⟨.m128d, .deref, 3⟩, ⟨.m128d, .deref, 4⟩] (id! "_mm_mask_div_sd") [1, 2, 3, 4] (some .m128d)),
  /- 23283-23302 -/ (id! "_mm_mask_max_sd", .call 5 [⟨.m128d, .deref, 1⟩, ⟨.mask8, .deref, 2⟩, ⟨.m128d, .deref, 3⟩, ⟨.m128d, .deref, 4⟩] (id! "_mm_mask_max_sd") [1, 2, 3, 4] (some .m128d)),
  /- 14980-14988 -/ (id! "_mm512_cvtps_ph", .unsupported),
  /- 11-27 -/ (id! "_mm512_int2mask", .call 2 [⟨.int, .asInt, 1⟩] (id! "_mm512_int2mask") [1] (some .mask16)),
  /- 26553-26561 -/ (id! "_mm_cmp_sd_mask", .unsupported),
  /- 26573-26581 -/ (id! "_mm_cmp_ss_mask", .unsupported),
  /- 2928-2944 -/ (id! "_mm512_rcp14_ps", .call 2 [⟨.m512, .deref, 1⟩] (id! "_mm512_rcp14_ps") [1] (some .m512)),
  /- 23974-23992 -/ (id! "_mm512_fmsub_ps", .call 4 [⟨.m512, .deref, 1⟩, ⟨.m512, .deref, 2⟩, ⟨.m512, .deref, 3⟩] (id! "_mm512_fmsub_ps") [1, 2, 3] (some .m512)),
  /- 23808-23826 -/ (id! "_mm512_fmadd_ps", .call 4 [⟨.m512, .deref, 1⟩, ⟨.m512, .deref, 2⟩, ⟨.m512, .deref, 3⟩] (id! "_mm512_fmadd_ps") [1, 2, 3] (some .m512)),
  /- 25982-25998 -/ (id! "_mm512_cvtpd_ps", .call 2 [⟨.m512d, .deref, 1⟩] (id! "_mm512_cvtpd_ps") [1] (some .m256)),
  /- 805-822 -/ (id! "_mm512_store_ps", .call 2 [⟨.ptr, .deref, 0⟩, ⟨.m512, .deref, 1⟩] (id! "_mm512_store_ps") [0, 1] none),
  /- 25925-25941 -/ (id! "_mm512_cvtph_ps", .call 2 [⟨.m256i, .deref, 1⟩] (id! "_mm512_cvtph_ps") [1] (some .m512)),
  /- 18276-18292 -/ (id! "_mm512_floor_ps", .call 2 [⟨.m512, .deref, 1⟩] (id! "_mm512_floor_ps") [1] (some .m512)),
  /- 10634-10650 -/ (id! "_mm512_loadu_ps", .call 2 [⟨.ptr, .deref, 1⟩] (id! "_mm512_loadu_ps") [1] (some .m512)),
  /- 22718-22737 -/ (id! "_mm_mask_sub_ss", .call 5 [⟨.m128, .deref, 1⟩, ⟨.mask8, .deref, 2⟩, ⟨.m128, .deref, 3⟩, ⟨.m128, .deref, 4⟩] (id! "_mm_mask_sub_ss") [1, 2, 3, 4] (some .m128)),
  /- 22516-22535 -/ (id! "_mm_mask_add_ss", .call 5 [⟨.m128, .deref, 1⟩, ⟨.mask8, .deref, 2⟩, ⟨.m128, .deref, 3⟩, ⟨.m128, .deref, 4⟩] (id! "_mm_mask_add_ss") [1, 2, 3, 4] (some .m128)),
  /- 22920-22939 -/ (id! "_mm_mask_mul_ss", .call 5 [⟨.m128, .deref, 1⟩, ⟨.mask8, .deref, 2⟩, ⟨.m128, .deref, 3⟩, ⟨.m128, .deref, 4⟩] (id! "_mm_mask_mul_ss") [1, 2, 3, 4] (some .m128)),
  /- 25474-25482 -/ (id! "_mm_fixupimm_ss", .unsupported),
  /- 23526-23545 -/ (id! "_mm_mask_min_ss", .call 5 [⟨.m128, .deref, 1⟩, ⟨.mask8, .deref, 2⟩, ⟨.m128, .deref, 3⟩, ⟨.m128, .deref, 4⟩] (id! "_mm_mask_min_ss") [1, 2, 3, 4] (some .m128)),
  /- 23122-23141 -/ (id! "_mm_mask_div_ss", .call 5 [⟨.m128, .deref, 1⟩, ⟨.mask8, .deref, 2⟩, ⟨.m128, .deref, 3⟩, ⟨.m128, .deref, 4⟩] (id! "_mm_mask_div_ss") [1, 2, 3, 4] (some .m128)),
  /- 23324-23343 -/ (id! "_mm_mask_max_ss", .call 5 [⟨.m128, .deref, 1⟩, ⟨.mask8, .deref, 2⟩, ⟨.m128, .deref, 3⟩, ⟨.m128, .deref, 4⟩] (id! "_mm_mask_max_ss") [1, 2, 3, 4] (some .m128)),
  /- 29-45 -/ (id! "_mm512_mask2int", .call 2 [⟨.mask16, .deref, 1⟩] (id! "_mm512_mask2int") [1] (some .int)),
  /- 20504-20521 -/ (id! "_mm512_kortestz", .call 3 [⟨.mask16, .deref, 1⟩, ⟨.mask16, .deref, 2⟩] (id! "_mm512_kortestz") [1, 2] (some .int)),
  /- 13683-13700 -/ (id! "_mm512_and_si512", .call 3 [⟨.m512i, .deref, 1⟩, ⟨.m512i, .deref, 2⟩] (id! "_mm512_and_si512") [1, 2] (some .m512i)),
  /- 13193-13210 -/ (id! "_mm512_xor_si512", .call 3 [⟨.m512i, .deref, 1⟩, ⟨.m512i, .deref, 2⟩] (id! "_mm512_xor_si512") [1, 2] (some .m512i)),
  /- 25195-25211 -/ (id! "_mm512_cvtss_f32", .call 2 [⟨.m512, .deref, 1⟩] (id! "_mm512_cvtss_f32") [1] (some .float)),
  /- 2631-2648 -/ (id! "_mm512_sra_epi32", .call 3 [⟨.m512i, .deref, 1⟩, ⟨.m128i, .deref, 2⟩] (id! "_mm512_sra_epi32") [1, 2] (some .m512i)),
  /- 1851-1868 -/ (id! "_mm512_sub_epi32", .call 3 [⟨.m512i, .deref, 1⟩, ⟨.m512i, .deref, 2⟩] (id! "_mm512_sub_epi32") [1, 2] (some .m512i)),
  /- 1731-1748 -/ (id! "_mm512_add_epi32", .call 3 [⟨.m512i, .deref, 1⟩, ⟨.m512i, .deref, 2⟩] (id! "_mm512_add_epi32") [1, 2] (some .m512i)),
  /- 13702-13719 -/ (id! "_mm512_and_epi32", .call 3 [⟨.m512i, .deref, 1⟩, ⟨.m512i, .deref, 2⟩] (id! "_mm512_and_epi32") [1, 2] (some .m512i)),
  /- 2391-2408 -/ (id! "_mm512_sll_epi32", .call 3 [⟨.m512i, .deref, 1⟩, ⟨.m128i, .deref, 2⟩] (id! "_mm512_sll_epi32") [1, 2] (some .m512i)),
  /- 13332-13340 -/ (id! "_mm512_rol_epi32", .unsupported),
  /- 2511-2528 -/ (id! "_mm512_srl_epi32", .call 3 [⟨.m512i, .deref, 1⟩, ⟨.m128i, .deref, 2⟩] (id! "_mm512_srl_epi32") [1, 2] (some .m512i)),
  /- 1791-1808 -/ (id! "_mm512_mul_epi32", .call 3 [⟨.m512i, .deref, 1⟩, ⟨.m512i, .deref, 2⟩] (id! "_mm512_mul_epi32") [1, 2] (some .m512i)),
  /- 20957-20974 -/ (id! "_mm512_min_epi32", .call 3 [⟨.m512i, .deref, 1⟩, ⟨.m512i, .deref, 2⟩] (id! "_mm512_min_epi32") [1, 2] (some .m512i)),
  /- 13362-13485 -/ (id! "_mm512_ror_epi32", .immediate 3),
  /- 13212-13229 -/ (id! "_mm512_xor_epi32", .call 3 [⟨.m512i, .deref, 1⟩, ⟨.m512i, .deref, 2⟩] (id! "_mm512_xor_epi32") [1, 2] (some .m512i)),
  /- 5306-5322 -/ (id! "_mm512_abs_epi32", .call 2 [⟨.m512i, .deref, 1⟩] (id! "_mm512_abs_epi32") [1] (some .m512i)),
  /- 72-103 -/ (id! "_mm512_set_epi32", .call 17 [⟨.int, .asInt, 1⟩, ⟨.int, .asInt, 2⟩, ⟨.int, .asInt, 3⟩, ⟨.int, .asInt, 4⟩, ⟨.int, .asInt, 5⟩, ⟨.int, .asInt, 6⟩, ⟨.int, .asInt, 7⟩, ⟨.int, .asInt, 8⟩, ⟨.int, .asInt, 9⟩, ⟨.int, .asInt, 10⟩, ⟨.int, .asInt, 11⟩, ⟨.int, .asInt, 12⟩, ⟨.int, .asInt, 13⟩, ⟨.int, .asInt, 14⟩, ⟨.int, .asInt, 15⟩, ⟨.int, .asInt, 16⟩] (id! "_mm512_set_epi32") [1, 2, 3, 4, 5, 6, 7, 8, 9, 10, 11, 12, 13, 14, 15, 16] (some .m512i)),
  /- 20897-20914 -/ (id! "_mm512_max_epi32", .call 3 [⟨.m512i, .deref, 1⟩, ⟨.m512i, .deref, 2⟩] (id! "_mm512_max_epi32") [1, 2] (some .m512i)),
  /- 1911-1928 -/ (id! "_mm512_mul_epu32", .call 3 [⟨.m512i, .deref, 1⟩, ⟨.m512i, .deref, 2⟩] (id! "_mm512_mul_epu32") [1, 2] (some .m512i)),
  /- 21077-21094 -/ (id! "_mm512_min_epu32", .call 3 [⟨.m512i, .deref, 1⟩, ⟨.m512i, .deref, 2⟩] (id! "_mm512_min_epu32") [1, 2] (some .m512i)),
  /- 21017-21034 -/ (id! "_mm512_max_epu32", .call 3 [⟨.m512i, .deref, 1⟩, ⟨.m512i, .deref, 2⟩] (id! "_mm512_max_epu32") [1, 2] (some .m512i)),
  /- 25177-25193 -/ (id! "_mm512_cvtsd_f64", .call 2 [⟨.m512d, .deref, 1⟩] (id! "_mm512_cvtsd_f64") [1] (some .double)),
  /- 2271-2288 -/ (id! "_mm512_sra_epi64", .call 3 [⟨.m512i, .deref, 1⟩, ⟨.m128i, .deref, 2⟩] (id! "_mm512_sra_epi64") [1, 2] (some .m512i)),
  /- 1491-1508 -/ (id! "_mm512_sub_epi64", .call 3 [⟨.m512i, .deref, 1⟩, ⟨.m512i, .deref, 2⟩] (id! "_mm512_sub_epi64") [1, 2] (some .m512i)),
  /- 1431-1448 -/ (id! "_mm512_add_epi64", .call 3 [⟨.m512i, .deref, 1⟩, ⟨.m512i, .deref, 2⟩] (id! "_mm512_add_epi64") [1, 2] (some .m512i)),
  /- 13762-13779 -/ (id! "_mm512_and_epi64", .call 3 [⟨.m512i, .deref, 1⟩, ⟨.m512i, .deref, 2⟩] (id! "_mm512_and_epi64") [1, 2] (some .m512i)),
  /- 2031-2048 -/ (id! "_mm512_sll_epi64", .call 3 [⟨.m512i, .deref, 1⟩, ⟨.m128i, .deref, 2⟩] (id! "_mm512_sll_epi64") [1, 2] (some .m512i)),
  /- 13623-13631 -/ (id! "_mm512_rol_epi64", .unsupported),
  /- 2151-2168 -/ (id! "_mm512_srl_epi64", .call 3 [⟨.m512i, .deref, 1⟩, ⟨.m128i, .deref, 2⟩] (id! "_mm512_srl_epi64") [1, 2] (some .m512i)),
  /- 20717-20734 -/ (id! "_mm512_min_epi64", .call 3 [⟨.m512i, .deref, 1⟩, ⟨.m512i, .deref, 2⟩] (id! "_mm512_min_epi64") [1, 2] (some .m512i)),
  /- 13653-13661 -/ (id! "_mm512_ror_epi64", .unsupported),
  /- 13272-13289 -/ (id! "_mm512_xor_epi64", .call 3 [⟨.m512i, .deref, 1⟩, ⟨.m512i, .deref, 2⟩] (id! "_mm512_xor_epi64") [1, 2] (some .m512i)),
  /- 5249-5265 -/ (id! "_mm512_abs_epi64", .call 2 [⟨.m512i, .deref, 1⟩] (id! "_mm512_abs_epi64") [1] (some .m512i)),
  /- 47-70 -/ (id! "_mm512_set_epi64", .call 9 [⟨.llong, .asLongLong, 1⟩, ⟨.llong, .asLongLong, 2⟩, ⟨.llong, .asLongLong, 3⟩, ⟨.llong, .asLongLong, 4⟩, ⟨.llong, .asLongLong, 5⟩, ⟨.llong, .asLongLong, 6⟩, ⟨.llong, .asLongLong, 7⟩, ⟨.llong, .asLongLong, 8⟩] (id! "_mm512_set_epi64") [1, 2, 3, 4, 5, 6, 7, 8] (some .m512i)),
  /- 20657-20674 -/ (id! "_mm512_max_epi64", .call 3 [⟨.m512i, .deref, 1⟩, ⟨.m512i, .deref, 2⟩] (id! "_mm512_max_epi64") [1, 2] (some .m512i)),
  /- 20837-20854 -/ (id! "_mm512_min_epu64", .call 3 [⟨.m512i, .deref, 1⟩, ⟨.m512i, .deref, 2⟩] (id! "_mm512_min_epu64") [1, 2] (some .m512i)),
  /- 20777-20794 -/ (id! "_mm512_max_epu64", .call 3 [⟨.m512i, .deref, 1⟩, ⟨.m512i, .deref, 2⟩] (id! "_mm512_max_epu64") [1, 2] (some .m512i)),
  /- 105-152 -/ (id! "_mm512_set_epi16", .call 33 [⟨.short, .asShort, 1⟩, ⟨.short, .asShort, 2⟩, ⟨.short, .asShort, 3⟩, ⟨.short, .asShort, 4⟩, ⟨.short, .asShort, 5⟩, ⟨.short, .asShort, 6⟩, ⟨.short, .asShort, 7⟩, ⟨.short, .asShort, 8⟩, ⟨.short, .asShort, 9⟩, ⟨.short, .asShort, 10⟩, ⟨.short, .asShort, 11⟩, ⟨.short, .asShort, 12⟩, ⟨.short, .asShort, 13⟩, ⟨.short, .asShort, 14⟩, ⟨.short, .asShort, 15⟩, ⟨.short, .asShort, 16⟩, ⟨.short, .asShort, 17⟩, ⟨.short, .asShort, 18⟩, ⟨.short, .asShort, 19⟩, ⟨.short, .asShort, 20⟩, ⟨.short, .asShort, 21⟩, ⟨.short, .asShort, 22⟩, ⟨.short, .asShort, 23⟩, ⟨.short, .asShort, 24⟩, ⟨.short, .asShort, 25⟩, ⟨.short, .asShort, 26⟩, ⟨.short, .asShort, 27⟩, ⟨.short, .asShort, 28⟩, ⟨.short, .asShort, 29⟩, ⟨.short, .asShort, 30⟩, ⟨.short, .asShort, 31⟩, ⟨.short, .asShort, 32⟩] (id! "_mm512_set_epi16") [1, 2, 3, 4, 5, 6, 7, 8, 9, 10, 11, 12, 13, 14, 15, 16, 17, 18, 19, 20, 21, 22, 23, 24, 25, 26, 27, 28, 29, 30, 31, 32] (some .m512i)),
  /- 19268-19276 -/ (id! "_kshiftli_mask16", .unsupported),
  /- 19278-19286 -/ (id! "_kshiftri_mask16", .unsupported),
  /- 344-360 -/ (id! "_mm512_set1_epi8", .call 2 [⟨.char, .asChar, 1⟩] (id! "_mm512_set1_epi8") [1] (some .m512i)),
  /- 24555-24573 -/ (id! "_mm512_fnmsub_pd", .call 4 [⟨.m512d, .deref, 1⟩, ⟨.m512d, .deref, 2⟩, ⟨.m512d, .deref, 3⟩] (id! "_mm512_fnmsub_pd") [1, 2, 3] (some .m512d)),
  /- 24389-24407 -/ (id! "_mm512_fnmadd_pd", .call 4 [⟨.m512d, .deref, 1⟩, ⟨.m512d, .deref, 2⟩, ⟨.m512d, .deref, 3⟩] (id! "_mm512_fnmadd_pd") [1, 2, 3] (some .m512d)),
  /- 23567-23584 -/ (id! "_mm512_scalef_pd", .call 3 [⟨.m512d, .deref, 1⟩, ⟨.m512d, .deref, 2⟩] (id! "_mm512_scalef_pd") [1, 2] (some .m512d)),
  /- 15158-15175 -/ (id! "_mm512_stream_pd", .call 2 [⟨.ptr, .deref, 0⟩, ⟨.m512d, .deref, 1⟩] (id! "_mm512_stream_pd") [0, 1] none),
  /- 26096-26112 -/ (id! "_mm512_getexp_pd", .call 2 [⟨.m512d, .deref, 1⟩] (id! "_mm512_getexp_pd") [1] (some .m512d)),
  /- 27271-27287 -/ (id! "_mm512_castps_pd", .call 2 [⟨.m512, .deref, 1⟩] (id! "_mm512_castps_pd") [1] (some .m512d)),
  /- 10595-10612 -/ (id! "_mm512_storeu_pd", .call 2 [⟨.ptr, .deref, 0⟩, ⟨.m512d, .deref, 1⟩] (id! "_mm512_storeu_pd") [0, 1] none),
  /- 22698-22716 -/ (id! "_mm_maskz_sub_sd", .call 4 [⟨.mask8, .deref, 1⟩, ⟨.m128d, .deref, 2⟩, ⟨.m128d, .deref, 3⟩] (id! "_mm_maskz_sub_sd") [1, 2, 3] (some .m128d)),
  /- 10769-10787 -/ (id! "_mm_mask_load_sd", .call 4 [⟨.m128d, .deref, 1⟩, ⟨.mask8, .deref, 2⟩, ⟨.ptr, .deref, 3⟩] (id! "_mm_mask_load_sd") [1, 2, 3] (some .m128d)),
  /- 22496-22514 -/ (id! "_mm_maskz_add_sd", .call 4 [⟨.mask8, .deref, 1⟩, ⟨.m128d, .deref, 2⟩, ⟨.m128d, .deref, 3⟩] (id! "_mm_maskz_add_sd") [1, 2, 3] (some .m128d)),
  /- 2751-2759 -/ (id! "_mm_sub_round_sd", .unsupported),
  /- 2691-2699 -/ (id! "_mm_add_round_sd", .unsupported),
  /- 4409-4417 -/ (id! "_mm_mul_round_sd", .unsupported),
  /- 21257-21265 -/ (id! "_mm_min_round_sd", .unsupported),
  /- 4469-4477 -/ (id! "_mm_div_round_sd", .unsupported),
  /- 21197-21205 -/ (id! "_mm_max_round_sd", .unsupported),
  /- 10849-10868 -/ (id! "_mm_mask_move_sd", .call 5 [⟨.m128d, .deref, 1⟩, ⟨.mask8, .deref, 2⟩, ⟨.m128d, .deref, 3⟩, ⟨.m128d, .deref, 4⟩] (id! "_mm_mask_move_sd") [1, 2, 3, 4] (some .m128d)),
  /- 22900-22918 -/ (id! "_mm_maskz_mul_sd", .call 4 [⟨.mask8, .deref, 1⟩, ⟨.m128d, .deref, 2⟩, ⟨.m128d, .deref, 3⟩] (id! "_mm_maskz_mul_sd") [1, 2, 3] (some .m128d)),
  /- 23506-23524 -/ (id! "_mm_maskz_min_sd", .call 4 [⟨.mask8, .deref, 1⟩, ⟨.m128d, .deref, 2⟩, ⟨.m128d, .deref, 3⟩] (id! "_mm_maskz_min_sd") [1, 2, 3] (some .m128d)),
  /- 23102-23120 -/ (id! "_mm_maskz_div_sd", .call 4 [⟨.mask8, .deref, 1⟩, ⟨.m128d, .deref, 2⟩, ⟨.m128d, .deref, 3⟩] (id! "_mm_maskz_div_sd") [1, 2, 3] (some .m128d)),
  /- 23304-23322 -/ (id! "_mm_maskz_max_sd", .call 4 [⟨.mask8, .deref, 1⟩, ⟨.m128d, .deref, 2⟩, ⟨.m128d, .deref, 3⟩] (id! "_mm_maskz_max_sd") [1, 2, 3] (some .m128d)),
  /- 24638-24656 -/ (id! "_mm512_fnmsub_ps", .call 4 [⟨.m512, .deref, 1⟩, ⟨.m512, .deref, 2⟩, ⟨.m512, .deref, 3⟩] (id! "_mm512_fnmsub_ps") [1, 2, 3] (some .m512)),
  /- 24472-24490 -/ (id! "_mm512_fnmadd_ps", .call 4 [⟨.m512, .deref, 1⟩, ⟨.m512, .deref, 2⟩, ⟨.m512, .deref, 3⟩] (id! "_mm512_fnmadd_ps") [1, 2, 3] (some .m512)),
  /- 27235-27251 -/ (id! "_mm512_castpd_ps", .call 2 [⟨.m512d, .deref, 1⟩] (id! "_mm512_castpd_ps") [1] (some .m512)),
  /- 23627-23644 -/ (id! "_mm512_scalef_ps", .call 3 [⟨.m512, .deref, 1⟩, ⟨.m512, .deref, 2⟩] (id! "_mm512_scalef_ps") [1, 2] (some .m512)),
  /- 15139-15156 -/ (id! "_mm512_stream_ps", .call 2 [⟨.ptr, .deref, 0⟩, ⟨.m512, .deref, 1⟩] (id! "_mm512_stream_ps") [0, 1] none),
  /- 26039-26055 -/ (id! "_mm512_getexp_ps", .call 2 [⟨.m512, .deref, 1⟩] (id! "_mm512_getexp_ps") [1] (some .m512)),
  /- 10691-10708 -/ (id! "_mm512_storeu_ps", .call 2 [⟨.ptr, .deref, 0⟩, ⟨.m512, .deref, 1⟩] (id! "_mm512_storeu_ps") [0, 1] none),
  /- 22739-22757 -/ (id! "_mm_maskz_sub_ss", .call 4 [⟨.mask8, .deref, 1⟩, ⟨.m128, .deref, 2⟩, ⟨.m128, .deref, 3⟩] (id! "_mm_maskz_sub_ss") [1, 2, 3] (some .m128)),
  /- 10730-10748 -/ (id! "_mm_mask_load_ss", .call 4 [⟨.m128, .deref, 1⟩, ⟨.mask8, .deref, 2⟩, ⟨.ptr, .deref, 3⟩] (id! "_mm_mask_load_ss") [1, 2, 3] (some .m128)),
  /- 22537-22555 -/ (id! "_mm_maskz_add_ss", .call 4 [⟨.mask8, .deref, 1⟩, ⟨.m128, .deref, 2⟩, ⟨.m128, .deref, 3⟩] (id! "_mm_maskz_add_ss") [1, 2, 3] (some .m128)),
  /- 2781-2789 -/ (id! "_mm_sub_round_ss", .unsupported),
  /- 2721-2729 -/ (id! "_mm_add_round_ss", .unsupported),
  /- 4439-4447 -/ (id! "_mm_mul_round_ss", .unsupported),
  /- 21287-21295 -/ (id! "_mm_min_round_ss", .unsupported),
  /- 4499-4507 -/ (id! "_mm_div_round_ss", .unsupported),
  /- 21227-21235 -/ (id! "_mm_max_round_ss", .unsupported),
  /- 10808-10827 -/ (id! "_mm_mask_move_ss", .call 5 [⟨.m128, .deref, 1⟩, ⟨.mask8, .deref, 2⟩, ⟨.m128, .deref, 3⟩, ⟨.m128, .deref, 4⟩] (id! "_mm_mask_move_ss") [1, 2, 3, 4] (some .m128)),
  /- 22941-22959 -/ (id! "_mm_maskz_mul_ss", .call 4 [⟨.mask8, .deref, 1⟩, ⟨.m128, .deref, 2⟩, ⟨.m128, .deref, 3⟩] (id! "_mm_maskz_mul_ss") [1, 2, 3] (some .m128)),
  /- 23547-23565 -/ (id! "_mm_maskz_min_ss", .call 4 [⟨.mask8, .deref, 1⟩, ⟨.m128, .deref, 2⟩, ⟨.m128, .deref, 3⟩] (id! "_mm_maskz_min_ss") [1, 2, 3] (some .m128)),
  /- 23143-23161 -/ (id! "_mm_maskz_div_ss", .call 4 [⟨.mask8, .deref, 1⟩, ⟨.m128, .deref, 2⟩, ⟨.m128, .deref, 3⟩] (id! "_mm_maskz_div_ss") [1, 2, 3] (some .m128)),
  /- 23345-23363 -/ (id! "_mm_maskz_max_ss", .call 4 [⟨.mask8, .deref, 1⟩, ⟨.m128, .deref, 2⟩, ⟨.m128, .deref, 3⟩] (id! "_mm_maskz_max_ss") [1, 2, 3] (some .m128)),
  /- 1018-1034 -/ (id! "_mm512_load_si512", .call 2 [⟨.ptr, .deref, 1⟩] (id! "_mm512_load_si512") [1] (some .m512i)),
  /- 5534-5542 -/ (id! "_mm512_set1_epi32", .unsupported),
  /- 416-424 -/ (id! "_mm512_set4_epi32", .unsupported),
  /- 1036-1052 -/ (id! "_mm512_load_epi32", .call 2 [⟨.ptr, .deref, 1⟩] (id! "_mm512_load_epi32") [1] (some .m512i)),
  /- 2571-2588 -/ (id! "_mm512_srai_epi32", .call 3 [⟨.m512i, .deref, 1⟩, ⟨.uint, .asULong, 2⟩] (id! "_mm512_srai_epi32") [1, 2] (some .m512i)),
  /- 2331-2348 -/ (id! "_mm512_slli_epi32", .call 3 [⟨.m512i, .deref, 1⟩, ⟨.uint, .asULong, 2⟩] (id! "_mm512_slli_epi32") [1, 2] (some .m512i)),
  /- 2451-2468 -/ (id! "_mm512_srli_epi32", .call 3 [⟨.m512i, .deref, 1⟩, ⟨.uint, .asULong, 2⟩] (id! "_mm512_srli_epi32") [1, 2] (some .m512i)),
  /- 1311-1328 -/ (id! "_mm512_srav_epi32", .call 3 [⟨.m512i, .deref, 1⟩, ⟨.m512i, .deref, 2⟩] (id! "_mm512_srav_epi32") [1, 2] (some .m512i)),
  /- 1251-1268 -/ (id! "_mm512_sllv_epi32", .call 3 [⟨.m512i, .deref, 1⟩, ⟨.m512i, .deref, 2⟩] (id! "_mm512_sllv_epi32") [1, 2] (some .m512i)),
  /- 8420-8437 -/ (id! "_mm512_rolv_epi32", .call 3 [⟨.m512i, .deref, 1⟩, ⟨.m512i, .deref, 2⟩] (id! "_mm512_rolv_epi32") [1, 2] (some .m512i)),
  /- 1371-1388 -/ (id! "_mm512_srlv_epi32", .call 3 [⟨.m512i, .deref, 1⟩, ⟨.m512i, .deref, 2⟩] (id! "_mm512_srlv_epi32") [1, 2] (some .m512i)),
  /- 8480-8497 -/ (id! "_mm512_rorv_epi32", .call 3 [⟨.m512i, .deref, 1⟩, ⟨.m512i, .deref, 2⟩] (id! "_mm512_rorv_epi32") [1, 2] (some .m512i)),
  /- 5621-5637 -/ (id! "_mm512_set1_epi64", .call 2 [⟨.llong, .asLongLong, 1⟩] (id! "_mm512_set1_epi64") [1] (some .m512i)),
  /- 426-445 -/ (id! "_mm512_set4_epi64", .call 5 [⟨.llong, .asLongLong, 1⟩, ⟨.llong, .asLongLong, 2⟩, ⟨.llong, .asLongLong, 3⟩, ⟨.llong, .asLongLong, 4⟩] (id! "_mm512_set4_epi64") [1, 2, 3, 4] (some .m512i)),
  /- 883-899 -/ (id! "_mm512_load_epi64", .call 2 [⟨.ptr, .deref, 1⟩] (id! "_mm512_load_epi64") [1] (some .m512i)),
  /- 2211-2228 -/ (id! "_mm512_srai_epi64", .call 3 [⟨.m512i, .deref, 1⟩, ⟨.uint, .asULong, 2⟩] (id! "_mm512_srai_epi64") [1, 2] (some .m512i)),
  /- 1971-1988 -/ (id! "_mm512_slli_epi64", .call 3 [⟨.m512i, .deref, 1⟩, ⟨.uint, .asULong, 2⟩] (id! "_mm512_slli_epi64") [1, 2] (some .m512i)),
  /- 2091-2108 -/ (id! "_mm512_srli_epi64", .call 3 [⟨.m512i, .deref, 1⟩, ⟨.uint, .asULong, 2⟩] (id! "_mm512_srli_epi64") [1, 2] (some .m512i)),
  /- 1611-1628 -/ (id! "_mm512_srav_epi64", .call 3 [⟨.m512i, .deref, 1⟩, ⟨.m512i, .deref, 2⟩] (id! "_mm512_srav_epi64") [1, 2] (some .m512i)),
  /- 1551-1568 -/ (id! "_mm512_sllv_epi64", .call 3 [⟨.m512i, .deref, 1⟩, ⟨.m512i, .deref, 2⟩] (id! "_mm512_sllv_epi64") [1, 2] (some .m512i)),
  /- 8540-8557 -/ (id! "_mm512_rolv_epi64", .call 3 [⟨.m512i, .deref, 1⟩, ⟨.m512i, .deref, 2⟩] (id! "_mm512_rolv_epi64") [1, 2] (some .m512i)),
  /- 1671-1688 -/ (id! "_mm512_srlv_epi64", .call 3 [⟨.m512i, .deref, 1⟩, ⟨.m512i, .deref, 2⟩] (id! "_mm512_srlv_epi64") [1, 2] (some .m512i)),
  /- 8600-8617 -/ (id! "_mm512_rorv_epi64", .call 3 [⟨.m512i, .deref, 1⟩, ⟨.m512i, .deref, 2⟩] (id! "_mm512_rorv_epi64") [1, 2] (some .m512i)),
  /- 362-378 -/ (id! "_mm512_set1_epi16", .call 2 [⟨.short, .asShort, 1⟩] (id! "_mm512_set1_epi16") [1] (some .m512i)),
  /- 3105-3121 -/ (id! "_mm512_rsqrt14_pd", .call 2 [⟨.m512d, .deref, 1⟩] (id! "_mm512_rsqrt14_pd") [1] (some .m512d)),
  /- 12790-12798 -/ (id! "_mm512_shuffle_pd", .unsupported),
  /- 11611-11619 -/ (id! "_mm512_permute_pd", .unsupported),
  /- 523-538 -/ (id! "_mm512_setzero_pd", .call 1 [] (id! "_mm512_setzero_pd") [] (some .m512d)),
  /- 14673-14689 -/ (id! "_mm512_movedup_pd", .call 2 [⟨.m512d, .deref, 1⟩] (id! "_mm512_movedup_pd") [1] (some .m512d)),
  /- 26273-26281 -/ (id! "_mm512_getmant_pd", .unsupported),
  /- 3004-3023 -/ (id! "_mm_mask_rcp14_sd", .call 5 [⟨.m128d, .deref, 1⟩, ⟨.mask8, .deref, 2⟩, ⟨.m128d, .deref, 3⟩, ⟨.m128d, .deref, 4⟩] (id! "_mm_mask_rcp14_sd") [1, 2, 3, 4] (some .m128d)),
  /- 21603-21622 -/ (id! "_mm_mask_fmsub_sd", .call 5 [⟨.m128d, .deref, 1⟩, ⟨.mask8, .deref, 2⟩, ⟨.m128d, .deref, 3⟩, ⟨.m128d, .deref, 4⟩] (id! "_mm_mask_fmsub_sd") [1, 2, 3, 4] (some .m128d)),
  /- 10789-10806 -/ (id! "_mm_maskz_load_sd", .call 3 [⟨.mask8, .deref, 1⟩, ⟨.ptr, .deref, 2⟩] (id! "_mm_maskz_load_sd") [1, 2] (some .m128d)),
  /- 21477-21496 -/ (id! "_mm_mask_fmadd_sd", .call 5 [⟨.m128d, .deref, 1⟩, ⟨.mask8, .deref, 2⟩, ⟨.m128d, .deref, 3⟩, ⟨.m128d, .deref, 4⟩] (id! "_mm_mask_fmadd_sd") [1, 2, 3, 4] (some .m128d)),
  /- 22231-22239 -/ (id! "_mm_comi_round_sd", .unsupported),
  /- 3399-3407 -/ (id! "_mm_sqrt_round_sd", .unsupported),
  /- 26483-26491 -/ (id! "_mm_roundscale_sd", .unsupported),
  /- 10910-10928 -/ (id! "_mm_mask_store_sd", .call 3 [⟨.ptr, .deref, 0⟩, ⟨.mask8, .deref, 1⟩, ⟨.m128d, .deref, 2⟩] (id! "_mm_mask_store_sd") [0, 1, 2] none),
  /- 10870-10888 -/ (id! "_mm_maskz_move_sd", .call 4 [⟨.mask8, .deref, 1⟩, ⟨.m128d, .deref, 2⟩, ⟨.m128d, .deref, 3⟩] (id! "_mm_maskz_move_sd") [1, 2, 3] (some .m128d)),
  /- 3162-3178 -/ (id! "_mm512_rsqrt14_ps", .call 2 [⟨.m512, .deref, 1⟩] (id! "_mm512_rsqrt14_ps") [1] (some .m512)),
  /- 11971-11979 -/ (id! "_mm512_shuffle_ps", .unsupported),
  /- 11641-11649 -/ (id! "_mm512_permute_ps", .unsupported),
  /- 489-504 -/ (id! "_mm512_setzero_ps", .call 1 [] (id! "_mm512_setzero_ps") [] (some .m512)),
  /- 26303-26311 -/ (id! "_mm512_getmant_ps", .unsupported),
  /- 3064-3083 -/ (id! "_mm_mask_rcp14_ss", .call 5 [⟨.m128, .deref, 1⟩, ⟨.mask8, .deref, 2⟩, ⟨.m128, .deref, 3⟩, ⟨.m128, .deref, 4⟩] (id! "_mm_mask_rcp14_ss") [1, 2, 3, 4] (some .m128)),
  /- 21624-21643 -/ (id! "_mm_mask_fmsub_ss", .call 5 [⟨.m128, .deref, 1⟩, ⟨.mask8, .deref, 2⟩, ⟨.m128, .deref, 3⟩, ⟨.m128, .deref, 4⟩] (id! "_mm_mask_fmsub_ss") [1, 2, 3, 4] (some .m128)),
  /- 10750-10767 -/ (id! "_mm_maskz_load_ss", .call 3 [⟨.mask8, .deref, 1⟩, ⟨.ptr, .deref, 2⟩] (id! "_mm_maskz_load_ss") [1, 2] (some .m128)),
  /- 21498-21517 -/ (id! "_mm_mask_fmadd_ss", .call 5 [⟨.m128, .deref, 1⟩, ⟨.mask8, .deref, 2⟩, ⟨.m128, .deref, 3⟩, ⟨.m128, .deref, 4⟩] (id! "_mm_mask_fmadd_ss") [1, 2, 3, 4] (some .m128)),
  /- 22221-22229 -/ (id! "_mm_comi_round_ss", .unsupported),
  /- 3429-3437 -/ (id! "_mm_sqrt_round_ss", .unsupported),
  /- 26453-26461 -/ (id! "_mm_roundscale_ss", .unsupported),
  /- 10890-10908 -/ (id! "_mm_mask_store_ss", .call 3 [⟨.ptr, .deref, 0⟩, ⟨.mask8, .deref, 1⟩, ⟨.m128, .deref, 2⟩] (id! "_mm_mask_store_ss") [0, 1, 2] none),
  /- 10829-10847 -/ (id! "_mm_maskz_move_ss", .call 4 [⟨.mask8, .deref, 1⟩, ⟨.m128, .deref, 2⟩, ⟨.m128, .deref, 3⟩] (id! "_mm_maskz_move_ss") [1, 2, 3] (some .m128)),
  /- 1093-1110 -/ (id! "_mm512_store_si512", .call 2 [⟨.ptr, .deref, 0⟩, ⟨.m512i, .deref, 1⟩] (id! "_mm512_store_si512") [0, 1] none),
  /- 11026-11042 -/ (id! "_mm512_loadu_si512", .call 2 [⟨.ptr, .deref, 1⟩] (id! "_mm512_loadu_si512") [1] (some .m512i)),
  /- 24835-24851 -/ (id! "_mm512_cvtpd_epi32", .call 2 [⟨.m512d, .deref, 1⟩] (id! "_mm512_cvtpd_epi32") [1] (some .m256i)),
  /- 1112-1129 -/ (id! "_mm512_store_epi32", .call 2 [⟨.ptr, .deref, 0⟩, ⟨.m512i, .deref, 1⟩] (id! "_mm512_store_epi32") [0, 1] none),
  /- 1151-1168 -/ (id! "_mm512_mullo_epi32", .call 3 [⟨.m512i, .deref, 1⟩, ⟨.m512i, .deref, 2⟩] (id! "_mm512_mullo_epi32") [1, 2] (some .m512i)),
  /- 25063-25079 -/ (id! "_mm512_cvtps_epi32", .call 2 [⟨.m512, .deref, 1⟩] (id! "_mm512_cvtps_epi32") [1] (some .m512i)),
  /- 11044-11060 -/ (id! "_mm512_loadu_epi32", .call 2 [⟨.ptr, .deref, 1⟩] (id! "_mm512_loadu_epi32") [1] (some .m512i)),
  /- 24892-24908 -/ (id! "_mm512_cvtpd_epu32", .call 2 [⟨.m512d, .deref, 1⟩] (id! "_mm512_cvtpd_epu32") [1] (some .m256i)),
  /- 25120-25136 -/ (id! "_mm512_cvtps_epu32", .call 2 [⟨.m512, .deref, 1⟩] (id! "_mm512_cvtps_epu32") [1] (some .m512i)),
  /- 940-957 -/ (id! "_mm512_store_epi64", .call 2 [⟨.ptr, .deref, 0⟩, ⟨.m512i, .deref, 1⟩] (id! "_mm512_store_epi64") [0, 1] none),
  /- 10930-10946 -/ (id! "_mm512_loadu_epi64", .call 2 [⟨.ptr, .deref, 1⟩] (id! "_mm512_loadu_epi64") [1] (some .m512i)),
  /- 10468-10476 -/ (id! "_mm512_insertf32x4", .unsupported),
  /- 10458-10466 -/ (id! "_mm512_inserti32x4", .unsupported),
  /- 10508-10516 -/ (id! "_mm512_insertf64x4", .unsupported),
  /- 10478-10486 -/ (id! "_mm512_inserti64x4", .unsupported),
  /- 20316-20334 -/ (id! "_kortest_mask16_u8", .call 4 [⟨.mask16, .deref, 1⟩, ⟨.mask16, .deref, 2⟩, ⟨.ptr, .deref, 3⟩] (id! "_kortest_mask16_u8") [1, 2, 3] (some .uchar)),
  /- 10164-10180 -/ (id! "_mm512_cvtepi32_pd", .call 2 [⟨.m256i, .deref, 1⟩] (id! "_mm512_cvtepi32_pd") [1] (some .m512d)),
  /- 10221-10237 -/ (id! "_mm512_cvtepu32_pd", .call 2 [⟨.m256i, .deref, 1⟩] (id! "_mm512_cvtepu32_pd") [1] (some .m512d)),
  /- 22576-22595 -/ (id! "_mm512_mask_sub_pd", .call 5 [⟨.m512d, .deref, 1⟩, ⟨.mask8, .deref, 2⟩, ⟨.m512d, .deref, 3⟩, ⟨.m512d, .deref, 4⟩] (id! "_mm512_mask_sub_pd") [1, 2, 3, 4] (some .m512d)),
  /- 24057-24075 -/ (id! "_mm512_fmaddsub_pd", .call 4 [⟨.m512d, .deref, 1⟩, ⟨.m512d, .deref, 2⟩, ⟨.m512d, .deref, 3⟩] (id! "_mm512_fmaddsub_pd") [1, 2, 3] (some .m512d)),
  /- 22374-22393 -/ (id! "_mm512_mask_add_pd", .call 5 [⟨.m512d, .deref, 1⟩, ⟨.mask8, .deref, 2⟩, ⟨.m512d, .deref, 3⟩, ⟨.m512d, .deref, 4⟩] (id! "_mm512_mask_add_pd") [1, 2, 3, 4] (some .m512d)),
  /- 24223-24241 -/ (id! "_mm512_fmsubadd_pd", .call 4 [⟨.m512d, .deref, 1⟩, ⟨.m512d, .deref, 2⟩, ⟨.m512d, .deref, 3⟩] (id! "_mm512_fmsubadd_pd") [1, 2, 3] (some .m512d)),
  /- 14790-14807 -/ (id! "_mm512_unpackhi_pd", .call 3 [⟨.m512d, .deref, 1⟩, ⟨.m512d, .deref, 2⟩] (id! "_mm512_unpackhi_pd") [1, 2] (some .m512d)),
  /- 22778-22797 -/ (id! "_mm512_mask_mul_pd", .call 5 [⟨.m512d, .deref, 1⟩, ⟨.mask8, .deref, 2⟩, ⟨.m512d, .deref, 3⟩, ⟨.m512d, .deref, 4⟩] (id! "_mm512_mask_mul_pd") [1, 2, 3, 4] (some .m512d)),
  /- 25384-25392 -/ (id! "_mm512_fixupimm_pd", .unsupported),
  /- 23384-23403 -/ (id! "_mm512_mask_min_pd", .call 5 [⟨.m512d, .deref, 1⟩, ⟨.mask8, .deref, 2⟩, ⟨.m512d, .deref, 3⟩, ⟨.m512d, .deref, 4⟩] (id! "_mm512_mask_min_pd") [1, 2, 3, 4] (some .m512d)),
  /- 14730-14747 -/ (id! "_mm512_unpacklo_pd", .call 3 [⟨.m512d, .deref, 1⟩, ⟨.m512d, .deref, 2⟩] (id! "_mm512_unpacklo_pd") [1, 2] (some .m512d)),
  /- 14173-14191 -/ (id! "_mm512_mask_abs_pd", .call 4 [⟨.m512d, .deref, 1⟩, ⟨.mask8, .deref, 2⟩, ⟨.m512d, .deref, 3⟩] (id! "_mm512_mask_abs_pd") [1, 2, 3] (some .m512d)),
  /- 22980-22999 -/ (id! "_mm512_mask_div_pd", .call 5 [⟨.m512d, .deref, 1⟩, ⟨.mask8, .deref, 2⟩, ⟨.m512d, .deref, 3⟩, ⟨.m512d, .deref, 4⟩] (id! "_mm512_mask_div_pd") [1, 2, 3, 4] (some .m512d)),
  /- 574-592 -/ (id! "_mm512_mask_mov_pd", .call 4 [⟨.m512d, .deref, 1⟩, ⟨.mask8, .deref, 2⟩, ⟨.m512d, .deref, 3⟩] (id! "_mm512_mask_mov_pd") [1, 2, 3] (some .m512d)),
  /- 23182-23201 -/ (id! "_mm512_mask_max_pd", .call 5 [⟨.m512d, .deref, 1⟩, ⟨.mask8, .deref, 2⟩, ⟨.m512d, .deref, 3⟩, ⟨.m512d, .deref, 4⟩] (id! "_mm512_mask_max_pd") [1, 2, 3, 4] (some .m512d)),
  /- 11701-11709 -/ (id! "_mm512_permutex_pd", .unsupported),
  /- 3025-3043 -/ (id! "_mm_maskz_rcp14_sd", .call 4 [⟨.mask8, .deref, 1⟩, ⟨.m128d, .deref, 2⟩, ⟨.m128d, .deref, 3⟩] (id! "_mm_maskz_rcp14_sd") [1, 2, 3] (some .m128d)),
  /- 21645-21664 -/ (id! "_mm_mask3_fmsub_sd", .call 5 [⟨.m128d, .deref, 1⟩, ⟨.m128d, .deref, 2⟩, ⟨.m128d, .deref, 3⟩, ⟨.mask8, .deref, 4⟩] (id! "_mm_mask3_fmsub_sd") [1, 2, 3, 4] (some .m128d)),
  /- 21687-21706 -/ (id! "_mm_maskz_fmsub_sd", .call 5 [⟨.mask8, .deref, 1⟩, ⟨.m128d, .deref, 2⟩, ⟨.m128d, .deref, 3⟩, ⟨.m128d, .deref, 4⟩] (id! "_mm_maskz_fmsub_sd") [1, 2, 3, 4] (some .m128d)),
  /- 21855-21874 -/ (id! "_mm_mask_fnmsub_sd", .call 5 [⟨.m128d, .deref, 1⟩, ⟨.mask8, .deref, 2⟩, ⟨.m128d, .deref, 3⟩, ⟨.m128d, .deref, 4⟩] (id! "_mm_mask_fnmsub_sd") [1, 2, 3, 4] (some .m128d)),
  /- 21519-21538 -/ (id! "_mm_mask3_fmadd_sd", .call 5 [⟨.m128d, .deref, 1⟩, ⟨.m128d, .deref, 2⟩, ⟨.m128d, .deref, 3⟩, ⟨.mask8, .deref, 4⟩] (id! "_mm_mask3_fmadd_sd") [1, 2, 3, 4] (some .m128d)),
  /- 21561-21580 -/ (id! "_mm_maskz_fmadd_sd", .call 5 [⟨.mask8, .deref, 1⟩, ⟨.m128d, .deref, 2⟩, ⟨.m128d, .deref, 3⟩, ⟨.m128d, .deref, 4⟩] (id! "_mm_maskz_fmadd_sd") [1, 2, 3, 4] (some .m128d)),
  /- 21729-21748 -/ (id! "_mm_mask_fnmadd_sd", .call 5 [⟨.m128d, .deref, 1⟩, ⟨.mask8, .deref, 2⟩, ⟨.m128d, .deref, 3⟩, ⟨.m128d, .deref, 4⟩] (id! "_mm_mask_fnmadd_sd") [1, 2, 3, 4] (some .m128d)),
  /- 21417-21425 -/ (id! "_mm_fmsub_round_sd", .unsupported),
  /- 21397-21405 -/ (id! "_mm_fmadd_round_sd", .unsupported),
  /- 26232-26251 -/ (id! "_mm_mask_getexp_sd", .call 5 [⟨.m128d, .deref, 1⟩, ⟨.mask8, .deref, 2⟩, ⟨.m128d, .deref, 3⟩, ⟨.m128d, .deref, 4⟩] (id! "_mm_mask_getexp_sd") [1, 2, 3, 4] (some .m128d)),
  /- 15090-15098 -/ (id! "_mm_cvt_roundss_sd", .unsupported),
  /- 26513-26521 -/ (id! "_mm512_cmp_pd_mask", .unsupported),
  /- 26523-26531 -/ (id! "_mm512_cmp_ps_mask", .unsupported),
  /- 25270-25286 -/ (id! "_mm512_cvtepi32_ps", .call 2 [⟨.m512i, .deref, 1⟩] (id! "_mm512_cvtepi32_ps") [1] (some .m512)),
  /- 25327-25343 -/ (id! "_mm512_cvtepu32_ps", .call 2 [⟨.m512i, .deref, 1⟩] (id! "_mm512_cvtepu32_ps") [1] (some .m512)),
  /- 22636-22655 -/ (id! "_mm512_mask_sub_ps", .call 5 [⟨.m512, .deref, 1⟩, ⟨.mask16, .deref, 2⟩, ⟨.m512, .deref, 3⟩, ⟨.m512, .deref, 4⟩] (id! "_mm512_mask_sub_ps") [1, 2, 3, 4] (some .m512)),
  /- 24140-24158 -/ (id! "_mm512_fmaddsub_ps", .call 4 [⟨.m512, .deref, 1⟩, ⟨.m512, .deref, 2⟩, ⟨.m512, .deref, 3⟩] (id! "_mm512_fmaddsub_ps") [1, 2, 3] (some .m512)),
  /- 22434-22453 -/ (id! "_mm512_mask_add_ps", .call 5 [⟨.m512, .deref, 1⟩, ⟨.mask16, .deref, 2⟩, ⟨.m512, .deref, 3⟩, ⟨.m512, .deref, 4⟩] (id! "_mm512_mask_add_ps") [1, 2, 3, 4] (some .m512)),
  /- 24306-24324 -/ (id! "_mm512_fmsubadd_ps", .call 4 [⟨.m512, .deref, 1⟩, ⟨.m512, .deref, 2⟩, ⟨.m512, .deref, 3⟩] (id! "_mm512_fmsubadd_ps") [1, 2, 3] (some .m512)),
  /- 14850-14867 -/ (id! "_mm512_unpackhi_ps", .call 3 [⟨.m512, .deref, 1⟩, ⟨.m512, .deref, 2⟩] (id! "_mm512_unpackhi_ps") [1, 2] (some .m512)),
  /- 22838-22857 -/ (id! "_mm512_mask_mul_ps", .call 5 [⟨.m512, .deref, 1⟩, ⟨.mask16, .deref, 2⟩, ⟨.m512, .deref, 3⟩, ⟨.m512, .deref, 4⟩] (id! "_mm512_mask_mul_ps") [1, 2, 3, 4] (some .m512)),
  /- 25414-25422 -/ (id! "_mm512_fixupimm_ps", .unsupported),
  /- 23444-23463 -/ (id! "_mm512_mask_min_ps", .call 5 [⟨.m512, .deref, 1⟩, ⟨.mask16, .deref, 2⟩, ⟨.m512, .deref, 3⟩, ⟨.m512, .deref, 4⟩] (id! "_mm512_mask_min_ps") [1, 2, 3, 4] (some .m512)),
  /- 21137-21154 -/ (id! "_mm512_unpacklo_ps", .call 3 [⟨.m512, .deref, 1⟩, ⟨.m512, .deref, 2⟩] (id! "_mm512_unpacklo_ps") [1, 2] (some .m512)),
  /- 12940-12956 -/ (id! "_mm512_movehdup_ps", .call 2 [⟨.m512, .deref, 1⟩] (id! "_mm512_movehdup_ps") [1] (some .m512)),
  /- 12997-13013 -/ (id! "_mm512_moveldup_ps", .call 2 [⟨.m512, .deref, 1⟩] (id! "_mm512_moveldup_ps") [1] (some .m512)),
  /- 14135-14153 -/ (id! "_mm512_mask_abs_ps", .call 4 [⟨.m512, .deref, 1⟩, ⟨.mask16, .deref, 2⟩, ⟨.m512, .deref, 3⟩] (id! "_mm512_mask_abs_ps") [1, 2, 3] (some .m512)),
  /- 23040-23059 -/ (id! "_mm512_mask_div_ps", .call 5 [⟨.m512, .deref, 1⟩, ⟨.mask16, .deref, 2⟩, ⟨.m512, .deref, 3⟩, ⟨.m512, .deref, 4⟩] (id! "_mm512_mask_div_ps") [1, 2, 3, 4] (some .m512)),
  /- 613-631 -/ (id! "_mm512_mask_mov_ps", .call 4 [⟨.m512, .deref, 1⟩, ⟨.mask16, .deref, 2⟩, ⟨.m512, .deref, 3⟩] (id! "_mm512_mask_mov_ps") [1, 2, 3] (some .m512)),
  /- 23242-23261 -/ (id! "_mm512_mask_max_ps", .call 5 [⟨.m512, .deref, 1⟩, ⟨.mask16, .deref, 2⟩, ⟨.m512, .deref, 3⟩, ⟨.m512, .deref, 4⟩] (id! "_mm512_mask_max_ps") [1, 2, 3, 4] (some .m512)),
  /- 3085-3103 -/ (id! "_mm_maskz_rcp14_ss", .call 4 [⟨.mask8, .deref, 1⟩, ⟨.m128, .deref, 2⟩, ⟨.m128, .deref, 3⟩] (id! "_mm_maskz_rcp14_ss") [1, 2, 3] (some .m128)),
  /- 21666-21685 -/ (id! "_mm_mask3_fmsub_ss", .call 5 [⟨.m128, .deref, 1⟩, ⟨.m128, .deref, 2⟩, ⟨.m128, .deref, 3⟩, ⟨.mask8, .deref, 4⟩] (id! "_mm_mask3_fmsub_ss") [1, 2, 3, 4] (some .m128)),
  /- 21708-21727 -/ (id! "_mm_maskz_fmsub_ss", .call 5 [⟨.mask8, .deref, 1⟩, ⟨.m128, .deref, 2⟩, ⟨.m128, .deref, 3⟩, ⟨.m128, .deref, 4⟩] (id! "_mm_maskz_fmsub_ss") [1, 2, 3, 4] (some .m128)),
  /- 21876-21895 -/ (id! "_mm_mask_fnmsub_ss", .call 5 [⟨.m128, .deref, 1⟩, ⟨.mask8, .deref, 2⟩, ⟨.m128, .deref, 3⟩, ⟨.m128, .deref, 4⟩] (id! "_mm_mask_fnmsub_ss") [1, 2, 3, 4] (some .m128)),
  /- 21540-21559 -/ (id! "_mm_mask3_fmadd_ss", .call 5 [⟨.m128, .deref, 1⟩, ⟨.m128, .deref, 2⟩, ⟨.m128, .deref, 3⟩, ⟨.mask8, .deref, 4⟩] (id! "_mm_mask3_fmadd_ss") [1, 2, 3, 4] (some .m128)),
  /- 21582-21601 -/ (id! "_mm_maskz_fmadd_ss", .call 5 [⟨.mask8, .deref, 1⟩, ⟨.m128, .deref, 2⟩, ⟨.m128, .deref, 3⟩, ⟨.m128, .deref, 4⟩] (id! "_mm_maskz_fmadd_ss") [1, 2, 3, 4] (some .m128)),
  /- 21750-21769 -/ (id! "_mm_mask_fnmadd_ss", .call 5 [⟨.m128, .deref, 1⟩, ⟨.mask8, .deref, 2⟩, ⟨.m128, .deref, 3⟩, ⟨.m128, .deref, 4⟩] (id! "_mm_mask_fnmadd_ss") [1, 2, 3, 4] (some .m128)),
  /- 21427-21435 -/ (id! "_mm_fmsub_round_ss", .unsupported),
  /- 21407-21415 -/ (id! "_mm_fmadd_round_ss", .unsupported),
  /- 15060-15068 -/ (id! "_mm_cvt_roundsd_ss", .unsupported),
  /- 26172-26191 -/ (id! "_mm_mask_getexp_ss", .call 5 [⟨.m128, .deref, 1⟩, ⟨.mask8, .deref, 2⟩, ⟨.m128, .deref, 3⟩, ⟨.m128, .deref, 4⟩] (id! "_mm_mask_getexp_ss") [1, 2, 3, 4] (some .m128)),
  /- 27253-27269 -/ (id! "_mm512_castpd_si512", .call 2 [⟨.m512d, .deref, 1⟩] (id! "_mm512_castpd_si512") [1] (some .m512i)),
  /- 15120-15137 -/ (id! "_mm512_stream_si512", .call 2 [⟨.ptr, .deref, 0⟩, ⟨.m512i, .deref, 1⟩] (id! "_mm512_stream_si512") [0, 1] none),
  /- 27289-27305 -/ (id! "_mm512_castps_si512", .call 2 [⟨.m512, .deref, 1⟩] (id! "_mm512_castps_si512") [1] (some .m512i)),
  /- 13822-13839 -/ (id! "_mm512_andnot_si512", .call 3 [⟨.m512i, .deref, 1⟩, ⟨.m512i, .deref, 2⟩] (id! "_mm512_andnot_si512") [1, 2] (some .m512i)),
  /- 11101-11118 -/ (id! "_mm512_storeu_si512", .call 2 [⟨.ptr, .deref, 0⟩, ⟨.m512i, .deref, 1⟩] (id! "_mm512_storeu_si512") [0, 1] none),
  /- 14633-14641 -/ (id! "_mm_cvt_roundsd_i32", .unsupported),
  /- 14513-14521 -/ (id! "_mm_cvt_roundss_i32", .unsupported),
  /- 24721-24737 -/ (id! "_mm512_cvttpd_epi32", .call 2 [⟨.m512d, .deref, 1⟩] (id! "_mm512_cvttpd_epi32") [1] (some .m256i)),
  /- 18428-18436 -/ (id! "_mm512_alignr_epi32", .unsupported),
  /- 24949-24965 -/ (id! "_mm512_cvttps_epi32", .call 2 [⟨.m512, .deref, 1⟩] (id! "_mm512_cvttps_epi32") [1] (some .m512i)),
  /- 13841-13858 -/ (id! "_mm512_andnot_epi32", .call 3 [⟨.m512i, .deref, 1⟩, ⟨.m512i, .deref, 2⟩] (id! "_mm512_andnot_epi32") [1, 2] (some .m512i)),
  /- 11120-11137 -/ (id! "_mm512_storeu_epi32", .call 2 [⟨.ptr, .deref, 0⟩, ⟨.m512i, .deref, 1⟩] (id! "_mm512_storeu_epi32") [0, 1] none),
  /- 14613-14621 -/ (id! "_mm_cvt_roundsd_u32", .unsupported),
  /- 14493-14501 -/ (id! "_mm_cvt_roundss_u32", .unsupported),
  /- 24778-24794 -/ (id! "_mm512_cvttpd_epu32", .call 2 [⟨.m512d, .deref, 1⟩] (id! "_mm512_cvttpd_epu32") [1] (some .m256i)),
  /- 25006-25022 -/ (id! "_mm512_cvttps_epu32", .call 2 [⟨.m512, .deref, 1⟩] (id! "_mm512_cvttps_epu32") [1] (some .m512i)),
  /- 14573-14581 -/ (id! "_mm_cvt_roundsd_i64", .unsupported),
  /- 14453-14461 -/ (id! "_mm_cvt_roundss_i64", .unsupported),
  /- 18458-18466 -/ (id! "_mm512_alignr_epi64", .unsupported),
  /- 13901-13918 -/ (id! "_mm512_andnot_epi64", .call 3 [⟨.m512i, .deref, 1⟩, ⟨.m512i, .deref, 2⟩] (id! "_mm512_andnot_epi64") [1, 2] (some .m512i)),
  /- 10987-11004 -/ (id! "_mm512_storeu_epi64", .call 2 [⟨.ptr, .deref, 0⟩, ⟨.m512i, .deref, 1⟩] (id! "_mm512_storeu_epi64") [0, 1] none),
  /- 1211-1228 -/ (id! "_mm512_mullox_epi64", .call 3 [⟨.m512i, .deref, 1⟩, ⟨.m512i, .deref, 2⟩] (id! "_mm512_mullox_epi64") [1, 2] (some .m512i)),
  /- 14553-14561 -/ (id! "_mm_cvt_roundsd_u64", .unsupported),
  /- 14433-14441 -/ (id! "_mm_cvt_roundss_u64", .unsupported),
  /- 20355-20372 -/ (id! "_kortestc_mask16_u8", .call 3 [⟨.mask16, .deref, 1⟩, ⟨.mask16, .deref, 2⟩] (id! "_kortestc_mask16_u8") [1, 2] (some .uchar)),
  /- 20336-20353 -/ (id! "_kortestz_mask16_u8", .call 3 [⟨.mask16, .deref, 1⟩, ⟨.mask16, .deref, 2⟩] (id! "_kortestz_mask16_u8") [1, 2] (some .uchar)),
  /- 27325-27341 -/ (id! "_mm512_castsi512_pd", .call 2 [⟨.m512i, .deref, 1⟩] (id! "_mm512_castsi512_pd") [1] (some .m512d)),
  /- 22597-22615 -/ (id! "_mm512_maskz_sub_pd", .call 4 [⟨.mask8, .deref, 1⟩, ⟨.m512d, .deref, 2⟩, ⟨.m512d, .deref, 3⟩] (id! "_mm512_maskz_sub_pd") [1, 2, 3] (some .m512d)),
  /- 670-688 -/ (id! "_mm512_mask_load_pd", .call 4 [⟨.m512d, .deref, 1⟩, ⟨.mask8, .deref, 2⟩, ⟨.ptr, .deref, 3⟩] (id! "_mm512_mask_load_pd") [1, 2, 3] (some .m512d)),
  /- 22395-22413 -/ (id! "_mm512_maskz_add_pd", .call 4 [⟨.mask8, .deref, 1⟩, ⟨.m512d, .deref, 2⟩, ⟨.m512d, .deref, 3⟩] (id! "_mm512_maskz_add_pd") [1, 2, 3] (some .m512d)),
  /- 310-325 -/ (id! "_mm512_undefined_pd", .call 1 [] (id! "_mm512_undefined_pd") [] (some .m512d)),
  /- 4124-4132 -/ (id! "_mm512_sub_round_pd", .unsupported),
  /- 4029-4072 -/ (id! "_mm512_add_round_pd", .immediate 4),
  /- 4219-4227 -/ (id! "_mm512_mul_round_pd", .unsupported),
  /- 4589-4597 -/ (id! "_mm512_min_round_pd", .unsupported),
  /- 4314-4357 -/ (id! "_mm512_div_round_pd", .immediate 4),
  /- 4529-4537 -/ (id! "_mm512_max_round_pd", .unsupported),
  /- 18408-18426 -/ (id! "_mm512_mask_ceil_pd", .call 4 [⟨.m512d, .deref, 1⟩, ⟨.mask8, .deref, 2⟩, ⟨.m512d, .deref, 3⟩] (id! "_mm512_mask_ceil_pd") [1, 2, 3] (some .m512d)),
  /- 22799-22817 -/ (id! "_mm512_maskz_mul_pd", .call 4 [⟨.mask8, .deref, 1⟩, ⟨.m512d, .deref, 2⟩, ⟨.m512d, .deref, 3⟩] (id! "_mm512_maskz_mul_pd") [1, 2, 3] (some .m512d)),
  /- 23405-23423 -/ (id! "_mm512_maskz_min_pd", .call 4 [⟨.mask8, .deref, 1⟩, ⟨.m512d, .deref, 2⟩, ⟨.m512d, .deref, 3⟩] (id! "_mm512_maskz_min_pd") [1, 2, 3] (some .m512d)),
  /- 19468-19476 -/ (id! "_mm512_i32gather_pd", .unsupported),
  /- 19508-19516 -/ (id! "_mm512_i64gather_pd", .unsupported),
  /- 22259-22277 -/ (id! "_mm512_mask_sqrt_pd", .call 4 [⟨.m512d, .deref, 1⟩, ⟨.mask8, .deref, 2⟩, ⟨.m512d, .deref, 3⟩] (id! "_mm512_mask_sqrt_pd") [1, 2, 3] (some .m512d)),
  /- 23001-23019 -/ (id! "_mm512_maskz_div_pd", .call 4 [⟨.mask8, .deref, 1⟩, ⟨.m512d, .deref, 2⟩, ⟨.m512d, .deref, 3⟩] (id! "_mm512_maskz_div_pd") [1, 2, 3] (some .m512d)),
  /- 594-611 -/ (id! "_mm512_maskz_mov_pd", .call 3 [⟨.mask8, .deref, 1⟩, ⟨.m512d, .deref, 2⟩] (id! "_mm512_maskz_mov_pd") [1, 2] (some .m512d)),
  /- 23203-23221 -/ (id! "_mm512_maskz_max_pd", .call 4 [⟨.mask8, .deref, 1⟩, ⟨.m512d, .deref, 2⟩, ⟨.m512d, .deref, 3⟩] (id! "_mm512_maskz_max_pd") [1, 2, 3] (some .m512d)),
  /- 3238-3257 -/ (id! "_mm_mask_rsqrt14_sd", .call 5 [⟨.m128d, .deref, 1⟩, ⟨.mask8, .deref, 2⟩, ⟨.m128d, .deref, 3⟩, ⟨.m128d, .deref, 4⟩] (id! "_mm_mask_rsqrt14_sd") [1, 2, 3, 4] (some .m128d)),
  /- 8929-8937 -/ (id! "_mm_cvt_roundi64_sd", .unsupported),
  /- 8919-8927 -/ (id! "_mm_cvt_roundu64_sd", .unsupported),
  /- 21897-21916 -/ (id! "_mm_mask3_fnmsub_sd", .call 5 [⟨.m128d, .deref, 1⟩, ⟨.m128d, .deref, 2⟩, ⟨.m128d, .deref, 3⟩, ⟨.mask8, .deref, 4⟩] (id! "_mm_mask3_fnmsub_sd") [1, 2, 3, 4] (some .m128d)),
  /- 21939-21958 -/ (id! "_mm_maskz_fnmsub_sd", .call 5 [⟨.mask8, .deref, 1⟩, ⟨.m128d, .deref, 2⟩, ⟨.m128d, .deref, 3⟩, ⟨.m128d, .deref, 4⟩] (id! "_mm_maskz_fnmsub_sd") [1, 2, 3, 4] (some .m128d)),
  /- 21771-21790 -/ (id! "_mm_mask3_fnmadd_sd", .call 5 [⟨.m128d, .deref, 1⟩, ⟨.m128d, .deref, 2⟩, ⟨.m128d, .deref, 3⟩, ⟨.mask8, .deref, 4⟩] (id! "_mm_mask3_fnmadd_sd") [1, 2, 3, 4] (some .m128d)),
  /- 21813-21832 -/ (id! "_mm_maskz_fnmadd_sd", .call 5 [⟨.mask8, .deref, 1⟩, ⟨.m128d, .deref, 2⟩, ⟨.m128d, .deref, 3⟩, ⟨.m128d, .deref, 4⟩] (id! "_mm_maskz_fnmadd_sd") [1, 2, 3, 4] (some .m128d)),
  /- 21457-21465 -/ (id! "_mm_fnmsub_round_sd", .unsupported),
  /- 21437-21445 -/ (id! "_mm_fnmadd_round_sd", .unsupported),
  /- 4709-4717 -/ (id! "_mm_scalef_round_sd", .unsupported),
  /- 15333-15376 -/ (id! "_mm_getexp_round_sd", .immediate 4),
  /- 26253-26271 -/ (id! "_mm_maskz_getexp_sd", .call 4 [⟨.mask8, .deref, 1⟩, ⟨.m128d, .deref, 2⟩, ⟨.m128d, .deref, 3⟩] (id! "_mm_maskz_getexp_sd") [1, 2, 3] (some .m128d)),
  /- 26343-26351 -/ (id! "_mm_mask_getmant_sd", .unsupported),
  /- 27307-27323 -/ (id! "_mm512_castsi512_ps", .call 2 [⟨.m512i, .deref, 1⟩] (id! "_mm512_castsi512_ps") [1] (some .m512)),
  /- 22657-22675 -/ (id! "_mm512_maskz_sub_ps", .call 4 [⟨.mask16, .deref, 1⟩, ⟨.m512, .deref, 2⟩, ⟨.m512, .deref, 3⟩] (id! "_mm512_maskz_sub_ps") [1, 2, 3] (some .m512)),
  /- 766-784 -/ (id! "_mm512_mask_load_ps", .call 4 [⟨.m512, .deref, 1⟩, ⟨.mask16, .deref, 2⟩, ⟨.ptr, .deref, 3⟩] (id! "_mm512_mask_load_ps") [1, 2, 3] (some .m512)),
  /- 22455-22473 -/ (id! "_mm512_maskz_add_ps", .call 4 [⟨.mask16, .deref, 1⟩, ⟨.m512, .deref, 2⟩, ⟨.m512, .deref, 3⟩] (id! "_mm512_maskz_add_ps") [1, 2, 3] (some .m512)),
  /- 293-308 -/ (id! "_mm512_undefined_ps", .call 1 [] (id! "_mm512_undefined_ps") [] (some .m512)),
  /- 4154-4197 -/ (id! "_mm512_sub_round_ps", .immediate 4),
  /- 4094-4102 -/ (id! "_mm512_add_round_ps", .unsupported),
  /- 4249-4292 -/ (id! "_mm512_mul_round_ps", .immediate 4),
  /- 4619-4627 -/ (id! "_mm512_min_round_ps", .unsupported),
  /- 4379-4387 -/ (id! "_mm512_div_round_ps", .unsupported),
  /- 4559-4567 -/ (id! "_mm512_max_round_ps", .unsupported),
  /- 18388-18406 -/ (id! "_mm512_mask_ceil_ps", .call 4 [⟨.m512, .deref, 1⟩, ⟨.mask16, .deref, 2⟩, ⟨.m512, .deref, 3⟩] (id! "_mm512_mask_ceil_ps") [1, 2, 3] (some .m512)),
  /- 22859-22877 -/ (id! "_mm512_maskz_mul_ps", .call 4 [⟨.mask16, .deref, 1⟩, ⟨.m512, .deref, 2⟩, ⟨.m512, .deref, 3⟩] (id! "_mm512_maskz_mul_ps") [1, 2, 3] (some .m512)),
  /- 23465-23483 -/ (id! "_mm512_maskz_min_ps", .call 4 [⟨.mask16, .deref, 1⟩, ⟨.m512, .deref, 2⟩, ⟨.m512, .deref, 3⟩] (id! "_mm512_maskz_min_ps") [1, 2, 3] (some .m512)),
  /- 19448-19456 -/ (id! "_mm512_i32gather_ps", .unsupported),
  /- 19488-19496 -/ (id! "_mm512_i64gather_ps", .unsupported),
  /- 22316-22334 -/ (id! "_mm512_mask_sqrt_ps", .call 4 [⟨.m512, .deref, 1⟩, ⟨.mask16, .deref, 2⟩, ⟨.m512, .deref, 3⟩] (id! "_mm512_mask_sqrt_ps") [1, 2, 3] (some .m512)),
  /- 23061-23079 -/ (id! "_mm512_maskz_div_ps", .call 4 [⟨.mask16, .deref, 1⟩, ⟨.m512, .deref, 2⟩, ⟨.m512, .deref, 3⟩] (id! "_mm512_maskz_div_ps") [1, 2, 3] (some .m512)),
  /- 633-650 -/ (id! "_mm512_maskz_mov_ps", .call 3 [⟨.mask16, .deref, 1⟩, ⟨.m512, .deref, 2⟩] (id! "_mm512_maskz_mov_ps") [1, 2] (some .m512)),
  /- 23263-23281 -/ (id! "_mm512_maskz_max_ps", .call 4 [⟨.mask16, .deref, 1⟩, ⟨.m512, .deref, 2⟩, ⟨.m512, .deref, 3⟩] (id! "_mm512_maskz_max_ps") [1, 2, 3] (some .m512)),
  /- 8969-8977 -/ (id! "_mm_cvt_roundi32_ss", .unsupported),
  /- 8949-8957 -/ (id! "_mm_cvt_roundu32_ss", .unsupported),
  /- 3298-3317 -/ (id! "_mm_mask_rsqrt14_ss", .call 5 [⟨.m128, .deref, 1⟩, ⟨.mask8, .deref, 2⟩, ⟨.m128, .deref, 3⟩, ⟨.m128, .deref, 4⟩] (id! "_mm_mask_rsqrt14_ss") [1, 2, 3, 4] (some .m128)),
  /- 8999-9007 -/ (id! "_mm_cvt_roundi64_ss", .unsupported),
  /- 8979-8987 -/ (id! "_mm_cvt_roundu64_ss", .unsupported),
  /- 21918-21937 -/ (id! "_mm_mask3_fnmsub_ss", .call 5 [⟨.m128, .deref, 1⟩, ⟨.m128, .deref, 2⟩, ⟨.m128, .deref, 3⟩, ⟨.mask8, .deref, 4⟩] (id! "_mm_mask3_fnmsub_ss") [1, 2, 3, 4] (some .m128)),
  /- 21960-21979 -/ (id! "_mm_maskz_fnmsub_ss", .call 5 [⟨.mask8, .deref, 1⟩, ⟨.m128, .deref, 2⟩, ⟨.m128, .deref, 3⟩, ⟨.m128, .deref, 4⟩] (id! "_mm_maskz_fnmsub_ss") [1, 2, 3, 4] (some .m128)),
  /- 21792-21811 -/ (id! "_mm_mask3_fnmadd_ss", .call 5 [⟨.m128, .deref, 1⟩, ⟨.m128, .deref, 2⟩, ⟨.m128, .deref, 3⟩, ⟨.mask8, .deref, 4⟩] (id! "_mm_mask3_fnmadd_ss") [1, 2, 3, 4] (some .m128)),
  /- 21834-21853 -/ (id! "_mm_maskz_fnmadd_ss", .call 5 [⟨.mask8, .deref, 1⟩, ⟨.m128, .deref, 2⟩, ⟨.m128, .deref, 3⟩, ⟨.m128, .deref, 4⟩] (id! "_mm_maskz_fnmadd_ss") [1, 2, 3, 4] (some .m128)),
  /- 21467-21475 -/ (id! "_mm_fnmsub_round_ss", .unsupported),
  /- 21447-21455 -/ (id! "_mm_fnmadd_round_ss", .unsupported),
  /- 4739-4747 -/ (id! "_mm_scalef_round_ss", .unsupported),
  /- 15195-15238 -/ (id! "_mm_getexp_round_ss", .immediate 4),
  /- 26193-26211 -/ (id! "_mm_maskz_getexp_ss", .call 4 [⟨.mask8, .deref, 1⟩, ⟨.m128, .deref, 2⟩, ⟨.m128, .deref, 3⟩] (id! "_mm_maskz_getexp_ss") [1, 2, 3] (some .m128)),
  /- 26373-26381 -/ (id! "_mm_mask_getmant_ss", .unsupported),
  /- 557-572 -/ (id! "_mm512_setzero_si512", .call 1 [] (id! "_mm512_setzero_si512") [] (some .m512i)),
  /- 14653-14661 -/ (id! "_mm_cvtt_roundsd_i32", .unsupported),
  /- 14533-14541 -/ (id! "_mm_cvtt_roundss_i32", .unsupported),
  /- 3459-3475 -/ (id! "_mm512_cvtepi8_epi32", .call 2 [⟨.m128i, .deref, 1⟩] (id! "_mm512_cvtepi8_epi32") [1] (some .m512i)),
  /- 3744-3760 -/ (id! "_mm512_cvtepu8_epi32", .call 2 [⟨.m128i, .deref, 1⟩] (id! "_mm512_cvtepu8_epi32") [1] (some .m512i)),
  /- 5906-6701 -/ (id! "_mm512_shuffle_epi32", .immediate 3),
  /- 540-555 -/ (id! "_mm512_setzero_epi32", .call 1 [] (id! "_mm512_setzero_epi32") [] (some .m512i)),
  /- 13092-13111 -/ (id! "_mm512_mask_or_epi32", .call 5 [⟨.m512i, .deref, 1⟩, ⟨.mask16, .deref, 2⟩, ⟨.m512i, .deref, 3⟩, ⟨.m512i, .deref, 4⟩] (id! "_mm512_mask_or_epi32") [1, 2, 3, 4] (some .m512i)),
  /- 25558-25574 -/ (id! "_mm512_cvtsi512_si32", .call 2 [⟨.m512i, .deref, 1⟩] (id! "_mm512_cvtsi512_si32") [1] (some .int)),
  /- 14623-14631 -/ (id! "_mm_cvt_roundsd_si32", .unsupported),
  /- 14503-14511 -/ (id! "_mm_cvt_roundss_si32", .unsupported),
  /- 14643-14651 -/ (id! "_mm_cvtt_roundsd_u32", .unsupported),
  /- 14523-14531 -/ (id! "_mm_cvtt_roundss_u32", .unsupported),
  /- 8360-8368 -/ (id! "_mm512_shuffle_f64x2", .unsupported),
  /- 8300-8308 -/ (id! "_mm512_shuffle_i64x2", .unsupported),
  /- 14603-14611 -/ (id! "_mm_cvtt_roundsd_i64", .unsupported),
  /- 14473-14481 -/ (id! "_mm_cvtt_roundss_i64", .unsupported),
  /- 3516-3532 -/ (id! "_mm512_cvtepi8_epi64", .call 2 [⟨.m128i, .deref, 1⟩] (id! "_mm512_cvtepi8_epi64") [1] (some .m512i)),
  /- 3801-3817 -/ (id! "_mm512_cvtepu8_epi64", .call 2 [⟨.m128i, .deref, 1⟩] (id! "_mm512_cvtepu8_epi64") [1] (some .m512i)),
  /- 13152-13171 -/ (id! "_mm512_mask_or_epi64", .call 5 [⟨.m512i, .deref, 1⟩, ⟨.mask8, .deref, 2⟩, ⟨.m512i, .deref, 3⟩, ⟨.m512i, .deref, 4⟩] (id! "_mm512_mask_or_epi64") [1, 2, 3, 4] (some .m512i)),
  /- 14563-14571 -/ (id! "_mm_cvt_roundsd_si64", .unsupported),
  /- 14443-14451 -/ (id! "_mm_cvt_roundss_si64", .unsupported),
  /- 14583-14591 -/ (id! "_mm_cvtt_roundsd_u64", .unsupported),
  /- 14463-14471 -/ (id! "_mm_cvtt_roundss_u64", .unsupported),
  /- 8390-8398 -/ (id! "_mm512_shuffle_f32x4", .unsupported),
  /- 8330-8338 -/ (id! "_mm512_shuffle_i32x4", .unsupported),
  /- 9009-9025 -/ (id! "_mm512_cvtepi32_epi8", .call 2 [⟨.m512i, .deref, 1⟩] (id! "_mm512_cvtepi32_epi8") [1] (some .m128i)),
  /- 9933-9949 -/ (id! "_mm512_cvtepi64_epi8", .call 2 [⟨.m512i, .deref, 1⟩] (id! "_mm512_cvtepi64_epi8") [1] (some .m128i)),
  /- 2889-2907 -/ (id! "_mm512_mask_rcp14_pd", .call 4 [⟨.m512d, .deref, 1⟩, ⟨.mask8, .deref, 2⟩, ⟨.m512d, .deref, 3⟩] (id! "_mm512_mask_rcp14_pd") [1, 2, 3] (some .m512d)),
  /- 23911-23930 -/ (id! "_mm512_mask_fmsub_pd", .call 5 [⟨.m512d, .deref, 1⟩, ⟨.mask8, .deref, 2⟩, ⟨.m512d, .deref, 3⟩, ⟨.m512d, .deref, 4⟩] (id! "_mm512_mask_fmsub_pd") [1, 2, 3, 4] (some .m512d)),
  /- 690-707 -/ (id! "_mm512_maskz_load_pd", .call 3 [⟨.mask8, .deref, 1⟩, ⟨.ptr, .deref, 2⟩] (id! "_mm512_maskz_load_pd") [1, 2] (some .m512d)),
  /- 28563-28579 -/ (id! "_mm512_reduce_add_pd", .call 2 [⟨.m512d, .deref, 1⟩] (id! "_mm512_reduce_add_pd") [1] (some .double)),
  /- 23745-23764 -/ (id! "_mm512_mask_fmadd_pd", .call 5 [⟨.m512d, .deref, 1⟩, ⟨.mask8, .deref, 2⟩, ⟨.m512d, .deref, 3⟩, ⟨.m512d, .deref, 4⟩] (id! "_mm512_mask_fmadd_pd") [1, 2, 3, 4] (some .m512d)),
  /- 21317-21335 -/ (id! "_mm512_mask_blend_pd", .call 4 [⟨.mask8, .deref, 1⟩, ⟨.m512d, .deref, 2⟩, ⟨.m512d, .deref, 3⟩] (id! "_mm512_mask_blend_pd") [1, 2, 3] (some .m512d)),
  /- 3339-3347 -/ (id! "_mm512_sqrt_round_pd", .unsupported),
  /- 26423-26431 -/ (id! "_mm512_roundscale_pd", .unsupported),
  /- 728-746 -/ (id! "_mm512_mask_store_pd", .call 3 [⟨.ptr, .deref, 0⟩, ⟨.mask8, .deref, 1⟩, ⟨.m512d, .deref, 2⟩] (id! "_mm512_mask_store_pd") [0, 1, 2] none),
  /- 28581-28597 -/ (id! "_mm512_reduce_mul_pd", .call 2 [⟨.m512d, .deref, 1⟩] (id! "_mm512_reduce_mul_pd") [1] (some .double)),
  /- 28637-28653 -/ (id! "_mm512_reduce_min_pd", .call 2 [⟨.m512d, .deref, 1⟩] (id! "_mm512_reduce_min_pd") [1] (some .double)),
  /- 11159-11176 -/ (id! "_mm512_permutevar_pd", .call 3 [⟨.m512d, .deref, 1⟩, ⟨.m512i, .deref, 2⟩] (id! "_mm512_permutevar_pd") [1, 2] (some .m512d)),
  /- 19628-19636 -/ (id! "_mm512_i32scatter_pd", .unsupported),
  /- 19668-19676 -/ (id! "_mm512_i64scatter_pd", .unsupported),
  /- 18368-18386 -/ (id! "_mm512_mask_floor_pd", .call 4 [⟨.m512d, .deref, 1⟩, ⟨.mask8, .deref, 2⟩, ⟨.m512d, .deref, 3⟩] (id! "_mm512_mask_floor_pd") [1, 2, 3] (some .m512d)),
  /- 25886-25904 -/ (id! "_mm512_mask_cvtps_pd", .call 4 [⟨.m512d, .deref, 1⟩, ⟨.mask8, .deref, 2⟩, ⟨.m256, .deref, 3⟩] (id! "_mm512_mask_cvtps_pd") [1, 2, 3] (some .m512d)),
  /- 22279-22296 -/ (id! "_mm512_maskz_sqrt_pd", .call 3 [⟨.mask8, .deref, 1⟩, ⟨.m512d, .deref, 2⟩] (id! "_mm512_maskz_sqrt_pd") [1, 2] (some .m512d)),
  /- 10556-10574 -/ (id! "_mm512_mask_loadu_pd", .call 4 [⟨.m512d, .deref, 1⟩, ⟨.mask8, .deref, 2⟩, ⟨.ptr, .deref, 3⟩] (id! "_mm512_mask_loadu_pd") [1, 2, 3] (some .m512d)),
  /- 28655-28671 -/ (id! "_mm512_reduce_max_pd", .call 2 [⟨.m512d, .deref, 1⟩] (id! "_mm512_reduce_max_pd") [1] (some .double)),
  /- 3259-3277 -/ (id! "_mm_maskz_rsqrt14_sd", .call 4 [⟨.mask8, .deref, 1⟩, ⟨.m128d, .deref, 2⟩, ⟨.m128d, .deref, 3⟩] (id! "_mm_maskz_rsqrt14_sd") [1, 2, 3] (some .m128d)),
  /- 8939-8947 -/ (id! "_mm_cvt_roundsi64_sd", .unsupported),
  /- 17747-18104 -/ (id! "_mm_getmant_round_sd", .immediate 6),
  /- 25454-25462 -/ (id! "_mm_mask_fixupimm_sd", .unsupported),
  /- 26353-26361 -/ (id! "_mm_maskz_getmant_sd", .unsupported),
  /- 15000-15008 -/ (id! "_mm512_mask_cvtps_ph", .unsupported),
  /- 26671-26688 -/ (id! "_mm512_cmple_pd_mask", .call 3 [⟨.m512d, .deref, 1⟩, ⟨.m512d, .deref, 2⟩] (id! "_mm512_cmple_pd_mask") [1, 2] (some .mask8)),
  /- 26593-26610 -/ (id! "_mm512_cmpeq_pd_mask", .call 3 [⟨.m512d, .deref, 1⟩, ⟨.m512d, .deref, 2⟩] (id! "_mm512_cmpeq_pd_mask") [1, 2] (some .mask8)),
  /- 26632-26649 -/ (id! "_mm512_cmplt_pd_mask", .call 3 [⟨.m512d, .deref, 1⟩, ⟨.m512d, .deref, 2⟩] (id! "_mm512_cmplt_pd_mask") [1, 2] (some .mask8)),
  /- 26563-26571 -/ (id! "_mm_mask_cmp_sd_mask", .unsupported),
  /- 26983-27000 -/ (id! "_mm512_cmple_ps_mask", .call 3 [⟨.m512, .deref, 1⟩, ⟨.m512, .deref, 2⟩] (id! "_mm512_cmple_ps_mask") [1, 2] (some .mask16)),
  /- 26905-26922 -/ (id! "_mm512_cmpeq_ps_mask", .call 3 [⟨.m512, .deref, 1⟩, ⟨.m512, .deref, 2⟩] (id! "_mm512_cmpeq_ps_mask") [1, 2] (some .mask16)),
  /- 26944-26961 -/ (id! "_mm512_cmplt_ps_mask", .call 3 [⟨.m512, .deref, 1⟩, ⟨.m512, .deref, 2⟩] (id! "_mm512_cmplt_ps_mask") [1, 2] (some .mask16)),
  /- 26583-26591 -/ (id! "_mm_mask_cmp_ss_mask", .unsupported),
  /- 2946-2964 -/ (id! "_mm512_mask_rcp14_ps", .call 4 [⟨.m512, .deref, 1⟩, ⟨.mask16, .deref, 2⟩, ⟨.m512, .deref, 3⟩] (id! "_mm512_mask_rcp14_ps") [1, 2, 3] (some .m512)),
  /- 23994-24013 -/ (id! "_mm512_mask_fmsub_ps", .call 5 [⟨.m512, .deref, 1⟩, ⟨.mask16, .deref, 2⟩, ⟨.m512, .deref, 3⟩, ⟨.m512, .deref, 4⟩] (id! "_mm512_mask_fmsub_ps") [1, 2, 3, 4] (some .m512)),
  /- 786-803 -/ (id! "_mm512_maskz_load_ps", .call 3 [⟨.mask16, .deref, 1⟩, ⟨.ptr, .deref, 2⟩] (id! "_mm512_maskz_load_ps") [1, 2] (some .m512)),
  /- 28119-28135 -/ (id! "_mm512_reduce_add_ps", .call 2 [⟨.m512, .deref, 1⟩] (id! "_mm512_reduce_add_ps") [1] (some .float)),
  /- 23828-23847 -/ (id! "_mm512_mask_fmadd_ps", .call 5 [⟨.m512, .deref, 1⟩, ⟨.mask16, .deref, 2⟩, ⟨.m512, .deref, 3⟩, ⟨.m512, .deref, 4⟩] (id! "_mm512_mask_fmadd_ps") [1, 2, 3, 4] (some .m512)),
  /- 21337-21355 -/ (id! "_mm512_mask_blend_ps", .call 4 [⟨.mask16, .deref, 1⟩, ⟨.m512, .deref, 2⟩, ⟨.m512, .deref, 3⟩] (id! "_mm512_mask_blend_ps") [1, 2, 3] (some .m512)),
  /- 3369-3377 -/ (id! "_mm512_sqrt_round_ps", .unsupported),
  /- 26000-26018 -/ (id! "_mm512_mask_cvtpd_ps", .call 4 [⟨.m256, .deref, 1⟩, ⟨.mask8, .deref, 2⟩, ⟨.m512d, .deref, 3⟩] (id! "_mm512_mask_cvtpd_ps") [1, 2, 3] (some .m256)),
  /- 26393-26401 -/ (id! "_mm512_roundscale_ps", .unsupported),
  /- 824-842 -/ (id! "_mm512_mask_store_ps", .call 3 [⟨.ptr, .deref, 0⟩, ⟨.mask16, .deref, 1⟩, ⟨.m512, .deref, 2⟩] (id! "_mm512_mask_store_ps") [0, 1, 2] none),
  /- 25943-25961 -/ (id! "_mm512_mask_cvtph_ps", .call 4 [⟨.m512, .deref, 1⟩, ⟨.mask16, .deref, 2⟩, ⟨.m256i, .deref, 3⟩] (id! "_mm512_mask_cvtph_ps") [1, 2, 3] (some .m512)),
  /- 28137-28153 -/ (id! "_mm512_reduce_mul_ps", .call 2 [⟨.m512, .deref, 1⟩] (id! "_mm512_reduce_mul_ps") [1] (some .float)),
  /- 28193-28209 -/ (id! "_mm512_reduce_min_ps", .call 2 [⟨.m512, .deref, 1⟩] (id! "_mm512_reduce_min_ps") [1] (some .float)),
  /- 11219-11236 -/ (id! "_mm512_permutevar_ps", .call 3 [⟨.m512, .deref, 1⟩, ⟨.m512i, .deref, 2⟩] (id! "_mm512_permutevar_ps") [1, 2] (some .m512)),
  /- 19608-19616 -/ (id! "_mm512_i32scatter_ps", .unsupported),
  /- 19648-19656 -/ (id! "_mm512_i64scatter_ps", .unsupported),
  /- 18348-18366 -/ (id! "_mm512_mask_floor_ps", .call 4 [⟨.m512, .deref, 1⟩, ⟨.mask16, .deref, 2⟩, ⟨.m512, .deref, 3⟩] (id! "_mm512_mask_floor_ps") [1, 2, 3] (some .m512)),
  /- 22336-22353 -/ (id! "_mm512_maskz_sqrt_ps", .call 3 [⟨.mask16, .deref, 1⟩, ⟨.m512, .deref, 2⟩] (id! "_mm512_maskz_sqrt_ps") [1, 2] (some .m512)),
  /- 10652-10670 -/ (id! "_mm512_mask_loadu_ps", .call 4 [⟨.m512, .deref, 1⟩, ⟨.mask16, .deref, 2⟩, ⟨.ptr, .deref, 3⟩] (id! "_mm512_mask_loadu_ps") [1, 2, 3] (some .m512)),
  /- 28211-28227 -/ (id! "_mm512_reduce_max_ps", .call 2 [⟨.m512, .deref, 1⟩] (id! "_mm512_reduce_max_ps") [1] (some .float)),
  /- 8959-8967 -/ (id! "_mm_cvt_roundsi32_ss", .unsupported),
  /- 3319-3337 -/ (id! "_mm_maskz_rsqrt14_ss", .call 4 [⟨.mask8, .deref, 1⟩, ⟨.m128, .deref, 2⟩, ⟨.m128, .deref, 3⟩] (id! "_mm_maskz_rsqrt14_ss") [1, 2, 3] (some .m128)),
  /- 8989-8997 -/ (id! "_mm_cvt_roundsi64_ss", .unsupported),
  /- 18126-18134 -/ (id! "_mm_getmant_round_ss", .unsupported),
  /- 25484-25492 -/ (id! "_mm_mask_fixupimm_ss", .unsupported),
  /- 26383-26391 -/ (id! "_mm_maskz_getmant_ss", .unsupported),
  /- 9471-9487 -/ (id! "_mm512_cvtepi64_epi32", .call 2 [⟨.m512i, .deref, 1⟩] (id! "_mm512_cvtepi64_epi32") [1] (some .m256i)),
  /- 3573-3589 -/ (id! "_mm512_cvtepi16_epi32", .call 2 [⟨.m256i, .deref, 1⟩] (id! "_mm512_cvtepi16_epi32") [1] (some .m512i)),
  /- 3858-3874 -/ (id! "_mm512_cvtepu16_epi32", .call 2 [⟨.m256i, .deref, 1⟩] (id! "_mm512_cvtepu16_epi32") [1] (some .m512i)),
  /- 2650-2669 -/ (id! "_mm512_mask_sra_epi32", .call 5 [⟨.m512i, .deref, 1⟩, ⟨.mask16, .deref, 2⟩, ⟨.m512i, .deref, 3⟩, ⟨.m128i, .deref, 4⟩] (id! "_mm512_mask_sra_epi32") [1, 2, 3, 4] (some .m512i)),
  /- 1870-1889 -/ (id! "_mm512_mask_sub_epi32", .call 5 [⟨.m512i, .deref, 1⟩, ⟨.mask16, .deref, 2⟩, ⟨.m512i, .deref, 3⟩, ⟨.m512i, .deref, 4⟩] (id! "_mm512_mask_sub_epi32") [1, 2, 3, 4] (some .m512i)),
  /- 1750-1769 -/ (id! "_mm512_mask_add_epi32", .call 5 [⟨.m512i, .deref, 1⟩, ⟨.mask16, .deref, 2⟩, ⟨.m512i, .deref, 3⟩, ⟨.m512i, .deref, 4⟩] (id! "_mm512_mask_add_epi32") [1, 2, 3, 4] (some .m512i)),
  /- 13721-13740 -/ (id! "_mm512_mask_and_epi32", .call 5 [⟨.m512i, .deref, 1⟩, ⟨.mask16, .deref, 2⟩, ⟨.m512i, .deref, 3⟩, ⟨.m512i, .deref, 4⟩] (id! "_mm512_mask_and_epi32") [1, 2, 3, 4] (some .m512i)),
  /- 14193-14210 -/ (id! "_mm512_unpackhi_epi32", .call 3 [⟨.m512i, .deref, 1⟩, ⟨.m512i, .deref, 2⟩] (id! "_mm512_unpackhi_epi32") [1, 2] (some .m512i)),
  /- 2410-2429 -/ (id! "_mm512_mask_sll_epi32", .call 5 [⟨.m512i, .deref, 1⟩, ⟨.mask16, .deref, 2⟩, ⟨.m512i, .deref, 3⟩, ⟨.m128i, .deref, 4⟩] (id! "_mm512_mask_sll_epi32") [1, 2, 3, 4] (some .m512i)),
  /- 13342-13350 -/ (id! "_mm512_mask_rol_epi32", .unsupported),
  /- 2530-2549 -/ (id! "_mm512_mask_srl_epi32", .call 5 [⟨.m512i, .deref, 1⟩, ⟨.mask16, .deref, 2⟩, ⟨.m512i, .deref, 3⟩, ⟨.m128i, .deref, 4⟩] (id! "_mm512_mask_srl_epi32") [1, 2, 3, 4] (some .m512i)),
  /- 1810-1829 -/ (id! "_mm512_mask_mul_epi32", .call 5 [⟨.m512i, .deref, 1⟩, ⟨.mask8, .deref, 2⟩, ⟨.m512i, .deref, 3⟩, ⟨.m512i, .deref, 4⟩] (id! "_mm512_mask_mul_epi32") [1, 2, 3, 4] (some .m512i)),
  /- 20996-21015 -/ (id! "_mm512_mask_min_epi32", .call 5 [⟨.m512i, .deref, 1⟩, ⟨.mask16, .deref, 2⟩, ⟨.m512i, .deref, 3⟩, ⟨.m512i, .deref, 4⟩] (id! "_mm512_mask_min_epi32") [1, 2, 3, 4] (some .m512i)),
  /- 14313-14330 -/ (id! "_mm512_unpacklo_epi32", .call 3 [⟨.m512i, .deref, 1⟩, ⟨.m512i, .deref, 2⟩] (id! "_mm512_unpacklo_epi32") [1, 2] (some .m512i)),
  /- 13113-13131 -/ (id! "_mm512_maskz_or_epi32", .call 4 [⟨.mask16, .deref, 1⟩, ⟨.m512i, .deref, 2⟩, ⟨.m512i, .deref, 3⟩] (id! "_mm512_maskz_or_epi32") [1, 2, 3] (some .m512i)),
  /- 13487-13495 -/ (id! "_mm512_mask_ror_epi32", .unsupported),
  /- 13231-13250 -/ (id! "_mm512_mask_xor_epi32", .call 5 [⟨.m512i, .deref, 1⟩, ⟨.mask16, .deref, 2⟩, ⟨.m512i, .deref, 3⟩, ⟨.m512i, .deref, 4⟩] (id! "_mm512_mask_xor_epi32") [1, 2, 3, 4] (some .m512i)),
  /- 5324-5342 -/ (id! "_mm512_mask_abs_epi32", .call 4 [⟨.m512i, .deref, 1⟩, ⟨.mask16, .deref, 2⟩, ⟨.m512i, .deref, 3⟩] (id! "_mm512_mask_abs_epi32") [1, 2, 3] (some .m512i)),
  /- 979-997 -/ (id! "_mm512_mask_mov_epi32", .call 4 [⟨.m512i, .deref, 1⟩, ⟨.mask16, .deref, 2⟩, ⟨.m512i, .deref, 3⟩] (id! "_mm512_mask_mov_epi32") [1, 2, 3] (some .m512i)),
  /- 20936-20955 -/ (id! "_mm512_mask_max_epi32", .call 5 [⟨.m512i, .deref, 1⟩, ⟨.mask16, .deref, 2⟩, ⟨.m512i, .deref, 3⟩, ⟨.m512i, .deref, 4⟩] (id! "_mm512_mask_max_epi32") [1, 2, 3, 4] (some .m512i)),
  /- 14663-14671 -/ (id! "_mm_cvtt_roundsd_si32", .unsupported),
  /- 14543-14551 -/ (id! "_mm_cvtt_roundss_si32", .unsupported),
  /- 1930-1949 -/ (id! "_mm512_mask_mul_epu32", .call 5 [⟨.m512i, .deref, 1⟩, ⟨.mask8, .deref, 2⟩, ⟨.m512i, .deref, 3⟩, ⟨.m512i, .deref, 4⟩] (id! "_mm512_mask_mul_epu32") [1, 2, 3, 4] (some .m512i)),
  /- 21116-21135 -/ (id! "_mm512_mask_min_epu32", .call 5 [⟨.m512i, .deref, 1⟩, ⟨.mask16, .deref, 2⟩, ⟨.m512i, .deref, 3⟩, ⟨.m512i, .deref, 4⟩] (id! "_mm512_mask_min_epu32") [1, 2, 3, 4] (some .m512i)),
  /- 21056-21075 -/ (id! "_mm512_mask_max_epu32", .call 5 [⟨.m512i, .deref, 1⟩, ⟨.mask16, .deref, 2⟩, ⟨.m512i, .deref, 3⟩, ⟨.m512i, .deref, 4⟩] (id! "_mm512_mask_max_epu32") [1, 2, 3, 4] (some .m512i)),
  /- 3687-3703 -/ (id! "_mm512_cvtepi32_epi64", .call 2 [⟨.m256i, .deref, 1⟩] (id! "_mm512_cvtepi32_epi64") [1] (some .m512i)),
  /- 3972-3988 -/ (id! "_mm512_cvtepu32_epi64", .call 2 [⟨.m256i, .deref, 1⟩] (id! "_mm512_cvtepu32_epi64") [1] (some .m512i)),
  /- 3630-3646 -/ (id! "_mm512_cvtepi16_epi64", .call 2 [⟨.m128i, .deref, 1⟩] (id! "_mm512_cvtepi16_epi64") [1] (some .m512i)),
  /- 3915-3931 -/ (id! "_mm512_cvtepu16_epi64", .call 2 [⟨.m128i, .deref, 1⟩] (id! "_mm512_cvtepu16_epi64") [1] (some .m512i)),
  /- 2290-2309 -/ (id! "_mm512_mask_sra_epi64", .call 5 [⟨.m512i, .deref, 1⟩, ⟨.mask8, .deref, 2⟩, ⟨.m512i, .deref, 3⟩, ⟨.m128i, .deref, 4⟩] (id! "_mm512_mask_sra_epi64") [1, 2, 3, 4] (some .m512i)),
  /- 1510-1529 -/ (id! "_mm512_mask_sub_epi64", .call 5 [⟨.m512i, .deref, 1⟩, ⟨.mask8, .deref, 2⟩, ⟨.m512i, .deref, 3⟩, ⟨.m512i, .deref, 4⟩] (id! "_mm512_mask_sub_epi64") [1, 2, 3, 4] (some .m512i)),
  /- 1450-1469 -/ (id! "_mm512_mask_add_epi64", .call 5 [⟨.m512i, .deref, 1⟩, ⟨.mask8, .deref, 2⟩, ⟨.m512i, .deref, 3⟩, ⟨.m512i, .deref, 4⟩] (id! "_mm512_mask_add_epi64") [1, 2, 3, 4] (some .m512i)),
  /- 13781-13800 -/ (id! "_mm512_mask_and_epi64", .call 5 [⟨.m512i, .deref, 1⟩, ⟨.mask8, .deref, 2⟩, ⟨.m512i, .deref, 3⟩, ⟨.m512i, .deref, 4⟩] (id! "_mm512_mask_and_epi64") [1, 2, 3, 4] (some .m512i)),
  /- 14253-14270 -/ (id! "_mm512_unpackhi_epi64", .call 3 [⟨.m512i, .deref, 1⟩, ⟨.m512i, .deref, 2⟩] (id! "_mm512_unpackhi_epi64") [1, 2] (some .m512i)),
  /- 2050-2069 -/ (id! "_mm512_mask_sll_epi64", .call 5 [⟨.m512i, .deref, 1⟩, ⟨.mask8, .deref, 2⟩, ⟨.m512i, .deref, 3⟩, ⟨.m128i, .deref, 4⟩] (id! "_mm512_mask_sll_epi64") [1, 2, 3, 4] (some .m512i)),
  /- 13633-13641 -/ (id! "_mm512_mask_rol_epi64", .unsupported),
  /- 2170-2189 -/ (id! "_mm512_mask_srl_epi64", .call 5 [⟨.m512i, .deref, 1⟩, ⟨.mask8, .deref, 2⟩, ⟨.m512i, .deref, 3⟩, ⟨.m128i, .deref, 4⟩] (id! "_mm512_mask_srl_epi64") [1, 2, 3, 4] (some .m512i)),
  /- 20736-20755 -/ (id! "_mm512_mask_min_epi64", .call 5 [⟨.m512i, .deref, 1⟩, ⟨.mask8, .deref, 2⟩, ⟨.m512i, .deref, 3⟩, ⟨.m512i, .deref, 4⟩] (id! "_mm512_mask_min_epi64") [1, 2, 3, 4] (some .m512i)),
  /- 14373-14390 -/ (id! "_mm512_unpacklo_epi64", .call 3 [⟨.m512i, .deref, 1⟩, ⟨.m512i, .deref, 2⟩] (id! "_mm512_unpacklo_epi64") [1, 2] (some .m512i)),
  /- 13173-13191 -/ (id! "_mm512_maskz_or_epi64", .call 4 [⟨.mask8, .deref, 1⟩, ⟨.m512i, .deref, 2⟩, ⟨.m512i, .deref, 3⟩] (id! "_mm512_maskz_or_epi64") [1, 2, 3] (some .m512i)),
  /- 13663-13671 -/ (id! "_mm512_mask_ror_epi64", .unsupported),
  /- 13291-13310 -/ (id! "_mm512_mask_xor_epi64", .call 5 [⟨.m512i, .deref, 1⟩, ⟨.mask8, .deref, 2⟩, ⟨.m512i, .deref, 3⟩, ⟨.m512i, .deref, 4⟩] (id! "_mm512_mask_xor_epi64") [1, 2, 3, 4] (some .m512i)),
  /- 5267-5285 -/ (id! "_mm512_mask_abs_epi64", .call 4 [⟨.m512i, .deref, 1⟩, ⟨.mask8, .deref, 2⟩, ⟨.m512i, .deref, 3⟩] (id! "_mm512_mask_abs_epi64") [1, 2, 3] (some .m512i)),
  /- 844-862 -/ (id! "_mm512_mask_mov_epi64", .call 4 [⟨.m512i, .deref, 1⟩, ⟨.mask8, .deref, 2⟩, ⟨.m512i, .deref, 3⟩] (id! "_mm512_mask_mov_epi64") [1, 2, 3] (some .m512i)),
  /- 20696-20715 -/ (id! "_mm512_mask_max_epi64", .call 5 [⟨.m512i, .deref, 1⟩, ⟨.mask8, .deref, 2⟩, ⟨.m512i, .deref, 3⟩, ⟨.m512i, .deref, 4⟩] (id! "_mm512_mask_max_epi64") [1, 2, 3, 4] (some .m512i)),
  /- 11671-11679 -/ (id! "_mm512_permutex_epi64", .unsupported),
  /- 14593-14601 -/ (id! "_mm_cvtt_roundsd_si64", .unsupported),
  /- 14483-14491 -/ (id! "_mm_cvtt_roundss_si64", .unsupported),
  /- 20856-20875 -/ (id! "_mm512_mask_min_epu64", .call 5 [⟨.m512i, .deref, 1⟩, ⟨.mask8, .deref, 2⟩, ⟨.m512i, .deref, 3⟩, ⟨.m512i, .deref, 4⟩] (id! "_mm512_mask_min_epu64") [1, 2, 3, 4] (some .m512i)),
  /- 20816-20835 -/ (id! "_mm512_mask_max_epu64", .call 5 [⟨.m512i, .deref, 1⟩, ⟨.mask8, .deref, 2⟩, ⟨.m512i, .deref, 3⟩, ⟨.m512i, .deref, 4⟩] (id! "_mm512_mask_max_epu64") [1, 2, 3, 4] (some .m512i)),
  /- 9240-9256 -/ (id! "_mm512_cvtepi32_epi16", .call 2 [⟨.m512i, .deref, 1⟩] (id! "_mm512_cvtepi32_epi16") [1] (some .m256i)),
  /- 9702-9718 -/ (id! "_mm512_cvtepi64_epi16", .call 2 [⟨.m512i, .deref, 1⟩] (id! "_mm512_cvtepi64_epi16") [1] (some .m128i)),
  /- 9086-9102 -/ (id! "_mm512_cvtsepi32_epi8", .call 2 [⟨.m512i, .deref, 1⟩] (id! "_mm512_cvtsepi32_epi8") [1] (some .m128i)),
  /- 10010-10026 -/ (id! "_mm512_cvtsepi64_epi8", .call 2 [⟨.m512i, .deref, 1⟩] (id! "_mm512_cvtsepi64_epi8") [1] (some .m128i)),
  /- 2909-2926 -/ (id! "_mm512_maskz_rcp14_pd", .call 3 [⟨.mask8, .deref, 1⟩, ⟨.m512d, .deref, 2⟩] (id! "_mm512_maskz_rcp14_pd") [1, 2] (some .m512d)),
  /- 23932-23951 -/ (id! "_mm512_mask3_fmsub_pd", .call 5 [⟨.m512d, .deref, 1⟩, ⟨.m512d, .deref, 2⟩, ⟨.m512d, .deref, 3⟩, ⟨.mask8, .deref, 4⟩] (id! "_mm512_mask3_fmsub_pd") [1, 2, 3, 4] (some .m512d)),
  /- 23953-23972 -/ (id! "_mm512_maskz_fmsub_pd", .call 5 [⟨.mask8, .deref, 1⟩, ⟨.m512d, .deref, 2⟩, ⟨.m512d, .deref, 3⟩, ⟨.m512d, .deref, 4⟩] (id! "_mm512_maskz_fmsub_pd") [1, 2, 3, 4] (some .m512d)),
  /- 24575-24594 -/ (id! "_mm512_mask_fnmsub_pd", .call 5 [⟨.m512d, .deref, 1⟩, ⟨.mask8, .deref, 2⟩, ⟨.m512d, .deref, 3⟩, ⟨.m512d, .deref, 4⟩] (id! "_mm512_mask_fnmsub_pd") [1, 2, 3, 4] (some .m512d)),
  /- 23766-23785 -/ (id! "_mm512_mask3_fmadd_pd", .call 5 [⟨.m512d, .deref, 1⟩, ⟨.m512d, .deref, 2⟩, ⟨.m512d, .deref, 3⟩, ⟨.mask8, .deref, 4⟩] (id! "_mm512_mask3_fmadd_pd") [1, 2, 3, 4] (some .m512d)),
  /- 23787-23806 -/ (id! "_mm512_maskz_fmadd_pd", .call 5 [⟨.mask8, .deref, 1⟩, ⟨.m512d, .deref, 2⟩, ⟨.m512d, .deref, 3⟩, ⟨.m512d, .deref, 4⟩] (id! "_mm512_maskz_fmadd_pd") [1, 2, 3, 4] (some .m512d)),
  /- 24409-24428 -/ (id! "_mm512_mask_fnmadd_pd", .call 5 [⟨.m512d, .deref, 1⟩, ⟨.mask8, .deref, 2⟩, ⟨.m512d, .deref, 3⟩, ⟨.m512d, .deref, 4⟩] (id! "_mm512_mask_fnmadd_pd") [1, 2, 3, 4] (some .m512d)),
  /- 20004-20022 -/ (id! "_mm512_mask_expand_pd", .call 4 [⟨.m512d, .deref, 1⟩, ⟨.mask8, .deref, 2⟩, ⟨.m512d, .deref, 3⟩] (id! "_mm512_mask_expand_pd") [1, 2, 3] (some .m512d)),
  /- 4849-4857 -/ (id! "_mm512_fmsub_round_pd", .unsupported),
  /- 4769-4777 -/ (id! "_mm512_fmadd_round_pd", .unsupported),
  /- 5420-5436 -/ (id! "_mm512_broadcastsd_pd", .call 2 [⟨.m128d, .deref, 1⟩] (id! "_mm512_broadcastsd_pd") [1] (some .m512d)),
  /- 23586-23605 -/ (id! "_mm512_mask_scalef_pd", .call 5 [⟨.m512d, .deref, 1⟩, ⟨.mask8, .deref, 2⟩, ⟨.m512d, .deref, 3⟩, ⟨.m512d, .deref, 4⟩] (id! "_mm512_mask_scalef_pd") [1, 2, 3, 4] (some .m512d)),
  /- 26114-26132 -/ (id! "_mm512_mask_getexp_pd", .call 4 [⟨.m512d, .deref, 1⟩, ⟨.mask8, .deref, 2⟩, ⟨.m512d, .deref, 3⟩] (id! "_mm512_mask_getexp_pd") [1, 2, 3] (some .m512d)),
  /- 11851-11868 -/ (id! "_mm512_permutexvar_pd", .call 3 [⟨.m512i, .deref, 1⟩, ⟨.m512d, .deref, 2⟩] (id! "_mm512_permutexvar_pd") [1, 2] (some .m512d)),
  /- 14910-14918 -/ (id! "_mm512_cvt_roundps_pd", .unsupported),
  /- 25906-25923 -/ (id! "_mm512_maskz_cvtps_pd", .call 3 [⟨.mask8, .deref, 1⟩, ⟨.m256, .deref, 2⟩] (id! "_mm512_maskz_cvtps_pd") [1, 2] (some .m512d)),
  /- 10576-10593 -/ (id! "_mm512_maskz_loadu_pd", .call 3 [⟨.mask8, .deref, 1⟩, ⟨.ptr, .deref, 2⟩] (id! "_mm512_maskz_loadu_pd") [1, 2] (some .m512d)),
  /- 10614-10632 -/ (id! "_mm512_mask_storeu_pd", .call 3 [⟨.ptr, .deref, 0⟩, ⟨.mask8, .deref, 1⟩, ⟨.m512d, .deref, 2⟩] (id! "_mm512_mask_storeu_pd") [0, 1, 2] none),
  /- 2761-2769 -/ (id! "_mm_mask_sub_round_sd", .unsupported),
  /- 2701-2709 -/ (id! "_mm_mask_add_round_sd", .unsupported),
  /- 4419-4427 -/ (id! "_mm_mask_mul_round_sd", .unsupported),
  /- 12880-12888 -/ (id! "_mm_fixupimm_round_sd", .unsupported),
  /- 21267-21275 -/ (id! "_mm_mask_min_round_sd", .unsupported),
  /- 4479-4487 -/ (id! "_mm_mask_div_round_sd", .unsupported),
  /- 21207-21215 -/ (id! "_mm_mask_max_round_sd", .unsupported),
  /- 25464-25472 -/ (id! "_mm_maskz_fixupimm_sd", .unsupported),
  /- 14970-14978 -/ (id! "_mm512_cvt_roundps_ph", .unsupported),
  /- 15020-15028 -/ (id! "_mm512_maskz_cvtps_ph", .unsupported),
  /- 19298-19306 -/ (id! "_mm512_cmp_epi32_mask", .unsupported),
  /- 19318-19326 -/ (id! "_mm512_cmp_epu32_mask", .unsupported),
  /- 19288-19296 -/ (id! "_mm512_cmp_epi64_mask", .unsupported),
  /- 19308-19316 -/ (id! "_mm512_cmp_epu64_mask", .unsupported),
  /- 26866-26883 -/ (id! "_mm512_cmpord_pd_mask", .call 3 [⟨.m512d, .deref, 1⟩, ⟨.m512d, .deref, 2⟩] (id! "_mm512_cmpord_pd_mask") [1, 2] (some .mask8)),
  /- 26827-26844 -/ (id! "_mm512_cmpnle_pd_mask", .call 3 [⟨.m512d, .deref, 1⟩, ⟨.m512d, .deref, 2⟩] (id! "_mm512_cmpnle_pd_mask") [1, 2] (some .mask8)),
  /- 26749-26766 -/ (id! "_mm512_cmpneq_pd_mask", .call 3 [⟨.m512d, .deref, 1⟩, ⟨.m512d, .deref, 2⟩] (id! "_mm512_cmpneq_pd_mask") [1, 2] (some .mask8)),
  /- 26788-26805 -/ (id! "_mm512_cmpnlt_pd_mask", .call 3 [⟨.m512d, .deref, 1⟩, ⟨.m512d, .deref, 2⟩] (id! "_mm512_cmpnlt_pd_mask") [1, 2] (some .mask8)),
  /- 19408-19416 -/ (id! "_mm_cmp_round_sd_mask", .unsupported),
  /- 27178-27195 -/ (id! "_mm512_cmpord_ps_mask", .call 3 [⟨.m512, .deref, 1⟩, ⟨.m512, .deref, 2⟩] (id! "_mm512_cmpord_ps_mask") [1, 2] (some .mask16)),
  /- 27139-27156 -/ (id! "_mm512_cmpnle_ps_mask", .call 3 [⟨.m512, .deref, 1⟩, ⟨.m512, .deref, 2⟩] (id! "_mm512_cmpnle_ps_mask") [1, 2] (some .mask16)),
  /- 27061-27078 -/ (id! "_mm512_cmpneq_ps_mask", .call 3 [⟨.m512, .deref, 1⟩, ⟨.m512, .deref, 2⟩] (id! "_mm512_cmpneq_ps_mask") [1, 2] (some .mask16)),
  /- 27100-27117 -/ (id! "_mm512_cmpnlt_ps_mask", .call 3 [⟨.m512, .deref, 1⟩, ⟨.m512, .deref, 2⟩] (id! "_mm512_cmpnlt_ps_mask") [1, 2] (some .mask16)),
  /- 19428-19436 -/ (id! "_mm_cmp_round_ss_mask", .unsupported),
  /- 2966-2983 -/ (id! "_mm512_maskz_rcp14_ps", .call 3 [⟨.mask16, .deref, 1⟩, ⟨.m512, .deref, 2⟩] (id! "_mm512_maskz_rcp14_ps") [1, 2] (some .m512)),
  /- 24015-24034 -/ (id! "_mm512_mask3_fmsub_ps", .call 5 [⟨.m512, .deref, 1⟩, ⟨.m512, .deref, 2⟩, ⟨.m512, .deref, 3⟩, ⟨.mask16, .deref, 4⟩] (id! "_mm512_mask3_fmsub_ps") [1, 2, 3, 4] (some .m512)),
  /- 24036-24055 -/ (id! "_mm512_maskz_fmsub_ps", .call 5 [⟨.mask16, .deref, 1⟩, ⟨.m512, .deref, 2⟩, ⟨.m512, .deref, 3⟩, ⟨.m512, .deref, 4⟩] (id! "_mm512_maskz_fmsub_ps") [1, 2, 3, 4] (some .m512)),
  /- 24658-24677 -/ (id! "_mm512_mask_fnmsub_ps", .call 5 [⟨.m512, .deref, 1⟩, ⟨.mask16, .deref, 2⟩, ⟨.m512, .deref, 3⟩, ⟨.m512, .deref, 4⟩] (id! "_mm512_mask_fnmsub_ps") [1, 2, 3, 4] (some .m512)),
  /- 23849-23868 -/ (id! "_mm512_mask3_fmadd_ps", .call 5 [⟨.m512, .deref, 1⟩, ⟨.m512, .deref, 2⟩, ⟨.m512, .deref, 3⟩, ⟨.mask16, .deref, 4⟩] (id! "_mm512_mask3_fmadd_ps") [1, 2, 3, 4] (some .m512)),
  /- 23870-23889 -/ (id! "_mm512_maskz_fmadd_ps", .call 5 [⟨.mask16, .deref, 1⟩, ⟨.m512, .deref, 2⟩, ⟨.m512, .deref, 3⟩, ⟨.m512, .deref, 4⟩] (id! "_mm512_maskz_fmadd_ps") [1, 2, 3, 4] (some .m512)),
  /- 24492-24511 -/ (id! "_mm512_mask_fnmadd_ps", .call 5 [⟨.m512, .deref, 1⟩, ⟨.mask16, .deref, 2⟩, ⟨.m512, .deref, 3⟩, ⟨.m512, .deref, 4⟩] (id! "_mm512_mask_fnmadd_ps") [1, 2, 3, 4] (some .m512)),
  /- 20082-20100 -/ (id! "_mm512_mask_expand_ps", .call 4 [⟨.m512, .deref, 1⟩, ⟨.mask16, .deref, 2⟩, ⟨.m512, .deref, 3⟩] (id! "_mm512_mask_expand_ps") [1, 2, 3] (some .m512)),
  /- 4889-4897 -/ (id! "_mm512_fmsub_round_ps", .unsupported),
  /- 4809-4817 -/ (id! "_mm512_fmadd_round_ps", .unsupported),
  /- 15030-15038 -/ (id! "_mm512_cvt_roundpd_ps", .unsupported),
  /- 26020-26037 -/ (id! "_mm512_maskz_cvtpd_ps", .call 3 [⟨.mask8, .deref, 1⟩, ⟨.m512d, .deref, 2⟩] (id! "_mm512_maskz_cvtpd_ps") [1, 2] (some .m256)),
  /- 23646-23665 -/ (id! "_mm512_mask_scalef_ps", .call 5 [⟨.m512, .deref, 1⟩, ⟨.mask16, .deref, 2⟩, ⟨.m512, .deref, 3⟩, ⟨.m512, .deref, 4⟩] (id! "_mm512_mask_scalef_ps") [1, 2, 3, 4] (some .m512)),
  /- 14940-14948 -/ (id! "_mm512_cvt_roundph_ps", .unsupported),
  /- 25963-25980 -/ (id! "_mm512_maskz_cvtph_ps", .call 3 [⟨.mask16, .deref, 1⟩, ⟨.m256i, .deref, 2⟩] (id! "_mm512_maskz_cvtph_ps") [1, 2] (some .m512)),
  /- 26057-26075 -/ (id! "_mm512_mask_getexp_ps", .call 4 [⟨.m512, .deref, 1⟩, ⟨.mask16, .deref, 2⟩, ⟨.m512, .deref, 3⟩] (id! "_mm512_mask_getexp_ps") [1, 2, 3] (some .m512)),
  /- 11911-11928 -/ (id! "_mm512_permutexvar_ps", .call 3 [⟨.m512i, .deref, 1⟩, ⟨.m512, .deref, 2⟩] (id! "_mm512_permutexvar_ps") [1, 2] (some .m512)),
  /- 5363-5379 -/ (id! "_mm512_broadcastss_ps", .call 2 [⟨.m128, .deref, 1⟩] (id! "_mm512_broadcastss_ps") [1] (some .m512)),
  /- 10672-10689 -/ (id! "_mm512_maskz_loadu_ps", .call 3 [⟨.mask16, .deref, 1⟩, ⟨.ptr, .deref, 2⟩] (id! "_mm512_maskz_loadu_ps") [1, 2] (some .m512)),
  /- 10710-10728 -/ (id! "_mm512_mask_storeu_ps", .call 3 [⟨.ptr, .deref, 0⟩, ⟨.mask16, .deref, 1⟩, ⟨.m512, .deref, 2⟩] (id! "_mm512_mask_storeu_ps") [0, 1, 2] none),
  /- 2791-2799 -/ (id! "_mm_mask_sub_round_ss", .unsupported),
  /- 2731-2739 -/ (id! "_mm_mask_add_round_ss", .unsupported),
  /- 4449-4457 -/ (id! "_mm_mask_mul_round_ss", .unsupported),
  /- 12910-12918 -/ (id! "_mm_fixupimm_round_ss", .unsupported),
  /- 21297-21305 -/ (id! "_mm_mask_min_round_ss", .unsupported),
  /- 4509-4517 -/ (id! "_mm_mask_div_round_ss", .unsupported),
  /- 21237-21245 -/ (id! "_mm_mask_max_round_ss", .unsupported),
  /- 25494-25502 -/ (id! "_mm_maskz_fixupimm_ss", .unsupported),
  /- 27505-27521 -/ (id! "_mm512_castpd256_pd512", .call 2 [⟨.m256d, .deref, 1⟩] (id! "_mm512_castpd256_pd512") [1] (some .m512d)),
  /- 27613-27629 -/ (id! "_mm512_zextpd256_pd512", .call 2 [⟨.m256d, .deref, 1⟩] (id! "_mm512_zextpd256_pd512") [1] (some .m512d)),
  /- 27451-27467 -/ (id! "_mm512_castpd128_pd512", .call 2 [⟨.m128d, .deref, 1⟩] (id! "_mm512_castpd128_pd512") [1] (some .m512d)),
  /- 27559-27575 -/ (id! "_mm512_zextpd128_pd512", .call 2 [⟨.m128d, .deref, 1⟩] (id! "_mm512_zextpd128_pd512") [1] (some .m512d)),
  /- 27541-27557 -/ (id! "_mm512_castsi256_si512", .call 2 [⟨.m256i, .deref, 1⟩] (id! "_mm512_castsi256_si512") [1] (some .m512i)),
  /- 27649-27665 -/ (id! "_mm512_zextsi256_si512", .call 2 [⟨.m256i, .deref, 1⟩] (id! "_mm512_zextsi256_si512") [1] (some .m512i)),
  /- 27487-27503 -/ (id! "_mm512_castsi128_si512", .call 2 [⟨.m128i, .deref, 1⟩] (id! "_mm512_castsi128_si512") [1] (some .m512i)),
  /- 27595-27611 -/ (id! "_mm512_zextsi128_si512", .call 2 [⟨.m128i, .deref, 1⟩] (id! "_mm512_zextsi128_si512") [1] (some .m512i)),
  /- 27523-27539 -/ (id! "_mm512_castps256_ps512", .call 2 [⟨.m256, .deref, 1⟩] (id! "_mm512_castps256_ps512") [1] (some .m512)),
  /- 27631-27647 -/ (id! "_mm512_zextps256_ps512", .call 2 [⟨.m256, .deref, 1⟩] (id! "_mm512_zextps256_ps512") [1] (some .m512)),
  /- 27469-27485 -/ (id! "_mm512_castps128_ps512", .call 2 [⟨.m128, .deref, 1⟩] (id! "_mm512_castps128_ps512") [1] (some .m512)),
  /- 27577-27593 -/ (id! "_mm512_zextps128_ps512", .call 2 [⟨.m128, .deref, 1⟩] (id! "_mm512_zextps128_ps512") [1] (some .m512)),
  /- 5544-5552 -/ (id! "_mm512_mask_set1_epi32", .unsupported),
  /- 9548-9564 -/ (id! "_mm512_cvtsepi64_epi32", .call 2 [⟨.m512i, .deref, 1⟩] (id! "_mm512_cvtsepi64_epi32") [1] (some .m256i)),
  /- 2671-2689 -/ (id! "_mm512_maskz_sra_epi32", .call 4 [⟨.mask16, .deref, 1⟩, ⟨.m512i, .deref, 2⟩, ⟨.m128i, .deref, 3⟩] (id! "_mm512_maskz_sra_epi32") [1, 2, 3] (some .m512i)),
  /- 1891-1909 -/ (id! "_mm512_maskz_sub_epi32", .call 4 [⟨.mask16, .deref, 1⟩, ⟨.m512i, .deref, 2⟩, ⟨.m512i, .deref, 3⟩] (id! "_mm512_maskz_sub_epi32") [1, 2, 3] (some .m512i)),
  /- 1054-1072 -/ (id! "_mm512_mask_load_epi32", .call 4 [⟨.m512i, .deref, 1⟩, ⟨.mask16, .deref, 2⟩, ⟨.ptr, .deref, 3⟩] (id! "_mm512_mask_load_epi32") [1, 2, 3] (some .m512i)),
  /- 1771-1789 -/ (id! "_mm512_maskz_add_epi32", .call 4 [⟨.mask16, .deref, 1⟩, ⟨.m512i, .deref, 2⟩, ⟨.m512i, .deref, 3⟩] (id! "_mm512_maskz_add_epi32") [1, 2, 3] (some .m512i)),
  /- 327-342 -/ (id! "_mm512_undefined_epi32", .call 1 [] (id! "_mm512_undefined_epi32") [] (some .m512i)),
  /- 13742-13760 -/ (id! "_mm512_maskz_and_epi32", .call 4 [⟨.mask16, .deref, 1⟩, ⟨.m512i, .deref, 2⟩, ⟨.m512i, .deref, 3⟩] (id! "_mm512_maskz_and_epi32") [1, 2, 3] (some .m512i)),
  /- 2590-2609 -/ (id! "_mm512_mask_srai_epi32", .call 5 [⟨.m512i, .deref, 1⟩, ⟨.mask16, .deref, 2⟩, ⟨.m512i, .deref, 3⟩, ⟨.uint, .asULong, 4⟩] (id! "_mm512_mask_srai_epi32") [1, 2, 3, 4] (some .m512i)),
  /- 2350-2369 -/ (id! "_mm512_mask_slli_epi32", .call 5 [⟨.m512i, .deref, 1⟩, ⟨.mask16, .deref, 2⟩, ⟨.m512i, .deref, 3⟩, ⟨.uint, .asULong, 4⟩] (id! "_mm512_mask_slli_epi32") [1, 2, 3, 4] (some .m512i)),
  /- 2470-2489 -/ (id! "_mm512_mask_srli_epi32", .call 5 [⟨.m512i, .deref, 1⟩, ⟨.mask16, .deref, 2⟩, ⟨.m512i, .deref, 3⟩, ⟨.uint, .asULong, 4⟩] (id! "_mm512_mask_srli_epi32") [1, 2, 3, 4] (some .m512i)),
  /- 2431-2449 -/ (id! "_mm512_maskz_sll_epi32", .call 4 [⟨.mask16, .deref, 1⟩, ⟨.m512i, .deref, 2⟩, ⟨.m128i, .deref, 3⟩] (id! "_mm512_maskz_sll_epi32") [1, 2, 3] (some .m512i)),
  /- 13352-13360 -/ (id! "_mm512_maskz_rol_epi32", .unsupported),
  /- 2551-2569 -/ (id! "_mm512_maskz_srl_epi32", .call 4 [⟨.mask16, .deref, 1⟩, ⟨.m512i, .deref, 2⟩, ⟨.m128i, .deref, 3⟩] (id! "_mm512_maskz_srl_epi32") [1, 2, 3] (some .m512i)),
  /- 1831-1849 -/ (id! "_mm512_maskz_mul_epi32", .call 4 [⟨.mask8, .deref, 1⟩, ⟨.m512i, .deref, 2⟩, ⟨.m512i, .deref, 3⟩] (id! "_mm512_maskz_mul_epi32") [1, 2, 3] (some .m512i)),
  /- 20976-20994 -/ (id! "_mm512_maskz_min_epi32", .call 4 [⟨.mask16, .deref, 1⟩, ⟨.m512i, .deref, 2⟩, ⟨.m512i, .deref, 3⟩] (id! "_mm512_maskz_min_epi32") [1, 2, 3] (some .m512i)),
  /- 19528-19536 -/ (id! "_mm512_i32gather_epi32", .unsupported),
  /- 19568-19576 -/ (id! "_mm512_i64gather_epi32", .unsupported),
  /- 27877-27893 -/ (id! "_mm512_reduce_or_epi32", .call 2 [⟨.m512i, .deref, 1⟩] (id! "_mm512_reduce_or_epi32") [1] (some .int)),
  /- 13497-13621 -/ (id! "_mm512_maskz_ror_epi32", .immediate 4),
  /- 13252-13270 -/ (id! "_mm512_maskz_xor_epi32", .call 4 [⟨.mask16, .deref, 1⟩, ⟨.m512i, .deref, 2⟩, ⟨.m512i, .deref, 3⟩] (id! "_mm512_maskz_xor_epi32") [1, 2, 3] (some .m512i)),
  /- 5344-5361 -/ (id! "_mm512_maskz_abs_epi32", .call 3 [⟨.mask16, .deref, 1⟩, ⟨.m512i, .deref, 2⟩] (id! "_mm512_maskz_abs_epi32") [1, 2] (some .m512i)),
  /- 1330-1349 -/ (id! "_mm512_mask_srav_epi32", .call 5 [⟨.m512i, .deref, 1⟩, ⟨.mask16, .deref, 2⟩, ⟨.m512i, .deref, 3⟩, ⟨.m512i, .deref, 4⟩] (id! "_mm512_mask_srav_epi32") [1, 2, 3, 4] (some .m512i)),
  /- 1270-1289 -/ (id! "_mm512_mask_sllv_epi32", .call 5 [⟨.m512i, .deref, 1⟩, ⟨.mask16, .deref, 2⟩, ⟨.m512i, .deref, 3⟩, ⟨.m512i, .deref, 4⟩] (id! "_mm512_mask_sllv_epi32") [1, 2, 3, 4] (some .m512i)),
  /- 8439-8458 -/ (id! "_mm512_mask_rolv_epi32", .call 5 [⟨.m512i, .deref, 1⟩, ⟨.mask16, .deref, 2⟩, ⟨.m512i, .deref, 3⟩, ⟨.m512i, .deref, 4⟩] (id! "_mm512_mask_rolv_epi32") [1, 2, 3, 4] (some .m512i)),
  /- 1390-1409 -/ (id! "_mm512_mask_srlv_epi32", .call 5 [⟨.m512i, .deref, 1⟩, ⟨.mask16, .deref, 2⟩, ⟨.m512i, .deref, 3⟩, ⟨.m512i, .deref, 4⟩] (id! "_mm512_mask_srlv_epi32") [1, 2, 3, 4] (some .m512i)),
  /- 999-1016 -/ (id! "_mm512_maskz_mov_epi32", .call 3 [⟨.mask16, .deref, 1⟩, ⟨.m512i, .deref, 2⟩] (id! "_mm512_maskz_mov_epi32") [1, 2] (some .m512i)),
  /- 8499-8518 -/ (id! "_mm512_mask_rorv_epi32", .call 5 [⟨.m512i, .deref, 1⟩, ⟨.mask16, .deref, 2⟩, ⟨.m512i, .deref, 3⟩, ⟨.m512i, .deref, 4⟩] (id! "_mm512_mask_rorv_epi32") [1, 2, 3, 4] (some .m512i)),
  /- 20916-20934 -/ (id! "_mm512_maskz_max_epi32", .call 4 [⟨.mask16, .deref, 1⟩, ⟨.m512i, .deref, 2⟩, ⟨.m512i, .deref, 3⟩] (id! "_mm512_maskz_max_epi32") [1, 2, 3] (some .m512i)),
  /- 1951-1969 -/ (id! "_mm512_maskz_mul_epu32", .call 4 [⟨.mask8, .deref, 1⟩, ⟨.m512i, .deref, 2⟩, ⟨.m512i, .deref, 3⟩] (id! "_mm512_maskz_mul_epu32") [1, 2, 3] (some .m512i)),
  /- 21096-21114 -/ (id! "_mm512_maskz_min_epu32", .call 4 [⟨.mask16, .deref, 1⟩, ⟨.m512i, .deref, 2⟩, ⟨.m512i, .deref, 3⟩] (id! "_mm512_maskz_min_epu32") [1, 2, 3] (some .m512i)),
  /- 21036-21054 -/ (id! "_mm512_maskz_max_epu32", .call 4 [⟨.mask16, .deref, 1⟩, ⟨.m512i, .deref, 2⟩, ⟨.m512i, .deref, 3⟩] (id! "_mm512_maskz_max_epu32") [1, 2, 3] (some .m512i)),
  /- 5639-5657 -/ (id! "_mm512_mask_set1_epi64", .call 4 [⟨.m512i, .deref, 1⟩, ⟨.mask8, .deref, 2⟩, ⟨.llong, .asLongLong, 3⟩] (id! "_mm512_mask_set1_epi64") [1, 2, 3] (some .m512i)),
  /- 2311-2329 -/ (id! "_mm512_maskz_sra_epi64", .call 4 [⟨.mask8, .deref, 1⟩, ⟨.m512i, .deref, 2⟩, ⟨.m128i, .deref, 3⟩] (id! "_mm512_maskz_sra_epi64") [1, 2, 3] (some .m512i)),
  /- 1531-1549 -/ (id! "_mm512_maskz_sub_epi64", .call 4 [⟨.mask8, .deref, 1⟩, ⟨.m512i, .deref, 2⟩, ⟨.m512i, .deref, 3⟩] (id! "_mm512_maskz_sub_epi64") [1, 2, 3] (some .m512i)),
  /- 901-919 -/ (id! "_mm512_mask_load_epi64", .call 4 [⟨.m512i, .deref, 1⟩, ⟨.mask8, .deref, 2⟩, ⟨.ptr, .deref, 3⟩] (id! "_mm512_mask_load_epi64") [1, 2, 3] (some .m512i)),
  /- 1471-1489 -/ (id! "_mm512_maskz_add_epi64", .call 4 [⟨.mask8, .deref, 1⟩, ⟨.m512i, .deref, 2⟩, ⟨.m512i, .deref, 3⟩] (id! "_mm512_maskz_add_epi64") [1, 2, 3] (some .m512i)),
  /- 13802-13820 -/ (id! "_mm512_maskz_and_epi64", .call 4 [⟨.mask8, .deref, 1⟩, ⟨.m512i, .deref, 2⟩, ⟨.m512i, .deref, 3⟩] (id! "_mm512_maskz_and_epi64") [1, 2, 3] (some .m512i)),
  /- 2230-2249 -/ (id! "_mm512_mask_srai_epi64", .call 5 [⟨.m512i, .deref, 1⟩, ⟨.mask8, .deref, 2⟩, ⟨.m512i, .deref, 3⟩, ⟨.uint, .asULong, 4⟩] (id! "_mm512_mask_srai_epi64") [1, 2, 3, 4] (some .m512i)),
  /- 1990-2009 -/ (id! "_mm512_mask_slli_epi64", .call 5 [⟨.m512i, .deref, 1⟩, ⟨.mask8, .deref, 2⟩, ⟨.m512i, .deref, 3⟩, ⟨.uint, .asULong, 4⟩] (id! "_mm512_mask_slli_epi64") [1, 2, 3, 4] (some .m512i)),
  /- 2110-2129 -/ (id! "_mm512_mask_srli_epi64", .call 5 [⟨.m512i, .deref, 1⟩, ⟨.mask8, .deref, 2⟩, ⟨.m512i, .deref, 3⟩, ⟨.uint, .asULong, 4⟩] (id! "_mm512_mask_srli_epi64") [1, 2, 3, 4] (some .m512i)),
  /- 2071-2089 -/ (id! "_mm512_maskz_sll_epi64", .call 4 [⟨.mask8, .deref, 1⟩, ⟨.m512i, .deref, 2⟩, ⟨.m128i, .deref, 3⟩] (id! "_mm512_maskz_sll_epi64") [1, 2, 3] (some .m512i)),
  /- 13643-13651 -/ (id! "_mm512_maskz_rol_epi64", .unsupported),
  /- 2191-2209 -/ (id! "_mm512_maskz_srl_epi64", .call 4 [⟨.mask8, .deref, 1⟩, ⟨.m512i, .deref, 2⟩, ⟨.m128i, .deref, 3⟩] (id! "_mm512_maskz_srl_epi64") [1, 2, 3] (some .m512i)),
  /- 20757-20775 -/ (id! "_mm512_maskz_min_epi64", .call 4 [⟨.mask8, .deref, 1⟩, ⟨.m512i, .deref, 2⟩, ⟨.m512i, .deref, 3⟩] (id! "_mm512_maskz_min_epi64") [1, 2, 3] (some .m512i)),
  /- 19548-19556 -/ (id! "_mm512_i32gather_epi64", .unsupported),
  /- 19588-19596 -/ (id! "_mm512_i64gather_epi64", .unsupported),
  /- 28321-28337 -/ (id! "_mm512_reduce_or_epi64", .call 2 [⟨.m512i, .deref, 1⟩] (id! "_mm512_reduce_or_epi64") [1] (some .llong)),
  /- 13673-13681 -/ (id! "_mm512_maskz_ror_epi64", .unsupported),
  /- 13312-13330 -/ (id! "_mm512_maskz_xor_epi64", .call 4 [⟨.mask8, .deref, 1⟩, ⟨.m512i, .deref, 2⟩, ⟨.m512i, .deref, 3⟩] (id! "_mm512_maskz_xor_epi64") [1, 2, 3] (some .m512i)),
  /- 5287-5304 -/ (id! "_mm512_maskz_abs_epi64", .call 3 [⟨.mask8, .deref, 1⟩, ⟨.m512i, .deref, 2⟩] (id! "_mm512_maskz_abs_epi64") [1, 2] (some .m512i)),
  /- 1630-1649 -/ (id! "_mm512_mask_srav_epi64", .call 5 [⟨.m512i, .deref, 1⟩, ⟨.mask8, .deref, 2⟩, ⟨.m512i, .deref, 3⟩, ⟨.m512i, .deref, 4⟩] (id! "_mm512_mask_srav_epi64") [1, 2, 3, 4] (some .m512i)),
  /- 1570-1589 -/ (id! "_mm512_mask_sllv_epi64", .call 5 [⟨.m512i, .deref, 1⟩, ⟨.mask8, .deref, 2⟩, ⟨.m512i, .deref, 3⟩, ⟨.m512i, .deref, 4⟩] (id! "_mm512_mask_sllv_epi64") [1, 2, 3, 4] (some .m512i)),
  /- 8559-8578 -/ (id! "_mm512_mask_rolv_epi64", .call 5 [⟨.m512i, .deref, 1⟩, ⟨.mask8, .deref, 2⟩, ⟨.m512i, .deref, 3⟩, ⟨.m512i, .deref, 4⟩] (id! "_mm512_mask_rolv_epi64") [1, 2, 3, 4] (some .m512i)),
  /- 1690-1709 -/ (id! "_mm512_mask_srlv_epi64", .call 5 [⟨.m512i, .deref, 1⟩, ⟨.mask8, .deref, 2⟩, ⟨.m512i, .deref, 3⟩, ⟨.m512i, .deref, 4⟩] (id! "_mm512_mask_srlv_epi64") [1, 2, 3, 4] (some .m512i)),
  /- 864-881 -/ (id! "_mm512_maskz_mov_epi64", .call 3 [⟨.mask8, .deref, 1⟩, ⟨.m512i, .deref, 2⟩] (id! "_mm512_maskz_mov_epi64") [1, 2] (some .m512i)),
  /- 8619-8638 -/ (id! "_mm512_mask_rorv_epi64", .call 5 [⟨.m512i, .deref, 1⟩, ⟨.mask8, .deref, 2⟩, ⟨.m512i, .deref, 3⟩, ⟨.m512i, .deref, 4⟩] (id! "_mm512_mask_rorv_epi64") [1, 2, 3, 4] (some .m512i)),
  /- 20676-20694 -/ (id! "_mm512_maskz_max_epi64", .call 4 [⟨.mask8, .deref, 1⟩, ⟨.m512i, .deref, 2⟩, ⟨.m512i, .deref, 3⟩] (id! "_mm512_maskz_max_epi64") [1, 2, 3] (some .m512i)),
  /- 20877-20895 -/ (id! "_mm512_maskz_min_epu64", .call 4 [⟨.mask8, .deref, 1⟩, ⟨.m512i, .deref, 2⟩, ⟨.m512i, .deref, 3⟩] (id! "_mm512_maskz_min_epu64") [1, 2, 3] (some .m512i)),
  /- 20796-20814 -/ (id! "_mm512_maskz_max_epu64", .call 4 [⟨.mask8, .deref, 1⟩, ⟨.m512i, .deref, 2⟩, ⟨.m512i, .deref, 3⟩] (id! "_mm512_maskz_max_epu64") [1, 2, 3] (some .m512i)),
  /- 5678-5694 -/ (id! "_mm512_broadcast_f32x4", .call 2 [⟨.m128, .deref, 1⟩] (id! "_mm512_broadcast_f32x4") [1] (some .m512)),
  /- 5735-5751 -/ (id! "_mm512_broadcast_i32x4", .call 2 [⟨.m128i, .deref, 1⟩] (id! "_mm512_broadcast_i32x4") [1] (some .m512i)),
  /- 5792-5808 -/ (id! "_mm512_broadcast_f64x4", .call 2 [⟨.m256d, .deref, 1⟩] (id! "_mm512_broadcast_f64x4") [1] (some .m512d)),
  /- 5849-5865 -/ (id! "_mm512_broadcast_i64x4", .call 2 [⟨.m256i, .deref, 1⟩] (id! "_mm512_broadcast_i64x4") [1] (some .m512i)),
  /- 9317-9333 -/ (id! "_mm512_cvtsepi32_epi16", .call 2 [⟨.m512i, .deref, 1⟩] (id! "_mm512_cvtsepi32_epi16") [1] (some .m256i)),
  /- 9779-9795 -/ (id! "_mm512_cvtsepi64_epi16", .call 2 [⟨.m512i, .deref, 1⟩] (id! "_mm512_cvtsepi64_epi16") [1] (some .m128i)),
  /- 27397-27413 -/ (id! "_mm512_castpd512_pd256", .call 2 [⟨.m512d, .deref, 1⟩] (id! "_mm512_castpd512_pd256") [1] (some .m256d)),
  /- 27433-27449 -/ (id! "_mm512_castsi512_si256", .call 2 [⟨.m512i, .deref, 1⟩] (id! "_mm512_castsi512_si256") [1] (some .m256i)),
  /- 27415-27431 -/ (id! "_mm512_castps512_ps256", .call 2 [⟨.m512, .deref, 1⟩] (id! "_mm512_castps512_ps256") [1] (some .m256)),
  /- 27343-27359 -/ (id! "_mm512_castpd512_pd128", .call 2 [⟨.m512d, .deref, 1⟩] (id! "_mm512_castpd512_pd128") [1] (some .m128d)),
  /- 27379-27395 -/ (id! "_mm512_castsi512_si128", .call 2 [⟨.m512i, .deref, 1⟩] (id! "_mm512_castsi512_si128") [1] (some .m128i)),
  /- 27361-27377 -/ (id! "_mm512_castps512_ps128", .call 2 [⟨.m512, .deref, 1⟩] (id! "_mm512_castps512_ps128") [1] (some .m128)),
  /- 9163-9179 -/ (id! "_mm512_cvtusepi32_epi8", .call 2 [⟨.m512i, .deref, 1⟩] (id! "_mm512_cvtusepi32_epi8") [1] (some .m128i)),
  /- 10087-10103 -/ (id! "_mm512_cvtusepi64_epi8", .call 2 [⟨.m512i, .deref, 1⟩] (id! "_mm512_cvtusepi64_epi8") [1] (some .m128i)),
  /- 3123-3141 -/ (id! "_mm512_mask_rsqrt14_pd", .call 4 [⟨.m512d, .deref, 1⟩, ⟨.mask8, .deref, 2⟩, ⟨.m512d, .deref, 3⟩] (id! "_mm512_mask_rsqrt14_pd") [1, 2, 3] (some .m512d)),
  /- 10338-10346 -/ (id! "_mm512_extractf64x4_pd", .unsupported),
  /- 24596-24615 -/ (id! "_mm512_mask3_fnmsub_pd", .call 5 [⟨.m512d, .deref, 1⟩, ⟨.m512d, .deref, 2⟩, ⟨.m512d, .deref, 3⟩, ⟨.mask8, .deref, 4⟩] (id! "_mm512_mask3_fnmsub_pd") [1, 2, 3, 4] (some .m512d)),
  /- 24617-24636 -/ (id! "_mm512_maskz_fnmsub_pd", .call 5 [⟨.mask8, .deref, 1⟩, ⟨.m512d, .deref, 2⟩, ⟨.m512d, .deref, 3⟩, ⟨.m512d, .deref, 4⟩] (id! "_mm512_maskz_fnmsub_pd") [1, 2, 3, 4] (some .m512d)),
  /- 24430-24449 -/ (id! "_mm512_mask3_fnmadd_pd", .call 5 [⟨.m512d, .deref, 1⟩, ⟨.m512d, .deref, 2⟩, ⟨.m512d, .deref, 3⟩, ⟨.mask8, .deref, 4⟩] (id! "_mm512_mask3_fnmadd_pd") [1, 2, 3, 4] (some .m512d)),
  /- 24451-24470 -/ (id! "_mm512_maskz_fnmadd_pd", .call 5 [⟨.mask8, .deref, 1⟩, ⟨.m512d, .deref, 2⟩, ⟨.m512d, .deref, 3⟩, ⟨.m512d, .deref, 4⟩] (id! "_mm512_maskz_fnmadd_pd") [1, 2, 3, 4] (some .m512d)),
  /- 20024-20041 -/ (id! "_mm512_maskz_expand_pd", .call 3 [⟨.mask8, .deref, 1⟩, ⟨.m512d, .deref, 2⟩] (id! "_mm512_maskz_expand_pd") [1, 2] (some .m512d)),
  /- 5169-5177 -/ (id! "_mm512_fnmsub_round_pd", .unsupported),
  /- 5089-5097 -/ (id! "_mm512_fnmadd_round_pd", .unsupported),
  /- 4649-4657 -/ (id! "_mm512_scalef_round_pd", .unsupported),
  /- 15532-15571 -/ (id! "_mm512_getexp_round_pd", .immediate 3),
  /- 12800-12808 -/ (id! "_mm512_mask_shuffle_pd", .unsupported),
  /- 11621-11629 -/ (id! "_mm512_mask_permute_pd", .unsupported),
  /- 23607-23625 -/ (id! "_mm512_maskz_scalef_pd", .call 4 [⟨.mask8, .deref, 1⟩, ⟨.m512d, .deref, 2⟩, ⟨.m512d, .deref, 3⟩] (id! "_mm512_maskz_scalef_pd") [1, 2, 3] (some .m512d)),
  /- 14691-14709 -/ (id! "_mm512_mask_movedup_pd", .call 4 [⟨.m512d, .deref, 1⟩, ⟨.mask8, .deref, 2⟩, ⟨.m512d, .deref, 3⟩] (id! "_mm512_mask_movedup_pd") [1, 2, 3] (some .m512d)),
  /- 26134-26151 -/ (id! "_mm512_maskz_getexp_pd", .call 3 [⟨.mask8, .deref, 1⟩, ⟨.m512d, .deref, 2⟩] (id! "_mm512_maskz_getexp_pd") [1, 2] (some .m512d)),
  /- 11445-11463 -/ (id! "_mm512_permutex2var_pd", .call 4 [⟨.m512d, .deref, 1⟩, ⟨.m512i, .deref, 2⟩, ⟨.m512d, .deref, 3⟩] (id! "_mm512_permutex2var_pd") [1, 2, 3] (some .m512d)),
  /- 26283-26291 -/ (id! "_mm512_mask_getmant_pd", .unsupported),
  /- 2771-2779 -/ (id! "_mm_maskz_sub_round_sd", .unsupported),
  /- 2711-2719 -/ (id! "_mm_maskz_add_round_sd", .unsupported),
  /- 4429-4437 -/ (id! "_mm_maskz_mul_round_sd", .unsupported),
  /- 21277-21285 -/ (id! "_mm_maskz_min_round_sd", .unsupported),
  /- 3409-3417 -/ (id! "_mm_mask_sqrt_round_sd", .unsupported),
  /- 4489-4497 -/ (id! "_mm_maskz_div_round_sd", .unsupported),
  /- 21217-21225 -/ (id! "_mm_maskz_max_round_sd", .unsupported),
  /- 26493-26501 -/ (id! "_mm_mask_roundscale_sd", .unsupported),
  /- 13961-13978 -/ (id! "_mm512_test_epi32_mask", .call 3 [⟨.m512i, .deref, 1⟩, ⟨.m512i, .deref, 2⟩] (id! "_mm512_test_epi32_mask") [1, 2] (some .mask16)),
  /- 14000-14017 -/ (id! "_mm512_test_epi64_mask", .call 3 [⟨.m512i, .deref, 1⟩, ⟨.m512i, .deref, 2⟩] (id! "_mm512_test_epi64_mask") [1, 2] (some .mask8)),
  /- 3180-3198 -/ (id! "_mm512_mask_rsqrt14_ps", .call 4 [⟨.m512, .deref, 1⟩, ⟨.mask16, .deref, 2⟩, ⟨.m512, .deref, 3⟩] (id! "_mm512_mask_rsqrt14_ps") [1, 2, 3] (some .m512)),
  /- 10368-10376 -/ (id! "_mm512_extractf32x4_ps", .unsupported),
  /- 24679-24698 -/ (id! "_mm512_mask3_fnmsub_ps", .call 5 [⟨.m512, .deref, 1⟩, ⟨.m512, .deref, 2⟩, ⟨.m512, .deref, 3⟩, ⟨.mask16, .deref, 4⟩] (id! "_mm512_mask3_fnmsub_ps") [1, 2, 3, 4] (some .m512)),
  /- 24700-24719 -/ (id! "_mm512_maskz_fnmsub_ps", .call 5 [⟨.mask16, .deref, 1⟩, ⟨.m512, .deref, 2⟩, ⟨.m512, .deref, 3⟩, ⟨.m512, .deref, 4⟩] (id! "_mm512_maskz_fnmsub_ps") [1, 2, 3, 4] (some .m512)),
  /- 24513-24532 -/ (id! "_mm512_mask3_fnmadd_ps", .call 5 [⟨.m512, .deref, 1⟩, ⟨.m512, .deref, 2⟩, ⟨.m512, .deref, 3⟩, ⟨.mask16, .deref, 4⟩] (id! "_mm512_mask3_fnmadd_ps") [1, 2, 3, 4] (some .m512)),
  /- 24534-24553 -/ (id! "_mm512_maskz_fnmadd_ps", .call 5 [⟨.mask16, .deref, 1⟩, ⟨.m512, .deref, 2⟩, ⟨.m512, .deref, 3⟩, ⟨.m512, .deref, 4⟩] (id! "_mm512_maskz_fnmadd_ps") [1, 2, 3, 4] (some .m512)),
  /- 20102-20119 -/ (id! "_mm512_maskz_expand_ps", .call 3 [⟨.mask16, .deref, 1⟩, ⟨.m512, .deref, 2⟩] (id! "_mm512_maskz_expand_ps") [1, 2] (some .m512)),
  /- 5209-5217 -/ (id! "_mm512_fnmsub_round_ps", .unsupported),
  /- 5129-5137 -/ (id! "_mm512_fnmadd_round_ps", .unsupported),
  /- 4679-4687 -/ (id! "_mm512_scalef_round_ps", .unsupported),
  /- 15471-15510 -/ (id! "_mm512_getexp_round_ps", .immediate 3),
  /- 11981-11989 -/ (id! "_mm512_mask_shuffle_ps", .unsupported),
  /- 11651-11659 -/ (id! "_mm512_mask_permute_ps", .unsupported),
  /- 23667-23685 -/ (id! "_mm512_maskz_scalef_ps", .call 4 [⟨.mask16, .deref, 1⟩, ⟨.m512, .deref, 2⟩, ⟨.m512, .deref, 3⟩] (id! "_mm512_maskz_scalef_ps") [1, 2, 3] (some .m512)),
  /- 26077-26094 -/ (id! "_mm512_maskz_getexp_ps", .call 3 [⟨.mask16, .deref, 1⟩, ⟨.m512, .deref, 2⟩] (id! "_mm512_maskz_getexp_ps") [1, 2] (some .m512)),
  /- 11528-11546 -/ (id! "_mm512_permutex2var_ps", .call 4 [⟨.m512, .deref, 1⟩, ⟨.m512i, .deref, 2⟩, ⟨.m512, .deref, 3⟩] (id! "_mm512_permutex2var_ps") [1, 2, 3] (some .m512)),
  /- 26313-26321 -/ (id! "_mm512_mask_getmant_ps", .unsupported),
  /- 2801-2809 -/ (id! "_mm_maskz_sub_round_ss", .unsupported),
  /- 2741-2749 -/ (id! "_mm_maskz_add_round_ss", .unsupported),
  /- 4459-4467 -/ (id! "_mm_maskz_mul_round_ss", .unsupported),
  /- 21307-21315 -/ (id! "_mm_maskz_min_round_ss", .unsupported),
  /- 3439-3447 -/ (id! "_mm_mask_sqrt_round_ss", .unsupported),
  /- 4519-4527 -/ (id! "_mm_maskz_div_round_ss", .unsupported),
  /- 21247-21255 -/ (id! "_mm_maskz_max_round_ss", .unsupported),
  /- 26463-26471 -/ (id! "_mm_mask_roundscale_ss", .unsupported),
  /- 5554-5562 -/ (id! "_mm512_maskz_set1_epi32", .unsupported),
  /- 9625-9641 -/ (id! "_mm512_cvtusepi64_epi32", .call 2 [⟨.m512i, .deref, 1⟩] (id! "_mm512_cvtusepi64_epi32") [1] (some .m256i)),
  /- 1074-1091 -/ (id! "_mm512_maskz_load_epi32", .call 3 [⟨.mask16, .deref, 1⟩, ⟨.ptr, .deref, 2⟩] (id! "_mm512_maskz_load_epi32") [1, 2] (some .m512i)),
  /- 27823-27839 -/ (id! "_mm512_reduce_add_epi32", .call 2 [⟨.m512i, .deref, 1⟩] (id! "_mm512_reduce_add_epi32") [1] (some .int)),
  /- 27859-27875 -/ (id! "_mm512_reduce_and_epi32", .call 2 [⟨.m512i, .deref, 1⟩] (id! "_mm512_reduce_and_epi32") [1] (some .int)),
  /- 21377-21395 -/ (id! "_mm512_mask_blend_epi32", .call 4 [⟨.mask16, .deref, 1⟩, ⟨.m512i, .deref, 2⟩, ⟨.m512i, .deref, 3⟩] (id! "_mm512_mask_blend_epi32") [1, 2, 3] (some .m512i)),
  /- 24853-24871 -/ (id! "_mm512_mask_cvtpd_epi32", .call 4 [⟨.m256i, .deref, 1⟩, ⟨.mask8, .deref, 2⟩, ⟨.m512d, .deref, 3⟩] (id! "_mm512_mask_cvtpd_epi32") [1, 2, 3] (some .m256i)),
  /- 5477-5493 -/ (id! "_mm512_broadcastd_epi32", .call 2 [⟨.m128i, .deref, 1⟩] (id! "_mm512_broadcastd_epi32") [1] (some .m512i)),
  /- 1131-1149 -/ (id! "_mm512_mask_store_epi32", .call 3 [⟨.ptr, .deref, 0⟩, ⟨.mask16, .deref, 1⟩, ⟨.m512i, .deref, 2⟩] (id! "_mm512_mask_store_epi32") [0, 1, 2] none),
  /- 2611-2629 -/ (id! "_mm512_maskz_srai_epi32", .call 4 [⟨.mask16, .deref, 1⟩, ⟨.m512i, .deref, 2⟩, ⟨.uint, .asULong, 3⟩] (id! "_mm512_maskz_srai_epi32") [1, 2, 3] (some .m512i)),
  /- 2371-2389 -/ (id! "_mm512_maskz_slli_epi32", .call 4 [⟨.mask16, .deref, 1⟩, ⟨.m512i, .deref, 2⟩, ⟨.uint, .asULong, 3⟩] (id! "_mm512_maskz_slli_epi32") [1, 2, 3] (some .m512i)),
  /- 2491-2509 -/ (id! "_mm512_maskz_srli_epi32", .call 4 [⟨.mask16, .deref, 1⟩, ⟨.m512i, .deref, 2⟩, ⟨.uint, .asULong, 3⟩] (id! "_mm512_maskz_srli_epi32") [1, 2, 3] (some .m512i)),
  /- 27841-27857 -/ (id! "_mm512_reduce_mul_epi32", .call 2 [⟨.m512i, .deref, 1⟩] (id! "_mm512_reduce_mul_epi32") [1] (some .int)),
  /- 27971-27987 -/ (id! "_mm512_reduce_min_epi32", .call 2 [⟨.m512i, .deref, 1⟩] (id! "_mm512_reduce_min_epi32") [1] (some .int)),
  /- 1190-1209 -/ (id! "_mm512_mask_mullo_epi32", .call 5 [⟨.m512i, .deref, 1⟩, ⟨.mask16, .deref, 2⟩, ⟨.m512i, .deref, 3⟩, ⟨.m512i, .deref, 4⟩] (id! "_mm512_mask_mullo_epi32") [1, 2, 3, 4] (some .m512i)),
  /- 19688-19696 -/ (id! "_mm512_i32scatter_epi32", .unsupported),
  /- 19728-19736 -/ (id! "_mm512_i64scatter_epi32", .unsupported),
  /- 25081-25099 -/ (id! "_mm512_mask_cvtps_epi32", .call 4 [⟨.m512i, .deref, 1⟩, ⟨.mask16, .deref, 2⟩, ⟨.m512, .deref, 3⟩] (id! "_mm512_mask_cvtps_epi32") [1, 2, 3] (some .m512i)),
  /- 11062-11080 -/ (id! "_mm512_mask_loadu_epi32", .call 4 [⟨.m512i, .deref, 1⟩, ⟨.mask16, .deref, 2⟩, ⟨.ptr, .deref, 3⟩] (id! "_mm512_mask_loadu_epi32") [1, 2, 3] (some .m512i)),
  /- 1351-1369 -/ (id! "_mm512_maskz_srav_epi32", .call 4 [⟨.mask16, .deref, 1⟩, ⟨.m512i, .deref, 2⟩, ⟨.m512i, .deref, 3⟩] (id! "_mm512_maskz_srav_epi32") [1, 2, 3] (some .m512i)),
  /- 1291-1309 -/ (id! "_mm512_maskz_sllv_epi32", .call 4 [⟨.mask16, .deref, 1⟩, ⟨.m512i, .deref, 2⟩, ⟨.m512i, .deref, 3⟩] (id! "_mm512_maskz_sllv_epi32") [1, 2, 3] (some .m512i)),
  /- 8460-8478 -/ (id! "_mm512_maskz_rolv_epi32", .call 4 [⟨.mask16, .deref, 1⟩, ⟨.m512i, .deref, 2⟩, ⟨.m512i, .deref, 3⟩] (id! "_mm512_maskz_rolv_epi32") [1, 2, 3] (some .m512i)),
  /- 1411-1429 -/ (id! "_mm512_maskz_srlv_epi32", .call 4 [⟨.mask16, .deref, 1⟩, ⟨.m512i, .deref, 2⟩, ⟨.m512i, .deref, 3⟩] (id! "_mm512_maskz_srlv_epi32") [1, 2, 3] (some .m512i)),
  /- 8520-8538 -/ (id! "_mm512_maskz_rorv_epi32", .call 4 [⟨.mask16, .deref, 1⟩, ⟨.m512i, .deref, 2⟩, ⟨.m512i, .deref, 3⟩] (id! "_mm512_maskz_rorv_epi32") [1, 2, 3] (some .m512i)),
  /- 27989-28005 -/ (id! "_mm512_reduce_max_epi32", .call 2 [⟨.m512i, .deref, 1⟩] (id! "_mm512_reduce_max_epi32") [1] (some .int)),
  /- 24910-24928 -/ (id! "_mm512_mask_cvtpd_epu32", .call 4 [⟨.m256i, .deref, 1⟩, ⟨.mask8, .deref, 2⟩, ⟨.m512d, .deref, 3⟩] (id! "_mm512_mask_cvtpd_epu32") [1, 2, 3] (some .m256i)),
  /- 28007-28023 -/ (id! "_mm512_reduce_min_epu32", .call 2 [⟨.m512i, .deref, 1⟩] (id! "_mm512_reduce_min_epu32") [1] (some .uint)),
  /- 25138-25156 -/ (id! "_mm512_mask_cvtps_epu32", .call 4 [⟨.m512i, .deref, 1⟩, ⟨.mask16, .deref, 2⟩, ⟨.m512, .deref, 3⟩] (id! "_mm512_mask_cvtps_epu32") [1, 2, 3] (some .m512i)),
  /- 28025-28041 -/ (id! "_mm512_reduce_max_epu32", .call 2 [⟨.m512i, .deref, 1⟩] (id! "_mm512_reduce_max_epu32") [1] (some .uint)),
  /- 5659-5676 -/ (id! "_mm512_maskz_set1_epi64", .call 3 [⟨.mask8, .deref, 1⟩, ⟨.llong, .asLongLong, 2⟩] (id! "_mm512_maskz_set1_epi64") [1, 2] (some .m512i)),
  /- 921-938 -/ (id! "_mm512_maskz_load_epi64", .call 3 [⟨.mask8, .deref, 1⟩, ⟨.ptr, .deref, 2⟩] (id! "_mm512_maskz_load_epi64") [1, 2] (some .m512i)),
  /- 28267-28283 -/ (id! "_mm512_reduce_add_epi64", .call 2 [⟨.m512i, .deref, 1⟩] (id! "_mm512_reduce_add_epi64") [1] (some .llong)),
  /- 28303-28319 -/ (id! "_mm512_reduce_and_epi64", .call 2 [⟨.m512i, .deref, 1⟩] (id! "_mm512_reduce_and_epi64") [1] (some .llong)),
  /- 21357-21375 -/ (id! "_mm512_mask_blend_epi64", .call 4 [⟨.mask8, .deref, 1⟩, ⟨.m512i, .deref, 2⟩, ⟨.m512i, .deref, 3⟩] (id! "_mm512_mask_blend_epi64") [1, 2, 3] (some .m512i)),
  /- 959-977 -/ (id! "_mm512_mask_store_epi64", .call 3 [⟨.ptr, .deref, 0⟩, ⟨.mask8, .deref, 1⟩, ⟨.m512i, .deref, 2⟩] (id! "_mm512_mask_store_epi64") [0, 1, 2] none),
  /- 2251-2269 -/ (id! "_mm512_maskz_srai_epi64", .call 4 [⟨.mask8, .deref, 1⟩, ⟨.m512i, .deref, 2⟩, ⟨.uint, .asULong, 3⟩] (id! "_mm512_maskz_srai_epi64") [1, 2, 3] (some .m512i)),
  /- 2011-2029 -/ (id! "_mm512_maskz_slli_epi64", .call 4 [⟨.mask8, .deref, 1⟩, ⟨.m512i, .deref, 2⟩, ⟨.uint, .asULong, 3⟩] (id! "_mm512_maskz_slli_epi64") [1, 2, 3] (some .m512i)),
  /- 2131-2149 -/ (id! "_mm512_maskz_srli_epi64", .call 4 [⟨.mask8, .deref, 1⟩, ⟨.m512i, .deref, 2⟩, ⟨.uint, .asULong, 3⟩] (id! "_mm512_maskz_srli_epi64") [1, 2, 3] (some .m512i)),
  /- 28285-28301 -/ (id! "_mm512_reduce_mul_epi64", .call 2 [⟨.m512i, .deref, 1⟩] (id! "_mm512_reduce_mul_epi64") [1] (some .llong)),
  /- 28415-28431 -/ (id! "_mm512_reduce_min_epi64", .call 2 [⟨.m512i, .deref, 1⟩] (id! "_mm512_reduce_min_epi64") [1] (some .llong)),
  /- 5564-5580 -/ (id! "_mm512_broadcastq_epi64", .call 2 [⟨.m128i, .deref, 1⟩] (id! "_mm512_broadcastq_epi64") [1] (some .m512i)),
  /- 19708-19716 -/ (id! "_mm512_i32scatter_epi64", .unsupported),
  /- 19748-19756 -/ (id! "_mm512_i64scatter_epi64", .unsupported),
  /- 10948-10966 -/ (id! "_mm512_mask_loadu_epi64", .call 4 [⟨.m512i, .deref, 1⟩, ⟨.mask8, .deref, 2⟩, ⟨.ptr, .deref, 3⟩] (id! "_mm512_mask_loadu_epi64") [1, 2, 3] (some .m512i)),
  /- 1651-1669 -/ (id! "_mm512_maskz_srav_epi64", .call 4 [⟨.mask8, .deref, 1⟩, ⟨.m512i, .deref, 2⟩, ⟨.m512i, .deref, 3⟩] (id! "_mm512_maskz_srav_epi64") [1, 2, 3] (some .m512i)),
  /- 1591-1609 -/ (id! "_mm512_maskz_sllv_epi64", .call 4 [⟨.mask8, .deref, 1⟩, ⟨.m512i, .deref, 2⟩, ⟨.m512i, .deref, 3⟩] (id! "_mm512_maskz_sllv_epi64") [1, 2, 3] (some .m512i)),
  /- 8580-8598 -/ (id! "_mm512_maskz_rolv_epi64", .call 4 [⟨.mask8, .deref, 1⟩, ⟨.m512i, .deref, 2⟩, ⟨.m512i, .deref, 3⟩] (id! "_mm512_maskz_rolv_epi64") [1, 2, 3] (some .m512i)),
  /- 1711-1729 -/ (id! "_mm512_maskz_srlv_epi64", .call 4 [⟨.mask8, .deref, 1⟩, ⟨.m512i, .deref, 2⟩, ⟨.m512i, .deref, 3⟩] (id! "_mm512_maskz_srlv_epi64") [1, 2, 3] (some .m512i)),
  /- 8640-8658 -/ (id! "_mm512_maskz_rorv_epi64", .call 4 [⟨.mask8, .deref, 1⟩, ⟨.m512i, .deref, 2⟩, ⟨.m512i, .deref, 3⟩] (id! "_mm512_maskz_rorv_epi64") [1, 2, 3] (some .m512i)),
  /- 28433-28449 -/ (id! "_mm512_reduce_max_epi64", .call 2 [⟨.m512i, .deref, 1⟩] (id! "_mm512_reduce_max_epi64") [1] (some .llong)),
  /- 28489-28505 -/ (id! "_mm512_reduce_min_epu64", .call 2 [⟨.m512i, .deref, 1⟩] (id! "_mm512_reduce_min_epu64") [1] (some .ullong)),
  /- 28507-28523 -/ (id! "_mm512_reduce_max_epu64", .call 2 [⟨.m512i, .deref, 1⟩] (id! "_mm512_reduce_max_epu64") [1] (some .ullong)),
  /- 20647-20655 -/ (id! "_mm512_mask_insertf32x4", .unsupported),
  /- 20637-20645 -/ (id! "_mm512_mask_inserti32x4", .unsupported),
  /- 10518-10526 -/ (id! "_mm512_mask_insertf64x4", .unsupported),
  /- 10488-10496 -/ (id! "_mm512_mask_inserti64x4", .unsupported),
  /- 9394-9410 -/ (id! "_mm512_cvtusepi32_epi16", .call 2 [⟨.m512i, .deref, 1⟩] (id! "_mm512_cvtusepi32_epi16") [1] (some .m256i)),
  /- 9856-9872 -/ (id! "_mm512_cvtusepi64_epi16", .call 2 [⟨.m512i, .deref, 1⟩] (id! "_mm512_cvtusepi64_epi16") [1] (some .m128i)),
  /- 10182-10200 -/ (id! "_mm512_mask_cvtepi32_pd", .call 4 [⟨.m512d, .deref, 1⟩, ⟨.mask8, .deref, 2⟩, ⟨.m256i, .deref, 3⟩] (id! "_mm512_mask_cvtepi32_pd") [1, 2, 3] (some .m512d)),
  /- 10239-10257 -/ (id! "_mm512_mask_cvtepu32_pd", .call 4 [⟨.m512d, .deref, 1⟩, ⟨.mask8, .deref, 2⟩, ⟨.m256i, .deref, 3⟩] (id! "_mm512_mask_cvtepu32_pd") [1, 2, 3] (some .m512d)),
  /- 3143-3160 -/ (id! "_mm512_maskz_rsqrt14_pd", .call 3 [⟨.mask8, .deref, 1⟩, ⟨.m512d, .deref, 2⟩] (id! "_mm512_maskz_rsqrt14_pd") [1, 2] (some .m512d)),
  /- 24077-24096 -/ (id! "_mm512_mask_fmaddsub_pd", .call 5 [⟨.m512d, .deref, 1⟩, ⟨.mask8, .deref, 2⟩, ⟨.m512d, .deref, 3⟩, ⟨.m512d, .deref, 4⟩] (id! "_mm512_mask_fmaddsub_pd") [1, 2, 3, 4] (some .m512d)),
  /- 24243-24262 -/ (id! "_mm512_mask_fmsubadd_pd", .call 5 [⟨.m512d, .deref, 1⟩, ⟨.mask8, .deref, 2⟩, ⟨.m512d, .deref, 3⟩, ⟨.m512d, .deref, 4⟩] (id! "_mm512_mask_fmsubadd_pd") [1, 2, 3, 4] (some .m512d)),
  /- 15593-15949 -/ (id! "_mm512_getmant_round_pd", .immediate 5),
  /- 12810-12818 -/ (id! "_mm512_maskz_shuffle_pd", .unsupported),
  /- 11631-11639 -/ (id! "_mm512_maskz_permute_pd", .unsupported),
  /- 14809-14828 -/ (id! "_mm512_mask_unpackhi_pd", .call 5 [⟨.m512d, .deref, 1⟩, ⟨.mask8, .deref, 2⟩, ⟨.m512d, .deref, 3⟩, ⟨.m512d, .deref, 4⟩] (id! "_mm512_mask_unpackhi_pd") [1, 2, 3, 4] (some .m512d)),
  /- 25394-25402 -/ (id! "_mm512_mask_fixupimm_pd", .unsupported),
  /- 14749-14768 -/ (id! "_mm512_mask_unpacklo_pd", .call 5 [⟨.m512d, .deref, 1⟩, ⟨.mask8, .deref, 2⟩, ⟨.m512d, .deref, 3⟩, ⟨.m512d, .deref, 4⟩] (id! "_mm512_mask_unpacklo_pd") [1, 2, 3, 4] (some .m512d)),
  /- 14711-14728 -/ (id! "_mm512_maskz_movedup_pd", .call 3 [⟨.mask8, .deref, 1⟩, ⟨.m512d, .deref, 2⟩] (id! "_mm512_maskz_movedup_pd") [1, 2] (some .m512d)),
  /- 19768-19786 -/ (id! "_mm512_mask_compress_pd", .call 4 [⟨.m512d, .deref, 1⟩, ⟨.mask8, .deref, 2⟩, ⟨.m512d, .deref, 3⟩] (id! "_mm512_mask_compress_pd") [1, 2, 3] (some .m512d)),
  /- 26293-26301 -/ (id! "_mm512_maskz_getmant_pd", .unsupported),
  /- 11711-11719 -/ (id! "_mm512_mask_permutex_pd", .unsupported),
  /- 22041-22049 -/ (id! "_mm_mask_fmsub_round_sd", .unsupported),
  /- 21981-21989 -/ (id! "_mm_mask_fmadd_round_sd", .unsupported),
  /- 18246-18254 -/ (id! "_mm_roundscale_round_sd", .unsupported),
  /- 3419-3427 -/ (id! "_mm_maskz_sqrt_round_sd", .unsupported),
  /- 26503-26511 -/ (id! "_mm_maskz_roundscale_sd", .unsupported),
  /- 15100-15108 -/ (id! "_mm_mask_cvt_roundss_sd", .unsupported),
  /- 18644-18661 -/ (id! "_mm512_cmpge_epi32_mask", .call 3 [⟨.m512i, .deref, 1⟩, ⟨.m512i, .deref, 2⟩] (id! "_mm512_cmpge_epi32_mask") [1, 2] (some .mask16)),
  /- 18820-18837 -/ (id! "_mm512_cmple_epi32_mask", .call 3 [⟨.m512i, .deref, 1⟩, ⟨.m512i, .deref, 2⟩] (id! "_mm512_cmple_epi32_mask") [1, 2] (some .mask16)),
  /- 14039-14056 -/ (id! "_mm512_testn_epi32_mask", .call 3 [⟨.m512i, .deref, 1⟩, ⟨.m512i, .deref, 2⟩] (id! "_mm512_testn_epi32_mask") [1, 2] (some .mask16)),
  /- 18488-18505 -/ (id! "_mm512_cmpeq_epi32_mask", .call 3 [⟨.m512i, .deref, 1⟩, ⟨.m512i, .deref, 2⟩] (id! "_mm512_cmpeq_epi32_mask") [1, 2] (some .mask16)),
  /- 18566-18583 -/ (id! "_mm512_cmpgt_epi32_mask", .call 3 [⟨.m512i, .deref, 1⟩, ⟨.m512i, .deref, 2⟩] (id! "_mm512_cmpgt_epi32_mask") [1, 2] (some .mask16)),
  /- 18976-18993 -/ (id! "_mm512_cmplt_epi32_mask", .call 3 [⟨.m512i, .deref, 1⟩, ⟨.m512i, .deref, 2⟩] (id! "_mm512_cmplt_epi32_mask") [1, 2] (some .mask16)),
  /- 18703-18720 -/ (id! "_mm512_cmpge_epu32_mask", .call 3 [⟨.m512i, .deref, 1⟩, ⟨.m512i, .deref, 2⟩] (id! "_mm512_cmpge_epu32_mask") [1, 2] (some .mask16)),
  /- 18859-18876 -/ (id! "_mm512_cmple_epu32_mask", .call 3 [⟨.m512i, .deref, 1⟩, ⟨.m512i, .deref, 2⟩] (id! "_mm512_cmple_epu32_mask") [1, 2] (some .mask16)),
  /- 27667-27684 -/ (id! "_mm512_cmpeq_epu32_mask", .call 3 [⟨.m512i, .deref, 1⟩, ⟨.m512i, .deref, 2⟩] (id! "_mm512_cmpeq_epu32_mask") [1, 2] (some .mask16)),
  /- 27745-27762 -/ (id! "_mm512_cmpgt_epu32_mask", .call 3 [⟨.m512i, .deref, 1⟩, ⟨.m512i, .deref, 2⟩] (id! "_mm512_cmpgt_epu32_mask") [1, 2] (some .mask16)),
  /- 19015-19032 -/ (id! "_mm512_cmplt_epu32_mask", .call 3 [⟨.m512i, .deref, 1⟩, ⟨.m512i, .deref, 2⟩] (id! "_mm512_cmplt_epu32_mask") [1, 2] (some .mask16)),
  /- 18742-18759 -/ (id! "_mm512_cmpge_epi64_mask", .call 3 [⟨.m512i, .deref, 1⟩, ⟨.m512i, .deref, 2⟩] (id! "_mm512_cmpge_epi64_mask") [1, 2] (some .mask8)),
  /- 18898-18915 -/ (id! "_mm512_cmple_epi64_mask", .call 3 [⟨.m512i, .deref, 1⟩, ⟨.m512i, .deref, 2⟩] (id! "_mm512_cmple_epi64_mask") [1, 2] (some .mask8)),
  /- 14078-14095 -/ (id! "_mm512_testn_epi64_mask", .call 3 [⟨.m512i, .deref, 1⟩, ⟨.m512i, .deref, 2⟩] (id! "_mm512_testn_epi64_mask") [1, 2] (some .mask8)),
  /- 18547-18564 -/ (id! "_mm512_cmpeq_epi64_mask", .call 3 [⟨.m512i, .deref, 1⟩, ⟨.m512i, .deref, 2⟩] (id! "_mm512_cmpeq_epi64_mask") [1, 2] (some .mask8)),
  /- 18625-18642 -/ (id! "_mm512_cmpgt_epi64_mask", .call 3 [⟨.m512i, .deref, 1⟩, ⟨.m512i, .deref, 2⟩] (id! "_mm512_cmpgt_epi64_mask") [1, 2] (some .mask8)),
  /- 19054-19071 -/ (id! "_mm512_cmplt_epi64_mask", .call 3 [⟨.m512i, .deref, 1⟩, ⟨.m512i, .deref, 2⟩] (id! "_mm512_cmplt_epi64_mask") [1, 2] (some .mask8)),
  /- 18781-18798 -/ (id! "_mm512_cmpge_epu64_mask", .call 3 [⟨.m512i, .deref, 1⟩, ⟨.m512i, .deref, 2⟩] (id! "_mm512_cmpge_epu64_mask") [1, 2] (some .mask8)),
  /- 18937-18954 -/ (id! "_mm512_cmple_epu64_mask", .call 3 [⟨.m512i, .deref, 1⟩, ⟨.m512i, .deref, 2⟩] (id! "_mm512_cmple_epu64_mask") [1, 2] (some .mask8)),
  /- 27726-27743 -/ (id! "_mm512_cmpeq_epu64_mask", .call 3 [⟨.m512i, .deref, 1⟩, ⟨.m512i, .deref, 2⟩] (id! "_mm512_cmpeq_epu64_mask") [1, 2] (some .mask8)),
  /- 27804-27821 -/ (id! "_mm512_cmpgt_epu64_mask", .call 3 [⟨.m512i, .deref, 1⟩, ⟨.m512i, .deref, 2⟩] (id! "_mm512_cmpgt_epu64_mask") [1, 2] (some .mask8)),
  /- 19093-19110 -/ (id! "_mm512_cmplt_epu64_mask", .call 3 [⟨.m512i, .deref, 1⟩, ⟨.m512i, .deref, 2⟩] (id! "_mm512_cmplt_epu64_mask") [1, 2] (some .mask8)),
  /- 26710-26727 -/ (id! "_mm512_cmpunord_pd_mask", .call 3 [⟨.m512d, .deref, 1⟩, ⟨.m512d, .deref, 2⟩] (id! "_mm512_cmpunord_pd_mask") [1, 2] (some .mask8)),
  /- 26543-26551 -/ (id! "_mm512_mask_cmp_pd_mask", .unsupported),
  /- 27022-27039 -/ (id! "_mm512_cmpunord_ps_mask", .call 3 [⟨.m512, .deref, 1⟩, ⟨.m512, .deref, 2⟩] (id! "_mm512_cmpunord_ps_mask") [1, 2] (some .mask16)),
  /- 26533-26541 -/ (id! "_mm512_mask_cmp_ps_mask", .unsupported),
  /- 25288-25306 -/ (id! "_mm512_mask_cvtepi32_ps", .call 4 [⟨.m512, .deref, 1⟩, ⟨.mask16, .deref, 2⟩, ⟨.m512i, .deref, 3⟩] (id! "_mm512_mask_cvtepi32_ps") [1, 2, 3] (some .m512)),
  /- 25345-25363 -/ (id! "_mm512_mask_cvtepu32_ps", .call 4 [⟨.m512, .deref, 1⟩, ⟨.mask16, .deref, 2⟩, ⟨.m512i, .deref, 3⟩] (id! "_mm512_mask_cvtepu32_ps") [1, 2, 3] (some .m512)),
  /- 3200-3217 -/ (id! "_mm512_maskz_rsqrt14_ps", .call 3 [⟨.mask16, .deref, 1⟩, ⟨.m512, .deref, 2⟩] (id! "_mm512_maskz_rsqrt14_ps") [1, 2] (some .m512)),
  /- 24160-24179 -/ (id! "_mm512_mask_fmaddsub_ps", .call 5 [⟨.m512, .deref, 1⟩, ⟨.mask16, .deref, 2⟩, ⟨.m512, .deref, 3⟩, ⟨.m512, .deref, 4⟩] (id! "_mm512_mask_fmaddsub_ps") [1, 2, 3, 4] (some .m512)),
  /- 24326-24345 -/ (id! "_mm512_mask_fmsubadd_ps", .call 5 [⟨.m512, .deref, 1⟩, ⟨.mask16, .deref, 2⟩, ⟨.m512, .deref, 3⟩, ⟨.m512, .deref, 4⟩] (id! "_mm512_mask_fmsubadd_ps") [1, 2, 3, 4] (some .m512)),
  /- 16670-17026 -/ (id! "_mm512_getmant_round_ps", .immediate 5),
  /- 11991-12788 -/ (id! "_mm512_maskz_shuffle_ps", .immediate 5),
  /- 11661-11669 -/ (id! "_mm512_maskz_permute_ps", .unsupported),
  /- 14869-14888 -/ (id! "_mm512_mask_unpackhi_ps", .call 5 [⟨.m512, .deref, 1⟩, ⟨.mask16, .deref, 2⟩, ⟨.m512, .deref, 3⟩, ⟨.m512, .deref, 4⟩] (id! "_mm512_mask_unpackhi_ps") [1, 2, 3, 4] (some .m512)),
  /- 25424-25432 -/ (id! "_mm512_mask_fixupimm_ps", .unsupported),
  /- 21156-21175 -/ (id! "_mm512_mask_unpacklo_ps", .call 5 [⟨.m512, .deref, 1⟩, ⟨.mask16, .deref, 2⟩, ⟨.m512, .deref, 3⟩, ⟨.m512, .deref, 4⟩] (id! "_mm512_mask_unpacklo_ps") [1, 2, 3, 4] (some .m512)),
  /- 12958-12976 -/ (id! "_mm512_mask_movehdup_ps", .call 4 [⟨.m512, .deref, 1⟩, ⟨.mask16, .deref, 2⟩, ⟨.m512, .deref, 3⟩] (id! "_mm512_mask_movehdup_ps") [1, 2, 3] (some .m512)),
  /- 13015-13033 -/ (id! "_mm512_mask_moveldup_ps", .call 4 [⟨.m512, .deref, 1⟩, ⟨.mask16, .deref, 2⟩, ⟨.m512, .deref, 3⟩] (id! "_mm512_mask_moveldup_ps") [1, 2, 3] (some .m512)),
  /- 19827-19845 -/ (id! "_mm512_mask_compress_ps", .call 4 [⟨.m512, .deref, 1⟩, ⟨.mask16, .deref, 2⟩, ⟨.m512, .deref, 3⟩] (id! "_mm512_mask_compress_ps") [1, 2, 3] (some .m512)),
  /- 26323-26331 -/ (id! "_mm512_maskz_getmant_ps", .unsupported),
  /- 22051-22059 -/ (id! "_mm_mask_fmsub_round_ss", .unsupported),
  /- 21991-21999 -/ (id! "_mm_mask_fmadd_round_ss", .unsupported),
  /- 18216-18224 -/ (id! "_mm_roundscale_round_ss", .unsupported),
  /- 3449-3457 -/ (id! "_mm_maskz_sqrt_round_ss", .unsupported),
  /- 15070-15078 -/ (id! "_mm_mask_cvt_roundsd_ss", .unsupported),
  /- 26473-26481 -/ (id! "_mm_maskz_roundscale_ss", .unsupported),
  /- 15177-15193 -/ (id! "_mm512_stream_load_si512", .call 2 [⟨.ptr, .deref, 1⟩] (id! "_mm512_stream_load_si512") [1] (some .m512i)),
  /- 20238-20256 -/ (id! "_mm512_mask_expand_epi32", .call 4 [⟨.m512i, .deref, 1⟩, ⟨.mask16, .deref, 2⟩, ⟨.m512i, .deref, 3⟩] (id! "_mm512_mask_expand_epi32") [1, 2, 3] (some .m512i)),
  /- 8720-8728 -/ (id! "_mm512_cvt_roundpd_epi32", .unsupported),
  /- 24739-24757 -/ (id! "_mm512_mask_cvttpd_epi32", .call 4 [⟨.m256i, .deref, 1⟩, ⟨.mask8, .deref, 2⟩, ⟨.m512d, .deref, 3⟩] (id! "_mm512_mask_cvttpd_epi32") [1, 2, 3] (some .m256i)),
  /- 24873-24890 -/ (id! "_mm512_maskz_cvtpd_epi32", .call 3 [⟨.mask8, .deref, 1⟩, ⟨.m512d, .deref, 2⟩] (id! "_mm512_maskz_cvtpd_epi32") [1, 2] (some .m256i)),
  /- 1170-1188 -/ (id! "_mm512_maskz_mullo_epi32", .call 4 [⟨.mask16, .deref, 1⟩, ⟨.m512i, .deref, 2⟩, ⟨.m512i, .deref, 3⟩] (id! "_mm512_maskz_mullo_epi32") [1, 2, 3] (some .m512i)),
  /- 11811-11828 -/ (id! "_mm512_permutexvar_epi32", .call 3 [⟨.m512i, .deref, 1⟩, ⟨.m512i, .deref, 2⟩] (id! "_mm512_permutexvar_epi32") [1, 2] (some .m512i)),
  /- 18438-18446 -/ (id! "_mm512_mask_alignr_epi32", .unsupported),
  /- 8840-8848 -/ (id! "_mm512_cvt_roundps_epi32", .unsupported),
  /- 24967-24985 -/ (id! "_mm512_mask_cvttps_epi32", .call 4 [⟨.m512i, .deref, 1⟩, ⟨.mask16, .deref, 2⟩, ⟨.m512, .deref, 3⟩] (id! "_mm512_mask_cvttps_epi32") [1, 2, 3] (some .m512i)),
  /- 25101-25118 -/ (id! "_mm512_maskz_cvtps_epi32", .call 3 [⟨.mask16, .deref, 1⟩, ⟨.m512, .deref, 2⟩] (id! "_mm512_maskz_cvtps_epi32") [1, 2] (some .m512i)),
  /- 13860-13879 -/ (id! "_mm512_mask_andnot_epi32", .call 5 [⟨.m512i, .deref, 1⟩, ⟨.mask16, .deref, 2⟩, ⟨.m512i, .deref, 3⟩, ⟨.m512i, .deref, 4⟩] (id! "_mm512_mask_andnot_epi32") [1, 2, 3, 4] (some .m512i)),
  /- 11082-11099 -/ (id! "_mm512_maskz_loadu_epi32", .call 3 [⟨.mask16, .deref, 1⟩, ⟨.ptr, .deref, 2⟩] (id! "_mm512_maskz_loadu_epi32") [1, 2] (some .m512i)),
  /- 11139-11157 -/ (id! "_mm512_mask_storeu_epi32", .call 3 [⟨.ptr, .deref, 0⟩, ⟨.mask16, .deref, 1⟩, ⟨.m512i, .deref, 2⟩] (id! "_mm512_mask_storeu_epi32") [0, 1, 2] none),
  /- 8750-8758 -/ (id! "_mm512_cvt_roundpd_epu32", .unsupported),
  /- 24796-24814 -/ (id! "_mm512_mask_cvttpd_epu32", .call 4 [⟨.m256i, .deref, 1⟩, ⟨.mask8, .deref, 2⟩, ⟨.m512d, .deref, 3⟩] (id! "_mm512_mask_cvttpd_epu32") [1, 2, 3] (some .m256i)),
  /- 24930-24947 -/ (id! "_mm512_maskz_cvtpd_epu32", .call 3 [⟨.mask8, .deref, 1⟩, ⟨.m512d, .deref, 2⟩] (id! "_mm512_maskz_cvtpd_epu32") [1, 2] (some .m256i)),
  /- 8870-8878 -/ (id! "_mm512_cvt_roundps_epu32", .unsupported),
  /- 25024-25042 -/ (id! "_mm512_mask_cvttps_epu32", .call 4 [⟨.m512i, .deref, 1⟩, ⟨.mask16, .deref, 2⟩, ⟨.m512, .deref, 3⟩] (id! "_mm512_mask_cvttps_epu32") [1, 2, 3] (some .m512i)),
  /- 25158-25175 -/ (id! "_mm512_maskz_cvtps_epu32", .call 3 [⟨.mask16, .deref, 1⟩, ⟨.m512, .deref, 2⟩] (id! "_mm512_maskz_cvtps_epu32") [1, 2] (some .m512i)),
  /- 20160-20178 -/ (id! "_mm512_mask_expand_epi64", .call 4 [⟨.m512i, .deref, 1⟩, ⟨.mask8, .deref, 2⟩, ⟨.m512i, .deref, 3⟩] (id! "_mm512_mask_expand_epi64") [1, 2, 3] (some .m512i)),
  /- 11751-11768 -/ (id! "_mm512_permutexvar_epi64", .call 3 [⟨.m512i, .deref, 1⟩, ⟨.m512i, .deref, 2⟩] (id! "_mm512_permutexvar_epi64") [1, 2] (some .m512i)),
  /- 18468-18476 -/ (id! "_mm512_mask_alignr_epi64", .unsupported),
  /- 13920-13939 -/ (id! "_mm512_mask_andnot_epi64", .call 5 [⟨.m512i, .deref, 1⟩, ⟨.mask8, .deref, 2⟩, ⟨.m512i, .deref, 3⟩, ⟨.m512i, .deref, 4⟩] (id! "_mm512_mask_andnot_epi64") [1, 2, 3, 4] (some .m512i)),
  /- 10968-10985 -/ (id! "_mm512_maskz_loadu_epi64", .call 3 [⟨.mask8, .deref, 1⟩, ⟨.ptr, .deref, 2⟩] (id! "_mm512_maskz_loadu_epi64") [1, 2] (some .m512i)),
  /- 11006-11024 -/ (id! "_mm512_mask_storeu_epi64", .call 3 [⟨.ptr, .deref, 0⟩, ⟨.mask8, .deref, 1⟩, ⟨.m512i, .deref, 2⟩] (id! "_mm512_mask_storeu_epi64") [0, 1, 2] none),
  /- 1230-1249 -/ (id! "_mm512_mask_mullox_epi64", .call 5 [⟨.m512i, .deref, 1⟩, ⟨.mask8, .deref, 2⟩, ⟨.m512i, .deref, 3⟩, ⟨.m512i, .deref, 4⟩] (id! "_mm512_mask_mullox_epi64") [1, 2, 3, 4] (some .m512i)),
  /- 20627-20635 -/ (id! "_mm512_maskz_insertf32x4", .unsupported),
  /- 20617-20625 -/ (id! "_mm512_maskz_inserti32x4", .unsupported),
  /- 10528-10536 -/ (id! "_mm512_maskz_insertf64x4", .unsupported),
  /- 10498-10506 -/ (id! "_mm512_maskz_inserti64x4", .unsupported),
  /- 10202-10219 -/ (id! "_mm512_maskz_cvtepi32_pd", .call 3 [⟨.mask8, .deref, 1⟩, ⟨.m256i, .deref, 2⟩] (id! "_mm512_maskz_cvtepi32_pd") [1, 2] (some .m512d)),
  /- 10259-10276 -/ (id! "_mm512_maskz_cvtepu32_pd", .call 3 [⟨.mask8, .deref, 1⟩, ⟨.m256i, .deref, 2⟩] (id! "_mm512_maskz_cvtepu32_pd") [1, 2] (some .m512d)),
  /- 24098-24117 -/ (id! "_mm512_mask3_fmaddsub_pd", .call 5 [⟨.m512d, .deref, 1⟩, ⟨.m512d, .deref, 2⟩, ⟨.m512d, .deref, 3⟩, ⟨.mask8, .deref, 4⟩] (id! "_mm512_mask3_fmaddsub_pd") [1, 2, 3, 4] (some .m512d)),
  /- 24119-24138 -/ (id! "_mm512_maskz_fmaddsub_pd", .call 5 [⟨.mask8, .deref, 1⟩, ⟨.m512d, .deref, 2⟩, ⟨.m512d, .deref, 3⟩, ⟨.m512d, .deref, 4⟩] (id! "_mm512_maskz_fmaddsub_pd") [1, 2, 3, 4] (some .m512d)),
  /- 24264-24283 -/ (id! "_mm512_mask3_fmsubadd_pd", .call 5 [⟨.m512d, .deref, 1⟩, ⟨.m512d, .deref, 2⟩, ⟨.m512d, .deref, 3⟩, ⟨.mask8, .deref, 4⟩] (id! "_mm512_mask3_fmsubadd_pd") [1, 2, 3, 4] (some .m512d)),
  /- 24285-24304 -/ (id! "_mm512_maskz_fmsubadd_pd", .call 5 [⟨.mask8, .deref, 1⟩, ⟨.m512d, .deref, 2⟩, ⟨.m512d, .deref, 3⟩, ⟨.m512d, .deref, 4⟩] (id! "_mm512_maskz_fmsubadd_pd") [1, 2, 3, 4] (some .m512d)),
  /- 4134-4142 -/ (id! "_mm512_mask_sub_round_pd", .unsupported),
  /- 4929-4937 -/ (id! "_mm512_fmaddsub_round_pd", .unsupported),
  /- 4074-4082 -/ (id! "_mm512_mask_add_round_pd", .unsupported),
  /- 5009-5017 -/ (id! "_mm512_fmsubadd_round_pd", .unsupported),
  /- 4229-4237 -/ (id! "_mm512_mask_mul_round_pd", .unsupported),
  /- 12820-12828 -/ (id! "_mm512_fixupimm_round_pd", .unsupported),
  /- 4599-4607 -/ (id! "_mm512_mask_min_round_pd", .unsupported),
  /- 4359-4367 -/ (id! "_mm512_mask_div_round_pd", .unsupported),
  /- 4539-4547 -/ (id! "_mm512_mask_max_round_pd", .unsupported),
  /- 14830-14848 -/ (id! "_mm512_maskz_unpackhi_pd", .call 4 [⟨.mask8, .deref, 1⟩, ⟨.m512d, .deref, 2⟩, ⟨.m512d, .deref, 3⟩] (id! "_mm512_maskz_unpackhi_pd") [1, 2, 3] (some .m512d)),
  /- 25404-25412 -/ (id! "_mm512_maskz_fixupimm_pd", .unsupported),
  /- 14770-14788 -/ (id! "_mm512_maskz_unpacklo_pd", .call 4 [⟨.mask8, .deref, 1⟩, ⟨.m512d, .deref, 2⟩, ⟨.m512d, .deref, 3⟩] (id! "_mm512_maskz_unpacklo_pd") [1, 2, 3] (some .m512d)),
  /- 19478-19486 -/ (id! "_mm512_mask_i32gather_pd", .unsupported),
  /- 19518-19526 -/ (id! "_mm512_mask_i64gather_pd", .unsupported),
  /- 19788-19805 -/ (id! "_mm512_maskz_compress_pd", .call 3 [⟨.mask8, .deref, 1⟩, ⟨.m512d, .deref, 2⟩] (id! "_mm512_maskz_compress_pd") [1, 2] (some .m512d)),
  /- 11721-11729 -/ (id! "_mm512_maskz_permutex_pd", .unsupported),
  /- 22061-22069 -/ (id! "_mm_mask3_fmsub_round_sd", .unsupported),
  /- 22081-22089 -/ (id! "_mm_maskz_fmsub_round_sd", .unsupported),
  /- 22161-22169 -/ (id! "_mm_mask_fnmsub_round_sd", .unsupported),
  /- 22001-22009 -/ (id! "_mm_mask3_fmadd_round_sd", .unsupported),
  /- 22021-22029 -/ (id! "_mm_maskz_fmadd_round_sd", .unsupported),
  /- 22101-22109 -/ (id! "_mm_mask_fnmadd_round_sd", .unsupported),
  /- 4719-4727 -/ (id! "_mm_mask_scalef_round_sd", .unsupported),
  /- 15378-15423 -/ (id! "_mm_mask_getexp_round_sd", .immediate 6),
  /- 15110-15118 -/ (id! "_mm_maskz_cvt_roundss_sd", .unsupported),
  /- 19112-19129 -/ (id! "_mm512_cmpneq_epi32_mask", .call 3 [⟨.m512i, .deref, 1⟩, ⟨.m512i, .deref, 2⟩] (id! "_mm512_cmpneq_epi32_mask") [1, 2] (some .mask16)),
  /- 19171-19188 -/ (id! "_mm512_cmpneq_epu32_mask", .call 3 [⟨.m512i, .deref, 1⟩, ⟨.m512i, .deref, 2⟩] (id! "_mm512_cmpneq_epu32_mask") [1, 2] (some .mask16)),
  /- 19210-19227 -/ (id! "_mm512_cmpneq_epi64_mask", .call 3 [⟨.m512i, .deref, 1⟩, ⟨.m512i, .deref, 2⟩] (id! "_mm512_cmpneq_epi64_mask") [1, 2] (some .mask8)),
  /- 19249-19266 -/ (id! "_mm512_cmpneq_epu64_mask", .call 3 [⟨.m512i, .deref, 1⟩, ⟨.m512i, .deref, 2⟩] (id! "_mm512_cmpneq_epu64_mask") [1, 2] (some .mask8)),
  /- 19328-19336 -/ (id! "_mm512_cmp_round_pd_mask", .unsupported),
  /- 19338-19346 -/ (id! "_mm512_cmp_round_ps_mask", .unsupported),
  /- 10278-10286 -/ (id! "_mm512_cvt_roundepi32_ps", .unsupported),
  /- 25308-25325 -/ (id! "_mm512_maskz_cvtepi32_ps", .call 3 [⟨.mask16, .deref, 1⟩, ⟨.m512i, .deref, 2⟩] (id! "_mm512_maskz_cvtepi32_ps") [1, 2] (some .m512)),
  /- 10308-10316 -/ (id! "_mm512_cvt_roundepu32_ps", .unsupported),
  /- 25365-25382 -/ (id! "_mm512_maskz_cvtepu32_ps", .call 3 [⟨.mask16, .deref, 1⟩, ⟨.m512i, .deref, 2⟩] (id! "_mm512_maskz_cvtepu32_ps") [1, 2] (some .m512)),
  /- 24181-24200 -/ (id! "_mm512_mask3_fmaddsub_ps", .call 5 [⟨.m512, .deref, 1⟩, ⟨.m512, .deref, 2⟩, ⟨.m512, .deref, 3⟩, ⟨.mask16, .deref, 4⟩] (id! "_mm512_mask3_fmaddsub_ps") [1, 2, 3, 4] (some .m512)),
  /- 24202-24221 -/ (id! "_mm512_maskz_fmaddsub_ps", .call 5 [⟨.mask16, .deref, 1⟩, ⟨.m512, .deref, 2⟩, ⟨.m512, .deref, 3⟩, ⟨.m512, .deref, 4⟩] (id! "_mm512_maskz_fmaddsub_ps") [1, 2, 3, 4] (some .m512)),
  /- 24347-24366 -/ (id! "_mm512_mask3_fmsubadd_ps", .call 5 [⟨.m512, .deref, 1⟩, ⟨.m512, .deref, 2⟩, ⟨.m512, .deref, 3⟩, ⟨.mask16, .deref, 4⟩] (id! "_mm512_mask3_fmsubadd_ps") [1, 2, 3, 4] (some .m512)),
  /- 24368-24387 -/ (id! "_mm512_maskz_fmsubadd_ps", .call 5 [⟨.mask16, .deref, 1⟩, ⟨.m512, .deref, 2⟩, ⟨.m512, .deref, 3⟩, ⟨.m512, .deref, 4⟩] (id! "_mm512_maskz_fmsubadd_ps") [1, 2, 3, 4] (some .m512)),
  /- 4199-4207 -/ (id! "_mm512_mask_sub_round_ps", .unsupported),
  /- 4969-4977 -/ (id! "_mm512_fmaddsub_round_ps", .unsupported),
  /- 4104-4112 -/ (id! "_mm512_mask_add_round_ps", .unsupported),
  /- 5049-5057 -/ (id! "_mm512_fmsubadd_round_ps", .unsupported),
  /- 4294-4302 -/ (id! "_mm512_mask_mul_round_ps", .unsupported),
  /- 12850-12858 -/ (id! "_mm512_fixupimm_round_ps", .unsupported),
  /- 4629-4637 -/ (id! "_mm512_mask_min_round_ps", .unsupported),
  /- 4389-4397 -/ (id! "_mm512_mask_div_round_ps", .unsupported),
  /- 4569-4577 -/ (id! "_mm512_mask_max_round_ps", .unsupported),
  /- 14890-14908 -/ (id! "_mm512_maskz_unpackhi_ps", .call 4 [⟨.mask16, .deref, 1⟩, ⟨.m512, .deref, 2⟩, ⟨.m512, .deref, 3⟩] (id! "_mm512_maskz_unpackhi_ps") [1, 2, 3] (some .m512)),
  /- 25434-25442 -/ (id! "_mm512_maskz_fixupimm_ps", .unsupported),
  /- 21177-21195 -/ (id! "_mm512_maskz_unpacklo_ps", .call 4 [⟨.mask16, .deref, 1⟩, ⟨.m512, .deref, 2⟩, ⟨.m512, .deref, 3⟩] (id! "_mm512_maskz_unpacklo_ps") [1, 2, 3] (some .m512)),
  /- 12978-12995 -/ (id! "_mm512_maskz_movehdup_ps", .call 3 [⟨.mask16, .deref, 1⟩, ⟨.m512, .deref, 2⟩] (id! "_mm512_maskz_movehdup_ps") [1, 2] (some .m512)),
  /- 13035-13052 -/ (id! "_mm512_maskz_moveldup_ps", .call 3 [⟨.mask16, .deref, 1⟩, ⟨.m512, .deref, 2⟩] (id! "_mm512_maskz_moveldup_ps") [1, 2] (some .m512)),
  /- 19458-19466 -/ (id! "_mm512_mask_i32gather_ps", .unsupported),
  /- 19498-19506 -/ (id! "_mm512_mask_i64gather_ps", .unsupported),
  /- 19847-19864 -/ (id! "_mm512_maskz_compress_ps", .call 3 [⟨.mask16, .deref, 1⟩, ⟨.m512, .deref, 2⟩] (id! "_mm512_maskz_compress_ps") [1, 2] (some .m512)),
  /- 22071-22079 -/ (id! "_mm_mask3_fmsub_round_ss", .unsupported),
  /- 22091-22099 -/ (id! "_mm_maskz_fmsub_round_ss", .unsupported),
  /- 22171-22179 -/ (id! "_mm_mask_fnmsub_round_ss", .unsupported),
  /- 22011-22019 -/ (id! "_mm_mask3_fmadd_round_ss", .unsupported),
  /- 22031-22039 -/ (id! "_mm_maskz_fmadd_round_ss", .unsupported),
  /- 22111-22119 -/ (id! "_mm_mask_fnmadd_round_ss", .unsupported),
  /- 4749-4757 -/ (id! "_mm_mask_scalef_round_ss", .unsupported),
  /- 15240-15285 -/ (id! "_mm_mask_getexp_round_ss", .immediate 6),
  /- 15080-15088 -/ (id! "_mm_maskz_cvt_roundsd_ss", .unsupported),
  /- 10428-10436 -/ (id! "_mm512_extracti32x4_epi32", .unsupported),
  /- 3477-3495 -/ (id! "_mm512_mask_cvtepi8_epi32", .call 4 [⟨.m512i, .deref, 1⟩, ⟨.mask16, .deref, 2⟩, ⟨.m128i, .deref, 3⟩] (id! "_mm512_mask_cvtepi8_epi32") [1, 2, 3] (some .m512i)),
  /- 3762-3780 -/ (id! "_mm512_mask_cvtepu8_epi32", .call 4 [⟨.m512i, .deref, 1⟩, ⟨.mask16, .deref, 2⟩, ⟨.m128i, .deref, 3⟩] (id! "_mm512_mask_cvtepu8_epi32") [1, 2, 3] (some .m512i)),
  /- 2841-2849 -/ (id! "_mm512_ternarylogic_epi32", .unsupported),
  /- 20258-20275 -/ (id! "_mm512_maskz_expand_epi32", .call 3 [⟨.mask16, .deref, 1⟩, ⟨.m512i, .deref, 2⟩] (id! "_mm512_maskz_expand_epi32") [1, 2] (some .m512i)),
  /- 8660-8668 -/ (id! "_mm512_cvtt_roundpd_epi32", .unsupported),
  /- 24759-24776 -/ (id! "_mm512_maskz_cvttpd_epi32", .call 3 [⟨.mask8, .deref, 1⟩, ⟨.m512d, .deref, 2⟩] (id! "_mm512_maskz_cvttpd_epi32") [1, 2] (some .m256i)),
  /- 6703-7500 -/ (id! "_mm512_mask_shuffle_epi32", .immediate 5),
  /- 11362-11380 -/ (id! "_mm512_permutex2var_epi32", .call 4 [⟨.m512i, .deref, 1⟩, ⟨.m512i, .deref, 2⟩, ⟨.m512i, .deref, 3⟩] (id! "_mm512_permutex2var_epi32") [1, 2, 3] (some .m512i)),
  /- 18448-18456 -/ (id! "_mm512_maskz_alignr_epi32", .unsupported),
  /- 8780-8788 -/ (id! "_mm512_cvtt_roundps_epi32", .unsupported),
  /- 24987-25004 -/ (id! "_mm512_maskz_cvttps_epi32", .call 3 [⟨.mask16, .deref, 1⟩, ⟨.m512, .deref, 2⟩] (id! "_mm512_maskz_cvttps_epi32") [1, 2] (some .m512i)),
  /- 13881-13899 -/ (id! "_mm512_maskz_andnot_epi32", .call 4 [⟨.mask16, .deref, 1⟩, ⟨.m512i, .deref, 2⟩, ⟨.m512i, .deref, 3⟩] (id! "_mm512_maskz_andnot_epi32") [1, 2, 3] (some .m512i)),
  /- 8690-8698 -/ (id! "_mm512_cvtt_roundpd_epu32", .unsupported),
  /- 24816-24833 -/ (id! "_mm512_maskz_cvttpd_epu32", .call 3 [⟨.mask8, .deref, 1⟩, ⟨.m512d, .deref, 2⟩] (id! "_mm512_maskz_cvttpd_epu32") [1, 2] (some .m256i)),
  /- 8810-8818 -/ (id! "_mm512_cvtt_roundps_epu32", .unsupported),
  /- 25044-25061 -/ (id! "_mm512_maskz_cvttps_epu32", .call 3 [⟨.mask16, .deref, 1⟩, ⟨.m512, .deref, 2⟩] (id! "_mm512_maskz_cvttps_epu32") [1, 2] (some .m512i)),
  /- 8370-8378 -/ (id! "_mm512_mask_shuffle_f64x2", .unsupported),
  /- 8310-8318 -/ (id! "_mm512_mask_shuffle_i64x2", .unsupported),
  /- 10398-10406 -/ (id! "_mm512_extracti64x4_epi64", .unsupported),
  /- 3534-3552 -/ (id! "_mm512_mask_cvtepi8_epi64", .call 4 [⟨.m512i, .deref, 1⟩, ⟨.mask8, .deref, 2⟩, ⟨.m128i, .deref, 3⟩] (id! "_mm512_mask_cvtepi8_epi64") [1, 2, 3] (some .m512i)),
  /- 3819-3837 -/ (id! "_mm512_mask_cvtepu8_epi64", .call 4 [⟨.m512i, .deref, 1⟩, ⟨.mask8, .deref, 2⟩, ⟨.m128i, .deref, 3⟩] (id! "_mm512_mask_cvtepu8_epi64") [1, 2, 3] (some .m512i)),
  /- 2811-2819 -/ (id! "_mm512_ternarylogic_epi64", .unsupported),
  /- 20180-20197 -/ (id! "_mm512_maskz_expand_epi64", .call 3 [⟨.mask8, .deref, 1⟩, ⟨.m512i, .deref, 2⟩] (id! "_mm512_maskz_expand_epi64") [1, 2] (some .m512i)),
  /- 11279-11297 -/ (id! "_mm512_permutex2var_epi64", .call 4 [⟨.m512i, .deref, 1⟩, ⟨.m512i, .deref, 2⟩, ⟨.m512i, .deref, 3⟩] (id! "_mm512_permutex2var_epi64") [1, 2, 3] (some .m512i)),
  /- 18478-18486 -/ (id! "_mm512_maskz_alignr_epi64", .unsupported),
  /- 13941-13959 -/ (id! "_mm512_maskz_andnot_epi64", .call 4 [⟨.mask8, .deref, 1⟩, ⟨.m512i, .deref, 2⟩, ⟨.m512i, .deref, 3⟩] (id! "_mm512_maskz_andnot_epi64") [1, 2, 3] (some .m512i)),
  /- 8400-8408 -/ (id! "_mm512_mask_shuffle_f32x4", .unsupported),
  /- 8340-8348 -/ (id! "_mm512_mask_shuffle_i32x4", .unsupported),
  /- 9047-9065 -/ (id! "_mm512_mask_cvtepi32_epi8", .call 4 [⟨.m128i, .deref, 1⟩, ⟨.mask16, .deref, 2⟩, ⟨.m512i, .deref, 3⟩] (id! "_mm512_mask_cvtepi32_epi8") [1, 2, 3] (some .m128i)),
  /- 9971-9989 -/ (id! "_mm512_mask_cvtepi64_epi8", .call 4 [⟨.m128i, .deref, 1⟩, ⟨.mask8, .deref, 2⟩, ⟨.m512i, .deref, 3⟩] (id! "_mm512_mask_cvtepi64_epi8") [1, 2, 3] (some .m128i)),
  /- 28599-28616 -/ (id! "_mm512_mask_reduce_add_pd", .call 3 [⟨.mask8, .deref, 1⟩, ⟨.m512d, .deref, 2⟩] (id! "_mm512_mask_reduce_add_pd") [1, 2] (some .double)),
  /- 4144-4152 -/ (id! "_mm512_maskz_sub_round_pd", .unsupported),
  /- 4084-4092 -/ (id! "_mm512_maskz_add_round_pd", .unsupported),
  /- 4239-4247 -/ (id! "_mm512_maskz_mul_round_pd", .unsupported),
  /- 4609-4617 -/ (id! "_mm512_maskz_min_round_pd", .unsupported),
  /- 3349-3357 -/ (id! "_mm512_mask_sqrt_round_pd", .unsupported),
  /- 4369-4377 -/ (id! "_mm512_maskz_div_round_pd", .unsupported),
  /- 4549-4557 -/ (id! "_mm512_maskz_max_round_pd", .unsupported),
  /- 26433-26441 -/ (id! "_mm512_mask_roundscale_pd", .unsupported),
  /- 28618-28635 -/ (id! "_mm512_mask_reduce_mul_pd", .call 3 [⟨.mask8, .deref, 1⟩, ⟨.m512d, .deref, 2⟩] (id! "_mm512_mask_reduce_mul_pd") [1, 2] (some .double)),
  /- 28673-28690 -/ (id! "_mm512_mask_reduce_min_pd", .call 3 [⟨.mask8, .deref, 1⟩, ⟨.m512d, .deref, 2⟩] (id! "_mm512_mask_reduce_min_pd") [1, 2] (some .double)),
  /- 11178-11197 -/ (id! "_mm512_mask_permutevar_pd", .call 5 [⟨.m512d, .deref, 1⟩, ⟨.mask8, .deref, 2⟩, ⟨.m512d, .deref, 3⟩, ⟨.m512i, .deref, 4⟩] (id! "_mm512_mask_permutevar_pd") [1, 2, 3, 4] (some .m512d)),
  /- 19638-19646 -/ (id! "_mm512_mask_i32scatter_pd", .unsupported),
  /- 19678-19686 -/ (id! "_mm512_mask_i64scatter_pd", .unsupported),
  /- 22181-22189 -/ (id! "_mm_mask3_fnmsub_round_sd", .unsupported),
  /- 22201-22209 -/ (id! "_mm_maskz_fnmsub_round_sd", .unsupported),
  /- 22121-22129 -/ (id! "_mm_mask3_fnmadd_round_sd", .unsupported),
  /- 22141-22149 -/ (id! "_mm_maskz_fnmadd_round_sd", .unsupported),
  /- 4729-4737 -/ (id! "_mm_maskz_scalef_round_sd", .unsupported),
  /- 15425-15469 -/ (id! "_mm_maskz_getexp_round_sd", .immediate 5),
  /- 18106-18114 -/ (id! "_mm_mask_getmant_round_sd", .unsupported),
  /- 26690-26708 -/ (id! "_mm512_mask_cmple_pd_mask", .call 4 [⟨.mask8, .deref, 1⟩, ⟨.m512d, .deref, 2⟩, ⟨.m512d, .deref, 3⟩] (id! "_mm512_mask_cmple_pd_mask") [1, 2, 3] (some .mask8)),
  /- 26612-26630 -/ (id! "_mm512_mask_cmpeq_pd_mask", .call 4 [⟨.mask8, .deref, 1⟩, ⟨.m512d, .deref, 2⟩, ⟨.m512d, .deref, 3⟩] (id! "_mm512_mask_cmpeq_pd_mask") [1, 2, 3] (some .mask8)),
  /- 26651-26669 -/ (id! "_mm512_mask_cmplt_pd_mask", .call 4 [⟨.mask8, .deref, 1⟩, ⟨.m512d, .deref, 2⟩, ⟨.m512d, .deref, 3⟩] (id! "_mm512_mask_cmplt_pd_mask") [1, 2, 3] (some .mask8)),
  /- 27002-27020 -/ (id! "_mm512_mask_cmple_ps_mask", .call 4 [⟨.mask16, .deref, 1⟩, ⟨.m512, .deref, 2⟩, ⟨.m512, .deref, 3⟩] (id! "_mm512_mask_cmple_ps_mask") [1, 2, 3] (some .mask16)),
  /- 26924-26942 -/ (id! "_mm512_mask_cmpeq_ps_mask", .call 4 [⟨.mask16, .deref, 1⟩, ⟨.m512, .deref, 2⟩, ⟨.m512, .deref, 3⟩] (id! "_mm512_mask_cmpeq_ps_mask") [1, 2, 3] (some .mask16)),
  /- 26963-26981 -/ (id! "_mm512_mask_cmplt_ps_mask", .call 4 [⟨.mask16, .deref, 1⟩, ⟨.m512, .deref, 2⟩, ⟨.m512, .deref, 3⟩] (id! "_mm512_mask_cmplt_ps_mask") [1, 2, 3] (some .mask16)),
  /- 28155-28172 -/ (id! "_mm512_mask_reduce_add_ps", .call 3 [⟨.mask16, .deref, 1⟩, ⟨.m512, .deref, 2⟩] (id! "_mm512_mask_reduce_add_ps") [1, 2] (some .float)),
  /- 4209-4217 -/ (id! "_mm512_maskz_sub_round_ps", .unsupported),
  /- 4114-4122 -/ (id! "_mm512_maskz_add_round_ps", .unsupported),
  /- 4304-4312 -/ (id! "_mm512_maskz_mul_round_ps", .unsupported),
  /- 4639-4647 -/ (id! "_mm512_maskz_min_round_ps", .unsupported),
  /- 3379-3387 -/ (id! "_mm512_mask_sqrt_round_ps", .unsupported),
  /- 4399-4407 -/ (id! "_mm512_maskz_div_round_ps", .unsupported),
  /- 4579-4587 -/ (id! "_mm512_maskz_max_round_ps", .unsupported),
  /- 26403-26411 -/ (id! "_mm512_mask_roundscale_ps", .unsupported),
  /- 28174-28191 -/ (id! "_mm512_mask_reduce_mul_ps", .call 3 [⟨.mask16, .deref, 1⟩, ⟨.m512, .deref, 2⟩] (id! "_mm512_mask_reduce_mul_ps") [1, 2] (some .float)),
  /- 28229-28246 -/ (id! "_mm512_mask_reduce_min_ps", .call 3 [⟨.mask16, .deref, 1⟩, ⟨.m512, .deref, 2⟩] (id! "_mm512_mask_reduce_min_ps") [1, 2] (some .float)),
  /- 11238-11257 -/ (id! "_mm512_mask_permutevar_ps", .call 5 [⟨.m512, .deref, 1⟩, ⟨.mask16, .deref, 2⟩, ⟨.m512, .deref, 3⟩, ⟨.m512i, .deref, 4⟩] (id! "_mm512_mask_permutevar_ps") [1, 2, 3, 4] (some .m512)),
  /- 19618-19626 -/ (id! "_mm512_mask_i32scatter_ps", .unsupported),
  /- 19658-19666 -/ (id! "_mm512_mask_i64scatter_ps", .unsupported),
  /- 28248-28265 -/ (id! "_mm512_mask_reduce_max_ps", .call 3 [⟨.mask16, .deref, 1⟩, ⟨.m512, .deref, 2⟩] (id! "_mm512_mask_reduce_max_ps") [1, 2] (some .float)),
  /- 22191-22199 -/ (id! "_mm_mask3_fnmsub_round_ss", .unsupported),
  /- 22211-22219 -/ (id! "_mm_maskz_fnmsub_round_ss", .unsupported),
  /- 22131-22139 -/ (id! "_mm_mask3_fnmadd_round_ss", .unsupported),
  /- 22151-22159 -/ (id! "_mm_maskz_fnmadd_round_ss", .unsupported),
  /- 4759-4767 -/ (id! "_mm_maskz_scalef_round_ss", .unsupported),
  /- 15287-15331 -/ (id! "_mm_maskz_getexp_round_ss", .immediate 5),
  /- 18136-18144 -/ (id! "_mm_mask_getmant_round_ss", .unsupported),
  /- 9509-9527 -/ (id! "_mm512_mask_cvtepi64_epi32", .call 4 [⟨.m256i, .deref, 1⟩, ⟨.mask8, .deref, 2⟩, ⟨.m512i, .deref, 3⟩] (id! "_mm512_mask_cvtepi64_epi32") [1, 2, 3] (some .m256i)),
  /- 3591-3609 -/ (id! "_mm512_mask_cvtepi16_epi32", .call 4 [⟨.m512i, .deref, 1⟩, ⟨.mask16, .deref, 2⟩, ⟨.m256i, .deref, 3⟩] (id! "_mm512_mask_cvtepi16_epi32") [1, 2, 3] (some .m512i)),
  /- 3876-3894 -/ (id! "_mm512_mask_cvtepu16_epi32", .call 4 [⟨.m512i, .deref, 1⟩, ⟨.mask16, .deref, 2⟩, ⟨.m256i, .deref, 3⟩] (id! "_mm512_mask_cvtepu16_epi32") [1, 2, 3] (some .m512i)),
  /- 3497-3514 -/ (id! "_mm512_maskz_cvtepi8_epi32", .call 3 [⟨.mask16, .deref, 1⟩, ⟨.m128i, .deref, 2⟩] (id! "_mm512_maskz_cvtepi8_epi32") [1, 2] (some .m512i)),
  /- 3782-3799 -/ (id! "_mm512_maskz_cvtepu8_epi32", .call 3 [⟨.mask16, .deref, 1⟩, ⟨.m128i, .deref, 2⟩] (id! "_mm512_maskz_cvtepu8_epi32") [1, 2] (some .m512i)),
  /- 7502-8298 -/ (id! "_mm512_maskz_shuffle_epi32", .immediate 4),
  /- 14212-14231 -/ (id! "_mm512_mask_unpackhi_epi32", .call 5 [⟨.m512i, .deref, 1⟩, ⟨.mask16, .deref, 2⟩, ⟨.m512i, .deref, 3⟩, ⟨.m512i, .deref, 4⟩] (id! "_mm512_mask_unpackhi_epi32") [1, 2, 3, 4] (some .m512i)),
  /- 14332-14351 -/ (id! "_mm512_mask_unpacklo_epi32", .call 5 [⟨.m512i, .deref, 1⟩, ⟨.mask16, .deref, 2⟩, ⟨.m512i, .deref, 3⟩, ⟨.m512i, .deref, 4⟩] (id! "_mm512_mask_unpacklo_epi32") [1, 2, 3, 4] (some .m512i)),
  /- 19945-19963 -/ (id! "_mm512_mask_compress_epi32", .call 4 [⟨.m512i, .deref, 1⟩, ⟨.mask16, .deref, 2⟩, ⟨.m512i, .deref, 3⟩] (id! "_mm512_mask_compress_epi32") [1, 2, 3] (some .m512i)),
  /- 8380-8388 -/ (id! "_mm512_maskz_shuffle_f64x2", .unsupported),
  /- 8320-8328 -/ (id! "_mm512_maskz_shuffle_i64x2", .unsupported),
  /- 3705-3723 -/ (id! "_mm512_mask_cvtepi32_epi64", .call 4 [⟨.m512i, .deref, 1⟩, ⟨.mask8, .deref, 2⟩, ⟨.m256i, .deref, 3⟩] (id! "_mm512_mask_cvtepi32_epi64") [1, 2, 3] (some .m512i)),
  /- 3990-4008 -/ (id! "_mm512_mask_cvtepu32_epi64", .call 4 [⟨.m512i, .deref, 1⟩, ⟨.mask8, .deref, 2⟩, ⟨.m256i, .deref, 3⟩] (id! "_mm512_mask_cvtepu32_epi64") [1, 2, 3] (some .m512i)),
  /- 3648-3666 -/ (id! "_mm512_mask_cvtepi16_epi64", .call 4 [⟨.m512i, .deref, 1⟩, ⟨.mask8, .deref, 2⟩, ⟨.m128i, .deref, 3⟩] (id! "_mm512_mask_cvtepi16_epi64") [1, 2, 3] (some .m512i)),
  /- 3933-3951 -/ (id! "_mm512_mask_cvtepu16_epi64", .call 4 [⟨.m512i, .deref, 1⟩, ⟨.mask8, .deref, 2⟩, ⟨.m128i, .deref, 3⟩] (id! "_mm512_mask_cvtepu16_epi64") [1, 2, 3] (some .m512i)),
  /- 3554-3571 -/ (id! "_mm512_maskz_cvtepi8_epi64", .call 3 [⟨.mask8, .deref, 1⟩, ⟨.m128i, .deref, 2⟩] (id! "_mm512_maskz_cvtepi8_epi64") [1, 2] (some .m512i)),
  /- 3839-3856 -/ (id! "_mm512_maskz_cvtepu8_epi64", .call 3 [⟨.mask8, .deref, 1⟩, ⟨.m128i, .deref, 2⟩] (id! "_mm512_maskz_cvtepu8_epi64") [1, 2] (some .m512i)),
  /- 14272-14291 -/ (id! "_mm512_mask_unpackhi_epi64", .call 5 [⟨.m512i, .deref, 1⟩, ⟨.mask8, .deref, 2⟩, ⟨.m512i, .deref, 3⟩, ⟨.m512i, .deref, 4⟩] (id! "_mm512_mask_unpackhi_epi64") [1, 2, 3, 4] (some .m512i)),
  /- 14392-14411 -/ (id! "_mm512_mask_unpacklo_epi64", .call 5 [⟨.m512i, .deref, 1⟩, ⟨.mask8, .deref, 2⟩, ⟨.m512i, .deref, 3⟩, ⟨.m512i, .deref, 4⟩] (id! "_mm512_mask_unpacklo_epi64") [1, 2, 3, 4] (some .m512i)),
  /- 19886-19904 -/ (id! "_mm512_mask_compress_epi64", .call 4 [⟨.m512i, .deref, 1⟩, ⟨.mask8, .deref, 2⟩, ⟨.m512i, .deref, 3⟩] (id! "_mm512_mask_compress_epi64") [1, 2, 3] (some .m512i)),
  /- 11681-11689 -/ (id! "_mm512_mask_permutex_epi64", .unsupported),
  /- 8410-8418 -/ (id! "_mm512_maskz_shuffle_f32x4", .unsupported),
  /- 8350-8358 -/ (id! "_mm512_maskz_shuffle_i32x4", .unsupported),
  /- 9278-9296 -/ (id! "_mm512_mask_cvtepi32_epi16", .call 4 [⟨.m256i, .deref, 1⟩, ⟨.mask16, .deref, 2⟩, ⟨.m512i, .deref, 3⟩] (id! "_mm512_mask_cvtepi32_epi16") [1, 2, 3] (some .m256i)),
  /- 9740-9758 -/ (id! "_mm512_mask_cvtepi64_epi16", .call 4 [⟨.m128i, .deref, 1⟩, ⟨.mask8, .deref, 2⟩, ⟨.m512i, .deref, 3⟩] (id! "_mm512_mask_cvtepi64_epi16") [1, 2, 3] (some .m128i)),
  /- 9124-9142 -/ (id! "_mm512_mask_cvtsepi32_epi8", .call 4 [⟨.m128i, .deref, 1⟩, ⟨.mask16, .deref, 2⟩, ⟨.m512i, .deref, 3⟩] (id! "_mm512_mask_cvtsepi32_epi8") [1, 2, 3] (some .m128i)),
  /- 9067-9084 -/ (id! "_mm512_maskz_cvtepi32_epi8", .call 3 [⟨.mask16, .deref, 1⟩, ⟨.m512i, .deref, 2⟩] (id! "_mm512_maskz_cvtepi32_epi8") [1, 2] (some .m128i)),
  /- 10048-10066 -/ (id! "_mm512_mask_cvtsepi64_epi8", .call 4 [⟨.m128i, .deref, 1⟩, ⟨.mask8, .deref, 2⟩, ⟨.m512i, .deref, 3⟩] (id! "_mm512_mask_cvtsepi64_epi8") [1, 2, 3] (some .m128i)),
  /- 9991-10008 -/ (id! "_mm512_maskz_cvtepi64_epi8", .call 3 [⟨.mask8, .deref, 1⟩, ⟨.m512i, .deref, 2⟩] (id! "_mm512_maskz_cvtepi64_epi8") [1, 2] (some .m128i)),
  /- 4859-4867 -/ (id! "_mm512_mask_fmsub_round_pd", .unsupported),
  /- 4779-4787 -/ (id! "_mm512_mask_fmadd_round_pd", .unsupported),
  /- 18186-18194 -/ (id! "_mm512_roundscale_round_pd", .unsupported),
  /- 3359-3367 -/ (id! "_mm512_maskz_sqrt_round_pd", .unsupported),
  /- 5438-5456 -/ (id! "_mm512_mask_broadcastsd_pd", .call 4 [⟨.m512d, .deref, 1⟩, ⟨.mask8, .deref, 2⟩, ⟨.m128d, .deref, 3⟩] (id! "_mm512_mask_broadcastsd_pd") [1, 2, 3] (some .m512d)),
  /- 26443-26451 -/ (id! "_mm512_maskz_roundscale_pd", .unsupported),
  /- 11199-11217 -/ (id! "_mm512_maskz_permutevar_pd", .call 4 [⟨.mask8, .deref, 1⟩, ⟨.m512d, .deref, 2⟩, ⟨.m512i, .deref, 3⟩] (id! "_mm512_maskz_permutevar_pd") [1, 2, 3] (some .m512d)),
  /- 11870-11889 -/ (id! "_mm512_mask_permutexvar_pd", .call 5 [⟨.m512d, .deref, 1⟩, ⟨.mask8, .deref, 2⟩, ⟨.m512i, .deref, 3⟩, ⟨.m512d, .deref, 4⟩] (id! "_mm512_mask_permutexvar_pd") [1, 2, 3, 4] (some .m512d)),
  /- 14920-14928 -/ (id! "_mm512_mask_cvt_roundps_pd", .unsupported),
  /- 20043-20061 -/ (id! "_mm512_mask_expandloadu_pd", .call 4 [⟨.m512d, .deref, 1⟩, ⟨.mask8, .deref, 2⟩, ⟨.ptr, .deref, 3⟩] (id! "_mm512_mask_expandloadu_pd") [1, 2, 3] (some .m512d)),
  /- 12890-12898 -/ (id! "_mm_mask_fixupimm_round_sd", .unsupported),
  /- 18116-18124 -/ (id! "_mm_maskz_getmant_round_sd", .unsupported),
  /- 14990-14998 -/ (id! "_mm512_mask_cvt_roundps_ph", .unsupported),
  /- 19358-19366 -/ (id! "_mm512_mask_cmp_epi32_mask", .unsupported),
  /- 19378-19386 -/ (id! "_mm512_mask_cmp_epu32_mask", .unsupported),
  /- 19348-19356 -/ (id! "_mm512_mask_cmp_epi64_mask", .unsupported),
  /- 19368-19376 -/ (id! "_mm512_mask_cmp_epu64_mask", .unsupported),
  /- 26885-26903 -/ (id! "_mm512_mask_cmpord_pd_mask", .call 4 [⟨.mask8, .deref, 1⟩, ⟨.m512d, .deref, 2⟩, ⟨.m512d, .deref, 3⟩] (id! "_mm512_mask_cmpord_pd_mask") [1, 2, 3] (some .mask8)),
  /- 26846-26864 -/ (id! "_mm512_mask_cmpnle_pd_mask", .call 4 [⟨.mask8, .deref, 1⟩, ⟨.m512d, .deref, 2⟩, ⟨.m512d, .deref, 3⟩] (id! "_mm512_mask_cmpnle_pd_mask") [1, 2, 3] (some .mask8)),
  /- 26768-26786 -/ (id! "_mm512_mask_cmpneq_pd_mask", .call 4 [⟨.mask8, .deref, 1⟩, ⟨.m512d, .deref, 2⟩, ⟨.m512d, .deref, 3⟩] (id! "_mm512_mask_cmpneq_pd_mask") [1, 2, 3] (some .mask8)),
  /- 26807-26825 -/ (id! "_mm512_mask_cmpnlt_pd_mask", .call 4 [⟨.mask8, .deref, 1⟩, ⟨.m512d, .deref, 2⟩, ⟨.m512d, .deref, 3⟩] (id! "_mm512_mask_cmpnlt_pd_mask") [1, 2, 3] (some .mask8)),
  /- 19418-19426 -/ (id! "_mm_mask_cmp_round_sd_mask", .unsupported),
  /- 27197-27215 -/ (id! "_mm512_mask_cmpord_ps_mask", .call 4 [⟨.mask16, .deref, 1⟩, ⟨.m512, .deref, 2⟩, ⟨.m512, .deref, 3⟩] (id! "_mm512_mask_cmpord_ps_mask") [1, 2, 3] (some .mask16)),
  /- 27158-27176 -/ (id! "_mm512_mask_cmpnle_ps_mask", .call 4 [⟨.mask16, .deref, 1⟩, ⟨.m512, .deref, 2⟩, ⟨.m512, .deref, 3⟩] (id! "_mm512_mask_cmpnle_ps_mask") [1, 2, 3] (some .mask16)),
  /- 27080-27098 -/ (id! "_mm512_mask_cmpneq_ps_mask", .call 4 [⟨.mask16, .deref, 1⟩, ⟨.m512, .deref, 2⟩, ⟨.m512, .deref, 3⟩] (id! "_mm512_mask_cmpneq_ps_mask") [1, 2, 3] (some .mask16)),
  /- 27119-27137 -/ (id! "_mm512_mask_cmpnlt_ps_mask", .call 4 [⟨.mask16, .deref, 1⟩, ⟨.m512, .deref, 2⟩, ⟨.m512, .deref, 3⟩] (id! "_mm512_mask_cmpnlt_ps_mask") [1, 2, 3] (some .mask16)),
  /- 19438-19446 -/ (id! "_mm_mask_cmp_round_ss_mask", .unsupported),
  /- 4899-4907 -/ (id! "_mm512_mask_fmsub_round_ps", .unsupported),
  /- 4819-4827 -/ (id! "_mm512_mask_fmadd_round_ps", .unsupported),
  /- 18156-18164 -/ (id! "_mm512_roundscale_round_ps", .unsupported),
  /- 3389-3397 -/ (id! "_mm512_maskz_sqrt_round_ps", .unsupported),
  /- 15040-15048 -/ (id! "_mm512_mask_cvt_roundpd_ps", .unsupported),
  /- 26413-26421 -/ (id! "_mm512_maskz_roundscale_ps", .unsupported),
  /- 14950-14958 -/ (id! "_mm512_mask_cvt_roundph_ps", .unsupported),
  /- 11259-11277 -/ (id! "_mm512_maskz_permutevar_ps", .call 4 [⟨.mask16, .deref, 1⟩, ⟨.m512, .deref, 2⟩, ⟨.m512i, .deref, 3⟩] (id! "_mm512_maskz_permutevar_ps") [1, 2, 3] (some .m512)),
  /- 11930-11949 -/ (id! "_mm512_mask_permutexvar_ps", .call 5 [⟨.m512, .deref, 1⟩, ⟨.mask16, .deref, 2⟩, ⟨.m512i, .deref, 3⟩, ⟨.m512, .deref, 4⟩] (id! "_mm512_mask_permutexvar_ps") [1, 2, 3, 4] (some .m512)),
  /- 5381-5399 -/ (id! "_mm512_mask_broadcastss_ps", .call 4 [⟨.m512, .deref, 1⟩, ⟨.mask16, .deref, 2⟩, ⟨.m128, .deref, 3⟩] (id! "_mm512_mask_broadcastss_ps") [1, 2, 3] (some .m512)),
  /- 20121-20139 -/ (id! "_mm512_mask_expandloadu_ps", .call 4 [⟨.m512, .deref, 1⟩, ⟨.mask16, .deref, 2⟩, ⟨.ptr, .deref, 3⟩] (id! "_mm512_mask_expandloadu_ps") [1, 2, 3] (some .m512)),
  /- 12920-12928 -/ (id! "_mm_mask_fixupimm_round_ss", .unsupported),
  /- 18146-18154 -/ (id! "_mm_maskz_getmant_round_ss", .unsupported),
  /- 9586-9604 -/ (id! "_mm512_mask_cvtsepi64_epi32", .call 4 [⟨.m256i, .deref, 1⟩, ⟨.mask8, .deref, 2⟩, ⟨.m512i, .deref, 3⟩] (id! "_mm512_mask_cvtsepi64_epi32") [1, 2, 3] (some .m256i)),
  /- 9529-9546 -/ (id! "_mm512_maskz_cvtepi64_epi32", .call 3 [⟨.mask8, .deref, 1⟩, ⟨.m512i, .deref, 2⟩] (id! "_mm512_maskz_cvtepi64_epi32") [1, 2] (some .m256i)),
  /- 3611-3628 -/ (id! "_mm512_maskz_cvtepi16_epi32", .call 3 [⟨.mask16, .deref, 1⟩, ⟨.m256i, .deref, 2⟩] (id! "_mm512_maskz_cvtepi16_epi32") [1, 2] (some .m512i)),
  /- 3896-3913 -/ (id! "_mm512_maskz_cvtepu16_epi32", .call 3 [⟨.mask16, .deref, 1⟩, ⟨.m256i, .deref, 2⟩] (id! "_mm512_maskz_cvtepu16_epi32") [1, 2] (some .m512i)),
  /- 14233-14251 -/ (id! "_mm512_maskz_unpackhi_epi32", .call 4 [⟨.mask16, .deref, 1⟩, ⟨.m512i, .deref, 2⟩, ⟨.m512i, .deref, 3⟩] (id! "_mm512_maskz_unpackhi_epi32") [1, 2, 3] (some .m512i)),
  /- 14353-14371 -/ (id! "_mm512_maskz_unpacklo_epi32", .call 4 [⟨.mask16, .deref, 1⟩, ⟨.m512i, .deref, 2⟩, ⟨.m512i, .deref, 3⟩] (id! "_mm512_maskz_unpacklo_epi32") [1, 2, 3] (some .m512i)),
  /- 19538-19546 -/ (id! "_mm512_mask_i32gather_epi32", .unsupported),
  /- 19578-19586 -/ (id! "_mm512_mask_i64gather_epi32", .unsupported),
  /- 27952-27969 -/ (id! "_mm512_mask_reduce_or_epi32", .call 3 [⟨.mask16, .deref, 1⟩, ⟨.m512i, .deref, 2⟩] (id! "_mm512_mask_reduce_or_epi32") [1, 2] (some .int)),
  /- 19965-19982 -/ (id! "_mm512_maskz_compress_epi32", .call 3 [⟨.mask16, .deref, 1⟩, ⟨.m512i, .deref, 2⟩] (id! "_mm512_maskz_compress_epi32") [1, 2] (some .m512i)),
  /- 3725-3742 -/ (id! "_mm512_maskz_cvtepi32_epi64", .call 3 [⟨.mask8, .deref, 1⟩, ⟨.m256i, .deref, 2⟩] (id! "_mm512_maskz_cvtepi32_epi64") [1, 2] (some .m512i)),
  /- 4010-4027 -/ (id! "_mm512_maskz_cvtepu32_epi64", .call 3 [⟨.mask8, .deref, 1⟩, ⟨.m256i, .deref, 2⟩] (id! "_mm512_maskz_cvtepu32_epi64") [1, 2] (some .m512i)),
  /- 3668-3685 -/ (id! "_mm512_maskz_cvtepi16_epi64", .call 3 [⟨.mask8, .deref, 1⟩, ⟨.m128i, .deref, 2⟩] (id! "_mm512_maskz_cvtepi16_epi64") [1, 2] (some .m512i)),
  /- 3953-3970 -/ (id! "_mm512_maskz_cvtepu16_epi64", .call 3 [⟨.mask8, .deref, 1⟩, ⟨.m128i, .deref, 2⟩] (id! "_mm512_maskz_cvtepu16_epi64") [1, 2] (some .m512i)),
  /- 14293-14311 -/ (id! "_mm512_maskz_unpackhi_epi64", .call 4 [⟨.mask8, .deref, 1⟩, ⟨.m512i, .deref, 2⟩, ⟨.m512i, .deref, 3⟩] (id! "_mm512_maskz_unpackhi_epi64") [1, 2, 3] (some .m512i)),
  /- 14413-14431 -/ (id! "_mm512_maskz_unpacklo_epi64", .call 4 [⟨.mask8, .deref, 1⟩, ⟨.m512i, .deref, 2⟩, ⟨.m512i, .deref, 3⟩] (id! "_mm512_maskz_unpacklo_epi64") [1, 2, 3] (some .m512i)),
  /- 19558-19566 -/ (id! "_mm512_mask_i32gather_epi64", .unsupported),
  /- 19598-19606 -/ (id! "_mm512_mask_i64gather_epi64", .unsupported),
  /- 28396-28413 -/ (id! "_mm512_mask_reduce_or_epi64", .call 3 [⟨.mask8, .deref, 1⟩, ⟨.m512i, .deref, 2⟩] (id! "_mm512_mask_reduce_or_epi64") [1, 2] (some .llong)),
  /- 19906-19923 -/ (id! "_mm512_maskz_compress_epi64", .call 3 [⟨.mask8, .deref, 1⟩, ⟨.m512i, .deref, 2⟩] (id! "_mm512_maskz_compress_epi64") [1, 2] (some .m512i)),
  /- 11691-11699 -/ (id! "_mm512_maskz_permutex_epi64", .unsupported),
  /- 5696-5714 -/ (id! "_mm512_mask_broadcast_f32x4", .call 4 [⟨.m512, .deref, 1⟩, ⟨.mask16, .deref, 2⟩, ⟨.m128, .deref, 3⟩] (id! "_mm512_mask_broadcast_f32x4") [1, 2, 3] (some .m512)),
  /- 5753-5771 -/ (id! "_mm512_mask_broadcast_i32x4", .call 4 [⟨.m512i, .deref, 1⟩, ⟨.mask16, .deref, 2⟩, ⟨.m128i, .deref, 3⟩] (id! "_mm512_mask_broadcast_i32x4") [1, 2, 3] (some .m512i)),
  /- 5810-5828 -/ (id! "_mm512_mask_broadcast_f64x4", .call 4 [⟨.m512d, .deref, 1⟩, ⟨.mask8, .deref, 2⟩, ⟨.m256d, .deref, 3⟩] (id! "_mm512_mask_broadcast_f64x4") [1, 2, 3] (some .m512d)),
  /- 5867-5885 -/ (id! "_mm512_mask_broadcast_i64x4", .call 4 [⟨.m512i, .deref, 1⟩, ⟨.mask8, .deref, 2⟩, ⟨.m256i, .deref, 3⟩] (id! "_mm512_mask_broadcast_i64x4") [1, 2, 3] (some .m512i)),
  /- 9355-9373 -/ (id! "_mm512_mask_cvtsepi32_epi16", .call 4 [⟨.m256i, .deref, 1⟩, ⟨.mask16, .deref, 2⟩, ⟨.m512i, .deref, 3⟩] (id! "_mm512_mask_cvtsepi32_epi16") [1, 2, 3] (some .m256i)),
  /- 9298-9315 -/ (id! "_mm512_maskz_cvtepi32_epi16", .call 3 [⟨.mask16, .deref, 1⟩, ⟨.m512i, .deref, 2⟩] (id! "_mm512_maskz_cvtepi32_epi16") [1, 2] (some .m256i)),
  /- 9817-9835 -/ (id! "_mm512_mask_cvtsepi64_epi16", .call 4 [⟨.m128i, .deref, 1⟩, ⟨.mask8, .deref, 2⟩, ⟨.m512i, .deref, 3⟩] (id! "_mm512_mask_cvtsepi64_epi16") [1, 2, 3] (some .m128i)),
  /- 9760-9777 -/ (id! "_mm512_maskz_cvtepi64_epi16", .call 3 [⟨.mask8, .deref, 1⟩, ⟨.m512i, .deref, 2⟩] (id! "_mm512_maskz_cvtepi64_epi16") [1, 2] (some .m128i)),
  /- 9144-9161 -/ (id! "_mm512_maskz_cvtsepi32_epi8", .call 3 [⟨.mask16, .deref, 1⟩, ⟨.m512i, .deref, 2⟩] (id! "_mm512_maskz_cvtsepi32_epi8") [1, 2] (some .m128i)),
  /- 9201-9219 -/ (id! "_mm512_mask_cvtusepi32_epi8", .call 4 [⟨.m128i, .deref, 1⟩, ⟨.mask16, .deref, 2⟩, ⟨.m512i, .deref, 3⟩] (id! "_mm512_mask_cvtusepi32_epi8") [1, 2, 3] (some .m128i)),
  /- 10068-10085 -/ (id! "_mm512_maskz_cvtsepi64_epi8", .call 3 [⟨.mask8, .deref, 1⟩, ⟨.m512i, .deref, 2⟩] (id! "_mm512_maskz_cvtsepi64_epi8") [1, 2] (some .m128i)),
  /- 10125-10143 -/ (id! "_mm512_mask_cvtusepi64_epi8", .call 4 [⟨.m128i, .deref, 1⟩, ⟨.mask8, .deref, 2⟩, ⟨.m512i, .deref, 3⟩] (id! "_mm512_mask_cvtusepi64_epi8") [1, 2, 3] (some .m128i)),
  /- 10348-10356 -/ (id! "_mm512_mask_extractf64x4_pd", .unsupported),
  /- 4869-4877 -/ (id! "_mm512_mask3_fmsub_round_pd", .unsupported),
  /- 4879-4887 -/ (id! "_mm512_maskz_fmsub_round_pd", .unsupported),
  /- 5179-5187 -/ (id! "_mm512_mask_fnmsub_round_pd", .unsupported),
  /- 4789-4797 -/ (id! "_mm512_mask3_fmadd_round_pd", .unsupported),
  /- 4799-4807 -/ (id! "_mm512_maskz_fmadd_round_pd", .unsupported),
  /- 5099-5107 -/ (id! "_mm512_mask_fnmadd_round_pd", .unsupported),
  /- 4659-4667 -/ (id! "_mm512_mask_scalef_round_pd", .unsupported),
  /- 15573-15581 -/ (id! "_mm512_mask_getexp_round_pd", .unsupported),
  /- 5458-5475 -/ (id! "_mm512_maskz_broadcastsd_pd", .call 3 [⟨.mask8, .deref, 1⟩, ⟨.m128d, .deref, 2⟩] (id! "_mm512_maskz_broadcastsd_pd") [1, 2] (some .m512d)),
  /- 11465-11484 -/ (id! "_mm512_mask_permutex2var_pd", .call 5 [⟨.m512d, .deref, 1⟩, ⟨.mask8, .deref, 2⟩, ⟨.m512i, .deref, 3⟩, ⟨.m512d, .deref, 4⟩] (id! "_mm512_mask_permutex2var_pd") [1, 2, 3, 4] (some .m512d)),
  /- 11891-11909 -/ (id! "_mm512_maskz_permutexvar_pd", .call 4 [⟨.mask8, .deref, 1⟩, ⟨.m512i, .deref, 2⟩, ⟨.m512d, .deref, 3⟩] (id! "_mm512_maskz_permutexvar_pd") [1, 2, 3] (some .m512d)),
  /- 14930-14938 -/ (id! "_mm512_maskz_cvt_roundps_pd", .unsupported),
  /- 20063-20080 -/ (id! "_mm512_maskz_expandloadu_pd", .call 3 [⟨.mask8, .deref, 1⟩, ⟨.ptr, .deref, 2⟩] (id! "_mm512_maskz_expandloadu_pd") [1, 2] (some .m512d)),
  /- 12900-12908 -/ (id! "_mm_maskz_fixupimm_round_sd", .unsupported),
  /- 15010-15018 -/ (id! "_mm512_maskz_cvt_roundps_ph", .unsupported),
  /- 13980-13998 -/ (id! "_mm512_mask_test_epi32_mask", .call 4 [⟨.mask16, .deref, 1⟩, ⟨.m512i, .deref, 2⟩, ⟨.m512i, .deref, 3⟩] (id! "_mm512_mask_test_epi32_mask") [1, 2, 3] (some .mask16)),
  /- 14019-14037 -/ (id! "_mm512_mask_test_epi64_mask", .call 4 [⟨.mask8, .deref, 1⟩, ⟨.m512i, .deref, 2⟩, ⟨.m512i, .deref, 3⟩] (id! "_mm512_mask_test_epi64_mask") [1, 2, 3] (some .mask8)),
  /- 10378-10386 -/ (id! "_mm512_mask_extractf32x4_ps", .unsupported),
  /- 4909-4917 -/ (id! "_mm512_mask3_fmsub_round_ps", .unsupported),
  /- 4919-4927 -/ (id! "_mm512_maskz_fmsub_round_ps", .unsupported),
  /- 5219-5227 -/ (id! "_mm512_mask_fnmsub_round_ps", .unsupported),
  /- 4829-4837 -/ (id! "_mm512_mask3_fmadd_round_ps", .unsupported),
  /- 4839-4847 -/ (id! "_mm512_maskz_fmadd_round_ps", .unsupported),
  /- 5139-5147 -/ (id! "_mm512_mask_fnmadd_round_ps", .unsupported),
  /- 4689-4697 -/ (id! "_mm512_mask_scalef_round_ps", .unsupported),
  /- 15512-15520 -/ (id! "_mm512_mask_getexp_round_ps", .unsupported),
  /- 15050-15058 -/ (id! "_mm512_maskz_cvt_roundpd_ps", .unsupported),
  /- 14960-14968 -/ (id! "_mm512_maskz_cvt_roundph_ps", .unsupported),
  /- 11548-11567 -/ (id! "_mm512_mask_permutex2var_ps", .call 5 [⟨.m512, .deref, 1⟩, ⟨.mask16, .deref, 2⟩, ⟨.m512i, .deref, 3⟩, ⟨.m512, .deref, 4⟩] (id! "_mm512_mask_permutex2var_ps") [1, 2, 3, 4] (some .m512)),
  /- 11951-11969 -/ (id! "_mm512_maskz_permutexvar_ps", .call 4 [⟨.mask16, .deref, 1⟩, ⟨.m512i, .deref, 2⟩, ⟨.m512, .deref, 3⟩] (id! "_mm512_maskz_permutexvar_ps") [1, 2, 3] (some .m512)),
  /- 5401-5418 -/ (id! "_mm512_maskz_broadcastss_ps", .call 3 [⟨.mask16, .deref, 1⟩, ⟨.m128, .deref, 2⟩] (id! "_mm512_maskz_broadcastss_ps") [1, 2] (some .m512)),
  /- 20141-20158 -/ (id! "_mm512_maskz_expandloadu_ps", .call 3 [⟨.mask16, .deref, 1⟩, ⟨.ptr, .deref, 2⟩] (id! "_mm512_maskz_expandloadu_ps") [1, 2] (some .m512)),
  /- 12930-12938 -/ (id! "_mm_maskz_fixupimm_round_ss", .unsupported),
  /- 9606-9623 -/ (id! "_mm512_maskz_cvtsepi64_epi32", .call 3 [⟨.mask8, .deref, 1⟩, ⟨.m512i, .deref, 2⟩] (id! "_mm512_maskz_cvtsepi64_epi32") [1, 2] (some .m256i)),
  /- 9663-9681 -/ (id! "_mm512_mask_cvtusepi64_epi32", .call 4 [⟨.m256i, .deref, 1⟩, ⟨.mask8, .deref, 2⟩, ⟨.m512i, .deref, 3⟩] (id! "_mm512_mask_cvtusepi64_epi32") [1, 2, 3] (some .m256i)),
  /- 27895-27912 -/ (id! "_mm512_mask_reduce_add_epi32", .call 3 [⟨.mask16, .deref, 1⟩, ⟨.m512i, .deref, 2⟩] (id! "_mm512_mask_reduce_add_epi32") [1, 2] (some .int)),
  /- 27933-27950 -/ (id! "_mm512_mask_reduce_and_epi32", .call 3 [⟨.mask16, .deref, 1⟩, ⟨.m512i, .deref, 2⟩] (id! "_mm512_mask_reduce_and_epi32") [1, 2] (some .int)),
  /- 5495-5513 -/ (id! "_mm512_mask_broadcastd_epi32", .call 4 [⟨.m512i, .deref, 1⟩, ⟨.mask16, .deref, 2⟩, ⟨.m128i, .deref, 3⟩] (id! "_mm512_mask_broadcastd_epi32") [1, 2, 3] (some .m512i)),
  /- 27914-27931 -/ (id! "_mm512_mask_reduce_mul_epi32", .call 3 [⟨.mask16, .deref, 1⟩, ⟨.m512i, .deref, 2⟩] (id! "_mm512_mask_reduce_mul_epi32") [1, 2] (some .int)),
  /- 28043-28060 -/ (id! "_mm512_mask_reduce_min_epi32", .call 3 [⟨.mask16, .deref, 1⟩, ⟨.m512i, .deref, 2⟩] (id! "_mm512_mask_reduce_min_epi32") [1, 2] (some .int)),
  /- 19698-19706 -/ (id! "_mm512_mask_i32scatter_epi32", .unsupported),
  /- 19738-19746 -/ (id! "_mm512_mask_i64scatter_epi32", .unsupported),
  /- 28062-28079 -/ (id! "_mm512_mask_reduce_max_epi32", .call 3 [⟨.mask16, .deref, 1⟩, ⟨.m512i, .deref, 2⟩] (id! "_mm512_mask_reduce_max_epi32") [1, 2] (some .int)),
  /- 28081-28098 -/ (id! "_mm512_mask_reduce_min_epu32", .call 3 [⟨.mask16, .deref, 1⟩, ⟨.m512i, .deref, 2⟩] (id! "_mm512_mask_reduce_min_epu32") [1, 2] (some .uint)),
  /- 28100-28117 -/ (id! "_mm512_mask_reduce_max_epu32", .call 3 [⟨.mask16, .deref, 1⟩, ⟨.m512i, .deref, 2⟩] (id! "_mm512_mask_reduce_max_epu32") [1, 2] (some .uint)),
  /- 28339-28356 -/ (id! "_mm512_mask_reduce_add_epi64", .call 3 [⟨.mask8, .deref, 1⟩, ⟨.m512i, .deref, 2⟩] (id! "_mm512_mask_reduce_add_epi64") [1, 2] (some .llong)),
  /- 28377-28394 -/ (id! "_mm512_mask_reduce_and_epi64", .call 3 [⟨.mask8, .deref, 1⟩, ⟨.m512i, .deref, 2⟩] (id! "_mm512_mask_reduce_and_epi64") [1, 2] (some .llong)),
  /- 28358-28375 -/ (id! "_mm512_mask_reduce_mul_epi64", .call 3 [⟨.mask8, .deref, 1⟩, ⟨.m512i, .deref, 2⟩] (id! "_mm512_mask_reduce_mul_epi64") [1, 2] (some .llong)),
  /- 28451-28468 -/ (id! "_mm512_mask_reduce_min_epi64", .call 3 [⟨.mask8, .deref, 1⟩, ⟨.m512i, .deref, 2⟩] (id! "_mm512_mask_reduce_min_epi64") [1, 2] (some .llong)),
  /- 5582-5600 -/ (id! "_mm512_mask_broadcastq_epi64", .call 4 [⟨.m512i, .deref, 1⟩, ⟨.mask8, .deref, 2⟩, ⟨.m128i, .deref, 3⟩] (id! "_mm512_mask_broadcastq_epi64") [1, 2, 3] (some .m512i)),
  /- 19718-19726 -/ (id! "_mm512_mask_i32scatter_epi64", .unsupported),
  /- 19758-19766 -/ (id! "_mm512_mask_i64scatter_epi64", .unsupported),
  /- 28470-28487 -/ (id! "_mm512_mask_reduce_max_epi64", .call 3 [⟨.mask8, .deref, 1⟩, ⟨.m512i, .deref, 2⟩] (id! "_mm512_mask_reduce_max_epi64") [1, 2] (some .llong)),
  /- 28525-28542 -/ (id! "_mm512_mask_reduce_min_epu64", .call 3 [⟨.mask8, .deref, 1⟩, ⟨.m512i, .deref, 2⟩] (id! "_mm512_mask_reduce_min_epu64") [1, 2] (some .ullong)),
  /- 28544-28561 -/ (id! "_mm512_mask_reduce_max_epu64", .call 3 [⟨.mask8, .deref, 1⟩, ⟨.m512i, .deref, 2⟩] (id! "_mm512_mask_reduce_max_epu64") [1, 2] (some .ullong)),
  /- 5716-5733 -/ (id! "_mm512_maskz_broadcast_f32x4", .call 3 [⟨.mask16, .deref, 1⟩, ⟨.m128, .deref, 2⟩] (id! "_mm512_maskz_broadcast_f32x4") [1, 2] (some .m512)),
  /- 5773-5790 -/ (id! "_mm512_maskz_broadcast_i32x4", .call 3 [⟨.mask16, .deref, 1⟩, ⟨.m128i, .deref, 2⟩] (id! "_mm512_maskz_broadcast_i32x4") [1, 2] (some .m512i)),
  /- 5830-5847 -/ (id! "_mm512_maskz_broadcast_f64x4", .call 3 [⟨.mask8, .deref, 1⟩, ⟨.m256d, .deref, 2⟩] (id! "_mm512_maskz_broadcast_f64x4") [1, 2] (some .m512d)),
  /- 5887-5904 -/ (id! "_mm512_maskz_broadcast_i64x4", .call 3 [⟨.mask8, .deref, 1⟩, ⟨.m256i, .deref, 2⟩] (id! "_mm512_maskz_broadcast_i64x4") [1, 2] (some .m512i)),
  /- 9375-9392 -/ (id! "_mm512_maskz_cvtsepi32_epi16", .call 3 [⟨.mask16, .deref, 1⟩, ⟨.m512i, .deref, 2⟩] (id! "_mm512_maskz_cvtsepi32_epi16") [1, 2] (some .m256i)),
  /- 9432-9450 -/ (id! "_mm512_mask_cvtusepi32_epi16", .call 4 [⟨.m256i, .deref, 1⟩, ⟨.mask16, .deref, 2⟩, ⟨.m512i, .deref, 3⟩] (id! "_mm512_mask_cvtusepi32_epi16") [1, 2, 3] (some .m256i)),
  /- 9837-9854 -/ (id! "_mm512_maskz_cvtsepi64_epi16", .call 3 [⟨.mask8, .deref, 1⟩, ⟨.m512i, .deref, 2⟩] (id! "_mm512_maskz_cvtsepi64_epi16") [1, 2] (some .m128i)),
  /- 9894-9912 -/ (id! "_mm512_mask_cvtusepi64_epi16", .call 4 [⟨.m128i, .deref, 1⟩, ⟨.mask8, .deref, 2⟩, ⟨.m512i, .deref, 3⟩] (id! "_mm512_mask_cvtusepi64_epi16") [1, 2, 3] (some .m128i)),
  /- 9221-9238 -/ (id! "_mm512_maskz_cvtusepi32_epi8", .call 3 [⟨.mask16, .deref, 1⟩, ⟨.m512i, .deref, 2⟩] (id! "_mm512_maskz_cvtusepi32_epi8") [1, 2] (some .m128i)),
  /- 10145-10162 -/ (id! "_mm512_maskz_cvtusepi64_epi8", .call 3 [⟨.mask8, .deref, 1⟩, ⟨.m512i, .deref, 2⟩] (id! "_mm512_maskz_cvtusepi64_epi8") [1, 2] (some .m128i)),
  /- 10358-10366 -/ (id! "_mm512_maskz_extractf64x4_pd", .unsupported),
  /- 5189-5197 -/ (id! "_mm512_mask3_fnmsub_round_pd", .unsupported),
  /- 5199-5207 -/ (id! "_mm512_maskz_fnmsub_round_pd", .unsupported),
  /- 5109-5117 -/ (id! "_mm512_mask3_fnmadd_round_pd", .unsupported),
  /- 5119-5127 -/ (id! "_mm512_maskz_fnmadd_round_pd", .unsupported),
  /- 4669-4677 -/ (id! "_mm512_maskz_scalef_round_pd", .unsupported),
  /- 15583-15591 -/ (id! "_mm512_maskz_getexp_round_pd", .unsupported),
  /- 15951-16309 -/ (id! "_mm512_mask_getmant_round_pd", .immediate 7),
  /- 11486-11505 -/ (id! "_mm512_mask2_permutex2var_pd", .call 5 [⟨.m512d, .deref, 1⟩, ⟨.m512i, .deref, 2⟩, ⟨.mask8, .deref, 3⟩, ⟨.m512d, .deref, 4⟩] (id! "_mm512_mask2_permutex2var_pd") [1, 2, 3, 4] (some .m512d)),
  /- 11507-11526 -/ (id! "_mm512_maskz_permutex2var_pd", .call 5 [⟨.mask8, .deref, 1⟩, ⟨.m512d, .deref, 2⟩, ⟨.m512i, .deref, 3⟩, ⟨.m512d, .deref, 4⟩] (id! "_mm512_maskz_permutex2var_pd") [1, 2, 3, 4] (some .m512d)),
  /- 18256-18264 -/ (id! "_mm_mask_roundscale_round_sd", .unsupported),
  /- 18663-18681 -/ (id! "_mm512_mask_cmpge_epi32_mask", .call 4 [⟨.mask16, .deref, 1⟩, ⟨.m512i, .deref, 2⟩, ⟨.m512i, .deref, 3⟩] (id! "_mm512_mask_cmpge_epi32_mask") [1, 2, 3] (some .mask16)),
  /- 18800-18818 -/ (id! "_mm512_mask_cmple_epi32_mask", .call 4 [⟨.mask16, .deref, 1⟩, ⟨.m512i, .deref, 2⟩, ⟨.m512i, .deref, 3⟩] (id! "_mm512_mask_cmple_epi32_mask") [1, 2, 3] (some .mask16)),
  /- 14058-14076 -/ (id! "_mm512_mask_testn_epi32_mask", .call 4 [⟨.mask16, .deref, 1⟩, ⟨.m512i, .deref, 2⟩, ⟨.m512i, .deref, 3⟩] (id! "_mm512_mask_testn_epi32_mask") [1, 2, 3] (some .mask16)),
  /- 18507-18525 -/ (id! "_mm512_mask_cmpeq_epi32_mask", .call 4 [⟨.mask16, .deref, 1⟩, ⟨.m512i, .deref, 2⟩, ⟨.m512i, .deref, 3⟩] (id! "_mm512_mask_cmpeq_epi32_mask") [1, 2, 3] (some .mask16)),
  /- 18585-18603 -/ (id! "_mm512_mask_cmpgt_epi32_mask", .call 4 [⟨.mask16, .deref, 1⟩, ⟨.m512i, .deref, 2⟩, ⟨.m512i, .deref, 3⟩] (id! "_mm512_mask_cmpgt_epi32_mask") [1, 2, 3] (some .mask16)),
  /- 18956-18974 -/ (id! "_mm512_mask_cmplt_epi32_mask", .call 4 [⟨.mask16, .deref, 1⟩, ⟨.m512i, .deref, 2⟩, ⟨.m512i, .deref, 3⟩] (id! "_mm512_mask_cmplt_epi32_mask") [1, 2, 3] (some .mask16)),
  /- 18683-18701 -/ (id! "_mm512_mask_cmpge_epu32_mask", .call 4 [⟨.mask16, .deref, 1⟩, ⟨.m512i, .deref, 2⟩, ⟨.m512i, .deref, 3⟩] (id! "_mm512_mask_cmpge_epu32_mask") [1, 2, 3] (some .mask16)),
  /- 18839-18857 -/ (id! "_mm512_mask_cmple_epu32_mask", .call 4 [⟨.mask16, .deref, 1⟩, ⟨.m512i, .deref, 2⟩, ⟨.m512i, .deref, 3⟩] (id! "_mm512_mask_cmple_epu32_mask") [1, 2, 3] (some .mask16)),
  /- 27686-27704 -/ (id! "_mm512_mask_cmpeq_epu32_mask", .call 4 [⟨.mask16, .deref, 1⟩, ⟨.m512i, .deref, 2⟩, ⟨.m512i, .deref, 3⟩] (id! "_mm512_mask_cmpeq_epu32_mask") [1, 2, 3] (some .mask16)),
  /- 27764-27782 -/ (id! "_mm512_mask_cmpgt_epu32_mask", .call 4 [⟨.mask16, .deref, 1⟩, ⟨.m512i, .deref, 2⟩, ⟨.m512i, .deref, 3⟩] (id! "_mm512_mask_cmpgt_epu32_mask") [1, 2, 3] (some .mask16)),
  /- 18995-19013 -/ (id! "_mm512_mask_cmplt_epu32_mask", .call 4 [⟨.mask16, .deref, 1⟩, ⟨.m512i, .deref, 2⟩, ⟨.m512i, .deref, 3⟩] (id! "_mm512_mask_cmplt_epu32_mask") [1, 2, 3] (some .mask16)),
  /- 18722-18740 -/ (id! "_mm512_mask_cmpge_epi64_mask", .call 4 [⟨.mask8, .deref, 1⟩, ⟨.m512i, .deref, 2⟩, ⟨.m512i, .deref, 3⟩] (id! "_mm512_mask_cmpge_epi64_mask") [1, 2, 3] (some .mask8)),
  /- 18878-18896 -/ (id! "_mm512_mask_cmple_epi64_mask", .call 4 [⟨.mask8, .deref, 1⟩, ⟨.m512i, .deref, 2⟩, ⟨.m512i, .deref, 3⟩] (id! "_mm512_mask_cmple_epi64_mask") [1, 2, 3] (some .mask8)),
  /- 14097-14115 -/ (id! "_mm512_mask_testn_epi64_mask", .call 4 [⟨.mask8, .deref, 1⟩, ⟨.m512i, .deref, 2⟩, ⟨.m512i, .deref, 3⟩] (id! "_mm512_mask_testn_epi64_mask") [1, 2, 3] (some .mask8)),
  /- 18527-18545 -/ (id! "_mm512_mask_cmpeq_epi64_mask", .call 4 [⟨.mask8, .deref, 1⟩, ⟨.m512i, .deref, 2⟩, ⟨.m512i, .deref, 3⟩] (id! "_mm512_mask_cmpeq_epi64_mask") [1, 2, 3] (some .mask8)),
  /- 18605-18623 -/ (id! "_mm512_mask_cmpgt_epi64_mask", .call 4 [⟨.mask8, .deref, 1⟩, ⟨.m512i, .deref, 2⟩, ⟨.m512i, .deref, 3⟩] (id! "_mm512_mask_cmpgt_epi64_mask") [1, 2, 3] (some .mask8)),
  /- 19034-19052 -/ (id! "_mm512_mask_cmplt_epi64_mask", .call 4 [⟨.mask8, .deref, 1⟩, ⟨.m512i, .deref, 2⟩, ⟨.m512i, .deref, 3⟩] (id! "_mm512_mask_cmplt_epi64_mask") [1, 2, 3] (some .mask8)),
  /- 18761-18779 -/ (id! "_mm512_mask_cmpge_epu64_mask", .call 4 [⟨.mask8, .deref, 1⟩, ⟨.m512i, .deref, 2⟩, ⟨.m512i, .deref, 3⟩] (id! "_mm512_mask_cmpge_epu64_mask") [1, 2, 3] (some .mask8)),
  /- 18917-18935 -/ (id! "_mm512_mask_cmple_epu64_mask", .call 4 [⟨.mask8, .deref, 1⟩, ⟨.m512i, .deref, 2⟩, ⟨.m512i, .deref, 3⟩] (id! "_mm512_mask_cmple_epu64_mask") [1, 2, 3] (some .mask8)),
  /- 27706-27724 -/ (id! "_mm512_mask_cmpeq_epu64_mask", .call 4 [⟨.mask8, .deref, 1⟩, ⟨.m512i, .deref, 2⟩, ⟨.m512i, .deref, 3⟩] (id! "_mm512_mask_cmpeq_epu64_mask") [1, 2, 3] (some .mask8)),
  /- 27784-27802 -/ (id! "_mm512_mask_cmpgt_epu64_mask", .call 4 [⟨.mask8, .deref, 1⟩, ⟨.m512i, .deref, 2⟩, ⟨.m512i, .deref, 3⟩] (id! "_mm512_mask_cmpgt_epu64_mask") [1, 2, 3] (some .mask8)),
  /- 19073-19091 -/ (id! "_mm512_mask_cmplt_epu64_mask", .call 4 [⟨.mask8, .deref, 1⟩, ⟨.m512i, .deref, 2⟩, ⟨.m512i, .deref, 3⟩] (id! "_mm512_mask_cmplt_epu64_mask") [1, 2, 3] (some .mask8)),
  /- 26729-26747 -/ (id! "_mm512_mask_cmpunord_pd_mask", .call 4 [⟨.mask8, .deref, 1⟩, ⟨.m512d, .deref, 2⟩, ⟨.m512d, .deref, 3⟩] (id! "_mm512_mask_cmpunord_pd_mask") [1, 2, 3] (some .mask8)),
  /- 27041-27059 -/ (id! "_mm512_mask_cmpunord_ps_mask", .call 4 [⟨.mask16, .deref, 1⟩, ⟨.m512, .deref, 2⟩, ⟨.m512, .deref, 3⟩] (id! "_mm512_mask_cmpunord_ps_mask") [1, 2, 3] (some .mask16)),
  /- 10388-10396 -/ (id! "_mm512_maskz_extractf32x4_ps", .unsupported),
  /- 5229-5237 -/ (id! "_mm512_mask3_fnmsub_round_ps", .unsupported),
  /- 5239-5247 -/ (id! "_mm512_maskz_fnmsub_round_ps", .unsupported),
  /- 5149-5157 -/ (id! "_mm512_mask3_fnmadd_round_ps", .unsupported),
  /- 5159-5167 -/ (id! "_mm512_maskz_fnmadd_round_ps", .unsupported),
  /- 4699-4707 -/ (id! "_mm512_maskz_scalef_round_ps", .unsupported),
  /- 15522-15530 -/ (id! "_mm512_maskz_getexp_round_ps", .unsupported),
  /- 17028-17386 -/ (id! "_mm512_mask_getmant_round_ps", .immediate 7),
  /- 11569-11588 -/ (id! "_mm512_mask2_permutex2var_ps", .call 5 [⟨.m512, .deref, 1⟩, ⟨.m512i, .deref, 2⟩, ⟨.mask16, .deref, 3⟩, ⟨.m512, .deref, 4⟩] (id! "_mm512_mask2_permutex2var_ps") [1, 2, 3, 4] (some .m512)),
  /- 11590-11609 -/ (id! "_mm512_maskz_permutex2var_ps", .call 5 [⟨.mask16, .deref, 1⟩, ⟨.m512, .deref, 2⟩, ⟨.m512i, .deref, 3⟩, ⟨.m512, .deref, 4⟩] (id! "_mm512_maskz_permutex2var_ps") [1, 2, 3, 4] (some .m512)),
  /- 18226-18234 -/ (id! "_mm_mask_roundscale_round_ss", .unsupported),
  /- 9683-9700 -/ (id! "_mm512_maskz_cvtusepi64_epi32", .call 3 [⟨.mask8, .deref, 1⟩, ⟨.m512i, .deref, 2⟩] (id! "_mm512_maskz_cvtusepi64_epi32") [1, 2] (some .m256i)),
  /- 8730-8738 -/ (id! "_mm512_mask_cvt_roundpd_epi32", .unsupported),
  /- 5515-5532 -/ (id! "_mm512_maskz_broadcastd_epi32", .call 3 [⟨.mask16, .deref, 1⟩, ⟨.m128i, .deref, 2⟩] (id! "_mm512_maskz_broadcastd_epi32") [1, 2] (some .m512i)),
  /- 11830-11849 -/ (id! "_mm512_mask_permutexvar_epi32", .call 5 [⟨.m512i, .deref, 1⟩, ⟨.mask16, .deref, 2⟩, ⟨.m512i, .deref, 3⟩, ⟨.m512i, .deref, 4⟩] (id! "_mm512_mask_permutexvar_epi32") [1, 2, 3, 4] (some .m512i)),
  /- 8850-8858 -/ (id! "_mm512_mask_cvt_roundps_epi32", .unsupported),
  /- 20277-20295 -/ (id! "_mm512_mask_expandloadu_epi32", .call 4 [⟨.m512i, .deref, 1⟩, ⟨.mask16, .deref, 2⟩, ⟨.ptr, .deref, 3⟩] (id! "_mm512_mask_expandloadu_epi32") [1, 2, 3] (some .m512i)),
  /- 8760-8768 -/ (id! "_mm512_mask_cvt_roundpd_epu32", .unsupported),
  /- 8880-8888 -/ (id! "_mm512_mask_cvt_roundps_epu32", .unsupported),
  /- 5602-5619 -/ (id! "_mm512_maskz_broadcastq_epi64", .call 3 [⟨.mask8, .deref, 1⟩, ⟨.m128i, .deref, 2⟩] (id! "_mm512_maskz_broadcastq_epi64") [1, 2] (some .m512i)),
  /- 11770-11789 -/ (id! "_mm512_mask_permutexvar_epi64", .call 5 [⟨.m512i, .deref, 1⟩, ⟨.mask8, .deref, 2⟩, ⟨.m512i, .deref, 3⟩, ⟨.m512i, .deref, 4⟩] (id! "_mm512_mask_permutexvar_epi64") [1, 2, 3, 4] (some .m512i)),
  /- 20199-20217 -/ (id! "_mm512_mask_expandloadu_epi64", .call 4 [⟨.m512i, .deref, 1⟩, ⟨.mask8, .deref, 2⟩, ⟨.ptr, .deref, 3⟩] (id! "_mm512_mask_expandloadu_epi64") [1, 2, 3] (some .m512i)),
  /- 9452-9469 -/ (id! "_mm512_maskz_cvtusepi32_epi16", .call 3 [⟨.mask16, .deref, 1⟩, ⟨.m512i, .deref, 2⟩] (id! "_mm512_maskz_cvtusepi32_epi16") [1, 2] (some .m256i)),
  /- 9914-9931 -/ (id! "_mm512_maskz_cvtusepi64_epi16", .call 3 [⟨.mask8, .deref, 1⟩, ⟨.m512i, .deref, 2⟩] (id! "_mm512_maskz_cvtusepi64_epi16") [1, 2] (some .m128i)),
  /- 4939-4947 -/ (id! "_mm512_mask_fmaddsub_round_pd", .unsupported),
  /- 5019-5027 -/ (id! "_mm512_mask_fmsubadd_round_pd", .unsupported),
  /- 12830-12838 -/ (id! "_mm512_mask_fixupimm_round_pd", .unsupported),
  /- 16311-16668 -/ (id! "_mm512_maskz_getmant_round_pd", .immediate 6),
  /- 19807-19825 -/ (id! "_mm512_mask_compressstoreu_pd", .call 3 [⟨.ptr, .deref, 0⟩, ⟨.mask8, .deref, 1⟩, ⟨.m512d, .deref, 2⟩] (id! "_mm512_mask_compressstoreu_pd") [0, 1, 2] none),
  /- 18266-18274 -/ (id! "_mm_maskz_roundscale_round_sd", .unsupported),
  /- 19131-19149 -/ (id! "_mm512_mask_cmpneq_epi32_mask", .call 4 [⟨.mask16, .deref, 1⟩, ⟨.m512i, .deref, 2⟩, ⟨.m512i, .deref, 3⟩] (id! "_mm512_mask_cmpneq_epi32_mask") [1, 2, 3] (some .mask16)),
  /- 19151-19169 -/ (id! "_mm512_mask_cmpneq_epu32_mask", .call 4 [⟨.mask16, .deref, 1⟩, ⟨.m512i, .deref, 2⟩, ⟨.m512i, .deref, 3⟩] (id! "_mm512_mask_cmpneq_epu32_mask") [1, 2, 3] (some .mask16)),
  /- 19190-19208 -/ (id! "_mm512_mask_cmpneq_epi64_mask", .call 4 [⟨.mask8, .deref, 1⟩, ⟨.m512i, .deref, 2⟩, ⟨.m512i, .deref, 3⟩] (id! "_mm512_mask_cmpneq_epi64_mask") [1, 2, 3] (some .mask8)),
  /- 19229-19247 -/ (id! "_mm512_mask_cmpneq_epu64_mask", .call 4 [⟨.mask8, .deref, 1⟩, ⟨.m512i, .deref, 2⟩, ⟨.m512i, .deref, 3⟩] (id! "_mm512_mask_cmpneq_epu64_mask") [1, 2, 3] (some .mask8)),
  /- 19388-19396 -/ (id! "_mm512_mask_cmp_round_pd_mask", .unsupported),
  /- 19398-19406 -/ (id! "_mm512_mask_cmp_round_ps_mask", .unsupported),
  /- 10288-10296 -/ (id! "_mm512_mask_cvt_roundepi32_ps", .unsupported),
  /- 10318-10326 -/ (id! "_mm512_mask_cvt_roundepu32_ps", .unsupported),
  /- 4979-4987 -/ (id! "_mm512_mask_fmaddsub_round_ps", .unsupported),
  /- 5059-5067 -/ (id! "_mm512_mask_fmsubadd_round_ps", .unsupported),
  /- 12860-12868 -/ (id! "_mm512_mask_fixupimm_round_ps", .unsupported),
  /- 17388-17745 -/ (id! "_mm512_maskz_getmant_round_ps", .immediate 6),
  /- 19866-19884 -/ (id! "_mm512_mask_compressstoreu_ps", .call 3 [⟨.ptr, .deref, 0⟩, ⟨.mask16, .deref, 1⟩, ⟨.m512, .deref, 2⟩] (id! "_mm512_mask_compressstoreu_ps") [0, 1, 2] none),
  /- 18236-18244 -/ (id! "_mm_maskz_roundscale_round_ss", .unsupported),
  /- 10438-10446 -/ (id! "_mm512_mask_extracti32x4_epi32", .unsupported),
  /- 2851-2859 -/ (id! "_mm512_mask_ternarylogic_epi32", .unsupported),
  /- 8670-8678 -/ (id! "_mm512_mask_cvtt_roundpd_epi32", .unsupported),
  /- 8740-8748 -/ (id! "_mm512_maskz_cvt_roundpd_epi32", .unsupported),
  /- 11382-11401 -/ (id! "_mm512_mask_permutex2var_epi32", .call 5 [⟨.m512i, .deref, 1⟩, ⟨.mask16, .deref, 2⟩, ⟨.m512i, .deref, 3⟩, ⟨.m512i, .deref, 4⟩] (id! "_mm512_mask_permutex2var_epi32") [1, 2, 3, 4] (some .m512i)),
  /- 11791-11809 -/ (id! "_mm512_maskz_permutexvar_epi32", .call 4 [⟨.mask16, .deref, 1⟩, ⟨.m512i, .deref, 2⟩, ⟨.m512i, .deref, 3⟩] (id! "_mm512_maskz_permutexvar_epi32") [1, 2, 3] (some .m512i)),
  /- 8790-8798 -/ (id! "_mm512_mask_cvtt_roundps_epi32", .unsupported),
  /- 8860-8868 -/ (id! "_mm512_maskz_cvt_roundps_epi32", .unsupported),
  /- 20297-20314 -/ (id! "_mm512_maskz_expandloadu_epi32", .call 3 [⟨.mask16, .deref, 1⟩, ⟨.ptr, .deref, 2⟩] (id! "_mm512_maskz_expandloadu_epi32") [1, 2] (some .m512i)),
  /- 8700-8708 -/ (id! "_mm512_mask_cvtt_roundpd_epu32", .unsupported),
  /- 8770-8778 -/ (id! "_mm512_maskz_cvt_roundpd_epu32", .unsupported),
  /- 8820-8828 -/ (id! "_mm512_mask_cvtt_roundps_epu32", .unsupported),
  /- 8890-8898 -/ (id! "_mm512_maskz_cvt_roundps_epu32", .unsupported),
  /- 10408-10416 -/ (id! "_mm512_mask_extracti64x4_epi64", .unsupported),
  /- 2821-2829 -/ (id! "_mm512_mask_ternarylogic_epi64", .unsupported),
  /- 11299-11318 -/ (id! "_mm512_mask_permutex2var_epi64", .call 5 [⟨.m512i, .deref, 1⟩, ⟨.mask8, .deref, 2⟩, ⟨.m512i, .deref, 3⟩, ⟨.m512i, .deref, 4⟩] (id! "_mm512_mask_permutex2var_epi64") [1, 2, 3, 4] (some .m512i)),
  /- 11731-11749 -/ (id! "_mm512_maskz_permutexvar_epi64", .call 4 [⟨.mask8, .deref, 1⟩, ⟨.m512i, .deref, 2⟩, ⟨.m512i, .deref, 3⟩] (id! "_mm512_maskz_permutexvar_epi64") [1, 2, 3] (some .m512i)),
  /- 20219-20236 -/ (id! "_mm512_maskz_expandloadu_epi64", .call 3 [⟨.mask8, .deref, 1⟩, ⟨.ptr, .deref, 2⟩] (id! "_mm512_maskz_expandloadu_epi64") [1, 2] (some .m512i)),
  /- 4949-4957 -/ (id! "_mm512_mask3_fmaddsub_round_pd", .unsupported),
  /- 4959-4967 -/ (id! "_mm512_maskz_fmaddsub_round_pd", .unsupported),
  /- 5029-5037 -/ (id! "_mm512_mask3_fmsubadd_round_pd", .unsupported),
  /- 5039-5047 -/ (id! "_mm512_maskz_fmsubadd_round_pd", .unsupported),
  /- 12840-12848 -/ (id! "_mm512_maskz_fixupimm_round_pd", .unsupported),
  /- 10298-10306 -/ (id! "_mm512_maskz_cvt_roundepi32_ps", .unsupported),
  /- 10328-10336 -/ (id! "_mm512_maskz_cvt_roundepu32_ps", .unsupported),
  /- 4989-4997 -/ (id! "_mm512_mask3_fmaddsub_round_ps", .unsupported),
  /- 4999-5007 -/ (id! "_mm512_maskz_fmaddsub_round_ps", .unsupported),
  /- 5069-5077 -/ (id! "_mm512_mask3_fmsubadd_round_ps", .unsupported),
  /- 5079-5087 -/ (id! "_mm512_maskz_fmsubadd_round_ps", .unsupported),
  /- 12870-12878 -/ (id! "_mm512_maskz_fixupimm_round_ps", .unsupported),
  /- 10448-10456 -/ (id! "_mm512_maskz_extracti32x4_epi32", .unsupported),
  /- 2861-2869 -/ (id! "_mm512_maskz_ternarylogic_epi32", .unsupported),
  /- 8680-8688 -/ (id! "_mm512_maskz_cvtt_roundpd_epi32", .unsupported),
  /- 11403-11422 -/ (id! "_mm512_mask2_permutex2var_epi32", .call 5 [⟨.m512i, .deref, 1⟩, ⟨.m512i, .deref, 2⟩, ⟨.mask16, .deref, 3⟩, ⟨.m512i, .deref, 4⟩] (id! "_mm512_mask2_permutex2var_epi32") [1, 2, 3, 4] (some .m512i)),
  /- 11424-11443 -/ (id! "_mm512_maskz_permutex2var_epi32", .call 5 [⟨.mask16, .deref, 1⟩, ⟨.m512i, .deref, 2⟩, ⟨.m512i, .deref, 3⟩, ⟨.m512i, .deref, 4⟩] (id! "_mm512_maskz_permutex2var_epi32") [1, 2, 3, 4] (some .m512i)),
  /- 8800-8808 -/ (id! "_mm512_maskz_cvtt_roundps_epi32", .unsupported),
  /- 8710-8718 -/ (id! "_mm512_maskz_cvtt_roundpd_epu32", .unsupported),
  /- 8830-8838 -/ (id! "_mm512_maskz_cvtt_roundps_epu32", .unsupported),
  /- 10418-10426 -/ (id! "_mm512_maskz_extracti64x4_epi64", .unsupported),
  /- 2831-2839 -/ (id! "_mm512_maskz_ternarylogic_epi64", .unsupported),
  /- 11320-11339 -/ (id! "_mm512_mask2_permutex2var_epi64", .call 5 [⟨.m512i, .deref, 1⟩, ⟨.m512i, .deref, 2⟩, ⟨.mask8, .deref, 3⟩, ⟨.m512i, .deref, 4⟩] (id! "_mm512_mask2_permutex2var_epi64") [1, 2, 3, 4] (some .m512i)),
  /- 11341-11360 -/ (id! "_mm512_maskz_permutex2var_epi64", .call 5 [⟨.mask8, .deref, 1⟩, ⟨.m512i, .deref, 2⟩, ⟨.m512i, .deref, 3⟩, ⟨.m512i, .deref, 4⟩] (id! "_mm512_maskz_permutex2var_epi64") [1, 2, 3, 4] (some .m512i)),
  /- 18196-18204 -/ (id! "_mm512_mask_roundscale_round_pd", .unsupported),
  /- 18166-18174 -/ (id! "_mm512_mask_roundscale_round_ps", .unsupported),
  /- 19984-20002 -/ (id! "_mm512_mask_compressstoreu_epi32", .call 3 [⟨.ptr, .deref, 0⟩, ⟨.mask16, .deref, 1⟩, ⟨.m512i, .deref, 2⟩] (id! "_mm512_mask_compressstoreu_epi32") [0, 1, 2] none),
  /- 19925-19943 -/ (id! "_mm512_mask_compressstoreu_epi64", .call 3 [⟨.ptr, .deref, 0⟩, ⟨.mask8, .deref, 1⟩, ⟨.m512i, .deref, 2⟩] (id! "_mm512_mask_compressstoreu_epi64") [0, 1, 2] none),
  /- 9027-9045 -/ (id! "_mm512_mask_cvtepi32_storeu_epi8", .call 3 [⟨.ptr, .deref, 0⟩, ⟨.mask16, .deref, 1⟩, ⟨.m512i, .deref, 2⟩] (id! "_mm512_mask_cvtepi32_storeu_epi8") [0, 1, 2] none),
  /- 9951-9969 -/ (id! "_mm512_mask_cvtepi64_storeu_epi8", .call 3 [⟨.ptr, .deref, 0⟩, ⟨.mask8, .deref, 1⟩, ⟨.m512i, .deref, 2⟩] (id! "_mm512_mask_cvtepi64_storeu_epi8") [0, 1, 2] none),
  /- 18206-18214 -/ (id! "_mm512_maskz_roundscale_round_pd", .unsupported),
  /- 18176-18184 -/ (id! "_mm512_maskz_roundscale_round_ps", .unsupported),
  /- 9489-9507 -/ (id! "_mm512_mask_cvtepi64_storeu_epi32", .call 3 [⟨.ptr, .deref, 0⟩, ⟨.mask8, .deref, 1⟩, ⟨.m512i, .deref, 2⟩] (id! "_mm512_mask_cvtepi64_storeu_epi32") [0, 1, 2] none),
  /- 9258-9276 -/ (id! "_mm512_mask_cvtepi32_storeu_epi16", .call 3 [⟨.ptr, .deref, 0⟩, ⟨.mask16, .deref, 1⟩, ⟨.m512i, .deref, 2⟩] (id! "_mm512_mask_cvtepi32_storeu_epi16") [0, 1, 2] none),
  /- 9720-9738 -/ (id! "_mm512_mask_cvtepi64_storeu_epi16", .call 3 [⟨.ptr, .deref, 0⟩, ⟨.mask8, .deref, 1⟩, ⟨.m512i, .deref, 2⟩] (id! "_mm512_mask_cvtepi64_storeu_epi16") [0, 1, 2] none),
  /- 9104-9122 -/ (id! "_mm512_mask_cvtsepi32_storeu_epi8", .call 3 [⟨.ptr, .deref, 0⟩, ⟨.mask16, .deref, 1⟩, ⟨.m512i, .deref, 2⟩] (id! "_mm512_mask_cvtsepi32_storeu_epi8") [0, 1, 2] none),
  /- 10028-10046 -/ (id! "_mm512_mask_cvtsepi64_storeu_epi8", .call 3 [⟨.ptr, .deref, 0⟩, ⟨.mask8, .deref, 1⟩, ⟨.m512i, .deref, 2⟩] (id! "_mm512_mask_cvtsepi64_storeu_epi8") [0, 1, 2] none),
  /- 9566-9584 -/ (id! "_mm512_mask_cvtsepi64_storeu_epi32", .call 3 [⟨.ptr, .deref, 0⟩, ⟨.mask8, .deref, 1⟩, ⟨.m512i, .deref, 2⟩] (id! "_mm512_mask_cvtsepi64_storeu_epi32") [0, 1, 2] none),
  /- 9335-9353 -/ (id! "_mm512_mask_cvtsepi32_storeu_epi16", .call 3 [⟨.ptr, .deref, 0⟩, ⟨.mask16, .deref, 1⟩, ⟨.m512i, .deref, 2⟩] (id! "_mm512_mask_cvtsepi32_storeu_epi16") [0, 1, 2] none),
  /- 9797-9815 -/ (id! "_mm512_mask_cvtsepi64_storeu_epi16", .call 3 [⟨.ptr, .deref, 0⟩, ⟨.mask8, .deref, 1⟩, ⟨.m512i, .deref, 2⟩] (id! "_mm512_mask_cvtsepi64_storeu_epi16") [0, 1, 2] none),
  /- 9181-9199 -/ (id! "_mm512_mask_cvtusepi32_storeu_epi8", .call 3 [⟨.ptr, .deref, 0⟩, ⟨.mask16, .deref, 1⟩, ⟨.m512i, .deref, 2⟩] (id! "_mm512_mask_cvtusepi32_storeu_epi8") [0, 1, 2] none),
  /- 10105-10123 -/ (id! "_mm512_mask_cvtusepi64_storeu_epi8", .call 3 [⟨.ptr, .deref, 0⟩, ⟨.mask8, .deref, 1⟩, ⟨.m512i, .deref, 2⟩] (id! "_mm512_mask_cvtusepi64_storeu_epi8") [0, 1, 2] none),
  /- 9643-9661 -/ (id! "_mm512_mask_cvtusepi64_storeu_epi32", .call 3 [⟨.ptr, .deref, 0⟩, ⟨.mask8, .deref, 1⟩, ⟨.m512i, .deref, 2⟩] (id! "_mm512_mask_cvtusepi64_storeu_epi32") [0, 1, 2] none),
  /- 9412-9430 -/ (id! "_mm512_mask_cvtusepi32_storeu_epi16", .call 3 [⟨.ptr, .deref, 0⟩, ⟨.mask16, .deref, 1⟩, ⟨.m512i, .deref, 2⟩] (id! "_mm512_mask_cvtusepi32_storeu_epi16") [0, 1, 2] none),
  /- 9874-9892 -/ (id! "_mm512_mask_cvtusepi64_storeu_epi16", .call 3 [⟨.ptr, .deref, 0⟩, ⟨.mask8, .deref, 1⟩, ⟨.m512i, .deref, 2⟩] (id! "_mm512_mask_cvtusepi64_storeu_epi16") [0, 1, 2] none)]

/-- Calling method `name`: the method table leads to the wrapper, the wrapper to the implementation; `none` = there is
no such method (AttributeError). (SIMDLowAVX512.cpp 28719-35637.) -/
def call (py : PyVer) (f32 : List Byte → List Byte) (I : Intrinsics) (name : Ident) (m : Mem) (args : List LArg) :
    Option (Out Mem UVal) :=
  match methods.lookup name with
  | none => none
  | some w =>
    match wrappers.lookup w with
    | none => none
    | some f => (impls.lookup f).map (exec py f32 I m args)

end Verif.LowAVX512
