{
 "claims": [
  {
   "property": "C01",
   "status": "proved",
   "theorems": [
    "Verif.c01_planar_check_iff",
    "Verif.c01_planar_check_no_panic",
    "Verif.c01_gray_check_iff",
    "Verif.c01_gray_alpha_check_iff",
    "Verif.c01_planar_alpha_check_iff"
   ],
   "note": ""
  },
  {
   "property": "C02",
   "status": "proved",
   "theorems": [
    "Verif.c02_rgba_check_iff",
    "Verif.c02_rgba_check_report",
    "Verif.c02_rgba_check_wraps_on_32bit"
   ],
   "note": "Holds on 64-bit targets; on 32-bit release builds the size computation wraps (witness)."
  },
  {
   "property": "C03",
   "status": "partial",
   "theorems": [
    "Verif.c03_biplanar_check_iff",
    "Verif.c03_biplanar_in_bounds",
    "Verif.c03_interleaved_width_overflow",
    "Verif.c03_padded_chroma_rejected"
   ],
   "note": "Acceptance characterised exactly; widths from 2^31 overflow u32 and padded chroma strides are rejected (witnesses)."
  },
  {
   "property": "C04",
   "status": "proved",
   "theorems": [
    "Verif.c04_planar_alloc_valid",
    "Verif.c04_biplanar_alloc_valid",
    "Verif.c04_gray_alloc_valid"
   ],
   "note": ""
  },
  {
   "property": "C05",
   "status": "proved",
   "theorems": [
    "Verif.c05_planar_decode_rejects",
    "Verif.c05_f16_decode_rejects",
    "Verif.c05_f16_alpha_decode_rejects",
    "Verif.c05_f16_gbr_decode_rejects",
    "Verif.c05_f16_convert_rejects",
    "Verif.c05_nv_decode_rejects",
    "Verif.c05_planar_encode_rejects",
    "Verif.c05_nv_encode_rejects",
    "Verif.c05_gray_decode_rejects",
    "Verif.c05_gray_encode_rejects",
    "Verif.c05_gbr_decode_rejects",
    "Verif.c05_gbr_encode_rejects",
    "Verif.c05_shuffle_rejects",
    "Verif.c05_packed444_rejects",
    "Verif.c05_rdp_encode_rejects",
    "Verif.c05_rdp_decode_rejects",
    "Verif.c05_alpha_decode_rejects",
    "Verif.c05_deep_alpha_decode_rejects",
    "Verif.c05_ycgco_decode_rejects",
    "Verif.c05_ycgco_alpha_decode_rejects",
    "Verif.c05_ycgco_encode_rejects",
    "Verif.c05_p16_decode_rejects",
    "Verif.c05_p10_decode_rejects",
    "Verif.c05_ar30_decode_rejects",
    "Verif.c05_nv_p16_decode_rejects",
    "Verif.c05_nv_p10_decode_rejects",
    "Verif.c05_nv_ar30_decode_rejects",
    "Verif.c05_p16_encode_rejects",
    "Verif.c05_nv_p16_encode_rejects",
    "Verif.c05_yuy2_decode_rejects",
    "Verif.c05_yuy2_decode16_rejects",
    "Verif.c05_pack_rejects",
    "Verif.c05_unpack_rejects",
    "Verif.c05_sharp_rejects",
    "Verif.c05_decode_status_geometry",
    "Verif.c05_encode_status_geometry"
   ],
   "note": ""
  },
  {
   "property": "C06",
   "status": "proved",
   "theorems": [
    "Verif.c06_spec_inverts",
    "Verif.c06_inverse_tables",
    "Verif.c06_forward_tables",
    "Verif.c06_searchForward",
    "Verif.c06_searchInverse",
    "Verif.c06_six_bit_cap_bites"
   ],
   "note": ""
  },
  {
   "property": "C07",
   "status": "proved",
   "theorems": [
    "Verif.c07_div255_nearest",
    "Verif.c07_premultiply"
   ],
   "note": ""
  },
  {
   "property": "C08",
   "status": "proved",
   "theorems": [
    "Verif.c08_decode_no_overflow",
    "Verif.c08_decode_in_range",
    "Verif.c08_kernels_agree"
   ],
   "note": ""
  },
  {
   "property": "C09",
   "status": "partial",
   "theorems": [
    "Verif.c09_encode_in_nominal_range",
    "Verif.c09_encode_fast_partial",
    "Verif.c09_fast_bt2020_white_wraps"
   ],
   "note": "Fully proved for Balanced and Professional; in Fast mode BT.2020 full-range white wraps to 1 (witness), every other case is proved not to wrap."
  },
  {
   "property": "C10",
   "status": "proved",
   "theorems": [
    "Verif.c10_decode_close",
    "Verif.c10_decode_close_8bit",
    "Verif.c10_planar_decode_close",
    "Verif.c10_fast_mode_off"
   ],
   "note": "Fast (6-bit) mode is excluded from the bound; its error is bounded in C45."
  },
  {
   "property": "C11",
   "status": "proved",
   "theorems": [
    "Verif.c11_encode_close",
    "Verif.c11_encode_close_default",
    "Verif.c11_planar_encode_close"
   ],
   "note": ""
  },
  {
   "property": "C12",
   "status": "partial",
   "theorems": [
    "Verif.c12_decode_gray",
    "Verif.c12_encode_gray",
    "Verif.c12_avx2_gray",
    "Verif.c12_fast_gray_not_neutral"
   ],
   "note": "Fails in Fast mode (witness); proved for Balanced and Professional."
  },
  {
   "property": "C13",
   "status": "proved",
   "theorems": [
    "Verif.c13_round_trip",
    "Verif.c13_api_round_trip"
   ],
   "note": ""
  },
  {
   "property": "C14",
   "status": "proved",
   "theorems": [
    "Verif.c14_monotone_luma",
    "Verif.c14_monotone_cr",
    "Verif.c14_monotone_cb",
    "Verif.c14_avx2_monotone_luma"
   ],
   "note": ""
  },
  {
   "property": "C15",
   "status": "proved",
   "theorems": [
    "Verif.c15_planar_decode",
    "Verif.c15_planar_decode_exact"
   ],
   "note": ""
  },
  {
   "property": "C16",
   "status": "partial",
   "theorems": [
    "Verif.c16_last_row_not_written",
    "Verif.c16_wrong_row_written",
    "Verif.c16_one_row_panics",
    "Verif.c16_nv_last_row_not_written",
    "Verif.c16_all_written_partial"
   ],
   "note": "Violated by the code for destinations whose last row has no padding (witnesses); proved when every row is complete."
  },
  {
   "property": "C17",
   "status": "proved",
   "theorems": [
    "Verif.c17_nv_decode",
    "Verif.c17_nv_decode_exact"
   ],
   "note": ""
  },
  {
   "property": "C18",
   "status": "proved",
   "theorems": [
    "Verif.c18_nv_planar_agree",
    "Verif.c18_nv21_is_swapped_nv12"
   ],
   "note": ""
  },
  {
   "property": "C19",
   "status": "proved",
   "theorems": [
    "Verif.c19_channel_order"
   ],
   "note": ""
  },
  {
   "property": "C20",
   "status": "proved",
   "theorems": [
    "Verif.c20_planar_encode",
    "Verif.c20_planar_encode_exact",
    "Verif.c20_nv_encode",
    "Verif.c20_nv_encode_exact",
    "Verif.c11_planar_encode_close"
   ],
   "note": ""
  },
  {
   "property": "C21",
   "status": "partial",
   "theorems": [
    "Verif.c21_nv_planar_agree_partial",
    "Verif.c21_odd_width_differs",
    "Verif.c21_nv21_is_swapped_nv12"
   ],
   "note": "Violated at odd widths in 4:2:0 (witness); proved everywhere else."
  },
  {
   "property": "C22",
   "status": "proved",
   "theorems": [
    "Verif.c22_subsampled_is_replicated"
   ],
   "note": ""
  },
  {
   "property": "C23",
   "status": "proved",
   "theorems": [
    "Verif.c23_padding_irrelevant",
    "Verif.c23_encode_padding_irrelevant"
   ],
   "note": ""
  },
  {
   "property": "C24",
   "status": "proved",
   "theorems": [
    "Verif.c24_any_schedule",
    "Verif.c24_planar_decode_schedule"
   ],
   "note": ""
  },
  {
   "property": "C25",
   "status": "proved",
   "theorems": [
    "Verif.c25_vector_prefix_irrelevant"
   ],
   "note": ""
  },
  {
   "property": "C26",
   "status": "proved",
   "theorems": [
    "Verif.c26_gray_decode",
    "Verif.c26_gray_decode_exact",
    "Verif.c26_full_identity",
    "Verif.c26_level_close",
    "Verif.c26_level_is_colour",
    "Verif.c26_gray_alpha_decode",
    "Verif.c26_gray_encode",
    "Verif.c26_gray_encode_exact",
    "Verif.c26_full_round_trip",
    "Verif.c26_full_round_trip_rgb"
   ],
   "note": ""
  },
  {
   "property": "C27",
   "status": "proved",
   "theorems": [
    "Verif.c27_alpha_decode",
    "Verif.c27_alpha_decode_exact",
    "Verif.c27_same_colours",
    "Verif.c27_premultiplied",
    "Verif.c05_alpha_decode_rejects"
   ],
   "note": ""
  },
  {
   "property": "C28",
   "status": "proved",
   "theorems": [
    "Verif.c28_planar_decode",
    "Verif.c28_planar_decode_exact",
    "Verif.c28_nv_decode",
    "Verif.c28_nv_decode_exact",
    "Verif.c28_range",
    "Verif.c28_close"
   ],
   "note": ""
  },
  {
   "property": "C29",
   "status": "partial",
   "theorems": [
    "Verif.c29_nv_decode",
    "Verif.c29_close",
    "Verif.c29_monotone",
    "Verif.c29_planar_decode_partial",
    "Verif.c29_planar_decode_wraps",
    "Verif.c29_planar_white_is_black",
    "Verif.c29_planar_smpte240_dark"
   ],
   "note": "Proved for the bi-planar converters; the planar ones wrap instead of saturating and misuse the bit depth for matrices without stored coefficients (witnesses)."
  },
  {
   "property": "C30",
   "status": "partial",
   "theorems": [
    "Verif.c30_planar_encode_partial",
    "Verif.c30_encode_444",
    "Verif.c30_close",
    "Verif.c30_nv_encode_partial",
    "Verif.c30_420_luma_from_row_above",
    "Verif.c30_422_padding_overwritten",
    "Verif.c30_422_odd_width_misplaced",
    "Verif.c30_16bit_full_bt601_overflows",
    "Verif.c30_p010_odd_width",
    "Verif.c30_p216_refused"
   ],
   "note": "Fully proved for 4:4:4. Violated elsewhere (witnesses): 4:2:0 takes luma at odd/odd positions from the row above, 4:2:2 overwrites row padding, P010-style odd widths misplace a luma sample, 16-bit full-range BT.601 overflows, rgb16_to_p216 is wired as 4:2:0. The partial theorems prove exactly what is written outside these cases."
  },
  {
   "property": "C31",
   "status": "partial",
   "theorems": [
    "Verif.c31_nv_planar_agree_partial",
    "Verif.c31_components_partial",
    "Verif.c31_tie_differs"
   ],
   "note": "Violated on exact ties (witness); proved elsewhere, with the difference on ties bounded by one."
  },
  {
   "property": "C32",
   "status": "proved",
   "theorems": [
    "Verif.c32_planar_representation",
    "Verif.c32_nv_representation",
    "Verif.c32_write_read"
   ],
   "note": ""
  },
  {
   "property": "C33",
   "status": "proved",
   "theorems": [
    "Verif.c33_gbr_decode",
    "Verif.c33_gbr_decode_exact",
    "Verif.c33_gbr_alpha_decode",
    "Verif.c33_gbr_encode",
    "Verif.c33_round_trip",
    "Verif.c33_full_lossless",
    "Verif.c33_limited_round_trip",
    "Verif.c33_full_lossless_planes",
    "Verif.c33_component_round_trip",
    "Verif.c33_14bit_off_by_two",
    "Verif.c33_level_close",
    "Verif.c33_code_close"
   ],
   "note": "Round trips are for the scalar code; with vector code the decode theorem gives the scalar value or what the vector contract says."
  },
  {
   "property": "C34",
   "status": "partial",
   "theorems": [
    "Verif.c34_decode",
    "Verif.c34_alpha_decode",
    "Verif.c34_decode_close",
    "Verif.c34_encode",
    "Verif.c34_luma_close",
    "Verif.c34_full_chroma_close",
    "Verif.c34_limited_chroma_close_partial",
    "Verif.c34_limited444_chroma_close_partial",
    "Verif.c34_limited_chroma_off",
    "Verif.c34_gray_neutral_partial",
    "Verif.c34_gray_not_neutral",
    "Verif.c34_encode_close_partial",
    "Verif.c34_pixel_round_trip",
    "Verif.c34_limited_error_occurs",
    "Verif.c34_round_trip"
   ],
   "note": "Decoding, full-range encoding and the 4:4:4 round trip are proved for all inputs. In limited range the chroma of a sample covering one pixel uses the luma factor, so it is off by up to 3.5 code values in 4:4:4 and gray is tinted in the last column of odd-width 4:2:2 and 4:2:0: both are proved as counterexamples."
  },
  {
   "property": "C35",
   "status": "partial",
   "theorems": [
    "Verif.c35_pack422",
    "Verif.c35_pack420",
    "Verif.c35_pack444_partial",
    "Verif.c35_unpack422_partial",
    "Verif.c35_unpack444_partial",
    "Verif.c35_roundtrip422_partial",
    "Verif.c35_roundtrip420_partial",
    "Verif.c35_unpack_vector_skips",
    "Verif.c35_pack444_vector_skips",
    "Verif.c35_unpack_padded_cr"
   ],
   "note": "Packing to every order is proved for all sizes and vector code meeting its contract (4:4:4 without vector code only: the scalar loop skips pairs, counterexample). Unpacking and the round trip need vector code that takes whole rows and, at odd widths, an unpadded Cr plane; counterexamples are proved for both."
  },
  {
   "property": "C36",
   "status": "partial",
   "theorems": [
    "Verif.c36_yuy2_decode_partial",
    "Verif.c36_yuy2_decode_exact_partial",
    "Verif.c36_yuy2_decode16_partial",
    "Verif.c36_close",
    "Verif.c36_stride_ignored",
    "Verif.c36_short_stride_panics"
   ],
   "note": "All sizes, orders, layouts and ranges for frames whose stride is that of their width. The stride is not validated: accepted frames with another stride lose rows or panic (proved)."
  },
  {
   "property": "C37",
   "status": "partial",
   "theorems": [
    "Verif.c37_unpack420_partial",
    "Verif.c37_even_partial",
    "Verif.c37_even_exact_partial",
    "Verif.c37_odd_height_unwritten",
    "Verif.c37_odd_width_wrong_luma",
    "Verif.c37_vector_chroma_row"
   ],
   "note": "Proved for even sizes; for odd sizes the exact (wrong) behaviour is characterised and counterexamples are proved."
  },
  {
   "property": "C38",
   "status": "proved",
   "theorems": [
    "Verif.c38_unpack_pack",
    "Verif.c38_bytes",
    "Verif.c38_pack_image",
    "Verif.c38_unpack_image",
    "Verif.c38_round_trip"
   ],
   "note": "Both machine byte orders; network order is proved to be most significant byte first on both."
  },
  {
   "property": "C39",
   "status": "partial",
   "theorems": [
    "Verif.c39_planar_decode",
    "Verif.c39_planar_padding",
    "Verif.c39_nv_decode",
    "Verif.c39_nv_decode_exact",
    "Verif.c39_p012_partial",
    "Verif.c39_close",
    "Verif.c39_444_padding_overwritten",
    "Verif.c39_out_of_range_overflow",
    "Verif.c39_planar_12bit_wrong",
    "Verif.c39_p012_white"
   ],
   "note": "10-bit images are right for every sampling (4:4:4 also overwrites row padding); 12-bit bi-planar is right except where a component rounds to 1024; 12/14-bit planar is not reduced to 10 bits (counterexamples)."
  },
  {
   "property": "C40",
   "status": "proved",
   "theorems": [
    "Verif.c40_shuffle",
    "Verif.c40_shuffle_exact",
    "Verif.c40_round_trip",
    "Verif.c05_shuffle_rejects"
   ],
   "note": "With vector code: scalar value or the vector contract."
  },
  {
   "property": "C41",
   "status": "proved",
   "theorems": [
    "Verif.c41_packed_decode",
    "Verif.c41_packed_decode_exact",
    "Verif.c41_plain",
    "Verif.c41_premultiplied",
    "Verif.c05_packed444_rejects"
   ],
   "note": ""
  },
  {
   "property": "C42",
   "status": "proved",
   "theorems": [
    "Verif.c42_encode_range",
    "Verif.c42_encode_close",
    "Verif.c42_encode",
    "Verif.c42_decode",
    "Verif.c42_colour_round_trip",
    "Verif.c42_round_trip",
    "Verif.c42_loss_happens",
    "Verif.c42_extreme_samples_panic",
    "Verif.c05_rdp_encode_rejects",
    "Verif.c05_rdp_decode_rejects"
   ],
   "note": "Every component comes back unchanged or one less. Decoding samples far outside the format's range overflows (witness)."
  },
  {
   "property": "C43",
   "status": "partial",
   "theorems": [
    "Verif.c43_gray_deep_alpha_source_partial",
    "Verif.c43_gray_deep_short_accepted",
    "Verif.c43_gray_deep_zero_stride_panics",
    "Verif.c43_gray_deep_narrow_stride_panics",
    "Verif.c43_gray_deep_alpha_short_accepted"
   ],
   "note": "Violated: the functions without alpha validate nothing, those with alpha do not validate the destination (witnesses). Proved: the planes of the alpha functions are validated."
  },
  {
   "property": "C44",
   "status": "partial",
   "theorems": [
    "Verif.c44_sharp_encode",
    "Verif.c44_luma_is_plain_luma",
    "Verif.c44_samples_in_range",
    "Verif.c44_chroma_close",
    "Verif.c44_constant_colour_partial",
    "Verif.c44_odd_tail_bypasses_tables"
   ],
   "note": "All three planes of the sharp encoder are determined for every pair of tables; luma equals the plain encoder's and all samples are nominal. Constant regions get the chroma of the table-mapped colour except in the last column of a 4:2:2 image of odd width, where the code bypasses the tables (proved)."
  },
  {
   "property": "C45",
   "status": "proved",
   "theorems": [
    "Verif.c45_encode_modes",
    "Verif.c45_decode_modes"
   ],
   "note": ""
  },
  {
   "property": "C46",
   "status": "partial",
   "theorems": [
    "Verif.c46_mirror_twice",
    "Verif.c46_mirror_both",
    "Verif.c46_rotate180_twice",
    "Verif.c46_errors",
    "Verif.c46_rotate_90_270_partial",
    "Verif.c46_plain_transposition_is_half_turn"
   ],
   "note": "The pixel moves are done by the external crate fast_transpose, which is not in the sandbox: its routines are parameters with a contract. Under the contract the mirror and 180-degree claims hold; 90 then 270 returns the image if the crate's transpose turns the image, and turns it upside down if it is the plain transposition (both proved), so the claim cannot be settled from this repository."
  },
  {
   "property": "C47",
   "status": "partial",
   "theorems": [
    "Verif.c47_unit_arith",
    "Verif.c47_unit_monotone",
    "Verif.c47_unit_ends",
    "Verif.c47_unit_range",
    "Verif.c47_unit_close",
    "Verif.c47_unit16_close_partial",
    "Verif.c47_unit16_infinite",
    "Verif.c47_to_f16_close",
    "Verif.c47_to_f16_monotone",
    "Verif.c47_to_f16_ends",
    "Verif.c47_from_f16_close",
    "Verif.c47_from_f16_special",
    "Verif.c47_from_f16_monotone",
    "Verif.c47_round_trip",
    "Verif.c47_round_trip_12",
    "Verif.c47_from_f16_overshoot",
    "Verif.c47_ten_bit",
    "Verif.c47_planar_decode",
    "Verif.c47_planar_decode_exact",
    "Verif.c47_planar_range",
    "Verif.c47_alpha_decode",
    "Verif.c47_gbr_level_close",
    "Verif.c47_gbr_decode",
    "Verif.c47_gbr16_decode_partial",
    "Verif.c47_gbr16_white_infinite",
    "Verif.c47_gbr_alpha_decode",
    "Verif.c47_convert",
    "Verif.c47_to_f16",
    "Verif.c47_from_f16",
    "Verif.c47_image_round_trip",
    "Verif.c47_stride_truncated"
   ],
   "note": "Proved for depths 10, 12 and 14. False for 16-bit GBR levels from 65520 on (stored as infinity, c47_unit16_infinite) and for saturation at the depth (c47_from_f16_overshoot); strides are checked modulo 2^32 (c47_stride_truncated)."
  },
  {
   "property": "C48",
   "status": "proved",
   "theorems": [
    "Verif.c48_round_trip",
    "Verif.c48_api_round_trip"
   ],
   "note": "16-bit full-range BT.601 excluded: it overflows (C30)."
  },
  {
   "property": "C49",
   "status": "partial",
   "theorems": [
    "Verif.c49_published_weights_partial",
    "Verif.c49_smpte240_exchanged",
    "Verif.c49_bt470_other_weights"
   ],
   "note": "Violated for SMPTE 240 (weights exchanged) and BT.470 B/G (witnesses); proved for the other four names."
  },
  {
   "property": "C50",
   "status": "proved",
   "theorems": [
    "Verif.c50_gray_deep_decode",
    "Verif.c50_gray_deep_alpha_decode",
    "Verif.c26_level_close"
   ],
   "note": ""
  },
  {
   "property": "C51",
   "status": "partial",
   "theorems": [
    "Verif.c51_deep_alpha_words",
    "Verif.c51_deep_alpha_partial",
    "Verif.c51_big_endian_alpha",
    "Verif.c51_deep8_alpha_words",
    "Verif.c51_deep8_alpha_partial",
    "Verif.c51_deep8_422_padding",
    "Verif.c51_deep8_wraps"
   ],
   "note": "Holds for native little-endian words; the alpha word is copied without the byte swap or MSB shift applied to the colours (witness), the 8-bit 4:2:2 path runs over the row padding (witness) and the 8-bit store wraps (witness)."
  },
  {
   "property": "C52",
   "status": "partial",
   "theorems": [
    "Verif.c52_names_partial",
    "Verif.c52_misnamed",
    "Verif.c52_be_bgra_is_rgba",
    "Verif.c52_be_alpha_is_le",
    "Verif.c52_422_is_420"
   ],
   "note": "Holds for 571 of 581 functions. The other ten pass constants that contradict their names (finding): four big-endian BGRA decoders store RGBA, three big-endian alpha decoders read little endian, three 4:2:2 encoders are 4:2:0 encoders. The dispatch table was extracted from the source text by tools/api_extract.py and tools/api_gen.py."
  },
  {
   "property": "C53",
   "status": "partial",
   "theorems": [
    "Verif.c53_cpu_agreement_partial",
    "Verif.c53_cpu_accuracy_partial",
    "Verif.c53_below_black_differs",
    "Verif.c53_sse_differs"
   ],
   "note": "Proved for luma not below black and, on SSE4.1 in limited range, outside 128..143; false otherwise (witnesses)."
  },
  {
   "property": "C54",
   "status": "proved",
   "theorems": [
    "Verif.c54_x86_decode",
    "Verif.c54_plain_is_scalar"
   ],
   "note": "Processor classes AVX2, SSE4.1, none; AVX-512 (off by default), NEON and WebAssembly kernels are not modelled."
  },
  {
   "property": "C55",
   "status": "partial",
   "theorems": [
    "Verif.c55_avx2_decode",
    "Verif.c55_avx2_samples_only",
    "Verif.c55_plain_samples_only",
    "Verif.c55_sse_position_dependent",
    "Verif.c55_sse_black_is_white"
   ],
   "note": "Proved for AVX2 and for processors without vector extensions; false on SSE4.1 (witnesses)."
  },
  {
   "property": "C56",
   "status": "proved",
   "theorems": [
    "Verif.c56_x86_nv_decode",
    "Verif.c56_avx2_nv_decode",
    "Verif.c56_samples_only",
    "Verif.c56_plain_is_scalar"
   ],
   "note": "Processor classes AVX2, SSE4.1, none, default (balanced) mode; AVX-512, NEON and WebAssembly kernels are not modelled."
  },
  {
   "property": "C57",
   "status": "partial",
   "theorems": [
    "Verif.c57_nv_planar_agree_partial",
    "Verif.c57_sse_wide_columns_agree",
    "Verif.c57_nv21_is_swapped_nv12",
    "Verif.c57_sse_nv12_wrong_blue"
   ],
   "note": "Chroma order: proved everywhere. Layout: proved for AVX2, for no vector extensions and for the columns of the 16-pixel steps on SSE4.1; false in the last columns on SSE4.1 (witness: Cb is scaled with the coefficient of Cr)."
  },
  {
   "property": "C58",
   "status": "partial",
   "theorems": [
    "Verif.c58_nv_cpu_agreement_partial",
    "Verif.c58_nv_accuracy_partial",
    "Verif.c58_sse_nv12_differs"
   ],
   "note": "Proved for luma not below black, on SSE4.1 in limited range outside 128..143 and, for 4:2:0 on SSE4.1, in the columns of the 16-pixel steps; false otherwise (witnesses here and in C53)."
  },
  {
   "property": "C59",
   "status": "proved",
   "theorems": [
    "Verif.c59_x86_encode",
    "Verif.c59_plain_is_scalar",
    "Verif.c59_source_pixels_only"
   ],
   "note": "Processor classes AVX2, SSE4.1, none; AVX-512, NEON and WebAssembly kernels are not modelled."
  },
  {
   "property": "C60",
   "status": "proved",
   "theorems": [
    "Verif.c60_avx2_sse_equal",
    "Verif.c60_cpu_agreement",
    "Verif.c60_cpu_accuracy",
    "Verif.c60_vector_differs"
   ],
   "note": ""
  },
  {
   "property": "C61",
   "status": "partial",
   "theorems": [
    "Verif.c61_nominal_range_partial",
    "Verif.c61_vector_chroma_below_nominal",
    "Verif.c61_vector_white_above_nominal"
   ],
   "note": "Proved with subsampling and for luma except the FCC matrix. The vector code gives chroma 15 in 4:4:4 and luma 236 for FCC white (witnesses); it never exceeds those."
  },
  {
   "property": "C62",
   "status": "partial",
   "theorems": [
    "Verif.c62_gray_neutral",
    "Verif.c62_luma_monotone",
    "Verif.c62_black_white",
    "Verif.c61_vector_white_above_nominal"
   ],
   "note": "Everything proved for all inputs, except that limited-range FCC white is 236 with vector extensions (proved)."
  },
  {
   "property": "C63",
   "status": "partial",
   "theorems": [
    "Verif.c63_x86_round_trip_partial"
   ],
   "note": "When the decoding processor has only SSE4.1 and the range is limited, pixels whose luma is 128..143 are excluded: that decoder gets them wrong (C55)."
  },
  {
   "property": "C64",
   "status": "proved",
   "theorems": [
    "Verif.c64_x86_nv_encode",
    "Verif.c64_source_pixels_only",
    "Verif.c64_avx2_sse_equal",
    "Verif.c64_plain_is_scalar"
   ],
   "note": "Exact frames for AVX2, SSE4.1 and plain processors."
  },
  {
   "property": "C65",
   "status": "proved",
   "theorems": [
    "Verif.c65_nv_planar_agree",
    "Verif.c65_nv21_is_swapped_nv12"
   ],
   "note": "For processors with vector extensions; without them see C21."
  },
  {
   "property": "C66",
   "status": "proved",
   "theorems": [
    "Verif.c66_nv_cpu_agreement",
    "Verif.c66_nv_cpu_accuracy",
    "Verif.c66_nv_gray_neutral"
   ],
   "note": ""
  },
  {
   "property": "C67",
   "status": "partial",
   "theorems": [
    "Verif.c67_nv_nominal_range_partial",
    "Verif.c67_nv_below_nominal",
    "Verif.c67_nv_round_trip_partial"
   ],
   "note": "False as stated: the vector code stores chroma 15 (4:4:4) and FCC white 236 (witness), and an SSE4.1 decoder gets limited-range luma 128..143 wrong (C55). Proved with the bounds 15..240 / 16..236 and for the other luma values."
  },
  {
   "property": "C68",
   "status": "proved",
   "theorems": [
    "Verif.c68_x86_alpha",
    "Verif.c68_alpha_stored",
    "Verif.c68_avx2_same_colours",
    "Verif.c68_straight_agreement",
    "Verif.c68_plain_is_scalar"
   ],
   "note": "Processor classes AVX2, SSE4.1, none; AVX-512, NEON and WebAssembly kernels are not modelled."
  },
  {
   "property": "C69",
   "status": "partial",
   "theorems": [
    "Verif.c69_premultiplied_partial",
    "Verif.c69_transparent_is_black",
    "Verif.c69_sse_white_is_black",
    "Verif.c69_sse_zero_comes_back",
    "Verif.c69_avx2_tail_wraps"
   ],
   "note": "Transparent pixels: proved. Accuracy: proved without vector extensions, in the 32-pixel steps of AVX2 and for components that are not saturated; false otherwise (witnesses: on SSE4.1 opaque white becomes black)."
  },
  {
   "property": "C70",
   "status": "partial",
   "theorems": [
    "Verif.c70_colour_le_alpha_partial",
    "Verif.c70_opaque_unchanged_partial",
    "Verif.c70_sse_exceeds_alpha",
    "Verif.c70_avx2_opaque_changes"
   ],
   "note": "Proved with the exceptions of C69; false there, and on AVX2 opaque components from 128 up lose one (witnesses)."
  },
  {
   "property": "C71",
   "status": "partial",
   "theorems": [
    "Verif.c71_x86_gray",
    "Verif.c71_plain_is_scalar",
    "Verif.c71_avx2_agrees",
    "Verif.c71_cpu_agreement_partial",
    "Verif.c71_avx2_accuracy",
    "Verif.c71_black_white",
    "Verif.c71_avx2_monotone",
    "Verif.c71_sse_black_is_white",
    "Verif.c71_sse_position_dependent"
   ],
   "note": "Frames exact on all processors; agreement, accuracy and monotonicity proved for AVX2 without restriction. On SSE4.1 agreement is proved for the samples the signed subtraction handles, false for the others (witnesses)."
  },
  {
   "property": "C72",
   "status": "partial",
   "theorems": [
    "Verif.c72_x86_gray_alpha",
    "Verif.c72_plain_is_scalar",
    "Verif.c72_avx2_is_sse",
    "Verif.c72_cpu_agreement_partial",
    "Verif.c72_black_is_white"
   ],
   "note": "Frames exact, alpha unchanged, AVX2 and SSE4.1 identical. Agreement with the scalar code fails in up to eight columns for samples outside the safe ones (witness)."
  },
  {
   "property": "C73",
   "status": "partial",
   "theorems": [
    "Verif.c73_x86_to_gray",
    "Verif.c73_plain_is_scalar",
    "Verif.c73_sse_agreement",
    "Verif.c73_cpu_agreement_partial",
    "Verif.c73_same_as_colour_partial",
    "Verif.c73_full_round_trip",
    "Verif.c73_avx2_half_is_black"
   ],
   "note": "Frames exact; everything proved without AVX2. On AVX2 the columns of LostColumn are 0 (witness), the rest is proved."
  },
  {
   "property": "C74",
   "status": "proved",
   "theorems": [
    "Verif.c74_x86_shuffle",
    "Verif.c74_cpu_agreement",
    "Verif.c74_round_trip"
   ],
   "note": "Every public shuffle is between different layouts; between equal layouts with alpha the table would swap red and blue (example)."
  },
  {
   "property": "C75",
   "status": "proved",
   "theorems": [
    "Verif.c75_plain_is_scalar",
    "Verif.c75_x86_gbr",
    "Verif.c75_avx2_is_sse",
    "Verif.c75_full_agreement",
    "Verif.c75_cpu_agreement",
    "Verif.c75_accuracy",
    "Verif.c75_round_trip"
   ],
   "note": "The GBR encoder has no vector kernel: its AVX2 and SSE4.1 variants are the generic code compiled with other target features."
  },
  {
   "property": "C76",
   "status": "proved",
   "theorems": [
    "Verif.c76_pack422",
    "Verif.c76_pack420",
    "Verif.c76_agree"
   ],
   "note": "Both samplings, exact frames, every processor."
  },
  {
   "property": "C77",
   "status": "partial",
   "theorems": [
    "Verif.c77_pack444_exact",
    "Verif.c77_pack444_partial",
    "Verif.c77_pack444_sse_blocks_partial",
    "Verif.c77_pack444_unwritten",
    "Verif.c77_avx2_zero_chroma",
    "Verif.c77_half_zero_chroma",
    "Verif.c77_white_not_white"
   ],
   "note": "The code violates the property for frames of more than 16 columns. Proved: the exact frame on every processor; the property without vector code or up to 16 columns; which pairs are never written, which get zero chroma; a white frame that does not stay white."
  },
  {
   "property": "C78",
   "status": "partial",
   "theorems": [
    "Verif.c78_unpack422_exact",
    "Verif.c78_unpack444_exact",
    "Verif.c78_unpack420_exact",
    "Verif.c78_unpack422_partial",
    "Verif.c78_unpack444_partial",
    "Verif.c78_roundtrip422_partial",
    "Verif.c78_unwritten",
    "Verif.c78_420_chroma_row",
    "Verif.c78_witness"
   ],
   "note": "Exact frames for every processor and size. The property itself fails: for even widths above 16 the columns from the last multiple of 16 on are never written, and 4:2:0 chroma comes from the other row of each pair (c78_unwritten, c78_420_chroma_row, c78_witness). Proved where the code is right. The Cr plane of an image of odd width must not be padded (see C35)."
  },
  {
   "property": "C79",
   "status": "partial",
   "theorems": [
    "Verif.c79_plain_is_scalar",
    "Verif.c79_x86_exact",
    "Verif.c79_agree_full",
    "Verif.c79_agree_partial",
    "Verif.c79_divergence",
    "Verif.c79_close_partial",
    "Verif.c79_differ"
   ],
   "note": "Exact frame for every processor, width and content; full agreement in full range; agreement in limited range when no luma sample is below 16; the processors are never more than 19 steps apart. Partial because the property fails: the vector code takes luma below the offset for the offset, the scalar code does not (c79_differ)."
  },
  {
   "property": "C80",
   "status": "proved",
   "theorems": [
    "Verif.c80_x86_packed",
    "Verif.c80_sse_is_scalar",
    "Verif.c80_alpha_stored",
    "Verif.c80_straight_agreement"
   ],
   "note": "All processor classes, all images."
  },
  {
   "property": "C81",
   "status": "partial",
   "theorems": [
    "Verif.c81_premultiplied_partial",
    "Verif.c81_opaque_unchanged_partial",
    "Verif.c81_transparent_is_black",
    "Verif.c81_wide_columns",
    "Verif.c81_avx2_wraps",
    "Verif.c81_avx2_zero_comes_back"
   ],
   "note": "The claim is false on AVX2 in the last pixels of a row (up to 32; all pixels of a narrow image) for saturated components; witnesses are proved. Everything else is proved."
  },
  {
   "property": "C82",
   "status": "proved",
   "theorems": [
    "Verif.c82_x86_encode",
    "Verif.c82_agreement",
    "Verif.c82_sample",
    "Verif.c82_round_trip"
   ],
   "note": "AVX2 kernel modelled per plane; exact planes, agreement of processors, round trip."
  },
  {
   "property": "C83",
   "status": "proved",
   "theorems": [
    "Verif.c83_deep_decode",
    "Verif.c83_plain_is_portable",
    "Verif.c83_same_buffers",
    "Verif.c83_representation"
   ],
   "note": "Exact frames for every processor class and content."
  },
  {
   "property": "C84",
   "status": "partial",
   "theorems": [
    "Verif.c84_cpu_agreement_partial",
    "Verif.c84_avx2_portable_partial",
    "Verif.c84_avx2_full_range",
    "Verif.c84_itu",
    "Verif.c84_below_black",
    "Verif.c84_violated_below_black",
    "Verif.c84_violated_beyond_depth"
   ],
   "note": "Proved for samples of the depth with luma not below black (and without condition in full range with samples in the high bits). The code violates the property otherwise: luma below black is taken for black (299 code values at 12 bits), words beyond the depth wrap (white becomes black); witnesses are proved."
  },
  {
   "property": "C85",
   "status": "proved",
   "theorems": [
    "Verif.c85_deep8_decode",
    "Verif.c85_plain_is_portable",
    "Verif.c85_same_buffers",
    "Verif.c85_representation"
   ],
   "note": "Exact frames for every processor class and content."
  },
  {
   "property": "C86",
   "status": "partial",
   "theorems": [
    "Verif.c86_cpu_agreement_partial",
    "Verif.c86_vec_below",
    "Verif.c86_itu",
    "Verif.c86_alpha_not_opaque",
    "Verif.c86_violated_white",
    "Verif.c86_violated_below_black"
   ],
   "note": "Proved for colours of legal samples without overflow (the vector code is never above the rounded value and at most one below). The code violates the property otherwise: the vector code stores alpha 3 or 15 in every odd column it does, bright colours wrap in the scalar columns only, luma below black is taken for black; proved for every image or with witnesses."
  },
  {
   "property": "C87",
   "status": "proved",
   "theorems": [
    "Verif.c87_deep_alpha",
    "Verif.c87_plain_is_portable",
    "Verif.c87_representation"
   ],
   "note": "Exact frames for every processor class and content."
  },
  {
   "property": "C88",
   "status": "partial",
   "theorems": [
    "Verif.c88_agreement_partial",
    "Verif.c88_avx2_alpha_shifted",
    "Verif.c88_violated_alpha",
    "Verif.c88_violated_position"
   ],
   "note": "Colours proved for legal samples; alpha proved without AVX2, at 14 and 16 bits, and up to 32 columns. The code violates the property otherwise: AVX2 stores in the right half of every block of 32 pixels the alpha of the left half (proved for every image 33 or more pixels wide), and luma below black is decoded differently by column."
  },
  {
   "property": "C89",
   "status": "partial",
   "theorems": [
    "Verif.c89_deep8_alpha_partial",
    "Verif.c89_plain_is_portable",
    "Verif.c89_stores_outside",
    "Verif.c89_safe_widths"
   ],
   "note": "Proved for the widths the 16-pixel store of the 8-pixel SSE4.1 loop can deal with and without padding for 4:2:2. The code violates the property otherwise: for every other width the store leaves the destination row, proved for every 4:2:0 image and for unpadded destinations of the others."
  },
  {
   "property": "C90",
   "status": "partial",
   "theorems": [
    "Verif.c90_agreement_partial",
    "Verif.c90_avx2_alpha_shifted",
    "Verif.c90_violated_alpha",
    "Verif.c90_large_alpha"
   ],
   "note": "Proved for legal samples without overflow, alpha without AVX2 or up to 32 columns and for alpha words below 32768. The code violates the property otherwise: AVX2 repeats the alpha of the left half block, large alpha words count as negative."
  },
  {
   "property": "C91",
   "status": "proved",
   "theorems": [
    "Verif.c91_nv_deep_decode",
    "Verif.c91_plain_is_portable",
    "Verif.c91_same_buffers",
    "Verif.c91_representation"
   ],
   "note": "Exact frames for every processor class and content."
  },
  {
   "property": "C92",
   "status": "partial",
   "theorems": [
    "Verif.c92_own_chroma_partial",
    "Verif.c92_grey_image_partial",
    "Verif.c92_grey_columns",
    "Verif.c92_grey_columns_444",
    "Verif.c92_violated"
   ],
   "note": "Proved for legal samples in the columns where the vector code uses the chroma of the column, and for images without colour. The code violates the property otherwise: the vector code adds two chroma samples in half of the columns and none in the other half, so those are grey whatever the image (proved for every image)."
  },
  {
   "property": "C93",
   "status": "proved",
   "theorems": [
    "Verif.c93_x86_deep_encode",
    "Verif.c93_scalar"
   ],
   "note": "Exact planes for both vector processor classes; plain processors and SSE4.1 at 16 bits run the scalar code of C30. In 4:2:0 images of odd width 16-bit full-range BT.601 is excluded because the scalar code of the last column overflows there (C30)."
  },
  {
   "property": "C94",
   "status": "partial",
   "theorems": [
    "Verif.c94_x86_deep_values_partial",
    "Verif.c94_luma",
    "Verif.c94_chroma",
    "Verif.c94_420_chroma_differs",
    "Verif.c94_sse_420_green_of_row_above",
    "Verif.c94_avx2_16bit_white_is_black"
   ],
   "note": "Proved for AVX2 at all depths and samplings, and for SSE4.1 in 4:4:4 and 4:2:2, except 16-bit full-range BT.601. The code violates the property otherwise: SSE4.1 in 4:2:0 computes the luma of every second row with the green of the row above, and 16-bit full-range BT.601 wraps."
  },
  {
   "property": "C95",
   "status": "proved",
   "theorems": [
    "Verif.c95_round_trip"
   ],
   "note": "16-bit full-range BT.601 is excluded: its sums overflow (C30)."
  },
  {
   "property": "C96",
   "status": "proved",
   "theorems": [
    "Verif.c96_prof_encode",
    "Verif.c96_prof_nv_encode",
    "Verif.c96_source_pixels_only",
    "Verif.c96_avx2_sse_equal",
    "Verif.c96_nv_avx2_sse_equal",
    "Verif.c96_nv_planar_agree",
    "Verif.c96_nv21_is_swapped_nv12"
   ],
   "note": "Model/X86Prof: AVX2 and SSE4.1 kernels of the professional mode through the generic encoder of Model/X86Parts."
  },
  {
   "property": "C97",
   "status": "proved",
   "theorems": [
    "Verif.c97_cpu_agreement",
    "Verif.c97_nv_cpu_agreement",
    "Verif.c97_cpu_accuracy",
    "Verif.c97_nominal_range",
    "Verif.c97_chroma_differs"
   ],
   "note": "c97_chroma_differs: the bound of one code value is attained."
  },
  {
   "property": "C98",
   "status": "proved",
   "theorems": [
    "Verif.c98_fast_encode",
    "Verif.c98_fast_nv_encode",
    "Verif.c98_source_pixels_only",
    "Verif.c98_avx2_sse_equal",
    "Verif.c98_nv_avx2_sse_equal",
    "Verif.c98_nv_planar_agree",
    "Verif.c98_nv21_is_swapped_nv12"
   ],
   "note": "Model/X86Fast: AVX2 and SSE4.1 kernels of the fast mode through the generic encoder of Model/X86Parts."
  },
  {
   "property": "C99",
   "status": "partial",
   "theorems": [
    "Verif.c99_cpu_agreement",
    "Verif.c99_nv_cpu_agreement",
    "Verif.c99_cpu_accuracy_partial",
    "Verif.c99_bt2020_wraps",
    "Verif.c99_bt2020_white_black"
   ],
   "note": "Violated: the luma sum of BT.2020 in full range passes 16 bits, white becomes black (c99_bt2020_white_black); every luma of that table is given by c99_bt2020_wraps."
  },
  {
   "property": "C100",
   "status": "proved",
   "theorems": [
    "Verif.c100_x86_prof_nv_decode",
    "Verif.c100_nv21_is_swapped_nv12"
   ],
   "note": "Model/X86NvModes: AVX2 and SSE4.1 kernels of the professional mode, generic semi-planar row handler."
  },
  {
   "property": "C101",
   "status": "partial",
   "theorems": [
    "Verif.c101_vector_cpus_agree",
    "Verif.c101_prof_cpu_agreement_partial",
    "Verif.c101_prof_accuracy_partial",
    "Verif.c101_smpte240_wrong_red",
    "Verif.c101_dark_luma_differs"
   ],
   "note": "Violated: the coefficient of red of SMPTE 240 in limited range passes 16 bits (c101_smpte240_wrong_red); luma below black counts as black on AVX2 and SSE4.1 only (c101_dark_luma_differs). AVX2 and SSE4.1 always agree."
  },
  {
   "property": "C102",
   "status": "proved",
   "theorems": [
    "Verif.c102_x86_fast_nv_decode",
    "Verif.c102_nv21_is_swapped_nv12"
   ],
   "note": "Model/X86NvModes: AVX2 and SSE4.1 kernels of the fast mode, generic semi-planar row handler."
  },
  {
   "property": "C103",
   "status": "partial",
   "theorems": [
    "Verif.c103_vector_cpus_agree",
    "Verif.c103_fast_cpu_agreement_partial",
    "Verif.c103_bright_blue_wraps"
   ],
   "note": "Violated: in limited range the 16-bit sum wraps from luma 238 on (c103_bright_blue_wraps); proved for luma from black to 237, and for every luma of full range."
  },
  {
   "property": "C104",
   "status": "proved",
   "theorems": [
    "Verif.c104_wasm_planar_decode",
    "Verif.c104_wasm_nv_decode",
    "Verif.c104_wasm_gray_decode",
    "Verif.c104_nv21_is_swapped_nv12"
   ],
   "note": "Model/Wasm: the SIMD kernels on a 32-bit target; Lemmas/Accept: good images are accepted on every target that can address them."
  },
  {
   "property": "C105",
   "status": "partial",
   "theorems": [
    "Verif.c105_wasm_planar_agreement_partial",
    "Verif.c105_wasm_nv_agreement_partial",
    "Verif.c105_wasm_gray_agreement",
    "Verif.c105_wasm_planar_accuracy_partial",
    "Verif.c105_nv24_wrong_colours",
    "Verif.c105_nv24_ignores_chroma",
    "Verif.c105_below_black_differs"
   ],
   "note": "Violated: NV24 and NV42 take both chroma samples of a pixel from one of the two (c105_nv24_wrong_colours, c105_nv24_ignores_chroma); luma below black counts as black in the vector columns only (c105_below_black_differs). Proved for the other layouts with luma not below black, and for grey images without condition."
  },
  {
   "property": "C106",
   "status": "proved",
   "theorems": [
    "Verif.c106_neon_planar_decode",
    "Verif.c106_neon_nv_decode",
    "Verif.c106_neon_gray_decode",
    "Verif.c106_nv21_is_swapped_nv12",
    "Verif.c106_nv_is_planar"
   ],
   "note": "Model/Neon: the NEON kernels for balanced mode; `rdm` says whether the processor has the rounding multiply-accumulate instructions."
  },
  {
   "property": "C107",
   "status": "partial",
   "theorems": [
    "Verif.c107_neon_planar_agreement_partial",
    "Verif.c107_neon_nv_agreement_partial",
    "Verif.c107_neon_gray_agreement",
    "Verif.c107_neon_planar_accuracy_partial",
    "Verif.c107_below_black_differs"
   ],
   "note": "Violated: luma below black counts as black in the NEON code only (c107_below_black_differs: red 123 against 108). Proved for luma not below black, and for grey images without condition."
  },
  {
   "property": "C108",
   "status": "partial",
   "theorems": [
    "Verif.c108_neon_position_partial",
    "Verif.c108_neon_nv_position_partial",
    "Verif.c108_last_row_differs",
    "Verif.c108_last_row_differs_rdm"
   ],
   "note": "Violated: the last row of a 4:2:0 image of odd height takes green from other roundings than pairs of rows (c108_last_row_differs, c108_last_row_differs_rdm). Proved for 4:2:2 and 4:4:4, and for 4:2:0 with the rounding instructions except SMPTE 240M full range."
  },
  {
   "property": "C109",
   "status": "proved",
   "theorems": [
    "Verif.c109_neon_encode",
    "Verif.c109_neon_nv_encode",
    "Verif.c109_source_pixels_only",
    "Verif.c109_nv_planar_agree",
    "Verif.c109_nv21_is_swapped_nv12"
   ],
   "note": "Model/NeonEncode; `rdm` says whether the processor has the rounding multiply-accumulate instructions."
  },
  {
   "property": "C110",
   "status": "proved",
   "theorems": [
    "Verif.c110_portable_agreement",
    "Verif.c110_nv_portable_agreement",
    "Verif.c110_accuracy",
    "Verif.c110_nv_accuracy",
    "Verif.c110_nominal_range",
    "Verif.c110_rdm_differs"
   ],
   "note": "c110_rdm_differs shows that the two kinds of processor do differ."
  },
  {
   "property": "C111",
   "status": "partial",
   "theorems": [
    "Verif.c111_prof_encode",
    "Verif.c111_prof_nv_encode_partial",
    "Verif.c111_portable_agreement",
    "Verif.c111_nv_portable_agreement_partial",
    "Verif.c111_accuracy",
    "Verif.c111_nv21_is_nv12",
    "Verif.c111_nv21_order_wrong"
   ],
   "note": "Violated: NV21 with 4:2:0 is written in NV12 order (the subsampling is passed for the order); for even heights the result is exactly that of NV12 (c111_nv21_is_nv12), red is stored 90, 240 instead of 240, 90 (c111_nv21_order_wrong). Proved for planar images and for every other semi-planar layout."
  },
  {
   "property": "C112",
   "status": "partial",
   "theorems": [
    "Verif.c112_fast_encode",
    "Verif.c112_fast_nv_encode",
    "Verif.c112_nv_planar_agree",
    "Verif.c112_portable_agreement_partial",
    "Verif.c112_nv_portable_agreement_partial",
    "Verif.c112_accuracy",
    "Verif.c112_nv_accuracy",
    "Verif.c112_bt2020_white"
   ],
   "note": "Accuracy is proved for every matrix and range. Agreement is violated for luma of BT.2020 in full range, where the portable byte wraps: white is 255 with NEON and 1 without (c112_bt2020_white)."
  },
  {
   "property": "C113",
   "status": "partial",
   "theorems": [
    "Verif.c113_neon_ycgco_decode",
    "Verif.c113_neon_ycgco_agrees_partial",
    "Verif.c113_neon_ycgco_colours",
    "Verif.c113_transparent",
    "Verif.c113_transparent_witness"
   ],
   "note": "Violated for alpha: with full range a 4:2:2 or 4:4:4 image decodes to pixels with alpha 0, and so does the last row of a 4:2:0 image of odd height (c113_transparent, c113_transparent_witness). The colours are right everywhere (c113_neon_ycgco_colours)."
  },
  {
   "property": "C114",
   "status": "partial",
   "theorems": [
    "Verif.c114_neon_alpha_decode",
    "Verif.c114_alpha_stored_partial",
    "Verif.c114_alpha_lost",
    "Verif.c114_alpha_lost_witness",
    "Verif.c114_straight_agreement"
   ],
   "note": "The frame is exact and the colours agree for every image. Violated for alpha: with 4:2:0 and 4:2:2 sampling the second half of the last at most 16 pixels of every row has alpha 0 (c114_alpha_lost, c114_alpha_lost_witness)."
  },
  {
   "property": "C115",
   "status": "partial",
   "theorems": [
    "Verif.c115_premultiplied_partial",
    "Verif.c115_wrong_alpha",
    "Verif.c115_swapped_witness"
   ],
   "note": "Violated in the groups of 32 pixels, where each half is multiplied by the alpha of the other half (c115_wrong_alpha, c115_swapped_witness), and where C114 loses the alpha; proved in all other columns."
  },
  {
   "property": "C116",
   "status": "partial",
   "theorems": [
    "Verif.c116_neon_shuffle",
    "Verif.c116_neon_shuffle_agrees_partial",
    "Verif.c116_colours_and_back",
    "Verif.c116_transparent",
    "Verif.c116_transparent_witness"
   ],
   "note": "Violated: from RGB or BGR to RGBA or BGRA the pixels after the last whole group of 16 of every row get alpha 0 (c116_transparent, c116_transparent_witness); equality is proved for every other pair of layouts and for widths that are multiples of 16, and the colours are right everywhere."
  },
  {
   "property": "C117",
   "status": "partial",
   "theorems": [
    "Verif.c117_neon_to_gray",
    "Verif.c117_portable_agreement_partial",
    "Verif.c117_same_as_colour_partial",
    "Verif.c117_no_offset",
    "Verif.c117_no_offset_witness"
   ],
   "note": "Violated in limited range without the RDM instructions: every sample of a whole group of eight pixels is 16 or 17 too dark, the last pixels of the row are right (c117_no_offset, c117_no_offset_witness). Proved with RDM and in full range."
  },
  {
   "property": "C118",
   "status": "proved",
   "theorems": [
    "Verif.c118_neon_gray_alpha",
    "Verif.c118_portable_agreement",
    "Verif.c118_opaque"
   ],
   "note": "Both kernels, every width."
  },
  {
   "property": "C119",
   "status": "proved",
   "theorems": [
    "Verif.c119_neon_gbr",
    "Verif.c119_portable_agreement",
    "Verif.c119_x86_agreement",
    "Verif.c119_round_trip"
   ],
   "note": "All three kernels, every width."
  },
  {
   "property": "C120",
   "status": "proved",
   "theorems": [
    "Verif.c120_pack422",
    "Verif.c120_pack420",
    "Verif.c120_agree"
   ],
   "note": "Every width."
  },
  {
   "property": "C121",
   "status": "partial",
   "theorems": [
    "Verif.c121_pack444_exact",
    "Verif.c121_pack444_partial",
    "Verif.c121_flat_chroma_partial",
    "Verif.c121_wrong_columns",
    "Verif.c121_unwritten",
    "Verif.c121_witness"
   ],
   "note": "Violated in every frame of more than 16 columns: pair j of a block gets the mean of two samples 16 (or 8) columns apart (c121_wrong_columns), and the pairs after the vector code are not written (c121_unwritten); witness c121_witness. Proved for at most 16 columns, and for rows of constant chroma where the vector code runs."
  },
  {
   "property": "C122",
   "status": "partial",
   "theorems": [
    "Verif.c122_sse41",
    "Verif.c122_unpack422_partial",
    "Verif.c122_unpack444_partial",
    "Verif.c122_unwritten",
    "Verif.c122_420_chroma_row",
    "Verif.c122_witness"
   ],
   "note": "The NEON and SSE4.1 unpackers are proved to be the same function (c122_sse41). Violated as in C78: columns from the last multiple of 16 on are not written in even widths above 16 (c122_unwritten), 4:2:0 chroma comes from the odd rows (c122_420_chroma_row); witness c122_witness. Proved for widths up to 16 or one more than a multiple of 16."
  },
  {
   "property": "C123",
   "status": "partial",
   "theorems": [
    "Verif.c123_neon_exact",
    "Verif.c123_x86_near",
    "Verif.c123_portable_partial",
    "Verif.c123_divergence",
    "Verif.c123_close_partial",
    "Verif.c123_tie",
    "Verif.c123_dark"
   ],
   "note": "The exact frame is proved for every input. Agreement is violated: the vector code rounds ties up where everything else rounds them down (c123_tie, one step), and takes luma below the offset for the offset (c123_dark, at most 20 steps: c123_divergence). Accuracy is proved for luma not below the offset."
  },
  {
   "property": "C124",
   "status": "proved",
   "theorems": [
    "Verif.c124_neon_packed",
    "Verif.c124_alpha_stored",
    "Verif.c124_straight_agreement"
   ],
   "note": "Both variants of the kernel, every width, including the last group through buffers on the stack."
  },
  {
   "property": "C125",
   "status": "proved",
   "theorems": [
    "Verif.c125_premultiplied",
    "Verif.c125_no_wrap"
   ],
   "note": "In every column, unlike AVX2 (C81)."
  },
  {
   "property": "C126",
   "status": "proved",
   "theorems": [
    "Verif.c126_neon_prof_nv_decode",
    "Verif.c126_same_as_x86",
    "Verif.c126_nv21_is_swapped_nv12"
   ],
   "note": "Both kernels, every width, including the last group through buffers on the stack."
  },
  {
   "property": "C127",
   "status": "partial",
   "theorems": [
    "Verif.c127_portable_agreement_partial",
    "Verif.c127_accuracy_partial",
    "Verif.c127_smpte240_wrong_red",
    "Verif.c127_dark_luma_differs"
   ],
   "note": "False for SMPTE 240 in limited range (red coefficient wraps) and for luma below black; witnesses proved, everything else proved."
  },
  {
   "property": "C128",
   "status": "proved",
   "theorems": [
    "Verif.c128_neon_fast_nv_decode",
    "Verif.c128_nv21_is_swapped_nv12"
   ],
   "note": "Both kernels, every width, including the last group through buffers on the stack."
  },
  {
   "property": "C129",
   "status": "partial",
   "theorems": [
    "Verif.c129_near_x86",
    "Verif.c129_portable_partial",
    "Verif.c129_bright_blue_wraps"
   ],
   "note": "Against x86 vector code for every image; against portable code false for luma above 237 in limited range (16-bit sums wrap) and below black; witness proved."
  },
  {
   "property": "C130",
   "status": "proved",
   "theorems": [
    "Verif.c130_neon_deep8_decode",
    "Verif.c130_representation",
    "Verif.c130_opaque"
   ],
   "note": "Every width; NEON columns and the portable last one to eight columns."
  },
  {
   "property": "C131",
   "status": "partial",
   "theorems": [
    "Verif.c131_neon_below",
    "Verif.c131_portable_agreement_partial",
    "Verif.c131_itu",
    "Verif.c131_near_x86",
    "Verif.c131_violated_white",
    "Verif.c131_violated_below_black"
   ],
   "note": "For legal samples in the NEON columns, all depths and matrices; false against portable code for bright colours (portable wraps white to black in the last columns) and luma below black; witnesses proved."
  },
  {
   "property": "C132",
   "status": "proved",
   "theorems": [
    "Verif.c132_neon_gray_deep_decode",
    "Verif.c132_same_as_portable"
   ],
   "note": "Every width; identical to the portable bytes."
  },
  {
   "property": "C133",
   "status": "partial",
   "theorems": [
    "Verif.c133_row_inside_partial",
    "Verif.c133_violated",
    "Verif.c133_violated_witness"
   ],
   "note": "Holds when every row of the destination holds the pixels, whatever the words; false for every destination with rows shorter than eight pixels: nothing is validated and the unchecked NEON store leaves the row (and, in the witness, the whole slice)."
  },
  {
   "property": "C134",
   "status": "proved",
   "theorems": [
    "Verif.c134_neon_deep_decode",
    "Verif.c134_representation"
   ],
   "note": "Both kernels, every width, any 16-bit words."
  },
  {
   "property": "C135",
   "status": "partial",
   "theorems": [
    "Verif.c135_portable_partial",
    "Verif.c135_full_range",
    "Verif.c135_agreement_partial",
    "Verif.c135_same_as_x86_partial",
    "Verif.c135_itu_partial",
    "Verif.c135_below_black",
    "Verif.c135_violated_below_black",
    "Verif.c135_violated_beyond_depth"
   ],
   "note": "Equal to the portable buffer for luma not below black (also beyond the depth) in the 32-bit kernel, unconditionally in full range for packed or 16-bit samples; within two code values and equal to the x86 buffer at 10 bits with RDM. False below black (c135_violated_below_black) and, with RDM, for words beyond the depth (c135_violated_beyond_depth)."
  },
  {
   "property": "C136",
   "status": "proved",
   "theorems": [
    "Verif.c136_neon_nv_deep_decode",
    "Verif.c136_representation"
   ],
   "note": "Both kernels, every width, any 16-bit words."
  },
  {
   "property": "C137",
   "status": "partial",
   "theorems": [
    "Verif.c137_portable_partial",
    "Verif.c137_msb",
    "Verif.c137_agreement_partial",
    "Verif.c137_itu_partial",
    "Verif.c137_itu_wide",
    "Verif.c137_below_black",
    "Verif.c137_violated_below_black",
    "Verif.c137_violated_beyond_depth"
   ],
   "note": "Without RDM the buffer is the portable one, luma below black included, unconditionally for samples in the most significant bits; with RDM within two code values for samples of the depth not below black. False with RDM below black (c137_violated_below_black) and without it for low-packed words from 32768 above black (c137_violated_beyond_depth)."
  },
  {
   "property": "C138",
   "status": "proved",
   "theorems": [
    "Verif.c138_neon_deep_encode"
   ],
   "note": "Both kernels, one and two rows. In 4:2:0 images of odd width, where the scalar code redoes the last column, 16-bit full-range BT.601 is excluded (the scalar code overflows, C30)."
  },
  {
   "property": "C139",
   "status": "partial",
   "theorems": [
    "Verif.c139_neon_deep_values_partial",
    "Verif.c139_luma",
    "Verif.c139_chroma",
    "Verif.c139_rdm_luma_near",
    "Verif.c139_rdm_chroma_near",
    "Verif.c139_rdm_chroma_floor",
    "Verif.c139_rdm_yellow_cyan",
    "Verif.c139_16bit_white_is_black",
    "Verif.c139_16bit_chroma_cut"
   ],
   "note": "Holds without RDM, and at 12 to 16 bits, except 16-bit full-range BT.601 and 16-bit limited-range BT.709 and BT.2020; luma with RDM within one. False at 10 bits, limited range, with RDM: no chroma is below 257 (c139_rdm_chroma_floor, c139_rdm_yellow_cyan); white becomes black at 16 bits, full range, BT.601 (c139_16bit_white_is_black); chroma of saturated colours is cut by two at 16 bits (c139_16bit_chroma_cut)."
  },
  {
   "property": "C140",
   "status": "proved",
   "theorems": [
    "Verif.c140_neon_p10_decode",
    "Verif.c140_representation"
   ],
   "note": "Both kernels (fast and balanced share one), every width; the public functions have high-packed samples, and so has the theorem."
  },
  {
   "property": "C141",
   "status": "partial",
   "theorems": [
    "Verif.c141_portable_agreement_partial",
    "Verif.c141_one_below",
    "Verif.c141_itu",
    "Verif.c141_white_black",
    "Verif.c141_below_black",
    "Verif.c141_violated_below_black",
    "Verif.c141_violated_smpte240",
    "Verif.c141_grey_one_below"
   ],
   "note": "Holds, as equal or one below, for luma not below black, except SMPTE 240M in limited range in the professional mode. False below black (c141_violated_below_black) and in that configuration, where the weight of Cr wraps and red becomes cyan (c141_violated_smpte240)."
  },
  {
   "property": "C142",
   "status": "partial",
   "theorems": [
    "Verif.c142_neon_deep8_alpha_partial",
    "Verif.c142_every_width"
   ],
   "note": "Full for 4:2:0 and 4:4:4 (c142_every_width); missing: 4:2:2 images with padding, where the row loop shared with other processors does not cut rows to the width and the claim is false."
  },
  {
   "property": "C143",
   "status": "partial",
   "theorems": [
    "Verif.c143_agreement_partial",
    "Verif.c143_itu",
    "Verif.c143_white_opaque",
    "Verif.c143_violated_big_endian",
    "Verif.c143_violated_white",
    "Verif.c143_violated_below_black"
   ],
   "note": "Holds for legal samples without overflow and little-endian alpha. False for big-endian alpha, which is converted in the columns of the NEON code only (c143_violated_big_endian), bright colours (c143_violated_white) and luma below black (c143_violated_below_black)."
  },
  {
   "property": "C144",
   "status": "proved",
   "theorems": [
    "Verif.c144_neon_alpha16"
   ],
   "note": ""
  },
  {
   "property": "C145",
   "status": "partial",
   "theorems": [
    "Verif.c145_alpha_partial",
    "Verif.c145_alpha_444",
    "Verif.c145_colours_partial",
    "Verif.c145_agreement_partial",
    "Verif.c145_violated_lost_alpha",
    "Verif.c145_violated_opaque",
    "Verif.c145_violated_below_black"
   ],
   "note": "Alpha holds for 4:4:4 and outside the last block of columns. False for 4:2:0 and 4:2:2: the second half of the last one to eight columns, but for the last column of odd widths, is transparent in every image (c145_violated_lost_alpha). Colours hold for legal samples, within one in the 32-bit kernel and two in the 10-bit kernel with rounding multiply-accumulate; false below black (c145_violated_below_black)."
  },
  {
   "property": "C146",
   "status": "proved",
   "theorems": [
    "Verif.c146_neon_ar30"
   ],
   "note": "10-bit images; the 12-bit instance of the kernel is not modelled."
  },
  {
   "property": "C147",
   "status": "partial",
   "theorems": [
    "Verif.c147_green_partial",
    "Verif.c147_violated_transparent",
    "Verif.c147_violated_exchanged",
    "Verif.c147_violated_black"
   ],
   "note": "Holds for green with luma not below black. False otherwise: every pixel of every image is transparent (c147_violated_transparent), the two bits meant for alpha are set in a colour field (c147_violated_black), and red and blue are exchanged in RA30 (c147_violated_exchanged)."
  }
 ]
}
