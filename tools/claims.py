T["C01"] = (P, ["c01_planar_check_iff", "c01_planar_check_no_panic", "c01_gray_check_iff", "c01_gray_alpha_check_iff", "c01_planar_alpha_check_iff"], "")
T["C02"] = (P, ["c02_rgba_check_iff", "c02_rgba_check_report", "c02_rgba_check_wraps_on_32bit"], "Holds on 64-bit targets; on 32-bit release builds the size computation wraps (witness).")
T["C03"] = (Q, ["c03_biplanar_check_iff", "c03_biplanar_in_bounds", "c03_interleaved_width_overflow", "c03_padded_chroma_rejected"], "Acceptance characterised exactly; widths from 2^31 overflow u32 and padded chroma strides are rejected (witnesses).")
T["C04"] = (P, ["c04_planar_alloc_valid", "c04_biplanar_alloc_valid", "c04_gray_alloc_valid"], "")
T["C05"] = (P, ["c05_planar_decode_rejects", "c05_f16_decode_rejects", "c05_f16_alpha_decode_rejects", "c05_f16_gbr_decode_rejects", "c05_f16_convert_rejects", "c05_nv_decode_rejects", "c05_planar_encode_rejects", "c05_nv_encode_rejects", "c05_gray_decode_rejects", "c05_gray_encode_rejects", "c05_gbr_decode_rejects", "c05_gbr_encode_rejects", "c05_shuffle_rejects", "c05_packed444_rejects", "c05_rdp_encode_rejects", "c05_rdp_decode_rejects", "c05_alpha_decode_rejects", "c05_deep_alpha_decode_rejects", "c05_ycgco_decode_rejects", "c05_ycgco_alpha_decode_rejects", "c05_ycgco_encode_rejects", "c05_p16_decode_rejects", "c05_p10_decode_rejects", "c05_ar30_decode_rejects", "c05_nv_p16_decode_rejects", "c05_nv_p10_decode_rejects", "c05_nv_ar30_decode_rejects", "c05_p16_encode_rejects", "c05_nv_p16_encode_rejects", "c05_yuy2_decode_rejects", "c05_yuy2_decode16_rejects", "c05_pack_rejects", "c05_unpack_rejects", "c05_sharp_rejects", "c05_decode_status_geometry", "c05_encode_status_geometry"], "")
T["C06"] = (P, ["c06_spec_inverts", "c06_inverse_tables", "c06_forward_tables", "c06_searchForward", "c06_searchInverse", "c06_six_bit_cap_bites"], "")
T["C07"] = (P, ["c07_div255_nearest", "c07_premultiply"], "")
T["C08"] = (P, ["c08_decode_no_overflow", "c08_decode_in_range", "c08_kernels_agree"], "")
T["C09"] = (Q, ["c09_encode_in_nominal_range", "c09_encode_fast_partial", "c09_fast_bt2020_white_wraps"], "Fully proved for Balanced and Professional; in Fast mode BT.2020 full-range white wraps to 1 (witness), every other case is proved not to wrap.")
T["C10"] = (P, ["c10_decode_close", "c10_decode_close_8bit", "c10_planar_decode_close", "c10_fast_mode_off"], "Fast (6-bit) mode is excluded from the bound; its error is bounded in C45.")
T["C11"] = (P, ["c11_encode_close", "c11_encode_close_default", "c11_planar_encode_close"], "")
T["C12"] = (Q, ["c12_decode_gray", "c12_encode_gray", "c12_avx2_gray", "c12_fast_gray_not_neutral"], "Fails in Fast mode (witness); proved for Balanced and Professional.")
T["C13"] = (P, ["c13_round_trip", "c13_api_round_trip"], "")
T["C14"] = (P, ["c14_monotone_luma", "c14_monotone_cr", "c14_monotone_cb", "c14_avx2_monotone_luma"], "")
T["C15"] = (P, ["c15_planar_decode", "c15_planar_decode_exact"], "")
T["C16"] = (Q, ["c16_last_row_not_written", "c16_wrong_row_written", "c16_one_row_panics", "c16_nv_last_row_not_written", "c16_all_written_partial"], "Violated by the code for destinations whose last row has no padding (witnesses); proved when every row is complete.")
T["C17"] = (P, ["c17_nv_decode", "c17_nv_decode_exact"], "")
T["C18"] = (P, ["c18_nv_planar_agree", "c18_nv21_is_swapped_nv12"], "")
T["C19"] = (P, ["c19_channel_order"], "")
T["C20"] = (P, ["c20_planar_encode", "c20_planar_encode_exact", "c20_nv_encode", "c20_nv_encode_exact", "c11_planar_encode_close"], "")
T["C21"] = (Q, ["c21_nv_planar_agree_partial", "c21_odd_width_differs", "c21_nv21_is_swapped_nv12"], "Violated at odd widths in 4:2:0 (witness); proved everywhere else.")
T["C22"] = (P, ["c22_subsampled_is_replicated"], "")
T["C23"] = (P, ["c23_padding_irrelevant", "c23_encode_padding_irrelevant"], "")
T["C24"] = (P, ["c24_any_schedule", "c24_planar_decode_schedule"], "")
T["C25"] = (P, ["c25_vector_prefix_irrelevant"], "")
T["C45"] = (P, ["c45_encode_modes", "c45_decode_modes"], "")
T["C28"] = (P, ["c28_planar_decode", "c28_planar_decode_exact", "c28_nv_decode", "c28_nv_decode_exact", "c28_range", "c28_close"], "")
T["C29"] = (Q, ["c29_nv_decode", "c29_close", "c29_monotone", "c29_planar_decode_partial", "c29_planar_decode_wraps", "c29_planar_white_is_black", "c29_planar_smpte240_dark"], "Proved for the bi-planar converters; the planar ones wrap instead of saturating and misuse the bit depth for matrices without stored coefficients (witnesses).")
T["C31"] = (Q, ["c31_nv_planar_agree_partial", "c31_components_partial", "c31_tie_differs"], "Violated on exact ties (witness); proved elsewhere, with the difference on ties bounded by one.")
T["C32"] = (P, ["c32_planar_representation", "c32_nv_representation", "c32_write_read"], "")
T["C30"] = (Q, ["c30_planar_encode_partial", "c30_encode_444", "c30_close", "c30_nv_encode_partial", "c30_420_luma_from_row_above", "c30_422_padding_overwritten", "c30_422_odd_width_misplaced", "c30_16bit_full_bt601_overflows", "c30_p010_odd_width", "c30_p216_refused"], "Fully proved for 4:4:4. Violated elsewhere (witnesses): 4:2:0 takes luma at odd/odd positions from the row above, 4:2:2 overwrites row padding, P010-style odd widths misplace a luma sample, 16-bit full-range BT.601 overflows, rgb16_to_p216 is wired as 4:2:0. The partial theorems prove exactly what is written outside these cases.")
T["C48"] = (P, ["c48_round_trip", "c48_api_round_trip"], "16-bit full-range BT.601 excluded: it overflows (C30).")
T["C49"] = (Q, ["c49_published_weights_partial", "c49_smpte240_exchanged", "c49_bt470_other_weights"], "Violated for SMPTE 240 (weights exchanged) and BT.470 B/G (witnesses); proved for the other four names.")
T["C26"] = (P, ["c26_gray_decode", "c26_gray_decode_exact", "c26_full_identity", "c26_level_close", "c26_level_is_colour", "c26_gray_alpha_decode", "c26_gray_encode", "c26_gray_encode_exact", "c26_full_round_trip", "c26_full_round_trip_rgb"], "")
T["C50"] = (P, ["c50_gray_deep_decode", "c50_gray_deep_alpha_decode", "c26_level_close"], "")
T["C43"] = (Q, ["c43_gray_deep_alpha_source_partial", "c43_gray_deep_short_accepted", "c43_gray_deep_zero_stride_panics", "c43_gray_deep_narrow_stride_panics", "c43_gray_deep_alpha_short_accepted"], "Violated: the functions without alpha validate nothing, those with alpha do not validate the destination (witnesses). Proved: the planes of the alpha functions are validated.")
T["C33"] = (P, ["c33_gbr_decode", "c33_gbr_decode_exact", "c33_gbr_alpha_decode", "c33_gbr_encode", "c33_round_trip", "c33_full_lossless", "c33_limited_round_trip", "c33_full_lossless_planes", "c33_component_round_trip", "c33_14bit_off_by_two", "c33_level_close", "c33_code_close"], "Round trips are for the scalar code; with vector code the decode theorem gives the scalar value or what the vector contract says.")
T["C40"] = (P, ["c40_shuffle", "c40_shuffle_exact", "c40_round_trip", "c05_shuffle_rejects"], "With vector code: scalar value or the vector contract.")
T["C38"] = (P, ["c38_unpack_pack", "c38_bytes", "c38_pack_image", "c38_unpack_image", "c38_round_trip"], "Both machine byte orders; network order is proved to be most significant byte first on both.")
T["C41"] = (P, ["c41_packed_decode", "c41_packed_decode_exact", "c41_plain", "c41_premultiplied", "c05_packed444_rejects"], "")
T["C42"] = (P, ["c42_encode_range", "c42_encode_close", "c42_encode", "c42_decode", "c42_colour_round_trip", "c42_round_trip", "c42_loss_happens", "c42_extreme_samples_panic", "c05_rdp_encode_rejects", "c05_rdp_decode_rejects"], "Every component comes back unchanged or one less. Decoding samples far outside the format's range overflows (witness).")
T["C27"] = (P, ["c27_alpha_decode", "c27_alpha_decode_exact", "c27_same_colours", "c27_premultiplied", "c05_alpha_decode_rejects"], "")
T["C51"] = (Q, ["c51_deep_alpha_words", "c51_deep_alpha_partial", "c51_big_endian_alpha", "c51_deep8_alpha_words", "c51_deep8_alpha_partial", "c51_deep8_422_padding", "c51_deep8_wraps"], "Holds for native little-endian words; the alpha word is copied without the byte swap or MSB shift applied to the colours (witness), the 8-bit 4:2:2 path runs over the row padding (witness) and the 8-bit store wraps (witness).")
T["C34"] = (Q, ["c34_decode", "c34_alpha_decode", "c34_decode_close", "c34_encode", "c34_luma_close", "c34_full_chroma_close", "c34_limited_chroma_close_partial", "c34_limited444_chroma_close_partial", "c34_limited_chroma_off", "c34_gray_neutral_partial", "c34_gray_not_neutral", "c34_encode_close_partial", "c34_pixel_round_trip", "c34_limited_error_occurs", "c34_round_trip"], "Decoding, full-range encoding and the 4:4:4 round trip are proved for all inputs. In limited range the chroma of a sample covering one pixel uses the luma factor, so it is off by up to 3.5 code values in 4:4:4 and gray is tinted in the last column of odd-width 4:2:2 and 4:2:0: both are proved as counterexamples.")
T["C39"] = (Q, ["c39_planar_decode", "c39_planar_padding", "c39_nv_decode", "c39_nv_decode_exact", "c39_p012_partial", "c39_close", "c39_444_padding_overwritten", "c39_out_of_range_overflow", "c39_planar_12bit_wrong", "c39_p012_white"], "10-bit images are right for every sampling (4:4:4 also overwrites row padding); 12-bit bi-planar is right except where a component rounds to 1024; 12/14-bit planar is not reduced to 10 bits (counterexamples).")
T["C35"] = (Q, ["c35_pack422", "c35_pack420", "c35_pack444_partial", "c35_unpack422_partial", "c35_unpack444_partial", "c35_roundtrip422_partial", "c35_roundtrip420_partial", "c35_unpack_vector_skips", "c35_pack444_vector_skips", "c35_unpack_padded_cr"], "Packing to every order is proved for all sizes and vector code meeting its contract (4:4:4 without vector code only: the scalar loop skips pairs, counterexample). Unpacking and the round trip need vector code that takes whole rows and, at odd widths, an unpadded Cr plane; counterexamples are proved for both.")
T["C36"] = (Q, ["c36_yuy2_decode_partial", "c36_yuy2_decode_exact_partial", "c36_yuy2_decode16_partial", "c36_close", "c36_stride_ignored", "c36_short_stride_panics"], "All sizes, orders, layouts and ranges for frames whose stride is that of their width. The stride is not validated: accepted frames with another stride lose rows or panic (proved).")
T["C37"] = (Q, ["c37_unpack420_partial", "c37_even_partial", "c37_even_exact_partial", "c37_odd_height_unwritten", "c37_odd_width_wrong_luma", "c37_vector_chroma_row"], "Proved for even sizes; for odd sizes the exact (wrong) behaviour is characterised and counterexamples are proved.")
T["C44"] = (Q, ["c44_sharp_encode", "c44_luma_is_plain_luma", "c44_samples_in_range", "c44_chroma_close", "c44_constant_colour_partial", "c44_odd_tail_bypasses_tables"], "All three planes of the sharp encoder are determined for every pair of tables; luma equals the plain encoder's and all samples are nominal. Constant regions get the chroma of the table-mapped colour except in the last column of a 4:2:2 image of odd width, where the code bypasses the tables (proved).")
T["C46"] = (Q, ["c46_mirror_twice", "c46_mirror_both", "c46_rotate180_twice", "c46_errors", "c46_rotate_90_270_partial", "c46_plain_transposition_is_half_turn"], "The pixel moves are done by the external crate fast_transpose, which is not in the sandbox: its routines are parameters with a contract. Under the contract the mirror and 180-degree claims hold; 90 then 270 returns the image if the crate's transpose turns the image, and turns it upside down if it is the plain transposition (both proved), so the claim cannot be settled from this repository.")
T["C47"] = (Q, ["c47_unit_arith", "c47_unit_monotone", "c47_unit_ends", "c47_unit_range", "c47_unit_close", "c47_unit16_close_partial", "c47_unit16_infinite", "c47_to_f16_close", "c47_to_f16_monotone", "c47_to_f16_ends", "c47_from_f16_close", "c47_from_f16_special", "c47_from_f16_monotone", "c47_round_trip", "c47_round_trip_12", "c47_from_f16_overshoot", "c47_ten_bit", "c47_planar_decode", "c47_planar_decode_exact", "c47_planar_range", "c47_alpha_decode", "c47_gbr_level_close", "c47_gbr_decode", "c47_gbr16_decode_partial", "c47_gbr16_white_infinite", "c47_gbr_alpha_decode", "c47_convert", "c47_to_f16", "c47_from_f16", "c47_image_round_trip", "c47_stride_truncated"], "Proved for depths 10, 12 and 14. False for 16-bit GBR levels from 65520 on (stored as infinity, c47_unit16_infinite) and for saturation at the depth (c47_from_f16_overshoot); strides are checked modulo 2^32 (c47_stride_truncated).")
T["C52"] = (Q, ["c52_names_partial", "c52_misnamed", "c52_be_bgra_is_rgba", "c52_be_alpha_is_le", "c52_422_is_420"], "Holds for 571 of 581 functions. The other ten pass constants that contradict their names (finding): four big-endian BGRA decoders store RGBA, three big-endian alpha decoders read little endian, three 4:2:2 encoders are 4:2:0 encoders. The dispatch table was extracted from the source text by tools/api_extract.py and tools/api_gen.py.")
T["C53"] = (Q, ["c53_cpu_agreement_partial", "c53_cpu_accuracy_partial", "c53_below_black_differs", "c53_sse_differs"], "Proved for luma not below black and, on SSE4.1 in limited range, outside 128..143; false otherwise (witnesses).")
T["C54"] = (P, ["c54_x86_decode", "c54_plain_is_scalar"], "Processor classes AVX2, SSE4.1, none; AVX-512 (off by default), NEON and WebAssembly kernels are not modelled.")
T["C55"] = (Q, ["c55_avx2_decode", "c55_avx2_samples_only", "c55_plain_samples_only", "c55_sse_position_dependent", "c55_sse_black_is_white"], "Proved for AVX2 and for processors without vector extensions; false on SSE4.1 (witnesses).")
T["C56"] = (P, ["c56_x86_nv_decode", "c56_avx2_nv_decode", "c56_samples_only", "c56_plain_is_scalar"], "Processor classes AVX2, SSE4.1, none, default (balanced) mode; AVX-512, NEON and WebAssembly kernels are not modelled.")
T["C57"] = (Q, ["c57_nv_planar_agree_partial", "c57_sse_wide_columns_agree", "c57_nv21_is_swapped_nv12", "c57_sse_nv12_wrong_blue"], "Chroma order: proved everywhere. Layout: proved for AVX2, for no vector extensions and for the columns of the 16-pixel steps on SSE4.1; false in the last columns on SSE4.1 (witness: Cb is scaled with the coefficient of Cr).")
T["C58"] = (Q, ["c58_nv_cpu_agreement_partial", "c58_nv_accuracy_partial", "c58_sse_nv12_differs"], "Proved for luma not below black, on SSE4.1 in limited range outside 128..143 and, for 4:2:0 on SSE4.1, in the columns of the 16-pixel steps; false otherwise (witnesses here and in C53).")
T["C59"] = (P, ["c59_x86_encode", "c59_plain_is_scalar", "c59_source_pixels_only"], "Processor classes AVX2, SSE4.1, none; AVX-512, NEON and WebAssembly kernels are not modelled.")
T["C60"] = (P, ["c60_avx2_sse_equal", "c60_cpu_agreement", "c60_cpu_accuracy", "c60_vector_differs"], "")
T["C61"] = (Q, ["c61_nominal_range_partial", "c61_vector_chroma_below_nominal", "c61_vector_white_above_nominal"], "Proved with subsampling and for luma except the FCC matrix. The vector code gives chroma 15 in 4:4:4 and luma 236 for FCC white (witnesses); it never exceeds those.")
T["C62"] = (Q, ["c62_gray_neutral", "c62_luma_monotone", "c62_black_white", "c61_vector_white_above_nominal"], "Everything proved for all inputs, except that limited-range FCC white is 236 with vector extensions (proved).")
T["C63"] = (Q, ["c63_x86_round_trip_partial"], "When the decoding processor has only SSE4.1 and the range is limited, pixels whose luma is 128..143 are excluded: that decoder gets them wrong (C55).")
T["C64"] = (P, ["c64_x86_nv_encode", "c64_source_pixels_only", "c64_avx2_sse_equal", "c64_plain_is_scalar"], "Exact frames for AVX2, SSE4.1 and plain processors.")
T["C65"] = (P, ["c65_nv_planar_agree", "c65_nv21_is_swapped_nv12"], "For processors with vector extensions; without them see C21.")
T["C66"] = (P, ["c66_nv_cpu_agreement", "c66_nv_cpu_accuracy", "c66_nv_gray_neutral"], "")
T["C67"] = (Q, ["c67_nv_nominal_range_partial", "c67_nv_below_nominal", "c67_nv_round_trip_partial"], "False as stated: the vector code stores chroma 15 (4:4:4) and FCC white 236 (witness), and an SSE4.1 decoder gets limited-range luma 128..143 wrong (C55). Proved with the bounds 15..240 / 16..236 and for the other luma values.")
T["C68"] = (P, ["c68_x86_alpha", "c68_alpha_stored", "c68_avx2_same_colours", "c68_straight_agreement", "c68_plain_is_scalar"], "Processor classes AVX2, SSE4.1, none; AVX-512, NEON and WebAssembly kernels are not modelled.")
T["C69"] = (Q, ["c69_premultiplied_partial", "c69_transparent_is_black", "c69_sse_white_is_black", "c69_sse_zero_comes_back", "c69_avx2_tail_wraps"], "Transparent pixels: proved. Accuracy: proved without vector extensions, in the 32-pixel steps of AVX2 and for components that are not saturated; false otherwise (witnesses: on SSE4.1 opaque white becomes black).")
T["C70"] = (Q, ["c70_colour_le_alpha_partial", "c70_opaque_unchanged_partial", "c70_sse_exceeds_alpha", "c70_avx2_opaque_changes"], "Proved with the exceptions of C69; false there, and on AVX2 opaque components from 128 up lose one (witnesses).")
T["C71"] = (Q, ["c71_x86_gray", "c71_plain_is_scalar", "c71_avx2_agrees", "c71_cpu_agreement_partial", "c71_avx2_accuracy", "c71_black_white", "c71_avx2_monotone", "c71_sse_black_is_white", "c71_sse_position_dependent"], "Frames exact on all processors; agreement, accuracy and monotonicity proved for AVX2 without restriction. On SSE4.1 agreement is proved for the samples the signed subtraction handles, false for the others (witnesses).")
T["C72"] = (Q, ["c72_x86_gray_alpha", "c72_plain_is_scalar", "c72_avx2_is_sse", "c72_cpu_agreement_partial", "c72_black_is_white"], "Frames exact, alpha unchanged, AVX2 and SSE4.1 identical. Agreement with the scalar code fails in up to eight columns for samples outside the safe ones (witness).")
T["C73"] = (Q, ["c73_x86_to_gray", "c73_plain_is_scalar", "c73_sse_agreement", "c73_cpu_agreement_partial", "c73_same_as_colour_partial", "c73_full_round_trip", "c73_avx2_half_is_black"], "Frames exact; everything proved without AVX2. On AVX2 the columns of LostColumn are 0 (witness), the rest is proved.")
T["C74"] = (P, ["c74_x86_shuffle", "c74_cpu_agreement", "c74_round_trip"], "Every public shuffle is between different layouts; between equal layouts with alpha the table would swap red and blue (example).")
T["C75"] = (P, ["c75_plain_is_scalar", "c75_x86_gbr", "c75_avx2_is_sse", "c75_full_agreement", "c75_cpu_agreement", "c75_accuracy", "c75_round_trip"], "The GBR encoder has no vector kernel: its AVX2 and SSE4.1 variants are the generic code compiled with other target features.")
T["C76"] = (P, ["c76_pack422", "c76_pack420", "c76_agree"], "Both samplings, exact frames, every processor.")
T["C77"] = (Q, ["c77_pack444_exact", "c77_pack444_partial", "c77_pack444_sse_blocks_partial", "c77_pack444_unwritten", "c77_avx2_zero_chroma", "c77_half_zero_chroma", "c77_white_not_white"], "The code violates the property for frames of more than 16 columns. Proved: the exact frame on every processor; the property without vector code or up to 16 columns; which pairs are never written, which get zero chroma; a white frame that does not stay white.")
T["C78"] = (Q, ["c78_unpack422_exact", "c78_unpack444_exact", "c78_unpack420_exact", "c78_unpack422_partial", "c78_unpack444_partial", "c78_roundtrip422_partial", "c78_unwritten", "c78_420_chroma_row", "c78_witness"], "Exact frames for every processor and size. The property itself fails: for even widths above 16 the columns from the last multiple of 16 on are never written, and 4:2:0 chroma comes from the other row of each pair (c78_unwritten, c78_420_chroma_row, c78_witness). Proved where the code is right. The Cr plane of an image of odd width must not be padded (see C35).")
T["C79"] = (Q, ["c79_plain_is_scalar", "c79_x86_exact", "c79_agree_full", "c79_agree_partial", "c79_divergence", "c79_close_partial", "c79_differ"], "Exact frame for every processor, width and content; full agreement in full range; agreement in limited range when no luma sample is below 16; the processors are never more than 19 steps apart. Partial because the property fails: the vector code takes luma below the offset for the offset, the scalar code does not (c79_differ).")
T["C80"] = (P, ["c80_x86_packed", "c80_sse_is_scalar", "c80_alpha_stored", "c80_straight_agreement"], "All processor classes, all images.")
T["C81"] = (Q, ["c81_premultiplied_partial", "c81_opaque_unchanged_partial", "c81_transparent_is_black", "c81_wide_columns", "c81_avx2_wraps", "c81_avx2_zero_comes_back"], "The claim is false on AVX2 in the last pixels of a row (up to 32; all pixels of a narrow image) for saturated components; witnesses are proved. Everything else is proved.")
T["C82"] = (P, ["c82_x86_encode", "c82_agreement", "c82_sample", "c82_round_trip"], "AVX2 kernel modelled per plane; exact planes, agreement of processors, round trip.")
T["C83"] = (P, ["c83_deep_decode", "c83_plain_is_portable", "c83_same_buffers", "c83_representation"], "Exact frames for every processor class and content.")
T["C84"] = (Q, ["c84_cpu_agreement_partial", "c84_avx2_portable_partial", "c84_avx2_full_range", "c84_itu", "c84_below_black", "c84_violated_below_black", "c84_violated_beyond_depth"], "Proved for samples of the depth with luma not below black (and without condition in full range with samples in the high bits). The code violates the property otherwise: luma below black is taken for black (299 code values at 12 bits), words beyond the depth wrap (white becomes black); witnesses are proved.")
T["C85"] = (P, ["c85_deep8_decode", "c85_plain_is_portable", "c85_same_buffers", "c85_representation"], "Exact frames for every processor class and content.")
T["C86"] = (Q, ["c86_cpu_agreement_partial", "c86_vec_below", "c86_itu", "c86_alpha_not_opaque", "c86_violated_white", "c86_violated_below_black"], "Proved for colours of legal samples without overflow (the vector code is never above the rounded value and at most one below). The code violates the property otherwise: the vector code stores alpha 3 or 15 in every odd column it does, bright colours wrap in the scalar columns only, luma below black is taken for black; proved for every image or with witnesses.")
T["C87"] = (P, ["c87_deep_alpha", "c87_plain_is_portable", "c87_representation"], "Exact frames for every processor class and content.")
T["C88"] = (Q, ["c88_agreement_partial", "c88_avx2_alpha_shifted", "c88_violated_alpha", "c88_violated_position"], "Colours proved for legal samples; alpha proved without AVX2, at 14 and 16 bits, and up to 32 columns. The code violates the property otherwise: AVX2 stores in the right half of every block of 32 pixels the alpha of the left half (proved for every image 33 or more pixels wide), and luma below black is decoded differently by column.")
T["C89"] = (Q, ["c89_deep8_alpha_partial", "c89_plain_is_portable", "c89_stores_outside", "c89_safe_widths"], "Proved for the widths the 16-pixel store of the 8-pixel SSE4.1 loop can deal with and without padding for 4:2:2. The code violates the property otherwise: for every other width the store leaves the destination row, proved for every 4:2:0 image and for unpadded destinations of the others.")
T["C90"] = (Q, ["c90_agreement_partial", "c90_avx2_alpha_shifted", "c90_violated_alpha", "c90_large_alpha"], "Proved for legal samples without overflow, alpha without AVX2 or up to 32 columns and for alpha words below 32768. The code violates the property otherwise: AVX2 repeats the alpha of the left half block, large alpha words count as negative.")
T["C91"] = (P, ["c91_nv_deep_decode", "c91_plain_is_portable", "c91_same_buffers", "c91_representation"], "Exact frames for every processor class and content.")
T["C92"] = (Q, ["c92_own_chroma_partial", "c92_grey_image_partial", "c92_grey_columns", "c92_grey_columns_444", "c92_violated"], "Proved for legal samples in the columns where the vector code uses the chroma of the column, and for images without colour. The code violates the property otherwise: the vector code adds two chroma samples in half of the columns and none in the other half, so those are grey whatever the image (proved for every image).")
T["C93"] = (P, ["c93_x86_deep_encode", "c93_scalar"], "Exact planes for both vector processor classes; plain processors and SSE4.1 at 16 bits run the scalar code of C30. In 4:2:0 images of odd width 16-bit full-range BT.601 is excluded because the scalar code of the last column overflows there (C30).")
T["C94"] = (Q, ["c94_x86_deep_values_partial", "c94_luma", "c94_chroma", "c94_420_chroma_differs", "c94_sse_420_green_of_row_above", "c94_avx2_16bit_white_is_black"], "Proved for AVX2 at all depths and samplings, and for SSE4.1 in 4:4:4 and 4:2:2, except 16-bit full-range BT.601. The code violates the property otherwise: SSE4.1 in 4:2:0 computes the luma of every second row with the green of the row above, and 16-bit full-range BT.601 wraps.")
T["C95"] = (P, ["c95_round_trip"], "16-bit full-range BT.601 is excluded: its sums overflow (C30).")
T["C96"] = (P, ["c96_prof_encode", "c96_prof_nv_encode", "c96_source_pixels_only", "c96_avx2_sse_equal", "c96_nv_avx2_sse_equal", "c96_nv_planar_agree", "c96_nv21_is_swapped_nv12"], "Model/X86Prof: AVX2 and SSE4.1 kernels of the professional mode through the generic encoder of Model/X86Parts.")
T["C97"] = (P, ["c97_cpu_agreement", "c97_nv_cpu_agreement", "c97_cpu_accuracy", "c97_nominal_range", "c97_chroma_differs"], "c97_chroma_differs: the bound of one code value is attained.")
T["C98"] = (P, ["c98_fast_encode", "c98_fast_nv_encode", "c98_source_pixels_only", "c98_avx2_sse_equal", "c98_nv_avx2_sse_equal", "c98_nv_planar_agree", "c98_nv21_is_swapped_nv12"], "Model/X86Fast: AVX2 and SSE4.1 kernels of the fast mode through the generic encoder of Model/X86Parts.")
T["C99"] = (Q, ["c99_cpu_agreement", "c99_nv_cpu_agreement", "c99_cpu_accuracy_partial", "c99_bt2020_wraps", "c99_bt2020_white_black"], "Violated: the luma sum of BT.2020 in full range passes 16 bits, white becomes black (c99_bt2020_white_black); every luma of that table is given by c99_bt2020_wraps.")
T["C100"] = (P, ["c100_x86_prof_nv_decode", "c100_nv21_is_swapped_nv12"], "Model/X86NvModes: AVX2 and SSE4.1 kernels of the professional mode, generic semi-planar row handler.")
T["C101"] = (Q, ["c101_vector_cpus_agree", "c101_prof_cpu_agreement_partial", "c101_prof_accuracy_partial", "c101_smpte240_wrong_red", "c101_dark_luma_differs"], "Violated: the coefficient of red of SMPTE 240 in limited range passes 16 bits (c101_smpte240_wrong_red); luma below black counts as black on AVX2 and SSE4.1 only (c101_dark_luma_differs). AVX2 and SSE4.1 always agree.")
T["C102"] = (P, ["c102_x86_fast_nv_decode", "c102_nv21_is_swapped_nv12"], "Model/X86NvModes: AVX2 and SSE4.1 kernels of the fast mode, generic semi-planar row handler.")
T["C103"] = (Q, ["c103_vector_cpus_agree", "c103_fast_cpu_agreement_partial", "c103_bright_blue_wraps"], "Violated: in limited range the 16-bit sum wraps from luma 238 on (c103_bright_blue_wraps); proved for luma from black to 237, and for every luma of full range.")
T["C104"] = (P, ["c104_wasm_planar_decode", "c104_wasm_nv_decode", "c104_wasm_gray_decode", "c104_nv21_is_swapped_nv12"], "Model/Wasm: the SIMD kernels on a 32-bit target; Lemmas/Accept: good images are accepted on every target that can address them.")
T["C105"] = (Q, ["c105_wasm_planar_agreement_partial", "c105_wasm_nv_agreement_partial", "c105_wasm_gray_agreement", "c105_wasm_planar_accuracy_partial", "c105_nv24_wrong_colours", "c105_nv24_ignores_chroma", "c105_below_black_differs"], "Violated: NV24 and NV42 take both chroma samples of a pixel from one of the two (c105_nv24_wrong_colours, c105_nv24_ignores_chroma); luma below black counts as black in the vector columns only (c105_below_black_differs). Proved for the other layouts with luma not below black, and for grey images without condition.")
T["C106"] = (P, ["c106_neon_planar_decode", "c106_neon_nv_decode", "c106_neon_gray_decode", "c106_nv21_is_swapped_nv12", "c106_nv_is_planar"], "Model/Neon: the NEON kernels for balanced mode; `rdm` says whether the processor has the rounding multiply-accumulate instructions.")
T["C107"] = (Q, ["c107_neon_planar_agreement_partial", "c107_neon_nv_agreement_partial", "c107_neon_gray_agreement", "c107_neon_planar_accuracy_partial", "c107_below_black_differs"], "Violated: luma below black counts as black in the NEON code only (c107_below_black_differs: red 123 against 108). Proved for luma not below black, and for grey images without condition.")
T["C108"] = (Q, ["c108_neon_position_partial", "c108_neon_nv_position_partial", "c108_last_row_differs", "c108_last_row_differs_rdm"], "Violated: the last row of a 4:2:0 image of odd height takes green from other roundings than pairs of rows (c108_last_row_differs, c108_last_row_differs_rdm). Proved for 4:2:2 and 4:4:4, and for 4:2:0 with the rounding instructions except SMPTE 240M full range.")
T["C109"] = (P, ["c109_neon_encode", "c109_neon_nv_encode", "c109_source_pixels_only", "c109_nv_planar_agree", "c109_nv21_is_swapped_nv12"], "Model/NeonEncode; `rdm` says whether the processor has the rounding multiply-accumulate instructions.")
T["C110"] = (P, ["c110_portable_agreement", "c110_nv_portable_agreement", "c110_accuracy", "c110_nv_accuracy", "c110_nominal_range", "c110_rdm_differs"], "c110_rdm_differs shows that the two kinds of processor do differ.")
T["C111"] = (Q, ["c111_prof_encode", "c111_prof_nv_encode_partial", "c111_portable_agreement", "c111_nv_portable_agreement_partial", "c111_accuracy", "c111_nv21_is_nv12", "c111_nv21_order_wrong"], "Violated: NV21 with 4:2:0 is written in NV12 order (the subsampling is passed for the order); for even heights the result is exactly that of NV12 (c111_nv21_is_nv12), red is stored 90, 240 instead of 240, 90 (c111_nv21_order_wrong). Proved for planar images and for every other semi-planar layout.")
T["C112"] = (Q, ["c112_fast_encode", "c112_fast_nv_encode", "c112_nv_planar_agree", "c112_portable_agreement_partial", "c112_nv_portable_agreement_partial", "c112_accuracy", "c112_nv_accuracy", "c112_bt2020_white"], "Accuracy is proved for every matrix and range. Agreement is violated for luma of BT.2020 in full range, where the portable byte wraps: white is 255 with NEON and 1 without (c112_bt2020_white).")
T["C113"] = (Q, ["c113_neon_ycgco_decode", "c113_neon_ycgco_agrees_partial", "c113_neon_ycgco_colours", "c113_transparent", "c113_transparent_witness"], "Violated for alpha: with full range a 4:2:2 or 4:4:4 image decodes to pixels with alpha 0, and so does the last row of a 4:2:0 image of odd height (c113_transparent, c113_transparent_witness). The colours are right everywhere (c113_neon_ycgco_colours).")
T["C114"] = (Q, ["c114_neon_alpha_decode", "c114_alpha_stored_partial", "c114_alpha_lost", "c114_alpha_lost_witness", "c114_straight_agreement"], "The frame is exact and the colours agree for every image. Violated for alpha: with 4:2:0 and 4:2:2 sampling the second half of the last at most 16 pixels of every row has alpha 0 (c114_alpha_lost, c114_alpha_lost_witness).")
T["C115"] = (Q, ["c115_premultiplied_partial", "c115_wrong_alpha", "c115_swapped_witness"], "Violated in the groups of 32 pixels, where each half is multiplied by the alpha of the other half (c115_wrong_alpha, c115_swapped_witness), and where C114 loses the alpha; proved in all other columns.")
T["C116"] = (Q, ["c116_neon_shuffle", "c116_neon_shuffle_agrees_partial", "c116_colours_and_back", "c116_transparent", "c116_transparent_witness"], "Violated: from RGB or BGR to RGBA or BGRA the pixels after the last whole group of 16 of every row get alpha 0 (c116_transparent, c116_transparent_witness); equality is proved for every other pair of layouts and for widths that are multiples of 16, and the colours are right everywhere.")
T["C117"] = (Q, ["c117_neon_to_gray", "c117_portable_agreement_partial", "c117_same_as_colour_partial", "c117_no_offset", "c117_no_offset_witness"], "Violated in limited range without the RDM instructions: every sample of a whole group of eight pixels is 16 or 17 too dark, the last pixels of the row are right (c117_no_offset, c117_no_offset_witness). Proved with RDM and in full range.")
T["C118"] = (P, ["c118_neon_gray_alpha", "c118_portable_agreement", "c118_opaque"], "Both kernels, every width.")
T["C119"] = (P, ["c119_neon_gbr", "c119_portable_agreement", "c119_x86_agreement", "c119_round_trip"], "All three kernels, every width.")
T["C120"] = (P, ["c120_pack422", "c120_pack420", "c120_agree"], "Every width.")
T["C121"] = (Q, ["c121_pack444_exact", "c121_pack444_partial", "c121_flat_chroma_partial", "c121_wrong_columns", "c121_unwritten", "c121_witness"], "Violated in every frame of more than 16 columns: pair j of a block gets the mean of two samples 16 (or 8) columns apart (c121_wrong_columns), and the pairs after the vector code are not written (c121_unwritten); witness c121_witness. Proved for at most 16 columns, and for rows of constant chroma where the vector code runs.")
T["C122"] = (Q, ["c122_sse41", "c122_unpack422_partial", "c122_unpack444_partial", "c122_unwritten", "c122_420_chroma_row", "c122_witness"], "The NEON and SSE4.1 unpackers are proved to be the same function (c122_sse41). Violated as in C78: columns from the last multiple of 16 on are not written in even widths above 16 (c122_unwritten), 4:2:0 chroma comes from the odd rows (c122_420_chroma_row); witness c122_witness. Proved for widths up to 16 or one more than a multiple of 16.")
T["C123"] = (Q, ["c123_neon_exact", "c123_x86_near", "c123_portable_partial", "c123_divergence", "c123_close_partial", "c123_tie", "c123_dark"], "The exact frame is proved for every input. Agreement is violated: the vector code rounds ties up where everything else rounds them down (c123_tie, one step), and takes luma below the offset for the offset (c123_dark, at most 20 steps: c123_divergence). Accuracy is proved for luma not below the offset.")
T["C124"] = (P, ["c124_neon_packed", "c124_alpha_stored", "c124_straight_agreement"], "Both variants of the kernel, every width, including the last group through buffers on the stack.")
T["C125"] = (P, ["c125_premultiplied", "c125_no_wrap"], "In every column, unlike AVX2 (C81).")
T["C126"] = (P, ["c126_neon_prof_nv_decode", "c126_same_as_x86", "c126_nv21_is_swapped_nv12"], "Both kernels, every width, including the last group through buffers on the stack.")
T["C127"] = (Q, ["c127_portable_agreement_partial", "c127_accuracy_partial", "c127_smpte240_wrong_red", "c127_dark_luma_differs"], "False for SMPTE 240 in limited range (red coefficient wraps) and for luma below black; witnesses proved, everything else proved.")
T["C128"] = (P, ["c128_neon_fast_nv_decode", "c128_nv21_is_swapped_nv12"], "Both kernels, every width, including the last group through buffers on the stack.")
T["C129"] = (Q, ["c129_near_x86", "c129_portable_partial", "c129_bright_blue_wraps"], "Against x86 vector code for every image; against portable code false for luma above 237 in limited range (16-bit sums wrap) and below black; witness proved.")
T["C130"] = (P, ["c130_neon_deep8_decode", "c130_representation", "c130_opaque"], "Every width; NEON columns and the portable last one to eight columns.")
T["C131"] = (Q, ["c131_neon_below", "c131_portable_agreement_partial", "c131_itu", "c131_near_x86", "c131_violated_white", "c131_violated_below_black"], "For legal samples in the NEON columns, all depths and matrices; false against portable code for bright colours (portable wraps white to black in the last columns) and luma below black; witnesses proved.")
T["C132"] = (P, ["c132_neon_gray_deep_decode", "c132_same_as_portable"], "Every width; identical to the portable bytes.")
T["C133"] = (Q, ["c133_row_inside_partial", "c133_violated", "c133_violated_witness"], "Holds when every row of the destination holds the pixels, whatever the words; false for every destination with rows shorter than eight pixels: nothing is validated and the unchecked NEON store leaves the row (and, in the witness, the whole slice).")
T["C134"] = (P, ["c134_neon_deep_decode", "c134_representation"], "Both kernels, every width, any 16-bit words.")
T["C135"] = (Q, ["c135_portable_partial", "c135_full_range", "c135_agreement_partial", "c135_same_as_x86_partial", "c135_itu_partial", "c135_below_black", "c135_violated_below_black", "c135_violated_beyond_depth"], "Equal to the portable buffer for luma not below black (also beyond the depth) in the 32-bit kernel, unconditionally in full range for packed or 16-bit samples; within two code values and equal to the x86 buffer at 10 bits with RDM. False below black (c135_violated_below_black) and, with RDM, for words beyond the depth (c135_violated_beyond_depth).")
T["C136"] = (P, ["c136_neon_nv_deep_decode", "c136_representation"], "Both kernels, every width, any 16-bit words.")
T["C137"] = (Q, ["c137_portable_partial", "c137_msb", "c137_agreement_partial", "c137_itu_partial", "c137_itu_wide", "c137_below_black", "c137_violated_below_black", "c137_violated_beyond_depth"], "Without RDM the buffer is the portable one, luma below black included, unconditionally for samples in the most significant bits; with RDM within two code values for samples of the depth not below black. False with RDM below black (c137_violated_below_black) and without it for low-packed words from 32768 above black (c137_violated_beyond_depth).")
T["C138"] = (P, ["c138_neon_deep_encode"], "Both kernels, one and two rows. In 4:2:0 images of odd width, where the scalar code redoes the last column, 16-bit full-range BT.601 is excluded (the scalar code overflows, C30).")
T["C139"] = (Q, ["c139_neon_deep_values_partial", "c139_luma", "c139_chroma", "c139_rdm_luma_near", "c139_rdm_chroma_near", "c139_rdm_chroma_floor", "c139_rdm_yellow_cyan", "c139_16bit_white_is_black", "c139_16bit_chroma_cut"], "Holds without RDM, and at 12 to 16 bits, except 16-bit full-range BT.601 and 16-bit limited-range BT.709 and BT.2020; luma with RDM within one. False at 10 bits, limited range, with RDM: no chroma is below 257 (c139_rdm_chroma_floor, c139_rdm_yellow_cyan); white becomes black at 16 bits, full range, BT.601 (c139_16bit_white_is_black); chroma of saturated colours is cut by two at 16 bits (c139_16bit_chroma_cut).")
T["C140"] = (P, ["c140_neon_p10_decode", "c140_representation"], "Both kernels (fast and balanced share one), every width; the public functions have high-packed samples, and so has the theorem.")
T["C141"] = (Q, ["c141_portable_agreement_partial", "c141_one_below", "c141_itu", "c141_white_black", "c141_below_black", "c141_violated_below_black", "c141_violated_smpte240", "c141_grey_one_below"], "Holds, as equal or one below, for luma not below black, except SMPTE 240M in limited range in the professional mode. False below black (c141_violated_below_black) and in that configuration, where the weight of Cr wraps and red becomes cyan (c141_violated_smpte240).")
T["C142"] = (Q, ["c142_neon_deep8_alpha_partial", "c142_every_width"], "Full for 4:2:0 and 4:4:4 (c142_every_width); missing: 4:2:2 images with padding, where the row loop shared with other processors does not cut rows to the width and the claim is false.")
T["C143"] = (Q, ["c143_agreement_partial", "c143_itu", "c143_white_opaque", "c143_violated_big_endian", "c143_violated_white", "c143_violated_below_black"], "Holds for legal samples without overflow and little-endian alpha. False for big-endian alpha, which is converted in the columns of the NEON code only (c143_violated_big_endian), bright colours (c143_violated_white) and luma below black (c143_violated_below_black).")
T["C144"] = (P, ["c144_neon_alpha16"], "")
T["C145"] = (Q, ["c145_alpha_partial", "c145_alpha_444", "c145_colours_partial", "c145_agreement_partial", "c145_violated_lost_alpha", "c145_violated_opaque", "c145_violated_below_black"], "Alpha holds for 4:4:4 and outside the last block of columns. False for 4:2:0 and 4:2:2: the second half of the last one to eight columns, but for the last column of odd widths, is transparent in every image (c145_violated_lost_alpha). Colours hold for legal samples, within one in the 32-bit kernel and two in the 10-bit kernel with rounding multiply-accumulate; false below black (c145_violated_below_black).")
T["C146"] = (P, ["c146_neon_ar30"], "10-bit images; the 12-bit instance of the kernel is not modelled.")
T["C147"] = (Q, ["c147_green_partial", "c147_violated_transparent", "c147_violated_exchanged", "c147_violated_black"], "Holds for green with luma not below black. False otherwise: every pixel of every image is transparent (c147_violated_transparent), the two bits meant for alpha are set in a colour field (c147_violated_black), and red and blue are exchanged in RA30 (c147_violated_exchanged).")
