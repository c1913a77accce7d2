# Axioms per theorem

What Lean's `#print axioms` reports for every theorem of `MANIFEST.json`, grouped by axiom set. All names are in `Verif.Props`.

## none

* `Sequences.C115_derived_violated`
* `Flags.C142_bool_violated`
* `Literals.C162_range_violated`
* `Literals.C162_least_violated`
* `StrongTypedef.C163_not`

## propext

* `C15_byte_to_hex`
* `C48_equal_partial`
* `C48_empty_violated`
* `C50_cpp20_cycle_violated`
* `C55_min`
* `C55_max`
* `C59_pair_example_violated`
* `C71_destructor_can_start`
* `C73_qualifiers_partial`
* `C73_const_violated`
* `Matrix.C76_row_major`
* `Vector.C82_min_max_empty`
* `TypeList.C110_index_of_empty`
* `TypeList.C110_contains`
* `TypeList.C110_append_prepend`
* `FunctionView.C112_object`
* `FunctionView.C112_stateless`
* `FunctionView.C112_bool`
* `FunctionView.C112_null_function_violated`
* `FunctionView.C113_partial`
* `FunctionView.C113_rebind_violated`
* `FunctionView.C113_destroy_violated`
* `FunctionView.C113_null_violated`
* `FunctionView.C113_cycle_violated`
* `Sequences.C115_compiles_partial`
* `Sequences.C115_violated`
* `Scalar.C124_abs_violated`
* `PointerCast.C135_null`
* `VectorStore.C137_empty_span_violated`
* `IntVector.C139_short_product_violated`
* `IntVector.C139_shift_violated`
* `TypeName.C140_zero_violated`
* `IntMatrix.C144_assign`
* `PoolLifetime.C146_memory_violated`
* `PoolLifetime.C146_moved`
* `PointerRange.C158_from_end_violated`
* `TaskStorage.C160_lvalue_violated`
* `TaskStorage.C160_batch_lvalue_violated`
* `TaskStorage.C160_batch_index_violated`
* `StrongTypedef.C163_narrow_violated`
* `StrongTypedef.C163_violated`
* `StrongTypedef.C163_copy`
* `CompressedPair.C164_order`
* `Iterators.C165_source`
* `Meta.C167_types`
* `Meta.C167_qualifiers`
* `Meta.C167_copy`
* `Meta.C167_traits`
* `Meta.C168_others`
* `MetaNumbers.C169_equivalent`
* `MetaNumbers.C169_elements`
* `MetaNumbers.C169_violated`
* `MetaPointers.C170_rank`
* `MetaPointers.C170_stars`
* `MetaPointers.C170_rebase_partial`
* `MetaPointers.C170_violated`
* `MetaPointers.C170_noexcept_partial`
* `MetaPointers.C170_noexcept_violated`
* `Macros.C176_for_each_empty`
* `Macros.C176_for_each_many`
* `Macros.C176_count_violated`

## propext, Quot.sound

* `C03_utf16_decoder_bmp_partial`
* `C07_utf_decode_stops8`
* `C07_utf_decode_stops16`
* `C07_utf_decode_stops32`
* `C08_native_endian16_reverse_partial`
* `C08_native_endian16_violated`
* `C08_native_endian32_violated`
* `C08_native_endian32_violated_general`
* `C08_native_endian16_partial`
* `C08_native_endian32_partial`
* `C09_utf8_encoder_nul_violated`
* `C10_utf16_encoder_nul_violated`
* `C11_round_trip_nul_violated`
* `C11_round_trip_swap_violated`
* `C11_transcode_16_to_32_partial`
* `C11_transcode_16_to_32_violated`
* `C12_trim_idempotent_violated`
* `C12_trim_undefined_violated`
* `C12_trim16_violated`
* `C12_trim32_violated`
* `C15_hex_to_dec`
* `C15_dec_to_hex`
* `C16_run_unique`
* `C18_bit_floor_zero`
* `C20_bit_pack`
* `C21_byte_select_index_violated`
* `C21_byte_select_byte_violated`
* `C26_sha1_finished`
* `C27_fnv1a`
* `C27_fnv1a_chunking`
* `C28_fnv1a_one_byte`
* `C29_hash_combiner`
* `C29_hash_combiner_zero`
* `C30_uuid_print`
* `C33_uuid_eq`
* `C34_uuid_version_variant`
* `C37_unbounded_violated`
* `C38_descending_from_max_violated`
* `C40_workers`
* `C45_merge_violated`
* `C46_elements`
* `C46_size_violated`
* `C47_convert_violated`
* `C48_less_violated`
* `C50_self_violated`
* `C53_neg`
* `C55_clamp`
* `C55_between_partial`
* `C55_between_violated`
* `C56_evenly_distribute`
* `C57_gcd`
* `C57_lcm_partial`
* `C57_lcm_zero_violated`
* `C57_lcm_mixed_violated`
* `C58_trim_empty_violated`
* `C58_view_nul_violated`
* `C58_view_swap_violated`
* `C58_view_supplementary_violated`
* `C66_aligned_alloc_wraps_violated`
* `C68_fnv1a_utf16_violated`
* `C68_fnv1a_utf32_violated`
* `C72_iterate`
* `C72_advance`
* `C72_retreat`
* `Vector.C80_normalized_int_partial`
* `Vector.C82_min_max`
* `Vector.C82_lerp`
* `TypeList.C110_flatten`
* `TypeList.C110_remove`
* `TypeList.C110_index_of`
* `TypeList.C111_size`
* `TypeList.C111_alignment`
* `TypeList.C111_exists`
* `FunctionView.C113_violated`
* `Sequences.C115_layout`
* `VectorStore.C137_broadcast`
* `IntVector.C139_dot_violated`
* `TypeName.C140_arrays_violated`
* `TypeName.C140_variadic_violated`
* `MatrixStore.C143_assign`
* `MatrixStore.C143_broadcast`
* `IntMatrix.C144_determinant_violated`
* `IntMatrix.C144_determinant_sign_violated`
* `PoolLifetime.C146_construction`
* `PoolLifetime.C146_completes`
* `PoolLifetime.C146_throws_partial`
* `PoolLifetime.C146_throws_violated`
* `PoolLifetime.C146_ownership`
* `PoolLifetime.C146_destroyed_violated`
* `PoolLifetime.C146_self`
* `PoolOrder.C159_destroyed_after_wait_violated`
* `TaskStorage.C160_temporary`
* `TaskStorage.C160_copied`
* `TaskStorage.C160_referred_partial`
* `TaskStorage.C160_accepted`
* `TaskStorage.C160_discarded`
* `TaskStorage.C160_batches`
* `StrongTypedef.C163_compare`
* `StrongTypedef.C163_arithmetic_partial`
* `StrongTypedef.C163_dangling_violated`
* `StrongTypedef.C163_assign`
* `CompressedPair.C164_construct`
* `CompressedPair.C164_write`
* `CompressedPair.C164_swap`
* `Iterators.C165_arrays`
* `Iterators.C165_distance`
* `Meta.C167_any_partial`
* `Meta.C167_violated`
* `Meta.C168_numbers`
* `MetaNumbers.C169_inverse`
* `MetaNumbers.C169_copy`
* `MetaNumbers.C169_sized`
* `MetaPointers.C170_traits`
* `MetaNumbers.C171_sum`
* `MetaNumbers.C171_size`
* `MetaNumbers.C171_order_partial`
* `MetaNumbers.C171_violated`
* `MetaNumbers.C171_floats`
* `ThreadName.C172_name_partial`
* `ThreadName.C172_violated`
* `SourceLocation.C173_tail`
* `Macros.C176_for_each`
* `Macros.C176_count_partial`
* `Macros.C176_attributes`
* `Macros.C176_free`
* `Macros.C176_member`
* `EmplaceFail.C180_overflow_violated`
* `Limits.C192_unsigned`

## propext, Classical.choice, Quot.sound

* `C01_utf8_decoder_accepts_encoding`
* `C01_utf8_decoder_accepts_text`
* `C02_utf8_decoder_accepts_only_wellformed`
* `C02_utf8_decoder_error_iff`
* `C02_utf8_decoder_error_sticks`
* `C02_utf8_decoder_status`
* `C03_utf16_decoder_supplementary_violated`
* `C03_utf_decode16_units_violated`
* `C04_utf_decode_wellformed`
* `C04_utf_decode_wellformed_bom`
* `C05_utf_decode_arbitrary`
* `C05_utf_decode_arbitrary_reverse`
* `C06_utf_decode_reverse`
* `C06_utf_decode_reverse_bom`
* `C08_bom32`
* `C08_bom16`
* `C09_utf8_encoder_partial`
* `C09_utf8_encoder_prefix_free_partial`
* `C10_utf16_encoder_partial`
* `C10_utf16_encoder_inverse_partial`
* `C11_transcode_8_to_32`
* `C11_round_trip_partial`
* `C11_transcode_8_to_16_partial`
* `C11_transcode_32_to_8_partial`
* `C11_transcode_32_to_16_partial`
* `C11_transcode_16_to_8_partial`
* `C12_trim_left_partial`
* `C12_trim_right_partial`
* `C12_trim_partial`
* `C12_trim_idempotent_partial`
* `C12_trim16_partial`
* `C12_trim32_partial`
* `C13_is_whitespace_undefined32_violated`
* `C13_is_whitespace32_partial`
* `C13_is_whitespace_undefined16_violated`
* `C13_is_whitespace16_partial`
* `C14_is_hyphen_undefined32_violated`
* `C14_is_hyphen32_partial`
* `C14_is_hyphen_undefined16_violated`
* `C14_is_hyphen16_partial`
* `C15_digit_predicates32`
* `C15_digit_predicates16`
* `C15_digit_predicates8`
* `C16_countl`
* `C16_countl128`
* `C16_countr`
* `C16_countr128`
* `C17_popcount`
* `C18_bit_floor`
* `C18_bit_floor128`
* `C18_bit_ceil`
* `C18_bit_ceil128`
* `C18_bit_width`
* `C18_has_single_bit`
* `C19_byte_reverse16`
* `C19_byte_reverse32`
* `C19_byte_reverse64`
* `C19_byte_reverse128`
* `C19_byte_reverse_involutive`
* `C20_byte_select`
* `C20_swizzle`
* `C21_byte_select_partial`
* `C22_bit_fill`
* `C23_apply_alignment`
* `C23_apply_alignment_monotone`
* `C24_sha1_fips`
* `C25_sha1_chunking`
* `C30_uuid_round_trip`
* `C30_uuid_parse_print`
* `C31_uuid_parse_wellformed_partial`
* `C31_uuid_parse_utf8`
* `C31_uuid_parse_utf32`
* `C31_uuid_parse_utf16`
* `C31_uuid_parse_swapped_violated`
* `C31_uuid_parse_truncated_violated`
* `C31_uuid_parse_utf32_partial`
* `C32_uuid_fields`
* `C32_uuid_fields5`
* `C32_uuid_of_fields`
* `C32_uuid_layout`
* `C33_uuid_to_int_paths`
* `C33_uuid_to_int`
* `C33_uuid_int_inverse`
* `C33_uuid_compare_paths`
* `C33_uuid_order`
* `C33_uuid_total_order`
* `C33_uuid_bool`
* `C34_uuid_generate`
* `C34_uuid_named`
* `C34_uuid_named_sha1`
* `C35_task_life`
* `C35_all_destroyed`
* `C35_no_undefined_behaviour`
* `C35_never_lost`
* `C36_wait`
* `C37_queue_fifo_partial`
* `C37_queue_fifo_pow2`
* `C37_bounded`
* `C38_for_each_index_partial`
* `C38_for_each_to_partial`
* `C38_signed_overflow_violated`
* `C39_for_each_container`
* `C40_queue_size_partial`
* `C40_queue_size_violated`
* `C40_create_partial`
* `C41_no_start_after_workers_stop`
* `C41_destroyed`
* `C42_mutual_exclusion`
* `C42_no_data_race`
* `C42_acquires_iff_free`
* `C42_acquired_by_exchange`
* `C42_free_can_be_acquired`
* `C43_blob_partial`
* `C43_self_assign_violated`
* `C44_emplacement_array`
* `C45_min_max`
* `C45_samples`
* `C45_merge_empty_violated`
* `C45_merge_partial`
* `C46_size_partial`
* `C46_pairs_partial`
* `C46_empty_violated`
* `C46_union`
* `C46_union_violated`
* `C47_subviews_partial`
* `C47_checked`
* `C49_construct`
* `C49_substrings_partial`
* `C49_seam`
* `C49_lowest_violated`
* `C50_compare_partial`
* `C50_cpp20_violated`
* `C51_history_partial`
* `C51_read_back_partial`
* `C51_negative_violated`
* `C51_misaligned_violated`
* `C52_exact`
* `C52_round_trip_partial`
* `C52_subnormal_violated`
* `C52_truncates_partial`
* `C52_special_partial`
* `C52_nearest_violated`
* `C52_large_violated`
* `C52_small_violated`
* `C53_abs`
* `C53_classify`
* `C54_reference`
* `C54_once`
* `C54_dismissed`
* `C54_dismissal`
* `C58_history_partial`
* `C58_move_empty_violated`
* `C59_pair_round_trip_partial`
* `C59_pair_violated`
* `C59_pack3_signs_partial`
* `C59_unpack3_partial`
* `C59_unpack3_violated`
* `C59_pack2_partial`
* `C59_pack2_violated`
* `C60_is_letter32`
* `C60_is_letter16`
* `C61_is_number32`
* `C61_is_number16`
* `C62_is_combining_mark32`
* `C62_is_combining_mark16`
* `C63_is_lowercase_supplementary_violated`
* `C63_is_lowercase32_partial`
* `C63_is_lowercase16`
* `C64_is_uppercase_undefined32_violated`
* `C64_is_uppercase_supplementary_violated`
* `C64_is_uppercase32_partial`
* `C64_is_uppercase_undefined16_violated`
* `C64_is_uppercase16_partial`
* `C65_is_whitespace8`
* `C65_is_hyphen8`
* `C65_is_letter8`
* `C65_is_number8`
* `C65_is_lowercase8`
* `C65_is_uppercase8`
* `C66_aligned_alloc_partial`
* `C67_sha1_long_violated`
* `C68_fnv1a_utf16_partial`
* `C68_sha1_text_partial`
* `C68_fnv1a_utf32_partial`
* `C68_fnv1a_utf32_native_partial`
* `C68_sha1_utf32_partial`
* `C68_fnv1a_text_partial`
* `C69_no_lost_wakeup`
* `C70_can_finish_work`
* `C71_destructor_can_complete`
* `C72_signed_offset_partial`
* `C72_signed_offset_violated`
* `C72_distance_partial`
* `C72_distance_violated`
* `C74_compare`
* `Matrix.C75_product`
* `Matrix.C75_vectors`
* `Matrix.C75_assoc`
* `Matrix.C75_compose`
* `Matrix.C75_identity`
* `Matrix.C76_row_major_common`
* `Matrix.C76_transpose`
* `Matrix.C77_determinant`
* `Matrix.C77_determinant_mul`
* `Matrix.C78_invert`
* `Matrix.C78_solve`
* `Vector.C79_dot`
* `Vector.C79_distance`
* `Vector.C79_length_partial`
* `Vector.C79_length_violated`
* `Vector.C80_normalize_partial`
* `Vector.C80_normalize_violated`
* `Vector.C80_normalized_float`
* `Vector.C80_normalized_int_violated`
* `Vector.C81_cross`
* `Vector.C81_cross_axis`
* `Vector.C81_orthogonal`
* `Vector.C82_clamp`
* `Vector.C82_angle`
* `Transform.C83_affine`
* `Transform.C83_without_translating`
* `Transform.C83_homogeneous`
* `Transform.C83_compose`
* `Transform.C83_scale_translation`
* `Transform.C83_2d`
* `Transform.C83_direction`
* `Transform.C83_extract_scale`
* `Transform.C83_extract_scale_2d`
* `Transform.C84_from_rotation`
* `Transform.C84_from_rotation_2d`
* `Transform.C84_orthonormalize`
* `Transform.C84_orthonormalize_sign`
* `Transform.C84_orthonormalize_fixed`
* `Transform.C84_orthonormalized`
* `Transform.C84_orthonormalized_iff`
* `Transform.C85_from_direction`
* `Transform.C85_from_direction_rest`
* `Transform.C85_constants`
* `Transform.C86_perspective_partial`
* `Transform.C86_left_handed_violated`
* `Transform.C86_screen_size_partial`
* `Transform.C86_screen_size_violated`
* `Quat.C87_algebra`
* `Quat.C87_normalize`
* `Quat.C87_rotate`
* `Quat.C87_compose`
* `Quat.C87_matrix`
* `Quat.C87_matrix_rest`
* `Quat.C88_from_axis_angle`
* `Quat.C88_matrix`
* `Quat.C88_to_axis_angle`
* `Quat.C89_from_euler_partial`
* `Quat.C89_single_axis_partial`
* `Quat.C89_signs`
* `Quat.C89_local_axes_violated`
* `Quat.C89_matrix`
* `Quat.C90_to_euler_partial`
* `Quat.C90_poles`
* `Quat.C90_band_violated`
* `Quat.C90_band_error`
* `QuatInterp.C91_from_matrix`
* `QuatInterp.C91_round_trip`
* `QuatInterp.C92_from_rotation_partial`
* `QuatInterp.C92_lengths_violated`
* `QuatInterp.C93_scale`
* `QuatInterp.C93_power`
* `QuatInterp.C93_slerp_partial`
* `QuatInterp.C93_slerp_ends`
* `QuatInterp.C93_slerp_close`
* `QuatInterp.C93_slerp_close_speed`
* `QuatInterp.C93_slerp_speed_violated`
* `QuatInterp.C93_slerp_reverse`
* `Geometry.C94_construct`
* `Geometry.C94_from_triangle`
* `Geometry.C94_project`
* `Geometry.C94_project_segment`
* `Geometry.C94_origin`
* `Geometry.C94_contains`
* `Geometry.C94_normalize`
* `Geometry.C94_same_side`
* `Geometry.C94_transform_partial`
* `Geometry.C94_transform_violated`
* `Geometry.C95_meets`
* `Geometry.C95_inverted`
* `Geometry.C95_violated`
* `Geometry.C96_closest`
* `Geometry.C96_zero_length_violated`
* `Geometry.C96_contains`
* `Geometry.C96_contains_all`
* `Geometry.C96_contains_segment`
* `Geometry.C96_colinear`
* `Geometry.C96_coplanar_partial`
* `Geometry.C96_coplanar_violated`
* `Geometry.C96_extend`
* `Geometry.C96_midpoint`
* `Geometry.C97_normal`
* `Geometry.C97_area`
* `Geometry.C97_barycentric`
* `Geometry.C97_barycentric_inside`
* `Geometry.C97_degenerate`
* `Geometry.C97_degenerate_violated`
* `Geometry.C97_contains_inside`
* `Geometry.C97_contains_partial`
* `Geometry.C97_contains_near`
* `Geometry.C97_contains_violated`
* `Geometry.C97_contains_many`
* `Geometry.C97_centroid`
* `Boxes.C98_from_min_max`
* `Boxes.C98_from_points`
* `Boxes.C98_from_range`
* `Boxes.C98_from_sphere`
* `Boxes.C98_corner`
* `Boxes.C98_measures`
* `Boxes.C98_volume`
* `Boxes.C98_translate`
* `Boxes.C98_scale`
* `Boxes.C98_transform`
* `Boxes.C98_append`
* `Boxes.C98_append_many`
* `Boxes.C98_append_box`
* `Boxes.C98_closest`
* `Boxes.C98_contains`
* `Boxes.C98_contains_all`
* `Boxes.C98_contains_segment`
* `Boxes.C98_contains_triangle`
* `Boxes.C99_box`
* `Boxes.C99_contains_box`
* `Boxes.C99_plane`
* `Boxes.C99_sphere`
* `Boxes.C99_contains_sphere`
* `Boxes.C99_sphere_contains`
* `Boxes.C100_segment`
* `Boxes.C101_triangle_partial`
* `Boxes.C101_degenerate`
* `Boxes.C101_violated`
* `Sphere.C102_measures`
* `Sphere.C102_translate`
* `Sphere.C102_scale`
* `Sphere.C102_contains`
* `Sphere.C102_closest_partial`
* `Sphere.C102_closest_violated`
* `Sphere.C102_contains_sphere_partial`
* `Sphere.C102_contains_concentric_partial`
* `Sphere.C102_contains_grown_partial`
* `Sphere.C102_contains_sphere_violated`
* `Sphere.C102_intersects_partial`
* `Sphere.C102_intersects_violated`
* `Sphere.C103_no_misses`
* `Sphere.C103_triangle_partial`
* `Sphere.C103_violated`
* `Obb.C104_corner`
* `Obb.C104_volume`
* `Obb.C104_translate`
* `Obb.C104_scale`
* `Obb.C104_transform_partial`
* `Obb.C104_transform_violated`
* `Obb.C104_transform_flat_violated`
* `Obb.C105_contains`
* `Obb.C105_closest`
* `Obb.C105_sphere`
* `Obb.C105_triangle_partial`
* `Obb.C105_triangle_violated`
* `Obb.C105_aligned`
* `Obb.C106_directions_partial`
* `Obb.C106_no_misses`
* `Obb.C106_parallel_partial`
* `Obb.C106_violated`
* `Obb.C106_aligned_partial`
* `Obb.C106_aligned_violated`
* `Ray.C107_at`
* `Ray.C107_plane_partial`
* `Ray.C107_plane_violated`
* `Ray.C107_triangle_partial`
* `Ray.C107_triangle_behind_violated`
* `Ray.C107_triangle_small_violated`
* `Ray.C107_infinity_partial`
* `Ray.C107_infinity_violated`
* `Ray.C108_sphere_partial`
* `Ray.C108_sphere_inside_violated`
* `Ray.C108_sphere_touch_violated`
* `Ray.C108_box_partial`
* `Ray.C108_box_violated`
* `TypeList.C109_slice`
* `TypeList.C109_slice_rest`
* `TypeList.C109_select`
* `TypeList.C109_page_size`
* `TypeList.C111_other`
* `Sequences.C114_sequence`
* `Sequences.C114_product`
* `Sequences.C115_accessors_partial`
* `ConstMath.C116_floor_partial`
* `ConstMath.C116_ceil_partial`
* `ConstMath.C116_violated`
* `ConstMath.C117_sqrt_partial`
* `ConstMath.C117_special`
* `ConstMath.C117_large_violated`
* `ConstMath.C117_small_violated`
* `ConstMath.C118_cos`
* `ConstMath.C118_sin`
* `ConstMath.C118_exact`
* `ConstMath.C119_tan`
* `ConstMath.C119_undefined`
* `ConstMath.C120_asin_partial`
* `ConstMath.C120_acos_partial`
* `ConstMath.C120_domain`
* `ConstMath.C120_double`
* `ConstMath.C121_atan`
* `ConstMath.C121_atan2_partial`
* `ConstMath.C121_atan2_violated`
* `Angles.C122_rounding_partial`
* `Angles.C122_signed_rounding_partial`
* `ConstMath.C122_normalize`
* `ConstMath.C122_normalize_signed`
* `ConstMath.C122_unique`
* `Scalar.C122_small_violated`
* `Scalar.C122_negative_violated`
* `Scalar.C122_signed_violated`
* `Scalar.C123_interchange`
* `Scalar.C123_extended`
* `Scalar.C124_abs_partial`
* `Scalar.C125_sound`
* `Scalar.C125_complete`
* `Scalar.C125_equivalence`
* `Scalar.C125_zero_violated`
* `Scalar.C126_ends`
* `Scalar.C126_error`
* `Scalar.C126_constant_violated`
* `Constants.C127_numbers_partial`
* `Constants.C127_conversions_partial`
* `Constants.C127_exponentials_partial`
* `Constants.C127_exponentials_violated`
* `Constants.C127_e_violated`
* `Constants.C127_long_violated`
* `Constants.C128_numbers_partial`
* `Constants.C128_conversions_partial`
* `Constants.C128_exponentials_violated`
* `Constants.C128_degrees_violated`
* `Constants.C129_numbers_partial`
* `Constants.C129_exponentials_partial`
* `Constants.C129_conversions_partial`
* `Constants.C129_half_violated`
* `HalfArith.C130_add`
* `HalfArith.C130_sub`
* `HalfArith.C130_mul`
* `HalfArith.C130_div`
* `HalfArith.C130_exact`
* `HalfArith.C130_ieee`
* `HalfArith.C130_compare`
* `HalfArith.C130_integer_violated`
* `HalfArith.C131_lerp_ends`
* `HalfArith.C131_atan2_partial`
* `HalfArith.C131_atan2_violated`
* `TriTri.C132_intersects_partial`
* `TriTri.C132_far_violated`
* `TriTri.C132_missed_violated`
* `TriTri.C133_segment_partial`
* `TriTri.C133_undefined_violated`
* `Testers.C134_box`
* `Testers.C134_sphere_box`
* `Testers.C134_sphere_partial`
* `Testers.C134_sphere_violated`
* `PointerCast.C135_compiles`
* `PointerCast.C135_rejects`
* `PointerCast.C135_address`
* `PointerCast.C135_upcast`
* `PointerCast.C135_downcast`
* `PointerCast.C135_round`
* `PointerCast.C135_integers`
* `Printing.C136_vector`
* `Printing.C136_matrix`
* `Printing.C136_shapes`
* `Printing.C136_integers_partial`
* `Printing.C136_wide_violated`
* `VectorStore.C137_scalars`
* `VectorStore.C137_array`
* `VectorStore.C137_convert`
* `VectorStore.C137_concat`
* `VectorStore.C137_append`
* `VectorStore.C137_pointer`
* `VectorStore.C137_pointer_alone`
* `VectorStore.C137_span_partial`
* `VectorStore.C137_access`
* `VectorStore.C137_assign`
* `VectorStore.C137_components`
* `VectorEq.C138_same`
* `VectorEq.C138_equal_numbers`
* `VectorEq.C138_floats`
* `VectorEq.C138_integers_partial`
* `VectorEq.C138_signs_violated`
* `VectorEq.C138_int_float_partial`
* `VectorEq.C138_large_violated`
* `VectorEq.C138_symmetric`
* `VectorEq.C138_not_equal`
* `VectorEq.C138_zero`
* `VectorEq.C138_quaternions`
* `IntVector.C139_exact`
* `IntVector.C139_scalar`
* `IntVector.C139_assign`
* `IntVector.C139_wraps_partial`
* `IntVector.C139_negate`
* `IntVector.C139_sum`
* `IntVector.C139_product`
* `IntVector.C139_dot_partial`
* `IntVector.C139_cross_partial`
* `IntVector.C139_shift_left_partial`
* `IntVector.C139_shift_right_partial`
* `TypeName.C140_names_partial`
* `TypeName.C140_source`
* `TypeName.C140_integers_partial`
* `TypeName.C140_nested_violated`
* `HalfEmulated.C141_add_partial`
* `HalfEmulated.C141_sub_partial`
* `HalfEmulated.C141_mul_partial`
* `HalfEmulated.C141_div_partial`
* `HalfEmulated.C141_increment`
* `HalfEmulated.C141_nearest_violated`
* `HalfEmulated.C141_subnormal_violated`
* `HalfEmulated.C141_large_violated`
* `Flags.C142_combine`
* `Flags.C142_assign`
* `Flags.C142_flags`
* `Flags.C142_complement_partial`
* `Flags.C142_idioms_partial`
* `Flags.C142_unfixed_partial`
* `Flags.C142_unfixed_violated`
* `MatrixStore.C143_access`
* `MatrixStore.C143_columns`
* `MatrixStore.C143_convert`
* `MatrixStore.C143_equal`
* `MatrixStore.C143_zero`
* `MatrixStore.C143_arithmetic`
* `MatrixStore.C143_wraps`
* `IntMatrix.C144_product_partial`
* `IntMatrix.C144_column_partial`
* `IntMatrix.C144_row_partial`
* `IntMatrix.C144_bytes`
* `IntMatrix.C144_unsigned_violated`
* `IntMatrix.C144_determinant_partial`
* `IntMatrix.C144_byte_determinant`
* `Shear.C145_shear`
* `Shear.C145_scaled_rotation`
* `Shear.C145_zero_scale_violated`
* `PoolLifetime.C146_destroyed_partial`
* `FloatVector.C147_componentwise`
* `FloatVector.C147_scale`
* `FloatVector.C147_divide_partial`
* `FloatVector.C147_divide_power`
* `FloatVector.C147_divide_violated`
* `FloatVector.C148_sum`
* `FloatVector.C148_dot`
* `FloatVector.C148_length_squared`
* `Kahan.C149_sum`
* `Kahan.C149_half`
* `FloatLength.C150_length_partial`
* `FloatLength.C150_length_violated`
* `FloatLength.C150_distance_partial`
* `FloatLength.C150_normalize_partial`
* `FloatLength.C150_normalize_violated`
* `FloatLength.C150_normalized`
* `FloatLength.C150_normalized_sound`
* `FloatLength.C150_normalized_complete`
* `Approx.C151_vectors`
* `Approx.C151_symmetric`
* `Approx.C151_reflexive_partial`
* `Approx.C151_reflexive_violated`
* `Approx.C151_zero`
* `Approx.C151_matrices`
* `Approx.C151_quaternions`
* `Approx.C151_shapes`
* `Approx.C151_plane_sphere_partial`
* `Approx.C151_plane_sphere_violated`
* `Approx.C151_zero_shapes`
* `Approx.C151_sphere_zero_violated`
* `Approx.C151_integers_partial`
* `Approx.C151_integers_violated`
* `Approx.C151_integers_exact`
* `Swizzle.C152_swizzle`
* `Swizzle.C152_compose`
* `Swizzle.C152_identity`
* `Swizzle.C152_named`
* `FloatCross.C153_cross`
* `FloatCross.C153_antisymmetric`
* `FloatCross.C153_self_partial`
* `FloatCross.C153_self_violated`
* `FloatCross.C153_axis`
* `FloatCross.C153_axis_vector`
* `FloatCross.C153_orthogonal`
* `FloatCross.C153_lerp_ends`
* `FloatCross.C153_lerp`
* `FloatMatrix.C154_product`
* `FloatMatrix.C154_assign`
* `FloatMatrix.C154_column`
* `FloatMatrix.C154_row`
* `FloatMatrix.C154_exact`
* `FloatMatrix.C154_integers`
* `FloatMatrix.C154_identity`
* `FloatMatrix.C154_without_translating`
* `FloatMatrix.C154_position`
* `FloatMatrix.C154_position3`
* `FloatQuat.C155_dot`
* `FloatQuat.C155_product`
* `FloatQuat.C155_conjugate`
* `FloatQuat.C155_rotate`
* `FloatQuat.C155_turned`
* `FloatQuat.C155_normalize_partial`
* `FloatQuat.C155_normalize_violated`
* `FloatQuat.C155_normalized`
* `FloatQuat.C155_normalized_sound`
* `FloatQuat.C155_identity`
* `FloatQuat.C155_identity_rotate`
* `FloatDet.C156_determinant`
* `FloatDet.C156_inverse`
* `FloatDet.C156_exact`
* `FloatDet.C156_unimodular`
* `FloatDet.C156_singular`
* `PackedFloat.C157_unpack3`
* `PackedFloat.C157_unpack2`
* `PackedFloat.C157_round_trip3_partial`
* `PackedFloat.C157_round_trip2_partial`
* `PointerRange.C158_loop`
* `PointerRange.C158_elements`
* `PointerRange.C158_pairs`
* `PointerRange.C158_moves`
* `PoolOrder.C159_no_data_race`
* `PoolOrder.C159_history`
* `PoolOrder.C159_enqueue_visible`
* `PoolOrder.C159_wait_visible`
* `PoolOrder.C159_destructor_visible`
* `HalfConvert.C161_from_number_partial`
* `HalfConvert.C161_integer`
* `HalfConvert.C161_integer_faithful_partial`
* `HalfConvert.C161_nearest_violated`
* `HalfConvert.C161_large_violated`
* `HalfConvert.C161_to_integer`
* `HalfConvert.C161_to_integer_defined`
* `HalfConvert.C161_to_wide`
* `HalfConvert.C161_bool`
* `HalfConvert.C161_native_integer`
* `Literals.C162_values`
* `Literals.C162_sizes`
* `Literals.C162_minus_partial`
* `StrongTypedef.C163_unsigned`
* `StrongTypedef.C163_prefix`
* `StrongTypedef.C163_postfix_partial`
* `StrongTypedef.C163_postfix_violated`
* `StrongTypedef.C163_pointer`
* `CompressedPair.C164_indices`
* `FloatBox.C166_contains`
* `FloatBox.C166_intersects`
* `FloatBox.C166_inclusion`
* `FloatBox.C166_closest`
* `FloatBox.C166_fit_partial`
* `FloatBox.C166_points_partial`
* `FloatBox.C166_append_partial`
* `FloatBox.C166_violated`
* `Meta.C168_exclusive`
* `BitCast.C174_bits`
* `FloatSphere.C175_sound_partial`
* `FloatSphere.C175_complete`
* `FloatSphere.C175_violated`
* `FloatSphere.C175_segment_partial`
* `FloatSphere.C175_triangle_partial`
* `FloatSphere.C175_range`
* `FloatSphere.C175_symmetric`
* `FloatSphere.C175_monotone`
* `FloatSphere.C175_center`
* `FloatSphere.C175_integers`
* `FloatSphere.C175_box_partial`
* `FloatSphere.C175_box_complete`
* `Macros.C176_version`
* `PoolFair.C177_every_task_runs`
* `PoolFair.C177_every_call_returns`
* `PoolFair.C177_destruction_completes`
* `StringLifetime.C178_memory_partial`
* `StringLifetime.C178_no_leak_partial`
* `StringLifetime.C178_view_partial`
* `StringLifetime.C178_source_view_partial`
* `StringLifetime.C178_view_violated`
* `StringLifetime.C178_destroyed_violated`
* `BlobFail.C179_history_partial`
* `BlobFail.C179_no_leak_partial`
* `BlobFail.C179_exact_partial`
* `BlobFail.C179_resize_violated`
* `BlobFail.C179_claimed_size_violated`
* `EmplaceFail.C180_history_partial`
* `EmplaceFail.C180_no_memory_violated`
* `BuildDate.C181_build_moment`
* `BuildDate.C181_build_never_wrong`
* `BuildDate.C181_build_injective`
* `BuildDate.C181_build_unknown`
* `FloatPlane.C182_distance`
* `FloatPlane.C182_same_side_partial`
* `FloatPlane.C182_position_partial`
* `FloatPlane.C182_contains`
* `FloatPlane.C182_project`
* `FloatPlane.C182_integers`
* `FloatPlane.C182_origin`
* `FloatPlane.C182_box`
* `FloatPlane.C182_same_side_violated`
* `FloatPlane.C182_position_violated`
* `FloatRay.C183_at`
* `FloatRay.C183_plane_forward`
* `FloatRay.C183_plane_found_partial`
* `FloatRay.C183_plane_point`
* `FloatRay.C183_box_partial`
* `FloatRay.C183_sphere_nan_violated`
* `FloatRay.C183_sphere_behind_violated`
* `FloatRay.C183_box_violated`
* `FloatRay.C183_plane_violated`
* `FloatTriangle.C184_centroid`
* `FloatTriangle.C184_centroid_violated`
* `FloatTriangle.C184_perimeter`
* `FloatTriangle.C184_hit_partial`
* `FloatTriangle.C184_found`
* `FloatTriangle.C184_hit_nan_violated`
* `FloatTriangle.C184_hit_behind_violated`
* `FloatTriangle.C184_area_violated`
* `FloatSegment.C185_midpoint_partial`
* `FloatSegment.C185_midpoint_violated`
* `FloatSegment.C185_closest_partial`
* `FloatSegment.C185_contains_sound_partial`
* `FloatSegment.C185_contains_complete_partial`
* `FloatSegment.C185_extend_partial`
* `FloatSegment.C185_reverse`
* `FloatSegment.C185_end_violated`
* `FloatSegment.C185_contains_violated`
* `FloatSegment.C185_short_violated`
* `FloatRotation.C186_turned`
* `FloatRotation.C186_matrix`
* `FloatRotation.C186_orthogonal`
* `FloatRotation.C186_quaternion`
* `FloatRotation.C186_round_trip`
* `FloatRotation.C186_normalized`
* `FloatWeights.C187_generator`
* `FloatWeights.C187_sum`
* `FloatWeights.C187_first`
* `FloatWeights.C187_second_partial`
* `FloatWeights.C187_third_partial`
* `FloatWeights.C187_weights`
* `FloatWeights.C187_contained_partial`
* `FloatWeights.C187_found`
* `FloatWeights.C187_corners`
* `FloatWeights.C187_corner_violated`
* `FloatWeights.C187_thin_violated`
* `FloatWeights.C187_edge_violated`
* `FloatWeights.C187_contained_violated`
* `FloatNormal.C188_normal`
* `FloatNormal.C188_coplanar`
* `FloatNormal.C188_contains`
* `FloatNormal.C188_found`
* `FloatNormal.C188_contained_partial`
* `FloatNormal.C188_corners`
* `FloatNormal.C188_small_violated`
* `FloatNormal.C188_large_violated`
* `FloatSpheres.C189_sound`
* `FloatSpheres.C189_found_partial`
* `FloatSpheres.C189_common`
* `FloatSpheres.C189_symmetric`
* `FloatSpheres.C189_self`
* `FloatSpheres.C189_inside`
* `FloatSpheres.C189_contained_partial`
* `FloatSpheres.C189_integers`
* `FloatSpheres.C189_apart_violated`
* `FloatSpheres.C189_out_violated`
* `FloatSpheres.C189_small_violated`
* `FloatObb.C190_contains`
* `FloatObb.C190_box`
* `FloatObb.C190_sound`
* `FloatObb.C190_found`
* `FloatObb.C190_segment`
* `FloatObb.C190_triangle`
* `FloatObb.C190_range`
* `FloatObb.C190_center`
* `FloatObb.C190_closest`
* `FloatObb.C190_nearest`
* `FloatObb.C190_corner`
* `FloatObb.C190_margin_needed`
* `FloatObb.C190_range_needed`
* `FloatObbs.C191_sphere_sound`
* `FloatObbs.C191_sphere_found`
* `FloatObbs.C191_sphere_near`
* `FloatObbs.C191_inside_sound`
* `FloatObbs.C191_inside_found`
* `FloatObbs.C191_range`
* `FloatObbs.C191_from_obb`
* `FloatObbs.C191_margin_needed`
* `Limits.C192_signed`
* `Limits.C192_float128`
* `Limits.C192_half`
* `Limits.C192_digits`
* `Limits.C192_epsilon`
* `Limits.C192_epsilon_nearest`
* `Limits.C192_characters`
* `Limits.C192_integers`
* `Limits.C192_half_constants`
