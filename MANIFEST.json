{
 "claims": [
  {
   "property": "C01",
   "status": "proved",
   "theorems": [
    "Meds.C01_written_file_opens",
    "Meds.C01_cutouts_read_back"
   ],
   "note": ""
  },
  {
   "property": "C02",
   "status": "proved",
   "theorems": [
    "Meds.C02_mosaic_is_stack",
    "Meds.C02_written_mosaics"
   ],
   "note": ""
  },
  {
   "property": "C03",
   "status": "proved",
   "theorems": [
    "Meds.C03_storage_tiles"
   ],
   "note": ""
  },
  {
   "property": "C04",
   "status": "proved",
   "theorems": [
    "Meds.C04_epochs_are_covering_images"
   ],
   "note": ""
  },
  {
   "property": "C05",
   "status": "proved",
   "theorems": [
    "Meds.C05_catalogue_is_input",
    "Meds.C05_coadd_is_cutout_zero"
   ],
   "note": ""
  },
  {
   "property": "C06",
   "status": "proved",
   "theorems": [
    "Meds.C06_positions_recorded",
    "Meds.C06_geometry"
   ],
   "note": ""
  },
  {
   "property": "C07",
   "status": "proved",
   "theorems": [
    "Meds.C07_centre_pixel_real"
   ],
   "note": ""
  },
  {
   "property": "C08",
   "status": "proved",
   "theorems": [
    "Meds.C08_boxes_even"
   ],
   "note": ""
  },
  {
   "property": "C09",
   "status": "proved",
   "theorems": [
    "Meds.C09_slots"
   ],
   "note": ""
  },
  {
   "property": "C10",
   "status": "proved",
   "theorems": [
    "Meds.C10_read_iff",
    "Meds.C10_image_scaled",
    "Meds.C10_weight_scaled",
    "Meds.C10_stored_image",
    "Meds.C10_signal_to_noise_independent_of_scale"
   ],
   "note": ""
  },
  {
   "property": "C11",
   "status": "proved",
   "theorems": [
    "Meds.C11_psf_read_back",
    "Meds.C11_psf_list",
    "Meds.C11_psf_storage_tiles"
   ],
   "note": ""
  },
  {
   "property": "C12",
   "status": "proved",
   "theorems": [
    "Meds.Maker.C12_joblib_equals_serial",
    "Meds.Maker.C12_joblib_equals_serial_2000"
   ],
   "note": ""
  },
  {
   "property": "C13",
   "status": "proved",
   "theorems": [
    "Meds.Maker.C13_parallel_positions",
    "Meds.Maker.C13_any_setting"
   ],
   "note": ""
  },
  {
   "property": "C14",
   "status": "partial",
   "theorems": [
    "Meds.C14_second_write_doubles",
    "Meds.C14_second_write_differs",
    "Meds.C14_no_epochs_partial"
   ],
   "note": "False as stated: a second write() doubles ncutout (C14_second_write_doubles). C14_no_epochs_partial is what remains true."
  },
  {
   "property": "C15",
   "status": "partial",
   "theorems": [
    "Meds.C15_completes_iff",
    "Meds.C15_write_completes_partial",
    "Meds.C15_no_default_never_completes",
    "Meds.C15_counterexample"
   ],
   "note": "False as stated: a type without default value (ormask, noise) raises KeyError (C15_counterexample, C15_no_default_never_completes)."
  },
  {
   "property": "C16",
   "status": "partial",
   "theorems": [
    "Meds.C16_force_never_moves",
    "Meds.C16_positions_in_bounds_partial",
    "Meds.C16_counterexample"
   ],
   "note": "False as stated: force_into_coadd_bounds never moves a position (C16_force_never_moves, C16_counterexample)."
  },
  {
   "property": "C17",
   "status": "partial",
   "theorems": [
    "Meds.C17_bad_indices_rejected_partial",
    "Meds.C17_bad_object_rejected_partial",
    "Meds.C17_negative_object_wraps",
    "Meds.C17_far_negative_index_error",
    "Meds.C17_negative_cutout_wraps",
    "Meds.C17_counterexample"
   ],
   "note": "False for negative indices, which wrap (C17_counterexample, C17_negative_object_wraps)."
  },
  {
   "property": "C18",
   "status": "proved",
   "theorems": [
    "Meds.C18_no_cutouts",
    "Meds.Extract.C18_range_preserves_objects",
    "Meds.C18_written_in_order",
    "Meds.C18_written_psf_in_order",
    "Meds.Extract.C18_extraction_completes",
    "Meds.Extract.C18_one_psf_size_per_object_fails"
   ],
   "note": ""
  },
  {
   "property": "C19",
   "status": "proved",
   "theorems": [
    "Meds.Extract.C19_extracted_in_order",
    "Meds.Extract.C19_extraction_composes"
   ],
   "note": ""
  },
  {
   "property": "C20",
   "status": "partial",
   "theorems": [
    "Meds.Extract.C20_extra_copied_whole",
    "Meds.Extract.C20_copy_all_from_start_partial",
    "Meds.Extract.C20_counterexample"
   ],
   "note": "False as stated: extensions outside the default list are copied unshifted (C20_counterexample)."
  },
  {
   "property": "C21",
   "status": "proved",
   "theorems": [
    "Meds.C21_no_cutouts",
    "Meds.Extract.C21_numbers_preserve_objects",
    "Meds.C21_written_together",
    "Meds.C21_written_psf_together"
   ],
   "note": ""
  },
  {
   "property": "C22",
   "status": "proved",
   "theorems": [
    "Meds.Extract.C22_unknown_number_rejected",
    "Meds.Extract.C22_bad_request_rejected",
    "Meds.Extract.C22_rows_have_numbers",
    "Meds.Extract.C22_duplicates_in_file"
   ],
   "note": ""
  },
  {
   "property": "C23",
   "status": "partial",
   "theorems": [
    "Meds.Extract.C23_input_unchanged_partial",
    "Meds.Extract.C23_alias_destroys_input",
    "Meds.Extract.C23_same_name_removed",
    "Meds.Extract.C23_output_on_disk",
    "Meds.Ex.C23_counterexample_cleanup",
    "Meds.Ex.C23_counterexample_alias"
   ],
   "note": "False as stated: cleanup with equal names, or an output path that is another spelling of the input, destroys the input (two counterexamples). Proved whenever the input path does not lead through the output's directory entry."
  },
  {
   "property": "C24",
   "status": "proved",
   "theorems": [
    "Meds.Extract.C24_catalogue_copied",
    "Meds.Extract.C24_catalogue_opens"
   ],
   "note": ""
  },
  {
   "property": "C25",
   "status": "proved",
   "theorems": [
    "Meds.MEDS.C25_cweight_zeroes_foreign",
    "Meds.MEDS.C25_masking_twice",
    "Meds.MEDS.C25_singular_jacobian"
   ],
   "note": ""
  },
  {
   "property": "C26",
   "status": "partial",
   "theorems": [
    "Meds.MEDS.C26_cseg_pixels_partial",
    "Meds.MEDS.C26_counterexample"
   ],
   "note": "False as documented: sky pixels get the object's number too (C26_counterexample). The partial theorem gives every pixel of the result."
  },
  {
   "property": "C27",
   "status": "proved",
   "theorems": [
    "Meds.MEDS.C27_cweight_mosaic_is_stack",
    "Meds.MEDS.C27_cseg_mosaic_is_stack"
   ],
   "note": ""
  },
  {
   "property": "C28",
   "status": "proved",
   "theorems": [
    "Meds.MEDS.C28_interpolated_labels",
    "Meds.MEDS.C28_same_geometry",
    "Meds.MEDS.C28_singular_jacobian",
    "Meds.MEDS.C28_interpolated_mosaic"
   ],
   "note": ""
  },
  {
   "property": "C29",
   "status": "proved",
   "theorems": [
    "Meds.MEDS.C29_circular_mask"
   ],
   "note": ""
  },
  {
   "property": "C30",
   "status": "partial",
   "theorems": [
    "Meds.MEDS.C30_slow_rule_partial",
    "Meds.MEDS.C30_two_values_early_return",
    "Meds.MEDS.C30_all_sky_raises",
    "Meds.MEDS.C30_two_values_own_label",
    "Meds.MEDS.C30_list",
    "Meds.MEDS.C30_counterexample"
   ],
   "note": "False for seg maps with exactly two values, where the code returns early (C30_counterexample, C30_two_values_early_return). Proved for all other maps and for two-valued maps that contain the object's own label."
  },
  {
   "property": "C31",
   "status": "partial",
   "theorems": [
    "Meds.Uberseg.C31_tree_returns",
    "Meds.Uberseg.C31_tree_returns_nearest",
    "Meds.Uberseg.C31_fast_returns",
    "Meds.Uberseg.C31_fast_rule_partial",
    "Meds.Uberseg.C31_fast_returns_ieee",
    "Meds.Uberseg.C31_fast_rule_ieee_partial",
    "Meds.Uberseg.C31_large_counterexample",
    "Meds.Uberseg.C31_counterexample"
   ],
   "note": "The compiled tree search is fully proved for maps of any size (C31_tree_returns), by rounded distances; where float32 holds the squared diagonal (up to 2896 pixels on a side) these are the distances (C31_tree_returns_nearest, C31_fast_rule_ieee_partial), beyond that the claim is false (C31_large_counterexample). get_uberseg itself returns early for seg maps with exactly two values, where the claim is false too (C31_counterexample); C31_fast_rule_partial covers all other maps."
  },
  {
   "property": "C32",
   "status": "proved",
   "theorems": [
    "Meds.Uberseg.C32_tree_equals_python",
    "Meds.Uberseg.C32_fast_equals_slow",
    "Meds.Uberseg.C32_direct_equals_python",
    "Meds.Uberseg.C32_direct_equals_slow",
    "Meds.Uberseg.C32_ties_differ",
    "Meds.Uberseg.C32_large_stamps_differ"
   ],
   "note": "For the tree version in stamps whose squared diagonal float32 holds exactly (up to 2896 pixels on a side); C32_large_stamps_differ shows that the limit is needed, C32_ties_differ that the condition on ties is."
  },
  {
   "property": "C33",
   "status": "proved",
   "theorems": [
    "Meds.Reject.C33_criterion",
    "Meds.Reject.C33_few_images"
   ],
   "note": ""
  },
  {
   "property": "C34",
   "status": "proved",
   "theorems": [
    "Meds.Reject.C34_permutation"
   ],
   "note": ""
  },
  {
   "property": "C35",
   "status": "proved",
   "theorems": [
    "Meds.C35_split_inverts_stack"
   ],
   "note": ""
  },
  {
   "property": "C36",
   "status": "partial",
   "theorems": [
    "Meds.C36_contains_point",
    "Meds.C36_contains_bounds",
    "Meds.C36_contains_order",
    "Meds.C36_intersects",
    "Meds.C36_expand_point",
    "Meds.C36_expand_points",
    "Meds.C36_expand_bounds_partial",
    "Meds.C36_counterexample",
    "Meds.C36_expand_bounds_misses",
    "Meds.C36_expand_bounds_exactly"
   ],
   "note": "expand_bounds misses a side (C36_counterexample, C36_expand_bounds_misses), exactly when the argument sticks out on both sides in one direction (C36_expand_bounds_exactly); every other operation is proved."
  },
  {
   "property": "C37",
   "status": "proved",
   "theorems": [
    "Meds.C37_positions_convert"
   ],
   "note": ""
  },
  {
   "property": "C38",
   "status": "proved",
   "theorems": [
    "Meds.Tangent.C38_frame_orthonormal",
    "Meds.Tangent.C38_centre",
    "Meds.Tangent.C38_whole_turns",
    "Meds.Tangent.C38_same_uv",
    "Meds.Tangent.C38_injective",
    "Meds.Tangent.C38_direction_position",
    "Meds.Tangent.C38_meridian",
    "Meds.Tangent.C38_equator",
    "Meds.Tangent.C38_antipodes"
   ],
   "note": ""
  },
  {
   "property": "C39",
   "status": "partial",
   "theorems": [
    "Meds.C.C39_cutouts_agree_partial",
    "Meds.C.C39_mosaics_agree_partial",
    "Meds.C.C39_seg_agrees_partial",
    "Meds.C.C39_seg_mosaic_agrees_partial",
    "Meds.C.C39_accessors_agree_partial",
    "Meds.C.C39_counterexample",
    "Meds.C.C39_columns"
   ],
   "note": "False for files made with the package's own image_info structure: meds_open needs the columns wcs_path and sky_path, which it lacks (C39_counterexample). Proved for every file both readers open."
  },
  {
   "property": "C40",
   "status": "proved",
   "theorems": [
    "Meds.C.C40_bad_indices",
    "Meds.C.C40_bad_objects",
    "Meds.C.C40_no_stray_access",
    "Meds.C.C40_source_info"
   ],
   "note": "The catalogue arrays are never left. image_info can be: file_id has no upper check, so C40_source_info assumes ids that point into the table."
  },
  {
   "property": "C41",
   "status": "partial",
   "theorems": [
    "Meds.C.C41_epoch_zero_partial",
    "Meds.C.C41_counterexample"
   ],
   "note": "False for every epoch but the first (C41_counterexample); C41_epoch_zero_partial says what is returned."
  },
  {
   "property": "C42",
   "status": "partial",
   "theorems": [
    "Meds.C.C42_counterexample",
    "Meds.C.C42_long_enough_partial",
    "Meds.C.C42_no_terminator"
   ],
   "note": "False as stated (C42_counterexample); C42_long_enough_partial is the exact condition."
  },
  {
   "property": "C43",
   "status": "proved",
   "theorems": [
    "Meds.MakeInput.C43_least",
    "Meds.MakeInput.C43_monotone",
    "Meds.MakeInput.C43_idempotent",
    "Meds.MakeInput.C43_nearest_friendly"
   ],
   "note": ""
  },
  {
   "property": "C44",
   "status": "partial",
   "theorems": [
    "Meds.MakeInput.C44_limits_partial",
    "Meds.MakeInput.C44_max_wins",
    "Meds.MakeInput.C44_counterexample",
    "Meds.MakeInput.C44_holds_object"
   ],
   "note": "False when the minimum exceeds the maximum (C44_counterexample); proved for limits in order, the maximum always (C44_max_wins)."
  },
  {
   "property": "C45",
   "status": "proved",
   "theorems": [
    "Meds.Coadd.C45_file",
    "Meds.Coadd.C45_disjoint",
    "Meds.Coadd.C45_flag",
    "Meds.Coadd.C45_no_cutouts",
    "Meds.Coadd.C45_completes"
   ],
   "note": "For every outcome of the coadding code, which is a parameter; its stamps are assumed to have the object's box size in all planes. An object without cutouts in the input makes the whole write raise (C45_no_cutouts). C45_flag is about the real coadder."
  },
  {
   "property": "C46",
   "status": "proved",
   "theorems": [
    "Meds.Coadd.C46_zero_flags",
    "Meds.Coadd.C46_flag_meaning",
    "Meds.Coadd.C46_flags_from_tests",
    "Meds.Coadd.C46_first_failed_test"
   ],
   "note": ""
  },
  {
   "property": "C47",
   "status": "partial",
   "theorems": [
    "Meds.Coadd.C47_weight_partial",
    "Meds.Coadd.C47_not_square",
    "Meds.Coadd.C47_three_passes",
    "Meds.Coadd.C47_counterexample",
    "Meds.Coadd.C47_bmask_partial"
   ],
   "note": "False: one pass gives the zero set and its quarter turn only (C47_counterexample); the partial theorems give the result exactly, and three passes would do (C47_three_passes)."
  },
  {
   "property": "C48",
   "status": "partial",
   "theorems": [
    "Meds.Coadd.C48_effect",
    "Meds.Coadd.C48_unchanged_partial",
    "Meds.Coadd.C48_second_default",
    "Meds.Coadd.C48_counterexample"
   ],
   "note": "False: the caller's coadd dictionary loses dither_psfs (C48_counterexample); C48_effect is the exact effect, C48_unchanged_partial the harmless case."
  },
  {
   "property": "C49",
   "status": "partial",
   "theorems": [
    "Meds.Coadd.C49_check_on_partial",
    "Meds.Coadd.C49_always_raises",
    "Meds.Coadd.C49_counterexample"
   ],
   "note": "False: with the check off the function always raises (C49_always_raises); the partial theorem covers the check turned on."
  },
  {
   "property": "C50",
   "status": "partial",
   "theorems": [
    "Meds.Compare.C50_detects",
    "Meds.Compare.C50_self_partial",
    "Meds.Compare.C50_default_raises",
    "Meds.Compare.C50_counterexample"
   ],
   "note": "The detection half holds (C50_detects); the other half is false: with the default png_prefix=False no comparison ever succeeds (C50_default_raises, C50_counterexample). With png_prefix=None a file compares equal to itself (C50_self_partial), when its ids are different and the four types are readable."
  },
  {
   "property": "C51",
   "status": "partial",
   "theorems": [
    "Meds.View.C51_enough_cells",
    "Meds.View.C51_shape_partial",
    "Meds.View.C51_counterexample",
    "Meds.View.C51_tight",
    "Meds.View.C51_own_cell",
    "Meds.View.C51_refused",
    "Meds.View.C51_float_sqrt"
   ],
   "note": "The shape claim is false for 8 plots, laid out 2 by 4 (C51_counterexample); everything else is proved for every number of plots."
  },
  {
   "property": "C52",
   "status": "proved",
   "theorems": [
    "Meds.C52_accessors_agree",
    "Meds.C52_list_is_all_epochs",
    "Meds.C52_jacobian_is_wcs_jacobian"
   ],
   "note": ""
  },
  {
   "property": "C53",
   "status": "proved",
   "theorems": [
    "Meds.Maker.C53_steps_are_write",
    "Meds.Maker.C53_interrupted_write_is_prefix",
    "Meds.Maker.C53_failed_write_keeps_catalogue"
   ],
   "note": ""
  },
  {
   "property": "C54",
   "status": "partial",
   "theorems": [
    "Meds.C54_types_normalised_partial",
    "Meds.C54_unsupported_rejected",
    "Meds.C54_counterexample"
   ],
   "note": "False for a repeated 'image' (C54_counterexample)."
  },
  {
   "property": "C55",
   "status": "partial",
   "theorems": [
    "Meds.Extract.C55_counterexample",
    "Meds.Extract.C55_number_kept_partial",
    "Meds.Extract.C55_number_without_column"
   ],
   "note": "False without a number column (C55_counterexample)."
  },
  {
   "property": "C56",
   "status": "proved",
   "theorems": [
    "Meds.RoughCut.C56_kept",
    "Meds.RoughCut.C56_accepted",
    "Meds.RoughCut.C56_needs_linear",
    "Meds.RoughCut.C56_rounding"
   ],
   "note": "C56_kept: for real numbers and the exact outline of the image; C56_rounding: with every operation rounded by any monotone rounding without underflow, and any computed cosine and projection, whose errors count as non-linearity; C56_accepted is for position offset 1. Needs the sky map of the image to be nearly linear, and C56_needs_linear shows that it does."
  },
  {
   "property": "C57",
   "status": "partial",
   "theorems": [
    "Meds.Coadd.C57_test_partial",
    "Meds.Coadd.C57_central_partial",
    "Meds.Coadd.C57_symmetric",
    "Meds.Coadd.C57_counterexample"
   ],
   "note": "False for regions larger than the stamp, whose start wraps around (C57_counterexample); proved for all others."
  },
  {
   "property": "C58",
   "status": "partial",
   "theorems": [
    "Meds.Coadd.C58_flags_kept_partial",
    "Meds.Coadd.C58_counterexample"
   ],
   "note": "False: the rotated value replaces the pixel's own, which can remove the edge flag (C58_counterexample). Bad flags themselves are never lost."
  },
  {
   "property": "C59",
   "status": "proved",
   "theorems": [
    "Meds.Coadd.C59_interpolated"
   ],
   "note": ""
  },
  {
   "property": "C60",
   "status": "proved",
   "theorems": [
    "Meds.Coadd.C60_ormask"
   ],
   "note": ""
  },
  {
   "property": "C61",
   "status": "partial",
   "theorems": [
    "Meds.Coadd.C61_distinct_bits_partial",
    "Meds.Coadd.C61_exactly_when_disjoint",
    "Meds.Coadd.C61_counterexample"
   ],
   "note": "False for lists that name a bit twice, as the flags are added (C61_counterexample); C61_exactly_when_disjoint: a list works for all mask values if and only if no two of its flags have a bit in common."
  },
  {
   "property": "C62",
   "status": "partial",
   "theorems": [
    "Meds.Coadd.C62_covering_partial",
    "Meds.Coadd.C62_stale",
    "Meds.Coadd.C62_counterexample"
   ],
   "note": "False (C62_counterexample): objects written by an earlier call keep their entries and read back the pixels of other objects (C62_stale). Proved when the new range covers the earlier one."
  },
  {
   "property": "C63",
   "status": "partial",
   "theorems": [
    "Meds.C63_counts_zero_partial",
    "Meds.C63_on_top",
    "Meds.C63_empty_epoch_counterexample",
    "Meds.C63_counts_add",
    "Meds.C63_other_width_refused",
    "Meds.C63_same_images_fails",
    "Meds.C63_fresh_partial",
    "Meds.C63_old_epochs_stay",
    "Meds.C63_cleared_partial",
    "Meds.C63_counterexample",
    "Meds.Table.C63_structured_array",
    "Meds.Table.C63_structured_array_refused"
   ],
   "note": "False: an ncutout column in obj_data is copied and never reset, so the counts add up (C63_counts_add), a different number of columns is refused, and the same images never complete (C63_same_images_fails, C63_counterexample). Proved for catalogues whose counts are zero (C63_fresh_partial) or absent (C63_counts_zero_partial). C63_on_top gives every epoch of every object of the new file, for catalogues with any of the computed columns: those the input claims come first. C63_old_epochs_stay is the same for catalogues as the maker itself writes them, entry by entry. C63_cleared_partial: such a catalogue with its counts set to zero gives the exceptions and the file of the documented columns alone, but for entries of epochs no object uses. C63_structured_array carries these over to the numpy array of such a catalogue, user columns included; C63_structured_array_refused: it is refused when the number of epoch columns differs (and is not one)."
  },
  {
   "property": "C64",
   "status": "proved",
   "theorems": [
    "Meds.Columns.C64_catalogue_made",
    "Meds.Columns.C64_resized",
    "Meds.Columns.C64_user_columns_written",
    "Meds.Table.C64_catalogue_written",
    "Meds.Table.C64_same_exception"
   ],
   "note": "C64_catalogue_written runs the constructor and the whole layout (column assignments by name, trimming, resizing, start rows, PSF columns) on the structured array and shows that its columns are those of the row-by-row model, with the user's columns restricted to the rows kept; C64_same_exception covers the failures. Widths of types are left out."
  },
  {
   "property": "C65",
   "status": "partial",
   "theorems": [
    "Meds.Columns.C65_metadata_partial",
    "Meds.Columns.C65_no_metadata",
    "Meds.Columns.C65_versions_refused",
    "Meds.Columns.C65_counterexample",
    "Meds.Columns.C65_coadd_metadata",
    "Meds.Columns.C65_coadd_one_row"
   ],
   "note": "False when the metadata already have a version field, as those of a MEDS file do: the constructor raises (C65_versions_refused, C65_counterexample). Proved for all others."
  },
  {
   "property": "C66",
   "status": "partial",
   "theorems": [
    "Meds.Validate.C66_reports_partial",
    "Meds.Validate.C66_missing_table_raises",
    "Meds.Validate.C66_counterexample",
    "Meds.Table.C66_written_file_complete"
   ],
   "note": "False when object_data or image_info is missing: OSError instead of a report (C66_missing_table_raises, C66_counterexample). Proved for files that have both; C66_written_file_complete: nothing is reported for a file that the maker wrote."
  },
  {
   "property": "C67",
   "status": "proved",
   "theorems": [
    "Meds.Columns.C67_missing_column_refused",
    "Meds.Columns.C67_catalogue_accepted",
    "Meds.Columns.C67_image_info"
   ],
   "note": ""
  },
  {
   "property": "C68",
   "status": "partial",
   "theorems": [
    "Meds.Config.C68_settings_partial",
    "Meds.Config.C68_cutout_types",
    "Meds.Config.C68_extension_names",
    "Meds.Config.C68_not_a_dict",
    "Meds.Config.C68_switch",
    "Meds.Config.C68_effect",
    "Meds.Config.C68_counterexample"
   ],
   "note": "False for psf when the deprecated psf_type is given too (C68_counterexample). Proved for all other entries; the extension names are fixed."
  },
  {
   "property": "C69",
   "status": "partial",
   "theorems": [
    "Meds.Config.C69_no_effect",
    "Meds.Config.C69_counterexample",
    "Meds.Config.C69_unusable_partial"
   ],
   "note": "False: bitmask_allowed is never used (C69_no_effect, C69_counterexample). Proved for unusable_bmask set to the complement."
  },
  {
   "property": "C70",
   "status": "partial",
   "theorems": [
    "Meds.Config.C70_when_parallel_partial",
    "Meds.Config.C70_counterexample",
    "Meds.Config.C70_settings",
    "Meds.Config.C70_no_dict",
    "Meds.Config.C70_same_psfs",
    "Meds.Config.C70_same_positions",
    "Meds.Config.C70_workers",
    "Meds.Maker.C70_same_file"
   ],
   "note": "False: a joblib entry overrides use_joblib=False (C70_counterexample). That the stored PSFs and positions do not depend on it is proved; C70_settings, C70_no_dict: backend, workers and threads."
  },
  {
   "property": "C71",
   "status": "proved",
   "theorems": [
    "Meds.Config.C71_wcs_colour",
    "Meds.Config.C71_psf_colour",
    "Meds.Config.C71_columns",
    "Meds.Config.C71_write_completes",
    "Meds.Config.C71_psf_entry_needed"
   ],
   "note": ""
  },
  {
   "property": "C72",
   "status": "partial",
   "theorems": [
    "Meds.Config.C72_image_info_first_partial",
    "Meds.Config.C72_psf_wins",
    "Meds.Config.C72_header_not_used_partial",
    "Meds.Config.C72_counterexample",
    "Meds.Config.C72_size_counterexample"
   ],
   "note": "False when the PSF object has a get_wcs method: its WCS wins (C72_psf_wins, C72_counterexample); and the size of the image is set only on that WCS, not on one from image_info (C72_size_counterexample). Otherwise proved for the written file: positions and jacobians of an image come from the wcs column, with the header as fallback (C72_image_info_first_partial); with the column, headers do not matter (C72_header_not_used_partial)."
  },
  {
   "property": "C73",
   "status": "partial",
   "theorems": [
    "Meds.MakeInput.C73_lines",
    "Meds.MakeInput.C73_boxes",
    "Meds.MakeInput.C73_accepted_partial",
    "Meds.MakeInput.C73_counterexample"
   ],
   "note": "False for id files with something after the first word that is not a number: the rest is ignored (C73_counterexample). Everything else is proved."
  },
  {
   "property": "C74",
   "status": "partial",
   "theorems": [
    "Meds.C.C74_cutout_written",
    "Meds.C.C74_mosaic_written",
    "Meds.C.C74_status_partial",
    "Meds.C.C74_bad_index",
    "Meds.C.C74_counterexample"
   ],
   "note": "False: status zero also when extraction or writing fails (C74_bad_index, C74_counterexample). What is written is proved to be the Python reader's image."
  },
  {
   "property": "C75",
   "status": "proved",
   "theorems": [
    "Meds.Coadd.C75_own_epoch",
    "Meds.Coadd.C75_good_pixels"
   ],
   "note": ""
  },
  {
   "property": "C76",
   "status": "partial",
   "theorems": [
    "Meds.Derived.C76_range_partial",
    "Meds.Derived.C76_numbers",
    "Meds.Derived.C76_counterexample"
   ],
   "note": "False for composite seg maps without a number column (C76_counterexample); everything else is proved for ranges and for numbers."
  },
  {
   "property": "C77",
   "status": "partial",
   "theorems": [
    "Meds.Derived.C77_same_target_partial",
    "Meds.Derived.C77_one_jacobian_partial",
    "Meds.Derived.C77_counterexample"
   ],
   "note": "False: the target jacobian is a median over the objects of the file (C77_counterexample). The observations that enter are always the same; the coadd is the same when the target jacobian is (C77_same_target_partial), as when all objects share one jacobian (C77_one_jacobian_partial)."
  },
  {
   "property": "C78",
   "status": "partial",
   "theorems": [
    "Meds.Coadd.C78_coadd_in_order",
    "Meds.Coadd.C78_range_partial",
    "Meds.Coadd.C78_range_completes",
    "Meds.Coadd.C78_ormask_lost",
    "Meds.Coadd.C78_numbers_fail",
    "Meds.Coadd.C78_counterexample"
   ],
   "note": "False: the ormask plane is lost and extraction by number always raises once a chosen object has a coadd (C78_counterexample, C78_ormask_lost, C78_numbers_fail). Range extraction completes and keeps everything else (C78_range_completes, C78_range_partial)."
  },
  {
   "property": "C79",
   "status": "partial",
   "theorems": [
    "Meds.C.C79_values_partial",
    "Meds.C.C79_no_cat_file",
    "Meds.C.C79_completes",
    "Meds.C.C79_full_column",
    "Meds.C.C79_counterexample"
   ],
   "note": "False: the status of a missing column is never reset, so all later entries are lost (C79_counterexample, C79_no_cat_file), and a string that fills its column is written one byte beyond its buffer (C79_full_column). C79_values_partial says for every table exactly which entries are reported; C79_completes when the reading is safe."
  },
  {
   "property": "C80",
   "status": "partial",
   "theorems": [
    "Meds.View.C80_names_differ",
    "Meds.View.C80_requested",
    "Meds.View.C80_listed",
    "Meds.View.C80_page_partial",
    "Meds.View.C80_pictures",
    "Meds.View.C80_completes",
    "Meds.View.C80_unfinished_page",
    "Meds.View.C80_refused",
    "Meds.View.C80_titles",
    "Meds.View.C80_counterexample"
   ],
   "note": "False for the page when the user leaves with q: it has no end (C80_counterexample, C80_unfinished_page). Everything else is proved (C80_page_partial, C80_pictures, C80_names_differ, C80_requested, C80_completes)."
  },
  {
   "property": "C81",
   "status": "partial",
   "theorems": [
    "Meds.View.C81_cells_partial",
    "Meds.View.C81_counterexample",
    "Meds.View.C81_shapes_refused"
   ],
   "note": "False: each cutout is upside down in its cell, compared to its picture alone (C81_counterexample). C81_cells_partial gives the place of every pixel for every list."
  },
  {
   "property": "C82",
   "status": "partial",
   "theorems": [
    "Meds.View.C82_grey_partial",
    "Meds.View.C82_order",
    "Meds.View.C82_all_negative",
    "Meds.View.C82_zero_maximum",
    "Meds.View.C82_counterexample"
   ],
   "note": "False when the largest value is zero, as for a mask without flags: no grey value (C82_counterexample, C82_zero_maximum); all white when it is negative (C82_all_negative). Proved otherwise."
  },
  {
   "property": "C83",
   "status": "proved",
   "theorems": [
    "Meds.C83_objects",
    "Meds.C83_pixels",
    "Meds.C83_psf_pixels",
    "Meds.C83_split_completes"
   ],
   "note": ""
  },
  {
   "property": "C84",
   "status": "proved",
   "theorems": [
    "Meds.Coadd.C84_data_unaffected",
    "Meds.Coadd.C84_own_deviates"
   ],
   "note": ""
  },
  {
   "property": "C85",
   "status": "partial",
   "theorems": [
    "Meds.Coadd.C85_shifted_partial",
    "Meds.Coadd.C85_no_epochs_partial",
    "Meds.Coadd.C85_counterexample"
   ],
   "note": "False: one generator serves all objects, so the noise of an object depends on the number of pixels coadded before (C85_counterexample); splitting a run with obj_range changes the noise planes. Proved: the exact dependence (C85_shifted_partial) and that objects without any coadded epoch do not matter (C85_no_epochs_partial)."
  },
  {
   "property": "C86",
   "status": "partial",
   "theorems": [
    "Meds.C.C86_exact_partial",
    "Meds.C.C86_lost_unique",
    "Meds.C.C86_clean_partial",
    "Meds.C.C86_adds_up_partial",
    "Meds.C.C86_counterexample"
   ],
   "note": "False: the string DESDATA is never freed (C86_counterexample). Proved: no block is freed that is not in use, the blocks of others are left alone, and the exact number of blocks that stay behind for every file and program (C86_exact_partial, C86_lost_unique): one for DESDATA, one for each string column present after the first metadata column that is missing or unreadable, four buffers if a row of object_data cannot be read, one for each request for a missing extension. They add up over runs (C86_adds_up_partial); nothing stays behind for files without the string columns (C86_clean_partial)."
  },
  {
   "property": "C87",
   "status": "proved",
   "theorems": [
    "Meds.C87_same_epochs",
    "Meds.C87_same_psfs",
    "Meds.C87_same_object",
    "Meds.C87_fewer_objects_complete"
   ],
   "note": ""
  },
  {
   "property": "C88",
   "status": "proved",
   "theorems": [
    "Meds.C88_file_of_parts",
    "Meds.C88_psfs_of_parts",
    "Meds.C88_parts_complete"
   ],
   "note": ""
  },
  {
   "property": "C89",
   "status": "partial",
   "theorems": [
    "Meds.View.C89_image_partial",
    "Meds.View.C89_image_reversed",
    "Meds.View.C89_image_nan",
    "Meds.View.C89_seg_partial",
    "Meds.View.C89_psf_partial",
    "Meds.View.C89_counterexample"
   ],
   "note": "False for an image all of whose pixels lie below minus one standard deviation: the picture is a negative (C89_image_reversed, C89_counterexample), or NaN when the brightest lies just there (C89_image_nan). Proved otherwise (C89_image_partial), and for seg maps and masks with a pixel above zero (C89_seg_partial) and PSFs that are not constant and exceed 1e-6 somewhere (C89_psf_partial)."
  },
  {
   "property": "C90",
   "status": "partial",
   "theorems": [
    "Meds.Scripts.C90_numeral",
    "Meds.Scripts.C90_negative_numeral",
    "Meds.Scripts.C90_options",
    "Meds.Scripts.C90_integers",
    "Meds.Scripts.C90_range_status_partial",
    "Meds.Scripts.C90_range_completes",
    "Meds.Scripts.C90_range_wrong_arguments",
    "Meds.Scripts.C90_catalog_wrong_arguments",
    "Meds.Scripts.C90_catalog_status_partial",
    "Meds.Scripts.C90_catalog_completes",
    "Meds.Ex.C90_counterexample"
   ],
   "note": "False in one respect: an extraction that fails leaves an incomplete file, and what was at the output path before is lost (C90_counterexample). Proved: status 0 means that the subset was written or help was shown (C90_range_status_partial, C90_catalog_status_partial), the usual call gives status 0 (C90_range_completes, C90_catalog_completes), and wrong arguments change nothing (C90_range_wrong_arguments). C90_options, C90_integers: how the command line and the numbers are read, exactly."
  },
  {
   "property": "C91",
   "status": "partial",
   "theorems": [
    "Meds.C91_read_partial",
    "Meds.C91_none_bytes",
    "Meds.C91_image",
    "Meds.C91_mask",
    "Meds.C91_weight",
    "Meds.C91_missing_file",
    "Meds.C91_counterexample"
   ],
   "note": "False for bytes columns, the type get_image_info_dtype gives to paths: there the word none is taken for a file name and the write fails (C91_counterexample; C91_none_bytes and C91_missing_file say what happens in general). Proved: for both column types all stored pixels come from the named files of the own row (C91_image, C91_weight, C91_mask), and for string columns exactly the blank path and the word none mean no image (C91_read_partial)."
  },
  {
   "property": "C92",
   "status": "partial",
   "theorems": [
    "Meds.Compare.C92_status_partial",
    "Meds.Compare.C92_subset",
    "Meds.Compare.C92_all_drawn",
    "Meds.Compare.C92_counterexample"
   ],
   "note": "False: values of images, weights and catalogue columns have no influence on the status, they are only printed; and each of the four types draws its own objects (C92_counterexample). C92_status_partial is the exact condition for status zero, C92_subset and C92_all_drawn relate --nrand to the full comparison."
  },
  {
   "property": "C93",
   "status": "proved",
   "theorems": [
    "Meds.Compare.C93_range",
    "Meds.Compare.C93_numbers",
    "Meds.Compare.C93_self",
    "Meds.Compare.C93_written_sound"
   ],
   "note": ""
  },
  {
   "property": "C94",
   "status": "proved",
   "theorems": [
    "Meds.C94_same_images_cover",
    "Meds.C94_same_epoch",
    "Meds.C94_same_psf",
    "Meds.C94_images_added"
   ],
   "note": ""
  },
  {
   "property": "C95",
   "status": "proved",
   "theorems": [
    "Meds.C95_machine_file",
    "Meds.C95_same_pixels",
    "Meds.C95_centre",
    "Meds.C95_positions_double",
    "Meds.C95_count_check_never_fails"
   ],
   "note": ""
  },
  {
   "property": "C96",
   "status": "partial",
   "theorems": [
    "Meds.InputText.C96_what_happens",
    "Meds.InputText.C96_lines_partial",
    "Meds.InputText.C96_missing",
    "Meds.InputText.C96_counterexample"
   ],
   "note": "False: text after the integers of the identifier file is not looked at, so a file with other text is accepted when it begins with as many integers as there are rows (C96_counterexample). C96_lines_partial: the lines, and the refusal of a wrong number of integers, for files of integers separated by white space; C96_what_happens: any text; C96_missing: arguments, files and columns."
  },
  {
   "property": "C97",
   "status": "partial",
   "theorems": [
    "Meds.InputText.C97_positions_partial",
    "Meds.InputText.C97_short_exact",
    "Meds.InputText.C97_counterexample"
   ],
   "note": "False: the format has 16 significant digits and doubles need 17 (C97_counterexample). C97_positions_partial: off by at most one part in 10^15; C97_short_exact: positions with at most 16 decimal digits are printed exactly."
  },
  {
   "property": "C98",
   "status": "proved",
   "theorems": [
    "Meds.Columns.C98_input_made",
    "Meds.Columns.C98_input_accepted",
    "Meds.Columns.C98_info_made",
    "Meds.Columns.C98_info_accepted",
    "Meds.Columns.C98_info_c_columns"
   ],
   "note": ""
  },
  {
   "property": "C99",
   "status": "partial",
   "theorems": [
    "Meds.C99_what_is_stored",
    "Meds.C99_source",
    "Meds.C99_paths_partial",
    "Meds.C99_counterexample"
   ],
   "note": "False: a path longer than path_len is cut off without an error, and if a file with the shorter name exists its pixels are written (C99_counterexample: a.fits.fz read from a.fits). C99_source: reported source and pixels always belong to the same image; C99_paths_partial: the path is the one written by the user if it fits into the column; C99_what_is_stored: any text."
  },
  {
   "property": "C100",
   "status": "partial",
   "theorems": [
    "Meds.C100_integer_refused",
    "Meds.C100_image",
    "Meds.C100_weight",
    "Meds.C100_signal_to_noise",
    "Meds.C100_file_of_near_images",
    "Meds.C100_completes_iff",
    "Meds.C100_stored_image_partial",
    "Meds.C100_stored_weight_partial",
    "Meds.C100_counterexample"
   ],
   "note": "False for integer images or weights: the in-place product with a float scale raises TypeError, so nothing is written (C100_counterexample, C100_integer_refused). C100_completes_iff: exactly the inputs of the exact program with float images (and weights) complete; C100_image, C100_weight, C100_signal_to_noise: bounds; C100_file_of_near_images: the file is the one of the exact program for images within rounding; C100_stored_image_partial, C100_stored_weight_partial: end to end. Left out: overflow, NaN, 64-bit integers."
  },
  {
   "property": "C101",
   "status": "partial",
   "theorems": [
    "Meds.Compare.C101_image_partial",
    "Meds.Compare.C101_silent_bound",
    "Meds.Compare.C101_offset_silent",
    "Meds.Compare.C101_nonfinite_silent",
    "Meds.Compare.C101_weights",
    "Meds.Compare.C101_column",
    "Meds.Compare.C101_column_widths",
    "Meds.Compare.C101_small_integers",
    "Meds.Compare.C101_large_integers",
    "Meds.Compare.C101_text_column",
    "Meds.Compare.C101_run",
    "Meds.Compare.C101_run_columns",
    "Meds.Compare.C101_status",
    "Meds.Compare.C101_counterexample"
   ],
   "note": "False as stated. Counterexamples: all image pixels differ by 1000 (for any constant, C101_offset_silent) and no message; integers of six digits differing by one and no message (C101_large_integers); a NaN or infinite pixel suppresses the message about an image (C101_nonfinite_silent); a text column ends even the comparison of a file with itself in a TypeError (C101_text_column). What holds: messages about images exactly when the variance of the difference is above the squared tolerance, with a bound for what can be hidden (C101_silent_bound); weights exactly, with NaN (C101_weights); columns exactly when not close (C101_column, C101_run_columns; of different widths C101_column_widths), integers below 1e5 exactly when different (C101_small_integers); the messages of a whole run (C101_run); and that the messages do not change how a run ends (C101_status)."
  },
  {
   "property": "C102",
   "status": "partial",
   "theorems": [
    "Meds.Reject.C102_good_majority_partial",
    "Meds.Reject.C102_equal_majority",
    "Meds.Reject.C102_zero_majority",
    "Meds.Reject.C102_counterexample"
   ],
   "note": "False: the median is over all images, whatever their weight (C102_counterexample: the only good pixel of three epochs is rejected because the two masked ones are zero). C102_equal_majority: a value that more than half of the images have is what all epochs are compared with; C102_zero_majority: so where most epochs are off the edge, a pixel is lost exactly when it is brighter than nsigma errors. C102_good_majority_partial: where more than half of the epochs have a positive weight and agree, none of them is rejected, whatever the masked pixels are."
  },
  {
   "property": "C103",
   "status": "partial",
   "theorems": [
    "Meds.Reject.C103_elsewhere",
    "Meds.Reject.C103_nan_disables",
    "Meds.Reject.C103_nan_weight",
    "Meds.Reject.C103_without_nan",
    "Meds.Reject.C103_counterexample"
   ],
   "note": "False: the median at that position is NaN and every comparison false, so nothing is rejected there in any epoch (C103_counterexample; C103_nan_disables for all stacks). C103_elsewhere: other positions are treated as without NaN; C103_nan_weight: a NaN weight stays NaN; C103_without_nan: without NaN the model is that of C33 and C34. Infinities are not modelled."
  },
  {
   "property": "C104",
   "status": "partial",
   "theorems": [
    "Meds.Coadd.C104_same_rejection_partial",
    "Meds.Coadd.C104_unusable_values_partial",
    "Meds.Coadd.C104_counterexample"
   ],
   "note": "False with outlier rejection, because the median includes unusable pixels (C104_counterexample: one flagged value decides whether another epoch's good pixel is rejected). C104_unusable_values_partial: holds for the observations, noise and coadd when rejection is off or there are fewer than three epochs. C104_same_rejection_partial: with rejection it holds whenever the weights left are the same."
  },
  {
   "property": "C105",
   "status": "proved",
   "theorems": [
    "Meds.Uberseg.C105_memory_safe",
    "Meds.Uberseg.C105_fast_returns",
    "Meds.Uberseg.C105_get_uberseg",
    "Meds.Uberseg.C105_outside"
   ],
   "note": ""
  },
  {
   "property": "C106",
   "status": "proved",
   "theorems": [
    "Meds.MEDS.C106_interpolated_labels",
    "Meds.MEDS.C106_same_geometry",
    "Meds.MEDS.C106_interpolate_same",
    "Meds.MEDS.C106_cweight_same",
    "Meds.MEDS.C106_cseg_same",
    "Meds.MEDS.C106_uberseg_same",
    "Meds.MEDS.C106_cweight_pixels",
    "Meds.MEDS.C106_ordinary_slack",
    "Meds.MEDS.C106_inverse_entries",
    "Meds.MEDS.C106_inversion_fails",
    "Meds.MEDS.C106_circular_mask",
    "Meds.MEDS.C106_canonical_centre",
    "Meds.MEDS.C106_border_depends"
   ],
   "note": ""
  },
  {
   "property": "C107",
   "status": "proved",
   "theorems": [
    "Meds.Reject.C107_criterion",
    "Meds.Reject.C107_same",
    "Meds.Reject.C107_order",
    "Meds.Reject.C107_integers",
    "Meds.Reject.C107_fraction_needed"
   ],
   "note": ""
  },
  {
   "property": "C108",
   "status": "proved",
   "theorems": [
    "Meds.C.C108_written_opens",
    "Meds.C.C108_range",
    "Meds.C.C108_numbers"
   ],
   "note": ""
  },
  {
   "property": "C109",
   "status": "partial",
   "theorems": [
    "Meds.Uberseg.C109_what_happens",
    "Meds.Uberseg.C109_alias_kept",
    "Meds.Uberseg.C109_number_refused",
    "Meds.Uberseg.C109_fast_equals_slow_partial",
    "Meds.Uberseg.C109_counterexample"
   ],
   "note": "False: the compiled code gets the labels as 32-bit integers, so labels that differ by a multiple of 2^32 are one object for it (C109_counterexample, C109_alias_kept), and it raises an OverflowError for numbers of 2^31 and more (C109_number_refused). C109_what_happens gives the rule in general; C109_fast_equals_slow_partial: equality if no label is mixed up with the number or with -1. Needs seg maps stored with more than 32 bits (seg_dtype in the configuration)."
  },
  {
   "property": "C110",
   "status": "partial",
   "theorems": [
    "Meds.C110_bits_below_width",
    "Meds.C110_edge_bit",
    "Meds.C110_edge_lost",
    "Meds.C110_weights_explained_partial",
    "Meds.C110_labels",
    "Meds.C110_counterexample"
   ],
   "note": "False for bits that the stored type does not have: with the default i4, bits from 32 on are lost (C110_counterexample: weights zero, stored mask zero), and with types of up to 30 bits the edge flag is stored as 0 (C110_edge_lost; numpy 1, numpy 2 refuses). C110_bits_below_width: all bits that the type has are kept, and all numbers that it has; C110_edge_bit; C110_weights_explained_partial; C110_labels."
  },
  {
   "property": "C111",
   "status": "proved",
   "theorems": [
    "Meds.Coadd.C111_opens",
    "Meds.Coadd.C111_coadded",
    "Meds.Coadd.C111_not_coadded",
    "Meds.Coadd.C111_extracted"
   ],
   "note": ""
  },
  {
   "property": "C112",
   "status": "partial",
   "theorems": [
    "Meds.Coadd.C112_coadded_partial",
    "Meds.Coadd.C112_not_coadded",
    "Meds.Coadd.C112_room",
    "Meds.Coadd.C112_completes",
    "Meds.Coadd.C112_counterexample"
   ],
   "note": "False for objects all of whose epochs were refused: their orig_flags stay -9999, so the reasons are lost (C112_counterexample, C112_not_coadded). C112_coadded_partial: the claim for coadded objects; C112_room, C112_completes: there is always room."
  },
  {
   "property": "C113",
   "status": "proved",
   "theorems": [
    "Meds.Columns.C113_accepted",
    "Meds.Columns.C113_refused",
    "Meds.Columns.C113_values",
    "Meds.Columns.C113_scalar_refused"
   ],
   "note": ""
  },
  {
   "property": "C114",
   "status": "partial",
   "theorems": [
    "Meds.Dtype.C114_refused",
    "Meds.Dtype.C114_which_types",
    "Meds.Dtype.C114_taken_partial",
    "Meds.Dtype.C114_types",
    "Meds.Dtype.C114_unchanged",
    "Meds.Dtype.C114_input_struct",
    "Meds.Dtype.C114_counterexample"
   ],
   "note": "False with numpy 2: the empty catalogue is filled with -9999 before the columns are copied, and that is an OverflowError for a column of an unsigned type or of one byte (C114_counterexample; C114_refused for all such arrays; C114_which_types; C114_input_struct for get_meds_input_struct, exactly when). C114_taken_partial: all other packed arrays are taken, extra columns unchanged and the required ones converted as stated (Spec.Stored); C114_unchanged: what is not changed by the conversion. Missing: floats outside of the range of i8 and strings in required columns, whose conversion is platform dependent."
  },
  {
   "property": "C115",
   "status": "partial",
   "theorems": [
    "Meds.Dtype.C115_packed_only",
    "Meds.Dtype.C115_refused",
    "Meds.Dtype.C115_selection",
    "Meds.Dtype.C115_counterexample"
   ],
   "note": "False (C115_counterexample): the maker uses dtype.descr, in which padding is an entry without a name. C115_packed_only: an array that is taken is packed; C115_refused: the exception of any other one; C115_selection: a selection of columns of a packed array is packed only if it is all of them in their order. For packed arrays C114_taken_partial says what is taken. Missing: nothing else holds of the code."
  },
  {
   "property": "C116",
   "status": "partial",
   "theorems": [
    "Meds.C116_write_iff",
    "Meds.C116_usual_types_partial",
    "Meds.C116_integer_images",
    "Meds.C116_integer_weights",
    "Meds.C116_small_masks",
    "Meds.C116_versions",
    "Meds.C116_counterexample"
   ],
   "note": "False in general (C116_counterexample): integer stamps for images or weights are refused with every NumPy as soon as there is one cutout (C116_integer_images, C116_integer_weights), because the default value is a float; with NumPy 2 masks stored in fewer than 32 bits are refused (C116_small_masks; NumPy 1 writes them without the edge bit, C110_edge_lost), and so are flags that do not fit the type of a mask. C116_write_iff says exactly when a write completes with given types, and that the file is then the same; C116_usual_types_partial: with floats for images and weights and masks of 32 or 64 bits nothing is lost; C116_versions: what NumPy 2 writes NumPy 1 writes too."
  },
  {
   "property": "C117",
   "status": "proved",
   "theorems": [
    "Meds.Memory.C117_cutout",
    "Meds.Memory.C117_mosaic",
    "Meds.Memory.C117_list",
    "Meds.Memory.C117_store",
    "Meds.Memory.C117_others",
    "Meds.Memory.C117_cweight_mosaic",
    "Meds.Memory.C117_cweight_list",
    "Meds.Memory.C117_cseg_mosaic",
    "Meds.Memory.C117_cseg_list",
    "Meds.Memory.C117_interpolated",
    "Meds.Memory.C117_caller"
   ],
   "note": ""
  },
  {
   "property": "C118",
   "status": "proved",
   "theorems": [
    "Meds.Memory.C118_separate",
    "Meds.Memory.C118_reader",
    "Meds.Memory.C118_shared"
   ],
   "note": ""
  },
  {
   "property": "C119",
   "status": "proved",
   "theorems": [
    "Meds.Maker.C119_same_file",
    "Meds.Maker.C119_epochs",
    "Meds.Maker.C119_objects",
    "Meds.Maker.C119_refused"
   ],
   "note": ""
  },
  {
   "property": "C120",
   "status": "proved",
   "theorems": [
    "Meds.Maker.C120_own_state",
    "Meds.Maker.C120_shared",
    "Meds.Maker.C120_afterwards"
   ],
   "note": ""
  },
  {
   "property": "C121",
   "status": "partial",
   "theorems": [
    "Meds.MEDS.C121_number_fits",
    "Meds.MEDS.C121_cseg_pixels_partial",
    "Meds.MEDS.C121_cseg_mosaic_is_stack",
    "Meds.MEDS.C121_refused",
    "Meds.MEDS.C121_uberseg_all_zero",
    "Meds.C121_stored_labels",
    "Meds.C121_counterexample"
   ],
   "note": "False for types that do not have the number: the label wraps, two objects get the same one, and get_uberseg zeroes the whole stamp (C121_counterexample, C121_uberseg_all_zero). Proved: what the label is in general, that it is the number exactly if the type has it, and when NumPy 2 refuses."
  },
  {
   "property": "C122",
   "status": "proved",
   "theorems": [
    "Meds.C122_makers_are_values",
    "Meds.C122_caller_unchanged",
    "Meds.C122_defaults",
    "Meds.C122_file",
    "Meds.C122_later_changes"
   ],
   "note": ""
  },
  {
   "property": "C123",
   "status": "partial",
   "theorems": [
    "Meds.Temp.C123_there_partial",
    "Meds.Temp.C123_gone",
    "Meds.Temp.C123_reused_variable",
    "Meds.Temp.C123_other_files",
    "Meds.Temp.C123_nothing_left",
    "Meds.Temp.ExTemp.C123_counterexample"
   ],
   "note": "Proved without older objects with cleanup and the same path that are still referred to (C123_there_partial); with them the file is missing (C123_reused_variable, C123_counterexample). Reference counting as in CPython: an object is destroyed when the last reference goes; a raised exception ends the program, without the frames that a traceback may keep."
  },
  {
   "property": "C124",
   "status": "partial",
   "theorems": [
    "Meds.CPrint.C124_object",
    "Meds.CPrint.C124_aligned",
    "Meds.CPrint.C124_nothing_lost",
    "Meds.CPrint.C124_metadata",
    "Meds.CPrint.C124_print_partial",
    "Meds.CPrint.C124_print",
    "Meds.CPrint.C124_null",
    "Meds.CPrint.C124_nothing",
    "Meds.CPrint.C124_image_info",
    "Meds.CPrint.C124_image_info_nothing_lost",
    "Meds.CPrint.C124_distort",
    "Meds.CPrint.ExPrint.C124_counterexample"
   ],
   "note": "meds_obj_print proved in full; meds_print holds for stderr only (C124_print_partial), what other streams get is C124_print, with C124_counterexample. %ld, %lf and %g are parameters; meds_image_info_print and meds_distort_print are proved in full."
  },
  {
   "property": "C125",
   "status": "proved",
   "theorems": [
    "Meds.C125_image_pixels",
    "Meds.C125_weight_pixels",
    "Meds.C125_image_kinds",
    "Meds.C125_weight_kinds",
    "Meds.C125_zero_scale",
    "Meds.C125_outcome",
    "Meds.C125_one_pixel",
    "Meds.C125_numbers"
   ],
   "note": ""
  },
  {
   "property": "C126",
   "status": "partial",
   "theorems": [
    "Meds.Coadd.C126_first_failed_test",
    "Meds.Coadd.C126_handed_on",
    "Meds.Coadd.C126_weights_partial",
    "Meds.Coadd.C126_nan_handed_on",
    "Meds.Coadd.C126_masked_values",
    "Meds.Coadd.C126_image_numbers",
    "Meds.Coadd.C126_numbers",
    "Meds.Coadd.C126_symmetrized",
    "Meds.Coadd.C126_counterexample"
   ],
   "note": "False for NaN weights without a bad flag (C126_counterexample): outside the central region they count as good, are handed on, and make the weight of every replaced pixel NaN as well (C126_nan_handed_on). Proved: what is handed on in every case (C126_handed_on), the tests (C126_first_failed_test), positive weights if no such weight is NaN (C126_weights_partial), and that the values of masked pixels do not matter (C126_masked_values, C126_image_numbers). Outlier rejection is left out here (C103)."
  },
  {
   "property": "C127",
   "status": "proved",
   "theorems": [
    "Meds.Coadd.C127_rejection",
    "Meds.Coadd.C127_noise",
    "Meds.Coadd.C127_finite",
    "Meds.Coadd.C127_without_infinities",
    "Meds.Coadd.C127_numbers",
    "Meds.Coadd.C127_epochs"
   ],
   "note": ""
  },
  {
   "property": "C128",
   "status": "proved",
   "theorems": [
    "Meds.Coadd.C128_pixels",
    "Meds.Coadd.C128_noise"
   ],
   "note": ""
  },
  {
   "property": "C129",
   "status": "proved",
   "theorems": [
    "Meds.Workers.C129_clean",
    "Meds.Workers.C129_meanwhile",
    "Meds.Workers.C129_same_pixels",
    "Meds.Workers.C129_every_schedule",
    "Meds.Workers.C129_finishes",
    "Meds.Workers.C129_file",
    "Meds.Workers.C129_file_always",
    "Meds.Workers.C129_file_finishes"
   ],
   "note": ""
  },
  {
   "property": "C130",
   "status": "proved",
   "theorems": [
    "Meds.Workers.C130_same_pixels",
    "Meds.Workers.C130_no_disturbance",
    "Meds.Workers.C130_clean",
    "Meds.Workers.C130_meanwhile",
    "Meds.Workers.C130_finishes"
   ],
   "note": ""
  },
  {
   "property": "C131",
   "status": "proved",
   "theorems": [
    "Meds.Header.C131_cutouts",
    "Meds.Header.C131_psf",
    "Meds.Header.C131_caller",
    "Meds.Header.C131_none",
    "Meds.Header.C131_extensions",
    "Meds.Header.C131_coadd",
    "Meds.Header.C131_deep_copy",
    "Meds.Header.C131_repeated"
   ],
   "note": ""
  }
 ]
}
