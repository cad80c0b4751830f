"""Write MANIFEST.json: every theorem in lean/Verif/Props whose name starts with a property id, with status and note from NOTES below."""
import json, os, re

ROOT = os.path.dirname(os.path.dirname(os.path.abspath(__file__)))
PROPS = os.path.join(ROOT, "lean", "Verif", "Props")

PROVED = "proved"
PARTIAL = "partial"
NOTES = {
    "C26": ("partial", "False as documented: sky pixels get the object's number too (C26_counterexample). The partial theorem gives every pixel of the result."),
    "C31": ("partial", "The compiled tree search is fully proved for maps of any size (C31_tree_returns), by rounded distances; where float32 holds the squared diagonal (up to 2896 pixels on a side) these are the distances (C31_tree_returns_nearest, C31_fast_rule_ieee_partial), beyond that the claim is false (C31_large_counterexample). get_uberseg itself returns early for seg maps with exactly two values, where the claim is false too (C31_counterexample); C31_fast_rule_partial covers all other maps."),
    "C32": ("proved", "For the tree version in stamps whose squared diagonal float32 holds exactly (up to 2896 pixels on a side); C32_large_stamps_differ shows that the limit is needed, C32_ties_differ that the condition on ties is."),
    "C30": ("partial", "False for seg maps with exactly two values, where the code returns early (C30_counterexample, C30_two_values_early_return). Proved for all other maps and for two-valued maps that contain the object's own label."),
    "C14": (PARTIAL, "False as stated: a second write() doubles ncutout (C14_second_write_doubles). C14_no_epochs_partial is what remains true."),
    "C15": (PARTIAL, "False as stated: a type without default value (ormask, noise) raises KeyError (C15_counterexample, C15_no_default_never_completes)."),
    "C16": (PARTIAL, "False as stated: force_into_coadd_bounds never moves a position (C16_force_never_moves, C16_counterexample)."),
    "C17": (PARTIAL, "False for negative indices, which wrap (C17_counterexample, C17_negative_object_wraps)."),
    "C20": (PARTIAL, "False as stated: extensions outside the default list are copied unshifted (C20_counterexample)."),
    "C23": (PARTIAL, "False as stated: cleanup with equal names, or an output path that is another spelling of the input, destroys the input (two counterexamples). Proved whenever the input path does not lead through the output's directory entry."),
    "C36": (PARTIAL, "expand_bounds misses a side (C36_counterexample, C36_expand_bounds_misses), exactly when the argument sticks out on both sides in one direction (C36_expand_bounds_exactly); every other operation is proved."),
    "C39": (PARTIAL, "False for files made with the package's own image_info structure: meds_open needs the columns wcs_path and sky_path, which it lacks (C39_counterexample). Proved for every file both readers open."),
    "C40": (PROVED, "The catalogue arrays are never left. image_info can be: file_id has no upper check, so C40_source_info assumes ids that point into the table."),
    "C41": (PARTIAL, "False for every epoch but the first (C41_counterexample); C41_epoch_zero_partial says what is returned."),
    "C42": (PARTIAL, "False as stated (C42_counterexample); C42_long_enough_partial is the exact condition."),
    "C44": (PARTIAL, "False when the minimum exceeds the maximum (C44_counterexample); proved for limits in order, the maximum always (C44_max_wins)."),
    "C47": (PARTIAL, "False: one pass gives the zero set and its quarter turn only (C47_counterexample); the partial theorems give the result exactly, and three passes would do (C47_three_passes)."),
    "C48": (PARTIAL, "False: the caller's coadd dictionary loses dither_psfs (C48_counterexample); C48_effect is the exact effect, C48_unchanged_partial the harmless case."),
    "C49": (PARTIAL, "False: with the check off the function always raises (C49_always_raises); the partial theorem covers the check turned on."),
    "C57": (PARTIAL, "False for regions larger than the stamp, whose start wraps around (C57_counterexample); proved for all others."),
    "C58": (PARTIAL, "False: the rotated value replaces the pixel's own, which can remove the edge flag (C58_counterexample). Bad flags themselves are never lost."),
    "C50": (PARTIAL, "The detection half holds (C50_detects); the other half is false: with the default png_prefix=False no comparison ever succeeds (C50_default_raises, C50_counterexample). With png_prefix=None a file compares equal to itself (C50_self_partial), when its ids are different and the four types are readable."),
    "C56": (PROVED, "C56_kept: for real numbers and the exact outline of the image; C56_rounding: with every operation rounded by any monotone rounding without underflow, and any computed cosine and projection, whose errors count as non-linearity; C56_accepted is for position offset 1. Needs the sky map of the image to be nearly linear, and C56_needs_linear shows that it does."),
    "C62": (PARTIAL, "False (C62_counterexample): objects written by an earlier call keep their entries and read back the pixels of other objects (C62_stale). Proved when the new range covers the earlier one."),
    "C45": (PROVED, "For every outcome of the coadding code, which is a parameter; its stamps are assumed to have the object's box size in all planes. An object without cutouts in the input makes the whole write raise (C45_no_cutouts). C45_flag is about the real coadder."),
    "C61": (PARTIAL, "False for lists that name a bit twice, as the flags are added (C61_counterexample); C61_exactly_when_disjoint: a list works for all mask values if and only if no two of its flags have a bit in common."),
    "C51": (PARTIAL, "The shape claim is false for 8 plots, laid out 2 by 4 (C51_counterexample); everything else is proved for every number of plots."),
    "C63": (PARTIAL, "False: an ncutout column in obj_data is copied and never reset, so the counts add up (C63_counts_add), a different number of columns is refused, and the same images never complete (C63_same_images_fails, C63_counterexample). Proved for catalogues whose counts are zero (C63_fresh_partial) or absent (C63_counts_zero_partial). C63_on_top gives every epoch of every object of the new file, for catalogues with any of the computed columns: those the input claims come first. C63_old_epochs_stay is the same for catalogues as the maker itself writes them, entry by entry. C63_cleared_partial: such a catalogue with its counts set to zero gives the exceptions and the file of the documented columns alone, but for entries of epochs no object uses. C63_structured_array carries these over to the numpy array of such a catalogue, user columns included; C63_structured_array_refused: it is refused when the number of epoch columns differs (and is not one)."),
    "C64": (PROVED, "C64_catalogue_written runs the constructor and the whole layout (column assignments by name, trimming, resizing, start rows, PSF columns) on the structured array and shows that its columns are those of the row-by-row model, with the user's columns restricted to the rows kept; C64_same_exception covers the failures. Widths of types are left out."),
    "C65": (PARTIAL, "False when the metadata already have a version field, as those of a MEDS file do: the constructor raises (C65_versions_refused, C65_counterexample). Proved for all others."),
    "C66": (PARTIAL, "False when object_data or image_info is missing: OSError instead of a report (C66_missing_table_raises, C66_counterexample). Proved for files that have both; C66_written_file_complete: nothing is reported for a file that the maker wrote."),
    "C68": (PARTIAL, "False for psf when the deprecated psf_type is given too (C68_counterexample). Proved for all other entries; the extension names are fixed."),
    "C69": (PARTIAL, "False: bitmask_allowed is never used (C69_no_effect, C69_counterexample). Proved for unusable_bmask set to the complement."),
    "C70": (PARTIAL, "False: a joblib entry overrides use_joblib=False (C70_counterexample). That the stored PSFs and positions do not depend on it is proved; C70_settings, C70_no_dict: backend, workers and threads."),
    "C72": (PARTIAL, "False when the PSF object has a get_wcs method: its WCS wins (C72_psf_wins, C72_counterexample); and the size of the image is set only on that WCS, not on one from image_info (C72_size_counterexample). Otherwise proved for the written file: positions and jacobians of an image come from the wcs column, with the header as fallback (C72_image_info_first_partial); with the column, headers do not matter (C72_header_not_used_partial)."),
    "C73": (PARTIAL, "False for id files with something after the first word that is not a number: the rest is ignored (C73_counterexample). Everything else is proved."),
    "C74": (PARTIAL, "False: status zero also when extraction or writing fails (C74_bad_index, C74_counterexample). What is written is proved to be the Python reader's image."),
    "C76": (PARTIAL, "False for composite seg maps without a number column (C76_counterexample); everything else is proved for ranges and for numbers."),
    "C77": (PARTIAL, "False: the target jacobian is a median over the objects of the file (C77_counterexample). The observations that enter are always the same; the coadd is the same when the target jacobian is (C77_same_target_partial), as when all objects share one jacobian (C77_one_jacobian_partial)."),
    "C78": (PARTIAL, "False: the ormask plane is lost and extraction by number always raises once a chosen object has a coadd (C78_counterexample, C78_ormask_lost, C78_numbers_fail). Range extraction completes and keeps everything else (C78_range_completes, C78_range_partial)."),
    "C79": (PARTIAL, "False: the status of a missing column is never reset, so all later entries are lost (C79_counterexample, C79_no_cat_file), and a string that fills its column is written one byte beyond its buffer (C79_full_column). C79_values_partial says for every table exactly which entries are reported; C79_completes when the reading is safe."),
    "C80": (PARTIAL, "False for the page when the user leaves with q: it has no end (C80_counterexample, C80_unfinished_page). Everything else is proved (C80_page_partial, C80_pictures, C80_names_differ, C80_requested, C80_completes)."),
    "C81": (PARTIAL, "False: each cutout is upside down in its cell, compared to its picture alone (C81_counterexample). C81_cells_partial gives the place of every pixel for every list."),
    "C82": (PARTIAL, "False when the largest value is zero, as for a mask without flags: no grey value (C82_counterexample, C82_zero_maximum); all white when it is negative (C82_all_negative). Proved otherwise."),
    "C85": (PARTIAL, "False: one generator serves all objects, so the noise of an object depends on the number of pixels coadded before (C85_counterexample); splitting a run with obj_range changes the noise planes. Proved: the exact dependence (C85_shifted_partial) and that objects without any coadded epoch do not matter (C85_no_epochs_partial)."),
    "C86": (PARTIAL, "False: the string DESDATA is never freed (C86_counterexample). Proved: no block is freed that is not in use, the blocks of others are left alone, and the exact number of blocks that stay behind for every file and program (C86_exact_partial, C86_lost_unique): one for DESDATA, one for each string column present after the first metadata column that is missing or unreadable, four buffers if a row of object_data cannot be read, one for each request for a missing extension. They add up over runs (C86_adds_up_partial); nothing stays behind for files without the string columns (C86_clean_partial)."),
    "C89": (PARTIAL, "False for an image all of whose pixels lie below minus one standard deviation: the picture is a negative (C89_image_reversed, C89_counterexample), or NaN when the brightest lies just there (C89_image_nan). Proved otherwise (C89_image_partial), and for seg maps and masks with a pixel above zero (C89_seg_partial) and PSFs that are not constant and exceed 1e-6 somewhere (C89_psf_partial)."),
    "C90": (PARTIAL, "False in one respect: an extraction that fails leaves an incomplete file, and what was at the output path before is lost (C90_counterexample). Proved: status 0 means that the subset was written or help was shown (C90_range_status_partial, C90_catalog_status_partial), the usual call gives status 0 (C90_range_completes, C90_catalog_completes), and wrong arguments change nothing (C90_range_wrong_arguments). C90_options, C90_integers: how the command line and the numbers are read, exactly."),
    "C91": (PARTIAL, "False for bytes columns, the type get_image_info_dtype gives to paths: there the word none is taken for a file name and the write fails (C91_counterexample; C91_none_bytes and C91_missing_file say what happens in general). Proved: for both column types all stored pixels come from the named files of the own row (C91_image, C91_weight, C91_mask), and for string columns exactly the blank path and the word none mean no image (C91_read_partial)."),
    "C92": (PARTIAL, "False: values of images, weights and catalogue columns have no influence on the status, they are only printed; and each of the four types draws its own objects (C92_counterexample). C92_status_partial is the exact condition for status zero, C92_subset and C92_all_drawn relate --nrand to the full comparison."),
    "C96": (PARTIAL, "False: text after the integers of the identifier file is not looked at, so a file with other text is accepted when it begins with as many integers as there are rows (C96_counterexample). C96_lines_partial: the lines, and the refusal of a wrong number of integers, for files of integers separated by white space; C96_what_happens: any text; C96_missing: arguments, files and columns."),
    "C97": (PARTIAL, "False: the format has 16 significant digits and doubles need 17 (C97_counterexample). C97_positions_partial: off by at most one part in 10^15; C97_short_exact: positions with at most 16 decimal digits are printed exactly."),
    "C99": (PARTIAL, "False: a path longer than path_len is cut off without an error, and if a file with the shorter name exists its pixels are written (C99_counterexample: a.fits.fz read from a.fits). C99_source: reported source and pixels always belong to the same image; C99_paths_partial: the path is the one written by the user if it fits into the column; C99_what_is_stored: any text."),
    "C100": (PARTIAL, "False for integer images or weights: the in-place product with a float scale raises TypeError, so nothing is written (C100_counterexample, C100_integer_refused). C100_completes_iff: exactly the inputs of the exact program with float images (and weights) complete; C100_image, C100_weight, C100_signal_to_noise: bounds; C100_file_of_near_images: the file is the one of the exact program for images within rounding; C100_stored_image_partial, C100_stored_weight_partial: end to end. Left out: overflow, NaN, 64-bit integers."),
    "C101": (PARTIAL, "False as stated. Counterexamples: all image pixels differ by 1000 (for any constant, C101_offset_silent) and no message; integers of six digits differing by one and no message (C101_large_integers); a NaN or infinite pixel suppresses the message about an image (C101_nonfinite_silent); a text column ends even the comparison of a file with itself in a TypeError (C101_text_column). What holds: messages about images exactly when the variance of the difference is above the squared tolerance, with a bound for what can be hidden (C101_silent_bound); weights exactly, with NaN (C101_weights); columns exactly when not close (C101_column, C101_run_columns; of different widths C101_column_widths), integers below 1e5 exactly when different (C101_small_integers); the messages of a whole run (C101_run); and that the messages do not change how a run ends (C101_status)."),
    "C102": (PARTIAL, "False: the median is over all images, whatever their weight (C102_counterexample: the only good pixel of three epochs is rejected because the two masked ones are zero). C102_equal_majority: a value that more than half of the images have is what all epochs are compared with; C102_zero_majority: so where most epochs are off the edge, a pixel is lost exactly when it is brighter than nsigma errors. C102_good_majority_partial: where more than half of the epochs have a positive weight and agree, none of them is rejected, whatever the masked pixels are."),
    "C103": (PARTIAL, "False: the median at that position is NaN and every comparison false, so nothing is rejected there in any epoch (C103_counterexample; C103_nan_disables for all stacks). C103_elsewhere: other positions are treated as without NaN; C103_nan_weight: a NaN weight stays NaN; C103_without_nan: without NaN the model is that of C33 and C34. Infinities are not modelled."),
    "C104": (PARTIAL, "False with outlier rejection, because the median includes unusable pixels (C104_counterexample: one flagged value decides whether another epoch's good pixel is rejected). C104_unusable_values_partial: holds for the observations, noise and coadd when rejection is off or there are fewer than three epochs. C104_same_rejection_partial: with rejection it holds whenever the weights left are the same."),
    "C109": (PARTIAL, "False: the compiled code gets the labels as 32-bit integers, so labels that differ by a multiple of 2^32 are one object for it (C109_counterexample, C109_alias_kept), and it raises an OverflowError for numbers of 2^31 and more (C109_number_refused). C109_what_happens gives the rule in general; C109_fast_equals_slow_partial: equality if no label is mixed up with the number or with -1. Needs seg maps stored with more than 32 bits (seg_dtype in the configuration)."),
    "C110": (PARTIAL, "False for bits that the stored type does not have: with the default i4, bits from 32 on are lost (C110_counterexample: weights zero, stored mask zero), and with types of up to 30 bits the edge flag is stored as 0 (C110_edge_lost; numpy 1, numpy 2 refuses). C110_bits_below_width: all bits that the type has are kept, and all numbers that it has; C110_edge_bit; C110_weights_explained_partial; C110_labels."),
    "C112": (PARTIAL, "False for objects all of whose epochs were refused: their orig_flags stay -9999, so the reasons are lost (C112_counterexample, C112_not_coadded). C112_coadded_partial: the claim for coadded objects; C112_room, C112_completes: there is always room."),
    "C114": (PARTIAL, "False with numpy 2: the empty catalogue is filled with -9999 before the columns are copied, and that is an OverflowError for a column of an unsigned type or of one byte (C114_counterexample; C114_refused for all such arrays; C114_which_types; C114_input_struct for get_meds_input_struct, exactly when). C114_taken_partial: all other packed arrays are taken, extra columns unchanged and the required ones converted as stated (Spec.Stored); C114_unchanged: what is not changed by the conversion. Missing: floats outside of the range of i8 and strings in required columns, whose conversion is platform dependent."),
    "C115": (PARTIAL, "False (C115_counterexample): the maker uses dtype.descr, in which padding is an entry without a name. C115_packed_only: an array that is taken is packed; C115_refused: the exception of any other one; C115_selection: a selection of columns of a packed array is packed only if it is all of them in their order. For packed arrays C114_taken_partial says what is taken. Missing: nothing else holds of the code."),
    "C116": (PARTIAL, "False in general (C116_counterexample): integer stamps for images or weights are refused with every NumPy as soon as there is one cutout (C116_integer_images, C116_integer_weights), because the default value is a float; with NumPy 2 masks stored in fewer than 32 bits are refused (C116_small_masks; NumPy 1 writes them without the edge bit, C110_edge_lost), and so are flags that do not fit the type of a mask. C116_write_iff says exactly when a write completes with given types, and that the file is then the same; C116_usual_types_partial: with floats for images and weights and masks of 32 or 64 bits nothing is lost; C116_versions: what NumPy 2 writes NumPy 1 writes too."),
    "C121": (PARTIAL, "False for types that do not have the number: the label wraps, two objects get the same one, and get_uberseg zeroes the whole stamp (C121_counterexample, C121_uberseg_all_zero). Proved: what the label is in general, that it is the number exactly if the type has it, and when NumPy 2 refuses."),
    "C123": (PARTIAL, "Proved without older objects with cleanup and the same path that are still referred to (C123_there_partial); with them the file is missing (C123_reused_variable, C123_counterexample). Reference counting as in CPython: an object is destroyed when the last reference goes; a raised exception ends the program, without the frames that a traceback may keep."),
    "C124": (PARTIAL, "meds_obj_print proved in full; meds_print holds for stderr only (C124_print_partial), what other streams get is C124_print, with C124_counterexample. %ld, %lf and %g are parameters; meds_image_info_print and meds_distort_print are proved in full."),
    "C126": (PARTIAL, "False for NaN weights without a bad flag (C126_counterexample): outside the central region they count as good, are handed on, and make the weight of every replaced pixel NaN as well (C126_nan_handed_on). Proved: what is handed on in every case (C126_handed_on), the tests (C126_first_failed_test), positive weights if no such weight is NaN (C126_weights_partial), and that the values of masked pixels do not matter (C126_masked_values, C126_image_numbers). Outlier rejection is left out here (C103)."),
    "C54": (PARTIAL, "False for a repeated 'image' (C54_counterexample)."),
    "C55": (PARTIAL, "False without a number column (C55_counterexample)."),
}


def theorems():
    out = {}
    for name in sorted(os.listdir(PROPS)):
        if not name.endswith(".lean"):
            continue
        stack = []
        for line in open(os.path.join(PROPS, name), encoding="utf-8"):
            m = re.match(r"(namespace|section|end)\b\s*(\S*)", line)
            if m:
                kind, arg = m.groups()
                if kind == "end":
                    stack.pop()
                else:
                    stack.append((kind, arg))
                continue
            m = re.match(r"(?:private )?theorem (C\d+)(_\S*)", line)
            if m:
                full = ".".join([a for k, a in stack if k == "namespace"] + [m.group(1) + m.group(2)])
                out.setdefault(m.group(1), []).append(full)
    return out


if __name__ == "__main__":
    ths = theorems()
    claims = []
    for line in open(os.path.join(ROOT, "properties.jsonl"), encoding="utf-8"):
        pid = json.loads(line)["id"]
        if pid not in ths:
            continue
        status, note = NOTES.get(pid, (PROVED, ""))
        claims.append({"property": pid, "status": status, "theorems": ths[pid], "note": note})
    with open(os.path.join(ROOT, "MANIFEST.json"), "w", encoding="utf-8") as f:
        json.dump({"claims": claims}, f, indent=1)
        f.write("\n")
    print(len(claims), "claims,", sum(len(c["theorems"]) for c in claims), "theorems")
