{"id": "C01", "title": "Written cutouts read back as the source pixels", "statement": "After MEDSMaker.write(f) completes, for every object i, every epoch k < ncutout[i] and every cutout type t whose source image exists, MEDS(f).get_cutout(i, k, type=t) is a box_size x box_size image whose pixel (r, c) equals the processed source image file_id[i,k] at (orig_start_row[i,k]+r, orig_start_col[i,k]+c), cast to the stored dtype, when that position is inside the source image, and the documented default value of t when it is not.", "quantifier": "all catalogues, box sizes, image lists, image shapes, object positions (on, straddling or outside an image edge), pixel values and cutout types", "why_tests_cant": "Depends on the agreement of layout, clipping, flat storage offsets and write order for arbitrary many overlapping boxes; a test fixes a few geometries.", "anchors": ["meds/maker.py:MEDSMaker._build_meds_layout", "meds/maker.py:MEDSMaker._write_cutouts", "meds/maker.py:MEDSMaker._write_cutout", "meds/maker.py:MEDSMaker._get_clipped_boxes", "meds/meds.py:MEDS.get_cutout"]}
{"id": "C02", "title": "Cutout lists and mosaics agree with single cutouts", "statement": "For every file produced by MEDSMaker.write, get_cutout_list(i, t) is exactly [get_cutout(i, k, t) for k in range(ncutout[i])], and get_mosaic(i, t) is those cutouts stacked top to bottom.", "quantifier": "all files produced by the maker, all objects with at least one cutout, all stored types", "why_tests_cant": "get_mosaic reads one contiguous run starting at the first cutout, so it is right only if storage is contiguous for every object; tests check sampled objects.", "anchors": ["meds/meds.py:MEDS.get_mosaic", "meds/meds.py:MEDS.get_cutout_list", "meds/meds.py:split_mosaic", "meds/maker.py:MEDSMaker._set_start_rows_and_pixel_count"]}
{"id": "C03", "title": "Cutout storage is an exact tiling", "statement": "In a file produced by MEDSMaker.write the pixel ranges [start_row, start_row+box_size^2) of distinct (object, epoch) pairs are pairwise disjoint and their union is exactly the whole of each cutout extension: no cutout overwrites another and no pixel is unowned.", "quantifier": "all numbers of objects, box sizes and epochs per object, including objects with no epochs", "why_tests_cant": "Non-overlap is a statement about every pair of cutouts in every catalogue.", "anchors": ["meds/maker.py:MEDSMaker._set_start_rows_and_pixel_count", "meds/maker.py:MEDSMaker._reserve_mosaic_images"]}
{"id": "C04", "title": "Epoch bookkeeping: one cutout per covering image, in image order", "statement": "For every object in the output of MEDSMaker.write, ncutout is the number of input images whose accepted region contains the object, and file_id[i, 0..ncutout) lists exactly those images in strictly increasing image order (so no image is used twice and none is skipped).", "quantifier": "all catalogues, image lists and world coordinate systems (arbitrary sky-to-pixel maps)", "why_tests_cant": "The claim ranges over arbitrary WCS functions and arbitrary coverage patterns.", "anchors": ["meds/maker.py:MEDSMaker._build_meds_layout", "meds/maker.py:MEDSMaker._get_pos_and_bounds"]}
{"id": "C05", "title": "The coadd is always cutout zero", "statement": "When the first image is flagged as the coadd and check_in_coadd is set, every object in the output file has ncutout >= 1 and file_id[i,0] == 0, and the output catalogue is exactly the input objects inside the coadd's accepted region, in input order; the coadd-seg functions, which use cutout 0 as the coadd, rely on it.", "quantifier": "all catalogues and image lists", "why_tests_cant": "Needs every object, including ones dropped or sitting on the border.", "anchors": ["meds/maker.py:MEDSMaker._build_meds_layout"]}
{"id": "C06", "title": "Cutout geometry is self-consistent and centred", "statement": "For every stored epoch, cutout_row + orig_start_row == orig_row and cutout_col + orig_start_col == orig_col exactly, and for a non-negative position the object centre lies in the half-open pixel range [box_size/2 - 1, box_size/2) in both directions, i.e. within half a pixel of the geometric centre of the box.", "quantifier": "all real positions and all even box sizes", "why_tests_cant": "Off-by-one and truncation errors appear only at special fractional or negative positions.", "anchors": ["meds/maker.py:MEDSMaker._build_meds_layout"]}
{"id": "C07", "title": "With one-based coordinates the object's centre pixel is always a real pixel", "statement": "If an image has position_offset 1 (FITS convention) and no coadd buffer applies, then for every object given a cutout in that image the pixel containing the object centre lies inside the source image, so the cutout always overlaps the image and get_cutout(i,k)[int(cutout_row), int(cutout_col)] is a true source pixel, never fill.", "quantifier": "all image sizes and positions", "why_tests_cant": "Boundary condition over a continuum of positions.", "anchors": ["meds/maker.py:MEDSMaker._get_image_bounds", "meds/maker.py:MEDSMaker._get_clipped_boxes"]}
{"id": "C08", "title": "Box sizes are rounded up to even and never shrink", "statement": "In the output of MEDSMaker.write every box_size is even, is the requested size when that was even and one more when it was odd.", "quantifier": "all integer box sizes", "why_tests_cant": "Ranges over all integers.", "anchors": ["meds/maker.py:MEDSMaker._force_box_sizes_even"]}
{"id": "C09", "title": "Trimming the epoch columns loses nothing; unused slots are flagged", "statement": "The per-epoch columns of the output catalogue have width max(2, max ncutout); every epoch k < ncutout survives with the values computed for it and every slot k >= ncutout holds -9999 in file_id, start_row, and the position columns.", "quantifier": "all coverage patterns", "why_tests_cant": "Needs all catalogues, including those where no or few objects use all slots.", "anchors": ["meds/maker.py:MEDSMaker._make_resized_data", "meds/util.py:get_meds_output_struct"]}
{"id": "C10", "title": "Photometric scaling of images and weights", "statement": "The stored image is (raw - background) * scale and the stored weight is raw / scale^2, set to zero exactly at pixels whose bit mask shares a bit with the configured bad flags; hence image^2 * weight (signal to noise) at good pixels does not depend on scale.", "quantifier": "all pixel values, masks, flag words and non-zero scales", "why_tests_cant": "Bit-mask and scaling identities over all values.", "anchors": ["meds/maker.py:MEDSMaker._read_image", "meds/maker.py:MEDSMaker._check_bad_bmask"]}
{"id": "C11", "title": "PSF images read back for the right object and epoch", "statement": "After MEDSMaker.write with PSF data, get_psf(i, k) returns the PSF image generated for image file_id[i,k] at that object's position in that image, with the shape recorded in the catalogue, and get_psf_list(i) is exactly [get_psf(i,k) for k < ncutout[i]]; the PSF pixel ranges are disjoint and fill the extension.", "quantifier": "all PSF models (arbitrary functions of position returning arbitrary shapes), catalogues and image lists", "why_tests_cant": "PSF shapes may vary with position and image, so the layout is data dependent.", "anchors": ["meds/maker.py:MEDSMaker._set_psf_layout", "meds/maker.py:MEDSMaker._write_psf_cutouts_serial", "meds/meds.py:MEDS.get_psf", "meds/meds.py:MEDS.get_psf_list"]}
{"id": "C12", "title": "Parallel PSF writing equals serial writing", "statement": "The PSF extension written with joblib workers is identical to the one written serially, for every chunk size and every number of jobs.", "quantifier": "all catalogues, PSF models and chunk sizes", "why_tests_cant": "Chunk boundaries fall on arbitrary positions; schedules can't be enumerated.", "anchors": ["meds/maker.py:MEDSMaker._write_psf_cutouts_joblib", "meds/maker.py:MEDSMaker._write_psf_cutouts_serial"]}
{"id": "C13", "title": "Parallel sky-to-image evaluation equals serial evaluation", "statement": "Splitting the position conversion among workers returns, for every object, the same position as a direct call and in the same order, whatever the number of objects, of CPUs and of workers in the configuration, including zero and negative ones.", "quantifier": "all catalogue sizes, worker counts and WCS functions that act position by position", "why_tests_cant": "Chunk arithmetic with ceil and early break over all (n, jobs).", "anchors": ["meds/maker.py:MEDSMaker._do_sky2image"]}
{"id": "C14", "title": "Writing twice with one maker gives the same file", "statement": "Calling write a second time on the same MEDSMaker produces the same file contents as the first call.", "quantifier": "all makers", "why_tests_cant": "A history property; tests call write once.", "anchors": ["meds/maker.py:MEDSMaker.write", "meds/maker.py:MEDSMaker._build_meds_layout"]}
{"id": "C15", "title": "Every supported cutout type can be written", "statement": "For every list of cutout types accepted by MEDSMaker (the supported types), write completes whenever the inputs are otherwise valid.", "quantifier": "all accepted cutout type lists and all valid inputs", "why_tests_cant": "Ranges over all inputs and type combinations.", "anchors": ["meds/maker.py:SUPPORTED_CUTOUT_TYPES", "meds/defaults.py:default_values", "meds/maker.py:MEDSMaker._write_cutout"]}
{"id": "C16", "title": "Objects in the coadd border are moved onto the coadd", "statement": "With force_into_coadd_bounds set, every object accepted because of the coadd border buffer is given a coadd position inside the coadd image proper, as documented.", "quantifier": "all positions within the buffered coadd region", "why_tests_cant": "The failing positions form a thin strip that tests do not hit.", "anchors": ["meds/maker.py:MEDSMaker._force_into_coadd_bounds", "meds/maker.py:MEDSMaker._get_pos_and_bounds"]}
{"id": "C17", "title": "Out-of-range indices are rejected", "statement": "get_cutout, get_psf and the functions built on them return data only when 0 <= iobj < size and 0 <= icutout < ncutout[iobj], and raise ValueError for all other integer indices.", "quantifier": "all integers iobj, icutout and all files", "why_tests_cant": "All integers, including negatives, for all files.", "anchors": ["meds/meds.py:MEDS._check_indices", "meds/meds.py:MEDS.get_cutout", "meds/meds.py:MEDS.get_psf"]}
{"id": "C18", "title": "Range extraction preserves every object", "statement": "For every MEDS file whose cutouts are stored in catalogue order, extract_range(f, a, b, g) yields a file with b-a+1 objects such that get_cutout(i,k,t) and get_mosaic(i,t) on g equal those of object a+i on f for image, weight, seg, bmask (and noise), PSFs likewise, and all other catalogue columns are unchanged. When no object of the range has a cutout, the rows are unchanged and each extension holds two placeholder values, zero for the weights, without PSFs.", "quantifier": "all files in catalogue order and all ranges a <= b inside the catalogue", "why_tests_cant": "All sub-ranges of all files, including objects without cutouts at either end.", "anchors": ["meds/extractor.py:MEDSExtractor._extract", "meds/extractor.py:MEDSExtractor._get_row_range", "meds/extractor.py:get_psf_row_range"]}
{"id": "C19", "title": "Range extraction composes", "statement": "An extracted file is again a valid input: extracting [c,d] from the extraction of [a,b] gives the same cutouts and PSFs as extracting [a+c, a+d] directly; the catalogue-order layout is preserved.", "quantifier": "all files and nested ranges", "why_tests_cant": "Iterated histories of extractions.", "anchors": ["meds/extractor.py:MEDSExtractor._extract"]}
{"id": "C20", "title": "copy_all keeps every extension usable", "statement": "With copy_all, extract_range keeps every extension of the input, once, and every '<type>_cutouts' extension can be read for the extracted objects with the same pixels as before.", "quantifier": "all files with any set of cutout extensions", "why_tests_cant": "Depends on the set of extensions present.", "anchors": ["meds/extractor.py:MEDSExtractor._extract", "meds/extractor.py:default_ext"]}
{"id": "C21", "title": "Number extraction preserves every object", "statement": "extract_numbers(f, numbers, g) yields exactly the objects with those numbers, in increasing number order when the file is in number order, and get_cutout, get_mosaic and get_psf on g return the same pixels as on f. When none of them has a cutout, the rows are unchanged and each extension holds two placeholder values, zero for the weights.", "quantifier": "all contiguous-layout files and all lists of distinct numbers present in the file, in any order and with any gaps", "why_tests_cant": "All subsets of all files.", "anchors": ["meds/number_extractor.py:MEDSNumberExtractor._extract", "meds/number_extractor.py:MEDSNumberExtractor._get_row_ranges", "meds/number_extractor.py:MEDSNumberExtractor._get_inds"]}
{"id": "C22", "title": "Number extraction rejects unknown numbers", "statement": "extract_numbers fails, without producing catalogue rows, when a requested number is absent, and every returned row has the requested number.", "quantifier": "all files (in any row order) and all number lists", "why_tests_cant": "All row orders; the fast path guesses the row.", "anchors": ["meds/number_extractor.py:MEDSNumberExtractor._get_inds"]}
{"id": "C23", "title": "Extraction never changes its input file", "statement": "Whatever the arguments, and whether the extraction succeeds, raises or is interrupted, the input MEDS file has the same contents afterwards, including after the extractor object is closed or destroyed with cleanup set.", "quantifier": "all argument combinations, all interruption points", "why_tests_cant": "Crash points and destructor behaviour.", "anchors": ["meds/extractor.py:MEDSExtractor.__init__", "meds/extractor.py:MEDSExtractor.close", "meds/number_extractor.py:MEDSNumberExtractor.close"]}
{"id": "C24", "title": "Catalogue extraction copies the catalogue and nothing else", "statement": "MEDSCatalogExtractor writes the whole object catalogue, image info and metadata unchanged, and no pixel extensions; MEDS opens the result.", "quantifier": "all files", "why_tests_cant": "All files.", "anchors": ["meds/extractor.py:MEDSCatalogExtractor._extract"]}
{"id": "C25", "title": "The coadd-masked weight zeroes exactly other objects' pixels", "statement": "get_cweight_cutout(i, k) differs from get_cutout(i, k, 'weight') exactly by zeroing the pixels whose (nearest) coadd seg pixel belongs to another object (and, with restrict_to_seg, also sky pixels); all other pixels are unchanged, and masking twice is the same as masking once.", "quantifier": "all images, seg maps, centres and jacobians with an invertible coadd jacobian", "why_tests_cant": "All seg maps and geometries.", "anchors": ["meds/meds.py:MEDS.get_cweight_cutout", "meds/meds.py:MEDS._make_composite_image"]}
{"id": "C26", "title": "The coadd-masked seg map is the object's number inside its region and zero outside", "statement": "get_cseg_cutout(i,k) equals the object number at pixels mapped to the object's coadd segment and zero at all other pixels, as documented.", "quantifier": "all seg maps and geometries", "why_tests_cant": "All seg maps.", "anchors": ["meds/meds.py:MEDS.get_cseg_cutout", "meds/meds.py:MEDS._make_composite_image"]}
{"id": "C27", "title": "Composite mosaics agree with single composites", "statement": "get_cweight_mosaic and get_cseg_mosaic equal the stack of the corresponding per-cutout functions, and the list versions equal the list of them.", "quantifier": "all contiguous files and objects", "why_tests_cant": "All objects and epoch counts.", "anchors": ["meds/meds.py:MEDS.get_cweight_mosaic", "meds/meds.py:MEDS.get_cseg_mosaic", "meds/meds.py:MEDS.get_cweight_cutout_list"]}
{"id": "C28", "title": "Interpolated coadd seg maps only copy coadd labels and are exact for matching geometry", "statement": "interpolate_coadd_seg returns, for every epoch pixel, the coadd seg value at the coadd pixel nearest to the same tangent-plane position, clipped to the coadd stamp: its values always occur in the coadd seg map, and if the epoch has the coadd's jacobian and centre the result equals the coadd seg map.", "quantifier": "all seg maps, centres and jacobians", "why_tests_cant": "Continuum of geometries.", "anchors": ["meds/meds.py:MEDS.interpolate_coadd_seg", "meds/meds.py:MEDS._interpolate_coadd_seg_image"]}
{"id": "C29", "title": "Circular coadd-seg weight keeps exactly the largest clean disc", "statement": "get_cseg_weight keeps a pixel's weight unchanged when the pixel is strictly closer to the centre than every pixel of other objects and sets it to zero otherwise; with no neighbours it is the plain weight.", "quantifier": "all weights, seg maps and centres", "why_tests_cant": "All seg maps.", "anchors": ["meds/meds.py:MEDS.get_cseg_weight"]}
{"id": "C30", "title": "Uberseg masks by nearest labelled pixel", "statement": "With fast=False, get_uberseg zeroes a weight pixel exactly when the labelled (non-zero) seg pixel nearest to it, first in row-major order on ties, carries another object's label; all other pixels keep the coadd-masked weight. get_uberseg_list returns these maps for all cutouts of the object in order.", "quantifier": "all seg maps with at least one labelled pixel and all weights", "why_tests_cant": "All seg maps; ties and empty maps are rare in tests.", "anchors": ["meds/meds.py:MEDS.get_uberseg"]}
{"id": "C31", "title": "The compiled uberseg terminates and masks by a nearest labelled pixel", "statement": "get_uberseg with fast=True returns for every seg map, and each unlabelled pixel is zeroed only if some nearest labelled pixel belongs to another object and kept only if some nearest labelled pixel belongs to the object.", "quantifier": "all seg maps", "why_tests_cant": "Termination and the correctness of the tree search for every point set.", "anchors": ["meds/_uberseg.c:uberseg_tree", "meds/fast3tree.c:fast3tree_find_sphere", "meds/fast3tree.c:fast3tree_find_next_closest_distance"]}
{"id": "C32", "title": "Fast and slow uberseg agree", "statement": "Whenever no pixel is equidistant from nearest labelled pixels with different ownership, get_uberseg gives the same image with fast=True and fast=False; the direct compiled version agrees with the Python version even with ties.", "quantifier": "all non-negative seg maps with at least one labelled pixel (for the tree version: of at most 2896 pixels on a side, the range in which float32 holds all squared distances)", "why_tests_cant": "All seg maps.", "anchors": ["meds/_uberseg.c:uberseg_direct", "meds/_uberseg.c:uberseg_tree", "meds/meds.py:MEDS.get_uberseg"]}
{"id": "C33", "title": "reject_outliers applies the documented criterion and only removes weight", "statement": "reject_outliers leaves images alone, changes weights only by clipping negatives to zero and zeroing rejected pixels, rejects a pixel with positive weight exactly when |im - median| > nsigma/sqrt(wt) + A|median|, never touches lists of fewer than three images, and returns the number of positive weights it zeroed.", "quantifier": "all image stacks, weights and non-negative nsigma, A", "why_tests_cant": "Real-valued inequality over all values.", "anchors": ["meds/meds.py:reject_outliers"]}
{"id": "C34", "title": "reject_outliers does not depend on the order of the epochs", "statement": "Permuting the (image, weight) pairs permutes the resulting weights in the same way and leaves the number of rejections unchanged.", "quantifier": "all stacks and all permutations", "why_tests_cant": "All permutations.", "anchors": ["meds/meds.py:reject_outliers"]}
{"id": "C35", "title": "split_mosaic inverts stacking", "statement": "split_mosaic applied to square images of equal size stacked vertically returns exactly those images in order.", "quantifier": "all image sizes and counts", "why_tests_cant": "All sizes.", "anchors": ["meds/meds.py:split_mosaic"]}
{"id": "C36", "title": "Bounds behave as closed rectangles", "statement": "contains_point/contains_bounds are membership and inclusion of closed rectangles (reflexive, transitive, compatible); the expand operations return the smallest rectangle containing both the old one and the argument.", "quantifier": "all rectangles and points", "why_tests_cant": "All real coordinates, including arguments exceeding on two sides.", "anchors": ["meds/bounds.py:Bounds"]}
{"id": "C37", "title": "Zero-offset and WCS positions convert back and forth", "statement": "make_wcs_positions with inverse=True undoes inverse=False for the same offset, in both directions.", "quantifier": "all positions and offsets", "why_tests_cant": "All values.", "anchors": ["meds/util.py:make_wcs_positions"]}
{"id": "C38", "title": "The tangent-plane projection is well formed", "statement": "radec_to_uv sends the projection centre to (0, 0), is unchanged by adding 360 degrees to either right ascension, uses an orthonormal frame, and two directions in the hemisphere around the centre have the same (u, v) only if they are the same direction.", "quantifier": "all sky positions", "why_tests_cant": "Continuum of angles.", "anchors": ["meds/util.py:radec_to_uv", "meds/util.py:thetaphi_to_unitvecs_ruv"]}
{"id": "C39", "title": "The C and Python readers agree", "statement": "For every file and every in-range (iobj, icutout) the C functions meds_get_cutout, meds_get_weight_cutout, meds_get_seg_cutout and their mosaic versions return the same pixels as the Python reader.", "quantifier": "all files produced by the maker and all in-range indices", "why_tests_cant": "Two implementations over all files.", "anchors": ["src/meds.c:meds_get_cutout", "src/meds.c:meds_get_mosaic", "meds/meds.py:MEDS.get_cutout"]}
{"id": "C40", "title": "The C reader rejects bad indices before touching memory", "statement": "For every iobj and icutout, negative and huge ones included, the C accessors return NULL/0 unless the pair is valid, and never read outside the catalogue arrays.", "quantifier": "all long integers", "why_tests_cant": "All integer arguments.", "anchors": ["src/meds.c:check_iobj", "src/meds.c:check_iobj_icutout"]}
{"id": "C41", "title": "The C distortion accessor returns the cutout's own jacobian", "statement": "meds_get_distortion(m, i, k) returns the jacobian stored for epoch k of object i.", "quantifier": "all objects and epochs", "why_tests_cant": "Wrong only for k > 0 with differing jacobians.", "anchors": ["src/meds.c:meds_get_distortion"]}
{"id": "C42", "title": "The C reader's string buffer is large enough", "statement": "The buffer used to read image_info strings is at least as long as the longest of the string columns.", "quantifier": "all column widths", "why_tests_cant": "Depends on which column is the widest.", "anchors": ["src/meds.c:get_namelen_max"]}
{"id": "C43", "title": "FFT-friendly rounding is the least table size", "statement": "fft_round_size(n) is the smallest size in the table that is >= n, or the largest table size if there is none; it is monotone and idempotent.", "quantifier": "all integers", "why_tests_cant": "All integers.", "anchors": ["src/make-meds-input.c:fft_round_size"]}
{"id": "C44", "title": "Input box sizes respect the configured limits", "statement": "get_box_size always returns a table size, at least the configured minimum and at most the rounded maximum, and is at least the requested size unless limited by the maximum.", "quantifier": "all object measurements and limits", "why_tests_cant": "All real-valued measurements.", "anchors": ["src/make-meds-input.c:get_box_size"]}
{"id": "C45", "title": "Coadded MEDS files have a consistent layout", "statement": "In a file written by MEDSCoaddMaker each object has ncutout 0 or 1; the coadded objects' pixel ranges are disjoint, ordered and inside the extensions; get_cutout(i,0,t) returns exactly the coadd stamp written for object i; objects that could not be coadded have no cutout and a non-zero flag.", "quantifier": "all catalogues and all per-object coadd outcomes (success or any failure flag), any object range", "why_tests_cant": "All sequences of success and failure.", "anchors": ["meds/coadd.py:MEDSCoaddMaker._write_cutouts", "meds/coadd.py:MEDSCoaddMaker._set_obj_data"]}
{"id": "C46", "title": "Coadd epoch flags account for every epoch", "statement": "The per-epoch flags are zero exactly for the epochs that went into the coadd, and the number of epochs coadded equals the number of zero flags.", "quantifier": "all epoch lists and per-epoch conditions", "why_tests_cant": "All combinations of epoch conditions.", "anchors": ["meds/coadd.py:MEDSCoadder._get_obslist"]}
{"id": "C47", "title": "Symmetrized masks are symmetric", "statement": "After symmetrizing, the set of zero-weight (and of masked) pixels of a square stamp is invariant under rotation by 90 degrees and contains the original set.", "quantifier": "all stamps", "why_tests_cant": "All mask patterns.", "anchors": ["meds/coadd.py:MEDSCoadder._symmetrize_weight", "meds/coadd.py:MEDSCoadder._symmetrize_bmask"]}
{"id": "C48", "title": "Constructing a coadder does not change the caller's configuration", "statement": "Creating a MEDSCoadder leaves the configuration passed in unchanged, so two coadders made from one configuration behave alike.", "quantifier": "all configurations and numbers of constructions", "why_tests_cant": "A history property over shared mutable state.", "anchors": ["meds/coadd.py:MEDSCoadder._set_config"]}
{"id": "C49", "title": "Disabling the edge check accepts all epochs", "statement": "With the postage-stamp edge check turned off the check reports 'not masked' for every bit mask.", "quantifier": "all bit masks", "why_tests_cant": "Untested configuration branch.", "anchors": ["meds/coadd.py:MEDSCoadder._ps_edge_pixels_are_masked"]}
{"id": "C50", "title": "The comparator detects every difference in integer planes", "statement": "Comparator.go on two files raises for any pair of matched objects whose bmask or seg cutouts differ in any pixel or shape or (with same_nepoch) whose cutout counts differ, and does not raise when comparing a file with itself.", "quantifier": "all pairs of files", "why_tests_cant": "All pixel differences.", "anchors": ["meds/compare.py:Comparator.go", "meds/compare.py:Comparator._compare_images_exact", "meds/compare.py:Comparator._check_ncutout"]}
{"id": "C51", "title": "The viewer grid has a distinct cell for every plot", "statement": "For every number of plots the grid has at least that many cells, is never wider than one more than its height, and each plot index maps to its own cell inside the grid.", "quantifier": "all plot counts and indices", "why_tests_cant": "All integers.", "anchors": ["scripts/meds-view:Grid", "scripts/meds-view:get_grid"]}
{"id": "C52", "title": "Jacobian accessors agree with each other and with the layout", "statement": "get_jacobian_matrix and get_jacobian_list return the same derivatives, row/col centre as get_jacobian for each epoch, and these are the values the WCS gave at the object's position when the file was made.", "quantifier": "all objects and epochs", "why_tests_cant": "Four derivatives that can be silently swapped.", "anchors": ["meds/meds.py:MEDS.get_jacobian", "meds/meds.py:MEDS.get_jacobian_matrix", "meds/meds.py:MEDS.get_jacobian_list", "meds/maker.py:MEDSMaker._build_meds_layout"]}
{"id": "C53", "title": "An interrupted write leaves a readable prefix", "statement": "If MEDSMaker.write stops at any point, the extensions present are a prefix of the final sequence, the catalogue (once present) is already complete and correct, and every cutout pixel is either its final value or the reserved fill.", "quantifier": "all interruption points", "why_tests_cant": "Crash points.", "anchors": ["meds/maker.py:MEDSMaker._write_data", "meds/maker.py:MEDSMaker._write_cutouts"]}
{"id": "C54", "title": "Cutout types are normalised with the image first", "statement": "The list of cutout types used by MEDSMaker starts with 'image', contains 'image' exactly once, contains the other requested types in order, and any unsupported type is rejected.", "quantifier": "all requested lists", "why_tests_cant": "All lists, including repeated entries.", "anchors": ["meds/maker.py:MEDSMaker._set_cutout_types"]}
{"id": "C55", "title": "Object numbers survive extraction", "statement": "For every object in an extracted file, get_number returns the same number as in the original file.", "quantifier": "all files with or without a number column", "why_tests_cant": "Depends on the presence of the column and on the offset.", "anchors": ["meds/meds.py:MEDS.get_number", "meds/extractor.py:MEDSExtractor._extract"]}
{"id": "C56", "title": "The rough sky cut keeps every object on the image", "statement": "MEDSMaker's preliminary sky cut never discards an object whose position, converted to the image, lies inside the image: whenever the conversion from pixels to tangent-plane coordinates differs from a linear one by at most half the configured buffer, the set of objects with a cutout from an image is decided by the pixel position alone.", "quantifier": "all image sizes and shapes, all buffers, all world coordinate systems close to linear", "why_tests_cant": "All image sizes and coordinate systems; the cut is computed from a coarse grid of points.", "anchors": ["meds/maker.py:MEDSMaker._do_rough_sky_cut", "meds/maker.py:MEDSMaker._get_rough_sky_bounds"]}
{"id": "C57", "title": "The central region check looks at the centre", "statement": "With the central-region check on and size s, an epoch is rejected exactly when a pixel of the s by s region around the stamp centre is unusable (up to rounding of the region by half a pixel on each side).", "quantifier": "all stamp sizes, all region sizes", "why_tests_cant": "All combinations of stamp and region size, including regions larger than the stamp.", "anchors": ["meds/coadd.py:MEDSCoadder._central_region_is_masked"]}
{"id": "C58", "title": "Symmetrizing a mask never removes a flag", "statement": "Symmetrizing a bit mask adds flags to pixels; a pixel that had a flag before still has it afterwards, so an epoch that hits the image edge is still recognised.", "quantifier": "all masks and flag sets", "why_tests_cant": "All masks.", "anchors": ["meds/coadd.py:MEDSCoadder._symmetrize_bmask", "meds/coadd.py:MEDSCoadder._hits_the_edge"]}
{"id": "C59", "title": "Interpolation touches only unusable pixels", "statement": "Before an epoch is coadded, pixels with positive weight and no bad flag keep image value and weight; every other pixel gets the median weight of the good pixels; afterwards all weights are positive.", "quantifier": "all images, masks and weights with at least one good pixel", "why_tests_cant": "All images.", "anchors": ["meds/coadd.py:MEDSCoadder._interp_bad_pixels", "meds/coadd.py:MEDSCoadder._do_interp"]}
{"id": "C60", "title": "The coadd's masks summarise the epochs used", "statement": "In a coadd bmask is zero, and a bit is set in ormask at a pixel exactly when it is set there in the mask of an epoch that went into the coadd; nepoch coadded and the recorded flags are those of the epochs used.", "quantifier": "all objects and epoch subsets", "why_tests_cant": "All subsets of epochs and all masks.", "anchors": ["meds/coadd.py:MEDSCoadder.get_coadd_obs"]}
{"id": "C61", "title": "Flag lists combine as bit sets", "statement": "A pixel counts as bad (or as edge) exactly when it has one of the configured bad (edge) flags set, for every list of flags in the configuration.", "quantifier": "all lists of flags and all mask values", "why_tests_cant": "All lists, including repeated or overlapping flags.", "anchors": ["meds/coadd.py:MEDSCoadder._set_bad_flags", "meds/coadd.py:MEDSCoadder._set_edge_flags"]}
{"id": "C62", "title": "A coadd maker can write several parts of the catalogue", "statement": "MEDSCoaddMaker.write may be called several times with different object ranges; each file is the same as the one a fresh maker would write for that range.", "quantifier": "all sequences of calls and ranges", "why_tests_cant": "Depends on the state earlier calls leave behind.", "anchors": ["meds/coadd.py:MEDSCoaddMaker.write", "meds/coadd.py:MEDSCoaddMaker._write_object_cutouts"]}
{"id": "C63", "title": "Computed columns of the input catalogue are ignored", "statement": "The catalogue of an existing MEDS file can be used as obj_data: the new file is the same as if only its id, box_size, position and user columns had been given; ncutout and the per-epoch columns are computed afresh.", "quantifier": "all catalogues read from files, all new image lists", "why_tests_cant": "Depends on which of the input's columns are carried along and reset; tests build the catalogue by hand with the documented columns only.", "anchors": ["meds/maker.py:MEDSMaker._get_full_obj_data", "meds/maker.py:MEDSMaker._build_meds_layout"]}
{"id": "C64", "title": "User columns are carried through unchanged", "statement": "Every column of obj_data that the maker does not compute itself appears in the object_data table of the file with the same name, type and values, row by row, whatever the number of epochs.", "quantifier": "all catalogues with any extra columns, all layouts", "why_tests_cant": "All sets of column names, types and shapes; the table is rebuilt three times on the way to the file.", "anchors": ["meds/maker.py:MEDSMaker._get_full_obj_data", "meds/maker.py:MEDSMaker._make_resized_data", "meds/util.py:get_meds_output_dtype"]}
{"id": "C65", "title": "Metadata keep the user's fields and gain software versions", "statement": "The metadata table of the file has the user's fields with their values and the fields for the versions of meds, numpy and fitsio.", "quantifier": "all metadata structures", "why_tests_cant": "All field names, including those the package itself writes.", "anchors": ["meds/maker.py:MEDSMaker._set_meta_data", "meds/coadd.py:MEDSCoaddMaker._set_meta"]}
{"id": "C66", "title": "validate_meds reports exactly what is missing", "statement": "validate_meds lists exactly the required extensions and columns that the file lacks.", "quantifier": "all files", "why_tests_cant": "All combinations of missing extensions and columns.", "anchors": ["meds/util.py:validate_meds"]}
{"id": "C67", "title": "Missing required columns are refused", "statement": "The constructor raises before anything is written when obj_data lacks id, box_size, ra or dec, or image_info lacks a required column. An image_info with all of them is accepted, and so is an obj_data that has the four as plain numbers and no column with a name of the maker's own.", "quantifier": "all catalogues and image tables", "why_tests_cant": "All sets of columns.", "anchors": ["meds/maker.py:MEDSMaker._check_required_obj_data_fields", "meds/util.py:get_image_info_dtype"]}
{"id": "C68", "title": "A setting overrides its default and nothing else changes", "statement": "Every entry of the configuration has the user's value if the user gave one and the documented default otherwise; entries the user did not name are unaffected. What is not a dictionary or None is refused.", "quantifier": "all configurations, any set of entries", "why_tests_cant": "All combinations of entries, including deprecated ones given together with the current ones.", "anchors": ["meds/maker.py:MEDSMaker._load_config", "meds/maker.py:MEDSMaker._set_extra_config", "meds/defaults.py"]}
{"id": "C69", "title": "Pixels with mask bits that are not allowed are unusable", "statement": "With bitmask_allowed in the configuration, every pixel of a cutout whose bit mask has a bit outside of the allowed ones has zero weight in the file.", "quantifier": "all configurations, masks and weights", "why_tests_cant": "All masks and all bit values.", "anchors": ["meds/defaults.py", "meds/maker.py:MEDSMaker._load_config", "meds/maker.py:MEDSMaker._read_image"]}
{"id": "C70", "title": "use_joblib=False means serial work, and the file does not depend on it", "statement": "Work is done in parallel exactly when use_joblib is true; the PSFs and positions in the file are the same either way, whatever the number of workers.", "quantifier": "all configurations, numbers of workers, objects and images", "why_tests_cant": "All ways of splitting the work.", "anchors": ["meds/maker.py:MEDSMaker._set_extra_config", "meds/maker.py:MEDSMaker._write_psf_cutouts", "meds/maker.py:MEDSMaker._do_sky2image"]}
{"id": "C71", "title": "Colours are used exactly where configured", "statement": "The WCS (PSF model) of an image is called with the object's colour exactly when the section of the configuration for that image, the coadd's or the single epochs', asks for it, and then with that object's value of the named column.", "quantifier": "all configurations, catalogues with colour columns and image lists", "why_tests_cant": "All combinations of sections, with and without a coadd.", "anchors": ["meds/maker.py:MEDSMaker._do_sky2image", "meds/maker.py:MEDSMaker._get_jacobians", "meds/maker.py:MEDSMaker._get_psf_rec"]}
{"id": "C72", "title": "The WCS given in image_info is used", "statement": "If image_info has a wcs column, positions and jacobians of an image come from that WCS; the image header is only a fallback, and the size of the image is set on the WCS.", "quantifier": "all images, with and without PSF objects", "why_tests_cant": "All combinations of sources for the WCS.", "anchors": ["meds/maker.py:MEDSMaker._get_wcs"]}
{"id": "C73", "title": "make-meds-input prints one right line per row", "statement": "make-meds-input prints one line per row of the table, in order: the id (position of the row, or the entry at that place of the id file), row, column, and a box size which lies between the limits and holds the object unless it is the upper limit. An id file that does not have exactly one entry per row is refused with a non-zero exit status and no output.", "quantifier": "all tables, limits and id files", "why_tests_cant": "All tables and id files of any length.", "anchors": ["src/make-meds-input.c:main", "src/make-meds-input.c:cat_add_id_from_file", "src/make-meds-input.c:load_rows"]}
{"id": "C74", "title": "meds-get-cutout writes what the library returns and reports failures", "statement": "meds-get-cutout writes the image of the requested cutout or mosaic to the output file and exits with status zero; if the output could not be produced the exit status is not zero.", "quantifier": "all files, indices and output files", "why_tests_cant": "All files and indices.", "anchors": ["src/meds-get-cutout.c:main", "src/meds.c:meds_cutout_write_fits"]}
{"id": "C75", "title": "Everything handed to the coadd for an epoch belongs to that epoch", "statement": "The observation made for an epoch has that epoch's image, weight and bit mask, its jacobian, its offset from the centre of the stamp, its seg map (interpolated from the coadd's) and the PSF at its own file and position; pixels that are usable have the values of the file.", "quantifier": "all files, objects and configurations of the coadder", "why_tests_cant": "The lists for the planes start at different epochs and some epochs are left out, so an off-by-one shows only for particular combinations of epochs.", "anchors": ["meds/coadd.py:MEDSCoadder._get_obslist"]}
{"id": "C76", "title": "Images computed from an extracted file are those of the original", "statement": "Composite weights and seg maps, uberseg weights, interpolated seg maps and their mosaics and lists of an object in an extracted file equal those computed from the original file.", "quantifier": "all files stored in catalogue order, all ranges or lists of numbers, all objects", "why_tests_cant": "All files and all selections; the computed images use the catalogue, the coadd cutout and the number of the object.", "anchors": ["meds/extractor.py:MEDSExtractor", "meds/extractor.py:MEDSNumberExtractor", "meds/meds.py:MEDS.get_cweight_cutout", "meds/meds.py:MEDS.get_cseg_cutout", "meds/meds.py:MEDS.get_uberseg"]}
{"id": "C77", "title": "The coadd of an object does not depend on the other objects of the file", "statement": "Coadding an object of an extracted file gives the coadd that the original file gives for that object.", "quantifier": "all files stored in catalogue order, all ranges, objects and configurations", "why_tests_cant": "All files and ranges; the target grid is chosen from all objects of the file.", "anchors": ["meds/coadd.py:MEDSCoadder._set_target_jacobian", "meds/coadd.py:MEDSCoadder.get_coadd_obs", "meds/extractor.py:MEDSExtractor"]}
{"id": "C78", "title": "A coadd file can be subset like any MEDS file", "statement": "Cutting a range of objects, or a list of numbers, out of a file written by the coadd maker completes, and each object of the new file has the planes, the PSF image, the jacobian and the catalogue entries it has in the coadd file.", "quantifier": "all coadd files written for any object range and any outcome of each coaddition, all ranges and lists of numbers", "why_tests_cant": "The coadd file has another catalogue layout (one PSF size per object, objects without stamp, unused entries) than the files the extractors were written for.", "anchors": ["meds/coadd.py:MEDSCoaddMaker.write", "meds/extractor.py:MEDSExtractor", "meds/number_extractor.py:MEDSNumberExtractor"]}
{"id": "C79", "title": "The C library reports the metadata of the file", "statement": "After meds_open, every entry of the struct meds_meta whose column is in the table metadata has the value of that column; an entry whose column is missing is NULL or -9999; reading touches no memory outside its buffers.", "quantifier": "all metadata tables: any subset of the columns, any widths and values", "why_tests_cant": "Tests read one file with all columns; the outcome depends on which of nineteen columns are present and on how wide they are, and a one-byte stray write seldom shows.", "anchors": ["src/meds.c:read_meta", "src/meds.c:fits_read_string_byname", "src/meds.c:fits_read_double_byname", "src/meds.c:fits_read_long_byname"]}
{"id": "C80", "title": "A meds-view session shows the objects asked for, and its page lists their pictures", "statement": "meds-view draws, for each requested object with cutouts in the order asked for, one picture per cutout type; stored pictures of different objects or types have different file names; the page (--html-file) is complete and has one line per object with just these pictures whenever the session ends without an error.", "quantifier": "all object lists and ranges, all types, all numbers of cutouts, all answers of the user, all drawing errors", "why_tests_cant": "A session is interactive and has unboundedly many courses; file name clashes need particular pairs of objects and types.", "anchors": ["scripts/meds-view:Viewer.go", "scripts/meds-view:Viewer._get_indices", "scripts/meds-view:Viewer._get_png_filename"]}
{"id": "C81", "title": "The combined picture shows every cutout in its own cell", "statement": "meds-view --combine shows cutout k in cell k of the grid, every pixel as in the picture of the cutout alone, and empty cells are zero.", "quantifier": "all lists of images of one shape, any number, any pixel values", "why_tests_cant": "The place of a pixel depends on the number and the shape of the images.", "anchors": ["scripts/meds-view:make_combined_mosaic", "scripts/meds-view:Grid"]}
{"id": "C82", "title": "Grey values of the viewer", "statement": "Every pixel gets a grey value between 0 and 1, proportional to its value where positive, and a brighter pixel is never shown darker.", "quantifier": "all images, values in any ordered field", "why_tests_cant": "Depends on the sign of the largest value of the image.", "anchors": ["scripts/meds-view:linear_scale"]}
{"id": "C83", "title": "A file cut into consecutive parts loses nothing and stores nothing twice", "statement": "Take any file written by MEDSMaker and cut it with the range extractor at any increasing positions into consecutive parts (0..b-1, b..c-1, ..., up to the last object). The catalogues of the parts, one after the other, are the catalogue of the file; only the start columns differ. For image, weight, seg, bmask and noise cutouts, and for the PSF images, the pixels of the parts, one part after the other, are exactly the pixels of the file: none is lost and none is in two parts. A part none of whose objects has a cutout contributes no pixels (it holds two dummy values per extension). The cutting completes at any increasing positions, if the file has weight and segmentation cutouts and every epoch and every PSF image has at least one pixel.", "quantifier": "for all catalogues, images, PSF models, settings and all ways to cut, including parts without cutouts", "why_tests_cant": "The number of ways to cut a file grows exponentially with the number of objects, and an overlap of one cutout at one boundary is only visible for the objects next to it.", "anchors": ["meds/extractor.py:MEDSExtractor._extract", "meds/extractor.py:MEDSExtractor._get_row_range", "meds/extractor.py:get_psf_row_range"]}
{"id": "C84", "title": "The noise image of each coadded epoch has its own random numbers and the errors of that epoch", "statement": "While a coadder works through any list of objects, every epoch it hands to the coadding code gets a noise image of the same shape as the epoch's weight map. At each usable pixel the noise is one standard normal deviate of the coadder's generator times the error of that pixel, sqrt(1/weight), where the weight is positive and is the weight handed over with the image; at a bad pixel it is interpolated from the usable pixels like the image. The deviates are taken in order, one per pixel, row by row and stamp after stamp: no deviate is used for two pixels, none is skipped, and epochs that are left out draw none. Images, weights, masks, flags and the choice of epochs do not depend on the generator.", "quantifier": "for all MEDS files, configurations (outlier rejection and symmetrizing on or off), generators, lists of objects and numbers drawn before", "why_tests_cant": "A test sees random values; that noise of two epochs or objects is not correlated, and that no error is infinite, has to hold for every combination of masks, weights and epochs left out.", "anchors": ["meds/coadd.py:MEDSCoadder._interp_bad_pixels", "meds/coadd.py:MEDSCoadder._make_noise_image", "meds/coadd.py:MEDSCoadder._get_obslist"]}
{"id": "C85", "title": "With the same seed an object gets the same noise whatever was coadded before", "statement": "Two coadders with the same seed and configuration give an object the same noise image, whichever objects (for instance another obj_range, or the same object) each of them coadded before.", "quantifier": "for all files, configurations, generators and lists of objects", "why_tests_cant": "It compares two runs over different lists of objects; a test has one or two of them.", "anchors": ["meds/coadd.py:MEDSCoadder.__init__", "meds/coadd.py:MEDSCoadder._make_noise_image", "meds/coadd.py:MEDSCoaddMaker._write_cutouts"]}
{"id": "C86", "title": "A C program that frees what it gets leaves no memory in use", "statement": "A program that calls meds_open, asks for any number of cutouts, mosaics and pixel pointers (with any indices and any extension), writes cutouts to files, frees each of them once in any order, and calls meds_free, leaves in use exactly the blocks that were in use before; no block is ever freed that is not in use, whatever the file lacks.", "quantifier": "for all files (any table, column or row missing or unreadable, any number of objects, cutouts and images), all programs of that form, all heaps", "why_tests_cant": "Leaks and double frees depend on which of some thirty reads fails first; a test has a few broken files, and a leak has no visible effect in one run.", "anchors": ["src/meds.c:meds_open", "src/meds.c:meds_free", "src/meds.c:load_table", "src/meds.c:read_meta", "src/meds.c:meds_meta_free", "src/meds.c:get_cutout_data_dbl", "src/meds.c:meds_cutout_free"]}
{"id": "C87", "title": "An object's epochs do not depend on the other objects of the catalogue", "statement": "Two files are written with the same settings, images and PSF models, from different catalogues. Objects with the same position and the same box size have the same number of epochs in both, and the same cutouts of every type, mosaics, cutout lists, source images, positions, jacobians and PSF images. An object that is listed in both catalogues gets into both files or into neither.", "quantifier": "for all catalogues, images, settings and PSF models for which both writes complete, all pairs of equal objects, all epochs", "why_tests_cant": "The layout works on whole columns through composed index arrays, writes at positions that depend on all earlier objects, and widens the columns for the object with most epochs; a test compares a few catalogues.", "anchors": ["meds/maker.py:MEDSMaker._build_meds_layout", "meds/maker.py:MEDSMaker._write_cutouts", "meds/maker.py:MEDSMaker._write_psf_cutouts", "meds/meds.py:MEDS.get_cutout"]}
{"id": "C88", "title": "The file of two catalogues one behind the other is the two files one behind the other", "statement": "A file written from the catalogue A followed by B has the objects of the file of A and then those of the file of B, with the same columns. For each cutout type and for the PSFs the stored pixels are those of the file of A followed by those of the file of B; the start rows of the objects of A are unchanged and those of B are larger by the number of pixels of A.", "quantifier": "for all catalogues A and B, images, settings and PSF models for which the three writes complete", "why_tests_cant": "It ties the offsets of every object to the sizes of all objects before it, for catalogues of any length and any mixture of box sizes, PSF sizes and epochs.", "anchors": ["meds/maker.py:MEDSMaker._build_meds_layout", "meds/maker.py:MEDSMaker._set_start_rows_and_pixel_count", "meds/maker.py:MEDSMaker._set_psf_layout", "meds/maker.py:MEDSMaker._write_data"]}
{"id": "C89", "title": "The picture of a cutout shows a brighter pixel never darker", "statement": "meds-view gives every pixel of an image, seg map, bit mask or PSF a grey value between 0 and 1 such that of two pixels of a cutout the one with the larger value is never shown darker; NaN pixels of an image are shown like zero; pixels with different seg numbers or different mask values have different greys.", "quantifier": "all cutouts and weights, any values", "why_tests_cant": "All pixel values and weights, including stamps where all pixels are negative.", "anchors": ["scripts/meds-view:Viewer.plot_one", "scripts/meds-view:view", "scripts/meds-view:scale_image"]}
{"id": "C90", "title": "The exit status of the extraction scripts tells what happened", "statement": "meds-extract-range FILE START END OUT and meds-extract-catalog FILE OUT end with status 0 exactly when OUT has become the requested subset of FILE (or help was asked for, and nothing changed); in every other case the status is not 0 and nothing on the disk has changed. START and END are read as decimal numbers.", "quantifier": "for all disks with links, all files and all command lines, including options, abbreviations and negative numbers", "why_tests_cant": "All argument lists and all files, including those on which the extraction fails half way.", "anchors": ["scripts/meds-extract-range:main", "scripts/meds-extract-catalog:main", "meds/extractor.py:extract_range", "meds/extractor.py:extract_catalog"]}
{"id": "C91", "title": "Every plane is read from the file and extension named in its own image_info row", "statement": "In a file written by MEDSMaker every stored pixel of object i, epoch k, comes from the files named in the image_info row file_id[i,k]: image from image_path/image_ext, less bkg_path/bkg_ext, times scale (1 if there is no such column); weight from weight_path/weight_ext over scale squared, zero where bmask_path/bmask_ext has an unusable bit; seg and bmask from their own paths. Blanks around a path are ignored; a path that is blank or the word none, in any letter case, means that there is no such image.", "quantifier": "for all files on the disk, all image_info tables with string or bytes columns and integer or text extensions, all catalogues and settings", "why_tests_cant": "All combinations of paths, extensions and column types; a wrong row or file gives plausible pixels.", "anchors": ["meds/maker.py:MEDSMaker._read_one_image", "meds/maker.py:MEDSMaker._read_image", "meds/maker.py:MEDSMaker._get_scale", "meds/util.py:get_image_info_dtype"]}
{"id": "C92", "title": "The exit status of meds-compare says whether the files agree", "statement": "meds-compare FILE1 FILE2 exits with status zero exactly when both files open, have the same catalogue columns, and all objects with the same id (--id-name) have equally many cutouts (unless --no-nepoch) that agree: image within --image-rms-tol, weight within 1e-4, bmask and seg exactly. With --nrand N this holds for N matched objects chosen at random.", "quantifier": "for all pairs of files, all arguments and all random draws", "why_tests_cant": "Pairs of files that differ in any way, and random draws, cannot be enumerated.", "anchors": ["scripts/meds-compare:main", "meds/compare.py:Comparator.go", "meds/compare.py:Comparator.compare_images", "meds/compare.py:Comparator._get_random_subset", "meds/compare.py:Comparator._match"]}
{"id": "C93", "title": "meds-compare finds no difference between a file and its subsets", "statement": "For every MEDS file with different ids whose image, weight, bmask and seg cutouts can be read, and every subset of it made by extract_range or extract_numbers, meds-compare exits with status zero, in either order of the two files and with any --nrand. Files written by MEDSMaker with these types are such files.", "quantifier": "for all such files, all ranges and lists of numbers, all random draws", "why_tests_cant": "Composition of extraction and comparison over all files and subsets.", "anchors": ["scripts/meds-compare:main", "meds/compare.py:Comparator.go", "meds/extractor.py:MEDSExtractor._extract", "meds/number_extractor.py:MEDSNumberExtractor._extract"]}
{"id": "C94", "title": "An epoch depends on the object and its own image only", "statement": "Take two files made by MEDSMaker with the same settings, from any catalogues and any lists of images, and an object (same position, colour and box size) in both. An image in both lists, as the coadd of both or of neither, gives the object an epoch in one file exactly if it does in the other, and then get_cutout of every stored type, get_source_info, get_source_path, get_cutout_rowcol, get_jacobian, get_jacobian_matrix (and get_psf, with the same PSF model) return the same for that epoch in both files, whatever its number there. If the second list is the first with images added at the end, old epochs keep their numbers.", "quantifier": "for all catalogues, lists of images and PSF models, and all positions of the image in the lists", "why_tests_cant": "The lists of images range over all lists; the storage offsets of every cutout change with them.", "anchors": ["meds/maker.py:MEDSMaker._build_meds_layout", "meds/maker.py:MEDSMaker._write_cutouts", "meds/meds.py:MEDS.get_cutout"]}
{"id": "C95", "title": "The file in machine arithmetic", "statement": "MEDSMaker computes positions, limits and centres in doubles, the integer part of a position in 32-bit and corners and start rows in 64-bit integers. If the limits of the images (with the coadd buffer) are doubles within the range of 32-bit integers, the boxes are below 2^31 and the file has fewer than 2^63 pixels, the file written is the one that exact arithmetic gives for the positions rounded to doubles, except that cutout_row and cutout_col are rounded to doubles too: every reader call that does not return them gives the same. The error of the centre, orig_row - orig_start_row, is at most box_size/2^54, and it is zero where the corner is not off the image. The comparison of pixel counts in _set_start_rows_and_pixel_count never fails, so it would not notice an overflow.", "quantifier": "for all catalogues, images, WCS and PSF models within these limits", "why_tests_cant": "Rounding is invisible in tests with round numbers, and wrong only for some of all doubles; overflow needs files no test can write.", "anchors": ["meds/maker.py:MEDSMaker._build_meds_layout", "meds/maker.py:MEDSMaker._set_start_rows_and_pixel_count", "meds/util.py:make_wcs_positions"]}
{"id": "C96", "title": "make-meds-input refuses malformed input", "statement": "make-meds-input accepts an identifier file exactly when its text is one integer for each row of the catalogue, separated by white space; the k-th integer is then the identifier in the k-th line. With any other identifier file, with fewer than three arguments, with a catalogue that cannot be opened or that lacks one of the nine columns (names compared without regard to case), it prints nothing.", "quantifier": "all catalogues, all argument lists, all identifier files", "why_tests_cant": "All texts of the identifier file, all catalogue lengths, all subsets of columns.", "anchors": ["src/make-meds-input.c:main", "src/make-meds-input.c:load_rows", "src/make-meds-input.c:cat_add_id_from_file", "src/make-meds-input.c:cat_write_meds_input"]}
{"id": "C97", "title": "Printed positions can be read back", "statement": "The row and column printed by make-meds-input, read as doubles, are the doubles of the catalogue.", "quantifier": "all doubles", "why_tests_cant": "All doubles.", "anchors": ["src/make-meds-input.c:cat_write_meds_input"]}
{"id": "C98", "title": "Arrays made with the helpers are accepted by MEDSMaker", "statement": "get_meds_input_struct(n, extra_fields) gives an array of n rows with the columns id, box_size, ra, dec and the added ones, all set to the default value (an added ncutout to zero); get_image_info_struct gives an array with the documented columns, scale 1 and zeros or empty strings elsewhere, with a column wcs only if wcs_len is given. Both raise a ValueError if an added column has the name of another one. However these arrays are filled in, MEDSMaker finds the columns it requires, and the catalogue made from the first keeps every column if none has the name of a computed one. The file can be opened with the C library, as far as the columns of image_info go, exactly if wcs_path and sky_path were added.", "quantifier": "all numbers of rows, all lists of added columns, all values filled in", "why_tests_cant": "All lists of added columns, with any names and widths.", "anchors": ["meds/util.py:get_meds_input_struct", "meds/util.py:get_meds_input_dtype", "meds/util.py:get_image_info_struct", "meds/util.py:get_image_info_dtype"]}
{"id": "C99", "title": "The source reported for a cutout is the file its pixels were read from", "statement": "For every stored epoch, get_source_info and get_source_path give the image_info row and the path of the image that the pixels of the cutout were taken from; the path is the one that the user wrote into the array made by get_image_info_struct, and the pixels are those of the file of that name.", "quantifier": "all paths, all lengths of the path column, all catalogues, all images and all files on the disk", "why_tests_cant": "All path texts against all column widths, combined with the whole write.", "anchors": ["meds/util.py:get_image_info_struct", "meds/util.py:get_image_info_dtype", "meds/maker.py:MEDSMaker._read_one_image", "meds/meds.py:MEDS.get_source_info", "meds/meds.py:MEDS.get_source_path"]}
{"id": "C100", "title": "Stored pixels are right up to rounding, whatever the pixel type of the images", "statement": "Image and weight are scaled in place in the pixel type of the file they were read from. Whatever that type is, the write completes whenever it would in exact arithmetic, every stored image pixel is (raw - background) * scale and every weight raw / scale^2 up to a few units of rounding, masked weights are exactly zero, and image^2 * weight stays independent of the scale up to 16 units of single precision.", "quantifier": "all images, backgrounds, masks, scales and pixel types of every plane, all catalogues", "why_tests_cant": "All pixel values against all combinations of pixel types of image, background and weight; the tests use one type of plane.", "anchors": ["meds/maker.py:MEDSMaker._read_image", "meds/maker.py:MEDSMaker._get_scale", "meds/util.py:get_image_info_dtype"]}
{"id": "C101", "title": "What meds-compare prints is every difference between two files", "statement": "When `Comparator.go()` (or the script meds-compare) ends without an error, its messages tell the differences between the two files that do not raise: a message for every catalogue column whose values differ for some pair of objects with the same id (\"requiring exact match\"), a message for every pair of image cutouts that differ by more than the tolerance, and a message for every pair of weight cutouts with pixels that differ by 1e-4 or more, with their number; and nothing else is reported.", "quantifier": "all pairs of files, all catalogue columns of numbers (with NaN and infinities) or text, all tolerances, all cutouts", "why_tests_cant": "A test sees single pairs of files; the statement is about every value of every column and pixel, and the cases where nothing is printed (relative closeness of large integers, a constant offset, a NaN pixel) look like agreement.", "anchors": ["meds/compare.py:31-73", "meds/compare.py:75-118", "meds/compare.py:189-229"]}
{"id": "C102", "title": "Masked pixels do not decide which good pixels are rejected", "statement": "The weights that `reject_outliers` leaves for pixels of positive weight do not depend on the image values where the weight is zero (masked pixels, and the part of a cutout outside of its source image).", "quantifier": "all stacks of images and weights of one shape, all non-negative nsigma and A", "why_tests_cant": "Whether masked values matter depends on the whole stack; a test has one stack, usually without masked or NaN pixels.", "anchors": ["meds/meds.py:1098-1183", "meds/coadd.py:472-480"]}
{"id": "C103", "title": "A NaN pixel affects only itself in reject_outliers", "statement": "When a pixel of an image or weight is NaN, `reject_outliers` treats all other pixels, of the same epoch and of the others, as if it were masked.", "quantifier": "all stacks of images and weights of one shape with NaN anywhere", "why_tests_cant": "Whether masked values matter depends on the whole stack; a test has one stack, usually without masked or NaN pixels.", "anchors": ["meds/meds.py:1098-1183"]}
{"id": "C104", "title": "Image values of unusable pixels never reach a coadd", "statement": "The observations handed to the coadding code, their noise images and the coadd do not depend on the image values of pixels with a weight of zero or less or with a bad flag: changing only those in a MEDS file changes nothing.", "quantifier": "all MEDS files, objects, configurations, interpolators, seeds", "why_tests_cant": "The value may be anything, and there are many ways from a pixel to the coadd (median, interpolation, noise); a test changes one pixel in one file.", "anchors": ["meds/coadd.py:449-602", "meds/coadd.py:717-809", "meds/meds.py:1098-1183"]}
{"id": "C105", "title": "The compiled uberseg stays inside its memory and frees all of it", "statement": "uberseg_tree, called as get_uberseg calls it, reads and writes only inside the arrays it has allocated or was given, uses no array after it has been freed or moved by realloc, never calls exit, and when it returns all of its memory has been freed exactly once; the weights it leaves are those of the search tree (C31).", "quantifier": "all seg maps with whole labels and weights of that shape, any number of labelled pixels, any state of the heap", "why_tests_cant": "The array of nodes is moved by realloc in the middle of the recursion, but only for lopsided point sets; overruns and leaks of C code do not show up as wrong results in a test.", "anchors": ["meds/_uberseg.c:84-184", "meds/fast3tree.c:213-242", "meds/fast3tree.c:322-367", "meds/fast3tree.c:593-804", "meds/fast3tree.c:817-877"]}
{"id": "C106", "title": "Rounding does not disturb labels taken over from the coadd, nor circular masks", "statement": "get_cweight_cutout, get_cseg_cutout, interpolate_coadd_seg and get_uberseg compute in doubles where a pixel of an epoch falls on the coadd. That position is right up to a bound that grows only with the side of the stamp, the pixel scale ratio and the accuracy of the matrix inversion: a millionth of a pixel for stamps of up to 2048 pixels. So the label is that of the coadd pixel within that distance of the true position, the images are those of exact arithmetic unless a pixel centre falls that close to a border between coadd pixels, and an epoch with the geometry of the coadd gets the coadd seg map itself. get_cseg_weight never keeps a pixel of another object, and keeps or zeroes every pixel as in exact arithmetic unless two squared distances agree to 14 digits; with use_canonical_cen it does so always.", "quantifier": "all files, objects and epochs, all jacobians, centres and box sizes, all matrix inversions of the stated accuracy, all seg maps", "why_tests_cant": "Positions on a border and ill-conditioned jacobians are hit by chance only; a test compares a few stamps computed with the same arithmetic.", "anchors": ["meds/meds.py:736-784", "meds/meds.py:963-1031", "meds/meds.py:622-681", "meds/meds.py:445-508"]}
{"id": "C107", "title": "Outlier rejection in single precision keeps to its documented criterion", "statement": "reject_outliers computes in the types of its arrays: chi2 in the type of the image (usually single precision), the median and the threshold in doubles. For nsigma >= 0 and A >= 2^-30 a pixel that exceeds the documented threshold by more than 4 parts in a million is rejected, and one that stays below it by as much is kept, with its weight clipped at zero; the count returned is the number of positive weights set to zero. If no pixel lies that close to its threshold, weights and count are those of exact arithmetic. The order of the images never matters, not even in rounding. An array of integers raises TypeError. With A = 0 the rounding of the median alone can reject pixels that are well within the threshold.", "quantifier": "all stacks of three or more images of floats of one shape, all pixel values and weights, all mixtures of single and double precision, all nsigma >= 0 and A >= 2^-30, every square root accurate to half a unit", "why_tests_cant": "Tests use a few stacks with outliers far from the threshold, in doubles; whether in-place operations in single precision could move a decision is a statement about all pixel values.", "anchors": ["meds/meds.py:1098-1183"]}
{"id": "C108", "title": "The C library reads extracted files as it reads the original", "statement": "A file that extract_range or the number extractor has written can be opened by the C library whenever the original could, and every accessor of the library gives, for each of its objects, the result that it gives for that object in the original file: number of cutouts, centres, source file and path, distortion, and the cutouts and mosaics of images, weights and segmentation, equal in every field and pixel. meds-get-cutout writes the same images from both.", "quantifier": "all MEDS files that both readers open and whose cutouts are stored in order (range) or together per object (numbers), as every file of the maker is; all ranges and lists of numbers for which extraction succeeds; all objects and all integers as epochs", "why_tests_cant": "The C library and the Python extractors are different programs in different languages; the extractors rewrite start rows which the C library turns into offsets of raw reads. Tests would need both builds and every layout.", "anchors": ["meds/extractor.py:40-201", "meds/number_extractor.py:1-266", "src/meds.c:991-1043", "src/meds.c:1262-1536", "src/meds-get-cutout.c:5-46"]}
{"id": "C109", "title": "Labels of any size in get_uberseg", "statement": "get_uberseg gives the same image with fast=True (compiled) and fast=False (Python loop) for every size of the labels of the seg maps and of the object's number.", "quantifier": "all seg maps with integer labels, all positive object numbers, all sizes of stamps whose squared distances float32 holds", "why_tests_cant": "Whether two labels are mixed up depends on their difference modulo 2^32; tests use small labels. Survey catalogues have 64-bit ids.", "anchors": ["meds/meds.py:445-508", "meds/_uberseg.c:84-149", "meds/defaults.py:46"]}
{"id": "C110", "title": "Bits of masks survive storage", "statement": "A stored bit mask has at every pixel on the source image the bits of the source's mask, and the edge bit 2^30 and nothing else at pixels off the image; so it tells which weights have been set to zero for unusable_bmask. Labels of seg maps are stored unchanged.", "quantifier": "all written files, epochs, pixels, masks and labels, for every integer type chosen with bmask_dtype and seg_dtype", "why_tests_cant": "The loss happens in numpy's silent conversions between integer types and depends on the highest bit used in the input and on the configured type.", "anchors": ["meds/maker.py:256-293", "meds/maker.py:563-596", "meds/defaults.py:5-13", "meds/defaults.py:46-47"]}
{"id": "C111", "title": "The C library reads coadd files", "statement": "A file written by MEDSCoaddMaker can be opened with the C library. A coadded object has one cutout there, which is the coadded image (also as mosaic, with the coadded weight map and labels), with the centre and the derivatives of the coadd's own jacobian, and the first image of the original file as its source; an object without coadd has none and every accessor refuses it.", "quantifier": "all coadd files with at least one object, all ranges of objects, all results of the coaddition (stamps of the object's box size), all objects and cutout indices", "why_tests_cant": "Combines the output of one language with the reader of another; no test in the repository opens a coadd file, and the C library is not run by the tests.", "anchors": ["meds/coadd.py:98-260", "src/meds.c:347-482", "src/meds.c:991-1043", "src/meds.c:1095-1213", "src/meds.c:1262-1537"]}
{"id": "C112", "title": "The coadd catalogue says what became of every epoch", "statement": "In the catalogue of a coadd file, orig_ncutout is the number of epochs of the object, the first orig_ncutout entries of orig_flags are the flags of those epochs (zero exactly for the ones that went into the coadd) and the others -9999, ncoadd is the number of epochs used, and coadd_flags says whether there is a coadd. Writing never fails for lack of room for the flags.", "quantifier": "all coadd files, all objects with any number of epochs, all configurations of the epoch tests, all ranges of objects written", "why_tests_cant": "Combines the flags of the epoch loop with the layout of the output catalogue, whose width depends on the largest number of cutouts in the whole input file; there are no tests of coadd.py.", "anchors": ["meds/coadd.py:137-184", "meds/coadd.py:214-260", "meds/coadd.py:344-391"]}
{"id": "C113", "title": "Input columns that have the name of a column of the maker", "statement": "MEDSMaker takes an obj_data array exactly if it has id, box_size, ra and dec and every column with a name of the MEDS catalogue fits into the shape of that column by numpy's broadcasting rule; otherwise the constructor raises a ValueError. In the catalogue made from it, such a column has the entries of the given one, repeated along the axes in which it has length one, or, for a column with one value per object where one per epoch is wanted, with the objects taken for epochs; psf_ columns are dropped if there are no PSFs, columns with other names are kept, and the rest has the default values. So a column with one value per object under the name of a per-epoch column is refused, unless there is just one object or there are exactly as many objects as epochs.", "quantifier": "all input arrays with any number of rows and columns, all names and widths of columns, all numbers of epochs, with and without PSFs", "why_tests_cant": "The outcome depends on the coincidence of two numbers, the number of objects and the number of images; tests use few combinations of column shapes.", "anchors": ["meds/maker.py:1223-1230", "meds/maker.py:1311-1391", "meds/util.py:95-118", "meds/util.py:167-202"]}
{"id": "C114", "title": "Types of the input columns", "statement": "MEDSMaker takes input columns of any integer and float type: extra columns are in the catalogue with their type and values, id and box_size become 64 bit integers and ra and dec doubles, without loss for whole numbers that fit.", "quantifier": "all packed input arrays with any number of rows and columns of integer, float, string and bool types, all numbers of epochs, with and without PSFs, numpy 1 and numpy 2", "why_tests_cant": "The outcome depends on the integer type of a column the maker does not otherwise look at and on the version of numpy; tests have columns of type i8 and f8.", "anchors": ["meds/maker.py:1223-1230", "meds/maker.py:1311-1391", "meds/util.py:95-164"]}
{"id": "C115", "title": "Memory layout of the input array", "statement": "Whether MEDSMaker takes an input array depends on its columns only, not on how the records are laid out in memory: aligned arrays and selections of columns like cat[['id','box_size','ra','dec']] are taken as well.", "quantifier": "all structured arrays with any fields, offsets and record length, all selections of columns", "why_tests_cant": "Tests make their arrays with numpy.zeros and a plain descriptor, which is always packed; what happens with padding needs a general argument about the descriptor.", "anchors": ["meds/maker.py:1223-1230", "meds/maker.py:1311-1377", "meds/util.py:95-118"]}
{"id": "C116", "title": "The configured pixel types do not keep a file from being written", "statement": "image_dtype, weight_dtype, seg_dtype and bmask_dtype choose the types of the stored stamps. Whatever they are, and whatever integer type the masks of the images have, MEDSMaker.write completes whenever it does with the default types, with any version of NumPy.", "quantifier": "all configurations, catalogues, images and PSF models; all integer widths, signed or not, and floats, for every configured type and for the mask of every image; all flags unusable_bmask; NumPy 1 and NumPy 2", "why_tests_cant": "Tests write floats and 32-bit masks with the one version of NumPy that is installed; whether an array takes a Python number depends on the version, the type, the value, and on whether any stamp of that plane is cut out at all.", "anchors": ["meds/maker.py:256-291", "meds/maker.py:566-596", "meds/defaults.py:8-13", "meds/defaults.py:43-47"]}
{"id": "C117", "title": "The arrays that a reader hands out are the caller's own", "statement": "get_cutout, get_mosaic, get_cutout_list, get_cweight_mosaic, get_cweight_cutout_list, get_cseg_mosaic, get_cseg_cutout_list and interpolate_coadd_seg_mosaic return new arrays. Although the cutouts of a list are views into one mosaic, and the composite ones are computed in place in it, no two arrays share a pixel with one another or with any array the caller had before, and each holds what the documentation says. Storing into one therefore never changes another.", "quantifier": "all files and states of a reader, all objects and image types, all arrays the caller holds already, and all sequences of stores", "why_tests_cant": "A test looks at the values returned once; whether two arrays overlap shows only when the caller writes to one and looks at the other, for each shape and number of cutouts.", "anchors": ["meds/meds.py:get_cutout", "meds/meds.py:get_mosaic", "meds/meds.py:get_cutout_list", "meds/meds.py:split_mosaic", "meds/meds.py:get_cweight_mosaic", "meds/meds.py:get_cseg_mosaic", "meds/meds.py:interpolate_coadd_seg_mosaic"]}
{"id": "C118", "title": "reject_outliers changes the weight arrays given to it and nothing else", "statement": "reject_outliers works in place. When the weight arrays share no memory with one another or with the images, each weight array afterwards holds what C33 says, and the images and every other array of the caller are as before. In particular for the lists that get_cutout_list returns. When the same weight array is given for all the images, it loses every pixel at which any of the images is an outlier, and the return value counts such a pixel once.", "quantifier": "all lists of arrays anywhere in memory (any overlap of the images among themselves), all values, shapes and parameters; all other arrays of the caller", "why_tests_cant": "Tests use separate arrays of their own; what happens to arrays that are parts of one buffer, or that are passed several times, depends on the order of in-place operations.", "anchors": ["meds/meds.py:reject_outliers", "meds/meds.py:get_cutout_list"]}
{"id": "C119", "title": "Objects for which a WCS has no position", "statement": "When sky2image returns NaN or an infinite value for an object (in one coordinate or both), the object has no epoch in that image and nothing that is not a number enters the file; its epochs in the other images, and all epochs of the other objects, are as if the rough cut had dropped it for that image. The object stays in the catalogue unless trim_to_coadd drops it; when check_in_coadd demands every object on the coadd, the write is refused.", "quantifier": "all catalogues, images, configurations, PSF models, and all WCS functions with any mixture of numbers, NaN and infinities as values", "why_tests_cant": "Test WCSs return numbers everywhere; comparisons with NaN, clipping of NaN and conversion of NaN to integers each behave in their own way, and whether they are ever reached depends on the order of the cuts.", "anchors": ["meds/maker.py:_build_meds_layout", "meds/maker.py:_get_pos_and_bounds", "meds/maker.py:_force_into_coadd_bounds", "meds/bounds.py:contains_points"]}
{"id": "C120", "title": "WCS objects that PSF objects hand out, and that images may share", "statement": "The maker takes the WCS from psf.get_wcs() and sets the image size and the position offset on that very object. Even so each image is used with its own size and offset, whichever images share a WCS object and whatever the object was used for before: the file is the one written with a separate WCS for each image. After the write an object of the caller has the size and offset of the last image that it served, and is otherwise unchanged.", "quantifier": "all sets of WCS objects in any state, all assignments of objects to images (any sharing), all catalogues, images, configurations and PSF models; methods may depend on the size set in the object", "why_tests_cant": "The outcome depends on the order in which state is set and read across images that share an object; tests use one object per image or images of equal size and offset.", "anchors": ["meds/maker.py:_get_wcs", "meds/maker.py:_get_pos_and_bounds", "meds/maker.py:_get_image_bounds", "meds/maker.py:_do_rough_sky_cut", "meds/maker.py:_do_sky2image"]}
{"id": "C121", "title": "Numbers of objects that the type of the seg maps does not have", "statement": "get_cseg_cutout, get_cseg_mosaic and get_cseg_cutout_list label the region of an object with its number, whatever integer type the seg maps are stored with, so objects can be told apart by it; and get_uberseg keeps weight of an object in its own region.", "quantifier": "all integer types, all numbers of objects, all files, all labels of the source seg maps, NumPy before and from version 2, catalogues with and without the column number", "why_tests_cant": "The number wraps silently only if it is outside the type; tests use small numbers and the default type.", "anchors": ["meds/meds.py:get_cseg_cutout", "meds/meds.py:get_cseg_mosaic", "meds/meds.py:get_cseg_cutout_list", "meds/meds.py:get_number", "meds/meds.py:get_uberseg"]}
{"id": "C122", "title": "Makers and the objects of the caller", "statement": "A MEDSMaker works with what its arguments contained when it was constructed: changing the catalogue, image_info, the metadata, the configuration or its list of cutout types afterwards, or using them for other makers, has no effect on what it writes. Only the list of PSF objects and psf_info are used as they are when the file is written. Neither construction nor writing changes any object of the caller, nor default_config of the module.", "quantifier": "all programs of any length that create objects, change them in place, construct makers from them in any combination and let makers write, in any order", "why_tests_cant": "A shared reference shows only in a program that changes an object between two particular calls; tests construct, write and throw away.", "anchors": ["meds/maker.py:MEDSMaker.__init__", "meds/maker.py:_load_config", "meds/maker.py:_set_cutout_types", "meds/maker.py:_set_image_info", "meds/maker.py:_set_meta_data", "meds/maker.py:_set_obj_data", "meds/maker.py:_set_psf_data", "meds/maker.py:_set_psf_info", "meds/defaults.py:default_config"]}
{"id": "C123", "title": "Temporary extracted files", "statement": "An extractor object made with cleanup=True, in a with block or bound to a variable, provides a temporary file: as long as the object is in use the file at its output path is what was extracted; when the object is closed, its with block ends or the last reference to it goes, there is no file at that path. Other files are left alone, and once nothing refers to an extractor object any more no temporary file is left, also after exceptions. False in the first half if an older object has the same path: `with E(..., cleanup=True) as x` in a loop with one path destroys the previous object, and with it the new file, after the new file has been written, so that inside the second block there is no file and no exception.", "quantifier": "all programs of any length that construct, enter, leave, copy, delete and close extractor objects of the three classes and write other files, on every directory, for every path normalisation", "why_tests_cant": "Destruction happens at rebinding, in an order that depends on which variables refer to what; tests use one extractor object per path.", "anchors": ["meds/extractor.py:MEDSExtractor.__enter__", "meds/extractor.py:MEDSExtractor.__exit__", "meds/extractor.py:MEDSExtractor.__del__", "meds/extractor.py:MEDSExtractor.close", "meds/extractor.py:MEDSCatalogExtractor.close", "meds/number_extractor.py:MEDSNumberExtractor.close"]}
{"id": "C124", "title": "What the C library prints", "statement": "meds_obj_print writes to the stream given, and nowhere else, the number of cutouts, the box size and one line per column with the values of the object's cutouts in order; two objects with the same text have the same integers in every cutout and the same printed numbers otherwise. meds_image_info_print and meds_distort_print write the paths, zero point and scale, and the four derivatives, to the stream given only, and unambiguously. meds_print writes to the stream given the path, the numbers of objects and of images and one line per entry of the metadata that has a value. False for the metadata: meds_meta_print ignores its argument and writes to stderr, so that on any other stream only the heading arrives; and a file whose metadata lack one of five strings makes it print NULL with %s.", "quantifier": "all files, objects, streams and metadata tables of any size, all ways of writing numbers without blanks and line ends", "why_tests_cant": "A test that looks at the terminal sees both streams together, and the text of one sample does not tell what another object would print.", "anchors": ["src/meds.c:meds_obj_print", "src/meds.c:print_longs", "src/meds.c:print_doubles", "src/meds.c:print_distortions", "src/meds.c:meds_meta_print", "src/meds.c:meds_print"]}
{"id": "C125", "title": "Pixels that are not numbers", "statement": "Input images, backgrounds and weight maps may have NaN and infinities. Every stored pixel is, in the arithmetic of floats, the pixel of the image that it shows less the background there times the scale; every stored weight is the weight that it shows, or zero where the mask makes the pixel unusable, divided by the square of the scale; pixels off the image are the stored zero. So, for a scale other than zero and a background that is a number, a stored pixel is NaN exactly if the pixel shown is, infinite exactly if that is; a NaN weight under an unusable mask is stored as zero. Changing one pixel of one image changes no other cutout pixel, nor the catalogue, nor whether write fails. A scale of zero makes zeros of the numbers of the image, and infinities and NaN of the weights.", "quantifier": "all maker inputs of any size with any floats as pixels, all configurations, all epochs, all kinds of cutouts", "why_tests_cant": "Tests use images of numbers; that a NaN stays where it is for every shape, mask, background and position cannot be read off samples.", "anchors": ["meds/maker.py:_write_cutouts", "meds/maker.py:_write_cutout", "meds/maker.py:_read_image", "meds/maker.py:_read_one_image", "meds/meds.py:get_cutout"]}
{"id": "C126", "title": "Weights that are not numbers never reach a coadd", "statement": "Weight maps and images of the epochs may have NaN and infinities. An epoch that passes all tests of the coadder is handed on with a positive weight at every pixel, and the values of pixels without weight or with a bad flag, NaN or not, do not reach the coadd.", "quantifier": "all epochs of any size with any floats as pixels and weights, all masks, all configurations, all interpolators", "why_tests_cant": "For numbers `wt <= 0` and `not (wt > 0)` are the same, so tests with numbers cannot tell the two apart; the code uses both.", "anchors": ["meds/coadd.py:_get_obslist", "meds/coadd.py:_get_mask_frac", "meds/coadd.py:_central_region_is_masked", "meds/coadd.py:_ps_edge_pixels_are_masked", "meds/coadd.py:_symmetrize_weight", "meds/coadd.py:_interp_bad_pixels"]}
{"id": "C127", "title": "NaN and infinite pixels under a mask never make a coadd NaN", "statement": "If every pixel of the epochs of an object that has a positive weight and no bad flag is a number, with a number as weight, then image, weight and noise image of every epoch handed to the coadding code are numbers at every pixel, with positive weights, whatever NaN or infinite values the masked pixels hold; with outlier rejection on or off, and masks symmetrized or not. Outlier rejection on any floats sets a weight to zero exactly when median and weight are numbers, the weight is positive, and the value is infinite or beyond the documented threshold; all other weights are only clipped at zero. Whatever the floats, the flag of an epoch is that of the first test its mask and weights fail after rejection and symmetrizing, the epochs without flag are used in their order, kept pixels have the value of the file and their own deviate in the noise image, and the others the value of the interpolator built on the kept ones.", "quantifier": "all lists of epochs of square stamps of any size with any floats as pixels and weights, all masks, configurations, thresholds, random deviates, and interpolators that give numbers for numbers", "why_tests_cant": "NaN may enter by the median, the comparison, the interpolation, the median weight or the error of the noise; a test has one arrangement of NaN and infinities.", "anchors": ["meds/coadd.py:_get_obslist", "meds/coadd.py:_interp_bad_pixels", "meds/coadd.py:_make_noise_image", "meds/coadd.py:_do_interp", "meds/meds.py:reject_outliers"]}
{"id": "C128", "title": "What enters a coadd is determined pixel by pixel from the planes in the file", "statement": "For every configuration, the image and weight handed to the coadding code for an epoch have the values of the file at every pixel that is kept: weight positive, no bad flag, not an outlier among the epochs (when outlier rejection is configured and there are three epochs or more), and with symmetrizing no pixel of weight zero (after rejection) or with a bad flag is brought onto it by a quarter turn. Every other pixel has as weight the median of the kept weights and as value that of the interpolator built on exactly the kept pixels with their values in the file. The mask is that of the file, with the value a quarter turn away where that has a bad flag and symmetrizing is configured. The number recorded as interpolated is the number of pixels that are not kept. The noise image made for the epoch has, at a kept pixel, a deviate drawn for that pixel alone times sqrt(1/weight) with the weight of the file, and elsewhere the value of the interpolator built on exactly those.", "quantifier": "all files, objects, epochs, pixels and configurations of the coadder", "why_tests_cant": "Rejection, symmetrizing and interpolation interact; tests look at one of them at a time on a few stamps.", "anchors": ["meds/coadd.py:_get_obslist", "meds/coadd.py:_symmetrize_weight", "meds/coadd.py:_symmetrize_bmask", "meds/coadd.py:_interp_bad_pixels", "meds/meds.py:reject_outliers"]}
{"id": "C129", "title": "The parallel PSF writer gives the serial pixels for every interleaving of its workers, and leaves no files behind", "statement": "When PSF images are made by worker processes that hand their results on through files in a temporary directory, then for every interleaving of the workers: if the function returns, the PSF extension has exactly the pixels the serial writer gives, and the file is the one that serial writing gives; if the serial writer completes and no worker has an exception of its own (full disk, a killed worker), the parallel one returns and never raises, and it does return once each worker has run through its PSF images and its dump; whether it returns or raises, at any point of any worker, no file of the temporary directory is left and nothing outside of that directory was changed at any time.", "quantifier": "all makers, PSF lists, chunk sizes, file systems, and all sequences of worker steps and faults", "why_tests_cant": "Tests run a few small files on whatever interleaving the machine produces, and do not fill the disk in the middle of a dump.", "anchors": ["meds/maker.py:_write_psf_cutouts_joblib", "meds/maker.py:_psf_rec_func"]}
{"id": "C130", "title": "Makers writing at the same time on one machine do not disturb each other", "statement": "When any number of makers write PSF cutouts with joblib workers at the same time, each with its temporary directory from mkdtemp in the same system directory, then every call that returns has written the pixels of the serial writer, and a call whose own workers meet no exception raises nothing that the serial writer would not raise, even if workers of the other makers fail and their directories are removed meanwhile. No call waits for another: a call under way can always come to its end by steps of its own. When no call is under way the filesystem is as before, and at any time nothing outside of the new directories has changed.", "quantifier": "all numbers of makers, all their inputs, all interleavings of all their main processes and workers, all exceptions in any worker, all filesystems; mkdtemp gives names that are not in use at that time", "why_tests_cant": "Interleavings of several independent programs with several processes each cannot be enumerated by tests; a clash of names or a removal of the wrong directory shows up rarely, on shared nodes.", "anchors": ["meds/maker.py:_write_psf_cutouts_joblib"]}
{"id": "C131", "title": "Header cards of the mosaics", "statement": "With fpack_pars in the configuration (the compression settings for fpack) and different cutout types, the header of every mosaic extension written by MEDSMaker or MEDSCoaddMaker - one for each cutout type, and one for the PSFs if there are any - has every entry of fpack_pars with its value, replacing a card of that key that fitsio wrote, and under all other keys what fitsio wrote. Without fpack_pars the headers are those of fitsio. The dictionary of the caller is not changed. For the cutout extensions this holds even if fitsio should change the dictionary that it is given as header; for the PSF extension and for the dictionary of the caller (when there are PSFs) it holds if fitsio leaves it as it is.", "quantifier": "all settings, cutout types, pixel types and sizes, and all behaviours of fitsio towards the dictionary", "why_tests_cant": "All sets of cards, including those that collide with cards of fitsio, and behaviours of the library that the installed version does not show.", "anchors": ["meds/maker.py:MEDSMaker._reserve_mosaic_images", "meds/maker.py:MEDSMaker._load_config"]}
