{
 "claims": [
  {
   "property": "C01",
   "status": "proved",
   "theorems": [
    "Discorpy.C01_int16_overflow",
    "Discorpy.C01_no_coefs",
    "Discorpy.C01_slice_eq_image_row"
   ],
   "note": "Heights up to 32767; C01_int16_overflow shows the bound is needed (np.int16 overflow). The slice function does not round coordinates to float32 while the image function does; the equality is stated with exact coordinates. C01_no_coefs: without coefficients the row coordinates are a single number and map_coordinates is given arrays of different shapes, a ValueError."
  },
  {
   "property": "C02",
   "status": "proved",
   "theorems": [
    "Discorpy.C02_chunk_eq_image_rows",
    "Discorpy.C02_folding_model_counterexample"
   ],
   "note": "Includes float32 rounding as an arbitrary monotone rounding exact on integers; the counterexample without the no-fold condition holds for every pixel-local boundary mode."
  },
  {
   "property": "C03",
   "status": "proved",
   "theorems": [
    "Discorpy.C03_chunk_index_validation",
    "Discorpy.C03_stop_minus_one_rejected"
   ],
   "note": "Iff statement for heights up to 32768; rejection of -1 for all heights."
  },
  {
   "property": "C04",
   "status": "proved",
   "theorems": [
    "Discorpy.C04_color",
    "Discorpy.C04_color_gray",
    "Discorpy.C04_image_backward",
    "Discorpy.C04_image_forward",
    "Discorpy.C04_line_forward",
    "Discorpy.C04_line_forward_int",
    "Discorpy.C04_point",
    "Discorpy.C04_slice"
   ],
   "note": "All six functions; any interpolation that reproduces node values."
  },
  {
   "property": "C05",
   "status": "proved",
   "theorems": [
    "Discorpy.C05_image_convex",
    "Discorpy.C05_image_range",
    "Discorpy.C05_perspective_convex",
    "Discorpy.C05_slice_convex"
   ],
   "note": ""
  },
  {
   "property": "C06",
   "status": "proved",
   "theorems": [
    "Discorpy.C06_unwarp_linear"
   ],
   "note": ""
  },
  {
   "property": "C07",
   "status": "proved",
   "theorems": [
    "Discorpy.C07_along_ray",
    "Discorpy.C07_center_fixed",
    "Discorpy.C07_order",
    "Discorpy.C07_rotation",
    "Discorpy.C07_translation"
   ],
   "note": ""
  },
  {
   "property": "C08",
   "status": "proved",
   "theorems": [
    "Discorpy.C08_line_forward_eq_point_map",
    "Discorpy.C08_line_forward_int_truncates"
   ],
   "note": ""
  },
  {
   "property": "C09",
   "status": "proved",
   "theorems": [
    "Discorpy.C09_forward_backward_inverse"
   ],
   "note": ""
  },
  {
   "property": "C10",
   "status": "proved",
   "theorems": [
    "Discorpy.C10_center_stays",
    "Discorpy.C10_error",
    "Discorpy.C10_line_backward_inverts",
    "Discorpy.C10_negative",
    "Discorpy.C10_stationary"
   ],
   "note": "The optimiser is an arbitrary function of the objective and the start; the theorems need it to return a non-negative radius that is a least or stationary point; C10_error holds for any non-negative radius."
  },
  {
   "property": "C11",
   "status": "proved",
   "theorems": [
    "Discorpy.C11_forward_only_copies",
    "Discorpy.C11_forward_scatter"
   ],
   "note": ""
  },
  {
   "property": "C12",
   "status": "proved",
   "theorems": [
    "Discorpy.C12_errors",
    "Discorpy.C12_residual_hor",
    "Discorpy.C12_residual_ver",
    "Discorpy.C12_straight_line_zero",
    "Discorpy.C12_straight_line_zero_ver"
   ],
   "note": "polyfit and argsort enter through contracts (least-squares optimality; sorting permutation)."
  },
  {
   "property": "C13",
   "status": "proved",
   "theorems": [
    "Discorpy.C13_ver_eq_hor_transposed"
   ],
   "note": ""
  },
  {
   "property": "C14",
   "status": "proved",
   "theorems": [
    "Discorpy.C14_check_iff",
    "Discorpy.C14_empty_raises",
    "Discorpy.C14_monotone",
    "Discorpy.C14_perm_invariant"
   ],
   "note": ""
  },
  {
   "property": "C15",
   "status": "proved",
   "theorems": [
    "Discorpy.C15_collinear",
    "Discorpy.C15_compose",
    "Discorpy.C15_errors",
    "Discorpy.C15_inverse",
    "Discorpy.C15_line_is_projective",
    "Discorpy.C15_line_keeps_collinear"
   ],
   "note": "Points sent to infinity (vanishing denominator) are excluded by hypothesis."
  },
  {
   "property": "C16",
   "status": "proved",
   "theorems": [
    "Discorpy.C16_errors",
    "Discorpy.C16_given_map",
    "Discorpy.C16_identity",
    "Discorpy.C16_image_samples_map",
    "Discorpy.C16_map_index"
   ],
   "note": ""
  },
  {
   "property": "C17",
   "status": "proved",
   "theorems": [
    "Discorpy.C17_corrects",
    "Discorpy.C17_errors",
    "Discorpy.C17_forward_exact",
    "Discorpy.C17_recovers"
   ],
   "note": "lstsq enters through its least-squares contract. Adds exact recovery from four sources in general position."
  },
  {
   "property": "C18",
   "status": "proved",
   "theorems": [
    "Discorpy.C18_backward_exact",
    "Discorpy.C18_backward_is_swapped_forward"
   ],
   "note": ""
  },
  {
   "property": "C19",
   "status": "proved",
   "theorems": [
    "Discorpy.C19_grid_coef",
    "Discorpy.C19_grid_dots",
    "Discorpy.C19_parallel"
   ],
   "note": ""
  },
  {
   "property": "C20",
   "status": "proved",
   "theorems": [
    "Discorpy.C20_fixed",
    "Discorpy.C20_lattice",
    "Discorpy.C20_reversed",
    "Discorpy.C20_scale_ignored",
    "Discorpy.C20_values"
   ],
   "note": ""
  },
  {
   "property": "C21",
   "status": "proved",
   "theorems": [
    "Discorpy.C21_error",
    "Discorpy.C21_fixed",
    "Discorpy.C21_rectangle",
    "Discorpy.C21_sources"
   ],
   "note": ""
  },
  {
   "property": "C22",
   "status": "proved",
   "theorems": [
    "Discorpy.C22_equidistant",
    "Discorpy.C22_exact",
    "Discorpy.C22_few_lines"
   ],
   "note": "polyfit enters through its least-squares contract; the optimising option for an arbitrary minimiser."
  },
  {
   "property": "C23",
   "status": "proved",
   "theorems": [
    "Discorpy.C23_backward",
    "Discorpy.C23_backward_from_forward",
    "Discorpy.C23_backward_through_centre",
    "Discorpy.C23_forward"
   ],
   "note": "lstsq/polyfit enter through their contracts; C23_backward_through_centre shows the exclusion is needed."
  },
  {
   "property": "C24",
   "status": "proved",
   "theorems": [
    "Discorpy.C24_all_zero",
    "Discorpy.C24_default",
    "Discorpy.C24_exact",
    "Discorpy.C24_least_squares",
    "Discorpy.C24_mapping_irrelevant",
    "Discorpy.C24_undoes",
    "Discorpy.C24_valueError_iff",
    "Discorpy.C24_zero_points_ignored"
   ],
   "note": "lstsq enters through its least-squares contract."
  },
  {
   "property": "C25",
   "status": "proved",
   "theorems": [
    "Discorpy.C25_crossing",
    "Discorpy.C25_symmetric"
   ],
   "note": ""
  },
  {
   "property": "C26",
   "status": "proved",
   "theorems": [
    "Discorpy.C26_errors",
    "Discorpy.C26_fine"
   ],
   "note": "The metric depends on polyfit (contract) and on the minimiser (arbitrary)."
  },
  {
   "property": "C27",
   "status": "proved",
   "theorems": [
    "Discorpy.C27_compose",
    "Discorpy.C27_dots",
    "Discorpy.C27_undo"
   ],
   "note": ""
  },
  {
   "property": "C28",
   "status": "proved",
   "theorems": [
    "Discorpy.C28_origin"
   ],
   "note": ""
  },
  {
   "property": "C29",
   "status": "proved",
   "theorems": [
    "Discorpy.C29_array",
    "Discorpy.C29_lines",
    "Discorpy.C29_outcome"
   ],
   "note": "Any sort meeting the argsort contract; connected-component labelling only supplies the dot centroids."
  },
  {
   "property": "C30",
   "status": "proved",
   "theorems": [
    "Discorpy.C30_accepted",
    "Discorpy.C30_ratio_one"
   ],
   "note": "C30_ratio_one shows the documented 'equal or larger' does not hold."
  },
  {
   "property": "C31",
   "status": "proved",
   "theorems": [
    "Discorpy.C31_vertical"
   ],
   "note": ""
  },
  {
   "property": "C32",
   "status": "proved",
   "theorems": [
    "Discorpy.C32_empty_line",
    "Discorpy.C32_exact",
    "Discorpy.C32_filter",
    "Discorpy.C32_vertical"
   ],
   "note": "polyfit enters through its least-squares contract for the exact-parabola part."
  },
  {
   "property": "C33",
   "status": "proved",
   "theorems": [
    "Discorpy.C33_margin",
    "Discorpy.C33_margins_empty",
    "Discorpy.C33_mask",
    "Discorpy.C33_mono",
    "Discorpy.C33_rotated"
   ],
   "note": ""
  },
  {
   "property": "C34",
   "status": "proved",
   "theorems": [
    "Discorpy.C34_out_of_frame",
    "Discorpy.C34_points"
   ],
   "note": "C34_out_of_frame proves the failure for points beyond the frame."
  },
  {
   "property": "C35",
   "status": "proved",
   "theorems": [
    "Discorpy.C35_compose",
    "Discorpy.C35_distance",
    "Discorpy.C35_inverse",
    "Discorpy.C35_rotation",
    "Discorpy.C35_units"
   ],
   "note": ""
  },
  {
   "property": "C36",
   "status": "proved",
   "theorems": [
    "Discorpy.C36_laws",
    "Discorpy.C36_subset"
   ],
   "note": ""
  },
  {
   "property": "C37",
   "status": "proved",
   "theorems": [
    "Discorpy.C37_roi",
    "Discorpy.C37_square",
    "Discorpy.C37_whole"
   ],
   "note": ""
  },
  {
   "property": "C38",
   "status": "proved",
   "theorems": [
    "Discorpy.C38_empty",
    "Discorpy.C38_minority"
   ],
   "note": ""
  },
  {
   "property": "C39",
   "status": "proved",
   "theorems": [
    "Discorpy.C39_empty",
    "Discorpy.C39_nonpositive",
    "Discorpy.C39_search"
   ],
   "note": ""
  },
  {
   "property": "C40",
   "status": "proved",
   "theorems": [
    "Discorpy.C40_empty",
    "Discorpy.C40_hor",
    "Discorpy.C40_selection_hor",
    "Discorpy.C40_selection_ver",
    "Discorpy.C40_stale",
    "Discorpy.C40_ver"
   ],
   "note": "C40_stale is the concrete failure with two-dot groups"
  },
  {
   "property": "C41",
   "status": "proved",
   "theorems": [
    "Discorpy.C41_distance",
    "Discorpy.C41_distance_ok",
    "Discorpy.C41_int16",
    "Discorpy.C41_int16_overflow",
    "Discorpy.C41_mono",
    "Discorpy.C41_pixels",
    "Discorpy.C41_ratio",
    "Discorpy.C41_ratio_ok",
    "Discorpy.C41_size"
   ],
   "note": "connected components are modelled (4-neighbourhood, scan order); ellipse axes of regionprops are an arbitrary function"
  },
  {
   "property": "C42",
   "status": "proved",
   "theorems": [
    "Discorpy.C42_flat",
    "Discorpy.C42_parabola",
    "Discorpy.C42_range",
    "Discorpy.C42_three"
   ],
   "note": "np.polyfit enters through its contract PolyfitSpec (least-squares minimiser); C42_flat is the witness that a flat window is located at its start"
  },
  {
   "property": "C43",
   "status": "proved",
   "theorems": [
    "Discorpy.C43_max",
    "Discorpy.C43_min",
    "Discorpy.C43_short",
    "Discorpy.C43_subpixel"
   ],
   "note": "without normalisation and smoothing; C43_short is the witness that fewer than 4 samples give no extremum at all"
  },
  {
   "property": "C44",
   "status": "proved",
   "theorems": [
    "Discorpy.C44_const",
    "Discorpy.C44_int_dtype",
    "Discorpy.C44_line",
    "Discorpy.C44_mean",
    "Discorpy.C44_outcome",
    "Discorpy.C44_scale",
    "Discorpy.C44_three"
   ],
   "note": "np.polyfit through PolyfitSpec; C44_int_dtype records the truncation of slopes for integer input arrays"
  },
  {
   "property": "C45",
   "status": "proved",
   "theorems": [
    "Discorpy.C45_inside_hor",
    "Discorpy.C45_inside_ver",
    "Discorpy.C45_line_hor",
    "Discorpy.C45_line_ver",
    "Discorpy.C45_range_hor",
    "Discorpy.C45_range_ver",
    "Discorpy.C45_right_angle",
    "Discorpy.C45_zero_angle"
   ],
   "note": "coordinates only; the interpolation at these coordinates is covered by C05"
  },
  {
   "property": "C46",
   "status": "proved",
   "theorems": [
    "Discorpy.C46_affine",
    "Discorpy.C46_dropped",
    "Discorpy.C46_extrema",
    "Discorpy.C46_filter",
    "Discorpy.C46_mono",
    "Discorpy.C46_offset",
    "Discorpy.C46_rule"
   ],
   "note": "curve_fit is an arbitrary function"
  },
  {
   "property": "C47",
   "status": "proved",
   "theorems": [
    "Discorpy.C47_affine",
    "Discorpy.C47_bright",
    "Discorpy.C47_dark",
    "Discorpy.C47_small"
   ],
   "note": "smooth=False, i.e. the Gaussian filter is not applied"
  },
  {
   "property": "C48",
   "status": "proved",
   "theorems": [
    "Discorpy.C48_alternate",
    "Discorpy.C48_margin",
    "Discorpy.C48_pixels",
    "Discorpy.C48_zero_size"
   ],
   "note": ""
  },
  {
   "property": "C49",
   "status": "proved",
   "theorems": [
    "Discorpy.C49_bad_args",
    "Discorpy.C49_index_error",
    "Discorpy.C49_pixels"
   ],
   "note": "margins are assumed non-negative and the line distance positive"
  },
  {
   "property": "C50",
   "status": "proved",
   "theorems": [
    "Discorpy.C50_mono",
    "Discorpy.C50_pixels",
    "Discorpy.C50_symmetric"
   ],
   "note": ""
  },
  {
   "property": "C51",
   "status": "proved",
   "theorems": [
    "Discorpy.C51_corners",
    "Discorpy.C51_false",
    "Discorpy.C51_int",
    "Discorpy.C51_other",
    "Discorpy.C51_seq",
    "Discorpy.C51_true"
   ],
   "note": "np.linalg.lstsq is an arbitrary function for the fit behind pad=True; C51_corners bounds the position of the corners"
  },
  {
   "property": "C52",
   "status": "proved",
   "theorems": [
    "Discorpy.C52_channels",
    "Discorpy.C52_no_pad",
    "Discorpy.C52_padded"
   ],
   "note": "C52_padded is for linear interpolation with exact coordinates (no float32 rounding)"
  },
  {
   "property": "C53",
   "status": "proved",
   "theorems": [
    "Discorpy.C53_esc",
    "Discorpy.C53_first_read_fails",
    "Discorpy.C53_never",
    "Discorpy.C53_no_pad",
    "Discorpy.C53_pad",
    "Discorpy.C53_pad_whole",
    "Discorpy.C53_release",
    "Discorpy.C53_running"
   ],
   "note": "cv2.remap is an arbitrary interpolation, the camera an arbitrary schedule of reads and keys"
  },
  {
   "property": "C54",
   "status": "proved",
   "theorems": [
    "Discorpy.C54_final_dot",
    "Discorpy.C54_free",
    "Discorpy.C54_many",
    "Discorpy.C54_suffix",
    "Discorpy.C54_taken",
    "Discorpy.C54_variant_unique"
   ],
   "note": "pathlib suffix rules of Python <= 3.13; C54_final_dot shows the exception for names ending with a dot"
  },
  {
   "property": "C55",
   "status": "proved",
   "theorems": [
    "Discorpy.C55_blocked",
    "Discorpy.C55_directory",
    "Discorpy.C55_history",
    "Discorpy.C55_interleaved",
    "Discorpy.C55_once",
    "Discorpy.C55_one_file",
    "Discorpy.C55_plot_suffix",
    "Discorpy.C55_preserves",
    "Discorpy.C55_race",
    "Discorpy.C55_refused",
    "Discorpy.C55_success"
   ],
   "note": "file system without symbolic links and permissions; C55_race and C55_plot_suffix are witnesses of the two ways data can be lost"
  },
  {
   "property": "C56",
   "status": "proved",
   "theorems": [
    "Discorpy.C56_bad_line",
    "Discorpy.C56_cut",
    "Discorpy.C56_few_lines",
    "Discorpy.C56_keeps",
    "Discorpy.C56_no_file",
    "Discorpy.C56_reads",
    "Discorpy.C56_roundtrip",
    "Discorpy.C56_text"
   ],
   "note": "Python float printing and parsing assumed inverse (NumberText)"
  },
  {
   "property": "C57",
   "status": "proved",
   "theorems": [
    "Discorpy.C57_cut",
    "Discorpy.C57_entries",
    "Discorpy.C57_keeps",
    "Discorpy.C57_missing_entry",
    "Discorpy.C57_roundtrip",
    "Discorpy.C57_sequences",
    "Discorpy.C57_trailing",
    "Discorpy.C57_type_error"
   ],
   "note": "JSON values are numbers and nested arrays; number printing and parsing assumed inverse (JsonNumberText)"
  },
  {
   "property": "C58",
   "status": "proved",
   "theorems": [
    "Discorpy.C58_accepted",
    "Discorpy.C58_collision",
    "Discorpy.C58_idempotent",
    "Discorpy.C58_images",
    "Discorpy.C58_no_name",
    "Discorpy.C58_replaced"
   ],
   "note": "str.lower is an arbitrary function fixing the standard suffixes"
  },
  {
   "property": "C59",
   "status": "proved",
   "theorems": [
    "Discorpy.C59_capitals",
    "Discorpy.C59_constant",
    "Discorpy.C59_errors",
    "Discorpy.C59_int16_overflow",
    "Discorpy.C59_scaled",
    "Discorpy.C59_unchanged"
   ],
   "note": "real arithmetic for the scaling; conversion of floats outside [0,256) to uint8 is an arbitrary function"
  },
  {
   "property": "C60",
   "status": "proved",
   "theorems": [
    "Discorpy.C60_empty",
    "Discorpy.C60_errors",
    "Discorpy.C60_int",
    "Discorpy.C60_list",
    "Discorpy.C60_single",
    "Discorpy.C60_thin",
    "Discorpy.C60_whole"
   ],
   "note": "h5py's treatment of index lists that are not strictly increasing and in range is left open (H5ListSpec); conversion to float32 is an arbitrary function"
  },
  {
   "property": "C61",
   "status": "proved",
   "theorems": [
    "Discorpy.C61_aligned",
    "Discorpy.C61_complete",
    "Discorpy.C61_find",
    "Discorpy.C61_keys"
   ],
   "note": "trees with groups, datasets and dangling links; links to other objects not modelled"
  },
  {
   "property": "C62",
   "status": "proved",
   "theorems": [
    "Discorpy.C62_check",
    "Discorpy.C62_conflict",
    "Discorpy.C62_conflict_main",
    "Discorpy.C62_not_dict",
    "Discorpy.C62_rejection",
    "Discorpy.C62_success"
   ],
   "note": "which exception h5py raises for conflicting paths is not claimed"
  },
  {
   "property": "C63",
   "status": "proved",
   "theorems": [
    "Discorpy.C63_clean",
    "Discorpy.C63_find",
    "Discorpy.C63_intended",
    "Discorpy.C63_octal",
    "Discorpy.C63_untouched",
    "Discorpy.C63_windows"
   ],
   "note": "works on the text of a path; pathlib's glob is an arbitrary function"
  },
  {
   "property": "C64",
   "status": "proved",
   "theorems": [
    "Discorpy.C64_rows"
   ],
   "note": "Rows whose length exceeds accepted_ratio * longest are returned whole."
  },
  {
   "property": "C65",
   "status": "proved",
   "theorems": [
    "Discorpy.C65_curve"
   ],
   "note": "polyfit enters through its contract PolyfitSpec (least-squares minimiser)"
  },
  {
   "property": "C66",
   "status": "proved",
   "theorems": [
    "Discorpy.C66_one_sided",
    "Discorpy.C66_witness"
   ],
   "note": ""
  },
  {
   "property": "C67",
   "status": "proved",
   "theorems": [
    "Discorpy.C67_count",
    "Discorpy.C67_median",
    "Discorpy.C67_outcome",
    "Discorpy.C67_regular"
   ],
   "note": "binary images; connected components and clear_border are modelled"
  },
  {
   "property": "C68",
   "status": "proved",
   "theorems": [
    "Discorpy.C68_disjoint",
    "Discorpy.C68_errors",
    "Discorpy.C68_margin",
    "Discorpy.C68_pixels"
   ],
   "note": "scipy.ndimage.binary_dilation is modelled"
  },
  {
   "property": "C69",
   "status": "proved",
   "theorems": [
    "Discorpy.C69_identity",
    "Discorpy.C69_same"
   ],
   "note": ""
  },
  {
   "property": "C70",
   "status": "proved",
   "theorems": [
    "Discorpy.C70_channels",
    "Discorpy.C70_few_columns",
    "Discorpy.C70_few_rows",
    "Discorpy.C70_roundtrip",
    "Discorpy.C70_unchanged"
   ],
   "note": "real arithmetic for the mean"
  },
  {
   "property": "C71",
   "status": "proved",
   "theorems": [
    "Discorpy.C71_auto",
    "Discorpy.C71_root_data",
    "Discorpy.C71_root_key",
    "Discorpy.C71_roundtrip"
   ],
   "note": "conversion to float32 is an arbitrary function"
  },
  {
   "property": "C72",
   "status": "proved",
   "theorems": [
    "Discorpy.C72_exact",
    "Discorpy.C72_few",
    "Discorpy.C72_pincushion",
    "Discorpy.C72_straight"
   ],
   "note": "exactness on bent patterns, the failure on straight lines and too few lines"
  },
  {
   "property": "C73",
   "status": "proved",
   "theorems": [
    "Discorpy.C73_empty_line",
    "Discorpy.C73_grid",
    "Discorpy.C73_on_curves",
    "Discorpy.C73_straight"
   ],
   "note": "fsolve is a parameter; a point is claimed to be on both curves only where the solver found a root"
  },
  {
   "property": "C74",
   "status": "proved",
   "theorems": [
    "Discorpy.C74_corrected",
    "Discorpy.C74_few",
    "Discorpy.C74_fixed"
   ],
   "note": "fixed point, scaling, common slope, and the nan with two or three lines"
  },
  {
   "property": "C75",
   "status": "proved",
   "theorems": [
    "Discorpy.C75_few",
    "Discorpy.C75_fixed",
    "Discorpy.C75_map",
    "Discorpy.C75_one_sided"
   ],
   "note": "map, fixed point, too few lines and one-sided patterns; lstsq, polyfit and argsort by contract"
  },
  {
   "property": "C76",
   "status": "proved",
   "theorems": [
    "Discorpy.C76_barrel",
    "Discorpy.C76_common_points",
    "Discorpy.C76_few",
    "Discorpy.C76_iteration",
    "Discorpy.C76_next",
    "Discorpy.C76_pincushion",
    "Discorpy.C76_second",
    "Discorpy.C76_straight"
   ],
   "note": "np.roots by contract (leading zeros stripped, complex result detected)"
  },
  {
   "property": "C77",
   "status": "proved",
   "theorems": [
    "Discorpy.C77_aligned",
    "Discorpy.C77_fixed",
    "Discorpy.C77_parallel"
   ],
   "note": ""
  },
  {
   "property": "C78",
   "status": "proved",
   "theorems": [
    "Discorpy.C78_accuracy",
    "Discorpy.C78_chessboard",
    "Discorpy.C78_hor",
    "Discorpy.C78_no_angles",
    "Discorpy.C78_total",
    "Discorpy.C78_ver"
   ],
   "note": ""
  },
  {
   "property": "C79",
   "status": "proved",
   "theorems": [
    "Discorpy.C79_errors",
    "Discorpy.C79_hor_lines",
    "Discorpy.C79_success",
    "Discorpy.C79_ver_lines"
   ],
   "note": ""
  },
  {
   "property": "C80",
   "status": "proved",
   "theorems": [
    "Discorpy.C80_backward",
    "Discorpy.C80_backward_from_forward",
    "Discorpy.C80_exact",
    "Discorpy.C80_forward",
    "Discorpy.C80_ideal_backward",
    "Discorpy.C80_ideal_forward"
   ],
   "note": "np.linalg.lstsq, np.polyfit and scipy minimize enter through their contracts; equal spacing of the undistorted intercepts is C22"
  },
  {
   "property": "C81",
   "status": "proved",
   "theorems": [
    "Discorpy.C81_denoise",
    "Discorpy.C81_empty",
    "Discorpy.C81_exact",
    "Discorpy.C81_otsu",
    "Discorpy.C81_shape",
    "Discorpy.C81_stable",
    "Discorpy.C81_unstable"
   ],
   "note": "Otsu's threshold is a parameter; scipy.ndimage/skimage morphology is modelled by its definition"
  },
  {
   "property": "C82",
   "status": "proved",
   "theorems": [
    "Discorpy.C82_binarize",
    "Discorpy.C82_binary",
    "Discorpy.C82_inside",
    "Discorpy.C82_refused"
   ],
   "note": ""
  },
  {
   "property": "C83",
   "status": "proved",
   "theorems": [
    "Discorpy.C83_empty",
    "Discorpy.C83_exact_hor",
    "Discorpy.C83_exact_ver",
    "Discorpy.C83_hor",
    "Discorpy.C83_ver"
   ],
   "note": "np.polyfit and np.argsort enter through their contracts, the Radon transform is an arbitrary function with one column per angle"
  },
  {
   "property": "C84",
   "status": "proved",
   "theorems": [
    "Discorpy.C84_affine",
    "Discorpy.C84_errors",
    "Discorpy.C84_order",
    "Discorpy.C84_rule",
    "Discorpy.C84_straight"
   ],
   "note": "np.polyfit and scipy.ndimage.zoom enter through contracts (least squares; length, and for C84_affine commutation with affine maps)."
  },
  {
   "property": "C85",
   "status": "proved",
   "theorems": [
    "Discorpy.C85_fft",
    "Discorpy.C85_fft_errors",
    "Discorpy.C85_fft_odd",
    "Discorpy.C85_fft_scale",
    "Discorpy.C85_fft_uniform",
    "Discorpy.C85_fft_waves",
    "Discorpy.C85_median",
    "Discorpy.C85_padding",
    "Discorpy.C85_positive",
    "Discorpy.C85_scale",
    "Discorpy.C85_uniform"
   ],
   "note": "Discrete Fourier transforms and the median filter are modelled exactly over the reals; padding modes are index maps (np.pad modes that repeat pixels)."
  },
  {
   "property": "C86",
   "status": "proved",
   "theorems": [
    "Discorpy.C86_denoise",
    "Discorpy.C86_errors",
    "Discorpy.C86_flat",
    "Discorpy.C86_max",
    "Discorpy.C86_norm",
    "Discorpy.C86_scale",
    "Discorpy.C86_ties"
   ],
   "note": "Profiles of type float; for integer profiles the code stores a truncated background. np.polyfit and argsort are given by their contracts, gaussian_filter is a parameter. Ranks of equal samples are free (quicksort is not stable)."
  },
  {
   "property": "C87",
   "status": "proved",
   "theorems": [
    "Discorpy.C87_binarized",
    "Discorpy.C87_calibration",
    "Discorpy.C87_lines",
    "Discorpy.C87_plain",
    "Discorpy.C87_small"
   ],
   "note": "Odd dot sizes; np.polyfit, argsort, lstsq and the minimiser enter through their contracts."
  },
  {
   "property": "C88",
   "status": "proved",
   "theorems": [
    "Discorpy.C88_created",
    "Discorpy.C88_first",
    "Discorpy.C88_listing",
    "Discorpy.C88_stream"
   ],
   "note": "first dataset, listing, files created, streams"
  },
  {
   "property": "C89",
   "status": "proved",
   "theorems": [
    "Discorpy.C89_content",
    "Discorpy.C89_directory",
    "Discorpy.C89_list_destroys",
    "Discorpy.C89_list_keeps",
    "Discorpy.C89_list_roundtrip",
    "Discorpy.C89_no_file",
    "Discorpy.C89_object",
    "Discorpy.C89_saved_object",
    "Discorpy.C89_unreadable"
   ],
   "note": "the contents of files and what h5py, Pillow and pickle find in them are parameters"
  },
  {
   "property": "C90",
   "status": "proved",
   "theorems": [
    "Discorpy.C90_binarization",
    "Discorpy.C90_constant",
    "Discorpy.C90_contrast",
    "Discorpy.C90_float",
    "Discorpy.C90_integer",
    "Discorpy.C90_mask",
    "Discorpy.C90_pattern",
    "Discorpy.C90_refused",
    "Discorpy.C90_two"
   ],
   "note": "threshold_otsu of scikit-image is modelled by the steps of its code over the reals (its histogram is stored as float32)"
  },
  {
   "property": "C91",
   "status": "proved",
   "theorems": [
    "Discorpy.C91_linear",
    "Discorpy.C91_perspective",
    "Discorpy.C91_rounding",
    "Discorpy.C91_scene",
    "Discorpy.C91_slice",
    "Discorpy.C91_smooth"
   ],
   "note": "Images, scenes and lenses are functions over the reals; the float32 rounding of coordinates is any monotone rounding exact on integers up to 2^24 with a stated error."
  },
  {
   "property": "C92",
   "status": "proved",
   "theorems": [
    "Discorpy.C92_backward",
    "Discorpy.C92_error",
    "Discorpy.C92_forward",
    "Discorpy.C92_solver"
   ],
   "note": "Hypotheses as in C80 (at least four non-empty lines per direction, strictly monotone fitted intercepts, no zero ordinate)."
  },
  {
   "property": "C93",
   "status": "proved",
   "theorems": [
    "Discorpy.C93_binary",
    "Discorpy.C93_negative",
    "Discorpy.C93_no_tolerance",
    "Discorpy.C93_outcome",
    "Discorpy.C93_rectangles",
    "Discorpy.C93_symmetric"
   ],
   "note": "regionprops of scikit-image is modelled by its definition over the reals: region of the least positive value, axes of four times the roots of the eigenvalues of the inertia tensor."
  },
  {
   "property": "C94",
   "status": "proved",
   "theorems": [
    "Discorpy.C94_script",
    "Discorpy.C94_size_distance"
   ],
   "note": "The calls of examples/example_01.py:47-273 in their order (Model/Example.lean). The Radon transform is external: that the sharpest projection is the upright one is a hypothesis (Upright). In exact arithmetic all curvatures are 0, so find_cod_coarse takes the first pair of lines; with floats rounding noise would decide which pair."
  },
  {
   "property": "C95",
   "status": "proved",
   "theorems": [
    "Discorpy.C95_backward",
    "Discorpy.C95_backward_from_forward",
    "Discorpy.C95_centre",
    "Discorpy.C95_forward",
    "Discorpy.C95_forward_image",
    "Discorpy.C95_forward_image_fold",
    "Discorpy.C95_image",
    "Discorpy.C95_lines",
    "Discorpy.C95_perspective_image",
    "Discorpy.C95_residual"
   ],
   "note": "C95_forward_image needs that no two pixels are moved to the same place; C95_forward_image_fold shows that unwarp_image_forward is not symmetric otherwise."
  },
  {
   "property": "C96",
   "status": "proved",
   "theorems": [
    "Discorpy.C96_backward",
    "Discorpy.C96_backward_from_forward",
    "Discorpy.C96_bailey",
    "Discorpy.C96_coarse",
    "Discorpy.C96_coarse_origin",
    "Discorpy.C96_forward",
    "Discorpy.C96_image",
    "Discorpy.C96_lines"
   ],
   "note": "C96_image is stated with exact (not float32) coordinates. C96_coarse_origin is a finding: the coarse centre depends on the origin of the coordinates."
  },
  {
   "property": "C97",
   "status": "proved",
   "theorems": [
    "Discorpy.C97_distance",
    "Discorpy.C97_order",
    "Discorpy.C97_ratio",
    "Discorpy.C97_ratio_binary",
    "Discorpy.C97_size",
    "Discorpy.C97_size_float",
    "Discorpy.C97_sizes"
   ],
   "note": "Selection by distance is not idempotent and selection by size is not for images with fractions; both shown by witnesses (C97_distance, C97_size_float)."
  },
  {
   "property": "C98",
   "status": "proved",
   "theorems": [
    "Discorpy.C98_bits",
    "Discorpy.C98_double",
    "Discorpy.C98_exact",
    "Discorpy.C98_image",
    "Discorpy.C98_line",
    "Discorpy.C98_order",
    "Discorpy.C98_perspective",
    "Discorpy.C98_single"
   ],
   "note": "Rounding is modelled for these three functions only (lines of floats); overflow and underflow are excluded by the contract, which C98_bits shows to hold for binary floating point with unbounded exponents. The interpolation itself is exact."
  },
  {
   "property": "C99",
   "status": "proved",
   "theorems": [
    "Discorpy.C99_centre",
    "Discorpy.C99_hor",
    "Discorpy.C99_model",
    "Discorpy.C99_moved",
    "Discorpy.C99_moved_ver",
    "Discorpy.C99_two",
    "Discorpy.C99_ver"
   ],
   "note": ""
  },
  {
   "property": "C100",
   "status": "proved",
   "theorems": [
    "Discorpy.C100_agree",
    "Discorpy.C100_stretch"
   ],
   "note": "The inverse is assumed at the pixels concerned; pixels that nothing is moved to are zero in the forward image (C11)."
  },
  {
   "property": "C101",
   "status": "proved",
   "theorems": [
    "Discorpy.C101_columns",
    "Discorpy.C101_complete",
    "Discorpy.C101_default",
    "Discorpy.C101_missing",
    "Discorpy.C101_radial"
   ],
   "note": "C101_complete and C101_columns give the exact result for complete grids, C101_missing allows missing dots, C101_radial bounds the bend of a radial model, C101_default is the case of the default settings."
  },
  {
   "property": "C102",
   "status": "proved",
   "theorems": [
    "Discorpy.C102_hor",
    "Discorpy.C102_parabolas",
    "Discorpy.C102_ver"
   ],
   "note": "rows and columns, with exact result for parallel parabolas"
  },
  {
   "property": "C103",
   "status": "proved",
   "theorems": [
    "Discorpy.C103_backward",
    "Discorpy.C103_few",
    "Discorpy.C103_forward",
    "Discorpy.C103_image",
    "Discorpy.C103_lines",
    "Discorpy.C103_models",
    "Discorpy.C103_narrow",
    "Discorpy.C103_size",
    "Discorpy.C103_verdicts"
   ],
   "note": "for any libraries meeting the contracts; centre and coefficients are those of the package functions (C25, C80)"
  },
  {
   "property": "C104",
   "status": "proved",
   "theorems": [
    "Discorpy.C104_copies",
    "Discorpy.C104_correction",
    "Discorpy.C104_drawn",
    "Discorpy.C104_exposure",
    "Discorpy.C104_extension",
    "Discorpy.C104_flat",
    "Discorpy.C104_illumination",
    "Discorpy.C104_lines",
    "Discorpy.C104_load",
    "Discorpy.C104_model",
    "Discorpy.C104_perspective",
    "Discorpy.C104_size",
    "Discorpy.C104_stages"
   ],
   "note": "the script as a function of the command line and the files; printing and saving not modelled; C104_drawn under the conditions of C94"
  },
  {
   "property": "C105",
   "status": "proved",
   "theorems": [
    "Discorpy.C105_drawn",
    "Discorpy.C105_errors",
    "Discorpy.C105_image",
    "Discorpy.C105_model",
    "Discorpy.C105_numbers",
    "Discorpy.C105_range",
    "Discorpy.C105_search",
    "Discorpy.C105_slices"
   ],
   "note": "loading and saving of files not modelled; C105_slices under the no-folding condition of C02; C105_drawn under the conditions of C94"
  },
  {
   "property": "C106",
   "status": "proved",
   "theorems": [
    "Discorpy.C106_barrel",
    "Discorpy.C106_dots",
    "Discorpy.C106_drawn",
    "Discorpy.C106_images",
    "Discorpy.C106_lines",
    "Discorpy.C106_model",
    "Discorpy.C106_pincushion",
    "Discorpy.C106_small",
    "Discorpy.C106_steps",
    "Discorpy.C106_straight"
   ],
   "note": "drawing and saving of figures and files not modelled; C106_drawn under the conditions of C94; for bent patterns the points are given (their detection in a bent image is not modelled beyond C106_dots)"
  },
  {
   "property": "C107",
   "status": "proved",
   "theorems": [
    "Discorpy.C107_determined",
    "Discorpy.C107_grey",
    "Discorpy.C107_horizon",
    "Discorpy.C107_order",
    "Discorpy.C107_rectangle",
    "Discorpy.C107_script"
   ],
   "note": "Four source/target pairs without three on a line determine the projective map and the returned coefficients; a map sending the corner (0,0) to infinity has no coefficients at all (C107_horizon gives a convex quadrilateral for which this happens). The order of the clicked points does not matter. The rectangle is mapped onto the convex quadrilateral. demo_07: both images, for every angle, scale and offset; grey images end with IndexError."
  },
  {
   "property": "C108",
   "status": "proved",
   "theorems": [
    "Discorpy.C108_collapse",
    "Discorpy.C108_image",
    "Discorpy.C108_points",
    "Discorpy.C108_rectifies"
   ],
   "note": "Photographs of grids by any camera: sources are the crossings, coefficients are exact on the whole plane in both directions, square grids are shown true to scale. Exceptions proved: corner of the result on the horizon, and rows meeting on the edge x = 0 (default options collapse the targets)."
  },
  {
   "property": "C109",
   "status": "proved",
   "theorems": [
    "Discorpy.C109_apply",
    "Discorpy.C109_backward_mapping",
    "Discorpy.C109_correct",
    "Discorpy.C109_forward_only",
    "Discorpy.C109_grey",
    "Discorpy.C109_mean",
    "Discorpy.C109_overlay",
    "Discorpy.C109_padding",
    "Discorpy.C109_rover_errors",
    "Discorpy.C109_scan_centre",
    "Discorpy.C109_scan_coef",
    "Discorpy.C109_scan_errors",
    "Discorpy.C109_scene",
    "Discorpy.C109_sheet"
   ],
   "note": "demo_08.py and the Perseverance scripts: overlay, scans, final correction, backward mapping, metadata, error cases. Assumed: float formatting rounds to two decimals, numbers of a file are read as they were printed, sizes up to 32767 for the scans (int16) and 2^24 for rounded coordinates. Not covered: the optional rotation of the sheet, negative list indices, broadcasting of lists of length one."
  },
  {
   "property": "C110",
   "status": "proved",
   "theorems": [
    "Discorpy.C110_found",
    "Discorpy.C110_hor_lines",
    "Discorpy.C110_one_each",
    "Discorpy.C110_parabola",
    "Discorpy.C110_twice",
    "Discorpy.C110_ver_lines"
   ],
   "note": "The ridges are stated for the prepared image: what normalization_fft and the Gaussian filter make of a photograph is a parameter. Norm and denoise on (the defaults), no peak selection."
  },
  {
   "property": "C111",
   "status": "proved",
   "theorems": [
    "Discorpy.C111_hor",
    "Discorpy.C111_hor_all",
    "Discorpy.C111_ver",
    "Discorpy.C111_ver_all"
   ],
   "note": "Upright patterns (slope 0). The lines are stated for the prepared image, as in C110; the conditions on the curves are those of the two functions' tolerances."
  },
  {
   "property": "C112",
   "status": "proved",
   "theorems": [
    "Discorpy.C112_chessboard_run",
    "Discorpy.C112_grid",
    "Discorpy.C112_hor_straight",
    "Discorpy.C112_line_run",
    "Discorpy.C112_no_points",
    "Discorpy.C112_settings",
    "Discorpy.C112_undistorted",
    "Discorpy.C112_ver_straight"
   ],
   "note": "Model of the three scripts (Model/LineScript). Finished runs: C112_line_run, C112_chessboard_run (shape of the grid: regenerate_shape). Settings: C112_settings. Errors: C112_no_points. Straight grids: C112_hor_straight, C112_ver_straight, C112_grid (from C111) and the failure C112_undistorted (from C72_straight), with a 65 by 65 pixel example. Figures and file writing are not part of the model; slopes and distances of the straight grid are taken as 0 and given."
  },
  {
   "property": "C113",
   "status": "proved",
   "theorems": [
    "Discorpy.C113_demo01",
    "Discorpy.C113_demo01_run",
    "Discorpy.C113_demo02_run",
    "Discorpy.C113_demo05_run",
    "Discorpy.C113_example03",
    "Discorpy.C113_example03_run",
    "Discorpy.C113_lines",
    "Discorpy.C113_perspective",
    "Discorpy.C113_rectified",
    "Discorpy.C113_settings_example03",
    "Discorpy.C113_settings_noise",
    "Discorpy.C113_settings_plain"
   ],
   "note": "Model of the five scripts (Model/DotScript). Finished runs: C113_demo01_run, C113_demo02_run (also demo_03), C113_demo05_run, C113_example03_run; the settings of each script: C113_settings_plain, C113_settings_noise, C113_settings_example03; the rectified image: C113_rectified (from C108). Drawings: C113_lines, C113_demo01, C113_example03 and the failure C113_perspective (from C72), with the 13 by 13 pattern as example. Figures and file writing are not part of the model."
  },
  {
   "property": "C114",
   "status": "proved",
   "theorems": [
    "Discorpy.C114_chunk",
    "Discorpy.C114_double",
    "Discorpy.C114_exact",
    "Discorpy.C114_forward",
    "Discorpy.C114_forward_image",
    "Discorpy.C114_perspective",
    "Discorpy.C114_perspective_errors",
    "Discorpy.C114_point",
    "Discorpy.C114_slice",
    "Discorpy.C114_slice_error",
    "Discorpy.C114_slice_image"
   ],
   "note": "Model/RoundedMore (equal to the exact model without rounding: C114_exact). (1) C114_point; (2) C114_slice, C114_slice_error, C114_slice_image; (3) C114_chunk; (4) C114_forward, C114_forward_image; (5) C114_perspective, C114_perspective_errors; (6) C114_double. The interpolation itself is exact, and exponents have no limits."
  },
  {
   "property": "C115",
   "status": "proved",
   "theorems": [
    "Discorpy.C115_default",
    "Discorpy.C115_grid",
    "Discorpy.C115_near",
    "Discorpy.C115_rows",
    "Discorpy.C115_verdict"
   ],
   "note": "C115_rows (missing dots), C115_grid (complete grid, rows and columns), C115_default (default settings, radial lens); C115_near: the points are within rho of the moved nodes; C115_verdict: the verdict on the unwarped lines."
  },
  {
   "property": "C116",
   "status": "proved",
   "theorems": [
    "Discorpy.C116_backward",
    "Discorpy.C116_backward_from_forward",
    "Discorpy.C116_bent_grid",
    "Discorpy.C116_centres",
    "Discorpy.C116_columns",
    "Discorpy.C116_effect",
    "Discorpy.C116_filter_hor",
    "Discorpy.C116_filter_ver",
    "Discorpy.C116_forward",
    "Discorpy.C116_grids",
    "Discorpy.C116_residual_hor",
    "Discorpy.C116_residual_ver",
    "Discorpy.C116_rows",
    "Discorpy.C116_ties"
   ],
   "note": "Fits, centres, models, grids, residuals and filters do not depend on the order of the dots in a line; the grouping does not depend on the order of the list if the sorting keys differ, and a tie for which it does is exhibited."
  },
  {
   "property": "C117",
   "status": "proved",
   "theorems": [
    "Discorpy.C117_bailey",
    "Discorpy.C117_coarse_moves",
    "Discorpy.C117_coarse_straight",
    "Discorpy.C117_columns",
    "Discorpy.C117_filter_hor",
    "Discorpy.C117_filter_ver",
    "Discorpy.C117_fine",
    "Discorpy.C117_grid",
    "Discorpy.C117_image",
    "Discorpy.C117_lines",
    "Discorpy.C117_residual",
    "Discorpy.C117_rows",
    "Discorpy.C117_undistorted_moves"
   ],
   "note": "Grouping, filters, fine centre, residuals, unwarped dots, straight grids and parts of images move with the pattern; the coarse centre does for straight lines; concrete patterns for which the coarse centre and the undistorted perspective lines do not."
  },
  {
   "property": "C118",
   "status": "proved",
   "theorems": [
    "Discorpy.C118_chunk",
    "Discorpy.C118_color",
    "Discorpy.C118_combination",
    "Discorpy.C118_half",
    "Discorpy.C118_identity",
    "Discorpy.C118_image",
    "Discorpy.C118_monotone",
    "Discorpy.C118_not_linear",
    "Discorpy.C118_perspective",
    "Discorpy.C118_range",
    "Discorpy.C118_scene",
    "Discorpy.C118_slice"
   ],
   "note": "Model of the integer conversion in map_coordinates (SciPy; its source is not available here, so this part is a trusted assumption). Nearest value for every sampler; range, half-unit error, identity, monotonicity, slices, chunks, colour channels, combinations and accuracy for the default interpolation; counterexample for linearity."
  },
  {
   "property": "C119",
   "status": "proved",
   "theorems": [
    "Discorpy.C119_centre",
    "Discorpy.C119_coefs",
    "Discorpy.C119_image",
    "Discorpy.C119_lines",
    "Discorpy.C119_point",
    "Discorpy.C119_sharp",
    "Discorpy.C119_slice",
    "Discorpy.C119_verdict"
   ],
   "note": "Displacement bounds for points, lines, pixels and slices under errors of centre and coefficients; sharp for a change of scale; consequence for check_distortion."
  },
  {
   "property": "C120",
   "status": "proved",
   "theorems": [
    "Discorpy.C120_blind",
    "Discorpy.C120_horizon",
    "Discorpy.C120_image",
    "Discorpy.C120_lines",
    "Discorpy.C120_point",
    "Discorpy.C120_sharp"
   ],
   "note": "Displacement bounds for points, lines and pixels under errors of the coefficients, with the condition that no point reaches the horizon; sharp; the residual check passes for all coefficients on straight lines."
  },
  {
   "property": "C121",
   "status": "proved",
   "theorems": [
    "Discorpy.C121_forward"
   ],
   "note": "Rows and columns corrected with the forward model of calc_coef_forward pass check_distortion whenever some model with as many coefficients fits within explicit tolerances. The backward model is not covered."
  },
  {
   "property": "C122",
   "status": "proved",
   "theorems": [
    "Discorpy.C122_differs",
    "Discorpy.C122_error",
    "Discorpy.C122_flat",
    "Discorpy.C122_norm",
    "Discorpy.C122_options",
    "Discorpy.C122_plain"
   ],
   "note": "Equal to the float result without normalization; exact description, error bound, constant profiles and a counterexample with normalization. select_peaks and the dtype uint64 (promoted to float by numpy) are not covered."
  },
  {
   "property": "C123",
   "status": "proved",
   "theorems": [
    "Discorpy.C123_denoise",
    "Discorpy.C123_float",
    "Discorpy.C123_float_above",
    "Discorpy.C123_float_whole",
    "Discorpy.C123_given",
    "Discorpy.C123_integer",
    "Discorpy.C123_mask",
    "Discorpy.C123_split"
   ],
   "note": "Sufficient condition for the noise and a counterexample without it. For float images only the threshold is described (C123_float, C123_float_whole, C123_float_above); the equality of the masks is proved for integer images."
  },
  {
   "property": "C124",
   "status": "proved",
   "theorems": [
    "Discorpy.C124_auto",
    "Discorpy.C124_given",
    "Discorpy.C124_photo",
    "Discorpy.C124_photo_auto"
   ],
   "note": "Noise is any perturbation within the bound. With the automatic threshold: integer images, and for photographs of drawn patterns the threshold of the whole image (the default of binarization is the middle part)."
  },
  {
   "property": "C125",
   "status": "proved",
   "theorems": [
    "Discorpy.C125_chunk",
    "Discorpy.C125_color",
    "Discorpy.C125_forward",
    "Discorpy.C125_image",
    "Discorpy.C125_noise",
    "Discorpy.C125_perspective",
    "Discorpy.C125_signed",
    "Discorpy.C125_signed_two",
    "Discorpy.C125_slice",
    "Discorpy.C125_unsigned"
   ],
   "note": "Integer conversion as in C118 (an assumption about SciPy)."
  },
  {
   "property": "C126",
   "status": "proved",
   "theorems": [
    "Discorpy.C126_forward_fails",
    "Discorpy.C126_four",
    "Discorpy.C126_image",
    "Discorpy.C126_lines",
    "Discorpy.C126_symmetric"
   ],
   "note": "Exact coordinates (no rounding to float32); the forward image is covered by a counterexample only."
  },
  {
   "property": "C127",
   "status": "proved",
   "theorems": [
    "Discorpy.C127_image",
    "Discorpy.C127_perspective",
    "Discorpy.C127_perspective_line",
    "Discorpy.C127_slice"
   ],
   "note": "Exact coordinates and linear interpolation."
  },
  {
   "property": "C128",
   "status": "proved",
   "theorems": [
    "Discorpy.C128_binarization",
    "Discorpy.C128_fails",
    "Discorpy.C128_forward",
    "Discorpy.C128_image",
    "Discorpy.C128_points",
    "Discorpy.C128_script"
   ],
   "note": "threshold_otsu as modelled in C90. Exact arithmetic for the pixels. Negative pixels are excluded because binarization takes absolute values when it denoises."
  },
  {
   "property": "C129",
   "status": "proved",
   "theorems": [
    "Discorpy.C129_black",
    "Discorpy.C129_noise",
    "Discorpy.C129_script"
   ],
   "note": "threshold_otsu as modelled in C90, for float images as the script loads them. Exact arithmetic for the pixels. Noise on the dark pixels is excluded in the second part: C123_float_above shows that it can cross the threshold."
  },
  {
   "property": "C130",
   "status": "proved",
   "theorems": [
    "Discorpy.C130_demo01",
    "Discorpy.C130_demo02",
    "Discorpy.C130_noise",
    "Discorpy.C130_unwarp"
   ],
   "note": "threshold_otsu as modelled in C90, exact arithmetic for the pixels. The scripts that first divide by a background (demo_03, demo_05, example_03) are in C131."
  },
  {
   "property": "C131",
   "status": "proved",
   "theorems": [
    "Discorpy.C131_demo03",
    "Discorpy.C131_demo05",
    "Discorpy.C131_example03",
    "Discorpy.C131_mask",
    "Discorpy.C131_unwarp"
   ],
   "note": "threshold_otsu as modelled in C90 for float images, normalization_fft as in C85, exact arithmetic for the pixels."
  },
  {
   "property": "C132",
   "status": "proved",
   "theorems": [
    "Discorpy.C132_hor",
    "Discorpy.C132_profile",
    "Discorpy.C132_script",
    "Discorpy.C132_ver"
   ],
   "note": "gaussian_filter, gaussian_filter1d, normalization_fft and map_coordinates are arbitrary functions for which a factor of the image gives a factor of the result; exact arithmetic. The slopes and distances are given in C132_script: calc_slope_distance divides by a background, which can be zero (C86)."
  },
  {
   "property": "C133",
   "status": "proved",
   "theorems": [
    "Discorpy.C133_chessboard",
    "Discorpy.C133_cross",
    "Discorpy.C133_demo06",
    "Discorpy.C133_lines",
    "Discorpy.C133_pattern",
    "Discorpy.C133_slope"
   ],
   "note": "gaussian_filter is an arbitrary filter that keeps contrast and brightness, radon an arbitrary transform for which a factor of the image gives a factor of the result; exact arithmetic (C133_cross: a floating-point image, whose slopes are not rounded to integers). C133_slope says nothing about the distance with norm=True: the background of the profile can be zero (C86)."
  },
  {
   "property": "C134",
   "status": "proved",
   "theorems": [
    "Discorpy.C134_color",
    "Discorpy.C134_fft",
    "Discorpy.C134_points",
    "Discorpy.C134_script"
   ],
   "note": "The smoothing filters and the interpolation keep the contrast; exact arithmetic (coordinates and slopes not rounded). The line pattern is not covered: its distances are found with norm=True, where the background of the profile can be zero (C86, C133)."
  }
 ]
}