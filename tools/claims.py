"""Status and note per property."""
CLAIMS = {
 "C01": ("proved", "Heights up to 32767; C01_int16_overflow shows the bound is needed (np.int16 overflow). The slice function does not round coordinates to float32 while the image function does; the equality is stated with exact coordinates. C01_no_coefs: without coefficients the row coordinates are a single number and map_coordinates is given arrays of different shapes, a ValueError."),
 "C02": ("proved", "Includes float32 rounding as an arbitrary monotone rounding exact on integers; the counterexample without the no-fold condition holds for every pixel-local boundary mode."),
 "C03": ("proved", "Iff statement for heights up to 32768; rejection of -1 for all heights."),
 "C04": ("proved", "All six functions; any interpolation that reproduces node values."),
 "C05": ("proved", ""),
 "C06": ("proved", ""),
 "C07": ("proved", ""),
 "C08": ("proved", ""),
 "C09": ("proved", ""),
 "C10": ("proved", "The optimiser is an arbitrary function of the objective and the start; the theorems need it to return a non-negative radius that is a least or stationary point; C10_error holds for any non-negative radius."),
 "C11": ("proved", ""),
 "C12": ("proved", "polyfit and argsort enter through contracts (least-squares optimality; sorting permutation)."),
 "C13": ("proved", ""),
 "C14": ("proved", ""),
 "C15": ("proved", "Points sent to infinity (vanishing denominator) are excluded by hypothesis."),
 "C16": ("proved", ""),
 "C17": ("proved", "lstsq enters through its least-squares contract. Adds exact recovery from four sources in general position."),
 "C18": ("proved", ""),
 "C24": ("proved", "lstsq enters through its least-squares contract."),
 "C19": ("proved", ""),
 "C20": ("proved", ""),
 "C21": ("proved", ""),
 "C22": ("proved", "polyfit enters through its least-squares contract; the optimising option for an arbitrary minimiser."),
 "C23": ("proved", "lstsq/polyfit enter through their contracts; C23_backward_through_centre shows the exclusion is needed."),
 "C25": ("proved", ""),
 "C26": ("proved", "The metric depends on polyfit (contract) and on the minimiser (arbitrary)."),
 "C27": ("proved", ""),
 "C28": ("proved", ""),
 "C29": ("proved", "Any sort meeting the argsort contract; connected-component labelling only supplies the dot centroids."),
 "C30": ("proved", "C30_ratio_one shows the documented 'equal or larger' does not hold."),
 "C31": ("proved", ""),
 "C32": ("proved", "polyfit enters through its least-squares contract for the exact-parabola part."),
 "C33": ("proved", ""),
 "C34": ("proved", "C34_out_of_frame proves the failure for points beyond the frame."),
 "C64": ("proved", "Rows whose length exceeds accepted_ratio * longest are returned whole."),
 "C35": ("proved", ''),
 "C36": ("proved", ''),
 "C37": ("proved", ''),
 "C38": ("proved", ''),
 "C39": ("proved", ''),
 "C40": ("proved", 'C40_stale is the concrete failure with two-dot groups'),
 "C65": ("proved", 'polyfit enters through its contract PolyfitSpec (least-squares minimiser)'),
 "C41": ("proved", 'connected components are modelled (4-neighbourhood, scan order); ellipse axes of regionprops are an arbitrary function'),
 "C66": ("proved", ''),
 "C67": ("proved", 'binary images; connected components and clear_border are modelled'),
 "C42": ("proved", 'np.polyfit enters through its contract PolyfitSpec (least-squares minimiser); C42_flat is the witness that a flat window is located at its start'),
 "C43": ("proved", 'without normalisation and smoothing; C43_short is the witness that fewer than 4 samples give no extremum at all'),
 "C44": ("proved", 'np.polyfit through PolyfitSpec; C44_int_dtype records the truncation of slopes for integer input arrays'),
 "C45": ("proved", 'coordinates only; the interpolation at these coordinates is covered by C05'),
 "C46": ("proved", 'curve_fit is an arbitrary function'),
 "C47": ("proved", 'smooth=False, i.e. the Gaussian filter is not applied'),
 "C48": ("proved", ''),
 "C49": ("proved", 'margins are assumed non-negative and the line distance positive'),
 "C50": ("proved", ''),
 "C51": ("proved", 'np.linalg.lstsq is an arbitrary function for the fit behind pad=True; C51_corners bounds the position of the corners'),
 "C52": ("proved", 'C52_padded is for linear interpolation with exact coordinates (no float32 rounding)'),
 "C53": ("proved", 'cv2.remap is an arbitrary interpolation, the camera an arbitrary schedule of reads and keys'),
 "C68": ("proved", 'scipy.ndimage.binary_dilation is modelled'),
 "C69": ("proved", ''),
 "C54": ("proved", 'pathlib suffix rules of Python <= 3.13; C54_final_dot shows the exception for names ending with a dot'),
 "C55": ("proved", 'file system without symbolic links and permissions; C55_race and C55_plot_suffix are witnesses of the two ways data can be lost'),
 "C56": ("proved", 'Python float printing and parsing assumed inverse (NumberText)'),
 "C57": ("proved", 'JSON values are numbers and nested arrays; number printing and parsing assumed inverse (JsonNumberText)'),
 "C58": ("proved", 'str.lower is an arbitrary function fixing the standard suffixes'),
 "C59": ("proved", 'real arithmetic for the scaling; conversion of floats outside [0,256) to uint8 is an arbitrary function'),
 "C70": ("proved", 'real arithmetic for the mean'),
 "C60": ("proved", "h5py's treatment of index lists that are not strictly increasing and in range is left open (H5ListSpec); conversion to float32 is an arbitrary function"),
 "C61": ("proved", 'trees with groups, datasets and dangling links; links to other objects not modelled'),
 "C62": ("proved", 'which exception h5py raises for conflicting paths is not claimed'),
 "C63": ("proved", "works on the text of a path; pathlib's glob is an arbitrary function"),
 "C71": ("proved", 'conversion to float32 is an arbitrary function'),
 "C72": ("proved", 'exactness on bent patterns, the failure on straight lines and too few lines'),
 "C73": ("proved", 'fsolve is a parameter; a point is claimed to be on both curves only where the solver found a root'),
 "C74": ("proved", 'fixed point, scaling, common slope, and the nan with two or three lines'),
 "C75": ("proved", 'map, fixed point, too few lines and one-sided patterns; lstsq, polyfit and argsort by contract'),
 "C76": ("proved", 'np.roots by contract (leading zeros stripped, complex result detected)'),
 "C77": ("proved", ''),
 "C78": ("proved", ''),
 "C79": ("proved", ''),
 "C80": ("proved", 'np.linalg.lstsq, np.polyfit and scipy minimize enter through their contracts; equal spacing of the undistorted intercepts is C22'),
 "C81": ("proved", "Otsu's threshold is a parameter; scipy.ndimage/skimage morphology is modelled by its definition"),
 "C82": ("proved", ''),
 "C83": ("proved", 'np.polyfit and np.argsort enter through their contracts, the Radon transform is an arbitrary function with one column per angle'),
 "C84": ("proved", 'np.polyfit and scipy.ndimage.zoom enter through contracts (least squares; length, and for C84_affine commutation with affine maps).'),
 "C85": ("proved", 'Discrete Fourier transforms and the median filter are modelled exactly over the reals; padding modes are index maps (np.pad modes that repeat pixels).'),
 "C86": ("proved", 'Profiles of type float; for integer profiles the code stores a truncated background. np.polyfit and argsort are given by their contracts, gaussian_filter is a parameter. Ranks of equal samples are free (quicksort is not stable).'),
 "C87": ("proved", 'Odd dot sizes; np.polyfit, argsort, lstsq and the minimiser enter through their contracts.'),
 "C88": ("proved", 'first dataset, listing, files created, streams'),
 "C89": ("proved", 'the contents of files and what h5py, Pillow and pickle find in them are parameters'),
 "C90": ("proved", 'threshold_otsu of scikit-image is modelled by the steps of its code over the reals (its histogram is stored as float32)'),
 "C91": ("proved", 'Images, scenes and lenses are functions over the reals; the float32 rounding of coordinates is any monotone rounding exact on integers up to 2^24 with a stated error.'),
 "C92": ("proved", 'Hypotheses as in C80 (at least four non-empty lines per direction, strictly monotone fitted intercepts, no zero ordinate).'),
 "C93": ("proved", 'regionprops of scikit-image is modelled by its definition over the reals: region of the least positive value, axes of four times the roots of the eigenvalues of the inertia tensor.'),
 "C94": ("proved", 'The calls of examples/example_01.py:47-273 in their order (Model/Example.lean). The Radon transform is external: that the sharpest projection is the upright one is a hypothesis (Upright). In exact arithmetic all curvatures are 0, so find_cod_coarse takes the first pair of lines; with floats rounding noise would decide which pair.'),
 "C95": ("proved", 'C95_forward_image needs that no two pixels are moved to the same place; C95_forward_image_fold shows that unwarp_image_forward is not symmetric otherwise.'),
 "C96": ("proved", 'C96_image is stated with exact (not float32) coordinates. C96_coarse_origin is a finding: the coarse centre depends on the origin of the coordinates.'),
 "C97": ("proved", 'Selection by distance is not idempotent and selection by size is not for images with fractions; both shown by witnesses (C97_distance, C97_size_float).'),
 "C98": ("proved", 'Rounding is modelled for these three functions only (lines of floats); overflow and underflow are excluded by the contract, which C98_bits shows to hold for binary floating point with unbounded exponents. The interpolation itself is exact.'),
 "C99": ("proved", ''),
 "C100": ("proved", 'The inverse is assumed at the pixels concerned; pixels that nothing is moved to are zero in the forward image (C11).'),
 "C101": ("proved", 'C101_complete and C101_columns give the exact result for complete grids, C101_missing allows missing dots, C101_radial bounds the bend of a radial model, C101_default is the case of the default settings.'),
 "C102": ("proved", 'rows and columns, with exact result for parallel parabolas'),
 "C103": ("proved", 'for any libraries meeting the contracts; centre and coefficients are those of the package functions (C25, C80)'),
 "C104": ("proved", 'the script as a function of the command line and the files; printing and saving not modelled; C104_drawn under the conditions of C94'),
 "C105": ("proved", 'loading and saving of files not modelled; C105_slices under the no-folding condition of C02; C105_drawn under the conditions of C94'),
 "C106": ("proved", 'drawing and saving of figures and files not modelled; C106_drawn under the conditions of C94; for bent patterns the points are given (their detection in a bent image is not modelled beyond C106_dots)'),
 "C107": ("proved", 'Four source/target pairs without three on a line determine the projective map and the returned coefficients; a map sending the corner (0,0) to infinity has no coefficients at all (C107_horizon gives a convex quadrilateral for which this happens). The order of the clicked points does not matter. The rectangle is mapped onto the convex quadrilateral. demo_07: both images, for every angle, scale and offset; grey images end with IndexError.'),
 "C108": ("proved", 'Photographs of grids by any camera: sources are the crossings, coefficients are exact on the whole plane in both directions, square grids are shown true to scale. Exceptions proved: corner of the result on the horizon, and rows meeting on the edge x = 0 (default options collapse the targets).'),
 "C109": ("proved", 'demo_08.py and the Perseverance scripts: overlay, scans, final correction, backward mapping, metadata, error cases. Assumed: float formatting rounds to two decimals, numbers of a file are read as they were printed, sizes up to 32767 for the scans (int16) and 2^24 for rounded coordinates. Not covered: the optional rotation of the sheet, negative list indices, broadcasting of lists of length one.'),
 "C110": ("proved", 'The ridges are stated for the prepared image: what normalization_fft and the Gaussian filter make of a photograph is a parameter. Norm and denoise on (the defaults), no peak selection.'),
 "C111": ("proved", "Upright patterns (slope 0). The lines are stated for the prepared image, as in C110; the conditions on the curves are those of the two functions' tolerances."),
 "C112": ("proved", 'Model of the three scripts (Model/LineScript). Finished runs: C112_line_run, C112_chessboard_run (shape of the grid: regenerate_shape). Settings: C112_settings. Errors: C112_no_points. Straight grids: C112_hor_straight, C112_ver_straight, C112_grid (from C111) and the failure C112_undistorted (from C72_straight), with a 65 by 65 pixel example. Figures and file writing are not part of the model; slopes and distances of the straight grid are taken as 0 and given.'),
 "C113": ("proved", 'Model of the five scripts (Model/DotScript). Finished runs: C113_demo01_run, C113_demo02_run (also demo_03), C113_demo05_run, C113_example03_run; the settings of each script: C113_settings_plain, C113_settings_noise, C113_settings_example03; the rectified image: C113_rectified (from C108). Drawings: C113_lines, C113_demo01, C113_example03 and the failure C113_perspective (from C72), with the 13 by 13 pattern as example. Figures and file writing are not part of the model.'),
 "C114": ("proved", 'Model/RoundedMore (equal to the exact model without rounding: C114_exact). (1) C114_point; (2) C114_slice, C114_slice_error, C114_slice_image; (3) C114_chunk; (4) C114_forward, C114_forward_image; (5) C114_perspective, C114_perspective_errors; (6) C114_double. The interpolation itself is exact, and exponents have no limits.'),
 "C115": ("proved", 'C115_rows (missing dots), C115_grid (complete grid, rows and columns), C115_default (default settings, radial lens); C115_near: the points are within rho of the moved nodes; C115_verdict: the verdict on the unwarped lines.'),
 "C116": ("proved", 'Fits, centres, models, grids, residuals and filters do not depend on the order of the dots in a line; the grouping does not depend on the order of the list if the sorting keys differ, and a tie for which it does is exhibited.'),
 "C117": ("proved", 'Grouping, filters, fine centre, residuals, unwarped dots, straight grids and parts of images move with the pattern; the coarse centre does for straight lines; concrete patterns for which the coarse centre and the undistorted perspective lines do not.'),
 "C118": ("proved", 'Model of the integer conversion in map_coordinates (SciPy; its source is not available here, so this part is a trusted assumption). Nearest value for every sampler; range, half-unit error, identity, monotonicity, slices, chunks, colour channels, combinations and accuracy for the default interpolation; counterexample for linearity.'),
 "C119": ("proved", 'Displacement bounds for points, lines, pixels and slices under errors of centre and coefficients; sharp for a change of scale; consequence for check_distortion.'),
 "C120": ("proved", 'Displacement bounds for points, lines and pixels under errors of the coefficients, with the condition that no point reaches the horizon; sharp; the residual check passes for all coefficients on straight lines.'),
 "C121": ("proved", 'Rows and columns corrected with the forward model of calc_coef_forward pass check_distortion whenever some model with as many coefficients fits within explicit tolerances. The backward model is not covered.'),
 "C122": ("proved", 'Equal to the float result without normalization; exact description, error bound, constant profiles and a counterexample with normalization. select_peaks and the dtype uint64 (promoted to float by numpy) are not covered.'),
 "C123": ("proved", 'Sufficient condition for the noise and a counterexample without it. For float images only the threshold is described (C123_float, C123_float_whole, C123_float_above); the equality of the masks is proved for integer images.'),
 "C124": ("proved", 'Noise is any perturbation within the bound. With the automatic threshold: integer images, and for photographs of drawn patterns the threshold of the whole image (the default of binarization is the middle part).'),
 "C125": ("proved", 'Integer conversion as in C118 (an assumption about SciPy).'),
 "C126": ("proved", 'Exact coordinates (no rounding to float32); the forward image is covered by a counterexample only.'),
 "C127": ("proved", 'Exact coordinates and linear interpolation.'),
 "C128": ("proved", 'threshold_otsu as modelled in C90. Exact arithmetic for the pixels. Negative pixels are excluded because binarization takes absolute values when it denoises.'),
 "C129": ("proved", 'threshold_otsu as modelled in C90, for float images as the script loads them. Exact arithmetic for the pixels. Noise on the dark pixels is excluded in the second part: C123_float_above shows that it can cross the threshold.'),
 "C130": ("proved", 'threshold_otsu as modelled in C90, exact arithmetic for the pixels. The scripts that first divide by a background (demo_03, demo_05, example_03) are in C131.'),
 "C131": ("proved", 'threshold_otsu as modelled in C90 for float images, normalization_fft as in C85, exact arithmetic for the pixels.'),
 "C132": ("proved", 'gaussian_filter, gaussian_filter1d, normalization_fft and map_coordinates are arbitrary functions for which a factor of the image gives a factor of the result; exact arithmetic. The slopes and distances are given in C132_script: calc_slope_distance divides by a background, which can be zero (C86).'),
 "C133": ("proved", 'gaussian_filter is an arbitrary filter that keeps contrast and brightness, radon an arbitrary transform for which a factor of the image gives a factor of the result; exact arithmetic (C133_cross: a floating-point image, whose slopes are not rounded to integers). C133_slope says nothing about the distance with norm=True: the background of the profile can be zero (C86).'),
 "C134": ("proved", 'The smoothing filters and the interpolation keep the contrast; exact arithmetic (coordinates and slopes not rounded). The line pattern is not covered: its distances are found with norm=True, where the background of the profile can be zero (C86, C133).'),
}
