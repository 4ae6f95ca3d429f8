{"id": "C01", "title": "One unwarped sinogram row equals the row of the unwarped image", "statement": "For a 3D stack, unwarp_slice_backward(stack, xc, yc, coefs, k)[i] is, pixel for pixel, row k of unwarp_image_backward(stack[i], xc, yc, coefs) with its default linear interpolation: cutting out only the detector rows that are needed changes nothing. Without coefficients the slice function raises ValueError (unless the stack has no projections).", "quantifier": "all stacks (any depth, height up to 32767, width), all centres, all non-empty coefficient lists (and the empty one), all row indices k and projections i", "why_tests_cant": "the crop bounds depend on centre, coefficients and row; a test samples a few of the infinitely many combinations", "anchors": ["discorpy/post/postprocessing.py:unwarp_slice_backward", "discorpy/post/postprocessing.py:unwarp_image_backward"]}
{"id": "C02", "title": "A chunk of unwarped sinograms equals the rows of the unwarped images", "statement": "If 0 <= start <= stop < height and the radial model never folds (r*F(r) non-decreasing, F >= 0), unwarp_chunk_slices_backward returns stop-start+1 slices per projection and slice k is row start+k of unwarp_image_backward of that projection, also when both round coordinates to float32. Without the no-folding condition the crop computed from the first and last rows alone can be too small and the result differs. A stack without projections gives an array of shape (0,).", "quantifier": "all stacks, centres, coefficient lists with the no-fold property, all start/stop pairs", "why_tests_cant": "correctness hinges on a monotonicity argument about every intermediate row, not on the end rows a test looks at", "anchors": ["discorpy/post/postprocessing.py:unwarp_chunk_slices_backward", "discorpy/post/postprocessing.py:_mapping", "discorpy/post/postprocessing.py:unwarp_image_backward"]}
{"id": "C03", "title": "Chunk index validation", "statement": "unwarp_chunk_slices_backward raises ValueError exactly when the input is not 3D or one of the two indices (after replacing stop == -1 by height) is outside 0..height-1; in particular stop_index = -1, the value the code reserves for 'until the end', is always rejected.", "quantifier": "all shapes and all integer start/stop indices", "why_tests_cant": "all integers; the -1 path is never exercised by the tests", "anchors": ["discorpy/post/postprocessing.py:unwarp_chunk_slices_backward"]}
{"id": "C04", "title": "The identity model changes nothing", "statement": "With coefficients [1, 0, ..., 0] and any centre, unwarp_image_backward, unwarp_image_forward, unwarp_slice_backward, unwarp_line_forward, find_point_to_point and unwarp_color_image_backward(pad=False) return exactly their input (the slice returns the requested row).", "quantifier": "all images, lines and points, all centres, any number of trailing zero coefficients", "why_tests_cant": "all images and centres", "anchors": ["discorpy/post/postprocessing.py:unwarp_image_backward", "discorpy/post/postprocessing.py:unwarp_image_forward", "discorpy/post/postprocessing.py:unwarp_slice_backward", "discorpy/post/postprocessing.py:unwarp_line_forward", "discorpy/util/utility.py:find_point_to_point"]}
{"id": "C05", "title": "Unwarping never invents intensities", "statement": "With linear interpolation every output pixel of unwarp_image_backward, unwarp_slice_backward and correct_perspective_image is a convex combination of input pixels: no output value is below the smallest or above the largest input value, the output shape equals the input shape, and the boundary mode has no effect because every sampled coordinate is inside the image.", "quantifier": "all images, centres, coefficient lists of any sign or size, all 8-coefficient perspective maps", "why_tests_cant": "coordinates can leave the frame by arbitrary amounts; only the clip makes it true", "anchors": ["discorpy/post/postprocessing.py:unwarp_image_backward", "discorpy/post/postprocessing.py:unwarp_slice_backward", "discorpy/post/postprocessing.py:correct_perspective_image", "discorpy/post/postprocessing.py:_generate_perspective_map"]}
{"id": "C06", "title": "Unwarping is linear in the image", "statement": "unwarp_image_backward(a*A + b*B) = a*unwarp_image_backward(A) + b*unwarp_image_backward(B) for images of the same shape, so flat-field arithmetic commutes with unwarping.", "quantifier": "all scalars, all pairs of equally shaped images, all models", "why_tests_cant": "universally quantified algebraic law", "anchors": ["discorpy/post/postprocessing.py:unwarp_image_backward"]}
{"id": "C07", "title": "Radial geometry of the point mapping", "statement": "find_point_to_point keeps the centre fixed, moves every point along the ray/line through the centre, and its scale factor depends only on the distance to the centre: mapping commutes with every rotation about the centre, and shifting point and centre together shifts the result.", "quantifier": "all points, centres, coefficient lists, rotation angles, shifts", "why_tests_cant": "continuous symmetries", "anchors": ["discorpy/util/utility.py:find_point_to_point"]}
{"id": "C08", "title": "Line unwarping is the point mapping applied dot by dot", "statement": "unwarp_line_forward returns the same number of lines with the same number of dots, dot j of line i being find_point_to_point of the input dot (in y,x order) whatever the order option; for float arrays nothing is rounded, for integer arrays every coordinate is truncated because the result buffer copies the input dtype.", "quantifier": "all lists of lines, all models, both dtypes", "why_tests_cant": "all inputs; the integer truncation is silent", "anchors": ["discorpy/post/postprocessing.py:unwarp_line_forward", "discorpy/util/utility.py:find_point_to_point"]}
{"id": "C09", "title": "Forward and backward models that are inverse on radii are inverse on points", "statement": "If the backward polynomial B and the forward polynomial F satisfy F(r)*B(F(r)*r) = 1 and F(r)>0 at the radius r of a distorted point, then mapping the point with F and the result with B (same centre) gives the point back exactly.", "quantifier": "all points, centres, coefficient pairs with the stated property", "why_tests_cant": "round trip over a continuum", "anchors": ["discorpy/util/utility.py:find_point_to_point", "discorpy/proc/processing.py:transform_coef_backward_and_forward"]}
{"id": "C10", "title": "unwarp_line_backward inverts the backward model", "statement": "Whenever the numerical optimiser returns a radius ru >= 0, the backward model (find_point_to_point) maps the point produced by unwarp_line_backward to a point at distance |rd - ru*B(ru)| from the input point. So it maps it exactly to the input point if the dot can be reached and ru has the least squared misfit, or if ru is a stationary point of the squared misfit where r*B(r) is not stationary. A dot at the centre stays at the centre; a negative radius mirrors a dot at the centre.", "quantifier": "all lines, centres, models and optimisers", "why_tests_cant": "all inputs; the optimiser is replaced by its contract", "anchors": ["discorpy/post/postprocessing.py:unwarp_line_backward", "discorpy/post/postprocessing.py:_func_diff"]}
{"id": "C11", "title": "Forward image unwarping writes inside the frame and only copies pixels", "statement": "unwarp_image_forward never indexes outside the image, keeps the shape, and every output pixel is 0 or equals an input pixel whose rounded clipped forward position is that pixel (the last such pixel in row-major order); it is 0 exactly when no source pixel lands there or the landing value is 0.", "quantifier": "all images, centres, coefficients", "why_tests_cant": "scatter with collisions over all inputs", "anchors": ["discorpy/post/postprocessing.py:unwarp_image_forward"]}
{"id": "C12", "title": "Residuals are Euclidean point-to-line distances, sorted by radius", "statement": "calc_residual_hor/ver return one row per dot; rows are sorted by radius; each radius is the distance of the dot to the centre, each residual is the Euclidean distance to the least-squares line of its own line, hence >= 0 and 0 for every dot of a straight line. An empty list of lines, or a line without dots, raises IndexError.", "quantifier": "all lists of lines and centres", "why_tests_cant": "minimum over a continuum of line points; all permutations", "anchors": ["discorpy/post/postprocessing.py:calc_residual_hor", "discorpy/post/postprocessing.py:calc_residual_ver"]}
{"id": "C13", "title": "Horizontal and vertical residuals are mirror images", "statement": "calc_residual_ver(lines, xc, yc) equals calc_residual_hor applied to the lines with the two coordinates of every dot swapped and the centre coordinates swapped.", "quantifier": "all lists of lines and centres", "why_tests_cant": "relational property of two programs", "anchors": ["discorpy/post/postprocessing.py:calc_residual_hor", "discorpy/post/postprocessing.py:calc_residual_ver"]}
{"id": "C14", "title": "Distortion verdict", "statement": "check_distortion returns True exactly when more than 15% of the dots have a residual strictly greater than one pixel; it does not depend on the order of the rows and can only turn from False to True when residuals grow. On an empty list it raises.", "quantifier": "all non-empty residual lists", "why_tests_cant": "threshold semantics for every count", "anchors": ["discorpy/post/postprocessing.py:check_distortion"]}
{"id": "C15", "title": "Perspective correction of points is a projective map", "statement": "correct_perspective_line raises unless given 8 coefficients, keeps the number of lines and dots, maps collinear dots to collinear dots (where no denominator vanishes), and applying a map then another equals applying the (renormalised) matrix product; the inverse matrix undoes it.", "quantifier": "all lines and all coefficient vectors with non-vanishing denominators", "why_tests_cant": "projective identities over all reals", "anchors": ["discorpy/post/postprocessing.py:correct_perspective_line"]}
{"id": "C16", "title": "Perspective correction of an image samples the perspective map", "statement": "correct_perspective_image(mat, c) has the shape of mat, pixel (i,j) is the linear interpolation of mat at the clipped image of (x=j, y=i) under the same map correct_perspective_line uses, a precomputed map_index gives the same result as None, identity coefficients return mat, and anything but 8 coefficients raises ValueError.", "quantifier": "all images and coefficient vectors", "why_tests_cant": "all inputs", "anchors": ["discorpy/post/postprocessing.py:correct_perspective_image", "discorpy/post/postprocessing.py:_generate_perspective_map"]}
{"id": "C17", "title": "Perspective coefficients reproduce every correspondence they can", "statement": "If some perspective map with non-zero denominators sends every source point to its target, calc_perspective_coefficients(source, target, 'forward') returns coefficients whose map sends every source point with non-zero denominator exactly to its target, for any number of points.", "quantifier": "all point lists admitting an exact map, any length", "why_tests_cant": "least-squares optimality over all data", "anchors": ["discorpy/proc/processing.py:calc_perspective_coefficients", "discorpy/post/postprocessing.py:correct_perspective_line"]}
{"id": "C18", "title": "Backward coefficients are forward coefficients of the swapped points", "statement": "calc_perspective_coefficients(s, t, 'backward') solves the same system as calc_perspective_coefficients(t, s, 'forward'); any mapping string other than 'forward' means backward.", "quantifier": "all point lists and mapping strings", "why_tests_cant": "all inputs", "anchors": ["discorpy/proc/processing.py:calc_perspective_coefficients"]}
{"id": "C19", "title": "Regenerated grid points lie on both lines", "statement": "regenerate_grid_points_linear returns an H x V grid of points and its exact transpose; point (i,j) lies on the fitted horizontal line i and on the fitted vertical line j whenever these are not parallel, and it is the only such point.", "quantifier": "all lists of lines, with and without is_coef", "why_tests_cant": "all inputs", "anchors": ["discorpy/proc/processing.py:regenerate_grid_points_linear", "discorpy/proc/processing.py:_find_cross_point_between_lines", "discorpy/proc/processing.py:_generate_linear_coef"]}
{"id": "C20", "title": "Undistorted perspective lines form a regular rectangular grid", "statement": "For at least two non-empty lines per direction generate_undistorted_perspective_lines returns points on two families of parallel equidistant straight lines perpendicular to each other; neighbouring points along a row (column) are one constant vector apart, and with equal_dist=True the two spacings are equal in length. No division by zero can occur in the intersection. The middle line of each direction keeps its fitted intercept; the spacing is the largest, smallest, median or mean distance of the central lines (or a multiple of the mean), or, with optimizing=True and an exact minimiser, the one with least squared deviation from all fitted intercepts (then a float scale has no effect); equal_dist=True takes the larger, smaller or mean of both. Two perpendicular families of equidistant lines are returned unchanged, except that without optimisation lines listed in decreasing order come back mirrored.", "quantifier": "all line lists with at least two non-empty lines per direction, all options, whatever slopes and spacings the fits produce", "why_tests_cant": "geometric invariant for all fitted values", "anchors": ["discorpy/proc/processing.py:generate_undistorted_perspective_lines", "discorpy/proc/processing.py:_calc_undistor_intercept_perspective"]}
{"id": "C21", "title": "Four-point perspective targets form a rectangle of the promised size", "statement": "generate_4_source_target_perspective_points returns the four input points reordered as top-left, top-right, bottom-left, bottom-right, and targets that are the corners of a rectangle whose sides are the mean (min, max, scaled mean) of the opposite source sides; with equal_dist=True it is a square. It raises unless four points are given.", "quantifier": "all quadruples of points with distinct neighbouring abscissae/ordinates, all scale options", "why_tests_cant": "geometric invariant, all permutations of the input", "anchors": ["discorpy/proc/processing.py:generate_4_source_target_perspective_points"]}
{"id": "C22", "title": "Undistorted intercepts are equidistant", "statement": "For lines whose intercepts are strictly monotone, the undistorted intercepts used by calc_coef_backward/forward are equally spaced, agree with the measured intercept at the line nearest to the centre, and equal all measured intercepts when these are already equally spaced. With fewer than four lines in a direction the spacing is the mean of nothing and the result is not finite.", "quantifier": "any number of lines (>= 4), any monotone intercepts", "why_tests_cant": "induction over lines; sign case analysis", "anchors": ["discorpy/proc/processing.py:_calc_undistor_intercept", "discorpy/proc/processing.py:calc_coef_backward", "discorpy/proc/processing.py:calc_coef_forward"]}
{"id": "C23", "title": "An undistorted grid yields the identity model", "statement": "For straight equidistant horizontal and vertical lines none of which passes through the centre, calc_coef_forward, calc_coef_backward and calc_coef_backward_from_forward return [1, 0, ..., 0] (as a function on the observed radii in general, literally when enough distinct radii are present). calc_coef_forward also handles lines through the centre; calc_coef_backward divides by zero there.", "quantifier": "any grid size, spacing, centre, num_fact", "why_tests_cant": "least-squares uniqueness for all grids", "anchors": ["discorpy/proc/processing.py:calc_coef_backward", "discorpy/proc/processing.py:calc_coef_forward", "discorpy/proc/processing.py:calc_coef_backward_from_forward"]}
{"id": "C24", "title": "Coefficient conversion is exact whenever an exact inverse exists", "statement": "transform_coef_backward_and_forward returns coefficients G with F(r)*G(F(r)*r)=1 at every reference point with F(r) != 0 whenever some polynomial of that length does; it raises ValueError exactly when fewer reference points than coefficients are supplied; both mapping options compute the same numbers; points with F(r)=0 do not influence the result. In general G minimises the sum over the reference points with F(r) != 0 of (G(F(r)*r) - 1/F(r))**2; without reference points the grid -1000, -950, ..., 950 in both directions is used.", "quantifier": "all coefficient lists and reference-point lists", "why_tests_cant": "least-squares optimality; all lists", "anchors": ["discorpy/proc/processing.py:transform_coef_backward_and_forward"]}
{"id": "C25", "title": "Coarse centre is the crossing of the two middle lines", "statement": "find_cod_coarse returns the unique point satisfying y = sh*x + c_h and x = sv*y + c_v where (sh, c_h), (sv, c_v) are the averages over the two neighbouring lines where the curvature sign changes most; the indices never leave the array. For a pattern with an even number of curved lines per direction that is point-symmetric around a centre, this centre is returned exactly.", "quantifier": "all line lists with at least two lines per direction and sh*sv != 1", "why_tests_cant": "all inputs", "anchors": ["discorpy/proc/processing.py:find_cod_coarse"]}
{"id": "C26", "title": "Fine centre search is bounded and optimal on its grid", "statement": "find_cod_fine moves each centre coordinate by less than point_dist + 4 pixels, to a grid point that minimises the metric among all examined shifts, and never indexes outside the metric table.", "quantifier": "all metrics, all point distances > 0, all coarse centres", "why_tests_cant": "argmin over grids of every size", "anchors": ["discorpy/proc/processing.py:find_cod_fine", "discorpy/proc/processing.py:_calc_metric"]}
{"id": "C27", "title": "Re-centring is exactly undone", "statement": "update_center(lines shifted to a centre, xc, yc) gives the original lines back; it preserves the number of lines and dots and composes additively.", "quantifier": "all line lists and centres", "why_tests_cant": "round trip", "anchors": ["discorpy/proc/processing.py:update_center", "discorpy/proc/processing.py:_para_fit_hor", "discorpy/proc/processing.py:_para_fit_ver"]}
{"id": "C28", "title": "Coefficients do not depend on where the image origin is", "statement": "Shifting every dot and the centre by the same vector leaves the linear systems, and hence the results, of calc_coef_backward, calc_coef_forward and calc_coef_backward_from_forward unchanged.", "quantifier": "all line lists, centres, shifts, num_fact, options", "why_tests_cant": "relational property over all shifts", "anchors": ["discorpy/proc/processing.py:calc_coef_backward", "discorpy/proc/processing.py:calc_coef_forward", "discorpy/proc/processing.py:calc_coef_backward_from_forward"]}
{"id": "C29", "title": "Grouping dots never invents, duplicates or loses track of dots and terminates", "statement": "group_dots_hor_lines terminates; the dots of all returned lines together are a sub-collection of the input dots (no dot is used twice or invented), every line has at least two dots in order of non-decreasing x, and each dot satisfies the on-line test with the dot before it.", "quantifier": "all dot lists of any length, all slopes, distances and tolerances, any (unstable) sort", "why_tests_cant": "unbounded loop with removal", "anchors": ["discorpy/prep/preprocessing.py:group_dots_hor_lines", "discorpy/prep/preprocessing.py:_check_dot_on_line"]}
{"id": "C30", "title": "Accepted lines are long enough and ordered", "statement": "Returned lines are exactly the grouped lines whose number of dots exceeds int(accepted_ratio * longest), in order of non-decreasing mean y; the documented 'equal or larger' contract fails when the product is an integer - accepted_ratio=1 returns no line at all.", "quantifier": "all dot lists and ratios", "why_tests_cant": "boundary for every length", "anchors": ["discorpy/prep/preprocessing.py:group_dots_hor_lines", "discorpy/prep/preprocessing.py:group_dots_ver_lines"]}
{"id": "C31", "title": "Vertical grouping is horizontal grouping of the transposed dots", "statement": "group_dots_ver_lines on dots equals group_dots_hor_lines on the coordinate-swapped dots with each returned dot swapped back, for equal parameters.", "quantifier": "all dot lists and parameters", "why_tests_cant": "relational property of two programs", "anchors": ["discorpy/prep/preprocessing.py:group_dots_hor_lines", "discorpy/prep/preprocessing.py:group_dots_ver_lines"]}
{"id": "C32", "title": "Residual filter keeps exactly the close dots", "statement": "remove_residual_dots_hor keeps, in order, exactly the dots whose vertical distance to the fitted parabola times cos(arctan(slope)) is below the residual, drops empty lines, raises ValueError exactly when nothing is left; dots of an exact parabola are all kept; the vertical variant is its transpose.", "quantifier": "all line lists, slopes, residuals", "why_tests_cant": "all inputs", "anchors": ["discorpy/prep/preprocessing.py:remove_residual_dots_hor", "discorpy/prep/preprocessing.py:remove_residual_dots_ver"]}
{"id": "C33", "title": "Parabolic mask", "statement": "make_parabola_mask (rotate=0) is 0/1-valued, is 1 exactly strictly inside the four parabolas, shrinks when margins or curviness grow, is empty within the margins, and raises ValueError exactly when the two margins of a direction exceed the size.", "quantifier": "all sizes, margins (scalar or pair), curvinesses", "why_tests_cant": "all pixels of all masks", "anchors": ["discorpy/prep/preprocessing.py:make_parabola_mask"]}
{"id": "C34", "title": "Masking points keeps exactly the points inside the mask - or fails", "statement": "remove_points_using_parabola_mask returns, in order, exactly the points whose truncated coordinates are in the frame and on a mask pixel, provided every truncated coordinate lies in [-size, size); any point at or beyond the frame end makes it raise IndexError although the bounds test in the code was meant to drop it.", "quantifier": "all point lists", "why_tests_cant": "all points, including out-of-frame ones tests avoid", "anchors": ["discorpy/prep/preprocessing.py:remove_points_using_parabola_mask"]}
{"id": "C35", "title": "Point rotation is a rotation", "statement": "rotate_points preserves the number and order of points and all mutual distances; rotating by a then b is rotating by a+b; rotating by -a undoes a; degrees and radians agree.", "quantifier": "all point lists and angles", "why_tests_cant": "continuous group laws", "anchors": ["discorpy/prep/preprocessing.py:rotate_points"]}
{"id": "C36", "title": "Removing a subset of points", "statement": "remove_subset_points returns exactly the points that are not among the selected ones, in order and with multiplicity; it is idempotent and removing A then B equals removing both.", "quantifier": "all point lists", "why_tests_cant": "all lists", "anchors": ["discorpy/prep/preprocessing.py:remove_subset_points"]}
{"id": "C37", "title": "Region of interest stays inside the image", "statement": "_select_roi (used by binarization and calc_size_distance) returns a rectangle inside the image symmetric about the middle; ratio is clamped to [0.05, 1]; ratio 1 non-square returns the whole image; the non-square ROI is never empty for a non-empty image.", "quantifier": "all image sizes and ratios", "why_tests_cant": "integer rounding for every size", "anchors": ["discorpy/prep/preprocessing.py:_select_roi", "discorpy/prep/preprocessing.py:binarization", "discorpy/prep/preprocessing.py:calc_size_distance"]}
{"id": "C38", "title": "Dots become the bright minority", "statement": "After contrast inversion a 0/1 image has a white fraction of at most one half; the result is the input or its complement and repeating the step changes nothing.", "quantifier": "all 0/1 images", "why_tests_cant": "all images", "anchors": ["discorpy/prep/preprocessing.py:_invert_dots_contrast", "discorpy/prep/preprocessing.py:binarization"]}
{"id": "C39", "title": "Curve-following search terminates and only picks input points", "statement": "The sideways search of group_dots_*_lines_based_polyfit stops after finitely many steps for every search distance and overlap ratio, returns only initial or candidate points, without duplicates once anything was added, and every added point was within the residual of the fitted curve.", "quantifier": "all point lists, search distances (also zero or negative), overlaps, fits", "why_tests_cant": "termination of an unbounded while loop", "anchors": ["discorpy/prep/preprocessing.py:_get_nearby_hor_points_iter", "discorpy/prep/preprocessing.py:_get_nearby_ver_points_iter"]}
{"id": "C40", "title": "Polynomial-fit grouping returns lines of input points", "statement": "Every line returned by group_dots_hor_lines_based_polyfit consists of input points of a single detected line. This holds if every coarse group has more than two dots; a two-dot group makes the function reuse the previous (or whole) point set as a line, so that a returned line can mix rows. The lines kept are those with more than floor(accepted_ratio * length of the longest) dots; a line whose median position is within 0.1 times the line distance of the candidate before it is a repeat and is dropped, the first always stays, and if no line is that far from the one before it all of them stay.", "quantifier": "all point lists and parameters", "why_tests_cant": "history-dependent stale variable", "anchors": ["discorpy/prep/preprocessing.py:group_dots_hor_lines_based_polyfit", "discorpy/prep/preprocessing.py:group_dots_ver_lines_based_polyfit"]}
{"id": "C41", "title": "Dot selection only removes pixels", "statement": "select_dots_based_size, _ratio and _distance return an image of the same shape in which every pixel is 0 or the input pixel; a pixel survives exactly if it lies in the bounding box of an accepted dot; widening the tolerance can only add pixels.", "quantifier": "all images, labelings, thresholds", "why_tests_cant": "all images", "anchors": ["discorpy/prep/preprocessing.py:select_dots_based_size", "discorpy/prep/preprocessing.py:select_dots_based_ratio", "discorpy/prep/preprocessing.py:select_dots_based_distance", "discorpy/prep/preprocessing.py:_check_dot_size"]}
{"id": "C42", "title": "Sub-pixel extremum is exact on parabolas and never leaves the window", "statement": "locate_subpixel_point always returns a position in [0, n); for samples of an exact parabola with its vertex in that range it returns the vertex; for three samples with a strict middle minimum the position is within half a sample of the middle.", "quantifier": "all sample lists", "why_tests_cant": "least-squares over all data", "anchors": ["discorpy/prep/linepattern.py:locate_subpixel_point"]}
{"id": "C43", "title": "Local extrema are genuine extrema away from the ends", "statement": "Without smoothing/normalisation and sub-pixel, get_local_extrema_points returns exactly the increasing list of indices i in [r, n-r-1) whose value is minimal among the 2r+1 neighbours and whose relative contrast exceeds the sensitivity, where r = radius clipped to [1, n//4]; with sub-pixel each is moved by at most the 3-sample window.", "quantifier": "all 1D arrays, radii, sensitivities", "why_tests_cant": "all arrays", "anchors": ["discorpy/prep/linepattern.py:get_local_extrema_points"]}
{"id": "C44", "title": "Sliding-window slopes", "statement": "sliding_window_slope returns one non-negative slope per sample, raises ValueError exactly for fewer than 3 samples, is unchanged by adding a constant, gives |a| in the interior of a line a*x+b, and with norm=True has mean 1 unless all slopes are 0.", "quantifier": "all arrays and window sizes", "why_tests_cant": "all arrays", "anchors": ["discorpy/prep/linepattern.py:sliding_window_slope"]}
{"id": "C45", "title": "Tilted profiles stay in the image", "statement": "For every index accepted by get_tilted_profile the sampled coordinates are inside the image and the cropped band contains all of them; for positive angles the un-clipped straight line is already inside, for negative angles it leaves by less than one pixel. Indices outside the computed range and |angle| = 90 raise ValueError.", "quantifier": "all image sizes, angles, indices, both directions", "why_tests_cant": "trigonometric bounds for every angle", "anchors": ["discorpy/prep/linepattern.py:_calc_index_range", "discorpy/prep/linepattern.py:get_tilted_profile"]}
{"id": "C46", "title": "Peak selection only discards", "statement": "select_good_peaks returns a sub-list of the candidate peaks in order, each judged independently; loosening the tolerance keeps every already selected peak; peaks whose window has at most 3 samples or zero spread are dropped. A candidate is kept if and only if the fit to its window, scaled to minimum 0 and standard deviation 1, succeeds with a peak less than radius//2 from the middle and an 80-percent quantile of the residuals (and the offset, if used) below the tolerance. get_local_extrema_points(select_peaks=True) returns the plain minima that this rule accepts.", "quantifier": "all data, candidates, tolerances, any curve fitter", "why_tests_cant": "all lists", "anchors": ["discorpy/prep/linepattern.py:select_good_peaks"]}
{"id": "C47", "title": "Chessboard to line-pattern conversion", "statement": "convert_chessboard_to_linepattern(smooth=False) keeps the shape for images larger than the margin, yields non-negative values with unit mean absolute value whenever it is not constant, and is invariant under adding a constant to and positive scaling of the image.", "quantifier": "all images", "why_tests_cant": "all images", "anchors": ["discorpy/prep/linepattern.py:convert_chessboard_to_linepattern"]}
{"id": "C48", "title": "Chessboard image", "statement": "make_chessboard: the pixel (y,x) of the board is white exactly when the sum of its cell indices is even, else black; everything else has the margin gray level; moving by one cell inside the board flips the colour.", "quantifier": "all sizes, cell sizes, margins, pixels", "why_tests_cant": "nested loops for all sizes", "anchors": ["discorpy/util/utility.py:make_chessboard"]}
{"id": "C49", "title": "Line-pattern image", "statement": "make_line_pattern: a pixel is black exactly if it is in a line strip and inside the grid frame, else white; it raises IndexError exactly when the margins leave room for lines in one direction only.", "quantifier": "all sizes, distances, margins", "why_tests_cant": "nested loops for all sizes", "anchors": ["discorpy/util/utility.py:make_line_pattern"]}
{"id": "C50", "title": "Circle mask", "statement": "make_circle_mask is 0/1-valued, 1 exactly within distance ratio*(width//2) of pixel (width//2, width//2), symmetric about that pixel and under transposition, and grows with the ratio.", "quantifier": "all widths and ratios", "why_tests_cant": "all pixels", "anchors": ["discorpy/util/utility.py:make_circle_mask", "discorpy/prep/linepattern.py:_make_circle_mask"]}
{"id": "C51", "title": "Pad widths", "statement": "_calc_pad (through unwarp_color_image_backward): False gives no padding, an int pads all sides equally, a 4-sequence is used as (top, bottom, left, right), other lengths and types raise ValueError; with True each side is padded by the (truncated) overshoot of the undistorted corners, never negative, so that every undistorted corner lies inside the padded frame up to one pixel.", "quantifier": "all pad arguments, sizes, centres, models", "why_tests_cant": "all inputs", "anchors": ["discorpy/util/utility.py:_calc_pad"]}
{"id": "C52", "title": "Padded colour unwarping agrees with plain unwarping", "statement": "unwarp_color_image_backward returns height+top+bottom by width+left+right; each colour channel is the unwarped channel; with pad=False and a 2D image it equals unwarp_image_backward; with padding, the pixel at (top+i, left+j) equals the unpadded result at (i,j) wherever the model maps (i,j) inside the original image.", "quantifier": "all images, channels, pads, models", "why_tests_cant": "relational property over all inputs", "anchors": ["discorpy/util/utility.py:unwarp_color_image_backward", "discorpy/post/postprocessing.py:unwarp_image_backward"]}
{"id": "C53", "title": "Video unwarping shows frames in order and stops only on ESC", "statement": "unwarp_video_cv2 discards the first frame, displays every later successfully read frame once and in order until ESC is pressed, releases the camera exactly once and only then; failed reads are skipped forever, so a finite video without ESC never ends; if the very first read fails and padding is on, the first displayed frame crashes.", "quantifier": "all frame/failure/key schedules", "why_tests_cant": "infinite schedules", "anchors": ["discorpy/util/utility.py:unwarp_video_cv2"]}
{"id": "C54", "title": "A fresh file name", "statement": "_create_file_name returns the path itself if it is free, otherwise the first free name base_NNNN.ext; it always terminates on a finite directory, the returned name never exists and keeps the directory, and the suffix unless the given name ends with a dot.", "quantifier": "all directories and names, any number of existing files (also beyond 9999)", "why_tests_cant": "unbounded search loop", "anchors": ["discorpy/losa/loadersaver.py:_create_file_name"]}
{"id": "C55", "title": "overwrite=False never destroys data", "statement": "Any sequence of save_* calls with overwrite=False leaves every existing file unchanged, stores every payload under a distinct returned path, and these can all be read back; this needs exclusive access: a file created by another process between the choice of the name and the write can be overwritten, and nothing else. The plot functions are an exception for paths without a suffix, where Matplotlib appends .png after the check. With or without overwrite, a file in the way of a missing folder gives ValueError and nothing changes, and data refused by the image and plot functions leaves exactly the files that were there.", "quantifier": "all histories of saves, all initial directories, all interleavings", "why_tests_cant": "all histories", "anchors": ["discorpy/losa/loadersaver.py:_create_file_name", "discorpy/losa/loadersaver.py:save_image", "discorpy/losa/loadersaver.py:save_metadata_txt", "discorpy/losa/loadersaver.py:save_python_list", "discorpy/losa/loadersaver.py:save_hdf_file"]}
{"id": "C56", "title": "Text metadata round-trips", "statement": "load_metadata_txt(save_metadata_txt(path, xc, yc, coefs)) returns (xc, yc, coefs) with every coefficient in order, for any number of coefficients, assuming Python's float printing and parsing are inverse. A file cut off after a line (at least the two of the centre) loads without an error and gives the coefficients that are left. With overwrite=False no existing file changes.", "quantifier": "all centres and coefficient lists of any length", "why_tests_cant": "all lists", "anchors": ["discorpy/losa/loadersaver.py:save_metadata_txt", "discorpy/losa/loadersaver.py:load_metadata_txt"]}
{"id": "C57", "title": "JSON metadata round-trips", "statement": "load_metadata_json(save_metadata_json(path, xc, yc, coefs)) returns the same centre and the coefficients as a list in order, for lists, tuples and numpy arrays alike; for objects that cannot be written a TypeError is raised after an existing file has been truncated. A file may hold any entries in any order: the last value of each of the three names counts, a missing one raises KeyError. White space after the object is ignored, any other text after it raises ValueError. A written file that is cut off anywhere before its end raises ValueError. With overwrite=False no existing file changes.", "quantifier": "all centres and coefficient lists", "why_tests_cant": "printer/parser inverse for all lists", "anchors": ["discorpy/losa/loadersaver.py:save_metadata_json", "discorpy/losa/loadersaver.py:load_metadata_json", "discorpy/losa/loadersaver.py:__numpy_encoder"]}
{"id": "C58", "title": "Suffix normalisation of save functions", "statement": "Save functions for metadata/HDF/pickle write to a path with the same directory and stem and an accepted suffix; an accepted suffix (in any letter case) is left untouched, any other is replaced, the step is idempotent - and not injective: names differing only in a foreign suffix are saved to the same file.", "quantifier": "all file names", "why_tests_cant": "all strings", "anchors": ["discorpy/losa/loadersaver.py:save_metadata_txt", "discorpy/losa/loadersaver.py:save_metadata_json", "discorpy/losa/loadersaver.py:save_hdf_file", "discorpy/losa/loadersaver.py:open_hdf_stream", "discorpy/losa/loadersaver.py:save_python_list"]}
{"id": "C59", "title": "8-bit export keeps the ordering and uses the full range", "statement": "save_image to a non-tif file stores values in 0..255, monotone in the input, minimum at 0 and maximum at 255, when the image is not constant and differences of its pixels fit its type; uint8 input and grey tif output are stored unchanged. Signed integers whose range overflows the type break the order, non-constant bool images raise TypeError, and a suffix in capitals (.TIF) is treated as an 8-bit format.", "quantifier": "all images and pixel types", "why_tests_cant": "all images", "anchors": ["discorpy/losa/loadersaver.py:save_image"]}
{"id": "C60", "title": "HDF slicing", "statement": "load_hdf_file returns the requested slice for an integer index and the stack of the requested slices for an index list along the chosen (clamped) axis; a 2- or 3-tuple means range(start, stop[, step]); an empty selection raises ValueError; a single-element list gives the 2D slice - except along axis 2, where it raises IndexError. An integer index gives the 2D slice only if the axis of the slice that is checked afterwards is longer than 1: otherwise the result is 1D (axis 0) or IndexError (axis 1 and 2). A 2D dataset is returned whole; a key to a group and an index of another type raise AttributeError, a key to a dangling link KeyError, a key that leads nowhere, an empty key and a wrong number of dimensions ValueError.", "quantifier": "all dataset shapes, axes, index forms", "why_tests_cant": "shape case analysis for every size", "anchors": ["discorpy/losa/loadersaver.py:load_hdf_file"]}
{"id": "C61", "title": "HDF listing is aligned", "statement": "get_hdf_information and find_hdf_key return three lists of equal length; entry k holds the shape and type of the object named by key k (None for groups); every dataset appears by its absolute path, and those in groups below the root a second time without the leading slash; find_hdf_key returns exactly the listed entries whose key contains the pattern.", "quantifier": "all HDF trees", "why_tests_cant": "structural induction over trees", "anchors": ["discorpy/losa/loadersaver.py:get_hdf_information", "discorpy/losa/loadersaver.py:find_hdf_key", "discorpy/losa/loadersaver.py:_get_key"]}
{"id": "C62", "title": "HDF stream option check", "statement": "open_hdf_stream raises ValueError at the first option key that contains the dataset key path as a substring, when an existing file at that path has already been replaced by one with the earlier options only. If no key does and no path leads through another, the file contains exactly the options and the dataset. The check refuses harmless neighbours (entry/data_dark next to entry/data), misses an option on the way to the dataset (entry), and an option that is not a dictionary raises TypeError. An option or dataset whose path leads through an earlier one makes the call fail; if its path is that of an earlier option written differently (with a leading slash), or leads to it, with ValueError. The file then holds exactly the options before it.", "quantifier": "all option dictionaries and key paths", "why_tests_cant": "error path after a side effect", "anchors": ["discorpy/losa/loadersaver.py:open_hdf_stream"]}
{"id": "C63", "title": "Windows path repair", "statement": "The path repair used on Windows and by find_file yields a path without backslashes and without the eight control characters, is idempotent, leaves clean forward-slash paths untouched, and recovers the path that was meant from a string literal with accidental escape sequences (octal sequences excepted). find_file returns the files found for the repaired path in increasing order and raises FileNotFoundError exactly if there are none.", "quantifier": "all strings", "why_tests_cant": "all strings", "anchors": ["discorpy/losa/loadersaver.py:__correct_path", "discorpy/losa/loadersaver.py:find_file"]}
{"id": "C64", "title": "Grouping recovers the rows of a pattern", "statement": "If the dots are the dots of several rows such that neighbouring dots of a row pass the on-line test and no dot passes it with a dot of another row lying further right, unless the next dot of its own row comes before, group_dots_hor_lines returns exactly these rows (those longer than the accepted length), each with its dots in order of x.", "quantifier": "all numbers of rows and dots per row, any order of the dots in the input", "why_tests_cant": "unbounded loop with removal", "anchors": ["discorpy/prep/preprocessing.py:group_dots_hor_lines"]}
{"id": "C65", "title": "The sideways search collects a whole curve", "statement": "Start the sideways search of the polynomial-fit grouping with enough dots of a polynomial curve. If the curve's dots are closer together than the search distance and every foreign dot inside the band is farther from the curve than the tolerance, the search returns exactly the dots of the curve.", "quantifier": "all polynomial curves of the fitted order, any number of dots, any order of the input", "why_tests_cant": "unbounded iterated fitting", "anchors": ["discorpy/prep/preprocessing.py:_get_nearby_hor_points_iter", "discorpy/prep/preprocessing.py:_get_nearby_ver_points_iter", "discorpy/prep/preprocessing.py:group_dots_hor_lines_based_polyfit"]}
{"id": "C66", "title": "Distance selection is one-sided", "statement": "select_dots_based_distance accepts a dot only if the distance to one of its three nearest neighbours exceeds a whole multiple of dot_dist by less than ratio*dot_dist. Hence an image whose dots are all a little closer than dot_dist is erased completely, while dots a little farther apart than dot_dist are kept: with dot_dist=10 and ratio=0.3 two dots at distance 9 vanish, two dots at distance 11 stay.", "quantifier": "all images, distances and ratios", "why_tests_cant": "geometry-dependent acceptance rule", "anchors": ["discorpy/prep/preprocessing.py:select_dots_based_distance"]}
{"id": "C67", "title": "Size, distance and number of dots", "statement": "check_num_dots returns True exactly for fewer than 25 dots. calc_size_distance, for a binary image, looks at the dots in the middle part of the image that do not reach the border of this part (8-connected), and returns a median of their numbers of pixels and a median of the distances to the nearest other dot, hence the common values for a regular pattern; a single dot raises IndexError, no dot gives nan, two or more dots always succeed.", "quantifier": "all binary images, ratios, any number of dots", "why_tests_cant": "order statistics over every set of components", "anchors": ["discorpy/prep/preprocessing.py:calc_size_distance", "discorpy/prep/preprocessing.py:check_num_dots"]}
{"id": "C68", "title": "Dot-pattern image", "statement": "make_dot_pattern: a pixel is black exactly if it belongs to the disc of one of the dot centres, which lie on a grid of the given distance starting half a dot inside the margins; no pixel belongs to two dots and the margin is blank; a distance below the (clipped) dot size raises ValueError, an image with fewer than 8 rows or columns RuntimeError.", "quantifier": "all sizes, distances, margins, pixels", "why_tests_cant": "unbounded sizes", "anchors": ["discorpy/util/utility.py:make_dot_pattern", "discorpy/util/utility.py:make_circle_mask"]}
{"id": "C69", "title": "The OpenCV variant agrees with the SciPy variant", "statement": "unwarp_image_backward_cv2 returns the same image or raises the same exception as unwarp_color_image_backward if both use the same interpolation, for grey and colour images and any padding.", "quantifier": "all images, models, pads, interpolations", "why_tests_cant": "two implementations, every input", "anchors": ["discorpy/util/utility.py:unwarp_image_backward_cv2", "discorpy/util/utility.py:unwarp_color_image_backward"]}
{"id": "C70", "title": "Averaging of colour images", "statement": "load_image with average=True, and save_image to a tif file, turn a colour image with fewer channels than rows and columns into the image of the same size with the mean of the channels at each pixel; grey images, and colour images loaded with average=False, are unchanged. An image with at most as many rows (or columns) as channels is averaged along its rows (columns) instead, which changes its shape.", "quantifier": "all images", "why_tests_cant": "shape-dependent choice of the axis", "anchors": ["discorpy/losa/loadersaver.py:load_image", "discorpy/losa/loadersaver.py:save_image"]}
{"id": "C71", "title": "HDF round trip", "statement": "If save_hdf_file returns a path, the file there holds the data as its only dataset, and load_hdf_file loads it without a key and under the key path followed by /data: a 2D array as it was saved, a 3D array converted to float32. Without a key load_hdf_file uses a dataset called data in a group below the root if there is one and raises ValueError otherwise, also if the only such dataset is directly below the root. A key path to the root makes save_hdf_file fail after an existing file has been emptied.", "quantifier": "all arrays, key paths, HDF trees and file systems", "why_tests_cant": "structural induction over trees", "anchors": ["discorpy/losa/loadersaver.py:save_hdf_file", "discorpy/losa/loadersaver.py:load_hdf_file", "discorpy/losa/loadersaver.py:_get_key"]}
{"id": "C72", "title": "Bailey's centre is exact on ideally bent lines", "statement": "On horizontal and vertical lines of dots bent into parabolas whose curvature is proportional to the signed distance from a common centre, find_cod_bailey returns exactly that centre for every number of iterations, if its coarse starting estimate is finite and not at a degenerate position (there is none for pincushion bending). On straight lines it divides by zero and returns no centre; fewer than two lines in a direction raise ValueError.", "quantifier": "all centres, bending factors, numbers of lines and dots, iterations", "why_tests_cant": "exactness for every pattern", "anchors": ["discorpy/proc/processing.py:find_cod_bailey"]}
{"id": "C73", "title": "Grid of crossing parabolas", "statement": "regenerate_grid_points_parabola without perspective correction returns an H-by-V grid of points and its transpose; point (i, j) lies on the least-squares parabolas of horizontal line i and vertical line j whenever the numerical solver found a root for this pair; on straight lines the result is that of regenerate_grid_points_linear; a line without dots raises IndexError.", "quantifier": "all sets of lines, any number of dots", "why_tests_cant": "every pair of lines; fitted curves", "anchors": ["discorpy/proc/processing.py:regenerate_grid_points_parabola", "discorpy/proc/processing.py:_find_cross_point_between_parabolas"]}
{"id": "C74", "title": "Perspective correction of fitted parabolas", "statement": "With perspective=True and at least four lines per direction, the regenerated grid belongs to corrected parabolas: all horizontal ones have one common slope at the centre, all vertical ones the opposite slope, each direction is scaled by one factor >= 1 that keeps the ratio of curvature and distance, one direction keeps its size, and the mean line spacings around the centre become equal; a pattern with perpendicular equally spaced parabolas is a fixed point. With two or three lines in a direction the result is nan.", "quantifier": "all sets of lines, any number of dots", "why_tests_cant": "corrections computed from fitted values", "anchors": ["discorpy/proc/processing.py:regenerate_grid_points_parabola", "discorpy/proc/processing.py:_generate_non_perspective_parabola_coef"]}
{"id": "C75", "title": "Correction of the perspective effect", "statement": "correct_perspective_effect applies one perspective map about the given centre to all dots: the one that carries the four cross points of the representative lines (mean, median, largest or smallest curvature of the parabolas opening to each side) to the targets of generate_4_source_target_perspective_points. Lines bent in proportion to their distance from the centre, on both sides of it, are returned unchanged for every method and scale option except a factor other than 1. Fewer than two lines in a direction raise ValueError; if no line of a direction is bent to one of the two sides, the documented ValueError is never raised: the result is nan (mean, median) or IndexError (max, min).", "quantifier": "all sets of lines, centres, methods, scales", "why_tests_cant": "every pattern; error branches", "anchors": ["discorpy/proc/processing.py:correct_perspective_effect", "discorpy/proc/processing.py:generate_4_source_target_perspective_points", "discorpy/proc/processing.py:calc_perspective_coefficients"]}
{"id": "C76", "title": "Centre of distortion from vanishing points", "statement": "If the horizontal lines are parabolas through two common points and the vertical lines parabolas through two other common points, find_center_based_vanishing_points (two or more lines of each curvature per direction) returns the crossing of the two straight lines through these points. For ideal barrel distortion this is exactly the centre, also for find_center_based_vanishing_points_iteration with any number of iterations and any method; for ideal pincushion distortion the functions fall back to Bailey's approach and return the centre too. If the lines corrected for perspective about the current estimate are barrel-bent about another point, one more iteration gives exactly that point. On straight lines the first function divides by zero and the second raises ValueError, as both do without two horizontal lines.", "quantifier": "all centres, bendings, numbers of lines and dots, iterations, methods", "why_tests_cant": "exactness for every pattern", "anchors": ["discorpy/proc/processing.py:find_center_based_vanishing_points", "discorpy/proc/processing.py:find_center_based_vanishing_points_iteration"]}
{"id": "C77", "title": "Source and target points for perspective correction", "statement": "generate_source_target_perspective_points returns two lists with one point per pair of lines in the same row-by-row order: source point (i,j) is the crossing of the fitted horizontal line i and vertical line j, target point (i,j) is o + i*w + j*u for constant perpendicular steps w and u, of equal length with equal_dist=True. For two perpendicular families of equidistant lines the two lists are equal. If a fitted horizontal line is parallel to a vertical one the result is not finite.", "quantifier": "all line lists with at least two non-empty lines per direction, all options", "why_tests_cant": "alignment for all sizes and fits", "anchors": ["discorpy/proc/processing.py:generate_source_target_perspective_points"]}
{"id": "C78", "title": "Direction and distance of pattern lines", "statement": "calc_slope_distance_hor_lines and calc_slope_distance_ver_lines: the slope is the tangent of the tilt whose projection of the central disc of the image (contrast inverted for a bright background) has the largest value among 41 angles in steps of 0.05 degrees, around the best of the angles in steps of one degree within the search range; hence the tilt is exact to 1/40 degree wherever the sharpest projection is the one nearest to the true tilt. The distance is the median gap of the extremum points of that projection (mean for two or three points). A chessboard is converted to a line pattern first. Fewer than two points give nan, a search range of -1/2 or less raises ValueError.", "quantifier": "all images, Radon transforms, search ranges, detection settings", "why_tests_cant": "two nested searches over real angles", "anchors": ["discorpy/prep/linepattern.py:calc_slope_distance_hor_lines", "discorpy/prep/linepattern.py:calc_slope_distance_ver_lines"]}
{"id": "C79", "title": "Cross points of a line pattern", "statement": "get_cross_points_hor_lines (get_cross_points_ver_lines) searches every generated vertical (horizontal) line of the given slope that starts in steps of ratio*dist within the limits reduced by the clipped offset, in increasing order; every returned point lies exactly on its generated line, in proportion to the index of its extremum along the profile, at most one pixel (two for a falling generated line) before the position where the profile was sampled; at slope zero the index itself is returned although sample k was read at k*n/(n-1). Too steep a slope raises ValueError, a step of zero ZeroDivisionError; otherwise, with the image filters and without refinements, images of at least four pixels never raise an error.", "quantifier": "all images, slopes, distances, ratios, offsets, filters", "why_tests_cant": "continuous geometry, any number of lines", "anchors": ["discorpy/prep/linepattern.py:get_cross_points_hor_lines", "discorpy/prep/linepattern.py:get_cross_points_ver_lines"]}
{"id": "C80", "title": "Polynomial models are the least-squares fit to the bent lines", "statement": "calc_coef_forward returns the max(n,1) coefficients that minimise the sum, over all dots, of the squared difference between the polynomial of the dot's radius and the ratio undistorted/distorted intercept of its line at the dot (lines with undistorted intercept 0 are left out); calc_coef_backward minimises the squared difference between the polynomial of the undistorted radius and the inverse ratio; calc_coef_backward_from_forward returns the forward coefficients f and coefficients g minimising the sum of (g(f(r)*r) - 1/f(r))**2 over all dots with f(r) != 0. For equally spaced lines bent in proportion to their distance from the given centre, across = u*(1 + k*t**2), these ratios are exactly 1/(1 + k*t**2) and 1 + k*t**2.", "quantifier": "all line lists with at least four lines per direction and strictly monotone intercepts, numbers of coefficients, options", "why_tests_cant": "optimality among all coefficient lists", "anchors": ["discorpy/proc/processing.py:calc_coef_forward", "discorpy/proc/processing.py:calc_coef_backward", "discorpy/proc/processing.py:calc_coef_backward_from_forward"]}
{"id": "C81", "title": "Binarization keeps exactly the complete dots", "statement": "binarization(mat, ratio, thres, denoise=False) returns an image of the same size with value 1 exactly at the pixels of the dots: the foreground is the set of pixels above thres, or of the others if more than half of all pixels are above it; objects (8-connected) that reach the border of the image are removed, only pixels covered by a plus sign of five pixels inside the rest are kept, and holes (not 4-connected to the border) are filled. With denoise=True the same holds for the image where each pixel is replaced by the third smallest absolute value of itself and its upper, left and upper-left neighbours. Without thres the threshold is the Otsu value of the region of interest. No dot touches the border of the image. Applied again to its own result with a threshold in [0, 1) it returns the same image if at most half of the pixels are lit, and an empty image otherwise. Images without pixels raise ValueError.", "quantifier": "all images, thresholds, threshold estimators", "why_tests_cant": "sets of pixels of any shape and size", "anchors": ["discorpy/prep/preprocessing.py:binarization", "discorpy/prep/preprocessing.py:invert_dots_contrast"]}
{"id": "C82", "title": "Points of a dot pattern", "statement": "get_points_dot_pattern(mat, binarize=True) returns one point per dot (4-connected object) of the binarized image, the mean position of its pixels, in the order in which a scan row by row meets the dots, at least one pixel away from the border of the image; errors of binarization are passed on. With binarize=False an image whose values lie in [0, 1] and attain both ends gives the mean position of the pixels of each 4-connected object of pixels with value 1 (values in between are ignored); every other image raises ValueError.", "quantifier": "all images", "why_tests_cant": "every shape and number of dots", "anchors": ["discorpy/prep/preprocessing.py:get_points_dot_pattern"]}
{"id": "C83", "title": "Slopes of a dot pattern", "statement": "calc_hor_slope and calc_ver_slope, for a binary image, look at the dots in the middle part of the image that do not reach its border. The first guess is the tilt (whole degrees, at most 30) whose projection has the largest value; the slope is that of a least-squares line (y over x, or x over y) through the dots closer than half the width of the part times tan(1 deg)/cos(tilt) to the line with this tilt through the dot nearest to the mean of all dots, and tan(tilt) if there is only one such dot. If the dots form parallel rows of slope a that are far enough apart compared to this tolerance, and each dot has a near enough neighbour in its row, the result is exactly a. Without dots calc_hor_slope raises IndexError and calc_ver_slope ValueError; an image without pixels raises ValueError.", "quantifier": "all binary images, ratios, Radon transforms", "why_tests_cant": "every set of dots; exactness over the reals", "anchors": ["discorpy/prep/preprocessing.py:calc_hor_slope", "discorpy/prep/preprocessing.py:calc_ver_slope"]}
{"id": "C84", "title": "Threshold from the sorted values of an image", "statement": "calculate_threshold: the values of the image in increasing order are resampled to as many samples as the longer side has pixels, a line is fitted by least squares to the middle part of this curve, and the threshold is the start of this line minus snr/2 times its rise (bright background) or its end plus snr/2 times its rise (dark background). For an increasing curve the threshold is therefore outside the fitted line and a larger snr moves it further away; multiplying the image by c > 0 and adding d turns a threshold t into c*t + d; a straight curve is reproduced exactly. Images without pixels raise ZeroDivisionError, a longer side of one pixel TypeError, of two pixels LinAlgError.", "quantifier": "all images, snr values, backgrounds, resampling routines", "why_tests_cant": "fitted line of any data; exactness over the reals", "anchors": ["discorpy/prep/preprocessing.py:calculate_threshold"]}
{"id": "C85", "title": "Correction of the background", "statement": "normalization(mat, size) divides each pixel by the median (rank size**2 // 2) of its size-by-size neighbours, the image being continued by mirror images, and multiplies by the mean of these medians; positive images always give a positive result, a uniform image is returned unchanged, a positive factor passes through, and a zero median anywhere gives non-finite values (the code for ZeroDivisionError is never reached). normalization_fft divides by the image averaged with the weights of a Gaussian window in the frequency plane (centred half a unit too low), after continuing the image by pad pixels; for even sizes a uniform image is returned unchanged for every padding, and without padding B + sum of waves becomes B times itself over B + the waves attenuated by (exp(-(u^2+v^2+u+v)/(2 sigma^2)) + exp(-(u^2+v^2-u-v)/(2 sigma^2)))/2; for odd sizes a uniform image does not stay uniform. Images without pixels raise ValueError, sigma = 0 gives non-finite values.", "quantifier": "all images, sizes, widths, paddings", "why_tests_cant": "exact frequency response; all images", "anchors": ["discorpy/prep/preprocessing.py:normalization", "discorpy/prep/preprocessing.py:normalization_fft"]}
{"id": "C86", "title": "Background and smoothing in the search for extremum points", "statement": "get_local_extrema_points with norm=True, for at least five samples, searches the samples divided by a line over their ranks (positions in increasing order): the least-squares line of the middle part of the sorted samples, which never falls; where the line is zero the mean of its absolute values is used. If all samples differ and the line is zero nowhere, multiplying the profile by c > 0 does not change the result. A constant non-zero profile has no extremum. Equal samples become different by the division if the line rises. With denoise=True the search is done on the profile smoothed with sigma 3; option='max' searches the minima of the profile subtracted from its largest value, before the division. Profiles of fewer than two samples raise TypeError, of two samples LinAlgError.", "quantifier": "all profiles, sensitivities, radii, further options", "why_tests_cant": "fitted line of any data; ranks of any order", "anchors": ["discorpy/prep/linepattern.py:get_local_extrema_points"]}
{"id": "C87", "title": "The dots of a calibration pattern are found where they were drawn", "statement": "For the image of make_dot_pattern with an odd dot size s (after clipping) smaller than the dot distance, get_points_dot_pattern(1 - mat, binarize=False) returns each centre that was drawn exactly once and nothing else. For 5 <= s <= 0.6 * dot_distance, get_points_dot_pattern(mat, binarize=True, thres) with 0 <= thres < 1 returns each centre once, shifted by exactly half a pixel in both directions (the effect of the median filter of even size); dots of size 1 or 3 are lost. The points are grouped by group_dots_hor_lines and group_dots_ver_lines (slope 0, the drawn distance) into exactly the rows and columns of the drawn grid in their order, remove_residual_dots_hor and remove_residual_dots_ver keep all of them, and calc_coef_forward returns exactly [1, 0, ..., 0] for any centre, as does calc_coef_backward for a centre that is on no line.", "quantifier": "all image sizes, margins, odd dot sizes, distances, thresholds, grouping settings, centres, numbers of coefficients up to half the dots of a row", "why_tests_cant": "the whole chain of functions, for patterns of any size", "anchors": ["discorpy/util/utility.py:make_dot_pattern", "discorpy/prep/preprocessing.py:binarization", "discorpy/prep/preprocessing.py:get_points_dot_pattern", "discorpy/prep/preprocessing.py:group_dots_hor_lines", "discorpy/prep/preprocessing.py:group_dots_ver_lines", "discorpy/prep/preprocessing.py:remove_residual_dots_hor", "discorpy/prep/preprocessing.py:remove_residual_dots_ver", "discorpy/proc/processing.py:calc_coef_forward", "discorpy/proc/processing.py:calc_coef_backward"]}
{"id": "C88", "title": "Members of HDF files are in the order of their names", "statement": "Files made by save_hdf_file and open_hdf_stream have the members of each group in increasing order of their names, whatever the order of the option dictionaries. For such files load_hdf_file without a key loads the dataset called data of the group whose path comes first in the order of the names, which need not be the dataset the file was made for; get_hdf_information lists each dataset once with a leading slash, in the order of the paths.", "quantifier": "all files, option dictionaries and key paths", "why_tests_cant": "trees of any depth and width", "anchors": ["discorpy/losa/loadersaver.py:load_hdf_file", "discorpy/losa/loadersaver.py:get_hdf_information", "discorpy/losa/loadersaver.py:open_hdf_stream", "discorpy/losa/loadersaver.py:save_hdf_file"]}
{"id": "C89", "title": "Loading files", "statement": "For a path that does not exist every load function (load_image, load_hdf_file, load_hdf_object, get_hdf_information, find_hdf_key, load_metadata_txt, load_metadata_json, load_python_list) raises ValueError. For a directory or a content that cannot be read, load_image, load_hdf_file and load_hdf_object raise ValueError whatever the cause; the other loaders pass on the exception of the reader. load_hdf_object returns exactly the group or dataset to which the key leads, with or without a leading slash; a dangling link raises KeyError, a key that leads nowhere or is empty ValueError; a dataset saved by save_hdf_file is returned unconverted. A list saved by save_python_list is loaded unchanged from the returned path; with overwrite=False no existing file changes; with overwrite=True a list that cannot be pickled destroys the existing file.", "quantifier": "all file systems, paths, HDF trees, keys and lists", "why_tests_cant": "structural induction over trees; every state of the file system", "anchors": ["discorpy/losa/loadersaver.py:load_image", "discorpy/losa/loadersaver.py:load_hdf_file", "discorpy/losa/loadersaver.py:load_hdf_object", "discorpy/losa/loadersaver.py:get_hdf_information", "discorpy/losa/loadersaver.py:find_hdf_key", "discorpy/losa/loadersaver.py:load_metadata_txt", "discorpy/losa/loadersaver.py:load_metadata_json", "discorpy/losa/loadersaver.py:load_python_list", "discorpy/losa/loadersaver.py:save_python_list"]}
{"id": "C90", "title": "The automatic threshold of the binarization", "statement": "Without a given threshold, binarization uses Otsu's threshold of the middle part of the (denoised) image. For integer images this is the least pixel value t for which the variance between the pixels up to t and those above t is the largest possible one; for float images the same holds with each pixel replaced by the centre of its bin (512 bins of equal width from the least to the largest value), and t is strictly between the least and the largest value. A part with a single value gives this value (no pixel is above), one without pixels raises IndexError. If there are two values only, exactly the pixels with the larger one are above t, and if both occur in the middle part the mask is the same as for any given threshold between them. Replacing each pixel by a*pixel + b with a > 0 turns t into a*t + b and leaves the mask unchanged (with denoising for non-negative images). The dots of make_dot_pattern (odd size of at least 5, at most 0.6 of the distance) are found with the default settings, shifted by half a pixel, if the middle part contains the centre of a dot and a pixel below it.", "quantifier": "all images, ratios, numbers of bins", "why_tests_cant": "optimality over all thresholds; images of any size", "anchors": ["discorpy/prep/preprocessing.py:binarization", "discorpy/prep/preprocessing.py:get_points_dot_pattern", "discorpy/util/utility.py:make_dot_pattern"]}
{"id": "C91", "title": "Accuracy of unwarped images", "statement": "If an image shows a scene through a lens and the model leads from a pixel to the point of the frame where this point of the scene is shown, the pixel returned by unwarp_image_backward (default settings) differs from the brightness of the scene by at most L*sqrt(2)*(1+d), where L is the largest change of brightness per pixel in the image and d the error of the float32 coordinates; if the brightness has second derivatives of at most My and Mx along columns and rows, by at most (My+Mx)/8 + L*sqrt(2)*d, and this cannot be improved; a brightness that is linear in the image is returned without error up to the rounding. The rounding of coordinates changes no pixel by more than d times the largest differences of neighbouring pixels, which also bounds the difference between a row of unwarp_slice_backward (float64 coordinates) and the same row of unwarp_image_backward (float32 coordinates). correct_perspective_image obeys the first bound with the perspective map.", "quantifier": "all images, scenes, lenses, centres, coefficients, pixels, roundings", "why_tests_cant": "error bounds for every scene, by calculus", "anchors": ["discorpy/post/postprocessing.py:unwarp_image_backward", "discorpy/post/postprocessing.py:unwarp_slice_backward", "discorpy/post/postprocessing.py:correct_perspective_image"]}
{"id": "C92", "title": "How far the estimated model can be from the right one", "statement": "For any model with as many coefficients, the sum of its squared deviations over the dots (polynomial of the radius against the ratio of undistorted and fitted ordinate) equals that of the model returned by calc_coef_forward plus the sum of the squared differences of the two models at the dots; likewise for calc_coef_backward at the undistorted radii. Hence if the right model sends the fitted curves to the undistorted lines with a relative error of at most e at every dot, the root mean square over all dots of the difference between the returned and the right forward model is at most e. If the dots off the lines through the centre have as many different radii as there are coefficients, the returned forward coefficients do not depend on the routine that solves the linear least-squares problem.", "quantifier": "all lines, centres, numbers of coefficients, least-squares routines, competing models", "why_tests_cant": "every competing model; error bounds for any data", "anchors": ["discorpy/proc/processing.py:calc_coef_forward", "discorpy/proc/processing.py:calc_coef_backward"]}
{"id": "C93", "title": "Which dots select_dots_based_ratio takes for round", "statement": "For a binary image select_dots_based_ratio never fails and keeps exactly the boxes of the dots with pixels in at least two rows and two columns for which the standard deviation of the positions of the pixels in the box in no direction is 1 + ratio times or more that in another direction. A ratio of zero or less drops all dots; with any positive ratio a dot stays if a quarter turn takes the pixels of its box to themselves (discs, squares). If all dots are rectangles, those of h rows and w columns stay exactly if h, w >= 2 and each of h^2 - 1 and w^2 - 1 is less than (1 + ratio)^2 times the other. For an image with other non-negative values (as int16) the pixels with the least positive value in the box are judged instead; if for some dot with two rows and columns they are on one line, ZeroDivisionError is raised, otherwise nothing. If no value is positive, a dot (of negative values) with two rows and columns raises an IndexError.", "quantifier": "all images, sizes, shapes of dots, ratios", "why_tests_cant": "extent in all of infinitely many directions; images of any size", "anchors": ["discorpy/prep/preprocessing.py:select_dots_based_ratio"]}
{"id": "C94", "title": "The calibration script on a drawn dot pattern", "statement": "Running the steps of examples/example_01.py on the image of make_dot_pattern (dots of odd size of at least 5 pixels, at most 0.6 of their distance d; at least 4 rows and columns and 25 dots; two neighbouring dots in each direction inside the middle part): calc_size_distance returns the number of pixels that each dot has in the binarized image and exactly the distance d; select_dots_based_size and select_dots_based_ratio keep every pixel; calc_hor_slope and calc_ver_slope are 0 if the sharpest projection is the upright one; group_dots_hor_lines and group_dots_ver_lines followed by remove_residual_dots give exactly the rows and columns of the drawn grid, half a pixel off; check_distortion returns False; the backward, the forward and the converted models are all [1, 0, ..., 0]; unwarp_image_backward returns the image unchanged, unwarp_line_backward and unwarp_line_forward the same lines, and check_distortion is False again. No step fails.", "quantifier": "all pattern sizes, margins, dot sizes, distances, numbers of coefficients, library routines meeting their contracts", "why_tests_cant": "the whole chain of functions, for patterns of any size", "anchors": ["discorpy/prep/preprocessing.py:binarization", "discorpy/prep/preprocessing.py:calc_size_distance", "discorpy/prep/preprocessing.py:select_dots_based_size", "discorpy/prep/preprocessing.py:select_dots_based_ratio", "discorpy/prep/preprocessing.py:calc_hor_slope", "discorpy/prep/preprocessing.py:calc_ver_slope", "discorpy/prep/preprocessing.py:group_dots_hor_lines", "discorpy/prep/preprocessing.py:group_dots_ver_lines", "discorpy/prep/preprocessing.py:remove_residual_dots_hor", "discorpy/prep/preprocessing.py:remove_residual_dots_ver", "discorpy/proc/processing.py:find_cod_coarse", "discorpy/proc/processing.py:calc_coef_backward", "discorpy/proc/processing.py:calc_coef_forward", "discorpy/proc/processing.py:calc_coef_backward_from_forward", "discorpy/post/postprocessing.py:unwarp_image_backward", "discorpy/post/postprocessing.py:unwarp_line_backward", "discorpy/post/postprocessing.py:unwarp_line_forward", "discorpy/post/postprocessing.py:check_distortion"]}
{"id": "C95", "title": "Rows and columns are treated alike", "statement": "Transposing the image and exchanging xcenter and ycenter transposes the result of unwarp_image_backward; the same holds for correct_perspective_image with the coefficients exchanged accordingly, and for unwarp_image_forward as long as no two pixels are moved to the same place (otherwise the pixel further down wins, not the one further right, and the results differ). Exchanging the coordinates of all dots and the roles of the horizontal and vertical lines exchanges the coordinates of the lines returned by unwarp_line_forward, unwarp_line_backward and correct_perspective_line and of the centre returned by find_cod_coarse and find_cod_bailey, and calc_residual_hor returns what calc_residual_ver returned. calc_coef_forward then returns a model with the same value at the distance of every dot that counts, and the same coefficients if there are as many different distances as coefficients; likewise calc_coef_backward at the undistorted radii, and calc_coef_backward_from_forward.", "quantifier": "all images, lines, centres, coefficients, numbers of coefficients, library routines meeting their contracts", "why_tests_cant": "every input is compared with its transposed one", "anchors": ["discorpy/post/postprocessing.py:unwarp_image_backward", "discorpy/post/postprocessing.py:unwarp_image_forward", "discorpy/post/postprocessing.py:correct_perspective_image", "discorpy/post/postprocessing.py:unwarp_line_forward", "discorpy/post/postprocessing.py:unwarp_line_backward", "discorpy/post/postprocessing.py:correct_perspective_line", "discorpy/post/postprocessing.py:calc_residual_hor", "discorpy/post/postprocessing.py:calc_residual_ver", "discorpy/proc/processing.py:find_cod_coarse", "discorpy/proc/processing.py:find_cod_bailey", "discorpy/proc/processing.py:calc_coef_forward", "discorpy/proc/processing.py:calc_coef_backward", "discorpy/proc/processing.py:calc_coef_backward_from_forward"]}
{"id": "C96", "title": "Mirrored images and other units of length", "statement": "Turning an image upside down or exchanging left and right, and the coordinates of the centre accordingly, gives the same result of unwarp_image_backward turned likewise (with exact coordinates). If the axes of the coordinates of all dots are turned round or the unit of length is changed to u > 0, then: unwarp_line_forward with the coefficients a_i / u^i and correct_perspective_line with the coefficients changed accordingly return the same lines in the new coordinates; find_cod_coarse and find_cod_bailey return the same centre in the new coordinates (each line with three dots at different places; for Bailey's approach two of the fitted lines must differ in their intercepts); calc_coef_forward, calc_coef_backward and calc_coef_backward_from_forward return models with the same value at the same dots, and exactly the coefficients a_i / u^i if there are as many different distances as coefficients. find_cod_coarse is not independent of the origin: moving all dots to the right by 1 can move the returned centre down by 3.", "quantifier": "all images, lines, centres, coefficients, units, library routines meeting their contracts", "why_tests_cant": "every input is compared with its mirrored and scaled ones", "anchors": ["discorpy/post/postprocessing.py:unwarp_image_backward", "discorpy/post/postprocessing.py:unwarp_line_forward", "discorpy/post/postprocessing.py:correct_perspective_line", "discorpy/proc/processing.py:find_cod_coarse", "discorpy/proc/processing.py:find_cod_bailey", "discorpy/proc/processing.py:calc_coef_forward", "discorpy/proc/processing.py:calc_coef_backward", "discorpy/proc/processing.py:calc_coef_backward_from_forward"]}
{"id": "C97", "title": "Selecting dots twice or in another order", "statement": "Selecting the dots of a size twice with the same parameters gives the same image as selecting once, for every image of 16-bit integers (for images with fractions not: the result is truncated and a second selection can drop the dot). Selecting the round dots twice gives the same image whenever both calls succeed, which is always so for binary images. If no dot reaches into the bounding box of another one, selecting by size and then by shape gives the same image as the other way round, with exactly the dots that pass both tests, and selections by two sizes can be exchanged. Selecting by distance is different: repeating it can remove dots that the first call kept, even all of them.", "quantifier": "all images, sizes, ratios", "why_tests_cant": "every image; pairs of calls", "anchors": ["discorpy/prep/preprocessing.py:select_dots_based_size", "discorpy/prep/preprocessing.py:select_dots_based_ratio", "discorpy/prep/preprocessing.py:select_dots_based_distance"]}
{"id": "C98", "title": "Rounding errors", "statement": "If every operation of the computer has a relative error of at most u (2^-53 in double precision; no overflow or underflow) and sums are formed in any order, each coordinate returned by unwarp_line_forward with n coefficients a_i differs from the radial model by at most ((1+u)^(6n+3) - 1) * (|c| + |d| * sum |a_i| r^i), c being the coordinate of the centre, d that of the dot relative to it and r the distance; in double precision with up to 20 coefficients and terms of up to 2^16 this is less than 2^-29 of a pixel. Each pixel returned by unwarp_image_backward (default settings) differs from that of exact arithmetic by at most these errors plus that of the float32 coordinates, times the largest differences of neighbouring pixels. The dots returned by correct_perspective_line have an error bound that grows as the denominator becomes small against its terms. Rounding to the nearest number with 24 bits is monotone and keeps the integers up to 2^24, as the other properties assume of the conversion of coordinates to float32.", "quantifier": "all lines, images, centres, coefficients, roundings and orders of summation within the contract", "why_tests_cant": "error bounds for every rounding and every input", "anchors": ["discorpy/post/postprocessing.py:unwarp_line_forward", "discorpy/post/postprocessing.py:unwarp_image_backward", "discorpy/post/postprocessing.py:correct_perspective_line"]}
{"id": "C99", "title": "What the distortion check tells", "statement": "Whatever straight lines are chosen, one for each line of dots, the squared residuals of calc_residual_hor (calc_residual_ver) add up to no more than the squared vertical (horizontal) distances of the dots from them; if the mean of these is at most 0.15, check_distortion returns False. So if every dot is at most d away from its place on a straight line of slope a with (a^2+1)*d^2 <= 0.15, it returns False; in particular if straight lines are bent by a lens and unwarped by unwarp_line_forward with a model that is wrong by at most d in radius at every dot. The verdict does not depend on the centre given to the residual functions if each line has dots at two different places. Lines of two dots always give False, however bent the pattern is.", "quantifier": "all lines of dots, models, centres, fitting and sorting routines meeting their contracts", "why_tests_cant": "compared with every choice of lines", "anchors": ["discorpy/post/postprocessing.py:calc_residual_hor", "discorpy/post/postprocessing.py:calc_residual_ver", "discorpy/post/postprocessing.py:check_distortion", "discorpy/post/postprocessing.py:unwarp_line_forward"]}
{"id": "C100", "title": "The two ways of unwarping an image agree", "statement": "Let the backward model g be the inverse of the forward model f at the pixels that unwarp_image_forward moves (inside the frame) to a pixel q, and let g stretch radii and circles by at most K. Then the images of unwarp_image_forward with f and of unwarp_image_backward with g (default settings) differ at q by at most (V + U) * (K*sqrt(2)/2 + d), where V and U are the largest differences of neighbouring pixels in a column and in a row and d is the error of the float32 coordinates. A radial model that stretches radii and circles by at most K stretches all distances by at most K.", "quantifier": "all images, centres, models, pixels, roundings", "why_tests_cant": "every pair of inverse models; images of any size", "anchors": ["discorpy/post/postprocessing.py:unwarp_image_forward", "discorpy/post/postprocessing.py:unwarp_image_backward"]}
{"id": "C101", "title": "Dots seen through a lens are grouped into the rows and columns of the pattern", "statement": "Dots of a regular grid (any origin, slope and distance), each moved by a lens that moves two dots alike up to e times their distance, are grouped by group_dots_hor_lines into exactly the rows of the grid and by group_dots_ver_lines (slope of opposite sign) into exactly its columns, whatever the order of the dots: for a complete grid the returned list is the list of its rows from top to bottom, each from left to right, if e is below the ratio, num_dot_miss exceeds one stretched column and c*(1-ratio) >= e*(1 + 2c + e + |s|c - ratio), c being the cosine of the angle with slope s. With missing dots the lines are the rows (those longer than the accepted length) if the gaps of a row, times e, stay below the ratio and correspondingly stronger conditions hold. A lens with radial coefficients k0, k1, ... moves the dots within distance R of its centre alike up to |k0-1| + 2|k1|R + 3|k2|R^2 + ...; with the default settings and an upright grid it is enough that this is at most 0.23.", "quantifier": "all grids (any numbers of rows and columns, origin, slope, distance), lenses, orders of the dots, ratios, sorting routines", "why_tests_cant": "tests group the dots of a few example images; how much distortion the grouping tolerates is a statement about all lenses", "anchors": ["discorpy/prep/preprocessing.py:group_dots_hor_lines", "discorpy/prep/preprocessing.py:group_dots_ver_lines", "discorpy/prep/preprocessing.py:_check_dot_on_line"]}
{"id": "C102", "title": "The grouping based on a polynomial fit recovers curved lines completely", "statement": "Let every dot lie, in the frame turned by the slope, on the polynomial curve (of the order used for the fit) of its row, and farther than ratio*line_dist from the curves of the other rows; let the rows be nearly straight in the middle band and have enough dots there, have no gap wider than the search distance, comparable lengths and medians more than line_dist/10 apart. Then group_dots_hor_lines_based_polyfit succeeds and returns exactly the rows, each sorted by x, ordered by mean y; the vertical function returns the columns. For K parallel parabolas of 2N+1 dots, in any order, one inequality between curvature, spacing, ratio and num_dot_miss suffices, whatever N: the ends of the rows may bend over many row distances.", "quantifier": "all dot sets, labellings, polynomial orders, slopes, spacings, ratios, numbers of missing dots and overlap ratios with the stated properties; for parabolas all K, N, curvatures and orders of the dots", "why_tests_cant": "Tests group one synthetic pattern; they do not show under which conditions no dot of a strongly bent line is lost or given to its neighbour.", "anchors": ["discorpy/prep/preprocessing.py:group_dots_hor_lines_based_polyfit", "discorpy/prep/preprocessing.py:group_dots_ver_lines_based_polyfit", "discorpy/prep/preprocessing.py:_get_nearby_hor_points_iter", "discorpy/prep/preprocessing.py:_get_nearby_ver_points_iter"]}
{"id": "C103", "title": "Results of the calibration script for any image", "statement": "group_dots_hor_lines and group_dots_ver_lines on an integer image with more than two columns group the centres of mass of its 4-connected dots; an image without lit pixels raises IndexError (horizontal) or ValueError (vertical). An image with two columns is taken as a list of (y, x) points, with one column it raises IndexError, without rows ValueError. Whenever the steps of examples/example_01.py finish on an image: the binarized image has at least 25 dots (with fewer the script stops with ValueError); the selected image is binary and lit only where the binarized one is; size and distance are medians over the dots of the middle part; the lines consist of centres of dots of the selected image, no dot is in two lines of a family, no line is empty, and the dots of a line come in order; 'not significant' and 'not accurate' are printed exactly if, for the original and the unwarped lines, at most / more than 15 % of the dots of a family are more than one pixel away from the straight line fitted to their line; the lines and pixels corrected by the forward model are those moved by it; each pixel of the image corrected by a backward model is read at the place to which the model moves it, and the model moves its unwarped lines back onto the lines of dots if the optimiser finds the best radius.", "quantifier": "all images, numbers of coefficients, library routines meeting their contracts", "why_tests_cant": "every image and every outcome of the steps before", "anchors": ["discorpy/prep/preprocessing.py:group_dots_hor_lines", "discorpy/prep/preprocessing.py:group_dots_ver_lines", "discorpy/prep/preprocessing.py:binarization", "discorpy/prep/preprocessing.py:select_dots_based_size", "discorpy/prep/preprocessing.py:select_dots_based_ratio", "discorpy/prep/preprocessing.py:calc_size_distance", "discorpy/prep/preprocessing.py:remove_residual_dots_hor", "discorpy/prep/preprocessing.py:remove_residual_dots_ver", "discorpy/prep/preprocessing.py:check_num_dots", "discorpy/post/postprocessing.py:unwarp_image_backward", "discorpy/post/postprocessing.py:unwarp_image_forward", "discorpy/post/postprocessing.py:unwarp_line_backward", "discorpy/post/postprocessing.py:unwarp_line_forward", "discorpy/post/postprocessing.py:calc_residual_hor", "discorpy/post/postprocessing.py:calc_residual_ver", "discorpy/post/postprocessing.py:check_distortion"]}
{"id": "C104", "title": "The standalone script examples/unwarp.py", "statement": "A file named *.hdf or *.nxs is read by load_hdf_file, a stack of images being replaced by its average, every other file (also *.h5, *.hdf5, *.HDF) by load_image, so an HDF file with such a name is a ValueError. The option -p never has an effect, whatever text follows it: the perspective correction cannot be switched on. A flat-field with another number of rows, or with another number of columns if neither it nor the image has a single one, is a ValueError; a flat-field with a single column is accepted and used for all columns. Otherwise each pixel is divided by that of the flat-field, or by the (stored) mean of the flat-field where this is zero. A surface photographed under uneven light, with c times this light (c > 0) as flat-field, gives the same dots, lines, centre, coefficients and verdict as the evenly lit surface without a flat-field; a drawn dot pattern photographed so gives its own lattice, the coefficients 1, 0, ..., 0 and the photograph itself as corrected image. Whenever the script finishes: the lines are made of centres of dots of the selected image, each dot in at most one line of each direction and in order; size and distance are medians over the middle half of the image; centre and coefficients are those of find_cod_coarse and calc_coef_backward_from_forward; the message on accuracy is printed exactly if more than 15 % of the dots of one direction are more than one pixel off; and the corrected image is read, pixel by pixel, in the loaded image.", "quantifier": "all files and contents, options, images, flat-fields, libraries meeting their contracts", "why_tests_cant": "the script has no tests; the statements are about every image, flat-field and command line", "anchors": ["examples/unwarp.py:1", "discorpy/losa/loadersaver.py:load_image", "discorpy/losa/loadersaver.py:load_hdf_file", "discorpy/prep/preprocessing.py:binarization", "discorpy/prep/preprocessing.py:calc_size_distance", "discorpy/prep/preprocessing.py:select_dots_based_size", "discorpy/prep/preprocessing.py:select_dots_based_ratio", "discorpy/prep/preprocessing.py:group_dots_hor_lines", "discorpy/prep/preprocessing.py:group_dots_ver_lines", "discorpy/post/postprocessing.py:unwarp_image_backward", "discorpy/post/postprocessing.py:unwarp_line_backward", "discorpy/post/postprocessing.py:check_distortion"]}
{"id": "C105", "title": "Short calibration and correction of stacks", "statement": "calc_distor_coef of examples/example_02.py and example_04.py, whenever it returns: lines are made of the centres of the selected dots, each dot in at most one horizontal and one vertical line, found with the default parameters (accepted_ratio 0.65 for rows, 0.75 for columns), and centre and coefficients are those of these lines (of the regenerated grid with perspective=True). example_02.py saves the image read backward through this model and its difference to the original. example_04.py saves for each index from start to stop-1 a pair of slices of the stack of copies: every line before is this row of the image, every line after this row of the unwarped image, if the model does not fold; images with at most stop rows raise ValueError though slice stop is not saved; the five-digit number in the names repeats exactly after 100000 slices. example_05.py saves one slice for each pair of shifts of the centre, equal to the row of the image unwarped with the moved centre, under names that are all different; the given centre is among them exactly if the step divides the range, and the search stays within the range exactly if the step divides twice the range. For a drawn dot pattern the difference is zero and the slices before and after are equal.", "quantifier": "all images, stacks, indices, ranges, steps, library routines meeting their contracts", "why_tests_cant": "chains of functions, for images and stacks of any size", "anchors": ["examples/example_02.py:calc_distor_coef", "examples/example_04.py", "examples/example_05.py", "discorpy/post/postprocessing.py:unwarp_chunk_slices_backward", "discorpy/post/postprocessing.py:unwarp_slice_backward", "discorpy/post/postprocessing.py:unwarp_image_backward"]}
{"id": "C106", "title": "The calibration of a fisheye camera", "statement": "examples/fisheye_calibration_dot_pattern.py, fisheye_calibration_line_pattern.py and fisheye_calibration_chessboard.py finish exactly if the image loads, its background is corrected, points are found, a model is found and the images are corrected with it. Points of a dot pattern are the middles of the dots of the binarized image, with the median distance of its middle part; for a drawn pattern they are the centres of all its dots, with slope 0 and the distance of the drawing. For lines and chessboards the cross points of one direction are searched with slope and distance of the other. Only points strictly inside the four parabolas of the script (margins 450/100/100/100, 400/300/150/200, 500/450/250/250 for left/right/top/bottom) are used; an image smaller than the margins raises ValueError. For rows and columns bent in proportion to their distance from a point c, inside the mask and in any order, the lines found are exactly the rows and columns, the centre is exactly c, the perspective correction changes nothing and the five coefficients are a least-squares optimum of the bending; this holds for barrel distortion, and for pincushion distortion unless averaged neighbouring lines are parallel. Without distortion the script raises ValueError. Each corrected image shows the loaded image with 400 black pixels added on every side, per colour channel, read through the model about the shifted centre.", "quantifier": "all images, patterns (numbers, distances and bending of the lines, position of the centre, order of the points), library routines meeting their contracts", "why_tests_cant": "the scripts have no tests; they run once on one photograph each", "anchors": ["examples/fisheye_calibration_dot_pattern.py", "examples/fisheye_calibration_line_pattern.py", "examples/fisheye_calibration_chessboard.py", "discorpy/prep/preprocessing.py:get_points_dot_pattern", "discorpy/prep/preprocessing.py:remove_points_using_parabola_mask", "discorpy/prep/preprocessing.py:group_dots_hor_lines_based_polyfit", "discorpy/prep/preprocessing.py:group_dots_ver_lines_based_polyfit", "discorpy/prep/preprocessing.py:remove_residual_dots_hor", "discorpy/prep/preprocessing.py:remove_residual_dots_ver", "discorpy/proc/processing.py:find_center_based_vanishing_points_iteration", "discorpy/proc/processing.py:correct_perspective_effect", "discorpy/proc/processing.py:calc_coef_backward", "discorpy/prep/linepattern.py:get_cross_points_hor_lines", "discorpy/prep/linepattern.py:get_cross_points_ver_lines", "discorpy/prep/linepattern.py:calc_slope_distance_hor_lines", "discorpy/prep/linepattern.py:calc_slope_distance_ver_lines", "discorpy/util/utility.py:unwarp_color_image_backward"]}
{"id": "C107", "title": "Perspective correction from four points", "statement": "Four target points and four source points, no three of each on a line, are joined by exactly one projective map. calc_perspective_coefficients with mapping='backward' returns the coefficients of this map, unless the map sends the corner (0, 0) of the corrected image to infinity: then no eight coefficients reproduce the four points. generate_4_source_target_perspective_points gives the same sources and targets for every order of four points consisting of a top pair and a bottom pair; the targets are the corners of a rectangle with sides parallel to the axes, and if the sources form a convex quadrilateral, every point of the rectangle is sent to a finite point and the rectangle is mapped onto the quadrilateral. examples/readthedocs_demo/demo_07.py: the first image shows each colour channel read through this map, the second image the same correction turned by the angle, scaled and moved by the offsets of the script; a grey image ends with IndexError. There is a convex quadrilateral with positive integer coordinates for which no coefficients exist: its top row is the horizon of the corrected image.", "quantifier": "all quadrilaterals, orders of the points, scales, angles, offsets, colour images with any number of channels, least-squares routines meeting their contract", "why_tests_cant": "tests use one quadrilateral; existence and uniqueness of the map, the independence of the order and the exceptional corner are statements about all of them", "anchors": ["examples/readthedocs_demo/demo_07.py", "discorpy/proc/processing.py:generate_4_source_target_perspective_points", "discorpy/proc/processing.py:calc_perspective_coefficients", "discorpy/post/postprocessing.py:correct_perspective_image"]}
{"id": "C108", "title": "Perspective correction from a grid is exact", "statement": "A camera (any invertible projective map) takes a picture of a flat grid of parallel, equidistant rows and columns; the lines of dots are the images of points of its rows and columns, at least two dots per line, not necessarily the same in both directions. Then generate_source_target_perspective_points returns as sources exactly the images of the crossings of the grid, and as targets a grid with perpendicular steps, of equal length with equal_dist=True. If the lines cross the edges x = 0 and y = 0 of the image in order, the target grid is not degenerate for any scale (a float not 0), with or without optimisation. calc_perspective_coefficients is then exact on the whole plane: the backward coefficients take the place (a, b) of the target grid to where the camera sees the place (a, b) of the plane, the forward coefficients take it back, and correct_perspective_image shows every pixel as the camera sees this place; a square grid with equal_dist=True is shown true to scale. If the corner (0, 0) of the corrected image belongs to a place on the horizon, no coefficients fit the points. If the rows meet in a point of the edge x = 0, the default options put the targets of all rows in one place and no coefficients fit.", "quantifier": "all cameras, grids, numbers of rows and columns, numbers and positions of the dots on the lines, options, library routines meeting their contracts", "why_tests_cant": "tests use one synthetic grid; exactness away from the dots and the two degenerate cases are statements about all cameras", "anchors": ["discorpy/proc/processing.py:generate_source_target_perspective_points", "discorpy/proc/processing.py:generate_undistorted_perspective_lines", "discorpy/proc/processing.py:regenerate_grid_points_linear", "discorpy/proc/processing.py:calc_perspective_coefficients", "discorpy/post/postprocessing.py:correct_perspective_image"]}
{"id": "C109", "title": "Correction without a calibration pattern", "statement": "The scripts demo_08.py and Perseverance_distortion_correction/*.py lay straight lines, warped by a guessed forward model, over a photograph. The overlay is the photograph divided by its maximum plus half the brightness of the sheet of lines (rows 50, 90, 130, ...) at the row to which the forward model moves the pixel, up to the rounding of coordinates; without rotation the padding of the sheet has no effect. A scan saves, into the first folder stem_ntime_n that does not exist yet, an overlay and an unwarped photograph for each value start, start+step, ... below stop+step; the names differ if the step is larger than 0.01; the unwarped photograph uses the coefficients that invert the tried model best, in the sense of least squares, at 40 x 50 pixels spread over the image. The scan of the centre moves the centre along the axis and keeps the inverse fitted around the centre that was not moved. The final correction reads each channel of each photograph through the best inverse on a grid of every fiftieth pixel; the photograph then shows the brightness of the scene up to the error of interpolation and the error of the inverse. backward_mapping.py gives the same inverse as the library function if there are enough points; coefficients saved to a metadata file and loaded by apply_correction_to_images.py are those that were found; the mean of the corrected channels is the corrected grey photograph times the maximum. Error cases: zero maximum, zero step, empty images, images with at most 40 rows or columns, grey photographs, lists of different lengths.", "quantifier": "all photographs, forward models, centres, scan ranges, paddings, sets of existing folders, library routines meeting their contracts", "why_tests_cant": "the scripts have no tests: whether the lines follow the photograph is judged by eye, and the inverse is the best among infinitely many models", "anchors": ["discorpy/post/postprocessing.py:unwarp_image_backward", "discorpy/proc/processing.py:transform_coef_backward_and_forward", "examples/readthedocs_demo/demo_08.py", "examples/Perseverance_distortion_correction/forward_model_estimation.py", "examples/Perseverance_distortion_correction/backward_mapping.py", "examples/Perseverance_distortion_correction/apply_correction_to_images.py"]}
{"id": "C110", "title": "The lines of a line pattern are found where they are", "statement": "A profile across bright lines on a dark ground, each symmetric and falling strictly to zero within a half-width w, each alone in the search window and standing out by more than the sensitivity, gives from get_local_extrema_points exactly the samples at most half a sample away from a line: one point for each line in reach, in order, less than half a sample off with or without sub-pixel refinement, and exact for a parabolic line with refinement; a line exactly halfway between two samples is reported twice. Applied to an image, get_cross_points_hor_lines and get_cross_points_ver_lines report on every generated line, of any slope, exactly one point for each line of the pattern it crosses (except near the ends), on the generated line and less than q/2 + 1 pixels (q/2 + 2 on the side of the clipped slope) from the crossing, q <= n/(n-1) being the sample distance. For slope zero every reported coordinate is too small by the factor (n-1)/n, up to one pixel at the far edge.", "quantifier": "all profiles of at least four samples; all lists of line positions, shapes (any strictly falling function, one for each line), half-widths, radii and sensitivities meeting the stated separation; all images of at least four pixels along the line, all slopes, distances, offsets, interpolation methods and image filters of unchanged shape", "why_tests_cant": "The result depends on where each line falls between the samples; a test draws a few lines and allows a pixel of tolerance, which hides the lines reported twice and the systematic shrinking of the coordinates.", "anchors": ["discorpy/prep/linepattern.py:get_local_extrema_points", "discorpy/prep/linepattern.py:get_cross_points_hor_lines", "discorpy/prep/linepattern.py:get_cross_points_ver_lines", "discorpy/prep/linepattern.py:get_tilted_profile", "discorpy/prep/linepattern.py:locate_subpixel_point"]}
{"id": "C111", "title": "The lines of an upright line pattern are recovered from its image", "statement": "An image shows K bright lines, straight or bent, curve(k, i) being the row of line k at column i. If on each generated column the lines are wide and distinct enough for the search radius, and from column to column they stay apart and continue within the tolerances of the grouping, then get_cross_points_hor_lines followed by group_dots_hor_lines (slope 0) returns lines of the pattern without repetition and without mixing: each returned line consists of exactly one point for every generated column at which that line keeps away from the edge of the image by the search radius, in order, on that column and less than half a sample away from the line. Every line seen at two columns or more and long enough compared with the others is returned. If all lines are seen at all columns, the result is exactly the list of the K lines from top to bottom. The same holds for vertical lines with get_cross_points_ver_lines and group_dots_ver_lines.", "quantifier": "all images of at least four pixels along the generated lines, any number, shape and bending of lines meeting the stated separation, all distances, ratios, offsets, radii, sensitivities, interpolation methods and image filters of unchanged shape", "why_tests_cant": "A test draws one pattern. Whether points of different lines are ever mixed, or a line is broken in two where it leaves the image, depends on the interplay of the search window, the step between the columns and the tolerances of the grouping.", "anchors": ["discorpy/prep/linepattern.py:get_cross_points_hor_lines", "discorpy/prep/linepattern.py:get_cross_points_ver_lines", "discorpy/prep/linepattern.py:get_local_extrema_points", "discorpy/prep/preprocessing.py:group_dots_hor_lines", "discorpy/prep/preprocessing.py:group_dots_ver_lines"]}
{"id": "C112", "title": "Calibration from a line pattern and from a chessboard", "statement": "The scripts for line patterns (examples/line_pattern/example_01.py and readthedocs_demo/demo_04.py, which differ in one setting) and the one for chessboards (readthedocs_demo/demo_06.py): (1) Whenever a run finishes, the image was averaged to a grey one; each of the lines found consists of reference points, no point used twice, in order; the regenerated lines are one grid with a point for each pair of a horizontal and a vertical line, listed row by row and column by column; centre and coefficients are those which find_cod_coarse and calc_coef_backward give for this grid; the tables of residuals are those of the least-squares line of each line, of the grid (line pattern) or the lines found (chessboard) before, and of the unwarped grid after the correction; each pixel of the corrected image is read where the backward model says; the saved difference is image minus corrected image for line patterns and the opposite for the chessboard; the two colour images of demo_06 are corrected channel by channel with the same model. (2) If no point is found in one of the two directions, they end with a ValueError. (3) An image that shows a grid of straight lines parallel to its edges: exactly these lines are found, as points of exactly the same height or horizontal position. (4) On such an image, the slopes found being zero, the scripts fail: the correction of perspective, which they always apply, divides by zero.", "quantifier": "all images, file systems, numbers of coefficients, slopes and distances; for (3) and (4) all images whose lines satisfy the stated separation, with the settings of any of the scripts", "why_tests_cant": "The scripts are never executed by the tests of the project. That a perfect image is the one on which they fail is not found with photographs, whose lines are never exactly straight.", "anchors": ["examples/line_pattern/example_01.py", "examples/readthedocs_demo/demo_04.py", "examples/readthedocs_demo/demo_06.py", "discorpy/proc/processing.py:regenerate_grid_points_parabola", "discorpy/proc/processing.py:find_cod_coarse", "discorpy/proc/processing.py:calc_coef_backward", "discorpy/prep/linepattern.py:get_cross_points_hor_lines", "discorpy/prep/linepattern.py:get_cross_points_ver_lines"]}
{"id": "C113", "title": "Calibration from a dot pattern in the demonstration scripts", "statement": "The scripts readthedocs_demo/demo_01.py, demo_02.py, demo_03.py, demo_05.py and examples/example_03.py (dot patterns, with and without correction of the perspective): (1) Whenever a run finishes, the image was averaged to a grey one and binarized in the way of the script; the size of dots found is that of a dot, the lines consist of centres of dots of the selected image in the order along the line, and the residuals are those of the least-squares lines. (2) The model of demo_01 is found from these lines; the one of demo_02, demo_03 and demo_05 from one regenerated grid with a point for each pair of a horizontal and a vertical line; example_03 chooses by its flag. The corrected image is read where the backward model sends its pixels, the saved difference is corrected minus original (absolute in example_03), and example_03 reports a distortion exactly if more than 15% of the dots are more than a pixel off their line. (3) In demo_05 the lines unwarped are the grid regenerated without correction of the perspective. The last image is read in the radially corrected one where eight coefficients send its pixels. If the unwarped lines are a photograph of a plane grid, in order, this image shows the plane from above, true to shape if the grid is a square one. (4) On the drawing of a dot pattern all five scripts find all dots, in their rows and columns. demo_01 and example_03 without perspective then give the identity: residuals 0, unchanged lines, unchanged image, difference 0, nothing reported. (5) On the same drawing demo_02, demo_03, demo_05 and example_03 with perspective give no finite result.", "quantifier": "all images, file systems, numbers of coefficients (for (4) at most half the number of dots in a row), sizes of pattern, dots and margins; library routines meeting their contracts", "why_tests_cant": "The scripts are never executed by the tests of the project. That a perfect pattern is the one on which the correction of perspective fails is not found with photographs, whose lines are never exactly straight.", "anchors": ["examples/readthedocs_demo/demo_01.py", "examples/readthedocs_demo/demo_02.py", "examples/readthedocs_demo/demo_03.py", "examples/readthedocs_demo/demo_05.py", "examples/example_03.py", "discorpy/prep/preprocessing.py:calc_size_distance", "discorpy/prep/preprocessing.py:select_dots_based_size", "discorpy/prep/preprocessing.py:select_dots_based_ratio", "discorpy/prep/preprocessing.py:group_dots_hor_lines", "discorpy/prep/preprocessing.py:group_dots_ver_lines", "discorpy/proc/processing.py:regenerate_grid_points_parabola", "discorpy/proc/processing.py:find_cod_coarse", "discorpy/proc/processing.py:calc_coef_backward", "discorpy/proc/processing.py:generate_source_target_perspective_points", "discorpy/post/postprocessing.py:correct_perspective_image"]}
{"id": "C114", "title": "Rounding errors of images, slices and single points", "statement": "With the rounding of every operation on coordinates: (1) find_point_to_point returns a point as near to that of the radial model as 6n+3 roundings relative to the terms added up (n coefficients), in the order asked for. (2) unwarp_slice_backward in binary arithmetic (15 bits or more) is exactly the row of the image that unwarp_image_backward computes in the same arithmetic if its coordinates are kept in double precision: the rows cut out always contain those needed, and subtracting the first of them is without error. It differs from the exact slice by the errors of the coordinates times the steps between neighbouring pixels, plus the relative error of storing single-precision values, and from the row of the real unwarp_image_backward (coordinates in single precision) by at most 2^-8 pixel in each coordinate for at most 2^16 columns. (3) If every row is moved below the previous ones by more than the rounding errors, unwarp_chunk_slices_backward with rounding is exactly the set of rows that unwarp_image_backward computes with rounding. (4) unwarp_image_forward sends each pixel to the place of the exact model if the exact coordinates are further from a half than the rounding error, and otherwise, for errors below one pixel, at most one pixel away; if all pixels are of the first kind the image is the same. (5) correct_perspective_image differs from the exact image by the errors of the coordinates times the steps between neighbouring pixels, where the errors grow as the denominator becomes small against its terms; a wrong number of coefficients is the only error raised. (6) In double precision, with at most 20 coefficients and terms up to 2^16, the coordinate errors of (1) to (4) are below 2^-29.", "quantifier": "all images, stacks of at most 32767 rows, models, centres, coefficients, all roundings with a relative error u (for (2) and (3) all binary precisions as stated) and all orders of summation", "why_tests_cant": "Rounding errors depend on every input; a test with a tolerance hides that a slice and the row of the image use different precisions, and that a crop found with rounded numbers still has all rows needed.", "anchors": ["discorpy/util/utility.py:find_point_to_point", "discorpy/post/postprocessing.py:unwarp_image_backward", "discorpy/post/postprocessing.py:unwarp_image_forward", "discorpy/post/postprocessing.py:unwarp_slice_backward", "discorpy/post/postprocessing.py:unwarp_chunk_slices_backward", "discorpy/post/postprocessing.py:correct_perspective_image"]}
{"id": "C115", "title": "The lines found in the image of a dot pattern seen through a lens", "statement": "An image with non-negative pixels and more than two columns shows a regular grid of dots (any origin, slope and distance d) through a lens: the dots of the image correspond one to one to the nodes of the grid, and every pixel of a dot is within rho of the place to which the lens moves the node. The lens moves two nodes alike up to e times their distance. Then group_dots_hor_lines of the image returns exactly the rows of the grid, from top to bottom and each from left to right, and group_dots_ver_lines (slope of opposite sign) exactly its columns, under the conditions of C101 with e + 2*rho/d in the place of e. Each returned point is the centre of mass of the dot that shows the node and is itself within rho of the moved node, whatever the shape and the brightness of the dot. With missing dots the lines of the horizontal grouping are the rows, those longer than the accepted length. With the default settings, an upright grid and a lens with radial coefficients k0, k1, ..., it is enough that |k0-1| + 2|k1|R + 3|k2|R^2 + ... + 2*rho/d is at most 0.23 if all nodes are within R of the centre of the lens. If moreover the centres of the dots are within delta of the moved nodes and a forward model f0, f1, ... sends the moved nodes back up to an error e, then the lines found and unwarped with this model are reported as free of distortion by check_distortion in both directions, provided (s^2+1)*(e + (1+|f0-1|+2|f1|R+...)*delta)^2 <= 0.15 with the slope s.", "quantifier": "all images of any size with dots of any shape and brightness, all grids, lenses, radii, ratios and sorting routines meeting the stated conditions", "why_tests_cant": "Tests group the dots of a few example images. That dots of any shape are never mixed between rows, up to a stated bound on distortion and size of the dots, is a statement about all images.", "anchors": ["discorpy/prep/preprocessing.py:group_dots_hor_lines", "discorpy/prep/preprocessing.py:group_dots_ver_lines", "discorpy/post/postprocessing.py:unwarp_line_forward", "discorpy/post/postprocessing.py:calc_residual_hor", "discorpy/post/postprocessing.py:calc_residual_ver", "discorpy/post/postprocessing.py:check_distortion"]}
{"id": "C116", "title": "The order of the dots does not matter", "statement": "The dots of each line may be given in any order. If every horizontal line has dots at three different x and every vertical line at three different y, then find_cod_coarse, find_cod_fine, find_cod_bailey, find_center_based_vanishing_points (and its second way) and regenerate_grid_points_parabola return exactly the same for the reordered lines; calc_coef_forward and calc_coef_backward return models with the same values at the radii of all dots used, hence the same coefficients if there are as many different radii as coefficients, and the same warning; calc_coef_backward_from_forward likewise; correct_perspective_effect returns the same lines with the dots in the order given; remove_residual_dots_hor and _ver keep the same dots of the same lines or raise ValueError in both cases. With two different places along each line, regenerate_grid_points_linear, generate_undistorted_perspective_lines and generate_source_target_perspective_points return exactly the same, and calc_residual_hor and _ver return tables with the same rows and the same column of distances, on which check_distortion gives the same verdict. Before the grouping: group_dots_hor_lines returns the same for any order of the list of dots, and any sorting routine, if no two dots have the same x, and group_dots_ver_lines if no two have the same y. With equal coordinates this fails: the dots (0, 0), (1/4, 0), (1/2, 1) (y, x) with distance 1 and tolerance 0.3 give one line of three dots or one line of two, depending on the order of the first two.", "quantifier": "all lists of lines, all orders of the dots in each line, all fitting, minimising and sorting routines meeting their contracts, all centres and options", "why_tests_cant": "The number of orders of n dots is n!. A test tries the order in which its data happen to be; an index mistake (use of the first or last dot of a line, or of neighbours) shows only for other orders.", "anchors": ["discorpy/proc/processing.py:find_cod_coarse", "discorpy/proc/processing.py:find_cod_fine", "discorpy/proc/processing.py:find_cod_bailey", "discorpy/proc/processing.py:find_center_based_vanishing_points", "discorpy/proc/processing.py:calc_coef_forward", "discorpy/proc/processing.py:calc_coef_backward", "discorpy/proc/processing.py:calc_coef_backward_from_forward", "discorpy/proc/processing.py:regenerate_grid_points_linear", "discorpy/proc/processing.py:regenerate_grid_points_parabola", "discorpy/proc/processing.py:generate_undistorted_perspective_lines", "discorpy/proc/processing.py:generate_source_target_perspective_points", "discorpy/proc/processing.py:correct_perspective_effect", "discorpy/prep/preprocessing.py:group_dots_hor_lines", "discorpy/prep/preprocessing.py:group_dots_ver_lines", "discorpy/prep/preprocessing.py:remove_residual_dots_hor", "discorpy/prep/preprocessing.py:remove_residual_dots_ver", "discorpy/post/postprocessing.py:calc_residual_hor", "discorpy/post/postprocessing.py:calc_residual_ver", "discorpy/post/postprocessing.py:check_distortion"]}
{"id": "C117", "title": "The pattern at another place in the image", "statement": "All dots are moved by the same vector, or a part is cut out of the image. (1) group_dots_hor_lines returns the moved rows, with the dots in the same order, if no two dots have the same x (any sorting routine); group_dots_ver_lines the moved columns if no two dots have the same y; an error stays the same error. (2) remove_residual_dots_hor and _ver keep the same dots. (3) find_cod_fine started at the moved point returns the moved centre. (4) calc_residual_hor and _ver with the moved centre return the same tables. (5) unwarp_line_forward and unwarp_line_backward about the moved centre return the moved dots. (6) regenerate_grid_points_linear returns the moved grid if each line has dots at two different places. (7) unwarp_image_backward of a part of an image, with the centre relative to this part, gives the value which it gives for the whole image at every pixel whose source lies in the part. (8) find_cod_coarse returns the moved centre if the dots of each line lie on a straight line, and find_cod_bailey does for lines bent in proportion to their distance from a centre (pincushion). (9) In general find_cod_coarse does not: for a pattern with rows at -1 and 2 and columns at -1 and 1 about (3, 5) it returns (-9, 5) (y, x), and for the same pattern about (0, 0) it returns (1/2, 0) instead of (-12, 0). (10) generate_undistorted_perspective_lines does not either: for the dots (0, 0), (0, 1), (1, 0), (2, 1) it returns the unit square at (0, 0), and for the dots 2 further to the right the unit square at (-2, 2) instead of (0, 2).", "quantifier": "all dots, lines, vectors, centres, settings, images and parts; all fitting, minimising and sorting routines meeting their contracts", "why_tests_cant": "Tests use one position of the pattern. A mixture of coordinates relative to the image and to the centre shows only when the pattern is moved, and then only as a small change of numbers.", "anchors": ["discorpy/prep/preprocessing.py:group_dots_hor_lines", "discorpy/prep/preprocessing.py:group_dots_ver_lines", "discorpy/prep/preprocessing.py:remove_residual_dots_hor", "discorpy/prep/preprocessing.py:remove_residual_dots_ver", "discorpy/proc/processing.py:find_cod_coarse", "discorpy/proc/processing.py:find_cod_fine", "discorpy/proc/processing.py:find_cod_bailey", "discorpy/proc/processing.py:regenerate_grid_points_linear", "discorpy/proc/processing.py:generate_undistorted_perspective_lines", "discorpy/post/postprocessing.py:calc_residual_hor", "discorpy/post/postprocessing.py:calc_residual_ver", "discorpy/post/postprocessing.py:unwarp_line_forward", "discorpy/post/postprocessing.py:unwarp_line_backward", "discorpy/post/postprocessing.py:unwarp_image_backward"]}
{"id": "C118", "title": "Images and stacks with integer pixels", "statement": "Camera images are arrays of integers, and the corrected image has the dtype of the image. Every pixel returned by unwarp_image_backward and correct_perspective_image is the value of the dtype nearest to what the same image as floats gives (of two equally near ones the one further from zero), for every order of the interpolation: values outside the range are cut off, nothing wraps around. With the default interpolation a pixel differs by at most 1/2 from the float result, stays between the darkest and the brightest pixel, the model without distortion returns the image exactly, and a brighter image gives a brighter result. unwarp_slice_backward and unwarp_chunk_slices_backward give the rows of these images (the slice has been rounded too, although it is an array of float32), and the channels of a colour image are corrected like single images, padded or not. Correcting a combination of two images and combining the corrected images differ by at most (1+|a|+|b|)/2, and are not equal in general. A scene recorded with an error of at most e per pixel is shown with the error of the exact image plus e + 1/2.", "quantifier": "all integer dtypes that contain 0, images, stacks, centres, coefficients, interpolation routines (first part), float32 roundings", "why_tests_cant": "every image and dtype; rounding and overflow show only for particular values", "anchors": ["discorpy/post/postprocessing.py:unwarp_image_backward", "discorpy/post/postprocessing.py:unwarp_slice_backward", "discorpy/post/postprocessing.py:unwarp_chunk_slices_backward", "discorpy/post/postprocessing.py:correct_perspective_image", "discorpy/util/utility.py:unwarp_color_image_backward"]}
{"id": "C119", "title": "How much errors of the model matter", "statement": "A centre and coefficients are used instead of the right ones (same number of coefficients; points within R of both centres). The corrected points of find_point_to_point and unwarp_line_forward then move by at most (|f0-1| + 2|f1|R + 3|f2|R^2 + ...) times the error of the centre plus |f0-f0'|R + |f1-f1'|R^2 + ...: an error of the centre counts only with the bend of the model, and for a pure change of scale the bound is attained at every point. If the right model makes all rows (columns) of dots straight and this displacement is small ((a^2+1)d^2 <= 0.15 for the slope a of each line), the residuals of the lines corrected with the wrong model still pass check_distortion. A pixel of unwarp_image_backward and unwarp_slice_backward changes by at most sqrt(V^2+U^2) times the displacement if neighbouring pixels differ by at most V and U (plus the rounding of coordinates for images).", "quantifier": "all pairs of models, points, lines, images, stacks; all fitting and sorting routines meeting their contracts", "why_tests_cant": "Tests use one model and exact parameters; the bound holds for every error and every point.", "anchors": ["discorpy/post/postprocessing.py:unwarp_line_forward", "discorpy/post/postprocessing.py:unwarp_image_backward", "discorpy/post/postprocessing.py:unwarp_slice_backward", "discorpy/post/postprocessing.py:calc_residual_hor", "discorpy/post/postprocessing.py:calc_residual_ver", "discorpy/post/postprocessing.py:check_distortion", "discorpy/util/utility.py:find_point_to_point"]}
{"id": "C120", "title": "How much errors of the perspective coefficients matter", "statement": "Coefficients c' are used instead of c. A point (x, y) is safe if |c7-c7'||x| + |c8-c8'||y| < |c7 x + c8 y + 1|. Then correct_perspective_line puts it at a finite place for both, and the places differ in x by at most (|c1-c1'||x| + |c2-c2'||y| + |c3-c3'| + |X| e) / (|c7 x + c8 y + 1| - e), where X is the right place and e the left side above, and in y likewise with c4, c5, c6; the bound is attained by a shift and by a tilt. The condition is needed: for every point but the origin there are coefficients at equality for which it has no image. A pixel of correct_perspective_image (default interpolation) changes by at most the slopes of the brightness times these displacements, plus the rounding of the coordinates. Straight rows and columns of dots stay straight whatever the coefficients: the residuals after correction are all zero and check_distortion reports no distortion however wrong the coefficients are, provided no dot is on the horizon and no row becomes vertical (no column horizontal). So the check cannot find an error of the perspective correction.", "quantifier": "all pairs of sets of eight coefficients, points, lists of lines, images; all fitting and sorting routines meeting their contracts", "why_tests_cant": "Tests use coefficients computed from the same data; the bound holds for all errors and points, and the blindness of the check for all coefficients.", "anchors": ["discorpy/post/postprocessing.py:correct_perspective_line", "discorpy/post/postprocessing.py:correct_perspective_image", "discorpy/post/postprocessing.py:calc_residual_hor", "discorpy/post/postprocessing.py:calc_residual_ver", "discorpy/post/postprocessing.py:check_distortion"]}
{"id": "C121", "title": "A calibration that can succeed does succeed", "statement": "Let calc_coef_forward be called with N coefficients on at least four rows and four columns of dots, the intercepts of the fitted parabolas increasing or decreasing strictly, no fitted parabola having height 0 at a dot unless its undistorted intercept is 0, and not all undistorted intercepts of the rows being 0. Suppose any list k' of N coefficients, of whatever origin, maps the fitted parabolas to the undistorted lines with relative error at most e at every dot and moves the dots of each row to within h of a straight line, the dots being at most R from the parallel of that line through the centre. If (R e sqrt(1 + n_col/n_row) + h)^2 <= 0.15, with n_row and n_col the numbers of dots in the rows and columns, then the rows corrected by unwarp_line_forward with the returned coefficients pass: check_distortion of their calc_residual_hor reports no distortion. The same holds for columns. So when the routine fails to straighten the pattern, no model with as many coefficients fits it well, and the cause is the number of coefficients, the centre or the grouping.", "quantifier": "all rows and columns of dots, centres, numbers of coefficients up to 32767, models k', tolerances e, R, h; all fitting, solving, sorting and minimising routines meeting their contracts", "why_tests_cant": "The statement is about the existence of any good model among infinitely many; tests try a few patterns generated from a known model.", "anchors": ["discorpy/proc/processing.py:calc_coef_forward", "discorpy/post/postprocessing.py:unwarp_line_forward", "discorpy/post/postprocessing.py:calc_residual_hor", "discorpy/post/postprocessing.py:calc_residual_ver", "discorpy/post/postprocessing.py:check_distortion"]}
{"id": "C122", "title": "Line positions in profiles of integers", "statement": "The profile given to get_local_extrema_points is an array of integers (a line of a camera image, for example; any integer dtype but uint64, no overflow of the dtype, select_peaks off). (1) With norm=False and denoise=False the result is exactly that of the same numbers as floats, for minima and maxima, with and without subpixel refinement, including the exception for an empty profile. (2) With norm=True and at least five samples, the ranks and the fitted background line are those of the floats, but the background is truncated to whole numbers, and samples whose background is between -1 and 1 are replaced by the mean magnitude of the line. (3) Where the background is at least k for a whole number k >= 1, and the sample is not negative, the value that is searched is between the float value and 1 + 1/k times the float value. (4) A constant profile (zero included) still has no extremum. (5) The result is not the one of the floats in general: 1, 2, 3, 6, 5, 7 with radius 1 and sensitivity 0.1 has the minimum 2 as floats and the minima 2 and 3 as integers, though the sample 6 at 3 is larger than both its neighbours. (6) Maxima are the minima of the integers subtracted from the largest one, and denoise=True searches the smoothed integers.", "quantifier": "all integer profiles, radii, sensitivities; all fitting and sorting routines meeting their contracts; all smoothing routines", "why_tests_cant": "Tests use float profiles or bright images, where the truncation of the background is not visible.", "anchors": ["discorpy/prep/linepattern.py:get_local_extrema_points"]}
{"id": "C123", "title": "How much noise the automatic threshold tolerates", "statement": "binarization without a given threshold uses Otsu's threshold of the middle part of the image. Let the pixels be within e of two levels a < b, both occurring, with gap g = b - a - 2e > 0, N pixels in all, and let (2e)^2 N <= g^2 k for the numbers k of pixels near a and near b. (1) For integer images the threshold is the largest pixel near a: all pixels near a are at or below it, all pixels near b above it. (2) For float images with n bins, the same condition with e increased by w = (b - a + 2e) / (2n) puts all pixels near b above the threshold, while pixels near a exceed it by w at most; such pixels do occur (values 0, 0.09, 1 with ten bins). If the float pixels are whole numbers and n > b - a + 2e, the threshold is within 1/2 of the largest pixel near a and every smaller pixel is below it. (3) Let a noisy integer image differ by at most e from a clean image with the values a and b only. If (1) applies to its middle part, and this part contains a pixel near a that no noisy pixel over a clean a exceeds, its mask is the mask of the clean image with any threshold from a up to b; with denoise=True the same holds if a >= 0 and the conditions hold for the median-filtered image. (4) With a given threshold s the mask is unchanged by noise up to e if each clean pixel is at most s - e or above s + e (magnitudes, with denoise=True). (5) The condition on the numbers of pixels is needed: for the integers 0, 0, 0, 4, 4, 4, 9 the threshold is 0.", "quantifier": "all images, levels, noise within the bound (no distribution assumed), ratios, numbers of bins", "why_tests_cant": "The bound is over all noise patterns of any amplitude up to e; tests use one seeded noise image.", "anchors": ["discorpy/prep/preprocessing.py:binarization"]}
{"id": "C124", "title": "The dots found in noisy photographs", "statement": "get_points_dot_pattern with binarize=True is run on an image that differs by at most e at each pixel from a clean one. (1) Given threshold s: if the magnitude of each clean pixel is at most s - e or above s + e, the list of points is the same as for the clean image. (2) Automatic threshold, integer image: under the conditions of C123 the list of points is that of the clean two-level image with any threshold between the levels. (3) Let the clean image be a photograph of a pattern drawn by make_dot_pattern (dots of an odd size of at least 5 and at most 0.6 of their distance) with dots of brightness B >= 0 and a background of brightness A + B. With a threshold at least e above B and more than e below A + B, the points are exactly those found in the drawn pattern itself: the centres of all the dots, each once, shifted by half a pixel in both directions. (4) The same centres are found with the automatic threshold in a photograph of N integer pixels, with the threshold taken from the whole image (ratio >= 1), if (2e)^2 N <= (A - 2e)^2 and 2e < A.", "quantifier": "all patterns of any size, contrasts, noise patterns within the bound, thresholds", "why_tests_cant": "The statement is about every noise pattern on every pattern size; tests use a few noise seeds.", "anchors": ["discorpy/prep/preprocessing.py:get_points_dot_pattern", "discorpy/prep/preprocessing.py:binarization", "discorpy/util/utility.py:make_dot_pattern"]}
{"id": "C125", "title": "Noise of the pixels is not amplified", "statement": "Let two images have the same size, at most 2^24 rows and columns, and let no pixel of the second exceed the pixel of the first by more than e (e may be negative: the second is darker by -e). (1) The same holds for the results of unwarp_image_backward with order=1, for every centre, coefficients and boundary mode; noise of at most e per pixel changes each pixel of the result by at most e. (2) The same holds for correct_perspective_image, for every slice returned by unwarp_slice_backward (height at most 32767, non-empty coefficients) and for unwarp_chunk_slices_backward with a model that does not fold. (3) The same holds for unwarp_image_forward if e >= 0. (4) For integer images with non-negative pixels that differ by at most e grey levels the results of unwarp_image_backward differ by at most e grey levels; with negative pixels by at most e + 1, and e + 1 is attained: two int16 images that differ by 1 everywhere give pixels 1 and -1. (5) Noise of at most e in each colour of each pixel changes each colour of each pixel of the result of unwarp_color_image_backward by at most e, if the padding copies pixels or uses a constant; the size of the result, or the error, is the same for both images.", "quantifier": "all images, stacks, bounds e, centres, coefficients, boundary modes", "why_tests_cant": "The bound concerns every noise pattern and every distortion model; the case where signed integers exceed the bound needs an interpolated value of exactly one half on both sides of zero.", "anchors": ["discorpy/post/postprocessing.py:unwarp_image_backward", "discorpy/post/postprocessing.py:unwarp_image_forward", "discorpy/post/postprocessing.py:unwarp_slice_backward", "discorpy/post/postprocessing.py:unwarp_chunk_slices_backward", "discorpy/post/postprocessing.py:correct_perspective_image", "discorpy/util/utility.py:unwarp_color_image_backward"]}
{"id": "C126", "title": "Turned images and cameras", "statement": "Turning an image by a quarter turn (numpy.rot90), and the centre (x, y) to (y, width - 1 - x), gives the turned result of unwarp_image_backward with order=1 and exact coordinates, for images of at most 2^24 rows and columns; so a square image that looks the same after a quarter turn still does after the correction about its middle, and four such turns give the image back. The lines returned by unwarp_line_forward and unwarp_line_backward follow every rigid motion of the dots and the centre (rotation by any angle, reflection, shift), with exact arithmetic. unwarp_image_forward does not follow quarter turns: there is an image of 1 x 2 pixels whose result differs from the result for the turned image.", "quantifier": "all images, centres, coefficients, boundary modes; all lines of dots and rigid motions", "why_tests_cant": "every input is compared with its turned ones, for every angle", "anchors": ["discorpy/post/postprocessing.py:unwarp_image_backward", "discorpy/post/postprocessing.py:unwarp_line_forward", "discorpy/post/postprocessing.py:unwarp_line_backward", "discorpy/post/postprocessing.py:unwarp_image_forward"]}
{"id": "C127", "title": "Cropped images and regions of interest", "statement": "Let an image be cropped to the part beginning at row t and column l. unwarp_image_backward (order=1, exact coordinates) of the part with the centre (xcenter - l, ycenter - t) has at (i, j) the value that the result for the whole image has at (t + i, l + j), for every pixel whose place under the model is inside the part; likewise unwarp_slice_backward for every slice of a cropped stack (height at most 32767, non-empty coefficients). The same holds for correct_perspective_image with the coefficients converted to the new origin, if the denominator at the new origin and at the pixel is not 0, and correct_perspective_line with the converted coefficients returns the same lines in the new coordinates. Pixels whose place is outside the part can differ.", "quantifier": "all images, stacks, parts, centres, coefficients, boundary modes, lines of dots", "why_tests_cant": "every part of every image is compared with the whole image", "anchors": ["discorpy/post/postprocessing.py:unwarp_image_backward", "discorpy/post/postprocessing.py:unwarp_slice_backward", "discorpy/post/postprocessing.py:correct_perspective_image", "discorpy/post/postprocessing.py:correct_perspective_line"]}
{"id": "C128", "title": "The exposure of the photograph does not matter", "statement": "Let every pixel v of an image be replaced by a * v + b with a > 0. If no pixel is negative before and after (and, for integer images, all pixels are integers before and after), binarization with the automatic threshold returns the same image (also for negative pixels without denoising), get_points_dot_pattern the same dots, and the calibration script examples/example_01.py (images of at most 2^24 rows and columns, order=1) finishes for one image exactly if it finishes for the other, with the same size and distance of the dots, slopes, lines, centre of distortion, coefficients of all models, unwarped lines and messages; the corrected images are a * v + b of each other. For any a and b the result of unwarp_image_backward is a * v + b of the original result; likewise unwarp_image_forward except for pixels that are not written, which are 0 in both.", "quantifier": "all images, contrasts a > 0, brightnesses b, numbers of coefficients, library routines", "why_tests_cant": "the whole script is compared for every image and every change of brightness and contrast", "anchors": ["discorpy/prep/preprocessing.py:binarization", "discorpy/prep/preprocessing.py:get_points_dot_pattern", "discorpy/post/postprocessing.py:unwarp_image_backward", "discorpy/post/postprocessing.py:unwarp_image_forward", "examples/example_01.py"]}
{"id": "C129", "title": "Noise in the photograph does not change the calibration", "statement": "If two photographs of a dot pattern differ by at most e per pixel and have the same mask (binarization with denoising, ratio 0.3, automatic threshold), the calibration script examples/example_01.py gives for both the same mask, size and distance of the dots, slopes, grouped lines, centre, coefficients of all models, straightness messages and unwarped lines; each of the three corrected photographs differs by at most e from the other one. If the script finishes for the first, it finishes for the second. In particular this holds for a clean photograph with two grey values 0 <= a < b and a noisy one that has the same dark pixels and whose light pixels are within e of b, if in the middle part of the denoised clean photograph both values occur, and both classes are large enough for the distance of the values: (2 (e + w))^2 times the number of pixels is at most (b - a - 2 (e + w))^2 times the number of pixels of each class, w = (b - a + 2e) / (2n) being half the width of a bin of the histogram with n bins. Then both photographs have the same mask.", "quantifier": "all photographs up to 2^24 rows and columns, e, grey values, numbers of bins and coefficients, all boundary modes of linear interpolation", "why_tests_cant": "tests calibrate one image; that noise is cut off entirely by the threshold, for all noise patterns and all images, is a relation between two runs of the whole script", "anchors": ["discorpy/prep/preprocessing.py:binarization", "discorpy/post/postprocessing.py:unwarp_image_backward", "discorpy/post/postprocessing.py:unwarp_image_forward", "examples/example_01.py"]}
{"id": "C130", "title": "Exposure and noise do not change what the other scripts find", "statement": "The scripts demo_01.py and demo_02.py (examples/readthedocs_demo) and examples/unwarp.py without a flat-field are run on two photographs of at most 2^24 rows and columns, with order=1. (1) If each pixel v of the first photograph is a * v + b in the second, a > 0, and no pixel is negative in either (for integer images: all pixels are integers in both), and the script finishes for the first, it finishes for the second with the same mask, size and distance of the dots, selected dots, slopes, lines, residuals, grid, centre, coefficients, unwarped lines and messages; the corrected photographs are a * v + b of each other and the saved differences a * v of each other. (2) If the photographs differ by at most e per pixel and have the same mask (conditions in C129), the script finds the same for both; the corrected photographs differ by at most e, the saved differences by at most 2e.", "quantifier": "all pairs of photographs and files, contrasts, brightnesses, noise patterns, numbers of coefficients, library routines, boundary modes", "why_tests_cant": "relations between two runs of a whole script, for every pair of photographs", "anchors": ["discorpy/prep/preprocessing.py:binarization", "discorpy/post/postprocessing.py:unwarp_image_backward", "examples/readthedocs_demo/demo_01.py", "examples/readthedocs_demo/demo_02.py", "examples/unwarp.py"]}
{"id": "C131", "title": "The contrast does not change the results of the scripts that correct the background", "statement": "A photograph with every pixel multiplied by c > 0 replaces the photograph read by a script. (1) Masks: normalization_fft with pad 100, followed by binarization with Otsu's threshold or with the one of calculate_threshold (longer side of at least 5 pixels), gives the same mask; so does binarization alone. (2) demo_03.py and demo_05.py (examples/readthedocs_demo), example_03.py with and without correction of the perspective, and unwarp.py with -f norm (photographs of at most 2^24 rows and columns, order=1), if they finish for the first photograph, finish for the second with the same mask, dots, lines, residuals, centre, coefficients (demo_05: also points and coefficients of the perspective), unwarped lines and messages; the pixels of the corrected photograph, and of the difference image where the script saves one, are multiplied by c (demo_05, image corrected for perspective: wherever the denominator of the perspective map is not zero).", "quantifier": "all photographs, positive factors, files, numbers of coefficients, library routines meeting their contracts, boundary modes", "why_tests_cant": "relations between two runs of a whole script through a Fourier filter, for every photograph and factor", "anchors": ["discorpy/prep/preprocessing.py:normalization_fft", "discorpy/prep/preprocessing.py:binarization", "discorpy/prep/preprocessing.py:calculate_threshold", "discorpy/post/postprocessing.py:unwarp_image_backward", "examples/readthedocs_demo/demo_03.py", "examples/readthedocs_demo/demo_05.py", "examples/example_03.py", "examples/unwarp.py"]}
{"id": "C132", "title": "The exposure of a photograph of lines does not change the points found", "statement": "Every pixel v of a photograph of a line pattern is replaced by c * v + d, c > 0. (1) get_local_extrema_points(..., option='max', denoise=False, norm=False) gives the same result for a profile of samples v and of samples c * v + d, with and without sub-pixel refinement, for any radius and non-negative sensitivity, including its errors. (2) get_cross_points_hor_lines and get_cross_points_ver_lines with norm=True, chessboard=False and bgr='bright' (or d = 0) give the same points for both photographs, for any slope, distance, ratio, offset, radius, with and without denoise and subpixel, including errors. (3) The scripts examples/line_pattern/example_01.py and demo_04.py, for given slopes and distances of the lines and photographs of at most 2^24 rows and columns (order=1), find the same points, lines, residuals, grid, centre, coefficients and unwarped lines; the corrected photograph is changed by the same c and d, the saved difference by the factor c.", "quantifier": "all images, profiles, factors, offsets and parameters; all filters and interpolations that keep the contrast", "why_tests_cant": "equality of the results of two runs for every image and every exposure, including errors", "anchors": ["discorpy/prep/linepattern.py:get_local_extrema_points", "discorpy/prep/linepattern.py:get_tilted_profile", "discorpy/prep/linepattern.py:get_cross_points_hor_lines", "discorpy/prep/linepattern.py:get_cross_points_ver_lines", "examples/line_pattern/example_01.py", "examples/readthedocs_demo/demo_04.py"]}
{"id": "C133", "title": "The exposure of a photograph does not change the slope and distance of lines, or the calibration with a chessboard", "statement": "Every pixel v of a photograph is replaced by c * v + d, c > 0. (1) calc_slope_distance_hor_lines and calc_slope_distance_ver_lines with norm=False, chessboard=False and bgr='bright' (or d = 0) give the same slope and distance, or the same error, for any ratio, search range, radius, non-negative sensitivity, with and without denoise and subpixel. (2) With norm=True or select_peaks the slopes are the same whenever both photographs give a result. (3) convert_chessboard_to_linepattern gives the same image or error, with and without smoothing. (4) The two functions of (1) with chessboard=True give the same result or error, whatever the other options. (5) So do get_cross_points_hor_lines and get_cross_points_ver_lines with chessboard=True and bgr='bright' (or d = 0) for a floating-point image, whatever the other options. (6) demo_06.py (examples/readthedocs_demo), for photographs of at most 2^24 rows and columns (order=1): if it finishes for the first photograph, it finishes for the second with the same line pattern, points, lines, residuals, grid, centre, coefficients, unwarped lines and corrected test image; the corrected photograph is changed by the same c and d, the saved difference by the factor c.", "quantifier": "all images, factors, offsets and parameters; all filters that keep contrast and brightness, all Radon transforms that keep the contrast; all files", "why_tests_cant": "equality of the results of two runs for every image and every exposure, including errors", "anchors": ["discorpy/prep/linepattern.py:calc_slope_distance_hor_lines", "discorpy/prep/linepattern.py:calc_slope_distance_ver_lines", "discorpy/prep/linepattern.py:convert_chessboard_to_linepattern", "discorpy/prep/linepattern.py:sliding_window_slope", "discorpy/prep/linepattern.py:get_cross_points_hor_lines", "discorpy/prep/linepattern.py:get_cross_points_ver_lines", "examples/readthedocs_demo/demo_06.py"]}
{"id": "C134", "title": "The contrast of a photograph does not change the calibration of a fisheye camera with dots or a chessboard", "statement": "Every pixel of a photograph is multiplied by c > 0. (1) normalization_fft with any sigma and pad gives the result multiplied by c, or the same error. (2) The points, slopes and distances that fisheye_calibration_dot_pattern.py and fisheye_calibration_chessboard.py (examples) find in the photograph with corrected background are the same. (3) unwarp_color_image_backward with black padding of a grey or colour image multiplied by c gives the result multiplied by c, or the same error. (4) If one of these scripts finishes for the first photograph, it finishes for the second with the same lines, centre, lines corrected for perspective, coefficients and messages, and the same corrected test image; the corrected photograph is multiplied by c.", "quantifier": "all photographs, positive factors, files, padding modes, library routines meeting their contracts; all filters and interpolations that keep the contrast", "why_tests_cant": "relations between two runs of a whole script through a Fourier filter, for every photograph and factor", "anchors": ["discorpy/prep/preprocessing.py:normalization_fft", "discorpy/prep/preprocessing.py:binarization", "discorpy/prep/linepattern.py:calc_slope_distance_hor_lines", "discorpy/prep/linepattern.py:calc_slope_distance_ver_lines", "discorpy/prep/linepattern.py:get_cross_points_hor_lines", "discorpy/prep/linepattern.py:get_cross_points_ver_lines", "discorpy/util/utility.py:unwarp_color_image_backward", "examples/fisheye_calibration_dot_pattern.py", "examples/fisheye_calibration_chessboard.py"]}
