# Formal model of discorpy in Lean 4 — design

## 1. Layout

| where | what |
|---|---|
| `properties.jsonl` | the English properties C01… |
| `lean/Verif/Py/*` | the Python/NumPy primitives the code uses (clip, int(), round, slices, arange, sorting, least squares …) |
| `lean/Verif/Model/*` | the model, one file per module of `/repo/discorpy`; every definition cites file and lines |
| `lean/Verif/Spec/*` | small independent specifications used in theorem statements |
| `lean/Verif/Lemmas/*` | helper lemmas only |
| `lean/Verif/Props/*` | the property theorems, each with a non-vacuity `example` beside it |
| `MANIFEST.json` | property → theorem names, status |
| `seeded/LOG.jsonl` | wrong-program experiments |

## 2. Modelling decisions

* **Numbers.** Python/NumPy floats are modelled by the real numbers `ℝ`; integers by `ℤ`/`ℕ`.
  NaN/inf are *not* modelled, and rounding errors only for the functions of `Model/Rounded.lean` (C98) and `Model/RoundedMore.lean` (C114). Where rounding or a dtype changes the result visibly the
  model makes it explicit: `np.int16(..)` is two's-complement wrap-around, `int(..)` is truncation,
  `np.round` is half-to-even, `float32(..)` of coordinates is an arbitrary rounding function that is
  monotone and fixes the integers below 2^24 (a parameter, so the theorem holds for the real float32 rounding too),
  storing into an array that copies an integer dtype is truncation.
* **Division by zero.** Lean's `x/0 = 0`; NumPy gives inf/nan, Python raises. Theorems carry the non-zero
  hypothesis explicitly, or the model returns an error/`none`.
* **Exceptions** are values (`Except PyErr α`).
* **Images** are `Mat α` = height, width and a function of (row, column); only in-range entries mean anything, and
  theorems are stated about shape and in-range entries.
* **Loops** become structural recursion or well-founded recursion (termination is then part of the result).
* **External numerics** are parameters with a *contract* that is a hypothesis of the theorem (and is shown to be
  satisfiable): `np.linalg.lstsq`/`np.polyfit` return *a* least-squares minimiser; `argsort`/`sorted` return *a* sorted
  permutation (NumPy's default argsort is not stable); `optimize.minimize` returns the minimiser where stated;
  `scipy.ndimage.map_coordinates(order=1)` is linear interpolation between the two neighbouring samples per axis, with an
  arbitrary (unspecified) treatment of coordinates and samples outside the image.
  Labelling of objects, their boxes and centres, morphological operations, median filters, discrete Fourier transforms, Otsu's threshold and
  the axes of `regionprops` are defined mathematically; `curve_fit`, `radon`, `zoom`, Gaussian filters are arbitrary functions.

## 3. Trusted base

1. Lean 4.33.0's kernel (proofs are also replayed by `vcheck`).
2. Axioms: every theorem depends on at most `propext`, `Classical.choice`, `Quot.sound`. No own axioms, no `sorry`,
   no `native_decide`/`bv_decide`.
3. The reading of `/repo` recorded in the comments of `Verif/Model/*` and the contracts of section 2.

## 4. Plan per property

(see section 5 for the current status; `MANIFEST.json` has the theorem names)

| id | model | proof idea |
|---|---|---|
| C01 | `unwarpImageBackward`, `unwarpSliceBackward` with crop | floor/ceil of min/max bound the band; the two interpolation taps lie in the band or have weight 0 |
| C02 | `unwarpChunkSlicesBackward` | monotonicity of y ↦ F(√(x²+y²))·y from r·F(r) monotone and F ≥ 0, so end rows bound all rows; refutation witness without it |
| C03 | same | case analysis |
| C04 | all six functions | F ≡ 1; interpolation at nodes is exact |
| C05 | interpolation | convex combination; clip puts coordinates in range |
| C06 | interpolation | linear algebra |
| C07–C10 | `findPointToPoint`, `unwarpLineForward/Backward` | ring identities, norm of rotated vector |
| C11 | `unwarpImageForward` as a left fold of writes | induction over the write list |
| C12–C13 | `calcResidual{Hor,Ver}` with polyfit contract | point–line distance minimisation, least-squares zero residual |
| C14 | `checkDistortion` | counting |
| C15–C16 | `correctPerspective*` | field identities |
| C17–C18 | `calcPerspectiveCoefficients` with lstsq contract | consistent system ⇒ zero residual |
| C19–C21 | grid generation | field identities; √(1+a²) vs cos(arctan a) |
| C22–C24 | intercepts and coefficient estimation | argmin/sign analysis; zero residual; Vandermonde uniqueness |
| C25–C28 | centre search and shifts | direct |
| C29–C32 | grouping and residual filter | invariant of the removal loop, permutation reasoning |
| C33–C38 | masks, rotations, ROI, contrast | direct |
| C39–C40 | sideways search, polyfit grouping | variant: window leaves the bounding interval; witness of the stale-variable bug |
| C41 | dot selection with arbitrary labelling | pixelwise induction |
| C42–C47 | line-pattern functions | least-squares normal equations; floor/ceil bounds |
| C48–C50 | pattern images | closed forms of nested loops |
| C51–C52 | padding | direct; shift of coordinates |
| C53 | video loop as a step function over a schedule | induction over schedules |
| C54–C55 | directory as finite map of names, save histories, interleavings | pigeonhole for termination; invariants over histories |
| C56–C57 | text/JSON printers and parsers over characters | induction over lists |
| C58, C63 | string functions | induction over strings |
| C59 | 8-bit scaling | order/field reasoning |
| C60–C62 | HDF objects as trees/finite maps | structural induction |
| C64–C65 | grouping and sideways search on ideal patterns | invariant of the loops: each pass collects one whole row / the next dot of the curve |
| C66–C67 | selection by distance, size and distance of dots | nearest-neighbour list, median as order statistic |
| C68 | dot-pattern image | dilation of lattice points in closed form; disjoint discs |
| C69–C71 | OpenCV variant, colour averaging, HDF round trip | pointwise equality; finite maps |
| C72, C76 | Bailey's centre, vanishing points | a pattern bent in proportion to the distance from the centre makes all fitted parabolas exact; the lines through the vanishing points cross in the centre |
| C73–C75 | parabola grids, perspective correction | fitted coefficients through the polyfit contract; linear systems through the lstsq contract; fixed-point patterns |
| C77 | source/target lists | index arithmetic of the nested loops, perpendicular steps |
| C78–C79 | direction, distance, cross points of line patterns | two nested arg-max searches; geometry of generated lines |
| C80 | coefficients as least-squares solutions | rows of the linear systems identified with the dots |
| C81–C83 | binarization, points and slopes of dot patterns | connected components as reachability, morphology as set operations |
| C84 | threshold | normal equations of the fitted line, uniqueness of the minimiser |
| C85 | background correction | order statistics of windows; orthogonality of the discrete Fourier basis |
| C86 | background of profiles | ranks of samples through the argsort contract; uniqueness of the least-squares line |
| C87 | from a drawn pattern to the model | round sets of pixels are stable under median filter and opening; walks around dots; composition of C68, C81, C82, C64, C32, C23 |
| C88 | order in HDF files | lexicographic order of the visit, by mutual induction over trees |
| C89 | loading files, keys of HDF files | keys as paths in trees, induction over the parts of a key |
| C90 | Otsu's threshold | sums over bins as sums over pixels; uniqueness of the least maximiser |
| C91 | accuracy of unwarped images | convexity (`f ± M t²/2`) for the interpolation error; Lipschitz bound of bilinear interpolation |
| C92 | error of the estimated model | least squares: the deviation of another model is that of the returned one plus the squared difference (right angle), Vandermonde uniqueness |
| C93 | Which dots select_dots_based_ratio takes for round | the axes of the fitted ellipse are four times the least and the largest spread (eigenvalues of a quadratic form over unit directions); sums over rectangles; invariance under a quarter turn |
| C94 | The calibration script on a drawn dot pattern | the drawn lattice is carried through all steps of the script |
| C95 | Rows and columns are treated alike | swapping the coordinates of all inputs swaps those of all outputs; least-squares problems with the same rows in another order have the same values |
| C96 | Mirrored images and other units of length | turning round axes and scaling carries fits, sign changes, minima and least-squares rows over; the model coefficients scale with powers of the unit |
| C97 | Selecting dots twice or in another order | a kept dot is a dot of the result with the same box; selections with tests on the box commute if no dot reaches into another box |
| C98 | Rounding errors | a calculus of relative errors through every operation; any order of summation; the interpolation is Lipschitz |
| C99 | What the distortion check tells | least squares: no other lines are nearer; residuals above one pixel contribute at least one to the sum of squares; the fitted line is unique |
| C100 | The two ways of unwarping an image agree | the last pixel that lands on a pixel; a radial map stretches distances no more than radii and circles; Lipschitz interpolation |
| C101 | bent grids are grouped into rows and columns | labelled rows, Lipschitz bound of the radial displacement |
| C102 | Recovery of curved lines | rows and columns on polynomial curves are found completely by the polynomial-fit grouping; explicit condition for parabolas |
| C103 | Results of the calibration script for any image | inversion of a successful run; C29, C32, C67, C81 for the dots and lines, C12/C14 for the verdicts, C10/C11 for the corrections |
| C104 | The standalone script unwarp.py | Stages of the script as results of the package functions; congruence and scaling of the binarization; quotient by the flat-field pixel by pixel |
| C105 | The scripts example_02.py, example_04.py and example_05.py | Chunk = rows (C02) and slice = row (C01) applied to a stack of copies; injectivity of the file names by the decimal value; arithmetic of range() |
| C106 | The calibration scripts for fisheye cameras | Composition of the steps; mask as a filter (C33, C34); bent rows recovered by the grouping with a polynomial fit (C102), centre by vanishing points (C76), perspective correction a fixed point (C75), coefficients as a least-squares optimum (C80) |
| C107 | Perspective correction from four points | Four points in general position form a projective frame (existence and uniqueness of the map, Lemmas/Homography); signs of the weights of a convex quadrilateral give the image of the rectangle; turned targets compose the map with a similarity |
| C108 | Perspective correction from a grid is exact | Collinearity is projective, so fitted lines pass through the images of all crossings; the targets are a grid, so camera and change of grid compose to one projective map, recovered by least squares (C17); positive gaps and the parabola of the squared error give a non-degenerate grid |
| C109 | Correction without a calibration pattern | The ruled sheet is constant along rows, so bilinear sampling gives a hat function of the warped row (also beyond the padding); scans are lists of pairs with injective names; the fit is C24 around the centre; the scene bound combines C91 with the error of the inverse |
| C110 | Lines found where they are | A sample is found iff it is at most half a sample from a ridge: the window holds one ridge only, at most r + 1 of its 2r + 1 samples belong to it, so the r largest inverted values are the ground; counting gives one sample for each ridge unless halfway; the vertex of the parabola lies on the side of the ridge; scaling by the sample distance q and C45/C79 carry it to tilted lines |
| C111 | Lines recovered from the image | C110 gives, for each generated column, one point for each line in reach; a point less than half a sample from a line belongs to one line only, so the points have a row label; the conditions of C64_rows (next point continues, other rows keep away up to the next point) follow from those of the curves; the points of a row, in the order of the columns, are sorted, hence equal to the returned permutation; complete rows are ordered by their means |
| C112 | Calibration from a line pattern or a chessboard | the scripts composed from the functions; finished runs described, straight grids recovered exactly and then rejected |
| C113 | Calibration from a dot pattern in the demonstration scripts | the scripts composed from the functions; finished runs described, drawings give the identity or, with perspective, no result |
| C114 | Rounding errors of images, slices and single points | numbers with few bits: subtracting a smaller integer is exact; errors of coordinates (C98) through floor, clip, rounding and interpolation |
| C115 | Lines found in the image of a bent dot pattern | the centre of mass of a dot stays in every disc containing it; the moved nodes and the centres differ by a map of small bend, so C101 applies to the centres |
| C116 | The order of the dots does not matter | fits are determined by the set of dots (three places for a parabola, two for a straight line); sorted lists with different keys are unique |
| C117 | The pattern at another place in the image | fits of moved dots are the moved fits; the grouping sees differences only; a part of an image is an image whose padding is the rest; counterexamples for the coarse centre and the undistorted lines |
| C118 | Images and stacks with integer pixels | the conversion of SciPy is the nearest value of the dtype; it is monotone and fixes integers, so the theorems for floats carry over |
| C119 | How much errors of the model matter | moving the centre is moving the point in a fixed model, so only the bend counts (C101); coefficients by the triangle inequality; verdict from C99; images from the Lipschitz bound of the interpolation (C91) |
| C120 | How much errors of the perspective coefficients matter | perturbation of a quotient of two linear forms; straight lines stay straight for every projective map, so the residuals are zero (C12); images from the Lipschitz bound of the interpolation |
| C121 | A calibration that can succeed does succeed | the returned model minimises the relative error over the dots (C92), so it is close to k' in the mean; Minkowski turns this into the mean distance of the corrected dots from straight lines; verdict from C99 |
| C122 | Line positions in profiles of integers | the background line of C86 is the same; only its values are truncated when stored in an integer array; the quotients are compared directly |
| C123 | Noise and the automatic threshold | splitting a group lowers the criterion of C90 by the identity for three groups; half a bin is added for floats; order statistics are 1-Lipschitz |
| C124 | The dots found in noisy photographs | equal masks give equal points; the masks are equal by C123; the clean photograph is an affine image of the pattern of C87 |
| C125 | unwarping of images and stacks, float and integer pixels | bilinear interpolation is order preserving and commutes with adding a constant; rounding half away from zero commutes with adding integers only for numbers of one sign |
| C126 | Turned images and cameras | A quarter turn is the transposition (C95) after which the rows are mirrored (C96); lines: distances are preserved by a rigid motion; counterexample for the forward image through C11 |
| C127 | Cropped images and regions of interest | The image is a padded version of its part, so the interpolation of C52 applies; slices through C01; conversion of projective coefficients to another origin |
| C128 | The exposure of the photograph does not matter | The masks agree inside the image (C90_mask) and fillHoles fixes them outside, so all later steps get the same input; images: interpolation is affine |
| C129 | Noise in the photograph does not change the calibration | The script uses the photograph only for the mask and the corrected images; dark pixels without noise stay below the centre of the first bin (C90_float), light ones above the threshold (C123_float) |
| C130 | Exposure and noise do not change what the other scripts find | As C128 and C129: the photograph is used only for the mask and the corrected image; the saved difference of an affine change loses the brightness |
| C131 | The contrast does not change the results of the scripts that correct the background | The filter is linear, so the background and the normalised image scale; Otsu's threshold, the noise threshold and the median scale as well; from the mask on as C130 |
| C132 | The exposure of a photograph of lines does not change the points found | Inverting the image removes the brightness; filters, interpolation, sorting, means and the parabola through three samples commute with a positive factor, the contrast is a quotient |
| C133 | The exposure of a photograph does not change slopes, distances and the calibration with a chessboard | The column maxima of a sinogram are multiplied by the factor, so the sharpest angle stays; gradients drop the brightness and the division by their mean drops the contrast |
| C134 | The contrast of a photograph does not change the calibration of a fisheye camera with dots or a chessboard | The Fourier filter is linear, so the corrected background scales; Otsu's mask, the chessboard pattern and the slopes in a window drop the factor |

Properties not expressible: none is excluded outright; the parts left out (floating-point rounding, external
numerics, real file system) are named in section 2 and per property in section 5.

## 5. Status and findings

All properties of `properties.jsonl` are proved (status `proved` in `MANIFEST.json`). Where the code does not do what its
documentation says, the property states what it does and a theorem gives the witness (names in brackets below).

### 5.1 What is modelled

Every public function of `post/postprocessing.py`, `proc/processing.py`, `prep/preprocessing.py`, `prep/linepattern.py` and
`util/utility.py`, with their helpers, branch by branch, and the functions of `losa/loadersaver.py` that compute something
(file names, suffixes, text/JSON metadata, 8-bit export, colour averaging, HDF slicing, listing, creation and saving, path repair).
`Model/Example.lean` is the sequence of calls of `examples/example_01.py` (C94), `Model/UnwarpScript.lean` the standalone script
`examples/unwarp.py` with its options (C104), the scripts `example_02.py`, `example_04.py` and `example_05.py` for a loaded image (C105), and the three
scripts `fisheye_calibration_*.py` without their figures and files (C106), `examples/readthedocs_demo/demo_07.py` for a loaded image, its
constants being parameters (C107), `line_pattern/example_01.py`, `demo_04.py` and `demo_06.py` without their figures (C112), `demo_01.py`, `demo_02.py`,
`demo_03.py`, `demo_05.py` and `example_03.py` without their figures (C113), and `demo_08.py` with the scripts of `examples/Perseverance_distortion_correction` (C109), without the optional
rotation of the sheet of lines.

### 5.2 What is not modelled

* Floating-point rounding (except of coordinates in `unwarp_line_forward`, `unwarp_image_backward` and `correct_perspective_line`, C98, and in
  `find_point_to_point`, `unwarp_image_forward`, `unwarp_slice_backward`, `unwarp_chunk_slices_backward` and `correct_perspective_image`, C114), overflow to infinity and `nan` propagation. A value that would be `inf`/`nan` is the error `nonFinite`
  in the model, at the place where it arises.
* Images of integers are modelled as integers in C118 (`Model/IntImages.lean`: the conversion SciPy's `map_coordinates` applies when it
  writes a pixel of an integer dtype, after the macros `CASE_INTERP_OUT_INT/UINT` of its `ni_interpolation.c`; SciPy is not
  available here, so this was written from knowledge of the library and could not be compared with the source: it is a trusted assumption); elsewhere
  pixels are real numbers. Profiles of line patterns taken from integer images (prep/linepattern.py:554, 565) are rounded in the same way, which is not modelled; profiles
  that are integers are the subject of C122 (`Model/IntProfile.lean`).
* The numerical routines named in section 2 beyond their contracts. `PolyfitSpec` (the result minimises the sum of squares) is
  assumed for all non-empty data; the real `np.polyfit` raises `LinAlgError` if all abscissae are zero, which is modelled only in
  `calculate_threshold`. `np.roots`, `fsolve`, `scipy.optimize.minimize`, `curve_fit`, `radon`, `zoom`,
  Gaussian filters are parameters (arbitrary functions, or functions with a stated contract). The ellipse axes of `regionprops` are a
  parameter in C41 and defined from the moments of the pixels in C93.
* Connected-component labelling, `clear_border`, opening, `binary_fill_holes`, `binary_dilation`, median filters and discrete
  Fourier transforms are modelled by their mathematical definition, not by the code of SciPy/scikit-image.
* Plotting (only the file names of plots), fonts, the format of pickle files, OpenCV windows (the video loop sees a schedule of reads and keys),
  file permissions, symbolic links, HDF compression and external links.
* Messages of exceptions and warnings.
* `unwarp_chunk_slices_backward` for images without columns raises `ValueError` in the model; for an empty list of coefficients together with
  an image without columns the outcome in NumPy was not determined.

### 5.3 Findings about the code

*post/postprocessing.py* — 285–288: `stop_index=-1` is always rejected (C03); the number of slices is `stop - start + 1`; the crop of a
chunk is computed from its first and last row only, which is wrong if the model folds the image (C02, counterexample); `np.int16`
indices overflow for more than 32767 rows (C01_int16_overflow); with an empty list of coefficients `unwarp_slice_backward` raises
`ValueError` while `unwarp_image_backward` returns a constant image (C01_no_coefs). Results for integer arrays are truncated because `zeros_like` copies
the dtype (C08_line_forward_int_truncates, C44_int_dtype). For stacks of integers `unwarp_slice_backward` returns float32 values that have already
been rounded to integers (C118_slice); correcting integer images is not linear (C118_not_linear).

`unwarp_slice_backward` keeps coordinates in double precision while `unwarp_image_backward` and `unwarp_chunk_slices_backward` convert them to
single precision, so that a slice and the corresponding row can be read up to 2⁻⁸ of a pixel apart for coordinates below 2¹⁶ (C114_slice_image).

*proc/processing.py* — `calc_coef_backward` has no guard for an undistorted intercept of 0 (C23_backward_through_centre); fewer than
four lines give `nan` (C22_few_lines); the guard `Fb != 0` in `calc_coef_forward` never matters; the metric table of the fine centre
search is indexed `[y, x]`, hence IndexError for unequal lists, and one line per direction gives TypeError (C26_errors);
`find_cod_bailey` and the vanishing-point functions divide by zero on straight lines (C72_straight, C76_straight);
`find_cod_coarse` takes slopes and intercepts of the parabolas at the edge of the image (x = 0, y = 0), so that its result depends on where the pattern
lies in the image (C117_coarse_moves), and so do the lines of `generate_undistorted_perspective_lines` (C117_undistorted_moves);
`regenerate_grid_points_parabola(perspective=True)` gives `nan` with two or three lines (C74_few);
`generate_undistorted_perspective_lines` ignores a numeric `scale` if `optimizing=True` (C20_scale_ignored) and mirrors lines given in
decreasing order otherwise (C20_reversed); `generate_source_target_perspective_points` is not finite for parallel fitted lines
(C77_parallel); in `correct_perspective_effect` the test `len(indices) > 0` looks at the tuple returned by `np.where` and is always
true, so the documented ValueErrors never occur (C75_one_sided); `calc_perspective_coefficients` truncates unequal lists by `zip`
(C17_errors).

*prep/preprocessing.py* — 664–665: strict comparison although the documentation says "equal or larger" (C30_ratio_one); `np.max` of an
empty list raises ValueError (C29_outcome); 959–962: the mask is read before the bounds are checked, so points outside raise IndexError
and negative ones wrap around (C34_out_of_frame); 1199–1213: stale `selected_points` of the previous group (C40_stale);
`select_dots_based_distance` only looks at dots that are too far (C66); dots whose value is a multiple of 65536 are lost by the
conversion to int16 (C41_int16_overflow); binarizing twice empties an image that is more than half white (C81_unstable);
`get_points_dot_pattern(binarize=False)` accepts grey images with minimum 0 and maximum 1 and ignores values in between (C82_binary);
`calc_ver_slope` uses the width for its tolerance, and raises ValueError where `calc_hor_slope` raises IndexError (C83_empty);
`calculate_threshold` drops one more sample at the end than at the start and fails for images of one or two pixels (C84_errors);
`normalization` and `normalization_fft` catch ZeroDivisionError, which NumPy never raises (C85_uniform); the frequency window of
`normalization_fft` is centred half a unit too low, and for odd sizes a uniform image does not stay uniform (C85_fft_odd); the denoising of `binarization` (median of even size) shifts all
dots by half a pixel in both directions (C87_binarized) and loses dots of size 1 and 3 (C87_small).

*prep/linepattern.py* — the background division of `get_local_extrema_points` makes equal samples different (C86_ties), and for integer
profiles the background itself is truncated, which can turn a maximum into a minimum (C122_differs); extrema in the last valid sample are never looked at; fewer than four samples give none (C43_short); a flat window
is located at its start (C42_flat); tilted profiles leave the image by less than a pixel for negative angles (C45_line_hor/ver) and
sample `k*w/(w-1)` at angle 0 (C45_zero_angle), which makes cross points lie up to one or two pixels before the sampled position (C79);
the "slope in radian" of `calc_slope_distance_*` is a tangent (C78); chessboard conversion always gives a bright background (C47).

*util/utility.py* — `make_line_pattern` raises IndexError if no line fits (C49_index_error); `make_dot_pattern` raises RuntimeError for images
below eight pixels (C68_errors); `unwarp_video_cv2` discards the first frame, loops forever if reads fail (C53_never) and raises NameError
if the first read fails (C53_first_read_fails).

*losa/loadersaver.py* — the check for existing files is not atomic (C55_race); plots without suffix overwrite `.png` (C55_plot_suffix);
names ending in a dot (C54_final_dot); different names can be normalised to the same file (C58_collision); `save_metadata_json` destroys
the old file before a TypeError (C57_type_error); `save_image` overflows for int16 (C59_int16_overflow), fails for bool (C59_errors),
and treats ".TIF" as 8-bit (C59_capitals); colour averaging of thin images uses the wrong axis (C70_few_rows, C70_few_columns);
`load_hdf_file` returns 1D data for thin slices (C60_thin), fails for one-element lists along axis 2 (C60_single), a three-element list
means a range, a group key gives AttributeError and a dangling link KeyError instead of ValueError (C60_errors, C89_object),
a list that cannot be pickled destroys the file it should replace (C89_list_destroys), and "data" at the root is not found (C71_root_data); the listing
contains duplicates (C61_complete); `open_hdf_stream` validates after truncating the file (C62_rejection), checks the wrong keys (C62_check)
and fails for non-dictionaries (C62_not_dict); `save_hdf_file` with a root key leaves an empty file (C71_root_key); octal escapes of
Windows paths are not repaired (C63_octal).

`unwarp_image_forward` does not treat rows and columns alike where several pixels are moved to the same place: the one further down
wins (C95_forward_image_fold); nor does it follow quarter turns of the image, because halves are rounded to even numbers
(C126_forward_fails). `find_cod_coarse` depends on the origin of the coordinates: it uses the slopes of the fitted parabolas
at the left and upper edges of the image, so moving all dots by the same amount can change the centre relative to the dots
(C96_coarse_origin); turning axes round and changing the unit do not matter (C96_coarse).
`select_dots_based_distance` is not idempotent: a second call can remove dots that the first one kept, because their neighbours are gone
(C97_distance); nor is `select_dots_based_size` for float images, whose result is truncated to integers (C97_size_float). `check_distortion` returns False for any pattern with two dots per line (C99_two).
`group_dots_hor_lines` and `group_dots_ver_lines` tell an image from a list of points by the number of columns: an image with two columns is silently
read as a list of coordinates (C103_narrow).

*examples/unwarp.py* — 58–60, 159: `-p` gives a text, and `perspective is True` is never true for a text, so the perspective correction can never
be switched on (C104_perspective). 96: `width != width` compares the width of the image with itself; a flat-field of another width is
refused only by the broadcasting rules of NumPy, and one with a single column is used silently (C104_flat). 76: HDF files named `.h5`,
`.hdf5` or `.HDF` are given to Pillow (C104_extension). 100: in an integer flat-field (2D dataset) the mean is truncated, for a mean below 1
to zero, and the division is not finite.

**examples/example_04.py, example_05.py.** example_04.py saves the slices `start … stop - 1`, but the correction computes slice `stop` too and
refuses `stop = height` (C105_slices, C105_errors), so the last row of an image cannot be saved with these loops. Its file names repeat after
100000 slices (C105_numbers). example_05.py: `range(-search_range, search_range + step, step)` goes beyond `search_range` unless the step divides
twice the range, and misses the given centre unless the step divides the range (C105_range).

**examples/fisheye_calibration_*.py.** A pattern without distortion ends with `ValueError` (C106_straight): the centre is searched with vanishing
points, and straight parallel lines have none. With pincushion distortion there are isolated combinations of curvature and position for which the
coarse centre does not exist (excluded in C106_pincushion).

**calc_perspective_coefficients** always normalises the last entry of the matrix to 1. A projective map sending the corner (0, 0) of the corrected
image to infinity has no such form; the least-squares solution returned then maps no longer the four targets to the four sources. C107_horizon gives
a convex quadrilateral with small integer coordinates for which this happens: the returned coefficients are wrong and no error is raised.

**generate_source_target_perspective_points** measures the distance of the lines where they cross the edges x = 0 and y = 0 of the image, not at the
pattern. A perspective whose rows meet on the left edge makes the distance zero: with `equal_dist=False` all rows of targets coincide and no coefficients
fit (C108_collapse), though the pattern itself is seen well. If the rows meet to the right of the edge, order and distance of the targets follow the
prolonged lines. C108_rectifies assumes that the lines cross the edges in order.

**demo_08.py and Perseverance scripts.** Names of scanned images have two decimals: with steps of 0.01 or less files overwrite each other
(C109_scan_coef needs a larger step). The values go beyond `stop` if `stop - start` is not a multiple of the step. `scan_center` fits the backward
model to points around the centre that was not moved. Without rotation the padding of the sheet has no effect (C109_padding). A grey photograph fails
with `IndexError` only in the last part of the script, after all scans. backward_mapping.py repeats the loop of the library without its check of the
number of points: too few points give no error, and images of at most 40 rows or columns a `LinAlgError` (C109_rover_errors). `np.int16` limits the
points of the scans to images of at most 32767 pixels. In double precision `np.linspace` can be a little below a whole number, so that a
point can lie one pixel from the point of the model.

**get_cross_points_hor_lines, get_cross_points_ver_lines.** The profile is sampled at `k n / (n - 1)` pixels but the points are reported at `k` pixels
(slope zero): all coordinates are too small by the factor `(n - 1) / n`, up to a pixel at the far edge, even with the sub-pixel refinement
(C110_hor_lines: exactly `c (n - 1) / n` for a parabolic line at `c`). A line exactly halfway between two samples is reported twice, with refinement as
two equal points (C110_twice); so is every line with two equal brightest samples. Lines nearer than the radius to the ends of the profile are not
reported, and for a radius larger than the distance of the lines neighbours compete (excluded by the hypotheses of C110).

* `line_pattern/example_01.py`, `demo_04.py` and `demo_06.py` always call `regenerate_grid_points_parabola` with `perspective=True`. On an image of an undistorted grid whose
  lines are parallel to the edges all fitted parabolas have `a = b = 0`, and the fit of their roots divides by zero [C112_undistorted]. In floating point
  the result is `nan` or depends on rounding. `example_01.py` for dots, without that step, gives the identity on an undistorted pattern [C94].
* The same step of `demo_02.py`, `demo_03.py`, `demo_05.py` and of `example_03.py` with `perspective = True` has no finite result for the drawing of a dot
  pattern [C113_perspective]; `demo_01.py` and `example_03.py` with `perspective = False` give the identity [C113_demo01, C113_example03].
- `binarization` compares with the centre of a histogram bin when the image has float pixels (the images that `load_image` returns). This centre belongs to the bin
  of the largest dark pixel, and pixels in the upper half of the bin count as bright although the criterion counted them as dark (C123_float_above).
- The threshold comes from the middle part only and is, for integer images, its largest dark pixel (C123_integer). A dark pixel outside the middle part that is brighter than
  this counts as bright; C123_mask therefore needs the brightest dark pixel to be inside.
* **Noise of signed integer images can grow by one grey level.** `map_coordinates` rounds halves away from zero, so two int16 images that differ by 1 can differ by 2
  after `unwarp_image_backward` (C125_signed_two). Unsigned images and floats are not affected (C125_unsigned, C125_noise).

### 5.4 Wrong-program experiments

`seeded/LOG.jsonl` has one line per experiment: the definition edited, the edit, the claim it breaks, the theorems that stopped proving
and the theorems that were added or tightened because the edit went unnoticed at first (`failed` empty).
