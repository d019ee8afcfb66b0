{
 "claims": [
  {
   "property": "C01",
   "status": "proved",
   "theorems": [
    "Imfit.C01_mask_accepted",
    "Imfit.C01_unknown_mask_code",
    "Imfit.C01_valid_after_setup"
   ],
   "note": "Exact arithmetic (XR), all image sizes and special values."
  },
  {
   "property": "C02",
   "status": "proved",
   "theorems": [
    "Imfit.C02_chi2_ignores_masked"
   ],
   "note": "Two-run theorem, every model image including non-finite ones."
  },
  {
   "property": "C03",
   "status": "partial",
   "theorems": [
    "Imfit.C03_cash_ignores_masked",
    "Imfit.C03_poissonMLR_ignores_masked_partial",
    "Imfit.C03_poissonMLR_nan",
    "Imfit.C03_poissonMLR_masked_false"
   ],
   "note": "Full for the Cash statistic. Poisson-MLR: false when masked data are NaN/+inf (C03_poissonMLR_masked_false); partial theorem for other masked values."
  },
  {
   "property": "C04",
   "status": "proved",
   "theorems": [
    "Imfit.C04_success_iff",
    "Imfit.C04_success_usable"
   ],
   "note": "Exact arithmetic."
  },
  {
   "property": "C05",
   "status": "partial",
   "theorems": [
    "Imfit.C05_chi2_partial",
    "Imfit.C05_modelErrors_false"
   ],
   "note": "Exact arithmetic; full for data/user errors under the norm-routine band hypothesis (C05_chi2_partial); with model-based errors a non-positive model variance gives NaN (C05_modelErrors_false)."
  },
  {
   "property": "C06",
   "status": "partial",
   "theorems": [
    "Imfit.C06_poissonMLR_partial",
    "Imfit.C06_false"
   ],
   "note": "Proved for data >= 0 and model > 0; for model <= 0 the statistic can be negative (C06_false)."
  },
  {
   "property": "C07",
   "status": "proved",
   "theorems": [
    "Imfit.C07_conventions",
    "Imfit.C07_exported_weights",
    "Imfit.C07_generated"
   ],
   "note": "Exact arithmetic; the three conventions give identical weights, generated errors included."
  },
  {
   "property": "C08",
   "status": "proved",
   "theorems": [
    "Imfit.C08_coordinates",
    "Imfit.C08_deviates",
    "Imfit.C08_only_paired_pixels",
    "Imfit.C08_evaluated_at_own_coordinate"
   ],
   "note": "Exact arithmetic, all sizes including padding for convolution."
  },
  {
   "property": "C09",
   "status": "proved",
   "theorems": [
    "Imfit.C09_outputs",
    "Imfit.C09_null_before_model"
   ],
   "note": "All request sequences, every arithmetic where possible. Requests for single-function images count as a new computation, see C12."
  },
  {
   "property": "C10",
   "status": "proved",
   "theorems": [
    "Imfit.C10_sum",
    "Imfit.C10_kahan"
   ],
   "note": "Exact arithmetic (XR, finite function values); convolution assumed additive on finite images (this is what C15 supplies); each image computed from the same starting state (see C12 for what state does). C10_kahan: the compensated sum equals the plain sum in exact arithmetic."
  },
  {
   "property": "C11",
   "status": "partial",
   "theorems": [
    "Imfit.C11_line_of_sight_partial",
    "Imfit.C11_single_thread_partial",
    "Imfit.C11_shared_integrand_false",
    "Imfit.C11_pass",
    "Imfit.C11_no_fault",
    "Imfit.C11_ends",
    "Imfit.C11_model_image",
    "Imfit.C11_single_image"
   ],
   "note": "Every arithmetic (any FP), any number of threads, any chunk size, any interleaving of single steps, for the function objects that are only read; sequentially consistent memory. The seven three-dimensional functions write the address of a stack array into the shared object: C11_shared_integrand_false gives a wrong pixel and an access to a dead array with two threads; C11_line_of_sight_partial covers schedules with at most one thread inside such a function, C11_single_thread_partial one thread. The shared GSL accelerator inside the PSF interpolator is outside the model (DESIGN.md)."
  },
  {
   "property": "C12",
   "status": "partial",
   "theorems": [
    "Imfit.C12_history_partial",
    "Imfit.C12_settled_partial",
    "Imfit.C12_false"
   ],
   "note": "False with point sources and oversampled regions: the point-source oversampling scale is left at the region's value (C12_false). Holds without point sources, or once the state has settled (partial theorems)."
  },
  {
   "property": "C13",
   "status": "proved",
   "theorems": [
    "Imfit.C13_layout",
    "Imfit.C13_every_vector",
    "Imfit.C13_unique"
   ],
   "note": "Every parameter type; layout described by a separate structured value list."
  },
  {
   "property": "C14",
   "status": "proved",
   "theorems": [
    "Imfit.C14_flags",
    "Imfit.C14_names",
    "Imfit.C14_header",
    "Imfit.C14_dump",
    "Imfit.C14_offsets"
   ],
   "note": "Every layout; addition of the offset kept symbolic."
  },
  {
   "property": "C15",
   "status": "proved",
   "theorems": [
    "Imfit.C15_convolution",
    "Imfit.C15_linear"
   ],
   "note": "Exact arithmetic; FFTW's r2c/c2r transforms are modelled by their documented contract (the exact two-dimensional DFT and its unnormalised inverse). Proved for every image and PSF size, padding, wrap-around and the linearity used by C10."
  },
  {
   "property": "C16",
   "status": "proved",
   "theorems": [
    "Imfit.C16_normalize",
    "Imfit.C16_add",
    "Imfit.C16_bad_pixel",
    "Imfit.C16_convolver",
    "Imfit.C16_flux"
   ],
   "note": "Exact arithmetic (Kahan sum of finite values). C16_bad_pixel: what a non-finite PSF pixel or zero sum leads to."
  },
  {
   "property": "C17",
   "status": "partial",
   "theorems": [
    "Imfit.C17_downsample_partial",
    "Imfit.C17_square",
    "Imfit.C17_wide_false",
    "Imfit.C17_tall_false",
    "Imfit.C17_memory_false"
   ],
   "note": "False for non-square regions (C17_wide_false, C17_tall_false) and out-of-bounds write (C17_memory_false); full statement when the row count computed from columns is right, e.g. square regions with square PSF (C17_square)."
  },
  {
   "property": "C18",
   "status": "proved",
   "theorems": [
    "Imfit.C18_points",
    "Imfit.C18_centred",
    "Imfit.C18_grid"
   ],
   "note": "Exact arithmetic."
  },
  {
   "property": "C19",
   "status": "partial",
   "theorems": [
    "Imfit.C19_clip_partial",
    "Imfit.C19_one_pixel_false",
    "Imfit.C19_offset"
   ],
   "note": "True for regions at least two pixels wide and high after clipping; one-pixel-wide regions abort (C19_one_pixel_false)."
  },
  {
   "property": "C20",
   "status": "proved",
   "theorems": [
    "Imfit.C20_sample",
    "Imfit.C20_no_fault",
    "Imfit.C20_terminates",
    "Imfit.C20_diverges",
    "Imfit.C20_every_pixel_reachable",
    "Imfit.C20_after_setup"
   ],
   "note": "Random numbers are an arbitrary stream (the generator itself is C23). Never ends when no pixel has positive weight (C20_diverges)."
  },
  {
   "property": "C21",
   "status": "partial",
   "theorems": [
    "Imfit.C21_collect",
    "Imfit.C21_collect_flat",
    "Imfit.C21_reported",
    "Imfit.C21_partial",
    "Imfit.C21_count_fix",
    "Imfit.C21_false",
    "Imfit.C21_multi_labels_false",
    "Imfit.C21_multi_single_false",
    "Imfit.C21_multi_repeats_false"
   ],
   "note": "False of the code when some fits fail (C21_false: zero padding enters the statistics because the requested instead of the successful number of iterations is passed on). Proved: collection of results for every success pattern, what is reported for every pattern, correctness when all succeed, and that passing the returned count fixes it. The multi-image summary reads past the label array for 3 or more images, starts at index -1 for one image and repeats a line for two images."
  },
  {
   "property": "C22",
   "status": "proved",
   "theorems": [
    "Imfit.C22_mean",
    "Imfit.C22_stddev",
    "Imfit.C22_stddev_shift",
    "Imfit.C22_single_value",
    "Imfit.C22_interval",
    "Imfit.C22_coverage",
    "Imfit.C22_empty"
   ],
   "note": "Exact arithmetic, finite samples. The unbiased variance is undefined for one value (the code returns NaN there, C22_single_value) and the interval function reads out of bounds for an empty sample (C22_empty); everything else holds for every length. Also proved: the interval covers at least 68.3 % and is not wider than needed."
  },
  {
   "property": "C23",
   "status": "proved",
   "theorems": [
    "Imfit.C23_stream",
    "Imfit.C23_unseeded",
    "Imfit.C23_stream_key",
    "Imfit.C23_empty_key",
    "Imfit.C23_int32_range",
    "Imfit.C23_int31_range",
    "Imfit.C23_real1",
    "Imfit.C23_real2",
    "Imfit.C23_real3",
    "Imfit.C23_res53"
   ],
   "note": "All of core/mersenne_twister.cpp: init_genrand, init_by_array and genrand_int32 give the stream of a separate specification of MT19937 (recurrence on an infinite sequence); ranges of all derived generators, the floating-point ones in a model of rounding to nearest double. An empty key array reads outside the array (shown)."
  },
  {
   "property": "C24",
   "status": "partial",
   "theorems": [
    "Imfit.C24_solve_partial",
    "Imfit.C24_fit_partial",
    "Imfit.C24_limits_required",
    "Imfit.C24_limits_false",
    "Imfit.C24_fixed_false"
   ],
   "note": "Evaluated vectors: full statement, every strategy, exact arithmetic. Returned vector: if some evaluation gave less than 1e20; false otherwise (zeros returned), and false if all parameters are fixed (they are overwritten with zeros). Rounding errors of the repair step are not covered."
  },
  {
   "property": "C25",
   "status": "partial",
   "theorems": [
    "Imfit.C25_solve_partial",
    "Imfit.C25_fit_partial",
    "Imfit.C25_false"
   ],
   "note": "Monotone best energy and optimality among evaluated vectors: full statement for every arithmetic with ordered comparisons. Reported energy = statistic of returned vector: if some evaluation gave less than 1e20; false otherwise."
  },
  {
   "property": "C26",
   "status": "partial",
   "theorems": [
    "Imfit.C26_partners",
    "Imfit.C26_index",
    "Imfit.C26_solve_partial",
    "Imfit.C26_runs_partial",
    "Imfit.C26_false"
   ],
   "note": "Partners pairwise distinct: every stream. Indices exist for every stream without the draw 2^32-1; false with it (genrand_real1 includes 1): read outside the population shown."
  },
  {
   "property": "C27",
   "status": "partial",
   "theorems": [
    "Imfit.C27_step",
    "Imfit.C27_fixed",
    "Imfit.C27_reject",
    "Imfit.C27_partial",
    "Imfit.C27_false",
    "Imfit.C27_direction_false"
   ],
   "note": "mpfit and mp_fdjac2 with arbitrary results of the linear algebra. Fixed parameters and rejection of bad start values: every arithmetic, full statement. Limits: exact arithmetic, finite search directions; derivative points only if the limits are further apart than twice the finite difference (false otherwise, shown). Missing: rounding in the limit step, directions that are not finite (trial point is NaN, shown). C27_step: steps that end clear of the limits are taken in full, and a component that would leave a limit is dropped without shortening the others."
  },
  {
   "property": "C28",
   "status": "partial",
   "theorems": [
    "Imfit.C28_partial",
    "Imfit.C28_squares_partial",
    "Imfit.C28_reported_partial",
    "Imfit.C28_reported_last_partial",
    "Imfit.C28_false",
    "Imfit.C28_nan_false"
   ],
   "note": "Never worse: every objective and every result of the linear algebra, exact arithmetic with infinities and NaN. Reported value: the statistic of the returned vector or of the last trial vector; false in general (bestnorm is the larger of the two norms, shown; zero after a non-finite Jacobian, shown). Missing: rounding."
  },
  {
   "property": "C29",
   "status": "partial",
   "theorems": [
    "Imfit.C29_add",
    "Imfit.C29_split",
    "Imfit.C29_split_partial",
    "Imfit.C29_false",
    "Imfit.C29_pieces",
    "Imfit.C29_extra",
    "Imfit.C29_maximal"
   ],
   "note": "The pieces are exactly the maximal delimiter-free runs, in order. Missing: SplitString itself returns the whole string, delimiters included, when no delimiter follows a non-delimiter (C29_false); SplitStringAdd has no such exception."
  },
  {
   "property": "C30",
   "status": "partial",
   "theorems": [
    "Imfit.C30_chop",
    "Imfit.C30_chop_idempotent",
    "Imfit.C30_trim",
    "Imfit.C30_trim_partial",
    "Imfit.C30_trim_spec",
    "Imfit.C30_trim_idempotent",
    "Imfit.C30_false"
   ],
   "note": "ChopComment is proved in full. TrimWhitespace is proved except that a string whose trimmed text is one character is cleared (C30_false)."
  },
  {
   "property": "C31",
   "status": "partial",
   "theorems": [
    "Imfit.C31_counts",
    "Imfit.C31_limits",
    "Imfit.C31_limits_exact",
    "Imfit.C31_sets_partial",
    "Imfit.C31_false"
   ],
   "note": "Counts of names, labels, optional maps, limit records and the limit ordering hold for every accepted file (C31_counts, C31_limits, C31_limits_exact). Missing: the function-set start indices are only increasing/non-empty for files whose section is tidy (C31_sets_partial); C31_false gives accepted files with repeated or empty sets."
  },
  {
   "property": "C32",
   "status": "partial",
   "theorems": [
    "Imfit.C32_only_oob",
    "Imfit.C32_vet",
    "Imfit.C32_false",
    "Imfit.C32_safe_partial"
   ],
   "note": "Every outcome is acceptance, an error code or an out-of-range read (C32_only_oob); vetting never fails (C32_vet). Missing: the parse itself reads out of range on malformed files (C32_false, five files); C32_safe_partial gives a condition on lines under which it does not."
  },
  {
   "property": "C33",
   "status": "partial",
   "theorems": [
    "Imfit.C33_insert",
    "Imfit.C33_pad",
    "Imfit.C33_trailing_partial",
    "Imfit.C33_false"
   ],
   "note": "Inserted comment/blank lines and padding never matter (C33_insert, C33_pad). Missing: trailing comments are proved harmless only when they contain no keyword, the line is not a single character and not an already labelled function line (C33_trailing_partial); C33_false shows each exclusion is needed."
  },
  {
   "property": "C34",
   "status": "partial",
   "theorems": [
    "Imfit.C34_partial",
    "Imfit.C34_false"
   ],
   "note": "Saved parameter files are read back with the same functions, labels, sets, optional parameters and the printed values, for models satisfying Printable (names and labels of the kind configuration files can give; no keyword inside names) and with every formatted piece shorter than 1024 characters. Assumption on printf/strtod: NumFmt.OK. C34_false: a label of one character is lost, a label containing X0 makes the file unreadable. An example shows that Printable holds for a model with X0, Y0 and named parameters; C124 shows it for all models of the standard functions."
  },
  {
   "property": "C35",
   "status": "partial",
   "theorems": [
    "Imfit.C35_no_section",
    "Imfit.C35_section",
    "Imfit.C35_extension_section",
    "Imfit.C35_total",
    "Imfit.C35_malformed_false",
    "Imfit.C35_malformed_reported",
    "Imfit.C35_region",
    "Imfit.C35_region_false"
   ],
   "note": "Offsets of every well-formed section, with or without extension group, and absence of out-of-range accesses for every name are proved. Missing: not all malformed sections are reported (C35_malformed_false), atoi overflow is undefined, and GetAllCoordsFromBracket reads out of range or throws on malformed text (C35_region_false)."
  },
  {
   "property": "C36",
   "status": "partial",
   "theorems": [
    "Imfit.C36_partial",
    "Imfit.C36_safe",
    "Imfit.C36_false"
   ],
   "note": "Command lines whose arguments are Plain (no = inside option values, no empty value) are interpreted as declared. C36_safe: no out-of-bounds access on any command line. C36_false: a=b=c, an empty value, --=sky=3, and a null pointer returned for an unknown option."
  },
  {
   "property": "C37",
   "status": "partial",
   "theorems": [
    "Imfit.C37_sizes_false",
    "Imfit.C37_assembly",
    "Imfit.C37_description",
    "Imfit.C37_similarity",
    "Imfit.C37_distances",
    "Imfit.C37_invertible",
    "Imfit.C37_identity",
    "Imfit.C37_nonpositive_scale",
    "Imfit.C37_counts",
    "Imfit.C37_uninitialised_false"
   ],
   "note": "Proved for every arithmetic: generalSetup and assemble give each image the global parameters in place, its own positions and its own local parameters (C37_assembly); with exact arithmetic the positions are the similarity (turn, scale, shift) of the reference positions, distances scale by the pixel scale, the map is invertible, and scale 1 / rotation 0 / same position is the identity. C37_nonpositive_scale: a non-positive scale is reported by CalculateOffset_X0Y0 but the status is ignored and the wrong position 0,0 used. C37_uninitialised_false: nPerImageParams is used without being initialised. C37_sizes_false: positions are multiplied by the pixel scale of an image while SetImageParameters divides sizes by it. C37_description: the description used for the functions of an image is that of the image."
  },
  {
   "property": "C38",
   "status": "partial",
   "theorems": [
    "Imfit.C38_statistic",
    "Imfit.C38_statistic_sum",
    "Imfit.C38_valid_pixels",
    "Imfit.C38_data_values",
    "Imfit.C38_deviates",
    "Imfit.C38_bootstrap_partial",
    "Imfit.C38_bootstrap_overrun",
    "Imfit.C38_bootstrap_samples",
    "Imfit.C38_bootstrap_false"
   ],
   "note": "Proved for every arithmetic: the statistic is the sum of the single-image statistics (C38_statistic; exact: C38_statistic_sum), valid pixels and data values add up, in normal mode the deviates are the concatenation of the per-image deviates (C38_deviates), each image gets its own bootstrap sample (C38_bootstrap_samples). Missing: in bootstrap mode the claim is false with masked pixels (C38_bootstrap_overrun, C38_bootstrap_false: write beyond the end of the array); it holds without masked pixels (C38_bootstrap_partial)."
  },
  {
   "property": "C39",
   "status": "partial",
   "theorems": [
    "Imfit.C39_exact_partial",
    "Imfit.C39_bounds_partial",
    "Imfit.C39_order",
    "Imfit.C39_false"
   ],
   "note": "Exact when no entry is outside the dwarf/giant bands; bounds in general; the code drops dwarfs when giants are present (C39_false)."
  },
  {
   "property": "C40",
   "status": "partial",
   "theorems": [
    "Imfit.C40_outside",
    "Imfit.C40_bicubic",
    "Imfit.C40_interpolates_possible",
    "Imfit.C40_linear",
    "Imfit.C40_in_bounds_partial",
    "Imfit.C40_overrun_false",
    "Imfit.C40_lanczos_pixel_partial",
    "Imfit.C40_transposed_partial",
    "Imfit.C40_symmetric_partial",
    "Imfit.C40_transposed_false",
    "Imfit.C40_one_column_false"
   ],
   "note": "Exact arithmetic; GSL's bicubic interpolation by its contract (Spec.Interpolates). Proved: zero outside the PSF (C40_outside), bicubic reproduces the PSF at pixel centres, untransposed and scaled by the intensity (C40_bicubic; the contract is satisfiable), linear in the PSF and in the flux (C40_linear), Lanczos in bounds for square PSFs and for evaluation points away from the overrun (C40_in_bounds_partial), Lanczos reproduces the TRANSPOSED image at pixel centres (C40_transposed_partial), hence the image for symmetric PSFs (C40_symmetric_partial). False: orientation for Lanczos (C40_transposed_false); reads outside the PSF array for non-square PSFs (C40_overrun_false, C40_one_column_false)."
  },
  {
   "property": "C41",
   "status": "partial",
   "theorems": [
    "Imfit.C41_symmetric",
    "Imfit.C41_linear",
    "Imfit.C41_decreasing",
    "Imfit.C41_bounded_partial",
    "Imfit.C41_amplitude_centre",
    "Imfit.C41_amplitude_sersic",
    "Imfit.C41_moffat_half",
    "Imfit.C41_flat_sky",
    "Imfit.C41_sersic_index_false",
    "Imfit.C41_maximum_false"
   ],
   "note": "Exponential, Gaussian, Sersic, Moffat and FlatSky, exact arithmetic, parameters at any offset, any image description: point symmetry (C41_symmetric, with and without sub-sampling), linearity in the amplitude (C41_linear), no increase outward without sub-sampling (C41_decreasing), values bounded by the central intensity with sub-sampling (C41_bounded_partial), amplitude at the documented place (C41_amplitude_centre, C41_amplitude_sersic, C41_moffat_half), constant sky. False: with sub-sampling the central pixel need not be brightest (C41_maximum_false), and for Sersic index 0.045 the approximation to b_n is negative so the profile increases outward (C41_sersic_index_false)."
  },
  {
   "property": "C42",
   "status": "partial",
   "theorems": [
    "Imfit.C42_mean_partial",
    "Imfit.C42_central",
    "Imfit.C42_grid_inside",
    "Imfit.C42_grid_regular",
    "Imfit.C42_grid_mean",
    "Imfit.C42_mean_linear",
    "Imfit.C42_tiny_scale_false"
   ],
   "note": "Exact arithmetic, four functions: value = mean of the documented profile over an n x n grid with 1<=n<=100 (C42_mean_partial), grid strictly inside the pixel, regular, with mean the centre, n=1 without sub-sampling and for r >= 10. Missing: scale lengths below 1e-7, where (int)(40/scale) overflows int (C42_tiny_scale_false)."
  },
  {
   "property": "C43",
   "status": "proved",
   "theorems": [
    "Imfit.C43_aic",
    "Imfit.C43_aic_degenerate",
    "Imfit.C43_bic",
    "Imfit.C43_aic_increases",
    "Imfit.C43_bic_increases",
    "Imfit.C43_aic_monotone",
    "Imfit.C43_ranking"
   ],
   "note": "Exact arithmetic. The AIC formula holds for n different from k+1; at n = k+1 the correction is +infinity (C43_aic_degenerate)."
  },
  {
   "property": "C44",
   "status": "partial",
   "theorems": [
    "Imfit.C44_partial",
    "Imfit.C44_cut",
    "Imfit.C44_reuse",
    "Imfit.C44_false"
   ],
   "note": "Formatting returns the text for texts shorter than 1024 characters, or longer ones without arguments other than length 1024. C44_cut: a text of length 1024 loses its last character. C44_reuse: longer texts with arguments use a va_list twice. C44_false records the witnesses."
  },
  {
   "property": "C45",
   "status": "partial",
   "theorems": [
    "Imfit.C45_described",
    "Imfit.C45_fixed_unless_limits_partial",
    "Imfit.C45_proper",
    "Imfit.C45_layout",
    "Imfit.C45_refused",
    "Imfit.C45_safe_partial",
    "Imfit.C45_omitted_false",
    "Imfit.C45_bad_limits_false",
    "Imfit.C45_comment_false",
    "Imfit.C45_overrun_false",
    "Imfit.C45_functions_false",
    "Imfit.C45_flag_false",
    "Imfit.C45_line_number_false",
    "Imfit.C45_items"
   ],
   "note": "Proved for every accepted file: number of images, and value and limits of each parameter from the last line about it in its block, or its default (C45_described); layout of the parameter vector (C45_layout); exactly which files are refused (C45_refused); no access outside a vector when commas are in place and there are no per-image functions (C45_safe_partial); pixel scale and rotation fixed or with sensible limits when their line is present (C45_fixed_unless_limits_partial). False: both are free when the line is left out (C45_omitted_false); position and flux scale accept any limits (C45_bad_limits_false); comments are read as limits (C45_comment_false); misplaced commas overrun (C45_overrun_false); per-image functions can get fewer limit records than parameters (C45_functions_false); flags on their own line are refused (C45_flag_false); reported line numbers are an uninitialised variable (C45_line_number_false). C45_items: every other piece of information (gain, noise, size, file names, flags, oversampled regions) is what the last line about it says, or the default."
  },
  {
   "property": "C46",
   "status": "partial",
   "theorems": [
    "Imfit.C46_bounds_partial",
    "Imfit.C46_count",
    "Imfit.C46_first_run_partial",
    "Imfit.C46_runs",
    "Imfit.C46_stops",
    "Imfit.C46_respects_partial",
    "Imfit.C46_contract_possible",
    "Imfit.C46_one_sided_false",
    "Imfit.C46_count_false",
    "Imfit.C46_names"
   ],
   "note": "NLopt by contract (returns a point inside the bounds handed over, possibly after any number of calls; satisfiable). Proved: fixed, two-sided and unlimited parameters are handed over exactly (C46_bounds_partial), results respect them (C46_respects_partial), number of calls and stopping by code (C46_count, C46_runs, C46_stops), accepted solver names (C46_names). False: one-sided limits are dropped (C46_one_sided_false); the reported number of calls accumulates over runs in one process (C46_count_false)."
  },
  {
   "property": "C47",
   "status": "partial",
   "theorems": [
    "Imfit.C47_mask_code_partial",
    "Imfit.C47_addMask_code",
    "Imfit.C47_error_code_false"
   ],
   "note": "True for mask codes, false for error-image codes (C47_error_code_false)."
  },
  {
   "property": "C48",
   "status": "partial",
   "theorems": [
    "Imfit.C48_repeat_partial",
    "Imfit.C48_false"
   ],
   "note": "True unless Poisson-MLR is used with non-finite masked data (C48_false)."
  },
  {
   "property": "C49",
   "status": "partial",
   "theorems": [
    "Imfit.C49_reported",
    "Imfit.C49_partial",
    "Imfit.C49_false"
   ],
   "note": "False for image sections: the plus/minus errors are off by the section offset (C49_reported, C49_false). True for whole images (C49_partial)."
  },
  {
   "property": "C50",
   "status": "proved",
   "theorems": [
    "Imfit.C50_psf_sum",
    "Imfit.C50_pixel_sum",
    "Imfit.C50_point_sum"
   ],
   "note": "Proved for addition with any rounding; the other operations are exact there."
  },
  {
   "property": "C51",
   "status": "partial",
   "theorems": [
    "Imfit.C51_count",
    "Imfit.C51_max_partial",
    "Imfit.C51_false"
   ],
   "note": "The stored number of evaluations is exact when all generations are done; short by one population when the solver converges or is stopped (shown)."
  },
  {
   "property": "C52",
   "status": "partial",
   "theorems": [
    "Imfit.C52_rot_value",
    "Imfit.C52_rot_plain",
    "Imfit.C52_rot_zero_false",
    "Imfit.C52_rot_words_partial",
    "Imfit.C52_rot_null_false",
    "Imfit.C52_rot_lanczos3_false",
    "Imfit.C52_oversampled_false",
    "Imfit.C52_oversampled_null_false",
    "Imfit.C52_words",
    "Imfit.C52_refused",
    "Imfit.C52_first",
    "Imfit.C52_same_partial",
    "Imfit.C52_method_false"
   ],
   "note": "Proved: words accepted and refused (C52_words, C52_refused), the first point source's method is used (C52_first), correct when all agree (C52_same_partial); value of the turned point source (C52_rot_value, C52_rot_plain, C52_rot_words_partial). False for mixtures: the interpolator of the first point source is shared by all (C52_method_false); PointSourceRot: Bicubic and Lanczos2 lead to a null pointer (C52_rot_null_false), lanczos3 is refused (C52_rot_lanczos3_false), position angle 0 turns the PSF by 90 degrees (C52_rot_zero_false); regions always use bicubic interpolation (C52_oversampled_false), or a null pointer for small PSFs (C52_oversampled_null_false)."
  },
  {
   "property": "C53",
   "status": "partial",
   "theorems": [
    "Imfit.C53_same_object",
    "Imfit.C53_cusps_partial",
    "Imfit.C53_ignored_false",
    "Imfit.C53_flatBar_false",
    "Imfit.C53_edgeDisk_false",
    "Imfit.C53_nuker_false",
    "Imfit.C53_tiltedSky_false",
    "Imfit.C53_elliptical",
    "Imfit.C53_line_of_sight_partial",
    "Imfit.C53_depth_false",
    "Imfit.C53_triax_false"
   ],
   "note": "Proved for the nine elliptical functions of C41 (C53_elliptical) and eleven further functions (C53_same_object) at the pixel centre (no sub-sampling). Partial for Nuker and CoreSersic: only outside the 0.001-pixel core, and false at the centre (C53_cusps_partial, C53_nuker_false). False for DoubleBrokenExponential, FlatExponential and BrokenExponentialBar, which ignore the description (C53_ignored_false); for FlatBar, whose intensity is multiplied by the pixel scaling (C53_flatBar_false); for EdgeOnDisk, whose luminosity density is not divided by the pixel scale (C53_edgeDisk_false); for TiltedSkyPlane (C53_tiltedSky_false). Equality with sub-sampling is not covered: the sub-sampling factor depends on the distance in pixels. Three-dimensional functions: an extra factor 1/pixel size (C53_line_of_sight_partial, C53_depth_false); TriaxBar3D ignores the description (C53_triax_false); BPBar3D is not covered."
  },
  {
   "property": "C54",
   "status": "partial",
   "theorems": [
    "Imfit.C54_guard",
    "Imfit.C54_flatExp_false"
   ],
   "note": "Proved for the guarded functions modelled (C54_guard): the documented profile is the value times exp(e) with |e| at most the stated multiple of exp(-100); the value is always finite. False for FlatExponential (C54_flatExp_false): beyond the guard the factor exp(r_b/h) is missing, for all parameters; in the witness the profile drops by more than a factor 22000 at one point. Exact arithmetic."
  },
  {
   "property": "C55",
   "status": "partial",
   "theorems": [
    "Imfit.C55_symmetric",
    "Imfit.C55_mirror",
    "Imfit.C55_linear",
    "Imfit.C55_edgeRing2_false",
    "Imfit.C55_nonneg"
   ],
   "note": "Proved in exact arithmetic for all functions of Model/Plane.lean: point symmetry (C55_symmetric), mirror symmetry without sub-sampling (C55_mirror), linearity in the intensity (C55_linear, including sub-sampling and error cases), sign (C55_nonneg). False for the two-sided edge-on ring with a negative radius (C55_edgeRing2_false). TiltedSkyPlane has no such symmetry and is not covered."
  },
  {
   "property": "C56",
   "status": "partial",
   "theorems": [
    "Imfit.C56_mean_partial",
    "Imfit.C56_edgeDisk_false"
   ],
   "note": "Exact arithmetic. Partial: the scale lengths that are divisors must be at least 1e-7 pixel (C56_mean_partial). False without that: for EdgeOnDisk with a tiny scale height the number of sub-samples overflows int far from the plane (C56_edgeDisk_false); see also C42."
  },
  {
   "property": "C57",
   "status": "partial",
   "theorems": [
    "Imfit.C57_settled",
    "Imfit.C57_fit",
    "Imfit.C57_constant",
    "Imfit.C57_zero",
    "Imfit.C57_perfect_false"
   ],
   "note": "C57_settled: exact characterisation of the three outcomes of Solve, every number type. C57_fit: for DiffEvolnFit. C57_constant: a constant objective other than zero stops at generation 40. False for a perfect fit (C57_zero, C57_perfect_false): with best value 0 the relative change is 0/0 and convergence is never reported."
  },
  {
   "property": "C58",
   "status": "proved",
   "theorems": [
    "Imfit.C58_limits",
    "Imfit.C58_finite"
   ],
   "note": "Whole-run invariant of the DREAM sampler for any number type satisfying the comparison laws CmpLaws, any random stream satisfying GoodRng (ranges and permutations as documented by GSL). The finite version is for exact arithmetic."
  },
  {
   "property": "C59",
   "status": "partial",
   "theorems": [
    "Imfit.C59_faults_partial",
    "Imfit.C59_returns",
    "Imfit.C59_single_false",
    "Imfit.C59_default_false",
    "Imfit.C59_stuck_false"
   ],
   "note": "Partial: with at least two chains the only failure is an endless search for initial positions; if the likelihood is always a number the run returns. False for one chain, which is the default with one free parameter (abort in gsl_rng_uniform_int), and for a likelihood that is nowhere a number (endless loop)."
  },
  {
   "property": "C60",
   "status": "partial",
   "theorems": [
    "Imfit.C60_all_written",
    "Imfit.C60_written_partial",
    "Imfit.C60_last_false"
   ],
   "note": "Partial: a run that uses all generations writes all of them. A run that ends by convergence does not write its last generation (witness)."
  },
  {
   "property": "C61",
   "status": "proved",
   "theorems": [
    "Imfit.C61_rule",
    "Imfit.C61_probability",
    "Imfit.C61_balance",
    "Imfit.C61_reject",
    "Imfit.C61_step",
    "Imfit.C61_number"
   ],
   "note": "Rule and probability in exact arithmetic (probability as Lebesgue measure of the accepted uniform numbers); detailed balance of the acceptance probabilities; the step and the absence of NaN positions for every number type."
  },
  {
   "property": "C62",
   "status": "partial",
   "theorems": [
    "Imfit.C62_pairs",
    "Imfit.C62_three",
    "Imfit.C62_two_false",
    "Imfit.C62_symmetric_false"
   ],
   "note": "Partial: the pair consists of different other chains from three chains on, and is symmetric for three. False for two chains (the second chain always gets difference zero) and the symmetry is false from four chains on."
  },
  {
   "property": "C63",
   "status": "partial",
   "theorems": [
    "Imfit.C63_table",
    "Imfit.C63_update",
    "Imfit.C63_unused_false",
    "Imfit.C63_jumps"
   ],
   "note": "Partial: the table and the update as published. If a crossover value has not been used when the probabilities are updated they become NaN (witness). The credited distances are those of the accepted moves in units of the scatter between chains (C63_jumps)."
  },
  {
   "property": "C64",
   "status": "proved",
   "theorems": [
    "Imfit.C64_latin"
   ],
   "note": "Exact arithmetic; permutations from GSL as parameter (any permutation)."
  },
  {
   "property": "C65",
   "status": "partial",
   "theorems": [
    "Imfit.C65_restored",
    "Imfit.C65_resume_partial",
    "Imfit.C65_interrupted_false",
    "Imfit.C65_offset_false",
    "Imfit.C65_burnin_false"
   ],
   "note": "Partial: proved for files with the same number of lines for every chain, zero offset and the same burn-in. False for a run interrupted while writing a generation (uninitialised positions are used), for image sections not starting at pixel 1 (offset added twice), and for a longer burn-in on resuming (negative array length)."
  },
  {
   "property": "C66",
   "status": "partial",
   "theorems": [
    "Imfit.C66_textbook",
    "Imfit.C66_converged_partial",
    "Imfit.C66_stuck_false"
   ],
   "note": "Partial: the formula is the textbook one (exact arithmetic, GSL mean and variance as documented) and convergence bounds the variance of the chain means for every parameter that varies within the chains. False for chains that do not move: the number is then 1 wherever they are."
  },
  {
   "property": "C67",
   "status": "partial",
   "theorems": [
    "Imfit.C67_count",
    "Imfit.C67_few",
    "Imfit.C67_moved",
    "Imfit.C67_noburnin_false"
   ],
   "note": "Partial: which chains are moved and where, at most (n-1)/4+1 of n chains, none of fewer than four. Without burn-in the move happens in the part of the run that is used (witness)."
  },
  {
   "property": "C68",
   "status": "proved",
   "theorems": [
    "Imfit.C68_proposal",
    "Imfit.C68_crossover"
   ],
   "note": "Formula in exact arithmetic for every free parameter and any draws; the crossover probability is the Lebesgue measure of the uniform numbers that leave a parameter alone."
  },
  {
   "property": "C69",
   "status": "proved",
   "theorems": [
    "Imfit.C69_flux",
    "Imfit.C69_constant"
   ],
   "note": "Exact arithmetic; gsl_sf_gamma by its contract for arguments up to 171. Integrability is part of the statement. C69_constant: error from the constant at most 1.1e-15 relative."
  },
  {
   "property": "C70",
   "status": "partial",
   "theorems": [
    "Imfit.C70_fluxes_partial",
    "Imfit.C70_fractions",
    "Imfit.C70_elliptical",
    "Imfit.C70_sky",
    "Imfit.C70_centre_false"
   ],
   "note": "Everything except the centring: components are centred at half the image size although pixel coordinates run from 1 (C70_centre_false), half a pixel off the centre. C70_elliptical and C70_sky: the modelled components satisfy the hypotheses."
  },
  {
   "property": "C71",
   "status": "partial",
   "theorems": [
    "Imfit.C71_qr_partial"
   ],
   "note": "Exact arithmetic, columns shorter than 1.304e19 / number of rows, where mp_enorm is exact (C39)."
  },
  {
   "property": "C72",
   "status": "partial",
   "theorems": [
    "Imfit.C72_step_partial"
   ],
   "note": "Same limits as C71. Not proved: length of the step when the damping parameter is not zero; the iteration is cut off after ten turns. Parameter zero implies a length of at most 1.1 times the bound."
  },
  {
   "property": "C73",
   "status": "partial",
   "theorems": [
    "Imfit.C73_predicted_partial",
    "Imfit.C73_limits_false"
   ],
   "note": "Without limits (C73_predicted_partial), for vectors for which mp_enorm is exact. With limits the shortening factor is applied twice: 1/16 is predicted instead of 3/4 in the example of C73_limits_false."
  },
  {
   "property": "C74",
   "status": "partial",
   "theorems": [
    "Imfit.C74_covariance_partial",
    "Imfit.C74_point_false"
   ],
   "note": "Same limits as C71. C74_point_false: a fit that ends right after a successful step reports the covariance for the Jacobian at the point before that step."
  },
  {
   "property": "C75",
   "status": "partial",
   "theorems": [
    "Imfit.C75_line_of_sight_partial",
    "Imfit.C75_documented",
    "Imfit.C75_ferrers_false",
    "Imfit.C75_peanut_false",
    "Imfit.C75_bpBar_false"
   ],
   "note": "All seven functions show the integral of a density given explicitly (C75_line_of_sight_partial), up to the tolerance of the integrator and relative errors below exp(-100) times parameter ratios from the overflow guards. It is the documented density for the two disks, the ring and TriaxBar3D (C75_documented). The bars of FerrersBar3D and PeanutBar (Dattathri) are turned by 90 degrees (C75_ferrers_false, C75_peanut_false); BPBar3D uses h_bp, r_bp_max, z_bp_max in another order than the labels (C75_bpBar_false). GSL is assumed to meet its tolerance; the code ignores its status."
  },
  {
   "property": "C76",
   "status": "partial",
   "theorems": [
    "Imfit.C76_ferrers",
    "Imfit.C76_expDisk_partial",
    "Imfit.C76_triax_partial",
    "Imfit.C76_small_bar_false",
    "Imfit.C76_thick_disk_false",
    "Imfit.C76_empty_range_false"
   ],
   "note": "Proved for FerrersBar3D (whole bar), with explicit bounds for thin exponential disks and TriaxBar3D. False for thick disks, small TriaxBar3D bars (range 4 sigma^2 in pixels), and rings or bars with a zero radius. Broken disks, the ring, the Dattathri bar and BPBar3D are not bounded."
  },
  {
   "property": "C77",
   "status": "proved",
   "theorems": [
    "Imfit.C77_point_symmetry",
    "Imfit.C77_linear",
    "Imfit.C77_nonneg",
    "Imfit.C77_face_on"
   ],
   "note": "Exact integrator (relative error 0)."
  },
  {
   "property": "C78",
   "status": "partial",
   "theorems": [
    "Imfit.C78_peak_partial",
    "Imfit.C78_unbounded_false"
   ],
   "note": "All functions but BPBar3D (C78_peak_partial; broken disk with break radius not negative); C78_unbounded_false for BPBar3D."
  },
  {
   "property": "C79",
   "status": "partial",
   "theorems": [
    "Imfit.C79_partial",
    "Imfit.C79_refused",
    "Imfit.C79_misplaced_false",
    "Imfit.C79_overrun_false"
   ],
   "note": "Proved for files in which every function has as many values as parameters (C79_partial, down to the parameters each function object receives in the set-up of the model), and refusal for wrong totals (C79_refused). Fails because only totals are compared: a surplus value becomes the first parameter of the next function (C79_misplaced_false). Accepted files with two X0/Y0 pairs before a function, or a pair after the last function, overrun arrays (C79_overrun_false)."
  },
  {
   "property": "C80",
   "status": "partial",
   "theorems": [
    "Imfit.C80_ownFunctions_partial",
    "Imfit.C80_limits",
    "Imfit.C80_partial",
    "Imfit.C80_uninitialised_false",
    "Imfit.C80_local_false",
    "Imfit.C80_optional_false",
    "Imfit.C80_overrun_false"
   ],
   "note": "Proved without functions of single images and for a counter nPerImageParams that is zero (C80_partial). The counter is uninitialised (C80_uninitialised_false). With parameters of single images no fit ever starts: the values of the configuration file are read past their end (C80_local_false, C80_overrun_false). Optional parameters are ignored, no vector is passed to the reader of the file (C80_optional_false). C80_ownFunctions_partial (one function per set) and C80_limits: models and limits with an image's own functions."
  },
  {
   "property": "C81",
   "status": "partial",
   "theorems": [
    "Imfit.C81_partial",
    "Imfit.C81_arms",
    "Imfit.C81_symmetry",
    "Imfit.C81_maximum",
    "Imfit.C81_continuous",
    "Imfit.C81_jump_false",
    "Imfit.C81_fraction_false",
    "Imfit.C81_centre"
   ],
   "note": "Proved for integer numbers of arms (C81_partial, C81_arms, C81_symmetry), with the maximum and continuity of the amplitudes (C81_maximum, C81_continuous). LogSpiral3 jumps at R_max for all parameters (C81_jump_false). With a number of arms that is not an integer an arm is broken at the jump of atan2 (C81_fraction_false)."
  },
  {
   "property": "C82",
   "status": "partial",
   "theorems": [
    "Imfit.C82_partial",
    "Imfit.C82_maximum",
    "Imfit.C82_negative_false"
   ],
   "note": "Proved for directions between 0 and 360 degrees (C82_partial, C82_maximum). For a negative angle the arc is not brightest in the given direction (C82_negative_false)."
  },
  {
   "property": "C83",
   "status": "partial",
   "theorems": [
    "Imfit.C83_own",
    "Imfit.C83_shared",
    "Imfit.C83_refused",
    "Imfit.C83_multi_partial",
    "Imfit.C83_section_false"
   ],
   "note": "Proved for one or several PSF images, and refusal of everything else (C83_own, C83_shared, C83_refused). multimfit and makemultimages agree for whole images (C83_multi_partial); with a section the position of the region is off by the offset of the section (C83_section_false)."
  },
  {
   "property": "C84",
   "status": "partial",
   "theorems": [
    "Imfit.C84_regions",
    "Imfit.C84_convolution",
    "Imfit.C84_partial",
    "Imfit.C84_flux_false",
    "Imfit.C84_shared_false",
    "Imfit.C84_switch_false",
    "Imfit.C84_zero_false"
   ],
   "note": "Proved for convolution (C84_convolution) and for PSF images that already sum to 1 (C84_partial). In the first region with an image, point sources are multiplied by its sum (C84_flux_false); later regions with the same image are right (C84_shared_false); --no-normalize has no effect on regions (C84_switch_false); a PSF of zero sum is accepted (C84_zero_false)."
  },
  {
   "property": "C85",
   "status": "proved",
   "theorems": [
    "Imfit.C85_value",
    "Imfit.C85_axes",
    "Imfit.C85_symmetry",
    "Imfit.C85_bounds",
    "Imfit.C85_constant"
   ],
   "note": "Proved: value in every image (C85_value), on the axes (C85_axes), half-turn symmetry (C85_symmetry), bounds (C85_bounds), agreement with GaussianRing (C85_constant)."
  },
  {
   "property": "C86",
   "status": "partial",
   "theorems": [
    "Imfit.C86_value",
    "Imfit.C86_partial",
    "Imfit.C86_minor_false",
    "Imfit.C86_scale_false"
   ],
   "note": "Exact value (C86_value); right on the major axis (C86_partial). Elsewhere the amplitude on the minor axis is multiplied by A_maj I_0 once more (C86_minor_false), so the component is not proportional to I_0 (C86_scale_false)."
  },
  {
   "property": "C87",
   "status": "partial",
   "theorems": [
    "Imfit.C87_partial",
    "Imfit.C87_shape",
    "Imfit.C87_same",
    "Imfit.C87_axes",
    "Imfit.C87_decreasing_partial",
    "Imfit.C87_rise_false",
    "Imfit.C87_equal_false",
    "Imfit.C87_reversed_false"
   ],
   "note": "Proved for r1 < r2 (C87_partial, C87_shape, C87_same, C87_axes) and decrease if the isophotes do not become boxier outwards (C87_decreasing_partial). Otherwise the intensity can rise outwards (C87_rise_false); r1 = r2 gives NaN on the ellipse (C87_equal_false); for r1 > r2 the shape jumps (C87_reversed_false)."
  },
  {
   "property": "C88",
   "status": "partial",
   "theorems": [
    "Imfit.C88_value",
    "Imfit.C88_words",
    "Imfit.C88_unknown",
    "Imfit.C88_misspelt_false",
    "Imfit.C88_flux_false"
   ],
   "note": "Proved: value (C88_value), accepted and refused values of floor (C88_words), other keys change nothing (C88_unknown). A misspelt key is not refused (C88_misspelt_false); the total flux lacks the floor (C88_flux_false)."
  },
  {
   "property": "C89",
   "status": "partial",
   "theorems": [
    "Imfit.C89_main",
    "Imfit.C89_region",
    "Imfit.C89_flux_partial",
    "Imfit.C89_flux_false"
   ],
   "note": "Proved for the main image (C89_main) and for scale 1 (C89_flux_partial). In a region the light is divided by the square of the oversampling scale (C89_region, C89_flux_false), since values per oversampled pixel are averaged like surface brightness. Regions for which the row count of C17 is wrong are excluded."
  },
  {
   "property": "C90",
   "status": "partial",
   "theorems": [
    "Imfit.C90_read_back_partial",
    "Imfit.C90_lost_false",
    "Imfit.C90_fixed_false",
    "Imfit.C90_offset_false",
    "Imfit.C90_combined_false",
    "Imfit.C90_scales_false"
   ],
   "note": "Proved: the file is written and read back without error and gives the names, PSFs, regions, numbers and fitted values (C90_read_back_partial), for images with NCOMBINED 1 and a scale for each oversampled PSF. Lost: mask convention, error type, functions of single images, limits (C90_lost_false); pixel scale and position angle come back fixed (C90_fixed_false); the positions lack the offset of the image section that is shown to the user (C90_offset_false); NCOMBINED other than 1 is printed with the wrong conversion (C90_combined_false); too few scales are read outside the vector (C90_scales_false)."
  },
  {
   "property": "C91",
   "status": "partial",
   "theorems": [
    "Imfit.C91_columns_partial",
    "Imfit.C91_one_image_false",
    "Imfit.C91_local_false"
   ],
   "note": "Proved for two images or more without functions of the first image alone (C91_columns_partial). One image: every row has one value too many (C91_one_image_false). Functions of the first image alone have titles but no values (C91_local_false)."
  },
  {
   "property": "C92",
   "status": "partial",
   "theorems": [
    "Imfit.C92_save",
    "Imfit.C92_round_trip",
    "Imfit.C92_float_false",
    "Imfit.C92_lost_false",
    "Imfit.C92_null",
    "Imfit.C92_short_false",
    "Imfit.C92_read_partial",
    "Imfit.C92_read_image",
    "Imfit.C92_read_other",
    "Imfit.C92_uninit_false",
    "Imfit.C92_leak_false",
    "Imfit.C92_large_false",
    "Imfit.C92_size_leak_false",
    "Imfit.C92_size"
   ],
   "note": "Proved: whatever fails, except in the two calls that set the type of a unit, the image is complete or refused (C92_read_partial); if nothing fails, images are read (C92_read_image) and everything else refused (C92_read_other); what is saved without failure is read back, in single precision (C92_save, C92_round_trip, C92_null). False: an unset type is looked at (C92_uninit_false); files left open (C92_leak_false, C92_size_leak_false); sides beyond int are cut (C92_large_false); values are rounded to single precision (C92_float_false); the old file is lost if the new one cannot be made (C92_lost_false); an array that is too short is read outside (C92_short_false)."
  },
  {
   "property": "C93",
   "status": "partial",
   "theorems": [
    "Imfit.C93_accept",
    "Imfit.C93_mask_error",
    "Imfit.C93_psf_partial",
    "Imfit.C93_psf_size_false"
   ],
   "note": "Proved for mask and errors if no call fails (C93_accept, C93_mask_error) and for the PSF (C93_psf_partial). A third opening that fails gives a PSF of size 0 by 0 with the status of success (C93_psf_size_false)."
  },
  {
   "property": "C94",
   "status": "partial",
   "theorems": [
    "Imfit.C94_quotient",
    "Imfit.C94_linear",
    "Imfit.C94_error",
    "Imfit.C94_size_false"
   ],
   "note": "Exact arithmetic: columns are difference quotients with the step of the specification (C94_quotient), exact for linear deviates (C94_linear), error bounded by half of the step times a bound of the second derivative (C94_error). More than 2147483647 elements: the product of pixels and free parameters overflows (C94_size_false)."
  },
  {
   "property": "C95",
   "status": "partial",
   "theorems": [
    "Imfit.C95_gradient_partial",
    "Imfit.C95_pegged",
    "Imfit.C95_stop_partial",
    "Imfit.C95_minimum_partial"
   ],
   "note": "Exact arithmetic, vectors within the range of mp_enorm: gnorm is the largest cosine between deviates and columns (C95_gradient_partial); columns are cleared exactly for blocked parameters (C95_pegged); the test is passed exactly at stationary points (C95_stop_partial); for linear deviates these are minima within the limits (C95_minimum_partial)."
  },
  {
   "property": "C96",
   "status": "partial",
   "theorems": [
    "Imfit.C96_fixed",
    "Imfit.C96_not_worse_partial",
    "Imfit.C96_limits_partial",
    "Imfit.C96_ends_partial",
    "Imfit.C96_stationary_partial",
    "Imfit.C96_ends_false"
   ],
   "note": "Fixed parameters for any arithmetic (C96_fixed). Exact arithmetic: not worse than the start (C96_not_worse_partial), within limits (C96_limits_partial), code 4 only at stationary points (C96_stationary_partial), ends with codes 1 to 8 or 100 if the free parameters cannot all be zero (C96_ends_partial). A parameter at zero on the edge of a jump: the inner loop never ends in exact arithmetic, in the code only by underflow of the bound (C96_ends_false)."
  },
  {
   "property": "C97",
   "status": "partial",
   "theorems": [
    "Imfit.C97_linear_partial"
   ],
   "note": "Exact arithmetic and moderate sizes (C97_linear_partial)."
  },
  {
   "property": "C98",
   "status": "partial",
   "theorems": [
    "Imfit.C98_statistic_partial",
    "Imfit.C98_bootstrap",
    "Imfit.C98_images",
    "Imfit.C98_setup",
    "Imfit.C98_bootstrap_false",
    "Imfit.C98_only_false"
   ],
   "note": "Any arithmetic: value without resampling (C98_statistic_partial), value with resampling belongs to the last sample (C98_bootstrap, C98_bootstrap_false: the resampling is never switched off before the parameters are saved), images after a fit (C98_images), images with --chisquare-only and resampling are those of the last evaluation (C98_only_false), the set-up never combines model errors with the Cash statistic (C98_setup)."
  },
  {
   "property": "C99",
   "status": "partial",
   "theorems": [
    "Imfit.C99_ends_partial",
    "Imfit.C99_counted_partial",
    "Imfit.C99_counted_false"
   ],
   "note": "After Ctrl-C each fit ends after at most one step with a positive status (C99_ends_partial, exact arithmetic, moderate sizes); all of these are counted (C99_counted_partial). The claim itself is false: a fit with its minimum at six, broken off at four, has status 100 and is stored (C99_counted_false)."
  },
  {
   "property": "C100",
   "status": "partial",
   "theorems": [
    "Imfit.C100_values",
    "Imfit.C100_exponential",
    "Imfit.C100_gaussian",
    "Imfit.C100_moffat",
    "Imfit.C100_sersic_partial",
    "Imfit.C100_brokenExponential",
    "Imfit.C100_nuker",
    "Imfit.C100_coreSersic_partial",
    "Imfit.C100_sersic_false"
   ],
   "note": "Exact arithmetic. All 17 functions have the documented values wherever their parameters are (C100_values); seven of them are cuts along the major axis (C100_exponential, gaussian, moffat, brokenExponential, nuker; for n > 0.36 C100_sersic_partial, C100_coreSersic_partial). C100_sersic_false: n = 0.1, the profile function is fainter at the centre than at r_e, the image function brighter. Spline1D is not modelled."
  },
  {
   "property": "C101",
   "status": "partial",
   "theorems": [
    "Imfit.C101_zeroPoint",
    "Imfit.C101_exponential",
    "Imfit.C101_gaussian",
    "Imfit.C101_gaussian2Side",
    "Imfit.C101_sech",
    "Imfit.C101_sech2",
    "Imfit.C101_moffat",
    "Imfit.C101_brokenExponential",
    "Imfit.C101_sersic",
    "Imfit.C101_nuker",
    "Imfit.C101_coreSersic",
    "Imfit.C101_vdkSech_centre",
    "Imfit.C101_vdkSech_false",
    "Imfit.C101_vdkSech",
    "Imfit.C101_intensity",
    "Imfit.C101_zeroPoint_false",
    "Imfit.C101_gaussHermite_same",
    "Imfit.C101_gaussHermite_false"
   ],
   "note": "Exact arithmetic, whole set-up and model: C101_zeroPoint; C101_zeroPoint_false and C101_intensity for LinearGaussian-1D. Meaning of the magnitudes: C101_exponential, gaussian, gaussian2Side, sech, sech2, moffat, brokenExponential (r_b >= 0), sersic, nuker and coreSersic (r_b >= 0.001). vdKSech-1D: centre (C101_vdkSech_centre, C101_vdkSech_false) and the exponential it approaches (C101_vdkSech). GaussHermite-1D: C101_gaussHermite_same, C101_gaussHermite_false."
  },
  {
   "property": "C102",
   "status": "partial",
   "theorems": [
    "Imfit.C102_seen_partial",
    "Imfit.C102_plain",
    "Imfit.C102_flat",
    "Imfit.C102_point",
    "Imfit.C102_uneven_false",
    "Imfit.C102_onePoint_false"
   ],
   "note": "Exact arithmetic, discrete Fourier transforms by their defining sums: C102_seen_partial (equal distances, at least two points), C102_plain (no PSF), C102_flat and C102_point about the specification; C102_uneven_false (positions 0, 1, 3), C102_onePoint_false."
  },
  {
   "property": "C103",
   "status": "partial",
   "theorems": [
    "Imfit.C103_deviates_partial",
    "Imfit.C103_chi2_partial",
    "Imfit.C103_psf_false",
    "Imfit.C103_zeroError_false",
    "Imfit.C103_negativeError_false",
    "Imfit.C103_masked_false",
    "Imfit.C103_bootstrap_partial",
    "Imfit.C103_bootstrap_false",
    "Imfit.C103_status_false"
   ],
   "note": "Exact arithmetic. C103_deviates_partial (positive errors, model values that are numbers), C103_chi2_partial (no PSF), C103_bootstrap_partial (no masked points). Negations: C103_psf_false, C103_zeroError_false, C103_negativeError_false, C103_masked_false, C103_bootstrap_false, C103_status_false (the status of FinalSetupForFitting is never set when nothing is wrong)."
  },
  {
   "property": "C104",
   "status": "partial",
   "theorems": [
    "Imfit.C104_rows_partial",
    "Imfit.C104_psf_partial",
    "Imfit.C104_safe",
    "Imfit.C104_input_partial",
    "Imfit.C104_longLine_false",
    "Imfit.C104_longComment_false",
    "Imfit.C104_x1_false",
    "Imfit.C104_x2_false",
    "Imfit.C104_single_false",
    "Imfit.C104_shortRow_false",
    "Imfit.C104_longPsf_false",
    "Imfit.C104_unreadable_false",
    "Imfit.C104_parameters_false"
   ],
   "note": "Text of the file to arrays: C104_rows_partial, C104_psf_partial (lines of less than 1022 characters), C104_input_partial (up to the input of C102 and C103), C104_safe (any text). Negations: C104_longLine_false, longComment, x1, x2, single, shortRow, longPsf, unreadable, parameters."
  },
  {
   "property": "C105",
   "status": "partial",
   "theorems": [
    "Imfit.C105_settings_partial",
    "Imfit.C105_orderly_partial",
    "Imfit.C105_refused",
    "Imfit.C105_garbage_false",
    "Imfit.C105_first_false",
    "Imfit.C105_order_false",
    "Imfit.C105_large_false"
   ],
   "note": "Whole of ProcessInput with the parser of C36: C105_settings_partial, C105_refused, C105_orderly_partial (arguments with at most one '=', see C36_false). strtod is a parameter. Negations: C105_garbage_false, C105_first_false, C105_order_false, C105_large_false."
  },
  {
   "property": "C106",
   "status": "partial",
   "theorems": [
    "Imfit.C106_precedence_partial",
    "Imfit.C106_statistic",
    "Imfit.C106_unchecked_false",
    "Imfit.C106_statistics_false"
   ],
   "note": "C106_precedence_partial (NCOMBINED in the configuration file is a numeral), C106_statistic. Negations: C106_unchecked_false, C106_statistics_false."
  },
  {
   "property": "C107",
   "status": "partial",
   "theorems": [
    "Imfit.C107_cores_partial",
    "Imfit.C107_threads_partial",
    "Imfit.C107_noSocket_false",
    "Imfit.C107_mixed_false"
   ],
   "note": "From the text of /proc/cpuinfo and the command line to SetMaxThreads: C107_cores_partial, C107_threads_partial (equal processors with \"physical id\"). Negations: C107_noSocket_false (every command line without --max-threads), C107_mixed_false. Linux only."
  },
  {
   "property": "C108",
   "status": "partial",
   "theorems": [
    "Imfit.C108_settings_partial",
    "Imfit.C108_orderly_partial",
    "Imfit.C108_refused",
    "Imfit.C108_contradiction_false",
    "Imfit.C108_unchecked_false"
   ],
   "note": "Whole of ProcessInput of makeimage with the parser of C36: C108_settings_partial, C108_orderly_partial, C108_refused. strtod is a parameter. Negations: C108_contradiction_false, C108_unchecked_false."
  },
  {
   "property": "C109",
   "status": "partial",
   "theorems": [
    "Imfit.C109_size_partial",
    "Imfit.C109_fluxes",
    "Imfit.C109_reference_false",
    "Imfit.C109_nosave_false",
    "Imfit.C109_single_false"
   ],
   "note": "C109_size_partial (values that are numbers; from the command line, the configuration file and the disk to the size), C109_fluxes. Negations: C109_reference_false, C109_nosave_false, C109_single_false."
  },
  {
   "property": "C110",
   "status": "partial",
   "theorems": [
    "Imfit.C110_sum_partial",
    "Imfit.C110_values",
    "Imfit.C110_names",
    "Imfit.C110_false",
    "Imfit.C110_expanded_false"
   ],
   "note": "Exact arithmetic: C110_sum_partial (no point sources, or no oversampled regions); any arithmetic: C110_values, C110_names. Negations: C110_false (one point source, one region), C110_expanded_false. Writing of the files is C72 ff."
  },
  {
   "property": "C111",
   "status": "partial",
   "theorems": [
    "Imfit.C111_convolver",
    "Imfit.C111_enough_partial",
    "Imfit.C111_exact",
    "Imfit.C111_solver_false",
    "Imfit.C111_output_false",
    "Imfit.C111_region_false"
   ],
   "note": "C111_enough_partial (no oversampled regions; Levenberg-Marquardt or a Cash statistic; no bootstrap, no image of weights; no noise image that is not used), C111_convolver, C111_exact. Negations: C111_solver_false, C111_output_false, C111_region_false."
  },
  {
   "property": "C112",
   "status": "partial",
   "theorems": [
    "Imfit.C112_table_partial",
    "Imfit.C112_magnitudes",
    "Imfit.C112_none_false",
    "Imfit.C112_zeroPoint_false",
    "Imfit.C112_file_false"
   ],
   "note": "Exact arithmetic, functions that C70 covers: C112_table_partial (zero point not -10000, total not 0, file can be opened), C112_magnitudes. Negations: C112_none_false, C112_zeroPoint_false, C112_file_false."
  },
  {
   "property": "C113",
   "status": "partial",
   "theorems": [
    "Imfit.C113_settings_partial",
    "Imfit.C113_orderly_partial",
    "Imfit.C113_refused",
    "Imfit.C113_dream",
    "Imfit.C113_gelman_partial",
    "Imfit.C113_precedence_partial",
    "Imfit.C113_cash_false",
    "Imfit.C113_gelman_false",
    "Imfit.C113_single_false",
    "Imfit.C113_unchecked_false"
   ],
   "note": "Whole of ProcessInput of imfit-mcmc with the parser of C36, down to the settings of DREAM: C113_settings_partial, C113_orderly_partial, C113_refused, C113_dream, C113_gelman_partial (multiples of ten), C113_precedence_partial. strtod is a parameter. Negations: C113_cash_false, C113_gelman_false, C113_single_false, C113_unchecked_false."
  },
  {
   "property": "C114",
   "status": "partial",
   "theorems": [
    "Imfit.C114_image_partial",
    "Imfit.C114_missing",
    "Imfit.C114_unknown_false",
    "Imfit.C114_dash_false",
    "Imfit.C114_unsaved_false",
    "Imfit.C114_profile_partial",
    "Imfit.C114_longPsf_false",
    "Imfit.C114_single_false",
    "Imfit.C114_small_false"
   ],
   "note": "Whole of both programs with the parser of C36, the FITS model of C92, the data files of C104 and the convolution of C15/C102: C114_image_partial, C114_missing, C114_profile_partial. Asks for a PSF whose sum is not zero. printf(\"%f\") and strtod are parameters. Negations: C114_unknown_false, C114_dash_false, C114_unsaved_false, C114_longPsf_false, C114_single_false, C114_small_false."
  },
  {
   "property": "C115",
   "status": "partial",
   "theorems": [
    "Imfit.C115_exists",
    "Imfit.C115_value_partial",
    "Imfit.C115_points",
    "Imfit.C115_runs",
    "Imfit.C115_beyond_false",
    "Imfit.C115_two_false",
    "Imfit.C115_one_false",
    "Imfit.C115_five_false",
    "Imfit.C115_negative_false"
   ],
   "note": "Natural spline specified by cubics on the intervals with equal values, slopes and curvatures, and no curvature at the ends: C115_exists, C115_value_partial, C115_points, C115_runs. The routines of GSL (coefficients for three and four points, bisection, domain check) are modelled, an abort by the GSL error handler is a fault. Negations: C115_two_false, C115_beyond_false, C115_one_false, C115_five_false, C115_negative_false."
  },
  {
   "property": "C116",
   "status": "partial",
   "theorems": [
    "Imfit.C116_reported",
    "Imfit.C116_failed_false",
    "Imfit.C116_limits_false",
    "Imfit.C116_single_false"
   ],
   "note": "The loop of rounds and the summary, with the statistics of C21/C22: C116_reported covers all fits whatever their status. The fit and the resampling are parameters. Negations: C116_failed_false, C116_limits_false, C116_single_false."
  },
  {
   "property": "C117",
   "status": "partial",
   "theorems": [
    "Imfit.C117_settings_partial",
    "Imfit.C117_orderly_partial",
    "Imfit.C117_refused",
    "Imfit.C117_images_partial",
    "Imfit.C117_cash",
    "Imfit.C117_statistic_false",
    "Imfit.C117_formats_false",
    "Imfit.C117_ignored_false",
    "Imfit.C117_arguments_false",
    "Imfit.C117_files_partial",
    "Imfit.C117_statOnly_false",
    "Imfit.C117_unopened_false"
   ],
   "note": "Options by the specification of command lines of C109: C117_settings_partial, C117_orderly_partial, C117_refused. Images: C117_images_partial (statistic settled), C117_cash (the command lines for which it is). Files: C117_files_partial. Negations: C117_statistic_false (all command lines without --cashstat), C117_formats_false, C117_ignored_false, C117_arguments_false, C117_statOnly_false, C117_unopened_false. Images are names; whether they can be read is a parameter."
  },
  {
   "property": "C118",
   "status": "partial",
   "theorems": [
    "Imfit.C118_chosen",
    "Imfit.C118_unknown",
    "Imfit.C118_limits_partial",
    "Imfit.C118_not_worse_partial",
    "Imfit.C118_start_false",
    "Imfit.C118_worse_false"
   ],
   "note": "Composition of C24, C46, C96 and C105 over one list of parameters as the configuration file has them: C118_chosen, C118_unknown, C118_limits_partial (what each solver needs is a hypothesis for its number), C118_not_worse_partial (Levenberg-Marquardt). Negations: C118_start_false (runs from different start values are equal), C118_worse_false."
  },
  {
   "property": "C119",
   "status": "partial",
   "theorems": [
    "Imfit.C119_settings_partial",
    "Imfit.C119_orderly_partial",
    "Imfit.C119_refused",
    "Imfit.C119_size",
    "Imfit.C119_pictures_partial",
    "Imfit.C119_count_false",
    "Imfit.C119_unread_false",
    "Imfit.C119_nosave_false",
    "Imfit.C119_optional_false",
    "Imfit.C119_overrun_false"
   ],
   "note": "C119_settings_partial, C119_orderly_partial, C119_refused (options), C119_size (both directions), C119_pictures_partial (all images, parameters and files; asks that the uninitialised counter happens to be 0 and that sets of own functions have one function). Negations: C119_count_false, C119_overrun_false, C119_unread_false, C119_nosave_false, C119_optional_false."
  },
  {
   "property": "C120",
   "status": "partial",
   "theorems": [
    "Imfit.C120_functions",
    "Imfit.C120_section_partial"
   ],
   "note": "C120_functions (each modelled function, including where it fails), C120_section_partial (whole images). Missing in the latter: oversampled regions that stick out of the section or whose number of rows is computed wrongly (C17)."
  },
  {
   "property": "C121",
   "status": "partial",
   "theorems": [
    "Imfit.C121_setup",
    "Imfit.C121_chi2",
    "Imfit.C121_cash_partial",
    "Imfit.C121_model_partial"
   ],
   "note": "C121_setup, C121_chi2, C121_cash_partial (missing for Poisson-MLR: unused data that are NaN or +inf, C03), C121_model_partial (missing: regions that stick out, C120)."
  },
  {
   "property": "C122",
   "status": "partial",
   "theorems": [
    "Imfit.C122_definition_partial",
    "Imfit.C122_whole",
    "Imfit.C122_limits_false",
    "Imfit.C122_columns",
    "Imfit.C122_header_partial"
   ],
   "note": "C122_columns, C122_whole proved; C122_definition_partial and C122_header_partial (limits of X0, Y0 are in coordinates of the section; lines below 1024 characters); C122_limits_false."
  },
  {
   "property": "C123",
   "status": "proved",
   "theorems": [
    "Imfit.C123_registered",
    "Imfit.C123_sorted",
    "Imfit.C123_names",
    "Imfit.C123_usable",
    "Imfit.C123_list",
    "Imfit.C123_setup"
   ],
   "note": "C123_registered (any classes with different names), C123_sorted (any classes), C123_names, C123_usable, C123_list, C123_setup. The table of the 28 classes is copied from the sources."
  },
  {
   "property": "C124",
   "status": "partial",
   "theorems": [
    "Imfit.C124_partial",
    "Imfit.C124_exact",
    "Imfit.C124_digits",
    "Imfit.C124_offered",
    "Imfit.C124_false",
    "Imfit.C124_options_false"
   ],
   "note": "C124_partial (composition of C79 and C34 for any catalogue of functions; missing: limits and fixed parameters, which are not written, image-description options, lines of 1024 characters or more), C124_exact, C124_digits (centres within 1/20000 pixel, other values within a part in 200000, for conversions that round as %.4f and %7g do), C124_offered (the conditions hold for all 28 standard functions); C124_false: limits and fixed parameters are lost; C124_options_false: so are gain and read noise."
  },
  {
   "property": "C125",
   "status": "proved",
   "theorems": [
    "Imfit.C125_names",
    "Imfit.C125_imfit",
    "Imfit.C125_makeimage"
   ],
   "note": "C125_names, C125_imfit, C125_makeimage: the two texts, evaluated by the kernel through the models of the parser and of the start of imfit and makeimage. Numbers are read in tenths (integers), a stand-in for strtod that is exact for the numbers in these texts."
  },
  {
   "property": "C126",
   "status": "partial",
   "theorems": [
    "Imfit.C126_numbers",
    "Imfit.C126_partial",
    "Imfit.C126_whole"
   ],
   "note": "C126_numbers, C126_partial (composition of C124 and C120), C126_whole. Missing: digits that are not printed, lines of 1024 characters or more, functions that do not depend on distances from the centre only, and for convolved images values that are not finite."
  },
  {
   "property": "C127",
   "status": "partial",
   "theorems": [
    "Imfit.C127_chi2",
    "Imfit.C127_counts",
    "Imfit.C127_made",
    "Imfit.C127_partial",
    "Imfit.C127_deviates",
    "Imfit.C127_stays",
    "Imfit.C127_false"
   ],
   "note": "C127_partial (from C127_made, C127_chi2, C127_counts), C127_deviates, C127_stays. Missing: model images that are not finite, counts or variances that are not positive. C127_false: a model of 0 counts has a lower Poisson-MLR than the model the data were made with."
  },
  {
   "property": "C128",
   "status": "partial",
   "theorems": [
    "Imfit.C128_same",
    "Imfit.C128_whole",
    "Imfit.C128_stays_partial"
   ],
   "note": "C128_same, C128_whole (no conditions), C128_stays_partial (missing: model images that are not finite, counts or variances that are not positive, the Cash statistic, which Levenberg-Marquardt cannot use)."
  },
  {
   "property": "C129",
   "status": "partial",
   "theorems": [
    "Imfit.C129_numbers",
    "Imfit.C129_levmar_partial",
    "Imfit.C129_de_partial",
    "Imfit.C129_de_silent",
    "Imfit.C129_failed",
    "Imfit.C129_failed_false",
    "Imfit.C129_limits_false"
   ],
   "note": "C129_numbers, C129_de_partial (missing: statistics of 1e20 or more), C129_de_silent, C129_levmar_partial (missing: the value may be that of the last trial, C28), C129_failed; C129_failed_false: all parameters fixed, statistic 1, reported 0; C129_limits_false: differential evolution without limits reports the statistic 0 in the form for Levenberg-Marquardt. NLopt solvers are not included."
  },
  {
   "property": "C130",
   "status": "partial",
   "theorems": [
    "Imfit.C130_de",
    "Imfit.C130_levmar",
    "Imfit.C130_de_report",
    "Imfit.C130_de_false"
   ],
   "note": "C130_levmar (fits that do not fail), C130_de and C130_de_report: exact numbers for differential evolution (right only if all 600 generations are done); C130_de_false: 328 evaluations, 320 reported. NLopt solvers are not included."
  },
  {
   "property": "C131",
   "status": "partial",
   "theorems": [
    "Imfit.C131_levmar_partial",
    "Imfit.C131_de_partial",
    "Imfit.C131_nlopt",
    "Imfit.C131_nlopt_report",
    "Imfit.C131_nlopt_false"
   ],
   "note": "C131_levmar_partial (missing: the value may be that of the last trial, C28), C131_de_partial (missing: statistics of 1e20 or more), C131_nlopt (nothing is printed), C131_nlopt_false (witness), C131_nlopt_report (fits that succeed). The library is a parameter with a contract."
  }
 ]
}