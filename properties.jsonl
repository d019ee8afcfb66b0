{"id": "C01", "title": "Mask convention and valid-pixel count", "statement": "After a mask image is accepted, the pixels used in the fit are exactly the pixels the chosen convention calls good (zero-is-good: finite and not > 0; zero-is-bad: finite and >= 1), the stored mask is 1 on good pixels and 0 elsewhere, and the reported number of valid pixels equals the number of good pixels. After fit setup the reported number equals the number of pixels that are good in the mask AND finite in the data AND (for a user error image) finite in the converted weights.", "quantifier": "every mask image, data image and error image of every size, including NaN and infinities, and every mask convention code", "why_tests_cant": "Pixel contents and image sizes are unbounded and include NaN/infinite bit patterns in any combination; a test covers one image.", "anchors": ["core/model_object.cpp: ModelObject::AddMaskVector, ModelObject::FinalSetupForFitting, ModelObject::GetNValidPixels", "core/definitions.h: MASK_ZERO_IS_GOOD, MASK_ZERO_IS_BAD"]}
{"id": "C02", "title": "Masked pixels never influence chi-squared", "statement": "Once fit setup has succeeded, the chi-squared value and every entry of the deviates vector depend only on the data and error values of unmasked pixels: replacing data values or user-supplied error values at masked pixels by anything (including NaN or infinity) leaves them unchanged.", "quantifier": "every pair of data/error images that agree on the unmasked pixels, every mask, every model image, every error mode (data, model, user)", "why_tests_cant": "It is a relation between two runs over all possible contents of hidden pixels; tests pick a few contents.", "anchors": ["core/model_object.cpp: FinalSetupForFitting, ApplyMask, VetDataVector, ChiSquared, ComputeDeviates, UpdateWeightVector"]}
{"id": "C03", "title": "Masked pixels never influence the Cash and Poisson-MLR statistics", "statement": "Once fit setup has succeeded, the Cash / Poisson-MLR statistic and deviates depend only on the data values of unmasked pixels, whatever the masked pixels contain (including NaN or infinity).", "quantifier": "every pair of data images agreeing on the unmasked pixels, every mask, gain, sky level and model image", "why_tests_cant": "Relational property over all hidden pixel contents; the failing contents (NaN in a masked pixel) are exactly those a test image rarely has.", "anchors": ["core/model_object.cpp: GenerateExtraCashTerms, FinalSetupForFitting, CashStatistic, ComputePoissonMLRDeviate"]}
{"id": "C04", "title": "Successful fit setup leaves a usable problem", "statement": "If fit setup reports success then at least one pixel is valid, every used pixel keeps its finite data value and has the finite non-negative weight the inputs prescribe, and every other pixel has weight exactly 0 and finite data; and setup reports success whenever some pixel is usable and every usable pixel has a well-defined weight.", "quantifier": "every data, mask and error image, every documented error-type code, every gain/read-noise/sky setting and every fit statistic", "why_tests_cant": "The space of inputs contains all NaN/Inf/zero/negative combinations in every pixel; the guarantee is about all of them and about repeated calls.", "anchors": ["core/model_object.cpp: FinalSetupForFitting, GenerateErrorVector, ApplyMask, CheckWeightVector, VetDataVector, AddErrorVector"]}
{"id": "C05", "title": "Chi-squared is the sum of squared weighted residuals", "statement": "The chi-squared value equals the sum over valid (or bootstrap-selected) pixels of ((data - model)/sigma)^2, is >= 0, equals the sum of squares of the deviates handed to the Levenberg-Marquardt solver, and is 0 exactly when the model equals the data on every pixel of non-zero weight.", "quantifier": "every data, weight and model image, every padding, with and without PSF, with and without bootstrap index list (values small enough that the norm routine's underflow band is not entered)", "why_tests_cant": "Two independently written loops (statistic and deviates, each with four branches) must agree for all images; tests compare a few numbers.", "anchors": ["core/model_object.cpp: ChiSquared, ComputeDeviates", "core/mp_enorm.cpp: mp_enorm"]}
{"id": "C06", "title": "Poisson-MLR statistic: per-pixel terms non-negative, zero exactly at model = data, consistent with deviates", "statement": "For non-negative data, every per-pixel Poisson-MLR term is >= 0, it is 0 exactly when model = data, the statistic equals the sum of squares of the deviates and so does not depend on which of the two interfaces the solver uses.", "quantifier": "all data values >= 0, all model values, all gains > 0, sky levels, weights", "why_tests_cant": "Non-negativity is a global inequality (x - d log x + d log d - d >= 0) over all reals; spot checks cannot exclude a violating region.", "anchors": ["core/model_object.cpp: CashStatistic, ComputePoissonMLRDeviate, ComputeDeviates, GenerateExtraCashTerms"]}
{"id": "C07", "title": "Error-image conventions are interchangeable", "statement": "Supplying the same noise information as sigmas, variances or inverse-variance weights gives the same chi-squared, namely that of weight 1/sigma; the exported weight image is 1/sigma^2; generated errors equal 1/sqrt of (flux+sky clipped at zero)/gain_eff + N rn^2/gain_eff^2.", "quantifier": "every positive sigma image, gain, exposure time, number of images and read noise", "why_tests_cant": "Agreement of three conversion paths for all real values cannot be settled by samples.", "anchors": ["core/model_object.cpp: AddErrorVector, GenerateErrorVector, AddImageCharacteristics, GetWeightImageVector"]}
{"id": "C08", "title": "Data pixels and padded model pixels correspond one to one", "statement": "For every data pixel, the model pixel compared with it in every statistic, deviate, weight update and output image is the one evaluated at that data pixel's own 1-based (x,y) coordinate; the access is inside the padded model image, and distinct data pixels use distinct model pixels.", "quantifier": "every image size and PSF size (with or without PSF)", "why_tests_cant": "Index arithmetic over all (rows, columns, PSF rows, PSF columns); a transposed or shifted index passes on square or symmetric test images.", "anchors": ["core/model_object.cpp: SetupModelImage, CreateModelImage, ComputeDeviates, ChiSquared, GetModelImageVector, GetResidualImageVector, UpdateWeightVector"]}
{"id": "C09", "title": "Output images have the meaning the user is told", "statement": "The returned model image, residual image and weight image have the size of the data image, residual = data - model pixel by pixel, and asking for an output image does not alter data, model, mask or the fit statistic.", "quantifier": "every image and PSF size, every model image, any sequence of output requests", "why_tests_cant": "A statement about every pixel and every order of calls.", "anchors": ["core/model_object.cpp: GetModelImageVector, GetResidualImageVector, GetWeightImageVector, GetExpandedModelImageVector"]}
{"id": "C10", "title": "The model image is the sum of its components", "statement": "The model image of a parameter vector equals the pixel-wise sum of the single-component images for the same parameter vector (convolved components plus point sources), in exact arithmetic; the compensated summation used adds no error term in exact arithmetic.", "quantifier": "every list of components and function sets, every parameter vector, every image and PSF size", "why_tests_cant": "Quantifies over all lists of components and parameters; each test uses one list.", "anchors": ["core/model_object.cpp: CreateModelImage, GetSingleFunctionImage", "core/convolver.cpp: ConvolveImage"]}
{"id": "C11", "title": "Multi-threaded evaluation gives the single-threaded image", "statement": "Whatever the number of threads, chunk size and interleaving of pixel evaluations, the computed model image (main image and oversampled regions) is bit-for-bit the image computed sequentially.", "quantifier": "every schedule (every interleaving of the pixel tasks), every number of threads and chunk size, every arithmetic", "why_tests_cant": "The set of schedules is exponential and not under the control of a test.", "anchors": ["core/model_object.cpp: CreateModelImage, SetMaxThreads, SetOMPChunkSize", "core/oversampled_region.cpp: ComputeRegionAndDownsample"]}
{"id": "C12", "title": "Model image depends only on the parameter vector", "statement": "Evaluating the model for parameters p gives the same image whatever was evaluated before on the same model (other parameter vectors, single-function images, fit statistics).", "quantifier": "every history of earlier evaluations and every parameter vector, with and without PSFs, oversampled regions, and point sources", "why_tests_cant": "Quantifies over call histories of arbitrary length; the hidden state only shows on the second evaluation.", "anchors": ["core/model_object.cpp: CreateModelImage, GetSingleFunctionImage", "core/oversampled_region.cpp: ComputeRegionAndDownsample", "function_objects/func_pointsource.cpp: SetOversamplingScale, GetValue"]}
{"id": "C13", "title": "Parameter-vector layout", "statement": "Each function receives exactly its own slice of the parameter vector and the X0,Y0 of its own function set; slices are disjoint, in order, and together with the X0,Y0 pairs cover the vector of advertised length exactly.", "quantifier": "every list of functions (any parameter counts) and every valid division into function sets", "why_tests_cant": "All combinations of function lists and set boundaries are needed; off-by-one errors appear only with several sets.", "anchors": ["core/model_object.cpp: AddFunction, DefineFunctionSets, CreateModelImage, GetNParams"]}
{"id": "C14", "title": "Names, values and headers line up", "statement": "The i-th parameter name, the i-th column of the header line, the i-th value in a one-line parameter dump and the i-th position of the image-offset vector all refer to the same parameter; X0,Y0 values are printed in full-image coordinates (image offset added), all others unchanged.", "quantifier": "every model (list of functions and sets), every parameter vector and image offset", "why_tests_cant": "Agreement of five separately written traversals for all models.", "anchors": ["core/model_object.cpp: PopulateParameterNames, GetParamHeader, PrintModelParamsHorizontalString, PrintModelParamsToStrings, GetImageOffsets"]}
{"id": "C15", "title": "Convolution is the true linear convolution with the centred PSF", "statement": "The convolved image equals, at every pixel of the image, the linear (zero-padded, non-wrapping) convolution of the input with the normalised PSF whose pixel (nRows/2, nColumns/2) is the origin.", "quantifier": "every image size, PSF size (odd, even, larger than the image) and contents, in exact arithmetic", "why_tests_cant": "Wrap-around contamination and off-by-one centring occur only for particular size combinations; sizes and contents are unbounded.", "anchors": ["core/convolver.cpp: DoFullSetup, ConvolveImage, ShiftAndWrapPSF"]}
{"id": "C16", "title": "PSF normalisation and flux conservation", "statement": "After normalisation the PSF pixels sum to 1 (for a PSF with non-zero finite sum); convolving with it conserves the total flux of every image whose light stays at least a PSF half-width away from the border.", "quantifier": "every PSF and image in exact arithmetic", "why_tests_cant": "An identity over all real-valued images.", "anchors": ["core/model_object.cpp: NormalizePSF, AddPSFVector", "core/convolver.cpp: DoFullSetup"]}
{"id": "C17", "title": "Down-sampling replaces each region pixel by the mean of its sub-pixels", "statement": "For an oversampled region, each main-image pixel inside the region is replaced by the mean of the oversampling-scale squared sub-pixels that cover it, pixels outside the region are untouched, and no memory outside the arrays is read or written.", "quantifier": "every main-image size, PSF padding, region rectangle (square or not), oversampling scale >= 1", "why_tests_cant": "Errors in row/column bookkeeping vanish for square regions, which is what tests use.", "anchors": ["core/downsample.cpp: DownsampleAndReplace"]}
{"id": "C18", "title": "Oversampled sub-pixel grid is centred on the pixels", "statement": "In an oversampled region the sub-pixel evaluation points of each pixel are equally spaced with spacing 1/scale, lie strictly inside the pixel's unit square, and their mean is the pixel's centre coordinate.", "quantifier": "every oversampling scale >= 1, region origin, PSF size and pixel", "why_tests_cant": "Half-pixel shifts depend on scale and origin jointly; all values are needed.", "anchors": ["core/oversampled_region.cpp: SetupModelImage, ComputeRegionAndDownsample"]}
{"id": "C19", "title": "Oversampled regions are clipped to the image", "statement": "A user-specified oversampled region is clipped to the intersection with the data image, and a region with no overlap is rejected rather than processed.", "quantifier": "every region rectangle (any integers) and image size", "why_tests_cant": "Corner cases of rectangle intersection over all integers.", "anchors": ["core/model_object.cpp: AddOversampledPsfInfo", "core/psf_oversampling_info.cpp: GetCorrectedRegionCoords"]}
{"id": "C20", "title": "Bootstrap samples use only valid pixels", "statement": "A bootstrap sample consists of exactly as many pixel indices as there are valid pixels; every index is inside the image and designates a pixel of positive weight; sampling terminates whenever some random draw sequence hits valid pixels and never terminates if there are none.", "quantifier": "every weight image and every sequence of random draws", "why_tests_cant": "Random draws are unbounded sequences; an out-of-range index needs one rare draw.", "anchors": ["core/model_object.cpp: UseBootstrap, MakeBootstrapSample", "core/mersenne_twister.cpp: genrand_real1"]}
{"id": "C21", "title": "Bootstrap statistics describe the successful resamplings", "statement": "The bootstrap means, standard deviations and 68% intervals reported for each parameter are those of the parameter values from the resamplings whose fit succeeded, and fixed parameters are reported unchanged.", "quantifier": "every number of iterations and every pattern of per-iteration success and failure", "why_tests_cant": "Depends on which of hundreds of random fits fail; tests see all-success runs.", "anchors": ["core/bootstrap_errors.cpp: BootstrapErrors, BootstrapErrorsBase, PrintBootstrapSummary"]}
{"id": "C22", "title": "Statistics helpers", "statement": "The mean lies between the smallest and largest value; the standard deviation is the non-negative root of the unbiased variance and shift-invariant; the 68% interval is an interval (lower <= upper), both ends are values of the sample, and the sort used is a sorting of the input.", "quantifier": "every finite sample of every length", "why_tests_cant": "All lengths (index rounding) and all values.", "anchors": ["core/statistics.cpp: Mean, StandardDeviation, ConfidenceInterval, SortComp"]}
{"id": "C23", "title": "Random generator: range, recurrence and determinism", "statement": "For every seed the generator yields the MT19937 stream (reference recurrence and tempering), each integer in [0,2^32), real variants in [0,1], [0,1) and (0,1) respectively, and two generators with the same seed give the same stream for ever.", "quantifier": "every seed and every position in the unbounded stream", "why_tests_cant": "The stream is unbounded and the end points of the real ranges are hit once in 2^32 draws.", "anchors": ["core/mersenne_twister.cpp: init_genrand, init_by_array, genrand_int32, genrand_real1, genrand_real2, genrand_real3, genrand_res53"]}
{"id": "C24", "title": "Differential evolution respects bounds and fixed parameters", "statement": "Every parameter vector at which the DE solver evaluates the fit statistic, and the vector it returns, lies within the parameter limits; fixed parameters keep their value.", "quantifier": "every objective function (including ones returning NaN or huge values), every random stream, every strategy, every set of limits", "why_tests_cant": "Quantifies over random streams and objective functions.", "anchors": ["solvers/DESolver.cpp: Setup, Solve, RandToBest1Exp and other strategies", "solvers/diff_evoln_fit.cpp: DiffEvolnFit"]}
{"id": "C25", "title": "Differential evolution never gets worse and reports what it found", "statement": "The best energy never increases from one evaluation to the next, the reported energy is the fit statistic of the returned vector, and no evaluated vector had a lower statistic.", "quantifier": "every objective function, random stream and number of generations", "why_tests_cant": "Invariant over an unbounded stochastic run.", "anchors": ["solvers/DESolver.cpp: Solve, StoreSolution, Energy"]}
{"id": "C26", "title": "Differential evolution stays inside its arrays", "statement": "Every index the DE solver derives from a random number designates an existing population member or parameter, and the partners chosen are pairwise distinct.", "quantifier": "every random stream the generator can produce", "why_tests_cant": "The offending draw occurs once per 2^32 calls.", "anchors": ["solvers/DESolver.cpp: SelectSamples, RandomUniform, RandToBest1Exp, Best1Exp, Rand1Exp, Best2Exp, Rand2Exp and Bin versions"]}
{"id": "C27", "title": "Levenberg-Marquardt respects limits and fixed parameters", "statement": "Every trial point and the returned point satisfies all parameter limits; fixed parameters are never changed; starting values outside the limits are rejected before any iteration.", "quantifier": "every objective function, starting point, set of limits and every search direction the inner linear algebra may produce", "why_tests_cant": "Quantifies over all objective functions and runs.", "anchors": ["solvers/mpfit.cpp: mpfit, mp_fdjac2", "solvers/levmar_fit.cpp: LevMarFit"]}
{"id": "C28", "title": "Levenberg-Marquardt never returns a worse fit and reports its value", "statement": "The returned point has a fit statistic no larger than that of the starting point, and the reported best-fit statistic is the statistic of the returned point.", "quantifier": "every objective function and run, every stopping reason", "why_tests_cant": "Invariant of an iteration whose stopping state depends on the whole run.", "anchors": ["solvers/mpfit.cpp: mpfit"]}
{"id": "C29", "title": "Tokenising", "statement": "Splitting a line at a delimiter set gives exactly the maximal delimiter-free pieces in order; extra leading, trailing or repeated delimiters do not change the result; no token is empty.", "quantifier": "every string and every delimiter set", "why_tests_cant": "All strings; the failing ones (no delimiter after the first token, blank lines) are special shapes.", "anchors": ["core/utilities.cpp: SplitString, SplitStringAdd"]}
{"id": "C30", "title": "Whitespace and comments", "statement": "Trimming removes exactly the leading and trailing blanks and tabs; comment removal keeps exactly the text before the first '#'; both are idempotent.", "quantifier": "every string", "why_tests_cant": "All strings; the failing shape (one non-blank character) is easily missed.", "anchors": ["core/utilities.cpp: TrimWhitespace, ChopComment"]}
{"id": "C31", "title": "Accepted configuration files describe a consistent model", "statement": "If a configuration file is accepted then there is one label and one optional-parameter map per function, at least one function, set start indices are increasing, begin at 0 and lie within the function list, there is one limit record per parameter value, and each parameter with limits has lower < upper with the starting value inside.", "quantifier": "every text file", "why_tests_cant": "All possible texts; the parser's branches interact.", "anchors": ["core/config_file_parser.cpp: ReadConfigFile, VetConfigFile, ParseFunctionSection, AddParameterAndLimit, AddFunctionNameAndLabel"]}
{"id": "C32", "title": "Configuration parsing is memory-safe and total", "statement": "Parsing any text file ends with either acceptance or an error code; it never reads outside its vectors of lines or tokens.", "quantifier": "every text file", "why_tests_cant": "All texts; crash-inducing ones are malformed in ways tests did not anticipate.", "anchors": ["core/config_file_parser.cpp: ParseFunctionSection, AddFunctionNameAndLabel, AddOptionalParameter, AddParameterAndLimit, VetConfigFile"]}
{"id": "C33", "title": "Comments and blank lines do not matter", "statement": "Inserting comment lines, blank lines, or leading/trailing blanks, or appending a trailing '# comment' to any line, does not change what a configuration file means.", "quantifier": "every configuration file and every comment text", "why_tests_cant": "Relational over all files and comment contents.", "anchors": ["core/config_file_parser.cpp: ReadConfigFile, VetConfigFile, ParseFunctionSection", "core/utilities.cpp: ChopComment"]}
{"id": "C34", "title": "Saved parameter files can be read back", "statement": "The parameter block written for a model, when read as a configuration file, yields the same functions in the same sets with the parameter values as printed.", "quantifier": "every model (any number of functions, sets, parameters, labels without special keywords), every parameter vector, with or without error columns", "why_tests_cant": "Round trip over all models.", "anchors": ["core/model_object.cpp: PrintModelParamsToStrings", "core/print_results.cpp: SaveParameters, PrintParameters", "core/config_file_parser.cpp: ParseFunctionSection"]}
{"id": "C35", "title": "Image-section offsets", "statement": "For an image name with section [x1:x2,y1:y2] (or * for either axis) the offset applied to all X0 values is x1-1 (0 for *), and to all Y0 values y1-1 (0 for *); without a section it is zero; malformed sections give an error, not a crash.", "quantifier": "every file name and section text", "why_tests_cant": "All strings, including malformed ones.", "anchors": ["core/utilities.cpp: GetPixelStartCoords, GetStartCoordsFromBracket, GetAllCoordsFromBracket, DetermineImageOffset, StripBrackets"]}
{"id": "C36", "title": "Command-line interpretation", "statement": "A flag is reported set iff it (by any of its names) occurs on the command line outside an option-value position; an option's values are exactly those supplied, in order, by either '--opt value' or '--opt=value'; everything else is a positional argument in order; an unknown option or a missing value is reported as an error when unknown options are errors.", "quantifier": "every option table and every argument vector", "why_tests_cant": "All argument vectors of every length.", "anchors": ["core/commandline_parser.cpp: CLineParser::ParseCommandLine, FlagSet, OptionSet, GetTargetString, GetNTargets"]}
{"id": "C37", "title": "Multi-image parameter assembly", "statement": "For each image, the assembled parameter vector contains that image's local parameters unchanged and the global parameters with X0,Y0 mapped by the image's scale, rotation and reference offset; with unit scale, zero rotation and identical reference it is the plain vector, every image sees the same global values, and the map is invertible (distances scale by the pixel-scale ratio).", "quantifier": "every number of images and functions, every parameter vector, every scale > 0 and rotation", "why_tests_cant": "Real-valued geometry and index bookkeeping for all sizes.", "anchors": ["core/param_holder.cpp: AssembleParametersForImage", "core/paramvector_processing.cpp: AssembleParamsForImage, CalculateOffset_X0Y0, ExtractImageParams"]}
{"id": "C38", "title": "Multi-image fits add up", "statement": "The fit statistic of a multi-image model is the sum of the statistics of the images, the number of valid pixels is the sum, and the deviates vector is the concatenation of the per-image deviates without gaps or overlap, in normal and in bootstrap mode.", "quantifier": "every number of images, image sizes, masks and parameter vectors", "why_tests_cant": "All combinations of image sizes and masks; the failing mode (bootstrap with masked pixels) needs a particular combination.", "anchors": ["core/model_object_multimage.cpp: GetFitStatistic, ComputeDeviates, GetNValidPixels, GetNDataValues, MakeBootstrapSample"]}
{"id": "C39", "title": "Euclidean norm routine", "statement": "The norm routine returns the square root of the sum of squares for every vector, without relying on any ordering of the entries.", "quantifier": "every real vector of every length", "why_tests_cant": "Three-band accumulation interacts over all value orderings.", "anchors": ["core/mp_enorm.cpp: mp_enorm"]}
{"id": "C40", "title": "PSF interpolation reproduces the PSF image", "statement": "A point source placed exactly on a pixel, evaluated on pixel centres, reproduces the PSF image (same orientation, no transposition), and no PSF pixel outside the array is read.", "quantifier": "every PSF image size and contents, every evaluation point", "why_tests_cant": "Transposition is invisible for symmetric PSFs and out-of-bounds reads need non-square ones.", "anchors": ["function_objects/psf_interpolators.cpp: PsfInterpolator_lanczos2::GetValue, PsfInterpolator_lanczos3::GetValue, FindIndex, Lanczos", "function_objects/func_pointsource.cpp: PointSource::GetValue"]}
{"id": "C41", "title": "Image components are symmetric about their centre and linear in their amplitude", "statement": "Elliptical components give the same intensity at points reflected through their centre, scale linearly with their amplitude parameter, have their maximum at the centre and do not increase outward along any ray (for positive scale parameters), and take the amplitude value at the place documented.", "quantifier": "every parameter vector in the physical range and every pair of points", "why_tests_cant": "Real-valued identities over a continuum.", "anchors": ["function_objects/func_exp.cpp", "function_objects/func_gaussian.cpp", "function_objects/func_sersic.cpp", "function_objects/func_moffat.cpp", "function_objects/func_flatsky.cpp", "function_objects/helper_funcs.cpp"]}
{"id": "C42", "title": "Pixel sub-sampling", "statement": "Sub-sampled evaluation of a pixel is the mean of the profile over a regular n x n grid of points strictly inside the pixel whose mean is the pixel centre, with 1 <= n <= 100, and reduces to the central value for n = 1.", "quantifier": "every pixel, radius, scale length > 0", "why_tests_cant": "n depends on real-valued radius and scale; the claim is for all.", "anchors": ["function_objects/func_sersic.cpp: GetValue, CalculateSubsamples", "function_objects/func_exp.cpp: GetValue, CalculateSubsamples"]}
{"id": "C43", "title": "Model-selection statistics", "statement": "AIC_corrected equals statistic + 2k + 2k(k+1)/(n-k-1) and BIC equals statistic + k ln n, both strictly increase with k at equal fit quality (n > k+2), and they rank two models with equal k by their statistic.", "quantifier": "every statistic value, number of parameters and number of pixels", "why_tests_cant": "Real inequality over all n, k.", "anchors": ["core/statistics.cpp: AIC_corrected, BIC"]}
{"id": "C44", "title": "Formatted output is never truncated", "statement": "Formatting a message returns the complete text, whatever its length.", "quantifier": "every text length", "why_tests_cant": "Failure occurs at one specific length (buffer size).", "anchors": ["core/utilities.cpp: vformat, PrintToString"]}
{"id": "C45", "title": "Image-information files for multi-image fits", "statement": "For N images the image-description parameter vector has 5(N-1) entries in the documented order with one limit record each, pixel scale and rotation are held fixed unless limits are given, and parameters with limits have lower < upper and contain the starting value.", "quantifier": "every image-information file", "why_tests_cant": "All texts.", "anchors": ["core/imageparams_file_parser.cpp: ReadImageParamsFile, StoreInfoFromLine, GetParameterAndLimits, GetImageDescriptionParams"]}
{"id": "C46", "title": "Solver interfaces honour limits and report their own work", "statement": "Nelder-Mead and NLopt runs receive every limit the user specified (one- or two-sided) and fixed parameters as equal bounds, and report the number of function calls of that run.", "quantifier": "every limit specification, every sequence of runs", "why_tests_cant": "Histories of runs and all combinations of one-sided limits.", "anchors": ["solvers/nmsimplex_fit.cpp: NMSimplexFit", "solvers/nlopt_fit.cpp: NLOptFit"]}
{"id": "C47", "title": "Unsupported type codes are reported", "statement": "If the mask-format code or the error-type code handed to the model is not one of the documented ones, setup reports a failure instead of fitting with unusable weights or an ignored mask.", "quantifier": "every integer code, every mask, error and data image", "why_tests_cant": "Tests try a few wrong codes; the claim is about every integer and every image that might make the wrong code look harmless.", "anchors": ["core/model_object.cpp:ModelObject::AddMaskVector", "core/model_object.cpp:ModelObject::AddErrorVector", "core/model_object.cpp:ModelObject::FinalSetupForFitting", "core/setup_model_object.cpp:SetupModelObject"]}
{"id": "C48", "title": "Repeating fit setup is harmless", "statement": "Calling the final fit setup a second time on the same model gives the same status and leaves the mask, weights, data, number of valid pixels and every fit statistic unchanged.", "quantifier": "every data, mask and error image and every fit statistic", "why_tests_cant": "Whether a second call changes anything depends on every combination of non-finite data, error values and mask; a test can only try some.", "anchors": ["core/model_object.cpp:ModelObject::FinalSetupForFitting", "core/model_object.cpp:ModelObject::ApplyMask", "core/model_object.cpp:ModelObject::VetDataVector", "core/model_object.cpp:ModelObject::GenerateExtraCashTerms"]}
{"id": "C49", "title": "Bootstrap errors are measured from the best fit in one coordinate system", "statement": "If every resampled fit returns exactly the best-fit parameters, then the plus and minus errors reported for every free parameter are zero.", "quantifier": "every best-fit vector, every number of iterations, every image section (offset of the fitted section within the image)", "why_tests_cant": "The bootstrap tests fit whole images; a coordinate offset appears only for an image section and is then a different number for every section.", "anchors": ["core/bootstrap_errors.cpp:BootstrapErrors, BootstrapErrorsBase, PrintBootstrapSummary", "core/model_object.cpp:ModelObject::GetImageOffsets", "core/imfit_main.cpp:main"]}
{"id": "C50", "title": "Component intensities are summed with compensation", "statement": "The sum over components in a pixel, and the sum over PSF pixels used for normalisation, are compensated: however the running sum is rounded, if the corrections themselves are computed without rounding error the result is the exact sum rounded once.", "quantifier": "every rounding function, every number of components or PSF pixels and all their values", "why_tests_cant": "With few components of similar size a plain sum gives the same digits; the claim is about every list of values and every rounding.", "anchors": ["core/model_object.cpp:ModelObject::CreateModelImage", "core/model_object.cpp:NormalizePSF", "core/convolver.cpp:Convolver::SetupPSF"]}
{"id": "C51", "title": "Number of function evaluations reported by differential evolution", "statement": "The number of evaluations of the fit statistic that the DE solver stores in the results is the number it actually made.", "quantifier": "every objective function, random stream, tolerance, stop signal and number of parameters", "why_tests_cant": "The number depends on when an unbounded stochastic run stops; no test counts the calls.", "anchors": ["solvers/DESolver.cpp: Solve (generations)", "solvers/diff_evoln_fit.cpp: DiffEvolnFit (StoreNFunctionEvals)"]}
{"id": "C52", "title": "Each point source uses the interpolation method given for it", "statement": "The optional parameter `method` of a PointSource function selects the PSF interpolation used for that function, unknown words are refused without changing it, and functions given the same method behave alike.", "quantifier": "every list of point-source functions with every method for each, and every text given as a method", "why_tests_cant": "Tests use one point source, or several with the same method; the failing case is a mixture.", "anchors": ["core/model_object.cpp: ModelObject::AddFunction, ModelObject::SetupPsfInterpolation", "function_objects/func_pointsource.cpp: PointSource::SetExtraParams"]}
{"id": "C53", "title": "One set of parameters describes the same object in every image", "statement": "When a function is given the description of an image (pixel scale, rotation, intensity scale), its value at the place in that image that shows a given point of the sky equals the intensity scale times the value the same parameters give at that point in the reference image.", "quantifier": "every function object modelled, every vector of physical parameters, every pixel scale > 0, rotation, intensity scale, centre and point", "why_tests_cant": "Unit tests check a few functions at a few points with the default image description; the description matters only in fits of several images, and a wrong conversion gives a plausible image.", "anchors": ["function_objects/*.cpp: Setup, GetValue, CalculateIntensity", "function_objects/function_object.cpp: FunctionObject::SetImageParameters"]}
{"id": "C54", "title": "Guards against overflow do not change the profile", "statement": "The branches that avoid an overflow in exponentials (arguments beyond 100) give the documented profile up to a relative difference that is far below the rounding error; the value is finite everywhere.", "quantifier": "every modelled function with such a guard (broken and doubly broken exponentials, edge-on disks, bars, flat exponential), all physical parameters, all points", "why_tests_cant": "The guarded branch is entered only for points far beyond the break radius with a sharp break; unit tests compare a handful of points near it.", "anchors": ["function_objects/func_broken-exp.cpp: CalculateIntensity", "function_objects/func_double-broken-exp.cpp: CalculateIntensity", "function_objects/func_flat-exp.cpp: CalculateIntensity", "function_objects/func_edge-on-disk.cpp: CalculateIntensity", "function_objects/func_flatbar.cpp: CalculateIntensity"]}
{"id": "C55", "title": "Symmetry, linearity and sign of the plane profiles", "statement": "A profile with a position angle is unchanged by reflection through its centre and in its major axis; it is proportional to its intensity parameter; it is never negative when that parameter is not.", "quantifier": "every modelled plane function, all physical parameters, all image descriptions with positive pixel scale, all points, with and without sub-sampling", "why_tests_cant": "Tests compare values at a few points on the axes, and with sub-sampling only against stored numbers.", "anchors": ["function_objects/*.cpp: Setup, GetValue, CalculateIntensity, CalculateSubsamples"]}
{"id": "C56", "title": "Sub-sampled pixels are averages over a regular grid of bounded size", "statement": "The value of a pixel is the average of the profile over an n by n grid inside the pixel, 1 <= n <= 100, and n = 1 when sub-sampling is switched off; the choice of n never fails.", "quantifier": "every modelled plane function, all physical parameters, all image descriptions with positive pixel scale, all pixels", "why_tests_cant": "The size of the grid depends on the distance from the centre and on scale lengths in a conversion from double to int that is undefined for large values; a fit reaches tiny scale lengths that no test uses.", "anchors": ["function_objects/func_*.cpp: CalculateSubsamples, GetValue"]}
{"id": "C57", "title": "Differential evolution reports convergence when the best value has settled", "statement": "The solver reports convergence exactly at the first tenth generation from 40 on at which the best value has changed by less than the tolerance over each of the last three spans of ten generations; otherwise it uses all generations and reports that.", "quantifier": "every objective function, random stream, tolerance, population, number type", "why_tests_cant": "Convergence depends on hundreds of generations of a random search; tests look at the final parameters for one seed.", "anchors": ["solvers/DESolver.cpp:219-305 (DESolver::Solve)", "solvers/DESolver.cpp:579-586 (TestConverged)", "solvers/diff_evoln_fit.cpp (DiffEvolnFit)"]}
{"id": "C58", "title": "Markov chains stay within the parameter limits", "statement": "In every generation every chain is at a position whose free parameters lie within their limits and whose fixed parameters have their fixed value, each position is stored with its own likelihood, and the likelihood is asked for only at such positions; with finite draws the positions are finite numbers.", "quantifier": "every number of chains >= 2 and of generations, every likelihood function, random stream, limits, number type with the usual comparison laws", "why_tests_cant": "A run draws millions of proposals; one that leaves the limits once would not be seen in a test of summary values.", "anchors": ["cdream/dream.cpp (dream)", "cdream/dream_initialize.cpp"]}
{"id": "C59", "title": "A Markov chain run is memory safe and ends", "statement": "A new run touches only its own initialised memory and returns after at most the given number of generations.", "quantifier": "every configuration, likelihood function, random stream", "why_tests_cant": "Uninitialised or foreign memory is read only for particular draws and configurations, and mostly without visible effect.", "anchors": ["cdream/dream.cpp (dream)", "cdream/dream_initialize.cpp", "cdream/restore_state.cpp", "cdream/gen_CR.cpp", "cdream/gelman_rubin.cpp", "cdream/check_outliers.cpp"]}
{"id": "C60", "title": "The chain files hold the whole history", "statement": "After a run the files hold, for every chain and every generation in order, the position plus the image offset, the likelihood and the burn-in flag.", "quantifier": "every configuration, likelihood function, random stream", "why_tests_cant": "The missing of one generation out of thousands is not visible in the files.", "anchors": ["cdream/dream.cpp (dream)"]}
{"id": "C61", "title": "Proposals are accepted with the Metropolis probability", "statement": "A proposal is accepted with probability min(1, exp(difference of log-likelihoods)); an accepted chain takes the proposal and its likelihood, a rejected one keeps both; a position whose likelihood is not a number is never taken.", "quantifier": "all likelihood values, all uniform numbers, every state of the chains", "why_tests_cant": "The distribution of accepted moves is a statement about all draws; a run samples finitely many, and a wrong rule still gives plausible chains.", "anchors": ["cdream/dream.cpp (dream)"]}
{"id": "C62", "title": "Proposals are built from other chains, symmetrically", "statement": "The chains whose difference gives a proposal are two different ones other than the chain itself, and each pair is as likely as the reversed pair.", "quantifier": "every number of chains, every chain, every draw", "why_tests_cant": "A bias between pairs changes the sampled distribution slightly; no run-time check can see it.", "anchors": ["cdream/dream.cpp (dream)"]}
{"id": "C63", "title": "Crossover probabilities follow the published algorithm", "statement": "The table of crossover values holds each value as often as drawn and nothing else, and during burn-in the probability of a value becomes proportional to its mean squared normalised jump.", "quantifier": "all numbers of chains and crossover values, all draws, all jump statistics", "why_tests_cant": "The probabilities are internal and adapt over thousands of random steps.", "anchors": ["cdream/gen_CR.cpp", "cdream/dream.cpp (update of pCR)"]}
{"id": "C64", "title": "Initial positions are a Latin hypercube", "statement": "For every free parameter the initial positions of the chains lie in different parts of the range divided into as many equal parts as there are chains.", "quantifier": "every number of chains and parameters, all limits, permutations and uniform numbers", "why_tests_cant": "It is a joint property of all chains for every random permutation.", "anchors": ["cdream/dream_initialize.cpp"]}
{"id": "C65", "title": "An interrupted run can be resumed from its files", "statement": "A run resumed from the files of an earlier run starts from the written positions and likelihoods, continues with the following generation, reads only memory that has been set, and keeps to the limits.", "quantifier": "every configuration, number of lines per file, contents of the files", "why_tests_cant": "Whether it works depends on the instant at which the earlier run was stopped and on image offsets and options differing between runs.", "anchors": ["cdream/restore_state.cpp", "cdream/dream.cpp (dream)"]}
{"id": "C66", "title": "The convergence test of the Markov chains is that of Gelman and Rubin", "statement": "The number calculated for each free parameter is the potential scale reduction of Gelman and Rubin for the second half of the generations after burn-in; the run is declared converged only if it is below the limit for every free parameter, so that the chains agree with each other.", "quantifier": "all chain histories, numbers of chains and generations, limits; exact arithmetic", "why_tests_cant": "A wrong factor still gives numbers that tend to 1; wrongly declared convergence is only seen by comparison with a longer run.", "anchors": ["cdream/gelman_rubin.cpp:6-99", "cdream/dream.cpp:414-454"]}
{"id": "C67", "title": "Only outlier chains are moved, to the best chain", "statement": "A chain whose mean likelihood is below the lower quartile of all chains by more than twice the distance of the quartiles is put at the position of the chain with the highest mean likelihood, and burn-in starts again; no other chain is changed.", "quantifier": "all likelihood histories, numbers of chains; exact arithmetic", "why_tests_cant": "Outliers are rare events of a random search, and a chain moved by mistake leaves no visible trace.", "anchors": ["cdream/check_outliers.cpp:3-35", "cdream/dream.cpp:388-412"]}
{"id": "C68", "title": "Markov chain proposals follow the published DREAM formula", "statement": "Without an outlier move the proposal of a chain is its position plus (1 + e) gamma times the sum of the differences of the chosen pairs plus a small normal deviate, for exactly the free parameters selected by crossover, and its position for all other parameters; gamma is 2.38/sqrt(2 delta d) for d changed parameters, and 1 in every fifth generation; a parameter is left alone with probability 1 - CR.", "quantifier": "all positions, draws, crossover values, numbers of pairs and parameters; exact arithmetic", "why_tests_cant": "A wrong factor in gamma or a wrong count of changed parameters still gives a sampler that converges, only slower.", "anchors": ["cdream/dream.cpp:193-265"]}
{"id": "C69", "title": "Calculated fluxes are integrals of the surface brightness", "statement": "For the components that calculate their own total flux (Exponential, Gaussian, Sersic) the result is the integral over the whole plane of the surface brightness given by GetValue, up to the rounding of the constant PI.", "quantifier": "all parameter vectors with size > 0 and ellipticity < 1, Sersic index 0.06 to 85, all image descriptions; exact arithmetic", "why_tests_cant": "A sum over a finite image only approximates the integral; wrong exponents in the formula can agree for the few values tested.", "anchors": ["function_objects/func_exp.cpp:200-213", "function_objects/func_gaussian.cpp:206-219", "function_objects/func_sersic.cpp:236-251"]}
{"id": "C70", "title": "Estimated fluxes of a model", "statement": "The flux reported for a component does not depend on where it is in the image, nor on the number of threads; it is zero for sky backgrounds, otherwise the known flux or the sum over an image with the component at its centre. The total is the sum, and the fractions add up to one.", "quantifier": "all models, parameter vectors, image sizes and divisions of rows among threads; exact arithmetic", "why_tests_cant": "Half a pixel of shift of the centre changes the sums only slightly.", "anchors": ["core/model_object.cpp:2410-2476 (FindTotalFluxes)", "core/makeimage_main.cpp:726-818 (DetermineFluxes)"]}
{"id": "C71", "title": "QR factorisation of the Jacobian", "statement": "mp_qrfac writes the Jacobian with its columns permuted as an orthogonal matrix times an upper triangular one whose diagonal decreases in size, each diagonal element being at least as long as the rest of every later column; the loop in mpfit that follows yields the transposed orthogonal matrix times the residuals.", "quantifier": "all matrices with at least as many rows as columns, all vectors; exact arithmetic", "why_tests_cant": "A test compares a few matrices numerically; the rank-deficient cases and the interplay of pivoting with the updating of the norms are rarely met.", "anchors": ["solvers/mpfit.cpp:1361-1557 (mp_qrfac)", "solvers/mpfit.cpp:646-671"]}
{"id": "C72", "title": "Step of the Levenberg-Marquardt solver", "statement": "mp_lmpar returns a damping parameter that is not negative and a step that solves the damped normal equations of the linearised problem for that parameter. The step is therefore the best one of its size for the linear model and lowers the sum of squares of that model unless the gradient is zero. Nothing is divided by zero, also for a rank-deficient Jacobian. The step is not longer than 1.1 times the step bound.", "quantifier": "all Jacobians (also rank-deficient ones), residuals, positive scales, step bounds and previous damping parameters, whatever the work arrays held before; exact arithmetic", "why_tests_cant": "The iteration over the damping parameter takes different branches depending on rank and step bound; a wrong one still gives some step, and the fit converges more slowly or elsewhere.", "anchors": ["solvers/mpfit.cpp:1783-2067 (mp_lmpar)", "solvers/mpfit.cpp:1561-1779 (mp_qrsolv)"]}
{"id": "C73", "title": "Predicted reduction of the sum of squares", "statement": "The predicted reduction against which the solver compares the actual one is what the linear model of the residuals loses with the step actually taken, relative to the present sum; the directional derivative likewise.", "quantifier": "all Jacobians, residuals, scales and damped steps, with and without parameter limits; exact arithmetic", "why_tests_cant": "The ratio only steers the step bound: with a wrong value the fit still ends somewhere.", "anchors": ["solvers/mpfit.cpp:812-873", "solvers/mpfit.cpp:747-810 (steps limited by alpha)"]}
{"id": "C74", "title": "Covariance matrix and errors of the parameters", "statement": "mp_covar turns the factorisation into the covariance matrix, the inverse of the Jacobian's products, of the parameters that can be determined, with zeros for the others; the errors are the square roots of its diagonal. If the Jacobian is well conditioned these are all free parameters. The Jacobian is that at the parameters returned.", "quantifier": "all Jacobians, all tolerances that are not negative; exact arithmetic", "why_tests_cant": "Scattering through the permutation works by accident for symmetric or diagonal test cases.", "anchors": ["solvers/mpfit.cpp:2165-2270 (mp_covar)", "solvers/mpfit.cpp:1024-1047"]}
{"id": "C75", "title": "Line-of-sight integrals show the documented object", "statement": "The value of a pixel of a three-dimensional component is the integral of the documented luminosity density, with the parameters named in the documentation, along the line of sight through the pixel, for an object whose midplane is tilted by the inclination about a line of nodes at the position angle, over the range of the code.", "quantifier": "all seven functions, all parameters of the physical range, all pixels, wherever the parameters are in the vector; the integrator is arbitrary within its relative tolerance; exact arithmetic otherwise", "why_tests_cant": "Sign errors of rotations and permuted parameters give images that look plausible, and for symmetric or face-on test cases the same image.", "anchors": ["function_objects/func_expdisk3d.cpp", "function_objects/func_brokenexpdisk3d.cpp", "function_objects/func_gaussianring3d.cpp", "function_objects/func_ferrersbar3d.cpp", "function_objects/func_peanut_dattathri.cpp", "function_objects/func_triaxbar3d.cpp", "function_objects/func_bpbar3d.cpp", "function_objects/helper_funcs_3d.cpp", "function_objects/integrator.cpp:35-52"]}
{"id": "C76", "title": "The integration range covers the object", "statement": "The integral over the finite range of the code differs from the integral along the whole line of sight by a negligible amount.", "quantifier": "all parameters of the physical range, all pixels; exact arithmetic", "why_tests_cant": "Whether the range is sufficient depends on the thickness, the size in pixels and the inclination together; a test has to guess the bad corner.", "anchors": ["function_objects/func_expdisk3d.cpp", "function_objects/func_brokenexpdisk3d.cpp", "function_objects/func_gaussianring3d.cpp", "function_objects/func_ferrersbar3d.cpp", "function_objects/func_peanut_dattathri.cpp", "function_objects/func_triaxbar3d.cpp", "function_objects/func_bpbar3d.cpp"]}
{"id": "C77", "title": "Symmetry and scaling of three-dimensional components", "statement": "The image of a component is symmetric about its centre; it is proportional to the luminosity parameters; it is not negative; a disk seen face-on is circular whatever its position angle.", "quantifier": "all functions, parameters of the physical range, all pixels; exact integrator and arithmetic", "why_tests_cant": "A test compares a few pixels.", "anchors": ["function_objects/func_expdisk3d.cpp", "function_objects/func_brokenexpdisk3d.cpp", "function_objects/func_gaussianring3d.cpp", "function_objects/func_ferrersbar3d.cpp", "function_objects/func_peanut_dattathri.cpp", "function_objects/func_triaxbar3d.cpp", "function_objects/func_bpbar3d.cpp"]}
{"id": "C78", "title": "Three-dimensional components are bounded", "statement": "No point of a component is brighter than its luminosity parameter says, so that no pixel exceeds that parameter times the length of the integration range.", "quantifier": "all functions, parameters of the physical range, all pixels; exact integrator and arithmetic", "why_tests_cant": "An unbounded density shows only far from the centre or for unusual parameters.", "anchors": ["function_objects/func_expdisk3d.cpp", "function_objects/func_brokenexpdisk3d.cpp", "function_objects/func_gaussianring3d.cpp", "function_objects/func_ferrersbar3d.cpp", "function_objects/func_peanut_dattathri.cpp", "function_objects/func_triaxbar3d.cpp", "function_objects/func_bpbar3d.cpp"]}
{"id": "C79", "title": "Values reach the function they are written under", "statement": "A fit starts from the values and limits of the configuration file: each function is given the values written below it, the centre of its function set, its label and its optional parameters; X0 and Y0 of each set, and their limits, are moved into the coordinates of the image section and nothing else is; the number of free parameters is the number of parameters that are not fixed. A file in which the number of values does not fit the functions is refused.", "quantifier": "all configuration files with any number of sets and functions, all catalogues of functions, all offsets; any arithmetic", "why_tests_cant": "Files used in tests are well formed and short; misplaced lines are only found by comparing the totals function by function.", "anchors": ["core/add_functions.cpp:389-461", "core/imfit_main.cpp:251-357", "core/mcmc_main.cpp:245-366", "core/model_object.cpp:279-290", "core/model_object.cpp:387-415", "core/model_object.cpp:2169-2194"]}
{"id": "C80", "title": "Starting values of fits to several images", "statement": "A fit to several images starts from a vector that holds the five image-description parameters of the second and further images, then the values of the configuration file, then those of the functions of single images; positions and their limits are moved into the section of the image they refer to; the number of free parameters is the number of parameters that are not fixed; optional parameters reach their functions.", "quantifier": "all numbers of images, all configuration and image-information files, all catalogues of functions, all offsets; any arithmetic", "why_tests_cant": "The vector is assembled from three sources with index arithmetic; tests use two images and few functions.", "anchors": ["core/multimfit_main.cpp:285-670", "core/utilities_multimfit.cpp:34-97", "core/model_object_multimage.cpp:184-190", "core/model_object_multimage.cpp:275-296", "core/imageparams_file_parser.cpp:223-297"]}
{"id": "C81", "title": "Spiral patterns", "statement": "Every logarithmic-spiral function has the documented value: its radial amplitude times an azimuthal Gaussian centred on the arms. The arms are exactly the m logarithmic spirals through the given radius and angle, the pattern repeats m times around the centre, the amplitude is continuous, and the value is finite at the centre.", "quantifier": "all five spiral functions, all parameters in their ranges, all numbers of arms, all points; exact real arithmetic", "why_tests_cant": "The pattern depends on the phase of an angle that jumps by a turn; tests look at a few pixels of one pattern.", "anchors": ["function_objects/func_logspiral.cpp:94-190", "function_objects/func_logspiral2.cpp:101-220", "function_objects/func_logspiral3.cpp:101-230", "function_objects/func_logspiral_exp.cpp:101-220", "function_objects/func_logspiral_gauss.cpp:101-220"]}
{"id": "C82", "title": "Spiral arcs", "statement": "The arc has the documented value at every point less than half a turn from the direction of its maximum; it is brightest, with the given intensity, exactly in the given direction at the given radius.", "quantifier": "all parameters in their ranges, all directions, all points; exact real arithmetic", "why_tests_cant": "Angles are reduced by four different rules; the wrong turn is only taken for some directions.", "anchors": ["function_objects/func_logspiral_arc.cpp:76-257"]}
{"id": "C83", "title": "Oversampled regions get their own PSF", "statement": "Every oversampled region gets the PSF image and the oversampling scale meant for it (its own, or the only one), and lies at the place asked for, also when a section of the image is used. Counts that do not fit and unreadable images are refused.", "quantifier": "all numbers of regions, PSF images and scales, all offsets, all files", "why_tests_cant": "Tests use one region.", "anchors": ["core/getimages.cpp:137-201", "core/store_psf_oversampling.cpp:44-112", "core/psf_oversampling_info.cpp:43-74"]}
{"id": "C84", "title": "Normalised PSFs of oversampled regions", "statement": "Oversampled regions use the PSF normalised to 1, for extended light and for point sources alike, unless normalisation is switched off; a PSF that cannot be normalised is refused.", "quantifier": "all PSF images, all lists of regions, all interpolation routines that are linear in the PSF; exact real arithmetic", "why_tests_cant": "PSF images of tests already sum to 1.", "anchors": ["core/oversampled_region.cpp:160-200", "core/convolver.cpp:296-306", "core/model_object.cpp:903-943", "core/setup_model_object.cpp:96-104"]}
{"id": "C85", "title": "Rings with azimuthal variation", "statement": "GaussianRingAz has the documented value: a Gaussian around an ellipse whose amplitude varies with the angle from A_maj on the major axis to A_min_rel A_maj on the minor axis. It looks the same after half a turn, lies between the rings of constant amplitude, and with A_min_rel = 1 is GaussianRing.", "quantifier": "all parameters in their ranges, all image descriptions, all points; exact real arithmetic", "why_tests_cant": "Angles are reduced by a jump of atan2; tests look at points on the axes.", "anchors": ["function_objects/func_gaussian-ring-az.cpp:80-205"]}
{"id": "C86", "title": "Ringed disk", "statement": "N4608Disk is a broken exponential plus a ring whose amplitudes on the two axes are A_maj and A_min relative to the central intensity, so that the component is proportional to that intensity.", "quantifier": "all parameters in their ranges, all points; exact real arithmetic", "why_tests_cant": "Units of one amplitude; images look plausible whatever its value.", "anchors": ["function_objects/func_n4608disk.cpp:60-149", "function_objects/func_gaussian-ring-az.cpp:80-205"]}
{"id": "C87", "title": "Isophotes of changing shape", "statement": "GenExponential2 has the shape c0_1 inside r1, c0_2 outside r2 and a linear change between, is GenExponential if the two shapes agree, and decreases outwards.", "quantifier": "all parameters in their ranges (r1 < r2, r1 = r2, r1 > r2), all pixels, with and without subsampling; exact real arithmetic", "why_tests_cant": "Depends on the relation of four parameters.", "anchors": ["function_objects/func_gen-exp2.cpp:85-224", "function_objects/helper_funcs.cpp"]}
{"id": "C88", "title": "Gaussian on a floor", "statement": "GaussianExtraParams adds the floor given as optional parameter to a Gaussian; anything but a number and any other parameter is refused; the total flux is that of the pixels.", "quantifier": "all parameters, all texts of optional parameters, all pixels; exact real arithmetic", "why_tests_cant": "Messages and return values of wrong input are not compared in tests.", "anchors": ["function_objects/func_gauss_extraparams.cpp:75-252", "core/add_functions.cpp:415-440"]}
{"id": "C89", "title": "Light of a point source", "statement": "The pixels of a point source add up to its total intensity times the light of the PSF on the pixel grid, in the main image and in an oversampled region alike.", "quantifier": "all image sizes, regions, oversampling scales, interpolators with finite values, positions and intensities; exact real arithmetic", "why_tests_cant": "Total fluxes in regions are not compared with those outside.", "anchors": ["function_objects/func_pointsource.cpp:200-230", "core/oversampled_region.cpp:284-434", "core/downsample.cpp:54-109", "core/model_object.cpp:1103-1229"]}
{"id": "C90", "title": "Saved image information can be used again", "statement": "The file of image parameters written at the end of a fit to several images is accepted by the parser of such files and describes the same images with the fitted image-description parameters, so that a new fit can start from it.", "quantifier": "all numbers of images, all images (names, sky, gain, read noise, masks, errors, PSFs, oversampled PSFs and regions), all fitted values, with and without errors, all headers of comments", "why_tests_cant": "Written files are read by eye; values that are lost are defaults in test data.", "anchors": ["core/print_results_multi.cpp:85-228", "core/imageparams_file_parser.cpp", "core/model_object_multimage.cpp:514-543,614-619"]}
{"id": "C91", "title": "Columns of parameter tables of several images", "statement": "The rows of a table of parameters of several images have the columns of its header: below each title stands the value of that parameter.", "quantifier": "all numbers of images, all models, all parameter vectors, all image offsets", "why_tests_cant": "Header and rows are written by different functions, from different model objects.", "anchors": ["core/model_object_multimage.cpp:646-717", "core/model_object.cpp:1941-2033"]}
{"id": "C92", "title": "Images are read whole or refused", "statement": "Reading an image gives all of its pixels and its size, or no image; no file is left open. An image that was written is read back with the same pixels and size.", "quantifier": "all files, all failures of the calls of the FITS library, all images", "why_tests_cant": "Failures in the middle of a file are not part of any test data.", "anchors": ["core/image_io.cpp:119-372"]}
{"id": "C93", "title": "Images used together have the same size", "statement": "Mask and error images are accepted exactly if they are images of the size of the data; the status tells which are there. A PSF comes with its size.", "quantifier": "all data sizes, all files, with and without mask and errors", "why_tests_cant": "Sizes are only tested for a few pairs of files.", "anchors": ["core/getimages.cpp:34-135"]}
{"id": "C94", "title": "The Jacobian consists of difference quotients", "statement": "Each column of the Jacobian of the Levenberg-Marquardt solver is the difference quotient of the deviates for a small change of one free parameter that does not cross its upper limit; it is exact for linear models and differs from the derivative by no more than the second derivative allows.", "quantifier": "all deviates, all parameters, limits and fixed parameters, all numbers of pixels", "why_tests_cant": "The Jacobian is never printed; errors in it only slow a fit down.", "anchors": ["solvers/mpfit.cpp:1102-1350"]}
{"id": "C95", "title": "The gradient test finds stationary points", "statement": "The fit stops because of the gradient exactly if for each free parameter the derivative of the sum of squares is small, or the parameter is at a limit and only values beyond the limit have a smaller sum. For linear models a zero gradient means that no better point exists within the limits.", "quantifier": "all Jacobians, all deviates, all limits, all tolerances", "why_tests_cant": "The test depends on the factorisation of the whole Jacobian.", "anchors": ["solvers/mpfit.cpp:575-598", "solvers/mpfit.cpp:621-728"]}
{"id": "C96", "title": "A whole Levenberg-Marquardt fit ends, within the limits, at a better or stationary point", "statement": "With Jacobian, factorisation, step and loops put together: fixed parameters never change; the result is the start or has a smaller sum of squares; all trial points and the result are within the limits; the fit ends with one of the documented codes for success; code 4 means that the derivative is small or outwards at a limit.", "quantifier": "all deviates (real, with difference quotients of moderate size), all limits and fixed parameters, all starts within the limits, all numbers of turns", "why_tests_cant": "The number of turns is not bounded in advance, and a fit that does not end cannot be told from a slow one.", "anchors": ["solvers/mpfit.cpp:310-1076", "solvers/levmar_fit.cpp:69-117"]}
{"id": "C97", "title": "Linear models are fitted in one step", "statement": "For deviates that are linear in the parameters with a Jacobian of full rank and without limits, the fit ends after at most one step with the parameters of least sum of squares, if the step is within the first bound.", "quantifier": "all linear models of full rank, all starts whose scaled distance to the minimum is at most 110 times their scaled size", "why_tests_cant": "A test shows a result near the minimum, not which step led there.", "anchors": ["solvers/mpfit.cpp:560-996", "solvers/mpfit.cpp:1783-2067"]}
{"id": "C98", "title": "What a run of imfit saves belongs to the fitted parameters and the data", "statement": "Whatever the solver evaluated and however the data were resampled, the value saved with the best-fit parameters is the fit statistic of exactly these parameters for the data, and the saved model and residual images are those of these parameters.", "quantifier": "all images and options of the set-up, all models, all sequences of evaluations of the solver and of the fits to resampled data, all random numbers", "why_tests_cant": "The sequence of evaluations and resamplings differs from run to run, and the saved value is not compared with anything.", "anchors": ["core/imfit_main.cpp:360-478", "core/print_results.cpp", "core/bootstrap_errors.cpp:159-250", "core/model_object.cpp"]}
{"id": "C99", "title": "Bootstrap resampling counts only fits that have ended by themselves", "statement": "Fits of resampled data that were broken off by Ctrl-C do not enter the bootstrap statistics. (The code counts every fit with a positive status, and the status of a fit broken off is 100: after Ctrl-C each further fit makes at most one step and is counted.)", "quantifier": "all deviates (real, with difference quotients of moderate size), all limits, all starts, all numbers of samples, all times of the signal", "why_tests_cant": "The signal comes at any time, and a result after one step looks like any other.", "anchors": ["core/bootstrap_errors.cpp:196-231", "solvers/mpfit.cpp:939-996", "solvers/mpfit.h:129", "core/imfit_main.cpp:381-440"]}
{"id": "C100", "title": "Profile functions are cuts through image functions", "statement": "The one-dimensional Exponential, Gaussian, Moffat, Sersic, broken-exponential, core-Sersic and Nuker functions have, at a distance t from the centre, the value of the image function of the same name with the same parameters at the distance t along its major axis, mu being turned into an intensity with the zero point. (For Sersic functions with n <= 0.36 this is false.)", "quantifier": "all parameters of the physical range, all positions, angles, ellipticities, zero points and distances", "why_tests_cant": "Both are separate source files with their own constants; tests compare single values.", "anchors": ["function_objects_1d/func1d_exp.cpp", "function_objects_1d/func1d_sersic.cpp:66-89", "function_objects_1d/func1d_core-sersic.cpp:66-97", "function_objects_1d/func1d_broken-exp.cpp", "function_objects_1d/func1d_nuker.cpp", "function_objects_1d/func1d_moffat.cpp", "function_objects_1d/func1d_gaussian.cpp"]}
{"id": "C101", "title": "The zero point does not change profile fits in magnitudes", "statement": "If all functions of a profile model have magnitudes as parameters and the data are magnitudes, the model and all deviates are the same for every zero point, with or without a PSF; and a function's magnitude parameter is its surface brightness at the centre, at r_e or at r_b, as documented. (False for functions with an intensity as parameter; the centre of vdKSech-1D is fainter than mu_0; GaussHermite-1D ignores the sizes of h3 and h4.)", "quantifier": "all models of function sets with parameters of the physical range, all data, masks, errors, PSFs and zero points", "why_tests_cant": "The user chooses any zero point; a wrong factor shifts all magnitudes alike and looks like a different parameter value.", "anchors": ["profile_fitting/model_object_1d.cpp:361-437", "function_objects_1d/func1d_vdksech.cpp:58-80", "function_objects_1d/func1d_gauss-hermite.cpp:56-86"]}
{"id": "C102", "title": "Profiles are convolved with the PSF up to their ends", "statement": "With a PSF, the model value of every data point, also of the first and the last, is the mean of the model at the neighbouring positions with the normalised PSF as weights, centred at the point nPSF/2. (Positions at different distances are accepted and give wrong values; one data point with a PSF reads beyond the positions.)", "quantifier": "all models, all numbers of points >= 2 at equal distances, all PSFs with a sum that is not 0", "why_tests_cant": "Edge effects are small and depend on the number of points and on the padding.", "anchors": ["profile_fitting/convolver1d.cpp:57-262", "profile_fitting/model_object_1d.cpp:238-270", "profile_fitting/model_object_1d.cpp:361-437"]}
{"id": "C103", "title": "Profile fits use the errors and the mask", "statement": "The deviates of a profile fit are (data - model)/error at points that are not masked and have a value, and 0 at all others; the number of valid points is the number of these points; the fit statistic is the sum of the squares; resampled fits use the resampled points. (False with a PSF, where the fit statistic divides by zero; with zero errors at masked points; with a negative error; in magnitudes at masked points without light; when resampling with masked points.)", "quantifier": "all data, errors, masks and models", "why_tests_cant": "The failures need combinations of options, and most of them give numbers that look reasonable.", "anchors": ["profile_fitting/model_object_1d.cpp:142-231", "profile_fitting/model_object_1d.cpp:277-355", "profile_fitting/model_object_1d.cpp:442-474", "core/model_object.cpp:1620-1689", "profile_fitting/profilefit_main.cpp:273-400"]}
{"id": "C104", "title": "Data files of profilefit are read row by row", "statement": "The values that profilefit stores are the columns of the rows asked for with --x1 and --x2, in order, and comment lines are skipped; nothing is read or written beyond an array for any text. (False for lines of 1023 or more characters; --x1 and --x2 are documented to count from 1 and are used from 0; one row, blank lines, PSFs longer than the data are refused; a directory gives an endless loop; too few start values are read beyond their end.)", "quantifier": "all texts of files, row ranges and combinations of columns", "why_tests_cant": "Buffer length and off-by-one errors need particular line lengths and ranges.", "anchors": ["profile_fitting/read_profile.cpp", "profile_fitting/profilefit_main.cpp:150-330"]}
{"id": "C105", "title": "The options of imfit are what the command line says", "statement": "For command lines with well-formed values each of the 40 settings of imfit is the one given, or its documented default; command lines with unknown options, or with values that do not begin like a number of the right kind, are refused; no other end of the program is possible than a message or an integer that is too large. (False for values with garbage after the first digits, repeated options, contradicting flags, and numbers of more than 32 bits.)", "quantifier": "all command lines whose arguments have at most one '='", "why_tests_cant": "There are more than 2^40 combinations of options.", "anchors": ["core/imfit_main.cpp:527-977", "core/utilities.cpp:564-611", "core/options_base.h", "core/options_imfit.h", "solvers/nlopt_fit.cpp:87-108"]}
{"id": "C106", "title": "The command line overrides the configuration file", "statement": "Gain, read noise, exposure time, sky and number of combined images are those of the command line, else those of the last line with the keyword in the configuration file, else the defaults, and the configuration file changes no other setting; the fit statistic is the one that the command line asks for. (Values in the configuration file are not checked; contradicting statistics are not refused.)", "quantifier": "all command lines (as in C105) and all lists of options in the configuration file", "why_tests_cant": "The order of three sources for five settings; a slip shows only when two of them are given.", "anchors": ["core/imfit_main.cpp:995-1061", "core/setup_model_object.cpp:117-157"]}
{"id": "C107", "title": "The number of threads", "statement": "Without --max-threads, imfit uses as many threads as the computer has cores, and with it the number asked for. (On computers without a line \"physical id\" in /proc/cpuinfo, it ends in an assertion unless --max-threads is given; different processors are counted wrongly.)", "quantifier": "all numbers of sockets, logical processors and cores, all command lines (as in C105)", "why_tests_cant": "Depends on the computer on which the tests are run.", "anchors": ["core/count_cpu_cores.cpp:45-83", "core/imfit_main.cpp:165-171", "core/setup_model_object.cpp:51-52", "core/model_object.cpp:258-265"]}
{"id": "C108", "title": "The options of makeimage are what the command line says", "statement": "For command lines with well-formed values each setting of makeimage is the one asked for, or its documented default; command lines with unknown options, without arguments, or with values that do not begin like a number of the right kind are refused; no other end of the program is possible than a message or an integer that is too large. (False: requests that exclude each other are not refused, a missing configuration file is not noticed, 4294967296 columns are none.)", "quantifier": "all command lines whose arguments have at most one '='", "why_tests_cant": "There are more combinations of options than can be run.", "anchors": ["core/makeimage_main.cpp:383-672", "core/options_makeimage.h", "core/options_base.h"]}
{"id": "C109", "title": "The size of the image that makeimage saves", "statement": "The saved image has the size given on the command line, else in the configuration file, else that of the reference image, and without any of these makeimage ends with a message; if only fluxes are wanted and no size is given, it works with two by two pixels. (False: with fluxes only, a reference image leads to an assertion; with --nosave or --timing the size is looked for in an unnamed reference image; one dimension alone is ignored.)", "quantifier": "all command lines (as in C108), lists of options in the configuration file and reference images", "why_tests_cant": "Three sources for the size and four requests that change what is needed.", "anchors": ["core/makeimage_main.cpp:144-213", "core/makeimage_main.cpp:678-724", "core/model_object.cpp:1069-1072"]}
{"id": "C110", "title": "The images of the functions add up to the image of the model", "statement": "makeimage --output-functions saves one image for the model and one for each function, in their order, with different names and of the same size, and at each pixel the values of the functions add up to that of the model; without PSF and oversampling the image of a function shows its values at the centres of the pixels. (False for point sources together with oversampled regions; --save-expanded without a PSF uses sizes that were never set.)", "quantifier": "all models, parameters, sizes, PSFs and oversampled regions", "why_tests_cant": "A wrong state left by one image shows only in the next one, and sums over all functions are not compared by the tests.", "anchors": ["core/makeimage_main.cpp:269-345", "core/model_object.cpp:2157-2288"]}
{"id": "C111", "title": "The estimate of memory is not too small", "statement": "EstimateMemoryUse is at least the size of all arrays of pixels that imfit allocates, and exact without PSF and output. (False: with the other solvers and chi^2 the deviates are not counted, bootstrap resampling and the image of weights never are, and pixels of oversampled PSFs count one byte.)", "quantifier": "all sizes of images, PSFs and regions, numbers of parameters and settings", "why_tests_cant": "The estimate is only compared with hand-computed values, never with what is allocated.", "anchors": ["core/estimate_memory.cpp", "core/model_object.cpp", "core/convolver.cpp", "solvers/mpfit.cpp"]}
{"id": "C112", "title": "The table of fluxes", "statement": "Each line of the table of makeimage --print-fluxes or --save-fluxes shows the name, label, flux, share of the total and, with a zero point, the magnitude of one function, and the last line those of the whole; differences of magnitudes are those of the shares. (False: without any flux the shares are NaN but the whole is 1; a zero point of -10000 is ignored; a file that cannot be opened is written to.)", "quantifier": "all models, sizes, zero points and lists of names", "why_tests_cant": "The table is only looked at for a few models.", "anchors": ["core/makeimage_main.cpp:343-346", "core/makeimage_main.cpp:726-818"]}
{"id": "C113", "title": "The options of imfit-mcmc are what the command line says", "statement": "For command lines with well-formed values each setting of imfit-mcmc, and each setting of DREAM that follows from it, is the one asked for, or its documented default; the configuration file only provides what the command line leaves open; wrong command lines are refused, and so are free parameters without limits. (False: --cashstat always ends the program with a message about the Levenberg-Marquardt solver; generations between tests of convergence are rounded to multiples of ten; one free parameter leads to a single chain, which cannot run.)", "quantifier": "all command lines whose arguments have at most one '=', all lists of options in configuration files and all parameters", "why_tests_cant": "There are more combinations of options than can be run.", "anchors": ["core/mcmc_main.cpp:284-441", "core/mcmc_main.cpp:486-993", "core/options_mcmc.h", "core/setup_model_object.cpp:115-155", "cdream/dream.cpp:414-454"]}
{"id": "C114", "title": "psfconvolve and psfconvolve1d write the input seen through the normalised PSF", "statement": "For an image and a PSF that can be read, psfconvolve writes the image convolved with the PSF divided by its sum, with zero beyond the edges, to the file named by the third argument, and changes no other file; psfconvolve1d writes a line for each row of the data file with its x value and the convolved value. Arguments that are left out stand for the documented file names; an input that is not an image ends the program. (False: unknown options such as --no-normalize are ignored; all that follows a single dash is ignored; an image that cannot be saved leaves an empty file and the status 0; a PSF profile longer than the data, or data of one row, is refused; values below half of the sixth decimal are written as zero.)", "quantifier": "all command lines, images, PSFs whose sum is not zero, and data files with lines of bounded length", "why_tests_cant": "Tests convolve a few small images; they cannot tell what is done with every size of image and PSF.", "anchors": ["extra/psfconvolve_main.cpp", "profile_fitting/psfconvolve1d_main.cpp", "core/convolver.cpp", "profile_fitting/convolver1d.cpp"]}
{"id": "C115", "title": "Spline1D is the natural cubic spline through its points", "statement": "For three or four points whose radii increase from zero, the value of Spline1D at a distance from X0 up to the last radius is that of the natural cubic spline through the points (which exists, and so is unique there); at the points it is the given intensity, on both sides of the centre. (False: two points, which the header offers, abort the program, as does a distance beyond the last point or a radius that does not increase; N = 1 reads parameters that are not the function's; N = 5 is refused but kept, and then arrays are overrun; the spline of positive intensities can be negative.)", "quantifier": "all points, parameter arrays, offsets, centres and distances", "why_tests_cant": "Tests compare a few values; the equations for the coefficients must hold for all points, and the refused cases end the process.", "anchors": ["function_objects_1d/func1d_spline.cpp", "function_objects_1d/func1d_spline.h"]}
{"id": "C116", "title": "Bootstrap errors of profile fits describe the successful resampled fits", "statement": "Each line that profilefit prints for a free parameter describes the values of the parameter at the ends of the fits to the resampled profiles: interval, mean and standard deviation; fixed parameters are reported with their values. (Proved for all the fits, if some parameter is limited or fixed. False: fits that fail are counted; if no parameter has limits and none is fixed, all are reported as fixed; after one round the deviation is not a number.)", "quantifier": "all outcomes of the fits, numbers of parameters and numbers of rounds from two", "why_tests_cant": "Tests cannot run all outcomes of fits; a failed fit among hundreds shifts the errors without notice.", "anchors": ["profile_fitting/bootstrap_errors_1d.cpp", "core/statistics.cpp"]}
{"id": "C117", "title": "multimfit does what its command line and its image-info file say", "statement": "Each option of multimfit sets what it says and nothing else; a command line that is not understood ends the program before any image is read; each image is fitted with its own data, mask, noise, PSF and characteristics in the formats of the image-info file, independently of the other images; the files written are the summary, the parameters of each image, the image-info file, the bootstrap and the images of the model. (False: without --cashstat the members that choose the statistic are read but were never given a value; --mask-zero-is-bad, --errors-are-variances, --errors-are-weights, --save-residual, --save-weights and --printimage have no effect; arguments that are not options are ignored; with --fitstat-only the files of best-fit parameters are written and a bootstrap is done without limits; a file that cannot be opened gives a write through a null pointer.)", "quantifier": "all command lines, image-info contents, numbers of images and readable files", "why_tests_cant": "Members without a value hold whatever the memory held: a test passes on one machine and build and fails on another. Combinations of images and options are unbounded.", "anchors": ["core/multimfit_main.cpp", "core/options_multimfit.h", "core/options_base.h", "core/setup_model_object.cpp", "core/print_results_multi.cpp"]}
{"id": "C118", "title": "Whichever solver is chosen, the fit keeps to the limits and does not end worse than it began", "statement": "The solver named on the command line is the one that DispatchToSolver runs, with its settings; an unknown number does nothing and is reported. Whichever it is, the parameters after the fit, and all for which a model is computed on the way, are within the limits of the configuration file, and fixed ones keep their values. The fit does not end at a worse value than that of the start. (False: differential evolution makes no use of the start values, and can end worse than they are.)", "quantifier": "all command lines, lists of parameters with limits, fixed or free, start values, statistics and solver numbers", "why_tests_cant": "Each solver is run by tests on a few images; that all interfaces treat all combinations of limits and fixed parameters alike is a statement over unbounded lists and runs.", "anchors": ["solvers/dispatch_solver.cpp", "solvers/levmar_fit.cpp", "solvers/diff_evoln_fit.cpp", "solvers/nmsimplex_fit.cpp", "solvers/nlopt_fit.cpp"]}
{"id": "C119", "title": "makemultimages makes the images that its files describe", "statement": "The options of makemultimages are those of its command line. Every image described in the image-info file is made in the size described (or that of its data image) from the functions of the configuration file followed by its own, with its own description and parameters: positions moved into the image, everything else unchanged, parameters of its own functions last; it is written to the file with its number unless --nosave is given. (False: the number of parameters is computed from a counter without a value; two own functions in one set overrun a list; an image-info file that could not be understood leads to a read past the end; --nosave, --timing, --output-functions, --save-expanded and --estimation-size have no effect; optional parameters are not used.)", "quantifier": "all command lines, configuration and image-info contents, any number of images, sets and functions, every arithmetic", "why_tests_cant": "There are few regression runs of makemultimages, with two or three images; which parameter reaches which image for any number of images, sets and own functions is a statement over unbounded lists.", "anchors": ["core/makemultimages_main.cpp", "core/options_makemultimages.h", "core/model_object_multimage.cpp:275-355", "core/param_holder.cpp"]}
{"id": "C120", "title": "The model of a section is the section of the model", "statement": "Every image function depends only on the distances of a pixel from the centre of its function set. So the model image that imfit computes for a section of an image, with the positions X0 and Y0 counted from the section, is the section of the model image of the whole: with any number of sets and functions, with PSF convolution (the margins are wide enough that nothing outside is missed), point sources and oversampled regions inside the section. (Not: oversampled regions that stick out of the section, or whose number of rows is computed wrongly, see C17.)", "quantifier": "all sizes and positions of sections, all sizes of images and PSFs, any number of sets, functions and regions, all parameters; exact arithmetic", "why_tests_cant": "Fits of sections are compared with stored results for one section of one image; that nothing changes for any section needs a statement over all offsets, sizes and functions.", "anchors": ["core/model_object.cpp:1103-1229", "core/oversampled_region.cpp:284-430", "core/downsample.cpp:54-109", "core/convolver.cpp:312-470", "function_objects/"]}
{"id": "C121", "title": "A fit of a section is a fit of the whole with the rest masked", "statement": "When one input is the section of another in which everything outside the section is masked, the setup uses the same number of pixels and succeeds for the one when it does for the other. For models that agree in the section (those that the program computes for a model moved into the section, C120) the Cash statistic and Poisson-MLR are the same number, and chi-squared is the same but for what is lost at residuals that are not zero but at most 3.834e-20. (Not: Poisson-MLR when data outside the section are NaN or infinite, see C03; oversampled regions that stick out of the section.)", "quantifier": "all sizes and positions of sections, all masks, error images and data (also NaN and infinite where masked), all finite models, all statistics; exact arithmetic", "why_tests_cant": "Tests compare one section with a stored result; that masks, weights and sums over all pixels agree for any section is a statement over unbounded images.", "anchors": ["core/model_object.cpp:1384-1775", "core/setup_model_object.cpp:56-157", "core/mp_enorm.cpp:50-125"]}
{"id": "C122", "title": "The header of a file of Markov chains describes the model and the columns", "statement": "The header that imfit-mcmc puts in front of its output consists of comment lines only. It repeats the model of the configuration file line by line: centres in coordinates of the image, functions, labels, optional parameters, values and limits. The last line names the columns, and every line of the file has as many entries as there are names, in that order. (False of the code for the limits of X0 and Y0 when a section of the image is fitted: they are printed in coordinates of the section beside values in coordinates of the image.)", "quantifier": "all models, sections, formats of numbers without blanks or line ends, numbers of crossover probabilities; lines shorter than 1024 characters; exact arithmetic", "why_tests_cant": "Tests print the parameters of one model without offsets; that every line of every header agrees with the configuration, and names with entries, is a statement about all models.", "anchors": ["core/model_object.cpp:1823-1933", "core/model_object.cpp:1941-2033", "core/mcmc_main.cpp:297-322", "core/mcmc_main.cpp:420-431", "cdream/dream.cpp:116-145", "cdream/dream.cpp:458-471"]}
{"id": "C123", "title": "The functions that are listed are the functions that can be used", "statement": "The list of functions shows each registered class once, in alphabetical order. A function of a configuration file is found exactly if its name is in the list, and it has the parameters of the class of that name: no class hides another one. The constructors stay within their tables of names and units. The list of parameters shows for each function the line FUNCTION with its name and one line for each parameter with its unit. The numbers of parameters agree with what the functions read in Setup.", "quantifier": "all names of functions; the 28 classes registered in the standard build; the map of factories for any classes with different names", "why_tests_cant": "The constants are spread over 28 files, and no test compares N_PARAMS, the tables and the reads of Setup with each other; that no other name is accepted is a statement about all names.", "anchors": ["core/add_functions.cpp:163-256", "core/add_functions.cpp:389-461", "core/add_functions.cpp:490-580", "function_objects/function_object.cpp:194-212"]}
{"id": "C124", "title": "A fit can be continued from the file of its result", "statement": "The file that imfit writes for the result of a fit is a configuration file: it is read without complaint and describes the same sets, functions, labels and optional parameters with the printed values in coordinates of the whole image. A fit started from it for the same section of the image has the same model, and its start values are the result (up to the digits printed). (False of the code for limits, fixed parameters and the options that describe the image, which are not written: everything is free in the continued fit.)", "quantifier": "all models of the functions that are offered, all sections, results, with or without errors; labels that are trimmed, not one character long and without X0; lines below 1024 characters", "why_tests_cant": "Tests read one saved file; the composition of setting up, printing, reading and setting up again for all models is not tested.", "anchors": ["core/imfit_main.cpp:225-310", "core/imfit_main.cpp:425-440", "core/model_object.cpp:1823-1933", "core/print_results.cpp:264-288", "core/config_file_parser.cpp"]}
{"id": "C125", "title": "The sample configuration files can be used", "statement": "The texts that imfit and makeimage write for --sample-config are configuration files: they name the parameters of their function in the order in which the class lists them (and Setup reads them), they are read without complaint, imfit starts a fit from its sample with the values and limits that are written and all values lie within the limits, and makeimage obtains the size of the picture and the values of the model.", "quantifier": "the two sample texts, as they stand in the sources", "why_tests_cant": "The names in the samples are compared with nothing when the program is built, and reading accepts any names: a sample with parameters in a wrong order would be read and would describe another galaxy.", "anchors": ["core/sample_configs.h:18-57", "core/imfit_main.cpp:695", "core/makeimage_main.cpp:519", "core/config_file_parser.cpp", "function_objects/func_sersic.cpp"]}
{"id": "C126", "title": "makeimage reproduces the model of a fit", "statement": "From the file that imfit writes for the result of a fit, makeimage sets up the model of the fit, with centres in coordinates of the whole image. If the numbers of the result have no more digits than are printed, the image that makeimage makes with the same PSF has, in the section that was fitted, pixel by pixel the values of the model image of the fit; for a fit of the whole image the two images are the same.", "quantifier": "all configuration files and catalogues of functions, all results, all sections, with or without PSF and oversampled regions, all functions that depend on distances from the centre only", "why_tests_cant": "It joins printing, parsing, adding functions, the offsets of sections and the computation of images in two programs; a wrong offset or order in one of them shows only for sections or for several sets.", "anchors": ["core/makeimage_main.cpp:153-268", "core/print_results.cpp:221-290", "core/model_object.cpp:1823-1933", "core/config_file_parser.cpp:494-574", "core/add_functions.cpp:389-461", "core/imfit_main.cpp:280-330"]}
{"id": "C127", "title": "Nothing fits an image better than the model it was made with", "statement": "If the data are the image that makeimage makes for some parameters, no parameters have a lower fit statistic than these, for chi-squared with any weights, the Cash statistic and Poisson-MLR. Chi-squared is then 0, all deviates are 0, and a Levenberg-Marquardt fit that starts at these parameters ends there. For the Cash statistic and Poisson-MLR only models with the same pixel values reach the same value. (False of the code for models with counts that are not positive, whose logarithm is replaced by 1e-25.)", "quantifier": "all images, masks, weights, PSFs and models; all parameter vectors with finite model images and positive counts or variances", "why_tests_cant": "Fits of artificial images are checked for a few models and noise levels; that no other parameters can have a lower statistic is a statement about all of them, and it fails for models with pixels that are not positive.", "anchors": ["core/model_object.cpp:1386-1460", "core/model_object.cpp:1633-1689", "core/model_object.cpp:1703-1760", "core/makeimage_main.cpp:240-268", "solvers/mpfit.cpp", "solvers/levmar_fit.cpp"]}
{"id": "C128", "title": "imfit and makeimage understand a configuration file in the same way", "statement": "Every configuration file that imfit accepts is accepted by makeimage, which makes the same functions in the same sets and takes all numbers of the file in their order. A Levenberg-Marquardt fit of the image that makeimage makes from a file, started from the same file with the same PSF, returns the numbers in the file.", "quantifier": "all texts of configuration files, all catalogues of functions, all images, masks and weights, chi-squared and Poisson-MLR", "why_tests_cant": "The two programs read files with two different functions and set up models with different code; tests compare the results for a few files, and a difference for optional parameters, labels or several sets would make artificial images that are not the model that is fitted.", "anchors": ["core/config_file_parser.cpp:380-481", "core/config_file_parser.cpp:494-574", "core/config_file_parser.cpp:589-656", "core/makeimage_main.cpp:153-165", "core/makeimage_main.cpp:240-268", "core/imfit_main.cpp:251-357"]}
{"id": "C129", "title": "What is reported after a fit belongs to the fit", "statement": "After a fit the statistic that is printed is that of the parameters that are printed; the reduced value, AIC and BIC belong to it; the errors are those that the solver computed; nothing is printed for a fit that failed. (False of the code for fits that fail: then the statistic 0 and errors of 0 are printed; and after Levenberg-Marquardt the statistic may be that of the last trial.)", "quantifier": "all fits with Levenberg-Marquardt and differential evolution, all statistics, all numbers of pixels and parameters", "why_tests_cant": "Tests compare the printed results of fits that succeed; that the report has nothing to do with the data after a fit that fails is seen only if one knows the true value.", "anchors": ["core/print_results.cpp:70-156", "solvers/solver_results.cpp:31-233", "solvers/levmar_fit.cpp:94-117", "solvers/diff_evoln_fit.cpp:141-170", "core/imfit_main.cpp:385-396", "core/statistics.cpp:139-176"]}
{"id": "C130", "title": "The number of evaluations that is reported is the number that were done", "statement": "What is printed as NFEV after a fit is the number of times that the model was evaluated. (False of the code for differential evolution: fits that converge or are broken off report one generation less than they have done.)", "quantifier": "all fits with Levenberg-Marquardt that do not fail, all fits with differential evolution, whatever the model, the data and the random numbers", "why_tests_cant": "Nobody counts the evaluations of a fit independently, so that a number that is too small by one generation looks right.", "anchors": ["solvers/DESolver.cpp:209-306", "solvers/diff_evoln_fit.cpp:160-169", "solvers/mpfit.cpp:519-561", "solvers/mpfit.cpp:835", "solvers/mpfit.cpp:1057", "solvers/mpfit.cpp:1273", "core/print_results.cpp:110-147"]}
{"id": "C131", "title": "A fit that the user breaks off is reported", "statement": "If the user stops a fit with Ctrl-C, the report gives the best parameters so far with their statistic, whichever solver is used. (False of the code for the solvers of the NLopt library: their status is then -5, and nothing is printed.)", "quantifier": "all fits with all solvers, whatever the data and whenever the signal arrives; for NLopt, all algorithms that keep the promises of its manual", "why_tests_cant": "Signals arrive at arbitrary moments, and regression tests do not send any.", "anchors": ["core/print_results.cpp:70-156", "solvers/nmsimplex_fit.cpp:80-124", "solvers/nmsimplex_fit.cpp:220-236", "solvers/nlopt_fit.cpp:114-149", "solvers/nlopt_fit.cpp:310-330", "solvers/DESolver.cpp:254-261", "solvers/mpfit.cpp:940-970"]}
