# Formal model of imfit — design

The C++ sources in `/repo` (perwin/imfit) are modelled function by function in Lean 4
(`lean/Verif/Model/*`), the claims of `properties.jsonl` are stated against small
specifications (`lean/Verif/Spec/*`) and proved in `lean/Verif/Props/*`.

## 1. Method

* **Model** = small total Lean functions that follow the control flow of the C++ code;
  each definition cites file and lines. Loops are structural recursion or folds
  over index lists; loops whose termination is not guaranteed take fuel or a draw stream.
* **Undefined behaviour is an outcome.** `Res α = Except Fault α` with
  `Fault.oob` (read/write outside an array or vector), `Fault.null`, `Fault.uninit` (use of a value never written),
  `Fault.overflow` (conversion to `int` out of range), `Fault.assert` (failed `assert`), `Fault.exit`, `Fault.throw` (uncaught exception),
  `Fault.diverge` (endless loop). Array reads are `rd`,
  writes are `wr`; both fault outside the bounds.
* **Arithmetic.** The class `FP α` lists the double operations the code uses and has
  *no laws*. Model functions are polymorphic in `FP α`; theorems that quantify over every `FP α`
  hold for IEEE doubles with their rounding. Theorems that need algebra are proved at the instance `XR`,
  the real numbers extended with `+inf`, `-inf`, `nan` (IEEE rules for special values,
  no rounding, no overflow to infinity by magnitude, one unsigned zero). Code without special values
  (geometry, solver steps) is modelled over `ℝ` directly.
* **Specification** is written without the helper functions of the model
  (sums over `Finset`, list counts, pointwise statements).
* **Property theorems** live in `Verif/Props/Cnn.lean`, one file per property, helper lemmas in
  `Verif/Lemmas/*` or the model file. Each property theorem has an `example` with a concrete
  non-trivial instance of its hypotheses.
* **Claims that are false of the code** keep their statement in `properties.jsonl`. The Lean file then has
  `Cnn_..._false` (the negation, with a concrete witness run through the model) and
  `Cnn_..._partial` (the strongest version that holds).

## 2. Trusted base

### Logic

* The Lean 4.33.0 kernel.
* Axioms: only `propext`, `Classical.choice` and `Quot.sound`. `AXIOMS.txt` lists the axioms of every property theorem as printed by
  `#print axioms`. No own axioms, no `sorry`, `native_decide`, `bv_decide`, `implemented_by` or `unsafe`.

### Translation

The translation C++ to Lean is by hand and is not mechanically linked to the C++ text. General simplifications:

* `XR` and `ℝ` theorems have no rounding and no overflow by magnitude. A theorem for every `FP α` (or for every `FP α` with the stated order laws) also
  holds for IEEE doubles. C23 and C50 use a model of rounding (`roundedFP`, `doubleFP`).
* `int` and `long` are unbounded unless a definition says otherwise (`unsigned` in `Model/Twister.lean`, conversion `(int)` of doubles in the image functions).
* Memory allocation succeeds. Messages are dropped unless they are the result.
* Threads: sequentially consistent memory (`Model/Parallel.lean`). The GSL accelerator object shared by the threads in the PSF interpolator is outside the model.
* `ParseFunctionSection` is called with fresh vectors; the code keeps some of its working vectors from call to call in the caller's variables.
* In `ReadImageParamsFile` the variable used for line numbers is never initialised; the model takes its value as a parameter.

### Contracts of external libraries

Each is a hypothesis or a definition in the file named, none is an axiom. Where it is a hypothesis, an `example` shows that it can be satisfied.

| Library | Contract | Where |
|---|---|---|
| FFTW | exact DFT sums, unnormalised inverse; nothing for non-finite input | `Model/Convolve.lean` |
| GSL bicubic spline | reproduces the table at its nodes (`Spec.Interpolates`) | `Spec/` and C40 |
| CFITSIO | a call does nothing if the status is set; any call may fail; a failed call leaves its results as they were (`Fits`); otherwise units, sizes and pixels are those of the file | `Model/Fits.lean` |
| GSL random numbers | ranges, permutations (`Spec.GoodRng`) | C58 to C68 |
| GSL statistics | mean and unbiased variance (`Spec.ExactGsl`), quantile | C66, C67 |
| GSL gamma function | exact up to argument 171 | C69, C70 |
| GSL Bessel `K1` | arbitrary function, not negative where said | `Model/Plane.lean`, C53 to C56 |
| NLopt | returns a point within the bounds handed over, any number of calls | `Model/Nlopt.lean`, C46 |
| `printf`, `strtod`, `strtol` | printed numbers are read back as themselves, contain no blank (`NumFmt.OK`) | C31 to C34, C45 |
| linear algebra of mpfit | arbitrary results | `Model/LevMar.lean`, C27, C28 (the linear algebra itself: `Model/LinAlg.lean`, C71 to C74) |

## 3. What is modelled

Every definition in a model file cites the lines it follows. Overview:

| Model file | Source | Left out |
|---|---|---|
| `Fit` | `model_object.cpp`: data, errors, mask, weights, statistics; `setup_model_object.cpp`; `mp_enorm.cpp` | output text |
| `Image` | `CreateModelImage`, `GetSingleFunctionImage`, `oversampled_region.cpp`, `downsample.cpp` | – |
| `Output` | output-image getters | – |
| `Flux` | `TotalFlux` methods, `FindTotalFluxes`, fractions of `DetermineFluxes` | formatted text, magnitudes |
| `Layout` | parameter bookkeeping, names, headers | – |
| `Print` | `PrintModelParamsToStrings`, `SaveParameters` | limits column (see `Header`) |
| `Parallel` | OpenMP loops | weak memory |
| `Convolve` | `convolver.cpp`, `NormalizePSF` | FFTW itself |
| `Region` | `AddOversampledPsfInfo`, `psf_oversampling_info.cpp` | – |
| `Psf` | `psf_interpolators.cpp`, `func_pointsource.cpp` | GSL spline itself |
| `Func`, `Plane` | 2-D functions: Exponential, Gaussian, Sersic, Moffat, FlatSky; 18 further ones | – |
| `Bootstrap`, `BootErr` | `MakeBootstrapSample`, `bootstrap_errors.cpp` | the fits |
| `Stats` | `statistics.cpp` | – |
| `Twister` | `mersenne_twister.cpp` | – |
| `DE` | `DESolver.cpp`, `diff_evoln_fit.cpp` | messages |
| `LevMar` | `mpfit.cpp`, `levmar_fit.cpp` | linear algebra |
| `LinAlg` | `mp_qrfac`, `mp_qrsolv`, `mp_lmpar`, `mp_covar` and their use in `mpfit` | arrays are functions of row and column, not flat memory |
| `Nlopt` | `nmsimplex_fit.cpp`, `nlopt_fit.cpp` | NLopt, tolerances |
| `Text`, `CmdLine` | `utilities.cpp`, `commandline_parser.cpp` | usage text |
| `Config`, `ImageInfo` | `config_file_parser.cpp`, `imageparams_file_parser.cpp` | file opening, messages |
| `Multi` | `param_holder.cpp`, `paramvector_processing.cpp`, `model_object_multimage.cpp` | printing |
| `Dream` | `cdream/*.cpp`, set-up in `mcmc_main.cpp` | counters, `adjustDF` |
| `LineSight` | the seven 3-D functions, `helper_funcs_3d.cpp` | the parameter array is an argument |
| `SharedParams` | the member `F.params` of the 3-D functions under threads | weak memory; fixed number of evaluations |
| `Driver` | `core/add_functions.cpp` 389-461, `core/imfit_main.cpp` 251-357 (`core/mcmc_main.cpp` 245-366), `core/multimfit_main.cpp` 285-670, `core/utilities_multimfit.cpp` | from the parsed files to the vectors handed to the solver; function classes are a parameter (names of their parameters, status of `SetExtraParams`, acceptance by `AddFunction`); images, memory estimates and messages left out |
| `Spiral` | `func_logspiral*.cpp` (six functions) | `atan2`, `fmod` and π exact |
| `OsPsf` | `GetOversampledPsfInfo`, `ExtractAndStorePsfOversampling`, `AddOversampledPsfInfo`, order of normalisation and interpolator in a region | reading of the images is a parameter |
| `PrintMulti` | `print_results_multi.cpp`: `SaveImageInfoParameters`, `PrintSingleImageInfoToStrings`; `model_object_multimage.cpp`: rows and header of parameter tables | file opening |
| `Fits` | `core/image_io.cpp`, `core/getimages.cpp` 34-135 | CFITSIO as a disk of files with units and a list of the calls that fail; keywords other than the sizes, messages |
| `Jacobian` | `solvers/mpfit.cpp`: `mp_fdjac2`, columns of parameters at limits, gradient norm | one-sided differences without analytical derivatives, as the fit uses them |
| `MpfitFull` | `solvers/mpfit.cpp` 310-1076: `LevMar` with the linear algebra of `LinAlg` and `Jacobian` put in; the scales `diag`, `mp_lmpar` in each turn | covariance matrix and errors (C74); a list of answers stands for the signal that stops a fit |
| `Run` | `core/imfit_main.cpp` 360-478 with what `print_results.cpp` and `bootstrap_errors.cpp` do to the model object | the solver and the fits to samples are lists of evaluations; messages, names of files |
| `Rings` | `GaussianRingAz`, `N4608Disk`, `GenExponential2`, `GaussianExtraParams`, `PointSourceRot` | messages; `EdgeOnDiskN4762` (two versions, not registered) is not modelled |
| `Funcs1d` | `function_objects_1d/func1d_*.cpp` | `Spline1D` is in `Spline` |
| `Profile` | `profile_fitting/model_object_1d.cpp`, `convolver1d.cpp`, set-up in `profilefit_main.cpp` | Fourier transforms by their defining sums; printing, saving |
| `ReadProfile` | `profile_fitting/read_profile.cpp`, reading of data, PSF and start values in `profilefit_main.cpp` | text to number (`atof`) is a parameter; `fgets` as a function on the characters of the file |
| `Options` | `core/imfit_main.cpp` 527-1061 (`ProcessInput`, `HandleConfigFileOptions`), `core/utilities.cpp` 564-611, `core/count_cpu_cores.cpp` (Linux), choice of the statistic in `core/setup_model_object.cpp` | `strtod` is a parameter; messages |
| `Makeimage` | `core/makeimage_main.cpp` 95-345 (options, size, images of the model and its functions), 383-724 | `strtod` is a parameter; comments in the saved files |
| `Mcmc` | `core/mcmc_main.cpp` 284-295, 358-441 (settings of DREAM), 486-993 (options) | `strtod` is a parameter; messages and headers of the output |
| `FluxTable` | `core/makeimage_main.cpp` 343-346, 726-818 (`DetermineFluxes`) | the sums of fluxes are those of `Flux`; how numbers are printed |
| `Memory` | `core/estimate_memory.cpp`; the arrays allocated in `core/model_object.cpp`, `core/convolver.cpp`, `core/oversampled_region.cpp`, `core/getimages.cpp`, `solvers/mpfit.cpp` | arrays whose size does not depend on the images, and workspace of FFTW and CFITSIO |
| `PsfConvolve` | `extra/psfconvolve_main.cpp`, `profile_fitting/psfconvolve1d_main.cpp` | `printf`, `strtod` are parameters; messages |
| `Spline` | `function_objects_1d/func1d_spline.cpp`; of GSL the natural cubic spline of three or four points, the search of the interval and the check of the domain | an abort by the error handler of GSL is a fault |
| `BootErr1d` | `profile_fitting/bootstrap_errors_1d.cpp` | the fits to the samples are a parameter; printing |
| `Multimfit` | `core/multimfit_main.cpp` (options, set-up of the images, files written), `core/options_multimfit.h`, `core/options_base.h`, `core/setup_model_object.cpp`, names of files in `core/print_results_multi.cpp` | images are names, whether they can be read is a parameter; members without a value are `none`; the fit is in `Driver`, `Multi` |
| `Makemulti` | `core/makemultimages_main.cpp`, `core/options_makemultimages.h`, `core/model_object_multimage.cpp` 275-355 | what the two input files say is given (`Config`, `ImageInfo`); making an image from functions, description and parameters is a parameter; reading of PSFs, messages and release of memory left out |
| `Checkerboard` | `function_objects/func_simple-checkerboard.cpp` 67-101 | conversion to `int` of a number out of range is a fault |
| `Header` | `PrintModelParamsToStrings` with limits, `core/mcmc_main.cpp` 420-431, `cdream/dream.cpp` 136-145, 458-471 (text of a line) | first lines of the header are given; `printf` and stream output of numbers are parameters |
| `Registry` | `core/add_functions.cpp` 163-256, 490-580; `className`, `N_PARAMS`, `PARAM_LABELS`, `PARAM_UNITS` and constructors of the 28 registered classes; `GetParameterNames`, `GetParameterUnits`; `core/sample_configs.h` 18-57 | functions of `USE_EXTRA_FUNCS`; release of memory |
| `MakeRun` | `core/makeimage_main.cpp` 153-165, 240-268 | messages; the options and sizes are in `Makeimage` |
| `Report` | `solvers/solver_results.cpp`; `core/print_results.cpp` 70-156; ends of `LevMarFit`, `DiffEvolnFit`, `NMSimplexFit` and `NLOptFit` | words, conversions of numbers, counts of parameters and iterations |
| `Dispatch` | `solvers/dispatch_solver.cpp` | over `MpfitFull`, `DE`, `Nlopt` |

Not modelled: CFITSIO (a contract), NLopt, GSL integration (a parameter with an error bound),
writing of files in profile fitting, logging, usage text, the bodies of the `main` functions beyond the parts named above.

## 4. Plan per property

| Id | Modelled code | How proved |
|----|---------------|------------|
| C01 | `AddMaskVector`, mask part of `FinalSetupForFitting` over `FP` | induction over pixel lists; count = spec filter length |
| C02 | `FinalSetupForFitting`, `ApplyMask`, `VetDataVector`, `UpdateWeightVector`, deviates, chi² over `XR` | two-run (relational) proof, pixelwise |
| C03 | same with `GenerateExtraCashTerms`, Cash, MLR | negation (masked NaN); partial: finite masked data, or plain Cash |
| C04 | same | pixelwise invariant; negation for an unknown error-type code; idempotence |
| C05 | `ComputeDeviates`, `ChiSquared`, `mp_enorm` | sums over lists, via C39 |
| C06 | `CashStatistic`, `ComputePoissonMLRDeviate` | `log x ≤ x-1`; negation for non-positive model values; partial for positive |
| C07 | `AddErrorVector`, `GenerateErrorVector`, `GetWeightImageVector` | algebra at `XR` |
| C08 | `SetupModelImage`, index maps | arithmetic on `Nat`, division lemmas |
| C09 | output getters as state machine | frame proof, any `FP` |
| C10 | `CreateModelImage`, `GetSingleFunctionImage`, Kahan sums | induction, linearity of convolution |
| C11 | pixel tasks as writes to distinct cells | permutation/interleaving induction, any `FP` |
| C12 | evaluator as state machine with point-source scale state | negation; partial for no point sources or no regions |
| C13 | setup loop of `CreateModelImage`, `DefineFunctionSets` | induction over function list |
| C14 | header / names / horizontal print / offsets | all equal one layout list |
| C15 | `ShiftAndWrapPSF`, padding, DFT product | DFT convolution theorem over ℂ, padding lemma |
| C16 | `NormalizePSF` | sums |
| C17 | `DownsampleAndReplace` | negation for non-square region; partial for square |
| C18 | sub-pixel coordinates | algebra |
| C19 | region clipping | integer arithmetic |
| C20 | `MakeBootstrapSample` with a draw stream | induction over the stream |
| C21 | `BootstrapErrors*` with an abstract fit oracle | negation; partial for all-success |
| C22 | statistics helpers | sorted-list lemmas |
| C23 | MT19937 on `BitVec 32` | induction on stream; refinement block ↔ recurrence |
| C24–C26 | `DESolver` with arbitrary energy function and draw stream | loop invariants; negations |
| C27–C28 | `mpfit` outer/inner loop with an arbitrary direction oracle | loop invariants; negation for `bestnorm` |
| C29–C30 | string utilities on `List Char` | induction; negations |
| C31–C33 | configuration parser | invariants over line list; negations |
| C34 | printer then parser | round-trip induction |
| C35 | section parser | case analysis; negations |
| C36 | `CLineParser` | parse relation vs. declarative scan |
| C37–C38 | multi-image assembly | algebra; offsets induction; negation for bootstrap |
| C39 | `mp_enorm` | fold invariant; negation and partial |
| C40 | Lanczos interpolators | evaluation at integers; negation |
| C41–C42 | simple 2-D functions | real analysis |
| C43 | AIC/BIC | real inequalities |
| C44 | `vformat` | length case split; negation |
| C45 | image-info parser | invariants; negation |
| C46 | bounds set-up code | case analysis; negation |
| C47–C48 | type codes, repeated `FinalSetupForFitting` | case analysis; idempotence; negations |
| C49 | bootstrap summary and image offsets | algebra; negation for sections |
| C50 | Kahan summation with rounding | error bound by induction |
| C51, C57 | counts and convergence of differential evolution | loop invariants; characterisation of outcomes; negations |
| C52 | point-source methods | induction over function list; negation for mixtures |
| C53–C56 | plane profiles: image description, guards, symmetry, sub-sampling | real analysis per function; negations |
| C58–C60 | DREAM run: limits, safety and termination, files | whole-run invariant `Sat`; negations |
| C61–C64, C68 | DREAM: acceptance, pairs, crossover, Latin hypercube, proposals | measure of draws; counting; algebra |
| C65–C67 | DREAM: restart, convergence test, outliers | state equality; algebra of variances; counting |
| C69–C70 | total fluxes | integrals in polar coordinates; sums; negation for the centre |
| C71–C74 | linear algebra of `mpfit` | Householder and Givens transformations as sums; loop invariants; matrix identities; negations |
| C75–C78 | 3-D functions | coordinates along the sight line; integrability and deviation bounds of the densities; negations with explicit objects |
| C79, C80 | start of a fit | parsed file described by a plan (sets, functions, lines); names and lines zipped; `C13_layout` for the distribution; `C45_layout` for the image descriptions; negations with texts and with plans in general |
| C81, C82 | spirals | polar coordinates of the plane; `Complex.arg` up to turns; limits for the jump; negations |
| C83, C84 | oversampled regions | induction over the regions with the PSF images as a heap; the interpolator as a linear function of the pixels; negations |
| C85–C87 | remaining image functions | polar coordinates of the plane; components written as sums; negations with whole families of parameters |
| C88 | optional parameters | the map as a list of different keys; growth of sums |
| C89 | point sources in regions | C17 and a sum over blocks; negation for every scale |
| C90 | saved image information | each line written is a line the parser stores; blocks of lines give one image each; invariants as in C45 |
| C91 | parameter tables of several images | C14 for the shared functions; image part by induction |
| C92, C93 | image files | case analysis over the calls with an arbitrary list of failures; an invariant for writing; negations with given failures |
| C94, C95 | Jacobian, gradient test | C71 for the factors; mean value inequality; Cauchy-Schwarz; convexity of the sum of squares |
| C96 | whole Levenberg-Marquardt fit | each turn refines a turn of the open model of C27 and C28; invariants of the arrays from C71, C72, C94, C95; the bound halves in rejected turns; negation with a jump at zero |
| C97 | linear models | normal equations; Gauss-Newton step of `mp_lmpar`; predicted and actual reduction agree |
| C98 | a run of `imfit` | invariant: evaluations change only the model image and weights derived from it; negations with two pixels |
| C99 | resampling after Ctrl-C | one turn of each loop with the invariants of C96; the Gauss-Newton step of C97; negation with a kinked deviate |
| C100 | profile functions | values of all functions; major axis of the image functions of C53 |
| C101 | zero point of profiles | all intensities have one common factor; logarithms of it |
| C102 | convolution of profiles | orthogonality of roots of unity; the circular sum does not wrap for the points that are used; negation with positions 0, 1, 3 |
| C103 | deviates of profiles | the set-up step by step; C39 for the norm; negations for all inputs of each kind |
| C104 | data files of profiles | reading with a buffer is splitting into lines if they are short; both passes are folds over the same rows |
| C105 | options of `imfit` | C36 for the parser; each block of `ProcessInput` is an update of one or two settings; the settings are read off the composition |
| C106 | command line, configuration file, defaults | induction over the lines of the configuration file, then C105 |
| C107 | number of threads | the distinct lines with "physical id" are the sockets; then C105 |
| C108 | options of `makeimage` | as C105 (the lemmas on blocks of options are shared) |
| C109 | size of the image | induction over the lines of the configuration file, then C108; cases of the sources |
| C110 | images of single functions | C10 for each function, invariant of C12 from one image to the next, index arithmetic of the part cut out |
| C111 | estimate of memory | bytes of lists of arrays, linear and product arithmetic |
| C112 | table of fluxes | C70, then the loop over the lines in exact arithmetic |
| C113 | options of `imfit-mcmc` | as C105, C106; C59 for single chains |
| C114 | `psfconvolve`, `psfconvolve1d` | parser in lax mode, C15/C102 for the convolution, C92 for the files |
| C115 | `Spline1D` | a cubic is determined by values and curvatures at two points; continuity of slopes gives the tridiagonal equations |
| C116 | bootstrap of `profilefit` | loop invariant for the table of values, then C21 and C22 |
| C117 | `multimfit` | options as in C105; the variables of the loop over the images say what there is for the present image; induction over the images |
| C118 | choice of the solver | C24, C46, C96 and C105 over one list of parameters |
| C119 | `makemultimages` | options as in C105; functions as in C80, assembly of the parameters as in C37, for a list of images with sizes and own functions |
| C120 | sections of images | differences of coordinates for each function; then relations between the two model images, kept by convolution (C15), point sources, the writes of the regions and the cutting out (C110) |
| C121 | fits of sections | C05 and the terms of the Cash statistic; the sums over the used pixels are the same by an injection of pixels |
| C122 | headers of Markov chains | induction over the functions with their centres, on top of C79; C14 for the columns |
| C123 | the functions that are offered | lookup after insertion into an ordered map; the table by evaluation |
| C124 | continued fits | C79 and C34 composed; induction over the functions with their centres (C122); conditions on names by evaluation over the table of C123 |
| C125 | sample configuration files | evaluation of the parser and of the start of a fit on the two texts of `core/sample_configs.h`, in the kernel; numbers in tenths |
| C126 | makeimage with the result of a fit | C124 and C120 composed; makeimage adds the functions as imfit does but subtracts no offset |
| C127 | data made with a model | C05 and C06 with the model image as data; the difference of two Cash sums is a sum of Poisson-MLR terms; C118 and C39 for Levenberg-Marquardt |
| C128 | the two readers and starts agree | induction over the lines: a file read with the check of limits is read the same without it; then C126 and C127 |
| C129 | the report after a fit | C25, C28 and C43 with the object that keeps the results; failures evaluated directly |
| C130 | the number of evaluations in the report | counts along the loops of C25 and C28; a fit whose best value stays the same converges at generation 40 |
| C131 | reports of fits that the user breaks off | C129 and C130 at the status of the signal; for NLopt the contract of C46 |

## 5. Where the code disagrees with its property

For each entry the negation is proved with a concrete witness (`_false`), beside the part that holds.

| Id | Disagreement |
|---|---|
| C03, C48 | Poisson-MLR: NaN or infinite data under the mask make the statistic NaN |
| C05 | model-based errors: non-positive model value gives NaN weight |
| C06 | Poisson-MLR terms negative for non-positive model values |
| C12 | point-source oversampling scale stays at the value of the last region |
| C17 | `DownsampleAndReplace` wrong for non-square regions, writes out of bounds |
| C19 | a one-pixel-wide oversampled region aborts |
| C20 | `MakeBootstrapSample` never ends without a valid pixel |
| C21 | failed resamplings enter the bootstrap statistics as zeros; multi-image summary reads past its labels |
| C24, C25 | DE returns zeros if every evaluation is at least 1e20 or every parameter is fixed |
| C26 | DE reads outside the population for the draw 2^32-1 |
| C27, C28 | derivative steps leave narrow limits; `bestnorm` need not belong to the result |
| C29, C30 | `SplitString` without delimiters; `TrimWhitespace` clears one-character strings |
| C31–C33 | configuration parser: empty or repeated sets, out-of-range reads, comments with keywords |
| C34 | one-character labels are lost; a label containing `X0` makes the file unreadable |
| C35, C36 | malformed image sections accepted or read out of range; `a=b=c`, empty values on the command line |
| C37 | `nPerImageParams` used uninitialised; sizes and positions scaled in opposite directions |
| C38 | bootstrap deviates of several masked images overrun the array |
| C39 | `mp_enorm` drops small entries beside huge ones |
| C40 | Lanczos interpolation transposes the PSF, reads out of bounds for non-square PSFs |
| C41, C42, C56 | approximate b_n negative for small Sersic index; sub-sample counts overflow `int` for tiny scales |
| C44 | a text of exactly 1024 characters loses one; longer ones reuse a `va_list` |
| C45 | image-information files: missing lines leave parameters free, comments read as limits, out-of-range reads |
| C46 | one-sided limits are dropped; the call counter accumulates over runs |
| C47 | unknown error-type codes are accepted silently |
| C49 | bootstrap error bars of image sections are off by the section offset |
| C51, C57 | evaluation count short after convergence; a perfect fit never counts as converged |
| C52 | all point sources share the first one's interpolation method |
| C53 | DoubleBrokenExponential, FlatExponential, BrokenExponentialBar, FlatBar, EdgeOnDisk, TiltedSkyPlane, and Nuker at its centre change with the image description |
| C54 | FlatExponential guard omits a factor |
| C55 | two-sided edge-on ring with negative radius |
| C59, C60 | a single chain aborts; endless search for initial positions; last generation not written after convergence |
| C62, C63 | two chains: zero differences; asymmetric pairs; NaN crossover probabilities |
| C65 | resuming an interrupted run, a run on an image section, or with longer burn-in |
| C66, C67 | chains that do not move count as converged; outliers moved in the sampled part without burn-in |
| C70 | components are centred half a pixel off when fluxes are estimated |
| C73 | predicted reduction: the factor for limits is applied twice |
| C74 | errors belong to the Jacobian before the last successful step |
| C11 | 3-D functions: the address of a stack array is kept in the shared function object; with two threads a pixel gets another pixel's value or a dead array is read |
| C53 | 3-D functions: extra factor 1/pixel size; `TriaxBar3D` ignores the image description; `BPBar3D` does not convert alpha |
| C75 | Ferrers and Dattathri bars are turned by 90° against the documentation; `BPBar3D` takes h_bp, r_bp_max, z_bp_max in another order than labelled |
| C76 | `TriaxBar3D` integrates to 4σ² (not a length); thick disks are cut; ranges 2·a_ring and 5·r_break vanish at zero |
| C78 | the midplane density of `BPBar3D` is unbounded |
| C79 | only the total number of values is compared with the total number of parameters: a surplus value below one function becomes the first parameter of the next; two X0/Y0 pairs before a function, or one after the last, overrun arrays |
| C80 | `nPerImageParams` has no value; with functions of single images the start reads past the end of a vector (`core/multimfit_main.cpp` 658-660, or 414-416 if a set has two functions); `OPTIONAL_PARAMS` sections are ignored by `multimfit` and `makemultimages` |
| C81 | `LogSpiral3` jumps at R_max: the inner part lacks the bend of the broken exponential; numbers of arms that are not integers break an arm |
| C82 | `LogSpiralArc`: a negative direction of the maximum puts the maximum elsewhere |
| C83 | `multimfit` and `makemultimages` never call `AddImageOffset`: oversampled regions of image sections are displaced |
| C84 | the interpolator of a region is made before the PSF is normalised: point sources are multiplied by the sum of the PSF; `--no-normalize` does not reach regions; PSFs of zero sum are accepted |
| C52 | `PointSourceRot`: `Bicubic` and `Lanczos2` are accepted but lead to a null pointer, `lanczos3` is refused, position angle 0 shows the PSF turned by 90 degrees; regions use bicubic interpolation whatever the method, and a null pointer for PSFs below 4 × 4 |
| C86 | `N4608Disk`: the amplitude on the minor axis is multiplied by A_maj I_0 once too often |
| C87 | `GenExponential2`: NaN for r1 = r2, jump for r1 > r2, and intensities that rise outwards |
| C88 | `GaussianExtraParams`: misspelt optional parameters are accepted; the total flux ignores the floor |
| C89 | a point source in an oversampled region has its light divided by the square of the oversampling scale |
| C90 | saved image information lacks mask convention, error type, limits and functions of single images; positions without section offset; `%g` with an `int` |
| C91 | one image: a value too many per row; functions of the first image have titles without values |
| C92 | type of unit used although the call that sets it failed; file left open when pixels cannot be read and when a table is asked for its size; sides beyond `int` cut; pixels written in single precision; the old file is deleted before the new one exists |
| C94 | more than 2147483647 elements of the Jacobian: `int` overflow |
| C96 | a fit that starts with all free parameters zero at a jump rejects steps until the bound underflows; in exact arithmetic it never ends |
| C98 | with `--bootstrap` the value saved as that of the best fit is the statistic for the last resampled data; `--chisquare-only --bootstrap --save-model` saves the image of the last evaluation of the last sample |
| C99 | fits of samples broken off by Ctrl-C have status 100 > 0 and are counted as successful |
| C100 | one-dimensional Sersic functions use one formula for `b_n` at all n; below 0.36 they differ from the image functions |
| C101 | `GaussHermite-1D`: `h3` and `h4` are only compared with 0; `vdKSech-1D`: `mu_0` is not the central surface brightness |
| C102 | positions at different distances are convolved as if they were equal; one point with a PSF is read beyond the end |
| C103 | with a PSF `GetFitStatistic` divides by `nDataColumns` = 0; errors of 0 at masked points end the program; one negative error switches the mask off; a masked point without light gives NaN in magnitudes; resampling with masked points reads beyond the sample; status of `FinalSetupForFitting` never set |
| C104 | a line of 1023 or more characters is read as two, and the rest of a long comment as data; `--x1`, `--x2` are documented to count from 1 but used from 0 (`--x2 n` is refused); one row is refused; a PSF longer than the data is refused (wrong variable); a blank line ends the program; a directory gives an endless loop; too few start values are read beyond the vector |
| C105 | only the first characters of a number are checked (`3abc`, `1x2`, `.-5` and a gain of 0 are accepted, `+5` is refused); of repeated values the first one counts; contradicting flags have a fixed order; 4294967296 iterations or threads are 0 |
| C106 | values in the configuration file are not checked (negative gain, `NCOMBINED 0`), unknown keywords are ignored; `--cashstat` with `--mlr` is not refused |
| C107 | without "physical id" in `/proc/cpuinfo` (ARM, some virtual machines) the number of cores is 0 and `imfit` ends in `assert` unless `--max-threads` is given; sockets with different numbers of cores are counted wrongly |
| C108 | `--print-fluxes` or `--timing` with a name for an image saves none, without a message; a missing configuration file is not noticed; 4294967296 columns are none |
| C109 | `--print-fluxes` with `--refimage` and without sizes ends in `assert`, since the reference image is not read; `--nosave` and `--timing` without sizes end with "Failure determining size of image file", although two by two pixels are provided for; of `--ncols` and `--nrows` one alone is ignored |
| C110 | a point source and an oversampled region: the saved image of the only function differs from that of the model; `--save-expanded` without a PSF uses `nColumns_psf`, `nRows_psf`, which are never set (they are also passed to `SetupModelObject`, which ignores them) |
| C111 | solvers other than Levenberg-Marquardt with chi² need five arrays where four are counted; bootstrap resampling and the image of weights are not counted; pixels of an oversampled PSF count one byte instead of eight |
| C112 | without any flux the shares are NaN, yet the total is printed as 1; a zero point of −10000 means none; lines are written to a null pointer if the file cannot be opened |
| C113 | `imfit-mcmc --cashstat` always ends with "Cash statistic cannot be used with L-M solver", since `solver` of `OptionsBase` is Levenberg-Marquardt unless set; `--gelman-evals` is rounded down to a multiple of ten, and 1 to 9 mean ten; a single free parameter gives a single chain, which aborts (C59); 4294967296 chains are 0 |
| C114 | `psfconvolve` ignores unknown options (also `--no-normalize`) and all arguments after a single dash; an image that cannot be written leaves an empty file and the status 0; `psfconvolve1d` refuses a PSF longer than the data, and one row of data; values below half of the sixth decimal are written as zero |
| C115 | two points abort the program, as do a distance beyond the last point and radii that do not increase, which a fit may try; `N = 1` reads other parameters; `N = 5` is refused but kept; the spline of positive values may be negative |
| C116 | fits that fail are counted in the errors of `profilefit`; without any limit all parameters are reported as fixed; one round gives a deviation that is not a number |
| C117 | without `--cashstat`, `multimfit` reads members that choose the statistic and have no value; six options and all arguments have no effect; `--fitstat-only` writes best-fit files and does the bootstrap, without limits; files that cannot be opened |
| C118 | differential evolution makes no use of the start values and can end worse than they are |
| C119 | `makemultimages`: the number of parameters is computed from a counter without a value; two own functions in a set overrun a list; errors in the image-info file are not looked at; five options have no effect; optional parameters are not used |
| C120 | an oversampled region that sticks out of the section or whose number of rows is computed wrongly (C17) |
| C121 | Poisson-MLR when masked data are NaN or `+inf` (C03) |
| C122 | `imfit-mcmc` prints X0 and Y0 in coordinates of the image and their limits in coordinates of the section |
| C124 | limits and fixed parameters are not written with the result: in a fit that is continued from it everything is free, even the centre of `FlatSky`; the options of the configuration file (gain, read noise, …) are not written either |
| C127 | the logarithm of a model value that is not positive is replaced by 10⁻²⁵ (as in C06): for one count, made with a model of one count, a model of 0 counts has a lower Poisson-MLR statistic |
| C129 | if `mpfit` fails (all parameters fixed, start outside the limits, too few pixels, values that are not finite) `PrintResults` prints the statistic 0 and errors of 0, since it asks only for null pointers that do not occur; if differential evolution returns for want of limits, the results still have the type Levenberg-Marquardt, and the same is printed |
| C130 | `DESolver::Solve` notes the number of the generation, counted from 0, if it converges or is broken off, so that NFEV lacks the evaluations of one generation (8 for each free parameter): 328 are done, 320 reported |
| C131 | if the user stops a fit with a solver of the NLopt library, `nlopt_optimize` returns -5 and `PrintResults` prints nothing, while the other solvers report what they have found |
| C93 | a PSF file that can be opened twice but not a third time has size 0 × 0 and status 0 |

## 6. Tests of the theorems

`seeded/LOG.jsonl` records edits of model definitions (made in a copy) with the theorems that failed to build, and theorems tightened because none failed. An edit after which Lean ran out of memory without naming a theorem is not counted (`nOP4`, repeated as `pOP4`).

Hypotheses are tested too: `Printable` (C34) once asked that all parameter names be free of keywords, which no model satisfies because `X0` is among the names; it now speaks of the functions' own parameters, and an example and `C124_offered` show that it can be met.
