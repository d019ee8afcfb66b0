import Verif.Model.Driver
import Verif.Model.Rings

/-!
# The functions that are offered

Source: `core/add_functions.cpp` (`PopulateFactoryMap` without the functions of `USE_EXTRA_FUNCS`, `GetFunctionNames`, `GetFunctionParameterNames`, `ListFunctionParameters`), the
constants `className`, `N_PARAMS`, `PARAM_LABELS` and `PARAM_UNITS` of the 28 classes registered there and their constructors, `GetParameterNames` and `GetParameterUnits` of
`function_objects/function_object.cpp` 194-212; the texts of `core/sample_configs.h`. Text is ASCII. Not modelled: the release of memory.
-/

namespace Imfit

/-- The constants of a class. -/
structure FuncClass where
  /-- `className` -/
  name : Str
  /-- `N_PARAMS` -/
  n : Nat
  /-- `PARAM_LABELS` -/
  labels : List Str
  /-- `PARAM_UNITS` -/
  units : List Str
  deriving DecidableEq

/-- The registered classes, in the order of `core/add_functions.cpp:170-256`. Constants from (all in `function_objects/`): `func_exp.cpp:56-64`, `func_sersic.cpp:60-68`, `func_gen-sersic.cpp:58-66`, `func_core-sersic.cpp:57-65`, `func_gen-exp.cpp:56-63`, `func_broken-exp.cpp:53-61`, `func_broken-exp2d.cpp:58-66`, `func_edge-on-ring.cpp:57-65`, `func_edge-on-ring2side.cpp:55-63`, `func_flatbar.cpp:55-64`, `func_gaussian-ring.cpp:54-62`, `func_gaussian-ring2side.cpp:55-63`, `func_gaussian-ring-az.cpp:54-62`, `func_gaussian.cpp:56-64`, `func_moffat.cpp:63-71`, `func_king.cpp:53-62`, `func_king2.cpp:57-66`, `func_ferrersbar2d.cpp:59-67`, `func_flatsky.cpp:41-46`, `func_tilted-sky-plane.cpp:40-45`, `func_peanut_dattathri.cpp:55-65`, `func_edge-on-disk.cpp:86-96`, `func_expdisk3d.cpp:85-97`, `func_brokenexpdisk3d.cpp:61-74`, `func_gaussianring3d.cpp:64-74`, `func_ferrersbar3d.cpp:60-71`, `func_pointsource.cpp:56-62`, `func_pointsource-rot.cpp:56-63`. -/
def standardClasses : List FuncClass :=
  [⟨"Exponential".toList, 4, ["PA".toList, "ell".toList, "I_0".toList, "h".toList], ["deg (CCW from +y axis)".toList, "".toList, "counts/pixel".toList, "pixels".toList]⟩,
    ⟨"Sersic".toList, 5, ["PA".toList, "ell".toList, "n".toList, "I_e".toList, "r_e".toList], ["deg (CCW from +y axis)".toList, "".toList, "".toList, "counts/pixel".toList, "pixels".toList]⟩,
    ⟨"Sersic_GenEllipse".toList, 6, ["PA".toList, "ell".toList, "c0".toList, "n".toList, "I_e".toList, "r_e".toList], ["deg (CCW from +y axis)".toList, "".toList, "".toList, "".toList, "counts/pixel".toList, "pixels".toList]⟩,
    ⟨"Core-Sersic".toList, 8, ["PA".toList, "ell".toList, "n".toList, "I_b".toList, "r_e".toList, "r_b".toList, "alpha".toList, "gamma".toList], ["deg (CCW from +y axis)".toList, "".toList, "".toList, "counts/pixel".toList, "pixels".toList, "pixels".toList, "".toList, "".toList]⟩,
    ⟨"Exponential_GenEllipse".toList, 5, ["PA".toList, "ell".toList, "c0".toList, "I_0".toList, "h".toList], ["deg (CCW from +y axis)".toList, "".toList, "".toList, "counts/pixel".toList, "pixels".toList]⟩,
    ⟨"BrokenExponential".toList, 7, ["PA".toList, "ell".toList, "I_0".toList, "h1".toList, "h2".toList, "r_break".toList, "alpha".toList], ["deg (CCW from +y axis)".toList, "".toList, "counts/pixel".toList, "pixels".toList, "pixels".toList, "pixels".toList, "1/pixels".toList]⟩,
    ⟨"BrokenExponential2D".toList, 7, ["PA".toList, "I_0".toList, "h1".toList, "h2".toList, "r_break".toList, "alpha".toList, "h_z".toList], ["deg (CCW from +y axis)".toList, "counts/pixel".toList, "pixels".toList, "pixels".toList, "pixels".toList, "1/pixels".toList, "pixels".toList]⟩,
    ⟨"EdgeOnRing".toList, 5, ["PA".toList, "I_0".toList, "r".toList, "sigma_r".toList, "sigma_z".toList], ["deg (CCW from +y axis)".toList, "counts/pixel".toList, "pixels".toList, "pixels".toList, "pixels".toList]⟩,
    ⟨"EdgeOnRing2Side".toList, 6, ["PA".toList, "I_0".toList, "r".toList, "sigma_r_in".toList, "sigma_r_out".toList, "sigma_z".toList], ["deg (CCW from +y axis)".toList, "counts/pixel".toList, "pixels".toList, "pixels".toList, "pixels".toList, "pixels".toList]⟩,
    ⟨"FlatBar".toList, 8, ["PA".toList, "ell".toList, "deltaPA_max".toList, "I_0".toList, "h1".toList, "h2".toList, "r_break".toList, "alpha".toList], ["deg (CCW from +y axis)".toList, "".toList, "deg".toList, "counts/pixel".toList, "pixels".toList, "pixels".toList, "pixels".toList, "1/pixels".toList]⟩,
    ⟨"GaussianRing".toList, 5, ["PA".toList, "ell".toList, "A".toList, "R_ring".toList, "sigma_r".toList], ["deg (CCW from +y axis)".toList, "".toList, "counts/pixel".toList, "pixels".toList, "pixels".toList]⟩,
    ⟨"GaussianRing2Side".toList, 6, ["PA".toList, "ell".toList, "A".toList, "R_ring".toList, "sigma_r_in".toList, "sigma_r_out".toList], ["deg (CCW from +y axis)".toList, "".toList, "counts/pixel".toList, "pixels".toList, "pixels".toList, "pixels".toList]⟩,
    ⟨"GaussianRingAz".toList, 6, ["PA".toList, "ell".toList, "A_maj".toList, "A_min_rel".toList, "R_ring".toList, "sigma_r".toList], ["deg (CCW from +y axis)".toList, "".toList, "counts/pixel".toList, "".toList, "pixels".toList, "pixels".toList]⟩,
    ⟨"Gaussian".toList, 4, ["PA".toList, "ell".toList, "I_0".toList, "sigma".toList], ["deg (CCW from +y axis)".toList, "".toList, "counts/pixel".toList, "pixels".toList]⟩,
    ⟨"Moffat".toList, 5, ["PA".toList, "ell".toList, "I_0".toList, "fwhm".toList, "beta".toList], ["deg (CCW from +y axis)".toList, "".toList, "counts/pixel".toList, "pixels".toList, "".toList]⟩,
    ⟨"ModifiedKing".toList, 6, ["PA".toList, "ell".toList, "I_0".toList, "r_c".toList, "r_t".toList, "alpha".toList], ["deg (CCW from +y axis)".toList, "".toList, "counts/pixel".toList, "pixels".toList, "pixels".toList, "".toList]⟩,
    ⟨"ModifiedKing2".toList, 6, ["PA".toList, "ell".toList, "I_0".toList, "r_c".toList, "c".toList, "alpha".toList], ["deg (CCW from +y axis)".toList, "".toList, "counts/pixel".toList, "pixels".toList, "".toList, "".toList]⟩,
    ⟨"FerrersBar2D".toList, 6, ["PA".toList, "ell".toList, "c0".toList, "n".toList, "I_0".toList, "a_bar".toList], ["deg (CCW from +y axis)".toList, "".toList, "".toList, "".toList, "counts/pixel".toList, "pixels".toList]⟩,
    ⟨"FlatSky".toList, 1, ["I_sky".toList], ["counts/pixel".toList]⟩,
    ⟨"TiltedSkyPlane".toList, 3, ["I_0".toList, "m_x".toList, "m_y".toList], ["counts/pixel".toList, "".toList, "".toList]⟩,
    ⟨"DattathriPeanut3D".toList, 12, ["PA_lon".toList, "inc".toList, "barPA".toList, "J0_bar".toList, "R_bar_x".toList, "q".toList, "q_z".toList, "R_peanut".toList, "A_peanut".toList, "sigma_peanut".toList, "c_bar_par".toList, "c_bar_perp".toList], ["deg (CCW from +y axis)".toList, "deg".toList, "deg".toList, "counts/voxel".toList, "pixels".toList, "".toList, "".toList, "pixels".toList, "pixels".toList, "pixels".toList, "".toList, "".toList]⟩,
    ⟨"EdgeOnDisk".toList, 5, ["PA".toList, "L_0".toList, "h".toList, "n".toList, "z_0".toList], ["deg (CCW from +y axis)".toList, "counts/voxel".toList, "pixels".toList, "".toList, "pixels".toList]⟩,
    ⟨"ExponentialDisk3D".toList, 6, ["PA".toList, "inc".toList, "J_0".toList, "h".toList, "n".toList, "z_0".toList], ["deg (CCW from +y axis)".toList, "deg".toList, "counts/voxel".toList, "pixels".toList, "".toList, "pixels".toList]⟩,
    ⟨"BrokenExponentialDisk3D".toList, 9, ["PA".toList, "inc".toList, "J_0".toList, "h1".toList, "h2".toList, "r_break".toList, "alpha".toList, "n".toList, "z_0".toList], ["deg (CCW from +y axis)".toList, "deg".toList, "counts/voxel".toList, "pixels".toList, "pixels".toList, "pixels".toList, "1/pixels".toList, "".toList, "pixels".toList]⟩,
    ⟨"GaussianRing3D".toList, 8, ["PA".toList, "inc".toList, "PA_ring".toList, "ell".toList, "J_0".toList, "a_ring".toList, "sigma".toList, "h_z".toList], ["deg (CCW from +y axis)".toList, "deg".toList, "deg".toList, "".toList, "counts/voxel".toList, "pixels".toList, "pixels".toList, "pixels".toList]⟩,
    ⟨"FerrersBar3D".toList, 8, ["PA".toList, "inc".toList, "barPA".toList, "J_0".toList, "R_bar".toList, "q".toList, "q_z".toList, "n".toList], ["deg (CCW from +y axis)".toList, "deg".toList, "deg".toList, "counts/voxel".toList, "pixels".toList, "".toList, "".toList, "".toList]⟩,
    ⟨"PointSource".toList, 1, ["I_tot".toList], ["counts".toList]⟩,
    ⟨"PointSourceRot".toList, 2, ["PA".toList, "I_tot".toList], ["deg (CCW from +y axis)".toList, "counts".toList]⟩]

/-- What the constructor leaves in a function object: its short name, its parameter names and units. The loop reads the constants up to `nParams`,
e.g. `function_objects/func_exp.cpp:69-83`. -/
structure FuncNew where
  name : Str
  labels : List Str
  units : List Str

/-- The constructor of a class. -/
def FuncClass.create (c : FuncClass) : Res FuncNew := do
  let l ← loopMap c.n fun i => rd c.labels i
  let u ← loopMap c.n fun i => rd c.units i
  .ok ⟨c.name, l, u⟩

/-- `operator<` of `std::string`. -/
def strLess : Str → Str → Bool
  | _, [] => false
  | [], _ :: _ => true
  | a :: s, b :: t => if a = b then strLess s t else decide (a.toNat < b.toNat)

/-- `map[key] = value` on the sequence of pairs that iteration over a `std::map` gives. -/
def mapSet {β : Type} (k : Str) (v : β) : List (Str × β) → List (Str × β)
  | [] => [(k, v)]
  | p :: m => if strLess k p.1 then (k, v) :: p :: m else if k = p.1 then (k, v) :: m else p :: mapSet k v m

/-- `PopulateFactoryMap`. `core/add_functions.cpp:163-385`. -/
def factoryMap (cs : List FuncClass) : List (Str × FuncClass) := cs.foldl (fun m c => mapSet c.name c m) []

/-- `GetFunctionNames`. `core/add_functions.cpp:560-580`. -/
def functionNames (cs : List FuncClass) : Res (List Str) := (factoryMap cs).mapM fun p => do
  let f ← p.2.create
  .ok f.name

/-- `GetFunctionParameterNames`: `none` for the return value -1. `core/add_functions.cpp:530-553`. -/
def parameterNames (cs : List FuncClass) (name : Str) : Res (Option (List Str)) :=
  match (factoryMap cs).lookup name with
  | none => .ok none
  | some c => do
    let f ← c.create
    .ok (some f.labels)

/-- A line of the list of parameters. `core/add_functions.cpp:511-517`. -/
def parameterItem (f : FuncNew) (i : Nat) : Res Str := do
  let l ← rd f.labels i
  let u ← rd f.units i
  .ok (l ++ (if u = [] then ['\n'] else ['\t', '\t', '#', ' '] ++ u ++ ['\n']))

/-- The part of the list for one function. `core/add_functions.cpp:502-518`. -/
def parameterBlock (c : FuncClass) : Res Str := do
  let f ← c.create
  let ls ← loopMap f.labels.length (parameterItem f)
  .ok ("\nFUNCTION ".toList ++ f.name ++ ['\n'] ++ ls.flatten)

/-- `ListFunctionParameters`: what is printed for `--list-parameters`. `core/add_functions.cpp:490-524`. -/
def parameterList (cs : List FuncClass) : Res Str := do
  let bs ← (factoryMap cs).mapM fun p => parameterBlock p.2
  .ok ("\nAvailable function/components:\n".toList ++ bs.flatten ++ ['\n', '\n'])

/-- `SetExtraParams` of the registered classes: two point sources have their own (`function_objects/func_pointsource.cpp:150-190`, `func_pointsource-rot.cpp:151-186`), the others that of
`function_objects/function_object.h:37`. -/
def standardExtra (name : Str) (m : List (Str × Str)) : Int :=
  if name = "PointSource".toList then (setMethod .bicubic m).1
  else if name = "PointSourceRot".toList then (setMethodRot "bicubic".toList m).1
  else -1

/-- What `AddFunctions` finds, for a model with or without a PSF image that can be interpolated (`core/model_object.cpp:295-305`). -/
def standardCatalogue (psf : Bool) : Catalogue where
  params name := match parameterNames standardClasses name with
    | .ok r => r
    | .error _ => none
  setExtra := standardExtra
  accepts name := psf || !(decide (name = "PointSource".toList ∨ name = "PointSourceRot".toList))

/-- The units of the parameters of a function. -/
def standardUnits (name : Str) : Option (List Str) :=
  match (factoryMap standardClasses).lookup name with
  | none => none
  | some c => match c.create with
    | .ok f => some f.units
    | .error _ => none

/-! ## Sample configuration files -/

/-- `configImfitText`, what `imfit --sample-config` writes. `core/sample_configs.h:18-39`. -/
def sampleImfit : Str :=
  "# This is a sample configuration file for imfit (it will also work with makeimage).\n".toList ++
  "# Comments are introduced with the \"#\" character; anything following this character\n".toList ++
  "# on the same line is ignored by imfit. Blank lines are also ignored.\n".toList ++
  "# Note that to use this file with makeimage, the desired dimensions of the output\n".toList ++
  "# model image will also need to be supplied.\n\n".toList ++
  "# Optional image-description parameters for imfit and their default values;\n".toList ++
  "# uncomment and edit if needed\n".toList ++
  "# GAIN            1.0   # A/D gain in e-/ADU\n".toList ++
  "# READNOISE       0.0   # read noise in electrons\n".toList ++
  "# ORIGINAL_SKY    0.0   # original background value (ADU/pixel) previously subtracted\n".toList ++
  "# EXPTIME         1.0   # only needed if image has ADU/sec/pixel instead of ADU/pixel\n".toList ++
  "# NCOMBINED       1     # only needed if image is average of multiple images\n\n\n".toList ++
  "# A single function set, containing a single image function;\n".toList ++
  "# examples of optional lower and upper limits for each parameter value are in the 3rd column\n".toList ++
  "X0   129.0    125,135     # pixel x-coordinate of function center\n".toList ++
  "Y0   129.0    125,135     # pixel y-coordinate of function center\n".toList ++
  "FUNCTION Sersic\n".toList ++
  "PA    18.0    0,90        # position angle in degrees (CCW from +y axis of image)\n".toList ++
  "ell    0.2    0,1         # ellipticity of isophotes\n".toList ++
  "n      1.5    0,5         # Sersic index\n".toList ++
  "I_e    15     0,500       # intensity (ADU/pixel) at r_e\n".toList ++
  "r_e    25     0,100       # half-light radius (pixels)\n".toList

/-- `configMakeimageText`, what `makeimage --sample-config` writes. `core/sample_configs.h:42-57`. -/
def sampleMakeimage : Str :=
  "# This is a sample configuration file for makeimage.\n".toList ++
  "# Comments are introduced with the \"#\" character; anything following this character\n".toList ++
  "# on the same line is ignored by makeimage. Blank lines are also ignored.\n".toList ++
  "# (Note that this file can also be used with imfit.)\n\n".toList ++
  "# Image-description parameters for makeimage (image dimensions)\n".toList ++
  "NCOLS   200      # number of columns (width) in output image\n".toList ++
  "NROWS   200      # number of rows (height) in output image\n\n\n".toList ++
  "# A single function set, containing a single image function\n".toList ++
  "X0   129.0       # pixel x-coordinate of function center\n".toList ++
  "Y0   129.0       # pixel y-coordinate of function center\n".toList ++
  "FUNCTION Sersic\n".toList ++
  "PA    18.0       # position angle in degrees (CCW from +y axis of image)\n".toList ++
  "ell    0.2       # ellipticity of isophotes\n".toList ++
  "n      1.5       # Sersic index\n".toList ++
  "I_e    15        # intensity (ADU/pixel) at r_e\n".toList ++
  "r_e    25        # half-light radius (pixels)\n".toList

end Imfit
