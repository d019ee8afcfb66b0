import Verif.Model.Options
import Verif.Model.Fits
import Verif.Model.ReadProfile

/-!
# `psfconvolve` and `psfconvolve1d`

Source: `extra/psfconvolve_main.cpp`, `profile_fitting/psfconvolve1d_main.cpp`.

Messages, among them everything that `--printimages`, `--printProfiles` and `--debug` print, are left out. Sides of images are taken as positive, as in `Model/Convolve.lean`. `strtod` and
`printf("%f")` are parameters.
-/

namespace Imfit

/-- The options of both programs (`--copyheader` is one of `psfconvolve` only). `extra/psfconvolve_main.cpp:24-32`, `profile_fitting/psfconvolve1d_main.cpp:32-41`. -/
structure ConvOpts where
  input : Str
  psf : Str
  output : Str
  copyHeader : Bool
  print : Bool
  debug : Int

/-- `extra/psfconvolve_main.cpp:19-21, 56-62`. -/
def defaultConv : ConvOpts where
  input := "narrow_gaussian_6x6.fits".toList
  psf := "gaussian_5x5.fits".toList
  output := "convolve_out.fits".toList
  copyHeader := false
  print := false
  debug := 0

/-- The names of the files: as many as there are arguments, up to three. `extra/psfconvolve_main.cpp:162-171`, `profile_fitting/psfconvolve1d_main.cpp:226-235`. -/
def convNames (p : CLine) (o : ConvOpts) : Res ConvOpts :=
  if 0 < p.args.length then do
    let a ← p.argument 0
    if 1 < p.args.length then do
      let b ← p.argument 1
      if 2 < p.args.length then do
        let c ← p.argument 2
        .ok { o with input := a, psf := b, output := c }
      else .ok { o with input := a, psf := b }
    else .ok { o with input := a }
  else .ok o

/-- The parser of `psfconvolve`: options that it does not know are ignored. `extra/psfconvolve_main.cpp:151-155`. -/
def convParser : CLine :=
  let p := [["help".toList, "h".toList], ["copyheader".toList], ["printimages".toList]].foldl CLine.addFlag CLine.new
  p.addOption ["debug".toList]

/-- The blocks of `ProcessInput` after parsing. `extra/psfconvolve_main.cpp:161-193`. -/
def convSteps (p : CLine) : List (ConvOpts → Res ConvOpts) :=
  [convNames p,
    exitFlag p "help".toList,
    onFlag p "copyheader".toList fun o => { o with copyHeader := true },
    onFlag p "printimages".toList fun o => { o with print := true, debug := 2 },
    onOption p "debug".toList (asLong .anyInt fun z o => { o with debug := longToInt z })]

/-- `ProcessInput`; the status of `ParseCommandLine` is not looked at. `extra/psfconvolve_main.cpp:133-202`. -/
def convInput (argv : List Str) : Res ConvOpts := do
  let r ← parseCommandLine convParser argv
  (convSteps r.2).foldlM (fun o s => s o) defaultConv

/-- `nPixels_input = nColumns * nRows` in `int`. `extra/psfconvolve_main.cpp:75, 99`. -/
def pixelCount (c r : Int) : Res Int := if -2147483648 ≤ c * r ∧ c * r ≤ 2147483647 then .ok (c * r) else .error .overflow

/-- `main` of `psfconvolve`, from the files before to the files after and the value returned. The PSF is always normalised (default of the last argument of `SetupPSF`), and the status
of `SaveVectorAsImage` is not looked at. `extra/psfconvolve_main.cpp:38-129`. -/
noncomputable def psfconvolve (flt : XR → XR) (w : Disk XR) (argv : List Str) : Res (Disk XR × Int) := do
  let o ← convInput argv
  let a ← readImage w o.input
  match a.2 with
  | none => .error .exit
  | some (px, c, r) => do
    let _ ← pixelCount c r
    let b ← readImage a.1 o.psf
    match b.2 with
    | none => .error .exit
    | some (pp, cp, rp) => do
      let _ ← pixelCount cp rp
      let s ← cvSetup ⟨c.toNat, r.toNat, cp.toNat, rp.toNat, pp⟩ true
      let out ← convolveImage s.1 s.2 px
      let v ← saveImage flt b.1 (some out) o.output c r []
      .ok (v.1, 0)

/-! ## Profiles -/

/-- `profile_fitting/psfconvolve1d_main.cpp:25-27, 67-74`. -/
def defaultConv1 : ConvOpts where
  input := "some_profile.dat".toList
  psf := "psf_gaussian1d.dat".toList
  output := "convolve1d_out.dat".toList
  copyHeader := false
  print := false
  debug := 0

/-- The parser of `psfconvolve1d`. `profile_fitting/psfconvolve1d_main.cpp:216-219`. -/
def convParser1 : CLine :=
  let p := [["help".toList, "h".toList], ["printProfiles".toList]].foldl CLine.addFlag CLine.new
  p.addOption ["debug".toList]

/-- The blocks of `ProcessInput` after parsing. `profile_fitting/psfconvolve1d_main.cpp:225-256`. -/
def convSteps1 (p : CLine) : List (ConvOpts → Res ConvOpts) :=
  [convNames p,
    exitFlag p "help".toList,
    onFlag p "printProfiles".toList fun o => { o with print := true, debug := 2 },
    onOption p "debug".toList (asLong .posInt fun z o => { o with debug := longToInt z })]

/-- `ProcessInput`. `profile_fitting/psfconvolve1d_main.cpp:199-263`. -/
def convInput1 (argv : List Str) : Res ConvOpts := do
  let r ← parseCommandLine convParser1 argv
  (convSteps1 r.2).foldlM (fun o s => s o) defaultConv1

/-- One line of the output, `"%f\t%f\n"`. `profile_fitting/psfconvolve1d_main.cpp:277-279`. -/
def profileLine (fmt : XR → Str) (x y : XR) : Str := fmt x ++ '\t' :: fmt y ++ ['\n']

/-- `SaveProfile`: the text that is written. `profile_fitting/psfconvolve1d_main.cpp:267-282`. -/
def profileText (fmt : XR → Str) (xs ys : List XR) (n : Nat) : Res Str := do
  let ls ← loopMap n fun i => do
    let x ← rd xs i
    let y ← rd ys i
    pure (profileLine fmt x y)
  .ok ls.flatten

/-- `main` of `psfconvolve1d`: the name and the text of the file that is written. `canWrite` says which files can be opened for writing. There is no option for the rows to be used, so these
are all rows. `profile_fitting/psfconvolve1d_main.cpp:53-195`. -/
noncomputable def psfconvolve1d (num : Str → XR) (fmt : XR → Str) (files : Str → Option DiskFile) (canWrite : Str → Bool) (argv : List Str) : Res (Str × Str) := do
  let o ← convInput1 argv
  let c ← readProfile num (files o.input) none none false false
  let p ← readPsf1 num (files o.psf) c.n
  let f ← convSetup1 p c.n
  let ys ← convolveProfile c.n p.length f c.ys
  if canWrite o.output then do
    let t ← profileText fmt c.xs ys c.n
    .ok (o.output, t)
  else .error .exit

end Imfit
