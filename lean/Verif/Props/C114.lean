import Verif.Lemmas.Options
import Verif.Model.PsfConvolve
import Verif.Spec.PsfConvolve
import Verif.Props.C15
import Verif.Props.C92Save
import Verif.Props.C104
import Verif.Props.C108

/-!
# C114: what `psfconvolve` and `psfconvolve1d` write

For an image and a PSF that can be read, `psfconvolve` writes the image seen through the normalised PSF, and changes no other file. `psfconvolve1d` does the same for profiles.

It fails in these cases.

* A PSF profile longer than the data profile is refused (with a message about memory); there is no such limit for images.
* A profile of one row is refused.
* Options that do not exist are ignored: `psfconvolve image psf --no-normalize` normalises the PSF. So are options without their value, and all that follows a single dash.
* If the image cannot be saved the program ends as if it had been.
* A profile whose values are below half of the sixth decimal is written as zero.

The theorems ask for a PSF whose sum is not zero: neither program looks at the sum before it divides by it.
-/

namespace Imfit

open Spec XR Finset

/-! ## Command lines -/

theorem convParser_eq : convParser = parser convDecls false := by rfl
theorem convParser1_eq : convParser1 = parser convDecls1 false := by rfl

/-- A parser that ignores what it does not know. -/
theorem lax_reports (ds : List Decl) (prog : Str) (as : List Str) (hp : ∀ a ∈ as, Plain a) (es : List Ev) (h : meaning ds false none as = some es) :
    ∃ q, parseCommandLine (parser ds false) (prog :: as) = .ok (0, q) ∧ Reports ds q (cmdGiven ds es) := by
  obtain ⟨r, q, e1, -, -, e4⟩ := C36_partial ds false prog as hp
  obtain ⟨h0, h1, h2⟩ := e4 es h
  subst h0
  refine ⟨q, e1, ?_, ?_, ?_, ?_, h2⟩
  all_goals
    intro n hn
    obtain ⟨i, hi⟩ := Option.isSome_iff_exists.1 hn
    obtain ⟨g1, g2, g3, g4⟩ := h1 n i hi
  · rw [g1]; simp [cmdGiven, hi]
  · rw [g2]; simp [cmdGiven, hi]
  · rw [g3]; simp [cmdGiven, hi]
  · intro j hj
    have hv : (cmdGiven ds es).values n = valuesOf i es := by simp [cmdGiven, hi]
    rw [hv] at hj
    rw [g4 j hj]
    simp [hv]

theorem convNames_eq {ds : List Decl} {p : CLine} {g : CmdGiven} (v : Reports ds p g) (o : ConvOpts) :
    convNames p o = .ok { o with input := g.args[0]?.getD o.input, psf := g.args[1]?.getD o.psf, output := g.args[2]?.getD o.output } := by
  unfold convNames CLine.argument
  rw [v.args]
  match h : g.args with
  | [] => rfl
  | [a] => rfl
  | [a, b] => rfl
  | a :: b :: c :: t => simp [rd_ok, ok_bind]

/-- The names of the files that `psfconvolve` uses. -/
theorem convInput_eq (prog : Str) (as : List Str) (hp : ∀ a ∈ as, Plain a) (es : List Ev) (h : meaning convDecls false none as = some es)
    (hh : (cmdGiven convDecls es).has "help" = false) (hd : ∀ t ∈ (cmdGiven convDecls es).first "debug", IsInteger 2147483647 t) :
    ∃ o, convInput (prog :: as) = .ok o ∧ o.input = fileName (cmdGiven convDecls es) 0 "narrow_gaussian_6x6.fits" ∧ o.psf = fileName (cmdGiven convDecls es) 1 "gaussian_5x5.fits" ∧
      o.output = fileName (cmdGiven convDecls es) 2 "convolve_out.fits" := by
  obtain ⟨q, e, v⟩ := lax_reports convDecls prog as hp es h
  unfold convInput
  rw [convParser_eq, e, ok_bind]
  generalize hg : cmdGiven convDecls es = g at *
  rw [steps_ok (convSteps q) [fun o => { o with input := g.args[0]?.getD o.input, psf := g.args[1]?.getD o.psf, output := g.args[2]?.getD o.output }, id,
    fun o => { o with copyHeader := bif g.has "copyheader" then true else o.copyHeader },
    fun o => { o with print := bif g.has "printimages" then true else o.print, debug := bif g.has "printimages" then 2 else o.debug },
    fun o => { o with debug := ((g.first "debug").map integerVal).getD o.debug }] ?_]
  · exact ⟨_, rfl, rfl, rfl, rfl⟩
  · refine .cons (convNames_eq v) (.cons (exitFlag_upd v "help" (by owned) hh) (.cons ?_ (.cons ?_ (.cons ?_ .nil))))
    · exact onFlag_upd v "copyheader" _ _ (by owned) fun o => by cases g.has "copyheader" <;> rfl
    · exact onFlag_upd v "printimages" _ _ (by owned) fun o => by cases g.has "printimages" <;> rfl
    · exact onOption_upd v "debug" _ (fun t o => { o with debug := integerVal t }) _ (by owned) (fun t ht => asLong_integer (fun z (o : ConvOpts) => { o with debug := z }) t (hd t ht))
        fun o => by cases g.first "debug" <;> rfl

/-- The names of the files that `psfconvolve1d` uses. -/
theorem convInput1_eq (prog : Str) (as : List Str) (hp : ∀ a ∈ as, Plain a) (es : List Ev) (h : meaning convDecls1 false none as = some es)
    (hh : (cmdGiven convDecls1 es).has "help" = false) (hd : ∀ t ∈ (cmdGiven convDecls1 es).first "debug", IsWhole 2147483647 t) :
    ∃ o, convInput1 (prog :: as) = .ok o ∧ o.input = fileName (cmdGiven convDecls1 es) 0 "some_profile.dat" ∧ o.psf = fileName (cmdGiven convDecls1 es) 1 "psf_gaussian1d.dat" ∧
      o.output = fileName (cmdGiven convDecls1 es) 2 "convolve1d_out.dat" := by
  obtain ⟨q, e, v⟩ := lax_reports convDecls1 prog as hp es h
  unfold convInput1
  rw [convParser1_eq, e, ok_bind]
  generalize hg : cmdGiven convDecls1 es = g at *
  rw [steps_ok (convSteps1 q) [fun o => { o with input := g.args[0]?.getD o.input, psf := g.args[1]?.getD o.psf, output := g.args[2]?.getD o.output }, id,
    fun o => { o with print := bif g.has "printProfiles" then true else o.print, debug := bif g.has "printProfiles" then 2 else o.debug },
    fun o => { o with debug := ((g.first "debug").map wholeVal).getD o.debug }] ?_]
  · exact ⟨_, rfl, rfl, rfl, rfl⟩
  · refine .cons (convNames_eq v) (.cons (exitFlag_upd v "help" (by owned) hh) (.cons ?_ (.cons ?_ .nil)))
    · exact onFlag_upd v "printProfiles" _ _ (by owned) fun o => by cases g.has "printProfiles" <;> rfl
    · refine onOption_upd v "debug" _ (fun t o => { o with debug := wholeVal t }) _ (by owned) ?_ fun o => by cases g.first "debug" <;> rfl
      intro t ht
      have hb := whole_bounds (hd t ht)
      rw [asLong_whole _ t (isWhole_mono (by decide) (hd t ht)), longToInt_id _ (by omega) (by omega)]

/-! ## Images -/

theorem smeared2_eq (c r cp rp : Nat) (P I : Nat → Nat → ℝ) : linearConvolution c r cp rp I (usedPsf cp rp P true) = smeared2 c r cp rp P I := by
  funext y x
  unfold linearConvolution smeared2 usedPsf zeroOutside total
  simp only [if_true, Finset.sum_div]
  refine sum_congr rfl fun i _ => sum_congr rfl fun j _ => ?_
  ring

theorem pixelCount_ok {c r : Nat} (h : c * r ≤ 2147483647) : pixelCount c r = .ok ((c : Int) * r) := by
  unfold pixelCount
  rw [if_pos]
  constructor
  · have : (0 : Int) ≤ (c : Int) * r := by positivity
    omega
  · exact_mod_cast h

/-- The program after its two images have been read. -/
theorem psfconvolve_read (flt : XR → XR) (w : Disk XR) (hs : Sound w.files) (hm : Small w.files) (hw : Calm w) (argv : List Str) (o : ConvOpts) (ho : convInput argv = .ok o) (c r cp rp : ℕ)
    (px pp : List XR) (hi : IsImage w.files o.input c r px) (hpi : IsImage w.files o.psf cp rp pp) (hN : c * r ≤ 2147483647) (hNp : cp * rp ≤ 2147483647) :
    ∃ w', w'.files = w.files ∧ w'.opened = w.opened ∧ Calm w' ∧ psfconvolve flt w argv = (do
      let s ← cvSetup ⟨c, r, cp, rp, pp⟩ true
      let out ← convolveImage s.1 s.2 px
      let v ← saveImage flt w' (some out) o.output c r []
      .ok (v.1, 0)) := by
  obtain ⟨w1, e1, f1, o1, c1⟩ := C92_read_image w hs hm hw _ c r _ hi
  obtain ⟨w2, e2, f2, o2, c2⟩ := C92_read_image w1 (f1 ▸ hs) (f1 ▸ hm) c1 _ cp rp _ (f1 ▸ hpi)
  refine ⟨w2, by rw [f2, f1], by rw [o2, o1], c2, ?_⟩
  unfold psfconvolve
  rw [ho, ok_bind, e1, ok_bind]
  simp only [pixelCount_ok hN, ok_bind, e2, pixelCount_ok hNp, Int.toNat_natCast]

/-- The image that is written is the input image seen through the normalised PSF; no other file changes. -/
theorem C114_image_partial (flt : XR → XR) (w : Disk XR) (hs : Sound w.files) (hm : Small w.files) (hw : Calm w) (prog : Str) (as : List Str) (hp : ∀ a ∈ as, Plain a) (es : List Ev)
    (h : meaning convDecls false none as = some es) (hh : (cmdGiven convDecls es).has "help" = false) (hd : ∀ t ∈ (cmdGiven convDecls es).first "debug", IsInteger 2147483647 t)
    (c r cp rp : ℕ) (hc : 0 < c) (hr : 0 < r) (hcp : 0 < cp) (hrp : 0 < rp) (hN : c * r ≤ 2147483647) (hNp : cp * rp ≤ 2147483647) (I P : ℕ → ℕ → ℝ)
    (hi : IsImage w.files (fileName (cmdGiven convDecls es) 0 "narrow_gaussian_6x6.fits") c r (image c r I))
    (hpi : IsImage w.files (fileName (cmdGiven convDecls es) 1 "gaussian_5x5.fits") cp rp (image cp rp P)) (hS : total cp rp P ≠ 0) :
    ∃ w', psfconvolve flt w (prog :: as) = .ok (w', 0) ∧
      IsImage w'.files (fileName (cmdGiven convDecls es) 2 "convolve_out.fits") c r ((image c r (smeared2 c r cp rp P I)).map flt) ∧
      (∀ n, n ≠ fileName (cmdGiven convDecls es) 2 "convolve_out.fits" → w'.files n = w.files n) ∧ w'.opened = w.opened := by
  obtain ⟨o, ho, ha, hb, hc'⟩ := convInput_eq prog as hp es h hh hd
  rw [← ha] at hi
  rw [← hb] at hpi
  rw [← hc']
  obtain ⟨w2, f2, o2, c2, e⟩ := psfconvolve_read flt w hs hm hw _ o ho c r cp rp _ _ hi hpi hN hNp
  obtain ⟨q, hq, hcv⟩ := C15_convolution ⟨c, r, cp, rp, image cp rp P⟩ P I true hc hr hcp hrp rfl fun _ => hS
  simp only [smeared2_eq] at hcv
  obtain ⟨w3, st, hsv, -, h3, h4, h5⟩ := C92_save flt w2 (image c r (smeared2 c r cp rp P I)) o.output c r (by rw [image_length, mul_comm]) []
  obtain ⟨rfl, -⟩ := h5 c2
  obtain ⟨-, h6, h7⟩ := h4 rfl
  refine ⟨w3, ?_, h6, fun n hn => by rw [h3 n hn, f2], by rw [h7, o2]⟩
  rw [e, hq, ok_bind, hcv, ok_bind, hsv, ok_bind]

/-- A file that is missing, or is no image, ends the program before anything is written. -/
theorem C114_missing (flt : XR → XR) (w : Disk XR) (hs : Sound w.files) (hw : Calm w) (prog : Str) (as : List Str) (hp : ∀ a ∈ as, Plain a) (es : List Ev)
    (h : meaning convDecls false none as = some es) (hh : (cmdGiven convDecls es).has "help" = false) (hd : ∀ t ∈ (cmdGiven convDecls es).first "debug", IsInteger 2147483647 t)
    (hi : ∀ c r px, ¬ IsImage w.files (fileName (cmdGiven convDecls es) 0 "narrow_gaussian_6x6.fits") c r px) : psfconvolve flt w (prog :: as) = .error .exit := by
  obtain ⟨o, ho, ha, -, -⟩ := convInput_eq prog as hp es h hh hd
  rw [← ha] at hi
  obtain ⟨w1, e1, -, -⟩ := C92_read_other w hs hw _ hi
  unfold psfconvolve
  rw [ho, ok_bind, e1, ok_bind]

theorem conv_unknown (a b : Str) (ha : a.head? ≠ some '-') (hb : b.head? ≠ some '-') :
    meaning convDecls false none [a, b, "--no-normalize".toList] = some [.arg a, .arg b] ∧ meaning convDecls true none [a, b, "--no-normalize".toList] = none := by
  have h1 : meaning convDecls false none ["--no-normalize".toList] = some [] := by decide +kernel
  have h2 : meaning convDecls true none ["--no-normalize".toList] = none := by decide +kernel
  constructor
  · unfold meaning
    rw [if_pos ha]
    unfold meaning
    rw [if_pos hb, h1]
    rfl
  · unfold meaning
    rw [if_pos ha]
    unfold meaning
    rw [if_pos hb, h2]
    rfl

/-- Options that do not exist are ignored: with `--no-normalize` the PSF is normalised as without it. -/
theorem C114_unknown_false (flt : XR → XR) (w : Disk XR) (hs : Sound w.files) (hm : Small w.files) (hw : Calm w) (prog a b : Str) (ha : a.head? ≠ some '-') (hb : b.head? ≠ some '-')
    (c r cp rp : ℕ) (hc : 0 < c) (hr : 0 < r) (hcp : 0 < cp) (hrp : 0 < rp) (hN : c * r ≤ 2147483647) (hNp : cp * rp ≤ 2147483647) (I P : ℕ → ℕ → ℝ)
    (hi : IsImage w.files a c r (image c r I)) (hpi : IsImage w.files b cp rp (image cp rp P)) (hS : total cp rp P ≠ 0) :
    meaning convDecls true none [a, b, "--no-normalize".toList] = none ∧
    ∃ w', psfconvolve flt w [prog, a, b, "--no-normalize".toList] = .ok (w', 0) ∧ IsImage w'.files "convolve_out.fits".toList c r ((image c r (smeared2 c r cp rp P I)).map flt) := by
  refine ⟨(conv_unknown a b ha hb).2, ?_⟩
  have hp : ∀ x ∈ [a, b, "--no-normalize".toList], Plain x := by
    intro x hx
    simp only [List.mem_cons, List.not_mem_nil, or_false] at hx
    rcases hx with rfl | rfl | rfl
    · exact fun h => absurd h ha
    · exact fun h => absurd h hb
    · exact fun _ => .inl (by decide +kernel)
  have hg : cmdGiven convDecls [.arg a, .arg b] = ⟨fun n => (owner convDecls n).any fun _ => false, fun n => ((owner convDecls n).map fun _ => []).getD [], [a, b]⟩ := by
    unfold cmdGiven
    congr 1
  have hh : (cmdGiven convDecls [.arg a, .arg b]).has "help" = false := by
    rw [hg]
    unfold CmdGiven.has
    cases owner convDecls "help".toList <;> rfl
  have hd : ∀ t ∈ (cmdGiven convDecls [.arg a, .arg b]).first "debug", IsInteger 2147483647 t := by
    intro t ht
    rw [hg] at ht
    unfold CmdGiven.first at ht
    dsimp only at ht
    generalize owner convDecls "debug".toList = x at ht
    cases x <;> cases ht
  have e0 : fileName (cmdGiven convDecls [.arg a, .arg b]) 0 "narrow_gaussian_6x6.fits" = a := by rw [hg]; rfl
  have e1 : fileName (cmdGiven convDecls [.arg a, .arg b]) 1 "gaussian_5x5.fits" = b := by rw [hg]; rfl
  have e2 : fileName (cmdGiven convDecls [.arg a, .arg b]) 2 "convolve_out.fits" = "convolve_out.fits".toList := by rw [hg]; rfl
  obtain ⟨w', h1, h2, -, -⟩ := C114_image_partial flt w hs hm hw prog [a, b, "--no-normalize".toList] hp _ (conv_unknown a b ha hb).1 hh hd c r cp rp hc hr hcp hrp hN hNp I P
    (by rw [e0]; exact hi) (by rw [e1]; exact hpi) hS
  rw [e2] at h2
  exact ⟨w', h1, h2⟩

/-- After a single dash nothing is read: the files that are named are not used. -/
theorem C114_dash_false (prog a b c : Str) : convInput [prog, "-".toList, a, b, c] = .ok defaultConv := by
  have h : parseCommandLine convParser [prog, "-".toList, a, b, c] = .ok (-1, { convParser with empty := false }) := by rfl
  have h2 : (convSteps { convParser with empty := false }).foldlM (fun o s => s o) defaultConv = .ok defaultConv := by rfl
  rw [convInput, h, ok_bind, h2]

theorem checkForImage_faults {α : Type} (files : Str → Option (FitsFile α)) (k : Nat) (l : List Bool) (name : Str) (h : Hdu α) (hf : files name = some ⟨[h], 1⟩) (hi : h.image = true)
    (hx : h.naxis = 2) : checkForImage ⟨files, k, false :: false :: false :: false :: l⟩ name = .ok (⟨files, k, l⟩, true) := by
  unfold checkForImage
  rw [open_some _ name ⟨[h], 1⟩ rfl hf]
  dsimp only
  rw [checkHdu_ok _ ⟨[h], 1⟩ 1 h rfl rfl rfl, ok_bind, hi, hx]
  rfl

theorem readOpened_faults {α : Type} (w : Disk α) (h1 : w.fails = false) (h2 : w.next.fails = false) (h3 : w.next.next.fails = false) (h : Hdu α) (c r : Nat)
    (hk : h.keys = [(c : Int), (r : Int)]) (hl : h.pixels.length = c * r) (hc : c < 2147483648) (hr : r < 2147483648) :
    readOpened w ⟨[h], 1⟩ false = .ok ({ w.next.next.next with opened := w.opened - 1 }, some (h.pixels, (c : Int), (r : Int))) := by
  have hu : FitsFile.unit ⟨[h], 1⟩ 1 = some h := rfl
  have ek : fitsKeys w ⟨[h], 1⟩ false = (w.next, false, [(c : Int), (r : Int)]) := by
    unfold fitsKeys
    rw [if_neg (by simp), if_neg (by simp [h1]), hu]
    simp [hk]
  have ep : fitsPix w.next ⟨[h], 1⟩ ((c : Int) * (r : Int)) false = (w.next.next, false, h.pixels) := by
    unfold fitsPix
    have hn : ((c : Int) * (r : Int)) = ((c * r : Nat) : Int) := by push_cast; rfl
    rw [if_neg (by simp), if_neg (by simp [h2]), hu, hn]
    simp only [hl]
    rw [if_neg (by omega), Int.toNat_natCast, ← hl, List.take_length]
  unfold readOpened
  rw [ek]
  simp only [Bool.false_eq_true, if_false]
  show (do
      let a ← given (some (c : Int))
      let b ← given (some (r : Int))
      let p := fitsPix w.next ⟨[h], 1⟩ (toInt32 a * toInt32 b) false
      if p.2.1 = true then Except.ok (p.1, none)
      else
        let cl := fitsClose p.1 p.2.1
        if cl.2 = true then Except.ok (cl.1, none) else Except.ok (cl.1, some (p.2.2, toInt32 a, toInt32 b))) = _
  simp only [given, ok_bind, toInt32_small c hc, toInt32_small r hr]
  rw [ep]
  simp only [Bool.false_eq_true, if_false, fitsClose, Bool.false_or]
  rw [if_neg (by simp [h3])]
  rfl

theorem readImage_faults {α : Type} (files : Str → Option (FitsFile α)) (k : Nat) (l : List Bool) (name : Str) (h : Hdu α) (c r : Nat) (hf : files name = some ⟨[h], 1⟩) (hi : h.image = true)
    (hx : h.naxis = 2) (hk : h.keys = [(c : Int), (r : Int)]) (hl : h.pixels.length = c * r) (hc : c < 2147483648) (hr : r < 2147483648) :
    readImage ⟨files, k, List.replicate 8 false ++ l⟩ name = .ok (⟨files, k, l⟩, some (h.pixels, (c : Int), (r : Int))) := by
  unfold readImage
  rw [show List.replicate 8 false ++ l = false :: false :: false :: false :: false :: false :: false :: false :: l from rfl, checkForImage_faults files k _ name h hf hi hx, ok_bind,
    if_pos rfl, open_some _ name ⟨[h], 1⟩ rfl hf]
  dsimp only
  rw [readOpened_faults _ rfl rfl rfl h c r hk hl hc hr]
  rfl

/-- If the image cannot be written the program ends with the status 0 all the same, and the file that was there before is gone. -/
theorem C114_unsaved_false (flt : XR → XR) (files : Str → Option (FitsFile XR)) (I : ℝ) (cm : List Str) (k : Nat) (prog : Str)
    (hf : files "in.fits".toList = some ⟨[⟨true, 2, [1, 1], [fin I], cm⟩], 1⟩) (hp : files "psf.fits".toList = some ⟨[⟨true, 2, [1, 1], [fin 1], cm⟩], 1⟩) :
    ∃ w', psfconvolve flt ⟨files, k, List.replicate 16 false ++ [false, true]⟩ [prog, "in.fits".toList, "psf.fits".toList, "out.fits".toList] = .ok (w', 0) ∧
      w'.files "out.fits".toList = some ⟨[], 1⟩ := by
  obtain ⟨o, ho, hoi, hop, hoo⟩ : ∃ o, convInput [prog, "in.fits".toList, "psf.fits".toList, "out.fits".toList] = .ok o ∧ o.input = "in.fits".toList ∧ o.psf = "psf.fits".toList ∧
      o.output = "out.fits".toList := by
    have h : ∀ a ∈ ["in.fits".toList, "psf.fits".toList, "out.fits".toList], Plain a := by
      have hn : ∀ a ∈ ["in.fits".toList, "psf.fits".toList, "out.fits".toList], a.head? ≠ some '-' := by decide +kernel
      exact fun a ha h => absurd h (hn a ha)
    have hd : (cmdGiven convDecls [.arg "in.fits".toList, .arg "psf.fits".toList, .arg "out.fits".toList]).first "debug" = none := by decide +kernel
    obtain ⟨o, ho, h1, h2, h3⟩ := convInput_eq prog _ h [.arg "in.fits".toList, .arg "psf.fits".toList, .arg "out.fits".toList] (by decide +kernel) (by decide +kernel)
      (by rw [hd]; intro t ht; cases ht)
    exact ⟨o, ho, h1, h2, h3⟩
  have e1 := readImage_faults files k (List.replicate 8 false ++ [false, true]) "in.fits".toList ⟨true, 2, [1, 1], [fin I], cm⟩ 1 1 hf rfl rfl rfl rfl (by norm_num) (by norm_num)
  have e2 := readImage_faults files k [false, true] "psf.fits".toList ⟨true, 2, [1, 1], [fin 1], cm⟩ 1 1 hp rfl rfl rfl rfl (by norm_num) (by norm_num)
  have hl : List.replicate 16 false ++ [false, true] = List.replicate 8 false ++ (List.replicate 8 false ++ [false, true]) := rfl
  obtain ⟨q, hq, hcv⟩ := C15_convolution ⟨1, 1, 1, 1, image 1 1 fun _ _ => 1⟩ (fun _ _ => 1) (fun _ _ => I) true (by norm_num) (by norm_num) (by norm_num) (by norm_num) rfl fun _ => by
    simp [total]
  have hi1 : image 1 1 (fun _ _ => I) = [fin I] := rfl
  have hi2 : image 1 1 (fun _ _ => (1 : ℝ)) = [fin 1] := rfl
  rw [hi2] at hq
  simp only [hi1] at hcv
  obtain ⟨w', hs, hw, -⟩ := C92_lost_false flt ⟨files, k, [false, true]⟩ (image 1 1 (linearConvolution 1 1 1 1 (fun _ _ => I) (usedPsf 1 1 (fun _ _ => 1) true))) "out.fits".toList 1 1 rfl
  refine ⟨w', ?_, hw⟩
  have hc : pixelCount ((1 : Nat) : Int) ((1 : Nat) : Int) = .ok 1 := by decide
  unfold psfconvolve
  rw [ho, ok_bind, hoi, hop, hoo, hl, e1, ok_bind]
  simp only [hc, ok_bind, e2, Int.toNat_natCast, hq, hcv, hs]

/-! ## Profiles -/

theorem smeared_eq (n p : Nat) (P I : Nat → ℝ) (i : Nat) :
    ∑ k ∈ range p, P k / (∑ k ∈ range p, P k) * zeroBeyond n I ((i : ℤ) - ((k : ℤ) - (p / 2 : Nat))) = smeared n p P I i := by
  unfold smeared
  rw [Finset.sum_div]
  refine sum_congr rfl fun k _ => ?_
  ring

theorem profileText_eq (fmt : XR → Str) (n : Nat) (x y : Nat → XR) : profileText fmt (tab n x) (tab n y) n = .ok ((List.range n).flatMap fun i => fmt (x i) ++ '\t' :: fmt (y i) ++ ['\n']) := by
  unfold profileText
  rw [loopMap_ok n _ (fun i => profileLine fmt (x i) (y i)) ?_]
  · rw [ok_bind, List.flatMap_def]
    rfl
  · intro i hi
    have e (g : Nat → XR) : rd (tab n g) i = .ok (g i) := by
      rw [rd_ok (by rw [tab_length]; exact hi)]
      simp [tab]
    rw [e, ok_bind, e, ok_bind]
    rfl

/-- A command line for `psfconvolve1d` without `--help`, with a proper number for `--debug` if there is one. -/
structure ConvLine1 (as : List Str) (es : List Ev) : Prop where
  plain : ∀ a ∈ as, Plain a
  events : meaning convDecls1 false none as = some es
  help : (cmdGiven convDecls1 es).has "help" = false
  debug : ∀ t ∈ (cmdGiven convDecls1 es).first "debug", IsWhole 2147483647 t

/-- The profile that is written is the input profile seen through the normalised PSF: a line for each row of the data file. -/
theorem C114_profile_partial (num : Str → XR) (fmt : XR → Str) (files : Str → Option DiskFile) (canWrite : Str → Bool) (prog : Str) (as : List Str) (es : List Ev) (hl : ConvLine1 as es)
    (t tp : Str) (ht : files (fileName (cmdGiven convDecls1 es) 0 "some_profile.dat") = some ⟨t, false⟩) (htp : files (fileName (cmdGiven convDecls1 es) 1 "psf_gaussian1d.dat") = some ⟨tp, false⟩)
    (hw : canWrite (fileName (cmdGiven convDecls1 es) 2 "convolve1d_out.dat") = true) (h : ShortLines t) (hp : ShortLines tp) (n p : ℕ) (hn : (dataRows t).length = n)
    (hpn : (dataRows tp).length = p) (hn2 : 2 ≤ n) (hN : n ≤ 1000000) (hp1 : 1 ≤ p) (hpl : p ≤ n) (hc : ∀ r (hr : r < (dataRows t).length), 2 ≤ ((dataRows t)[r]).length)
    (hcp : ∀ r (hr : r < (dataRows tp).length), 2 ≤ ((dataRows tp)[r]).length) (Y P : ℕ → ℝ) (hY : ∀ i, i < n → num (cell t i 1) = fin (Y i)) (hP : ∀ k, k < p → num (cell tp k 1) = fin (P k))
    (hS : ∑ k ∈ range p, P k ≠ 0) :
    psfconvolve1d num fmt files canWrite (prog :: as) = .ok (fileName (cmdGiven convDecls1 es) 2 "convolve1d_out.dat",
      (List.range n).flatMap fun i => fmt (num (cell t i 0)) ++ '\t' :: fmt (fin (smeared n p P Y i)) ++ ['\n']) := by
  obtain ⟨o, ho, ha, hb, hc'⟩ := convInput1_eq prog as hl.plain es hl.events hl.help hl.debug
  unfold psfconvolve1d
  rw [ho, ok_bind, ha, hb, hc', ht, htp]
  have hr := C104_rows_partial num t h (by omega) none none 0 (n - 1) (Or.inl ⟨rfl, rfl⟩) (Or.inl ⟨rfl, by omega⟩) (by omega) (by omega) false false fun r hr _ _ => hc r hr
  rw [show n - 1 - 0 + 1 = n by omega] at hr
  rw [hr, ok_bind]
  dsimp only
  rw [C104_psf_partial num tp hp (by omega) (by omega) hcp n (by omega), ok_bind, hpn]
  obtain ⟨f, h1, h2⟩ := convolve1_eq n p P Y (by omega) (by omega) hS
  have e1 : (tab p fun z => num (cell tp z 1)) = tab p fun k => fin (P k) := tab_congr fun k hk => hP k hk
  have e2 : (tab n fun z => num (cell t (0 + z) 1)) = tab n fun k => fin (Y k) := tab_congr fun k hk => by rw [Nat.zero_add]; exact hY k hk
  rw [e1, e2, h1, ok_bind, tab_length, h2, ok_bind, if_pos hw, profileText_eq, ok_bind]
  simp only [smeared_eq, Nat.zero_add]

/-- A PSF profile longer than the data profile is refused. -/
theorem C114_longPsf_false (num : Str → XR) (fmt : XR → Str) (files : Str → Option DiskFile) (canWrite : Str → Bool) (prog : Str) (as : List Str) (es : List Ev) (hl : ConvLine1 as es)
    (t tp : Str) (ht : files (fileName (cmdGiven convDecls1 es) 0 "some_profile.dat") = some ⟨t, false⟩) (htp : files (fileName (cmdGiven convDecls1 es) 1 "psf_gaussian1d.dat") = some ⟨tp, false⟩)
    (h : ShortLines t) (hp : ShortLines tp) (hn2 : 2 ≤ (dataRows t).length) (hpN : (dataRows tp).length ≤ 1000000) (hlong : (dataRows t).length < (dataRows tp).length)
    (hc : ∀ r (hr : r < (dataRows t).length), 2 ≤ ((dataRows t)[r]).length) (hcp : ∀ r (hr : r < (dataRows tp).length), 2 ≤ ((dataRows tp)[r]).length) :
    psfconvolve1d num fmt files canWrite (prog :: as) = .error .exit := by
  obtain ⟨o, ho, ha, hb, -⟩ := convInput1_eq prog as hl.plain es hl.events hl.help hl.debug
  obtain ⟨n, hn⟩ : ∃ n, (dataRows t).length = n := ⟨_, rfl⟩
  unfold psfconvolve1d
  rw [ho, ok_bind, ha, hb, ht, htp]
  have hr := C104_rows_partial num t h (by omega) none none 0 (n - 1) (Or.inl ⟨rfl, rfl⟩) (Or.inl ⟨rfl, by omega⟩) (by omega) (by omega) false false fun r hr _ _ => hc r hr
  rw [show n - 1 - 0 + 1 = n by omega] at hr
  rw [hr, ok_bind]
  dsimp only
  rw [C104_longPsf_false num tp hp (by omega) hpN hcp n (by omega)]
  rfl

/-- A profile of one row is refused. -/
theorem C114_single_false (num : Str → XR) (fmt : XR → Str) (files : Str → Option DiskFile) (canWrite : Str → Bool) (prog : Str) (as : List Str) (es : List Ev) (hl : ConvLine1 as es)
    (t : Str) (ht : files (fileName (cmdGiven convDecls1 es) 0 "some_profile.dat") = some ⟨t, false⟩) (h : ShortLines t) (h1 : (dataRows t).length = 1) :
    psfconvolve1d num fmt files canWrite (prog :: as) = .error .exit := by
  obtain ⟨o, ho, ha, -, -⟩ := convInput1_eq prog as hl.plain es hl.events hl.help hl.debug
  unfold psfconvolve1d
  rw [ho, ok_bind, ha, ht, C104_single_false num t h (by omega) (by omega) none none false false (Or.inl ⟨rfl, rfl, h1⟩)]
  rfl

/-- If `%f` prints small numbers as zero, a profile of small numbers is lost. -/
theorem C114_small_false (num : Str → XR) (fmt : XR → Str) (hfmt : ∀ x : ℝ, |x| < 1 / 2000000 → fmt (fin x) = "0.000000".toList) (files : Str → Option DiskFile) (canWrite : Str → Bool)
    (prog : Str) (as : List Str) (es : List Ev) (hl : ConvLine1 as es)
    (t tp : Str) (ht : files (fileName (cmdGiven convDecls1 es) 0 "some_profile.dat") = some ⟨t, false⟩) (htp : files (fileName (cmdGiven convDecls1 es) 1 "psf_gaussian1d.dat") = some ⟨tp, false⟩)
    (hw : canWrite (fileName (cmdGiven convDecls1 es) 2 "convolve1d_out.dat") = true) (h : ShortLines t) (hp : ShortLines tp) (n p : ℕ) (hn : (dataRows t).length = n)
    (hpn : (dataRows tp).length = p) (hn2 : 2 ≤ n) (hN : n ≤ 1000000) (hp1 : 1 ≤ p) (hpl : p ≤ n) (hc : ∀ r (hr : r < (dataRows t).length), 2 ≤ ((dataRows t)[r]).length)
    (hcp : ∀ r (hr : r < (dataRows tp).length), 2 ≤ ((dataRows tp)[r]).length) (Y P : ℕ → ℝ) (hY : ∀ i, i < n → num (cell t i 1) = fin (Y i)) (hP : ∀ k, k < p → num (cell tp k 1) = fin (P k))
    (hpos : ∀ k, k < p → 0 < P k) (hsmall : ∀ i, i < n → |Y i| ≤ 1 / 4000000) :
    psfconvolve1d num fmt files canWrite (prog :: as) = .ok (fileName (cmdGiven convDecls1 es) 2 "convolve1d_out.dat",
      (List.range n).flatMap fun i => fmt (num (cell t i 0)) ++ '\t' :: "0.000000".toList ++ ['\n']) := by
  have hS : 0 < ∑ k ∈ range p, P k := Finset.sum_pos (fun k hk => hpos k (mem_range.1 hk)) ⟨0, mem_range.2 (by omega)⟩
  rw [C114_profile_partial num fmt files canWrite prog as es hl t tp ht htp hw h hp n p hn hpn hn2 hN hp1 hpl hc hcp Y P hY hP hS.ne']
  have key : ∀ i, fmt (fin (smeared n p P Y i)) = "0.000000".toList := by
    intro i
    refine hfmt _ ?_
    unfold smeared
    rw [abs_div, abs_of_pos hS, div_lt_iff₀ hS]
    refine lt_of_le_of_lt (Finset.abs_sum_le_sum_abs _ _) ?_
    have : ∑ k ∈ range p, |P k * zeroBeyond n Y ((i : ℤ) - ((k : ℤ) - (p / 2 : Nat)))| ≤ ∑ k ∈ range p, P k * (1 / 4000000) := by
      refine Finset.sum_le_sum fun k hk => ?_
      rw [abs_mul, abs_of_pos (hpos k (mem_range.1 hk))]
      refine mul_le_mul_of_nonneg_left ?_ (hpos k (mem_range.1 hk)).le
      unfold zeroBeyond
      split
      · rename_i hz
        exact hsmall _ (by omega)
      · rw [abs_zero]; norm_num
    refine lt_of_le_of_lt this ?_
    rw [← Finset.sum_mul]
    nlinarith
  simp only [key]

/-- Three rows seen through the PSF 1, 2, 1. -/
example : (fun i => smeared 3 3 (fun k => if k = 1 then 2 else 1) (fun i => 4 * i) i) 1 = 4 := by
  simp [smeared, Finset.sum_range_succ, zeroBeyond]
  norm_num

/-- An image of one row, in which a point becomes the PSF. -/
example : smeared2 3 1 3 1 (fun _ j => if j = 0 then 1 else if j = 1 then 2 else 5) (fun _ x => if x = 1 then 8 else 0) 0 2 = 5 := by
  simp [smeared2, Finset.sum_range_succ]
  norm_num

/-- `psfconvolve1d profile.dat psf.dat`. -/
theorem c114_line : ConvLine1 ["profile.dat".toList, "psf.dat".toList] [.arg "profile.dat".toList, .arg "psf.dat".toList] where
  plain := by
    have hn : ∀ a ∈ ["profile.dat".toList, "psf.dat".toList], a.head? ≠ some '-' := by decide +kernel
    exact fun a ha h => absurd h (hn a ha)
  events := by decide +kernel
  help := by decide +kernel
  debug := by
    have : (cmdGiven convDecls1 [.arg "profile.dat".toList, .arg "psf.dat".toList]).first "debug" = none := by decide +kernel
    rw [this]
    intro t ht
    cases ht

def c114Psf : Str := "0 1\n1 2\n2 1\n".toList

theorem c114_rows : dataRows c114Psf = [[['0'], ['1']], [['1'], ['2']], [['2'], ['1']]] := by decide

/-- The file `convolve1d_out.dat` when the file of C104 is convolved with 1, 2, 1. -/
example (num : Str → XR) (fmt : XR → Str) (n0 n1 n2 : ℝ) (h0 : num "20".toList = fin n0) (h1 : num "19".toList = fin n1) (h2 : num "18".toList = fin n2) (e1 : num ['1'] = fin 1)
    (e2 : num ['2'] = fin 2) : psfconvolve1d num fmt (fun s => if s = "profile.dat".toList then some ⟨c104Text, false⟩ else if s = "psf.dat".toList then some ⟨c114Psf, false⟩ else none)
      (fun _ => true) ["psfconvolve1d".toList, "profile.dat".toList, "psf.dat".toList] = .ok ("convolve1d_out.dat".toList,
        fmt (num "1.0".toList) ++ '\t' :: fmt (fin ((2 * n0 + n1) / 4)) ++ ['\n'] ++ (fmt (num "2.0".toList) ++ '\t' :: fmt (fin ((n0 + 2 * n1 + n2) / 4)) ++ ['\n']) ++
        (fmt (num "4.0".toList) ++ '\t' :: fmt (fin ((n1 + 2 * n2) / 4)) ++ ['\n'])) := by
  have a0 : fileName (cmdGiven convDecls1 [.arg "profile.dat".toList, .arg "psf.dat".toList]) 0 "some_profile.dat" = "profile.dat".toList := by decide +kernel
  have a1 : fileName (cmdGiven convDecls1 [.arg "profile.dat".toList, .arg "psf.dat".toList]) 1 "psf_gaussian1d.dat" = "psf.dat".toList := by decide +kernel
  have a2 : fileName (cmdGiven convDecls1 [.arg "profile.dat".toList, .arg "psf.dat".toList]) 2 "convolve1d_out.dat" = "convolve1d_out.dat".toList := by decide +kernel
  rw [C114_profile_partial num fmt _ _ _ _ _ c114_line c104Text c114Psf (by rw [a0]; rfl) (by rw [a1, if_neg (by decide +kernel)]; rfl) rfl c104_short (by unfold ShortLines; decide) 3 3 (by rw [c104_rows]; rfl)
    (by rw [c114_rows]; rfl) (by norm_num) (by norm_num) (by norm_num) (by norm_num) (by rw [c104_rows]; decide) (by rw [c114_rows]; decide) (fun i => if i = 0 then n0 else if i = 1 then n1 else n2)
    (fun k => if k = 1 then 2 else 1) ?_ ?_ (by norm_num [Finset.sum_range_succ]), a2]
  · have b0 : smeared 3 3 (fun k => if k = 1 then 2 else 1) (fun i => if i = 0 then n0 else if i = 1 then n1 else n2) 0 = (2 * n0 + n1) / 4 := by
      simp [smeared, Finset.sum_range_succ, zeroBeyond]
      ring
    have b1 : smeared 3 3 (fun k => if k = 1 then 2 else 1) (fun i => if i = 0 then n0 else if i = 1 then n1 else n2) 1 = (n0 + 2 * n1 + n2) / 4 := by
      simp [smeared, Finset.sum_range_succ, zeroBeyond]
      ring
    have b2 : smeared 3 3 (fun k => if k = 1 then 2 else 1) (fun i => if i = 0 then n0 else if i = 1 then n1 else n2) 2 = (n1 + 2 * n2) / 4 := by
      simp [smeared, Finset.sum_range_succ, zeroBeyond]
      ring
    simp [List.range_succ, b0, b1, b2, cell, c104_rows]
  · intro i hi
    interval_cases i
    · simpa [cell, c104_rows] using h0
    · simpa [cell, c104_rows] using h1
    · simpa [cell, c104_rows] using h2
  · intro k hk
    interval_cases k
    · simpa [cell, c114_rows] using e1
    · simpa [cell, c114_rows] using e2
    · simpa [cell, c114_rows] using e1

end Imfit
