import Verif.Props.C69
import Verif.Props.C13

/-!
# C70: estimated fluxes of the components of a model
-/

namespace Imfit

open Set Spec XR

/-- What a function object with centre `(x0, y0)` has after `Setup` if it is the component given. -/
def FluxAfter (x0 y0 : ℝ) (r : Option XR × (XR → XR → Res XR)) : FluxComp → Prop
  | .background => True
  | .known T => r.1 = some (fin T)
  | .field g => r.1 = none ∧ ∀ x y : ℝ, r.2 (fin x) (fin y) = .ok (fin (g (x - x0) (y - y0)))

/-- The function object `f` with the parameters `ps` is the component `k`, wherever its parameters and its centre are. -/
structure FluxDescribes (f : FluxFn XR) (ps : List XR) (k : FluxComp) : Prop where
  length : ps.length = f.nParams
  bg : f.background = true ↔ k = .background
  setup : ∀ (pre post : List XR) (x0 y0 : ℝ), ∃ r, f.setup (pre ++ ps ++ post) pre.length (fin x0) (fin y0) = .ok r ∧ FluxAfter x0 y0 r k

/-- A set of components: position as given in the parameter vector, and function objects with their parameters. -/
structure FluxSet where
  x : XR
  y : XR
  fns : List (FluxFn XR × List XR × FluxComp)

/-- The parameter vector. -/
def fluxParams (sets : List FluxSet) : List XR := sets.flatMap fun s => s.x :: s.y :: (s.fns.flatMap fun f => f.2.1)

theorem foldlM_fin {β : Type} (l : List β) (step : XR → β → Res XR) (v : β → ℝ) (h : ∀ b ∈ l, ∀ a : ℝ, step (fin a) b = .ok (fin (a + v b))) (a : ℝ) :
    l.foldlM step (fin a) = .ok (fin (a + (l.map v).sum)) := by
  induction l generalizing a with
  | nil => simp [pure_eq_ok]
  | cons b l ih =>
    rw [List.foldlM_cons, h b (by simp), ok_bind, ih (fun c hc => h c (by simp [hc])), List.map_cons, List.sum_cons, add_assoc]

theorem rowsFlux_fin (w : ℕ) (v : XR → XR → Res XR) (g : ℝ → ℝ → ℝ) (hv : ∀ x y : ℝ, v (fin x) (fin y) = .ok (fin (g x y))) (rows : List ℕ) :
    rowsFlux w v rows = .ok (fin ((rows.map fun i : ℕ => ∑ j ∈ Finset.range w, g (j + 1) (i + 1)).sum)) := by
  unfold rowsFlux
  rw [show (0 : XR) = fin 0 from zero_def, foldlM_fin rows _ (fun i : ℕ => ∑ j ∈ Finset.range w, g (j + 1) (i + 1)), zero_add]
  intro i _ a
  rw [foldlM_fin (List.range w) _ (fun j : ℕ => g (j + 1) (i + 1)), sum_list_range]
  intro j _ b
  simp only [lit_def]
  push_cast
  rw [hv, ok_bind, fin_add]
  rfl

theorem pixelFlux_fin (w h : ℕ) (v : XR → XR → Res XR) (g : ℝ → ℝ → ℝ) (hv : ∀ x y : ℝ, v (fin x) (fin y) = .ok (fin (g x y))) (parts : List (List ℕ))
    (hp : parts.flatten.Perm (List.range h)) :
    pixelFlux w v parts = .ok (fin (∑ i ∈ Finset.range h, ∑ j ∈ Finset.range w, g (j + 1) (i + 1))) := by
  unfold pixelFlux
  rw [show (0 : XR) = fin 0 from zero_def,
    foldlM_fin parts _ (fun rows => (rows.map fun i : ℕ => ∑ j ∈ Finset.range w, g (j + 1) (i + 1)).sum), zero_add]
  · congr 2
    rw [← sum_list_range]
    have h1 := (hp.map fun i : ℕ => ∑ j ∈ Finset.range w, g (j + 1) (i + 1)).sum_eq
    rw [← h1]
    clear h1 hp
    induction parts with
    | nil => simp
    | cons r parts ih => simp [ih]
  · intro rows _ a
    rw [rowsFlux_fin w v g hv, ok_bind, fin_add]
    rfl

/-- What one function object has after `Setup`. -/
def FluxReady (x0 y0 : ℝ) (e : Bool × Option XR × (XR → XR → Res XR)) (k : FluxComp) : Prop :=
  (e.1 = true ↔ k = .background) ∧ FluxAfter x0 y0 e.2 k

theorem fluxSetup_set (x0 y0 : ℝ) (fns : List (FluxFn XR × List XR × FluxComp)) (hd : ∀ f ∈ fns, FluxDescribes f.1 f.2.1 f.2.2)
    (more : List (FluxFn XR)) (mb : List Bool) (pre post : List XR) (l : List (Bool × Option XR × (XR → XR → Res XR)))
    (hl : fluxSetup (pre ++ (fns.flatMap fun f => f.2.1) ++ post) (fin x0) (fin y0) more mb (pre.length + (fns.flatMap fun f => f.2.1).length) = .ok l) :
    ∃ es, fluxSetup (pre ++ (fns.flatMap fun f => f.2.1) ++ post) (fin x0) (fin y0) (fns.map (·.1) ++ more) (fns.map (fun _ => false) ++ mb) pre.length =
      .ok (es ++ l) ∧ List.Forall₂ (FluxReady x0 y0) es (fns.map (·.2.2)) := by
  induction fns generalizing pre with
  | nil => exact ⟨[], by simpa using hl, List.Forall₂.nil⟩
  | cons f fns ih =>
    have hf := hd f (by simp)
    obtain ⟨r, hr, hk⟩ := hf.setup pre ((fns.flatMap fun f => f.2.1) ++ post) x0 y0
    have e1 : pre ++ ((f :: fns).flatMap fun f => f.2.1) ++ post = (pre ++ f.2.1) ++ (fns.flatMap fun f => f.2.1) ++ post := by simp
    obtain ⟨es, he, hes⟩ := ih (fun g hg => hd g (by simp [hg])) (pre ++ f.2.1) (by
      rw [← e1]
      rw [← hl]
      congr 1
      simp [Nat.add_assoc])
    refine ⟨(f.1.background, r) :: es, ?_, List.Forall₂.cons ⟨hf.bg, hk⟩ hes⟩
    have e2 : pre ++ ((f :: fns).flatMap fun f => f.2.1) ++ post = pre ++ f.2.1 ++ ((fns.flatMap fun f => f.2.1) ++ post) := by simp
    simp only [List.map_cons, List.cons_append, fluxSetup, Bool.false_eq_true, if_false]
    rw [e2, hr, ok_bind, ← hf.length, ← List.length_append, ← e2, e1, he]
    rfl

theorem fluxSetup_sets (x0 y0 : ℝ) (sets : List FluxSet) (hne : ∀ s ∈ sets, s.fns ≠ []) (hd : ∀ s ∈ sets, ∀ f ∈ s.fns, FluxDescribes f.1 f.2.1 f.2.2)
    (pre : List XR) :
    ∃ es, fluxSetup (pre ++ fluxParams sets) (fin x0) (fin y0) (sets.flatMap fun s => s.fns.map (·.1)) ((flagged (sets.map (·.fns))).map Prod.snd) pre.length =
      .ok es ∧ List.Forall₂ (FluxReady x0 y0) es (sets.flatMap fun s => s.fns.map (·.2.2)) := by
  induction sets generalizing pre with
  | nil => exact ⟨[], rfl, List.Forall₂.nil⟩
  | cons s sets ih =>
    obtain ⟨f, fs, hs⟩ := List.exists_cons_of_ne_nil (hne s (by simp))
    have hd' := hd s (by simp)
    rw [hs] at hd'
    have e1 : pre ++ fluxParams (s :: sets) =
        (pre ++ [s.x, s.y] ++ f.2.1) ++ (fs.flatMap fun f => f.2.1) ++ fluxParams sets := by
      unfold fluxParams
      rw [List.flatMap_cons, hs]
      simp
    obtain ⟨es, he, hes⟩ := ih (fun t ht => hne t (by simp [ht])) (fun t ht => hd t (by simp [ht]))
      (pre ++ [s.x, s.y] ++ f.2.1 ++ (fs.flatMap fun f => f.2.1))
    have hset := fluxSetup_set x0 y0 fs (fun g hg => hd' g (by simp [hg])) (sets.flatMap fun s => s.fns.map (·.1))
      ((flagged (sets.map (·.fns))).map Prod.snd) (pre ++ [s.x, s.y] ++ f.2.1) (fluxParams sets) es (by
        rw [← he, List.length_append (as := pre ++ [s.x, s.y] ++ f.2.1)])
    obtain ⟨es1, he1, hes1⟩ := hset
    have hf := hd' f (by simp)
    obtain ⟨r, hr, hk⟩ := hf.setup (pre ++ [s.x, s.y]) ((fs.flatMap fun f => f.2.1) ++ fluxParams sets) x0 y0
    refine ⟨(f.1.background, r) :: es1 ++ es, ?_, ?_⟩
    · rw [e1]
      simp only [List.flatMap_cons, hs, List.map_cons, flagged, List.map_append, List.map_map, List.cons_append, fluxSetup, if_true]
      have hlen : pre.length + 2 = (pre ++ [s.x, s.y]).length := by simp
      rw [hlen]
      have e3 : (pre ++ [s.x, s.y] ++ f.2.1) ++ (fs.flatMap fun f => f.2.1) ++ fluxParams sets =
        pre ++ [s.x, s.y] ++ f.2.1 ++ ((fs.flatMap fun f => f.2.1) ++ fluxParams sets) := by simp
      rw [e3, hr, ok_bind, ← hf.length, ← List.length_append, ← e3]
      have hfun : (Prod.snd ∘ fun x : FluxFn XR × List XR × FluxComp => (x, false)) = fun _ => false := rfl
      rw [hfun, he1]
      rfl
    · simp only [List.flatMap_cons, hs, List.map_cons, List.cons_append]
      refine List.Forall₂.cons ⟨hf.bg, hk⟩ ?_
      exact List.rel_append hes1 hes

theorem fluxLoop_fin (w h : ℕ) (x0 y0 : ℝ) (parts : List (List ℕ)) (hp : parts.flatten.Perm (List.range h)) (es : List (Bool × Option XR × (XR → XR → Res XR)))
    (ks : List FluxComp) (hr : List.Forall₂ (FluxReady x0 y0) es ks) (tot : ℝ) :
    fluxLoop w parts es (fin tot) = .ok (fin (tot + (ks.map (·.fluxIn w h x0 y0)).sum), ks.map fun k => fin (k.fluxIn w h x0 y0)) := by
  induction hr generalizing tot with
  | nil => simp [fluxLoop, pure_eq_ok]
  | @cons e k es ks hek _ ih =>
    obtain ⟨b, o, v⟩ := e
    obtain ⟨hb, hk⟩ := hek
    cases k with
    | background =>
      have : b = true := hb.2 rfl
      subst this
      simp only [fluxLoop, ih, ok_bind, pure_eq_ok, List.map_cons, List.sum_cons, FluxComp.fluxIn, zero_add, zero_def]
    | known T =>
      have : b = false := by
        cases b with
        | false => rfl
        | true => exact absurd (hb.1 rfl) (by simp)
      subst this
      have hk' : o = some (fin T) := hk
      subst hk'
      simp only [fluxLoop, fin_add, ih, ok_bind, pure_eq_ok, List.map_cons, List.sum_cons, FluxComp.fluxIn, add_assoc]
    | field g =>
      have : b = false := by
        cases b with
        | false => rfl
        | true => exact absurd (hb.1 rfl) (by simp)
      subst this
      obtain ⟨ho, hv⟩ := hk
      replace ho : o = none := ho
      replace hv : ∀ x y : ℝ, v (fin x) (fin y) = .ok (fin (g (x - x0) (y - y0))) := hv
      subst ho
      simp only [fluxLoop]
      rw [pixelFlux_fin w h v (fun x y => g (x - x0) (y - y0)) hv parts hp, ok_bind, fin_add, ih]
      simp only [ok_bind, pure_eq_ok, List.map_cons, List.sum_cons, FluxComp.fluxIn, add_assoc]

/-- C70: for every model and every distribution of the rows over threads, the flux of a component is zero for a sky background, the known flux if it has one, and
otherwise the sum of its pixel values with its centre at half the image size; the total is the sum of the fluxes. The positions in the parameter vector do not matter. -/
theorem C70_fluxes_partial (sets : List FluxSet) (hne : ∀ s ∈ sets, s.fns ≠ []) (hd : ∀ s ∈ sets, ∀ f ∈ s.fns, FluxDescribes f.1 f.2.1 f.2.2) (w h : ℕ) (hw : 1 ≤ w)
    (hh : 1 ≤ h) (parts : List (List ℕ)) (hp : parts.flatten.Perm (List.range h)) :
    let fl := (sets.flatMap fun s => s.fns.map (·.2.2)).map (·.fluxIn w h (w / 2) (h / 2))
    findTotalFluxes (sets.flatMap fun s => s.fns.map (·.1)) ((flagged (sets.map (·.fns))).map Prod.snd) (fluxParams sets) w h parts =
      .ok (fin fl.sum, fl.map fin) := by
  intro fl
  unfold findTotalFluxes
  rw [if_pos ⟨hw, hh⟩]
  have ex : ∀ n : ℕ, (lit (1 / 2) * lit (n : ℚ) : XR) = fin (n / 2) := by
    intro n
    rw [lit_def, lit_def, fin_mul]
    congr 1
    push_cast
    ring
  rw [ex, ex]
  obtain ⟨es, he, hes⟩ := fluxSetup_sets (w / 2) (h / 2) sets hne hd []
  simp only [List.nil_append, List.length_nil] at he
  rw [he, ok_bind, show (0 : XR) = fin 0 from zero_def, fluxLoop_fin w h _ _ parts hp es _ hes, zero_add]
  simp only [fl, List.map_map]
  rfl

/-- C70: the fractions printed are the shares of the total and add up to one. -/
theorem C70_fractions (fl : List ℝ) (h : fl.sum ≠ 0) :
    fluxFractions (fin fl.sum, fl.map fin) = (fl.map (· / fl.sum)).map fin ++ [fin 1] ∧ (fl.map (· / fl.sum)).sum = 1 := by
  constructor
  · unfold fluxFractions
    congr 1
    simp only [List.map_map]
    refine List.map_congr_left fun v _ => ?_
    simp only [Function.comp]
    exact fin_div_of_ne h
  · simp only [div_eq_mul_inv]
    rw [List.sum_map_mul_right, List.map_id']
    exact mul_inv_cancel₀ h

theorem pixelMean_shift (n : ℕ) (g : ℝ → ℝ → ℝ) (x0 y0 x y : ℝ) :
    pixelMean n (fun a b => g (a - x0) (b - y0)) x y = pixelMean n g (x - x0) (y - y0) := by
  have h : ∀ (i : ℕ) (x x0 : ℝ), gridPoint n i x - x0 = gridPoint n i (x - x0) := by
    intro i x x0
    unfold gridPoint
    ring
  unfold pixelMean
  simp only [h]

/-- C70: the elliptical functions are such components: those of C69 have a known flux, a Moffat function is added up pixel by pixel. -/
theorem C70_elliptical (F : EFun) (gam : XR → XR) (hgam : ∀ v : ℝ, 0 < v → v ≤ 171 → gam (fin v) = fin (Real.Gamma v)) (doSub : Bool)
    (ps rot is : ℝ) (hps : 0 < ps) (his : is ≠ 0) (ph : Phys) (hell : ph.ell < 1) (hamp : ph.amp ≠ 0) (hsize : 0 < ph.size) (hshape : 0 < ph.shape)
    (hn : F = .sersic → 0.06 ≤ ph.shape ∧ ph.shape ≤ 85) (hbig : doSub = true → F = .moffat → 1e-7 ≤ moffatAlpha (ph.size * ps) ph.shape) :
    ∃ k, FluxDescribes (F.fluxFn gam doSub ⟨fin ps, fin rot, fin is⟩) (F.params ph) k ∧
      match F with
      | .moffat => ∃ n : ℝ → ℝ → ℕ, (∀ dx dy, 1 ≤ n dx dy ∧ n dx dy ≤ 100 ∧ (doSub = false → n dx dy = 1)) ∧ k = .field fun dx dy =>
          pixelMean (n dx dy) (fun a b => EFun.spec .moffat (ph.inImage ps rot is) (ellRadius (1 - ph.ell) (ph.inImage ps rot is).angle a b)) dx dy
      | _ => ∃ T, k = .known (T * (3.14159265358979 / Real.pi)) ∧ ∀ x0 y0 : ℝ,
          IsFlux (fun x y => F.spec (ph.inImage ps rot is) (ellRadius (1 - ph.ell) (ph.inImage ps rot is).angle (x - x0) (y - y0))) T := by
  have hq : 0 < 1 - ph.ell := by linarith
  have hs' : 0 < (ph.inImage ps rot is).size := by simp only [Phys.inImage]; positivity
  have ha' : (ph.inImage ps rot is).amp ≠ 0 := mul_ne_zero hamp his
  by_cases hF : F = .moffat
  · subst hF
    have hsub : ∀ dx dy : ℝ, ∃ n : ℕ, galfitSub doSub (EFun.subNum .moffat) (EFun.subThresh .moffat) (fin (EFun.subScale .moffat (ph.inImage ps rot is)))
        (fin (ellRadius (1 - ph.ell) (ph.inImage ps rot is).angle dx dy)) = .ok (n : Int) ∧ 1 ≤ n ∧ n ≤ 100 := by
      intro dx dy
      have hsc : 0 < EFun.subScale .moffat (ph.inImage ps rot is) := EFun.subScale_pos _ hs' hshape
      refine galfitSub_fin _ _ _ (by norm_num [EFun.subNum]) (by norm_num [EFun.subThresh]) _ _ hsc fun hd => Or.inl ?_
      have := hbig hd rfl
      have h7 : 1e-7 ≤ EFun.subScale .moffat (ph.inImage ps rot is) := this
      rw [div_lt_iff₀ hsc]
      simp only [EFun.subNum]
      push_cast
      norm_num at h7 ⊢
      linarith
    choose n hn1 hn2 hn3 using hsub
    refine ⟨.field fun dx dy => pixelMean (n dx dy) (fun a b => EFun.spec .moffat (ph.inImage ps rot is) (ellRadius (1 - ph.ell) (ph.inImage ps rot is).angle a b)) dx dy,
      ⟨rfl, by simp [EFun.fluxFn], ?_⟩, n, fun dx dy => ⟨hn2 dx dy, hn3 dx dy, fun h => ?_⟩, rfl⟩
    swap
    · have h1 := hn1 dx dy
      subst h
      simp only [galfitSub, Bool.false_and, Bool.false_eq_true, if_false, pure_eq_ok] at h1
      injection h1 with h1
      exact_mod_cast h1.symm
    intro pre post x0 y0
    obtain ⟨f, hf, he, hnsub⟩ := setup_isEll .moffat doSub ps rot is hps ph hell hsize hshape pre post x0 y0
    refine ⟨(none, ellValue f), ?_, rfl, ?_⟩
    · simp only [EFun.fluxFn, hf, ok_bind, EFun.totalFlux, pure_eq_ok]
    · intro x y
      show ellValue f (fin x) (fin y) = _
      rw [ellValue_fin he x y (n (x - x0) (y - y0)) (hn2 _ _) (by rw [hnsub]; exact hn1 _ _)]
      exact congrArg (fun v => Except.ok (fin v)) (pixelMean_shift _
        (fun a b => EFun.spec .moffat (ph.inImage ps rot is) (ellRadius (1 - ph.ell) (ph.inImage ps rot is).angle a b)) x0 y0 x y)
  · have hdesc : FluxDescribes (F.fluxFn gam doSub ⟨fin ps, fin rot, fin is⟩) (F.params ph)
        (.known (F.fluxOf (1 - ph.ell) (ph.inImage ps rot is) * (3.14159265358979 / Real.pi))) := by
      refine ⟨by cases F <;> rfl, by simp [EFun.fluxFn], ?_⟩
      intro pre post x0 y0
      obtain ⟨f, hf, -, -⟩ := setup_isEll F doSub ps rot is hps ph hell hsize hshape pre post x0 y0
      refine ⟨(some (fin (F.fluxOf (1 - ph.ell) (ph.inImage ps rot is) * (3.14159265358979 / Real.pi))), ellValue f), ?_, rfl⟩
      simp only [EFun.fluxFn, hf, ok_bind, totalFlux_eq F hF gam hgam ps rot is ph hshape hn, pure_eq_ok]
    refine ⟨_, hdesc, ?_⟩
    have hall := fun x0 y0 : ℝ => spec_flux F hF (ph.inImage ps rot is) hs' ha' (fun h => (hn h).1) hq (ph.inImage ps rot is).angle x0 y0
    cases F with
    | moffat => exact absurd rfl hF
    | exponential => exact ⟨_, rfl, hall⟩
    | gaussian => exact ⟨_, rfl, hall⟩
    | sersic => exact ⟨_, rfl, hall⟩

/-- C70: a sky background. -/
theorem C70_sky (d : ImgDesc XR) (v : XR) : FluxDescribes (flatSkyFluxFn d) [v] .background := by
  refine ⟨rfl, by simp [flatSkyFluxFn], fun pre post x0 y0 => ?_⟩
  refine ⟨(none, fun x y => flatSkyValue d (pre ++ [v] ++ post) pre.length (fin x0) (fin y0) x y), ?_, trivial⟩
  have : rd (pre ++ [v] ++ post) pre.length = .ok v := rd_mid pre [v] post 0 v rfl
  simp only [flatSkyFluxFn, this, ok_bind, pure_eq_ok]

/-- A round Moffat function with β = 1 and FWHM 2 (scale length 1) and central intensity 6. -/
noncomputable def exMoffat : Phys := ⟨0, 0, 6, 2, 1⟩

theorem exMoffat_spec (r : ℝ) : EFun.spec .moffat (exMoffat.inImage 1 0 1) r = 6 / (1 + r ^ 2) := by
  simp only [EFun.spec, moffatProfile, exMoffat, Phys.inImage, moffatAlpha]
  norm_num

/-- C70 is false of the centre: the components are put at half the image size, while the pixel coordinates run from 1 to the size, so that the centre of the image is
half a pixel further. In an image of one pixel a component with brightness 6 at its centre is reported with flux 4. -/
theorem C70_centre_false (gam : XR → XR) :
    findTotalFluxes [EFun.fluxFn gam false ⟨fin 1, fin 0, fin 1⟩ .moffat] [true] (fin 1 :: fin 1 :: EFun.params .moffat exMoffat) 1 1 [[0]] = .ok (fin 4, [fin 4]) ∧
    EFun.value .moffat false ⟨fin 1, fin 0, fin 1⟩ (fin 1 :: fin 1 :: EFun.params .moffat exMoffat) 2 (fin 1) (fin 1) (fin 1) (fin 1) = .ok (fin 6) := by
  have hx := fun x0 y0 => setup_isEll .moffat false 1 0 1 one_pos exMoffat (by norm_num [exMoffat]) (by norm_num [exMoffat]) (by norm_num [exMoffat]) [fin 1, fin 1] [] x0 y0
  have hval : ∀ x0 y0 x y : ℝ, ∃ f, EFun.setup false ⟨fin 1, fin 0, fin 1⟩ (fin 1 :: fin 1 :: EFun.params .moffat exMoffat) 2 (fin x0) (fin y0) .moffat = .ok f ∧
      ∀ x y, ellValue f (fin x) (fin y) = .ok (fin (6 / (1 + ((x - x0) ^ 2 + (y - y0) ^ 2)))) := by
    intro x0 y0 x y
    obtain ⟨f, hf, he, hnsub⟩ := hx x0 y0
    simp only [List.append_nil] at hf
    refine ⟨f, hf, fun x y => ?_⟩
    rw [ellValue_fin he x y 1 le_rfl (by rw [hnsub]; rfl), pixelMean_one, exMoffat_spec]
    have : 1 - exMoffat.ell = 1 := by norm_num [exMoffat]
    rw [this, ellRadius_circle, Real.sq_sqrt (by positivity)]
  constructor
  · have hd : FluxDescribes (EFun.fluxFn gam false ⟨fin 1, fin 0, fin 1⟩ .moffat) (EFun.params .moffat exMoffat) (.field fun a b => 6 / (1 + (a ^ 2 + b ^ 2))) := by
      refine ⟨rfl, by simp [EFun.fluxFn], ?_⟩
      intro pre post x0 y0
      obtain ⟨f, hf, he, hnsub⟩ := setup_isEll .moffat false 1 0 1 one_pos exMoffat (by norm_num [exMoffat]) (by norm_num [exMoffat]) (by norm_num [exMoffat]) pre post x0 y0
      refine ⟨(none, ellValue f), ?_, rfl, ?_⟩
      · simp only [EFun.fluxFn, hf, ok_bind, EFun.totalFlux, pure_eq_ok]
      · intro x y
        show ellValue f (fin x) (fin y) = _
        rw [ellValue_fin he x y 1 le_rfl (by rw [hnsub]; rfl), pixelMean_one, exMoffat_spec]
        have : 1 - exMoffat.ell = 1 := by norm_num [exMoffat]
        rw [this, ellRadius_circle, Real.sq_sqrt (by positivity)]
    have h := C70_fluxes_partial [⟨fin 1, fin 1, [(EFun.fluxFn gam false ⟨fin 1, fin 0, fin 1⟩ .moffat, EFun.params .moffat exMoffat, _)]⟩] (by simp)
      (by intro s hs f hf; simp only [List.mem_singleton] at hs; subst hs; simp only [List.mem_singleton] at hf; subst hf; exact hd) 1 1 le_rfl le_rfl [[0]]
      (by simp [List.range_succ])
    have e : (6 / (1 + (((0 : ℕ) : ℝ) + 1 - ((1 : ℕ) : ℝ) / 2) ^ 2 + ((((0 : ℕ) : ℝ) + 1 - ((1 : ℕ) : ℝ) / 2) ^ 2)) : ℝ) = 4 := by norm_num
    simp [fluxParams, flagged, FluxComp.fluxIn] at h
    rw [h]
    norm_num
  · obtain ⟨f, hf, hv⟩ := hval 1 1 1 1
    unfold EFun.value
    rw [hf, ok_bind, hv]
    norm_num

/-- Two components and a sky background, four rows for two threads. -/
example : ∃ T : ℝ, findTotalFluxes
    [EFun.fluxFn (fun _ => XR.nan) true ⟨fin 1, fin 0, fin 1⟩ .gaussian, EFun.fluxFn (fun _ => XR.nan) true ⟨fin 1, fin 0, fin 1⟩ .exponential, flatSkyFluxFn ⟨fin 1, fin 0, fin 1⟩]
    [true, false, true] ([fin 9, fin 8] ++ [fin 0, fin 0, fin 2, fin 3] ++ [fin 0, fin 0, fin 2, fin 3] ++ [fin 7, fin 6] ++ [fin 100]) 5 4 [[2, 0], [1, 3]] =
    .ok (fin T, [fin (T / 2), fin (T / 2), fin 0]) ∧ 113 < T := by
  obtain ⟨k1, hk1, hT1⟩ : ∃ k, FluxDescribes (EFun.fluxFn (fun _ => XR.nan) true ⟨fin 1, fin 0, fin 1⟩ .gaussian) [fin 0, fin 0, fin 2, fin 3] k ∧
      k = .known (36 * Real.pi * (3.14159265358979 / Real.pi)) := by
    refine ⟨_, ⟨rfl, by simp [EFun.fluxFn], ?_⟩, rfl⟩
    intro pre post x0 y0
    obtain ⟨f, hf, -, -⟩ := setup_isEll .gaussian true 1 0 1 one_pos ⟨0, 0, 2, 3, 1⟩ (by norm_num) (by norm_num) (by norm_num) pre post x0 y0
    have ht := totalFlux_eq .gaussian (by simp) (fun v => match v with | fin r => fin (Real.Gamma r) | _ => XR.nan) (fun _ _ _ => rfl) 1 0 1 ⟨0, 0, 2, 3, 1⟩ (by norm_num)
      (by simp) pre post
    have e : EFun.fluxOf (1 - (⟨0, 0, 2, 3, 1⟩ : Phys).ell) (Phys.inImage ⟨0, 0, 2, 3, 1⟩ 1 0 1) .gaussian = 36 * Real.pi := by
      simp only [EFun.fluxOf, Phys.inImage]
      ring
    rw [e] at ht
    refine ⟨(some (fin (36 * Real.pi * (3.14159265358979 / Real.pi))), ellValue f), ?_, rfl⟩
    have ht' : EFun.totalFlux (fun _ => XR.nan) ⟨fin 1, fin 0, fin 1⟩ (pre ++ [fin 0, fin 0, fin 2, fin 3] ++ post) pre.length .gaussian =
      some (.ok (fin (36 * Real.pi * (3.14159265358979 / Real.pi)))) := ht
    have hf' : EFun.setup true ⟨fin 1, fin 0, fin 1⟩ (pre ++ [fin 0, fin 0, fin 2, fin 3] ++ post) pre.length (fin x0) (fin y0) .gaussian = .ok f := hf
    simp only [EFun.fluxFn, hf', ok_bind, ht', pure_eq_ok]
  obtain ⟨k2, hk2, hT2⟩ : ∃ k, FluxDescribes (EFun.fluxFn (fun _ => XR.nan) true ⟨fin 1, fin 0, fin 1⟩ .exponential) [fin 0, fin 0, fin 2, fin 3] k ∧
      k = .known (36 * Real.pi * (3.14159265358979 / Real.pi)) := by
    refine ⟨_, ⟨rfl, by simp [EFun.fluxFn], ?_⟩, rfl⟩
    intro pre post x0 y0
    obtain ⟨f, hf, -, -⟩ := setup_isEll .exponential true 1 0 1 one_pos ⟨0, 0, 2, 3, 1⟩ (by norm_num) (by norm_num) (by norm_num) pre post x0 y0
    have ht := totalFlux_eq .exponential (by simp) (fun v => match v with | fin r => fin (Real.Gamma r) | _ => XR.nan) (fun _ _ _ => rfl) 1 0 1 ⟨0, 0, 2, 3, 1⟩ (by norm_num)
      (by simp) pre post
    have e : EFun.fluxOf (1 - (⟨0, 0, 2, 3, 1⟩ : Phys).ell) (Phys.inImage ⟨0, 0, 2, 3, 1⟩ 1 0 1) .exponential = 36 * Real.pi := by
      simp only [EFun.fluxOf, Phys.inImage]
      ring
    rw [e] at ht
    refine ⟨(some (fin (36 * Real.pi * (3.14159265358979 / Real.pi))), ellValue f), ?_, rfl⟩
    have ht' : EFun.totalFlux (fun _ => XR.nan) ⟨fin 1, fin 0, fin 1⟩ (pre ++ [fin 0, fin 0, fin 2, fin 3] ++ post) pre.length .exponential =
      some (.ok (fin (36 * Real.pi * (3.14159265358979 / Real.pi)))) := ht
    have hf' : EFun.setup true ⟨fin 1, fin 0, fin 1⟩ (pre ++ [fin 0, fin 0, fin 2, fin 3] ++ post) pre.length (fin x0) (fin y0) .exponential = .ok f := hf
    simp only [EFun.fluxFn, hf', ok_bind, ht', pure_eq_ok]
  subst hT1 hT2
  have h := C70_fluxes_partial
    [⟨fin 9, fin 8, [(EFun.fluxFn (fun _ => XR.nan) true ⟨fin 1, fin 0, fin 1⟩ .gaussian, [fin 0, fin 0, fin 2, fin 3], _),
      (EFun.fluxFn (fun _ => XR.nan) true ⟨fin 1, fin 0, fin 1⟩ .exponential, [fin 0, fin 0, fin 2, fin 3], _)]⟩,
      ⟨fin 7, fin 6, [(flatSkyFluxFn ⟨fin 1, fin 0, fin 1⟩, [fin 100], .background)]⟩] (by simp)
    (by
      intro s hs f hf
      simp only [List.mem_cons, List.not_mem_nil, or_false] at hs
      rcases hs with rfl | rfl
      · simp only [List.mem_cons, List.not_mem_nil, or_false] at hf
        rcases hf with rfl | rfl
        · exact hk1
        · exact hk2
      · simp only [List.mem_cons, List.not_mem_nil, or_false] at hf
        subst hf
        exact C70_sky _ _) 5 4 (by norm_num) (by norm_num) [[2, 0], [1, 3]] (by decide)
  simp only [fluxParams, flagged, FluxComp.fluxIn, List.flatMap_cons, List.flatMap_nil, List.map_cons, List.map_nil, List.append_nil, List.cons_append, List.nil_append,
    List.sum_cons, List.sum_nil, add_zero] at h
  have hp : 36 * Real.pi * (3.14159265358979 / Real.pi) = (113.09733552923244 : ℝ) := by
    have := Real.pi_ne_zero
    field_simp
    norm_num
  rw [hp] at h
  refine ⟨113.09733552923244 + 113.09733552923244, ?_, by norm_num⟩
  rw [show ((113.09733552923244 + 113.09733552923244) / 2 : ℝ) = 113.09733552923244 by norm_num]
  exact h

/-- Shares of three components. -/
example : fluxFractions (fin ([3, 1, 0] : List ℝ).sum, ([3, 1, 0] : List ℝ).map fin) = [fin (3 / 4), fin (1 / 4), fin 0, fin 1] := by
  rw [(C70_fractions [3, 1, 0] (by norm_num)).1]
  norm_num

end Imfit
