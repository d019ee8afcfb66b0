import Verif.Spec.Plane

/-!
# Specification of spirals

The pattern of Junqueira et al. 2013 (their equation 8): a radial amplitude times an azimuthal Gaussian with `m` peaks, whose ridges are logarithmic spirals.
-/

namespace Imfit.Spec

/-- The offset, in the image, of the point with the polar coordinates `(r, φ)` of a plane tilted so that circles have axis ratio `q`; the line of nodes makes the angle
`θ` with the x axis of the image. -/
noncomputable def planePoint (θ q r φ : ℝ) : ℝ × ℝ :=
  (r * Real.cos φ * Real.cos θ - q * (r * Real.sin φ) * Real.sin θ, r * Real.cos φ * Real.sin θ + q * (r * Real.sin φ) * Real.cos θ)

/-- The angle of a logarithmic spiral of the given pitch angle (degrees) at the radius `r`: it is at `γ` degrees at the radius `ri`. -/
noncomputable def armAngle (pitch ri γ r : ℝ) : ℝ := γ * degree + Real.log (r / ri) / Real.tan (pitch * degree)

/-- The azimuthal Gaussian with `m` peaks; `δ` is the angle from an arm. -/
noncomputable def ridge (m σ r δ : ℝ) : ℝ := Real.exp (-(r ^ 2 / σ ^ 2 * (1 - Real.cos (m * δ))))

/-- The radial amplitudes. -/
inductive Amplitude
  /-- The same at all radii. -/
  | plain (i0 : ℝ)
  /-- An exponential, damped inside `rmax`. -/
  | trunc (i0 h rmax s : ℝ)
  /-- A broken exponential; inside `rmax` the inner exponential, damped. -/
  | broken (i0 h1 h2 rb a rmax s : ℝ)
  /-- An exponential outside `rmax` and a Gaussian inside, with the value `imax` at `rmax`. -/
  | expo (imax h rmax s : ℝ)
  /-- A Gaussian around `rmax` with different widths inside and outside. -/
  | gauss (imax rmax si so : ℝ)

/-- The amplitude at a radius. -/
noncomputable def Amplitude.at : Amplitude → ℝ → ℝ
  | .plain i0, _ => i0
  | .trunc i0 h rmax s, r => (if r < rmax then r / rmax * bell rmax s r else 1) * (i0 * Real.exp (-(r / h)))
  | .broken i0 h1 h2 rb a rmax s, r => if r < rmax then r / rmax * bell rmax s r * (i0 * Real.exp (-(r / h1))) else brokenI i0 h1 h2 rb a r
  | .expo imax h rmax s, r => imax * if r < rmax then bell rmax s r else Real.exp (-((r - rmax) / h))
  | .gauss imax rmax si so, r => imax * if r < rmax then bell rmax si r else bell rmax so r

/-- Lengths, widths and the sharpness of the break are positive and the intensity is not zero or negative. -/
def Amplitude.Ok : Amplitude → Prop
  | .plain i0 => 0 < i0
  | .trunc i0 h rmax s => 0 < i0 ∧ 0 < h ∧ 0 < rmax ∧ 0 < s
  | .broken i0 h1 h2 _ a rmax s => 0 < i0 ∧ 0 < h1 ∧ 0 < h2 ∧ 0 < a ∧ 0 < rmax ∧ 0 < s
  | .expo imax h rmax s => 0 < imax ∧ 0 < h ∧ 0 < rmax ∧ 0 < s
  | .gauss imax rmax si so => 0 < imax ∧ 0 < rmax ∧ 0 < si ∧ 0 < so

/-- The parameters of the functions, in the order of their labels. -/
def Amplitude.params (pa ell m pitch ri σ γ : ℝ) : Amplitude → List ℝ
  | .plain i0 => [pa, ell, m, pitch, i0, ri, σ, γ]
  | .trunc i0 h rmax s => [pa, ell, m, pitch, ri, σ, γ, i0, h, rmax, s]
  | .broken i0 h1 h2 rb a rmax s => [pa, ell, m, pitch, ri, σ, γ, i0, h1, h2, rb, a, rmax, s]
  | .expo imax h rmax s => [pa, ell, m, pitch, ri, σ, γ, imax, h, rmax, s]
  | .gauss imax rmax si so => [pa, ell, m, pitch, imax, ri, σ, γ, rmax, si, so]

end Imfit.Spec
