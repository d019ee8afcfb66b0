import Verif.Spec.Func

/-!
# Specification of components in a rotated frame

Documented formulas of the two-dimensional image functions and the meaning of an image description.
-/

namespace Imfit.Spec

/-- Coordinate of an offset along an axis that makes the angle `θ` with the x axis. -/
noncomputable def along (θ dx dy : ℝ) : ℝ := dx * Real.cos θ + dy * Real.sin θ

/-- Coordinate of an offset across that axis. -/
noncomputable def across (θ dx dy : ℝ) : ℝ := dy * Real.cos θ - dx * Real.sin θ

/-- Radians per degree, the decimal constant of the source. -/
noncomputable def degree : ℝ := 17453292519943295 / 10 ^ 18

/-- The offset `(dx, dy)` of the reference image as seen in an image whose pixels have the size `s` (in reference pixels) and whose y axis is rotated by `ρ` degrees:
the offset turned by `-ρ` and measured in the other pixels. -/
noncomputable def toImage (s ρ dx dy : ℝ) : ℝ × ℝ :=
  ((dx * Real.cos (ρ * degree) + dy * Real.sin (ρ * degree)) / s, (dy * Real.cos (ρ * degree) - dx * Real.sin (ρ * degree)) / s)

/-- Radius on ellipses of axis ratio `q`. -/
noncomputable def ellDist (q u v : ℝ) : ℝ := Real.sqrt (u ^ 2 + (v / q) ^ 2)

/-- Radius on generalised ellipses: `(|u|^e + |v/q|^e)^(1/e)` with `e = c0 + 2`. -/
noncomputable def genDist (q c0 u v : ℝ) : ℝ := (|u| ^ (c0 + 2) + |v / q| ^ (c0 + 2)) ^ (1 / (c0 + 2))

/-- The documented broken exponential: an inner exponential that bends into an outer one at the break radius, equal to `amp` at the centre. -/
noncomputable def brokenI (amp h1 h2 rb a r : ℝ) : ℝ :=
  amp * (1 + Real.exp (-(a * rb))) ^ (-(1 / a * (1 / h1 - 1 / h2))) * Real.exp (-(r / h1)) * (1 + Real.exp (a * (r - rb))) ^ (1 / a * (1 / h1 - 1 / h2))

/-- One bend of a multiply broken exponential. -/
noncomputable def bend (ha hb rb a r : ℝ) : ℝ :=
  ((1 + Real.exp (a * (r - rb))) / (1 + Real.exp (-(a * rb)))) ^ (1 / a * (1 / ha - 1 / hb))

/-- The documented exponential with a flat core: constant inside `rb`, exponential outside, equal to `amp` at the centre. -/
noncomputable def flatExpI (amp h rb a r : ℝ) : ℝ :=
  amp * (1 + Real.exp (-(a * rb))) ^ (1 / (a * h)) * (1 + Real.exp (a * (r - rb))) ^ (-(1 / (a * h)))

/-- The modified King profile with core radius `rc` and truncation radius `rt`. -/
noncomputable def kingI (amp rc rt a r : ℝ) : ℝ :=
  if r < rt then
    amp * (1 - 1 / (1 + (rt / rc) ^ 2) ^ (1 / a)) ^ (-a) * (1 / (1 + (r / rc) ^ 2) ^ (1 / a) - 1 / (1 + (rt / rc) ^ 2) ^ (1 / a)) ^ a
  else 0

/-- A Gaussian of the given width around `m`. -/
noncomputable def bell (m s r : ℝ) : ℝ := Real.exp (-((r - m) ^ 2 / (2 * s ^ 2)))

/-- The Nuker law. -/
noncomputable def nukerI (ib rb a b g r : ℝ) : ℝ := ib * 2 ^ ((b - g) / a) * (rb / r) ^ g * (1 + (r / rb) ^ a) ^ (-((b - g) / a))

/-- The core-Sersic profile. -/
noncomputable def coreSersicI (n ib re rb a g r : ℝ) : ℝ :=
  ib * 2 ^ (-(g / a)) * Real.exp (bn n * (2 ^ (1 / a) * rb / re) ^ (1 / n)) * (1 + (rb / r) ^ a) ^ (g / a) *
    Real.exp (-(bn n * ((r ^ a + rb ^ a) / re ^ a) ^ (1 / (a * n))))

/-- The two-dimensional Ferrers bar. -/
noncomputable def ferrersI (n amp abar r : ℝ) : ℝ := if 1 < (r / abar) ^ 2 then 0 else amp * (1 - (r / abar) ^ 2) ^ n

/-- The documented double-broken exponential: three exponentials with two bends, equal to `amp` at the centre. -/
noncomputable def doubleBrokenI (amp h1 h2 h3 rb1 rb2 a1 a2 r : ℝ) : ℝ := amp * Real.exp (-(r / h1)) * bend h1 h2 rb1 a1 r * bend h2 h3 rb2 a2 r

/-- The vertical profile of an edge-on disk: `sech^(2/n)(n z / (2 z0))`. -/
noncomputable def sechI (n z0 z : ℝ) : ℝ := (1 / Real.cosh (n * z / (2 * z0))) ^ (2 / n)

/-- The edge-on disk with central luminosity density `l0`, `k` being the modified Bessel function. -/
noncomputable def diskI (k : ℝ → ℝ) (l0 h n z0 u v : ℝ) : ℝ := (if u = 0 then 2 * h * l0 else 2 * h * l0 * (|u| / h) * k (|u| / h)) * sechI n z0 |v|

end Imfit.Spec
