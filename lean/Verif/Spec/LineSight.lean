import Verif.Spec.Plane
import Mathlib.MeasureTheory.Integral.IntervalIntegral.Basic

/-!
# Specification of three-dimensional components

An object is a luminosity density in coordinates attached to its midplane: the first axis is the line of nodes (the intersection of the midplane with the plane of the
sky), the second lies in the midplane, the third is normal to it. It is seen at an inclination.
-/

namespace Imfit.Spec

/-- A point of the object. -/
structure Body where
  x : ℝ
  y : ℝ
  z : ℝ

/-- The point `P` of an object whose line of nodes makes the angle `θ` with the x axis of the image and whose midplane is inclined by `i` is seen at the offset
`(dx, dy)` from the centre of the image, at the distance `s` from the plane of the sky through the centre. -/
def Seen (θ i : ℝ) (P : Body) (dx dy s : ℝ) : Prop :=
  along θ dx dy = P.x ∧ across θ dx dy = P.y * Real.cos i + P.z * Real.sin i ∧ s = P.y * Real.sin i - P.z * Real.cos i

/-- The integral of the density along the line of sight at the offset `(dx, dy)`, between `-L` and `L`, has the value `v`. -/
def LineIntegral (J : Body → ℝ) (θ i L dx dy v : ℝ) : Prop :=
  ∃ g : ℝ → ℝ, (∀ s P, Seen θ i P dx dy s → g s = J P) ∧ IntervalIntegrable g MeasureTheory.volume (-L) L ∧ v = ∫ s in (-L)..L, g s

/-- The integral of the density along the whole line of sight at the offset `(dx, dy)` has the value `v`. -/
def LineTotal (J : Body → ℝ) (θ i dx dy v : ℝ) : Prop :=
  ∃ g : ℝ → ℝ, (∀ s P, Seen θ i P dx dy s → g s = J P) ∧ MeasureTheory.Integrable g ∧ v = ∫ s, g s

/-- The documented disk: exponential in radius, `sech^(2/n)` in height. -/
noncomputable def expDiskJ (j h n z0 : ℝ) (P : Body) : ℝ := j * Real.exp (-(Real.sqrt (P.x ^ 2 + P.y ^ 2) / h)) * sechI n z0 |P.z|

/-- The documented disk with a broken exponential. -/
noncomputable def brokenDiskJ (j h1 h2 rb a n z0 : ℝ) (P : Body) : ℝ := brokenI j h1 h2 rb a (Real.sqrt (P.x ^ 2 + P.y ^ 2)) * sechI n z0 |P.z|

/-- The documented ring with its major axis at the angle `φ` from the line of nodes: Gaussian in the elliptical radius, exponential in height. -/
noncomputable def ringJ (φ q j a σ hz : ℝ) (P : Body) : ℝ := j * bell a σ (ellDist q (along φ P.x P.y) (across φ P.x P.y)) * Real.exp (-(|P.z| / hz))

/-- The squared radius on ellipsoids with axis ratios `q`, `qz` and the major axis at the angle `φ` from the line of nodes. -/
noncomputable def ellipsoid (φ q qz : ℝ) (P : Body) : ℝ := along φ P.x P.y ^ 2 + (across φ P.x P.y / q) ^ 2 + (P.z / qz) ^ 2

/-- The documented Ferrers ellipsoid. -/
noncomputable def ferrersJ (φ j r q qz n : ℝ) (P : Body) : ℝ := if 1 < ellipsoid φ q qz P / r ^ 2 then 0 else j * (1 - ellipsoid φ q qz P / r ^ 2) ^ n

/-- A Gaussian ellipsoid. -/
noncomputable def triaxJ (φ j σ q qz : ℝ) (P : Body) : ℝ := j * Real.exp (-(ellipsoid φ q qz P / (2 * σ ^ 2)))

/-- Two equal bumps on the major axis. -/
noncomputable def bumps (r σ u v : ℝ) : ℝ := bell r σ u * bell 0 σ v + bell (-r) σ u * bell 0 σ v

/-- The peanut of Dattathri et al.: `sech^2` of a generalised radius whose vertical scale is larger near two places on the major axis. -/
noncomputable def peanutJ (φ j rx q qz rp ap sp cpar cperp : ℝ) (P : Body) : ℝ :=
  let u := along φ P.x P.y
  let v := across φ P.x P.y
  j * Real.cosh ((((|u| / rx) ^ cperp + (|v| / (q * rx)) ^ cperp) ^ (cpar / cperp) + (|P.z| / (ap * bumps rp sp u v + qz * rx)) ^ cpar) ^ (1 / cpar)) ^ (-2 : ℝ)

/-- A flat bar with a broken exponential profile and a bulge whose scale height is larger near two places on the major axis. -/
noncomputable def bpBarJ (φ z0 qo jo h1 h2 rb a qb jb hb rmax zmax σ : ℝ) (P : Body) : ℝ :=
  let u := along φ P.x P.y
  let v := across φ P.x P.y
  let w := zmax * bumps rmax σ u (v / qb)
  brokenI jo h1 h2 rb a (ellDist qo u v) * Real.exp (-(|P.z| / z0)) + jb / w * Real.exp (-(ellDist qb u v / hb)) * Real.exp (-(|P.z| / (w * z0)))

end Imfit.Spec
