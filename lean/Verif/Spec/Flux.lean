import Verif.Spec.Func
import Mathlib.MeasureTheory.Measure.Lebesgue.Basic
import Mathlib.MeasureTheory.Integral.Bochner.Basic
import Mathlib.MeasureTheory.Measure.Prod

/-!
# Specification of fluxes
-/

namespace Imfit.Spec

open MeasureTheory

/-- `T` is the flux of the surface brightness `g`: its integral over the plane, which exists. -/
def IsFlux (g : ℝ → ℝ → ℝ) (T : ℝ) : Prop := Integrable (fun w : ℝ × ℝ => g w.1 w.2) ∧ ∫ w : ℝ × ℝ, g w.1 w.2 = T

/-- A component as far as its flux is concerned: sky background, a component with known flux, or a surface brightness as function of the offset from its centre. -/
inductive FluxComp
  | background
  | known (T : ℝ)
  | field (g : ℝ → ℝ → ℝ)

/-- Flux of a component with its centre at `(cx, cy)` in an image of `w × h` pixels with coordinates from 1. -/
noncomputable def FluxComp.fluxIn (w h : ℕ) (cx cy : ℝ) : FluxComp → ℝ
  | .background => 0
  | .known T => T
  | .field g => ∑ i ∈ Finset.range h, ∑ j ∈ Finset.range w, g (j + 1 - cx) (i + 1 - cy)

end Imfit.Spec
