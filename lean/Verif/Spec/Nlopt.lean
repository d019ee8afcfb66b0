import Verif.Model.Nlopt
import Verif.Model.XR

/-!
# What a solver has to respect, and what NLopt promises
-/

namespace Imfit.Spec

open XR

/-- Limits of a parameter as the user gave them: fixed, or a lower and an upper limit each of which may be missing. -/
structure UserLimit where
  fixed : Bool
  lower : Option ℝ
  upper : Option ℝ

/-- A value respects the limits, for a parameter that starts at `v0`. -/
def UserLimit.respects (u : UserLimit) (v0 v : ℝ) : Prop :=
  (u.fixed = true → v = v0) ∧ (u.fixed = false → (∀ l, u.lower = some l → l ≤ v) ∧ ∀ h, u.upper = some h → v ≤ h)

/-- Storage as in `mp_par`; unused limits hold 0. -/
noncomputable def UserLimit.record (u : UserLimit) : DELim XR :=
  ⟨u.fixed, u.lower.isSome, u.upper.isSome, fin (u.lower.getD 0), fin (u.upper.getD 0)⟩

/-- A point lies between bounds. -/
def Within (lo hi : List XR) (x : List XR) : Prop :=
  x.length = lo.length ∧ ∀ (i : ℕ) (a b : XR) (v : XR), lo[i]? = some a → hi[i]? = some b → x[i]? = some v → fle a v = true ∧ fle v b = true

/-- What NLopt promises: from a start within the bounds it evaluates and returns only points within the bounds; it evaluates at most `maxeval` points;
and it stops when told to. -/
structure NLoptContract (opt : NLopt XR) : Prop where
  evalWithin : ∀ lo hi x0 m hist forced x, Within lo hi x0 → opt lo hi x0 m hist forced = .eval x → Within lo hi x
  stopWithin : ∀ lo hi x0 m hist forced st x f, Within lo hi x0 → opt lo hi x0 m hist forced = .stop st x f → Within lo hi x
  maxeval : ∀ lo hi x0 m hist forced x, opt lo hi x0 m hist forced = .eval x → hist.length < m
  forced : ∀ lo hi x0 m hist, ∃ x f, opt lo hi x0 m hist true = .stop (-5) x f

end Imfit.Spec
