import Mathlib.Analysis.SpecialFunctions.Trigonometric.Deriv
import Mathlib.Analysis.SpecialFunctions.Trigonometric.ArctanDeriv
import Mathlib.Analysis.SpecialFunctions.Sqrt
import Verif.Lemmas.Ode

/-!
Curves of states and their derivatives.
-/

namespace DiscSolver

/-- `f` is differentiable at `θ` component by component, with derivative `d`. -/
structure HasStDeriv (f : ℝ → St) (d : St) (θ : ℝ) : Prop where
  B_r : HasDerivAt (fun t => (f t).B_r) d.B_r θ
  B_φ : HasDerivAt (fun t => (f t).B_φ) d.B_φ θ
  B_θ : HasDerivAt (fun t => (f t).B_θ) d.B_θ θ
  v_r : HasDerivAt (fun t => (f t).v_r) d.v_r θ
  v_φ : HasDerivAt (fun t => (f t).v_φ) d.v_φ θ
  v_θ : HasDerivAt (fun t => (f t).v_θ) d.v_θ θ
  ρ : HasDerivAt (fun t => (f t).ρ) d.ρ θ
  X : HasDerivAt (fun t => (f t).X) d.X θ
  η_O : HasDerivAt (fun t => (f t).η_O) d.η_O θ
  η_A : HasDerivAt (fun t => (f t).η_A) d.η_A θ
  η_H : HasDerivAt (fun t => (f t).η_H) d.η_H θ

/-- `f` follows the solver's right-hand side at `θ`: the call is accepted and
the derivative of `f` is what the call returned. -/
def Follows (P : OdeArgs) (f : ℝ → St) (θ : ℝ) : Prop :=
  ∃ d, rhs_equation P θ (f θ) = (0, some d) ∧ HasStDeriv f d θ

theorem B_mag_pos {s : St} (h : s.B_r ^ 2 + s.B_φ ^ 2 + s.B_θ ^ 2 ≠ 0) :
    0 < B_mag s := by
  unfold B_mag
  apply Real.sqrt_pos.2
  have : 0 ≤ s.B_r ^ 2 + s.B_φ ^ 2 + s.B_θ ^ 2 := by positivity
  exact lt_of_le_of_ne this (Ne.symm h)

theorem B_mag_sq (s : St) :
    B_mag s ^ 2 = s.B_r ^ 2 + s.B_φ ^ 2 + s.B_θ ^ 2 := by
  unfold B_mag
  rw [Real.sq_sqrt (by positivity)]

theorem hasDerivAt_B_mag {f : ℝ → St} {θ : ℝ} {dr dφ dθ : ℝ}
    (hr : HasDerivAt (fun t => (f t).B_r) dr θ)
    (hφ : HasDerivAt (fun t => (f t).B_φ) dφ θ)
    (hθ : HasDerivAt (fun t => (f t).B_θ) dθ θ)
    (h : (f θ).B_r ^ 2 + (f θ).B_φ ^ 2 + (f θ).B_θ ^ 2 ≠ 0) :
    HasDerivAt (fun t => B_mag (f t))
      (((f θ).B_r * dr + (f θ).B_φ * dφ + (f θ).B_θ * dθ) / B_mag (f θ)) θ := by
  have h1 := (((hr.fun_pow 2).fun_add (hφ.fun_pow 2)).fun_add (hθ.fun_pow 2)).sqrt h
  have hp := B_mag_pos h
  unfold B_mag at hp ⊢
  convert h1 using 1
  push_cast
  field_simp

theorem hasDerivAt_unit {f : ℝ → St} {θ : ℝ} {g : ℝ → ℝ} {dg dr dφ dθ : ℝ}
    (hg : HasDerivAt g dg θ)
    (hr : HasDerivAt (fun t => (f t).B_r) dr θ)
    (hφ : HasDerivAt (fun t => (f t).B_φ) dφ θ)
    (hθ : HasDerivAt (fun t => (f t).B_θ) dθ θ)
    (h : (f θ).B_r ^ 2 + (f θ).B_φ ^ 2 + (f θ).B_θ ^ 2 ≠ 0) :
    HasDerivAt (fun t => g t / B_mag (f t))
      (1 / B_mag (f θ) * (dg - g θ / B_mag (f θ) / B_mag (f θ) *
        ((f θ).B_r * dr + (f θ).B_φ * dφ + (f θ).B_θ * dθ))) θ := by
  have hp := B_mag_pos h
  refine (hg.fun_div (hasDerivAt_B_mag hr hφ hθ h) hp.ne').congr_deriv ?_
  field_simp

end DiscSolver
