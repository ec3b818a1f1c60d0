import Mathlib.Tactic.FieldSimp
import Mathlib.Tactic.LinearCombination
import Mathlib.Tactic.Positivity
import Verif.Model.Ode

/-!
Helper lemmas about the right-hand side.
-/

namespace DiscSolver

/-- What an accepted call means. -/
theorem rhs_accepted {P : OdeArgs} {x : ℝ} {s d : St} {code : ℤ}
    (h : rhs_equation P x s = (code, some d)) :
    code = 0 ∧ 0 ≤ s.ρ ∧ 0 ≤ s.v_θ ∧ d = rhsDerivs P (x * P.θ_scale) s := by
  unfold rhs_equation at h
  simp only at h
  split_ifs at h with h1 h2
  · simp at h
  · simp at h
  · simp only [Prod.mk.injEq, Option.some.injEq, scaled_to_rad] at h
    exact ⟨h.1.symm, not_lt.1 h1, not_lt.1 h2, h.2.symm⟩

variable (P : OdeArgs) (θ : ℝ) (s : St)

theorem rhs_B_φ (hE : P.use_E_r = false) : (rhsDerivs P θ s).B_φ = s.X := by
  simp [rhsDerivs, rhsValues, hE]

theorem rhs_B_θ : (rhsDerivs P θ s).B_θ =
    s.B_θ * Real.tan θ - (P.γ + 3/4) * s.B_r := rfl

theorem rhs_B_r : (rhsDerivs P θ s).B_r =
    deriv_B_r_func (B_r := s.B_r) (B_φ := s.B_φ) (B_θ := s.B_θ)
      (η_O := s.η_O) (η_H := s.η_H) (η_A := s.η_A) (θ := θ) (v_r := s.v_r)
      (v_θ := s.v_θ) (deriv_B_φ := (rhsDerivs P θ s).B_φ) (γ := P.γ)
      (b_θ := s.B_θ / B_mag s) (b_r := s.B_r / B_mag s)
      (b_φ := s.B_φ / B_mag s) := rfl

theorem rhs_v_r (hT : P.with_taylor = false) : (rhsDerivs P θ s).v_r =
    (s.v_r ^ 2 / 2 + s.v_θ ^ 2 + 5/2 - 2 * P.γ +
      (s.v_φ - Real.sqrt P.norm_kepler_sq) *
        (s.v_φ + Real.sqrt P.norm_kepler_sq) + P.a_0 / s.ρ * (
        s.B_θ * (rhsDerivs P θ s).B_r +
          (1/4 - P.γ) * (s.B_θ ^ 2 + s.B_φ ^ 2)
      )) / s.v_θ := by
  simp [rhsDerivs, rhsValues, hT]

theorem rhs_v_φ (hT : P.with_taylor = false) : (rhsDerivs P θ s).v_φ =
    (s.v_φ * s.v_θ * Real.tan θ - s.v_φ * s.v_r / 2 + P.a_0 / s.ρ * (
        s.B_θ * (rhsDerivs P θ s).B_φ - (1/4 - P.γ) * s.B_r * s.B_φ -
        s.B_θ * s.B_φ * Real.tan θ
      )) / s.v_θ := by
  simp [rhsDerivs, rhsValues, hT]

theorem rhs_v_θ (hf : P.deriv_v_θ_func = none) : (rhsDerivs P θ s).v_θ =
    (s.v_r / 2 * (s.v_θ ^ 2 - 4 * P.γ) + s.v_θ * (
          Real.tan θ * (s.v_φ ^ 2 + 1) + P.a_0 / s.ρ * (
            (1/4 - P.γ) * s.B_θ * s.B_r + s.B_r * (rhsDerivs P θ s).B_r +
            s.B_φ * (rhsDerivs P θ s).B_φ - s.B_φ ^ 2 * Real.tan θ
          )
        )) / ((1 - s.v_θ) * (1 + s.v_θ)) := by
  simp [rhsDerivs, rhsValues, hf]

theorem rhs_ρ (hT : P.with_taylor = false) : (rhsDerivs P θ s).ρ =
    - s.ρ * ((2 * P.γ * s.v_r + (rhsDerivs P θ s).v_θ) / s.v_θ -
      Real.tan θ) := by
  simp [rhsDerivs, rhsValues, hT]

/-- The scale of the diffusivity derivatives. -/
theorem rhs_η (hη : P.η_derivs = true) :
    (rhsDerivs P θ s).η_O = deriv_η_skw_func (deriv_ρ := (rhsDerivs P θ s).ρ)
      (deriv_B_θ := (rhsDerivs P θ s).B_θ) (ρ := s.ρ) (B_r := s.B_r)
      (B_φ := s.B_φ) (B_θ := s.B_θ) (deriv_B_r := (rhsDerivs P θ s).B_r)
      (deriv_B_φ := (rhsDerivs P θ s).B_φ) * P.init_con.η_O ∧
    (rhsDerivs P θ s).η_A = deriv_η_skw_func (deriv_ρ := (rhsDerivs P θ s).ρ)
      (deriv_B_θ := (rhsDerivs P θ s).B_θ) (ρ := s.ρ) (B_r := s.B_r)
      (B_φ := s.B_φ) (B_θ := s.B_θ) (deriv_B_r := (rhsDerivs P θ s).B_r)
      (deriv_B_φ := (rhsDerivs P θ s).B_φ) * P.init_con.η_A ∧
    (rhsDerivs P θ s).η_H = deriv_η_skw_func (deriv_ρ := (rhsDerivs P θ s).ρ)
      (deriv_B_θ := (rhsDerivs P θ s).B_θ) (ρ := s.ρ) (B_r := s.B_r)
      (B_φ := s.B_φ) (B_θ := s.B_θ) (deriv_B_r := (rhsDerivs P θ s).B_r)
      (deriv_B_φ := (rhsDerivs P θ s).B_φ) * P.init_con.η_H := by
  simp [rhsDerivs, rhsValues, hη]

theorem rhs_η_const (hη : P.η_derivs = false) :
    (rhsDerivs P θ s).η_O = 0 ∧ (rhsDerivs P θ s).η_A = 0 ∧
      (rhsDerivs P θ s).η_H = 0 := by
  simp [rhsDerivs, rhsValues, hη]

end DiscSolver
