import Mathlib.Tactic.FieldSimp
import Mathlib.Tactic.LinearCombination
import Verif.Lemmas.Witness
import Verif.Spec.Residuals

/-!
# C01–C06: the right-hand side satisfies the governing equations

Each theorem is about an accepted call of the right-hand side: `rhs_equation P x
s = (code, some d)` says that the solver asked for derivatives of the state `s`
at scaled angle `x` and got `d`.
-/

namespace DiscSolver

open Spec

/-- The flow described by a state and the derivative array returned for it. -/
def flowOf (θ : ℝ) (s d : St) : Flow :=
  { θ := θ, B_r := s.B_r, B_φ := s.B_φ, B_θ := s.B_θ, v_r := s.v_r,
    v_φ := s.v_φ, v_θ := s.v_θ, ρ := s.ρ, η_O := s.η_O, η_A := s.η_A,
    η_H := s.η_H, B_r' := d.B_r, B_φ' := d.B_φ, B_θ' := d.B_θ, v_r' := d.v_r,
    v_φ' := d.v_φ, v_θ' := d.v_θ, ρ' := d.ρ }

/-- C01. Whatever the options, an accepted call returns a `B_θ'` that makes the
field divergence free. -/
theorem rhs_solenoid (P : OdeArgs) (x : ℝ) (s d : St) (code : ℤ)
    (h : rhs_equation P x s = (code, some d)) :
    Solenoid (5/4 - P.γ) (flowOf (x * P.θ_scale) s d) := by
  obtain ⟨-, -, -, rfl⟩ := rhs_accepted h
  simp only [Solenoid, solenoidRes, flowOf, rhs_B_θ]
  ring

example := rhs_solenoid witP (1/10) witS _ _ (wit_accepted _ _)

/-- C02. With the Taylor mode off, an accepted call conserves mass, even when
the derivative of `v_θ` is supplied from outside (sonic interpolation). -/
theorem rhs_continuity (P : OdeArgs) (x : ℝ) (s d : St) (code : ℤ)
    (h : rhs_equation P x s = (code, some d)) (hT : P.with_taylor = false)
    (hρ : s.ρ ≠ 0) (hv : s.v_θ ≠ 0) :
    Continuity (5/4 - P.γ) (flowOf (x * P.θ_scale) s d) := by
  obtain ⟨-, -, -, rfl⟩ := rhs_accepted h
  simp only [Continuity, continuityRes, flowOf, rhs_ρ P _ s hT]
  field_simp
  ring

example := rhs_continuity witP (1/10) witS _ _ (wit_accepted _ _) rfl (by norm_num [witS]) (by norm_num [witS])

/-- C03. Radial momentum. -/
theorem rhs_radial_momentum (P : OdeArgs) (x : ℝ) (s d : St) (code : ℤ)
    (h : rhs_equation P x s = (code, some d)) (hT : P.with_taylor = false)
    (hK : 0 ≤ P.norm_kepler_sq) (_hρ : s.ρ ≠ 0) (hv : s.v_θ ≠ 0) :
    RadialMomentum (5/4 - P.γ) P.a_0 P.norm_kepler_sq
      (flowOf (x * P.θ_scale) s d) := by
  obtain ⟨-, -, -, rfl⟩ := rhs_accepted h
  simp only [RadialMomentum, radialRes, flowOf]
  have hsq := Real.sq_sqrt hK
  have := rhs_v_r P (x * P.θ_scale) s hT
  rw [eq_div_iff hv] at this
  linear_combination this - hsq

example := rhs_radial_momentum witP (1/10) witS _ _ (wit_accepted _ _) rfl (by norm_num [witP]) (by norm_num [witS]) (by norm_num [witS])

/-- C04. Azimuthal momentum. -/
theorem rhs_azimuthal_momentum (P : OdeArgs) (x : ℝ) (s d : St) (code : ℤ)
    (h : rhs_equation P x s = (code, some d)) (hT : P.with_taylor = false)
    (_hρ : s.ρ ≠ 0) (hv : s.v_θ ≠ 0) :
    AzimuthalMomentum (5/4 - P.γ) P.a_0 (flowOf (x * P.θ_scale) s d) := by
  obtain ⟨-, -, -, rfl⟩ := rhs_accepted h
  simp only [AzimuthalMomentum, azimuthalRes, flowOf]
  have := rhs_v_φ P (x * P.θ_scale) s hT
  rw [eq_div_iff hv] at this
  linear_combination this

example := rhs_azimuthal_momentum witP (1/10) witS _ _ (wit_accepted _ _) rfl (by norm_num [witS]) (by norm_num [witS])

/-- C05. Polar momentum. -/
theorem rhs_polar_momentum (P : OdeArgs) (x : ℝ) (s d : St) (code : ℤ)
    (h : rhs_equation P x s = (code, some d)) (hT : P.with_taylor = false)
    (hf : P.deriv_v_θ_func = none)
    (hρ : s.ρ ≠ 0) (hv : s.v_θ ≠ 0) (hs : s.v_θ ^ 2 ≠ 1) :
    PolarMomentum (5/4 - P.γ) P.a_0 (flowOf (x * P.θ_scale) s d) := by
  obtain ⟨-, -, -, rfl⟩ := rhs_accepted h
  simp only [PolarMomentum, polarRes, flowOf]
  have h1 := rhs_v_θ P (x * P.θ_scale) s hf
  have hden : (1 - s.v_θ) * (1 + s.v_θ) ≠ 0 := by
    intro h0; apply hs; linear_combination -h0
  rw [eq_div_iff hden] at h1
  have h2 : (rhsDerivs P (x * P.θ_scale) s).ρ / s.ρ =
      -((2 * P.γ * s.v_r + (rhsDerivs P (x * P.θ_scale) s).v_θ) / s.v_θ -
      Real.tan (x * P.θ_scale)) := by
    rw [rhs_ρ P _ s hT]; field_simp
  rw [h2]
  have h3 : (2 * P.γ * s.v_r + (rhsDerivs P (x * P.θ_scale) s).v_θ) / s.v_θ *
      s.v_θ = 2 * P.γ * s.v_r + (rhsDerivs P (x * P.θ_scale) s).v_θ := by
    field_simp
  apply mul_left_cancel₀ hv
  linear_combination -h1 - h3

example := rhs_polar_momentum witP (1/10) witS _ _ (wit_accepted _ _) rfl rfl (by norm_num [witS]) (by norm_num [witS]) (by norm_num [witS])

/-- C06. The toroidal electric field vanishes in either formulation; `b` is the
field direction `B / |B|`. -/
theorem rhs_E_φ_zero (P : OdeArgs) (x : ℝ) (s d : St) (code : ℤ)
    (h : rhs_equation P x s = (code, some d))
    (b_r b_θ b_φ : ℝ) (hb : b_r = s.B_r / B_mag s ∧ b_θ = s.B_θ / B_mag s ∧
      b_φ = s.B_φ / B_mag s)
    (hD : s.η_O + s.η_A * (1 - b_φ ^ 2) ≠ 0) :
    E_φ_func (v_r := s.v_r) (v_θ := s.v_θ) (B_r := s.B_r) (B_θ := s.B_θ)
      (J_r := J_r_func (x * P.θ_scale) s.B_φ d.B_φ)
      (J_θ := J_θ_func P.γ s.B_φ)
      (J_φ := J_φ_func P.γ s.B_θ d.B_r)
      (η_O := s.η_O) (η_A := s.η_A) (η_H := s.η_H)
      (b_r := b_r) (b_θ := b_θ) (b_φ := b_φ) = 0 := by
  obtain ⟨-, -, -, rfl⟩ := rhs_accepted h
  obtain ⟨rfl, rfl, rfl⟩ := hb
  have hD' : s.η_O + s.η_A * (1 - s.B_φ / B_mag s) * (1 + s.B_φ / B_mag s) ≠ 0 := by
    intro h0; apply hD; linear_combination h0
  have hB := rhs_B_r P (x * P.θ_scale) s
  rw [deriv_B_r_func, ← sub_eq_iff_eq_add.2 (sub_add_cancel _ _).symm] at hB
  rw [eq_sub_iff_add_eq, eq_div_iff hD'] at hB
  simp only [E_φ_func, J_r_func, J_θ_func, J_φ_func]
  linear_combination hB

example := rhs_E_φ_zero witE (1/10) witS _ _ (wit_accepted _ _) _ _ _
  ⟨rfl, rfl, rfl⟩ (by rw [witS_mag]; norm_num [witS])

/-- C06. The same fact in the form the test-suite checks (polar induction). -/
theorem rhs_polar_induction (P : OdeArgs) (x : ℝ) (s d : St) (code : ℤ)
    (h : rhs_equation P x s = (code, some d))
    (b_r b_θ b_φ : ℝ) (hb : b_r = s.B_r / B_mag s ∧ b_θ = s.B_θ / B_mag s ∧
      b_φ = s.B_φ / B_mag s)
    (hD : s.η_O + s.η_A * (1 - b_φ ^ 2) ≠ 0) :
    PolarInduction (5/4 - P.γ) b_r b_φ b_θ (flowOf (x * P.θ_scale) s d) := by
  have := rhs_E_φ_zero P x s d code h b_r b_θ b_φ hb hD
  simp only [E_φ_func, J_r_func, J_θ_func, J_φ_func] at this
  simp only [PolarInduction, polarInductionRes, flowOf]
  linear_combination -this

example := rhs_polar_induction witE (1/10) witS _ _ (wit_accepted _ _) _ _ _
  ⟨rfl, rfl, rfl⟩ (by rw [witS_mag]; norm_num [witS])

end DiscSolver
