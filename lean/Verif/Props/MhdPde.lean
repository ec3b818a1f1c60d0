import Verif.Lemmas.Witness
import Verif.Props.OdeResiduals

/-!
# C01–C06, C09, C10 against the partial differential equations

`f` is any angular profile that follows the solver's right-hand side at `θ`
(`Follows P f θ`: the call is accepted and the derivative of `f` is what it
returned) and `F` its extension to all radii by the code's own
`scale_solution_to_radii` (`Scaled P.γ f F`).  The theorems say that the
extended fields solve steady axisymmetric MHD (`Verif.Spec.Mhd`) at `(r, θ)`.
-/

namespace DiscSolver

open Spec

variable {P : OdeArgs} {f : ℝ → St} {F : ℝ → ℝ → St} {r θ : ℝ}

theorem Follows.elim (hF : Follows P f θ) (hs : P.θ_scale = 1) :
    HasStDeriv f (rhsDerivs P θ (f θ)) θ ∧
    rhs_equation P θ (f θ) = (0, some (rhsDerivs P θ (f θ))) := by
  obtain ⟨d, hd, hf⟩ := hF
  obtain ⟨-, -, -, h⟩ := rhs_accepted hd
  rw [hs, mul_one] at h
  subst h
  exact ⟨hf, hd⟩

/-- C10. The currents computed by the code are the curl of the r-scaled field,
for every differentiable profile. -/
theorem currents_are_curl (γ : ℝ) (f : ℝ → St) (d : St)
    (hf : HasStDeriv f d θ) (hF : Scaled γ f F) (hr : 0 < r)
    (hc : Real.cos θ ≠ 0) :
    (curl (configOf F).B).at r θ =
      ⟨r ^ (γ - 5/4) / r * J_r_func θ (f θ).B_φ d.B_φ,
       r ^ (γ - 5/4) / r * J_φ_func γ (f θ).B_θ d.B_r,
       r ^ (γ - 5/4) / r * J_θ_func γ (f θ).B_φ⟩ :=
  curl_configOf hF hr hf hc

example := currents_are_curl (1/10) _ _ (hasStDeriv_line witS witS (1/10))
    (scaled_scaledField _ _)
    (r := 2) (by norm_num) cos_tenth

/-- C01. `∇·B = 0` for the r-scaled field. -/
theorem pde_div_free (hs : P.θ_scale = 1) (h : Follows P f θ)
    (hF : Scaled P.γ f F) (hr : 0 < r) (hc : Real.cos θ ≠ 0) :
    DivFree (configOf F) r θ := by
  obtain ⟨hf, hd⟩ := h.elim hs
  have hsol := rhs_solenoid P θ _ _ _ hd
  simp only [Solenoid, solenoidRes, flowOf, hs, mul_one, Real.tan_eq_sin_div_cos] at hsol
  simp only [DivFree, divergence, ddr_sq_B_r hF hr, ddθ_cos_B_θ hF hr hf,
    hF.val hr]
  generalize r ^ (P.γ - 5/4) = q
  generalize (rhsDerivs P θ (f θ)) = d at *
  field_simp at hsol ⊢
  linear_combination q * hsol

example := pde_div_free rfl (witC_follows witP rfl) (scaled_scaledField _ _)
  (r := 2) (by norm_num) cos_tenth

/-- C02. `∇·(ρu) = 0` for the r-scaled flow. -/
theorem pde_mass (hs : P.θ_scale = 1) (hT : P.with_taylor = false)
    (h : Follows P f θ) (hF : Scaled P.γ f F) (hr : 0 < r)
    (hc : Real.cos θ ≠ 0) (hρ : (f θ).ρ ≠ 0) (hv : (f θ).v_θ ≠ 0) :
    MassConserved (configOf F) r θ := by
  obtain ⟨hf, hd⟩ := h.elim hs
  have hsol := rhs_continuity P θ _ _ _ hd hT hρ hv
  simp only [Continuity, continuityRes, flowOf, hs, mul_one, Real.tan_eq_sin_div_cos] at hsol
  have e1 := ddr_mass (θ := θ) hF hr
  have e2 := ddθ_mass hF hr hf
  simp only [MassConserved, divergence, configOf] at e1 e2 ⊢
  rw [e1, e2]
  simp only [hF.val hr]
  generalize r ^ (2 * P.γ - 3/2) = q
  obtain ⟨hs0, hrs, -, -, -⟩ := scales (γ := P.γ) hr
  generalize Real.sqrt r = w at *
  subst hrs
  generalize (rhsDerivs P θ (f θ)) = d at *
  field_simp at hsol ⊢
  linear_combination (q / 8) * hsol

example := pde_mass rfl rfl (witC_follows witP rfl) (scaled_scaledField _ _)
  (r := 2) (by norm_num) cos_tenth
    (by rw [witC_at]; norm_num [witS]) (by rw [witC_at]; norm_num [witS])

/-- C03. Radial momentum for the r-scaled flow, with gravitational parameter
`norm_kepler_sq` and squared Alfvén speed `a_0`. -/
theorem pde_momentum_r (hs : P.θ_scale = 1) (hT : P.with_taylor = false)
    (hK : 0 ≤ P.norm_kepler_sq)
    (h : Follows P f θ) (hF : Scaled P.γ f F) (hr : 0 < r)
    (hc : Real.cos θ ≠ 0) (hρ : (f θ).ρ ≠ 0) (hv : (f θ).v_θ ≠ 0) :
    MomentumR P.norm_kepler_sq P.a_0 (configOf F) r θ := by
  obtain ⟨hf, hd⟩ := h.elim hs
  have hsol := rhs_radial_momentum P θ _ _ _ hd hT hK hρ hv
  simp only [RadialMomentum, radialRes, flowOf, hs, mul_one] at hsol
  simp only [MomentumR, convective, ddr_v_r hF hr,
    ddθ_v_r hF hr hf, ddr_p hF hr]
  rw [curl_configOf hF hr hf hc]
  simp only [V3.cross, VField.at]
  simp only [configOf, hF.val hr]
  obtain ⟨hs0, hrs, hq, hρs, -⟩ := scales (γ := P.γ) hr
  rw [hρs]
  generalize r ^ (P.γ - 5/4) = q at *
  generalize Real.sqrt r = w at *
  subst hrs
  generalize (rhsDerivs P θ (f θ)) = d at *
  field_simp at hsol ⊢
  linear_combination hsol

example := pde_momentum_r rfl rfl (by norm_num [witP]) (witC_follows witP rfl) (scaled_scaledField _ _)
  (r := 2) (by norm_num) cos_tenth
    (by rw [witC_at]; norm_num [witS]) (by rw [witC_at]; norm_num [witS])

/-- C04. Azimuthal momentum for the r-scaled flow. -/
theorem pde_momentum_φ (hs : P.θ_scale = 1) (hT : P.with_taylor = false)
    (h : Follows P f θ) (hF : Scaled P.γ f F) (hr : 0 < r)
    (hc : Real.cos θ ≠ 0) (hρ : (f θ).ρ ≠ 0) (hv : (f θ).v_θ ≠ 0) :
    MomentumΦ P.a_0 (configOf F) r θ := by
  obtain ⟨hf, hd⟩ := h.elim hs
  have hsol := rhs_azimuthal_momentum P θ _ _ _ hd hT hρ hv
  simp only [AzimuthalMomentum, azimuthalRes, flowOf, hs, mul_one] at hsol
  simp only [MomentumΦ, convective, ddr_v_φ hF hr,
    ddθ_v_φ hF hr hf]
  rw [curl_configOf hF hr hf hc]
  simp only [V3.cross, VField.at]
  simp only [configOf, hF.val hr]
  obtain ⟨hs0, hrs, hq, hρs, -⟩ := scales (γ := P.γ) hr
  rw [hρs]
  generalize r ^ (P.γ - 5/4) = q at *
  generalize Real.sqrt r = w at *
  subst hrs
  generalize (rhsDerivs P θ (f θ)) = d at *
  field_simp at hsol ⊢
  linear_combination hsol

example := pde_momentum_φ rfl rfl (witC_follows witP rfl) (scaled_scaledField _ _)
  (r := 2) (by norm_num) cos_tenth
    (by rw [witC_at]; norm_num [witS]) (by rw [witC_at]; norm_num [witS])

/-- C05. Latitudinal momentum for the r-scaled flow. -/
theorem pde_momentum_θ (hs : P.θ_scale = 1) (hT : P.with_taylor = false)
    (hfun : P.deriv_v_θ_func = none)
    (h : Follows P f θ) (hF : Scaled P.γ f F) (hr : 0 < r)
    (hc : Real.cos θ ≠ 0) (hρ : (f θ).ρ ≠ 0) (hv : (f θ).v_θ ≠ 0)
    (h1 : (f θ).v_θ ^ 2 ≠ 1) :
    MomentumΘ P.a_0 (configOf F) r θ := by
  obtain ⟨hf, hd⟩ := h.elim hs
  have hsol := rhs_polar_momentum P θ _ _ _ hd hT hfun hρ hv h1
  simp only [PolarMomentum, polarRes, flowOf, hs, mul_one] at hsol
  simp only [MomentumΘ, convective, ddr_v_θ hF hr,
    ddθ_v_θ hF hr hf, ddθ_p hF hr hf]
  rw [curl_configOf hF hr hf hc]
  simp only [V3.cross, VField.at]
  simp only [configOf, hF.val hr]
  obtain ⟨hs0, hrs, hq, hρs, -⟩ := scales (γ := P.γ) hr
  rw [hρs]
  generalize r ^ (P.γ - 5/4) = q at *
  generalize Real.sqrt r = w at *
  subst hrs
  generalize (rhsDerivs P θ (f θ)) = d at *
  field_simp at hsol ⊢
  linear_combination hsol

example := pde_momentum_θ rfl rfl rfl (witC_follows witP rfl) (scaled_scaledField _ _)
  (r := 2) (by norm_num) cos_tenth
    (by rw [witC_at]; norm_num [witS]) (by rw [witC_at]; norm_num [witS])
    (by rw [witC_at]; norm_num [witS])

end DiscSolver
