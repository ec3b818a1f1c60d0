import Verif.Props.MhdPde

/-!
# C06–C10: electric field and currents
-/

namespace DiscSolver

open Spec

/-- The current a derivative array `d` implies at a state (`j_e_funcs.py`), in
units of the radial scale of the current. -/
noncomputable def currentOf (γ θ : ℝ) (s d : St) : V3 :=
  ⟨J_r_func θ s.B_φ d.B_φ, J_φ_func γ s.B_θ d.B_r, J_θ_func γ s.B_φ⟩

/-- The code's electric field (`E_r_func`, `E_φ_func`, `E_θ_func`) of a state
with derivative array `d`. -/
noncomputable def electricOf (γ θ : ℝ) (s d : St) : V3 :=
  let J := currentOf γ θ s d
  ⟨E_r_func (v_θ := s.v_θ) (v_φ := s.v_φ) (B_θ := s.B_θ) (B_φ := s.B_φ)
    (J_r := J.r) (J_θ := J.θ) (J_φ := J.φ) (η_O := s.η_O) (η_A := s.η_A)
    (η_H := s.η_H) (b_r := s.B_r / B_mag s) (b_θ := s.B_θ / B_mag s)
    (b_φ := s.B_φ / B_mag s),
   E_φ_func (v_r := s.v_r) (v_θ := s.v_θ) (B_r := s.B_r) (B_θ := s.B_θ)
    (J_r := J.r) (J_θ := J.θ) (J_φ := J.φ) (η_O := s.η_O) (η_A := s.η_A)
    (η_H := s.η_H) (b_r := s.B_r / B_mag s) (b_θ := s.B_θ / B_mag s)
    (b_φ := s.B_φ / B_mag s),
   E_θ_func (v_r := s.v_r) (v_φ := s.v_φ) (B_r := s.B_r) (B_φ := s.B_φ)
    (J_r := J.r) (J_θ := J.θ) (J_φ := J.φ) (η_O := s.η_O) (η_A := s.η_A)
    (η_H := s.η_H) (b_r := s.B_r / B_mag s) (b_θ := s.B_θ / B_mag s)
    (b_φ := s.B_φ / B_mag s)⟩

variable {P : OdeArgs} {f : ℝ → St} {F : ℝ → ℝ → St} {r θ : ℝ}

/-- C10. The electric field functions of the code are Ohm's law for the
r-scaled fields: at radius `r` the field is the code's value times
`r^(γ-5/4)/√r`. -/
theorem electric_is_ohm (γ : ℝ) (f : ℝ → St) (d : St)
    (hf : HasStDeriv f d θ) (hF : Scaled γ f F) (hr : 0 < r)
    (hc : Real.cos θ ≠ 0)
    (hB : (f θ).B_r ^ 2 + (f θ).B_φ ^ 2 + (f θ).B_θ ^ 2 ≠ 0) :
    (electric (configOf F)).at r θ =
      ⟨r ^ (γ - 5/4) / Real.sqrt r * (electricOf γ θ (f θ) d).r,
       r ^ (γ - 5/4) / Real.sqrt r * (electricOf γ θ (f θ) d).φ,
       r ^ (γ - 5/4) / Real.sqrt r * (electricOf γ θ (f θ) d).θ⟩ := by
  have hcurl := currents_are_curl γ f d hf hF hr hc
  obtain ⟨hs0, hrs, hq, -, -⟩ := scales (γ := γ) hr
  have h1 : (electric (configOf F)).at r θ =
      ohm ⟨1 / Real.sqrt r * (f θ).v_r, 1 / Real.sqrt r * (f θ).v_φ,
          1 / Real.sqrt r * (f θ).v_θ⟩
        ⟨r ^ (γ - 5/4) * (f θ).B_r, r ^ (γ - 5/4) * (f θ).B_φ,
          r ^ (γ - 5/4) * (f θ).B_θ⟩
        ⟨r ^ (γ - 5/4) / Real.sqrt r ^ 2 * J_r_func θ (f θ).B_φ d.B_φ,
         r ^ (γ - 5/4) / Real.sqrt r ^ 2 * J_φ_func γ (f θ).B_θ d.B_r,
         r ^ (γ - 5/4) / Real.sqrt r ^ 2 * J_θ_func γ (f θ).B_φ⟩
        (Real.sqrt r * (f θ).η_O) (Real.sqrt r * (f θ).η_A)
        (Real.sqrt r * (f θ).η_H) := by
    have : (electric (configOf F)).at r θ =
        ohm ((configOf F).u.at r θ) ((configOf F).B.at r θ)
          ((curl (configOf F).B).at r θ) ((configOf F).η_O r θ)
          ((configOf F).η_A r θ) ((configOf F).η_H r θ) := rfl
    rw [this, hcurl]
    simp only [configOf, hF.val hr, VField.at, ← hrs]
  have h2 := ohm_scale hq hs0 ⟨(f θ).v_r, (f θ).v_φ, (f θ).v_θ⟩
    ⟨(f θ).B_r, (f θ).B_φ, (f θ).B_θ⟩ (currentOf γ θ (f θ) d)
    (f θ).η_O (f θ).η_A (f θ).η_H
  have h3 := ohm_eq ⟨(f θ).v_r, (f θ).v_φ, (f θ).v_θ⟩
    ⟨(f θ).B_r, (f θ).B_φ, (f θ).B_θ⟩ (currentOf γ θ (f θ) d)
    (f θ).η_O (f θ).η_A (f θ).η_H hB
  rw [h1]
  simp only [currentOf] at h2
  rw [h2]
  simp only [currentOf] at h3
  rw [h3]
  rfl

example := electric_is_ohm (1/10) _ _ (hasStDeriv_line witS witS (1/10))
    (scaled_scaledField _ _)
    (r := 2) (by norm_num) cos_tenth (by rw [line_at]; norm_num [witS])

/-- C06. At PDE level: the azimuthal electric field of Ohm's law vanishes for
the r-scaled fields of a curve following the right-hand side. -/
theorem pde_toroidal_field_zero (hs : P.θ_scale = 1) (h : Follows P f θ)
    (hF : Scaled P.γ f F) (hr : 0 < r) (hc : Real.cos θ ≠ 0)
    (hB : (f θ).B_r ^ 2 + (f θ).B_φ ^ 2 + (f θ).B_θ ^ 2 ≠ 0)
    (hD : (f θ).η_O + (f θ).η_A * (1 - ((f θ).B_φ / B_mag (f θ)) ^ 2) ≠ 0) :
    (electric (configOf F)).φ r θ = 0 := by
  obtain ⟨hf, hd⟩ := h.elim hs
  have h1 := electric_is_ohm P.γ f _ hf hF hr hc hB
  have h2 := rhs_E_φ_zero P θ _ _ _ hd _ _ _ ⟨rfl, rfl, rfl⟩ hD
  rw [hs, mul_one] at h2
  have h3 : (electricOf P.γ θ (f θ) (rhsDerivs P θ (f θ))).φ = 0 := h2
  rw [h3, mul_zero] at h1
  exact congrArg V3.φ h1

example := pde_toroidal_field_zero rfl (witC_follows witP rfl) (scaled_scaledField _ _)
  (r := 2) (by norm_num) cos_tenth
    (by rw [witC_at]; norm_num [witS]) (by rw [witC_at, witS_mag]; norm_num [witS])

/-- C09. With `use_E_r` the stored radial field `X` and Ohm's law's latitudinal
field together are curl free: the azimuthal component of `∇×E` vanishes at every
radius for the field whose radial component is `X` (scaled like an electric
field) and whose other components are Ohm's law. -/
theorem pde_E_r_curl_free (hs : P.θ_scale = 1) (hE : P.use_E_r = true)
    (h : Follows P f θ) (hF : Scaled P.γ f F) (hr : 0 < r) (hc : Real.cos θ ≠ 0)
    (hB : (f θ).B_r ^ 2 + (f θ).B_φ ^ 2 + (f θ).B_θ ^ 2 ≠ 0) :
    (curl { electric (configOf F) with
      r := fun r θ => r ^ (P.γ - 5/4) / Real.sqrt r * (f θ).X }).φ r θ = 0 := by
  obtain ⟨hf, hd⟩ := h.elim hs
  have e1 : ∀ r', 0 < r' → r' * (electric (configOf F)).θ r' θ =
      r' ^ (P.γ - 3/4) * (electricOf P.γ θ (f θ) (rhsDerivs P θ (f θ))).θ := by
    intro r' hr'
    have := congrArg V3.θ (electric_is_ohm P.γ f _ hf hF hr' hc hB)
    simp only [VField.at] at this
    rw [this]
    obtain ⟨hs0, hrs, hq, -, h5⟩ := scales (γ := P.γ) hr'
    have h6 : r' ^ (P.γ - 3/4) = r' * (r' ^ (P.γ - 5/4) * r' ^ (-(1/2) : ℝ)) := by
      rw [← Real.rpow_add hr']
      conv_rhs => rw [← Real.rpow_one r', ← Real.rpow_mul hr'.le,
        ← Real.rpow_add hr']
      congr 1; ring
    rw [h6, ← h5]; ring
  have e2 := deriv_homogeneous (p := P.γ - 3/4) hr e1
  have e3 : deriv (fun θ' => r ^ (P.γ - 5/4) / Real.sqrt r * (f θ').X) θ =
      r ^ (P.γ - 5/4) / Real.sqrt r * (rhsDerivs P θ (f θ)).X :=
    (hf.X.const_mul _).deriv
  have e4 : (rhsDerivs P θ (f θ)).X =
      (P.γ - 3/4) * (electricOf P.γ θ (f θ) (rhsDerivs P θ (f θ))).θ := by
    simp [rhsDerivs, rhsValues, hE, electricOf, currentOf, deriv_E_r_func]
  have e5 := congrArg V3.θ (electric_is_ohm P.γ f _ hf hF hr hc hB)
  simp only [VField.at] at e5
  simp only [curl, ddθ, ddr]
  rw [e2, e3, e4, e5]
  field_simp
  ring

example := pde_E_r_curl_free rfl rfl (witC_follows witE rfl) (scaled_scaledField _ _)
  (r := 2) (by norm_num) cos_tenth
    (by rw [witC_at]; norm_num [witS])

end DiscSolver
