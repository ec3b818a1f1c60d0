import Verif.Lemmas.Witness

/-!
# C11, C12: field direction and diffusivities
-/

namespace DiscSolver

/-- C11. The direction cosines used by the right-hand side form a unit vector
whenever the field is not zero. -/
theorem direction_unit (s : St) (h : s.B_r ^ 2 + s.B_φ ^ 2 + s.B_θ ^ 2 ≠ 0) :
    (s.B_r / B_mag s) ^ 2 + (s.B_φ / B_mag s) ^ 2 + (s.B_θ / B_mag s) ^ 2 = 1 := by
  have hp := B_mag_pos h
  have := B_mag_sq s
  field_simp
  linear_combination -this

example := direction_unit witS (by norm_num [witS])

/-- C11. `B_unit_derivs` returns the derivatives of the direction cosines along
every differentiable field curve. -/
theorem B_unit_derivs_correct (f : ℝ → St) (θ dr dφ dθ : ℝ)
    (hr : HasDerivAt (fun t => (f t).B_r) dr θ)
    (hφ : HasDerivAt (fun t => (f t).B_φ) dφ θ)
    (hθ : HasDerivAt (fun t => (f t).B_θ) dθ θ)
    (h : (f θ).B_r ^ 2 + (f θ).B_φ ^ 2 + (f θ).B_θ ^ 2 ≠ 0)
    (u : ℝ × ℝ × ℝ)
    (hu : u = B_unit_derivs (B_r := (f θ).B_r) (B_φ := (f θ).B_φ)
      (B_θ := (f θ).B_θ) (deriv_B_r := dr) (deriv_B_φ := dφ) (deriv_B_θ := dθ)
      (b_r := (f θ).B_r / B_mag (f θ)) (b_φ := (f θ).B_φ / B_mag (f θ))
      (b_θ := (f θ).B_θ / B_mag (f θ))) :
    HasDerivAt (fun t => (f t).B_r / B_mag (f t)) u.1 θ ∧
    HasDerivAt (fun t => (f t).B_φ / B_mag (f t)) u.2.1 θ ∧
    HasDerivAt (fun t => (f t).B_θ / B_mag (f t)) u.2.2 θ := by
  subst hu
  exact ⟨hasDerivAt_unit hr hr hφ hθ h, hasDerivAt_unit hφ hr hφ hθ h,
    hasDerivAt_unit hθ hr hφ hθ h⟩

example := B_unit_derivs_correct (line witS witS 1) 1 _ _ _
  (hasStDeriv_line witS witS 1).B_r (hasStDeriv_line witS witS 1).B_φ
  (hasStDeriv_line witS witS 1).B_θ (by rw [line_at]; norm_num [witS]) _ rfl

/-- C11. The derivative of the direction is orthogonal to the direction. -/
theorem B_unit_derivs_orthogonal (s : St) (dr dφ dθ : ℝ)
    (h : s.B_r ^ 2 + s.B_φ ^ 2 + s.B_θ ^ 2 ≠ 0) (u : ℝ × ℝ × ℝ)
    (hu : u = B_unit_derivs (B_r := s.B_r) (B_φ := s.B_φ) (B_θ := s.B_θ)
      (deriv_B_r := dr) (deriv_B_φ := dφ) (deriv_B_θ := dθ)
      (b_r := s.B_r / B_mag s) (b_φ := s.B_φ / B_mag s)
      (b_θ := s.B_θ / B_mag s)) :
    s.B_r / B_mag s * u.1 + s.B_φ / B_mag s * u.2.1 +
      s.B_θ / B_mag s * u.2.2 = 0 := by
  subst hu
  have hp := B_mag_pos h
  have hsq := B_mag_sq s
  have hm : Real.sqrt (s.B_r ^ 2 + s.B_φ ^ 2 + s.B_θ ^ 2) = B_mag s := rfl
  simp only [B_unit_derivs, hm]
  field_simp
  linear_combination (s.B_r * dr + s.B_φ * dφ + s.B_θ * dθ) * hsq

example := B_unit_derivs_orthogonal witS 1 2 3 (by norm_num [witS]) _ rfl

/-- C12. With `η_derivs` on, along any curve following the right-hand side each
diffusivity changes exactly as its initial value times `|B|²/ρ` does: the
difference is stationary. -/
theorem rhs_diffusivity_scaling (P : OdeArgs) (f : ℝ → St) (θ : ℝ)
    (hs : P.θ_scale = 1) (hη : P.η_derivs = true) (hF : Follows P f θ)
    (hρ : (f θ).ρ ≠ 0) :
    HasDerivAt (fun t => (f t).η_O - P.init_con.η_O *
      (((f t).B_r ^ 2 + (f t).B_φ ^ 2 + (f t).B_θ ^ 2) / (f t).ρ)) 0 θ ∧
    HasDerivAt (fun t => (f t).η_A - P.init_con.η_A *
      (((f t).B_r ^ 2 + (f t).B_φ ^ 2 + (f t).B_θ ^ 2) / (f t).ρ)) 0 θ ∧
    HasDerivAt (fun t => (f t).η_H - P.init_con.η_H *
      (((f t).B_r ^ 2 + (f t).B_φ ^ 2 + (f t).B_θ ^ 2) / (f t).ρ)) 0 θ := by
  obtain ⟨d, hd, hf⟩ := hF
  obtain ⟨-, -, -, rfl⟩ := rhs_accepted hd
  rw [hs, mul_one] at hf
  have hq := (((hf.B_r.fun_pow 2).fun_add (hf.B_φ.fun_pow 2)).fun_add
    (hf.B_θ.fun_pow 2)).fun_div hf.ρ hρ
  obtain ⟨hO, hA, hH⟩ := rhs_η P θ (f θ) hη
  have key : ∀ (e : ℝ → ℝ) (e' e0 : ℝ), HasDerivAt e e' θ →
      e' = deriv_η_skw_func (deriv_ρ := (rhsDerivs P θ (f θ)).ρ)
        (deriv_B_θ := (rhsDerivs P θ (f θ)).B_θ) (ρ := (f θ).ρ)
        (B_r := (f θ).B_r) (B_φ := (f θ).B_φ) (B_θ := (f θ).B_θ)
        (deriv_B_r := (rhsDerivs P θ (f θ)).B_r)
        (deriv_B_φ := (rhsDerivs P θ (f θ)).B_φ) * e0 →
      HasDerivAt (fun t => e t - e0 *
        (((f t).B_r ^ 2 + (f t).B_φ ^ 2 + (f t).B_θ ^ 2) / (f t).ρ)) 0 θ := by
    intro e e' e0 he hE
    refine (he.fun_sub (hq.const_mul e0)).congr_deriv ?_
    rw [hE]
    simp only [deriv_η_skw_func]
    push_cast
    field_simp
    ring
  exact ⟨key _ _ _ hf.η_O hO, key _ _ _ hf.η_A hA, key _ _ _ hf.η_H hH⟩

example := rhs_diffusivity_scaling witP _ (1/10) rfl rfl
  (follows_line witP (1/10) witS rfl (by norm_num [witS]) (by norm_num [witS]))
  (by rw [line_at]; norm_num [witS])

/-- C12. With `η_derivs` off the returned diffusivity derivatives are zero. -/
theorem rhs_diffusivity_const (P : OdeArgs) (x : ℝ) (s d : St) (code : ℤ)
    (h : rhs_equation P x s = (code, some d)) (hη : P.η_derivs = false) :
    d.η_O = 0 ∧ d.η_A = 0 ∧ d.η_H = 0 := by
  obtain ⟨-, -, -, rfl⟩ := rhs_accepted h
  exact rhs_η_const P _ s hη

example := rhs_diffusivity_const { witP with η_derivs := false } (1/10) witS _ _
  (wit_accepted _ _) rfl

end DiscSolver
