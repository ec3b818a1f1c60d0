import Verif.Lemmas.Curve

/-!
Helper lemmas: the derivative of the radial electric field along a curve, for
scalar functions.
-/

namespace DiscSolver

/-- `C_func` differentiates to `A_func`. -/
theorem hasDerivAt_C {η_O η_A η_H b_r b_φ b_θ : ℝ → ℝ}
    {η_O' η_A' η_H' b_r' b_φ' b_θ' θ : ℝ}
    (hO : HasDerivAt η_O η_O' θ) (hA : HasDerivAt η_A η_A' θ)
    (hH : HasDerivAt η_H η_H' θ) (hr : HasDerivAt b_r b_r' θ)
    (hφ : HasDerivAt b_φ b_φ' θ) (hθ : HasDerivAt b_θ b_θ' θ)
    (hD : η_O θ + η_A θ * (1 - b_φ θ ^ 2) ≠ 0) :
    HasDerivAt (fun t => C_func (η_O := η_O t) (η_A := η_A t) (η_H := η_H t)
      (b_θ := b_θ t) (b_r := b_r t) (b_φ := b_φ t))
      (A_func (η_O := η_O θ) (η_A := η_A θ) (η_H := η_H θ) (b_θ := b_θ θ)
        (b_r := b_r θ) (b_φ := b_φ θ) (deriv_η_O := η_O') (deriv_η_A := η_A')
        (deriv_η_H := η_H') (deriv_b_θ := b_θ') (deriv_b_r := b_r')
        (deriv_b_φ := b_φ')) θ := by
  have hn := (hH.fun_mul hθ).fun_sub ((hA.fun_mul hr).fun_mul hφ)
  have hd := hO.fun_add (hA.fun_mul (((hφ.fun_pow 2).const_sub 1)))
  refine (hn.fun_div hd hD).congr_deriv ?_
  simp only [A_func]
  push_cast
  field_simp
  ring

theorem hasDerivAt_tan' {θ : ℝ} (hc : Real.cos θ ≠ 0) :
    HasDerivAt Real.tan (1 + Real.tan θ ^ 2) θ := by
  refine (Real.hasDerivAt_tan hc).congr_deriv ?_
  have := Real.sin_sq_add_cos_sq θ
  rw [Real.tan_eq_sin_div_cos]
  field_simp
  linear_combination -this

theorem sec_sq {θ : ℝ} (hc : Real.cos θ ≠ 0) :
    sec θ ^ 2 = 1 + Real.tan θ ^ 2 := by
  have := Real.sin_sq_add_cos_sq θ
  rw [sec, Real.tan_eq_sin_div_cos]
  field_simp
  linear_combination -this

/-- The radial electric field written with `C`, and its derivative when the
second derivative of `B_φ` is `dderiv_B_φ_soln`. -/
theorem hasDerivAt_E_r {γ θ : ℝ}
    {B_r B_φ B_θ v_r v_φ v_θ X η_O η_A η_H b_r b_φ b_θ C : ℝ → ℝ}
    {B_r' B_φ' B_θ' v_r' v_φ' v_θ' X' η_O' η_A' η_H' b_r' b_φ' b_θ' A : ℝ}
    (hc : Real.cos θ ≠ 0)
    (hBr : HasDerivAt B_r B_r' θ) (hBφ : HasDerivAt B_φ B_φ' θ)
    (hBθ : HasDerivAt B_θ B_θ' θ) (hvr : HasDerivAt v_r v_r' θ)
    (hvφ : HasDerivAt v_φ v_φ' θ) (hvθ : HasDerivAt v_θ v_θ' θ)
    (hX : HasDerivAt X X' θ)
    (hO : HasDerivAt η_O η_O' θ) (hA : HasDerivAt η_A η_A' θ)
    (hH : HasDerivAt η_H η_H' θ) (hr : HasDerivAt b_r b_r' θ)
    (hφ : HasDerivAt b_φ b_φ' θ) (hθ : HasDerivAt b_θ b_θ' θ)
    (hC : HasDerivAt C A θ) (hXB : B_φ' = X θ)
    (hZ : η_O θ + η_A θ * (1 - b_r θ ^ 2) +
      C θ * (η_H θ * b_θ θ + η_A θ * b_r θ * b_φ θ) ≠ 0)
    (hX' : X' = dderiv_B_φ_soln (B_r := B_r θ) (B_φ := B_φ θ) (B_θ := B_θ θ)
      (η_O := η_O θ) (η_H := η_H θ) (η_A := η_A θ) (θ := θ) (v_r := v_r θ)
      (v_θ := v_θ θ) (v_φ := v_φ θ) (deriv_v_r := v_r') (deriv_v_θ := v_θ')
      (deriv_v_φ := v_φ') (deriv_B_r := B_r') (deriv_B_θ := B_θ')
      (deriv_B_φ := B_φ') (γ := γ) (deriv_η_O := η_O') (deriv_η_A := η_A')
      (deriv_η_H := η_H') (b_r := b_r θ) (b_θ := b_θ θ) (b_φ := b_φ θ)
      (deriv_b_r := b_r') (deriv_b_θ := b_θ') (deriv_b_φ := b_φ') (C := C θ)
      (A := A)) :
    HasDerivAt (fun t => (η_O t + η_A t * (1 - b_r t ^ 2)) *
        (B_φ t * Real.tan t - X t) +
      C t * (v_θ t * B_r t - v_r t * B_θ t -
        X t * (η_H t * b_θ t + η_A t * b_r t * b_φ t) +
        B_φ t * (η_A t * b_φ t * (b_r t * Real.tan t - b_θ t * (1/4 - γ)) +
          η_H t * (b_r t * (1/4 - γ) + b_θ t * Real.tan t))) +
      B_φ t * (1/4 - γ) * (η_H t * b_φ t + η_A t * b_r t * b_θ t) -
      v_φ t * B_θ t + v_θ t * B_φ t -
      2 * (B_φ t * (Real.tan t * (η_O t + η_A t * (1 - b_r t ^ 2)) +
        (1/4 - γ) * (η_H t * b_φ t + η_A t * b_r t * b_θ t))))
      ((γ - 3/4) * E_θ_func (v_r := v_r θ) (v_φ := v_φ θ) (B_r := B_r θ)
        (B_φ := B_φ θ) (J_r := J_r_func θ (B_φ θ) B_φ')
        (J_θ := J_θ_func γ (B_φ θ)) (J_φ := J_φ_func γ (B_θ θ) B_r')
        (η_O := η_O θ) (η_A := η_A θ) (η_H := η_H θ) (b_r := b_r θ)
        (b_θ := b_θ θ) (b_φ := b_φ θ)) θ := by
  have hT := hasDerivAt_tan' hc
  have hP := hO.fun_add (hA.fun_mul (((hr.fun_pow 2).const_sub 1)))
  have hS := (hH.fun_mul hφ).fun_add ((hA.fun_mul hr).fun_mul hθ)
  have hR := (hH.fun_mul hθ).fun_add ((hA.fun_mul hr).fun_mul hφ)
  have hQ := ((hA.fun_mul hφ).fun_mul
      ((hr.fun_mul hT).fun_sub (hθ.mul_const (1/4 - γ)))).fun_add
    (hH.fun_mul ((hr.mul_const (1/4 - γ)).fun_add (hθ.fun_mul hT)))
  have h1 := hP.fun_mul ((hBφ.fun_mul hT).fun_sub hX)
  have h2 := hC.fun_mul ((((hvθ.fun_mul hBr).fun_sub (hvr.fun_mul hBθ)).fun_sub
    (hX.fun_mul hR)).fun_add (hBφ.fun_mul hQ))
  have h3 := (hBφ.mul_const (1/4 - γ)).fun_mul hS
  have h4 := (hBφ.fun_mul ((hT.fun_mul hP).fun_add (hS.const_mul (1/4 - γ)))).const_mul 2
  refine ((((((h1.fun_add h2).fun_add h3).fun_sub (hvφ.fun_mul hBθ)).fun_add
    (hvθ.fun_mul hBφ)).fun_sub h4)).congr_deriv ?_
  rw [dderiv_B_φ_soln, eq_div_iff hZ, sec_sq hc] at hX'
  simp only [E_θ_func, J_r_func, J_θ_func, J_φ_func]
  push_cast
  rw [hXB] at hX' ⊢
  linear_combination -hX'

end DiscSolver
