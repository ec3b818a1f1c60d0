import Verif.Lemmas.Induction
import Verif.Spec.SonicPoint

/-!
Helper lemmas: the derivatives of the field derivatives along a curve, written with the
functions of `sonic_point.py`.
-/

namespace DiscSolver

namespace SonicPoint

/-- The derivative of `Z_5_func` along a curve. -/
theorem hasDerivAt_Z_5 {η_O η_A η_H b_r b_φ b_θ C : ℝ → ℝ}
    {η_O' η_A' η_H' b_r' b_φ' b_θ' A θ : ℝ}
    (hO : HasDerivAt η_O η_O' θ) (hA : HasDerivAt η_A η_A' θ)
    (hH : HasDerivAt η_H η_H' θ) (hr : HasDerivAt b_r b_r' θ)
    (hφ : HasDerivAt b_φ b_φ' θ) (hθ : HasDerivAt b_θ b_θ' θ)
    (hC : HasDerivAt C A θ) :
    HasDerivAt (fun t => Z_5_func (η_O := η_O t) (η_A := η_A t) (η_H := η_H t)
      (b_r := b_r t) (b_θ := b_θ t) (b_φ := b_φ t) (C := C t))
      (Z_5_up_func (η_H := η_H θ) (η_A := η_A θ) (b_r := b_r θ) (b_φ := b_φ θ)
        (b_θ := b_θ θ) (A_up := A) (C := C θ) (deriv_η_O_up := η_O')
        (deriv_η_A_up := η_A') (deriv_η_H_up := η_H') (deriv_b_θ := b_θ')
        (deriv_b_r := b_r') (deriv_b_φ := b_φ') - η_A θ * b_r θ * b_r') θ := by
  have h1 := hO.fun_add (hA.fun_mul (((hr.fun_pow 2).const_sub 1)))
  have h2 := hC.fun_mul ((hH.fun_mul hθ).fun_sub ((hA.fun_mul hr).fun_mul hφ))
  refine (h1.fun_add h2).congr_deriv ?_
  simp only [Z_5_up_func]
  push_cast
  ring

/-- The derivative of a quotient, with the quotient kept. -/
theorem hasDerivAt_quot {n z : ℝ → ℝ} {n' z' θ : ℝ} (hn : HasDerivAt n n' θ)
    (hz : HasDerivAt z z' θ) (h : z θ ≠ 0) :
    HasDerivAt (fun t => n t / z t) (n' / z θ - z' / z θ ^ 2 * n θ) θ := by
  refine (hn.fun_div hz h).congr_deriv ?_
  field_simp

/-- The derivative of `deriv_B_φ_func` along a curve. -/
theorem hasDerivAt_deriv_B_φ {γ θ : ℝ}
    {B_r B_φ B_θ v_r v_φ v_θ E η_O η_A η_H b_r b_φ b_θ C Z : ℝ → ℝ}
    {B_r' B_φ' B_θ' v_r' v_φ' v_θ' E' η_O' η_A' η_H' b_r' b_φ' b_θ' A Z' : ℝ}
    (hc : Real.cos θ ≠ 0)
    (hBr : HasDerivAt B_r B_r' θ) (hBφ : HasDerivAt B_φ B_φ' θ)
    (hBθ : HasDerivAt B_θ B_θ' θ) (hvr : HasDerivAt v_r v_r' θ)
    (hvφ : HasDerivAt v_φ v_φ' θ) (hvθ : HasDerivAt v_θ v_θ' θ)
    (hE : HasDerivAt E E' θ)
    (hO : HasDerivAt η_O η_O' θ) (hA : HasDerivAt η_A η_A' θ)
    (hH : HasDerivAt η_H η_H' θ) (hr : HasDerivAt b_r b_r' θ)
    (hφ : HasDerivAt b_φ b_φ' θ) (hθ : HasDerivAt b_θ b_θ' θ)
    (hC : HasDerivAt C A θ) (hZ : HasDerivAt Z Z' θ) (h0 : Z θ ≠ 0) :
    HasDerivAt (fun t => deriv_B_φ_func (θ := t) (γ := γ) (B_r := B_r t) (B_θ := B_θ t)
        (B_φ := B_φ t) (v_r := v_r t) (v_φ := v_φ t) (v_θ := v_θ t) (η_O := η_O t)
        (η_A := η_A t) (η_H := η_H t) (E_r := E t) (b_r := b_r t) (b_φ := b_φ t)
        (b_θ := b_θ t) (C := C t) (Z_5 := Z t))
      (dderiv_B_φ_up_func (η_O := η_O θ) (η_A := η_A θ) (η_H := η_H θ) (b_θ := b_θ θ)
        (b_r := b_r θ) (b_φ := b_φ θ) (deriv_η_O_up := η_O') (deriv_η_A_up := η_A')
        (deriv_η_H_up := η_H') (deriv_b_θ := b_θ') (deriv_b_r := b_r')
        (deriv_b_φ := b_φ') (B_r := B_r θ) (B_φ := B_φ θ) (B_θ := B_θ θ) (θ := θ)
        (v_r := v_r θ) (v_φ := v_φ θ) (v_θ := v_θ θ) (deriv_v_r := v_r')
        (deriv_v_φ := v_φ') (deriv_B_r := B_r') (deriv_B_θ := B_θ')
        (deriv_B_φ := B_φ') (γ := γ) (E_r := E θ) (C := C θ) (A_up := A)
        (deriv_E_r := E') (Z_5 := Z θ) (Z_5_up := Z') +
        v_θ' * (C θ * B_r θ + B_φ θ) / Z θ) θ := by
  have hT := hasDerivAt_tan' hc
  have hP := hO.fun_add (hA.fun_mul (((hr.fun_pow 2).const_sub 1)))
  have hS := (hH.fun_mul hφ).fun_add ((hA.fun_mul hr).fun_mul hθ)
  have hQ := ((hA.fun_mul hφ).fun_mul
      ((hr.fun_mul hT).fun_sub (hθ.mul_const (1/4 - γ)))).fun_add
    (hH.fun_mul ((hr.mul_const (1/4 - γ)).fun_add (hθ.fun_mul hT)))
  have h1 := hC.fun_mul ((hvθ.fun_mul hBr).fun_sub (hvr.fun_mul hBθ))
  have h2 := ((hvθ.fun_add (hT.fun_mul hP)).fun_add (hS.const_mul (1/4 - γ))).fun_sub
    (hC.fun_mul hQ)
  have hn := ((h1.fun_sub hE).fun_sub (hvφ.fun_mul hBθ)).fun_add (hBφ.fun_mul h2)
  refine (hasDerivAt_quot hn hZ h0).congr_deriv ?_
  simp only [dderiv_B_φ_up_func]
  push_cast
  ring

/-- The derivative of `deriv_B_r_func` along a curve. -/
theorem hasDerivAt_deriv_B_r {γ θ : ℝ}
    {B_r B_φ B_θ v_r v_θ X η_O η_A η_H b_r b_φ b_θ : ℝ → ℝ}
    {B_r' B_φ' B_θ' v_r' v_θ' X' η_O' η_A' η_H' b_r' b_φ' b_θ' : ℝ}
    (hc : Real.cos θ ≠ 0)
    (hBr : HasDerivAt B_r B_r' θ) (hBφ : HasDerivAt B_φ B_φ' θ)
    (hBθ : HasDerivAt B_θ B_θ' θ) (hvr : HasDerivAt v_r v_r' θ)
    (hvθ : HasDerivAt v_θ v_θ' θ) (hX : HasDerivAt X X' θ)
    (hO : HasDerivAt η_O η_O' θ) (hA : HasDerivAt η_A η_A' θ)
    (hH : HasDerivAt η_H η_H' θ) (hr : HasDerivAt b_r b_r' θ)
    (hφ : HasDerivAt b_φ b_φ' θ) (hθ : HasDerivAt b_θ b_θ' θ)
    (hXB : B_φ' = X θ) (h0 : η_O θ + η_A θ * (1 - b_φ θ ^ 2) ≠ 0) :
    HasDerivAt (fun t => deriv_B_r_func (θ := t) (γ := γ) (B_r := B_r t) (B_θ := B_θ t)
        (B_φ := B_φ t) (v_r := v_r t) (v_θ := v_θ t) (deriv_B_φ := X t) (η_O := η_O t)
        (η_A := η_A t) (η_H := η_H t) (b_r := b_r t) (b_φ := b_φ t) (b_θ := b_θ t))
      (dderiv_B_r_up_func (η_O := η_O θ) (η_A := η_A θ) (η_H := η_H θ) (b_θ := b_θ θ)
        (b_r := b_r θ) (b_φ := b_φ θ) (deriv_η_O_up := η_O') (deriv_η_A_up := η_A')
        (deriv_η_H_up := η_H') (deriv_b_θ := b_θ') (deriv_b_r := b_r')
        (deriv_b_φ := b_φ') (B_r := B_r θ) (B_φ := B_φ θ) (B_θ := B_θ θ) (θ := θ)
        (v_r := v_r θ) (v_θ := v_θ θ) (deriv_v_r := v_r') (deriv_B_r := B_r')
        (deriv_B_θ := B_θ') (deriv_B_φ := B_φ') (γ := γ) (dderiv_B_φ_up := X') +
        v_θ' * B_r θ / (η_O θ + η_A θ * (1 - b_φ θ ^ 2))) θ := by
  have hT := hasDerivAt_tan' hc
  have hD := hO.fun_add (hA.fun_mul (((hφ.fun_pow 2).const_sub 1)))
  have hR := (hH.fun_mul hθ).fun_add ((hA.fun_mul hr).fun_mul hφ)
  have hQ := ((hA.fun_mul hφ).fun_mul
      ((hr.fun_mul hT).fun_sub (hθ.mul_const (1/4 - γ)))).fun_add
    (hH.fun_mul ((hr.mul_const (1/4 - γ)).fun_add (hθ.fun_mul hT)))
  have hn := (((hvθ.fun_mul hBr).fun_sub (hvr.fun_mul hBθ)).fun_sub
    (hX.fun_mul hR)).fun_add (hBφ.fun_mul hQ)
  have h1 := (hasDerivAt_quot hn hD h0).fun_sub (hBθ.mul_const (1/4 - γ))
  have e : (fun t => deriv_B_r_func (θ := t) (γ := γ) (B_r := B_r t) (B_θ := B_θ t)
        (B_φ := B_φ t) (v_r := v_r t) (v_θ := v_θ t) (deriv_B_φ := X t) (η_O := η_O t)
        (η_A := η_A t) (η_H := η_H t) (b_r := b_r t) (b_φ := b_φ t) (b_θ := b_θ t)) =
      fun t => (v_θ t * B_r t - v_r t * B_θ t -
        X t * (η_H t * b_θ t + η_A t * b_r t * b_φ t) +
        B_φ t * (η_A t * b_φ t * (b_r t * Real.tan t - b_θ t * (1/4 - γ)) +
          η_H t * (b_r t * (1/4 - γ) + b_θ t * Real.tan t))) /
        (η_O t + η_A t * (1 - b_φ t ^ 2)) - B_θ t * (1/4 - γ) := by
    funext t
    rw [deriv_B_r_func,
      show η_O t + η_A t * (1 - b_φ t) * (1 + b_φ t) = η_O t + η_A t * (1 - b_φ t ^ 2) by
        ring]
  rw [e]
  refine h1.congr_deriv ?_
  simp only [dderiv_B_r_up_func, hXB]
  push_cast
  ring

/-- The derivative along a curve of the bracket that balances the polar momentum. -/
theorem hasDerivAt_S_1 {γ a_0 θ : ℝ} {B_r B_φ B_θ v_φ ρ X Y : ℝ → ℝ}
    {B_r' B_φ' B_θ' v_φ' ρ' X' Y' : ℝ} (hc : Real.cos θ ≠ 0)
    (hBr : HasDerivAt B_r B_r' θ) (hBφ : HasDerivAt B_φ B_φ' θ)
    (hBθ : HasDerivAt B_θ B_θ' θ) (hvφ : HasDerivAt v_φ v_φ' θ)
    (hρ : HasDerivAt ρ ρ' θ) (hX : HasDerivAt X X' θ) (hY : HasDerivAt Y Y' θ)
    (hXB : B_φ' = X θ) (hYB : B_r' = Y θ) (h0 : ρ θ ≠ 0) :
    HasDerivAt (fun t => Real.tan t * (v_φ t ^ 2 + 1) + a_0 / ρ t * (
        (1/4 - γ) * B_θ t * B_r t + B_r t * Y t + B_φ t * X t - B_φ t ^ 2 * Real.tan t))
      (S_1_dash_up_func (a_0 := a_0) (ρ := ρ θ) (B_r := B_r θ) (B_φ := B_φ θ)
        (B_θ := B_θ θ) (θ := θ) (v_φ := v_φ θ) (deriv_v_φ := v_φ') (deriv_B_r := B_r')
        (deriv_B_θ := B_θ') (deriv_B_φ := B_φ') (γ := γ) (dderiv_B_r_up := Y')
        (dderiv_B_φ_up := X') (deriv_ρ_up := ρ')) θ := by
  have hT := hasDerivAt_tan' hc
  have h1 := hT.fun_mul ((hvφ.fun_pow 2).add_const 1)
  have h2 := (((((hBθ.const_mul (1/4 - γ)).fun_mul hBr)).fun_add
    (hBr.fun_mul hY)).fun_add (hBφ.fun_mul hX)).fun_sub ((hBφ.fun_pow 2).fun_mul hT)
  have h3 := hasDerivAt_quot (hasDerivAt_const θ a_0) hρ h0
  refine (h1.fun_add (h3.fun_mul h2)).congr_deriv ?_
  simp only [S_1_dash_up_func, hXB, hYB]
  push_cast
  field_simp
  ring

/-! ### The split into parts -/

theorem A_split (p : Args) (w : ℝ) :
    p.A_up + p.A_down * w = A_func (η_O := p.η_O) (η_A := p.η_A) (η_H := p.η_H)
      (b_θ := p.b_θ) (b_r := p.b_r) (b_φ := p.b_φ)
      (deriv_η_O := p.deriv_η_O_up + p.deriv_η_O_down * w)
      (deriv_η_A := p.deriv_η_A_up + p.deriv_η_A_down * w)
      (deriv_η_H := p.deriv_η_H_up + p.deriv_η_H_down * w)
      (deriv_b_θ := p.deriv_b_θ) (deriv_b_r := p.deriv_b_r) (deriv_b_φ := p.deriv_b_φ) +
      errA p w := by
  simp only [Args.A_up, Args.A_down, A_up_func, A_down_func, A_func, errA]
  ring

theorem Z_split (p : Args) (w A : ℝ) (hA : p.A_up + p.A_down * w = A + errA p w) :
    p.Z_5_up + p.Z_5_down * w = Z_5_up_func (η_H := p.η_H) (η_A := p.η_A) (b_r := p.b_r)
      (b_φ := p.b_φ) (b_θ := p.b_θ) (A_up := A) (C := p.C)
      (deriv_η_O_up := p.deriv_η_O_up + p.deriv_η_O_down * w)
      (deriv_η_A_up := p.deriv_η_A_up + p.deriv_η_A_down * w)
      (deriv_η_H_up := p.deriv_η_H_up + p.deriv_η_H_down * w)
      (deriv_b_θ := p.deriv_b_θ) (deriv_b_r := p.deriv_b_r) (deriv_b_φ := p.deriv_b_φ) -
      p.η_A * p.b_r * p.deriv_b_r + errZ p w := by
  have e : A = p.A_up + p.A_down * w - errA p w := by linear_combination -hA
  simp only [Args.Z_5_up, Args.Z_5_down, Z_5_up_func, Z_5_down_func, errZ, e]
  ring

theorem B_φ_split (p : Args) (w A Z' : ℝ) (hA : p.A_up + p.A_down * w = A + errA p w)
    (hZ' : p.Z_5_up + p.Z_5_down * w = Z' + errZ p w)
    (hX : p.deriv_B_φ = deriv_B_φ_func (θ := p.θ) (γ := p.γ) (B_r := p.B_r)
      (B_θ := p.B_θ) (B_φ := p.B_φ) (v_r := p.v_r) (v_φ := p.v_φ) (v_θ := p.v_θ)
      (η_O := p.η_O) (η_A := p.η_A) (η_H := p.η_H) (E_r := p.E) (b_r := p.b_r)
      (b_φ := p.b_φ) (b_θ := p.b_θ) (C := p.C) (Z_5 := p.Z_5)) :
    p.dderiv_B_φ_up + p.dderiv_B_φ_down * w =
      dderiv_B_φ_up_func (η_O := p.η_O) (η_A := p.η_A) (η_H := p.η_H) (b_θ := p.b_θ)
        (b_r := p.b_r) (b_φ := p.b_φ)
        (deriv_η_O_up := p.deriv_η_O_up + p.deriv_η_O_down * w)
        (deriv_η_A_up := p.deriv_η_A_up + p.deriv_η_A_down * w)
        (deriv_η_H_up := p.deriv_η_H_up + p.deriv_η_H_down * w)
        (deriv_b_θ := p.deriv_b_θ) (deriv_b_r := p.deriv_b_r)
        (deriv_b_φ := p.deriv_b_φ) (B_r := p.B_r) (B_φ := p.B_φ) (B_θ := p.B_θ)
        (θ := p.θ) (v_r := p.v_r) (v_φ := p.v_φ) (v_θ := p.v_θ)
        (deriv_v_r := p.deriv_v_r) (deriv_v_φ := p.deriv_v_φ)
        (deriv_B_r := p.deriv_B_r) (deriv_B_θ := p.deriv_B_θ)
        (deriv_B_φ := p.deriv_B_φ) (γ := p.γ) (E_r := p.E) (C := p.C) (A_up := A)
        (deriv_E_r := p.deriv_E_r) (Z_5 := p.Z_5) (Z_5_up := Z') +
      w * (p.C * p.B_r + p.B_φ) / p.Z_5 + errB_φ p w := by
  have e : A = p.A_up + p.A_down * w - errA p w := by linear_combination -hA
  have e' : Z' = p.Z_5_up + p.Z_5_down * w - errZ p w := by linear_combination -hZ'
  simp only [errB_φ]
  rw [deriv_B_φ_func] at hX
  simp only [Args.dderiv_B_φ_up, Args.dderiv_B_φ_down, dderiv_B_φ_up_func,
    dderiv_B_φ_down_func, e, e']
  linear_combination (errZ p w / p.Z_5) * hX

theorem B_r_split (p : Args) (w X' : ℝ)
    (hX : p.dderiv_B_φ_up + p.dderiv_B_φ_down * w = X' + errB_φ p w) :
    p.dderiv_B_r_up + p.dderiv_B_r_down * w =
      dderiv_B_r_up_func (η_O := p.η_O) (η_A := p.η_A) (η_H := p.η_H) (b_θ := p.b_θ)
        (b_r := p.b_r) (b_φ := p.b_φ)
        (deriv_η_O_up := p.deriv_η_O_up + p.deriv_η_O_down * w)
        (deriv_η_A_up := p.deriv_η_A_up + p.deriv_η_A_down * w)
        (deriv_η_H_up := p.deriv_η_H_up + p.deriv_η_H_down * w)
        (deriv_b_θ := p.deriv_b_θ) (deriv_b_r := p.deriv_b_r)
        (deriv_b_φ := p.deriv_b_φ) (B_r := p.B_r) (B_φ := p.B_φ) (B_θ := p.B_θ)
        (θ := p.θ) (v_r := p.v_r) (v_θ := p.v_θ) (deriv_v_r := p.deriv_v_r)
        (deriv_B_r := p.deriv_B_r) (deriv_B_θ := p.deriv_B_θ)
        (deriv_B_φ := p.deriv_B_φ) (γ := p.γ) (dderiv_B_φ_up := X') +
      w * p.B_r / (p.η_O + p.η_A * (1 - p.b_φ ^ 2)) -
      errB_φ p w * (p.η_H * p.b_θ + p.η_A * p.b_r * p.b_φ) /
        (p.η_O + p.η_A * (1 - p.b_φ ^ 2)) := by
  have e : X' = p.dderiv_B_φ_up + p.dderiv_B_φ_down * w - errB_φ p w := by
    linear_combination -hX
  simp only [Args.dderiv_B_r_up, Args.dderiv_B_r_down, dderiv_B_r_up_func,
    dderiv_B_r_down_func, e]
  ring

theorem S_split (p : Args) (w X' Y' : ℝ)
    (hX : p.dderiv_B_φ_up + p.dderiv_B_φ_down * w = X' + errB_φ p w)
    (hY : p.dderiv_B_r_up + p.dderiv_B_r_down * w = Y' -
      errB_φ p w * (p.η_H * p.b_θ + p.η_A * p.b_r * p.b_φ) /
        (p.η_O + p.η_A * (1 - p.b_φ ^ 2))) :
    p.S_1_dash_up + p.S_1_dash_down * w =
      S_1_dash_up_func (a_0 := p.a_0) (ρ := p.ρ) (B_r := p.B_r) (B_φ := p.B_φ)
        (B_θ := p.B_θ) (θ := p.θ) (v_φ := p.v_φ) (deriv_v_φ := p.deriv_v_φ)
        (deriv_B_r := p.deriv_B_r) (deriv_B_θ := p.deriv_B_θ)
        (deriv_B_φ := p.deriv_B_φ) (γ := p.γ) (dderiv_B_r_up := Y')
        (dderiv_B_φ_up := X') (deriv_ρ_up := p.deriv_ρ_up + p.deriv_ρ_down * w) +
      slopeError p w := by
  have e : X' = p.dderiv_B_φ_up + p.dderiv_B_φ_down * w - errB_φ p w := by
    linear_combination -hX
  have e' : Y' = p.dderiv_B_r_up + p.dderiv_B_r_down * w +
      errB_φ p w * (p.η_H * p.b_θ + p.η_A * p.b_r * p.b_φ) /
        (p.η_O + p.η_A * (1 - p.b_φ ^ 2)) := by
    linear_combination -hY
  simp only [Args.S_1_dash_up, Args.S_1_dash_down, S_1_dash_up_func,
    S_1_dash_down_func, e, e', slopeError]
  ring

/-! ### Along a curve -/

open Filter Topology

/-- The numerator of `v_θ'` in the right-hand side. -/
noncomputable def numer (P : OdeArgs) (t : ℝ) (s : St) : ℝ :=
  s.v_r / 2 * (s.v_θ ^ 2 - 4 * P.γ) + s.v_θ * (
    Real.tan t * (s.v_φ ^ 2 + 1) + P.a_0 / s.ρ * (
      (1/4 - P.γ) * s.B_θ * s.B_r + s.B_r * (rhsDerivs P t s).B_r +
      s.B_φ * (rhsDerivs P t s).B_φ - s.B_φ ^ 2 * Real.tan t))

theorem rhs_numer {P : OdeArgs} (hP : Plain P) (t : ℝ) (s : St) :
    (rhsDerivs P t s).v_θ = numer P t s / ((1 - s.v_θ) * (1 + s.v_θ)) :=
  rhs_v_θ P t s hP.f

theorem rhs_B_φ_E {P : OdeArgs} (hP : Plain P) (t : ℝ) (s : St) :
    (rhsDerivs P t s).B_φ =
      deriv_B_φ_func (θ := t) (γ := P.γ) (B_r := s.B_r) (B_θ := s.B_θ) (B_φ := s.B_φ)
        (v_r := s.v_r) (v_φ := s.v_φ) (v_θ := s.v_θ) (η_O := s.η_O) (η_A := s.η_A)
        (η_H := s.η_H) (E_r := s.X) (b_r := s.B_r / B_mag s) (b_φ := s.B_φ / B_mag s)
        (b_θ := s.B_θ / B_mag s)
        (C := C_func (η_O := s.η_O) (η_A := s.η_A) (η_H := s.η_H)
          (b_θ := s.B_θ / B_mag s) (b_r := s.B_r / B_mag s) (b_φ := s.B_φ / B_mag s))
        (Z_5 := Z_5_func (η_O := s.η_O) (η_A := s.η_A) (η_H := s.η_H)
          (b_r := s.B_r / B_mag s) (b_θ := s.B_θ / B_mag s) (b_φ := s.B_φ / B_mag s)
          (C := C_func (η_O := s.η_O) (η_A := s.η_A) (η_H := s.η_H)
            (b_θ := s.B_θ / B_mag s) (b_r := s.B_r / B_mag s)
            (b_φ := s.B_φ / B_mag s))) := by
  simp [rhsDerivs, rhsValues, hP.E]

theorem rhs_X_E {P : OdeArgs} (hP : Plain P) (t : ℝ) (s : St) :
    (rhsDerivs P t s).X =
      deriv_E_r_func (γ := P.γ) (v_r := s.v_r) (v_φ := s.v_φ) (B_r := s.B_r)
        (B_φ := s.B_φ) (η_O := s.η_O) (η_A := s.η_A) (η_H := s.η_H)
        (b_r := s.B_r / B_mag s) (b_θ := s.B_θ / B_mag s) (b_φ := s.B_φ / B_mag s)
        (J_r := J_r_func (θ := t) (B_φ := s.B_φ) (deriv_B_φ := (rhsDerivs P t s).B_φ))
        (J_θ := J_θ_func (γ := P.γ) (B_φ := s.B_φ))
        (J_φ := J_φ_func (γ := P.γ) (B_θ := s.B_θ)
          (deriv_B_r := (rhsDerivs P t s).B_r)) := by
  simp [rhsDerivs, rhsValues, hP.E]

variable {P : OdeArgs} {f : ℝ → St} {θ₀ : ℝ} {d₀ : St}

/-- The unit vector along a curve. -/
theorem hasDerivAt_units (hd : HasStDeriv f d₀ θ₀) (hB : (f θ₀).B_r ^ 2 + (f θ₀).B_φ ^ 2 +
    (f θ₀).B_θ ^ 2 ≠ 0) :
    HasDerivAt (fun t => (f t).B_r / B_mag (f t)) (callAt P θ₀ (f θ₀) d₀).deriv_b_r θ₀ ∧
    HasDerivAt (fun t => (f t).B_φ / B_mag (f t)) (callAt P θ₀ (f θ₀) d₀).deriv_b_φ θ₀ ∧
    HasDerivAt (fun t => (f t).B_θ / B_mag (f t)) (callAt P θ₀ (f θ₀) d₀).deriv_b_θ θ₀ :=
  ⟨hasDerivAt_unit hd.B_r hd.B_r hd.B_φ hd.B_θ hB,
    hasDerivAt_unit hd.B_φ hd.B_r hd.B_φ hd.B_θ hB,
    hasDerivAt_unit hd.B_θ hd.B_r hd.B_φ hd.B_θ hB⟩

/-- What the right-hand side returns for `B_φ'` and `B_r'` is continuous along the
curve. -/
theorem rhs_B_continuous (hP : Plain P) (hd : HasStDeriv f d₀ θ₀)
    (hR : Regular θ₀ (f θ₀)) :
    ContinuousAt (fun t => (rhsDerivs P t (f t)).B_φ) θ₀ ∧
    ContinuousAt (fun t => (rhsDerivs P t (f t)).B_r) θ₀ := by
  obtain ⟨ur, uφ, uθ⟩ := hasDerivAt_units (P := P) hd hR.B
  have hC := hasDerivAt_C hd.η_O hd.η_A hd.η_H ur uφ uθ hR.D
  have hZ := hasDerivAt_Z_5 hd.η_O hd.η_A hd.η_H ur uφ uθ hC
  have hX := hasDerivAt_deriv_B_φ (γ := P.γ) hR.cos hd.B_r hd.B_φ hd.B_θ hd.v_r hd.v_φ
    hd.v_θ hd.X hd.η_O hd.η_A hd.η_H ur uφ uθ hC hZ hR.Z
  have cX : ContinuousAt (fun t => (rhsDerivs P t (f t)).B_φ) θ₀ := by
    simp only [rhs_B_φ_E hP]
    exact hX.continuousAt
  refine ⟨cX, ?_⟩
  have cT := (hasDerivAt_tan' hR.cos).continuousAt
  have c1 := hd.B_r.continuousAt
  have c2 := hd.B_φ.continuousAt
  have c3 := hd.B_θ.continuousAt
  have c4 := hd.v_r.continuousAt
  have c5 := hd.v_θ.continuousAt
  have c6 := hd.η_O.continuousAt
  have c7 := hd.η_A.continuousAt
  have c8 := hd.η_H.continuousAt
  have c9 := ur.continuousAt
  have c10 := uφ.continuousAt
  have c11 := uθ.continuousAt
  simp only [rhs_B_r, deriv_B_r_func]
  refine ContinuousAt.sub (ContinuousAt.div ?_ ?_ ?_) ?_
  · fun_prop
  · fun_prop
  · have := hR.D
    intro h
    exact this (by linear_combination h)
  · fun_prop

/-- The derivative of the numerator along the curve. -/
theorem hasDerivAt_numer (hP : Plain P) (hd : HasStDeriv f d₀ θ₀)
    (hR : Regular θ₀ (f θ₀)) (hv : (f θ₀).v_θ = 1)
    (hφ : d₀.B_φ = (rhsDerivs P θ₀ (f θ₀)).B_φ)
    (hr : d₀.B_r = (rhsDerivs P θ₀ (f θ₀)).B_r)
    (hX : d₀.X = (rhsDerivs P θ₀ (f θ₀)).X)
    (hρ : d₀.ρ = (callAt P θ₀ (f θ₀) d₀).deriv_ρ_up +
      (callAt P θ₀ (f θ₀) d₀).deriv_ρ_down * d₀.v_θ)
    (hO : d₀.η_O = (callAt P θ₀ (f θ₀) d₀).deriv_η_O_up +
      (callAt P θ₀ (f θ₀) d₀).deriv_η_O_down * d₀.v_θ)
    (hA : d₀.η_A = (callAt P θ₀ (f θ₀) d₀).deriv_η_A_up +
      (callAt P θ₀ (f θ₀) d₀).deriv_η_A_down * d₀.v_θ)
    (hH : d₀.η_H = (callAt P θ₀ (f θ₀) d₀).deriv_η_H_up +
      (callAt P θ₀ (f θ₀) d₀).deriv_η_H_down * d₀.v_θ) :
    HasDerivAt (fun t => numer P t (f t))
      ((callAt P θ₀ (f θ₀) d₀).b * d₀.v_θ + (callAt P θ₀ (f θ₀) d₀).c -
        slopeError (callAt P θ₀ (f θ₀) d₀) d₀.v_θ +
        d₀.v_θ * numer P θ₀ (f θ₀)) θ₀ := by
  obtain ⟨ur, uφ, uθ⟩ := hasDerivAt_units (P := P) hd hR.B
  have hC := hasDerivAt_C hd.η_O hd.η_A hd.η_H ur uφ uθ hR.D
  have hZ := hasDerivAt_Z_5 hd.η_O hd.η_A hd.η_H ur uφ uθ hC
  have hX1 := hasDerivAt_deriv_B_φ (γ := P.γ) hR.cos hd.B_r hd.B_φ hd.B_θ hd.v_r hd.v_φ
    hd.v_θ hd.X hd.η_O hd.η_A hd.η_H ur uφ uθ hC hZ hR.Z
  have hX2 : HasDerivAt (fun t => (rhsDerivs P t (f t)).B_φ) _ θ₀ :=
    hX1.congr_of_eventuallyEq (Eventually.of_forall fun t => rhs_B_φ_E hP t (f t))
  have hY1 := hasDerivAt_deriv_B_r (γ := P.γ) hR.cos hd.B_r hd.B_φ hd.B_θ hd.v_r
    hd.v_θ hX2 hd.η_O hd.η_A hd.η_H ur uφ uθ hφ hR.D
  have hY2 : HasDerivAt (fun t => (rhsDerivs P t (f t)).B_r) _ θ₀ :=
    hY1.congr_of_eventuallyEq (Eventually.of_forall fun t => rhs_B_r P t (f t))
  have hS := hasDerivAt_S_1 (γ := P.γ) (a_0 := P.a_0) hR.cos hd.B_r hd.B_φ hd.B_θ hd.v_φ
    hd.ρ hX2 hY2 hφ hr hR.ρ
  set p := callAt P θ₀ (f θ₀) d₀ with hp
  have sA := A_split p d₀.v_θ
  have sZ := Z_split p d₀.v_θ _ sA
  have hXp : p.deriv_B_φ = deriv_B_φ_func (θ := p.θ) (γ := p.γ) (B_r := p.B_r)
      (B_θ := p.B_θ) (B_φ := p.B_φ) (v_r := p.v_r) (v_φ := p.v_φ) (v_θ := p.v_θ)
      (η_O := p.η_O) (η_A := p.η_A) (η_H := p.η_H) (E_r := p.E) (b_r := p.b_r)
      (b_φ := p.b_φ) (b_θ := p.b_θ) (C := p.C) (Z_5 := p.Z_5) := by
    refine (hφ.trans (rhs_B_φ_E hP θ₀ (f θ₀))).trans ?_
    rw [hv]
    rfl
  have sX := B_φ_split p d₀.v_θ _ _ sA sZ hXp
  have sY := B_r_split p d₀.v_θ _ sX
  have sS := S_split p d₀.v_θ _ _ sX sY
  have hXp' : d₀.X = p.deriv_E_r := by
    rw [hX, rhs_X_E hP, ← hφ, ← hr]
    rfl
  have hS' := hS.congr_deriv (g' := p.S_1_dash_up + p.S_1_dash_down * d₀.v_θ -
      slopeError p d₀.v_θ) (by
    rw [sS, add_sub_cancel_right, ← hρ, ← hO, ← hA, ← hH, hXp', hv]
    rfl)
  have hN := ((hd.v_r.div_const 2).fun_mul
    ((hd.v_θ.fun_pow 2).sub_const (4 * P.γ))).fun_add (hd.v_θ.fun_mul hS')
  refine hN.congr_deriv ?_
  have e1 : p.b = (f θ₀).v_r * 1 + (- (f θ₀).v_r / (2 * 1) * (1 ^ 2 - 4 * P.γ)) +
    1 * p.S_1_dash_down := rfl
  have e2 : p.c = d₀.v_r / 2 * (1 ^ 2 - 4 * P.γ) + 1 * p.S_1_dash_up := rfl
  rw [e1, e2, numer, hv]
  push_cast
  ring

/-- The right-hand side when `v_θ'` is given. -/
theorem rhs_given (hP : Plain P) (w t : ℝ) (s : St) :
    let d := rhsDerivs { P with deriv_v_θ_func := some fun _ => w } t s
    d.B_φ = (rhsDerivs P t s).B_φ ∧ d.B_r = (rhsDerivs P t s).B_r ∧
    d.B_θ = (rhsDerivs P t s).B_θ ∧ d.v_r = (rhsDerivs P t s).v_r ∧
    d.v_φ = (rhsDerivs P t s).v_φ ∧ d.X = (rhsDerivs P t s).X ∧ d.v_θ = w ∧
    d.ρ = - s.ρ * ((2 * P.γ * s.v_r + w) / s.v_θ - Real.tan t) := by
  refine ⟨rfl, rfl, rfl, rfl, rfl, ?_, rfl, ?_⟩
  · simp [rhsDerivs, rhsValues, hP.E]
  · exact rhs_ρ { P with deriv_v_θ_func := some fun _ => w } t s hP.T

end SonicPoint

end DiscSolver
