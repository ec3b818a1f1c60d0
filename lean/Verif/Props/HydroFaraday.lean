import Verif.Props.HydroDrift
import Verif.Props.Electric
import Verif.Lemmas.Induction

/-!
# C107: the hydrostatic solvers and Faraday's law

A steady field needs `∇×E = 0`.  In the scaled variables the azimuthal component is
`E_r' = -3/4 E_θ`, with `E` from Ohm's law.
-/

namespace DiscSolver

open Spec
open Hydro (deriv_B_r_val dderiv_B_φ_func)

/-! ### Ohm's law along a curve -/

/-- The radial electric field when the radial field's derivative is what the
hydrostatic solvers write, in terms of the diffusion. -/
theorem static_E_r (t : ℝ) (s g : St) (b_r b_φ b_θ R N Pq C D : ℝ)
    (hbr : b_r = s.B_r / B_mag s) (hbφ : b_φ = s.B_φ / B_mag s)
    (hbθ : b_θ = s.B_θ / B_mag s) (hv : s.v_θ = 0) (hφ : g.B_φ = s.X)
    (hr : g.B_r = deriv_B_r_val (θ := t) (B_φ := s.B_φ) (B_θ := s.B_θ) (v_r := s.v_r)
      (deriv_B_φ := s.X) (η_O := s.η_O) (η_A := s.η_A) (η_H := s.η_H) (b_r := b_r)
      (b_φ := b_φ) (b_θ := b_θ))
    (hD : D = s.η_O + s.η_A * (1 - b_φ ^ 2))
    (hR : R = s.η_O + s.η_A * (1 - b_r ^ 2))
    (hN : N = s.η_H * b_θ + s.η_A * b_r * b_φ)
    (hP : Pq = s.η_H * b_φ + s.η_A * b_r * b_θ)
    (hC : C = (s.η_H * b_θ - s.η_A * b_r * b_φ) / D) :
    (electricOf 0 t s g).r = (s.B_φ * Real.tan t - s.X) * R +
      C * (s.B_φ * coupling s.η_A s.η_H b_r b_φ b_θ t - s.v_r * s.B_θ - N * s.X) +
      s.B_φ * Pq / 4 - s.v_φ * s.B_θ := by
  have e1 : s.η_O + s.η_A * (1 - b_φ) * (1 + b_φ) = D := by rw [hD]; ring
  have hJ : g.B_r + s.B_θ * (1/4 - 0) = (s.B_φ * coupling s.η_A s.η_H b_r b_φ b_θ t -
      s.v_r * s.B_θ - N * s.X) / D := by
    rw [hr, deriv_B_r_val, e1, hN, coupling]
    ring
  simp only [electricOf, currentOf, E_r_func, J_r_func, J_θ_func, J_φ_func, hv, hφ, hJ,
    ← hbr, ← hbφ, ← hbθ]
  rw [hR, hP, hC]
  generalize s.B_φ * coupling s.η_A s.η_H b_r b_φ b_θ t - s.v_r * s.B_θ - N * s.X = K
  ring

/-- Faraday's law along a curve whose `B_φ''` is the shared `dderiv_B_φ_func` with
some `Z_6` and `Z_7`. -/
theorem static_faraday (f g : ℝ → St) (θ : ℝ) (d : St) (hg : g θ = d)
    (hd : HasStDeriv f d θ) (hv : ∀ t, (f t).v_θ = 0) (hc : Real.cos θ ≠ 0)
    (hB : (f θ).B_r ^ 2 + (f θ).B_φ ^ 2 + (f θ).B_θ ^ 2 ≠ 0)
    (b_r b_φ b_θ R N Pq C D : ℝ → ℝ)
    (hbr : b_r = fun t => (f t).B_r / B_mag (f t))
    (hbφ : b_φ = fun t => (f t).B_φ / B_mag (f t))
    (hbθ : b_θ = fun t => (f t).B_θ / B_mag (f t))
    (hφ : ∀ t, (g t).B_φ = (f t).X)
    (hr : ∀ t, (g t).B_r = deriv_B_r_val (θ := t) (B_φ := (f t).B_φ)
      (B_θ := (f t).B_θ) (v_r := (f t).v_r) (deriv_B_φ := (f t).X) (η_O := (f t).η_O)
      (η_A := (f t).η_A) (η_H := (f t).η_H) (b_r := b_r t) (b_φ := b_φ t)
      (b_θ := b_θ t))
    (hD : D = fun t => (f t).η_O + (f t).η_A * (1 - b_φ t ^ 2)) (hD0 : D θ ≠ 0)
    (hR : R = fun t => (f t).η_O + (f t).η_A * (1 - b_r t ^ 2))
    (hN : N = fun t => (f t).η_H * b_θ t + (f t).η_A * b_r t * b_φ t)
    (hP : Pq = fun t => (f t).η_H * b_φ t + (f t).η_A * b_r t * b_θ t)
    (hC : C = fun t => ((f t).η_H * b_θ t - (f t).η_A * b_r t * b_φ t) / D t)
    (dR dN dPq : ℝ) (hdR : HasDerivAt R dR θ) (hdN : HasDerivAt N dN θ)
    (hdP : HasDerivAt Pq dPq θ) (Z_6 Z_7 : ℝ) (hZ : Z_6 ≠ 0)
    (u : ℝ × ℝ × ℝ) (hu : u = B_unit_derivs (B_r := (f θ).B_r) (B_φ := (f θ).B_φ)
      (B_θ := (f θ).B_θ) (deriv_B_r := d.B_r) (deriv_B_φ := d.B_φ) (deriv_B_θ := d.B_θ)
      (b_r := (f θ).B_r / B_mag (f θ)) (b_φ := (f θ).B_φ / B_mag (f θ))
      (b_θ := (f θ).B_θ / B_mag (f θ)))
    (hX : d.X = dderiv_B_φ_func (B_φ := (f θ).B_φ) (B_θ := (f θ).B_θ)
      (η_O := (f θ).η_O) (η_H := (f θ).η_H) (η_A := (f θ).η_A) (θ := θ)
      (v_r := (f θ).v_r) (v_φ := (f θ).v_φ) (deriv_B_r := d.B_r)
      (deriv_B_θ := d.B_θ) (deriv_B_φ := (f θ).X) (deriv_η_O := d.η_O)
      (deriv_η_A := d.η_A) (deriv_η_H := d.η_H)
      (A := A_func (η_O := (f θ).η_O) (η_A := (f θ).η_A) (η_H := (f θ).η_H)
        (b_θ := b_θ θ) (b_r := b_r θ) (b_φ := b_φ θ) (deriv_η_O := d.η_O)
        (deriv_η_A := d.η_A) (deriv_η_H := d.η_H) (deriv_b_θ := u.2.2)
        (deriv_b_r := u.1) (deriv_b_φ := u.2.1))
      (C := C θ) (b_r := b_r θ) (b_θ := b_θ θ) (b_φ := b_φ θ) (Z_6 := Z_6)
      (Z_7 := Z_7) (deriv_b_θ := u.2.2) (deriv_b_φ := u.2.1) (deriv_b_r := u.1)) :
    HasDerivAt (fun t => (electricOf 0 t (f t) (g t)).r)
      (-(3/4) * (electricOf 0 θ (f θ) d).θ + (
        ((f θ).X * Real.tan θ + (f θ).B_φ * (1 + Real.tan θ ^ 2)) * R θ +
        (f θ).B_φ * (1 + Real.tan θ) * dR +
        (f θ).X * (R θ + C θ * (N θ - dN)) +
        ((f θ).X * Pq θ + (f θ).B_φ * dPq) / 2 -
        3/4 * ((f θ).v_r * (f θ).B_φ - (f θ).v_φ * (f θ).B_r) +
        (Z_6 - R θ - C θ * N θ) * d.X +
        (f θ).B_θ * (Z_7 - d.v_φ - C θ * d.v_r))) θ := by
  obtain ⟨ur, uφ, uθ⟩ := B_unit_derivs_correct f θ d.B_r d.B_φ d.B_θ hd.B_r hd.B_φ
    hd.B_θ hB u hu
  rw [← hbr] at ur
  rw [← hbφ] at uφ
  rw [← hbθ] at uθ
  have hBφ : d.B_φ = (f θ).X := by rw [← hg, hφ]
  have hDt : ∀ t, (f t).η_O + (f t).η_A * (1 - b_φ t ^ 2) = D t := by
    intro t; rw [hD]
  have DC := hasDerivAt_C hd.η_O hd.η_A hd.η_H ur uφ uθ (by rw [hDt]; exact hD0)
  have eC : (fun t => C_func (η_O := (f t).η_O) (η_A := (f t).η_A) (η_H := (f t).η_H)
      (b_θ := b_θ t) (b_r := b_r t) (b_φ := b_φ t)) = C := by
    rw [hC, hD]; rfl
  rw [eC] at DC
  have DQ := hasDerivAt_coupling hd.η_A hd.η_H ur uφ uθ hc
  have ht := hasDerivAt_tan' hc
  have e : (fun t => (electricOf 0 t (f t) (g t)).r) = fun t =>
      ((f t).B_φ * Real.tan t - (f t).X) * R t + C t * ((f t).B_φ *
        coupling (f t).η_A (f t).η_H (b_r t) (b_φ t) (b_θ t) t -
        (f t).v_r * (f t).B_θ - N t * (f t).X) + (f t).B_φ * Pq t / 4 -
      (f t).v_φ * (f t).B_θ := by
    funext t
    exact static_E_r t (f t) (g t) _ _ _ _ _ _ _ (D t) (by rw [hbr]) (by rw [hbφ])
      (by rw [hbθ]) (hv t) (hφ t) (hr t) (hDt t).symm (by rw [hR]) (by rw [hN])
      (by rw [hP]) (by rw [hC])
  have eR : dR = d.η_O + d.η_A * (1 - b_r θ ^ 2) - 2 * (f θ).η_A * b_r θ * u.1 := by
    rw [hR] at hdR
    exact hdR.unique (hasDerivAt_diffusion hd.η_O hd.η_A ur)
  have eP : dPq = d.η_H * b_φ θ + (f θ).η_H * u.2.1 +
      ((d.η_A * b_r θ + (f θ).η_A * u.1) * b_θ θ + (f θ).η_A * b_r θ * u.2.2) := by
    rw [hP] at hdP
    exact hdP.unique ((hd.η_H.fun_mul uφ).fun_add ((hd.η_A.fun_mul ur).fun_mul uθ))
  -- the latitudinal field
  have hT : (electricOf 0 θ (f θ) d).θ = -(
      (d.B_r + (f θ).B_θ / 4) * ((f θ).η_H * b_r θ + (f θ).η_A * b_θ θ * b_φ θ) +
      (f θ).X * ((f θ).η_H * b_φ θ - (f θ).η_A * b_r θ * b_θ θ) + (f θ).B_φ * (
        (f θ).η_O / 4 + (f θ).η_A * ((1 - b_θ θ ^ 2) / 4 +
          Real.tan θ * b_r θ * b_θ θ) - (f θ).η_H * b_φ θ * Real.tan θ)) -
      (f θ).v_r * (f θ).B_φ + (f θ).v_φ * (f θ).B_r := by
    rw [hbr, hbφ, hbθ]
    simp only [electricOf, currentOf, E_θ_func, J_r_func, J_θ_func, J_φ_func, hBφ]
    ring
  rw [e]
  have DE := ((((((hd.B_φ.fun_mul ht).fun_sub hd.X).fun_mul hdR).fun_add
    (DC.fun_mul (((hd.B_φ.fun_mul DQ).fun_sub (hd.v_r.fun_mul hd.B_θ)).fun_sub
      (hdN.fun_mul hd.X)))).fun_add ((hd.B_φ.fun_mul hdP).div_const 4)).fun_sub
    (hd.v_φ.fun_mul hd.B_θ))
  refine DE.congr_deriv ?_
  have hX' := (eq_div_iff hZ).1 hX
  rw [hT, hBφ]
  have hNθ : N θ = (f θ).η_H * b_θ θ + (f θ).η_A * b_r θ * b_φ θ := by rw [hN]
  have hRθ : R θ = (f θ).η_O + (f θ).η_A * (1 - b_r θ ^ 2) := by rw [hR]
  have hPθ : Pq θ = (f θ).η_H * b_φ θ + (f θ).η_A * b_r θ * b_θ θ := by rw [hP]
  rw [coupling, eR, eP, hNθ, hRθ, hPθ]
  generalize A_func _ _ _ _ _ _ _ _ _ _ _ _ = A at *
  clear DE DQ DC e hX ur uφ uθ hdR hdN hdP hT eC hr hφ
  linear_combination -hX'

namespace Hydro

/-- C107. The exact amount by which a curve following the hydrostatic right-hand side
breaks Faraday's law: the radial electric field of Ohm's law does not change at the
rate `-3/4 E_θ` but at that rate plus what is written here.  `Z_3` is how the rotation
speed answers to the inflow and `Z_4` the azimuthal magnetic force. -/
theorem hydro_faraday_deviation (P : Args) (f : ℝ → St) (θ : ℝ) (d : St)
    (hsc : P.θ_scale = 1) (hn : P.no_v_deriv = false)
    (h : rhs_equation P θ (f θ) = (0, some d)) (hd : HasStDeriv f d θ)
    (hv : ∀ t, (f t).v_θ = 0) (hc : Real.cos θ ≠ 0)
    (hB : (f θ).B_r ^ 2 + (f θ).B_φ ^ 2 + (f θ).B_θ ^ 2 ≠ 0)
    (b_r b_φ b_θ R N Pq C D : ℝ → ℝ)
    (hbr : b_r = fun t => (f t).B_r / B_mag (f t))
    (hbφ : b_φ = fun t => (f t).B_φ / B_mag (f t))
    (hbθ : b_θ = fun t => (f t).B_θ / B_mag (f t))
    (hD : D = fun t => (f t).η_O + (f t).η_A * (1 - b_φ t ^ 2)) (hD0 : D θ ≠ 0)
    (hR : R = fun t => (f t).η_O + (f t).η_A * (1 - b_r t ^ 2))
    (hN : N = fun t => (f t).η_H * b_θ t + (f t).η_A * b_r t * b_φ t)
    (hP : Pq = fun t => (f t).η_H * b_φ t + (f t).η_A * b_r t * b_θ t)
    (hC : C = fun t => ((f t).η_H * b_θ t - (f t).η_A * b_r t * b_φ t) / D t)
    (dR dN dPq : ℝ) (hdR : HasDerivAt R dR θ) (hdN : HasDerivAt N dN θ)
    (hdP : HasDerivAt Pq dPq θ)
    (X Z_3 Z_4 W : ℝ) (hX : X = N θ / D θ)
    (hZ3 : Z_3 = X / 4 + ((f θ).v_r * (X ^ 2 / 16 - 1) +
      2 * P.a_0 * (f θ).B_θ ^ 2 / ((f θ).ρ * D θ)) /
        Real.sqrt (discriminant P θ (f θ)))
    (hZ4 : Z_4 = (f θ).B_θ * (f θ).X - (f θ).B_r * (f θ).B_φ / 4 -
      (f θ).B_θ * (f θ).B_φ * Real.tan θ)
    (hW : W = (f θ).v_φ ^ 2 * (f θ).ρ + 2 * P.a_0 * Z_3 * Z_4) (hW0 : W ≠ 0)
    (hZ6 : R θ + C θ ^ 2 * D θ + 2 * P.a_0 * (f θ).B_θ ^ 2 * (f θ).v_φ *
      (C θ + Z_3) / W ≠ 0) :
    HasDerivAt (fun t => (electricOf 0 t (f t) (rhsDerivs P t (f t))).r)
      (-(3/4) * (electricOf 0 θ (f θ) d).θ + (
        ((f θ).X * Real.tan θ + (f θ).B_φ * (1 + Real.tan θ ^ 2)) * R θ +
        (f θ).B_φ * (1 + Real.tan θ) * dR +
        (f θ).X * (R θ + C θ * (N θ - dN)) +
        ((f θ).X * Pq θ + (f θ).B_φ * dPq) / 2 -
        3/4 * ((f θ).v_r * (f θ).B_φ - (f θ).v_φ * (f θ).B_r) -
        2 * C θ * (f θ).η_A * b_r θ * b_φ θ * d.X +
        (2 * P.a_0 - 1) * (f θ).B_θ * (C θ + Z_3) *
          (d.v_φ - d.v_r * Z_3) * Z_4 / W)) θ := by
  obtain ⟨-, -, -, hd'⟩ := accepted_iff h
  rw [hsc, mul_one] at hd'
  have hDt : ∀ t, (f t).η_O + (f t).η_A * (1 - b_φ t ^ 2) = D t := by
    intro t; rw [hD]
  have hX' : X = X_func (f θ).η_O (f θ).η_A (f θ).η_H (b_θ θ) (b_r θ) (b_φ θ) := by
    rw [hX, hN, hD]; rfl
  have hCθ : C θ = C_func (f θ).η_O (f θ).η_A (f θ).η_H (b_θ θ) (b_r θ) (b_φ θ) := by
    rw [hC, hD]; rfl
  have hc' : discriminant P θ (f θ) = b_func X (f θ).v_r ^ 2 - 4 *
      c_func θ P.norm_kepler_sq P.a_0 X (f θ).v_r (f θ).B_φ (f θ).B_θ (f θ).B_r
        (f θ).ρ (f θ).η_A (f θ).η_O (f θ).η_H (b_φ θ) (b_r θ) (b_θ θ) := by
    rw [hX', hbr, hbφ, hbθ]; rfl
  have hZ3' : Z_3 = Z_3_func X (f θ).v_r P.a_0 (f θ).B_θ (f θ).ρ (f θ).η_O (f θ).η_A
      (b_φ θ) (b_func X (f θ).v_r) (c_func θ P.norm_kepler_sq P.a_0 X (f θ).v_r
        (f θ).B_φ (f θ).B_θ (f θ).B_r
        (f θ).ρ (f θ).η_A (f θ).η_O (f θ).η_H (b_φ θ) (b_r θ) (b_θ θ)) := by
    rw [hZ3, hc', Z_3_func, hDt]
  have hZ4' : Z_4 = Z_4_func (f θ).B_θ (f θ).B_r (f θ).B_φ (f θ).X θ := hZ4
  have hBφ : d.B_φ = (f θ).X := by rw [hd']; rfl
  obtain ⟨u, hu⟩ : ∃ u, u = B_unit_derivs (B_r := (f θ).B_r) (B_φ := (f θ).B_φ)
      (B_θ := (f θ).B_θ) (deriv_B_r := d.B_r) (deriv_B_φ := d.B_φ) (deriv_B_θ := d.B_θ)
      (b_r := (f θ).B_r / B_mag (f θ)) (b_φ := (f θ).B_φ / B_mag (f θ))
      (b_θ := (f θ).B_θ / B_mag (f θ)) := ⟨_, rfl⟩
  obtain ⟨Z_1, Z_2, h1, h2, h3⟩ : ∃ Z_1 Z_2 : ℝ, d.v_φ = Z_2 + d.v_r * Z_3 ∧
      d.v_r = (Z_1 * (f θ).v_φ ^ 2 * (f θ).ρ + 2 * P.a_0 * (
            (f θ).v_φ * (f θ).B_θ * d.X - Z_2 * Z_4)) / W ∧
      d.X = dderiv_B_φ_func (B_φ := (f θ).B_φ) (B_θ := (f θ).B_θ)
      (η_O := (f θ).η_O) (η_H := (f θ).η_H) (η_A := (f θ).η_A) (θ := θ)
      (v_r := (f θ).v_r) (v_φ := (f θ).v_φ) (deriv_B_r := d.B_r)
      (deriv_B_θ := d.B_θ) (deriv_B_φ := (f θ).X) (deriv_η_O := d.η_O)
      (deriv_η_A := d.η_A) (deriv_η_H := d.η_H)
      (A := A_func (η_O := (f θ).η_O) (η_A := (f θ).η_A) (η_H := (f θ).η_H)
        (b_θ := b_θ θ) (b_r := b_r θ) (b_φ := b_φ θ) (deriv_η_O := d.η_O)
        (deriv_η_A := d.η_A) (deriv_η_H := d.η_H) (deriv_b_θ := u.2.2)
        (deriv_b_r := u.1) (deriv_b_φ := u.2.1))
      (C := C θ) (b_r := b_r θ) (b_θ := b_θ θ) (b_φ := b_φ θ)
      (Z_6 := Z_6_func (C θ) Z_3 Z_4 (Z_5_func (f θ).η_O (f θ).η_A (f θ).η_H (b_r θ)
        (b_θ θ) (b_φ θ) (C θ)) P.a_0 (f θ).B_θ (f θ).v_φ (f θ).ρ)
      (Z_7 := Z_7_func (C θ) Z_1 Z_2 Z_3 Z_4 P.a_0 (f θ).v_φ (f θ).ρ)
      (deriv_b_θ := u.2.2) (deriv_b_φ := u.2.1) (deriv_b_r := u.1) := by
    rw [hW, hCθ, hZ3', hZ4', hX', hu, hbr, hbφ, hbθ, hBφ, hd']
    simp only [rhsDerivs, hn, Bool.false_eq_true, if_false]
    exact ⟨_, _, rfl, rfl, rfl⟩
  have hDC : C θ * D θ = (f θ).η_H * b_θ θ - (f θ).η_A * b_r θ * b_φ θ := by
    rw [hC]; exact div_mul_cancel₀ _ hD0
  have hZ5 : Z_5_func (f θ).η_O (f θ).η_A (f θ).η_H (b_r θ) (b_θ θ) (b_φ θ) (C θ) =
      R θ + C θ ^ 2 * D θ := by
    rw [Z_5_func, hR]
    linear_combination -C θ * hDC
  rw [hZ5] at h3
  have key := static_faraday f (fun t => rhsDerivs P t (f t)) θ d hd'.symm hd hv hc hB
    b_r b_φ b_θ R N Pq C D hbr hbφ hbθ (fun t => rfl)
    (fun t => by rw [hbr, hbφ, hbθ]; rfl) hD hD0 hR hN hP hC dR dN dPq hdR hdN hdP _ _
    (by rw [Z_6_func, ← hW]; exact hZ6) u hu h3
  refine key.congr_deriv ?_
  have e1 : C θ * N θ = C θ ^ 2 * D θ + 2 * C θ * (f θ).η_A * b_r θ * b_φ θ := by
    rw [hN]
    linear_combination -C θ * hDC
  rw [Z_6_func, Z_7_func, ← hW, h1]
  have h2' : d.v_r * W = Z_1 * (f θ).v_φ ^ 2 * (f θ).ρ + 2 * P.a_0 * (
            (f θ).v_φ * (f θ).B_θ * d.X - Z_2 * Z_4) := (eq_div_iff hW0).1 h2
  clear h2 h3 key hZ6 hdR hdN hdP
  linear_combination (norm := (field_simp; ring)) (-d.X) * e1 -
    (f θ).B_θ * (C θ + Z_3) / W * h2'

end Hydro

namespace ModHydro

/-- C107. The same for the modified solver in the `B_φ'` formulation.  `Z_6` is the
code's coefficient of `B_φ''` and `Z_7` what it puts in the place of the change of the
velocities; `Z_7` contains no change of velocity at all. -/
theorem mod_hydro_faraday_deviation (P : Args) (f : ℝ → St) (θ : ℝ) (s' d : St)
    (hsc : P.θ_scale = 1) (hE : P.use_E_r = false)
    (h : rhs_equation P θ (f θ) = (0, s', some d)) (hd : HasStDeriv f d θ)
    (hv : ∀ t, (f t).v_θ = 0) (hc : Real.cos θ ≠ 0)
    (hB : (f θ).B_r ^ 2 + (f θ).B_φ ^ 2 + (f θ).B_θ ^ 2 ≠ 0)
    (b_r b_φ b_θ R N Pq C D : ℝ → ℝ)
    (hbr : b_r = fun t => (f t).B_r / B_mag (f t))
    (hbφ : b_φ = fun t => (f t).B_φ / B_mag (f t))
    (hbθ : b_θ = fun t => (f t).B_θ / B_mag (f t))
    (hD : D = fun t => (f t).η_O + (f t).η_A * (1 - b_φ t ^ 2)) (hD0 : D θ ≠ 0)
    (hR : R = fun t => (f t).η_O + (f t).η_A * (1 - b_r t ^ 2))
    (hN : N = fun t => (f t).η_H * b_θ t + (f t).η_A * b_r t * b_φ t)
    (hP : Pq = fun t => (f t).η_H * b_φ t + (f t).η_A * b_r t * b_θ t)
    (hC : C = fun t => ((f t).η_H * b_θ t - (f t).η_A * b_r t * b_φ t) / D t)
    (dR dN dPq : ℝ) (hdR : HasDerivAt R dR θ) (hdN : HasDerivAt N dN θ)
    (hdP : HasDerivAt Pq dPq θ)
    (X n Z_3 Z_4 Z_6 Z_7 : ℝ) (hX : X = N θ / D θ) (hn : n = Real.sqrt P.norm_kepler_sq)
    (hZ3 : Z_3 = (f θ).B_θ ^ 2 / D θ - (f θ).v_r / (2 * n))
    (hZ4 : Z_4 = (f θ).B_θ * (f θ).X - (f θ).B_r * (f θ).B_φ / 4 -
      (f θ).B_θ * (f θ).B_φ * Real.tan θ)
    (hZ6 : Z_6 = R θ + C θ ^ 2 * D θ + (f θ).B_θ ^ 2 * (X / (2 * n) +
      P.a_0 * (C θ + Z_3) * (2 * (f θ).v_φ - Z_4 * X / n) /
        ((f θ).v_φ ^ 2 * (f θ).ρ - Z_3 * Z_4 * P.a_0 * (f θ).v_r)))
    (hZ7 : Z_7 = R θ + C θ ^ 2 * D θ + (f θ).B_θ ^ 2 * (X / n +
      P.a_0 * (C θ - (f θ).v_r / (2 * n)) * (2 * n * (f θ).v_φ - Z_4 * X) /
        ((f θ).v_φ ^ 2 * (f θ).ρ * n - Z_4 * P.a_0 * (f θ).v_r)))
    (hZ0 : Z_6 ≠ 0) :
    HasDerivAt (fun t => (electricOf 0 t (f t) (derivsB P t (f t))).r)
      (-(3/4) * (electricOf 0 θ (f θ) d).θ + (
        ((f θ).X * Real.tan θ + (f θ).B_φ * (1 + Real.tan θ ^ 2)) * R θ +
        (f θ).B_φ * (1 + Real.tan θ) * dR +
        (f θ).X * (R θ + C θ * (N θ - dN)) +
        ((f θ).X * Pq θ + (f θ).B_φ * dPq) / 2 -
        3/4 * ((f θ).v_r * (f θ).B_φ - (f θ).v_φ * (f θ).B_r) +
        (Z_6 - R θ - C θ * N θ) * d.X +
        (f θ).B_θ * (Z_7 - d.v_φ - C θ * d.v_r))) θ := by
  have hd' : d = derivsB P θ (f θ) := by
    rcases accepted_cases h with ⟨hE', -⟩ | ⟨-, -, hd'⟩
    · rw [hE] at hE'; cases hE'
    · rw [hd', hsc, mul_one]
  have hDC : C θ * D θ = (f θ).η_H * b_θ θ - (f θ).η_A * b_r θ * b_φ θ := by
    rw [hC]; exact div_mul_cancel₀ _ hD0
  have hZ5 : Z_5_func (f θ).η_O (f θ).η_A (f θ).η_H (b_r θ) (b_θ θ) (b_φ θ) (C θ) =
      R θ + C θ ^ 2 * D θ := by
    rw [Z_5_func, hR]
    linear_combination -C θ * hDC
  have hX' : X = Hydro.X_func (f θ).η_O (f θ).η_A (f θ).η_H (b_θ θ) (b_r θ)
      (b_φ θ) := by
    rw [hX, hN, hD]; rfl
  have hCθ : C θ = C_func (f θ).η_O (f θ).η_A (f θ).η_H (b_θ θ) (b_r θ) (b_φ θ) := by
    rw [hC, hD]; rfl
  have hZ3' : Z_3 = Z_3_func (f θ).v_r (f θ).B_θ n (f θ).η_O (f θ).η_A (b_φ θ) := by
    rw [hZ3, hD]; rfl
  have hZ4' : Z_4 = Hydro.Z_4_func (f θ).B_θ (f θ).B_r (f θ).B_φ (f θ).X θ := hZ4
  have hZ6' : Z_6 = Z_6_func P.a_0 X (f θ).v_r (f θ).B_θ (f θ).ρ Z_3
      (Z_5_func (f θ).η_O (f θ).η_A (f θ).η_H (b_r θ) (b_θ θ) (b_φ θ) (C θ)) n (C θ)
      (f θ).v_φ Z_4 := by
    rw [hZ5, hZ6]; rfl
  have hZ7' : Z_7 = Z_7_func P.a_0 X (f θ).v_r (f θ).B_θ (f θ).ρ
      (Z_5_func (f θ).η_O (f θ).η_A (f θ).η_H (b_r θ) (b_θ θ) (b_φ θ) (C θ)) n (C θ)
      (f θ).v_φ Z_4 := by
    rw [hZ5, hZ7]; rfl
  have hBφ : d.B_φ = (f θ).X := by rw [hd']; rfl
  refine static_faraday f (fun t => derivsB P t (f t)) θ d hd'.symm hd hv hc hB
    b_r b_φ b_θ R N Pq C D hbr hbφ hbθ (fun t => rfl)
    (fun t => by rw [hbr, hbφ, hbθ]; rfl) hD hD0 hR hN hP hC dR dN dPq hdR hdN hdP
    Z_6 Z_7 hZ0 _ rfl ?_
  rw [hZ6', hZ7', hCθ, hZ3', hZ4', hX', hn, hbr, hbφ, hbθ, hBφ, hd']
  rfl

/-- C107. In the `E_r` formulation every accepted call keeps Faraday's law: the stored
radial field's derivative is `-3/4` of the latitudinal field of Ohm's law, for the
velocities the call wrote. -/
theorem mod_hydro_E_r_faraday (P : Args) (x : ℝ) (s s' d : St) (hE : P.use_E_r = true)
    (h : rhs_equation P x s = (0, s', some d)) :
    d.X = -(3/4) * (electricOf 0 (x * P.θ_scale) s' d).θ := by
  rcases accepted_cases h with ⟨-, -, rfl⟩ | ⟨hE', -⟩
  · simp only [derivsE, electricOf, currentOf, deriv_E_r_func]
    ring
  · rw [hE] at hE'; cases hE'

end ModHydro

/-! ### A concrete curve for each solver -/

/-- The functions of the diffusion are differentiable along every differentiable
curve. -/
theorem diffusion_differentiable (f : ℝ → St) (θ : ℝ) (d : St) (hd : HasStDeriv f d θ)
    (hB : (f θ).B_r ^ 2 + (f θ).B_φ ^ 2 + (f θ).B_θ ^ 2 ≠ 0) :
    ∃ dR dN dPq,
      HasDerivAt (fun t => (f t).η_O + (f t).η_A * (1 - ((f t).B_r / B_mag (f t)) ^ 2))
        dR θ ∧
      HasDerivAt (fun t => (f t).η_H * ((f t).B_θ / B_mag (f t)) +
        (f t).η_A * ((f t).B_r / B_mag (f t)) * ((f t).B_φ / B_mag (f t))) dN θ ∧
      HasDerivAt (fun t => (f t).η_H * ((f t).B_φ / B_mag (f t)) +
        (f t).η_A * ((f t).B_r / B_mag (f t)) * ((f t).B_θ / B_mag (f t))) dPq θ := by
  obtain ⟨ur, uφ, uθ⟩ := B_unit_derivs_correct f θ _ _ _ hd.B_r hd.B_φ hd.B_θ hB _ rfl
  exact ⟨_, _, _, hasDerivAt_diffusion hd.η_O hd.η_A ur,
    (hd.η_H.fun_mul uθ).fun_add ((hd.η_A.fun_mul ur).fun_mul uφ),
    (hd.η_H.fun_mul uφ).fun_add ((hd.η_A.fun_mul ur).fun_mul uθ)⟩

namespace Hydro

/-- A midplane state with Ohmic diffusion only and a bent azimuthal field. -/
noncomputable def witF : St :=
  { B_r := 0, B_φ := 0, B_θ := 1, v_r := -1, v_φ := 2, v_θ := 0, ρ := 1, X := 1,
    η_O := 1, η_A := 0, η_H := 0 }

/-- Parameters for `witF`. -/
noncomputable def witFP : Args :=
  { a_0 := 1/2, norm_kepler_sq := 15/2, init_con := witF, no_v_deriv := false }

theorem witF_mag : B_mag witF = 1 := by
  norm_num [B_mag, witF]

theorem witF_disc : discriminant witFP 0 witF = 4 ^ 2 := by
  simp only [discriminant, witF_mag]
  norm_num [witFP, witF, c_func, b_func, X_func]

theorem witF_accepted :
    rhs_equation witFP 0 witF = (0, some (rhsDerivs witFP 0 witF)) := by
  simp only [rhs_equation, scaled_to_rad, zero_mul, witF_disc]
  norm_num [witF]

/-- The straight curve through `witF` along its derivatives. -/
noncomputable def witFCurve : ℝ → St := line witF (rhsDerivs witFP 0 witF) 0

theorem witFCurve_zero : witFCurve 0 = witF := line_at _ _ _

theorem witFCurve_static (t : ℝ) : (witFCurve t).v_θ = 0 := by
  have : (rhsDerivs witFP 0 witF).v_θ = 0 := rfl
  simp [witFCurve, line, St.add, St.smul, this]
  rfl

/-- C107. Faraday's law is not kept by the hydrostatic solver: there is a curve
following its right-hand side, with Ohmic diffusion only, along which the radial
electric field of Ohm's law changes faster than `-3/4 E_θ` by exactly one. -/
theorem hydro_faraday_not_kept : ∃ (P : Args) (f : ℝ → St) (d : St),
    P.θ_scale = 1 ∧ P.no_v_deriv = false ∧ rhs_equation P 0 (f 0) = (0, some d) ∧
    HasStDeriv f d 0 ∧ (∀ t, (f t).v_θ = 0) ∧ (f 0).η_A = 0 ∧ (f 0).η_H = 0 ∧
    HasDerivAt (fun t => (electricOf 0 t (f t) (rhsDerivs P t (f t))).r)
      (-(3/4) * (electricOf 0 0 (f 0) d).θ + 1) 0 := by
  have hd : HasStDeriv witFCurve (rhsDerivs witFP 0 witF) 0 := hasStDeriv_line _ _ _
  have hB : (witFCurve 0).B_r ^ 2 + (witFCurve 0).B_φ ^ 2 + (witFCurve 0).B_θ ^ 2 ≠ 0 := by
    rw [witFCurve_zero]; norm_num [witF]
  obtain ⟨dR, dN, dPq, hR, hN, hP⟩ := diffusion_differentiable witFCurve 0 _ hd hB
  have hs : Real.sqrt (discriminant witFP 0 witF) = 4 := by
    rw [witF_disc, Real.sqrt_sq (by norm_num)]
  refine ⟨witFP, witFCurve, _, rfl, rfl, by rw [witFCurve_zero]; exact witF_accepted, hd,
    witFCurve_static, by rw [witFCurve_zero]; rfl, by rw [witFCurve_zero]; rfl, ?_⟩
  have key := hydro_faraday_deviation witFP witFCurve 0 _ rfl rfl
    (by rw [witFCurve_zero]; exact witF_accepted) hd witFCurve_static (by simp) hB
    _ _ _ _ _ _ _ _ rfl rfl rfl rfl
    (by rw [witFCurve_zero, witF_mag]; norm_num [witF]) rfl rfl rfl rfl
    dR dN dPq hR hN hP 0 (1/2) 1 (9/2)
    (by rw [witFCurve_zero, witF_mag]; norm_num [witF])
    (by rw [witFCurve_zero, hs, witF_mag]; norm_num [witF, witFP])
    (by rw [witFCurve_zero]; norm_num [witF])
    (by rw [witFCurve_zero]; norm_num [witF, witFP]) (by norm_num)
    (by rw [witFCurve_zero, witF_mag]; norm_num [witF, witFP])
  refine key.congr_deriv ?_
  rw [witFCurve_zero, witF_mag]
  norm_num [witF, witFP]

end Hydro

namespace ModHydro

/-- A state with a radial field only. -/
noncomputable def witF : St :=
  { B_r := 1, B_φ := 0, B_θ := 0, v_r := -1, v_φ := 4, v_θ := 0, ρ := 1, X := 1,
    η_O := 1, η_A := 0, η_H := 0 }

/-- Parameters for `witF`. -/
noncomputable def witFP : Args :=
  { a_0 := 1, norm_kepler_sq := 100, init_con := witF, tracker := fun _ => -1 }

theorem witF_mag : B_mag witF = 1 := by
  norm_num [B_mag, witF]

/-- The straight curve through `witF` along its derivatives. -/
noncomputable def witFCurve : ℝ → St := line witF (derivsB witFP 0 witF) 0

theorem witFCurve_zero : witFCurve 0 = witF := line_at _ _ _

theorem witFCurve_static (t : ℝ) : (witFCurve t).v_θ = 0 := by
  have : (derivsB witFP 0 witF).v_θ = 0 := rfl
  simp [witFCurve, line, St.add, St.smul, this]
  rfl

/-- C107. Nor is it kept by the modified solver in the `B_φ'` formulation. -/
theorem mod_hydro_faraday_not_kept : ∃ (P : Args) (f : ℝ → St) (s' d : St),
    P.θ_scale = 1 ∧ P.use_E_r = false ∧ rhs_equation P 0 (f 0) = (0, s', some d) ∧
    HasStDeriv f d 0 ∧ (∀ t, (f t).v_θ = 0) ∧ (f 0).η_A = 0 ∧ (f 0).η_H = 0 ∧
    HasDerivAt (fun t => (electricOf 0 t (f t) (derivsB P t (f t))).r)
      (-(3/4) * (electricOf 0 0 (f 0) d).θ + 4) 0 := by
  have hd : HasStDeriv witFCurve (derivsB witFP 0 witF) 0 := hasStDeriv_line _ _ _
  have hB : (witFCurve 0).B_r ^ 2 + (witFCurve 0).B_φ ^ 2 + (witFCurve 0).B_θ ^ 2 ≠ 0 := by
    rw [witFCurve_zero]; norm_num [witF]
  obtain ⟨dR, dN, dPq, hR, hN, hP⟩ := diffusion_differentiable witFCurve 0 _ hd hB
  have ha : rhs_equation witFP 0 (witFCurve 0) =
      (0, witF, some (derivsB witFP 0 witF)) := by
    rw [witFCurve_zero]; norm_num [rhs_equation, witF, witFP, scaled_to_rad]
  refine ⟨witFP, witFCurve, witF, _, rfl, rfl, ha, hd,
    witFCurve_static, by rw [witFCurve_zero]; rfl, by rw [witFCurve_zero]; rfl, ?_⟩
  have key := mod_hydro_faraday_deviation witFP witFCurve 0 witF _ rfl rfl
    ha hd witFCurve_static (by simp) hB
    _ _ _ _ _ _ _ _ rfl rfl rfl rfl
    (by rw [witFCurve_zero, witF_mag]; norm_num [witF]) rfl rfl rfl rfl
    dR dN dPq hR hN hP 0 10 (1/20) 0 1 1
    (by rw [witFCurve_zero, witF_mag]; norm_num [witF])
    (by rw [show witFP.norm_kepler_sq = 100 from rfl, sqrt_100])
    (by rw [witFCurve_zero]; norm_num [witF, witFP])
    (by rw [witFCurve_zero]; norm_num [witF])
    (by rw [witFCurve_zero, witF_mag]; norm_num [witF, witFP])
    (by rw [witFCurve_zero, witF_mag]; norm_num [witF, witFP]) (by norm_num)
  refine key.congr_deriv ?_
  rw [witFCurve_zero, witF_mag]
  norm_num [witF, witFP]

example := mod_hydro_E_r_faraday (witMP true) 0 witM _ _ rfl witM_callE

end ModHydro

end DiscSolver
