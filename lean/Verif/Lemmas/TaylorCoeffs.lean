import Verif.Model.Midplane
import Mathlib.Tactic.FieldSimp
import Mathlib.Tactic.LinearCombination

/-!
Helper lemmas: the linear relations between the coefficients computed by
`taylor_series`.
-/

namespace DiscSolver

section
variable (s : St) (γ a : ℝ) (η E : Bool)

/-- The value of `Z_5` in `taylor_series`. -/
noncomputable def tZ5 (s : St) : ℝ :=
  midplane_Z_5_func ((s.η_O + s.η_A) ^ 2 + s.η_H ^ 2) (s.η_O + s.η_A)

/-- The value of `C` in `taylor_series`. -/
noncomputable def tC (s : St) : ℝ := midplane_C_func s.η_H (s.η_O + s.η_A)

/-- The value of `Y_5` in `taylor_series`. -/
noncomputable def tY5 (s : St) (γ a : ℝ) : ℝ := Y_5_func a s.v_r γ (tZ5 s)

/-- The value of `Y_6` in `taylor_series`. -/
noncomputable def tY6 (s : St) (γ a : ℝ) : ℝ :=
  Y_6_func s.v_φ (tY5 s γ a) a (tC s) (tZ5 s) γ s.v_r (s.η_O + s.η_A) s.η_H

theorem taylor_coeffs :
    ∃ Y₂ Y₃ Y₄ : ℝ,
      Y₄ = Y_4_func a s.v_r s.v_φ (get_taylor_first_order s γ a).B_r
        (get_taylor_first_order s γ a).B_φ γ Y₂
        (-(get_taylor_second_order s γ a η E).ρ) ∧
      (get_taylor_second_order s γ a η E).v_r =
        dderiv_v_r_midplane a Y₃ Y₂ (-(get_taylor_second_order s γ a η E).ρ)
          (tY6 s γ a) (tY5 s γ a) Y₄ s.η_H (s.η_O + s.η_A) (tZ5 s) s.v_φ s.v_r γ
          (get_taylor_second_order s γ a η E).B_θ
          (get_taylor_first_order s γ a).B_r (get_taylor_first_order s γ a).B_φ ∧
      (get_taylor_second_order s γ a η E).v_φ =
        dderiv_v_φ_midplane a s.v_φ (get_taylor_second_order s γ a η E).v_r (tC s)
          (tZ5 s) (tY5 s γ a) Y₄ ∧
      (get_taylor_third_order s γ a η E).B_φ =
        ddderiv_B_φ_midplane (get_taylor_second_order s γ a η E).v_r
          (get_taylor_second_order s γ a η E).v_φ Y₂ (tC s) (tZ5 s) ∧
      (get_taylor_third_order s γ a η E).B_r =
        ddderiv_B_r_midplane Y₃ s.η_H (s.η_O + s.η_A)
          (get_taylor_second_order s γ a η E).v_r
          (get_taylor_third_order s γ a η E).B_φ := by
  have hρ : -(get_taylor_second_order s γ a η E).ρ =
      Y_1_func s.v_r s.v_φ (get_taylor_first_order s γ a).B_r
        (get_taylor_first_order s γ a).B_φ γ a := neg_neg _
  rw [hρ]
  exact ⟨_, _, _, rfl, rfl, rfl, rfl, rfl⟩

theorem taylor_azimuthal_rel (h5 : tY5 s γ a ≠ 0) :
    -2 * γ * s.v_r * (get_taylor_second_order s γ a η E).v_φ +
      1/4 * (s.v_r * (get_taylor_second_order s γ a η E).v_φ +
        s.v_φ * (get_taylor_second_order s γ a η E).v_r) +
      2 * γ * s.v_r * s.v_φ -
      a * ((get_taylor_third_order s γ a η E).B_φ / 2 +
        (get_taylor_second_order s γ a η E).B_θ *
          (get_taylor_first_order s γ a).B_φ / 2 +
        (γ - 1/4) * (get_taylor_first_order s γ a).B_r *
          (get_taylor_first_order s γ a).B_φ - (get_taylor_first_order s γ a).B_φ -
        (get_taylor_second_order s γ a η E).ρ / 2 *
          (get_taylor_first_order s γ a).B_φ) =
      γ * s.v_r * s.v_φ + a / 2 * (get_taylor_first_order s γ a).B_φ := by
  obtain ⟨Y₂, Y₃, Y₄, e4, -, ev, eB, -⟩ := taylor_coeffs s γ a η E
  have eθ : (get_taylor_second_order s γ a η E).B_θ =
    1 - (γ + 3/4) * (get_taylor_first_order s γ a).B_r := rfl
  have ev' : tY5 s γ a * (get_taylor_second_order s γ a η E).v_φ =
      Y₄ - (get_taylor_second_order s γ a η E).v_r *
        (2 * a * tC s / tZ5 s + s.v_φ) := by
    rw [ev]; simp only [dderiv_v_φ_midplane]; field_simp
  simp only [tY5, Y_5_func] at ev'
  simp only [Y_4_func] at e4
  simp only [ddderiv_B_φ_midplane] at eB
  rw [eB, eθ]
  rw [div_eq_mul_inv] at *
  linear_combination (1/4) * ev' + (1/4) * e4

theorem taylor_radial_rel (h6 : tY6 s γ a ≠ 0) :
    -2 * γ * s.v_r * (get_taylor_second_order s γ a η E).v_r -
      1/2 * s.v_r * (get_taylor_second_order s γ a η E).v_r -
      (2 * γ * s.v_r) ^ 2 -
      s.v_φ * (get_taylor_second_order s γ a η E).v_φ -
      a * ((get_taylor_third_order s γ a η E).B_r / 2 +
        (get_taylor_second_order s γ a η E).B_θ *
          (get_taylor_first_order s γ a).B_r / 2 +
        (1/4 - γ) * ((get_taylor_second_order s γ a η E).B_θ +
          (get_taylor_first_order s γ a).B_φ ^ 2) -
        (get_taylor_second_order s γ a η E).ρ / 2 *
          ((get_taylor_first_order s γ a).B_r + 1/4 - γ)) = 0 := by
  obtain ⟨Y₂, Y₃, Y₄, -, er, ev, eB, eR⟩ := taylor_coeffs s γ a η E
  have er' : tY6 s γ a * (get_taylor_second_order s γ a η E).v_r =
    a / 2 * (
      Y₃ - Y₂ * s.η_H / (s.η_O + s.η_A) +
        s.η_H * Y₄ / ((s.η_O + s.η_A) * tY5 s γ a * tZ5 s)
    ) + s.v_φ * Y₄ / tY5 s γ a + 4 * γ ^ 2 * s.v_r ^ 2 + a / 2 * (
      (get_taylor_second_order s γ a η E).B_θ *
        (get_taylor_first_order s γ a).B_r +
      2 * (get_taylor_first_order s γ a).B_φ ^ 2 * (1 / 4 - γ) +
      2 * (get_taylor_second_order s γ a η E).B_θ * (1 / 4 - γ) +
      -(get_taylor_second_order s γ a η E).ρ *
        ((get_taylor_first_order s γ a).B_r + (1 / 4 - γ))) := by
    rw [er]; simp only [dderiv_v_r_midplane]; exact mul_div_cancel₀ _ h6
  simp only [tY6, Y_6_func] at er'
  rw [eR, eB, ev]
  simp only [ddderiv_B_φ_midplane, ddderiv_B_r_midplane, dderiv_v_φ_midplane]
  clear er ev eB eR h6
  simp only [div_eq_mul_inv, mul_inv] at *
  linear_combination er'

end

end DiscSolver
