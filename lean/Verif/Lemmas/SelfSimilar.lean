import Mathlib.Analysis.SpecialFunctions.Pow.Deriv
import Verif.Lemmas.Curve
import Verif.Model.Scaling
import Verif.Spec.Mhd

/-!
Helper lemmas: derivatives of r-scaled fields.
-/

namespace DiscSolver

open Spec

/-- Euler's theorem for a function homogeneous of degree `p` on `r > 0`. -/
theorem deriv_homogeneous {g : ℝ → ℝ} {p c r : ℝ} (hr : 0 < r)
    (hg : ∀ r', 0 < r' → g r' = r' ^ p * c) : deriv g r = p * g r / r := by
  have h1 : g =ᶠ[nhds r] fun r' => r' ^ p * c :=
    Filter.eventually_of_mem (Ioi_mem_nhds hr) fun r' h => hg r' h
  rw [h1.deriv_eq, hg r hr]
  have h2 : HasDerivAt (fun r' : ℝ => r' ^ p * c) (p * r ^ (p - 1) * c) r :=
    (Real.hasDerivAt_rpow_const (Or.inl hr.ne')).mul_const c
  rw [h2.deriv, Real.rpow_sub_one hr.ne']
  field_simp

/-- The scale factors in terms of `√r`. -/
theorem scales {r γ : ℝ} (hr : 0 < r) :
    0 < Real.sqrt r ∧ r = Real.sqrt r ^ 2 ∧ 0 < r ^ (γ - 5/4) ∧
    r ^ (2 * γ - 3/2) = (r ^ (γ - 5/4)) ^ 2 * Real.sqrt r ^ 2 ∧
    1 / Real.sqrt r = r ^ (-(1/2) : ℝ) := by
  have hs : 0 < Real.sqrt r := Real.sqrt_pos.2 hr
  refine ⟨hs, (Real.sq_sqrt hr.le).symm, Real.rpow_pos_of_pos hr _, ?_, ?_⟩
  · rw [Real.sq_sqrt hr.le, ← Real.rpow_natCast, ← Real.rpow_mul hr.le]
    conv_rhs => rw [← Real.rpow_one r, ← Real.rpow_mul hr.le, ← Real.rpow_add hr]
    congr 1
    push_cast
    ring
  · rw [Real.rpow_neg hr.le, ← Real.sqrt_eq_rpow, one_div]

/-- The r-scaled fields of an angular profile, as the code scales them. -/
structure Scaled (γ : ℝ) (f : ℝ → St) (F : ℝ → ℝ → St) : Prop where
  eq : ∀ r θ, 0 < r → scale_solution_to_radii (f θ) r γ false = .ok (F r θ)

/-- The MHD configuration made of r-scaled fields: isothermal at each radius
with squared sound speed `1/r`. -/
noncomputable def configOf (F : ℝ → ℝ → St) : Config where
  u := ⟨fun r θ => (F r θ).v_r, fun r θ => (F r θ).v_φ, fun r θ => (F r θ).v_θ⟩
  B := ⟨fun r θ => (F r θ).B_r, fun r θ => (F r θ).B_φ, fun r θ => (F r θ).B_θ⟩
  ρ := fun r θ => (F r θ).ρ
  p := fun r θ => (F r θ).ρ / r
  η_O := fun r θ => (F r θ).η_O
  η_A := fun r θ => (F r θ).η_A
  η_H := fun r θ => (F r θ).η_H

theorem Scaled.val {γ : ℝ} {f : ℝ → St} {F : ℝ → ℝ → St} (h : Scaled γ f F)
    {r : ℝ} (hr : 0 < r) (θ : ℝ) :
    F r θ = { v_r := 1 / Real.sqrt r * (f θ).v_r,
              v_φ := 1 / Real.sqrt r * (f θ).v_φ,
              v_θ := 1 / Real.sqrt r * (f θ).v_θ,
              B_r := r ^ (γ - 5/4) * (f θ).B_r,
              B_φ := r ^ (γ - 5/4) * (f θ).B_φ,
              B_θ := r ^ (γ - 5/4) * (f θ).B_θ,
              ρ := r ^ (2 * γ - 3/2) * (f θ).ρ,
              η_O := Real.sqrt r * (f θ).η_O, η_A := Real.sqrt r * (f θ).η_A,
              η_H := Real.sqrt r * (f θ).η_H,
              X := r ^ (γ - 5/4) * (f θ).X } := by
  have := h.eq r θ hr
  simp only [scale_solution_to_radii, Bool.false_eq_true, if_false,
    Except.ok.injEq] at this
  exact this.symm

/-- Every profile has r-scaled fields. -/
theorem Scaled.exists (γ : ℝ) (f : ℝ → St) : ∃ F, Scaled γ f F := by
  refine ⟨fun r θ => match scale_solution_to_radii (f θ) r γ false with
    | .ok s => s
    | .error _ => f θ, ⟨?_⟩⟩
  intro r θ _
  simp [scale_solution_to_radii]

variable {γ : ℝ} {f : ℝ → St} {F : ℝ → ℝ → St} {r θ : ℝ} {d : St}

theorem mul_rpow_pow {r p q : ℝ} (hr : 0 < r) (n : ℕ) (h : q = p + n) :
    r ^ n * r ^ p = r ^ q := by
  rw [← Real.rpow_natCast, ← Real.rpow_add hr, h, add_comm]

section radial

variable (hF : Scaled γ f F) (hr : 0 < r)
include hF hr

theorem ddr_v_r : ddr (configOf F).u.r r θ = -(1/2) * (F r θ).v_r / r :=
  deriv_homogeneous (c := (f θ).v_r) hr fun r' h => by
    simp only [configOf, hF.val h, (scales (γ := γ) h).2.2.2.2]

theorem ddr_v_φ : ddr (configOf F).u.φ r θ = -(1/2) * (F r θ).v_φ / r :=
  deriv_homogeneous (c := (f θ).v_φ) hr fun r' h => by
    simp only [configOf, hF.val h, (scales (γ := γ) h).2.2.2.2]

theorem ddr_v_θ : ddr (configOf F).u.θ r θ = -(1/2) * (F r θ).v_θ / r :=
  deriv_homogeneous (c := (f θ).v_θ) hr fun r' h => by
    simp only [configOf, hF.val h, (scales (γ := γ) h).2.2.2.2]

theorem ddr_p : ddr (configOf F).p r θ = (2 * γ - 5/2) * ((F r θ).ρ / r) / r :=
  deriv_homogeneous (c := (f θ).ρ) hr fun r' h => by
    simp only [configOf, hF.val h]
    have : r' ^ (2 * γ - 5/2) = r' ^ (2 * γ - 3/2) / r' := by
      rw [← Real.rpow_sub_one h.ne']; congr 1; ring
    rw [this]; ring

theorem ddr_sq_B_r : ddr (fun r θ => r ^ 2 * (configOf F).B.r r θ) r θ =
    (γ + 3/4) * (r ^ 2 * (F r θ).B_r) / r :=
  deriv_homogeneous (c := (f θ).B_r) hr fun r' h => by
    simp only [configOf, hF.val h]
    rw [← mul_assoc, mul_rpow_pow h 2]; push_cast; ring

theorem ddr_r_B_φ : ddr (fun r θ => r * (configOf F).B.φ r θ) r θ =
    (γ - 1/4) * (r * (F r θ).B_φ) / r :=
  deriv_homogeneous (c := (f θ).B_φ) hr fun r' h => by
    simp only [configOf, hF.val h]
    have := mul_rpow_pow h 1 (p := γ - 5/4) (q := γ - 1/4) (by push_cast; ring)
    rw [pow_one] at this
    rw [← mul_assoc, this]

theorem ddr_r_B_θ : ddr (fun r θ => r * (configOf F).B.θ r θ) r θ =
    (γ - 1/4) * (r * (F r θ).B_θ) / r :=
  deriv_homogeneous (c := (f θ).B_θ) hr fun r' h => by
    simp only [configOf, hF.val h]
    have := mul_rpow_pow h 1 (p := γ - 5/4) (q := γ - 1/4) (by push_cast; ring)
    rw [pow_one] at this
    rw [← mul_assoc, this]

theorem ddr_mass : ddr (fun r θ => r ^ 2 * ((F r θ).ρ * (F r θ).v_r)) r θ =
    2 * γ * (r ^ 2 * ((F r θ).ρ * (F r θ).v_r)) / r :=
  deriv_homogeneous (c := (f θ).ρ * (f θ).v_r) hr fun r' h => by
    simp only [hF.val h, (scales (γ := γ) h).2.2.2.2]
    have : r' ^ (2 * γ) = r' ^ 2 * (r' ^ (2 * γ - 3/2) * r' ^ (-(1/2) : ℝ)) := by
      rw [← Real.rpow_add h, ← Real.rpow_natCast, ← Real.rpow_add h]
      congr 1; push_cast; ring
    rw [this]; ring

end radial

section angular

variable (hF : Scaled γ f F) (hr : 0 < r) (hf : HasStDeriv f d θ)
include hF hr hf

theorem ddθ_v_r : ddθ (configOf F).u.r r θ = 1 / Real.sqrt r * d.v_r := by
  simp only [ddθ, configOf, hF.val hr]
  exact (hf.v_r.const_mul _).deriv

theorem ddθ_v_φ : ddθ (configOf F).u.φ r θ = 1 / Real.sqrt r * d.v_φ := by
  simp only [ddθ, configOf, hF.val hr]
  exact (hf.v_φ.const_mul _).deriv

theorem ddθ_v_θ : ddθ (configOf F).u.θ r θ = 1 / Real.sqrt r * d.v_θ := by
  simp only [ddθ, configOf, hF.val hr]
  exact (hf.v_θ.const_mul _).deriv

theorem ddθ_p : ddθ (configOf F).p r θ = r ^ (2 * γ - 3/2) * d.ρ / r := by
  simp only [ddθ, configOf, hF.val hr]
  exact ((hf.ρ.const_mul _).div_const _).deriv

theorem ddθ_B_r : ddθ (configOf F).B.r r θ = r ^ (γ - 5/4) * d.B_r := by
  simp only [ddθ, configOf, hF.val hr]
  exact (hf.B_r.const_mul _).deriv

theorem ddθ_cos_B_φ : ddθ (fun r θ => Real.cos θ * (configOf F).B.φ r θ) r θ =
    r ^ (γ - 5/4) * (-Real.sin θ * (f θ).B_φ + Real.cos θ * d.B_φ) := by
  simp only [ddθ, configOf, hF.val hr]
  rw [((Real.hasDerivAt_cos θ).fun_mul (hf.B_φ.const_mul _)).deriv]
  ring

theorem ddθ_cos_B_θ : ddθ (fun r θ => Real.cos θ * (configOf F).B.θ r θ) r θ =
    r ^ (γ - 5/4) * (-Real.sin θ * (f θ).B_θ + Real.cos θ * d.B_θ) := by
  simp only [ddθ, configOf, hF.val hr]
  rw [((Real.hasDerivAt_cos θ).fun_mul (hf.B_θ.const_mul _)).deriv]
  ring

theorem ddθ_mass : ddθ (fun r θ => Real.cos θ * ((F r θ).ρ * (F r θ).v_θ)) r θ =
    r ^ (2 * γ - 3/2) * (1 / Real.sqrt r) *
      (-Real.sin θ * ((f θ).ρ * (f θ).v_θ) +
        Real.cos θ * (d.ρ * (f θ).v_θ + (f θ).ρ * d.v_θ)) := by
  simp only [ddθ, hF.val hr]
  rw [((Real.hasDerivAt_cos θ).fun_mul
    ((hf.ρ.const_mul _).fun_mul (hf.v_θ.const_mul _))).deriv]
  ring

end angular

/-- The curl of the r-scaled field. -/
theorem curl_configOf (hF : Scaled γ f F) (hr : 0 < r) (hf : HasStDeriv f d θ)
    (hc : Real.cos θ ≠ 0) :
    (curl (configOf F).B).at r θ =
      ⟨r ^ (γ - 5/4) / r * ((f θ).B_φ * Real.tan θ - d.B_φ),
       r ^ (γ - 5/4) / r * (d.B_r + (f θ).B_θ * (1/4 - γ)),
       r ^ (γ - 5/4) / r * (-(f θ).B_φ * (1/4 - γ))⟩ := by
  simp only [VField.at, curl, ddθ_cos_B_φ hF hr hf, ddθ_B_r hF hr hf,
    ddr_r_B_θ hF hr, ddr_r_B_φ hF hr, Real.tan_eq_sin_div_cos, hF.val hr]
  congr 1
  · field_simp; ring
  · field_simp; ring
  · field_simp; ring

end DiscSolver

namespace DiscSolver

open Spec

/-- Ohm's law is homogeneous: scaling `u` by `1/w`, `B` by `q`, `J` by `q/w²`
and the diffusivities by `w` scales `E` by `q/w`. -/
theorem ohm_scale {q w : ℝ} (hq : 0 < q) (hw : 0 < w) (u B J : V3)
    (η_O η_A η_H : ℝ) :
    ohm ⟨1 / w * u.r, 1 / w * u.φ, 1 / w * u.θ⟩ ⟨q * B.r, q * B.φ, q * B.θ⟩
      ⟨q / w ^ 2 * J.r, q / w ^ 2 * J.φ, q / w ^ 2 * J.θ⟩
      (w * η_O) (w * η_A) (w * η_H) =
    ⟨q / w * (ohm u B J η_O η_A η_H).r, q / w * (ohm u B J η_O η_A η_H).φ,
     q / w * (ohm u B J η_O η_A η_H).θ⟩ := by
  have hu : V3.unit ⟨q * B.r, q * B.φ, q * B.θ⟩ = V3.unit B := by
    have h1 : Real.sqrt (V3.sq ⟨q * B.r, q * B.φ, q * B.θ⟩) =
        q * Real.sqrt (V3.sq B) := by
      have : V3.sq ⟨q * B.r, q * B.φ, q * B.θ⟩ = q ^ 2 * V3.sq B := by
        simp only [V3.sq]; ring
      rw [this, Real.sqrt_mul (sq_nonneg q), Real.sqrt_sq hq.le]
    simp only [V3.unit, h1]
    congr 1 <;> rw [mul_div_mul_left _ _ hq.ne']
  simp only [ohm, hu, V3.cross]
  generalize V3.unit B = b
  congr 1 <;> field_simp

/-- The code's electric-field functions are Ohm's law. -/
theorem ohm_eq (u B J : V3) (η_O η_A η_H : ℝ) (hB : B.sq ≠ 0) :
    ohm u B J η_O η_A η_H =
      ⟨E_r_func (v_θ := u.θ) (v_φ := u.φ) (B_θ := B.θ) (B_φ := B.φ)
        (J_r := J.r) (J_θ := J.θ) (J_φ := J.φ) (η_O := η_O) (η_A := η_A)
        (η_H := η_H) (b_r := B.unit.r) (b_θ := B.unit.θ) (b_φ := B.unit.φ),
       E_φ_func (v_r := u.r) (v_θ := u.θ) (B_r := B.r) (B_θ := B.θ)
        (J_r := J.r) (J_θ := J.θ) (J_φ := J.φ) (η_O := η_O) (η_A := η_A)
        (η_H := η_H) (b_r := B.unit.r) (b_θ := B.unit.θ) (b_φ := B.unit.φ),
       E_θ_func (v_r := u.r) (v_φ := u.φ) (B_r := B.r) (B_φ := B.φ)
        (J_r := J.r) (J_θ := J.θ) (J_φ := J.φ) (η_O := η_O) (η_A := η_A)
        (η_H := η_H) (b_r := B.unit.r) (b_θ := B.unit.θ) (b_φ := B.unit.φ)⟩ := by
  have h0 : 0 ≤ B.sq := by unfold V3.sq; positivity
  have hp : 0 < Real.sqrt B.sq := Real.sqrt_pos.2 (lt_of_le_of_ne h0 (Ne.symm hB))
  have hb : B.unit.r ^ 2 + B.unit.φ ^ 2 + B.unit.θ ^ 2 = 1 := by
    have := Real.sq_sqrt h0
    simp only [V3.unit]
    field_simp
    rw [this]; simp only [V3.sq]
  simp only [ohm, V3.cross, E_r_func, E_φ_func, E_θ_func]
  generalize B.unit = b at *
  congr 1
  · linear_combination (η_A * J.r) * hb
  · linear_combination (η_A * J.φ) * hb
  · linear_combination (η_A * J.θ) * hb

end DiscSolver
