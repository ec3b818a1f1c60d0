import Mathlib.Analysis.Calculus.Deriv.Mul
import Mathlib.Analysis.Calculus.Deriv.Comp
import Mathlib.Analysis.Calculus.Deriv.Shift
import Verif.Spec.Units

/-!
Helper lemmas: a configuration in other units.
-/

namespace DiscSolver.Spec

/-- A scalar field in other units: lengths in units of `L`, values of `k`. -/
noncomputable def rescaleF (L k : ℝ) (f : Field) : Field := fun r θ => k * f (r / L) θ

/-- A vector field in other units. -/
noncomputable def rescaleV (L k : ℝ) (A : VField) : VField :=
  ⟨rescaleF L k A.r, rescaleF L k A.φ, rescaleF L k A.θ⟩

/-- A configuration in other units: of length `L`, velocity `V`, density `D`,
field `b` and diffusivity `H`. -/
noncomputable def rescale (L V D b H : ℝ) (c : Config) : Config where
  u := rescaleV L V c.u
  B := rescaleV L b c.B
  ρ := rescaleF L D c.ρ
  p := rescaleF L (D * V ^ 2) c.p
  η_O := rescaleF L H c.η_O
  η_A := rescaleF L H c.η_A
  η_H := rescaleF L H c.η_H

theorem ddr_rescaleF (L k : ℝ) (f : Field) (r θ : ℝ) :
    ddr (rescaleF L k f) r θ = k / L * ddr f (r / L) θ := by
  unfold ddr rescaleF
  rw [deriv_const_mul_field]
  have h := deriv_comp_mul_left (c := L⁻¹) (f := fun r' => f r' θ) (x := r)
  simp only [inv_mul_eq_div, smul_eq_mul] at h
  rw [h]; ring

theorem ddθ_rescaleF (L k : ℝ) (f : Field) (r θ : ℝ) :
    ddθ (rescaleF L k f) r θ = k * ddθ f (r / L) θ := by
  unfold ddθ rescaleF
  rw [deriv_const_mul_field]

theorem divergence_rescale {L : ℝ} (hL : L ≠ 0) (k : ℝ) (A : VField) (r θ : ℝ) :
    divergence (rescaleV L k A) r θ = k / L * divergence A (r / L) θ := by
  have e1 : (fun r θ => r ^ 2 * (rescaleV L k A).r r θ : Field) =
      rescaleF L (k * L ^ 2) (fun r θ => r ^ 2 * A.r r θ) := by
    funext r θ
    simp only [rescaleV, rescaleF]
    field_simp
  have e2 : (fun r θ => Real.cos θ * (rescaleV L k A).θ r θ : Field) =
      rescaleF L k (fun r θ => Real.cos θ * A.θ r θ) := by
    funext r θ
    simp only [rescaleV, rescaleF]
    ring
  unfold divergence
  rw [e1, e2, ddr_rescaleF, ddθ_rescaleF]
  by_cases hr : r = 0
  · subst hr; simp
  by_cases hc : Real.cos θ = 0
  · rw [hc]; simp; field_simp
  field_simp

theorem curl_rescale {L : ℝ} (hL : L ≠ 0) (k : ℝ) (A : VField) (r θ : ℝ) :
    (curl (rescaleV L k A)).at r θ =
      ⟨k / L * (curl A).r (r / L) θ, k / L * (curl A).φ (r / L) θ,
        k / L * (curl A).θ (r / L) θ⟩ := by
  have e1 : (fun r θ => Real.cos θ * (rescaleV L k A).φ r θ : Field) =
      rescaleF L k (fun r θ => Real.cos θ * A.φ r θ) := by
    funext r θ
    simp only [rescaleV, rescaleF]
    ring
  have e2 : (fun r θ => r * (rescaleV L k A).θ r θ : Field) =
      rescaleF L (k * L) (fun r θ => r * A.θ r θ) := by
    funext r θ
    simp only [rescaleV, rescaleF]
    field_simp
  have e3 : (fun r θ => r * (rescaleV L k A).φ r θ : Field) =
      rescaleF L (k * L) (fun r θ => r * A.φ r θ) := by
    funext r θ
    simp only [rescaleV, rescaleF]
    field_simp
  simp only [curl, VField.at, e1, e2, e3, ddr_rescaleF, ddθ_rescaleF]
  simp only [rescaleV, ddθ_rescaleF]
  by_cases hr : r = 0
  · subst hr; simp
  by_cases hc : Real.cos θ = 0
  · rw [hc]; simp only [V3.mk.injEq, mul_zero, div_zero, zero_mul, neg_zero, true_and]
    refine ⟨?_, ?_⟩ <;> field_simp
  simp only [V3.mk.injEq]
  refine ⟨?_, ?_, ?_⟩ <;> field_simp

theorem convective_rescale {L : ℝ} (hL : L ≠ 0) (k : ℝ) (u : VField) (r θ : ℝ) :
    convective (rescaleV L k u) r θ =
      ⟨k ^ 2 / L * (convective u (r / L) θ).r,
       k ^ 2 / L * (convective u (r / L) θ).φ,
       k ^ 2 / L * (convective u (r / L) θ).θ⟩ := by
  simp only [convective, rescaleV, ddr_rescaleF, ddθ_rescaleF]
  simp only [rescaleF, V3.mk.injEq]
  by_cases hr : r = 0
  · subst hr
    simp only [div_zero, zero_div, zero_mul, add_zero, sub_zero]
    refine ⟨?_, ?_, ?_⟩ <;> field_simp
  refine ⟨?_, ?_, ?_⟩ <;> field_simp

variable {L V D b H : ℝ} {c : Config} {r θ : ℝ}

theorem DivFree.rescale (hL : L ≠ 0) (h : DivFree c (r / L) θ) :
    DivFree (Spec.rescale L V D b H c) r θ := by
  simp only [DivFree, Spec.rescale] at *
  rw [divergence_rescale hL, h, mul_zero]

theorem MassConserved.rescale (hL : L ≠ 0) (h : MassConserved c (r / L) θ) :
    MassConserved (Spec.rescale L V D b H c) r θ := by
  simp only [MassConserved, Spec.rescale] at *
  have e := divergence_rescale hL (D * V)
    ⟨fun r θ => c.ρ r θ * c.u.r r θ, fun r θ => c.ρ r θ * c.u.φ r θ,
      fun r θ => c.ρ r θ * c.u.θ r θ⟩ r θ
  rw [h, mul_zero] at e
  rw [← e]
  congr 1
  simp only [rescaleV, rescaleF, VField.mk.injEq]
  refine ⟨?_, ?_, ?_⟩ <;> · funext r θ; simp only [rescaleF]; ring

theorem MomentumR.rescale {GM a : ℝ} (hL : L ≠ 0) (hD : D ≠ 0) (hb : b ≠ 0)
    (h : MomentumR GM a c (r / L) θ) :
    MomentumR (GM * V ^ 2 * L) (a * V ^ 2 * D / b ^ 2) (Spec.rescale L V D b H c) r θ := by
  simp only [MomentumR, Spec.rescale] at *
  rw [convective_rescale hL, curl_rescale hL, ddr_rescaleF]
  simp only [V3.cross, VField.at] at *
  rw [h]
  simp only [rescaleV, rescaleF]
  by_cases hρ : c.ρ (r / L) θ = 0
  · rw [hρ]
    by_cases hr : r = 0
    · subst hr; simp
    · simp; field_simp
  by_cases hr : r = 0
  · subst hr; simp only [zero_div] at *; field_simp; simp
  field_simp

theorem MomentumΦ.rescale {a : ℝ} (hL : L ≠ 0) (hD : D ≠ 0) (hb : b ≠ 0)
    (h : MomentumΦ a c (r / L) θ) :
    MomentumΦ (a * V ^ 2 * D / b ^ 2) (Spec.rescale L V D b H c) r θ := by
  simp only [MomentumΦ, Spec.rescale] at *
  rw [convective_rescale hL, curl_rescale hL]
  simp only [V3.cross, VField.at] at *
  rw [h]
  simp only [rescaleV, rescaleF]
  by_cases hρ : c.ρ (r / L) θ = 0
  · rw [hρ]; simp
  field_simp

theorem MomentumΘ.rescale {a : ℝ} (hL : L ≠ 0) (hD : D ≠ 0) (hb : b ≠ 0)
    (h : MomentumΘ a c (r / L) θ) :
    MomentumΘ (a * V ^ 2 * D / b ^ 2) (Spec.rescale L V D b H c) r θ := by
  simp only [MomentumΘ, Spec.rescale] at *
  rw [convective_rescale hL, curl_rescale hL, ddθ_rescaleF]
  simp only [V3.cross, VField.at] at *
  rw [h]
  simp only [rescaleV, rescaleF]
  by_cases hρ : c.ρ (r / L) θ = 0
  · rw [hρ]; simp
  by_cases hr : r = 0
  · subst hr; simp only [zero_div] at *; field_simp; simp
  field_simp

end DiscSolver.Spec
