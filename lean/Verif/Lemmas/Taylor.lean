import Verif.Lemmas.Curve
import Verif.Model.Taylor

/-!
Helper lemmas: orders of vanishing at the midplane.
-/

namespace DiscSolver

open Filter Topology

theorem tendsto_tan_div : Tendsto (fun t : ℝ => Real.tan t / t) (𝓝[≠] 0) (𝓝 1) := by
  have h := Real.hasDerivAt_tan (x := 0) (by simp)
  rw [hasDerivAt_iff_tendsto_slope] at h
  simp only [Real.cos_zero, one_pow, div_one] at h
  refine h.congr fun t => ?_
  simp [slope_def_field]

/-- If `g` is `tⁿ` times a continuous expression in `t` and `tan t / t`, then
`g t / tⁿ` tends to the value of that expression at `(0, 1)`. -/
theorem tendsto_order {g : ℝ → ℝ} {n : ℕ} (Q : ℝ → ℝ → ℝ) {c : ℝ}
    (hQ : ContinuousAt (fun p : ℝ × ℝ => Q p.1 p.2) (0, 1))
    (h : ∀ t τ, t ≠ 0 → Real.tan t = t * τ → g t = t ^ n * Q t τ)
    (hc : Q 0 1 = c) :
    Tendsto (fun t => g t / t ^ n) (𝓝[≠] 0) (𝓝 c) := by
  have hu : Tendsto (fun t : ℝ => (t, Real.tan t / t)) (𝓝[≠] 0) (𝓝 (0, 1)) :=
    (tendsto_id'.2 nhdsWithin_le_nhds).prodMk_nhds tendsto_tan_div
  have hQ' := hQ.tendsto.comp hu
  simp only [hc] at hQ'
  refine hQ'.congr' ?_
  filter_upwards [self_mem_nhdsWithin] with t ht
  have ht' : t ≠ 0 := ht
  have e : Real.tan t = t * (Real.tan t / t) := by field_simp
  rw [h t _ ht' e]
  simp only [Function.comp]
  rw [mul_div_cancel_left₀ _ (pow_ne_zero n ht')]

/-- The derivative of a Taylor step with respect to the angle. -/
noncomputable def taylorStepD (d1 d2 d3 : St) (t : ℝ) : St :=
  d1.add ((d2.add (d3.smul (t / 2))).smul t)

theorem hasStDeriv_taylorStep (s d1 d2 d3 : St) (t : ℝ) :
    HasStDeriv (taylorStep s d1 d2 d3) (taylorStepD d1 d2 d3 t) t := by
  have key : ∀ a b c e : ℝ, HasDerivAt
      (fun u : ℝ => a + (b + (c + e * (u / 3)) * (u / 2)) * u)
      (b + (c + e * (t / 2)) * t) t := by
    intro a b c e
    have h := hasDerivAt_id t
    have h3 := ((h.div_const 3).const_mul e).const_add c
    have h4 := ((h3.fun_mul (h.div_const 2)).const_add b).fun_mul h
    refine (h4.const_add a).congr_deriv ?_
    simp only [id]
    ring
  constructor <;> exact key _ _ _ _

end DiscSolver
