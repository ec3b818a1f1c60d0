import Verif.Lemmas.Taylor
import Verif.Lemmas.TaylorCoeffs
import Verif.Props.Midplane

/-!
# C17–C19: the Taylor expansion used to leave the midplane

The curve `t ↦ taylor_values s γ a η E t` is what `taylor_jump` computes as a
function of the stop angle.  A governing equation is satisfied to order `n` if
its residual along that curve, divided by `tⁿ`, tends to zero at the midplane.
-/

namespace DiscSolver

open Spec Filter Topology

/-- A reflection-symmetric midplane state, as `define_conditions` produces. -/
structure AtMidplane (s : St) : Prop where
  B_r : s.B_r = 0
  B_φ : s.B_φ = 0
  B_θ : s.B_θ = 1
  v_θ : s.v_θ = 0
  ρ : s.ρ = 1

theorem atMidplane_of_conditions (inp : NumInput) (c : Conditions)
    (h : define_conditions inp = some c) : AtMidplane c.init_con := by
  obtain ⟨h1, h2, h3, h4, h5, -⟩ := define_conditions_shape inp c h
  exact ⟨h4, h5, h3, h1, h2⟩

/-- The flow along the Taylor curve at angle `t`. -/
noncomputable def taylorFlow (s : St) (γ a : ℝ) (η E : Bool) (t : ℝ) : Flow :=
  flowOf t (taylor_values s γ a η E t)
    (taylorStepD (get_taylor_first_order s γ a)
      (get_taylor_second_order s γ a η E) (get_taylor_third_order s γ a η E) t)

/-- `taylorFlow` carries the derivatives of the Taylor curve. -/
theorem taylorFlow_deriv (s : St) (γ a : ℝ) (η E : Bool) (t : ℝ) :
    HasStDeriv (taylor_values s γ a η E)
      (taylorStepD (get_taylor_first_order s γ a)
      (get_taylor_second_order s γ a η E) (get_taylor_third_order s γ a η E) t) t :=
  hasStDeriv_taylorStep _ _ _ _ t

/-- The residual `g` vanishes to order `n` at the midplane. -/
def VanishesToOrder (n : ℕ) (g : ℝ → ℝ) : Prop :=
  Tendsto (fun t => g t / t ^ n) (𝓝[≠] 0) (𝓝 0)

/-- C17. The first-order coefficients are the only ones for which continuity,
azimuthal momentum and polar induction hold at the midplane; every other
first-order coefficient is zero. -/
theorem taylor_first_order_unique (s : St) (γ a : ℝ) (ha : a ≠ 0)
    (hη : s.η_O + s.η_A ≠ 0) (B_r' B_φ' v_θ' : ℝ) :
    (let f := midFlow s.v_r s.v_φ s.η_O s.η_A s.η_H B_r' B_φ' v_θ'
     Continuity (5/4 - γ) f ∧ AzimuthalMomentum (5/4 - γ) a f ∧
       PolarInduction (5/4 - γ) 0 0 1 f) ↔
    get_taylor_first_order s γ a =
      { St.zero with B_r := B_r', B_φ := B_φ', v_θ := v_θ' } := by
  simp only [Continuity, continuityRes, AzimuthalMomentum, azimuthalRes,
    PolarInduction, polarInductionRes, midFlow, Real.tan_zero,
    get_taylor_first_order, deriv_B_r_midplane_func, B_φ_prime_boundary_func,
    St.zero, St.mk.injEq, and_true, true_and]
  constructor
  · rintro ⟨h1, h2, h3⟩
    have e2 : B_φ' = s.v_φ * s.v_r / (2 * a) := by
      field_simp; linear_combination (-2) * h2
    refine ⟨?_, e2.symm, by linear_combination -h1⟩
    rw [← e2]
    field_simp
    linear_combination 4 * h3
  · rintro ⟨h1, h2, h3⟩
    rw [← h1, ← h2, ← h3]
    refine ⟨by ring, by field_simp; ring, by field_simp; ring⟩

example := taylor_first_order_unique witS (1/10) 1 (by norm_num)
  (by norm_num [witS]) 1 1 1

section second

variable (s : St) (γ a : ℝ) (η E : Bool)

/-- C18, the part that holds: the solenoidal condition is satisfied to first
order, so `B_θ''` is right. -/
theorem taylor_solenoid_partial (hs : AtMidplane s) :
    VanishesToOrder 1 (fun t => solenoidRes (5/4 - γ) (taylorFlow s γ a η E t)) := by
  obtain ⟨h1, h2, h3, h4, h5⟩ := hs
  have hb : (get_taylor_second_order s γ a η E).B_θ =
      1 - (γ + 3/4) * (get_taylor_first_order s γ a).B_r := rfl
  have hb1 : (get_taylor_first_order s γ a).B_θ = 0 := rfl
  have hb2 : (get_taylor_second_order s γ a η E).B_r = 0 := rfl
  have hb3 : (get_taylor_third_order s γ a η E).B_θ = 0 := rfl
  simp only [solenoidRes, taylorFlow, flowOf, taylor_values, taylorStep,
    taylorStepD, St.add, St.smul, h1, h3, hb, hb1, hb2, hb3]
  generalize (get_taylor_first_order s γ a).B_r = b
  generalize (get_taylor_third_order s γ a η E).B_r = b3
  refine tendsto_order (n := 1)
    (fun t τ => (1 - (γ + 3/4) * b) - ((5/4 - γ - 2) * (b + b3 * t ^ 2 / 6) +
      (1 + (1 - (γ + 3/4) * b) * t ^ 2 / 2) * τ)) ?_ ?_ ?_
  · fun_prop
  · intro t τ _ ht
    rw [ht]; ring
  · ring

/-- C18, exact error in the density: the residual of polar momentum along the
Taylor curve is `-γ (1 - 4γ) v_r² / 2 · t` to leading order, so polar momentum is
not satisfied to first order unless `γ (1 - 4γ) v_r = 0`. -/
theorem taylor_polar_error (hs : AtMidplane s) :
    Tendsto (fun t => polarRes (5/4 - γ) a (taylorFlow s γ a η E t) / t ^ 1)
      (𝓝[≠] 0) (𝓝 (-(γ * (1 - 4 * γ) * s.v_r ^ 2 / 2))) := by
  obtain ⟨h1, h2, h3, h4, h5⟩ := hs
  have e1 : (get_taylor_second_order s γ a η E).ρ = - (s.v_φ ^ 2 + a * (
    (get_taylor_first_order s γ a).B_r * (1/4 - γ +
      (get_taylor_first_order s γ a).B_r) +
      (get_taylor_first_order s γ a).B_φ ^ 2
    ) - s.v_r ^ 2 * γ * (1 - 4 * γ) / 2) := rfl
  have e2 : (get_taylor_first_order s γ a).v_θ = -2 * γ * s.v_r := rfl
  have z1 : (get_taylor_second_order s γ a η E).B_r = 0 := rfl
  have z2 : (get_taylor_second_order s γ a η E).B_φ = 0 := rfl
  have z3 : (get_taylor_second_order s γ a η E).v_θ = 0 := rfl
  have z4 : (get_taylor_first_order s γ a).ρ = 0 := rfl
  have z5 : (get_taylor_first_order s γ a).v_r = 0 := rfl
  have z6 : (get_taylor_first_order s γ a).v_φ = 0 := rfl
  have z7 : (get_taylor_first_order s γ a).B_θ = 0 := rfl
  have z8 : (get_taylor_third_order s γ a η E).ρ = 0 := rfl
  have z9 : (get_taylor_third_order s γ a η E).v_r = 0 := rfl
  have z10 : (get_taylor_third_order s γ a η E).v_φ = 0 := rfl
  have z11 : (get_taylor_third_order s γ a η E).B_θ = 0 := rfl
  simp only [polarRes, taylorFlow, flowOf, taylor_values, taylorStep,
    taylorStepD, St.add, St.smul, h1, h2, h3, h4, h5, e1, e2, z1, z2, z3, z4, z5,
    z6, z7, z8, z9, z10, z11]
  generalize (get_taylor_first_order s γ a).B_r = b
  generalize (get_taylor_first_order s γ a).B_φ = c
  generalize (get_taylor_third_order s γ a η E).B_r = b3
  generalize (get_taylor_third_order s γ a η E).B_φ = c3
  generalize (get_taylor_third_order s γ a η E).v_θ = v3
  generalize (get_taylor_second_order s γ a η E).v_r = vr2
  generalize (get_taylor_second_order s γ a η E).v_φ = vφ2
  generalize (get_taylor_second_order s γ a η E).B_θ = bθ2
  generalize hρ2 : -(s.v_φ ^ 2 + a * (b * (1/4 - γ + b) + c ^ 2) -
    s.v_r ^ 2 * γ * (1 - 4 * γ) / 2) = ρ2
  refine tendsto_order (n := 1)
    (fun t τ =>
      (s.v_r + vr2 * t ^ 2 / 2) * (-2 * γ * s.v_r + v3 * t ^ 2 / 6) / 2 +
      (-2 * γ * s.v_r + v3 * t ^ 2 / 6) * (-2 * γ * s.v_r + v3 * t ^ 2 / 2) +
      τ * (s.v_φ + vφ2 * t ^ 2 / 2) ^ 2 + ρ2 / (1 + ρ2 * t ^ 2 / 2) +
      a / (1 + ρ2 * t ^ 2 / 2) * (
        (5/4 - γ - 1) * (1 + bθ2 * t ^ 2 / 2) * (b + b3 * t ^ 2 / 6) +
        (b + b3 * t ^ 2 / 6) * (b + b3 * t ^ 2 / 2) +
        (c + c3 * t ^ 2 / 6) * (c + c3 * t ^ 2 / 2) -
        t ^ 2 * (c + c3 * t ^ 2 / 6) ^ 2 * τ)) ?_ ?_ ?_
  · fun_prop (disch := norm_num)
  · intro t τ _ ht
    rw [ht]
    have : 1 + (0 + (ρ2 + 0 * (t / 3)) * (t / 2)) * t = 1 + ρ2 * t ^ 2 / 2 := by
      ring
    rw [this]; ring
  · rw [← hρ2]; ring

/-- C18 for the density, exactly when it holds. -/
theorem taylor_polar_iff (hs : AtMidplane s) :
    VanishesToOrder 1 (fun t => polarRes (5/4 - γ) a (taylorFlow s γ a η E t)) ↔
      γ * (1 - 4 * γ) * s.v_r = 0 := by
  have h := taylor_polar_error s γ a η E hs
  constructor
  · intro h'
    have e := tendsto_nhds_unique h h'
    have : (γ * (1 - 4 * γ) * s.v_r) * s.v_r = 0 := by linear_combination (-2) * e
    rcases mul_eq_zero.1 this with h0 | h0
    · exact h0
    · rw [h0, mul_zero]
  · intro h0
    have : -(γ * (1 - 4 * γ) * s.v_r ^ 2 / 2) = 0 := by
      linear_combination (-(s.v_r / 2)) * h0
    rw [this] at h
    exact h

/-- C18, the part that holds: with `η_derivs` each diffusivity follows its
midplane value times `|B|²/ρ` to second order along the Taylor curve. -/
theorem taylor_diffusivity_partial (hs : AtMidplane s) :
    VanishesToOrder 2 (fun t => (taylor_values s γ a true E t).η_O -
      s.η_O * (((taylor_values s γ a true E t).B_r ^ 2 +
        (taylor_values s γ a true E t).B_φ ^ 2 +
        (taylor_values s γ a true E t).B_θ ^ 2) /
        (taylor_values s γ a true E t).ρ)) ∧
    VanishesToOrder 2 (fun t => (taylor_values s γ a true E t).η_A -
      s.η_A * (((taylor_values s γ a true E t).B_r ^ 2 +
        (taylor_values s γ a true E t).B_φ ^ 2 +
        (taylor_values s γ a true E t).B_θ ^ 2) /
        (taylor_values s γ a true E t).ρ)) ∧
    VanishesToOrder 2 (fun t => (taylor_values s γ a true E t).η_H -
      s.η_H * (((taylor_values s γ a true E t).B_r ^ 2 +
        (taylor_values s γ a true E t).B_φ ^ 2 +
        (taylor_values s γ a true E t).B_θ ^ 2) /
        (taylor_values s γ a true E t).ρ)) := by
  obtain ⟨h1, h2, h3, h4, h5⟩ := hs
  have z1 : (get_taylor_second_order s γ a true E).B_r = 0 := rfl
  have z2 : (get_taylor_second_order s γ a true E).B_φ = 0 := rfl
  have z4 : (get_taylor_first_order s γ a).ρ = 0 := rfl
  have z7 : (get_taylor_first_order s γ a).B_θ = 0 := rfl
  have z8 : (get_taylor_third_order s γ a true E).ρ = 0 := rfl
  have z11 : (get_taylor_third_order s γ a true E).B_θ = 0 := rfl
  have key : ∀ e0 e2 : ℝ, e2 = (2 * ((get_taylor_first_order s γ a).B_r ^ 2 +
      (get_taylor_first_order s γ a).B_φ ^ 2 +
      (get_taylor_second_order s γ a true E).B_θ) -
      (get_taylor_second_order s γ a true E).ρ) * e0 →
      VanishesToOrder 2 (fun t => (e0 + (0 + (e2 + 0 * (t / 3)) * (t / 2)) * t) -
      e0 * (((taylor_values s γ a true E t).B_r ^ 2 +
        (taylor_values s γ a true E t).B_φ ^ 2 +
        (taylor_values s γ a true E t).B_θ ^ 2) /
        (taylor_values s γ a true E t).ρ)) := by
    intro e0 e2 he
    simp only [taylor_values, taylorStep, St.add, St.smul, h1, h2, h3, h5, z1, z2,
      z4, z7, z8, z11]
    revert he
    generalize (get_taylor_first_order s γ a).B_r = b
    generalize (get_taylor_first_order s γ a).B_φ = c
    generalize (get_taylor_third_order s γ a true E).B_r = b3
    generalize (get_taylor_third_order s γ a true E).B_φ = c3
    generalize (get_taylor_second_order s γ a true E).B_θ = q
    generalize (get_taylor_second_order s γ a true E).ρ = m
    intro he
    -- the quotient differs from its numerator-cleared form only near zeros of ρ
    have hm : ∀ᶠ t : ℝ in 𝓝[≠] 0, 1 + m * t ^ 2 / 2 ≠ 0 := by
      have : ContinuousAt (fun t : ℝ => 1 + m * t ^ 2 / 2) 0 := by fun_prop
      exact nhdsWithin_le_nhds (this.eventually_ne (by norm_num))
    have hlim := tendsto_order (n := 2)
      (g := fun t => t ^ 2 * ((e2 / 2 - e0 * ((b + b3 * t ^ 2 / 6) ^ 2 +
        (c + c3 * t ^ 2 / 6) ^ 2 + q + q ^ 2 * t ^ 2 / 4 - m / 2) /
        (1 + m * t ^ 2 / 2))))
      (fun t _ => (e2 / 2 - e0 * ((b + b3 * t ^ 2 / 6) ^ 2 +
        (c + c3 * t ^ 2 / 6) ^ 2 + q + q ^ 2 * t ^ 2 / 4 - m / 2) /
        (1 + m * t ^ 2 / 2))) (c := 0)
      (by fun_prop (disch := norm_num)) (fun t τ _ _ => by ring)
      (by rw [he]; ring)
    refine hlim.congr' ?_
    filter_upwards [hm, self_mem_nhdsWithin] with t ht ht0
    have ht0' : t ≠ 0 := ht0
    have e : 1 + (0 + (m + 0 * (t / 3)) * (t / 2)) * t = 1 + m * t ^ 2 / 2 := by ring
    rw [e]
    have ht' : 2 + t ^ 2 * m ≠ 0 := fun h => ht (by linear_combination h / 2)
    field_simp
    ring
  refine ⟨?_, ?_, ?_⟩
  · exact key s.η_O _ rfl
  · exact key s.η_A _ rfl
  · exact key s.η_H _ rfl

/-- C19, exact error: the residual of continuity along the Taylor curve is
`(c_v - d_v) / 2 · t²` to leading order, where `c_v` is the coefficient that
`taylor_series` computed for `v_φ` and `d_v` the one it computed for `v_θ`. -/
theorem taylor_continuity_error (hs : AtMidplane s) (hv : s.v_r ≠ 0) :
    Tendsto (fun t => continuityRes (5/4 - γ) (taylorFlow s γ a η E t) / t ^ 2)
      (𝓝[≠] 0) (𝓝 (((taylor_series γ a s η E).v_φ -
        (taylor_series γ a s η E).v_θ) / 2)) := by
  obtain ⟨h1, h2, h3, h4, h5⟩ := hs
  have e2 : (get_taylor_first_order s γ a).v_θ = -2 * γ * s.v_r := rfl
  have e3 : (taylor_series γ a s η E).v_θ = 4 * γ * s.v_r * (
      (get_taylor_second_order s γ a η E).ρ - 1 -
      (get_taylor_second_order s γ a η E).v_r / (2 * s.v_r)) := rfl
  have e4 : (get_taylor_third_order s γ a η E).v_θ =
    (taylor_series γ a s η E).v_φ := rfl
  have z3 : (get_taylor_second_order s γ a η E).v_θ = 0 := rfl
  have z4 : (get_taylor_first_order s γ a).ρ = 0 := rfl
  have z5 : (get_taylor_first_order s γ a).v_r = 0 := rfl
  have z8 : (get_taylor_third_order s γ a η E).ρ = 0 := rfl
  have z9 : (get_taylor_third_order s γ a η E).v_r = 0 := rfl
  simp only [continuityRes, taylorFlow, flowOf, taylor_values, taylorStep,
    taylorStepD, St.add, St.smul, h4, h5, e2, z3, z4, z5, z8, z9, e3, e4]
  generalize (taylor_series γ a s η E).v_φ = v3
  generalize (get_taylor_second_order s γ a η E).v_r = vr2
  generalize (get_taylor_second_order s γ a η E).ρ = m
  have hm : ∀ᶠ t : ℝ in 𝓝[≠] 0, 1 + m * t ^ 2 / 2 ≠ 0 := by
    have : ContinuousAt (fun t : ℝ => 1 + m * t ^ 2 / 2) 0 := by fun_prop
    exact nhdsWithin_le_nhds (this.eventually_ne (by norm_num))
  have hlim := tendsto_order (n := 2)
    (g := fun t => 2 * γ * (vr2 * t ^ 2 / 2) + v3 * t ^ 2 / 2 +
      (-2 * γ * s.v_r + v3 * t ^ 2 / 6) * t / (1 + m * t ^ 2 / 2) *
        (m * t - (1 + m * t ^ 2 / 2) * Real.tan t))
    (fun t τ => γ * vr2 + v3 / 2 +
      (-2 * γ * s.v_r + v3 * t ^ 2 / 6) / (1 + m * t ^ 2 / 2) *
        (m - (1 + m * t ^ 2 / 2) * τ))
    (c := (v3 - 4 * γ * s.v_r * (m - 1 - vr2 / (2 * s.v_r))) / 2)
    (by fun_prop (disch := norm_num))
    (fun t τ _ h => by rw [h]; ring)
    (by norm_num; field_simp; ring)
  refine hlim.congr fun t => ?_
  have e : 1 + (0 + (m + 0 * (t / 3)) * (t / 2)) * t = 1 + m * t ^ 2 / 2 := by ring
  rw [e]
  ring

/-- C19 in full: continuity holds to second order along the Taylor curve, that is
the third-order coefficient of `v_θ` is the third derivative of `v_θ`. -/
def ThirdOrderRight (s : St) (γ a : ℝ) (η E : Bool) : Prop :=
  VanishesToOrder 2 (fun t => continuityRes (5/4 - γ) (taylorFlow s γ a η E t))

/-- C19, exactly when it holds. -/
theorem taylor_continuity_iff (hs : AtMidplane s) (hv : s.v_r ≠ 0) :
    ThirdOrderRight s γ a η E ↔
      (taylor_series γ a s η E).v_φ = (taylor_series γ a s η E).v_θ := by
  have h := taylor_continuity_error s γ a η E hs hv
  constructor
  · intro h'
    have e := tendsto_nhds_unique h h'
    linarith
  · intro h0
    rw [h0, sub_self, zero_div] at h
    exact h

/-- C18, the part that holds: radial momentum, if it holds at the midplane, is
satisfied to second order along the Taylor curve.  `tY6` is a denominator of the
code's formula; at a zero of it the code divides by zero. -/
theorem taylor_radial_partial (K : ℝ) (hs : AtMidplane s) (h6 : tY6 s γ a ≠ 0)
    (h0 : RadialMomentum (5/4 - γ) a K (taylorFlow s γ a η E 0)) :
    VanishesToOrder 2 (fun t =>
      radialRes (5/4 - γ) a K (taylorFlow s γ a η E t)) := by
  obtain ⟨h1, h2, h3, h4, h5⟩ := hs
  have rel := taylor_radial_rel s γ a η E h6
  have e2 : (get_taylor_first_order s γ a).v_θ = -2 * γ * s.v_r := rfl
  have z1 : (get_taylor_second_order s γ a η E).B_r = 0 := rfl
  have z2 : (get_taylor_second_order s γ a η E).B_φ = 0 := rfl
  have z3 : (get_taylor_second_order s γ a η E).v_θ = 0 := rfl
  have z4 : (get_taylor_first_order s γ a).ρ = 0 := rfl
  have z5 : (get_taylor_first_order s γ a).v_r = 0 := rfl
  have z6 : (get_taylor_first_order s γ a).v_φ = 0 := rfl
  have z7 : (get_taylor_first_order s γ a).B_θ = 0 := rfl
  have z8 : (get_taylor_third_order s γ a η E).ρ = 0 := rfl
  have z9 : (get_taylor_third_order s γ a η E).v_r = 0 := rfl
  have z10 : (get_taylor_third_order s γ a η E).v_φ = 0 := rfl
  have z11 : (get_taylor_third_order s γ a η E).B_θ = 0 := rfl
  simp only [RadialMomentum, radialRes, taylorFlow, flowOf, taylor_values, taylorStep,
    taylorStepD, St.add, St.smul, h2, h3, h4, h5, e2, z1, z2, z3, z4, z5,
    z6, z7, z8, z9, z10, z11] at h0 ⊢
  revert rel h0
  generalize (get_taylor_first_order s γ a).B_r = b
  generalize (get_taylor_first_order s γ a).B_φ = c
  generalize (get_taylor_third_order s γ a η E).B_r = b3
  generalize (get_taylor_third_order s γ a η E).B_φ = c3
  generalize (get_taylor_third_order s γ a η E).v_θ = v3
  generalize (get_taylor_second_order s γ a η E).v_r = vr2
  generalize (get_taylor_second_order s γ a η E).v_φ = vφ2
  generalize (get_taylor_second_order s γ a η E).B_θ = q
  generalize (get_taylor_second_order s γ a η E).ρ = m
  intro rel h0
  have hm : ∀ᶠ t : ℝ in 𝓝[≠] 0, 1 + m * t ^ 2 / 2 ≠ 0 := by
    have : ContinuousAt (fun t : ℝ => 1 + m * t ^ 2 / 2) 0 := by fun_prop
    exact nhdsWithin_le_nhds (this.eventually_ne (by norm_num))
  have hK : K = 1/2 * s.v_r ^ 2 + s.v_φ ^ 2 + 2 * (5/4 - γ) +
      a * (b + (5/4 - γ - 1)) := by
    norm_num at h0; linear_combination h0
  have hlim := tendsto_order (n := 2) (c := 0)
    (g := fun t => t ^ 2 * ((-2 * γ * s.v_r + v3 * t ^ 2 / 6) * vr2 -
      1/2 * (s.v_r * vr2 + vr2 ^ 2 * t ^ 2 / 4) -
      (-2 * γ * s.v_r + v3 * t ^ 2 / 6) ^ 2 -
      (s.v_φ * vφ2 + vφ2 ^ 2 * t ^ 2 / 4) -
      a / (1 + m * t ^ 2 / 2) * (
        b3 / 2 + q / 2 * (b + b3 * t ^ 2 / 2) + (5/4 - γ - 1) *
        (q + q ^ 2 * t ^ 2 / 4 + (c + c3 * t ^ 2 / 6) ^ 2) -
        m / 2 * (b + (5/4 - γ - 1)))))
    (fun t _ => ((-2 * γ * s.v_r + v3 * t ^ 2 / 6) * vr2 -
      1/2 * (s.v_r * vr2 + vr2 ^ 2 * t ^ 2 / 4) -
      (-2 * γ * s.v_r + v3 * t ^ 2 / 6) ^ 2 -
      (s.v_φ * vφ2 + vφ2 ^ 2 * t ^ 2 / 4) -
      a / (1 + m * t ^ 2 / 2) * (
        b3 / 2 + q / 2 * (b + b3 * t ^ 2 / 2) + (5/4 - γ - 1) *
        (q + q ^ 2 * t ^ 2 / 4 + (c + c3 * t ^ 2 / 6) ^ 2) -
        m / 2 * (b + (5/4 - γ - 1)))))
    (by fun_prop (disch := norm_num)) (fun t τ _ _ => rfl)
    (by norm_num; linear_combination rel)
  refine hlim.congr' ?_
  filter_upwards [hm] with t ht
  have e : 1 + (0 + (m + 0 * (t / 3)) * (t / 2)) * t = 1 + m * t ^ 2 / 2 := by ring
  rw [e, hK]
  congr 1
  have ht' : 2 + t ^ 2 * m ≠ 0 := fun h => ht (by linear_combination h / 2)
  field_simp
  ring

/-- C18, exact error in azimuthal momentum: its residual along the Taylor curve is
`(1/4 + γ) v_r v_φ · t²` to leading order. -/
theorem taylor_azimuthal_error (ha : a ≠ 0) (hs : AtMidplane s)
    (h5' : tY5 s γ a ≠ 0) :
    Tendsto (fun t => azimuthalRes (5/4 - γ) a (taylorFlow s γ a η E t) / t ^ 2)
      (𝓝[≠] 0) (𝓝 ((1/4 + γ) * s.v_r * s.v_φ)) := by
  obtain ⟨h1, h2, h3, h4, h5⟩ := hs
  have rel := taylor_azimuthal_rel s γ a η E h5'
  have e1 : (get_taylor_first_order s γ a).B_φ = s.v_φ * s.v_r / (2 * a) := rfl
  have e2 : (get_taylor_first_order s γ a).v_θ = -2 * γ * s.v_r := rfl
  have z1 : (get_taylor_second_order s γ a η E).B_r = 0 := rfl
  have z2 : (get_taylor_second_order s γ a η E).B_φ = 0 := rfl
  have z3 : (get_taylor_second_order s γ a η E).v_θ = 0 := rfl
  have z4 : (get_taylor_first_order s γ a).ρ = 0 := rfl
  have z5 : (get_taylor_first_order s γ a).v_r = 0 := rfl
  have z6 : (get_taylor_first_order s γ a).v_φ = 0 := rfl
  have z7 : (get_taylor_first_order s γ a).B_θ = 0 := rfl
  have z8 : (get_taylor_third_order s γ a η E).ρ = 0 := rfl
  have z9 : (get_taylor_third_order s γ a η E).v_r = 0 := rfl
  have z10 : (get_taylor_third_order s γ a η E).v_φ = 0 := rfl
  have z11 : (get_taylor_third_order s γ a η E).B_θ = 0 := rfl
  simp only [azimuthalRes, taylorFlow, flowOf, taylor_values, taylorStep,
    taylorStepD, St.add, St.smul, h1, h2, h3, h4, h5, e2, z1, z2, z3, z4, z5,
    z6, z7, z8, z9, z10, z11]
  revert rel e1
  generalize (get_taylor_first_order s γ a).B_r = b
  generalize (get_taylor_first_order s γ a).B_φ = c
  generalize (get_taylor_third_order s γ a η E).B_r = b3
  generalize (get_taylor_third_order s γ a η E).B_φ = c3
  generalize (get_taylor_third_order s γ a η E).v_θ = v3
  generalize (get_taylor_second_order s γ a η E).v_r = vr2
  generalize (get_taylor_second_order s γ a η E).v_φ = vφ2
  generalize (get_taylor_second_order s γ a η E).B_θ = q
  generalize (get_taylor_second_order s γ a η E).ρ = m
  intro rel e1
  have hm : ∀ᶠ t : ℝ in 𝓝[≠] 0, 1 + m * t ^ 2 / 2 ≠ 0 := by
    have : ContinuousAt (fun t : ℝ => 1 + m * t ^ 2 / 2) 0 := by fun_prop
    exact nhdsWithin_le_nhds (this.eventually_ne (by norm_num))
  have hac : s.v_φ * s.v_r = 2 * a * c := by rw [e1]; field_simp
  have hlim := tendsto_order (n := 2) (c := (1/4 + γ) * s.v_r * s.v_φ)
    (g := fun t => t ^ 2 * ((-2 * γ * s.v_r + v3 * t ^ 2 / 6) * vφ2 +
      1/2 * (s.v_r * vφ2 / 2 + s.v_φ * vr2 / 2 + vr2 * vφ2 * t ^ 2 / 4) -
      Real.tan t / t * (-2 * γ * s.v_r + v3 * t ^ 2 / 6) * (s.v_φ + vφ2 * t ^ 2 / 2) -
      a / (1 + m * t ^ 2 / 2) * (
        c3 / 2 + q / 2 * (c + c3 * t ^ 2 / 2) + (1 - (5/4 - γ)) *
        (b + b3 * t ^ 2 / 6) * (c + c3 * t ^ 2 / 6) -
        Real.tan t / t * (1 + q * t ^ 2 / 2) * (c + c3 * t ^ 2 / 6) - m / 2 * c)))
    (fun t τ => ((-2 * γ * s.v_r + v3 * t ^ 2 / 6) * vφ2 +
      1/2 * (s.v_r * vφ2 / 2 + s.v_φ * vr2 / 2 + vr2 * vφ2 * t ^ 2 / 4) -
      τ * (-2 * γ * s.v_r + v3 * t ^ 2 / 6) * (s.v_φ + vφ2 * t ^ 2 / 2) -
      a / (1 + m * t ^ 2 / 2) * (
        c3 / 2 + q / 2 * (c + c3 * t ^ 2 / 2) + (1 - (5/4 - γ)) *
        (b + b3 * t ^ 2 / 6) * (c + c3 * t ^ 2 / 6) -
        τ * (1 + q * t ^ 2 / 2) * (c + c3 * t ^ 2 / 6) - m / 2 * c)))
    (by fun_prop (disch := norm_num))
    (fun t τ ht h => by
      have : Real.tan t / t = τ := by rw [h]; field_simp
      rw [this])
    (by norm_num; linear_combination rel + (-1/4) * hac)
  refine hlim.congr' ?_
  filter_upwards [hm, self_mem_nhdsWithin] with t ht ht0
  have ht0' : t ≠ 0 := ht0
  have e : 1 + (0 + (m + 0 * (t / 3)) * (t / 2)) * t = 1 + m * t ^ 2 / 2 := by ring
  rw [e]
  congr 1
  have hτ : Real.tan t = t * (Real.tan t / t) := by field_simp
  have hu : a = a / (1 + m * t ^ 2 / 2) * (1 + m * t ^ 2 / 2) :=
    (div_mul_cancel₀ a ht).symm
  rw [hτ, mul_div_cancel_left₀ _ ht0']
  generalize Real.tan t / t = τ
  generalize a / (1 + m * t ^ 2 / 2) = u at hu ⊢
  linear_combination (-1/2) * hac - c * hu

/-- C18 for azimuthal momentum, exactly when it holds. -/
theorem taylor_azimuthal_iff (ha : a ≠ 0) (hs : AtMidplane s)
    (h5 : tY5 s γ a ≠ 0) :
    VanishesToOrder 2 (fun t => azimuthalRes (5/4 - γ) a (taylorFlow s γ a η E t)) ↔
      (1/4 + γ) * s.v_r * s.v_φ = 0 := by
  have h := taylor_azimuthal_error s γ a η E ha hs h5
  constructor
  · intro h'
    exact tendsto_nhds_unique h h'
  · intro h0
    rw [h0] at h
    exact h

/-- C18, the part that holds: in the `E_r` formulation the derivative of the slot
is `(γ - 3/4) E_θ` to first order, `E_θ` being Ohm's law's. -/
theorem taylor_E_r_partial (hs : AtMidplane s) :
    VanishesToOrder 1 (fun t =>
      (taylorStepD (get_taylor_first_order s γ a)
        (get_taylor_second_order s γ a η true)
        (get_taylor_third_order s γ a η true) t).X -
      (γ - 3/4) * (electricOf γ t (taylor_values s γ a η true t)
        (taylorStepD (get_taylor_first_order s γ a)
        (get_taylor_second_order s γ a η true)
        (get_taylor_third_order s γ a η true) t)).θ) := by
  obtain ⟨h1, h2, h3, h4, h5⟩ := hs
  have e1 : (get_taylor_second_order s γ a η true).X = - (3 / 4 - γ) * (
    (get_taylor_first_order s γ a).B_r * (s.v_φ - s.η_H * (1 / 4 - γ)) -
      (get_taylor_first_order s γ a).B_φ * (
        s.v_r + (s.η_O + s.η_A) * (1 / 4 - γ)) -
      s.η_H * ((get_taylor_first_order s γ a).B_φ ^ 2 +
        (get_taylor_first_order s γ a).B_r ^ 2)) := rfl
  have z1 : (get_taylor_second_order s γ a η true).B_r = 0 := rfl
  have z2 : (get_taylor_second_order s γ a η true).B_φ = 0 := rfl
  have z4 : (get_taylor_first_order s γ a).X = 0 := rfl
  have z5 : (get_taylor_first_order s γ a).v_r = 0 := rfl
  have z6 : (get_taylor_first_order s γ a).v_φ = 0 := rfl
  have z7 : (get_taylor_first_order s γ a).B_θ = 0 := rfl
  have z8 : (get_taylor_third_order s γ a η true).X = 0 := rfl
  have z9 : (get_taylor_third_order s γ a η true).v_r = 0 := rfl
  have z10 : (get_taylor_third_order s γ a η true).v_φ = 0 := rfl
  have z11 : (get_taylor_third_order s γ a η true).B_θ = 0 := rfl
  have z12 : (get_taylor_first_order s γ a).η_O = 0 := rfl
  have z13 : (get_taylor_first_order s γ a).η_A = 0 := rfl
  have z14 : (get_taylor_first_order s γ a).η_H = 0 := rfl
  have z15 : (get_taylor_third_order s γ a η true).η_O = 0 := rfl
  have z16 : (get_taylor_third_order s γ a η true).η_A = 0 := rfl
  have z17 : (get_taylor_third_order s γ a η true).η_H = 0 := rfl
  simp only [electricOf, currentOf, E_θ_func, J_r_func, J_θ_func, J_φ_func, B_mag,
    taylor_values, taylorStep, taylorStepD, St.add, St.smul, h1, h2, h3, e1, z1, z2,
    z4, z5, z6, z7, z8, z9, z10, z11, z12, z13, z14, z15, z16, z17]
  generalize (get_taylor_first_order s γ a).B_r = b
  generalize (get_taylor_first_order s γ a).B_φ = c
  generalize (get_taylor_third_order s γ a η true).B_r = b3
  generalize (get_taylor_third_order s γ a η true).B_φ = c3
  generalize (get_taylor_second_order s γ a η true).v_r = vr2
  generalize (get_taylor_second_order s γ a η true).v_φ = vφ2
  generalize (get_taylor_second_order s γ a η true).B_θ = q
  generalize (get_taylor_second_order s γ a η true).η_O = O2
  generalize (get_taylor_second_order s γ a η true).η_A = A2
  generalize (get_taylor_second_order s γ a η true).η_H = H2
  refine tendsto_order (n := 1)
    (fun t τ =>
      let M := Real.sqrt ((t * (b + b3 * t ^ 2 / 6)) ^ 2 +
        (t * (c + c3 * t ^ 2 / 6)) ^ 2 + (1 + q * t ^ 2 / 2) ^ 2)
      let Jr := t ^ 2 * (c + c3 * t ^ 2 / 6) * τ - (c + c3 * t ^ 2 / 2)
      let Jφ := b + b3 * t ^ 2 / 2 + (1 + q * t ^ 2 / 2) * (1/4 - γ)
      let br := (b + b3 * t ^ 2 / 6) / M
      let bφ := (c + c3 * t ^ 2 / 6) / M
      let bθ := (1 + q * t ^ 2 / 2) / M
      (γ - 3 / 4) * (
        b * (s.v_φ - s.η_H * (1 / 4 - γ)) - c * (
          s.v_r + (s.η_O + s.η_A) * (1 / 4 - γ)) - s.η_H * (c ^ 2 + b ^ 2)) -
      (γ - 3/4) * ((s.η_O + O2 * t ^ 2 / 2) * (-(c + c3 * t ^ 2 / 6) * (1/4 - γ)) +
        (s.η_H + H2 * t ^ 2 / 2) * (Jr * bφ - Jφ * br) -
        (s.η_A + A2 * t ^ 2 / 2) * (Jr * br * bθ + Jφ * bθ * bφ -
          (-(c + c3 * t ^ 2 / 6) * (1/4 - γ)) * (1 - bθ ^ 2)) -
        (s.v_r + vr2 * t ^ 2 / 2) * (c + c3 * t ^ 2 / 6) +
        (s.v_φ + vφ2 * t ^ 2 / 2) * (b + b3 * t ^ 2 / 6))) ?_ ?_ ?_
  · have hM : ContinuousAt (fun p : ℝ × ℝ => Real.sqrt (
        (p.1 * (b + b3 * p.1 ^ 2 / 6)) ^ 2 +
        (p.1 * (c + c3 * p.1 ^ 2 / 6)) ^ 2 + (1 + q * p.1 ^ 2 / 2) ^ 2)) (0, 1) := by
      fun_prop
    fun_prop (disch := norm_num)
  · intro t τ _ ht
    rw [ht]
    have e : (0 + (b + (0 + b3 * (t / 3)) * (t / 2)) * t) ^ 2 +
        (0 + (c + (0 + c3 * (t / 3)) * (t / 2)) * t) ^ 2 +
        (1 + (0 + (q + 0 * (t / 3)) * (t / 2)) * t) ^ 2 =
        (t * (b + b3 * t ^ 2 / 6)) ^ 2 + (t * (c + c3 * t ^ 2 / 6)) ^ 2 +
        (1 + q * t ^ 2 / 2) ^ 2 := by ring
    rw [e]
    generalize Real.sqrt _ = M
    ring
  · norm_num
    ring

end second

/-- A midplane state in which every quantity the Taylor expansion divides by is
non-zero: `v_r = -1`, `v_φ = 1`, ohmic diffusion only. -/
noncomputable def witM : St :=
  { B_r := 0, B_φ := 0, B_θ := 1, v_r := -1, v_φ := 1, v_θ := 0, ρ := 1,
    X := -1/2, η_O := 1, η_A := 0, η_H := 0 }

theorem witM_mid : AtMidplane witM := ⟨rfl, rfl, rfl, rfl, rfl⟩

theorem witM_Y5 : tY5 witM (1/10) 1 = 9/5 := by
  norm_num [tY5, Y_5_func, tZ5, midplane_Z_5_func, witM]

theorem witM_Y6 : tY6 witM (1/10) 1 = 79/45 := by
  rw [tY6, witM_Y5]
  norm_num [Y_6_func, tC, midplane_C_func, tZ5, midplane_Z_5_func, witM]

theorem witM_radial (η E : Bool) :
    RadialMomentum (5/4 - 1/10) 1 (24/5) (taylorFlow witM (1/10) 1 η E 0) := by
  have e : (get_taylor_first_order witM (1/10) 1).B_r = 17/20 := by
    norm_num [get_taylor_first_order, deriv_B_r_midplane_func,
      B_φ_prime_boundary_func, witM]
  simp only [RadialMomentum, radialRes, taylorFlow, flowOf, taylor_values, taylorStep,
    taylorStepD, St.add, St.smul, e]
  norm_num [witM]

example (η E : Bool) := taylor_solenoid_partial witM (1/10) 1 η E witM_mid
example (η E : Bool) := taylor_polar_error witM (1/10) 1 η E witM_mid
example (η E : Bool) := taylor_polar_iff witM (1/10) 1 η E witM_mid
example (E : Bool) := taylor_diffusivity_partial witM (1/10) 1 E witM_mid
example (η E : Bool) := taylor_continuity_error witM (1/10) 1 η E witM_mid
  (by norm_num [witM])
example (η E : Bool) := taylor_continuity_iff witM (1/10) 1 η E witM_mid
  (by norm_num [witM])
example (η E : Bool) := taylor_radial_partial witM (1/10) 1 η E (24/5) witM_mid
  (by rw [witM_Y6]; norm_num) (witM_radial η E)
example (η E : Bool) := taylor_azimuthal_error witM (1/10) 1 η E one_ne_zero
  witM_mid (by rw [witM_Y5]; norm_num)
example (η E : Bool) := taylor_azimuthal_iff witM (1/10) 1 η E one_ne_zero
  witM_mid (by rw [witM_Y5]; norm_num)
example (η : Bool) := taylor_E_r_partial witM (1/10) 1 η witM_mid

/-- C18 is false of the code: a midplane state that satisfies radial momentum, and
where nothing the code divides by vanishes, from which the expansion satisfies
neither polar momentum to first order nor azimuthal momentum to second order. -/
theorem taylor_second_order_wrong (η E : Bool) :
    AtMidplane witM ∧ tY5 witM (1/10) 1 ≠ 0 ∧ tY6 witM (1/10) 1 ≠ 0 ∧
    RadialMomentum (5/4 - 1/10) 1 (24/5) (taylorFlow witM (1/10) 1 η E 0) ∧
    ¬ VanishesToOrder 1 (fun t =>
      polarRes (5/4 - 1/10) 1 (taylorFlow witM (1/10) 1 η E t)) ∧
    ¬ VanishesToOrder 2 (fun t =>
      azimuthalRes (5/4 - 1/10) 1 (taylorFlow witM (1/10) 1 η E t)) := by
  refine ⟨witM_mid, by rw [witM_Y5]; norm_num, by rw [witM_Y6]; norm_num,
    witM_radial η E, ?_, ?_⟩
  · rw [taylor_polar_iff witM (1/10) 1 η E witM_mid]
    norm_num [witM]
  · rw [taylor_azimuthal_iff witM (1/10) 1 η E one_ne_zero witM_mid
      (by rw [witM_Y5]; norm_num)]
    norm_num [witM]

/-- C19 is false of the code: from the same state the expansion does not satisfy
continuity to second order. -/
theorem taylor_third_order_wrong (E : Bool) :
    ¬ ThirdOrderRight witM (1/10) 1 false E := by
  rw [taylor_continuity_iff witM (1/10) 1 false E witM_mid (by norm_num [witM])]
  have h1 : (taylor_series (1/10) 1 witM false E).v_φ = -66267/252800 := by
    norm_num [taylor_series, witM, dderiv_v_φ_midplane, dderiv_v_r_midplane,
      Y_1_func, Y_2_func, Y_3_func, Y_4_func, Y_5_func, Y_6_func,
      midplane_Z_5_func, midplane_C_func, midplane_deriv_A_func,
      dderiv_Z_5_midplane, dderiv_E_r_midplane, deriv_B_r_midplane_func,
      B_φ_prime_boundary_func, dderiv_b_θ_midplane]
  have h2 : (taylor_series (1/10) 1 witM false E).v_θ = 280553/252800 := by
    norm_num [taylor_series, witM, ddderiv_v_θ_midplane, dderiv_v_r_midplane,
      Y_1_func, Y_2_func, Y_3_func, Y_4_func, Y_5_func, Y_6_func,
      midplane_Z_5_func, midplane_C_func, midplane_deriv_A_func,
      dderiv_Z_5_midplane, dderiv_E_r_midplane, deriv_B_r_midplane_func,
      B_φ_prime_boundary_func, dderiv_b_θ_midplane]
  rw [h1, h2]
  norm_num

end DiscSolver
