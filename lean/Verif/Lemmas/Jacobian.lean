import Mathlib.Analysis.Calculus.ContDiff.Operations
import Mathlib.Analysis.SpecialFunctions.Sqrt
import Mathlib.Analysis.Calculus.Taylor
import Mathlib.Tactic.Linarith
import Verif.Spec.Jacobian
import Verif.Lemmas.Ode

/-!
Helper lemmas for `Verif.Props.Jacobian`: the right-hand side is smooth away from its
singular states.
-/

namespace DiscSolver.Jacobian

variable {E : Type} [NormedAddCommGroup E] [NormedSpace ℝ E]

/-- The divisor of `B_r'` is positive. -/
theorem divisor_pos {a h b : ℝ} (ha : 0 ≤ a) (hO : 0 < h) (hb : b ^ 2 ≤ 1) :
    0 < h + a * (1 - b ^ 2) := by
  have := mul_nonneg ha (sub_nonneg.2 hb)
  linarith

/-- The divisor of `B_φ'` when the electric field is followed is positive. -/
theorem Z5_pos {O A H br bφ bθ : ℝ} (hO : 0 < O) (hA : 0 ≤ A)
    (h : br ^ 2 + bφ ^ 2 + bθ ^ 2 = 1) :
    0 < Z_5_func O A H br bθ bφ (C_func O A H bθ br bφ) := by
  have h1 : 0 < O + A * (1 - br ^ 2) := divisor_pos hA hO (by nlinarith [sq_nonneg bφ, sq_nonneg bθ])
  have h2 : 0 < O + A * (1 - bφ ^ 2) := divisor_pos hA hO (by nlinarith [sq_nonneg br, sq_nonneg bθ])
  have : Z_5_func O A H br bθ bφ (C_func O A H bθ br bφ) =
      O + A * (1 - br ^ 2) + (H * bθ - A * br * bφ) ^ 2 / (O + A * (1 - bφ ^ 2)) := by
    unfold Z_5_func C_func
    ring
  rw [this]
  positivity

/-- The divisor of `B_φ''` is positive. -/
theorem Z5'_pos {O A H br bφ bθ : ℝ} (hO : 0 < O) (hA : 0 ≤ A)
    (h : br ^ 2 + bφ ^ 2 + bθ ^ 2 = 1) :
    0 < O + A * (1 - br ^ 2) + C_func O A H bθ br bφ * (H * bθ + A * br * bφ) := by
  have h1 : 0 < O + A * (1 - br ^ 2) := divisor_pos hA hO (by nlinarith [sq_nonneg bφ, sq_nonneg bθ])
  have h2 : 0 < O + A * (1 - bφ ^ 2) := divisor_pos hA hO (by nlinarith [sq_nonneg br, sq_nonneg bθ])
  have : O + A * (1 - br ^ 2) + C_func O A H bθ br bφ * (H * bθ + A * br * bφ) =
      (O ^ 2 + O * A * (1 - bφ ^ 2) + O * A * (1 - br ^ 2) + A ^ 2 * bθ ^ 2 + H ^ 2 * bθ ^ 2) /
        (O + A * (1 - bφ ^ 2)) := by
    unfold C_func
    field_simp
    linear_combination (-A ^ 2) * h
  rw [this]
  have h3 : 0 ≤ O * A * (1 - bφ ^ 2) := by
    have : 0 ≤ 1 - bφ ^ 2 := by nlinarith [sq_nonneg br, sq_nonneg bθ]
    positivity
  have h4 : 0 ≤ O * A * (1 - br ^ 2) := by
    have : 0 ≤ 1 - br ^ 2 := by nlinarith [sq_nonneg bφ, sq_nonneg bθ]
    positivity
  positivity

theorem units_sq {s : St} (hB : s.B_r ^ 2 + s.B_φ ^ 2 + s.B_θ ^ 2 ≠ 0) :
    (s.B_r / B_mag s) ^ 2 + (s.B_φ / B_mag s) ^ 2 + (s.B_θ / B_mag s) ^ 2 = 1 := by
  have h0 : 0 ≤ s.B_r ^ 2 + s.B_φ ^ 2 + s.B_θ ^ 2 := by positivity
  rw [div_pow, div_pow, div_pow, B_mag, Real.sq_sqrt h0]
  field_simp

section smooth

variable {n : WithTop ℕ∞} {x₀ : E} {f : E → St} {P : OdeArgs} {θ : ℝ}

/-- All components of a family of states are smooth. -/
structure StSmooth (n : WithTop ℕ∞) (f : E → St) (x₀ : E) : Prop where
  B_r : ContDiffAt ℝ n (fun x => (f x).B_r) x₀
  B_φ : ContDiffAt ℝ n (fun x => (f x).B_φ) x₀
  B_θ : ContDiffAt ℝ n (fun x => (f x).B_θ) x₀
  v_r : ContDiffAt ℝ n (fun x => (f x).v_r) x₀
  v_φ : ContDiffAt ℝ n (fun x => (f x).v_φ) x₀
  v_θ : ContDiffAt ℝ n (fun x => (f x).v_θ) x₀
  ρ : ContDiffAt ℝ n (fun x => (f x).ρ) x₀
  X : ContDiffAt ℝ n (fun x => (f x).X) x₀
  η_O : ContDiffAt ℝ n (fun x => (f x).η_O) x₀
  η_A : ContDiffAt ℝ n (fun x => (f x).η_A) x₀
  η_H : ContDiffAt ℝ n (fun x => (f x).η_H) x₀

theorem dderiv_smooth
    {B_r B_φ B_θ η_O η_H η_A v_r v_θ v_φ deriv_v_r deriv_v_θ deriv_v_φ
      deriv_B_r deriv_B_θ deriv_B_φ deriv_η_O deriv_η_A deriv_η_H b_r b_φ b_θ
      deriv_b_r deriv_b_φ deriv_b_θ C A : E → ℝ} (γ : ℝ)
    (h1 : ContDiffAt ℝ n B_r x₀) (h2 : ContDiffAt ℝ n B_φ x₀) (h3 : ContDiffAt ℝ n B_θ x₀)
    (h4 : ContDiffAt ℝ n η_O x₀) (h5 : ContDiffAt ℝ n η_H x₀) (h6 : ContDiffAt ℝ n η_A x₀)
    (h7 : ContDiffAt ℝ n v_r x₀) (h8 : ContDiffAt ℝ n v_θ x₀) (h9 : ContDiffAt ℝ n v_φ x₀)
    (k1 : ContDiffAt ℝ n deriv_v_r x₀) (k2 : ContDiffAt ℝ n deriv_v_θ x₀)
    (k3 : ContDiffAt ℝ n deriv_v_φ x₀) (k4 : ContDiffAt ℝ n deriv_B_r x₀)
    (k5 : ContDiffAt ℝ n deriv_B_θ x₀) (k6 : ContDiffAt ℝ n deriv_B_φ x₀)
    (k7 : ContDiffAt ℝ n deriv_η_O x₀) (k8 : ContDiffAt ℝ n deriv_η_A x₀)
    (k9 : ContDiffAt ℝ n deriv_η_H x₀) (l1 : ContDiffAt ℝ n b_r x₀)
    (l2 : ContDiffAt ℝ n b_φ x₀) (l3 : ContDiffAt ℝ n b_θ x₀)
    (l4 : ContDiffAt ℝ n deriv_b_r x₀) (l5 : ContDiffAt ℝ n deriv_b_φ x₀)
    (l6 : ContDiffAt ℝ n deriv_b_θ x₀) (l7 : ContDiffAt ℝ n C x₀) (l8 : ContDiffAt ℝ n A x₀)
    (hd : η_O x₀ + η_A x₀ * (1 - b_r x₀ ^ 2) +
      C x₀ * (η_H x₀ * b_θ x₀ + η_A x₀ * b_r x₀ * b_φ x₀) ≠ 0) :
    ContDiffAt ℝ n (fun x => dderiv_B_φ_soln (B_r := B_r x) (B_φ := B_φ x) (B_θ := B_θ x)
      (η_O := η_O x) (η_H := η_H x) (η_A := η_A x) (θ := θ) (v_r := v_r x) (v_θ := v_θ x)
      (v_φ := v_φ x) (deriv_v_r := deriv_v_r x) (deriv_v_θ := deriv_v_θ x)
      (deriv_v_φ := deriv_v_φ x) (deriv_B_r := deriv_B_r x) (deriv_B_θ := deriv_B_θ x)
      (deriv_B_φ := deriv_B_φ x) (γ := γ) (deriv_η_O := deriv_η_O x)
      (deriv_η_A := deriv_η_A x) (deriv_η_H := deriv_η_H x) (b_r := b_r x) (b_φ := b_φ x)
      (b_θ := b_θ x) (deriv_b_r := deriv_b_r x) (deriv_b_φ := deriv_b_φ x)
      (deriv_b_θ := deriv_b_θ x) (C := C x) (A := A x)) x₀ := by
  unfold dderiv_B_φ_soln
  fun_prop (disch := exact hd)

/-- Everything but `X'`, and the pieces it is made of. -/
theorem units_smooth (hf : StSmooth n f x₀) (hs : Smooth (f x₀)) :
    ContDiffAt ℝ n (fun x => B_mag (f x)) x₀ ∧
    ContDiffAt ℝ n (fun x => (f x).B_r / B_mag (f x)) x₀ ∧
    ContDiffAt ℝ n (fun x => (f x).B_φ / B_mag (f x)) x₀ ∧
    ContDiffAt ℝ n (fun x => (f x).B_θ / B_mag (f x)) x₀ := by
  obtain ⟨h1, h2, h3, h4, h5, h6, h7, h8, h9, h10, h11⟩ := hf
  have hB := hs.B
  have h0 : B_mag (f x₀) ≠ 0 := by
    unfold B_mag
    have : 0 ≤ (f x₀).B_r ^ 2 + (f x₀).B_φ ^ 2 + (f x₀).B_θ ^ 2 := by positivity
    exact (Real.sqrt_pos.2 (lt_of_le_of_ne this (Ne.symm hB))).ne'
  have hm : ContDiffAt ℝ n (fun x => B_mag (f x)) x₀ := by
    unfold B_mag
    fun_prop (disch := exact hB)
  refine ⟨hm, ?_, ?_, ?_⟩ <;> fun_prop (disch := exact h0)

theorem smooth_C (hf : StSmooth n f x₀) (hs : Smooth (f x₀)) :
    ContDiffAt ℝ n (fun x => C_func (f x).η_O (f x).η_A (f x).η_H ((f x).B_θ / B_mag (f x))
      ((f x).B_r / B_mag (f x)) ((f x).B_φ / B_mag (f x))) x₀ := by
  obtain ⟨hm, u1, u2, u3⟩ := units_smooth hf hs
  obtain ⟨h1, h2, h3, h4, h5, h6, h7, h8, h9, h10, h11⟩ := hf
  have hu := units_sq hs.B
  have hd := divisor_pos hs.η_A hs.η_O (b := (f x₀).B_φ / B_mag (f x₀)) (by
    nlinarith [sq_nonneg ((f x₀).B_r / B_mag (f x₀)), sq_nonneg ((f x₀).B_θ / B_mag (f x₀))])
  unfold C_func
  exact ContDiffAt.fun_div (by fun_prop) (by fun_prop) hd.ne'

theorem rhs_B_φ_E' {P : OdeArgs} (hE : P.use_E_r = true) (t : ℝ) (s : St) :
    (rhsDerivs P t s).B_φ =
      deriv_B_φ_func (θ := t) (γ := P.γ) (B_r := s.B_r) (B_θ := s.B_θ) (B_φ := s.B_φ)
        (v_r := s.v_r) (v_φ := s.v_φ) (v_θ := s.v_θ) (η_O := s.η_O) (η_A := s.η_A)
        (η_H := s.η_H) (E_r := s.X) (b_r := s.B_r / B_mag s) (b_φ := s.B_φ / B_mag s)
        (b_θ := s.B_θ / B_mag s)
        (C := C_func (η_O := s.η_O) (η_A := s.η_A) (η_H := s.η_H)
          (b_θ := s.B_θ / B_mag s) (b_r := s.B_r / B_mag s) (b_φ := s.B_φ / B_mag s))
        (Z_5 := Z_5_func (η_O := s.η_O) (η_A := s.η_A) (η_H := s.η_H)
          (b_r := s.B_r / B_mag s) (b_θ := s.B_θ / B_mag s) (b_φ := s.B_φ / B_mag s)
          (C := C_func (η_O := s.η_O) (η_A := s.η_A) (η_H := s.η_H)
            (b_θ := s.B_θ / B_mag s) (b_r := s.B_r / B_mag s)
            (b_φ := s.B_φ / B_mag s))) := by
  simp [rhsDerivs, rhsValues, hE]

theorem smooth_B_φ (hf : StSmooth n f x₀) (hs : Smooth (f x₀)) :
    ContDiffAt ℝ n (fun x => (rhsDerivs P θ (f x)).B_φ) x₀ := by
  have hC := smooth_C hf hs
  obtain ⟨hm, u1, u2, u3⟩ := units_smooth hf hs
  obtain ⟨h1, h2, h3, h4, h5, h6, h7, h8, h9, h10, h11⟩ := hf
  by_cases hE : P.use_E_r = true
  · have hz := Z5_pos (H := (f x₀).η_H) hs.η_O hs.η_A (units_sq hs.B)
    simp only [rhs_B_φ_E' hE]
    unfold deriv_B_φ_func
    refine ContDiffAt.fun_div (by fun_prop) ?_ hz.ne'
    unfold Z_5_func
    fun_prop
  · simp only [rhs_B_φ P _ _ (by simpa using hE)]
    exact h8

theorem smooth_B_r (hf : StSmooth n f x₀) (hs : Smooth (f x₀)) :
    ContDiffAt ℝ n (fun x => (rhsDerivs P θ (f x)).B_r) x₀ := by
  have hφ := smooth_B_φ (P := P) (θ := θ) hf hs
  obtain ⟨hm, u1, u2, u3⟩ := units_smooth hf hs
  obtain ⟨h1, h2, h3, h4, h5, h6, h7, h8, h9, h10, h11⟩ := hf
  have hu := units_sq hs.B
  have hd := divisor_pos hs.η_A hs.η_O (b := (f x₀).B_φ / B_mag (f x₀)) (by
    nlinarith [sq_nonneg ((f x₀).B_r / B_mag (f x₀)), sq_nonneg ((f x₀).B_θ / B_mag (f x₀))])
  simp only [rhs_B_r]
  unfold deriv_B_r_func
  refine ContDiffAt.sub (ContDiffAt.fun_div (by fun_prop) (by fun_prop) ?_) (by fun_prop)
  intro h
  exact hd.ne' (by rw [← h]; ring)

theorem smooth_v_r (hT : P.with_taylor = false) (hf : StSmooth n f x₀) (hs : Smooth (f x₀)) :
    ContDiffAt ℝ n (fun x => (rhsDerivs P θ (f x)).v_r) x₀ := by
  have hr := smooth_B_r (P := P) (θ := θ) hf hs
  obtain ⟨h1, h2, h3, h4, h5, h6, h7, h8, h9, h10, h11⟩ := hf
  have hρ := hs.ρ
  have hv := hs.v
  simp only [rhs_v_r P _ _ hT]
  fun_prop (disch := assumption)

theorem smooth_v_φ (hT : P.with_taylor = false) (hf : StSmooth n f x₀) (hs : Smooth (f x₀)) :
    ContDiffAt ℝ n (fun x => (rhsDerivs P θ (f x)).v_φ) x₀ := by
  have hφ := smooth_B_φ (P := P) (θ := θ) hf hs
  obtain ⟨h1, h2, h3, h4, h5, h6, h7, h8, h9, h10, h11⟩ := hf
  have hρ := hs.ρ
  have hv := hs.v
  simp only [rhs_v_φ P _ _ hT]
  fun_prop (disch := assumption)

theorem smooth_v_θ (hF : P.deriv_v_θ_func = none) (hf : StSmooth n f x₀)
    (hs : Smooth (f x₀)) : ContDiffAt ℝ n (fun x => (rhsDerivs P θ (f x)).v_θ) x₀ := by
  have hφ := smooth_B_φ (P := P) (θ := θ) hf hs
  have hr := smooth_B_r (P := P) (θ := θ) hf hs
  obtain ⟨h1, h2, h3, h4, h5, h6, h7, h8, h9, h10, h11⟩ := hf
  have hρ := hs.ρ
  have hv : (1 - (f x₀).v_θ) * (1 + (f x₀).v_θ) ≠ 0 := by
    refine mul_ne_zero ?_ ?_
    · intro h; exact hs.sonic (by linarith)
    · intro h; exact hs.sonic' (by linarith)
  simp only [rhs_v_θ P _ _ hF]
  fun_prop (disch := assumption)

theorem smooth_ρ (hT : P.with_taylor = false) (hF : P.deriv_v_θ_func = none)
    (hf : StSmooth n f x₀) (hs : Smooth (f x₀)) :
    ContDiffAt ℝ n (fun x => (rhsDerivs P θ (f x)).ρ) x₀ := by
  have hr := smooth_v_θ (P := P) (θ := θ) hF hf hs
  obtain ⟨h1, h2, h3, h4, h5, h6, h7, h8, h9, h10, h11⟩ := hf
  have hv := hs.v
  simp only [rhs_ρ P _ _ hT]
  fun_prop (disch := assumption)

theorem smooth_B_θ (hf : StSmooth n f x₀) :
    ContDiffAt ℝ n (fun x => (rhsDerivs P θ (f x)).B_θ) x₀ := by
  obtain ⟨h1, h2, h3, h4, h5, h6, h7, h8, h9, h10, h11⟩ := hf
  simp only [rhs_B_θ]
  fun_prop

theorem smooth_η (hT : P.with_taylor = false) (hF : P.deriv_v_θ_func = none)
    (hf : StSmooth n f x₀) (hs : Smooth (f x₀)) :
    ContDiffAt ℝ n (fun x => (rhsDerivs P θ (f x)).η_O) x₀ ∧
    ContDiffAt ℝ n (fun x => (rhsDerivs P θ (f x)).η_A) x₀ ∧
    ContDiffAt ℝ n (fun x => (rhsDerivs P θ (f x)).η_H) x₀ := by
  have hd := smooth_ρ (P := P) (θ := θ) hT hF hf hs
  have hφ := smooth_B_φ (P := P) (θ := θ) hf hs
  have hr := smooth_B_r (P := P) (θ := θ) hf hs
  have ht := smooth_B_θ (P := P) (θ := θ) hf
  obtain ⟨h1, h2, h3, h4, h5, h6, h7, h8, h9, h10, h11⟩ := hf
  have hρ := hs.ρ
  by_cases hη : P.η_derivs = true
  · simp only [fun s => (rhs_η P θ s hη).1, fun s => (rhs_η P θ s hη).2.1,
      fun s => (rhs_η P θ s hη).2.2]
    simp only [deriv_η_skw_func]
    refine ⟨?_, ?_, ?_⟩ <;> fun_prop (disch := assumption)
  · have hη : P.η_derivs = false := by simpa using hη
    simp only [fun s => (rhs_η_const P θ s hη).1, fun s => (rhs_η_const P θ s hη).2.1,
      fun s => (rhs_η_const P θ s hη).2.2]
    exact ⟨contDiffAt_const, contDiffAt_const, contDiffAt_const⟩

theorem rhs_X_E' {P : OdeArgs} (hE : P.use_E_r = true) (t : ℝ) (s : St) :
    (rhsDerivs P t s).X =
      deriv_E_r_func (γ := P.γ) (v_r := s.v_r) (v_φ := s.v_φ) (B_r := s.B_r)
        (B_φ := s.B_φ) (η_O := s.η_O) (η_A := s.η_A) (η_H := s.η_H)
        (b_r := s.B_r / B_mag s) (b_θ := s.B_θ / B_mag s) (b_φ := s.B_φ / B_mag s)
        (J_r := J_r_func (θ := t) (B_φ := s.B_φ) (deriv_B_φ := (rhsDerivs P t s).B_φ))
        (J_θ := J_θ_func (γ := P.γ) (B_φ := s.B_φ))
        (J_φ := J_φ_func (γ := P.γ) (B_θ := s.B_θ)
          (deriv_B_r := (rhsDerivs P t s).B_r)) := by
  simp [rhsDerivs, rhsValues, hE]

/-- The unit vector derivatives, as functions of a state. -/
noncomputable def unitD (P : OdeArgs) (θ : ℝ) (s : St) : ℝ × ℝ × ℝ :=
  B_unit_derivs (B_r := s.B_r) (B_φ := s.B_φ) (B_θ := s.B_θ)
    (deriv_B_r := (rhsDerivs P θ s).B_r) (deriv_B_φ := (rhsDerivs P θ s).B_φ)
    (deriv_B_θ := (rhsDerivs P θ s).B_θ) (b_r := s.B_r / B_mag s) (b_φ := s.B_φ / B_mag s)
    (b_θ := s.B_θ / B_mag s)

/-- `A` as a function of a state. -/
noncomputable def AD (P : OdeArgs) (θ : ℝ) (s : St) : ℝ :=
  A_func (η_O := s.η_O) (η_A := s.η_A) (η_H := s.η_H) (b_θ := s.B_θ / B_mag s)
    (b_r := s.B_r / B_mag s) (b_φ := s.B_φ / B_mag s) (deriv_η_O := (rhsDerivs P θ s).η_O)
    (deriv_η_A := (rhsDerivs P θ s).η_A) (deriv_η_H := (rhsDerivs P θ s).η_H)
    (deriv_b_θ := (unitD P θ s).2.2) (deriv_b_r := (unitD P θ s).1)
    (deriv_b_φ := (unitD P θ s).2.1)

theorem rhs_X_B {P : OdeArgs} (hE : P.use_E_r = false) (t : ℝ) (s : St) :
    (rhsDerivs P t s).X =
      dderiv_B_φ_soln (B_r := s.B_r) (B_φ := s.B_φ) (B_θ := s.B_θ) (η_O := s.η_O)
        (η_H := s.η_H) (η_A := s.η_A) (θ := t) (v_r := s.v_r) (v_θ := s.v_θ)
        (v_φ := s.v_φ) (deriv_v_r := (rhsDerivs P t s).v_r)
        (deriv_v_θ := (rhsDerivs P t s).v_θ)
        (deriv_v_φ := (rhsDerivs P t s).v_φ) (deriv_B_r := (rhsDerivs P t s).B_r)
        (deriv_B_θ := (rhsDerivs P t s).B_θ) (deriv_B_φ := (rhsDerivs P t s).B_φ) (γ := P.γ)
        (deriv_η_O := (rhsDerivs P t s).η_O) (deriv_η_A := (rhsDerivs P t s).η_A)
        (deriv_η_H := (rhsDerivs P t s).η_H) (b_r := s.B_r / B_mag s)
        (b_φ := s.B_φ / B_mag s) (b_θ := s.B_θ / B_mag s)
        (deriv_b_r := (unitD P t s).1) (deriv_b_φ := (unitD P t s).2.1)
        (deriv_b_θ := (unitD P t s).2.2)
        (C := C_func (η_O := s.η_O) (η_A := s.η_A) (η_H := s.η_H)
          (b_θ := s.B_θ / B_mag s) (b_r := s.B_r / B_mag s) (b_φ := s.B_φ / B_mag s))
        (A := AD P t s) := by
  have h : ∀ a b : ℝ, (if P.use_E_r = true then a else b) = b := fun a b => by simp [hE]
  change (if P.use_E_r = true then _ else _) = _
  rw [h]
  rfl

theorem smooth_units (hf : StSmooth n f x₀) (hs : Smooth (f x₀)) :
    ContDiffAt ℝ n (fun x => (unitD P θ (f x)).1) x₀ ∧
    ContDiffAt ℝ n (fun x => (unitD P θ (f x)).2.1) x₀ ∧
    ContDiffAt ℝ n (fun x => (unitD P θ (f x)).2.2) x₀ := by
  have hφ := smooth_B_φ (P := P) (θ := θ) hf hs
  have hr := smooth_B_r (P := P) (θ := θ) hf hs
  have ht := smooth_B_θ (P := P) (θ := θ) hf
  obtain ⟨hm, u1, u2, u3⟩ := units_smooth hf hs
  obtain ⟨h1, h2, h3, h4, h5, h6, h7, h8, h9, h10, h11⟩ := hf
  have hB := hs.B
  have h0 : B_mag (f x₀) ≠ 0 := by
    unfold B_mag
    have : 0 ≤ (f x₀).B_r ^ 2 + (f x₀).B_φ ^ 2 + (f x₀).B_θ ^ 2 := by positivity
    exact (Real.sqrt_pos.2 (lt_of_le_of_ne this (Ne.symm hB))).ne'
  have hm' : ∀ s : St, Real.sqrt (s.B_r ^ 2 + s.B_φ ^ 2 + s.B_θ ^ 2) = B_mag s := fun _ => rfl
  simp only [unitD, B_unit_derivs, hm']
  refine ⟨?_, ?_, ?_⟩ <;> fun_prop (disch := assumption)

theorem smooth_A (hT : P.with_taylor = false) (hF : P.deriv_v_θ_func = none)
    (hf : StSmooth n f x₀) (hs : Smooth (f x₀)) :
    ContDiffAt ℝ n (fun x => AD P θ (f x)) x₀ := by
  obtain ⟨hm, u1, u2, u3⟩ := units_smooth hf hs
  obtain ⟨w1, w2, w3⟩ := smooth_units (P := P) (θ := θ) hf hs
  obtain ⟨e1, e2, e3⟩ := smooth_η (P := P) (θ := θ) hT hF hf hs
  obtain ⟨h1, h2, h3, h4, h5, h6, h7, h8, h9, h10, h11⟩ := hf
  have hu := units_sq hs.B
  have hd := (divisor_pos hs.η_A hs.η_O (b := (f x₀).B_φ / B_mag (f x₀)) (by
    nlinarith [sq_nonneg ((f x₀).B_r / B_mag (f x₀)),
      sq_nonneg ((f x₀).B_θ / B_mag (f x₀))])).ne'
  have hd2 := pow_ne_zero 2 hd
  unfold AD A_func
  refine ContDiffAt.sub (ContDiffAt.fun_div ?_ ?_ hd) (ContDiffAt.fun_div ?_ ?_ hd2) <;>
    fun_prop

theorem smooth_X (hT : P.with_taylor = false) (hF : P.deriv_v_θ_func = none)
    (hf : StSmooth n f x₀) (hs : Smooth (f x₀)) :
    ContDiffAt ℝ n (fun x => (rhsDerivs P θ (f x)).X) x₀ := by
  have hφ := smooth_B_φ (P := P) (θ := θ) hf hs
  have hr := smooth_B_r (P := P) (θ := θ) hf hs
  obtain ⟨hm, u1, u2, u3⟩ := units_smooth hf hs
  by_cases hE : P.use_E_r = true
  · obtain ⟨h1, h2, h3, h4, h5, h6, h7, h8, h9, h10, h11⟩ := hf
    simp only [rhs_X_E' hE, deriv_E_r_func, E_θ_func, J_r_func, J_θ_func, J_φ_func]
    fun_prop
  · simp only [rhs_X_B (by simpa using hE)]
    obtain ⟨w1, w2, w3⟩ := smooth_units (P := P) (θ := θ) hf hs
    obtain ⟨e1, e2, e3⟩ := smooth_η (P := P) (θ := θ) hT hF hf hs
    exact dderiv_smooth P.γ hf.B_r hf.B_φ hf.B_θ hf.η_O hf.η_H hf.η_A hf.v_r hf.v_θ hf.v_φ
      (smooth_v_r hT hf hs) (smooth_v_θ hF hf hs) (smooth_v_φ hT hf hs) hr (smooth_B_θ hf) hφ
      e1 e2 e3 u1 u2 u3 w1 w2 w3 (smooth_C hf hs) (smooth_A hT hF hf hs)
      (Z5'_pos hs.η_O hs.η_A (units_sq hs.B)).ne'

/-- The right-hand side is smooth along a smooth family of states. -/
theorem smooth_rhs (hT : P.with_taylor = false) (hF : P.deriv_v_θ_func = none)
    (hf : StSmooth n f x₀) (hs : Smooth (f x₀)) :
    StSmooth n (fun x => rhsDerivs P θ (f x)) x₀ :=
  ⟨smooth_B_r hf hs, smooth_B_φ hf hs, smooth_B_θ hf, smooth_v_r hT hf hs,
    smooth_v_φ hT hf hs, smooth_v_θ hF hf hs, smooth_ρ hT hF hf hs, smooth_X hT hF hf hs,
    (smooth_η hT hF hf hs).1, (smooth_η hT hF hf hs).2.1, (smooth_η hT hF hf hs).2.2⟩

end smooth

/-- The right-hand side as a map of vectors is smooth. -/
theorem rhsVec_smooth {P : OdeArgs} (hT : P.with_taylor = false)
    (hF : P.deriv_v_θ_func = none) {θ : ℝ} {s : St} (hs : Smooth s) (n : WithTop ℕ∞) :
    ContDiffAt ℝ n (rhsVec P θ) (vec s) := by
  have h0 : ofVec (vec s) = s := rfl
  have hf : StSmooth n ofVec (vec s) := by
    constructor <;> (unfold ofVec; fun_prop)
  have h := smooth_rhs (θ := θ) hT hF hf (by rw [h0]; exact hs)
  rw [contDiffAt_pi]
  intro j
  fin_cases j
  exacts [h.B_r, h.B_φ, h.B_θ, h.v_r, h.v_φ, h.v_θ, h.ρ, h.X, h.η_O, h.η_A, h.η_H]

/-- Central differences of a smooth function are accurate to second order. -/
theorem central_difference {g : ℝ → ℝ} {a : ℝ} (hg : ContDiffAt ℝ 3 g a) :
    (fun e : ℝ => (g (a + e) - g (a - e)) / (2 * e) - deriv g a) =O[nhdsWithin 0 {0}ᶜ]
      fun e : ℝ => e ^ 2 := by
  set h : ℝ → ℝ := fun t => g (a + t) with hh
  have hc : ContDiffAt ℝ 3 h 0 := by
    refine ContDiffAt.comp (g := g) (f := fun t : ℝ => a + t) 0 ?_ (by fun_prop)
    simpa using hg
  obtain ⟨u, hu, hcu⟩ := hc.contDiffOn (m := 3) le_rfl (by simp)
  obtain ⟨r, hr, hru⟩ := Metric.mem_nhds_iff.1 (by simpa using hu : u ∈ nhds (0 : ℝ))
  rw [Real.ball_eq_Ioo, zero_sub, zero_add] at hru
  have hs0 : Set.Ioo (-r) r ∈ nhds (0 : ℝ) := Ioo_mem_nhds (by linarith) hr
  have hT := taylor_isLittleO (f := h) (x₀ := 0) (n := 3) (convex_Ioo (-r) r)
    (by constructor <;> linarith) (hcu.mono hru)
  rw [nhdsWithin_eq_nhds.2 hs0] at hT
  have hd : iteratedDerivWithin 1 h (Set.Ioo (-r) r) 0 = deriv g a := by
    rw [iteratedDerivWithin_one, derivWithin_of_mem_nhds hs0, hh]
    have := (hg.differentiableAt (by norm_num)).hasDerivAt
    exact (HasDerivAt.comp_const_add a 0 (by simpa using this)).deriv
  obtain ⟨C, hC⟩ := hT.isBigO.bound
  simp only [taylor_within_apply, Finset.sum_range_succ, Finset.sum_range_zero, hd, sub_zero]
    at hC
  set c0 := iteratedDerivWithin 0 h (Set.Ioo (-r) r) 0
  set c2 := iteratedDerivWithin 2 h (Set.Ioo (-r) r) 0
  set c3 := iteratedDerivWithin 3 h (Set.Ioo (-r) r) 0
  have hC' := (tendsto_neg (0 : ℝ)).eventually (by simpa using hC)
  refine Asymptotics.IsBigO.of_bound (|c3| + C) ?_
  filter_upwards [nhdsWithin_le_nhds hC, nhdsWithin_le_nhds hC', self_mem_nhdsWithin]
    with e h1 h2 h3
  have h3 : e ≠ 0 := h3
  simp only [Real.norm_eq_abs] at h1 h2 ⊢
  norm_num [Nat.factorial] at h1 h2
  have e1 : h e = g (a + e) := rfl
  have e2 : h (-e) = g (a - e) := by rw [hh]; ring_nf
  rw [e1] at h1
  rw [e2] at h2
  generalize g (a + e) = p at *
  generalize g (a - e) = q at *
  generalize deriv g a = d at *
  set R := p - (c0 + e * d + 1 / 2 * e ^ 2 * c2 + 1 / 6 * e ^ 3 * c3) with hR
  set Q := q - (c0 + -(e * d) + 1 / 2 * e ^ 2 * c2 + 1 / 6 * (-e) ^ 3 * c3) with hQ
  have hx : (p - q) / (2 * e) - d = c3 / 6 * e ^ 2 + (R - Q) / (2 * e) := by
    rw [hR, hQ]
    field_simp
    ring
  have hpos : 0 < |e| := abs_pos.2 h3
  have hRQ : |(R - Q) / (2 * e)| ≤ C * |e| ^ 2 := by
    rw [abs_div, abs_mul, abs_two, div_le_iff₀ (by positivity)]
    calc |R - Q| ≤ |R| + |Q| := abs_sub _ _
      _ ≤ C * |e| ^ 3 + C * |e| ^ 3 := add_le_add h1 h2
      _ = C * |e| ^ 2 * (2 * |e|) := by ring
  rw [hx, abs_pow]
  calc |c3 / 6 * e ^ 2 + (R - Q) / (2 * e)|
      ≤ |c3 / 6 * e ^ 2| + |(R - Q) / (2 * e)| := abs_add_le _ _
    _ ≤ |c3| * |e| ^ 2 + C * |e| ^ 2 := by
        refine add_le_add ?_ hRQ
        rw [abs_mul, abs_pow, abs_div]
        refine mul_le_mul_of_nonneg_right ?_ (by positivity)
        have := abs_nonneg c3
        rw [div_le_iff₀ (by norm_num)]
        norm_num
        linarith
    _ = (|c3| + C) * |e| ^ 2 := by ring

end DiscSolver.Jacobian
