import Verif.Lemmas.Induction
import Verif.Props.Electric

/-!
# C07, C08: the two formulations of the induction equation

Both properties are false of the code as written.  For each: the exact error,
the cases in which it vanishes (`_partial`) and a concrete failing case.
-/

namespace DiscSolver

open Spec

section C07

variable (P : OdeArgs) (x : ℝ) (s d : St) (code : ℤ)

/-- C07 in full: the `B_φ'` returned in the `E_r` formulation is the one for
which Ohm's law gives back the stored `E_r`. -/
def RecoversE_r (P : OdeArgs) (x : ℝ) (s d : St) : Prop :=
  (electricOf P.γ (x * P.θ_scale) s d).r = s.X

/-- C07, exact error: with `C`, `Z_5` the code's coefficients at the state, the
radial field implied by the returned derivatives misses the stored one by
`2 C (B_φ (η_A b_φ (b_r tan θ - b_θ k) + η_H (b_r k + b_θ tan θ)) - η_A b_r b_φ B_φ')`,
`k = 1/4 - γ`. -/
theorem E_r_recovery_error
    (h : rhs_equation P x s = (code, some d)) (hE : P.use_E_r = true)
    (b_r b_θ b_φ C : ℝ) (hb : b_r = s.B_r / B_mag s ∧ b_θ = s.B_θ / B_mag s ∧
      b_φ = s.B_φ / B_mag s)
    (hC : C = (s.η_H * b_θ - s.η_A * b_r * b_φ) /
      (s.η_O + s.η_A * (1 - b_φ ^ 2)))
    (hD : s.η_O + s.η_A * (1 - b_φ ^ 2) ≠ 0)
    (hZ : s.η_O + s.η_A * (1 - b_r ^ 2) +
      C * (s.η_H * b_θ - s.η_A * b_r * b_φ) ≠ 0) :
    (electricOf P.γ (x * P.θ_scale) s d).r - s.X =
      2 * C * (s.B_φ * (
        s.η_A * b_φ * (b_r * Real.tan (x * P.θ_scale) - b_θ * (1/4 - P.γ)) +
        s.η_H * (b_r * (1/4 - P.γ) + b_θ * Real.tan (x * P.θ_scale))) -
        s.η_A * b_r * b_φ * d.B_φ) := by
  have hφ := rhs_E_φ_zero P x s d code h b_r b_θ b_φ hb hD
  obtain ⟨-, -, -, rfl⟩ := rhs_accepted h
  obtain ⟨rfl, rfl, rfl⟩ := hb
  generalize hθ : x * P.θ_scale = θ at *
  have hB : (rhsDerivs P θ s).B_φ = deriv_B_φ_func (θ := θ) (γ := P.γ)
      (B_r := s.B_r) (B_θ := s.B_θ) (B_φ := s.B_φ)
      (v_r := s.v_r) (v_φ := s.v_φ) (v_θ := s.v_θ) (η_O := s.η_O)
      (η_A := s.η_A) (η_H := s.η_H) (E_r := s.X) (b_θ := s.B_θ / B_mag s)
      (b_r := s.B_r / B_mag s) (b_φ := s.B_φ / B_mag s) (C := C)
      (Z_5 := s.η_O + s.η_A * (1 - (s.B_r / B_mag s) ^ 2) +
      C * (s.η_H * (s.B_θ / B_mag s) -
        s.η_A * (s.B_r / B_mag s) * (s.B_φ / B_mag s))) := by
    simp [rhsDerivs, rhsValues, hE, hC, C_func, Z_5_func]
  rw [deriv_B_φ_func, eq_div_iff hZ] at hB
  have hCD := hC
  rw [eq_div_iff hD] at hCD
  simp only [E_φ_func, J_r_func, J_θ_func, J_φ_func] at hφ
  simp only [electricOf, currentOf, E_r_func, J_r_func, J_θ_func, J_φ_func]
  generalize s.B_r / B_mag s = b_r at *
  generalize s.B_φ / B_mag s = b_φ at *
  generalize s.B_θ / B_mag s = b_θ at *
  generalize rhsDerivs P θ s = d at *
  linear_combination -hB + C * hφ -
    (d.B_r + s.B_θ * (1/4 - P.γ)) * hCD

example := E_r_recovery_error witE (1/10) witS _ _ (wit_accepted _ _) rfl _ _ _ _
  ⟨rfl, rfl, rfl⟩ rfl (by rw [witS_mag]; norm_num [witS])
  (by rw [witS_mag]; norm_num [witS])

/-- C07, the part that holds: where the toroidal field vanishes (the midplane
in particular) the stored `E_r` is recovered. -/
theorem E_r_recovered_partial
    (h : rhs_equation P x s = (code, some d)) (hE : P.use_E_r = true)
    (hφ : s.B_φ = 0) (hD : s.η_O + s.η_A ≠ 0)
    (hZ : s.η_O + s.η_A * (1 - (s.B_r / B_mag s) ^ 2) +
      (s.η_H * (s.B_θ / B_mag s)) ^ 2 / (s.η_O + s.η_A) ≠ 0) :
    RecoversE_r P x s d := by
  have := E_r_recovery_error P x s d code h hE _ _ _ _ ⟨rfl, rfl, rfl⟩ rfl
    (by simpa [hφ] using hD)
    (by
      simp only [hφ, zero_div, mul_zero, sub_zero] at hZ ⊢
      intro h0; apply hZ
      rw [← h0]; ring)
  simp only [hφ, zero_div, mul_zero, zero_mul, sub_zero] at this
  rw [RecoversE_r]; linarith

example :=
  E_r_recovered_partial witE 0 { witS with B_φ := 0 } _ _
    (accepted _ _ _ (by norm_num [witS]) (by norm_num [witS])) rfl rfl
    (by norm_num [witS])
    (by
      have : B_mag { witS with B_φ := 0 } ^ 2 = 5 := by
        rw [B_mag_sq]; norm_num [witS]
      rw [mul_pow, div_pow, div_pow, this]; norm_num [witS])

/-- C07, the part that holds: for purely Ohmic diffusion the stored `E_r` is
recovered. -/
theorem E_r_recovered_ohmic_partial
    (h : rhs_equation P x s = (code, some d)) (hE : P.use_E_r = true)
    (hA : s.η_A = 0) (hH : s.η_H = 0) (hO : s.η_O ≠ 0) :
    RecoversE_r P x s d := by
  have := E_r_recovery_error P x s d code h hE _ _ _ _ ⟨rfl, rfl, rfl⟩ rfl
    (by simpa [hA] using hO) (by simpa [hA, hH] using hO)
  simp only [hA, hH, zero_mul, mul_zero, add_zero, sub_zero] at this
  rw [RecoversE_r]; linarith

example := E_r_recovered_ohmic_partial witE (1/10)
  { witS with η_A := 0, η_H := 0 } _ _
  (accepted _ _ _ (by norm_num [witS]) (by norm_num [witS])) rfl rfl rfl
  (by norm_num [witS])

/-- C07 is false: at `witS` (angle 0) the recovered radial field differs from the
stored one. -/
theorem E_r_not_recovered : ∃ P x s d, rhs_equation P x s = (0, some d) ∧
    P.use_E_r = true ∧ 0 < s.η_O ∧ 0 < s.ρ ∧ 0 < s.v_θ ∧
    ¬ RecoversE_r P x s d := by
  refine ⟨{ witE with γ := 1/4 }, 0, { witS with X := 0, η_H := 0 }, _,
    accepted _ _ _ (by norm_num [witS]) (by norm_num [witS]), rfl, by norm_num [witS],
    by norm_num [witS], by norm_num [witS], ?_⟩
  intro h
  have hm : B_mag { witS with X := 0, η_H := 0 } = 3 := witS_mag
  have e := E_r_recovery_error { witE with γ := 1/4 } 0
    { witS with X := 0, η_H := 0 } _ _
    (accepted _ _ _ (by norm_num [witS]) (by norm_num [witS])) rfl _ _ _ _
    ⟨rfl, rfl, rfl⟩ rfl (by rw [hm]; norm_num [witS])
    (by rw [hm]; norm_num [witS])
  rw [RecoversE_r] at h
  rw [h, hm] at e
  have hB : (rhsDerivs { witE with γ := 1/4 } (0 * witE.θ_scale)
      { witS with X := 0, η_H := 0 }).B_φ ≠ 0 := by
    simp only [rhsDerivs, rhsValues, hm]
    norm_num [witE, witP, witS, deriv_B_φ_func, C_func, Z_5_func]
  apply hB
  have e' := e
  simp only [zero_mul, Real.tan_zero, mul_zero] at e'
  norm_num [witS, witE, witP] at e' ⊢
  exact e'

end C07

section C08

variable (P : OdeArgs) (f : ℝ → St) (θ : ℝ)

/-- The electric field along a curve, from the code's own functions and the
code's own derivatives at each angle. -/
noncomputable def electricAlong (P : OdeArgs) (f : ℝ → St) (t : ℝ) : V3 :=
  electricOf P.γ t (f t) (rhsDerivs P t (f t))

/-- C08 in full: along a curve that follows the right-hand side the radial
electric field changes as steady induction requires (`(∇×E)_φ = 0` for fields
scaling as `r^(γ-7/4)`). -/
def SatisfiesInduction (P : OdeArgs) (f : ℝ → St) (θ : ℝ) : Prop :=
  HasDerivAt (fun t => (electricAlong P f t).r)
    ((P.γ - 3/4) * (electricAlong P f θ).θ) θ

/-- The term of Ohm's law whose sign `dderiv_B_φ_soln` has reversed:
`B_φ (tan θ (η_O + η_A (1 - b_r²)) + (1/4 - γ)(η_H b_φ + η_A b_r b_θ))`. -/
noncomputable def flippedTerm (P : OdeArgs) (s : St) (t : ℝ) : ℝ :=
  s.B_φ * (Real.tan t * (s.η_O + s.η_A * (1 - (s.B_r / B_mag s) ^ 2)) +
    (1/4 - P.γ) * (s.η_H * (s.B_φ / B_mag s) +
      s.η_A * (s.B_r / B_mag s) * (s.B_θ / B_mag s)))

/-- C08, exact error: what satisfies induction is the radial field minus twice
`flippedTerm`. -/
theorem induction_error (hs : P.θ_scale = 1) (hE : P.use_E_r = false)
    (h : Follows P f θ) (hc : Real.cos θ ≠ 0)
    (hB : (f θ).B_r ^ 2 + (f θ).B_φ ^ 2 + (f θ).B_θ ^ 2 ≠ 0)
    (hD : (f θ).η_O + (f θ).η_A * (1 - ((f θ).B_φ / B_mag (f θ)) ^ 2) ≠ 0)
    (hZ : (f θ).η_O + (f θ).η_A * (1 - ((f θ).B_r / B_mag (f θ)) ^ 2) +
      ((f θ).η_H * ((f θ).B_θ / B_mag (f θ)) -
        (f θ).η_A * ((f θ).B_r / B_mag (f θ)) * ((f θ).B_φ / B_mag (f θ))) /
        ((f θ).η_O + (f θ).η_A * (1 - ((f θ).B_φ / B_mag (f θ)) ^ 2)) *
      ((f θ).η_H * ((f θ).B_θ / B_mag (f θ)) +
        (f θ).η_A * ((f θ).B_r / B_mag (f θ)) * ((f θ).B_φ / B_mag (f θ))) ≠ 0) :
    HasDerivAt (fun t => (electricAlong P f t).r - 2 * flippedTerm P (f t) t)
      ((P.γ - 3/4) * (electricAlong P f θ).θ) θ := by
  obtain ⟨hf, -⟩ := h.elim hs
  have hbr := hasDerivAt_unit hf.B_r hf.B_r hf.B_φ hf.B_θ hB
  have hbφ := hasDerivAt_unit hf.B_φ hf.B_r hf.B_φ hf.B_θ hB
  have hbθ := hasDerivAt_unit hf.B_θ hf.B_r hf.B_φ hf.B_θ hB
  have hC := hasDerivAt_C hf.η_O hf.η_A hf.η_H hbr hbφ hbθ hD
  have key := hasDerivAt_E_r (γ := P.γ) hc hf.B_r hf.B_φ hf.B_θ hf.v_r hf.v_φ
    hf.v_θ hf.X hf.η_O hf.η_A hf.η_H hbr hbφ hbθ hC (rhs_B_φ P θ (f θ) hE) hZ
    (by simp [rhsDerivs, rhsValues, hE, B_unit_derivs, B_mag])
  refine (key.congr_of_eventuallyEq ?_).congr_deriv ?_
  · refine Filter.Eventually.of_forall fun t => ?_
    have e1 := rhs_B_r P t (f t)
    rw [rhs_B_φ P t (f t) hE] at e1
    simp only [electricAlong, electricOf, currentOf, E_r_func, J_r_func,
      J_θ_func, J_φ_func, flippedTerm, C_func, e1, rhs_B_φ P t (f t) hE,
      deriv_B_r_func]
    have e2 : (f t).η_O + (f t).η_A * (1 - (f t).B_φ / B_mag (f t)) *
        (1 + (f t).B_φ / B_mag (f t)) =
        (f t).η_O + (f t).η_A * (1 - ((f t).B_φ / B_mag (f t)) ^ 2) := by ring
    rw [e2]
    ring
  · simp only [electricAlong, electricOf, currentOf]

/-- C08, when it holds: exactly when twice `flippedTerm` is stationary. -/
theorem induction_iff (hs : P.θ_scale = 1) (hE : P.use_E_r = false)
    (h : Follows P f θ) (hc : Real.cos θ ≠ 0)
    (hB : (f θ).B_r ^ 2 + (f θ).B_φ ^ 2 + (f θ).B_θ ^ 2 ≠ 0)
    (hD : (f θ).η_O + (f θ).η_A * (1 - ((f θ).B_φ / B_mag (f θ)) ^ 2) ≠ 0)
    (hZ : (f θ).η_O + (f θ).η_A * (1 - ((f θ).B_r / B_mag (f θ)) ^ 2) +
      ((f θ).η_H * ((f θ).B_θ / B_mag (f θ)) -
        (f θ).η_A * ((f θ).B_r / B_mag (f θ)) * ((f θ).B_φ / B_mag (f θ))) /
        ((f θ).η_O + (f θ).η_A * (1 - ((f θ).B_φ / B_mag (f θ)) ^ 2)) *
      ((f θ).η_H * ((f θ).B_θ / B_mag (f θ)) +
        (f θ).η_A * ((f θ).B_r / B_mag (f θ)) * ((f θ).B_φ / B_mag (f θ))) ≠ 0) :
    SatisfiesInduction P f θ ↔
      HasDerivAt (fun t => flippedTerm P (f t) t) 0 θ := by
  have key := induction_error P f θ hs hE h hc hB hD hZ
  constructor
  · intro h1
    refine (((h1.fun_sub key).div_const 2).congr_of_eventuallyEq ?_).congr_deriv ?_
    · exact Filter.Eventually.of_forall fun t => by ring
    · ring
  · intro h1
    refine ((key.fun_add (h1.const_mul 2)).congr_of_eventuallyEq ?_).congr_deriv ?_
    · exact Filter.Eventually.of_forall fun t => by ring
    · ring

example := by
  have h := witC_at witP
  exact induction_error witP _ (1/10) rfl rfl (witC_follows witP rfl) cos_tenth
    (by rw [h]; norm_num [witS]) (by rw [h, witS_mag]; norm_num [witS])
    (by rw [h, witS_mag]; norm_num [witS])

/-- C08, the part that holds: where the toroidal field and its derivative both
vanish, induction is satisfied. -/
theorem induction_partial (hs : P.θ_scale = 1) (hE : P.use_E_r = false)
    (h : Follows P f θ) (hc : Real.cos θ ≠ 0)
    (hB : (f θ).B_r ^ 2 + (f θ).B_φ ^ 2 + (f θ).B_θ ^ 2 ≠ 0)
    (hφ : (f θ).B_φ = 0) (hX : (f θ).X = 0)
    (hD : (f θ).η_O + (f θ).η_A ≠ 0)
    (hZ : (f θ).η_O + (f θ).η_A * (1 - ((f θ).B_r / B_mag (f θ)) ^ 2) +
      ((f θ).η_H * ((f θ).B_θ / B_mag (f θ))) ^ 2 /
        ((f θ).η_O + (f θ).η_A) ≠ 0) :
    SatisfiesInduction P f θ := by
  rw [induction_iff P f θ hs hE h hc hB (by simpa [hφ] using hD) (by
    simp only [hφ, zero_div, mul_zero, sub_zero, add_zero] at hZ ⊢
    intro h0; apply hZ; rw [← h0]; ring)]
  obtain ⟨hf, -⟩ := h.elim hs
  have hbr := hasDerivAt_unit hf.B_r hf.B_r hf.B_φ hf.B_θ hB
  have hbφ := hasDerivAt_unit hf.B_φ hf.B_r hf.B_φ hf.B_θ hB
  have hbθ := hasDerivAt_unit hf.B_θ hf.B_r hf.B_φ hf.B_θ hB
  have hP := hf.η_O.fun_add (hf.η_A.fun_mul (((hbr.fun_pow 2).const_sub 1)))
  have hS := (hf.η_H.fun_mul hbφ).fun_add ((hf.η_A.fun_mul hbr).fun_mul hbθ)
  have h4 := hf.B_φ.fun_mul (((hasDerivAt_tan' hc).fun_mul hP).fun_add
    (hS.const_mul (1/4 - P.γ)))
  refine h4.congr_deriv ?_
  rw [rhs_B_φ P θ (f θ) hE, hX, hφ]
  ring

example := induction_partial witP
  (line { witS with B_φ := 0, X := 0 }
    (rhsDerivs witP (1/10) { witS with B_φ := 0, X := 0 }) (1/10)) (1/10) rfl rfl
  (follows_line witP (1/10) { witS with B_φ := 0, X := 0 } rfl
    (by norm_num [witS]) (by norm_num [witS])) cos_tenth
  (by rw [line_at]; norm_num [witS]) (by rw [line_at]) (by rw [line_at])
  (by rw [line_at]; norm_num [witS])
  (by
    have : B_mag { witS with B_φ := 0, X := 0 } ^ 2 = 5 := by
      rw [B_mag_sq]; norm_num [witS]
    rw [line_at, mul_pow, div_pow, div_pow, this]; norm_num [witS])

/-- C08 is false: a state at angle 0, with `γ = 1/4` and constant diffusivities,
through which no curve following the right-hand side satisfies induction. -/
theorem induction_fails : ∃ (P : OdeArgs) (s : St), P.θ_scale = 1 ∧
    P.use_E_r = false ∧ 0 < s.ρ ∧ 0 < s.v_θ ∧ 0 < s.η_O ∧
    (∃ f, f 0 = s ∧ Follows P f 0) ∧
    ∀ f, f 0 = s → Follows P f 0 → ¬ SatisfiesInduction P f 0 := by
  refine ⟨{ witP with γ := 1/4, η_derivs := false }, witS, rfl, rfl,
    by norm_num [witS], by norm_num [witS], by norm_num [witS],
    exists_follows _ 0 witS rfl (by norm_num [witS]) (by norm_num [witS]), ?_⟩
  intro f h0 hF hI
  have hc : Real.cos 0 ≠ 0 := by simp
  have hB : (f 0).B_r ^ 2 + (f 0).B_φ ^ 2 + (f 0).B_θ ^ 2 ≠ 0 := by
    rw [h0]; norm_num [witS]
  rw [induction_iff _ f 0 rfl rfl hF hc hB
    (by rw [h0, witS_mag]; norm_num [witS])
    (by rw [h0, witS_mag]; norm_num [witS])] at hI
  obtain ⟨hf, -⟩ := hF.elim rfl
  have hbr := hasDerivAt_unit hf.B_r hf.B_r hf.B_φ hf.B_θ hB
  have hbφ := hasDerivAt_unit hf.B_φ hf.B_r hf.B_φ hf.B_θ hB
  have hbθ := hasDerivAt_unit hf.B_θ hf.B_r hf.B_φ hf.B_θ hB
  have hP := hf.η_O.fun_add (hf.η_A.fun_mul (((hbr.fun_pow 2).const_sub 1)))
  have hS := (hf.η_H.fun_mul hbφ).fun_add ((hf.η_A.fun_mul hbr).fun_mul hbθ)
  have h4 := hf.B_φ.fun_mul (((hasDerivAt_tan' hc).fun_mul hP).fun_add
    (hS.const_mul ((1/4 : ℝ) - 1/4)))
  have h5 := h4.unique hI
  simp only [Real.tan_zero, h0, witS_mag] at h5
  norm_num [witS] at h5

end C08

end DiscSolver
