import Verif.Props.Hydro
import Verif.Model.ModHydro

/-!
# C59: the modified hydrostatic solver
-/

namespace DiscSolver.ModHydro

open Spec
open Hydro (Static X_func X_dash_func Z_1_func Z_4_func)

/-- The radial momentum residual with the centrifugal term linearised about
Keplerian rotation, `v_φ² ≈ K + 2 √K (v_φ - √K)`. -/
noncomputable def keplerRes (a K : ℝ) (f : Flow) : ℝ :=
  radialRes (5/4) a K f + f.v_φ ^ 2 - (2 * Real.sqrt K * f.v_φ - K)

/-- The linearised radial balance misses the exact one by the square of the
deviation from Keplerian rotation. -/
theorem keplerRes_gap (a K : ℝ) (hK : 0 ≤ K) (f : Flow) (h : keplerRes a K f = 0) :
    radialRes (5/4) a K f = -(f.v_φ - Real.sqrt K) ^ 2 := by
  have hs := Real.sq_sqrt hK
  unfold keplerRes at h
  linear_combination h + hs

/-- C59. Only a negative density is rejected. -/
theorem mod_hydro_outcomes (P : Args) (x : ℝ) (s : St) :
    (s.ρ < 0 → rhs_equation P x s = (1, s, none)) ∧
    (0 ≤ s.ρ → ∃ s' d, rhs_equation P x s = (0, s', some d)) := by
  constructor
  · intro h; simp [rhs_equation, h]
  · intro h
    simp only [rhs_equation, not_lt.2 h, if_false]
    by_cases hE : P.use_E_r = true
    · simp [hE]
    · simp [hE]

theorem accepted_cases {P : Args} {x : ℝ} {s s' d : St} {code : ℤ}
    (h : rhs_equation P x s = (code, s', some d)) :
    (P.use_E_r = true ∧ s' = withVelocities P (x * P.θ_scale) s ∧
      d = derivsE P (x * P.θ_scale) s') ∨
    (P.use_E_r = false ∧ s' = s ∧ d = derivsB P (x * P.θ_scale) s) := by
  simp only [rhs_equation, scaled_to_rad] at h
  by_cases h1 : s.ρ < 0
  · simp [h1] at h
  · by_cases hE : P.use_E_r = true
    · simp only [h1, hE, if_true, if_false, Prod.mk.injEq, Option.some.injEq] at h
      obtain ⟨-, rfl, rfl⟩ := h
      exact .inl ⟨hE, rfl, rfl⟩
    · simp only [h1, hE, if_false, Prod.mk.injEq, Option.some.injEq,
        Bool.false_eq_true] at h
      obtain ⟨-, rfl, rfl⟩ := h
      exact .inr ⟨by simpa using hE, rfl, rfl⟩

theorem statics_core (θ a_0 : ℝ) (s d : St) (hs : Static s) (hv : d.v_θ = 0)
    (hBθ : d.B_θ = s.B_θ * Real.tan θ - 3/4 * s.B_r)
    (hBr : d.B_r = Hydro.deriv_B_r_val θ s.B_φ s.B_θ s.v_r d.B_φ s.η_O s.η_A
      s.η_H (s.B_r / B_mag s) (s.B_φ / B_mag s) (s.B_θ / B_mag s))
    (hρ : d.ρ = Hydro.deriv_ρ_val θ a_0 s.B_r s.B_φ s.B_θ s.v_φ s.ρ d.B_r d.B_φ) :
    Continuity (5/4) (flowOf θ s d) ∧ Solenoid (5/4) (flowOf θ s d) ∧
    PolarMomentum (5/4) a_0 (flowOf θ s d) ∧
    PolarInduction (5/4) (s.B_r / B_mag s) (s.B_φ / B_mag s)
      (s.B_θ / B_mag s) (flowOf θ s d) := by
  obtain ⟨hv0, hρ0, hη⟩ := hs
  refine ⟨?_, ?_, ?_, ?_⟩
  · simp only [Continuity, continuityRes, flowOf, hv0, hv]
    ring
  · simp only [Solenoid, solenoidRes, flowOf, hBθ]
    ring
  · simp only [PolarMomentum, polarRes, flowOf, hρ, hv0, Hydro.deriv_ρ_val]
    field_simp
    ring
  · simp only [PolarInduction, polarInductionRes, flowOf, hBr, hv0,
      Hydro.deriv_B_r_val]
    generalize s.B_φ / B_mag s = bφ at *
    generalize s.B_r / B_mag s = br at *
    generalize s.B_θ / B_mag s = bθ at *
    have e : s.η_O + s.η_A * (1 - bφ) * (1 + bφ) =
        s.η_O + s.η_A * (1 - bφ ^ 2) := by ring
    rw [e]
    field_simp
    ring

/-- C59. In both formulations an accepted call on a static state returns
derivatives which, with the state the call leaves behind, conserve mass, keep
the field divergence free, balance the vertical forces and satisfy the poloidal
induction equation. -/
theorem mod_hydro_statics (P : Args) (x : ℝ) (s s' d : St) (code : ℤ)
    (h : rhs_equation P x s = (code, s', some d)) (hs : Static s) :
    Continuity (5/4) (flowOf (x * P.θ_scale) s' d) ∧
    Solenoid (5/4) (flowOf (x * P.θ_scale) s' d) ∧
    PolarMomentum (5/4) P.a_0 (flowOf (x * P.θ_scale) s' d) ∧
    PolarInduction (5/4) (s.B_r / B_mag s) (s.B_φ / B_mag s)
      (s.B_θ / B_mag s) (flowOf (x * P.θ_scale) s' d) ∧
    d.v_θ = 0 ∧ s'.v_θ = 0 := by
  rcases accepted_cases h with ⟨-, h1, h2⟩ | ⟨-, rfl, rfl⟩
  · have hs' : Static s' := by rw [h1]; exact ⟨hs.v_θ, hs.ρ, hs.η⟩
    have key := statics_core (x * P.θ_scale) P.a_0 s' d hs' (by rw [h2]; rfl)
      (by rw [h2]; rfl) (by rw [h2]; rfl) (by rw [h2]; rfl)
    refine ⟨key.1, key.2.1, key.2.2.1, ?_, by rw [h2]; rfl, hs'.v_θ⟩
    have := key.2.2.2
    rw [h1] at this ⊢
    exact this
  · have key := statics_core (x * P.θ_scale) P.a_0 s'
      (derivsB P (x * P.θ_scale) s') hs rfl rfl rfl rfl
    exact ⟨key.1, key.2.1, key.2.2.1, key.2.2.2, rfl, hs.v_θ⟩

/-- C59. In the electric field formulation a call changes only the two
horizontal velocities, and their reported derivatives are zero. -/
theorem mod_hydro_E_r_writes (P : Args) (x : ℝ) (s s' d : St) (code : ℤ)
    (h : rhs_equation P x s = (code, s', some d)) (hE : P.use_E_r = true) :
    s' = { s with v_r := s'.v_r, v_φ := s'.v_φ } ∧ d.v_r = 0 ∧ d.v_φ = 0 ∧
      s' = fixRow P x s := by
  rcases accepted_cases h with ⟨-, h1, h2⟩ | ⟨hE', -⟩
  · refine ⟨by rw [h1]; rfl, by rw [h2]; rfl, by rw [h2]; rfl, ?_⟩
    simp [fixRow, hE, h1, scaled_to_rad]
  · rw [hE] at hE'; cases hE'

/-- The number the tracker returned is a root of the cubic it was given. -/
def IsRoot (p : ℝ × ℝ × ℝ × ℝ) (r : ℝ) : Prop :=
  p.1 * r ^ 3 + p.2.1 * r ^ 2 + p.2.2.1 * r + p.2.2.2 = 0

/-- `C` and `Z_5` at a state, the code's own auxiliary quantities
(`mod_hydro.py:429-433`). -/
noncomputable def CAt (s : St) : ℝ :=
  C_func s.η_O s.η_A s.η_H (s.B_θ / B_mag s) (s.B_r / B_mag s) (s.B_φ / B_mag s)

/-- See `CAt`. -/
noncomputable def Z_5At (s : St) : ℝ :=
  Z_5_func s.η_O s.η_A s.η_H (s.B_r / B_mag s) (s.B_θ / B_mag s)
    (s.B_φ / B_mag s) (CAt s)

/-- See `CAt`. -/
noncomputable def Z_8At (θ : ℝ) (s : St) : ℝ :=
  Z_8_func θ (s.B_r / B_mag s) (s.B_θ / B_mag s) (s.B_φ / B_mag s) s.B_φ s.η_O
    s.η_A s.η_H s.X (Z_5At s) (CAt s)

/-- The cubic handed to the tracker at a state (`mod_hydro.py:443-447`). -/
noncomputable def coeffsAt (P : Args) (θ : ℝ) (s : St) : ℝ × ℝ × ℝ × ℝ :=
  v_r_coeffs θ P.a_0 (Real.sqrt P.norm_kepler_sq) s.ρ (Z_5At s) (Z_8At θ s)
    s.B_r s.B_θ s.B_φ (s.B_r / B_mag s) (s.B_θ / B_mag s) (s.B_φ / B_mag s)
    s.η_O s.η_A s.η_H (CAt s)
    (X_func s.η_O s.η_A s.η_H (s.B_θ / B_mag s) (s.B_r / B_mag s)
      (s.B_φ / B_mag s))

theorem E_r_values {P : Args} {x : ℝ} {s s' d : St} {code : ℤ}
    (h : rhs_equation P x s = (code, s', some d)) (hE : P.use_E_r = true) :
    s' = { s with v_r := s'.v_r, v_φ := s'.v_φ } ∧
    s'.v_φ = v_φ_func (x * P.θ_scale) P.a_0 s.ρ (Z_5At s)
      (Z_8At (x * P.θ_scale) s) s'.v_r s.B_r s.B_θ s.B_φ (CAt s) ∧
    d.B_φ = deriv_B_φ_func (Z_5At s) (Z_8At (x * P.θ_scale) s) s'.v_r s'.v_φ
      s.B_θ (CAt s) ∧
    d.B_r = Hydro.deriv_B_r_val (x * P.θ_scale) s.B_φ s.B_θ s'.v_r d.B_φ s.η_O
      s.η_A s.η_H (s.B_r / B_mag s) (s.B_φ / B_mag s) (s.B_θ / B_mag s) ∧
    s'.v_r = P.tracker (coeffsAt P (x * P.θ_scale) s) := by
  rcases accepted_cases h with ⟨-, h1, h2⟩ | ⟨hE', -⟩
  · subst h2
    subst h1
    exact ⟨rfl, rfl, rfl, rfl, rfl⟩
  · rw [hE] at hE'; cases hE'

/-- C59. In the electric field formulation the velocities written by a call make
the azimuthal momentum balance hold exactly, whatever root the tracker
returned. -/
theorem mod_hydro_E_r_azimuthal (P : Args) (x : ℝ) (s s' d : St) (code : ℤ)
    (h : rhs_equation P x s = (code, s', some d)) (hE : P.use_E_r = true)
    (hs : Static s) (ha : P.a_0 ≠ 0) (hZ : Z_5At s ≠ 0)
    (hden : s.B_θ ^ 2 / Z_5At s + s'.v_r * s.ρ / (2 * P.a_0) ≠ 0) :
    AzimuthalMomentum (5/4) P.a_0 (flowOf (x * P.θ_scale) s' d) := by
  obtain ⟨e1, e2, e3, -, -⟩ := E_r_values h hE
  have hρ := hs.ρ
  rw [v_φ_func, eq_div_iff hden] at e2
  have f1 : s'.B_r = s.B_r := by rw [e1]
  have f2 : s'.B_φ = s.B_φ := by rw [e1]
  have f3 : s'.B_θ = s.B_θ := by rw [e1]
  have f4 : s'.ρ = s.ρ := by rw [e1]
  have f5 : s'.v_θ = 0 := by rw [e1]; exact hs.v_θ
  simp only [AzimuthalMomentum, azimuthalRes, flowOf, f1, f2, f3, f4, f5, e3,
    deriv_B_φ_func]
  generalize Z_5At s = Z5 at *
  generalize Z_8At _ s = Z8 at *
  generalize CAt s = C at *
  linear_combination (norm := (field_simp; ring)) P.a_0 / s.ρ * e2

/-- C59. If moreover the tracker's answer is a root of the cubic it was handed,
the velocities also satisfy the radial momentum balance linearised about
Keplerian rotation, so they miss the exact radial balance by exactly the square
of the deviation of `v_φ` from Keplerian rotation. -/
theorem mod_hydro_E_r_radial (P : Args) (x : ℝ) (s s' d : St) (code : ℤ)
    (h : rhs_equation P x s = (code, s', some d)) (hE : P.use_E_r = true)
    (hs : Static s) (ha : P.a_0 ≠ 0) (hZ : Z_5At s ≠ 0)
    (hK : 0 < P.norm_kepler_sq) (hroot : IsRoot (coeffsAt P (x * P.θ_scale) s) s'.v_r)
    (hden : s.B_θ ^ 2 / Z_5At s + s'.v_r * s.ρ / (2 * P.a_0) ≠ 0) :
    keplerRes P.a_0 P.norm_kepler_sq (flowOf (x * P.θ_scale) s' d) = 0 ∧
    radialRes (5/4) P.a_0 P.norm_kepler_sq (flowOf (x * P.θ_scale) s' d) =
      -(s'.v_φ - Real.sqrt P.norm_kepler_sq) ^ 2 := by
  have main : keplerRes P.a_0 P.norm_kepler_sq (flowOf (x * P.θ_scale) s' d) = 0 := by
    obtain ⟨e1, e2, e3, e4, -⟩ := E_r_values h hE
    have hr := hroot
    have hρ := hs.ρ
    have hη := hs.η
    rw [v_φ_func, eq_div_iff hden] at e2
    have f2 : s'.B_φ = s.B_φ := by rw [e1]
    have f3 : s'.B_θ = s.B_θ := by rw [e1]
    have f4 : s'.ρ = s.ρ := by rw [e1]
    have f5 : s'.v_θ = 0 := by rw [e1]; exact hs.v_θ
    have hsK := Real.sq_sqrt hK.le
    have hn : Real.sqrt P.norm_kepler_sq ≠ 0 := (Real.sqrt_pos.2 hK).ne'
    have eD : s.η_O + s.η_A * (1 - s.B_φ / B_mag s) * (1 + s.B_φ / B_mag s) =
        s.η_O + s.η_A * (1 - (s.B_φ / B_mag s) ^ 2) := by ring
    simp only [keplerRes, radialRes, flowOf, f2, f3, f4, f5, e4,
      Hydro.deriv_B_r_val, eD]
    simp only [IsRoot, coeffsAt, v_r_coeffs, X_func] at hr
    rw [e3] at *
    clear e1 e3 e4 f2 f3 f4 f5 eD
    simp only [deriv_B_φ_func] at *
    generalize Real.sqrt P.norm_kepler_sq = n at *
    rw [← hsK]
    clear hsK
    generalize Z_5At s = Z5 at *
    generalize Z_8At _ s = Z8 at *
    generalize CAt s = C at *
    generalize s.B_φ / B_mag s = bφ at *
    generalize s.B_r / B_mag s = br at *
    generalize s.B_θ / B_mag s = bθ at *
    generalize Real.tan (x * P.θ_scale) = t at *
    generalize s.η_O + s.η_A * (1 - bφ ^ 2) = D at *
    generalize s.η_H * bθ + s.η_A * br * bφ = N at *
    generalize s.η_A * bφ * (br * t - bθ / 4) + s.η_H * (br / 4 + bθ * t) = Q at *
    apply mul_left_cancel₀ hden
    rw [mul_zero]
    linear_combination (norm := (field_simp; ring)) (-2 * n) * hr -
      2 * n * (1 + P.a_0 * (N / D) * s.B_θ ^ 2 / (2 * n * s.ρ * Z5)) * e2
  exact ⟨main, keplerRes_gap _ _ hK.le _ main⟩

/-- C59. In the electric field formulation the radial electric field that Ohm's
law gives for the returned derivatives differs from the stored one by the term
below; both agree without Hall and ambipolar diffusion. -/
theorem mod_hydro_E_r_error (P : Args) (x : ℝ) (s s' d : St) (code : ℤ)
    (h : rhs_equation P x s = (code, s', some d)) (hE : P.use_E_r = true)
    (hs : Static s) (hZ : Z_5At s ≠ 0) (b_r b_φ b_θ : ℝ)
    (hb : b_r = s.B_r / B_mag s ∧ b_φ = s.B_φ / B_mag s ∧ b_θ = s.B_θ / B_mag s) :
    E_r_func (v_θ := 0) (v_φ := s'.v_φ) (B_θ := s.B_θ) (B_φ := s.B_φ)
        (J_r := J_r_func (x * P.θ_scale) s.B_φ d.B_φ) (J_θ := J_θ_func 0 s.B_φ)
        (J_φ := J_φ_func 0 s.B_θ d.B_r) (η_O := s.η_O) (η_A := s.η_A)
        (η_H := s.η_H) (b_r := b_r) (b_θ := b_θ) (b_φ := b_φ) - s.X =
      2 * (s.η_H * b_θ - s.η_A * b_r * b_φ) /
        (s.η_O + s.η_A * (1 - b_φ ^ 2)) * (
        s.B_φ * (s.η_A * b_φ * (b_r * Real.tan (x * P.θ_scale) - b_θ / 4) +
          s.η_H * (b_r / 4 + b_θ * Real.tan (x * P.θ_scale))) -
        d.B_φ * (s.η_A * b_r * b_φ)) := by
  obtain ⟨-, -, e3, e4, -⟩ := E_r_values h hE
  obtain ⟨rfl, rfl, rfl⟩ := hb
  have hη := hs.η
  have eD : s.η_O + s.η_A * (1 - s.B_φ / B_mag s) * (1 + s.B_φ / B_mag s) =
      s.η_O + s.η_A * (1 - (s.B_φ / B_mag s) ^ 2) := by ring
  have e3' : d.B_φ * Z_5At s = -s.B_θ * (s'.v_φ + CAt s * s'.v_r) - s.X + s.B_φ * (
      Real.tan (x * P.θ_scale) * (s.η_O + s.η_A * (1 - (s.B_r / B_mag s) ^ 2)) + (
        s.η_H * (s.B_φ / B_mag s) + s.η_A * (s.B_r / B_mag s) * (s.B_θ / B_mag s)
      ) / 4 - CAt s * (
        s.η_A * (s.B_φ / B_mag s) * (
          (s.B_r / B_mag s) * Real.tan (x * P.θ_scale) - (s.B_θ / B_mag s) / 4
        ) + s.η_H * (
          (s.B_r / B_mag s) / 4 + (s.B_θ / B_mag s) * Real.tan (x * P.θ_scale)))) := by
    rw [e3, deriv_B_φ_func, Z_8At, Z_8_func]
    rw [add_mul, div_mul_cancel₀ _ hZ, mul_right_comm, div_mul_cancel₀ _ hZ]
    ring
  simp only [E_r_func, J_r_func, J_θ_func, J_φ_func, e4, Hydro.deriv_B_r_val, eD]
  simp only [Z_5At, Z_5_func, CAt, C_func] at e3'
  generalize s.B_φ / B_mag s = bφ at *
  generalize s.B_r / B_mag s = br at *
  generalize s.B_θ / B_mag s = bθ at *
  generalize Real.tan (x * P.θ_scale) = t at *
  generalize s.η_O + s.η_A * (1 - bφ ^ 2) = D at *
  linear_combination (norm := (field_simp; ring)) (-1) * e3'

/-- C59. Without Hall and ambipolar diffusion the stored electric field is the
one of Ohm's law. -/
theorem mod_hydro_E_r_ohmic (P : Args) (x : ℝ) (s s' d : St) (code : ℤ)
    (h : rhs_equation P x s = (code, s', some d)) (hE : P.use_E_r = true)
    (hs : Static s) (hZ : Z_5At s ≠ 0) (hA : s.η_A = 0) (hH : s.η_H = 0) :
    E_r_func (v_θ := 0) (v_φ := s'.v_φ) (B_θ := s.B_θ) (B_φ := s.B_φ)
        (J_r := J_r_func (x * P.θ_scale) s.B_φ d.B_φ) (J_θ := J_θ_func 0 s.B_φ)
        (J_φ := J_φ_func 0 s.B_θ d.B_r) (η_O := s.η_O) (η_A := s.η_A)
        (η_H := s.η_H) (b_r := s.B_r / B_mag s) (b_θ := s.B_θ / B_mag s)
        (b_φ := s.B_φ / B_mag s) = s.X := by
  have e := mod_hydro_E_r_error P x s s' d code h hE hs hZ _ _ _ ⟨rfl, rfl, rfl⟩
  rw [← sub_eq_zero, e]
  simp [hA, hH]

/-- The denominator the code divides by to get the radial acceleration in the
`B_φ'` formulation (`mod_hydro.py:305-307`). -/
noncomputable def velDenom (P : Args) (θ : ℝ) (s : St) : ℝ :=
  s.v_φ ^ 2 * s.ρ * Real.sqrt P.norm_kepler_sq -
    Z_4_func s.B_θ s.B_r s.B_φ s.X θ * P.a_0 * s.v_r

theorem velocity_derivs (P : Args) (θ : ℝ) (s : St) :
    ∃ Z_2 X : ℝ,
      (derivsB P θ s).v_φ = Z_2 - (derivsB P θ s).v_r * s.v_r /
        (2 * Real.sqrt P.norm_kepler_sq) + (derivsB P θ s).X * s.B_θ * X /
          (2 * Real.sqrt P.norm_kepler_sq) ∧
      (derivsB P θ s).v_r = (Z_1_func θ P.a_0 s.B_φ s.B_θ s.B_r s.ρ
          (derivsB P θ s).B_r s.X (derivsB P θ s).B_θ s.v_φ
          (derivsB P θ s).ρ * s.v_φ ^ 2 * s.ρ * Real.sqrt P.norm_kepler_sq -
          2 * Z_2 * Z_4_func s.B_θ s.B_r s.B_φ s.X θ * P.a_0 *
            Real.sqrt P.norm_kepler_sq +
          (derivsB P θ s).X * P.a_0 * s.B_θ * (
            2 * s.v_φ * Real.sqrt P.norm_kepler_sq -
            Z_4_func s.B_θ s.B_r s.B_φ s.X θ * X)) / velDenom P θ s := by
  simp only [derivsB]
  exact ⟨_, _, rfl, rfl⟩

/-- C59. In the `B_φ'` formulation a curve following the right-hand side stays
in azimuthal balance. -/
theorem mod_hydro_azimuthal_preserved (P : Args) (f : ℝ → St) (θ : ℝ) (s' d : St)
    (hsc : P.θ_scale = 1) (hE : P.use_E_r = false)
    (h : rhs_equation P θ (f θ) = (0, s', some d)) (hd : HasStDeriv f d θ)
    (hv : ∀ t, (f t).v_θ = 0) (hρ : (f θ).ρ ≠ 0) (hφ : (f θ).v_φ ≠ 0)
    (hK : 0 < P.norm_kepler_sq)
    (hc : Real.cos θ ≠ 0) (hW : velDenom P θ (f θ) ≠ 0)
    (hb : AzimuthalMomentum (5/4) P.a_0 (flowOf θ (f θ) d)) :
    HasDerivAt (fun t => azimuthalRes (5/4) P.a_0
      (flowOf t (f t) (derivsB P t (f t)))) 0 θ := by
  have hd' : d = derivsB P θ (f θ) := by
    rcases accepted_cases h with ⟨hE', -⟩ | ⟨-, -, hd'⟩
    · rw [hE] at hE'; cases hE'
    · rw [hd', hsc, mul_one]
  have hn : Real.sqrt P.norm_kepler_sq ≠ 0 := (Real.sqrt_pos.2 hK).ne'
  obtain ⟨Z_2, X, h1, h2⟩ := velocity_derivs P θ (f θ)
  rw [← hd'] at h1 h2
  have hBφ : d.B_φ = (f θ).X := by rw [hd']; rfl
  have e : (fun t => azimuthalRes (5/4) P.a_0
      (flowOf t (f t) (derivsB P t (f t)))) = fun t =>
      1/2 * (f t).v_r * (f t).v_φ - P.a_0 / (f t).ρ * (
        (f t).B_θ * (f t).X - 1/4 * (f t).B_r * (f t).B_φ -
        Real.tan t * (f t).B_θ * (f t).B_φ) := by
    funext t
    have : (derivsB P t (f t)).B_φ = (f t).X := rfl
    simp only [azimuthalRes, flowOf, hv t, this]
    ring
  rw [e]
  have D := (((hd.v_r.fun_mul hd.v_φ).const_mul (1/2)).fun_sub
    (((hasDerivAt_const θ P.a_0).fun_div hd.ρ hρ).fun_mul
      (((hd.B_θ.fun_mul hd.X).fun_sub
        ((hd.B_r.fun_mul hd.B_φ).const_mul (1/4))).fun_sub
        ((Hydro.hasDerivAt_tan' hc).fun_mul (hd.B_θ.fun_mul hd.B_φ)))))
  have D' := D.congr_of_eventuallyEq (f₁ := fun t =>
      1/2 * (f t).v_r * (f t).v_φ - P.a_0 / (f t).ρ * (
        (f t).B_θ * (f t).X - 1/4 * (f t).B_r * (f t).B_φ -
        Real.tan t * (f t).B_θ * (f t).B_φ))
    (Filter.Eventually.of_forall fun t => by simp only; ring)
  refine D'.congr_deriv ?_
  simp only [AzimuthalMomentum, azimuthalRes, flowOf, hv θ, hBφ] at hb
  simp only [hBφ]
  rw [eq_div_iff hW] at h2
  simp only [velDenom, Z_1_func, Z_4_func] at h2
  generalize f θ = s at *
  generalize sec θ = c at *
  generalize Real.tan θ = t at *
  generalize Real.sqrt P.norm_kepler_sq = n at *
  have h3 : s.v_φ * (d.v_r * s.v_φ * s.ρ) + 2 * P.a_0 * d.v_φ * (
      s.B_θ * s.X - s.B_r * s.B_φ / 4 - s.B_θ * s.B_φ * t) =
      2 * P.a_0 * s.v_φ * (d.B_θ * (s.X - s.B_φ * t) -
        (d.B_r * s.B_φ + s.B_r * s.X) / 4 - s.B_θ * s.X * t -
        s.B_θ * s.B_φ * c ^ 2 - d.ρ / s.ρ * (
          s.B_θ * s.X - s.B_r * s.B_φ / 4 - s.B_θ * s.B_φ * t) +
        s.B_θ * d.X) := by
    apply mul_left_cancel₀ hn
    rw [h1]
    linear_combination (norm := (field_simp; ring)) h2
  have hb' : 2 * P.a_0 * (s.B_θ * s.X - s.B_r * s.B_φ / 4 - s.B_θ * s.B_φ * t)
      = s.ρ * s.v_r * s.v_φ := by
    linear_combination (norm := (field_simp; ring)) (-2 * s.ρ) * hb
  have h4 : d.v_r * s.v_φ * s.ρ + s.ρ * s.v_r * d.v_φ =
      2 * P.a_0 * (d.B_θ * (s.X - s.B_φ * t) -
        (d.B_r * s.B_φ + s.B_r * s.X) / 4 - s.B_θ * s.X * t -
        s.B_θ * s.B_φ * c ^ 2 - d.ρ / s.ρ * (
          s.B_θ * s.X - s.B_r * s.B_φ / 4 - s.B_θ * s.B_φ * t) +
        s.B_θ * d.X) := by
    apply mul_left_cancel₀ hφ
    linear_combination h3 - d.v_φ * hb'
  linear_combination (norm := (field_simp; ring)) 1 / (2 * s.ρ) * h4

/-- C59. In the `B_φ'` formulation the linearised radial balance is *not*
preserved: for purely Ohmic diffusion its residual changes at the rate
`(a_0 B_θ² / (ρ η_O)) v_r'`, because the code leaves the drag of the changing
inflow out of the derivative of the rotation speed. -/
theorem mod_hydro_radial_drift (P : Args) (f : ℝ → St) (θ : ℝ) (s' d : St)
    (hsc : P.θ_scale = 1) (hE : P.use_E_r = false)
    (h : rhs_equation P θ (f θ) = (0, s', some d)) (hd : HasStDeriv f d θ)
    (hv : ∀ t, (f t).v_θ = 0) (hρ : (f θ).ρ ≠ 0) (hK : 0 < P.norm_kepler_sq)
    (hO : Hydro.Ohmic f) (hη : (f θ).η_O ≠ 0) :
    HasDerivAt (fun t => keplerRes P.a_0 P.norm_kepler_sq
        (flowOf t (f t) (derivsB P t (f t))))
      (P.a_0 * (f θ).B_θ ^ 2 / ((f θ).ρ * (f θ).η_O) * d.v_r) θ := by
  have hd' : d = derivsB P θ (f θ) := by
    rcases accepted_cases h with ⟨hE', -⟩ | ⟨-, -, hd'⟩
    · rw [hE] at hE'; cases hE'
    · rw [hd', hsc, mul_one]
  have hn : Real.sqrt P.norm_kepler_sq ≠ 0 := (Real.sqrt_pos.2 hK).ne'
  have hBr : ∀ t, (derivsB P t (f t)).B_r =
      -((f t).v_r * (f t).B_θ) / (f t).η_O - (f t).B_θ / 4 := by
    intro t
    simp only [derivsB, Hydro.deriv_B_r_val, (hO t).1, (hO t).2]
    ring
  have e : (fun t => keplerRes P.a_0 P.norm_kepler_sq
      (flowOf t (f t) (derivsB P t (f t)))) = fun t =>
      (2 * P.norm_kepler_sq - 5/2) - (1/2 * (f t).v_r ^ 2 +
        2 * Real.sqrt P.norm_kepler_sq * (f t).v_φ +
        P.a_0 / (f t).ρ * ((f t).B_φ ^ 2 / 4 -
          (f t).v_r * (f t).B_θ ^ 2 / (f t).η_O)) := by
    funext t
    simp only [keplerRes, radialRes, flowOf, hv t, hBr t]
    ring
  rw [e]
  have D := (((((hd.v_r.fun_pow 2).const_mul (1/2)).fun_add
    (hd.v_φ.const_mul (2 * Real.sqrt P.norm_kepler_sq))).fun_add
    (((hasDerivAt_const θ P.a_0).fun_div hd.ρ hρ).fun_mul
      (((hd.B_φ.fun_pow 2).div_const 4).fun_sub
        ((hd.v_r.fun_mul (hd.B_θ.fun_pow 2)).fun_div hd.η_O hη)))).const_sub
      (2 * P.norm_kepler_sq - 5/2))
  refine D.congr_deriv ?_
  have hBφ : d.B_φ = (f θ).X := by rw [hd']; rfl
  have hA : d.η_A = 0 := by
    have : (fun t => (f t).η_A) = fun _ => 0 := funext fun t => (hO t).1
    exact (this ▸ hd.η_A).unique (hasDerivAt_const θ 0)
  have hH : d.η_H = 0 := by
    have : (fun t => (f t).η_H) = fun _ => 0 := funext fun t => (hO t).2
    exact (this ▸ hd.η_H).unique (hasDerivAt_const θ 0)
  have hv' : ∃ db_θ db_φ db_r X, X = X_func (f θ).η_O (f θ).η_A (f θ).η_H
        ((f θ).B_θ / B_mag (f θ)) ((f θ).B_r / B_mag (f θ))
        ((f θ).B_φ / B_mag (f θ)) ∧ d.v_φ =
      Z_2_func θ P.a_0 X (f θ).v_r (f θ).B_φ (f θ).B_θ (f θ).ρ (f θ).η_A
        (f θ).η_O (f θ).η_H ((f θ).B_φ / B_mag (f θ))
        ((f θ).B_r / B_mag (f θ)) ((f θ).B_θ / B_mag (f θ))
        (X_dash_func (f θ).η_O (f θ).η_A (f θ).η_H ((f θ).B_θ / B_mag (f θ))
          ((f θ).B_r / B_mag (f θ)) ((f θ).B_φ / B_mag (f θ)) d.η_O d.η_A d.η_H
          db_θ db_r db_φ)
        (f θ).X d.B_θ db_θ db_φ db_r d.η_O d.η_A d.η_H d.ρ
        (Real.sqrt P.norm_kepler_sq) - d.v_r * (f θ).v_r /
          (2 * Real.sqrt P.norm_kepler_sq) + d.X * (f θ).B_θ * X /
          (2 * Real.sqrt P.norm_kepler_sq) := by
    subst hd'
    simp only [derivsB]
    exact ⟨_, _, _, _, rfl, rfl⟩
  obtain ⟨dbθ, dbφ, dbr, X, hX, hv'⟩ := hv'
  rw [hA, hH, (hO θ).1, (hO θ).2] at hv'
  rw [(hO θ).1, (hO θ).2] at hX
  generalize f θ = s at *
  have hX0 : X = 0 := by rw [hX]; simp [X_func]
  have hXd : X_dash_func s.η_O 0 0 (s.B_θ / B_mag s) (s.B_r / B_mag s)
      (s.B_φ / B_mag s) d.η_O 0 0 dbθ dbr dbφ = 0 := by simp [X_dash_func]
  rw [hX0, hXd] at hv'
  rw [hBφ, hv']
  simp only [Z_2_func]
  generalize Real.sqrt P.norm_kepler_sq = n at *
  push_cast
  simp only [zero_mul, mul_zero, add_zero, sub_zero, zero_div]
  field_simp
  ring

/-- The right-hand side parameters which `solution` builds from initial
conditions. -/
def argsOf (c : Conditions) (e u : Bool) (tracker : ℝ × ℝ × ℝ × ℝ → ℝ) : Args :=
  { a_0 := c.a_0, norm_kepler_sq := c.norm_kepler_sq, init_con := c.init_con,
    η_derivs := e, use_E_r := u, tracker := tracker }

/-- C59. The initial conditions of the `B_φ'` formulation start in balance: all
equations hold at the midplane, the radial one in its linearised form. -/
theorem mod_hydro_midplane (inp : NumInput) (e : Bool)
    (tr : ℝ × ℝ × ℝ × ℝ → ℝ) (hE : inp.use_E_r = false)
    (ha : inp.v_a_on_c_s ≠ 0) (hη : inp.η_O + inp.η_A ≠ 0)
    (hk : inp.c_s_on_v_k ≠ 0)
    (hden : 2 * Real.sqrt (1 / inp.c_s_on_v_k ^ 2) +
      inp.v_rin_on_c_s * inp.η_H / (2 * (inp.η_O + inp.η_A)) ≠ 0) :
    ∃ c d, c = mod_hydro_define_conditions inp ∧
      rhs_equation (argsOf c e false tr) 0 c.init_con = (0, c.init_con, some d) ∧
      Continuity (5/4) (flowOf 0 c.init_con d) ∧
      Solenoid (5/4) (flowOf 0 c.init_con d) ∧
      PolarMomentum (5/4) c.a_0 (flowOf 0 c.init_con d) ∧
      PolarInduction (5/4) 0 0 1 (flowOf 0 c.init_con d) ∧
      keplerRes c.a_0 c.norm_kepler_sq (flowOf 0 c.init_con d) = 0 ∧
      AzimuthalMomentum (5/4) c.a_0 (flowOf 0 c.init_con d) := by
  obtain ⟨c, hc⟩ : ∃ c, c = mod_hydro_define_conditions inp := ⟨_, rfl⟩
  simp only [mod_hydro_define_conditions, hE, Bool.false_eq_true, if_false] at hc
  have hcall : rhs_equation (argsOf c e false tr) 0 c.init_con =
      (0, c.init_con, some (derivsB (argsOf c e false tr) 0 c.init_con)) := by
    have : ¬ c.init_con.ρ < 0 := by rw [hc]; norm_num
    simp [rhs_equation, this, argsOf, scaled_to_rad]
  have hm : B_mag c.init_con = 1 := by
    rw [hc]; norm_num [B_mag]
  have hs : Static c.init_con := by
    refine ⟨by rw [hc], by rw [hc]; norm_num, ?_⟩
    rw [hm, hc]
    simpa using hη
  have hB : (derivsB (argsOf c e false tr) 0 c.init_con).B_r =
      (-(c.init_con.X * c.init_con.η_H) - c.init_con.v_r) /
        (c.init_con.η_O + c.init_con.η_A) - 1 / 4 := by
    simp only [derivsB, Hydro.deriv_B_r_val, hm]
    rw [hc]
    norm_num
  have hBφ : (derivsB (argsOf c e false tr) 0 c.init_con).B_φ = c.init_con.X := rfl
  have st := mod_hydro_statics _ _ _ _ _ _ hcall hs
  rw [zero_mul, hm] at st
  have hv : c.init_con.v_φ * (2 * Real.sqrt (1 / inp.c_s_on_v_k ^ 2) +
      inp.v_rin_on_c_s * inp.η_H / (2 * (inp.η_O + inp.η_A))) =
      2 * (1 / inp.c_s_on_v_k ^ 2) - 5 / 2 + -inp.v_rin_on_c_s * (
        inp.v_a_on_c_s ^ 2 / (inp.η_O + inp.η_A) - -inp.v_rin_on_c_s / 2) := by
    rw [hc]
    simp only [v_φ_mid]
    rw [← eq_div_iff hden]
    congr 1
    ring
  refine ⟨c, derivsB (argsOf c e false tr) 0 c.init_con, ?_, hcall, st.1, st.2.1,
    st.2.2.1, ?_, ?_, ?_⟩
  · simp only [mod_hydro_define_conditions, hE, Bool.false_eq_true, if_false]
    exact hc
  · have e1 : c.init_con.B_r / 1 = 0 := by rw [hc]; norm_num
    have e2 : c.init_con.B_φ / 1 = 0 := by rw [hc]; norm_num
    have e3 : c.init_con.B_θ / 1 = 1 := by rw [hc]; norm_num
    have := st.2.2.2.1
    rw [e1, e2, e3] at this
    exact this
  · simp only [keplerRes, radialRes, flowOf, hB]
    have k1 : c.init_con.X = c.init_con.v_φ * c.init_con.v_r / (2 * c.a_0) := by
      rw [hc]; rfl
    rw [k1]
    generalize c.init_con.v_φ = v at hv ⊢
    rw [hc]
    dsimp only
    generalize Real.sqrt (1 / inp.c_s_on_v_k ^ 2) = n at *
    linear_combination (norm := (field_simp; ring)) (-1) * hv
  · simp only [AzimuthalMomentum, azimuthalRes, flowOf, hBφ]
    have k1 : c.init_con.X = c.init_con.v_φ * c.init_con.v_r / (2 * c.a_0) := by
      rw [hc]; rfl
    rw [k1]
    generalize c.init_con.v_φ = v at hv ⊢
    rw [hc]
    simp only [Real.tan_zero]
    field_simp
    ring

/-- C59. In the electric field formulation the radial velocity of the initial
conditions is a root of the cubic set up at the midplane, so a tracker started
there finds it, and a call with that root leaves the initial state as it is. -/
theorem mod_hydro_E_r_start (inp : NumInput) (e : Bool) (hE : inp.use_E_r = true)
    (ha : inp.v_a_on_c_s ≠ 0) (hη : inp.η_O + inp.η_A ≠ 0)
    (hk : inp.c_s_on_v_k ≠ 0)
    (hv : 2 * Real.sqrt (1 / inp.c_s_on_v_k ^ 2) +
      inp.v_rin_on_c_s * inp.η_H / (2 * (inp.η_O + inp.η_A)) ≠ 0)
    (tr : ℝ × ℝ × ℝ × ℝ → ℝ) (c : Conditions)
    (hc : c = mod_hydro_define_conditions inp) :
    IsRoot (coeffsAt (argsOf c e true tr) 0 c.init_con) c.init_con.v_r ∧
    (tr (coeffsAt (argsOf c e true tr) 0 c.init_con) = c.init_con.v_r →
      1 / Z_5At c.init_con + c.init_con.v_r / (2 * c.a_0) ≠ 0 →
      ∃ d, rhs_equation (argsOf c e true tr) 0 c.init_con =
        (0, c.init_con, some d)) := by
  have hP : (inp.η_O + inp.η_A) ^ 2 + inp.η_H ^ 2 ≠ 0 := by positivity
  simp only [mod_hydro_define_conditions, hE, if_true] at hc
  have hm : B_mag c.init_con = 1 := by
    rw [hc]; norm_num [B_mag]
  have hC : CAt c.init_con = inp.η_H / (inp.η_O + inp.η_A) := by
    rw [CAt, hm, hc]
    norm_num [C_func]
  have hX : X_func c.init_con.η_O c.init_con.η_A c.init_con.η_H
      (c.init_con.B_θ / B_mag c.init_con) (c.init_con.B_r / B_mag c.init_con)
      (c.init_con.B_φ / B_mag c.init_con) = inp.η_H / (inp.η_O + inp.η_A) := by
    rw [hm, hc]
    norm_num [X_func]
  have hZ5 : Z_5At c.init_con =
      ((inp.η_O + inp.η_A) ^ 2 + inp.η_H ^ 2) / (inp.η_O + inp.η_A) := by
    rw [Z_5At, hC, hm, hc]
    simp only [Z_5_func]
    field_simp
    ring
  have hZ8 : Z_8At 0 c.init_con = -c.init_con.X / Z_5At c.init_con := by
    rw [Z_8At, Z_8_func]
    have : c.init_con.B_φ = 0 := by rw [hc]
    rw [this]
    ring
  have hX' : c.init_con.X = -c.init_con.v_φ - c.init_con.v_r /
      (inp.η_O + inp.η_A) * (inp.η_H + ((inp.η_O + inp.η_A) ^ 2 + inp.η_H ^ 2) *
        c.init_con.v_φ / (2 * c.a_0)) := by
    rw [hc]; rfl
  have hvφ : c.init_con.v_φ * (2 * Real.sqrt (1 / inp.c_s_on_v_k ^ 2) +
      inp.v_rin_on_c_s * inp.η_H / (2 * (inp.η_O + inp.η_A))) =
      2 * (1 / inp.c_s_on_v_k ^ 2) - 5 / 2 + -inp.v_rin_on_c_s * (
        inp.v_a_on_c_s ^ 2 / (inp.η_O + inp.η_A) - -inp.v_rin_on_c_s / 2) := by
    rw [hc]
    simp only [v_φ_mid]
    rw [← eq_div_iff hv]
    congr 1
    ring
  have hn : Real.sqrt (1 / inp.c_s_on_v_k ^ 2) ≠ 0 :=
    (Real.sqrt_pos.2 (by positivity)).ne'
  have hsK : Real.sqrt (1 / inp.c_s_on_v_k ^ 2) ^ 2 = 1 / inp.c_s_on_v_k ^ 2 :=
    Real.sq_sqrt (by positivity)
  constructor
  · simp only [IsRoot, coeffsAt, v_r_coeffs, hX, hC, hZ8, hX', hZ5]
    generalize c.init_con.v_φ = v at *
    rw [hm, hc]
    simp only [argsOf]
    generalize Real.sqrt (1 / inp.c_s_on_v_k ^ 2) = n at *
    rw [← hsK] at hvφ
    simp only [Real.tan_zero]
    have hq : inp.η_O + inp.η_A * (1 - (0 / 1) ^ 2) = inp.η_O + inp.η_A := by ring
    rw [hq]
    generalize inp.η_O + inp.η_A = q at *
    linear_combination (norm := (field_simp; ring))
      (q / (q ^ 2 + inp.η_H ^ 2) - inp.v_rin_on_c_s / (2 * inp.v_a_on_c_s ^ 2)) /
        (2 * n) * hvφ
  · intro htr hden
    refine ⟨derivsE (argsOf c e true tr) 0 c.init_con, ?_⟩
    have hw : withVelocities (argsOf c e true tr) 0 c.init_con = c.init_con := by
      have hr : (withVelocities (argsOf c e true tr) 0 c.init_con).v_r =
          c.init_con.v_r := htr
      have hφ : (withVelocities (argsOf c e true tr) 0 c.init_con).v_φ =
          c.init_con.v_φ := by
        have h1 : (withVelocities (argsOf c e true tr) 0 c.init_con).v_φ =
            v_φ_func 0 c.a_0 c.init_con.ρ (Z_5At c.init_con) (Z_8At 0 c.init_con)
              (tr (coeffsAt (argsOf c e true tr) 0 c.init_con)) c.init_con.B_r
              c.init_con.B_θ c.init_con.B_φ (CAt c.init_con) := rfl
        rw [h1, htr, v_φ_func]
        have e1 : c.init_con.ρ = 1 := by rw [hc]
        have e2 : c.init_con.B_θ = 1 := by rw [hc]
        have e3 : c.init_con.B_φ = 0 := by rw [hc]
        have e4 : c.a_0 ≠ 0 := by rw [hc]; positivity
        rw [e1, e2, e3, one_pow, mul_one, div_eq_iff hden, hZ8, hX', hC, hZ5]
        field_simp
        ring
      have h2 : withVelocities (argsOf c e true tr) 0 c.init_con =
          { c.init_con with
            v_r := (withVelocities (argsOf c e true tr) 0 c.init_con).v_r
            v_φ := (withVelocities (argsOf c e true tr) 0 c.init_con).v_φ } := rfl
      rw [h2, hr, hφ]
    have hρ : ¬ c.init_con.ρ < 0 := by rw [hc]; norm_num
    simp [rhs_equation, hρ, argsOf, scaled_to_rad] at hw ⊢
    rw [hw]
    trivial

/-- A purely Ohmic state in balance for `witMP`, in both formulations: its `X` is
both the `B_φ'` and the `E_r` which balance it. -/
noncomputable def witM : St :=
  { B_r := 0, B_φ := 1, B_θ := 1, v_r := -1, v_φ := 783/80, v_θ := 0, ρ := 1,
    X := -783/160, η_O := 1, η_A := 0, η_H := 0 }

/-- Parameters for `witM`. -/
noncomputable def witMP (u : Bool) : Args :=
  { a_0 := 1, norm_kepler_sq := 100, init_con := witM, η_derivs := false,
    use_E_r := u, tracker := fun _ => -1 }

theorem sqrt_100 : Real.sqrt 100 = 10 := by
  rw [show (100:ℝ) = 10 ^ 2 by norm_num, Real.sqrt_sq (by norm_num)]

theorem witM_static : Static witM :=
  ⟨rfl, by norm_num [witM], by norm_num [witM]⟩

theorem witM_call : rhs_equation (witMP false) 0 witM =
    (0, witM, some (derivsB (witMP false) 0 witM)) := by
  norm_num [rhs_equation, witM, witMP, scaled_to_rad]

theorem witM_callE : rhs_equation (witMP true) 0 witM =
    (0, withVelocities (witMP true) 0 witM,
      some (derivsE (witMP true) 0 (withVelocities (witMP true) 0 witM))) := by
  norm_num [rhs_equation, witM, witMP, scaled_to_rad]

theorem witM_Z5 : Z_5At witM = 1 := by
  norm_num [Z_5At, Z_5_func, CAt, C_func, witM]

theorem witM_C : CAt witM = 0 := by norm_num [CAt, C_func, witM]

theorem witM_den : witM.B_θ ^ 2 / Z_5At witM +
    (withVelocities (witMP true) 0 witM).v_r * witM.ρ / (2 * (witMP true).a_0) ≠ 0 := by
  rw [witM_Z5, show (withVelocities (witMP true) 0 witM).v_r = -1 from rfl]
  norm_num [witM, witMP]

theorem witM_root : IsRoot (coeffsAt (witMP true) (0 * (witMP true).θ_scale) witM)
    (withVelocities (witMP true) 0 witM).v_r := by
  rw [show (withVelocities (witMP true) 0 witM).v_r = -1 from rfl]
  simp only [IsRoot, coeffsAt, v_r_coeffs, witM_Z5, witM_C, Z_8At, Z_8_func]
  norm_num [witM, witMP, X_func, sqrt_100]

/-- A density that became negative. -/
example := (mod_hydro_outcomes (witMP false) 0 { witM with ρ := -1 }).1 (by norm_num)

example := mod_hydro_statics (witMP false) 0 witM _ _ _ witM_call witM_static
example := mod_hydro_statics (witMP true) 0 witM _ _ _ witM_callE witM_static
example := mod_hydro_E_r_writes (witMP true) 0 witM _ _ _ witM_callE rfl
example := mod_hydro_E_r_azimuthal (witMP true) 0 witM _ _ _ witM_callE rfl
  witM_static (by norm_num [witMP]) (by rw [witM_Z5]; norm_num) witM_den
example := mod_hydro_E_r_radial (witMP true) 0 witM _ _ _ witM_callE rfl
  witM_static (by norm_num [witMP]) (by rw [witM_Z5]; norm_num)
  (by norm_num [witMP]) witM_root witM_den
example := mod_hydro_E_r_error (witMP true) 0 witM _ _ _ witM_callE rfl
  witM_static (by rw [witM_Z5]; norm_num) _ _ _ ⟨rfl, rfl, rfl⟩
example := mod_hydro_E_r_ohmic (witMP true) 0 witM _ _ _ witM_callE rfl
  witM_static (by rw [witM_Z5]; norm_num) rfl rfl

/-- The straight curve through `witM` along its derivatives. -/
noncomputable def witCurve : ℝ → St := line witM (derivsB (witMP false) 0 witM) 0

theorem witCurve_zero : witCurve 0 = witM := line_at _ _ _

theorem witCurve_follows : rhs_equation (witMP false) 0 (witCurve 0) =
    (0, witM, some (derivsB (witMP false) 0 witM)) := by
  rw [witCurve_zero]; exact witM_call

theorem witM_zero : (derivsB (witMP false) 0 witM).v_θ = 0 ∧
    (derivsB (witMP false) 0 witM).η_A = 0 ∧
    (derivsB (witMP false) 0 witM).η_H = 0 := ⟨rfl, rfl, rfl⟩

theorem witCurve_static (t : ℝ) : (witCurve t).v_θ = 0 := by
  simp [witCurve, line, St.add, St.smul, witM_zero]
  rfl

theorem witCurve_ohmic : Hydro.Ohmic witCurve := by
  intro t
  constructor
  · simp [witCurve, line, St.add, St.smul, witM_zero]
    rfl
  · simp [witCurve, line, St.add, St.smul, witM_zero]
    rfl

theorem witM_denom : velDenom (witMP false) 0 witM ≠ 0 := by
  norm_num [velDenom, witMP, witM, Z_4_func, sqrt_100]

theorem witM_azimuthal : AzimuthalMomentum (5/4) (witMP false).a_0
    (flowOf 0 witM (derivsB (witMP false) 0 witM)) := by
  have : (derivsB (witMP false) 0 witM).B_φ = witM.X := rfl
  simp only [AzimuthalMomentum, azimuthalRes, flowOf, this]
  norm_num [witM, witMP]

theorem witM_radial : keplerRes (witMP false).a_0 (witMP false).norm_kepler_sq
    (flowOf 0 witM (derivsB (witMP false) 0 witM)) = 0 := by
  have : (derivsB (witMP false) 0 witM).B_r = 3/4 := by
    norm_num [derivsB, Hydro.deriv_B_r_val, witM]
  simp only [keplerRes, radialRes, flowOf, this]
  norm_num [witM, witMP, sqrt_100]

theorem witM_deriv_v_r : (derivsB (witMP false) 0 witM).v_r ≠ 0 := by
  simp only [derivsB]
  norm_num [witMP, witM, X_func, X_dash_func, Z_1_func, Z_2_func, Z_3_func,
    Z_4_func, Z_6_func, Z_7_func, Z_5_func, C_func, A_func,
    Hydro.dderiv_B_φ_func, deriv_v_r_func, Hydro.deriv_B_r_val,
    Hydro.deriv_ρ_val, sec, sqrt_100]

example := mod_hydro_azimuthal_preserved (witMP false) witCurve 0 _ _ rfl rfl
  witCurve_follows (hasStDeriv_line _ _ _) witCurve_static
  (by rw [witCurve_zero]; norm_num [witM]) (by rw [witCurve_zero]; norm_num [witM])
  (by norm_num [witMP]) (by simp) (by rw [witCurve_zero]; exact witM_denom)
  (by rw [witCurve_zero]; exact witM_azimuthal)

/-- C59 is false for the linearised radial balance as well: there is a curve
following the right-hand side through a state in balance along which the
residual of the linearised radial balance has a nonzero derivative. -/
theorem mod_hydro_radial_not_preserved : ∃ (P : Args) (f : ℝ → St) (θ : ℝ)
    (s' d : St) (r : ℝ), P.use_E_r = false ∧
    rhs_equation P θ (f θ) = (0, s', some d) ∧ HasStDeriv f d θ ∧
    keplerRes P.a_0 P.norm_kepler_sq (flowOf θ (f θ) d) = 0 ∧
    AzimuthalMomentum (5/4) P.a_0 (flowOf θ (f θ) d) ∧
    HasDerivAt (fun t => keplerRes P.a_0 P.norm_kepler_sq
        (flowOf t (f t) (derivsB P t (f t)))) r θ ∧ r ≠ 0 := by
  refine ⟨witMP false, witCurve, 0, witM, _, _, rfl, witCurve_follows,
    hasStDeriv_line _ _ _, by rw [witCurve_zero]; exact witM_radial,
    by rw [witCurve_zero]; exact witM_azimuthal,
    mod_hydro_radial_drift (witMP false) witCurve 0 _ _ rfl rfl witCurve_follows
      (hasStDeriv_line _ _ _) witCurve_static
      (by rw [witCurve_zero]; norm_num [witM]) (by norm_num [witMP])
      witCurve_ohmic (by rw [witCurve_zero]; norm_num [witM]), ?_⟩
  refine mul_ne_zero ?_ witM_deriv_v_r
  rw [witCurve_zero]
  norm_num [witM, witMP]

theorem witIn_sqrt : Real.sqrt (1 / Hydro.witIn.c_s_on_v_k ^ 2) = 10 := by
  rw [show 1 / Hydro.witIn.c_s_on_v_k ^ 2 = (100:ℝ) by norm_num [Hydro.witIn], sqrt_100]

example := mod_hydro_midplane Hydro.witIn true (fun _ => 0) rfl
  (by norm_num [Hydro.witIn]) (by norm_num [Hydro.witIn]) (by norm_num [Hydro.witIn])
  (by rw [witIn_sqrt]; norm_num [Hydro.witIn])

/-- `Hydro.witIn` in the electric field formulation. -/
noncomputable def witInE : NumInput := { Hydro.witIn with use_E_r := true }

example := mod_hydro_E_r_start witInE true rfl
  (by norm_num [witInE, Hydro.witIn]) (by norm_num [witInE, Hydro.witIn])
  (by norm_num [witInE, Hydro.witIn])
  (by
    rw [show witInE.c_s_on_v_k = Hydro.witIn.c_s_on_v_k from rfl, witIn_sqrt]
    norm_num [witInE, Hydro.witIn]) (fun _ => -1) _ rfl

section
variable {μ σ : Type}

/-- C59. What the modified hydrostatic solver leaves in the run: a failing
integration leaves the run alone and passes the failure on; otherwise a fresh
run ends with the one solution, stored under "0", which is also the final
solution, and success is reported. -/
theorem mod_hydro_solver (integrate : Conditions → Except PyErr σ) (inp : NumInput)
    (run : Run μ σ) :
    (∀ e, integrate (mod_hydro_define_conditions inp) = .error e →
      solver integrate inp run = (run, .error e)) ∧
    (∀ s, integrate (mod_hydro_define_conditions inp) = .ok s →
      run.solutions = [] → run.final = .delayed →
      ∃ r, solver integrate inp run = (r, .ok true) ∧
        r.solutions = [("0", s)] ∧ r.finalSolution = .soln s ∧ r.info = run.info) := by
  refine ⟨?_, ?_⟩
  · intro e h
    simp only [solver, h]
  · intro s hi hs hf
    refine ⟨{ run with solutions := [("0", s)], final := .value (some s) },
      ?_, rfl, rfl, rfl⟩
    simp only [solver, hi, Hydro.storeSingle, Run.setFinal, hf, hs, Dict.set]

example := (mod_hydro_solver (μ := Unit) (fun _ => .ok "s") Hydro.witIn { info := () }).2 "s"
  rfl rfl rfl

end

end DiscSolver.ModHydro
