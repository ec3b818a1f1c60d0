import Mathlib.Topology.Algebra.Order.Field
import Verif.Lemmas.Curve
import Verif.Model.SonicPoint

/-!
# Specification of the slope of `v_θ` at the sonic point

At the sonic point (`v_θ = 1` in the solver's units) the right-hand side has no value for
`v_θ'`, and `deriv_v_θ_sonic` is to supply it.  A curve of states goes smoothly through
the sonic point when the derivatives the right-hand side returns just beside the point
tend to the derivative of the curve there.
-/

namespace DiscSolver

open Filter Topology

namespace SonicPoint

/-- Component by component, `g` tends to `d`. -/
structure StTendsto (g : ℝ → St) (l : Filter ℝ) (d : St) : Prop where
  B_r : Tendsto (fun t => (g t).B_r) l (𝓝 d.B_r)
  B_φ : Tendsto (fun t => (g t).B_φ) l (𝓝 d.B_φ)
  B_θ : Tendsto (fun t => (g t).B_θ) l (𝓝 d.B_θ)
  v_r : Tendsto (fun t => (g t).v_r) l (𝓝 d.v_r)
  v_φ : Tendsto (fun t => (g t).v_φ) l (𝓝 d.v_φ)
  v_θ : Tendsto (fun t => (g t).v_θ) l (𝓝 d.v_θ)
  ρ : Tendsto (fun t => (g t).ρ) l (𝓝 d.ρ)
  X : Tendsto (fun t => (g t).X) l (𝓝 d.X)
  η_O : Tendsto (fun t => (g t).η_O) l (𝓝 d.η_O)
  η_A : Tendsto (fun t => (g t).η_A) l (𝓝 d.η_A)
  η_H : Tendsto (fun t => (g t).η_H) l (𝓝 d.η_H)

/-- The solver's equations in the formulation that integrates `E_r`, away from the
midplane, with `v_θ'` from the equations. -/
structure Plain (P : OdeArgs) : Prop where
  E : P.use_E_r = true
  T : P.with_taylor = false
  f : P.deriv_v_θ_func = none

/-- `f` goes smoothly through the sonic point at `θ₀`, with derivative `d₀` there. -/
structure Through (P : OdeArgs) (f : ℝ → St) (θ₀ : ℝ) (d₀ : St) : Prop where
  deriv : HasStDeriv f d₀ θ₀
  sonic : (f θ₀).v_θ = 1
  crosses : d₀.v_θ ≠ 0
  limit : StTendsto (fun t => rhsDerivs P t (f t)) (𝓝[≠] θ₀) d₀

/-- The state at the sonic point is one the formulas divide by nothing zero in. -/
structure Regular (θ₀ : ℝ) (s : St) : Prop where
  cos : Real.cos θ₀ ≠ 0
  ρ : s.ρ ≠ 0
  B : s.B_r ^ 2 + s.B_φ ^ 2 + s.B_θ ^ 2 ≠ 0
  D : s.η_O + s.η_A * (1 - (s.B_φ / B_mag s) ^ 2) ≠ 0
  Z : Z_5_func (η_O := s.η_O) (η_A := s.η_A) (η_H := s.η_H) (b_r := s.B_r / B_mag s)
    (b_θ := s.B_θ / B_mag s) (b_φ := s.B_φ / B_mag s)
    (C := C_func (η_O := s.η_O) (η_A := s.η_A) (η_H := s.η_H) (b_θ := s.B_θ / B_mag s)
      (b_r := s.B_r / B_mag s) (b_φ := s.B_φ / B_mag s)) ≠ 0

/-- The call of `deriv_v_θ_sonic` for the state `s` at `θ₀`, where the derivatives are
those in `d₀`.  (`d₀.v_θ` is not passed.) -/
noncomputable def callAt (P : OdeArgs) (θ₀ : ℝ) (s d₀ : St) : Args :=
  { a_0 := P.a_0, ρ := s.ρ, B_r := s.B_r, B_φ := s.B_φ, B_θ := s.B_θ, η_O := s.η_O,
    η_H := s.η_H, η_A := s.η_A, θ := θ₀, v_r := s.v_r, v_φ := s.v_φ, v_θ := 1,
    deriv_v_r := d₀.v_r, deriv_v_φ := d₀.v_φ, deriv_B_r := d₀.B_r,
    deriv_B_θ := d₀.B_θ, deriv_B_φ := d₀.B_φ, γ := P.γ, η_O_0 := P.init_con.η_O,
    η_A_0 := P.init_con.η_A, η_H_0 := P.init_con.η_H, η_derivs := P.η_derivs,
    E_r := some s.X, b_r := s.B_r / B_mag s, b_θ := s.B_θ / B_mag s,
    b_φ := s.B_φ / B_mag s }

/-- The error of `A_up + A_down v_θ'` as derivative of `C`. -/
noncomputable def errA (p : Args) (w : ℝ) : ℝ :=
  2 * p.η_A * p.b_φ * p.deriv_b_φ * (p.η_H * p.b_θ - p.η_A * p.b_r * p.b_φ) /
    (p.η_O + p.η_A * (1 - p.b_φ ^ 2)) ^ 2 * w

/-- The error of `Z_5_up + Z_5_down v_θ'` as derivative of `Z_5`. -/
noncomputable def errZ (p : Args) (w : ℝ) : ℝ :=
  p.η_A * p.b_r * p.deriv_b_r + errA p w * (p.η_H * p.b_θ - p.η_A * p.b_r * p.b_φ)

/-- The error of the second derivative of `B_φ`. -/
noncomputable def errB_φ (p : Args) (w : ℝ) : ℝ :=
  (errA p w * (p.v_θ * p.B_r - p.v_r * p.B_θ - p.B_φ * (
      p.η_A * p.b_φ * (p.b_r * Real.tan p.θ - p.b_θ * (1 / 4 - p.γ)) +
      p.η_H * (p.b_r * (1 / 4 - p.γ) + p.b_θ * Real.tan p.θ))) -
    errZ p w * p.deriv_B_φ - p.C * p.B_r * w) / p.Z_5

/-- The error of the quadratic. -/
noncomputable def slopeError (p : Args) (w : ℝ) : ℝ :=
  p.a_0 / p.ρ * (p.B_φ - p.B_r * (p.η_H * p.b_θ + p.η_A * p.b_r * p.b_φ) /
    (p.η_O + p.η_A * (1 - p.b_φ ^ 2))) * errB_φ p w

end SonicPoint

end DiscSolver
