import Mathlib.Analysis.Calculus.Deriv.Basic
import Mathlib.Analysis.SpecialFunctions.Trigonometric.Basic

/-!
# Specification: steady axisymmetric non-ideal MHD in spherical coordinates

Coordinates are the radius `r`, the azimuth `φ` and the latitude `θ` (zero at
the midplane), in which `(r, φ, θ)` is right handed.  Fields do not depend on
`φ`.  Everything is stated with Mathlib's `deriv`; nothing refers to the solver
or to self-similarity.
-/

namespace DiscSolver.Spec

/-- A scalar field of radius and latitude. -/
abbrev Field := ℝ → ℝ → ℝ

/-- `∂f/∂r`. -/
noncomputable def ddr (f : Field) : Field := fun r θ => deriv (fun r' => f r' θ) r

/-- `∂f/∂θ`. -/
noncomputable def ddθ (f : Field) : Field := fun r θ => deriv (fun θ' => f r θ') θ

/-- An axisymmetric vector field. -/
structure VField where
  r : Field
  φ : Field
  θ : Field

/-- Divergence: `r⁻² ∂_r (r² A_r) + (r cos θ)⁻¹ ∂_θ (cos θ A_θ)`. -/
noncomputable def divergence (A : VField) : Field := fun r θ =>
  1 / r ^ 2 * ddr (fun r θ => r ^ 2 * A.r r θ) r θ +
    1 / (r * Real.cos θ) * ddθ (fun r θ => Real.cos θ * A.θ r θ) r θ

/-- Curl in `(r, φ, θ = latitude)`. -/
noncomputable def curl (A : VField) : VField where
  r := fun r θ => - (1 / (r * Real.cos θ) *
    ddθ (fun r θ => Real.cos θ * A.φ r θ) r θ)
  φ := fun r θ => 1 / r * (ddθ A.r r θ - ddr (fun r θ => r * A.θ r θ) r θ)
  θ := fun r θ => 1 / r * ddr (fun r θ => r * A.φ r θ) r θ

/-- Vectors at a point, components ordered `(r, φ, θ)`, right handed. -/
structure V3 where
  r : ℝ
  φ : ℝ
  θ : ℝ

/-- Cross product in the right-handed basis `(r, φ, θ)`. -/
def V3.cross (a b : V3) : V3 :=
  ⟨a.φ * b.θ - a.θ * b.φ, a.θ * b.r - a.r * b.θ, a.r * b.φ - a.φ * b.r⟩

/-- Squared length. -/
def V3.sq (a : V3) : ℝ := a.r ^ 2 + a.φ ^ 2 + a.θ ^ 2

/-- The value of a vector field at a point. -/
def VField.at (A : VField) (r θ : ℝ) : V3 := ⟨A.r r θ, A.φ r θ, A.θ r θ⟩

/-- Convective derivative `(u·∇)u` of an axisymmetric field, components in
`(r, φ, θ = latitude)`. -/
noncomputable def convective (u : VField) (r θ : ℝ) : V3 where
  r := u.r r θ * ddr u.r r θ + u.θ r θ / r * ddθ u.r r θ -
    (u.θ r θ ^ 2 + u.φ r θ ^ 2) / r
  φ := u.r r θ * ddr u.φ r θ + u.θ r θ / r * ddθ u.φ r θ +
    u.r r θ * u.φ r θ / r - u.θ r θ * u.φ r θ * Real.tan θ / r
  θ := u.r r θ * ddr u.θ r θ + u.θ r θ / r * ddθ u.θ r θ +
    u.r r θ * u.θ r θ / r + u.φ r θ ^ 2 * Real.tan θ / r

/-- A steady axisymmetric MHD configuration. -/
structure Config where
  u : VField
  B : VField
  ρ : Field
  /-- pressure -/
  p : Field
  η_O : Field
  η_A : Field
  η_H : Field

/-- `∇·(ρ u) = 0` at a point. -/
def MassConserved (c : Config) (r θ : ℝ) : Prop :=
  divergence ⟨fun r θ => c.ρ r θ * c.u.r r θ, fun r θ => c.ρ r θ * c.u.φ r θ,
    fun r θ => c.ρ r θ * c.u.θ r θ⟩ r θ = 0

/-- `∇·B = 0` at a point. -/
def DivFree (c : Config) (r θ : ℝ) : Prop := divergence c.B r θ = 0

/-- Steady momentum equation
`(u·∇)u = -∇p/ρ - (GM/r²) r̂ + (a/ρ) (∇×B)×B`, radial component. -/
def MomentumR (GM a : ℝ) (c : Config) (r θ : ℝ) : Prop :=
  (convective c.u r θ).r = - (1 / c.ρ r θ * ddr c.p r θ) - GM / r ^ 2 +
    a / c.ρ r θ * (((curl c.B).at r θ).cross (c.B.at r θ)).r

/-- Momentum equation, azimuthal component. -/
def MomentumΦ (a : ℝ) (c : Config) (r θ : ℝ) : Prop :=
  (convective c.u r θ).φ =
    a / c.ρ r θ * (((curl c.B).at r θ).cross (c.B.at r θ)).φ

/-- Momentum equation, latitudinal component. -/
def MomentumΘ (a : ℝ) (c : Config) (r θ : ℝ) : Prop :=
  (convective c.u r θ).θ = - (1 / (c.ρ r θ * r) * ddθ c.p r θ) +
    a / c.ρ r θ * (((curl c.B).at r θ).cross (c.B.at r θ)).θ

/-- Direction of a nonzero vector. -/
noncomputable def V3.unit (a : V3) : V3 :=
  ⟨a.r / Real.sqrt a.sq, a.φ / Real.sqrt a.sq, a.θ / Real.sqrt a.sq⟩

/-- Ohm's law with Ohmic, Hall and ambipolar diffusion,
`E = -u×B + η_O J + η_H J×b - η_A (J×b)×b`, `b = B/|B|`. -/
noncomputable def ohm (u B J : V3) (η_O η_A η_H : ℝ) : V3 :=
  let b := B.unit
  let hall := J.cross b
  let amb := hall.cross b
  ⟨-(u.cross B).r + η_O * J.r + η_H * hall.r - η_A * amb.r,
   -(u.cross B).φ + η_O * J.φ + η_H * hall.φ - η_A * amb.φ,
   -(u.cross B).θ + η_O * J.θ + η_H * hall.θ - η_A * amb.θ⟩

/-- The electric field of a configuration, with `J = ∇×B`. -/
noncomputable def electric (c : Config) : VField where
  r := fun r θ => (ohm (c.u.at r θ) (c.B.at r θ) ((curl c.B).at r θ)
    (c.η_O r θ) (c.η_A r θ) (c.η_H r θ)).r
  φ := fun r θ => (ohm (c.u.at r θ) (c.B.at r θ) ((curl c.B).at r θ)
    (c.η_O r θ) (c.η_A r θ) (c.η_H r θ)).φ
  θ := fun r θ => (ohm (c.u.at r θ) (c.B.at r θ) ((curl c.B).at r θ)
    (c.η_O r θ) (c.η_A r θ) (c.η_H r θ)).θ

/-- Steady induction, `∇×E = 0` at a point, azimuthal component. -/
def InductionΦ (c : Config) (r θ : ℝ) : Prop := (curl (electric c)).φ r θ = 0

end DiscSolver.Spec
