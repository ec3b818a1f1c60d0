import Verif.Model.State
import Verif.Lemmas.Curve

/-!
# How well a sampled flow determines its derivatives
-/

namespace DiscSolver.Approx

/-- Two states agree up to `ε` in every component. -/
structure Within (ε : ℝ) (a b : St) : Prop where
  B_r : |a.B_r - b.B_r| ≤ ε
  B_φ : |a.B_φ - b.B_φ| ≤ ε
  B_θ : |a.B_θ - b.B_θ| ≤ ε
  v_r : |a.v_r - b.v_r| ≤ ε
  v_φ : |a.v_φ - b.v_φ| ≤ ε
  v_θ : |a.v_θ - b.v_θ| ≤ ε
  ρ : |a.ρ - b.ρ| ≤ ε
  X : |a.X - b.X| ≤ ε
  η_O : |a.η_O - b.η_O| ≤ ε
  η_A : |a.η_A - b.η_A| ≤ ε
  η_H : |a.η_H - b.η_H| ≤ ε

/-- `f` has the derivative `d` on `S`, and `d` changes by at most `M` per angle there. -/
structure Smooth (f d : ℝ → St) (S : Set ℝ) (M : ℝ) : Prop where
  deriv : ∀ θ ∈ S, HasStDeriv f (d θ) θ
  slow : ∀ θ ∈ S, ∀ θ' ∈ S, Within (M * |θ - θ'|) (d θ) (d θ')

/-- Increasing angles in an interval `S`, neighbours at most `h` apart. -/
structure Sampled (angles : List ℝ) (S : Set ℝ) (h : ℝ) : Prop where
  interval : S.OrdConnected
  inside : ∀ θ ∈ angles, θ ∈ S
  two : 2 ≤ angles.length
  increasing : ∀ i (hi : i + 1 < angles.length), angles[i] < angles[i + 1]
  close : ∀ i (hi : i + 1 < angles.length), angles[i + 1] - angles[i] ≤ h

end DiscSolver.Approx
