import Verif.Lemmas.SelfSimilar

/-!
A concrete state and concrete parameters, used beside the theorems to show that
their hypotheses can be met.
-/

namespace DiscSolver

/-- A state with `|B| = 3`, subsonic outflow and all diffusivities. -/
noncomputable def witS : St :=
  { B_r := 1, B_φ := 2, B_θ := 2, v_r := -1, v_φ := 2, v_θ := 1/2, ρ := 1,
    X := 1, η_O := 1, η_A := 1/2, η_H := 1/4 }

/-- Parameters of a right-hand side in the `B_φ'` formulation. -/
noncomputable def witP : OdeArgs :=
  { γ := 1/10, a_0 := 1, norm_kepler_sq := 4, init_con := witS }

/-- The same in the `E_r` formulation. -/
noncomputable def witE : OdeArgs := { witP with use_E_r := true }

theorem witS_mag : B_mag witS = 3 := by
  have : witS.B_r ^ 2 + witS.B_φ ^ 2 + witS.B_θ ^ 2 = 3 ^ 2 := by
    norm_num [witS]
  rw [B_mag, this, Real.sqrt_sq (by norm_num)]

/-- Every state with nonnegative `ρ` and `v_θ` is accepted. -/
theorem accepted (P : OdeArgs) (x : ℝ) (s : St) (h1 : 0 ≤ s.ρ) (h2 : 0 ≤ s.v_θ) :
    rhs_equation P x s = (0, some (rhsDerivs P (x * P.θ_scale) s)) := by
  simp [rhs_equation, not_lt.2 h1, not_lt.2 h2, scaled_to_rad]

theorem wit_accepted (P : OdeArgs) (x : ℝ) :
    rhs_equation P x witS = (0, some (rhsDerivs P (x * P.θ_scale) witS)) :=
  accepted P x witS (by norm_num [witS]) (by norm_num [witS])

/-- A straight line through a state in the direction of the derivatives. -/
noncomputable def line (s d : St) (θ : ℝ) (t : ℝ) : St :=
  s.add (d.smul (t - θ))

theorem line_at (s d : St) (θ : ℝ) : line s d θ θ = s := by
  simp [line, St.add, St.smul]

theorem hasStDeriv_line (s d : St) (θ : ℝ) : HasStDeriv (line s d θ) d θ := by
  have key : ∀ a b : ℝ, HasDerivAt (fun t => a + b * (t - θ)) b θ := by
    intro a b
    have := (((hasDerivAt_id θ).sub_const θ).const_mul b).const_add a
    simpa using this
  constructor <;> exact key _ _

theorem follows_line (P : OdeArgs) (θ : ℝ) (s : St) (hs : P.θ_scale = 1)
    (h1 : 0 ≤ s.ρ) (h2 : 0 ≤ s.v_θ) :
    Follows P (line s (rhsDerivs P θ s) θ) θ := by
  refine ⟨rhsDerivs P θ s, ?_, hasStDeriv_line _ _ _⟩
  rw [line_at, accepted P θ s h1 h2, hs, mul_one]

/-- Through every acceptable state passes a curve following the right-hand side
there. -/
theorem exists_follows (P : OdeArgs) (θ : ℝ) (s : St) (hs : P.θ_scale = 1)
    (h1 : 0 ≤ s.ρ) (h2 : 0 ≤ s.v_θ) : ∃ f, f θ = s ∧ Follows P f θ :=
  ⟨_, line_at _ _ _, follows_line P θ s hs h1 h2⟩

/-- The r-scaled fields of a profile. -/
noncomputable def scaledField (γ : ℝ) (f : ℝ → St) : ℝ → ℝ → St :=
  (Scaled.exists γ f).choose

theorem scaled_scaledField (γ : ℝ) (f : ℝ → St) : Scaled γ f (scaledField γ f) :=
  (Scaled.exists γ f).choose_spec

/-- A curve through `witS` at angle `1/10`. -/
noncomputable def witC (P : OdeArgs) : ℝ → St :=
  line witS (rhsDerivs P (1/10) witS) (1/10)

theorem witC_at (P : OdeArgs) : witC P (1/10) = witS := line_at _ _ _

theorem witC_follows (P : OdeArgs) (hs : P.θ_scale = 1) :
    Follows P (witC P) (1/10) :=
  follows_line P (1/10) witS hs (by norm_num [witS]) (by norm_num [witS])

theorem cos_tenth : Real.cos (1/10) ≠ 0 := by
  apply ne_of_gt
  apply Real.cos_pos_of_mem_Ioo
  constructor
  · have := Real.two_le_pi; linarith
  · have := Real.two_le_pi; linarith

end DiscSolver
