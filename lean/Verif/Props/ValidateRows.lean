import Verif.Props.ValidatePlot

/-!
# C60: the checking plots on rows which do not come from the equations

With the Taylor series switched on, or with a supplied derivative of `v_θ`, the
right-hand side returns some derivatives which the equations do not give.  Here
the plotted numbers are given exactly for every combination of the options.
-/

namespace DiscSolver.ValidatePlot

open Spec

/-- The row with the four derivatives which the equations of motion and of
continuity determine replaced by other numbers. -/
def Row.withDerivs (r : Row) (v_r' v_φ' v_θ' ρ' : ℝ) : Flow :=
  { r.flow with v_r' := v_r', v_φ' := v_φ', v_θ' := v_θ', ρ' := ρ' }

/-- Four numbers are the derivatives of the velocity and of the density which the
equations of motion and of continuity ask for at a row. -/
structure Demanded (c : Cons) (r : Row) (v_r' v_φ' v_θ' ρ' : ℝ) : Prop where
  continuity : Continuity (5/4 - c.γ) (r.withDerivs v_r' v_φ' v_θ' ρ')
  radial : RadialMomentum (5/4 - c.γ) c.a_0 c.norm_kepler_sq
    (r.withDerivs v_r' v_φ' v_θ' ρ')
  azimuthal : AzimuthalMomentum (5/4 - c.γ) c.a_0 (r.withDerivs v_r' v_φ' v_θ' ρ')
  polar : PolarMomentum (5/4 - c.γ) c.a_0 (r.withDerivs v_r' v_φ' v_θ' ρ')

/-- The equations ask for one set of derivatives at every regular row. -/
theorem demanded_exists (c : Cons) (r : Row) (hr : Regular r.s) :
    ∃ v_r' v_φ' v_θ' ρ', Demanded c r v_r' v_φ' v_θ' ρ' := by
  have hv := hr.v_θ
  have hρ := hr.ρ
  have hs : r.s.v_θ ^ 2 - 1 ≠ 0 := sub_ne_zero.2 hr.sonic
  set K := r.s.v_r * r.s.v_θ / 2 + Real.tan r.θ * r.s.v_φ ^ 2 +
    c.a_0 / r.s.ρ * ((5/4 - c.γ - 1) * r.s.B_θ * r.s.B_r + r.s.B_r * r.deriv.B_r +
      r.s.B_φ * r.deriv.B_φ - r.s.B_φ ^ 2 * Real.tan r.θ) with hK
  set V := (2 * c.γ * r.s.v_r - r.s.v_θ * Real.tan r.θ - r.s.v_θ * K) /
    (r.s.v_θ ^ 2 - 1) with hV
  have hV' : V * (r.s.v_θ ^ 2 - 1) =
      2 * c.γ * r.s.v_r - r.s.v_θ * Real.tan r.θ - r.s.v_θ * K := by
    rw [hV]; field_simp
  refine ⟨(r.s.v_r ^ 2 / 2 + r.s.v_θ ^ 2 + r.s.v_φ ^ 2 - c.norm_kepler_sq +
      2 * (5/4 - c.γ) + c.a_0 / r.s.ρ * (r.s.B_θ * r.deriv.B_r +
        (1/4 - c.γ) * (r.s.B_θ ^ 2 + r.s.B_φ ^ 2))) / r.s.v_θ,
    (Real.tan r.θ * r.s.v_θ * r.s.v_φ - r.s.v_r * r.s.v_φ / 2 + c.a_0 / r.s.ρ * (
      r.s.B_θ * r.deriv.B_φ + (1 - (5/4 - c.γ)) * r.s.B_r * r.s.B_φ -
      Real.tan r.θ * r.s.B_θ * r.s.B_φ)) / r.s.v_θ,
    V, r.s.ρ * (Real.tan r.θ - (2 * c.γ * r.s.v_r + V) / r.s.v_θ), ?_, ?_, ?_, ?_⟩
  · simp only [Continuity, continuityRes, Row.withDerivs, Row.flow, flowOf]
    field_simp
    ring
  · simp only [RadialMomentum, radialRes, Row.withDerivs, Row.flow, flowOf]
    rw [mul_div_cancel₀ _ hv]
    ring
  · simp only [AzimuthalMomentum, azimuthalRes, Row.withDerivs, Row.flow, flowOf]
    rw [mul_div_cancel₀ _ hv]
    ring
  · simp only [PolarMomentum, polarRes, Row.withDerivs, Row.flow, flowOf]
    rw [mul_div_cancel_left₀ _ hρ]
    have h3 : (2 * c.γ * r.s.v_r + V) / r.s.v_θ * r.s.v_θ = 2 * c.γ * r.s.v_r + V := by
      field_simp
    apply mul_left_cancel₀ hv
    linear_combination hV' - h3 + r.s.v_θ * hK

/-- What a check shows when the recorded derivatives miss those which the
equations ask for by the given amounts. -/
noncomputable def missBy (s : St) (Δv_r Δv_φ Δv_θ Δρ : ℝ) : String → ℝ
  | "continuity" => Δv_θ + s.v_θ / s.ρ * Δρ
  | "radial momentum" => s.v_θ * Δv_r
  | "azimuthal momentum" => s.v_θ * Δv_φ
  | "polar momentum" => s.v_θ * Δv_θ + Δρ / s.ρ
  | _ => 0

/-- C60. For every accepted call, whatever the options: each check except "polar
induction" shows exactly by how much the recorded derivatives miss those which
the equations ask for. -/
theorem checks_exact (P : OdeArgs) (r : Row) (h : FromCall P r) (hr : Regular r.s)
    (v_r' v_φ' v_θ' ρ' : ℝ) (hd : Demanded (consOf P) r v_r' v_φ' v_θ' ρ')
    (chk : String × (Cons → Row → ℝ)) (hc : chk ∈ checks)
    (hn : chk.1 ≠ "polar induction") :
    chk.2 (consOf P) r = missBy r.s (r.deriv.v_r - v_r') (r.deriv.v_φ - v_φ')
      (r.deriv.v_θ - v_θ') (r.deriv.ρ - ρ') chk.1 := by
  obtain ⟨x, hx, code, h⟩ := h
  obtain ⟨e1, e2, e3, e4, e5, e6⟩ := residuals_are_spec (consOf P) r
  obtain ⟨h1, h2, h3, h4⟩ := hd
  simp only [Continuity, continuityRes, RadialMomentum, radialRes, AzimuthalMomentum,
    azimuthalRes, PolarMomentum, polarRes, Row.withDerivs, Row.flow, flowOf]
    at h1 h2 h3 h4 e1 e3 e4 e5
  have hflow : r.flow = flowOf (x * P.θ_scale) r.s r.deriv := by rw [Row.flow, hx]
  simp only [checks, List.mem_cons, List.not_mem_nil, or_false] at hc
  rcases hc with rfl | rfl | rfl | rfl | rfl | rfl | rfl
  · show validate_continuity _ _ = _
    rw [e1, missBy]
    linear_combination h1
  · show validate_solenoid _ _ = _
    rw [e2, hflow]
    exact rhs_solenoid P x r.s r.deriv code h
  · show validate_radial_momentum _ _ = _
    rw [e3, missBy]
    linear_combination h2
  · show validate_azimuthal_mometum _ _ = _
    rw [e4, missBy]
    linear_combination h3
  · show validate_polar_momentum _ _ = _
    rw [e5, missBy]
    linear_combination h4
  · exact absurd rfl hn
  · show validate_E_φ _ _ = _
    rw [e6, hflow, show missBy r.s (r.deriv.v_r - v_r') (r.deriv.v_φ - v_φ')
      (r.deriv.v_θ - v_θ') (r.deriv.ρ - ρ') "E_φ" = 0 from rfl, neg_eq_zero]
    exact rhs_polar_induction P x r.s r.deriv code h _ _ _ ⟨rfl, rfl, rfl⟩ hr.η

/-- C60. What the recorded derivatives are, for every combination of the options:
with the Taylor series, the radial and azimuthal velocity and the density take the
angle times the second derivative at the midplane; a supplied function gives the
derivative of `v_θ`; everything else is what the equations ask for, given that
derivative of `v_θ`. -/
theorem recorded_derivs (P : OdeArgs) (r : Row) (h : FromCall P r) (hr : Regular r.s)
    (hK : 0 ≤ P.norm_kepler_sq) (v_r' v_φ' v_θ' ρ' : ℝ)
    (hd : Demanded (consOf P) r v_r' v_φ' v_θ' ρ') :
    let T := taylor_series (γ := P.γ) (a_0 := P.a_0) (init_con := P.init_con)
      (η_derivs := P.η_derivs) (use_E_r := P.use_E_r)
    (P.with_taylor = true → r.deriv.v_r = r.θ * T.v_r ∧ r.deriv.v_φ = r.θ * T.v_φ ∧
      r.deriv.ρ = r.θ * T.ρ) ∧
    (P.with_taylor = false → r.deriv.v_r = v_r' ∧ r.deriv.v_φ = v_φ' ∧
      r.deriv.ρ - ρ' = - r.s.ρ / r.s.v_θ * (r.deriv.v_θ - v_θ')) ∧
    (∀ g, P.deriv_v_θ_func = some g → r.deriv.v_θ = g r.θ) ∧
    (P.deriv_v_θ_func = none → r.deriv.v_θ = v_θ') := by
  intro T
  obtain ⟨x, hx, code, h⟩ := h
  have hv := hr.v_θ
  have hρ := hr.ρ
  have hs : r.s.v_θ ^ 2 - 1 ≠ 0 := sub_ne_zero.2 hr.sonic
  have hden : (1 - r.s.v_θ) * (1 + r.s.v_θ) ≠ 0 := by
    intro h0; apply hs; linear_combination -h0
  have hsq := Real.sq_sqrt hK
  obtain ⟨-, -, -, hder⟩ := rhs_accepted h
  rw [← hx] at hder
  obtain ⟨θ, s, d⟩ := r
  dsimp only at *
  subst hder
  obtain ⟨h1, h2, h3, h4⟩ := hd
  simp only [Continuity, continuityRes, RadialMomentum, radialRes, AzimuthalMomentum,
    azimuthalRes, PolarMomentum, polarRes, Row.withDerivs, Row.flow, flowOf, consOf]
    at h1 h2 h3 h4
  have h1' : (2 * P.γ * s.v_r + v_θ') / s.v_θ = Real.tan θ - ρ' / s.ρ := by
    rw [div_eq_iff hv]
    have : s.v_θ / s.ρ * (ρ' - s.ρ * Real.tan θ) =
        (ρ' / s.ρ - Real.tan θ) * s.v_θ := by field_simp
    linear_combination h1 - this
  refine ⟨?_, ?_, ?_, ?_⟩
  · intro hT
    simp [rhsDerivs, rhsValues, hT, T]
  · intro hT
    refine ⟨?_, ?_, ?_⟩
    · have := rhs_v_r P θ s hT
      rw [eq_div_iff hv] at this
      apply mul_left_cancel₀ hv
      linear_combination this - h2 - hsq
    · have := rhs_v_φ P θ s hT
      rw [eq_div_iff hv] at this
      apply mul_left_cancel₀ hv
      linear_combination this - h3
    · have h5 : ρ' = - s.ρ * ((2 * P.γ * s.v_r + v_θ') / s.v_θ - Real.tan θ) := by
        rw [h1']; field_simp; ring
      rw [rhs_ρ P θ s hT, h5]
      field_simp
      ring
  · intro g hg
    simp [rhsDerivs, rhsValues, hg]
  · intro hf
    have h6 := rhs_v_θ P θ s hf
    rw [eq_div_iff hden] at h6
    have h5 : ρ' / s.ρ = - ((2 * P.γ * s.v_r + v_θ') / s.v_θ - Real.tan θ) := by
      rw [h1']; ring
    have h3' : (2 * P.γ * s.v_r + v_θ') / s.v_θ * s.v_θ = 2 * P.γ * s.v_r + v_θ' := by
      field_simp
    rw [h5] at h4
    apply mul_right_cancel₀ hden
    linear_combination h6 + s.v_θ * h4 + h3'

/-- C60. Rows recorded with a supplied derivative of `v_θ`: every check except
"polar induction" and "polar momentum" still gives zero, and "polar momentum"
gives the difference between the supplied derivative and the one which the
equations ask for, times `v_θ - 1 / v_θ`. -/
theorem interpolated_checks (P : OdeArgs) (r : Row) (h : FromCall P r)
    (hr : Regular r.s) (hK : 0 ≤ P.norm_kepler_sq) (hT : P.with_taylor = false)
    (g : ℝ → ℝ) (hg : P.deriv_v_θ_func = some g) (v_r' v_φ' v_θ' ρ' : ℝ)
    (hd : Demanded (consOf P) r v_r' v_φ' v_θ' ρ') :
    (∀ chk ∈ checks, chk.1 ≠ "polar induction" → chk.1 ≠ "polar momentum" →
      chk.2 (consOf P) r = 0) ∧
    validate_polar_momentum (consOf P) r =
      (r.s.v_θ - 1 / r.s.v_θ) * (g r.θ - v_θ') := by
  obtain ⟨-, h2, h3, -⟩ := recorded_derivs P r h hr hK v_r' v_φ' v_θ' ρ' hd
  obtain ⟨e1, e2, e3⟩ := h2 hT
  have hv := hr.v_θ
  have hρ := hr.ρ
  have key := checks_exact P r h hr v_r' v_φ' v_θ' ρ' hd
  constructor
  · intro chk hc hn hn'
    rw [key chk hc hn, e1, e2, e3, h3 g hg]
    simp only [checks, List.mem_cons, List.not_mem_nil, or_false] at hc
    rcases hc with rfl | rfl | rfl | rfl | rfl | rfl | rfl
    · simp only [missBy]; field_simp; ring
    · rfl
    · simp [missBy]
    · simp [missBy]
    · exact absurd rfl hn'
    · exact absurd rfl hn
    · rfl
  · have := key ("polar momentum", validate_polar_momentum) (by simp [checks])
      (by simp)
    rw [show validate_polar_momentum (consOf P) r =
      ("polar momentum", validate_polar_momentum).2 (consOf P) r from rfl, this, missBy, e3,
      h3 g hg]
    field_simp
    ring

/-- C60. Rows recorded with the Taylor series and no supplied derivative: the
numbers shown for every check except "polar induction". -/
theorem taylor_checks (P : OdeArgs) (r : Row) (h : FromCall P r)
    (hr : Regular r.s) (hK : 0 ≤ P.norm_kepler_sq) (hT : P.with_taylor = true)
    (hf : P.deriv_v_θ_func = none) (v_r' v_φ' v_θ' ρ' : ℝ)
    (hd : Demanded (consOf P) r v_r' v_φ' v_θ' ρ') :
    let T := taylor_series (γ := P.γ) (a_0 := P.a_0) (init_con := P.init_con)
      (η_derivs := P.η_derivs) (use_E_r := P.use_E_r)
    validate_continuity (consOf P) r = r.s.v_θ / r.s.ρ * (r.θ * T.ρ - ρ') ∧
    validate_solenoid (consOf P) r = 0 ∧
    validate_radial_momentum (consOf P) r = r.s.v_θ * (r.θ * T.v_r - v_r') ∧
    validate_azimuthal_mometum (consOf P) r = r.s.v_θ * (r.θ * T.v_φ - v_φ') ∧
    validate_polar_momentum (consOf P) r = (r.θ * T.ρ - ρ') / r.s.ρ ∧
    validate_E_φ (consOf P) r = 0 := by
  intro T
  obtain ⟨h1, -, -, h4⟩ := recorded_derivs P r h hr hK v_r' v_φ' v_θ' ρ' hd
  obtain ⟨e1, e2, e3⟩ := h1 hT
  have e4 := h4 hf
  have key := checks_exact P r h hr v_r' v_φ' v_θ' ρ' hd
  have k1 := key ("continuity", validate_continuity) (by simp [checks]) (by simp)
  have k2 := key ("solenoid", validate_solenoid) (by simp [checks]) (by simp)
  have k3 := key ("radial momentum", validate_radial_momentum) (by simp [checks]) (by simp)
  have k4 := key ("azimuthal momentum", validate_azimuthal_mometum) (by simp [checks])
    (by simp)
  have k5 := key ("polar momentum", validate_polar_momentum) (by simp [checks]) (by simp)
  have k6 := key ("E_φ", validate_E_φ) (by simp [checks]) (by simp)
  dsimp only at k1 k2 k3 k4 k5 k6
  rw [e4, e3] at k1 k5
  rw [e1] at k3
  rw [e2] at k4
  simp only [missBy, sub_self, zero_add, mul_zero] at k1 k3 k4 k5
  exact ⟨k1, k2, k3, k4, k5, k6⟩

/-- C60. For every history of calls, with every combination of the options: each
point of each panel except "polar induction" belongs to a recorded call and shows
by how much its derivatives miss those which the equations ask for. -/
theorem validate_plot_exact (P : OdeArgs) (str : ℝ → String)
    (calls : List Call) (start stop : ℝ)
    (hreg : ∀ c ∈ acceptedCalls calls, Regular c.s) :
    ∃ d, afterCalls P str (some {}) calls = some d ∧
      ∀ out, generate_validate_plot false (some d) (consOf P) start stop = .ok out →
        ∀ rep ∈ out, rep.name ≠ "polar induction" → ∀ p ∈ rep.points,
          ∃ c ∈ acceptedCalls calls, ∃ code dv,
            rhs_equation P c.x c.s = (code, some dv) ∧
            p.1 = degrees (c.x * P.θ_scale) ∧
            ∀ v_r' v_φ' v_θ' ρ',
              Demanded (consOf P) ⟨c.x * P.θ_scale, c.s, dv⟩ v_r' v_φ' v_θ' ρ' →
              p.2 = missBy c.s (dv.v_r - v_r') (dv.v_φ - v_φ') (dv.v_θ - v_θ')
                (dv.ρ - ρ') rep.name := by
  obtain ⟨d, h, hrows⟩ := rowsOf_recorded P str calls
  refine ⟨d, h, ?_⟩
  intro out hout rep hrep hn p hp
  have hne : selected start stop (rowsOf d) ≠ [] := by
    intro hs
    have := (plot_reports checks false (consOf P) start stop).2.2.1 d
      (by simp [checks]) hs
    rw [generate_validate_plot] at hout
    rw [hout] at this
    cases this
  obtain ⟨out', h1, h2⟩ :=
    (plot_reports checks false (consOf P) start stop).2.2.2 d hne
  rw [generate_validate_plot] at hout
  rw [hout] at h1
  injection h1 with h1
  subst h1
  obtain ⟨chk, hc, hname, hpts⟩ : ∃ chk ∈ checks, rep.name = chk.1 ∧
      rep.points = (selected start stop (rowsOf d)).map
        (fun r => (degrees r.θ, chk.2 (consOf P) r)) := by
    generalize checks = t at h2
    clear hout
    induction h2 with
    | nil => cases hrep
    | cons a _ ih =>
      rcases List.mem_cons.1 hrep with rfl | hm
      · exact ⟨_, List.mem_cons_self, a.1, a.2.1⟩
      · obtain ⟨chk, hc, hrest⟩ := ih hm
        exact ⟨chk, List.mem_cons_of_mem _ hc, hrest⟩
  rw [hpts] at hp
  obtain ⟨r, hr, rfl⟩ := List.mem_map.1 hp
  have hr' : r ∈ rowsOf d := (List.mem_filter.1 hr).1
  rw [hrows] at hr'
  obtain ⟨c, hc', rfl⟩ := List.mem_map.1 hr'
  have hacc := (List.mem_filter.1 hc').2
  simp only [decide_eq_true_eq] at hacc
  refine ⟨c, hc', _, _, accepted P c.x c.s hacc.1 hacc.2, rfl, ?_⟩
  intro v_r' v_φ' v_θ' ρ' hd
  rw [hname]
  exact checks_exact P _ ⟨c.x, rfl, _, accepted P c.x c.s hacc.1 hacc.2⟩ (hreg c hc') _ _ _ _
    hd chk hc (hname ▸ hn)

/-- The parameters of the witness with a supplied derivative of `v_θ`. -/
noncomputable def witInterp : OdeArgs := { witP with deriv_v_θ_func := some fun _ => 5 }

/-- The parameters of the witness with the Taylor series. -/
noncomputable def witTaylor : OdeArgs := { witP with with_taylor := true }

/-- The row an accepted call of the witness records. -/
noncomputable def callRow (P : OdeArgs) (x : ℝ) : Row :=
  ⟨x * P.θ_scale, witS, rhsDerivs P (x * P.θ_scale) witS⟩

theorem callRow_call (P : OdeArgs) (x : ℝ) : FromCall P (callRow P x) :=
  ⟨x, rfl, _, wit_accepted P x⟩

example : ∃ v_r' v_φ' v_θ' ρ', Demanded (consOf witInterp) (callRow witInterp (1/10))
    v_r' v_φ' v_θ' ρ' ∧
    validate_polar_momentum (consOf witInterp) (callRow witInterp (1/10)) =
      (witS.v_θ - 1 / witS.v_θ) * (5 - v_θ') := by
  obtain ⟨a, b, c, d, h⟩ := demanded_exists (consOf witInterp) (callRow witInterp (1/10))
    witS_regular
  exact ⟨a, b, c, d, h, (interpolated_checks witInterp _ (callRow_call _ _) witS_regular
    (by norm_num [witInterp, witP]) rfl (fun _ => 5) rfl a b c d h).2⟩

example := validate_plot_exact witTaylor (fun _ => "") witHistory 0 90 witHistory_regular

/-- C60. Rows recorded with the Taylor series do not satisfy the equations away from
the solution the series belongs to, and the plot shows it. -/
theorem taylor_rows_not_zero : ∃ (P : OdeArgs) (r : Row), FromCall P r ∧
    P.with_taylor = true ∧ P.deriv_v_θ_func = none ∧ Regular r.s ∧
    validate_radial_momentum (consOf P) r ≠ 0 := by
  refine ⟨witTaylor, callRow witTaylor 0, callRow_call _ _, rfl, rfl, witS_regular, ?_⟩
  have hB := rhs_B_r witTaylor 0 witS
  have hφ := rhs_B_φ witTaylor 0 witS rfl
  have hv : (rhsDerivs witTaylor 0 witS).v_r = 0 := by
    simp [rhsDerivs, rhsValues, witTaylor]
  simp only [validate_radial_momentum, callRow, zero_mul]
  rw [hv, hB, deriv_B_r_func, hφ, witS_mag, Real.tan_zero]
  norm_num [witS, witP, witTaylor, consOf, Cons.β]

example := checks_exact witTaylor (callRow witTaylor (1/10)) (callRow_call _ _) witS_regular _ _ _ _
  (demanded_exists (consOf witTaylor) (callRow witTaylor (1/10))
    witS_regular).choose_spec.choose_spec.choose_spec.choose_spec
example := recorded_derivs witTaylor (callRow witTaylor (1/10)) (callRow_call _ _) witS_regular
  (by norm_num [witTaylor, witP]) _ _ _ _
  (demanded_exists (consOf witTaylor) (callRow witTaylor (1/10))
    witS_regular).choose_spec.choose_spec.choose_spec.choose_spec
example := taylor_checks witTaylor (callRow witTaylor (1/10)) (callRow_call _ _) witS_regular
  (by norm_num [witTaylor, witP]) rfl rfl _ _ _ _
  (demanded_exists (consOf witTaylor) (callRow witTaylor (1/10))
    witS_regular).choose_spec.choose_spec.choose_spec.choose_spec

end DiscSolver.ValidatePlot
