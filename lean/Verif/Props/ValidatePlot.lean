import Verif.Model.ValidatePlot
import Verif.Props.OdeResiduals
import Verif.Props.ModHydro
import Verif.Props.Rhs

/-!
# C60: the checking plots
-/

namespace DiscSolver.ValidatePlot

open Spec

/-- The state is one where the equations can be solved for the derivatives. -/
structure Regular (s : St) : Prop where
  ρ : s.ρ ≠ 0
  v_θ : s.v_θ ≠ 0
  sonic : s.v_θ ^ 2 ≠ 1
  η : s.η_O + s.η_A * (1 - (s.B_φ / B_mag s) ^ 2) ≠ 0

/-- The flow of one row. -/
def Row.flow (r : Row) : Flow := flowOf r.θ r.s r.deriv

/-- C60. Six of the seven plotted quantities are the residuals of the governing
equations, for arbitrary rows; the electric field is that of Ohm's law. -/
theorem residuals_are_spec (c : Cons) (r : Row) :
    validate_continuity c r = continuityRes (5/4 - c.γ) r.flow ∧
    validate_solenoid c r = solenoidRes (5/4 - c.γ) r.flow ∧
    validate_radial_momentum c r =
      radialRes (5/4 - c.γ) c.a_0 c.norm_kepler_sq r.flow ∧
    validate_azimuthal_mometum c r = azimuthalRes (5/4 - c.γ) c.a_0 r.flow ∧
    validate_polar_momentum c r = polarRes (5/4 - c.γ) c.a_0 r.flow ∧
    validate_E_φ c r = -polarInductionRes (5/4 - c.γ) (r.s.B_r / B_mag r.s)
      (r.s.B_φ / B_mag r.s) (r.s.B_θ / B_mag r.s) r.flow := by
  refine ⟨?_, ?_, ?_, ?_, ?_, ?_⟩
  · simp only [validate_continuity, continuityRes, Row.flow, flowOf, Cons.β]
  · simp only [validate_solenoid, solenoidRes, Row.flow, flowOf, Cons.β]
  · simp only [validate_radial_momentum, radialRes, Row.flow, flowOf, Cons.β]
  · simp only [validate_azimuthal_mometum, azimuthalRes, Row.flow, flowOf, Cons.β]
  · simp only [validate_polar_momentum, polarRes, Row.flow, flowOf, Cons.β]
  · simp only [validate_E_φ, E_values, E_func, J_values, J_func, E_φ_func, J_r_func,
      J_θ_func, J_φ_func, polarInductionRes, Row.flow, flowOf, B_mag]
    ring

/-- C60. The quantity plotted as "polar induction" misses the residual of the
equation by Hall and ambipolar terms. -/
theorem polar_induction_error (c : Cons) (r : Row) (b_r b_φ b_θ : ℝ)
    (hb : b_r = r.s.B_r / B_mag r.s ∧ b_φ = r.s.B_φ / B_mag r.s ∧
      b_θ = r.s.B_θ / B_mag r.s) :
    validate_polar_induction c r =
      polarInductionRes (5/4 - c.γ) b_r b_φ b_θ r.flow +
      2 * r.s.η_H * (r.deriv.B_φ * b_θ +
        r.s.B_φ * (b_r * (c.γ - 1/4) - b_θ * Real.tan r.θ)) -
      2 * r.s.η_A * r.s.B_φ * b_φ * b_θ * (c.γ - 1/4) := by
  obtain ⟨rfl, rfl, rfl⟩ := hb
  simp only [validate_polar_induction, polarInductionRes, Row.flow, flowOf, Cons.β,
    Row.norm_B_r, Row.norm_B_φ, Row.norm_B_θ, B_mag]
  ring

/-- A row holds a state and the derivatives an accepted call returned for it. -/
def FromCall (P : OdeArgs) (r : Row) : Prop :=
  ∃ x, r.θ = x * P.θ_scale ∧ ∃ code, rhs_equation P x r.s = (code, some r.deriv)

/-- The initial conditions namespace of a solve. -/
def consOf (P : OdeArgs) : Cons :=
  { a_0 := P.a_0, γ := P.γ, norm_kepler_sq := P.norm_kepler_sq }

/-- C60. On rows recorded by the solver, away from the Taylor series and the
interpolated region, every check except "polar induction" gives zero. -/
theorem checks_zero (P : OdeArgs) (r : Row) (h : FromCall P r)
    (hT : P.with_taylor = false) (hf : P.deriv_v_θ_func = none)
    (hK : 0 ≤ P.norm_kepler_sq) (hr : Regular r.s)
    (chk : String × (Cons → Row → ℝ)) (hc : chk ∈ checks)
    (hn : chk.1 ≠ "polar induction") : chk.2 (consOf P) r = 0 := by
  obtain ⟨x, hx, code, h⟩ := h
  obtain ⟨e1, e2, e3, e4, e5, e6⟩ := residuals_are_spec (consOf P) r
  have hflow : r.flow = flowOf (x * P.θ_scale) r.s r.deriv := by rw [Row.flow, hx]
  simp only [checks, List.mem_cons, List.not_mem_nil, or_false] at hc
  rcases hc with rfl | rfl | rfl | rfl | rfl | rfl | rfl
  · show validate_continuity _ _ = 0
    rw [e1, hflow]
    exact rhs_continuity P x r.s r.deriv code h hT hr.ρ hr.v_θ
  · show validate_solenoid _ _ = 0
    rw [e2, hflow]
    exact rhs_solenoid P x r.s r.deriv code h
  · show validate_radial_momentum _ _ = 0
    rw [e3, hflow]
    exact rhs_radial_momentum P x r.s r.deriv code h hT hK hr.ρ hr.v_θ
  · show validate_azimuthal_mometum _ _ = 0
    rw [e4, hflow]
    exact rhs_azimuthal_momentum P x r.s r.deriv code h hT hr.ρ hr.v_θ
  · show validate_polar_momentum _ _ = 0
    rw [e5, hflow]
    exact rhs_polar_momentum P x r.s r.deriv code h hT hf hr.ρ hr.v_θ hr.sonic
  · exact absurd rfl hn
  · show validate_E_φ _ _ = 0
    rw [e6, hflow, neg_eq_zero]
    exact rhs_polar_induction P x r.s r.deriv code h _ _ _ ⟨rfl, rfl, rfl⟩ hr.η

theorem maxAbs_zero (x : ℝ) (l : List ℝ) (hx : x = 0) (hl : ∀ y ∈ l, y = 0) :
    maxAbs x l = 0 := by
  subst hx
  unfold maxAbs
  induction l with
  | nil => simp
  | cons y l ih =>
    have hy : y = 0 := hl y (by simp)
    subst hy
    simpa using ih (fun z hz => hl z (by simp [hz]))

/-- The printed number is the largest absolute value of the plotted points. -/
theorem maxAbs_spec (x : ℝ) (l : List ℝ) :
    (∀ y ∈ x :: l, |y| ≤ maxAbs x l) ∧ ∃ y ∈ x :: l, maxAbs x l = |y| := by
  have gen : ∀ (l : List ℝ) (m : ℝ), (m ≤ l.foldl (fun m y => max m |y|) m) ∧
      (∀ y ∈ l, |y| ≤ l.foldl (fun m y => max m |y|) m) ∧
      (l.foldl (fun m y => max m |y|) m = m ∨
        ∃ y ∈ l, l.foldl (fun m y => max m |y|) m = |y|) := by
    intro l
    induction l with
    | nil => intro m; simp
    | cons a l ih =>
      intro m
      obtain ⟨h1, h2, h3⟩ := ih (max m |a|)
      refine ⟨le_trans (le_max_left _ _) h1, ?_, ?_⟩
      · intro y hy
        rcases List.mem_cons.1 hy with rfl | hy
        · exact le_trans (le_max_right _ _) h1
        · exact h2 y hy
      · rcases h3 with h3 | ⟨y, hy, h3⟩
        · rcases max_choice m |a| with hm | hm
          · left; simp only [List.foldl_cons]; rw [h3, hm]
          · right; exact ⟨a, by simp, by simp only [List.foldl_cons]; rw [h3, hm]⟩
        · right; exact ⟨y, by simp [hy], h3⟩
  obtain ⟨h1, h2, h3⟩ := gen l |x|
  refine ⟨?_, ?_⟩
  · intro y hy
    rcases List.mem_cons.1 hy with rfl | hy
    · exact h1
    · exact h2 y hy
  · rcases h3 with h3 | ⟨y, hy, h3⟩
    · exact ⟨x, by simp, h3⟩
    · exact ⟨y, by simp [hy], h3⟩

theorem mapM_except {α β : Type} (f : α → Except PyErr β) (l : List α)
    (out : List β) (h : l.mapM f = .ok out) :
    List.Forall₂ (fun a b => f a = .ok b) l out := by
  induction l generalizing out with
  | nil =>
    simp only [List.mapM_nil, pure, Except.pure, Except.ok.injEq] at h
    subst h
    exact .nil
  | cons a l ih =>
    rw [List.mapM_cons] at h
    cases ha : f a with
    | error e => rw [ha] at h; simp [bind, Except.bind] at h
    | ok b =>
      cases hl : l.mapM f with
      | error e => rw [ha, hl] at h; simp [bind, Except.bind] at h
      | ok bs =>
        rw [ha, hl] at h
        simp only [bind, Except.bind, pure, Except.pure, Except.ok.injEq] at h
        subst h
        exact .cons ha (ih bs hl)

/-- C60. What the plot does with any table of checks: the electric field
formulation and solutions without internal data are refused; an empty range of
angles fails; otherwise there is one report per check, in order, whose points are
the angle in degrees and the value of the check for exactly the rows in the
range, and whose printed number bounds all of them and is attained. -/
theorem plot_reports (table : List (String × (Cons → Row → ℝ))) (u : Bool)
    (c : Cons) (start stop : ℝ) :
    (∀ i, generate table true i c start stop = .error .AnalysisError) ∧
    generate table u none c start stop = .error .AnalysisError ∧
    (∀ d, table ≠ [] → selected start stop (rowsOf d) = [] →
      generate table false (some d) c start stop = .error .ValueError) ∧
    (∀ d, selected start stop (rowsOf d) ≠ [] →
      ∃ out, generate table false (some d) c start stop = .ok out ∧
        List.Forall₂ (fun chk rep => rep.name = chk.1 ∧
          rep.points = (selected start stop (rowsOf d)).map
            (fun r => (degrees r.θ, chk.2 c r)) ∧
          (∀ p ∈ rep.points, |p.2| ≤ rep.printed) ∧
          ∃ p ∈ rep.points, |p.2| = rep.printed) table out) := by
  refine ⟨fun i => by simp [generate], by cases u <;> simp [generate], ?_, ?_⟩
  · intro d ht hs
    cases table with
    | nil => exact absurd rfl ht
    | cons a l =>
      simp [generate, hs, List.mapM_cons, report, bind, Except.bind]
  · intro d hs
    obtain ⟨r, rs, hrs⟩ : ∃ r rs, selected start stop (rowsOf d) = r :: rs := by
      cases h : selected start stop (rowsOf d) with
      | nil => exact absurd h hs
      | cons r rs => exact ⟨r, rs, rfl⟩
    simp only [generate, hrs, Bool.false_eq_true, if_false]
    have key : ∀ chk, report c (r :: rs) chk = .ok ⟨chk.1,
        maxAbs (chk.2 c r) (rs.map (chk.2 c)),
        (r :: rs).map fun r => (degrees r.θ, chk.2 c r)⟩ := fun chk => rfl
    induction table with
    | nil => exact ⟨[], rfl, .nil⟩
    | cons chk table ih =>
      obtain ⟨out, h1, h2⟩ := ih
      refine ⟨⟨chk.1, maxAbs (chk.2 c r) (rs.map (chk.2 c)),
          (r :: rs).map fun r => (degrees r.θ, chk.2 c r)⟩ :: out, ?_, .cons ?_ h2⟩
      · rw [List.mapM_cons, key chk, h1]
        rfl
      · obtain ⟨m1, m2⟩ := maxAbs_spec (chk.2 c r) (rs.map (chk.2 c))
        refine ⟨rfl, rfl, ?_, ?_⟩
        · intro p hp
          obtain ⟨q, hq, rfl⟩ := List.mem_map.1 hp
          refine m1 _ ?_
          rcases List.mem_cons.1 hq with rfl | hq
          · simp
          · exact List.mem_cons_of_mem _ (List.mem_map.2 ⟨q, hq, rfl⟩)
        · obtain ⟨y, hy, e⟩ := m2
          rcases List.mem_cons.1 hy with rfl | hy
          · exact ⟨_, List.mem_cons_self, e.symm⟩
          · obtain ⟨q, hq, rfl⟩ := List.mem_map.1 hy
            exact ⟨_, List.mem_cons_of_mem _ (List.mem_map.2 ⟨q, hq, rfl⟩), e.symm⟩

theorem rowsOf_recorded (P : OdeArgs) (str : ℝ → String) (calls : List Call) :
    ∃ d, afterCalls P str (some {}) calls = some d ∧
      rowsOf d = (acceptedCalls calls).map
        (fun c => ⟨c.x * P.θ_scale, c.s, rhsDerivs P (c.x * P.θ_scale) c.s⟩) := by
  obtain ⟨d, h, h1⟩ := recorded_aligned P str calls
  refine ⟨d, h, ?_⟩
  simp only [rowsOf, h1.angles, h1.params, h1.derivs, List.map_map]
  induction acceptedCalls calls with
  | nil => rfl
  | cons c l ih =>
    simp only [List.map_cons, List.zip_cons_cons, ih]
    rfl

/-- C60 (partial). For every history of calls of the right-hand side, the plot of
the recorded data shows zero for every equation except "polar induction", at
every recorded angle in the range.  Missing: "polar induction", which is false of
the code (`polar_induction_not_zero`), and rows recorded with the Taylor series or
the interpolated `v_θ'`, which do not come from the equations; for these
`validate_plot_exact` gives the numbers shown. -/
theorem validate_plot_zero_partial (P : OdeArgs) (str : ℝ → String)
    (calls : List Call) (start stop : ℝ) (hT : P.with_taylor = false)
    (hf : P.deriv_v_θ_func = none) (hK : 0 ≤ P.norm_kepler_sq)
    (hreg : ∀ c ∈ acceptedCalls calls, Regular c.s) :
    ∃ d, afterCalls P str (some {}) calls = some d ∧
      ∀ out, generate_validate_plot false (some d) (consOf P) start stop = .ok out →
        out.map (·.name) = ["continuity", "solenoid", "radial momentum",
          "azimuthal momentum", "polar momentum", "polar induction", "E_φ"] ∧
        ∀ rep ∈ out, rep.name ≠ "polar induction" →
          rep.printed = 0 ∧ ∀ p ∈ rep.points, p.2 = 0 := by
  obtain ⟨d, h, hrows⟩ := rowsOf_recorded P str calls
  refine ⟨d, h, ?_⟩
  intro out hout
  have hne : selected start stop (rowsOf d) ≠ [] := by
    intro hs
    have := (plot_reports checks false (consOf P) start stop).2.2.1 d
      (by simp [checks]) hs
    rw [generate_validate_plot] at hout
    rw [hout] at this
    cases this
  obtain ⟨out', h1, h2⟩ :=
    (plot_reports checks false (consOf P) start stop).2.2.2 d hne
  rw [generate_validate_plot] at hout
  rw [hout] at h1
  injection h1 with h1
  subst h1
  have hzero : ∀ chk ∈ checks, chk.1 ≠ "polar induction" →
      ∀ r ∈ selected start stop (rowsOf d), chk.2 (consOf P) r = 0 := by
    intro chk hc hn r hr
    have hr' : r ∈ rowsOf d := (List.mem_filter.1 hr).1
    rw [hrows] at hr'
    obtain ⟨c, hc', rfl⟩ := List.mem_map.1 hr'
    have hacc := (List.mem_filter.1 hc').2
    simp only [decide_eq_true_eq] at hacc
    exact checks_zero P _ ⟨c.x, rfl, _, accepted P c.x c.s hacc.1 hacc.2⟩ hT hf hK
      (hreg c hc') chk hc hn
  constructor
  · have gen : ∀ (t : List (String × (Cons → Row → ℝ))) (o : List Report),
        List.Forall₂ (fun chk rep => rep.name = chk.1 ∧
          rep.points = (selected start stop (rowsOf d)).map
            (fun r => (degrees r.θ, chk.2 (consOf P) r)) ∧
          (∀ p ∈ rep.points, |p.2| ≤ rep.printed) ∧
          ∃ p ∈ rep.points, |p.2| = rep.printed) t o →
        o.map (·.name) = t.map (·.1) := by
      intro t o ho
      induction ho with
      | nil => rfl
      | cons a _ ih => simp [a.1, ih]
    exact gen _ _ h2
  · intro rep hrep hn
    have gen : ∀ (t : List (String × (Cons → Row → ℝ))) (o : List Report),
        List.Forall₂ (fun chk rep => rep.name = chk.1 ∧
          rep.points = (selected start stop (rowsOf d)).map
            (fun r => (degrees r.θ, chk.2 (consOf P) r)) ∧
          (∀ p ∈ rep.points, |p.2| ≤ rep.printed) ∧
          ∃ p ∈ rep.points, |p.2| = rep.printed) t o →
        rep ∈ o → ∃ chk ∈ t, rep.name = chk.1 ∧
          rep.points = (selected start stop (rowsOf d)).map
            (fun r => (degrees r.θ, chk.2 (consOf P) r)) ∧
          ∃ p ∈ rep.points, |p.2| = rep.printed := by
      intro t o ho
      induction ho with
      | nil => intro hm; cases hm
      | cons a _ ih =>
        intro hm
        rcases List.mem_cons.1 hm with rfl | hm
        · exact ⟨_, List.mem_cons_self, a.1, a.2.1, a.2.2.2⟩
        · obtain ⟨chk, hc, hrest⟩ := ih hm
          exact ⟨chk, List.mem_cons_of_mem _ hc, hrest⟩
    obtain ⟨chk, hc, hname, hpts, p, hp, hmax⟩ := gen _ _ h2 hrep
    have hz : ∀ p ∈ rep.points, p.2 = 0 := by
      intro p hp
      rw [hpts] at hp
      obtain ⟨r, hr, rfl⟩ := List.mem_map.1 hp
      exact hzero chk hc (hname ▸ hn) r hr
    refine ⟨?_, hz⟩
    rw [← hmax, hz p hp, abs_zero]

theorem witS_regular : Regular witS :=
  ⟨by norm_num [witS], by norm_num [witS], by norm_num [witS],
    by rw [witS_mag]; norm_num [witS]⟩

/-- One accepted and one rejected call. -/
noncomputable def witHistory : List Call :=
  [⟨1/10, witS, St.zero⟩, ⟨1/10, { witS with ρ := -1 }, St.zero⟩]

theorem witHistory_regular : ∀ c ∈ acceptedCalls witHistory, Regular c.s := by
  intro c hc
  have ha : acceptedCalls witHistory = [⟨1/10, witS, St.zero⟩] := by
    simp only [acceptedCalls, witHistory]
    norm_num [List.filter_cons, witS]
  rw [ha, List.mem_singleton] at hc
  rw [hc]
  exact witS_regular

example := validate_plot_zero_partial witP (fun _ => "") witHistory 0 90 rfl rfl
  (by norm_num [witP]) witHistory_regular

/-- The range of the example is not empty. -/
example : ∃ d r, rowsOf d = [r] ∧ selected 0 90 (rowsOf d) = [r] := by
  refine ⟨{ angles := [0], params := [witS], derivs := [witS] }, ⟨0, witS, witS⟩,
    rfl, ?_⟩
  simp [rowsOf, selected, degrees]

/-- C60 is false for "polar induction": the plot shows a nonzero value for a row
which an accepted call recorded and which satisfies the polar induction
equation. -/
theorem polar_induction_not_zero : ∃ (P : OdeArgs) (r : Row), FromCall P r ∧
    P.with_taylor = false ∧ P.deriv_v_θ_func = none ∧ Regular r.s ∧
    PolarInduction (5/4 - P.γ) (r.s.B_r / B_mag r.s) (r.s.B_φ / B_mag r.s)
      (r.s.B_θ / B_mag r.s) r.flow ∧
    validate_polar_induction (consOf P) r ≠ 0 := by
  have hcall := wit_accepted witP 0
  have hpi := rhs_polar_induction witP 0 witS _ _ hcall _ _ _ ⟨rfl, rfl, rfl⟩
    witS_regular.η
  refine ⟨witP, ⟨0 * witP.θ_scale, witS, rhsDerivs witP (0 * witP.θ_scale) witS⟩,
    ⟨0, rfl, _, hcall⟩, rfl, rfl, witS_regular, hpi, ?_⟩
  rw [polar_induction_error _ _ _ _ _ ⟨rfl, rfl, rfl⟩]
  have h0 : polarInductionRes (5/4 - (consOf witP).γ) (witS.B_r / B_mag witS)
      (witS.B_φ / B_mag witS) (witS.B_θ / B_mag witS) (Row.flow ⟨0 * witP.θ_scale, witS,
        rhsDerivs witP (0 * witP.θ_scale) witS⟩) = 0 := hpi
  rw [h0]
  simp only [rhs_B_φ witP _ witS rfl, witS_mag, zero_mul, Real.tan_zero]
  norm_num [witS, witP, consOf]

/-- C60. Angles are shown in degrees. -/
theorem degrees_spec (θ : ℝ) : degrees θ / 180 = θ / Real.pi := by
  have := Real.pi_ne_zero
  simp only [degrees]
  field_simp

/-- C60. The electric field of a row, in the order radial, latitudinal, azimuthal. -/
theorem E_func_ohm (u B J : V3) (η_O η_A η_H : ℝ)
    (hB : B.r ^ 2 + B.φ ^ 2 + B.θ ^ 2 ≠ 0) :
    let E := ohm u B J η_O η_A η_H
    E_func (v_r := u.r) (v_θ := u.θ) (v_φ := u.φ) (B_r := B.r) (B_θ := B.θ) (B_φ := B.φ)
      (J_r := J.r) (J_θ := J.θ) (J_φ := J.φ) (η_O := η_O) (η_A := η_A) (η_H := η_H) =
      (E.r, E.θ, E.φ) := by
  intro E
  simp only [E, ohm_eq u B J η_O η_A η_H hB]
  rfl

example := E_func_ohm ⟨1, 2, 3⟩ ⟨1, 0, 2⟩ ⟨3, 1, 2⟩ 1 2 3 (by norm_num)

/-- The velocity of a state. -/
def velocityOf (s : St) : V3 := ⟨s.v_r, s.v_φ, s.v_θ⟩

/-- The magnetic field of a state. -/
def fieldOf (s : St) : V3 := ⟨s.B_r, s.B_φ, s.B_θ⟩

/-- C60. The electric field computed for every row is Ohm's law for its velocity, magnetic
field and current; the field in the frame of the fluid, shown in the other panels, is Ohm's
law for fluid at rest. -/
theorem E_values_ohm (c : Cons) (r : Row)
    (hB : r.s.B_r ^ 2 + r.s.B_φ ^ 2 + r.s.B_θ ^ 2 ≠ 0) :
    let J : V3 := ⟨r.s.B_φ * Real.tan r.θ - r.deriv.B_φ,
      r.deriv.B_r + r.s.B_θ * (1/4 - c.γ), - r.s.B_φ * (1/4 - c.γ)⟩
    let E := ohm (velocityOf r.s) (fieldOf r.s) J r.s.η_O r.s.η_A r.s.η_H
    let E' := ohm ⟨0, 0, 0⟩ (fieldOf r.s) J r.s.η_O r.s.η_A r.s.η_H
    E_values c r = (E.r, E.θ, E.φ) ∧ E_dash_values c r = (E'.r, E'.θ, E'.φ) := by
  intro J E E'
  have h : E_values c r = (E.r, E.θ, E.φ) :=
    E_func_ohm (velocityOf r.s) (fieldOf r.s) J r.s.η_O r.s.η_A r.s.η_H hB
  refine ⟨h, ?_⟩
  simp only [E_dash_values, h, E, E', ohm, V3.cross, velocityOf, fieldOf, Prod.mk.injEq]
  refine ⟨?_, ?_, ?_⟩ <;> ring

example := E_values_ohm ⟨1, 1/10, 4⟩ ⟨1/2, witS, witS⟩ (by norm_num [witS])

/-- C60. The fields in the fluid frame vanish without resistivity. -/
theorem E_dash_resistive (c : Cons) (r : Row) (hO : r.s.η_O = 0) (hA : r.s.η_A = 0)
    (hH : r.s.η_H = 0) : E_dash_values c r = (0, 0, 0) := by
  simp only [E_dash_values, E_values, E_func, E_r_func, E_θ_func, E_φ_func, hO, hA, hH,
    Prod.mk.injEq]
  refine ⟨?_, ?_, ?_⟩ <;> ring

/-- C60. The azimuthal electric field in the J/E plot is zero for every row of
every solution: the plotted `B_r'` is recomputed from that condition. -/
theorem je_plot_E_φ_zero (γ θ : ℝ) (s : St)
    (hη : s.η_O + s.η_A * (1 - (s.B_φ / B_mag s) ^ 2) ≠ 0) :
    (jePlotE γ θ s).2.2 = 0 := by
  have hη' : s.η_O + s.η_A * (1 - s.B_φ / B_mag s) * (1 + s.B_φ / B_mag s) ≠ 0 := by
    intro h0; apply hη; linear_combination h0
  simp only [jePlotE, E_func, J_func, E_φ_func, J_r_func, J_θ_func, J_φ_func,
    deriv_B_r_func]
  change s.η_O + s.η_A * (1 - s.B_φ / Real.sqrt _) * (1 + s.B_φ / Real.sqrt _) ≠ 0 at hη'
  generalize s.B_φ / Real.sqrt _ = bφ at *
  generalize s.B_r / Real.sqrt _ = br at *
  generalize s.B_θ / Real.sqrt _ = bθ at *
  field_simp
  ring

example := je_plot_E_φ_zero (1/10) (1/2) witS witS_regular.η

/-- C60. What the hydrostatic check shows for a static row: the residual of the
azimuthal balance, and that balance with the field line terms left out. -/
theorem hydro_check_azimuthal (c : Cons) (r : Row) (hγ : c.γ = 0)
    (hv : r.s.v_θ = 0) (hρ : r.s.ρ ≠ 0) (hr : r.s.v_r ≠ 0) (hφ : r.s.v_φ ≠ 0) :
    validate_hydro_azimuthal_mometum c r = azimuthalRes (5/4) c.a_0 r.flow ∧
    r.s.v_r * r.s.v_φ / 2 * validate_hydro_approximate_momenta c r =
      azimuthalRes (5/4) c.a_0 r.flow - c.a_0 / r.s.ρ *
        (1/4 * r.s.B_r * r.s.B_φ + Real.tan r.θ * r.s.B_θ * r.s.B_φ) := by
  constructor
  · simp only [validate_hydro_azimuthal_mometum, azimuthalRes, Row.flow, flowOf, hv,
      Cons.β, hγ]
    ring
  · simp only [validate_hydro_approximate_momenta, azimuthalRes, Row.flow, flowOf, hv]
    field_simp
    ring

/-- C60. What the hydrostatic check shows as radial momentum, on a static row
recorded by either hydrostatic right-hand side: the linearised radial balance
divided by twice the Keplerian speed. -/
theorem hydro_check_radial (c : Cons) (r : Row) (hK : 0 < c.norm_kepler_sq)
    (hs : Hydro.Static r.s)
    (h : (∃ P x code, r.θ = x * P.θ_scale ∧
        Hydro.rhs_equation P x r.s = (code, some r.deriv)) ∨
      (∃ P x code, r.θ = x * P.θ_scale ∧ P.use_E_r = false ∧
        ModHydro.rhs_equation P x r.s = (code, r.s, some r.deriv))) :
    validate_radial_momentum_mod_φ c r * (2 * Real.sqrt c.norm_kepler_sq) =
      ModHydro.keplerRes c.a_0 c.norm_kepler_sq r.flow := by
  have hB : r.deriv.B_r = Hydro.deriv_B_r_val r.θ r.s.B_φ r.s.B_θ r.s.v_r r.deriv.B_φ
      r.s.η_O r.s.η_A r.s.η_H (r.s.B_r / B_mag r.s) (r.s.B_φ / B_mag r.s)
      (r.s.B_θ / B_mag r.s) := by
    rcases h with ⟨P, x, code, hx, h⟩ | ⟨P, x, code, hx, hE, h⟩
    · rw [(Hydro.accepted_iff h).2.2.2, hx]
      rfl
    · rcases ModHydro.accepted_cases h with ⟨hE', -⟩ | ⟨-, -, hd⟩
      · rw [hE] at hE'; cases hE'
      · rw [hd, hx]
        rfl
  have hsK := Real.sq_sqrt hK.le
  have hn : Real.sqrt c.norm_kepler_sq ≠ 0 := (Real.sqrt_pos.2 hK).ne'
  have hρ := hs.ρ
  have hη := hs.η
  simp only [validate_radial_momentum_mod_φ, ModHydro.keplerRes, radialRes, Row.flow,
    flowOf, hs.v_θ, hB, Hydro.deriv_B_r_val, Hydro.X_func, Row.norm_B_r, Row.norm_B_φ,
    Row.norm_B_θ]
  simp only [B_mag] at *
  generalize Real.sqrt c.norm_kepler_sq = n at *
  generalize r.s.B_φ / Real.sqrt _ = bφ at *
  generalize r.s.B_r / Real.sqrt _ = br at *
  generalize r.s.B_θ / Real.sqrt _ = bθ at *
  rw [← hsK]
  have e : r.s.η_O + r.s.η_A * (1 - bφ) * (1 + bφ) =
      r.s.η_O + r.s.η_A * (1 - bφ ^ 2) := by ring
  rw [e]
  field_simp
  ring

/-- C60. What the hydrostatic check shows: its three panels, each with the value of its
quantity at the angle in degrees of every recorded row in range. -/
theorem hydro_check_panels (d : InternalData) (c : Cons) (start stop : ℝ)
    (hne : selected start stop (rowsOf d) ≠ []) :
    ∃ reports, generate_hydro_check_plot false (some d) c start stop = .ok reports ∧
      reports.map (fun r => (r.name, r.points)) =
        [("azimuthal momentum", validate_hydro_azimuthal_mometum c),
         ("approximate momenta", validate_hydro_approximate_momenta c),
         ("radial momentum (approx method)", validate_radial_momentum_mod_φ c)].map
          fun p => (p.1, (selected start stop (rowsOf d)).map fun r =>
            (degrees r.θ, p.2 r)) := by
  obtain ⟨x, l, h⟩ := List.exists_cons_of_ne_nil hne
  refine ⟨_, by simp [generate_hydro_check_plot, generate, hydroChecks, report, h]; rfl, ?_⟩
  simp [h]

/-- Without a row in range, with the electric field as variable or without internal data
there is no hydrostatic check. -/
theorem hydro_check_refuses (d : Option InternalData) (c : Cons) (start stop : ℝ) :
    generate_hydro_check_plot true d c start stop = .error .AnalysisError ∧
    generate_hydro_check_plot false none c start stop = .error .AnalysisError ∧
    (∀ d, selected start stop (rowsOf d) = [] →
      generate_hydro_check_plot false (some d) c start stop = .error .ValueError) := by
  refine ⟨rfl, rfl, fun d h => ?_⟩
  simp [generate_hydro_check_plot, generate, hydroChecks, report, h]
  rfl

/-- A row recorded by the modified hydrostatic right-hand side. -/
noncomputable def witRow : Row :=
  ⟨0 * (ModHydro.witMP false).θ_scale, ModHydro.witM,
    ModHydro.derivsB (ModHydro.witMP false) 0 ModHydro.witM⟩

example := hydro_check_panels { angles := [0], params := [witS], derivs := [witS] }
  ⟨1, 0, 100⟩ 0 90 (by simp [rowsOf, selected, degrees])

example := (hydro_check_refuses none ⟨1, 0, 100⟩ 0 90).2.2
  { angles := [], params := [], derivs := [] } rfl

example := hydro_check_azimuthal ⟨1, 0, 100⟩ witRow rfl rfl
  (by norm_num [witRow, ModHydro.witM]) (by norm_num [witRow, ModHydro.witM])
  (by norm_num [witRow, ModHydro.witM])

example := hydro_check_radial ⟨1, 0, 100⟩ witRow (by norm_num) ModHydro.witM_static
  (.inr ⟨ModHydro.witMP false, 0, 0, rfl, rfl, ModHydro.witM_call⟩)

example := E_dash_resistive ⟨1, 1/10, 4⟩
  ⟨1/2, { witS with η_O := 0, η_A := 0, η_H := 0 }, witS⟩ rfl rfl rfl
example := polar_induction_error ⟨1, 1/10, 4⟩ ⟨1/2, witS, witS⟩ _ _ _ ⟨rfl, rfl, rfl⟩

end DiscSolver.ValidatePlot
