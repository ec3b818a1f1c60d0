import Verif.Lemmas.Solution
import Verif.Props.Rhs
import Verif.Props.Taylor
import Mathlib.Analysis.SpecialFunctions.Trigonometric.Bounds

/-!
# C20, C21, C22, C66, C67: finding a solution
-/

namespace DiscSolver

variable (I : Integrator) (str : ℝ → String)
  (interp : List ℝ → List ℝ → Option (ℝ → ℝ)) (o : SolveOpts) (c : Conditions)
  (a : SolveArgs)

/-! ## C22: conflicting options -/

/-- Specification: the combinations of options that exclude each other. -/
def Conflict (o : SolveOpts) (a : SolveArgs) : Prop :=
  (o.sonic_interp_size ≠ none ∧ a.root_func ≠ none) ∨
  (o.sonic_interp_size ≠ none ∧ o.jump_before_sonic ≠ none) ∨
  (o.sonic_interp_size ≠ none ∧ a.store_internal = false) ∨
  (o.jump_before_sonic ≠ none ∧ a.root_func ≠ none) ∨
  (o.jump_before_sonic ≠ none ∧ a.has_onroot = true)

/-- The options of the first leg of `solution`. -/
noncomputable def firstLeg (o : SolveOpts) (a : SolveArgs) (angles : List ℝ)
    (init : St) : MainArgs :=
  { angles := angles, ode_init := init, has_onroot := a.has_onroot,
    tstop := a.tstop, has_ontstop := a.has_ontstop,
    jump_before_sonic := o.jump_before_sonic, root_func := a.root_func,
    root_func_args := a.root_func_args, sonic_interp_size := o.sonic_interp_size }

theorem conflict_iff (angles : List ℝ) (init : St) :
    MainConflict a.store_internal (firstLeg o a angles init) ↔ Conflict o a := by
  simp only [MainConflict, Conflict, firstLeg, Option.isSome_iff_ne_none]

/-- Conflicting options never produce a solution. -/
theorem conflict_rejected (h : Conflict o a) :
    ∃ e, (solution I str interp o c a).result = .error e := by
  simp only [solution]
  cases ht : (taylor_start I str o c a (solveOdeArgs o c a)).result with
  | error e => exact ⟨e, by rw [Logged.bind_of_error ht]⟩
  | ok v =>
    obtain ⟨ts, angles, init⟩ := v
    rw [Logged.bind_of_ok ht]
    have hm := main_solution_conflict (I := I) (str := str)
      (P := solveOdeArgs o c a) ((conflict_iff o a angles init).2 h)
    simp only [firstLeg] at hm
    exact ⟨.SolverError, by simp only [hm, Logged.raise_bind]; rfl⟩

/-- C22, first half. Unless the Taylor start is integrated numerically, conflicting
options raise `SolverError` before any integration. -/
theorem conflict_rejected_first_partial (h : Conflict o a)
    (ht : a.with_taylor = false ∨ o.use_taylor_jump = true) :
    solution I str interp o c a = ⟨[], .error .SolverError⟩ := by
  have key : ∀ ts angles init,
      taylor_start I str o c a (solveOdeArgs o c a) = .ok (ts, angles, init) →
      solution I str interp o c a = ⟨[], .error .SolverError⟩ := by
    intro ts angles init hts
    have hm := main_solution_conflict (I := I) (str := str)
      (P := solveOdeArgs o c a) ((conflict_iff o a angles init).2 h)
    simp only [firstLeg] at hm
    simp only [solution, hts, Logged.ok_bind, hm, Logged.raise_bind]
    rfl
  rcases ht with ht | ht
  · cases hmc : a.modified_initial_conditions with
    | none =>
      exact key none c.angles c.init_con (by simp [taylor_start, ht, hmc])
    | some mc =>
      exact key none mc.angles mc.init_con (by simp [taylor_start, ht, hmc])
  · by_cases hw : a.with_taylor = true
    · exact key _ _ _ (by simp only [taylor_start, hw, ht, if_true]; rfl)
    · simp only [Bool.not_eq_true] at hw
      cases hmc : a.modified_initial_conditions with
      | none =>
        exact key none c.angles c.init_con (by simp [taylor_start, hw, hmc])
      | some mc =>
        exact key none mc.angles mc.init_con (by simp [taylor_start, hw, hmc])

/-- C22 fails otherwise: with a numerically integrated Taylor start that start is
integrated, once, before the conflict is noticed. -/
theorem conflict_rejected_late (h : Conflict o a) (hw : a.with_taylor = true)
    (ht : o.use_taylor_jump = false) :
    ∃ r, (solution I str interp o c a).log = [r] ∧ r.args.with_taylor = true := by
  have hts : (taylor_start I str o c a (solveOdeArgs o c a)).log =
      [{ args := { solveOdeArgs o c a with with_taylor := true },
         store_internal := a.store_internal,
         tstop := some (rad_to_scaled (radians o.taylor_stop_angle) a.θ_scale),
         angles := c.angles, init := c.init_con }] := by
    simp only [taylor_start, hw, ht, if_true, Bool.false_eq_true, if_false]
    cases hr : (taylor_solution I str (solveOdeArgs o c a) c.angles
        a.store_internal (radians o.taylor_stop_angle)).result with
    | error e => rw [Logged.bind_of_error hr]; rfl
    | ok t => rw [Logged.bind_of_ok hr]; rfl
  suffices hs : (solution I str interp o c a).log =
      (taylor_start I str o c a (solveOdeArgs o c a)).log by
    rw [hts] at hs
    exact ⟨_, hs, rfl⟩
  simp only [solution]
  cases hr : (taylor_start I str o c a (solveOdeArgs o c a)).result with
  | error e => rw [Logged.bind_of_error hr]
  | ok v =>
    obtain ⟨ts, angles, init⟩ := v
    rw [Logged.bind_of_ok hr]
    have hm := main_solution_conflict (I := I) (str := str)
      (P := solveOdeArgs o c a) ((conflict_iff o a angles init).2 h)
    simp only [firstLeg] at hm
    simp only [hm, Logged.raise_bind]
    simp only [Logged.raise, List.append_nil]

/-- The Taylor start makes at most one integration, marked as such. -/
theorem taylor_start_log :
    (taylor_start I str o c a (solveOdeArgs o c a)).log.length ≤ 1 ∧
    ∀ r ∈ (taylor_start I str o c a (solveOdeArgs o c a)).log,
      r.args.with_taylor = true := by
  unfold taylor_start
  split
  · simp only
    split
    · simp [Logged.ok]
    · cases hr : (taylor_solution I str (solveOdeArgs o c a) c.angles
          a.store_internal (radians o.taylor_stop_angle)).result with
      | error e =>
        rw [Logged.bind_of_error hr]
        simp [taylor_solution]
      | ok t =>
        rw [Logged.bind_of_ok hr]
        simp [taylor_solution, Logged.ok]
  · split <;> simp [Logged.ok]

/-- Specification: what may be integrated after the Taylor start, for each
crossing mode.  `stop v` is the root function that stops where `v_θ = v`. -/
def ModeLegs (o : SolveOpts) (a : SolveArgs) (legs : List Request) : Prop :=
  let stop := fun v : ℝ => (some fun (_ : ℝ) (s : St) => [v - s.v_θ] : Option RootFn)
  match o.sonic_interp_size, o.jump_before_sonic with
  | none, none =>
    ∃ r, legs = [r] ∧ r.rootfn = a.root_func ∧ r.args.deriv_v_θ_func = none
  | none, some j =>
    ∃ r₁ r₂, legs = [r₁, r₂] ∧ r₁.rootfn = stop (1 - j) ∧ r₂.rootfn = none ∧
      r₁.args.deriv_v_θ_func = none ∧ r₂.args.deriv_v_θ_func = none
  | some size, none =>
    ∃ r₁, r₁.rootfn = stop (1 - size) ∧ r₁.args.deriv_v_θ_func = none ∧
      (legs = [r₁] ∨ ∃ r₂ r₃, legs = [r₁, r₂, r₃] ∧
        r₂.rootfn = stop (1 + o.after_sonic.getD size) ∧
        r₂.args.deriv_v_θ_func ≠ none ∧
        r₃.rootfn = none ∧ r₃.args.deriv_v_θ_func = none)
  | some _, some _ => False

/-- Specification: how each leg starts from the end of the previous one.  `angles`
are those left by the Taylor start. -/
def Handover (angles : List ℝ) : List Request → Prop
  | [_] => True
  | [r₁, r₂] => ∃ j, o.jump_before_sonic = some j ∧
      jump_across_sonic (solveOdeArgs o c a) str (I r₁).soln.t (I r₁).soln.y angles
        j o.after_sonic = .ok (r₂.angles, r₂.init)
  | [r₁, r₂, r₃] => ∃ θ₁ θ₂, (I r₁).soln.t.getLast? = some θ₁ ∧
      (I r₁).soln.y.getLast? = some r₂.init ∧
      r₂.angles = (open Classical in angles.filter (fun x => θ₁ ≤ x)) ∧
      (I r₂).soln.t.getLast? = some θ₂ ∧
      (I r₂).soln.y.getLast? = some r₃.init ∧
      r₃.angles = θ₂ :: (open Classical in angles.filter (fun x => θ₂ < x))
  | _ => False

/-- What `solution` returns, leg by leg, in each mode.  The Taylor part `ts` is
`none` when it was not used. -/
theorem solution_ok {out : SolutionOut}
    (h : (solution I str interp o c a).result = .ok out) :
    ∃ ts angles init r₁,
      (taylor_start I str o c a (solveOdeArgs o c a)).result =
        .ok (ts, angles, init) ∧
      main_plan (solveOdeArgs o c a) a.store_internal (firstLeg o a angles init) =
        .ok r₁ ∧
      out.flag = (I r₁).soln.flag ∧
      out.t_roots = (I r₁).soln.roots_t.map (·.map (· * a.θ_scale)) ∧
      out.y_roots = (I r₁).soln.roots_y ∧
      out.is_post_shock_only = a.is_post_shock_only ∧
      ∃ rest : List Request,
        (solution I str interp o c a).log =
          (taylor_start I str o c a (solveOdeArgs o c a)).log ++ r₁ :: rest ∧
        ModeLegs o a (r₁ :: rest) ∧
        out.angles = (ts.map (·.angles)).getD [] ++
          ((r₁ :: rest).flatMap fun r => (I r).soln.t.map (· * a.θ_scale)) ∧
        out.solution = (ts.map (·.params)).getD [] ++
          ((r₁ :: rest).flatMap fun r => (I r).soln.y) ∧
        Handover I str o c a angles (r₁ :: rest) := by
  obtain ⟨⟨ts, angles, init⟩, hts, h, hlog⟩ := Logged.bind_ok h
  obtain ⟨⟨s₁, d₁⟩, hm, h, hlog₁⟩ := Logged.bind_ok h
  obtain ⟨r₁, hr₁, hl₁, hs₁, -, -⟩ := main_solution_ok hm
  refine ⟨ts, angles, init, r₁, hts, hr₁, ?_⟩
  obtain ⟨hnc, -, hroot, hargs, -⟩ := main_plan_ok hr₁
  have hlog' : (solution I str interp o c a).log =
    (taylor_start I str o c a (solveOdeArgs o c a)).log ++ _ := hlog
  rw [hlog₁, hl₁] at hlog'
  have hd₁ : r₁.args.deriv_v_θ_func = none := by rw [hargs]
  cases hsz : o.sonic_interp_size with
  | some size =>
    have hj : o.jump_before_sonic = none := by
      by_contra hj
      exact hnc ((conflict_iff o a _ _).2 (Or.inr (Or.inl ⟨by simp [hsz], hj⟩)))
    have hrf : a.root_func = none := by
      by_contra hj
      exact hnc ((conflict_iff o a _ _).2 (Or.inl ⟨by simp [hsz], hj⟩))
    have hroot₁ : r₁.rootfn = some (velocity_stop (1 - size)) := by
      rw [hroot]; simp [legRoot, hsz]
    simp only [hsz] at h hlog'
    obtain ⟨leg, hi, h, hlog₂⟩ := Logged.bind_ok h
    rw [hlog₂] at hlog'
    cases leg with
    | none =>
      rw [interp_none hi] at hlog'
      injection h with h
      subst h
      subst hs₁
      refine ⟨rfl, rfl, rfl, rfl, [], hlog', ?_, ?_, ?_, trivial⟩
      · simp only [ModeLegs, hsz, hj]
        exact ⟨r₁, hroot₁, hd₁, Or.inl rfl⟩
      · simp [scaled_to_rad]
      · simp
    | some leg =>
      obtain ⟨r₂, hl₂, hroot₂, hd₂, hleg, hh₂, hh₃⟩ := interp_some hi
      simp only at h
      obtain ⟨⟨s₃, d₃⟩, hm₃, h, hlog₃⟩ := Logged.bind_ok h
      obtain ⟨r₃, hr₃, hl₃, hs₃, -, -⟩ := main_solution_ok hm₃
      obtain ⟨-, -, hroot₃, hargs₃, -, -, -, -, hang₃, hini₃⟩ := main_plan_ok hr₃
      simp only [hl₂, hlog₃, hl₃] at hlog'
      injection h with h
      subst h
      subst hs₁
      refine ⟨rfl, rfl, rfl, rfl, [r₂, r₃], hlog', ?_, ?_, ?_, ?_⟩
      · simp only [ModeLegs, hsz, hj]
        refine ⟨r₁, hroot₁, hd₁, Or.inr ⟨r₂, r₃, rfl, hroot₂, hd₂, ?_, ?_⟩⟩
        · rw [hroot₃]; simp [legRoot, hrf]
        · rw [hargs₃]
      · simp [scaled_to_rad, hleg, hs₃]
      · simp [hleg, hs₃]
      · obtain ⟨θ₁, y₁, ht₁, hy₁, hi₂, ha₂⟩ := hh₂
        obtain ⟨θ₂, y₂, ht₂, hy₂, hi₃, ha₃⟩ := hh₃
        refine ⟨θ₁, θ₂, ht₁, ?_, ha₂, ht₂, ?_, ?_⟩
        · rw [hi₂]; exact hy₁
        · rw [hini₃, hi₃]; exact hy₂
        · rw [hang₃, ha₃]
  | none =>
    simp only [hsz] at h hlog'
    cases hj : o.jump_before_sonic with
    | none =>
      simp only [hj] at h hlog'
      injection h with h
      subst h
      subst hs₁
      refine ⟨rfl, rfl, rfl, rfl, [], hlog', ?_, ?_, ?_, trivial⟩
      · simp only [ModeLegs, hsz, hj]
        refine ⟨r₁, rfl, ?_, hd₁⟩
        rw [hroot]; simp [legRoot, hsz, hj]
      · simp [scaled_to_rad]
      · simp
    | some j =>
      have hrf : a.root_func = none := by
        by_contra hrf
        exact hnc ((conflict_iff o a _ _).2
          (Or.inr (Or.inr (Or.inr (Or.inl ⟨by simp [hj], hrf⟩)))))
      simp only [hj] at h hlog'
      obtain ⟨⟨pa, pi⟩, hjump, h, hlog₂⟩ := Logged.bind_ok h
      obtain ⟨⟨s₃, d₃⟩, hm₃, h, hlog₃⟩ := Logged.bind_ok h
      obtain ⟨r₃, hr₃, hl₃, hs₃, -, -⟩ := main_solution_ok hm₃
      obtain ⟨-, -, hroot₃, hargs₃, -, -, -, -, hang₃, hini₃⟩ := main_plan_ok hr₃
      rw [hlog₂, hlog₃, hl₃] at hlog'
      injection h with h
      subst h
      subst hs₁
      refine ⟨rfl, rfl, rfl, rfl, [r₃], hlog', ?_, ?_, ?_, ?_⟩
      · simp only [ModeLegs, hsz, hj]
        refine ⟨r₁, r₃, rfl, ?_, ?_, hd₁, ?_⟩
        · rw [hroot]; simp [legRoot, hsz, hj]; rfl
        · rw [hroot₃]; simp [legRoot, hrf]
        · rw [hargs₃]
      · simp [scaled_to_rad, hs₃]
      · simp [hs₃]
      · refine ⟨j, hj, ?_⟩
        rw [hang₃, hini₃]
        exact hjump

/-- C22, second half. An accepted request runs exactly one crossing mode: besides
at most one Taylor integration, the integrations are those of the single mode the
options select. -/
theorem one_crossing_mode {out : SolutionOut}
    (h : (solution I str interp o c a).result = .ok out) :
    ¬ Conflict o a ∧ ∃ taylor legs, (solution I str interp o c a).log = taylor ++ legs ∧
      taylor.length ≤ 1 ∧ (∀ r ∈ taylor, r.args.with_taylor = true) ∧
      ModeLegs o a legs := by
  refine ⟨fun hc => ?_, ?_⟩
  · obtain ⟨e, he⟩ := conflict_rejected I str interp o c a hc
    rw [he] at h; cases h
  · obtain ⟨ts, angles, init, r₁, -, -, -, -, -, -, rest, hlog, hmode, -⟩ :=
      solution_ok I str interp o c a h
    exact ⟨_, _, hlog, (taylor_start_log I str o c a).1,
      (taylor_start_log I str o c a).2, hmode⟩

/-! ## C67: the flag -/

/-- C67, the exact behaviour: flag and roots are those of the first leg after the
Taylor start, whatever happens later. -/
theorem flag_is_first_leg_partial {out : SolutionOut}
    (h : (solution I str interp o c a).result = .ok out) :
    ∃ taylor r₁ rest, (solution I str interp o c a).log = taylor ++ r₁ :: rest ∧
      (∀ r ∈ taylor, r.args.with_taylor = true) ∧
      out.flag = (I r₁).soln.flag ∧
      out.t_roots = (I r₁).soln.roots_t.map (·.map (· * a.θ_scale)) ∧
      out.y_roots = (I r₁).soln.roots_y := by
  obtain ⟨ts, angles, init, r₁, -, -, hf, ht, hy, -, rest, hlog, -⟩ :=
    solution_ok I str interp o c a h
  exact ⟨_, r₁, rest, hlog, (taylor_start_log I str o c a).2, hf, ht, hy⟩

/-! ## C68: the joined arrays -/

/-- Specification: an integrator that returns one state per angle. -/
def Aligned (I : Integrator) : Prop := ∀ r, (I r).soln.t.length = (I r).soln.y.length

/-- C68. The angles and the states of a solution have the same length, and are the
Taylor rows followed by the rows of every leg in the order they were integrated. -/
theorem solution_aligned (hI : Aligned I) {out : SolutionOut}
    (h : (solution I str interp o c a).result = .ok out) :
    out.angles.length = out.solution.length := by
  obtain ⟨ts, angles, init, r₁, hts, -, -, -, -, -, rest, -, -, ha, hs, -⟩ :=
    solution_ok I str interp o c a h
  have hflat : ∀ l : List Request,
      (l.flatMap fun r => (I r).soln.t.map (· * a.θ_scale)).length =
      (l.flatMap fun r => (I r).soln.y).length := by
    intro l
    induction l with
    | nil => rfl
    | cons r l ih =>
      simp only [List.flatMap_cons, List.length_append, List.length_map, hI r, ih]
  have htay : ((ts.map (·.angles)).getD []).length =
      ((ts.map (·.params)).getD []).length := by
    cases ts with
    | none => rfl
    | some t =>
      simp only [Option.map_some, Option.getD_some]
      unfold taylor_start at hts
      split at hts
      · simp only at hts
        split at hts
        · injection hts with hts
          injection hts with hts
          injection hts with hts
          rw [← hts]; rfl
        · obtain ⟨t', h1, h2, -⟩ := Logged.bind_ok hts
          injection h2 with h2
          injection h2 with h2
          injection h2 with h2
          subst h2
          unfold taylor_solution at h1
          simp only at h1
          split at h1
          · split at h1
            · injection h1 with h1
              rw [← h1]
              simp only [List.length_map]
              exact hI _
            · cases h1
          · cases h1
      · split at hts <;> injection hts with hts <;> injection hts with hts <;> cases hts
  rw [ha, hs, List.length_append, List.length_append, htay, hflat]

/-! ## C20: the Taylor start -/

/-- Specification: the first row an integrator returns is the one it was given. -/
def StartsAtInit (I : Integrator) : Prop :=
  ∀ r θ, r.angles.head? = some θ →
    (I r).soln.t.head? = some θ ∧ (I r).soln.y.head? = some r.init

/-- The Taylor start of the default configuration. -/
theorem taylor_start_jump (hw : a.with_taylor = true) (hj : o.use_taylor_jump = true) :
    taylor_start I str o c a (solveOdeArgs o c a) = .ok
      (some (taylor_jump c.angles c.init_con c.γ c.a_0
          (radians o.taylor_stop_angle) o.η_derivs a.θ_scale o.use_E_r),
        taylor_new_angles c.angles (radians o.taylor_stop_angle / a.θ_scale),
        taylor_values c.init_con c.γ c.a_0 o.η_derivs o.use_E_r
          (radians o.taylor_stop_angle / a.θ_scale)) := by
  simp only [taylor_start, hw, hj, if_true]
  rfl

/-- C20, what holds. The first integration gets every requested angle beyond the
stop angle, exactly once and in the order requested, and no other; it starts from
the Taylor state at the stop angle. -/
theorem taylor_requested_partial (hw : a.with_taylor = true)
    (hj : o.use_taylor_jump = true) {out : SolutionOut}
    (h : (solution I str interp o c a).result = .ok out) :
    ∃ r rest, (solution I str interp o c a).log = r :: rest ∧
      r.angles = (open Classical in c.angles.filter
        (fun x => radians o.taylor_stop_angle / a.θ_scale < x)) ∧
      r.init = taylor_values c.init_con c.γ c.a_0 o.η_derivs o.use_E_r
        (radians o.taylor_stop_angle / a.θ_scale) := by
  obtain ⟨ts, angles, init, r₁, hts, hr₁, -, -, -, -, rest, hlog, -⟩ :=
    solution_ok I str interp o c a h
  obtain ⟨-, -, -, -, -, -, -, -, hang, hini⟩ := main_plan_ok hr₁
  rw [taylor_start_jump I str o c a hw hj] at hts hlog
  injection hts with hts
  injection hts with _ hts
  injection hts with h1 h2
  refine ⟨r₁, rest, hlog, ?_, ?_⟩
  · rw [hang]; exact h1.symm
  · rw [hini]; exact h2.symm

/-- C20, what goes wrong. The recorded rows start with the midplane, the Taylor
state at the stop angle, and then that same state once more, recorded at the first
requested angle *beyond* the stop angle. -/
theorem taylor_recorded_late (hI : StartsAtInit I) (hw : a.with_taylor = true)
    (hj : o.use_taylor_jump = true) (hθ : a.θ_scale ≠ 0) {out : SolutionOut}
    (h : (solution I str interp o c a).result = .ok out) :
    let stop := radians o.taylor_stop_angle / a.θ_scale
    let T := taylor_values c.init_con c.γ c.a_0 o.η_derivs o.use_E_r stop
    ∃ x ∈ c.angles, stop < x ∧
      out.angles.take 3 = [0, radians o.taylor_stop_angle, x * a.θ_scale] ∧
      out.solution.take 3 = [c.init_con, T, T] := by
  intro stop T
  obtain ⟨ts, angles, init, r₁, hts, hr₁, -, -, -, -, rest, -, -, ha, hs, -⟩ :=
    solution_ok I str interp o c a h
  obtain ⟨-, hlen, -, -, -, -, -, -, hang, hini⟩ := main_plan_ok hr₁
  rw [taylor_start_jump I str o c a hw hj] at hts
  injection hts with hts
  injection hts with hts' hts
  injection hts with h1 h2
  have hang' : r₁.angles = taylor_new_angles c.angles stop := by
    rw [hang]; exact h1.symm
  have hlen' : 2 ≤ r₁.angles.length := by rw [hang]; exact hlen
  obtain ⟨x, l, hx⟩ : ∃ x l, r₁.angles = x :: l := by
    cases hr : r₁.angles with
    | nil => rw [hr] at hlen'; simp at hlen'
    | cons x l => exact ⟨x, l, rfl⟩
  obtain ⟨ht, hy⟩ := hI r₁ x (by rw [hx]; rfl)
  have hmem : x ∈ taylor_new_angles c.angles stop := by
    rw [← hang', hx]; exact List.mem_cons_self
  simp only [taylor_new_angles, List.mem_filter, decide_eq_true_eq] at hmem
  have hT : r₁.init = T := by rw [hini]; exact h2.symm
  rw [hT] at hy
  refine ⟨x, hmem.1, hmem.2, ?_, ?_⟩
  · rw [ha, ← hts']
    cases hl : (I r₁).soln.t with
    | nil => rw [hl] at ht; simp at ht
    | cons y l' =>
      rw [hl] at ht
      simp only [List.head?_cons, Option.some.injEq] at ht
      simp [taylor_jump, scaled_to_rad, rad_to_scaled, hl, ht, hθ]
  · rw [hs, ← hts']
    cases hl : (I r₁).soln.y with
    | nil => rw [hl] at hy; simp at hy
    | cons y l' =>
      rw [hl] at hy
      simp only [List.head?_cons, Option.some.injEq] at hy
      simp [taylor_jump, rad_to_scaled, hl, hy]
      rfl

/-- C20 is false of the code: with an increasing Taylor polynomial for `B_θ` and the
default angle scale, the first integrated row is never the Taylor state at the
angle recorded for it. -/
theorem taylor_start_mismatch (hI : StartsAtInit I) (hw : a.with_taylor = true)
    (hj : o.use_taylor_jump = true) (hθ : a.θ_scale = 1)
    (hpos : 0 ≤ o.taylor_stop_angle)
    (hB : (get_taylor_second_order c.init_con c.γ c.a_0 o.η_derivs o.use_E_r).B_θ ≠ 0)
    {out : SolutionOut}
    (h : (solution I str interp o c a).result = .ok out) :
    ∃ θ s, out.angles[2]? = some θ ∧ out.solution[2]? = some s ∧
      s ≠ taylor_values c.init_con c.γ c.a_0 o.η_derivs o.use_E_r θ := by
  obtain ⟨x, -, hx, ha, hs⟩ := taylor_recorded_late I str interp o c a hI hw hj
    (by rw [hθ]; exact one_ne_zero) h
  rw [hθ, div_one] at hx
  rw [hθ, mul_one] at ha
  rw [hθ, div_one] at hs
  refine ⟨x, taylor_values c.init_con c.γ c.a_0 o.η_derivs o.use_E_r
    (radians o.taylor_stop_angle), ?_, ?_, ?_⟩
  · have := congrArg (fun l => l[2]?) ha
    simpa [List.getElem?_take] using this
  · have := congrArg (fun l => l[2]?) hs
    simpa [List.getElem?_take] using this
  · intro he
    have h0 : 0 ≤ radians o.taylor_stop_angle :=
      mul_nonneg hpos (by positivity)
    have h1 : (get_taylor_first_order c.init_con c.γ c.a_0).B_θ = 0 := rfl
    have h3 : (get_taylor_third_order c.init_con c.γ c.a_0 o.η_derivs
      o.use_E_r).B_θ = 0 := rfl
    have he' := congrArg St.B_θ he
    simp only [taylor_values, taylorStep, St.add, St.smul, h1, h3] at he'
    apply hB
    have hne : x ^ 2 - radians o.taylor_stop_angle ^ 2 ≠ 0 := by nlinarith
    apply (mul_eq_zero.1 _).resolve_right hne
    linear_combination -2 * he'

/-- C20 for a numerically integrated Taylor start: it is integrated over all the
requested angles up to the stop angle, and the main integration gets the state
reached there, but again only the requested angles beyond it. -/
theorem taylor_numeric_partial (hw : a.with_taylor = true)
    (hj : o.use_taylor_jump = false) {out : SolutionOut}
    (h : (solution I str interp o c a).result = .ok out) :
    ∃ r₀ r rest, (solution I str interp o c a).log = r₀ :: r :: rest ∧
      r₀.angles = c.angles ∧ r₀.init = c.init_con ∧
      r₀.tstop = some (radians o.taylor_stop_angle / a.θ_scale) ∧
      (I r₀).ending = .reachedTstop ∧
      (I r₀).soln.tstop_y.head? = some r.init ∧
      r.angles = (open Classical in c.angles.filter
        (fun x => radians o.taylor_stop_angle / a.θ_scale < x)) := by
  obtain ⟨ts, angles, init, r₁, hts, hr₁, -, -, -, -, rest, hlog, -⟩ :=
    solution_ok I str interp o c a h
  obtain ⟨-, -, -, -, -, -, -, -, hang, hini⟩ := main_plan_ok hr₁
  simp only [taylor_start, hw, hj, if_true, Bool.false_eq_true, if_false] at hts hlog
  obtain ⟨t, h1, h2, h3⟩ := Logged.bind_ok hts
  rw [h3] at hlog
  injection h2 with h2
  injection h2 with _ h2
  injection h2 with ha hi
  unfold taylor_solution at h1 hlog
  simp only at h1
  split at h1
  · rename_i he
    split at h1
    · rename_i t0 y0 _ hy
      injection h1 with h1
      refine ⟨_, r₁, rest, hlog, rfl, rfl, rfl, he, ?_, ?_⟩
      · rw [hini]
        simp only [firstLeg]
        rw [← hi, ← h1]
        exact hy
      · rw [hang]
        simp only [firstLeg]
        rw [← ha, ← h1]
        rfl
    · cases h1
  · cases h1

/-! ## C21: the jump over the sonic point -/

/-- C21. The jump lands exactly the requested amount away in `v_θ`, moves every
variable along the tangent the right-hand side gives there, and the first new angle
is the landing point on that tangent. -/
theorem jump_lands (P : OdeArgs) (t : List ℝ) (y : List St) (angles : List ℝ) (jb : ℝ)
    (ja : Option ℝ) (θ : ℝ) (s : St) (ht : t.getLast? = some θ)
    (hy : y.getLast? = some s) (hρ : 0 ≤ s.ρ) (hv : 0 ≤ s.v_θ)
    (hd : (rhsDerivs P (θ * P.θ_scale) s).v_θ ≠ 0) :
    ∃ dθ rest s', jump_across_sonic P str t y angles jb ja =
        .ok ((θ + dθ) :: rest, s') ∧
      s'.v_θ - s.v_θ = jb + ja.getD jb ∧
      s' = line s (rhsDerivs P (θ * P.θ_scale) s) θ (θ + dθ) ∧
      rest = (open Classical in
        angles.filter (fun x => (θ + dθ) / P.θ_scale < x)) := by
  have hr : (rhs_call P str none θ s St.zero).derivs =
      rhsDerivs P (θ * P.θ_scale) s := by
    simp [rhs_call, not_lt.2 hρ, not_lt.2 hv, rhsDerivs, scaled_to_rad]
  refine ⟨(jb + ja.getD jb) / (rhsDerivs P (θ * P.θ_scale) s).v_θ, _,
    s.add ((rhsDerivs P (θ * P.θ_scale) s).smul
      ((jb + ja.getD jb) / (rhsDerivs P (θ * P.θ_scale) s).v_θ)), ?_, ?_, ?_, rfl⟩
  · simp only [jump_across_sonic, ht, hy, hr]
    rfl
  · simp only [St.add, St.smul]
    field_simp
    ring
  · simp only [line, add_sub_cancel_left]

/-- C21. With the default angle scale the angles kept are exactly those beyond the
landing point, and if `v_θ` moves the way it was going the landing point lies
beyond the starting point, so an increasing grid stays increasing. -/
theorem jump_direction_partial (P : OdeArgs) (hP : P.θ_scale = 1) (t : List ℝ)
    (y : List St) (angles : List ℝ) (jb : ℝ)
    (ja : Option ℝ) (θ : ℝ) (s : St) (ht : t.getLast? = some θ)
    (hy : y.getLast? = some s) (hρ : 0 ≤ s.ρ) (hv : 0 ≤ s.v_θ)
    (hd : 0 < (rhsDerivs P θ s).v_θ) (hj : 0 < jb + ja.getD jb)
    (hang : angles.Pairwise (· < ·)) :
    ∃ θ' rest s', jump_across_sonic P str t y angles jb ja = .ok (θ' :: rest, s') ∧
      θ < θ' ∧ (∀ x, x ∈ rest ↔ x ∈ angles ∧ θ' < x) ∧
      (θ' :: rest).Pairwise (· < ·) := by
  obtain ⟨dθ, rest, s', h, h1, h2, h3⟩ := jump_lands str P t y angles jb ja θ s ht hy
    hρ hv (by rw [hP, mul_one]; exact hd.ne')
  rw [hP, div_one] at h3
  rw [hP, mul_one] at h2
  have hdθ : 0 < dθ := by
    rw [h2] at h1
    simp only [line, St.add, St.smul, add_sub_cancel_left] at h1
    rw [← h1] at hj
    exact (pos_iff_pos_of_mul_pos hj).1 hd
  have hmem : ∀ x, x ∈ rest ↔ x ∈ angles ∧ θ + dθ < x := by
    intro x
    rw [h3]
    simp
  refine ⟨_, rest, s', h, by linarith, hmem, ?_⟩
  rw [List.pairwise_cons]
  refine ⟨fun x hx => ((hmem x).1 hx).2, ?_⟩
  rw [h3]
  exact hang.filter _

/-- C21 fails for any other angle scale above one: the landing point, which is
already scaled, is scaled a second time, and an angle behind it is kept. -/
theorem jump_keeps_behind (P : OdeArgs) (hP : 1 < P.θ_scale) (t : List ℝ)
    (y : List St) (jb : ℝ) (ja : Option ℝ) (θ : ℝ) (s : St)
    (ht : t.getLast? = some θ) (hy : y.getLast? = some s) (hρ : 0 ≤ s.ρ)
    (hv : 0 ≤ s.v_θ) (hd : (rhsDerivs P (θ * P.θ_scale) s).v_θ ≠ 0)
    (hland : 0 < θ + (jb + ja.getD jb) / (rhsDerivs P (θ * P.θ_scale) s).v_θ) :
    ∃ angles θ' rest s', jump_across_sonic P str t y angles jb ja =
        .ok (θ' :: rest, s') ∧ ∃ x ∈ rest, x < θ' := by
  set θ' := θ + (jb + ja.getD jb) / (rhsDerivs P (θ * P.θ_scale) s).v_θ with hθ'
  have hlt : θ' / P.θ_scale < θ' := div_lt_self hland hP
  obtain ⟨dθ, rest, s', h, h1, h2, h3⟩ := jump_lands str P t y
    [(θ' / P.θ_scale + θ') / 2] jb ja θ s ht hy hρ hv hd
  have hdθ : θ + dθ = θ' := by
    rw [h2] at h1
    simp only [line, St.add, St.smul, add_sub_cancel_left] at h1
    rw [hθ', ← h1]
    field_simp
  rw [hdθ] at h h3
  refine ⟨_, θ', rest, s', h, (θ' / P.θ_scale + θ') / 2, ?_, by linarith⟩
  rw [h3]
  simp only [List.mem_filter, List.mem_singleton, decide_eq_true_eq, true_and]
  linarith

/-! ## C66: the angle scale -/

/-- C66, the exact behaviour: a profile the scaled system follows at `x`, read as a
function of the angle in radians, has derivative `1 / θ_scale` times the unscaled
right-hand side. -/
theorem scale_slope_partial (P : OdeArgs) (hc : P.θ_scale ≠ 0) (g : ℝ → St) (x : ℝ)
    (hg : Follows P g x) :
    HasStDeriv (fun θ => g (θ / P.θ_scale))
      ((rhsDerivs { P with θ_scale := 1 } (x * P.θ_scale) (g x)).smul
        (1 / P.θ_scale)) (x * P.θ_scale) := by
  obtain ⟨d, hd, hg⟩ := hg
  have h1 := (rhs_accepted hd).2.2.2
  have hx : x * P.θ_scale / P.θ_scale = x := mul_div_cancel_right₀ x hc
  have e : rhsDerivs { P with θ_scale := 1 } (x * P.θ_scale) (g x) = d := h1.symm
  rw [e]
  have key : ∀ (f : ℝ → ℝ) (f' : ℝ), HasDerivAt f f' x →
      HasDerivAt (fun θ => f (θ / P.θ_scale)) (f' * (1 / P.θ_scale))
        (x * P.θ_scale) := by
    intro f f' hf
    have h2 : HasDerivAt (fun θ => θ / P.θ_scale) (1 / P.θ_scale) (x * P.θ_scale) :=
      (hasDerivAt_id _).div_const _
    rw [← hx] at hf
    exact HasDerivAt.comp (x * P.θ_scale) hf h2
  exact ⟨key _ _ hg.B_r, key _ _ hg.B_φ, key _ _ hg.B_θ, key _ _ hg.v_r,
    key _ _ hg.v_φ, key _ _ hg.v_θ, key _ _ hg.ρ, key _ _ hg.X, key _ _ hg.η_O,
    key _ _ hg.η_A, key _ _ hg.η_H⟩

/-- C66 is false of the code: for any other angle scale than one, a profile followed
by the scaled system is not followed by the unscaled system, unless nothing
changes. -/
theorem scale_changes_solution (P : OdeArgs) (hc : P.θ_scale ≠ 0)
    (hc1 : P.θ_scale ≠ 1) (g : ℝ → St) (x : ℝ) (hg : Follows P g x)
    (hB : (g x).B_θ * Real.tan (x * P.θ_scale) ≠ (P.γ + 3/4) * (g x).B_r) :
    ¬ Follows { P with θ_scale := 1 } (fun θ => g (θ / P.θ_scale))
      (x * P.θ_scale) := by
  rintro ⟨d, hd, hf⟩
  have h1 := (rhs_accepted hd).2.2.2
  have hx : x * P.θ_scale / P.θ_scale = x := mul_div_cancel_right₀ x hc
  simp only [mul_one, hx] at h1
  have h2 := (scale_slope_partial P hc g x hg).B_θ.unique hf.B_θ
  rw [h1] at h2
  simp only [St.smul, rhs_B_θ] at h2
  apply hc1
  have h3 : (g x).B_θ * Real.tan (x * P.θ_scale) - (P.γ + 3/4) * (g x).B_r ≠ 0 :=
    sub_ne_zero.2 hB
  field_simp at h2
  generalize (g x).B_θ * Real.tan (x * P.θ_scale) = u at *
  have h4 : (P.θ_scale - 1) * (u - (P.γ + 3/4) * (g x).B_r) = 0 := by
    linear_combination -h2 / 4
  have := (mul_eq_zero.1 h4).resolve_right h3
  linarith

/-! ## Concrete cases -/

/-- A state whose polar velocity grows at the rate `1/10` at angle zero. -/
noncomputable def witJ : St :=
  { B_r := 0, B_φ := 0, B_θ := 1, v_r := -1, v_φ := 2, v_θ := 1/2, ρ := 1,
    X := 0, η_O := 1, η_A := 1/2, η_H := 1/4 }

/-- Conditions starting from `witJ`. -/
noncomputable def witJC : Conditions :=
  { norm_kepler_sq := 4, a_0 := 1, init_con := witJ, angles := [0, 1, 3, 4],
    γ := 1/10 }

/-- A jump of `1/10` before and after the sonic point. -/
noncomputable def witJO : SolveOpts :=
  { taylor_stop_angle := 1/1000, jump_before_sonic := some (1/10) }

/-- No Taylor start. -/
noncomputable def witJA : SolveArgs := { with_taylor := false }

/-- An integrator that finds a root at once when it looks for one, and otherwise
ends with the flag `f`. -/
noncomputable def rootI (f : StatusFlag) : Integrator := fun r =>
  if r.rootfn.isSome then
    { ending := .foundRoot,
      soln := { flag := .ROOT_RETURN, t := r.angles.take 1,
                y := (r.angles.take 1).map fun _ => r.init } }
  else
    { ending := if f = .SUCCESS then .finished else .failed,
      soln := { flag := f, t := r.angles, y := r.angles.map fun _ => r.init } }

theorem rootI_aligned (f : StatusFlag) : Aligned (rootI f) := by
  intro r
  unfold rootI
  split <;> simp

theorem rootI_starts (f : StatusFlag) : StartsAtInit (rootI f) := by
  intro r θ h
  cases hr : r.angles with
  | nil => rw [hr] at h; simp at h
  | cons x l =>
    rw [hr] at h
    simp only [List.head?_cons, Option.some.injEq] at h
    unfold rootI
    split <;> simp [hr, h]

theorem witJ_deriv (P : OdeArgs) (hf : P.deriv_v_θ_func = none) (hγ : P.γ = 1/10) :
    (rhsDerivs P 0 witJ).v_θ = 1/10 := by
  rw [rhs_v_θ P 0 witJ hf, hγ]
  norm_num [witJ]

/-- The arguments of the witness run. -/
noncomputable def witJP : OdeArgs := solveOdeArgs witJO witJC witJA

/-- The state where the witness run lands. -/
noncomputable def witL : St := line witJ (rhsDerivs witJP 0 witJ) 0 2

theorem witJ_jump :
    jump_across_sonic witJP str [0] [witJ] [0, 1, 3, 4] (1/10) none =
      .ok ([2, 3, 4], witL) := by
  have hdv := witJ_deriv witJP rfl rfl
  obtain ⟨dθ, rest, s', h, h1, h2, h3⟩ := jump_lands str
    witJP [0] [witJ] [0, 1, 3, 4] (1/10) none 0 witJ rfl rfl
    (by norm_num [witJ]) (by norm_num [witJ])
    (by rw [zero_mul, hdv]; norm_num)
  have hd : dθ = 2 := by
    rw [h2, zero_mul] at h1
    simp only [line, St.add, St.smul, add_sub_cancel_left, hdv,
      Option.getD_none, zero_add, sub_zero] at h1
    linarith
  subst hd
  rw [h, h2, h3, zero_mul]
  have : witJP.θ_scale = 1 := rfl
  rw [this]
  norm_num [List.filter, witL]

/-- Reading `solution` forwards in jump mode. -/
theorem solution_jump_run {j : ℝ} {ts : Option TaylorSolution} {angles pa : List ℝ}
    {init pi : St} {s₁ s₂ : CvSoln} {d₁ d₂ : Option InternalData}
    (hsz : o.sonic_interp_size = none) (hj : o.jump_before_sonic = some j)
    (hts : taylor_start I str o c a (solveOdeArgs o c a) = .ok (ts, angles, init))
    (hm : (main_solution I str (solveOdeArgs o c a) a.store_internal
      (firstLeg o a angles init)).result = .ok (s₁, d₁))
    (hjump : jump_across_sonic (solveOdeArgs o c a) str s₁.t s₁.y angles j
      o.after_sonic = .ok (pa, pi))
    (hm₂ : (main_solution I str (solveOdeArgs o c a) a.store_internal
      { angles := pa, ode_init := pi, has_onroot := a.has_onroot,
        tstop := a.tstop, has_ontstop := a.has_ontstop, root_func := a.root_func,
        root_func_args := a.root_func_args }).result = .ok (s₂, d₂)) :
    ∃ out, (solution I str interp o c a).result = .ok out ∧ out.flag = s₁.flag ∧
      out.angles = (ts.map (·.angles)).getD [] ++
        s₁.t.map (· * a.θ_scale) ++ s₂.t.map (· * a.θ_scale) := by
  simp only [firstLeg, hsz, hj] at hm
  simp only [solution, hts, Logged.ok_bind, hsz, hj, Logged.bind_of_ok hm, hjump]
  rw [Logged.bind_of_ok (x := Logged.lift (Except.ok (pa, pi))) (a := (pa, pi)) rfl]
  simp only [Logged.bind_of_ok hm₂]
  exact ⟨_, rfl, rfl, rfl⟩

/-- The jump run with the witnesses: it always reports the first leg's flag,
whatever the flag `f` of the leg after the jump. -/
theorem witJ_solution (f : StatusFlag) (hf : f ≠ .TOO_CLOSE) :
    ∃ out, (solution (rootI f) str interp witJO witJC witJA).result = .ok out ∧
      out.flag = .ROOT_RETURN ∧ out.angles = [0, 2, 3, 4] := by
  have h2 : (main_solution (rootI f) str witJP true
      (firstLeg witJO witJA [0, 1, 3, 4] witJ)).result =
        .ok ({ flag := .ROOT_RETURN, t := [0], y := [witJ] }, some {}) := by
    simp [main_solution, main_plan, firstLeg, witJO, witJA, rootI, afterCalls]
  have h3 : (main_solution (rootI f) str witJP true
      { angles := [2, 3, 4], ode_init := witL }).result =
      .ok ({ flag := f, t := [2, 3, 4], y := [witL, witL, witL] }, some {}) := by
    simp [main_solution, main_plan, rootI, afterCalls, hf]
  obtain ⟨out, h, hfl, ha⟩ := solution_jump_run (rootI f) str interp witJO witJC witJA
    (j := 1/10) (ts := none) (angles := [0, 1, 3, 4]) (init := witJ) rfl rfl rfl h2
    (witJ_jump str) h3
  refine ⟨out, h, hfl, ?_⟩
  rw [ha]
  simp [witJA]

/-- C67 is false of the code: a run whose last integration fails and a run whose
last integration succeeds report the same flag. -/
theorem flag_hides_failure :
    ∃ out out',
      (solution (rootI (.OTHER (-1))) str interp witJO witJC witJA).result = .ok out ∧
      (solution (rootI .SUCCESS) str interp witJO witJC witJA).result = .ok out' ∧
      out.flag = out'.flag := by
  obtain ⟨out, h, hf, -⟩ := witJ_solution str interp (.OTHER (-1)) (by simp)
  obtain ⟨out', h', hf', -⟩ := witJ_solution str interp .SUCCESS (by simp)
  exact ⟨out, out', h, h', by rw [hf, hf']⟩

example := one_crossing_mode (rootI .SUCCESS) str interp witJO witJC witJA
  (witJ_solution str interp .SUCCESS (by simp)).choose_spec.1
example := flag_is_first_leg_partial (rootI .SUCCESS) str interp witJO witJC witJA
  (witJ_solution str interp .SUCCESS (by simp)).choose_spec.1
example := solution_aligned (rootI .SUCCESS) str interp witJO witJC witJA
  (rootI_aligned _) (witJ_solution str interp .SUCCESS (by simp)).choose_spec.1
example := jump_lands str witJP [0] [witJ] [0, 1, 3, 4] (1/10) none 0 witJ rfl rfl
  (by norm_num [witJ]) (by norm_num [witJ])
  (by rw [zero_mul, witJ_deriv witJP rfl rfl]; norm_num)
example := jump_direction_partial str witJP rfl [0] [witJ] [0, 1, 3, 4] (1/10) none 0
  witJ rfl rfl (by norm_num [witJ]) (by norm_num [witJ])
  (by rw [witJ_deriv witJP rfl rfl]; norm_num) (by norm_num) (by norm_num)
example := jump_keeps_behind str { witJP with θ_scale := 2 } (by norm_num) [0] [witJ]
  (1/10) none 0 witJ rfl rfl (by norm_num [witJ]) (by norm_num [witJ])
  (by rw [zero_mul, witJ_deriv _ rfl rfl]; norm_num)
  (by rw [zero_mul, witJ_deriv _ rfl rfl]; norm_num)

/-- Options in conflict: a jump together with an interpolation. -/
noncomputable def witConflict : SolveOpts :=
  { witJO with sonic_interp_size := some (1/10) }

theorem witConflict_conflict : Conflict witConflict witJA :=
  Or.inr (Or.inl ⟨by simp [witConflict], by simp [witConflict, witJO]⟩)

example := conflict_rejected I str interp witConflict witJC witJA witConflict_conflict
example := conflict_rejected_first_partial I str interp witConflict witJC witJA
  witConflict_conflict (Or.inl rfl)
example := conflict_rejected_late I str interp
  { witConflict with use_taylor_jump := false } witJC { witJA with with_taylor := true }
  (Or.inr (Or.inl ⟨by simp [witConflict], by simp [witConflict, witJO]⟩)) rfl rfl

/-- A default run with a Taylor start from `witM`. -/
noncomputable def witTC : Conditions :=
  { norm_kepler_sq := 24/5, a_0 := 1, init_con := witM, angles := [0, 1, 2],
    γ := 1/10 }

/-- The default options. -/
noncomputable def witTO : SolveOpts := { taylor_stop_angle := 1/1000 }

theorem witT_stop : radians (1/1000) < 1 := by
  unfold radians
  have := Real.pi_le_four
  linarith

theorem witT_solution :
    ∃ out, (solution (rootI .SUCCESS) str interp witTO witTC {}).result = .ok out := by
  have h1 : ¬ radians (1/1000) < 0 := by
    unfold radians
    have := Real.pi_pos
    linarith
  have h2 : radians (1/1000) < 2 := witT_stop.trans (by norm_num)
  have hn : taylor_new_angles witTC.angles
      (radians witTO.taylor_stop_angle / (1 : ℝ)) = [1, 2] := by
    simp only [taylor_new_angles, witTC, witTO, div_one, List.filter, decide_eq_false h1,
      decide_eq_true h2, decide_eq_true witT_stop]
  have hm : ∀ st, ∃ sd, (main_solution (rootI .SUCCESS) str (solveOdeArgs witTO witTC {})
      true (firstLeg witTO {} [1, 2] st)).result = .ok sd := by
    intro st
    simp [main_solution, main_plan, firstLeg, witTO, rootI]
  have hts := taylor_start_jump (rootI .SUCCESS) str witTO witTC {} rfl rfl
  rw [hn] at hts
  obtain ⟨sd, hsd⟩ := hm (taylor_values witTC.init_con witTC.γ witTC.a_0 witTO.η_derivs
          witTO.use_E_r (radians witTO.taylor_stop_angle / (1 : ℝ)))
  simp only [firstLeg] at hsd
  simp only [solution, hts, Logged.ok_bind, Logged.bind_of_ok hsd]
  exact ⟨_, rfl⟩

theorem witT_B_θ :
    (get_taylor_second_order witTC.init_con witTC.γ witTC.a_0 true false).B_θ ≠ 0 := by
  have h : (get_taylor_second_order witTC.init_con witTC.γ witTC.a_0 true false).B_θ =
    1 - (witTC.γ + 3/4) *
      (get_taylor_first_order witTC.init_con witTC.γ witTC.a_0).B_r := rfl
  rw [h]
  norm_num [get_taylor_first_order, deriv_B_r_midplane_func, B_φ_prime_boundary_func,
    witTC, witM]

example := taylor_requested_partial (rootI .SUCCESS) str interp witTO witTC {} rfl rfl
  (witT_solution str interp).choose_spec
example := taylor_recorded_late (rootI .SUCCESS) str interp witTO witTC {}
  (rootI_starts _) rfl rfl one_ne_zero (witT_solution str interp).choose_spec
example := taylor_start_mismatch (rootI .SUCCESS) str interp witTO witTC {}
  (rootI_starts _) rfl rfl rfl (by norm_num [witTO]) witT_B_θ
  (witT_solution str interp).choose_spec

/-- An integrator that reaches the stop angle when it is given one. -/
noncomputable def stopI : Integrator := fun r =>
  match r.tstop with
  | some x =>
    { ending := .reachedTstop,
      soln := { flag := .TSTOP_RETURN, t := [0, x], y := [r.init, r.init],
                tstop_t := [x], tstop_y := [r.init] } }
  | none => rootI .SUCCESS r

theorem witN_solution : ∃ out, (solution stopI str interp
    { witTO with use_taylor_jump := false } witTC {}).result = .ok out := by
  have h1 : ¬ radians (1/1000) < 0 := by
    unfold radians
    have := Real.pi_pos
    linarith
  have h2 : radians (1/1000) < 2 := witT_stop.trans (by norm_num)
  have hn : taylor_new_angles witTC.angles
      (rad_to_scaled (radians witTO.taylor_stop_angle) 1) = [1, 2] := by
    simp only [taylor_new_angles, witTC, witTO, rad_to_scaled, div_one, List.filter,
      decide_eq_false h1, decide_eq_true h2, decide_eq_true witT_stop]
  have hts : ∃ ts : TaylorSolution, (taylor_start stopI str
      { witTO with use_taylor_jump := false } witTC {}
      (solveOdeArgs { witTO with use_taylor_jump := false } witTC {})).result =
      .ok (some ts, [1, 2], witM) := by
    rw [← hn]
    exact ⟨_, rfl⟩
  obtain ⟨ts, hts⟩ := hts
  have hm : ∃ sd, (main_solution stopI str
      (solveOdeArgs { witTO with use_taylor_jump := false } witTC {})
      true (firstLeg { witTO with use_taylor_jump := false } {} [1, 2] witM)).result =
      .ok sd := by
    simp [main_solution, main_plan, firstLeg, witTO, stopI, rootI]
  obtain ⟨sd, hsd⟩ := hm
  simp only [firstLeg] at hsd
  simp only [solution, Logged.bind_of_ok hts, Logged.bind_of_ok hsd]
  exact ⟨_, rfl⟩

example := taylor_numeric_partial stopI str interp
  { witTO with use_taylor_jump := false } witTC {} rfl rfl
  (witN_solution str interp).choose_spec

/-- A profile that the system with angle scale two follows. -/
theorem witScale : ∃ g, g (1/10) = witS ∧ Follows { witP with θ_scale := 2 } g (1/10) :=
  ⟨line witS (rhsDerivs { witP with θ_scale := 2 } (1/10 * 2) witS) (1/10),
    line_at _ _ _,
    ⟨rhsDerivs { witP with θ_scale := 2 } (1/10 * 2) witS, by
      rw [line_at, wit_accepted], hasStDeriv_line _ _ _⟩⟩

example := scale_slope_partial { witP with θ_scale := 2 } two_ne_zero
  witScale.choose (1/10) witScale.choose_spec.2
example := scale_changes_solution { witP with θ_scale := 2 } two_ne_zero
  (by norm_num) witScale.choose (1/10) witScale.choose_spec.2 (by
    rw [witScale.choose_spec.1]
    have h1 : Real.tan (1/10 * 2) < 17/40 := by
      rw [Real.tan_eq_sin_div_cos, div_lt_iff₀]
      · have h2 := Real.sin_le (x := 1/10 * 2) (by norm_num)
        have h3 := Real.one_sub_sq_div_two_le_cos (x := 1/10 * 2)
        nlinarith
      · have h3 := Real.one_sub_sq_div_two_le_cos (x := 1/10 * 2)
        nlinarith
    intro h
    simp only [witS, witP] at h
    linarith)

end DiscSolver
