import Verif.Spec.HydroRun
import Verif.Props.ModHydro
import Verif.Props.Rhs

/-!
# C100: what a hydrostatic run reports
-/

namespace DiscSolver

open Spec

/-! ### The hydrostatic solver -/

namespace Hydro

variable (P : Args) (str : ℝ → String)

/-- The accepted calls, with the angle in radians and the derivatives returned. -/
noncomputable def acceptedRows (calls : List Call) : List (ℝ × St × St) :=
  calls.filterMap fun c =>
    (rhs_equation P c.x c.s).2.map fun d => (c.x * P.θ_scale, c.s, d)

/-- C100. A callback answers as `rhs_equation` does, whether or not internal data is
kept; a rejected call leaves the derivative array alone. -/
theorem hydro_call (d : Option InternalData) (x : ℝ) (s buf : St) :
    (rhs_call P str d x s buf).code = (rhs_equation P x s).1 ∧
    (rhs_call P str d x s buf).derivs = (rhs_equation P x s).2.getD buf := by
  simp only [rhs_call, rhs_equation]
  split
  · exact ⟨rfl, rfl⟩
  · split <;> exact ⟨rfl, rfl⟩

theorem hydro_nothing_stored (calls : List Call) :
    afterCalls P str none calls = none := by
  induction calls with
  | nil => rfl
  | cons c calls ih =>
    have : (rhs_call P str none c.x c.s c.buf).internal = none := by
      simp only [rhs_call]
      split
      · rfl
      · split <;> rfl
    simp only [afterCalls, List.foldl_cons, this] at *
    exact ih

theorem records_from (calls : List Call) (d : InternalData)
    (rows : List (ℝ × St × St)) (h : Records d rows) :
    ∃ d', afterCalls P str (some d) calls = some d' ∧
      Records d' (rows ++ acceptedRows P calls) := by
  induction calls generalizing d rows with
  | nil => exact ⟨d, rfl, by simpa [acceptedRows] using h⟩
  | cons c calls ih =>
    have hstep : afterCalls P str (some d) (c :: calls) =
      afterCalls P str (rhs_call P str (some d) c.x c.s c.buf).internal calls := rfl
    rw [hstep]
    by_cases h1 : c.s.ρ < 0
    · simp only [rhs_call, if_pos h1, Option.map_some]
      have hr : acceptedRows P (c :: calls) = acceptedRows P calls := by
        simp [acceptedRows, rhs_equation, h1]
      rw [hr]
      exact ih _ _ { h with }
    · by_cases h2 : discriminant P (scaled_to_rad c.x P.θ_scale) c.s < 0
      · simp only [rhs_call, if_neg h1, if_pos h2]
        have hr : acceptedRows P (c :: calls) = acceptedRows P calls := by
          simp [acceptedRows, rhs_equation, h1, h2]
        rw [hr]
        exact ih _ _ h
      · simp only [rhs_call, if_neg h1, if_neg h2, Option.map_some]
        have hr : rows ++ acceptedRows P (c :: calls) =
            rows ++ [(c.x * P.θ_scale, c.s,
              rhsDerivs P (scaled_to_rad c.x P.θ_scale) c.s)] ++
              acceptedRows P calls := by
          simp [acceptedRows, rhs_equation, h1, h2]
        rw [hr]
        refine ih _ _ ⟨?_, ?_, ?_, h.jacobians, h.normals, h.taylors⟩
        · simp [h.angles, scaled_to_rad]
        · simp [h.params]
        · simp [h.derivs]

theorem records_nil : Records {} [] :=
  ⟨rfl, rfl, rfl, ⟨rfl, rfl, rfl, rfl⟩, ⟨rfl, rfl, rfl⟩, ⟨rfl, rfl, rfl⟩⟩

/-- C100. After any history of calls the internal data of the hydrostatic solver
holds one aligned entry for each accepted call. -/
theorem hydro_records (calls : List Call) :
    ∃ d, afterCalls P str (some {}) calls = some d ∧
      Records d (acceptedRows P calls) :=
  records_from P str calls {} [] records_nil

/-- C100 (what the code does with rejections): a call with negative density is
recorded under its angle, a call rejected because the two balances have no common
solution is not recorded at all. -/
theorem hydro_problems_partial (calls : List Call) (d : InternalData)
    (k : ProblemKey ℝ) :
    ∃ d', afterCalls P str (some d) calls = some d' ∧
      messages str d'.problems k = messages str d.problems k ++
        (open Classical in
          (calls.filter fun c => str (c.x * P.θ_scale) = k.str str ∧ c.s.ρ < 0).map
            fun _ => "negative density") := by
  have hnum : ∀ θ, (ProblemKey.num θ).str str = str θ := fun _ => rfl
  induction calls generalizing d with
  | nil => exact ⟨d, rfl, by simp⟩
  | cons c calls ih =>
    have hstep : afterCalls P str (some d) (c :: calls) =
      afterCalls P str (rhs_call P str (some d) c.x c.s c.buf).internal calls := rfl
    rw [hstep]
    by_cases h1 : c.s.ρ < 0
    · simp only [rhs_call, if_pos h1, Option.map_some]
      obtain ⟨d', e, e'⟩ := ih
        { d with
            problems := d.problems.append str
              (.num (scaled_to_rad c.x P.θ_scale)) "negative density" }
      refine ⟨d', e, ?_⟩
      rw [e', problems_append, hnum]
      by_cases hk : str (c.x * P.θ_scale) = k.str str
      · have : str (scaled_to_rad c.x P.θ_scale) = k.str str := hk
        simp [hk, h1, this]
      · have : ¬ str (scaled_to_rad c.x P.θ_scale) = k.str str := hk
        simp [hk, this]
    · by_cases h2 : discriminant P (scaled_to_rad c.x P.θ_scale) c.s < 0
      · simp only [rhs_call, if_neg h1, if_pos h2]
        obtain ⟨d', e, e'⟩ := ih d
        exact ⟨d', e, by rw [e']; simp [h1]⟩
      · simp only [rhs_call, if_neg h1, if_neg h2, Option.map_some]
        obtain ⟨d', e, e'⟩ := ih
          { d with
              params := d.params ++ [c.s]
              derivs := d.derivs ++ [rhsDerivs P (scaled_to_rad c.x P.θ_scale) c.s]
              angles := d.angles ++ [scaled_to_rad c.x P.θ_scale] }
        exact ⟨d', e, by rw [e']; simp [h1]⟩

/-- The root function comes with its size, if there is one. -/
def Sized (h : HydroArgs) : Prop := h.root_func.isSome → h.root_func_args.isSome

/-- The integration stopped because the interval was too small. -/
def TooClose (out : Integration) : Prop :=
  out.ending = .failed ∧ out.soln.flag = .TOO_CLOSE

theorem plan_sized {A : Type} (args : A) (h : HydroArgs) (angles : List ℝ)
    (init : St) (hs : Sized h) :
    ∃ req, hydro_plan args h angles init = .ok req ∧
      Asks req args h angles init := by
  unfold hydro_plan
  cases hf : h.root_func with
  | none => exact ⟨_, rfl, rfl, rfl, rfl, hf.symm, by simp [hf], rfl, rfl, rfl, rfl⟩
  | some f =>
    cases hn : h.root_func_args with
    | none => exact absurd (hs (by simp [hf])) (by simp [hn])
    | some n =>
      exact ⟨_, rfl, rfl, rfl, rfl, hf.symm, by simp [hf, hn], rfl, rfl, rfl, rfl⟩

theorem plan_unsized {A : Type} (args : A) (h : HydroArgs) (angles : List ℝ)
    (init : St) (hs : ¬ Sized h) :
    hydro_plan args h angles init = .error .SolverError := by
  unfold hydro_plan
  cases hf : h.root_func with
  | none => exact absurd (fun h' => by simp [hf] at h') hs
  | some f =>
    cases hn : h.root_func_args with
    | none => rfl
    | some n => exact absurd (fun _ => by simp [hn]) hs

theorem result_cases (out : Integration) :
    (TooClose out ∧ hydro_result out = .error .CVODESolveFailed) ∨
    (¬ TooClose out ∧ hydro_result out = .ok out.soln) := by
  unfold hydro_result
  by_cases h : TooClose out
  · exact .inl ⟨h, if_pos h⟩
  · exact .inr ⟨h, if_neg h⟩

variable (I : HydroRequest Args → Integration) (double η_derivs no_v_deriv : Bool)
  (c : Conditions) (h : HydroArgs)

/-- C100. With the electric field formulation, or with a root function without its
size, nothing is integrated and `SolverError` is raised. -/
theorem hydro_refused (use_E_r : Bool) (hr : use_E_r = true ∨ ¬ Sized h) :
    (solution I str double η_derivs use_E_r no_v_deriv c h).1 =
      ⟨[], .error .SolverError⟩ := by
  cases hE : use_E_r with
  | true => rfl
  | false =>
    have hs : ¬ Sized h := hr.resolve_left (by simp [hE])
    simp only [solution, hydrostatic_solution, plan_unsized _ h _ _ hs]
    rfl

/-- C100. Otherwise exactly one integration is asked for, over the angles of the
initial conditions and from their initial state, and its result is reported,
whether the integrator finished, failed, found a root or reached the stop angle;
only a failure because the interval is too small is raised.  The initial
conditions `c'` are the caller's object afterwards. -/
theorem hydro_run (hs : Sized h) :
    let r := solution I str double η_derivs false no_v_deriv c h
    ∃ req c', r.2 = c' ∧ r.1.log = [req] ∧
      c'.a_0 = c.a_0 ∧ c'.norm_kepler_sq = c.norm_kepler_sq ∧ c'.angles = c.angles ∧
      Asks req
        { a_0 := c.a_0, norm_kepler_sq := c.norm_kepler_sq, init_con := c'.init_con,
          θ_scale := h.θ_scale, η_derivs := η_derivs,
          no_v_deriv := no_v_deriv && double } h c.angles c'.init_con ∧
      (TooClose (I req) → r.1.result = .error .CVODESolveFailed) ∧
      (¬ TooClose (I req) → ∃ sol, r.1.result = .ok sol ∧
        Reports sol h.θ_scale (I req).soln (I req).soln.y c' ∧
        (h.store_internal = false → sol.out.internal_data = none) ∧
        (h.store_internal = true → ∃ d, sol.out.internal_data = some d ∧
          Records d (acceptedRows req.args (I req).calls))) := by
  intro r
  have ha : ∀ (b n : Bool), (fixedConditions b n c).a_0 = c.a_0 ∧
      (fixedConditions b n c).norm_kepler_sq = c.norm_kepler_sq ∧
      (fixedConditions b n c).angles = c.angles := by
    intro b n
    unfold fixedConditions
    split <;> exact ⟨rfl, rfl, rfl⟩
  obtain ⟨h1, h2, h3⟩ := ha double no_v_deriv
  generalize hc : fixedConditions double no_v_deriv c = c' at *
  obtain ⟨req, hp, hq⟩ := plan_sized (A := Args)
    { a_0 := c.a_0, norm_kepler_sq := c.norm_kepler_sq, init_con := c'.init_con,
      θ_scale := h.θ_scale, η_derivs := η_derivs,
      no_v_deriv := no_v_deriv && double } h c.angles c'.init_con hs
  have hr : r = (⟨[req], ((hydro_result (I req)).map fun soln => (soln,
        afterCalls req.args str (if h.store_internal then some {} else none)
          (I req).calls)).map
          fun p => hydroSolutionOf h.θ_scale c' p.1 p.2⟩, c') := by
    simp only [r, solution, hc, hydrostatic_solution, h1, h2, h3, hp, hq.args]
    rfl
  refine ⟨req, c', by rw [hr], by rw [hr], h1, h2, h3, hq, ?_, ?_⟩
  · intro ht
    rcases result_cases (I req) with ⟨-, e⟩ | ⟨e, -⟩
    · rw [hr, e]; rfl
    · exact absurd ht e
  · intro ht
    rcases result_cases (I req) with ⟨e, -⟩ | ⟨-, e⟩
    · exact absurd e ht
    · refine ⟨_, by rw [hr, e]; rfl, ⟨rfl, rfl, rfl, rfl, rfl, rfl, rfl⟩, ?_, ?_⟩
      · intro hst
        simp only [hydroSolutionOf, hst, Bool.false_eq_true, if_false]
        exact hydro_nothing_stored _ _ _
      · intro hst
        obtain ⟨d, e1, e2⟩ := hydro_records req.args str (I req).calls
        exact ⟨d, by simpa only [hydroSolutionOf, hst, if_true] using e1, e2⟩

/-- C100. The caller's initial conditions are left as they were unless fixed
velocities were asked for and the float type allows it. -/
theorem hydro_conditions_kept (use_E_r : Bool)
    (hk : no_v_deriv = false ∨ double = false ∨ use_E_r = true) :
    (solution I str double η_derivs use_E_r no_v_deriv c h).2 = c := by
  cases use_E_r
  · have : ¬ (no_v_deriv = true ∧ double = true) := by
      rcases hk with h | h | h <;> simp_all
    simp only [solution, fixedConditions, if_neg this, Bool.false_eq_true, if_false]
  · rfl

/-- C100. With fixed velocities the velocities of the caller's initial conditions
are overwritten with zeros, and nothing else is. -/
theorem hydro_conditions_overwritten :
    (solution I str true η_derivs false true c h).2 =
      { c with init_con := { c.init_con with v_r := 0, v_φ := 0, v_θ := 0 } } := rfl

/-- C100. With fixed velocities every derivative handed to the integrator, and so
every one recorded, has zero velocity entries. -/
theorem hydro_fixed_rows (hn : P.no_v_deriv = true) (calls : List Call)
    (row : ℝ × St × St) (hr : row ∈ acceptedRows P calls) :
    row.2.2.v_r = 0 ∧ row.2.2.v_φ = 0 ∧ row.2.2.v_θ = 0 := by
  simp only [acceptedRows, List.mem_filterMap, Option.map_eq_some_iff] at hr
  obtain ⟨c, -, d, hd, rfl⟩ := hr
  exact hydro_frozen_velocities P c.x c.s d _ (Prod.ext rfl hd) hn

/-- C100. The solver itself: for an input with valid initial conditions and without
the electric field, one integration over the angles of the input is reported
unscaled, stored under "0" and as the final solution, with the initial conditions
of the input; when the interval is too small the run is left alone. -/
theorem hydro_solver_run {μ : Type} (store : Bool) (inp : NumInput)
    (run : Run μ HydroSolution) (hc : hydrostatic_define_conditions inp = some c)
    (hE : inp.use_E_r = false) (hs : run.solutions = []) (hf : run.final = .delayed) :
    ∃ req, Asks req
        { a_0 := c.a_0, norm_kepler_sq := c.norm_kepler_sq, init_con := c.init_con,
          η_derivs := η_derivs, no_v_deriv := false }
        { store_internal := store } c.angles c.init_con ∧
      (TooClose (I req) → runSolver I str double η_derivs store inp run =
        (run, .error .CVODESolveFailed)) ∧
      (¬ TooClose (I req) → ∃ sol r,
        runSolver I str double η_derivs store inp run = (r, .ok true) ∧
        r.solutions = [("0", sol)] ∧ r.finalSolution = .soln sol ∧
        r.info = run.info ∧ Reports sol 1 (I req).soln (I req).soln.y c ∧
        sol.out.angles = (I req).soln.t ∧
        (sol.out.internal_data.isSome ↔ store = true)) := by
  obtain ⟨req, c', h1, -, -, -, -, hq, ht, hn⟩ := hydro_run str I double η_derivs
    false c { store_internal := store } (fun h => by cases h)
  rw [hydro_conditions_kept str I double η_derivs false c _ false (.inl rfl)] at h1
  subst h1
  refine ⟨req, hq, ?_, ?_⟩
  · intro h
    simp only [runSolver, solver, hc, hE, ht h, Bool.false_eq_true, if_false]
  · intro h
    obtain ⟨sol, e, hr, hi, hi'⟩ := hn h
    obtain ⟨r, e1, e2, e3, e4⟩ := (hydro_solver (fun c => (solution I str double η_derivs
      inp.use_E_r false c { store_internal := store }).1.result) inp run).2.2 c sol hc hE
      (by simp only [hE]; exact e) hs hf
    refine ⟨sol, r, e1, e2, e3, e4, hr, ?_, ?_⟩
    · rw [hr.angles]; simp
    · cases store
      · simp [hi rfl]
      · obtain ⟨d, hd, -⟩ := hi' rfl
        simp [hd]

/-- C100. What the angle scale does: the stop angle is put on the integrator's
scale and the reported angles are taken off it, but the angles of the initial
conditions are handed over as they are.  So an integrator that answers where it
was asked reports angles `θ_scale` times those wanted. -/
theorem hydro_scale (hs : Sized h) (hI : ∀ req, (I req).soln.t = req.angles)
    (hok : ∀ req, ¬ TooClose (I req)) :
    ∃ sol, (solution I str double η_derivs false no_v_deriv c h).1.result = .ok sol ∧
      sol.out.angles = c.angles.map (· * h.θ_scale) := by
  obtain ⟨req, c', -, -, -, -, -, hq, -, hn⟩ :=
    hydro_run str I double η_derivs no_v_deriv c h hs
  obtain ⟨sol, e, hr, -⟩ := hn (hok req)
  exact ⟨sol, e, by rw [hr.angles, hI, hq.angles]⟩

/-! ### Concrete cases -/

/-- An integrator that makes one callback and returns the initial state at every
angle. -/
noncomputable def witI {A : Type} : HydroRequest A → Integration := fun req =>
  { ending := .finished, calls := [⟨0, req.init, St.zero⟩],
    soln := { flag := .SUCCESS, t := req.angles, y := req.angles.map fun _ => req.init } }

/-- An integrator that always fails because the interval is too small. -/
noncomputable def witClose {A : Type} : HydroRequest A → Integration := fun req =>
  { ending := .failed, soln := { flag := .TOO_CLOSE, t := req.angles, y := [] } }

/-- Initial conditions with moving gas. -/
noncomputable def witC : Conditions :=
  { norm_kepler_sq := 33/4, a_0 := 1, init_con := witH, angles := [0, 1], γ := 0 }

theorem witI_ok {A : Type} (req : HydroRequest A) : ¬ TooClose (witI req) := by
  simp [TooClose, witI]

example (str : ℝ → String) := hydro_scale str witI true true false witC { θ_scale := 2 }
  (fun h => by cases h) (fun _ => rfl) witI_ok

/-- C100 (false of the code): the reported angles depend on the angle scale. -/
theorem hydro_scale_matters : ∃ (I : HydroRequest Args → Integration) (c : Conditions)
    (sol sol' : HydroSolution),
    (∀ req, (I req).soln.t = req.angles) ∧
    (solution I str true true false false c {}).1.result = .ok sol ∧
    (solution I str true true false false c { θ_scale := 2 }).1.result = .ok sol' ∧
    sol.out.angles = [0, 1] ∧ sol'.out.angles = [0, 2] := by
  obtain ⟨s, e, f⟩ := hydro_scale str witI true true false witC {} (fun h => by cases h)
    (fun _ => rfl) witI_ok
  obtain ⟨s', e', f'⟩ := hydro_scale str witI true true false witC { θ_scale := 2 }
    (fun h => by cases h) (fun _ => rfl) witI_ok
  exact ⟨witI, witC, s, s', fun _ => rfl, e, e', by rw [f]; simp [witC],
    by rw [f']; simp [witC]⟩

/-- C100 (false of the code): asking for fixed velocities changes the initial
conditions of the caller. -/
theorem hydro_conditions_not_kept : ∃ (I : HydroRequest Args → Integration)
    (c : Conditions), (solution I str true true false true c {}).2 ≠ c := by
  refine ⟨witI, witC, fun h => ?_⟩
  have : (0:ℝ) = -1 := congrArg (fun c => c.init_con.v_r) h
  norm_num at this

/-- C100 (false of the code): a rejected call may leave no record. -/
theorem hydro_rejection_unrecorded : ∃ (P : Args) (c : Call),
    (rhs_equation P c.x c.s).1 ≠ 0 ∧
    afterCalls P str (some {}) [c] = some {} := by
  have hd : discriminant { witHP with norm_kepler_sq := 1/4 } (0 * 1) witH = -16 := by
    norm_num [discriminant, witHP, witH, c_func, b_func, X_func]
  have hd' : discriminant { witHP with norm_kepler_sq := 1/4 } (0 * witHP.θ_scale)
      witH = -16 := hd
  have hρ : ¬ witH.ρ < 0 := by norm_num [witH]
  refine ⟨{ witHP with norm_kepler_sq := 1/4 }, ⟨0, witH, St.zero⟩, ?_, ?_⟩
  · simp only [rhs_equation, scaled_to_rad, hd', if_neg hρ]
    norm_num
  · simp only [afterCalls, List.foldl_cons, List.foldl_nil, rhs_call, scaled_to_rad, hd',
      if_neg hρ]
    norm_num

example := hydro_refused str witI true true false witC { root_func := some (velocity_stop 1) }
  false (.inr fun h => by simp [Sized] at h)
example := hydro_run str witI true true true witC
  { root_func := some (velocity_stop 1), root_func_args := some 1, tstop := some 1,
    θ_scale := 2 } (fun _ => rfl)
example := hydro_conditions_kept str witI true true false witC {} false (.inl rfl)
example : ∃ row, row ∈ acceptedRows witHP [⟨0, witH, St.zero⟩, ⟨0, { witH with ρ := -1 }, St.zero⟩] ∧
    row.2.1 = witH :=
  ⟨_, by simp [acceptedRows, witH_accepted]; exact .inl rfl, rfl⟩
example := hydro_fixed_rows { witHP with no_v_deriv := true } rfl
example := hydro_solver_run str witI true true witIn_ok.choose true witIn
  ({ info := (), solutions := [] } : Run Unit HydroSolution) witIn_ok.choose_spec rfl rfl rfl

end Hydro

/-! ### The modified hydrostatic solver -/

namespace ModHydro

open Hydro (Sized TooClose Static plan_sized plan_unsized result_cases)

variable (S : SystemArgs) (T : Tracker) (str : ℝ → String)

/-- The accepted calls when the tracker starts with the memory `m`: angle in
radians, parameter array and derivatives as the call leaves them.  The tracker
remembers the accepted calls of the electric field formulation only. -/
noncomputable def acceptedRows : T.Memory → List Call → List (ℝ × St × St)
  | _, [] => []
  | m, c :: calls =>
    match (rhs_equation (S.withTracker T m) c.x c.s).2.2 with
    | none => acceptedRows m calls
    | some d =>
      (c.x * S.θ_scale, (rhs_equation (S.withTracker T m) c.x c.s).2.1, d) ::
        acceptedRows (if S.use_E_r then
          (T.solve m (coeffsAt (S.withTracker T m) (c.x * S.θ_scale) c.s)).2 else m) calls

theorem remember_eq (m : T.Memory) (θ : ℝ) (s : St) :
    remember S T m θ s = (T.solve m (coeffsAt (S.withTracker T m) θ s)).2 := rfl

/-- C100. A callback answers as `rhs_equation` does for the tracker's present
memory, whether or not internal data is kept. -/
theorem mod_call (m : T.Memory) (d : Option InternalData) (x : ℝ) (s buf : St) :
    (rhs_call S T str m d x s buf).code =
      (rhs_equation (S.withTracker T m) x s).1 ∧
    (rhs_call S T str m d x s buf).params =
      (rhs_equation (S.withTracker T m) x s).2.1 ∧
    (rhs_call S T str m d x s buf).derivs =
      (rhs_equation (S.withTracker T m) x s).2.2.getD buf := by
  have hE : (S.withTracker T m).use_E_r = S.use_E_r := rfl
  simp only [rhs_call, rhs_equation, hE]
  split
  · exact ⟨rfl, rfl, rfl⟩
  · cases S.use_E_r <;> exact ⟨rfl, rfl, rfl⟩

theorem mod_step (m : T.Memory) (d : Option InternalData) (c : Call) :
    (c.s.ρ < 0 ∧ (rhs_equation (S.withTracker T m) c.x c.s).2.2 = none ∧
      (rhs_call S T str m d c.x c.s c.buf).memory = m ∧
      (rhs_call S T str m d c.x c.s c.buf).internal = d.map fun d =>
        { d with
            problems := d.problems.append str (.num (scaled_to_rad c.x S.θ_scale))
              "negative density" }) ∨
    (¬ c.s.ρ < 0 ∧ ∃ v, (rhs_equation (S.withTracker T m) c.x c.s).2.2 = some v ∧
      (rhs_call S T str m d c.x c.s c.buf).memory = (if S.use_E_r then
          (T.solve m (coeffsAt (S.withTracker T m) (c.x * S.θ_scale) c.s)).2 else m) ∧
      (rhs_call S T str m d c.x c.s c.buf).internal = d.map fun d =>
        { d with
            params := d.params ++ [(rhs_equation (S.withTracker T m) c.x c.s).2.1]
            derivs := d.derivs ++ [v]
            angles := d.angles ++ [scaled_to_rad c.x S.θ_scale] }) := by
  have hE : (S.withTracker T m).use_E_r = S.use_E_r := rfl
  by_cases h1 : c.s.ρ < 0
  · left
    refine ⟨h1, ?_, ?_, ?_⟩
    · simp only [rhs_equation, if_pos h1]
    · simp only [rhs_call, if_pos h1]
    · simp only [rhs_call, if_pos h1]
  · right
    refine ⟨h1, ?_⟩
    simp only [rhs_equation, rhs_call, if_neg h1, hE]
    cases S.use_E_r
    · exact ⟨_, rfl, rfl, rfl⟩
    · exact ⟨_, rfl, rfl, rfl⟩

theorem mod_nothing_stored (m : T.Memory) (calls : List Call) :
    (afterCalls S T str m none calls).2 = none := by
  induction calls generalizing m with
  | nil => rfl
  | cons c calls ih =>
    have : (rhs_call S T str m none c.x c.s c.buf).internal = none := by
      simp only [rhs_call]
      split <;> rfl
    simp only [afterCalls, this]
    exact ih _

theorem mod_records_from (m : T.Memory) (calls : List Call) (d : InternalData)
    (rows : List (ℝ × St × St)) (h : Records d rows) :
    ∃ d', (afterCalls S T str m (some d) calls).2 = some d' ∧
      Records d' (rows ++ acceptedRows S T m calls) := by
  induction calls generalizing m d rows with
  | nil => exact ⟨d, rfl, by simpa [acceptedRows] using h⟩
  | cons c calls ih =>
    simp only [afterCalls]
    rcases mod_step S T str m (some d) c with ⟨-, h2, h3, h4⟩ | ⟨-, v, h2, h3, h4⟩
    · rw [h3, h4]
      simp only [acceptedRows, h2]
      exact ih _ _ _ { h with }
    · rw [h3, h4]
      simp only [acceptedRows, h2]
      rw [List.append_cons]
      refine ih _ _ _ ⟨?_, ?_, ?_, h.jacobians, h.normals, h.taylors⟩
      · simp [h.angles, scaled_to_rad]
      · simp [h.params]
      · simp [h.derivs]

/-- C100. After any history of calls the internal data of the modified hydrostatic
solver holds one aligned entry for each accepted call. -/
theorem mod_records (m : T.Memory) (calls : List Call) :
    ∃ d, (afterCalls S T str m (some {}) calls).2 = some d ∧
      Records d (acceptedRows S T m calls) :=
  mod_records_from S T str m calls {} [] Hydro.records_nil

/-- C100. The accepted calls are those whose density is not negative. -/
theorem mod_accepted_length (m : T.Memory) (calls : List Call) :
    (acceptedRows S T m calls).map (·.1) =
      (open Classical in (calls.filter fun c => 0 ≤ c.s.ρ).map
        fun c => c.x * S.θ_scale) := by
  induction calls generalizing m with
  | nil => rfl
  | cons c calls ih =>
    rcases mod_step S T (fun _ => "") m none c with ⟨h1, h2, -⟩ | ⟨h1, v, h2, -⟩
    · simp only [acceptedRows, h2]
      rw [ih, List.filter_cons_of_neg (by simpa using h1)]
    · simp only [acceptedRows, h2]
      rw [List.filter_cons_of_pos (by simpa using h1), List.map_cons, List.map_cons, ih]

/-- C100. Every rejected call is recorded under its angle. -/
theorem mod_problems (m : T.Memory) (calls : List Call) (d : InternalData)
    (k : ProblemKey ℝ) :
    ∃ d', (afterCalls S T str m (some d) calls).2 = some d' ∧
      messages str d'.problems k = messages str d.problems k ++
        (open Classical in
          (calls.filter fun c => str (c.x * S.θ_scale) = k.str str ∧ c.s.ρ < 0).map
            fun _ => "negative density") := by
  have hnum : ∀ θ, (ProblemKey.num θ).str str = str θ := fun _ => rfl
  induction calls generalizing m d with
  | nil => exact ⟨d, rfl, by simp⟩
  | cons c calls ih =>
    simp only [afterCalls]
    rcases mod_step S T str m (some d) c with ⟨h1, -, h3, h4⟩ | ⟨h1, v, -, h3, h4⟩
    · rw [h3, h4]
      obtain ⟨d', e, e'⟩ := ih m
        { d with
            problems := d.problems.append str
              (.num (scaled_to_rad c.x S.θ_scale)) "negative density" }
      refine ⟨d', e, ?_⟩
      rw [e', problems_append, hnum]
      by_cases hk : str (c.x * S.θ_scale) = k.str str
      · have : str (scaled_to_rad c.x S.θ_scale) = k.str str := hk
        simp [hk, h1, this]
      · have : ¬ str (scaled_to_rad c.x S.θ_scale) = k.str str := hk
        simp [hk, this]
    · rw [h3, h4]
      obtain ⟨d', e, e'⟩ := ih _
        { d with
            params := d.params ++ [(rhs_equation (S.withTracker T m) c.x c.s).2.1]
            derivs := d.derivs ++ [v]
            angles := d.angles ++ [scaled_to_rad c.x S.θ_scale] }
      exact ⟨d', e, by rw [e']; simp [h1]⟩

/-! ### The stored rows -/

theorem fixRows_length (m : T.Memory) (xs : List ℝ) (rows : List St) :
    (fixRows S T m xs rows).length = rows.length := by
  induction rows generalizing m xs with
  | nil => cases xs <;> rfl
  | cons s rows ih =>
    cases xs with
    | nil => rfl
    | cons x xs => simp [fixRows, ih]

theorem fixRows_row (m : T.Memory) (xs : List ℝ) (rows : List St) (i : ℕ) (x : ℝ)
    (s : St) (hx : xs[i]? = some x) (hs : rows[i]? = some s) :
    ∃ m', (fixRows S T m xs rows)[i]? =
      some (withVelocities (S.withTracker T m') (x * S.θ_scale) s) := by
  induction i generalizing m xs rows with
  | zero =>
    cases xs with
    | nil => cases hx
    | cons x' xs =>
      cases rows with
      | nil => cases hs
      | cons s' rows =>
        injection hx with hx; injection hs with hs
        subst hx; subst hs
        exact ⟨m, rfl⟩
  | succ i ih =>
    cases xs with
    | nil => cases hx
    | cons x' xs =>
      cases rows with
      | nil => cases hs
      | cons s' rows => exact ih _ xs rows hx hs

/-- C100. The rows stored in the electric field formulation are the parameter arrays
the solver's own callback would leave behind if it were called, with a tracker just
started, at the integrator's angles and rows one after the other. -/
theorem mod_rows_as_calls (hE : S.use_E_r = true) (m : T.Memory) (ts : List ℝ)
    (rows : List St) (hl : ts.length = rows.length) (hρ : ∀ s ∈ rows, 0 ≤ s.ρ) :
    fixRows S T m ts rows =
      (acceptedRows S T m (List.zipWith (fun x s => ⟨x, s, St.zero⟩) ts rows)).map
        (·.2.1) := by
  induction rows generalizing m ts with
  | nil => cases ts <;> rfl
  | cons s rows ih =>
    cases ts with
    | nil => cases hl
    | cons x ts =>
      have hs : ¬ s.ρ < 0 := not_lt.2 (hρ s (by simp))
      have hEP : (S.withTracker T m).use_E_r = true := hE
      simp only [fixRows, List.zipWith_cons_cons, acceptedRows, rhs_equation, if_neg hs,
        hEP, hE, if_true, List.map_cons]
      congr 1
      exact ih _ ts (by simpa using hl) (fun s' h' => hρ s' (by simp [h']))

/-- The tracker answers with a root whenever there is one. -/
def Faithful (T : Tracker) : Prop :=
  ∀ m p, (∃ r, IsRoot p r) → IsRoot p (T.solve m p).1

theorem monic_root (b c d : ℝ) : ∃ r : ℝ, r ^ 3 + b * r ^ 2 + c * r + d = 0 := by
  have hM : 1 ≤ 1 + |b| + |c| + |d| := by
    have := abs_nonneg b; have := abs_nonneg c; have := abs_nonneg d; linarith
  generalize hMe : 1 + |b| + |c| + |d| = M at hM
  have hbd : ∀ u : ℝ, u = M ∨ u = -M →
      |b * u ^ 2 + c * u + d| ≤ (|b| + |c| + |d|) * M ^ 2 := by
    intro u hu
    have h2 : u ^ 2 = M ^ 2 := by rcases hu with rfl | rfl <;> ring
    have h1 : |u| = M := by
      rcases hu with rfl | rfl
      · exact abs_of_nonneg (by linarith)
      · rw [abs_neg]; exact abs_of_nonneg (by linarith)
    have hsq : M ≤ M ^ 2 := by nlinarith
    have h1M : 1 ≤ M ^ 2 := by nlinarith
    calc |b * u ^ 2 + c * u + d| ≤ |b * u ^ 2| + |c * u| + |d| := abs_add_three _ _ _
      _ = |b| * M ^ 2 + |c| * M + |d| := by
        rw [h2, abs_mul, abs_mul, h1, abs_of_nonneg (by positivity : (0:ℝ) ≤ M ^ 2)]
      _ ≤ _ := by
        nlinarith [abs_nonneg b, mul_le_mul_of_nonneg_left hsq (abs_nonneg c),
          mul_le_mul_of_nonneg_left h1M (abs_nonneg d)]
  have hs : |b| + |c| + |d| = M - 1 := by linarith
  have h1M : 1 ≤ M ^ 2 := by nlinarith
  have e1 := abs_le.1 (hbd M (.inl rfl))
  have e2 := abs_le.1 (hbd (-M) (.inr rfl))
  rw [hs] at e1 e2
  have hc : ContinuousOn (fun r : ℝ => r ^ 3 + b * r ^ 2 + c * r + d)
      (Set.Icc (-M) M) := by
    fun_prop
  have hiv := intermediate_value_Icc (by linarith : -M ≤ M) hc
  have h0 : (0:ℝ) ∈ Set.Icc ((-M) ^ 3 + b * (-M) ^ 2 + c * (-M) + d)
      (M ^ 3 + b * M ^ 2 + c * M + d) := by
    constructor <;> nlinarith [e1.1, e1.2, e2.1, e2.2]
  obtain ⟨r, -, hr⟩ := hiv h0
  exact ⟨r, hr⟩

/-- A cubic has a root. -/
theorem cubic_root (p : ℝ × ℝ × ℝ × ℝ) (h : p.1 ≠ 0) : ∃ r, IsRoot p r := by
  obtain ⟨a, b, c, d⟩ := p
  simp only [IsRoot] at *
  obtain ⟨r, hr⟩ := monic_root (b / a) (c / a) (d / a)
  refine ⟨r, ?_⟩
  field_simp at hr
  linarith

/-- C100. In the electric field formulation, a faithful tracker and a disc with
positive density, field and rotation make every row that is stored, at its own
angle, one for which the solver's right-hand side returns derivatives in exact
azimuthal balance and in radial balance linearised about Keplerian rotation.  Apart
from the two horizontal velocities the row is the integrator's. -/
theorem mod_row_balanced (hT : Faithful T) (hE : S.use_E_r = true) (m : T.Memory)
    (ts : List ℝ) (rows : List St) (i : ℕ) (x : ℝ) (s : St) (hx : ts[i]? = some x)
    (hs : rows[i]? = some s) (hst : Static s) (hρ : 0 < s.ρ) (ha : 0 < S.a_0)
    (hK : 0 < S.norm_kepler_sq) (hZ : Z_5At s ≠ 0) :
    ∃ s' d, (fixRows S T m ts rows)[i]? = some s' ∧ SameButVelocities s s' ∧
      (∃ m', rhs_equation (S.withTracker T m') x s = (0, s', some d)) ∧
      (s.B_θ ^ 2 / Z_5At s + s'.v_r * s.ρ / (2 * S.a_0) ≠ 0 →
        AzimuthalMomentum (5/4) S.a_0 (flowOf (x * S.θ_scale) s' d) ∧
        keplerRes S.a_0 S.norm_kepler_sq (flowOf (x * S.θ_scale) s' d) = 0) := by
  obtain ⟨m', hm⟩ := fixRows_row S T m ts rows i x s hx hs
  have hEP : ∀ m'', (S.withTracker T m'').use_E_r = true := fun _ => hE
  have hcall : ∀ m'', rhs_equation (S.withTracker T m'') x s =
      (0, withVelocities (S.withTracker T m'') (x * S.θ_scale) s,
        some (derivsE (S.withTracker T m'') (x * S.θ_scale)
          (withVelocities (S.withTracker T m'') (x * S.θ_scale) s))) := by
    intro m''
    simp only [rhs_equation, if_neg (not_lt.2 hρ.le), hEP m'', if_true]
    rfl
  have hv : ∀ m'', (withVelocities (S.withTracker T m'') (x * S.θ_scale) s).v_r =
      (T.solve m'' (coeffsAt (S.withTracker T m'') (x * S.θ_scale) s)).1 :=
    fun _ => rfl
  have hw := E_r_values (hcall m') (hEP m')
  refine ⟨_, _, hm, hw.1, ⟨m', hcall m'⟩, ?_⟩
  · intro hden
    have hroot : IsRoot (coeffsAt (S.withTracker T m') (x * S.θ_scale) s)
        (withVelocities (S.withTracker T m') (x * S.θ_scale) s).v_r := by
      rw [hv m']
      refine hT _ _ (cubic_root _ ?_)
      have : 0 < Real.sqrt S.norm_kepler_sq := Real.sqrt_pos.2 hK
      have e : (coeffsAt (S.withTracker T m') (x * S.θ_scale) s).1 =
        s.ρ / (8 * Real.sqrt S.norm_kepler_sq * S.a_0) := rfl
      rw [e]
      positivity
    have h1 := mod_hydro_E_r_azimuthal (S.withTracker T m') x s _ _ 0 (hcall m') (hEP m')
      hst ha.ne' hZ hden
    have h2 := mod_hydro_E_r_radial (S.withTracker T m') x s _ _ 0 (hcall m') (hEP m')
      hst ha.ne' hZ hK hroot hden
    exact ⟨h1, h2.1⟩

/-! ### The run -/

variable (I : HydroRequest SystemArgs → Integration) (η_derivs : Bool)
  (c : Conditions) (h : HydroArgs)

/-- C100. A root function without its size: nothing is integrated and `SolverError`
is raised. -/
theorem mod_refused (use_E_r : Bool) (hs : ¬ Sized h) :
    solution I str T η_derivs use_E_r c h = ⟨[], .error .SolverError⟩ := by
  simp only [solution, mod_hydro_solution, plan_unsized _ h _ _ hs]
  rfl

/-- C100. Otherwise exactly one integration is asked for, over the angles of the
initial conditions and from their initial state, and its result is reported,
whether the integrator finished, failed, found a root or reached the stop angle;
only a failure because the interval is too small is raised.  The rows are the
integrator's, except that in the electric field formulation their horizontal
velocities are replaced (see `mod_row_balanced`). -/
theorem mod_run (use_E_r : Bool) (hs : Sized h) :
    let r := solution I str T η_derivs use_E_r c h
    ∃ req, r.log = [req] ∧
      Asks req
        { a_0 := c.a_0, norm_kepler_sq := c.norm_kepler_sq, init_con := c.init_con,
          θ_scale := h.θ_scale, η_derivs := η_derivs, use_E_r := use_E_r }
        h c.angles c.init_con ∧
      (TooClose (I req) → r.result = .error .CVODESolveFailed) ∧
      (¬ TooClose (I req) → ∃ sol, r.result = .ok sol ∧
        Reports sol h.θ_scale (I req).soln (if use_E_r then
            fixRows req.args T (T.start c.init_con.v_r) (I req).soln.t (I req).soln.y
          else (I req).soln.y) c ∧
        sol.out.solution.length = (I req).soln.y.length ∧
        (h.store_internal = false → sol.out.internal_data = none) ∧
        (h.store_internal = true → ∃ d, sol.out.internal_data = some d ∧
          Records d (acceptedRows req.args T (T.start c.init_con.v_r)
            (I req).calls))) := by
  intro r
  obtain ⟨req, hp, hq⟩ := plan_sized (A := SystemArgs)
    { a_0 := c.a_0, norm_kepler_sq := c.norm_kepler_sq, init_con := c.init_con,
      θ_scale := h.θ_scale, η_derivs := η_derivs, use_E_r := use_E_r }
    h c.angles c.init_con hs
  have hr : r = ⟨[req], ((hydro_result (I req)).map fun soln =>
      (fix_solution req.args T soln,
        (afterCalls req.args T str (T.start c.init_con.v_r)
          (if h.store_internal then some {} else none) (I req).calls).2)).map
          fun p => hydroSolutionOf h.θ_scale c p.1 p.2⟩ := by
    simp only [r, solution, mod_hydro_solution, hp, hq.args]
  refine ⟨req, by rw [hr], hq, ?_, ?_⟩
  · intro ht
    rcases result_cases (I req) with ⟨-, e⟩ | ⟨e, -⟩
    · rw [hr, e]; rfl
    · exact absurd ht e
  · intro ht
    rcases result_cases (I req) with ⟨e, -⟩ | ⟨-, e⟩
    · exact absurd e ht
    · have hR : Reports (hydroSolutionOf h.θ_scale c (fix_solution req.args T (I req).soln)
          (afterCalls req.args T str (T.start c.init_con.v_r)
            (if h.store_internal then some {} else none) (I req).calls).2)
          h.θ_scale (I req).soln (if use_E_r then
            fixRows req.args T (T.start c.init_con.v_r) (I req).soln.t (I req).soln.y
          else (I req).soln.y) c := by
        have hu : req.args.use_E_r = use_E_r := by rw [hq.args]
        have hv : req.args.init_con = c.init_con := by rw [hq.args]
        unfold fix_solution
        rw [hu, hv]
        cases use_E_r
        · exact ⟨rfl, rfl, rfl, rfl, rfl, rfl, rfl⟩
        · exact ⟨rfl, rfl, rfl, rfl, rfl, rfl, rfl⟩
      refine ⟨_, by rw [hr, e]; rfl, hR, ?_, ?_, ?_⟩
      · rw [hR.rows]
        split
        · exact fixRows_length _ _ _ _ _
        · rfl
      · intro hst
        simp only [hydroSolutionOf, hst, Bool.false_eq_true, if_false]
        exact mod_nothing_stored _ _ _ _ _
      · intro hst
        obtain ⟨d, e1, e2⟩ := mod_records req.args T str (T.start c.init_con.v_r)
          (I req).calls
        exact ⟨d, by simpa only [hydroSolutionOf, hst, if_true] using e1, e2⟩

/-- C100. The solver itself: one integration over the angles of the input is
reported unscaled, stored under "0" and as the final solution, with the initial
conditions of the input; when the interval is too small the run is left alone. -/
theorem mod_solver_run {μ : Type} (store : Bool) (inp : NumInput)
    (run : Run μ HydroSolution) (hs : run.solutions = []) (hf : run.final = .delayed) :
    let c := mod_hydro_define_conditions inp
    ∃ req, Asks req
        { a_0 := c.a_0, norm_kepler_sq := c.norm_kepler_sq, init_con := c.init_con,
          η_derivs := η_derivs, use_E_r := inp.use_E_r }
        { store_internal := store } c.angles c.init_con ∧
      (TooClose (I req) → runSolver I str T η_derivs store inp run =
        (run, .error .CVODESolveFailed)) ∧
      (¬ TooClose (I req) → ∃ sol r,
        runSolver I str T η_derivs store inp run = (r, .ok true) ∧
        r.solutions = [("0", sol)] ∧ r.finalSolution = .soln sol ∧
        r.info = run.info ∧ sol.out.angles = (I req).soln.t ∧
        Reports sol 1 (I req).soln (if inp.use_E_r then
            fixRows req.args T (T.start c.init_con.v_r) (I req).soln.t (I req).soln.y
          else (I req).soln.y) c ∧
        (sol.out.internal_data.isSome ↔ store = true)) := by
  intro c
  obtain ⟨req, -, hq, ht, hn⟩ := mod_run T str I η_derivs c { store_internal := store }
    inp.use_E_r (fun h => by cases h)
  refine ⟨req, hq, ?_, ?_⟩
  · intro h
    exact (mod_hydro_solver _ inp run).1 _ (ht h)
  · intro h
    obtain ⟨sol, e, hr, -, hi, hi'⟩ := hn h
    obtain ⟨r, e1, e2, e3, e4⟩ := (mod_hydro_solver (fun c => (solution I str T η_derivs
      inp.use_E_r c { store_internal := store }).result) inp run).2 sol e hs hf
    refine ⟨sol, r, e1, e2, e3, e4, ?_, hr, ?_⟩
    · rw [hr.angles]; simp
    · cases store
      · simp [hi rfl]
      · obtain ⟨d, hd, -⟩ := hi' rfl
        simp [hd]

/-! ### Concrete cases -/

/-- A tracker without memory that answers with some root. -/
noncomputable def witT : Tracker :=
  { Memory := Unit, start := fun _ => (),
    solve := fun _ p => (open Classical in
      if h : ∃ r, IsRoot p r then h.choose else 0, ()) }

theorem witT_faithful : Faithful witT := by
  intro m p h
  simp only [witT, dif_pos h]
  exact h.choose_spec

noncomputable def witMS (u : Bool) : SystemArgs :=
  { a_0 := 1, norm_kepler_sq := 100, init_con := witM, η_derivs := false, use_E_r := u }

noncomputable def witMC : Conditions :=
  { norm_kepler_sq := 100, a_0 := 1, init_con := witM, angles := [0, 1], γ := 0 }

example := mod_row_balanced (witMS true) witT witT_faithful rfl () [0] [witM] 0 0 witM
  rfl rfl witM_static (by norm_num [witM]) (by norm_num [witMS]) (by norm_num [witMS])
  (by rw [witM_Z5]; norm_num)
example := mod_rows_as_calls (witMS true) witT rfl () [0, 1] [witM, witM] rfl
  (by simp; norm_num [witM])
example := mod_refused witT str Hydro.witI true witMC
  { root_func := some (velocity_stop 1) } true (fun h => by simp [Sized] at h)
example := mod_run witT str Hydro.witI true witMC
  { root_func := some (velocity_stop 1), root_func_args := some 1, tstop := some 1,
    θ_scale := 2 } true (fun _ => rfl)
example := mod_solver_run witT str Hydro.witI true true witInE
  ({ info := () } : Run Unit HydroSolution) rfl rfl

/-- A tracker that always answers `0`. -/
noncomputable def zeroT : Tracker :=
  { Memory := Unit, start := fun _ => (), solve := fun _ _ => (0, ()) }

/-- An integrator that stops at a root, in its last row. -/
noncomputable def rootI {A : Type} : HydroRequest A → Integration := fun req =>
  { ending := .foundRoot,
    soln := { flag := .ROOT_RETURN, t := [1], y := [req.init], roots_t := some [1],
              roots_y := some [req.init] } }

/-- C100 (false of the code): in the electric field formulation the state at a root
is not rewritten with the rows, so the solution reports two different states for
the same angle. -/
theorem mod_roots_not_fixed : ∃ (I : HydroRequest SystemArgs → Integration)
    (T : Tracker) (c : Conditions) (sol : HydroSolution) (req : HydroRequest SystemArgs),
    (solution I str T true true c {}).result = .ok sol ∧
    (I req).soln.roots_y = some (I req).soln.y ∧
    sol.out.t_roots = some sol.out.angles ∧
    sol.out.y_roots ≠ some sol.out.solution := by
  refine ⟨rootI, zeroT, witMC, _, ⟨witMS true, true, none, none, false, none, false, [], witM⟩,
    rfl, rfl, rfl, ?_⟩
  intro h
  have : (-1 : ℝ) = 0 := congrArg (fun o => (o.getD []).head?.elim 0 (·.v_r)) h
  norm_num at this

end ModHydro

end DiscSolver
