import Verif.Model.ShockRun
import Verif.Model.SingleRun
import Verif.Props.Containers
import Verif.Props.Runners
import Verif.Props.Shock

/-!
# C96: ds-shock tries every admissible shock and stores what it finds
-/

namespace DiscSolver.ShockRun

open Runners

variable {F : Type}

/-! ## The input of a continuation -/

/-- C96. The input of a continuation has no Taylor start and no treatment of the sonic
point, and is otherwise the input of the solution it continues. -/
theorem continuation_input (s : SolutionInput F) (f : SField) :
    s.new_without_sonic_taylor f =
      if f.name = "use_taylor_jump" then .bool false
      else if f.name ∈ ["jump_before_sonic", "v_θ_sonic_crit", "after_sonic", "interp_range",
        "interp_slice", "sonic_interp_size"] then .none
      else s f := by
  cases f <;> rfl

/-- C96. The options of a continuation are those of `withoutSonicTaylor`, except for the
slice, which is not looked at. -/
theorem continuation_options (s : SolutionInput ℝ) (o : SolveOpts)
    (h : SingleRun.solveOpts s = .ok o) :
    SingleRun.solveOpts s.new_without_sonic_taylor =
      .ok { withoutSonicTaylor o with interp_slice := ⟨none, none, none⟩ } := by
  have key : ∀ {α β : Type} {x : Except PyErr α} {f : α → Except PyErr β} {b : β},
      (x >>= f) = .ok b → ∃ a, x = .ok a ∧ f a = .ok b := by
    intro α β x f b h
    cases x with
    | error e => cases h
    | ok a => exact ⟨a, rfl, h⟩
  unfold SingleRun.solveOpts at h
  obtain ⟨a1, h1, h⟩ := key h
  obtain ⟨a2, -, h⟩ := key h
  obtain ⟨a3, -, h⟩ := key h
  obtain ⟨a4, -, h⟩ := key h
  obtain ⟨a5, -, h⟩ := key h
  obtain ⟨a6, -, h⟩ := key h
  obtain ⟨a7, -, h⟩ := key h
  obtain ⟨a8, h8, h⟩ := key h
  obtain ⟨a9, h9, h⟩ := key h
  injection h with h
  subst h
  unfold SingleRun.solveOpts
  change (SingleRun.bool (s .η_derivs) >>= _) = _
  rw [h1]
  change (SingleRun.bool (s .use_E_r) >>= _) = _
  rw [h8]
  change (SingleRun.real (s .taylor_stop_angle) >>= _) = _
  rw [h9]
  rfl

example := continuation_options (fun f => match f with
  | .taylor_stop_angle => .float 1 | .η_derivs | .use_taylor_jump | .use_E_r => .bool true
  | .sonic_interp_size => .float 2 | .interp_slice => .slice ⟨some 0, some 3, none⟩
  | _ => .none) _ rfl

/-! ## What is searched -/

/-- **The search `ds-shock FILE RANGE` makes.** It starts from the solution asked for, keeps
its input without the options for the sonic point and the midplane, its initial conditions
and the angles it was stored at; the run it will store is empty and says what it is based on;
the candidates are, in order, exactly the rows with `1 < v_θ < 10` beyond 40 degrees and
beyond the first of the greatest velocities. -/
theorem shock_search (fs : FS F Stored) (filename range : String) (q : Search F)
    (h : shock_from_file fs filename range = .ok q) :
    ∃ run soln, fs.get? filename = some (.run run) ∧
      run.getSolutions (some range) = .ok (.soln soln) ∧
      q.run = { info := run.info, is_post_shock_only := true,
                based_on_filename := some filename, based_on_solution := some range } ∧
      q.new_solution_input = withoutSonicTaylor soln.opts ∧
      q.initial_conditions = soln.conditions ∧ q.angles = soln.out.angles ∧
      q.store_internal = true ∧ q.output_dir = "shock_tests" ∧
      q.values.Sublist soln.rows ∧
      ∀ p, p ∈ q.values ↔ p ∈ soln.rows ∧ 1 < p.2.v_θ ∧ p.2.v_θ < 10 ∧
        radians 40 < p.1 ∧
        ∃ i m, soln.rows[i]? = some m ∧ (∀ r ∈ soln.rows, r.2.v_θ ≤ m.2.v_θ) ∧
          (∀ (k : ℕ) (r : ℝ × St), k < i → soln.rows[k]? = some r → r.2.v_θ < m.2.v_θ) ∧
          m.1 < p.1 := by
  unfold shock_from_file load_run at h
  cases hf : fs.get? filename with
  | none => simp [hf] at h
  | some c =>
    cases c with
    | other b => simp [hf] at h
    | run run =>
      simp only [hf] at h
      cases hfin : run.final with
      | delayed => simp [hfin] at h
      | value v =>
      simp only [hfin] at h
      cases hg : run.getSolutions (some range) with
      | error x => simp [hg] at h
      | ok found =>
        simp only [hg] at h
        cases found with
        | none => simp [foundSolution] at h
        | placeholder => simp [foundSolution] at h
        | soln soln =>
          simp only [foundSolution, compute_shock] at h
          cases hv : find_shock_test_values soln.rows 1 10 40 with
          | error x => simp [hv] at h
          | ok values =>
            simp only [hv] at h
            injection h with h
            subst h
            obtain ⟨h1, h2⟩ := shock_candidates soln.rows values 1 10 40 true hv
            refine ⟨run, soln, rfl, hg, rfl, rfl, rfl, rfl, rfl, rfl, h1, fun p => ?_⟩
            rw [h2]
            simp

/-- **When there is no search**: the file is missing or is not one of this program; its run
ended before it had a final solution; there is no such solution; the final solution is `None`;
the solution has no rows. -/
theorem shock_fails (fs : FS F Stored) (filename range : String) :
    ((∀ r, fs.get? filename ≠ some (.run r)) →
      shock_from_file fs filename range = .error .OSError) ∧
    ∀ run : TheRun F Stored, fs.get? filename = some (.run run) →
      (run.final = .delayed → shock_from_file fs filename range = .error .KeyError) ∧
      (run.final ≠ .delayed → ∀ x, run.getSolutions (some range) = .error x →
        shock_from_file fs filename range = .error x) ∧
      (run.getSolutions (some range) = .ok .none → run.final ≠ .delayed →
        shock_from_file fs filename range = .error .AttributeError) ∧
      (run.final ≠ .delayed → ∀ s, run.getSolutions (some range) = .ok (.soln s) → s.rows = [] →
        shock_from_file fs filename range = .error .ValueError) := by
  refine ⟨fun h => ?_, fun run hf => ⟨fun hn => ?_, fun hn x hx => ?_, fun hx hn => ?_,
    fun hn s hx hr => ?_⟩⟩
  · unfold shock_from_file load_run
    cases hf : fs.get? filename with
    | none => rfl
    | some c =>
      cases c with
      | other b => rfl
      | run r => exact absurd hf (h r)
  · simp [shock_from_file, load_unfinished hf hn]
  · simp [shock_from_file, load_finished hf hn, hx]
  · simp [shock_from_file, load_finished hf hn, hx, foundSolution]
  · simp [shock_from_file, load_finished hf hn, hx, foundSolution, compute_shock, hr,
      find_shock_test_values, shock_min_angle, nanargmax]

/-- **There is a search whenever the run was finished and the solution asked for exists and has
rows.** -/
theorem shock_searches (fs : FS F Stored) (filename range : String) (run : TheRun F Stored)
    (soln : Stored) (hf : fs.get? filename = some (.run run)) (hn : run.final ≠ .delayed)
    (hg : run.getSolutions (some range) = .ok (.soln soln)) (hr : soln.rows ≠ []) :
    ∃ q, shock_from_file fs filename range = .ok q := by
  cases hv : find_shock_test_values soln.rows 1 10 40 with
  | ok values =>
    exact ⟨⟨withoutSonicTaylor soln.opts, soln.conditions, soln.out.angles,
      "shock_tests", true, run.createShockRun filename range, values⟩, by
        simp only [shock_from_file, load_finished hf hn, hg, foundSolution, compute_shock, hv]⟩
  | error x =>
    exfalso
    have := (shock_candidates_fails soln.rows 1 10 40 true).not.2 (by simp [hr])
    exact this ⟨x, hv⟩

/-! ## How a candidate is solved -/

theorem without_get (o : SolveOpts) : (withoutSonicTaylor o).sonic_interp_size = none ∧
    (withoutSonicTaylor o).jump_before_sonic = none := ⟨rfl, rfl⟩

/-- The integration made for a candidate: the equations of the original solution, from the
state behind the shock, at the stored angles from the shock on, with nothing to stop it. -/
noncomputable def request (q : Search F) (p : ℝ × St) : Request :=
  { args :=
      { γ := q.initial_conditions.γ, a_0 := q.initial_conditions.a_0,
        norm_kepler_sq := q.initial_conditions.norm_kepler_sq,
        init_con := q.initial_conditions.init_con, θ_scale := 1,
        η_derivs := q.new_solution_input.η_derivs,
        use_E_r := q.new_solution_input.use_E_r }
    store_internal := q.store_internal
    angles := open Classical in q.angles.filter fun a => decide (p.1 ≤ a)
    init := { p.2 with v_θ := 1 / p.2.v_θ, ρ := p.2.ρ * p.2.v_θ ^ 2 } }

/-- **The solve of a candidate.** With two stored angles or more from the shock on, the
integrator is asked exactly once, for `request`; the solution consists of what it returns
unless it fails without having made a step. With fewer angles nothing is integrated. -/
theorem shock_solve (e : Env F) (q : Search F) (o : SolveOpts) (p : ℝ × St)
    (hq : q.new_solution_input = withoutSonicTaylor o) :
    if (request q p).angles.length < 2 then q.solve e p = ⟨[], .error .SolverError⟩
    else (q.solve e p).log = [request q p] ∧
      (((e.I (request q p)).ending = .failed ∧
          (e.I (request q p)).soln.flag = .TOO_CLOSE →
        (q.solve e p).result = .error .CVODESolveFailed) ∧
      (¬ ((e.I (request q p)).ending = .failed ∧
          (e.I (request q p)).soln.flag = .TOO_CLOSE) →
        ∃ out, (q.solve e p).result = .ok out ∧
          out.flag = (e.I (request q p)).soln.flag ∧
          out.angles = (e.I (request q p)).soln.t ∧
          out.solution = (e.I (request q p)).soln.y ∧
          out.is_post_shock_only = true)) := by
  have hm : main_plan (solveOdeArgs q.new_solution_input q.initial_conditions
      { store_internal := q.store_internal
        modified_initial_conditions := some (get_shock_modified_initial_conditions
          q.initial_conditions q.angles p.1 p.2)
        with_taylor := false, is_post_shock_only := true }) q.store_internal
      { angles := (request q p).angles, ode_init := (request q p).init } =
      if (request q p).angles.length < 2 then .error .SolverError
      else .ok (request q p) := by
    simp only [main_plan]
    rfl
  have hs : q.solve e p = (main_solution e.I e.str (solveOdeArgs q.new_solution_input
      q.initial_conditions
      { store_internal := q.store_internal
        modified_initial_conditions := some (get_shock_modified_initial_conditions
          q.initial_conditions q.angles p.1 p.2)
        with_taylor := false, is_post_shock_only := true }) q.store_internal
      { angles := (request q p).angles, ode_init := (request q p).init }).bind
      fun x => .ok
        { flag := x.1.flag, angles := x.1.t.map (fun t => scaled_to_rad t 1),
          solution := x.1.y,
          internal_data := if q.store_internal then x.2 else x.2,
          t_roots := x.1.roots_t.map (List.map fun t => scaled_to_rad t 1),
          y_roots := x.1.roots_y, is_post_shock_only := true } := by
    simp only [Search.solve, solution, taylor_start, Bool.false_eq_true, if_false, hq,
      (without_get o).1, (without_get o).2, Logged.bind, Logged.ok, List.nil_append,
      Option.map_none, Option.getD_none, Option.bind_none]
    rfl
  have hid : ∀ l : List ℝ, l.map (fun t => scaled_to_rad t 1) = l := by
    intro l
    simp [scaled_to_rad]
  rw [hs]
  simp only [main_solution, hm]
  by_cases hlen : (request q p).angles.length < 2
  · rw [if_pos hlen, if_pos hlen]
    rfl
  · rw [if_neg hlen, if_neg hlen]
    by_cases hfail : (e.I (request q p)).ending = .failed ∧
        (e.I (request q p)).soln.flag = .TOO_CLOSE
    · simp only [if_pos hfail, Logged.bind]
      exact ⟨trivial, fun _ => trivial, fun h => absurd hfail h⟩
    · simp only [if_neg hfail, Logged.bind, Logged.ok, hid]
      exact ⟨rfl, fun h => absurd h hfail, fun _ => ⟨_, rfl, rfl, rfl, rfl, rfl⟩⟩

/-- **The state behind the shock** has the mass flux and the momentum flux of the state
before it, and is subsonic if that one is supersonic. -/
theorem shock_start (q : Search F) (p : ℝ × St) (hv : 1 < p.2.v_θ) :
    (request q p).init.ρ * (request q p).init.v_θ = p.2.ρ * p.2.v_θ ∧
    (request q p).init.ρ * ((request q p).init.v_θ ^ 2 + 1) =
      p.2.ρ * (p.2.v_θ ^ 2 + 1) ∧
    0 < (request q p).init.v_θ ∧ (request q p).init.v_θ < 1 := by
  have hne : p.2.v_θ ≠ 0 := by linarith
  obtain ⟨h1, h2⟩ := shock_conserves q.initial_conditions q.angles p.1 p.2 hne
  refine ⟨h1, h2, ?_, ?_⟩
  · simp only [request]; positivity
  · simp only [request]
    rw [div_lt_one (by linarith)]
    exact hv

/-! ## What is stored -/

theorem after_eq (e : Env F) (q : Search F) (fs : FS F Stored) (schedule : List ℕ) :
    q.after e fs schedule = afterSteps e.writable (q.jobs e) fs
      (schedule.filter fun i => (q.job e i).isSome) := by
  unfold Search.after afterSteps
  generalize ({ fs := fs } : Pool F Stored) = p
  induction schedule generalizing p with
  | nil => rfl
  | cons i l ih =>
    simp only [List.foldl_cons, ih, Search.step]
    by_cases h : (q.job e i).isSome
    · rw [if_pos h, List.filter_cons_of_pos (by simpa using h), List.foldl_cons]
    · rw [if_neg h, List.filter_cons_of_neg (by simpa using h)]

/-- **Which candidates are stored**: exactly those that were solved with at least five
angles, if the configuration has a label. -/
theorem shock_job (e : Env F) (q : Search F) (i : ℕ) (j : Job F Stored) :
    q.job e i = some j ↔ ∃ p out label, q.values[i]? = some p ∧
      (q.solve e p).result = .ok out ∧ 5 ≤ out.angles.length ∧
      q.run.info.config_input .label = some label ∧
      j = ⟨e.path q.output_dir (String.ofList label ++ (e.stamp i ++ ".hdf5")), q.run,
        addSolver ⟨q.new_solution_input, q.initial_conditions, out⟩, fun _ => .none⟩ := by
  unfold Search.job
  cases hp : q.values[i]? with
  | none => simp
  | some p =>
    simp only
    cases hs : (q.solve e p).result with
    | error x => simp [hs]
    | ok out =>
      simp only
      by_cases hl : out.angles.length < 5
      · rw [if_pos hl]
        simp only [reduceCtorEq, Option.some.injEq, false_iff]
        rintro ⟨p', out', label, rfl, h, h5, -⟩
        rw [hs] at h
        injection h with h
        subst h
        omega
      · rw [if_neg hl]
        unfold default_name
        cases hc : q.run.info.config_input .label with
        | none => simp
        | some label =>
          simp only [Option.some.injEq]
          constructor
          · rintro rfl
            exact ⟨p, out, label, rfl, hs, by omega, rfl, rfl⟩
          · rintro ⟨p', out', label', rfl, h, -, h', rfl⟩
            rw [hs] at h
            injection h with h
            subst h h'
            rfl

/-- The run that is stored. -/
def storedRun (q : Search F) (s : Stored) : TheRun F Stored :=
  { q.run with solutions := [("0", s)], final := .value (some s) }

theorem finish_stores (q : Search F) (s : Stored) (path : String)
    (h0 : q.run.solutions = []) (h1 : q.run.final = .delayed) :
    (Job.mk path q.run (addSolver s) fun _ => .none).finish =
      (storedRun q s, .ok (some true)) := by
  have hz : (0 : ℕ).repr = "0" := by decide
  have hl : Solutions.getLast [("0", s)] = .ok s := by
    have := get_last_most_recent [] s
    simpa [numbered, hz] using this
  obtain ⟨opts, con, angles, dir, int, run, values⟩ := q
  obtain ⟨info, final, solutions, a, b, c⟩ := run
  simp only at h0 h1
  subst h0 h1
  have ha : addSolver s (fun _ => .none)
      ({ info := info, final := .delayed, solutions := [], is_post_shock_only := a,
         based_on_filename := b, based_on_solution := c } : TheRun F Stored) =
      (.ok true, { info := info, final := .delayed, solutions := [("0", s)],
                   is_post_shock_only := a, based_on_filename := b,
                   based_on_solution := c }) := by
    simp only [addSolver, Run.addSolution, Solutions.add, Solutions.getNextIndex,
      List.length_nil, hz]
    rfl
  simp only [Job.finish, ha]
  rw [finalise_unset _ rfl]
  simp only [hl, Except.map]
  rfl

/-- **What is stored for a candidate.** Whatever the others do and in whatever order the
workers proceed, once a candidate has ended its file, if it could be made and is its own,
holds a run with the solution behind the shock as its only and final one, and the worker has
returned that file if the plot succeeded. -/
theorem shock_saved (e : Env F) (q : Search F) (fs : FS F Stored) (schedule : List ℕ)
    (he : ∀ d n, e.path d n ≠ "")
    (h0 : q.run.solutions = []) (h1 : q.run.final = .delayed)
    (i : ℕ) (j : Job F Stored) (hj : q.job e i = some j)
    (hd : ∀ k j', k ≠ i → q.job e k = some j' → j'.path ≠ j.path)
    (hnew : fs.get? j.path = none) (hw : e.writable j.path = true)
    (hend : ∃ r, (q.after e fs schedule).state i = .ended r) :
    ∃ p out, q.values[i]? = some p ∧ (q.solve e p).result = .ok out ∧
      (q.after e fs schedule).fs.get? j.path =
        some (.run (storedRun q ⟨q.new_solution_input, q.initial_conditions, out⟩)) ∧
      q.result e (q.after e fs schedule) i =
        if e.plots i (storedRun q ⟨q.new_solution_input, q.initial_conditions, out⟩)
          then some (j.path, withPng j.path) else none := by
  obtain ⟨p, out, label, hp, ho, -, -, hj'⟩ := (shock_job e q i j).1 hj
  have hjobs : q.jobs e i = j := by simp [Search.jobs, hj]
  have hfin : j.finish = (storedRun q ⟨q.new_solution_input, q.initial_conditions, out⟩,
      .ok (some true)) := by
    rw [hj']
    exact finish_stores q _ _ h0 h1
  obtain ⟨r, hr⟩ := hend
  have hr' := hr
  rw [after_eq] at hr'
  obtain ⟨h2, h3⟩ := hdf5_distinct_paths e.writable (q.jobs e) fs _ i
    (fun k hk => by
      rw [hjobs]
      cases hjk : q.job e k with
      | none =>
        have hne := he q.output_dir (String.ofList label ++ (e.stamp i ++ ".hdf5"))
        simp only [Search.jobs, hjk, Option.getD_none]
        rw [hj']
        exact hne.symm
      | some j' =>
        simp only [Search.jobs, hjk, Option.getD_some]
        exact hd k j' hk hjk)
    (by rw [hjobs]; exact hnew) (by rw [hjobs]; exact hw) r hr'
  rw [hjobs, hfin] at h3
  rw [hjobs, hfin] at h2
  refine ⟨p, out, hp, ho, by rw [after_eq]; exact h3, ?_⟩
  simp only at h2
  subst h2
  simp only [Search.result, hj, hr, hfin]

/-- **Every candidate ends** once its worker has made two steps. -/
theorem shock_ends (e : Env F) (q : Search F) (fs : FS F Stored) (schedule : List ℕ)
    (i : ℕ) (h : (q.job e i).isSome) (h2 : 2 ≤ schedule.count i) :
    ∃ r, (q.after e fs schedule).state i = .ended r := by
  have hother : ∀ (p : Pool F Stored) k, k ≠ i → (q.step e p k).state i = p.state i := by
    intro p k hk
    unfold Search.step Pool.step
    split
    · split
      · rfl
      · split
        · simp [Function.update_of_ne (Ne.symm hk)]
        · split <;> simp [Function.update_of_ne (Ne.symm hk)]
      · simp [Function.update_of_ne (Ne.symm hk)]
    · rfl
  have hended : ∀ (p : Pool F Stored) r, p.state i = .ended r →
      (q.step e p i).state i = .ended r := by
    intro p r hr
    simp [Search.step, Pool.step, h, hr]
  have hworking : ∀ p : Pool F Stored, p.state i = .working →
      ∃ r, (q.step e p i).state i = .ended r := by
    intro p hr
    simp [Search.step, Pool.step, h, hr]
  have hwaiting : ∀ p : Pool F Stored, p.state i = .waiting →
      (q.step e p i).state i = .working ∨ ∃ r, (q.step e p i).state i = .ended r := by
    intro p hr
    simp only [Search.step, h, if_true, Pool.step, hr]
    split
    · right; simp
    · split
      · left; simp
      · right; simp
  have key : ∀ (l : List ℕ) (p : Pool F Stored),
      ((∃ r, p.state i = .ended r) → ∃ r, (l.foldl (q.step e) p).state i = .ended r) ∧
      (p.state i = .working → 1 ≤ l.count i →
        ∃ r, (l.foldl (q.step e) p).state i = .ended r) ∧
      (p.state i = .waiting → 2 ≤ l.count i →
        ∃ r, (l.foldl (q.step e) p).state i = .ended r) := by
    intro l
    induction l with
    | nil => intro p; simp
    | cons k l ih =>
      intro p
      obtain ⟨i1, i2, i3⟩ := ih (q.step e p k)
      simp only [List.foldl_cons]
      by_cases hk : k = i
      · subst hk
        simp only [List.count_cons_self]
        refine ⟨fun ⟨r, hr⟩ => i1 ⟨r, hended p r hr⟩, fun hr _ => i1 (hworking p hr),
          fun hr hc => ?_⟩
        rcases hwaiting p hr with hw | hw
        · exact i2 hw (by omega)
        · exact i1 hw
      · rw [hother p k hk] at i1 i2 i3
        rw [List.count_cons_of_ne hk]
        exact ⟨i1, i2, i3⟩
  exact (key schedule { fs := fs }).2.2 rfl h2

/-- **Files that exist stay as they are**, the file searched included. -/
theorem shock_never_overwrites (e : Env F) (q : Search F) (fs : FS F Stored)
    (schedule : List ℕ) (path : String) (c : File F Stored) (h : fs.get? path = some c) :
    (q.after e fs schedule).fs.get? path = some c := by
  rw [after_eq]
  exact hdf5_never_overwrites e.writable (q.jobs e) fs _ path c h

/-- **Without the directory `shock_tests` nothing is stored**: if no file can be made, every
candidate is given up, no file appears and nothing is reported. -/
theorem shock_no_directory (e : Env F) (q : Search F) (fs : FS F Stored)
    (schedule : List ℕ) (hw : ∀ name, e.writable (e.path q.output_dir name) = false) :
    (q.after e fs schedule).fs = fs ∧
      ∀ i, q.result e (q.after e fs schedule) i = none := by
  have key : ∀ (l : List ℕ) (p : Pool F Stored), p.fs = fs →
      (∀ i, p.state i = .waiting ∨ ∃ x, p.state i = .ended (.error x)) →
      (l.foldl (q.step e) p).fs = fs ∧
      ∀ i, (l.foldl (q.step e) p).state i = .waiting ∨
        ∃ x, (l.foldl (q.step e) p).state i = .ended (.error x) := by
    intro l
    induction l with
    | nil => intro p h1 h2; exact ⟨h1, h2⟩
    | cons k l ih =>
      intro p h1 h2
      rw [List.foldl_cons]
      apply ih
      · unfold Search.step
        split
        · rename_i hs
          obtain ⟨j, hj⟩ := Option.isSome_iff_exists.1 hs
          obtain ⟨p', out, label, -, -, -, -, hj'⟩ := (shock_job e q k j).1 hj
          have hwk : e.writable (q.jobs e k).path = false := by
            simp only [Search.jobs, hj, Option.getD_some, hj']
            exact hw _
          unfold Pool.step
          rcases h2 k with h | ⟨x, h⟩
          · simp only [h, hwk]
            split <;> exact h1
          · simp only [h]; exact h1
        · exact h1
      · intro i
        unfold Search.step
        split
        · rename_i hs
          obtain ⟨j, hj⟩ := Option.isSome_iff_exists.1 hs
          obtain ⟨p', out, label, -, -, -, -, hj'⟩ := (shock_job e q k j).1 hj
          have hwk : e.writable (q.jobs e k).path = false := by
            simp only [Search.jobs, hj, Option.getD_some, hj']
            exact hw _
          unfold Pool.step
          rcases h2 k with h | ⟨x, h⟩
          · simp only [h, hwk]
            by_cases hik : i = k
            · subst hik
              split <;> simp
            · split <;> simp [Function.update_of_ne hik, h2 i]
          · simp only [h]; exact h2 i
        · exact h2 i
  obtain ⟨h1, h2⟩ := key schedule { fs := fs } rfl fun _ => Or.inl rfl
  refine ⟨h1, fun i => ?_⟩
  have h3 : (q.after e fs schedule).state i = .waiting ∨
      ∃ x, (q.after e fs schedule).state i = .ended (.error x) := h2 i
  unfold Search.result
  rcases h3 with h | ⟨x, h⟩
  · rw [h]; cases q.job e i <;> rfl
  · rw [h]; cases q.job e i <;> rfl

/-! ## Examples -/

/-- An integrator that never moves. -/
noncomputable def stillI : Integrator := fun r =>
  { soln := { flag := .SUCCESS, t := r.angles, y := r.angles.map fun _ => r.init }
    ending := .finished, calls := [] }

/-- A row before a shock. -/
noncomputable def fastS : St := { witShock with v_θ := 2 }

noncomputable def witStored : Stored :=
  { opts := { taylor_stop_angle := 1 }
    conditions := { witShockC with angles := [0, 1, 2, 3, 4, 5] }
    out := { flag := .SUCCESS, angles := [0, 1, 2, 3, 4, 5],
             solution := List.replicate 6 fastS, internal_data := none, t_roots := none,
             y_roots := none, is_post_shock_only := false } }

/-- A run with a label and a final solution. -/
noncomputable def witRun : TheRun Unit Stored :=
  { info := ⟨fun f => if f = .label then some "disc".toList else none, none, "step", .none⟩
    solutions := [("0", witStored)], final := .value (some witStored) }

noncomputable def witEnv : Env Unit where
  I := stillI
  str _ := ""
  interp _ _ := none
  path d n := d ++ "/" ++ n
  writable _ := true
  stamp i := i.repr
  plots _ _ := true

noncomputable def witSearch : Search Unit :=
  { new_solution_input := withoutSonicTaylor witStored.opts
    initial_conditions := witStored.conditions
    angles := witStored.out.angles
    run := witRun.createShockRun "run.hdf5" "final"
    values := [(1, fastS)] }

example : ∃ q, shock_from_file [("run.hdf5", .run witRun)] "run.hdf5" "final" = .ok q :=
  shock_searches _ _ _ witRun witStored rfl (by simp [witRun]) rfl (by simp [Stored.rows, witStored])

example : ∃ q, shock_from_file [("run.hdf5", .run witRun)] "run.hdf5" "final" = .ok q ∧
    q.output_dir = "shock_tests" := by
  obtain ⟨q, hq⟩ := shock_searches [("run.hdf5", .run witRun)] "run.hdf5" "final"
    witRun witStored rfl (by simp [witRun]) rfl (by simp [Stored.rows, witStored])
  obtain ⟨-, -, -, -, -, -, -, -, -, h, -⟩ := shock_search _ _ _ q hq
  exact ⟨q, hq, h⟩

example := (shock_fails [("run.hdf5", .run witRun)] "run.hdf5" "latest").2 witRun rfl

example := shock_start witSearch (1, fastS) (by norm_num [fastS])

theorem wit_request : (request witSearch (1, fastS)).angles = [1, 2, 3, 4, 5] := by
  simp only [request, witSearch, witStored]
  norm_num [List.filter_cons]

theorem wit_job : ∃ j, witSearch.job witEnv 0 = some j ∧
    j.path = "shock_tests/disc0.hdf5" := by
  have h := shock_solve witEnv witSearch witStored.opts (1, fastS) rfl
  rw [wit_request, if_neg (by simp)] at h
  obtain ⟨out, h1, -, h3, -⟩ := h.2.2 (by simp [witEnv, stillI])
  refine ⟨_, (shock_job witEnv witSearch 0 _).2 ⟨(1, fastS), out, "disc".toList, rfl, h1,
    ?_, rfl, rfl⟩, rfl⟩
  rw [h3]
  simp [witEnv, stillI, wit_request]

example := shock_saved witEnv witSearch [("run.hdf5", .run witRun)] [0, 0]
  (fun d n h => by
    have := congrArg String.length h
    simp [witEnv] at this)
  rfl rfl 0 wit_job.choose wit_job.choose_spec.1
  (fun k j' hk h => by
    have := ((shock_job witEnv witSearch k j').1 h).choose_spec.choose_spec.choose_spec.1
    cases k with
    | zero => exact absurd rfl hk
    | succ k => simp [witSearch] at this)
  (by rw [wit_job.choose_spec.2]; rfl) rfl
  (shock_ends _ _ _ _ 0 (by rw [wit_job.choose_spec.1]; rfl) (by simp))

example := shock_no_directory { witEnv with writable := fun _ => false } witSearch
  [("run.hdf5", .run witRun)] [0, 0] fun _ => rfl

example := shock_never_overwrites witEnv witSearch [("run.hdf5", .run witRun)] [0, 0]
  "run.hdf5" _ rfl

end DiscSolver.ShockRun
