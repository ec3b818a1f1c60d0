import Verif.Model.ShockFiles
import Verif.Props.ShockRun
import Verif.Props.Solution
import Verif.Props.EndToEnd

/-!
# Properties: what ds-shock stores

C96 on the files of the other commands; C117.
-/

namespace DiscSolver.ShockFiles

open Runners SingleRun

variable {I : Tolerances → Integrator} {str : ℝ → String}
  {interp : List ℝ → List ℝ → Option (ℝ → ℝ)}

theorem slice_unused (I : Integrator) (str : ℝ → String)
    (interp : List ℝ → List ℝ → Option (ℝ → ℝ)) (o : SolveOpts) (c : Conditions)
    (a : DiscSolver.SolveArgs) (h : o.sonic_interp_size = none) (s : PySlice) :
    solution I str interp { o with interp_slice := s } c a = solution I str interp o c a := by
  unfold solution taylor_start
  simp only [h]
  rfl

/-- C96. The two models of `ds-shock` agree: the continuation stored is the one solved by a
worker in `Model/ShockRun`, of which the theorems there speak. -/
theorem continuation_agrees (m : Made) (p : ℝ × St) (o : SolveOpts) (tol : Tolerances)
    (ho : solveOpts m.solution_input = .ok o) (ht : tolerances m.solution_input = .ok tol)
    (E : ShockRun.Env ℝ) (hE : E.I = I tol) (hs : E.str = str) (hi : E.interp = interp)
    (q : ShockRun.Search ℝ) (hq : q.new_solution_input = ShockRun.withoutSonicTaylor o)
    (hc : q.initial_conditions = m.initial_conditions) (ha : q.angles = m.out.angles)
    (hst : q.store_internal = true) :
    continuation I str interp m p = (q.solve E p).result.map fun out =>
      ⟨m.solution_input.new_without_sonic_taylor, m.initial_conditions, out⟩ := by
  have h1 := ShockRun.continuation_options _ _ ho
  have h2 : tolerances m.solution_input.new_without_sonic_taylor = .ok tol := ht
  unfold continuation ShockRun.Search.solve
  simp only [h1, h2, hq, hc, ha, hst, hE, hs, hi, Bind.bind, Except.bind]
  rw [slice_unused (I tol) str interp (ShockRun.withoutSonicTaylor o) _ _ rfl]
  generalize (solution (I tol) str interp (ShockRun.withoutSonicTaylor o) _ _).result = x
  cases x <;> rfl

/-- What a continuation is stored with. -/
theorem continuation_ok {m made : Made} {p : ℝ × St}
    (h : continuation I str interp m p = .ok made) :
    made.solution_input = m.solution_input.new_without_sonic_taylor ∧
    made.initial_conditions = m.initial_conditions ∧ made.out.is_post_shock_only = true ∧
    ∃ tol o a, (solution (I tol) str interp o m.initial_conditions a).result = .ok made.out := by
  unfold continuation at h
  simp only [EndToEnd.bind_ok] at h
  obtain ⟨tol, -, o, -, out, hs, h⟩ := h
  injection h with h
  subst h
  obtain ⟨_, _, _, _, -, -, -, -, -, h, -⟩ := solution_ok _ _ _ _ _ _ hs
  exact ⟨rfl, rfl, h, tol, o, _, hs⟩

/-- The run of a continuation. -/
def Continues (r : TheRun ℝ Made) (old : TheRun ℝ Made) (filename range : String)
    (made : Made) : Prop :=
  r = { info := old.info, is_post_shock_only := true, based_on_filename := some filename,
        based_on_solution := some range } ∨
  r = { info := old.info, is_post_shock_only := true, based_on_filename := some filename,
        based_on_solution := some range, solutions := [("0", made)],
        final := .value (some made) }

/-- A worker which is not stopped ends with the continuation in its run. -/
theorem finish_eq (old : TheRun ℝ Made) (filename range path : String) (made : Made) :
    (Job.mk path (old.createShockRun filename range) (addSolver made)
      fun _ => .none).finish.1 =
    { info := old.info, is_post_shock_only := true, based_on_filename := some filename,
      based_on_solution := some range, solutions := [("0", made)],
      final := .value (some made) } := by
  have hz : (0 : ℕ).repr = "0" := by decide
  have hl : Solutions.getLast [("0", made)] = .ok made := by
    have := get_last_most_recent [] made
    simpa [numbered, hz] using this
  have ha : addSolver made (fun _ => .none) (old.createShockRun filename range) =
      (.ok true, { old.createShockRun filename range with solutions := [("0", made)] }) := by
    simp [addSolver, Run.addSolution, Solutions.add, Solutions.getNextIndex, Run.createShockRun,
      Dict.keys, Dict.set, hz, Bind.bind, Except.bind, pure, Except.pure]
  have hf : (Run.finalise ({ old.createShockRun filename range with
      solutions := [("0", made)] } : TheRun ℝ Made)) = .ok
        { info := old.info, is_post_shock_only := true, based_on_filename := some filename,
          based_on_solution := some range, solutions := [("0", made)],
          final := .value (some made) } := by
    simp only [Run.finalise, Run.createShockRun, hl]
    rfl
  unfold Job.finish
  simp only [ha, hf]

/-- The runs after any steps of the workers. -/
theorem pool_runs {writable : String → Bool} {jobs : ℕ → Option (Job ℝ Made)} {fs : FS ℝ Made}
    (schedule : List ℕ) (p : String) (r : TheRun ℝ Made)
    (h : (schedule.foldl (step writable jobs) { fs := fs }).fs.get? p = some (.run r)) :
    fs.get? p = some (.run r) ∨ ∃ i j, jobs i = some j ∧ (r = j.run ∨ r = j.finish.1) := by
  induction schedule using List.reverseRecOn with
  | nil => exact .inl h
  | append_singleton l k ih =>
    rw [List.foldl_append, List.foldl_cons, List.foldl_nil] at h
    generalize l.foldl (step writable jobs) { fs := fs } = q at h ih
    unfold step at h
    split at h
    · exact ih h
    · next j hj =>
      unfold Pool.step at h
      split at h
      · exact ih h
      · split at h
        · exact ih h
        · split_ifs at h
          · dsimp only at h
            rw [Dict.get?_set] at h
            split_ifs at h
            · injection h with h
              injection h with h
              exact .inr ⟨k, j, hj, .inl h.symm⟩
            · exact ih h
          · exact ih h
      · dsimp only at h
        rw [Dict.get?_set] at h
        split_ifs at h
        · injection h with h
          injection h with h
          exact .inr ⟨k, j, hj, .inr h.symm⟩
        · exact ih h

theorem load_eq {fs : FS ℝ Made} {path : String} {r : TheRun ℝ Made}
    (h : load_run fs path = .ok r) : fs.get? path = some (.run r) ∧ r.final ≠ .delayed := by
  unfold load_run at h
  split at h
  · cases h
  · cases h
  · next r' hr =>
    split at h
    · cases h
    · next hf =>
      injection h with h
      subst h
      exact ⟨hr, by rw [hf]; intro h; cases h⟩

/-- C117. Whatever the order of the workers' steps, the runs after `ds-shock` are those which
were there and continuations of the solution asked for, which name it. -/
theorem shock_runs {e : Runners.Env ℝ} {stamp : ℕ → String} {filename range : String}
    {fs : FS ℝ Made} {schedule : List ℕ} {pool : Pool ℝ Made}
    (h : ds_shock e stamp I str interp filename range fs schedule = .ok pool) (p : String)
    (r : TheRun ℝ Made) (hr : pool.fs.get? p = some (.run r)) :
    fs.get? p = some (.run r) ∨ ∃ old m θ row made, fs.get? filename = some (.run old) ∧
      old.final ≠ .delayed ∧ old.getSolutions (some range) = .ok (.soln m) ∧
      (θ, row) ∈ m.out.angles.zip m.out.solution ∧ 1 < row.v_θ ∧ row.v_θ < 10 ∧
      radians 40 < θ ∧ continuation I str interp m (θ, row) = .ok made ∧
      5 ≤ made.out.angles.length ∧ Continues r old filename range made := by
  unfold ds_shock at h
  split at h
  · cases h
  · next old hold =>
    split at h
    · cases h
    · next m hm =>
      split at h
      · cases h
      · next values hv =>
        injection h with h
        subst h
        rcases pool_runs schedule p r hr with h | ⟨i, j, hj, hrun⟩
        · exact .inl h
        · right
          unfold job at hj
          split at hj
          · cases hj
          · next q hq =>
            split at hj
            · cases hj
            · next made hmade =>
              split_ifs at hj with hlen
              split at hj
              · cases hj
              · injection hj with hj
                subst hj
                obtain ⟨θ, row⟩ := q
                obtain ⟨k1, k2, k3, k4, -⟩ := ((shock_candidates _ _ _ _ _ _ hv).2 (θ, row)).1
                  (List.mem_of_getElem? hq)
                refine ⟨old, m, θ, row, made, (load_eq hold).1, (load_eq hold).2, hm, k1, k2, k3,
                  k4, hmade, by omega, ?_⟩
                rcases hrun with rfl | rfl
                · exact .inl rfl
                · exact .inr (finish_eq old filename range _ made)
    · cases h

/-- A worker with a free file of its own, after it made `n` of the steps in the schedule. -/
theorem pool_progress {writable : String → Bool} {jobs : ℕ → Option (Job ℝ Made)}
    {fs : FS ℝ Made} {i : ℕ} {j : Job ℝ Made} (hj : jobs i = some j)
    (hown : ∀ k j', jobs k = some j' → j'.path = j.path → k = i)
    (hfree : fs.get? j.path = none) (hw : writable j.path = true) (schedule : List ℕ) :
    let pool := schedule.foldl (step writable jobs) { fs := fs }
    match schedule.count i with
    | 0 => pool.state i = .waiting ∧ pool.fs.get? j.path = none
    | 1 => pool.state i = .working ∧ pool.fs.get? j.path = some (.run j.run)
    | _ => pool.state i = .ended j.finish.2 ∧
        pool.fs.get? j.path = some (.run j.finish.1) := by
  induction schedule using List.reverseRecOn with
  | nil => exact ⟨rfl, hfree⟩
  | append_singleton l k ih =>
    simp only [List.foldl_append, List.foldl_cons, List.foldl_nil, List.count_append]
    dsimp only at ih
    generalize l.foldl (step writable jobs) { fs := fs } = q at ih ⊢
    by_cases hk : k = i
    · subst hk
      simp only [List.count_singleton_self]
      generalize l.count k = n at ih ⊢
      match n, ih with
      | 0, ih =>
        simp only [Nat.zero_add]
        obtain ⟨h1, h2⟩ := ih
        simp only [step, hj, Pool.step, h1, h2, hw, if_true, Function.update_self]
        exact ⟨trivial, by rw [Dict.get?_set]; simp⟩
      | 1, ih =>
        obtain ⟨h1, h2⟩ := ih
        simp only [step, hj, Pool.step, h1, Function.update_self]
        exact ⟨trivial, by rw [Dict.get?_set]; simp⟩
      | n + 2, ih =>
        obtain ⟨h1, h2⟩ := ih
        simp only [step, hj, Pool.step, h1]
        exact ⟨trivial, h2⟩
    · have hs : (step writable jobs q k).state i = q.state i ∧
          (step writable jobs q k).fs.get? j.path = q.fs.get? j.path := by
        unfold step
        split
        · exact ⟨rfl, rfl⟩
        · next j' hj' =>
          have hne : j'.path ≠ j.path := fun h => hk (hown k j' hj' h)
          unfold Pool.step
          split
          · exact ⟨rfl, rfl⟩
          · split
            · exact ⟨Function.update_of_ne (Ne.symm hk) _ _, rfl⟩
            · split_ifs
              · exact ⟨Function.update_of_ne (Ne.symm hk) _ _, by
                  dsimp only; rw [Dict.get?_set, if_neg hne]⟩
              · exact ⟨Function.update_of_ne (Ne.symm hk) _ _, rfl⟩
          · exact ⟨Function.update_of_ne (Ne.symm hk) _ _, by
              dsimp only; rw [Dict.get?_set, if_neg hne]⟩
      have hc : l.count i + [k].count i = l.count i := by simp [hk]
      rw [hc, hs.1, hs.2]
      exact ih

/-- C117. No candidate is missed: once every worker has made its two steps, and each had a free
file of its own it could write, every sample of the chosen solution with `1 < v_θ < 10` beyond
40 degrees and beyond the first of the largest velocities, whose continuation was found and
has at least five angles, is continued in a finished run. -/
theorem shock_all {e : Runners.Env ℝ} {stamp : ℕ → String} {filename range label : String}
    {fs : FS ℝ Made} {schedule : List ℕ} {pool : Pool ℝ Made}
    (h : ds_shock e stamp I str interp filename range fs schedule = .ok pool)
    {old : TheRun ℝ Made} {m : Made} (ho : fs.get? filename = some (.run old))
    (hm : old.getSolutions (some range) = .ok (.soln m))
    (hl : old.info.config_input .label = some label.toList)
    (hsteps : ∀ i, i < m.out.angles.length → 2 ≤ schedule.count i)
    (hstamp : ∀ i k, e.path "shock_tests" (label ++ (stamp i ++ ".hdf5")) =
      e.path "shock_tests" (label ++ (stamp k ++ ".hdf5")) → i = k)
    (hfree : ∀ i, fs.get? (e.path "shock_tests" (label ++ (stamp i ++ ".hdf5"))) = none ∧
      e.writable (e.path "shock_tests" (label ++ (stamp i ++ ".hdf5"))) = true)
    {θ : ℝ} {row : St} (hp : (θ, row) ∈ m.out.angles.zip m.out.solution)
    (hv : 1 < row.v_θ ∧ row.v_θ < 10) (ha : radians 40 < θ)
    (hmax : ∃ (i : ℕ) (q : ℝ × St), (m.out.angles.zip m.out.solution)[i]? = some q ∧
      (∀ x ∈ m.out.angles.zip m.out.solution, x.2.v_θ ≤ q.2.v_θ) ∧
      (∀ (k : ℕ) (x : ℝ × St), k < i → (m.out.angles.zip m.out.solution)[k]? = some x →
        x.2.v_θ < q.2.v_θ) ∧ q.1 < θ)
    {made : Made} (hc : continuation I str interp m (θ, row) = .ok made)
    (h5 : 5 ≤ made.out.angles.length) :
    ∃ p, pool.fs.get? p = some (.run
      { info := old.info, is_post_shock_only := true, based_on_filename := some filename,
        based_on_solution := some range, solutions := [("0", made)],
        final := .value (some made) }) := by
  unfold ds_shock at h
  split at h
  · cases h
  · next old' hold =>
    have := (load_eq hold).1
    rw [ho] at this
    injection this with this
    injection this with this
    subst this
    rw [hm] at h
    dsimp only at h
    split at h
    · cases h
    · next values hvalues =>
      injection h with h
      subst h
      obtain ⟨hsub, hmem⟩ := shock_candidates _ _ _ _ _ _ hvalues
      obtain ⟨i, hi⟩ := List.mem_iff_getElem?.1 ((hmem (θ, row)).2
        ⟨hp, hv.1, hv.2, ha, fun _ => hmax⟩)
      have hname : ∀ k, default_name ((old.createShockRun filename range).info.config_input
          .label) (stamp k ++ ".hdf5") = .ok (label ++ (stamp k ++ ".hdf5")) := fun k => by
        rw [show (old.createShockRun filename range).info.config_input .label =
          some label.toList from hl]
        simp [default_name]
      have hjob : job e stamp I str interp m (old.createShockRun filename range) values i =
          some ⟨e.path "shock_tests" (label ++ (stamp i ++ ".hdf5")),
            old.createShockRun filename range, addSolver made, fun _ => .none⟩ := by
        unfold job
        rw [hi]
        dsimp only
        rw [hc]
        dsimp only
        rw [if_neg (by omega), hname i]
      have hpath : ∀ k j', job e stamp I str interp m (old.createShockRun filename range)
          values k = some j' →
          j'.path = e.path "shock_tests" (label ++ (stamp k ++ ".hdf5")) := by
        intro k j' hj'
        unfold job at hj'
        split at hj'
        · cases hj'
        · split at hj'
          · cases hj'
          · split_ifs at hj'
            rw [hname k] at hj'
            injection hj' with hj'
            rw [← hj']
      have hprog := pool_progress (fs := fs) hjob
        (fun k j' hj' he => hstamp k i (by rw [← hpath k j' hj', he]))
        (hfree i).1 (hfree i).2 schedule
      have hcount := hsteps i (by
        have h1 : i < values.length := (List.getElem?_eq_some_iff.1 hi).1
        have h2 := hsub.length_le
        simp only [List.length_zip] at h2
        omega)
      obtain ⟨n, hn⟩ := Nat.exists_eq_add_of_le' hcount
      rw [hn] at hprog
      exact ⟨_, by rw [hprog.2, finish_eq]⟩

end DiscSolver.ShockFiles
