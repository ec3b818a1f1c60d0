import Verif.Model.Runners
import Verif.Lemmas.Dict
import Verif.Props.Containers

/-!
# C54: solving writes one new file and never overwrites
-/

namespace DiscSolver

namespace Runners

variable {F σ : Type}

/-! ## `write_run` -/

theorem write_run_other (e : Env F) (solver : Option (Solver F σ)) (inp : SolutionInput F)
    (run : TheRun F σ) (path : String) (fs : FS F σ) (p : String) (hp : p ≠ path) :
    (write_run e solver inp run path fs).2.get? p = fs.get? p := by
  unfold write_run
  split
  · rfl
  · split_ifs
    · split
      · exact Dict.get?_set_ne _ _ (Ne.symm hp)
      · split
        · exact Dict.get?_set_ne _ _ (Ne.symm hp)
        · split <;> exact Dict.get?_set_ne _ _ (Ne.symm hp)
    · rfl

theorem write_run_existing (e : Env F) (solver : Option (Solver F σ))
    (inp : SolutionInput F) (run : TheRun F σ) (path : String) (fs : FS F σ)
    (c : File F σ) (h : fs.get? path = some c) :
    write_run e solver inp run path fs = (.error .FileExistsError, fs) := by
  simp [write_run, h]

theorem write_run_keeps (e : Env F) (solver : Option (Solver F σ)) (inp : SolutionInput F)
    (run : TheRun F σ) (path : String) (fs : FS F σ) (p : String) (c : File F σ)
    (h : fs.get? p = some c) : (write_run e solver inp run path fs).2.get? p = some c := by
  by_cases hp : p = path
  · subst hp
    rw [write_run_existing e solver inp run p fs c h, h]
  · rw [write_run_other e solver inp run path fs p hp, h]

theorem write_run_unknown (e : Env F) (inp : SolutionInput F) (run : TheRun F σ)
    (path : String) (fs : FS F σ) (h : fs.get? path = none)
    (hw : e.writable path = true) :
    write_run e none inp run path fs = (.error .SolverError, fs.set path (.run run)) := by
  simp [write_run, h, hw]

theorem write_run_ok (e : Env F) (solver : Option (Solver F σ)) (inp : SolutionInput F)
    (run : TheRun F σ) (path : String) (fs : FS F σ) (b : Bool) (fs' : FS F σ)
    (h : write_run e solver inp run path fs = (.ok b, fs')) :
    fs.get? path = none ∧ ∃ s r r', solver = some s ∧ s inp run = (.ok b, r) ∧
      r.finalise = .ok r' ∧ fs'.get? path = some (.run r') := by
  unfold write_run at h
  cases hg : fs.get? path with
  | some c => simp [hg] at h
  | none =>
    refine ⟨rfl, ?_⟩
    simp only [hg] at h
    split_ifs at h
    · cases solver with
      | none => simp at h
      | some s =>
        simp only at h
        rcases hs : s inp run with ⟨x, r⟩
        rw [hs] at h
        cases x with
        | error x => simp at h
        | ok b' =>
          simp only at h
          cases hf : r.finalise with
          | error x => simp [hf] at h
          | ok r' =>
            simp only [hf, Prod.mk.injEq, Except.ok.injEq] at h
            obtain ⟨rfl, rfl⟩ := h
            exact ⟨s, r, r', rfl, hs, hf, Dict.get?_set_self _ _ _⟩
    · simp at h

/-- What finalising guarantees: the final solution is settled, and if the solver did not
settle it, it is the stored solution with the largest number. -/
theorem finalise_settled {μ : Type} (r r' : Run μ σ) (h : r.finalise = .ok r') :
    r'.solutions = r.solutions ∧
    (∀ v, r.final = .value v → r'.final = .value v) ∧
    (r.final = .delayed → ∃ s k n, r'.final = .value (some s) ∧
      Dict.get? r.solutions k = some s ∧ k.toInt? = some n ∧
      ∀ k' ∈ Dict.keys r.solutions, ∃ m, k'.toInt? = some m ∧ m ≤ n) := by
  cases hf : r.final with
  | value v =>
    rw [finalise_set r v hf] at h
    injection h with h
    subst h
    exact ⟨rfl, fun w hw => by rw [hf]; exact hw, fun h => by cases h⟩
  | delayed =>
    rw [finalise_unset r hf] at h
    cases hl : r.solutions.getLast with
    | error e => simp [hl, Except.map] at h
    | ok s =>
      simp only [hl, Except.map, Except.ok.injEq] at h
      subst h
      obtain ⟨k, n, h1, h2, h3⟩ := get_last_largest r.solutions s hl
      exact ⟨rfl, fun v hv => (by cases hv), fun _ => ⟨s, k, n, rfl, h1, h2, h3⟩⟩

/-! ## `solve` and `resolve` -/

/-- How `solve` ends: before touching the files, or with `write_run` on the path of the
output for the run of the configuration it read. -/
theorem solve_cases (e : Env F) (impl : String → Solver F σ) (a : SolveArgs)
    (config : Option Text) (fs : FS F σ) :
    (∃ x, solve e impl a config fs = (.error x, fs)) ∨
    ∃ c s name, get_input_from_conffile config a.overrides = .ok c ∧
      c.to_soln_input e.conv = .ok s ∧
      output_name a.output_file (c .label) (e.now ++ ".hdf5") = .ok name ∧
      solve e impl a config fs = with_path (e.path a.output_dir name)
        (write_run e (getMethod impl a.sonic_method) s
          { info := ⟨c, some a.config_file, a.sonic_method, s .use_E_r⟩ }
          (e.path a.output_dir name) fs) := by
  unfold solve
  cases hc : get_input_from_conffile config a.overrides with
  | error x => exact Or.inl ⟨x, rfl⟩
  | ok c =>
    simp only
    cases hs : c.to_soln_input e.conv with
    | error x => exact Or.inl ⟨x, rfl⟩
    | ok s =>
      simp only
      cases hn : output_name a.output_file (c .label) (e.now ++ ".hdf5") with
      | error x => exact Or.inl ⟨x, rfl⟩
      | ok name => exact Or.inr ⟨c, s, name, rfl, hs, hn, rfl⟩

theorem with_path_fs (path : String) (x : Except PyErr Bool × FS F σ) :
    (with_path path x).2 = x.2 := by
  rcases x with ⟨_ | _, _⟩ <;> rfl

/-- C54. `solve` leaves every file that existed before as it was, whatever happens. -/
theorem solve_never_overwrites (e : Env F) (impl : String → Solver F σ) (a : SolveArgs)
    (config : Option Text) (fs : FS F σ) (p : String) (c : File F σ)
    (h : fs.get? p = some c) : (solve e impl a config fs).2.get? p = some c := by
  rcases solve_cases e impl a config fs with ⟨x, hx⟩ | ⟨_, _, _, _, _, _, hx⟩
  · rw [hx, h]
  · rw [hx, with_path_fs]
    exact write_run_keeps _ _ _ _ _ _ _ _ h

/-- C54. At most one path is different afterwards. -/
theorem solve_one_file (e : Env F) (impl : String → Solver F σ) (a : SolveArgs)
    (config : Option Text) (fs : FS F σ) :
    ∃ path, ∀ p, p ≠ path → (solve e impl a config fs).2.get? p = fs.get? p := by
  rcases solve_cases e impl a config fs with ⟨x, hx⟩ | ⟨_, _, name, _, _, _, hx⟩
  · exact ⟨"", fun p _ => by rw [hx]⟩
  · refine ⟨e.path a.output_dir name, fun p hp => ?_⟩
    rw [hx, with_path_fs]
    exact write_run_other _ _ _ _ _ _ _ hp

/-- C54. A chosen output that exists makes `solve` raise and change nothing. -/
theorem solve_existing_output (e : Env F) (impl : String → Solver F σ) (a : SolveArgs)
    (config : Option Text) (fs : FS F σ) (f : String) (c : File F σ)
    (hf : a.output_file = some f) (h : fs.get? (e.path a.output_dir f) = some c) :
    ∃ x, solve e impl a config fs = (.error x, fs) := by
  rcases solve_cases e impl a config fs with ⟨x, hx⟩ | ⟨c', s, name, _, _, hn, hx⟩
  · exact ⟨x, hx⟩
  · simp only [output_name, hf, Except.ok.injEq] at hn
    subst hn
    refine ⟨.FileExistsError, ?_⟩
    rw [hx, write_run_existing _ _ _ _ _ _ _ h]
    rfl

/-- C54. On return the named file is new and holds the run that the method left, for the
configuration that was read, with the final solution settled. -/
theorem solve_ok (e : Env F) (impl : String → Solver F σ) (a : SolveArgs)
    (config : Option Text) (fs fs' : FS F σ) (p : String) (b : Bool)
    (h : solve e impl a config fs = (.ok (p, b), fs')) :
    fs.get? p = none ∧ (∀ q, q ≠ p → fs'.get? q = fs.get? q) ∧
    ∃ c s r r', get_input_from_conffile config a.overrides = .ok c ∧
      c.to_soln_input e.conv = .ok s ∧ a.sonic_method ∈ methodNames ∧
      impl a.sonic_method s
        { info := ⟨c, some a.config_file, a.sonic_method, s .use_E_r⟩ } = (.ok b, r) ∧
      fs'.get? p = some (.run r') ∧ r'.solutions = r.solutions ∧
      (∀ v, r.final = .value v → r'.final = .value v) ∧
      (r.final = .delayed → ∃ s k n, r'.final = .value (some s) ∧
        Dict.get? r.solutions k = some s ∧ k.toInt? = some n ∧
        ∀ k' ∈ Dict.keys r.solutions, ∃ m, k'.toInt? = some m ∧ m ≤ n) ∧
      r.finalise = .ok r' := by
  rcases solve_cases e impl a config fs with ⟨x, hx⟩ | ⟨c, s, name, hc, hs, hn, hx⟩
  · rw [hx] at h
    simp at h
  · rw [hx] at h
    have hother := fun q hq => write_run_other e (getMethod impl a.sonic_method) s
      { info := ⟨c, some a.config_file, a.sonic_method, s .use_E_r⟩ }
      (e.path a.output_dir name) fs q hq
    rcases hw : write_run e (getMethod impl a.sonic_method) s
      { info := ⟨c, some a.config_file, a.sonic_method, s .use_E_r⟩ }
      (e.path a.output_dir name) fs with ⟨x, fs2⟩
    rw [hw] at h hother
    cases x with
    | error x => simp [with_path] at h
    | ok b' =>
      simp only [with_path, Prod.mk.injEq, Except.ok.injEq] at h
      obtain ⟨⟨rfl, rfl⟩, rfl⟩ := h
      obtain ⟨h1, sv, r, r', h2, h3, h4, h5⟩ := write_run_ok _ _ _ _ _ _ _ _ hw
      obtain ⟨k1, k2, k3⟩ := finalise_settled r r' h4
      unfold getMethod at h2
      split_ifs at h2 with hm
      injection h2 with h2
      subst h2
      exact ⟨h1, hother, c, s, r, r', hc, hs, hm, h3, h5, k1, k2, k3, h4⟩

/-- The methods there are. -/
def IsMethod (m : String) : Prop :=
  m = "step" ∨ m = "single" ∨ m = "mcmc" ∨ m = "sonic_root" ∨ m = "hydrostatic" ∨
    m = "mod_hydro" ∨ m = "fast_crosser"

theorem isMethod_iff (m : String) : m ∈ methodNames ↔ IsMethod m := by
  simp [methodNames, IsMethod]

/-- C54. A known method is run: if the configuration is readable and the output is free,
`solve` ends as the method does, and the file holds what it left, finalised if it
returned. -/
theorem solve_known_method (e : Env F) (impl : String → Solver F σ) (a : SolveArgs)
    (config : Option Text) (fs : FS F σ) (hm : IsMethod a.sonic_method) (c : ConfigInput)
    (s : SolutionInput F) (name : String)
    (hc : get_input_from_conffile config a.overrides = .ok c)
    (hs : c.to_soln_input e.conv = .ok s)
    (hn : output_name a.output_file (c .label) (e.now ++ ".hdf5") = .ok name)
    (hf : fs.get? (e.path a.output_dir name) = none)
    (hw : e.writable (e.path a.output_dir name) = true) :
    (∀ x r, impl a.sonic_method s
        { info := ⟨c, some a.config_file, a.sonic_method, s .use_E_r⟩ } = (.error x, r) →
      (solve e impl a config fs).1 = .error x ∧
      (solve e impl a config fs).2.get? (e.path a.output_dir name) = some (.run r)) ∧
    ∀ b r, impl a.sonic_method s
        { info := ⟨c, some a.config_file, a.sonic_method, s .use_E_r⟩ } = (.ok b, r) →
      (∀ x, r.finalise = .error x → (solve e impl a config fs).1 = .error x ∧
        (solve e impl a config fs).2.get? (e.path a.output_dir name) = some (.run r)) ∧
      ∀ r', r.finalise = .ok r' →
        (solve e impl a config fs).1 = .ok (e.path a.output_dir name, b) ∧
        (solve e impl a config fs).2.get? (e.path a.output_dir name) = some (.run r') := by
  have hg : getMethod impl a.sonic_method = some (impl a.sonic_method) := by
    simp [getMethod, (isMethod_iff _).2 hm]
  have key : solve e impl a config fs = with_path (e.path a.output_dir name)
      (write_run e (some (impl a.sonic_method)) s
        { info := ⟨c, some a.config_file, a.sonic_method, s .use_E_r⟩ }
        (e.path a.output_dir name) fs) := by
    simp only [solve, hc, hs, hn, hg]
  rw [key]
  refine ⟨fun x r h => ?_, fun b r h => ⟨fun x hx => ?_, fun r' hr => ?_⟩⟩
  · simp only [write_run, hf, hw, if_true, h, with_path]
    exact ⟨trivial, Dict.get?_set_self _ _ _⟩
  · simp only [write_run, hf, hw, if_true, h, hx, with_path]
    exact ⟨trivial, Dict.get?_set_self _ _ _⟩
  · simp only [write_run, hf, hw, if_true, h, hr, with_path]
    exact ⟨trivial, Dict.get?_set_self _ _ _⟩

/-- C54. An unknown method always raises.  If the configuration is readable and the
output is free the exception is `SolverError` and the file is left behind with a run
that has no solutions. -/
theorem solve_unknown_method (e : Env F) (impl : String → Solver F σ) (a : SolveArgs)
    (config : Option Text) (fs : FS F σ) (hm : ¬ IsMethod a.sonic_method) :
    (∃ x, (solve e impl a config fs).1 = .error x) ∧
    ∀ c s name, get_input_from_conffile config a.overrides = .ok c →
      c.to_soln_input e.conv = .ok s →
      output_name a.output_file (c .label) (e.now ++ ".hdf5") = .ok name →
      fs.get? (e.path a.output_dir name) = none →
      e.writable (e.path a.output_dir name) = true →
      (solve e impl a config fs).1 = .error .SolverError ∧
      ∃ r, (solve e impl a config fs).2.get? (e.path a.output_dir name) = some (.run r) ∧
        r.solutions = [] := by
  rw [← isMethod_iff] at hm
  have hg : getMethod impl a.sonic_method = none := by simp [getMethod, hm]
  constructor
  · rcases h : solve e impl a config fs with ⟨_ | ⟨p, b⟩, fs'⟩
    · exact ⟨_, rfl⟩
    · obtain ⟨-, -, _, _, _, _, -, -, hm', -⟩ := solve_ok e impl a config fs fs' p b h
      exact absurd hm' hm
  · intro c s name hc hs hn hf hw
    have : solve e impl a config fs = (.error .SolverError,
        fs.set (e.path a.output_dir name)
          (.run { info := ⟨c, some a.config_file, a.sonic_method, s .use_E_r⟩ })) := by
      simp only [solve, hc, hs, hn, hg, write_run_unknown e s _ _ fs hf hw, with_path]
    rw [this]
    exact ⟨rfl, _, Dict.get?_set_self _ _ _, rfl⟩

/-- A run that was finished can be loaded. -/
theorem load_finished {fs : FS F σ} {path : String} {r : TheRun F σ}
    (h : fs.get? path = some (.run r)) (hf : r.final ≠ .delayed) :
    load_run fs path = .ok r := by
  unfold load_run
  rw [h]
  cases hr : r.final with
  | delayed => exact absurd hr hf
  | value v => simp only [hr]

/-- A run that was not cannot. -/
theorem load_unfinished {fs : FS F σ} {path : String} {r : TheRun F σ}
    (h : fs.get? path = some (.run r)) (hf : r.final = .delayed) :
    load_run fs path = .error .KeyError := by
  unfold load_run
  rw [h]
  simp only [hf]

/-- A run that ended before it had a final solution cannot be solved again, whichever of its
solutions is asked for: `KeyError`, and nothing is written. -/
theorem resolve_unfinished (e : Env F) (input : σ → SolutionInput F)
    (impl : String → Solver F σ) (a : ResolveArgs) (fs : FS F σ) (r : TheRun F σ)
    (h : fs.get? a.soln_filename = some (.run r)) (hf : r.final = .delayed) :
    resolve e input impl a fs = (.error .KeyError, fs) := by
  unfold resolve
  rw [load_unfinished h hf]

/-- How `resolve` ends. -/
theorem resolve_cases (e : Env F) (input : σ → SolutionInput F)
    (impl : String → Solver F σ) (a : ResolveArgs) (fs : FS F σ) :
    (∃ x, resolve e input impl a fs = (.error x, fs)) ∨
    ∃ old f sol c s name, fs.get? a.soln_filename = some (.run old) ∧
      old.getSolutions a.soln_range = .ok f ∧ f = .soln sol ∧
      new_inputs_with_overrides e.conv old.info.config_input (input sol) a.overrides =
        .ok (c, s) ∧
      output_name a.output_file (old.info.config_input .label) (e.now ++ ".hdf5") =
        .ok name ∧
      resolve e input impl a fs = with_path (e.path a.output_dir name)
        (write_run e (getMethod impl a.sonic_method) s
          { info := ⟨c, old.info.config_filename, a.sonic_method, s .use_E_r⟩
            based_on_filename := some a.soln_filename
            based_on_solution := a.soln_range }
          (e.path a.output_dir name) fs) := by
  unfold resolve
  cases hl : load_run fs a.soln_filename with
  | error x => exact Or.inl ⟨x, rfl⟩
  | ok old =>
    have hfile : fs.get? a.soln_filename = some (.run old) := by
      unfold load_run at hl
      split at hl
      · cases hl
      · cases hl
      · rename_i r hr
        split at hl
        · cases hl
        · injection hl with hl
          rw [hr, hl]
    simp only
    cases hg : old.getSolutions a.soln_range with
    | error x => exact Or.inl ⟨x, rfl⟩
    | ok f =>
      simp only [Except.bind]
      cases f with
      | none => exact Or.inl ⟨_, rfl⟩
      | placeholder => exact Or.inl ⟨_, rfl⟩
      | soln sol =>
        simp only [found_input]
        cases hn : new_inputs_with_overrides e.conv old.info.config_input (input sol)
            a.overrides with
        | error x => exact Or.inl ⟨x, rfl⟩
        | ok cs =>
          obtain ⟨c, s⟩ := cs
          simp only
          cases ho : output_name a.output_file (old.info.config_input .label)
              (e.now ++ ".hdf5") with
          | error x => exact Or.inl ⟨x, rfl⟩
          | ok name =>
            exact Or.inr ⟨old, _, sol, c, s, name, hfile, hg, rfl, hn, ho, rfl⟩

/-- C54. `resolve` leaves every file that existed before as it was, the one it reads
included, whatever happens. -/
theorem resolve_never_overwrites (e : Env F) (input : σ → SolutionInput F)
    (impl : String → Solver F σ) (a : ResolveArgs) (fs : FS F σ) (p : String)
    (c : File F σ) (h : fs.get? p = some c) :
    (resolve e input impl a fs).2.get? p = some c := by
  rcases resolve_cases e input impl a fs with ⟨x, hx⟩ | ⟨_, _, _, _, _, _, _, _, _, _, _, hx⟩
  · rw [hx, h]
  · rw [hx, with_path_fs]
    exact write_run_keeps _ _ _ _ _ _ _ _ h

/-- C54. On return `resolve` has read a stored solution, and the named file is new and
holds the run that the method left for the new inputs, with the final solution settled
and a note of what it is based on in the run given to the method. -/
theorem resolve_ok (e : Env F) (input : σ → SolutionInput F)
    (impl : String → Solver F σ) (a : ResolveArgs) (fs fs' : FS F σ) (p : String)
    (b : Bool) (h : resolve e input impl a fs = (.ok (p, b), fs')) :
    fs.get? p = none ∧ (∀ q, q ≠ p → fs'.get? q = fs.get? q) ∧
    ∃ old sol c s r r', fs.get? a.soln_filename = some (.run old) ∧
      old.getSolutions a.soln_range = .ok (.soln sol) ∧
      new_inputs_with_overrides e.conv old.info.config_input (input sol) a.overrides =
        .ok (c, s) ∧ a.sonic_method ∈ methodNames ∧
      impl a.sonic_method s
        { info := ⟨c, old.info.config_filename, a.sonic_method, s .use_E_r⟩
          based_on_filename := some a.soln_filename
          based_on_solution := a.soln_range } = (.ok b, r) ∧
      fs'.get? p = some (.run r') ∧ r'.solutions = r.solutions ∧
      (∀ v, r.final = .value v → r'.final = .value v) ∧
      (r.final = .delayed → ∃ s k n, r'.final = .value (some s) ∧
        Dict.get? r.solutions k = some s ∧ k.toInt? = some n ∧
        ∀ k' ∈ Dict.keys r.solutions, ∃ m, k'.toInt? = some m ∧ m ≤ n) ∧ r.finalise = .ok r' := by
  rcases resolve_cases e input impl a fs with
    ⟨x, hx⟩ | ⟨old, f, sol, c, s, name, hl, hg, rfl, hc, hn, hx⟩
  · rw [hx] at h
    simp at h
  · rw [hx] at h
    have hother := fun q hq => write_run_other e (getMethod impl a.sonic_method) s
      { info := ⟨c, old.info.config_filename, a.sonic_method, s .use_E_r⟩
        based_on_filename := some a.soln_filename
        based_on_solution := a.soln_range }
      (e.path a.output_dir name) fs q hq
    rcases hw : write_run e (getMethod impl a.sonic_method) s
      { info := ⟨c, old.info.config_filename, a.sonic_method, s .use_E_r⟩
        based_on_filename := some a.soln_filename
        based_on_solution := a.soln_range }
      (e.path a.output_dir name) fs with ⟨x, fs2⟩
    rw [hw] at h hother
    cases x with
    | error x => simp [with_path] at h
    | ok b' =>
      simp only [with_path, Prod.mk.injEq, Except.ok.injEq] at h
      obtain ⟨⟨rfl, rfl⟩, rfl⟩ := h
      obtain ⟨h1, sv, r, r', h2, h3, h4, h5⟩ := write_run_ok _ _ _ _ _ _ _ _ hw
      obtain ⟨k1, k2, k3⟩ := finalise_settled r r' h4
      unfold getMethod at h2
      split_ifs at h2 with hm
      injection h2 with h2
      subst h2
      exact ⟨h1, hother, old, sol, c, s, r, r', hl, hg, hc, hm, h3, h5, k1, k2, k3, h4⟩

/-! ## The `single` method -/

/-- C54. With the method `single` the run returned holds exactly the solution computed,
as number 0, and it is the final solution once finalised; without final solution it
is left unset for `finalise`, to the same effect. -/
theorem single_stores_one (solution : SolutionInput F → Except PyErr σ) (nf : Bool)
    (inp : SolutionInput F) (info : RunInfo F) (s : σ) (hs : solution inp = .ok s) :
    ∃ r r', single_solver solution nf inp { info := info } = (.ok true, r) ∧
      r.finalise = .ok r' ∧ Dict.keys r'.solutions = ["0"] ∧
      Dict.get? r'.solutions "0" = some s ∧ r'.final = .value (some s) := by
  have h00 : Nat.repr 0 = "0" := by decide
  have ha : Solutions.add ([] : Solutions σ) s = .ok ("0", numbered [s]) := by
    have := add_numbered ([] : List σ) s
    simpa [numbered, h00] using this
  have hl : (numbered [s]).getLast = .ok s := get_last_most_recent [] s
  have h0 : Dict.keys (numbered [s]) = ["0"] := by
    rw [numbered_keys]
    simp [h00]
  have h1 : Dict.get? (numbered [s]) "0" = some s := by
    have := numbered_get [s] 0
    rwa [h00] at this
  have hadd : Run.addSolution ({ info := info } : TheRun F σ) s =
      .ok ("0", { info := info, solutions := numbered [s] }) := by
    simp only [Run.addSolution, ha]
    rfl
  cases nf with
  | true =>
    refine ⟨{ info := info, solutions := numbered [s] },
      { info := info, solutions := numbered [s], final := .value (some s) }, ?_, ?_, h0, h1,
      rfl⟩
    · simp [single_solver, hs, hadd]
    · rw [finalise_unset _ rfl]
      simp [hl, Except.map]
  | false =>
    refine ⟨{ info := info, solutions := numbered [s], final := .value (some s) },
      { info := info, solutions := numbered [s], final := .value (some s) }, ?_, ?_, h0, h1,
      rfl⟩
    · simp [single_solver, hs, hadd, hl, Run.setFinal]
    · exact finalise_set _ _ rfl

example := single_stores_one (F := Unit) (σ := Unit) (fun _ => .ok ()) false
  (fun _ => .none) ⟨fun _ => none, none, "single", .none⟩ () rfl

/-! ## Concrete cases -/

/-- Conversions that accept everything. -/
def okConv : Conv Unit where
  str_to_float _ := some ()
  str_to_int _ := some 1
  str_to_bool _ := .ok true
  float_type _ := .ok ()
  float_str _ := []
  eval_slice _ := .ok none
  float_eq _ _ := true

/-- Names are paths, and `c.hdf5` cannot be written. -/
def witEnv : Env Unit where
  conv := okConv
  now := "now"
  path _ f := f
  writable p := decide (p ≠ "c.hdf5")

/-- A method that stores one solution and makes it the final one. -/
def witImpl : String → Solver Unit Unit := fun _ _ r =>
  (.ok true, { r with solutions := [("0", ())], final := .value (some ()) })

/-- A file system with a file. -/
def witFs : FS Unit Unit := [("a.hdf5", .other "data".toList)]

/-- `solve` writing to `b.hdf5`. -/
def witArgs (f m : String) : SolveArgs := ⟨some f, m, "default.conf", ".", none⟩

theorem wit_solve : ∃ fs', solve witEnv witImpl (witArgs "b.hdf5" "step") none witFs =
    (.ok ("b.hdf5", true), fs') := ⟨_, rfl⟩

example := solve_one_file witEnv witImpl (witArgs "b.hdf5" "step") none witFs

example := solve_ok _ _ _ _ _ _ _ _ wit_solve.choose_spec

example := solve_never_overwrites witEnv witImpl (witArgs "b.hdf5" "step") none witFs
  "a.hdf5" _ rfl

example := solve_existing_output witEnv witImpl (witArgs "a.hdf5" "step") none witFs
  "a.hdf5" _ rfl rfl

/-- The configuration of the witnesses. -/
theorem wit_config : ∃ c s, get_input_from_conffile none none = .ok c ∧
    c.to_soln_input okConv = .ok s := ⟨_, _, rfl, rfl⟩

example := (solve_known_method witEnv witImpl (witArgs "b.hdf5" "mod_hydro") none witFs
  (by simp [IsMethod, witArgs]) _ _ "b.hdf5" wit_config.choose_spec.choose_spec.1
  wit_config.choose_spec.choose_spec.2 rfl rfl rfl).2 true _ rfl |>.2 _ rfl

example := (solve_unknown_method witEnv witImpl (witArgs "b.hdf5" "magic") none witFs
  (by simp [IsMethod, witArgs])).2 _ _ "b.hdf5" wit_config.choose_spec.choose_spec.1
  wit_config.choose_spec.choose_spec.2 rfl rfl rfl

/-- A stored run. -/
def witRun : TheRun Unit Unit :=
  { info := ⟨fun _ => some "1".toList, none, "step", .none⟩
    solutions := [("0", ())]
    final := .value (some ()) }

theorem wit_resolve : ∃ fs', resolve witEnv (fun _ _ => .none) witImpl
    ⟨some "b.hdf5", "step", "a.hdf5", some "final", ".", none⟩ [("a.hdf5", .run witRun)] =
    (.ok ("b.hdf5", true), fs') := ⟨_, rfl⟩

example := resolve_never_overwrites witEnv (fun _ : Unit => fun _ => .none) witImpl
  ⟨some "b.hdf5", "step", "a.hdf5", some "final", ".", none⟩ [("a.hdf5", .run witRun)]
  "a.hdf5" _ rfl

example := resolve_ok _ _ _ _ _ _ _ _ wit_resolve.choose_spec

/-! ## `hdf5runner` -/

/-- A job is kept out of a path that is taken. -/
def KeptOut (p : Pool F σ) (i : ℕ) : Prop :=
  p.state i = .waiting ∨ p.state i = .ended (.error .FileExistsError)

/-- A job owns its path: it is working on it, or has left its result there. -/
def Owns (jobs : ℕ → Job F σ) (p : Pool F σ) (i : ℕ) : Prop :=
  (p.state i = .working ∧ p.fs.get? (jobs i).path = some (.run (jobs i).run)) ∨
  (p.state i = .ended (jobs i).finish.2 ∧
    p.fs.get? (jobs i).path = some (.run (jobs i).finish.1))

/-- The possible states of a path. -/
inductive PathState (jobs : ℕ → Job F σ) (fs0 : FS F σ) (writable : String → Bool)
    (p : Pool F σ) (path : String) : Prop
  /-- a file that was there before -/
  | old (c : File F σ) : fs0.get? path = some c → p.fs.get? path = some c →
      (∀ i, (jobs i).path = path → KeptOut p i) → PathState jobs fs0 writable p path
  /-- no file -/
  | free : fs0.get? path = none → p.fs.get? path = none →
      (∀ i, (jobs i).path = path → p.state i = .waiting ∨
        (writable path = false ∧ p.state i = .ended (.error .OSError))) →
      PathState jobs fs0 writable p path
  /-- the file of exactly one job -/
  | owned (i : ℕ) : fs0.get? path = none → (jobs i).path = path → Owns jobs p i →
      (∀ j, j ≠ i → (jobs j).path = path → KeptOut p j) →
      PathState jobs fs0 writable p path

theorem pathState_step (jobs : ℕ → Job F σ) (fs0 : FS F σ) (writable : String → Bool)
    (p : Pool F σ) (path : String) (h : PathState jobs fs0 writable p path) (k : ℕ) :
    PathState jobs fs0 writable (p.step writable jobs k) path := by
  by_cases hk : (jobs k).path = path
  · -- a job of this path
    cases h with
    | old c h1 h2 h3 =>
      rcases h3 k hk with hs | hs
      · have e : p.step writable jobs k = { p with
            state := Function.update p.state k (.ended (.error .FileExistsError)) } := by
          simp [Pool.step, hs, hk, h2]
        rw [e]
        refine .old c h1 h2 fun i hi => ?_
        by_cases hik : i = k
        · subst hik; exact Or.inr (by simp)
        · rcases h3 i hi with h | h
          · exact Or.inl (by simpa [hik] using h)
          · exact Or.inr (by simpa [hik] using h)
      · have e : p.step writable jobs k = p := by simp [Pool.step, hs]
        rw [e]
        exact .old c h1 h2 h3
    | free h1 h2 h3 =>
      rcases h3 k hk with hs | ⟨hw, hs⟩
      · by_cases hw : writable path = true
        · have e : p.step writable jobs k =
              { fs := p.fs.set (jobs k).path (.run (jobs k).run)
                state := Function.update p.state k .working } := by
            simp [Pool.step, hs, hk, h2, hw]
          rw [e]
          refine .owned k h1 hk (Or.inl ⟨by simp, Dict.get?_set_self _ _ _⟩) ?_
          intro j hj hp
          rcases h3 j hp with h | ⟨h, -⟩
          · exact Or.inl (by simpa [hj] using h)
          · rw [hw] at h; cases h
        · have e : p.step writable jobs k = { p with
              state := Function.update p.state k (.ended (.error .OSError)) } := by
            simp [Pool.step, hs, hk, h2, hw]
          rw [e]
          refine .free h1 h2 fun i hi => ?_
          by_cases hik : i = k
          · subst hik; exact Or.inr ⟨by simpa using hw, by simp⟩
          · rcases h3 i hi with h | ⟨h, h'⟩
            · exact Or.inl (by simpa [hik] using h)
            · exact Or.inr ⟨h, by simpa [hik] using h'⟩
      · have e : p.step writable jobs k = p := by simp [Pool.step, hs]
        rw [e]
        exact .free h1 h2 h3
    | owned i h1 h2 h3 h4 =>
      by_cases hik : i = k
      · subst hik
        rcases h3 with ⟨hs, hf⟩ | ⟨hs, hf⟩
        · have e : p.step writable jobs i =
              { fs := p.fs.set (jobs i).path (.run (jobs i).finish.1)
                state := Function.update p.state i (.ended (jobs i).finish.2) } := by
            simp [Pool.step, hs]
          rw [e]
          refine .owned i h1 h2 (Or.inr ⟨by simp, Dict.get?_set_self _ _ _⟩) ?_
          intro j hj hp
          rcases h4 j hj hp with h | h
          · exact Or.inl (by simpa [hj] using h)
          · exact Or.inr (by simpa [hj] using h)
        · have e : p.step writable jobs i = p := by simp [Pool.step, hs]
          rw [e]
          exact .owned i h1 h2 (Or.inr ⟨hs, hf⟩) h4
      · have hfs : ∃ c, p.fs.get? path = some c := by
          rw [← h2]
          rcases h3 with ⟨-, h⟩ | ⟨-, h⟩ <;> exact ⟨_, h⟩
        obtain ⟨c, hfs⟩ := hfs
        rcases h4 k (Ne.symm hik) hk with hs | hs
        · have e : p.step writable jobs k = { p with
              state := Function.update p.state k (.ended (.error .FileExistsError)) } := by
            simp [Pool.step, hs, hk, hfs]
          rw [e]
          refine .owned i h1 h2 ?_ ?_
          · rcases h3 with ⟨a, b⟩ | ⟨a, b⟩
            · exact Or.inl ⟨by simpa [hik] using a, b⟩
            · exact Or.inr ⟨by simpa [hik] using a, b⟩
          · intro j hj hp
            by_cases hjk : j = k
            · subst hjk; exact Or.inr (by simp)
            · rcases h4 j hj hp with h | h
              · exact Or.inl (by simpa [hjk] using h)
              · exact Or.inr (by simpa [hjk] using h)
        · have e : p.step writable jobs k = p := by simp [Pool.step, hs]
          rw [e]
          exact .owned i h1 h2 h3 h4
  · -- a job of another path
    have hfs : (p.step writable jobs k).fs.get? path = p.fs.get? path := by
      unfold Pool.step
      split
      · rfl
      · split
        · rfl
        · split_ifs
          · exact Dict.get?_set_ne _ _ hk
          · rfl
      · exact Dict.get?_set_ne _ _ hk
    have hst : ∀ i, (jobs i).path = path →
        (p.step writable jobs k).state i = p.state i := by
      intro i hi
      have hik : i ≠ k := fun e => hk (e ▸ hi)
      unfold Pool.step
      split
      · rfl
      · split
        · simp [hik]
        · split_ifs <;> simp [hik]
      · simp [hik]
    have hko : ∀ i, (jobs i).path = path → KeptOut p i →
        KeptOut (p.step writable jobs k) i := by
      intro i hi h
      unfold KeptOut at h ⊢
      rw [hst i hi]
      exact h
    cases h with
    | old c h1 h2 h3 =>
      exact .old c h1 (by rw [hfs, h2]) fun i hi => hko i hi (h3 i hi)
    | free h1 h2 h3 =>
      exact .free h1 (by rw [hfs, h2]) fun i hi => by rw [hst i hi]; exact h3 i hi
    | owned i h1 h2 h3 h4 =>
      refine .owned i h1 h2 ?_ fun j hj hp => hko j hp (h4 j hj hp)
      unfold Owns at h3 ⊢
      rw [hst i h2, h2, hfs]
      rw [h2] at h3
      exact h3

/-- The pool after the jobs took steps in some order. -/
def afterSteps (writable : String → Bool) (jobs : ℕ → Job F σ) (fs0 : FS F σ)
    (schedule : List ℕ) : Pool F σ :=
  schedule.foldl (Pool.step writable jobs) { fs := fs0 }

/-- C54. Whatever the interleaving of the jobs of `hdf5runner`, and at every moment of
it: files that existed before are as they were; a new file belongs to exactly one job,
and every other job with the same path is stopped by `FileExistsError`. -/
theorem hdf5_exclusive (writable : String → Bool) (jobs : ℕ → Job F σ) (fs0 : FS F σ)
    (schedule : List ℕ) (path : String) :
    PathState jobs fs0 writable (afterSteps writable jobs fs0 schedule) path := by
  unfold afterSteps
  have key : ∀ (p : Pool F σ), PathState jobs fs0 writable p path →
      PathState jobs fs0 writable (schedule.foldl (Pool.step writable jobs) p) path := by
    induction schedule with
    | nil => intro p h; exact h
    | cons k ks ih => intro p h; exact ih _ (pathState_step jobs fs0 writable p path h k)
  apply key
  cases h : fs0.get? path with
  | some c => exact .old c h h fun i _ => Or.inl rfl
  | none => exact .free h h fun i _ => Or.inl rfl

/-- C54. `hdf5runner` never overwrites. -/
theorem hdf5_never_overwrites (writable : String → Bool) (jobs : ℕ → Job F σ)
    (fs0 : FS F σ) (schedule : List ℕ) (path : String) (c : File F σ)
    (h : fs0.get? path = some c) :
    (afterSteps writable jobs fs0 schedule).fs.get? path = some c := by
  cases hdf5_exclusive writable jobs fs0 schedule path with
  | old c' h1 h2 _ => rw [h2, ← h1, h]
  | free h1 _ _ => rw [h] at h1; cases h1
  | owned i h1 _ _ _ => rw [h] at h1; cases h1

/-- C54. When the paths of the jobs are different, new and writable, every job that has
ended has left its run in its file, and its result is its own. -/
theorem hdf5_distinct_paths (writable : String → Bool) (jobs : ℕ → Job F σ)
    (fs0 : FS F σ) (schedule : List ℕ) (i : ℕ)
    (hd : ∀ j, j ≠ i → (jobs j).path ≠ (jobs i).path)
    (hnew : fs0.get? (jobs i).path = none) (hw : writable (jobs i).path = true)
    (res : Except PyErr (Option Bool))
    (he : (afterSteps writable jobs fs0 schedule).state i = .ended res) :
    res = (jobs i).finish.2 ∧
    (afterSteps writable jobs fs0 schedule).fs.get? (jobs i).path =
      some (.run (jobs i).finish.1) := by
  cases hdf5_exclusive writable jobs fs0 schedule (jobs i).path with
  | old c h1 _ _ => rw [hnew] at h1; cases h1
  | free _ _ h3 =>
    rcases h3 i rfl with h | ⟨h, -⟩
    · rw [he] at h; cases h
    · rw [hw] at h; cases h
  | owned k _ h2 h3 _ =>
    have hk : k = i := by
      by_contra hne
      exact hd k hne h2
    subst hk
    rcases h3 with ⟨h, -⟩ | ⟨h, hf⟩
    · rw [he] at h; cases h
    · rw [he] at h
      injection h with h
      exact ⟨h, hf⟩

/-- C54. With one output name for all rows, at most one job writes it; every other job
that has ended was stopped by `FileExistsError`. -/
theorem hdf5_fixed_name (writable : String → Bool) (jobs : ℕ → Job F σ) (fs0 : FS F σ)
    (schedule : List ℕ) (path : String) (hp : ∀ i, (jobs i).path = path)
    (hw : writable path = true) :
    ∃ i, ∀ j, j ≠ i → ∀ res,
      (afterSteps writable jobs fs0 schedule).state j = .ended res →
      res = .error .FileExistsError := by
  have key : ∀ j, KeptOut (afterSteps writable jobs fs0 schedule) j → ∀ res,
      (afterSteps writable jobs fs0 schedule).state j = .ended res →
      res = .error .FileExistsError := by
    intro j hj res hr
    rcases hj with h | h
    · rw [hr] at h; cases h
    · rw [hr] at h
      injection h
  cases hdf5_exclusive writable jobs fs0 schedule path with
  | old c _ _ h3 => exact ⟨0, fun j _ => key j (h3 j (hp j))⟩
  | free _ _ h3 =>
    refine ⟨0, fun j _ res hr => ?_⟩
    rcases h3 j (hp j) with h | ⟨h, -⟩
    · rw [hr] at h; cases h
    · rw [hw] at h; cases h
  | owned i _ _ _ h4 => exact ⟨i, fun j hj => key j (h4 j hj (hp j))⟩

/-- Jobs writing to three files, one of them taken, one of them shared. -/
def witJobs : ℕ → Job Unit Unit := fun i =>
  ⟨if i = 0 then "a.hdf5" else if i = 1 then "b.hdf5" else "d.hdf5",
    { info := ⟨fun _ => none, none, "step", .none⟩ }, witImpl "step", fun _ => .none⟩

theorem wit_pool :
    let p := afterSteps witEnv.writable witJobs witFs [2, 0, 1, 3, 2, 1]
    p.state 0 = .ended (.error .FileExistsError) ∧
    p.state 1 = .ended (witJobs 1).finish.2 ∧
    p.state 2 = .ended (witJobs 2).finish.2 ∧
    p.state 3 = .ended (.error .FileExistsError) := by
  refine ⟨rfl, rfl, rfl, rfl⟩

example := hdf5_exclusive witEnv.writable witJobs witFs [2, 0, 1, 3, 2, 1] "b.hdf5"
example := hdf5_never_overwrites witEnv.writable witJobs witFs [2, 0, 1, 3, 2, 1] "a.hdf5" _ rfl

example := hdf5_distinct_paths witEnv.writable witJobs witFs [2, 0, 1, 3, 2, 1] 1
  (by
    intro j hj h
    simp only [witJobs, if_neg hj] at h
    by_cases h0 : j = 0 <;> simp [h0] at h) rfl rfl _ wit_pool.2.1

example := hdf5_fixed_name (fun _ => true) (fun _ => witJobs 2) witFs [2, 0, 1, 3, 2, 1]
  "d.hdf5" (fun _ => rfl) rfl

end Runners

end DiscSolver
