import Verif.Props.EndToEnd
import Verif.Spec.Resolve

/-!
# Properties: solving again what a configuration file asked for

C103.
-/

namespace DiscSolver.EndToEnd

open ConfDoc CliSolve Cli Runners SingleRun

variable {F σ : Type}

/-! ## Inputs -/

theorem overridesGiven_append (a b : List Occ) :
    overridesGiven (a ++ b) = overridesGiven a ++ overridesGiven b := by
  simp [overridesGiven]

/-- Of two command lines the second one counts. -/
theorem overrideGiven_append (a b : List Occ) (k : String) :
    overrideGiven (a ++ b) k = (overrideGiven b k).or (overrideGiven a k) := by
  unfold overrideGiven
  rw [overridesGiven_append, List.filter_append, List.getLast?_append]
  cases ((overridesGiven b).filter (·.1 = k)).getLast? <;> simp

/-- If the old input is what the old configuration says, the new input is what the new
configuration says. -/
theorem new_inputs_same (C : Conv F) (c : ConfigInput) (hc : Canonical c)
    (old : SolutionInput F) (hold : c.to_soln_input C = .ok old) (o : Overrides)
    (c' : ConfigInput) (s : SolutionInput F) :
    new_inputs_with_overrides C c old (some o) = .ok (c', s) ↔
      add_overrides (some o) c = .ok c' ∧ c'.to_soln_input C = .ok s := by
  unfold new_inputs_with_overrides
  simp only [Option.getD_some]
  cases h1 : add_overrides (some o) c with
  | error e => simp [Bind.bind, Except.bind]
  | ok c1 =>
  simp only [Bind.bind, Except.bind]
  cases h2 : c1.to_soln_input C with
  | error e =>
    simp only [reduceCtorEq, Except.ok.injEq, false_iff, not_and]
    rintro rfl
    rw [h2]
    simp
  | ok s1 =>
  simp only [hold]
  have ho : ∀ k ∈ o.keys, ∃ f : CField, f.name = k := by
    intro k hk
    by_contra hn
    push Not at hn
    rw [add_overrides_unknown c o ⟨k, hk, hn⟩] at h1
    cases h1
  obtain ⟨c2, h4, -, -, hsame⟩ := add_overrides_ok c hc o ho
  rw [h1] at h4
  injection h4 with h4
  subst h4
  have r1 := (to_soln_input_ok C c1 s1).1 h2
  have r0 := (to_soln_input_ok C c old).1 hold
  have hkeep : ∀ f : SField, f.name ∉ o.keys → s1 f = old f := by
    intro f hf
    have a := r1 f
    rw [hsame (.s f) hf, r0 f] at a
    injection a with a
    exact a.symm
  have hiff : ∀ t : SolutionInput F, t = s1 →
      ((Except.ok (c1, t) : Except PyErr _) = .ok (c', s) ↔
        (Except.ok c1 : Except PyErr _) = .ok c' ∧ c'.to_soln_input C = .ok s) := by
    rintro t rfl
    simp only [Except.ok.injEq, Prod.mk.injEq]
    constructor
    · rintro ⟨rfl, rfl⟩
      exact ⟨rfl, h2⟩
    · rintro ⟨rfl, h⟩
      rw [h2] at h
      injection h with h
      exact ⟨rfl, h⟩
  split
  · exact hiff s1 rfl
  · refine hiff _ ?_
    funext f
    by_cases hf : f.name ∈ o.keys
    · simp [hf]
    · split
      · exact (hkeep f hf).symm
      · rfl

/-- What is asked for by a file, a command line and a later one, from the configuration
kept of the first two. -/
theorem asked_again {d : Doc} {given given' : List Occ} (hk : KnownFields given')
    {ov : Overrides} (ho : ∀ k, ov.get? k = (overrideGiven given' k).map String.toList)
    {c : ConfigInput} (hcan : Canonical c)
    (hc : ∀ f : CField, ∃ v, Asked d given f.name v ∧ c f = some (kept f.name v)) :
    ∃ c', add_overrides (some ov) c = .ok c' ∧
      ∀ f : CField, ∃ v, Asked d (given ++ given') f.name v ∧ c' f = some (kept f.name v) := by
  have hkeys : ∀ k ∈ ov.keys, ∃ f : CField, f.name = k := by
    intro k hm
    by_contra hn
    cases hg : overrideGiven given' k with
    | none => exact (Dict.get?_eq_none_iff ov k).1 (by rw [ho, hg]; rfl) hm
    | some w =>
      unfold overrideGiven at hg
      rw [Option.map_eq_some_iff] at hg
      obtain ⟨p, hp, -⟩ := hg
      have := List.mem_of_getLast? hp
      rw [List.mem_filter] at this
      obtain ⟨f, hf⟩ := hk p this.1
      exact hn ⟨f, hf.trans (by simpa using this.2)⟩
  obtain ⟨c', h1, -, h2, h3⟩ := add_overrides_ok c hcan ov hkeys
  refine ⟨c', h1, fun f => ?_⟩
  cases hg : overrideGiven given' f.name with
  | some w =>
    refine ⟨w.toList, by unfold Asked; rw [overrideGiven_append, hg]; rfl, ?_⟩
    rw [h2 f w.toList (by rw [ho, hg]; rfl)]
    unfold kept
    simp only [converter_eq f]
    rfl
  | none =>
    obtain ⟨v, hv, hcv⟩ := hc f
    refine ⟨v, ?_, ?_⟩
    · unfold Asked at hv ⊢
      rw [overrideGiven_append, hg]
      exact hv
    · rw [h3 f ((Dict.get?_eq_none_iff ov _).1 (by rw [ho, hg]; rfl)), hcv]

theorem kept_canonical {d : Doc} {given : List Occ} {c : ConfigInput}
    (hc : ∀ f : CField, ∃ v, Asked d given f.name v ∧ c f = some (kept f.name v)) :
    Canonical c := by
  intro f hf h0
  obtain ⟨v, -, hv⟩ := hc f
  rw [hv] at h0
  injection h0 with h0
  unfold kept at h0
  by_cases hv0 : v = []
  · rw [if_pos ⟨(converter_eq f).1 hf, hv0⟩] at h0; cases h0
  · rw [if_neg (fun h => hv0 h.2)] at h0; exact hv0 h0

/-! ## Runs -/

theorem single_solver_based (sol : SolutionInput F → Except PyErr σ) (s : SolutionInput F)
    (info : RunInfo F) (a b : Option String) :
    single_solver sol false s
        { info := info, based_on_filename := a, based_on_solution := b } =
      match sol s with
      | .error e =>
        (.error e, { info := info, based_on_filename := a, based_on_solution := b })
      | .ok st =>
        (.ok true, ⟨info, .value (some st), [("0", st)], false, a, b⟩) := by
  have h00 : Nat.repr 0 = "0" := by decide
  cases hs : sol s with
  | error e => simp [single_solver, hs]
  | ok st =>
    have hnum : numbered [st] = [("0", st)] := by simp [numbered, h00]
    have ha : Solutions.add ([] : Solutions σ) st = .ok ("0", [("0", st)]) := by
      have := add_numbered ([] : List σ) st
      rw [List.nil_append, hnum] at this
      simpa [numbered, h00] using this
    have hl : Solutions.getLast [("0", st)] = .ok st := by
      rw [← hnum]; exact get_last_most_recent [] st
    have hadd : Run.addSolution
        ({ info := info, based_on_filename := a, based_on_solution := b } : TheRun F σ) st =
        .ok ("0", { info := info, solutions := [("0", st)], based_on_filename := a,
                    based_on_solution := b }) := by
      simp only [Run.addSolution, ha]
      rfl
    simp [single_solver, hs, hadd, hl, Run.setFinal]

theorem range_single (info : RunInfo F) (m : σ) (b : Bool) (x y : Option String)
    (range : String) (sol : σ)
    (h : Run.getSolutions (⟨info, .value (some m), [("0", m)], b, x, y⟩ : TheRun F σ)
      (some range) = .ok (.soln sol)) : sol = m ∧ range ∈ ["0", "final", "latest"] := by
  unfold Run.getSolutions at h
  dsimp only at h
  split_ifs at h with h1 h2
  · simp only [Run.finalSolution, Except.ok.injEq, Run.Found.soln.injEq] at h
    exact ⟨h.symm, by simp [h1]⟩
  · simp only [Run.finalSolution, Except.ok.injEq, Run.Found.soln.injEq] at h
    exact ⟨h.symm, by simp [h2]⟩
  · by_cases h3 : range = "0"
    · subst h3
      simp only [Dict.getItem, Dict.get?, Except.map] at h
      simp at h
      exact ⟨h.symm, by simp⟩
    · exfalso
      have : Dict.get? [("0", m)] range = none := by
        simp [Dict.get?, Ne.symm h3]
      simp [Dict.getItem, this, Except.map] at h

theorem range_found (info : RunInfo F) (m : σ) (b : Bool) (x y : Option String)
    (range : String) (h : range ∈ ["0", "final", "latest"]) :
    Run.getSolutions (⟨info, .value (some m), [("0", m)], b, x, y⟩ : TheRun F σ)
      (some range) = .ok (.soln m) := by
  simp only [List.mem_cons, List.not_mem_nil, or_false] at h
  rcases h with rfl | rfl | rfl <;> rfl

/-- A run as the default method leaves it for what is asked for. -/
structure Stored (C : Conv ℝ) (I : Tolerances → Integrator) (str : ℝ → String)
    (interp : List ℝ → List ℝ → Option (ℝ → ℝ)) (d : Doc) (given : List Occ) (store : Bool)
    (r : TheRun ℝ Made) (m : Made) : Prop where
  run : r = ⟨r.info, .value (some m), [("0", m)], false, r.based_on_filename,
    r.based_on_solution⟩
  method : r.info.sonic_method = "single"
  config : ∀ f : CField, ∃ v, Asked d given f.name v ∧
    r.info.config_input f = some (kept f.name v)
  input : r.info.config_input.to_soln_input C = .ok m.solution_input
  made : single_solution I str interp store m.solution_input = .ok m

section

variable {C : Conv ℝ} {I : Tolerances → Integrator} {str : ℝ → String}
  {interp : List ℝ → List ℝ → Option (ℝ → ℝ)} {d : Doc}

/-- A command which ended with a status was given proper options. -/
theorem soln_proper (e : Env F) (impl : Bool → String → Runners.Solver F σ)
    (read : String → Option Text) (config_file : String) (given : List Occ) (fs : FS F σ)
    (ht : CliSolve.Typed given) (n : ℕ)
    (hn : (ds_soln e impl read config_file given fs).status = .ok n) :
    Cli.accepted soln_options given = true ∧ KnownFields given := by
  by_cases ha : Cli.accepted soln_options given = true
  · refine ⟨ha, ?_⟩
    by_contra hk
    rw [soln_unknown_field e impl read config_file given fs ht ha hk] at hn
    cases hn
  · rw [soln_usage_error e impl read config_file given fs (by simpa using ha)] at hn
    cases hn

theorem resoln_proper (e : Env F) (input : σ → SolutionInput F)
    (impl : Bool → String → Runners.Solver F σ) (file range : String) (given : List Occ)
    (fs : FS F σ) (ht : CliSolve.Typed given) (n : ℕ)
    (hn : (ds_resoln e input impl file range given fs).status = .ok n) :
    Cli.accepted soln_options given = true ∧ KnownFields given := by
  by_cases ha : Cli.accepted soln_options given = true
  · refine ⟨ha, ?_⟩
    by_contra hk
    rw [resoln_unknown_field e input impl file range given fs ht ha hk] at hn
    cases hn
  · rw [resoln_usage_error e input impl file range given fs (by simpa using ha)] at hn
    cases hn

theorem soln_stored (hd : d.Good) (e : Env ℝ)
    (others : Bool → String → Runners.Solver ℝ Made) (read : String → Option Text)
    (config_file : String) (given : List Occ) (fs : FS ℝ Made)
    (hread : read config_file = some d.text) (ht : CliSolve.Typed given)
    (hm : (textGiven given "--sonic-method").getD "single" = "single") (n : ℕ)
    (hn : (ds_soln e (methods I str interp others) read config_file given fs).status = .ok n) :
    ∃ p r m, n = 0 ∧
      (ds_soln e (methods I str interp others) read config_file given fs).printed = [p] ∧
      (ds_soln e (methods I str interp others) read config_file given fs).fs.get? p =
        some (.run r) ∧
      Stored e.conv I str interp d given (!isGiven given "--no-store-internal") r m := by
  obtain ⟨ha, hk⟩ := soln_proper _ _ _ _ _ _ ht n hn
  obtain ⟨ov, h1, h2⟩ := soln_effective e (methods I str interp others) read config_file
    given fs ht ha hk
  rw [h2] at hn ⊢
  rw [hm] at hn ⊢
  rcases hs : solve e (methods I str interp others (!isGiven given "--no-store-internal"))
    ⟨textGiven given "--output-file", "single",
      config_file, (textGiven given "--output-dir").getD ".", some ov⟩
    (read config_file) fs with ⟨x | ⟨p, b⟩, fs'⟩
  · rw [hs] at hn
    cases hn
  · rw [hs] at hn
    obtain ⟨k1, k2, c, s, r, r', k3, k4, -, k5, k6, -, -, -, k7⟩ :=
      solve_ok _ _ _ _ _ _ _ _ hs
    dsimp only at k3 k5
    rw [hread, asked_config hd hk h1] at k3
    obtain ⟨-, hc⟩ := k3
    unfold methods at k5
    rw [if_pos rfl, single_solver_eq] at k5
    cases hm' : single_solution I str interp (!isGiven given "--no-store-internal") s with
    | error x => rw [hm'] at k5; simp at k5
    | ok m =>
      rw [hm'] at k5
      simp only [Prod.mk.injEq, Except.ok.injEq] at k5
      obtain ⟨rfl, rfl⟩ := k5
      rw [finalise_set _ _ rfl] at k7
      injection k7 with k7
      subst k7
      obtain ⟨hsm, -⟩ := single_solution_ok hm'
      subst hsm
      refine ⟨p, _, m, ?_, rfl, k6, rfl, rfl, hc, k4, hm'⟩
      injection hn with hn
      exact hn.symm

/-- The result of solving again, and where it is put. -/
theorem resoln_stored (e : Env ℝ)
    (others : Bool → String → Runners.Solver ℝ Made) (file range : String)
    (given given' : List Occ) (store : Bool) (fs : FS ℝ Made)
    (old : TheRun ℝ Made) (m : Made) (hold : fs.get? file = some (.run old))
    (hst : Stored e.conv I str interp d given store old m) (ht : CliSolve.Typed given')
    (hm : (textGiven given' "--sonic-method").getD "single" = "single") (n : ℕ)
    (hn : (ds_resoln e Made.solution_input (methods I str interp others) file range given'
      fs).status = .ok n) :
    ∃ p r m', n = 0 ∧ range ∈ ["0", "final", "latest"] ∧
      (ds_resoln e Made.solution_input (methods I str interp others) file range given'
        fs).printed = [p] ∧
      fs.get? p = none ∧
      (∀ q, q ≠ p → (ds_resoln e Made.solution_input (methods I str interp others) file range
        given' fs).fs.get? q = fs.get? q) ∧
      (ds_resoln e Made.solution_input (methods I str interp others) file range given'
        fs).fs.get? p = some (.run r) ∧
      r.info.config_filename = old.info.config_filename ∧
      r.based_on_filename = some file ∧ r.based_on_solution = some range ∧
      Stored e.conv I str interp d (given ++ given')
        (!isGiven given' "--no-store-internal") r m' := by
  obtain ⟨ha, hk⟩ := resoln_proper _ _ _ _ _ _ _ ht n hn
  obtain ⟨ov, h1, h2⟩ := resoln_effective e Made.solution_input (methods I str interp others)
    file range given' fs ht ha hk
  rw [h2] at hn ⊢
  rw [hm] at hn ⊢
  rcases hs : resolve e Made.solution_input
    (methods I str interp others (!isGiven given' "--no-store-internal"))
    ⟨textGiven given' "--output-file", "single", file, some range,
      (textGiven given' "--output-dir").getD ".", some ov⟩ fs with ⟨x | ⟨p, b⟩, fs'⟩
  · rw [hs] at hn
    cases hn
  · rw [hs] at hn
    obtain ⟨k1, k2, old', sol, c, s, r, r', g1, g2, g3, -, k5, k6, -, -, -, k7⟩ :=
      resolve_ok _ _ _ _ _ _ _ _ hs
    dsimp only at g1 g2 g3 k5
    rw [hold] at g1
    simp only [Option.some.injEq, File.run.injEq] at g1
    subst g1
    rw [hst.run] at g2
    obtain ⟨rfl, hrange⟩ := range_single _ _ _ _ _ _ _ g2
    rw [new_inputs_same _ _ (kept_canonical hst.config) _ hst.input] at g3
    obtain ⟨g3, g4⟩ := g3
    obtain ⟨c2, g5, hc⟩ := asked_again hk h1 (kept_canonical hst.config) hst.config
    rw [g3] at g5
    injection g5 with g5
    subst g5
    unfold methods at k5
    rw [if_pos rfl, single_solver_based] at k5
    cases hm' : single_solution I str interp (!isGiven given' "--no-store-internal") s with
    | error x => rw [hm'] at k5; simp at k5
    | ok m =>
      rw [hm'] at k5
      simp only [Prod.mk.injEq, Except.ok.injEq] at k5
      obtain ⟨rfl, rfl⟩ := k5
      rw [finalise_set _ _ rfl] at k7
      injection k7 with k7
      subst k7
      obtain ⟨hsm, -⟩ := single_solution_ok hm'
      subst hsm
      refine ⟨p, _, m, ?_, hrange, rfl, k1, k2, k6, rfl, rfl, rfl, rfl, rfl, hc, g4, hm'⟩
      injection hn with hn
      exact hn.symm

theorem history_stored (hd : d.Good) {given : List Occ} {store : Bool} {p : String}
    {fs : FS ℝ Made} (h : History C I str interp d given store p fs) :
    ∃ r m, fs.get? p = some (.run r) ∧ Stored C I str interp d given store r m := by
  induction h with
  | soln e others read config_file given fs n p he hread ht hm hn hp =>
    obtain ⟨p', r, m, -, hp', hr, hst⟩ := soln_stored (I := I) (str := str)
      (interp := interp) hd e others read config_file given fs hread ht hm n hn
    rw [hp] at hp'
    injection hp' with hp'
    subst hp' he
    exact ⟨r, m, hr, hst⟩
  | again e others given given' store fs n p range q _ he ht hm hn hq ih =>
    obtain ⟨old, m, hold, hst⟩ := ih
    subst he
    obtain ⟨p', r, m', -, -, hp', -, -, hr, -, -, -, hst'⟩ := resoln_stored e others p range
      given given' store fs old m hold hst ht hm n hn
    rw [hq] at hp'
    injection hp' with hp'
    subst hp'
    exact ⟨r, m', hr, hst'⟩
  | elsewhere given store p fs fs' _ hp ih =>
    obtain ⟨r, m, hr, hst⟩ := ih
    exact ⟨r, m, hp.trans hr, hst⟩

/-- C103. However often a solution was solved again, the file holds a run with one
solution, the final one, and it is the one the integrator finds for the numbers asked for
by the configuration file and everything given since, the last word on each option
counting. -/
theorem history_end_to_end (hd : d.Good) {given : List Occ} {store : Bool} {p : String}
    {fs : FS ℝ Made} (h : History C I str interp d given store p fs) :
    ∃ r m inp o t, fs.get? p = some (.run r) ∧ r.solutions = [("0", m)] ∧
      r.final = .value (some m) ∧ r.info.sonic_method = "single" ∧
      (∀ f : CField, ∃ v, Asked d given f.name v ∧
        r.info.config_input f = some (kept f.name v)) ∧
      States C d given inp ∧ Options C d given o t ∧
      define_conditions inp = some m.initial_conditions ∧
      (solution (I t) str interp o m.initial_conditions
        { store_internal := store }).result = .ok m.out := by
  obtain ⟨r, m, hr, hst⟩ := history_stored hd h
  obtain ⟨-, inp, t, o, hi, htol, ho, hdc, hsol⟩ := single_solution_ok hst.made
  obtain ⟨hS, hO⟩ := states_options hst.config hst.input hi htol ho
  refine ⟨r, m, inp, o, t, hr, ?_, ?_, hst.method, hst.config, hS, hO, hdc, hsol⟩
  · rw [hst.run]
  · rw [hst.run]

/-- C103. Two files made from the same configuration file hold the same solution, if the
last words given on each option agree and the internal data was asked for in both or
neither: in particular solving again without overrides gives the same solution, and
solving with overrides gives what `ds-soln` would have given with them. -/
theorem history_same (hd : d.Good) {given given' : List Occ} {store : Bool} {p p' : String}
    {fs fs' : FS ℝ Made} (h : History C I str interp d given store p fs)
    (h' : History C I str interp d given' store p' fs')
    (hov : ∀ f : CField, overrideGiven given f.name = overrideGiven given' f.name) :
    ∃ r r', fs.get? p = some (.run r) ∧ fs'.get? p' = some (.run r') ∧
      r.solutions = r'.solutions ∧ r.final = r'.final ∧
      r.info.config_input = r'.info.config_input := by
  obtain ⟨r, m, hr, hst⟩ := history_stored hd h
  obtain ⟨r', m', hr', hst'⟩ := history_stored hd h'
  have hc : r.info.config_input = r'.info.config_input := by
    funext f
    obtain ⟨v, hv, e1⟩ := hst.config f
    obtain ⟨w, hw, e2⟩ := hst'.config f
    have : Asked d given f.name w := by
      unfold Asked at hw ⊢
      rw [hov f]
      exact hw
    rw [e1, e2, asked_unique hd given f hv this]
  have hin : m.solution_input = m'.solution_input := by
    have := hst.input
    rw [hc, hst'.input] at this
    injection this with this
    exact this.symm
  have hmm : m = m' := by
    have := hst.made
    rw [hin, hst'.made] at this
    injection this with this
    exact this.symm
  subst hmm
  refine ⟨r, r', hr, hr', ?_, ?_, hc⟩
  · rw [hst.run, hst'.run]
  · rw [hst.run, hst'.run]

/-- How `ds-resoln` goes on once it has found the solution: the name of its output, by
default, begins with the label kept in the old run. -/
theorem resoln_reduces (e : Env ℝ)
    (others : Bool → String → Runners.Solver ℝ Made) (file range : String)
    (given given' : List Occ) (store : Bool) (fs : FS ℝ Made)
    (old : TheRun ℝ Made) (m : Made) (hold : fs.get? file = some (.run old))
    (hst : Stored e.conv I str interp d given store old m)
    (hrange : range ∈ ["0", "final", "latest"]) (ht : CliSolve.Typed given')
    (ha : Cli.accepted soln_options given' = true) (hk : KnownFields given')
    (hm : (textGiven given' "--sonic-method").getD "single" = "single") (name : String)
    (hname : textGiven given' "--output-file" = some name ∨
      textGiven given' "--output-file" = none ∧
        old.info.config_input .label = some name.toList) :
    ∃ c, (∀ f : CField, ∃ v, Asked d (given ++ given') f.name v ∧
        c f = some (kept f.name v)) ∧
      ∀ s, c.to_soln_input e.conv = .ok s →
        ds_resoln e Made.solution_input (methods I str interp others) file range given' fs =
          report (Logging.log_handler (logGiven given'))
            (with_path (e.path ((textGiven given' "--output-dir").getD ".")
                (if textGiven given' "--output-file" = none then name ++ (e.now ++ ".hdf5")
                  else name))
              (write_run e
                (some (methods I str interp others (!isGiven given' "--no-store-internal")
                  "single")) s
                { info := ⟨c, old.info.config_filename, "single", s .use_E_r⟩
                  based_on_filename := some file
                  based_on_solution := some range }
                (e.path ((textGiven given' "--output-dir").getD ".")
                  (if textGiven given' "--output-file" = none
                    then name ++ (e.now ++ ".hdf5") else name)) fs)) := by
  obtain ⟨ov, h1, h2⟩ := resoln_effective e Made.solution_input (methods I str interp others)
    file range given' fs ht ha hk
  obtain ⟨c, g1, hc⟩ := asked_again hk h1 (kept_canonical hst.config) hst.config
  refine ⟨c, hc, fun s hs => ?_⟩
  rw [h2, hm]
  have hg := (new_inputs_same e.conv _ (kept_canonical hst.config) _ hst.input ov c s).2
    ⟨g1, hs⟩
  have hr : old.getSolutions (some range) = .ok (.soln m) := by
    rw [hst.run]; exact range_found _ _ _ _ _ _ hrange
  have hmeth : getMethod (methods I str interp others (!isGiven given' "--no-store-internal"))
      "single" = some (methods I str interp others (!isGiven given' "--no-store-internal")
        "single") := by
    simp [getMethod, methodNames]
  have hon : output_name (textGiven given' "--output-file") (old.info.config_input .label)
      (e.now ++ ".hdf5") = .ok (if textGiven given' "--output-file" = none then
        name ++ (e.now ++ ".hdf5") else name) := by
    rcases hname with hname | ⟨hname, hl⟩
    · simp [output_name, hname]
    · simp [output_name, hname, default_name, hl]
  have hdone : old.final ≠ .delayed := by rw [hst.run]; intro h; cases h
  simp only [resolve, load_finished hold hdone, hr, Except.bind, found_input, hg, hon, hmeth]

/-- C103. Solving again without overrides, or with one of the label only, succeeds if the
output is free, and the new file holds the same solution.  By default its name begins with
the old label. -/
theorem resoln_repeats (hd : d.Good) (e : Env ℝ) (he : e.conv = C)
    (others : Bool → String → Runners.Solver ℝ Made) (p range : String)
    (given given' : List Occ) (fs : FS ℝ Made)
    (h : History C I str interp d given (!isGiven given' "--no-store-internal") p fs)
    (hrange : range ∈ ["0", "final", "latest"]) (ht : CliSolve.Typed given')
    (ha : Cli.accepted soln_options given' = true) (hk : KnownFields given')
    (hno : ∀ f : SField, overrideGiven given' f.name = none)
    (hm : (textGiven given' "--sonic-method").getD "single" = "single") (name : String)
    (hname : textGiven given' "--output-file" = some name ∨
      textGiven given' "--output-file" = none ∧
        ∃ v, Asked d given "label" v ∧ name = String.ofList v ++ (e.now ++ ".hdf5"))
    (hfree : fs.get? (e.path ((textGiven given' "--output-dir").getD ".") name) = none)
    (hw : e.writable (e.path ((textGiven given' "--output-dir").getD ".") name) = true) :
    (ds_resoln e Made.solution_input (methods I str interp others) p range given'
      fs).status = .ok 0 ∧
    (ds_resoln e Made.solution_input (methods I str interp others) p range given'
      fs).printed = [e.path ((textGiven given' "--output-dir").getD ".") name] ∧
    ∃ r r', fs.get? p = some (.run r) ∧
      (ds_resoln e Made.solution_input (methods I str interp others) p range given'
        fs).fs.get? (e.path ((textGiven given' "--output-dir").getD ".") name) =
          some (.run r') ∧
      r'.solutions = r.solutions ∧ r'.final = r.final ∧
      (∀ f : CField, overrideGiven given' f.name = none →
        r'.info.config_input f = r.info.config_input f) ∧
      r'.info.config_filename = r.info.config_filename ∧
      r'.based_on_filename = some p ∧ r'.based_on_solution = some range := by
  subst he
  obtain ⟨r, m, hr, hst⟩ := history_stored hd h
  obtain ⟨base, hbase, hfin⟩ : ∃ base : String,
      (textGiven given' "--output-file" = some base ∨
        textGiven given' "--output-file" = none ∧
          r.info.config_input .label = some base.toList) ∧
      (if textGiven given' "--output-file" = none then base ++ (e.now ++ ".hdf5") else base) =
        name := by
    rcases hname with hname | ⟨hname, v, hv, rfl⟩
    · exact ⟨name, Or.inl hname, by simp [hname]⟩
    · refine ⟨String.ofList v, Or.inr ⟨hname, ?_⟩, by simp [hname]⟩
      obtain ⟨w, hw', hl⟩ := hst.config .label
      rw [hl, asked_unique hd given .label hw' hv, String.toList_ofList]
      unfold kept
      rw [if_neg]
      rintro ⟨h, -⟩
      revert h
      decide
  obtain ⟨c, hc, hres⟩ := resoln_reduces e others p range given given' _ fs r m hr hst hrange
    ht ha hk hm base hbase
  have hcc : ∀ f : CField, overrideGiven given' f.name = none →
      c f = r.info.config_input f := by
    intro f hf
    obtain ⟨v, hv, e1⟩ := hst.config f
    obtain ⟨w, hw', e2⟩ := hc f
    have : Asked d given f.name w := by
      unfold Asked at hw' ⊢
      rw [overrideGiven_append, hf] at hw'
      exact hw'
    rw [e1, e2, asked_unique hd given f hv this]
  have hin : c.to_soln_input e.conv = .ok m.solution_input := by
    rw [to_soln_input_ok]
    intro f
    rw [hcc (.s f) (hno f)]
    exact (to_soln_input_ok _ _ _).1 hst.input f
  rw [hres _ hin, hfin]
  have hsolver : methods I str interp others (!isGiven given' "--no-store-internal") "single"
      m.solution_input
      { info := ⟨c, r.info.config_filename, "single", m.solution_input .use_E_r⟩
        based_on_filename := some p, based_on_solution := some range } =
      (.ok true, ⟨⟨c, r.info.config_filename, "single",
          m.solution_input .use_E_r⟩, .value (some m), [("0", m)], false, some p,
          some range⟩) := by
    unfold methods
    rw [if_pos rfl, single_solver_based, hst.made]
  simp only [write_run, hfree, hw, if_true, hsolver]
  rw [finalise_set _ _ rfl]
  refine ⟨rfl, rfl, r, _, hr, Dict.get?_set_self _ _ _, ?_, ?_, hcc, rfl, rfl, rfl⟩
  · rw [hst.run]
  · rw [hst.run]

/-- C103. Without `--output-file` the name begins with the label of the run solved again,
even where the command line overrides the label. -/
theorem resoln_default_name (hd : d.Good) (e : Env ℝ) (he : e.conv = C)
    (others : Bool → String → Runners.Solver ℝ Made) (p range : String)
    (given given' : List Occ) (store : Bool) (fs : FS ℝ Made)
    (h : History C I str interp d given store p fs) (ht : CliSolve.Typed given')
    (hm : (textGiven given' "--sonic-method").getD "single" = "single")
    (hno : textGiven given' "--output-file" = none) (v : Text) (hv : Asked d given "label" v)
    (n : ℕ)
    (hn : (ds_resoln e Made.solution_input (methods I str interp others) p range given'
      fs).status = .ok n) :
    (ds_resoln e Made.solution_input (methods I str interp others) p range given'
      fs).printed = [e.path ((textGiven given' "--output-dir").getD ".")
        (String.ofList v ++ (e.now ++ ".hdf5"))] := by
  subst he
  obtain ⟨r, m, hr, hst⟩ := history_stored hd h
  obtain ⟨ha, hk⟩ := resoln_proper _ _ _ _ _ _ _ ht n hn
  obtain ⟨q, r', m', -, hrange, hq, -, -, hr', -, -, -, hst'⟩ := resoln_stored e others p
    range given given' store fs r m hr hst ht hm n hn
  have hlabel : r.info.config_input .label = some (String.ofList v).toList := by
    obtain ⟨w, hw', hl⟩ := hst.config .label
    rw [hl, asked_unique hd given .label hw' hv, String.toList_ofList]
    unfold kept
    rw [if_neg]
    rintro ⟨h, -⟩
    revert h
    decide
  obtain ⟨c, hc, hres⟩ := resoln_reduces e others p range given given' store fs r m hr hst
    hrange ht ha hk hm (String.ofList v) (Or.inr ⟨hno, hlabel⟩)
  have hcc : c = r'.info.config_input := by
    funext f
    obtain ⟨v, hv, e1⟩ := hst'.config f
    obtain ⟨w, hw', e2⟩ := hc f
    rw [e1, e2, asked_unique hd _ f hv hw']
  subst hcc
  rw [hres _ hst'.input, if_pos hno] at hn ⊢
  generalize write_run e _ _ _ _ fs = x at hn ⊢
  rcases x with ⟨_ | b, fs'⟩
  · cases hn
  · rfl

/-- C103. A name other than `0`, `final` and `latest` is a `KeyError`, and nothing is
written. -/
theorem resoln_no_such (hd : d.Good) (e : Env ℝ)
    (others : Bool → String → Runners.Solver ℝ Made) (p range : String)
    (given given' : List Occ) (store : Bool) (fs : FS ℝ Made)
    (h : History C I str interp d given store p fs)
    (hrange : range ∉ ["0", "final", "latest"]) (ht : CliSolve.Typed given')
    (ha : Cli.accepted soln_options given' = true) (hk : KnownFields given') :
    (ds_resoln e Made.solution_input (methods I str interp others) p range given'
      fs).status = .error .KeyError ∧
    (ds_resoln e Made.solution_input (methods I str interp others) p range given'
      fs).printed = [] ∧
    (ds_resoln e Made.solution_input (methods I str interp others) p range given'
      fs).fs = fs := by
  obtain ⟨r, m, hr, hst⟩ := history_stored hd h
  obtain ⟨ov, h1, h2⟩ := resoln_effective e Made.solution_input (methods I str interp others)
    p range given' fs ht ha hk
  simp only [List.mem_cons, List.not_mem_nil, or_false, not_or] at hrange
  have hg : r.getSolutions (some range) = .error .KeyError := by
    rw [hst.run]
    unfold Run.getSolutions
    dsimp only
    rw [if_neg hrange.2.2, if_neg hrange.2.1]
    have : Dict.get? [("0", m)] range = none := by
      simp [Dict.get?, Ne.symm hrange.1]
    simp [Dict.getItem, this, Except.map]
  rw [h2]
  have hdone : r.final ≠ .delayed := by rw [hst.run]; intro h; cases h
  simp only [resolve, load_finished hr hdone, hg, Except.bind, report, and_self]

end

/-! ## A case -/

/-- The command line of a second run: another label. -/
def witAgain : List Occ := [("--override", .pairs [("label", "other")])]

/-- The files left by the first. -/
noncomputable def witFirst : FS ℝ Made :=
  (ds_soln witEnvR (methods witStay (fun _ => "") (fun _ _ => none)
      fun _ _ _ r => (.error .SolverError, r)) (fun _ => some witDoc.text) "a.cfg" witGiven
      ([] : FS ℝ Made)).fs

/-- The time of the second. -/
noncomputable def witEnvLater : Env ℝ := { witEnvR with now := "later" }

theorem wit_store : (!isGiven witGiven "--no-store-internal") = true := by decide +kernel

/-- The file it wrote. -/
def witFile : String :=
  "." ++ "/" ++ (String.ofList (witAsked .label) ++ ("now" ++ ".hdf5"))

theorem wit_history : History witConvR witStay (fun _ => "") (fun _ _ => none) witDoc
    witGiven true witFile witFirst ∧ ∀ q, q ≠ witFile → witFirst.get? q = none := by
  obtain ⟨p, -, -, -, -, -, -, hp, -, hq, -⟩ := soln_end_to_end witEnvR witStay (fun _ => "")
    (fun _ _ => none) (fun _ _ _ r => (.error .SolverError, r)) (fun _ => some witDoc.text)
    "a.cfg" witGiven [] witDoc witDoc_good rfl wit_typed (by decide +kernel) wit_known
    (by decide +kernel) 0 wit_succeeds
  have hpf : p = witFile := by
    have := wit_printed.2
    rw [hp] at this
    injection this
  subst hpf
  refine ⟨?_, fun q h => hq q h⟩
  have := History.soln (C := witConvR) (I := witStay) (str := fun _ => "")
    (interp := fun _ _ => none) (d := witDoc) witEnvR
    (fun _ _ _ r => (.error .SolverError, r)) (fun _ => some witDoc.text) "a.cfg" witGiven [] 0
    witFile rfl rfl wit_typed (by decide +kernel) wit_succeeds hp
  rw [wit_store] at this
  exact this

theorem witAgain_typed : CliSolve.Typed witAgain := by
  constructor
  · intro name hname v hv
    simp only [witAgain, List.mem_cons, List.not_mem_nil, or_false, Prod.mk.injEq] at hv
    rw [hv.1] at hname
    exact absurd hname (by decide)
  · intro v hv
    simp only [witAgain, List.mem_cons, List.not_mem_nil, or_false, Prod.mk.injEq,
      true_and] at hv
    exact ⟨_, hv⟩

theorem witAgain_known : KnownFields witAgain := by
  intro p hp
  simp only [witAgain, overridesGiven, List.flatMap_cons, List.flatMap_nil, if_true,
    List.append_nil, List.mem_cons, List.not_mem_nil, or_false] at hp
  subst hp
  exact ⟨.label, rfl⟩

theorem witAgain_none (f : SField) : overrideGiven witAgain f.name = none := by
  cases f <;> decide +kernel

theorem witAgain_store : (!isGiven witAgain "--no-store-internal") = true := by decide +kernel

/-- The outcome of a second run. -/
noncomputable def witSecond (given : List Occ) : Outcome ℝ Made :=
  ds_resoln witEnvLater Made.solution_input (methods witStay (fun _ => "") (fun _ _ => none)
    fun _ _ _ r => (.error .SolverError, r)) witFile "final" given witFirst

/-- The file it writes. -/
def witFile2 : String :=
  "." ++ "/" ++ (String.ofList (witAsked .label) ++ ("later" ++ ".hdf5"))

/-- The second run succeeds. -/
theorem wit_resoln : (witSecond witAgain).status = .ok 0 ∧
    (witSecond witAgain).printed = [witFile2] := by
  have := resoln_repeats (C := witConvR) (I := witStay) (str := fun _ => "")
    (interp := fun _ _ => none) witDoc_good witEnvLater rfl
    (fun _ _ _ r => (.error .SolverError, r)) witFile "final" witGiven witAgain witFirst
    (by rw [witAgain_store]; exact wit_history.1) (by decide) witAgain_typed
    (by decide +kernel) witAgain_known witAgain_none (by decide +kernel) _
    (Or.inr ⟨by decide +kernel, _, wit_asked .label, rfl⟩)
    (wit_history.2 _ (by decide +kernel)) rfl
  exact ⟨this.1, this.2.1⟩

/-- And one without any options. -/
theorem wit_resoln_plain : (witSecond []).status = .ok 0 ∧
    (witSecond []).printed = [witFile2] := by
  have := resoln_repeats (C := witConvR) (I := witStay) (str := fun _ => "")
    (interp := fun _ _ => none) witDoc_good witEnvLater rfl
    (fun _ _ _ r => (.error .SolverError, r)) witFile "final" witGiven [] witFirst
    wit_history.1 (by decide) ⟨by simp, by simp⟩
    (by decide +kernel) (by simp [KnownFields, overridesGiven]) (fun _ => rfl)
    (by decide +kernel) _
    (Or.inr ⟨by decide +kernel, _, wit_asked .label, rfl⟩)
    (wit_history.2 _ (by decide +kernel)) rfl
  exact ⟨this.1, this.2.1⟩

/-- Histories of two runs. -/
theorem wit_history_two : History witConvR witStay (fun _ => "") (fun _ _ => none) witDoc
    (witGiven ++ witAgain) true witFile2 (witSecond witAgain).fs := by
  have := History.again (C := witConvR) (I := witStay) (str := fun _ => "")
    (interp := fun _ _ => none) (d := witDoc) witEnvLater
    (fun _ _ _ r => (.error .SolverError, r)) witGiven witAgain true witFirst 0 witFile "final"
    witFile2 wit_history.1 rfl witAgain_typed (by decide +kernel) wit_resoln.1 wit_resoln.2
  rw [witAgain_store] at this
  exact this

theorem wit_history_plain : History witConvR witStay (fun _ => "") (fun _ _ => none) witDoc
    (witGiven ++ []) true witFile2 (witSecond []).fs :=
  History.again (C := witConvR) (I := witStay) (str := fun _ => "")
    (interp := fun _ _ => none) (d := witDoc) witEnvLater
    (fun _ _ _ r => (.error .SolverError, r)) witGiven [] true witFirst 0 witFile "final"
    witFile2 wit_history.1 rfl ⟨by simp, by simp⟩ (by decide +kernel) wit_resoln_plain.1
    wit_resoln_plain.2

example := history_end_to_end witDoc_good wit_history_two

example := resoln_default_name witDoc_good witEnvLater rfl
  (fun _ _ _ r => (.error .SolverError, r)) witFile "final" witGiven witAgain true witFirst
  wit_history.1 witAgain_typed (by decide +kernel) (by decide +kernel) _ (wit_asked .label) 0
  wit_resoln.1

/-- The label asked for is another one, but the file is named after the old. -/
example : overrideGiven (witGiven ++ witAgain) "label" = some "other" ∧
    String.ofList (witAsked .label) ≠ "other" := by
  constructor <;> decide +kernel

example := resoln_no_such witDoc_good witEnvLater
  (fun _ _ _ r => (.error .SolverError, r)) witFile "1" witGiven witAgain true witFirst
  wit_history.1 (by decide) witAgain_typed (by decide +kernel) witAgain_known

/-- Solved once and solved again without options. -/
example := history_same witDoc_good wit_history.1 wit_history_plain fun _ => by
  rw [List.append_nil]

end DiscSolver.EndToEnd
