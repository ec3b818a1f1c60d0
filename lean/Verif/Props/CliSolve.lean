import Verif.Lemmas.Cli
import Verif.Spec.CliSolve
import Verif.Props.Runners
import Verif.Props.Inputs

/-!
# C95: the options of the commands which solve
-/

namespace DiscSolver.CliSolve

open Cli Runners

variable {F σ : Type}

/-! ## Parsed options -/

theorem mem_of_lastGiven {given : List Occ} {name : String} {v : Val}
    (h : lastGiven given name = some v) : (name, v) ∈ given := by
  unfold lastGiven at h
  rw [Option.map_eq_some_iff] at h
  obtain ⟨⟨n, w⟩, hm, rfl⟩ := h
  have := List.mem_of_getLast? hm
  rw [List.mem_filter] at this
  simp only [decide_eq_true_eq] at this
  rw [← this.2]
  exact this.1

theorem string_given {given : List Occ} (ht : Typed given) {name : String}
    (hn : name ∈ wordOptions) (d : String) :
    string ((lastGiven given name).getD (.str d)) = (textGiven given name).getD d := by
  unfold textGiven
  cases h : lastGiven given name with
  | none => rfl
  | some v =>
    obtain ⟨s, rfl⟩ := ht.1 name hn v (mem_of_lastGiven h)
    rfl

theorem optString_given {given : List Occ} (ht : Typed given) {name : String}
    (hn : name ∈ wordOptions) (d : Option String) :
    optString ((lastGiven given name).getD (optVal d)) = (textGiven given name).or d := by
  unfold textGiven
  cases h : lastGiven given name with
  | none => cases d <;> rfl
  | some v =>
    obtain ⟨s, rfl⟩ := ht.1 name hn v (mem_of_lastGiven h)
    rfl

theorem overridesGiven_cons (x : Occ) (given : List Occ) :
    overridesGiven (x :: given) =
      (if x.1 = "--override" then (match x.2 with | .pairs l => l | _ => []) else []) ++
        overridesGiven given :=
  rfl

theorem overrides_appended (given : List Occ)
    (hv : ∀ v, ("--override", v) ∈ given → ∃ p, v = .pairs [p]) (l : List (String × String)) :
    given.foldl (fun b occ =>
      if occ.1 = "--override" then some (Action.append.apply b occ.2) else b)
      (some (.pairs l)) = some (.pairs (l ++ overridesGiven given)) := by
  induction given generalizing l with
  | nil => simp [overridesGiven]
  | cons x given ih =>
    have ih := ih fun v h => hv v (List.mem_cons_of_mem _ h)
    obtain ⟨n, v⟩ := x
    rw [List.foldl_cons, overridesGiven_cons]
    by_cases hn : n = "--override"
    · subst hn
      obtain ⟨p, rfl⟩ := hv v (by simp)
      simp only [if_true]
      rw [show Action.append.apply (some (.pairs l)) (.pairs [p]) = .pairs (l ++ [p]) from rfl,
        ih, List.append_assoc]
    · simp only [hn, if_false]
      rw [ih, List.nil_append]

theorem parsed_override {opts : List Opt} {given : List Occ} (ht : Typed given)
    (hm : Own opts ⟨"--override", "override", .append, some (.pairs []), none, none⟩) :
    Dict.get? (given.foldl (step opts) (initial false opts [])) "override" =
      some (.pairs (overridesGiven given)) := by
  have h := parsed false opts given _ hm.1 hm.2
  simp only [after, Opt.initial] at h
  rw [h, overrides_appended given ht.2 [], List.nil_append]

theorem parsed_optional {opts : List Opt} (given : List Occ) (name dest : String)
    (hm : Own opts ⟨name, dest, .store, none, none, none⟩) :
    Dict.get? (given.foldl (step opts) (initial false opts [])) dest =
      some ((lastGiven given name).getD .none) := by
  have h := parsed false opts given _ hm.1 hm.2
  simp only [after, Opt.initial] at h
  rw [h]
  cases lastGiven given name <;> rfl

/-- The options of a command which solves. -/
structure Solver (opts : List Opt) (store_internal : Bool) (sonic_method : String)
    (output_file : Option String) : Prop where
  names : (opts.map (·.name)).Nodup
  mem : ∀ o ∈ logging_options ++ add_solver_arguments store_internal sonic_method output_file,
    o ∈ opts
  count : ∀ o ∈ logging_options ++ add_solver_arguments store_internal sonic_method output_file,
    o.dest ≠ "store_internal" → (opts.map (·.dest)).count o.dest = 1
  internal : opts.filter (·.dest = "store_internal") =
    (add_solver_arguments store_internal sonic_method output_file).filter
      (·.dest = "store_internal")

theorem Solver.own {opts : List Opt} {s : Bool} {m : String} {f : Option String}
    (h : Solver opts s m f) (o : Opt) (ho : o ∈ logging_options ++ add_solver_arguments s m f)
    (hd : o.dest ≠ "store_internal") : Own opts o :=
  own_of opts h.names o (h.mem o ho) (h.count o ho hd)

/-- The arguments the entry points read. -/
theorem readArgs_eq {opts : List Opt} {s : Bool} {m : String} {f : Option String}
    (h : Solver opts s m f) {given : List Occ} (ht : Typed given)
    (ha : accepted opts given = true) :
    readArgs (given.foldl (step opts) (initial false opts [])) = .ok
      { sonic_method := (textGiven given "--sonic-method").getD m
        output_file := (textGiven given "--output-file").or f
        output_dir := (textGiven given "--output-dir").getD "."
        store_internal := !isGiven given "--no-store-internal" &&
          (isGiven given "--store-internal" || s)
        override := overridesGiven given } := by
  have h1 := parsed_store_any false given "--sonic-method" "sonic_method" (.str m)
    (some ["step", "single", "mcmc", "sonic_root", "hydrostatic", "mod_hydro", "fast_crosser"])
    none (h.own _ (by simp [add_solver_arguments]) (by simp))
  have h2 := parsed_store_any false given "--output-file" "output_file" (optVal f) none none
    (h.own _ (by simp [add_solver_arguments]) (by simp))
  have h3 := parsed_store_any false given "--output-dir" "output_dir" (.str ".") none none
    (h.own _ (by simp [add_solver_arguments]) (by simp))
  have h4 := parsed_override ht (h.own _ (by simp [add_solver_arguments]) (by simp))
  have h5 := parsed_switch_any false opts h.names
    ⟨"--store-internal", "store_internal", .storeTrue, some (.bool s), none,
      some "internal_store_group"⟩
    ⟨"--no-store-internal", "store_internal", .storeFalse, none, none,
      some "internal_store_group"⟩ "internal_store_group" "store_internal"
    (by rw [h.internal]; rfl) rfl rfl rfl rfl (by simp) given ha
  have h6 : Dict.get? (given.foldl (step opts) (initial false opts [])) "store_internal" =
      some (.bool (!isGiven given "--no-store-internal" &&
        (isGiven given "--store-internal" || s))) := by
    rw [h5]
    cases isGiven given "--no-store-internal" <;> cases isGiven given "--store-internal" <;>
      cases s <;> rfl
  simp only [readArgs, attr, h1, h2, h3, h4, h6]
  rw [string_given ht (by decide), string_given ht (by decide), optString_given ht (by decide)]
  rfl

theorem level_eq (s : String) : level s = levelNames.lookup s := by
  unfold level
  split
  all_goals first
    | rfl
    | (rename_i h1 h2 h3 h4 h5 h6
       simp only [levelNames, List.lookup, beq_eq_false_iff_ne.2 h1, beq_eq_false_iff_ne.2 h2,
         beq_eq_false_iff_ne.2 h3, beq_eq_false_iff_ne.2 h4, beq_eq_false_iff_ne.2 h5,
         beq_eq_false_iff_ne.2 h6])

/-- The arguments the log handlers are made from. -/
theorem logArgs_eq {opts : List Opt} {s : Bool} {m : String} {f : Option String}
    (h : Solver opts s m f) {given : List Occ} (ht : Typed given) :
    logArgs (given.foldl (step opts) (initial false opts [])) = logGiven given := by
  have h1 := parsed_optional given "--log-file" "log_file"
    (h.own _ (by simp [logging_options]) (by simp))
  have h2 := parsed_store_any false given "--log-file-level" "log_file_level" (.str "debug")
    (some ["critical", "error", "warning", "notice", "info", "debug"]) none
    (h.own _ (by simp [logging_options]) (by simp))
  have h3 := parsed_store_any false given "--stderr-level" "stderr_level" (.str "notice")
    (some ["critical", "error", "warning", "notice", "info", "debug"]) (some "stderr")
    (h.own _ (by simp [logging_options]) (by simp))
  have h4 := parsed_set_any false given "--quiet" "quiet" none (some "stderr")
    (h.own _ (by simp [logging_options]) (by simp))
  have h5 := parsed_set_any false given "--verbose" "verbose" none (some "stderr")
    (h.own _ (by simp [logging_options]) (by simp))
  have e := optString_given ht (name := "--log-file") (by decide) none
  simp only [logArgs, getD, h1, h2, h3, h4, h5, logGiven, level_eq]
  rw [Option.or_none] at e
  simp only [Option.bind_some, Option.getD_some, Val.truthy]
  rw [string_given ht (by decide), string_given ht (by decide)]
  exact congrArg (fun x => Logging.Args.mk _ _ _ x _) e

/-- The last value of an override. -/
theorem lastValue_eq (l : List (String × String)) (k : String) :
    lastValue (texts l) k = (((l.filter (·.1 = k)).getLast?).map (·.2)).map String.toList := by
  unfold lastValue texts
  induction l with
  | nil => rfl
  | cons p l ih =>
    rw [List.map_cons, List.reverse_cons, List.find?_append, Option.map_or, ih]
    by_cases h : p.1 = k
    · rw [List.filter_cons_of_pos (by simp [h])]
      cases hg : l.filter (·.1 = k) with
      | nil => simp [h]
      | cons y l' => simp [List.getLast?_cons]
    · rw [List.filter_cons_of_neg (by simp [h])]
      simp [h]

/-- The overrides given are all of fields there are. -/
def KnownFields (given : List Occ) : Prop :=
  ∀ p ∈ overridesGiven given, ∃ f : CField, f.name = p.1

/-- The overrides a solver gets: the value given last for each field. -/
theorem overrides_valid {given : List Occ} (hk : KnownFields given) :
    ∃ ov : Overrides, validate_overrides (texts (overridesGiven given)) = .ok ov ∧
      ∀ k, ov.get? k = (overrideGiven given k).map String.toList := by
  obtain ⟨ov, h1, _, h3⟩ := validate_overrides_ok (texts (overridesGiven given)) (by
    intro p hp
    unfold texts at hp
    obtain ⟨q, hq, rfl⟩ := List.mem_map.mp hp
    exact hk q hq)
  exact ⟨ov, h1, fun k => by rw [h3, lastValue_eq]; rfl⟩

theorem overrides_invalid {given : List Occ} (hk : ¬ KnownFields given) :
    validate_overrides (texts (overridesGiven given)) = .error .SolverError := by
  apply validate_overrides_unknown
  unfold KnownFields at hk
  push Not at hk
  obtain ⟨p, hp, hf⟩ := hk
  exact ⟨(p.1, p.2.toList), List.mem_map.mpr ⟨p, hp, rfl⟩, hf⟩

theorem soln_solver : Solver soln_options true "single" none where
  names := by decide +kernel
  mem := fun o ho => ho
  count := by
    intro o ho hd
    simp only [logging_options, add_solver_arguments, List.cons_append,
      List.nil_append, List.mem_cons, List.not_mem_nil, or_false] at ho
    rcases ho with rfl | rfl | rfl | rfl | rfl | rfl | rfl | rfl | rfl | rfl | rfl <;>
      first | exact absurd rfl hd | decide +kernel
  internal := rfl

/-! ## `ds-soln` -/

/-- A command line with an unknown option, a wrong value or both of `--store-internal` and
`--no-store-internal` ends the command before it does anything. -/
theorem soln_usage_error (e : Env F) (impl : Bool → String → Runners.Solver F σ)
    (read : String → Option Text) (config_file : String) (given : List Occ) (fs : FS F σ)
    (ha : accepted soln_options given = false) :
    ds_soln e impl read config_file given fs = ⟨.error .SystemExit, [], none, fs⟩ := by
  simp [ds_soln, parse_args, ha, stopped]

/-- An override of a field there is not ends the command before it does anything. -/
theorem soln_unknown_field (e : Env F) (impl : Bool → String → Runners.Solver F σ)
    (read : String → Option Text) (config_file : String) (given : List Occ) (fs : FS F σ)
    (ht : Typed given) (ha : accepted soln_options given = true) (hk : ¬ KnownFields given) :
    ds_soln e impl read config_file given fs = ⟨.error .SolverError, [], none, fs⟩ := by
  simp only [ds_soln, parse_args, ha, if_true, readArgs_eq soln_solver ht ha,
    overrides_invalid hk, stopped]

/-- Every option has its effect: `solve` gets the method, the file, the directory, the
choice of storing internal data and the overrides which were given last, or the
defaults, and the log goes where asked. -/
theorem soln_effective (e : Env F) (impl : Bool → String → Runners.Solver F σ)
    (read : String → Option Text) (config_file : String) (given : List Occ) (fs : FS F σ)
    (ht : Typed given) (ha : accepted soln_options given = true) (hk : KnownFields given) :
    ∃ ov : Overrides, (∀ k, ov.get? k = (overrideGiven given k).map String.toList) ∧
      ds_soln e impl read config_file given fs =
        report (Logging.log_handler (logGiven given))
          (solve e (impl (!isGiven given "--no-store-internal"))
            ⟨textGiven given "--output-file", (textGiven given "--sonic-method").getD "single",
              config_file, (textGiven given "--output-dir").getD ".", some ov⟩
            (read config_file) fs) := by
  obtain ⟨ov, h1, h2⟩ := overrides_valid hk
  refine ⟨ov, h2, ?_⟩
  simp only [ds_soln, parse_args, ha, if_true, readArgs_eq soln_solver ht ha, h1,
    logArgs_eq soln_solver ht, Option.or_none, Bool.or_true, Bool.and_true]

/-- Every command line which is accepted names a method there is. -/
theorem method_given {opts : List Opt} {st : Bool} {m : String} {f : Option String}
    (h : Solver opts st m f) (hm : IsMethod m) {given : List Occ}
    (ha : accepted opts given = true) :
    IsMethod ((textGiven given "--sonic-method").getD m) := by
  have hw := h.own ⟨"--sonic-method", "sonic_method", .store, some (.str m),
    some ["step", "single", "mcmc", "sonic_root", "hydrostatic", "mod_hydro",
       "fast_crosser"], none⟩ (by simp [add_solver_arguments]) (by simp)
  unfold textGiven
  cases hl : lastGiven given "--sonic-method" with
  | none => exact hm
  | some v =>
    cases v with
    | str x =>
      have hmem := mem_of_lastGiven hl
      unfold accepted at ha
      rw [Bool.and_eq_true] at ha
      have hk := List.all_eq_true.1 ha.1 _ hmem
      unfold known at hk
      have hfind := hw.1
      dsimp only at hfind
      simp only [hfind] at hk
      have : x ∈ ["step", "single", "mcmc", "sonic_root", "hydrostatic", "mod_hydro",
          "fast_crosser"] := by
        simpa [Opt.accepts] using hk
      simpa [IsMethod] using this
    | _ => exact hm

/-- So, with fields there are, a readable configuration and a free output, the command ends
as the method asked for does: its status is zero if it succeeded and one if not, and what
it raised if it raised. -/
theorem soln_runs (e : Env F) (impl : Bool → String → Runners.Solver F σ)
    (read : String → Option Text) (config_file : String) (given : List Occ) (fs : FS F σ)
    (ht : Typed given) (ha : accepted soln_options given = true) (hk : KnownFields given) :
    ∃ ov : Overrides, (∀ k, ov.get? k = (overrideGiven given k).map String.toList) ∧
      ∀ c s name, get_input_from_conffile (read config_file) (some ov) = .ok c →
        c.to_soln_input e.conv = .ok s →
        output_name (textGiven given "--output-file") (c .label) (e.now ++ ".hdf5") =
          .ok name →
        fs.get? (e.path ((textGiven given "--output-dir").getD ".") name) = none →
        e.writable (e.path ((textGiven given "--output-dir").getD ".") name) = true →
        ∀ x r, impl (!isGiven given "--no-store-internal")
          ((textGiven given "--sonic-method").getD "single") s
          { info := ⟨c, some config_file, (textGiven given "--sonic-method").getD "single",
              s .use_E_r⟩ } = (x, r) →
        (∀ y, x = .error y →
          (ds_soln e impl read config_file given fs).status = .error y) ∧
        (∀ b, x = .ok b → (∃ r', r.finalise = .ok r') →
          (ds_soln e impl read config_file given fs).status = .ok (if b then 0 else 1)) := by
  obtain ⟨ov, h1, h2⟩ := soln_effective e impl read config_file given fs ht ha hk
  refine ⟨ov, h1, fun c s name hc hs hn hf hw x r hx => ?_⟩
  obtain ⟨g1, g2⟩ := solve_known_method e (impl (!isGiven given "--no-store-internal"))
    ⟨textGiven given "--output-file", (textGiven given "--sonic-method").getD "single",
      config_file, (textGiven given "--output-dir").getD ".", some ov⟩
    (read config_file) fs (method_given soln_solver (by simp [IsMethod]) ha) c s name hc hs hn
    hf hw
  rw [h2]
  rcases hsv : solve e (impl (!isGiven given "--no-store-internal"))
    ⟨textGiven given "--output-file", (textGiven given "--sonic-method").getD "single",
      config_file, (textGiven given "--output-dir").getD ".", some ov⟩
    (read config_file) fs with ⟨o, fs'⟩
  rw [hsv] at g1 g2
  constructor
  · rintro y rfl
    have := (g1 y r hx).1
    dsimp only at this
    subst this
    rfl
  · rintro b rfl ⟨r', hr⟩
    have := ((g2 b r hx).2 r' hr).1
    dsimp only at this
    subst this
    cases b <;> rfl

/-- On return the file whose name is printed is new, and holds the run which the method
asked for left for the configuration with the overrides; the exit status is zero exactly
if the method succeeded; all other files are as before. -/
theorem soln_result (e : Env F) (impl : Bool → String → Runners.Solver F σ)
    (read : String → Option Text) (config_file : String) (given : List Occ) (fs : FS F σ)
    (ht : Typed given) (ha : accepted soln_options given = true) (hk : KnownFields given)
    (n : ℕ) (hn : (ds_soln e impl read config_file given fs).status = .ok n) :
    ∃ ov p b c s r r', (∀ k, Dict.get? ov k = (overrideGiven given k).map String.toList) ∧
      (ds_soln e impl read config_file given fs).printed = [p] ∧ fs.get? p = none ∧
      (∀ q, q ≠ p → (ds_soln e impl read config_file given fs).fs.get? q = fs.get? q) ∧
      get_input_from_conffile (read config_file) (some ov) = .ok c ∧
      c.to_soln_input e.conv = .ok s ∧
      impl (!isGiven given "--no-store-internal")
        ((textGiven given "--sonic-method").getD "single") s
        { info := ⟨c, some config_file, (textGiven given "--sonic-method").getD "single",
            s .use_E_r⟩ } = (.ok b, r) ∧ (n = 0 ↔ b = true) ∧
      (ds_soln e impl read config_file given fs).fs.get? p = some (.run r') ∧
      r'.solutions = r.solutions ∧
      (∀ f, textGiven given "--output-file" = some f →
        p = e.path ((textGiven given "--output-dir").getD ".") f) := by
  obtain ⟨ov, h1, h2⟩ := soln_effective e impl read config_file given fs ht ha hk
  rw [h2] at hn ⊢
  rcases hs : solve e (impl (!isGiven given "--no-store-internal"))
    ⟨textGiven given "--output-file", (textGiven given "--sonic-method").getD "single",
      config_file, (textGiven given "--output-dir").getD ".", some ov⟩
    (read config_file) fs with ⟨x | ⟨p, b⟩, fs'⟩
  · rw [hs] at hn
    cases hn
  · rw [hs] at hn
    obtain ⟨k1, k2, c, s, r, r', k3, k4, _, k5, k6, k7, _, _⟩ := solve_ok _ _ _ _ _ _ _ _ hs
    refine ⟨ov, p, b, c, s, r, r', h1, rfl, k1, k2, k3, k4, k5, ?_, k6, k7, ?_⟩
    · injection hn with hn
      rw [← hn]
      cases b <;> simp
    · intro f hf
      rcases solve_cases e (impl (!isGiven given "--no-store-internal"))
        ⟨textGiven given "--output-file", (textGiven given "--sonic-method").getD "single",
          config_file, (textGiven given "--output-dir").getD ".", some ov⟩
        (read config_file) fs with ⟨x, hx⟩ | ⟨_, _, name, _, _, hname, hx⟩
      · rw [hx] at hs
        cases hs
      · simp only [output_name, hf, Except.ok.injEq] at hname
        subst hname
        rw [hx] at hs
        have : ∀ (q : String) (y : Except PyErr Bool × FS F σ) (b : Bool) (fs' : FS F σ),
            with_path q y = (.ok (p, b), fs') → p = q := by
          rintro q ⟨_ | _, _⟩ b fs' h <;> simp_all [with_path]
        exact this _ _ _ _ hs

/-! ## `ds-resoln` -/

theorem resoln_usage_error (e : Env F) (input : σ → SolutionInput F)
    (impl : Bool → String → Runners.Solver F σ) (file range : String) (given : List Occ)
    (fs : FS F σ) (ha : accepted soln_options given = false) :
    ds_resoln e input impl file range given fs = ⟨.error .SystemExit, [], none, fs⟩ := by
  simp [ds_resoln, parse_args, ha, stopped]

theorem resoln_unknown_field (e : Env F) (input : σ → SolutionInput F)
    (impl : Bool → String → Runners.Solver F σ) (file range : String) (given : List Occ)
    (fs : FS F σ) (ht : Typed given) (ha : accepted soln_options given = true)
    (hk : ¬ KnownFields given) :
    ds_resoln e input impl file range given fs = ⟨.error .SolverError, [], none, fs⟩ := by
  simp only [ds_resoln, parse_args, ha, if_true, readArgs_eq soln_solver ht ha,
    overrides_invalid hk, stopped]

/-- The same for `ds-resoln`, which starts from a stored solution. -/
theorem resoln_effective (e : Env F) (input : σ → SolutionInput F)
    (impl : Bool → String → Runners.Solver F σ) (file range : String) (given : List Occ)
    (fs : FS F σ) (ht : Typed given) (ha : accepted soln_options given = true)
    (hk : KnownFields given) :
    ∃ ov : Overrides, (∀ k, ov.get? k = (overrideGiven given k).map String.toList) ∧
      ds_resoln e input impl file range given fs =
        report (Logging.log_handler (logGiven given))
          (resolve e input (impl (!isGiven given "--no-store-internal"))
            ⟨textGiven given "--output-file", (textGiven given "--sonic-method").getD "single",
              file, some range, (textGiven given "--output-dir").getD ".", some ov⟩ fs) := by
  obtain ⟨ov, h1, h2⟩ := overrides_valid hk
  refine ⟨ov, h2, ?_⟩
  simp only [ds_resoln, parse_args, ha, if_true, readArgs_eq soln_solver ht ha, h1,
    logArgs_eq soln_solver ht, Option.or_none, Bool.or_true, Bool.and_true]

/-! ## The runners -/

theorem csv_solver : Solver csvrunner_options false "step" (some "-") where
  names := by decide +kernel
  mem := fun o ho => List.mem_append_left _ ho
  count := by
    intro o ho hd
    simp only [logging_options, add_solver_arguments, List.cons_append,
      List.nil_append, List.mem_cons, List.not_mem_nil, or_false] at ho
    rcases ho with rfl | rfl | rfl | rfl | rfl | rfl | rfl | rfl | rfl | rfl | rfl <;>
      first | exact absurd rfl hd | decide +kernel
  internal := rfl

theorem hdf5_solver : Solver hdf5runner_options true "single" none where
  names := by decide +kernel
  mem := fun o ho => List.mem_append_left _ (List.mem_append_left _ ho)
  count := by
    intro o ho hd
    simp only [logging_options, add_solver_arguments, List.cons_append,
      List.nil_append, List.mem_cons, List.not_mem_nil, or_false] at ho
    rcases ho with rfl | rfl | rfl | rfl | rfl | rfl | rfl | rfl | rfl | rfl | rfl <;>
      first | exact absurd rfl hd | decide +kernel
  internal := rfl

/-- `ds-csvrunner` for every accepted command line. -/
theorem csvrunner_eq (input_file : String) (given : List Occ) (ht : Typed given)
    (ha : accepted csvrunner_options given = true) :
    ds_csvrunner input_file given =
      (validate_overrides (texts (overridesGiven given))).map fun ov =>
        { input_file := input_file, nworkers := (lastGiven given "--nworkers").getD .none
          sonic_method := (textGiven given "--sonic-method").getD "step"
          store_internal := isGiven given "--store-internal"
          overrides := ov
          output_file := some ((textGiven given "--output-file").getD "-") } := by
  have hn := parsed_store_any false given "--nworkers" "nworkers" .none none none
    (own_of csvrunner_options csv_solver.names _
      (by simp [csvrunner_options, add_worker_arguments]) (by decide +kernel))
  have hx : (!isGiven given "--no-store-internal" && isGiven given "--store-internal") =
      isGiven given "--store-internal" := by
    cases h1 : isGiven given "--store-internal"
    · simp
    cases h2 : isGiven given "--no-store-internal"
    · rfl
    exfalso
    unfold isGiven at h1 h2
    obtain ⟨y, hy, hyn⟩ := List.any_eq_true.mp h1
    obtain ⟨z, hz, hzn⟩ := List.any_eq_true.mp h2
    simp only [decide_eq_true_eq] at hyn hzn
    simp only [accepted, Bool.and_eq_true, List.all_eq_true, Bool.not_eq_true'] at ha
    have hc := ha.2 y hy z hz
    rw [conflict, hyn, hzn] at hc
    revert hc
    decide +kernel
  simp only [ds_csvrunner, parse_args, ha, if_true, readArgs_eq csv_solver ht ha, attr, hn,
    Bool.or_false, hx]
  cases validate_overrides (texts (overridesGiven given)) with
  | error x => rfl
  | ok ov => cases textGiven given "--output-file" <;> rfl

/-- `ds-csvrunner`: the options which have their effect. -/
theorem csvrunner_effective (input_file : String) (given : List Occ) (ht : Typed given)
    (ha : accepted csvrunner_options given = true) (hk : KnownFields given) :
    ∃ ov : Overrides, (∀ k, ov.get? k = (overrideGiven given k).map String.toList) ∧
      ds_csvrunner input_file given = .ok
        { input_file := input_file, nworkers := (lastGiven given "--nworkers").getD .none
          sonic_method := (textGiven given "--sonic-method").getD "step"
          store_internal := isGiven given "--store-internal"
          overrides := ov
          output_file := some ((textGiven given "--output-file").getD "-") } := by
  obtain ⟨ov, h1, h2⟩ := overrides_valid hk
  exact ⟨ov, h2, by rw [csvrunner_eq input_file given ht ha, h1]; rfl⟩

/-- `ds-hdf5runner` for every accepted command line. -/
theorem hdf5runner_eq (input_file : String) (given : List Occ) (ht : Typed given)
    (ha : accepted hdf5runner_options given = true) :
    ds_hdf5runner input_file given =
      (validate_overrides (texts (overridesGiven given))).map fun ov =>
        { input_file := input_file, nworkers := (lastGiven given "--nworkers").getD .none
          sonic_method := (textGiven given "--sonic-method").getD "single"
          store_internal := !isGiven given "--no-store-internal"
          overrides := ov
          output_dir := some ((textGiven given "--output-dir").getD ".")
          label := (textGiven given "--label").getD "" } := by
  have hn := parsed_store_any false given "--nworkers" "nworkers" .none none none
    (own_of hdf5runner_options hdf5_solver.names _
      (by simp [hdf5runner_options, add_worker_arguments]) (by decide +kernel))
  have hl := parsed_store_any false given "--label" "label" (.str "") none none
    (own_of hdf5runner_options hdf5_solver.names _
      (by simp [hdf5runner_options]) (by decide +kernel))
  simp only [ds_hdf5runner, parse_args, ha, if_true, readArgs_eq hdf5_solver ht ha, attr, hn, hl,
    Bool.or_true, Bool.and_true]
  rw [string_given ht (by decide)]
  cases validate_overrides (texts (overridesGiven given)) <;> rfl

/-- `ds-hdf5runner`: the options which have their effect. -/
theorem hdf5runner_effective (input_file : String) (given : List Occ) (ht : Typed given)
    (ha : accepted hdf5runner_options given = true) (hk : KnownFields given) :
    ∃ ov : Overrides, (∀ k, ov.get? k = (overrideGiven given k).map String.toList) ∧
      ds_hdf5runner input_file given = .ok
        { input_file := input_file, nworkers := (lastGiven given "--nworkers").getD .none
          sonic_method := (textGiven given "--sonic-method").getD "single"
          store_internal := !isGiven given "--no-store-internal"
          overrides := ov
          output_dir := some ((textGiven given "--output-dir").getD ".")
          label := (textGiven given "--label").getD "" } := by
  obtain ⟨ov, h1, h2⟩ := overrides_valid hk
  exact ⟨ov, h2, by rw [hdf5runner_eq input_file given ht ha, h1]; rfl⟩

/-- The runners refuse what the other commands refuse. -/
theorem runners_refuse (input_file : String) (given : List Occ) :
    (accepted csvrunner_options given = false →
      ds_csvrunner input_file given = .error .SystemExit) ∧
    (accepted hdf5runner_options given = false →
      ds_hdf5runner input_file given = .error .SystemExit) ∧
    (Typed given → ¬ KnownFields given → accepted csvrunner_options given = true →
      ds_csvrunner input_file given = .error .SolverError) ∧
    (Typed given → ¬ KnownFields given → accepted hdf5runner_options given = true →
      ds_hdf5runner input_file given = .error .SolverError) := by
  refine ⟨fun h => by simp [ds_csvrunner, parse_args, h],
    fun h => by simp [ds_hdf5runner, parse_args, h], fun ht hk ha => ?_, fun ht hk ha => ?_⟩
  · rw [csvrunner_eq input_file given ht ha, overrides_invalid hk]; rfl
  · rw [hdf5runner_eq input_file given ht ha, overrides_invalid hk]; rfl

/-! ## Options which are taken and ignored -/

theorem accepted_prefix {opts : List Opt} {given : List Occ} {x : Occ}
    (h : accepted opts (given ++ [x]) = true) : accepted opts given = true := by
  simp only [accepted, Bool.and_eq_true, List.all_eq_true, List.mem_append] at h ⊢
  exact ⟨fun a ha => h.1 a (Or.inl ha), fun a ha b hb => h.2 a (Or.inl ha) b (Or.inl hb)⟩

theorem typed_prefix {given : List Occ} {x : Occ} (h : Typed (given ++ [x])) : Typed given :=
  ⟨fun n hn v hv => h.1 n hn v (List.mem_append_left _ hv),
    fun v hv => h.2 v (List.mem_append_left _ hv)⟩

theorem lastGiven_append_other {given : List Occ} {x : Occ} {name : String} (h : x.1 ≠ name) :
    lastGiven (given ++ [x]) name = lastGiven given name := by
  simp [lastGiven, List.filter_append, h]

theorem textGiven_append_other {given : List Occ} {x : Occ} {name : String} (h : x.1 ≠ name) :
    textGiven (given ++ [x]) name = textGiven given name := by
  rw [textGiven, textGiven, lastGiven_append_other h]

theorem isGiven_append_other {given : List Occ} {x : Occ} {name : String} (h : x.1 ≠ name) :
    isGiven (given ++ [x]) name = isGiven given name := by
  simp [isGiven, h]

theorem overridesGiven_append_other {given : List Occ} {x : Occ} (h : x.1 ≠ "--override") :
    overridesGiven (given ++ [x]) = overridesGiven given := by
  simp [overridesGiven, h]

/-- The options of the log. -/
def logOptions : List String :=
  ["--log-file", "--log-file-level", "--stderr-level", "--quiet", "--verbose"]

/-- `ds-csvrunner` takes `--output-dir` and the options of the log and ignores them. -/
theorem csvrunner_ignores (input_file : String) (given : List Occ) (x : Occ)
    (hx : x.1 ∈ "--output-dir" :: logOptions) (ht : Typed (given ++ [x]))
    (ha : accepted csvrunner_options (given ++ [x]) = true) :
    ds_csvrunner input_file (given ++ [x]) = ds_csvrunner input_file given := by
  rw [csvrunner_eq _ _ ht ha, csvrunner_eq _ _ (typed_prefix ht) (accepted_prefix ha)]
  have h (name : String) (hn : name ∉ "--output-dir" :: logOptions) : x.1 ≠ name :=
    fun e => hn (e ▸ hx)
  rw [overridesGiven_append_other (h _ (by decide)), lastGiven_append_other (h _ (by decide)),
    textGiven_append_other (h _ (by decide)), textGiven_append_other (h _ (by decide)),
    isGiven_append_other (h _ (by decide))]

/-- `ds-hdf5runner` takes `--output-file` and the options of the log and ignores them. -/
theorem hdf5runner_ignores (input_file : String) (given : List Occ) (x : Occ)
    (hx : x.1 ∈ "--output-file" :: logOptions) (ht : Typed (given ++ [x]))
    (ha : accepted hdf5runner_options (given ++ [x]) = true) :
    ds_hdf5runner input_file (given ++ [x]) = ds_hdf5runner input_file given := by
  rw [hdf5runner_eq _ _ ht ha, hdf5runner_eq _ _ (typed_prefix ht) (accepted_prefix ha)]
  have h (name : String) (hn : name ∉ "--output-file" :: logOptions) : x.1 ≠ name :=
    fun e => hn (e ▸ hx)
  rw [overridesGiven_append_other (h _ (by decide)), lastGiven_append_other (h _ (by decide)),
    textGiven_append_other (h _ (by decide)), textGiven_append_other (h _ (by decide)),
    textGiven_append_other (h _ (by decide)), isGiven_append_other (h _ (by decide))]

/-- So the files of `ds-hdf5runner` never have the name asked for: it ends with the time
and the process. -/
theorem hdf5runner_names (e : Env F) (impl : Bool → String → Runners.Solver F σ)
    (sniff : Text → Except PyErr (List Text)) (lines : String → List Text) (name : ℕ → String)
    (input_file : String) (given : List Occ) (ht : Typed given)
    (ha : accepted hdf5runner_options given = true) (c : RunnerCall)
    (hc : ds_hdf5runner input_file given = .ok c) (jobs : List (Except PyErr (Job F σ)))
    (hj : hdf5runner_jobs e impl sniff lines name c = .ok jobs) (i : ℕ) (j : Job F σ)
    (hi : jobs[i]? = some (.ok j)) :
    ∃ label : Text, j.path = e.path ((textGiven given "--output-dir").getD ".")
      (String.ofList label ++ (name i ++ ".hdf5")) := by
  rw [hdf5runner_eq _ _ ht ha] at hc
  cases hv : validate_overrides (texts (overridesGiven given)) with
  | error x => rw [hv] at hc; cases hc
  | ok ov =>
    rw [hv] at hc
    injection hc with hc
    subst hc
    unfold hdf5runner_jobs at hj
    simp only at hj
    split at hj
    · cases hj
    · injection hj with hj
      subst hj
      rw [List.getElem?_mapIdx, Option.map_eq_some_iff] at hi
      obtain ⟨d, _, hd⟩ := hi
      unfold hdf5_job at hd
      simp only [Option.getD_some] at hd
      split at hd
      · cases hd
      · split at hd
        · cases hd
        · next _ _ s run hr =>
          cases hl : run.info.config_input .label with
          | none => rw [hl] at hd; cases hd
          | some l =>
            rw [hl] at hd
            injection hd with hd
            exact ⟨l, by rw [← hd]⟩

/-! ## Examples -/

/-- Options given twice, overrides of two fields. -/
def exampleLine : List Occ :=
  [("--override", .pairs [("start", "1")]), ("--sonic-method", .str "mcmc"),
    ("--no-store-internal", .none), ("--sonic-method", .str "step"),
    ("--override", .pairs [("start", "2")]), ("--output-file", .str "b.hdf5"),
    ("--quiet", .none)]

theorem exampleTyped : Typed exampleLine := by
  constructor
  · intro n hn v hv
    simp only [exampleLine, List.mem_cons, Prod.mk.injEq, List.not_mem_nil, or_false] at hv
    rcases hv with ⟨rfl, rfl⟩ | ⟨rfl, rfl⟩ | ⟨rfl, rfl⟩ | ⟨rfl, rfl⟩ | ⟨rfl, rfl⟩ | ⟨rfl, rfl⟩ |
      ⟨rfl, rfl⟩ <;> first | exact ⟨_, rfl⟩ | (exfalso; revert hn; decide)
  · intro v hv
    simp only [exampleLine, List.mem_cons, Prod.mk.injEq, List.not_mem_nil, or_false] at hv
    rcases hv with ⟨h, rfl⟩ | ⟨h, rfl⟩ | ⟨h, rfl⟩ | ⟨h, rfl⟩ | ⟨h, rfl⟩ | ⟨h, rfl⟩ |
      ⟨h, rfl⟩ <;> first | exact ⟨_, rfl⟩ | (exfalso; revert h; decide)

theorem exampleAccepted : accepted soln_options exampleLine = true := by rfl

theorem exampleKnown : KnownFields exampleLine := by
  intro p hp
  simp only [exampleLine, overridesGiven, List.flatMap_cons, List.flatMap_nil] at hp
  simp at hp
  rcases hp with rfl | rfl <;> exact ⟨.s .start, rfl⟩

example := soln_effective witEnv (fun _ => witImpl) (fun _ => none) "c.cfg" exampleLine witFs
  exampleTyped exampleAccepted exampleKnown

example : overrideGiven exampleLine "start" = some "2" ∧
    textGiven exampleLine "--sonic-method" = some "step" ∧
    textGiven exampleLine "--output-dir" = none := by decide

theorem oneTyped (name s : String) (h : name ≠ "--override") : Typed [(name, .str s)] :=
  ⟨fun _ _ v hv => ⟨s, by simp only [List.mem_singleton, Prod.mk.injEq] at hv; exact hv.2⟩,
    fun v hv => by
      simp only [List.mem_singleton, Prod.mk.injEq] at hv
      exact absurd hv.1.symm h⟩

theorem exampleRuns : ∃ n, (ds_soln witEnv (fun _ => witImpl) (fun _ => none) "c.cfg"
    [("--output-file", .str "b.hdf5")] witFs).status = .ok n := ⟨0, rfl⟩

example := soln_result witEnv (fun _ => witImpl) (fun _ => none) "c.cfg" _ witFs
  (oneTyped "--output-file" "b.hdf5" (by decide)) rfl (fun _ h => by cases h) _
  exampleRuns.choose_spec

example := soln_runs witEnv (fun _ => witImpl) (fun _ => none) "c.cfg" exampleLine witFs
  exampleTyped exampleAccepted exampleKnown

example := method_given csv_solver (by simp [IsMethod]) (given := [("--sonic-method",
  .str "fast_crosser")]) rfl

example := soln_usage_error witEnv (fun _ => witImpl) (fun _ => none) "c.cfg"
  [("--store-internal", .none), ("--no-store-internal", .none)] witFs rfl

theorem exampleUnknown : Typed [("--override", .pairs [("strat", "1")])] ∧
    ¬ KnownFields [("--override", .pairs [("strat", "1")])] := by
  refine ⟨⟨fun n hn v hv => ?_, fun v hv => ?_⟩, fun h => ?_⟩
  · simp only [List.mem_singleton, Prod.mk.injEq] at hv
    exact absurd (hv.1 ▸ hn) (by decide)
  · simp only [List.mem_singleton, Prod.mk.injEq] at hv
    exact ⟨_, hv.2⟩
  · obtain ⟨f, hf⟩ := h ("strat", "1") (by simp [overridesGiven])
    cases f with
    | label => exact absurd hf (by decide)
    | s f => cases f <;> exact absurd hf (by decide)

example := soln_unknown_field witEnv (fun _ => witImpl) (fun _ => none) "c.cfg" _ witFs
  exampleUnknown.1 rfl exampleUnknown.2

example := resoln_effective witEnv (fun _ _ => .none) (fun _ => witImpl) "a.hdf5" "final"
  exampleLine [("a.hdf5", .run witRun)] exampleTyped exampleAccepted exampleKnown

example := csvrunner_effective "in.csv" exampleLine exampleTyped rfl exampleKnown

example := hdf5runner_effective "in.csv" exampleLine exampleTyped rfl exampleKnown

example := csvrunner_ignores "in.csv" [] _ (by decide)
  (oneTyped "--output-dir" "results" (by decide)) rfl

example := hdf5runner_ignores "in.csv" [] _ (by decide)
  (oneTyped "--output-file" "b.hdf5" (by decide)) rfl

/-- A file with a header and one row. -/
def witLines : List Text :=
  [Csv.writeRow headerRow, Csv.writeRow (headerRow.map fun _ => "1".toList)]

set_option maxRecDepth 20000 in
theorem witJob : ∃ c jobs j, ds_hdf5runner "in.csv" [] = .ok c ∧
    hdf5runner_jobs witEnv (fun _ => witImpl) (fun _ => .ok [[]]) (fun _ => witLines)
      (fun _ => "now-1") c = .ok jobs ∧ jobs[0]? = some (.ok j) :=
  ⟨_, _, _, rfl, rfl, rfl⟩

example := hdf5runner_names _ _ _ _ _ _ _ ⟨(fun _ _ _ h => by cases h), (fun _ h => by cases h)⟩
  rfl _ witJob.choose_spec.choose_spec.choose_spec.1 _
  witJob.choose_spec.choose_spec.choose_spec.2.1 0 _
  witJob.choose_spec.choose_spec.choose_spec.2.2

example := resoln_unknown_field witEnv (fun _ _ => .none) (fun _ => witImpl) "a.hdf5" "final" _
  witFs exampleUnknown.1 rfl exampleUnknown.2

example := resoln_usage_error witEnv (fun _ _ => .none) (fun _ => witImpl) "a.hdf5" "final"
  [("--store-internal", .none), ("--no-store-internal", .none)] witFs rfl

example := (runners_refuse "in.csv" _).2.2.1 exampleUnknown.1 exampleUnknown.2 rfl

end DiscSolver.CliSolve
