import Verif.Lemmas.Cli

/-!
# What command lines do

For every command which plots, what the user gets from a command line (specification in
`Verif/Spec/Cli.lean`).
-/

namespace DiscSolver.Cli

/-! ## Which command lines are taken -/

/-- A command line is taken exactly if every option is one of the command's with an allowed
value, and no two different options exclude each other. -/
theorem accepted_iff (opts : List Opt) (given : List Occ) :
    accepted opts given = true ↔
      (∀ a ∈ given, ∃ o, opts.find? (·.name = a.1) = some o ∧ o.accepts a.2 = true) ∧
      ∀ a ∈ given, ∀ b ∈ given, ∀ o p, opts.find? (·.name = a.1) = some o →
        opts.find? (·.name = b.1) = some p → o.group.isSome → o.group = p.group →
        o.name = p.name := by
  simp only [accepted, Bool.and_eq_true, List.all_eq_true, Bool.not_eq_true']
  refine and_congr ?_ ?_
  · refine forall_congr' fun a => imp_congr_right fun _ => ?_
    unfold known
    cases opts.find? (·.name = a.1) with
    | none => simp
    | some o => simp
  · refine forall_congr' fun a => imp_congr_right fun _ => forall_congr' fun b =>
      imp_congr_right fun _ => ?_
    unfold conflict
    cases opts.find? (·.name = a.1) with
    | none => simp
    | some o =>
      cases opts.find? (·.name = b.1) with
      | none => simp
      | some p => simp

/-- Otherwise the command ends before it opens or draws anything. -/
theorem usage_error {α : Type} (c : Command) (load : String → Except PyErr RunHead)
    (draw : RunHead → Val → Dict String Val → Except PyErr α) (file range : String)
    (given : List Occ) (h : accepted (logging_options ++ c.options) given = false) :
    c.run load draw file range given = .error .SystemExit := by
  simp [Command.run, parse_args, h]

/-! ## Commands about one solution -/

/-- The commands with the common options only. -/
theorem common_effective {α : Type} (c : Command)
    (hc : c ∈ [ds_params_plot, ds_acc_plot, ds_j_e_plot, ds_surface_density_plot,
      ds_hydro_check_plot, ds_validate_plot])
    (load : String → Except PyErr RunHead)
    (draw : RunHead → Val → Dict String Val → Except PyErr α) (file range : String)
    (given : List Occ) (h : accepted (logging_options ++ c.options) given = true) :
    c.run load draw file range given =
      expected load draw file range given (common ++ [("use_E_r", .run)]) := by
  simp only [List.mem_cons, List.not_mem_nil, or_false] at hc
  rcases hc with rfl | rfl | rfl | rfl | rfl | rfl <;>
    exact common_eq _ _ given load draw file range h

/-- The arguments of `generate_…` of ds-plot and the options they come from. -/
def ds_plot_table : List (String × Source) :=
  common ++ [("with_slow", .set "--with-slow"), ("with_alfven", .set "--with-alfven"),
    ("with_fast", .set "--with-fast"), ("with_sonic", .set "--with-sonic"),
    ("v_θ_scale", .option "--v_θ" (.str "linear")), ("portrait", .set "--portrait"),
    ("hide_roots", .set "--hide-roots"), ("hide_sonic_angle", .set "--hide-sonic-angle"),
    ("use_E_r", .run)]

/-- `ds-plot`: the scale of `v_θ`, the waves and marks, the layout. -/
theorem ds_plot_effective {α : Type} (load : String → Except PyErr RunHead)
    (draw : RunHead → Val → Dict String Val → Except PyErr α) (file range : String)
    (given : List Occ) (h : accepted (logging_options ++ ds_plot.options) given = true) :
    ds_plot.run load draw file range given =
      expected load draw file range given ds_plot_table := by
  have hd : Distinct (logging_options ++ ds_plot.options) := by
    refine distinct _ ?_ ?_ <;>
    · simp only [ds_plot, ownCommand, logging_options, common_plotting_options,
        common_output_plot_options, common_plot_appearence_options, v_θ_option, flag,
        List.map_append, List.map_cons, List.map_nil]
      decide +kernel
  refine own_eq "ds-plot" _ _ _ _ _ _
    [("v_θ_scale", .option "--v_θ" (.str "linear")), ("with_slow", .set "--with-slow"),
    ("with_alfven", .set "--with-alfven"), ("with_fast", .set "--with-fast"),
    ("with_sonic", .set "--with-sonic"), ("portrait", .set "--portrait"),
    ("hide_roots", .set "--hide-roots"), ("hide_sonic_angle", .set "--hide-sonic-angle")]
    given hd ?_ ?_ ds_plot_table ?_ ?_ ?_ ?_ load draw file range h
  · have h1 := parsed_store given _ _ _ _ _ (hd (v_θ_option)
      (by simp [ds_plot, ownCommand]))
    have h2 := parsed_set given _ _ _ _ (hd (flag "--with-slow" "with_slow")
      (by simp [ds_plot, ownCommand]))
    have h3 := parsed_set given _ _ _ _ (hd (flag "--with-alfven" "with_alfven")
      (by simp [ds_plot, ownCommand]))
    have h4 := parsed_set given _ _ _ _ (hd (flag "--with-fast" "with_fast")
      (by simp [ds_plot, ownCommand]))
    have h5 := parsed_set given _ _ _ _ (hd (flag "--with-sonic" "with_sonic")
      (by simp [ds_plot, ownCommand]))
    have h6 := parsed_set given _ _ _ _ (hd (flag "--portrait" "portrait")
      (by simp [ds_plot, ownCommand]))
    have h7 := parsed_set given _ _ _ _ (hd (flag "--hide-roots" "hide_roots")
      (by simp [ds_plot, ownCommand]))
    have h8 := parsed_set given _ _ _ _ (hd (flag "--hide-sonic-angle" "hide_sonic_angle")
      (by simp [ds_plot, ownCommand]))
    simp only [ds_plot, ownCommand] at h1 h2 h3 h4 h5 h6 h7 h8
    intro E
    simp only [gets, List.map_cons, List.map_nil, getD, h1, h2, h3, h4, h5, h6, h7, h8,
      Option.getD_some, arguments, Source.value]
  · constructor <;>
      simp [reserved, ownCommand, plotSig, fileSig, plotCall, same, Dict.keys, Dict.get?]
  · decide +kernel
  · simp [Dict.keys]
  · simp [ds_plot_table, common, drawSig, Dict.keys]
  · simp [ds_plot_table, common]

/-- The arguments of `generate_…` of ds-vert-plot and the options they come from. -/
def ds_vert_plot_table : List (String × Source) :=
  common ++ [("with_sonic", .set "--with-sonic"), ("use_E_r", .run)]

/-- `ds-vert-plot`: whether the sonic point is marked.  `--v_θ` is not in the list: see
`vert_ignores_v_θ`. -/
theorem ds_vert_plot_effective {α : Type} (load : String → Except PyErr RunHead)
    (draw : RunHead → Val → Dict String Val → Except PyErr α) (file range : String)
    (given : List Occ) (h : accepted (logging_options ++ ds_vert_plot.options) given = true) :
    ds_vert_plot.run load draw file range given =
      expected load draw file range given ds_vert_plot_table := by
  have hd : Distinct (logging_options ++ ds_vert_plot.options) := by
    refine distinct _ ?_ ?_ <;>
    · simp only [ds_vert_plot, ownCommand, logging_options, common_plotting_options,
        common_output_plot_options, common_plot_appearence_options, v_θ_option, flag,
        List.map_append, List.map_cons, List.map_nil]
      decide +kernel
  refine own_eq "ds-vert-plot" _ _ _ _ _ _
    [("with_sonic", .set "--with-sonic")]
    given hd ?_ ?_ ds_vert_plot_table ?_ ?_ ?_ ?_ load draw file range h
  · have h1 := parsed_set given _ _ _ _ (hd (flag "--with-sonic" "with_sonic")
      (by simp [ds_vert_plot, ownCommand]))
    simp only [ds_vert_plot, ownCommand] at h1
    intro E
    simp only [gets, List.map_cons, List.map_nil, getD, h1,
      Option.getD_some, arguments, Source.value]
  · constructor <;>
      simp [reserved, ownCommand, plotSig, fileSig, plotCall, same, Dict.keys, Dict.get?]
  · decide +kernel
  · simp [Dict.keys]
  · simp [ds_vert_plot_table, common, drawSig, Dict.keys]
  · simp [ds_vert_plot_table, common]

/-- The arguments of `generate_…` of ds-derivs-plot and the options they come from. -/
def ds_derivs_plot_table : List (String × Source) :=
  common ++ [("nolog", .set "--nolog"), ("use_E_r", .run)]

/-- `ds-derivs-plot`. -/
theorem ds_derivs_plot_effective {α : Type} (load : String → Except PyErr RunHead)
    (draw : RunHead → Val → Dict String Val → Except PyErr α) (file range : String)
    (given : List Occ) (h : accepted (logging_options ++ ds_derivs_plot.options) given = true) :
    ds_derivs_plot.run load draw file range given =
      expected load draw file range given ds_derivs_plot_table := by
  have hd : Distinct (logging_options ++ ds_derivs_plot.options) := by
    refine distinct _ ?_ ?_ <;>
    · simp only [ds_derivs_plot, ownCommand, logging_options, common_plotting_options,
        common_output_plot_options, common_plot_appearence_options, flag,
        List.map_append, List.map_cons, List.map_nil]
      decide +kernel
  refine own_eq "ds-derivs-plot" _ _ _ _ _ _
    [("nolog", .set "--nolog")]
    given hd ?_ ?_ ds_derivs_plot_table ?_ ?_ ?_ ?_ load draw file range h
  · have h1 := parsed_set given _ _ _ _ (hd (flag "--nolog" "nolog")
      (by simp [ds_derivs_plot, ownCommand]))
    simp only [ds_derivs_plot, ownCommand] at h1
    intro E
    simp only [gets, List.map_cons, List.map_nil, getD, h1,
      Option.getD_some, arguments, Source.value]
  · constructor <;>
      simp [reserved, ownCommand, plotSig, fileSig, plotCall, same, Dict.keys, Dict.get?]
  · decide +kernel
  · simp [Dict.keys]
  · simp [ds_derivs_plot_table, common, drawSig, Dict.keys]
  · simp [ds_derivs_plot_table, common]

/-- The arguments of `generate_…` of ds-component-plot and the options they come from. -/
def ds_component_plot_table : List (String × Source) :=
  common ++ [("only", .option "--only" .none), ("use_E_r", .run)]

/-- `ds-component-plot`. -/
theorem ds_component_plot_effective {α : Type} (load : String → Except PyErr RunHead)
    (draw : RunHead → Val → Dict String Val → Except PyErr α) (file range : String)
    (given : List Occ) (h : accepted (logging_options ++ ds_component_plot.options) given = true) :
    ds_component_plot.run load draw file range given =
      expected load draw file range given ds_component_plot_table := by
  have hd : Distinct (logging_options ++ ds_component_plot.options) := by
    refine distinct _ ?_ ?_ <;>
    · simp only [ds_component_plot, ownCommand, logging_options, common_plotting_options,
        common_output_plot_options, common_plot_appearence_options,
        List.map_append, List.map_cons, List.map_nil]
      decide +kernel
  refine own_eq "ds-component-plot" _ _ _ _ _ _
    [("only", .option "--only" .none)]
    given hd ?_ ?_ ds_component_plot_table ?_ ?_ ?_ ?_ load draw file range h
  · have h1 := parsed_store given _ _ _ _ _ (hd ({ name := "--only", dest := "only", default := some .none })
      (by simp [ds_component_plot, ownCommand]))
    simp only [ds_component_plot, ownCommand] at h1
    intro E
    simp only [gets, List.map_cons, List.map_nil, getD, h1,
      Option.getD_some, arguments, Source.value]
  · constructor <;>
      simp [reserved, ownCommand, plotSig, fileSig, plotCall, same, Dict.keys, Dict.get?]
  · decide +kernel
  · simp [Dict.keys]
  · simp [ds_component_plot_table, common, drawSig, Dict.keys]
  · simp [ds_component_plot_table, common]

/-- The arguments of `generate_…` of ds-taylor-plot and the options they come from. -/
def ds_taylor_plot_table : List (String × Source) :=
  common ++ [("show_values", .set "--show-values"), ("use_E_r", .run)]

/-- `ds-taylor-plot`. -/
theorem ds_taylor_plot_effective {α : Type} (load : String → Except PyErr RunHead)
    (draw : RunHead → Val → Dict String Val → Except PyErr α) (file range : String)
    (given : List Occ) (h : accepted (logging_options ++ ds_taylor_plot.options) given = true) :
    ds_taylor_plot.run load draw file range given =
      expected load draw file range given ds_taylor_plot_table := by
  have hd : Distinct (logging_options ++ ds_taylor_plot.options) := by
    refine distinct _ ?_ ?_ <;>
    · simp only [ds_taylor_plot, ownCommand, logging_options, common_plotting_options,
        common_output_plot_options, common_plot_appearence_options, flag,
        List.map_append, List.map_cons, List.map_nil]
      decide +kernel
  refine own_eq "ds-taylor-plot" _ _ _ _ _ _
    [("show_values", .set "--show-values")]
    given hd ?_ ?_ ds_taylor_plot_table ?_ ?_ ?_ ?_ load draw file range h
  · have h1 := parsed_set given _ _ _ _ (hd (flag "--show-values" "show_values")
      (by simp [ds_taylor_plot, ownCommand]))
    simp only [ds_taylor_plot, ownCommand] at h1
    intro E
    simp only [gets, List.map_cons, List.map_nil, getD, h1,
      Option.getD_some, arguments, Source.value]
  · constructor <;>
      simp [reserved, ownCommand, plotSig, fileSig, plotCall, same, Dict.keys, Dict.get?]
  · decide +kernel
  · simp [Dict.keys]
  · simp [ds_taylor_plot_table, common, drawSig, Dict.keys]
  · simp [ds_taylor_plot_table, common]

/-- The arguments of `generate_…` of ds-combine-plot and the options they come from. -/
def ds_combine_plot_table : List (String × Source) :=
  common ++ [("with_slow", .set "--with-slow"), ("with_alfven", .set "--with-alfven"),
    ("with_fast", .set "--with-fast"), ("with_sonic", .set "--with-sonic"), ("use_E_r", .run)]

/-- `ds-combine-plot`. -/
theorem ds_combine_plot_effective {α : Type} (load : String → Except PyErr RunHead)
    (draw : RunHead → Val → Dict String Val → Except PyErr α) (file range : String)
    (given : List Occ) (h : accepted (logging_options ++ ds_combine_plot.options) given = true) :
    ds_combine_plot.run load draw file range given =
      expected load draw file range given ds_combine_plot_table := by
  have hd : Distinct (logging_options ++ ds_combine_plot.options) := by
    refine distinct _ ?_ ?_ <;>
    · simp only [ds_combine_plot, ownCommand, logging_options, common_plotting_options,
        common_output_plot_options, common_plot_appearence_options, flag,
        List.map_append, List.map_cons, List.map_nil]
      decide +kernel
  refine own_eq "ds-combine-plot" _ _ _ _ _ _
    [("with_slow", .set "--with-slow"), ("with_alfven", .set "--with-alfven"),
    ("with_fast", .set "--with-fast"), ("with_sonic", .set "--with-sonic")]
    given hd ?_ ?_ ds_combine_plot_table ?_ ?_ ?_ ?_ load draw file range h
  · have h1 := parsed_set given _ _ _ _ (hd (flag "--with-slow" "with_slow")
      (by simp [ds_combine_plot, ownCommand]))
    have h2 := parsed_set given _ _ _ _ (hd (flag "--with-alfven" "with_alfven")
      (by simp [ds_combine_plot, ownCommand]))
    have h3 := parsed_set given _ _ _ _ (hd (flag "--with-fast" "with_fast")
      (by simp [ds_combine_plot, ownCommand]))
    have h4 := parsed_set given _ _ _ _ (hd (flag "--with-sonic" "with_sonic")
      (by simp [ds_combine_plot, ownCommand]))
    simp only [ds_combine_plot, ownCommand] at h1 h2 h3 h4
    intro E
    simp only [gets, List.map_cons, List.map_nil, getD, h1, h2, h3, h4,
      Option.getD_some, arguments, Source.value]
  · constructor <;>
      simp [reserved, ownCommand, plotSig, fileSig, plotCall, same, Dict.keys, Dict.get?]
  · decide +kernel
  · simp [Dict.keys]
  · simp [ds_combine_plot_table, common, drawSig, Dict.keys]
  · simp [ds_combine_plot_table, common]

/-- The arguments of the Jacobian plots. -/
noncomputable def jacobian_table : List (String × Source) :=
  [("eps", .option "--eps" (.num (1 / 10 ^ 10))), ("use_E_r", .run), ("θ_scale", .const (.num 1)),
   ("start", .option "--start" (.num 0)), ("stop", .option "--stop" (.num 90)),
   ("linestyle", .option "--linestyle" (.str "-"))]

/-- `ds-jacobian-eigenvalue-plot`, `-eigenvector-plot` and `-eigennorm-plot`: the step of
the differences is `--eps`. -/
theorem jacobian_effective {α : Type} (name : String) (load : String → Except PyErr RunHead)
    (draw : RunHead → Val → Dict String Val → Except PyErr α) (file range : String)
    (given : List Occ)
    (h : accepted (logging_options ++ (jacobianCommand name).options) given = true) :
    (jacobianCommand name).run load draw file range given =
      expected load draw file range given jacobian_table := by
  have hd : Distinct (logging_options ++ (jacobianCommand name).options) := by
    refine distinct _ ?_ ?_ <;>
    · simp only [jacobianCommand, logging_options, common_plotting_options, eps_option,
        common_output_plot_options, common_plot_appearence_options,
        List.map_append, List.map_cons, List.map_nil]
      decide +kernel
  have hca := commonArgs given (fun o ho => hd o (by
    simp only [jacobianCommand, List.mem_append]; tauto))
  have he := parsed_store given _ _ _ _ _ (hd eps_option (by simp [jacobianCommand]))
  let m : List (String × Source) := [("start", .option "--start" (.num 0)),
    ("stop", .option "--stop" (.num 90)), ("linestyle", .option "--linestyle" (.str "-")),
    ("eps", .option "--eps" (.num (1 / 10 ^ 10)))]
  have hw : Wired (jacobianCommand name) ["linestyle", "start", "stop", "eps"]
      ["start", "stop", "linestyle", "eps"] := by
    constructor <;> simp [reserved, jacobianCommand, plotSig, fileSig, plotCall, same, Dict.keys,
      Dict.get?]
  refine run_eq (jacobianCommand name) ["linestyle", "start", "stop", "eps"]
    (arguments given false m) hw
    [("common_plot_args", common6 given ++ arguments given false (m.take 3)),
     ("plot_args", arguments given false (m.drop 3))]
    load draw file range given h ?_ rfl ?_ _ ?_
  · simp only [jacobianCommand] at hca he ⊢
    simp only [split, hca, gets, List.map_cons, List.map_nil, getD, he]
    rfl
  · simp [jacobianCommand, passed, Dict.get?, m, arguments]
  · intro E
    simp only [jacobianCommand, bindAll]
    rw [bind_ok _ _ (by simp [Dict.keys]) (Or.inl rfl) (by simp [Dict.keys])]
    simp only
    rw [bind_ok _ _ (by simp [Dict.keys]) (Or.inr (by simp [Dict.keys])) (by simp)]
    simp [getD, Dict.get?, arguments, Source.value, Dict.keys, m, jacobian_table]

/-- The arguments of the plot of the coefficients. -/
noncomputable def coef_table : List (String × Source) :=
  [("eps", .option "--eps" (.num (1 / 10 ^ 10))), ("use_E_r", .run),
   ("start", .option "--start" (.num 0)), ("stop", .option "--stop" (.num 90)),
   ("linestyle", .option "--linestyle" (.str "-")),
   ("local_eigvecs", .clear "--global-eigvecs"),
   ("critical_point", .option "--critical-point" (.str "sonic"))]

theorem coef_bind (E a b c d e f : Val) :
    bindAll [coef_sig, {}] [("use_E_r", E), ("linestyle", a), ("start", b), ("stop", c),
      ("eps", d), ("local_eigvecs", e), ("critical_point", f)] =
    .ok [("eps", d), ("use_E_r", E), ("start", b), ("stop", c), ("linestyle", a),
      ("local_eigvecs", e), ("critical_point", f)] := by
  rw [bindAll, bind_ok _ _ (by simp [Dict.keys]) (Or.inl rfl) (by simp [Dict.keys, coef_sig])]
  simp only [bindAll]
  rw [bind_ok _ _ (by simp [Dict.keys, coef_sig]) (Or.inr (by simp [Dict.keys, coef_sig]))
    (by simp)]
  simp [getD, Dict.get?, Dict.keys, coef_sig]

/-- `ds-eigenvector-coef-plot`: local eigenvectors unless global ones are asked for. -/
theorem coef_effective {α : Type} (load : String → Except PyErr RunHead)
    (draw : RunHead → Val → Dict String Val → Except PyErr α) (file range : String)
    (given : List Occ)
    (h : accepted (logging_options ++ ds_eigenvector_coef_plot.options) given = true) :
    ds_eigenvector_coef_plot.run load draw file range given =
      expected load draw file range given coef_table := by
  set opts := logging_options ++ ds_eigenvector_coef_plot.options with hopts
  have hnames : (opts.map (·.name)).Nodup := by
    simp only [hopts, ds_eigenvector_coef_plot, logging_options, common_plotting_options,
      eps_option, common_output_plot_options, common_plot_appearence_options,
      List.map_append, List.map_cons, List.map_nil]
    decide +kernel
  have hdests : opts.map (·.dest) = ["log_file", "log_file_level", "stderr_level", "quiet",
      "verbose", "show", "filename", "figsize", "title", "style", "with_version", "start",
      "stop", "linestyle", "eps", "critical_point", "local_eigvecs", "local_eigvecs"] := by
    rfl
  have hown (o : Opt) (ho : o ∈ opts) (hk : o.dest ≠ "local_eigvecs") : Own opts o := by
    refine own_of opts hnames o ho ?_
    have hm : o.dest ∈ opts.map (·.dest) := List.mem_map_of_mem ho
    rw [hdests] at hm ⊢
    generalize o.dest = d at hm hk
    simp only [List.mem_cons, List.not_mem_nil, or_false] at hm
    rcases hm with rfl | rfl | rfl | rfl | rfl | rfl | rfl | rfl | rfl | rfl | rfl | rfl | rfl |
      rfl | rfl | rfl | rfl | rfl <;> first | exact absurd rfl hk | decide +kernel
  have hca := commonArgs (opts := opts) given (fun o ho => hown o
    (by simp only [hopts, ds_eigenvector_coef_plot, List.mem_append]; tauto) (by
      simp only [common_plotting_options, common_output_plot_options,
        common_plot_appearence_options, List.mem_append, List.mem_cons, List.not_mem_nil,
        or_false] at ho
      rcases ho with ((rfl | rfl | rfl) | rfl | rfl | rfl) | rfl | rfl | rfl <;> decide))
  have he := parsed_store (opts := opts) given _ _ _ _ _ (hown eps_option
    (by simp [hopts, ds_eigenvector_coef_plot]) (by decide))
  have hcp := parsed_store (opts := opts) given "--critical-point" "critical_point" (.str "sonic")
    (some ["slow", "sonic", "alfven", "fast"]) none (hown _
    (by simp [hopts, ds_eigenvector_coef_plot]) (by decide))
  have hsw := parsed_switch opts hnames ⟨"--local-eigvecs", "local_eigvecs", .storeTrue, none, none,
    some "local"⟩ ⟨"--global-eigvecs", "local_eigvecs", .storeFalse, none, none, some "local"⟩
    "local" "local_eigvecs"
    (by simp [hopts, ds_eigenvector_coef_plot, logging_options, common_plotting_options,
      eps_option, common_output_plot_options, common_plot_appearence_options])
    rfl rfl rfl rfl (by decide) given h
  have hloc : (Dict.get? (given.foldl (step opts) (initial true opts [])) "local_eigvecs").getD
      (.bool true) = .bool (!isGiven given "--global-eigvecs") := by
    rw [hsw]
    by_cases hg : isGiven given "--global-eigvecs" = true
    · simp [hg]
    · by_cases hl : isGiven given "--local-eigvecs" = true <;> simp [hg, hl, Opt.initial]
  let m : List (String × Source) := [("start", .option "--start" (.num 0)),
    ("stop", .option "--stop" (.num 90)), ("linestyle", .option "--linestyle" (.str "-")),
    ("eps", .option "--eps" (.num (1 / 10 ^ 10))),
    ("critical_point", .option "--critical-point" (.str "sonic")),
    ("local_eigvecs", .clear "--global-eigvecs")]
  have hw : Wired ds_eigenvector_coef_plot
      ["linestyle", "start", "stop", "eps", "local_eigvecs", "critical_point"]
      ["start", "stop", "linestyle", "eps", "critical_point", "local_eigvecs"] := by
    constructor <;> simp [reserved, ds_eigenvector_coef_plot, plotSig, fileSig, plotCall, same,
      Dict.keys, Dict.get?]
  refine run_eq ds_eigenvector_coef_plot
    ["linestyle", "start", "stop", "eps", "local_eigvecs", "critical_point"]
    (arguments given false m) hw
    [("common_plot_args", common6 given ++ arguments given false (m.take 3)),
     ("plot_args", arguments given false (m.drop 3))]
    load draw file range given h ?_ rfl ?_ _ ?_
  · rw [← hopts]
    simp only [ds_eigenvector_coef_plot, split, hca, gets, List.map_cons, List.map_nil, getD, he,
      hcp, hloc]
    rfl
  · simp [ds_eigenvector_coef_plot, passed, Dict.get?, m, arguments]
  · intro E
    exact coef_bind (.bool E) _ _ _ _ _ _

/-- The arguments of the flow plot. -/
noncomputable def flow_table : List (String × Source) :=
  [("v_start_position", .option "--v-start-position" (.two 2 (1 / 10))),
   ("B_start_position", .option "--B-start-position" (.two 1 0)),
   ("v_max_steps", .option "--v-max-steps" (.num 100000)),
   ("B_max_steps", .option "--B-max-steps" (.num 1000000)),
   ("v_step_scaling", .option "--v-step-scaling" (.num (1 / 10 ^ 6))),
   ("B_step_scaling", .option "--B-step-scaling" (.num (1 / 10 ^ 3))),
   ("use_E_r", .run), ("with_slow", .const (.bool false)), ("with_sonic", .const (.bool true)),
   ("with_alfven", .const (.bool false)), ("with_fast", .const (.bool false)),
   ("with_45_line", .const (.bool false)), ("with_max_soln_angle", .const (.bool false)),
   ("with_max_v_angle", .clear "--no-max-v-angle")]

theorem flow_bind (E a b c d e f g : Val) :
    bindAll ds_flow_plot.sigs [("use_E_r", E), ("v_start_position", a), ("v_max_steps", b),
      ("v_step_scaling", c), ("B_start_position", d), ("B_max_steps", e), ("B_step_scaling", f),
      ("with_max_v_angle", g)] =
    .ok [("v_start_position", a), ("B_start_position", d), ("v_max_steps", b),
      ("B_max_steps", e), ("v_step_scaling", c), ("B_step_scaling", f), ("use_E_r", E),
      ("with_slow", .bool false), ("with_sonic", .bool true), ("with_alfven", .bool false),
      ("with_fast", .bool false), ("with_45_line", .bool false),
      ("with_max_soln_angle", .bool false), ("with_max_v_angle", g)] := by
  rw [ds_flow_plot, bindAll_one _ _ (by simp [Dict.keys])
    (by simp [Dict.keys, trajectory_defaults]) (by simp)]
  simp only [trajectory_defaults, List.map_cons, List.map_nil, List.cons_append,
    List.nil_append]
  simp [getD, Dict.get?]

theorem flow_options : Distinct (logging_options ++ ds_flow_plot.options) := by
  refine distinct _ ?_ ?_ <;>
  · simp only [ds_flow_plot, logging_options, trajectory_options,
      common_output_plot_options, common_plot_appearence_options,
      List.map_append, List.map_cons, List.map_nil]
    decide +kernel

/-- An option without default is left out if it is not given. -/
theorem parsed_optional {opts : List Opt} (given : List Occ) (name dest : String)
    (hm : Own opts ⟨name, dest, .store, none, none, none⟩) :
    Dict.get? (given.foldl (step opts) (initial true opts [])) dest = lastGiven given name := by
  have h := parsed true opts given _ hm.1 hm.2
  simp only [after, Opt.initial] at h
  rw [h]
  cases lastGiven given name <;> rfl

theorem optional_orElse {given : List Occ} {name : String} (d : Val)
    (hv : ∀ v, (name, v) ∈ given → v ≠ .none) :
    ((lastGiven given name).getD .none).orElse d = (lastGiven given name).getD d := by
  cases h : lastGiven given name with
  | none => rfl
  | some v =>
    have : v ≠ .none := by
      simp only [lastGiven, Option.map_eq_some_iff] at h
      obtain ⟨p, hp, rfl⟩ := h
      have hm := List.mem_of_getLast? hp
      simp only [List.mem_filter, decide_eq_true_eq] at hm
      exact hv _ (hm.2 ▸ hm.1)
    cases v <;> first | exact absurd rfl this | rfl

/-- The options of the flow plot and the arguments they become. -/
noncomputable def flow_own : List (String × Source) :=
  [("v_start_position", .option "--v-start-position" (.two 2 (1 / 10))),
   ("v_max_steps", .option "--v-max-steps" (.num 100000)),
   ("v_step_scaling", .option "--v-step-scaling" (.num (1 / 10 ^ 6))),
   ("B_start_position", .option "--B-start-position" (.two 1 0)),
   ("B_max_steps", .option "--B-max-steps" (.num 1000000)),
   ("B_step_scaling", .option "--B-step-scaling" (.num (1 / 10 ^ 3))),
   ("with_max_v_angle", .clear "--no-max-v-angle")]

theorem flow_wired : Wired ds_flow_plot (flow_own.map (·.1)) (flow_own.map (·.1)) := by
  constructor
  · simp only [flow_own, List.map_cons, List.map_nil]; decide +kernel
  · simp only [flow_own, List.map_cons, List.map_nil, ds_flow_plot, trajectory_defaults,
      Dict.keys, List.map_append]
    decide +kernel
  · simp only [flow_own, List.map_cons, List.map_nil, ds_flow_plot]
    decide +kernel
  · rfl
  · simp only [flow_own, List.map_cons, List.map_nil]; decide +kernel
  · simp only [flow_own, List.map_cons, List.map_nil, ds_flow_plot, trajectory_defaults,
      Dict.keys, List.map_append]
    decide +kernel
  · simp only [flow_own, List.map_cons, List.map_nil]; decide +kernel
  · rfl
  · simp only [flow_own, List.map_cons, List.map_nil]; decide +kernel

/-- `ds-flow-plot`; a position given is two numbers, never `None`. -/
theorem flow_effective {α : Type} (load : String → Except PyErr RunHead)
    (draw : RunHead → Val → Dict String Val → Except PyErr α) (file range : String)
    (given : List Occ)
    (hv : ∀ v, ("--v-start-position", v) ∈ given → v ≠ .none)
    (hB : ∀ v, ("--B-start-position", v) ∈ given → v ≠ .none)
    (h : accepted (logging_options ++ ds_flow_plot.options) given = true) :
    ds_flow_plot.run load draw file range given =
      expected load draw file range given flow_table := by
  have hd := flow_options
  set opts := logging_options ++ ds_flow_plot.options with hopts
  obtain ⟨g1, g2, g3, g4, g5, g6⟩ := commonParsed (opts := opts) given (fun o ho => hd o (by
    simp only [hopts, ds_flow_plot, List.mem_append] at ho ⊢; tauto))
  have mem (o : Opt) (ho : o ∈ trajectory_options) : Own opts o := hd o (by
    simp only [hopts, ds_flow_plot, List.mem_append]; tauto)
  have h1 := parsed_optional (opts := opts) given "--v-start-position" "v_start_position"
    (mem _ (by simp [trajectory_options]))
  have h2 := parsed_store (opts := opts) given "--v-max-steps" "v_max_steps" (.num 100000) none none
    (mem _ (by simp [trajectory_options]))
  have h3 := parsed_store (opts := opts) given "--v-step-scaling" "v_step_scaling"
    (.num (1 / 10 ^ 6)) none none (mem _ (by simp [trajectory_options]))
  have h4 := parsed_optional (opts := opts) given "--B-start-position" "B_start_position"
    (mem _ (by simp [trajectory_options]))
  have h5 := parsed_store (opts := opts) given "--B-max-steps" "B_max_steps" (.num 1000000) none
    none (mem _ (by simp [trajectory_options]))
  have h6 := parsed_store (opts := opts) given "--B-step-scaling" "B_step_scaling"
    (.num (1 / 10 ^ 3)) none none (mem _ (by simp [trajectory_options]))
  have h7 := parsed_clear (opts := opts) given "--no-max-v-angle" "with_max_v_angle" none none
    (mem _ (by simp [trajectory_options]))
  refine run_eq ds_flow_plot (flow_own.map (·.1)) (arguments given false flow_own)
    flow_wired
    [("common_plot_output_args", (common6 given).drop 3),
     ("common_plot_appearence_args", (common6 given).take 3),
     ("plot_args", arguments given false flow_own)]
    load draw file range given h ?_ rfl ?_ _ ?_
  · rw [← hopts]
    have ho : get_common_plot_output_args (given.foldl (step opts) (initial true opts [])) =
        .ok ((common6 given).drop 3) := by
      simp only [get_common_plot_output_args, items, Dict.getItem, g1, g2, g3, common6,
        List.drop_succ_cons, List.drop_zero, List.cons_append, List.nil_append, figsize]
      cases (lastGiven given "--figsize").getD .none <;> rfl
    have hp : get_common_plot_appearence_args (given.foldl (step opts) (initial true opts [])) =
        .ok ((common6 given).take 3) := by
      simp only [get_common_plot_appearence_args, items, Dict.getItem, g4, g5, g6, common6,
        List.take_succ_cons, List.take_zero]
    have ht : get_trajectory_args (given.foldl (step opts) (initial true opts [])) =
        .ok (arguments given false flow_own) := by
      simp only [get_trajectory_args, getD, h1, h2, h3, h4, h5, h6, h7, Option.getD_some,
        optional_orElse _ hv, optional_orElse _ hB]
      rfl
    simp only [ds_flow_plot, split, ho, hp, ht]
  · simp only [ds_flow_plot, passed, List.flatMap_cons, List.flatMap_nil, common6]
    simp [Dict.get?]
  · intro E
    exact flow_bind (.bool E) _ _ _ _ _ _ _

/-! ## Commands about several solutions -/

theorem runs_cons (x : Occ) (given : List Occ) :
    runs (x :: given) =
      (if x.1 = "--runs" then (match x.2 with | .pairs l => l | _ => []) else []) ++ runs given :=
  rfl

theorem appended (given : List Occ) (hv : ∀ v, ("--runs", v) ∈ given → ∃ p, v = .pairs [p])
    (l : List (String × String)) :
    given.foldl (fun b occ =>
      if occ.1 = "--runs" then some (Action.append.apply b occ.2) else b) (some (.pairs l)) =
      some (.pairs (l ++ runs given)) := by
  induction given generalizing l with
  | nil => simp [runs]
  | cons x given ih =>
    have ih := ih fun v h => hv v (List.mem_cons_of_mem _ h)
    obtain ⟨n, v⟩ := x
    rw [List.foldl_cons, runs_cons]
    by_cases hn : n = "--runs"
    · subst hn
      obtain ⟨p, rfl⟩ := hv v (by simp)
      simp only [if_true]
      rw [show Action.append.apply (some (.pairs l)) (.pairs [p]) = .pairs (l ++ [p]) from rfl,
        ih, List.append_assoc]
    · simp only [hn, if_false]
      rw [ih, List.nil_append]

/-- The pairs given with `--runs`; without any the destination is left out. -/
theorem parsed_runs {opts : List Opt} (given : List Occ) (hm : Own opts runs_option)
    (hv : ∀ v, ("--runs", v) ∈ given → ∃ p, v = .pairs [p]) :
    Dict.get? (given.foldl (step opts) (initial true opts [])) "soln_pairs" =
      if isGiven given "--runs" then some (.pairs (runs given)) else none := by
  have h := parsed true opts given _ hm.1 hm.2
  simp only [runs_option] at h
  rw [h]
  clear h hm
  simp only [after, Opt.initial, if_true]
  induction given with
  | nil => simp [isGiven]
  | cons x given ih =>
    have hv' := fun v h => hv v (List.mem_cons_of_mem _ h)
    obtain ⟨n, v⟩ := x
    rw [List.foldl_cons]
    by_cases hn : n = "--runs"
    · subst hn
      obtain ⟨p, rfl⟩ := hv v (by simp)
      simp only [if_true]
      rw [show Action.append.apply none (.pairs [p]) = .pairs [p] from rfl,
        appended given hv' [p], isGiven_of_eq rfl, if_pos rfl]
      rfl
    · have e : isGiven ((n, v) :: given) "--runs" = isGiven given "--runs" := isGiven_of_ne hn
      simp only [hn, if_false]
      rw [ih hv', e, runs_cons]
      simp only [hn, if_false, List.nil_append]

/-- The arguments of the commands about several solutions, `n` of them. -/
def many_table (n : ℕ) : List (String × Source) :=
  ("num_solutions", .const (.num n)) :: common

theorem many_calls {α : Type} (name : String) (n t st sh pf fa s0 s1 ls : Val) (v : Bool) (k : ℕ)
    (hn : n.orElse (.num k) = n)
    (draw : Dict String Val → Except PyErr α) :
    (manyCommand name).plotMany k draw [("num_solutions", n), ("title", t), ("mpl_style", st),
        ("with_version", .bool v), ("show", sh), ("plot_filename", pf), ("figargs", fa),
        ("start", s0), ("stop", s1), ("linestyle", ls)] =
    (draw [("num_solutions", n), ("linestyle", ls), ("start", s0), ("stop", s1)]).map
      fun contents => ⟨contents, t, st, fa.orElse (.figargs none), v, pf, sh.truthy, true⟩ := by
  unfold Command.plotMany
  rw [bind_ok _ _ (by simp [Dict.keys]) (Or.inr (by simp [manyCommand, manySig, Dict.keys]))
    (by simp [manyCommand, manySig])]
  simp only [manyCommand, manySig, List.map_cons, List.map_nil, List.cons_append,
    List.nil_append]
  unfold multiple_solution_plotter
  rw [bind_ok _ _ (by simp [pick, manyCall, same, Dict.keys]) (Or.inl rfl)
    (by simp [multiple_sig])]
  simp only [pick, manyCall, same, List.map_cons, List.map_nil, List.cons_append,
    List.nil_append, multiple_sig]
  simp [getD, Dict.get?, Dict.keys]
  rw [bindAll_one _ _ (by simp [Dict.keys]) (by simp [manyDraw, Dict.keys])
    (by simp [manyDraw, Dict.keys])]
  simp only [manyDraw, List.map_cons, List.map_nil, List.cons_append, List.nil_append]
  simp [getD, Dict.get?]
  rw [hn]
  cases draw [("num_solutions", n), ("linestyle", ls), ("start", s0), ("stop", s1)] with
  | error e => rfl
  | ok contents => simp [Except.map, plot_output_wrapper, getD, Dict.get?, Val.truthy]

theorem compare_calls {α : Type} (n t st sh pf fa s0 s1 ls sc : Val) (v : Bool) (k : ℕ)
    (hn : n.orElse (.num k) = n)
    (draw : Dict String Val → Except PyErr α) :
    ds_compare_plot.plotMany k draw [("num_solutions", n), ("title", t), ("mpl_style", st),
        ("with_version", .bool v), ("show", sh), ("plot_filename", pf), ("figargs", fa),
        ("start", s0), ("stop", s1), ("linestyle", ls), ("v_θ_scale", sc)] =
    (draw [("num_solutions", n), ("linestyle", ls), ("start", s0), ("stop", s1),
      ("v_θ_scale", sc), ("use_E_r", .bool false)]).map
      fun contents => ⟨contents, t, st, fa.orElse (.figargs none), v, pf, sh.truthy, true⟩ := by
  unfold Command.plotMany
  rw [bind_ok _ _ (by simp [Dict.keys]) (Or.inr (by simp [ds_compare_plot, manySig, Dict.keys]))
    (by simp [ds_compare_plot, manySig])]
  simp only [ds_compare_plot, manySig, List.map_cons, List.map_nil, List.cons_append,
    List.nil_append]
  unfold multiple_solution_plotter
  rw [bind_ok _ _ (by simp [pick, manyCall, same, Dict.keys]) (Or.inl rfl)
    (by simp [multiple_sig])]
  simp only [pick, manyCall, same, List.map_cons, List.map_nil, List.cons_append,
    List.nil_append, multiple_sig]
  simp [getD, Dict.get?, Dict.keys]
  rw [bindAll_one _ _ (by simp [Dict.keys]) (by simp [manyDraw, Dict.keys])
    (by simp [manyDraw, Dict.keys])]
  simp only [manyDraw, List.map_cons, List.map_nil, List.cons_append, List.nil_append]
  simp [getD, Dict.get?]
  rw [hn]
  cases draw [("num_solutions", n), ("linestyle", ls), ("start", s0), ("stop", s1),
      ("v_θ_scale", sc), ("use_E_r", .bool false)] with
  | error e => rfl
  | ok contents => simp [Except.map, plot_output_wrapper, getD, Dict.get?, Val.truthy]

theorem orElse_none (v : Val) : v.orElse .none = v := by cases v <;> rfl

/-- `ds-sonic-ratio-plot`, `ds-v-deriv-plot` and `ds-phys-ratio-plot`: all the solutions
given with `--runs` are drawn, in their order.  Each `--runs` takes one file and one
solution. -/
theorem many_effective {α : Type} (name : String)
    (draw : List (String × String) → Dict String Val → Except PyErr α) (given : List Occ)
    (h : accepted (logging_options ++ runs_option :: (manyCommand name).options) given = true)
    (hv : ∀ v, ("--runs", v) ∈ given → ∃ p, v = .pairs [p])
    (hr : isGiven given "--runs" = true) :
    (manyCommand name).runMany draw given =
      expectedMany draw given (many_table (runs given).length) := by
  have hd : Distinct (logging_options ++ runs_option :: (manyCommand name).options) := by
    refine distinct _ ?_ ?_ <;>
    · simp only [manyCommand, logging_options, common_plotting_options, runs_option,
        common_output_plot_options, common_plot_appearence_options,
        List.map_append, List.map_cons, List.map_nil]
      decide +kernel
  have hca := commonArgs given (fun o ho => hd o (by
    simp only [manyCommand, List.mem_append, List.mem_cons]; tauto))
  have hp := parsed_runs given (hd runs_option (by simp)) hv
  rw [if_pos hr] at hp
  unfold Command.runMany parse_args
  rw [if_pos h]
  have hs : split (given.foldl (step (logging_options ++ runs_option :: (manyCommand name).options))
      (initial true (logging_options ++ runs_option :: (manyCommand name).options) []))
      (manyCommand name).splitters = .ok [("common_plot_args",
        common6 given ++ arguments given false
          [("start", .option "--start" (.num 0)), ("stop", .option "--stop" (.num 90)),
           ("linestyle", .option "--linestyle" (.str "-"))])] := by
    simp only [manyCommand, split] at hca ⊢
    rw [hca]
    rfl
  simp only [hs, Dict.getItem, hp]
  rw [if_neg (by simp [callMain, manyCommand, Dict.keys])]
  have hpass : passed [("common_plot_args",
        common6 given ++ arguments given false
          [("start", .option "--start" (.num 0)), ("stop", .option "--stop" (.num 90)),
           ("linestyle", .option "--linestyle" (.str "-"))])] (manyCommand name).passes =
      common6 given ++ arguments given false
          [("start", .option "--start" (.num 0)), ("stop", .option "--stop" (.num 90)),
           ("linestyle", .option "--linestyle" (.str "-"))] := by
    simp [passed, manyCommand, Dict.get?]
  rw [hpass]
  have key := many_calls name (.num ((runs given).length : ℝ))
    ((lastGiven given "--title").getD .none) ((lastGiven given "--style").getD (.str "bmh"))
    (.bool (isGiven given "--show")) ((lastGiven given "--filename").getD .none)
    (figsize ((lastGiven given "--figsize").getD .none))
    ((lastGiven given "--start").getD (.num 0)) ((lastGiven given "--stop").getD (.num 90))
    ((lastGiven given "--linestyle").getD (.str "-")) (!isGiven given "--no-show-version")
    (runs given).length rfl (draw (runs given))
  refine key.trans ?_
  rw [figsize_orElse]
  unfold expectedMany
  have hargs : arguments given false (many_table (runs given).length) =
      [("num_solutions", .num ((runs given).length : ℝ)),
       ("linestyle", (lastGiven given "--linestyle").getD (.str "-")),
       ("start", (lastGiven given "--start").getD (.num 0)),
       ("stop", (lastGiven given "--stop").getD (.num 90))] := rfl
  rw [hargs]
  cases draw (runs given) _ with
  | error e => rfl
  | ok contents => simp only [Except.map, expectedFigure, orElse_none, Val.truthy]

/-- The arguments of `ds-compare-plot`; note that `use_E_r` is fixed. -/
def compare_table (n : ℕ) : List (String × Source) :=
  many_table n ++ [("v_θ_scale", .option "--v_θ" (.str "linear")), ("use_E_r", .const (.bool false))]

/-- `ds-compare-plot`. -/
theorem compare_effective {α : Type}
    (draw : List (String × String) → Dict String Val → Except PyErr α) (given : List Occ)
    (h : accepted (logging_options ++ runs_option :: ds_compare_plot.options) given = true)
    (hv : ∀ v, ("--runs", v) ∈ given → ∃ p, v = .pairs [p])
    (hr : isGiven given "--runs" = true) :
    ds_compare_plot.runMany draw given =
      expectedMany draw given (compare_table (runs given).length) := by
  have hd : Distinct (logging_options ++ runs_option :: ds_compare_plot.options) := by
    refine distinct _ ?_ ?_ <;>
    · simp only [ds_compare_plot, logging_options, common_plotting_options, runs_option, v_θ_option,
        common_output_plot_options, common_plot_appearence_options,
        List.map_append, List.map_cons, List.map_nil]
      decide +kernel
  have hca := commonArgs given (fun o ho => hd o (by
    simp only [ds_compare_plot, List.mem_append, List.mem_cons]; tauto))
  have hsc := parsed_store given _ _ _ _ _ (hd v_θ_option (by simp [ds_compare_plot]))
  have hp := parsed_runs given (hd runs_option (by simp)) hv
  rw [if_pos hr] at hp
  unfold Command.runMany parse_args
  rw [if_pos h]
  have hs : split (given.foldl (step (logging_options ++ runs_option :: ds_compare_plot.options))
      (initial true (logging_options ++ runs_option :: ds_compare_plot.options) []))
      ds_compare_plot.splitters = .ok [("common_plot_args",
        common6 given ++ arguments given false
          [("start", .option "--start" (.num 0)), ("stop", .option "--stop" (.num 90)),
           ("linestyle", .option "--linestyle" (.str "-"))]),
        ("plot_args", [("v_θ_scale", (lastGiven given "--v_θ").getD (.str "linear"))])] := by
    simp only [ds_compare_plot, split, gets, List.map_cons, List.map_nil, getD] at hca hsc ⊢
    rw [hca, hsc]
    rfl
  simp only [hs, Dict.getItem, hp]
  rw [if_neg (by simp [callMain, ds_compare_plot, Dict.keys])]
  have hpass : passed [("common_plot_args",
        common6 given ++ arguments given false
          [("start", .option "--start" (.num 0)), ("stop", .option "--stop" (.num 90)),
           ("linestyle", .option "--linestyle" (.str "-"))]),
        ("plot_args", [("v_θ_scale", (lastGiven given "--v_θ").getD (.str "linear"))])] ds_compare_plot.passes =
      common6 given ++ arguments given false
          [("start", .option "--start" (.num 0)), ("stop", .option "--stop" (.num 90)),
           ("linestyle", .option "--linestyle" (.str "-")),
           ("v_θ_scale", .option "--v_θ" (.str "linear"))] := by
    simp [passed, ds_compare_plot, Dict.get?, arguments, Source.value]
  rw [hpass]
  have key := compare_calls (.num ((runs given).length : ℝ))
    ((lastGiven given "--title").getD .none) ((lastGiven given "--style").getD (.str "bmh"))
    (.bool (isGiven given "--show")) ((lastGiven given "--filename").getD .none)
    (figsize ((lastGiven given "--figsize").getD .none))
    ((lastGiven given "--start").getD (.num 0)) ((lastGiven given "--stop").getD (.num 90))
    ((lastGiven given "--linestyle").getD (.str "-"))
    ((lastGiven given "--v_θ").getD (.str "linear")) (!isGiven given "--no-show-version")
    (runs given).length rfl (draw (runs given))
  refine key.trans ?_
  rw [figsize_orElse]
  unfold expectedMany
  have hargs : arguments given false (compare_table (runs given).length) =
      [("num_solutions", .num ((runs given).length : ℝ)),
       ("linestyle", (lastGiven given "--linestyle").getD (.str "-")),
       ("start", (lastGiven given "--start").getD (.num 0)),
       ("stop", (lastGiven given "--stop").getD (.num 90)),
       ("v_θ_scale", (lastGiven given "--v_θ").getD (.str "linear")),
       ("use_E_r", .bool false)] := rfl
  rw [hargs]
  cases draw (runs given) _ with
  | error e => rfl
  | ok contents => simp only [Except.map, expectedFigure, orElse_none, Val.truthy]

/-- Without `--runs` the commands about several solutions fail. -/
theorem many_needs_runs {α : Type} (name : String)
    (draw : List (String × String) → Dict String Val → Except PyErr α) (given : List Occ)
    (h : accepted (logging_options ++ runs_option :: (manyCommand name).options) given = true)
    (hr : isGiven given "--runs" = false) :
    (manyCommand name).runMany draw given = .error .KeyError := by
  have hd : Distinct (logging_options ++ runs_option :: (manyCommand name).options) := by
    refine distinct _ ?_ ?_ <;>
    · simp only [manyCommand, logging_options, common_plotting_options, runs_option,
        common_output_plot_options, common_plot_appearence_options,
        List.map_append, List.map_cons, List.map_nil]
      decide +kernel
  have hca := commonArgs given (fun o ho => hd o (by
    simp only [manyCommand, List.mem_append, List.mem_cons]; tauto))
  have hp := parsed_runs given (hd runs_option (by simp)) (by
    intro v hm
    exfalso
    have : isGiven given "--runs" = true := List.any_eq_true.mpr ⟨_, hm, by simp⟩
    rw [hr] at this
    cases this)
  rw [if_neg (by simp [hr])] at hp
  unfold Command.runMany parse_args
  rw [if_pos h]
  simp only [manyCommand, split] at hca hp ⊢
  simp only [hca, Dict.getItem, hp]

/-! ## Commands about all solutions of a file -/

theorem mapM_keyed {σ : Type} (int : String → Except PyErr ℤ) (l : List (String × σ)) :
    (∃ keyed, (l.mapM fun p => (int p.1).map fun i => (i, p)) = .ok keyed ∧
      keyed.map (·.2) = l ∧ ∀ q ∈ keyed, int q.2.1 = .ok q.1) ∨
    (∃ e, (l.mapM fun p => (int p.1).map fun i => (i, p)) = .error e ∧
      ∃ p ∈ l, int p.1 = .error e) := by
  induction l with
  | nil => exact Or.inl ⟨[], rfl, rfl, by simp⟩
  | cons p l ih =>
    cases hi : int p.1 with
    | error e =>
      refine Or.inr ⟨e, ?_, p, by simp, hi⟩
      rw [List.mapM_cons, hi]
      rfl
    | ok i =>
      rcases ih with ⟨keyed, h1, h2, h3⟩ | ⟨e, h1, q, hq, h2⟩
      · refine Or.inl ⟨(i, p) :: keyed, ?_, by simp [h2], ?_⟩
        · rw [List.mapM_cons, hi, h1]
          rfl
        · intro q hq
          rcases List.mem_cons.mp hq with rfl | hq
          · exact hi
          · exact h3 q hq
      · refine Or.inr ⟨e, ?_, q, by simp [hq], h2⟩
        rw [List.mapM_cons, hi, h1]
        rfl

/-- The solutions of a file are drawn in the order of their numbers, none is lost, and a
name which is not a number is an error. -/
theorem sortedSolutions_spec {σ : Type} (int : String → Except PyErr ℤ)
    (stored : List (String × σ)) :
    (∀ sorted, sortedSolutions int stored = .ok sorted →
      sorted.Perm stored ∧
      sorted.Pairwise (fun a b => ∃ i j, int a.1 = .ok i ∧ int b.1 = .ok j ∧ i ≤ j) ∧
      ∀ p ∈ stored, ∃ i, int p.1 = .ok i) ∧
    (∀ e, sortedSolutions int stored = .error e → ∃ p ∈ stored, int p.1 = .error e) := by
  unfold sortedSolutions
  rcases mapM_keyed int stored with ⟨keyed, h1, h2, h3⟩ | ⟨e, h1, h2⟩
  · rw [h1]
    constructor
    · intro sorted hs
      injection hs with hs
      subst hs
      have hperm := List.mergeSort_perm keyed fun a b => decide (a.1 ≤ b.1)
      refine ⟨?_, ?_, ?_⟩
      · rw [← h2]
        exact hperm.map _
      · have hpw := List.pairwise_mergeSort (le := fun a b : ℤ × String × σ => decide (a.1 ≤ b.1))
          (by intro a b c hab hbc; simp only [decide_eq_true_eq] at *; omega)
          (by intro a b; simp only [Bool.or_eq_true, decide_eq_true_eq]; omega) keyed
        rw [List.pairwise_map]
        refine List.Pairwise.imp_of_mem ?_ hpw
        intro a b ha hb hab
        exact ⟨a.1, b.1, h3 a (hperm.mem_iff.mp ha), h3 b (hperm.mem_iff.mp hb),
          by simpa using hab⟩
      · intro p hp
        rw [← h2] at hp
        obtain ⟨q, hq, rfl⟩ := List.mem_map.mp hp
        exact ⟨q.1, h3 q hq⟩
    · intro e he
      cases he
  · rw [h1]
    constructor
    · intro sorted hs
      cases hs
    · intro e' he
      injection he with he
      subst he
      exact h2

theorem conserve_calls {α σ : Type} (title : String)
    (select : Val → List (String × σ) → Except PyErr (List (String × σ)))
    (draw : List (String × σ) → Dict String Val → Except PyErr α)
    (solutions : List (String × σ)) (fn t st sh pf fa s0 s1 ls : Val) (v : Bool)
    (hf : fa.orElse (.figargs none) = fa) :
    ds_conserve_plot.plotFile title select draw solutions [("filename", fn), ("title", t),
        ("mpl_style", st), ("with_version", .bool v), ("show", sh), ("plot_filename", pf),
        ("figargs", fa), ("start", s0), ("stop", s1), ("linestyle", ls)] =
    (select .none solutions).bind fun chosen =>
      (draw chosen [("figargs", fa), ("start", s0), ("stop", s1), ("linestyle", ls)]).map
      fun contents => ⟨contents, t.orElse (.str title), st, fa, v, pf, sh.truthy, true⟩ := by
  unfold Command.plotFile
  rw [bind_ok _ _ (by simp [Dict.keys])
    (Or.inr (by simp [ds_conserve_plot, fileSig, Dict.keys]))
    (by simp [ds_conserve_plot, fileSig, Dict.keys])]
  simp only [ds_conserve_plot, fileSig, List.map_cons, List.map_nil, List.cons_append,
    List.nil_append]
  simp [getD, Dict.get?, pick, same]
  cases select .none solutions with
  | error e => rfl
  | ok chosen =>
    simp only [Except.bind]
    rw [bindAll_one _ _ (by simp [Dict.keys]) (by simp [Dict.keys]) (by simp)]
    simp only [List.map_cons, List.map_nil, List.nil_append]
    simp [getD, Dict.get?]
    cases draw chosen [("figargs", fa), ("start", s0), ("stop", s1), ("linestyle", ls)] with
    | error e => rfl
    | ok contents => simp [Except.map, plot_output_wrapper, getD, Dict.get?, Val.truthy, hf]

theorem diverge_calls {α σ : Type} (title : String)
    (select : Val → List (String × σ) → Except PyErr (List (String × σ)))
    (draw : List (String × σ) → Dict String Val → Except PyErr α)
    (solutions : List (String × σ)) (fn t st sh pf fa s0 s1 ls w1 w2 w3 lg sf : Val) (v : Bool)
    (hf : fa.orElse (.figargs none) = fa) :
    ds_diverge_plot.plotFile title select draw solutions [("filename", fn), ("with_slow", w1),
        ("with_alfven", w2), ("with_fast", w3), ("show_legend", lg), ("solution_filter", sf),
        ("title", t),
        ("mpl_style", st), ("with_version", .bool v), ("show", sh), ("plot_filename", pf),
        ("figargs", fa), ("start", s0), ("stop", s1), ("linestyle", ls)] =
    (select sf solutions).bind fun chosen =>
      (draw chosen [("figargs", fa), ("start", s0), ("stop", s1), ("linestyle", ls),
        ("with_slow", w1), ("with_alfven", w2), ("with_fast", w3), ("show_legend", lg)]).map
      fun contents => ⟨contents, t.orElse (.str title), st, fa, v, pf, sh.truthy, true⟩ := by
  unfold Command.plotFile
  rw [bind_ok _ _ (by simp [Dict.keys])
    (Or.inr (by simp [ds_diverge_plot, fileSig, Dict.keys]))
    (by simp [ds_diverge_plot, fileSig, Dict.keys])]
  simp only [ds_diverge_plot, fileSig, List.map_cons, List.map_nil, List.cons_append,
    List.nil_append]
  simp [getD, Dict.get?, pick, same]
  cases select sf solutions with
  | error e => rfl
  | ok chosen =>
    simp only [Except.bind]
    rw [bindAll_one _ _ (by simp [Dict.keys]) (by simp [Dict.keys]) (by simp)]
    simp only [List.map_cons, List.map_nil, List.nil_append]
    simp [getD, Dict.get?]
    cases draw chosen _ with
    | error e => rfl
    | ok contents => simp [Except.map, plot_output_wrapper, getD, Dict.get?, Val.truthy, hf]

/-- The arguments of the plots of a whole file, besides the size of the figure. -/
def file_table : List (String × Source) :=
  [("start", .option "--start" (.num 0)), ("stop", .option "--stop" (.num 90)),
   ("linestyle", .option "--linestyle" (.str "-"))]

/-- Those of `ds-diverge-plot`. -/
def diverge_table : List (String × Source) :=
  file_table ++ [("with_slow", .set "--with-slow"), ("with_alfven", .set "--with-alfven"),
    ("with_fast", .set "--with-fast"), ("show_legend", .clear "--hide-legend")]

/-- `ds-conserve-plot`. -/
theorem conserve_effective {α σ : Type} (defaultTitle : String → String)
    (int : String → Except PyErr ℤ) (load : String → Except PyErr (List (String × σ)))
    (select : Val → List (String × σ) → Except PyErr (List (String × σ)))
    (draw : List (String × σ) → Dict String Val → Except PyErr α)
    (file : String) (given : List Occ)
    (h : accepted (logging_options ++ ds_conserve_plot.options) given = true) :
    ds_conserve_plot.runFile defaultTitle int load select draw file given =
      expectedFile load (sortedSolutions int) select draw (defaultTitle file) file given
        (.const .none) file_table := by
  have hd : Distinct (logging_options ++ ds_conserve_plot.options) := by
    refine distinct _ ?_ ?_ <;>
    · simp only [ds_conserve_plot, logging_options, common_plotting_options,
        common_output_plot_options, common_plot_appearence_options,
        List.map_append, List.map_cons, List.map_nil]
      decide +kernel
  have hca := commonArgs given (fun o ho => hd o (by
    simp only [ds_conserve_plot, List.mem_append]; tauto))
  unfold Command.runFile parse_args expectedFile
  rw [if_pos h]
  have hs : split (given.foldl (step (logging_options ++ ds_conserve_plot.options))
      (initial true (logging_options ++ ds_conserve_plot.options) []))
      ds_conserve_plot.splitters = .ok [("common_plot_args",
        common6 given ++ arguments given false file_table), ("plot_args", [])] := by
    simp only [ds_conserve_plot, split, gets, List.map_nil] at hca ⊢
    rw [hca]
    rfl
  simp only [hs]
  cases load file with
  | error e => rfl
  | ok stored =>
  simp only
  cases sortedSolutions int stored with
  | error e => rfl
  | ok solutions =>
  simp only
  rw [if_neg (by simp [callMain, ds_conserve_plot, Dict.keys])]
  have hpass : passed [("common_plot_args",
        common6 given ++ arguments given false file_table), ("plot_args", [])]
      ds_conserve_plot.passes = common6 given ++ arguments given false file_table := by
    simp [passed, ds_conserve_plot, Dict.get?]
  rw [hpass]
  have key := conserve_calls (defaultTitle file) select draw solutions (.str file)
    ((lastGiven given "--title").getD .none) ((lastGiven given "--style").getD (.str "bmh"))
    (.bool (isGiven given "--show")) ((lastGiven given "--filename").getD .none)
    (figsize ((lastGiven given "--figsize").getD .none))
    ((lastGiven given "--start").getD (.num 0)) ((lastGiven given "--stop").getD (.num 90))
    ((lastGiven given "--linestyle").getD (.str "-")) (!isGiven given "--no-show-version")
    (figsize_orElse _)
  refine key.trans ?_
  simp only [Source.value]
  cases select .none solutions with
  | error e => rfl
  | ok chosen =>
  have hargs : arguments given false file_table =
      [("start", (lastGiven given "--start").getD (.num 0)),
       ("stop", (lastGiven given "--stop").getD (.num 90)),
       ("linestyle", (lastGiven given "--linestyle").getD (.str "-"))] := rfl
  simp only [hargs, Except.bind]
  cases draw chosen _ with
  | error e => rfl
  | ok contents => simp only [Except.map, expectedFigure, Val.truthy]

/-- `ds-diverge-plot`: the solutions are those of `--solutions`. -/
theorem diverge_effective {α σ : Type} (defaultTitle : String → String)
    (int : String → Except PyErr ℤ) (load : String → Except PyErr (List (String × σ)))
    (select : Val → List (String × σ) → Except PyErr (List (String × σ)))
    (draw : List (String × σ) → Dict String Val → Except PyErr α)
    (file : String) (given : List Occ)
    (h : accepted (logging_options ++ ds_diverge_plot.options) given = true) :
    ds_diverge_plot.runFile defaultTitle int load select draw file given =
      expectedFile load (sortedSolutions int) select draw (defaultTitle file) file given
        (.option "--solutions" .none) diverge_table := by
  have hd : Distinct (logging_options ++ ds_diverge_plot.options) := by
    refine distinct _ ?_ ?_ <;>
    · simp only [ds_diverge_plot, logging_options, common_plotting_options, flag,
        common_output_plot_options, common_plot_appearence_options,
        List.map_append, List.map_cons, List.map_nil]
      decide +kernel
  have hca := commonArgs given (fun o ho => hd o (by
    simp only [ds_diverge_plot, List.mem_append]; tauto))
  have h1 := parsed_set given _ _ _ _ (hd (flag "--with-slow" "with_slow")
    (by simp [ds_diverge_plot]))
  have h2 := parsed_set given _ _ _ _ (hd (flag "--with-alfven" "with_alfven")
    (by simp [ds_diverge_plot]))
  have h3 := parsed_set given _ _ _ _ (hd (flag "--with-fast" "with_fast")
    (by simp [ds_diverge_plot]))
  have h4 := parsed_store given "--solutions" "solutions" .none none none (hd _
    (by simp [ds_diverge_plot]))
  have h5 := parsed_clear given "--hide-legend" "show_legend" none none (hd _
    (by simp [ds_diverge_plot]))
  unfold Command.runFile parse_args expectedFile
  rw [if_pos h]
  have hs : split (given.foldl (step (logging_options ++ ds_diverge_plot.options))
      (initial true (logging_options ++ ds_diverge_plot.options) []))
      ds_diverge_plot.splitters = .ok [("common_plot_args",
        common6 given ++ arguments given false file_table), ("plot_args",
        [("with_slow", .bool (isGiven given "--with-slow")),
         ("with_alfven", .bool (isGiven given "--with-alfven")),
         ("with_fast", .bool (isGiven given "--with-fast")),
         ("show_legend", .bool (!isGiven given "--hide-legend")),
         ("solution_filter", (lastGiven given "--solutions").getD .none)])] := by
    simp only [ds_diverge_plot, split, gets, List.map_cons, List.map_nil, getD]
      at hca h1 h2 h3 h4 h5 ⊢
    rw [hca, h1, h2, h3, h4, h5]
    rfl
  simp only [hs]
  cases load file with
  | error e => rfl
  | ok stored =>
  simp only
  cases sortedSolutions int stored with
  | error e => rfl
  | ok solutions =>
  simp only
  rw [if_neg (by simp [callMain, ds_diverge_plot, Dict.keys])]
  have key := diverge_calls (defaultTitle file) select draw solutions (.str file)
    ((lastGiven given "--title").getD .none) ((lastGiven given "--style").getD (.str "bmh"))
    (.bool (isGiven given "--show")) ((lastGiven given "--filename").getD .none)
    (figsize ((lastGiven given "--figsize").getD .none))
    ((lastGiven given "--start").getD (.num 0)) ((lastGiven given "--stop").getD (.num 90))
    ((lastGiven given "--linestyle").getD (.str "-"))
    (.bool (isGiven given "--with-slow")) (.bool (isGiven given "--with-alfven"))
    (.bool (isGiven given "--with-fast")) (.bool (!isGiven given "--hide-legend"))
    ((lastGiven given "--solutions").getD .none) (!isGiven given "--no-show-version")
    (figsize_orElse _)
  refine Eq.trans ?_ (key.trans ?_)
  · congr 1
  simp only [Source.value]
  cases select ((lastGiven given "--solutions").getD .none) solutions with
  | error e => rfl
  | ok chosen =>
  have hargs : arguments given false diverge_table =
      [("start", (lastGiven given "--start").getD (.num 0)),
       ("stop", (lastGiven given "--stop").getD (.num 90)),
       ("linestyle", (lastGiven given "--linestyle").getD (.str "-")),
       ("with_slow", .bool (isGiven given "--with-slow")),
       ("with_alfven", .bool (isGiven given "--with-alfven")),
       ("with_fast", .bool (isGiven given "--with-fast")),
       ("show_legend", .bool (!isGiven given "--hide-legend"))] := rfl
  simp only [hargs, Except.bind]
  cases draw chosen _ with
  | error e => rfl
  | ok contents => simp only [Except.map, expectedFigure, Val.truthy]

/-! ## All commands about one solution -/

/-- The commands with the arguments their options become. -/
noncomputable def documented : List (Command × List (String × Source)) :=
  [(ds_plot, ds_plot_table), (ds_vert_plot, ds_vert_plot_table),
   (ds_derivs_plot, ds_derivs_plot_table), (ds_component_plot, ds_component_plot_table),
   (ds_taylor_plot, ds_taylor_plot_table), (ds_combine_plot, ds_combine_plot_table),
   (ds_params_plot, common ++ [("use_E_r", .run)]), (ds_acc_plot, common ++ [("use_E_r", .run)]),
   (ds_j_e_plot, common ++ [("use_E_r", .run)]),
   (ds_surface_density_plot, common ++ [("use_E_r", .run)]),
   (ds_hydro_check_plot, common ++ [("use_E_r", .run)]),
   (ds_validate_plot, common ++ [("use_E_r", .run)]),
   (jacobianCommand "ds-jacobian-eigenvalue-plot", jacobian_table),
   (jacobianCommand "ds-jacobian-eigenvector-plot", jacobian_table),
   (jacobianCommand "ds-jacobian-eigennorm-plot", jacobian_table),
   (ds_eigenvector_coef_plot, coef_table)]

/-- Every command line of these commands either is refused before anything is done, or
opens the file, draws with exactly the arguments asked for, and gives the figure asked
for. -/
theorem options_effective {α : Type} (c : Command) (l : List (String × Source))
    (hc : (c, l) ∈ documented) (load : String → Except PyErr RunHead)
    (draw : RunHead → Val → Dict String Val → Except PyErr α) (file range : String)
    (given : List Occ) :
    c.run load draw file range given =
      if accepted (logging_options ++ c.options) given then
        expected load draw file range given l
      else .error .SystemExit := by
  by_cases h : accepted (logging_options ++ c.options) given = true
  · rw [if_pos h]
    simp only [documented, List.mem_cons, Prod.mk.injEq, List.not_mem_nil, or_false] at hc
    rcases hc with ⟨rfl, rfl⟩ | ⟨rfl, rfl⟩ | ⟨rfl, rfl⟩ | ⟨rfl, rfl⟩ | ⟨rfl, rfl⟩ | ⟨rfl, rfl⟩ |
      ⟨rfl, rfl⟩ | ⟨rfl, rfl⟩ | ⟨rfl, rfl⟩ | ⟨rfl, rfl⟩ | ⟨rfl, rfl⟩ | ⟨rfl, rfl⟩ | ⟨rfl, rfl⟩ |
      ⟨rfl, rfl⟩ | ⟨rfl, rfl⟩ | ⟨rfl, rfl⟩
    · exact ds_plot_effective load draw file range given h
    · exact ds_vert_plot_effective load draw file range given h
    · exact ds_derivs_plot_effective load draw file range given h
    · exact ds_component_plot_effective load draw file range given h
    · exact ds_taylor_plot_effective load draw file range given h
    · exact ds_combine_plot_effective load draw file range given h
    · exact common_effective _ (by simp) load draw file range given h
    · exact common_effective _ (by simp) load draw file range given h
    · exact common_effective _ (by simp) load draw file range given h
    · exact common_effective _ (by simp) load draw file range given h
    · exact common_effective _ (by simp) load draw file range given h
    · exact common_effective _ (by simp) load draw file range given h
    · exact jacobian_effective _ load draw file range given h
    · exact jacobian_effective _ load draw file range given h
    · exact jacobian_effective _ load draw file range given h
    · exact coef_effective load draw file range given h
  · rw [if_neg h]
    exact usage_error c load draw file range given (by simpa using h)

/-- A command line which is taken, with an option given twice. -/
def exampleLine : List Occ :=
  [("--title", .str "first"), ("--with-slow", .none), ("--v_θ", .str "log"),
   ("--filename", .str "out.png"), ("--title", .str "second"), ("--quiet", .none)]

example : accepted (logging_options ++ ds_plot.options) exampleLine = true := by
  decide +kernel

example : (expectedFigure () .none exampleLine).title = .str "second" ∧
    (expectedFigure () .none exampleLine).saved = .str "out.png" ∧
    (expectedFigure () .none exampleLine).shown = false ∧
    (Source.option "--v_θ" (.str "linear")).value exampleLine false = .str "log" ∧
    (Source.set "--with-slow").value exampleLine false = .bool true ∧
    (Source.set "--with-fast").value exampleLine false = .bool false := by
  simp [expectedFigure, exampleLine, lastGiven, isGiven, Source.value, Val.orElse]

example : accepted (logging_options ++ ds_plot.options)
    [("--quiet", .none), ("--verbose", .none)] = false := by decide +kernel

example : accepted (logging_options ++ ds_plot.options) [("--v_θ", .str "cubic")] = false := by
  decide +kernel

example : accepted (logging_options ++ ds_eigenvector_coef_plot.options)
    [("--global-eigvecs", .none), ("--critical-point", .str "fast")] = true := by
  decide +kernel

example : accepted (logging_options ++ ds_flow_plot.options)
    [("--v-start-position", .two 1 1), ("--no-max-v-angle", .none)] = true := by
  decide +kernel

example : accepted (logging_options ++ runs_option :: ds_compare_plot.options)
      [("--runs", .pairs [("a", "0")]), ("--v_θ", .str "log"), ("--runs", .pairs [("b", "1")])]
      = true ∧
    runs [("--runs", .pairs [("a", "0")]), ("--v_θ", .str "log"),
      ("--runs", .pairs [("b", "1")])] = [("a", "0"), ("b", "1")] := by
  constructor
  · decide +kernel
  · simp [runs]

/-! ## Options without effect -/

theorem lastGiven_append_ne {x : Occ} {given : List Occ} {name : String} (h : x.1 ≠ name) :
    lastGiven (given ++ [x]) name = lastGiven given name := by
  simp [lastGiven, List.filter_append, h]

theorem isGiven_append_ne {x : Occ} {given : List Occ} {name : String} (h : x.1 ≠ name) :
    isGiven (given ++ [x]) name = isGiven given name := by
  simp [isGiven, h]

/-- `ds-vert-plot` takes `--v_θ` and does the same with it as without. -/
theorem vert_ignores_v_θ {α : Type} (load : String → Except PyErr RunHead)
    (draw : RunHead → Val → Dict String Val → Except PyErr α) (file range : String)
    (given : List Occ) (h : accepted (logging_options ++ ds_vert_plot.options) given = true)
    (scale : String) (hs : scale = "log" ∨ scale = "linear") :
    accepted (logging_options ++ ds_vert_plot.options) (given ++ [("--v_θ", .str scale)]) = true ∧
    ds_vert_plot.run load draw file range (given ++ [("--v_θ", .str scale)]) =
      ds_vert_plot.run load draw file range given := by
  have hf : (logging_options ++ ds_vert_plot.options).find? (·.name = "--v_θ") =
      some v_θ_option := by
    simp [ds_vert_plot, ownCommand, logging_options, common_plotting_options, v_θ_option, flag,
      common_output_plot_options, common_plot_appearence_options]
  have ha : accepted (logging_options ++ ds_vert_plot.options)
      (given ++ [("--v_θ", .str scale)]) = true := by
    rw [accepted_iff] at h ⊢
    constructor
    · intro a ha
      rcases List.mem_append.mp ha with ha | ha
      · exact h.1 a ha
      · rw [List.mem_singleton.mp ha]
        refine ⟨_, hf, ?_⟩
        rcases hs with rfl | rfl <;> simp [v_θ_option, Opt.accepts]
    · intro a ha b hb o p ho hp hg hgp
      have hno (x : Occ) (q : Opt) (hx : x ∈ [(("--v_θ", .str scale) : Occ)])
          (hq : (logging_options ++ ds_vert_plot.options).find? (·.name = x.1) = some q) :
          q.group = none := by
        rw [List.mem_singleton.mp hx, hf] at hq
        injection hq with hq
        rw [← hq]
        rfl
      rcases List.mem_append.mp ha with ha | ha
      · rcases List.mem_append.mp hb with hb | hb
        · exact h.2 a ha b hb o p ho hp hg hgp
        · rw [hgp, hno b p hb hp] at hg
          cases hg
      · rw [hno a o ha ho] at hg
        cases hg
  refine ⟨ha, ?_⟩
  rw [ds_vert_plot_effective load draw file range _ ha,
    ds_vert_plot_effective load draw file range given h]
  unfold expected
  cases load file with
  | error e => rfl
  | ok run =>
    simp [ds_vert_plot_table, common, arguments, Source.value, expectedFigure,
      lastGiven_append_ne, isGiven_append_ne]

/-- `ds-compare-plot` draws every solution as if without the extra variable, whatever the
runs say: its drawing function is always told so. -/
theorem compare_ignores_E_r (n : ℕ) (given : List Occ) (use_E_r : Bool) :
    Dict.get? (arguments given use_E_r (compare_table n)) "use_E_r" = some (.bool false) := by
  simp [compare_table, many_table, common, arguments, Dict.get?, Source.value]

theorem exampleLine_ok : accepted (logging_options ++ ds_plot.options) exampleLine = true := by
  decide +kernel

example {α : Type} (load : String → Except PyErr RunHead)
    (draw : RunHead → Val → Dict String Val → Except PyErr α) :=
  ds_plot_effective load draw "a.hdf5" "final" exampleLine exampleLine_ok

example {α : Type} (load : String → Except PyErr RunHead)
    (draw : RunHead → Val → Dict String Val → Except PyErr α) :=
  usage_error ds_plot load draw "a.hdf5" "final" [("--v_θ", .str "cubic")] (by decide +kernel)

example {α : Type} (load : String → Except PyErr RunHead)
    (draw : RunHead → Val → Dict String Val → Except PyErr α) :=
  coef_effective load draw "a.hdf5" "0"
    [("--global-eigvecs", .none), ("--critical-point", .str "fast")] (by decide +kernel)

example {α : Type} (load : String → Except PyErr RunHead)
    (draw : RunHead → Val → Dict String Val → Except PyErr α) :=
  common_effective ds_acc_plot (by simp) load draw "a.hdf5" "0" [("--title", .str "first")]
    (by decide +kernel)

example {α : Type} (load : String → Except PyErr RunHead)
    (draw : RunHead → Val → Dict String Val → Except PyErr α) :=
  jacobian_effective "ds-eigenvector-plot" load draw "a.hdf5" "0" [("--title", .str "first")]
    (by decide +kernel)

example {α : Type} (load : String → Except PyErr RunHead)
    (draw : RunHead → Val → Dict String Val → Except PyErr α) :=
  flow_effective load draw "a.hdf5" "0"
    [("--v-start-position", .two 1 1), ("--no-max-v-angle", .none)] (by simp) (by simp)
    (by decide +kernel)

example {α : Type} (load : String → Except PyErr RunHead)
    (draw : RunHead → Val → Dict String Val → Except PyErr α) :=
  vert_ignores_v_θ load draw "a.hdf5" "0" [("--title", .str "first")] (by decide +kernel) "log"
    (Or.inl rfl)

example {α : Type} (draw : List (String × String) → Dict String Val → Except PyErr α) :=
  compare_effective draw
    [("--runs", .pairs [("a", "0")]), ("--v_θ", .str "log"), ("--runs", .pairs [("b", "1")])]
    (by decide +kernel) (by simp) (by decide +kernel)

example {α : Type} (draw : List (String × String) → Dict String Val → Except PyErr α) :=
  many_effective "ds-phys-ratio-plot" draw
    [("--runs", .pairs [("a", "0")]), ("--runs", .pairs [("b", "1")])]
    (by decide +kernel) (by simp) (by decide +kernel)

example {α : Type} (draw : List (String × String) → Dict String Val → Except PyErr α) :=
  many_needs_runs "ds-phys-ratio-plot" draw [("--title", .str "first")] (by decide +kernel)
    (by decide +kernel)

example := parsed_runs (opts := [runs_option])
  [("--runs", .pairs [("a", "0")]), ("--runs", .pairs [("b", "1")])] ⟨by simp, by simp⟩
  (by simp)

example := (accepted_iff (logging_options ++ ds_plot.options) exampleLine).1 exampleLine_ok

example {α σ : Type} (load : String → Except PyErr (List (String × σ)))
    (select : Val → List (String × σ) → Except PyErr (List (String × σ)))
    (draw : List (String × σ) → Dict String Val → Except PyErr α) :=
  conserve_effective id (fun _ => .ok 0) load select draw "a.hdf5" [("--title", .str "first")]
    (by decide +kernel)

example {α σ : Type} (load : String → Except PyErr (List (String × σ)))
    (select : Val → List (String × σ) → Except PyErr (List (String × σ)))
    (draw : List (String × σ) → Dict String Val → Except PyErr α) :=
  diverge_effective id (fun _ => .ok 0) load select draw "a.hdf5" [("--title", .str "first")]
    (by decide +kernel)

example := (sortedSolutions_spec (fun s => .ok s.length) [("bbb", 1), ("a", 2)]).1 _ rfl

end DiscSolver.Cli
