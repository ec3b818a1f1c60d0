import Verif.Lemmas.Cli
import Verif.Spec.CliDump
import Verif.Props.Stats
import Verif.Props.CliSolve
import Verif.Props.ConfigFile

/-!
# C98: the commands which write tables and text
-/

namespace DiscSolver.CliDump

open Cli CliSolve

variable {μ σ V F C : Type}

/-! ## Parsed options -/

theorem word_given {given : List Occ} (ht : Words given) {name : String}
    (hn : name ∈ ["--file", "--log-file", "--log-file-level", "--stderr-level"]) (d : String) :
    string ((lastGiven given name).getD (.str d)) = (textGiven given name).getD d := by
  unfold textGiven
  cases h : lastGiven given name with
  | none => rfl
  | some v =>
    obtain ⟨s, rfl⟩ := ht name hn v (mem_of_lastGiven h)
    rfl

theorem optWord_given {given : List Occ} (ht : Words given) {name : String}
    (hn : name ∈ ["--file", "--log-file", "--log-file-level", "--stderr-level"]) :
    (lastGiven given name).bind optString = textGiven given name := by
  unfold textGiven
  cases h : lastGiven given name with
  | none => rfl
  | some v =>
    obtain ⟨s, rfl⟩ := ht name hn v (mem_of_lastGiven h)
    rfl

theorem log_args (suppress : Bool) {opts : List Opt} (h : ∀ o ∈ logging_options, Own opts o)
    {given : List Occ} (ht : Words given) :
    logArgs (given.foldl (step opts) (initial suppress opts [])) = logGiven given := by
  have h1 : (Dict.get? (given.foldl (step opts) (initial suppress opts []))
      "log_file").bind optString = textGiven given "--log-file" := by
    rw [← optWord_given ht (by decide)]
    have o := h ⟨"--log-file", "log_file", .store, none, none, none⟩ (by simp [logging_options])
    have p := parsed suppress opts given _ o.1 o.2
    simp only [after, Opt.initial] at p
    rw [p]
    cases suppress <;> cases lastGiven given "--log-file" <;> rfl
  have h2 := parsed_store_any suppress given "--log-file-level" "log_file_level" (.str "debug")
    (some ["critical", "error", "warning", "notice", "info", "debug"]) none
    (h _ (by simp [logging_options]))
  have h3 := parsed_store_any suppress given "--stderr-level" "stderr_level" (.str "notice")
    (some ["critical", "error", "warning", "notice", "info", "debug"]) (some "stderr")
    (h _ (by simp [logging_options]))
  have h4 := parsed_set_any suppress given "--quiet" "quiet" none (some "stderr")
    (h _ (by simp [logging_options]))
  have h5 := parsed_set_any suppress given "--verbose" "verbose" none (some "stderr")
    (h _ (by simp [logging_options]))
  simp only [logArgs, getD, h1, h2, h3, h4, h5, logGiven, level_eq, Option.bind_some, Option.getD_some,
    Val.truthy]
  rw [word_given ht (by decide), word_given ht (by decide)]

theorem csv_distinct : Distinct (logging_options ++ csv_parser) :=
  distinct _ (by decide +kernel) (by decide +kernel)

theorem cfg_distinct : Distinct (logging_options ++ cfg_parser) :=
  distinct _ (by decide +kernel) (by decide +kernel)

theorem many_distinct : Distinct (logging_options ++ many_parser) :=
  distinct _ (by decide +kernel) (by decide +kernel)

theorem info_distinct : Distinct (logging_options ++ info_parser) :=
  distinct _ (by decide +kernel) (by decide +kernel)

/-! ## Writing to a file or to the standard output -/

theorem output_append (canOpen : String → Option PyErr) (file : String) (rows : List C)
    (x : Option PyErr) (d : Disk C) (hc : CanOpen canOpen file) :
    Appended file rows d (output canOpen .append file (rows, x) d).1 ∧
      (output canOpen .append file (rows, x) d).2 = x := by
  unfold output Appended
  by_cases h : file = "-"
  · simp [h]
  · rcases hc with hc | hc
    · exact absurd hc h
    · simp only [h, if_false, hc, Mode.start, if_true, true_and]
      exact ⟨fun f hf => by simp [hf], trivial⟩

theorem output_write (canOpen : String → Option PyErr) (file : String) (rows : List C)
    (x : Option PyErr) (d : Disk C) (hc : CanOpen canOpen file) :
    Replaced file rows d (output canOpen .write file (rows, x) d).1 ∧
      (output canOpen .write file (rows, x) d).2 = x := by
  unfold output Replaced
  by_cases h : file = "-"
  · simp [h]
  · rcases hc with hc | hc
    · exact absurd hc h
    · simp only [h, if_false, hc, Mode.start, if_true, true_and, List.nil_append]
      exact ⟨fun f hf => by simp [hf], trivial⟩

theorem output_fails (canOpen : String → Option PyErr) (mode : Mode) (file : String)
    (body : List C × Option PyErr) (d : Disk C) (h : file ≠ "-") (x : PyErr)
    (hx : canOpen file = some x) : output canOpen mode file body d = (d, some x) := by
  simp [output, h, hx]

/-! ## `ds-tocsv` -/

theorem input_row (e : Stats.Env σ V) (s : σ) :
    Stats.inputRow e s = .ok (SField.all.map fun f => e.input s f) := by
  unfold Stats.inputRow Stats.dictRow
  rw [if_pos (by
    rw [Stats.asdict_keys, List.all_eq_true]
    intro k hk
    simpa using hk)]
  congr 1

theorem dump_table (e : Stats.Env σ V) (header : Bool) (s : σ) :
    Stats.dump_csv e header s = (inputTable e header s, none) := by
  simp only [Stats.dump_csv, input_row, inputTable, Stats.inputNames, List.map_map]
  rfl

theorem found_iff (load : String → Except PyErr (Run μ σ)) (file range : String)
    (run : Run μ σ) (s : σ) : found load file range = .ok (run, s) ↔
      Finds load file range run s := by
  unfold found Finds
  cases h : load file with
  | error x => simp
  | ok r =>
    simp only [Except.ok.injEq]
    cases h' : r.getSolutions (some range) with
    | error x =>
      simp only [reduceCtorEq, false_iff, not_and]
      rintro rfl
      simp [h']
    | ok y =>
      cases y with
      | soln t =>
        simp only [Except.ok.injEq, Prod.mk.injEq]
        constructor
        · rintro ⟨rfl, rfl⟩
          exact ⟨rfl, h'⟩
        · rintro ⟨rfl, h2⟩
          rw [h'] at h2
          injection h2 with h2
          injection h2 with h2
          exact ⟨rfl, h2⟩
      | none =>
        simp only [reduceCtorEq, false_iff, not_and]
        rintro rfl
        simp [h']
      | placeholder =>
        simp only [reduceCtorEq, false_iff, not_and]
        rintro rfl
        simp [h']

/-- A step on what was found. -/
def withFound (load : String → Except PyErr (Run μ σ)) (file range : String) (d : Disk C)
    (f : Run μ σ × σ → Disk C × Option PyErr) : Disk C × Option PyErr :=
  match found load file range with
  | .error x => (d, some x)
  | .ok p => f p

theorem csv_bind (file range : String) (v : Val) (b : Bool) :
    bind csv_sig (("filename", .str file) :: ("soln_range", .str range) ::
      passed [("dump_args", [("output_file", v), ("with_header", .bool b)])] ["dump_args"]) =
    .ok ([("soln_range", .str range), ("output_file", v), ("with_header", .bool b)],
      [("filename", .str file)]) := by
  rw [bind_ok _ _ (by simp [passed, Dict.get?, Dict.keys])
    (Or.inl rfl) (by simp [passed, Dict.get?, Dict.keys, csv_sig])]
  rfl

theorem dump_csv_found (e : Stats.Env σ V) (canOpen : String → Option PyErr) (run : Run μ σ)
    (range : String) (v : Val) (b : Bool) (d : Disk (List V)) :
    dump_csv e canOpen run
        [("soln_range", .str range), ("output_file", v), ("with_header", .bool b)] d =
      withFound (fun _ => .ok run) "" range d fun p =>
        output canOpen .append (string v) (inputTable e b p.2, none) d := by
  have : dump_csv e canOpen run
      [("soln_range", .str range), ("output_file", v), ("with_header", .bool b)] d =
    match run.getSolutions (some range) with
    | .error x => (d, some x)
    | .ok found =>
      match attributeOf found with
      | .error x => (d, some x)
      | .ok s => output canOpen .append (string v) (Stats.dump_csv e b s) d := rfl
  rw [this]
  unfold withFound found
  dsimp only
  cases run.getSolutions (some range) with
  | error x => rfl
  | ok y =>
    cases y with
    | soln s => simp only [attributeOf, dump_table]
    | none => rfl
    | placeholder => rfl

/-- The command finds the solution and writes its table. -/
theorem tocsv_eq (e : Stats.Env σ V) (canOpen : String → Option PyErr)
    (load : String → Except PyErr (Run μ σ)) (file range : String) (given : List Occ)
    (d : Disk (List V)) (ht : Words given)
    (ha : accepted (logging_options ++ csv_parser) given = true) :
    ds_tocsv e canOpen load file range given d =
      ⟨(withFound load file range d fun p => output canOpen .append (target given)
          (inputTable e (isGiven given "--with-header") p.2, none) d).1,
        some (Logging.log_handler (logGiven given)),
        (withFound load file range d fun p => output canOpen .append (target given)
          (inputTable e (isGiven given "--with-header") p.2, none) d).2⟩ := by
  have h1 := parsed_store given "--file" "file" (.str "-") none none
    (csv_distinct _ (by simp [csv_parser]))
  have h2 := parsed_set given "--with-header" "with_header" none none
    (csv_distinct _ (by simp [csv_parser]))
  have h3 := log_args true (fun o ho => csv_distinct o (List.mem_append_left _ ho)) ht
  have h4 : split (given.foldl (step (logging_options ++ csv_parser))
      (initial true (logging_options ++ csv_parser) [])) [("dump_args", get_csv_args)] =
      .ok [("dump_args", [("output_file", (lastGiven given "--file").getD (.str "-")),
        ("with_header", .bool (isGiven given "--with-header"))])] := by
    simp only [split, get_csv_args, getD, h1, h2, Option.getD_some]
  simp only [ds_tocsv, analyse_main, parse_args, ha, if_true, h4, h3, csv_bind]
  rw [if_neg (by simp [callMain, Dict.keys])]
  cases hl : load file with
  | error x => simp only [withFound, found, hl]
  | ok run =>
    simp only [dump_csv_found, word_given ht (name := "--file") (by decide) "-"]
    simp only [withFound, found, hl, target]

/-- The inputs of the solution asked for are added to the file given last, or printed,
after a row of names exactly if `--with-header` is given; nothing else is changed. -/
theorem tocsv_writes (e : Stats.Env σ V) (canOpen : String → Option PyErr)
    (load : String → Except PyErr (Run μ σ)) (file range : String) (given : List Occ)
    (d : Disk (List V)) (ht : Words given)
    (ha : accepted (logging_options ++ csv_parser) given = true) (run : Run μ σ) (s : σ)
    (hf : Finds load file range run s) (hc : CanOpen canOpen (target given)) :
    ∃ d', ds_tocsv e canOpen load file range given d =
        ⟨d', some (Logging.log_handler (logGiven given)), none⟩ ∧
      Appended (target given) (inputTable e (isGiven given "--with-header") s) d d' := by
  rw [tocsv_eq e canOpen load file range given d ht ha]
  obtain ⟨h1, h2⟩ := output_append canOpen (target given)
    (inputTable e (isGiven given "--with-header") s) none d hc
  simp only [withFound, (found_iff load file range run s).2 hf]
  exact ⟨_, by rw [h2], h1⟩

/-- Whatever goes wrong, nothing is written: the output is opened after the solution was
found, so a missing file, a missing solution, a run without final solution and an output
which cannot be opened all leave everything as it was. -/
theorem tocsv_fails (e : Stats.Env σ V) (canOpen : String → Option PyErr)
    (load : String → Except PyErr (Run μ σ)) (file range : String) (given : List Occ)
    (d : Disk (List V)) (ht : Words given) :
    (ds_tocsv e canOpen load file range given d).error = none ∨
      (ds_tocsv e canOpen load file range given d).disk = d := by
  by_cases ha : accepted (logging_options ++ csv_parser) given = true
  · rw [tocsv_eq e canOpen load file range given d ht ha]
    unfold withFound
    cases found load file range with
    | error x => exact Or.inr rfl
    | ok p =>
      simp only [output]
      by_cases h : target given = "-"
      · simp [h]
      · simp only [h, if_false]
        cases canOpen (target given) with
        | none => exact Or.inl rfl
        | some x => exact Or.inr rfl
  · right
    simp [ds_tocsv, analyse_main, parse_args, ha]

/-- It fails exactly for these reasons. -/
theorem tocsv_ok_iff (e : Stats.Env σ V) (canOpen : String → Option PyErr)
    (load : String → Except PyErr (Run μ σ)) (file range : String) (given : List Occ)
    (d : Disk (List V)) (ht : Words given) :
    (ds_tocsv e canOpen load file range given d).error = none ↔
      accepted (logging_options ++ csv_parser) given = true ∧
      (∃ run s, Finds load file range run s) ∧ CanOpen canOpen (target given) := by
  by_cases ha : accepted (logging_options ++ csv_parser) given = true
  · rw [tocsv_eq e canOpen load file range given d ht ha]
    simp only [ha, true_and, ← found_iff]
    unfold withFound
    cases found load file range with
    | error x => simp
    | ok p =>
      simp only [Except.ok.injEq, output, CanOpen]
      by_cases h : target given = "-"
      · simp only [h, if_true, true_or, and_true, true_iff]
        exact ⟨_, _, rfl⟩
      · simp only [h, if_false, false_or]
        cases canOpen (target given) with
        | none => simp only [and_true, true_iff]; exact ⟨_, _, rfl⟩
        | some x => simp
  · simp [ds_tocsv, analyse_main, parse_args, ha]

/-! ## `ds-tocfg` -/

theorem cfg_bind (file range : String) (v : Val) :
    bind cfg_sig (("filename", .str file) :: ("soln_range", .str range) ::
      passed [("dump_args", [("output_file", v)])] ["dump_args"]) =
    .ok ([("soln_range", .str range), ("output_file", v)], [("filename", .str file)]) := by
  rw [bind_ok _ _ (by simp [passed, Dict.get?, Dict.keys])
    (Or.inl rfl) (by simp [passed, Dict.get?, Dict.keys, cfg_sig])]
  rfl

theorem dump_cfg_found (C : Conv F) (label : Run μ σ → Text) (input : σ → SolutionInput F)
    (canOpen : String → Option PyErr) (run : Run μ σ) (range : String) (v : Val)
    (d : Disk Text) :
    dump_cfg C label input canOpen run [("soln_range", .str range), ("output_file", v)] d =
      withFound (fun _ => .ok run) "" range d fun p =>
        output canOpen .write (string v) (cfgBody C (label p.1) (input p.2)) d := by
  have : dump_cfg C label input canOpen run
      [("soln_range", .str range), ("output_file", v)] d =
    match run.getSolutions (some range) with
    | .error x => (d, some x)
    | .ok found =>
      match attributeOf found with
      | .error x => (d, some x)
      | .ok s => output canOpen .write (string v) (cfgBody C (label run) (input s)) d := rfl
  rw [this]
  unfold withFound found
  dsimp only
  cases run.getSolutions (some range) with
  | error x => rfl
  | ok y => cases y <;> rfl

/-- The command finds the solution and writes its configuration. -/
theorem tocfg_eq (C : Conv F) (label : Run μ σ → Text) (input : σ → SolutionInput F)
    (canOpen : String → Option PyErr) (load : String → Except PyErr (Run μ σ))
    (file range : String) (given : List Occ) (d : Disk Text) (ht : Words given)
    (ha : accepted (logging_options ++ cfg_parser) given = true) :
    ds_tocfg C label input canOpen load file range given d =
      ⟨(withFound load file range d fun p => output canOpen .write (target given)
          (cfgBody C (label p.1) (input p.2)) d).1,
        some (Logging.log_handler (logGiven given)),
        (withFound load file range d fun p => output canOpen .write (target given)
          (cfgBody C (label p.1) (input p.2)) d).2⟩ := by
  have h1 := parsed_store given "--file" "file" (.str "-") none none
    (cfg_distinct _ (by simp [cfg_parser]))
  have h3 := log_args true (fun o ho => cfg_distinct o (List.mem_append_left _ ho)) ht
  have h4 : split (given.foldl (step (logging_options ++ cfg_parser))
      (initial true (logging_options ++ cfg_parser) [])) [("dump_args", get_cfg_args)] =
      .ok [("dump_args", [("output_file", (lastGiven given "--file").getD (.str "-"))])] := by
    simp only [split, get_cfg_args, getD, h1, Option.getD_some]
  simp only [ds_tocfg, analyse_main, parse_args, ha, if_true, h4, h3, cfg_bind]
  rw [if_neg (by simp [callMain, Dict.keys])]
  cases hl : load file with
  | error x => simp only [withFound, found, hl]
  | ok run =>
    simp only [dump_cfg_found, word_given ht (name := "--file") (by decide) "-"]
    simp only [withFound, found, hl, target]

/-- If the input of the solution can be written as a configuration, the file given last
holds exactly that text, whatever it held before, or it is printed. -/
theorem tocfg_writes (C : Conv F) (label : Run μ σ → Text) (input : σ → SolutionInput F)
    (canOpen : String → Option PyErr) (load : String → Except PyErr (Run μ σ))
    (file range : String) (given : List Occ) (d : Disk Text) (ht : Words given)
    (ha : accepted (logging_options ++ cfg_parser) given = true) (run : Run μ σ) (s : σ)
    (hf : Finds load file range run s) (hc : CanOpen canOpen (target given))
    (c : ConfigInput) (t : Text) (h1 : (input s).to_config_input C (label run) = .ok c)
    (h2 : c.to_conf_file = .ok t) :
    ∃ d', ds_tocfg C label input canOpen load file range given d =
        ⟨d', some (Logging.log_handler (logGiven given)), none⟩ ∧
      Replaced (target given) [t] d d' := by
  rw [tocfg_eq C label input canOpen load file range given d ht ha]
  obtain ⟨h3, h4⟩ := output_write canOpen (target given) [t] none d hc
  simp only [withFound, (found_iff load file range run s).2 hf, cfgBody, h1, h2]
  exact ⟨_, by rw [h4], h3⟩

/-- From end to end: for an ordinary input and label, the file written with `ds-tocfg
--file` is a configuration file from which exactly the input of that solution is read. -/
theorem tocfg_round_trip (C : Conv F) (hC : Faithful C)
    (hstr : ∀ x, Text.Trim (C.float_str x) ∧ '\n' ∉ C.float_str x ∧ '%' ∉ C.float_str x)
    (label : Run μ σ → Text) (input : σ → SolutionInput F)
    (canOpen : String → Option PyErr) (load : String → Except PyErr (Run μ σ))
    (file range : String) (given : List Occ) (d : Disk Text) (ht : Words given)
    (ha : accepted (logging_options ++ cfg_parser) given = true) (run : Run μ σ) (s : σ)
    (hf : Finds load file range run s) (hto : target given ≠ "-")
    (hc : canOpen (target given) = none) (hs : ∀ f, DiscSolver.Typed f (input s f))
    (hlabel : Cfg.Safe (label run) ∧ '%' ∉ label run)
    (hsplit : ∀ t, input s .split_method = .str t → Cfg.Safe t ∧ '%' ∉ t)
    (hm : input s .mcmc_vars ≠ .mcmc ⟨false, false, false⟩) (a b : Int) (step : Option Int)
    (hi : input s .interp_slice = .slice ⟨some a, some b, step⟩) :
    ∃ t c, (ds_tocfg C label input canOpen load file range given d).disk.files
        (target given) = some [t] ∧
      get_input_from_conffile (some t) none = .ok c ∧ c.to_soln_input C = .ok (input s) ∧
      c .label = some (label run) := by
  obtain ⟨c, t, c', h1, h2, h3, h4, h5⟩ := dump_config_round_trip C hC hstr (input s) hs
    (label run) hlabel hsplit hm a b step hi
  obtain ⟨d', h6, h7⟩ := tocfg_writes C label input canOpen load file range given d ht ha run s
    hf (Or.inr hc) c t h1 h2
  unfold Replaced at h7
  rw [if_neg hto] at h7
  exact ⟨t, c', by rw [h6]; exact h7.2.1, h3, h4, h5⟩

/-- If it cannot, the file is emptied: it was opened before. -/
theorem tocfg_failure_empties (C : Conv F) (label : Run μ σ → Text)
    (input : σ → SolutionInput F) (canOpen : String → Option PyErr)
    (load : String → Except PyErr (Run μ σ)) (file range : String) (given : List Occ)
    (d : Disk Text) (ht : Words given)
    (ha : accepted (logging_options ++ cfg_parser) given = true) (run : Run μ σ) (s : σ)
    (hf : Finds load file range run s) (hc : CanOpen canOpen (target given)) (x : PyErr)
    (hx : (input s).to_config_input C (label run) = .error x ∨
      ∃ c, (input s).to_config_input C (label run) = .ok c ∧ c.to_conf_file = .error x) :
    ∃ d', ds_tocfg C label input canOpen load file range given d =
        ⟨d', some (Logging.log_handler (logGiven given)), some x⟩ ∧
      Replaced (target given) [] d d' := by
  rw [tocfg_eq C label input canOpen load file range given d ht ha]
  obtain ⟨h3, h4⟩ := output_write canOpen (target given) ([] : List Text) (some x) d hc
  have hb : cfgBody C (label run) (input s) = ([], some x) := by
    unfold cfgBody
    rcases hx with hx | ⟨c, h1, h2⟩
    · rw [hx]
    · simp only [h1, h2]
  simp only [withFound, (found_iff load file range run s).2 hf, hb]
  exact ⟨_, by rw [h4], h3⟩

/-- A usage error, a missing file or solution and an output which cannot be opened leave
everything as it was. -/
theorem tocfg_not_found (C : Conv F) (label : Run μ σ → Text) (input : σ → SolutionInput F)
    (canOpen : String → Option PyErr) (load : String → Except PyErr (Run μ σ))
    (file range : String) (given : List Occ) (d : Disk Text) (ht : Words given)
    (h : ¬ (accepted (logging_options ++ cfg_parser) given = true ∧
      (∃ run s, Finds load file range run s) ∧ CanOpen canOpen (target given))) :
    (ds_tocfg C label input canOpen load file range given d).disk = d ∧
      (ds_tocfg C label input canOpen load file range given d).error ≠ none := by
  by_cases ha : accepted (logging_options ++ cfg_parser) given = true
  · rw [tocfg_eq C label input canOpen load file range given d ht ha]
    simp only [ha, true_and, ← found_iff] at h
    unfold withFound
    cases hp : found load file range with
    | error x => simp
    | ok p =>
      have hc : ¬ CanOpen canOpen (target given) := fun hc => h ⟨⟨p.1, p.2, hp⟩, hc⟩
      unfold CanOpen at hc
      push Not at hc
      obtain ⟨x, hx⟩ := Option.ne_none_iff_exists'.mp hc.2
      simp only [output_fails canOpen .write (target given) _ d hc.1 x hx]
      simp
  · simp [ds_tocfg, analyse_main, parse_args, ha]

/-! ## `ds-stats` and `ds-dumpcsv` -/

theorem many_eq (write : List (String × String × Option σ) → List (List V) × Option PyErr)
    (canOpen : String → Option PyErr) (read : String → Except PyErr (Stats.StoredRun σ))
    (strip : String → String) (stdin files : List String) (given : List Occ)
    (d : Disk (List V)) (ht : Words given)
    (ha : accepted (logging_options ++ many_parser) given = true) :
    many_files write canOpen read strip stdin files given d =
      ⟨(output canOpen .append (target given) (write (Stats.get_all_solutions read
          (filesGiven strip stdin files given))) d).1,
        some (Logging.log_handler (logGiven given)),
        (output canOpen .append (target given) (write (Stats.get_all_solutions read
          (filesGiven strip stdin files given))) d).2⟩ := by
  have h1 := parsed_store_any false given "--file" "file" (.str "-") none none
    (many_distinct _ (by simp [many_parser]))
  have h2 := parsed_set_any false given "--with-stdin" "with_stdin" none none
    (many_distinct _ (by simp [many_parser]))
  have h3 := log_args false (fun o ho => many_distinct o (List.mem_append_left _ ho)) ht
  simp only [many_files, parse_args, ha, if_true, attr, h1, h2, h3, Val.truthy,
    word_given ht (name := "--file") (by decide) "-"]
  rfl

/-- The table of the statistics of all solutions of all files given, on the command line
and, if asked for, on the standard input, is added to the file given last, or printed.
It starts with the names of the columns, even if the file has rows already. -/
theorem stats_writes (e : Stats.Env σ V) (canOpen : String → Option PyErr)
    (read : String → Except PyErr (Stats.StoredRun σ)) (strip : String → String)
    (stdin files : List String) (given : List Occ) (d : Disk (List V)) (ht : Words given)
    (ha : accepted (logging_options ++ many_parser) given = true)
    (hc : CanOpen canOpen (target given)) :
    ∃ d' rows, ds_stats e canOpen read strip stdin files given d =
        ⟨d', some (Logging.log_handler (logGiven given)),
          (Stats.stats_main e read (filesGiven strip stdin files given)).2⟩ ∧
      (Stats.stats_main e read (filesGiven strip stdin files given)).1 =
        Stats.FIELD_NAMES.map e.str :: rows ∧
      Appended (target given) (Stats.FIELD_NAMES.map e.str :: rows) d d' := by
  unfold ds_stats
  rw [many_eq _ canOpen read strip stdin files given d ht ha]
  obtain ⟨h1, h2⟩ := output_append canOpen (target given)
    (Stats.stats_main e read (filesGiven strip stdin files given)).1
    (Stats.stats_main e read (filesGiven strip stdin files given)).2 d hc
  exact ⟨_, _, congrArg (Result.mk _ _) h2, rfl, h1⟩

/-- A solution with its input, as a row of the table of `ds-dumpcsv`. -/
theorem inputs_rows (e : Stats.Env σ V) (items : List (String × String × Option σ)) :
    Stats.write_inputs e items =
      ((SField.all.map fun f => e.str f.name) ::
        items.filterMap fun i => i.2.2.map fun s => SField.all.map fun f => e.input s f,
       none) := by
  have : Stats.writeLoop (fun _ _ s => Stats.inputRow e s) items =
      (items.filterMap fun i => i.2.2.map fun s => SField.all.map fun f => e.input s f,
        none) := by
    induction items with
    | nil => rfl
    | cons i l ih =>
      obtain ⟨f, n, s⟩ := i
      cases s with
      | none => simpa [Stats.writeLoop] using ih
      | some s =>
        have h : Stats.writeLoop (fun _ _ s => Stats.inputRow e s) ((f, n, some s) :: l) =
            ((SField.all.map fun f => e.input s f) ::
              (Stats.writeLoop (fun _ _ s => Stats.inputRow e s) l).1,
              (Stats.writeLoop (fun _ _ s => Stats.inputRow e s) l).2) := by
          rw [Stats.writeLoop, input_row]
        rw [h, ih]
        rfl
  simp only [Stats.write_inputs, this, Stats.inputNames, List.map_map]
  rfl

/-- `ds-dumpcsv` adds the names and one row for every solution which can be read, in
order, and never fails once the output is open. -/
theorem dumpcsv_writes (e : Stats.Env σ V) (canOpen : String → Option PyErr)
    (read : String → Except PyErr (Stats.StoredRun σ)) (strip : String → String)
    (stdin files : List String) (given : List Occ) (d : Disk (List V)) (ht : Words given)
    (ha : accepted (logging_options ++ many_parser) given = true)
    (hc : CanOpen canOpen (target given)) :
    ∃ d', ds_dumpcsv e canOpen read strip stdin files given d =
        ⟨d', some (Logging.log_handler (logGiven given)), none⟩ ∧
      Appended (target given) ((SField.all.map fun f => e.str f.name) ::
        (Stats.get_all_solutions read (filesGiven strip stdin files given)).filterMap
          fun i => i.2.2.map fun s => SField.all.map fun f => e.input s f) d d' := by
  unfold ds_dumpcsv
  rw [many_eq _ canOpen read strip stdin files given d ht ha, inputs_rows]
  obtain ⟨h1, h2⟩ := output_append canOpen (target given)
    ((SField.all.map fun f => e.str f.name) ::
      (Stats.get_all_solutions read (filesGiven strip stdin files given)).filterMap
        fun i => i.2.2.map fun s => SField.all.map fun f => e.input s f) none d hc
  exact ⟨_, congrArg (Result.mk _ _) h2, h1⟩

/-- If the command line is wrong or the output cannot be opened, nothing is read or
written. -/
theorem many_stops (write : List (String × String × Option σ) → List (List V) × Option PyErr)
    (canOpen : String → Option PyErr) (read : String → Except PyErr (Stats.StoredRun σ))
    (strip : String → String) (stdin files : List String) (given : List Occ)
    (d : Disk (List V)) (ht : Words given)
    (h : ¬ (accepted (logging_options ++ many_parser) given = true ∧
      CanOpen canOpen (target given))) :
    (many_files write canOpen read strip stdin files given d).disk = d ∧
      (many_files write canOpen read strip stdin files given d).error ≠ none := by
  by_cases ha : accepted (logging_options ++ many_parser) given = true
  · rw [many_eq _ canOpen read strip stdin files given d ht ha]
    have hc : ¬ CanOpen canOpen (target given) := fun hc => h ⟨ha, hc⟩
    unfold CanOpen at hc
    push Not at hc
    obtain ⟨x, hx⟩ := Option.ne_none_iff_exists'.mp hc.2
    simp only [output_fails canOpen .append (target given) _ d hc.1 x hx]
    simp
  · simp [many_files, parse_args, ha]

/-! ## Histories -/

theorem output_prefix (canOpen : String → Option PyErr) (file : String)
    (body : List C × Option PyErr) (d : Disk C) :
    (∀ f l, d.files f = some l →
      ∃ l', (output canOpen .append file body d).1.files f = some (l ++ l')) ∧
    ∃ l', (output canOpen .append file body d).1.stdout = d.stdout ++ l' := by
  unfold output
  by_cases h : file = "-"
  · simp only [h, if_true]
    exact ⟨fun f l hl => ⟨[], by simpa using hl⟩, body.1, rfl⟩
  · simp only [h, if_false]
    cases canOpen file with
    | some x => exact ⟨fun f l hl => ⟨[], by simpa using hl⟩, [], by simp⟩
    | none =>
      refine ⟨fun f l hl => ?_, [], by simp⟩
      by_cases hf : f = file
      · subst hf
        exact ⟨body.1, by simp [hl, Mode.start]⟩
      · exact ⟨[], by simpa [hf] using hl⟩

theorem call_prefix (e : Stats.Env σ V) (canOpen : String → Option PyErr)
    (strip : String → String) (c : Call μ σ) (d : Disk (List V)) :
    (∀ f l, d.files f = some l →
      ∃ l', (c.result e canOpen strip d).disk.files f = some (l ++ l')) ∧
    ∃ l', (c.result e canOpen strip d).disk.stdout = d.stdout ++ l' := by
  have same : ∀ d' : Disk (List V), d' = d → (∀ f l, d.files f = some l →
      ∃ l', d'.files f = some (l ++ l')) ∧ ∃ l', d'.stdout = d.stdout ++ l' := by
    rintro _ rfl
    exact ⟨fun f l hl => ⟨[], by simpa using hl⟩, [], by simp⟩
  cases c with
  | tocsv load file range given =>
    simp only [Call.result, ds_tocsv, analyse_main]
    cases parse_args true (logging_options ++ csv_parser) given with
    | error x => exact same _ rfl
    | ok args =>
      simp only [split, get_csv_args]
      rw [if_neg (by simp [callMain, Dict.keys])]
      · cases load file with
        | error x => exact same _ rfl
        | ok run =>
          dsimp only
          cases bind csv_sig (("filename", .str file) :: ("soln_range", .str range) ::
            passed [("dump_args", [("output_file", getD args "file" (.str "-")),
              ("with_header", getD args "with_header" (.bool false))])] ["dump_args"]) with
          | error x => exact same _ rfl
          | ok p =>
            obtain ⟨p, q⟩ := p
            simp only [dump_csv]
            cases run.getSolutions (optString (getD p "soln_range" .none)) with
            | error x => exact same _ rfl
            | ok y =>
              simp only
              cases attributeOf y with
              | error x => exact same _ rfl
              | ok s => exact output_prefix _ _ _ _
  | stats read stdin files given =>
    simp only [Call.result, ds_stats, many_files]
    cases parse_args false (logging_options ++ many_parser) given with
    | error x => exact same _ rfl
    | ok ns =>
      simp only
      cases attr ns "file" with
      | error x => exact same _ rfl
      | ok v =>
        cases attr ns "with_stdin" with
        | error x => exact same _ rfl
        | ok w => exact output_prefix _ _ _ _
  | dumpcsv read stdin files given =>
    simp only [Call.result, ds_dumpcsv, many_files]
    cases parse_args false (logging_options ++ many_parser) given with
    | error x => exact same _ rfl
    | ok ns =>
      simp only
      cases attr ns "file" with
      | error x => exact same _ rfl
      | ok v =>
        cases attr ns "with_stdin" with
        | error x => exact same _ rfl
        | ok w => exact output_prefix _ _ _ _

/-- However often and however successfully the three commands writing tables are used,
nothing that was in a file or printed is changed or lost: rows are only added. -/
theorem tables_only_grow (e : Stats.Env σ V) (canOpen : String → Option PyErr)
    (strip : String → String) (calls : List (Call μ σ)) (d : Disk (List V)) :
    (∀ f l, d.files f = some l →
      ∃ l', (history e canOpen strip calls d).files f = some (l ++ l')) ∧
    ∃ l', (history e canOpen strip calls d).stdout = d.stdout ++ l' := by
  induction calls generalizing d with
  | nil => exact ⟨fun f l hl => ⟨[], by simpa [history] using hl⟩, [], by simp [history]⟩
  | cons c calls ih =>
    obtain ⟨h1, l1, h2⟩ := call_prefix e canOpen strip c d
    obtain ⟨h3, l3, h4⟩ := ih (c.result e canOpen strip d).disk
    refine ⟨fun f l hl => ?_, l1 ++ l3, ?_⟩
    · obtain ⟨l', hl'⟩ := h1 f l hl
      obtain ⟨l'', hl''⟩ := h3 f _ hl'
      exact ⟨l' ++ l'', by rw [← List.append_assoc]; exact hl''⟩
    · rw [← List.append_assoc, ← h2]
      exact h4

/-- A table collected by several uses of `ds-tocsv` for the same or different solutions:
afterwards a file holds what it held before and the rows of the solutions which were
found and sent there, in the order of the uses, the others leaving no trace. -/
theorem tocsv_collects (e : Stats.Env σ V) (canOpen : String → Option PyErr)
    (load : String → Except PyErr (Run μ σ)) (strip : String → String) (f : String)
    (hf : f ≠ "-") (hc : canOpen f = none) (calls : List (String × String × List Occ))
    (hok : ∀ c ∈ calls, Words c.2.2 ∧
      accepted (logging_options ++ csv_parser) c.2.2 = true) (d : Disk (List V)) :
    ((history e canOpen strip (calls.map fun c => Call.tocsv load c.1 c.2.1 c.2.2)
        d).files f).getD [] =
      (d.files f).getD [] ++ calls.flatMap (rowsFor e load f) := by
  induction calls generalizing d with
  | nil => simp [history]
  | cons c calls ih =>
    obtain ⟨h1, h2⟩ := hok c (by simp)
    have ih := ih (fun c hc => hok c (List.mem_cons_of_mem _ hc))
      (ds_tocsv e canOpen load c.1 c.2.1 c.2.2 d).disk
    simp only [List.map_cons, history, List.foldl_cons, Call.result] at ih ⊢
    rw [ih, List.flatMap_cons, ← List.append_assoc]
    congr 1
    rw [tocsv_eq e canOpen load c.1 c.2.1 c.2.2 d h1 h2]
    unfold withFound rowsFor
    cases found load c.1 c.2.1 with
    | error x => simp
    | ok p =>
      simp only [output]
      by_cases hd : target c.2.2 = "-"
      · have : "-" ≠ f := fun h => hf h.symm
        simp [hd, this]
      · simp only [hd, if_false]
        by_cases ht : target c.2.2 = f
        · simp [ht, hc, Mode.start]
        · cases canOpen (target c.2.2) with
          | some x => simp [ht]
          | none => simp [ht, Ne.symm ht]

/-! ## `ds-info` -/

theorem find_logging (opts : List Opt) (h : ∀ o ∈ opts, o.name ∉ logging_options.map (·.name))
    (n : String) (hn : n ∈ logging_options.map (·.name)) :
    (logging_options ++ opts).find? (·.name = n) = logging_options.find? (·.name = n) := by
  rw [List.find?_append]
  have : opts.find? (·.name = n) = none := by
    rw [List.find?_eq_none]
    intro o ho
    simp only [decide_eq_true_eq]
    rintro rfl
    exact h o ho hn
  rw [this, Option.or_none]

theorem known_logging {given : List Occ} (ha : accepted logging_options given = true) :
    ∀ x ∈ given, x.1 ∈ logging_options.map (·.name) := by
  intro x hx
  simp only [accepted, Bool.and_eq_true, List.all_eq_true] at ha
  have := ha.1 x hx
  unfold known at this
  cases h : logging_options.find? (·.name = x.1) with
  | none => simp [h] at this
  | some o =>
    have h1 := List.mem_of_find?_eq_some h
    have h2 := List.find?_some h
    simp only [decide_eq_true_eq] at h2
    exact List.mem_map.mpr ⟨o, h1, h2⟩

/-- Besides the options about the log the command line has exactly one of the groups. -/
theorem info_accepted (group : String) (given : List Occ)
    (ha : accepted logging_options given = true) :
    accepted (logging_options ++ info_parser) (("group", .str group) :: given) = true ↔
      group ∈ Info.GROUPS := by
  have hn : ∀ o ∈ info_parser, o.name ∉ logging_options.map (·.name) := by decide +kernel
  have hfind : ∀ x ∈ given, (logging_options ++ info_parser).find? (·.name = x.1) =
      logging_options.find? (·.name = x.1) :=
    fun x hx => find_logging _ hn _ (known_logging ha x hx)
  have hgroup : (logging_options ++ info_parser).find? (·.name = "group") =
      some ⟨"group", "group", .store, none, some Info.GROUPS, none⟩ := rfl
  have hk : known (logging_options ++ info_parser) ("group", .str group) =
      decide (group ∈ Info.GROUPS) := by
    unfold known
    simp only [hgroup, Opt.accepts]
  have hkg : ∀ x ∈ given, known (logging_options ++ info_parser) x = known logging_options x := by
    intro x hx
    simp only [known, hfind x hx]
  have hcg : ∀ x ∈ given, ∀ y ∈ given, conflict (logging_options ++ info_parser) x y =
      conflict logging_options x y := by
    intro x hx y hy
    simp only [conflict, hfind x hx, hfind y hy]
  have hc1 : ∀ y, conflict (logging_options ++ info_parser) ("group", .str group) y = false := by
    intro y
    simp only [conflict, hgroup]
    cases (logging_options ++ info_parser).find? (·.name = y.1) <;> simp
  have hc2 : ∀ y, conflict (logging_options ++ info_parser) y ("group", .str group) = false := by
    intro y
    simp only [conflict, hgroup]
    cases (logging_options ++ info_parser).find? (·.name = y.1) with
    | none => rfl
    | some o =>
      cases h : o.group <;> simp [h]
  simp only [accepted, Bool.and_eq_true, List.all_eq_true] at ha ⊢
  constructor
  · rintro ⟨h1, _⟩
    have := h1 _ List.mem_cons_self
    rw [hk] at this
    simpa using this
  · intro hg
    refine ⟨fun x hx => ?_, fun x hx y hy => ?_⟩
    · rcases List.mem_cons.mp hx with rfl | hx
      · rw [hk]
        simpa using hg
      · rw [hkg x hx]
        exact ha.1 x hx
    · rcases List.mem_cons.mp hx with rfl | hx
      · rw [hc1]
        rfl
      · rcases List.mem_cons.mp hy with rfl | hy
        · rw [hc2]
          rfl
        · rw [hcg x hx y hy]
          exact ha.2 x hx y hy

theorem no_group {given : List Occ} (ha : accepted logging_options given = true)
    (v : Val) : ("group", v) ∉ given := by
  intro h
  have hn : "group" ∉ logging_options.map (·.name) := by decide +kernel
  exact hn (known_logging ha _ h)

theorem textGiven_cons {given : List Occ} (v : Val) (name : String) (h : "group" ≠ name) :
    lastGiven (("group", v) :: given) name = lastGiven given name := by
  rw [lastGiven_cons]
  cases lastGiven given name <;> simp [h]

theorem logGiven_cons (given : List Occ) (v : Val) :
    logGiven (("group", v) :: given) = logGiven given := by
  simp only [logGiven, textGiven, textGiven_cons v _ (show "group" ≠ "--stderr-level" by decide),
    textGiven_cons v _ (show "group" ≠ "--log-file" by decide),
    textGiven_cons v _ (show "group" ≠ "--log-file-level" by decide),
    isGiven_of_ne (show (("group", v) : Occ).1 ≠ "--quiet" from show "group" ≠ _ by decide),
    isGiven_of_ne (show (("group", v) : Occ).1 ≠ "--verbose" from show "group" ≠ _ by decide)]

/-- A group there is not is a usage error: nothing is opened, logged or printed. -/
theorem info_unknown_group (O : Info.Objects V)
    (load : String → Except PyErr (Info.RunInfo V × Run μ (Info.Soln V)))
    (file range group : String) (given : List Occ) (d : Disk (Info.Item V))
    (ha : accepted logging_options given = true) (hg : group ∉ Info.GROUPS) :
    ds_info O load file range group given d = ⟨d, none, some .SystemExit⟩ := by
  have : accepted (logging_options ++ info_parser) (("group", .str group) :: given) = false := by
    rw [← Bool.not_eq_true, info_accepted group given ha]
    exact hg
  simp [ds_info, parse_args, this]

/-- For every group there is, what `info` says about the solution asked for is printed,
and no file is written. -/
theorem info_prints (O : Info.Objects V)
    (load : String → Except PyErr (Info.RunInfo V × Run μ (Info.Soln V)))
    (file range group : String) (given : List Occ) (d : Disk (Info.Item V)) (ht : Words given)
    (ha : accepted logging_options given = true) (hg : group ∈ Info.GROUPS)
    (r : Info.RunInfo V) (run : Run μ (Info.Soln V)) (hl : load file = .ok (r, run)) :
    ds_info O load file range group given d =
      ⟨⟨d.files, d.stdout ++ (Info.info O r run (some range) group).file ++
          (Info.info O r run (some range) group).stdout⟩,
        some (Logging.log_handler (logGiven given)),
        (Info.info O r run (some range) group).error⟩ := by
  have hacc := (info_accepted group given ha).2 hg
  have ho := info_distinct ⟨"group", "group", .store, none, some Info.GROUPS, none⟩ (by
    simp [info_parser, Info.GROUPS])
  have h1 := parsed true _ (("group", .str group) :: given) _ ho.1 ho.2
  simp only [after, Opt.initial] at h1
  have h2 : lastGiven (("group", .str group) :: given) "group" = some (.str group) := by
    rw [lastGiven_cons]
    cases h : lastGiven given "group" with
    | none => simp
    | some v => exact absurd (mem_of_lastGiven h) (no_group ha v)
  have h3 := log_args true (fun o ho => info_distinct o (List.mem_append_left _ ho))
    (given := ("group", .str group) :: given) (by
      intro n hn v hv
      rcases List.mem_cons.mp hv with hv | hv
      · injection hv with h1 h2
        subst h1
        simp at hn
      · exact ht n hn v hv)
  rw [logGiven_cons] at h3
  rw [h2] at h1
  simp only [ds_info, parse_args, hacc, if_true, h3, hl, Dict.getItem, h1]
  rfl

/-! ## Examples -/

/-- A run with two solutions. -/
def witRun : Run String ℕ := { info := "run", solutions := [("0", 5), ("1", 6)] }

/-- The inputs of solution `n` are all called `n`. -/
def witEnv : Stats.Env ℕ String where
  str := id
  input := fun n f => f.name ++ toString n
  values := fun _ _ => .ok fun k => k

/-- An empty disk. -/
def witDisk : Disk C := ⟨fun _ => none, []⟩

/-- A table with a row. -/
def witTable : Disk (List String) := ⟨fun f => if f = "out.csv" then some [["old"]] else none, []⟩

def witLine : List Occ :=
  [("--file", .str "first.csv"), ("--with-header", .none), ("--file", .str "out.csv")]

theorem witLine_words : Words witLine := by
  intro n hn v hv
  simp only [witLine, List.mem_cons, List.not_mem_nil, or_false, Prod.mk.injEq] at hv
  rcases hv with ⟨_, rfl⟩ | ⟨rfl, rfl⟩ | ⟨_, rfl⟩
  · exact ⟨_, rfl⟩
  · simp at hn
  · exact ⟨_, rfl⟩

theorem witFinds : Finds (fun _ => .ok witRun) "run.hdf5" "1" witRun 6 := ⟨rfl, rfl⟩

/-- The last file given counts, and what it held stays. -/
example : ∃ d', ds_tocsv witEnv (fun _ => none) (fun _ => .ok witRun) "run.hdf5" "1" witLine
      witTable = ⟨d', some (Logging.log_handler {}), none⟩ ∧
    d'.files "out.csv" = some [["old"], SField.all.map (·.name),
      SField.all.map fun f => f.name ++ "6"] ∧ d'.files "first.csv" = none := by
  obtain ⟨d', h1, h2⟩ := tocsv_writes witEnv (fun _ => none) (fun _ => .ok witRun) "run.hdf5" "1"
    witLine witTable witLine_words rfl witRun 6 witFinds (Or.inr rfl)
  obtain ⟨_, h3, h4⟩ := h2
  exact ⟨d', h1, h3, h4 "first.csv" (by decide)⟩

/-- A solution there is not. -/
example : ds_tocsv witEnv (fun _ => none) (fun _ => .ok witRun) "run.hdf5" "7" witLine witTable =
    ⟨witTable, some (Logging.log_handler {}), some .KeyError⟩ := by
  rw [tocsv_eq witEnv (fun _ => none) (fun _ => .ok witRun) "run.hdf5" "7" witLine witTable
    witLine_words rfl]
  rfl

example := (tocsv_ok_iff witEnv (fun _ => none) (fun _ => .ok witRun) "run.hdf5" "1" witLine
  witTable witLine_words).2 ⟨rfl, ⟨witRun, 6, witFinds⟩, Or.inr rfl⟩

/-- Two solutions and one which is not there, collected in a table. -/
example : ((history witEnv (fun _ => none) id
      ([("run.hdf5", "0", [("--file", .str "out.csv")]),
        ("run.hdf5", "7", [("--file", .str "out.csv")]),
        ("run.hdf5", "1", [("--file", .str "out.csv")])].map fun c =>
          Call.tocsv (fun _ => .ok witRun) c.1 c.2.1 c.2.2) witTable).files "out.csv").getD [] =
    [["old"], SField.all.map fun f => f.name ++ "5", SField.all.map fun f => f.name ++ "6"] := by
  rw [tocsv_collects witEnv (fun _ => none) (fun _ => .ok witRun) id "out.csv" (by decide) rfl]
  · rfl
  · intro c hc
    simp only [List.mem_cons, List.not_mem_nil, or_false] at hc
    have hw : Words [("--file", .str "out.csv")] := by
      intro n hn v hv
      simp only [List.mem_cons, List.not_mem_nil, or_false, Prod.mk.injEq] at hv
      exact ⟨_, hv.2⟩
    rcases hc with rfl | rfl | rfl <;> exact ⟨hw, rfl⟩

/-- A file with the two solutions. -/
def witStored : Stats.StoredRun ℕ := ⟨[("0", .ok 5), ("1", .ok 6)], .ok (some 6)⟩

theorem witMany_words : Words [("--with-stdin", .none)] := by
  intro n hn v hv
  simp only [List.mem_cons, List.not_mem_nil, or_false, Prod.mk.injEq] at hv
  rw [hv.1] at hn
  simp at hn

/-- A file named on the command line and one on the standard input. -/
example : ∃ d', ds_dumpcsv witEnv (fun _ => none)
      (fun f => if f = "b" then .error .OSError else .ok witStored) id ["b", "c"] ["a"]
      [("--with-stdin", .none)] (witDisk : Disk (List String)) =
        ⟨d', some (Logging.log_handler {}), none⟩ ∧
    d'.stdout = (SField.all.map (·.name)) :: ([5, 6, 6, 5, 6, 6].map fun n : ℕ =>
      SField.all.map fun f => f.name ++ toString n) := by
  obtain ⟨d', h1, h2⟩ := dumpcsv_writes witEnv (fun _ => none)
    (fun f => if f = "b" then .error .OSError else .ok witStored) id ["b", "c"] ["a"]
    [("--with-stdin", .none)] (witDisk : Disk (List String)) witMany_words rfl (Or.inl rfl)
  exact ⟨d', h1, h2.1⟩

example := stats_writes witEnv (fun _ => none) (fun _ => .ok witStored) id ["b", "c"] ["a"]
  [("--with-stdin", .none)] (witDisk : Disk (List String)) witMany_words rfl (Or.inl rfl)

example := many_stops (Stats.write_stats witEnv) (fun _ => none) (fun _ => .ok witStored) id [] []
  [("--with-header", .none)] (witDisk : Disk (List String)) (by
    intro n hn v hv
    simp only [List.mem_cons, List.not_mem_nil, or_false, Prod.mk.injEq] at hv
    rw [hv.1] at hn
    simp at hn) (fun h => by have := h.1; cases this)

def witCfgLine : List Occ := [("--file", .str "new.cfg")]

theorem witCfgLine_words : Words witCfgLine := by
  intro n hn v hv
  simp only [witCfgLine, List.mem_cons, List.not_mem_nil, or_false, Prod.mk.injEq] at hv
  exact ⟨_, hv.2⟩

example := tocfg_round_trip witConv witConv_faithful
  (fun n => ⟨Text.ofInt_trim n, by
      intro h; rcases Text.ofInt_chars n h with h | h <;> simp [Char.isDigit] at h, by
      intro h; rcases Text.ofInt_chars n h with h | h <;> simp [Char.isDigit] at h⟩)
  (fun _ => "my run".toList) (fun _ : ℕ => witSolnInput) (fun _ => none) (fun _ => .ok witRun)
  "run.hdf5" "1" witCfgLine witDisk witCfgLine_words rfl witRun 6 witFinds (by decide) rfl
  witSolnInput_typed
  ⟨Cfg.safe_of_line ⟨by decide +kernel, by decide +kernel⟩ (by decide), by decide⟩
  (fun t h => by
    injection h with h
    subst h
    exact ⟨Cfg.safe_of_line (Text.trim_of_all (by decide +kernel)) (by decide +kernel),
      by decide +kernel⟩)
  (fun h => by cases h) (-1000) (-100) none rfl

/-- A label with a percent sign: the file `new.cfg` is lost. -/
theorem tocfg_loses_file : ∃ d' x, ds_tocfg witConv (fun _ => "50%".toList)
      (fun _ : ℕ => witSolnInput) (fun _ => none) (fun _ => .ok witRun) "run.hdf5" "1" witCfgLine
      ⟨fun _ => some ["[config]".toList], []⟩ =
        ⟨d', some (Logging.log_handler {}), some x⟩ ∧
    d'.files "new.cfg" = some [] := by
  obtain ⟨c, h1, -, h2⟩ := input_round_trip_partial witConv witConv_faithful witSolnInput
    witSolnInput_typed "50%".toList (fun h => by cases h) (-1000) (-100) none rfl
  obtain ⟨x, h3⟩ := conf_file_percent_fails c "50".toList (by decide) h2
  obtain ⟨d', h4, h5⟩ := tocfg_failure_empties witConv (fun _ => "50%".toList)
    (fun _ : ℕ => witSolnInput) (fun _ => none) (fun _ => .ok witRun) "run.hdf5" "1" witCfgLine
    ⟨fun _ => some ["[config]".toList], []⟩ witCfgLine_words rfl witRun 6 witFinds (Or.inr rfl)
    x (Or.inr ⟨c, h1, h3⟩)
  exact ⟨d', x, h4, h5.2.1⟩

/-- A file which cannot be read. -/
example := tocfg_not_found witConv (fun _ : Run String ℕ => "50%".toList)
  (fun _ : ℕ => witSolnInput) (fun _ => none) (fun _ => .error .OSError) "run.hdf5" "1"
  witCfgLine witDisk witCfgLine_words (fun h => by
    obtain ⟨-, ⟨run, s, h, -⟩, -⟩ := h
    cases h)

example := tables_only_grow witEnv (fun _ => none) id
  [.tocsv (fun _ => .ok witRun) "run.hdf5" "1" witLine,
   .stats (fun _ => .ok witStored) [] ["a"] [("--file", .str "out.csv")]] witTable

/-- How objects are printed, for an example. -/
def witObjects : Info.Objects String := ⟨toString, toString, fun _ => "x", fun _ => "y"⟩

example := info_unknown_group (μ := String) witObjects (fun _ => .error .OSError) "run.hdf5" "0"
  "everything" [("--quiet", .none)] witDisk rfl (by decide +kernel)

example := info_prints (μ := String) witObjects
  (fun _ => .ok (⟨"f", "l", "c", "s", "v", "u", []⟩,
    { info := "run", solutions := [("0", ⟨"2", "sph", true, true, false, false, [("β", "1")], [],
      1, .ok ⟨none, none, none, none⟩, []⟩)] }))
  "run.hdf5" "0" "input" [("--quiet", .none)] witDisk (by
    intro n hn v hv
    simp only [List.mem_cons, List.not_mem_nil, or_false, Prod.mk.injEq] at hv
    rw [hv.1] at hn
    simp at hn) rfl (by decide +kernel) _ _ rfl

example := tocsv_fails witEnv (fun _ => none) (fun _ => .ok witRun) "run.hdf5" "7" witLine witTable
  witLine_words

example : ∃ c t, witSolnInput.to_config_input witConv "my run".toList = .ok c ∧
    c.to_conf_file = .ok t ∧ ∃ d', ds_tocfg witConv (fun _ => "my run".toList)
      (fun _ : ℕ => witSolnInput) (fun _ => none) (fun _ => .ok witRun) "run.hdf5" "1" witCfgLine
      witDisk = ⟨d', some (Logging.log_handler {}), none⟩ ∧ d'.files "new.cfg" = some [t] := by
  obtain ⟨c, t, -, h1, h3, -⟩ := dump_config_round_trip witConv witConv_faithful
    (fun n => ⟨Text.ofInt_trim n, by
      intro h; rcases Text.ofInt_chars n h with h | h <;> simp [Char.isDigit] at h, by
      intro h; rcases Text.ofInt_chars n h with h | h <;> simp [Char.isDigit] at h⟩)
    witSolnInput witSolnInput_typed "my run".toList
    ⟨Cfg.safe_of_line ⟨by decide +kernel, by decide +kernel⟩ (by decide), by decide⟩
    (fun t h => by
      injection h with h
      subst h
      exact ⟨Cfg.safe_of_line (Text.trim_of_all (by decide +kernel)) (by decide +kernel),
        by decide +kernel⟩)
    (fun h => by cases h) (-1000) (-100) none rfl
  obtain ⟨d', h4, h5⟩ := tocfg_writes witConv (fun _ => "my run".toList)
    (fun _ : ℕ => witSolnInput) (fun _ => none) (fun _ => .ok witRun) "run.hdf5" "1" witCfgLine
    witDisk witCfgLine_words rfl witRun 6 witFinds (Or.inr rfl) c t h1 h3
  exact ⟨c, t, h1, h3, d', h4, h5.2.1⟩

end DiscSolver.CliDump
