import Verif.Props.Saving

/-!
# A history with a shock

A concrete case for C114, C116 and C117: `ds-soln`, `ds-shock` and `ds-resoln`, one after
another.
-/

namespace DiscSolver.ShockHistory

open Cli CliSolve Runners SingleRun EndToEnd ConfDoc Sessions ShockFiles

/-- An integrator which finds a fast flow, whatever it is asked. -/
noncomputable def witFast (_ : Tolerances) : Integrator := fun r =>
  { ending := .finished
    soln := { flag := .SUCCESS, t := [1/2, 1, 2, 3, 4, 5, 6]
              y := { r.init with v_θ := 3 } :: List.replicate 6 { r.init with v_θ := 2 } } }

/-- Rows which are fastest early, and fast enough later. -/
def Fast (out : SolutionOut) : Prop :=
  ∃ s0 s1 s2 s3 : St, out.angles = [0, radians witOpts.taylor_stop_angle, 1/2, 1, 2, 3, 4, 5, 6] ∧
    out.solution = [s0, s1, s2, s3, s3, s3, s3, s3, s3] ∧ s2.v_θ = 3 ∧ s3.v_θ = 2

theorem fast_solution {c : Conditions} (h : define_conditions witInp = some c) (b : Bool) :
    ∃ out, (solution (witFast witTol) (fun _ => "") (fun _ _ => none) witOpts c
      { store_internal := b }).result = .ok out ∧ Fast out := by
  have hpi := Real.pi_pos
  have hang : (taylor_new_angles c.angles (radians witOpts.taylor_stop_angle / 1)) =
      [Real.pi / 4, Real.pi / 2] := by
    rw [witInp_angles h, taylor_new_angles]
    have h0 : ¬ radians witOpts.taylor_stop_angle / 1 < 0 := by
      have : 0 ≤ radians witOpts.taylor_stop_angle / 1 := by
        simp only [radians, witOpts]; positivity
      exact not_lt.2 this
    have h1 : radians witOpts.taylor_stop_angle / 1 < Real.pi / 4 := by
      simp only [radians, witOpts]; linarith
    have h2 : radians witOpts.taylor_stop_angle / 1 < Real.pi / 2 := by
      simp only [radians, witOpts]; linarith
    rw [div_one] at h0 h1 h2
    simp [h0, h1, h2]
  unfold solution
  simp only [taylor_start_jump _ _ witOpts c { store_internal := b } rfl rfl, Logged.ok_bind,
    hang]
  refine ⟨_, rfl, _, _, _, _, ?_, rfl, rfl, rfl⟩
  simp [taylor_jump, scaled_to_rad, rad_to_scaled, witFast]

/-- The row at `1` is one to start from. -/
theorem fast_candidate {out : SolutionOut} (h : Fast out) : ∃ (values : List (ℝ × St)) (i : ℕ) (s : St),
    find_shock_test_values (out.angles.zip out.solution) (min_v_θ_pre := 1) (max_v_θ_pre := 10)
      (min_angle := 40) = .ok values ∧ values[i]? = some ((1 : ℝ), s) := by
  obtain ⟨s0, s1, s2, s3, ha, hs, h2, h3⟩ := h
  have hstop : radians witOpts.taylor_stop_angle < 1 := by
    have := Real.pi_le_four
    simp only [radians, witOpts]; linarith
  have h40 : radians 40 < 1 := by
    have := Real.pi_le_four
    simp only [radians]; linarith
  rw [ha, hs]
  generalize radians witOpts.taylor_stop_angle = t at *
  cases hv : find_shock_test_values (List.zip [0, t, 1/2, 1, 2, 3, 4, 5, 6]
      [s0, s1, s2, s3, s3, s3, s3, s3, s3]) 1 10 40 with
  | error e =>
    have := (shock_candidates_fails _ 1 10 40 true).1 ⟨e, hv⟩
    simp at this
  | ok values =>
    have hmem : ((1 : ℝ), s3) ∈ values := by
      unfold find_shock_test_values shock_min_angle at hv
      rw [if_pos rfl] at hv
      split at hv
      · cases hv
      · next a hmin =>
        injection hv with hv
        subst hv
        split at hmin
        · cases hmin
        · next i hi =>
          obtain ⟨m, hm, hmax, -⟩ := nanargmax_spec _ _ hi
          have hm3 : 3 ≤ m := hmax 3 (by simp [h2])
          split at hmin
          · next b hb =>
            injection hmin with hmin
            subst hmin
            have hb1 : b < 1 := by
              simp only [List.zip_cons_cons, List.zip_nil_right, List.map_cons, List.map_nil]
                at hm hb
              match i, hm, hb with
              | 0, _, hb => simp at hb; linarith
              | 1, _, hb => simp at hb; linarith
              | 2, _, hb => simp at hb; linarith
              | 3, hm, _ => simp at hm; linarith
              | 4, hm, _ => simp at hm; linarith
              | 5, hm, _ => simp at hm; linarith
              | 6, hm, _ => simp at hm; linarith
              | 7, hm, _ => simp at hm; linarith
              | 8, hm, _ => simp at hm; linarith
              | (n + 9), hm, _ => simp at hm
            refine List.mem_filter.2 ⟨by simp, ?_⟩
            simp only [decide_eq_true_eq]
            rw [h3]
            exact ⟨by norm_num, by norm_num, max_lt h40 hb1⟩
          · cases hmin
    obtain ⟨i, hi⟩ := List.mem_iff_getElem?.1 hmem
    exact ⟨values, i, s3, rfl, hi⟩

/-- It is solved. -/
theorem fast_continuation {b : Bool} {m : Made} {s : SolutionInput ℝ} (hf : Fast m.out)
    (h : single_solution witFast (fun _ => "") (fun _ _ => none) b s = .ok m) (p : St) :
    ∃ made, continuation witFast (fun _ => "") (fun _ _ => none) m (1, p) = .ok made ∧
      5 ≤ made.out.angles.length := by
  obtain ⟨rfl, inp, tol, o, -, ht, ho, -, -⟩ := single_solution_ok h
  obtain ⟨s0, s1, s2, s3, ha, -, -, -⟩ := hf
  let E : ShockRun.Env ℝ := 
    { I := witFast tol, str := fun _ => "", interp := fun _ _ => none, path := fun d n => d ++ n
      writable := fun _ => true, stamp := fun i => i.repr, plots := fun _ _ => true }
  let q : ShockRun.Search ℝ :=
    { new_solution_input := ShockRun.withoutSonicTaylor o
      initial_conditions := m.initial_conditions, angles := m.out.angles
      run := { info := ⟨fun _ => none, none, "", .none⟩ }, values := [] }
  have hs := ShockRun.shock_solve E q o (1, p) rfl
  have hlen : ¬ (ShockRun.request q (1, p)).angles.length < 2 := by
    simp only [ShockRun.request, q, ha]
    have : radians witOpts.taylor_stop_angle < 1 := by
      have := Real.pi_le_four
      simp only [radians, witOpts]; linarith
    norm_num [List.filter_cons, this]
  rw [if_neg hlen] at hs
  obtain ⟨out, h1, -, h2, -⟩ := hs.2.2 (by simp [E, witFast])
  rw [continuation_agrees m (1, p) o tol ho ht E rfl rfl rfl q rfl rfl rfl rfl, h1]
  exact ⟨_, rfl, by simp only [h2, E, witFast]; decide⟩

/-- All methods, with this integrator. -/
noncomputable def witMethods : Bool → String → Solver ℝ Made :=
  Hdf5Run.methods (fun _ _ => []) (fun _ _ => .error .ValueError) Stepper.realOps (fun _ => .STOP)
    witFast (fun _ => "") (fun _ _ => none) (fun _ => Hydro.witI) (fun _ => Hydro.witI) true
    ModHydro.witT (fun _ _ => ([], .ok true)) 1 fun _ _ _ r => (.error .SolverError, r)

theorem witMethods_program : Program witFast (fun _ => "") (fun _ _ => none) witMethods :=
  Program.mk (fun _ _ => []) (fun _ _ => .error .ValueError) Stepper.realOps (fun _ => .STOP)
    (fun _ => Hydro.witI) (fun _ => Hydro.witI) true ModHydro.witT (fun _ _ => ([], .ok true)) 1
    fun _ _ _ r => (.error .SolverError, r)

/-- The files left by `ds-soln`. -/
noncomputable def witSolved : FS ℝ Made :=
  (ds_soln witEnvR (SingleRun.methods witFast (fun _ => "") (fun _ _ => none)
      fun _ _ _ r => (.error .SolverError, r)) (fun _ => some witDoc.text) "a.cfg" witGiven
      ([] : FS ℝ Made)).fs

theorem witSolved_session :
    Session witConvR witFast (fun _ => "") (fun _ _ => none) witSolved := by
  have h := Session.soln witEnvR witMethods (fun _ => some witDoc.text) "a.cfg" witGiven [] rfl
    witMethods_program wit_typed (.start _ fun _ _ h => by cases h)
  rw [Hdf5Run.soln_congr witEnvR witMethods (SingleRun.methods witFast (fun _ => "")
    (fun _ _ => none) fun _ _ _ r => (.error .SolverError, r)) _ _ _ _ wit_typed
    (by decide +kernel) wit_known
    (by
      intro st
      rw [show (textGiven witGiven "--sonic-method").getD "single" = "single" by decide +kernel]
      rfl)] at h
  exact h

/-- The solution `ds-soln` leaves. -/
theorem witSolved_stored : ∃ r m, witSolved.get? witFile = some (.run r) ∧
    r.final = .value (some m) ∧ r.getSolutions (some "final") = .ok (.soln m) ∧
    r.info.config_input .label = some (witAsked .label) ∧ Fast m.out ∧
    single_solution witFast (fun _ => "") (fun _ _ => none) true m.solution_input = .ok m ∧
    ∀ q, q ≠ witFile → witSolved.get? q = none := by
  have hp := soln_succeeds witEnvR witFast (fun _ => "") (fun _ _ => none)
    (fun _ _ _ r => (.error .SolverError, r)) (fun _ => some witDoc.text)
    "a.cfg" witGiven [] witDoc witDoc_good rfl wit_typed (by decide +kernel) wit_known
    (by decide +kernel) (fun f => ⟨_, witDoc_inFile f⟩) wit_reads _
    (Or.inr ⟨by decide +kernel, _, wit_asked .label, rfl⟩) rfl rfl witInp witOpts witTol
    witInp_ok.choose (fast_solution witInp_ok.choose_spec _).choose wit_states wit_options
    witInp_ok.choose_spec (fast_solution witInp_ok.choose_spec _).choose_spec.1
  obtain ⟨p, r, m, -, h1, h2, h3⟩ := soln_stored (I := witFast) (str := fun _ => "")
    (interp := fun _ _ => none) witDoc_good witEnvR
    (fun _ _ _ r => (.error .SolverError, r)) (fun _ => some witDoc.text) "a.cfg" witGiven []
    rfl wit_typed (by decide +kernel) 0 hp.1
  obtain ⟨p', -, -, -, -, -, -, g1, -, g2, -⟩ :=
    soln_end_to_end witEnvR witFast (fun _ => "") (fun _ _ => none)
    (fun _ _ _ r => (.error .SolverError, r)) (fun _ => some witDoc.text) "a.cfg" witGiven []
    witDoc witDoc_good rfl wit_typed (by decide +kernel) wit_known (by decide +kernel) 0 hp.1
  have hpf : p = witFile := by
    have := hp.2
    rw [h1] at this
    injection this
  have hpf' : p' = witFile := by
    have := hp.2
    rw [g1] at this
    injection this
  subst hpf hpf'
  rw [wit_store] at h3
  obtain ⟨s, z, -, k1, k2, k3, -, k4, -, -⟩ := soln_runs witEnvR (SingleRun.methods witFast
    (fun _ => "") (fun _ _ => none) (fun _ _ _ r => (.error .SolverError, r)))
    (fun _ => some witDoc.text)
    "a.cfg" witGiven [] witDoc witDoc_good rfl wit_typed (by decide +kernel) wit_known
    (fun f => ⟨_, witDoc_inFile f⟩) wit_reads _
    (Or.inr ⟨by decide +kernel, _, wit_asked .label, rfl⟩) rfl rfl witInp witOpts witTol
    wit_states wit_options
  have hs : m.solution_input = s := by
    funext f
    obtain ⟨v, hv, e⟩ := h3.config (.s f)
    have hi := (to_soln_input_ok _ _ _).1 h3.input f
    have hi' := k4 f v hv
    rw [e] at hi
    change readField witConvR _ _ = _ at hi'
    have hi2 : readField witConvR f.kind (some (kept f.name v)) = .ok (m.solution_input f) := hi
    rw [hi2] at hi'
    injection hi'
  obtain ⟨c, hc⟩ := witInp_ok
  obtain ⟨out, ho, hf⟩ := fast_solution hc true
  have hout : m.out = out := by
    have hm := h3.made
    rw [hs] at hm
    simp only [single_solution, conditions, k1, k2, k3, hc, Bind.bind, Except.bind,
      solution_slice _ _ _ _ _ _ _ (rfl : witOpts.sonic_interp_size = none), ho, pure,
      Except.pure] at hm
    injection hm with hm
    rw [← hm]
  refine ⟨r, m, h2, ?_, ?_, ?_, hout ▸ hf, h3.made, g2⟩
  · rw [h3.run]
  · rw [h3.run]
    exact range_found _ _ _ _ _ _ (by decide)
  · obtain ⟨v, hv, e⟩ := h3.config .label
    rw [e, asked_unique witDoc_good witGiven .label hv (wit_asked .label)]
    rfl

/-- The file of the shock. -/
def witBehind : String := "shock_tests/" ++ (String.ofList (witAsked .label) ++ ("x" ++ ".hdf5"))

/-- `ds-shock` on it: the worker which has the row at `1` opens a file and stores what it
found. -/
theorem witShock_stored : ∃ schedule pool r m,
    ds_shock witEnvR (fun _ => "x") witFast (fun _ => "") (fun _ _ => none) witFile "final"
      witSolved schedule = .ok pool ∧
    pool.fs.get? witBehind = some (.run r) ∧ r.final = .value (some m) ∧
    r.getSolutions (some "0") = .ok (.soln m) ∧ m.out.is_post_shock_only = true ∧
    ∀ q, q ≠ witFile → q ≠ witBehind → pool.fs.get? q = none := by
  obtain ⟨old, m, h1, h2, h3, h4, h5, h6, h7⟩ := witSolved_stored
  obtain ⟨values, i, s, hv, hi⟩ := fast_candidate h5
  obtain ⟨made, hm, hlen⟩ := fast_continuation h5 h6 s
  have hload : load_run witSolved witFile = .ok old := by
    unfold load_run
    rw [h1]
    simp only [h2]
  let jobs := job witEnvR (fun _ => "x") witFast (fun _ => "") (fun _ _ => none) m
    (old.createShockRun witFile "final") values
  let j : Job ℝ Made := ⟨witBehind, old.createShockRun witFile "final", addSolver made,
    fun _ => .none⟩
  have hj : jobs i = some j := by
    have hl : (old.createShockRun witFile "final").info.config_input .label =
      some (witAsked .label) := h4
    have hn : ¬ made.out.angles.length < 5 := by omega
    simp only [jobs, job, hi, hm, if_neg hn, hl, default_name]
    rfl
  have hne : witBehind ≠ witFile := by decide +kernel
  have hfree : witSolved.get? witBehind = none := h7 _ hne
  refine ⟨[i, i], [i, i].foldl (ShockFiles.step witEnvR.writable jobs) { fs := witSolved },
    j.finish.1, made, ?_, ?_⟩
  · unfold ds_shock
    simp only [hload, h3, hv]
    rfl
  · have h1' : ShockFiles.step witEnvR.writable jobs { fs := witSolved } i =
        { fs := witSolved.set witBehind (.run j.run)
          state := Function.update (fun _ => .waiting) i .working } := by
      simp only [ShockFiles.step, hj, Pool.step]
      rw [show j.path = witBehind from rfl, hfree]
      rfl
    have h2' : ShockFiles.step witEnvR.writable jobs ⟨witSolved.set witBehind (.run j.run),
          Function.update (fun _ => .waiting) i .working⟩ i =
        { fs := (witSolved.set witBehind (.run j.run)).set witBehind (.run j.finish.1)
          state := Function.update (Function.update (fun _ => .waiting) i .working) i
            (.ended j.finish.2) } := by
      simp only [ShockFiles.step, hj, Pool.step, Function.update_self]
      rfl
    simp only [List.foldl_cons, List.foldl_nil, h1', h2']
    have hfin : j.finish.1 = ⟨old.info, .value (some made), [("0", made)], true, some witFile,
        some "final"⟩ :=
      finish_eq old witFile "final" witBehind made
    refine ⟨by rw [Dict.get?_set, if_pos rfl], by rw [hfin], ?_, (continuation_ok hm).2.2.1, ?_⟩
    · rw [hfin]
      rfl
    · intro q hq hq'
      rw [Dict.get?_set, if_neg (Ne.symm hq'), Dict.get?_set, if_neg (Ne.symm hq')]
      exact h7 q hq

/-- Afterwards `ds-resoln` solves from the midplane again, and what it stores is another
solution. -/
example : ∃ schedule pool m r,
    ds_shock witEnvR (fun _ => "x") witFast (fun _ => "") (fun _ _ => none) witFile "final"
      witSolved schedule = .ok pool ∧ m.out.is_post_shock_only = true ∧
    (ds_resoln witEnvLater Made.solution_input witMethods witBehind "0" witPlain pool.fs).fs.get?
      "./b.hdf5" = some (.run r) ∧ ¬ Has r m := by
  obtain ⟨schedule, pool, old, m, h1, h2, h3, h4, h5, h6⟩ := witShock_stored
  have hs := Session.shock witEnvR (fun _ => "x") witFile "final" witSolved schedule pool
    witSolved_session h1
  obtain ⟨r, g1, g2, -⟩ := continuation_lost witConv_eq hs witEnvLater rfl witMethods_program
    witBehind "0" witPlain old m h2 (by rw [h3]; intro h; cases h) h4 h5 witPlain_typed
    (by decide +kernel) witPlain_known (by decide +kernel)
    (fun f w hw => by
      rw [show overrideGiven witPlain f.name = none from rfl] at hw
      cases hw) "b.hdf5" (Or.inl (by decide +kernel)) "./b.hdf5" (by decide +kernel)
    (h6 _ (by decide +kernel) (by decide +kernel)) rfl
  exact ⟨schedule, pool, m, r, h1, h5, g1, g2⟩

/-- The runs `ds-shock` leaves. -/
example : ∃ schedule pool, ds_shock witEnvR (fun _ => "x") witFast (fun _ => "")
    (fun _ _ => none) witFile "final" witSolved schedule = .ok pool ∧
    ∀ p r, pool.fs.get? p = some (.run r) → Saving.Ready witConvR r := by
  obtain ⟨schedule, pool, -, -, h1, -⟩ := witShock_stored
  exact ⟨schedule, pool, h1, Saving.session_ready (Session.shock witEnvR (fun _ => "x") witFile
    "final" witSolved schedule pool witSolved_session h1)⟩

/-- A different name for each worker. -/
def witStamp (i : ℕ) : String := String.ofList (List.replicate i 'x')

theorem witStamp_path (i : ℕ) : (witEnvR.path "shock_tests" (String.ofList (witAsked .label) ++
    (witStamp i ++ ".hdf5"))).toList = "shock_tests/".toList ++ ((witAsked .label) ++
      (List.replicate i 'x' ++ ".hdf5".toList)) := by
  change (("shock_tests/" : String) ++ _).toList = _
  simp only [String.toList_append, String.toList_ofList, witStamp]

/-- Nothing is missed when every worker makes its two steps. -/
example : ∃ pool p r m, ds_shock witEnvR witStamp witFast (fun _ => "") (fun _ _ => none) witFile
      "final" witSolved ((List.range 9).flatMap fun i => [i, i]) = .ok pool ∧
    pool.fs.get? p = some (.run r) ∧ r.final = .value (some m) ∧
    m.out.is_post_shock_only = true := by
  obtain ⟨old, m, h1, h2, h3, h4, h5, h6, h7⟩ := witSolved_stored
  obtain ⟨values, i, s, hv, hi⟩ := fast_candidate h5
  obtain ⟨made, hm, hlen⟩ := fast_continuation h5 h6 s
  have hload : load_run witSolved witFile = .ok old := by
    unfold load_run
    rw [h1]
    simp only [h2]
  obtain ⟨pool, hpool⟩ : ∃ pool, ds_shock witEnvR witStamp witFast (fun _ => "")
      (fun _ _ => none) witFile "final" witSolved ((List.range 9).flatMap fun i => [i, i]) =
        .ok pool := by
    unfold ds_shock
    simp only [hload, h3, hv]
    exact ⟨_, rfl⟩
  obtain ⟨c1, c2, c3, c4, c5⟩ := ((shock_candidates _ _ _ _ _ _ hv).2 (1, s)).1
    (List.mem_of_getElem? hi)
  have hangles : m.out.angles.length = 9 := by
    obtain ⟨s0, s1, s2, s3, ha, -⟩ := h5
    rw [ha]
    rfl
  obtain ⟨p, hp⟩ := shock_all (label := String.ofList (witAsked .label)) hpool h1 h3
    (by rw [h4, String.toList_ofList])
    (fun k hk => by
      rw [hangles] at hk
      interval_cases k <;> decide)
    (fun k l hkl => by
      have := congrArg (fun t => t.toList.length) hkl
      simp only [witStamp_path, List.length_append, List.length_replicate] at this
      omega)
    (fun k => ⟨h7 _ fun he => by
      have := congrArg (fun t => t.toList.head?) he
      simp only [witStamp_path] at this
      rw [List.head?_append, show "shock_tests/".toList.head? = some 's' by decide +kernel,
        Option.some_or] at this
      exact absurd this (by decide +kernel), rfl⟩)
    c1 ⟨c2, c3⟩ c4 (c5 rfl) hm hlen
  exact ⟨pool, p, _, made, hpool, hp, rfl, (continuation_ok hm).2.2.1⟩

/-- Their configurations are complete. -/
example : ∃ schedule pool, ds_shock witEnvR (fun _ => "x") witFast (fun _ => "")
    (fun _ _ => none) witFile "final" witSolved schedule = .ok pool ∧
    Saving.AllComplete pool.fs := by
  obtain ⟨schedule, pool, -, -, h1, -⟩ := witShock_stored
  refine ⟨schedule, pool, h1, Saving.shock_complete h1 ?_⟩
  have h := Saving.soln_complete witEnvR witMethods_program (fun _ => some witDoc.text) "a.cfg"
    witGiven [] wit_typed fun p r hr => by cases hr
  rw [Hdf5Run.soln_congr witEnvR witMethods (SingleRun.methods witFast (fun _ => "")
    (fun _ _ => none) fun _ _ _ r => (.error .SolverError, r)) _ _ _ _ wit_typed
    (by decide +kernel) wit_known
    (by
      intro st
      rw [show (textGiven witGiven "--sonic-method").getD "single" = "single" by decide +kernel]
      rfl)] at h
  exact h

end DiscSolver.ShockHistory
