import Verif.Model.McmcRun
import Verif.Spec.McmcRun
import Verif.Props.Mcmc
import Verif.Props.StepRun

/-!
# Properties: sampling, from the configuration file to the stored solutions

C110.
-/

namespace DiscSolver.Mcmc

variable {κ σ μ : Type}

/-- What a sampling run which returned did: as many evaluations as it should, each at the
position chosen from the values before. -/
theorem sample_points (e : Env κ σ) (s : SolutionInput Flt) (en : List SField)
    (choose : List LogProb → Except PyErr (List (SVal Flt))) (n : ℕ) (seen : List LogProb)
    (g g' : Generator μ σ) (h : sample e s en choose n seen g = (.ok (), g')) :
    ∃ tr : List (List (SVal Flt) × SolutionInput Flt × LogProb), tr.length = n ∧
      g' = evaluateAll e g (tr.map (·.2.1)) ∧
      ∀ (k : ℕ) x, tr[k]? = some x →
        choose (seen ++ (tr.take k).map (·.2.2)) = .ok x.1 ∧
        sys_vars_to_solution_input x.1 s en = .ok x.2.1 ∧
        ∃ g₀ : Generator μ σ, (evaluate e x.2.1 g₀).1 = .ok x.2.2 := by
  induction n generalizing seen g with
  | zero =>
    injection h with _ h
    exact ⟨[], rfl, h.symm, fun k x hx => by simp at hx⟩
  | succ n ih =>
    simp only [sample] at h
    cases hc : choose seen with
    | error p => rw [hc] at h; cases h
    | ok point =>
      rw [hc] at h
      dsimp only [call] at h
      cases hi : sys_vars_to_solution_input point s en with
      | error p => rw [hi] at h; cases h
      | ok i =>
        rw [hi] at h
        dsimp only at h
        rcases he : evaluate e i g with ⟨p | v, g₁⟩
        · rw [he] at h; cases h
        · rw [he] at h
          dsimp only at h
          obtain ⟨tr, h1, h2, h3⟩ := ih _ _ h
          refine ⟨(point, i, v) :: tr, by simp [h1], ?_, ?_⟩
          · rw [h2]
            simp only [List.map_cons, evaluateAll, he]
          · intro k x hx
            cases k with
            | zero =>
              simp only [List.getElem?_cons_zero, Option.some.injEq] at hx
              subst hx
              exact ⟨by simpa using hc, hi, g, by rw [he]⟩
            | succ k =>
              have := h3 k x (by simpa using hx)
              simpa [List.append_assoc] using this

/-- A sampling run returns if the sampler never raises and no evaluation does. -/
theorem sample_returns (e : Env κ σ) (s : SolutionInput Flt) (en : List SField)
    (choose : List LogProb → Except PyErr (List (SVal Flt))) (m : μ)
    (hch : ∀ seen, ∃ p i, choose seen = .ok p ∧ sys_vars_to_solution_input p s en = .ok i ∧
      ∀ (xs : List σ) (g : Generator μ σ), Inv e.logprob m xs g →
        ∃ v, (evaluate e i g).1 = .ok v) (n : ℕ)
    (seen : List LogProb) (xs : List σ) (g : Generator μ σ) (hg : Inv e.logprob m xs g) :
    ∃ g', sample e s en choose n seen g = (.ok (), g') := by
  induction n generalizing seen xs g with
  | zero => exact ⟨g, rfl⟩
  | succ n ih =>
    obtain ⟨p, i, h1, h2, h3⟩ := hch seen
    obtain ⟨v, hv⟩ := h3 xs g hg
    obtain ⟨g', hg'⟩ := ih (seen ++ [v]) _ _ (inv_evaluate e hg i)
    refine ⟨g', ?_⟩
    simp only [sample, h1, call, h2]
    rcases he : evaluate e i g with ⟨r, g₁⟩
    rw [he] at hv hg'
    dsimp only at hv
    subst hv
    exact hg'

/-- An evaluation returns unless the input cannot be tested, or the initial conditions or the
solution raise something else than a `SolverError`. -/
theorem evaluate_returns (e : Env κ σ) (i : SolutionInput Flt) (m : μ) (xs : List σ)
    (g : Generator μ σ) (hg : Inv e.logprob m xs g) (b : Bool)
    (hv : solution_input_valid i = .ok b)
    (hd : b = true → (∃ c, e.define_conditions i = .ok c ∧
        ((∃ r, e.solution i c = .ok r) ∨ e.solution i c = .error .SolverError)) ∨
      e.define_conditions i = .error .SolverError) :
    ∃ v, (evaluate e i g).1 = .ok v := by
  unfold evaluate
  rw [hv]
  cases b with
  | false => exact ⟨_, rfl⟩
  | true =>
    rcases hd rfl with ⟨c, hc, ⟨r, hr⟩ | hr⟩ | hc
    · rw [hc]
      dsimp only
      rw [hr]
      dsimp only
      have hadd : ∃ k r', g.run.addSolution r = .ok (k, r') := by
        rw [hg.run]
        unfold Run.addSolution
        simp [add_numbered, bind, Except.bind, pure, Except.pure]
      obtain ⟨k, r', hadd⟩ := hadd
      rw [hadd]
      dsimp only
      split_ifs <;> exact ⟨_, rfl⟩
    · rw [hc]
      dsimp only
      rw [hr]
      exact ⟨_, rfl⟩
    · rw [hc]
      exact ⟨_, rfl⟩

/-- What is stored by an evaluation which returned. -/
theorem stored_of_ok (e : Env κ σ) (i : SolutionInput Flt) (g : Generator μ σ) (v : LogProb)
    (b : Bool) (hb : solution_input_valid i = .ok b) (hv : (evaluate e i g).1 = .ok v) :
    (b = true → ∀ c, e.define_conditions i = .ok c → ∀ x, e.solution i c = .error x →
      x = .SolverError) ∧
    (b = true → ∀ x, e.define_conditions i = .error x → x = .SolverError) := by
  unfold evaluate at hv
  rw [hb] at hv
  constructor
  · rintro rfl c hc x hx
    rw [hc] at hv
    dsimp only at hv
    rw [hx] at hv
    cases x <;> first | rfl | cases hv
  · rintro rfl x hx
    rw [hx] at hv
    cases x <;> first | rfl | cases hv

end DiscSolver.Mcmc

namespace DiscSolver.McmcRun

open ConfDoc CliSolve Cli Runners SingleRun EndToEnd

/-! ## Positions -/

theorem lower_lift (v : SVal ℝ) : lowerVal (liftVal v) = v := by cases v <;> rfl

theorem lookup_zip (vars : List SField) (p : List ℝ) (hn : vars.Nodup) (j : ℕ) (f : SField)
    (hj : vars[j]? = some f) : (vars.zip p).lookup f = p[j]? := by
  induction vars generalizing p j with
  | nil => simp at hj
  | cons g vars ih =>
    obtain ⟨h1, h2⟩ := List.nodup_cons.1 hn
    cases p with
    | nil => simp
    | cons x p =>
      rw [List.zip_cons_cons, List.lookup_cons]
      cases j with
      | zero =>
        simp only [List.getElem?_cons_zero, Option.some.injEq] at hj
        subst hj
        simp
      | succ j =>
        simp only [List.getElem?_cons_succ] at hj ⊢
        have hne : f ≠ g := by
          rintro rfl
          exact h1 (List.mem_of_getElem? hj)
        rw [beq_eq_false_iff_ne.2 hne]
        exact ih p h2 j hj

theorem lookup_zip_none (vars : List SField) (p : List ℝ) (f : SField) (hf : f ∉ vars) :
    (vars.zip p).lookup f = none := by
  induction vars generalizing p with
  | nil => rfl
  | cons g vars ih =>
    cases p with
    | nil => rfl
    | cons x p =>
      simp only [List.mem_cons, not_or] at hf
      rw [List.zip_cons_cons, List.lookup_cons, beq_eq_false_iff_ne.2 hf.1]
      exact ih p hf.2

/-- The input built for a position. -/
theorem at_position {s : SolutionInput ℝ} {vars : List SField} (hn : vars.Nodup) {p : List ℝ}
    {i : SolutionInput Flt}
    (h : Mcmc.sys_vars_to_solution_input (p.map fun x => .float (some x))
      (fun f => liftVal (s f)) vars = .ok i) :
    vars.length ≤ p.length ∧ (∀ f, f ∉ vars → i f = liftVal (s f)) ∧
      ∀ f x, s f = .float x → i f = .float (some (place vars p f x)) := by
  have hl : vars.length ≤ p.length := by
    by_contra hc
    push Not at hc
    have key : ∀ (fs : List SField) (k : ℕ) (inp i : SolutionInput Flt),
        Mcmc.set_vars (p.map fun x => .float (some x)) fs k inp = .ok i →
        fs = [] ∨ k + fs.length ≤ p.length := by
      intro fs
      induction fs with
      | nil => intro k inp i _; exact Or.inl rfl
      | cons f fs ih =>
        intro k inp i hk
        right
        simp only [Mcmc.set_vars] at hk
        cases hx : (p.map fun x => (SVal.float (some x) : SVal Flt))[k]? with
        | none => rw [hx] at hk; cases hk
        | some x =>
          rw [hx] at hk
          have hk' : k < p.length := by
            by_contra hh
            rw [List.getElem?_eq_none (by simpa using hh)] at hx
            cases hx
          rcases ih _ _ _ hk with rfl | h
          · simpa using hk'
          · simp only [List.length_cons]; omega
    rcases key _ _ _ _ h with rfl | h
    · simp at hc
    · omega
  obtain ⟨out, e, h1, h2⟩ := Mcmc.set_vars_spec (p.map fun x => .float (some x)) vars 0
    (fun f => liftVal (s f)) hn (by simpa using hl)
  unfold Mcmc.sys_vars_to_solution_input at h
  rw [e] at h
  injection h with h
  subst h
  refine ⟨hl, h1, fun f x hx => ?_⟩
  unfold place
  by_cases hf : f ∈ vars
  · obtain ⟨j, hj⟩ := List.mem_iff_getElem?.1 hf
    rw [lookup_zip vars p hn j f hj]
    have := h2 j f hj
    rw [Nat.zero_add, List.getElem?_map] at this
    cases hp : p[j]? with
    | none => rw [hp] at this; cases this
    | some y =>
      rw [hp] at this
      injection this with this
      exact this.symm
  · rw [lookup_zip_none vars p f hf, h1 f hf, hx]
    rfl

theorem vars_four (s : SolutionInput Flt) {f : SField} (h : f ∈ Mcmc.generate_sysvars_enum s) :
    f = .γ ∨ f = .v_rin_on_c_s ∨ f = .v_a_on_c_s ∨ f = .c_s_on_v_k := by
  unfold Mcmc.generate_sysvars_enum at h
  cases hs : s .mcmc_vars with
  | mcmc m =>
    rw [hs] at h
    rcases m with ⟨a, b, c⟩
    cases a <;> cases b <;> cases c <;> simp at h <;> tauto
  | _ => rw [hs] at h; simpa using h

theorem vars_lift (s : SolutionInput ℝ) :
    Mcmc.generate_sysvars_enum (fun f => liftVal (s f)) = Mcmc.generate_sysvars_enum s := by
  unfold Mcmc.generate_sysvars_enum
  dsimp only
  cases s .mcmc_vars <;> rfl

/-- What the solver reads at a position. -/
theorem position_reads {s : SolutionInput ℝ} {inp : NumInput} (hs : numInput s = .ok inp)
    {p : List ℝ} {i : SolutionInput Flt}
    (h : Mcmc.sys_vars_to_solution_input (p.map fun x => .float (some x))
      (fun f => liftVal (s f)) (Mcmc.generate_sysvars_enum s) = .ok i) :
    numInput (fun f => lowerVal (i f)) = .ok (moved inp (Mcmc.generate_sysvars_enum s) p) ∧
    tolerances (fun f => lowerVal (i f)) = tolerances s ∧
    solveOpts (fun f => lowerVal (i f)) = solveOpts s ∧
    ∃ b, Mcmc.solution_input_valid i = .ok b ∧
      (b = true ↔ Positive (moved inp (Mcmc.generate_sysvars_enum s) p)) := by
  obtain ⟨-, h1, h2⟩ := at_position (Mcmc.sampled_variables s).2.1 h
  have hother : ∀ f, f ≠ .γ → f ≠ .v_rin_on_c_s → f ≠ .v_a_on_c_s → f ≠ .c_s_on_v_k →
      lowerVal (i f) = s f := by
    intro f a b c d
    rw [h1 f, lower_lift]
    intro hf
    rw [← vars_lift] at hf
    rcases vars_four _ hf with h | h | h | h <;> contradiction
  obtain ⟨i1, i2, i3, i4, i5, i6, i7, i8, i9, i10, i11⟩ := numInput_ok hs
  have hγ := h2 _ _ i4
  have hr := h2 _ _ i5
  have ha := h2 _ _ i6
  have hc := h2 _ _ i7
  refine ⟨?_, ?_, ?_, ?_⟩
  · unfold numInput
    beta_reduce
    rw [hother .η_O (by decide) (by decide) (by decide) (by decide),
      hother .η_A (by decide) (by decide) (by decide) (by decide),
      hother .η_H (by decide) (by decide) (by decide) (by decide),
      hother .use_E_r (by decide) (by decide) (by decide) (by decide),
      hother .start (by decide) (by decide) (by decide) (by decide),
      hother .stop (by decide) (by decide) (by decide) (by decide),
      hother .num_angles (by decide) (by decide) (by decide) (by decide),
      hγ, hr, ha, hc, i1, i2, i3, i8, i9, i10, i11]
    have : count (.int (inp.num_angles : ℤ)) = .ok inp.num_angles := by
      rw [count_ok]
    simp only [real, SingleRun.bool, this, lowerVal]
    rfl
  · unfold tolerances
    beta_reduce
    rw [hother .absolute_tolerance (by decide) (by decide) (by decide) (by decide),
      hother .relative_tolerance (by decide) (by decide) (by decide) (by decide),
      hother .max_steps (by decide) (by decide) (by decide) (by decide)]
  · unfold solveOpts
    beta_reduce
    rw [hother .η_derivs (by decide) (by decide) (by decide) (by decide),
      hother .use_taylor_jump (by decide) (by decide) (by decide) (by decide),
      hother .jump_before_sonic (by decide) (by decide) (by decide) (by decide),
      hother .v_θ_sonic_crit (by decide) (by decide) (by decide) (by decide),
      hother .after_sonic (by decide) (by decide) (by decide) (by decide),
      hother .sonic_interp_size (by decide) (by decide) (by decide) (by decide),
      hother .interp_slice (by decide) (by decide) (by decide) (by decide),
      hother .use_E_r (by decide) (by decide) (by decide) (by decide),
      hother .taylor_stop_angle (by decide) (by decide) (by decide) (by decide)]
  · obtain ⟨b, hb, hb'⟩ := Mcmc.valid_iff i _ _ _ _ hr hγ ha hc
    refine ⟨b, hb, hb'.trans ?_⟩
    simp only [Positive, moved]
    tauto

/-! ## What is stored -/

variable {I : Tolerances → Integrator} {str : ℝ → String}
  {interp : List ℝ → List ℝ → Option (ℝ → ℝ)} {st : Bool}

theorem solve_at_eq (I : Tolerances → Integrator) (str : ℝ → String)
    (interp : List ℝ → List ℝ → Option (ℝ → ℝ)) (st : Bool) {s : SolutionInput ℝ}
    {c : Conditions} {t : Tolerances} {o : SolveOpts}
    (ht : tolerances s = .ok t) (ho : solveOpts s = .ok o) :
    solve_at I str interp st s c =
      match (solution (I t) str interp o c { store_internal := st }).result with
      | .error x => .error x
      | .ok out => if out.solution = [] then .error .ValueError else .ok ⟨s, c, out⟩ := by
  unfold solve_at
  rw [ht, ho]
  simp only [Bind.bind, Except.bind]
  cases (solution (I t) str interp o c { store_internal := st }).result with
  | error x => rfl
  | ok out =>
    dsimp only
    by_cases h : out.solution = []
    · rw [if_pos h]
      simp [Mcmc.get_logprob_of_soln, v_θ, h]
    · rw [if_neg h]
      unfold Mcmc.get_logprob_of_soln
      cases hm : (v_θ ⟨s, c, out⟩).max? with
      | none =>
        rw [List.max?_eq_none_iff] at hm
        exact absurd (List.map_eq_nil_iff.1 hm) h
      | some m => rfl

theorem solve_at_logprob {s : SolutionInput ℝ} {c : Conditions} {m : Made}
    (h : solve_at I str interp st s c = .ok m) : ∃ x,
      Mcmc.get_logprob_of_soln (v_θ m) = .ok x := by
  unfold solve_at at h
  simp only [EndToEnd.bind_ok] at h
  obtain ⟨t, -, o, -, out, -, h⟩ := h
  split at h
  · cases h
  · rename_i x hx
    injection h with h
    subst h
    exact ⟨x, hx⟩

/-- What an evaluation which returned stores is what there is at its position. -/
theorem stored_attempt {s : SolutionInput ℝ} {inp : NumInput} (hs : numInput s = .ok inp)
    {t : Tolerances} (ht : tolerances s = .ok t) {o : SolveOpts} (ho : solveOpts s = .ok o)
    {p : List ℝ} {i : SolutionInput Flt}
    (h : Mcmc.sys_vars_to_solution_input (p.map fun x => .float (some x))
      (fun f => liftVal (s f)) (Mcmc.generate_sysvars_enum s) = .ok i) {μ : Type}
    {g : Mcmc.Generator μ Made} {v : Mcmc.LogProb}
    (hv : (Mcmc.evaluate (env I str interp st) i g).1 = .ok v) :
    (Mcmc.storedOf (env I str interp st) i).map
        (fun m => (numInput m.solution_input, m.initial_conditions, m.out)) =
      (attempt (I t) str interp o st (moved inp (Mcmc.generate_sysvars_enum s) p)).map
        fun a => (.ok (moved inp (Mcmc.generate_sysvars_enum s) p), a.1, a.2) := by
  obtain ⟨h1, h2, h3, b, h4, h5⟩ := position_reads hs h
  obtain ⟨k1, -⟩ := Mcmc.stored_of_ok _ _ _ _ b h4 hv
  have hsol := fun c => solve_at_eq I str interp st (c := c) (h2.trans ht) (h3.trans ho)
  have hcond : (env I str interp st).define_conditions i =
      match define_conditions (moved inp (Mcmc.generate_sysvars_enum s) p) with
      | none => .error .SolverError
      | some c => .ok c := by
    show conditions _ = _
    unfold conditions
    rw [h1]
    rfl
  unfold Mcmc.storedOf attempt
  rw [h4]
  cases b with
  | false =>
    rw [if_neg (by rw [← h5]; simp)]
    rfl
  | true =>
    rw [if_pos (h5.1 rfl), hcond]
    cases hd : define_conditions (moved inp (Mcmc.generate_sysvars_enum s) p) with
    | none => rfl
    | some c =>
      rw [hd] at hcond
      dsimp only at hcond ⊢
      have k := k1 rfl c hcond
      have hs' : (env I str interp st).solution i c = _ := hsol c
      rw [hs'] at k ⊢
      cases hr : (solution (I t) str interp o c { store_internal := st }).result with
      | error x => rfl
      | ok out =>
        rw [hr] at k
        dsimp only at k ⊢
        by_cases he : out.solution = []
        · rw [if_pos he] at k
          cases k _ rfl
        · rw [if_neg he]
          dsimp only
          have hl : ∃ x, Mcmc.get_logprob_of_soln (v_θ ⟨fun f => lowerVal (i f), c, out⟩) = .ok x := by
            apply solve_at_logprob (I := I) (str := str) (interp := interp) (st := st)
              (s := fun f => lowerVal (i f)) (c := c)
            rw [hsol c, hr]
            dsimp only
            rw [if_neg he]
          obtain ⟨x, hx⟩ := hl
          have hp : (env I str interp st).logprob ⟨fun f => lowerVal (i f), c, out⟩ =
              .finite x := by
            show (match Mcmc.get_logprob_of_soln _ with | .ok x => _ | .error _ => _) = _
            rw [hx]
          rw [hp]
          simp only [Mcmc.LogProb.isfinite, if_true, Option.map_some, h1]

theorem merit_logprob {m : Made} {x : ℝ}
    (h : (env I str interp st).logprob m = .finite x) : Merit m.out x := by
  have h' : (match Mcmc.get_logprob_of_soln (v_θ m) with
    | .ok x => Mcmc.LogProb.finite x | .error _ => .nan) = .finite x := h
  cases hm : (v_θ m).max? with
  | none =>
    have : Mcmc.get_logprob_of_soln (v_θ m) = .error .ValueError := by
      unfold Mcmc.get_logprob_of_soln
      rw [hm]
    rw [this] at h'
    cases h'
  | some y =>
    obtain ⟨h1, h2⟩ := List.max?_eq_some_iff.1 hm
    rw [Mcmc.logprob_value (v_θ m) y h1 h2] at h'
    injection h' with h'
    refine ⟨y, h1, h2, ?_⟩
    rw [← h']
    simp only [v_θ, List.length_map]

theorem best_of {ms : List Made} {b : Option Made}
    (h : Mcmc.IsBest (env I str interp st).logprob ms b) : Best ms b := by
  cases b with
  | none => exact h
  | some m =>
    obtain ⟨i, x, h1, h2, h3⟩ := h
    refine ⟨i, x, h1, merit_logprob h2, fun j m' hm' => ?_⟩
    obtain ⟨y, hy, h4, h5⟩ := h3 j m' hm'
    exact ⟨y, merit_logprob hy, h4, h5⟩

/-! ## The start -/

theorem reals_map {s : SolutionInput ℝ} {inp : NumInput} (hs : numInput s = .ok inp)
    (l : List SField)
    (hl : ∀ f ∈ l, f = .γ ∨ f = .v_rin_on_c_s ∨ f = .v_a_on_c_s ∨ f = .c_s_on_v_k) :
    reals (l.map s) = .ok (l.map (value inp)) := by
  obtain ⟨-, -, -, i4, i5, i6, i7, -⟩ := numInput_ok hs
  induction l with
  | nil => rfl
  | cons f l ih =>
    have hf : real (s f) = .ok (value inp f) := by
      rcases hl f (by simp) with rfl | rfl | rfl | rfl
      · rw [i4]; rfl
      · rw [i5]; rfl
      · rw [i6]; rfl
      · rw [i7]; rfl
    simp only [List.map_cons, reals, hf, ih fun g hg => hl g (by simp [hg]), Bind.bind,
      Except.bind, pure, Except.pure]

theorem initial_eq {s : SolutionInput ℝ} {inp : NumInput} (hs : numInput s = .ok inp)
    (randn : ℕ → ℕ → List (List ℝ)) (n : ℕ) :
    generate_initial_positions randn s (Mcmc.generate_sysvars_enum s) n =
      .ok ((randn n (Mcmc.generate_sysvars_enum s).length).map fun row =>
        ((Mcmc.generate_sysvars_enum s).map (value inp)).zipWith
          (fun v r => v * (0.1 * r + 1)) row) := by
  unfold generate_initial_positions Mcmc.solution_input_to_sys_vars
  rw [reals_map hs _ fun f hf => vars_four _ (by rw [vars_lift]; exact hf)]
  rfl

theorem steps_ok {v : SVal ℝ} {n : ℕ} (h : steps v = .ok n) : v = .int n := by
  cases v with
  | int k =>
    simp only [steps] at h
    split_ifs at h with hk
    injection h with h
    rw [← h, Int.toNat_of_nonneg (by omega)]
  | _ => cases h

/-- The real number in a value. -/
def unfloat : SVal Flt → ℝ
  | .float (some x) => x
  | _ => 0

theorem unfloat_map (p : List ℝ) :
    (p.map fun x => (SVal.float (some x) : SVal Flt)).map unfloat = p := by
  rw [List.map_map]
  exact List.map_id p

/-- What a sampling run which returned leaves. -/
theorem mcmc_solver_ok {randn : ℕ → ℕ → List (List ℝ)}
    {emcee : List (List ℝ) → List Mcmc.LogProb → Except PyErr (List ℝ)}
    {s : SolutionInput ℝ} {inp : NumInput} (hs : numInput s = .ok inp)
    {t : Tolerances} (ht : tolerances s = .ok t) {o : SolveOpts} (ho : solveOpts s = .ok o)
    {info : RunInfo ℝ} {r : TheRun ℝ Made} {b : Bool}
    (h : mcmc_solver randn emcee I str interp st s { info := info } = (.ok b, r)) :
    ∃ (nwalkers iterations : ℕ) (pts : List (List ℝ)) (ms : List Made) (best : Option Made),
      s .nwalkers = .int nwalkers ∧ s .iterations = .int iterations ∧ b = true ∧
      r = { info := info, solutions := numbered ms, final := .value best } ∧
      pts.length = nwalkers * (iterations + 1) ∧
      (∀ k row, k < nwalkers →
        (randn nwalkers (Mcmc.generate_sysvars_enum s).length)[k]? = some row →
        pts[k]? = some (((Mcmc.generate_sysvars_enum s).map (value inp)).zipWith
          (fun v r => v * (0.1 * r + 1)) row)) ∧
      (∀ (k : ℕ) p, pts[k]? = some p →
        (randn nwalkers (Mcmc.generate_sysvars_enum s).length)[k]? = none →
        ∃ initial seen, emcee initial seen = .ok p) ∧
      (∀ p ∈ pts, (Mcmc.generate_sysvars_enum s).length ≤ p.length) ∧
      ms.map (fun m => (numInput m.solution_input, m.initial_conditions, m.out)) =
        pts.filterMap (fun p =>
          (attempt (I t) str interp o st (moved inp (Mcmc.generate_sysvars_enum s) p)).map
            fun a => (.ok (moved inp (Mcmc.generate_sysvars_enum s) p), a.1, a.2)) ∧
      Best ms best := by
  unfold mcmc_solver at h
  cases hw : count (s .nwalkers) with
  | error x => rw [hw] at h; cases h
  | ok nwalkers =>
    rw [hw] at h
    dsimp only at h
    rw [initial_eq hs] at h
    dsimp only at h
    cases hi : steps (s .iterations) with
    | error x => rw [hi] at h; cases h
    | ok iterations =>
      rw [hi] at h
      dsimp only at h
      set initial := (randn nwalkers (Mcmc.generate_sysvars_enum s).length).map fun row =>
        ((Mcmc.generate_sysvars_enum s).map (value inp)).zipWith
          (fun v r => v * (0.1 * r + 1)) row with hinit
      unfold Mcmc.solver at h
      rw [vars_lift] at h
      rcases hsam : Mcmc.sample (env I str interp st) (fun f => liftVal (s f))
        (Mcmc.generate_sysvars_enum s)
        (fun seen => (next_position emcee initial seen).map fun p =>
            p.map fun x => .float (some x))
        (nwalkers * (iterations + 1)) []
        ({ run := { info := info } } : Mcmc.Generator (RunInfo ℝ) Made) with ⟨x | u, g⟩
      · rw [hsam] at h; cases h
      · rw [hsam] at h
        dsimp only at h
        obtain ⟨tr, h1, h2, h3⟩ := Mcmc.sample_points _ _ _ _ _ _ _ _ hsam
        have hinv := Mcmc.inv_evaluateAll (env I str interp st)
          (Mcmc.inv_start (env I str interp st).logprob info) (tr.map (·.2.1))
        rw [List.nil_append, ← h2] at hinv
        obtain ⟨best, hb, hbest⟩ := Mcmc.inv_best hinv
        rw [hb] at h
        dsimp only at h
        have hrun := hinv.run
        rw [hrun] at h
        dsimp only at h
        injection h with h h'
        injection h with h
        have hpt : ∀ (k : ℕ) x, tr[k]? = some x → ∃ p, next_position emcee initial
            ((tr.take k).map (·.2.2)) = .ok p ∧ x.1 = p.map (fun x => .float (some x)) ∧
            x.1.map unfloat = p := by
          intro k x hx
          obtain ⟨h4, -⟩ := h3 k x hx
          rw [List.nil_append] at h4
          cases hn : next_position emcee initial ((tr.take k).map (·.2.2)) with
          | error y => rw [hn] at h4; cases h4
          | ok p =>
            rw [hn] at h4
            injection h4 with h4
            exact ⟨p, rfl, h4.symm, by rw [← h4, unfloat_map]⟩
        refine ⟨nwalkers, iterations, tr.map fun x => x.1.map unfloat, _, best,
          count_ok.1 hw, steps_ok hi, h.symm, h'.symm, by rw [List.length_map, h1], ?_, ?_, ?_, ?_,
          best_of hbest⟩
        · intro k row hk hrow
          have hlt : k < tr.length := by
            rw [h1]
            calc k < nwalkers := hk
              _ = nwalkers * 1 := (mul_one _).symm
              _ ≤ nwalkers * (iterations + 1) := Nat.mul_le_mul_left _ (by omega)
          obtain ⟨p, hp, -, hp'⟩ := hpt k tr[k] (List.getElem?_eq_getElem hlt)
          rw [List.getElem?_map, List.getElem?_eq_getElem hlt, Option.map_some, hp']
          unfold next_position at hp
          have hlen : ((tr.take k).map (·.2.2)).length = k := by
            rw [List.length_map, List.length_take]
            omega
          rw [hlen, hinit, List.getElem?_map, hrow] at hp
          cases he : emcee initial ((tr.take k).map (·.2.2)) with
          | error y => rw [← hinit, he] at hp; cases hp
          | ok q =>
            rw [← hinit, he] at hp
            injection hp with hp
            exact congrArg some hp.symm
        · intro k p hp hnone
          rw [List.getElem?_map] at hp
          cases hx : tr[k]? with
          | none => rw [hx] at hp; cases hp
          | some x =>
            obtain ⟨q, hq, -, hq'⟩ := hpt k x hx
            rw [hx, Option.map_some, hq'] at hp
            injection hp with hp
            subst hp
            have hlt : k < tr.length := by
              by_contra hh
              rw [List.getElem?_eq_none (by omega)] at hx
              cases hx
            have hlen : ((tr.take k).map (·.2.2)).length = k := by
              rw [List.length_map, List.length_take]
              omega
            unfold next_position at hq
            rw [hlen] at hq
            have hno : initial[k]? = none := by rw [hinit, List.getElem?_map, hnone]; rfl
            rw [hno] at hq
            cases he : emcee initial ((tr.take k).map (·.2.2)) with
            | error y => rw [he] at hq; cases hq
            | ok q' =>
              rw [he] at hq
              injection hq with hq
              exact ⟨_, _, by rw [he, hq]⟩
        · intro p hp
          rw [List.mem_map] at hp
          obtain ⟨x, hx, rfl⟩ := hp
          obtain ⟨k, hk⟩ := List.mem_iff_getElem?.1 hx
          obtain ⟨p, -, hp, hp'⟩ := hpt k x hk
          obtain ⟨-, h5, -⟩ := h3 k x hk
          rw [hp']
          rw [hp] at h5
          exact (at_position (Mcmc.sampled_variables s).2.1 h5).1
        · rw [List.map_filterMap, List.filterMap_map, List.filterMap_map]
          apply List.filterMap_congr
          intro x hx
          obtain ⟨k, hk⟩ := List.mem_iff_getElem?.1 hx
          obtain ⟨p, -, hp, hp'⟩ := hpt k x hk
          obtain ⟨-, h5, g₀, h6⟩ := h3 k x hk
          simp only [Function.comp_apply]
          rw [hp']
          rw [hp] at h5
          exact stored_attempt hs ht ho h5 h6

/-! ## From the configuration file -/

section Asks

variable {C : Conv ℝ} {d : Doc} {given : List Occ} {c : ConfigInput} {s : SolutionInput ℝ}

/-- The parameters which are sampled are those the text selects. -/
theorem vars_read {v : Text}
    (this : readField C .mcmc (some (kept "mcmc_vars" v)) = .ok (s .mcmc_vars)) :
    Mcmc.generate_sysvars_enum s = sampled v := by
  simp only [readField] at this
  by_cases h0 : kept "mcmc_vars" v = Text.none
  · have hp : ∀ n, Picks v n := by
      intro n
      by_cases he : v = []
      · exact Or.inl he
      · refine Or.inr (Or.inl ?_)
        unfold kept at h0
        rw [if_neg fun h => he h.2] at h0
        exact h0
    have hn : mcmc_vars_str_to_obj (some (kept "mcmc_vars" v)) = none := by
      simp only [mcmc_vars_str_to_obj, if_pos h0]
    rw [hn] at this
    injection this with this
    simp only [Mcmc.generate_sysvars_enum, ← this, sampled, hp, if_true]
    rfl
  · have hk : kept "mcmc_vars" v = v ∧ v ≠ [] := by
      unfold kept at h0 ⊢
      have hm : "mcmc_vars" ∈ mayBeEmpty := by decide
      by_cases he : v = []
      · rw [if_pos ⟨hm, he⟩] at h0
        exact absurd rfl h0
      · exact ⟨if_neg fun h => he h.2, he⟩
    rw [hk.1] at h0 this
    obtain ⟨m, hm, h1, h2, h3⟩ := mcmc_read_spec v h0
    rw [hm] at this
    injection this with this
    have hp : ∀ n : String, Picks v n ↔ n.toList ∈ (Text.strip v).splitComma := by
      intro n
      unfold Picks
      constructor
      · rintro (h | h | h)
        · exact absurd h hk.2
        · exact absurd h h0
        · exact h
      · exact fun h => Or.inr (Or.inr h)
    simp only [Mcmc.generate_sysvars_enum, ← this, sampled, hp, ← h1, ← h2, ← h3]

/-- The parameters which are sampled are the ones asked for. -/
theorem vars_asked
    (hc : ∀ f : CField, ∃ v, Asked d given f.name v ∧ c f = some (kept f.name v))
    (hs : c.to_soln_input C = .ok s) :
    ∃ v, Asked d given "mcmc_vars" v ∧ Mcmc.generate_sysvars_enum s = sampled v := by
  obtain ⟨v, hv, hcv⟩ := hc (.s .mcmc_vars)
  refine ⟨v, hv, ?_⟩
  have := (to_soln_input_ok C c s).1 hs .mcmc_vars
  rw [hcv] at this
  exact vars_read this

theorem whole_asked
    (hc : ∀ f : CField, ∃ v, Asked d given f.name v ∧ c f = some (kept f.name v))
    (hs : c.to_soln_input C = .ok s) (f : SField) (hf : f.kind = .int) {n : ℤ}
    (hn : s f = .int n) : Whole C d given f.name (some n) := by
  obtain ⟨v, hv, hcv⟩ := hc (.s f)
  have := (to_soln_input_ok C c s).1 hs f
  rw [hf, hcv, kept_eq f v (by cases f <;> simp_all [SField.kind, CField.hasConverter])] at this
  simp only [readField, readInt, hn] at this
  refine ⟨v, hv, ?_⟩
  cases hx : C.str_to_int (some v) with
  | none => rw [hx] at this; cases this
  | some k =>
    rw [hx] at this
    injection this with this
    injection this with this
    rw [this]

end Asks

/-- The slice plays no part where nothing is interpolated. -/
theorem attempt_slice (J : Integrator) (str : ℝ → String)
    (interp : List ℝ → List ℝ → Option (ℝ → ℝ)) (o : SolveOpts) (st : Bool) (inp : NumInput)
    (z : PySlice) (h : o.sonic_interp_size ≠ none → z = o.interp_slice) :
    attempt J str interp { o with interp_slice := z } st inp = attempt J str interp o st inp := by
  by_cases h0 : o.sonic_interp_size = none
  · unfold attempt
    simp only [solution_slice _ _ _ _ _ _ z h0]
  · rw [h h0]

theorem methods_mcmc (randn : ℕ → ℕ → List (List ℝ))
    (emcee : List (List ℝ) → List Mcmc.LogProb → Except PyErr (List ℝ)) (ops : Stepper.Ops ℝ)
    (human : List Stepper.SolnData → Stepper.SplitterStatus)
    (others : Bool → String → Runners.Solver ℝ Made) :
    methods randn emcee ops human I str interp others st "mcmc" =
      mcmc_solver randn emcee I str interp st := by
  unfold methods CrosserRun.methods StepRun.methods SingleRun.methods
  beta_reduce
  rw [if_neg (by decide), if_neg (by decide), if_neg (by decide)]
  exact if_pos rfl

/-- C110. `ds-soln --sonic-method mcmc`, from the text of a configuration file to the file it
writes.  On return the exit status is zero, and one new file was written, whose name is
printed.  One position per walker was tried at the start and one per walker and iteration
after it; the first ones are the numbers asked for, each times one plus a tenth of a random
number, and the others are those the sampler chose.  The file holds, in the order of the positions, the solution at each position where
all sampled parameters are positive, there is a disc, and the integrator found a solution to
the tolerances asked for; nothing but the parameters asked for is changed.  The final
solution is the first of the best. -/
theorem mcmc_end_to_end_partial (e : Env ℝ) (randn : ℕ → ℕ → List (List ℝ))
    (emcee : List (List ℝ) → List Mcmc.LogProb → Except PyErr (List ℝ)) (ops : Stepper.Ops ℝ)
    (human : List Stepper.SolnData → Stepper.SplitterStatus)
    (I : Tolerances → Integrator) (str : ℝ → String)
    (interp : List ℝ → List ℝ → Option (ℝ → ℝ))
    (others : Bool → String → Runners.Solver ℝ Made) (read : String → Option Text)
    (config_file : String) (given : List Occ) (fs : FS ℝ Made) (d : Doc) (hd : d.Good)
    (hread : read config_file = some d.text) (ht : CliSolve.Typed given)
    (ha : Cli.accepted soln_options given = true) (hk : KnownFields given)
    (hm : textGiven given "--sonic-method" = some "mcmc")
    (inp : NumInput) (o : SolveOpts) (t : Tolerances)
    (hS : States e.conv d given inp) (hO : Options e.conv d given o t) (n : ℕ)
    (hn : (ds_soln e (methods randn emcee ops human I str interp others) read config_file given
      fs).status = .ok n) :
    ∃ (p : String) (r : TheRun ℝ Made) (nwalkers iterations : ℕ) (text : Text)
      (pts : List (List ℝ)) (ms : List Made) (best : Option Made),
      n = 0 ∧
      (ds_soln e (methods randn emcee ops human I str interp others) read config_file given
        fs).printed = [p] ∧
      fs.get? p = none ∧
      (∀ q, q ≠ p → (ds_soln e (methods randn emcee ops human I str interp others) read
        config_file given fs).fs.get? q = fs.get? q) ∧
      (ds_soln e (methods randn emcee ops human I str interp others) read config_file given
        fs).fs.get? p = some (.run r) ∧
      r.info.config_filename = some config_file ∧ r.info.sonic_method = "mcmc" ∧
      (∀ f : CField, ∃ v, Asked d given f.name v ∧
        r.info.config_input f = some (kept f.name v)) ∧
      Whole e.conv d given "nwalkers" (some nwalkers) ∧
      Whole e.conv d given "iterations" (some iterations) ∧
      Asked d given "mcmc_vars" text ∧
      pts.length = nwalkers * (iterations + 1) ∧
      (∀ (k j : ℕ) row f x, k < nwalkers →
        (randn nwalkers (sampled text).length)[k]? = some row →
        (sampled text)[j]? = some f → row[j]? = some x →
        ∃ p, pts[k]? = some p ∧ p[j]? = some (value inp f * (1 + x / 10))) ∧
      (∀ (k : ℕ) p, pts[k]? = some p → (randn nwalkers (sampled text).length)[k]? = none →
        ∃ initial seen, emcee initial seen = .ok p) ∧
      r.solutions = numbered ms ∧
      ms.map (fun m => (numInput m.solution_input, m.initial_conditions, m.out)) =
        pts.filterMap (fun p =>
          (attempt (I t) str interp o (!isGiven given "--no-store-internal")
            (moved inp (sampled text) p)).map
              fun a => (.ok (moved inp (sampled text) p), a.1, a.2)) ∧
      r.final = .value best ∧ Best ms best := by
  obtain ⟨ov, h1, h2⟩ := soln_effective e (methods randn emcee ops human I str interp others)
    read config_file given fs ht ha hk
  rw [h2] at hn ⊢
  rw [hm] at hn ⊢
  rcases hs : solve e
    (methods randn emcee ops human I str interp others (!isGiven given "--no-store-internal"))
    ⟨textGiven given "--output-file", (some "mcmc").getD "single",
      config_file, (textGiven given "--output-dir").getD ".", some ov⟩
    (read config_file) fs with ⟨x | ⟨p, b⟩, fs'⟩
  · rw [hs] at hn
    cases hn
  · rw [hs] at hn
    obtain ⟨k1, k2, c, s, r, r', k3, k4, -, k5, k6, -, -, -, k7⟩ :=
      solve_ok _ _ _ _ _ _ _ _ hs
    dsimp only at k3 k5
    rw [hread, asked_config hd hk h1] at k3
    obtain ⟨-, hc⟩ := k3
    have hget : (some "mcmc").getD "single" = "mcmc" := rfl
    rw [hget, methods_mcmc] at k5
    obtain ⟨hnum, htol, z, hopt, hz⟩ := states_read hd hc k4 hS hO
    obtain ⟨nw, it, pts, ms, best, q1, q2, q3, q4, q5, q6, q7, -, q8, q9⟩ :=
      mcmc_solver_ok hnum htol hopt k5
    subst q4
    rw [finalise_set _ _ rfl] at k7
    injection k7 with k7
    subst k7
    obtain ⟨text, hv, hvars⟩ := vars_asked hc k4
    rw [hvars] at q6 q7 q8
    simp only [attempt_slice _ _ _ _ _ _ _ hz] at q8
    refine ⟨p, _, nw, it, text, pts, ms, best, ?_, rfl, k1, k2, k6, rfl, rfl, hc,
      whole_asked hc k4 .nwalkers rfl q1, whole_asked hc k4 .iterations rfl q2, hv, q5, ?_, q7,
      rfl, q8, rfl, q9⟩
    · injection hn with hn
      rw [q3] at hn
      exact hn.symm
    · intro k j row f x hk' hrow hf hx
      refine ⟨_, q6 k row hk' hrow, ?_⟩
      rw [List.getElem?_zipWith, List.getElem?_map, hf, hx]
      simp only [Option.map_some]
      congr 1
      ring

/-! ## Return -/

theorem count_steps (n : ℕ) : count (.int n) = .ok n ∧ steps (.int n) = .ok n := by
  have : ¬ (n : ℤ) < 0 := by omega
  simp [count, steps, this]

/-- A sampling run returns if the sampler does not raise and no position makes the solver
raise anything but a `SolverError`. -/
theorem mcmc_solver_returns {randn : ℕ → ℕ → List (List ℝ)}
    {emcee : List (List ℝ) → List Mcmc.LogProb → Except PyErr (List ℝ)}
    {s : SolutionInput ℝ} {inp : NumInput} (hs : numInput s = .ok inp)
    {t : Tolerances} (ht : tolerances s = .ok t) {o : SolveOpts} (ho : solveOpts s = .ok o)
    {nw it : ℕ} (hw : s .nwalkers = .int nw) (hi : s .iterations = .int it)
    (hrow : ∀ n k, ∀ row ∈ randn n k, row.length = k)
    (hem : ∀ init seen, ∃ p, emcee init seen = .ok p ∧
      p.length = (Mcmc.generate_sysvars_enum s).length)
    (hsol : ∀ p, p.length = (Mcmc.generate_sysvars_enum s).length →
      Positive (moved inp (Mcmc.generate_sysvars_enum s) p) →
      ∀ c, define_conditions (moved inp (Mcmc.generate_sysvars_enum s) p) = some c →
        (∃ out, (solution (I t) str interp o c { store_internal := st }).result = .ok out ∧
          out.solution ≠ []) ∨
        (solution (I t) str interp o c { store_internal := st }).result = .error .SolverError)
    (info : RunInfo ℝ) :
    ∃ r best, mcmc_solver randn emcee I str interp st s { info := info } = (.ok true, r) ∧
      r.final = .value best := by
  unfold mcmc_solver
  rw [hw, hi, (count_steps nw).1, (count_steps it).2]
  dsimp only
  rw [initial_eq hs]
  dsimp only
  set initial := (randn nw (Mcmc.generate_sysvars_enum s).length).map fun row =>
    ((Mcmc.generate_sysvars_enum s).map (value inp)).zipWith
      (fun v r => v * (0.1 * r + 1)) row with hinit
  have hret := Mcmc.sample_returns (env I str interp st) (fun f => liftVal (s f))
    (Mcmc.generate_sysvars_enum s)
    (fun seen => (next_position emcee initial seen).map fun p =>
        p.map fun x => .float (some x)) info (by
      intro seen
      have hp : ∃ p, next_position emcee initial seen = .ok p ∧
          p.length = (Mcmc.generate_sysvars_enum s).length := by
        obtain ⟨p, h1, h2⟩ := hem initial seen
        unfold next_position
        rw [h1]
        dsimp only
        cases hk : initial[seen.length]? with
        | none => exact ⟨p, rfl, h2⟩
        | some q =>
          refine ⟨q, rfl, ?_⟩
          have := List.mem_of_getElem? hk
          rw [hinit, List.mem_map] at this
          obtain ⟨row, h3, rfl⟩ := this
          simp [hrow _ _ row h3]
      obtain ⟨p, h1, h2⟩ := hp
      obtain ⟨i, h3, -⟩ := Mcmc.set_vars_spec
        (p.map fun x => (SVal.float (some x) : SVal Flt)) (Mcmc.generate_sysvars_enum s) 0
        (fun f => liftVal (s f)) (Mcmc.sampled_variables s).2.1 (by simp [h2])
      refine ⟨_, i, by rw [h1]; rfl, h3, fun xs g hg => ?_⟩
      obtain ⟨k1, k2, k3, b, k4, k5⟩ := position_reads hs h3
      refine Mcmc.evaluate_returns _ i info xs g hg b k4 fun hb => ?_
      have hcond : (env I str interp st).define_conditions i =
          match define_conditions (moved inp (Mcmc.generate_sysvars_enum s) p) with
          | none => .error .SolverError
          | some c => .ok c := by
        show conditions _ = _
        unfold conditions
        rw [k1]
        rfl
      cases hd : define_conditions (moved inp (Mcmc.generate_sysvars_enum s) p) with
      | none =>
        rw [hd] at hcond
        exact Or.inr hcond
      | some c =>
        rw [hd] at hcond
        refine Or.inl ⟨c, hcond, ?_⟩
        have he : (env I str interp st).solution i c = _ :=
          solve_at_eq I str interp st (c := c) (k2.trans ht) (k3.trans ho)
        rw [he]
        rcases hsol p h2 (k5.1 hb) c hd with ⟨out, h4, h5⟩ | h4
        · rw [h4]
          dsimp only
          rw [if_neg h5]
          exact Or.inl ⟨_, rfl⟩
        · rw [h4]
          exact Or.inr rfl) (nw * (it + 1)) [] [] { run := { info := info } }
    (Mcmc.inv_start _ info)
  obtain ⟨g, hg⟩ := hret
  obtain ⟨tr, -, h2, -⟩ := Mcmc.sample_points _ _ _ _ _ _ _ _ hg
  have hinv := Mcmc.inv_evaluateAll (env I str interp st)
    (Mcmc.inv_start (env I str interp st).logprob info) (tr.map (·.2.1))
  rw [List.nil_append, ← h2] at hinv
  obtain ⟨best, hb, -⟩ := Mcmc.inv_best hinv
  unfold Mcmc.solver
  rw [vars_lift, hg]
  dsimp only
  rw [hb]
  dsimp only
  rw [hinv.run]
  exact ⟨_, best, rfl, rfl⟩

/-- C110. If every option has a text which can be read, the name of the output is free, the
sampler does not raise, and at every position the integrator finds a solution or gives up,
then `ds-soln --sonic-method mcmc` succeeds and prints the name. -/
theorem mcmc_returns (e : Env ℝ) (randn : ℕ → ℕ → List (List ℝ))
    (emcee : List (List ℝ) → List Mcmc.LogProb → Except PyErr (List ℝ)) (ops : Stepper.Ops ℝ)
    (human : List Stepper.SolnData → Stepper.SplitterStatus)
    (I : Tolerances → Integrator) (str : ℝ → String)
    (interp : List ℝ → List ℝ → Option (ℝ → ℝ))
    (others : Bool → String → Runners.Solver ℝ Made) (read : String → Option Text)
    (config_file : String) (given : List Occ) (fs : FS ℝ Made) (d : Doc) (hd : d.Good)
    (hread : read config_file = some d.text) (ht : CliSolve.Typed given)
    (ha : Cli.accepted soln_options given = true) (hk : KnownFields given)
    (hm : textGiven given "--sonic-method" = some "mcmc")
    (hall : ∀ f : CField, ∃ v, InFile d f.name v)
    (hreads : ∀ (f : SField) v, Asked d given f.name v →
      ∃ x, readField e.conv f.kind (some (kept f.name v)) = .ok x)
    (name : String)
    (hname : textGiven given "--output-file" = some name ∨
      textGiven given "--output-file" = none ∧
        ∃ v, Asked d given "label" v ∧ name = String.ofList v ++ (e.now ++ ".hdf5"))
    (hfree : fs.get? (e.path ((textGiven given "--output-dir").getD ".") name) = none)
    (hwr : e.writable (e.path ((textGiven given "--output-dir").getD ".") name) = true)
    (inp : NumInput) (o : SolveOpts) (t : Tolerances)
    (hS : States e.conv d given inp) (hO : Options e.conv d given o t)
    (text : Text) (htext : Asked d given "mcmc_vars" text) (nw it : ℕ)
    (hw : Whole e.conv d given "nwalkers" (some nw))
    (hi : Whole e.conv d given "iterations" (some it))
    (hrow : ∀ n k, ∀ row ∈ randn n k, row.length = k)
    (hem : ∀ init seen, ∃ p, emcee init seen = .ok p ∧ p.length = (sampled text).length)
    (hsol : ∀ p, p.length = (sampled text).length → Positive (moved inp (sampled text) p) →
      ∀ c, define_conditions (moved inp (sampled text) p) = some c →
        (∃ out, (solution (I t) str interp o c
            { store_internal := !isGiven given "--no-store-internal" }).result = .ok out ∧
          out.solution ≠ []) ∨
        (solution (I t) str interp o c
          { store_internal := !isGiven given "--no-store-internal" }).result =
            .error .SolverError) :
    (ds_soln e (methods randn emcee ops human I str interp others) read config_file given
      fs).status = .ok 0 ∧
    (ds_soln e (methods randn emcee ops human I str interp others) read config_file given
      fs).printed = [e.path ((textGiven given "--output-dir").getD ".") name] := by
  obtain ⟨s, z, run, hnum, htol, hopt, hz, hr, g, -⟩ := soln_runs e
    (methods randn emcee ops human I str interp others) read config_file given fs d hd hread ht
    ha hk hall hreads name hname hfree hwr inp o t hS hO
  have hvars : Mcmc.generate_sysvars_enum s = sampled text :=
    vars_read (C := e.conv) (hr .mcmc_vars text htext)
  have hint : ∀ (f : SField), f.kind = .int → ∀ n : ℤ, Whole e.conv d given f.name (some n) →
      s f = .int n := by
    rintro f hf n ⟨v, hv, hx⟩
    have := hr f v hv
    rw [hf] at this
    have hke := kept_eq f v (by cases f <;> simp_all [SField.kind, CField.hasConverter])
    have hke' : kept f.name v = v := hke
    rw [hke'] at this
    simp only [readField, readInt, hx, Except.ok.injEq] at this
    exact this.symm
  rw [← hvars] at hem hsol
  obtain ⟨r, best, hr', hfin⟩ := mcmc_solver_returns (I := I) (str := str) (interp := interp)
    (st := !isGiven given "--no-store-internal") hnum htol hopt (hint .nwalkers rfl _ hw)
    (hint .iterations rfl _ hi) hrow hem (by
      intro p h1 h2 c h3
      by_cases h0 : o.sonic_interp_size = none
      · rw [solution_slice _ _ _ _ _ _ _ h0]
        exact hsol p h1 h2 c h3
      · rw [hz h0]
        exact hsol p h1 h2 c h3) run
  rw [hm] at g
  have hget : (some "mcmc").getD "single" = "mcmc" := rfl
  rw [hget, methods_mcmc] at g
  exact g true r _ hr' (finalise_set _ _ hfin)

/-! ## Cases -/

/-- `--override γ 0.001 --override num_angles 3 --sonic-method mcmc --no-store-internal`. -/
def witMcmc : List Occ :=
  witGiven ++ [("--sonic-method", .str "mcmc"), ("--no-store-internal", .none)]

theorem witMcmc_asked {n : String} {v : Text} :
    Asked witDoc witMcmc n v ↔ Asked witDoc witGiven n v := by
  have : overrideGiven witMcmc n = overrideGiven witGiven n := rfl
  unfold Asked
  rw [this]

theorem witMcmc_states : States witConvR witDoc witMcmc witInp :=
  let h := wit_states
  ⟨h.start, h.stop, h.num_angles, h.γ, h.v_rin_on_c_s, h.v_a_on_c_s, h.c_s_on_v_k, h.η_O, h.η_A,
    h.η_H, h.use_E_r⟩

theorem witMcmc_options : Options witConvR witDoc witMcmc witOpts witTol :=
  let h := wit_options
  { taylor_stop_angle := h.taylor_stop_angle
    η_derivs := h.η_derivs
    use_taylor_jump := h.use_taylor_jump
    jump_before_sonic := h.jump_before_sonic
    v_θ_sonic_crit := h.v_θ_sonic_crit
    after_sonic := h.after_sonic
    sonic_interp_size := h.sonic_interp_size
    use_E_r := h.use_E_r
    relative := h.relative
    absolute := h.absolute
    max_steps := h.max_steps
    interp_slice := fun h => absurd rfl h }

theorem witMcmc_typed : CliSolve.Typed witMcmc := by
  constructor
  · intro name hn v hv
    simp only [witMcmc, witGiven, List.cons_append, List.nil_append, List.mem_cons,
      Prod.mk.injEq, List.not_mem_nil, or_false] at hv
    have h1 : "--override" ∉ wordOptions := by decide
    have h2 : "--no-store-internal" ∉ wordOptions := by decide
    rcases hv with ⟨rfl, -⟩ | ⟨rfl, -⟩ | ⟨-, rfl⟩ | ⟨rfl, -⟩
    · exact absurd hn h1
    · exact absurd hn h1
    · exact ⟨_, rfl⟩
    · exact absurd hn h2
  · intro v hv
    simp only [witMcmc, witGiven, List.cons_append, List.nil_append, List.mem_cons,
      Prod.mk.injEq, List.not_mem_nil, or_false] at hv
    rcases hv with ⟨-, rfl⟩ | ⟨-, rfl⟩ | ⟨h, -⟩ | ⟨h, -⟩
    · exact ⟨_, rfl⟩
    · exact ⟨_, rfl⟩
    · exact absurd h (by decide)
    · exact absurd h (by decide)

theorem wit_sampled : sampled (witAsked (.s .mcmc_vars)) =
    [.γ, .v_rin_on_c_s, .v_a_on_c_s, .c_s_on_v_k] := by
  have h : ∀ n, n = "v_r" ∨ n = "v_a" ∨ n = "v_k" → Picks (witAsked (.s .mcmc_vars)) n := by
    rintro n (rfl | rfl | rfl) <;> exact Or.inr (Or.inr (by decide +kernel))
  simp [sampled, h]

/-- Where the integrator finds that nothing changes, it finds a solution wherever there is a
disc. -/
theorem wit_moved_solution (vars : List SField) (p : List ℝ) {c : Conditions}
    (h : define_conditions (moved witInp vars p) = some c) :
    ∃ out, (solution (witStay witTol) (fun _ => "") (fun _ _ => none) witOpts c
      { store_internal := false }).result = .ok out ∧ out.solution ≠ [] := by
  have hangles : c.angles = [0, Real.pi / 4, Real.pi / 2] := by
    simp only [define_conditions] at h
    split at h
    · cases h
    · injection h with h
      subst h
      simp only [moved, witInp, linspace, radians, List.range, List.range.loop, List.map_cons,
        List.map_nil]
      norm_num
      constructor <;> ring
  have hpi := Real.pi_pos
  have hang : (taylor_new_angles c.angles (radians witOpts.taylor_stop_angle / 1)) =
      [Real.pi / 4, Real.pi / 2] := by
    rw [hangles, taylor_new_angles]
    have h0 : ¬ radians witOpts.taylor_stop_angle / 1 < 0 := by
      have : 0 ≤ radians witOpts.taylor_stop_angle / 1 := by
        simp only [radians, witOpts]; positivity
      exact not_lt.2 this
    have h1 : radians witOpts.taylor_stop_angle / 1 < Real.pi / 4 := by
      simp only [radians, witOpts]; linarith
    have h2 : radians witOpts.taylor_stop_angle / 1 < Real.pi / 2 := by
      simp only [radians, witOpts]; linarith
    rw [div_one] at h0 h1 h2
    simp [h0, h1, h2]
  unfold solution
  simp only [taylor_start_jump _ _ witOpts c { store_internal := false } rfl rfl, Logged.ok_bind,
    hang]
  exact ⟨_, rfl, fun h => by cases h⟩

/-- All random numbers are `x`, and the sampler always goes to `y`. -/
noncomputable def witRun (x y : ℝ) : Outcome ℝ Made :=
  ds_soln witEnvR (methods (fun n k => List.replicate n (List.replicate k x))
    (fun _ _ => .ok (List.replicate 4 y)) Stepper.realOps (fun _ => .STOP) witStay (fun _ => "")
      (fun _ _ => none) fun _ _ _ r => (.error .SolverError, r)) (fun _ => some witDoc.text)
      "a.cfg" witMcmc ([] : FS ℝ Made)

theorem witRun_returns (x y : ℝ) : (witRun x y).status = .ok 0 ∧ (witRun x y).printed =
    [witEnvR.path ((textGiven witMcmc "--output-dir").getD ".")
      (String.ofList (witAsked .label) ++ (witEnvR.now ++ ".hdf5"))] := by
  have hst : (!isGiven witMcmc "--no-store-internal") = false := by decide +kernel
  refine mcmc_returns witEnvR _ _ _ _ witStay (fun _ => "") (fun _ _ => none) _
    (fun _ => some witDoc.text) "a.cfg" witMcmc [] witDoc witDoc_good rfl witMcmc_typed
    (by decide +kernel) wit_known (by decide +kernel) (fun f => ⟨_, witDoc_inFile f⟩)
    (fun f v hv => wit_reads f v (witMcmc_asked.1 hv)) _
    (Or.inr ⟨by decide +kernel, _, witMcmc_asked.2 (wit_asked .label), rfl⟩) rfl rfl witInp
    witOpts witTol witMcmc_states witMcmc_options _
    (witMcmc_asked.2 (wit_asked (.s .mcmc_vars))) 8 3
    ⟨_, witMcmc_asked.2 (wit_asked (.s .nwalkers)), rfl⟩
    ⟨_, witMcmc_asked.2 (wit_asked (.s .iterations)), rfl⟩ ?_ ?_ ?_
  · intro n k row hr
    rw [List.eq_of_mem_replicate hr, List.length_replicate]
  · intro init seen
    exact ⟨_, rfl, by rw [wit_sampled]; rfl⟩
  · intro p _ _ c hc
    rw [hst]
    exact Or.inl (wit_moved_solution _ _ hc)

/-- C110 is false of the code as to the exit status: it is zero even if no solution was found.
Here every position is invalid. -/
theorem status_zero_without_solution : ∃ p r, (witRun (-10) 0).status = .ok 0 ∧
    (witRun (-10) 0).printed = [p] ∧ (witRun (-10) 0).fs.get? p = some (.run r) ∧
    r.solutions = [] ∧ r.final = .value none := by
  obtain ⟨p, r, nw, it, text, pts, ms, best, -, h2, -, -, h3, -, -, -, h4, h5, h6, h7, h8, h9, h10,
    h11, h12, h13⟩ := mcmc_end_to_end_partial witEnvR
    (fun n k => List.replicate n (List.replicate k (-10)))
    (fun _ _ => .ok (List.replicate 4 0)) Stepper.realOps (fun _ => .STOP) witStay (fun _ => "")
    (fun _ _ => none) (fun _ _ _ r => (.error .SolverError, r)) (fun _ => some witDoc.text)
    "a.cfg" witMcmc [] witDoc witDoc_good rfl witMcmc_typed (by decide +kernel) wit_known
    (by decide +kernel) witInp witOpts witTol witMcmc_states witMcmc_options 0
    (witRun_returns (-10) 0).1
  obtain rfl := asked_unique witDoc_good witMcmc (.s .mcmc_vars) h6
    (witMcmc_asked.2 (wit_asked (.s .mcmc_vars)))
  rw [wit_sampled] at h8 h9 h11
  have hz : ∀ q ∈ pts, q[0]? = some 0 := by
    intro q hq
    obtain ⟨k, hk⟩ := List.mem_iff_getElem?.1 hq
    by_cases hlt : k < nw
    · obtain ⟨q', h1, h2⟩ := h8 k 0 (List.replicate 4 (-10)) .γ (-10) hlt
        (by rw [List.getElem?_replicate, if_pos hlt]; rfl) rfl rfl
      rw [hk] at h1
      injection h1 with h1
      subst h1
      rw [h2]
      norm_num
    · obtain ⟨_, _, h⟩ := h9 k q hk (List.getElem?_eq_none (by simpa using hlt))
      injection h with h
      subst h
      rfl
  have hnil : ms = [] := by
    have : pts.filterMap (fun p => (attempt (witStay witTol) (fun _ => "") (fun _ _ => none) witOpts
        (!isGiven witMcmc "--no-store-internal")
        (moved witInp [.γ, .v_rin_on_c_s, .v_a_on_c_s, .c_s_on_v_k] p)).map fun a =>
          ((.ok (moved witInp [.γ, .v_rin_on_c_s, .v_a_on_c_s, .c_s_on_v_k] p) :
            Except PyErr NumInput), a.1, a.2)) = [] := by
      rw [List.filterMap_eq_nil_iff]
      intro q hq
      have hq0 := hz q hq
      have : ¬ Positive (moved witInp [.γ, .v_rin_on_c_s, .v_a_on_c_s, .c_s_on_v_k] q) := by
        rintro ⟨h, -⟩
        have hp : (moved witInp [.γ, .v_rin_on_c_s, .v_a_on_c_s, .c_s_on_v_k] q).γ = 0 := by
          show place _ _ _ _ = 0
          unfold place
          rw [lookup_zip _ q (by decide) 0 .γ rfl, hq0]
          rfl
        rw [hp] at h
        exact lt_irrefl _ h
      unfold attempt
      rw [if_neg this]
      rfl
    rw [this] at h11
    exact List.map_eq_nil_iff.1 h11
  subst hnil
  refine ⟨p, r, (witRun_returns _ _).1, h2, h3, h10, ?_⟩
  rw [h12]
  cases best with
  | none => rfl
  | some m =>
    obtain ⟨i, x, h, -⟩ := h13
    simp at h

/-- A run which stores solutions: all positions are the numbers asked for. -/
theorem wit_found : ∃ p r, (witRun 0 0).printed = [p] ∧
    (witRun 0 0).fs.get? p = some (.run r) ∧ r.solutions ≠ [] := by
  obtain ⟨p, r, nw, it, text, pts, ms, best, -, h2, -, -, h3, -, -, -, h4, h5, h6, h7, h8, h9, h10,
    h11, h12, h13⟩ := mcmc_end_to_end_partial witEnvR
    (fun n k => List.replicate n (List.replicate k 0))
    (fun _ _ => .ok (List.replicate 4 0)) Stepper.realOps (fun _ => .STOP) witStay (fun _ => "")
    (fun _ _ => none) (fun _ _ _ r => (.error .SolverError, r)) (fun _ => some witDoc.text)
    "a.cfg" witMcmc [] witDoc witDoc_good rfl witMcmc_typed (by decide +kernel) wit_known
    (by decide +kernel) witInp witOpts witTol witMcmc_states witMcmc_options 0
    (witRun_returns 0 0).1
  obtain rfl := asked_unique witDoc_good witMcmc (.s .mcmc_vars) h6
    (witMcmc_asked.2 (wit_asked (.s .mcmc_vars)))
  rw [wit_sampled] at h8 h11
  have hnw : nw = 8 := by
    obtain ⟨v, hv, hn⟩ := h4
    obtain rfl := asked_unique witDoc_good witMcmc (.s .nwalkers) hv
      (witMcmc_asked.2 (wit_asked (.s .nwalkers)))
    have : witConvR.str_to_int (some (witAsked (.s .nwalkers))) = some 8 := rfl
    rw [show witEnvR.conv = witConvR from rfl, this] at hn
    injection hn with hn
    omega
  subst hnw
  have hfirst : ∀ (j : ℕ) f, ([.γ, .v_rin_on_c_s, .v_a_on_c_s, .c_s_on_v_k] : List SField)[j]? =
      some f → ∃ q, pts[0]? = some q ∧ q[j]? = some (value witInp f) := by
    intro j f hf
    have hj : j < 4 := by
      by_contra hh
      rw [List.getElem?_eq_none (by simpa using hh)] at hf
      cases hf
    obtain ⟨q, hq, hq'⟩ := h8 0 j (List.replicate 4 0) f 0 (by norm_num) rfl hf
      (by rw [List.getElem?_replicate, if_pos hj])
    refine ⟨q, hq, ?_⟩
    rw [hq']
    norm_num
  obtain ⟨q, hq, hq0⟩ := hfirst 0 .γ rfl
  have hplace : ∀ (j : ℕ) f, ([.γ, .v_rin_on_c_s, .v_a_on_c_s, .c_s_on_v_k] : List SField)[j]? =
      some f → ∀ x, place [.γ, .v_rin_on_c_s, .v_a_on_c_s, .c_s_on_v_k] q f x = value witInp f := by
    intro j f hf x
    obtain ⟨q', hq', h⟩ := hfirst j f hf
    rw [hq] at hq'
    injection hq' with hq'
    subst hq'
    unfold place
    rw [lookup_zip _ q (by decide) j f hf, h]
    rfl
  have hmoved : moved witInp [.γ, .v_rin_on_c_s, .v_a_on_c_s, .c_s_on_v_k] q = witInp := by
    unfold moved
    rw [hplace 0 .γ rfl, hplace 1 .v_rin_on_c_s rfl, hplace 2 .v_a_on_c_s rfl,
      hplace 3 .c_s_on_v_k rfl]
    rfl
  refine ⟨p, r, h2, h3, ?_⟩
  rw [h10]
  intro hnil
  have hms : ms = [] := by
    cases ms with
    | nil => rfl
    | cons m ms => simp [numbered] at hnil
  subst hms
  have := List.filterMap_eq_nil_iff.1 h11.symm q (List.mem_of_getElem? hq)
  rw [hmoved] at this
  have hpos : Positive witInp := by norm_num [Positive, witInp]
  obtain ⟨c, hc⟩ := witInp_ok
  obtain ⟨out, ho⟩ := wit_solution hc (!isGiven witMcmc "--no-store-internal")
  unfold attempt at this
  rw [if_pos hpos, hc] at this
  dsimp only at this
  rw [ho] at this
  cases this

end DiscSolver.McmcRun
