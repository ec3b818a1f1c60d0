import Verif.Model.HydroMethods
import Verif.Props.HydroRun
import Verif.Props.EndToEnd

/-!
# Properties: from a configuration file to the stored hydrostatic solution

C111.
-/

namespace DiscSolver.HydroMethods

open ConfDoc CliSolve Cli Runners SingleRun EndToEnd Spec
open Hydro (TooClose hydrostatic_define_conditions)

theorem reads_ok {s : SolutionInput ℝ} {inp : NumInput} {t : Tolerances} {b : Bool} :
    reads s = .ok (inp, t, b) ↔
      numInput s = .ok inp ∧ tolerances s = .ok t ∧ SingleRun.bool (s .η_derivs) = .ok b := by
  unfold reads
  simp only [EndToEnd.bind_ok, pure, Except.pure, Except.ok.injEq, Prod.mk.injEq]
  constructor
  · rintro ⟨_, h1, _, h2, _, h3, rfl, rfl, rfl⟩
    exact ⟨h1, h2, h3⟩
  · rintro ⟨h1, h2, h3⟩
    exact ⟨_, h1, _, h2, _, h3, rfl, rfl, rfl⟩

/-- A run with one solution, which is the final one. -/
def one (info : RunInfo ℝ) (m : Made) : TheRun ℝ Made :=
  ⟨info, .value (some m), [("0", m)], false, none, none⟩

theorem store_new (info : RunInfo ℝ) (m : Made) :
    Hydro.storeSingle ({ info := info } : TheRun ℝ Made) m = (one info m, .ok true) := rfl

section Solvers

variable {I : Tolerances → HydroRequest Hydro.Args → Integration}
  {J : Tolerances → HydroRequest ModHydro.SystemArgs → Integration} {str : ℝ → String}
  {double st : Bool} {T : ModHydro.Tracker} {s : SolutionInput ℝ} {inp : NumInput}
  {t : Tolerances} {η : Bool}

/-- What the method `hydrostatic` does with a new run. -/
theorem hydrostatic_solver_cases (hr : reads s = .ok (inp, t, η)) (info : RunInfo ℝ) :
    (inp.use_E_r = true ∨ hydrostatic_define_conditions inp = none) ∧
      hydrostatic_solver I str double st s { info := info } =
        (.error .SolverError, { info := info }) ∨
    ∃ c req, inp.use_E_r = false ∧ hydrostatic_define_conditions inp = some c ∧
      Asks req
        ({ a_0 := c.a_0, norm_kepler_sq := c.norm_kepler_sq, init_con := c.init_con,
           η_derivs := η, no_v_deriv := false } : Hydro.Args)
        { store_internal := st } c.angles c.init_con ∧
      (TooClose (I t req) → hydrostatic_solver I str double st s { info := info } =
        (.error .CVODESolveFailed, { info := info })) ∧
      (¬ TooClose (I t req) → ∃ m,
        hydrostatic_solver I str double st s { info := info } = (.ok true, one info m) ∧
        m.solution_input = s ∧
        Reports ⟨m.out, m.initial_conditions⟩ 1 (I t req).soln (I t req).soln.y c ∧
        (st = false → m.out.internal_data = none) ∧
        (st = true → ∃ d, m.out.internal_data = some d ∧
          Records d (Hydro.acceptedRows req.args (I t req).calls))) := by
  have he : hydrostatic_solver I str double st s { info := info } =
      (Hydro.solver (fun c => (Hydro.solution (I t) str double η inp.use_E_r false c
        { store_internal := st }).1.result.map (made s)) inp { info := info }).swap := by
    unfold hydrostatic_solver
    rw [hr]
  rw [he]
  cases hc : hydrostatic_define_conditions inp with
  | none =>
    left
    refine ⟨Or.inr rfl, ?_⟩
    unfold Hydro.solver
    rw [hc]
    rfl
  | some c =>
    cases hE : inp.use_E_r with
    | true =>
      left
      refine ⟨Or.inl rfl, ?_⟩
      unfold Hydro.solver
      rw [hc, hE]
      rfl
    | false =>
      right
      obtain ⟨req, c', h1, -, -, -, -, hq, ht, hn⟩ := Hydro.hydro_run str (I t) double η
        false c { store_internal := st } (fun h => by cases h)
      rw [Hydro.hydro_conditions_kept str (I t) double η false c _ false (.inl rfl)] at h1
      subst h1
      refine ⟨c, req, rfl, rfl, hq, ?_, ?_⟩
      · intro h
        simp only [Hydro.solver, hc, hE, ht h, Bool.false_eq_true, if_false]
        rfl
      · intro h
        obtain ⟨sol, e, hrep, hi, hi'⟩ := hn h
        refine ⟨made s sol, ?_, rfl, hrep, hi, hi'⟩
        simp only [Hydro.solver, hc, hE, e, Bool.false_eq_true, if_false]
        rfl

/-- What the method `mod_hydro` does with a new run. -/
theorem mod_hydro_solver_cases (hr : reads s = .ok (inp, t, η)) (info : RunInfo ℝ) :
    let c := ModHydro.mod_hydro_define_conditions inp
    ∃ req, Asks req
        ({ a_0 := c.a_0, norm_kepler_sq := c.norm_kepler_sq, init_con := c.init_con,
           η_derivs := η, use_E_r := inp.use_E_r } : ModHydro.SystemArgs)
        { store_internal := st } c.angles c.init_con ∧
      (TooClose (J t req) → mod_hydro_solver J str T st s { info := info } =
        (.error .CVODESolveFailed, { info := info })) ∧
      (¬ TooClose (J t req) → ∃ m,
        mod_hydro_solver J str T st s { info := info } = (.ok true, one info m) ∧
        m.solution_input = s ∧
        Reports ⟨m.out, m.initial_conditions⟩ 1 (J t req).soln (if inp.use_E_r then
            ModHydro.fixRows req.args T (T.start c.init_con.v_r) (J t req).soln.t
              (J t req).soln.y
          else (J t req).soln.y) c ∧
        (st = false → m.out.internal_data = none) ∧
        (st = true → ∃ d, m.out.internal_data = some d ∧
          Records d (ModHydro.acceptedRows req.args T (T.start c.init_con.v_r)
            (J t req).calls))) := by
  intro c
  have he : mod_hydro_solver J str T st s { info := info } =
      (ModHydro.solver (fun c => (ModHydro.solution (J t) str T η inp.use_E_r c
        { store_internal := st }).result.map (made s)) inp { info := info }).swap := by
    unfold mod_hydro_solver
    rw [hr]
  rw [he]
  obtain ⟨req, -, hq, ht, hn⟩ := ModHydro.mod_run T str (J t) η c { store_internal := st }
    inp.use_E_r (fun h => by cases h)
  refine ⟨req, hq, ?_, ?_⟩
  · intro h
    have := ht h
    simp only [c] at this
    simp only [ModHydro.solver, this]
    rfl
  · intro h
    obtain ⟨sol, e, hrep, -, hi, hi'⟩ := hn h
    refine ⟨made s sol, ?_, rfl, hrep, hi, hi'⟩
    simp only [c] at e
    simp only [ModHydro.solver, e]
    rfl

end Solvers

/-! ## From the file -/

section Files

variable (e : Env ℝ) (M : Bool → String → Runners.Solver ℝ Made) (read : String → Option Text)
  (config_file : String) (given : List Occ) (fs : FS ℝ Made) (d : Doc)

/-- What happened if `ds-soln` returned. -/
theorem soln_ran (hd : d.Good)
    (hread : read config_file = some d.text) (ht : CliSolve.Typed given)
    (ha : Cli.accepted soln_options given = true) (hk : KnownFields given) (name : String)
    (hm : (textGiven given "--sonic-method").getD "single" = name) (n : ℕ)
    (hn : (ds_soln e M read config_file given fs).status = .ok n) :
    ∃ (p : String) (c : ConfigInput) (s : SolutionInput ℝ) (b : Bool) (r r' : TheRun ℝ Made),
      n = (if b then 0 else 1) ∧
      (ds_soln e M read config_file given fs).printed = [p] ∧
      fs.get? p = none ∧
      (∀ q, q ≠ p → (ds_soln e M read config_file given fs).fs.get? q = fs.get? q) ∧
      (ds_soln e M read config_file given fs).fs.get? p = some (.run r') ∧
      (∀ f : CField, ∃ v, Asked d given f.name v ∧ c f = some (kept f.name v)) ∧
      c.to_soln_input e.conv = .ok s ∧
      M (!isGiven given "--no-store-internal") name s
        { info := ⟨c, some config_file, name, s .use_E_r⟩ } = (.ok b, r) ∧
      r.finalise = .ok r' := by
  subst hm
  obtain ⟨ov, h1, h2⟩ := soln_effective e M read config_file given fs ht ha hk
  rw [h2] at hn ⊢
  rcases hs : solve e (M (!isGiven given "--no-store-internal"))
    ⟨textGiven given "--output-file", (textGiven given "--sonic-method").getD "single",
      config_file, (textGiven given "--output-dir").getD ".", some ov⟩
    (read config_file) fs with ⟨x | ⟨p, b⟩, fs'⟩
  · rw [hs] at hn
    cases hn
  · rw [hs] at hn
    obtain ⟨k1, k2, c, s, r, r', k3, k4, -, k5, k6, -, -, -, k7⟩ :=
      solve_ok _ _ _ _ _ _ _ _ hs
    dsimp only at k3 k5
    rw [hread, asked_config hd hk h1] at k3
    refine ⟨p, c, s, b, r, r', ?_, rfl, k1, k2, k6, k3.2, k4, k5, k7⟩
    injection hn with hn
    exact hn.symm

variable (I : Tolerances → HydroRequest Hydro.Args → Integration)
  (J : Tolerances → HydroRequest ModHydro.SystemArgs → Integration) (str : ℝ → String)
  (double : Bool) (T : ModHydro.Tracker) (others : Bool → String → Runners.Solver ℝ Made)

/-- The accuracy asked for. -/
structure Accuracy (C : Conv ℝ) (d : Doc) (given : List Occ) (t : Tolerances) : Prop where
  relative : Number C d given "relative_tolerance" t.relative
  absolute : Number C d given "absolute_tolerance" t.absolute
  max_steps : Whole C d given "max_steps" t.max_steps

theorem reads_asked {C : Conv ℝ} {c : ConfigInput} {s : SolutionInput ℝ} {given : List Occ}
    {d : Doc}
    (hc : ∀ f : CField, ∃ v, Asked d given f.name v ∧ c f = some (kept f.name v))
    (k4 : c.to_soln_input C = .ok s) {inp : NumInput} {t : Tolerances} {η : Bool}
    (hr : reads s = .ok (inp, t, η)) :
    States C d given inp ∧ Accuracy C d given t ∧ Truth C d given "η_derivs" η := by
  obtain ⟨hi, htol, hη⟩ := reads_ok.1 hr
  obtain ⟨i1, i2, i3, i4, i5, i6, i7, i8, i9, i10, i11⟩ := numInput_ok hi
  obtain ⟨t1, t2, t3⟩ := tolerances_ok htol
  refine ⟨⟨read_number hc k4 .start rfl i1, read_number hc k4 .stop rfl i2,
      by have := read_whole hc k4 .num_angles rfl
         rw [i3] at this; exact this,
      read_number hc k4 .γ rfl i4, read_number hc k4 .v_rin_on_c_s rfl i5,
      read_number hc k4 .v_a_on_c_s rfl i6, read_number hc k4 .c_s_on_v_k rfl i7,
      read_number hc k4 .η_O rfl i8, read_number hc k4 .η_A rfl i9,
      read_number hc k4 .η_H rfl i10, read_truth hc k4 .use_E_r rfl i11⟩,
    ⟨read_number hc k4 .relative_tolerance rfl t1,
      read_number hc k4 .absolute_tolerance rfl t2,
      by have := read_whole hc k4 .max_steps rfl
         rw [t3] at this; exact this⟩,
    read_truth hc k4 .η_derivs rfl (bool_ok.1 hη)⟩

/-- C111. `ds-soln --sonic-method hydrostatic`, from the text of a configuration file to the
file it writes: on return the exit status is zero, one new file was written whose name is
printed, and it holds a run with one solution, which is the final one.  The electric field
formulation was not asked for.  The solution is the one integration the integrator made, to
the tolerances asked for, over the angles and from the hydrostatic midplane of the numbers
asked for, and holds one record per accepted call if internal data is to be stored. -/
theorem hydrostatic_end_to_end (hd : d.Good)
    (hread : read config_file = some d.text) (ht : CliSolve.Typed given)
    (ha : Cli.accepted soln_options given = true) (hk : KnownFields given)
    (hm : textGiven given "--sonic-method" = some "hydrostatic") (n : ℕ)
    (hn : (ds_soln e (methods I J str double T others) read config_file given fs).status =
      .ok n) :
    ∃ (p : String) (r : TheRun ℝ Made) (m : Made) (inp : NumInput) (t : Tolerances) (η : Bool)
      (c : Conditions) (req : HydroRequest Hydro.Args),
      n = 0 ∧
      (ds_soln e (methods I J str double T others) read config_file given fs).printed = [p] ∧
      fs.get? p = none ∧
      (∀ q, q ≠ p → (ds_soln e (methods I J str double T others) read config_file given
        fs).fs.get? q = fs.get? q) ∧
      (ds_soln e (methods I J str double T others) read config_file given fs).fs.get? p =
        some (.run r) ∧
      r.solutions = [("0", m)] ∧ r.final = .value (some m) ∧
      r.info.config_filename = some config_file ∧ r.info.sonic_method = "hydrostatic" ∧
      (∀ f : CField, ∃ v, Asked d given f.name v ∧
        r.info.config_input f = some (kept f.name v)) ∧
      States e.conv d given inp ∧ Accuracy e.conv d given t ∧
      Truth e.conv d given "η_derivs" η ∧
      inp.use_E_r = false ∧ hydrostatic_define_conditions inp = some c ∧
      Asks req
        { a_0 := c.a_0, norm_kepler_sq := c.norm_kepler_sq, init_con := c.init_con,
          η_derivs := η, no_v_deriv := false }
        { store_internal := !isGiven given "--no-store-internal" } c.angles c.init_con ∧
      ¬ TooClose (I t req) ∧
      Reports ⟨m.out, m.initial_conditions⟩ 1 (I t req).soln (I t req).soln.y c ∧
      (isGiven given "--no-store-internal" = true → m.out.internal_data = none) ∧
      (isGiven given "--no-store-internal" = false → ∃ data, m.out.internal_data = some data ∧
        Records data (Hydro.acceptedRows req.args (I t req).calls)) := by
  obtain ⟨p, cf, s, b, r, r', h1, h2, h3, h4, h5, h6, h7, h8, h9⟩ := soln_ran e
    (methods I J str double T others) read config_file given fs d hd hread ht ha hk
    "hydrostatic" (by rw [hm]; rfl) n hn
  have hM : methods I J str double T others (!isGiven given "--no-store-internal")
      "hydrostatic" = hydrostatic_solver I str double (!isGiven given "--no-store-internal") :=
    if_pos rfl
  rw [hM] at h8
  cases hr : reads s with
  | error x =>
    unfold hydrostatic_solver at h8
    rw [hr] at h8
    cases h8
  | ok z =>
    obtain ⟨inp, t, η⟩ := z
    obtain ⟨hS, hA, hη⟩ := reads_asked h6 h7 hr
    rcases hydrostatic_solver_cases (I := I) (str := str) (double := double)
        (st := !isGiven given "--no-store-internal") hr
        ⟨cf, some config_file, "hydrostatic", s .use_E_r⟩ with
      ⟨-, h⟩ | ⟨c, req, q1, q2, q3, q4, q5⟩
    · rw [h] at h8
      cases h8
    · by_cases hc : TooClose (I t req)
      · rw [q4 hc] at h8
        cases h8
      · obtain ⟨m, k1, k2, k3, k4, k5⟩ := q5 hc
        rw [k1] at h8
        simp only [Prod.mk.injEq, Except.ok.injEq] at h8
        obtain ⟨rfl, rfl⟩ := h8
        rw [finalise_set _ _ rfl] at h9
        injection h9 with h9
        subst h9
        exact ⟨p, _, m, inp, t, η, c, req, h1, h2, h3, h4, h5, rfl, rfl, rfl, rfl, h6, hS, hA,
          hη, q1, q2, q3, hc, k3, fun h => k4 (by rw [h]; rfl),
          fun h => k5 (by rw [h]; rfl)⟩

/-- C111. The same for `--sonic-method mod_hydro`.  The electric field formulation may be
asked for, and then the horizontal velocities of the rows are those which the solver computes
again from the integrator's rows. -/
theorem mod_hydro_end_to_end (hd : d.Good)
    (hread : read config_file = some d.text) (ht : CliSolve.Typed given)
    (ha : Cli.accepted soln_options given = true) (hk : KnownFields given)
    (hm : textGiven given "--sonic-method" = some "mod_hydro") (n : ℕ)
    (hn : (ds_soln e (methods I J str double T others) read config_file given fs).status =
      .ok n) :
    ∃ (p : String) (r : TheRun ℝ Made) (m : Made) (inp : NumInput) (t : Tolerances) (η : Bool)
      (c : Conditions) (req : HydroRequest ModHydro.SystemArgs),
      n = 0 ∧
      (ds_soln e (methods I J str double T others) read config_file given fs).printed = [p] ∧
      fs.get? p = none ∧
      (∀ q, q ≠ p → (ds_soln e (methods I J str double T others) read config_file given
        fs).fs.get? q = fs.get? q) ∧
      (ds_soln e (methods I J str double T others) read config_file given fs).fs.get? p =
        some (.run r) ∧
      r.solutions = [("0", m)] ∧ r.final = .value (some m) ∧
      r.info.config_filename = some config_file ∧ r.info.sonic_method = "mod_hydro" ∧
      (∀ f : CField, ∃ v, Asked d given f.name v ∧
        r.info.config_input f = some (kept f.name v)) ∧
      States e.conv d given inp ∧ Accuracy e.conv d given t ∧
      Truth e.conv d given "η_derivs" η ∧
      c = ModHydro.mod_hydro_define_conditions inp ∧
      Asks req
        { a_0 := c.a_0, norm_kepler_sq := c.norm_kepler_sq, init_con := c.init_con,
          η_derivs := η, use_E_r := inp.use_E_r }
        { store_internal := !isGiven given "--no-store-internal" } c.angles c.init_con ∧
      ¬ TooClose (J t req) ∧
      Reports ⟨m.out, m.initial_conditions⟩ 1 (J t req).soln (if inp.use_E_r then
          ModHydro.fixRows req.args T (T.start c.init_con.v_r) (J t req).soln.t (J t req).soln.y
        else (J t req).soln.y) c ∧
      (isGiven given "--no-store-internal" = true → m.out.internal_data = none) ∧
      (isGiven given "--no-store-internal" = false → ∃ data, m.out.internal_data = some data ∧
        Records data (ModHydro.acceptedRows req.args T (T.start c.init_con.v_r)
          (J t req).calls)) := by
  obtain ⟨p, cf, s, b, r, r', h1, h2, h3, h4, h5, h6, h7, h8, h9⟩ := soln_ran e
    (methods I J str double T others) read config_file given fs d hd hread ht ha hk
    "mod_hydro" (by rw [hm]; rfl) n hn
  have hM : methods I J str double T others (!isGiven given "--no-store-internal")
      "mod_hydro" = mod_hydro_solver J str T (!isGiven given "--no-store-internal") := by
    unfold methods
    rw [if_neg (by decide), if_pos rfl]
  rw [hM] at h8
  cases hr : reads s with
  | error x =>
    unfold mod_hydro_solver at h8
    rw [hr] at h8
    cases h8
  | ok z =>
    obtain ⟨inp, t, η⟩ := z
    obtain ⟨hS, hA, hη⟩ := reads_asked h6 h7 hr
    obtain ⟨req, q3, q4, q5⟩ := mod_hydro_solver_cases (J := J) (str := str) (T := T)
        (st := !isGiven given "--no-store-internal") hr
        ⟨cf, some config_file, "mod_hydro", s .use_E_r⟩
    by_cases hc : TooClose (J t req)
    · rw [q4 hc] at h8
      cases h8
    · obtain ⟨m, k1, k2, k3, k4, k5⟩ := q5 hc
      rw [k1] at h8
      simp only [Prod.mk.injEq, Except.ok.injEq] at h8
      obtain ⟨rfl, rfl⟩ := h8
      rw [finalise_set _ _ rfl] at h9
      injection h9 with h9
      subst h9
      exact ⟨p, _, m, inp, t, η, _, req, h1, h2, h3, h4, h5, rfl, rfl, rfl, rfl, h6, hS, hA,
        hη, rfl, q3, hc, k3, fun h => k4 (by rw [h]; rfl), fun h => k5 (by rw [h]; rfl)⟩

/-! ## What the rows are -/

/-- An integrator which reports the state it starts from first. -/
def Starts {A : Type} (I : HydroRequest A → Integration) : Prop :=
  ∀ req θ, req.angles.head? = some θ →
    (I req).soln.t.head? = some θ ∧ (I req).soln.y.head? = some req.init

/-- C111. The first row which `--sonic-method hydrostatic` stores is at the angle asked for
first.  It has no vertical flow, the inflow and the diffusivities asked for, unit density and
unit vertical field, and the solver's own derivatives for it at the midplane satisfy all six
equations. -/
theorem hydrostatic_first_row (hI : ∀ t, Starts (I t)) (hd : d.Good)
    (hread : read config_file = some d.text) (ht : CliSolve.Typed given)
    (ha : Cli.accepted soln_options given = true) (hk : KnownFields given)
    (hm : textGiven given "--sonic-method" = some "hydrostatic") (n : ℕ)
    (hn : (ds_soln e (methods I J str double T others) read config_file given fs).status =
      .ok n) :
    ∃ (p : String) (r : TheRun ℝ Made) (m : Made) (inp : NumInput),
      (ds_soln e (methods I J str double T others) read config_file given fs).printed = [p] ∧
      (ds_soln e (methods I J str double T others) read config_file given fs).fs.get? p =
        some (.run r) ∧
      r.solutions = [("0", m)] ∧ States e.conv d given inp ∧
      (0 < inp.num_angles → ∃ s, m.out.solution.head? = some s ∧
        m.out.angles.head? = some (inp.start * (Real.pi / 180)) ∧
        s.v_r = -inp.v_rin_on_c_s ∧ s.v_θ = 0 ∧ s.ρ = 1 ∧ s.B_r = 0 ∧ s.B_φ = 0 ∧ s.B_θ = 1 ∧
        s.η_O = inp.η_O ∧ s.η_A = inp.η_A ∧ s.η_H = inp.η_H ∧
        (inp.v_a_on_c_s ≠ 0 → inp.η_O + inp.η_A ≠ 0 → ∃ η g,
          Hydro.rhs_equation (Hydro.argsOf m.initial_conditions η false) 0 s = (0, some g) ∧
          Continuity (5/4) (flowOf 0 s g) ∧ Solenoid (5/4) (flowOf 0 s g) ∧
          PolarMomentum (5/4) (inp.v_a_on_c_s ^ 2) (flowOf 0 s g) ∧
          PolarInduction (5/4) 0 0 1 (flowOf 0 s g) ∧
          RadialMomentum (5/4) (inp.v_a_on_c_s ^ 2) (1 / inp.c_s_on_v_k ^ 2) (flowOf 0 s g) ∧
          AzimuthalMomentum (5/4) (inp.v_a_on_c_s ^ 2) (flowOf 0 s g))) := by
  obtain ⟨p, r, m, inp, t, η, c, req, -, h1, -, -, h2, h3, -, -, -, -, h4, -, -, h5, h6, h7, -,
    h8, -⟩ := hydrostatic_end_to_end e read config_file given fs d I J str double T others hd
      hread ht ha hk hm n hn
  refine ⟨p, r, m, inp, h1, h2, h3, h4, fun hpos => ?_⟩
  have hmid := Hydro.hydro_midplane inp c η false h6 h5
  have hc := h6
  unfold hydrostatic_define_conditions at hc
  dsimp only at hc
  split at hc
  · cases hc
  · injection hc with hc
    have hang : c.angles.head? = some (inp.start * (Real.pi / 180)) := by
      rw [← hc]
      obtain ⟨k, hk⟩ := Nat.exists_eq_succ_of_ne_zero hpos.ne'
      rw [hk]
      cases k with
      | zero => rfl
      | succ k =>
        simp [linspace, radians, List.range_succ_eq_map]
    have := hI t req _ (by rw [h7.angles]; exact hang)
    rw [h7.init] at this
    have hrow : m.out.solution = _ := h8.rows
    have hangle : m.out.angles = _ := h8.angles
    refine ⟨c.init_con, by rw [hrow]; exact this.2, by rw [hangle]; simp [this.1], ?_⟩
    have hic : m.initial_conditions = c := h8.conditions
    have ha0 : c.a_0 = inp.v_a_on_c_s ^ 2 := by rw [← hc]
    have hks : c.norm_kepler_sq = 1 / inp.c_s_on_v_k ^ 2 := by rw [← hc]
    rw [hic, ← ha0, ← hks]
    refine ⟨by rw [← hc], by rw [← hc], by rw [← hc], by rw [← hc], by rw [← hc], by rw [← hc],
      by rw [← hc], by rw [← hc], by rw [← hc], fun hv hη => ?_⟩
    obtain ⟨g, hg⟩ := hmid hv hη
    exact ⟨η, g, hg⟩

/-- C111. Every derivative which `--sonic-method hydrostatic` stores with its internal data
conserves mass, keeps the field free of divergence, balances the vertical forces and satisfies
the poloidal induction equation at the parameters and the angle stored with it, where there is
no vertical flow and some density and diffusivity. -/
theorem hydrostatic_stored_derivatives (hd : d.Good)
    (hread : read config_file = some d.text) (ht : CliSolve.Typed given)
    (ha : Cli.accepted soln_options given = true) (hk : KnownFields given)
    (hm : textGiven given "--sonic-method" = some "hydrostatic") (n : ℕ)
    (hn : (ds_soln e (methods I J str double T others) read config_file given fs).status =
      .ok n) (hst : isGiven given "--no-store-internal" = false) :
    ∃ (p : String) (r : TheRun ℝ Made) (m : Made) (data : InternalData) (inp : NumInput),
      (ds_soln e (methods I J str double T others) read config_file given fs).printed = [p] ∧
      (ds_soln e (methods I J str double T others) read config_file given fs).fs.get? p =
        some (.run r) ∧
      r.solutions = [("0", m)] ∧ m.out.internal_data = some data ∧ States e.conv d given inp ∧
      data.params.length = data.angles.length ∧ data.derivs.length = data.angles.length ∧
      ∀ (i : ℕ) θ s g, data.angles[i]? = some θ → data.params[i]? = some s →
        data.derivs[i]? = some g → Hydro.Static s →
        Continuity (5/4) (flowOf θ s g) ∧ Solenoid (5/4) (flowOf θ s g) ∧
        PolarMomentum (5/4) (inp.v_a_on_c_s ^ 2) (flowOf θ s g) ∧
        PolarInduction (5/4) (s.B_r / B_mag s) (s.B_φ / B_mag s) (s.B_θ / B_mag s)
          (flowOf θ s g) ∧ g.v_θ = 0 := by
  obtain ⟨p, r, m, inp, t, η, c, req, -, h1, -, -, h2, h3, -, -, -, -, h4, -, -, h5, h6, h7, -,
    h8, -, h9⟩ := hydrostatic_end_to_end e read config_file given fs d I J str double T others hd
      hread ht ha hk hm n hn
  obtain ⟨data, hdata, hrec⟩ := h9 hst
  refine ⟨p, r, m, data, inp, h1, h2, h3, hdata, h4, by rw [hrec.params, hrec.angles]; simp,
    by rw [hrec.derivs, hrec.angles]; simp, ?_⟩
  intro i θ s g hθ hs hg hstat
  rw [hrec.angles, List.getElem?_map, Option.map_eq_some_iff] at hθ
  rw [hrec.params, List.getElem?_map, Option.map_eq_some_iff] at hs
  rw [hrec.derivs, List.getElem?_map, Option.map_eq_some_iff] at hg
  obtain ⟨row, hrow, rfl⟩ := hθ
  obtain ⟨row', hrow', rfl⟩ := hs
  obtain ⟨row'', hrow'', rfl⟩ := hg
  rw [hrow] at hrow' hrow''
  injection hrow' with hrow'
  injection hrow'' with hrow''
  subst hrow' hrow''
  have hmem := List.mem_of_getElem? hrow
  simp only [Hydro.acceptedRows, List.mem_filterMap, Option.map_eq_some_iff] at hmem
  obtain ⟨call, -, g, hg, rfl⟩ := hmem
  have ha0 : req.args.a_0 = inp.v_a_on_c_s ^ 2 := by
    rw [h7.args]
    unfold hydrostatic_define_conditions at h6
    dsimp only at h6
    split at h6
    · cases h6
    · injection h6 with h6
      rw [← h6]
  rw [← ha0]
  exact Hydro.hydro_statics req.args call.x call.s g _ (Prod.ext rfl hg) hstat

/-- C111. With the electric field formulation, `--sonic-method mod_hydro` stores rows which
are in exact azimuthal balance and in radial balance linearised about Keplerian rotation, if
the root tracker finds a root whenever there is one: for every stored row without vertical
flow and with positive density, at its angle, the solver's right-hand side leaves this row
behind and returns derivatives for which both balances hold. -/
theorem mod_hydro_rows_balanced (hT : ModHydro.Faithful T) (hd : d.Good)
    (hread : read config_file = some d.text) (ht : CliSolve.Typed given)
    (ha : Cli.accepted soln_options given = true) (hk : KnownFields given)
    (hm : textGiven given "--sonic-method" = some "mod_hydro")
    (hE : Truth e.conv d given "use_E_r" true) (n : ℕ)
    (hn : (ds_soln e (methods I J str double T others) read config_file given fs).status =
      .ok n) :
    ∃ (p : String) (r : TheRun ℝ Made) (m : Made) (inp : NumInput)
      (S : ModHydro.SystemArgs),
      (ds_soln e (methods I J str double T others) read config_file given fs).printed = [p] ∧
      (ds_soln e (methods I J str double T others) read config_file given fs).fs.get? p =
        some (.run r) ∧
      r.solutions = [("0", m)] ∧ States e.conv d given inp ∧
      S.a_0 = inp.v_a_on_c_s ^ 2 ∧ S.norm_kepler_sq = 1 / inp.c_s_on_v_k ^ 2 ∧
      (inp.v_a_on_c_s ≠ 0 → inp.c_s_on_v_k ≠ 0 →
        ∀ (i : ℕ) θ s, m.out.angles[i]? = some θ → m.out.solution[i]? = some s →
          Hydro.Static s → 0 < s.ρ → ModHydro.Z_5At s ≠ 0 →
          s.B_θ ^ 2 / ModHydro.Z_5At s + s.v_r * s.ρ / (2 * S.a_0) ≠ 0 →
          ∃ s₀ g memory, SameButVelocities s₀ s ∧
            ModHydro.rhs_equation (S.withTracker T memory) θ s₀ = (0, s, some g) ∧
            AzimuthalMomentum (5/4) S.a_0 (flowOf θ s g) ∧
            ModHydro.keplerRes S.a_0 S.norm_kepler_sq (flowOf θ s g) = 0) := by
  obtain ⟨p, r, m, inp, t, η, c, req, -, h1, -, -, h2, h3, -, -, -, -, h4, -, -, h6, h7, -,
    h8, -, -⟩ := mod_hydro_end_to_end e read config_file given fs d I J str double T others hd
      hread ht ha hk hm n hn
  have hu : inp.use_E_r = true := by
    obtain ⟨v, hv, h⟩ := hE
    obtain ⟨w, hw, h'⟩ := h4.use_E_r
    obtain rfl := asked_unique hd given (.s .use_E_r) hv hw
    rw [h] at h'
    injection h' with h'
    exact h'.symm
  have ha0 : req.args.a_0 = inp.v_a_on_c_s ^ 2 := by rw [h7.args, h6]; rfl
  have hks : req.args.norm_kepler_sq = 1 / inp.c_s_on_v_k ^ 2 := by rw [h7.args, h6]; rfl
  have hsc : req.args.θ_scale = 1 := by rw [h7.args]
  have hue : req.args.use_E_r = true := by rw [h7.args]; exact hu
  refine ⟨p, r, m, inp, req.args, h1, h2, h3, h4, ha0, hks, fun hv hck i θ s hθ hs hst hρ hZ
    hden => ?_⟩
  have hrow : m.out.solution = _ := h8.rows
  have hangle : m.out.angles = _ := h8.angles
  rw [if_pos hu] at hrow
  rw [hangle, List.getElem?_map, Option.map_eq_some_iff] at hθ
  obtain ⟨x, hx, rfl⟩ := hθ
  have hlen := ModHydro.fixRows_length req.args T (T.start c.init_con.v_r) (J t req).soln.t
    (J t req).soln.y
  obtain ⟨s₀, hs₀⟩ : ∃ s₀, (J t req).soln.y[i]? = some s₀ := by
    rw [hrow] at hs
    have hi := (List.getElem?_eq_some_iff.1 hs).1
    rw [hlen] at hi
    exact ⟨_, List.getElem?_eq_getElem hi⟩
  obtain ⟨memory, hf⟩ := ModHydro.fixRows_row req.args T (T.start c.init_con.v_r) _ _ i x s₀ hx
    hs₀
  rw [hrow, hf] at hs
  injection hs with hs
  have hsame : SameButVelocities s₀ s := by rw [← hs]; rfl
  have hst₀ : Hydro.Static s₀ := by
    obtain ⟨a, b, c⟩ := hst
    rw [hsame] at a b c
    exact ⟨a, b, c⟩
  have hρ₀ : 0 < s₀.ρ := by rw [hsame] at hρ; exact hρ
  have hZ₀ : ModHydro.Z_5At s₀ ≠ 0 := by rw [hsame] at hZ; exact hZ
  obtain ⟨s', g, b1, b2, ⟨m', b3⟩, b4⟩ := ModHydro.mod_row_balanced req.args T hT hue
    (T.start c.init_con.v_r) (J t req).soln.t (J t req).soln.y i x s₀ hx hs₀ hst₀ hρ₀
    (by rw [ha0]; positivity) (by rw [hks]; positivity) hZ₀
  rw [hf, hs] at b1
  injection b1 with b1
  subst b1
  have hden₀ : s₀.B_θ ^ 2 / ModHydro.Z_5At s₀ + s.v_r * s₀.ρ / (2 * req.args.a_0) ≠ 0 := by
    have e1 : s.B_θ = s₀.B_θ := by rw [hsame]
    have e2 : s.ρ = s₀.ρ := by rw [hsame]
    have e3 : ModHydro.Z_5At s = ModHydro.Z_5At s₀ := by rw [hsame]; rfl
    rw [e1, e2, e3] at hden
    exact hden
  have b5 := b4 hden₀
  rw [hsc] at b5
  refine ⟨s₀, g, m', hsame, ?_, b5⟩
  rw [mul_one]
  exact b3

/-! ## Return -/

/-- C111. If every option has a text which can be read, the name of the output is free and the
file can be written: `ds-soln --sonic-method hydrostatic` stops with a `SolverError` if the
electric field formulation is asked for or the midplane has no solution, and otherwise succeeds
and prints the name, unless the integrator finds the interval too small, which is raised. -/
theorem hydrostatic_returns (hd : d.Good)
    (hread : read config_file = some d.text) (ht : CliSolve.Typed given)
    (ha : Cli.accepted soln_options given = true) (hk : KnownFields given)
    (hm : textGiven given "--sonic-method" = some "hydrostatic")
    (hall : ∀ f : CField, ∃ v, InFile d f.name v)
    (hreads : ∀ (f : SField) v, Asked d given f.name v →
      ∃ x, readField e.conv f.kind (some (kept f.name v)) = .ok x)
    (name : String)
    (hname : textGiven given "--output-file" = some name ∨
      textGiven given "--output-file" = none ∧
        ∃ v, Asked d given "label" v ∧ name = String.ofList v ++ (e.now ++ ".hdf5"))
    (hfree : fs.get? (e.path ((textGiven given "--output-dir").getD ".") name) = none)
    (hw : e.writable (e.path ((textGiven given "--output-dir").getD ".") name) = true)
    (inp : NumInput) (o : SolveOpts) (t : Tolerances)
    (hS : States e.conv d given inp) (hO : Options e.conv d given o t) :
    ((inp.use_E_r = true ∨ hydrostatic_define_conditions inp = none) →
      (ds_soln e (methods I J str double T others) read config_file given fs).status =
        .error .SolverError) ∧
    (∀ c, inp.use_E_r = false → hydrostatic_define_conditions inp = some c →
      ∃ req, Asks req
          { a_0 := c.a_0, norm_kepler_sq := c.norm_kepler_sq, init_con := c.init_con,
            η_derivs := o.η_derivs, no_v_deriv := false }
          { store_internal := !isGiven given "--no-store-internal" } c.angles c.init_con ∧
        (TooClose (I t req) →
          (ds_soln e (methods I J str double T others) read config_file given fs).status =
            .error .CVODESolveFailed) ∧
        (¬ TooClose (I t req) →
          (ds_soln e (methods I J str double T others) read config_file given fs).status = .ok 0 ∧
          (ds_soln e (methods I J str double T others) read config_file given fs).printed =
            [e.path ((textGiven given "--output-dir").getD ".") name])) := by
  obtain ⟨s, z, run, hnum, htol, hopt, -, -, g, g'⟩ := soln_runs e
    (methods I J str double T others) read config_file given fs d hd hread ht ha hk hall hreads
    name hname hfree hw inp o t hS hO
  rw [hm] at g g'
  have hM : methods I J str double T others (!isGiven given "--no-store-internal")
      ((some "hydrostatic").getD "single") =
        hydrostatic_solver I str double (!isGiven given "--no-store-internal") := if_pos rfl
  rw [hM] at g g'
  have hr : reads s = .ok (inp, t, o.η_derivs) :=
    reads_ok.2 ⟨hnum, htol, bool_ok.2 (solveOpts_ok hopt).2.1⟩
  rcases hydrostatic_solver_cases (I := I) (str := str) (double := double)
      (st := !isGiven given "--no-store-internal") hr run with
    ⟨h, hx⟩ | ⟨c, req, q1, q2, q3, q4, q5⟩
  · refine ⟨fun _ => (g' _ _ hx).1, fun c h1 h2 => ?_⟩
    rcases h with h | h
    · rw [h1] at h
      cases h
    · rw [h2] at h
      cases h
  · refine ⟨?_, fun c' _ h2 => ?_⟩
    · rintro (h | h)
      · rw [q1] at h
        cases h
      · rw [q2] at h
        cases h
    · rw [q2] at h2
      injection h2 with h2
      subst h2
      refine ⟨req, q3, fun hc => (g' _ _ (q4 hc)).1, fun hc => ?_⟩
      obtain ⟨m, k1, -⟩ := q5 hc
      exact g true _ _ k1 (finalise_set _ _ rfl)

/-- C111. The same for `--sonic-method mod_hydro`, which refuses neither formulation. -/
theorem mod_hydro_returns (hd : d.Good)
    (hread : read config_file = some d.text) (ht : CliSolve.Typed given)
    (ha : Cli.accepted soln_options given = true) (hk : KnownFields given)
    (hm : textGiven given "--sonic-method" = some "mod_hydro")
    (hall : ∀ f : CField, ∃ v, InFile d f.name v)
    (hreads : ∀ (f : SField) v, Asked d given f.name v →
      ∃ x, readField e.conv f.kind (some (kept f.name v)) = .ok x)
    (name : String)
    (hname : textGiven given "--output-file" = some name ∨
      textGiven given "--output-file" = none ∧
        ∃ v, Asked d given "label" v ∧ name = String.ofList v ++ (e.now ++ ".hdf5"))
    (hfree : fs.get? (e.path ((textGiven given "--output-dir").getD ".") name) = none)
    (hw : e.writable (e.path ((textGiven given "--output-dir").getD ".") name) = true)
    (inp : NumInput) (o : SolveOpts) (t : Tolerances) (c : Conditions)
    (hS : States e.conv d given inp) (hO : Options e.conv d given o t)
    (hc : c = ModHydro.mod_hydro_define_conditions inp) :
    ∃ req, Asks req
        { a_0 := c.a_0, norm_kepler_sq := c.norm_kepler_sq, init_con := c.init_con,
          η_derivs := o.η_derivs, use_E_r := inp.use_E_r }
        { store_internal := !isGiven given "--no-store-internal" } c.angles c.init_con ∧
      (TooClose (J t req) →
        (ds_soln e (methods I J str double T others) read config_file given fs).status =
          .error .CVODESolveFailed) ∧
      (¬ TooClose (J t req) →
        (ds_soln e (methods I J str double T others) read config_file given fs).status = .ok 0 ∧
        (ds_soln e (methods I J str double T others) read config_file given fs).printed =
          [e.path ((textGiven given "--output-dir").getD ".") name]) := by
  subst hc
  obtain ⟨s, z, run, hnum, htol, hopt, -, -, g, g'⟩ := soln_runs e
    (methods I J str double T others) read config_file given fs d hd hread ht ha hk hall hreads
    name hname hfree hw inp o t hS hO
  rw [hm] at g g'
  have hM : methods I J str double T others (!isGiven given "--no-store-internal")
      ((some "mod_hydro").getD "single") =
        mod_hydro_solver J str T (!isGiven given "--no-store-internal") := by
    unfold methods
    rw [if_neg (by decide)]
    exact if_pos rfl
  rw [hM] at g g'
  have hr : reads s = .ok (inp, t, o.η_derivs) :=
    reads_ok.2 ⟨hnum, htol, bool_ok.2 (solveOpts_ok hopt).2.1⟩
  obtain ⟨req, q3, q4, q5⟩ := mod_hydro_solver_cases (J := J) (str := str) (T := T)
      (st := !isGiven given "--no-store-internal") hr run
  refine ⟨req, q3, fun hc => (g' _ _ (q4 hc)).1, fun hc => ?_⟩
  obtain ⟨m, k1, -⟩ := q5 hc
  exact g true _ _ k1 (finalise_set _ _ rfl)

end Files

/-! ## Cases -/

/-- `--override γ 0.001 --override num_angles 3 --sonic-method hydrostatic`. -/
def witH : List Occ := witGiven ++ [("--sonic-method", .str "hydrostatic")]

/-- The same for `mod_hydro`, with the electric field. -/
def witM : List Occ :=
  witGiven ++ [("--override", .pairs [("use_E_r", "True")]), ("--sonic-method", .str "mod_hydro")]

theorem witH_asked {n : String} {v : Text} :
    Asked witDoc witH n v ↔ Asked witDoc witGiven n v := by
  have : overrideGiven witH n = overrideGiven witGiven n := rfl
  unfold Asked
  rw [this]

/-- What is asked for with `witM`. -/
def witMAsked : CField → Text
  | .s .use_E_r => "True".toList
  | f => witAsked f

theorem witM_asked (f : CField) : Asked witDoc witM f.name (witMAsked f) := by
  unfold Asked
  have : overrideGiven witM f.name =
      (match f with
        | .s .γ => some "0.001" | .s .num_angles => some "3" | .s .use_E_r => some "True"
        | _ => none) := by
    cases f with
    | label => decide
    | s f => cases f <;> decide
  rw [this]
  cases f with
  | label => exact witDoc_inFile .label
  | s f => cases f <;> first | rfl | exact witDoc_inFile _

theorem witH_states : States witConvR witDoc witH witInp :=
  let h := wit_states
  ⟨h.start, h.stop, h.num_angles, h.γ, h.v_rin_on_c_s, h.v_a_on_c_s, h.c_s_on_v_k, h.η_O, h.η_A,
    h.η_H, h.use_E_r⟩

theorem witH_options : Options witConvR witDoc witH witOpts witTol :=
  let h := wit_options
  { taylor_stop_angle := h.taylor_stop_angle
    η_derivs := h.η_derivs
    use_taylor_jump := h.use_taylor_jump
    jump_before_sonic := h.jump_before_sonic
    v_θ_sonic_crit := h.v_θ_sonic_crit
    after_sonic := h.after_sonic
    sonic_interp_size := h.sonic_interp_size
    use_E_r := h.use_E_r
    relative := h.relative
    absolute := h.absolute
    max_steps := h.max_steps
    interp_slice := fun h => absurd rfl h }

theorem witM_states : States witConvR witDoc witM { witInp with use_E_r := true } where
  start := ⟨_, witM_asked (.s .start), rfl⟩
  stop := ⟨_, witM_asked (.s .stop), rfl⟩
  num_angles := ⟨_, witM_asked (.s .num_angles), rfl⟩
  γ := ⟨_, witM_asked (.s .γ), rfl⟩
  v_rin_on_c_s := ⟨_, witM_asked (.s .v_rin_on_c_s), rfl⟩
  v_a_on_c_s := ⟨_, witM_asked (.s .v_a_on_c_s), rfl⟩
  c_s_on_v_k := ⟨_, witM_asked (.s .c_s_on_v_k), rfl⟩
  η_O := ⟨_, witM_asked (.s .η_O), rfl⟩
  η_A := ⟨_, witM_asked (.s .η_A), rfl⟩
  η_H := ⟨_, witM_asked (.s .η_H), rfl⟩
  use_E_r := ⟨_, witM_asked (.s .use_E_r), rfl⟩

theorem witM_options : Options witConvR witDoc witM { witOpts with use_E_r := true } witTol where
  taylor_stop_angle := ⟨_, witM_asked (.s .taylor_stop_angle), rfl⟩
  η_derivs := ⟨_, witM_asked (.s .η_derivs), rfl⟩
  use_taylor_jump := ⟨_, witM_asked (.s .use_taylor_jump), rfl⟩
  jump_before_sonic := ⟨_, witM_asked (.s .jump_before_sonic), Or.inl ⟨Or.inr rfl, rfl⟩⟩
  v_θ_sonic_crit := ⟨_, witM_asked (.s .v_θ_sonic_crit), Or.inl ⟨Or.inr rfl, rfl⟩⟩
  after_sonic := ⟨_, witM_asked (.s .after_sonic), Or.inl ⟨Or.inr rfl, rfl⟩⟩
  sonic_interp_size := ⟨_, witM_asked (.s .sonic_interp_size), Or.inl ⟨Or.inr rfl, rfl⟩⟩
  use_E_r := ⟨_, witM_asked (.s .use_E_r), rfl⟩
  relative := ⟨_, witM_asked (.s .relative_tolerance), rfl⟩
  absolute := ⟨_, witM_asked (.s .absolute_tolerance), rfl⟩
  max_steps := ⟨_, witM_asked (.s .max_steps), rfl⟩
  interp_slice := fun h => absurd rfl h

theorem witM_reads (f : SField) (v : Text) (hv : Asked witDoc witM f.name v) :
    ∃ x, readField witConvR f.kind (some (kept f.name v)) = .ok x := by
  obtain rfl := asked_unique witDoc_good witM (.s f) hv (witM_asked (.s f))
  have hk : kept f.name (witMAsked (.s f)) = witMAsked (.s f) := by
    have : witMAsked (.s f) ≠ [] := by cases f <;> decide
    exact if_neg fun h => this h.2
  rw [hk]
  cases f <;> exact ⟨_, by simp only [readField, SField.kind]; rfl⟩

theorem witH_typed : CliSolve.Typed witH := by
  constructor
  · intro name hn v hv
    simp only [witH, witGiven, List.cons_append, List.nil_append, List.mem_cons,
      Prod.mk.injEq, List.not_mem_nil, or_false] at hv
    have h1 : "--override" ∉ wordOptions := by decide
    rcases hv with ⟨rfl, -⟩ | ⟨rfl, -⟩ | ⟨-, rfl⟩
    · exact absurd hn h1
    · exact absurd hn h1
    · exact ⟨_, rfl⟩
  · intro v hv
    simp only [witH, witGiven, List.cons_append, List.nil_append, List.mem_cons,
      Prod.mk.injEq, List.not_mem_nil, or_false] at hv
    rcases hv with ⟨-, rfl⟩ | ⟨-, rfl⟩ | ⟨h, -⟩
    · exact ⟨_, rfl⟩
    · exact ⟨_, rfl⟩
    · exact absurd h (by decide)

theorem witM_typed : CliSolve.Typed witM := by
  constructor
  · intro name hn v hv
    simp only [witM, witGiven, List.cons_append, List.nil_append, List.mem_cons,
      Prod.mk.injEq, List.not_mem_nil, or_false] at hv
    have h1 : "--override" ∉ wordOptions := by decide
    rcases hv with ⟨rfl, -⟩ | ⟨rfl, -⟩ | ⟨rfl, -⟩ | ⟨-, rfl⟩
    · exact absurd hn h1
    · exact absurd hn h1
    · exact absurd hn h1
    · exact ⟨_, rfl⟩
  · intro v hv
    simp only [witM, witGiven, List.cons_append, List.nil_append, List.mem_cons,
      Prod.mk.injEq, List.not_mem_nil, or_false] at hv
    rcases hv with ⟨-, rfl⟩ | ⟨-, rfl⟩ | ⟨-, rfl⟩ | ⟨h, -⟩
    · exact ⟨_, rfl⟩
    · exact ⟨_, rfl⟩
    · exact ⟨_, rfl⟩
    · exact absurd h (by decide)

theorem witM_known : KnownFields witM := by
  intro p hp
  simp only [witM, witGiven, overridesGiven, List.cons_append, List.nil_append,
    List.flatMap_cons, List.flatMap_nil, if_true, List.append_nil, List.mem_cons] at hp
  rcases hp with rfl | rfl | rfl | hp
  · exact ⟨.s .γ, rfl⟩
  · exact ⟨.s .num_angles, rfl⟩
  · exact ⟨.s .use_E_r, rfl⟩
  · revert hp
    rw [if_neg (by decide)]
    simp

theorem witInp_hydro : ∃ c, hydrostatic_define_conditions witInp = some c := by
  unfold hydrostatic_define_conditions v_φ_boundary_func
  have hd : ¬ v_φ_discriminant (-witInp.v_rin_on_c_s) witInp.η_H
      (witInp.η_O + witInp.η_A) (1 / witInp.c_s_on_v_k ^ 2)
      (witInp.v_a_on_c_s ^ 2) 0 < 0 := by
    norm_num [v_φ_discriminant, witInp]
  simp only [hd, if_false]
  exact ⟨_, rfl⟩

/-- The methods for integrators which find that nothing changes. -/
noncomputable def witMethods : Bool → String → Runners.Solver ℝ Made :=
  methods (fun _ => Hydro.witI) (fun _ => Hydro.witI) (fun _ => "") true ModHydro.witT
    fun _ _ _ r => (.error .SolverError, r)

theorem witH_returns : (ds_soln witEnvR witMethods (fun _ => some witDoc.text) "a.cfg" witH
    ([] : FS ℝ Made)).status = .ok 0 := by
  obtain ⟨c, hc⟩ := witInp_hydro
  obtain ⟨req, -, -, h⟩ := (hydrostatic_returns witEnvR (fun _ => some witDoc.text) "a.cfg" witH
    [] witDoc (fun _ => Hydro.witI) (fun _ => Hydro.witI) (fun _ => "") true ModHydro.witT
    (fun _ _ _ r => (.error .SolverError, r)) witDoc_good rfl witH_typed (by decide +kernel)
    wit_known (by decide +kernel) (fun f => ⟨_, witDoc_inFile f⟩)
    (fun f v hv => wit_reads f v (witH_asked.1 hv)) _
    (Or.inr ⟨by decide +kernel, _, witH_asked.2 (wit_asked .label), rfl⟩) rfl rfl witInp witOpts
    witTol witH_states witH_options).2 c rfl hc
  exact (h (Hydro.witI_ok req)).1

theorem witM_returns : (ds_soln witEnvR witMethods (fun _ => some witDoc.text) "a.cfg" witM
    ([] : FS ℝ Made)).status = .ok 0 := by
  obtain ⟨req, -, -, h⟩ := mod_hydro_returns witEnvR (fun _ => some witDoc.text) "a.cfg" witM
    [] witDoc (fun _ => Hydro.witI) (fun _ => Hydro.witI) (fun _ => "") true ModHydro.witT
    (fun _ _ _ r => (.error .SolverError, r)) witDoc_good rfl witM_typed (by decide +kernel)
    witM_known (by decide +kernel) (fun f => ⟨_, witDoc_inFile f⟩) witM_reads _
    (Or.inr ⟨by decide +kernel, _, witM_asked .label, rfl⟩) rfl rfl _ _
    witTol _ witM_states witM_options rfl
  exact (h (Hydro.witI_ok req)).1

theorem witI_starts {A : Type} : Starts (Hydro.witI (A := A)) := by
  intro r θ h
  refine ⟨h, ?_⟩
  show (r.angles.map fun _ => r.init).head? = _
  rw [List.head?_map, h]
  rfl

example := hydrostatic_end_to_end _ _ _ _ _ witDoc _ _ _ _ _ _ witDoc_good rfl witH_typed
  (by decide +kernel) wit_known (by decide +kernel) 0 witH_returns
example := hydrostatic_first_row _ _ _ _ _ witDoc _ _ _ _ _ _ (fun _ => witI_starts) witDoc_good
  rfl witH_typed (by decide +kernel) wit_known (by decide +kernel) 0 witH_returns
example := hydrostatic_stored_derivatives _ _ _ _ _ witDoc _ _ _ _ _ _ witDoc_good rfl witH_typed
  (by decide +kernel) wit_known (by decide +kernel) 0 witH_returns (by decide +kernel)
example := mod_hydro_end_to_end _ _ _ _ _ witDoc _ _ _ _ _ _ witDoc_good rfl witM_typed
  (by decide +kernel) witM_known (by decide +kernel) 0 witM_returns
example := mod_hydro_rows_balanced _ _ _ _ _ witDoc _ _ _ _ _ _ ModHydro.witT_faithful witDoc_good
  rfl witM_typed (by decide +kernel) witM_known (by decide +kernel)
  ⟨_, witM_asked (.s .use_E_r), rfl⟩ 0 witM_returns

end DiscSolver.HydroMethods
