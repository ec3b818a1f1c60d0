import Verif.Spec.EndToEnd
import Verif.Model.SingleRun
import Verif.Props.ConfigDoc
import Verif.Props.CliSolve
import Verif.Props.Solution
import Verif.Props.Midplane

/-!
# Properties: from a configuration file to the stored solution

C102.
-/

namespace DiscSolver.EndToEnd

open ConfDoc CliSolve Cli Runners SingleRun

variable {F σ : Type}

/-! ## What is asked for -/

/-- A file has at most one text for an option. -/
theorem inFile_unique {d : Doc} (hd : d.Good) (f : CField) {v w : Text}
    (hv : InFile d f.name v) (hw : InFile d f.name w) : v = w := by
  obtain ⟨secs, -, h, -⟩ := get_doc d hd (home f.name.toList) f.name.toList f.fallback
  unfold InFile at hv hw
  rw [← fallback_eq f] at hv hw
  have := (h v).2 hv
  rw [(h w).2 hw] at this
  injection this with this
  exact this.symm

/-- C102. What is asked for is definite. -/
theorem asked_unique {d : Doc} (hd : d.Good) (given : List Occ) (f : CField) {v w : Text}
    (hv : Asked d given f.name v) (hw : Asked d given f.name w) : v = w := by
  unfold Asked at hv hw
  cases h : overrideGiven given f.name with
  | some o => rw [h] at hv hw; exact hv.trans hw.symm
  | none => rw [h] at hv hw; exact inFile_unique hd f hv hw

theorem conffile_overrides (t : Option Text) (ov : Overrides) (c : ConfigInput) :
    get_input_from_conffile t (some ov) = .ok c ↔
      ∃ c0, get_input_from_conffile t none = .ok c0 ∧ add_overrides (some ov) c0 = .ok c := by
  unfold get_input_from_conffile
  dsimp only
  split
  · simp
  · split
    · simp
    · simp [add_overrides]

/-- The configuration read from a file with overrides. -/
theorem asked_config {d : Doc} (hd : d.Good) {given : List Occ} (hk : KnownFields given)
    {ov : Overrides} (ho : ∀ k, ov.get? k = (overrideGiven given k).map String.toList)
    (c : ConfigInput) :
    get_input_from_conffile (some d.text) (some ov) = .ok c ↔
      (∀ f : CField, ∃ v, InFile d f.name v) ∧
      ∀ f : CField, ∃ v, Asked d given f.name v ∧ c f = some (kept f.name v) := by
  have hkeys : ∀ k ∈ ov.keys, ∃ f : CField, f.name = k := by
    intro k hm
    by_contra hn
    cases hg : overrideGiven given k with
    | none =>
      have := (Dict.get?_eq_none_iff ov k).1 (by rw [ho, hg]; rfl)
      exact this hm
    | some w =>
      unfold overrideGiven at hg
      rw [Option.map_eq_some_iff] at hg
      obtain ⟨p, hp, -⟩ := hg
      have := List.mem_of_getLast? hp
      rw [List.mem_filter] at this
      obtain ⟨f, hf⟩ := hk p this.1
      exact hn ⟨f, hf.trans (by simpa using this.2)⟩
  have hkept : ∀ (f : CField) (v : Text),
      (if f.hasConverter = true ∧ v = [] then Text.none else v) = kept f.name v := by
    intro f v
    unfold kept
    simp only [converter_eq f]
    rfl
  have key : ∀ c0 : ConfigInput, get_input_from_conffile (some d.text) none = .ok c0 →
      (∀ f : CField, ∃ v, InFile d f.name v ∧ c0 f = some (kept f.name v)) ∧
      ∃ c', add_overrides (some ov) c0 = .ok c' ∧
        ∀ f : CField, ∃ v, Asked d given f.name v ∧ c' f = some (kept f.name v) := by
    intro c0 h0
    have hm := (conf_doc_meaning d hd c0).1 h0
    refine ⟨hm, ?_⟩
    obtain ⟨c', h1, -, h2, h3⟩ := add_overrides_ok c0 (by
      intro f hf h0
      obtain ⟨v, -, hv⟩ := hm f
      rw [hv] at h0
      injection h0 with h0
      by_cases hv0 : v = []
      · rw [if_pos ⟨(converter_eq f).1 hf, hv0⟩] at h0; cases h0
      · rw [if_neg (fun h => hv0 h.2)] at h0; exact hv0 h0) ov hkeys
    refine ⟨c', h1, fun f => ?_⟩
    cases hg : overrideGiven given f.name with
    | some w =>
      refine ⟨w.toList, by unfold Asked; rw [hg], ?_⟩
      rw [h2 f w.toList (by rw [ho, hg]; rfl), hkept]
    | none =>
      obtain ⟨v, hv, hcv⟩ := hm f
      refine ⟨v, by unfold Asked; rw [hg]; exact hv, ?_⟩
      rw [h3 f ((Dict.get?_eq_none_iff ov _).1 (by rw [ho, hg]; rfl)), hcv]
      rfl
  rw [conffile_overrides]
  constructor
  · rintro ⟨c0, h0, h1⟩
    obtain ⟨hm, c', h2, h3⟩ := key c0 h0
    rw [h1] at h2
    injection h2 with h2
    subst h2
    exact ⟨fun f => (hm f).imp fun v hv => hv.1, h3⟩
  · rintro ⟨hm, hc⟩
    choose v hv using hm
    obtain ⟨c0, h0⟩ : ∃ c0, get_input_from_conffile (some d.text) none = .ok c0 :=
      ⟨fun f => some (kept f.name (v f)), (conf_doc_meaning d hd _).2
        fun f => ⟨v f, hv f, rfl⟩⟩
    obtain ⟨-, c', h2, h3⟩ := key c0 h0
    refine ⟨c0, h0, ?_⟩
    rw [h2]
    congr 1
    funext f
    obtain ⟨x, hx, hx'⟩ := h3 f
    obtain ⟨y, hy, hy'⟩ := hc f
    rw [hx', hy', asked_unique hd given f hx hy]

/-! ## How a single run reads its input -/

theorem bind_ok {α β : Type} {x : Except PyErr α} {f : α → Except PyErr β} {b : β} :
    (x >>= f) = .ok b ↔ ∃ a, x = .ok a ∧ f a = .ok b := by
  cases x with
  | error e =>
    constructor
    · intro h; cases h
    · rintro ⟨a, h, -⟩; cases h
  | ok a =>
    constructor
    · intro h; exact ⟨a, rfl, h⟩
    · rintro ⟨a', h, h'⟩; injection h with h; subst h; exact h'

theorem real_ok {v : SVal ℝ} {x : ℝ} : real v = .ok x ↔ v = .float x := by
  cases v <;> simp [real]

theorem bool_ok {v : SVal ℝ} {b : Bool} : SingleRun.bool v = .ok b ↔ v = .bool b := by
  cases v <;> simp [SingleRun.bool]

theorem optReal_ok {v : SVal ℝ} {x : Option ℝ} :
    optReal v = .ok x ↔ (v = .none ∧ x = none) ∨ ∃ y, v = .float y ∧ x = some y := by
  cases v <;> simp [optReal, eq_comm]

theorem count_ok {v : SVal ℝ} {n : ℕ} : count v = .ok n ↔ v = .int n := by
  cases v with
  | int m =>
    simp only [count, SVal.int.injEq]
    by_cases h : m < 0
    · rw [if_pos h]
      constructor
      · intro h'; cases h'
      · intro h'; omega
    · rw [if_neg h, Except.ok.injEq]; omega
  | _ => simp [count]

theorem numInput_ok {s : SolutionInput ℝ} {inp : NumInput} (h : numInput s = .ok inp) :
    s .start = .float inp.start ∧ s .stop = .float inp.stop ∧
    s .num_angles = .int inp.num_angles ∧ s .γ = .float inp.γ ∧
    s .v_rin_on_c_s = .float inp.v_rin_on_c_s ∧ s .v_a_on_c_s = .float inp.v_a_on_c_s ∧
    s .c_s_on_v_k = .float inp.c_s_on_v_k ∧ s .η_O = .float inp.η_O ∧
    s .η_A = .float inp.η_A ∧ s .η_H = .float inp.η_H ∧ s .use_E_r = .bool inp.use_E_r := by
  unfold numInput at h
  simp only [bind_ok, real_ok, bool_ok, count_ok] at h
  obtain ⟨a1, h1, a2, h2, a3, h3, a4, h4, a5, h5, a6, h6, a7, h7, a8, h8, a9, h9, a10, h10,
    a11, h11, h⟩ := h
  injection h with h
  subst h
  exact ⟨h9, h10, h11, h4, h1, h2, h3, h5, h6, h7, h8⟩

theorem solveOpts_ok {s : SolutionInput ℝ} {o : SolveOpts} (h : solveOpts s = .ok o) :
    s .taylor_stop_angle = .float o.taylor_stop_angle ∧ s .η_derivs = .bool o.η_derivs ∧
    s .use_taylor_jump = .bool o.use_taylor_jump ∧
    optReal (s .jump_before_sonic) = .ok o.jump_before_sonic ∧
    optReal (s .v_θ_sonic_crit) = .ok o.v_θ_sonic_crit ∧
    optReal (s .after_sonic) = .ok o.after_sonic ∧
    optReal (s .sonic_interp_size) = .ok o.sonic_interp_size ∧
    s .use_E_r = .bool o.use_E_r ∧
    (o.sonic_interp_size ≠ none → s .interp_slice = .slice o.interp_slice) := by
  unfold solveOpts at h
  simp only [bind_ok, real_ok, bool_ok] at h
  obtain ⟨a1, h1, a2, h2, a3, h3, a4, h4, a5, h5, a6, h6, a7, h7, a8, h8, a9, h9, h⟩ := h
  injection h with h
  subst h
  refine ⟨h9, h1, h2, h3, h4, h5, h6, h8, fun hn => ?_⟩
  dsimp only at hn ⊢
  cases hs : s .interp_slice with
  | slice x =>
    rw [hs] at h7
    simp only [interpSlice, Except.ok.injEq] at h7
    rw [h7]
  | _ =>
    rw [hs] at h7
    cases a6 with
    | none => exact absurd rfl hn
    | some y => simp [interpSlice] at h7

theorem tolerances_ok {s : SolutionInput ℝ} {t : Tolerances} (h : tolerances s = .ok t) :
    s .relative_tolerance = .float t.relative ∧ s .absolute_tolerance = .float t.absolute ∧
    optInt (s .max_steps) = t.max_steps := by
  unfold tolerances at h
  simp only [bind_ok, real_ok] at h
  obtain ⟨a1, h1, a2, h2, h⟩ := h
  injection h with h
  subst h
  exact ⟨h2, h1, rfl⟩

theorem conditions_ok {s : SolutionInput ℝ} {c : Conditions} (h : conditions s = .ok c) :
    ∃ inp, numInput s = .ok inp ∧ define_conditions inp = some c := by
  unfold conditions at h
  rw [bind_ok] at h
  obtain ⟨inp, h1, h2⟩ := h
  refine ⟨inp, h1, ?_⟩
  cases hc : define_conditions inp with
  | none => rw [hc] at h2; cases h2
  | some c' => rw [hc] at h2; injection h2 with h2; rw [h2]

theorem single_solution_ok {I : Tolerances → Integrator} {str : ℝ → String}
    {interp : List ℝ → List ℝ → Option (ℝ → ℝ)} {st : Bool} {s : SolutionInput ℝ} {m : Made}
    (h : single_solution I str interp st s = .ok m) :
    m.solution_input = s ∧ ∃ inp tol o, numInput s = .ok inp ∧ tolerances s = .ok tol ∧
      solveOpts s = .ok o ∧ define_conditions inp = some m.initial_conditions ∧
      (solution (I tol) str interp o m.initial_conditions
        { store_internal := st }).result = .ok m.out := by
  unfold single_solution at h
  simp only [bind_ok] at h
  obtain ⟨c, hc, tol, ht, o, ho, out, hs, h⟩ := h
  injection h with h
  subst h
  obtain ⟨inp, h1, h2⟩ := conditions_ok hc
  exact ⟨rfl, inp, tol, o, h1, ht, ho, h2, hs⟩

/-! ## What was read is what was asked for -/

section Read

variable {C : Conv ℝ} {d : Doc} {given : List Occ} {c : ConfigInput} {s : SolutionInput ℝ}

theorem read_number (hc : ∀ f : CField, ∃ v, Asked d given f.name v ∧ c f = some (kept f.name v))
    (hs : c.to_soln_input C = .ok s) (f : SField) (hf : f.kind = .float) {x : ℝ}
    (hx : s f = .float x) : Number C d given f.name x := by
  obtain ⟨v, hv, hcv⟩ := hc (.s f)
  have := (to_soln_input_ok C c s).1 hs f
  rw [hf, hcv, hx] at this
  have hk : kept (CField.s f).name v = v := by
    unfold kept
    rw [if_neg]
    rintro ⟨h, -⟩
    rw [← converter_eq] at h
    cases f <;> simp_all [SField.kind, CField.hasConverter]
  rw [hk] at this
  refine ⟨v, hv, ?_⟩
  simp only [readField, readFloat] at this
  cases hr : C.float_type (C.str_to_float (some v)) with
  | error e => rw [hr] at this; cases this
  | ok y => rw [hr] at this; injection this with this; injection this with this; rw [this]

theorem read_truth (hc : ∀ f : CField, ∃ v, Asked d given f.name v ∧ c f = some (kept f.name v))
    (hs : c.to_soln_input C = .ok s) (f : SField) (hf : f.kind = .bool) {b : Bool}
    (hx : s f = .bool b) : Truth C d given f.name b := by
  obtain ⟨v, hv, hcv⟩ := hc (.s f)
  have := (to_soln_input_ok C c s).1 hs f
  rw [hf, hcv, hx] at this
  have hk : kept (CField.s f).name v = v := by
    unfold kept
    rw [if_neg]
    rintro ⟨h, -⟩
    rw [← converter_eq] at h
    cases f <;> simp_all [SField.kind, CField.hasConverter]
  rw [hk] at this
  refine ⟨v, hv, ?_⟩
  simp only [readField] at this
  cases hr : C.str_to_bool (some v) with
  | error e => rw [hr] at this; cases this
  | ok y => rw [hr] at this; injection this with this; injection this with this; rw [this]

theorem read_whole (hc : ∀ f : CField, ∃ v, Asked d given f.name v ∧ c f = some (kept f.name v))
    (hs : c.to_soln_input C = .ok s) (f : SField) (hf : f.kind = .int) :
    Whole C d given f.name (optInt (s f)) := by
  obtain ⟨v, hv, hcv⟩ := hc (.s f)
  have := (to_soln_input_ok C c s).1 hs f
  rw [hf, hcv] at this
  have hk : kept (CField.s f).name v = v := by
    unfold kept
    rw [if_neg]
    rintro ⟨h, -⟩
    rw [← converter_eq] at h
    cases f <;> simp_all [SField.kind, CField.hasConverter]
  rw [hk] at this
  refine ⟨v, hv, ?_⟩
  simp only [readField, readInt, Except.ok.injEq] at this
  rw [← this]
  cases C.str_to_int (some v) <;> rfl

theorem read_optNumber
    (hc : ∀ f : CField, ∃ v, Asked d given f.name v ∧ c f = some (kept f.name v))
    (hs : c.to_soln_input C = .ok s) (f : SField) (hf : f.kind = .optFloat) {x : Option ℝ}
    (hx : optReal (s f) = .ok x) : OptNumber C d given f.name x := by
  obtain ⟨v, hv, hcv⟩ := hc (.s f)
  have := (to_soln_input_ok C c s).1 hs f
  rw [hf, hcv] at this
  have hm : (CField.s f).name ∈ mayBeEmpty := by
    rw [← converter_eq]
    cases f <;> simp_all [SField.kind, CField.hasConverter]
  refine ⟨v, hv, ?_⟩
  simp only [readField] at this
  by_cases h0 : v = [] ∨ v = "None".toList
  · left
    refine ⟨h0, ?_⟩
    have hk : kept (CField.s f).name v = Text.none := by
      unfold kept
      rcases h0 with h0 | h0
      · rw [if_pos ⟨hm, h0⟩]; rfl
      · rw [if_neg (fun h => by rw [h.2] at h0; cases h0), h0]; rfl
    rw [hk, if_pos (Or.inl rfl)] at this
    injection this with this
    rw [← this] at hx
    injection hx with hx
    exact hx.symm
  · right
    push Not at h0
    refine ⟨h0.1, h0.2, ?_⟩
    have hk : kept (CField.s f).name v = v := if_neg (fun h => h0.1 h.2)
    rw [hk, if_neg (by
      rintro (h | h)
      · injection h with h; exact h0.2 h
      · cases h)] at this
    simp only [readFloat] at this
    cases hr : C.float_type (C.str_to_float (some v)) with
    | error e => rw [hr] at this; cases this
    | ok y =>
      rw [hr] at this
      injection this with this
      rw [← this] at hx
      injection hx with hx
      exact ⟨y, hx.symm, rfl⟩

theorem read_slice
    (hc : ∀ f : CField, ∃ v, Asked d given f.name v ∧ c f = some (kept f.name v))
    (hs : c.to_soln_input C = .ok s) {x : PySlice} (hx : s .interp_slice = .slice x) :
    ∃ v, Asked d given "interp_slice" v ∧
      str_to_slice C.eval_slice (some (kept "interp_slice" v)) = .ok (some x) := by
  obtain ⟨v, hv, hcv⟩ := hc (.s .interp_slice)
  refine ⟨v, hv, ?_⟩
  have := (to_soln_input_ok C c s).1 hs .interp_slice
  rw [hcv, hx] at this
  have hname : (CField.s .interp_slice).name = "interp_slice" := rfl
  rw [hname] at this
  simp only [readField, SField.kind] at this
  cases hr : str_to_slice C.eval_slice (some (kept "interp_slice" v)) with
  | error e => rw [hr] at this; cases this
  | ok y =>
    rw [hr] at this
    cases y with
    | none => simp at this
    | some y =>
      simp only [Except.ok.injEq, SVal.slice.injEq] at this
      rw [this]

end Read

/-! ## The run -/

theorem single_solver_eq (sol : SolutionInput F → Except PyErr σ) (s : SolutionInput F)
    (info : RunInfo F) :
    single_solver sol false s { info := info } =
      match sol s with
      | .error e => (.error e, { info := info })
      | .ok st =>
        (.ok true, ⟨info, .value (some st), [("0", st)], false, none, none⟩) := by
  have h00 : Nat.repr 0 = "0" := by decide
  cases hs : sol s with
  | error e => simp [single_solver, hs]
  | ok st =>
    have hnum : numbered [st] = [("0", st)] := by simp [numbered, h00]
    have ha : Solutions.add ([] : Solutions σ) st = .ok ("0", [("0", st)]) := by
      have := add_numbered ([] : List σ) st
      rw [List.nil_append, hnum] at this
      simpa [numbered, h00] using this
    have hl : Solutions.getLast [("0", st)] = .ok st := by
      rw [← hnum]; exact get_last_most_recent [] st
    have hadd : Run.addSolution ({ info := info } : TheRun F σ) st =
        .ok ("0", { info := info, solutions := [("0", st)] }) := by
      simp only [Run.addSolution, ha]
      rfl
    simp [single_solver, hs, hadd, hl, Run.setFinal]

/-- The problem a configuration file and a command line state for the midplane. -/
structure States (C : Conv ℝ) (d : Doc) (given : List Occ) (inp : NumInput) : Prop where
  start : Number C d given "start" inp.start
  stop : Number C d given "stop" inp.stop
  num_angles : Whole C d given "num_angles" (some inp.num_angles)
  γ : Number C d given "γ" inp.γ
  v_rin_on_c_s : Number C d given "v_rin_on_c_s" inp.v_rin_on_c_s
  v_a_on_c_s : Number C d given "v_a_on_c_s" inp.v_a_on_c_s
  c_s_on_v_k : Number C d given "c_s_on_v_k" inp.c_s_on_v_k
  η_O : Number C d given "η_O" inp.η_O
  η_A : Number C d given "η_A" inp.η_A
  η_H : Number C d given "η_H" inp.η_H
  use_E_r : Truth C d given "use_E_r" inp.use_E_r

/-- How it is to be solved. -/
structure Options (C : Conv ℝ) (d : Doc) (given : List Occ) (o : SolveOpts)
    (t : Tolerances) : Prop where
  taylor_stop_angle : Number C d given "taylor_stop_angle" o.taylor_stop_angle
  η_derivs : Truth C d given "η_derivs" o.η_derivs
  use_taylor_jump : Truth C d given "use_taylor_jump" o.use_taylor_jump
  jump_before_sonic : OptNumber C d given "jump_before_sonic" o.jump_before_sonic
  v_θ_sonic_crit : OptNumber C d given "v_θ_sonic_crit" o.v_θ_sonic_crit
  after_sonic : OptNumber C d given "after_sonic" o.after_sonic
  sonic_interp_size : OptNumber C d given "sonic_interp_size" o.sonic_interp_size
  use_E_r : Truth C d given "use_E_r" o.use_E_r
  relative : Number C d given "relative_tolerance" t.relative
  absolute : Number C d given "absolute_tolerance" t.absolute
  max_steps : Whole C d given "max_steps" t.max_steps
  interp_slice : o.sonic_interp_size ≠ none → ∃ v, Asked d given "interp_slice" v ∧
    str_to_slice C.eval_slice (some (kept "interp_slice" v)) = .ok (some o.interp_slice)

theorem states_options {C : Conv ℝ} {d : Doc} {given : List Occ} {c : ConfigInput}
    {s : SolutionInput ℝ}
    (hc : ∀ f : CField, ∃ v, Asked d given f.name v ∧ c f = some (kept f.name v))
    (k4 : c.to_soln_input C = .ok s) {inp : NumInput} {o : SolveOpts} {t : Tolerances}
    (hi : numInput s = .ok inp) (htol : tolerances s = .ok t) (ho : solveOpts s = .ok o) :
    States C d given inp ∧ Options C d given o t := by
  obtain ⟨i1, i2, i3, i4, i5, i6, i7, i8, i9, i10, i11⟩ := numInput_ok hi
  obtain ⟨o1, o2, o3, o4, o5, o6, o7, o8, o9⟩ := solveOpts_ok ho
  obtain ⟨t1, t2, t3⟩ := tolerances_ok htol
  constructor
  · exact ⟨read_number hc k4 .start rfl i1, read_number hc k4 .stop rfl i2,
      by have := read_whole hc k4 .num_angles rfl
         rw [i3] at this; exact this,
      read_number hc k4 .γ rfl i4, read_number hc k4 .v_rin_on_c_s rfl i5,
      read_number hc k4 .v_a_on_c_s rfl i6, read_number hc k4 .c_s_on_v_k rfl i7,
      read_number hc k4 .η_O rfl i8, read_number hc k4 .η_A rfl i9,
      read_number hc k4 .η_H rfl i10, read_truth hc k4 .use_E_r rfl i11⟩
  · exact ⟨read_number hc k4 .taylor_stop_angle rfl o1, read_truth hc k4 .η_derivs rfl o2,
      read_truth hc k4 .use_taylor_jump rfl o3,
      read_optNumber hc k4 .jump_before_sonic rfl o4,
      read_optNumber hc k4 .v_θ_sonic_crit rfl o5,
      read_optNumber hc k4 .after_sonic rfl o6,
      read_optNumber hc k4 .sonic_interp_size rfl o7, read_truth hc k4 .use_E_r rfl o8,
      read_number hc k4 .relative_tolerance rfl t1,
      read_number hc k4 .absolute_tolerance rfl t2,
      by have := read_whole hc k4 .max_steps rfl
         rw [t3] at this; exact this,
      fun h => read_slice hc k4 (o9 h)⟩

/-- C102. The default method of `ds-soln`, from the text of a configuration file to the
file it writes: on return the exit status is zero, one new file was written whose name is
printed, and it holds a run with one solution, which is the final one.  The run records
the options asked for.  The solution is the one the integrator found, to the tolerances
asked for, for the numbers asked for. -/
theorem soln_end_to_end (e : Env ℝ) (I : Tolerances → Integrator) (str : ℝ → String)
    (interp : List ℝ → List ℝ → Option (ℝ → ℝ))
    (others : Bool → String → Runners.Solver ℝ Made) (read : String → Option Text)
    (config_file : String) (given : List Occ) (fs : FS ℝ Made) (d : Doc) (hd : d.Good)
    (hread : read config_file = some d.text) (ht : CliSolve.Typed given)
    (ha : Cli.accepted soln_options given = true) (hk : KnownFields given)
    (hm : (textGiven given "--sonic-method").getD "single" = "single") (n : ℕ)
    (hn : (ds_soln e (methods I str interp others) read config_file given fs).status = .ok n) :
    ∃ p r m inp o t,
      n = 0 ∧
      (ds_soln e (methods I str interp others) read config_file given fs).printed = [p] ∧
      fs.get? p = none ∧
      (∀ q, q ≠ p →
        (ds_soln e (methods I str interp others) read config_file given fs).fs.get? q =
          fs.get? q) ∧
      (ds_soln e (methods I str interp others) read config_file given fs).fs.get? p =
        some (.run r) ∧
      r.solutions = [("0", m)] ∧ r.final = .value (some m) ∧
      r.info.config_filename = some config_file ∧ r.info.sonic_method = "single" ∧
      (∀ f : CField, ∃ v, Asked d given f.name v ∧
        r.info.config_input f = some (kept f.name v)) ∧
      States e.conv d given inp ∧ Options e.conv d given o t ∧
      define_conditions inp = some m.initial_conditions ∧
      (solution (I t) str interp o m.initial_conditions
        { store_internal := !isGiven given "--no-store-internal" }).result = .ok m.out := by
  obtain ⟨ov, h1, h2⟩ := soln_effective e (methods I str interp others) read config_file
    given fs ht ha hk
  rw [h2] at hn ⊢
  rw [hm] at hn ⊢
  rcases hs : solve e (methods I str interp others (!isGiven given "--no-store-internal"))
    ⟨textGiven given "--output-file", "single",
      config_file, (textGiven given "--output-dir").getD ".", some ov⟩
    (read config_file) fs with ⟨x | ⟨p, b⟩, fs'⟩
  · rw [hs] at hn
    cases hn
  · rw [hs] at hn
    obtain ⟨k1, k2, c, s, r, r', k3, k4, -, k5, k6, -, -, -, k7⟩ :=
      solve_ok _ _ _ _ _ _ _ _ hs
    dsimp only at k3 k5
    rw [hread, asked_config hd hk h1] at k3
    obtain ⟨-, hc⟩ := k3
    unfold methods at k5
    rw [if_pos rfl, single_solver_eq] at k5
    cases hm' : single_solution I str interp (!isGiven given "--no-store-internal") s with
    | error x => rw [hm'] at k5; simp at k5
    | ok m =>
      rw [hm'] at k5
      simp only [Prod.mk.injEq, Except.ok.injEq] at k5
      obtain ⟨rfl, rfl⟩ := k5
      rw [finalise_set _ _ rfl] at k7
      injection k7 with k7
      subst k7
      obtain ⟨-, inp, t, o, hi, htol, ho, hdc, hsol⟩ := single_solution_ok hm'
      obtain ⟨hS, hO⟩ := states_options hc k4 hi htol ho
      refine ⟨p, _, m, inp, o, t, ?_, rfl, k1, k2, k6, rfl, rfl, rfl, rfl, hc, hS, hO, hdc,
        hsol⟩
      injection hn with hn
      exact hn.symm

/-! ## The first row -/

/-- The first row of every solution which starts from the midplane is the state there. -/
theorem solution_first_row (I : Integrator) (str : ℝ → String)
    (interp : List ℝ → List ℝ → Option (ℝ → ℝ)) (o : SolveOpts) (c : Conditions)
    (a : SolveArgs) (hI : StartsAtInit I) (hw : a.with_taylor = true) {out : SolutionOut}
    (h : (solution I str interp o c a).result = .ok out) :
    out.solution.head? = some c.init_con := by
  obtain ⟨ts, angles, init, r₁, hts, hr₁, -, -, -, -, rest, -, -, -, hs, -⟩ :=
    solution_ok I str interp o c a h
  rw [hs]
  cases hj : o.use_taylor_jump with
  | true =>
    rw [taylor_start_jump I str o c a hw hj] at hts
    injection hts with hts
    injection hts with hts' hts
    rw [← hts']
    rfl
  | false =>
    obtain ⟨-, hlen, -, -, -, -, -, -, hang, -⟩ := main_plan_ok hr₁
    unfold taylor_start at hts
    rw [if_pos hw, hj] at hts
    simp only [Bool.false_eq_true, if_false] at hts
    obtain ⟨t, h1, h2, -⟩ := Logged.bind_ok hts
    injection h2 with h2
    injection h2 with h2' h2
    injection h2 with h2 h3
    rw [← h2']
    simp only [Option.map_some, Option.getD_some]
    unfold taylor_solution at h1
    dsimp only at h1
    have hne : c.angles ≠ [] := by
      intro h0
      have : t.new_angles = [] := by
        revert h1
        split
        · split
          · intro h1
            injection h1 with h1
            rw [← h1, h0]
            rfl
          · intro h1; cases h1
        · intro h1; cases h1
      simp only [firstLeg] at hlen hang
      rw [← h2, this] at hlen
      simp at hlen
    obtain ⟨θ, hθ⟩ : ∃ θ, c.angles.head? = some θ := by
      cases hc : c.angles with
      | nil => exact absurd hc hne
      | cons x l => exact ⟨x, rfl⟩
    have hhead := (hI { args := { solveOdeArgs o c a with with_taylor := true }
                        store_internal := a.store_internal
                        tstop := some (rad_to_scaled (radians o.taylor_stop_angle) a.θ_scale)
                        angles := c.angles, init := c.init_con } θ hθ).2
    revert h1
    split
    · split
      · intro h1
        injection h1 with h1
        rw [← h1]
        dsimp only
        rw [List.head?_append]
        simp only [solveOdeArgs] at hhead ⊢
        rw [hhead]
        rfl
      · intro h1; cases h1
    · intro h1; cases h1

/-- C102. What the first row of the stored solution is, in the numbers of the file: the
midplane, with the inflow and the diffusivities asked for, and rotating at the largest
speed at which the equations can hold there. -/
theorem soln_first_row (e : Env ℝ) (I : Tolerances → Integrator)
    (hI : ∀ t, StartsAtInit (I t)) (str : ℝ → String)
    (interp : List ℝ → List ℝ → Option (ℝ → ℝ))
    (others : Bool → String → Runners.Solver ℝ Made) (read : String → Option Text)
    (config_file : String) (given : List Occ) (fs : FS ℝ Made) (d : Doc) (hd : d.Good)
    (hread : read config_file = some d.text) (ht : CliSolve.Typed given)
    (ha : Cli.accepted soln_options given = true) (hk : KnownFields given)
    (hm : (textGiven given "--sonic-method").getD "single" = "single") (n : ℕ)
    (hn : (ds_soln e (methods I str interp others) read config_file given fs).status = .ok n) :
    ∃ p r m inp row,
      (ds_soln e (methods I str interp others) read config_file given fs).printed = [p] ∧
      (ds_soln e (methods I str interp others) read config_file given fs).fs.get? p =
        some (.run r) ∧
      r.solutions = [("0", m)] ∧ States e.conv d given inp ∧
      m.out.solution.head? = some row ∧
      row.v_r = -inp.v_rin_on_c_s ∧ row.v_θ = 0 ∧ row.ρ = 1 ∧ row.B_θ = 1 ∧ row.B_r = 0 ∧
      row.B_φ = 0 ∧ row.η_O = inp.η_O ∧ row.η_A = inp.η_A ∧ row.η_H = inp.η_H ∧
      (inp.v_a_on_c_s ≠ 0 → inp.η_O + inp.η_A ≠ 0 →
        MidplaneRotation inp row.v_φ ∧ ∀ v, MidplaneRotation inp v → v ≤ row.v_φ) := by
  obtain ⟨p, r, m, inp, o, t, -, h1, -, -, h2, h3, -, -, -, -, h4, -, h5, h6⟩ :=
    soln_end_to_end e I str interp others read config_file given fs d hd hread ht ha hk hm n hn
  obtain ⟨d1, d2, d3, d4, d5, d6, d7, d8, d9, -⟩ := define_conditions_shape inp _ h5
  exact ⟨p, r, m, inp, m.initial_conditions.init_con, h1, h2, h3, h4,
    solution_first_row _ _ _ _ _ _ (hI t) rfl h6, d6, d1, d2, d3, d4, d5, d7, d8, d9,
    fun hv hη => define_conditions_fastest inp _ h5 hv hη⟩

/-! ## When there is a solution -/

section Asks

variable {C : Conv ℝ} {d : Doc} {given : List Occ} {c : ConfigInput} {s : SolutionInput ℝ}

theorem kept_eq (f : SField) (v : Text) (hf : (CField.s f).hasConverter = false) :
    kept (CField.s f).name v = v := by
  unfold kept
  rw [if_neg]
  rintro ⟨h, -⟩
  rw [← converter_eq, hf] at h
  cases h

theorem number_read (hd : d.Good)
    (hc : ∀ f : CField, ∃ v, Asked d given f.name v ∧ c f = some (kept f.name v))
    (hs : c.to_soln_input C = .ok s) (f : SField) (hf : f.kind = .float) {x : ℝ}
    (hx : Number C d given f.name x) : s f = .float x := by
  obtain ⟨v, hv, hcv⟩ := hc (.s f)
  obtain ⟨w, hw, hx⟩ := hx
  obtain rfl := asked_unique hd given (.s f) hv hw
  have := (to_soln_input_ok C c s).1 hs f
  rw [hf, hcv, kept_eq f v (by cases f <;> simp_all [SField.kind, CField.hasConverter])] at this
  simp only [readField, readFloat, hx, Except.ok.injEq] at this
  exact this.symm

theorem truth_read (hd : d.Good)
    (hc : ∀ f : CField, ∃ v, Asked d given f.name v ∧ c f = some (kept f.name v))
    (hs : c.to_soln_input C = .ok s) (f : SField) (hf : f.kind = .bool) {x : Bool}
    (hx : Truth C d given f.name x) : s f = .bool x := by
  obtain ⟨v, hv, hcv⟩ := hc (.s f)
  obtain ⟨w, hw, hx⟩ := hx
  obtain rfl := asked_unique hd given (.s f) hv hw
  have := (to_soln_input_ok C c s).1 hs f
  rw [hf, hcv, kept_eq f v (by cases f <;> simp_all [SField.kind, CField.hasConverter])] at this
  simp only [readField, hx, Except.ok.injEq] at this
  exact this.symm

theorem whole_read (hd : d.Good)
    (hc : ∀ f : CField, ∃ v, Asked d given f.name v ∧ c f = some (kept f.name v))
    (hs : c.to_soln_input C = .ok s) (f : SField) (hf : f.kind = .int) {n : Option Int}
    (hx : Whole C d given f.name n) :
    s f = (match n with | some n => .int n | none => .none) := by
  obtain ⟨v, hv, hcv⟩ := hc (.s f)
  obtain ⟨w, hw, hx⟩ := hx
  obtain rfl := asked_unique hd given (.s f) hv hw
  have := (to_soln_input_ok C c s).1 hs f
  rw [hf, hcv, kept_eq f v (by cases f <;> simp_all [SField.kind, CField.hasConverter])] at this
  simp only [readField, readInt, hx, Except.ok.injEq] at this
  rw [← this]
  cases n <;> rfl

theorem optNumber_read (hd : d.Good)
    (hc : ∀ f : CField, ∃ v, Asked d given f.name v ∧ c f = some (kept f.name v))
    (hs : c.to_soln_input C = .ok s) (f : SField) (hf : f.kind = .optFloat) {x : Option ℝ}
    (hx : OptNumber C d given f.name x) : optReal (s f) = .ok x := by
  obtain ⟨v, hv, hcv⟩ := hc (.s f)
  obtain ⟨w, hw, hx⟩ := hx
  obtain rfl := asked_unique hd given (.s f) hv hw
  have := (to_soln_input_ok C c s).1 hs f
  rw [hf, hcv] at this
  have hm : (CField.s f).name ∈ mayBeEmpty := by
    rw [← converter_eq]
    cases f <;> simp_all [SField.kind, CField.hasConverter]
  simp only [readField] at this
  rcases hx with ⟨h0, rfl⟩ | ⟨h0, h0', y, rfl, hy⟩
  · have hk : kept (CField.s f).name v = Text.none := by
      unfold kept
      rcases h0 with h0 | h0
      · rw [if_pos ⟨hm, h0⟩]; rfl
      · rw [if_neg (fun h => by rw [h.2] at h0; cases h0), h0]; rfl
    rw [hk, if_pos (Or.inl rfl)] at this
    injection this with this
    rw [← this]
    rfl
  · have hk : kept (CField.s f).name v = v := if_neg (fun h => h0 h.2)
    rw [hk, if_neg (by
      rintro (h | h)
      · injection h with h; exact h0' h
      · cases h)] at this
    simp only [readFloat, hy, Except.ok.injEq] at this
    rw [← this]
    rfl

theorem slice_read (hd : d.Good)
    (hc : ∀ f : CField, ∃ v, Asked d given f.name v ∧ c f = some (kept f.name v))
    (hs : c.to_soln_input C = .ok s) {x : PySlice}
    (hx : ∃ v, Asked d given "interp_slice" v ∧
      str_to_slice C.eval_slice (some (kept "interp_slice" v)) = .ok (some x)) :
    s .interp_slice = .slice x := by
  obtain ⟨v, hv, hcv⟩ := hc (.s .interp_slice)
  obtain ⟨w, hw, hx⟩ := hx
  obtain rfl := asked_unique hd given (.s .interp_slice) hv hw
  have := (to_soln_input_ok C c s).1 hs .interp_slice
  have hname : (CField.s .interp_slice).name = "interp_slice" := rfl
  rw [hcv, hname] at this
  simp only [readField, SField.kind, hx, Except.ok.injEq] at this
  exact this.symm

end Asks

/-- What the solver reads is what is asked for. -/
theorem states_read {C : Conv ℝ} {d : Doc} {given : List Occ} {c : ConfigInput}
    {s : SolutionInput ℝ} (hd : d.Good)
    (hcfg : ∀ f : CField, ∃ v, Asked d given f.name v ∧ c f = some (kept f.name v))
    (hsoln : c.to_soln_input C = .ok s) {inp : NumInput} {o : SolveOpts} {t : Tolerances}
    (hS : States C d given inp) (hO : Options C d given o t) :
    numInput s = .ok inp ∧ tolerances s = .ok t ∧ ∃ z,
      solveOpts s = .ok { o with interp_slice := z } ∧
      (o.sonic_interp_size ≠ none → z = o.interp_slice) := by
  have hnum : numInput s = .ok inp := by
    unfold numInput
    rw [number_read hd hcfg hsoln .v_rin_on_c_s rfl hS.v_rin_on_c_s,
      number_read hd hcfg hsoln .v_a_on_c_s rfl hS.v_a_on_c_s,
      number_read hd hcfg hsoln .c_s_on_v_k rfl hS.c_s_on_v_k,
      number_read hd hcfg hsoln .γ rfl hS.γ, number_read hd hcfg hsoln .η_O rfl hS.η_O,
      number_read hd hcfg hsoln .η_A rfl hS.η_A, number_read hd hcfg hsoln .η_H rfl hS.η_H,
      truth_read hd hcfg hsoln .use_E_r rfl hS.use_E_r,
      number_read hd hcfg hsoln .start rfl hS.start,
      number_read hd hcfg hsoln .stop rfl hS.stop,
      whole_read hd hcfg hsoln .num_angles rfl hS.num_angles]
    have : count (.int (inp.num_angles : ℤ)) = .ok inp.num_angles := by
      rw [count_ok]
    simp only [real, SingleRun.bool, this]
    rfl
  have htol : tolerances s = .ok t := by
    unfold tolerances
    rw [number_read hd hcfg hsoln .absolute_tolerance rfl hO.absolute,
      number_read hd hcfg hsoln .relative_tolerance rfl hO.relative,
      whole_read hd hcfg hsoln .max_steps rfl hO.max_steps]
    rcases t with ⟨_, _, _ | _⟩ <;> rfl
  obtain ⟨z, hz, hz'⟩ : ∃ z, interpSlice o.sonic_interp_size (s .interp_slice) = .ok z ∧
      (o.sonic_interp_size ≠ none → z = o.interp_slice) := by
    by_cases h0 : o.sonic_interp_size = none
    · rw [h0]
      cases s .interp_slice <;> exact ⟨_, rfl, fun h => absurd rfl h⟩
    · rw [slice_read hd hcfg hsoln (hO.interp_slice h0)]
      exact ⟨_, rfl, fun _ => rfl⟩
  have hopt : solveOpts s = .ok { o with interp_slice := z } := by
    unfold solveOpts
    rw [truth_read hd hcfg hsoln .η_derivs rfl hO.η_derivs,
      truth_read hd hcfg hsoln .use_taylor_jump rfl hO.use_taylor_jump,
      optNumber_read hd hcfg hsoln .jump_before_sonic rfl hO.jump_before_sonic,
      optNumber_read hd hcfg hsoln .v_θ_sonic_crit rfl hO.v_θ_sonic_crit,
      optNumber_read hd hcfg hsoln .after_sonic rfl hO.after_sonic,
      optNumber_read hd hcfg hsoln .sonic_interp_size rfl hO.sonic_interp_size,
      truth_read hd hcfg hsoln .use_E_r rfl hO.use_E_r,
      number_read hd hcfg hsoln .taylor_stop_angle rfl hO.taylor_stop_angle]
    simp only [Bind.bind, Except.bind, SingleRun.bool, real, hz, pure, Except.pure]
  exact ⟨hnum, htol, z, hopt, hz'⟩

/-- The slice plays no part where nothing is interpolated. -/
theorem solution_slice (I : Integrator) (str : ℝ → String)
    (interp : List ℝ → List ℝ → Option (ℝ → ℝ)) (o : SolveOpts) (c : Conditions)
    (a : SolveArgs) (z : PySlice) (h : o.sonic_interp_size = none) :
    solution I str interp { o with interp_slice := z } c a = solution I str interp o c a := by
  unfold solution
  simp only [h]
  rfl

/-- What `ds-soln` hands to the solver: the numbers asked for; and what it returns is what
the solver did. -/
theorem soln_runs (e : Env ℝ) (M : Bool → String → Runners.Solver ℝ Made)
    (read : String → Option Text)
    (config_file : String) (given : List Occ) (fs : FS ℝ Made) (d : Doc) (hd : d.Good)
    (hread : read config_file = some d.text) (ht : CliSolve.Typed given)
    (ha : Cli.accepted soln_options given = true) (hk : KnownFields given)
    (hall : ∀ f : CField, ∃ v, InFile d f.name v)
    (hreads : ∀ (f : SField) v, Asked d given f.name v →
      ∃ x, readField e.conv f.kind (some (kept f.name v)) = .ok x)
    (name : String)
    (hname : textGiven given "--output-file" = some name ∨
      textGiven given "--output-file" = none ∧
        ∃ v, Asked d given "label" v ∧ name = String.ofList v ++ (e.now ++ ".hdf5"))
    (hfree : fs.get? (e.path ((textGiven given "--output-dir").getD ".") name) = none)
    (hw : e.writable (e.path ((textGiven given "--output-dir").getD ".") name) = true)
    (inp : NumInput) (o : SolveOpts) (t : Tolerances)
    (hS : States e.conv d given inp) (hO : Options e.conv d given o t) :
    ∃ (s : SolutionInput ℝ) (z : PySlice) (run : RunInfo ℝ),
      numInput s = .ok inp ∧ tolerances s = .ok t ∧
      solveOpts s = .ok { o with interp_slice := z } ∧
      (o.sonic_interp_size ≠ none → z = o.interp_slice) ∧
      (∀ (f : SField) v, Asked d given f.name v →
        readField e.conv f.kind (some (kept f.name v)) = .ok (s f)) ∧
      (∀ b r r', M (!isGiven given "--no-store-internal")
          ((textGiven given "--sonic-method").getD "single") s { info := run } = (.ok b, r) →
        r.finalise = .ok r' →
        (ds_soln e M read config_file given fs).status = .ok (if b then 0 else 1) ∧
        (ds_soln e M read config_file given fs).printed =
          [e.path ((textGiven given "--output-dir").getD ".") name]) ∧
      ∀ x r, M (!isGiven given "--no-store-internal")
          ((textGiven given "--sonic-method").getD "single") s { info := run } = (.error x, r) →
        (ds_soln e M read config_file given fs).status = .error x ∧
        (ds_soln e M read config_file given fs).fs.get?
          (e.path ((textGiven given "--output-dir").getD ".") name) = some (.run r) := by
  obtain ⟨ov, h1, h2⟩ := soln_effective e M read config_file given fs ht ha hk
  have hasked : ∀ f : CField, ∃ v, Asked d given f.name v := by
    intro f
    unfold Asked
    cases overrideGiven given f.name with
    | some w => exact ⟨_, rfl⟩
    | none => exact hall f
  choose v hv using hasked
  have hcfg : ∀ f : CField, ∃ w, Asked d given f.name w ∧
      (fun f : CField => some (kept f.name (v f))) f = some (kept f.name w) :=
    fun f => ⟨v f, hv f, rfl⟩
  have hconf := (asked_config hd hk h1 (fun f => some (kept f.name (v f)))).2 ⟨hall, hcfg⟩
  choose s hs using fun f : SField => hreads f (v (.s f)) (hv (.s f))
  have hsoln : ConfigInput.to_soln_input e.conv (fun f => some (kept f.name (v f))) = .ok s :=
    (to_soln_input_ok _ _ _).2 hs
  obtain ⟨hnum, htol, z, hopt, hz'⟩ := states_read hd hcfg hsoln hS hO
  obtain ⟨g1, g2⟩ := solve_known_method e (M (!isGiven given "--no-store-internal"))
    ⟨textGiven given "--output-file", (textGiven given "--sonic-method").getD "single",
      config_file, (textGiven given "--output-dir").getD ".", some ov⟩
    (read config_file) fs (method_given soln_solver (by simp [IsMethod]) ha) _ s name
    (by rw [hread]; exact hconf) hsoln (by
      rcases hname with hname | ⟨hname, w, hw', rfl⟩
      · simp only [output_name, hname]
      · simp only [output_name, hname, default_name]
        have hl : kept (CField.label).name (v .label) = w := by
          rw [asked_unique hd given .label (hv .label) hw']
          unfold kept
          rw [if_neg]
          rintro ⟨h, -⟩
          revert h
          decide
        rw [hl]) hfree hw
  refine ⟨s, z, ⟨fun f => some (kept f.name (v f)), some config_file,
    (textGiven given "--sonic-method").getD "single", s .use_E_r⟩, hnum, htol, hopt, hz', ?_, ?_, ?_⟩
  · intro f w hw'
    rw [← asked_unique hd given (.s f) (hv (.s f)) hw']
    exact hs f
  · intro b r r' hr hfin
    have g := (g2 b r hr).2 _ hfin
    rw [h2]
    rcases hsv : solve e (M (!isGiven given "--no-store-internal"))
      ⟨textGiven given "--output-file", (textGiven given "--sonic-method").getD "single",
        config_file, (textGiven given "--output-dir").getD ".", some ov⟩
      (read config_file) fs with ⟨x, fs'⟩
    rw [hsv] at g
    have := g.1
    dsimp only at this
    subst this
    cases b <;> exact ⟨rfl, rfl⟩
  · intro x r hr
    have g := g1 x r hr
    rw [h2]
    rcases hsv : solve e (M (!isGiven given "--no-store-internal"))
      ⟨textGiven given "--output-file", (textGiven given "--sonic-method").getD "single",
        config_file, (textGiven given "--output-dir").getD ".", some ov⟩
      (read config_file) fs with ⟨y, fs'⟩
    rw [hsv] at g
    obtain ⟨g, g'⟩ := g
    dsimp only at g g'
    subst g
    exact ⟨rfl, g'⟩

/-- C102. If every option has a text which can be read, the name of the output is free,
the midplane can be set up and the integrator finds a solution, then `ds-soln` succeeds
and prints the name. -/
theorem soln_succeeds (e : Env ℝ) (I : Tolerances → Integrator) (str : ℝ → String)
    (interp : List ℝ → List ℝ → Option (ℝ → ℝ))
    (others : Bool → String → Runners.Solver ℝ Made) (read : String → Option Text)
    (config_file : String) (given : List Occ) (fs : FS ℝ Made) (d : Doc) (hd : d.Good)
    (hread : read config_file = some d.text) (ht : CliSolve.Typed given)
    (ha : Cli.accepted soln_options given = true) (hk : KnownFields given)
    (hm : (textGiven given "--sonic-method").getD "single" = "single")
    (hall : ∀ f : CField, ∃ v, InFile d f.name v)
    (hreads : ∀ (f : SField) v, Asked d given f.name v →
      ∃ x, readField e.conv f.kind (some (kept f.name v)) = .ok x)
    (name : String)
    (hname : textGiven given "--output-file" = some name ∨
      textGiven given "--output-file" = none ∧
        ∃ v, Asked d given "label" v ∧ name = String.ofList v ++ (e.now ++ ".hdf5"))
    (hfree : fs.get? (e.path ((textGiven given "--output-dir").getD ".") name) = none)
    (hw : e.writable (e.path ((textGiven given "--output-dir").getD ".") name) = true)
    (inp : NumInput) (o : SolveOpts) (t : Tolerances) (c : Conditions) (out : SolutionOut)
    (hS : States e.conv d given inp) (hO : Options e.conv d given o t)
    (hc : define_conditions inp = some c)
    (hout : (solution (I t) str interp o c
      { store_internal := !isGiven given "--no-store-internal" }).result = .ok out) :
    (ds_soln e (methods I str interp others) read config_file given fs).status = .ok 0 ∧
    (ds_soln e (methods I str interp others) read config_file given fs).printed =
      [e.path ((textGiven given "--output-dir").getD ".") name] := by
  obtain ⟨s, z, run, hnum, htol, hopt, hz', -, g, -⟩ := soln_runs e (methods I str interp others)
    read config_file given fs d hd hread ht ha hk hall hreads name hname hfree hw inp o t hS hO
  have hsol : single_solution I str interp (!isGiven given "--no-store-internal") s =
      .ok ⟨s, c, out⟩ := by
    have hres : (solution (I t) str interp { o with interp_slice := z } c
        { store_internal := !isGiven given "--no-store-internal" }).result = .ok out := by
      by_cases h0 : o.sonic_interp_size = none
      · rw [solution_slice _ _ _ _ _ _ _ h0]; exact hout
      · rw [hz' h0]; exact hout
    simp only [single_solution, conditions, hnum, htol, hopt, hc, Bind.bind, Except.bind, hres, pure,
      Except.pure]
  have := g true ⟨run, .value (some ⟨s, c, out⟩), [("0", ⟨s, c, out⟩)], false, none, none⟩ _ (by
    unfold methods
    rw [if_pos hm, single_solver_eq, hsol]) (finalise_set _ _ rfl)
  exact this

/-! ## A case -/

/-- `--override γ 0.001 --override num_angles 3`. -/
def witGiven : List Occ :=
  [("--override", .pairs [("γ", "0.001")]), ("--override", .pairs [("num_angles", "3")])]

/-- What is asked for with these and the file `witDoc`. -/
def witAsked : CField → Text
  | .s .γ => "0.001".toList
  | .s .num_angles => "3".toList
  | f => witValue f

theorem witDoc_inFile (f : CField) : InFile witDoc f.name (witValue f) := by
  have := witDoc_text f
  rw [fallback_eq] at this
  exact this

theorem wit_asked (f : CField) : Asked witDoc witGiven f.name (witAsked f) := by
  unfold Asked
  have : overrideGiven witGiven f.name =
      (match f with | .s .γ => some "0.001" | .s .num_angles => some "3" | _ => none) := by
    cases f with
    | label => decide
    | s f => cases f <;> decide
  rw [this]
  cases f with
  | label => exact witDoc_inFile .label
  | s f => cases f <;> first | rfl | exact witDoc_inFile _

/-- A few numbers. -/
noncomputable def witFloat (t : Option Text) : Option ℝ :=
  if t = some "0".toList then some 0
  else if t = some "90".toList then some 90
  else if t = some "0.001".toList then some (1/1000)
  else if t = some "0.0005".toList then some (1/2000)
  else if t = some "0.0001".toList then some (1/10000)
  else if t = some "0.03".toList then some (3/100)
  else if t = some "1".toList then some 1
  else if t = some "0.9".toList then some (9/10)
  else if t = some "1e-6".toList then some (1/10^6)
  else if t = some "1e-10".toList then some (1/10^10)
  else none

/-- Conversions which know these. -/
noncomputable def witConvR : Conv ℝ where
  str_to_float := witFloat
  str_to_int t := if t = some "3".toList then some 3 else if t = some "8".toList then some 8
    else if t = some "10000".toList then some 10000 else none
  str_to_bool t := if t = some "True".toList then .ok true else if t = some "False".toList then
    .ok false else .error .ValueError
  float_type x := match x with | some x => .ok x | none => .error .TypeError
  float_str _ := []
  eval_slice _ := .error .ValueError
  float_eq _ _ := false

/-- Nothing is there, and everything can be written. -/
noncomputable def witEnvR : Env ℝ where
  conv := witConvR
  now := "now"
  path dir name := dir ++ "/" ++ name
  writable _ := true

/-- An integrator which finds that nothing changes. -/
def witStay (_ : Tolerances) : Integrator := fun r =>
  { ending := .finished
    soln := { flag := .SUCCESS, t := r.angles, y := r.angles.map fun _ => r.init } }

theorem witStay_starts (t : Tolerances) : StartsAtInit (witStay t) := by
  intro r θ h
  refine ⟨h, ?_⟩
  show (r.angles.map fun _ => r.init).head? = _
  rw [List.head?_map, h]
  rfl

noncomputable def witInp : NumInput :=
  { start := 0, stop := 90, num_angles := 3, γ := 1/1000, v_rin_on_c_s := 1, v_a_on_c_s := 1,
    c_s_on_v_k := 3/100, η_O := 1/1000, η_A := 1/2000, η_H := 1/10000, use_E_r := false }

noncomputable def witOpts : SolveOpts := { taylor_stop_angle := 1/1000 }

noncomputable def witTol : Tolerances := ⟨1/10^6, 1/10^10, some 10000⟩

theorem witInp_ok : ∃ c, define_conditions witInp = some c := by
  apply Option.isSome_iff_exists.1
  simp only [define_conditions, v_φ_boundary_func]
  rw [if_neg]
  · rfl
  · norm_num [v_φ_discriminant, witInp]

theorem witInp_angles {c : Conditions} (h : define_conditions witInp = some c) :
    c.angles = [0, Real.pi / 4, Real.pi / 2] := by
  simp only [define_conditions] at h
  split at h
  · cases h
  · injection h with h
    subst h
    simp only [witInp, linspace, radians, List.range, List.range.loop, List.map_cons,
      List.map_nil]
    norm_num
    constructor <;> ring

theorem wit_solution {c : Conditions} (h : define_conditions witInp = some c) (b : Bool) :
    ∃ out, (solution (witStay witTol) (fun _ => "") (fun _ _ => none) witOpts c
      { store_internal := b }).result = .ok out := by
  have hpi := Real.pi_pos
  have hang : (taylor_new_angles c.angles (radians witOpts.taylor_stop_angle / 1)) =
      [Real.pi / 4, Real.pi / 2] := by
    rw [witInp_angles h, taylor_new_angles]
    have h0 : ¬ radians witOpts.taylor_stop_angle / 1 < 0 := by
      have : 0 ≤ radians witOpts.taylor_stop_angle / 1 := by
        simp only [radians, witOpts]; positivity
      exact not_lt.2 this
    have h1 : radians witOpts.taylor_stop_angle / 1 < Real.pi / 4 := by
      simp only [radians, witOpts]; linarith
    have h2 : radians witOpts.taylor_stop_angle / 1 < Real.pi / 2 := by
      simp only [radians, witOpts]; linarith
    rw [div_one] at h0 h1 h2
    simp [h0, h1, h2]
  unfold solution
  simp only [taylor_start_jump _ _ witOpts c { store_internal := b } rfl rfl, Logged.ok_bind,
    hang]
  exact ⟨_, rfl⟩

theorem wit_number (f : SField) {x : ℝ} (h : witFloat (some (witAsked (.s f))) = some x) :
    Number witConvR witDoc witGiven f.name x :=
  ⟨_, wit_asked (.s f), by simp only [witConvR, h]⟩

theorem wit_truth (f : SField) {b : Bool}
    (h : witConvR.str_to_bool (some (witAsked (.s f))) = .ok b) :
    Truth witConvR witDoc witGiven f.name b :=
  ⟨_, wit_asked (.s f), h⟩

theorem wit_whole (f : SField) {n : Option Int}
    (h : witConvR.str_to_int (some (witAsked (.s f))) = n) :
    Whole witConvR witDoc witGiven f.name n :=
  ⟨_, wit_asked (.s f), h⟩

theorem wit_left (f : SField) (h : witAsked (.s f) = "None".toList) :
    OptNumber witConvR witDoc witGiven f.name none :=
  ⟨_, wit_asked (.s f), Or.inl ⟨Or.inr h, rfl⟩⟩

theorem wit_states : States witConvR witDoc witGiven witInp where
  start := wit_number .start rfl
  stop := wit_number .stop rfl
  num_angles := wit_whole .num_angles rfl
  γ := wit_number .γ rfl
  v_rin_on_c_s := wit_number .v_rin_on_c_s rfl
  v_a_on_c_s := wit_number .v_a_on_c_s rfl
  c_s_on_v_k := wit_number .c_s_on_v_k rfl
  η_O := wit_number .η_O rfl
  η_A := wit_number .η_A rfl
  η_H := wit_number .η_H rfl
  use_E_r := wit_truth .use_E_r rfl

theorem wit_options : Options witConvR witDoc witGiven witOpts witTol where
  taylor_stop_angle := wit_number .taylor_stop_angle rfl
  η_derivs := wit_truth .η_derivs rfl
  use_taylor_jump := wit_truth .use_taylor_jump rfl
  jump_before_sonic := wit_left .jump_before_sonic rfl
  v_θ_sonic_crit := wit_left .v_θ_sonic_crit rfl
  after_sonic := wit_left .after_sonic rfl
  sonic_interp_size := wit_left .sonic_interp_size rfl
  use_E_r := wit_truth .use_E_r rfl
  relative := wit_number .relative_tolerance rfl
  absolute := wit_number .absolute_tolerance rfl
  max_steps := wit_whole .max_steps rfl
  interp_slice := fun h => absurd rfl h

theorem wit_reads (f : SField) (v : Text) (hv : Asked witDoc witGiven f.name v) :
    ∃ x, readField witConvR f.kind (some (kept f.name v)) = .ok x := by
  obtain rfl := asked_unique witDoc_good witGiven (.s f) hv (wit_asked (.s f))
  have hk : kept f.name (witAsked (.s f)) = witAsked (.s f) := by
    have : witAsked (.s f) ≠ [] := by cases f <;> decide
    exact if_neg fun h => this h.2
  rw [hk]
  cases f <;> exact ⟨_, by simp only [readField, SField.kind]; rfl⟩

theorem wit_typed : CliSolve.Typed witGiven := by
  constructor
  · intro name hn v hv
    simp only [witGiven, List.mem_cons, Prod.mk.injEq, List.not_mem_nil, or_false] at hv
    have : "--override" ∉ wordOptions := by decide
    rcases hv with ⟨rfl, -⟩ | ⟨rfl, -⟩ <;> exact absurd hn this
  · intro v hv
    simp only [witGiven, List.mem_cons, Prod.mk.injEq, List.not_mem_nil, or_false] at hv
    rcases hv with ⟨-, rfl⟩ | ⟨-, rfl⟩ <;> exact ⟨_, rfl⟩

theorem wit_known : KnownFields witGiven := by
  intro p hp
  simp only [witGiven, overridesGiven, List.flatMap_cons, List.flatMap_nil, if_true,
    List.append_nil, List.cons_append, List.nil_append, List.mem_cons, List.not_mem_nil,
    or_false] at hp
  rcases hp with rfl | rfl
  · exact ⟨.s .γ, rfl⟩
  · exact ⟨.s .num_angles, rfl⟩

theorem wit_printed :
    (ds_soln witEnvR (methods witStay (fun _ => "") (fun _ _ => none)
      fun _ _ _ r => (.error .SolverError, r)) (fun _ => some witDoc.text) "a.cfg" witGiven
      ([] : FS ℝ Made)).status = .ok 0 ∧
    (ds_soln witEnvR (methods witStay (fun _ => "") (fun _ _ => none)
      fun _ _ _ r => (.error .SolverError, r)) (fun _ => some witDoc.text) "a.cfg" witGiven
      ([] : FS ℝ Made)).printed =
        [witEnvR.path ((textGiven witGiven "--output-dir").getD ".")
          (String.ofList (witAsked .label) ++ (witEnvR.now ++ ".hdf5"))] :=
  soln_succeeds witEnvR witStay (fun _ => "") (fun _ _ => none) _ (fun _ => some witDoc.text)
    "a.cfg" witGiven [] witDoc witDoc_good rfl wit_typed (by decide +kernel) wit_known
    (by decide +kernel) (fun f => ⟨_, witDoc_inFile f⟩) wit_reads _
    (Or.inr ⟨by decide +kernel, _, wit_asked .label, rfl⟩) rfl rfl witInp witOpts witTol
    witInp_ok.choose (wit_solution witInp_ok.choose_spec _).choose wit_states wit_options
    witInp_ok.choose_spec (wit_solution witInp_ok.choose_spec _).choose_spec

theorem wit_succeeds :
    (ds_soln witEnvR (methods witStay (fun _ => "") (fun _ _ => none)
      fun _ _ _ r => (.error .SolverError, r)) (fun _ => some witDoc.text) "a.cfg" witGiven
      ([] : FS ℝ Made)).status = .ok 0 :=
  wit_printed.1

example := soln_end_to_end _ _ _ _ _ _ _ _ _ witDoc witDoc_good rfl wit_typed
  (by decide +kernel) wit_known (by decide +kernel) 0 wit_succeeds

example := soln_first_row _ _ witStay_starts _ _ _ _ _ _ _ witDoc witDoc_good rfl wit_typed
  (by decide +kernel) wit_known (by decide +kernel) 0 wit_succeeds

end DiscSolver.EndToEnd
