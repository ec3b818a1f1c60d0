import Verif.Model.Solution

/-!
Helper lemmas about `solution`.
-/

namespace DiscSolver

namespace Logged

variable {α β : Type}

theorem bind_of_ok {x : Logged α} {a : α} (h : x.result = .ok a) (f : α → Logged β) :
    x.bind f = ⟨x.log ++ (f a).log, (f a).result⟩ := by
  simp only [bind, h]

theorem bind_of_error {x : Logged α} {e : PyErr} (h : x.result = .error e)
    (f : α → Logged β) : x.bind f = ⟨x.log, .error e⟩ := by
  simp only [bind, h]

theorem bind_ok {x : Logged α} {f : α → Logged β} {b : β}
    (h : (x.bind f).result = .ok b) :
    ∃ a, x.result = .ok a ∧ (f a).result = .ok b ∧
      (x.bind f).log = x.log ++ (f a).log := by
  cases hx : x.result with
  | error e => rw [bind_of_error hx] at h; cases h
  | ok a =>
    refine ⟨a, rfl, ?_, ?_⟩
    · rw [bind_of_ok hx] at h; exact h
    · rw [bind_of_ok hx]

theorem ok_bind (a : α) (f : α → Logged β) : (ok a).bind f = f a := by
  simp [bind, ok]

theorem raise_bind (e : PyErr) (f : α → Logged β) : (raise e).bind f = raise e := by
  simp [bind, raise]

end Logged

/-- The combinations `main_solution` refuses. -/
def MainConflict (store_internal : Bool) (m : MainArgs) : Prop :=
  (m.sonic_interp_size.isSome ∧ m.root_func.isSome) ∨
  (m.sonic_interp_size.isSome ∧ m.jump_before_sonic.isSome) ∨
  (m.sonic_interp_size.isSome ∧ store_internal = false) ∨
  (m.jump_before_sonic.isSome ∧ m.root_func.isSome) ∨
  (m.jump_before_sonic.isSome ∧ m.has_onroot)

theorem main_plan_conflict {P : OdeArgs} {st : Bool} {m : MainArgs}
    (h : MainConflict st m) : main_plan P st m = .error .SolverError := by
  unfold MainConflict at h
  unfold main_plan
  by_cases h1 : m.sonic_interp_size.isSome ∧ m.root_func.isSome
  · rw [if_pos h1]
  rw [if_neg h1]
  by_cases h2 : m.sonic_interp_size.isSome ∧ m.jump_before_sonic.isSome
  · rw [if_pos h2]
  rw [if_neg h2]
  by_cases h3 : m.sonic_interp_size.isSome ∧ ¬ st
  · rw [if_pos h3]
  rw [if_neg h3]
  by_cases h4 : m.jump_before_sonic.isSome ∧ m.root_func.isSome
  · rw [if_pos h4]
  rw [if_neg h4]
  by_cases h5 : m.jump_before_sonic.isSome ∧ m.has_onroot
  · rw [if_pos h5]
  exfalso
  simp only [Bool.not_eq_true] at h3
  tauto

/-- The root function of a leg. -/
noncomputable def legRoot (m : MainArgs) : Option RootFn :=
  match m.sonic_interp_size, m.jump_before_sonic with
  | some size, _ => some (velocity_stop (1 - size))
  | none, some jump => some (velocity_stop (1 - jump))
  | none, none => m.root_func

theorem main_plan_ok {P : OdeArgs} {st : Bool} {m : MainArgs} {r : Request}
    (h : main_plan P st m = .ok r) :
    ¬ MainConflict st m ∧ 2 ≤ m.angles.length ∧ r.rootfn = legRoot m ∧
    r.args = { P with with_taylor := false, deriv_v_θ_func := m.deriv_v_θ_func } ∧
    r.store_internal = st ∧ r.has_onroot = m.has_onroot ∧
    r.tstop = m.tstop.map (fun x => rad_to_scaled x P.θ_scale) ∧
    r.has_ontstop = m.has_ontstop ∧ r.angles = m.angles ∧ r.init = m.ode_init := by
  have hc : ¬ MainConflict st m := by
    intro hc
    rw [main_plan_conflict hc] at h
    cases h
  refine ⟨hc, ?_⟩
  unfold MainConflict at hc
  push Not at hc
  unfold main_plan at h
  have h1 : ¬ (m.sonic_interp_size.isSome ∧ m.root_func.isSome) := by tauto
  have h2 : ¬ (m.sonic_interp_size.isSome ∧ m.jump_before_sonic.isSome) := by tauto
  have h3 : ¬ (m.sonic_interp_size.isSome ∧ ¬ st) := by
    simp only [Bool.not_eq_true]; tauto
  have h4 : ¬ (m.jump_before_sonic.isSome ∧ m.root_func.isSome) := by tauto
  have h5 : ¬ (m.jump_before_sonic.isSome ∧ m.has_onroot) := by tauto
  rw [if_neg h1, if_neg h2, if_neg h3, if_neg h4, if_neg h5] at h
  clear h1 h2 h3 h4 h5 hc
  rcases m with ⟨angles, init, onroot, jump, tstop, onts, rf, rfa, dv, size⟩
  cases size with
  | some size =>
    simp only at h
    split at h
    · cases h
    · rename_i hlen
      cases h
      exact ⟨not_lt.1 hlen, rfl, rfl, rfl, rfl, rfl, rfl, rfl, rfl⟩
  | none =>
    cases jump with
    | some jump =>
      simp only at h
      split at h
      · cases h
      · rename_i hlen
        cases h
        exact ⟨not_lt.1 hlen, rfl, rfl, rfl, rfl, rfl, rfl, rfl, rfl⟩
    | none =>
      cases rf with
      | none =>
        simp only at h
        split at h
        · cases h
        · rename_i hlen
          cases h
          exact ⟨not_lt.1 hlen, rfl, rfl, rfl, rfl, rfl, rfl, rfl, rfl⟩
      | some f =>
        cases rfa with
        | none => cases h
        | some n =>
          simp only at h
          split at h
          · cases h
          · rename_i hlen
            cases h
            exact ⟨not_lt.1 hlen, rfl, rfl, rfl, rfl, rfl, rfl, rfl, rfl⟩

theorem main_solution_conflict {I : Integrator} {str : ℝ → String} {P : OdeArgs}
    {st : Bool} {m : MainArgs} (h : MainConflict st m) :
    main_solution I str P st m = .raise .SolverError := by
  simp only [main_solution, main_plan_conflict h]

/-- A leg that succeeds made exactly one integration. -/
theorem main_solution_ok {I : Integrator} {str : ℝ → String} {P : OdeArgs}
    {st : Bool} {m : MainArgs} {s : CvSoln} {d : Option InternalData}
    (h : (main_solution I str P st m).result = .ok (s, d)) :
    ∃ r, main_plan P st m = .ok r ∧ (main_solution I str P st m).log = [r] ∧
      s = (I r).soln ∧
      d = afterCalls r.args str (if st then some {} else none) (I r).calls ∧
      ¬ ((I r).ending = .failed ∧ s.flag = .TOO_CLOSE) := by
  unfold main_solution at h ⊢
  cases hp : main_plan P st m with
  | error e => rw [hp] at h; cases h
  | ok r =>
    rw [hp] at h
    simp only at h ⊢
    split at h
    · cases h
    · rename_i hf
      injection h with h
      injection h with h1 h2
      subst h1
      subst h2
      exact ⟨r, rfl, rfl, rfl, rfl, hf⟩

theorem interp_none {I : Integrator} {str : ℝ → String}
    {interp : List ℝ → List ℝ → Option (ℝ → ℝ)} {P : OdeArgs} {st : Bool}
    {base : CvSoln} {d : Option InternalData} {angles : List ℝ} {af : ℝ}
    {sl : PySlice}
    (h : (interp_cross_sonic I str interp P st base d angles af sl).result =
      .ok none) :
    (interp_cross_sonic I str interp P st base d angles af sl).log = [] := by
  unfold interp_cross_sonic at h ⊢
  split at h
  · cases h
  · split at h
    · split at h
      · rfl
      · split at h
        · obtain ⟨v, h1, h2, -⟩ := Logged.bind_ok h
          obtain ⟨s, i⟩ := v
          simp only at h2
          split at h2 <;> cases h2
        · cases h
    · cases h

theorem interp_some {I : Integrator} {str : ℝ → String}
    {interp : List ℝ → List ℝ → Option (ℝ → ℝ)} {P : OdeArgs} {st : Bool}
    {base : CvSoln} {d : Option InternalData} {angles : List ℝ} {af : ℝ}
    {sl : PySlice} {leg : InterpLeg}
    (h : (interp_cross_sonic I str interp P st base d angles af sl).result =
      .ok (some leg)) :
    ∃ r, (interp_cross_sonic I str interp P st base d angles af sl).log = [r] ∧
      r.rootfn = some (velocity_stop (1 + af)) ∧ r.args.deriv_v_θ_func ≠ none ∧
      leg.soln = (I r).soln ∧
      (∃ θ₀ y₀, base.t.getLast? = some θ₀ ∧ base.y.getLast? = some y₀ ∧
        r.init = y₀ ∧ r.angles = (open Classical in
          angles.filter (fun x => θ₀ ≤ x))) ∧
      ∃ θ₁ y₁, (I r).soln.t.getLast? = some θ₁ ∧
        (I r).soln.y.getLast? = some y₁ ∧
        leg.new_init = y₁ ∧ leg.new_angles = θ₁ :: (open Classical in
          angles.filter (fun x => θ₁ < x)) := by
  unfold interp_cross_sonic at h ⊢
  split at h
  · cases h
  · split at h
    · split at h
      · cases h
      · split at h
        · rename_i θ₀ y₀ ht₀ hy₀
          obtain ⟨v, h1, h2, h3⟩ := Logged.bind_ok h
          obtain ⟨s, i⟩ := v
          obtain ⟨r, hr, hlog, hs, -, -⟩ := main_solution_ok h1
          obtain ⟨-, -, hroot, hargs, -, -, -, -, hang, hini⟩ := main_plan_ok hr
          simp only at h2
          split at h2
          · rename_i θ₁ y₁ ht₁ hy₁
            injection h2 with h2
            injection h2 with h2
            refine ⟨r, ?_, hroot, ?_, ?_, ⟨θ₀, y₀, ht₀, hy₀, hini, hang⟩,
              θ₁, y₁, ?_, ?_, ?_, ?_⟩
            · refine h3.trans ?_
              rw [hlog]
              simp only [ht₁, hy₁, Logged.ok, List.append_nil]
            · rw [hargs]; simp
            · rw [← h2, hs]
            · rw [← hs]; exact ht₁
            · rw [← hs]; exact hy₁
            · rw [← h2]
            · rw [← h2]
          · cases h2
        · cases h
    · cases h

end DiscSolver
