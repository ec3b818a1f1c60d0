import Verif.Props.Solution

/-!
# C106: the internal data of a whole solution
-/

namespace DiscSolver

variable (I : Integrator) (str : ℝ → String)
  (interp : List ℝ → List ℝ → Option (ℝ → ℝ)) (o : SolveOpts) (c : Conditions)
  (a : SolveArgs)

/-- Specification: the rows one integration should leave, one for each call of the
right-hand side with non-negative density and velocity. -/
noncomputable def requestRows (r : Request) : List InternalRow :=
  (acceptedCalls (I r).calls).map fun c =>
    let v := rhsValues r.args (c.x * r.args.θ_scale) c.s
    ⟨v.derivs, c.s, c.x * r.args.θ_scale, v.v_r_normal, v.v_φ_normal, v.ρ_normal,
      v.v_r_taylor, v.v_φ_taylor, v.ρ_taylor⟩

/-- Specification: the messages one integration should leave at an angle. -/
noncomputable def requestProblems (k : ProblemKey ℝ) (r : Request) : List String :=
  open Classical in
    ((I r).calls.filter (fun c => str (c.x * r.args.θ_scale) = k.str str)).filterMap
      rejection

/-- Specification: the record of the integrations `rs`, in order. -/
structure Records (rs : List Request) (d : InternalData) : Prop where
  rows : Holds d (rs.flatMap (requestRows I))
  keys : d.problems.keys.Nodup
  problems : ∀ k : ProblemKey ℝ,
    messages str d.problems k = rs.flatMap (requestProblems I str k)

/-- Specification: nothing when internal data is not stored, otherwise the record
of the integrations `rs`. -/
def Recorded (st : Bool) (rs : List Request) (d : Option InternalData) : Prop :=
  (st = false → d = none) ∧ (st = true → ∃ x, d = some x ∧ Records I str rs x)

theorem append_nodup (p : Problems) (k : ProblemKey ℝ) (m : String)
    (h : p.keys.Nodup) : (Problems.append str p k m).keys.Nodup :=
  Dict.nodup_set _ _ _ h

theorem afterCalls_nodup (P : OdeArgs) (calls : List Call) (d : InternalData)
    (h : d.problems.keys.Nodup) (x : InternalData)
    (hx : afterCalls P str (some d) calls = some x) : x.problems.keys.Nodup := by
  induction calls generalizing d with
  | nil => cases hx; exact h
  | cons c calls ih =>
    have hstep : afterCalls P str (some d) (c :: calls) =
      afterCalls P str (rhs_call P str (some d) c.x c.s c.buf).internal calls := rfl
    rw [hstep] at hx
    unfold rhs_call at hx
    dsimp only at hx
    split_ifs at hx
    · exact ih _ (append_nodup str _ _ _ h) hx
    · exact ih _ (append_nodup str _ _ _ h) hx
    · refine ih _ ?_ hx
      exact h

theorem update_nodup (q p : Problems) (h : p.keys.Nodup) :
    (Problems.update p q).keys.Nodup := by
  induction q generalizing p with
  | nil => exact h
  | cons e q ih => exact ih _ (Dict.nodup_set _ _ _ h)

theorem recorded_one (r : Request) (st : Bool) :
    Recorded I str st [r]
      (afterCalls r.args str (if st then some {} else none) (I r).calls) := by
  cases st with
  | false => exact ⟨fun _ => nothing_stored _ _ _, fun h => by cases h⟩
  | true =>
    refine ⟨fun h => by (cases h), fun _ => ?_⟩
    obtain ⟨d, h, hd⟩ := recorded_aligned r.args str (I r).calls
    refine ⟨d, h, ?_, ?_, fun k => ?_⟩
    · simpa [requestRows] using hd
    · exact afterCalls_nodup str r.args _ {} List.nodup_nil d h
    · obtain ⟨d', h', hd'⟩ := problems_recorded r.args str (I r).calls {} k
      rw [h] at h'
      injection h' with h'
      subst h'
      rw [hd']
      simp [messages, Dict.get?, requestProblems]

theorem records_add {rs qs : List Request} {x y : InternalData}
    (hx : Records I str rs x) (hy : Records I str qs y) :
    Records I str (rs ++ qs) (x.add y) := by
  obtain ⟨h1, h2⟩ := join_aligned str x y _ _ hx.rows hy.rows
  refine ⟨by rw [List.flatMap_append]; exact h1, ?_, fun k => ?_⟩
  · exact update_nodup _ _ (update_nodup _ _ List.nodup_nil)
  · rw [h2 hx.keys hy.keys k, hx.problems, hy.problems, List.flatMap_append]

theorem recorded_join {st : Bool} {rs qs : List Request} {x y : Option InternalData}
    (hx : Recorded I str st rs x) (hy : Recorded I str st qs y) :
    Recorded I str st (rs ++ qs) (joinInternal st x y) := by
  cases st with
  | false => exact ⟨fun _ => hx.1 rfl, fun h => by cases h⟩
  | true =>
    refine ⟨fun h => by (cases h), fun _ => ?_⟩
    obtain ⟨x', rfl, hx'⟩ := hx.2 rfl
    obtain ⟨y', rfl, hy'⟩ := hy.2 rfl
    exact ⟨_, rfl, records_add I str hx' hy'⟩

theorem interp_internal {P : OdeArgs} {st : Bool}
    {base : CvSoln} {d : Option InternalData} {angles : List ℝ} {af : ℝ}
    {sl : PySlice} {leg : InterpLeg}
    (h : (interp_cross_sonic I str interp P st base d angles af sl).result =
      .ok (some leg)) :
    Recorded I str st (interp_cross_sonic I str interp P st base d angles af sl).log
      leg.internal := by
  unfold interp_cross_sonic at h ⊢
  split at h
  · cases h
  · split at h
    · split at h
      · cases h
      · split at h
        · rename_i θ₀ y₀ ht₀ hy₀
          obtain ⟨v, h1, h2, h3⟩ := Logged.bind_ok h
          obtain ⟨s, i⟩ := v
          obtain ⟨r', -, hlog, -, hi, -⟩ := main_solution_ok h1
          simp only at h2
          split at h2
          · rename_i θ₁ y₁ ht₁ hy₁
            injection h2 with h2
            injection h2 with h2
            rw [hlog] at h3
            simp only [ht₁, hy₁, Logged.ok, List.append_nil] at h3
            rw [← h2]
            dsimp only
            rw [hi]
            refine Eq.subst (motive := fun l => Recorded I str st l _) h3.symm ?_
            exact recorded_one I str r' st
          · cases h2
        · cases h
    · cases h

theorem taylor_internal {ts : Option TaylorSolution} {angles : List ℝ} {init : St}
    (h : (taylor_start I str o c a (solveOdeArgs o c a)).result =
      .ok (ts, angles, init)) :
    ((taylor_start I str o c a (solveOdeArgs o c a)).log = [] ∧
      ts.bind (·.internal_data) = none) ∨
    Recorded I str a.store_internal
      (taylor_start I str o c a (solveOdeArgs o c a)).log
      (ts.bind (·.internal_data)) := by
  unfold taylor_start at h ⊢
  split_ifs at h ⊢ with h1 h2
  · injection h with h
    injection h with h h'
    subst h
    exact .inl ⟨rfl, rfl⟩
  · right
    obtain ⟨t, ht, h, hlog⟩ := Logged.bind_ok h
    injection h with h
    injection h with h h'
    subst h
    rw [hlog]
    have hi : t.internal_data = afterCalls
        { solveOdeArgs o c a with with_taylor := true } str
        (if a.store_internal then some {} else none)
        (I { args := { solveOdeArgs o c a with with_taylor := true },
             store_internal := a.store_internal,
             tstop := some (rad_to_scaled (radians o.taylor_stop_angle) a.θ_scale),
             angles := c.angles, init := c.init_con }).calls := by
      unfold taylor_solution at ht
      dsimp only at ht
      split at ht
      · split at ht
        · injection ht with ht
          rw [← ht]
          rfl
        · cases ht
      · cases ht
    rw [Option.bind_some, hi]
    exact recorded_one I str _ _
  · left
    split at h <;> · injection h with h; injection h with h h'; subst h; exact ⟨rfl, rfl⟩

/-- C106. The internal data of a solution is the record of every integration that
was made for it, in the order they were made: the Taylor start when it was
integrated, then each leg.  It has one row for each call with non-negative density
and velocity, and one message for each other call. Without `store_internal` there
is none. -/
theorem solution_internal {out : SolutionOut}
    (h : (solution I str interp o c a).result = .ok out) :
    Recorded I str a.store_internal (solution I str interp o c a).log
      out.internal_data := by
  obtain ⟨⟨ts, angles, init⟩, hts, h, hlog⟩ := Logged.bind_ok h
  obtain ⟨⟨s₁, d₁⟩, hm, h, hlog₁⟩ := Logged.bind_ok h
  obtain ⟨r₁, hr₁, hl₁, -, hd₁, -⟩ := main_solution_ok hm
  have hlog' : (solution I str interp o c a).log =
    (taylor_start I str o c a (solveOdeArgs o c a)).log ++ _ := hlog
  rw [hlog₁, hl₁] at hlog'
  have h1 := recorded_one I str r₁ a.store_internal
  rw [← hd₁] at h1
  have hI : Recorded I str a.store_internal
      ((taylor_start I str o c a (solveOdeArgs o c a)).log ++ [r₁])
      (if a.store_internal then
        match ts.bind (·.internal_data) with
        | some t => d₁.map (t.add ·)
        | none => d₁
      else d₁) := by
    cases hst : a.store_internal with
    | false =>
      rw [hst] at h1
      exact ⟨fun _ => h1.1 rfl, fun h => by cases h⟩
    | true =>
      rw [hst] at h1
      obtain ⟨y, hy, hy'⟩ := h1.2 rfl
      refine ⟨fun h => by (cases h), fun _ => ?_⟩
      rcases taylor_internal I str o c a hts with ⟨e1, e2⟩ | hr
      · rw [e1, e2]
        exact ⟨y, hy, hy'⟩
      · obtain ⟨x, hx, hx'⟩ := hr.2 hst
        rw [hx, hy]
        exact ⟨_, rfl, records_add I str hx' hy'⟩
  cases hsz : o.sonic_interp_size with
  | some size =>
    simp only [hsz] at h hlog'
    obtain ⟨leg, hi, h, hlog₂⟩ := Logged.bind_ok h
    rw [hlog₂] at hlog'
    cases leg with
    | none =>
      rw [interp_none hi] at hlog'
      injection h with h
      subst h
      rw [hlog']
      exact hI
    | some leg =>
      have h2 := interp_internal I str interp hi
      simp only at h
      obtain ⟨⟨s₃, d₃⟩, hm₃, h, hlog₃⟩ := Logged.bind_ok h
      obtain ⟨r₃, -, hl₃, -, hd₃, -⟩ := main_solution_ok hm₃
      have h3 := recorded_one I str r₃ a.store_internal
      rw [← hd₃] at h3
      rw [hlog₃, hl₃] at hlog'
      injection h with h
      subst h
      rw [hlog']
      have := recorded_join I str (recorded_join I str hI h2) h3
      simp only [List.append_assoc] at this ⊢
      exact this
  | none =>
    simp only [hsz] at h hlog'
    cases hj : o.jump_before_sonic with
    | none =>
      simp only [hj] at h hlog'
      injection h with h
      subst h
      rw [hlog']
      exact hI
    | some j =>
      simp only [hj] at h hlog'
      obtain ⟨⟨pa, pi⟩, hjump, h, hlog₂⟩ := Logged.bind_ok h
      obtain ⟨⟨s₃, d₃⟩, hm₃, h, hlog₃⟩ := Logged.bind_ok h
      obtain ⟨r₃, -, hl₃, -, hd₃, -⟩ := main_solution_ok hm₃
      have h3 := recorded_one I str r₃ a.store_internal
      rw [← hd₃] at h3
      rw [hlog₂, hlog₃, hl₃] at hlog'
      injection h with h
      subst h
      rw [hlog']
      have := recorded_join I str hI h3
      simp only [List.append_assoc] at this ⊢
      exact this

/-! ### A witness -/

/-- The integrator of the jump run, calling the right-hand side three times in each
leg. -/
noncomputable def callI : Integrator := fun r => { rootI .SUCCESS r with calls := witCalls }

theorem witJ_recorded :
    ∃ out, (solution callI str interp witJO witJC witJA).result = .ok out := by
  have h2 : (main_solution callI str witJP true
      (firstLeg witJO witJA [0, 1, 3, 4] witJ)).result =
        .ok ({ flag := .ROOT_RETURN, t := [0], y := [witJ] },
          afterCalls witJP str (some {}) witCalls) := by
    simp [main_solution, main_plan, firstLeg, witJO, witJA, rootI, callI, witJP,
      solveOdeArgs]
  have h3 : (main_solution callI str witJP true
      { angles := [2, 3, 4], ode_init := witL }).result =
      .ok ({ flag := .SUCCESS, t := [2, 3, 4], y := [witL, witL, witL] },
        afterCalls witJP str (some {}) witCalls) := by
    simp [main_solution, main_plan, rootI, callI, witJP, solveOdeArgs]
  obtain ⟨out, h, -, -⟩ := solution_jump_run callI str interp witJO witJC witJA
    (j := 1/10) (ts := none) (angles := [0, 1, 3, 4]) (init := witJ) rfl rfl rfl h2
    (witJ_jump str) h3
  exact ⟨out, h⟩

/-- In the witness run each of the two legs leaves a row. -/
theorem witJ_rows : ∃ out d,
    (solution callI str interp witJO witJC witJA).result = .ok out ∧
    out.internal_data = some d ∧ d.params = [witS, witS] := by
  obtain ⟨out, h⟩ := witJ_recorded str interp
  obtain ⟨-, hm⟩ := one_crossing_mode callI str interp witJO witJC witJA h
  obtain ⟨t, legs, hl, -, -, r₁, r₂, rfl, -⟩ := hm
  have ht : (solution callI str interp witJO witJC witJA).log.length ≤ 2 := by
    obtain ⟨ts, angles, init, r, -, -, -, -, -, -, rest, hlog, ⟨q₁, q₂, e, -⟩, -⟩ :=
      solution_ok callI str interp witJO witJC witJA h
    rw [hlog, e]
    simp [taylor_start, witJA, Logged.ok]
  have ht : t = [] := by
    rw [hl] at ht
    cases t with
    | nil => rfl
    | cons x t => simp at ht
  subst ht
  obtain ⟨d, hd, hr⟩ := (solution_internal callI str interp witJO witJC witJA h).2 rfl
  refine ⟨out, d, h, hd, ?_⟩
  rw [hr.rows.params, hl]
  have ha : acceptedCalls witCalls = [⟨1/10, witS, St.zero⟩] := by
    simp only [acceptedCalls, witCalls]
    norm_num [List.filter_cons, witS]
  simp [requestRows, callI, ha]

example := solution_internal callI str interp witJO witJC witJA
  (witJ_recorded str interp).choose_spec

end DiscSolver
