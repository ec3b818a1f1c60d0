import Verif.Model.MemRun
import Verif.Props.CrosserRun
import Verif.Props.CsvRunner

/-!
# Properties: the rows ds-csvrunner writes are inputs of solutions it found

C109.
-/

namespace DiscSolver.MemRun

open Runners SingleRun StepRun CrosserRun

variable {ops : Stepper.Ops ℝ} {human : List Stepper.SolnData → Stepper.SplitterStatus}
  {I : Tolerances → Integrator} {str : ℝ → String}
  {interp : List ℝ → List ℝ → Option (ℝ → ℝ)} {st : Bool}

/-! ## What a search leaves in memory -/

theorem numbered_shown (heap : ℕ → Stepper.Input ℝ (SolutionInput ℝ))
    (ss : List (Stepper.Stored ℝ (SolutionInput ℝ))) :
    (numbered ss).map (fun p => shown heap p.2) = ss.map (shown heap) := by
  unfold numbered
  rw [List.map_map]
  have : ((fun p : String × Stepper.Stored ℝ (SolutionInput ℝ) => shown heap p.2) ∘
      fun p : Stepper.Stored ℝ (SolutionInput ℝ) × ℕ => (p.2.repr, p.1)) =
      (shown heap) ∘ Prod.fst := rfl
  rw [this, ← List.map_map, List.zipIdx_map_fst]

/-- What the stored solutions show: the input of the next attempt, the last one that with
which the search ended. -/
theorem shown_later {c : Stepper.Setup ℝ (SolutionInput ℝ)}
    {heap : ℕ → Stepper.Input ℝ (SolutionInput ℝ)} {next : ℕ}
    {as : List (Stepper.Attempt ℝ (SolutionInput ℝ))} {i : Stepper.Input ℝ (SolutionInput ℝ)}
    {ss : List (Stepper.Stored ℝ (SolutionInput ℝ))}
    (h : Stepper.Records c heap next as (Stepper.laterInputs as i) ss) :
    ss.map (shown heap) = (Stepper.laterInputs as i).map fields := by
  obtain ⟨h1, h2, h3⟩ := h
  refine List.ext_getElem? fun k => ?_
  simp only [List.getElem?_map]
  by_cases hk : k < as.length
  · have hs : k < ss.length := by omega
    have hl : k < (Stepper.laterInputs as i).length := by omega
    obtain ⟨-, -, -, r⟩ := h3 k _ _ _ (List.getElem?_eq_getElem hs)
      (List.getElem?_eq_getElem hk) (List.getElem?_eq_getElem hl)
    rw [List.getElem?_eq_getElem hs, List.getElem?_eq_getElem hl]
    simp only [Option.map_some, shown, r]
  · rw [List.getElem?_eq_none (by omega), List.getElem?_eq_none (by omega)]
    rfl

theorem later_last (as : List (Stepper.Attempt ℝ (SolutionInput ℝ)))
    (i : Stepper.Input ℝ (SolutionInput ℝ)) (h : as ≠ []) :
    (Stepper.laterInputs as i).getLast? = some i := by
  unfold Stepper.laterInputs
  cases as with
  | nil => exact absurd rfl h
  | cons a as =>
    simp only [List.map_cons, List.cons_append, List.tail_cons, List.getLast?_concat]

/-- `step` in memory: the final solution. -/
theorem step_final {s : SolutionInput ℝ} {run r : TheRun ℝ (SolutionInput ℝ)}
    {x : SolutionInput ℝ} (h : step_solver ops human I str interp st s run = (.ok true, r))
    (hx : r.final = .value (some x)) :
    ∃ γ₀ method split γs ms γ m, s .γ = .float γ₀ ∧ s .split_method = .str method ∧
      Stepper.create_soln_splitter human (String.ofList method) = .ok split ∧
      Searched ops split (single_solution I str interp st) s γ₀ γs ms ∧
      γs.getLast? = some γ ∧ ms.getLast? = some m ∧
      x = Function.update s .γ (.float γ) ∧ single_solution I str interp st x = .ok m ∧
      (Accepted m.out ∨ Stuck ops split γ₀ γs ms) := by
  unfold step_solver at h
  split at h
  · rename_i γ₀ method hγ hm
    refine ⟨γ₀, method, ?_⟩
    cases hsp : Stepper.create_soln_splitter human (String.ofList method) with
    | error e =>
      exfalso
      have : Stepper.solver (asMade ops I str interp st false false) human (String.ofList method)
          ⟨γ₀, s⟩ { info := run.info } StepRun.DEFAULT_NUM_ATTEMPTS =
          (.error (.py e), { info := run.info }, fun _ => ⟨γ₀, s⟩) := by
        unfold Stepper.solver
        rw [hsp]
      have h' := congrArg (fun p : Except PyErr Bool × TheRun ℝ (SolutionInput ℝ) => p.1) h
      dsimp only at h'
      have h2 : { setup ops I str interp st with on_file := false } =
        asMade ops I str interp st false false := rfl
      rw [h2, this] at h'
      cases h'
    | ok split =>
      obtain ⟨xs, ts, i, e, as, ss, heap, next, h1, h2, h3, h4, h5⟩ :=
        Stepper.solver_outcome (asMade ops I str interp st false false) human
          (String.ofList method) split ⟨γ₀, s⟩
          ({ info := run.info } : Run _ (Stepper.Stored ℝ (SolutionInput ℝ)))
          StepRun.DEFAULT_NUM_ATTEMPTS hsp (setup_flags (ops := ops) (I := I) (str := str)
            (interp := interp) (st := st)) ⟨rfl, rfl⟩
      have hset : { setup ops I str interp st with on_file := false } =
        asMade ops I str interp st false false := rfl
      rw [hset, h5] at h
      obtain ⟨ms, hms, hr, hri, hsd, hend⟩ := outcome_ok hsp h1 h2 h3
      simp only [Prod.mk.injEq] at h
      obtain ⟨ha, hrun⟩ := h
      rw [← hrun] at hx
      dsimp only at hx
      have key : ∀ d, as = xs ++ [⟨i, d⟩] → finalShown heap (.value ss.getLast?) =
          .value (some x) → ∃ m, (as.map (·.input.γ)).getLast? = some i.γ ∧
          ms.getLast? = some m ∧ x = Function.update s .γ (.float i.γ) ∧
          single_solution I str interp st x = .ok m := by
        intro d hd hf
        have hl : (ss.map (shown heap)).getLast? = some x := by
          rw [List.getLast?_map]
          cases hg : ss.getLast? with
          | none => rw [hg] at hf; cases hf
          | some z =>
            rw [hg] at hf
            simp only [finalShown, Final.value.injEq, Option.some.injEq] at hf
            rw [← hf]
            rfl
        have hne : as ≠ [] := by rw [hd]; simp
        rw [shown_later h4, List.getLast?_map, later_last as i hne] at hl
        have hxi : x = fields i := by
          simpa using hl.symm
        have hgl : ms.getLast?.map some =
            some (single_solution I str interp st (fields i)).toOption := by
          rw [← List.getLast?_map, ← hms, hd]
          simp
        cases hml : ms.getLast? with
        | none => rw [hml] at hgl; cases hgl
        | some m =>
          rw [hml] at hgl
          refine ⟨m, by rw [hd]; simp, rfl, by rw [hxi, fields, hri], ?_⟩
          rw [hxi]
          simp only [Option.map_some, Option.some.injEq] at hgl
          cases hq : single_solution I str interp st (fields i) with
          | error p => rw [hq] at hgl; cases hgl
          | ok m' =>
            rw [hq] at hgl
            simp only [Except.toOption, Option.some.injEq] at hgl
            rw [hgl]
      cases e with
      | exhausted => cases hx
      | gaveUp => cases hx
      | raised p => cases hx
      | found =>
        obtain ⟨⟨d, hd⟩, m', q1, q2⟩ := hend
        obtain ⟨m, k1, k2, k3, k4⟩ := key d hd hx
        rw [k2] at q1
        injection q1 with q1
        subst q1
        exact ⟨split, _, ms, i.γ, m, hγ, hm, rfl, hsd, k1, k2, k3, k4, Or.inl q2⟩
      | stopped =>
        obtain ⟨⟨d, hd⟩, q⟩ := hend
        obtain ⟨m, k1, k2, k3, k4⟩ := key d hd hx
        exact ⟨split, _, ms, i.γ, m, hγ, hm, rfl, hsd, k1, k2, k3, k4, Or.inr q⟩
  · cases h

/-! ## The fast crosser -/

theorem last_add (w : Memory) (s : SolutionInput ℝ) : (w.add s).last = .ok s := by
  simp [Memory.last, Memory.add]

theorem last_adds (w : Memory) {ys : List (SolutionInput ℝ)} {x : SolutionInput ℝ}
    (h : ys.getLast? = some x) : (ys.foldl Memory.add w).last = .ok x := by
  obtain ⟨zs, rfl⟩ := List.getLast?_eq_some_iff.1 h
  rw [List.foldl_append]
  exact last_add _ _

/-- The inner search: it ends at a `γ` without a solution, which the last solution stored
shows, or it has stored something. -/
theorem inner_memory {s : SolutionInput ℝ} {γ₀ : ℝ} {method : Text} {a : Except Stepper.Stop Bool}
    {r : Run Unit (Stepper.Stored ℝ (SolutionInput ℝ))}
    {heap : ℕ → Stepper.Input ℝ (SolutionInput ℝ)} (hγ : s .γ = .float γ₀)
    (h : Stepper.solver (asMade ops I str interp st false true) human (String.ofList method)
      ⟨γ₀, s⟩ ({ info := () } : Run Unit _) StepRun.DEFAULT_NUM_ATTEMPTS = (a, r, heap)) :
    (answer a = .error .SolverError →
      ∃ γ, (r.solutions.map fun p => shown heap p.2).getLast?.getD s =
          Function.update s .γ (.float γ) ∧
        single_solution I str interp st (Function.update s .γ (.float γ)) =
          .error .SolverError) ∧
    (∀ b, answer a = .ok b →
      ∃ γ, (r.solutions.map fun p => shown heap p.2).getLast? =
        some (Function.update s .γ (.float γ))) := by
  have hself : Function.update s .γ (.float γ₀) = s := by rw [← hγ, Function.update_eq_self]
  cases hsp : Stepper.create_soln_splitter human (String.ofList method) with
  | error e =>
    have : Stepper.solver (asMade ops I str interp st false true) human (String.ofList method)
        ⟨γ₀, s⟩ ({ info := () } : Run Unit _) StepRun.DEFAULT_NUM_ATTEMPTS =
        (.error (.py e), { info := () }, fun _ => ⟨γ₀, s⟩) := by
      unfold Stepper.solver
      rw [hsp]
    rw [this] at h
    have he : e = .TypeError := by
      unfold Stepper.create_soln_splitter at hsp
      split_ifs at hsp
      injection hsp with hsp
      exact hsp.symm
    subst he
    simp only [Prod.mk.injEq] at h
    obtain ⟨rfl, -, -⟩ := h
    exact ⟨fun h => (by cases h), fun b h => (by cases h)⟩
  | ok split =>
    obtain ⟨xs, ts, i, e, as, ss, heap', next, h1, h2, h3, h4, h5⟩ :=
      Stepper.solver_outcome (asMade ops I str interp st false true) human
        (String.ofList method) split ⟨γ₀, s⟩
        ({ info := () } : Run Unit (Stepper.Stored ℝ (SolutionInput ℝ)))
        StepRun.DEFAULT_NUM_ATTEMPTS hsp (setup_flags (ops := ops) (I := I) (str := str)
          (interp := interp) (st := st)) ⟨rfl, rfl⟩
    rw [h5] at h
    obtain ⟨ms, hms, hr, hri, hsd, hend⟩ := outcome_ok hsp h1 h2 h3
    simp only [Prod.mk.injEq] at h
    obtain ⟨rfl, rfl, rfl⟩ := h
    dsimp only
    rw [numbered_shown, shown_later h4, List.getLast?_map]
    have hfi : fields i = Function.update s .γ (.float i.γ) := by rw [fields, hri]
    have hne : ms ≠ [] → as ≠ [] := by
      rintro hm rfl
      simp at hms
      exact hm hms
    have hsome : as ≠ [] → ∃ γ, ((Stepper.laterInputs as i).getLast?).map fields =
        some (Function.update s .γ (.float γ)) := by
      intro hne
      rw [later_last as i hne]
      exact ⟨i.γ, by rw [Option.map_some, hfi]⟩
    cases e with
    | exhausted => exact ⟨fun h => (by cases h), fun b _ => hsome (hne hend.2.1)⟩
    | gaveUp => exact ⟨fun h => (by cases h), fun b _ => hsome (hne hend.2.1)⟩
    | found =>
      refine ⟨fun h => (by cases h), fun b _ => hsome ?_⟩
      obtain ⟨⟨d, rfl⟩, -⟩ := hend
      simp
    | stopped =>
      refine ⟨fun h => (by cases h), fun b _ => hsome ?_⟩
      obtain ⟨⟨d, rfl⟩, -⟩ := hend
      simp
    | raised p =>
      refine ⟨fun h => ?_, fun b h => by cases p <;> cases h⟩
      have hp : p = .py .SolverError ∨ p = .error ∨ p = .stop := by
        cases p with
        | py e =>
          simp only [Stepper.answerFor, answer, Except.error.injEq] at h
          exact Or.inl (by rw [h])
        | hangs => cases h
        | error => exact Or.inr (Or.inl rfl)
        | stop => exact Or.inr (Or.inr rfl)
      rcases hp with rfl | rfl | rfl
      · obtain ⟨rfl, k2, -⟩ := hend rfl
        refine ⟨i.γ, ?_, by rw [← hfi]; exact k2⟩
        by_cases h0 : as = []
        · subst h0
          have hi0 : i = ⟨γ₀, s⟩ := by simpa using Stepper.history_head h1
          rw [hi0]
          simp [Stepper.laterInputs, hself]
        · rw [later_last as i h0, Option.map_some, Option.getD_some, hfi]
      · cases h3
      · cases h3

/-- One attempt of the crosser: the input of the last solution stored is that of its solution
to ninety degrees, or one without a solution. -/
theorem attempt_memory {s inp : SolutionInput ℝ} {v γ : ℝ} {w w' : Memory} {f : Found}
    (hin : inp = at' s v γ)
    (hw : ∀ x, w.last = .ok x → x = inp ∨
      ∃ v γ, x = at' s v γ ∧ single_solution I str interp st x = .error .SolverError)
    (h : solution_func ops human I str interp st inp w = (.ok f, w')) :
    (∃ (γ' : ℝ) (m : Made) (k : ℕ), f.which = some k ∧ f.input = far s v γ' ∧
      single_solution I str interp st (far s v γ') = .ok m ∧ f.quality = m.out.angles.max? ∧
      w'.inputs[k]? = some f.input ∧ w'.last = .ok f.input) ∨
    (f.which = none ∧ f.input = inp ∧ f.quality = some 0 ∧
      ∀ x, w'.last = .ok x →
        ∃ v γ, x = at' s v γ ∧ single_solution I str interp st x = .error .SolverError) := by
  unfold solution_func at h
  split at h
  · rename_i γ₀ method hγ hm
    have hγ₀ : γ₀ = γ := by
      rw [hin, at_γ] at hγ
      injection hγ with hγ
      exact hγ.symm
    subst hγ₀
    have hset : { setup ops I str interp st with on_file := false, no_final_solution := true } =
        asMade ops I str interp st false true := rfl
    rw [hset] at h
    rcases hsv : Stepper.solver (asMade ops I str interp st false true) human
        (String.ofList method) ⟨γ₀, inp⟩ ({ info := () } : Run Unit _)
        StepRun.DEFAULT_NUM_ATTEMPTS with ⟨a, r, heap⟩
    obtain ⟨k1, k2⟩ := inner_memory hγ hsv
    rw [hsv] at h
    dsimp only at h
    set ys := r.solutions.map fun p => shown heap p.2 with hys
    cases ha : answer a with
    | error e =>
      rw [ha] at h
      by_cases he : e = .SolverError
      · subst he
        simp only [Prod.mk.injEq, Except.ok.injEq] at h
        obtain ⟨rfl, rfl⟩ := h
        refine Or.inr ⟨rfl, rfl, rfl, fun x hx => ?_⟩
        obtain ⟨γ', q1, q2⟩ := k1 ha
        rw [hin, at_update] at q1 q2
        cases hl : ys.getLast? with
        | none =>
          rw [hl] at q1
          have hn : ys = [] := List.getLast?_eq_none_iff.1 hl
          rw [hn] at hx
          rcases hw x hx with rfl | hx'
          · rw [Option.getD_none, ← hin] at q1
            exact ⟨v, γ', q1, by rw [q1]; exact q2⟩
          · exact hx'
        | some y =>
          rw [hl] at q1
          rw [last_adds w hl] at hx
          injection hx with hx
          subst hx
          exact ⟨v, γ', q1, by rw [show y = _ from q1]; exact q2⟩
      · exfalso
        revert h
        cases e <;> first | exact absurd rfl he | (intro h; cases h)
    | ok b =>
      rw [ha] at h
      dsimp only at h
      obtain ⟨γ', q⟩ := k2 b ha
      rw [last_adds w q] at h
      dsimp only at h
      rw [hin, at_update, final_at] at h
      cases hs : single_solution I str interp st (far s v γ') with
      | error e => rw [hs] at h; cases h
      | ok m =>
        rw [hs] at h
        simp only [Prod.mk.injEq, Except.ok.injEq] at h
        obtain ⟨rfl, rfl⟩ := h
        obtain ⟨z, -⟩ := EndToEnd.single_solution_ok hs
        refine Or.inl ⟨γ', m, _, rfl, z, hs, rfl, ?_, last_add _ _⟩
        simp [Memory.add]
  · cases h

theorem attempt_congr (step_size v₀ : ℝ) (Q Q' : ℕ → Flt) (k : ℕ) (h : ∀ i < k, Q i = Q' i) :
    FastCrosser.attempt step_size v₀ Q k = FastCrosser.attempt step_size v₀ Q' k := by
  induction k with
  | zero => rfl
  | succ k ih =>
    simp only [FastCrosser.attempt]
    rw [ih fun i hi => h i (by omega), h k (by omega)]

/-- What the last entry of the run shows. -/
def Shows (solve : SolutionInput ℝ → Except PyErr Made) (s : SolutionInput ℝ) (v₀ : ℝ) (n : ℕ)
    (x : SolutionInput ℝ) : Prop :=
  (∃ v γ m, x = far s v γ ∧ solve x = .ok m) ∨
  (∃ v γ, x = at' s v γ ∧ solve x = .error .SolverError) ∨
  ∃ v γ Q, x = at' s v γ ∧ FastCrosser.velocity (0.01 * v₀) v₀ Q n = some v

theorem last_stored_again {w : Memory} {k : ℕ} {x : SolutionInput ℝ} (h : w.inputs[k]? = some x) :
    ({ w with stored := w.stored ++ [k] } : Memory).last = .ok x := by
  simp [Memory.last, h]

theorem last_changed {w : Memory} {k : ℕ} {x y : SolutionInput ℝ} (h : w.inputs[k]? = some x) :
    ({ stored := w.stored ++ [k], inputs := w.inputs.set k y } : Memory).last = .ok y := by
  have hk : k < w.inputs.length := (List.getElem?_eq_some_iff.1 h).1
  simp [Memory.last, hk]

theorem search_memory {s : SolutionInput ℝ} {v₀ : ℝ} (left j : ℕ) (Q : ℕ → Flt)
    (vars : FastCrosser.Vars) (inp : SolutionInput ℝ) (v γ : ℝ) (w w' : Memory)
    (hin : inp = at' s v γ)
    (hatt : FastCrosser.attempt (0.01 * v₀) v₀ Q j = some (v, vars))
    (hw : ∀ x, w.last = .ok x → x = inp ∨
      ∃ v γ, x = at' s v γ ∧ single_solution I str interp st x = .error .SolverError)
    (h : search ops human I str interp st s (0.01 * v₀) left vars inp w = (.ok (), w')) :
    ∀ x, w'.last = .ok x →
      Shows (single_solution I str interp st) s v₀ (j + left) x := by
  induction left generalizing j Q vars inp v γ w with
  | zero =>
    simp only [search, Prod.mk.injEq, true_and] at h
    subst h
    intro x hx
    rcases hw x hx with rfl | hx'
    · refine Or.inr (Or.inr ⟨v, γ, Q, hin, ?_⟩)
      rw [Nat.add_zero, FastCrosser.velocity, hatt]
      rfl
    · exact Or.inr (Or.inl hx')
  | succ left ih =>
    rw [search] at h
    rcases hf : solution_func ops human I str interp st inp w with ⟨e | f, w₁⟩
    · rw [hf] at h; cases h
    · rw [hf] at h
      dsimp only at h
      have hnext : ∀ (q : Flt) (v' : ℝ) vars', FastCrosser.step (0.01 * v₀) v q vars =
          (.ok v', vars') → FastCrosser.attempt (0.01 * v₀) v₀ (Function.update Q j q) (j + 1) =
            some (v', vars') := by
        intro q v' vars' hs
        simp only [FastCrosser.attempt]
        rw [attempt_congr _ _ _ Q j (fun i hi => Function.update_of_ne (by omega) _ _), hatt]
        simp only [Function.update_self, hs]
      rcases attempt_memory hin hw hf with ⟨γ', m, k, g1, g2, g3, g4, g5, g6⟩ |
        ⟨g1, g2, g3, g4⟩
      · rw [g1, g2] at h
        rw [g2] at g5
        dsimp only at h
        have hv : v_rin ⟨far s v γ', none⟩ = v := by unfold v_rin; simp only [far_v]
        rw [hv] at h
        rcases hs : FastCrosser.step (0.01 * v₀) v f.quality vars with ⟨e | v', vars'⟩
        · rw [hs] at h
          cases e with
          | py e => cases h
          | _ =>
            simp only [Prod.mk.injEq, true_and] at h
            subst h
            intro x hx
            rw [last_stored_again g5] at hx
            injection hx with hx
            subst hx
            exact Or.inl ⟨v, γ', m, rfl, g3⟩
        · rw [hs] at h
          dsimp only at h
          rw [next_far] at h
          rw [show j + (left + 1) = j + 1 + left by omega]
          refine ih (j + 1) _ vars' _ v' γ' _ rfl (hnext _ _ _ hs) (fun x hx => ?_) h
          rw [last_changed g5] at hx
          injection hx with hx
          exact Or.inl hx.symm
      · rw [g1, g2, hin] at h
        dsimp only at h
        have hv : v_rin ⟨at' s v γ, none⟩ = v := by unfold v_rin; simp only [at_v]
        rw [hv] at h
        rcases hs : FastCrosser.step (0.01 * v₀) v f.quality vars with ⟨e | v', vars'⟩
        · rw [hs] at h
          cases e with
          | py e => cases h
          | _ =>
            simp only [Prod.mk.injEq, true_and] at h
            subst h
            intro x hx
            exact Or.inr (Or.inl (g4 x hx))
        · rw [hs] at h
          dsimp only at h
          rw [next_at] at h
          rw [show j + (left + 1) = j + 1 + left by omega]
          exact ih (j + 1) _ vars' _ v' γ _ rfl (hnext _ _ _ hs)
            (fun x hx => Or.inr (g4 x hx)) h

/-- The fast crosser in memory: the final solution shows an input for which the solution to
ninety degrees was found, or one for which there is no solution at all, or, if a thousand
attempts were made, the input of the next one. -/
theorem crosser_final {s : SolutionInput ℝ} {run r : TheRun ℝ (SolutionInput ℝ)}
    {x : SolutionInput ℝ} (h : crosser_solver ops human I str interp st s run = (.ok true, r))
    (hx : r.final = .value (some x)) {γ₀ : ℝ} (hγ : s .γ = .float γ₀) :
    ∃ v₀, s .v_rin_on_c_s = .float v₀ ∧
      Shows (single_solution I str interp st) s v₀ 1000 x := by
  unfold crosser_solver at h
  split at h
  · rename_i v₀ hv
    refine ⟨v₀, hv, ?_⟩
    rcases hs : search ops human I str interp st s (0.01 * v₀)
        CrosserRun.DEFAULT_NUM_ATTEMPTS {} s {} with ⟨e | u, w⟩
    · rw [hs] at h; cases h
    · rw [hs] at h
      dsimp only at h
      cases hl : w.last with
      | error e => rw [hl] at h; cases h
      | ok y =>
        rw [hl] at h
        simp only [Prod.mk.injEq, true_and] at h
        rw [← h] at hx
        simp only [Final.value.injEq, Option.some.injEq] at hx
        subst hx
        have := search_memory (ops := ops) (human := human) CrosserRun.DEFAULT_NUM_ATTEMPTS 0
          (fun _ => none) {} s v₀ γ₀ {} w (at_self hv hγ).symm rfl
          (fun x hx => by cases hx) hs y hl
        rwa [Nat.zero_add] at this
  · cases h

/-! ## The rows -/

variable {C : Conv ℝ} {others : Bool → String → Solver ℝ (SolutionInput ℝ)}
  {ov : Option Overrides} {d : Dict Text (Option Text)} {x : SolutionInput ℝ}

/-- C109, what holds.  A row written with the method `single` is the input as read, and has
a solution. -/
theorem csv_single_row
    (h : csv_find C id (methods ops human I str interp others st) "single" ov d =
      .ok (some x)) :
    ∃ run m, row_inputs (σ := SolutionInput ℝ) C "single" ov d = .ok (x, run) ∧
      single_solution I str interp st x = .ok m := by
  obtain ⟨-, s, run, r, y, h1, h2, h3, h4⟩ := (csv_find_some C id _ _ _ _ _).1 h
  have hm : methods ops human I str interp others st "single" =
      single_solver I str interp st := rfl
  rw [hm] at h2
  unfold single_solver at h2
  cases hs : single_solution I str interp st s with
  | error e => rw [hs] at h2; cases h2
  | ok m =>
    rw [hs] at h2
    simp only [Prod.mk.injEq, true_and] at h2
    rw [← h2] at h3
    simp only [Final.value.injEq, Option.some.injEq] at h3
    obtain ⟨z, -⟩ := EndToEnd.single_solution_ok hs
    have hxs : x = s := by rw [← h4, ← h3, z]; rfl
    subst hxs
    exact ⟨run, m, h1, hs⟩

/-- C109, what holds.  A row written with the method `step` is the input as read, but for `γ`,
which is the last of a search.  It has a solution, and that is acceptable, or the search could
not go on. -/
theorem csv_step_row
    (h : csv_find C id (methods ops human I str interp others st) "step" ov d =
      .ok (some x)) :
    ∃ (s : SolutionInput ℝ) (run : TheRun ℝ (SolutionInput ℝ)) (γ₀ : ℝ) (method : Text)
      (split : Stepper.Splitter) (γs : List ℝ) (ms : List Made) (γ : ℝ) (m : Made),
      row_inputs C "step" ov d = .ok (s, run) ∧ s .γ = .float γ₀ ∧
      s .split_method = .str method ∧
      Stepper.create_soln_splitter human (String.ofList method) = .ok split ∧
      Searched ops split (single_solution I str interp st) s γ₀ γs ms ∧
      γs.getLast? = some γ ∧ ms.getLast? = some m ∧
      x = Function.update s .γ (.float γ) ∧ single_solution I str interp st x = .ok m ∧
      (Accepted m.out ∨ Stuck ops split γ₀ γs ms) := by
  obtain ⟨-, s, run, r, y, h1, h2, h3, h4⟩ := (csv_find_some C id _ _ _ _ _).1 h
  have hm : methods ops human I str interp others st "step" =
      step_solver ops human I str interp st := rfl
  rw [hm] at h2
  have h4 : y = x := h4
  subst h4
  obtain ⟨γ₀, method, split, γs, ms, γ, m, k⟩ := step_final h2 h3
  exact ⟨s, run, γ₀, method, split, γs, ms, γ, m, h1, k⟩

/-- C109, the part which holds for `fast_crosser`, and how it fails: a row is an input for
which the solution to ninety degrees was found; or it is one for which there is no solution;
or a thousand attempts were made and it is the input of the next one, which was not solved.
Missing: that the last two do not happen; `csv_row_without_disc` shows that the second does. -/
theorem csv_crosser_row_partial
    (h : csv_find C id (methods ops human I str interp others st) "fast_crosser" ov d =
      .ok (some x)) :
    ∃ (s : SolutionInput ℝ) (run : TheRun ℝ (SolutionInput ℝ)) (v₀ : ℝ),
      row_inputs C "fast_crosser" ov d = .ok (s, run) ∧ s .v_rin_on_c_s = .float v₀ ∧
      ((∃ v γ m, x = far s v γ ∧ single_solution I str interp st x = .ok m) ∨
        (∃ v γ, x = at' s v γ ∧ single_solution I str interp st x = .error .SolverError) ∨
        ∃ v γ Q, x = at' s v γ ∧ FastCrosser.velocity (0.01 * v₀) v₀ Q 1000 = some v) := by
  obtain ⟨-, s, run, r, y, h1, h2, h3, h4⟩ := (csv_find_some C id _ _ _ _ _).1 h
  have hm : methods ops human I str interp others st "fast_crosser" =
      crosser_solver ops human I str interp st := rfl
  rw [hm] at h2
  have h4 : y = x := h4
  subst h4
  have hγ : ∃ γ₀, s .γ = .float γ₀ := by
    have hr := h1
    unfold row_inputs at hr
    split at hr
    · cases hr
    · split at hr
      · cases hr
      · split at hr
        · cases hr
        · rename_i c _ _ s' hc
          simp only [Except.ok.injEq, Prod.mk.injEq] at hr
          obtain ⟨rfl, -⟩ := hr
          have := (to_soln_input_ok C c s').1 hc .γ
          simp only [SField.kind, readField, readFloat] at this
          cases hft : C.float_type (C.str_to_float (c (.s .γ))) with
          | error e => rw [hft] at this; cases this
          | ok γ => rw [hft] at this; injection this with this; exact ⟨γ, this.symm⟩
  obtain ⟨γ₀, hγ⟩ := hγ
  obtain ⟨v₀, hv, hs⟩ := crosser_final h2 h3 hγ
  exact ⟨s, run, v₀, h1, hv, hs⟩

/-! ## A row without a disc -/

theorem inner_found {s : SolutionInput ℝ} {γ₀ : ℝ} {method : Text} {split : Stepper.Splitter}
    {m : Made} (hγ : s .γ = .float γ₀)
    (hsp : Stepper.create_soln_splitter human (String.ofList method) = .ok split)
    (hs : single_solution I str interp st s = .ok m) (ha : Accepted m.out) :
    ∃ a r heap, Stepper.solver (asMade ops I str interp st false true) human
        (String.ofList method) ⟨γ₀, s⟩ ({ info := () } : Run Unit _)
        StepRun.DEFAULT_NUM_ATTEMPTS = (a, r, heap) ∧ (∃ b, answer a = .ok b) ∧
      (r.solutions.map fun p => shown heap p.2) = [s] := by
  have hself : Function.update s .γ (.float γ₀) = s := by rw [← hγ, Function.update_eq_self]
  set c : Stepper.Setup ℝ (SolutionInput ℝ) := asMade ops I str interp st false true with hcdef
  obtain ⟨xs, ts, i, e, as, ss, heap, next, h1, h2, h3, h4, h5⟩ :=
    Stepper.solver_outcome c human (String.ofList method) split ⟨γ₀, s⟩
      ({ info := () } : Run Unit (Stepper.Stored ℝ (SolutionInput ℝ)))
      StepRun.DEFAULT_NUM_ATTEMPTS hsp (setup_flags (ops := ops) (I := I) (str := str)
        (interp := interp) (st := st)) ⟨rfl, rfl⟩
  have hsolve : c.solve ⟨γ₀, s⟩ = .ok (view m.out) := by
    show (single_solution I str interp st (fields ⟨γ₀, s⟩)).map (fun m => view m.out) = _
    rw [fields]
    dsimp only
    rw [hself, hs]
    rfl
  have hbest : Stepper.is_solution_best (view m.out) = true := (accepted_iff _).2 ha
  have hxs : xs = [] := by
    cases xs with
    | nil => rfl
    | cons x xs =>
      exfalso
      have hx := Stepper.history_head h1
      simp at hx
      have := Stepper.history_solved h1 x (by simp)
      rw [hx, hsolve] at this
      obtain ⟨q1, q2⟩ := this
      injection q1 with q1
      rw [← q1, hbest] at q2
      cases q2
  subst hxs
  have hi0 : i = ⟨γ₀, s⟩ := by simpa using Stepper.history_head h1
  subst hi0
  have hend : e = .found ∧ ∃ d, as = [⟨⟨γ₀, s⟩, d⟩] := by
    cases h3 with
    | exhausted hn => simp [StepRun.DEFAULT_NUM_ATTEMPTS] at hn
    | found => exact ⟨rfl, _, rfl⟩
    | gaveUp _ h hb =>
      rw [hsolve] at h; injection h with h; rw [← h, hbest] at hb; cases hb
    | stopped _ h hb =>
      rw [hsolve] at h; injection h with h; rw [← h, hbest] at hb; cases hb
    | noSolution _ h => rw [hsolve] at h; cases h
    | noType _ h hb =>
      rw [hsolve] at h; injection h with h; rw [← h, hbest] at hb; cases hb
    | hangs _ h hb =>
      rw [hsolve] at h; injection h with h; rw [← h, hbest] at hb; cases hb
  obtain ⟨rfl, d, rfl⟩ := hend
  refine ⟨_, _, _, h5, ⟨true, rfl⟩, ?_⟩
  dsimp only
  rw [numbered_shown, shown_later h4]
  simp [Stepper.laterInputs, fields, hself]

/-- A row of the method `step` whose first solution is acceptable is written as read. -/
theorem csv_step_first {s : SolutionInput ℝ} {run : TheRun ℝ (SolutionInput ℝ)}
    (hr : row_inputs C "step" ov d = .ok (s, run)) {γ₀ : ℝ} {method : Text}
    {split : Stepper.Splitter} {m : Made} (hγ : s .γ = .float γ₀)
    (hm : s .split_method = .str method)
    (hsp : Stepper.create_soln_splitter human (String.ofList method) = .ok split)
    (hs : single_solution I str interp st s = .ok m) (ha : Accepted m.out) :
    csv_find C id (methods ops human I str interp others st) "step" ov d = .ok (some s) := by
  have hself : Function.update s .γ (.float γ₀) = s := by rw [← hγ, Function.update_eq_self]
  set c : Stepper.Setup ℝ (SolutionInput ℝ) := asMade ops I str interp st false false with hcdef
  obtain ⟨xs, ts, i, e, as, ss, heap, next, h1, h2, h3, h4, h5⟩ :=
    Stepper.solver_outcome c human (String.ofList method) split ⟨γ₀, s⟩
      ({ info := run.info } : Run (RunInfo ℝ) (Stepper.Stored ℝ (SolutionInput ℝ)))
      StepRun.DEFAULT_NUM_ATTEMPTS hsp (setup_flags (ops := ops) (I := I) (str := str)
        (interp := interp) (st := st)) ⟨rfl, rfl⟩
  have hsolve : c.solve ⟨γ₀, s⟩ = .ok (view m.out) := by
    show (single_solution I str interp st (fields ⟨γ₀, s⟩)).map (fun m => view m.out) = _
    rw [fields]
    dsimp only
    rw [hself, hs]
    rfl
  have hbest : Stepper.is_solution_best (view m.out) = true := (accepted_iff _).2 ha
  have hxs : xs = [] := by
    cases xs with
    | nil => rfl
    | cons x xs =>
      exfalso
      have hx := Stepper.history_head h1
      simp at hx
      have := Stepper.history_solved h1 x (by simp)
      rw [hx, hsolve] at this
      obtain ⟨q1, q2⟩ := this
      injection q1 with q1
      rw [← q1, hbest] at q2
      cases q2
  subst hxs
  have hi0 : i = ⟨γ₀, s⟩ := by simpa using Stepper.history_head h1
  subst hi0
  have hend : e = .found ∧ ∃ d, as = [⟨⟨γ₀, s⟩, d⟩] := by
    cases h3 with
    | exhausted hn => simp [StepRun.DEFAULT_NUM_ATTEMPTS] at hn
    | found => exact ⟨rfl, _, rfl⟩
    | gaveUp _ h hb =>
      rw [hsolve] at h; injection h with h; rw [← h, hbest] at hb; cases hb
    | stopped _ h hb =>
      rw [hsolve] at h; injection h with h; rw [← h, hbest] at hb; cases hb
    | noSolution _ h => rw [hsolve] at h; cases h
    | noType _ h hb =>
      rw [hsolve] at h; injection h with h; rw [← h, hbest] at hb; cases hb
    | hangs _ h hb =>
      rw [hsolve] at h; injection h with h; rw [← h, hbest] at hb; cases hb
  obtain ⟨rfl, d, rfl⟩ := hend
  have hsh := shown_later h4
  have hss : ∃ z, ss = [z] ∧ shown heap z = s := by
    have hl := congrArg List.length hsh
    simp [Stepper.laterInputs] at hl
    obtain ⟨z, rfl⟩ := List.length_eq_one_iff.1 hl
    refine ⟨z, rfl, ?_⟩
    simpa [Stepper.laterInputs, fields, hself] using hsh
  obtain ⟨z, rfl, hz⟩ := hss
  have hrun : step_solver ops human I str interp st s run =
      (.ok true, { run with
        solutions := (numbered [z]).map fun p => (p.1, shown heap p.2)
        final := .value (some s) }) := by
    unfold step_solver
    rw [hγ, hm]
    dsimp only
    rw [show ({ setup ops I str interp st with on_file := false } :
      Stepper.Setup ℝ (SolutionInput ℝ)) = c from rfl, h5]
    rw [← hz]
    rfl
  rw [csv_find_some]
  exact ⟨by decide, s, run, _, s, hr, hrun, rfl, rfl⟩

/-! ## The output -/

/-- What a row of the output is, for a row of the table. -/
def Written (ops : Stepper.Ops ℝ) (human : List Stepper.SolnData → Stepper.SplitterStatus)
    (solve : SolutionInput ℝ → Except PyErr Made) (method : String) (s x : SolutionInput ℝ) :
    Prop :=
  (method = "single" → x = s ∧ ∃ m, solve x = .ok m) ∧
  (method = "step" → ∃ (γ₀ : ℝ) (m' : Text) (split : Stepper.Splitter) (γs : List ℝ)
    (ms : List Made) (γ : ℝ) (m : Made), s .γ = .float γ₀ ∧ s .split_method = .str m' ∧
      Stepper.create_soln_splitter human (String.ofList m') = .ok split ∧
      Searched ops split solve s γ₀ γs ms ∧ γs.getLast? = some γ ∧ ms.getLast? = some m ∧
      x = Function.update s .γ (.float γ) ∧ solve x = .ok m ∧
      (Accepted m.out ∨ Stuck ops split γ₀ γs ms)) ∧
  (method = "fast_crosser" → ∃ v₀, s .v_rin_on_c_s = .float v₀ ∧
    ((∃ v γ m, x = far s v γ ∧ solve x = .ok m) ∨
      (∃ v γ, x = at' s v γ ∧ solve x = .error .SolverError) ∨
      ∃ v γ Q, x = at' s v γ ∧ FastCrosser.velocity (0.01 * v₀) v₀ Q 1000 = some v))

theorem successes_from {α β : Type} (f : α → Except PyErr (Option β)) (l : List α) :
    ∃ ds : List α, ds.Sublist l ∧
      List.Forall₂ (fun d x => f d = .ok (some x)) ds (successes (l.map f)) := by
  induction l with
  | nil => exact ⟨[], List.Sublist.refl _, .nil⟩
  | cons d l ih =>
    obtain ⟨ds, h1, h2⟩ := ih
    rw [List.map_cons]
    cases h : f d with
    | error e => exact ⟨ds, h1.cons d, h2⟩
    | ok x =>
      cases x with
      | none => exact ⟨ds, h1.cons d, h2⟩
      | some x => exact ⟨d :: ds, h1.cons_cons d, .cons h h2⟩

/-- C109, the output of the command, whatever the order in which the workers finish: after what
was there and the preamble come rows, one for each of some rows of the table and in their order,
and each is what `Written` says. -/
theorem csv_output_partial (sniff : Text → Except PyErr (List Text)) (lines : String → List Text)
    (words : Cli.Val → Text) (input_file : String) (given : List Cli.Occ) (before : Text)
    (events : List Event) {c : CliSolve.RunnerCall}
    {rows : List (Dict Text (Option Text))}
    (hc : CliSolve.ds_csvrunner input_file given = .ok c)
    (hrows : Csv.get_csv_inputs sniff (lines c.input_file) [] = .ok rows)
    (hn : (finished events).Nodup) (hlt : ∀ i ∈ finished events, i < rows.length) :
    ∃ m ds xs, ds_csvrunner ops human I str interp C others sniff lines words input_file given
        before events = .ok m ∧ ds.Sublist rows ∧
      m.out = before ++ csv_preamble (words c.nworkers)
          (if c.store_internal then "True".toList else "False".toList) c.sonic_method.toList ++
        rowsText C xs ∧
      List.Forall₂ (fun d x => ∃ s run,
        row_inputs (σ := SolutionInput ℝ) C c.sonic_method (some c.overrides) d = .ok (s, run) ∧
        Written ops human (single_solution I str interp c.store_internal) c.sonic_method s x)
        ds xs := by
  unfold ds_csvrunner
  rw [hc]
  dsimp only
  rw [hrows]
  dsimp only
  obtain ⟨h1, h2, -, -⟩ := csvrunner_rows C id
    (fun _ => methods ops human I str interp others c.store_internal) c.sonic_method
    (some c.overrides) rows before
    (csv_preamble (words c.nworkers)
      (if c.store_internal then "True".toList else "False".toList) c.sonic_method.toList)
    events hn hlt
  set m := csvrunner C id
    (fun _ => methods ops human I str interp others c.store_internal) c.sonic_method
    (some c.overrides) rows before
    (csv_preamble (words c.nworkers)
      (if c.store_internal then "True".toList else "False".toList) c.sonic_method.toList)
    events with hmdef
  have hres : (List.range m.taken).map (results C id
      (fun _ => methods ops human I str interp others c.store_internal) c.sonic_method
      (some c.overrides) rows) = (rows.take m.taken).map
        (csv_find C id (methods ops human I str interp others c.store_internal) c.sonic_method
          (some c.overrides)) := by
    refine List.ext_getElem (by simpa using h1) fun k k1 k2 => ?_
    have hk : k < rows.length := by
      simp at k1
      omega
    simp [results, List.getD_eq_getElem?_getD, List.getElem?_eq_getElem hk]
  rw [hres] at h2
  obtain ⟨ds, d1, d2⟩ := successes_from (csv_find C id
    (methods ops human I str interp others c.store_internal) c.sonic_method
    (some c.overrides)) (rows.take m.taken)
  refine ⟨m, ds, _, rfl, d1.trans (List.take_sublist _ _), h2, d2.imp fun d x h => ?_⟩
  obtain ⟨-, s, run, r, y, k1, -⟩ := (csv_find_some C id _ _ _ _ _).1 h
  refine ⟨s, run, k1, ?_, ?_, ?_⟩
  · intro hm
    rw [hm] at h k1
    obtain ⟨run', m', e1, e2⟩ := csv_single_row h
    rw [k1] at e1
    cases e1
    exact ⟨rfl, m', e2⟩
  · intro hm
    rw [hm] at h k1
    obtain ⟨s', run', γ₀, method, split, γs, ms, γ, m', e1, e2⟩ := csv_step_row h
    rw [k1] at e1
    cases e1
    exact ⟨γ₀, method, split, γs, ms, γ, m', e2⟩
  · intro hm
    rw [hm] at h k1
    obtain ⟨s', run', v₀, e1, e2, e3⟩ := csv_crosser_row_partial h
    rw [k1] at e1
    cases e1
    exact ⟨v₀, e2, e3⟩

theorem inner_nothing {s : SolutionInput ℝ} {γ₀ : ℝ} {method : Text} {split : Stepper.Splitter}
    (hγ : s .γ = .float γ₀)
    (hsp : Stepper.create_soln_splitter human (String.ofList method) = .ok split)
    (hs : single_solution I str interp st s = .error .SolverError) :
    ∃ a r heap, Stepper.solver (asMade ops I str interp st false true) human
        (String.ofList method) ⟨γ₀, s⟩ ({ info := () } : Run Unit _)
        StepRun.DEFAULT_NUM_ATTEMPTS = (a, r, heap) ∧ answer a = .error .SolverError ∧
      (r.solutions.map fun p => shown heap p.2) = [] := by
  have hself : Function.update s .γ (.float γ₀) = s := by rw [← hγ, Function.update_eq_self]
  set c : Stepper.Setup ℝ (SolutionInput ℝ) := asMade ops I str interp st false true with hcdef
  obtain ⟨xs, ts, i, e, as, ss, heap, next, h1, h2, h3, h4, h5⟩ :=
    Stepper.solver_outcome c human (String.ofList method) split ⟨γ₀, s⟩
      ({ info := () } : Run Unit (Stepper.Stored ℝ (SolutionInput ℝ)))
      StepRun.DEFAULT_NUM_ATTEMPTS hsp (setup_flags (ops := ops) (I := I) (str := str)
        (interp := interp) (st := st)) ⟨rfl, rfl⟩
  have hsolve : c.solve ⟨γ₀, s⟩ = .error .SolverError := by
    show (single_solution I str interp st (fields ⟨γ₀, s⟩)).map (fun m => view m.out) = _
    rw [fields]
    dsimp only
    rw [hself, hs]
    rfl
  have hxs : xs = [] := by
    cases xs with
    | nil => rfl
    | cons x xs =>
      exfalso
      have hx := Stepper.history_head h1
      simp at hx
      have := (Stepper.history_solved h1 x (by simp)).1
      rw [hx, hsolve] at this
      cases this
  subst hxs
  have hi0 : i = ⟨γ₀, s⟩ := by simpa using Stepper.history_head h1
  subst hi0
  have hend : e = .raised (.py .SolverError) ∧ as = [] := by
    cases h3 with
    | exhausted hn => simp [StepRun.DEFAULT_NUM_ATTEMPTS] at hn
    | noSolution _ h => rw [hsolve] at h; injection h with h; rw [h]; exact ⟨rfl, rfl⟩
    | found _ h => rw [hsolve] at h; cases h
    | gaveUp _ h => rw [hsolve] at h; cases h
    | stopped _ h => rw [hsolve] at h; cases h
    | noType _ h => rw [hsolve] at h; cases h
    | hangs _ h => rw [hsolve] at h; cases h
  obtain ⟨rfl, rfl⟩ := hend
  refine ⟨_, _, _, h5, rfl, ?_⟩
  dsimp only
  rw [numbered_shown, shown_later h4]
  simp [Stepper.laterInputs]

/-- One attempt whose search over `γ` ends at once. -/
theorem simple_func {s : SolutionInput ℝ} {method : Text} {split : Stepper.Splitter}
    (hm : s .split_method = .str method)
    (hsp : Stepper.create_soln_splitter human (String.ofList method) = .ok split)
    {γ₀ v : ℝ} {a : Attempt} (h : Simple (single_solution I str interp st) s γ₀ v a)
    (w : Memory) :
    ∃ f w', solution_func ops human I str interp st (at' s v γ₀) w = (.ok f, w') ∧
      f.quality = a.quality ∧ v_rin ⟨f.input, none⟩ = v ∧
      (∀ v', next_input s ⟨f.input, none⟩ v' = at' s v' γ₀) ∧
      (a.last.isSome → ∃ k, f.which = some k ∧ w'.inputs[k]? = some (far s v γ₀)) ∧
      (a.last = none → f.which = none ∧ w' = w) := by
  have hms : at' s v γ₀ .split_method = .str method := by rw [at_split, hm]
  have hset : { setup ops I str interp st with on_file := false, no_final_solution := true } =
      asMade ops I str interp st false true := rfl
  cases h with
  | @found m f h1 h2 h3 =>
    obtain ⟨a, r, heap, k1, ⟨b, k2⟩, k3⟩ := inner_found (ops := ops) (at_γ s v γ₀) hsp h1 h2
    obtain ⟨z, -⟩ := EndToEnd.single_solution_ok h3
    have hf : solution_func ops human I str interp st (at' s v γ₀) w =
        (.ok ⟨some (w.add (at' s v γ₀)).inputs.length, far s v γ₀, f.out.angles.max?⟩,
          (w.add (at' s v γ₀)).add (far s v γ₀)) := by
      unfold solution_func
      rw [at_γ, hms]
      dsimp only
      rw [hset, k1]
      dsimp only
      rw [k3, k2]
      dsimp only [List.foldl_cons, List.foldl_nil]
      rw [last_add]
      dsimp only
      rw [final_at, h3]
      dsimp only
      rw [z]
    refine ⟨_, _, hf, rfl, ?_, fun v' => next_far s v γ₀ v' none, fun _ => ⟨_, rfl, ?_⟩,
      fun h => by cases h⟩
    · unfold v_rin
      simp only [far_v]
    · simp [Memory.add]
  | nothing h1 =>
    obtain ⟨a, r, heap, k1, k2, k3⟩ := inner_nothing (ops := ops) (at_γ s v γ₀) hsp h1
    have hf : solution_func ops human I str interp st (at' s v γ₀) w =
        (.ok ⟨none, at' s v γ₀, some 0⟩, w) := by
      unfold solution_func
      rw [at_γ, hms]
      dsimp only
      rw [hset, k1]
      dsimp only
      rw [k3, k2]
      rfl
    refine ⟨_, _, hf, rfl, ?_, fun v' => next_at s v γ₀ v' none, fun h => (by cases h),
      fun _ => ⟨rfl, rfl⟩⟩
    unfold v_rin
    simp only [at_v]

/-- An attempt after which the search goes on. -/
theorem search_next {s : SolutionInput ℝ} {method : Text} {split : Stepper.Splitter}
    (hm : s .split_method = .str method)
    (hsp : Stepper.create_soln_splitter human (String.ofList method) = .ok split)
    {γ₀ v : ℝ} {a : Attempt} (h : Simple (single_solution I str interp st) s γ₀ v a)
    (w : Memory) (step_size : ℝ) (left : ℕ) (vars vars' : FastCrosser.Vars) (v' : ℝ)
    (hstep : FastCrosser.step step_size v a.quality vars = (.ok v', vars')) :
    ∃ w', search ops human I str interp st s step_size (left + 1) vars (at' s v γ₀) w =
        search ops human I str interp st s step_size left vars' (at' s v' γ₀) w' ∧
      (a.last.isSome → w'.last = .ok (at' s v' γ₀)) ∧ (a.last = none → w' = w) := by
  obtain ⟨f, w₁, h1, h2, h3, h4, h5, h6⟩ := simple_func (ops := ops) hm hsp h w
  rw [search, h1]
  dsimp only
  rw [h3, h2, hstep]
  dsimp only
  rw [h4]
  cases hl : a.last with
  | none =>
    obtain ⟨k1, k2⟩ := h6 hl
    rw [k1, k2]
    exact ⟨w, rfl, fun h => (by cases h), fun _ => rfl⟩
  | some m =>
    obtain ⟨k, k1, k2⟩ := h5 (by rw [hl]; rfl)
    rw [k1]
    exact ⟨_, rfl, fun _ => last_changed k2, fun h => (by cases h)⟩

/-- An attempt with which the search ends. -/
theorem search_end {s : SolutionInput ℝ} {method : Text} {split : Stepper.Splitter}
    (hm : s .split_method = .str method)
    (hsp : Stepper.create_soln_splitter human (String.ofList method) = .ok split)
    {γ₀ v : ℝ} {a : Attempt} (h : Simple (single_solution I str interp st) s γ₀ v a)
    (w : Memory) (step_size : ℝ) (left : ℕ) (vars vars' : FastCrosser.Vars)
    (hstep : FastCrosser.step step_size v a.quality vars = (.error .error, vars')) :
    ∃ w', search ops human I str interp st s step_size (left + 1) vars (at' s v γ₀) w =
        (.ok (), w') ∧
      (a.last.isSome → w'.last = .ok (far s v γ₀)) ∧ (a.last = none → w' = w) := by
  obtain ⟨f, w₁, h1, h2, h3, h4, h5, h6⟩ := simple_func (ops := ops) hm hsp h w
  rw [search, h1]
  dsimp only
  rw [h3, h2, hstep]
  dsimp only
  cases hl : a.last with
  | none =>
    obtain ⟨k1, k2⟩ := h6 hl
    rw [k1, k2]
    exact ⟨w, rfl, fun h => (by cases h), fun _ => rfl⟩
  | some m =>
    obtain ⟨k, k1, k2⟩ := h5 (by rw [hl]; rfl)
    rw [k1]
    exact ⟨_, rfl, fun _ => last_stored_again k2, fun h => (by cases h)⟩

/-- The crosser in memory if neither the velocity one per cent above the one asked for nor the
one below gets further: what the final solution shows. -/
theorem memory_gives_up {s : SolutionInput ℝ} (run : TheRun ℝ (SolutionInput ℝ)) {γ₀ v₀ : ℝ}
    {method : Text} {split : Stepper.Splitter} (hγ : s .γ = .float γ₀)
    (hv : s .v_rin_on_c_s = .float v₀) (hm : s .split_method = .str method)
    (hsp : Stepper.create_soln_splitter human (String.ofList method) = .ok split)
    {a₀ a₁ a₂ : Attempt} (h0 : Simple (single_solution I str interp st) s γ₀ v₀ a₀)
    (h1 : Simple (single_solution I str interp st) s γ₀ (v₀ + 0.01 * v₀) a₁)
    (h2 : Simple (single_solution I str interp st) s γ₀ (v₀ - 0.01 * v₀) a₂)
    (hq1 : FastCrosser.gt a₁.quality a₀.quality = false)
    (hq2 : FastCrosser.gt a₂.quality a₀.quality = false) :
    ∃ x r, crosser_solver ops human I str interp st s run = (x, r) ∧
      (a₂.last.isSome → x = .ok true ∧
        r.final = .value (some (far s (v₀ - 0.01 * v₀) γ₀))) ∧
      (a₂.last = none → a₁.last.isSome → x = .ok true ∧
        r.final = .value (some (at' s (v₀ - 0.01 * v₀) γ₀))) ∧
      (a₂.last = none → a₁.last = none → a₀.last.isSome → x = .ok true ∧
        r.final = .value (some (at' s (v₀ + 0.01 * v₀) γ₀))) ∧
      (a₂.last = none → a₁.last = none → a₀.last = none → x = .error .IndexError) := by
  obtain ⟨w₀, b1, b2, b3⟩ := search_next (ops := ops) hm hsp h0 {} (0.01 * v₀) 999 {}
    { min := some v₀, max := some v₀, min_val := some a₀.quality, max_val := some a₀.quality,
      phase := .FINDING_MAX } (v₀ + 0.01 * v₀) rfl
  obtain ⟨w₁, c1, c2, c3⟩ := search_next (ops := ops) hm hsp h1 w₀ (0.01 * v₀) 998
    { min := some v₀, max := some v₀, min_val := some a₀.quality, max_val := some a₀.quality,
      phase := .FINDING_MAX }
    { min := some v₀, max := some v₀, min_val := some a₀.quality, max_val := some a₀.quality,
      phase := .FINDING_MIN } (v₀ - 0.01 * v₀) (by simp [FastCrosser.step, hq1])
  obtain ⟨w₂, d1, d2, d3⟩ := search_end (ops := ops) hm hsp h2 w₁ (0.01 * v₀) 997
    { min := some v₀, max := some v₀, min_val := some a₀.quality, max_val := some a₀.quality,
      phase := .FINDING_MIN }
    { min := some v₀, max := some v₀, min_val := some a₀.quality, max_val := some a₀.quality,
      phase := .BISECTING } (by simp [FastCrosser.step, hq2])
  have hs : search ops human I str interp st s (0.01 * v₀) CrosserRun.DEFAULT_NUM_ATTEMPTS {} s
      {} = (.ok (), w₂) := by
    rw [at_self hv hγ] at b1
    exact b1.trans (c1.trans d1)
  have hr : ∀ y, w₂.last = .ok y → crosser_solver ops human I str interp st s run =
      (.ok true, { run with solutions := w₂.entries, final := .value (some y) }) := by
    intro y hy
    unfold crosser_solver
    rw [hv]
    dsimp only
    rw [hs]
    dsimp only
    rw [hy]
  rcases Option.eq_none_or_eq_some a₂.last with h2' | ⟨m₂, h2'⟩
  · rw [d3 h2'] at hr
    rcases Option.eq_none_or_eq_some a₁.last with h1' | ⟨m₁, h1'⟩
    · rw [c3 h1'] at hr
      rcases Option.eq_none_or_eq_some a₀.last with h0' | ⟨m₀, h0'⟩
      · have he : crosser_solver ops human I str interp st s run =
            (.error .IndexError, { run with solutions := w₂.entries }) := by
          unfold crosser_solver
          rw [hv]
          dsimp only
          rw [hs]
          dsimp only
          rw [d3 h2', c3 h1', b3 h0']
          rfl
        exact ⟨_, _, he, by simp [h2'], by simp [h1'], by simp [h0'], fun _ _ _ => rfl⟩
      · exact ⟨_, _, hr _ (b2 (by simp [h0'])), by simp [h2'], by simp [h1'],
          fun _ _ _ => ⟨rfl, rfl⟩, by simp [h0']⟩
    · exact ⟨_, _, hr _ (c2 (by simp [h1'])), by simp [h2'], fun _ _ => ⟨rfl, rfl⟩,
        by simp [h1'], by simp [h1']⟩
  · exact ⟨_, _, hr _ (d2 (by simp [h2'])), fun _ => ⟨rfl, rfl⟩, by simp [h2'], by simp [h2'],
      by simp [h2']⟩

/-- C109 is false of `fast_crosser`: if there are discs with the velocity asked for and with
the one one per cent above, which reach as far, and none with the one one per cent below, the
row which is written is that without a disc. -/
theorem csv_row_without_disc {s : SolutionInput ℝ} {run : TheRun ℝ (SolutionInput ℝ)}
    (hr : row_inputs C "fast_crosser" ov d = .ok (s, run)) {inp : NumInput} {o : SolveOpts}
    {t : Tolerances} (hn : numInput s = .ok inp) (ht : tolerances s = .ok t)
    (ho : solveOpts s = .ok o) {method : Text} (hm : s .split_method = .str method)
    {split : Stepper.Splitter}
    (hsp : Stepper.create_soln_splitter human (String.ofList method) = .ok split)
    {x₀ x₁ : SolutionOut}
    (h0 : Outcome (I t) str interp o st inp inp.v_rin_on_c_s (some x₀))
    (h1 : Outcome (I t) str interp o st inp (inp.v_rin_on_c_s + 0.01 * inp.v_rin_on_c_s)
      (some x₁))
    (h2 : define_conditions
      { inp with v_rin_on_c_s := inp.v_rin_on_c_s - 0.01 * inp.v_rin_on_c_s } = none)
    (hq1 : FastCrosser.gt x₁.angles.max? x₀.angles.max? = false)
    (hq2 : FastCrosser.gt (some 0) x₀.angles.max? = false) :
    csv_find C id (methods ops human I str interp others st) "fast_crosser" ov d =
      .ok (some (Function.update s .v_rin_on_c_s
        (.float (inp.v_rin_on_c_s - 0.01 * inp.v_rin_on_c_s)))) ∧
    single_solution I str interp st (Function.update s .v_rin_on_c_s
      (.float (inp.v_rin_on_c_s - 0.01 * inp.v_rin_on_c_s))) = .error .SolverError := by
  have hγ : s .γ = .float inp.γ := (EndToEnd.numInput_ok hn).2.2.2.1
  have hv : s .v_rin_on_c_s = .float inp.v_rin_on_c_s := (EndToEnd.numInput_ok hn).2.2.2.2.1
  have ho' : solveOpts s = .ok { o with interp_slice := o.interp_slice } := ho
  obtain ⟨a₀, b1, b2, b3⟩ := outcome_simple hn ht ho' (fun _ => rfl) h0
  obtain ⟨a₁, c1, c2, c3⟩ := outcome_simple hn ht ho' (fun _ => rfl) h1
  obtain ⟨a₂, d1, d2, d3⟩ := outcome_simple hn ht ho' (fun _ => rfl)
    (Outcome.nothing (I := I t) (str := str) (interp := interp) (o := o) (st := st) h2)
  have hsome : ∀ {v : ℝ} {a : Attempt}, Simple (single_solution I str interp st) s inp.γ v a →
      (a.last.isSome = true ∧ a.stored ≠ []) ∨ (a.last = none ∧ a.stored = [] ∧
        single_solution I str interp st (at' s v inp.γ) = .error .SolverError) := by
    intro v a h
    cases h with
    | found => exact Or.inl ⟨rfl, by simp [Attempt.stored]⟩
    | nothing h => exact Or.inr ⟨rfl, rfl, h⟩
  have e1 : a₁.last.isSome = true := by
    rcases hsome c1 with h | h
    · exact h.1
    · cases c3.1 h.2.1
  obtain ⟨e2, -, e3⟩ : a₂.last = none ∧ a₂.stored = [] ∧ _ := by
    rcases hsome d1 with h | h
    · exact absurd (d3.2 rfl) h.2
    · exact h
  have hat : at' s (inp.v_rin_on_c_s - 0.01 * inp.v_rin_on_c_s) inp.γ =
      Function.update s .v_rin_on_c_s
        (.float (inp.v_rin_on_c_s - 0.01 * inp.v_rin_on_c_s)) := by
    unfold at'
    funext f
    by_cases hf : f = .γ
    · subst hf
      rw [Function.update_self, Function.update_of_ne (by decide), hγ]
    · rw [Function.update_of_ne hf]
  rw [hat] at e3
  refine ⟨?_, e3⟩
  obtain ⟨x, r, g1, -, g2, -⟩ := memory_gives_up (ops := ops) run hγ hv hm hsp b1 c1 d1
    (by rw [b2, c2]; exact hq1) (by rw [b2, d2]; exact hq2)
  obtain ⟨rfl, g3⟩ := g2 e2 e1
  rw [hat] at g3
  rw [csv_find_some]
  exact ⟨by decide, s, run, r, _, hr, g1, g3, rfl⟩

/-! ## A table with such a row -/

open EndToEnd

/-- What the row says. -/
def witCell : CField → Text
  | .label => []
  | .s .η_O => "0.0001".toList
  | .s .η_A => "0".toList
  | .s .η_H => "0.0378".toList
  | f => witCrossAsked false f

def witTableRow : Dict Text (Option Text) :=
  CField.all.map fun f => (f.name.toList, some (witCell f))

/-- The conversions know this number too. -/
noncomputable def witConvM : Conv ℝ :=
  { witConvR with
    str_to_float := fun t => if t = some "0.0378".toList then some (378/10000) else witFloat t }

noncomputable def witMemInp : NumInput :=
  { witInp with η_O := 1/10000, η_A := 0, η_H := 378/10000 }

/-- The row as read. -/
noncomputable def witRead : SolutionInput ℝ
  | .start => .float 0
  | .stop => .float 90
  | .taylor_stop_angle => .float (1/1000)
  | .max_steps => .int 10000
  | .num_angles => .int 3
  | .relative_tolerance => .float (1/10^6)
  | .absolute_tolerance => .float (1/10^10)
  | .γ => .float (1/1000)
  | .target_velocity => .float (9/10)
  | .split_method => .str "v_θ_deriv".toList
  | .v_rin_on_c_s => .float 1
  | .v_a_on_c_s => .float 1
  | .c_s_on_v_k => .float (3/100)
  | .η_O => .float (1/10000)
  | .η_H => .float (378/10000)
  | .η_A => .float 0
  | .η_derivs => .bool true
  | .use_taylor_jump => .bool false
  | .use_E_r => .bool false
  | .mcmc_vars => .mcmc ⟨true, true, true⟩
  | .iterations => .int 3
  | .nwalkers => .int 8
  | .interp_slice => .slice ⟨some (-1000), some (-100), none⟩
  | _ => .none

theorem wit_reads (method : String) : ∃ run : TheRun ℝ (SolutionInput ℝ),
    row_inputs witConvM method (some []) witTableRow = .ok (witRead, run) := by
  have h1 : ConfigInput.ofDict (withoutIds witTableRow) =
      .ok (ConfigInput.mk fun f => some (witCell f)) := by
    have hw : withoutIds witTableRow = witTableRow := by decide +kernel
    rw [hw]
    unfold ConfigInput.ofDict
    rw [if_pos (by decide +kernel)]
    congr 2
    funext f
    cases f with
    | label => decide +kernel
    | s f => cases f <;> decide +kernel
  have h2 : (ConfigInput.mk fun f => some (witCell f)).to_soln_input witConvM = .ok witRead := by
    rw [to_soln_input_ok]
    intro f
    cases f <;> (simp only [readField, SField.kind]; rfl)
  have h3 : add_overrides (some []) (ConfigInput.mk fun f => some (witCell f)) =
      .ok (ConfigInput.mk fun f => some (witCell f)) := by
    unfold add_overrides ConfigInput.evolve
    dsimp only
    rw [if_pos (by decide)]
    congr 1
    funext f
    cases f with
    | label => decide +kernel
    | s f => cases f <;> decide +kernel
  unfold row_inputs
  rw [h1]
  simp only [h3, h2]
  exact ⟨_, rfl⟩

/-- At the velocity one, and above. -/
theorem wit_disc (v : ℝ) (h : v = 1 ∨ v = 1 + 0.01 * 1) :
    ∃ out, Outcome (witWind witTol) (fun _ => "") (fun _ _ => none)
        { witCrossOpts with interp_slice := ⟨some (-1000), some (-100), none⟩ } false witMemInp v
        (some out) ∧
      out.angles = scaled_to_rad 0 1 ::
        (taylor_new_angles ((linspace 0 90 900000).map radians)
          (radians witCrossOpts.taylor_stop_angle / 1)).map (fun x => scaled_to_rad x 1) := by
  have hd : ∀ inp : NumInput, inp.v_rin_on_c_s = v → inp.γ = 1/1000 → inp.v_a_on_c_s = 1 →
      inp.c_s_on_v_k = 3/100 → inp.η_O = 1/10000 → inp.η_A = 0 → inp.η_H = 378/10000 →
      ∃ c, define_conditions inp = some c := by
    intro inp e1 e2 e3 e4 e5 e6 e7
    apply Option.isSome_iff_exists.1
    simp only [define_conditions, v_φ_boundary_func]
    rw [if_neg]
    · rfl
    · rw [e1, e2, e3, e4, e5, e6, e7]
      rcases h with rfl | rfl <;> norm_num [v_φ_discriminant]
  have hs : ∀ c, (solution (witWind witTol) (fun _ => "") (fun _ _ => none)
      { witCrossOpts with interp_slice := ⟨some (-1000), some (-100), none⟩ } c
      { store_internal := false }).result = (solution (witWind witTol) (fun _ => "")
      (fun _ _ => none) witCrossOpts c { store_internal := false }).result :=
    fun c => by rw [solution_slice _ _ _ _ _ _ _ rfl]
  obtain ⟨c, hc⟩ := hd { witMemInp with v_rin_on_c_s := v } rfl rfl rfl rfl rfl rfl rfl
  obtain ⟨c', hc'⟩ := hd { witMemInp with v_rin_on_c_s := v, stop := 90, num_angles := 900000 }
    rfl rfl rfl rfl rfl rfl rfl
  obtain ⟨k1, k2, k3⟩ := wit_conditions hc
  obtain ⟨-, -, k4⟩ := wit_conditions hc'
  have a1 := wit_angles 1 le_rfl
  have a2 := wit_angles 899998 (by norm_num)
  obtain ⟨out, o1, o2, -, o4⟩ := witWind_solution c (by rw [k3]; exact a1)
  obtain ⟨out', o1', -, o3', -⟩ := witWind_solution c' (by rw [k4]; exact a2)
  refine ⟨out', .disc hc (by rw [hs]; exact o1) (witWind_accepted k1 k2 ?_ o2 o4) hc'
    (by rw [hs]; exact o1'), ?_⟩
  · intro hcon
    rw [k3] at hcon
    apply a1
    have : (taylor_new_angles ((linspace 0 90 (1 + 2)).map radians)
      (radians witCrossOpts.taylor_stop_angle / 1)) = [] := hcon
    rw [this]
    norm_num
  · rw [o3', k4]
    rfl

/-- The row written for this one: the velocity is 0.99, for which there is no disc. -/
theorem wit_row :
    csv_find witConvM id (methods Stepper.realOps (fun _ => .STOP) witWind (fun _ => "")
      (fun _ _ => none) (fun _ _ _ r => (.error .SolverError, r)) false) "fast_crosser" (some [])
      witTableRow = .ok (some (Function.update witRead .v_rin_on_c_s (.float 0.99))) ∧
    single_solution witWind (fun _ => "") (fun _ _ => none) false
      (Function.update witRead .v_rin_on_c_s (.float 0.99)) = .error .SolverError := by
  obtain ⟨run, hr⟩ := wit_reads "fast_crosser"
  obtain ⟨out₀, b0, d0⟩ := wit_disc 1 (Or.inl rfl)
  obtain ⟨out₁, b1, d1⟩ := wit_disc (1 + 0.01 * 1) (Or.inr rfl)
  have h99 : (witMemInp.v_rin_on_c_s - 0.01 * witMemInp.v_rin_on_c_s : ℝ) = 0.99 := by
    norm_num [witMemInp, witInp]
  have hmax : ∃ y, out₀.angles.max? = some y ∧ 0 ≤ y := by
    have h0 : scaled_to_rad 0 1 ∈ out₀.angles := by
      rw [d0]
      exact List.mem_cons_self
    cases hm : out₀.angles.max? with
    | none =>
      rw [List.max?_eq_none_iff] at hm
      rw [hm] at h0
      cases h0
    | some y =>
      refine ⟨y, rfl, le_trans ?_ ((List.max?_le_iff hm (x := y)).1 le_rfl _ h0)⟩
      simp [scaled_to_rad]
  have key := csv_row_without_disc (ops := Stepper.realOps) (human := fun _ => .STOP)
    (I := witWind) (str := fun _ => "") (interp := fun _ _ => none) (st := false)
    (others := fun _ _ _ r => (.error .SolverError, r)) hr (inp := witMemInp)
    (o := { witCrossOpts with interp_slice := ⟨some (-1000), some (-100), none⟩ })
    (t := witTol) rfl rfl rfl (method := "v_θ_deriv".toList) rfl (by rfl) b0 b1 ?_ ?_ ?_
  · rw [h99] at key
    exact key
  · rw [h99]
    simp only [define_conditions, v_φ_boundary_func]
    rw [if_pos]
    norm_num [v_φ_discriminant, witMemInp, witInp]
  · rw [d1, d0]
    cases h : (scaled_to_rad 0 1 ::
        (taylor_new_angles ((linspace 0 90 900000).map radians)
          (radians witCrossOpts.taylor_stop_angle / 1)).map (fun x => scaled_to_rad x 1)).max? <;>
      simp [FastCrosser.gt]
  · obtain ⟨y, hy, hy0⟩ := hmax
    rw [hy]
    simp [FastCrosser.gt, hy0]

/-- The table: a header and this row. -/
def witLines : List Text :=
  [Csv.writeRow (CField.all.map fun f => f.name.toList),
    Csv.writeRow (CField.all.map witCell)]

theorem wit_table : Csv.get_csv_inputs (fun _ => .ok [[]]) witLines [] = .ok [witTableRow] := by
  decide +kernel

def witGiven : List Cli.Occ := [("--sonic-method", .str "fast_crosser")]

theorem wit_typed : CliSolve.Typed witGiven := by
  constructor
  · intro name hn v hv
    simp only [witGiven, List.mem_cons, Prod.mk.injEq, List.not_mem_nil, or_false] at hv
    exact ⟨_, hv.2⟩
  · intro v hv
    simp [witGiven] at hv

theorem wit_call : CliSolve.ds_csvrunner "t.csv" witGiven = .ok
    { input_file := "t.csv", nworkers := .none, sonic_method := "fast_crosser"
      store_internal := false, overrides := [], output_file := some "-" } := by
  rw [CliSolve.csvrunner_eq _ _ wit_typed (by decide +kernel)]
  rfl

/-- `ds-csvrunner --sonic-method fast_crosser t.csv`, when the worker has ended and its result
was taken: the one row of the output is one without a disc. -/
theorem wit_output :
    ∃ m, ds_csvrunner Stepper.realOps (fun _ => .STOP) witWind (fun _ => "") (fun _ _ => none)
        witConvM (fun _ _ _ r => (.error .SolverError, r)) (fun _ => .ok [[]])
        (fun _ => witLines) (fun _ => "None".toList) "t.csv" witGiven [] [.finish 0, .take] =
        .ok m ∧
      m.out = csv_preamble "None".toList "False".toList "fast_crosser".toList ++
        Csv.writeRow (csvRow witConvM (Function.update witRead .v_rin_on_c_s (.float 0.99))) ∧
      single_solution witWind (fun _ => "") (fun _ _ => none) false
        (Function.update witRead .v_rin_on_c_s (.float 0.99)) = .error .SolverError := by
  unfold ds_csvrunner
  rw [wit_call]
  dsimp only
  rw [wit_table]
  refine ⟨_, rfl, ?_, wit_row.2⟩
  simp [csvrunner, Main.step, wit_row.1, Imap.set, Imap.flush, Main.handle]

/-- Its input has a solution, which is acceptable. -/
theorem wit_solution : ∃ m, single_solution witWind (fun _ => "") (fun _ _ => none) false witRead =
    .ok m ∧ Accepted m.out := by
  obtain ⟨out, b, -⟩ := wit_disc 1 (Or.inl rfl)
  obtain ⟨a, h, -, h'⟩ := outcome_simple (s := witRead) (I := witWind) (z := _) (t := witTol)
    (inp := witMemInp) (o := { witCrossOpts with
      interp_slice := ⟨some (-1000), some (-100), none⟩ }) rfl rfl rfl (fun _ => rfl) b
  have hat : at' witRead 1 witMemInp.γ = witRead := by
    funext f
    cases f <;> rfl
  cases h with
  | found h1 h2 h3 => exact ⟨_, by rw [← hat]; exact h1, h2⟩
  | nothing h1 => simp [Attempt.stored] at h'

example := csv_single_row (ops := Stepper.realOps) (human := fun _ => .STOP)
  (others := fun _ _ _ r => (.error .SolverError, r)) (C := witConvM) (d := witTableRow)
  (ov := some []) (x := witRead) (st := false) (str := fun _ => "") (I := witWind)
  (interp := fun _ _ => none) (by
    obtain ⟨m, h, -⟩ := wit_solution
    obtain ⟨run, hr⟩ := wit_reads "single"
    rw [csv_find_some]
    refine ⟨by decide, witRead, run, { run with
      solutions := [("0", witRead)], final := .value (some witRead) }, witRead, hr, ?_, rfl, rfl⟩
    show single_solver witWind (fun _ => "") (fun _ _ => none) false witRead run = _
    unfold single_solver
    rw [h]
    dsimp only
    rw [(EndToEnd.single_solution_ok h).1])

example := csv_step_row (ops := Stepper.realOps) (human := fun _ => .STOP)
  (others := fun _ _ _ r => (.error .SolverError, r))
  (csv_step_first (ops := Stepper.realOps) (human := fun _ => .STOP)
    (others := fun _ _ _ r => (.error .SolverError, r)) (wit_reads "step").choose_spec rfl
    (method := "v_θ_deriv".toList) rfl (by rfl) wit_solution.choose_spec.1
    wit_solution.choose_spec.2)

example := csv_crosser_row_partial wit_row.1

example := csv_output_partial (ops := Stepper.realOps) (human := fun _ => .STOP) (I := witWind)
  (str := fun _ => "") (interp := fun _ _ => none) (C := witConvM)
  (others := fun _ _ _ r => (.error .SolverError, r)) (fun _ => .ok [[]]) (fun _ => witLines)
  (fun _ => "None".toList) "t.csv" witGiven [] [.finish 0, .take] wit_call wit_table
  (by simp [finished]) (by simp [finished])

end DiscSolver.MemRun
