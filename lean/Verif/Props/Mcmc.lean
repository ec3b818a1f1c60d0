import Verif.Model.Mcmc
import Verif.Props.Containers
import Mathlib.Tactic.Linarith
import Mathlib.Tactic.Positivity

/-!
# C52: MCMC variables and the best solution
-/

namespace DiscSolver

namespace Mcmc

variable {F κ σ μ : Type}

/-- C52: which variables are sampled. `γ` is the first; the others follow the
selection, and without a selection all are sampled. -/
theorem sampled_variables (inp : SolutionInput F) :
    (generate_sysvars_enum inp).head? = some .γ ∧
    (generate_sysvars_enum inp).Nodup ∧
    (∀ m, inp .mcmc_vars = .mcmc m →
      ∀ f, f ∈ generate_sysvars_enum inp ↔
        f = .γ ∨ (f = .v_rin_on_c_s ∧ m.with_v_r) ∨ (f = .v_a_on_c_s ∧ m.with_v_a) ∨
          (f = .c_s_on_v_k ∧ m.with_v_k)) ∧
    (inp .mcmc_vars = .none →
      generate_sysvars_enum inp = [.γ, .v_rin_on_c_s, .v_a_on_c_s, .c_s_on_v_k]) := by
  refine ⟨?_, ?_, ?_, ?_⟩
  · unfold generate_sysvars_enum
    cases inp .mcmc_vars <;> simp
  · unfold generate_sysvars_enum
    cases inp .mcmc_vars with
    | mcmc m => rcases m with ⟨a, b, c⟩; cases a <;> cases b <;> cases c <;> simp
    | _ => simp
  · intro m hm f
    simp only [generate_sysvars_enum, hm]
    rcases m with ⟨a, b, c⟩
    cases a <;> cases b <;> cases c <;> simp
  · intro h
    simp only [generate_sysvars_enum, h]

theorem set_vars_spec (xs : List (SVal F)) (fs : List SField) (i : ℕ)
    (inp : SolutionInput F) (hn : fs.Nodup) (hl : i + fs.length ≤ xs.length) :
    ∃ out, set_vars xs fs i inp = .ok out ∧
      (∀ f, f ∉ fs → out f = inp f) ∧
      ∀ j f, fs[j]? = some f → xs[i + j]? = some (out f) := by
  induction fs generalizing i inp with
  | nil => exact ⟨inp, rfl, fun _ _ => rfl, by simp⟩
  | cons f fs ih =>
    simp only [List.length_cons] at hl
    have hi : i < xs.length := by omega
    obtain ⟨h1, h2⟩ := List.nodup_cons.1 hn
    obtain ⟨out, e, k1, k2⟩ := ih (i + 1) (setField inp f xs[i]) h2 (by omega)
    refine ⟨out, by simp [set_vars, List.getElem?_eq_getElem hi, e], ?_, ?_⟩
    · intro g hg
      simp only [List.mem_cons, not_or] at hg
      rw [k1 g hg.2]
      simp [setField, hg.1]
    · intro j g hg
      cases j with
      | zero =>
        simp only [List.getElem?_cons_zero, Option.some.injEq] at hg
        subst hg
        rw [k1 f h1]
        simp [setField, List.getElem?_eq_getElem hi]
      | succ j =>
        have := k2 j g (by simpa using hg)
        rwa [Nat.add_assoc, Nat.add_comm 1 j] at this

/-- C52: taking the variables of an input and putting them back changes nothing. -/
theorem sys_vars_round_trip (inp : SolutionInput F) :
    sys_vars_to_solution_input
      (solution_input_to_sys_vars inp (generate_sysvars_enum inp)) inp
      (generate_sysvars_enum inp) = .ok inp := by
  obtain ⟨out, e, h1, h2⟩ := set_vars_spec
    (solution_input_to_sys_vars inp (generate_sysvars_enum inp))
    (generate_sysvars_enum inp) 0 inp (sampled_variables inp).2.1
    (by simp [solution_input_to_sys_vars])
  unfold sys_vars_to_solution_input
  rw [e]
  congr 1
  funext f
  by_cases hf : f ∈ generate_sysvars_enum inp
  · obtain ⟨j, hj⟩ := List.mem_iff_getElem?.1 hf
    have := h2 j f hj
    simp only [solution_input_to_sys_vars, Nat.zero_add, List.getElem?_map, hj,
      Option.map_some, Option.some.injEq] at this
    exact this.symm
  · exact h1 f hf

/-- C52: an input built from sampled values has those values and otherwise the values
of the input it was built from. -/
theorem sys_vars_values (inp : SolutionInput F) (xs : List (SVal F))
    (hl : xs.length = (generate_sysvars_enum inp).length) :
    ∃ out, sys_vars_to_solution_input xs inp (generate_sysvars_enum inp) = .ok out ∧
      solution_input_to_sys_vars out (generate_sysvars_enum inp) = xs ∧
      ∀ f, f ∉ generate_sysvars_enum inp → out f = inp f := by
  obtain ⟨out, e, h1, h2⟩ := set_vars_spec xs (generate_sysvars_enum inp) 0 inp
    (sampled_variables inp).2.1 (by omega)
  refine ⟨out, e, ?_, h1⟩
  apply List.ext_getElem?
  intro j
  simp only [solution_input_to_sys_vars, List.getElem?_map]
  cases hj : (generate_sysvars_enum inp)[j]? with
  | none =>
    rw [List.getElem?_eq_none_iff] at hj
    simp only [Option.map_none]
    exact (List.getElem?_eq_none (by omega)).symm
  | some f =>
    have := h2 j f hj
    rw [Nat.zero_add] at this
    rw [this]
    rfl

/-! ## Validity -/

/-- C52: an input of ordinary numbers is valid when all four are positive. -/
theorem valid_iff (inp : SolutionInput Flt) (r g a c : ℝ)
    (h1 : inp .v_rin_on_c_s = .float (some r)) (h2 : inp .γ = .float (some g))
    (h3 : inp .v_a_on_c_s = .float (some a)) (h4 : inp .c_s_on_v_k = .float (some c)) :
    ∃ b, solution_input_valid inp = .ok b ∧
      (b = true ↔ 0 < r ∧ 0 < g ∧ 0 < a ∧ 0 < c) := by
  unfold solution_input_valid
  simp only [h1, h2, h3, h4, le_zero, bind, Except.bind, pure, Except.pure]
  by_cases e1 : r ≤ 0
  · exact ⟨false, by simp [e1], by simp [not_lt.2 e1]⟩
  by_cases e2 : g ≤ 0
  · exact ⟨false, by simp [e1, e2], by simp [not_lt.2 e2]⟩
  by_cases e3 : a ≤ 0
  · exact ⟨false, by simp [e1, e2, e3], by simp [not_lt.2 e3]⟩
  by_cases e4 : c ≤ 0
  · exact ⟨false, by simp [e1, e2, e3, e4], by simp [not_lt.2 e4]⟩
  push Not at e1 e2 e3 e4
  exact ⟨true, by simp [not_le.2 e1, not_le.2 e2, not_le.2 e3, not_le.2 e4],
    by simp [e1, e2, e3, e4]⟩

/-- C52: an input of NaN counts as valid. -/
theorem nan_valid (inp : SolutionInput Flt)
    (h1 : inp .v_rin_on_c_s = .float none) (h2 : inp .γ = .float none)
    (h3 : inp .v_a_on_c_s = .float none) (h4 : inp .c_s_on_v_k = .float none) :
    solution_input_valid inp = .ok true := by
  unfold solution_input_valid
  simp [h1, h2, h3, h4, le_zero, bind, Except.bind, pure, Except.pure]

/-- C52: an invalid input is not solved: whatever the solver does, the answer is
minus infinity and nothing changes. -/
theorem invalid_not_solved (e : Env κ σ) (inp : SolutionInput Flt) (g : Generator μ σ)
    (h : solution_input_valid inp = .ok false) :
    evaluate e inp g = (.ok .negInf, g) := by
  simp [evaluate, h]

/-! ## The best solution -/

/-- What an evaluation stores: the solution of a valid, solvable input with a finite
probability. -/
noncomputable def storedOf (e : Env κ σ) (inp : SolutionInput Flt) : Option σ :=
  match solution_input_valid inp, e.define_conditions inp with
  | .ok true, .ok cons =>
    match e.solution inp cons with
    | .ok s => if (e.logprob s).isfinite then some s else none
    | .error _ => none
  | _, _ => none

/-- `best` is the first of the most probable solutions of `xs`. -/
def IsBest (lp : σ → LogProb) (xs : List σ) : Option σ → Prop
  | none => xs = []
  | some s => ∃ i x, xs[i]? = some s ∧ lp s = .finite x ∧
      (∀ (j : ℕ) (t : σ), xs[j]? = some t → ∃ y, lp t = .finite y ∧ y ≤ x ∧ (j < i → y < x))

/-- The state after storing `xs`. -/
structure Inv (lp : σ → LogProb) (m : μ) (xs : List σ) (g : Generator μ σ) : Prop where
  run : g.run = { info := m, solutions := numbered xs }
  best : (xs = [] ∧ g.best_logprob = .negInf ∧ g.best_logprob_index = none) ∨
    ∃ (i : ℕ) (s : σ) (x : ℝ), xs[i]? = some s ∧ lp s = .finite x ∧
      g.best_logprob = .finite x ∧ g.best_logprob_index = some i.repr ∧
      ∀ (j : ℕ) (t : σ), xs[j]? = some t → ∃ y, lp t = .finite y ∧ y ≤ x ∧ (j < i → y < x)

theorem inv_best {lp : σ → LogProb} {m : μ} {xs : List σ} {g : Generator μ σ}
    (h : Inv lp m xs g) : ∃ b, g.best_solution = .ok b ∧ IsBest lp xs b := by
  rcases h.best with ⟨h1, -, h3⟩ | ⟨i, s, x, h1, h2, -, h4, h5⟩
  · exact ⟨none, by simp [Generator.best_solution, h3], h1⟩
  · refine ⟨some s, ?_, i, x, h1, h2, h5⟩
    simp [Generator.best_solution, h4, h.run, Dict.getItem, numbered_get, h1, Except.map]

theorem inv_evaluate (e : Env κ σ) {m : μ} {xs : List σ} {g : Generator μ σ}
    (h : Inv e.logprob m xs g) (inp : SolutionInput Flt) :
    Inv e.logprob m (xs ++ (storedOf e inp).toList) (evaluate e inp g).2 := by
  unfold storedOf evaluate
  cases solution_input_valid inp with
  | error p => simpa using h
  | ok b =>
    cases b with
    | false => simpa using h
    | true =>
      cases e.define_conditions inp with
      | error p => cases p <;> simpa using h
      | ok cons =>
        simp only
        cases hs : e.solution inp cons with
        | error p => cases p <;> simpa using h
        | ok s =>
          simp only
          cases hl : e.logprob s with
          | negInf => simpa [LogProb.isfinite] using h
          | posInf => simpa [LogProb.isfinite] using h
          | nan => simpa [LogProb.isfinite] using h
          | finite y =>
            have hadd : g.run.addSolution s =
                .ok (xs.length.repr, { info := m, solutions := numbered (xs ++ [s]) }) := by
              rw [h.run]
              unfold Run.addSolution
              simp [add_numbered, bind, Except.bind, pure, Except.pure]
            simp only [LogProb.isfinite, if_true, hadd, Option.toList_some]
            have last : ∀ (j : ℕ) (t : σ), (xs ++ [s])[j]? = some t →
                xs[j]? = some t ∨ (j = xs.length ∧ t = s) := by
              intro j t hj
              rcases Nat.lt_trichotomy j xs.length with hlt | rfl | hgt
              · exact Or.inl (by rwa [List.getElem?_append_left hlt] at hj)
              · right; simpa [eq_comm] using hj
              · rw [List.getElem?_eq_none (by simp; omega)] at hj
                cases hj
            rcases h.best with ⟨rfl, hb, hi⟩ | ⟨i, t, x, h1, h2, hb, hi, h5⟩
            · rw [hb]
              simp only [LogProb.gt, if_true]
              refine ⟨rfl, Or.inr ⟨0, s, y, rfl, hl, rfl, rfl, ?_⟩⟩
              intro j t hj
              rcases last j t hj with hj | ⟨rfl, rfl⟩
              · simp at hj
              · exact ⟨y, hl, le_refl _, by simp⟩
            · rw [hb]
              have hilt : i < xs.length := by
                by_contra hh
                rw [List.getElem?_eq_none (by omega)] at h1
                cases h1
              by_cases hyx : y > x
              · simp only [LogProb.gt, decide_eq_true hyx, if_true]
                refine ⟨rfl, Or.inr ⟨xs.length, s, y, by simp, hl, rfl, rfl, ?_⟩⟩
                intro j t hj
                rcases last j t hj with hj | ⟨rfl, rfl⟩
                · obtain ⟨z, hz, hzx, -⟩ := h5 j t hj
                  exact ⟨z, hz, by linarith, fun _ => by linarith⟩
                · exact ⟨y, hl, le_refl _, by simp⟩
              · simp only [LogProb.gt, decide_eq_false hyx, Bool.false_eq_true, if_false]
                refine ⟨rfl, Or.inr ⟨i, t, x, ?_, h2, rfl, hi, ?_⟩⟩
                · rw [List.getElem?_append_left hilt]; exact h1
                · intro j u hj
                  rcases last j u hj with hj | ⟨rfl, rfl⟩
                  · exact h5 j u hj
                  · exact ⟨y, hl, by linarith, fun hh => by omega⟩

/-- Evaluating a sequence of inputs. -/
noncomputable def evaluateAll (e : Env κ σ) (g : Generator μ σ) :
    List (SolutionInput Flt) → Generator μ σ
  | [] => g
  | inp :: inps => evaluateAll e (evaluate e inp g).2 inps

theorem inv_evaluateAll (e : Env κ σ) {m : μ} {xs : List σ} {g : Generator μ σ}
    (h : Inv e.logprob m xs g) (inps : List (SolutionInput Flt)) :
    Inv e.logprob m (xs ++ inps.filterMap (storedOf e)) (evaluateAll e g inps) := by
  induction inps generalizing xs g with
  | nil => simpa [evaluateAll] using h
  | cons inp inps ih =>
    have := ih (inv_evaluate e h inp)
    simp only [evaluateAll]
    rw [List.append_assoc] at this
    convert this using 2
    cases hs : storedOf e inp <;> simp [hs]

theorem inv_start (lp : σ → LogProb) (m : μ) :
    Inv lp m ([] : List σ) { run := { info := m } } := ⟨rfl, Or.inl ⟨rfl, rfl, rfl⟩⟩

/-- C52: after any sequence of evaluations the run holds, in order, the solutions of
finite probability, and the best solution is the first most probable of them, or none
if there is none. -/
theorem best_after_evaluations (e : Env κ σ) (m : μ) (inps : List (SolutionInput Flt)) :
    (evaluateAll e ({ run := { info := m } } : Generator μ σ) inps).run.solutions =
        numbered (inps.filterMap (storedOf e)) ∧
      ∃ b, (evaluateAll e ({ run := { info := m } } : Generator μ σ) inps).best_solution =
          .ok b ∧ IsBest e.logprob (inps.filterMap (storedOf e)) b := by
  have h := inv_evaluateAll e (inv_start e.logprob m) inps
  rw [List.nil_append] at h
  exact ⟨by rw [h.run], inv_best h⟩

theorem sample_evaluates (e : Env κ σ) (soln_input : SolutionInput Flt) (en : List SField)
    (choose : List LogProb → Except PyErr (List (SVal Flt))) (n : ℕ) (seen : List LogProb)
    (g : Generator μ σ) :
    ∃ inps, (sample e soln_input en choose n seen g).2 = evaluateAll e g inps ∧
      inps.length ≤ n := by
  induction n generalizing seen g with
  | zero => exact ⟨[], rfl, by simp⟩
  | succ n ih =>
    simp only [sample]
    cases choose seen with
    | error p => exact ⟨[], rfl, by simp⟩
    | ok point =>
      simp only [call]
      cases sys_vars_to_solution_input point soln_input en with
      | error p => exact ⟨[], rfl, by simp⟩
      | ok inp =>
        simp only
        cases he : evaluate e inp g with
        | mk r g' =>
          cases r with
          | error p => exact ⟨[inp], by simp [evaluateAll, he], by simp⟩
          | ok v =>
            obtain ⟨inps, h1, h2⟩ := ih (seen ++ [v]) g'
            exact ⟨inp :: inps, by simp [evaluateAll, he, h1], by simpa using h2⟩

/-- C52: whatever points the sampler tries, if the solver returns then it returns true
and the final solution is the first most probable of the stored ones, or `None`. -/
theorem mcmc_final (e : Env κ σ) (soln_input : SolutionInput Flt)
    (choose : List LogProb → Except PyErr (List (SVal Flt))) (n : ℕ) (m : μ) (b : Bool)
    (h : (solver e soln_input choose n ({ info := m } : Run μ σ)).1 = .ok b) :
    b = true ∧ ∃ (inps : List (SolutionInput Flt)) (best : Option σ), inps.length ≤ n ∧
      solver e soln_input choose n ({ info := m } : Run μ σ) =
        (.ok true, { info := m, solutions := numbered (inps.filterMap (storedOf e)),
                     final := .value best }) ∧
      IsBest e.logprob (inps.filterMap (storedOf e)) best := by
  obtain ⟨inps, h1, h2⟩ := sample_evaluates e soln_input
    (generate_sysvars_enum soln_input) choose n [] ({ run := { info := m } } : Generator μ σ)
  have hinv := inv_evaluateAll e (inv_start e.logprob m) inps
  rw [List.nil_append, ← h1] at hinv
  unfold solver at h ⊢
  cases hs : sample e soln_input (generate_sysvars_enum soln_input) choose n []
      ({ run := { info := m } } : Generator μ σ) with
  | mk r g =>
    rw [hs] at hinv h
    obtain ⟨best, hb, hbest⟩ := inv_best hinv
    cases r with
    | error p => simp at h
    | ok u =>
      have hrun : g.run = _ := hinv.run
      rcases g with ⟨r, bl, bi⟩
      simp only at hrun
      subst hrun
      simp only [hb] at h ⊢
      injection h with h
      exact ⟨h.symm, inps, best, h2, rfl, hbest⟩

/-! ## The probability -/

theorem sq_sum_nonneg (l : List ℝ) : 0 ≤ (l.map (· ^ 2)).sum := by
  induction l with
  | nil => simp
  | cons x l ih => simp only [List.map_cons, List.sum_cons]; positivity

/-- C52: the log probability of a solution is always negative. -/
theorem logprob_neg (v : List ℝ) (x : ℝ) (h : get_logprob_of_soln v = .ok x) : x < 0 := by
  unfold get_logprob_of_soln at h
  cases hm : v.max? with
  | none => simp [hm] at h
  | some m =>
    simp only [hm, Except.ok.injEq] at h
    have := sq_sum_nonneg (diff ((diff v).map (· ^ 2)))
    have := Real.exp_pos (-m)
    unfold get_outflow_rate_probability at h
    linarith

/-- C52: of two equally smooth solutions the one that gets faster is more probable. -/
theorem logprob_faster (v w : List ℝ) (m n x y : ℝ) (hm : v.max? = some m)
    (hn : w.max? = some n) (hx : get_logprob_of_soln v = .ok x)
    (hy : get_logprob_of_soln w = .ok y)
    (hs : get_outflow_rate_probability v = get_outflow_rate_probability w) :
    x < y ↔ m < n := by
  unfold get_logprob_of_soln at hx hy
  simp only [hm, hn, Except.ok.injEq] at hx hy
  have := Real.exp_lt_exp (x := -n) (y := -m)
  rw [← hx, ← hy, hs]
  constructor
  · intro h
    by_contra hc
    have : ¬ Real.exp (-n) < Real.exp (-m) := by rw [this]; intro h; linarith
    apply this; linarith
  · intro h
    have := this.2 (by linarith)
    linarith

theorem outflow_cons (a b c : ℝ) (l : List ℝ) :
    get_outflow_rate_probability (a :: b :: c :: l) =
      - ((c - b) ^ 2 - (b - a) ^ 2) ^ 2 + get_outflow_rate_probability (b :: c :: l) := by
  simp only [get_outflow_rate_probability, diff, List.tail_cons, List.zipWith_cons_cons,
    List.map_cons, List.sum_cons]
  ring

/-- C52: how smooth a solution counts: minus the sum of the squared changes of the squared
steps of `v_θ`. -/
theorem outflow_value (v : List ℝ) : get_outflow_rate_probability v =
    - ∑ i ∈ Finset.range (v.length - 2), ((v.getD (i + 2) 0 - v.getD (i + 1) 0) ^ 2 -
      (v.getD (i + 1) 0 - v.getD i 0) ^ 2) ^ 2 := by
  induction v with
  | nil => simp [get_outflow_rate_probability, diff]
  | cons a l ih =>
    match l with
    | [] => simp [get_outflow_rate_probability, diff]
    | [b] => simp [get_outflow_rate_probability, diff]
    | b :: c :: l =>
      rw [outflow_cons, ih]
      have : (a :: b :: c :: l).length - 2 = l.length + 1 := by simp
      have h' : (b :: c :: l).length - 2 = l.length := by simp
      rw [this, h', Finset.sum_range_succ']
      simp only [List.getD_cons_succ, List.getD_cons_zero]
      ring

/-- C52: the log probability of a solution: it only depends on its greatest velocity and
on its smoothness. -/
theorem logprob_value (v : List ℝ) (m : ℝ) (hm : m ∈ v) (hmax : ∀ x ∈ v, x ≤ m) :
    get_logprob_of_soln v = .ok (- 10 * Real.exp (-m) -
      ∑ i ∈ Finset.range (v.length - 2), ((v.getD (i + 2) 0 - v.getD (i + 1) 0) ^ 2 -
        (v.getD (i + 1) 0 - v.getD i 0) ^ 2) ^ 2) := by
  have h : v.max? = some m := List.max?_eq_some_iff.2 ⟨hm, hmax⟩
  rw [get_logprob_of_soln, h]
  simp only [outflow_value]
  congr 1
  ring

/-! ## Examples -/

noncomputable def witEnv : Env Unit ℝ where
  define_conditions _ := .ok ()
  solution inp _ :=
    match inp .γ with
    | .float (some x) => .ok x
    | _ => .error .SolverError
  logprob s := .finite (-s)

noncomputable def witInput (x : ℝ) : SolutionInput Flt := fun f =>
  if f = .γ then .float (some x) else if f = .mcmc_vars then .none else .float (some 1)

example := (sampled_variables (witInput 1)).2.2.2 rfl
example := sys_vars_values (witInput 1)
  [.float (some 1), .float (some 2), .float (some 3), .float (some 4)] rfl
example := valid_iff (witInput (-1)) 1 (-1) 1 1 rfl rfl rfl rfl
example := nan_valid (fun _ => .float none) rfl rfl rfl rfl
example := best_after_evaluations witEnv () [witInput 1, witInput 2]
example := mcmc_final witEnv (witInput 1) (fun _ => .error .SolverError) 0 () true rfl
example := logprob_neg [1, 2] _ rfl
example := logprob_value [1, 2, 4] 4 (by simp) (by simp; norm_num)

/-- An input that is stored. -/
theorem wit_stored : storedOf witEnv (witInput 1) = some 1 := by
  have hv : solution_input_valid (witInput 1) = .ok true := by
    obtain ⟨b, h1, h2⟩ := valid_iff (witInput 1) 1 1 1 1 rfl rfl rfl rfl
    rw [h1, h2.2 (by norm_num)]
  have hd : witEnv.define_conditions (witInput 1) = .ok () := rfl
  have hs : witEnv.solution (witInput 1) () = .ok 1 := rfl
  simp only [storedOf, hv, hd, hs]
  rfl

example : (evaluateAll witEnv ({ run := { info := () } } : Generator Unit ℝ)
    [witInput 1]).run.solutions = numbered [1] := by
  rw [(best_after_evaluations witEnv () [witInput 1]).1]
  simp [wit_stored]

/-- A negative parameter is not solved. -/
example := invalid_not_solved (μ := Unit) witEnv (witInput (-1)) { run := { info := () } } (by
  obtain ⟨b, h1, h2⟩ := valid_iff (witInput (-1)) 1 (-1) 1 1 rfl rfl rfl rfl
  rw [h1]
  cases b with
  | false => rfl
  | true => have := (h2.1 rfl).2.1; norm_num at this)

/-- Two solutions that are equally smooth, the second faster. -/
example := logprob_faster [1, 3, 5] [2, 4, 6] 5 6 _ _
  (List.max?_eq_some_iff.2 ⟨by simp, by simp; norm_num⟩)
  (List.max?_eq_some_iff.2 ⟨by simp, by simp; norm_num⟩)
  (logprob_value [1, 3, 5] 5 (by simp) (by simp; norm_num))
  (logprob_value [2, 4, 6] 6 (by simp) (by simp; norm_num)) (by
    simp only [outflow_cons]
    norm_num [get_outflow_rate_probability, diff])

end Mcmc

end DiscSolver
