import Mathlib.Data.List.Sort
import Mathlib.Tactic.NormNum
import Mathlib.Tactic.Linarith
import Mathlib.Tactic.FieldSimp
import Mathlib.Tactic.FinCases
import Verif.Model.SonicRoot
import Verif.Props.Containers
import Verif.Props.Solution

/-!
# Properties of the sonic-root solver

C57 (initial conditions), C58 (what is stored), C75 (the objective), C76 (the outcome).
-/

namespace DiscSolver

namespace SonicRoot

open Stepper (Row)

variable {μ : Type}

/-! ## C57: the initial conditions -/

/-- Specification: the array after an evaluation at a guess. -/
noncomputable def written (old : Row) (g : Guess) : Row := fun i =>
  match i with
  | 0 => g.var .B_r
  | 1 => g.var .B_φ
  | 2 => g.var .B_θ
  | 3 => g.var .v_r
  | 4 => g.var .v_φ
  | 5 => some 1
  | 6 => (g.var .log_ρ).map Real.exp
  | 7 => g.var .B_φ_prime
  | i => old i

/-- Specification: the diffusivities of the object are those of its array, as after
`define_conditions`. -/
def Consistent (h : Heap) (c : Cons) : Prop :=
  ∃ o a p : ℝ, c.η_O = some o ∧ c.η_A = some a ∧ c.η_H = some p ∧
    h c.init_con 8 = some o ∧ h c.init_con 9 = some a ∧ h c.init_con 10 = some p

theorem remake_ok {h : Heap} {c : Cons} (hc : Consistent h c) : remake h c = .ok c := by
  obtain ⟨o, a, p, h1, h2, h3, h4, h5, h6⟩ := hc
  simp [remake, floatNe, h1, h2, h3, h4, h5, h6]

theorem assign_same (h : Heap) (r : ℕ) (i : Fin 11) (x : Flt) :
    assign h r i x r = Function.update (h r) i x := by simp [assign]

theorem assign_other (h : Heap) {r r' : ℕ} (hr : r' ≠ r) (i : Fin 11) (x : Flt) :
    assign h r i x r' = h r' := by simp [assign, hr]

theorem loop_same (h : Heap) (r : ℕ) (g : Guess) :
    TotalVar.all.foldl (setVar g r) (assign h r 5 (some 1)) r = written (h r) g := by
  simp only [TotalVar.all, List.foldl_cons, List.foldl_nil, setVar, TotalVar.index,
    reduceCtorEq, if_false, if_true, assign_same]
  funext i
  fin_cases i <;> simp [written, Function.update]

theorem loop_other (h : Heap) {r r' : ℕ} (hr : r' ≠ r) (g : Guess) :
    TotalVar.all.foldl (setVar g r) (assign h r 5 (some 1)) r' = h r' := by
  simp only [TotalVar.all, List.foldl_cons, List.foldl_nil, setVar, TotalVar.index,
    reduceCtorEq, if_false, if_true, assign_other _ hr]

/-- The conditions of the sonic part, and the memory, after a guess was unpacked. -/
theorem mod_cons_spec {h : Heap} {c : Cons} (hc : Consistent h c) (g : Guess)
    (stop : ℝ) :
    ∃ h', (h' c.init_con = written (h c.init_con) g) ∧
      (∀ r, r ≠ c.init_con → h' r = h r) ∧
      (total_vars_to_mod_cons h c g stop).1 = h' ∧
      ((∃ i, written (h c.init_con) g i = none) ∧
        (total_vars_to_mod_cons h c g stop).2 = .error .SolverError ∨
       (∀ i, written (h c.init_con) g i ≠ none) ∧
        (total_vars_to_mod_cons h c g stop).2 = .ok { c with
          angles := linspace g.θ_sonic stop c.angles.length }) := by
  refine ⟨_, loop_same h c.init_con g, fun r hr => loop_other h hr g, ?_, ?_⟩
  · simp only [total_vars_to_mod_cons, remake_ok hc]
    split_ifs <;> rfl
  · simp only [total_vars_to_mod_cons, remake_ok hc, loop_same]
    by_cases hn : ∃ i, written (h c.init_con) g i = none
    · rw [if_pos hn]; exact .inl ⟨hn, rfl⟩
    · rw [if_neg hn]
      push Not at hn
      exact .inr ⟨hn, rfl⟩

/-- One evaluation, whatever its outcome, leaves the memory `total_vars_to_mod_cons`
left. -/
theorem wrapped_heap (e : Env) (w : World μ) (g : Guess) :
    (wrapped e w g).1.heap =
      (total_vars_to_mod_cons w.heap e.cons g e.sonic_stop).1 := by
  have hr : (root_func e w g).1.heap =
      (total_vars_to_mod_cons w.heap e.cons g e.sonic_stop).1 := by
    unfold root_func
    rcases total_vars_to_mod_cons w.heap e.cons g e.sonic_stop with ⟨h, p | c⟩
    · rfl
    · dsimp only
      rcases sonic_solution e h c with p | out
      · rfl
      · dsimp only
        rcases write_solution (h e.cons.init_con) w.run e.initial { e.initial with out := out }
          with p | run
          <;> rfl
  rw [← hr]
  unfold wrapped
  rcases root_func e w g with ⟨w', p | v⟩
  · cases p <;> rfl
  · rfl

/-- C57 is false.  One evaluation of the objective at a guess, whatever its outcome,
overwrites the values of the run's initial conditions with the guess: polar velocity one,
the fields and velocities guessed, the exponential of the guessed logarithm of the
density.  The diffusivities are kept. -/
theorem evaluation_overwrites (e : Env) (w : World μ) (g : Guess)
    (hc : Consistent w.heap e.cons) :
    (wrapped e w g).1.heap e.cons.init_con =
      written (w.heap e.cons.init_con) g := by
  obtain ⟨h', h1, -, h2, -⟩ := mod_cons_spec hc g e.sonic_stop
  rw [wrapped_heap, h2, h1]

/-- What an evaluation leaves alone: every other array. -/
theorem evaluation_other_arrays (e : Env) (w : World μ) (g : Guess)
    (hc : Consistent w.heap e.cons) (r : ℕ) (hr : r ≠ e.cons.init_con) :
    (wrapped e w g).1.heap r = w.heap r := by
  obtain ⟨h', -, h1, h2, -⟩ := mod_cons_spec hc g e.sonic_stop
  rw [wrapped_heap, h2, h1 r hr]

theorem consistent_after (e : Env) (w : World μ) (g : Guess)
    (hc : Consistent w.heap e.cons) : Consistent (wrapped e w g).1.heap e.cons := by
  have h := evaluation_overwrites e w g hc
  obtain ⟨o, a, p, h1, h2, h3, h4, h5, h6⟩ := hc
  refine ⟨o, a, p, h1, h2, h3, ?_, ?_, ?_⟩ <;> rw [h] <;> assumption

/-- C57 is false over every history: after a search that tried the guesses `gs` then `g`
the initial conditions hold `g`. -/
theorem search_overwrites (e : Env) (w w' : World μ) (gs : List Guess) (g : Guess)
    (hc : Consistent w.heap e.cons) (h : evaluations e w (gs ++ [g]) = (w', .ok ())) :
    w'.heap e.cons.init_con = written (w.heap e.cons.init_con) g := by
  induction gs generalizing w with
  | nil =>
    have hw := evaluation_overwrites e w g hc
    simp only [List.nil_append, evaluations] at h
    rcases hr : wrapped e w g with ⟨w₁, p | v⟩
    · rw [hr] at h; simp at h
    · rw [hr] at h hw
      simp only [Prod.mk.injEq, and_true] at h
      rw [← h, hw]
  | cons g' gs ih =>
    have hw := evaluation_overwrites e w g' hc
    have hc' := consistent_after e w g' hc
    simp only [List.cons_append, evaluations] at h
    rcases hr : wrapped e w g' with ⟨w₁, p | v⟩
    · rw [hr] at h; simp at h
    · rw [hr] at h hw hc'
      rw [ih w₁ hc' h, hw]
      funext i
      fin_cases i <;> rfl

/-- C57 is false for every input: the polar velocity is zero at the midplane, so every
evaluation changes the initial conditions. -/
theorem evaluation_changes (e : Env) (w : World μ) (g : Guess)
    (hc : Consistent w.heap e.cons) (h0 : w.heap e.cons.init_con 5 = some 0) :
    (wrapped e w g).1.heap e.cons.init_con ≠ w.heap e.cons.init_con := by
  rw [evaluation_overwrites e w g hc]
  intro h
  have := congrFun h 5
  rw [h0] at this
  simp [written] at this

/-- The array `define_conditions` makes has polar velocity zero, and agrees with the
object's diffusivities: the hypotheses of the theorems above hold for every accepted
input. -/
theorem define_conditions_start (inp : NumInput) (c : Conditions)
    (h : define_conditions inp = some c) :
    Consistent (fun _ => stRow c.init_con) (newCons c) ∧
      stRow c.init_con 5 = some 0 := by
  refine ⟨⟨_, _, _, rfl, rfl, rfl, rfl, rfl, rfl⟩, ?_⟩
  unfold define_conditions at h
  simp only at h
  split at h
  · exact absurd h (by simp)
  · injection h with h
    rw [← h]; rfl

/-- C57, the part that holds: over every sequence of evaluations, whatever their outcomes,
the diffusivities in the initial conditions and every other array keep their values.
Missing: the other eight entries (see `search_overwrites`). -/
theorem conditions_kept_partial (e : Env) (w : World μ) (gs : List Guess)
    (hc : Consistent w.heap e.cons) :
    (∀ i : Fin 11, 8 ≤ i.val →
      (evaluations e w gs).1.heap e.cons.init_con i = w.heap e.cons.init_con i) ∧
    ∀ r, r ≠ e.cons.init_con → (evaluations e w gs).1.heap r = w.heap r := by
  induction gs generalizing w with
  | nil => exact ⟨fun _ _ => rfl, fun _ _ => rfl⟩
  | cons g gs ih =>
    have hw := evaluation_overwrites e w g hc
    have ho := evaluation_other_arrays e w g hc
    have hc' := consistent_after e w g hc
    have hk : ∀ i : Fin 11, 8 ≤ i.val →
        written (w.heap e.cons.init_con) g i = w.heap e.cons.init_con i := by
      intro i hi
      fin_cases i <;> first | rfl | (simp at hi)
    simp only [evaluations]
    rcases hr : wrapped e w g with ⟨w₁, p | v⟩
    · rw [hr] at hw ho
      exact ⟨fun i hi => by rw [hw, hk i hi], ho⟩
    · rw [hr] at hw ho hc'
      obtain ⟨i1, i2⟩ := ih w₁ hc'
      exact ⟨fun i hi => by rw [i1 i hi, hw, hk i hi], fun r hr => by rw [i2 r hr, ho r hr]⟩

/-- The overwritten entries do not reach the equations of the sonic part: without the
Taylor terms the derivatives depend on the initial conditions only through the
diffusivities. -/
theorem equations_unaffected (P : OdeArgs) (s' : St) (hw : P.with_taylor = false)
    (h1 : s'.η_O = P.init_con.η_O) (h2 : s'.η_A = P.init_con.η_A)
    (h3 : s'.η_H = P.init_con.η_H) (θ : ℝ) (s : St) :
    (rhsValues { P with init_con := s' } θ s).derivs = (rhsValues P θ s).derivs := by
  simp only [rhsValues, hw, h1, h2, h3, Bool.false_eq_true, if_false]

/-! ## C58: what is stored -/

/-- Specification: the rows of internal data. -/
def table (d : InternalData) : List (ℝ × St × St × (ℝ × ℝ × ℝ) × (ℝ × ℝ × ℝ)) :=
  d.angles.zip (d.params.zip (d.derivs.zip
    ((d.v_r_normal.zip (d.v_φ_normal.zip d.ρ_normal)).zip
      (d.v_r_taylor.zip (d.v_φ_taylor.zip d.ρ_taylor)))))

/-- Specification: the rows of Jacobian data. -/
def jtable (d : JacobianData) : List (ℝ × St × St × (St → St)) :=
  d.angles.zip (d.params.zip (d.derivs.zip d.jacobians))

/-- Specification: every column of the internal data has the same length. -/
def Level (d : InternalData) : Prop :=
  ∃ n, d.angles.length = n ∧ d.params.length = n ∧ d.derivs.length = n ∧
    d.v_r_normal.length = n ∧ d.v_φ_normal.length = n ∧ d.ρ_normal.length = n ∧
    d.v_r_taylor.length = n ∧ d.v_φ_taylor.length = n ∧ d.ρ_taylor.length = n

/-- Specification: every column of the Jacobian data has the same length. -/
def JLevel (d : JacobianData) : Prop :=
  ∃ n, d.angles.length = n ∧ d.params.length = n ∧ d.derivs.length = n ∧
    d.jacobians.length = n

theorem zip_rev {α β : Type} (a : List α) (b : List β) (h : a.length = b.length) :
    a.reverse.zip b.reverse = (a.zip b).reverse := by
  simp only [List.zip_eq_zipWith]
  exact (List.reverse_zipWith h).symm

theorem zip_app {α β : Type} (a a' : List α) (b b' : List β)
    (h : a.length = b.length) : (a ++ a').zip (b ++ b') = a.zip b ++ a'.zip b' :=
  List.zip_append h

theorem flip_table (d : InternalData) (h : Level d) :
    table d.flip = (table d).reverse := by
  obtain ⟨n, h1, h2, h3, h4, h5, h6, h7, h8, h9⟩ := h
  simp only [table, InternalData.flip]
  rw [zip_rev _ _ (by simp [h5, h6]), zip_rev _ _ (by simp [h4, h5, h6]),
    zip_rev _ _ (by simp [h8, h9]), zip_rev _ _ (by simp [h7, h8, h9]),
    zip_rev _ _ (by simp [h4, h5, h6, h7, h8, h9]),
    zip_rev _ _ (by simp [h3, h4, h5, h6, h7, h8, h9]),
    zip_rev _ _ (by simp [h2, h3, h4, h5, h6, h7, h8, h9]),
    zip_rev _ _ (by simp [h1, h2, h3, h4, h5, h6, h7, h8, h9])]

theorem add_table (a b : InternalData) (h : Level a) :
    table (a.add b) = table a ++ table b := by
  obtain ⟨n, h1, h2, h3, h4, h5, h6, h7, h8, h9⟩ := h
  simp only [table, InternalData.add]
  rw [zip_app _ _ _ _ (by simp [h5, h6]), zip_app _ _ _ _ (by simp [h4, h5, h6]),
    zip_app _ _ _ _ (by simp [h8, h9]), zip_app _ _ _ _ (by simp [h7, h8, h9]),
    zip_app _ _ _ _ (by simp [h4, h5, h6, h7, h8, h9]),
    zip_app _ _ _ _ (by simp [h3, h4, h5, h6, h7, h8, h9]),
    zip_app _ _ _ _ (by simp [h2, h3, h4, h5, h6, h7, h8, h9]),
    zip_app _ _ _ _ (by simp [h1, h2, h3, h4, h5, h6, h7, h8, h9])]

/-- C58. The joined solution has one row per angle: the rows of the midplane part
followed by the rows of the sonic part in reverse order. -/
theorem joined_rows (now : Row) (i s : Soln)
    (hi : i.out.angles.length = i.out.solution.length)
    (hs : s.out.angles.length = s.out.solution.length) :
    (joined now i s).out.angles.length = (joined now i s).out.solution.length ∧
    (joined now i s).out.angles.zip (joined now i s).out.solution =
      i.out.angles.zip i.out.solution ++ (s.out.angles.zip s.out.solution).reverse := by
  refine ⟨by simp [joined, hi, hs], ?_⟩
  simp only [joined]
  rw [zip_app _ _ _ _ hi, zip_rev _ _ hs]

/-- C58. The joined solution belongs to the input and the initial conditions of the
midplane part, has its roots and its coordinates, and the flag of the sonic part; it is
not marked as lying behind a shock. -/
theorem joined_rest (now : Row) (i s : Soln) :
    (joined now i s).input = i.input ∧ (joined now i s).cons = i.cons ∧
      (joined now i s).coordinate_system = i.coordinate_system ∧
      (joined now i s).out.flag = s.out.flag ∧
      (joined now i s).out.t_roots = i.out.t_roots ∧ (joined now i s).out.y_roots = i.out.y_roots ∧
      (joined now i s).out.is_post_shock_only = false :=
  ⟨rfl, rfl, rfl, rfl, rfl, rfl, rfl⟩

/-- C58. If the midplane part runs up to an angle and the sonic part runs down to it,
the joined angles are in order. -/
theorem joined_ordered (now : Row) (i s : Soln) (stop : ℝ)
    (hi : i.out.angles.Pairwise (· ≤ ·)) (hil : ∀ a ∈ i.out.angles, a ≤ stop)
    (hs : s.out.angles.Pairwise (· ≥ ·)) (hsl : ∀ a ∈ s.out.angles, stop ≤ a) :
    (joined now i s).out.angles.Pairwise (· ≤ ·) := by
  simp only [joined]
  rw [List.pairwise_append]
  refine ⟨hi, List.pairwise_reverse.2 hs, ?_⟩
  intro a ha b hb
  exact (hil a ha).trans (hsl b (List.mem_reverse.1 hb))

/-- C58. When both parts recorded internal data, the joined rows are those of the
midplane part followed by those of the sonic part in reverse order; likewise the Jacobian
rows. -/
theorem joined_internal_rows (now : Row) (i s : Soln) (d f : InternalData)
    (hi : i.out.internal_data = some d) (hs : s.out.internal_data = some f)
    (hd : Level d) (hf : Level f) (hjd : JLevel d.jacobian_data)
    (hjf : JLevel f.jacobian_data) :
    ∃ j, (joined now i s).out.internal_data = some j ∧
      table j = table d ++ (table f).reverse ∧
      jtable j.jacobian_data =
        jtable d.jacobian_data ++ (jtable f.jacobian_data).reverse := by
  refine ⟨d.add f.flip, by simp [joined, hi, hs, joined_internal], ?_, ?_⟩
  · rw [add_table _ _ hd, flip_table _ hf]
  · obtain ⟨n, h1, h2, h3, h4⟩ := hjd
    obtain ⟨m, k1, k2, k3, k4⟩ := hjf
    simp only [jtable, InternalData.add, JacobianData.add, InternalData.flip,
      JacobianData.flip]
    rw [zip_app _ _ _ _ (by simp [h3, h4]), zip_app _ _ _ _ (by simp [h2, h3, h4]),
      zip_app _ _ _ _ (by simp [h1, h2, h3, h4]), zip_rev _ _ (by simp [k3, k4]),
      zip_rev _ _ (by simp [k2, k3, k4]), zip_rev _ _ (by simp [k1, k2, k3, k4])]

/-- C58. When neither part recorded internal data there is none in the joined solution. -/
theorem joined_internal_none (now : Row) (i s : Soln) (hi : i.out.internal_data = none)
    (hs : s.out.internal_data = none) : (joined now i s).out.internal_data = none := by
  simp [joined, hi, hs, joined_internal]

/-- C58 is false as stated: a solution is stored exactly when the integration from the
sonic point failed.  If it ended well, nothing is stored and `AttributeError` is raised. -/
theorem stored_iff_failed (now : Row) (m : μ) (xs : List Soln) (i : Soln) (out : SolutionOut) :
    (code out.flag < 0 →
      ∃ r, write_solution now { info := m, solutions := numbered xs } i { i with out := out }
          = .ok r ∧
        r = { info := m, solutions :=
          numbered (xs ++ [joined now i { i with out := out }]) }) ∧
    (0 ≤ code out.flag →
      write_solution now { info := m, solutions := numbered xs } i { i with out := out }
        = .error .AttributeError) := by
  constructor
  · intro h
    refine ⟨_, ?_, rfl⟩
    simp only [write_solution, ne_eq, not_true, if_false, h, if_true, Run.addSolution,
      add_numbered]
    rfl
  · intro h
    simp only [write_solution, ne_eq, not_true, if_false, not_lt.2 h]

/-! ## C75: the objective -/

theorem logRatio_zero (a b : ℝ) : logRatio a b = some 0 ↔ b ≠ 0 ∧ a = b := by
  unfold logRatio
  constructor
  · intro h
    split_ifs at h with hc
    · injection h with h
      refine ⟨hc.1, ?_⟩
      have := Real.eq_one_of_pos_of_log_eq_zero hc.2 h
      rwa [div_eq_one_iff_eq hc.1] at this
  · rintro ⟨hb, rfl⟩
    rw [div_self hb, if_pos ⟨hb, one_pos⟩, Real.log_one]

/-- C75. The objective is zero exactly when the two parts end at the same angle with the
same velocity, field and (nonzero) density. -/
theorem residual_zero_iff (sonic mid : SolutionOut) (s m : St) (a b : ℝ)
    (h1 : sonic.solution.getLast? = some s) (h2 : mid.solution.getLast? = some m)
    (h3 : sonic.angles.getLast? = some a) (h4 : mid.angles.getLast? = some b) :
    get_root_results sonic mid = .ok (List.replicate 8 (some 0)) ↔
      (s.v_r = m.v_r ∧ s.v_θ = m.v_θ ∧ s.v_φ = m.v_φ ∧ s.B_r = m.B_r ∧
        s.B_θ = m.B_θ ∧ s.B_φ = m.B_φ ∧ m.ρ ≠ 0 ∧ s.ρ = m.ρ ∧ a = b) := by
  have hne : sonic.solution ≠ [] := by
    intro h; rw [h] at h1; simp at h1
  simp only [get_root_results, hne, if_false, h1, h2, h3, h4, List.replicate,
    Except.ok.injEq, List.cons.injEq, Option.some.injEq, sub_eq_zero, logRatio_zero,
    and_true, and_assoc]

/-- C75 does not extend to the remaining variables: the objective does not look at the
derivative of the azimuthal field (the variable the search also varies), so a zero of it
can join two parts that differ there. -/
theorem residual_zero_discontinuous (s : St) (x : ℝ) (hx : x ≠ s.X) (hρ : s.ρ ≠ 0)
    (a : ℝ) (f : StatusFlag) :
    ∃ sonic mid : SolutionOut, sonic.solution.getLast? = some { s with X := x } ∧
      mid.solution.getLast? = some s ∧ ({ s with X := x } : St) ≠ s ∧
      get_root_results sonic mid = .ok (List.replicate 8 (some 0)) := by
  refine ⟨⟨f, [a], [{ s with X := x }], none, none, none, false⟩,
    ⟨f, [a], [s], none, none, none, false⟩, rfl, rfl, ?_, ?_⟩
  · intro h
    exact hx (congrArg St.X h)
  · rw [residual_zero_iff _ _ { s with X := x } s a a rfl rfl rfl rfl]
    exact ⟨rfl, rfl, rfl, rfl, rfl, rfl, hρ, rfl, rfl⟩

/-- C75. An evaluation that fails is never taken for a root: its value is the error
value in every component. -/
theorem failed_evaluation_value (e : Env) (w : World μ) (g : Guess)
    (h : (root_func e w g).2 = .error .SolverError) :
    (wrapped e w g).2 = .ok (List.replicate 8 (some e.err)) := by
  unfold wrapped
  rcases hr : root_func e w g with ⟨w', p | v⟩
  · rw [hr] at h
    injection h with h
    subst h; rfl
  · rw [hr] at h; cases h

/-- C75. A guess which is not a number fails so. -/
theorem nan_guess_fails (e : Env) (w : World μ) (hc : Consistent w.heap e.cons) (θ : ℝ) :
    (root_func e w ⟨θ, fun _ => none⟩).2 = .error .SolverError := by
  obtain ⟨h, -, -, -, ⟨-, h4⟩ | ⟨h4, -⟩⟩ := mod_cons_spec hc ⟨θ, fun _ => none⟩ e.sonic_stop
  · unfold root_func
    rcases ht : total_vars_to_mod_cons w.heap e.cons ⟨θ, fun _ => none⟩ e.sonic_stop with ⟨h, x⟩
    rw [ht] at h4
    subst h4
    rfl
  · exact absurd rfl (h4 0)

/-- C75. The first guess lies on the line through the last two rows of the midplane part
(density: its logarithm), where that line has polar velocity one, which is also where the
sonic part starts. -/
theorem first_guess_extrapolates (out : SolutionOut) (front : List St) (p q : St)
    (a : ℝ) (hs : out.solution = front ++ [p, q]) (ha : out.angles.getLast? = some a)
    (hv : p.v_θ ≠ q.v_θ) (hp : 0 < p.ρ) (hq : 0 < q.ρ) :
    ∃ (g : Guess) (t : ℝ), guess_root_vals out = .ok g ∧
      g.θ_sonic = a / (9/10) ∧ g.var .θ_sonic = some g.θ_sonic ∧
      q.v_θ + t * (q.v_θ - p.v_θ) = 1 ∧
      g.var .v_φ = some (q.v_φ + t * (q.v_φ - p.v_φ)) ∧
      g.var .v_r = some (q.v_r + t * (q.v_r - p.v_r)) ∧
      g.var .B_θ = some (q.B_θ + t * (q.B_θ - p.B_θ)) ∧
      g.var .B_r = some (q.B_r + t * (q.B_r - p.B_r)) ∧
      g.var .B_φ = some (q.B_φ + t * (q.B_φ - p.B_φ)) ∧
      g.var .B_φ_prime = some (q.X + t * (q.X - p.X)) ∧
      g.var .log_ρ = some (Real.log q.ρ + t * (Real.log q.ρ - Real.log p.ρ)) := by
  have hd : q.v_θ - p.v_θ ≠ 0 := sub_ne_zero.2 (Ne.symm hv)
  have hr : out.solution.reverse = q :: p :: front.reverse := by simp [hs]
  refine ⟨_, (1 - q.v_θ) / (q.v_θ - p.v_θ), by
    simp only [guess_root_vals, hr, ha]; rfl, rfl, by simp, ?_, ?_⟩
  · rw [div_mul_cancel₀ _ hd]; ring
  · have hl : logRatio q.ρ p.ρ = some (Real.log q.ρ - Real.log p.ρ) := by
      rw [logRatio, if_pos ⟨hp.ne', div_pos hq hp⟩, Real.log_div hq.ne' hp.ne']
    have hl' : logRatio q.ρ 1 = some (Real.log q.ρ) := by
      rw [logRatio, div_one, if_pos ⟨one_ne_zero, hq⟩]
    simp only [reduceCtorEq, if_false, sonic_point_value, slope, hd, hl, hl',
      Option.map_some, Option.bind_some, Option.some.injEq]
    refine ⟨?_, ?_, ?_, ?_, ?_, ?_, ?_⟩ <;> ring

/-! ## C76: the outcome of the solver -/

/-- Specification: a stored solution whose part from the sonic point failed. -/
def FailedSonic (initial y : Soln) : Prop :=
  ∃ out : SolutionOut, code out.flag < 0 ∧
    ∃ now, y = joined now initial { initial with out := out }

/-- C75. The integration from the sonic point starts there: at the guessed angle, with
polar velocity one, the guessed fields and velocities, the density whose logarithm was
guessed, and the diffusivities of the midplane. -/
theorem sonic_start {h : Heap} {c : Cons} (hc : Consistent h c) (g : Guess) (stop : ℝ)
    {h' : Heap} {c' : Cons} (hok : total_vars_to_mod_cons h c g stop = (h', .ok c')) :
    let s := (c'.read h').init_con
    s.v_θ = 1 ∧ some s.B_r = g.var .B_r ∧ some s.B_φ = g.var .B_φ ∧ some s.B_θ = g.var .B_θ ∧
      some s.v_r = g.var .v_r ∧ some s.v_φ = g.var .v_φ ∧ some s.X = g.var .B_φ_prime ∧
      some s.ρ = (g.var .log_ρ).map Real.exp ∧
      some s.η_O = c.η_O ∧ some s.η_A = c.η_A ∧ some s.η_H = c.η_H ∧
      (c'.read h').angles = linspace g.θ_sonic stop c.angles.length ∧
      (c'.read h').γ = c.γ ∧ (c'.read h').a_0 = c.a_0 ∧
      (c'.read h').norm_kepler_sq = c.norm_kepler_sq := by
  obtain ⟨h₁, k1, -, k2, k3⟩ := mod_cons_spec hc g stop
  rw [hok] at k2 k3
  dsimp only at k2 k3
  subst k2
  rcases k3 with ⟨-, k3⟩ | ⟨hn, k3⟩
  · cases k3
  injection k3 with k3
  subst k3
  obtain ⟨o, a, p, e1, e2, e3, e4, e5, e6⟩ := hc
  have hget : ∀ i, some ((h' c.init_con i).getD 0) = written (h c.init_con) g i := by
    intro i
    rw [k1]
    cases hw : written (h c.init_con) g i with
    | none => exact absurd hw (hn i)
    | some x => rfl
  refine ⟨?_, hget 0, hget 1, hget 2, hget 3, hget 4, hget 7, hget 6, ?_, ?_, ?_, rfl, rfl, rfl,
    rfl⟩
  · exact Option.some.inj (hget 5)
  · exact (hget 8).trans (e4.trans e1.symm)
  · exact (hget 9).trans (e5.trans e2.symm)
  · exact (hget 10).trans (e6.trans e3.symm)

/-- The array `define_conditions` makes holds the row of the midplane. -/
theorem row_round_trip (s : St) : rowSt (stRow s) = s := rfl

/-- One evaluation stores nothing, or one solution whose sonic part failed. -/
theorem wrapped_run (e : Env) (h : Heap) (m : μ) (xs : List Soln) (g : Guess) :
    ∃ ys, (wrapped e ⟨h, { info := m, solutions := numbered xs }⟩ g).1.run =
        { info := m, solutions := numbered (xs ++ ys) } ∧
      ys.length ≤ 1 ∧ ∀ y ∈ ys, FailedSonic e.initial y := by
  have hr : ∃ ys, (root_func e ⟨h, { info := m, solutions := numbered xs }⟩ g).1.run =
        { info := m, solutions := numbered (xs ++ ys) } ∧
      ys.length ≤ 1 ∧ ∀ y ∈ ys, FailedSonic e.initial y := by
    unfold root_func
    dsimp only
    rcases total_vars_to_mod_cons h e.cons g e.sonic_stop with ⟨h', p | c⟩
    · exact ⟨[], by simp, by simp, by simp⟩
    · dsimp only
      rcases sonic_solution e h' c with p | out
      · exact ⟨[], by simp, by simp, by simp⟩
      · dsimp only
        obtain ⟨h1, h2⟩ := stored_iff_failed (h' e.cons.init_con) m xs e.initial out
        by_cases hf : code out.flag < 0
        · obtain ⟨r, hr, rfl⟩ := h1 hf
          rw [hr]
          exact ⟨[_], rfl, by simp, by simpa using ⟨out, hf, _, rfl⟩⟩
        · rw [h2 (not_lt.1 hf)]
          exact ⟨[], by simp, by simp, by simp⟩
  obtain ⟨ys, h1, h2⟩ := hr
  refine ⟨ys, ?_, h2⟩
  rw [← h1]
  unfold wrapped
  rcases root_func e ⟨h, { info := m, solutions := numbered xs }⟩ g with ⟨w', p | v⟩
  · cases p <;> rfl
  · rfl

/-- Over every search: what was stored stays, and every solution added is one whose part
from the sonic point failed, at most one per evaluation. -/
theorem evaluations_store (e : Env) (h : Heap) (m : μ) (xs : List Soln)
    (gs : List Guess) :
    ∃ ys, (evaluations e ⟨h, { info := m, solutions := numbered xs }⟩ gs).1.run =
        { info := m, solutions := numbered (xs ++ ys) } ∧
      ys.length ≤ gs.length ∧ ∀ y ∈ ys, FailedSonic e.initial y := by
  induction gs generalizing h xs with
  | nil => exact ⟨[], by simp [evaluations], by simp, by simp⟩
  | cons g gs ih =>
    obtain ⟨ys, h1, h2, h3⟩ := wrapped_run e h m xs g
    simp only [evaluations]
    rcases hr : wrapped e ⟨h, { info := m, solutions := numbered xs }⟩ g with
      ⟨⟨h', run'⟩, p | v⟩
    · rw [hr] at h1
      exact ⟨ys, h1, by simp only [List.length_cons]; omega, h3⟩
    · rw [hr] at h1
      dsimp only at h1 ⊢
      subst h1
      obtain ⟨zs, k1, k2, k3⟩ := ih h' (xs ++ ys)
      refine ⟨ys ++ zs, by rw [k1, List.append_assoc], ?_, ?_⟩
      · simp only [List.length_append, List.length_cons]; omega
      · intro y hy
        rcases List.mem_append.1 hy with hy | hy
        · exact h3 y hy
        · exact k3 y hy

/-- The first solution stored in a run. -/
theorem add_first (m : μ) (x : Soln) : ({ info := m } : Run μ Soln).addSolution x =
    .ok ("0", { info := m, solutions := numbered [x] }) := by
  have h := add_numbered ([] : List Soln) x
  have hz : Nat.repr ([] : List Soln).length = "0" := by decide
  rw [hz] at h
  unfold Run.addSolution
  rw [show ({ info := m } : Run μ Soln).solutions = numbered [] from rfl, h]
  rfl

/-- C76. If the solver returns, the run holds the midplane solution and then solutions
whose part from the sonic point failed, the final solution is the last one stored, and
the value returned is the verdict of the root search. -/
theorem solver_returns (a : Args) (m : μ) (rest : List Guess) (success : Except PyErr Bool) (b : Bool)
    (run' : Run μ Soln) (h : solver a { info := m } rest success = (run', .ok b)) :
    ∃ c out stop ys, define_conditions a.inp = some c ∧ initial_out a c = .ok out ∧
      out.angles.getLast? = some stop ∧ success = .ok b ∧
      run'.solutions = numbered (⟨0, 0, a.coords, out, stRow c.init_con⟩ :: ys) ∧
      ys.length ≤ rest.length + 1 ∧
      (∀ y ∈ ys, FailedSonic ⟨0, 0, a.coords, out, stRow c.init_con⟩ y) ∧
      run'.final = .value ((⟨0, 0, a.coords, out, stRow c.init_con⟩ :: ys).getLast?) := by
  unfold solver at h
  rcases hc : define_conditions a.inp with _ | c
  · rw [hc] at h; simp at h
  rw [hc] at h
  dsimp only at h
  rcases ho : initial_out a c with p | out
  · rw [ho] at h; simp at h
  rw [ho] at h
  dsimp only at h
  have hadd : ({ info := m } : Run μ Soln).addSolution ⟨0, 0, a.coords, out, stRow c.init_con⟩ =
      .ok ("0", { info := m, solutions := numbered [⟨0, 0, a.coords, out, stRow c.init_con⟩] }) := add_first m _
  rw [hadd] at h
  dsimp only at h
  rcases hs : out.angles.getLast? with _ | stop
  · rw [hs] at h; simp at h
  rw [hs] at h
  dsimp only at h
  unfold search at h
  rcases hg : guess_root_vals (a.env c out stop).initial.out with p | best
  · rw [hg] at h; simp at h
  rw [hg] at h
  dsimp only at h
  obtain ⟨ys, h1, h2, h3⟩ := evaluations_store (a.env c out stop)
    (fun _ => stRow c.init_con) m [⟨0, 0, a.coords, out, stRow c.init_con⟩] (best :: rest)
  rcases hr : evaluations (a.env c out stop) ⟨fun _ => stRow c.init_con,
      { info := m, solutions := numbered [⟨0, 0, a.coords, out, stRow c.init_con⟩] }⟩ (best :: rest) with
    ⟨⟨h', run₁⟩, p | v⟩
  · rw [hr] at h; simp at h
  rw [hr] at h h1
  dsimp only at h h1
  subst h1
  have hl : (numbered ([⟨0, 0, a.coords, out, stRow c.init_con⟩] ++ ys)).length - 1 = ys.length := by
    simp [numbered]
  have hlast : ([⟨0, 0, a.coords, out, stRow c.init_con⟩] ++ ys)[ys.length]? =
      ((⟨0, 0, a.coords, out, stRow c.init_con⟩ : Soln) :: ys).getLast? := by
    rw [List.getLast?_eq_getElem?]; simp
  have hgot : ∃ s, ((⟨0, 0, a.coords, out, stRow c.init_con⟩ : Soln) :: ys).getLast? = some s :=
    ⟨_, List.getLast?_eq_some_getLast (List.cons_ne_nil _ _)⟩
  obtain ⟨s, hgot⟩ := hgot
  cases hb : success with
  | error p => rw [hb] at h; simp at h
  | ok b' =>
  rw [hb] at h
  simp only [set_final, hl, Dict.getItem, numbered_get, hlast, hgot, Run.setFinal] at h
  injection h with h4 h5
  injection h5 with h5
  refine ⟨c, out, stop, ys, rfl, ho, hs, by rw [h5], ?_, by simpa using h2, h3, ?_⟩
  · rw [← h4]; rfl
  · rw [← h4, hgot]

/-- C76 is false as a user reads it: as soon as the integration from the sonic point
succeeds for the first guess, the solver raises `AttributeError`; the run keeps only the
midplane solution and gets no final solution. -/
theorem solver_raises_on_success (a : Args) (m : μ) (rest : List Guess) (success : Except PyErr Bool)
    (c : Conditions) (out : SolutionOut) (stop : ℝ) (best : Guess)
    (h1 : define_conditions a.inp = some c) (h2 : initial_out a c = .ok out)
    (h3 : out.angles.getLast? = some stop) (h4 : guess_root_vals out = .ok best)
    (hn : ∀ i, written (stRow c.init_con) best i ≠ none)
    (hs : ∀ h : Heap, h 0 = written (stRow c.init_con) best →
      ∃ s, sonic_solution (a.env c out stop) h
        { newCons c with angles := linspace best.θ_sonic stop c.angles.length } = .ok s ∧
        0 ≤ code s.flag) :
    solver a { info := m } rest success =
      ({ info := m, solutions := numbered [⟨0, 0, a.coords, out, stRow c.init_con⟩] },
        .error .AttributeError) := by
  have hadd : ({ info := m } : Run μ Soln).addSolution ⟨0, 0, a.coords, out, stRow c.init_con⟩ =
      .ok ("0", { info := m, solutions := numbered [⟨0, 0, a.coords, out, stRow c.init_con⟩] }) := add_first m _
  obtain ⟨hc, -⟩ := define_conditions_start a.inp c h1
  obtain ⟨h', k1, -, k2, k3⟩ := mod_cons_spec hc best stop
  have k3 := (k3.resolve_left (by rintro ⟨⟨i, hi⟩, -⟩; exact hn i hi)).2
  obtain ⟨s, hs1, hs2⟩ := hs h' k1
  have hroot : (root_func (a.env c out stop) ⟨fun _ => stRow c.init_con,
      { info := m, solutions := numbered [⟨0, 0, a.coords, out, stRow c.init_con⟩] }⟩ best) =
      (⟨h', { info := m, solutions := numbered [⟨0, 0, a.coords, out, stRow c.init_con⟩] }⟩,
        .error .AttributeError) := by
    unfold root_func
    have : total_vars_to_mod_cons (fun _ => stRow c.init_con) (a.env c out stop).cons best
        (a.env c out stop).sonic_stop = (h', .ok { newCons c with
          angles := linspace best.θ_sonic stop c.angles.length }) := by
      rw [← k2]
      exact Prod.ext rfl k3
    simp only [this, hs1]
    rw [(stored_iff_failed (h' (a.env c out stop).cons.init_con) m [⟨0, 0, a.coords, out, stRow c.init_con⟩] (a.env c out stop).initial s).2 hs2]
  unfold solver
  simp only [h1, h2, hadd, h3, search]
  rw [show guess_root_vals (a.env c out stop).initial.out = .ok best from h4]
  simp only [evaluations, wrapped, hroot]

/-! ## Concrete cases -/

/-- An input with an accepted midplane. -/
noncomputable def witInp : NumInput :=
  { start := 0, stop := 10, num_angles := 3, γ := 1/10, v_rin_on_c_s := 1,
    v_a_on_c_s := 1, c_s_on_v_k := 1/5, η_O := 1, η_A := 1, η_H := 0, use_E_r := false }

/-- Two rows of a midplane part and their continuation. -/
noncomputable def witRow (v : ℝ) : St :=
  { B_r := v, B_φ := -v, B_θ := 1, v_r := -1, v_φ := 4, v_θ := v, ρ := 1 - v,
    X := 0, η_O := 1, η_A := 1, η_H := 0 }

/-- An integrator that stops at polar velocity `1/2` when it looks for a velocity, and
otherwise ends with the flag `f`. -/
noncomputable def twoI (f : StatusFlag) : Integrator := fun r =>
  if r.rootfn.isSome then
    { ending := .foundRoot,
      soln := { flag := .ROOT_RETURN, t := [1/10, 1/5], y := [witRow (1/4), witRow (1/2)] } }
  else
    { ending := if f = .SUCCESS then .finished else .failed,
      soln := { flag := f, t := [1/4, 1/5], y := [witRow 1, witRow (1/2)] } }

variable (str : ℝ → String) (interp : List ℝ → List ℝ → Option (ℝ → ℝ))

/-- The solver's arguments. -/
noncomputable def witArgs (f : StatusFlag) : Args :=
  { I := twoI f, str := str, interp := interp, inp := witInp, opts := witTO,
    target_velocity := 1/2, store_internal := true, coords := "spherical midplane 0",
    err := -1 }

theorem witInp_conditions : ∃ c, define_conditions witInp = some c ∧
    c.angles = [radians 0, radians 5, radians 10] := by
  unfold define_conditions
  have hd : ¬ v_φ_discriminant (-witInp.v_rin_on_c_s) witInp.η_H (witInp.η_O + witInp.η_A)
      (1 / witInp.c_s_on_v_k ^ 2) (witInp.v_a_on_c_s ^ 2) witInp.γ < 0 := by
    norm_num [v_φ_discriminant, witInp]
  simp only [v_φ_boundary_func, hd, if_false]
  refine ⟨_, rfl, ?_⟩
  simp only [witInp, linspace, List.range, List.range.loop, List.map_cons, List.map_nil]
  norm_num

/-- The arguments of the midplane integration. -/
noncomputable def witSA : SolveArgs :=
  { root_func := some (velocity_stop (1/2)), root_func_args := some 1,
    store_internal := true }

theorem wit_initial (f : StatusFlag) (c : Conditions)
    (hc : c.angles = [radians 0, radians 5, radians 10]) :
    ∃ out front, initial_out (witArgs str interp f) c = .ok out ∧
      out.solution = front ++ [witRow (1/4), witRow (1/2)] ∧
      out.angles.getLast? = some (1/5) := by
  have hπ := Real.pi_pos
  have h0 : ¬ radians (1/1000) < radians 0 := by unfold radians; linarith
  have h1 : radians (1/1000) < radians 5 := by unfold radians; linarith
  have h2 : radians (1/1000) < radians 10 := by unfold radians; linarith
  have hn : taylor_new_angles c.angles
      (radians witTO.taylor_stop_angle / (1 : ℝ)) = [radians 5, radians 10] := by
    simp only [taylor_new_angles, hc, witTO, div_one, List.filter, decide_eq_false h0,
      decide_eq_true h2, decide_eq_true h1]
  let a : SolveArgs := witSA
  have hm : ∀ st, ∃ sd, (main_solution (twoI f) str (solveOdeArgs witTO c a)
      true (firstLeg witTO a [radians 5, radians 10] st)).result = .ok sd ∧
      sd.1.t = [1/10, 1/5] ∧ sd.1.y = [witRow (1/4), witRow (1/2)] := by
    intro st
    simp [main_solution, main_plan, firstLeg, witTO, twoI, a, witSA]
  have hts := taylor_start_jump (twoI f) str witTO c a rfl rfl
  rw [show a.θ_scale = 1 from rfl, hn] at hts
  obtain ⟨⟨sd, d⟩, hsd, ht, hy⟩ := hm (taylor_values c.init_con c.γ c.a_0 witTO.η_derivs
          witTO.use_E_r (radians witTO.taylor_stop_angle / (1 : ℝ)))
  simp only [firstLeg] at hsd
  have hsol : ∃ out, (solution (twoI f) str interp witTO c a).result = .ok out ∧
      (∃ front, out.solution = front ++ [witRow (1/4), witRow (1/2)]) ∧
      out.angles.getLast? = some (1/5) := by
    have hsd' : (main_solution (twoI f) str (solveOdeArgs witTO c a)
      a.store_internal _).result = .ok (sd, d) := hsd
    simp only [solution, hts, Logged.ok_bind]
    rw [Logged.bind_of_ok hsd']
    refine ⟨_, rfl, ⟨_, congrArg (_ ++ ·) hy⟩, ?_⟩
    · dsimp only
      rw [ht]
      simp [scaled_to_rad, a, witSA]
  obtain ⟨out, k1, ⟨front, k2⟩, k3⟩ := hsol
  exact ⟨out, front, k1, k2, k3⟩

example := define_conditions_start witInp _ witInp_conditions.choose_spec.1

/-- The integration from the sonic point in the witness. -/
theorem wit_sonic (f : StatusFlag) (hf : f ≠ .TOO_CLOSE) (e : Env) (hI : e.I = twoI f)
    (ho : e.opts = witTO) (h : Heap) (c : Cons) (hc : 2 ≤ c.angles.length) :
    ∃ s, sonic_solution e h c = .ok s ∧ s.flag = f ∧
      s.solution.getLast? = some (witRow (1/2)) ∧ s.angles.getLast? = some (1/5) := by
  obtain ⟨sd, hm, hfl, hy, ht⟩ : ∃ sd, (main_solution e.I e.str
      (solveOdeArgs e.opts (e.cons.read h) (sonicArgs e h c)) e.store_internal
      (firstLeg e.opts (sonicArgs e h c) c.angles (rowSt (h c.init_con)))).result = .ok sd ∧
      sd.1.flag = f ∧ sd.1.y = [witRow 1, witRow (1/2)] ∧ sd.1.t = [1/4, 1/5] := by
    have hl : ¬ c.angles.length < 2 := not_lt.2 hc
    rw [hI, ho]
    simp only [main_solution, main_plan, firstLeg, witTO, sonicArgs, Option.isSome_none,
      Bool.false_eq_true, false_and, and_false, if_false, hl, twoI, hf]
    exact ⟨_, rfl, rfl, rfl, rfl⟩
  unfold sonic_solution
  have hts : taylor_start e.I e.str e.opts (e.cons.read h) (sonicArgs e h c)
      (solveOdeArgs e.opts (e.cons.read h) (sonicArgs e h c)) =
      .ok (none, c.angles, rowSt (h c.init_con)) := rfl
  simp only [firstLeg] at hm
  simp only [solution, hts, Logged.ok_bind]
  have hm' : (main_solution e.I e.str
      (solveOdeArgs e.opts (e.cons.read h) (sonicArgs e h c))
      (sonicArgs e h c).store_internal _).result = .ok sd := hm
  rw [Logged.bind_of_ok hm', ho]
  refine ⟨_, rfl, hfl, ?_, ?_⟩
  · dsimp only; rw [hy]; rfl
  · dsimp only; rw [ht]; simp [scaled_to_rad, sonicArgs]

/-- The witness run: the midplane part ends at polar velocity `1/2`, the integration from
the sonic point succeeds, and the solver raises. -/
theorem wit_raises : ∃ s, ∀ rest success,
    solver (witArgs str interp .SUCCESS) { info := (0 : ℕ) } rest success =
      ({ info := 0, solutions := numbered [s] }, .error .AttributeError) := by
  obtain ⟨c, hc, ha⟩ := witInp_conditions
  obtain ⟨out, front, h1, h2, h3⟩ := wit_initial str interp .SUCCESS c ha
  obtain ⟨g, t, hg, -, -, -, g1, g2, g3, g4, g5, g6, g7⟩ := first_guess_extrapolates out
    front (witRow (1/4)) (witRow (1/2)) (1/5) h2 h3 (by norm_num [witRow])
    (by norm_num [witRow]) (by norm_num [witRow])
  refine ⟨_, fun rest success => solver_raises_on_success (witArgs str interp .SUCCESS) 0
    rest success c out (1/5) g hc h1 h3 hg ?_ ?_⟩
  · intro i
    fin_cases i <;> simp [written, g1, g2, g3, g4, g5, g6, g7, stRow]
  · intro h _
    obtain ⟨s, k1, k2, -⟩ := wit_sonic .SUCCESS (by simp)
      ((witArgs str interp .SUCCESS).env c out (1/5)) rfl rfl h
      { newCons c with angles := linspace g.θ_sonic (1/5) c.angles.length }
      (by simp [ha, linspace])
    exact ⟨s, k1, by rw [k2]; decide⟩

example := (residual_zero_iff
  ⟨.ROOT_RETURN, [0, 1], [witRow 0, witRow (1/2)], none, none, none, false⟩
  ⟨.ROOT_RETURN, [2, 1], [witRow 0, witRow (1/2)], none, none, none, false⟩
  (witRow (1/2)) (witRow (1/2)) 1 1 rfl rfl rfl rfl).2

example (P : OdeArgs) (hw : P.with_taylor = false) (θ : ℝ) (s : St) :=
  equations_unaffected P { P.init_con with v_r := 7 } hw rfl rfl rfl θ s

example (a b : SolutionOut) (ha : a.internal_data = none) (hb : b.internal_data = none) :=
  joined_internal_none (fun _ => none) ⟨0, 0, "", a, fun _ => none⟩
    ⟨0, 0, "", b, fun _ => none⟩ ha hb

/-- Initial conditions of the witness run. -/
noncomputable def witCons : Cons :=
  { norm_kepler_sq := 25, a_0 := 1, γ := 1/10, η_O := some 1, η_A := some 1,
    η_H := some 0, init_con := 0, angles := [0, 1/10] }

/-- Internal data with one row. -/
noncomputable def witInternal : InternalData :=
  { derivs := [witRow 0], params := [witRow 1], angles := [0], v_r_normal := [0],
    v_φ_normal := [0], ρ_normal := [0], v_r_taylor := [0], v_φ_taylor := [0],
    ρ_taylor := [0] }

/-- The environment of the witness run, for any midplane solution. -/
noncomputable def witEnv (f : StatusFlag) : Env :=
  { I := twoI f, str := str, interp := interp, opts := witTO, store_internal := true
    cons := witCons
    initial := ⟨0, 0, "spherical midplane 0",
      ⟨.ROOT_RETURN, [0, 1/5], [witRow 0, witRow (1/2)], none, none, none, false⟩, fun _ => none⟩
    sonic_stop := 1/5, err := -1 }

/-- A guess without NaN. -/
noncomputable def witG (x : ℝ) : Guess := { θ_sonic := 1/4, var := fun _ => some x }

/-- Memory at the start of the search. -/
noncomputable def witH : Heap := fun _ => stRow (witRow 0)

theorem wit_consistent (f : StatusFlag) :
    Consistent witH (witEnv str interp f).cons :=
  ⟨1, 1, 0, rfl, rfl, rfl, rfl, rfl, rfl⟩

theorem wit_v_θ : witH 0 5 = some 0 := rfl

example (f : StatusFlag) (r : Run Unit Soln) :
    (wrapped (witEnv str interp f) ⟨witH, r⟩ ⟨0, fun _ => none⟩).2 =
      .ok (List.replicate 8 (some (-1))) :=
  failed_evaluation_value _ _ _ (nan_guess_fails _ ⟨witH, r⟩ (wit_consistent str interp f) 0)

example (f : StatusFlag) : ∃ h' c', total_vars_to_mod_cons witH (witEnv str interp f).cons
    (witG 2) (1/5) = (h', .ok c') ∧ (c'.read h').init_con.v_θ = 1 ∧
      (c'.read h').init_con.B_φ = 2 := by
  obtain ⟨h', -, -, k2, k3⟩ := mod_cons_spec (wit_consistent str interp f) (witG 2) (1/5)
  have hn : ∀ i, written (witH (witEnv str interp f).cons.init_con) (witG 2) i ≠ none := by
    intro i; fin_cases i <;> simp [written, witG, witH, stRow]
  have k3 := (k3.resolve_left (by rintro ⟨⟨i, hi⟩, -⟩; exact hn i hi)).2
  have hok : total_vars_to_mod_cons witH (witEnv str interp f).cons (witG 2) (1/5) =
      (h', .ok { (witEnv str interp f).cons with
        angles := linspace (witG 2).θ_sonic (1/5) (witEnv str interp f).cons.angles.length }) :=
    Prod.ext k2 k3
  obtain ⟨s1, -, s2, -⟩ := sonic_start (wit_consistent str interp f) (witG 2) (1/5) hok
  exact ⟨h', _, hok, s1, Option.some.inj s2⟩

example (f : StatusFlag) := evaluation_overwrites (witEnv str interp f)
  ⟨witH, { info := (0 : ℕ) }⟩ (witG 2) (wit_consistent str interp f)
example (f : StatusFlag) := evaluation_changes (witEnv str interp f)
  ⟨witH, { info := (0 : ℕ) }⟩ (witG 2) (wit_consistent str interp f) wit_v_θ
example (f : StatusFlag) := conditions_kept_partial (witEnv str interp f)
  ⟨witH, { info := (0 : ℕ) }⟩ [witG 2, witG 3] (wit_consistent str interp f)
example (f : StatusFlag) := evaluation_other_arrays (witEnv str interp f)
  ⟨witH, { info := (0 : ℕ) }⟩ (witG 2) (wit_consistent str interp f) 1 Nat.one_ne_zero
example := joined_rows (fun _ => none) ⟨0, 0, "", ⟨.ROOT_RETURN, [0, 1], [witRow 0, witRow (1/2)],
    some {}, none, none, false⟩, fun _ => none⟩
  ⟨0, 0, "", ⟨.OTHER (-4), [2, 1], [witRow 1, witRow (1/2)], some {}, none, none, false⟩, fun _ => none⟩
  rfl rfl
example := joined_ordered (fun _ => none) ⟨0, 0, "", ⟨.ROOT_RETURN, [0, 1], [witRow 0, witRow (1/2)],
    some {}, none, none, false⟩, fun _ => none⟩
  ⟨0, 0, "", ⟨.OTHER (-4), [2, 1], [witRow 1, witRow (1/2)], some {}, none, none, false⟩, fun _ => none⟩
  1 (by simp) (by simp) (by simp) (by simp)
example := joined_internal_rows (fun _ => none) ⟨0, 0, "", ⟨.ROOT_RETURN, [0, 1], [witRow 0, witRow (1/2)],
    some witInternal, none, none, false⟩, fun _ => none⟩
  ⟨0, 0, "", ⟨.OTHER (-4), [2, 1], [witRow 1, witRow (1/2)], some {}, none, none, false⟩, fun _ => none⟩
  _ _ rfl rfl ⟨1, rfl, rfl, rfl, rfl, rfl, rfl, rfl, rfl, rfl⟩
  ⟨0, rfl, rfl, rfl, rfl, rfl, rfl, rfl, rfl, rfl⟩ ⟨0, rfl, rfl, rfl, rfl⟩
  ⟨0, rfl, rfl, rfl, rfl⟩
example := residual_zero_discontinuous (witRow (1/2)) 1 (by norm_num [witRow])
  (by norm_num [witRow]) (1/5) .SUCCESS

/-- A search that stores a solution: the sonic part fails. -/
theorem wit_search : ∃ w', evaluations (witEnv str interp (.OTHER (-4)))
    ⟨witH, { info := (0 : ℕ), solutions := numbered [] }⟩ ([] ++ [witG 2]) =
      (w', .ok ()) := by
  obtain ⟨h', k1, -, k2, k3⟩ := mod_cons_spec (wit_consistent str interp (.OTHER (-4)))
    (witG 2) (1/5)
  have hn : ∀ i, written (witH 0) (witG 2) i ≠ none := by
    intro i; fin_cases i <;> simp [written, witG, witH, stRow]
  have k3 := (k3.resolve_left (by rintro ⟨⟨i, hi⟩, -⟩; exact hn i hi)).2
  have hmod := Prod.ext (x := total_vars_to_mod_cons witH
    (witEnv str interp (.OTHER (-4))).cons (witG 2) (1/5)) (y := (h', .ok _)) k2 k3
  obtain ⟨s, hs1, hs2, hs3, hs4⟩ := wit_sonic (.OTHER (-4)) (by simp)
    (witEnv str interp (.OTHER (-4))) rfl rfl h'
    { (witEnv str interp (.OTHER (-4))).cons with
      angles := linspace (witG 2).θ_sonic (1/5) 2 } (by simp [linspace])
  obtain ⟨r, hr, -⟩ := (stored_iff_failed
    (h' (witEnv str interp (.OTHER (-4))).cons.init_con) (0 : ℕ) []
    (witEnv str interp (.OTHER (-4))).initial s).1 (by rw [hs2]; decide)
  have hroot : root_func (witEnv str interp (.OTHER (-4)))
      ⟨witH, { info := (0 : ℕ), solutions := numbered [] }⟩ (witG 2) =
      (⟨h', r⟩, get_root_results s (witEnv str interp (.OTHER (-4))).initial.out) := by
    unfold root_func
    have hmod' : total_vars_to_mod_cons witH (witEnv str interp (.OTHER (-4))).cons
        (witG 2) (witEnv str interp (.OTHER (-4))).sonic_stop = _ := hmod
    simp only [hmod']
    have hs1' : sonic_solution (witEnv str interp (.OTHER (-4))) h'
      { (witEnv str interp (.OTHER (-4))).cons with
        angles := linspace (witG 2).θ_sonic (1/5)
          (witEnv str interp (.OTHER (-4))).cons.angles.length } = .ok s := hs1
    simp only [hs1', hr]
  have hne : s.solution ≠ [] := by
    intro h; rw [h] at hs3; simp at hs3
  have hres : ∃ v, get_root_results s (witEnv str interp (.OTHER (-4))).initial.out =
      .ok v := by
    simp [get_root_results, hne, hs3, hs4, witEnv]
  obtain ⟨v, hres⟩ := hres
  rw [hres] at hroot
  simp only [List.nil_append, evaluations, wrapped, hroot]
  exact ⟨_, rfl⟩

example := search_overwrites (witEnv str interp (.OTHER (-4)))
  ⟨witH, { info := (0 : ℕ), solutions := numbered [] }⟩ _ [] (witG 2)
  (wit_consistent str interp (.OTHER (-4))) (wit_search str interp).choose_spec

end SonicRoot

end DiscSolver
