import Verif.Model.SonicRootRun
import Verif.Spec.SonicRootRun
import Verif.Props.SonicRoot
import Verif.Props.HydroMethods

/-!
# Properties: the sonic-root method, from the configuration file to the stored solutions

C113.
-/

namespace DiscSolver.SonicRootRun

open ConfDoc CliSolve Cli Runners SingleRun EndToEnd HydroMethods
open Stepper (Row)
open SonicRoot (Guess Heap stRow rowSt newCons Consistent written code Soln)

/-! ## One evaluation -/

theorem failed_iff (f : StatusFlag) : Failed f ↔ code f < 0 := by
  cases f <;> simp [Failed, code]

theorem joined_both (now : Row) (x : Soln) (out : SolutionOut) :
    SonicRoot.joined now x { x with out := out } =
      ⟨x.input, x.cons, x.coordinate_system, both x.out out, now⟩ := by
  unfold SonicRoot.joined both SonicRoot.joined_internal
  cases x.out.internal_data <;> cases out.internal_data <;> rfl

/-- The array holds the state which the guess describes, or something which is not a
number. -/
theorem written_state {h : Row} {mid : St} (h8 : h 8 = some mid.η_O) (h9 : h 9 = some mid.η_A)
    (h10 : h 10 = some mid.η_H) (g : Guess) :
    (sonicState mid g = none ∧ ∃ i, written h g i = none) ∨
      ∃ s, sonicState mid g = some s ∧ written h g = stRow s := by
  unfold sonicState
  cases h1 : g.var .B_r with
  | none => exact Or.inl ⟨rfl, 0, h1⟩
  | some B_r =>
  cases h2 : g.var .B_φ with
  | none => exact Or.inl ⟨rfl, 1, h2⟩
  | some B_φ =>
  cases h3 : g.var .B_θ with
  | none => exact Or.inl ⟨rfl, 2, h3⟩
  | some B_θ =>
  cases h4 : g.var .v_r with
  | none => exact Or.inl ⟨rfl, 3, h4⟩
  | some v_r =>
  cases h5 : g.var .v_φ with
  | none => exact Or.inl ⟨rfl, 4, h5⟩
  | some v_φ =>
  cases h6 : g.var .log_ρ with
  | none => exact Or.inl ⟨rfl, 6, by simp [written, h6]⟩
  | some log_ρ =>
  cases h7 : g.var .B_φ_prime with
  | none => exact Or.inl ⟨rfl, 7, h7⟩
  | some X =>
  refine Or.inr ⟨_, rfl, ?_⟩
  funext i
  fin_cases i <;> simp [written, stRow, h1, h2, h3, h4, h5, h6, h7, h8, h9, h10]

variable {μ : Type} (a : SonicRoot.Args) (c : Conditions) (mid : SolutionOut) (stop : ℝ)

/-- What an evaluation stores, for the arguments of the solver. -/
noncomputable abbrev storedFor (g : Guess) : Option (St × SolutionOut) :=
  stored a.I a.str a.interp a.opts a.store_internal c mid stop g

/-- How it is kept. -/
def keep (x : St × SolutionOut) : Soln := ⟨0, 0, a.coords, x.2, stRow x.1⟩

/-- What becomes of a guess, up to the integration. -/
theorem guess_unpacked {h : Heap} (hc : Consistent h (newCons c)) (g : Guess) :
    ∃ h', (sonicState c.init_con g = none ∧
        SonicRoot.total_vars_to_mod_cons h (a.env c mid stop).cons g
          (a.env c mid stop).sonic_stop = (h', .error .SolverError)) ∨
      ∃ s, sonicState c.init_con g = some s ∧ h' 0 = stRow s ∧
        SonicRoot.total_vars_to_mod_cons h (a.env c mid stop).cons g
          (a.env c mid stop).sonic_stop = (h', .ok { newCons c with
            angles := linspace g.θ_sonic stop c.angles.length }) ∧
        SonicRoot.sonic_solution (a.env c mid stop) h' { newCons c with
            angles := linspace g.θ_sonic stop c.angles.length } =
          fromSonic a.I a.str a.interp a.opts a.store_internal c stop g s := by
  obtain ⟨h', k1, -, k2, k3⟩ := SonicRoot.mod_cons_spec hc g stop
  have h8 : h 0 8 = some c.init_con.η_O := by
    obtain ⟨o, _, _, e1, -, -, e2, -⟩ := hc
    exact e2.trans e1.symm
  have h9 : h 0 9 = some c.init_con.η_A := by
    obtain ⟨_, o, _, -, e1, -, -, e2, -⟩ := hc
    exact e2.trans e1.symm
  have h10 : h 0 10 = some c.init_con.η_H := by
    obtain ⟨_, _, o, -, -, e1, -, -, e2⟩ := hc
    exact e2.trans e1.symm
  have hw := written_state h8 h9 h10 g
  refine ⟨h', ?_⟩
  rcases hw with ⟨hs, i, hi⟩ | ⟨s, hs, hrow⟩
  · have k3 := (k3.resolve_right (by rintro ⟨h, -⟩; exact h i hi)).2
    exact Or.inl ⟨hs, Prod.ext k2 k3⟩
  · have k3 := (k3.resolve_left (by
      rintro ⟨⟨i, hi⟩, -⟩
      have hi : written (h 0) g i = none := hi
      rw [hrow] at hi
      cases hi)).2
    have k1 : h' 0 = stRow s := k1.trans hrow
    refine Or.inr ⟨s, hs, k1, Prod.ext k2 k3, ?_⟩
    unfold SonicRoot.sonic_solution fromSonic SonicRoot.sonicArgs SonicRoot.Cons.read
    have e1 : h' (a.env c mid stop).cons.init_con = stRow s := k1
    have e2 : h' (newCons c).init_con = stRow s := k1
    simp only [e1, e2, SonicRoot.row_round_trip]
    rfl

/-- One evaluation of the objective which does not raise stores what the specification
says. -/
theorem evaluation_stores (h : Heap) (hc : Consistent h (newCons c)) (m : μ) (xs : List Soln)
    (g : Guess) (w : SonicRoot.World μ) (v : List Flt)
    (he : SonicRoot.wrapped (a.env c mid stop) ⟨h, { info := m, solutions := numbered xs }⟩ g =
      (w, .ok v)) :
    w.run = { info := m, solutions :=
      numbered (xs ++ ((storedFor a c mid stop g).map (keep a)).toList) } := by
  unfold storedFor stored
  unfold SonicRoot.wrapped SonicRoot.root_func at he
  obtain ⟨h', ⟨hs, hmod⟩ | ⟨s, hs, k1, hmod, hson⟩⟩ := guess_unpacked a c mid stop hc g
  · rw [hs]
    simp only [hmod] at he
    injection he with he
    subst he
    simp
  · rw [hs]
    simp only [hmod, hson] at he
    dsimp only
    generalize fromSonic a.I a.str a.interp a.opts a.store_internal c stop g s = q at he ⊢
    rcases q with p | out
    · dsimp only at he ⊢
      cases p <;> simp only [Prod.mk.injEq, reduceCtorEq, and_false] at he
      rw [← he.1]
      simp
    · dsimp only at he ⊢
      obtain ⟨q1, q2⟩ := SonicRoot.stored_iff_failed (h' (a.env c mid stop).cons.init_con) m xs
        (a.env c mid stop).initial out
      by_cases hf : code out.flag < 0
      · rw [if_pos ((failed_iff _).2 hf)]
        obtain ⟨r, hr, hr'⟩ := q1 hf
        rw [hr] at he
        dsimp only at he
        have hw : w.run = r := by
          split at he
          · rename_i w' hw
            injection he with he
            injection hw with hw
            rw [← he, ← hw]
          · injection he with he
            rw [← he]
        rw [hw, hr', joined_both]
        have e1 : h' (a.env c mid stop).cons.init_con = stRow s := k1
        rw [e1]
        rfl
      · rw [q2 (not_lt.1 hf)] at he
        simp at he

/-- An evaluation at a quiet guess does not raise, if the midplane part has a row and an
angle. -/
theorem quiet_returns (h : Heap) (hc : Consistent h (newCons c)) (m : μ) (xs : List Soln)
    (g : Guess) (h1 : mid.solution ≠ []) (h2 : mid.angles ≠ [])
    (hq : Quiet a.I a.str a.interp a.opts a.store_internal c stop g) :
    ∃ w v, SonicRoot.wrapped (a.env c mid stop) ⟨h, { info := m, solutions := numbered xs }⟩ g =
      (w, .ok v) := by
  unfold SonicRoot.wrapped SonicRoot.root_func
  obtain ⟨h', ⟨hs, hmod⟩ | ⟨s, hs, k1, hmod, hson⟩⟩ := guess_unpacked a c mid stop hc g
  · simp only [hmod]
    exact ⟨_, _, rfl⟩
  · simp only [hmod, hson]
    rcases hq s hs with he | ⟨out, he, hf, hn⟩
    · rw [he]
      exact ⟨_, _, rfl⟩
    · rw [he]
      dsimp only
      obtain ⟨r, hr, -⟩ := (SonicRoot.stored_iff_failed (h' (a.env c mid stop).cons.init_con) m xs
        (a.env c mid stop).initial out).1 ((failed_iff _).1 hf)
      rw [hr]
      dsimp only
      have : (∃ v, SonicRoot.get_root_results out (a.env c mid stop).initial.out = .ok v) ∨
          SonicRoot.get_root_results out (a.env c mid stop).initial.out =
            .error .SolverError := by
        unfold SonicRoot.get_root_results
        by_cases h0 : out.solution = []
        · rw [if_pos h0]
          exact Or.inr rfl
        · rw [if_neg h0, List.getLast?_eq_some_getLast h0,
            List.getLast?_eq_some_getLast (fun h => h0 (hn h)),
            show (a.env c mid stop).initial.out = mid from rfl,
            List.getLast?_eq_some_getLast h1, List.getLast?_eq_some_getLast h2]
          exact Or.inl ⟨_, rfl⟩
      rcases this with ⟨v, hv⟩ | hv
      · rw [hv]; exact ⟨_, _, rfl⟩
      · rw [hv]; exact ⟨_, _, rfl⟩

/-- An evaluation whose sonic part ends well raises, and stores nothing. -/
theorem success_raises (h : Heap) (hc : Consistent h (newCons c)) (m : μ) (xs : List Soln)
    (g : Guess)
    (hq : Completes a.I a.str a.interp a.opts a.store_internal c stop g) :
    ∃ h', SonicRoot.wrapped (a.env c mid stop) ⟨h, { info := m, solutions := numbered xs }⟩ g =
      (⟨h', { info := m, solutions := numbered xs }⟩, .error .AttributeError) := by
  obtain ⟨s, sonic, hs, he, hf⟩ := hq
  unfold SonicRoot.wrapped SonicRoot.root_func
  obtain ⟨h', ⟨hs', hmod⟩ | ⟨s', hs', k1, hmod, hson⟩⟩ := guess_unpacked a c mid stop hc g
  · rw [hs] at hs'
    cases hs'
  · rw [hs] at hs'
    injection hs' with hs'
    subst hs'
    simp only [hmod, hson, he]
    rw [(SonicRoot.stored_iff_failed (h' (a.env c mid stop).cons.init_con) m xs
        (a.env c mid stop).initial sonic).2 (not_lt.1 fun h => hf ((failed_iff _).2 h))]
    exact ⟨_, rfl⟩

/-- Quiet guesses are gone through. -/
theorem quiet_evaluations (gs tail : List Guess) (h : Heap) (hc : Consistent h (newCons c))
    (m : μ) (xs : List Soln) (h1 : mid.solution ≠ []) (h2 : mid.angles ≠ [])
    (hq : ∀ g ∈ gs, Quiet a.I a.str a.interp a.opts a.store_internal c stop g) :
    ∃ h', Consistent h' (newCons c) ∧
      SonicRoot.evaluations (a.env c mid stop) ⟨h, { info := m, solutions := numbered xs }⟩
        (gs ++ tail) =
      SonicRoot.evaluations (a.env c mid stop) ⟨h',
        { info := m
          solutions := numbered (xs ++ (gs.filterMap (storedFor a c mid stop)).map (keep a)) }⟩
        tail := by
  induction gs generalizing h xs with
  | nil => exact ⟨h, hc, by simp⟩
  | cons g gs ih =>
    obtain ⟨⟨h', run'⟩, v, hw⟩ := quiet_returns a c mid stop h hc m xs g h1 h2
      (hq g (List.mem_cons_self ..))
    have hc' := SonicRoot.consistent_after (a.env c mid stop)
      ⟨h, { info := m, solutions := numbered xs }⟩ g hc
    rw [hw] at hc'
    have := evaluation_stores a c mid stop h hc m xs g _ v hw
    dsimp only at this
    subst this
    obtain ⟨h'', hc'', he⟩ := ih h' hc' _ fun g hg => hq g (List.mem_cons_of_mem _ hg)
    refine ⟨h'', hc'', ?_⟩
    rw [List.cons_append, SonicRoot.evaluations, hw]
    dsimp only
    rw [he, List.filterMap_cons]
    cases storedFor a c mid stop g <;> simp

/-- A search whose evaluations do not raise stores what the specification says, in order. -/
theorem evaluations_store (gs : List Guess) (h : Heap) (hc : Consistent h (newCons c)) (m : μ)
    (xs : List Soln) (w : SonicRoot.World μ)
    (he : SonicRoot.evaluations (a.env c mid stop)
      ⟨h, { info := m, solutions := numbered xs }⟩ gs = (w, .ok ())) :
    w.run = { info := m, solutions :=
      numbered (xs ++ (gs.filterMap (storedFor a c mid stop)).map (keep a)) } ∧
    ∀ g ∈ gs, ¬ Completes a.I a.str a.interp a.opts a.store_internal c stop g := by
  induction gs generalizing h xs with
  | nil =>
    injection he with he
    subst he
    simp
  | cons g gs ih =>
    simp only [SonicRoot.evaluations] at he
    have hc' := SonicRoot.consistent_after (a.env c mid stop)
      ⟨h, { info := m, solutions := numbered xs }⟩ g hc
    rcases hr : SonicRoot.wrapped (a.env c mid stop)
      ⟨h, { info := m, solutions := numbered xs }⟩ g with ⟨⟨h', run'⟩, p | v⟩
    · rw [hr] at he; cases he
    · rw [hr] at he hc'
      have := evaluation_stores a c mid stop h hc m xs g _ v hr
      dsimp only at this he
      subst this
      obtain ⟨q1, q2⟩ := ih h' hc' _ he
      constructor
      · rw [q1, List.filterMap_cons]
        cases storedFor a c mid stop g <;> simp
      · rintro g' hg'
        rcases List.mem_cons.1 hg' with rfl | hg'
        · intro hcomp
          obtain ⟨h'', hw⟩ := success_raises a c mid stop h hc m xs g' hcomp
          rw [hr] at hw
          injection hw with _ hw
          cases hw
        · exact q2 g' hg'

/-- C76. If the solver returns, the run holds the midplane part and then, for each guess in
order whose sonic part failed, both parts. -/
theorem solver_stores (m : μ) (rest : List Guess) (success : Except PyErr Bool) (b : Bool)
    (run' : Run μ Soln) (h : SonicRoot.solver a { info := m } rest success = (run', .ok b)) :
    ∃ c mid stop best, define_conditions a.inp = some c ∧
      fromMidplane a.I a.str a.interp a.opts a.store_internal a.target_velocity c = .ok mid ∧
      mid.angles.getLast? = some stop ∧ SonicRoot.guess_root_vals mid = .ok best ∧
      success = .ok b ∧
      (∀ g ∈ best :: rest,
        ¬ Completes a.I a.str a.interp a.opts a.store_internal c stop g) ∧
      run'.info = m ∧
      run'.solutions = numbered ((keep a (c.init_con, mid)) ::
        ((best :: rest).filterMap (storedFor a c mid stop)).map (keep a)) ∧
      run'.final = .value (((keep a (c.init_con, mid)) ::
        ((best :: rest).filterMap (storedFor a c mid stop)).map (keep a)).getLast?) := by
  unfold SonicRoot.solver at h
  rcases hc : define_conditions a.inp with _ | c
  · rw [hc] at h; simp at h
  rw [hc] at h
  dsimp only at h
  rcases ho : SonicRoot.initial_out a c with p | out
  · rw [ho] at h; simp at h
  rw [ho] at h
  dsimp only at h
  have hadd : ({ info := m } : Run μ Soln).addSolution ⟨0, 0, a.coords, out, stRow c.init_con⟩ =
      .ok ("0", { info := m, solutions := numbered [keep a (c.init_con, out)] }) :=
    SonicRoot.add_first m _
  rw [hadd] at h
  dsimp only at h
  rcases hs : out.angles.getLast? with _ | stop
  · rw [hs] at h; simp at h
  rw [hs] at h
  dsimp only at h
  unfold SonicRoot.search at h
  rcases hg : SonicRoot.guess_root_vals (a.env c out stop).initial.out with p | best
  · rw [hg] at h; simp at h
  rw [hg] at h
  dsimp only at h
  rcases hr : SonicRoot.evaluations (a.env c out stop) ⟨fun _ => stRow c.init_con,
      { info := m, solutions := numbered [keep a (c.init_con, out)] }⟩ (best :: rest) with
    ⟨⟨h', run₁⟩, p | v⟩
  · rw [hr] at h; simp at h
  obtain ⟨h1, hnc⟩ := evaluations_store a c out stop (best :: rest) _
    (SonicRoot.define_conditions_start a.inp c hc).1 m _ _ hr
  rw [hr] at h
  dsimp only at h h1
  subst h1
  generalize hys : ((best :: rest).filterMap (storedFor a c out stop)).map (keep a) = ys at h
  have hl : (numbered ([keep a (c.init_con, out)] ++ ys)).length - 1 = ys.length := by
    simp [numbered]
  have hlast : ([keep a (c.init_con, out)] ++ ys)[ys.length]? =
      (keep a (c.init_con, out) :: ys).getLast? := by
    rw [List.getLast?_eq_getElem?]; simp
  have hgot : ∃ s, (keep a (c.init_con, out) :: ys).getLast? = some s :=
    ⟨_, List.getLast?_eq_some_getLast (List.cons_ne_nil _ _)⟩
  obtain ⟨s, hgot⟩ := hgot
  cases hb : success with
  | error p => rw [hb] at h; simp at h
  | ok b' =>
  rw [hb] at h
  simp only [SonicRoot.set_final, hl, Dict.getItem, numbered_get, hlast, hgot,
    Run.setFinal] at h
  injection h with h4 h5
  injection h5 with h5
  refine ⟨c, out, stop, best, rfl, ho, hs, hg, by rw [h5], hnc, ?_, ?_, ?_⟩
  · rw [← h4]
  · rw [hys, ← h4]; rfl
  · rw [hys, ← h4, hgot]

/-- When the solver returns, and when it raises `AttributeError`. -/
theorem solver_outcome (m : μ) (rest : List Guess) (success : Except PyErr Bool) (best : Guess)
    (h1 : define_conditions a.inp = some c)
    (h2 : fromMidplane a.I a.str a.interp a.opts a.store_internal a.target_velocity c = .ok mid)
    (h3 : mid.angles.getLast? = some stop) (h4 : SonicRoot.guess_root_vals mid = .ok best) :
    ((∀ g ∈ best :: rest, Quiet a.I a.str a.interp a.opts a.store_internal c stop g) →
      ∀ b, success = .ok b →
        ∃ run', SonicRoot.solver a { info := m } rest success = (run', .ok b)) ∧
    (∀ pre g post, best :: rest = pre ++ g :: post →
      (∀ g' ∈ pre, Quiet a.I a.str a.interp a.opts a.store_internal c stop g') →
      Completes a.I a.str a.interp a.opts a.store_internal c stop g →
      SonicRoot.solver a { info := m } rest success =
        ({ info := m, solutions := numbered (keep a (c.init_con, mid) ::
          (pre.filterMap (storedFor a c mid stop)).map (keep a)) }, .error .AttributeError)) := by
  have hadd : ({ info := m } : Run μ Soln).addSolution ⟨0, 0, a.coords, mid, stRow c.init_con⟩ =
      .ok ("0", { info := m, solutions := numbered [keep a (c.init_con, mid)] }) :=
    SonicRoot.add_first m _
  have hs : mid.solution ≠ [] := by
    intro h
    unfold SonicRoot.guess_root_vals at h4
    rw [h] at h4
    simp at h4
  have hm : mid.angles ≠ [] := by
    intro h
    rw [h] at h3
    cases h3
  have hi : SonicRoot.initial_out a c = .ok mid := h2
  have hg : SonicRoot.guess_root_vals (a.env c mid stop).initial.out = .ok best := h4
  have hcon := (SonicRoot.define_conditions_start a.inp c h1).1
  constructor
  · intro hq b hb
    obtain ⟨h', -, he⟩ := quiet_evaluations a c mid stop (best :: rest) [] _ hcon m
      [keep a (c.init_con, mid)] hs hm hq
    unfold SonicRoot.solver
    rw [List.append_nil] at he
    simp only [h1, hi, hadd, h3, SonicRoot.search, hg]
    rw [he]
    simp only [SonicRoot.evaluations, hb]
    generalize ((best :: rest).filterMap (storedFor a c mid stop)).map (keep a) = ys
    have hl : (numbered ([keep a (c.init_con, mid)] ++ ys)).length - 1 = ys.length := by
      simp [numbered]
    have hlast : ([keep a (c.init_con, mid)] ++ ys)[ys.length]? =
        (keep a (c.init_con, mid) :: ys).getLast? := by
      rw [List.getLast?_eq_getElem?]; simp
    simp only [SonicRoot.set_final, hl, Dict.getItem, numbered_get, hlast,
      List.getLast?_eq_some_getLast (List.cons_ne_nil _ _), Run.setFinal]
    exact ⟨_, rfl⟩
  · intro pre g post hsplit hq hg'
    obtain ⟨h', hc', he⟩ := quiet_evaluations a c mid stop pre (g :: post) _ hcon m
      [keep a (c.init_con, mid)] hs hm hq
    obtain ⟨h'', hw⟩ := success_raises a c mid stop h' hc' m _ g hg'
    unfold SonicRoot.solver
    simp only [h1, hi, hadd, h3, SonicRoot.search, hg]
    rw [hsplit, he, SonicRoot.evaluations, hw]
    rfl

theorem guess_first {mid : SolutionOut} {g : Guess}
    (h : SonicRoot.guess_root_vals mid = .ok g) : FirstGuess mid g := by
  unfold SonicRoot.guess_root_vals at h
  split at h
  · rename_i q p front x hs ha
    injection h with h
    have hs' : mid.solution = front.reverse ++ [p, q] := by
      have := congrArg List.reverse hs
      simpa using this
    refine ⟨front.reverse, p, q, x, hs', ha, by rw [← h]; norm_num, ?_, ?_⟩
    · intro he v hv
      rw [← h]
      dsimp only
      rw [if_neg hv]
      cases v <;> simp [SonicRoot.sonic_point_value, SonicRoot.slope, he] at hv ⊢
    · intro t ht hne
      have hd : q.v_θ - p.v_θ ≠ 0 := sub_ne_zero.2 (Ne.symm hne)
      have htt : t = (1 - q.v_θ) / (q.v_θ - p.v_θ) := by
        rw [eq_div_iff hd]; linarith
      rw [← h, htt]
      simp only [reduceCtorEq, if_false, SonicRoot.sonic_point_value, SonicRoot.slope, hd,
        Option.map_some, Option.some.injEq]
      refine ⟨by ring, by ring, by ring, by ring, by ring, by ring, fun hp hq => ?_⟩
      have hl : SonicRoot.logRatio q.ρ p.ρ = some (Real.log q.ρ - Real.log p.ρ) := by
        rw [SonicRoot.logRatio, if_pos ⟨hp.ne', div_pos hq hp⟩, Real.log_div hq.ne' hp.ne']
      have hl' : SonicRoot.logRatio q.ρ 1 = some (Real.log q.ρ) := by
        rw [SonicRoot.logRatio, div_one, if_pos ⟨one_ne_zero, hq⟩]
      simp only [hl, hl', Option.bind_some, Option.some.injEq]
      ring
  · cases h

/-- There is a first guess if the midplane part has two rows and an angle. -/
theorem guess_exists {mid : SolutionOut} (h2 : 2 ≤ mid.solution.length)
    (ha : mid.angles ≠ []) : ∃ g, SonicRoot.guess_root_vals mid = .ok g := by
  unfold SonicRoot.guess_root_vals
  obtain ⟨a, ha⟩ : ∃ a, mid.angles.getLast? = some a :=
    ⟨_, List.getLast?_eq_some_getLast ha⟩
  rw [ha]
  have h2' : 2 ≤ mid.solution.reverse.length := by rw [List.length_reverse]; exact h2
  generalize mid.solution.reverse = l at h2' ⊢
  rcases l with _ | ⟨q, _ | ⟨p, l⟩⟩
  · simp at h2'
  · simp at h2'
  · exact ⟨_, rfl⟩

/-! ## The method -/

theorem numbered_in_file {α β : Type} (f : α → β) (xs : List α) :
    (numbered xs).map (fun p => (p.1, f p.2)) = numbered (xs.map f) := by
  simp only [numbered, List.map_map, List.zipIdx_map]
  rfl

section Files

variable (e : Env ℝ) (read : String → Option Text) (config_file : String) (given : List Occ)
  (fs : FS ℝ Made) (d : Doc) (scipy : Search) (I : Tolerances → Integrator) (str : ℝ → String)
  (interp : List ℝ → List ℝ → Option (ℝ → ℝ)) (M : ℝ)
  (others : Bool → String → Runners.Solver ℝ Made)

theorem args_ok {st : Bool} {s : SolutionInput ℝ} {a : SonicRoot.Args}
    (h : args I str interp M st s = .ok a) :
    ∃ inp t o v, numInput s = .ok inp ∧ tolerances s = .ok t ∧ solveOpts s = .ok o ∧
      s .target_velocity = .float v ∧
      a = ⟨I t, str, interp, inp, o, v, st, coords, ERR_FLOAT M⟩ := by
  simp only [args, EndToEnd.bind_ok, real_ok] at h
  obtain ⟨inp, h1, t, h2, o, h3, v, h4, h⟩ := h
  injection h with h
  exact ⟨inp, t, o, v, h1, h2, h3, h4, h.symm⟩

theorem args_given {st : Bool} {s : SolutionInput ℝ} {inp : NumInput} {t : Tolerances}
    {o : SolveOpts} {v : ℝ} (h1 : numInput s = .ok inp) (h2 : tolerances s = .ok t)
    (h3 : solveOpts s = .ok o) (h4 : s .target_velocity = .float v) :
    args I str interp M st s =
      .ok ⟨I t, str, interp, inp, o, v, st, coords, ERR_FLOAT M⟩ := by
  simp only [args, h1, h2, h3, h4, real]
  rfl

/-- C75. The value a failed evaluation of `ds-soln` has in every coordinate: a tenth of the
square root of the largest float, negative, so that it is no root. -/
theorem failed_value {st : Bool} {s : SolutionInput ℝ} {a : SonicRoot.Args}
    (h : args I str interp M st s = .ok a) (hM : 0 < M) (v : SonicRoot.Env) (hv : v.err = a.err)
    {μ : Type} (w : SonicRoot.World μ) (g : SonicRoot.Guess)
    (hg : (SonicRoot.root_func v w g).2 = .error .SolverError) :
    ∃ x : ℝ, x < 0 ∧ 100 * x ^ 2 = M ∧
      (SonicRoot.wrapped v w g).2 = .ok (List.replicate 8 (some x)) := by
  obtain ⟨inp, t, o, u, -, -, -, -, rfl⟩ := args_ok I str interp M h
  refine ⟨ERR_FLOAT M, ?_, ?_, ?_⟩
  · have := Real.sqrt_pos.2 hM
    unfold ERR_FLOAT
    linarith
  · have := Real.sq_sqrt hM.le
    unfold ERR_FLOAT
    linear_combination this
  · have := SonicRoot.failed_evaluation_value v w g hg
    rw [hv] at this
    exact this

example {st : Bool} {s : SolutionInput ℝ} {a : SonicRoot.Args} (f : StatusFlag)
    (r : Run Unit SonicRoot.Soln) (h : args I str interp 100 st s = .ok a) :
    ∃ x : ℝ, x < 0 ∧ 100 * x ^ 2 = 100 ∧
      (SonicRoot.wrapped { SonicRoot.witEnv str interp f with err := a.err } ⟨SonicRoot.witH, r⟩
        ⟨0, fun _ => none⟩).2 = .ok (List.replicate 8 (some x)) :=
  failed_value _ _ _ 100 h (by norm_num) _ rfl _ _
    (SonicRoot.nan_guess_fails _ ⟨SonicRoot.witH, r⟩ (SonicRoot.wit_consistent str interp f) 0)

theorem in_file_solutions (s : SolutionInput ℝ) (a : SonicRoot.Args) (c : Conditions)
    (mid : SolutionOut) (stop : ℝ) (gs : List Guess) :
    (keep a (c.init_con, mid) :: (gs.filterMap (storedFor a c mid stop)).map (keep a)).map
        (inFile s c) =
      fileSolutions a.I a.str a.interp a.opts a.store_internal s c mid stop gs := by
  simp only [List.map_cons, List.map_map, fileSolutions]
  rfl

/-- C113, in part. If `ds-soln` returns with `--sonic-method sonic_root`, one new file was
written, under the printed name, which holds the configuration of the file with the overrides.
Its solutions are: the integration from the midplane of the numbers asked for to the target
velocity asked for; then one solution for each guess in order whose integration back from the
sonic point failed, holding both parts.  The first guess extrapolates the last step of the
midplane part to unit polar velocity.  The final solution is the last one, and the exit status
is the verdict of the search.

Missing: solutions of guesses which worked, since no guess whose integration ended well can be
among those tried (`sonic_root_outcome`), and the midplane as the initial conditions of the
joined solutions: those stored have unit polar velocity. -/
theorem sonic_root_end_to_end_partial (hd : d.Good)
    (hread : read config_file = some d.text) (ht : CliSolve.Typed given)
    (ha : Cli.accepted soln_options given = true) (hk : KnownFields given)
    (hm : textGiven given "--sonic-method" = some "sonic_root") (n : ℕ)
    (hn : (ds_soln e (methods scipy I str interp M others) read config_file given fs).status =
      .ok n) :
    ∃ (p : String) (r : TheRun ℝ Made) (s : SolutionInput ℝ) (inp : NumInput) (o : SolveOpts)
      (t : Tolerances) (target : ℝ) (c : Conditions) (mid : SolutionOut) (stop : ℝ)
      (best : Guess) (tried : List Guess) (b : Bool),
      n = (if b then 0 else 1) ∧
      (ds_soln e (methods scipy I str interp M others) read config_file given fs).printed =
        [p] ∧
      fs.get? p = none ∧
      (∀ q, q ≠ p → (ds_soln e (methods scipy I str interp M others) read config_file given
        fs).fs.get? q = fs.get? q) ∧
      (ds_soln e (methods scipy I str interp M others) read config_file given fs).fs.get? p =
        some (.run r) ∧
      r.info.config_filename = some config_file ∧ r.info.sonic_method = "sonic_root" ∧
      (∀ f : CField, ∃ v, Asked d given f.name v ∧
        r.info.config_input f = some (kept f.name v)) ∧
      r.info.config_input.to_soln_input e.conv = .ok s ∧
      States e.conv d given inp ∧ Options e.conv d given o t ∧
      Number e.conv d given "target_velocity" target ∧
      define_conditions inp = some c ∧
      fromMidplane (I t) str interp o (!isGiven given "--no-store-internal") target c =
        .ok mid ∧
      mid.angles.getLast? = some stop ∧ FirstGuess mid best ∧
      scipy s (!isGiven given "--no-store-internal") = (tried, .ok b) ∧
      (∀ g ∈ best :: tried, ¬ Completes (I t) str interp o
        (!isGiven given "--no-store-internal") c stop g) ∧
      r.solutions = numbered (fileSolutions (I t) str interp o
        (!isGiven given "--no-store-internal") s c mid stop (best :: tried)) ∧
      r.final = .value (fileSolutions (I t) str interp o
        (!isGiven given "--no-store-internal") s c mid stop (best :: tried)).getLast? := by
  obtain ⟨p, cf, s, b, r, r', h1, h2, h3, h4, h5, h6, h7, h8, h9⟩ := soln_ran e
    (methods scipy I str interp M others) read config_file given fs d hd hread ht ha hk
    "sonic_root" (by rw [hm]; rfl) n hn
  have hM : methods scipy I str interp M others (!isGiven given "--no-store-internal")
      "sonic_root" = sonic_root_solver scipy I str interp M
        (!isGiven given "--no-store-internal") := if_pos rfl
  rw [hM] at h8
  generalize (!isGiven given "--no-store-internal") = st at h8 ⊢
  unfold sonic_root_solver at h8
  cases hargs : args I str interp M st s with
  | error x =>
    rw [hargs] at h8
    cases h8
  | ok a =>
  obtain ⟨inp, t, o, v, k1, k2, k3, k4, rfl⟩ := args_ok I str interp M hargs
  rw [hargs] at h8
  dsimp only at h8
  cases hc : define_conditions inp with
  | none =>
    rw [hc] at h8
    cases h8
  | some c =>
  rw [hc] at h8
  dsimp only at h8
  rcases hs : SonicRoot.solver (⟨I t, str, interp, inp, o, v, st, coords, ERR_FLOAT M⟩)
    ({ info := () } : Run Unit _) (scipy s st).1 (scipy s st).2 with ⟨run', x | b'⟩
  · rw [hs] at h8
    cases h8
  rw [hs] at h8
  dsimp only at h8
  injection h8 with h8 h8'
  injection h8 with h8
  subst h8
  obtain ⟨c', mid, stop, best, q1, q2, q3, q4, q5, q6, -, q7, q8⟩ := solver_stores _ _ _ _ _ _ hs
  dsimp only at q1 q2 q6
  rw [hc] at q1
  injection q1 with q1
  subst q1
  rw [q7, numbered_in_file, in_file_solutions] at h8'
  have hfin : finalInFile s c run'.final = .value (fileSolutions (I t) str interp o
      st s c mid stop (best :: (scipy s st).1)).getLast? := by
    rw [q8, ← in_file_solutions s ⟨I t, str, interp, inp, o, v, st, coords, ERR_FLOAT M⟩,
      List.getLast?_map]
    rfl
  rw [hfin] at h8'
  rw [← h8', finalise_set _ _ rfl] at h9
  injection h9 with h9
  subst h9
  obtain ⟨hS, hO⟩ := states_options h6 h7 k1 k2 k3
  exact ⟨p, _, s, inp, o, t, v, c, mid, stop, best, _, b', h1, h2, h3, h4, h5, rfl, rfl, h6, h7,
    hS, hO, read_number h6 h7 .target_velocity rfl k4, hc, q2, q3, guess_first q4,
    Prod.ext rfl q5, q6, rfl, rfl⟩

/-- C113. What becomes of `ds-soln --sonic-method sonic_root`, if every option has a text which
can be read, the name of the output is free and the file can be written.  If the midplane has no
solution it stops with a `SolverError`.  Otherwise, and if the midplane part was made and has two
rows and an angle: if every guess tried is quiet and the search returns, it returns and prints the
name, with the verdict of the search as its status.  As soon as the integration back from the
sonic point ends well, it stops with an `AttributeError`; the file holds the midplane part and
the failed guesses before, and no final solution. -/
theorem sonic_root_outcome (hd : d.Good)
    (hread : read config_file = some d.text) (ht : CliSolve.Typed given)
    (ha : Cli.accepted soln_options given = true) (hk : KnownFields given)
    (hm : textGiven given "--sonic-method" = some "sonic_root")
    (hall : ∀ f : CField, ∃ v, InFile d f.name v) (s : SolutionInput ℝ)
    (hreads : ∀ (f : SField) v, Asked d given f.name v →
      readField e.conv f.kind (some (kept f.name v)) = .ok (s f))
    (name : String)
    (hname : textGiven given "--output-file" = some name ∨
      textGiven given "--output-file" = none ∧
        ∃ v, Asked d given "label" v ∧ name = String.ofList v ++ (e.now ++ ".hdf5"))
    (hfree : fs.get? (e.path ((textGiven given "--output-dir").getD ".") name) = none)
    (hw : e.writable (e.path ((textGiven given "--output-dir").getD ".") name) = true)
    (inp : NumInput) (o : SolveOpts) (t : Tolerances) (target : ℝ)
    (hS : States e.conv d given inp) (hO : Options e.conv d given o t)
    (hT : Number e.conv d given "target_velocity" target) (st : Bool)
    (hst : st = !isGiven given "--no-store-internal") :
    (define_conditions inp = none →
      (ds_soln e (methods scipy I str interp M others) read config_file given fs).status =
        .error .SolverError) ∧
    (∀ c mid stop, define_conditions inp = some c →
      fromMidplane (I t) str interp o st target c = .ok mid →
      2 ≤ mid.solution.length → mid.angles.getLast? = some stop →
      ∃ best, FirstGuess mid best ∧
        ((∀ g ∈ best :: (scipy s st).1, Quiet (I t) str interp o st c stop g) →
          ∀ b, (scipy s st).2 = .ok b →
          (ds_soln e (methods scipy I str interp M others) read config_file given fs).status =
            .ok (if b then 0 else 1) ∧
          (ds_soln e (methods scipy I str interp M others) read config_file given fs).printed =
            [e.path ((textGiven given "--output-dir").getD ".") name]) ∧
        (∀ pre g post, best :: (scipy s st).1 = pre ++ g :: post →
          (∀ g' ∈ pre, Quiet (I t) str interp o st c stop g') →
          Completes (I t) str interp o st c stop g →
          (ds_soln e (methods scipy I str interp M others) read config_file given fs).status =
            .error .AttributeError ∧
          ∃ r, (ds_soln e (methods scipy I str interp M others) read config_file given
              fs).fs.get? (e.path ((textGiven given "--output-dir").getD ".") name) =
                some (.run r) ∧
            r.solutions = numbered (fileSolutions (I t) str interp o st s c mid stop pre) ∧
            r.final = .delayed)) := by
  obtain ⟨s', z, run, hnum, htol, hopt, hz, hr, g, g'⟩ := soln_runs e
    (methods scipy I str interp M others) read config_file given fs d hd hread ht ha hk hall
    (fun f v hv => ⟨_, hreads f v hv⟩) name hname hfree hw inp o t hS hO
  have hss : s' = s := by
    funext f
    have : ∃ v, Asked d given (CField.s f).name v := by
      unfold Asked
      cases overrideGiven given (CField.s f).name with
      | some w => exact ⟨_, rfl⟩
      | none => exact hall (.s f)
    obtain ⟨v, hv⟩ := this
    have h1 := hr f v hv
    rw [hreads f v hv] at h1
    injection h1 with h1
    exact h1.symm
  subst hss
  rw [← hst, hm] at g g'
  have hM : methods scipy I str interp M others st ((some "sonic_root").getD "single") =
      sonic_root_solver scipy I str interp M st := if_pos rfl
  rw [hM] at g g'
  have htv : s' .target_velocity = .float target := by
    obtain ⟨v, hv, hx⟩ := hT
    have := hr .target_velocity v hv
    have hke : kept "target_velocity" v = v := kept_eq .target_velocity v rfl
    rw [show SField.target_velocity.name = "target_velocity" from rfl, hke] at this
    simp only [readField, SField.kind, readFloat, hx, Except.ok.injEq] at this
    exact this.symm
  have hargs := args_given (I := I) (str := str) (interp := interp) (M := M) (st := st)
    hnum htol hopt htv
  have hsl : ∀ c a, solution (I t) str interp { o with interp_slice := z } c a =
      solution (I t) str interp o c a := by
    intro c a
    by_cases h0 : o.sonic_interp_size = none
    · exact solution_slice _ _ _ _ _ _ _ h0
    · rw [hz h0]
  have hmid : fromMidplane (I t) str interp { o with interp_slice := z } =
      fromMidplane (I t) str interp o := by
    funext st v c
    unfold fromMidplane
    rw [hsl]
  have hson : fromSonic (I t) str interp { o with interp_slice := z } =
      fromSonic (I t) str interp o := by
    funext st c stop g s
    unfold fromSonic
    rw [hsl]
  have hquiet : Quiet (I t) str interp { o with interp_slice := z } =
      Quiet (I t) str interp o := by
    funext st c stop g
    unfold Quiet
    rw [hson]
  have hcomp : Completes (I t) str interp { o with interp_slice := z } =
      Completes (I t) str interp o := by
    funext st c stop g
    unfold Completes
    rw [hson]
  have hstored : stored (I t) str interp { o with interp_slice := z } =
      stored (I t) str interp o := by
    funext st c mid stop g
    unfold stored
    rw [hson]
  refine ⟨fun hc => ?_, fun c mid stop hc h1 h2 h3 => ?_⟩
  · refine (g' _ { info := run } ?_).1
    unfold sonic_root_solver
    rw [hargs]
    simp only [hc]
  · obtain ⟨best, hb⟩ := guess_exists h2 (fun h => by rw [h] at h3; cases h3)
    obtain ⟨k1, k2⟩ := solver_outcome
      ⟨I t, str, interp, inp, { o with interp_slice := z }, target, st, coords, ERR_FLOAT M⟩
      c mid stop () (scipy s' st).1 (scipy s' st).2 best hc (by rw [hmid]; exact h1) h3 hb
    dsimp only at k1 k2
    rw [hquiet] at k1
    rw [hquiet, hcomp] at k2
    refine ⟨best, guess_first hb, fun hq b hb' => ?_, fun pre x post hsplit hq hx => ?_⟩
    · obtain ⟨run', hrun⟩ := k1 hq b hb'
      obtain ⟨c', mid', stop', best', -, -, -, -, -, -, -, -, hf⟩ :=
        solver_stores _ _ _ _ _ _ hrun
      have hsol : sonic_root_solver scipy I str interp M st s' { info := run } =
          (.ok b, { info := run
                    solutions := run'.solutions.map fun p => (p.1, inFile s' c p.2)
                    final := finalInFile s' c run'.final }) := by
        unfold sonic_root_solver
        rw [hargs]
        simp only [hc]
        rw [hrun]
      obtain ⟨x, hx⟩ : ∃ x, finalInFile s' c run'.final = .value x := ⟨_, by rw [hf]; rfl⟩
      exact g b _ _ hsol (finalise_set _ x hx)
    · have hrun := k2 pre x post hsplit hq hx
      have hsol : sonic_root_solver scipy I str interp M st s' { info := run } =
          (.error .AttributeError,
            { info := run
              solutions := numbered (fileSolutions (I t) str interp o st s' c mid stop pre) }) := by
        unfold sonic_root_solver
        rw [hargs]
        simp only [hc]
        rw [hrun]
        dsimp only
        rw [numbered_in_file, in_file_solutions]
        unfold fileSolutions
        rw [hstored]
        rfl
      obtain ⟨q1, q2⟩ := g' _ _ hsol
      exact ⟨q1, _, q2, rfl, rfl⟩

end Files

/-! ## Cases -/

/-- `--override γ 0.001 --override num_angles 3 --sonic-method sonic_root`. -/
def witS : List Occ := witGiven ++ [("--sonic-method", .str "sonic_root")]

theorem witS_asked {n : String} {v : Text} :
    Asked witDoc witS n v ↔ Asked witDoc witGiven n v := by
  have : overrideGiven witS n = overrideGiven witGiven n := rfl
  unfold Asked
  rw [this]

theorem witS_states : States witConvR witDoc witS EndToEnd.witInp :=
  let h := wit_states
  ⟨h.start, h.stop, h.num_angles, h.γ, h.v_rin_on_c_s, h.v_a_on_c_s, h.c_s_on_v_k, h.η_O, h.η_A,
    h.η_H, h.use_E_r⟩

theorem witS_options : Options witConvR witDoc witS witOpts witTol :=
  let h := wit_options
  { taylor_stop_angle := h.taylor_stop_angle
    η_derivs := h.η_derivs
    use_taylor_jump := h.use_taylor_jump
    jump_before_sonic := h.jump_before_sonic
    v_θ_sonic_crit := h.v_θ_sonic_crit
    after_sonic := h.after_sonic
    sonic_interp_size := h.sonic_interp_size
    use_E_r := h.use_E_r
    relative := h.relative
    absolute := h.absolute
    max_steps := h.max_steps
    interp_slice := fun h => absurd rfl h }

theorem witS_typed : CliSolve.Typed witS := by
  constructor
  · intro name hn v hv
    simp only [witS, witGiven, List.cons_append, List.nil_append, List.mem_cons,
      Prod.mk.injEq, List.not_mem_nil, or_false] at hv
    have h1 : "--override" ∉ wordOptions := by decide
    rcases hv with ⟨rfl, -⟩ | ⟨rfl, -⟩ | ⟨-, rfl⟩
    · exact absurd hn h1
    · exact absurd hn h1
    · exact ⟨_, rfl⟩
  · intro v hv
    simp only [witS, witGiven, List.cons_append, List.nil_append, List.mem_cons,
      Prod.mk.injEq, List.not_mem_nil, or_false] at hv
    rcases hv with ⟨-, rfl⟩ | ⟨-, rfl⟩ | ⟨h, -⟩
    · exact ⟨_, rfl⟩
    · exact ⟨_, rfl⟩
    · exact absurd h (by decide)

theorem witS_reads : ∃ s : SolutionInput ℝ, ∀ (f : SField) v, Asked witDoc witS f.name v →
    readField witConvR f.kind (some (kept f.name v)) = .ok (s f) := by
  have : ∀ f : SField, ∃ x, ∀ v, Asked witDoc witS f.name v →
      readField witConvR f.kind (some (kept f.name v)) = .ok x := by
    intro f
    obtain ⟨x, hx⟩ := wit_reads f _ (wit_asked (.s f))
    refine ⟨x, fun v hv => ?_⟩
    obtain rfl := asked_unique witDoc_good witGiven (.s f) (witS_asked.1 hv) (wit_asked (.s f))
    exact hx
  choose s hs using this
  exact ⟨s, hs⟩

theorem witS_target : ∃ x, Number witConvR witDoc witS "target_velocity" x :=
  ⟨_, _, witS_asked.2 (wit_asked (.s .target_velocity)), rfl⟩

open SonicRoot (twoI witRow) in
theorem wit_midplane (f : StatusFlag) {c : Conditions}
    (h : define_conditions EndToEnd.witInp = some c) (b : Bool) (v : ℝ) :
    ∃ mid front, fromMidplane (twoI f) (fun _ => "") (fun _ _ => none) witOpts b v c = .ok mid ∧
      mid.solution = front ++ [witRow (1/4), witRow (1/2)] ∧
      mid.angles.getLast? = some (1/5) := by
  have hpi := Real.pi_pos
  have hang : (taylor_new_angles c.angles (radians witOpts.taylor_stop_angle / 1)) =
      [Real.pi / 4, Real.pi / 2] := by
    rw [witInp_angles h, taylor_new_angles]
    have h0 : ¬ radians witOpts.taylor_stop_angle / 1 < 0 := by
      have : 0 ≤ radians witOpts.taylor_stop_angle / 1 := by
        simp only [radians, witOpts]; positivity
      exact not_lt.2 this
    have h1 : radians witOpts.taylor_stop_angle / 1 < Real.pi / 4 := by
      simp only [radians, witOpts]; linarith
    have h2 : radians witOpts.taylor_stop_angle / 1 < Real.pi / 2 := by
      simp only [radians, witOpts]; linarith
    rw [div_one] at h0 h1 h2
    simp [h0, h1, h2]
  let a : SolveArgs := { root_func := some (velocity_stop v), root_func_args := some 1,
                         store_internal := b }
  have hm : ∀ st, ∃ sd, (main_solution (twoI f) (fun _ => "") (solveOdeArgs witOpts c a)
      b (firstLeg witOpts a [Real.pi / 4, Real.pi / 2] st)).result = .ok sd ∧
      sd.1.t = [1/10, 1/5] ∧ sd.1.y = [witRow (1/4), witRow (1/2)] := by
    intro st
    cases b <;> simp [main_solution, main_plan, firstLeg, witOpts, twoI, a]
  have hts := taylor_start_jump (twoI f) (fun _ => "") witOpts c a rfl rfl
  rw [show a.θ_scale = 1 from rfl, hang] at hts
  obtain ⟨⟨sd, d⟩, hsd, ht, hy⟩ := hm (taylor_values c.init_con c.γ c.a_0 witOpts.η_derivs
          witOpts.use_E_r (radians witOpts.taylor_stop_angle / (1 : ℝ)))
  simp only [firstLeg] at hsd
  unfold fromMidplane
  have hsd' : (main_solution (twoI f) (fun _ => "") (solveOdeArgs witOpts c a)
    a.store_internal _).result = .ok (sd, d) := hsd
  have : ∃ out, (solution (twoI f) (fun _ => "") (fun _ _ => none) witOpts c a).result =
      .ok out ∧ (∃ front, out.solution = front ++ [witRow (1/4), witRow (1/2)]) ∧
      out.angles.getLast? = some (1/5) := by
    simp only [solution, hts, Logged.ok_bind]
    rw [Logged.bind_of_ok hsd']
    refine ⟨_, rfl, ⟨_, congrArg (_ ++ ·) hy⟩, ?_⟩
    · dsimp only
      rw [ht]
      simp [scaled_to_rad, a]
  obtain ⟨out, k1, ⟨front, k2⟩, k3⟩ := this
  exact ⟨out, front, k1, k2, k3⟩

open SonicRoot (twoI witRow) in
theorem wit_back (f : StatusFlag) (hf : f ≠ .TOO_CLOSE) (c : Conditions)
    (hc : 2 ≤ c.angles.length) (b : Bool) (stop : ℝ) (g : Guess) (s : St) :
    ∃ sonic, fromSonic (twoI f) (fun _ => "") (fun _ _ => none) witOpts b c stop g s =
      .ok sonic ∧ sonic.flag = f ∧ sonic.angles ≠ [] := by
  have hl : ¬ (linspace g.θ_sonic stop c.angles.length).length < 2 := by
    obtain ⟨k, hk⟩ : ∃ k, c.angles.length = k + 2 := ⟨c.angles.length - 2, by omega⟩
    rw [hk]
    simp [linspace]
  let c' : Conditions := { c with init_con := s }
  let m : Conditions := { c with
    init_con := s, angles := linspace g.θ_sonic stop c.angles.length }
  let a : SolveArgs := { with_taylor := false
                         modified_initial_conditions := some m
                         store_internal := b }
  have hm : ∃ sd, (main_solution (twoI f) (fun _ => "") (solveOdeArgs witOpts c' a) b
      (firstLeg witOpts a m.angles m.init_con)).result = .ok sd ∧
      sd.1.flag = f ∧ sd.1.t = [1/4, 1/5] := by
    simp only [main_solution, main_plan, firstLeg, witOpts, a, m, Option.isSome_none,
      Bool.false_eq_true, false_and, and_false, if_false, hl, twoI, hf]
    exact ⟨_, rfl, rfl, rfl⟩
  obtain ⟨sd, hm, hfl, ht⟩ := hm
  have hts : taylor_start (twoI f) (fun _ => "") witOpts c' a (solveOdeArgs witOpts c' a) =
      .ok (none, m.angles, m.init_con) := rfl
  simp only [firstLeg] at hm
  have : ∃ out, (solution (twoI f) (fun _ => "") (fun _ _ => none) witOpts c' a).result =
      .ok out ∧ out.flag = f ∧ out.angles ≠ [] := by
    simp only [solution, hts, Logged.ok_bind]
    have hm' : (main_solution (twoI f) (fun _ => "") (solveOdeArgs witOpts c' a)
        a.store_internal _).result = .ok sd := hm
    rw [Logged.bind_of_ok hm']
    refine ⟨_, rfl, hfl, ?_⟩
    dsimp only
    rw [ht]
    simp [scaled_to_rad, a]
  exact this

/-- The methods for an integrator which reaches polar velocity one half and comes back from
the sonic point with the flag `f`, and a search which ends after the first guess. -/
noncomputable def witMethods (f : StatusFlag) : Bool → String → Runners.Solver ℝ Made :=
  methods (fun _ _ => ([], .ok true)) (fun _ => SonicRoot.twoI f) (fun _ => "") (fun _ _ => none)
    1 fun _ _ _ r => (.error .SolverError, r)

/-- What the first guess comes to. -/
theorem witS_first (f : StatusFlag) : ∃ s c mid best,
    define_conditions EndToEnd.witInp = some c ∧ FirstGuess mid best ∧
    ((Quiet (SonicRoot.twoI f) (fun _ => "") (fun _ _ => none) witOpts true c (1/5) best) →
      (ds_soln witEnvR (witMethods f) (fun _ => some witDoc.text) "a.cfg" witS
        ([] : FS ℝ Made)).status = .ok 0) ∧
    ((Completes (SonicRoot.twoI f) (fun _ => "") (fun _ _ => none) witOpts true c (1/5) best) →
      (ds_soln witEnvR (witMethods f) (fun _ => some witDoc.text) "a.cfg" witS
        ([] : FS ℝ Made)).status = .error .AttributeError ∧
      ∃ r, (ds_soln witEnvR (witMethods f) (fun _ => some witDoc.text) "a.cfg" witS
        ([] : FS ℝ Made)).fs.get? (witEnvR.path "."
          (String.ofList (witAsked .label) ++ (witEnvR.now ++ ".hdf5"))) = some (.run r) ∧
        r.solutions = [("0", ⟨s, c, mid⟩)] ∧ r.final = .delayed) ∧
    ∃ front, mid.solution = front ++ [SonicRoot.witRow (1/4), SonicRoot.witRow (1/2)] := by
  obtain ⟨c, hc⟩ := witInp_ok
  obtain ⟨s, hs⟩ := witS_reads
  obtain ⟨v, hv⟩ := witS_target
  obtain ⟨mid, front, h1, h2, h3⟩ := wit_midplane f hc true v
  obtain ⟨best, k1, k2, k3⟩ := (sonic_root_outcome witEnvR (fun _ => some witDoc.text) "a.cfg" witS
    [] witDoc (fun _ _ => ([], .ok true)) (fun _ => SonicRoot.twoI f) (fun _ => "")
    (fun _ _ => none) 1 (fun _ _ _ r => (.error .SolverError, r)) witDoc_good rfl witS_typed
    (by decide +kernel) wit_known (by decide +kernel) (fun f => ⟨_, witDoc_inFile f⟩) s hs _
    (Or.inr ⟨by decide +kernel, _, witS_asked.2 (wit_asked .label), rfl⟩) rfl rfl
    EndToEnd.witInp witOpts witTol v witS_states witS_options hv true (by decide +kernel)).2
    c mid (1/5) hc h1 (by rw [h2]; simp) h3
  refine ⟨s, c, mid, best, hc, k1, fun hq => ?_, fun hq => ?_, front, h2⟩
  · refine (k2 ?_ true rfl).1
    simpa using hq
  · obtain ⟨q1, r, q2, q3, q4⟩ := k3 [] best [] rfl (by simp) hq
    have hdir : (textGiven witS "--output-dir").getD "." = "." := by decide +kernel
    rw [hdir] at q2
    exact ⟨q1, r, q2, by rw [q3]; simp [fileSolutions, numbered]; rfl, q4⟩

theorem witS_state {mid : SolutionOut} {best : Guess} {front : List St} (m : St)
    (h : FirstGuess mid best)
    (hm : mid.solution = front ++ [SonicRoot.witRow (1/4), SonicRoot.witRow (1/2)]) :
    ∃ s, sonicState m best = some s := by
  obtain ⟨front', p, q, a, h1, -, -, -, h2⟩ := h
  rw [hm] at h1
  obtain ⟨-, h1⟩ := List.append_inj' h1 rfl
  simp only [List.cons.injEq, and_true] at h1
  obtain ⟨rfl, rfl⟩ := h1
  obtain ⟨g1, g2, g3, g4, g5, g6, g7⟩ := h2 2 (by norm_num [SonicRoot.witRow])
    (by norm_num [SonicRoot.witRow])
  have g7 := g7 (by norm_num [SonicRoot.witRow]) (by norm_num [SonicRoot.witRow])
  unfold sonicState
  rw [g1, g2, g3, g4, g5, g6, g7]
  exact ⟨_, rfl⟩

theorem witS_length {c : Conditions} (h : define_conditions EndToEnd.witInp = some c) :
    2 ≤ c.angles.length := by
  rw [witInp_angles h]
  simp

/-- The integration back fails: the run returns. -/
theorem witS_returns : (ds_soln witEnvR (witMethods (.OTHER (-4))) (fun _ => some witDoc.text)
    "a.cfg" witS ([] : FS ℝ Made)).status = .ok 0 := by
  obtain ⟨s, c, mid, best, hc, hb, h, -, -⟩ := witS_first (.OTHER (-4))
  refine h fun st _ => Or.inr ?_
  obtain ⟨sonic, k1, k2, k3⟩ := wit_back (.OTHER (-4)) (by simp) c (witS_length hc) true (1/5)
    best st
  exact ⟨sonic, k1, by rw [k2]; simp [Failed], fun h => absurd h k3⟩

/-- It ends well: `AttributeError`, and the file holds the midplane part only. -/
theorem witS_raises : (ds_soln witEnvR (witMethods .SUCCESS) (fun _ => some witDoc.text)
      "a.cfg" witS ([] : FS ℝ Made)).status = .error .AttributeError ∧
    ∃ r m, (ds_soln witEnvR (witMethods .SUCCESS) (fun _ => some witDoc.text) "a.cfg" witS
      ([] : FS ℝ Made)).fs.get? (witEnvR.path "."
        (String.ofList (witAsked .label) ++ (witEnvR.now ++ ".hdf5"))) = some (.run r) ∧
      r.solutions = [("0", m)] ∧ r.final = .delayed := by
  obtain ⟨s, c, mid, best, hc, hb, -, h, front, hm⟩ := witS_first .SUCCESS
  obtain ⟨st, hst⟩ := witS_state c.init_con hb hm
  obtain ⟨sonic, k1, k2, k3⟩ := wit_back .SUCCESS (by simp) c (witS_length hc) true (1/5)
    best st
  obtain ⟨q1, r, q2, q3, q4⟩ := h ⟨st, sonic, hst, k1, by rw [k2]; simp [Failed]⟩
  exact ⟨q1, r, _, q2, q3, q4⟩

example := sonic_root_end_to_end_partial _ _ _ _ _ witDoc _ _ _ _ _ _ witDoc_good rfl witS_typed
  (by decide +kernel) wit_known (by decide +kernel) 0 witS_returns

end DiscSolver.SonicRootRun
