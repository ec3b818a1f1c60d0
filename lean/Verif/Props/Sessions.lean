import Verif.Spec.Sessions
import Verif.Props.Hdf5Run
import Verif.Props.ShockFiles
import Verif.Props.Resolve
import Verif.Props.SolutionInternal
import Verif.Props.FastCrosser

/-!
# Properties: solving stored solutions again, whatever method found them

C114, C115.
-/

namespace DiscSolver.Sessions

open Cli CliSolve Runners SingleRun EndToEnd Hdf5Run ConfDoc

variable {C : Conv ℝ} {I : Tolerances → Integrator} {str : ℝ → String}
  {interp : List ℝ → List ℝ → Option (ℝ → ℝ)}

/-! ## What the methods store -/

/-- The solution is the one found for the input stored with it. -/
def Repeats (I : Tolerances → Integrator) (str : ℝ → String)
    (interp : List ℝ → List ℝ → Option (ℝ → ℝ)) (m : Made) : Prop :=
  single_solution I str interp m.out.internal_data.isSome m.solution_input = .ok m

theorem repeats_of {st : Bool} {s : SolutionInput ℝ} {m : Made}
    (h : single_solution I str interp st s = .ok m) : Repeats I str interp m := by
  obtain ⟨rfl, inp, tol, o, -, -, -, -, hs⟩ := single_solution_ok h
  obtain ⟨h1, h2⟩ := solution_internal (I tol) str interp o m.initial_conditions
    { store_internal := st } hs
  have : m.out.internal_data.isSome = st := by
    cases st with
    | false => rw [h1 rfl]; rfl
    | true => obtain ⟨x, hx, -⟩ := h2 rfl; rw [hx]; rfl
  unfold Repeats
  rw [this]
  exact h

theorem mem_of_get {κ β : Type} [DecidableEq κ] {d : Dict κ β} {k : κ} {v : β}
    (h : Dict.get? d k = some v) : (k, v) ∈ d := by
  induction d with
  | nil => cases h
  | cons e d ih =>
    obtain ⟨k', v'⟩ := e
    unfold Dict.get? at h
    split_ifs at h with hk
    · injection h with h
      subst h hk
      exact List.mem_cons_self
    · exact List.mem_cons_of_mem _ (ih h)

theorem getItem_has {r : TheRun ℝ Made} {k : String} {m : Made}
    (h : Dict.getItem r.solutions k = .ok m) : Has r m := by
  left
  unfold Dict.getItem at h
  cases hg : Dict.get? r.solutions k with
  | none => rw [hg] at h; cases h
  | some x =>
    rw [hg] at h
    injection h with h
    subst h
    exact List.mem_map.2 ⟨(k, x), mem_of_get hg, rfl⟩

theorem has_of_found {r : TheRun ℝ Made} {range : Option String} {m : Made}
    (h : r.getSolutions range = .ok (.soln m)) : Has r m := by
  have hget : ∀ k, (Dict.getItem r.solutions k).map Run.Found.soln = .ok (.soln m) → Has r m := by
    intro k hk
    cases hg : Dict.getItem r.solutions k with
    | error x => rw [hg] at hk; cases hk
    | ok x =>
      rw [hg] at hk
      simp only [Except.map, Except.ok.injEq, Run.Found.soln.injEq] at hk
      subst hk
      exact getItem_has hg
  have hfin : (.ok r.finalSolution : Except PyErr (Run.Found Made)) = .ok (.soln m) →
      Has r m := by
    intro hf
    right
    unfold Run.finalSolution at hf
    split at hf <;> simp_all
  unfold Run.getSolutions at h
  split at h
  · exact hget _ h
  · split at h
    · split at h
      · split at h
        · split at h
          · cases h
          · exact hget _ h
        · cases h
      · exact hfin h
    · split at h
      · exact hfin h
      · exact hget _ h

theorem has_finalise {r r' : TheRun ℝ Made} (h : r.finalise = .ok r') {m : Made}
    (hm : Has r' m) : Has r m := by
  unfold Run.finalise at h
  split at h
  · next hf =>
    cases hl : r.solutions.getLast with
    | error x => rw [hl] at h; cases h
    | ok s =>
      rw [hl] at h
      injection h with h
      subst h
      rcases hm with hm | hm
      · exact Or.inl hm
      · injection hm with hm
        injection hm with hm
        subst hm
        unfold Solutions.getLast at hl
        simp only [EndToEnd.bind_ok] at hl
        obtain ⟨ks, -, hl⟩ := hl
        split at hl
        · cases hl
        · exact getItem_has hl
  · injection h with h
    subst h
    exact hm

/-- What a method leaves in a new run. -/
def Leaves (I : Tolerances → Integrator) (str : ℝ → String)
    (interp : List ℝ → List ℝ → Option (ℝ → ℝ)) (S : Solver ℝ Made) : Prop :=
  ∀ s info m, Has (S s { info := info }).2 m → Repeats I str interp m

theorem single_leaves (st : Bool) :
    Leaves I str interp (single_solver (single_solution I str interp st) false) := by
  intro s info m hm
  rw [single_solver_eq] at hm
  cases h : single_solution I str interp st s with
  | error x =>
    rw [h] at hm
    rcases hm with hm | hm
    · cases hm
    · cases hm
  | ok x =>
    rw [h] at hm
    have : m = x := by
      rcases hm with hm | hm
      · simpa using hm
      · injection hm with hm
        injection hm with hm
        exact hm.symm
    subst this
    exact repeats_of h

theorem inFile_repeats {st : Bool} {x : Stepper.Stored ℝ (SolutionInput ℝ)} {m : Made}
    (h : StepRun.inFile I str interp st x = some m) : Repeats I str interp m := by
  unfold StepRun.inFile at h
  split at h
  · next i _ =>
    cases hs : single_solution I str interp st (StepRun.fields i) with
    | error x => rw [hs] at h; cases h
    | ok y =>
      rw [hs] at h
      injection h with h
      subst h
      exact repeats_of hs
  · cases h

theorem step_leaves (ops : Stepper.Ops ℝ)
    (human : List Stepper.SolnData → Stepper.SplitterStatus) (st : Bool) :
    Leaves I str interp (StepRun.step_solver ops human I str interp st) := by
  intro s info m hm
  unfold StepRun.step_solver at hm
  split at hm
  · split at hm
    next a r _ _ =>
    rcases hm with hm | hm
    · obtain ⟨⟨k, x⟩, hx, rfl⟩ := List.mem_map.1 hm
      obtain ⟨⟨k', y⟩, -, hy⟩ := List.mem_filterMap.1 hx
      rw [Option.map_eq_some_iff] at hy
      obtain ⟨z, hz, he⟩ := hy
      injection he with _ he
      subst he
      exact inFile_repeats hz
    · dsimp only at hm
      unfold StepRun.finalInFile at hm
      split at hm
      · cases hm
      · cases hm
      · injection hm with hm
        exact inFile_repeats hm
  · rcases hm with hm | hm <;> cases hm

/-! ### The fast crosser -/

/-- Every solution stored is one of those asked about, and they have different names. -/
def AllOf {μ σ : Type} (P : σ → Prop) (r : Run μ σ) : Prop :=
  (∀ x ∈ r.solutions, P x.2) ∧ (∀ x, r.final = .value (some x) → P x) ∧
    (Dict.keys r.solutions).Nodup

theorem add_allOf {μ σ : Type} {P : σ → Prop} {r r' : Run μ σ} {x : σ} {k : String}
    (h : AllOf P r) (hx : P x) (ha : r.addSolution x = .ok (k, r')) : AllOf P r' := by
  unfold Run.addSolution Solutions.add Solutions.getNextIndex at ha
  by_cases hk : r.solutions.length.repr ∉ Dict.keys r.solutions
  · rw [if_pos hk] at ha
    simp only [Bind.bind, Except.bind, pure, Except.pure, Except.ok.injEq, Prod.mk.injEq] at ha
    obtain ⟨-, rfl⟩ := ha
    refine ⟨fun y hy => ?_, h.2.1, Dict.nodup_set _ _ _ h.2.2⟩
    dsimp only at hy
    rw [Dict.set_of_not_mem _ _ _ hk, List.mem_append] at hy
    rcases hy with hy | hy
    · exact h.1 y hy
    · rw [List.mem_singleton] at hy
      subst hy
      exact hx
  · rw [if_neg hk] at ha
    cases ha

theorem last_allOf {μ σ : Type} {P : σ → Prop} {r : Run μ σ} {x : σ} (h : AllOf P r)
    (hl : r.solutions.getLast = .ok x) : P x := by
  unfold Solutions.getLast at hl
  simp only [EndToEnd.bind_ok] at hl
  obtain ⟨ks, -, hl⟩ := hl
  split at hl
  · cases hl
  · next k _ =>
    unfold Dict.getItem at hl
    cases hg : Dict.get? r.solutions k with
    | none => rw [hg] at hl; cases hl
    | some y =>
      rw [hg] at hl
      injection hl with hl
      subst hl
      exact h.1 _ (mem_of_get hg)

section Crosser

variable {σ ι μ : Type} {P : σ → Prop} {PI : ι → Prop} (e : FastCrosser.Env σ ι)

theorem store_all_allOf {w w' : FastCrosser.World μ σ} {xs : List σ} (h : AllOf P w.run)
    (hx : ∀ x ∈ xs, P x) (hs : FastCrosser.store_all w xs = .ok w') : AllOf P w'.run := by
  induction xs generalizing w with
  | nil => injection hs with hs; subst hs; exact h
  | cons x xs ih =>
    unfold FastCrosser.store_all at hs
    split at hs
    · cases hs
    · next k r ha =>
      exact ih (add_allOf h (hx x List.mem_cons_self) ha)
        (fun y hy => hx y (List.mem_cons_of_mem _ hy)) hs

theorem solution_func_allOf (h1 : ∀ i, PI i → ∀ x ∈ (e.step_solver i).1, P x)
    (h2 : ∀ s x, P s → e.single (e.final_input s) = .ok x → P x)
    (h3 : ∀ i, PI i → P (e.broken i)) (inp : ι) (hi : PI inp)
    (w : FastCrosser.World μ σ) (h : AllOf P w.run) :
    AllOf P (FastCrosser.solution_func e inp w).2.run ∧
      ∀ x b, (FastCrosser.solution_func e inp w).1 = .ok (x, b) → P x := by
  unfold FastCrosser.solution_func
  cases hs : FastCrosser.store_all w (e.step_solver inp).1 with
  | error p => exact ⟨h, fun _ _ h => by cases h⟩
  | ok w₁ =>
    have hw := store_all_allOf h (h1 inp hi) hs
    dsimp only
    split
    · refine ⟨hw, fun x b hx => ?_⟩
      injection hx with hx
      injection hx with hx
      subst hx
      exact h3 _ hi
    · exact ⟨hw, fun _ _ h => by cases h⟩
    · split
      · exact ⟨hw, fun _ _ h => by cases h⟩
      · next last hlast =>
        split
        · exact ⟨hw, fun _ _ h => by cases h⟩
        · next s hsing =>
          split
          · exact ⟨hw, fun _ _ h => by cases h⟩
          · next k r ha =>
            have hr := add_allOf hw (h2 _ _ (last_allOf hw hlast) hsing) ha
            split
            · exact ⟨hr, fun _ _ h => by cases h⟩
            · next y hy =>
              refine ⟨hr, fun x b hx => ?_⟩
              injection hx with hx
              injection hx with hx
              subst hx
              exact last_allOf hr hy

theorem writer_allOf {s : σ} (hs : e.flagged s = true → P s) (w : FastCrosser.World μ σ)
    (h : AllOf P w.run) : AllOf P (FastCrosser.writer e s w).2.run := by
  unfold FastCrosser.writer
  split_ifs with hf
  · split
    · exact h
    · next k r ha => exact add_allOf h (hs hf) ha
  · exact h

theorem search_allOf {W I O R : Type} {func : I → Stepper.Code W (O × Bool)}
    {pass_func : O → ℕ → Stepper.Code W R} {fail_func : O → ℕ → Stepper.Code W I}
    {final_fail_func : ℕ → Stepper.Code W R} (P : W → Prop) (Q : O → Prop) (PI : I → Prop)
    (h1 : ∀ i w, PI i → P w → P (func i w).2 ∧ ∀ o b, (func i w).1 = .ok (o, b) → Q o)
    (h2 : ∀ o k w, Q o → P w → P (pass_func o k w).2)
    (h3 : ∀ o k w, Q o → P w → P (fail_func o k w).2 ∧
      ∀ i, (fail_func o k w).1 = .ok i → PI i)
    (h4 : ∀ k w, P w → P (final_fail_func k w).2) (n k : ℕ) (i : I) (w : W) (hi : PI i)
    (hw : P w) :
    P (Stepper.search func pass_func fail_func final_fail_func n k i w).2 := by
  induction n generalizing k i w with
  | zero => exact hw
  | succ n ih =>
    have hh : ∀ (e : Stepper.Stop) (w : W), P w → P ((match e with
        | .error => ((.ok none, w) : Except Stepper.Stop (Option R) × W)
        | .stop =>
          match final_fail_func k w with
          | (.ok r, w) => (.ok (some r), w)
          | (.error e, w) => (.error e, w)
        | e => (.error e, w)).2) := by
      intro e w hw
      cases e with
      | error => exact hw
      | stop =>
        have := h4 k w hw
        cases hf : final_fail_func k w with
        | mk r w' => rw [hf] at this; cases r <;> simpa [hf] using this
      | py p => exact hw
      | hangs => exact hw
    simp only [Stepper.search]
    have hf := h1 i w hi hw
    cases e1 : func i w with
    | mk r w₁ =>
      rw [e1] at hf
      cases r with
      | error e => exact hh e w₁ hf.1
      | ok ob =>
        obtain ⟨o, b⟩ := ob
        have ho := hf.2 o b rfl
        cases b with
        | true =>
          have hp := h2 o k w₁ ho hf.1
          cases e2 : pass_func o k w₁ with
          | mk r w₂ =>
            rw [e2] at hp
            cases r with
            | error e => simp only [e2]; exact hh e w₂ hp
            | ok r => simpa [e2] using hp
        | false =>
          have hp := h3 o k w₁ ho hf.1
          cases e2 : fail_func o k w₁ with
          | mk r w₂ =>
            rw [e2] at hp
            cases r with
            | error e => simp only [e2]; exact hh e w₂ hp.1
            | ok r => simpa [e2] using ih (k + 1) r w₂ (hp.2 r rfl) hp.1

theorem crosser_allOf (h1 : ∀ i, PI i → ∀ x ∈ (e.step_solver i).1, P x)
    (h2 : ∀ s x, P s → e.single (e.final_input s) = .ok x → P x)
    (h3 : ∀ i, PI i → P (e.broken i)) (h4 : ∀ s v, P s → PI (e.next_input s v)) (inp : ι)
    (hi : PI inp) (v_r : ℝ) (m : μ) (n : ℕ) : AllOf P (FastCrosser.solver e inp v_r { info := m } n).2 := by
  have hsearch : AllOf P (FastCrosser.searched (μ := μ) e inp v_r { info := m } n).2.run := by
    unfold FastCrosser.searched Stepper.binary_searcher
    refine search_allOf (fun w : FastCrosser.World μ σ => AllOf P w.run) P PI
      (fun i w hi hw => solution_func_allOf e h1 h2 h3 i hi w hw) ?_ ?_ (fun k w hw => hw) n 0
      inp _ hi ⟨fun x hx => (by cases hx), fun x hx => (by cases hx), List.nodup_nil⟩
    · intro o k w ho hw
      exact FastCrosser.bind_keeps (fun w : FastCrosser.World μ σ => AllOf P w.run) _ _ _
        (writer_allOf e (fun _ => ho) w hw) (fun _ _ h => h)
    · intro o k w ho hw
      unfold FastCrosser.stepper
      constructor
      · refine FastCrosser.bind_keeps (fun w : FastCrosser.World μ σ => AllOf P w.run) _ _ _
          (writer_allOf e (fun _ => ho) w hw) ?_
        intro _ w hw
        unfold FastCrosser.step_world
        cases FastCrosser.step (0.01 * v_r) (e.v_r o) (e.quality o) w.vars with
        | mk r v => cases r <;> exact hw
      · intro i hi
        unfold Stepper.Code.bind FastCrosser.step_world at hi
        split at hi
        · dsimp only at hi
          split at hi
          · injection hi with hi
            subst hi
            exact h4 _ _ ho
          · cases hi
        · cases hi
  obtain ⟨xs, hxs, hout⟩ := FastCrosser.crosser_outcome e m inp v_r n
  have hsol : (FastCrosser.solver e inp v_r { info := m } n).2.solutions =
      (FastCrosser.searched (μ := μ) e inp v_r { info := m } n).2.run.solutions := by
    unfold FastCrosser.solver
    have hs : Stepper.binary_searcher (R := Option σ) (FastCrosser.solution_func e)
        (fun s _ => Stepper.Code.bind (FastCrosser.writer e s) fun _ w => (.ok none, w))
        (FastCrosser.stepper e (0.01 * v_r)) (fun _ w => (.ok none, w)) inp n
        { run := { info := m } } = FastCrosser.searched (μ := μ) e inp v_r { info := m } n := rfl
    rw [hs]
    rcases FastCrosser.searched (μ := μ) e inp v_r { info := m } n with ⟨p | b, w⟩
    · rfl
    · dsimp only
      split
      · rfl
      · split
        · rfl
        · next s _ =>
          unfold Run.setFinal
          split
          · rfl
          · next r hr =>
            split at hr
            · injection hr with hr
              subst hr
              rfl
            · cases hr
  refine ⟨fun x hx => ?_, fun x hx => ?_, by rw [hsol]; exact hsearch.2.2⟩
  · rw [hsol] at hx
    exact hsearch.1 x hx
  · rcases hout with ⟨s, hs, -, hf⟩ | ⟨-, -, hf⟩ | ⟨p, -, -, hf⟩
    · rw [hf] at hx
      injection hx with hx
      injection hx with hx
      subst hx
      have hmem : _ ∈ xs := List.mem_of_getLast? hs
      obtain ⟨i, hi⟩ := List.getElem?_of_mem hmem
      rw [← numbered_get, ← hxs, hsol] at hi
      exact hsearch.1 _ (mem_of_get hi)
    · rw [hf] at hx; cases hx
    · rw [hf] at hx; cases hx

end Crosser

theorem crosser_leaves (ops : Stepper.Ops ℝ)
    (human : List Stepper.SolnData → Stepper.SplitterStatus) (st : Bool) :
    Leaves I str interp (CrosserRun.crosser_solver ops human I str interp st) := by
  intro s info m hm
  unfold CrosserRun.crosser_solver at hm
  split at hm
  · next v _ =>
    have hall := crosser_allOf (μ := Unit)
      (P := fun x : CrosserRun.Soln => ∀ m, x.made = some m → Repeats I str interp m)
      (PI := fun _ => True)
      (CrosserRun.env ops human I str interp st s) (fun i _ x hx m hm => by
        change x ∈ (CrosserRun.inner_search ops human I str interp st i).1 at hx
        unfold CrosserRun.inner_search at hx
        split at hx
        · obtain ⟨y, -, hy⟩ := List.mem_filterMap.1 hx
          rw [Option.map_eq_some_iff] at hy
          obtain ⟨z, hz, rfl⟩ := hy
          injection hm with hm
          subst hm
          exact inFile_repeats hz
        · cases hx) (fun i x _ hx m hm => by
        change (single_solution I str interp st (CrosserRun.final_input i)).map
          CrosserRun.Soln.of = .ok x at hx
        cases hs : single_solution I str interp st (CrosserRun.final_input i) with
        | error p => rw [hs] at hx; cases hx
        | ok y =>
          rw [hs] at hx
          injection hx with hx
          subst hx
          injection hm with hm
          subst hm
          exact repeats_of hs) (fun i _ m hm => by cases hm) (fun _ _ _ => trivial) s trivial v ()
      CrosserRun.DEFAULT_NUM_ATTEMPTS
    generalize FastCrosser.solver (CrosserRun.env ops human I str interp st s) s v
      ({ info := () } : Run Unit CrosserRun.Soln) CrosserRun.DEFAULT_NUM_ATTEMPTS = q at hm hall
    obtain ⟨a, r⟩ := q
    rcases hm with hm | hm
    · obtain ⟨⟨k, x⟩, hx, rfl⟩ := List.mem_map.1 hm
      obtain ⟨⟨k', y⟩, hy', hy⟩ := List.mem_filterMap.1 hx
      rw [Option.map_eq_some_iff] at hy
      obtain ⟨z, hz, he⟩ := hy
      injection he with _ he
      subst he
      exact hall.1 _ hy' _ hz
    · dsimp only at hm
      unfold CrosserRun.finalMade at hm
      split at hm
      · cases hm
      · cases hm
      · next x hx =>
        injection hm with hm
        exact hall.2.1 x hx _ hm
  · rcases hm with hm | hm <;> cases hm

/-! ### The sampler -/

theorem solve_at_repeats {st : Bool} {s : SolutionInput ℝ} {c : Conditions} {m : Made}
    (hc : conditions s = .ok c) (h : McmcRun.solve_at I str interp st s c = .ok m) :
    Repeats I str interp m := by
  unfold McmcRun.solve_at at h
  simp only [EndToEnd.bind_ok] at h
  obtain ⟨tol, ht, o, ho, out, hout, h⟩ := h
  split at h
  · cases h
  · injection h with h
    subst h
    apply repeats_of (st := st) (s := s)
    unfold single_solution
    simp only [hc, ht, ho, hout, Bind.bind, Except.bind]
    rfl

theorem evaluate_allOf {κ σ μ : Type} {P : σ → Prop} (E : Mcmc.Env κ σ)
    (inp : SolutionInput Flt)
    (h : ∀ c x, E.define_conditions inp = .ok c → E.solution inp c = .ok x → P x) (g : Mcmc.Generator μ σ) (hg : AllOf P g.run) :
    AllOf P (Mcmc.evaluate E inp g).2.run := by
  unfold Mcmc.evaluate
  split
  · exact hg
  · exact hg
  · split
    · exact hg
    · exact hg
    · next c hc =>
      split
      · exact hg
      · exact hg
      · next x hx =>
        split
        · split
          · exact hg
          · next k r ha =>
            have := add_allOf hg (h _ _ hc hx) ha
            split
            · exact this
            · exact this
        · exact hg

theorem sample_allOf {κ σ μ : Type} {P : σ → Prop} (E : Mcmc.Env κ σ)
    (inp : SolutionInput Flt) (en : List SField)
    (choose : List Mcmc.LogProb → Except PyErr (List (SVal Flt)))
    (h : ∀ seen point i c x, choose seen = .ok point →
      Mcmc.sys_vars_to_solution_input point inp en = .ok i →
      E.define_conditions i = .ok c → E.solution i c = .ok x → P x) (n : ℕ)
    (seen : List Mcmc.LogProb) (g : Mcmc.Generator μ σ) (hg : AllOf P g.run) :
    AllOf P (Mcmc.sample E inp en choose n seen g).2.run := by
  induction n generalizing seen g with
  | zero => exact hg
  | succ n ih =>
    unfold Mcmc.sample
    split
    · exact hg
    · next point hpoint =>
      have hc : AllOf P (Mcmc.call E inp en point g).2.run := by
        unfold Mcmc.call
        split
        · exact hg
        · next i hi =>
          exact evaluate_allOf E i (fun c x => h seen point i c x hpoint hi) g hg
      generalize Mcmc.call E inp en point g = q at hc ⊢
      rcases q with ⟨p | v, g'⟩
      · exact hc
      · exact ih _ _ hc

theorem mcmc_leaves (randn : ℕ → ℕ → List (List ℝ))
    (emcee : List (List ℝ) → List Mcmc.LogProb → Except PyErr (List ℝ)) (st : Bool) :
    Leaves I str interp (McmcRun.mcmc_solver randn emcee I str interp st) := by
  intro s info m hm
  have hnew : ¬ Has ({ info := info } : TheRun ℝ Made) m := by
    rintro (h | h) <;> cases h
  unfold McmcRun.mcmc_solver at hm
  split at hm
  · exact (hnew hm).elim
  · split at hm
    · exact (hnew hm).elim
    · split at hm
      · exact (hnew hm).elim
      · next w _ _ initial _ _ n _ =>
        have hall := sample_allOf (P := Repeats I str interp) (McmcRun.env I str interp st)
          (fun f => McmcRun.liftVal (s f))
          (Mcmc.generate_sysvars_enum fun f => McmcRun.liftVal (s f))
          (fun seen => (McmcRun.next_position emcee initial seen).map fun p =>
            p.map fun x => .float (some x)) (fun _ _ i c x _ _ hc hx => solve_at_repeats hc hx)
          (w * (n + 1)) [] { run := { info := info } }
          ⟨fun x hx => (by cases hx), fun x hx => (by cases hx), List.nodup_nil⟩
        unfold Mcmc.solver at hm
        generalize Mcmc.sample (McmcRun.env I str interp st) (fun f => McmcRun.liftVal (s f))
          (Mcmc.generate_sysvars_enum fun f => McmcRun.liftVal (s f))
          (fun seen => (McmcRun.next_position emcee initial seen).map fun p =>
            p.map fun x => .float (some x)) (w * (n + 1)) []
          ({ run := { info := info } } : Mcmc.Generator (RunInfo ℝ) Made) = q at hm hall
        have hold : ∀ r : TheRun ℝ Made, AllOf (Repeats I str interp) r → Has r m →
            Repeats I str interp m := by
          rintro r hr (h | h)
          · obtain ⟨x, hx, rfl⟩ := List.mem_map.1 h
            exact hr.1 x hx
          · exact hr.2.1 m h
        rcases q with ⟨p | u, g⟩
        · exact hold _ hall hm
        · dsimp only at hm
          split at hm
          · exact hold _ hall hm
          · next best hb =>
            split at hm
            · rcases hm with hm | hm
              · exact hold _ hall (Or.inl hm)
              · injection hm with hm
                subst hm
                unfold Mcmc.Generator.best_solution at hb
                split at hb
                · cases hb
                · next k _ =>
                  unfold Dict.getItem at hb
                  cases hg : Dict.get? g.run.solutions k with
                  | none => rw [hg] at hb; cases hb
                  | some y =>
                    rw [hg] at hb
                    injection hb with hb
                    injection hb with hb
                    subst hb
                    exact hall.1 _ (mem_of_get hg)
            · exact hold _ hall hm

/-- What the ordinary methods leave in a new run. -/
theorem ordinary_leaves {M : Bool → String → Solver ℝ Made} (hM : Program I str interp M)
    (st : Bool) (method : String) (hm : method ∈ ordinary) : Leaves I str interp (M st method) := by
  obtain ⟨randn, emcee, ops, human, H, J, double, T, scipy, big, others⟩ := hM
  simp only [ordinary, List.mem_cons, List.not_mem_nil, or_false] at hm
  rcases hm with rfl | rfl | rfl | rfl
  · exact single_leaves st
  · exact step_leaves ops human st
  · exact crosser_leaves ops human st
  · exact mcmc_leaves randn emcee st

theorem program_blind {M : Bool → String → Solver ℝ Made} (hM : Program I str interp M)
    (st : Bool) (method : String) (hm : method ∈ methodNames) : Blind (M st method) := by
  obtain ⟨randn, emcee, ops, human, H, J, double, T, scipy, big, others⟩ := hM
  exact methods_blind randn emcee ops human I str interp H J double T scipy big others st method
    hm

/-! ## The runs in the files -/

/-- What holds of every run in a session. -/
structure Good (C : Conv ℝ) (I : Tolerances → Integrator) (str : ℝ → String)
    (interp : List ℝ → List ℝ → Option (ℝ → ℝ)) (r : TheRun ℝ Made) : Prop where
  canonical : Canonical r.info.config_input
  reads : ∃ s, r.info.config_input.to_soln_input C = .ok s
  repeats : r.info.sonic_method ∈ ordinary → ∀ m, Has r m →
    m.out.is_post_shock_only = false → Repeats I str interp m

theorem blind_info {S : Solver ℝ Made} (hS : Blind S) (s : SolutionInput ℝ) (r : TheRun ℝ Made) :
    (S s r).2.info = r.info := by
  have h := hS s r r.info r.based_on_filename r.based_on_solution
  have hr : dressed r.info r.based_on_filename r.based_on_solution r = r := rfl
  rw [hr] at h
  exact congrArg (fun q : Except PyErr Bool × TheRun ℝ Made => q.2.info) h

theorem finalise_info {r r' : TheRun ℝ Made} (h : r.finalise = .ok r') : r'.info = r.info := by
  unfold Run.finalise at h
  split at h
  · cases hl : r.solutions.getLast with
    | error x => rw [hl] at h; cases h
    | ok s => rw [hl] at h; injection h with h; subst h; rfl
  · injection h with h; subst h; rfl

/-- Whatever becomes of it, a file which was written holds a good run. -/
theorem write_run_good {M : Bool → String → Solver ℝ Made} (hM : Program I str interp M)
    (e : Env ℝ) (st : Bool) (method : String) (s : SolutionInput ℝ) (c : ConfigInput)
    (file a b : Option String) (hc : Canonical c) (hr : ∃ s, c.to_soln_input C = .ok s)
    (path : String) (fs : FS ℝ Made)
    (hfs : ∀ p r, fs.get? p = some (.run r) → Good C I str interp r) (p : String)
    (r : TheRun ℝ Made)
    (h : (write_run e (getMethod (M st) method) s
      { info := ⟨c, file, method, s .use_E_r⟩, based_on_filename := a, based_on_solution := b }
      path fs).2.get? p = some (.run r)) : Good C I str interp r := by
  set r₀ : TheRun ℝ Made :=
    { info := ⟨c, file, method, s .use_E_r⟩, based_on_filename := a, based_on_solution := b }
    with hr₀
  have hnew : Good C I str interp r₀ := ⟨hc, hr, fun _ m hm => by rcases hm with h | h <;> cases h⟩
  have hset : ∀ r₁, Good C I str interp r₁ →
      (fs.set path (.run r₁)).get? p = some (.run r) → Good C I str interp r := by
    intro r₁ h₁ h
    rw [Dict.get?_set] at h
    split_ifs at h
    · injection h with h
      injection h with h
      exact h ▸ h₁
    · exact hfs p r h
  unfold write_run at h
  split at h
  · exact hfs p r h
  · split at h
    · unfold getMethod at h
      by_cases hm : method ∈ methodNames
      · rw [if_pos hm] at h
        have hb := program_blind hM st method hm
        have hgood : Good C I str interp (M st method s r₀).2 := by
          have hi := blind_info hb s r₀
          refine ⟨by rw [hi]; exact hc, by rw [hi]; exact hr, fun ho m hm _ => ?_⟩
          rw [hi] at ho
          have hd := hb s { info := ⟨c, file, method, s .use_E_r⟩ } ⟨c, file, method, s .use_E_r⟩
            a b
          have hd' : dressed ⟨c, file, method, s .use_E_r⟩ a b
              ({ info := ⟨c, file, method, s .use_E_r⟩ } : TheRun ℝ Made) = r₀ := rfl
          rw [hd'] at hd
          rw [hd] at hm
          exact ordinary_leaves hM st method ho s ⟨c, file, method, s .use_E_r⟩ m hm
        dsimp only at h
        generalize M st method s r₀ = q at h hgood
        rcases q with ⟨x | b', r₁⟩
        · exact hset _ hgood h
        · dsimp only at h
          split at h
          · exact hset _ hgood h
          · next r₂ hfin =>
            refine hset _ ⟨?_, ?_, ?_⟩ h
            · rw [finalise_info hfin]; exact hgood.canonical
            · rw [finalise_info hfin]; exact hgood.reads
            · rw [finalise_info hfin]
              exact fun ho m hm => hgood.repeats ho m (has_finalise hfin hm)
      · rw [if_neg hm] at h
        exact hset _ hnew h
    · exact hfs p r h

theorem overrides_canonical {c c' : ConfigInput} (hc : Canonical c) {ov : Option Overrides}
    (h : add_overrides ov c = .ok c') : Canonical c' := by
  cases ov with
  | none =>
    rw [add_overrides_none] at h
    injection h with h
    exact h ▸ hc
  | some o =>
    have ho : ∀ k ∈ o.keys, ∃ f : CField, f.name = k := by
      intro k hk
      by_contra hn
      push Not at hn
      rw [add_overrides_unknown c o ⟨k, hk, hn⟩] at h
      cases h
    obtain ⟨c2, h4, h5, -⟩ := add_overrides_ok c hc o ho
    rw [h] at h4
    injection h4 with h4
    exact h4 ▸ h5

/-! ### Tables -/

/-- The runs after any steps of the workers are those which were there, those of the rows as
they begin, and those of the rows as they end. -/
theorem pool_runs {writable : String → Bool} {jobs : List (Except PyErr (Job ℝ Made))}
    {fs : FS ℝ Made} (schedule : List ℕ) (p : String) (r : TheRun ℝ Made)
    (h : (schedule.foldl (Hdf5Run.step writable jobs) { fs := fs }).fs.get? p = some (.run r)) :
    fs.get? p = some (.run r) ∨ ∃ j, .ok j ∈ jobs ∧ (r = j.run ∨ r = j.finish.1) := by
  induction schedule using List.reverseRecOn with
  | nil => exact .inl h
  | append_singleton l k ih =>
    rw [List.foldl_append, List.foldl_cons, List.foldl_nil] at h
    generalize l.foldl (Hdf5Run.step writable jobs) { fs := fs } = q at h ih
    unfold Hdf5Run.step at h
    split at h
    · exact ih h
    · split at h
      · exact ih h
      · exact ih h
    · next j hj =>
      have hmem : (.ok j : Except PyErr (Job ℝ Made)) ∈ jobs := List.mem_of_getElem? hj
      unfold Pool.step at h
      split at h
      · exact ih h
      · split at h
        · exact ih h
        · split_ifs at h
          · dsimp only at h
            rw [Dict.get?_set] at h
            split_ifs at h
            · injection h with h
              injection h with h
              exact .inr ⟨j, hmem, .inl h.symm⟩
            · exact ih h
          · exact ih h
      · dsimp only at h
        rw [Dict.get?_set] at h
        split_ifs at h
        · injection h with h
          injection h with h
          exact .inr ⟨j, hmem, .inr h.symm⟩
        · exact ih h

/-- What the job of a row is made of. -/
theorem job_parts {e : Env ℝ} {impl : String → Solver ℝ Made} {method : String}
    {o : Option Overrides} {out : Option String} {dir name : String}
    {d : Dict Text (Option Text)} {j : Job ℝ Made}
    (h : hdf5_job e impl method o out dir name d = .ok j) :
    ∃ c₀ c s a b, method ∈ methodNames ∧ ConfigInput.ofDict (withoutIds d) = .ok c₀ ∧
      add_overrides o c₀ = .ok c ∧ c.to_soln_input e.conv = .ok s ∧
      j.run = { info := ⟨c, none, method, s .use_E_r⟩, based_on_filename := a
                based_on_solution := b } ∧
      j.solver = impl method ∧ j.input = s := by
  unfold hdf5_job at h
  cases hm : getMethod impl method with
  | none => rw [hm] at h; cases h
  | some solver =>
    rw [hm] at h
    unfold getMethod at hm
    split_ifs at hm with hk
    injection hm with hm
    subst hm
    cases hr : row_inputs (σ := Made) e.conv method o d with
    | error x => rw [hr] at h; cases h
    | ok p =>
      obtain ⟨s, run⟩ := p
      rw [hr] at h
      dsimp only at h
      split at h
      · cases h
      · injection h with h
        subst h
        unfold row_inputs at hr
        split at hr
        · cases hr
        · next c₀ h1 =>
          split at hr
          · cases hr
          · next c h2 =>
            split at hr
            · cases hr
            · next s' h3 =>
              injection hr with hr
              injection hr with h4 h5
              subst h4 h5
              exact ⟨c₀, c, s', _, _, hk, h1, h2, h3, rfl, rfl, rfl⟩

/-- The end of a row is what `write_run` leaves in a new file. -/
theorem finish_written (e : Env ℝ) {impl : String → Solver ℝ Made} {method : String}
    (hm : method ∈ methodNames) {j : Job ℝ Made} (hj : j.solver = impl method) :
    (write_run { e with writable := fun _ => true } (getMethod impl method) j.input j.run ""
      []).2.get? "" = some (.run j.finish.1) := by
  unfold write_run getMethod Job.finish
  rw [if_pos hm, ← hj]
  dsimp only [Dict.get?]
  rw [if_pos rfl]
  rcases j.solver j.input j.run with ⟨x | b, r⟩
  · rfl
  · dsimp only
    cases r.finalise <;> rfl

/-- Which runs a table leaves, besides those which were there. -/
theorem table_runs {e : Env ℝ} {M : Bool → String → Solver ℝ Made}
    {sniff : Text → Except PyErr (List Text)} {lines : String → List Text} {name : ℕ → String}
    {input_file : String} {given : List Occ} {fs : FS ℝ Made} {schedule : List ℕ}
    {pool : Pool ℝ Made}
    (h : Hdf5Run.ds_hdf5runner e M sniff lines name input_file given fs schedule = .ok pool)
    (p : String) (r : TheRun ℝ Made) (hr : pool.fs.get? p = some (.run r)) :
    fs.get? p = some (.run r) ∨ ∃ st method ov d c₀ c s a b, method ∈ methodNames ∧
      (∃ label inputs, Csv.get_csv_inputs sniff (lines input_file) label = .ok inputs ∧
        d ∈ inputs) ∧ ConfigInput.ofDict (withoutIds d) = .ok c₀ ∧ add_overrides (some ov) c₀ = .ok c ∧
      c.to_soln_input e.conv = .ok s ∧
      (r = { info := ⟨c, none, method, s .use_E_r⟩, based_on_filename := a
             based_on_solution := b } ∨
        (write_run { e with writable := fun _ => true } (getMethod (M st) method) s
          { info := ⟨c, none, method, s .use_E_r⟩, based_on_filename := a
            based_on_solution := b } "" []).2.get? "" = some (.run r)) := by
  unfold Hdf5Run.ds_hdf5runner at h
  split at h
  · cases h
  · next call hcall =>
    have hfile : call.input_file = input_file := by
      unfold CliSolve.ds_hdf5runner at hcall
      split at hcall
      · cases hcall
      · split at hcall
        · split at hcall
          · cases hcall
          · injection hcall with hcall
            rw [← hcall]
        · cases hcall
    split at h
    · cases h
    · next jobs hjobs =>
      injection h with h
      subst h
      rcases pool_runs schedule p r hr with h1 | ⟨j, hj, h1⟩
      · exact .inl h1
      · right
        unfold hdf5runner_jobs at hjobs
        split at hjobs
        · cases hjobs
        · next inputs hin =>
          injection hjobs with hjobs
          subst hjobs
          obtain ⟨i, hi⟩ := List.getElem?_of_mem hj
          rw [List.getElem?_mapIdx, Option.map_eq_some_iff] at hi
          obtain ⟨d, hdi, hd⟩ := hi
          rw [hfile] at hin
          obtain ⟨c₀, c, s, a, b, k1, k2, k3, k4, k5, k6, k7⟩ := job_parts hd
          refine ⟨call.store_internal, _, _, d, c₀, c, s, a, b, k1,
            ⟨_, inputs, hin, List.mem_of_getElem? hdi⟩, k2, k3, k4, ?_⟩
          rcases h1 with rfl | rfl
          · exact .inl k5
          · right
            have := finish_written e k1 k6
            rw [k5, k7] at this
            exact this

theorem ofDict_canonical {d : Dict Text (Option Text)} {c : ConfigInput}
    (h : ConfigInput.ofDict d = .ok c) : Canonical c := by
  unfold ConfigInput.ofDict at h
  split_ifs at h
  injection h with h
  rw [← h]
  exact mk_canonical _

/-- Every run in a session is good. -/
theorem session_good {fs : FS ℝ Made} (h : Session C I str interp fs) :
    ∀ p r, fs.get? p = some (.run r) → Good C I str interp r := by
  induction h with
  | start fs h => exact fun p r hr => (h p r hr).elim
  | elsewhere fs fs' _ hsub ih =>
    intro p r hr
    obtain ⟨q, hq⟩ := hsub p r hr
    exact ih q r hq
  | soln e M read config_file given fs he hM ht _ ih =>
    subst he
    intro p r hr
    by_cases ha : Cli.accepted soln_options given = true
    swap
    · rw [soln_usage_error e M read config_file given fs (by simpa using ha)] at hr
      exact ih p r hr
    by_cases hk : KnownFields given
    swap
    · rw [soln_unknown_field e M read config_file given fs ht ha hk] at hr
      exact ih p r hr
    obtain ⟨ov, -, h2⟩ := soln_effective e M read config_file given fs ht ha hk
    rw [h2] at hr
    have hfs : ∀ q : Except PyErr (String × Bool) × FS ℝ Made,
        (report (Logging.log_handler (logGiven given)) q).fs = q.2 := by
      rintro ⟨x | x, y⟩ <;> rfl
    rw [hfs] at hr
    rcases solve_cases e (M (!isGiven given "--no-store-internal"))
      ⟨textGiven given "--output-file", (textGiven given "--sonic-method").getD "single",
        config_file, (textGiven given "--output-dir").getD ".", some ov⟩
      (read config_file) fs with ⟨x, hx⟩ | ⟨c, s, name, h3, h4, -, hx⟩
    · rw [hx] at hr
      exact ih p r hr
    · rw [hx, with_path_fs] at hr
      refine write_run_good hM e _ _ s c _ none none ?_ ⟨s, h4⟩ _ fs ih p r hr
      unfold get_input_from_conffile at h3
      dsimp only at h3
      split at h3
      · cases h3
      · split at h3
        · cases h3
        · exact overrides_canonical (mk_canonical _) h3
  | resoln e M file range given fs he hM ht _ ih =>
    subst he
    intro p r hr
    by_cases ha : Cli.accepted soln_options given = true
    swap
    · rw [resoln_usage_error e _ M file range given fs (by simpa using ha)] at hr
      exact ih p r hr
    by_cases hk : KnownFields given
    swap
    · rw [resoln_unknown_field e _ M file range given fs ht ha hk] at hr
      exact ih p r hr
    obtain ⟨ov, -, h2⟩ := resoln_effective e Made.solution_input M file range given fs ht ha hk
    rw [h2] at hr
    have hfs : ∀ q : Except PyErr (String × Bool) × FS ℝ Made,
        (report (Logging.log_handler (logGiven given)) q).fs = q.2 := by
      rintro ⟨x | x, y⟩ <;> rfl
    rw [hfs] at hr
    rcases resolve_cases e Made.solution_input (M (!isGiven given "--no-store-internal"))
      ⟨textGiven given "--output-file", (textGiven given "--sonic-method").getD "single",
        file, some range, (textGiven given "--output-dir").getD ".", some ov⟩ fs with
      ⟨x, hx⟩ | ⟨old, f, sol, c, s, name, hold, -, -, h3, -, hx⟩
    · rw [hx] at hr
      exact ih p r hr
    · rw [hx, with_path_fs] at hr
      have hg := ih _ _ hold
      obtain ⟨c', s₁, s₂, k1, k2, -⟩ := (resolve_inputs_succeeds e.conv _ _ ov).1 ⟨_, h3⟩
      have hcc : c = c' := by
        unfold new_inputs_with_overrides at h3
        simp only [Option.getD_some, k1, k2, Bind.bind, Except.bind] at h3
        split at h3
        · cases h3
        · split at h3 <;>
          · injection h3 with h3
            injection h3 with h3
            exact h3.symm
      subst hcc
      exact write_run_good hM e _ _ s c _ _ _ (overrides_canonical hg.canonical k1) ⟨_, k2⟩ _ fs
        ih p r hr
  | hdf5runner e M sniff lines name input_file given fs schedule pool he hM _ hp ih =>
    subst he
    intro p r hr
    rcases table_runs hp p r hr with h |
      ⟨st, method, ov, d, c₀, c, s, a, b, -, -, h1, h2, h3, h4⟩
    · exact ih p r h
    · have hc := overrides_canonical (ofDict_canonical h1) h2
      rcases h4 with rfl | h4
      · exact ⟨hc, ⟨s, h3⟩, fun _ m hm => by rcases hm with h | h <;> cases h⟩
      · exact write_run_good hM _ st method s c none a b hc ⟨s, h3⟩ "" []
          (fun _ _ h => by cases h) "" r h4

  | shock e stamp file range fs schedule pool _ hp ih =>
    intro p r hr
    rcases ShockFiles.shock_runs hp p r hr with h |
      ⟨old, m, θ, row, made, h1, -, -, -, -, -, -, h2, -, h3⟩
    · exact ih p r h
    · have hg := ih _ _ h1
      obtain ⟨-, -, hpost, -⟩ := ShockFiles.continuation_ok h2
      rcases h3 with rfl | rfl
      · exact ⟨hg.canonical, hg.reads, fun _ m hm => by rcases hm with h | h <;> cases h⟩
      · refine ⟨hg.canonical, hg.reads, fun _ m' hm hf => ?_⟩
        have : m' = made := by
          rcases hm with h | h
          · simpa using h
          · injection h with h
            injection h with h
            exact h.symm
        rw [this, hpost] at hf
        cases hf

/-! ## Solving again -/

/-- How `ds-resoln` goes on with a stored solution: what is not overridden is the solution's,
what is overridden is as given. -/
theorem resoln_goes_on (hC : ∀ x y, C.float_eq x y = true → x = y)
    (e : Env ℝ) (he : e.conv = C) (M : Bool → String → Solver ℝ Made) (file range : String)
    (given : List Occ) (fs : FS ℝ Made) (old : TheRun ℝ Made) (m : Made)
    (hold : fs.get? file = some (.run old)) (hcan : Canonical old.info.config_input)
    (hreads : ∃ s, old.info.config_input.to_soln_input C = .ok s)
    (hdone : old.final ≠ .delayed)
    (hfound : old.getSolutions (some range) = .ok (.soln m)) (ht : CliSolve.Typed given)
    (ha : Cli.accepted soln_options given = true) (hk : KnownFields given)
    (hgiven : ∀ (f : SField) w, overrideGiven given f.name = some w →
      ∃ x, readField C f.kind (some (kept f.name w.toList)) = .ok x)
    (name : String)
    (hname : textGiven given "--output-file" = some name ∨
      textGiven given "--output-file" = none ∧
        ∃ l, old.info.config_input .label = some l ∧
          name = String.ofList l ++ (e.now ++ ".hdf5")) :
    ∃ c s, (∀ f : CField, overrideGiven given f.name = none → c f = old.info.config_input f) ∧
      (∀ (f : CField) w, overrideGiven given f.name = some w →
        c f = some (kept f.name w.toList)) ∧
      (∀ f : SField, overrideGiven given f.name = none → s f = m.solution_input f) ∧
      (∀ (f : SField) w, overrideGiven given f.name = some w →
        readField C f.kind (some (kept f.name w.toList)) = .ok (s f)) ∧
      (textGiven given "--sonic-method").getD "single" ∈ methodNames ∧
      ds_resoln e Made.solution_input M file range given fs =
        report (Logging.log_handler (logGiven given))
          (with_path (e.path ((textGiven given "--output-dir").getD ".") name)
            (write_run e
              (some (M (!isGiven given "--no-store-internal")
                ((textGiven given "--sonic-method").getD "single"))) s
              { info := ⟨c, old.info.config_filename,
                  (textGiven given "--sonic-method").getD "single", s .use_E_r⟩
                based_on_filename := some file
                based_on_solution := some range }
              (e.path ((textGiven given "--output-dir").getD ".") name) fs)) := by
  subst he
  obtain ⟨ov, h1, h2⟩ := resoln_effective e Made.solution_input M file range given fs ht ha hk
  have hkey : ∀ k, k ∈ ov.keys ↔ overrideGiven given k ≠ none := by
    intro k
    rw [← Dict.get?_isSome_iff, h1]
    cases overrideGiven given k <;> simp
  have hkeys : ∀ k ∈ ov.keys, ∃ f : CField, f.name = k := by
    intro k hm
    by_contra hn
    cases hg : overrideGiven given k with
    | none => exact (hkey k).1 hm hg
    | some w =>
      unfold overrideGiven at hg
      rw [Option.map_eq_some_iff] at hg
      obtain ⟨p, hp, -⟩ := hg
      have := List.mem_of_getLast? hp
      rw [List.mem_filter] at this
      obtain ⟨f, hf⟩ := hk p this.1
      exact hn ⟨f, hf.trans (by simpa using this.2)⟩
  obtain ⟨c, g1, -, g2, g3⟩ := add_overrides_ok _ hcan ov hkeys
  have hc2 : ∀ (f : CField) w, overrideGiven given f.name = some w →
      c f = some (kept f.name w.toList) := by
    intro f w hw
    rw [g2 f w.toList (by rw [h1, hw]; rfl)]
    unfold kept
    simp only [converter_eq f]
    rfl
  have hc1 : ∀ f : CField, overrideGiven given f.name = none →
      c f = old.info.config_input f := fun f hf => g3 f (fun hm => (hkey _).1 hm hf)
  obtain ⟨s₀, hs₀⟩ := hreads
  have hread : ∃ s₁, c.to_soln_input e.conv = .ok s₁ := by
    have : ∀ f : SField, ∃ x, readField e.conv f.kind (c (.s f)) = .ok x := by
      intro f
      cases hf : overrideGiven given f.name with
      | none =>
        rw [hc1 (.s f) hf]
        exact ⟨_, (to_soln_input_ok _ _ _).1 hs₀ f⟩
      | some w =>
        rw [hc2 (.s f) w hf]
        exact hgiven f w hf
    choose s₁ hs₁ using this
    exact ⟨s₁, (to_soln_input_ok _ _ _).2 hs₁⟩
  obtain ⟨s₁, hs₁⟩ := hread
  obtain ⟨⟨c', s⟩, hnew⟩ := (resolve_inputs_succeeds e.conv old.info.config_input
    m.solution_input ov).2 ⟨c, s₁, s₀, g1, hs₁, hs₀⟩
  obtain ⟨k1, k2⟩ := resolve_inputs e.conv hC _ hcan _ ov c' s hnew
  rw [g1] at k1
  injection k1 with k1
  subst k1
  have hmeth := method_given soln_solver (by simp [IsMethod]) ha
  have hmeth' : (textGiven given "--sonic-method").getD "single" ∈ methodNames := by
    unfold IsMethod at hmeth
    simp only [methodNames, List.mem_cons, List.not_mem_nil, or_false]
    simpa using hmeth
  refine ⟨c, s, hc1, hc2, fun f hf => (k2 f).2 (fun hm => (hkey _).1 hm hf), fun f w hw => ?_,
    hmeth', ?_⟩
  · rw [← (k2 f).1 ((hkey _).2 (by rw [hw]; simp)), hc2 (.s f) w hw]
    rfl
  · rw [h2]
    have hget : getMethod (M (!isGiven given "--no-store-internal"))
        ((textGiven given "--sonic-method").getD "single") =
        some (M (!isGiven given "--no-store-internal")
          ((textGiven given "--sonic-method").getD "single")) := by
      unfold getMethod
      rw [if_pos hmeth']
    have hon : output_name (textGiven given "--output-file") (old.info.config_input .label)
        (e.now ++ ".hdf5") = .ok name := by
      rcases hname with hname | ⟨hname, l, hl, rfl⟩
      · simp [output_name, hname]
      · simp [output_name, hname, default_name, hl]
    simp only [resolve, load_finished hold hdone, hfound, Except.bind, found_input, hnew, hon, hget]

/-- What `--sonic-method single` does. -/
theorem program_single {M : Bool → String → Solver ℝ Made} (hM : Program I str interp M)
    (st : Bool) : M st "single" = single_solver (single_solution I str interp st) false := by
  obtain ⟨randn, emcee, ops, human, H, J, double, T, scipy, big, others⟩ := hM
  rfl

/-- C114. Any solution of a finished run, in any file left by any commands, solved again with the method `single`, some of its values replaced: either the
solver raises for the new values, and so does the command, or the new file has one solution,
the solution for the new values.  The new values are those stored with the solution, but for the
ones on the command line, which are read as those of a configuration file are. -/
theorem solved_with (hC : ∀ x y, C.float_eq x y = true → x = y) {fs : FS ℝ Made}
    (h : Session C I str interp fs) (e : Env ℝ) (he : e.conv = C)
    {M : Bool → String → Solver ℝ Made} (hM : Program I str interp M) (file range : String)
    (given : List Occ) (old : TheRun ℝ Made) (m : Made)
    (hold : fs.get? file = some (.run old))
    (hdone : old.final ≠ .delayed)
    (hfound : old.getSolutions (some range) = .ok (.soln m)) (ht : CliSolve.Typed given)
    (ha : Cli.accepted soln_options given = true) (hk : KnownFields given)
    (hm : (textGiven given "--sonic-method").getD "single" = "single")
    (hgiven : ∀ (f : SField) w, overrideGiven given f.name = some w →
      ∃ x, readField C f.kind (some (kept f.name w.toList)) = .ok x)
    (name : String)
    (hname : textGiven given "--output-file" = some name ∨
      textGiven given "--output-file" = none ∧
        ∃ l, old.info.config_input .label = some l ∧
          name = String.ofList l ++ (e.now ++ ".hdf5"))
    (path : String) (hpath : path = e.path ((textGiven given "--output-dir").getD ".") name)
    (hfree : fs.get? path = none) (hw : e.writable path = true) :
    ∃ s : SolutionInput ℝ,
      (∀ f : SField, overrideGiven given f.name = none → s f = m.solution_input f) ∧
      (∀ (f : SField) w, overrideGiven given f.name = some w →
        readField C f.kind (some (kept f.name w.toList)) = .ok (s f)) ∧
      (∀ q, q ≠ path →
        (ds_resoln e Made.solution_input M file range given fs).fs.get? q = fs.get? q) ∧
      ∃ r, (ds_resoln e Made.solution_input M file range given fs).fs.get? path =
          some (.run r) ∧
        (∀ f : CField, overrideGiven given f.name = none →
          r.info.config_input f = old.info.config_input f) ∧
        (∀ (f : CField) w, overrideGiven given f.name = some w →
          r.info.config_input f = some (kept f.name w.toList)) ∧
        r.info.config_filename = old.info.config_filename ∧
        r.info.sonic_method = "single" ∧ r.info.use_E_r = s .use_E_r ∧
        r.based_on_filename = some file ∧ r.based_on_solution = some range ∧
        match single_solution I str interp (!isGiven given "--no-store-internal") s with
        | .ok made =>
          (ds_resoln e Made.solution_input M file range given fs).status = .ok 0 ∧
            (ds_resoln e Made.solution_input M file range given fs).printed = [path] ∧
            r.solutions = [("0", made)] ∧ r.final = .value (some made)
        | .error x =>
          (ds_resoln e Made.solution_input M file range given fs).status = .error x ∧
            (ds_resoln e Made.solution_input M file range given fs).printed = [] ∧
            r.solutions = [] ∧ r.final = .delayed := by
  have hg := session_good h file old hold
  obtain ⟨c, s, h1, h2, h3, h4, -, h5⟩ := resoln_goes_on hC e he M file range given fs old m hold
    hg.canonical hg.reads hdone hfound ht ha hk hgiven name hname
  refine ⟨s, h3, h4, ?_⟩
  rw [h5, hm, program_single hM, ← hpath]
  simp only [write_run, hfree, hw, if_true, EndToEnd.single_solver_based]
  cases single_solution I str interp (!isGiven given "--no-store-internal") s with
  | error x =>
    refine ⟨fun q hq => Dict.get?_set_ne _ _ hq.symm, _, Dict.get?_set_self _ _ _, h1, h2, rfl, rfl, rfl,
      rfl, rfl, rfl, rfl, rfl, rfl⟩
  | ok made =>
    dsimp only
    rw [finalise_set _ _ rfl]
    exact ⟨fun q hq => Dict.get?_set_ne _ _ hq.symm, _, Dict.get?_set_self _ _ _, h1, h2, rfl, rfl, rfl,
      rfl, rfl, rfl, rfl, rfl, rfl⟩

/-- C114. A run that ended before it had a final solution cannot be solved again, although its
file has the solutions found until then: `KeyError`, and nothing is written. -/
theorem unfinished_not_solved (e : Env ℝ) (M : Bool → String → Solver ℝ Made)
    (file range : String) (given : List Occ) (fs : FS ℝ Made) (old : TheRun ℝ Made)
    (hold : fs.get? file = some (.run old)) (hend : old.final = .delayed)
    (ht : CliSolve.Typed given) (ha : Cli.accepted soln_options given = true)
    (hk : KnownFields given) :
    (ds_resoln e Made.solution_input M file range given fs).status = .error .KeyError ∧
    (ds_resoln e Made.solution_input M file range given fs).printed = [] ∧
    (ds_resoln e Made.solution_input M file range given fs).fs = fs := by
  obtain ⟨ov, -, h2⟩ := resoln_effective e Made.solution_input M file range given fs ht ha hk
  rw [h2, resolve_unfinished e _ _ _ fs old hold hend]
  exact ⟨rfl, rfl, rfl⟩

/-- C114. Without other values, and with the same wish for internal data, the command succeeds
and the new file has the same solution: with the same input, initial conditions, flag, angles,
numbers and internal data.  It does not matter which of the four methods found it, which commands
were run before and after, nor how the file was moved since. -/
theorem solved_again (hC : ∀ x y, C.float_eq x y = true → x = y) {fs : FS ℝ Made}
    (h : Session C I str interp fs) (e : Env ℝ) (he : e.conv = C)
    {M : Bool → String → Solver ℝ Made} (hM : Program I str interp M) (file range : String)
    (given : List Occ) (old : TheRun ℝ Made) (m : Made)
    (hold : fs.get? file = some (.run old)) (hord : old.info.sonic_method ∈ ordinary)
    (hdone : old.final ≠ .delayed)
    (hfound : old.getSolutions (some range) = .ok (.soln m))
    (hpost : m.out.is_post_shock_only = false) (ht : CliSolve.Typed given)
    (ha : Cli.accepted soln_options given = true) (hk : KnownFields given)
    (hno : ∀ f : SField, overrideGiven given f.name = none)
    (hm : (textGiven given "--sonic-method").getD "single" = "single")
    (hst : isGiven given "--no-store-internal" = !m.out.internal_data.isSome) (name : String)
    (hname : textGiven given "--output-file" = some name ∨
      textGiven given "--output-file" = none ∧
        ∃ l, old.info.config_input .label = some l ∧
          name = String.ofList l ++ (e.now ++ ".hdf5"))
    (path : String) (hpath : path = e.path ((textGiven given "--output-dir").getD ".") name)
    (hfree : fs.get? path = none) (hw : e.writable path = true) :
    (ds_resoln e Made.solution_input M file range given fs).status = .ok 0 ∧
    (ds_resoln e Made.solution_input M file range given fs).printed = [path] ∧
    (∀ q, q ≠ path →
      (ds_resoln e Made.solution_input M file range given fs).fs.get? q = fs.get? q) ∧
    ∃ r, (ds_resoln e Made.solution_input M file range given fs).fs.get? path = some (.run r) ∧
      r.solutions = [("0", m)] ∧ r.final = .value (some m) ∧
      (∀ f : CField, overrideGiven given f.name = none →
        r.info.config_input f = old.info.config_input f) ∧
      r.info.config_filename = old.info.config_filename ∧
      r.based_on_filename = some file ∧ r.based_on_solution = some range := by
  obtain ⟨s, h1, -, h2, r, h3, h4, -, h5, -, -, h6, h7, h8⟩ := solved_with hC h e he hM file range
    given old m hold hdone hfound ht ha hk hm (fun f w hw => by rw [hno f] at hw; cases hw) name hname
    path hpath hfree hw
  have hs : s = m.solution_input := funext fun f => h1 f (hno f)
  have hrep : Repeats I str interp m :=
    (session_good h file old hold).repeats hord m (has_of_found hfound) hpost
  unfold Repeats at hrep
  rw [hst, Bool.not_not, hs, hrep] at h8
  exact ⟨h8.1, h8.2.1, h2, r, h3, h8.2.2.1, h8.2.2.2, h4, h5, h6, h7⟩

/-- C117. A solution behind a shock is stored like the others, but it cannot be solved again:
whatever values are replaced, `ds-resoln` with the method `single` starts at the midplane, and
does not store the solution it started from. -/
theorem continuation_lost (hC : ∀ x y, C.float_eq x y = true → x = y) {fs : FS ℝ Made}
    (h : Session C I str interp fs) (e : Env ℝ) (he : e.conv = C)
    {M : Bool → String → Solver ℝ Made} (hM : Program I str interp M) (file range : String)
    (given : List Occ) (old : TheRun ℝ Made) (m : Made)
    (hold : fs.get? file = some (.run old)) (hdone : old.final ≠ .delayed)
    (hfound : old.getSolutions (some range) = .ok (.soln m))
    (hpost : m.out.is_post_shock_only = true) (ht : CliSolve.Typed given)
    (ha : Cli.accepted soln_options given = true) (hk : KnownFields given)
    (hm : (textGiven given "--sonic-method").getD "single" = "single")
    (hgiven : ∀ (f : SField) w, overrideGiven given f.name = some w →
      ∃ x, readField C f.kind (some (kept f.name w.toList)) = .ok x)
    (name : String)
    (hname : textGiven given "--output-file" = some name ∨
      textGiven given "--output-file" = none ∧
        ∃ l, old.info.config_input .label = some l ∧
          name = String.ofList l ++ (e.now ++ ".hdf5"))
    (path : String) (hpath : path = e.path ((textGiven given "--output-dir").getD ".") name)
    (hfree : fs.get? path = none) (hw : e.writable path = true) :
    ∃ r, (ds_resoln e Made.solution_input M file range given fs).fs.get? path = some (.run r) ∧
      ¬ Has r m ∧ ∀ m', Has r m' → m'.out.is_post_shock_only = false := by
  obtain ⟨s, -, -, -, r, h3, -, -, -, -, -, -, -, h8⟩ := solved_with hC h e he hM file range
    given old m hold hdone hfound ht ha hk hm hgiven name hname path hpath hfree hw
  have key : ∀ m', Has r m' → m'.out.is_post_shock_only = false := by
    intro m' hm'
    split at h8
    · next made hmade =>
      obtain ⟨-, -, h9, h10⟩ := h8
      have : m' = made := by
        rcases hm' with h | h
        · rw [h9] at h
          simpa using h
        · rw [h10] at h
          injection h with h
          injection h with h
          exact h.symm
      subst this
      obtain ⟨-, inp, tol, o, -, -, -, -, hs⟩ := single_solution_ok hmade
      obtain ⟨_, _, _, _, -, -, -, -, -, h, -⟩ := solution_ok _ _ _ _ _ _ hs
      exact h
    · obtain ⟨-, -, h9, h10⟩ := h8
      rcases hm' with h | h
      · rw [h9] at h; cases h
      · rw [h10] at h; cases h
  refine ⟨r, h3, fun hh => ?_, key⟩
  have := key m hh
  rw [hpost] at this
  cases this

/-- C115. Let `ds-soln` return for a configuration file, with any method, and let a solution of
any run be solved again with the same method, the same wish for internal data and, of all fields
of the input, the same values: those on the command line of `ds-resoln` are those asked of
`ds-soln`, and the others are read from what was asked of `ds-soln` as they are stored with the
solution.  Then `ds-resoln` returns the same status, and its file has the same solutions and the
same final solution. -/
theorem resoln_same_as_soln (hC : ∀ x y, C.float_eq x y = true → x = y) {fs : FS ℝ Made}
    (h : Session C I str interp fs) (e e' : Env ℝ) (he : e.conv = C) (he' : e'.conv = C)
    {M : Bool → String → Solver ℝ Made} (hM : Program I str interp M) (file range : String)
    (given : List Occ) (old : TheRun ℝ Made) (m : Made)
    (hold : fs.get? file = some (.run old))
    (hdone : old.final ≠ .delayed)
    (hfound : old.getSolutions (some range) = .ok (.soln m)) (ht : CliSolve.Typed given)
    (ha : Cli.accepted soln_options given = true) (hk : KnownFields given) (method : String)
    (hm : (textGiven given "--sonic-method").getD "single" = method) (name : String)
    (hname : textGiven given "--output-file" = some name ∨
      textGiven given "--output-file" = none ∧
        ∃ l, old.info.config_input .label = some l ∧
          name = String.ofList l ++ (e.now ++ ".hdf5"))
    (path : String) (hpath : path = e.path ((textGiven given "--output-dir").getD ".") name)
    (hfree : fs.get? path = none) (hw : e.writable path = true)
    (read : String → Option Text) (config_file : String) (given' : List Occ) (fs' : FS ℝ Made)
    (d : Doc) (hd : d.Good) (hread : read config_file = some d.text)
    (ht' : CliSolve.Typed given') (ha' : Cli.accepted soln_options given' = true)
    (hk' : KnownFields given')
    (hm' : (textGiven given' "--sonic-method").getD "single" = method)
    (hst : isGiven given' "--no-store-internal" = isGiven given "--no-store-internal")
    (hsame : ∀ (f : SField) (v : Text), Asked d given' f.name v →
      match overrideGiven given f.name with
      | some w => w.toList = v
      | none => readField C f.kind (some (kept f.name v)) = .ok (m.solution_input f))
    (n : ℕ) (hn : (ds_soln e' M read config_file given' fs').status = .ok n) :
    (ds_resoln e Made.solution_input M file range given fs).status = .ok n ∧
    (ds_resoln e Made.solution_input M file range given fs).printed = [path] ∧
    ∃ (p : String) (r r' : TheRun ℝ Made),
      (ds_soln e' M read config_file given' fs').printed = [p] ∧
      (ds_soln e' M read config_file given' fs').fs.get? p = some (.run r) ∧
      (ds_resoln e Made.solution_input M file range given fs).fs.get? path = some (.run r') ∧
      r'.solutions = r.solutions ∧ r'.final = r.final ∧
      r'.info.sonic_method = method ∧ r'.info.config_filename = old.info.config_filename ∧
      r'.based_on_filename = some file ∧ r'.based_on_solution = some range := by
  obtain ⟨p, c', s', b, r, r', k1, k2, -, -, k3, k4, k5, k6, k7⟩ := HydroMethods.soln_ran e' M read
    config_file given' fs' d hd hread ht' ha' hk' method hm' n hn
  rw [he', to_soln_input_ok] at k5
  -- the values of `ds-soln` are readable, and are those of `ds-resoln`
  have hval : ∀ (f : SField), (∀ w, overrideGiven given f.name = some w →
      readField C f.kind (some (kept f.name w.toList)) = .ok (s' f)) ∧
      (overrideGiven given f.name = none → s' f = m.solution_input f) := by
    intro f
    obtain ⟨v, hv, hcv⟩ := k4 (.s f)
    have hf := hsame f v hv
    have hr := k5 f
    rw [hcv] at hr
    refine ⟨fun w hw' => ?_, fun hno => ?_⟩
    · rw [hw'] at hf
      dsimp only at hf
      rw [hf]
      exact hr
    · rw [hno] at hf
      dsimp only at hf
      have := hr.symm.trans hf
      injection this
  have hg := session_good h file old hold
  obtain ⟨c, s, -, -, h3, h4, hmem, h5⟩ := resoln_goes_on hC e he M file range given fs old m hold
    hg.canonical hg.reads hdone hfound ht ha hk (fun f w hw' => ⟨_, (hval f).1 w hw'⟩) name hname
  have hs : s = s' := by
    funext f
    cases ho : overrideGiven given f.name with
    | none => rw [h3 f ho, (hval f).2 ho]
    | some w =>
      have := (h4 f w ho).symm.trans ((hval f).1 w ho)
      injection this
  subst hs
  rw [hm] at hmem h5
  have hb := program_blind hM (!isGiven given "--no-store-internal") method hmem s
    { info := ⟨c', some config_file, method, s .use_E_r⟩ }
    ⟨c, old.info.config_filename, method, s .use_E_r⟩ (some file) (some range)
  have hfin := finalise_dressed ⟨c, old.info.config_filename, method, s .use_E_r⟩ (some file)
    (some range) r
  rw [← hst, k6] at hb
  rw [k7] at hfin
  have hrun : write_run e (some (M (!isGiven given "--no-store-internal") method)) s
      { info := ⟨c, old.info.config_filename, method, s .use_E_r⟩
        based_on_filename := some file
        based_on_solution := some range } path fs =
      (.ok b, fs.set path (.run (dressed ⟨c, old.info.config_filename, method, s .use_E_r⟩
        (some file) (some range) r'))) := by
    unfold write_run
    have hb' : M (!isGiven given "--no-store-internal") method s
        { info := ⟨c, old.info.config_filename, method, s .use_E_r⟩
          based_on_filename := some file
          based_on_solution := some range } =
        (.ok b, dressed ⟨c, old.info.config_filename, method, s .use_E_r⟩ (some file)
          (some range) r) := by
      rw [← hst]
      exact hb
    simp only [hfree, hw, if_true, hb', hfin, Except.map]
  rw [h5, ← hpath, hrun]
  refine ⟨?_, rfl, p, r', _, k2, k3, Dict.get?_set_self _ _ _, rfl, rfl, rfl, rfl, rfl, rfl⟩
  rw [k1]
  rfl

/-! ## Cases -/

theorem witAll_program : Program witStay (fun _ => "") (fun _ _ => none) witAll :=
  Program.mk (fun _ _ => []) (fun _ _ => .error .ValueError) Stepper.realOps (fun _ => .STOP)
    (fun _ => Hydro.witI) (fun _ => Hydro.witI) true ModHydro.witT (fun _ _ => ([], .ok true)) 1
    fun _ _ _ r => (.error .SolverError, r)

theorem witConv_eq (x y : ℝ) (h : witConvR.float_eq x y = true) : x = y := by cases h

theorem wit_free : Session witConvR witStay (fun _ => "") (fun _ _ => none) [] :=
  .start _ fun _ _ h => by cases h

/-- The files left by a search. -/
noncomputable def witFound : FS ℝ Made :=
  (ds_soln witEnvR witAll (fun _ => some witDoc.text) "a.cfg" StepRun.witSearch
    ([] : FS ℝ Made)).fs

theorem witFound_session :
    Session witConvR witStay (fun _ => "") (fun _ _ => none) witFound :=
  .soln witEnvR witAll _ _ _ _ rfl witAll_program StepRun.witSearch_typed wit_free

theorem witFound_first : ∃ r m, witFound.get? witFile = some (.run r) ∧
    r.info.sonic_method = "step" ∧ r.final ≠ .delayed ∧
    r.getSolutions (some "0") = .ok (.soln m) ∧
    m.out.internal_data = none ∧ m.out.is_post_shock_only = false ∧
    r.info.config_input .label = some (kept CField.label.name (witAsked .label)) ∧
    ∀ q, q ≠ witFile → witFound.get? q = none := by
  obtain ⟨n, h1, h2⟩ := StepRun.witSearch_returns
  obtain ⟨p, r, γs, ms, inp, o, t, -, _, hp, -, ho, hr, -, hm, hc, -, -, -, -, hs, hne, -, hl, -,
    hk, -, -, hfin⟩ := StepRun.search_end_to_end _ _ _ _ _ _ _ _ _ _ _ witDoc witDoc_good rfl
    StepRun.witSearch_typed (by decide +kernel) wit_known (by decide +kernel) _ h1
  rw [h2] at hp
  injection hp with hp
  subst hp
  have hcongr := soln_congr witEnvR witAll (StepRun.methods Stepper.realOps (fun _ => .STOP) witStay
    (fun _ => "") (fun _ _ => none) fun _ _ _ r => (.error .SolverError, r))
    (fun _ => some witDoc.text) "a.cfg" StepRun.witSearch [] StepRun.witSearch_typed
    (by decide +kernel) wit_known (by
      intro st
      rw [show (textGiven StepRun.witSearch "--sonic-method").getD "single" = "step" by
        decide +kernel]
      rfl)
  rw [← hcongr] at hr ho
  cases ms with
  | nil => exact absurd rfl hne
  | cons m ms =>
    cases γs with
    | nil => cases hl
    | cons γ γs =>
      refine ⟨r, m, hr, hm, ?_, ?_, ?_, ?_, ?_, fun q hq => ?_⟩
      · rcases hfin with ⟨-, hf, -⟩ | ⟨-, hf, -⟩ <;> · rw [hf]; intro h; cases h
      · have h0 : Nat.repr 0 = "0" := by decide
        have hn : Dict.get? (numbered (m :: ms)) "0" = some m := by
          simp [numbered, h0, Dict.get?, List.zipIdx_cons]
        simp [Run.getSolutions, hs, Dict.getItem, hn, Except.map]
      · obtain ⟨-, -, h⟩ := hk 0 m γ rfl rfl
        have hst : (!isGiven StepRun.witSearch "--no-store-internal") = false := by decide +kernel
        rw [hst] at h
        exact (solution_internal _ _ _ _ _ _ h).1 rfl
      · obtain ⟨-, -, h⟩ := hk 0 m γ rfl rfl
        obtain ⟨_, _, _, _, -, -, -, -, -, h, -⟩ := solution_ok _ _ _ _ _ _ h
        exact h
      · obtain ⟨v, hv, e⟩ := hc .label
        rw [e, asked_unique witDoc_good witGiven .label (StepRun.witSearch_asked' hv)
          (wit_asked .label)]
      · exact ho q hq

/-- Solve again, without internal data. -/
def witPlain : List Occ := [("--no-store-internal", .none), ("--output-file", .str "b.hdf5")]

theorem witPlain_typed : CliSolve.Typed witPlain := by
  constructor
  · intro name hn v hv
    simp only [witPlain, List.mem_cons, Prod.mk.injEq, List.not_mem_nil, or_false] at hv
    rcases hv with ⟨rfl, -⟩ | ⟨-, rfl⟩
    · exact absurd hn (by decide)
    · exact ⟨_, rfl⟩
  · intro v hv
    simp only [witPlain, List.mem_cons, Prod.mk.injEq, List.not_mem_nil, or_false] at hv
    rcases hv with ⟨h, -⟩ | ⟨h, -⟩ <;> exact absurd h (by decide)

theorem witPlain_known : KnownFields witPlain := by
  intro p hp
  revert hp
  simp [witPlain, overridesGiven]

/-- The first attempt of a search, solved again. -/
example : ∃ m r, (ds_resoln witEnvLater Made.solution_input witAll witFile "0" witPlain
      witFound).status = .ok 0 ∧
    (ds_resoln witEnvLater Made.solution_input witAll witFile "0" witPlain witFound).fs.get?
      "./b.hdf5" = some (.run r) ∧ r.solutions = [("0", m)] := by
  obtain ⟨old, m, h1, h2, hd, h3, h4, hpost, -, h5⟩ := witFound_first
  obtain ⟨g1, -, -, r, g2, g3, -⟩ := solved_again witConv_eq witFound_session witEnvLater rfl
    witAll_program witFile "0" witPlain old m h1 (by rw [h2]; decide) hd h3 hpost witPlain_typed
    (by decide +kernel) witPlain_known (fun _ => rfl) (by decide +kernel)
    (by rw [h4]; decide +kernel) "b.hdf5" (Or.inl (by decide +kernel)) "./b.hdf5"
    (by decide +kernel) (h5 _ (by decide +kernel)) rfl
  exact ⟨m, r, g1, g2, g3⟩

/-- The file of a run the solver raised in cannot be solved again. -/
example (c : ConfigInput) : (ds_resoln witEnvLater Made.solution_input witAll witFile "0" witPlain
      [(witFile, .run { info := ⟨c, none, "step", .bool false⟩ })]).status = .error .KeyError :=
  (unfinished_not_solved witEnvLater witAll witFile "0" witPlain _
    { info := ⟨c, none, "step", .bool false⟩ } (by simp [Dict.get?]) rfl witPlain_typed
    (by decide +kernel) witPlain_known).1

/-- The files left by `single`. -/
theorem witFirst_session :
    Session witConvR witStay (fun _ => "") (fun _ _ => none) witFirst := by
  have h := Session.soln witEnvR witAll (fun _ => some witDoc.text) "a.cfg" witGiven _ rfl
    witAll_program wit_typed wit_free
  rw [soln_congr witEnvR witAll (SingleRun.methods witStay (fun _ => "") (fun _ _ => none)
    fun _ _ _ r => (.error .SolverError, r)) _ _ _ _ wit_typed (by decide +kernel) wit_known
    (by
      intro st
      rw [show (textGiven witGiven "--sonic-method").getD "single" = "single" by decide +kernel]
      rfl)] at h
  exact h

/-- Solve again with `mod_hydro`, with the electric field. -/
def witOther : List Occ :=
  [("--override", .pairs [("use_E_r", "True")]), ("--sonic-method", .str "mod_hydro"),
    ("--output-file", .str "b.hdf5")]

theorem witOther_typed : CliSolve.Typed witOther := by
  constructor
  · intro name hn v hv
    simp only [witOther, List.mem_cons, Prod.mk.injEq, List.not_mem_nil, or_false] at hv
    rcases hv with ⟨rfl, -⟩ | ⟨-, rfl⟩ | ⟨-, rfl⟩
    · exact absurd hn (by decide)
    · exact ⟨_, rfl⟩
    · exact ⟨_, rfl⟩
  · intro v hv
    simp only [witOther, List.mem_cons, Prod.mk.injEq, List.not_mem_nil, or_false] at hv
    rcases hv with ⟨-, rfl⟩ | ⟨h, -⟩ | ⟨h, -⟩
    · exact ⟨_, rfl⟩
    · exact absurd h (by decide)
    · exact absurd h (by decide)

theorem witOther_known : KnownFields witOther := by
  intro p hp
  have : p = ("use_E_r", "True") := by
    revert hp
    simp [witOther, overridesGiven]
  subst this
  exact ⟨.s .use_E_r, rfl⟩

theorem witOther_override (f : SField) : overrideGiven witOther f.name =
    if f = .use_E_r then some "True" else none := by
  cases f <;> decide +kernel

/-- What is read of `witOther` and the file. -/
theorem witOther_reads (m : Made) (r : TheRun ℝ Made)
    (h : Stored witConvR witStay (fun _ => "") (fun _ _ => none) witDoc witGiven true r m)
    (f : SField) (hf : f ≠ .use_E_r) :
    readField witConvR f.kind (some (kept f.name (HydroMethods.witMAsked (.s f)))) =
      .ok (m.solution_input f) := by
  obtain ⟨v, hv, e⟩ := h.config (.s f)
  have hi := (to_soln_input_ok _ _ _).1 h.input f
  rw [e, asked_unique witDoc_good witGiven (.s f) hv (wit_asked (.s f))] at hi
  have : HydroMethods.witMAsked (.s f) = witAsked (.s f) := by
    cases f <;> first | rfl | exact absurd rfl hf
  rw [this]
  exact hi

/-- A solution of `single`, solved again with `mod_hydro` and one value replaced, is as
`ds-soln` would have it. -/
example : (ds_resoln witEnvLater Made.solution_input witAll witFile "final" witOther
    witFirst).status = .ok 0 := by
  obtain ⟨r, m, hr, hst⟩ := history_stored witDoc_good wit_history.1
  have hfound : r.getSolutions (some "final") = .ok (.soln m) := by
    rw [hst.run]
    exact range_found _ _ _ _ _ _ (by decide)
  have hdone : r.final ≠ .delayed := by rw [hst.run]; intro h; cases h
  exact (resoln_same_as_soln witConv_eq witFirst_session witEnvLater witEnvR rfl rfl
    witAll_program witFile "final" witOther r m hr hdone hfound witOther_typed
    (by decide +kernel) witOther_known "mod_hydro" (by decide +kernel) "b.hdf5" (Or.inl (by decide +kernel))
    "./b.hdf5" (by decide +kernel) (wit_history.2 _ (by decide +kernel)) rfl
    (fun _ => some witDoc.text) "a.cfg" HydroMethods.witM [] witDoc witDoc_good rfl
    HydroMethods.witM_typed (by decide +kernel) HydroMethods.witM_known (by decide +kernel)
    (by decide +kernel) (fun f v hv => by
      rw [asked_unique witDoc_good HydroMethods.witM (.s f) hv (HydroMethods.witM_asked (.s f)),
        witOther_override f]
      by_cases hf : f = .use_E_r
      · rw [if_pos hf]
        subst hf
        rfl
      · rw [if_neg hf]
        exact witOther_reads m r hst f hf) 0 witAll_returns).1

end DiscSolver.Sessions
