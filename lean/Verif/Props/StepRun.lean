import Verif.Spec.StepRun
import Verif.Model.StepRun
import Verif.Props.EndToEnd
import Verif.Props.Steps

/-!
# Properties: a search, from the configuration file to the stored solutions

C105.
-/

namespace DiscSolver.StepRun

open ConfDoc CliSolve Cli Runners SingleRun EndToEnd

/-! ## What ends a search -/

theorem column_v_θ (o : SolutionOut) :
    Stepper.column (view o) Stepper.iv_θ = (o.solution.map (·.v_θ)).map some := by
  simp only [Stepper.column, view, List.map_map]
  rfl

theorem column_ρ (o : SolutionOut) :
    Stepper.column (view o) 6 = (o.solution.map (·.ρ)).map some := by
  simp only [Stepper.column, view, List.map_map]
  rfl

theorem near_eq (o : SolutionOut) : Stepper.nearSonicSamples (view o) = nearSonic o := by
  unfold Stepper.nearSonicSamples nearSonic
  rw [column_v_θ]
  have : ((o.solution.map (·.v_θ)).map some).reduceOption = o.solution.map (·.v_θ) := by
    generalize o.solution.map (·.v_θ) = l
    induction l with
    | nil => rfl
    | cons a l ih => rw [List.map_cons, List.reduceOption_cons_of_some, ih]
  rw [this]

/-- C105. The search ends at a solution exactly if it is as the specification says. -/
theorem accepted_iff (o : SolutionOut) :
    Stepper.is_solution_best (view o) = true ↔ Accepted o := by
  rw [Stepper.best_iff, near_eq]
  constructor
  · rintro ⟨⟨h1, h2, h3, h4⟩, h5, h6⟩
    rw [column_v_θ] at h2 h3
    rw [column_ρ] at h4
    refine ⟨Option.some.inj h1, fun s hs => h2 _ (by simpa using ⟨s, hs, rfl⟩),
      fun i s t hs ht => h3 _ _ ⟨i, by simp [hs], by simp [ht]⟩,
      fun s hs => h4 _ (by simpa using ⟨s, hs, rfl⟩), h5, h6⟩
  · rintro ⟨h1, h2, h3, h4, h5, h6⟩
    refine ⟨⟨congrArg some h1, ?_, ?_, ?_⟩, h5, h6⟩
    · rw [column_v_θ]
      intro x hx
      simp only [List.map_map, List.mem_map, Function.comp_apply, Option.some.injEq] at hx
      obtain ⟨s, hs, rfl⟩ := hx
      exact h2 s hs
    · rw [column_v_θ]
      rintro a b ⟨i, ha, hb⟩
      simp only [List.getElem?_map, Option.map_eq_some_iff, Option.some.injEq] at ha hb
      obtain ⟨x, ⟨s, hs, rfl⟩, rfl⟩ := ha
      obtain ⟨y, ⟨t, ht, rfl⟩, rfl⟩ := hb
      exact h3 i s t hs ht
    · rw [column_ρ]
      intro x hx
      simp only [List.map_map, List.mem_map, Function.comp_apply, Option.some.injEq] at hx
      obtain ⟨s, hs, rfl⟩ := hx
      exact h4 s hs

/-! ## The search -/

variable {ops : Stepper.Ops ℝ} {human : List Stepper.SolnData → Stepper.SplitterStatus}
  {I : Tolerances → Integrator} {str : ℝ → String}
  {interp : List ℝ → List ℝ → Option (ℝ → ℝ)} {st : Bool}

theorem setup_flags : Stepper.Flags (setup ops I str interp st) := by
  intro i d h
  simp only [setup] at h
  cases hs : single_solution I str interp st (fields i) with
  | error x => rw [hs] at h; cases h
  | ok m =>
    rw [hs] at h
    injection h with h
    subst h
    simp [view]

theorem setup_solve {i : Stepper.Input ℝ (SolutionInput ℝ)} {d : Stepper.SolnData}
    (h : (setup ops I str interp st).solve i = .ok d) :
    ∃ m, single_solution I str interp st (fields i) = .ok m ∧ d = view m.out := by
  simp only [setup] at h
  cases hs : single_solution I str interp st (fields i) with
  | error x => rw [hs] at h; cases h
  | ok m =>
    rw [hs] at h
    injection h with h
    exact ⟨m, rfl, h.symm⟩

/-- The steps of a search: number `k + 1` is number `k` with `γ` moved as its kind says, by
a tenth of the first `γ` halved once for each solution from the first change of kind on. -/
def Moves (ops : Stepper.Ops ℝ) (split : Stepper.Splitter) (γ₀ : ℝ) (γs : List ℝ)
    (ms : List Made) : Prop :=
  ∃ kinds : List Stepper.SplitterStatus, kinds.length ≤ ms.length ∧
    ∀ k m γ γ', ms[k]? = some m → γs[k]? = some γ → γs[k + 1]? = some γ' →
      ∃ t, kinds[k]? = some t ∧
        split ((ms.take k).map fun m => view m.out) (view m.out) = .ok t ∧
        Stepper.next_γ ops γ t
          (ops.half^[Stepper.halvings (kinds.take (k + 1))] (ops.tenth γ₀)) = .ok γ'

/-- Why a search succeeded without a solution which ends it: the person said so, or `γ`
can no longer be changed. -/
def Stuck (ops : Stepper.Ops ℝ) (split : Stepper.Splitter) (γ₀ : ℝ) (γs : List ℝ)
    (ms : List Made) : Prop :=
  ∃ m γ t halvings, ms.getLast? = some m ∧ γs.getLast? = some γ ∧
    split (ms.dropLast.map fun m => view m.out) (view m.out) = .ok t ∧
    Stepper.next_γ ops γ t (ops.half^[halvings] (ops.tenth γ₀)) = .error .stop

theorem numbered_filterMap {α β : Type} (f : α → Option β) (xs : List α) (ys : List β)
    (h : xs.map f = ys.map some) :
    (numbered xs).filterMap (fun p => (f p.2).map fun m => (p.1, m)) = numbered ys := by
  unfold numbered
  have key : ∀ (n : ℕ) (xs : List α) (ys : List β), xs.map f = ys.map some →
      ((xs.zipIdx n).map fun p => (p.2.repr, p.1)).filterMap
        (fun p => (f p.2).map fun m => (p.1, m)) =
      (ys.zipIdx n).map fun p => (p.2.repr, p.1) := by
    intro n xs
    induction xs generalizing n with
    | nil =>
      intro ys h
      cases ys with
      | nil => rfl
      | cons y ys => simp at h
    | cons x xs ih =>
      intro ys h
      cases ys with
      | nil => simp at h
      | cons y ys =>
        simp only [List.map_cons, List.cons.injEq] at h
        simp only [List.zipIdx_cons, List.map_cons]
        rw [List.filterMap_cons_some (b := (n.repr, y)) (by simp [h.1]), ih (n + 1) ys h.2]
  exact key 0 xs ys h

theorem history_rest {F R : Type} {c : Stepper.Setup F R} {split : Stepper.Splitter}
    {i₀ i : Stepper.Input F R} {xs : List (Stepper.Attempt F R)}
    {ts : List Stepper.SplitterStatus} (h : Stepper.History c split i₀ xs ts i) :
    i.rest = i₀.rest ∧ ∀ x ∈ xs, x.input.rest = i₀.rest := by
  induction h with
  | start => simp
  | next _ _ _ _ _ _ ih =>
    refine ⟨ih.1, fun x hx => ?_⟩
    rcases List.mem_append.1 hx with hx | hx
    · exact ih.2 x hx
    · simp at hx; subst hx; exact ih.1

theorem exists_map_some {α β : Type} (f : α → Option β) (P : α → β → Prop) (xs : List α)
    (h : ∀ x ∈ xs, ∃ y, f x = some y ∧ P x y) :
    ∃ ys : List β, xs.map f = ys.map some ∧
      ∀ (k : ℕ) x y, xs[k]? = some x → ys[k]? = some y → f x = some y ∧ P x y := by
  induction xs with
  | nil => exact ⟨[], rfl, by simp⟩
  | cons x xs ih =>
    obtain ⟨y, hy⟩ := h x (by simp)
    obtain ⟨ys, h1, h2⟩ := ih fun z hz => h z (by simp [hz])
    refine ⟨y :: ys, by simp [hy, h1], ?_⟩
    intro k a b ha hb
    cases k with
    | zero => simp at ha hb; subst ha hb; exact hy
    | succ k => simp at ha hb; exact h2 k a b ha hb

/-- What a search which returned leaves. -/
theorem step_solver_ok {s : SolutionInput ℝ} {run r : TheRun ℝ Made} {b : Bool}
    (h : step_solver ops human I str interp st s run = (.ok b, r)) :
    ∃ γ₀ method split γs ms,
      s .γ = .float γ₀ ∧ s .split_method = .str method ∧
      Stepper.create_soln_splitter human (String.ofList method) = .ok split ∧
      γs.length = ms.length ∧ γs.head? = some γ₀ ∧ ms.length ≤ 100 ∧
      r = { run with solutions := numbered ms,
                     final := .value (if b then ms.getLast? else none) } ∧
      (∀ (k : ℕ) m γ, ms[k]? = some m → γs[k]? = some γ →
        single_solution I str interp st (Function.update s .γ (.float γ)) = .ok m) ∧
      Moves ops split γ₀ γs ms ∧
      (∀ m ∈ ms.dropLast, ¬ Accepted m.out) ∧
      (b = true → (∃ m, ms.getLast? = some m ∧ Accepted m.out) ∨ Stuck ops split γ₀ γs ms) ∧
      (b = false → ∀ m ∈ ms, ¬ Accepted m.out) := by
  unfold step_solver at h
  cases hγ : s .γ with
  | float γ₀ =>
    cases hm : s .split_method with
    | str method =>
      rw [hγ, hm] at h
      dsimp only at h
      set c := setup ops I str interp st with hcdef
      cases hsp : Stepper.create_soln_splitter human (String.ofList method) with
      | error x =>
        exfalso
        have : Stepper.solver c human (String.ofList method) ⟨γ₀, s⟩
            ({ info := () } : Run Unit (Stepper.Stored ℝ (SolutionInput ℝ)))
            DEFAULT_NUM_ATTEMPTS = (.error (.py x), { info := () }, fun _ => ⟨γ₀, s⟩) := by
          unfold Stepper.solver
          rw [hsp]
        rw [this] at h
        simp [answer] at h
      | ok split =>
        obtain ⟨xs, ts, i, e, as, ss, heap, next, h1, h2, h3, h4, h5⟩ :=
          Stepper.solver_outcome c human (String.ofList method) split ⟨γ₀, s⟩
            ({ info := () } : Run Unit (Stepper.Stored ℝ (SolutionInput ℝ)))
            DEFAULT_NUM_ATTEMPTS hsp setup_flags ⟨rfl, rfl⟩
        rw [h5] at h
        simp only [Prod.mk.injEq] at h
        obtain ⟨hans, hr⟩ := h
        have hrest := history_rest h1
        have hsolved : ∀ a ∈ as, c.solve a.input = .ok a.data ∧ a.input.rest = s := by
          rcases Stepper.ends_stored h3 with rfl | ⟨d, rfl, hd, _⟩
          · exact fun a ha => ⟨(Stepper.history_solved h1 a ha).1, hrest.2 a ha⟩
          · intro a ha
            rcases List.mem_append.1 ha with ha | ha
            · exact ⟨(Stepper.history_solved h1 a ha).1, hrest.2 a ha⟩
            · simp at ha; subst ha; exact ⟨hd, hrest.1⟩
        obtain ⟨ms, hms, hk⟩ := exists_map_some
          (fun a : Stepper.Attempt ℝ (SolutionInput ℝ) =>
            (single_solution I str interp st (fields a.input)).toOption)
          (fun a m => single_solution I str interp st (fields a.input) = .ok m ∧
            a.data = view m.out) as (by
            intro a ha
            obtain ⟨m, hm1, hm2⟩ := setup_solve (hsolved a ha).1
            exact ⟨m, by rw [hm1]; rfl, hm1, hm2⟩)
        have hlen : as.length = ms.length := by
          have := congrArg List.length hms
          simpa using this
        have hat : ∀ k : ℕ, ∀ m, ms[k]? = some m → ∃ a, as[k]? = some a ∧
            single_solution I str interp st (fields a.input) = .ok m ∧ a.data = view m.out := by
          intro k m hm
          have hk' : k < as.length := by
            rw [hlen]
            exact (List.getElem?_eq_some_iff.1 hm).1
          exact ⟨_, List.getElem?_eq_getElem hk',
            (hk k _ _ (List.getElem?_eq_getElem hk') hm).2⟩
        have hdata : as.map (·.data) = ms.map fun m => view m.out := by
          refine List.ext_getElem? fun k => ?_
          simp only [List.getElem?_map]
          by_cases hk' : k < as.length
          · rw [List.getElem?_eq_getElem hk', List.getElem?_eq_getElem (hlen ▸ hk')]
            exact congrArg some (hk k _ _ (List.getElem?_eq_getElem hk')
              (List.getElem?_eq_getElem (hlen ▸ hk'))).2.2
          · rw [List.getElem?_eq_none (by omega), List.getElem?_eq_none (by omega)]
            rfl
        have hss : ss.map (inFile I str interp st) = ms.map some := by
          rw [← hms]
          refine List.ext_getElem? fun k => ?_
          simp only [List.getElem?_map]
          by_cases hk' : k < as.length
          · have hks : k < ss.length := by rw [h4.1]; exact hk'
            rw [List.getElem?_eq_getElem hk', List.getElem?_eq_getElem hks]
            have hl : k < (Stepper.laterInputs as i).length := by rw [h4.2.1]; exact hk'
            obtain ⟨-, r2, -, -⟩ := h4.2.2 k _ _ _ (List.getElem?_eq_getElem hks)
              (List.getElem?_eq_getElem hk') (List.getElem?_eq_getElem hl)
            have r3 : ss[k].saved = some as[k].input := r2
            simp only [Option.map_some, inFile, r3]
          · rw [List.getElem?_eq_none (by rw [h4.1]; omega), List.getElem?_eq_none (by omega)]
            rfl
        have hlast : ss.getLast?.map (inFile I str interp st) = ms.getLast?.map some := by
          rw [← List.getLast?_map, ← List.getLast?_map, hss]
        have hfol := Stepper.ends_follows h1 h3
        have hlen100 : as.length ≤ 100 := by
          rcases Stepper.ends_stored h3 with rfl | ⟨d, rfl, _, hlt⟩
          · exact h2
          · simp only [DEFAULT_NUM_ATTEMPTS] at hlt
            simp; omega
        have hhead := Stepper.history_head h1
        have hheadγ : as ≠ [] → (as.map (·.input.γ)).head? = some γ₀ := by
          intro hne
          have : ∀ a, as.head? = some a → a.input = ⟨γ₀, s⟩ := by
            intro a ha
            rcases Stepper.ends_stored h3 with rfl | ⟨d, rfl, hd, _⟩
            · cases as with
              | nil => simp at ha
              | cons x xs => simp at ha hhead; subst ha; exact hhead
            · cases xs with
              | nil => simp at ha hhead; subst ha; exact hhead
              | cons x xs => simp at ha hhead; subst ha; exact hhead
          cases as with
          | nil => exact absurd rfl hne
          | cons a l => simp [this a rfl]
        have hmoves : Moves ops split γ₀ (as.map (·.input.γ)) ms := by
          refine ⟨ts, ?_, ?_⟩
          · rw [Stepper.history_types h1, ← hlen]
            rcases Stepper.ends_stored h3 with rfl | ⟨d, rfl, _, _⟩ <;> simp
          · intro k m γ γ' hm' hγ1 hγ2
            obtain ⟨a, ha, -, had⟩ := hat k m hm'
            simp only [List.getElem?_map, Option.map_eq_some_iff] at hγ1 hγ2
            obtain ⟨a', ha', rfl⟩ := hγ1
            obtain ⟨b', hb', rfl⟩ := hγ2
            rw [ha] at ha'
            injection ha' with ha'
            subst ha'
            obtain ⟨t, q1, q2, -, q4⟩ := hfol k a b' ha hb'
            refine ⟨t, q1, ?_, q4⟩
            rw [List.map_take, ← hdata, ← List.map_take, ← had]
            exact q2
        have hmem : ∀ m ∈ ms, ∃ a ∈ as, a.data = view m.out := by
          intro m hm'
          obtain ⟨k, hk'⟩ := List.mem_iff_getElem?.1 hm'
          obtain ⟨a, ha, -, had⟩ := hat k m hk'
          exact ⟨a, List.mem_iff_getElem?.2 ⟨k, ha⟩, had⟩
        have hdrop : as.dropLast.map (·.data) = ms.dropLast.map fun m => view m.out := by
          rw [List.map_dropLast, List.map_dropLast, hdata]
        have hdrop_bad : ∀ m ∈ ms.dropLast, ¬ Accepted m.out := by
          intro m hm'
          have : view m.out ∈ as.dropLast.map (·.data) := by
            rw [hdrop]; exact List.mem_map.2 ⟨m, hm', rfl⟩
          obtain ⟨a, ha, had⟩ := List.mem_map.1 this
          rw [← accepted_iff, ← had]
          have hax : a ∈ xs := by
            rcases Stepper.ends_stored h3 with rfl | ⟨d, rfl, _, _⟩
            · exact List.dropLast_subset _ ha
            · rwa [List.dropLast_concat] at ha
          rw [(Stepper.history_solved h1 a hax).2]
          simp
        suffices hkey : as ≠ [] ∧
            r = { run with solutions := numbered ms,
                           final := .value (if b then ms.getLast? else none) } ∧
            (b = true → (∃ m, ms.getLast? = some m ∧ Accepted m.out) ∨
              Stuck ops split γ₀ (as.map (·.input.γ)) ms) ∧
            (b = false → ∀ m ∈ ms, ¬ Accepted m.out) by
          obtain ⟨hne, hr', hb1, hb2⟩ := hkey
          refine ⟨γ₀, method, split, as.map (·.input.γ), ms, rfl, rfl, hsp, by simp [hlen],
            hheadγ hne, hlen ▸ hlen100, hr', fun k m γ hm' hγ' => ?_, hmoves, hdrop_bad, hb1,
            hb2⟩
          obtain ⟨a, ha, hs', -⟩ := hat k m hm'
          simp only [List.getElem?_map, ha, Option.map_some, Option.some.injEq] at hγ'
          have hrst := (hsolved a (List.mem_iff_getElem?.2 ⟨k, ha⟩)).2
          rw [← hs', fields, hrst, hγ']
        rw [numbered_filterMap _ _ _ hss] at hr
        have hlastms : ∀ d, as = xs ++ [⟨i, d⟩] → ∃ m, ms.getLast? = some m ∧ d = view m.out := by
          intro d hd
          have := congrArg List.getLast? hdata
          rw [hd, List.map_append, List.map_cons, List.map_nil, List.getLast?_concat,
            List.getLast?_map] at this
          cases hm' : ms.getLast? with
          | none => rw [hm'] at this; cases this
          | some m =>
            rw [hm'] at this
            exact ⟨m, rfl, Option.some.inj this⟩
        have hfinal : finalInFile I str interp st (.value ss.getLast?) = .value ms.getLast? := by
          cases hl : ss.getLast? with
          | none =>
            rw [hl] at hlast
            cases hl' : ms.getLast? with
            | none => rfl
            | some m => rw [hl'] at hlast; cases hlast
          | some x =>
            rw [hl] at hlast
            cases hl' : ms.getLast? with
            | none => rw [hl'] at hlast; cases hlast
            | some m =>
              rw [hl'] at hlast
              exact congrArg Final.value (Option.some.inj hlast)
        cases h3 with
        | exhausted hn =>
          simp only [Stepper.answerFor, answer, Except.ok.injEq] at hans
          subst hans
          refine ⟨?_, hr.symm, fun h => absurd h (by simp [c, setup]), fun _ m hm' => ?_⟩
          · rintro rfl; simp [DEFAULT_NUM_ATTEMPTS] at hn
          · obtain ⟨a, ha, had⟩ := hmem m hm'
            rw [← accepted_iff, ← had, (Stepper.history_solved h1 a ha).2]
            simp
        | noSolution => simp [Stepper.answerFor, answer] at hans
        | noType => simp [Stepper.answerFor, answer] at hans
        | hangs => simp [Stepper.answerFor, answer] at hans
        | @found d _ _ hb =>
          simp only [Stepper.answerFor, answer, Except.ok.injEq] at hans
          subst hans
          refine ⟨by simp, hr.symm.trans ?_, fun _ => Or.inl ?_, fun h => by cases h⟩
          · rw [if_pos rfl, ← hfinal]; rfl
          · obtain ⟨m, hm1, hm2⟩ := hlastms d rfl
            exact ⟨m, hm1, by rw [← accepted_iff, ← hm2]; exact hb⟩
        | @gaveUp d t _ _ hb _ _ _ =>
          simp only [Stepper.answerFor, answer, Except.ok.injEq] at hans
          subst hans
          refine ⟨by simp, hr.symm, fun h => absurd h (by simp [c, setup]), fun _ m hm' => ?_⟩
          obtain ⟨a, ha, had⟩ := hmem m hm'
          rw [← accepted_iff, ← had]
          rcases List.mem_append.1 ha with ha | ha
          · rw [(Stepper.history_solved h1 a ha).2]; simp
          · simp at ha; subst ha
            simp only [hb]; simp
        | @stopped d t _ _ hb ht _ hn =>
          simp only [Stepper.answerFor, answer, Except.ok.injEq] at hans
          subst hans
          refine ⟨by simp, hr.symm.trans ?_, fun _ => Or.inr ?_, fun h => by cases h⟩
          · rw [if_pos rfl, ← hfinal]; rfl
          · obtain ⟨m, hm1, hm2⟩ := hlastms d rfl
            refine ⟨m, i.γ, t, _, hm1, by simp, ?_, hn⟩
            rw [← hdrop, List.dropLast_concat, ← hm2]
            exact ht
    | _ => rw [hγ, hm] at h; simp at h
  | _ => rw [hγ] at h; simp at h

/-! ## From the configuration file -/

theorem other_field (s : SolutionInput ℝ) (γ : ℝ) (f : SField) (h : f ≠ .γ) :
    Function.update s SField.γ (.float γ) f = s f :=
  Function.update_of_ne h _ _

theorem numInput_γ {s : SolutionInput ℝ} {inp : NumInput} (h : numInput s = .ok inp) (γ : ℝ) :
    numInput (Function.update s .γ (.float γ)) = .ok { inp with γ := γ } := by
  obtain ⟨i1, i2, i3, i4, i5, i6, i7, i8, i9, i10, i11⟩ := numInput_ok h
  have hc : count (.int (inp.num_angles : ℤ)) = .ok inp.num_angles := by rw [count_ok]
  unfold numInput
  rw [Function.update_self, other_field s γ .v_rin_on_c_s (by decide),
    other_field s γ .v_a_on_c_s (by decide), other_field s γ .c_s_on_v_k (by decide),
    other_field s γ .η_O (by decide), other_field s γ .η_A (by decide),
    other_field s γ .η_H (by decide), other_field s γ .use_E_r (by decide),
    other_field s γ .start (by decide), other_field s γ .stop (by decide),
    other_field s γ .num_angles (by decide), i1, i2, i3, i5, i6, i7, i8, i9, i10, i11]
  simp only [real, SingleRun.bool, hc]
  rfl

theorem tolerances_γ (s : SolutionInput ℝ) (γ : ℝ) :
    tolerances (Function.update s .γ (.float γ)) = tolerances s := by
  unfold tolerances
  rw [other_field s γ .absolute_tolerance (by decide),
    other_field s γ .relative_tolerance (by decide), other_field s γ .max_steps (by decide)]

theorem solveOpts_γ (s : SolutionInput ℝ) (γ : ℝ) :
    solveOpts (Function.update s .γ (.float γ)) = solveOpts s := by
  unfold solveOpts
  rw [other_field s γ .η_derivs (by decide), other_field s γ .use_taylor_jump (by decide),
    other_field s γ .jump_before_sonic (by decide), other_field s γ .v_θ_sonic_crit (by decide),
    other_field s γ .after_sonic (by decide), other_field s γ .sonic_interp_size (by decide),
    other_field s γ .interp_slice (by decide), other_field s γ .use_E_r (by decide),
    other_field s γ .taylor_stop_angle (by decide)]

/-- C105. `ds-soln --sonic-method step`, from the text of a configuration file to the file
it writes.  On return one new file was written, whose name is printed, and it holds the
solutions of at most a hundred attempts in order.  Each is the one the integrator found,
to the tolerances asked for, for the numbers asked for with nothing but `γ` changed; the
first has the `γ` asked for, and the others follow by the rule of the search.  None but
the last is acceptable.  If the exit status is zero, the last is the final solution, and
it is acceptable or the search could not go on; if it is one, no solution is acceptable
and there is no final solution. -/
theorem search_end_to_end (e : Env ℝ) (ops : Stepper.Ops ℝ)
    (human : List Stepper.SolnData → Stepper.SplitterStatus)
    (I : Tolerances → Integrator) (str : ℝ → String)
    (interp : List ℝ → List ℝ → Option (ℝ → ℝ))
    (others : Bool → String → Runners.Solver ℝ Made) (read : String → Option Text)
    (config_file : String) (given : List Occ) (fs : FS ℝ Made) (d : Doc) (hd : d.Good)
    (hread : read config_file = some d.text) (ht : CliSolve.Typed given)
    (ha : Cli.accepted soln_options given = true) (hk : KnownFields given)
    (hm : textGiven given "--sonic-method" = some "step") (n : ℕ)
    (hn : (ds_soln e (methods ops human I str interp others) read config_file given fs).status =
      .ok n) :
    ∃ p r γs ms inp o t method split,
      (ds_soln e (methods ops human I str interp others) read config_file given fs).printed =
        [p] ∧
      fs.get? p = none ∧
      (∀ q, q ≠ p →
        (ds_soln e (methods ops human I str interp others) read config_file given fs).fs.get? q =
          fs.get? q) ∧
      (ds_soln e (methods ops human I str interp others) read config_file given fs).fs.get? p =
        some (.run r) ∧
      r.info.config_filename = some config_file ∧ r.info.sonic_method = "step" ∧
      (∀ f : CField, ∃ v, Asked d given f.name v ∧
        r.info.config_input f = some (kept f.name v)) ∧
      States e.conv d given inp ∧ Options e.conv d given o t ∧
      Asked d given "split_method" method ∧
      Stepper.create_soln_splitter human (String.ofList method) = .ok split ∧
      r.solutions = numbered ms ∧ ms ≠ [] ∧ ms.length ≤ 100 ∧
      γs.length = ms.length ∧ γs.head? = some inp.γ ∧
      (∀ (k : ℕ) m γ, ms[k]? = some m → γs[k]? = some γ →
        m.solution_input .γ = .float γ ∧
        define_conditions { inp with γ := γ } = some m.initial_conditions ∧
        (solution (I t) str interp o m.initial_conditions
          { store_internal := !isGiven given "--no-store-internal" }).result = .ok m.out) ∧
      Moves ops split inp.γ γs ms ∧
      (∀ m ∈ ms.dropLast, ¬ Accepted m.out) ∧
      ((n = 0 ∧ r.final = .value ms.getLast? ∧
          ((∃ m, ms.getLast? = some m ∧ Accepted m.out) ∨ Stuck ops split inp.γ γs ms)) ∨
        (n = 1 ∧ r.final = .value none ∧ ∀ m ∈ ms, ¬ Accepted m.out)) := by
  obtain ⟨ov, h1, h2⟩ := soln_effective e (methods ops human I str interp others) read
    config_file given fs ht ha hk
  rw [h2] at hn ⊢
  rw [hm] at hn ⊢
  rcases hs : solve e
    (methods ops human I str interp others (!isGiven given "--no-store-internal"))
    ⟨textGiven given "--output-file", (some "step").getD "single",
      config_file, (textGiven given "--output-dir").getD ".", some ov⟩
    (read config_file) fs with ⟨x | ⟨p, b⟩, fs'⟩
  · rw [hs] at hn
    cases hn
  · rw [hs] at hn
    obtain ⟨k1, k2, c, s, r, r', k3, k4, -, k5, k6, -, -, -, k7⟩ :=
      solve_ok _ _ _ _ _ _ _ _ hs
    dsimp only at k3 k5
    rw [hread, asked_config hd hk h1] at k3
    obtain ⟨-, hc⟩ := k3
    have hmeth : methods ops human I str interp others (!isGiven given "--no-store-internal")
        "step" = step_solver ops human I str interp (!isGiven given "--no-store-internal") := by
      unfold methods SingleRun.methods
      rw [if_neg (by decide)]
      exact if_pos rfl
    have hget : (some "step").getD "single" = "step" := rfl
    rw [hget, hmeth] at k5
    obtain ⟨γ₀, method, split, γs, ms, q1, q2, q3, q4, q5, q6, q7, q8, q9, q10, q11, q12⟩ :=
      step_solver_ok k5
    subst q7
    rw [finalise_set _ _ rfl] at k7
    injection k7 with k7
    subst k7
    have hne : ms ≠ [] := by
      rintro rfl
      cases γs with
      | nil => simp at q5
      | cons a l => simp at q4
    obtain ⟨m₀, ms', rfl⟩ := List.exists_cons_of_ne_nil hne
    have hm₀ := q8 0 m₀ γ₀ rfl (by rw [← List.head?_eq_getElem?]; exact q5)
    have hself : Function.update s SField.γ (.float γ₀) = s := by
      rw [← q1, Function.update_eq_self]
    rw [hself] at hm₀
    obtain ⟨-, inp, t, o, hi, htol, ho, -, -⟩ := single_solution_ok hm₀
    obtain ⟨hS, hO⟩ := states_options hc k4 hi htol ho
    have hγ : inp.γ = γ₀ := by
      obtain ⟨-, -, -, i4, -⟩ := numInput_ok hi
      rw [q1] at i4
      injection i4 with i4
      exact i4.symm
    have hmethod : Asked d given "split_method" method := by
      obtain ⟨v, hv, hcv⟩ := hc (.s .split_method)
      have := (to_soln_input_ok e.conv c s).1 k4 .split_method
      rw [hcv, q2] at this
      simp only [readField, SField.kind, Except.ok.injEq, SVal.str.injEq] at this
      rw [kept_eq .split_method v rfl] at this
      rw [← this]
      exact hv
    refine ⟨p, _, γs, m₀ :: ms', inp, o, t, method, split, rfl, k1, k2, k6, rfl, rfl, hc, hS, hO,
      hmethod, q3, rfl, hne, q6, q4, by rw [hγ]; exact q5, fun k m γ hmk hγk => ?_,
      by rw [hγ]; exact q9, q10, ?_⟩
    · have hsol := q8 k m γ hmk hγk
      obtain ⟨z1, inp', t', o', z2, z3, z4, z5, z6⟩ := single_solution_ok hsol
      rw [numInput_γ hi] at z2
      rw [tolerances_γ, htol] at z3
      rw [solveOpts_γ, ho] at z4
      injection z2 with z2
      injection z3 with z3
      injection z4 with z4
      subst z2 z3 z4
      exact ⟨by rw [z1, Function.update_self], z5, z6⟩
    · injection hn with hn
      cases b with
      | true => exact Or.inl ⟨hn.symm, rfl, by rw [hγ]; exact q11 rfl⟩
      | false => exact Or.inr ⟨hn.symm, rfl, q12 rfl⟩

/-! ## Exact arithmetic -/

theorem splitter_never_stops (s : Stepper.SolnData) :
    Stepper.v_θ_deriv_splitter s ≠ .ok .STOP := by
  unfold Stepper.v_θ_deriv_splitter
  dsimp only
  cases s.internal with
  | none =>
    dsimp only
    split_ifs <;> simp
  | some d =>
    dsimp only
    generalize d.derivs[(Stepper.iv_θ : ℕ)]? = o
    cases o <;> dsimp only <;> split_ifs <;> simp

theorem step_ne_zero {γ₀ : ℝ} (h : γ₀ ≠ 0) (k : ℕ) :
    Stepper.realOps.half^[k] (Stepper.realOps.tenth γ₀) ≠ 0 := by
  rw [Stepper.half_iterate]
  have : Stepper.realOps.tenth γ₀ = 0.1 * γ₀ := rfl
  rw [this]
  positivity

/-- C105. With exact arithmetic, the automatic choice of kinds and a `γ` which is not zero,
every step of the search is a tenth of the first `γ` halved a number of times which never
falls: down after a solution which diverges, up after a sign flip. -/
theorem moves_exact {γ₀ : ℝ} (h0 : γ₀ ≠ 0) {γs : List ℝ} {ms : List Made}
    (h : Moves Stepper.realOps (fun _ s => Stepper.v_θ_deriv_splitter s) γ₀ γs ms) :
    ∃ halved : ℕ → ℕ, Monotone halved ∧ halved 0 = 0 ∧
      ∀ (k : ℕ) m γ γ', ms[k]? = some m → γs[k]? = some γ → γs[k + 1]? = some γ' →
        (Stepper.v_θ_deriv_splitter (view m.out) = .ok .DIVERGE ∧
          γ' = γ - 0.1 * γ₀ / 2 ^ halved k) ∨
        (Stepper.v_θ_deriv_splitter (view m.out) = .ok .SIGN_FLIP ∧
          γ' = γ + 0.1 * γ₀ / 2 ^ halved k) := by
  obtain ⟨kinds, -, h⟩ := h
  refine ⟨fun k => Stepper.halvings (kinds.take (k + 1)), ?_, ?_, ?_⟩
  · refine monotone_nat_of_le_succ fun k => ?_
    by_cases hk : k + 1 < kinds.length
    · rw [List.take_add_one (i := k + 1), List.getElem?_eq_getElem hk, Option.toList_some,
        Stepper.halvings_step]
      omega
    · rw [List.take_of_length_le (by omega), List.take_of_length_le (by omega)]
  · cases kinds with
    | nil => rfl
    | cons a l => simp [Stepper.halvings]
  · intro k m γ γ' h1 h2 h3
    obtain ⟨t, -, q2, q3⟩ := h k m γ γ' h1 h2 h3
    have hs := step_ne_zero h0 (Stepper.halvings (kinds.take (k + 1)))
    have hval : Stepper.realOps.half^[Stepper.halvings (kinds.take (k + 1))]
        (Stepper.realOps.tenth γ₀) = 0.1 * γ₀ / 2 ^ Stepper.halvings (kinds.take (k + 1)) := by
      rw [Stepper.half_iterate]; rfl
    cases t with
    | STOP => exact absurd q2 (splitter_never_stops _)
    | DIVERGE =>
      rw [(Stepper.next_γ_exact _ _ hs).1, hval] at q3
      injection q3 with q3
      exact Or.inl ⟨q2, q3.symm⟩
    | SIGN_FLIP =>
      rw [(Stepper.next_γ_exact _ _ hs).2, hval] at q3
      injection q3 with q3
      exact Or.inr ⟨q2, q3.symm⟩

theorem not_stuck {γ₀ : ℝ} (h0 : γ₀ ≠ 0) {γs : List ℝ} {ms : List Made} :
    ¬ Stuck Stepper.realOps (fun _ s => Stepper.v_θ_deriv_splitter s) γ₀ γs ms := by
  rintro ⟨m, γ, t, k, -, -, h1, h2⟩
  have hs := step_ne_zero h0 k
  cases t with
  | STOP => exact splitter_never_stops _ h1
  | DIVERGE => rw [(Stepper.next_γ_exact _ _ hs).1] at h2; cases h2
  | SIGN_FLIP => rw [(Stepper.next_γ_exact _ _ hs).2] at h2; cases h2

/-- C105. With exact arithmetic, the automatic choice of kinds and a `γ` which is not zero,
the exit status is zero exactly if an acceptable solution was found, and that is the final
one; otherwise it is one, there is no final solution and none of the stored ones is
acceptable. -/
theorem search_status (e : Env ℝ)
    (human : List Stepper.SolnData → Stepper.SplitterStatus)
    (I : Tolerances → Integrator) (str : ℝ → String)
    (interp : List ℝ → List ℝ → Option (ℝ → ℝ))
    (others : Bool → String → Runners.Solver ℝ Made) (read : String → Option Text)
    (config_file : String) (given : List Occ) (fs : FS ℝ Made) (d : Doc) (hd : d.Good)
    (hread : read config_file = some d.text) (ht : CliSolve.Typed given)
    (ha : Cli.accepted soln_options given = true) (hk : KnownFields given)
    (hm : textGiven given "--sonic-method" = some "step")
    (hsplit : Asked d given "split_method" "v_θ_deriv".toList) (γ₀ : ℝ)
    (hγ : Number e.conv d given "γ" γ₀) (h0 : γ₀ ≠ 0) (n : ℕ)
    (hn : (ds_soln e (methods Stepper.realOps human I str interp others) read config_file
      given fs).status = .ok n) :
    ∃ p r ms,
      (ds_soln e (methods Stepper.realOps human I str interp others) read config_file given
        fs).printed = [p] ∧
      (ds_soln e (methods Stepper.realOps human I str interp others) read config_file given
        fs).fs.get? p = some (.run r) ∧
      r.solutions = numbered ms ∧
      ((n = 0 ∧ ∃ m, ms.getLast? = some m ∧ r.final = .value (some m) ∧ Accepted m.out) ∨
        (n = 1 ∧ r.final = .value none ∧ ∀ m ∈ ms, ¬ Accepted m.out)) := by
  obtain ⟨p, r, γs, ms, inp, o, t, method, split, h1, -, -, h2, -, -, -, h3, -, h4, h5, h6, -, -,
    -, -, -, -, -, h7⟩ := search_end_to_end e Stepper.realOps human I str interp others read
      config_file given fs d hd hread ht ha hk hm n hn
  refine ⟨p, r, ms, h1, h2, h6, ?_⟩
  obtain rfl := asked_unique hd given (.s .split_method) h4 hsplit
  have hs : split = fun _ s => Stepper.v_θ_deriv_splitter s := by
    have : Stepper.create_soln_splitter human (String.ofList "v_θ_deriv".toList) =
        .ok fun _ s => Stepper.v_θ_deriv_splitter s := by
      unfold Stepper.create_soln_splitter
      rw [if_pos (by simp)]
    rw [this] at h5
    injection h5 with h5
    exact h5.symm
  subst hs
  have hγ' : inp.γ = γ₀ := by
    obtain ⟨v, hv, hx⟩ := h3.γ
    obtain ⟨w, hw, hy⟩ := hγ
    obtain rfl := asked_unique hd given (.s .γ) hv hw
    rw [hx] at hy
    injection hy
  rw [hγ'] at h7
  rcases h7 with ⟨q1, q2, ⟨m, q3, q4⟩ | q3⟩ | q
  · exact Or.inl ⟨q1, m, q3, by rw [q2, q3], q4⟩
  · exact absurd q3 (not_stuck h0)
  · exact Or.inr q

/-! ## When a search returns -/

theorem splitter_total (o : SolutionOut)
    (h : ∀ d, o.internal_data = some d → 6 ≤ d.derivs.length) :
    ∃ t, Stepper.v_θ_deriv_splitter (view o) = .ok t := by
  unfold Stepper.v_θ_deriv_splitter
  dsimp only
  cases hi : (view o).internal with
  | none =>
    dsimp only
    split_ifs <;> exact ⟨_, rfl⟩
  | some d =>
    have : ∃ d', o.internal_data = some d' ∧ d = ⟨d'.problems, d'.derivs.map row⟩ := by
      simp only [view, Option.map_eq_some_iff] at hi
      obtain ⟨d', h1, h2⟩ := hi
      exact ⟨d', h1, h2.symm⟩
    obtain ⟨d', h1, rfl⟩ := this
    have hl := h d' h1
    have hlt : (Stepper.iv_θ : ℕ) < (d'.derivs.map row).length := by
      rw [List.length_map]
      exact hl
    dsimp only
    rw [List.getElem?_eq_getElem hlt]
    dsimp only
    split_ifs <;> exact ⟨_, rfl⟩

theorem step_size (γ₀ : ℝ) (k : ℕ) :
    |Stepper.realOps.half^[k] (Stepper.realOps.tenth γ₀)| ≤ 0.1 * |γ₀| := by
  rw [Stepper.half_iterate]
  have : Stepper.realOps.tenth γ₀ = 0.1 * γ₀ := rfl
  rw [this, abs_div, abs_mul, abs_of_pos (show (0 : ℝ) < 0.1 by norm_num),
    abs_of_pos (show (0 : ℝ) < 2 ^ k by positivity)]
  exact div_le_self (by positivity) (one_le_pow₀ (by norm_num))

theorem history_near {c : Stepper.Setup ℝ (SolutionInput ℝ)} (hc : c.ops = Stepper.realOps)
    {split : Stepper.Splitter} {i₀ i : Stepper.Input ℝ (SolutionInput ℝ)} (h0 : i₀.γ ≠ 0)
    {xs : List (Stepper.Attempt ℝ (SolutionInput ℝ))} {ts : List Stepper.SplitterStatus}
    (h : Stepper.History c split i₀ xs ts i) :
    |i.γ - i₀.γ| ≤ xs.length * (0.1 * |i₀.γ|) := by
  induction h with
  | start => simp
  | @next xs ts i d t γ h1 _ _ _ _ hn ih =>
    rw [hc] at hn
    have hs := step_ne_zero h0 (Stepper.halvings (ts ++ [t]))
    have hb := step_size i₀.γ (Stepper.halvings (ts ++ [t]))
    unfold Stepper.stepAfter at hn
    generalize Stepper.realOps.half^[Stepper.halvings (ts ++ [t])]
      (Stepper.realOps.tenth i₀.γ) = x at hn hs hb
    have : |γ - i.γ| ≤ 0.1 * |i₀.γ| := by
      cases t with
      | STOP => simp [Stepper.next_γ] at hn
      | DIVERGE =>
        rw [(Stepper.next_γ_exact _ _ hs).1] at hn
        injection hn with hn
        rw [← hn, show i.γ - x - i.γ = -x by ring, abs_neg]
        exact hb
      | SIGN_FLIP =>
        rw [(Stepper.next_γ_exact _ _ hs).2] at hn
        injection hn with hn
        rw [← hn, show i.γ + x - i.γ = x by ring]
        exact hb
    have htri : |γ - i₀.γ| ≤ |γ - i.γ| + |i.γ - i₀.γ| := abs_sub_le _ _ _
    simp only [List.length_append, List.length_cons, List.length_nil, Nat.cast_add,
      Nat.cast_one, zero_add]
    linarith

/-- The search returns if every input it may try can be solved. -/
theorem step_solver_returns {human : List Stepper.SolnData → Stepper.SplitterStatus}
    {I : Tolerances → Integrator} {str : ℝ → String}
    {interp : List ℝ → List ℝ → Option (ℝ → ℝ)} {st : Bool}
    {s : SolutionInput ℝ} (run : TheRun ℝ Made) {γ₀ : ℝ} (hγ : s .γ = .float γ₀) (h0 : γ₀ ≠ 0)
    (hm : s .split_method = .str "v_θ_deriv".toList)
    (hsol : ∀ γ, |γ - γ₀| ≤ 10 * |γ₀| →
      ∃ m, single_solution I str interp st (Function.update s .γ (.float γ)) = .ok m ∧
        ∀ d, m.out.internal_data = some d → 6 ≤ d.derivs.length) :
    ∃ b r f, step_solver Stepper.realOps human I str interp st s run = (.ok b, r) ∧
      r.final = .value f := by
  have hsp : Stepper.create_soln_splitter human (String.ofList "v_θ_deriv".toList) =
      .ok fun _ s => Stepper.v_θ_deriv_splitter s := by
    unfold Stepper.create_soln_splitter
    rw [if_pos (by simp)]
  obtain ⟨xs, ts, i, e, as, ss, heap, next, h1, h2, h3, -, h5⟩ :=
    Stepper.solver_outcome (setup Stepper.realOps I str interp st) human _ _ ⟨γ₀, s⟩
      ({ info := () } : Run Unit (Stepper.Stored ℝ (SolutionInput ℝ)))
      DEFAULT_NUM_ATTEMPTS hsp setup_flags ⟨rfl, rfl⟩
  have hrest := (history_rest h1).1
  have hnear : |i.γ - γ₀| ≤ 10 * |γ₀| := by
    have h4 := history_near rfl h0 h1
    have h6 : (xs.length : ℝ) ≤ 100 := by exact_mod_cast h2
    have h7 : (xs.length : ℝ) * (0.1 * |γ₀|) ≤ 100 * (0.1 * |γ₀|) :=
      mul_le_mul_of_nonneg_right h6 (by positivity)
    dsimp only at h4
    linarith
  obtain ⟨m, hm1, hm2⟩ := hsol i.γ hnear
  have hsolve : (setup Stepper.realOps I str interp st).solve i = .ok (view m.out) := by
    show (single_solution I str interp st (fields i)).map (fun m => view m.out) = _
    rw [fields, hrest, hm1]
    rfl
  obtain ⟨t, ht⟩ := splitter_total m.out hm2
  suffices ∃ b, Stepper.answerFor (setup Stepper.realOps I str interp st) e = .ok b ∧
      (finalInFile I str interp st
        (Stepper.finalFor (setup Stepper.realOps I str interp st) ss e)) ≠ .delayed by
    obtain ⟨b, hb, hf⟩ := this
    have : ∃ f, finalInFile I str interp st
        (Stepper.finalFor (setup Stepper.realOps I str interp st) ss e) = .value f := by
      cases hx : finalInFile I str interp st
        (Stepper.finalFor (setup Stepper.realOps I str interp st) ss e) with
      | delayed => exact absurd hx hf
      | value f => exact ⟨f, rfl⟩
    obtain ⟨f, hf⟩ := this
    refine ⟨b, { run with
      solutions := (numbered ss).filterMap fun p =>
        (inFile I str interp st p.2).map fun m => (p.1, m)
      final := finalInFile I str interp st
        (Stepper.finalFor (setup Stepper.realOps I str interp st) ss e) }, f, ?_, hf⟩
    · unfold step_solver
      rw [hγ, hm]
      dsimp only
      rw [h5, hb]
      rfl
  have hset : ∀ l : Option (Stepper.Stored ℝ (SolutionInput ℝ)),
      finalInFile I str interp st (.value l) ≠ .delayed := by
    intro l
    cases l <;> simp [finalInFile]
  have hno : (setup Stepper.realOps I str interp st).no_final_solution = false := rfl
  cases h3 with
  | exhausted => exact ⟨_, rfl, by simp [Stepper.finalFor, hno, hset]⟩
  | found => exact ⟨_, rfl, by simp [Stepper.finalFor, hno, hset]⟩
  | gaveUp => exact ⟨_, rfl, by simp [Stepper.finalFor, hno, hset]⟩
  | stopped => exact ⟨_, rfl, by simp [Stepper.finalFor, hno, hset]⟩
  | noSolution _ h => rw [hsolve] at h; cases h
  | noType _ h _ h' =>
    rw [hsolve] at h
    injection h with h
    subst h
    rw [ht] at h'
    cases h'
  | @hangs d t' _ _ _ h' _ h =>
    have hs := step_ne_zero h0 (Stepper.halvings (ts ++ [t']))
    have hops : (setup Stepper.realOps I str interp st).ops = Stepper.realOps := rfl
    rw [hops, Stepper.stepAfter] at h
    cases t' with
    | STOP => simp [Stepper.next_γ] at h
    | DIVERGE => rw [(Stepper.next_γ_exact _ _ hs).1] at h; cases h
    | SIGN_FLIP => rw [(Stepper.next_γ_exact _ _ hs).2] at h; cases h

/-- C105. A search which is asked for always returns, with exact arithmetic and a `γ` which
is not zero, if the equations can be solved for every `γ` within ten times its size, and
there are at least six derivatives or none stored (the fewest the choice of the kind can
do with). -/
theorem search_returns (e : Env ℝ)
    (human : List Stepper.SolnData → Stepper.SplitterStatus)
    (I : Tolerances → Integrator) (str : ℝ → String)
    (interp : List ℝ → List ℝ → Option (ℝ → ℝ))
    (others : Bool → String → Runners.Solver ℝ Made) (read : String → Option Text)
    (config_file : String) (given : List Occ) (fs : FS ℝ Made) (d : Doc) (hd : d.Good)
    (hread : read config_file = some d.text) (ht : CliSolve.Typed given)
    (ha : Cli.accepted soln_options given = true) (hk : KnownFields given)
    (hm : textGiven given "--sonic-method" = some "step")
    (hsplit : Asked d given "split_method" "v_θ_deriv".toList)
    (hall : ∀ f : CField, ∃ v, InFile d f.name v)
    (hreads : ∀ (f : SField) v, Asked d given f.name v →
      ∃ x, readField e.conv f.kind (some (kept f.name v)) = .ok x)
    (name : String)
    (hname : textGiven given "--output-file" = some name ∨
      textGiven given "--output-file" = none ∧
        ∃ v, Asked d given "label" v ∧ name = String.ofList v ++ (e.now ++ ".hdf5"))
    (hfree : fs.get? (e.path ((textGiven given "--output-dir").getD ".") name) = none)
    (hw : e.writable (e.path ((textGiven given "--output-dir").getD ".") name) = true)
    (inp : NumInput) (o : SolveOpts) (t : Tolerances)
    (hS : States e.conv d given inp) (hO : Options e.conv d given o t) (h0 : inp.γ ≠ 0)
    (hsol : ∀ γ, |γ - inp.γ| ≤ 10 * |inp.γ| → ∃ c out,
      define_conditions { inp with γ := γ } = some c ∧
      (solution (I t) str interp o c
        { store_internal := !isGiven given "--no-store-internal" }).result = .ok out ∧
      ∀ d, out.internal_data = some d → 6 ≤ d.derivs.length) :
    ∃ n, (ds_soln e (methods Stepper.realOps human I str interp others) read config_file given
        fs).status = .ok n ∧
      (ds_soln e (methods Stepper.realOps human I str interp others) read config_file given
        fs).printed = [e.path ((textGiven given "--output-dir").getD ".") name] := by
  obtain ⟨s, z, run, hnum, htol, hopt, hz', hf, g, -⟩ := soln_runs e
    (methods Stepper.realOps human I str interp others)
    read config_file given fs d hd hread ht ha hk hall hreads name hname hfree hw inp o t hS hO
  have hγ : s .γ = .float inp.γ := (numInput_ok hnum).2.2.2.1
  have hsm : s .split_method = .str "v_θ_deriv".toList := by
    have := hf .split_method _ hsplit
    have hk' : kept SField.split_method.name "v_θ_deriv".toList = "v_θ_deriv".toList := by decide
    rw [hk'] at this
    injection this with this
    exact this.symm
  obtain ⟨b, r, f, hr, hfin⟩ := step_solver_returns (human := human) (I := I) (str := str)
    (interp := interp) (st := !isGiven given "--no-store-internal") { info := run } hγ h0 hsm (by
      intro γ hg
      obtain ⟨c, out, hc, hout, h6⟩ := hsol γ hg
      refine ⟨⟨Function.update s .γ (.float γ), c, out⟩, ?_, h6⟩
      have hres : (solution (I t) str interp { o with interp_slice := z } c
          { store_internal := !isGiven given "--no-store-internal" }).result = .ok out := by
        by_cases hi : o.sonic_interp_size = none
        · rw [solution_slice _ _ _ _ _ _ _ hi]; exact hout
        · rw [hz' hi]; exact hout
      simp only [single_solution, conditions, numInput_γ hnum, tolerances_γ, htol, solveOpts_γ,
        hopt, hc, Bind.bind, Except.bind, hres, pure, Except.pure])
  have hmeth : methods Stepper.realOps human I str interp others
      (!isGiven given "--no-store-internal") ((textGiven given "--sonic-method").getD "single") =
      step_solver Stepper.realOps human I str interp (!isGiven given "--no-store-internal") := by
    rw [hm]
    unfold methods SingleRun.methods
    rw [if_neg (by decide)]
    exact if_pos rfl
  rw [← hmeth] at hr
  exact ⟨_, g b r _ hr (finalise_set _ _ hfin)⟩

/-! ## A case -/

/-- `--override γ 0.001 --override num_angles 3 --sonic-method step --no-store-internal`. -/
def witSearch : List Occ :=
  witGiven ++ [("--sonic-method", .str "step"), ("--no-store-internal", .none)]

theorem witSearch_override (n : String) : overrideGiven witSearch n = overrideGiven witGiven n :=
  rfl

theorem witSearch_asked {n : String} {v : Text} (h : Asked witDoc witGiven n v) :
    Asked witDoc witSearch n v := by
  unfold Asked at h ⊢
  rw [witSearch_override]
  exact h

theorem witSearch_asked' {n : String} {v : Text} (h : Asked witDoc witSearch n v) :
    Asked witDoc witGiven n v := by
  unfold Asked at h ⊢
  rw [witSearch_override] at h
  exact h

theorem witSearch_number {n : String} {x : ℝ} (h : Number witConvR witDoc witGiven n x) :
    Number witConvR witDoc witSearch n x :=
  let ⟨v, hv, hx⟩ := h
  ⟨v, witSearch_asked hv, hx⟩

theorem witSearch_truth {n : String} {b : Bool} (h : Truth witConvR witDoc witGiven n b) :
    Truth witConvR witDoc witSearch n b :=
  let ⟨v, hv, hx⟩ := h
  ⟨v, witSearch_asked hv, hx⟩

theorem witSearch_whole {n : String} {k : Option Int} (h : Whole witConvR witDoc witGiven n k) :
    Whole witConvR witDoc witSearch n k :=
  let ⟨v, hv, hx⟩ := h
  ⟨v, witSearch_asked hv, hx⟩

theorem witSearch_opt {n : String} {x : Option ℝ} (h : OptNumber witConvR witDoc witGiven n x) :
    OptNumber witConvR witDoc witSearch n x :=
  let ⟨v, hv, hx⟩ := h
  ⟨v, witSearch_asked hv, hx⟩

theorem witSearch_states : States witConvR witDoc witSearch witInp :=
  let h := wit_states
  ⟨witSearch_number h.start, witSearch_number h.stop, witSearch_whole h.num_angles,
    witSearch_number h.γ, witSearch_number h.v_rin_on_c_s, witSearch_number h.v_a_on_c_s,
    witSearch_number h.c_s_on_v_k, witSearch_number h.η_O, witSearch_number h.η_A,
    witSearch_number h.η_H, witSearch_truth h.use_E_r⟩

theorem witSearch_options : Options witConvR witDoc witSearch witOpts witTol :=
  let h := wit_options
  { taylor_stop_angle := witSearch_number h.taylor_stop_angle
    η_derivs := witSearch_truth h.η_derivs
    use_taylor_jump := witSearch_truth h.use_taylor_jump
    jump_before_sonic := witSearch_opt h.jump_before_sonic
    v_θ_sonic_crit := witSearch_opt h.v_θ_sonic_crit
    after_sonic := witSearch_opt h.after_sonic
    sonic_interp_size := witSearch_opt h.sonic_interp_size
    use_E_r := witSearch_truth h.use_E_r
    relative := witSearch_number h.relative
    absolute := witSearch_number h.absolute
    max_steps := witSearch_whole h.max_steps
    interp_slice := fun h => absurd rfl h }

theorem witSearch_typed : CliSolve.Typed witSearch := by
  constructor
  · intro name hn v hv
    simp only [witSearch, witGiven, List.cons_append, List.nil_append, List.mem_cons,
      Prod.mk.injEq, List.not_mem_nil, or_false] at hv
    have h1 : "--override" ∉ wordOptions := by decide
    have h2 : "--no-store-internal" ∉ wordOptions := by decide
    rcases hv with ⟨rfl, -⟩ | ⟨rfl, -⟩ | ⟨-, rfl⟩ | ⟨rfl, -⟩
    · exact absurd hn h1
    · exact absurd hn h1
    · exact ⟨_, rfl⟩
    · exact absurd hn h2
  · intro v hv
    simp only [witSearch, witGiven, List.cons_append, List.nil_append, List.mem_cons,
      Prod.mk.injEq, List.not_mem_nil, or_false] at hv
    rcases hv with ⟨-, rfl⟩ | ⟨-, rfl⟩ | ⟨h, -⟩ | ⟨h, -⟩
    · exact ⟨_, rfl⟩
    · exact ⟨_, rfl⟩
    · exact absurd h (by decide)
    · exact absurd h (by decide)

theorem witSearch_conditions (γ : ℝ) (h : |γ - witInp.γ| ≤ 10 * |witInp.γ|) :
    ∃ c, define_conditions { witInp with γ := γ } = some c := by
  have hγ : -(1/100) ≤ γ := by
    have : witInp.γ = 1/1000 := rfl
    rw [this, abs_of_pos (show (0 : ℝ) < 1/1000 by norm_num)] at h
    have := (abs_le.1 h).1
    linarith
  apply Option.isSome_iff_exists.1
  simp only [define_conditions, v_φ_boundary_func]
  rw [if_neg]
  · rfl
  · norm_num [v_φ_discriminant, witInp]
    linarith

theorem witSearch_solution (γ : ℝ) {c : Conditions}
    (h : define_conditions { witInp with γ := γ } = some c) :
    ∃ out, (solution (witStay witTol) (fun _ => "") (fun _ _ => none) witOpts c
      { store_internal := false }).result = .ok out ∧ out.internal_data = none := by
  have hangles : c.angles = [0, Real.pi / 4, Real.pi / 2] := by
    simp only [define_conditions] at h
    split at h
    · cases h
    · injection h with h
      subst h
      simp only [witInp, linspace, radians, List.range, List.range.loop, List.map_cons,
        List.map_nil]
      norm_num
      constructor <;> ring
  have hpi := Real.pi_pos
  have hang : (taylor_new_angles c.angles (radians witOpts.taylor_stop_angle / 1)) =
      [Real.pi / 4, Real.pi / 2] := by
    rw [hangles, taylor_new_angles]
    have h0 : ¬ radians witOpts.taylor_stop_angle / 1 < 0 := by
      have : 0 ≤ radians witOpts.taylor_stop_angle / 1 := by
        simp only [radians, witOpts]; positivity
      exact not_lt.2 this
    have h1 : radians witOpts.taylor_stop_angle / 1 < Real.pi / 4 := by
      simp only [radians, witOpts]; linarith
    have h2 : radians witOpts.taylor_stop_angle / 1 < Real.pi / 2 := by
      simp only [radians, witOpts]; linarith
    rw [div_one] at h0 h1 h2
    simp [h0, h1, h2]
  unfold solution
  simp only [taylor_start_jump _ _ witOpts c { store_internal := false } rfl rfl, Logged.ok_bind,
    hang]
  exact ⟨_, rfl, rfl⟩

theorem witSearch_returns : ∃ n,
    (ds_soln witEnvR (methods Stepper.realOps (fun _ => .STOP) witStay (fun _ => "")
      (fun _ _ => none) fun _ _ _ r => (.error .SolverError, r)) (fun _ => some witDoc.text)
      "a.cfg" witSearch ([] : FS ℝ Made)).status = .ok n ∧
    (ds_soln witEnvR (methods Stepper.realOps (fun _ => .STOP) witStay (fun _ => "")
      (fun _ _ => none) fun _ _ _ r => (.error .SolverError, r)) (fun _ => some witDoc.text)
      "a.cfg" witSearch ([] : FS ℝ Made)).printed =
        [witEnvR.path ((textGiven witSearch "--output-dir").getD ".")
          (String.ofList (witAsked .label) ++ (witEnvR.now ++ ".hdf5"))] := by
  have hst : (!isGiven witSearch "--no-store-internal") = false := by decide +kernel
  refine search_returns witEnvR _ witStay (fun _ => "") (fun _ _ => none) _
    (fun _ => some witDoc.text) "a.cfg" witSearch [] witDoc witDoc_good rfl witSearch_typed
    (by decide +kernel) wit_known (by decide +kernel)
    (witSearch_asked (wit_asked (.s .split_method))) (fun f => ⟨_, witDoc_inFile f⟩)
    (fun f v hv => wit_reads f v (witSearch_asked' hv)) _
    (Or.inr ⟨by decide +kernel, _, witSearch_asked (wit_asked .label), rfl⟩) rfl rfl witInp
    witOpts witTol witSearch_states witSearch_options (by norm_num [witInp]) ?_
  intro γ hγ
  obtain ⟨c, hc⟩ := witSearch_conditions γ hγ
  obtain ⟨out, h1, h2⟩ := witSearch_solution γ hc
  refine ⟨c, out, hc, ?_, fun d hd => ?_⟩
  · rw [hst]
    exact h1
  · rw [h2] at hd
    cases hd

example := search_end_to_end _ _ _ _ _ _ _ _ _ _ _ witDoc witDoc_good rfl witSearch_typed
  (by decide +kernel) wit_known (by decide +kernel) _ witSearch_returns.choose_spec.1

example := search_status _ _ _ _ _ _ _ _ _ _ witDoc witDoc_good rfl witSearch_typed
  (by decide +kernel) wit_known (by decide +kernel)
  (witSearch_asked (wit_asked (.s .split_method))) _ witSearch_states.γ (by norm_num [witInp]) _
  witSearch_returns.choose_spec.1

/-- A solution which ends a search: at rest at first, then near the sound speed. -/
example : Accepted
    { flag := .SUCCESS, angles := [0, 1, 2]
      solution := [⟨0, 0, 1, 0, 0, 0, 1, 0, 0, 0, 0⟩, ⟨0, 0, 1, 0, 0, 0.95, 0.5, 0, 0, 0, 0⟩,
        ⟨0, 0, 1, 0, 0, 0.96, 0.4, 0, 0, 0, 0⟩]
      internal_data := none, t_roots := none, y_roots := none, is_post_shock_only := false } := by
  have hn : nearSonic
      { flag := .SUCCESS, angles := [0, 1, 2]
        solution := [⟨0, 0, 1, 0, 0, 0, 1, 0, 0, 0, 0⟩, ⟨0, 0, 1, 0, 0, 0.95, 0.5, 0, 0, 0, 0⟩,
          ⟨0, 0, 1, 0, 0, 0.96, 0.4, 0, 0, 0, 0⟩]
        internal_data := none, t_roots := none, y_roots := none, is_post_shock_only := false } =
      [0.95, 0.96] := by
    unfold nearSonic
    norm_num [List.filter]
  refine ⟨rfl, ?_, ?_, ?_, ?_, ?_⟩
  · simp; norm_num
  · intro i s t hs ht
    rcases i with _ | _ | _ | i
    · simp at hs ht; subst hs ht; norm_num
    · simp at hs ht; subst hs ht; norm_num
    · simp at hs ht
    · simp at hs
  · simp; norm_num
  · rw [hn]; simp
  · rw [hn]
    rintro a b c ⟨i, -, -, h⟩
    simp at h

end DiscSolver.StepRun
