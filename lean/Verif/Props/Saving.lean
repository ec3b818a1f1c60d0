import Verif.Spec.Saving
import Verif.Props.FileFormat
import Verif.Props.Sessions

/-!
# Properties: what the commands store can be saved and loaded

C116.
-/

namespace DiscSolver.Saving

open FileFormat Runners SingleRun Sessions

/-! ## Single objects -/

theorem fits_obj (c : Cls) {fields : List (String × Obj)}
    (h : List.Forall₂ (fun (a : String × FileFormat.Kind) (b : String × Obj) =>
      a.1 = b.1 ∧ Fits a.2 b.2) (kinds c) fields)
    (hc : c = .InitialConditions → Consistent fields) : Fits (.obj c) (.obj c fields) := by
  have key : ∀ (ks : List (String × FileFormat.Kind)) (fields : List (String × Obj)), List.Forall₂
      (fun (a : String × FileFormat.Kind) (b : String × Obj) => a.1 = b.1 ∧ Fits a.2 b.2)
      ks fields → fields.map (·.1) = ks.map (·.1) ∧
        ∀ k κ o, ks.lookup k = some κ → fields.lookup k = some o → Fits κ o := by
    intro ks fields h
    induction h with
    | nil => exact ⟨rfl, fun k κ o hk => by cases hk⟩
    | @cons a b as bs hab _ ih =>
      obtain ⟨a1, a2⟩ := a
      obtain ⟨b1, b2⟩ := b
      obtain ⟨h1, h2⟩ := hab
      dsimp only at h1 h2
      subst h1
      refine ⟨by simp [ih.1], fun k κ o hk ho => ?_⟩
      rw [List.lookup_cons] at hk ho
      split at hk
      · next he =>
        rw [he] at ho
        injection hk with hk
        injection ho with ho
        subst hk ho
        exact h2
      · next he =>
        rw [he] at ho
        exact ih.2 k κ o hk ho
  obtain ⟨h1, h2⟩ := key _ _ h
  exact .obj c fields h1 hc h2

theorem number_scalar (x : ℝ) : Fits .scalar (number x) := .scalar_arr _

theorem optWhole_fits (n : Option Int) : Fits .optNumber (optWhole n) := by
  cases n with
  | none => exact .optNumber_none
  | some n => exact .optNumber_num _

/-- The kind of an attribute of a `SolutionInput`. -/
def inputKind (f : SField) : FileFormat.Kind :=
  match f.kind with
  | .float | .int | .bool | .str => .scalar
  | .optFloat => .optArray
  | .optInt => .optNumber
  | .slice => .optObj .slice
  | .mcmc => .optObj .MCMCVars

theorem inputKind_eq : kinds .SolutionInput = SField.all.map fun f => (f.name, inputKind f) := by
  rfl

theorem configKind_eq : kinds .ConfigInput =
    CField.all.map fun f => (f.name, if f.hasConverter then FileFormat.Kind.optText
      else FileFormat.Kind.scalar) := by
  rfl

/-- A value as the conversions make it. -/
def Shape : DiscSolver.Kind → SVal ℝ → Prop
  | .float, v => ∃ x, v = .float x
  | .int, v => ∃ n, v = .int n
  | .bool, v => ∃ b, v = .bool b
  | .str, v => ∃ t, v = .str t
  | .optFloat, v => v = .none ∨ ∃ x, v = .float x
  | .optInt, v => v = .none ∨ ∃ n, v = .int n
  | .slice, v => v = .none ∨ ∃ s, v = .slice s
  | .mcmc, v => v = .none ∨ ∃ m, v = .mcmc m

theorem value_fits (f : SField) (v : SVal ℝ) (h : Shape f.kind v) :
    Fits (inputKind f) (value v) := by
  unfold inputKind
  generalize f.kind = k at h
  cases k with
  | float => obtain ⟨x, rfl⟩ := h; exact .scalar_arr _
  | int => obtain ⟨x, rfl⟩ := h; exact .scalar_num _
  | bool => obtain ⟨x, rfl⟩ := h; exact .scalar_bool _
  | str => obtain ⟨x, rfl⟩ := h; exact .scalar_text _
  | optFloat =>
    rcases h with rfl | ⟨x, rfl⟩
    · exact .optArray_none
    · exact .optArray _
  | optInt =>
    rcases h with rfl | ⟨x, rfl⟩
    · exact .optNumber_none
    · exact .optNumber_num _
  | slice =>
    rcases h with rfl | ⟨x, rfl⟩
    · exact .optObj_none _
    · refine .optObj _ _ (fits_obj _ ?_ (fun h => by cases h))
      exact .cons ⟨rfl, optWhole_fits _⟩ (.cons ⟨rfl, optWhole_fits _⟩
        (.cons ⟨rfl, optWhole_fits _⟩ .nil))
  | mcmc =>
    rcases h with rfl | ⟨x, rfl⟩
    · exact .optObj_none _
    · refine .optObj _ _ (fits_obj _ ?_ (fun h => by cases h))
      exact .cons ⟨rfl, .builtin_bool _⟩ (.cons ⟨rfl, .builtin_bool _⟩
        (.cons ⟨rfl, .builtin_bool _⟩ .nil))

theorem input_fits (s : SolutionInput ℝ) (h : ∀ f, Shape f.kind (s f)) :
    Fits (.obj .SolutionInput) (input s) := by
  refine fits_obj _ ?_ (fun h => by cases h)
  rw [inputKind_eq, List.forall₂_map_left_iff, List.forall₂_map_right_iff]
  refine List.forall₂_same.2 fun f _ => ⟨rfl, value_fits f _ (h f)⟩

theorem optional_iff (f : CField) : f ∈ optional ↔ f.hasConverter = true := by
  cases f with
  | label => decide
  | s f => cases f <;> decide

theorem Complete.text {c : ConfigInput} (h : Complete c) {f : CField}
    (hf : f.hasConverter = false) : c f ≠ none :=
  h f fun ho => by rw [(optional_iff f).1 ho] at hf; cases hf

theorem config_fits (c : ConfigInput) (hf : Complete c) (hc : Canonical c) :
    Fits (.obj .ConfigInput) (config c) := by
  refine fits_obj _ ?_ (fun h => by cases h)
  rw [configKind_eq, List.forall₂_map_left_iff, List.forall₂_map_right_iff]
  refine List.forall₂_same.2 fun f _ => ⟨rfl, ?_⟩
  cases hb : f.hasConverter with
  | false =>
    cases h : c f with
    | none => exact (hf.text hb h).elim
    | some t => exact .scalar_text _
  | true =>
    cases h : c f with
    | none => exact .optText_none
    | some t =>
      refine .optText _ fun he => hc f hb ?_
      rw [h]
      have := congrArg String.toList he
      rw [String.toList_ofList] at this
      rw [this]
      rfl

theorem initial_fits (c : Conditions) : Fits (.obj .InitialConditions) (initial c) := by
  refine fits_obj _ ?_ (fun _ => ?_)
  · exact .cons ⟨rfl, .scalar_arr _⟩ (.cons ⟨rfl, .scalar_arr _⟩ (.cons ⟨rfl, .scalar_arr _⟩
      (.cons ⟨rfl, .scalar_arr _⟩ (.cons ⟨rfl, .scalar_arr _⟩ (.cons ⟨rfl, .scalar_arr _⟩
      (.cons ⟨rfl, .array _⟩ (.cons ⟨rfl, .scalar_arr _⟩ .nil)))))))
  · exact ⟨_, _, _, _, _, _, _, rfl, rfl, rfl, rfl, rfl, .inr rfl, .inr rfl, .inr rfl, rfl, rfl,
      rfl⟩

/-- The names in the problems are different, and the messages end in no zero characters. -/
structure Clean (p : Problems) : Prop where
  names : p.keys.Nodup
  messages : ∀ e ∈ p, ∀ s ∈ e.2, s = "negative density" ∨ s = "negative velocity"

theorem clean_fits {p : Problems} (h : Clean p) : Fits .problems (.problems p) := by
  refine .problems p h.names fun e he s hs => ?_
  rintro ⟨t, ht⟩
  have hl : s.toList.getLast? = some '\x00' := by rw [ht]; simp
  rcases h.messages e he s hs with rfl | rfl
  · revert hl; decide
  · revert hl; decide

theorem internal_fits (d : InternalData) (h : Clean d.problems) :
    Fits (.obj .InternalData) (internal d) := by
  have hj : Fits (.obj .JacobianData) (jacobians d.jacobian_data) := by
    refine fits_obj _ ?_ (fun h => by cases h)
    exact .cons ⟨rfl, .array _⟩ (.cons ⟨rfl, .array _⟩ (.cons ⟨rfl, .array _⟩
      (.cons ⟨rfl, .array _⟩ .nil)))
  refine fits_obj _ ?_ (fun h => by cases h)
  exact .cons ⟨rfl, .array _⟩ (.cons ⟨rfl, .array _⟩ (.cons ⟨rfl, .array _⟩ (.cons ⟨rfl, hj⟩
    (.cons ⟨rfl, .array _⟩ (.cons ⟨rfl, .array _⟩ (.cons ⟨rfl, .array _⟩ (.cons ⟨rfl, .array _⟩
    (.cons ⟨rfl, .array _⟩ (.cons ⟨rfl, .array _⟩ (.cons ⟨rfl, clean_fits h⟩ .nil))))))))))

/-- A solution which can be saved. -/
structure Storable (m : Made) : Prop where
  input : ∀ f, Shape f.kind (m.solution_input f)
  problems : ∀ d, m.out.internal_data = some d → Clean d.problems

theorem soln_fits (m : Made) (h : Storable m) : Fits (.obj .Solution) (soln m) := by
  have hi : Fits (.optObj .InternalData) (opt internal m.out.internal_data) := by
    cases hd : m.out.internal_data with
    | none => exact .optObj_none _
    | some d => exact .optObj _ _ (internal_fits d (h.problems d hd))
  have ht : Fits .optArray (opt vector m.out.t_roots) := by
    cases m.out.t_roots with
    | none => exact .optArray_none
    | some d => exact .optArray _
  have hy : Fits .optArray (opt table m.out.y_roots) := by
    cases m.out.y_roots with
    | none => exact .optArray_none
    | some d => exact .optArray _
  refine fits_obj _ ?_ (fun h => by cases h)
  exact .cons ⟨rfl, input_fits _ h.input⟩ (.cons ⟨rfl, .array _⟩ (.cons ⟨rfl, .array _⟩
    (.cons ⟨rfl, .scalar_num _⟩ (.cons ⟨rfl, .scalar_text _⟩ (.cons ⟨rfl, hi⟩
    (.cons ⟨rfl, initial_fits _⟩ (.cons ⟨rfl, ht⟩ (.cons ⟨rfl, hy⟩ (.cons ⟨rfl, .optArray_none⟩
    (.cons ⟨rfl, .optArray_none⟩ (.cons ⟨rfl, .unset⟩
    (.cons ⟨rfl, .scalar_bool _⟩ .nil))))))))))))

theorem optText_fits (t : Option String) : Fits .builtin (optText t) := by
  cases t with
  | none => exact .builtin_none
  | some t => exact .builtin_text _

theorem run_fits (x : Extras) (r : TheRun ℝ Made) (hf : Complete r.info.config_input)
    (hc : Canonical r.info.config_input) (hu : ∃ b, r.info.use_E_r = .bool b)
    (hfin : r.final ≠ .delayed) (hk : (Dict.keys r.solutions).Nodup)
    (hm : ∀ m, Has r m → Storable m) : Fits (.obj .Run) (run x r) := by
  have hfinal : Fits (.optObj .Solution) (final r.final) := by
    cases hr : r.final with
    | delayed => exact (hfin hr).elim
    | value m =>
      cases m with
      | none => exact .optObj_none _
      | some m => exact .optObj _ _ (soln_fits m (hm m (.inr hr)))
  have hsol : Fits .solutions (.solutions (r.solutions.map fun p => (p.1, soln p.2))) := by
    refine .solutions _ ?_ fun k o ho => ?_
    · rw [List.map_map]
      exact hk
    · obtain ⟨p, hp, he⟩ := List.mem_map.1 (mem_of_lookup ho)
      injection he with _ he
      subst he
      exact soln_fits p.2 (hm p.2 (.inl (List.mem_map.2 ⟨p, hp, rfl⟩)))
  have huse : Fits .builtin (value r.info.use_E_r) := by
    obtain ⟨b, hb⟩ := hu
    rw [hb]
    exact .builtin_bool _
  refine fits_obj _ ?_ (fun h => by cases h)
  exact .cons ⟨rfl, config_fits _ hf hc⟩ (.cons ⟨rfl, optText_fits _⟩ (.cons ⟨rfl, .builtin_text _⟩
    (.cons ⟨rfl, .builtin_text _⟩ (.cons ⟨rfl, .builtin_text _⟩ (.cons ⟨rfl, .builtin_text _⟩
    (.cons ⟨rfl, huse⟩ (.cons ⟨rfl, hfinal⟩ (.cons ⟨rfl, hsol⟩ (.cons ⟨rfl, .scalar_bool _⟩
    (.cons ⟨rfl, optText_fits _⟩ (.cons ⟨rfl, optText_fits _⟩ .nil)))))))))))

/-! ## The inputs in a run -/

/-- The input differs from another only in floating point numbers, and in the number of
angles. -/
def Kept (s i : SolutionInput ℝ) : Prop :=
  ∀ f, i f = s f ∨ (f.kind = .float ∧ ∃ x, i f = .float x) ∨ (f = .num_angles ∧ ∃ n, i f = .int n)

theorem Kept.refl (s : SolutionInput ℝ) : Kept s s := fun _ => .inl rfl

theorem Kept.trans {s i j : SolutionInput ℝ} (h : Kept s i) (h' : Kept i j) : Kept s j := by
  intro f
  rcases h' f with h1 | h1
  · rw [h1]; exact h f
  · exact .inr h1

theorem Kept.float {s i : SolutionInput ℝ} (h : Kept s i) (f : SField) (hf : f.kind = .float)
    (x : ℝ) : Kept s (Function.update i f (.float x)) := by
  intro g
  by_cases hg : g = f
  · subst hg
    exact .inr (.inl ⟨hf, x, by simp⟩)
  · rw [Function.update_of_ne hg]
    exact h g

theorem Kept.angles {s i : SolutionInput ℝ} (h : Kept s i) (n : Int) :
    Kept s (Function.update i .num_angles (.int n)) := by
  intro g
  by_cases hg : g = .num_angles
  · subst hg
    exact .inr (.inr ⟨rfl, n, by simp⟩)
  · rw [Function.update_of_ne hg]
    exact h g

theorem Kept.back {s i : SolutionInput ℝ} (h : Kept s i) (f : SField) :
    Kept s (Function.update i f (s f)) := by
  intro g
  by_cases hg : g = f
  · subst hg
    exact .inl (by simp)
  · rw [Function.update_of_ne hg]
    exact h g

variable {I : Tolerances → Integrator} {str : ℝ → String}
  {interp : List ℝ → List ℝ → Option (ℝ → ℝ)}

/-- What a method leaves in a new run. -/
def Tidy (S : Solver ℝ Made) : Prop :=
  ∀ s info, (Dict.keys (S s { info := info }).2.solutions).Nodup ∧
    ∀ m, Has (S s { info := info }).2 m → Kept s m.solution_input

/-- A new run is so. -/
theorem new_tidy (s : SolutionInput ℝ) (info : RunInfo ℝ) :
    (Dict.keys ({ info := info } : TheRun ℝ Made).solutions).Nodup ∧
      ∀ m, Has ({ info := info } : TheRun ℝ Made) m → Kept s m.solution_input :=
  ⟨List.nodup_nil, fun m hm => by rcases hm with h | h <;> cases h⟩

theorem single_tidy (st : Bool) :
    Tidy (single_solver (single_solution I str interp st) false) := by
  intro s info
  rw [EndToEnd.single_solver_eq]
  cases h : single_solution I str interp st s with
  | error x => exact new_tidy s info
  | ok x =>
    refine ⟨by simp [Dict.keys], fun m hm => ?_⟩
    have : m = x := by
      rcases hm with hm | hm
      · simpa using hm
      · injection hm with hm
        injection hm with hm
        exact hm.symm
    subst this
    rw [(EndToEnd.single_solution_ok h).1]
    exact Kept.refl s

/-! ### The stepping search -/

/-- What the search knows: every input is the first one with another `γ`. -/
def Rest (s : SolutionInput ℝ) (x : Stepper.Stored ℝ (SolutionInput ℝ)) : Prop :=
  ∀ i, x.saved = some i → i.rest = s

theorem stepper_allOf {μ : Type} (c : Stepper.Setup ℝ (SolutionInput ℝ))
    (human : List Stepper.SolnData → Stepper.SplitterStatus) (method : String)
    (inp : Stepper.Input ℝ (SolutionInput ℝ)) (m : μ) (n : ℕ) :
    AllOf (Rest inp.rest) (Stepper.solver c human method inp { info := m } n).2.1 := by
  have hnew : AllOf (Rest inp.rest)
      ({ info := m } : Run μ (Stepper.Stored ℝ (SolutionInput ℝ))) :=
    ⟨fun x hx => (by cases hx), fun x hx => (by cases hx), List.nodup_nil⟩
  let P : Stepper.World ℝ (SolutionInput ℝ) μ → Prop := fun w =>
    (∀ k, (w.heap k).rest = inp.rest) ∧ AllOf (Rest inp.rest) w.run
  have hwriter : ∀ soln w, P w → P (Stepper.writer c soln w).2 := by
    intro soln w hw
    unfold Stepper.writer
    split
    · exact hw
    · split
      · next k r ha =>
        refine ⟨hw.1, add_allOf hw.2 ?_ ha⟩
        intro i hi
        dsimp only at hi
        split_ifs at hi
        injection hi with hi
        subst hi
        exact hw.1 _
      · exact hw
  have hassign : ∀ found, (∀ r : Run μ (Stepper.Stored ℝ (SolutionInput ℝ)),
      AllOf (Rest inp.rest) r → ∀ x, found r = .ok x → Rest inp.rest x) →
      ∀ w, P w → P (Stepper.assign_final found w).2 := by
    intro found hfound w hw
    unfold Stepper.assign_final
    split
    · exact hw
    · next s hs =>
      split
      · exact hw
      · next r hr =>
        unfold Run.setFinal at hr
        split at hr
        · injection hr with hr
          subst hr
          refine ⟨hw.1, hw.2.1, fun x hx => ?_, hw.2.2.2⟩
          injection hx with hx
          injection hx with hx
          subst hx
          exact hfound _ hw.2 _ hs
        · cases hr
  have hsearch : ∀ split, P (Stepper.run_search c split inp { info := m } n).2 := by
    intro split
    unfold Stepper.run_search Stepper.binary_searcher
    refine search_allOf P (fun _ => True) (fun _ => True) ?_ ?_ ?_ ?_ n 0 0 _ trivial
      ⟨fun _ => rfl, hnew⟩
    · intro i w _ hw
      refine ⟨?_, fun _ _ _ => trivial⟩
      have halloc : P (w.alloc (w.heap i)) := by
        refine ⟨fun k => ?_, hw.2⟩
        unfold Stepper.World.alloc
        dsimp only
        by_cases hk : k = w.next
        · subst hk; simp [hw.1]
        · rw [Function.update_of_ne hk]; exact hw.1 k
      unfold Stepper.solution_func
      dsimp only
      split
      · exact halloc
      · exact halloc
    · intro o k w _ hw
      unfold Stepper.cleanup
      refine FastCrosser.bind_keeps P _ _ _ (hwriter o w hw) ?_
      intro _ w hw
      split_ifs
      · exact hw
      · exact hassign _ (fun r hr x hx => last_allOf hr hx) w hw
    · intro o k w _ hw
      refine ⟨?_, fun _ _ => trivial⟩
      unfold Stepper.stepper
      refine FastCrosser.bind_keeps P _ _ _ (hwriter o w hw) ?_
      intro _ w hw
      refine FastCrosser.bind_keeps P _ _ _ ?_ ?_
      · unfold Stepper.get_soln_type
        split <;> exact hw
      · intro t w hw
        refine FastCrosser.bind_keeps P _ _ _ ?_ ?_
        · unfold Stepper.choose
          split
          exact hw
        · intro step w hw
          unfold Stepper.step_func
          dsimp only
          split
          · exact hw
          · refine ⟨fun k => ?_, hw.2⟩
            unfold Stepper.World.alloc
            dsimp only
            by_cases hk : k = w.next
            · subst hk; simp [hw.1]
            · rw [Function.update_of_ne hk]
              by_cases hk' : k = o.input
              · subst hk'; simp [hw.1]
              · rw [Function.update_of_ne hk']; exact hw.1 k
    · intro k w hw
      unfold Stepper.alternate_cleanup
      split_ifs
      · exact hw
      · refine hassign _ (fun r hr x hx => ?_) w hw
        unfold Dict.getItem at hx
        cases hg : Dict.get? r.solutions k.repr with
        | none => rw [hg] at hx; cases hx
        | some y =>
          rw [hg] at hx
          injection hx with hx
          subst hx
          exact hr.1 _ (mem_of_get hg)
  unfold Stepper.solver
  split
  · exact hnew
  · next split _ =>
    have h := hsearch split
    generalize Stepper.run_search c split inp { info := m } n = q at h
    rcases q with ⟨p | best, w⟩
    · exact h.2
    · dsimp only
      split_ifs
      · unfold Stepper.clear_final
        cases hf : w.run.final with
        | delayed =>
          refine ⟨h.2.1, fun x hx => ?_, h.2.2.2⟩
          injection hx with hx
          cases hx
        | value y => exact h.2
      · exact h.2

theorem fields_kept {s : SolutionInput ℝ} {i : Stepper.Input ℝ (SolutionInput ℝ)}
    (h : i.rest = s) : Kept s (StepRun.fields i) := by
  unfold StepRun.fields
  rw [h]
  exact (Kept.refl s).float _ rfl _

theorem inFile_kept {s : SolutionInput ℝ} {st : Bool}
    {x : Stepper.Stored ℝ (SolutionInput ℝ)} {m : Made} (hx : Rest s x)
    (h : StepRun.inFile I str interp st x = some m) : Kept s m.solution_input := by
  unfold StepRun.inFile at h
  split at h
  · next i hi =>
    cases hs : single_solution I str interp st (StepRun.fields i) with
    | error x => rw [hs] at h; cases h
    | ok y =>
      rw [hs] at h
      injection h with h
      subst h
      rw [(EndToEnd.single_solution_ok hs).1]
      exact fields_kept (hx i hi)
  · cases h

theorem filterMap_keys {α β : Type} (d : List (String × α)) (g : α → Option β)
    (h : (Dict.keys d).Nodup) :
    (Dict.keys (d.filterMap fun p => (g p.2).map fun m => (p.1, m))).Nodup := by
  have : List.Sublist (Dict.keys (d.filterMap fun p => (g p.2).map fun m => (p.1, m)))
      (Dict.keys d) := by
    induction d with
    | nil => exact List.Sublist.refl _
    | cons e d ih =>
      have hd := ih (by simpa [Dict.keys] using (List.nodup_cons.1 h).2)
      rw [List.filterMap_cons]
      cases hg : g e.2 with
      | none => exact hd.cons _
      | some m => exact hd.cons_cons _
  exact this.nodup h

theorem step_tidy (ops : Stepper.Ops ℝ)
    (human : List Stepper.SolnData → Stepper.SplitterStatus) (st : Bool) :
    Tidy (StepRun.step_solver ops human I str interp st) := by
  intro s info
  unfold StepRun.step_solver
  split
  · next γ method _ _ =>
    have h := stepper_allOf (StepRun.setup ops I str interp st) human (String.ofList method)
      ⟨γ, s⟩ () StepRun.DEFAULT_NUM_ATTEMPTS
    generalize Stepper.solver (StepRun.setup ops I str interp st) human (String.ofList method)
      ⟨γ, s⟩ ({ info := () } : Run Unit _) StepRun.DEFAULT_NUM_ATTEMPTS = q at h
    obtain ⟨a, r, z⟩ := q
    refine ⟨filterMap_keys _ _ h.2.2, fun m hm => ?_⟩
    rcases hm with hm | hm
    · obtain ⟨⟨k, x⟩, hx, rfl⟩ := List.mem_map.1 hm
      obtain ⟨⟨k', y⟩, hy', hy⟩ := List.mem_filterMap.1 hx
      rw [Option.map_eq_some_iff] at hy
      obtain ⟨z, hz, he⟩ := hy
      injection he with _ he
      subst he
      exact inFile_kept (h.1 _ hy') hz
    · dsimp only at hm
      unfold StepRun.finalInFile at hm
      split at hm
      · cases hm
      · cases hm
      · next x hx =>
        injection hm with hm
        exact inFile_kept (h.2.1 x hx) hm
  · exact new_tidy s info

/-! ### The fast crosser -/

theorem crosser_tidy (ops : Stepper.Ops ℝ)
    (human : List Stepper.SolnData → Stepper.SplitterStatus) (st : Bool) :
    Tidy (CrosserRun.crosser_solver ops human I str interp st) := by
  intro s info
  unfold CrosserRun.crosser_solver
  split
  · next v _ =>
    have hall := crosser_allOf (μ := Unit)
      (P := fun x : CrosserRun.Soln => Kept s x.input ∧
        ∀ m, x.made = some m → Kept s m.solution_input) (PI := Kept s)
      (CrosserRun.env ops human I str interp st s) (fun i hi x hx => by
        change x ∈ (CrosserRun.inner_search ops human I str interp st i).1 at hx
        unfold CrosserRun.inner_search at hx
        split at hx
        · next γ method _ _ =>
          have h := stepper_allOf
            { StepRun.setup ops I str interp st with no_final_solution := true } human
            (String.ofList method) ⟨γ, i⟩ () StepRun.DEFAULT_NUM_ATTEMPTS
          generalize Stepper.solver
            { StepRun.setup ops I str interp st with no_final_solution := true } human
            (String.ofList method) ⟨γ, i⟩ ({ info := () } : Run Unit _)
            StepRun.DEFAULT_NUM_ATTEMPTS = q at h hx
          obtain ⟨a, r, z⟩ := q
          obtain ⟨y, hy, hx⟩ := List.mem_filterMap.1 hx
          rw [Option.map_eq_some_iff] at hx
          obtain ⟨m, hm, rfl⟩ := hx
          have hk := hi.trans (inFile_kept (h.1 y hy) hm)
          refine ⟨hk, fun m' hm' => ?_⟩
          injection hm' with hm'
          subst hm'
          exact hk
        · cases hx) (fun i x hi hx => by
        change (single_solution I str interp st (CrosserRun.final_input i)).map
          CrosserRun.Soln.of = .ok x at hx
        cases hs : single_solution I str interp st (CrosserRun.final_input i) with
        | error p => rw [hs] at hx; cases hx
        | ok y =>
          rw [hs] at hx
          injection hx with hx
          subst hx
          have hk : Kept s y.solution_input := by
            rw [(EndToEnd.single_solution_ok hs).1]
            unfold CrosserRun.final_input
            exact (hi.1.float .stop rfl _).angles _
          refine ⟨hk, fun m' hm' => ?_⟩
          injection hm' with hm'
          subst hm'
          exact hk) (fun i hi => ⟨hi, fun m hm => by cases hm⟩)
      (fun x v hx => by
        change Kept s (CrosserRun.next_input s x v)
        unfold CrosserRun.next_input
        exact ((hx.1.back .stop).back .num_angles).float .v_rin_on_c_s rfl _) s (Kept.refl s) v ()
      CrosserRun.DEFAULT_NUM_ATTEMPTS
    generalize FastCrosser.solver (CrosserRun.env ops human I str interp st s) s v
      ({ info := () } : Run Unit CrosserRun.Soln) CrosserRun.DEFAULT_NUM_ATTEMPTS = q at hall
    obtain ⟨a, r⟩ := q
    refine ⟨filterMap_keys _ _ hall.2.2, fun m hm => ?_⟩
    rcases hm with hm | hm
    · obtain ⟨⟨k, x⟩, hx, rfl⟩ := List.mem_map.1 hm
      obtain ⟨⟨k', y⟩, hy', hy⟩ := List.mem_filterMap.1 hx
      rw [Option.map_eq_some_iff] at hy
      obtain ⟨z, hz, he⟩ := hy
      injection he with _ he
      subst he
      exact (hall.1 _ hy').2 _ hz
    · dsimp only at hm
      unfold CrosserRun.finalMade at hm
      split at hm
      · cases hm
      · cases hm
      · next x hx =>
        injection hm with hm
        exact (hall.2.1 x hx).2 _ hm
  · exact new_tidy s info

/-! ### The sampler -/

theorem lower_lift (v : SVal ℝ) : McmcRun.lowerVal (McmcRun.liftVal v) = v := by
  cases v <;> rfl

theorem set_vars_kept (s : SolutionInput ℝ) (point : List (SVal Flt))
    (hp : ∀ v ∈ point, ∃ x : ℝ, v = .float (some x)) (en : List SField)
    (hen : ∀ f ∈ en, f.kind = .float) (k : ℕ) (inp i : SolutionInput Flt)
    (hinp : Kept s fun f => McmcRun.lowerVal (inp f))
    (h : Mcmc.set_vars point en k inp = .ok i) : Kept s fun f => McmcRun.lowerVal (i f) := by
  induction en generalizing k inp with
  | nil => injection h with h; subst h; exact hinp
  | cons g en ih =>
    unfold Mcmc.set_vars at h
    split at h
    · cases h
    · next v hv =>
      refine ih (fun f hf => hen f (List.mem_cons_of_mem _ hf)) _ _ ?_ h
      obtain ⟨x, rfl⟩ := hp v (List.mem_of_getElem? hv)
      intro f
      dsimp only [Mcmc.setField]
      split_ifs with hf
      · subst hf
        exact .inr (.inl ⟨hen f List.mem_cons_self, x, rfl⟩)
      · exact hinp f

theorem enum_float {F : Type} (s : SolutionInput F) :
    ∀ f ∈ Mcmc.generate_sysvars_enum s, f.kind = .float := by
  intro f hf
  unfold Mcmc.generate_sysvars_enum at hf
  split at hf
  · next m _ =>
    obtain ⟨a, b, c⟩ := m
    cases a <;> cases b <;> cases c <;> simp at hf <;> aesop
  · simp at hf
    aesop

theorem solve_at_input {st : Bool} {s : SolutionInput ℝ} {c : Conditions} {m : Made}
    (h : McmcRun.solve_at I str interp st s c = .ok m) : m.solution_input = s := by
  unfold McmcRun.solve_at at h
  simp only [EndToEnd.bind_ok] at h
  obtain ⟨tol, ht, o, ho, out, hout, h⟩ := h
  split at h
  · cases h
  · injection h with h
    subst h
    rfl

theorem mcmc_tidy (randn : ℕ → ℕ → List (List ℝ))
    (emcee : List (List ℝ) → List Mcmc.LogProb → Except PyErr (List ℝ)) (st : Bool) :
    Tidy (McmcRun.mcmc_solver randn emcee I str interp st) := by
  intro s info
  unfold McmcRun.mcmc_solver
  split
  · exact new_tidy s info
  · split
    · exact new_tidy s info
    · split
      · exact new_tidy s info
      · next w _ _ initial _ _ n _ =>
        have hall := sample_allOf (P := fun m : Made => Kept s m.solution_input)
          (McmcRun.env I str interp st) (fun f => McmcRun.liftVal (s f))
          (Mcmc.generate_sysvars_enum fun f => McmcRun.liftVal (s f))
          (fun seen => (McmcRun.next_position emcee initial seen).map fun p =>
            p.map fun x => .float (some x)) (fun seen point i c x hp hi hc hx => by
              have hpoint : ∀ v ∈ point, ∃ x : ℝ, v = .float (some x) := by
                cases hn : McmcRun.next_position emcee initial seen with
                | error p => rw [hn] at hp; cases hp
                | ok p =>
                  rw [hn] at hp
                  injection hp with hp
                  subst hp
                  intro v hv
                  obtain ⟨x, -, rfl⟩ := List.mem_map.1 hv
                  exact ⟨x, rfl⟩
              rw [solve_at_input hx]
              refine set_vars_kept s point hpoint _ (enum_float _) 0 _ i ?_ hi
              intro f
              exact .inl (lower_lift _))
          (w * (n + 1)) [] { run := { info := info } }
          ⟨fun x hx => (by cases hx), fun x hx => (by cases hx), List.nodup_nil⟩
        unfold Mcmc.solver
        generalize Mcmc.sample (McmcRun.env I str interp st) (fun f => McmcRun.liftVal (s f))
          (Mcmc.generate_sysvars_enum fun f => McmcRun.liftVal (s f))
          (fun seen => (McmcRun.next_position emcee initial seen).map fun p =>
            p.map fun x => .float (some x)) (w * (n + 1)) []
          ({ run := { info := info } } : Mcmc.Generator (RunInfo ℝ) Made) = q at hall
        have hold : ∀ r : TheRun ℝ Made, AllOf (fun m : Made => Kept s m.solution_input) r →
            (Dict.keys r.solutions).Nodup ∧ ∀ m, Has r m → Kept s m.solution_input := by
          refine fun r hr => ⟨hr.2.2, ?_⟩
          rintro m (h | h)
          · obtain ⟨x, hx, rfl⟩ := List.mem_map.1 h
            exact hr.1 x hx
          · exact hr.2.1 m h
        rcases q with ⟨p | u, g⟩
        · exact hold _ hall
        · dsimp only
          split
          · exact hold _ hall
          · next best hb =>
            split
            · refine hold _ ⟨hall.1, fun x hx => ?_, hall.2.2⟩
              injection hx with hx
              subst hx
              unfold Mcmc.Generator.best_solution at hb
              split at hb
              · cases hb
              · next k _ =>
                unfold Dict.getItem at hb
                cases hg : Dict.get? g.run.solutions k with
                | none => rw [hg] at hb; cases hb
                | some y =>
                  rw [hg] at hb
                  injection hb with hb
                  injection hb with hb
                  subst hb
                  exact hall.1 _ (mem_of_get hg)
            · exact hold _ hall

/-! ### The hydrostatic methods -/

theorem stored_tidy (s : SolutionInput ℝ) (info : RunInfo ℝ) (m : Made)
    (h : m.solution_input = s) :
    (Dict.keys (Hydro.storeSingle ({ info := info } : TheRun ℝ Made) m).1.solutions).Nodup ∧
      ∀ m', Has (Hydro.storeSingle ({ info := info } : TheRun ℝ Made) m).1 m' →
        Kept s m'.solution_input := by
  refine ⟨by simp [Hydro.storeSingle, Run.setFinal, Dict.set, Dict.keys], fun m' hm => ?_⟩
  have : m' = m := by
    rcases hm with hm | hm
    · simpa [Hydro.storeSingle, Run.setFinal, Dict.set] using hm
    · simp [Hydro.storeSingle, Run.setFinal] at hm
      exact hm.symm
  rw [this, h]
  exact Kept.refl s

theorem hydrostatic_tidy (H : Tolerances → HydroRequest Hydro.Args → Integration)
    (double st : Bool) : Tidy (HydroMethods.hydrostatic_solver H str double st) := by
  intro s info
  unfold HydroMethods.hydrostatic_solver
  split
  · exact new_tidy s info
  · unfold Hydro.solver
    split
    · exact new_tidy s info
    · split_ifs
      · exact new_tidy s info
      · split
        · exact new_tidy s info
        · next m hm =>
          refine stored_tidy s info m ?_
          simp only [Except.map] at hm
          split at hm
          · cases hm
          · injection hm with hm
            subst hm
            rfl

theorem mod_hydro_tidy (J : Tolerances → HydroRequest ModHydro.SystemArgs → Integration)
    (T : ModHydro.Tracker) (st : Bool) : Tidy (HydroMethods.mod_hydro_solver J str T st) := by
  intro s info
  unfold HydroMethods.mod_hydro_solver
  split
  · exact new_tidy s info
  · unfold ModHydro.solver
    split
    · exact new_tidy s info
    · next m hm =>
      refine stored_tidy s info m ?_
      simp only [Except.map] at hm
      split at hm
      · cases hm
      · injection hm with hm
        subst hm
        rfl

/-! ## The problems in a run -/

/-- The problems recorded with a solution, if any, can be saved. -/
def CleanOut (o : SolutionOut) : Prop := ∀ d, o.internal_data = some d → Clean d.problems

/-- One of the two messages. -/
def Message (s : String) : Prop := s = "negative density" ∨ s = "negative velocity"

theorem mem_set {β : Type} (d : Dict String β) (k : String) (v : β) (e : String × β)
    (h : e ∈ Dict.set d k v) : e ∈ d ∨ e = (k, v) := by
  induction d with
  | nil => exact .inr (by simpa [Dict.set] using h)
  | cons a d ih =>
    obtain ⟨k', v'⟩ := a
    unfold Dict.set at h
    split_ifs at h with hk
    · rcases List.mem_cons.1 h with h | h
      · exact .inr (by rw [h, hk])
      · exact .inl (List.mem_cons_of_mem _ h)
    · rcases List.mem_cons.1 h with h | h
      · exact .inl (by rw [h]; exact List.mem_cons_self)
      · rcases ih h with h | h
        · exact .inl (List.mem_cons_of_mem _ h)
        · exact .inr h

theorem Clean.extend {α : Type} {str : α → String} {p : Problems} (h : Clean p)
    (k : ProblemKey α) (msgs : List String) (hm : ∀ s ∈ msgs, Message s) :
    Clean (Dict.set p (k.str str) ((Problems.getItem str p k).1 ++ msgs)) := by
  refine ⟨Dict.nodup_set _ _ _ h.names, fun e he s hs => ?_⟩
  rcases mem_set _ _ _ _ he with he | rfl
  · exact h.messages e he s hs
  · rcases List.mem_append.1 hs with hs | hs
    · unfold Problems.getItem at hs
      split at hs
      · next l hl => exact h.messages _ (mem_of_get hl) s hs
      · cases hs
    · exact hm s hs

theorem Clean.update {p q : Problems} (hp : Clean p) (hq : ∀ e ∈ q, ∀ s ∈ e.2, Message s) :
    Clean (Problems.update p q) := by
  unfold Problems.update
  induction q generalizing p with
  | nil => exact hp
  | cons e q ih =>
    exact ih (hp.extend _ _ (hq e List.mem_cons_self))
      fun e he => hq e (List.mem_cons_of_mem _ he)

theorem clean_nil : Clean [] := ⟨List.nodup_nil, fun e he => by cases he⟩

theorem Clean.join {p q : Problems} (hp : Clean p) (hq : Clean q) : Clean (Problems.join p q) :=
  (clean_nil.update hp.messages).update hq.messages

theorem get_of_mem {β : Type} {d : Dict String β} (h : (Dict.keys d).Nodup) {e : String × β}
    (he : e ∈ d) : Dict.get? d e.1 = some e.2 := by
  induction d with
  | nil => cases he
  | cons a d ih =>
    obtain ⟨k, v⟩ := a
    have hn : k ∉ Dict.keys d ∧ (Dict.keys d).Nodup := by simpa [Dict.keys] using h
    unfold Dict.get?
    rcases List.mem_cons.1 he with rfl | he'
    · simp
    · have : k ≠ e.1 := by
        rintro rfl
        exact hn.1 (List.mem_map.2 ⟨e, he', rfl⟩)
      rw [if_neg this]
      exact ih hn.2 he'

theorem solution_clean {J : Integrator} {o : SolveOpts} {c : Conditions} {a : SolveArgs}
    {out : SolutionOut} (h : (solution J str interp o c a).result = .ok out) : CleanOut out := by
  intro d hd
  obtain ⟨h1, h2⟩ := solution_internal J str interp o c a h
  cases hst : a.store_internal with
  | false => rw [h1 hst] at hd; cases hd
  | true =>
    obtain ⟨x, hx, hr⟩ := h2 hst
    rw [hx] at hd
    injection hd with hd
    subst hd
    refine ⟨hr.keys, fun e he s hs => ?_⟩
    have hp := hr.problems (.text e.1)
    unfold DiscSolver.messages at hp
    have hg : Dict.get? x.problems ((ProblemKey.text e.1 : ProblemKey ℝ).str str) = some e.2 :=
      get_of_mem hr.keys he
    rw [hg, Option.getD_some] at hp
    rw [hp] at hs
    obtain ⟨r, -, hs⟩ := List.mem_flatMap.1 hs
    unfold requestProblems at hs
    obtain ⟨q, -, hq⟩ := List.mem_filterMap.1 hs
    unfold rejection at hq
    split_ifs at hq
    · injection hq with hq; exact .inl hq.symm
    · injection hq with hq; exact .inr hq.symm

theorem repeats_clean {m : Made} (h : Repeats I str interp m) : CleanOut m.out := by
  obtain ⟨-, inp, tol, o, -, -, -, -, hs⟩ := EndToEnd.single_solution_ok h
  exact solution_clean hs

/-- What a method leaves in a new run has problems which can be saved. -/
def Cleans (S : Solver ℝ Made) : Prop :=
  ∀ s info m, Has (S s { info := info }).2 m → CleanOut m.out

theorem leaves_cleans {S : Solver ℝ Made} (h : Leaves I str interp S) : Cleans S :=
  fun s info m hm => repeats_clean (h s info m hm)

theorem not_new {info : RunInfo ℝ} {m : Made} (h : Has ({ info := info } : TheRun ℝ Made) m) :
    False := by
  rcases h with h | h <;> cases h

theorem stored_only {info : RunInfo ℝ} {m m' : Made}
    (h : Has (Hydro.storeSingle ({ info := info } : TheRun ℝ Made) m).1 m') : m' = m := by
  rcases h with hm | hm
  · simpa [Hydro.storeSingle, Run.setFinal, Dict.set] using hm
  · simp [Hydro.storeSingle, Run.setFinal] at hm
    exact hm.symm

/-- Internal data which can be saved, if there is any. -/
def CleanData (d : Option InternalData) : Prop := ∀ x, d = some x → Clean x.problems

theorem cleanData_new (b : Bool) : CleanData (if b then some {} else none) := by
  intro x hx
  cases b with
  | false => cases hx
  | true => injection hx with hx; subst hx; exact clean_nil

theorem cleanData_append {d : Option InternalData} (h : CleanData d) (θ : ℝ) :
    CleanData (d.map fun d =>
      { d with problems := d.problems.append str (.num θ) "negative density" }) := by
  intro x hx
  rw [Option.map_eq_some_iff] at hx
  obtain ⟨y, hy, rfl⟩ := hx
  exact (h y hy).extend _ _ (by simp [Message])

theorem cleanData_map {d : Option InternalData} (h : CleanData d)
    (f : InternalData → InternalData) (hf : ∀ x, (f x).problems = x.problems) :
    CleanData (d.map f) := by
  intro x hx
  rw [Option.map_eq_some_iff] at hx
  obtain ⟨y, hy, rfl⟩ := hx
  rw [hf]
  exact h y hy

theorem hydro_calls_clean (P : Hydro.Args) (calls : List Call) (d : Option InternalData)
    (h : CleanData d) : CleanData (Hydro.afterCalls P str d calls) := by
  unfold Hydro.afterCalls
  induction calls generalizing d with
  | nil => exact h
  | cons c calls ih =>
    refine ih _ ?_
    unfold Hydro.rhs_call
    dsimp only
    split_ifs
    · exact cleanData_append h _
    · exact h
    · exact cleanData_map h _ fun _ => rfl

theorem mod_hydro_calls_clean (S : ModHydro.SystemArgs) (T : ModHydro.Tracker)
    (calls : List Call) (m : T.Memory) (d : Option InternalData) (h : CleanData d) :
    CleanData (ModHydro.afterCalls S T str m d calls).2 := by
  induction calls generalizing m d with
  | nil => exact h
  | cons c calls ih =>
    refine ih _ _ ?_
    unfold ModHydro.rhs_call
    dsimp only
    split_ifs
    · exact cleanData_append h _
    · exact cleanData_map h _ fun _ => rfl
    · exact cleanData_map h _ fun _ => rfl

theorem map_ok {α β : Type} {f : α → β} {x : Except PyErr α} {y : β} (h : x.map f = .ok y) :
    ∃ a, x = .ok a ∧ f a = y := by
  cases x with
  | error e => cases h
  | ok a => injection h with h; exact ⟨a, rfl, h⟩

theorem hydrostatic_cleans (H : Tolerances → HydroRequest Hydro.Args → Integration)
    (double st : Bool) : Cleans (HydroMethods.hydrostatic_solver H str double st) := by
  intro s info m hm
  unfold HydroMethods.hydrostatic_solver at hm
  split at hm
  · exact (not_new hm).elim
  · unfold Hydro.solver at hm
    split at hm
    · exact (not_new hm).elim
    · split_ifs at hm
      · exact (not_new hm).elim
      · split at hm
        · exact (not_new hm).elim
        · next x hx =>
          cases stored_only hm
          obtain ⟨y, hy, rfl⟩ := map_ok hx
          unfold Hydro.solution at hy
          split_ifs at hy
          obtain ⟨p, hp, rfl⟩ := map_ok hy
          unfold Hydro.hydrostatic_solution at hp
          split at hp
          · cases hp
          · obtain ⟨q, -, rfl⟩ := map_ok hp
            exact hydro_calls_clean _ _ _ (cleanData_new _)

theorem mod_hydro_cleans (J : Tolerances → HydroRequest ModHydro.SystemArgs → Integration)
    (T : ModHydro.Tracker) (st : Bool) : Cleans (HydroMethods.mod_hydro_solver J str T st) := by
  intro s info m hm
  unfold HydroMethods.mod_hydro_solver at hm
  split at hm
  · exact (not_new hm).elim
  · unfold ModHydro.solver at hm
    split at hm
    · exact (not_new hm).elim
    · next x hx =>
      cases stored_only hm
      obtain ⟨y, hy, rfl⟩ := map_ok hx
      unfold ModHydro.solution at hy
      obtain ⟨p, hp, rfl⟩ := map_ok hy
      unfold ModHydro.mod_hydro_solution at hp
      split at hp
      · cases hp
      · obtain ⟨q, -, rfl⟩ := map_ok hp
        exact mod_hydro_calls_clean _ _ _ _ _ (cleanData_new _)

/-! ### The search for the sonic point -/

theorem joined_clean {now : Stepper.Row} {a b : SonicRoot.Soln} (ha : CleanOut a.out)
    (hb : CleanOut b.out) : CleanOut (SonicRoot.joined now a b).out := by
  intro d hd
  change SonicRoot.joined_internal a.out.internal_data b.out.internal_data = some d at hd
  cases h1 : a.out.internal_data with
  | none =>
    cases h2 : b.out.internal_data with
    | none => rw [h1, h2] at hd; cases hd
    | some y =>
      rw [h1, h2] at hd
      injection hd with hd
      subst hd
      exact hb y h2
  | some x =>
    cases h2 : b.out.internal_data with
    | none =>
      rw [h1, h2] at hd
      injection hd with hd
      subst hd
      exact ha x h1
    | some y =>
      rw [h1, h2] at hd
      injection hd with hd
      subst hd
      exact (ha x h1).join (hb y h2)

theorem wrapped_allOf {μ : Type} (e : SonicRoot.Env) (hi : CleanOut e.initial.out)
    (w : SonicRoot.World μ) (g : SonicRoot.Guess)
    (h : AllOf (fun x : SonicRoot.Soln => CleanOut x.out) w.run) :
    AllOf (fun x : SonicRoot.Soln => CleanOut x.out) (SonicRoot.wrapped e w g).1.run := by
  have hroot : AllOf (fun x : SonicRoot.Soln => CleanOut x.out)
      (SonicRoot.root_func e w g).1.run := by
    unfold SonicRoot.root_func
    split
    · exact h
    · split
      · exact h
      · next out hout =>
        split
        · exact h
        · next r hr =>
          unfold SonicRoot.write_solution at hr
          split_ifs at hr
          obtain ⟨⟨k, r'⟩, ha, rfl⟩ := map_ok hr
          have ho : CleanOut out := solution_clean hout
          exact add_allOf h (joined_clean hi ho) ha
  unfold SonicRoot.wrapped
  split
  · next w' hw => rw [hw] at hroot; exact hroot
  · exact hroot

theorem evaluations_allOf {μ : Type} (e : SonicRoot.Env) (hi : CleanOut e.initial.out)
    (gs : List SonicRoot.Guess) (w : SonicRoot.World μ)
    (h : AllOf (fun x : SonicRoot.Soln => CleanOut x.out) w.run) :
    AllOf (fun x : SonicRoot.Soln => CleanOut x.out) (SonicRoot.evaluations e w gs).1.run := by
  induction gs generalizing w with
  | nil => exact h
  | cons g gs ih =>
    have hw := wrapped_allOf e hi w g h
    unfold SonicRoot.evaluations
    generalize SonicRoot.wrapped e w g = q at hw
    rcases q with ⟨w', p | x⟩
    · exact hw
    · exact ih _ hw

theorem sonic_root_allOf {μ : Type} (a : SonicRoot.Args) (m : μ) (rest : List SonicRoot.Guess)
    (success : Except PyErr Bool) :
    AllOf (fun x : SonicRoot.Soln => CleanOut x.out)
      (SonicRoot.solver a ({ info := m } : Run μ SonicRoot.Soln) rest success).1 := by
  have hnew : AllOf (fun x : SonicRoot.Soln => CleanOut x.out)
      ({ info := m } : Run μ SonicRoot.Soln) :=
    ⟨fun x hx => (by cases hx), fun x hx => (by cases hx), List.nodup_nil⟩
  unfold SonicRoot.solver
  split
  · exact hnew
  · next c _ =>
    split
    · exact hnew
    · next out hout =>
      have ho : CleanOut out := solution_clean hout
      split
      · exact hnew
      · next k r ha =>
        have hr := add_allOf hnew ho ha
        split
        · exact hr
        · next stop _ =>
          dsimp only
          unfold SonicRoot.search
          split
          · exact hr
          · next best _ =>
            have he := evaluations_allOf (a.env c out stop) ho (best :: rest)
              ⟨fun _ => SonicRoot.stRow c.init_con, r⟩ hr
            generalize SonicRoot.evaluations (a.env c out stop)
              ⟨fun _ => SonicRoot.stRow c.init_con, r⟩ (best :: rest) = q at he
            rcases q with ⟨w, p | u⟩
            · exact he
            · dsimp only
              split
              · exact he
              · split
                · exact he
                · next r' hr' =>
                  unfold SonicRoot.set_final at hr'
                  split at hr'
                  · cases hr'
                  · next x hx =>
                    unfold Run.setFinal at hr'
                    split at hr'
                    · injection hr' with hr'
                      subst hr'
                      refine ⟨he.1, fun y hy => ?_, he.2.2⟩
                      injection hy with hy
                      injection hy with hy
                      subst hy
                      unfold Dict.getItem at hx
                      generalize hk : Nat.repr (w.run.solutions.length - 1) = key at hx
                      cases hg : Dict.get? w.run.solutions key with
                      | none => rw [hg] at hx; cases hx
                      | some z =>
                        rw [hg] at hx
                        injection hx with hx
                        subst hx
                        exact he.1 _ (mem_of_get hg)
                    · cases hr'

theorem sonic_root_both (scipy : SonicRootRun.Search) (big : ℝ) (st : Bool) :
    Tidy (SonicRootRun.sonic_root_solver scipy I str interp big st) ∧
      Cleans (SonicRootRun.sonic_root_solver scipy I str interp big st) := by
  have key : ∀ s info,
      (Dict.keys (SonicRootRun.sonic_root_solver scipy I str interp big st s
        { info := info }).2.solutions).Nodup ∧
      ∀ m, Has (SonicRootRun.sonic_root_solver scipy I str interp big st s
        { info := info }).2 m → m.solution_input = s ∧ CleanOut m.out := by
    intro s info
    have hnew : (Dict.keys ({ info := info } : TheRun ℝ Made).solutions).Nodup ∧
        ∀ m, Has ({ info := info } : TheRun ℝ Made) m → m.solution_input = s ∧ CleanOut m.out :=
      ⟨List.nodup_nil, fun m hm => (not_new hm).elim⟩
    unfold SonicRootRun.sonic_root_solver
    split
    · exact hnew
    · next a _ =>
      split
      · exact hnew
      · next c _ =>
        have hall := sonic_root_allOf a () (scipy s st).1 (scipy s st).2
        generalize SonicRoot.solver a ({ info := () } : Run Unit _) (scipy s st).1
          (scipy s st).2 = q at hall
        obtain ⟨r, b⟩ := q
        refine ⟨?_, fun m hm => ?_⟩
        · have : Dict.keys (r.solutions.map fun p => (p.1, SonicRootRun.inFile s c p.2)) =
              Dict.keys r.solutions := by
            simp [Dict.keys]
          dsimp only
          rw [this]
          exact hall.2.2
        · rcases hm with hm | hm
          · obtain ⟨y, hy, rfl⟩ := List.mem_map.1 hm
            obtain ⟨x, hx, rfl⟩ := List.mem_map.1 hy
            exact ⟨rfl, hall.1 x hx⟩
          · dsimp only at hm
            cases hf : r.final with
            | delayed => rw [hf] at hm; cases hm
            | value x =>
              rw [hf] at hm
              injection hm with hm
              rw [Option.map_eq_some_iff] at hm
              obtain ⟨x', rfl, rfl⟩ := hm
              exact ⟨rfl, hall.2.1 x' hf⟩
  refine ⟨fun s info => ⟨(key s info).1, fun m hm => ?_⟩, fun s info m hm =>
    ((key s info).2 m hm).2⟩
  rw [((key s info).2 m hm).1]
  exact Kept.refl s

/-- All methods. -/
theorem program_tidy {M : Bool → String → Solver ℝ Made} (hM : Program I str interp M)
    (st : Bool) (method : String) (hm : method ∈ methodNames) :
    Tidy (M st method) ∧ Cleans (M st method) := by
  obtain ⟨randn, emcee, ops, human, H, J, double, T, scipy, big, others⟩ := hM
  simp only [methodNames, List.mem_cons, List.not_mem_nil, or_false] at hm
  rcases hm with rfl | rfl | rfl | rfl | rfl | rfl | rfl
  · exact ⟨step_tidy ops human st, leaves_cleans (step_leaves ops human st)⟩
  · exact ⟨single_tidy st, leaves_cleans (single_leaves st)⟩
  · exact ⟨mcmc_tidy randn emcee st, leaves_cleans (mcmc_leaves randn emcee st)⟩
  · exact sonic_root_both scipy big st
  · exact ⟨hydrostatic_tidy H double st, hydrostatic_cleans H double st⟩
  · exact ⟨mod_hydro_tidy J T st, mod_hydro_cleans J T st⟩
  · exact ⟨crosser_tidy ops human st, leaves_cleans (crosser_leaves ops human st)⟩

/-! ## The runs in the files -/

open Cli CliSolve Hdf5Run

variable {C : Conv ℝ}

/-- What a solution behind a shock is stored with, in place of the fields on the jump across the
sonic point. -/
def NoJump (s : SolutionInput ℝ) (f : SField) : Prop :=
  f = .use_taylor_jump ∧ s f = .bool false ∨
  f ∈ [SField.jump_before_sonic, .v_θ_sonic_crit, .after_sonic, .interp_range, .interp_slice,
    .sonic_interp_size] ∧ s f = .none

/-- A value is as the text of the configuration is read; but a floating point number may be
another one, and so may the number of angles, and there may be no jump. -/
def Matches (C : Conv ℝ) (c : ConfigInput) (s : SolutionInput ℝ) : Prop :=
  ∀ f, (f.kind = .float ∧ ∃ x, s f = .float x) ∨ (f = .num_angles ∧ ∃ n, s f = .int n) ∨
    readField C f.kind (c (.s f)) = .ok (s f) ∨ NoJump s f

theorem matches_read {c : ConfigInput} {s : SolutionInput ℝ} (h : c.to_soln_input C = .ok s) :
    Matches C c s := fun f => .inr (.inr (.inl ((to_soln_input_ok _ _ _).1 h f)))

theorem Matches.kept {c : ConfigInput} {s i : SolutionInput ℝ} (h : Matches C c s)
    (hk : Kept s i) : Matches C c i := by
  intro f
  rcases hk f with h1 | h1 | h1
  · unfold NoJump
    rw [h1]; exact h f
  · exact .inl h1
  · exact .inr (.inl h1)

theorem Matches.without {c : ConfigInput} {s : SolutionInput ℝ} (h : Matches C c s) :
    Matches C c s.new_without_sonic_taylor := by
  intro f
  by_cases hf : f ∈ [SField.use_taylor_jump, .jump_before_sonic, .v_θ_sonic_crit, .after_sonic,
      .interp_range, .interp_slice, .sonic_interp_size]
  · refine .inr (.inr (.inr ?_))
    simp only [List.mem_cons, List.not_mem_nil, or_false] at hf
    rcases hf with rfl | rfl | rfl | rfl | rfl | rfl | rfl
    · exact .inl ⟨rfl, rfl⟩
    all_goals exact .inr ⟨by decide, rfl⟩
  · have hs : s.new_without_sonic_taylor f = s f := by
      cases f <;> first | rfl | exact absurd (by decide) hf
    unfold NoJump
    rw [hs]
    exact h f

/-- What holds of every run in a session. -/
structure Ready (C : Conv ℝ) (r : TheRun ℝ Made) : Prop where
  canonical : Canonical r.info.config_input
  use : ∃ b, r.info.use_E_r = .bool b
  keys : (Dict.keys r.solutions).Nodup
  clean : ∀ m, Has r m → CleanOut m.out
  inputs : ∀ m, Has r m → Matches C r.info.config_input m.solution_input

theorem matches_use {c : ConfigInput} {s : SolutionInput ℝ} (h : Matches C c s) :
    ∃ b, s .use_E_r = .bool b := by
  rcases h .use_E_r with ⟨h, -⟩ | ⟨h, -⟩ | h | ⟨h, -⟩ | ⟨h, -⟩
  · cases h
  · cases h
  rotate_left
  · cases h
  · exact absurd h (by decide)
  · simp only [SField.kind, readField] at h
    split at h
    · injection h with h
      exact ⟨_, h.symm⟩
    · cases h

theorem finalise_solutions {r r' : TheRun ℝ Made} (h : r.finalise = .ok r') :
    r'.solutions = r.solutions := by
  unfold Run.finalise at h
  split at h
  · cases hl : r.solutions.getLast with
    | error x => rw [hl] at h; cases h
    | ok s => rw [hl] at h; injection h with h; subst h; rfl
  · injection h with h; subst h; rfl

/-- Whatever becomes of it, a file which was written holds such a run. -/
theorem write_run_ready {M : Bool → String → Solver ℝ Made} (hM : Program I str interp M)
    (e : Env ℝ) (st : Bool) (method : String) (s : SolutionInput ℝ) (c : ConfigInput)
    (file a b : Option String) (hc : Canonical c) (hs : Matches C c s)
    (path : String) (fs : FS ℝ Made)
    (hfs : ∀ p r, fs.get? p = some (.run r) → Ready C r) (p : String)
    (r : TheRun ℝ Made)
    (h : (write_run e (getMethod (M st) method) s
      { info := ⟨c, file, method, s .use_E_r⟩, based_on_filename := a, based_on_solution := b }
      path fs).2.get? p = some (.run r)) : Ready C r := by
  set r₀ : TheRun ℝ Made :=
    { info := ⟨c, file, method, s .use_E_r⟩, based_on_filename := a, based_on_solution := b }
    with hr₀
  have hu := matches_use hs
  have hnew : Ready C r₀ := ⟨hc, hu, List.nodup_nil,
    fun m hm => (by rcases hm with h | h <;> cases h),
    fun m hm => (by rcases hm with h | h <;> cases h)⟩
  have hset : ∀ r₁, Ready C r₁ →
      (fs.set path (.run r₁)).get? p = some (.run r) → Ready C r := by
    intro r₁ h₁ h
    rw [Dict.get?_set] at h
    split_ifs at h
    · injection h with h
      injection h with h
      exact h ▸ h₁
    · exact hfs p r h
  unfold write_run at h
  split at h
  · exact hfs p r h
  · split at h
    · unfold getMethod at h
      by_cases hm : method ∈ methodNames
      · rw [if_pos hm] at h
        have hb := program_blind hM st method hm
        have hready : Ready C (M st method s r₀).2 := by
          have hi := blind_info hb s r₀
          obtain ⟨ht, hcl⟩ := program_tidy hM st method hm
          have hd := hb s { info := ⟨c, file, method, s .use_E_r⟩ } ⟨c, file, method, s .use_E_r⟩
            a b
          have hd' : dressed ⟨c, file, method, s .use_E_r⟩ a b
              ({ info := ⟨c, file, method, s .use_E_r⟩ } : TheRun ℝ Made) = r₀ := rfl
          rw [hd'] at hd
          refine ⟨by rw [hi]; exact hc, by rw [hi]; exact hu, ?_,
            fun m hm => ?_, fun m hm => ?_⟩
          · rw [hd]
            exact (ht s ⟨c, file, method, s .use_E_r⟩).1
          · rw [hd] at hm
            exact hcl s ⟨c, file, method, s .use_E_r⟩ m hm
          · rw [hi]
            rw [hd] at hm
            exact hs.kept ((ht s ⟨c, file, method, s .use_E_r⟩).2 m hm)
        dsimp only at h
        generalize M st method s r₀ = q at h hready
        rcases q with ⟨x | b', r₁⟩
        · exact hset _ hready h
        · dsimp only at h
          split at h
          · exact hset _ hready h
          · next r₂ hfin =>
            have hi := finalise_info hfin
            refine hset _ ⟨?_, ?_, ?_, ?_, ?_⟩ h
            · rw [hi]; exact hready.canonical
            · rw [hi]; exact hready.use
            · rw [finalise_solutions hfin]; exact hready.keys
            · exact fun m hm => hready.clean m (has_finalise hfin hm)
            · rw [hi]; exact fun m hm => hready.inputs m (has_finalise hfin hm)
      · rw [if_neg hm] at h
        exact hset _ hnew h
    · exact hfs p r h

theorem overrides_known {c c' : ConfigInput} {o : Overrides}
    (h : add_overrides (some o) c = .ok c') : ∀ k ∈ o.keys, ∃ f : CField, f.name = k := by
  intro k hk
  by_contra hn
  push Not at hn
  rw [add_overrides_unknown c o ⟨k, hk, hn⟩] at h
  cases h

theorem overrides_filled {c c' : ConfigInput} (hc : Canonical c) (hf : Complete c)
    {o : Overrides} (h : add_overrides (some o) c = .ok c') : Complete c' := by
  obtain ⟨c2, h4, -, h6, h7⟩ := add_overrides_ok c hc o (overrides_known h)
  rw [h] at h4
  injection h4 with h4
  subst h4
  intro f hb
  by_cases hk : f.name ∈ o.keys
  · cases hg : o.get? f.name with
    | none => exact absurd hk ((Dict.get?_eq_none_iff _ _).1 hg)
    | some v => rw [h6 f v hg]; exact fun h => by cases h
  · rw [h7 f hk]
    exact hf f hb

theorem file_filled {t : Option Text} {o : Overrides} {c : ConfigInput}
    (h : get_input_from_conffile t (some o) = .ok c) : Canonical c ∧ Complete c := by
  unfold get_input_from_conffile at h
  dsimp only at h
  split at h
  · cases h
  · split at h
    · cases h
    · next hn =>
      refine ⟨overrides_canonical (mk_canonical _) h, overrides_filled (mk_canonical _) ?_ h⟩
      intro f ho
      have hb : f.hasConverter = false := by
        rw [optional_iff] at ho
        simpa using ho
      have hmem : f ∈ CField.getOrder := by
        cases f with
        | label => decide
        | s f => cases f <;> decide
      have := List.findSome?_eq_none_iff.1 hn f hmem
      simp only [ConfigInput.mk, hb]
      generalize Cfg.get _ f.section f.name.toList f.fallback = g at this ⊢
      cases g with
      | error x => cases this
      | ok v => exact fun h => by cases h

theorem resolved_matches {c c' : ConfigInput} {old s : SolutionInput ℝ} {o : Overrides}
    (hc : Canonical c) (hm : Matches C c old)
    (h : new_inputs_with_overrides C c old (some o) = .ok (c', s)) :
    Canonical c' ∧ (Complete c → Complete c') ∧ Matches C c' s := by
  unfold new_inputs_with_overrides at h
  simp only [Option.getD_some, Bind.bind, Except.bind] at h
  split at h
  · cases h
  · next c₁ h1 =>
    obtain ⟨c2, h4, -, -, h7⟩ := add_overrides_ok c hc o (overrides_known h1)
    rw [h1] at h4
    injection h4 with h4
    subst h4
    have hcan := overrides_canonical hc h1
    have hfil := fun hf => overrides_filled hc hf h1
    split at h
    · cases h
    · next s₁ h2 =>
      have hr := matches_read h2
      split at h
      · cases h
      · split at h
        · injection h with h
          injection h with h h'
          subst h h'
          exact ⟨hcan, hfil, hr⟩
        · injection h with h
          injection h with h h'
          subst h h'
          refine ⟨hcan, hfil, fun f => ?_⟩
          unfold NoJump
          dsimp only
          split_ifs with hu
          · have hk : f.name ∉ o.keys := by
              have := (List.mem_filter.1 hu).2
              rw [Bool.and_eq_true] at this
              simpa using this.1
            have := h7 (.s f) hk
            rw [this]
            exact hm f
          · exact hr f

/-- Every run in a session is so. -/
theorem session_ready {fs : FS ℝ Made} (h : Session C I str interp fs) :
    ∀ p r, fs.get? p = some (.run r) → Ready C r := by
  induction h with
  | start fs h => exact fun p r hr => (h p r hr).elim
  | elsewhere fs fs' _ hsub ih =>
    intro p r hr
    obtain ⟨q, hq⟩ := hsub p r hr
    exact ih q r hq
  | soln e M read config_file given fs he hM ht _ ih =>
    subst he
    intro p r hr
    by_cases ha : Cli.accepted soln_options given = true
    swap
    · rw [soln_usage_error e M read config_file given fs (by simpa using ha)] at hr
      exact ih p r hr
    by_cases hk : KnownFields given
    swap
    · rw [soln_unknown_field e M read config_file given fs ht ha hk] at hr
      exact ih p r hr
    obtain ⟨ov, -, h2⟩ := soln_effective e M read config_file given fs ht ha hk
    rw [h2] at hr
    have hfs : ∀ q : Except PyErr (String × Bool) × FS ℝ Made,
        (report (Logging.log_handler (logGiven given)) q).fs = q.2 := by
      rintro ⟨x | x, y⟩ <;> rfl
    rw [hfs] at hr
    rcases solve_cases e (M (!isGiven given "--no-store-internal"))
      ⟨textGiven given "--output-file", (textGiven given "--sonic-method").getD "single",
        config_file, (textGiven given "--output-dir").getD ".", some ov⟩
      (read config_file) fs with ⟨x, hx⟩ | ⟨c, s, name, h3, h4, -, hx⟩
    · rw [hx] at hr
      exact ih p r hr
    · rw [hx, with_path_fs] at hr
      obtain ⟨k1, -⟩ := file_filled h3
      exact write_run_ready hM e _ _ s c _ none none k1 (matches_read h4) _ fs ih p r hr
  | resoln e M file range given fs he hM ht _ ih =>
    subst he
    intro p r hr
    by_cases ha : Cli.accepted soln_options given = true
    swap
    · rw [resoln_usage_error e _ M file range given fs (by simpa using ha)] at hr
      exact ih p r hr
    by_cases hk : KnownFields given
    swap
    · rw [resoln_unknown_field e _ M file range given fs ht ha hk] at hr
      exact ih p r hr
    obtain ⟨ov, -, h2⟩ := resoln_effective e Made.solution_input M file range given fs ht ha hk
    rw [h2] at hr
    have hfs : ∀ q : Except PyErr (String × Bool) × FS ℝ Made,
        (report (Logging.log_handler (logGiven given)) q).fs = q.2 := by
      rintro ⟨x | x, y⟩ <;> rfl
    rw [hfs] at hr
    rcases resolve_cases e Made.solution_input (M (!isGiven given "--no-store-internal"))
      ⟨textGiven given "--output-file", (textGiven given "--sonic-method").getD "single",
        file, some range, (textGiven given "--output-dir").getD ".", some ov⟩ fs with
      ⟨x, hx⟩ | ⟨old, f, sol, c, s, name, hold, hget, hsol, h3, -, hx⟩
    · rw [hx] at hr
      exact ih p r hr
    · rw [hx, with_path_fs] at hr
      have hg := ih _ _ hold
      have hhas : Has old sol := has_of_found (hsol ▸ hget)
      obtain ⟨k1, -, k3⟩ := resolved_matches hg.canonical (hg.inputs sol hhas) h3
      exact write_run_ready hM e _ _ s c _ _ _ k1 k3 _ fs ih p r hr
  | hdf5runner e M sniff lines name input_file given fs schedule pool he hM _ hp ih =>
    subst he
    intro p r hr
    rcases table_runs hp p r hr with h |
      ⟨st, method, ov, d, c₀, c, s, a, b, -, -, h1, h2, h3, h4⟩
    · exact ih p r h
    · have hc := overrides_canonical (ofDict_canonical h1) h2
      rcases h4 with rfl | h4
      · exact ⟨hc, matches_use (matches_read h3), List.nodup_nil,
          fun m hm => (by rcases hm with h | h <;> cases h),
          fun m hm => (by rcases hm with h | h <;> cases h)⟩
      · exact write_run_ready hM _ st method s c none a b hc (matches_read h3) "" []
          (fun _ _ h => by cases h) "" r h4
  | shock e stamp file range fs schedule pool _ hp ih =>
    intro p r hr
    rcases ShockFiles.shock_runs hp p r hr with h |
      ⟨old, m, θ, row, made, h1, -, hm, -, -, -, -, h2, -, h3⟩
    · exact ih p r h
    · have hg := ih _ _ h1
      obtain ⟨k1, -, -, tol, o, a, k2⟩ := ShockFiles.continuation_ok h2
      rcases h3 with rfl | rfl
      · exact ⟨hg.canonical, hg.use, List.nodup_nil,
          fun m hm => (by rcases hm with h | h <;> cases h),
          fun m hm => (by rcases hm with h | h <;> cases h)⟩
      · have only : ∀ r' : TheRun ℝ Made, r'.solutions = [("0", made)] →
            r'.final = .value (some made) → ∀ m', Has r' m' → m' = made := by
          intro r' g1 g2 m' hm
          rcases hm with h | h
          · rw [g1] at h
            simpa using h
          · rw [g2] at h
            injection h with h
            injection h with h
            exact h.symm
        refine ⟨hg.canonical, hg.use, by simp [Dict.keys], fun m' hm' => ?_, fun m' hm' => ?_⟩
        · rw [only _ rfl rfl m' hm']
          exact solution_clean k2
        · rw [only _ rfl rfl m' hm', k1]
          exact (hg.inputs m (has_of_found hm)).without

/-! ## Which configurations are complete -/

/-- A run in a file which was written has the configuration it began with. -/
theorem write_run_config {M : Bool → String → Solver ℝ Made} (hM : Program I str interp M)
    (e : Env ℝ) (st : Bool) (method : String) (s : SolutionInput ℝ) (r₀ : TheRun ℝ Made)
    (path : String) (fs : FS ℝ Made) (p : String) (r : TheRun ℝ Made)
    (h : (write_run e (getMethod (M st) method) s r₀ path fs).2.get? p = some (.run r)) :
    fs.get? p = some (.run r) ∨ r.info = r₀.info := by
  have hset : ∀ r₁ : TheRun ℝ Made, r₁.info = r₀.info →
      (fs.set path (.run r₁)).get? p = some (.run r) →
      fs.get? p = some (.run r) ∨ r.info = r₀.info := by
    intro r₁ h₁ h
    rw [Dict.get?_set] at h
    split_ifs at h
    · injection h with h
      injection h with h
      exact .inr (h ▸ h₁)
    · exact .inl h
  unfold write_run at h
  split at h
  · exact .inl h
  · split at h
    · unfold getMethod at h
      by_cases hm : method ∈ methodNames
      · rw [if_pos hm] at h
        have hi := blind_info (program_blind hM st method hm) s r₀
        dsimp only at h
        generalize M st method s r₀ = q at h hi
        rcases q with ⟨x | b', r₁⟩
        · exact hset _ hi h
        · dsimp only at h
          split at h
          · exact hset _ hi h
          · next r₂ hfin => exact hset _ ((finalise_info hfin).trans hi) h
      · rw [if_neg hm] at h
        exact hset _ rfl h
    · exact .inl h

/-- Every run in the files has a complete configuration. -/
def AllComplete (fs : FS ℝ Made) : Prop :=
  ∀ p r, fs.get? p = some (.run r) → Complete r.info.config_input

/-- C116. `ds-soln` leaves only complete configurations. -/
theorem soln_complete (e : Env ℝ) {M : Bool → String → Solver ℝ Made}
    (hM : Program I str interp M) (read : String → Option Text) (config_file : String)
    (given : List Occ) (fs : FS ℝ Made) (ht : CliSolve.Typed given) (h : AllComplete fs) :
    AllComplete (ds_soln e M read config_file given fs).fs := by
  intro p r hr
  by_cases ha : Cli.accepted soln_options given = true
  swap
  · rw [soln_usage_error e M read config_file given fs (by simpa using ha)] at hr
    exact h p r hr
  by_cases hk : KnownFields given
  swap
  · rw [soln_unknown_field e M read config_file given fs ht ha hk] at hr
    exact h p r hr
  obtain ⟨ov, -, h2⟩ := soln_effective e M read config_file given fs ht ha hk
  rw [h2] at hr
  have hfs : ∀ q : Except PyErr (String × Bool) × FS ℝ Made,
      (report (Logging.log_handler (logGiven given)) q).fs = q.2 := by
    rintro ⟨x | x, y⟩ <;> rfl
  rw [hfs] at hr
  rcases solve_cases e (M (!isGiven given "--no-store-internal"))
    ⟨textGiven given "--output-file", (textGiven given "--sonic-method").getD "single",
      config_file, (textGiven given "--output-dir").getD ".", some ov⟩
    (read config_file) fs with ⟨x, hx⟩ | ⟨c, s, name, h3, h4, -, hx⟩
  · rw [hx] at hr
    exact h p r hr
  · rw [hx, with_path_fs] at hr
    rcases write_run_config hM e _ _ s _ _ fs p r hr with h' | h'
    · exact h p r h'
    · rw [h']
      exact (file_filled h3).2

/-- C116. So does `ds-resoln`, if those it starts from are complete. -/
theorem resoln_complete {e : Env ℝ} {M : Bool → String → Solver ℝ Made}
    (hM : Program I str interp M) (file range : String) (given : List Occ) {fs : FS ℝ Made}
    (ht : CliSolve.Typed given) (hs : Session e.conv I str interp fs) (h : AllComplete fs) :
    AllComplete (ds_resoln e Made.solution_input M file range given fs).fs := by
  intro p r hr
  by_cases ha : Cli.accepted soln_options given = true
  swap
  · rw [resoln_usage_error e _ M file range given fs (by simpa using ha)] at hr
    exact h p r hr
  by_cases hk : KnownFields given
  swap
  · rw [resoln_unknown_field e _ M file range given fs ht ha hk] at hr
    exact h p r hr
  obtain ⟨ov, -, h2⟩ := resoln_effective e Made.solution_input M file range given fs ht ha hk
  rw [h2] at hr
  have hfs : ∀ q : Except PyErr (String × Bool) × FS ℝ Made,
      (report (Logging.log_handler (logGiven given)) q).fs = q.2 := by
    rintro ⟨x | x, y⟩ <;> rfl
  rw [hfs] at hr
  rcases resolve_cases e Made.solution_input (M (!isGiven given "--no-store-internal"))
    ⟨textGiven given "--output-file", (textGiven given "--sonic-method").getD "single",
      file, some range, (textGiven given "--output-dir").getD ".", some ov⟩ fs with
    ⟨x, hx⟩ | ⟨old, f, sol, c, s, name, hold, hget, hsol, h3, -, hx⟩
  · rw [hx] at hr
    exact h p r hr
  · rw [hx, with_path_fs] at hr
    have hg := session_ready hs _ _ hold
    have hhas : Has old sol := has_of_found (hsol ▸ hget)
    obtain ⟨-, k2, -⟩ := resolved_matches hg.canonical (hg.inputs sol hhas) h3
    rcases write_run_config hM e _ _ s _ _ fs p r hr with h' | h'
    · exact h p r h'
    · rw [h']
      exact k2 (h _ _ hold)

/-- C116. So does `ds-hdf5runner`, if no row of the table is shorter than its header. -/
theorem table_complete {e : Env ℝ} {M : Bool → String → Solver ℝ Made}
    (hM : Program I str interp M) {sniff : Text → Except PyErr (List Text)}
    {lines : String → List Text} {name : ℕ → String} {input_file : String} {given : List Occ}
    {fs : FS ℝ Made} {schedule : List ℕ} {pool : Pool ℝ Made} {header : List Text}
    {rows : List (List Text)} (htable : IsTable sniff (lines input_file) header rows)
    (hlong : ∀ row ∈ rows, header.length ≤ row.length)
    (hp : Hdf5Run.ds_hdf5runner e M sniff lines name input_file given fs schedule = .ok pool)
    (h : AllComplete fs) : AllComplete pool.fs := by
  intro p r hr
  rcases table_runs hp p r hr with h' |
    ⟨st, method, ov, d, c₀, c, s, a, b, -, ⟨label, inputs, hin, hd⟩, h1, h2, h3, h4⟩
  · exact h p r h'
  · obtain ⟨⟨items, hitems, hi, hread⟩, hnodup, hneed, guess, hsniff, hguess⟩ := htable
    obtain ⟨inputs', hinputs, hall⟩ := Csv.csv_file_inputs sniff items label header rows guess
      hitems hi hnodup hsniff hguess
    rw [← hread, hin] at hinputs
    injection hinputs with hinputs
    subst hinputs
    obtain ⟨row, hrow, hir⟩ : ∃ row ∈ rows, Csv.IsInput header row label d := by
      obtain ⟨i, hi, rfl⟩ := List.getElem_of_mem hd
      have hi' : i < rows.length := hall.length_eq ▸ hi
      exact ⟨rows[i], List.getElem_mem hi', (List.forall₂_iff_get.1 hall).2 i hi' hi⟩
    have hc₀ : Complete c₀ := by
      intro f ho
      have hb : f.hasConverter = false := by
        rw [optional_iff] at ho
        simpa using ho
      have hv := field_inRow hir hneed f
      unfold ConfigInput.ofDict at h1
      split_ifs at h1
      injection h1 with h1
      subst h1
      simp only [ConfigInput.mk, hb, get?_withoutIds]
      generalize (d.get? f.name.toList).getD (CField.default f) = v at hv
      unfold InRow at hv
      split_ifs at hv
      · subst hv
        exact fun h => by cases h
      · rcases hv with ⟨j, hj, rfl⟩ | ⟨-, t, ht, rfl⟩
        · have hlt := (List.getElem?_eq_some_iff.1 hj).1
          have := hlong row hrow
          rw [List.getElem?_eq_getElem (by omega)]
          exact fun h => by cases h
        · cases t with
          | some t => exact fun h => by cases h
          | none =>
            exfalso
            apply ho
            clear * - ht
            revert ht
            cases f with
            | label => decide +kernel
            | s f => cases f <;> decide +kernel
    have hc := overrides_filled (ofDict_canonical h1) hc₀ h2
    rcases h4 with rfl | h4
    · exact hc
    · rcases write_run_config hM _ st method s _ "" [] "" r h4 with h' | h'
      · cases h'
      · rw [h']
        exact hc

/-- C116. So does `ds-shock`. -/
theorem shock_complete {e : Env ℝ} {stamp : ℕ → String} {file range : String}
    {fs : FS ℝ Made} {schedule : List ℕ} {pool : Pool ℝ Made}
    (hp : ShockFiles.ds_shock e stamp I str interp file range fs schedule = .ok pool)
    (h : AllComplete fs) : AllComplete pool.fs := by
  intro p r hr
  rcases ShockFiles.shock_runs hp p r hr with h' |
    ⟨old, m, θ, row, made, h1, -, -, -, -, -, -, -, -, rfl | rfl⟩
  · exact h p r h'
  · exact h _ old h1
  · exact h _ old h1

/-! ## What can be saved -/

/-- The values of a stored solution, if its whole numbers could be read. -/
theorem matches_shape {c : ConfigInput} {s : SolutionInput ℝ} (h : Matches C c s) (hf : Complete c)
    (hw : ∀ f ∈ wholeNumbers, ∃ n, C.str_to_int (c (.s f)) = some n) (f : SField) :
    Shape f.kind (s f) := by
  rcases h f with ⟨h1, h2⟩ | ⟨rfl, h2⟩ | h1 | ⟨rfl, h2⟩ | ⟨h1, h2⟩
  · rw [h1]; exact h2
  · exact h2
  rotate_left
  · exact ⟨_, h2⟩
  · rw [h2]
    simp only [List.mem_cons, List.not_mem_nil, or_false] at h1
    rcases h1 with rfl | rfl | rfl | rfl | rfl | rfl <;> exact .inl rfl
  · have hstr : f.kind = .str → c (.s f) ≠ none := by
      intro hk
      refine hf.text ?_
      cases f <;> first | rfl | cases hk
    have hint : f.kind = .int → ∃ n, C.str_to_int (c (.s f)) = some n := by
      intro hk
      refine hw f ?_
      cases f <;> first | decide | cases hk
    generalize f.kind = k at *
    generalize c (.s f) = t at *
    have hfloat : readFloat C t = .ok (s f) → ∃ x, s f = .float x := by
      intro h
      unfold readFloat at h
      split at h
      · injection h with h; exact ⟨_, h.symm⟩
      · cases h
    cases k with
    | float => exact hfloat h1
    | int =>
      obtain ⟨n, hn⟩ := hint rfl
      simp only [readField, readInt, hn] at h1
      injection h1 with h1
      exact ⟨n, h1.symm⟩
    | bool =>
      simp only [readField] at h1
      split at h1
      · injection h1 with h1; exact ⟨_, h1.symm⟩
      · cases h1
    | str =>
      cases t with
      | none => exact absurd rfl (hstr rfl)
      | some t =>
        simp only [readField] at h1
        injection h1 with h1
        exact ⟨t, h1.symm⟩
    | optFloat =>
      simp only [readField] at h1
      split_ifs at h1
      · injection h1 with h1; exact .inl h1.symm
      · exact .inr (hfloat h1)
    | optInt =>
      simp only [readField] at h1
      split_ifs at h1
      · injection h1 with h1; exact .inl h1.symm
      · injection h1 with h1
        unfold readInt at h1
        split at h1
        · exact .inr ⟨_, h1.symm⟩
        · exact .inl h1.symm
    | slice =>
      simp only [readField] at h1
      split at h1
      · injection h1 with h1; exact .inr ⟨_, h1.symm⟩
      · injection h1 with h1; exact .inl h1.symm
      · cases h1
    | mcmc =>
      simp only [readField] at h1
      split at h1
      · injection h1 with h1; exact .inr ⟨_, h1.symm⟩
      · injection h1 with h1; exact .inl h1.symm

/-- C116. Every run which is finished, in any file left by any commands, and whose configuration
is complete and has whole numbers where it must: it can be saved, the file can be loaded, and
what is loaded is what was saved. -/
theorem saved_partial {fs : FS ℝ Made} (h : Session C I str interp fs) (p : String) (r : TheRun ℝ Made)
    (hr : fs.get? p = some (.run r)) (hfin : r.final ≠ .delayed)
    (hc : Complete r.info.config_input)
    (hw : ∀ f ∈ wholeNumbers, ∃ n, C.str_to_int (r.info.config_input (.s f)) = some n)
    (x : Extras) (E : FileFormat.Env) :
    ∃ n o, write (run x r) = .ok n ∧ read E n = .ok o ∧ Same (run x r) o := by
  have hg := session_ready h p r hr
  have hfit := run_fits x r hc hg.canonical hg.use hfin hg.keys fun m hm =>
    ⟨matches_shape (hg.inputs m hm) hc hw, hg.clean m hm⟩
  obtain ⟨n, o, h1, h2, h3, -⟩ := file_round_trip E .Run _ hfit
  exact ⟨n, o, h1, h2, h3⟩

/-! ## What cannot -/

/-- A member which cannot be written. -/
theorem member_not_saved (c : Cls) (fields : List (String × Obj)) (k : String) (o : Obj)
    (x : PyErr) (hk : k ∈ (dumper c).members) (hl : fields.lookup k = some o)
    (h : write o = .error x) : ∃ e, write (.obj c fields) = .error e := by
  cases hw : write (.obj c fields) with
  | error e => exact ⟨e, rfl⟩
  | ok n =>
    obtain ⟨as, ns, -, -, -, hm⟩ := write_inv c fields n hw
    obtain ⟨o', y, ho, hy, -⟩ := hm k hk
    rw [hl] at ho
    cases ho
    rw [h] at hy
    cases hy

theorem writeFields_mem {l : List (String × Obj)} {k : String} {o : Obj} (h : (k, o) ∈ l) :
    (k, write o) ∈ writeFields l := by
  induction l with
  | nil => cases h
  | cons e l ih =>
    obtain ⟨k', o'⟩ := e
    rw [writeFields]
    rcases List.mem_cons.1 h with h' | h'
    · cases h'
      exact List.mem_cons_self
    · exact List.mem_cons_of_mem _ (ih h')

theorem input_lookup (s : SolutionInput ℝ) (f : SField) :
    (SField.all.map fun f => (f.name, value (s f))).lookup f.name = some (value (s f)) := by
  refine lookup_of_mem ?_ (List.mem_map.2 ⟨f, ?_, rfl⟩)
  · rw [List.map_map]
    change (SField.all.map SField.name).Nodup
    decide +kernel
  · cases f <;> decide

/-- C116. What is not a whole number, where there must be one: `str_to_int` makes it `None`
without complaint, the method runs, and then neither its solutions nor the run can be saved. -/
theorem unreadable_not_saved {fs : FS ℝ Made} (h : Session C I str interp fs) (p : String)
    (r : TheRun ℝ Made) (hr : fs.get? p = some (.run r)) (f : SField) (hf : f ∈ wholeNumbers)
    (hn : f ≠ .num_angles) (hu : C.str_to_int (r.info.config_input (.s f)) = none) (m : Made)
    (hm : Has r m) (x : Extras) :
    m.solution_input f = .none ∧ (∃ e, write (soln m) = .error e) ∧
      ∃ e, write (run x r) = .error e := by
  have hg := session_ready h p r hr
  have hk : f.kind = .int ∧ f.name ∈ (dumper .SolutionInput).attrs := by
    simp only [wholeNumbers, List.mem_cons, List.not_mem_nil, or_false] at hf
    rcases hf with rfl | rfl | rfl | rfl | rfl <;> exact ⟨rfl, by decide +kernel⟩
  have hv : m.solution_input f = .none := by
    rcases hg.inputs m hm f with ⟨h1, -⟩ | ⟨h1, -⟩ | h1 | ⟨rfl, -⟩ | ⟨h1, -⟩
    · rw [hk.1] at h1; cases h1
    · exact absurd h1 hn
    rotate_left
    · cases hk.1
    · exfalso
      simp only [wholeNumbers, List.mem_cons, List.not_mem_nil, or_false] at hf h1
      rcases hf with rfl | rfl | rfl | rfl | rfl <;> simp at h1
    · rw [hk.1] at h1
      simp only [readField, readInt, hu] at h1
      injection h1 with h1
      exact h1.symm
  obtain ⟨e₁, h1⟩ : ∃ e, write (input m.solution_input) = .error e := by
    have hl := input_lookup m.solution_input f
    rw [hv] at hl
    unfold input
    exact unknown_not_saved .SolutionInput _ f.name hk.2 hl
  obtain ⟨e₂, h2⟩ : ∃ e, write (soln m) = .error e := by
    unfold soln
    exact member_not_saved .Solution _ "solution_input" (input m.solution_input) e₁
      (by decide +kernel) (by rw [List.lookup_cons_self]) h1
  refine ⟨hv, ⟨e₂, h2⟩, ?_⟩
  rcases hm with hm | hm
  · obtain ⟨q, hq, hqm⟩ := List.mem_map.1 hm
    have hmem : (q.1, soln m) ∈ r.solutions.map fun p => (p.1, soln p.2) :=
      List.mem_map.2 ⟨q, hq, by rw [hqm]⟩
    have hw := writeFields_mem hmem
    rw [h2] at hw
    obtain ⟨e₃, h3⟩ := collect_error _ _ _ hw
    have h4 : write (.solutions (r.solutions.map fun p => (p.1, soln p.2))) = .error e₃ := by
      rw [write, h3]
    unfold run
    exact member_not_saved .Run _ "solutions" _ e₃ (by decide +kernel)
      (by simp [List.lookup_cons]) h4
  · have h4 : write (final r.final) = .error e₂ := by
      rw [hm, final, opt]
      exact h2
    unfold run
    exact member_not_saved .Run _ "final_solution" _ e₂ (by decide +kernel)
      (by simp [List.lookup_cons]) h4

/-- C116. A configuration which is not complete cannot be saved, and so neither can its run. -/
theorem incomplete_not_saved (r : TheRun ℝ Made) (f : CField) (hf : f ∉ optional)
    (hn : r.info.config_input f = none) (x : Extras) : ∃ e, write (run x r) = .error e := by
  obtain ⟨e₁, h1⟩ : ∃ e, write (config r.info.config_input) = .error e := by
    unfold config
    refine unknown_not_saved .ConfigInput _ f.name ?_ ?_
    · revert hf
      cases f with
      | label => decide +kernel
      | s f => cases f <;> decide +kernel
    · refine lookup_of_mem ?_ (List.mem_map.2 ⟨f, ?_, by rw [hn]; rfl⟩)
      · rw [List.map_map]
        change (CField.all.map CField.name).Nodup
        decide +kernel
      · cases f with
        | label => decide
        | s f => cases f <;> decide
  unfold run
  exact member_not_saved .Run _ "config_input" _ e₁ (by decide +kernel)
    (by rw [List.lookup_cons_self]) h1

/-- C116. A run which ended before it had a final solution: if what there is can be saved, the
file cannot be loaded. -/
theorem unfinished_not_loaded (r : TheRun ℝ Made) (hfin : r.final = .delayed) (x : Extras)
    (E : FileFormat.Env) (n : Node) (hw : write (run x r) = .ok n) :
    ∃ e, read E n = .error e := by
  unfold run at hw
  refine unfinished_run_unreadable E _ n ?_ hw
  simp [List.lookup_cons, hfin, final]

/-! ## Cases -/

open EndToEnd ConfDoc

/-- The number of threads is not read by `single`. -/
theorem threads_unused (st : Bool) (s : SolutionInput ℝ) (v : SVal ℝ) (m : Made)
    (h : single_solution I str interp st s = .ok m) :
    ∃ m', single_solution I str interp st (Function.update s .threads v) = .ok m' := by
  have h1 : conditions (Function.update s .threads v) = conditions s := rfl
  have h2 : tolerances (Function.update s .threads v) = tolerances s := rfl
  have h3 : solveOpts (Function.update s .threads v) = solveOpts s := rfl
  unfold single_solution at h ⊢
  simp only [EndToEnd.bind_ok] at h ⊢
  obtain ⟨c, hc, tol, ht, o, ho, out, hs, -⟩ := h
  exact ⟨_, c, h1.trans hc, tol, h2.trans ht, o, h3.trans ho, out, hs, rfl⟩

theorem witFirst_whole {r : TheRun ℝ Made} {m : Made}
    (h : Stored witConvR witStay (fun _ => "") (fun _ _ => none) witDoc witGiven true r m)
    (f : SField) : r.info.config_input (.s f) = some (kept f.name (witAsked (.s f))) := by
  obtain ⟨v, hv, e⟩ := h.config (.s f)
  rw [e, asked_unique witDoc_good witGiven (.s f) hv (wit_asked (.s f))]
  rfl

/-- A run whose number of threads is not one of the whole numbers which can be read. -/
example (x : Extras) : ∃ r m, witFirst.get? witFile = some (.run r) ∧ Has r m ∧
    m.solution_input .threads = .none ∧ ∃ e, write (run x r) = .error e := by
  obtain ⟨r, m, hr, hst⟩ := history_stored witDoc_good wit_history.1
  have hm : Has r m := by
    refine .inr ?_
    rw [hst.run]
  obtain ⟨h1, -, h2⟩ := unreadable_not_saved witFirst_session witFile r hr .threads (by decide)
    (by decide) (by rw [witFirst_whole hst]; decide +kernel) m hm x
  exact ⟨r, m, hr, hm, h1, h2⟩

/-- Solve again, with a number of threads which can be read. -/
def witThreads : List Occ :=
  [("--override", .pairs [("threads", "8")]), ("--output-file", .str "b.hdf5")]

theorem witThreads_typed : CliSolve.Typed witThreads := by
  constructor
  · intro name hn v hv
    simp only [witThreads, List.mem_cons, Prod.mk.injEq, List.not_mem_nil, or_false] at hv
    rcases hv with ⟨rfl, -⟩ | ⟨-, rfl⟩
    · exact absurd hn (by decide)
    · exact ⟨_, rfl⟩
  · intro v hv
    simp only [witThreads, List.mem_cons, Prod.mk.injEq, List.not_mem_nil, or_false] at hv
    rcases hv with ⟨-, rfl⟩ | ⟨h, -⟩
    · exact ⟨_, rfl⟩
    · exact absurd h (by decide)

theorem witThreads_known : KnownFields witThreads := by
  intro p hp
  have : p = ("threads", "8") := by
    revert hp
    simp [witThreads, overridesGiven]
  subst this
  exact ⟨.s .threads, rfl⟩

theorem witThreads_override (f : SField) : overrideGiven witThreads f.name =
    if f = .threads then some "8" else none := by
  cases f <;> decide +kernel

theorem witFirst_complete : AllComplete witFirst := by
  have h := soln_complete witEnvR witAll_program (fun _ => some witDoc.text) "a.cfg" witGiven []
    wit_typed fun p r hr => by cases hr
  rw [soln_congr witEnvR witAll (SingleRun.methods witStay (fun _ => "") (fun _ _ => none)
    fun _ _ _ r => (.error .SolverError, r)) _ _ _ _ wit_typed (by decide +kernel) wit_known
    (by
      intro st
      rw [show (textGiven witGiven "--sonic-method").getD "single" = "single" by decide +kernel]
      rfl)] at h
  exact h

/-- A table with one row. -/
def witOne : String → List Text := fun _ =>
  Csv.rawLines ([.row witHeader, .row witRow].map Csv.Item.text).flatten

theorem witOne_ok : IsTable (fun _ => .ok [[]]) (witOne "t.csv") witHeader [witRow] where
  text := by
    refine ⟨[.row witHeader, .row witRow], ?_, rfl, rfl⟩
    intro i hi
    simp only [List.mem_cons, List.not_mem_nil, or_false] at hi
    rcases hi with rfl | rfl <;> simp only [Csv.Item.OneLine] <;> decide +kernel
  nodup := by decide +kernel
  needed := by decide +kernel
  sniffed := ⟨[[]], rfl, by simp⟩

/-- The table, after `ds-soln`, worked on to its end. -/
example : ∃ pool, Hdf5Run.ds_hdf5runner witEnvR witAll (fun _ => .ok [[]]) witOne witNames
      "t.csv" witLine witFirst [0, 0] = .ok pool ∧
    Session witConvR witStay (fun _ => "") (fun _ _ => none) pool.fs ∧ AllComplete pool.fs := by
  have hown : OwnFiles witEnvR witNames witLine witFirst 1 := by
    refine ⟨fun i k hi hk _ => by omega, fun i hi => ?_, fun i _ => rfl⟩
    obtain rfl : i = 0 := by omega
    exact wit_history.2 _ (by decide +kernel)
  obtain ⟨pool, hp, -⟩ := table_rows witEnvR witAll (fun _ => .ok [[]]) witOne witNames "t.csv"
    witLine witFirst [0, 0] witHeader [witRow] witOne_ok witLine_typed
    (by decide +kernel) witLine_known _ rfl hown
  refine ⟨pool, hp, .hdf5runner witEnvR witAll _ _ _ _ _ _ _ _ rfl witAll_program
    witFirst_session hp, table_complete witAll_program witOne_ok ?_ hp witFirst_complete⟩
  intro row hrow
  rw [List.mem_singleton] at hrow
  subst hrow
  simp [witHeader, Hdf5Run.witRow]

example (x : Extras) (s : ConfigInput) (h : s .label = none) :=
  incomplete_not_saved { info := ⟨s, none, "single", .bool false⟩ } .label (by decide) h x

/-- It is stored so that it can be saved and loaded. -/
example (x : Extras) (E : FileFormat.Env) :
    ∃ r n o, (ds_resoln witEnvLater Made.solution_input witAll witFile "final" witThreads
        witFirst).fs.get? "./b.hdf5" = some (.run r) ∧
      write (run x r) = .ok n ∧ read E n = .ok o ∧ Same (run x r) o := by
  obtain ⟨old, m, hr, hst⟩ := history_stored witDoc_good wit_history.1
  have hfound : old.getSolutions (some "final") = .ok (.soln m) := by
    rw [hst.run]
    exact range_found _ _ _ _ _ _ (by decide)
  have hdone : old.final ≠ .delayed := by rw [hst.run]; intro h; cases h
  obtain ⟨s, h1, -, -, r, h3, h4, h5, -, -, -, -, -, h8⟩ := solved_with witConv_eq
    witFirst_session witEnvLater rfl witAll_program witFile "final" witThreads old m hr hdone
    hfound witThreads_typed (by decide +kernel) witThreads_known (by decide +kernel)
    (fun f w hw => by
      rw [witThreads_override] at hw
      split_ifs at hw with hf
      injection hw with hw
      subst hf hw
      exact ⟨_, rfl⟩) "b.hdf5" (Or.inl (by decide +kernel)) "./b.hdf5" (by decide +kernel)
    (wit_history.2 _ (by decide +kernel)) rfl
  have hs : s = Function.update m.solution_input .threads (s .threads) := by
    funext f
    by_cases hf : f = .threads
    · subst hf; simp
    · rw [Function.update_of_ne hf]
      exact h1 f (by rw [witThreads_override, if_neg hf])
  have hst' : (!isGiven witThreads "--no-store-internal") = true := by decide +kernel
  rw [hst'] at h8
  obtain ⟨m', hm'⟩ := threads_unused true _ (s .threads) _ hst.made
  rw [← hs] at hm'
  rw [hm'] at h8
  have hfin : r.final ≠ .delayed := by rw [h8.2.2.2]; intro h; cases h
  have hsess : Session witConvR witStay (fun _ => "") (fun _ _ => none)
      (ds_resoln witEnvLater Made.solution_input witAll witFile "final" witThreads
        witFirst).fs :=
    .resoln witEnvLater witAll witFile "final" witThreads _ rfl witAll_program witThreads_typed
      witFirst_session
  have hwhole : ∀ f ∈ wholeNumbers,
      ∃ n, witConvR.str_to_int (r.info.config_input (.s f)) = some n := by
    intro f hf
    by_cases ht : f = .threads
    · subst ht
      rw [h5 (.s .threads) "8" (witThreads_override .threads)]
      exact ⟨8, by decide +kernel⟩
    · rw [h4 (.s f) ((witThreads_override f).trans (if_neg ht)), witFirst_whole hst]
      simp only [wholeNumbers, List.mem_cons, List.not_mem_nil, or_false] at hf
      rcases hf with rfl | rfl | rfl | rfl | rfl
      · exact ⟨10000, by decide +kernel⟩
      · exact ⟨3, by decide +kernel⟩
      · exact ⟨8, by decide +kernel⟩
      · exact ⟨3, by decide +kernel⟩
      · exact absurd rfl ht
  have hcomplete : Complete r.info.config_input :=
    resoln_complete witAll_program witFile "final" witThreads witThreads_typed witFirst_session
      witFirst_complete "./b.hdf5" r h3
  obtain ⟨n, o, h⟩ := saved_partial hsess "./b.hdf5" r h3 hfin hcomplete hwhole x E
  exact ⟨r, n, o, h3, h⟩

example (x : Extras) (E : FileFormat.Env) (c : ConfigInput) (n : Node) :=
  unfinished_not_loaded { info := ⟨c, none, "single", .bool false⟩ } rfl x E n

end DiscSolver.Saving
