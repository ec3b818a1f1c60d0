import Verif.Model.Hdf5Run
import Verif.Spec.Hdf5Run
import Verif.Props.Hdf5Runner
import Verif.Props.HydroMethods
import Verif.Props.McmcRun

/-!
# Properties: every row of a table is solved as ds-soln would solve it

C112.
-/

namespace DiscSolver.Hdf5Run

open Runners CliSolve Cli EndToEnd
open Csv (IsInput get_csv_inputs)
open ConfDoc (converter_eq)

variable {F σ : Type}

/-! ## The configuration of a row -/

theorem filter_nodup (d : Dict Text (Option Text)) (p : Text × Option Text → Bool)
    (h : d.keys.Nodup) : Dict.keys (d.filter p) |>.Nodup :=
  h.sublist ((List.filter_sublist).map _)

theorem fill_nodup (ks vs : List Text) (d : Dict Text (Option Text)) (h : d.keys.Nodup) :
    (Csv.fill d ks vs).keys.Nodup := by
  induction ks generalizing d vs with
  | nil => exact h
  | cons k ks ih => exact ih _ _ (Dict.nodup_set _ _ _ h)

theorem inputs_nodup {sniff : Text → Except PyErr (List Text)} {lines : List Text}
    {label : Text} {inputs : List (Dict Text (Option Text))}
    (h : get_csv_inputs sniff lines label = .ok inputs) : ∀ d ∈ inputs, d.keys.Nodup := by
  have key : ∀ (ks : List Text) (rows : List (List Text)),
      ∀ d ∈ Csv.filter_csv_columns (Csv.add_labels ((rows.filter (· ≠ [])).map
        (Csv.dictRow ks)) label) Csv.columns, d.keys.Nodup := by
    intro ks rows d hd
    simp only [Csv.filter_csv_columns, Csv.add_labels, List.map_map, List.mem_map] at hd
    obtain ⟨row, -, rfl⟩ := hd
    apply filter_nodup
    apply Dict.nodup_set
    rw [Csv.dictRow_fill]
    exact fill_nodup _ _ _ List.nodup_nil
  have hempty : ∀ d ∈ Csv.filter_csv_columns (Csv.add_labels [] label) Csv.columns,
      d.keys.Nodup := by
    intro d hd
    simp [Csv.filter_csv_columns, Csv.add_labels] at hd
  unfold get_csv_inputs at h
  split at h
  · cases h
  · dsimp only at h
    split at h
    · cases h
    · rename_i rows hr
      injection h with h
      rw [← h]
      split at hr
      · unfold Csv.dictReader at hr
        split at hr
        · cases hr
        · injection hr with hr
          rw [← hr]
          exact hempty
        · injection hr with hr
          rw [← hr]
          exact key _ _
      · unfold Csv.dictReaderNamed at hr
        split at hr
        · cases hr
        · injection hr with hr
          rw [← hr]
          exact key _ _

theorem kept_eq (f : CField) (v : Option Text) :
    (if f.hasConverter then replace_empty_string v else v) = v.map (kept f.name) := by
  cases v with
  | none => cases f.hasConverter <;> rfl
  | some v =>
    simp only [Option.map_some, kept]
    by_cases hf : f.hasConverter = true
    · rw [if_pos hf]
      have := (converter_eq f).1 hf
      cases v with
      | nil => rw [if_pos ⟨this, rfl⟩]; rfl
      | cons c v => rw [if_neg (fun h => by cases h.2)]; rfl
    · rw [if_neg hf, if_neg (fun h => hf ((converter_eq f).2 h.1))]

theorem kept_kept (n : String) (v : Text) : kept n (kept n v) = kept n v := by
  unfold kept
  split
  · rw [if_neg]
    rintro ⟨-, h⟩
    cases h
  · rfl

/-- The columns every table has to have. -/
def needed : List String :=
  ["start", "stop", "taylor_stop_angle", "max_steps", "num_angles", "relative_tolerance",
   "absolute_tolerance", "γ", "nwalkers", "iterations", "threads", "target_velocity",
   "split_method", "v_rin_on_c_s", "v_a_on_c_s", "c_s_on_v_k", "η_O", "η_H", "η_A"]

theorem needed_or_assumed (f : CField) :
    f.name = "label" ∨ (f.name ∈ needed ∧ f.name ≠ "label" ∧ CField.required f = true) ∨
      (f.name ≠ "label" ∧ CField.required f = false ∧ ∃ t, (f.name, t) ∈ assumed ∧
        CField.default f = t.map String.toList) := by
  cases f with
  | label => exact Or.inl rfl
  | s f =>
    cases f
    all_goals first
      | exact Or.inr (Or.inl ⟨by decide, by decide, by decide⟩)
      | exact Or.inr (Or.inr ⟨by decide, by decide, _,
          by simp [assumed, CField.name, SField.name]; rfl, by rfl⟩)

theorem neededColumns_eq (n : String) (h : n ∈ neededColumns) : n = "label" ∨ n ∈ needed := by
  revert n
  decide

theorem assumed_unique : ∀ p ∈ assumed, ∀ q ∈ assumed, p.1 = q.1 → p = q := by decide

/-- A row has one text for an option. -/
theorem inRow_unique {header row : List Text} (hn : header.Nodup) {label : Text}
    {name : String} {v w : Option Text} (hv : InRow header row label name v)
    (hw : InRow header row label name w) : v = w := by
  unfold InRow at hv hw
  by_cases h : name = "label"
  · rw [if_pos h] at hv hw
    rw [hv, hw]
  · rw [if_neg h] at hv hw
    rcases hv with ⟨j, hj, rfl⟩ | ⟨hm, t, ht, rfl⟩
    · rcases hw with ⟨k, hk, rfl⟩ | ⟨hm', -⟩
      · have : j = k := by
          have h1 := List.getElem?_eq_some_iff.1 hj
          have h2 := List.getElem?_eq_some_iff.1 hk
          obtain ⟨a, ha⟩ := h1
          obtain ⟨b, hb⟩ := h2
          exact (List.Nodup.getElem_inj_iff hn).1 (ha.trans hb.symm)
        rw [this]
      · exact absurd (List.mem_of_getElem? hj) hm'
    · rcases hw with ⟨k, hk, rfl⟩ | ⟨-, t', ht', rfl⟩
      · exact absurd (List.mem_of_getElem? hk) hm
      · have := assumed_unique _ ht _ ht' rfl
        injection this with _ h2
        rw [h2]

theorem rowAsked_unique {header row : List Text} (hn : header.Nodup) {given : List Occ}
    {name : String} {v w : Option Text} (hv : RowAsked header row given name v)
    (hw : RowAsked header row given name w) : v = w := by
  unfold RowAsked at hv hw
  cases h : overrideGiven given name with
  | some x =>
    rw [h] at hv hw
    exact (show v = some x.toList from hv).trans (show w = some x.toList from hw).symm
  | none =>
    rw [h] at hv hw
    exact inRow_unique hn hv hw

/-- What the constructor is given for a field. -/
theorem field_inRow {header row : List Text} {label : Text} {d : Dict Text (Option Text)}
    (hi : IsInput header row label d) (hneed : ∀ n ∈ needed, n.toList ∈ header) (f : CField) :
    InRow header row label f.name ((d.get? f.name.toList).getD (CField.default f)) := by
  unfold InRow
  rcases needed_or_assumed f with h | ⟨hm, hl, -⟩ | ⟨hl, -, t, ht, hd⟩
  · rw [if_pos h, h, hi.label]
    rfl
  · rw [if_neg hl]
    obtain ⟨j, hj⟩ := List.getElem?_of_mem (hneed _ hm)
    refine Or.inl ⟨j, hj, ?_⟩
    rw [hi.column j _ hj (fun h => hl (String.toList_inj.1 h)) (Or.inl ⟨f, rfl⟩)]
    rfl
  · rw [if_neg hl]
    by_cases hh : f.name.toList ∈ header
    · obtain ⟨j, hj⟩ := List.getElem?_of_mem hh
      refine Or.inl ⟨j, hj, ?_⟩
      rw [hi.column j _ hj (fun h => hl (String.toList_inj.1 h)) (Or.inl ⟨f, rfl⟩)]
      rfl
    · refine Or.inr ⟨hh, t, ht, ?_⟩
      rw [hi.other _ (fun h => hl (String.toList_inj.1 h)) (Or.inl hh)]
      exact hd

/-- The configuration made from a row and the overrides. -/
theorem row_config {header row : List Text} {d : Dict Text (Option Text)}
    {given : List Occ}
    (hi : IsInput header row ((textGiven given "--label").getD "").toList d)
    (hd : d.keys.Nodup) (hneed : ∀ n ∈ needed, n.toList ∈ header)
    (hk : KnownFields given) {ov : Overrides}
    (ho : ∀ k, ov.get? k = (overrideGiven given k).map String.toList) :
    ∃ c0 c, ConfigInput.ofDict (withoutIds d) = .ok c0 ∧
      add_overrides (some ov) c0 = .ok c ∧
      ∀ f : CField, ∃ v, RowAsked header row given f.name v ∧ c f = v.map (kept f.name) := by
  have hkeys : ∀ k ∈ ov.keys, ∃ f : CField, f.name = k := by
    intro k hm
    by_contra hn
    cases hg : overrideGiven given k with
    | none => exact (Dict.get?_eq_none_iff ov k).1 (by rw [ho, hg]; rfl) hm
    | some w =>
      unfold overrideGiven at hg
      rw [Option.map_eq_some_iff] at hg
      obtain ⟨p, hp, -⟩ := hg
      have := List.mem_of_getLast? hp
      rw [List.mem_filter] at this
      obtain ⟨f, hf⟩ := hk p this.1
      exact hn ⟨f, hf.trans (by simpa using this.2)⟩
  have hmem : ∀ k, k ∈ d.keys ↔ d.get? k ≠ none := fun k => by
    rw [ne_eq, Dict.get?_eq_none_iff, not_not]
  have hof : ∃ c, ConfigInput.ofDict (withoutIds d) = .ok c := by
    rw [ofDict_ok_iff]
    constructor
    · intro k hk
      have h1 : k ≠ "solution_name".toList := by
        rintro rfl
        have h3 : (d.erase "filename".toList).keys.Nodup :=
          hd.sublist (Dict.keys_erase_sublist _ _)
        have := Dict.get?_erase (d.erase "filename".toList) "solution_name".toList
          "solution_name".toList h3
        rw [if_pos rfl] at this
        exact (Dict.get?_eq_none_iff _ _).1 this hk
      have hk' := (Dict.keys_erase_sublist _ _).subset hk
      have h2 : k ≠ "filename".toList := by
        rintro rfl
        have := Dict.get?_erase d "filename".toList "filename".toList hd
        rw [if_pos rfl] at this
        exact (Dict.get?_eq_none_iff _ _).1 this hk'
      have hk'' := (Dict.keys_erase_sublist _ _).subset hk'
      by_cases hl : k = "label".toList
      · exact ⟨.label, hl⟩
      · by_contra hn
        refine (hmem k).1 hk'' (hi.other k hl (Or.inr ?_))
        rintro (h | h | h)
        · exact hn h
        · exact h2 h
        · exact h1 h
    · intro n hn
      have hf : ∃ f : CField, f.name = n := by
        have h : ∀ n ∈ neededColumns, n ∈ CField.all.map CField.name := by decide +kernel
        obtain ⟨f, -, hf⟩ := List.mem_map.1 (h n hn)
        exact ⟨f, hf⟩
      obtain ⟨f, rfl⟩ := hf
      have : (withoutIds d).get? f.name.toList ≠ none := by
        rw [get?_withoutIds]
        rcases neededColumns_eq _ hn with h | h
        · rw [h, hi.label]
          exact fun h => by cases h
        · obtain ⟨j, hj⟩ := List.getElem?_of_mem (hneed _ h)
          rw [hi.column j _ hj (by
            intro h'
            rw [String.toList_inj] at h'
            rw [h'] at h
            revert h
            decide) (Or.inl ⟨f, rfl⟩)]
          exact fun h => by cases h
      by_contra hm
      exact this ((Dict.get?_eq_none_iff _ _).2 hm)
  obtain ⟨c0, hc0⟩ := hof
  have hc0f : ∀ f : CField, ∃ v, InRow header row ((textGiven given "--label").getD "").toList
      f.name v ∧ c0 f = v.map (kept f.name) := by
    intro f
    refine ⟨_, field_inRow hi hneed f, ?_⟩
    unfold ConfigInput.ofDict at hc0
    split at hc0
    case isFalse => cases hc0
    injection hc0 with hc0
    rw [← hc0, ← kept_eq]
    simp only [ConfigInput.mk, get?_withoutIds]
  have hcan : Canonical c0 := by
    unfold ConfigInput.ofDict at hc0
    split at hc0
    case isFalse => cases hc0
    injection hc0 with hc0
    rw [← hc0]
    exact mk_canonical _
  obtain ⟨c, h1, -, h2, h3⟩ := add_overrides_ok c0 hcan ov hkeys
  refine ⟨c0, c, hc0, h1, fun f => ?_⟩
  cases hg : overrideGiven given f.name with
  | some w =>
    refine ⟨some w.toList, ?_, ?_⟩
    · unfold RowAsked
      rw [hg]
    · rw [h2 f w.toList (by rw [ho, hg]; rfl)]
      simp only [Option.map_some, kept, converter_eq f]
      rfl
  | none =>
    obtain ⟨v, hv, hv'⟩ := hc0f f
    refine ⟨v, ?_, ?_⟩
    · unfold RowAsked
      rw [hg]
      exact hv
    · rw [h3 f ((Dict.get?_eq_none_iff _ _).1 (by rw [ho, hg]; rfl)), hv']

/-! ## The workers -/

/-- Where a row stands after so many steps of its worker. -/
structure Stage (j : Job F σ) (i n : ℕ) (p : Pool F σ) : Prop where
  waiting : n = 0 → p.state i = .waiting ∧ p.fs.get? j.path = none
  working : n = 1 → p.state i = .working ∧ p.fs.get? j.path = some (.run j.run)
  ended : 2 ≤ n → p.state i = .ended j.finish.2 ∧ p.fs.get? j.path = some (.run j.finish.1)

theorem stage_own {writable : String → Bool} {jobs : List (Except PyErr (Job F σ))}
    {p : Pool F σ} {i n : ℕ} {j : Job F σ} (hj : jobs[i]? = some (.ok j))
    (hw : writable j.path = true) (h : Stage j i n p) :
    Stage j i (n + 1) (step writable jobs p i) := by
  unfold step
  rw [hj]
  dsimp only
  match n, h with
  | 0, h =>
    obtain ⟨h1, h2⟩ := h.waiting rfl
    have e : p.step writable (fun _ => j) i = ⟨p.fs.set j.path (.run j.run),
        Function.update p.state i .working⟩ := by
      simp [Pool.step, h1, h2, hw]
    rw [e]
    exact ⟨fun h => by omega, fun _ => ⟨by simp, Dict.get?_set_self _ _ _⟩, fun h => by omega⟩
  | 1, h =>
    obtain ⟨h1, h2⟩ := h.working rfl
    have e : p.step writable (fun _ => j) i = ⟨p.fs.set j.path (.run j.finish.1),
        Function.update p.state i (.ended j.finish.2)⟩ := by
      simp [Pool.step, h1]
    rw [e]
    exact ⟨fun h => by omega, fun h => by omega,
      fun _ => ⟨by simp, Dict.get?_set_self _ _ _⟩⟩
  | n + 2, h =>
    obtain ⟨h1, h2⟩ := h.ended (by omega)
    have e : p.step writable (fun _ => j) i = p := by
      simp [Pool.step, h1]
    rw [e]
    exact ⟨fun h => by omega, fun h => by omega, fun _ => ⟨h1, h2⟩⟩

/-- A step of a row leaves the state of the others and the files of the others. -/
theorem step_others {writable : String → Bool} {jobs : List (Except PyErr (Job F σ))}
    (p : Pool F σ) (k : ℕ) :
    (∀ i, i ≠ k → (step writable jobs p k).state i = p.state i) ∧
    ∀ q, (∀ j, jobs[k]? = some (.ok j) → j.path ≠ q) →
      (step writable jobs p k).fs.get? q = p.fs.get? q := by
  unfold step
  rcases hk : jobs[k]? with _ | x | j
  · exact ⟨fun _ _ => rfl, fun _ _ => rfl⟩
  · dsimp only
    split
    · exact ⟨fun _ _ => rfl, fun _ _ => rfl⟩
    · exact ⟨fun i hi => by simp [hi], fun _ _ => rfl⟩
  · dsimp only
    unfold Pool.step
    refine ⟨fun i hi => ?_, fun q hq => ?_⟩
    · split
      · rfl
      · split
        · simp [hi]
        · split_ifs <;> simp [hi]
      · simp [hi]
    · have := hq j rfl
      split
      · rfl
      · split
        · rfl
        · split_ifs
          · exact Dict.get?_set_ne _ _ this
          · rfl
      · exact Dict.get?_set_ne _ _ this

/-- However the steps interleave, a row stands where its own steps have brought it. -/
theorem pool_row {writable : String → Bool} {jobs : List (Except PyErr (Job F σ))}
    {fs : FS F σ} {i : ℕ} {j : Job F σ} (hj : jobs[i]? = some (.ok j))
    (hd : ∀ k j', k ≠ i → jobs[k]? = some (.ok j') → j'.path ≠ j.path)
    (hnew : fs.get? j.path = none) (hw : writable j.path = true) (schedule : List ℕ) :
    Stage j i (schedule.count i) (schedule.foldl (step writable jobs) { fs := fs }) := by
  induction schedule using List.reverseRecOn with
  | nil => exact ⟨fun _ => ⟨rfl, hnew⟩, fun h => by simp at h, fun h => by simp at h⟩
  | append_singleton l k ih =>
    rw [List.foldl_append, List.foldl_cons, List.foldl_nil, List.count_append]
    by_cases hk : k = i
    · subst hk
      rw [List.count_singleton_self]
      exact stage_own hj hw ih
    · rw [List.count_singleton, if_neg (by simpa using hk), Nat.add_zero]
      obtain ⟨h1, h2⟩ := step_others (writable := writable) (jobs := jobs)
        (l.foldl (step writable jobs) { fs := fs }) k
      have e1 := h1 i (Ne.symm hk)
      have e2 := h2 j.path fun j' hj' => hd k j' hk hj'
      exact ⟨fun h => by rw [e1, e2]; exact ih.waiting h,
        fun h => by rw [e1, e2]; exact ih.working h,
        fun h => by rw [e1, e2]; exact ih.ended h⟩

/-- A row of which no job can be made ends with what was raised. -/
theorem pool_error_row {writable : String → Bool} {jobs : List (Except PyErr (Job F σ))}
    {fs : FS F σ} {i : ℕ} {x : PyErr} (hj : jobs[i]? = some (.error x)) (schedule : List ℕ) :
    (schedule.foldl (step writable jobs) { fs := fs }).state i =
      if i ∈ schedule then .ended (.error x) else .waiting := by
  induction schedule using List.reverseRecOn with
  | nil => rfl
  | append_singleton l k ih =>
    rw [List.foldl_append, List.foldl_cons, List.foldl_nil]
    by_cases hk : k = i
    · subst hk
      rw [if_pos (by simp)]
      generalize l.foldl (step writable jobs) { fs := fs } = p at ih
      by_cases hl : k ∈ l
      · rw [if_pos hl] at ih
        have e : step writable jobs p k = p := by simp [step, hj, ih]
        rw [e, ih]
      · rw [if_neg hl] at ih
        have e : step writable jobs p k = { p with
            state := Function.update p.state k (.ended (.error x)) } := by
          simp [step, hj, ih]
        rw [e]
        simp
    · rw [(step_others (writable := writable) (jobs := jobs) _ k).1 i (Ne.symm hk), ih]
      simp [Ne.symm hk]

/-- Files which belong to no row stay. -/
theorem pool_other_file {writable : String → Bool} {jobs : List (Except PyErr (Job F σ))}
    {fs : FS F σ} {q : String} (hq : ∀ j : Job F σ, .ok j ∈ jobs → j.path ≠ q)
    (schedule : List ℕ) :
    (schedule.foldl (step writable jobs) { fs := fs }).fs.get? q = fs.get? q := by
  induction schedule using List.reverseRecOn with
  | nil => rfl
  | append_singleton l k ih =>
    rw [List.foldl_append, List.foldl_cons, List.foldl_nil,
      (step_others (writable := writable) (jobs := jobs) _ k).2 q
        fun j hj => hq j (List.mem_of_getElem? hj), ih]

/-! ## Whole runs -/

/-- The label in the names of the files. -/
def labelGiven (given : List Occ) : String :=
  match overrideGiven given "label" with
  | some w => w
  | none => (textGiven given "--label").getD ""

/-- The file of a row: in the directory asked for, with the label, and the time and the name
of the process. -/
def fileOf (e : Env F) (name : ℕ → String) (given : List Occ) (i : ℕ) : String :=
  e.path ((textGiven given "--output-dir").getD ".")
    (labelGiven given ++ (name i ++ ".hdf5"))

/-- The run of a row before it is solved: nothing in it but where it comes from. -/
structure Begun (header row : List Text) (c : ConfigInput) (method : String)
    (s : SolutionInput F) (r : TheRun F σ) : Prop where
  info : r.info = ⟨c, none, method, s .use_E_r⟩
  empty : r.solutions = [] ∧ r.final = .delayed ∧ r.is_post_shock_only = false
  filename : ∀ j : ℕ, header[j]? = some "filename".toList →
    r.based_on_filename = row[j]?.map String.ofList
  no_filename : "filename".toList ∉ header → r.based_on_filename = none
  solution : ∀ j : ℕ, header[j]? = some "solution_name".toList →
    r.based_on_solution = row[j]?.map String.ofList
  no_solution : "solution_name".toList ∉ header → r.based_on_solution = none

/-- What is left of a row which was worked on to its end, if the method answered so and left
this run. -/
structure Ended (state : JobState) (file : Option (File F σ)) (answer : Except PyErr Bool)
    (r : TheRun F σ) : Prop where
  done : ∀ b r', answer = .ok b → r.finalise = .ok r' →
    state = .ended (.ok (some b)) ∧ file = some (.run r')
  gave_up : answer = .error .SolverError → state = .ended (.ok none) ∧ file = some (.run r)
  raised : ∀ x, answer = .error x → x ≠ .SolverError →
    state = .ended (.error x) ∧ file = some (.run r)
  unfinished : ∀ b x, answer = .ok b → r.finalise = .error x → x ≠ .SolverError →
    state = .ended (.error x) ∧ file = some (.run r)

theorem finish_ended {j : Job F σ} {state : JobState} {file : Option (File F σ)}
    (h1 : state = .ended j.finish.2) (h2 : file = some (.run j.finish.1)) :
    Ended state file (j.solver j.input j.run).1 (j.solver j.input j.run).2 := by
  subst h1 h2
  unfold Job.finish
  rcases j.solver j.input j.run with ⟨x | b, r⟩
  · refine ⟨fun _ _ h => (by cases h), fun h => ?_, fun y h hy => ?_,
      fun _ _ h => (by cases h)⟩
    · injection h with h
      subst h
      exact ⟨rfl, rfl⟩
    · injection h with h
      subst h
      refine ⟨?_, rfl⟩
      cases x <;> first | rfl | exact absurd rfl hy
  · dsimp only
    refine ⟨fun b' r' h hf => ?_, fun h => (by cases h), fun _ h => (by cases h),
      fun b' x h hf hx => ?_⟩
    · injection h with h
      subst h
      rw [hf]
      exact ⟨rfl, rfl⟩
    · rw [hf]
      refine ⟨?_, rfl⟩
      cases x <;> first | rfl | exact absurd rfl hx

theorem popped_column {header row : List Text} {label : Text} {d : Dict Text (Option Text)}
    (hi : IsInput header row label d) {k : Text} (hl : k ≠ "label".toList)
    (hk : Csv.Known k) :
    (∀ j : ℕ, header[j]? = some k → popped d k = row[j]?.map String.ofList) ∧
    (k ∉ header → popped d k = none) := by
  constructor
  · intro j hj
    unfold popped
    rw [hi.column j k hj hl hk]
    cases row[j]? <;> rfl
  · intro h
    unfold popped
    rw [hi.other k hl (Or.inl h)]

/-- The job of a row. -/
theorem job_of_row (e : Env F) (impl : String → Solver F σ) {method : String}
    (hm : method ∈ methodNames) {header row : List Text} {d : Dict Text (Option Text)}
    {given : List Occ}
    (hi : IsInput header row ((textGiven given "--label").getD "").toList d)
    (hd : d.keys.Nodup) (hneed : ∀ n ∈ needed, n.toList ∈ header)
    (hk : KnownFields given) {ov : Overrides}
    (ho : ∀ k, ov.get? k = (overrideGiven given k).map String.toList) (dir name : String) :
    ∃ c : ConfigInput,
      (∀ f : CField, ∃ v, RowAsked header row given f.name v ∧ c f = v.map (kept f.name)) ∧
      (∀ x, c.to_soln_input e.conv = .error x →
        hdf5_job e impl method (some ov) none dir name d = .error x) ∧
      ∀ s, c.to_soln_input e.conv = .ok s → ∃ r : TheRun F σ, Begun header row c method s r ∧
        hdf5_job e impl method (some ov) none dir name d =
          .ok ⟨e.path dir (labelGiven given ++ (name ++ ".hdf5")), r, impl method, s⟩ := by
  obtain ⟨c0, c, h1, h2, h3⟩ := row_config hi hd hneed hk ho
  refine ⟨c, h3, fun x hx => ?_, fun s hs => ?_⟩
  · simp only [hdf5_job, getMethod, if_pos hm, row_inputs, h1, h2, hx]
  · have hlabel : c .label = some (labelGiven given).toList := by
      obtain ⟨v, hv, hc⟩ := h3 .label
      have hkept : kept (CField.label.name) = id := by
        funext t
        exact if_neg fun h => absurd h.1 (by decide)
      rw [hc, hkept, Option.map_id]
      unfold RowAsked at hv
      unfold labelGiven
      rw [show CField.label.name = "label" from rfl] at hv
      cases hg : overrideGiven given "label" with
      | some w => rw [hg] at hv; exact hv
      | none =>
        rw [hg] at hv
        exact hv
    obtain ⟨p1, p2⟩ := popped_column hi (k := "filename".toList) (by decide)
      (Or.inr (Or.inl rfl))
    obtain ⟨p3, p4⟩ := popped_column hi (k := "solution_name".toList) (by decide)
      (Or.inr (Or.inr rfl))
    refine ⟨⟨⟨c, none, method, s .use_E_r⟩, .delayed, [], false, popped d "filename".toList,
      popped d "solution_name".toList⟩, ⟨rfl, ⟨rfl, rfl, rfl⟩, p1, p2, p3, p4⟩, ?_⟩
    simp only [hdf5_job, getMethod, if_pos hm, row_inputs, h1, h2, hs, hlabel, output_name,
      default_name, String.ofList_toList]

/-- The lines of a table: comment lines and rows, each value on one line, distinct names in
the first row, among them those every input needs. -/
structure IsTable (sniff : Text → Except PyErr (List Text)) (lines : List Text)
    (header : List Text) (rows : List (List Text)) : Prop where
  text : ∃ items : List Csv.Item, (∀ i ∈ items, i.OneLine) ∧
    Csv.rowsOf items = header :: rows ∧
    lines = Csv.rawLines (items.map Csv.Item.text).flatten
  nodup : header.Nodup
  needed : ∀ n ∈ needed, n.toList ∈ header
  sniffed : ∃ guess, sniff (Csv.writeRow header) = .ok guess ∧ guess ≠ []

/-- Every row has a file of its own, which is new and can be written. -/
structure OwnFiles (e : Env F) (name : ℕ → String) (given : List Occ) (fs : FS F σ) (n : ℕ) :
    Prop where
  distinct : ∀ i k, i < n → k < n → fileOf e name given i = fileOf e name given k → i = k
  new : ∀ i < n, fs.get? (fileOf e name given i) = none
  writable : ∀ i < n, e.writable (fileOf e name given i) = true

theorem method_known (given : List Occ) (ha : Cli.accepted hdf5runner_options given = true) :
    (textGiven given "--sonic-method").getD "single" ∈ methodNames :=
  (isMethod_iff _).2 (method_given hdf5_solver (by simp [IsMethod]) ha)

/-- C112. `ds-hdf5runner`, from the text of a table to the files, whatever the order in which
the workers take their steps.  Files which do not belong to a row stay as they are.  The
configuration of a row has for each option the text the command line and the row ask for.  If
it cannot be read the row has no file and ends with what was raised; otherwise, once its worker
has done its two steps, the file of the row holds what the method left for that configuration
in a run which names where it comes from, and the row ends with its answer. -/
theorem table_rows (e : Env F) (M : Bool → String → Solver F σ)
    (sniff : Text → Except PyErr (List Text)) (lines : String → List Text) (name : ℕ → String)
    (input_file : String) (given : List Occ) (fs : FS F σ) (schedule : List ℕ)
    (header : List Text) (rows : List (List Text))
    (htable : IsTable sniff (lines input_file) header rows)
    (ht : CliSolve.Typed given) (ha : Cli.accepted hdf5runner_options given = true)
    (hk : KnownFields given) (method : String)
    (hmethod : (textGiven given "--sonic-method").getD "single" = method)
    (hown : OwnFiles e name given fs rows.length) :
    ∃ pool, ds_hdf5runner e M sniff lines name input_file given fs schedule = .ok pool ∧
      (∀ q, (∀ i < rows.length, q ≠ fileOf e name given i) → pool.fs.get? q = fs.get? q) ∧
      ∀ (i : ℕ) (row : List Text), rows[i]? = some row → ∃ c : ConfigInput,
        (∀ f : CField, ∃ v, RowAsked header row given f.name v ∧ c f = v.map (kept f.name)) ∧
        (∀ x, c.to_soln_input e.conv = .error x →
          pool.fs.get? (fileOf e name given i) = none ∧
          (i ∈ schedule → pool.state i = .ended (.error x))) ∧
        ∀ s, c.to_soln_input e.conv = .ok s → ∃ r₀ : TheRun F σ,
          Begun header row c method s r₀ ∧
          (schedule.count i = 1 →
            pool.fs.get? (fileOf e name given i) = some (.run r₀)) ∧
          (2 ≤ schedule.count i →
            Ended (pool.state i) (pool.fs.get? (fileOf e name given i))
              (M (!isGiven given "--no-store-internal") method s r₀).1
              (M (!isGiven given "--no-store-internal") method s r₀).2) := by
  obtain ⟨⟨items, hitems, hr, hread⟩, hnodup, hneed, guess, hsniff, hguess⟩ := htable
  obtain ⟨hinj, hnew, hw⟩ := hown
  subst hmethod
  have hm := method_known given ha
  obtain ⟨ov, ho, hcall⟩ := hdf5runner_effective input_file given ht ha hk
  obtain ⟨inputs, hinputs, hall⟩ := Csv.csv_file_inputs sniff items
    ((textGiven given "--label").getD "").toList header rows guess hitems hr hnodup hsniff hguess
  rw [← hread] at hinputs
  have hnd := inputs_nodup hinputs
  set jobs : List (Except PyErr (Job F σ)) := inputs.mapIdx fun i d =>
    hdf5_job e (M (!isGiven given "--no-store-internal"))
      ((textGiven given "--sonic-method").getD "single") (some ov) none
      ((textGiven given "--output-dir").getD ".") (name i) d with hjobs
  have hrun : ds_hdf5runner e M sniff lines name input_file given fs schedule =
      .ok (schedule.foldl (step e.writable jobs) { fs := fs }) := by
    simp only [ds_hdf5runner, hcall, hdf5runner_jobs, hinputs]
    rfl
  have hlen : rows.length = inputs.length := hall.length_eq
  -- every row's job
  have hjob : ∀ (i : ℕ) (row : List Text), rows[i]? = some row → ∃ c : ConfigInput,
      (∀ f : CField, ∃ v, RowAsked header row given f.name v ∧ c f = v.map (kept f.name)) ∧
      (∀ x, c.to_soln_input e.conv = .error x → jobs[i]? = some (.error x)) ∧
      ∀ s, c.to_soln_input e.conv = .ok s → ∃ r : TheRun F σ,
        Begun header row c ((textGiven given "--sonic-method").getD "single") s r ∧
        jobs[i]? = some (.ok ⟨fileOf e name given i, r, M (!isGiven given "--no-store-internal")
          ((textGiven given "--sonic-method").getD "single"), s⟩) := by
    intro i row hi
    obtain ⟨hlt, hrow⟩ := List.getElem?_eq_some_iff.1 hi
    have hlt' : i < inputs.length := hlen ▸ hlt
    have hin := (List.forall₂_iff_get.1 hall).2 i hlt hlt'
    simp only [List.get_eq_getElem, hrow] at hin
    obtain ⟨c, h1, h2, h3⟩ := job_of_row e (M (!isGiven given "--no-store-internal")) hm hin
      (hnd _ (List.getElem_mem hlt')) hneed hk ho ((textGiven given "--output-dir").getD ".")
      (name i)
    have hget : jobs[i]? = some (hdf5_job e (M (!isGiven given "--no-store-internal"))
        ((textGiven given "--sonic-method").getD "single") (some ov) none
        ((textGiven given "--output-dir").getD ".") (name i) inputs[i]) := by
      rw [hjobs, List.getElem?_mapIdx, List.getElem?_eq_getElem hlt']
      rfl
    refine ⟨c, h1, fun x hx => by rw [hget, h2 x hx], fun s hs => ?_⟩
    obtain ⟨r, hb, hj⟩ := h3 s hs
    exact ⟨r, hb, by rw [hget, hj]; rfl⟩
  have hpath : ∀ (k : ℕ) (j : Job F σ), jobs[k]? = some (.ok j) →
      k < rows.length ∧ j.path = fileOf e name given k := by
    intro k j hj
    have hlt : k < rows.length := by
      have := (List.getElem?_eq_some_iff.1 hj).1
      rw [hjobs, List.length_mapIdx] at this
      omega
    refine ⟨hlt, ?_⟩
    obtain ⟨c, -, h2, h3⟩ := hjob k _ (List.getElem?_eq_getElem hlt)
    cases hs : c.to_soln_input e.conv with
    | error x => rw [h2 x hs] at hj; cases hj
    | ok s =>
      obtain ⟨r, -, h⟩ := h3 s hs
      rw [h] at hj
      injection hj with hj
      injection hj with hj
      rw [← hj]
  refine ⟨_, hrun, fun q hq => ?_, fun i row hi => ?_⟩
  · refine pool_other_file (fun j hj h => ?_) schedule
    obtain ⟨k, hk⟩ := List.getElem?_of_mem hj
    obtain ⟨h1, h2⟩ := hpath k j hk
    exact hq k h1 (h ▸ h2)
  · obtain ⟨hlt, -⟩ := List.getElem?_eq_some_iff.1 hi
    obtain ⟨c, h1, h2, h3⟩ := hjob i row hi
    refine ⟨c, h1, fun x hx => ⟨?_, fun hs => ?_⟩, fun s hs => ?_⟩
    · rw [pool_other_file (fun j hj h => ?_) schedule, hnew i hlt]
      obtain ⟨k, hk⟩ := List.getElem?_of_mem hj
      obtain ⟨h4, h5⟩ := hpath k j hk
      have := hinj k i h4 hlt (h5 ▸ h)
      subst this
      rw [h2 x hx] at hk
      cases hk
    · rw [pool_error_row (h2 x hx), if_pos hs]
    · obtain ⟨r, hb, hj⟩ := h3 s hs
      have hst := pool_row (writable := e.writable) (fs := fs) hj (fun k j' hki hj' h => by
        obtain ⟨h4, h5⟩ := hpath k j' hj'
        exact hki (hinj k i h4 hlt (h5 ▸ h))) (hnew i hlt) (hw i hlt) schedule
      refine ⟨r, hb, fun h => (hst.working h).2, fun h => ?_⟩
      obtain ⟨h4, h5⟩ := hst.ended h
      exact finish_ended h4 h5

/-! ## Methods do not look at where a run comes from -/

/-- The run with another origin. -/
def dressed (i : RunInfo F) (a b : Option String) (r : TheRun F σ) : TheRun F σ :=
  { r with info := i, based_on_filename := a, based_on_solution := b }

/-- The method does the same for every origin. -/
def Blind (S : Solver F σ) : Prop :=
  ∀ s r i a b, S s (dressed i a b r) = ((S s r).1, dressed i a b (S s r).2)

theorem addSolution_dressed (i : RunInfo F) (a b : Option String) (r : TheRun F σ) (x : σ) :
    (dressed i a b r).addSolution x =
      (r.addSolution x).map fun p => (p.1, dressed i a b p.2) := by
  unfold Run.addSolution dressed
  dsimp only
  cases r.solutions.add x <;> rfl

theorem setFinal_dressed (i : RunInfo F) (a b : Option String) (r : TheRun F σ) (x : σ) :
    (dressed i a b r).setFinal x = (r.setFinal x).map (dressed i a b) := by
  unfold Run.setFinal dressed
  dsimp only
  cases r.final <;> rfl

theorem finalise_dressed (i : RunInfo F) (a b : Option String) (r : TheRun F σ) :
    (dressed i a b r).finalise = r.finalise.map (dressed i a b) := by
  obtain ⟨_, f, sols, _, _, _⟩ := r
  cases f with
  | value v => rfl
  | delayed =>
    unfold Run.finalise dressed
    dsimp only
    cases sols.getLast <;> rfl

theorem single_blind (sol : SolutionInput F → Except PyErr σ) (nf : Bool) :
    Blind (single_solver sol nf) := by
  intro s r i a b
  unfold single_solver
  cases sol s with
  | error x => rfl
  | ok x =>
    dsimp only
    rw [addSolution_dressed]
    cases r.addSolution x with
    | error x => rfl
    | ok p =>
      obtain ⟨k, r1⟩ := p
      simp only [Except.map]
      cases nf with
      | true => rfl
      | false =>
        simp only [Bool.false_eq_true, if_false]
        have e : (dressed i a b r1).solutions = r1.solutions := rfl
        rw [e]
        cases r1.solutions.getLast with
        | error x => rfl
        | ok y =>
          dsimp only
          rw [setFinal_dressed]
          cases r1.setFinal y <;> rfl

open SingleRun

theorem step_blind (ops : Stepper.Ops ℝ)
    (human : List Stepper.SolnData → Stepper.SplitterStatus) (I : Tolerances → Integrator)
    (str : ℝ → String) (interp : List ℝ → List ℝ → Option (ℝ → ℝ)) (st : Bool) :
    Blind (StepRun.step_solver ops human I str interp st) := by
  intro s r i a b
  unfold StepRun.step_solver
  dsimp only
  split <;> rfl

theorem crosser_blind (ops : Stepper.Ops ℝ)
    (human : List Stepper.SolnData → Stepper.SplitterStatus) (I : Tolerances → Integrator)
    (str : ℝ → String) (interp : List ℝ → List ℝ → Option (ℝ → ℝ)) (st : Bool) :
    Blind (CrosserRun.crosser_solver ops human I str interp st) := by
  intro s r i a b
  unfold CrosserRun.crosser_solver
  dsimp only
  split <;> rfl

theorem sonic_root_blind (scipy : SonicRootRun.Search) (I : Tolerances → Integrator)
    (str : ℝ → String) (interp : List ℝ → List ℝ → Option (ℝ → ℝ)) (big : ℝ) (st : Bool) :
    Blind (SonicRootRun.sonic_root_solver scipy I str interp big st) := by
  intro s r i a b
  unfold SonicRootRun.sonic_root_solver
  cases SonicRootRun.args I str interp big st s with
  | error x => rfl
  | ok p =>
    dsimp only
    cases define_conditions p.inp with
    | none => rfl
    | some c => rfl

theorem storeSingle_dressed (i : RunInfo F) (a b : Option String) (r : TheRun F σ) (x : σ) :
    (Hydro.storeSingle (dressed i a b r) x).swap =
      ((Hydro.storeSingle r x).2, dressed i a b (Hydro.storeSingle r x).1) := by
  unfold Hydro.storeSingle Run.setFinal dressed
  dsimp only
  cases r.final <;> rfl

theorem hydrostatic_blind (I : Tolerances → HydroRequest Hydro.Args → Integration)
    (str : ℝ → String) (double st : Bool) :
    Blind (HydroMethods.hydrostatic_solver I str double st) := by
  intro s r i a b
  unfold HydroMethods.hydrostatic_solver
  cases HydroMethods.reads s with
  | error x => rfl
  | ok p =>
    obtain ⟨inp, t, η⟩ := p
    dsimp only
    generalize (fun c => (Hydro.solution (I t) str double η inp.use_E_r false c
      { store_internal := st }).1.result.map (HydroMethods.made s)) = g
    unfold Hydro.solver
    cases Hydro.hydrostatic_define_conditions inp with
    | none => rfl
    | some c =>
      dsimp only
      split_ifs
      · rfl
      · cases g c with
        | error x => rfl
        | ok m => exact storeSingle_dressed i a b r m

theorem mod_hydro_blind (I : Tolerances → HydroRequest ModHydro.SystemArgs → Integration)
    (str : ℝ → String) (T : ModHydro.Tracker) (st : Bool) :
    Blind (HydroMethods.mod_hydro_solver I str T st) := by
  intro s r i a b
  unfold HydroMethods.mod_hydro_solver
  cases HydroMethods.reads s with
  | error x => rfl
  | ok p =>
    obtain ⟨inp, t, η⟩ := p
    dsimp only
    generalize (fun c => (ModHydro.solution (I t) str T η inp.use_E_r c
      { store_internal := st }).result.map (HydroMethods.made s)) = g
    unfold ModHydro.solver
    cases g (ModHydro.mod_hydro_define_conditions inp) with
    | error x => rfl
    | ok m => exact storeSingle_dressed i a b r m

/-- The state of the sampler with another origin. -/
def dressedGen (i : RunInfo F) (a b : Option String) (g : Mcmc.Generator (RunInfo F) σ) :
    Mcmc.Generator (RunInfo F) σ := { g with run := dressed i a b g.run }

theorem evaluate_dressed {κ : Type} (E : Mcmc.Env κ σ) (inp : SolutionInput Flt)
    (i : RunInfo F) (a b : Option String) (g : Mcmc.Generator (RunInfo F) σ) :
    Mcmc.evaluate E inp (dressedGen i a b g) =
      ((Mcmc.evaluate E inp g).1, dressedGen i a b (Mcmc.evaluate E inp g).2) := by
  unfold Mcmc.evaluate
  split
  · rfl
  · rfl
  · split
    · rfl
    · rfl
    · split
      · rfl
      · rfl
      · rename_i soln _
        have e' : (dressedGen i a b g).best_logprob = g.best_logprob := rfl
        have e : (dressedGen i a b g).run.addSolution soln = _ :=
          addSolution_dressed i a b g.run soln
        rw [e', e]
        by_cases hf : (E.logprob soln).isfinite = true
        · rw [if_pos hf, if_pos hf]
          cases g.run.addSolution soln with
          | error x => rfl
          | ok p =>
            simp only [Except.map]
            by_cases hg : (E.logprob soln).gt g.best_logprob = true
            · rw [if_pos hg, if_pos hg]
              rfl
            · rw [if_neg hg, if_neg hg]
              rfl
        · rw [if_neg hf, if_neg hf]

theorem sample_dressed {κ : Type} (E : Mcmc.Env κ σ) (inp : SolutionInput Flt)
    (vars : List SField) (choose : List Mcmc.LogProb → Except PyErr (List (SVal Flt)))
    (i : RunInfo F) (a b : Option String) (n : ℕ) (seen : List Mcmc.LogProb)
    (g : Mcmc.Generator (RunInfo F) σ) :
    Mcmc.sample E inp vars choose n seen (dressedGen i a b g) =
      ((Mcmc.sample E inp vars choose n seen g).1,
        dressedGen i a b (Mcmc.sample E inp vars choose n seen g).2) := by
  induction n generalizing seen g with
  | zero => rfl
  | succ n ih =>
    unfold Mcmc.sample
    cases choose seen with
    | error x => rfl
    | ok point =>
      dsimp only
      unfold Mcmc.call
      cases Mcmc.sys_vars_to_solution_input point inp vars with
      | error x => rfl
      | ok inp' =>
        dsimp only
        rw [evaluate_dressed]
        rcases Mcmc.evaluate E inp' g with ⟨x | v, g'⟩
        · rfl
        · exact ih _ _

theorem mcmc_blind (randn : ℕ → ℕ → List (List ℝ))
    (emcee : List (List ℝ) → List Mcmc.LogProb → Except PyErr (List ℝ))
    (I : Tolerances → Integrator) (str : ℝ → String)
    (interp : List ℝ → List ℝ → Option (ℝ → ℝ)) (st : Bool) :
    Blind (McmcRun.mcmc_solver randn emcee I str interp st) := by
  intro s r i a b
  unfold McmcRun.mcmc_solver
  cases count (s .nwalkers) with
  | error x => rfl
  | ok w =>
    dsimp only
    cases McmcRun.generate_initial_positions randn s (Mcmc.generate_sysvars_enum s) w with
    | error x => rfl
    | ok initial =>
      dsimp only
      cases McmcRun.steps (s .iterations) with
      | error x => rfl
      | ok n =>
        dsimp only
        unfold Mcmc.solver
        have e := sample_dressed (McmcRun.env I str interp st) (fun f => McmcRun.liftVal (s f))
          (Mcmc.generate_sysvars_enum fun f => McmcRun.liftVal (s f))
          (fun seen => (McmcRun.next_position emcee initial seen).map fun p =>
            p.map fun x => .float (some x)) i a b (w * (n + 1)) [] { run := r }
        have e0 : dressedGen i a b ({ run := r } : Mcmc.Generator (RunInfo ℝ) Made) =
            { run := dressed i a b r } := rfl
        rw [e0] at e
        rw [e]
        rcases Mcmc.sample (McmcRun.env I str interp st) (fun f => McmcRun.liftVal (s f))
          (Mcmc.generate_sysvars_enum fun f => McmcRun.liftVal (s f))
          (fun seen => (McmcRun.next_position emcee initial seen).map fun p =>
            p.map fun x => .float (some x)) (w * (n + 1)) [] { run := r } with ⟨x | u, g⟩
        · rfl
        · dsimp only
          have e1 : (dressedGen i a b g).best_solution = g.best_solution := rfl
          have e2 : (dressedGen i a b g).run.final = g.run.final := rfl
          rw [e1, e2]
          cases g.best_solution with
          | error x => rfl
          | ok best =>
            dsimp only
            cases g.run.final <;> rfl

section Methods

variable (randn : ℕ → ℕ → List (List ℝ))
  (emcee : List (List ℝ) → List Mcmc.LogProb → Except PyErr (List ℝ)) (ops : Stepper.Ops ℝ)
  (human : List Stepper.SolnData → Stepper.SplitterStatus) (I : Tolerances → Integrator)
  (str : ℝ → String) (interp : List ℝ → List ℝ → Option (ℝ → ℝ))
  (H : Tolerances → HydroRequest Hydro.Args → Integration)
  (J : Tolerances → HydroRequest ModHydro.SystemArgs → Integration)
  (double : Bool) (T : ModHydro.Tracker) (scipy : SonicRootRun.Search) (big : ℝ)
  (others : Bool → String → Solver ℝ Made)

/-- Every method does the same for every origin of the run. -/
theorem methods_blind (st : Bool) (method : String) (hm : method ∈ methodNames) :
    Blind (methods randn emcee ops human I str interp H J double T scipy big others st method) := by
  simp only [methodNames, List.mem_cons, List.not_mem_nil, or_false] at hm
  rcases hm with rfl | rfl | rfl | rfl | rfl | rfl | rfl
  · exact step_blind ops human I str interp st
  · exact single_blind _ false
  · exact mcmc_blind randn emcee I str interp st
  · exact sonic_root_blind scipy I str interp big st
  · exact hydrostatic_blind H str double st
  · exact mod_hydro_blind J str T st
  · exact crosser_blind ops human I str interp st

end Methods

/-! ## The same as solving on its own -/

theorem soln_input_eq (C : Conv F) (c c' : ConfigInput) (h : ∀ f : SField, c (.s f) = c' (.s f)) :
    c.to_soln_input C = c'.to_soln_input C := by
  unfold ConfigInput.to_soln_input
  simp only [h]

/-- C112. A row of a table is solved as `ds-soln` solves it: if `ds-soln` returns for a
configuration file which asks for what the row asks for, with the same method and the same
wish for internal data, then the file of the row, once its worker is done, has the same
solutions and the same final solution as the file of `ds-soln`, and the row counts as failed
exactly if the exit status was not zero.  It does not matter what the other rows ask for, in
which order the workers take their steps, nor how the two files are called. -/
theorem row_same_as_soln (e e' : Env ℝ) (hconv : e'.conv = e.conv)
    (M : Bool → String → Solver ℝ Made) (sniff : Text → Except PyErr (List Text))
    (lines : String → List Text) (name : ℕ → String) (input_file : String) (given : List Occ)
    (fs fs' : FS ℝ Made) (schedule : List ℕ) (header : List Text) (rows : List (List Text))
    (htable : IsTable sniff (lines input_file) header rows)
    (ht : CliSolve.Typed given) (ha : Cli.accepted hdf5runner_options given = true)
    (hk : KnownFields given) (method : String)
    (hmethod : (textGiven given "--sonic-method").getD "single" = method)
    (hown : OwnFiles e name given fs rows.length)
    (hblind : ∀ st, Blind (M st method))
    (read : String → Option Text) (config_file : String) (given' : List Occ) (d : ConfDoc.Doc)
    (hd : d.Good) (hread : read config_file = some d.text) (ht' : CliSolve.Typed given')
    (ha' : Cli.accepted soln_options given' = true) (hk' : KnownFields given')
    (hmethod' : (textGiven given' "--sonic-method").getD "single" = method)
    (hst : isGiven given' "--no-store-internal" = isGiven given "--no-store-internal")
    (i : ℕ) (row : List Text) (hi : rows[i]? = some row)
    (hsame : ∀ (f : SField) (v : Text), Asked d given' f.name v →
      RowAsked header row given f.name (some v))
    (n : ℕ) (hn : (ds_soln e' M read config_file given' fs').status = .ok n)
    (hdone : 2 ≤ schedule.count i) :
    ∃ (pool : Pool ℝ Made) (p : String) (r r' : TheRun ℝ Made),
      ds_hdf5runner e M sniff lines name input_file given fs schedule = .ok pool ∧
      (ds_soln e' M read config_file given' fs').printed = [p] ∧
      (ds_soln e' M read config_file given' fs').fs.get? p = some (.run r) ∧
      pool.fs.get? (fileOf e name given i) = some (.run r') ∧
      r'.solutions = r.solutions ∧ r'.final = r.final ∧
      r'.info.sonic_method = r.info.sonic_method ∧ r'.info.use_E_r = r.info.use_E_r ∧
      (∀ f : SField, r'.info.config_input (.s f) = r.info.config_input (.s f)) ∧
      pool.state i = .ended (.ok (some (decide (n = 0)))) := by
  obtain ⟨pool, hpool, -, hrows⟩ := table_rows e M sniff lines name input_file given fs schedule
    header rows htable ht ha hk method hmethod hown
  obtain ⟨p, c, s, b, r, r', h1, h2, -, -, h3, h4, h5, h6, h7⟩ := HydroMethods.soln_ran e' M read
    config_file given' fs' d hd hread ht' ha' hk' method hmethod' n hn
  obtain ⟨c', k1, -, k2⟩ := hrows i row hi
  have hc : ∀ f : SField, c' (.s f) = c (.s f) := by
    intro f
    obtain ⟨v, hv, hcv⟩ := h4 (.s f)
    obtain ⟨w, hw, hcw⟩ := k1 (.s f)
    have := rowAsked_unique htable.nodup (hsame f v hv) hw
    rw [hcv, hcw, ← this]
    rfl
  rw [hconv] at h5
  have hs : c'.to_soln_input e.conv = .ok s := by rw [soln_input_eq _ c' c hc, h5]
  obtain ⟨r₀, hb, -, hend⟩ := k2 s hs
  have hend := hend hdone
  have hr₀ : r₀ = dressed ⟨c', none, method, s .use_E_r⟩ r₀.based_on_filename r₀.based_on_solution
      { info := ⟨c, some config_file, method, s .use_E_r⟩ } := by
    obtain ⟨i1, i2, i3, i4, i5, i6⟩ := r₀
    obtain ⟨hb1, ⟨hb2, hb3, hb4⟩, -⟩ := hb
    dsimp only at hb1 hb2 hb3 hb4
    subst hb1 hb2 hb3 hb4
    rfl
  rw [← hst, hr₀, hblind, h6] at hend
  have hfin := finalise_dressed ⟨c', none, method, s .use_E_r⟩ r₀.based_on_filename
    r₀.based_on_solution r
  rw [h7] at hfin
  obtain ⟨e1, e2⟩ := hend.done b _ rfl hfin
  -- the origin of the run of `ds-soln`
  have hinfo : r'.info = ⟨c, some config_file, method, s .use_E_r⟩ := by
    have hfix := hblind (!isGiven given' "--no-store-internal") s
      { info := ⟨c, some config_file, method, s .use_E_r⟩ }
      ⟨c, some config_file, method, s .use_E_r⟩ none none
    have hself : dressed ⟨c, some config_file, method, s .use_E_r⟩ none none
        ({ info := ⟨c, some config_file, method, s .use_E_r⟩ } : TheRun ℝ Made) =
        { info := ⟨c, some config_file, method, s .use_E_r⟩ } := rfl
    rw [hself, h6] at hfix
    injection hfix with _ hfix
    have hr : r.info = ⟨c, some config_file, method, s .use_E_r⟩ := by rw [hfix]; rfl
    have := finalise_dressed r.info r.based_on_filename r.based_on_solution r
    have hrr : dressed r.info r.based_on_filename r.based_on_solution r = r := rfl
    rw [hrr, h7] at this
    injection this with this
    rw [this, ← hr]
    rfl
  refine ⟨pool, p, r', _, hpool, h2, h3, e2, rfl, rfl, ?_, ?_, ?_, ?_⟩
  · rw [hinfo]; rfl
  · rw [hinfo]; rfl
  · intro f
    rw [hinfo]
    exact hc f
  · rw [e1, h1]
    cases b <;> rfl

/-- C112. In particular with the methods as they are. -/
theorem methods_same_as_soln (randn : ℕ → ℕ → List (List ℝ))
    (emcee : List (List ℝ) → List Mcmc.LogProb → Except PyErr (List ℝ)) (ops : Stepper.Ops ℝ)
    (human : List Stepper.SolnData → Stepper.SplitterStatus) (I : Tolerances → Integrator)
    (str : ℝ → String) (interp : List ℝ → List ℝ → Option (ℝ → ℝ))
    (H : Tolerances → HydroRequest Hydro.Args → Integration)
    (J : Tolerances → HydroRequest ModHydro.SystemArgs → Integration)
    (double : Bool) (T : ModHydro.Tracker) (scipy : SonicRootRun.Search) (big : ℝ)
  (others : Bool → String → Solver ℝ Made)
    (e e' : Env ℝ) (hconv : e'.conv = e.conv) (sniff : Text → Except PyErr (List Text))
    (lines : String → List Text) (name : ℕ → String) (input_file : String) (given : List Occ)
    (fs fs' : FS ℝ Made) (schedule : List ℕ) (header : List Text) (rows : List (List Text))
    (htable : IsTable sniff (lines input_file) header rows)
    (ht : CliSolve.Typed given) (ha : Cli.accepted hdf5runner_options given = true)
    (hk : KnownFields given) (method : String)
    (hmethod : (textGiven given "--sonic-method").getD "single" = method)
    (hown : OwnFiles e name given fs rows.length)
    (read : String → Option Text) (config_file : String) (given' : List Occ) (d : ConfDoc.Doc)
    (hd : d.Good) (hread : read config_file = some d.text) (ht' : CliSolve.Typed given')
    (ha' : Cli.accepted soln_options given' = true) (hk' : KnownFields given')
    (hmethod' : (textGiven given' "--sonic-method").getD "single" = method)
    (hst : isGiven given' "--no-store-internal" = isGiven given "--no-store-internal")
    (i : ℕ) (row : List Text) (hi : rows[i]? = some row)
    (hsame : ∀ (f : SField) (v : Text), Asked d given' f.name v →
      RowAsked header row given f.name (some v))
    (n : ℕ) (hn : (ds_soln e' (methods randn emcee ops human I str interp H J double T scipy big others)
      read config_file given' fs').status = .ok n)
    (hdone : 2 ≤ schedule.count i) :
    ∃ (pool : Pool ℝ Made) (p : String) (r r' : TheRun ℝ Made),
      ds_hdf5runner e (methods randn emcee ops human I str interp H J double T scipy big others) sniff
        lines name input_file given fs schedule = .ok pool ∧
      (ds_soln e' (methods randn emcee ops human I str interp H J double T scipy big others) read
        config_file given' fs').printed = [p] ∧
      (ds_soln e' (methods randn emcee ops human I str interp H J double T scipy big others) read
        config_file given' fs').fs.get? p = some (.run r) ∧
      pool.fs.get? (fileOf e name given i) = some (.run r') ∧
      r'.solutions = r.solutions ∧ r'.final = r.final ∧
      pool.state i = .ended (.ok (some (decide (n = 0)))) := by
  obtain ⟨pool, p, r, r', h1, h2, h3, h4, h5, h6, -, -, -, h7⟩ := row_same_as_soln e e' hconv
    (methods randn emcee ops human I str interp H J double T scipy big others) sniff lines name input_file
    given fs fs' schedule header rows htable ht ha hk method hmethod hown
    (fun st => methods_blind randn emcee ops human I str interp H J double T scipy big others st method
      (hmethod ▸ method_known given ha))
    read config_file given' d hd hread ht' ha' hk' hmethod' hst i row hi hsame n hn hdone
  exact ⟨pool, p, r, r', h1, h2, h3, h4, h5, h6, h7⟩

/-- Whether a row counts as failed. -/
def counted : Except PyErr (Option Bool) → Bool
  | .ok (some true) => false
  | _ => true

/-- C112. The loop over the results: there is one message for each row which failed or gave up
before the first which raised, and what that one raised is raised. -/
theorem report_spec (results : List (Except PyErr (Option Bool))) :
    ∃ before after : List (Except PyErr (Option Bool)), results = before ++ after ∧
      (∀ x, Except.error x ∉ before) ∧
      (report results).1 = List.replicate (before.countP counted) "Solver failed for input" ∧
      ((after = [] ∧ (report results).2 = .ok ()) ∨
        ∃ x rest, after = .error x :: rest ∧ (report results).2 = .error x) := by
  induction results with
  | nil => exact ⟨[], [], rfl, fun _ h => (by cases h), rfl, Or.inl ⟨rfl, rfl⟩⟩
  | cons a l ih =>
    obtain ⟨before, after, h1, h2, h3, h4⟩ := ih
    rcases a with x | _ | _ | _
    · exact ⟨[], .error x :: l, rfl, fun _ h => (by cases h), rfl, Or.inr ⟨x, l, rfl, rfl⟩⟩
    · refine ⟨.ok none :: before, after, by rw [h1]; rfl, fun x hx => ?_, ?_, h4⟩
      · rcases List.mem_cons.1 hx with h | h
        · cases h
        · exact h2 x h
      · simp only [report, h3, List.countP_cons, counted, if_true]
        rfl
    · refine ⟨.ok (some false) :: before, after, by rw [h1]; rfl, fun x hx => ?_, ?_, h4⟩
      · rcases List.mem_cons.1 hx with h | h
        · cases h
        · exact h2 x h
      · simp only [report, h3, List.countP_cons, counted, if_true]
        rfl
    · refine ⟨.ok (some true) :: before, after, by rw [h1]; rfl, fun x hx => ?_, ?_, h4⟩
      · rcases List.mem_cons.1 hx with h | h
        · cases h
        · exact h2 x h
      · simp only [report, h3, List.countP_cons, counted]
        rfl

/-! ## Witnesses -/

open HydroMethods (witMAsked witM_asked witM_typed witM_known witM_returns witMethods)
open ConfDoc (witDoc witDoc_good)

/-- A column for every option. -/
def witHeader : List Text := SField.all.map fun f => f.name.toList

/-- The row which asks for what the command line of the example before asks for. -/
def witRow : List Text := SField.all.map fun f => witMAsked (.s f)

/-- A comment, that row, and a row which is too short. -/
def witItems : List Csv.Item :=
  [.row witHeader, .comment "two".toList, .row witRow, .row ["0".toList]]

def witTable : String → List Text := fun _ =>
  Csv.rawLines (witItems.map Csv.Item.text).flatten

def witLine : List Occ := [("--sonic-method", .str "mod_hydro")]

def witNames (i : ℕ) : String := if i = 0 then "a" else "b"

theorem witTable_ok : IsTable (fun _ => .ok [[]]) (witTable "t.csv") witHeader
    [witRow, ["0".toList]] where
  text := by
    refine ⟨witItems, ?_, rfl, rfl⟩
    intro i hi
    simp only [witItems, List.mem_cons, List.not_mem_nil, or_false] at hi
    rcases hi with rfl | rfl | rfl | rfl <;> simp only [Csv.Item.OneLine] <;> decide +kernel
  nodup := by decide +kernel
  needed := by decide +kernel
  sniffed := ⟨[[]], rfl, by simp⟩

theorem witLine_typed : CliSolve.Typed witLine := CliSolve.oneTyped _ _ (by decide)

theorem witLine_known : KnownFields witLine := fun _ h => by cases h

theorem witOwn : OwnFiles witEnvR witNames witLine ([] : FS ℝ Made) 2 where
  distinct i k hi hk h := by
    have : fileOf witEnvR witNames witLine 0 ≠ fileOf witEnvR witNames witLine 1 := by
      show ("." ++ "/" ++ ("" ++ ("a" ++ ".hdf5")) : String) ≠
        "." ++ "/" ++ ("" ++ ("b" ++ ".hdf5"))
      decide
    have hi' : i = 0 ∨ i = 1 := by omega
    have hk' : k = 0 ∨ k = 1 := by omega
    rcases hi' with rfl | rfl <;> rcases hk' with rfl | rfl <;>
      first | rfl | exact absurd h this | exact absurd h.symm this
  new _ _ := rfl
  writable _ _ := rfl

theorem witRow_asked (f : SField) : RowAsked witHeader witRow witLine f.name
    (some (witMAsked (.s f))) := by
  have hg : overrideGiven witLine f.name = none := rfl
  unfold RowAsked
  rw [hg]
  unfold InRow
  dsimp only
  have hl : f.name ≠ "label" := by cases f <;> decide
  rw [if_neg hl]
  have hf : f ∈ SField.all := by cases f <;> decide
  obtain ⟨j, hj⟩ := List.getElem?_of_mem hf
  refine Or.inl ⟨j, ?_, ?_⟩
  · rw [witHeader, List.getElem?_map, hj]
    rfl
  · rw [witRow, List.getElem?_map, hj]
    rfl

example := table_rows witEnvR witMethods (fun _ => .ok [[]]) witTable witNames "t.csv" witLine []
  [1, 0, 0, 1] _ _ witTable_ok witLine_typed (by decide +kernel) witLine_known "mod_hydro" rfl
  witOwn

example := row_same_as_soln witEnvR witEnvR rfl witMethods (fun _ => .ok [[]]) witTable witNames
  "t.csv" witLine [] [] [1, 0, 0, 1] _ _ witTable_ok witLine_typed (by decide +kernel)
  witLine_known "mod_hydro" rfl witOwn
  (fun st => mod_hydro_blind (fun _ => Hydro.witI) (fun _ => "") ModHydro.witT st)
  (fun _ => some witDoc.text) "a.cfg" HydroMethods.witM witDoc witDoc_good rfl witM_typed (by decide +kernel)
  witM_known (by decide +kernel) (by decide +kernel) 0 witRow rfl
  (fun f v hv => by
    rw [asked_unique witDoc_good HydroMethods.witM (.s f) hv (witM_asked (.s f))]
    exact witRow_asked f) 0 witM_returns (by decide)

/-- `ds-soln` calls one method. -/
theorem soln_congr (e : Env F) (M M' : Bool → String → Solver F σ) (read : String → Option Text)
    (config_file : String) (given : List Occ) (fs : FS F σ) (ht : CliSolve.Typed given)
    (ha : Cli.accepted soln_options given = true) (hk : KnownFields given)
    (h : ∀ st, M st ((textGiven given "--sonic-method").getD "single") =
      M' st ((textGiven given "--sonic-method").getD "single")) :
    ds_soln e M read config_file given fs = ds_soln e M' read config_file given fs := by
  obtain ⟨ov, h1, -⟩ := overrides_valid hk
  simp only [ds_soln, parse_args, ha, if_true, readArgs_eq soln_solver ht ha, h1,
    logArgs_eq soln_solver ht, Option.or_none, Bool.or_true, Bool.and_true]
  unfold solve getMethod
  simp only [h]

/-- All methods, with integrators which find that nothing changes. -/
noncomputable def witAll : Bool → String → Solver ℝ Made :=
  methods (fun _ _ => []) (fun _ _ => .error .ValueError) Stepper.realOps (fun _ => .STOP)
    witStay (fun _ => "") (fun _ _ => none) (fun _ => Hydro.witI) (fun _ => Hydro.witI) true
    ModHydro.witT (fun _ _ => ([], .ok true)) 1 fun _ _ _ r => (.error .SolverError, r)

theorem witAll_returns : (ds_soln witEnvR witAll (fun _ => some witDoc.text) "a.cfg"
    HydroMethods.witM ([] : FS ℝ Made)).status = .ok 0 := by
  rw [soln_congr witEnvR witAll witMethods _ _ _ _ witM_typed (by decide +kernel) witM_known]
  · exact witM_returns
  · intro st
    rw [show (textGiven HydroMethods.witM "--sonic-method").getD "single" = "mod_hydro" by
      decide +kernel]
    rfl

example := methods_same_as_soln _ _ _ _ _ _ _ _ _ _ _ _ _ _ witEnvR witEnvR rfl
  (fun _ => .ok [[]]) witTable witNames "t.csv" witLine [] [] [1, 0, 0, 1] _ _ witTable_ok witLine_typed
  (by decide +kernel) witLine_known "mod_hydro" rfl witOwn
  (fun _ => some witDoc.text) "a.cfg" HydroMethods.witM witDoc witDoc_good rfl witM_typed
  (by decide +kernel) witM_known (by decide +kernel) (by decide +kernel) 0 witRow rfl
  (fun f v hv => by
    rw [asked_unique witDoc_good HydroMethods.witM (.s f) hv (witM_asked (.s f))]
    exact witRow_asked f) 0 witAll_returns (by decide)

example : report [.ok (some true), .ok none, .error .OSError, .ok (some false)] =
    (["Solver failed for input"], .error .OSError) := rfl

end DiscSolver.Hdf5Run
