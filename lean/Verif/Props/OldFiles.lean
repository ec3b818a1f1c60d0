import Verif.Props.FileFormat

/-!
# Older files
-/

namespace DiscSolver.FileFormat

/-! ## C44: versions that load -/

/-- The name under which a class is stored. -/
def storedName : Cls → String
  | .InternalData => "InternalData"
  | .InitialConditions => "InitialConditions"
  | .Solution => "Solution"
  | .ConfigInput => "ConfigInput"
  | .SolutionInput => "SolutionInput"
  | .Run => "Run"
  | .JacobianData => "JacobianData"
  | .MCMCVars => "MCMCVars"
  | .slice => "slice"

/-- The versions of inputs and solutions that can be loaded. -/
def Loadable : Cls → ℕ → Prop
  | .ConfigInput, v | .SolutionInput, v => v = 4 ∨ (6 ≤ v ∧ v ≤ 14)
  | .Solution, v => 1 ≤ v ∧ v ≤ 4
  | _, _ => False

/-- Inputs and solutions of these versions load: the fields there were keep their values,
the others get the assumed ones. -/
theorem old_file_loads_partial (E : Env) (c : Cls) (v : ℕ) (hv : Loadable c v)
    (attributes : List (String × Obj)) (nodes : List (String × Node)) (value : String → Obj)
    (h : IsFile E c v attributes nodes value) :
    read E (.group (storedName c) v attributes nodes) =
      .ok (.obj c ((kinds c).map fun f =>
        (f.1, if introduced c f.1 ≤ v then value f.1 else assumed c v f.1))) := by
  cases c <;> try exact False.elim hv
  · have h₁ : 1 ≤ v := hv.1
    have h₂ : v ≤ 4 := hv.2
    interval_cases v
    · exact load_old E _ _ _ _ rfl (by decide) (by decide) agrees_Solution1 _ _ _ h
    · exact load_old E _ _ _ _ rfl (by decide) (by decide) agrees_Solution2 _ _ _ h
    · exact load_old E _ _ _ _ rfl (by decide) (by decide) agrees_Solution3 _ _ _ h
    · exact load_old E _ _ _ _ rfl (by decide) (by decide) agrees_Solution4 _ _ _ h
  · rcases hv with rfl | ⟨h₁, h₂⟩
    · exact load_old E _ _ _ _ rfl (by decide) (by decide) agrees_ConfigInput4 _ _ _ h
    interval_cases v
    · exact load_old E _ _ _ _ rfl (by decide) (by decide) agrees_ConfigInput6 _ _ _ h
    · exact load_old E _ _ _ _ rfl (by decide) (by decide) agrees_ConfigInput7 _ _ _ h
    · exact load_old E _ _ _ _ rfl (by decide) (by decide) agrees_ConfigInput8 _ _ _ h
    · exact load_old E _ _ _ _ rfl (by decide) (by decide) agrees_ConfigInput9 _ _ _ h
    · exact load_old E _ _ _ _ rfl (by decide) (by decide) agrees_ConfigInput10 _ _ _ h
    · exact load_old E _ _ _ _ rfl (by decide) (by decide) agrees_ConfigInput11 _ _ _ h
    · exact load_old E _ _ _ _ rfl (by decide) (by decide) agrees_ConfigInput12 _ _ _ h
    · exact load_old E _ _ _ _ rfl (by decide) (by decide) agrees_ConfigInput13 _ _ _ h
    · exact load_old E _ _ _ _ rfl (by decide) (by decide) agrees_ConfigInput14 _ _ _ h
  · rcases hv with rfl | ⟨h₁, h₂⟩
    · exact load_old E _ _ _ _ rfl (by decide) (by decide) agrees_SolutionInput4 _ _ _ h
    interval_cases v
    · exact load_old E _ _ _ _ rfl (by decide) (by decide) agrees_SolutionInput6 _ _ _ h
    · exact load_old E _ _ _ _ rfl (by decide) (by decide) agrees_SolutionInput7 _ _ _ h
    · exact load_old E _ _ _ _ rfl (by decide) (by decide) agrees_SolutionInput8 _ _ _ h
    · exact load_old E _ _ _ _ rfl (by decide) (by decide) agrees_SolutionInput9 _ _ _ h
    · exact load_old E _ _ _ _ rfl (by decide) (by decide) agrees_SolutionInput10 _ _ _ h
    · exact load_old E _ _ _ _ rfl (by decide) (by decide) agrees_SolutionInput11 _ _ _ h
    · exact load_old E _ _ _ _ rfl (by decide) (by decide) agrees_SolutionInput12 _ _ _ h
    · exact load_old E _ _ _ _ rfl (by decide) (by decide) agrees_SolutionInput13 _ _ _ h
    · exact load_old E _ _ _ _ rfl (by decide) (by decide) agrees_SolutionInput14 _ _ _ h

/-- Runs of all six versions load; from version 5 the inputs that do not know whether
`E_r` was used are told by the run. -/
theorem old_run_loads (E : Env) (v : ℕ) (hv : 1 ≤ v ∧ v ≤ 6)
    (attributes : List (String × Obj)) (nodes : List (String × Node)) (value : String → Obj)
    (h : IsFile E .Run v attributes nodes value) :
    read E (.group "Run" v attributes nodes) =
      .ok (.obj .Run ((kinds .Run).map fun f => (f.1, runMigrated E v value f.1))) := by
  have hlow : v < 5 → ∀ t, loaderTable "Run" v = some (.Run, t) → Agrees .Run v t →
      read E (.group "Run" v attributes nodes) =
      .ok (.obj .Run ((kinds .Run).map fun f => (f.1, runMigrated E v value f.1))) := by
    intro hv5 t ht hA
    rw [load_old E .Run "Run" v t ht (by omega) (by decide) hA _ _ _ h]
    simp only [runMigrated, if_pos hv5]
  obtain ⟨h₁, h₂⟩ := hv
  interval_cases v
  · exact hlow (by decide) _ rfl agrees_Run1
  · exact hlow (by decide) _ rfl agrees_Run2
  · exact hlow (by decide) _ rfl agrees_Run3
  · exact hlow (by decide) _ rfl agrees_Run4
  · exact load_run E 5 (.inl rfl) _ rfl agrees_Run5 (by decide +kernel) _ _ _ h
  · exact load_run E 6 (.inr rfl) _ rfl agrees_Run6 (by decide +kernel) _ _ _ h

/-- A group with given values of the fields there were. -/
theorem isFile_make (E : Env) (c : Cls) (v : ℕ) (node : String → Node) (value : String → Obj)
    (hs : ∀ e ∈ kinds c, introduced c e.1 ≤ v → Shaped e.2 (value e.1))
    (hh : ∀ e ∈ kinds c, introduced c e.1 ≤ v → ¬ inAttrs c v e.1 e.2 →
      Holds E (node e.1) (value e.1)) :
    IsFile E c v
      (((kinds c).filter fun e => introduced c e.1 ≤ v ∧ inAttrs c v e.1 e.2).map fun e =>
        (e.1, value e.1))
      (((kinds c).filter fun e => introduced c e.1 ≤ v ∧ ¬ inAttrs c v e.1 e.2).map fun e =>
        (e.1, node e.1)) value := by
  have nodup : ∀ {α : Type} (p : String × Kind → Bool) (f : String → α),
      ((((kinds c).filter p).map fun e => (e.1, f e.1)).map (·.1)).Nodup := by
    intro α p f
    rw [List.map_map]
    exact (kinds_nodup c).sublist (List.filter_sublist.map _)
  constructor
  · exact fun k κ h hi => hs (k, κ) (mem_of_lookup h) hi
  · intro k κ h hi ha
    refine lookup_of_mem (nodup _ _) (List.mem_map.2 ⟨(k, κ), ?_, rfl⟩)
    exact List.mem_filter.2 ⟨mem_of_lookup h, by simp [hi, ha]⟩
  · intro k κ h hi ha
    refine ⟨node k, ?_, hh (k, κ) (mem_of_lookup h) hi ha⟩
    refine lookup_of_mem (nodup _ _) (List.mem_map.2 ⟨(k, κ), ?_, rfl⟩)
    exact List.mem_filter.2 ⟨mem_of_lookup h, by simp [hi, ha]⟩
  · intro k n h
    obtain ⟨e, he, heq⟩ := List.mem_map.1 h
    obtain ⟨he, hp⟩ := List.mem_filter.1 he
    cases heq
    simp only [decide_eq_true_eq] at hp
    exact ⟨e.2, lookup_of_mem (kinds_nodup c) he, hp.1, hp.2⟩
  · exact nodup _ _

/-- The value of a field, by its kind. -/
def byKind (c : Cls) (f : Kind → Obj) (k : String) : Obj :=
  match (kinds c).lookup k with
  | some κ => f κ
  | none => .none

theorem byKind_eq (c : Cls) (f : Kind → Obj) (e : String × Kind) (he : e ∈ kinds c) :
    byKind c f e.1 = f e.2 := by
  rw [byKind, lookup_of_mem (kinds_nodup c) he]

/-- How a plain value is stored. -/
def nodeOf : Obj → Node
  | .arr a => .data a
  | .num x => .num x
  | .text s => .text s
  | .bool b => .bool b
  | _ => .none

/-- A file with the sample values. -/
theorem sample_file (E : Env) (c : Cls) (v : ℕ)
    (h : ∀ e ∈ kinds c, introduced c e.1 ≤ v →
      e.2 ∈ [Kind.scalar, .array, .optArray, .builtin, .optText, .optNumber, .unset]) :
    ∃ a n, IsFile E c v a n (byKind c sampleScalar) := by
  refine ⟨_, _, isFile_make E c v (fun k => nodeOf (byKind c sampleScalar k)) _ ?_ ?_⟩
  · intro e he hi
    rw [byKind_eq c _ e he]
    exact .usual _ _ (sampleScalar_fits _ (h e he hi))
  · intro e he hi _
    rw [byKind_eq c _ e he]
    have := h e he hi
    simp only [List.mem_cons, List.not_mem_nil, or_false] at this
    rcases this with h | h | h | h | h | h | h <;> rw [h] <;> constructor

example (E : Env) : ∃ a n, IsFile E .SolutionInput 8 a n (byKind .SolutionInput sampleScalar) :=
  sample_file E _ _ (by decide +kernel)
example (E : Env) : ∃ a n, IsFile E .ConfigInput 4 a n (byKind .ConfigInput sampleScalar) :=
  sample_file E _ _ (by decide +kernel)
example (E : Env) := old_file_loads_partial E .SolutionInput 8 (.inr (by omega)) _ _ _
  (sample_file E .SolutionInput 8 (by decide +kernel)).choose_spec.choose_spec

/-- A run of version 5 with an input of version 13. -/
theorem sample_run_file (E : Env) : ∃ a n value, IsFile E .Run 5 a n value ∧
    (∃ c, value "config_input" = .obj .ConfigInput c ∧ c.lookup "use_E_r" = some .none) ∧
    value "use_E_r" = .text "a" := by
  obtain ⟨a, n, h⟩ := sample_file E .ConfigInput 13 (by decide +kernel)
  have hr := old_file_loads_partial E .ConfigInput 13 (.inr (by omega)) a n _ h
  have hshape : Shaped (.obj .ConfigInput) (.obj .ConfigInput
      ((kinds .ConfigInput).map fun f => (f.1, if introduced .ConfigInput f.1 ≤ 13 then
        byKind .ConfigInput sampleScalar f.1 else assumed .ConfigInput 13 f.1))) := by
    refine .obj _ _ (by rw [List.map_map]; rfl) fun k κ o hκ ho => ?_
    rw [lookup_map_fst (fun f : String × Kind => f.1)
      (fun k => if introduced .ConfigInput k ≤ 13 then byKind .ConfigInput sampleScalar k
        else assumed .ConfigInput 13 k) _ _ (mem_keys hκ)] at ho
    cases ho
    split_ifs with hi
    · exact h.shaped k κ hκ hi
    · have h₁ : ∀ e ∈ kinds .ConfigInput, ¬ introduced .ConfigInput e.1 ≤ 13 →
        e = ("use_E_r", Kind.scalar) := by decide +kernel
      have := h₁ _ (mem_of_lookup hκ) hi
      cases this
      exact .unknown
  let f : Kind → Obj := fun κ =>
    match κ with
    | .obj _ => .obj .ConfigInput
      ((kinds .ConfigInput).map fun f => (f.1, if introduced .ConfigInput f.1 ≤ 13 then
        byKind .ConfigInput sampleScalar f.1 else assumed .ConfigInput 13 f.1))
    | .solutions => .solutions []
    | κ => sampleScalar κ
  let g : Kind → Node := fun κ =>
    match κ with
    | .obj _ => .group (storedName .ConfigInput) 13 a n
    | .solutions => .group "Solutions" 1 [] []
    | κ => nodeOf (sampleScalar κ)
  have hk : ∀ e ∈ kinds .Run, e.2 = .obj .ConfigInput ∨ e.2 = .solutions ∨ e.2 = .builtin ∨
    e.2 = .scalar ∨ e.2 = .optObj .Solution := by decide +kernel
  refine ⟨_, _, _, isFile_make E .Run 5 (fun k => match (kinds .Run).lookup k with
    | some κ => g κ
    | none => .none) (byKind .Run f) ?_ ?_, ⟨_, rfl, rfl⟩, rfl⟩
  · intro e he _
    rw [byKind_eq _ _ e he]
    rcases hk e he with h | h | h | h | h <;> rw [h]
    · exact hshape
    · exact .usual _ _ (.solutions [] (by simp) (by simp))
    · exact .usual _ _ (.builtin_text _)
    · exact .usual _ _ (.scalar_num _)
    · exact .usual _ _ (.optObj_none _)
  · intro e he _ hn
    rw [byKind_eq _ _ e he, lookup_of_mem (kinds_nodup _) he]
    rcases hk e he with h | h | h | h | h <;> rw [h]
    · exact .group _ _ _ _ _ hr (by simp)
    · exact .group _ _ _ _ _ (by simp [read, readMembers, loader, loaderTable, byName, f])
        (by simp [f])
    · exact .text _
    · exact .num _
    · exact .none

/-- Initial conditions of the first two versions load: `γ = 5/4 - β`, and the first does not
know `a_0`.  Files with eight initial values get the diffusivities as the last three. -/
theorem old_initial_conditions_load (E : Env) (v : ℕ) (hv : v = 1 ∨ v = 2)
    (attributes : List (String × Obj)) (kep o m h : Obj) (x y z β : ℝ) (a g : NArr) (a_0 : Obj)
    (hkep : attributes.lookup "norm_kepler_sq" = some kep)
    (ho : attributes.lookup "η_O" = some o) (hm : attributes.lookup "η_A" = some m)
    (hh : attributes.lookup "η_H" = some h) (hβ : attributes.lookup "β" = some (.num (.val β)))
    (hi : attributes.lookup "init_con" = some (.arr a))
    (ha : v = 2 → attributes.lookup "a_0" = some a_0) (ha' : v = 1 → a_0 = .num .nan)
    (hx : IsNumber x o) (hy : IsNumber y m) (hz : IsNumber z h)
    (hcon : a.data.length = 8 ∨ (a.data.length = 11 ∧ a.data[8]? = some (.val x) ∧
      a.data[9]? = some (.val y) ∧ a.data[10]? = some (.val z))) :
    read E (.group "InitialConditions" v attributes [("angles", .data g)]) =
      .ok (.obj .InitialConditions
        [("norm_kepler_sq", kep), ("η_O", o), ("η_A", m), ("η_H", h),
         ("γ", .num (.val (5 / 4 - β))),
         ("init_con", .arr (if a.data.length = 8 then
           ⟨[11], a.data ++ [.val x, .val y, .val z]⟩ else a)),
         ("angles", .arr g), ("a_0", a_0)]) := by
  let R : String → Obj := fun k =>
    match k with
    | "norm_kepler_sq" => kep
    | "η_O" => o
    | "η_A" => m
    | "η_H" => h
    | "γ" => .num (.val (5 / 4 - β))
    | "init_con" => .arr a
    | "angles" => .arr g
    | _ => a_0
  have hread : readMembers E [("angles", .data g)] = .ok [("angles", .dset g)] := rfl
  have hload : read E (.group "InitialConditions" v attributes [("angles", .data g)]) =
      constructInitial R := by
    rcases hv with rfl | rfl
    · refine load_initial E 1 loadInitialConditions1 rfl _ _ _ hread R ?_ ?_
      · have := ha' rfl
        subst this
        simp only [loadInitialConditions1, List.forall_mem_cons]
        refine ⟨?_, ?_, ?_, ?_, ?_, ?_, ?_, ?_, by simp⟩ <;>
          simp [evalSrc, getKey, hkep, ho, hm, hh, hβ, hi, R, Except.bind, γOfβ, dataOf]
      · have h₁ : ∀ k ∈ loadInitialConditions1.map (·.1),
          k ∈ (kinds .InitialConditions).map (·.1) := by decide +kernel
        have h₂ : ∀ k ∈ (kinds .InitialConditions).map (·.1),
          k ∈ loadInitialConditions1.map (·.1) := by decide +kernel
        exact fun k => ⟨h₁ k, h₂ k⟩
    · refine load_initial E 2 loadInitialConditions2 rfl _ _ _ hread R ?_ ?_
      · have := ha rfl
        simp only [loadInitialConditions2, List.forall_mem_cons]
        refine ⟨?_, ?_, ?_, ?_, ?_, ?_, ?_, ?_, by simp⟩ <;>
          simp [evalSrc, getKey, hkep, ho, hm, hh, hβ, hi, this, R, Except.bind, γOfβ, dataOf]
      · have h₁ : ∀ k ∈ loadInitialConditions2.map (·.1),
          k ∈ (kinds .InitialConditions).map (·.1) := by decide +kernel
        have h₂ : ∀ k ∈ (kinds .InitialConditions).map (·.1),
          k ∈ loadInitialConditions2.map (·.1) := by decide +kernel
        exact fun k => ⟨h₁ k, h₂ k⟩
  rw [hload]
  have hel : ∀ (x : ℝ) (o : Obj), IsNumber x o → asElement o = some (.val x) := by
    rintro x o (rfl | rfl) <;> rfl
  unfold constructInitial
  change (if a.data.length = 8 then
      match elevenOf a o m h with
      | Except.error e => Except.error e
      | Except.ok b => Except.ok (Obj.obj .InitialConditions
          [("norm_kepler_sq", kep), ("η_O", o), ("η_A", m), ("η_H", h),
           ("γ", .num (.val (5 / 4 - β))), ("init_con", .arr b), ("angles", .arr g),
           ("a_0", a_0)])
    else
      match checkη a 8 o, checkη a 9 m, checkη a 10 h with
      | Except.ok x, Except.ok y, Except.ok z => Except.ok (Obj.obj .InitialConditions
          [("norm_kepler_sq", kep), ("η_O", x), ("η_A", y), ("η_H", z),
           ("γ", .num (.val (5 / 4 - β))), ("init_con", .arr a), ("angles", .arr g),
           ("a_0", a_0)])
      | Except.error e, _, _ => Except.error e
      | Except.ok _, Except.error e, _ => Except.error e
      | Except.ok _, Except.ok _, Except.error e => Except.error e) = _
  rcases hcon with h8 | ⟨h11, e₁, e₂, e₃⟩
  · rw [if_pos h8, elevenOf, hel x o hx, hel y m hy, hel z h hz]
    simp only [if_pos h8]
  · rw [if_neg (by omega), checkη_ok a 8 x o hx e₁, checkη_ok a 9 y m hy e₂,
      checkη_ok a 10 z h hz e₃]
    simp only [if_neg (show ¬ a.data.length = 8 by omega)]

example (E : Env) := old_initial_conditions_load E 1 (.inl rfl)
  [("norm_kepler_sq", .num (.val 4)), ("η_O", .num (.val 1)), ("η_A", .num (.val 2)),
   ("η_H", .num (.val 3)), ("β", .num (.val 1)),
   ("init_con", .arr ⟨[8], [.val 1, .val 2, .val 3, .val 4, .val 5, .val 6, .val 7, .val 8]⟩)]
  (.num (.val 4)) (.num (.val 1)) (.num (.val 2)) (.num (.val 3)) 1 2 3 1 _ ⟨[1], [.val 0]⟩
  (.num .nan) rfl rfl rfl rfl rfl rfl (by simp) (fun _ => rfl) (.inl rfl) (.inl rfl) (.inl rfl)
  (.inl rfl)

/-! ## Versions that do not load -/

/-- The other registered versions of the inputs never load, whatever is in the file: the
loaders do not give the constructor all it requires. -/
theorem old_inputs_unreadable (E : Env) (c : Cls) (hc : c = .ConfigInput ∨ c = .SolutionInput)
    (v : ℕ) (hv : v = 1 ∨ v = 2 ∨ v = 3 ∨ v = 5)
    (attributes : List (String × Obj)) (nodes : List (String × Node)) :
    ∃ e, read E (.group (storedName c) v attributes nodes) = .error e := by
  have key : ∀ t, loaderTable (storedName c) v = some (c, t) →
      "target_velocity" ∉ t.map (·.1) →
      ∃ e, read E (.group (storedName c) v attributes nodes) = .error e := by
    intro t ht hk
    refine unreadable E c _ v t ht ?_ (fun kwargs hkw => ?_) _ _
    · rintro ⟨h, -⟩; rcases hc with rfl | rfl <;> simp [storedName] at h
    · refine construct_missing E c kwargs "target_velocity" (by rwa [hkw]) ?_
      rcases hc with rfl | rfl <;> simp [classFields]
  rcases hc with rfl | rfl <;> rcases hv with rfl | rfl | rfl | rfl
  all_goals exact key _ rfl (by decide +kernel)

/-- Internal data of the first two versions never loads: its loaders use an argument the
constructor no longer has.  So no solution storing such data can be loaded. -/
theorem old_internal_data_unreadable (E : Env) (v : ℕ) (hv : v = 1 ∨ v = 2)
    (attributes : List (String × Obj)) (nodes : List (String × Node)) :
    ∃ e, read E (.group "InternalData" v attributes nodes) = .error e := by
  have key : ∀ t, loaderTable "InternalData" v = some (.InternalData, t) →
      "jacobians" ∈ t.map (·.1) →
      ∃ e, read E (.group "InternalData" v attributes nodes) = .error e := by
    intro t ht hk
    refine unreadable E .InternalData _ v t ht (by simp) (fun kwargs hkw => ?_) _ _
    exact ⟨_, construct_unknown E _ kwargs "jacobians" (hkw ▸ hk) (by decide +kernel)⟩
  rcases hv with rfl | rfl
  all_goals exact key _ rfl (by decide +kernel)

/-- A group with a member that cannot be read cannot be read. -/
theorem unreadable_member (E : Env) (label : String) (v : ℕ)
    (attributes : List (String × Obj)) (nodes : List (String × Node)) (k : String) (n : Node)
    (hk : (k, n) ∈ nodes) (hn : n ≠ .absent) (h : ∃ e, read E n = .error e) :
    ∃ e, read E (.group label v attributes nodes) = .error e := by
  have : ∃ e, readMembers E nodes = .error e := by
    induction nodes with
    | nil => simp at hk
    | cons b l ih =>
      obtain ⟨k', n'⟩ := b
      rcases List.mem_cons.1 hk with hk | hk
      · cases hk
        obtain ⟨e, he⟩ := h
        refine ⟨e, ?_⟩
        rw [readMembers]
        · rw [he]
        · exact hn
      · obtain ⟨e, he⟩ := ih hk
        by_cases ha : n' = .absent
        · subst ha
          exact ⟨e, by rw [readMembers, he]⟩
        · rw [readMembers]
          · cases hr : read E n' with
            | error e' => exact ⟨e', rfl⟩
            | ok o => exact ⟨e, by rw [he]⟩
          · exact ha
  obtain ⟨e, he⟩ := this
  exact ⟨e, by rw [read, he]⟩

/-- A solution with an input of version 3, say. -/
example (E : Env) (as bs : List (String × Obj)) (ns ms : List (String × Node)) :
    ∃ e, read E (.group "Solution" 4 as
      (("solution_input", .group "SolutionInput" 3 bs ms) :: ns)) = .error e :=
  unreadable_member E _ _ _ _ "solution_input" _ (List.mem_cons_self ..) (by simp)
    (old_inputs_unreadable E .SolutionInput (.inr rfl) 3 (by simp) bs ms)

/-- What was loaded from an input older than version 14, outside a run that knows better,
cannot be saved: it is unknown whether `E_r` was used. -/
theorem old_inputs_not_saved_again (E : Env) (c : Cls)
    (hc : c = .ConfigInput ∨ c = .SolutionInput) (v : ℕ) (hv : Loadable c v) (hv' : v < 14)
    (attributes : List (String × Obj)) (nodes : List (String × Node)) (value : String → Obj)
    (h : IsFile E c v attributes nodes value) :
    ∃ o e, read E (.group (storedName c) v attributes nodes) = .ok o ∧ write o = .error e := by
  have hread := old_file_loads_partial E c v hv _ _ _ h
  obtain ⟨e, he⟩ := unknown_not_saved c ((kinds c).map fun f =>
    (f.1, if introduced c f.1 ≤ v then value f.1 else assumed c v f.1)) "use_E_r"
    (by rcases hc with rfl | rfl <;> decide +kernel) (by
      have hk : "use_E_r" ∈ (kinds c).map (·.1) := by
        rcases hc with rfl | rfl <;> decide +kernel
      rw [lookup_map_fst (fun f : String × Kind => f.1)
        (fun k => if introduced c k ≤ v then value k else assumed c v k) _ _ hk]
      have : introduced c "use_E_r" = 14 := by rcases hc with rfl | rfl <;> decide +kernel
      rw [this, if_neg (by omega)]
      rcases hc with rfl | rfl <;> rfl)
  exact ⟨_, e, hread, he⟩

example (E : Env) := old_inputs_not_saved_again E .ConfigInput (.inl rfl) 4 (.inl rfl)
  (by omega) _ _ _ (sample_file E .ConfigInput 4 (by decide +kernel)).choose_spec.choose_spec

/-! ## Solutions loaded on demand -/

theorem lookup_map_entry {α : Type} (F : String × α → String × α) (hF : ∀ e, (F e).1 = e.1)
    (l : List (String × α)) (k : String) :
    (l.map F).lookup k = (l.lookup k).map fun x => (F (k, x)).2 := by
  induction l with
  | nil => rfl
  | cons e l ih =>
    obtain ⟨a, b⟩ := e
    have : F (a, b) = (a, (F (a, b)).2) := Prod.ext (hF (a, b)) rfl
    rw [List.map_cons, this, List.lookup_cons, List.lookup_cons]
    by_cases hk : k = a
    · subst hk; simp
    · rw [beq_false_of_ne hk]; exact ih

/-- With the environment variable `NO_CACHE`, what a run of version 5 or later tells its
stored solutions is lost: asked for again, they are as they are in the file. -/
theorem no_cache_loses_migration (E : Env) (u : Obj) (entries : List (String × (Obj ⊕ Node)))
    (hnode : ∀ e ∈ entries, ∃ n, e.2 = .inr n) (names : List String)
    (s : Lazy) (h : Lazy.fill E u names ⟨false, entries⟩ = .ok s) :
    s = ⟨false, entries⟩ := by
  have hassign : ∀ k o, Lazy.assign ⟨false, entries⟩ k o = ⟨false, entries⟩ := by
    intro k o
    unfold Lazy.assign
    congr 1
    conv_rhs => rw [← List.map_id entries]
    refine List.map_congr_left fun e he => ?_
    obtain ⟨n, hn⟩ := hnode e he
    obtain ⟨a, b⟩ := e
    cases hn
    rfl
  induction names generalizing s with
  | nil => cases h; rfl
  | cons k l ih =>
    rw [Lazy.fill, Lazy.getItem] at h
    cases hk : entries.lookup k with
    | none => simp [hk] at h
    | some x =>
      obtain ⟨n, hn⟩ := hnode _ (mem_of_lookup hk)
      cases hn
      simp only [hk] at h
      cases hr : read E n with
      | error e => simp [hr] at h
      | ok o =>
        simp only [hr, Bool.false_eq_true, if_false] at h
        cases hf : fillSolution u o with
        | error e => simp [hf] at h
        | ok o' =>
          simp only [hf, hassign] at h
          exact ih s h

/-- Otherwise every stored solution is told once, and remembers it. -/
theorem cache_keeps_migration (E : Env) (u : Obj) (names : List String) (hd : names.Nodup)
    (entries : List (String × (Obj ⊕ Node))) (node : String → Node) (o : String → Obj)
    (hnode : ∀ k ∈ names, entries.lookup k = some (.inr (node k)))
    (hread : ∀ k ∈ names, read E (node k) = .ok (o k))
    (hshape : ∀ k ∈ names, Shaped (.obj .Solution) (o k)) :
    ∃ s, Lazy.fill E u names ⟨true, entries⟩ = .ok s ∧
      ∀ k ∈ names, s.getItem E k =
        .ok (onField "solution_input" (onField "use_E_r" (known u)) (o k), s) := by
  suffices H : ∃ entries', Lazy.fill E u names ⟨true, entries⟩ = .ok ⟨true, entries'⟩ ∧
      (∀ k ∈ names, entries'.lookup k =
        some (.inl (onField "solution_input" (onField "use_E_r" (known u)) (o k)))) ∧
      ∀ k ∉ names, entries'.lookup k = entries.lookup k by
    obtain ⟨e, he, hin, -⟩ := H
    refine ⟨_, he, fun k hk => ?_⟩
    rw [Lazy.getItem]
    simp only [hin k hk]
  induction names generalizing entries with
  | nil => exact ⟨entries, rfl, by simp, fun _ _ => rfl⟩
  | cons k l ih =>
    obtain ⟨hkl, hd⟩ := List.nodup_cons.1 hd
    have hk := hnode k (List.mem_cons_self ..)
    rw [Lazy.fill, Lazy.getItem]
    simp only [hk, hread k (List.mem_cons_self ..), if_true,
      fillSolution_eq u _ (hshape k (List.mem_cons_self ..)), Lazy.assign]
    have h₁ : ∀ k', (entries.map fun e => if e.1 = k then (k, .inl (o k)) else e).lookup k' =
        if k' = k then some (.inl (o k)) else entries.lookup k' := by
      intro k'
      rw [lookup_map_entry _ (by intro e; split_ifs with h <;> simp [h])]
      by_cases h : k' = k
      · subst h; simp [hk]
      · simp [h]
    have h₂ : ∀ (o' : Obj) (m : List (String × (Obj ⊕ Node))) (k' : String),
        m.lookup k = some (.inl (o k)) →
        (m.map fun e => match e with
          | (k', .inl _) => if k' = k then (k, .inl o') else e
          | e => e).lookup k' = if k' = k then some (.inl o') else m.lookup k' := by
      intro o' m k' hm
      rw [lookup_map_entry _ (by
        rintro ⟨a, b | b⟩
        · by_cases h : a = k <;> simp [h]
        · rfl)]
      by_cases h : k' = k
      · subst h; simp [hm]
      · rw [if_neg h]
        cases m.lookup k' with
        | none => rfl
        | some x => cases x <;> simp [h]
    obtain ⟨e', he', hin, hout⟩ := ih hd
      (List.map (fun e => match e with
          | (k', .inl _) => if k' = k then
            (k, .inl (onField "solution_input" (onField "use_E_r" (known u)) (o k))) else e
          | e => e) (entries.map fun e => if e.1 = k then (k, .inl (o k)) else e))
      (by
        intro k' hk'
        have hne : k' ≠ k := fun h => hkl (h ▸ hk')
        rw [h₂ _ _ _ (by rw [h₁, if_pos rfl]), if_neg hne, h₁, if_neg hne]
        exact hnode k' (List.mem_cons_of_mem _ hk'))
      (fun k' hk' => hread k' (List.mem_cons_of_mem _ hk'))
      (fun k' hk' => hshape k' (List.mem_cons_of_mem _ hk'))
    refine ⟨e', he', ?_, ?_⟩
    · intro k' hk'
      rcases List.mem_cons.1 hk' with rfl | hk'
      · rw [hout _ hkl, h₂ _ _ _ (by rw [h₁, if_pos rfl]), if_pos rfl]
      · exact hin k' hk'
    · intro k' hk'
      have hne : k' ≠ k := fun h => hk' (h ▸ List.mem_cons_self ..)
      rw [hout k' (fun h => hk' (List.mem_cons_of_mem _ h)),
        h₂ _ _ _ (by rw [h₁, if_pos rfl]), if_neg hne, h₁, if_neg hne]

example (E : Env) : ∃ n s, Lazy.fill E (.bool true) ["0"] ⟨true, [("0", .inr n)]⟩ = .ok s := by
  obtain ⟨n, o', -, hr, -, hf⟩ := file_round_trip E .Solution sampleSolution sampleSolution_fits
  obtain ⟨s, hs, -⟩ := cache_keeps_migration E (.bool true) ["0"] (by simp) [("0", .inr n)]
    (fun _ => n) (fun _ => o') (by simp) (by simp [hr]) (by simp [Shaped.usual _ _ hf])
  exact ⟨n, s, hs⟩

/-- The same file without the cache. -/
example (E : Env) : ∃ n, Lazy.fill E (.bool true) ["0"] ⟨false, [("0", .inr n)]⟩ =
    .ok ⟨false, [("0", .inr n)]⟩ := by
  obtain ⟨n, o', -, hr, -, hf⟩ := file_round_trip E .Solution sampleSolution sampleSolution_fits
  have h : ∃ s, Lazy.fill E (.bool true) ["0"] ⟨false, [("0", .inr n)]⟩ = .ok s := by
    simp [Lazy.fill, Lazy.getItem, hr, fillSolution_eq (.bool true) _ (Shaped.usual _ _ hf)]
  obtain ⟨s, hs⟩ := h
  exact ⟨n, by rw [hs, no_cache_loses_migration E (.bool true) [("0", .inr n)] (by simp)
    ["0"] s hs]⟩

example (E : Env) := old_internal_data_unreadable E 2 (.inr rfl)
  [("angles", .num (.val 1))] []
example (E : Env) := old_run_loads E 5 (by omega) _ _ _
  (sample_run_file E).choose_spec.choose_spec.choose_spec.1

end DiscSolver.FileFormat
