import Verif.Spec.FileFormat
import Mathlib.Data.List.Nodup
import Mathlib.Tactic.Common

/-! Lemmas for the round trip through a file. -/

namespace DiscSolver.FileFormat

/-! ## Lists of named values -/

theorem collect_ok {ι α : Type} (f : ι → String) (g : ι → Except PyErr α) (v : ι → α)
    (l : List ι) (h : ∀ a ∈ l, g a = .ok (v a)) :
    collect (l.map fun a => (f a, g a)) = .ok (l.map fun a => (f a, v a)) := by
  induction l with
  | nil => rfl
  | cons a l ih =>
    simp only [List.map_cons]
    rw [h a (by simp), collect, ih fun b hb => h b (by simp [hb])]

theorem lookup_map (v : String → α) (l : List String) (k : String) (h : k ∈ l) :
    (l.map fun k => (k, v k)).lookup k = some (v k) := by
  induction l with
  | nil => simp at h
  | cons a l ih =>
    simp only [List.map_cons, List.lookup_cons]
    by_cases hk : k = a
    · subst hk; simp
    · rw [beq_false_of_ne hk]
      exact ih (by simpa [hk] using h)

theorem lookup_map_fst {ι : Type} (f : ι → String) (v : String → α) (l : List ι)
    (k : String) (h : k ∈ l.map f) :
    (l.map fun a => (f a, v (f a))).lookup k = some (v k) := by
  have := lookup_map v (l.map f) k h
  rwa [List.map_map] at this

theorem mem_of_lookup {l : List (String × α)} {k : String} {o : α}
    (h : l.lookup k = some o) : (k, o) ∈ l := by
  induction l with
  | nil => simp at h
  | cons e l ih =>
    obtain ⟨a, b⟩ := e
    rw [List.lookup_cons] at h
    by_cases hk : k = a
    · subst hk
      simp at h
      simp [h]
    · rw [beq_false_of_ne hk] at h
      simp [ih h]

theorem lookup_of_mem {l : List (String × α)} {k : String} {o : α}
    (hn : (l.map (·.1)).Nodup) (h : (k, o) ∈ l) : l.lookup k = some o := by
  induction l with
  | nil => simp at h
  | cons e l ih =>
    obtain ⟨a, b⟩ := e
    simp only [List.map_cons, List.nodup_cons] at hn
    rw [List.lookup_cons]
    by_cases hk : k = a
    · subst hk
      rcases List.mem_cons.1 h with h | h
      · simp only [Prod.mk.injEq, true_and] at h
        simp [h]
      · exact absurd (List.mem_map.2 ⟨_, h, rfl⟩) hn.1
    · rw [beq_false_of_ne hk]
      refine ih hn.2 ?_
      rcases List.mem_cons.1 h with h | h
      · simp only [Prod.mk.injEq] at h
        exact absurd h.1 hk
      · exact h

theorem lookup_isSome {l : List (String × α)} {k : String} (h : k ∈ l.map (·.1)) :
    ∃ o, l.lookup k = some o := by
  induction l with
  | nil => simp at h
  | cons e l ih =>
    obtain ⟨a, b⟩ := e
    rw [List.lookup_cons]
    by_cases hk : k = a
    · subst hk; simp
    · rw [beq_false_of_ne hk]
      exact ih (by simpa [hk] using h)

theorem mem_keys {l : List (String × α)} {k : String} {o : α}
    (h : l.lookup k = some o) : k ∈ l.map (·.1) :=
  List.mem_map.2 ⟨_, mem_of_lookup h, rfl⟩

theorem byName_perm (l : List (String × α)) : (byName l).Perm l :=
  List.mergeSort_perm _ _

theorem lookup_byName {l : List (String × α)} (hn : (l.map (·.1)).Nodup) (k : String) :
    (byName l).lookup k = l.lookup k := by
  have hp := byName_perm l
  have hn' : ((byName l).map (·.1)).Nodup := (hp.map (·.1)).nodup_iff.2 hn
  cases h : l.lookup k with
  | some o => exact lookup_of_mem hn' (hp.mem_iff.2 (mem_of_lookup h))
  | none =>
    cases h' : (byName l).lookup k with
    | none => rfl
    | some o =>
      rw [lookup_of_mem hn (hp.mem_iff.1 (mem_of_lookup h'))] at h
      cases h

/-! ## Writing -/

theorem writeFields_lookup (l : List (String × Obj)) (k : String) :
    (writeFields l).lookup k = (l.lookup k).map write := by
  induction l with
  | nil => rfl
  | cons e l ih =>
    obtain ⟨a, b⟩ := e
    rw [writeFields, List.lookup_cons, List.lookup_cons]
    by_cases hk : k = a
    · subst hk; simp
    · rw [beq_false_of_ne hk]; exact ih

theorem writeFields_eq (l : List (String × Obj)) :
    writeFields l = l.map fun e => (e.1, write e.2) := by
  induction l with
  | nil => rfl
  | cons e l ih =>
    obtain ⟨a, b⟩ := e
    rw [writeFields, ih]; rfl

/-! ## Reading -/

theorem readMembers_cons (E : Env) (k : String) (n : Node) (l : List (String × Node))
    (o : Obj) (m : List (String × Obj)) (hn : n ≠ .absent) (h : read E n = .ok o)
    (hl : readMembers E l = .ok m) : readMembers E ((k, n) :: l) = .ok ((k, o) :: m) := by
  cases n <;> first | exact absurd rfl hn | (rw [readMembers]; rw [h, hl]; exact hn)

theorem readMembers_ok (E : Env) {ι : Type} (f : ι → String) (n : ι → Node) (v : ι → Obj)
    (l : List ι) (h : ∀ a ∈ l, n a ≠ .absent ∧ read E (n a) = .ok (v a)) :
    readMembers E (l.map fun a => (f a, n a)) = .ok (l.map fun a => (f a, v a)) := by
  induction l with
  | nil => rfl
  | cons a l ih =>
    exact readMembers_cons E _ _ _ _ _ (h a (by simp)).1 (h a (by simp)).2
      (ih fun b hb => h b (by simp [hb]))

/-! ## The tables agree -/

/-- What a loader does with the loaded member. -/
def after : Kind → Obj → Except PyErr Obj
  | .array, o => dataOf o
  | .optArray, o => dataOptOf o
  | .optNumber, o => .ok (ensureFullyLoaded o)
  | _, o => .ok o

/-- The shape of a source. -/
def shape : Src → ℕ × String
  | .attr k => (0, k)
  | .member k => (1, k)
  | .data k => (2, k)
  | .dataOpt k => (3, k)
  | .loaded k => (4, k)
  | _ => (5, "")

/-- The source needed for a field of this kind. -/
def wanted : Kind → String → List (ℕ × String)
  | .scalar, k => [(0, k)]
  | .array, k => [(2, k)]
  | .optArray, k => [(3, k)]
  | .optNumber, k => [(4, k)]
  | .optText, k => [(1, k), (4, k)]
  | _, k => [(1, k)]

/-- The loader for the version written. -/
def currentTable (c : Cls) : Option (Cls × Table) :=
  loaderTable (dumper c).label (dumper c).version

/-- The arguments given by the loader for the version written. -/
def currentArgs (c : Cls) : Table :=
  match currentTable c with
  | some t => t.2
  | none => []

theorem currentTable_eq (c : Cls) : currentTable c = some (c, currentArgs c) := by
  cases c <;> rfl

theorem classFields_names (c : Cls) : (classFields c).map (·.1) = (kinds c).map (·.1) := by
  cases c <;> rfl

theorem kinds_nodup (c : Cls) : ((kinds c).map (·.1)).Nodup := by
  cases c <;> decide +kernel

/-- Which fields are stored as attributes. -/
theorem attrs_iff (c : Cls) : ∀ f ∈ kinds c, f.1 ∈ (dumper c).attrs ↔ f.2 = .scalar := by
  cases c <;> decide +kernel

theorem members_iff (c : Cls) :
    ∀ f ∈ kinds c, f.1 ∈ (dumper c).members ↔ f.2 ≠ .scalar := by
  cases c <;> decide +kernel

theorem attrs_known (c : Cls) : ∀ k ∈ (dumper c).attrs, k ∈ (kinds c).map (·.1) := by
  cases c <;> decide +kernel

theorem members_known (c : Cls) : ∀ k ∈ (dumper c).members, k ∈ (kinds c).map (·.1) := by
  cases c <;> decide +kernel

/-- The arguments by name and shape. -/
def argShapes (c : Cls) : List (String × (ℕ × String)) :=
  (currentArgs c).map fun a => (a.1, shape a.2)

theorem args_complete (c : Cls) : ∀ f ∈ kinds c, f.1 ∈ (argShapes c).map (·.1) := by
  cases c <;> decide +kernel

theorem args_wanted (c : Cls) :
    ∀ a ∈ argShapes c, ∃ f ∈ kinds c, f.1 = a.1 ∧ a.2 ∈ wanted f.2 a.1 := by
  cases c <;> decide +kernel

/-! ## One field -/

/-- A value survives being written and read as a member. -/
def Trip (E : Env) (κ : Kind) (o : Obj) : Prop :=
  ∃ n, write o = .ok n ∧ ∀ c k, finaliseNode c k n ≠ .absent ∧
    ∃ m o', read E (finaliseNode c k n) = .ok m ∧ after κ m = .ok o' ∧ Same o o' ∧ Fits κ o'

theorem Trip.data (a : NArr) (c : Cls) (k : String) :
    Same (.arr a) (.arr (finaliseShape c k a)) := by
  unfold finaliseShape
  by_cases h : a.data = []
  · rw [if_pos h]
    split_ifs
    · exact .empty _ _ h rfl
    · exact .empty _ _ h rfl
    · exact .refl _
  · rw [if_neg h]; exact .refl _

theorem finaliseShape_one (c : Cls) (k : String) (x : Fl) :
    finaliseShape c k ⟨[], [x]⟩ = ⟨[], [x]⟩ := by
  unfold finaliseShape; rw [if_neg (by simp)]

/-- The value of an argument from the shape of its source. -/
theorem evalSrc_member (E : Env) (attrs members : List (String × Obj)) (κ : Kind) (s : Src)
    (k : String) (m o' : Obj) (hs : shape s ∈ wanted κ k) (hκ : κ ≠ .scalar)
    (hk : members.lookup k = some m) (h : after κ m = .ok o') (hf : Fits κ o') :
    evalSrc E attrs members s = .ok o' := by
  have hg : getKey members k = .ok m := by rw [getKey, hk]
  cases s <;> cases κ <;> simp [shape, wanted] at hs hκ <;> subst hs <;>
    simp only [evalSrc, hg] <;>
    first
      | exact h
      | (simp only [after, Except.ok.injEq] at h; subst h; cases hf <;> rfl)

theorem evalSrc_attr (E : Env) (attrs members : List (String × Obj)) (s : Src)
    (k : String) (o : Obj) (hs : shape s ∈ wanted .scalar k)
    (hk : attrs.lookup k = some o) : evalSrc E attrs members s = .ok o := by
  cases s <;> simp [shape, wanted] at hs
  subst hs
  simp [evalSrc, getKey, hk]

theorem asAttr_ok {o : Obj} (h : Fits .scalar o) : asAttr o = .ok o := by
  cases h <;> rfl

/-! ## Constructors -/

/-- Where the converters apply, they keep values of the right kind. -/
theorem converters_kinds :
    (∀ k ∈ emptyConverted, (kinds .ConfigInput).lookup k = some .optText) ∧
    (kinds .SolutionInput).lookup "mcmc_vars" = some (.optObj .MCMCVars) ∧
    (kinds .SolutionInput).lookup "interp_slice" = some (.optObj .slice) := by
  decide +kernel

theorem convert_ok (E : Env) (c : Cls) (k : String) (κ : Kind) (o : Obj)
    (hk : (kinds c).lookup k = some κ) (h : Fits κ o) : convert E c k o = .ok o := by
  obtain ⟨h₁, h₂, h₃⟩ := converters_kinds
  cases c <;> try rfl
  · unfold convert
    dsimp only
    split_ifs with hm
    · rw [h₁ k hm] at hk
      cases hk
      cases h with
      | optText_none => rfl
      | optText s hs => simp [replaceEmpty, hs]
    · rfl
  · unfold convert
    dsimp only
    split_ifs with hm hm'
    · subst hm
      rw [h₂] at hk
      cases hk
      cases h with
      | optObj_none => rfl
      | optObj => rename_i fit; cases fit; rfl
    · subst hm'
      rw [h₃] at hk
      cases hk
      cases h with
      | optObj_none => rfl
      | optObj => rename_i fit; cases fit; rfl
    · rfl

/-- Calling a constructor with all fields. -/
theorem construct_ok (E : Env) (c : Cls) (args : List String) (R : String → Obj)
    (hargs : ∀ k, k ∈ args ↔ k ∈ (kinds c).map (·.1))
    (hfit : ∀ k κ, (kinds c).lookup k = some κ → Fits κ (R k)) :
    construct E c (args.map fun k => (k, R k)) =
      finish c ((kinds c).map fun f => (f.1, R f.1)) := by
  unfold construct
  rw [if_pos]
  · rw [collect_ok (fun f : String × Option Obj => f.1) _ (fun f => R f.1)]
    · have : (classFields c).map (fun f => (f.1, R f.1)) =
          ((classFields c).map (·.1)).map fun k => (k, R k) := by
        rw [List.map_map]; rfl
      rw [this, classFields_names, List.map_map]
      rfl
    · intro f hf
      have hk : f.1 ∈ (kinds c).map (·.1) := by
        rw [← classFields_names]; exact List.mem_map.2 ⟨f, hf, rfl⟩
      unfold fieldValue
      rw [lookup_map R args f.1 ((hargs _).2 hk)]
      obtain ⟨κ, hκ⟩ := lookup_isSome hk
      exact convert_ok E c f.1 κ _ hκ (hfit _ _ hκ)
  · rw [List.all_eq_true]
    intro a ha
    obtain ⟨k, hk, rfl⟩ := List.mem_map.1 ha
    rw [hargs, ← classFields_names] at hk
    obtain ⟨f, hf, hfk⟩ := List.mem_map.1 hk
    rw [List.any_eq_true]
    exact ⟨f, hf, by simp [hfk]⟩

theorem asFl_number {x : ℝ} {o : Obj} (h : IsNumber x o) : asFl o = some (.val x) := by
  rcases h with rfl | rfl <;> rfl

theorem checkη_ok (a : NArr) (i : ℕ) (x : ℝ) (o : Obj) (h : IsNumber x o)
    (hi : a.data[i]? = some (.val x)) : checkη a i o = .ok o := by
  unfold checkη
  rw [hi]
  rcases h with rfl | rfl <;> simp [asFl, Fl.ne]

/-- The constructor of initial conditions keeps consistent values. -/
theorem finish_ok (c : Cls) (values : List (String × Obj))
    (hn : values.map (·.1) = (kinds c).map (·.1))
    (hc : c = .InitialConditions → Consistent values) :
    finish c values = .ok (.obj c values) := by
  unfold finish
  by_cases h : c = .InitialConditions
  · rw [if_pos h]
    obtain ⟨a, o, hh, m, x, y, z, h₁, h₂, h₃, h₄, h₅, h₆, h₇, h₈, h₉, h₁₀, h₁₁⟩ := hc h
    unfold constructInitial
    dsimp only
    rw [h₁, h₃, h₄, h₅]
    simp only [Option.getD_some]
    rw [if_neg (by omega), checkη_ok a 8 x o h₆ h₉, checkη_ok a 9 y m h₇ h₁₀,
      checkη_ok a 10 z hh h₈ h₁₁]
    dsimp only
    subst h
    have hd : (values.map (·.1)).Nodup := hn ▸ kinds_nodup _
    match values, hn, hd with
    | [(k₁, v₁), (k₂, v₂), (k₃, v₃), (k₄, v₄), (k₅, v₅), (k₆, v₆), (k₇, v₇), (k₈, v₈)], hn, _ =>
      simp only [List.map_cons, List.map_nil, kinds, List.cons.injEq, and_true] at hn
      obtain ⟨rfl, rfl, rfl, rfl, rfl, rfl, rfl, rfl⟩ := hn
      simp [List.lookup] at h₁ h₃ h₄ h₅ ⊢
      simp [h₁, h₃, h₄, h₅]
  · rw [if_neg h]

/-! ## Runs -/

theorem update_id (l : List (String × Obj)) (k : String) (f : Obj → Except PyErr Obj)
    (h : ∀ a ∈ l, a.1 = k → f a.2 = .ok a.2) : update l k f = .ok l := by
  unfold update
  rw [collect_ok (fun a : String × Obj => a.1) _ (fun a => a.2)]
  · simp
  · intro a ha
    by_cases hk : a.1 = k
    · rw [if_pos hk, h a ha hk]
    · rw [if_neg hk]

theorem fillUse_id (v : Obj) (c : Cls) (o : Obj)
    (hc : (kinds c).lookup "use_E_r" = some .scalar) (h : Fits (.obj c) o) :
    fillUse v o = .ok o := by
  cases h with
  | obj _ fields names consistent fit =>
    obtain ⟨u, hu⟩ : ∃ u, fields.lookup "use_E_r" = some u :=
      lookup_isSome (names ▸ mem_keys hc)
    have := fit _ _ _ hc hu
    unfold fillUse
    dsimp only
    rw [hu]
    cases this <;> rfl

theorem setField_id (fields : List (String × Obj)) (k : String) (o : Obj)
    (hn : (fields.map (·.1)).Nodup) (h : fields.lookup k = some o) :
    setField fields k o = fields := by
  unfold setField
  conv_rhs => rw [← List.map_id fields]
  refine List.map_congr_left fun a ha => ?_
  by_cases hk : a.1 = k
  · rw [if_pos hk]
    have : fields.lookup a.1 = some a.2 := lookup_of_mem hn ha
    rw [hk, h] at this
    cases this
    rfl
  · rw [if_neg hk]; rfl

theorem fillSolution_id (v : Obj) (o : Obj) (h : Fits (.obj .Solution) o) :
    fillSolution v o = .ok o := by
  cases h with
  | obj _ fields names consistent fit =>
    have hk : (kinds .Solution).lookup "solution_input" = some (.obj .SolutionInput) := by
      decide +kernel
    obtain ⟨u, hu⟩ : ∃ u, fields.lookup "solution_input" = some u :=
      lookup_isSome (names ▸ mem_keys hk)
    have := fit _ _ _ hk hu
    unfold fillSolution
    dsimp only
    rw [hu]
    dsimp only
    rw [fillUse_id v .SolutionInput u (by decide +kernel) this]
    dsimp only
    rw [setField_id _ _ _ (names ▸ kinds_nodup _) hu]

theorem fillFinal_id (v : Obj) (o : Obj) (h : Fits (.optObj .Solution) o) :
    fillFinal v o = .ok o := by
  cases h with
  | optObj_none => rfl
  | optObj =>
    rename_i fit
    have := fillSolution_id v o fit
    cases fit
    exact this

theorem fillSolutions_id (v : Obj) (o : Obj) (h : Fits .solutions o) :
    fillSolutions v o = .ok o := by
  cases h with
  | solutions d names fit =>
    unfold fillSolutions
    dsimp only
    rw [collect_ok (fun a : String × Obj => a.1) _ (fun a => a.2)]
    · simp
    · exact fun a ha => fillSolution_id v _ (fit a.1 a.2 (lookup_of_mem names ha))

theorem prepare_id (E : Env) (c : Cls) (args : List String) (R : String → Obj)
    (hargs : ∀ k, k ∈ args ↔ k ∈ (kinds c).map (·.1))
    (hfit : ∀ k κ, (kinds c).lookup k = some κ → Fits κ (R k)) :
    prepare E (dumper c).label (dumper c).version (args.map fun k => (k, R k)) =
      .ok (args.map fun k => (k, R k)) := by
  by_cases hc : c = .Run
  · subst hc
    unfold prepare
    rw [if_pos (by decide)]
    unfold fillRun
    rw [lookup_map R args "use_E_r" ((hargs _).2 (by decide +kernel))]
    dsimp only
    rw [update_id]
    · simp only [Except.bind]
      rw [update_id]
      · dsimp only
        refine update_id _ _ _ fun a ha hk => ?_
        obtain ⟨k, _, rfl⟩ := List.mem_map.1 ha
        exact fillFinal_id _ _ (hfit _ _ (by rw [show k = "final_solution" from hk]; decide +kernel))
      · intro a ha hk
        obtain ⟨k, _, rfl⟩ := List.mem_map.1 ha
        exact fillSolutions_id _ _ (hfit _ _ (by rw [show k = "solutions" from hk]; decide +kernel))
    · intro a ha hk
      obtain ⟨k, _, rfl⟩ := List.mem_map.1 ha
      exact fillUse_id _ .ConfigInput _ (by decide +kernel)
        (hfit _ _ (by rw [show k = "config_input" from hk]; decide +kernel))
  · unfold prepare
    rw [if_neg]
    cases c <;> first | exact absurd rfl hc | decide

/-! ## Everything -/

theorem args_iff (c : Cls) (k : String) :
    k ∈ (currentArgs c).map (·.1) ↔ k ∈ (kinds c).map (·.1) := by
  have hmap : (argShapes c).map (·.1) = (currentArgs c).map (·.1) := by
    unfold argShapes; rw [List.map_map]; rfl
  constructor
  · intro h
    rw [← hmap] at h
    obtain ⟨a, ha, rfl⟩ := List.mem_map.1 h
    obtain ⟨f, hf, hfa, _⟩ := args_wanted c a ha
    exact List.mem_map.2 ⟨f, hf, hfa⟩
  · intro h
    obtain ⟨f, hf, rfl⟩ := List.mem_map.1 h
    rw [← hmap]
    exact args_complete c f hf

theorem args_shape (c : Cls) (a : String × Src) (ha : a ∈ currentArgs c) (κ : Kind)
    (hκ : (kinds c).lookup a.1 = some κ) : shape a.2 ∈ wanted κ a.1 := by
  obtain ⟨f, hf, hfa, hs⟩ := args_wanted c (a.1, shape a.2) (List.mem_map.2 ⟨a, ha, rfl⟩)
  have : (kinds c).lookup f.1 = some f.2 := lookup_of_mem (kinds_nodup c) hf
  rw [hfa, hκ] at this
  cases this
  exact hs

/-- Writing and reading a record whose fields survive. -/
theorem record_trip (E : Env) (c : Cls) (fields : List (String × Obj))
    (names : fields.map (·.1) = (kinds c).map (·.1))
    (consistent : c = .InitialConditions → Consistent fields)
    (fit : ∀ k κ o, (kinds c).lookup k = some κ → fields.lookup k = some o → Fits κ o)
    (trip : ∀ k κ o, (kinds c).lookup k = some κ → fields.lookup k = some o →
      κ ≠ .scalar → Trip E κ o) :
    ∃ n o', write (.obj c fields) = .ok n ∧ (∃ l v a m, n = .group l v a m) ∧
      read E n = .ok o' ∧ Same (.obj c fields) o' ∧ Fits (.obj c) o' := by
  let F : String → Obj := fun k => (fields.lookup k).getD .none
  have hF : ∀ k ∈ (kinds c).map (·.1), fields.lookup k = some (F k) := by
    intro k hk
    obtain ⟨o, ho⟩ := lookup_isSome (names ▸ hk)
    simp [F, ho]
  have hmem : ∀ k κ, (kinds c).lookup k = some κ →
      (k ∈ (dumper c).members ↔ κ ≠ .scalar) := fun k κ h =>
    members_iff c (k, κ) (mem_of_lookup h)
  have hattr : ∀ k κ, (kinds c).lookup k = some κ →
      (k ∈ (dumper c).attrs ↔ κ = .scalar) := fun k κ h =>
    attrs_iff c (k, κ) (mem_of_lookup h)
  have key : ∀ k, ∃ n m o', k ∈ (dumper c).members → ∃ κ, (kinds c).lookup k = some κ ∧
      κ ≠ .scalar ∧ write (F k) = .ok n ∧ finaliseNode c k n ≠ .absent ∧
      read E (finaliseNode c k n) = .ok m ∧ after κ m = .ok o' ∧ Same (F k) o' ∧
      Fits κ o' := by
    intro k
    by_cases hk : k ∈ (dumper c).members
    · have hk' := members_known c k hk
      obtain ⟨κ, hκ⟩ := lookup_isSome hk'
      have hs := (hmem k κ hκ).1 hk
      obtain ⟨n, hn, h⟩ := trip k κ _ hκ (hF k hk') hs
      obtain ⟨h₁, m, o', h₂, h₃, h₄, h₅⟩ := h c k
      exact ⟨n, m, o', fun _ => ⟨κ, hκ, hs, hn, h₁, h₂, h₃, h₄, h₅⟩⟩
    · exact ⟨.none, .none, .none, fun h => absurd h hk⟩
  choose N M O hNMO using key
  classical
  let R : String → Obj := fun k => if k ∈ (dumper c).members then O k else F k
  have hRfit : ∀ k κ, (kinds c).lookup k = some κ → Fits κ (R k) := by
    intro k κ hκ
    by_cases hk : k ∈ (dumper c).members
    · obtain ⟨κ', hκ', _, _, _, _, _, _, h⟩ := hNMO k hk
      rw [hκ] at hκ'
      cases hκ'
      simpa [R, hk] using h
    · simpa [R, hk] using fit k κ _ hκ (hF k (mem_keys hκ))
  have hRsame : ∀ k ∈ (kinds c).map (·.1), Same (F k) (R k) := by
    intro k hk'
    by_cases hk : k ∈ (dumper c).members
    · obtain ⟨κ', hκ', _, _, _, _, _, h, _⟩ := hNMO k hk
      simpa [R, hk] using h
    · simpa [R, hk] using Same.refl (F k)
  have hw : write (.obj c fields) = .ok (.group (dumper c).label (dumper c).version
      ((dumper c).attrs.map fun k => (k, F k))
      ((dumper c).members.map fun k => (k, finaliseNode c k (N k)))) := by
    rw [write]
    have h₁ : collect ((dumper c).attrs.map fun k => (k, pickAttr fields k)) =
        .ok ((dumper c).attrs.map fun k => (k, F k)) :=
      collect_ok (fun k => k) _ F _ fun k hk => by
        have hk' := attrs_known c k hk
        obtain ⟨κ, hκ⟩ := lookup_isSome hk'
        have hs := (hattr k κ hκ).1 hk
        subst hs
        unfold pickAttr getField
        rw [hF k hk']
        exact asAttr_ok (fit k _ _ hκ (hF k hk'))
    have h₂ : collect ((dumper c).members.map fun k => (k, pick c (writeFields fields) k)) =
        .ok ((dumper c).members.map fun k => (k, finaliseNode c k (N k))) :=
      collect_ok (fun k => k) _ (fun k => finaliseNode c k (N k)) _ fun k hk => by
        have hk' := members_known c k hk
        obtain ⟨κ, hκ, _, hn, _⟩ := hNMO k hk
        unfold pick getField
        rw [writeFields_lookup, hF k hk', Option.map_some, hn]
    rw [h₁]
    dsimp only
    rw [h₂]
  have hm : readMembers E ((dumper c).members.map fun k => (k, finaliseNode c k (N k))) =
      .ok ((dumper c).members.map fun k => (k, M k)) :=
    readMembers_ok E (fun k => k) _ M _ fun k hk => by
      obtain ⟨κ, _, _, _, h₁, h₂, _⟩ := hNMO k hk
      exact ⟨h₁, h₂⟩
  have hargs : collect ((currentArgs c).map fun a => (a.1, evalSrc E
      ((dumper c).attrs.map fun k => (k, F k))
      ((dumper c).members.map fun k => (k, M k)) a.2)) =
      .ok (((currentArgs c).map (·.1)).map fun k => (k, R k)) := by
    rw [collect_ok (fun a : String × Src => a.1) _ (fun a => R a.1), List.map_map]
    · rfl
    · intro a ha
      have hk' : a.1 ∈ (kinds c).map (·.1) :=
        (args_iff c a.1).1 (List.mem_map.2 ⟨a, ha, rfl⟩)
      obtain ⟨κ, hκ⟩ := lookup_isSome hk'
      have hsh := args_shape c a ha κ hκ
      by_cases hk : a.1 ∈ (dumper c).members
      · obtain ⟨κ', hκ', hs, _, _, _, h₁, _, h₂⟩ := hNMO a.1 hk
        rw [hκ] at hκ'
        cases hκ'
        rw [show R a.1 = O a.1 from if_pos hk]
        exact evalSrc_member E _ _ κ a.2 a.1 (M a.1) (O a.1) hsh hs (lookup_map M _ _ hk) h₁ h₂
      · have hs : κ = .scalar := by
          by_contra h
          exact hk ((hmem _ _ hκ).2 h)
        subst hs
        rw [show R a.1 = F a.1 from if_neg hk]
        exact evalSrc_attr E _ _ a.2 a.1 _ hsh (lookup_map F _ _ ((hattr _ _ hκ).2 rfl))
  have hnames : ((kinds c).map fun f => (f.1, R f.1)).map (·.1) = (kinds c).map (·.1) := by
    rw [List.map_map]; rfl
  have hlook : ∀ k ∈ (kinds c).map (·.1),
      ((kinds c).map fun f => (f.1, R f.1)).lookup k = some (R k) := fun k hk =>
    lookup_map_fst (fun f : String × Kind => f.1) R _ k hk
  have hcons : c = .InitialConditions → Consistent ((kinds c).map fun f => (f.1, R f.1)) := by
    intro hc
    have hscalar : ∀ k, (kinds c).lookup k = some .scalar →
        ((kinds c).map fun f => (f.1, R f.1)).lookup k = fields.lookup k := by
      intro k hk
      rw [hlook k (mem_keys hk), hF k (mem_keys hk)]
      have : k ∉ (dumper c).members := fun h => (hmem k _ hk).1 h rfl
      simp [R, this]
    obtain ⟨a, o, h, m, x, y, z, h'⟩ := consistent hc
    refine ⟨a, o, h, m, x, y, z, ?_⟩
    rwa [hscalar "init_con" (by subst hc; decide +kernel),
      hscalar "η_O" (by subst hc; decide +kernel),
      hscalar "η_A" (by subst hc; decide +kernel),
      hscalar "η_H" (by subst hc; decide +kernel)]
  refine ⟨_, .obj c ((kinds c).map fun f => (f.1, R f.1)), hw, ⟨_, _, _, _, rfl⟩, ?_, ?_, ?_⟩
  · rw [read, hm]
    dsimp only
    unfold loader
    rw [show loaderTable (dumper c).label (dumper c).version = some (c, currentArgs c) from
      currentTable_eq c]
    dsimp only
    rw [hargs]
    simp only [Except.bind]
    rw [prepare_id E c _ R (args_iff c) hRfit]
    dsimp only
    rw [construct_ok E c _ R (args_iff c) hRfit]
    exact finish_ok c _ hnames hcons
  · refine Same.obj c _ _ (names.trans hnames.symm) fun k o o' ho ho' => ?_
    have hk : k ∈ (kinds c).map (·.1) := names ▸ mem_keys ho
    rw [hF k hk] at ho
    rw [hlook k hk] at ho'
    cases ho
    cases ho'
    exact hRsame k hk
  · refine Fits.obj c _ hnames hcons fun k κ o hκ ho => ?_
    rw [hlook k (mem_keys hκ)] at ho
    cases ho
    exact hRfit k κ hκ

theorem stripNul_id (s : String) (h : ¬ ∃ t, s.toList = t ++ ['\x00']) : stripNul s = s := by
  unfold stripNul
  have : s.toList.rdropWhile (· = '\x00') = s.toList := by
    rw [List.rdropWhile_eq_self_iff]
    intro hl hc
    refine h ⟨s.toList.dropLast, ?_⟩
    have := List.dropLast_append_getLast hl
    simp only [decide_eq_true_eq] at hc
    rw [hc] at this
    exact this.symm
  rw [this, String.ofList_toList]

theorem Trip.of_node (E : Env) (κ : Kind) (o o' : Obj) (n : Node) (hw : write o = .ok n)
    (hn : ∀ c k, finaliseNode c k n = n) (ha : n ≠ .absent) (m : Obj) (hr : read E n = .ok m)
    (h : after κ m = .ok o') (hs : Same o o') (hf : Fits κ o') : Trip E κ o :=
  ⟨n, hw, fun c k => ⟨by rwa [hn], m, o', by rwa [hn], h, hs, hf⟩⟩

theorem Trip.plain (E : Env) {κ : Kind} {o : Obj} (n : Node) (hw : write o = .ok n)
    (hn : ∀ c k, finaliseNode c k n = n) (ha : n ≠ .absent) (hr : read E n = .ok o)
    (h : after κ o = .ok o) (hf : Fits κ o) : Trip E κ o :=
  Trip.of_node E κ o o n hw hn ha o hr h (.refl o) hf

theorem problems_trip (E : Env) (p : List (String × List String))
    (names : (p.map (·.1)).Nodup)
    (clean : ∀ e ∈ p, ∀ s ∈ e.2, ¬ ∃ t, s.toList = t ++ ['\x00']) :
    Trip E .problems (.problems p) := by
  have hstrip : (p.map fun e => (e.1, Node.strs (e.2.map stripNul))) =
      p.map fun e => (e.1, Node.strs e.2) := by
    refine List.map_congr_left fun e he => ?_
    have : e.2.map stripNul = e.2 := by
      conv_rhs => rw [← List.map_id e.2]
      exact List.map_congr_left fun s hs => stripNul_id s (clean e he s hs)
    rw [this]
  refine Trip.of_node E _ _ (.problems (byName p)) (.group "Problems" 1 []
    (p.map fun e => (e.1, .strs e.2))) (by rw [write, hstrip]) (fun _ _ => rfl)
    (by simp) (.problems (byName p)) ?_ rfl (.problems _ _ (byName_perm p).symm) ?_
  · rw [read, readMembers_ok E (fun e : String × List String => e.1) _ (fun e => .strs e.2)]
    · dsimp only
      unfold loader
      have hb : byName (p.map fun e => (e.1, Obj.strs e.2)) =
          (byName p).map fun e => (e.1, Obj.strs e.2) := by
        unfold byName
        rw [← List.map_mergeSort]
        intros; rfl
      rw [hb, show loaderTable "Problems" 1 = none from rfl]
      dsimp only
      rw [if_pos ⟨rfl, rfl⟩, List.map_map]
      have := collect_ok (fun e : String × List String => e.1) (fun e => messages (.strs e.2))
        (fun e => e.2) (byName p) fun _ _ => rfl
      rw [show collect ((byName p).map ((fun e : String × Obj => (e.1, messages e.2)) ∘
        fun e => (e.1, Obj.strs e.2))) = .ok ((byName p).map fun e => (e.1, e.2)) from this]
      simp [Except.map]
    · exact fun e _ => ⟨by simp, rfl⟩
  · refine .problems _ (((byName_perm p).map (·.1)).nodup_iff.2 names) fun e he => ?_
    exact clean e ((byName_perm p).mem_iff.1 he)

theorem solutions_trip (E : Env) (d : List (String × Obj)) (names : (d.map (·.1)).Nodup)
    (trip : ∀ k o, d.lookup k = some o → Trip E (.obj .Solution) o) :
    Trip E .solutions (.solutions d) := by
  have key : ∀ k, ∃ n m, ∀ o, d.lookup k = some o → write o = .ok n ∧ n ≠ .absent ∧
      read E n = .ok m ∧ Same o m ∧ Fits (.obj .Solution) m := by
    intro k
    cases h : d.lookup k with
    | none => exact ⟨.none, .none, fun o ho => by cases ho⟩
    | some o =>
      obtain ⟨n, hn, h'⟩ := trip k o h
      obtain ⟨h₁, m, o', h₂, h₃, h₄, h₅⟩ := h' .MCMCVars ""
      have hfin : finaliseNode .MCMCVars "" n = n := by
        cases n <;> try rfl
        simp [finaliseNode, finaliseShape]
      rw [hfin] at h₁ h₂
      simp only [after, Except.ok.injEq] at h₃
      subst h₃
      refine ⟨n, m, fun o₂ ho₂ => ?_⟩
      cases ho₂
      exact ⟨hn, h₁, h₂, h₄, h₅⟩
  choose N M hNM using key
  have hd : ∀ e ∈ d, d.lookup e.1 = some e.2 := fun e he => lookup_of_mem names he
  have hnames : ((d.map fun e => (e.1, M e.1)).map (·.1)) = d.map (·.1) := by
    rw [List.map_map]; rfl
  have hnames' : ((byName (d.map fun e => (e.1, M e.1))).map (·.1)).Nodup :=
    ((byName_perm _).map (·.1)).nodup_iff.2 (hnames ▸ names)
  have hlook : ∀ k o', (byName (d.map fun e => (e.1, M e.1))).lookup k = some o' →
      o' = M k ∧ ∃ o, d.lookup k = some o := by
    intro k o' h
    rw [lookup_byName (hnames ▸ names)] at h
    have hk := mem_keys h
    rw [lookup_map_fst (fun e : String × Obj => e.1) M d k (hnames ▸ hk)] at h
    cases h
    exact ⟨rfl, lookup_isSome (hnames ▸ hk)⟩
  refine Trip.of_node E _ _ (.solutions (byName (d.map fun e => (e.1, M e.1))))
    (.group "Solutions" 1 [] (d.map fun e => (e.1, N e.1))) ?_ (fun _ _ => rfl) (by simp)
    (.solutions (byName (d.map fun e => (e.1, M e.1)))) ?_ rfl ?_ ?_
  · rw [write, writeFields_eq, collect_ok (fun e : String × Obj => e.1) _ (fun e => N e.1)]
    exact fun e he => (hNM _ _ (hd e he)).1
  · rw [read, readMembers_ok E (fun e : String × Obj => e.1) _ (fun e => M e.1)]
    · rfl
    · exact fun e he => ⟨(hNM _ _ (hd e he)).2.1, (hNM _ _ (hd e he)).2.2.1⟩
  · refine .solutions _ _ ?_ fun k o o' ho ho' => ?_
    · have := ((byName_perm (d.map fun e => (e.1, M e.1))).map (·.1)).symm
      rwa [hnames] at this
    · obtain ⟨rfl, _⟩ := hlook k o' ho'
      exact (hNM k o ho).2.2.2.1
  · refine .solutions _ hnames' fun k o' ho' => ?_
    obtain ⟨rfl, o, ho⟩ := hlook k o' ho'
    exact (hNM k o ho).2.2.2.2

/-- Every value the containers hold survives. -/
theorem trip (E : Env) (κ : Kind) (o : Obj) (h : Fits κ o) : κ ≠ .scalar → Trip E κ o := by
  induction h with
  | scalar_text | scalar_bool | scalar_num | scalar_arr => exact fun h => absurd rfl h
  | array a =>
    exact fun _ => ⟨.data a, rfl, fun c k => ⟨by simp [finaliseNode],
      .dset (finaliseShape c k a), _, rfl, rfl, Trip.data a c k, .array _⟩⟩
  | optArray a =>
    exact fun _ => ⟨.data a, rfl, fun c k => ⟨by simp [finaliseNode],
      .dset (finaliseShape c k a), _, rfl, rfl, Trip.data a c k, .optArray _⟩⟩
  | optNumber_arr x =>
    exact fun _ => ⟨.data ⟨[], [x]⟩, rfl, fun c k => ⟨by simp [finaliseNode],
      .dset ⟨[], [x]⟩, .arr ⟨[], [x]⟩, by rw [finaliseNode, finaliseShape_one]; rfl, rfl,
      .refl _, .optNumber_arr x⟩⟩
  | optArray_none =>
    exact fun _ => Trip.plain E .none rfl (fun _ _ => rfl) (by simp) rfl rfl .optArray_none
  | builtin_none =>
    exact fun _ => Trip.plain E .none rfl (fun _ _ => rfl) (by simp) rfl rfl .builtin_none
  | builtin_text s =>
    exact fun _ => Trip.plain E (.text s) rfl (fun _ _ => rfl) (by simp) rfl rfl (.builtin_text s)
  | builtin_bool s =>
    exact fun _ => Trip.plain E (.bool s) rfl (fun _ _ => rfl) (by simp) rfl rfl (.builtin_bool s)
  | builtin_num s =>
    exact fun _ => Trip.plain E (.num s) rfl (fun _ _ => rfl) (by simp) rfl rfl (.builtin_num s)
  | optText_none =>
    exact fun _ => Trip.plain E .none rfl (fun _ _ => rfl) (by simp) rfl rfl .optText_none
  | optText s hs =>
    exact fun _ => Trip.plain E (.text s) rfl (fun _ _ => rfl) (by simp) rfl rfl (.optText s hs)
  | optNumber_none =>
    exact fun _ => Trip.plain E .none rfl (fun _ _ => rfl) (by simp) rfl rfl .optNumber_none
  | optNumber_num x =>
    exact fun _ => Trip.plain E (.num x) rfl (fun _ _ => rfl) (by simp) rfl rfl (.optNumber_num x)
  | unset =>
    exact fun _ => Trip.plain E .none rfl (fun _ _ => rfl) (by simp) rfl rfl .unset
  | optObj_none c =>
    exact fun _ => Trip.plain E .none rfl (fun _ _ => rfl) (by simp) rfl rfl (.optObj_none c)
  | obj c fields names consistent fit ih =>
    intro _
    obtain ⟨n, o', h₁, ⟨l, v, a, m, rfl⟩, h₂, h₃, h₄⟩ :=
      record_trip E c fields names consistent fit ih
    exact Trip.of_node E _ _ _ _ h₁ (fun _ _ => rfl) (by simp) _ h₂ rfl h₃ h₄
  | optObj c o fit ih =>
    intro _
    obtain ⟨n, hn, h⟩ := ih (by simp)
    refine ⟨n, hn, fun c' k => ?_⟩
    obtain ⟨h₁, m, o', h₂, h₃, h₄, h₅⟩ := h c' k
    exact ⟨h₁, m, o', h₂, h₃, h₄, .optObj c o' h₅⟩
  | problems p names clean => exact fun _ => problems_trip E p names clean
  | solutions d names fit ih =>
    exact fun _ => solutions_trip E d names fun k o h => ih k o h (by simp)

end DiscSolver.FileFormat
