import Verif.Lemmas.FileFormat
import Mathlib.Tactic.IntervalCases

/-! Lemmas for loading older files. -/

namespace DiscSolver.FileFormat

/-- What reading a member gives. -/
theorem Holds.read {E : Env} {n : Node} {o : Obj} (h : Holds E n o) :
    n ≠ .absent ∧ ∃ x, read E n = .ok x ∧
      ((x = o ∧ ∀ a, o ≠ .arr a) ∨ ∃ a, o = .arr a ∧ x = .dset a) := by
  cases h with
  | none => exact ⟨by simp, _, rfl, .inl ⟨rfl, by simp⟩⟩
  | text s => exact ⟨by simp, _, rfl, .inl ⟨rfl, by simp⟩⟩
  | bool b => exact ⟨by simp, _, rfl, .inl ⟨rfl, by simp⟩⟩
  | num x => exact ⟨by simp, _, rfl, .inl ⟨rfl, by simp⟩⟩
  | data a => exact ⟨by simp, _, rfl, .inr ⟨a, rfl, rfl⟩⟩
  | group l v a m _ h hn => exact ⟨by simp, _, h, .inl ⟨rfl, hn⟩⟩

theorem evalSrc_held (E : Env) (attrs members : List (String × Obj)) (κ : Kind) (s : Src)
    (k : String) (x o : Obj) (hs : shape s ∈ wanted κ k) (hκ : κ ≠ .scalar)
    (hk : members.lookup k = some x) (hf : Shaped κ o)
    (h : (x = o ∧ ∀ a, o ≠ .arr a) ∨ ∃ a, o = .arr a ∧ x = .dset a) :
    evalSrc E attrs members s = .ok o := by
  have hg : getKey members k = .ok x := by rw [getKey, hk]
  rcases h with ⟨rfl, hn⟩ | ⟨a, rfl, rfl⟩
  · cases s <;> cases κ <;> simp [shape, wanted] at hs hκ <;> subst hs <;>
      simp only [evalSrc, hg] <;> try rfl
    all_goals
      cases hf
      rename_i hf
      cases hf <;> first | rfl | exact absurd rfl (hn _)
  · cases s <;> cases κ <;> simp [shape, wanted] at hs hκ <;> subst hs <;>
      simp only [evalSrc, hg] <;> try rfl
    all_goals
      first
        | (cases hf; rename_i hf; cases hf; done)
        | (cases hf; rename_i hf; cases hf; rename_i hf; cases hf; done)
        | (exfalso
           cases hf with
           | usual _ _ hf => cases hf; rename_i hf; cases hf
           | optObj _ _ hf =>
             cases hf
             rename_i hf
             cases hf)

/-- The arguments for fields there were not are the assumed values. -/
def AllConst (c : Cls) (v : ℕ) : Table → Prop
  | [] => True
  | a :: t =>
    if introduced c a.1 ≤ v then AllConst c v t
    else a.2 = .const (assumed c v a.1) ∧ AllConst c v t

theorem AllConst.const {c : Cls} {v : ℕ} {t : Table} (h : AllConst c v t) :
    ∀ a ∈ t, introduced c a.1 ≤ v ∨ a.2 = .const (assumed c v a.1) := by
  induction t with
  | nil => simp
  | cons b t ih =>
    rw [AllConst] at h
    rw [List.forall_mem_cons]
    split_ifs at h with hb
    · exact ⟨.inl hb, ih h⟩
    · exact ⟨.inr h.1, ih h.2⟩

/-- The fields without argument have the assumed values as defaults. -/
def AllDefault (c : Cls) (v : ℕ) (args : List String) : List (String × Option Obj) → Prop
  | [] => True
  | f :: t =>
    if f.1 ∈ args then AllDefault c v args t
    else if introduced c f.1 ≤ v then False
    else f.2 = some (assumed c v f.1) ∧ AllDefault c v args t

theorem AllDefault.default {c : Cls} {v : ℕ} {args : List String}
    {t : List (String × Option Obj)} (h : AllDefault c v args t) :
    ∀ f ∈ t, f.1 ∈ args ∨ (¬ introduced c f.1 ≤ v ∧ f.2 = some (assumed c v f.1)) := by
  induction t with
  | nil => simp
  | cons b t ih =>
    rw [AllDefault] at h
    rw [List.forall_mem_cons]
    split_ifs at h with hb hb'
    · exact ⟨.inl hb, ih h⟩
    · exact ⟨.inr ⟨hb', h.1⟩, ih h.2⟩

/-- A table reads the fields there were, and assumes the others. -/
structure Agrees (c : Cls) (v : ℕ) (t : Table) : Prop where
  read : ∀ a ∈ t.map fun a => (a.1, shape a.2), introduced c a.1 ≤ v →
    ∃ f ∈ kinds c, f.1 = a.1 ∧
      (if inAttrs c v a.1 f.2 then a.2 = (0, a.1) else a.2 ∈ wanted f.2 a.1)
  const : ∀ a ∈ t, introduced c a.1 ≤ v ∨ a.2 = .const (assumed c v a.1)
  default : ∀ f ∈ classFields c, f.1 ∈ t.map (·.1) ∨
    (¬ introduced c f.1 ≤ v ∧ f.2 = some (assumed c v f.1))
  known : ∀ a ∈ t.map (·.1), a ∈ (kinds c).map (·.1)

/-- The arguments of the call. -/
theorem args_old (E : Env) (c : Cls) (v : ℕ) (t : Table) (hA : Agrees c v t)
    (as : List (String × Obj)) (ns : List (String × Node)) (value : String → Obj)
    (hF : IsFile E c v as ns value) :
    ∃ m, readMembers E ns = .ok m ∧
      collect (t.map fun a => (a.1, evalSrc E as m a.2)) =
        .ok ((t.map (·.1)).map fun k => (k, migrated c v value k)) := by
  have key : ∀ k, ∃ x, ∀ n, ns.lookup k = some n → n ≠ .absent ∧ read E n = .ok x ∧
      ((x = value k ∧ ∀ a, value k ≠ .arr a) ∨ ∃ a, value k = .arr a ∧ x = .dset a) := by
    intro k
    cases h : ns.lookup k with
    | none => exact ⟨.none, fun n hn => by cases hn⟩
    | some n =>
      obtain ⟨κ, hκ, hi, ha⟩ := hF.only k n (mem_of_lookup h)
      obtain ⟨n', hn', hh⟩ := hF.members k κ hκ hi ha
      rw [h] at hn'
      cases hn'
      obtain ⟨h₁, x, h₂, h₃⟩ := hh.read
      exact ⟨x, fun n' hn' => by cases hn'; exact ⟨h₁, h₂, h₃⟩⟩
  choose X hX using key
  have hd : ∀ e ∈ ns, ns.lookup e.1 = some e.2 := fun e he => lookup_of_mem hF.names he
  have hm : readMembers E ns = .ok (ns.map fun e => (e.1, X e.1)) := by
    have := readMembers_ok E (fun e : String × Node => e.1) (fun e => e.2) (fun e => X e.1) ns
      fun e he => ⟨(hX _ _ (hd e he)).1, (hX _ _ (hd e he)).2.1⟩
    simpa using this
  refine ⟨_, hm, ?_⟩
  rw [collect_ok (fun a : String × Src => a.1) _ (fun a => migrated c v value a.1),
    List.map_map]
  · rfl
  · intro a ha
    by_cases hi : introduced c a.1 ≤ v
    · rw [show migrated c v value a.1 = value a.1 from if_pos hi]
      obtain ⟨f, hf, hfa, hs⟩ := hA.read (a.1, shape a.2) (List.mem_map.2 ⟨a, ha, rfl⟩) hi
      have hκ : (kinds c).lookup a.1 = some f.2 := by
        rw [← hfa]; exact lookup_of_mem (kinds_nodup c) hf
      by_cases hat : inAttrs c v a.1 f.2
      · rw [if_pos hat] at hs
        exact evalSrc_attr E as _ a.2 a.1 _ (by
          rw [show shape a.2 = (0, a.1) from hs]; simp [wanted])
          (hF.attrs a.1 f.2 hκ hi hat)
      · rw [if_neg hat] at hs
        obtain ⟨n, hn, _⟩ := hF.members a.1 f.2 hκ hi hat
        refine evalSrc_held E as _ f.2 a.2 a.1 (X a.1) _ hs (fun h => hat (.inl h)) ?_
          (hF.shaped a.1 f.2 hκ hi) (hX a.1 n hn).2.2
        exact lookup_map_fst (fun e : String × Node => e.1) X ns a.1 (mem_keys hn)
    · rw [show migrated c v value a.1 = assumed c v a.1 from if_neg hi]
      rcases hA.const a ha with h | h
      · exact absurd h hi
      · rw [h]; rfl

/-- The constructor, called with some of the fields. -/
theorem construct_old (E : Env) (c : Cls) (v : ℕ) (t : Table) (hA : Agrees c v t)
    (R : String → Obj)
    (hR : ∀ k ∈ (kinds c).map (·.1), introduced c k ≤ v ∨ R k = assumed c v k)
    (hconv : ∀ k ∈ (kinds c).map (·.1), convert E c k (R k) = .ok (R k)) :
    construct E c ((t.map (·.1)).map fun k => (k, R k)) =
      finish c ((kinds c).map fun f => (f.1, R f.1)) := by
  unfold construct
  rw [if_pos]
  · rw [collect_ok (fun f : String × Option Obj => f.1) _ (fun f => R f.1)]
    · have : (classFields c).map (fun f => (f.1, R f.1)) =
          ((classFields c).map (·.1)).map fun k => (k, R k) := by
        rw [List.map_map]; rfl
      rw [this, classFields_names, List.map_map]
      rfl
    · intro f hf
      have hk : f.1 ∈ (kinds c).map (·.1) := by
        rw [← classFields_names]; exact List.mem_map.2 ⟨f, hf, rfl⟩
      unfold fieldValue
      rcases hA.default f hf with h | ⟨h, h'⟩
      · rw [lookup_map R _ f.1 h]
        exact hconv _ hk
      · have hr : R f.1 = assumed c v f.1 := (hR _ hk).resolve_left h
        have hcv := hconv _ hk
        rw [hr] at hcv ⊢
        rw [h']
        cases hl : ((t.map (·.1)).map fun k => (k, R k)).lookup f.1 with
        | none => exact hcv
        | some x =>
          have hmem := mem_keys hl
          rw [List.map_map] at hmem
          have hmem' : f.1 ∈ t.map (·.1) := by simpa using hmem
          rw [lookup_map R _ f.1 hmem'] at hl
          cases hl
          dsimp only
          rw [hr]
          exact hcv
  · rw [List.all_eq_true]
    intro a ha
    obtain ⟨k, hk, rfl⟩ := List.mem_map.1 ha
    have hk := hA.known k hk
    rw [← classFields_names] at hk
    obtain ⟨f, hf, hfk⟩ := List.mem_map.1 hk
    rw [List.any_eq_true]
    exact ⟨f, hf, by simp [hfk]⟩

theorem convert_shaped (E : Env) (c : Cls) (k : String) (κ : Kind) (o : Obj)
    (hk : (kinds c).lookup k = some κ) (h : Shaped κ o) : convert E c k o = .ok o := by
  obtain ⟨h₁, h₂, h₃⟩ := converters_kinds
  cases h with
  | usual _ _ fit => exact convert_ok E c k κ o hk fit
  | unknown =>
    cases c <;> try rfl
    · unfold convert; dsimp only; split_ifs <;> rfl
    · unfold convert; dsimp only; split_ifs <;> rfl
  | obj c' fields names fit =>
    cases c <;> try rfl
    · unfold convert
      dsimp only
      split_ifs with hm
      · rw [h₁ k hm] at hk; cases hk
      · rfl
    · unfold convert
      dsimp only
      split_ifs with hm hm'
      · subst hm; rw [h₂] at hk; cases hk
      · subst hm'; rw [h₃] at hk; cases hk
      · rfl
  | optObj c' o fit =>
    cases c <;> try rfl
    · unfold convert
      dsimp only
      split_ifs with hm
      · rw [h₁ k hm] at hk; cases hk
      · rfl
    · unfold convert
      dsimp only
      split_ifs with hm hm'
      · subst hm
        rw [h₂] at hk
        cases hk
        cases fit with
        | usual _ _ fit => cases fit; rfl
        | obj => rfl
      · subst hm'
        rw [h₃] at hk
        cases hk
        cases fit with
        | usual _ _ fit => cases fit; rfl
        | obj => rfl
      · rfl
  | solutions d names fit =>
    cases c <;> try rfl
    · unfold convert
      dsimp only
      split_ifs with hm
      · rw [h₁ k hm] at hk; cases hk
      · rfl
    · unfold convert
      dsimp only
      split_ifs with hm hm'
      · subst hm; rw [h₂] at hk; cases hk
      · subst hm'; rw [h₃] at hk; cases hk
      · rfl

/-- The assumed values are kept by the converters. -/
theorem convert_assumed (E : Env) (c : Cls) (v : ℕ) (k : String) :
    convert E c k (assumed c v k) = .ok (assumed c v k) := by
  cases c <;> try rfl
  · unfold convert
    dsimp only
    split_ifs with hm
    · simp only [emptyConverted, List.mem_cons, List.not_mem_nil, or_false] at hm
      rcases hm with rfl | rfl | rfl | rfl | rfl | rfl | rfl <;> simp [assumed, replaceEmpty]
    · rfl
  · unfold convert
    dsimp only
    split_ifs with hm hm'
    · subst hm; rfl
    · subst hm'; rfl
    · rfl

/-- Loading a group of an older version, for the classes whose loaders only call the
constructor. -/
theorem load_old (E : Env) (c : Cls) (label : String) (v : ℕ) (t : Table)
    (ht : loaderTable label v = some (c, t)) (hp : ¬ (label = "Run" ∧ (v = 5 ∨ v = 6)))
    (hc : c ≠ .InitialConditions) (hA : Agrees c v t)
    (as : List (String × Obj)) (ns : List (String × Node)) (value : String → Obj)
    (hF : IsFile E c v as ns value) :
    read E (.group label v as ns) =
      .ok (.obj c ((kinds c).map fun f => (f.1, migrated c v value f.1))) := by
  obtain ⟨m, hm, hargs⟩ := args_old E c v t hA as ns value hF
  rw [read, hm]
  dsimp only
  unfold loader
  rw [ht]
  dsimp only
  rw [hargs]
  simp only [Except.bind]
  rw [prepare, if_neg hp]
  dsimp only
  rw [construct_old E c v t hA, finish, if_neg hc]
  · intro k _
    by_cases hi : introduced c k ≤ v
    · exact .inl hi
    · exact .inr (if_neg hi)
  · intro k hk
    obtain ⟨κ, hκ⟩ := lookup_isSome hk
    by_cases hi : introduced c k ≤ v
    · rw [show migrated c v value k = value k from if_pos hi]
      exact convert_shaped E c k κ _ hκ (hF.shaped k κ hκ hi)
    · rw [show migrated c v value k = assumed c v k from if_neg hi]
      exact convert_assumed E c v k

/-! ## Runs -/

theorem Shaped.obj_inv {c : Cls} {o : Obj} (h : Shaped (.obj c) o) :
    ∃ fields, o = .obj c fields ∧ fields.map (·.1) = (kinds c).map (·.1) ∧
      ∀ k κ o, (kinds c).lookup k = some κ → fields.lookup k = some o → Shaped κ o := by
  cases h with
  | usual _ _ fit =>
    cases fit with
    | obj _ fields names _ fit =>
      exact ⟨fields, rfl, names, fun k κ o hκ ho => .usual _ _ (fit k κ o hκ ho)⟩
  | obj _ fields names fit => exact ⟨fields, rfl, names, fit⟩

theorem Shaped.optObj_inv {c : Cls} {o : Obj} (h : Shaped (.optObj c) o) :
    o = .none ∨ Shaped (.obj c) o := by
  cases h with
  | usual _ _ fit =>
    cases fit with
    | optObj_none => exact .inl rfl
    | optObj _ _ fit => exact .inr (.usual _ _ fit)
  | optObj _ _ fit => exact .inr fit

theorem Shaped.solutions_inv {o : Obj} (h : Shaped .solutions o) :
    ∃ d, o = .solutions d ∧ (d.map (·.1)).Nodup ∧
      ∀ k o, d.lookup k = some o → Shaped (.obj .Solution) o := by
  cases h with
  | usual _ _ fit =>
    cases fit with
    | solutions d names fit => exact ⟨d, rfl, names, fun k o h => .usual _ _ (fit k o h)⟩
  | solutions d names fit => exact ⟨d, rfl, names, fit⟩

theorem setField_eq (fields : List (String × Obj)) (k : String) (o x : Obj) (g : Obj → Obj)
    (hn : (fields.map (·.1)).Nodup) (h : fields.lookup k = some o) (hx : g o = x) :
    setField fields k x = fields.map fun e => if e.1 = k then (e.1, g e.2) else e := by
  unfold setField
  refine List.map_congr_left fun a ha => ?_
  by_cases hk : a.1 = k
  · rw [if_pos hk, if_pos hk]
    have : fields.lookup a.1 = some a.2 := lookup_of_mem hn ha
    rw [hk, h] at this
    cases this
    rw [hx]
  · rw [if_neg hk, if_neg hk]

theorem fillUse_eq (v : Obj) (c : Cls) (o : Obj) (hc : "use_E_r" ∈ (kinds c).map (·.1))
    (h : Shaped (.obj c) o) : fillUse v o = .ok (onField "use_E_r" (known v) o) := by
  obtain ⟨fields, rfl, names, _⟩ := h.obj_inv
  obtain ⟨u, hu⟩ := lookup_isSome (names ▸ hc)
  have hn : (fields.map (·.1)).Nodup := names ▸ kinds_nodup c
  unfold fillUse onField
  dsimp only
  rw [hu]
  by_cases hnone : u = .none
  · subst hnone
    dsimp only
    rw [setField_eq fields _ _ v (known v) hn hu rfl]
  · have h₁ : known v u = u := by cases u <;> first | rfl | exact absurd rfl hnone
    have := setField_eq fields _ _ _ (known v) hn hu h₁
    rw [setField_id _ _ _ hn hu] at this
    rw [← this]
    cases u <;> first | rfl | exact absurd rfl hnone

theorem fillSolution_eq (v : Obj) (o : Obj) (h : Shaped (.obj .Solution) o) :
    fillSolution v o = .ok (onField "solution_input" (onField "use_E_r" (known v)) o) := by
  obtain ⟨fields, rfl, names, fit⟩ := h.obj_inv
  have hk : (kinds .Solution).lookup "solution_input" = some (.obj .SolutionInput) := by
    decide +kernel
  obtain ⟨u, hu⟩ : ∃ u, fields.lookup "solution_input" = some u :=
    lookup_isSome (names ▸ mem_keys hk)
  unfold fillSolution
  dsimp only
  rw [hu]
  dsimp only
  rw [fillUse_eq v .SolutionInput u (by decide +kernel) (fit _ _ _ hk hu)]
  dsimp only
  rw [setField_eq fields _ _ _ (onField "use_E_r" (known v)) (names ▸ kinds_nodup _) hu rfl]
  rfl

theorem fillFinal_eq (v : Obj) (o : Obj) (h : Shaped (.optObj .Solution) o) :
    fillFinal v o = .ok (onField "solution_input" (onField "use_E_r" (known v)) o) := by
  rcases h.optObj_inv with rfl | h
  · rfl
  · have := fillSolution_eq v o h
    obtain ⟨fields, rfl, _⟩ := h.obj_inv
    exact this

theorem fillSolutions_eq (v : Obj) (o : Obj) (h : Shaped .solutions o) :
    fillSolutions v o =
      .ok (onSolutions (onField "solution_input" (onField "use_E_r" (known v))) o) := by
  obtain ⟨d, rfl, names, fit⟩ := h.solutions_inv
  unfold fillSolutions
  dsimp only
  rw [collect_ok (fun a : String × Obj => a.1) _
    (fun a => onField "solution_input" (onField "use_E_r" (known v)) a.2)]
  · rfl
  · exact fun a ha => fillSolution_eq v _ (fit a.1 a.2 (lookup_of_mem names ha))

theorem update_eq (args : List String) (R : String → Obj) (k : String)
    (f : Obj → Except PyErr Obj) (x : Obj) (h : f (R k) = .ok x) :
    update (args.map fun k => (k, R k)) k f =
      .ok (args.map fun k' => (k', if k' = k then x else R k')) := by
  unfold update
  rw [List.map_map]
  have := collect_ok (fun k' : String => k')
    (fun k' => if k' = k then f (R k') else .ok (R k'))
    (fun k' => if k' = k then x else R k') args fun k' _ => by
      by_cases hk : k' = k
      · subst hk; simp [h]
      · simp [hk]
  exact this

theorem load_run (E : Env) (v : ℕ) (hv : v = 5 ∨ v = 6) (t : Table)
    (ht : loaderTable "Run" v = some (.Run, t)) (hA : Agrees .Run v t)
    (hr : "use_E_r" ∈ t.map (·.1))
    (as : List (String × Obj)) (ns : List (String × Node)) (value : String → Obj)
    (hF : IsFile E .Run v as ns value) :
    read E (.group "Run" v as ns) =
      .ok (.obj .Run ((kinds .Run).map fun f => (f.1, runMigrated E v value f.1))) := by
  obtain ⟨m, hm, hargs⟩ := args_old E .Run v t hA as ns value hF
  have hi : ∀ k, introduced .Run k ≤ 5 → migrated .Run v value k = value k := fun k hk =>
    if_pos (by omega)
  have hv5 : ¬ v < 5 := by omega
  rw [read, hm]
  dsimp only
  unfold loader
  rw [ht]
  dsimp only
  rw [hargs]
  simp only [Except.bind]
  rw [prepare, if_pos ⟨rfl, hv⟩, fillRun, lookup_map _ _ "use_E_r" hr]
  dsimp only
  rw [hi "use_E_r" (by decide +kernel)]
  rw [update_eq _ _ "config_input" _ _ (by
    rw [hi "config_input" (by decide +kernel)]
    exact fillUse_eq _ .ConfigInput _ (by decide +kernel)
      (hF.shaped "config_input" (.obj .ConfigInput) (by decide +kernel) (by
        have : introduced .Run "config_input" = 1 := by decide +kernel
        omega)))]
  simp only [Except.bind]
  rw [update_eq _ _ "solutions" _ _ (by
    rw [if_neg (by decide), hi "solutions" (by decide +kernel)]
    exact fillSolutions_eq _ _
      (hF.shaped "solutions" .solutions (by decide +kernel) (by
        have : introduced .Run "solutions" = 1 := by decide +kernel
        omega)))]
  dsimp only
  rw [update_eq _ _ "final_solution" _ _ (by
    rw [if_neg (by decide), if_neg (by decide), hi "final_solution" (by decide +kernel)]
    exact fillFinal_eq _ _
      (hF.shaped "final_solution" (.optObj .Solution) (by decide +kernel) (by
        have : introduced .Run "final_solution" = 1 := by decide +kernel
        omega)))]
  dsimp only
  have hR : (fun k => if k = "final_solution" then
        onField "solution_input" (onField "use_E_r"
          (known (value "use_E_r"))) (value "final_solution")
      else if k = "solutions" then
        onSolutions (onField "solution_input" (onField "use_E_r"
          (known (value "use_E_r")))) (value "solutions")
      else if k = "config_input" then
        onField "use_E_r" (known (Obj.text (E.str (value "use_E_r"))))
          (value "config_input")
      else migrated Cls.Run v value k) = runMigrated E v value := by
    funext k
    unfold runMigrated
    rw [if_neg hv5]
    by_cases h₁ : k = "final_solution"
    · simp [h₁]
    by_cases h₂ : k = "solutions"
    · simp [h₂]
    by_cases h₃ : k = "config_input"
    · simp [h₃]
    simp [h₁, h₂, h₃]
  have hmap := fun l : List String => congrArg (fun R : String → Obj => l.map fun k => (k, R k)) hR
  dsimp only at hmap
  rw [hmap, construct_old E .Run v t hA]
  · rfl
  · intro k hk
    by_cases hik : introduced .Run k ≤ v
    · exact .inl hik
    · refine .inr ?_
      have hk5 : 5 < introduced .Run k := by omega
      unfold runMigrated
      rw [if_neg hv5, if_neg, if_neg, if_neg, migrated, if_neg hik]
      all_goals
        rintro rfl
        revert hk5
        decide +kernel
  · exact fun _ _ => rfl

/-! ## Initial conditions -/

theorem constructInitial_congr (v w : String → Obj)
    (h : ∀ k ∈ (kinds .InitialConditions).map (·.1), v k = w k) :
    constructInitial v = constructInitial w := by
  unfold constructInitial
  rw [h "init_con" (by decide +kernel), h "η_O" (by decide +kernel),
    h "η_A" (by decide +kernel), h "η_H" (by decide +kernel), h "norm_kepler_sq" (by decide +kernel),
    h "γ" (by decide +kernel), h "angles" (by decide +kernel), h "a_0" (by decide +kernel)]

theorem load_initial (E : Env) (v : ℕ) (t : Table)
    (ht : loaderTable "InitialConditions" v = some (.InitialConditions, t))
    (as : List (String × Obj)) (ns : List (String × Node))
    (m : List (String × Obj)) (hm : readMembers E ns = .ok m) (R : String → Obj)
    (hargs : ∀ a ∈ t, evalSrc E as m a.2 = .ok (R a.1))
    (hall : ∀ k, k ∈ t.map (·.1) ↔ k ∈ (kinds .InitialConditions).map (·.1)) :
    read E (.group "InitialConditions" v as ns) = constructInitial R := by
  have hargs' : collect (t.map fun a => (a.1, evalSrc E as m a.2)) =
      .ok ((t.map (·.1)).map fun k => (k, R k)) := by
    rw [collect_ok (fun a : String × Src => a.1) _ (fun a => R a.1) t hargs, List.map_map]
    rfl
  rw [read, hm]
  dsimp only
  unfold loader
  rw [ht]
  dsimp only
  rw [hargs']
  simp only [Except.bind]
  rw [prepare, if_neg (by simp)]
  dsimp only
  unfold construct
  rw [if_pos]
  · rw [collect_ok (fun f : String × Option Obj => f.1) _ (fun f => R f.1)]
    · have : (classFields .InitialConditions).map (fun f => (f.1, R f.1)) =
          ((kinds .InitialConditions).map (·.1)).map fun k => (k, R k) := by
        rw [← classFields_names, List.map_map]; rfl
      rw [this]
      dsimp only
      rw [finish, if_pos rfl]
      refine constructInitial_congr _ _ fun k hk => ?_
      rw [lookup_map R _ k hk]
      rfl
    · intro f hf
      have hk : f.1 ∈ t.map (·.1) := by
        rw [hall, ← classFields_names]; exact List.mem_map.2 ⟨f, hf, rfl⟩
      unfold fieldValue
      rw [lookup_map R _ f.1 hk]
      rfl
  · rw [List.all_eq_true]
    intro a ha
    obtain ⟨k, hk, rfl⟩ := List.mem_map.1 ha
    rw [hall, ← classFields_names] at hk
    obtain ⟨f, hf, hfk⟩ := List.mem_map.1 hk
    rw [List.any_eq_true]
    exact ⟨f, hf, by simp [hfk]⟩

/-! ## Files that cannot be loaded -/

theorem collect_error {α : Type} (l : List (String × Except PyErr α)) (k : String) (e : PyErr)
    (h : (k, .error e) ∈ l) : ∃ e', collect l = .error e' := by
  induction l with
  | nil => simp at h
  | cons a l ih =>
    obtain ⟨k', r⟩ := a
    cases r with
    | error e' => exact ⟨e', rfl⟩
    | ok v =>
      rcases List.mem_cons.1 h with h | h
      · simp at h
      · obtain ⟨e', he⟩ := ih h
        exact ⟨e', by rw [collect, he]⟩

/-- A call with an unknown argument fails. -/
theorem construct_unknown (E : Env) (c : Cls) (kwargs : List (String × Obj)) (k : String)
    (hk : k ∈ kwargs.map (·.1)) (hc : k ∉ (classFields c).map (·.1)) :
    construct E c kwargs = .error .TypeError := by
  unfold construct
  rw [if_neg]
  intro h
  obtain ⟨a, ha, rfl⟩ := List.mem_map.1 hk
  rw [List.all_eq_true] at h
  have := h a ha
  rw [List.any_eq_true] at this
  obtain ⟨f, hf, hfa⟩ := this
  exact hc (List.mem_map.2 ⟨f, hf, by simpa using hfa⟩)

theorem lookup_none {l : List (String × α)} {k : String} (h : k ∉ l.map (·.1)) :
    l.lookup k = none := by
  cases hl : l.lookup k with
  | none => rfl
  | some o => exact absurd (mem_keys hl) h

/-- A call without a required argument fails. -/
theorem construct_missing (E : Env) (c : Cls) (kwargs : List (String × Obj)) (k : String)
    (hk : k ∉ kwargs.map (·.1)) (hc : (k, none) ∈ classFields c) :
    ∃ e, construct E c kwargs = .error e := by
  unfold construct
  split_ifs
  · obtain ⟨e, he⟩ := collect_error
      ((classFields c).map fun f => (f.1, fieldValue E c kwargs f)) k .TypeError
      (List.mem_map.2 ⟨_, hc, by simp [fieldValue, lookup_none hk]⟩)
    exact ⟨e, by rw [he]⟩
  · exact ⟨_, rfl⟩

theorem collect_keys {α : Type} (l : List (String × Except PyErr α)) (m : List (String × α))
    (h : collect l = .ok m) : m.map (·.1) = l.map (·.1) := by
  induction l generalizing m with
  | nil => cases h; rfl
  | cons a l ih =>
    obtain ⟨k', r⟩ := a
    cases r with
    | error e' => cases h
    | ok v =>
      rw [collect] at h
      cases hc : collect l with
      | error e => rw [hc] at h; cases h
      | ok m' =>
        rw [hc] at h
        cases h
        simp [ih m' hc]

/-- If the call fails for all values, the group cannot be read. -/
theorem unreadable (E : Env) (c : Cls) (label : String) (v : ℕ) (t : Table)
    (ht : loaderTable label v = some (c, t)) (hp : ¬ (label = "Run" ∧ (v = 5 ∨ v = 6)))
    (h : ∀ kwargs : List (String × Obj), kwargs.map (·.1) = t.map (·.1) →
      ∃ e, construct E c kwargs = .error e)
    (as : List (String × Obj)) (ns : List (String × Node)) :
    ∃ e, read E (.group label v as ns) = .error e := by
  rw [read]
  cases hm : readMembers E ns with
  | error e => exact ⟨e, rfl⟩
  | ok m =>
    dsimp only
    unfold loader
    rw [ht]
    dsimp only
    cases hc : collect (t.map fun a => (a.1, evalSrc E as m a.2)) with
    | error e => exact ⟨e, rfl⟩
    | ok kwargs =>
      simp only [Except.bind]
      rw [prepare, if_neg hp]
      dsimp only
      refine h kwargs ?_
      rw [collect_keys _ _ hc, List.map_map]
      rfl

end DiscSolver.FileFormat
