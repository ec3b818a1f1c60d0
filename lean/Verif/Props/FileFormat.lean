import Verif.Lemmas.OldTables
import Verif.Lemmas.FileFailures
import Mathlib.Tactic.NormNum

/-!
# Files: round trips and older versions
-/

namespace DiscSolver.FileFormat

/-! ## Sample objects -/

/-- A field of each kind of value. -/
noncomputable def sampleScalar : Kind → Obj
  | .scalar => .num (.val 2)
  | .array => .arr ⟨[2], [.val 1, .nan]⟩
  | .optArray => .arr ⟨[], [.val 3]⟩
  | .builtin => .text "a"
  | .optText => .text "0.1"
  | .optNumber => .num (.val 10)
  | .problems => .problems [("2", ["late"]), ("1", ["slow", "slower"])]
  | _ => .none

/-- An object all of whose fields are given by their kind. -/
def sampleObj (c : Cls) (f : Kind → Obj) : Obj :=
  .obj c ((kinds c).map fun e => (e.1, f e.2))

theorem sampleObj_fits (c : Cls) (f : Kind → Obj) (hc : c ≠ .InitialConditions)
    (h : ∀ e ∈ kinds c, Fits e.2 (f e.2)) : Fits (.obj c) (sampleObj c f) := by
  refine .obj c _ (by rw [List.map_map]; rfl) (fun h => absurd h hc) fun k κ o hκ ho => ?_
  have hm := mem_of_lookup ho
  obtain ⟨e, he, heq⟩ := List.mem_map.1 hm
  have : (kinds c).lookup e.1 = some e.2 := lookup_of_mem (kinds_nodup c) he
  cases heq
  rw [hκ] at this
  cases this
  exact h e he

/-- Initial conditions. -/
noncomputable def sampleInitial : Obj := .obj .InitialConditions
  [("norm_kepler_sq", .num (.val 400)), ("η_O", .num (.val 1)), ("η_A", .num (.val 2)),
   ("η_H", .arr ⟨[], [.val 3]⟩), ("γ", .num (.val 1)),
   ("init_con", .arr ⟨[11], [.val 0, .val 0, .val 1, .val (-1), .val 0, .val 10, .val 1,
     .val 0, .val 1, .val 2, .val 3]⟩),
   ("angles", .arr ⟨[2], [.val 0, .val 1]⟩), ("a_0", .num (.val 2))]

/-- A container for a kind. -/
noncomputable def sampleInner : Kind → Obj
  | .optObj .MCMCVars => sampleObj .MCMCVars fun _ => .bool true
  | .optObj .slice => sampleObj .slice fun _ => .num (.val 1)
  | .obj .JacobianData => sampleObj .JacobianData fun _ => .arr ⟨[0], []⟩
  | κ => sampleScalar κ

/-- A container holding containers. -/
noncomputable def sampleOuter : Kind → Obj
  | .obj .SolutionInput => sampleObj .SolutionInput sampleInner
  | .optObj .InternalData => sampleObj .InternalData sampleInner
  | .obj .InitialConditions => sampleInitial
  | κ => sampleInner κ

/-- A solution. -/
noncomputable def sampleSolution : Obj := sampleObj .Solution sampleOuter

/-- A run. -/
noncomputable def sampleRunField : Kind → Obj
  | .obj .ConfigInput => sampleObj .ConfigInput sampleScalar
  | .optObj .Solution => sampleSolution
  | .solutions => .solutions [("1", sampleSolution), ("0", sampleSolution)]
  | κ => sampleScalar κ

/-- A run with two solutions. -/
noncomputable def sampleRun : Obj := sampleObj .Run sampleRunField

theorem sampleScalar_fits (κ : Kind)
    (h : κ ∈ [Kind.scalar, .array, .optArray, .builtin, .optText, .optNumber, .unset]) :
    Fits κ (sampleScalar κ) := by
  simp only [List.mem_cons, List.not_mem_nil, or_false] at h
  rcases h with rfl | rfl | rfl | rfl | rfl | rfl | rfl
  · exact .scalar_num _
  · exact .array _
  · exact .optArray _
  · exact .builtin_text _
  · exact .optText _ (by decide)
  · exact .optNumber_num _
  · exact .unset

theorem sampleConfig_fits : Fits (.obj .ConfigInput) (sampleObj .ConfigInput sampleScalar) := by
  refine sampleObj_fits _ _ (by decide) fun e he => ?_
  have : ∀ e ∈ kinds .ConfigInput, e.2 ∈ [Kind.scalar, .array, .optArray, .builtin, .optText,
    .optNumber, .unset] := by decide +kernel
  exact sampleScalar_fits _ (this e he)

theorem sampleInput_fits :
    Fits (.obj .SolutionInput) (sampleObj .SolutionInput sampleInner) := by
  refine sampleObj_fits _ _ (by decide) fun e he => ?_
  have : ∀ e ∈ kinds .SolutionInput, e.2 = .optObj .MCMCVars ∨ e.2 = .optObj .slice ∨
      e.2 = .scalar ∨ e.2 = .optArray ∨ e.2 = .optNumber := by decide +kernel
  rcases this e he with h | h | h | h | h <;> rw [h]
  · refine .optObj _ _ (sampleObj_fits .MCMCVars (fun _ => .bool true) (by decide) fun e he => ?_)
    have : ∀ e ∈ kinds .MCMCVars, e.2 = .builtin := by decide +kernel
    rw [this e he]
    exact .builtin_bool _
  · refine .optObj _ _ (sampleObj_fits .slice (fun _ => .num (.val 1)) (by decide) fun e he => ?_)
    have : ∀ e ∈ kinds .slice, e.2 = .optNumber := by decide +kernel
    rw [this e he]
    exact .optNumber_num _
  · exact .scalar_num _
  · exact .optArray _
  · exact .optNumber_num _

theorem sampleInitial_fits : Fits (.obj .InitialConditions) sampleInitial := by
  refine .obj _ _ rfl (fun _ => ⟨_, _, _, _, 1, 2, 3, rfl, rfl, rfl, rfl, rfl, .inl rfl,
    .inl rfl, .inr rfl, rfl, rfl, rfl⟩) fun k κ o hκ ho => ?_
  have hm := mem_of_lookup hκ
  simp only [kinds, List.mem_cons, Prod.mk.injEq, List.not_mem_nil, or_false] at hm
  rcases hm with ⟨rfl, rfl⟩ | ⟨rfl, rfl⟩ | ⟨rfl, rfl⟩ | ⟨rfl, rfl⟩ | ⟨rfl, rfl⟩ |
    ⟨rfl, rfl⟩ | ⟨rfl, rfl⟩ | ⟨rfl, rfl⟩ <;> simp [List.lookup] at ho <;> subst ho
  · exact .scalar_num _
  · exact .scalar_num _
  · exact .scalar_num _
  · exact .scalar_arr _
  · exact .scalar_num _
  · exact .scalar_arr _
  · exact .array _
  · exact .scalar_num _

theorem sampleInternal_fits :
    Fits (.obj .InternalData) (sampleObj .InternalData sampleInner) := by
  refine sampleObj_fits _ _ (by decide) fun e he => ?_
  have : ∀ e ∈ kinds .InternalData, e.2 = .array ∨ e.2 = .obj .JacobianData ∨
      e.2 = .problems := by decide +kernel
  rcases this e he with h | h | h <;> rw [h]
  · exact .array _
  · refine sampleObj_fits .JacobianData (fun _ => .arr ⟨[0], []⟩) (by decide) fun e he => ?_
    have : ∀ e ∈ kinds .JacobianData, e.2 = .array := by decide +kernel
    rw [this e he]
    exact .array _
  · refine .problems _ (by decide) fun e he s hs => ?_
    rintro ⟨t, ht⟩
    have : ∀ e ∈ [("2", ["late"]), ("1", ["slow", "slower"])], ∀ s ∈ e.2,
        s.toList.getLast? ≠ some '\x00' := by decide +kernel
    exact this e he s hs (by rw [ht]; simp)

theorem sampleSolution_fits : Fits (.obj .Solution) sampleSolution := by
  refine sampleObj_fits _ _ (by decide) fun e he => ?_
  have : ∀ e ∈ kinds .Solution, e.2 = .obj .SolutionInput ∨ e.2 = .optObj .InternalData ∨
      e.2 = .obj .InitialConditions ∨ e.2 = .scalar ∨ e.2 = .array ∨ e.2 = .optArray ∨
      e.2 = .unset := by decide +kernel
  rcases this e he with h | h | h | h | h | h | h <;> rw [h]
  · exact sampleInput_fits
  · exact .optObj _ _ sampleInternal_fits
  · exact sampleInitial_fits
  · exact .scalar_num _
  · exact .array _
  · exact .optArray _
  · exact .unset

theorem sampleRun_fits : Fits (.obj .Run) sampleRun := by
  refine sampleObj_fits _ _ (by decide) fun e he => ?_
  have : ∀ e ∈ kinds .Run, e.2 = .obj .ConfigInput ∨ e.2 = .optObj .Solution ∨
      e.2 = .solutions ∨ e.2 = .builtin ∨ e.2 = .scalar := by decide +kernel
  rcases this e he with h | h | h | h | h <;> rw [h]
  · exact sampleConfig_fits
  · exact .optObj _ _ sampleSolution_fits
  · refine .solutions _ (by simp) fun k o ho => ?_
    have := mem_of_lookup ho
    simp only [List.mem_cons, Prod.mk.injEq, List.not_mem_nil, or_false] at this
    rcases this with ⟨_, rfl⟩ | ⟨_, rfl⟩ <;> exact sampleSolution_fits
  · exact .builtin_text _
  · exact .scalar_num _

/-- A sample with one field changed. -/
def changed (c : Cls) (f : Kind → Obj) (k : String) (x : Obj) : List (String × Obj) :=
  (kinds c).map fun e => (e.1, if e.1 = k then x else f e.2)

theorem changed_lookup (c : Cls) (f : Kind → Obj) (k : String) (x : Obj)
    (hk : k ∈ (kinds c).map (·.1)) : (changed c f k x).lookup k = some x := by
  obtain ⟨e, he, rfl⟩ := List.mem_map.1 hk
  refine lookup_of_mem ?_ (List.mem_map.2 ⟨e, he, by simp⟩)
  unfold changed
  rw [List.map_map]
  exact kinds_nodup c

/-- It can be written if the new value can. -/
theorem changed_write (c : Cls) (f : Kind → Obj) (k : String) (x : Obj)
    (h : ∀ e ∈ kinds c, e.1 ≠ k → Fits e.2 (f e.2))
    (ha : k ∈ (dumper c).attrs → ∃ a, asAttr x = .ok a)
    (hm : k ∈ (dumper c).members → ∃ n, write x = .ok n) :
    ∃ n, write (.obj c (changed c f k x)) = .ok n := by
  have hl : ∀ e ∈ kinds c, (changed c f k x).lookup e.1 =
      some (if e.1 = k then x else f e.2) := by
    intro e he
    refine lookup_of_mem ?_ (List.mem_map.2 ⟨e, he, rfl⟩)
    unfold changed
    rw [List.map_map]
    exact kinds_nodup c
  have h₁ : ∀ a, ∃ o, a ∈ (dumper c).attrs → pickAttr (changed c f k x) a = .ok o := by
    intro a
    by_cases hat : a ∈ (dumper c).attrs
    · obtain ⟨e, he, rfl⟩ := List.mem_map.1 (attrs_known c a hat)
      unfold pickAttr getField
      rw [hl e he]
      by_cases hek : e.1 = k
      · simp only [hek, if_true]
        obtain ⟨o, ho⟩ := ha (hek ▸ hat)
        exact ⟨o, fun _ => ho⟩
      · simp only [hek, if_false]
        have hs := (attrs_iff c e he).1 hat
        have := h e he hek
        rw [hs] at this ⊢
        exact ⟨_, fun _ => asAttr_ok this⟩
    · exact ⟨.none, fun h => absurd h hat⟩
  have h₂ : ∀ a, ∃ n, a ∈ (dumper c).members →
      pick c (writeFields (changed c f k x)) a = .ok n := by
    intro a
    by_cases hat : a ∈ (dumper c).members
    · obtain ⟨e, he, rfl⟩ := List.mem_map.1 (members_known c a hat)
      unfold pick getField
      rw [writeFields_lookup, hl e he]
      by_cases hek : e.1 = k
      · simp only [hek, if_true, Option.map_some]
        obtain ⟨o, ho⟩ := hm (hek ▸ hat)
        rw [ho]
        exact ⟨_, fun _ => rfl⟩
      · simp only [hek, if_false, Option.map_some]
        have hs := (members_iff c e he).1 hat
        obtain ⟨n, hn, _⟩ := trip ⟨fun _ => .error .ValueError, fun _ => "", fun _ => "",
          fun _ => .none, fun _ => .ok .none⟩ _ _ (h e he hek) hs
        rw [hn]
        exact ⟨_, fun _ => rfl⟩
    · exact ⟨.none, fun h => absurd h hat⟩
  choose A hA using h₁
  choose N hN using h₂
  rw [write, collect_ok (fun k => k) _ A _ hA]
  dsimp only
  rw [collect_ok (fun k => k) _ N _ hN]
  exact ⟨_, rfl⟩

/-! ## C43: what is saved is loaded again -/

/-- Every container, a whole run in particular, can be written; what is written can be
read, the result is the same, and it again is a container that can be written. -/
theorem file_round_trip (E : Env) (c : Cls) (o : Obj) (h : Fits (.obj c) o) :
    ∃ n o', write o = .ok n ∧ read E n = .ok o' ∧ Same o o' ∧ Fits (.obj c) o' := by
  obtain ⟨n, hn, h'⟩ := trip E _ o h (by simp)
  obtain ⟨-, m, o', h₁, h₂, h₃, h₄⟩ := h' .MCMCVars ""
  have hfin : finaliseNode .MCMCVars "" n = n := by
    cases n <;> try rfl
    simp [finaliseNode, finaliseShape]
  rw [hfin] at h₁
  cases h₂
  exact ⟨n, m, hn, h₁, h₃, h₄⟩

/-- The same for problems and for solutions on their own. -/
theorem collection_round_trip (E : Env) (κ : Kind) (hκ : κ = .problems ∨ κ = .solutions)
    (o : Obj) (h : Fits κ o) :
    ∃ n o', write o = .ok n ∧ read E n = .ok o' ∧ Same o o' ∧ Fits κ o' := by
  obtain ⟨n, hn, h'⟩ := trip E _ o h (by rcases hκ with rfl | rfl <;> simp)
  obtain ⟨-, m, o', h₁, h₂, h₃, h₄⟩ := h' .MCMCVars ""
  have hfin : finaliseNode .MCMCVars "" n = n := by
    cases n <;> try rfl
    simp [finaliseNode, finaliseShape]
  rw [hfin] at h₁
  rcases hκ with rfl | rfl
  · cases h₂; exact ⟨n, m, hn, h₁, h₃, h₄⟩
  · cases h₂; exact ⟨n, m, hn, h₁, h₃, h₄⟩

/-- A run with a configuration, initial conditions, internal data, problems and two
solutions. -/
example (E : Env) : ∃ n o', write sampleRun = .ok n ∧ read E n = .ok o' ∧
    Same sampleRun o' ∧ Fits (.obj .Run) o' :=
  file_round_trip E .Run sampleRun sampleRun_fits

/-- `Same` is not always true: arrays that are not empty must be equal. -/
theorem Same.arrays {a b : NArr} (h : Same (.arr a) (.arr b)) :
    a = b ∨ (a.data = [] ∧ b.data = []) := by
  cases h with
  | refl => exact .inl rfl
  | empty _ _ ha hb => exact .inr ⟨ha, hb⟩

/-- The fields of the same objects are the same. -/
theorem Same.field {c : Cls} {f : List (String × Obj)} {o' : Obj}
    (h : Same (.obj c f) o') : ∃ g, o' = .obj c g ∧ f.map (·.1) = g.map (·.1) ∧
      ∀ k o, f.lookup k = some o → ∃ o', g.lookup k = some o' ∧ Same o o' := by
  cases h with
  | refl => exact ⟨f, rfl, rfl, fun k o h => ⟨o, h, .refl o⟩⟩
  | obj _ _ g names fields =>
    refine ⟨g, rfl, names, fun k o h => ?_⟩
    obtain ⟨o', ho'⟩ := lookup_isSome (names ▸ mem_keys h)
    exact ⟨o', ho', fields k o o' h ho'⟩

/-- The solution a user gets from the loaded run has the values that were saved: every
stored angle and every value of the solution, under its name. -/
theorem solution_values_kept (E : Env) (d : List (String × Obj)) (n : Node) (o' : Obj)
    (h : Fits .solutions (.solutions d)) (hw : write (.solutions d) = .ok n)
    (hr : read E n = .ok o') (name : String) (f : List (String × Obj)) (k : String) (a : NArr)
    (hs : d.lookup name = some (.obj .Solution f)) (hk : f.lookup k = some (.arr a))
    (hne : a.data ≠ []) :
    ∃ d' g, o' = .solutions d' ∧ d'.lookup name = some (.obj .Solution g) ∧
      g.lookup k = some (.arr a) := by
  obtain ⟨n', o'', hw', hr', hsame, hfit⟩ := collection_round_trip E .solutions (.inr rfl) _ h
  rw [hw] at hw'
  cases hw'
  rw [hr] at hr'
  cases hr'
  have harr : ∀ o, Same (.arr a) o → o = .arr a := by
    intro o h
    cases h with
    | refl => rfl
    | empty _ _ ha => exact absurd ha hne
  cases hsame with
  | refl => exact ⟨d, f, rfl, hs, hk⟩
  | solutions _ e names values =>
    obtain ⟨s', hs'⟩ : ∃ s', e.lookup name = some s' :=
      lookup_isSome (names.mem_iff.1 (mem_keys hs))
    obtain ⟨g, rfl, _, hg⟩ := (values name _ s' hs hs').field
    obtain ⟨x, hx, hxs⟩ := hg k _ hk
    rw [harr x hxs] at hx
    exact ⟨e, g, rfl, hs', hx⟩

example (E : Env) :
    let d := [("1", sampleSolution), ("0", sampleSolution)]
    ∃ n o', write (.solutions d) = .ok n ∧ read E n = .ok o' ∧
      ∃ d' g, o' = .solutions d' ∧ d'.lookup "0" = some (.obj .Solution g) ∧
        g.lookup "angles" = some (.arr ⟨[2], [.val 1, .nan]⟩) := by
  intro d
  have hf : Fits .solutions (.solutions d) := by
    refine .solutions _ (by simp [d]) fun k o ho => ?_
    have := mem_of_lookup ho
    simp only [d, List.mem_cons, Prod.mk.injEq, List.not_mem_nil, or_false] at this
    rcases this with ⟨_, rfl⟩ | ⟨_, rfl⟩ <;> exact sampleSolution_fits
  obtain ⟨n, o', hw, hr, _⟩ := collection_round_trip E .solutions (.inr rfl) _ hf
  exact ⟨n, o', hw, hr, solution_values_kept E d n o' hf hw hr "0" _ "angles" _ rfl rfl
    (by simp)⟩

/-! ### What does not survive -/

/-- A value `None` in a field stored as an attribute cannot be saved. -/
theorem unknown_not_saved (c : Cls) (fields : List (String × Obj)) (k : String)
    (hk : k ∈ (dumper c).attrs) (h : fields.lookup k = some .none) :
    ∃ e, write (.obj c fields) = .error e := by
  cases hw : write (.obj c fields) with
  | error e => exact ⟨e, rfl⟩
  | ok n =>
    obtain ⟨as, ns, -, -, ha, -⟩ := write_inv c fields n hw
    obtain ⟨o, a, ho, hoa, -⟩ := ha k hk
    rw [h] at ho
    cases ho
    cases hoa

example : ∃ e, write (.obj .SolutionInput
    (changed .SolutionInput sampleInner "nwalkers" .none)) = .error e :=
  unknown_not_saved .SolutionInput _ "nwalkers" (by decide +kernel)
    (changed_lookup _ _ _ _ (by decide +kernel))

/-- A run saved before its final solution is known cannot be loaded. -/
theorem unfinished_run_unreadable (E : Env) (fields : List (String × Obj)) (n : Node)
    (h : fields.lookup "final_solution" = some .delayed)
    (hw : write (.obj .Run fields) = .ok n) : ∃ e, read E n = .error e := by
  obtain ⟨as, ns, rfl, hn, -, hm⟩ := write_inv .Run fields n hw
  obtain ⟨o, x, ho, hx, hl⟩ := hm "final_solution" (by decide +kernel)
  rw [h] at ho
  cases ho
  cases hx
  refine unreadable_arg E .Run _ _ loadRun6 rfl as ns fun m hr => ?_
  refine ⟨("final_solution", .member "final_solution"), ?_, .KeyError, ?_⟩
  · simp [loadRun6]
  · have := (readMembers_lookup E ns m (hn ▸ members_nodup _) hr _ _ hl).1 rfl
    simp [evalSrc, getKey, this]

theorem sampleRun_kinds (e : String × Kind) (he : e ∈ kinds .Run) :
    Fits e.2 (sampleRunField e.2) := by
  have hl : (kinds .Run).lookup e.1 = some e.2 := lookup_of_mem (kinds_nodup _) he
  have h := sampleRun_fits
  cases h with
  | obj _ fields names _ fit =>
    refine fit e.1 e.2 _ hl (lookup_of_mem ?_ (List.mem_map.2 ⟨e, he, rfl⟩))
    rw [names]
    exact kinds_nodup _

example (E : Env) : ∃ n, write (.obj .Run
      (changed .Run sampleRunField "final_solution" .delayed)) = .ok n ∧
    ∃ e, read E n = .error e := by
  obtain ⟨n, hn⟩ := changed_write .Run sampleRunField "final_solution" .delayed
    (fun e he _ => sampleRun_kinds e he) (fun h => absurd h (by decide +kernel))
    (fun _ => ⟨_, rfl⟩)
  exact ⟨n, hn, unfinished_run_unreadable E _ n (changed_lookup _ _ _ _ (by decide +kernel)) hn⟩

/-- Initial conditions with a diffusivity that is not a number cannot be loaded. -/
theorem nan_diffusivity_unreadable (E : Env) (fields : List (String × Obj)) (n : Node)
    (a : NArr) (ha : fields.lookup "init_con" = some (.arr a)) (hlen : a.data.length = 11)
    (h : fields.lookup "η_O" = some (.num .nan))
    (hw : write (.obj .InitialConditions fields) = .ok n) : ∃ e, read E n = .error e := by
  obtain ⟨as, ns, rfl, hn, hat, hm⟩ := write_inv .InitialConditions fields n hw
  obtain ⟨o, x, ho, hx, hl⟩ := hat "η_O" (by decide +kernel)
  obtain ⟨o', x', ho', hx', hl'⟩ := hat "init_con" (by decide +kernel)
  rw [h] at ho
  rw [ha] at ho'
  cases ho
  cases ho'
  cases hx
  cases hx'
  cases hr : read E (.group (dumper .InitialConditions).label
      (dumper .InitialConditions).version as ns) with
  | error e => exact ⟨e, rfl⟩
  | ok r =>
    exfalso
    have hfail : ∀ v : String → Obj, v "init_con" = .arr a → v "η_O" = .num .nan →
        ∃ e, constructInitial v = .error e := by
      intro v hv hv'
      unfold constructInitial
      rw [hv, hv']
      dsimp only
      rw [if_neg (by omega)]
      have : ∃ e, checkη a 8 (.num .nan) = .error e := by
        unfold checkη
        obtain ⟨y, hy⟩ : ∃ y, a.data[8]? = some y :=
          ⟨a.data[8]'(by omega), List.getElem?_eq_getElem (by omega)⟩
        rw [hy]
        refine ⟨.RuntimeError, ?_⟩
        dsimp only [asFl]
        rw [if_pos (by unfold Fl.ne; trivial)]
      obtain ⟨e, he⟩ := this
      rw [he]
      exact ⟨e, rfl⟩
    rw [read] at hr
    cases hmr : readMembers E ns with
    | error e => rw [hmr] at hr; cases hr
    | ok m =>
      rw [hmr] at hr
      dsimp only at hr
      -- the arguments that are evaluated
      have hargs : ∃ R : String → Obj, R "init_con" = .arr a ∧ R "η_O" = .num .nan ∧
          ∀ e ∈ loadInitialConditions3, evalSrc E as m e.2 = .ok (R e.1) := by
        have hangles : ∃ g, evalSrc E as m (.data "angles") = .ok g := by
          unfold loader at hr
          rw [show loaderTable (dumper .InitialConditions).label
            (dumper .InitialConditions).version =
            some (.InitialConditions, loadInitialConditions3) from rfl] at hr
          dsimp only at hr
          cases hc : collect (loadInitialConditions3.map fun e =>
              (e.1, evalSrc E as m e.2)) with
          | error e => rw [hc] at hr; cases hr
          | ok kw =>
            exact collect_inv (fun e : String × Src => e.1) (fun e => evalSrc E as m e.2) _ kw hc
              ("angles", .data "angles") (by simp [loadInitialConditions3])
        obtain ⟨g, hg⟩ := hangles
        have hget : ∀ k ∈ (dumper .InitialConditions).attrs,
            evalSrc E as m (.attr k) = .ok ((as.lookup k).getD .none) := by
          intro k hk
          obtain ⟨o, x, _, _, h⟩ := hat k hk
          simp [evalSrc, getKey, h]
        refine ⟨fun k => if k = "angles" then g else (as.lookup k).getD .none,
          by simp [hl'], by simp [hl], ?_⟩
        simp only [loadInitialConditions3, List.forall_mem_cons]
        refine ⟨?_, ?_, ?_, ?_, ?_, ?_, ?_, ?_, by simp⟩ <;>
          first
            | exact hget _ (by decide +kernel)
            | exact hg
      obtain ⟨R, hR₁, hR₂, hR⟩ := hargs
      have := load_initial E 3 loadInitialConditions3 rfl as ns m hmr R hR (by
        have h₁ : ∀ k ∈ loadInitialConditions3.map (·.1),
          k ∈ (kinds .InitialConditions).map (·.1) := by decide +kernel
        have h₂ : ∀ k ∈ (kinds .InitialConditions).map (·.1),
          k ∈ loadInitialConditions3.map (·.1) := by decide +kernel
        exact fun k => ⟨h₁ k, h₂ k⟩)
      rw [read, hmr] at this
      dsimp only at this
      have hr' : loader E "InitialConditions" 3 as m = .ok r := hr
      rw [hr'] at this
      obtain ⟨e, he⟩ := hfail R hR₁ hR₂
      rw [he] at this
      cases this

/-- The initial conditions above, but `η_O` is not a number. -/
noncomputable def nanInitial : List (String × Obj) :=
  [("norm_kepler_sq", .num (.val 400)), ("η_O", .num .nan), ("η_A", .num (.val 2)),
   ("η_H", .num (.val 3)), ("γ", .num (.val 1)),
   ("init_con", .arr ⟨[11], [.val 0, .val 0, .val 1, .val (-1), .val 0, .val 10, .val 1,
     .val 0, .nan, .val 2, .val 3]⟩),
   ("angles", .arr ⟨[2], [.val 0, .val 1]⟩), ("a_0", .num (.val 2))]

example (E : Env) : ∃ n, write (.obj .InitialConditions nanInitial) = .ok n ∧
    ∃ e, read E n = .error e := by
  obtain ⟨n, hn⟩ : ∃ n, write (.obj .InitialConditions nanInitial) = .ok n := ⟨_, rfl⟩
  exact ⟨n, hn, nan_diffusivity_unreadable E _ n _ rfl rfl rfl hn⟩

/-- A Python number for the size of the jump, the critical velocity or the step after the
sonic point (the solver always makes `numpy` numbers) can be saved, but not loaded. -/
theorem python_number_unreadable (E : Env) (fields : List (String × Obj)) (n : Node)
    (k : String) (hk : k ∈ ["jump_before_sonic", "v_θ_sonic_crit", "after_sonic",
      "sonic_interp_size"]) (x : Fl) (h : fields.lookup k = some (.num x))
    (hw : write (.obj .SolutionInput fields) = .ok n) : ∃ e, read E n = .error e := by
  obtain ⟨as, ns, rfl, hn, -, hm⟩ := write_inv .SolutionInput fields n hw
  have hk' : ∀ k ∈ ["jump_before_sonic", "v_θ_sonic_crit", "after_sonic",
      "sonic_interp_size"], k ∈ (dumper .SolutionInput).members := by decide +kernel
  obtain ⟨o, y, ho, hy, hl⟩ := hm k (hk' k hk)
  rw [h] at ho
  cases ho
  cases hy
  refine unreadable_arg E .SolutionInput _ _ loadSolutionInput14 rfl as ns fun m hr => ?_
  refine ⟨(k, .dataOpt k), ?_, .TypeError, ?_⟩
  · simp only [List.mem_cons, List.not_mem_nil, or_false] at hk
    rcases hk with rfl | rfl | rfl | rfl <;> simp [loadSolutionInput14]
  · obtain ⟨o, ho, hlo⟩ :=
      (readMembers_lookup E ns m (hn ▸ members_nodup _) hr _ _ hl).2 (by simp [finaliseNode])
    cases ho
    simp [evalSrc, getKey, hlo, Except.bind, dataOptOf, dataOf]

theorem sampleInput_kinds (e : String × Kind) (he : e ∈ kinds .SolutionInput) :
    Fits e.2 (sampleInner e.2) := by
  have hl : (kinds .SolutionInput).lookup e.1 = some e.2 := lookup_of_mem (kinds_nodup _) he
  have h := sampleInput_fits
  cases h with
  | obj _ fields names _ fit =>
    refine fit e.1 e.2 _ hl (lookup_of_mem ?_ (List.mem_map.2 ⟨e, he, rfl⟩))
    rw [names]
    exact kinds_nodup _

example (E : Env) : ∃ n, write (.obj .SolutionInput
      (changed .SolutionInput sampleInner "after_sonic" (.num (.val 1)))) = .ok n ∧
    ∃ e, read E n = .error e := by
  obtain ⟨n, hn⟩ := changed_write .SolutionInput sampleInner "after_sonic" (.num (.val 1))
    (fun e he _ => sampleInput_kinds e he) (fun _ => ⟨_, rfl⟩) (fun _ => ⟨_, rfl⟩)
  exact ⟨n, hn, python_number_unreadable E _ n "after_sonic" (by decide) _
    (changed_lookup _ _ _ _ (by decide +kernel)) hn⟩

/-- Stored derivatives (the solver stores none) come back as a `DatasetContainer`, not as
an array. -/
theorem derivatives_not_restored (E : Env) (fields : List (String × Obj)) (n : Node)
    (o' : Obj) (a : NArr) (h : fields.lookup "derivatives" = some (.arr a))
    (hw : write (.obj .Solution fields) = .ok n) (hr : read E n = .ok o') :
    ∃ g, o' = .obj .Solution g ∧ g.lookup "derivatives" = some (.dset a) ∧
      ¬ Same (.arr a) (.dset a) := by
  obtain ⟨as, ns, rfl, hn, -, hm⟩ := write_inv .Solution fields n hw
  obtain ⟨o, y, ho, hy, hl⟩ := hm "derivatives" (by decide +kernel)
  rw [h] at ho
  cases ho
  cases hy
  obtain ⟨m, g, x, hmr, rfl, hx, hs⟩ := read_field E .Solution _ _ loadSolution4 rfl
    (by decide) (by decide) "derivatives" (.member "derivatives") rfl (by decide +kernel)
    (fun _ => rfl) (by decide +kernel) as ns o' hr
  obtain ⟨o, ho, hlo⟩ :=
    (readMembers_lookup E ns m (hn ▸ members_nodup _) hmr _ _ hl).2 (by simp [finaliseNode])
  have : finaliseShape .Solution "derivatives" a = a := by
    unfold finaliseShape
    split_ifs with h₁ h₂ h₃
    · simp at h₂
    · simp at h₃
    · rfl
    · rfl
  rw [finaliseNode, this] at ho
  cases ho
  simp only [evalSrc, getKey, hlo, Except.ok.injEq] at hs
  subst hs
  exact ⟨g, rfl, hx, fun h => nomatch h⟩

theorem sampleSolution_kinds (e : String × Kind) (he : e ∈ kinds .Solution) :
    Fits e.2 (sampleOuter e.2) := by
  have hl : (kinds .Solution).lookup e.1 = some e.2 := lookup_of_mem (kinds_nodup _) he
  have h := sampleSolution_fits
  cases h with
  | obj _ fields names _ fit =>
    refine fit e.1 e.2 _ hl (lookup_of_mem ?_ (List.mem_map.2 ⟨e, he, rfl⟩))
    rw [names]
    exact kinds_nodup _

/-- A solution with derivatives can be saved; whatever is then loaded has a container. -/
example (E : Env) : ∃ n, write (.obj .Solution
      (changed .Solution sampleOuter "derivatives" (.arr ⟨[1], [.val 1]⟩))) = .ok n ∧
    ∀ o', read E n = .ok o' → ∃ g, o' = .obj .Solution g ∧
      g.lookup "derivatives" = some (.dset ⟨[1], [.val 1]⟩) := by
  obtain ⟨n, hn⟩ := changed_write .Solution sampleOuter "derivatives" (.arr ⟨[1], [.val 1]⟩)
    (fun e he _ => sampleSolution_kinds e he) (fun h => absurd h (by decide +kernel))
    (fun _ => ⟨_, rfl⟩)
  refine ⟨n, hn, fun o' hr => ?_⟩
  obtain ⟨g, hg, hl, -⟩ := derivatives_not_restored E _ n o' _
    (changed_lookup _ _ _ _ (by decide +kernel)) hn hr
  exact ⟨g, hg, hl⟩

/-- A message ending in a zero character loses it. -/
theorem trailing_zero_lost (E : Env) (name s : String) (hs : s.toList = ['\x00']) :
    (write (.problems [(name, [s])])).bind (read E) = .ok (.problems [(name, [""])]) := by
  have : stripNul s = "" := by
    unfold stripNul
    rw [hs]
    rfl
  simp [write, this, Except.bind, read, readMembers, loader, loaderTable, byName, collect,
    messages, Except.map]

example (E : Env) := trailing_zero_lost E "0.5" "\x00" (by decide)

end DiscSolver.FileFormat
