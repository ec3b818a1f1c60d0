import Verif.Model.Containers
import Verif.Lemmas.Dict
import Mathlib.Data.List.Basic

/-!
# C33–C36: containers
-/

namespace DiscSolver

open Dict

section solutions

variable {σ : Type}

/-- The contents after storing `xs` in order: `"0"`, `"1"`, … -/
def numbered (xs : List σ) : Solutions σ := xs.zipIdx.map (fun p => (p.2.repr, p.1))

theorem numbered_keys (xs : List σ) :
    (numbered xs).keys = (List.range xs.length).map Nat.repr := by
  simp only [numbered, keys, List.map_map]
  have : (Prod.fst ∘ fun p : σ × ℕ => (p.2.repr, p.1)) = Nat.repr ∘ Prod.snd := rfl
  rw [this, ← List.map_map, List.zipIdx_map_snd, List.range_eq_range']

theorem numbered_get (xs : List σ) (i : ℕ) : get? (numbered xs) i.repr = xs[i]? := by
  have key : ∀ (xs : List σ) (n i : ℕ), n ≤ i →
      get? ((xs.zipIdx n).map (fun p => (p.2.repr, p.1))) i.repr = xs[i - n]? := by
    intro xs
    induction xs with
    | nil => intro n i _; rfl
    | cons x xs ih =>
      intro n i hi
      simp only [List.zipIdx_cons, List.map_cons, get?]
      by_cases h : n = i
      · simp [h]
      · have hne : n.repr ≠ i.repr := by
          intro e
          have := congrArg String.toInt? e
          simp at this
          omega
        rw [if_neg hne, ih (n + 1) i (by omega)]
        have : i - n = (i - (n + 1)) + 1 := by omega
        rw [this]
        simp
  have h := key xs 0 i (Nat.zero_le _)
  rwa [Nat.sub_zero] at h

/-- Storing one more solution after storing `xs`. -/
theorem add_numbered (xs : List σ) (s : σ) :
    Solutions.add (numbered xs) s = .ok (xs.length.repr, numbered (xs ++ [s])) := by
  have hlen : (numbered xs).length = xs.length := by simp [numbered]
  have hfresh : xs.length.repr ∉ (numbered xs).keys := by
    rw [numbered_keys]
    simp only [List.mem_map, List.mem_range, not_exists, not_and]
    intro i hi e
    have := congrArg String.toInt? e
    simp at this
    omega
  simp only [Solutions.add, Solutions.getNextIndex, hlen, hfresh, not_false_eq_true,
    if_true]
  rw [show (Except.ok xs.length.repr : Except PyErr String) =
    pure xs.length.repr from rfl, pure_bind, set_of_not_mem _ _ _ hfresh]
  simp [numbered, List.zipIdx_append, pure, Except.pure]

/-- Storing each of `xs` in turn; the indices returned and the contents. -/
def storeAll (d : Solutions σ) : List σ → Except PyErr (List String × Solutions σ)
  | [] => .ok ([], d)
  | s :: xs => do
    let (k, d) ← d.add s
    let (ks, d) ← storeAll d xs
    .ok (k :: ks, d)

/-- C33. Storing `xs` in a new container never fails, the `i`-th solution is
given the index `i`, and afterwards index `i` holds the `i`-th solution and
nothing else is stored. -/
theorem solutions_stored_in_order (xs : List σ) :
    ∃ d, storeAll [] xs = .ok ((List.range xs.length).map Nat.repr, d) ∧
      d.keys = (List.range xs.length).map Nat.repr ∧
      ∀ i : ℕ, get? d i.repr = xs[i]? := by
  refine ⟨numbered xs, ?_, numbered_keys xs, numbered_get xs⟩
  have key : ∀ (xs ys : List σ), storeAll (numbered ys) xs =
      .ok ((List.range' ys.length xs.length).map Nat.repr, numbered (ys ++ xs)) := by
    intro xs
    induction xs with
    | nil => intro ys; simp [storeAll]
    | cons x xs ih =>
      intro ys
      simp only [storeAll, add_numbered]
      rw [show (Except.ok (ys.length.repr, numbered (ys ++ [x])) :
        Except PyErr (String × Solutions σ)) =
        pure (ys.length.repr, numbered (ys ++ [x])) from rfl, pure_bind]
      simp only [ih]
      simp [bind, Except.bind, List.range'_succ]
  have h := key xs []
  rw [List.nil_append, List.length_nil, ← List.range_eq_range'] at h
  exact h

example := solutions_stored_in_order ["a", "b", "c"]

/-- C33. Whatever the container holds, adding a solution either raises
`RuntimeError` and stores nothing, or returns an index that was not in use, under
which the solution is found, every other lookup being unchanged. -/
theorem add_solution_fresh (d : Solutions σ) (s : σ) :
    Solutions.add d s = .error .RuntimeError ∨
    ∃ k d', Solutions.add d s = .ok (k, d') ∧ get? d k = none ∧
      get? d' k = some s ∧ ∀ k', k' ≠ k → get? d' k' = get? d k' := by
  by_cases h : d.length.repr ∉ d.keys
  · right
    refine ⟨d.length.repr, set d d.length.repr s, ?_, (get?_eq_none_iff _ _).2 h,
      get?_set_self _ _ _, fun k' hk => get?_set_ne _ _ (Ne.symm hk)⟩
    simp only [Solutions.add, Solutions.getNextIndex, if_pos h]
    rfl
  · left
    simp only [Solutions.add, Solutions.getNextIndex, if_neg h]
    rfl

example := add_solution_fresh (numbered ["a", "b"]) "c"

/-- A step in the life of a container. -/
inductive SolutionsOp (σ : Type) where
  | add (s : σ)
  | del (k : String)

/-- Run one step; a step that raises leaves the container as it was. -/
def SolutionsOp.apply (d : Solutions σ) : SolutionsOp σ → Solutions σ
  | .add s => match d.add s with
    | .ok (_, d') => d'
    | .error _ => d
  | .del k => match Dict.delItem d k with
    | .ok d' => d'
    | .error _ => d

/-- C33. Through any history of additions and deletions (also ones that raise), a
stored solution is never replaced: it is still found under its key unless that
key was deleted. -/
theorem solutions_never_replaced (ops : List (SolutionsOp σ)) (d : Solutions σ)
    (hd : d.keys.Nodup) (k : String) (s : σ) (hs : get? d k = some s)
    (hk : .del k ∉ ops) :
    get? (ops.foldl SolutionsOp.apply d) k = some s := by
  induction ops generalizing d with
  | nil => exact hs
  | cons op ops ih =>
    simp only [List.mem_cons, not_or] at hk
    simp only [List.foldl_cons]
    cases op with
    | add x =>
      rcases add_solution_fresh d x with h | ⟨k', d', h, hn, -, hother⟩
      · have e : SolutionsOp.apply d (.add x) = d := by simp [SolutionsOp.apply, h]
        rw [e]
        exact ih d hd hs hk.2
      · have e : SolutionsOp.apply d (.add x) = d' := by simp [SolutionsOp.apply, h]
        rw [e]
        have hne : k ≠ k' := by
          rintro rfl
          rw [hn] at hs
          simp at hs
        refine ih d' ?_ (by rw [hother k hne, hs]) hk.2
        simp only [Solutions.add, Solutions.getNextIndex] at h
        split at h
        · simp only [bind, Except.bind, pure, Except.pure, Except.ok.injEq,
            Prod.mk.injEq] at h
          rw [← h.2]
          exact nodup_set _ _ _ hd
        · simp [bind, Except.bind] at h
    | del k' =>
      have hne : k' ≠ k := fun e => hk.1 (by rw [e])
      simp only [SolutionsOp.apply, Dict.delItem]
      cases hg : get? d k' with
      | none => exact ih d hd hs hk.2
      | some v =>
        refine ih _ (nodup_erase _ _ hd) ?_ hk.2
        rw [get?_erase _ _ _ hd, if_neg hne, hs]

example := solutions_never_replaced
  [.add "c", .del "1", .add "d", .add "e"] (numbered ["a", "b"])
  (by decide +kernel) "0" "a" rfl (by simp)

/-- C33. The last solution is the one with the largest number, for every container
whose keys are numbers. -/
theorem get_last_largest (d : Solutions σ) (s : σ) (h : d.getLast = .ok s) :
    ∃ k n, get? d k = some s ∧ k.toInt? = some n ∧
      ∀ k' ∈ d.keys, ∃ m, k'.toInt? = some m ∧ m ≤ n := by
  simp only [Solutions.getLast, Solutions.sortedKeys] at h
  by_cases hall : d.keys.all (fun k => k.toInt?.isSome) = true
  · rw [if_pos hall] at h
    simp only [bind, Except.bind] at h
    set ks := d.keys.mergeSort
      (fun a b => decide (a.toInt?.getD 0 ≤ b.toInt?.getD 0)) with hks
    have hperm : ks.Perm d.keys := List.mergeSort_perm _ _
    have hsorted := List.pairwise_mergeSort
      (le := fun a b : String => decide (a.toInt?.getD 0 ≤ b.toInt?.getD 0))
      (by intro a b c; simp only [decide_eq_true_eq]; omega)
      (by intro a b; simp only [Bool.or_eq_true, decide_eq_true_eq]; omega)
      d.keys
    rw [← hks] at hsorted
    cases hl : ks.getLast? with
    | none => simp [hl] at h
    | some k =>
      simp only [hl, Dict.getItem] at h
      have hget : get? d k = some s := by
        cases hg : get? d k with
        | none => simp [hg] at h
        | some v => simpa [hg] using h
      rw [List.all_eq_true] at hall
      have hmem : k ∈ d.keys := hperm.mem_iff.1 (List.mem_of_getLast? hl)
      obtain ⟨n, hn⟩ := Option.isSome_iff_exists.1 (hall k hmem)
      refine ⟨k, n, hget, hn, fun k' hk' => ?_⟩
      obtain ⟨m, hm⟩ := Option.isSome_iff_exists.1 (hall k' hk')
      refine ⟨m, hm, ?_⟩
      obtain ⟨pre, hpre⟩ := List.getLast?_eq_some_iff.1 hl
      rw [hpre] at hsorted hperm
      have hk2 : k' ∈ pre ++ [k] := hperm.mem_iff.2 hk'
      rcases List.mem_append.1 hk2 with h1 | h1
      · have := (List.pairwise_append.1 hsorted).2.2 k' h1 k (by simp)
        simpa [hn, hm] using this
      · simp only [List.mem_singleton] at h1
        subst h1
        rw [hn] at hm
        simp only [Option.some.injEq] at hm
        omega
  · rw [if_neg hall] at h
    simp [bind, Except.bind] at h

/-- C33. After storing `xs` and then `s`, the last solution is `s`. -/
theorem get_last_most_recent (xs : List σ) (s : σ) :
    (numbered (xs ++ [s])).getLast = .ok s := by
  have hall : (numbered (xs ++ [s])).keys.all (fun k => k.toInt?.isSome) = true := by
    rw [numbered_keys, List.all_eq_true]
    simp
  have hex : ∃ v, (numbered (xs ++ [s])).getLast = .ok v := by
    simp only [Solutions.getLast, Solutions.sortedKeys, if_pos hall, bind, Except.bind]
    have hperm : ((numbered (xs ++ [s])).keys.mergeSort
      (fun a b => decide (a.toInt?.getD 0 ≤ b.toInt?.getD 0))).Perm
        (numbered (xs ++ [s])).keys := List.mergeSort_perm _ _
    split
    · rename_i hl
      rw [List.getLast?_eq_none_iff] at hl
      rw [hl] at hperm
      have := hperm.length_eq
      simp [numbered, keys] at this
    · rename_i k hl
      have hmem := hperm.mem_iff.1 (List.mem_of_getLast? hl)
      obtain ⟨v, hv⟩ := Option.isSome_iff_exists.1 ((get?_isSome_iff _ _).2 hmem)
      exact ⟨v, by simp [Dict.getItem, hv]⟩
  obtain ⟨v, hv⟩ := hex
  obtain ⟨k, n, hk, hn, hmax⟩ := get_last_largest _ _ hv
  have hmem : k ∈ (numbered (xs ++ [s])).keys := by
    rw [← get?_isSome_iff, hk]; rfl
  rw [numbered_keys] at hmem hmax
  simp only [List.mem_map, List.mem_range] at hmem
  obtain ⟨i, hi, rfl⟩ := hmem
  obtain ⟨m, hm, hle⟩ := hmax xs.length.repr (by simp)
  simp only [Nat.toInt?_repr, Option.some.injEq] at hn hm
  have hix : i = xs.length := by
    simp only [List.length_append, List.length_singleton] at hi
    omega
  rw [hix, numbered_get] at hk
  simp at hk
  rw [hv, hk]

example := get_last_largest (numbered ["a", "b"]) "b" (get_last_most_recent ["a"] "b")

end solutions

section runs

variable {μ σ : Type}

/-- A step in the life of a run. -/
inductive RunOp (σ : Type) where
  | add (s : σ)
  | setFinal (s : σ)
  | finalise

/-- Run one step; the result is the new run and the exception, if any. -/
def RunOp.apply (r : Run μ σ) : RunOp σ → Run μ σ × Option PyErr
  | .add s => match r.addSolution s with
    | .ok (_, r') => (r', none)
    | .error e => (r, some e)
  | .setFinal s => match r.setFinal s with
    | .ok r' => (r', none)
    | .error e => (r, some e)
  | .finalise => match r.finalise with
    | .ok r' => (r', none)
    | .error e => (r, some e)

/-- C34. Once a run has a final solution no history of additions, assignments and
finalisations changes it, and every attempt to assign one raises
`RuntimeError`. -/
theorem final_write_once (ops : List (RunOp σ)) (r : Run μ σ) (v : Option σ)
    (h : r.final = .value v) :
    let r' := ops.foldl (fun r op => (RunOp.apply r op).1) r
    r'.final = .value v ∧ ∀ s, r'.setFinal s = .error .RuntimeError := by
  have key : ∀ (ops : List (RunOp σ)) (r : Run μ σ), r.final = .value v →
      (ops.foldl (fun r op => (RunOp.apply r op).1) r).final = .value v := by
    intro ops
    induction ops with
    | nil => intro r h; exact h
    | cons op ops ih =>
      intro r h
      simp only [List.foldl_cons]
      apply ih
      cases op with
      | add s =>
        simp only [RunOp.apply, Run.addSolution]
        cases r.solutions.add s with
        | ok p => exact h
        | error e => exact h
      | setFinal s => simp [RunOp.apply, Run.setFinal, h]
      | finalise => simp [RunOp.apply, Run.finalise, h]
  refine ⟨key ops r h, fun s => ?_⟩
  simp only [Run.setFinal]
  rw [key ops r h]

example := final_write_once [.add "b", .setFinal "c", .finalise]
  ({ info := (), final := .value (some "a") } : Run Unit String) (some "a") rfl

/-- C34. `finalise` on a run without a final solution makes the last stored
solution final, changing nothing else; with nothing stored it raises. -/
theorem finalise_unset (r : Run μ σ) (h : r.final = .delayed) :
    r.finalise = (r.solutions.getLast).map
      (fun s => { r with final := .value (some s) }) := by
  simp only [Run.finalise, h]
  cases r.solutions.getLast <;> rfl

example := finalise_unset ({ info := (), solutions := numbered ["a", "b"] } : Run Unit String) rfl

/-- C34. `finalise` leaves a run that has a final solution as it is. -/
theorem finalise_set (r : Run μ σ) (v : Option σ) (h : r.final = .value v) :
    r.finalise = .ok r := by
  simp [Run.finalise, h]

example := finalise_set
  ({ info := (), final := .value (some "a"), solutions := numbered ["a", "b"] } : Run Unit String)
  (some "a") rfl

/-- C34. `finalise` is idempotent. -/
theorem finalise_idempotent (r r' : Run μ σ) (h : r.finalise = .ok r') :
    r'.finalise = .ok r' := by
  cases hf : r.final with
  | delayed =>
    rw [finalise_unset r hf] at h
    cases hl : r.solutions.getLast with
    | error e => simp [hl, Except.map] at h
    | ok s =>
      simp only [hl, Except.map, Except.ok.injEq] at h
      exact finalise_set r' (some s) (by rw [← h])
  | value v =>
    rw [finalise_set r v hf] at h
    simp only [Except.ok.injEq] at h
    rw [← h]
    exact finalise_set r v hf

/-- C34. A run that stored `xs` then `s` and is finalised has final solution
`s`. -/
theorem finalise_after_store (m : μ) (xs : List σ) (s : σ) :
    Run.finalise { info := m, solutions := numbered (xs ++ [s]) } =
      .ok { info := m, solutions := numbered (xs ++ [s]), final := .value (some s) } := by
  rw [finalise_unset _ rfl]
  simp [get_last_most_recent, Except.map]

example := finalise_idempotent _ _ (finalise_after_store () ["a"] "b")

/-- C34. Finalising an empty run raises `IndexError`. -/
theorem finalise_empty (m : μ) :
    (Run.finalise { info := m } : Except PyErr (Run μ σ)) = .error .IndexError := by
  rw [finalise_unset _ rfl]
  have h0 : Dict.keys ([] : Solutions σ) = [] := rfl
  simp only [Solutions.getLast, Solutions.sortedKeys, h0, List.all_nil, if_true,
    List.mergeSort_nil, bind, Except.bind, List.getLast?_nil, Except.map]

/-- C34. A shock run starts with no solutions and no final solution, records what
it is based on, and keeps everything else of the run. -/
theorem shock_run_fresh (r : Run μ σ) (f n : String) :
    let r' := r.createShockRun f n
    r'.solutions = [] ∧ r'.final = .delayed ∧ r'.is_post_shock_only = true ∧
      r'.based_on_filename = some f ∧ r'.based_on_solution = some n ∧
      r'.info = r.info :=
  ⟨rfl, rfl, rfl, rfl, rfl, rfl⟩

/-! ### C35 -/

/-- C35. `'final'` gives the final solution; an unset one gives `None` for a
loaded file. -/
theorem get_final (r : Run μ σ) (v : Option σ) (h : r.final = .value v) :
    r.getSolutions (some "final") = .ok (match v with
      | some s => .soln s
      | none => .none) := by
  cases v <;> simp [Run.getSolutions, Run.finalSolution, h]

example := get_final
  ({ info := (), final := .value (some "a"), solutions := numbered ["a", "b"] } : Run Unit String)
  (some "a") rfl

/-- C35. No name means solution `"0"`, and a name other than `latest` and `final`
means the solution stored under it; a missing key raises `KeyError`. -/
theorem get_named (r : Run μ σ) (range : Option String)
    (h : range ≠ some "latest") (h' : range ≠ some "final") :
    r.getSolutions range = match get? r.solutions (range.getD "0") with
      | some s => .ok (.soln s)
      | none => .error .KeyError := by
  cases range with
  | none =>
    simp only [Run.getSolutions, Dict.getItem, Option.getD_none]
    cases get? r.solutions "0" <;> rfl
  | some k =>
    have h1 : k ≠ "latest" := fun e => h (by rw [e])
    have h2 : k ≠ "final" := fun e => h' (by rw [e])
    simp only [Run.getSolutions, Dict.getItem, Option.getD_some, if_neg h1, if_neg h2]
    cases get? r.solutions k <;> rfl

example := get_named ({ info := (), solutions := numbered ["a", "b"] } : Run Unit String)
  (some "1") (by decide) (by decide)

/-- C35. `'latest'` gives the final solution when the run has one. -/
theorem get_latest_final (r : Run μ σ) (s : σ) (h : r.final = .value (some s)) :
    r.getSolutions (some "latest") = .ok (.soln s) := by
  simp [Run.getSolutions, Run.finalSolution, h]

example := get_latest_final
  ({ info := (), final := .value (some "a"), solutions := numbered ["a", "b"] } : Run Unit String)
  "a" rfl

/-- C35. `'latest'` on a loaded run without a final solution gives the solution
with the largest number, for runs that stored solutions with `add_solution`. -/
theorem get_latest_unset (m : μ) (xs : List σ) (s : σ) :
    Run.getSolutions
      { info := m, final := .value none, solutions := numbered (xs ++ [s]) }
      (some "latest") = .ok (.soln s) := by
  have hall : (numbered (xs ++ [s])).keys.all (fun k => k.toInt?.isSome) = true := by
    rw [numbered_keys, List.all_eq_true]
    simp
  have hmax : ((numbered (xs ++ [s])).keys.map (fun k => k.toInt?.getD 0)).max? =
      some (xs.length : Int) := by
    rw [numbered_keys, List.map_map]
    have e : ((fun k : String => k.toInt?.getD 0) ∘ Nat.repr) = fun n : ℕ => (n : Int) := by
      funext n; simp
    rw [e, List.max?_eq_some_iff]
    constructor
    · simp only [List.mem_map, List.mem_range, List.length_append,
        List.length_singleton]
      exact ⟨xs.length, by omega, rfl⟩
    · intro b hb
      simp only [List.mem_map, List.mem_range, List.length_append,
        List.length_singleton] at hb
      obtain ⟨i, hi, rfl⟩ := hb
      omega
  simp only [Run.getSolutions, if_true, if_pos hall, hmax]
  have e : toString (xs.length : Int) = xs.length.repr := rfl
  rw [e]
  simp [Dict.getItem, numbered_get, Except.map]

/-- C35 is false of a run in progress: `'final'` and `'latest'` give the
placeholder object, not `None` and not the newest solution, whatever is
stored. -/
theorem get_final_in_progress (r : Run μ σ) (h : r.final = .delayed) :
    r.getSolutions (some "final") = .ok .placeholder ∧
    r.getSolutions (some "latest") = .ok .placeholder := by
  simp [Run.getSolutions, Run.finalSolution, h]

example := get_final_in_progress
  ({ info := (), solutions := numbered ["a", "b"] } : Run Unit String) rfl

end runs

section problems

variable {α : Type} (str : α → String)

/-- The messages recorded for an angle (without the insertion that a lookup
causes). -/
def messages (p : Problems) (k : ProblemKey α) : List String :=
  (Dict.get? p (k.str str)).getD []

/-- C36. Looking an angle up gives the messages recorded for it, and does not
change any messages. -/
theorem problems_lookup (p : Problems) (k k' : ProblemKey α) :
    (Problems.getItem str p k).1 = messages str p k ∧
    messages str (Problems.getItem str p k).2 k' = messages str p k' := by
  simp only [Problems.getItem, messages]
  cases h : Dict.get? p (k.str str) with
  | some l => simp
  | none =>
    refine ⟨rfl, ?_⟩
    simp only [get?_set]
    split
    · rename_i e
      rw [← e, h]
      rfl
    · rfl

/-- C36. A message is recorded after the earlier ones for the same angle; other
angles keep theirs. -/
theorem problems_append (p : Problems) (k k' : ProblemKey α) (m : String) :
    messages str (Problems.append str p k m) k' =
      if k.str str = k'.str str then messages str p k' ++ [m]
      else messages str p k' := by
  have h1 := (problems_lookup str p k k').1
  simp only [Problems.append, messages, get?_set] at *
  split
  · rename_i e
    rw [h1, e]
    rfl
  · rfl

/-- C36. Through any history of recorded messages, the messages for an angle are
exactly those recorded for it, in order. -/
theorem problems_history (log : List (ProblemKey α × String)) (p : Problems)
    (k : ProblemKey α) :
    messages str (log.foldl (fun p e => Problems.append str p e.1 e.2) p) k =
      messages str p k ++
        (log.filter (fun e => e.1.str str = k.str str)).map Prod.snd := by
  induction log generalizing p with
  | nil => simp
  | cons e log ih =>
    simp only [List.foldl_cons, ih, problems_append]
    by_cases h : e.1.str str = k.str str <;> simp [h]

/-- C36. A number and its printed form are the same key. -/
theorem problems_key_text (p : Problems) (x : α) :
    messages str p (.num x) = messages str p (.text (str x)) := rfl

/-- Assigning to a `Problems` extends. -/
theorem problems_setItem (p : Problems) (k k' : ProblemKey α) (ms : List String) :
    messages str (Problems.setItem str p k ms) k' =
      if k.str str = k'.str str then messages str p k' ++ ms
      else messages str p k' := by
  have h1 := (problems_lookup str p k k').1
  simp only [Problems.setItem, messages, get?_set] at *
  split
  · rename_i e
    rw [h1, e]
    rfl
  · rfl

theorem problems_update (q p : Problems) (hq : q.keys.Nodup) (k : ProblemKey α) :
    messages str (Problems.update p q) k = messages str p k ++ messages str q k := by
  have base : ∀ (p : Problems) (k : ProblemKey α),
      messages str p k = messages (α := Empty) Empty.elim p (.text (k.str str)) :=
    fun _ _ => rfl
  rw [base, base, base]
  generalize k.str str = kk
  induction q generalizing p with
  | nil => simp [Problems.update, messages]
  | cons e q ih =>
    have hk : Dict.keys (e :: q) = e.1 :: Dict.keys q := rfl
    rw [hk, List.nodup_cons] at hq
    have : Problems.update p (e :: q) = Problems.update
      (Problems.setItem (α := Empty) Empty.elim p (.text e.1) e.2) q := rfl
    rw [this, ih _ hq.2, problems_setItem]
    by_cases h : e.1 = kk
    · have hn : Dict.get? q kk = none := by
        rw [get?_eq_none_iff, ← h]; exact hq.1
      simp [ProblemKey.str, messages, Dict.get?, h, hn]
    · simp [ProblemKey.str, messages, Dict.get?, h]

example := problems_update (α := ℕ) Nat.repr
  [("0.1", ["negative velocity"]), ("0.2", ["negative density"])] [("0.1", ["negative density"])]
  (by decide +kernel) (.text "0.1")

/-- C36. Joining two records appends the messages of the second to those of the
first, for every angle. -/
theorem problems_join (p q : Problems) (hp : p.keys.Nodup) (hq : q.keys.Nodup)
    (k : ProblemKey α) :
    messages str (Problems.join p q) k = messages str p k ++ messages str q k := by
  rw [Problems.join, problems_update str q _ hq, problems_update str p _ hp]
  simp [messages]

example := problems_join (α := ℕ) Nat.repr [("0.1", ["negative density"])]
  [("0.1", ["negative velocity"]), ("0.2", ["negative density"])]
  (by decide +kernel) (by decide +kernel) (.text "0.1")

/-- C36, the part that holds: deleting with the printed key removes the messages
for it and nothing else. -/
theorem problems_delete_partial (p p' : Problems) (hp : p.keys.Nodup) (s : String)
    (h : Problems.delItem p (.text s : ProblemKey α) = .ok p') (k : ProblemKey α) :
    messages str p' k = if s = k.str str then [] else messages str p k := by
  simp only [Problems.delItem, Dict.delItem] at h
  split at h
  · simp only [Except.ok.injEq] at h
    rw [← h]
    simp only [messages, get?_erase _ _ _ hp]
    split <;> simp
  · simp at h

example := problems_delete_partial Nat.repr
  [("0.1", ["negative density"]), ("0.2", ["x"])] [("0.2", ["x"])]
  (by decide +kernel) "0.1" rfl (.text "0.2")

/-- C36 is false of the code for deletion: a number that lookup accepts can never
be deleted. -/
theorem problems_delete_number_fails (p : Problems) (x : α) (m : String) :
    m ∈ messages str (Problems.append str p (.num x) m) (.num x) ∧
    Problems.delItem (Problems.append str p (.num x) m) (.num x) =
      .error .KeyError := by
  refine ⟨?_, rfl⟩
  rw [problems_append]
  simp

/-- A membership test of a `Problems` is true for every key, recorded or not, and
makes the key appear in the next iteration. -/
theorem problems_contains_everything (p : Problems) (k : ProblemKey α) :
    (Problems.contains str p k).1 = true ∧
    k.str str ∈ (Problems.contains str p k).2.keys := by
  refine ⟨rfl, ?_⟩
  rw [← get?_isSome_iff]
  simp only [Problems.contains, Problems.getItem]
  cases h : Dict.get? p (k.str str) <;> simp [h]

end problems

end DiscSolver
