import Verif.Model.Runners
import Verif.Props.Inputs
import Verif.Props.Csv

/-!
# C56: the rows written by csvrunner, C74: reading them back
-/

namespace DiscSolver

namespace Runners

variable {F σ : Type}

/-! ## Results in order, whatever the schedule -/

/-- The state of the iterator after the inputs in `fin` finished and `taken` results were
taken. -/
structure ImapInv {α : Type} (res : ℕ → α) (fin : List ℕ) (taken : ℕ) (m : Imap α) :
    Prop where
  before : ∀ i < m.index, i ∈ fin
  taken_le : taken ≤ m.index
  items : m.items = (List.range' taken (m.index - taken)).map res
  early : ∀ i, m.unsorted.get? i = if i ∈ fin ∧ m.index ≤ i then some (res i) else none
  nodup : m.unsorted.keys.Nodup

theorem length_erase {α : Type} (d : Dict ℕ α) (k : ℕ) (x : α) (h : d.get? k = some x) :
    (d.erase k).length + 1 = d.length := by
  induction d with
  | nil => simp [Dict.get?] at h
  | cons p d ih =>
    obtain ⟨a, v⟩ := p
    by_cases ha : a = k
    · simp [Dict.erase, ha]
    · simp only [Dict.get?, if_neg ha] at h
      simp only [Dict.erase, if_neg ha, List.length_cons]
      rw [ih h]

theorem nodup_erase {α : Type} (d : Dict ℕ α) (k : ℕ) (h : d.keys.Nodup) :
    (d.erase k).keys.Nodup := by
  induction d with
  | nil => exact h
  | cons p d ih =>
    obtain ⟨a, v⟩ := p
    obtain ⟨h1, h2⟩ := List.nodup_cons.1 h
    by_cases ha : a = k
    · rw [Dict.erase, if_pos ha]
      exact h2
    · simp only [Dict.erase, if_neg ha]
      refine List.nodup_cons.2 ⟨?_, ih h2⟩
      intro hm
      apply h1
      have : ∀ d : Dict ℕ α, ∀ x ∈ (d.erase k).keys, x ∈ d.keys := by
        intro d
        induction d with
        | nil => intro x hx; exact hx
        | cons q d ihd =>
          obtain ⟨b, w⟩ := q
          intro x hx
          by_cases hb : b = k
          · simp only [Dict.erase, if_pos hb] at hx
            exact List.mem_cons_of_mem _ hx
          · simp only [Dict.erase, if_neg hb] at hx
            rcases List.mem_cons.1 hx with hx | hx
            · exact List.mem_cons.2 (Or.inl hx)
            · exact List.mem_cons_of_mem _ (ihd x hx)
      exact this d a hm

theorem flush_inv {α : Type} (res : ℕ → α) (fin : List ℕ) (taken n : ℕ) (m : Imap α)
    (h : ImapInv res fin taken m) (hn : m.unsorted.length ≤ n) :
    ImapInv res fin taken (Imap.flush n m) ∧ (Imap.flush n m).index ∉ fin := by
  induction n generalizing m with
  | zero =>
    have h0 : m.unsorted = [] := List.length_eq_zero_iff.1 (Nat.le_zero.1 hn)
    refine ⟨h, fun hm => ?_⟩
    have := h.early m.index
    rw [if_pos ⟨hm, le_rfl⟩, h0] at this
    simp [Dict.get?] at this
  | succ n ih =>
    have he := h.early m.index
    cases hg : m.unsorted.get? m.index with
    | none =>
      simp only [Imap.flush, hg]
      refine ⟨h, fun hm => ?_⟩
      rw [if_pos ⟨hm, le_rfl⟩, hg] at he
      cases he
    | some x =>
      simp only [Imap.flush, hg]
      have hm : m.index ∈ fin ∧ x = res m.index := by
        rw [hg] at he
        split_ifs at he with hc
        injection he with he
        exact ⟨hc.1, he⟩
      refine ih ⟨m.index + 1, m.items ++ [x], m.unsorted.erase m.index⟩
        ⟨?_, ?_, ?_, ?_, ?_⟩ ?_
      · intro i hi
        simp only at hi
        rcases Nat.lt_succ_iff_lt_or_eq.1 hi with hi | rfl
        · exact h.before i hi
        · exact hm.1
      · exact Nat.le_succ_of_le h.taken_le
      · simp only
        rw [h.items, hm.2, Nat.succ_sub h.taken_le, List.range'_1_concat, List.map_append,
          Nat.add_sub_cancel' h.taken_le]
        rfl
      · intro i
        simp only
        rw [Dict.get?_erase _ _ _ h.nodup, h.early i]
        by_cases hi : m.index = i
        · subst hi
          simp
        · have : (m.index + 1 ≤ i) ↔ m.index ≤ i := by omega
          simp [hi, this]
      · exact nodup_erase _ _ h.nodup
      · have := length_erase m.unsorted m.index x hg
        simp only
        omega

/-- The iterator has moved past every finished input it could. -/
structure ImapOk {α : Type} (res : ℕ → α) (fin : List ℕ) (taken : ℕ) (m : Imap α) :
    Prop extends ImapInv res fin taken m where
  stuck : m.index ∉ fin

theorem set_ok {α : Type} (res : ℕ → α) (fin : List ℕ) (taken : ℕ) (m : Imap α)
    (h : ImapOk res fin taken m) (i : ℕ) (hi : i ∉ fin) :
    ImapOk res (i :: fin) taken (m.set i (res i)) := by
  unfold Imap.set
  by_cases he : m.index = i
  · subst he
    rw [if_pos rfl]
    have key : ImapInv res (m.index :: fin) taken
        { m with index := m.index + 1, items := m.items ++ [res m.index] } := by
      refine ⟨?_, Nat.le_succ_of_le h.taken_le, ?_, ?_, h.nodup⟩
      · intro j hj
        simp only at hj
        rcases Nat.lt_succ_iff_lt_or_eq.1 hj with hj | rfl
        · exact List.mem_cons_of_mem _ (h.before j hj)
        · simp
      · simp only
        rw [h.items, Nat.succ_sub h.taken_le, List.range'_1_concat, List.map_append,
          Nat.add_sub_cancel' h.taken_le]
        rfl
      · intro j
        simp only
        rw [h.early j]
        by_cases hj : j = m.index
        · subst hj
          simp [hi]
        · have : (m.index + 1 ≤ j) ↔ m.index ≤ j := by omega
          simp [hj, this]
    obtain ⟨h1, h2⟩ := flush_inv res _ taken m.unsorted.length _ key le_rfl
    exact ⟨h1, h2⟩
  · rw [if_neg he]
    refine ⟨⟨fun j hj => List.mem_cons_of_mem _ (h.before j hj), h.taken_le, h.items, ?_,
      Dict.nodup_set _ _ _ h.nodup⟩, ?_⟩
    · intro j
      simp only
      rw [Dict.get?_set]
      by_cases hj : i = j
      · subst hj
        have hlt : m.index ≤ i := by
          by_contra hlt
          exact hi (h.before i (by omega))
        simp [hlt]
      · have hj' : ¬ j = i := fun e => hj e.symm
        simp [hj, hj', h.early j]
    · simp only [List.mem_cons, not_or]
      exact ⟨he, h.stuck⟩

/-- The successes among results. -/
def successes {α : Type} : List (Except PyErr (Option α)) → List α
  | [] => []
  | .ok (some s) :: l => s :: successes l
  | _ :: l => successes l

theorem successes_append {α : Type} (l r : List (Except PyErr (Option α))) :
    successes (l ++ r) = successes l ++ successes r := by
  induction l with
  | nil => rfl
  | cons x l ih =>
    rcases x with e | _ | s
    · exact ih
    · exact ih
    · simp [successes, ih]

/-- The text of rows. -/
def rowsText (C : Conv F) (l : List (SolutionInput F)) : Text :=
  (l.map fun s => Csv.writeRow (csvRow C s)).flatten

theorem rowsText_append (C : Conv F) (l r : List (SolutionInput F)) :
    rowsText C (l ++ r) = rowsText C l ++ rowsText C r := by
  simp [rowsText]

/-- No result raised. -/
def NoRaise {α : Type} (res : ℕ → Except PyErr (Option α)) (n : ℕ) : Prop :=
  ∀ i < n, ∀ e, res i ≠ .error e

/-- The main process after some events. -/
structure MainOk (C : Conv F) (res : ℕ → Except PyErr (Option (SolutionInput F)))
    (fin : List ℕ) (base : Text) (m : Main (Except PyErr (Option (SolutionInput F)))) :
    Prop where
  imap : ImapOk res fin m.taken m.imap
  out : m.out = base ++ rowsText C (successes ((List.range m.taken).map res))
  running : m.raised = none → NoRaise res m.taken
  stopped : ∀ e, m.raised = some e → ∃ k, m.taken = k + 1 ∧ NoRaise res k ∧ res k = .error e

/-- The inputs that finish in a list of events. -/
def finished : List Event → List ℕ
  | [] => []
  | .finish i :: l => i :: finished l
  | .take :: l => finished l

theorem step_ok (C : Conv F) (res : ℕ → Except PyErr (Option (SolutionInput F)))
    (fin : List ℕ) (base : Text) (m : Main (Except PyErr (Option (SolutionInput F))))
    (h : MainOk C res fin base m) (ev : Event) (hev : ∀ i, ev = .finish i → i ∉ fin) :
    MainOk C res (finished [ev] ++ fin) base (m.step C res ev) := by
  cases ev with
  | finish i =>
    exact ⟨set_ok res fin m.taken m.imap h.imap i (hev i rfl), h.out, h.running, h.stopped⟩
  | take =>
    have hfin : finished [Event.take] ++ fin = fin := rfl
    rw [hfin]
    unfold Main.step
    cases hr : m.raised with
    | some e => simpa [hr] using h
    | none =>
      cases hi : m.imap.items with
      | nil => simpa [hr, hi] using h
      | cons x l =>
        simp only
        have hitems := h.imap.items
        rw [hi] at hitems
        have hlt : m.taken < m.imap.index := by
          by_contra hge
          have : m.imap.index - m.taken = 0 := by omega
          rw [this] at hitems
          simp at hitems
        obtain ⟨d, hd⟩ : ∃ d, m.imap.index - m.taken = d + 1 :=
          ⟨m.imap.index - m.taken - 1, by omega⟩
        rw [hd, List.range'_succ, List.map_cons, List.cons.injEq] at hitems
        obtain ⟨hx, hl⟩ := hitems
        have himap : ImapOk res fin (m.taken + 1) { m.imap with items := l } := by
          refine ⟨⟨h.imap.before, hlt, ?_, h.imap.early, h.imap.nodup⟩, h.imap.stuck⟩
          simp only
          rw [hl]
          congr 2
          omega
        have hsplit : (List.range (m.taken + 1)).map res =
            (List.range m.taken).map res ++ [res m.taken] := by
          rw [List.range_succ, List.map_append]
          rfl
        have hno := h.running hr
        have hno' : ∀ v, res m.taken = .ok v → NoRaise res (m.taken + 1) := by
          intro v hv i hi e he
          rcases Nat.lt_succ_iff_lt_or_eq.1 hi with hi | rfl
          · exact hno i hi e he
          · rw [hv] at he; cases he
        rcases x with e | _ | s
        · refine ⟨himap, ?_, ?_, ?_⟩
          · simp only [Main.handle]
            rw [hsplit, successes_append, ← hx, h.out]
            simp [successes]
          · intro hc; simp [Main.handle] at hc
          · intro e' he'
            simp only [Main.handle, Option.some.injEq] at he'
            subst he'
            exact ⟨m.taken, rfl, hno, hx.symm⟩
        · refine ⟨himap, ?_, fun _ => hno' _ hx.symm, ?_⟩
          · simp only [Main.handle]
            rw [hsplit, successes_append, ← hx, h.out]
            simp [successes]
          · intro e' he'
            simp [Main.handle] at he'
        · refine ⟨himap, ?_, fun _ => hno' _ hx.symm, ?_⟩
          · simp only [Main.handle]
            rw [hsplit, successes_append, ← hx, h.out, rowsText_append]
            simp [successes, rowsText]
          · intro e' he'
            simp [Main.handle] at he'

theorem finished_cons (ev : Event) (l : List Event) :
    finished (ev :: l) = finished [ev] ++ finished l := by
  cases ev <;> rfl

theorem events_ok (C : Conv F) (res : ℕ → Except PyErr (Option (SolutionInput F)))
    (base : Text) (events : List Event) (hn : (finished events).Nodup) :
    ∃ fin, fin.Perm (finished events) ∧
      MainOk C res fin base (events.foldl (Main.step C res) { out := base }) := by
  have key : ∀ (events : List Event) (fin : List ℕ)
      (m : Main (Except PyErr (Option (SolutionInput F)))), MainOk C res fin base m →
      (finished events).Nodup → (∀ i ∈ finished events, i ∉ fin) →
      ∃ fin', fin'.Perm (finished events ++ fin) ∧
        MainOk C res fin' base (events.foldl (Main.step C res) m) := by
    intro events
    induction events with
    | nil => intro fin m h _ _; exact ⟨fin, List.Perm.refl _, h⟩
    | cons ev l ih =>
      intro fin m h hn hd
      rw [finished_cons] at hn hd ⊢
      have hstep := step_ok C res fin base m h ev (by
        rintro i rfl
        exact hd i (by simp [finished]))
      obtain ⟨fin', hp, hm⟩ := ih _ _ hstep (List.nodup_append.1 hn).2.1 (by
        intro i hi hmem
        rcases List.mem_append.1 hmem with hmem | hmem
        · exact (List.nodup_append.1 hn).2.2 i hmem i hi rfl
        · exact hd i (List.mem_append.2 (Or.inr hi)) hmem)
      refine ⟨fin', hp.trans ?_, hm⟩
      rw [← List.append_assoc]
      exact List.Perm.append_right _ List.perm_append_comm
  obtain ⟨fin, hp, hm⟩ := key events [] { out := base } (by
    refine ⟨⟨⟨by simp, le_rfl, by simp, by simp [Dict.get?], ?_⟩, by simp⟩, ?_, ?_, ?_⟩
    · exact List.nodup_nil
    · simp [successes, rowsText]
    · intro _ i hi; simp at hi
    · intro e he; cases he) hn (by simp)
  exact ⟨fin, by simpa using hp, hm⟩

/-- The result for each input. -/
def results (C : Conv F) (input : σ → SolutionInput F) (impl : ℕ → String → Solver F σ)
    (method : String) (overrides : Option Overrides)
    (inputs : List (Dict Text (Option Text))) :
    ℕ → Except PyErr (Option (SolutionInput F)) :=
  fun i => csv_find C input (impl i) method overrides (inputs.getD i [])

/-- C56. At every moment, whatever the order in which the workers finish, the output is
what was there before, the preamble, and one row for each success among the first inputs,
in the order of the inputs. -/
theorem csvrunner_rows (C : Conv F) (input : σ → SolutionInput F)
    (impl : ℕ → String → Solver F σ) (method : String) (overrides : Option Overrides)
    (inputs : List (Dict Text (Option Text))) (before preamble : Text)
    (events : List Event) (hn : (finished events).Nodup)
    (hlt : ∀ i ∈ finished events, i < inputs.length) :
    let m := csvrunner C input impl method overrides inputs before preamble events
    let res := results C input impl method overrides inputs
    m.taken ≤ inputs.length ∧
    m.out = before ++ preamble ++ rowsText C (successes ((List.range m.taken).map res)) ∧
    (m.raised = none → NoRaise res m.taken) ∧
    (∀ e, m.raised = some e → ∃ k, m.taken = k + 1 ∧ NoRaise res k ∧
      res k = .error e) := by
  intro m res
  obtain ⟨fin, hp, hm⟩ := events_ok C res (before ++ preamble) events hn
  refine ⟨?_, hm.out, hm.running, hm.stopped⟩
  by_contra hgt
  have h1 : inputs.length ∈ fin :=
    hm.imap.before _ (lt_of_lt_of_le (not_le.1 hgt) hm.imap.taken_le)
  exact absurd (hlt _ (hp.mem_iff.1 h1)) (lt_irrefl _)

/-- C56. No deadlock: when every input has finished and nothing was raised, a result can
be taken until all are. -/
theorem csvrunner_progress (C : Conv F) (input : σ → SolutionInput F)
    (impl : ℕ → String → Solver F σ) (method : String) (overrides : Option Overrides)
    (inputs : List (Dict Text (Option Text))) (before preamble : Text)
    (events : List Event) (hn : (finished events).Nodup)
    (hall : ∀ i < inputs.length, i ∈ finished events) :
    let m := csvrunner C input impl method overrides inputs before preamble events
    m.raised = none → m.taken < inputs.length →
    (m.step C (results C input impl method overrides inputs) .take).taken = m.taken + 1 := by
  intro m hr hlt
  obtain ⟨fin, hp, hm⟩ := events_ok C (results C input impl method overrides inputs)
    (before ++ preamble) events hn
  have hidx : inputs.length ≤ m.imap.index := by
    by_contra hlt'
    exact hm.imap.stuck (hp.mem_iff.2 (hall _ (not_le.1 hlt')))
  have hitems := hm.imap.items
  cases hi : m.imap.items with
  | nil =>
    have : (m.imap.items).length = m.imap.index - m.taken := by
      rw [show m.imap.items = _ from hitems]
      simp
      rfl
    rw [hi] at this
    simp at this
    omega
  | cons x l =>
    unfold Main.step
    rw [hr, hi]
    rcases x with e | _ | s <;> rfl

/-- C56, what holds: when no worker raises, a finished csvrunner has written exactly one
row for each success, in the order of the inputs, whatever the schedule; inputs without
success leave the other rows as they are. -/
theorem csvrunner_complete_partial (C : Conv F) (input : σ → SolutionInput F)
    (impl : ℕ → String → Solver F σ) (method : String) (overrides : Option Overrides)
    (inputs : List (Dict Text (Option Text))) (before preamble : Text)
    (events : List Event) (hn : (finished events).Nodup)
    (hlt : ∀ i ∈ finished events, i < inputs.length)
    (hno : NoRaise (results C input impl method overrides inputs) inputs.length)
    (hdone : (csvrunner C input impl method overrides inputs before preamble events).taken =
      inputs.length) :
    (csvrunner C input impl method overrides inputs before preamble events).out =
      before ++ preamble ++ rowsText C (successes
        ((List.range inputs.length).map (results C input impl method overrides inputs))) ∧
    (csvrunner C input impl method overrides inputs before preamble events).raised =
      none := by
  obtain ⟨-, h2, -, h4⟩ := csvrunner_rows C input impl method overrides inputs before
    preamble events hn hlt
  rw [hdone] at h2 h4
  refine ⟨h2, ?_⟩
  cases hr : (csvrunner C input impl method overrides inputs before preamble
      events).raised with
  | none => rfl
  | some e =>
    obtain ⟨k, hk, -, hek⟩ := h4 e hr
    exact absurd hek (hno k (by omega) e)

/-- C56 is false of the code when a worker raises: the first input, in order, whose
worker raises ends csvrunner with that exception, and the rows of all later inputs are
lost, even of those that succeeded. -/
theorem csvrunner_raise_stops (C : Conv F) (input : σ → SolutionInput F)
    (impl : ℕ → String → Solver F σ) (method : String) (overrides : Option Overrides)
    (inputs : List (Dict Text (Option Text))) (before preamble : Text)
    (events : List Event) (hn : (finished events).Nodup)
    (hlt : ∀ i ∈ finished events, i < inputs.length) (k : ℕ) (e : PyErr)
    (hno : NoRaise (results C input impl method overrides inputs) k)
    (he : results C input impl method overrides inputs k = .error e) :
    let m := csvrunner C input impl method overrides inputs before preamble events
    m.taken ≤ k + 1 ∧ (m.taken = k + 1 → m.raised = some e ∧
      m.out = before ++ preamble ++ rowsText C (successes
        ((List.range k).map (results C input impl method overrides inputs)))) := by
  intro m
  obtain ⟨-, h2, h3, h4⟩ := csvrunner_rows C input impl method overrides inputs before
    preamble events hn hlt
  have hle : m.taken ≤ k + 1 := by
    by_contra hgt
    cases hr : m.raised with
    | none => exact h3 hr k (by change k < m.taken; omega) e he
    | some e' =>
      obtain ⟨j, hj, hnj, -⟩ := h4 e' hr
      exact hnj k (by change m.taken = j + 1 at hj; omega) e he
  refine ⟨hle, fun ht => ?_⟩
  have h2' : m.out = _ := h2
  cases hr : m.raised with
  | none => exact absurd he (h3 hr k (by change k < m.taken; omega) e)
  | some e' =>
    obtain ⟨j, hj, -, hje⟩ := h4 e' hr
    have hjk : j = k := by change m.taken = j + 1 at hj; omega
    subst hjk
    rw [he] at hje
    injection hje with hje
    subst hje
    refine ⟨rfl, ?_⟩
    rw [h2']
    rw [show (csvrunner C input impl method overrides inputs before preamble events).taken =
      j + 1 from ht, List.range_succ, List.map_append, successes_append]
    simp [successes, he]

/-! ## What counts as a success -/

/-- C56. An input gives a row exactly when the method is known, the row can be read, and
the solver succeeds with a final solution; the row is the input of that solution. -/
theorem csv_find_some (C : Conv F) (input : σ → SolutionInput F)
    (impl : String → Solver F σ) (method : String) (overrides : Option Overrides)
    (d : Dict Text (Option Text)) (s : SolutionInput F) :
    csv_find C input impl method overrides d = .ok (some s) ↔
      method ∈ methodNames ∧ ∃ (inp : SolutionInput F) (run run' : TheRun F σ) (sol : σ),
        row_inputs C method overrides d = .ok (inp, run) ∧
        impl method inp run = (.ok true, run') ∧ run'.final = .value (some sol) ∧
        input sol = s := by
  unfold csv_find getMethod
  by_cases hm : method ∈ methodNames
  · rw [if_pos hm]
    simp only [hm, true_and]
    cases hr : row_inputs (σ := σ) C method overrides d with
    | error x => simp
    | ok p =>
      obtain ⟨inp, run⟩ := p
      simp only [Except.ok.injEq, Prod.mk.injEq]
      rcases hs : impl method inp run with ⟨x, run'⟩
      constructor
      · intro h
        refine ⟨inp, run, run', ?_⟩
        rcases x with x | b
        · cases x <;> simp [csv_result] at h
        · cases b with
          | false => simp [csv_result] at h
          | true =>
            simp only [csv_result] at h
            cases hf : run'.final with
            | delayed => simp [hf] at h
            | value v =>
              cases v with
              | none => simp [hf] at h
              | some sol =>
                simp only [hf, Except.ok.injEq, Option.some.injEq] at h
                exact ⟨sol, ⟨rfl, rfl⟩, hs, rfl, h⟩
      · rintro ⟨_, _, run2, sol, ⟨rfl, rfl⟩, h1, h2, h3⟩
        rw [hs] at h1
        simp only [Prod.mk.injEq] at h1
        obtain ⟨rfl, rfl⟩ := h1
        simp [csv_result, h2, h3]
  · simp [hm]

/-- C56. A solver that fails with `SolverError`, is unsuccessful, or leaves no final
solution gives no row and raises nothing. -/
theorem csv_find_none (C : Conv F) (input : σ → SolutionInput F)
    (impl : String → Solver F σ) (method : String) (overrides : Option Overrides)
    (d : Dict Text (Option Text)) (inp : SolutionInput F) (run run' : TheRun F σ)
    (x : Except PyErr Bool) (hm : method ∈ methodNames)
    (hr : row_inputs C method overrides d = .ok (inp, run))
    (hs : impl method inp run = (x, run'))
    (hx : x = .error .SolverError ∨ x = .ok false ∨
      (x = .ok true ∧ run'.final = .value none)) :
    csv_find C input impl method overrides d = .ok none := by
  unfold csv_find getMethod
  rw [if_pos hm]
  simp only [hr, hs]
  rcases hx with rfl | rfl | ⟨rfl, h⟩
  · rfl
  · rfl
  · simp [csv_result, h]

/-- C56 is false of the code: a row that lacks a required column, or holds a value that
cannot be read, raises, as do other exceptions of the solver. -/
theorem csv_find_raises (C : Conv F) (input : σ → SolutionInput F)
    (impl : String → Solver F σ) (method : String) (overrides : Option Overrides)
    (d : Dict Text (Option Text)) (x : PyErr) :
    (row_inputs (σ := σ) C method overrides d = .error x → method ∈ methodNames →
      csv_find C input impl method overrides d = .error x) ∧
    (∀ inp run run', row_inputs C method overrides d = .ok (inp, run) →
      method ∈ methodNames → impl method inp run = (.error x, run') → x ≠ .SolverError →
      csv_find C input impl method overrides d = .error x) ∧
    (method ∉ methodNames →
      csv_find C input impl method overrides d = .error .SolverError) := by
  unfold csv_find getMethod
  refine ⟨fun h hm => ?_, fun inp run run' h hm hs hx => ?_, fun hm => ?_⟩
  · rw [if_pos hm]
    simp only [h]
  · rw [if_pos hm]
    simp only [h, hs]
    cases x <;> first | rfl | exact absurd rfl hx
  · rw [if_neg hm]

/-! ## A concrete run -/

/-- A row with all required columns. -/
def witRow (g : Text) : Dict Text (Option Text) :=
  (CField.all.map fun f => (f.name.toList, some "1".toList)) ++ [("filename".toList, some g)]

/-- A row that lacks the required columns. -/
def badRow : Dict Text (Option Text) := [("γ".toList, some "1".toList)]

/-- Conversions that accept everything. -/
def yesConv : Conv Unit where
  str_to_float _ := some ()
  str_to_int _ := some 1
  str_to_bool _ := .ok true
  float_type _ := .ok ()
  float_str _ := "1".toList
  eval_slice _ := .ok none
  float_eq _ _ := true

/-- A method that fails for the input with number 1 and succeeds for the others. -/
def someImpl : ℕ → String → Solver Unit Unit := fun i _ _ r =>
  if i = 1 then (.error .SolverError, r) else (.ok true, { r with final := .value (some ()) })

/-- Three inputs finishing out of order. -/
def witEvents : List Event :=
  [.finish 2, .take, .finish 0, .take, .take, .finish 1, .take, .take]

theorem wit_results :
    results yesConv (fun _ : Unit => fun _ => .none) someImpl "step" none
      [witRow [], witRow [], witRow []] 0 = .ok (some fun _ => .none) ∧
    results yesConv (fun _ : Unit => fun _ => .none) someImpl "step" none
      [witRow [], witRow [], witRow []] 1 = .ok none ∧
    results yesConv (fun _ : Unit => fun _ => .none) someImpl "step" none
      [witRow [], witRow [], witRow []] 2 = .ok (some fun _ => .none) :=
  ⟨rfl, rfl, rfl⟩

theorem wit_taken : (csvrunner yesConv (fun _ : Unit => fun _ => .none) someImpl "step" none
    [witRow [], witRow [], witRow []] [] [] witEvents).taken = 3 := rfl

example := csvrunner_rows yesConv (fun _ : Unit => fun _ => .none) someImpl "step" none
  [witRow [], witRow [], witRow []] [] [] witEvents (by decide) (by decide)

/-- Before the last row is taken. -/
example := csvrunner_progress yesConv (fun _ : Unit => fun _ => .none) someImpl "step" none
  [witRow [], witRow [], witRow []] [] [] [.finish 2, .finish 0, .take, .finish 1, .take]
  (by decide) (by decide) rfl (by decide)

example := csv_find_none yesConv (fun _ : Unit => fun _ => .none) (someImpl 1) "step" none
  (witRow []) _ _ _ _ (by decide) rfl rfl (Or.inl rfl)

example := (csv_find_raises yesConv (fun _ : Unit => fun _ => .none) (someImpl 0) "step" none
  badRow .TypeError).1 rfl (by decide)

example := csvrunner_complete_partial yesConv (fun _ : Unit => fun _ => .none) someImpl
  "step" none [witRow [], witRow [], witRow []] [] [] witEvents (by decide) (by decide)
  (by
    intro i hi e
    have : i = 0 ∨ i = 1 ∨ i = 2 := by simp at hi; omega
    obtain ⟨h0, h1, h2⟩ := wit_results
    rcases this with rfl | rfl | rfl
    · rw [h0]; simp
    · rw [h1]; simp
    · rw [h2]; simp) wit_taken

/-- With a bad row in the middle, the success after it is lost. -/
theorem wit_raises :
    results yesConv (fun _ : Unit => fun _ => .none) someImpl "step" none
      [witRow [], badRow, witRow []] 0 = .ok (some fun _ => .none) ∧
    results yesConv (fun _ : Unit => fun _ => .none) someImpl "step" none
      [witRow [], badRow, witRow []] 1 = .error .TypeError ∧
    results yesConv (fun _ : Unit => fun _ => .none) someImpl "step" none
      [witRow [], badRow, witRow []] 2 = .ok (some fun _ => .none) :=
  ⟨rfl, rfl, rfl⟩

example := csvrunner_raise_stops yesConv (fun _ : Unit => fun _ => .none) someImpl
  "step" none [witRow [], badRow, witRow []] [] [] witEvents (by decide) (by decide) 1
  .TypeError
  (by
    intro i hi e
    have : i = 0 := by omega
    subst this
    rw [wit_raises.1]; simp) wit_raises.2.1

example : (csvrunner yesConv (fun _ : Unit => fun _ => .none) someImpl "step" none
    [witRow [], badRow, witRow []] [] [] witEvents).taken = 2 := rfl

/-! ## C74: reading the output back -/

/-- How Python shows a part of a slice. -/
def shownItem : Option Int → String
  | none => "None"
  | some n => toString n

/-- How Python shows a slice. -/
def shownSlice (s : PySlice) : String :=
  s!"slice({shownItem s.start}, {shownItem s.stop}, {shownItem s.step})"

/-- `eval` reads a slice from the text Python shows for it. -/
def EvalSlices (C : Conv F) : Prop :=
  ∀ sl, C.eval_slice (shownSlice sl).toList = .ok (some sl)

theorem shownItem_eq (x : Option Int) : (shownItem x).toList = sliceItem x := by
  cases x with
  | none => rfl
  | some n =>
    simp only [shownItem, sliceItem, Text.ofInt]
    cases n with
    | ofNat n =>
      rw [if_neg (by simp)]
      simp [toString, Int.repr, Nat.repr]
    | negSucc n =>
      rw [if_pos (Int.negSucc_lt_zero n)]
      simp [toString, Int.repr, Nat.repr]

theorem shownSlice_eq (sl : PySlice) : (shownSlice sl).toList = sliceRepr sl := by
  simp only [shownSlice, sliceRepr, ← shownItem_eq, toString, String.toList_append,
    List.append_assoc]

theorem EvalSlices.repr {C : Conv F} (h : EvalSlices C) (sl : PySlice) :
    C.eval_slice (sliceRepr sl) = .ok (some sl) := by
  rw [← shownSlice_eq]
  exact h sl

theorem headerRow_get (j : ℕ) (f : SField) (h : SField.all[j]? = some f) :
    headerRow[j]? = some f.name.toList := by
  simp [headerRow, h]

theorem csvRow_get (C : Conv F) (s : SolutionInput F) (j : ℕ) (f : SField)
    (h : SField.all[j]? = some f) : (csvRow C s)[j]? = some (csvStr C (s f)) := by
  simp [csvRow, h]

theorem mem_all (f : SField) : f ∈ SField.all := by cases f <;> decide

theorem name_ne_label (f : SField) : f.name.toList ≠ "label".toList := by
  cases f <;> decide

theorem name_column (f : SField) : Csv.Known f.name.toList :=
  Or.inl ⟨.s f, rfl⟩

theorem headerRow_nodup : headerRow.Nodup := by decide

theorem input_get (C : Conv F) (s : SolutionInput F) (label : Text)
    (d : Dict Text (Option Text)) (h : Csv.IsInput headerRow (csvRow C s) label d)
    (f : SField) : d.get? f.name.toList = some (some (csvStr C (s f))) := by
  obtain ⟨j, hj⟩ := List.mem_iff_getElem?.1 (mem_all f)
  rw [h.column j _ (headerRow_get j f hj) (name_ne_label f) (name_column f),
    csvRow_get C s j f hj]

theorem erase_absent {κ β : Type} [DecidableEq κ] (d : Dict κ β) (k : κ)
    (h : d.get? k = none) : d.erase k = d := by
  induction d with
  | nil => rfl
  | cons p d ih =>
    obtain ⟨a, v⟩ := p
    by_cases ha : a = k
    · simp [Dict.get?, ha] at h
    · simp only [Dict.get?, if_neg ha] at h
      simp only [Dict.erase, if_neg ha, ih h]

/-- The values a field of a solution input can hold and be read back from a row: those
of its kind, with a selection of variables that is not empty. -/
def Readable (s : SolutionInput F) : Prop :=
  ∀ f, Typed f (s f) ∧ s f ≠ .mcmc ⟨false, false, false⟩

theorem read_cell (C : Conv F) (hC : Faithful C)
    (he : EvalSlices C) (f : SField) (v : SVal F)
    (ht : Typed f v) (hm : v ≠ .mcmc ⟨false, false, false⟩) :
    readField C f.kind (ConfigInput.mk (fun _ => some (csvStr C v)) (.s f)) = .ok v := by
  have hmk : ∀ t : Text, t ≠ [] →
      ConfigInput.mk (fun _ => some t) (.s f) = some t := by
    intro t hn
    unfold ConfigInput.mk
    split_ifs
    · exact replace_of_ne hn
    · rfl
  have hnone : v = .none →
      ConfigInput.mk (fun _ => some (csvStr C v)) (.s f) = some Text.none := by
    rintro rfl
    have hcv : CField.hasConverter (.s f) = true := by
      unfold Typed at ht
      cases f <;> first | rfl | exact absurd ht (by simp [SField.kind, KindOf])
    simp only [ConfigInput.mk, hcv, if_true]
    rfl
  by_cases hv : v = .none
  · rw [hnone hv]
    subst hv
    unfold Typed at ht
    generalize f.kind = k at ht
    cases k <;> simp only [KindOf] at ht <;>
      simp [readField, str_to_slice, mcmc_vars_str_to_obj]
  · by_cases hk : f.kind = .slice
    · unfold Typed at ht
      rw [hk] at ht ⊢
      cases v <;> simp only [KindOf] at ht
      · next sl =>
        have hne : csvStr C (.slice sl : SVal F) ≠ [] := by
          intro h
          have := congrArg List.head? h
          cases this
        have hnn : sliceRepr sl ≠ Text.none := by
          intro h
          have := congrArg List.head? h
          rw [show (sliceRepr sl).head? = some 's' from rfl] at this
          exact absurd this (by decide)
        have hp : "slice(".toList.isPrefixOf (sliceRepr sl) = true :=
          List.isPrefixOf_iff_prefix.2 (List.prefix_append _ _)
        rw [hmk _ hne]
        simp only [csvStr, readField, str_to_slice, if_neg hnn, hp, if_true, he.repr]
      · exact absurd rfl hv
    · by_cases hc : f.kind = .mcmc
      · unfold Typed at ht
        rw [hc] at ht ⊢
        cases v <;> simp only [KindOf] at ht
        · next m =>
          have h1 : m.with_v_r = true ∨ m.with_v_a = true ∨ m.with_v_k = true := by
            obtain ⟨a, b, d⟩ := m
            cases a <;> cases b <;> cases d <;> simp_all
          have hne : csvStr C (.mcmc m : SVal F) ≠ [] := by
            change MCMCVars.str m ≠ []
            clear hm hnone hv
            obtain ⟨a, b, d⟩ := m
            revert h1
            cases a <;> cases b <;> cases d <;> decide
          rw [hmk _ hne]
          simp only [csvStr, SVal.pyStr, readField, mcmc_text_round_trip]
        · exact absurd rfl hv
      · have hstr : csvStr C v = v.pyStr C := by
          unfold Typed at ht
          cases v
          case none => exact absurd rfl hv
          case slice sl => exact absurd ht (by cases f <;> simp_all [SField.kind, KindOf])
          all_goals rfl
        rw [hstr]
        by_cases hs : f.kind = .str
        · have hf : f = .split_method := by cases f <;> simp [SField.kind] at hs ⊢
          subst hf
          exact readField_pyStr C hC _ v hk hc ht
        · rw [hmk _ (pyStr_ne_nil C hC f v hk hc hs ht)]
          exact readField_pyStr C hC f v hk hc ht

theorem ofDict_row (C : Conv F) (s : SolutionInput F) (label : Text)
    (d : Dict Text (Option Text)) (h : Csv.IsInput headerRow (csvRow C s) label d) :
    ConfigInput.ofDict (withoutIds d) = .ok (ConfigInput.mk fun
      | .label => some label
      | .s f => some (csvStr C (s f))) := by
  have hf : d.get? "filename".toList = none := h.other _ (by decide) (Or.inl (by decide))
  have hs : d.get? "solution_name".toList = none :=
    h.other _ (by decide) (Or.inl (by decide))
  have hd : withoutIds d = d := by
    unfold withoutIds
    rw [erase_absent _ _ hf, erase_absent _ _ hs]
  have hall : (d.keys.all (fun k => decide (k ∈ CField.all.map fun f => f.name.toList)) &&
      CField.all.all (fun f => !CField.required f || decide (f.name.toList ∈ d.keys))) =
      true := by
    rw [Bool.and_eq_true, List.all_eq_true, List.all_eq_true]
    constructor
    · intro k hk
      refine decide_eq_true ?_
      by_contra hn
      have hlab : k ≠ "label".toList := by
        rintro rfl
        exact hn (by decide)
      have hhead : k ∉ headerRow := by
        intro hm
        obtain ⟨f, -, rfl⟩ := List.mem_map.1 hm
        exact hn (List.mem_map.2 ⟨.s f, by cases f <;> decide, rfl⟩)
      have := h.other k hlab (Or.inl hhead)
      exact (Dict.get?_eq_none_iff _ _).1 this hk
    · intro f _
      rw [Bool.or_eq_true]
      right
      refine decide_eq_true ?_
      by_contra hn
      have := (Dict.get?_eq_none_iff _ _).2 hn
      cases f with
      | label => rw [show CField.label.name.toList = "label".toList from rfl, h.label] at this
                 cases this
      | s f => rw [show (CField.s f).name.toList = f.name.toList from rfl,
                 input_get C s label d h f] at this
               cases this
  rw [hd]
  unfold ConfigInput.ofDict
  rw [if_pos hall]
  congr 2
  funext f
  cases f with
  | label => rw [show CField.label.name.toList = "label".toList from rfl, h.label]; rfl
  | s f => rw [show (CField.s f).name.toList = f.name.toList from rfl,
             input_get C s label d h f]; rfl

/-- C74. A row written by csvrunner, read back as an input row, gives the same solution
input, with the label given when reading. -/
theorem csv_row_round_trip (C : Conv F) (hC : Faithful C)
    (he : EvalSlices C) (s : SolutionInput F)
    (hs : Readable s) (label : Text) (method : String) (d : Dict Text (Option Text))
    (h : Csv.IsInput headerRow (csvRow C s) label d) :
    ∃ run : TheRun F σ, row_inputs C method none d = .ok (s, run) ∧
      run.info.config_input .label = some label := by
  unfold row_inputs
  rw [ofDict_row C s label d h]
  simp only [add_overrides]
  have hr : (ConfigInput.mk fun
      | .label => some label
      | .s f => some (csvStr C (s f))).to_soln_input C = .ok s := by
    rw [to_soln_input_ok]
    intro f
    have := read_cell C hC he f (s f) (hs f).1 (hs f).2
    exact this
  rw [hr]
  exact ⟨_, rfl, rfl⟩

/-! ### Columns which are missing -/

/-- The columns every input needs. -/
def neededColumns : List String :=
  ["start", "stop", "taylor_stop_angle", "max_steps", "num_angles", "label",
   "relative_tolerance", "absolute_tolerance", "γ", "nwalkers", "iterations", "threads",
   "target_velocity", "split_method", "v_rin_on_c_s", "v_a_on_c_s", "c_s_on_v_k", "η_O",
   "η_H", "η_A"]

/-- What is assumed for the other columns. -/
def assumedColumns : List (CField × Option String) :=
  [(.s .η_derivs, some "True"), (.s .jump_before_sonic, none),
   (.s .use_taylor_jump, some "True"), (.s .mcmc_vars, none), (.s .v_θ_sonic_crit, none),
   (.s .after_sonic, none), (.s .sonic_interp_size, none), (.s .interp_range, some "10"),
   (.s .interp_slice, some "-1000,-100"), (.s .use_E_r, some "False")]

theorem ofDict_ok_iff (d : Dict Text (Option Text)) :
    (∃ c, ConfigInput.ofDict d = .ok c) ↔
      (∀ k ∈ d.keys, ∃ f : CField, k = f.name.toList) ∧
      ∀ n ∈ neededColumns, n.toList ∈ d.keys := by
  have h1 : (d.keys.all (fun k => decide (k ∈ CField.all.map fun f => f.name.toList)) = true)
      ↔ ∀ k ∈ d.keys, ∃ f : CField, k = f.name.toList := by
    rw [List.all_eq_true]
    refine forall_congr' fun k => forall_congr' fun _ => ?_
    rw [decide_eq_true_iff, List.mem_map]
    constructor
    · rintro ⟨f, -, rfl⟩; exact ⟨f, rfl⟩
    · rintro ⟨f, rfl⟩
      refine ⟨f, ?_, rfl⟩
      cases f with
      | label => decide
      | s f => cases f <;> decide
  have h2 : (CField.all.all (fun f => !CField.required f || decide (f.name.toList ∈ d.keys))
      = true) ↔ ∀ n ∈ neededColumns, n.toList ∈ d.keys := by
    have : neededColumns = (CField.all.filter CField.required).map CField.name := by decide
    rw [this, List.all_eq_true]
    simp only [List.mem_map, List.mem_filter, Bool.or_eq_true, decide_eq_true_iff,
      Bool.not_eq_true']
    constructor
    · rintro h _ ⟨f, ⟨hf, hr⟩, rfl⟩
      rcases h f hf with h | h
      · rw [hr] at h; cases h
      · exact h
    · intro h f hf
      cases hr : CField.required f with
      | false => exact Or.inl rfl
      | true => exact Or.inr (h _ ⟨f, ⟨hf, hr⟩, rfl⟩)
  unfold ConfigInput.ofDict
  by_cases ha : (d.keys.all (fun k => decide (k ∈ CField.all.map fun f => f.name.toList)) &&
      CField.all.all (fun f => !CField.required f || decide (f.name.toList ∈ d.keys))) = true
  · rw [if_pos ha]
    rw [Bool.and_eq_true, h1, h2] at ha
    exact ⟨fun _ => ha, fun _ => ⟨_, rfl⟩⟩
  · rw [if_neg ha]
    rw [Bool.and_eq_true, h1, h2] at ha
    exact ⟨fun h => (by obtain ⟨_, h⟩ := h; cases h), fun h => absurd h ha⟩

/-- C56. A row without one of the columns every input needs stops the run with
`TypeError`. -/
theorem row_needs (C : Conv F) (method : String) (o : Option Overrides)
    (d : Dict Text (Option Text)) (n : String) (hn : n ∈ neededColumns)
    (h : n.toList ∉ d.keys) :
    row_inputs (σ := σ) C method o d = .error .TypeError := by
  have hk : ∀ k, k ∈ (withoutIds d).keys → k ∈ d.keys := by
    intro k hk
    exact (Dict.keys_erase_sublist _ _).subset ((Dict.keys_erase_sublist _ _).subset hk)
  have hno : ¬ ∃ c, ConfigInput.ofDict (withoutIds d) = .ok c := by
    rw [ofDict_ok_iff]
    rintro ⟨-, h2⟩
    exact h (hk _ (h2 n hn))
  have he : ConfigInput.ofDict (withoutIds d) = .error .TypeError := by
    unfold ConfigInput.ofDict at hno ⊢
    split
    · rename_i ha
      rw [if_pos ha] at hno
      exact absurd ⟨_, rfl⟩ hno
    · rfl
  unfold row_inputs
  rw [he]

example := row_needs (σ := Unit) yesConv "step" none badRow "start" (by decide) (by decide)

/-- C56. For any other column which is missing the documented value is assumed. -/
theorem row_assumes (C : Conv F) (method : String) (d : Dict Text (Option Text))
    (s : SolutionInput F) (run : TheRun F σ)
    (h : row_inputs C method none d = .ok (s, run)) (f : CField) (v : Option String)
    (hf : (f, v) ∈ assumedColumns) (hd : f.name.toList ∉ d.keys) :
    run.info.config_input f = v.map String.toList := by
  unfold row_inputs at h
  cases hc : ConfigInput.ofDict (withoutIds d) with
  | error x => rw [hc] at h; cases h
  | ok c =>
    rw [hc] at h
    simp only [add_overrides] at h
    cases hs : c.to_soln_input C with
    | error x => rw [hs] at h; cases h
    | ok s' =>
      rw [hs] at h
      injection h with h
      injection h with _ h
      rw [← h]
      unfold ConfigInput.ofDict at hc
      split at hc
      case isFalse => cases hc
      injection hc with hc
      rw [← hc]
      have hg : (withoutIds d).get? f.name.toList = none := by
        refine (Dict.get?_eq_none_iff _ _).2 fun hk => hd ?_
        exact (Dict.keys_erase_sublist _ _).subset ((Dict.keys_erase_sublist _ _).subset hk)
      have hall : ∀ p ∈ assumedColumns, (ConfigInput.mk fun f =>
          ((withoutIds d).get? f.name.toList).getD (CField.default f)) p.1 =
            p.2.map String.toList ∨ ¬ (withoutIds d).get? p.1.name.toList = none := by
        intro p hp
        by_cases hq : (withoutIds d).get? p.1.name.toList = none
        · left
          simp only [ConfigInput.mk, hq, Option.getD_none]
          simp only [assumedColumns, List.mem_cons, List.not_mem_nil, or_false] at hp
          rcases hp with rfl | rfl | rfl | rfl | rfl | rfl | rfl | rfl | rfl | rfl <;> rfl
        · exact Or.inr hq
      rcases hall _ hf with h | h
      · exact h
      · exact absurd hg h

/-- A row with the needed columns only. -/
def shortRow : Dict Text (Option Text) := neededColumns.map fun n => (n.toList, some "1".toList)

example : ∃ s run, row_inputs (σ := Unit) yesConv "step" none shortRow = .ok (s, run) ∧
    run.info.config_input (.s .η_derivs) = some "True".toList ∧
    run.info.config_input (.s .use_E_r) = some "False".toList :=
  ⟨_, _, rfl, row_assumes yesConv "step" shortRow _ _ rfl (.s .η_derivs) (some "True")
    (by decide) (by decide), row_assumes yesConv "step" shortRow _ _ rfl (.s .use_E_r)
    (some "False") (by decide) (by decide)⟩

/-! ### Whole files -/

open Csv (Item)

/-- The lines of an output file. -/
def outputItems (C : Conv F) (a b c : Text) (l : List (SolutionInput F)) : List Item :=
  [.comment ("nworkers=".toList ++ a), .comment ("store_internal=".toList ++ b),
    .comment ("sonic_method=".toList ++ c), .row headerRow] ++
    l.map fun s => .row (csvRow C s)

theorem outputItems_text (C : Conv F) (a b c : Text) (l : List (SolutionInput F)) :
    ((outputItems C a b c l).map Item.text).flatten =
      csv_preamble a b c ++ rowsText C l := by
  have : ∀ l : List (SolutionInput F),
      ((l.map fun s => Item.row (csvRow C s)).map Item.text).flatten = rowsText C l := by
    intro l
    induction l with
    | nil => rfl
    | cons s l ih =>
      rw [List.map_cons, List.map_cons, List.flatten_cons, ih]
      rfl
  unfold outputItems
  rw [List.map_append, List.flatten_append, this]
  simp [csv_preamble, Csv.metadataLines, Item.text]

/-- The values are written on one line. -/
def OneLined (C : Conv F) (s : SolutionInput F) : Prop := ∀ f, '\n' ∉ csvStr C (s f)

theorem outputItems_lines (C : Conv F) (a b c : Text) (l : List (SolutionInput F))
    (ha : '\n' ∉ a) (hb : '\n' ∉ b) (hc : '\n' ∉ c) (hl : ∀ s ∈ l, OneLined C s) :
    ∀ i ∈ outputItems C a b c l, i.OneLine := by
  intro i hi
  simp only [outputItems, List.mem_append, List.mem_cons, List.not_mem_nil, or_false,
    List.mem_map] at hi
  rcases hi with (rfl | rfl | rfl | rfl) | ⟨s, hs, rfl⟩
  · simp only [Item.OneLine, List.mem_append, not_or]
    exact ⟨by decide, ha⟩
  · simp only [Item.OneLine, List.mem_append, not_or]
    exact ⟨by decide, hb⟩
  · simp only [Item.OneLine, List.mem_append, not_or]
    exact ⟨by decide, hc⟩
  · simp only [Item.OneLine]
    decide
  · refine ⟨by simp [csvRow, SField.all], ?_⟩
    intro t ht
    obtain ⟨f, -, rfl⟩ := List.mem_map.1 ht
    exact hl s hs f

theorem rowsOf_append (x y : List Item) :
    Csv.rowsOf (x ++ y) = Csv.rowsOf x ++ Csv.rowsOf y := by
  induction x with
  | nil => rfl
  | cons i x ih => cases i <;> simp [Csv.rowsOf, ih]

theorem rowsOf_output (C : Conv F) (a b c : Text) (l : List (SolutionInput F)) :
    Csv.rowsOf (outputItems C a b c l) = headerRow :: l.map (csvRow C) := by
  have : ∀ l : List (SolutionInput F),
      Csv.rowsOf (l.map fun s => Item.row (csvRow C s)) = l.map (csvRow C) := by
    intro l
    induction l with
    | nil => rfl
    | cons s l ih => simp [Csv.rowsOf, ih]
  unfold outputItems
  rw [rowsOf_append, this]
  rfl

/-- C74. A file written by csvrunner, given as the input file of a later run, yields the
same solution inputs in the same order, with the new label. -/
theorem csv_output_round_trip (C : Conv F) (hC : Faithful C)
    (he : EvalSlices C)
    (sniff : Text → Except PyErr (List Text)) (guess : List Text)
    (hsniff : sniff (Csv.writeRow headerRow) = .ok guess) (hg : guess ≠ [])
    (a b c : Text) (ha : '\n' ∉ a) (hb : '\n' ∉ b) (hc : '\n' ∉ c)
    (l : List (SolutionInput F)) (hl : ∀ s ∈ l, Readable s ∧ OneLined C s)
    (label : Text) (method : String) :
    ∃ inputs, Csv.get_csv_inputs sniff
        (Csv.rawLines (csv_preamble a b c ++ rowsText C l)) label = .ok inputs ∧
      List.Forall₂ (fun s d => ∃ run : TheRun F σ,
        row_inputs C method none d = .ok (s, run) ∧
        run.info.config_input .label = some label) l inputs := by
  obtain ⟨inputs, h1, h2⟩ := Csv.csv_file_inputs sniff (outputItems C a b c l) label
    headerRow (l.map (csvRow C)) guess
    (outputItems_lines C a b c l ha hb hc fun s hs => (hl s hs).2)
    (rowsOf_output C a b c l) headerRow_nodup hsniff hg
  rw [outputItems_text] at h1
  refine ⟨inputs, h1, ?_⟩
  clear h1
  rw [List.forall₂_map_left_iff] at h2
  induction h2 with
  | nil => exact .nil
  | cons h _ ih =>
    exact .cons (csv_row_round_trip C hC he _ (hl _ (by simp)).1 label method _ h)
      (ih fun s hs => hl s (by simp [hs]))

/-- C74 is false of the code for a file that csvrunner wrote to twice: output is
appended, and the column names of the second run become an input, whose values are the
column names. -/
theorem csv_appended_header (C : Conv F)
    (sniff : Text → Except PyErr (List Text)) (guess : List Text)
    (hsniff : sniff (Csv.writeRow headerRow) = .ok guess) (hg : guess ≠ [])
    (a b c : Text) (ha : '\n' ∉ a) (hb : '\n' ∉ b) (hc : '\n' ∉ c)
    (l r : List (SolutionInput F)) (hl : ∀ s ∈ l, OneLined C s)
    (hr : ∀ s ∈ r, OneLined C s) (label : Text) :
    ∃ x d y, Csv.get_csv_inputs sniff (Csv.rawLines
        (csv_preamble a b c ++ rowsText C l ++ (csv_preamble a b c ++ rowsText C r)))
        label = .ok (x ++ d :: y) ∧
      x.length = l.length ∧ y.length = r.length ∧
      ∀ f : SField, Dict.get? d f.name.toList = some (some f.name.toList) := by
  obtain ⟨inputs, h1, h2⟩ := Csv.csv_file_inputs sniff
    (outputItems C a b c l ++ outputItems C a b c r) label
    headerRow (l.map (csvRow C) ++ headerRow :: r.map (csvRow C)) guess
    (by
      intro i hi
      rcases List.mem_append.1 hi with hi | hi
      · exact outputItems_lines C a b c l ha hb hc hl i hi
      · exact outputItems_lines C a b c r ha hb hc hr i hi)
    (by rw [rowsOf_append, rowsOf_output, rowsOf_output]; rfl) headerRow_nodup hsniff hg
  rw [List.map_append, List.flatten_append, outputItems_text, outputItems_text] at h1
  have hx := List.forall₂_take_append _ _ _ h2.flip
  have hz := List.forall₂_drop_append _ _ _ h2.flip
  rw [← List.take_append_drop (l.map (csvRow C)).length inputs] at h1
  generalize List.drop (l.map (csvRow C)).length inputs = z at hz h1
  generalize List.take (l.map (csvRow C)).length inputs = x at hx h1
  cases hz with
  | cons hd hy =>
    rename_i d y
    refine ⟨x, d, y, h1, ?_, ?_, ?_⟩
    · have := hx.length_eq
      simpa using this
    · have := hy.length_eq
      simpa using this
    · intro f
      obtain ⟨j, hj⟩ := List.mem_iff_getElem?.1 (mem_all f)
      rw [Csv.IsInput.column hd j _ (headerRow_get j f hj) (name_ne_label f) (name_column f),
        headerRow_get j f hj]

/-! ### A concrete file -/

theorem sliceItem_no_comma (x : Option Int) : ',' ∉ sliceItem x := by
  cases x with
  | none => decide
  | some n =>
    intro h
    rcases Text.ofInt_chars n h with h | h
    · exact absurd h (by decide)
    · simp [Char.isDigit] at h

theorem sliceItem_injective (x y : Option Int) (h : sliceItem x = sliceItem y) : x = y := by
  cases x with
  | none =>
    cases y with
    | none => rfl
    | some n => exact absurd h.symm (ofInt_ne_none n)
  | some m =>
    cases y with
    | none => exact absurd h (ofInt_ne_none m)
    | some n =>
      have := congrArg Text.toInt h
      simp only [sliceItem, Text.toInt_ofInt, Except.ok.injEq] at this
      rw [this]

theorem split_comma {x y u v : Text} (hx : ',' ∉ x) (hy : ',' ∉ y)
    (h : x ++ ',' :: u = y ++ ',' :: v) : x = y ∧ u = v := by
  induction x generalizing y with
  | nil =>
    cases y with
    | nil => simpa using h
    | cons b y =>
      simp only [List.nil_append, List.cons_append, List.cons.injEq] at h
      exact absurd h.1 (fun e => hy (by simp [← e]))
  | cons a x ih =>
    simp only [List.mem_cons, not_or] at hx
    cases y with
    | nil =>
      simp only [List.nil_append, List.cons_append, List.cons.injEq] at h
      exact absurd h.1.symm hx.1
    | cons b y =>
      simp only [List.mem_cons, not_or] at hy
      simp only [List.cons_append, List.cons.injEq] at h
      obtain ⟨rfl, h⟩ := h
      obtain ⟨rfl, rfl⟩ := ih hx.2 hy.2 h
      exact ⟨rfl, rfl⟩

theorem sliceRepr_injective (a b : PySlice) (h : sliceRepr a = sliceRepr b) : a = b := by
  unfold sliceRepr at h
  have h := List.append_cancel_left h
  obtain ⟨h1, h⟩ := split_comma (sliceItem_no_comma _) (sliceItem_no_comma _) h
  have h := List.append_cancel_left (as := [' ']) h
  obtain ⟨h2, h⟩ := split_comma (sliceItem_no_comma _) (sliceItem_no_comma _) h
  have h := List.append_cancel_left (as := [' ']) h
  have h3 := List.append_cancel_right h
  obtain ⟨a1, a2, a3⟩ := a
  obtain ⟨b1, b2, b3⟩ := b
  have e1 : a1 = b1 := sliceItem_injective _ _ h1
  have e2 : a2 = b2 := sliceItem_injective _ _ h2
  have e3 : a3 = b3 := sliceItem_injective _ _ h3
  rw [e1, e2, e3]

open Classical in
/-- Faithful conversions with a faithful `eval`. -/
noncomputable def sliceConv : Conv Int :=
  { witConv with
    eval_slice := fun t => if h : ∃ sl, sliceRepr sl = t then .ok (some h.choose)
      else .error .ValueError }

theorem sliceConv_faithful : Faithful sliceConv :=
  ⟨witConv_faithful.float, witConv_faithful.float_ne, witConv_faithful.int,
    witConv_faithful.true, witConv_faithful.false⟩

theorem sliceConv_eval : EvalSlices sliceConv := by
  intro sl
  rw [shownSlice_eq]
  have h : ∃ sl', sliceRepr sl' = sliceRepr sl := ⟨sl, rfl⟩
  simp only [sliceConv, dif_pos h]
  rw [sliceRepr_injective _ _ h.choose_spec]

theorem witInput_readable : Readable witSolnInput := fun f =>
  ⟨witSolnInput_typed f, by cases f <;> simp [witSolnInput, SField.kind]⟩

theorem witInput_oneLined : OneLined sliceConv witSolnInput := by
  intro f
  cases f <;> decide

example (d : Dict Text (Option Text))
    (h : Csv.IsInput headerRow (csvRow sliceConv witSolnInput) "run".toList d) :=
  csv_row_round_trip (σ := Unit) sliceConv sliceConv_faithful sliceConv_eval witSolnInput
    witInput_readable "run".toList "step" d h

example := csv_output_round_trip (σ := Unit) sliceConv sliceConv_faithful sliceConv_eval
  (fun _ => .ok [[]]) [[]] rfl (by simp) "4".toList "False".toList "step".toList (by decide)
  (by decide) (by decide) [witSolnInput, witSolnInput]
  (by
    intro s hs
    simp only [List.mem_cons, List.not_mem_nil, or_false, or_self] at hs
    subst hs
    exact ⟨witInput_readable, witInput_oneLined⟩) "again".toList "step"

example := csv_appended_header sliceConv
  (fun _ => .ok [[]]) [[]] rfl (by simp) "4".toList "False".toList "step".toList (by decide)
  (by decide) (by decide) [witSolnInput] [witSolnInput]
  (by
    intro s hs
    simp only [List.mem_cons, List.not_mem_nil, or_false] at hs
    subst hs
    exact witInput_oneLined)
  (by
    intro s hs
    simp only [List.mem_cons, List.not_mem_nil, or_false] at hs
    subst hs
    exact witInput_oneLined) "again".toList

end Runners

end DiscSolver
