import Verif.Props.Search
import Verif.Props.Acceptance
import Verif.Props.Containers

/-!
# C46–C48: what a stepping search does
-/

namespace DiscSolver

namespace Stepper

variable {F R μ : Type}

/-! ## Specification -/

/-- An attempt: the input solved and the solution. -/
structure Attempt (F R : Type) where
  input : Input F R
  data : SolnData

/-- How many of the classifications come at or after the first one that differs
from the very first. -/
def halvings (ts : List SplitterStatus) : ℕ :=
  (ts.dropWhile fun t => some t = ts.head?).length

/-- The step after the classifications `ts`. -/
def stepAfter (o : Ops F) (s₀ : F) (ts : List SplitterStatus) : F :=
  o.half^[halvings ts] s₀

/-- The search made the attempts `xs`, all unsuccessful, classified them as `ts`,
and goes on with the input `i`: every attempt solves the input chosen after the one
before, and the next input differs from it only in `γ`, moved by the current step. -/
inductive History (c : Setup F R) (split : Splitter) (i₀ : Input F R) :
    List (Attempt F R) → List SplitterStatus → Input F R → Prop
  | start : History c split i₀ [] [] i₀
  | next {xs : List (Attempt F R)} {ts : List SplitterStatus} {i : Input F R}
      {d : SolnData} {t : SplitterStatus} {γ : F} :
      History c split i₀ xs ts i →
      c.solve i = .ok d → is_solution_best d = false →
      split (xs.map (·.data)) d = .ok t →
      (halvings ts ≠ 0 ∨ xs.length < c.max_search_steps) →
      next_γ c.ops i.γ t (stepAfter c.ops (c.ops.tenth i₀.γ) (ts ++ [t])) = .ok γ →
      History c split i₀ (xs ++ [⟨i, d⟩]) (ts ++ [t]) { i with γ := γ }

/-- Why a search ends. -/
inductive Reason where
  /-- all attempts used up -/
  | exhausted
  /-- a best solution was found -/
  | found
  /-- too many attempts without a change of classification -/
  | gaveUp
  /-- the splitter said stop, or `γ` no longer changes -/
  | stopped
  /-- an exception, or an endless loop -/
  | raised (e : Stop)

/-- How the search ends after the history `xs`, `ts`, `i`, and the attempts that
have been made by then. -/
inductive Ends (c : Setup F R) (split : Splitter) (i₀ : Input F R) (n : ℕ)
    (xs : List (Attempt F R)) (ts : List SplitterStatus) (i : Input F R) :
    Reason → List (Attempt F R) → Prop
  | exhausted : xs.length = n → Ends c split i₀ n xs ts i .exhausted xs
  | noSolution {p : PyErr} : xs.length < n → c.solve i = .error p →
      Ends c split i₀ n xs ts i (.raised (.py p)) xs
  | found {d : SolnData} : xs.length < n → c.solve i = .ok d →
      is_solution_best d = true → Ends c split i₀ n xs ts i .found (xs ++ [⟨i, d⟩])
  | noType {d : SolnData} {p : PyErr} : xs.length < n → c.solve i = .ok d →
      is_solution_best d = false → split (xs.map (·.data)) d = .error p →
      Ends c split i₀ n xs ts i (.raised (.py p)) (xs ++ [⟨i, d⟩])
  | gaveUp {d : SolnData} {t : SplitterStatus} : xs.length < n → c.solve i = .ok d →
      is_solution_best d = false → split (xs.map (·.data)) d = .ok t →
      halvings ts = 0 → c.max_search_steps ≤ xs.length →
      Ends c split i₀ n xs ts i .gaveUp (xs ++ [⟨i, d⟩])
  | stopped {d : SolnData} {t : SplitterStatus} : xs.length < n → c.solve i = .ok d →
      is_solution_best d = false → split (xs.map (·.data)) d = .ok t →
      (halvings ts ≠ 0 ∨ xs.length < c.max_search_steps) →
      next_γ c.ops i.γ t (stepAfter c.ops (c.ops.tenth i₀.γ) (ts ++ [t])) =
        .error .stop →
      Ends c split i₀ n xs ts i .stopped (xs ++ [⟨i, d⟩])
  | hangs {d : SolnData} {t : SplitterStatus} : xs.length < n → c.solve i = .ok d →
      is_solution_best d = false → split (xs.map (·.data)) d = .ok t →
      (halvings ts ≠ 0 ∨ xs.length < c.max_search_steps) →
      next_γ c.ops i.γ t (stepAfter c.ops (c.ops.tenth i₀.γ) (ts ++ [t])) =
        .error .hangs →
      Ends c split i₀ n xs ts i (.raised .hangs) (xs ++ [⟨i, d⟩])

/-! ## The stepper's variables -/

theorem halvings_append (ts : List SplitterStatus) (t : SplitterStatus) :
    halvings (ts ++ [t]) =
      if halvings ts ≠ 0 then halvings ts + 1
      else if ts = [] ∨ ts.head? = some t then 0 else 1 := by
  cases ts with
  | nil => simp [halvings]
  | cons a l =>
    unfold halvings
    have hh : ((a :: l) ++ [t]).head? = some a := rfl
    rw [hh]
    have hh' : (a :: l).head? = some a := rfl
    rw [hh', List.dropWhile_append]
    generalize hg : List.dropWhile (fun t => decide (some t = some a)) (a :: l) = g
    cases g with
    | nil =>
      by_cases h : t = a
      · simp [h]
      · have h' : ¬ a = t := fun e => h e.symm
        simp [h, h']
    | cons b g => simp

/-- The stepper's variables after the classifications `ts`. -/
def varsAfter (o : Ops F) (s₀ : F) (ts : List SplitterStatus) : StepperVars F :=
  { search_steps := ts.length - (halvings ts - 1)
    binary_started := decide (halvings ts ≠ 0)
    prev_soln_type := ts.head?
    step_size := stepAfter o s₀ ts }

theorem choose_step_ok (c : Setup F R) (s₀ : F) (ts : List SplitterStatus)
    (t : SplitterStatus) (h : halvings ts ≠ 0 ∨ ts.length < c.max_search_steps) :
    choose_step c t (varsAfter c.ops s₀ ts) =
      (.ok (stepAfter c.ops s₀ (ts ++ [t])), varsAfter c.ops s₀ (ts ++ [t])) := by
  have hle : halvings ts ≤ ts.length := by
    exact (List.dropWhile_sublist _).length_le
  by_cases h0 : halvings ts = 0
  · have hl : ts.length < c.max_search_steps := by
      rcases h with h | h
      · exact absurd h0 h
      · exact h
    unfold choose_step varsAfter stepAfter
    simp only [halvings_append, h0]
    cases ts with
    | nil => simp at hl ⊢; omega
    | cons a l =>
      simp at hl ⊢
      rw [if_neg (by omega)]
      by_cases hat : a = t
      · simp [hat]
      · simp [hat]
  · unfold choose_step varsAfter stepAfter
    simp only [halvings_append]
    have hne : ts ≠ [] := by
      rintro rfl
      simp [halvings] at h0
    cases ts with
    | nil => exact absurd rfl hne
    | cons a l =>
      simp only [List.length_cons] at hle
      have hc : c.ops.half (c.ops.half^[halvings (a :: l)] s₀) =
          c.ops.half^[halvings (a :: l)] (c.ops.half s₀) := by
        exact (Function.iterate_succ_apply' c.ops.half _ s₀).symm.trans
          (Function.iterate_succ_apply c.ops.half _ s₀)
      simp [h0, hc]
      omega

theorem choose_step_error (c : Setup F R) (s₀ : F) (ts : List SplitterStatus)
    (t : SplitterStatus) (h0 : halvings ts = 0) (hl : c.max_search_steps ≤ ts.length) :
    (choose_step c t (varsAfter c.ops s₀ ts)).1 = .error .error := by
  unfold choose_step varsAfter
  simp [h0]
  rw [if_pos hl]

/-! ## One round of the search -/

section round

variable (c : Setup F R) (split : Splitter)

/-- What is stored for the solution `soln`. -/
def storedFor (w : World F R μ) (soln : Soln) : Stored F R :=
  ⟨soln, if c.on_file then some (w.heap soln.input) else none⟩

/-- The state after storing `soln` and showing it to the splitter. -/
def afterStore (w : World F R μ) (ss : List (Stored F R)) (soln : Soln) : World F R μ :=
  { w with run := { w.run with solutions := numbered (ss ++ [storedFor c w soln]) } }

/-- … and showing it to the splitter. -/
def afterType (w : World F R μ) (ss : List (Stored F R)) (soln : Soln) : World F R μ :=
  { afterStore c w ss soln with seen := w.seen ++ [soln.data] }

variable {c split} {w : World F R μ} {ss : List (Stored F R)} {soln : Soln}

theorem writer_eq (hs : w.run.solutions = numbered ss) (hf : soln.data.flag ≠ none) :
    writer c soln w = (.ok (), afterStore c w ss soln) := by
  unfold writer
  cases h : soln.data.flag with
  | none => exact absurd h hf
  | some f =>
    simp only [Run.addSolution, hs, add_numbered]
    rfl

theorem stepper_noType {k : ℕ} {p : PyErr} (hs : w.run.solutions = numbered ss)
    (hf : soln.data.flag ≠ none) (ht : split w.seen soln.data = .error p) :
    stepper c split soln k w = (.error (.py p), afterType c w ss soln) := by
  unfold stepper Code.bind
  simp only [writer_eq hs hf, get_soln_type, afterStore, ht]
  rfl

theorem stepper_gaveUp {k : ℕ} {t : SplitterStatus} {v : StepperVars F}
    (hs : w.run.solutions = numbered ss)
    (hf : soln.data.flag ≠ none) (ht : split w.seen soln.data = .ok t)
    (hc : choose_step c t w.vars = (.error .error, v)) :
    stepper c split soln k w =
      (.error .error, { afterType c w ss soln with vars := v }) := by
  unfold stepper Code.bind
  simp only [writer_eq hs hf, get_soln_type, afterStore, ht, choose, hc]
  rfl

theorem stepper_stop {k : ℕ} {t : SplitterStatus} {v : StepperVars F} {s : F} {e : Stop}
    (hs : w.run.solutions = numbered ss)
    (hf : soln.data.flag ≠ none) (ht : split w.seen soln.data = .ok t)
    (hc : choose_step c t w.vars = (.ok s, v))
    (hn : next_γ c.ops (w.heap soln.input).γ t s = .error e) :
    stepper c split soln k w = (.error e, { afterType c w ss soln with vars := v }) := by
  unfold stepper Code.bind
  simp only [writer_eq hs hf, get_soln_type, afterStore, ht, choose, hc, step_func, hn]
  rfl

theorem stepper_next {k : ℕ} {t : SplitterStatus} {v : StepperVars F} {s γ : F}
    (hs : w.run.solutions = numbered ss)
    (hf : soln.data.flag ≠ none) (ht : split w.seen soln.data = .ok t)
    (hc : choose_step c t w.vars = (.ok s, v))
    (hn : next_γ c.ops (w.heap soln.input).γ t s = .ok γ) :
    stepper c split soln k w = (.ok w.next,
      { afterType c w ss soln with
        vars := v
        heap := Function.update (Function.update w.heap soln.input
          { w.heap soln.input with γ := γ }) w.next { w.heap soln.input with γ := γ }
        next := w.next + 1 }) := by
  unfold stepper Code.bind
  simp only [writer_eq hs hf, get_soln_type, afterStore, ht, choose, hc, step_func, hn]
  rfl

end round

/-! ## The invariant -/

/-- `ss` are the stored solutions for the attempts `as`; stored input number `j`
now shows `later[j]` when looked at in memory. -/
def Records (c : Setup F R) (heap : ℕ → Input F R) (next : ℕ)
    (as : List (Attempt F R)) (later : List (Input F R)) (ss : List (Stored F R)) : Prop :=
  ss.length = as.length ∧ later.length = as.length ∧
  ∀ (j : ℕ) (s : Stored F R) (a : Attempt F R) (l : Input F R),
    ss[j]? = some s → as[j]? = some a → later[j]? = some l →
      s.soln.data = a.data ∧ s.saved = (if c.on_file then some a.input else none) ∧
      s.soln.input < next ∧ heap s.soln.input = l

theorem Records.snoc {c : Setup F R} {heap heap' : ℕ → Input F R} {next next' : ℕ}
    {as : List (Attempt F R)} {later : List (Input F R)} {ss : List (Stored F R)}
    (h : Records c heap next as later ss) (hh : ∀ j < next, heap' j = heap j)
    (hn : next ≤ next') (a : Attempt F R) (l : Input F R) (s : Stored F R)
    (h1 : s.soln.data = a.data)
    (h2 : s.saved = (if c.on_file then some a.input else none))
    (h3 : s.soln.input < next') (h4 : heap' s.soln.input = l) :
    Records c heap' next' (as ++ [a]) (later ++ [l]) (ss ++ [s]) := by
  obtain ⟨ha, hb, hr⟩ := h
  refine ⟨by simp [ha], by simp [hb], ?_⟩
  intro j s' a' l' hs ha' hl
  rcases Nat.lt_trichotomy j as.length with hj | hj | hj
  · rw [List.getElem?_append_left (by omega)] at hs ha' hl
    obtain ⟨r1, r2, r3, r4⟩ := hr j s' a' l' hs ha' hl
    exact ⟨r1, r2, by omega, by rw [hh _ r3, r4]⟩
  · rw [List.getElem?_append_right (by omega)] at hs ha' hl
    rw [show j - ss.length = 0 by omega] at hs
    rw [show j - as.length = 0 by omega] at ha'
    rw [show j - later.length = 0 by omega] at hl
    simp at hs ha' hl
    subst hs ha' hl
    exact ⟨h1, h2, h3, h4⟩
  · rw [List.getElem?_eq_none (by simp; omega)] at hs
    simp at hs

theorem Records.mono {c : Setup F R} {heap heap' : ℕ → Input F R} {next next' : ℕ}
    {as : List (Attempt F R)} {later : List (Input F R)} {ss : List (Stored F R)}
    (h : Records c heap next as later ss) (hh : ∀ j < next, heap' j = heap j)
    (hn : next ≤ next') : Records c heap' next' as later ss := by
  refine ⟨h.1, h.2.1, fun j s a l hs ha hl => ?_⟩
  obtain ⟨r1, r2, r3, r4⟩ := h.2.2 j s a l hs ha hl
  exact ⟨r1, r2, by omega, by rw [hh _ r3, r4]⟩

/-- The inputs tried after the first, then the one to be tried next. -/
def laterInputs (xs : List (Attempt F R)) (i : Input F R) : List (Input F R) :=
  (xs.map (·.input) ++ [i]).tail

theorem laterInputs_snoc (xs : List (Attempt F R)) (i i' : Input F R) (d : SolnData) :
    laterInputs (xs ++ [⟨i, d⟩]) i' = laterInputs xs i ++ [i'] := by
  unfold laterInputs
  cases xs <;> simp

theorem history_types {c : Setup F R} {split : Splitter} {i₀ i : Input F R}
    {xs : List (Attempt F R)} {ts : List SplitterStatus}
    (h : History c split i₀ xs ts i) : ts.length = xs.length := by
  induction h with
  | start => rfl
  | next _ _ _ _ _ _ ih => simp [ih]

/-- The state of a search in progress matches its history. -/
structure Inv (c : Setup F R) (split : Splitter) (i₀ : Input F R)
    (r₀ : Run μ (Stored F R)) (a : ℕ) (w : World F R μ)
    (xs : List (Attempt F R)) (ts : List SplitterStatus) (i : Input F R)
    (ss : List (Stored F R)) : Prop where
  hist : History c split i₀ xs ts i
  here : w.heap a = i
  addr : a < w.next
  run : w.run = { r₀ with solutions := numbered ss }
  records : Records c w.heap w.next xs (laterInputs xs i) ss
  vars : w.vars = varsAfter c.ops (c.ops.tenth i₀.γ) ts
  seen : w.seen = xs.map (·.data)

/-- The solver always reports a flag, as `solution` does (`solution.py:775`). -/
def Flags (c : Setup F R) : Prop := ∀ i d, c.solve i = .ok d → d.flag ≠ none

/-- The state in which `solver` starts its search. -/
def begin (c : Setup F R) (i₀ : Input F R) (r₀ : Run μ (Stored F R)) : World F R μ :=
  { heap := fun _ => i₀, next := 1, run := r₀,
    vars := { step_size := c.ops.tenth i₀.γ } }

theorem inv_begin (c : Setup F R) (split : Splitter) (i₀ : Input F R)
    (r₀ : Run μ (Stored F R)) (h : r₀.solutions = []) :
    Inv c split i₀ r₀ 0 (begin c i₀ r₀) [] [] i₀ [] := by
  refine ⟨.start, rfl, Nat.zero_lt_one, ?_, ⟨rfl, rfl, by simp⟩, rfl, rfl⟩
  cases r₀
  simp at h
  simp [begin, numbered, h]

theorem inv_next {c : Setup F R} {split : Splitter} {i₀ i : Input F R}
    {r₀ : Run μ (Stored F R)} {a : ℕ} {w : World F R μ}
    {xs : List (Attempt F R)} {ts : List SplitterStatus}
    {ss : List (Stored F R)} (hI : Inv c split i₀ r₀ a w xs ts i ss)
    {d : SolnData} {t : SplitterStatus} {γ : F} (hflag : d.flag ≠ none)
    (hs : c.solve i = .ok d) (hb : is_solution_best d = false)
    (ht : split (xs.map (·.data)) d = .ok t)
    (hl : halvings ts ≠ 0 ∨ xs.length < c.max_search_steps)
    (hn : next_γ c.ops i.γ t (stepAfter c.ops (c.ops.tenth i₀.γ) (ts ++ [t])) = .ok γ)
    (k : ℕ) :
    ∃ a' w' s, stepper c split ⟨d, w.next⟩ k (w.alloc (w.heap a)) = (.ok a', w') ∧
      Inv c split i₀ r₀ a' w' (xs ++ [⟨i, d⟩]) (ts ++ [t]) { i with γ := γ } (ss ++ [s]) := by
  have hrun : (w.alloc (w.heap a)).run.solutions = numbered ss := by
    show w.run.solutions = _
    rw [hI.run]
  have hheap : (w.alloc (w.heap a)).heap w.next = i := by
    simp [World.alloc, hI.here]
  have htl : ts.length = xs.length := history_types hI.hist
  have hchoose : choose_step c t (w.alloc (w.heap a)).vars =
      (.ok (stepAfter c.ops (c.ops.tenth i₀.γ) (ts ++ [t])),
        varsAfter c.ops (c.ops.tenth i₀.γ) (ts ++ [t])) := by
    show choose_step c t w.vars = _
    rw [hI.vars]
    exact choose_step_ok c _ ts t (by rw [htl]; exact hl)
  have hseen : split (w.alloc (w.heap a)).seen d = .ok t := by
    show split w.seen d = _
    rw [hI.seen]; exact ht
  refine ⟨_, _, storedFor c (w.alloc (w.heap a)) ⟨d, w.next⟩,
    stepper_next (soln := ⟨d, w.next⟩) hrun hflag hseen hchoose
      (by rw [hheap]; exact hn), ?_⟩
  refine ⟨.next hI.hist hs hb ht hl hn, ?_, ?_, ?_, ?_, rfl, ?_⟩
  · show Function.update _ _ _ (w.next + 1) = _
    rw [show (w.alloc (w.heap a)).next = w.next + 1 from rfl, Function.update_self, hheap]
  · show (w.alloc (w.heap a)).next < (w.alloc (w.heap a)).next + 1
    omega
  · have e : (w.alloc (w.heap a)).run = { r₀ with solutions := numbered ss } := hI.run
    simp only [afterType, afterStore, e]
  · rw [laterInputs_snoc]
    refine hI.records.snoc ?_ ?_ _ _ _ rfl ?_ ?_ ?_
    · intro j hj
      show Function.update (Function.update (w.alloc (w.heap a)).heap _ _)
        (w.alloc (w.heap a)).next _ j = _
      rw [Function.update_of_ne (by show j ≠ w.next + 1; omega),
        Function.update_of_ne (by show j ≠ w.next; omega)]
      show Function.update w.heap w.next _ j = _
      rw [Function.update_of_ne (by omega)]
    · show w.next ≤ w.next + 1 + 1
      omega
    · show (if c.on_file then some ((w.alloc (w.heap a)).heap w.next) else none) = _
      rw [hheap]
    · show w.next < w.next + 1 + 1
      omega
    · show Function.update (Function.update (w.alloc (w.heap a)).heap _ _)
        (w.alloc (w.heap a)).next _ w.next = _
      rw [Function.update_of_ne (by show w.next ≠ w.next + 1; omega), Function.update_self,
        hheap]
  · show w.seen ++ [d] = _
    rw [hI.seen]
    simp

/-! ## How the search ends -/

/-- The state after storing the last attempt. -/
theorem records_last {c : Setup F R} {split : Splitter} {i₀ i : Input F R}
    {r₀ : Run μ (Stored F R)} {a : ℕ} {w : World F R μ}
    {xs : List (Attempt F R)} {ts : List SplitterStatus}
    {ss : List (Stored F R)} (hI : Inv c split i₀ r₀ a w xs ts i ss) (d : SolnData) :
    Records c (w.alloc (w.heap a)).heap (w.alloc (w.heap a)).next (xs ++ [⟨i, d⟩])
      (laterInputs (xs ++ [⟨i, d⟩]) i)
      (ss ++ [storedFor c (w.alloc (w.heap a)) ⟨d, w.next⟩]) := by
  have hheap : (w.alloc (w.heap a)).heap w.next = i := by
    simp [World.alloc, hI.here]
  rw [laterInputs_snoc]
  refine hI.records.snoc ?_ ?_ _ _ _ rfl ?_ ?_ hheap
  · intro j hj
    show Function.update w.heap w.next _ j = _
    rw [Function.update_of_ne (by omega)]
  · show w.next ≤ w.next + 1
    omega
  · show (if c.on_file then some ((w.alloc (w.heap a)).heap w.next) else none) = _
    rw [hheap]
  · show w.next < w.next + 1
    omega

/-- The result of the search loop for each way of ending; `ss` are the stored
solutions. -/
def resultFor (c : Setup F R) (ss : List (Stored F R)) :
    Reason → Except Stop (Option (Option (Stored F R)))
  | .exhausted => .ok none
  | .gaveUp => .ok none
  | .found => .ok (some (if c.no_final_solution then none else ss.getLast?))
  | .stopped => .ok (some (if c.no_final_solution then none else ss.getLast?))
  | .raised e => .error e

/-- Whether the ending makes the last stored solution the final one. -/
def Reason.setsFinal : Reason → Bool
  | .found => true
  | .stopped => true
  | _ => false

theorem search_outcome {c : Setup F R} {split : Splitter} {i₀ : Input F R}
    {r₀ : Run μ (Stored F R)} (hflags : Flags c) (hfin : r₀.final = .delayed) (n : ℕ)
    (left : ℕ) : ∀ {i : Input F R} {a : ℕ} {w : World F R μ}
    {xs : List (Attempt F R)} {ts : List SplitterStatus}
    {ss : List (Stored F R)}, Inv c split i₀ r₀ a w xs ts i ss → n = xs.length + left →
    ∃ (xs' : List (Attempt F R)) (ts' : List SplitterStatus) (i' : Input F R) (e : Reason)
      (as : List (Attempt F R)) (ss' : List (Stored F R)) (w' : World F R μ),
      History c split i₀ xs' ts' i' ∧ xs'.length ≤ n ∧ Ends c split i₀ n xs' ts' i' e as ∧
      search (solution_func c) (cleanup c) (stepper c split) (alternate_cleanup c)
        left xs.length a w = (resultFor c ss' e, w') ∧
      Records c w'.heap w'.next as (laterInputs as i') ss' ∧
      w'.run = { r₀ with
        solutions := numbered ss'
        final := if e.setsFinal && !c.no_final_solution then .value ss'.getLast?
          else .delayed } := by
  induction left with
  | zero =>
    intro i a w xs ts ss hI hn
    refine ⟨xs, ts, i, .exhausted, xs, ss, w, hI.hist, by omega, .exhausted (by omega), rfl,
      hI.records, ?_⟩
    rw [hI.run]
    simp [Reason.setsFinal, ← hfin]
  | succ left ih =>
    intro i a w xs ts ss hI hn
    have hlt : xs.length < n := by omega
    have hrun : (w.alloc (w.heap a)).run = { r₀ with solutions := numbered ss } := hI.run
    have hsol : (w.alloc (w.heap a)).run.solutions = numbered ss := by rw [hrun]
    cases hs : c.solve i with
    | error p =>
      refine ⟨xs, ts, i, .raised (.py p), xs, ss, w.alloc (w.heap a), hI.hist, by omega,
        .noSolution hlt hs, ?_, ?_, ?_⟩
      · simp only [search, solution_func, hI.here, hs]
        rfl
      · refine hI.records.mono ?_ (by show w.next ≤ w.next + 1; omega)
        intro j hj
        show Function.update w.heap w.next _ j = _
        rw [Function.update_of_ne (by omega)]
      · rw [hrun]
        simp [Reason.setsFinal, ← hfin]
    | ok d =>
      have hf : d.flag ≠ none := hflags i d hs
      have hfunc : solution_func c a w =
          (.ok (⟨d, w.next⟩, is_solution_best d), w.alloc (w.heap a)) := by
        simp only [solution_func, hI.here, hs]
      have hrec := records_last hI d
      cases hb : is_solution_best d with
      | true =>
        rw [hb] at hfunc
        refine ⟨xs, ts, i, .found, xs ++ [(⟨i, d⟩ : Attempt F R)],
          ss ++ [storedFor c (w.alloc (w.heap a)) ⟨d, w.next⟩],
          { w.alloc (w.heap a) with
            run := { r₀ with
              solutions := numbered (ss ++ [storedFor c (w.alloc (w.heap a)) ⟨d, w.next⟩])
              final := if c.no_final_solution then .delayed
                else .value (some (storedFor c (w.alloc (w.heap a)) ⟨d, w.next⟩)) } },
          hI.hist, by omega, .found hlt hs hb, ?_, ?_, ?_⟩
        · simp only [search, hfunc, cleanup, Code.bind,
            writer_eq (soln := ⟨d, w.next⟩) hsol hf]
          cases hno : c.no_final_solution with
          | true =>
            simp only [if_true, resultFor, hno, afterStore, hrun]
            simp [← hfin]
          | false =>
            simp only [resultFor, hno, afterStore, hrun, Bool.false_eq_true, if_false, assign_final,
              get_last_most_recent, Run.setFinal, hfin]
            simp
        · exact hrec
        · cases hno : c.no_final_solution <;> simp [Reason.setsFinal]
      | false =>
        rw [hb] at hfunc
        have hseen : (w.alloc (w.heap a)).seen = xs.map (·.data) := hI.seen
        cases ht : split (xs.map (·.data)) d with
        | error p =>
          have ht' : split (w.alloc (w.heap a)).seen d = .error p := by rw [hseen]; exact ht
          refine ⟨xs, ts, i, .raised (.py p), xs ++ [(⟨i, d⟩ : Attempt F R)],
            ss ++ [storedFor c (w.alloc (w.heap a)) ⟨d, w.next⟩],
            afterType c (w.alloc (w.heap a)) ss ⟨d, w.next⟩, hI.hist, by omega,
            .noType hlt hs hb ht, ?_, hrec, ?_⟩
          · simp only [search, hfunc, stepper_noType (soln := ⟨d, w.next⟩) hsol hf ht']
            rfl
          · simp only [afterType, afterStore, hrun]
            simp [Reason.setsFinal, ← hfin]
        | ok t =>
          have ht' : split (w.alloc (w.heap a)).seen d = .ok t := by rw [hseen]; exact ht
          have htl : ts.length = xs.length := history_types hI.hist
          have hvars : (w.alloc (w.heap a)).vars =
              varsAfter c.ops (c.ops.tenth i₀.γ) ts := hI.vars
          by_cases hl : halvings ts ≠ 0 ∨ xs.length < c.max_search_steps
          · have hc := choose_step_ok c (c.ops.tenth i₀.γ) ts t (by rw [htl]; exact hl)
            rw [← hvars] at hc
            have hheap : (w.alloc (w.heap a)).heap w.next = i := by
              simp [World.alloc, hI.here]
            cases hn' : next_γ c.ops i.γ t
                (stepAfter c.ops (c.ops.tenth i₀.γ) (ts ++ [t])) with
            | ok γ =>
              obtain ⟨a', w', s, hst, hI'⟩ := inv_next hI hf hs hb ht hl hn' xs.length
              obtain ⟨xs', ts', i', e, as, ss', w'', h1, h2, h3, h4, h5, h6⟩ :=
                ih hI' (by simp; omega)
              refine ⟨xs', ts', i', e, as, ss', w'', h1, h2, h3, ?_, h5, h6⟩
              simp only [search, hfunc, hst]
              rw [← h4]
              simp
            | error e =>
              have hstop := stepper_stop (k := xs.length) (soln := ⟨d, w.next⟩) hsol hf ht' hc
                (by rw [hheap]; exact hn')
              have he : e = .stop ∨ e = .hangs := by
                unfold next_γ at hn'
                cases t <;> simp only at hn'
                · injection hn' with h; exact .inl h.symm
                · split_ifs at hn'
                  injection hn' with h; exact .inr h.symm
                · split_ifs at hn'
                  injection hn' with h; exact .inl h.symm
              rcases he with rfl | rfl
              · refine ⟨xs, ts, i, .stopped, xs ++ [(⟨i, d⟩ : Attempt F R)],
                  ss ++ [storedFor c (w.alloc (w.heap a)) ⟨d, w.next⟩],
                  { w.alloc (w.heap a) with
                    seen := (w.alloc (w.heap a)).seen ++ [d]
                    vars := varsAfter c.ops (c.ops.tenth i₀.γ) (ts ++ [t])
                    run := { r₀ with
                      solutions := numbered
                        (ss ++ [storedFor c (w.alloc (w.heap a)) ⟨d, w.next⟩])
                      final := if c.no_final_solution then .delayed
                        else .value (some (storedFor c (w.alloc (w.heap a)) ⟨d, w.next⟩)) } },
                  hI.hist, by omega, .stopped hlt hs hb ht hl hn', ?_, hrec, ?_⟩
                · simp only [search, hfunc, hstop, alternate_cleanup]
                  cases hno : c.no_final_solution with
                  | true =>
                    simp only [if_true, resultFor, hno, afterType, afterStore, hrun]
                    simp [← hfin]
                  | false =>
                    have hget : Dict.getItem
                        (numbered (ss ++ [storedFor c (w.alloc (w.heap a)) ⟨d, w.next⟩]))
                        xs.length.repr =
                        .ok (storedFor c (w.alloc (w.heap a)) ⟨d, w.next⟩) := by
                      rw [Dict.getItem, numbered_get,
                        List.getElem?_append_right (by rw [hI.records.1]), hI.records.1]
                      simp
                    simp only [resultFor, hno, afterType, afterStore, hrun, Bool.false_eq_true, if_false,
                      assign_final, hget, Run.setFinal, hfin]
                    simp
                · cases hno : c.no_final_solution <;> simp [Reason.setsFinal]
              · refine ⟨xs, ts, i, .raised .hangs, xs ++ [(⟨i, d⟩ : Attempt F R)],
                  ss ++ [storedFor c (w.alloc (w.heap a)) ⟨d, w.next⟩],
                  { afterType c (w.alloc (w.heap a)) ss ⟨d, w.next⟩ with
                    vars := varsAfter c.ops (c.ops.tenth i₀.γ) (ts ++ [t]) }, hI.hist, by omega,
                  .hangs hlt hs hb ht hl hn', ?_, hrec, ?_⟩
                · simp only [search, hfunc, hstop]
                  rfl
                · simp only [afterType, afterStore, hrun]
                  simp [Reason.setsFinal, ← hfin]
          · push Not at hl
            cases hc : choose_step c t (w.alloc (w.heap a)).vars with
            | mk r v =>
              have h := choose_step_error c (c.ops.tenth i₀.γ) ts t hl.1 (by rw [htl]; exact hl.2)
              rw [← hvars, hc] at h
              simp only at h
              subst h
              have hg := stepper_gaveUp (k := xs.length) (soln := ⟨d, w.next⟩) hsol hf ht' hc
              refine ⟨xs, ts, i, .gaveUp, xs ++ [(⟨i, d⟩ : Attempt F R)],
                ss ++ [storedFor c (w.alloc (w.heap a)) ⟨d, w.next⟩],
                { afterType c (w.alloc (w.heap a)) ss ⟨d, w.next⟩ with vars := v },
                hI.hist, by omega, .gaveUp hlt hs hb ht hl.1 hl.2, ?_, hrec, ?_⟩
              · simp only [search, hfunc, hg]
                rfl
              · simp only [afterType, afterStore, hrun]
                simp [Reason.setsFinal, ← hfin]

/-! ## C48: what is left in the run -/

/-- A run nothing has been stored in. -/
def Fresh (r : Run μ (Stored F R)) : Prop := r.solutions = [] ∧ r.final = .delayed

/-- What `solver` returns for each way of ending. -/
def answerFor (c : Setup F R) : Reason → Except Stop Bool
  | .exhausted => .ok c.no_final_solution
  | .gaveUp => .ok c.no_final_solution
  | .found => .ok true
  | .stopped => .ok true
  | .raised e => .error e

/-- The final solution `solver` leaves for each way of ending. -/
def finalFor (c : Setup F R) (ss : List (Stored F R)) : Reason → Final (Stored F R)
  | .raised _ => .delayed
  | .exhausted => if c.no_final_solution then .delayed else .value none
  | .gaveUp => if c.no_final_solution then .delayed else .value none
  | .found => if c.no_final_solution then .delayed else .value ss.getLast?
  | .stopped => if c.no_final_solution then .delayed else .value ss.getLast?

theorem ends_stored {c : Setup F R} {split : Splitter} {i₀ i : Input F R} {n : ℕ}
    {xs as : List (Attempt F R)} {ts : List SplitterStatus} {e : Reason}
    (h : Ends c split i₀ n xs ts i e as) :
    as = xs ∨ ∃ d, as = xs ++ [⟨i, d⟩] ∧ c.solve i = .ok d ∧ xs.length < n := by
  cases h with
  | exhausted => exact .inl rfl
  | noSolution => exact .inl rfl
  | found h1 h2 => exact .inr ⟨_, rfl, h2, h1⟩
  | noType h1 h2 => exact .inr ⟨_, rfl, h2, h1⟩
  | gaveUp h1 h2 => exact .inr ⟨_, rfl, h2, h1⟩
  | stopped h1 h2 => exact .inr ⟨_, rfl, h2, h1⟩
  | hangs h1 h2 => exact .inr ⟨_, rfl, h2, h1⟩

theorem ends_nonempty {c : Setup F R} {split : Splitter} {i₀ i : Input F R} {n : ℕ}
    {xs as : List (Attempt F R)} {ts : List SplitterStatus} {e : Reason}
    (h : Ends c split i₀ n xs ts i e as) (hf : e.setsFinal = true) : as ≠ [] := by
  cases h <;> simp [Reason.setsFinal] at hf ⊢

/-- The whole of a search by `solver`: there is a history, a way it ended, and the
attempts made; the answer, the run and the recorded solutions are as that says. -/
theorem solver_outcome (c : Setup F R) (human : List SolnData → SplitterStatus)
    (m : String) (split : Splitter) (i₀ : Input F R) (r₀ : Run μ (Stored F R)) (n : ℕ)
    (hm : create_soln_splitter human m = .ok split) (hflags : Flags c) (hr : Fresh r₀) :
    ∃ (xs : List (Attempt F R)) (ts : List SplitterStatus) (i : Input F R) (e : Reason)
      (as : List (Attempt F R)) (ss : List (Stored F R)) (heap : ℕ → Input F R) (next : ℕ),
      History c split i₀ xs ts i ∧ xs.length ≤ n ∧ Ends c split i₀ n xs ts i e as ∧
      Records c heap next as (laterInputs as i) ss ∧
      solver c human m i₀ r₀ n =
        (answerFor c e, { r₀ with solutions := numbered ss, final := finalFor c ss e }, heap) := by
  obtain ⟨xs, ts, i, e, as, ss, w, h1, h2, h3, h4, h5, h6⟩ :=
    search_outcome hflags hr.2 n n (inv_begin c split i₀ r₀ hr.1) (by simp)
  refine ⟨xs, ts, i, e, as, ss, w.heap, w.next, h1, h2, h3, h5, ?_⟩
  have hrun : run_search c split i₀ r₀ n = (resultFor c ss e, w) := h4
  unfold solver
  simp only [hm, hrun]
  have hne : e.setsFinal = true → ss ≠ [] := by
    intro hf he
    have := ends_nonempty h3 hf
    have hl := h5.1
    rw [he] at hl
    exact this (List.eq_nil_of_length_eq_zero hl.symm)
  cases e with
  | exhausted =>
    cases hno : c.no_final_solution <;>
      simp [resultFor, h6, has_final, clear_final, answerFor, finalFor, hno, Reason.setsFinal]
  | gaveUp =>
    cases hno : c.no_final_solution <;>
      simp [resultFor, h6, has_final, clear_final, answerFor, finalFor, hno, Reason.setsFinal]
  | found =>
    have := hne rfl
    cases hl : ss.getLast? with
    | none => simp at hl; exact absurd hl this
    | some s =>
      cases hno : c.no_final_solution <;>
        simp [resultFor, h6, has_final, answerFor, finalFor, hno, Reason.setsFinal, hl]
  | stopped =>
    have := hne rfl
    cases hl : ss.getLast? with
    | none => simp at hl; exact absurd hl this
    | some s =>
      cases hno : c.no_final_solution <;>
        simp [resultFor, h6, has_final, answerFor, finalFor, hno, Reason.setsFinal, hl]
  | raised e =>
    simp [resultFor, h6, answerFor, finalFor, Reason.setsFinal]

theorem history_solved {c : Setup F R} {split : Splitter} {i₀ i : Input F R}
    {xs : List (Attempt F R)} {ts : List SplitterStatus}
    (h : History c split i₀ xs ts i) :
    ∀ x ∈ xs, c.solve x.input = .ok x.data ∧ is_solution_best x.data = false := by
  induction h with
  | start => simp
  | next _ hs hb _ _ _ ih =>
    intro x hx
    rcases List.mem_append.1 hx with hx | hx
    · exact ih x hx
    · simp at hx; subst hx; exact ⟨hs, hb⟩

theorem history_head {c : Setup F R} {split : Splitter} {i₀ i : Input F R}
    {xs : List (Attempt F R)} {ts : List SplitterStatus}
    (h : History c split i₀ xs ts i) :
    (xs.map (·.input) ++ [i]).head? = some i₀ := by
  induction h with
  | start => rfl
  | @next xs ts i d t γ _ _ _ _ _ _ ih =>
    cases xs with
    | nil => simpa using ih
    | cons x xs => simpa using ih

/-- `ss` are stored solutions with the data of the attempts `as`. -/
def DataOf (ss : List (Stored F R)) (as : List (Attempt F R)) : Prop :=
  ss.map (·.soln.data) = as.map (·.data)

theorem Records.dataOf {c : Setup F R} {heap : ℕ → Input F R} {next : ℕ}
    {as : List (Attempt F R)} {later : List (Input F R)} {ss : List (Stored F R)}
    (h : Records c heap next as later ss) : DataOf ss as := by
  obtain ⟨h1, h2, h3⟩ := h
  refine List.ext_getElem? fun j => ?_
  simp only [List.getElem?_map]
  by_cases hj : j < as.length
  · rw [List.getElem?_eq_getElem (show j < ss.length by omega), List.getElem?_eq_getElem hj]
    exact congrArg some (h3 j _ _ _ (List.getElem?_eq_getElem (by omega))
      (List.getElem?_eq_getElem hj) (List.getElem?_eq_getElem (by omega))).1
  · rw [List.getElem?_eq_none (by omega), List.getElem?_eq_none (by omega)]
    rfl

/-- C48: after a search, whatever happened in it, the run holds its attempts under
`"0"`, `"1"`, … in order and nothing else: at most `num_attempts`, each the result of
solving its input, the first one the input given, and none but the last accepted. -/
theorem solver_stores_attempts (c : Setup F R) (human : List SolnData → SplitterStatus)
    (m : String) (split : Splitter) (i₀ : Input F R) (r₀ : Run μ (Stored F R)) (n : ℕ)
    (hm : create_soln_splitter human m = .ok split) (hflags : Flags c) (hr : Fresh r₀) :
    ∃ (as : List (Attempt F R)) (ss : List (Stored F R)),
      (solver c human m i₀ r₀ n).2.1.solutions = numbered ss ∧ DataOf ss as ∧
      as.length ≤ n ∧ (∀ a ∈ as, c.solve a.input = .ok a.data) ∧
      (∀ a, as.head? = some a → a.input = i₀) ∧
      (∀ a ∈ as.dropLast, is_solution_best a.data = false) := by
  obtain ⟨xs, ts, i, e, as, ss, heap, next, h1, h2, h3, h4, h5⟩ :=
    solver_outcome c human m split i₀ r₀ n hm hflags hr
  refine ⟨as, ss, by rw [h5], h4.dataOf, ?_, ?_, ?_, ?_⟩
  · rcases ends_stored h3 with rfl | ⟨d, rfl, _, hlt⟩
    · exact h2
    · simp; omega
  · rcases ends_stored h3 with rfl | ⟨d, rfl, hd, _⟩
    · exact fun a ha => (history_solved h1 a ha).1
    · intro a ha
      rcases List.mem_append.1 ha with ha | ha
      · exact (history_solved h1 a ha).1
      · simp at ha; subst ha; exact hd
  · intro a ha
    have hh := history_head h1
    rcases ends_stored h3 with rfl | ⟨d, rfl, hd, _⟩
    · cases as with
      | nil => simp at ha
      | cons x xs => simp at ha hh; subst ha; exact hh
    · cases xs with
      | nil => simp at ha hh; subst ha; exact hh
      | cons x xs => simp at ha hh; subst ha; exact hh
  · rcases ends_stored h3 with rfl | ⟨d, rfl, hd, _⟩
    · exact fun a ha => (history_solved h1 a (List.dropLast_subset _ ha)).2
    · intro a ha
      rw [List.dropLast_concat] at ha
      exact (history_solved h1 a ha).2

/-- C48: when `solver` answers true the final solution is the last one stored, when
it answers false it is recorded that there is none, and if it raises the final
solution is left unset. -/
theorem solver_final (c : Setup F R) (human : List SolnData → SplitterStatus)
    (m : String) (split : Splitter) (i₀ : Input F R) (r₀ : Run μ (Stored F R)) (n : ℕ)
    (hm : create_soln_splitter human m = .ok split) (hflags : Flags c) (hr : Fresh r₀)
    (hno : c.no_final_solution = false) :
    ((solver c human m i₀ r₀ n).1 = .ok true →
      ∃ s, (solver c human m i₀ r₀ n).2.1.final = .value (some s) ∧
        (solver c human m i₀ r₀ n).2.1.solutions.getLast = .ok s) ∧
    ((solver c human m i₀ r₀ n).1 = .ok false →
      (solver c human m i₀ r₀ n).2.1.final = .value none) ∧
    (∀ e, (solver c human m i₀ r₀ n).1 = .error e →
      (solver c human m i₀ r₀ n).2.1.final = .delayed) := by
  obtain ⟨xs, ts, i, e, as, ss, heap, next, h1, h2, h3, h4, h5⟩ :=
    solver_outcome c human m split i₀ r₀ n hm hflags hr
  rw [h5]
  have hne : e.setsFinal = true → ∃ ss' s, ss = ss' ++ [s] := by
    intro hf
    have hl := h4.1
    have := ends_nonempty h3 hf
    have hs : ss ≠ [] := by
      rintro rfl
      exact this (List.eq_nil_of_length_eq_zero hl.symm)
    exact ⟨ss.dropLast, ss.getLast hs, (List.dropLast_append_getLast hs).symm⟩
  cases e with
  | exhausted => simp [answerFor, finalFor, hno]
  | gaveUp => simp [answerFor, finalFor, hno]
  | raised e => simp [answerFor, finalFor]
  | found =>
    obtain ⟨ss', s, rfl⟩ := hne rfl
    refine ⟨fun _ => ⟨s, ?_, get_last_most_recent ss' s⟩, by simp [answerFor],
      by simp [answerFor]⟩
    simp [finalFor, hno]
  | stopped =>
    obtain ⟨ss', s, rfl⟩ := hne rfl
    refine ⟨fun _ => ⟨s, ?_, get_last_most_recent ss' s⟩, by simp [answerFor],
      by simp [answerFor]⟩
    simp [finalFor, hno]

/-- C48: if an accepted solution was stored, `solver` answers true and that solution
is the final one. -/
theorem solver_best_is_final (c : Setup F R) (human : List SolnData → SplitterStatus)
    (m : String) (split : Splitter) (i₀ : Input F R) (r₀ : Run μ (Stored F R)) (n : ℕ)
    (hm : create_soln_splitter human m = .ok split) (hflags : Flags c) (hr : Fresh r₀)
    (hno : c.no_final_solution = false) (k : String) (s : Stored F R)
    (hs : Dict.get? (solver c human m i₀ r₀ n).2.1.solutions k = some s)
    (hb : is_solution_best s.soln.data = true) :
    (solver c human m i₀ r₀ n).1 = .ok true ∧
      ∃ f, (solver c human m i₀ r₀ n).2.1.final = .value (some f) ∧
        is_solution_best f.soln.data = true := by
  obtain ⟨xs, ts, i, e, as, ss, heap, next, h1, h2, h3, h4, h5⟩ :=
    solver_outcome c human m split i₀ r₀ n hm hflags hr
  rw [h5] at hs ⊢
  simp only at hs
  have hmem : s ∈ ss := by
    have : ∀ (d : Solutions (Stored F R)) k s, Dict.get? d k = some s → s ∈ d.map Prod.snd := by
      intro d
      induction d with
      | nil => intro k s h; simp [Dict.get?] at h
      | cons p d ih =>
        obtain ⟨a, b⟩ := p
        intro k s h
        simp only [Dict.get?] at h
        split_ifs at h with hk
        · simp at h; simp [h]
        · simp [ih k s h]
    have h := this _ _ _ hs
    simp only [numbered, List.map_map] at h
    obtain ⟨p, hp, rfl⟩ := List.mem_map.1 h
    exact List.fst_mem_of_mem_zipIdx hp
  have hdata : s.soln.data ∈ as.map (·.data) := by
    rw [← (h4.dataOf : _ = _)]
    exact List.mem_map.2 ⟨s, hmem, rfl⟩
  obtain ⟨a, ha, hax⟩ := List.mem_map.1 hdata
  have hab : is_solution_best a.data = true := by rw [hax]; exact hb
  have hlast : ∃ ss' s', ss = ss' ++ [s'] := by
    have hs : ss ≠ [] := by
      rintro rfl
      simp at hmem
    exact ⟨ss.dropLast, ss.getLast hs, (List.dropLast_append_getLast hs).symm⟩
  have hnot : ∀ x ∈ xs, is_solution_best x.data = true → False := fun x hx hbx => by
    rw [(history_solved h1 x hx).2] at hbx
    simp at hbx
  have key : ∀ d, as = xs ++ [⟨i, d⟩] → is_solution_best d = false → False := by
    intro d hd hdb
    rw [hd] at ha
    rcases List.mem_append.1 ha with ha | ha
    · exact hnot a ha hab
    · simp at ha; subst ha
      simp only at hab
      rw [hdb] at hab
      simp at hab
  cases h3 with
  | exhausted => exact (hnot a ha hab).elim
  | noSolution => exact (hnot a ha hab).elim
  | noType _ _ hb' => exact (key _ rfl hb').elim
  | gaveUp _ _ hb' => exact (key _ rfl hb').elim
  | stopped _ _ hb' => exact (key _ rfl hb').elim
  | hangs _ _ hb' => exact (key _ rfl hb').elim
  | @found d _ _ hb' =>
    obtain ⟨ss', s', rfl⟩ := hlast
    refine ⟨rfl, s', by simp [finalFor, hno], ?_⟩
    have hd := h4.dataOf
    unfold DataOf at hd
    rw [List.map_append, List.map_append] at hd
    have := List.append_inj_right' hd rfl
    simp at this
    rw [this]
    exact hb'

end Stepper

end DiscSolver
