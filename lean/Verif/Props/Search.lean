import Verif.Model.Stepper

/-!
# C45: the search loop is bounded and stops at the first success
-/

namespace DiscSolver

namespace Stepper

section

variable {W I O R : Type} (func : I → Code W (O × Bool)) (pass_func : O → ℕ → Code W R)
  (fail_func : O → ℕ → Code W I) (final_fail_func : ℕ → Code W R)

/-- `func`, writing down each call: its input and whether it succeeded (`none`: it
raised). -/
def watched (i : I) : Code (W × List (I × Option Bool)) (O × Bool) := fun w =>
  match func i w.1 with
  | (.ok (o, b), w') => (.ok (o, b), (w', w.2 ++ [(i, some b)]))
  | (.error e, w') => (.error e, (w', w.2 ++ [(i, none)]))

/-- Other code, leaving the record of calls alone. -/
def beside {α : Type} (m : Code W α) : Code (W × List (I × Option Bool)) α := fun w =>
  match m w.1 with
  | (r, w') => (r, (w', w.2))

/-- The search with its calls of `func` written down. -/
def watchedSearch (n : ℕ) (i : I) (w : W) :
    Except Stop (Option R) × W × List (I × Option Bool) :=
  binary_searcher (watched func) (fun o k => beside (pass_func o k))
    (fun o k => beside (fail_func o k)) (fun k => beside (final_fail_func k)) i n (w, [])

theorem watched_search_aux (n k : ℕ) (i : I) (w : W) (l : List (I × Option Bool)) :
    ∃ t : List (I × Option Bool),
      search (watched func) (fun o k => beside (pass_func o k))
        (fun o k => beside (fail_func o k)) (fun k => beside (final_fail_func k)) n k i (w, l) =
        ((search func pass_func fail_func final_fail_func n k i w).1,
         (search func pass_func fail_func final_fail_func n k i w).2, l ++ t) ∧
      t.length ≤ n ∧ (∀ e ∈ t.dropLast, e.2 = some false) ∧
      (0 < n → t.head?.map Prod.fst = some i) := by
  induction n generalizing k i w l with
  | zero => exact ⟨[], by simp [search]⟩
  | succ n ih =>
    have done : ∀ b : Option Bool, ([(i, b)] : List (I × Option Bool)).length ≤ n + 1 ∧
        (∀ e ∈ ([(i, b)] : List (I × Option Bool)).dropLast, e.2 = some false) ∧
        (0 < n + 1 → ([(i, b)] : List (I × Option Bool)).head?.map Prod.fst = some i) := by
      intro b; simp
    cases hf : func i w with
    | mk r w' =>
      cases r with
      | error e =>
        refine ⟨[(i, none)], ?_, done _⟩
        cases e <;> simp [search, watched, hf, beside]
        cases final_fail_func k w' with | mk r w'' => cases r <;> rfl
      | ok p =>
        obtain ⟨o, b⟩ := p
        cases b with
        | true =>
          refine ⟨[(i, some true)], ?_, done _⟩
          cases hp : pass_func o k w' with
          | mk r w'' =>
            cases r with
            | ok r => simp [search, watched, hf, beside, hp]
            | error e =>
              cases e <;> simp [search, watched, hf, beside, hp]
              cases final_fail_func k w'' with | mk r w'' => cases r <;> rfl
        | false =>
          cases hp : fail_func o k w' with
          | mk r w'' =>
            cases r with
            | error e =>
              refine ⟨[(i, some false)], ?_, done _⟩
              cases e <;> simp [search, watched, hf, beside, hp]
              cases final_fail_func k w'' with | mk r w'' => cases r <;> rfl
            | ok i' =>
              obtain ⟨t, h1, h2, h3, -⟩ := ih (k + 1) i' w'' (l ++ [(i, some false)])
              refine ⟨(i, some false) :: t, ?_, by simpa using h2, ?_, by simp⟩
              · simp only [search, watched, hf, beside, hp]
                rw [h1]
                simp
              · intro e he
                cases t with
                | nil => simp at he
                | cons a t =>
                  rw [List.dropLast_cons_of_ne_nil (by simp)] at he
                  rcases List.mem_cons.1 he with rfl | he
                  · rfl
                  · exact h3 e he

/-- C45: writing down the calls changes nothing else. -/
theorem watched_same (n : ℕ) (i : I) (w : W) :
    ((watchedSearch func pass_func fail_func final_fail_func n i w).1,
      (watchedSearch func pass_func fail_func final_fail_func n i w).2.1) =
    binary_searcher func pass_func fail_func final_fail_func i n w := by
  obtain ⟨t, h, -⟩ := watched_search_aux func pass_func fail_func final_fail_func n 0 i w []
  unfold watchedSearch binary_searcher
  rw [h]

/-- C45: whatever the solver, the classification and the file do, a search solves at
most `num_attempts` times, the first time with the input it was given, and every
solve but the last was unsuccessful: it stops at the first success or exception. -/
theorem search_bounded (n : ℕ) (i : I) (w : W) :
    let calls := (watchedSearch func pass_func fail_func final_fail_func n i w).2.2
    calls.length ≤ n ∧ (∀ e ∈ calls.dropLast, e.2 = some false) ∧
      (0 < n → calls.head?.map Prod.fst = some i) := by
  obtain ⟨t, h, h1, h2, h3⟩ :=
    watched_search_aux func pass_func fail_func final_fail_func n 0 i w []
  have : (watchedSearch func pass_func fail_func final_fail_func n i w).2.2 = t := by
    unfold watchedSearch binary_searcher
    rw [h]
    simp
  simp only [this]
  exact ⟨h1, h2, h3⟩

/-- The search got to attempt `k` with input `i` and state `w`: the attempts before
it were unsuccessful, and the failure handler supplied the inputs. -/
inductive Reaches (i₀ : I) (w₀ : W) : ℕ → I → W → Prop
  | start : Reaches i₀ w₀ 0 i₀ w₀
  | next {k : ℕ} {i i' : I} {w w₁ w' : W} {o : O} :
      Reaches i₀ w₀ k i w → func i w = (.ok (o, false), w₁) →
      fail_func o k w₁ = (.ok i', w') → Reaches i₀ w₀ (k + 1) i' w'

variable {func fail_func}

theorem reaches_search {i₀ i : I} {w₀ w : W} {k : ℕ}
    (h : Reaches func fail_func i₀ w₀ k i w) (left : ℕ) :
    binary_searcher func pass_func fail_func final_fail_func i₀ (k + left) w₀ =
      search func pass_func fail_func final_fail_func left k i w := by
  induction h generalizing left with
  | start => rw [Nat.zero_add]; rfl
  | next _ hf hn ih =>
    rw [Nat.add_assoc, Nat.add_comm 1 left, ih (left + 1)]
    simp only [search, hf, hn]

/-- C45: the first successful attempt is the answer. -/
theorem search_first_success {i₀ i : I} {w₀ w w₁ w₂ : W} {k n : ℕ} {o : O} {r : R}
    (h : Reaches func fail_func i₀ w₀ k i w) (hk : k < n)
    (hf : func i w = (.ok (o, true), w₁)) (hp : pass_func o k w₁ = (.ok r, w₂)) :
    binary_searcher func pass_func fail_func final_fail_func i₀ n w₀ =
      (.ok (some r), w₂) := by
  obtain ⟨left, rfl⟩ : ∃ left, n = k + (left + 1) := ⟨n - k - 1, by omega⟩
  rw [reaches_search pass_func final_fail_func h]
  simp only [search, hf, hp]

/-- C45: when every attempt was unsuccessful the search returns `None` and does
nothing else. -/
theorem search_exhausted {i₀ i : I} {w₀ w : W} {n : ℕ}
    (h : Reaches func fail_func i₀ w₀ n i w) :
    binary_searcher func pass_func fail_func final_fail_func i₀ n w₀ = (.ok none, w) := by
  have := reaches_search pass_func final_fail_func h 0
  rw [Nat.add_zero] at this
  rw [this]
  rfl

/-- C45: an attempt ends with `e`: the solve raised it, or the failure handler did
after an unsuccessful solve. -/
def RaisesAt (func : I → Code W (O × Bool)) (fail_func : O → ℕ → Code W I) (k : ℕ)
    (i : I) (w : W) (e : Stop) (w' : W) : Prop :=
  func i w = (.error e, w') ∨
    ∃ o w₁, func i w = (.ok (o, false), w₁) ∧ fail_func o k w₁ = (.error e, w')

/-- C45: a `StepperError` is turned into `None`. -/
theorem search_error {i₀ i : I} {w₀ w w' : W} {k n : ℕ}
    (h : Reaches func fail_func i₀ w₀ k i w) (hk : k < n)
    (he : RaisesAt func fail_func k i w .error w') :
    binary_searcher func pass_func fail_func final_fail_func i₀ n w₀ = (.ok none, w') := by
  obtain ⟨left, rfl⟩ : ∃ left, n = k + (left + 1) := ⟨n - k - 1, by omega⟩
  rw [reaches_search pass_func final_fail_func h]
  rcases he with he | ⟨o, w₁, h1, h2⟩
  · simp only [search, he]
  · simp only [search, h1, h2]

/-- C45: a `StepperStop` hands over to the final handler, with the number of the
attempt that stopped. -/
theorem search_stop {i₀ i : I} {w₀ w w' w'' : W} {k n : ℕ} {r : R}
    (h : Reaches func fail_func i₀ w₀ k i w) (hk : k < n)
    (he : RaisesAt func fail_func k i w .stop w')
    (hf : final_fail_func k w' = (.ok r, w'')) :
    binary_searcher func pass_func fail_func final_fail_func i₀ n w₀ =
      (.ok (some r), w'') := by
  obtain ⟨left, rfl⟩ : ∃ left, n = k + (left + 1) := ⟨n - k - 1, by omega⟩
  rw [reaches_search pass_func final_fail_func h]
  rcases he with he | ⟨o, w₁, h1, h2⟩
  · simp only [search, he, hf]
  · simp only [search, h1, h2, hf]

/-- C45: any other exception ends the search unchanged. -/
theorem search_raises {i₀ i : I} {w₀ w w' : W} {k n : ℕ} {p : PyErr}
    (h : Reaches func fail_func i₀ w₀ k i w) (hk : k < n)
    (he : RaisesAt func fail_func k i w (.py p) w') :
    binary_searcher func pass_func fail_func final_fail_func i₀ n w₀ =
      (.error (.py p), w') := by
  obtain ⟨left, rfl⟩ : ∃ left, n = k + (left + 1) := ⟨n - k - 1, by omega⟩
  rw [reaches_search pass_func final_fail_func h]
  rcases he with he | ⟨o, w₁, h1, h2⟩
  · simp only [search, he]
  · simp only [search, h1, h2]

end

/-! A search for the number two, counting the solves. -/

/-- Succeeds on two; counts its calls. -/
def witFunc (i : ℕ) : Code ℕ (ℕ × Bool) := fun w => (.ok (i, i == 2), w + 1)

/-- Tries the next number. -/
def witFail (o _k : ℕ) : Code ℕ ℕ := fun w => (.ok (o + 1), w)

theorem witReaches (k : ℕ) (hk : k ≤ 2) : Reaches witFunc witFail 0 0 k k k := by
  induction k with
  | zero => exact .start
  | succ k ih =>
    refine .next (ih (by omega)) (o := k) (w₁ := k + 1) ?_ rfl
    have : (k == 2) = false := by simp; omega
    simp [witFunc, this]

example := (search_bounded witFunc (fun o _ w => (.ok o, w)) witFail
  (fun o w => (.ok o, w)) 5 0 0).2.2 (by decide)

example : binary_searcher witFunc (fun o _ w => (.ok o, w)) witFail
    (fun _ w => (.ok 0, w)) 0 100 0 = (.ok (some 2), 3) :=
  search_first_success _ _ (witReaches 2 (by omega)) (by omega) (o := 2) (w₁ := 3) rfl rfl

example : binary_searcher witFunc (fun o _ w => (.ok o, w)) witFail
    (fun _ w => (.ok 0, w)) 0 2 0 = (.ok none, 2) :=
  search_exhausted _ _ (witReaches 2 (by omega))

example : binary_searcher witFunc (fun o _ w => (.ok o, w))
    (fun _ _ w => (.error .stop, w)) (fun k w => (.ok (k + 7), w)) 0 2 0 =
    (.ok (some 7), 1) :=
  search_stop _ _ .start (by omega) (.inr ⟨0, 1, rfl, rfl⟩) rfl

example : binary_searcher witFunc (fun o _ w => (.ok o, w))
    (fun _ _ w => (.error .error, w)) (fun k w => (.ok (k + 7), w)) 0 2 0 =
    (.ok none, 1) :=
  search_error _ _ .start (by omega) (.inr ⟨0, 1, rfl, rfl⟩)

example : binary_searcher witFunc (fun o _ w => (.ok o, w))
    (fun _ _ w => (.error (.py .KeyError), w)) (fun k w => (.ok (k + 7), w)) 0 2 0 =
    (.error (.py .KeyError), 1) :=
  search_raises _ _ .start (by omega) (.inr ⟨0, 1, rfl, rfl⟩)

end Stepper

end DiscSolver
