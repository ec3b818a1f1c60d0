import Verif.Model.TaylorSpace
import Mathlib.Tactic.NormNum
import Mathlib.Data.Real.Basic

/-!
# C53: the inputs of a parameter scan
-/

namespace DiscSolver

namespace TaylorSpace

variable {F : Type}

theorem inputs_get (η_O η_A η_H : F) (γ r a c : List F) (i : ℕ) (inp : SolutionInput F) :
    (inputs η_O η_A η_H γ r a c)[i]? = some inp ↔
      ∃ g v w x, γ[i]? = some g ∧ r[i]? = some v ∧ a[i]? = some w ∧ c[i]? = some x ∧
        inp = sampleInput g v w x η_O η_A η_H := by
  induction γ generalizing r a c i with
  | nil => simp [inputs]
  | cons g γ ih =>
    cases r with
    | nil => simp [inputs]
    | cons v r =>
      cases a with
      | nil => simp [inputs]
      | cons w a =>
        cases c with
        | nil => simp [inputs]
        | cons x c =>
          cases i with
          | zero => simp [inputs, eq_comm]
          | succ i => simpa [inputs] using ih r a c i

theorem inputs_length (η_O η_A η_H : F) (γ r a c : List F) (h1 : γ.length = r.length)
    (h2 : γ.length = a.length) (h3 : γ.length = c.length) :
    (inputs η_O η_A η_H γ r a c).length = γ.length := by
  induction γ generalizing r a c with
  | nil => simp [inputs]
  | cons g γ ih =>
    match r, a, c, h1, h2, h3 with
    | v :: r, w :: a, x :: c, h1, h2, h3 =>
      simp only [List.length_cons, Nat.add_right_cancel_iff] at h1 h2 h3
      simp [inputs, ih r a c h1 h2 h3]

/-- C53, the part that holds: there is one input for each sample, and the `i`-th has
the `i`-th sample of each varied parameter and the requested `η_O`.  Missing: `η_A`
and `η_H`, see `scan_swaps`. -/
theorem scan_partial (γ r a c : List F) (η_O η_A η_H : F) (h1 : γ.length = r.length)
    (h2 : γ.length = a.length) (h3 : γ.length = c.length) :
    ∃ l, solution_input_generator γ r a c η_O η_A η_H = .ok l ∧ l.length = γ.length ∧
      ∀ (i : ℕ) (g v w x : F), γ[i]? = some g → r[i]? = some v → a[i]? = some w →
        c[i]? = some x →
        ∃ inp, l[i]? = some inp ∧ inp .γ = .float g ∧ inp .v_rin_on_c_s = .float v ∧
          inp .v_a_on_c_s = .float w ∧ inp .c_s_on_v_k = .float x ∧
          inp .η_O = .float η_O := by
  refine ⟨inputs η_O η_A η_H γ r a c, ?_, inputs_length _ _ _ _ _ _ _ h1 h2 h3, ?_⟩
  · unfold solution_input_generator
    rw [if_neg (not_not.2 h1), if_neg (not_not.2 h2), if_neg (not_not.2 h3)]
  intro i g v w x hg hv hw hx
  exact ⟨_, (inputs_get _ _ _ _ _ _ _ _ _).2 ⟨g, v, w, x, hg, hv, hw, hx, rfl⟩,
    rfl, rfl, rfl, rfl, rfl⟩

/-- C53: samples of different numbers are refused. -/
theorem scan_mismatch (γ r a c : List F) (η_O η_A η_H : F)
    (h : ¬ (γ.length = r.length ∧ γ.length = a.length ∧ γ.length = c.length)) :
    solution_input_generator γ r a c η_O η_A η_H = .error .RuntimeError := by
  unfold solution_input_generator
  by_cases h1 : γ.length = r.length
  · by_cases h2 : γ.length = a.length
    · by_cases h3 : γ.length = c.length
      · exact absurd ⟨h1, h2, h3⟩ h
      · rw [if_neg (not_not.2 h1), if_neg (not_not.2 h2), if_pos h3]
    · rw [if_neg (not_not.2 h1), if_pos h2]
  · rw [if_pos h1]

/-- C53, false of the code: every input has the requested ambipolar diffusivity as its
Hall one and the other way round, so it has the requested ones just when these are
equal. -/
theorem scan_swaps (γ r a c : List F) (η_O η_A η_H : F) (l : List (SolutionInput F))
    (h : solution_input_generator γ r a c η_O η_A η_H = .ok l) (inp : SolutionInput F)
    (hi : inp ∈ l) :
    inp .η_H = .float η_A ∧ inp .η_A = .float η_H ∧
      ((inp .η_H = .float η_H ∧ inp .η_A = .float η_A) ↔ η_A = η_H) := by
  have hl : l = inputs η_O η_A η_H γ r a c := by
    unfold solution_input_generator at h
    split_ifs at h
    injection h with h
    exact h.symm
  subst hl
  obtain ⟨i, hi⟩ := List.mem_iff_getElem?.1 hi
  obtain ⟨g, v, w, x, -, -, -, -, rfl⟩ := (inputs_get _ _ _ _ _ _ _ _ _).1 hi
  refine ⟨rfl, rfl, ?_, ?_⟩
  · rintro ⟨h, -⟩
    injection h
  · rintro rfl
    exact ⟨rfl, rfl⟩

/-- C53, false of the code: a scan as `ds-plot-taylor-space` makes it, with
`η_H = 0.008` and `η_A = 0.001` requested. -/
theorem scan_wrong :
    ∃ l inp, solution_input_generator [1] [1] [1] [1] (0.005 : ℝ) 0.001 0.008 = .ok l ∧
      inp ∈ l ∧ inp .η_H ≠ .float 0.008 := by
  refine ⟨_, sampleInput 1 1 1 1 0.005 0.001 0.008, rfl, by simp [inputs], ?_⟩
  intro h
  injection h with h
  norm_num at h

/-- C53: the rows of the result are the values of the inputs, in order. -/
theorem scan_rows {τ : Type} (f : SolutionInput F → Except PyErr τ) (γ r a c : List F)
    (η_O η_A η_H : F) (rows : List τ)
    (h : compute_taylor_space f γ r a c η_O η_A η_H = .ok rows) :
    ∃ l, solution_input_generator γ r a c η_O η_A η_H = .ok l ∧
      List.Forall₂ (fun inp row => f inp = .ok row) l rows := by
  unfold compute_taylor_space at h
  cases hg : solution_input_generator γ r a c η_O η_A η_H with
  | error e => simp [hg] at h
  | ok l =>
    simp only [hg] at h
    refine ⟨l, rfl, ?_⟩
    clear hg
    induction l generalizing rows with
    | nil =>
      simp only [List.mapM_nil, pure, Except.pure, Except.ok.injEq] at h
      subst h; exact .nil
    | cons x l ih =>
      rw [List.mapM_cons] at h
      cases hx : f x with
      | error e => simp [hx, bind, Except.bind] at h
      | ok y =>
        cases hl : l.mapM f with
        | error e => simp [hx, hl, bind, Except.bind] at h
        | ok ys =>
          simp only [hx, hl, bind, Except.bind, pure, Except.pure, Except.ok.injEq] at h
          subst h
          exact .cons hx (ih ys hl)

example := scan_partial [1, 2] [3, 4] [5, 6] [7, 8] (0 : ℝ) 1 2 rfl rfl rfl
example := scan_mismatch [1, 2] [3] [5, 6] [7, 8] (0 : ℝ) 1 2 (by simp)
example := scan_swaps [1] [3] [5] [7] (0 : ℝ) 1 2 _ rfl _ (List.mem_singleton.2 rfl)
example := scan_rows (fun inp : SolutionInput ℝ => (.ok (inp .γ) : Except PyErr _))
  [1] [3] [5] [7] (0 : ℝ) 1 2 _ rfl

end TaylorSpace

end DiscSolver
