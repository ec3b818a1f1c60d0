import Verif.Model.Stepper
import Mathlib.Tactic.Linarith
import Mathlib.Tactic.NormNum
import Mathlib.Tactic.FinCases
import Mathlib.Data.List.ReduceOption

/-!
# C49, C50: accepting and classifying solutions
-/

namespace DiscSolver

namespace Stepper

/-- Neighbours in a list. -/
def Adjacent {α : Type} (xs : List α) (a b : α) : Prop :=
  ∃ i, xs[i]? = some a ∧ xs[i + 1]? = some b

/-- Three in a row. -/
def Consecutive {α : Type} (xs : List α) (a b c : α) : Prop :=
  ∃ i, xs[i]? = some a ∧ xs[i + 1]? = some b ∧ xs[i + 2]? = some c

theorem getElem?_diff (xs : List Flt) (i : ℕ) (d : Flt) :
    (diff xs)[i]? = some d ↔ ∃ a b, xs[i]? = some a ∧ xs[i + 1]? = some b ∧
      d = a.bind fun a => b.map fun b => b - a := by
  simp only [diff, List.getElem?_zipWith, List.getElem?_tail]
  cases h1 : xs[i]? <;> cases h2 : xs[i + 1]? <;> simp [eq_comm]

theorem any_below (xs : List Flt) (c : ℝ) :
    xs.any (below c) = true ↔ ∃ x : ℝ, some x ∈ xs ∧ x < c := by
  simp only [List.any_eq_true, below]
  constructor
  · rintro ⟨x, hx, h⟩
    cases x with
    | none => simp at h
    | some x => exact ⟨x, hx, by simpa using h⟩
  · rintro ⟨x, hx, h⟩
    exact ⟨some x, hx, by simpa using h⟩

theorem any_above (xs : List Flt) (c : ℝ) :
    xs.any (above c) = true ↔ ∃ x : ℝ, some x ∈ xs ∧ c < x := by
  simp only [List.any_eq_true, above]
  constructor
  · rintro ⟨x, hx, h⟩
    cases x with
    | none => simp at h
    | some x => exact ⟨x, hx, by simpa using h⟩
  · rintro ⟨x, hx, h⟩
    exact ⟨some x, hx, by simpa using h⟩

theorem mem_diff (xs : List Flt) (d : ℝ) :
    some d ∈ diff xs ↔ ∃ a b : ℝ, Adjacent xs (some a) (some b) ∧ d = b - a := by
  rw [List.mem_iff_getElem?]
  constructor
  · rintro ⟨i, h⟩
    rw [getElem?_diff] at h
    obtain ⟨a, b, ha, hb, hd⟩ := h
    cases a with
    | none => simp at hd
    | some a =>
      cases b with
      | none => simp at hd
      | some b => exact ⟨a, b, ⟨i, ha, hb⟩, by simpa using hd⟩
  · rintro ⟨a, b, ⟨i, ha, hb⟩, hd⟩
    exact ⟨i, (getElem?_diff _ _ _).2 ⟨_, _, ha, hb, by simp [hd]⟩⟩

theorem mem_diff2 (xs : List Flt) (d : ℝ) :
    some d ∈ diff (diff xs) ↔ ∃ a b c : ℝ,
      Consecutive xs (some a) (some b) (some c) ∧ d = (c - b) - (b - a) := by
  rw [mem_diff]
  constructor
  · rintro ⟨p, q, ⟨i, hp, hq⟩, hd⟩
    rw [getElem?_diff] at hp hq
    obtain ⟨a, b, ha, hb, h1⟩ := hp
    obtain ⟨b', c, hb', hc, h2⟩ := hq
    rw [hb] at hb'
    obtain rfl : b = b' := by simpa using hb'
    cases a <;> cases b <;> cases c <;> simp at h1 h2
    exact ⟨_, _, _, ⟨i, ha, hb, hc⟩, by rw [hd, h1, h2]⟩
  · rintro ⟨a, b, c, ⟨i, ha, hb, hc⟩, hd⟩
    exact ⟨b - a, c - b, ⟨i, (getElem?_diff _ _ _).2 ⟨_, _, ha, hb, by simp⟩,
      (getElem?_diff _ _ _).2 ⟨_, _, hb, hc, by simp⟩⟩, hd⟩

/-! ## C49: accepting -/

/-- The samples of a column, NaN left where it was. -/
def column (s : SolnData) (i : Fin 11) : List Flt := s.rows.map (· i)

/-- The samples of the velocity strictly between nine tenths of the sound speed
and the sound speed, in order. -/
noncomputable def nearSonicSamples (s : SolnData) : List ℝ :=
  open Classical in
  (column s iv_θ).reduceOption.filter fun x => decide (0.9 < x ∧ x < 1)

/-- What the acceptance test requires: the integrator succeeded, and among samples
that are numbers the velocity is never negative and never drops from one sample to
the next, and the density, the seventh column (`ODEIndex`), is never negative. -/
structure Valid (s : SolnData) : Prop where
  success : s.flag = some .SUCCESS
  velocity : ∀ x : ℝ, some x ∈ column s iv_θ → 0 ≤ x
  increasing : ∀ a b : ℝ, Adjacent (column s iv_θ) (some a) (some b) → a ≤ b
  density : ∀ x : ℝ, some x ∈ column s 6 → 0 ≤ x

/-- C49: a solution passes validation exactly when it is `Valid`. -/
theorem validate_iff (s : SolnData) : validate_solution s = true ↔ Valid s := by
  unfold validate_solution
  by_cases h0 : s.flag ≠ some .SUCCESS
  · rw [if_pos h0]
    exact ⟨fun h => by simp at h, fun h => absurd h.success h0⟩
  rw [if_neg h0]
  push Not at h0
  have e1 : ((s.rows.map (· iv_θ)).any (below 0) = true) ↔
      ¬ ∀ x : ℝ, some x ∈ column s iv_θ → 0 ≤ x := by
    rw [any_below]; push Not; rfl
  have e2 : ((diff (s.rows.map (· iv_θ))).any (below 0) = true) ↔
      ¬ ∀ a b : ℝ, Adjacent (column s iv_θ) (some a) (some b) → a ≤ b := by
    rw [any_below]
    push Not
    constructor
    · rintro ⟨x, hx, hlt⟩
      obtain ⟨a, b, hab, rfl⟩ := (mem_diff _ _).1 hx
      exact ⟨a, b, hab, by linarith⟩
    · rintro ⟨a, b, hab, hlt⟩
      exact ⟨b - a, (mem_diff _ _).2 ⟨a, b, hab, rfl⟩, by linarith⟩
  have e3 : ((s.rows.map (· iρ)).any (below 0) = true) ↔
      ¬ ∀ x : ℝ, some x ∈ column s iρ → 0 ≤ x := by
    rw [any_below]; push Not; rfl
  constructor
  · intro h
    simp only [Bool.if_false_left, Bool.and_eq_true, Bool.not_eq_true',
      Bool.decide_eq_true, Bool.and_true] at h
    rw [← Bool.not_eq_true, ← Bool.not_eq_true, ← Bool.not_eq_true, e1, e2, e3,
      not_not, not_not, not_not] at h
    exact ⟨h0, h.1, h.2.1, h.2.2⟩
  · rintro ⟨_, h1, h2, h3⟩
    have f1 := mt e1.1 (not_not_intro h1)
    have f2 := mt e2.1 (not_not_intro h2)
    have f3 := mt e3.1 (not_not_intro h3)
    simp only [f1, f2, f3]
    rfl

theorem near_sonic_eq (s : SolnData) :
    near_sonic cutoff (s.rows.map (· iv_θ)) = (nearSonicSamples s).map some := by
  unfold nearSonicSamples column near_sonic cutoff
  generalize s.rows.map (· iv_θ) = l
  induction l with
  | nil => rfl
  | cons x l ih =>
    cases x with
    | none =>
      rw [List.filter_cons_of_neg (by simp [above]), ih, List.reduceOption_cons_of_none]
    | some x =>
      rw [List.reduceOption_cons_of_some]
      by_cases h : (0.9 : ℝ) < x ∧ x < 1
      · rw [List.filter_cons_of_pos (by simpa [above, below] using h),
          List.filter_cons_of_pos (by simpa using h), List.map_cons, ih]
      · rw [List.filter_cons_of_neg (by simpa [above, below] using h),
          List.filter_cons_of_neg (by simpa using h), ih]

theorem consecutive_map (xs : List ℝ) (a b c : ℝ) :
    Consecutive (xs.map some) (some a) (some b) (some c) ↔ Consecutive xs a b c := by
  simp [Consecutive]

/-- C49: a solution is taken as the best one exactly when it is `Valid`, some
sample is near the sound speed, and the velocity never curves upwards over the
samples that are. -/
theorem best_iff (s : SolnData) :
    is_solution_best s = true ↔ Valid s ∧ nearSonicSamples s ≠ [] ∧
      ∀ a b c : ℝ, Consecutive (nearSonicSamples s) a b c → c - b ≤ b - a := by
  unfold is_solution_best
  simp only [near_sonic_eq]
  by_cases h0 : validate_solution s = true
  · rw [if_neg (by simp [h0])]
    have hv := (validate_iff s).1 h0
    by_cases h1 : nearSonicSamples s = []
    · simp [h1]
    · have e1 : ¬ ((nearSonicSamples s).map some).isEmpty = true := by simpa using h1
      rw [if_neg e1]
      have e2 : (diff (diff ((nearSonicSamples s).map some))).any (above 0) = true ↔
          ¬ ∀ a b c : ℝ, Consecutive (nearSonicSamples s) a b c → c - b ≤ b - a := by
        rw [any_above]
        push Not
        constructor
        · rintro ⟨x, hx, hlt⟩
          obtain ⟨a, b, c, hab, rfl⟩ := (mem_diff2 _ _).1 hx
          exact ⟨a, b, c, (consecutive_map _ _ _ _).1 hab, by linarith⟩
        · rintro ⟨a, b, c, hab, hlt⟩
          exact ⟨_, (mem_diff2 _ _).2 ⟨a, b, c, (consecutive_map _ _ _ _).2 hab, rfl⟩,
            by linarith⟩
      constructor
      · intro h
        refine ⟨hv, h1, ?_⟩
        by_contra hc
        rw [if_pos (e2.2 hc)] at h
        exact absurd h (by simp)
      · rintro ⟨_, _, h2⟩
        rw [if_neg (mt e2.1 (not_not_intro h2))]
  · rw [if_pos (by simpa using h0)]
    constructor
    · intro h; simp at h
    · rintro ⟨hv, -⟩
      exact absurd ((validate_iff s).2 hv) h0

/-- C49: a solution all of whose samples are numbers and that is accepted has its
velocities in increasing order. -/
theorem valid_sorted (s : SolnData) (hn : ∀ x ∈ column s iv_θ, x ≠ none)
    (h : validate_solution s = true) :
    (column s iv_θ).reduceOption.Pairwise (· ≤ ·) := by
  have hv := ((validate_iff s).1 h).increasing
  generalize column s iv_θ = l at hn hv
  have : l = l.reduceOption.map some := by
    clear hv h
    induction l with
    | nil => rfl
    | cons x l ih =>
      cases x with
      | none => exact absurd rfl (hn none (by simp))
      | some x =>
        rw [List.reduceOption_cons_of_some, List.map_cons,
          ← ih fun y hy => hn y (by simp [hy])]
  rw [this] at hv
  have hc : List.IsChain (· ≤ ·) l.reduceOption := by
    rw [List.isChain_iff_getElem]
    intro i hi
    refine hv _ _ ⟨i, ?_, ?_⟩
    · rw [List.getElem?_map, List.getElem?_eq_getElem (by omega)]; rfl
    · rw [List.getElem?_map, List.getElem?_eq_getElem (by omega)]; rfl
  exact List.isChain_iff_pairwise.1 hc

/-- A row whose velocity is `v` and whose other entries are one. -/
def rowV (v : ℝ) : Row := fun i => if i = iv_θ then some v else some 1

/-- A solution with the given velocities. -/
def solnV (vs : List ℝ) (d : Option Internal) : SolnData := ⟨some .SUCCESS, vs.map rowV, d⟩

theorem column_solnV (vs : List ℝ) (d : Option Internal) :
    column (solnV vs d) iv_θ = vs.map some := by
  simp [column, solnV, rowV]

theorem column_solnV_ρ (vs : List ℝ) (d : Option Internal) :
    column (solnV vs d) 6 = vs.map (fun _ => some 1) := by
  simp only [column, solnV, List.map_map]
  rfl

theorem solnV_valid (vs : List ℝ) (d : Option Internal) (h0 : ∀ v ∈ vs, 0 ≤ v)
    (hs : vs.Pairwise (· ≤ ·)) : Valid (solnV vs d) := by
  refine ⟨rfl, ?_, ?_, ?_⟩
  · intro x hx
    rw [column_solnV] at hx
    exact h0 x (by simpa using hx)
  · rintro a b ⟨i, ha, hb⟩
    rw [column_solnV, List.getElem?_map] at ha hb
    have hi : i + 1 < vs.length := by
      by_contra hc
      rw [List.getElem?_eq_none (by omega)] at hb
      simp at hb
    rw [List.getElem?_eq_getElem (by omega)] at ha hb
    simp only [Option.map_some, Option.some.injEq] at ha hb
    rw [← ha, ← hb]
    exact List.pairwise_iff_getElem.1 hs i (i + 1) (by omega) hi (by omega)
  · intro x hx
    rw [column_solnV_ρ] at hx
    simp only [List.mem_map, Option.some.injEq] at hx
    obtain ⟨_, _, rfl⟩ := hx
    norm_num

/-- A solution that slows its growth near the sound speed. -/
def witBest : SolnData := solnV [0, 0.5, 0.91, 0.95, 0.97] none

theorem witBest_near : nearSonicSamples witBest = [0.91, 0.95, 0.97] := by
  unfold nearSonicSamples witBest
  rw [column_solnV]
  simp [List.reduceOption]
  norm_num

theorem witBest_best : is_solution_best witBest = true := by
  rw [best_iff, witBest_near]
  refine ⟨solnV_valid _ _ ?_ ?_, by simp, ?_⟩
  · intro v hv; fin_cases hv <;> norm_num
  · norm_num [List.pairwise_cons]
  · rintro a b c ⟨i, ha, hb, hc⟩
    have hi : i = 0 := by
      by_contra hne
      rw [List.getElem?_eq_none (by simp; omega)] at hc
      simp at hc
    subst hi
    simp at ha hb hc
    rw [← ha, ← hb, ← hc]
    norm_num

example : (column witBest iv_θ).reduceOption.Pairwise (· ≤ ·) :=
  valid_sorted witBest (by
    intro x hx
    unfold witBest at hx
    rw [column_solnV] at hx
    obtain ⟨v, _, rfl⟩ := List.mem_map.1 hx
    simp) ((validate_iff _).2 ((best_iff _).1 witBest_best).1)

/-- C49: not-a-number is not noticed: a solution that is nothing else passes
validation whenever the integrator reported success. -/
theorem validate_accepts_nan (n : ℕ) (d : Option Internal) :
    validate_solution ⟨some .SUCCESS, List.replicate n fun _ => none, d⟩ = true := by
  rw [validate_iff]
  refine ⟨rfl, ?_, ?_, ?_⟩
  · intro x hx
    simp [column] at hx
  · rintro a b ⟨i, ha, -⟩
    have := List.mem_of_getElem? ha
    simp [column] at this
  · intro x hx
    simp [column] at hx

/-- C49: but such a solution is never taken as the best one. -/
theorem nan_not_best (s : SolnData) (h : ∀ x ∈ column s iv_θ, x = none) :
    is_solution_best s = false := by
  rw [Bool.eq_false_iff]
  intro hb
  refine ((best_iff s).1 hb).2.1 ?_
  unfold nearSonicSamples
  have : (column s iv_θ).reduceOption = [] := by
    rw [List.eq_nil_iff_forall_not_mem]
    intro x hx
    rw [List.reduceOption_mem_iff] at hx
    simpa using h _ hx
  rw [this]
  rfl

example : is_solution_best ⟨some .SUCCESS, [fun _ => none], none⟩ = false :=
  nan_not_best _ (by simp [column])

/-! ## C50: classifying -/

theorem sorted_iff (l : List ℝ) :
    is_monotonically_increasing l = true ↔ l.Pairwise (· ≤ ·) := by
  rw [← List.isChain_iff_pairwise]
  unfold is_monotonically_increasing
  induction l with
  | nil => simp
  | cons a l ih =>
    cases l with
    | nil => simp
    | cons b l =>
      rw [List.isChain_cons_cons, ← ih]
      simp

/-- What the velocities alone say: the solution diverges when some sample is near
the sound speed and either some sample is above it or the ones near it are in
increasing order. -/
def DivergesByVelocity (s : SolnData) : Prop :=
  nearSonicSamples s ≠ [] ∧
    ((∃ x : ℝ, some x ∈ column s iv_θ ∧ 1 < x) ∨ (nearSonicSamples s).Pairwise (· ≤ ·))

/-- C50 (the part that holds): without internal data the decision is made by the
velocities.  Missing: with internal data the derivatives of the velocity should
decide, and do not. -/
theorem splitter_velocity_partial (s : SolnData) (h : s.internal = none) :
    (DivergesByVelocity s → v_θ_deriv_splitter s = .ok .DIVERGE) ∧
    (¬ DivergesByVelocity s → v_θ_deriv_splitter s = .ok .SIGN_FLIP) := by
  unfold v_θ_deriv_splitter DivergesByVelocity
  simp only [near_sonic_eq, h]
  have hr : ((nearSonicSamples s).map some).reduceOption = nearSonicSamples s := by
    simp [List.reduceOption, List.filterMap_map]
  have ha : ((s.rows.map (· iv_θ)).any (above 1) = true) ↔
      ∃ x : ℝ, some x ∈ column s iv_θ ∧ 1 < x := any_above _ _
  rw [hr]
  by_cases h1 : nearSonicSamples s = []
  · simp [h1]
  · rw [if_neg (by simpa using h1)]
    by_cases h2 : ∃ x : ℝ, some x ∈ column s iv_θ ∧ 1 < x
    · rw [if_pos (ha.2 h2)]
      exact ⟨fun _ => rfl, fun hc => absurd ⟨h1, .inl h2⟩ hc⟩
    · rw [if_neg (mt ha.1 h2)]
      by_cases h3 : (nearSonicSamples s).Pairwise (· ≤ ·)
      · rw [if_pos ((sorted_iff _).2 h3)]
        exact ⟨fun _ => rfl, fun hc => absurd ⟨h1, .inr h3⟩ hc⟩
      · rw [if_neg (mt (sorted_iff _).1 h3)]
        refine ⟨?_, fun _ => rfl⟩
        rintro ⟨_, h | h⟩
        · exact absurd h h2
        · exact absurd h h3

example : v_θ_deriv_splitter witBest = .ok .DIVERGE :=
  (splitter_velocity_partial witBest rfl).1
    ⟨by rw [witBest_near]; simp, .inr (by rw [witBest_near]; norm_num [List.pairwise_cons])⟩

/-- C50: a recorded negative velocity always means a sign flip. -/
theorem splitter_negative_velocity (s : SolnData) (d : Internal)
    (h : s.internal = some d) (k : String) (ms : List String)
    (hk : (k, ms) ∈ d.problems) (hm : "negative velocity" ∈ ms) :
    v_θ_deriv_splitter s = .ok .SIGN_FLIP := by
  unfold v_θ_deriv_splitter
  simp only [h]
  rw [if_pos]
  rw [List.any_eq_true]
  exact ⟨_, hk, by simpa using hm⟩

example : v_θ_deriv_splitter (solnV [0, 1] (some ⟨[("0.5", ["negative velocity"])], []⟩)) =
    .ok .SIGN_FLIP :=
  splitter_negative_velocity _ _ rfl "0.5" ["negative velocity"] (by simp) (by simp)

/-- No list of problems mentions a negative velocity. -/
def NoNegativeVelocity (d : Internal) : Prop :=
  ∀ e ∈ d.problems, "negative velocity" ∉ e.2

/-- C50: the exact use made of internal data: the sixth recorded evaluation's
derivatives, taken across the eleven variables in order, decide first. -/
theorem splitter_sixth_row (s : SolnData) (d : Internal) (row : Row)
    (h : s.internal = some d) (hp : NoNegativeVelocity d) (hr : d.derivs[5]? = some row) :
    ((∃ a b c : ℝ, Consecutive (List.ofFn row) (some a) (some b) (some c) ∧
        b - a < c - b) → v_θ_deriv_splitter s = .ok .DIVERGE) ∧
    ((∀ a b c : ℝ, Consecutive (List.ofFn row) (some a) (some b) (some c) →
        c - b ≤ b - a) →
      (∃ a b : ℝ, Adjacent (List.ofFn row) (some a) (some b) ∧ b < a) →
      v_θ_deriv_splitter s = .ok .SIGN_FLIP) ∧
    ((∀ a b c : ℝ, Consecutive (List.ofFn row) (some a) (some b) (some c) →
        c - b ≤ b - a) →
      (∀ a b : ℝ, Adjacent (List.ofFn row) (some a) (some b) → a ≤ b) →
      v_θ_deriv_splitter s = v_θ_deriv_splitter { s with internal := none }) := by
  have hno : ¬ (d.problems.any (fun e => e.2.contains "negative velocity") = true) := by
    rw [List.any_eq_true]
    rintro ⟨e, he, hc⟩
    exact hp e he (by simpa using hc)
  have hr' : d.derivs[(iv_θ : ℕ)]? = some row := hr
  have e1 : (diff (diff (List.ofFn row))).any (above 0) = true ↔
      ∃ a b c : ℝ, Consecutive (List.ofFn row) (some a) (some b) (some c) ∧
        b - a < c - b := by
    rw [any_above]
    constructor
    · rintro ⟨x, hx, hlt⟩
      obtain ⟨a, b, c, hc, rfl⟩ := (mem_diff2 _ _).1 hx
      exact ⟨a, b, c, hc, by linarith⟩
    · rintro ⟨a, b, c, hc, hlt⟩
      exact ⟨_, (mem_diff2 _ _).2 ⟨a, b, c, hc, rfl⟩, by linarith⟩
  have e2 : (diff (List.ofFn row)).any (below 0) = true ↔
      ∃ a b : ℝ, Adjacent (List.ofFn row) (some a) (some b) ∧ b < a := by
    rw [any_below]
    constructor
    · rintro ⟨x, hx, hlt⟩
      obtain ⟨a, b, hc, rfl⟩ := (mem_diff _ _).1 hx
      exact ⟨a, b, hc, by linarith⟩
    · rintro ⟨a, b, hc, hlt⟩
      exact ⟨_, (mem_diff _ _).2 ⟨a, b, hc, rfl⟩, by linarith⟩
  refine ⟨fun h1 => ?_, fun h1 h2 => ?_, fun h1 h2 => ?_⟩
  · unfold v_θ_deriv_splitter
    simp only [h, hr']
    rw [if_neg hno, if_pos (e1.2 h1)]
  · unfold v_θ_deriv_splitter
    simp only [h, hr']
    rw [if_neg hno, if_neg, if_pos (e2.2 h2)]
    rw [e1]
    push Not
    exact h1
  · unfold v_θ_deriv_splitter
    simp only [h, hr']
    rw [if_neg hno, if_neg, if_neg]
    · rw [e2]; push Not; exact h2
    · rw [e1]; push Not; exact h1

/-- The sixth evaluation rises ever faster. -/
example : v_θ_deriv_splitter (solnV [0.5] (some ⟨[("0.5", ["small"])],
    List.replicate 5 (rowV 1) ++ [fun i => if i = 2 then some 3 else some 1]⟩)) =
      .ok .DIVERGE := by
  refine (splitter_sixth_row _ _ (fun i => if i = 2 then some 3 else some 1) rfl
    (by simp [NoNegativeVelocity]) (by simp)).1 ⟨1, 1, 3, ⟨0, ?_, ?_, ?_⟩, by norm_num⟩ <;>
  simp [List.ofFn_succ]

/-- C50 is false of the code: the derivatives recorded at any other evaluation,
of the velocity or anything else, do not matter at all. -/
theorem splitter_ignores_derivatives (s : SolnData) (p : Problems)
    (derivs derivs' : List Row) (h : derivs[5]? = derivs'[5]?) :
    v_θ_deriv_splitter { s with internal := some ⟨p, derivs⟩ } =
      v_θ_deriv_splitter { s with internal := some ⟨p, derivs'⟩ } := by
  have h' : derivs[(iv_θ : ℕ)]? = derivs'[(iv_θ : ℕ)]? := h
  unfold v_θ_deriv_splitter
  simp only [h']

example : v_θ_deriv_splitter { witBest with internal := some ⟨[], List.replicate 6 (rowV 1)⟩ } =
    v_θ_deriv_splitter { witBest with internal := some ⟨[], List.replicate 5 (rowV 7) ++ [rowV 1]⟩ } :=
  splitter_ignores_derivatives witBest [] _ _ (by simp)

/-- Internal data with six evaluations: the velocity's derivative is always one,
the first field's is `x` at the sixth evaluation. -/
def witInternal (x : ℝ) : Internal :=
  ⟨[], List.replicate 5 (fun _ => some 1) ++ [fun i => if i = 0 then some x else some 1]⟩

/-- C50 is false of the code: two solutions with the same velocities and the same
velocity derivatives at every evaluation are classified differently, because the
derivative of the radial field differs. -/
theorem splitter_not_v_θ_deriv : ∃ s s' : SolnData, ∃ d d' : Internal,
    s.internal = some d ∧ s'.internal = some d' ∧ s.rows = s'.rows ∧
    d.problems = d'.problems ∧
    d.derivs.map (· iv_θ) = d'.derivs.map (· iv_θ) ∧
    v_θ_deriv_splitter s = .ok .DIVERGE ∧ v_θ_deriv_splitter s' = .ok .SIGN_FLIP := by
  refine ⟨solnV [0.5] (some (witInternal 2)), solnV [0.5] (some (witInternal 1)),
    witInternal 2, witInternal 1, rfl, rfl, rfl, rfl, by simp [witInternal, iv_θ], ?_, ?_⟩
  · refine (splitter_sixth_row _ (witInternal 2) _ rfl (by simp [NoNegativeVelocity, witInternal])
      (by simp [witInternal]; rfl)).1 ⟨2, 1, 1, ⟨0, ?_, ?_, ?_⟩, by norm_num⟩ <;>
    simp [List.ofFn_succ]
  · rw [(splitter_sixth_row _ (witInternal 1) (fun _ => some 1) rfl
      (by simp [NoNegativeVelocity, witInternal]) (by simp [witInternal])).2.2]
    · refine (splitter_velocity_partial _ rfl).2 ?_
      rintro ⟨h, -⟩
      refine h ?_
      unfold nearSonicSamples
      simp only [solnV, column, rowV, List.map_cons, List.map_nil, if_true,
        List.reduceOption, List.filterMap_cons, List.filterMap_nil, id]
      rw [List.filter_cons_of_neg (by norm_num)]
      rfl
    · rintro a b c ⟨i, ha, hb, hc⟩
      have h1 := List.mem_of_getElem? ha
      have h2 := List.mem_of_getElem? hb
      have h3 := List.mem_of_getElem? hc
      simp at h1 h2 h3
      rw [h1, h2, h3]
    · rintro a b ⟨i, ha, hb⟩
      have h1 := List.mem_of_getElem? ha
      have h2 := List.mem_of_getElem? hb
      simp at h1 h2
      rw [h1, h2]

/-- C50: with fewer than six recorded evaluations the classification fails. -/
theorem splitter_short (s : SolnData) (d : Internal) (h : s.internal = some d)
    (hp : NoNegativeVelocity d) (hl : d.derivs.length < 6) :
    v_θ_deriv_splitter s = .error .IndexError := by
  have hno : ¬ (d.problems.any (fun e => e.2.contains "negative velocity") = true) := by
    rw [List.any_eq_true]
    rintro ⟨e, he, hc⟩
    exact hp e he (by simpa using hc)
  have hr : d.derivs[(iv_θ : ℕ)]? = none := by
    rw [List.getElem?_eq_none_iff]
    have : (iv_θ : ℕ) = 5 := rfl
    omega
  unfold v_θ_deriv_splitter
  simp only [h, hr]
  rw [if_neg hno]

example : v_θ_deriv_splitter (solnV [0.5] (some ⟨[], [rowV 1]⟩)) = .error .IndexError :=
  splitter_short _ _ rfl (by simp [NoNegativeVelocity]) (by simp)

/-- C50: a method that is not one of the two known ones fails instead of falling
back to the default. -/
theorem splitter_unknown (human : List SolnData → SplitterStatus) (m : String) :
    (∃ f, create_soln_splitter human m = .ok f) ↔ m = "v_θ_deriv" ∨ m = "human" := by
  unfold create_soln_splitter
  by_cases h1 : m = "v_θ_deriv"
  · simp [h1]
  · by_cases h2 : m = "human"
    · simp [h2]
    · simp [h1, h2]

example : ¬ ∃ f, create_soln_splitter (fun _ => .STOP) "v_theta_deriv" = .ok f := by
  rw [splitter_unknown]
  decide

end Stepper

end DiscSolver
