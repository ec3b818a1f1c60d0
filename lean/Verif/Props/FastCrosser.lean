import Verif.Model.FastCrosser
import Verif.Props.Search
import Verif.Props.Containers
import Mathlib.Tactic.Linarith
import Mathlib.Tactic.NormNum
import Mathlib.Tactic.FieldSimp

/-!
# C51: the fast-crosser search
-/

namespace DiscSolver

namespace FastCrosser

open Stepper (Code Stop)

/-- Attempt `k` of a search starting at velocity `v₀`, when attempt `i` has quality
`Q i`: its velocity and the state before it; `none` if the search stopped earlier. -/
noncomputable def attempt (step_size v₀ : ℝ) (Q : ℕ → Flt) : ℕ → Option (ℝ × Vars)
  | 0 => some (v₀, {})
  | k + 1 =>
    match attempt step_size v₀ Q k with
    | none => none
    | some (v, s) =>
      match step step_size v (Q k) s with
      | (.ok v', s') => some (v', s')
      | (.error _, _) => none

/-- The velocity of attempt `k`. -/
noncomputable def velocity (step_size v₀ : ℝ) (Q : ℕ → Flt) (k : ℕ) : Option ℝ :=
  (attempt step_size v₀ Q k).map Prod.fst

/-- The order of the phases. -/
def Phase.rank : Phase → ℕ
  | .STARTING => 0
  | .FINDING_MAX => 1
  | .FINDING_MIN => 2
  | .BISECTING => 3

/-- C51: an attempt moves the search to the same phase or the next one. -/
theorem phases_forward (step_size v : ℝ) (q : Flt) (s : Vars) :
    s.phase.rank ≤ (step step_size v q s).2.phase.rank ∧
      (step step_size v q s).2.phase.rank ≤ s.phase.rank + 1 := by
  rcases s with ⟨mn, mnv, mx, mxv, md, mdv, ph⟩
  cases ph
  · simp [step, Phase.rank]
  · cases mxv <;> cases mn <;> simp only [step] <;> (try split_ifs) <;> simp [Phase.rank]
  · cases mnv <;> cases mn <;> cases mx <;> simp only [step] <;> (try split_ifs) <;>
      simp [Phase.rank]
  · cases md <;> cases mn <;> cases mx <;> cases mdv <;> simp only [step] <;>
      (try split_ifs) <;> simp [Phase.rank]

theorem golden_inv : 1 / (GOLDEN_RATIO - 1) = GOLDEN_RATIO := by
  have h5 : Real.sqrt 5 ^ 2 = 5 := Real.sq_sqrt (by norm_num)
  have h1 : (1 : ℝ) < Real.sqrt 5 := by
    rw [show (1 : ℝ) = Real.sqrt 1 by simp]
    exact Real.sqrt_lt_sqrt (by norm_num) (by norm_num)
  have h : GOLDEN_RATIO - 1 ≠ 0 := by
    unfold GOLDEN_RATIO
    intro h
    linarith
  rw [div_eq_iff h]
  unfold GOLDEN_RATIO
  nlinarith [h5]

theorem golden_pos : 0 < GOLDEN_RATIO := by
  unfold GOLDEN_RATIO
  positivity

section

variable {step_size v₀ : ℝ} {Q : ℕ → Flt}

theorem attempt_succ {k : ℕ} {v v' : ℝ} {s s' : Vars}
    (h : attempt step_size v₀ Q k = some (v, s))
    (hs : step step_size v (Q k) s = (.ok v', s')) :
    attempt step_size v₀ Q (k + 1) = some (v', s') := by
  simp only [attempt, h, hs]

/-- The state during the upward sweep. -/
noncomputable def upState (step_size v₀ : ℝ) (Q : ℕ → Flt) (m : ℕ) : Vars :=
  { min := some v₀, min_val := some (Q 0), max := some (v₀ + m * step_size),
    max_val := some (Q m), phase := .FINDING_MAX }

theorem up_sweep (m : ℕ) (h : ∀ i < m, gt (Q (i + 1)) (Q i) = true) :
    attempt step_size v₀ Q (m + 1) =
      some (v₀ + (m + 1) * step_size, upState step_size v₀ Q m) := by
  induction m with
  | zero => simp [attempt, step, upState]
  | succ m ih =>
    refine attempt_succ (ih fun i hi => h i (by omega)) ?_
    simp only [step, upState, h m (by omega), if_true, Nat.cast_succ]
    congr 2
    ring

/-- The quality the downward sweep has to beat at its step `l`. -/
def downBest (Q : ℕ → Flt) (m l : ℕ) : Flt := if l = 0 then Q 0 else Q (m + 1 + l)

noncomputable def downState (step_size v₀ : ℝ) (Q : ℕ → Flt) (m l : ℕ) : Vars :=
  { min := some (v₀ - l * step_size), min_val := some (downBest Q m l),
    max := some (v₀ + m * step_size), max_val := some (Q m), phase := .FINDING_MIN }

theorem down_sweep (m l : ℕ) (h : ∀ i < m, gt (Q (i + 1)) (Q i) = true)
    (hm : gt (Q (m + 1)) (Q m) = false)
    (hl : ∀ j < l, gt (Q (m + 2 + j)) (downBest Q m j) = true) :
    attempt step_size v₀ Q (m + 2 + l) =
      some (v₀ - (l + 1) * step_size, downState step_size v₀ Q m l) := by
  induction l with
  | zero =>
    refine attempt_succ (up_sweep m h) ?_
    simp [step, upState, hm, downState, downBest]
  | succ l ih =>
    refine attempt_succ (k := m + 2 + l) (ih fun j hj => hl j (by omega)) ?_
    have hb : downBest Q m (l + 1) = Q (m + 2 + l) := by
      unfold downBest
      rw [if_neg (by omega)]
      congr 1
      omega
    simp only [step, downState, hl l (by omega), if_true, Nat.cast_succ, hb]
    exact Prod.ext (congrArg Except.ok (by ring)) rfl

end

/-- The sweeps of a search: `m` attempts above the start improved on the one before
and the next did not, then `l` attempts below the start improved and the next did
not. -/
structure Sweeps (Q : ℕ → Flt) (m l : ℕ) : Prop where
  up : ∀ i < m, gt (Q (i + 1)) (Q i) = true
  up_end : gt (Q (m + 1)) (Q m) = false
  down : ∀ j < l, gt (Q (m + 2 + j)) (if j = 0 then Q 0 else Q (m + 2 + (j - 1))) = true
  down_end : gt (Q (m + 2 + l)) (if l = 0 then Q 0 else Q (m + 2 + (l - 1))) = false

theorem downBest_eq (Q : ℕ → Flt) (m j : ℕ) :
    (if j = 0 then Q 0 else Q (m + 2 + (j - 1))) = downBest Q m j := by
  unfold downBest
  by_cases h : j = 0
  · simp [h]
  · rw [if_neg h, if_neg h]
    congr 1
    omega

/-- C51: while attempts above the start keep improving, the search goes on up. -/
theorem climbs (step_size v₀ : ℝ) (Q : ℕ → Flt) (h : ∀ i, gt (Q (i + 1)) (Q i) = true)
    (k : ℕ) : velocity step_size v₀ Q k = some (v₀ + k * step_size) := by
  cases k with
  | zero => simp [velocity, attempt]
  | succ k => simp [velocity, up_sweep k fun i _ => h i]

/-- C51: the upward sweep tries `v₀, v₀ + s, …, v₀ + (m + 1) s`. -/
theorem upward_sweep (step_size v₀ : ℝ) (Q : ℕ → Flt) {m l : ℕ} (h : Sweeps Q m l)
    (k : ℕ) (hk : k ≤ m + 1) :
    velocity step_size v₀ Q k = some (v₀ + k * step_size) := by
  cases k with
  | zero => simp [velocity, attempt]
  | succ k => simp [velocity, up_sweep k fun i hi => h.up i (by omega)]

/-- C51: the downward sweep tries `v₀ - s, …, v₀ - (l + 1) s`. -/
theorem downward_sweep (step_size v₀ : ℝ) (Q : ℕ → Flt) {m l : ℕ} (h : Sweeps Q m l)
    (j : ℕ) (hj : j ≤ l) :
    velocity step_size v₀ Q (m + 2 + j) = some (v₀ - (j + 1) * step_size) := by
  simp [velocity, down_sweep m j h.up h.up_end
    fun i hi => (downBest_eq Q m i) ▸ h.down i (by omega)]

/-- C51: if neither direction improves on the start, the search stops. -/
theorem stuck_stops (step_size v₀ : ℝ) (Q : ℕ → Flt) (h : Sweeps Q 0 0) (k : ℕ) :
    velocity step_size v₀ Q (3 + k) = none := by
  have h3 : attempt step_size v₀ Q 3 = none := by
    have h2 : attempt step_size v₀ Q 2 = some (_, downState step_size v₀ Q 0 0) :=
      down_sweep 0 0 h.up h.up_end (by simp)
    have hd : gt (Q 2) (downBest Q 0 0) = false := (downBest_eq Q 0 0) ▸ h.down_end
    rw [show 3 = 2 + 1 from rfl, attempt, h2]
    simp [step, downState, hd]
  induction k with
  | zero => simp [velocity, h3]
  | succ k ih =>
    have : attempt step_size v₀ Q (3 + k) = none := by simpa [velocity] using ih
    simp [velocity, attempt, this]

/-- What holds of the third phase of a search whose bracket was `[lo, hi]`. -/
structure Outside (lo hi v : ℝ) (s : Vars) : Prop where
  phase : s.phase = .BISECTING
  state : ∃ min max mid : ℝ, ∃ mid_val : Flt, s.min = some min ∧ s.max = some max ∧
    s.mid = some mid ∧ s.mid_val = some mid_val ∧ v + mid = min + max ∧
    ((v < min ∧ max < mid ∧ v ≤ lo - GOLDEN_RATIO * (hi - lo) ∧
        hi + GOLDEN_RATIO * (hi - lo) ≤ mid) ∨
     (mid < min ∧ max < v ∧ mid ≤ lo - GOLDEN_RATIO * (hi - lo) ∧
        hi + GOLDEN_RATIO * (hi - lo) ≤ v)) ∧ min ≤ max

theorem outside_step {lo hi v step_size : ℝ} {s : Vars} (q : Flt)
    (h : Outside lo hi v s) :
    ∃ v' s', step step_size v q s = (.ok v', s') ∧ Outside lo hi v' s' := by
  obtain ⟨hp, mn, mx, md, mv, h1, h2, h3, h4, hsum, hs, hle⟩ := h
  rcases s with ⟨a, av, b, bv, c, cv, ph⟩
  simp only at hp h1 h2 h3 h4
  subst hp h1 h2 h3 h4
  rcases hs with ⟨ha, hb, hc, hd⟩ | ⟨ha, hb, hc, hd⟩
  · have hlt : md > v := by linarith
    simp only [step, if_pos hlt]
    by_cases hq : gt q mv = true
    · rw [if_pos hq]
      have hne : ¬ mn + (md - v) = v := by intro h; linarith
      rw [if_neg hne]
      refine ⟨_, _, rfl, rfl, mn, md, v, q, rfl, rfl, rfl, rfl, by ring, Or.inr ?_, ?_⟩
      · refine ⟨ha, ?_, hc, ?_⟩ <;> linarith
      · linarith
    · rw [if_neg hq]
      have hne : ¬ v + (mx - md) = v := by intro h; linarith
      rw [if_neg hne]
      refine ⟨_, _, rfl, rfl, v, mx, md, mv, rfl, rfl, rfl, rfl, by ring, Or.inl ?_, ?_⟩
      · refine ⟨?_, hb, ?_, hd⟩ <;> linarith
      · linarith
  · have hlt : ¬ md > v := by intro h; linarith
    simp only [step, if_neg hlt]
    by_cases hq : gt mv q = true
    · rw [if_pos hq]
      have hne : ¬ mn + (v - md) = v := by intro h; linarith
      rw [if_neg hne]
      refine ⟨_, _, rfl, rfl, mn, v, md, mv, rfl, rfl, rfl, rfl, by ring, Or.inr ?_, ?_⟩
      · refine ⟨ha, ?_, hc, ?_⟩ <;> linarith
      · linarith
    · rw [if_neg hq]
      have hne : ¬ md + (mx - v) = v := by intro h; linarith
      rw [if_neg hne]
      refine ⟨_, _, rfl, rfl, md, mx, v, q, rfl, rfl, rfl, rfl, by ring, Or.inl ?_, ?_⟩
      · refine ⟨?_, hb, ?_, hd⟩ <;> linarith
      · linarith

section

variable (step_size v₀ : ℝ) (Q : ℕ → Flt) {m l : ℕ}

theorem bisection_first (h : Sweeps Q m l) (hs : 0 < step_size) (hml : 0 < m + l) :
    attempt step_size v₀ Q (m + 3 + l) =
      some (v₀ - l * step_size - GOLDEN_RATIO * ((m + l) * step_size),
        { downState step_size v₀ Q m l with phase := .BISECTING }) := by
  have hd := down_sweep (step_size := step_size) (v₀ := v₀) m l h.up h.up_end
    fun i hi => (downBest_eq Q m i) ▸ h.down i (by omega)
  have he := h.down_end
  rw [downBest_eq] at he
  have : m + 3 + l = m + 2 + l + 1 := by omega
  rw [this]
  refine attempt_succ hd ?_
  have hne : ¬ v₀ - l * step_size = v₀ + m * step_size := by
    intro h
    have : ((m + l : ℕ) : ℝ) * step_size = 0 := by push_cast; linarith
    rcases mul_eq_zero.1 this with h | h
    · exact hml.ne' (by exact_mod_cast h)
    · exact hs.ne' h
  simp only [step, downState, he, Bool.false_eq_true, if_false, if_neg hne]
  refine Prod.ext (congrArg Except.ok ?_) rfl
  rw [div_eq_mul_one_div, golden_inv]
  ring

theorem bisection_outside (h : Sweeps Q m l) (hs : 0 < step_size) (hml : 0 < m + l)
    (k : ℕ) :
    ∃ v s, attempt step_size v₀ Q (m + 4 + l + k) = some (v, s) ∧
      Outside (v₀ - l * step_size) (v₀ + m * step_size) v s := by
  have hmls : 0 < (m + l : ℝ) * step_size := mul_pos (by exact_mod_cast hml) hs
  have hg := mul_pos golden_pos hmls
  induction k with
  | zero =>
    have h3 := bisection_first step_size v₀ Q h hs hml
    have : m + 4 + l + 0 = m + 3 + l + 1 := by omega
    rw [this]
    refine ⟨_, _, attempt_succ h3 (by simp only [step, downState]; rfl), rfl, _, _, _, _,
      rfl, rfl, rfl, rfl, by ring, Or.inr ?_, ?_⟩
    · have : v₀ + m * step_size - (v₀ - l * step_size) = (m + l) * step_size := by ring
      rw [this]
      refine ⟨?_, ?_, le_refl _, ?_⟩ <;> linarith
    · linarith
  | succ k ih =>
    obtain ⟨v, s, ha, ho⟩ := ih
    obtain ⟨v', s', hst, ho'⟩ := outside_step (Q (m + 4 + l + k)) ho
    exact ⟨v', s', attempt_succ ha hst, ho'⟩

/-- C51, false of the code: a golden-section search should refine the bracket found
by the sweeps, but from then on every attempt lies outside the bracket `[lo, hi]`, by
at least the golden ratio times its width.  The first attempt subtracts where it
should add, and the later ones move further out. -/
theorem golden_section_leaves_bracket (h : Sweeps Q m l) (hs : 0 < step_size)
    (hml : 0 < m + l) (k : ℕ) (hk : m + 3 + l ≤ k) :
    ∃ v, velocity step_size v₀ Q k = some v ∧
      (v ≤ v₀ - l * step_size - GOLDEN_RATIO * ((m + l) * step_size) ∨
       v₀ + m * step_size + GOLDEN_RATIO * ((m + l) * step_size) ≤ v) := by
  rcases Nat.eq_or_lt_of_le hk with rfl | hk
  · exact ⟨_, by simp [velocity, bisection_first step_size v₀ Q h hs hml],
      Or.inl (le_refl _)⟩
  · obtain ⟨d, rfl⟩ := Nat.exists_eq_add_of_lt hk
    have : m + 3 + l + d + 1 = m + 4 + l + d := by omega
    rw [this]
    obtain ⟨v, s, ha, -, mn, mx, md, mv, -, -, -, -, -, ho, -⟩ :=
      bisection_outside step_size v₀ Q h hs hml d
    have e : v₀ + m * step_size - (v₀ - l * step_size) = (m + l) * step_size := by ring
    rw [e] at ho
    refine ⟨v, by simp [velocity, ha], ?_⟩
    rcases ho with ⟨-, -, ho, -⟩ | ⟨-, -, -, ho⟩
    · exact Or.inl ho
    · exact Or.inr ho

/-- C51: the first two attempts of the third phase. -/
theorem golden_section_start (h : Sweeps Q m l) (hs : 0 < step_size) (hml : 0 < m + l) :
    velocity step_size v₀ Q (m + 3 + l) =
        some (v₀ - l * step_size - GOLDEN_RATIO * ((m + l) * step_size)) ∧
      velocity step_size v₀ Q (m + 4 + l) =
        some (v₀ + m * step_size + GOLDEN_RATIO * ((m + l) * step_size)) := by
  have h3 := bisection_first step_size v₀ Q h hs hml
  refine ⟨by simp [velocity, h3], ?_⟩
  have : m + 4 + l = m + 3 + l + 1 := by omega
  rw [this]
  unfold velocity
  rw [attempt_succ h3 (by simp only [step, downState]; rfl)]
  simp only [Option.map_some]
  congr 1
  ring

end

/-- A search whose quality improves once going up and not at all going down. -/
noncomputable def witQ : ℕ → Flt
  | 1 => some 2
  | 2 => some 1
  | _ => some 1

theorem witSweeps : Sweeps witQ 1 0 where
  up := by intro i hi; obtain rfl : i = 0 := by omega
           norm_num [witQ, gt]
  up_end := by norm_num [witQ, gt]
  down := by simp
  down_end := by norm_num [witQ, gt]

example := golden_section_leaves_bracket 1 10 witQ witSweeps (by norm_num) (by norm_num)
  7 (by norm_num)
example := golden_section_start 1 10 witQ witSweeps (by norm_num) (by norm_num)
example := upward_sweep 1 10 witQ witSweeps 2 (by norm_num)
example := downward_sweep 1 10 witQ witSweeps 0 (by norm_num)
example := stuck_stops 1 10 (fun _ => some 1)
  ⟨by simp, by simp [gt], by simp, by simp [gt]⟩ 5
example := climbs 1 10 (fun i => some (i : ℝ)) (by intro i; simp [gt]) 5

/-! ## The whole solver -/

section

variable {σ ι μ : Type}

/-- Nothing has set the final solution, and the solutions stored are `xs`. -/
def Holds (m : μ) (xs : List σ) (r : Run μ σ) : Prop :=
  r.info = m ∧ r.final = .delayed ∧ r.solutions = numbered xs

/-- `Holds` for some list extending `xs`. -/
def Grew (m : μ) (xs : List σ) (w : World μ σ) : Prop :=
  ∃ ys, Holds m (xs ++ ys) w.run

theorem add_holds {m : μ} {xs : List σ} {r : Run μ σ} (h : Holds m xs r) (s : σ) :
    ∃ k r', r.addSolution s = .ok (k, r') ∧ Holds m (xs ++ [s]) r' := by
  obtain ⟨h1, h2, h3⟩ := h
  unfold Run.addSolution
  rw [h3, add_numbered]
  exact ⟨_, _, rfl, h1, h2, rfl⟩

theorem last_holds {m : μ} {xs : List σ} {s : σ} {r : Run μ σ}
    (h : Holds m (xs ++ [s]) r) : r.solutions.getLast = .ok s := by
  rw [h.2.2]
  exact get_last_most_recent xs s

theorem store_all_holds {m : μ} {xs : List σ} {w : World μ σ} (h : Holds m xs w.run)
    (ys : List σ) :
    ∃ w', store_all w ys = .ok w' ∧ Holds m (xs ++ ys) w'.run ∧ w'.vars = w.vars := by
  induction ys generalizing xs w with
  | nil => exact ⟨w, rfl, by simpa using h, rfl⟩
  | cons y ys ih =>
    obtain ⟨k, r, h1, h2⟩ := add_holds h y
    obtain ⟨w', h3, h4, h5⟩ := ih (w := { w with run := r }) h2
    exact ⟨w', by simp [store_all, h1, h3], by simpa using h4, h5⟩

theorem search_keeps {W I O R : Type} {func : I → Code W (O × Bool)}
    {pass_func : O → ℕ → Code W R} {fail_func : O → ℕ → Code W I}
    {final_fail_func : ℕ → Code W R} (P : W → Prop)
    (h1 : ∀ i w, P w → P (func i w).2) (h2 : ∀ o k w, P w → P (pass_func o k w).2)
    (h3 : ∀ o k w, P w → P (fail_func o k w).2)
    (h4 : ∀ k w, P w → P (final_fail_func k w).2) (n k : ℕ) (i : I) (w : W) (hw : P w) :
    P (Stepper.search func pass_func fail_func final_fail_func n k i w).2 := by
  induction n generalizing k i w with
  | zero => exact hw
  | succ n ih =>
    have hh : ∀ (e : Stop) (w : W), P w → P ((match e with
        | .error => ((.ok none, w) : Except Stop (Option R) × W)
        | .stop =>
          match final_fail_func k w with
          | (.ok r, w) => (.ok (some r), w)
          | (.error e, w) => (.error e, w)
        | e => (.error e, w)).2) := by
      intro e w hw
      cases e with
      | error => exact hw
      | stop =>
        have := h4 k w hw
        cases hf : final_fail_func k w with
        | mk r w' => rw [hf] at this; cases r <;> simpa [hf] using this
      | py p => exact hw
      | hangs => exact hw
    simp only [Stepper.search]
    have hf := h1 i w hw
    cases e1 : func i w with
    | mk r w₁ =>
      rw [e1] at hf
      cases r with
      | error e => exact hh e w₁ hf
      | ok ob =>
        obtain ⟨o, b⟩ := ob
        cases b with
        | true =>
          have hp := h2 o k w₁ hf
          cases e2 : pass_func o k w₁ with
          | mk r w₂ =>
            rw [e2] at hp
            cases r with
            | error e => simp only [e2]; exact hh e w₂ hp
            | ok r => simpa [e2] using hp
        | false =>
          have hp := h3 o k w₁ hf
          cases e2 : fail_func o k w₁ with
          | mk r w₂ =>
            rw [e2] at hp
            cases r with
            | error e => simp only [e2]; exact hh e w₂ hp
            | ok r => simpa [e2] using ih (k + 1) r w₂ hp

theorem solution_func_grew (e : Env σ ι) (m : μ) (inp : ι) (w : World μ σ)
    (h : ∃ xs, Holds m xs w.run) : ∃ xs, Holds m xs (solution_func e inp w).2.run := by
  obtain ⟨xs, h⟩ := h
  obtain ⟨w', h1, h2, -⟩ := store_all_holds h (e.step_solver inp).1
  unfold solution_func
  simp only [h1]
  cases (e.step_solver inp).2 with
  | some p => cases p <;> exact ⟨_, h2⟩
  | none =>
    cases w'.run.solutions.getLast with
    | error p => exact ⟨_, h2⟩
    | ok last =>
      simp only
      cases e.single (e.final_input last) with
      | error p => exact ⟨_, h2⟩
      | ok s =>
        obtain ⟨k, r', h3, h4⟩ := add_holds h2 s
        simp only [h3]
        rw [last_holds h4]
        exact ⟨_, h4⟩

theorem writer_grew (e : Env σ ι) (m : μ) (s : σ) (w : World μ σ)
    (h : ∃ xs, Holds m xs w.run) : ∃ xs, Holds m xs (writer e s w).2.run := by
  obtain ⟨xs, h⟩ := h
  unfold writer
  obtain ⟨k, r', h3, h4⟩ := add_holds h s
  simp only [h3]
  split
  · exact ⟨_, h4⟩
  · exact ⟨_, h⟩

theorem bind_keeps {W α β : Type} (P : W → Prop) (a : Code W α) (f : α → Code W β)
    (w : W) (ha : P (a w).2) (hf : ∀ x w, P w → P (f x w).2) :
    P (Code.bind a f w).2 := by
  unfold Code.bind
  cases h : a w with
  | mk r w' =>
    rw [h] at ha
    cases r with
    | error e => simpa [h] using ha
    | ok x => simpa [h] using hf x w' ha

theorem stepper_grew (e : Env σ ι) (m : μ) (step_size : ℝ) (s : σ) (k : ℕ)
    (w : World μ σ) (h : ∃ xs, Holds m xs w.run) :
    ∃ xs, Holds m xs (stepper e step_size s k w).2.run := by
  unfold stepper
  refine bind_keeps (fun w : World μ σ => ∃ xs, Holds m xs w.run) _ _ _ (writer_grew e m s w h) ?_
  intro _ w hw
  unfold step_world
  cases step step_size (e.v_r s) (e.quality s) w.vars with
  | mk r v => cases r <;> exact hw

/-- The search of `solver`. -/
noncomputable def searched (e : Env σ ι) (inp : ι) (v_r : ℝ) (r : Run μ σ) (n : ℕ) :
    Except Stop (Option (Option σ)) × World μ σ :=
  Stepper.binary_searcher (R := Option σ) (solution_func e)
      (fun s _ => Code.bind (writer e s) fun _ w => (.ok none, w))
      (stepper e (0.01 * v_r)) (fun _ w => (.ok none, w)) inp n { run := r }

theorem searched_grew (e : Env σ ι) (m : μ) (inp : ι) (v_r : ℝ) (n : ℕ) :
    ∃ xs, Holds m xs (searched (μ := μ) e inp v_r { info := m } n).2.run := by
  unfold searched Stepper.binary_searcher
  refine search_keeps (fun w : World μ σ => ∃ xs, Holds m xs w.run)
    (fun i w hw => solution_func_grew e m i w hw) ?_
    (fun o k w hw => stepper_grew e m _ o k w hw) (fun k w hw => hw) n 0 inp _
    ⟨[], rfl, rfl, rfl⟩
  intro o k w hw
  exact bind_keeps (fun w : World μ σ => ∃ xs, Holds m xs w.run) _ _ _ (writer_grew e m o w hw)
    (fun _ _ h => h)

theorem search_result {W I O R : Type} {func : I → Code W (O × Bool)}
    {pass_func : O → ℕ → Code W R} {fail_func : O → ℕ → Code W I}
    {final_fail_func : ℕ → Code W R} (P : R → Prop)
    (h2 : ∀ o k w r, (pass_func o k w).1 = .ok r → P r)
    (h4 : ∀ k w r, (final_fail_func k w).1 = .ok r → P r) (n k : ℕ) (i : I) (w : W)
    (b : Option R)
    (h : (Stepper.search func pass_func fail_func final_fail_func n k i w).1 = .ok b) :
    ∀ r, b = some r → P r := by
  induction n generalizing k i w with
  | zero =>
    simp only [Stepper.search, Except.ok.injEq] at h
    subst h; simp
  | succ n ih =>
    have hh : ∀ (e : Stop) (w : W), ((match e with
        | .error => ((.ok none, w) : Except Stop (Option R) × W)
        | .stop =>
          match final_fail_func k w with
          | (.ok r, w) => (.ok (some r), w)
          | (.error e, w) => (.error e, w)
        | e => (.error e, w)).1) = .ok b → ∀ r, b = some r → P r := by
      intro e w h
      cases e with
      | error =>
        simp only [Except.ok.injEq] at h
        subst h; simp
      | stop =>
        have := h4 k w
        cases hf : final_fail_func k w with
        | mk r w' =>
          rw [hf] at this
          cases r with
          | error e => simp [hf] at h
          | ok r =>
            simp only [hf, Except.ok.injEq] at h
            subst h
            simpa using this r rfl
      | py p => simp at h
      | hangs => simp at h
    simp only [Stepper.search] at h
    cases e1 : func i w with
    | mk r w₁ =>
      rw [e1] at h
      cases r with
      | error e => exact hh e w₁ h
      | ok ob =>
        obtain ⟨o, b'⟩ := ob
        cases b' with
        | true =>
          have hp := h2 o k w₁
          cases e2 : pass_func o k w₁ with
          | mk r w₂ =>
            rw [e2] at hp
            simp only [e2] at h
            cases r with
            | error e => exact hh e w₂ h
            | ok r =>
              simp only [Except.ok.injEq] at h
              subst h
              simpa using hp r rfl
        | false =>
          cases e2 : fail_func o k w₁ with
          | mk r w₂ =>
            simp only [e2] at h
            cases r with
            | error e => exact hh e w₂ h
            | ok r => exact ih (k + 1) r w₂ h

theorem searched_no_result (e : Env σ ι) (inp : ι) (v_r : ℝ) (r : Run μ σ) (n : ℕ)
    (b : Option (Option σ)) (h : (searched e inp v_r r n).1 = .ok b) : b.join = none := by
  have key := search_result (fun r : Option σ => r = none) ?_ ?_ n 0 inp _ b h
  · cases b with
    | none => rfl
    | some r => rw [key r rfl]; rfl
  · intro o k w r hr
    unfold Code.bind at hr
    cases hw : writer e o w with
    | mk x w' =>
      simp only [hw] at hr
      cases x with
      | error p => simp at hr
      | ok u => simp only [Except.ok.injEq] at hr; exact hr.symm
  · intro k w r hr
    simp only [Except.ok.injEq] at hr
    exact hr.symm

theorem get_last_empty : (Solutions.getLast (numbered ([] : List σ))) =
    .error .IndexError := by
  have h0 : Dict.keys (numbered ([] : List σ)) = [] := rfl
  simp only [Solutions.getLast, Solutions.sortedKeys, h0, List.all_nil, if_true,
    List.mergeSort_nil, bind, Except.bind, List.getLast?_nil]

/-- C51: started on a new run, the solver either returns true with the final solution
the last one stored, or raises `IndexError` because nothing was stored, or lets an
exception out of its search; it never returns false. -/
theorem crosser_outcome (e : Env σ ι) (m : μ) (inp : ι) (v_r : ℝ) (n : ℕ) :
    let out := solver e inp v_r { info := m } n
    ∃ xs : List σ, out.2.solutions = numbered xs ∧
      ((∃ s, xs.getLast? = some s ∧ out.1 = .ok true ∧ out.2.final = .value (some s)) ∨
       (xs = [] ∧ out.1 = .error (.py .IndexError) ∧ out.2.final = .delayed) ∨
       (∃ p, (searched (μ := μ) e inp v_r { info := m } n).1 = .error p ∧
         out.1 = .error p ∧ out.2.final = .delayed)) := by
  obtain ⟨xs, h⟩ := searched_grew e m inp v_r n
  have hj := searched_no_result e inp v_r ({ info := m } : Run μ σ) n
  refine ⟨xs, ?_⟩
  unfold solver
  have hs : Stepper.binary_searcher (R := Option σ) (solution_func e)
      (fun s _ => Code.bind (writer e s) fun _ w => (.ok none, w))
      (stepper e (0.01 * v_r)) (fun _ w => (.ok none, w)) inp n { run := { info := m } } =
      searched (μ := μ) e inp v_r { info := m } n := rfl
  rw [hs]
  cases hse : searched (μ := μ) e inp v_r { info := m } n with
  | mk res w =>
    rw [hse] at h hj
    obtain ⟨h1, h2, h3⟩ := h
    cases res with
    | error p => exact ⟨h3, Or.inr (Or.inr ⟨p, rfl, rfl, h2⟩)⟩
    | ok b =>
      have hb := hj b rfl
      rcases w with ⟨⟨i, fin, sols, a1, a2, a3⟩, vs⟩
      simp only at h1 h2 h3
      subst h1 h2 h3
      simp only [hb]
      rcases List.eq_nil_or_concat xs with rfl | ⟨ys, s, rfl⟩
      · simp only [get_last_empty]
        exact ⟨trivial, Or.inr (Or.inl ⟨trivial, trivial, trivial⟩)⟩
      · simp only [List.concat_eq_append, get_last_most_recent, Run.setFinal]
        exact ⟨trivial, Or.inl ⟨s, by simp, trivial, rfl⟩⟩

/-- C51: one attempt whose stepping search returned stores its solution twice. -/
theorem crosser_attempt (e : Env σ ι) {m : μ} {inp : ι} {xs zs : List σ} {last s : σ}
    {step_size v' : ℝ} {vars' : Vars} {w : World μ σ} (k : ℕ) (h : Holds m xs w.run)
    (hz : e.step_solver inp = (zs, none)) (hl : (xs ++ zs).getLast? = some last)
    (hs : e.single (e.final_input last) = .ok s) (hf : e.flagged s = true)
    (hst : step step_size (e.v_r s) (e.quality s) w.vars = (.ok v', vars')) :
    ∃ w₁ w₂, solution_func e inp w = (.ok (s, false), w₁) ∧
      stepper e step_size s k w₁ = (.ok (e.next_input s v'), w₂) ∧
      Holds m (xs ++ zs ++ [s, s]) w₂.run ∧ w₂.vars = vars' := by
  obtain ⟨w', h1, h2, h2'⟩ := store_all_holds h zs
  obtain ⟨ys, hys⟩ := List.getLast?_eq_some_iff.1 hl
  obtain ⟨k1, r1, h3, h4⟩ := add_holds h2 s
  obtain ⟨k2, r2, h5, h6⟩ := add_holds h4 s
  refine ⟨{ w' with run := r1 }, { run := r2, vars := vars' }, ?_, ?_, by simpa using h6, rfl⟩
  · simp only [solution_func, hz, h1]
    rw [hys] at h2
    simp only [last_holds h2, hs, h3, last_holds h4]
  · simp only [stepper, Code.bind, writer, hf, if_true, h5, step_world, h2', hst]

/-- C51: an attempt whose stepping search failed with `SolverError` keeps what that search
stored, stores nothing more, and the sweep goes on from the quality of the placeholder. -/
theorem crosser_attempt_failed (e : Env σ ι) {m : μ} {inp : ι} {xs zs : List σ}
    {step_size v' : ℝ} {vars' : Vars} {w : World μ σ} (k : ℕ) (h : Holds m xs w.run)
    (hz : e.step_solver inp = (zs, some .SolverError))
    (hf : e.flagged (e.broken inp) = false)
    (hst : step step_size (e.v_r (e.broken inp)) (e.quality (e.broken inp)) w.vars =
      (.ok v', vars')) :
    ∃ w₁ w₂, solution_func e inp w = (.ok (e.broken inp, false), w₁) ∧
      stepper e step_size (e.broken inp) k w₁ = (.ok (e.next_input (e.broken inp) v'), w₂) ∧
      Holds m (xs ++ zs) w₂.run ∧ w₂.vars = vars' := by
  obtain ⟨w', h1, h2, h2'⟩ := store_all_holds h zs
  refine ⟨w', { w' with vars := vars' }, ?_, ?_, h2, rfl⟩
  · simp only [solution_func, hz, h1]
  · simp only [stepper, Code.bind, writer, hf, Bool.false_eq_true, if_false, step_world,
      h2', hst]

/-- C51: any other exception of the stepping search, and any of the last solve, leaves the
attempt. -/
theorem crosser_attempt_raises (e : Env σ ι) {m : μ} {inp : ι} {xs zs : List σ} {p : PyErr}
    {w : World μ σ} (h : Holds m xs w.run)
    (hz : (e.step_solver inp = (zs, some p) ∧ p ≠ .SolverError) ∨
      ∃ last, e.step_solver inp = (zs, none) ∧ (xs ++ zs).getLast? = some last ∧
        e.single (e.final_input last) = .error p) :
    ∃ w₁, solution_func e inp w = (.error (.py p), w₁) ∧ Holds m (xs ++ zs) w₁.run := by
  obtain ⟨w', h1, h2, -⟩ := store_all_holds h zs
  refine ⟨w', ?_, h2⟩
  rcases hz with ⟨hz, hp⟩ | ⟨last, hz, hl, hs⟩
  · simp only [solution_func, hz, h1]
  · obtain ⟨ys, hys⟩ := List.getLast?_eq_some_iff.1 hl
    rw [hys] at h2
    simp only [solution_func, hz, h1, last_holds h2, hs]

theorem add_final {r r' : Run μ σ} {s : σ} {k : String}
    (h : r.addSolution s = .ok (k, r')) : r'.final = r.final := by
  unfold Run.addSolution at h
  cases ha : r.solutions.add s with
  | error p => simp [ha, bind, Except.bind] at h
  | ok x =>
    simp only [ha, bind, Except.bind, pure, Except.pure, Except.ok.injEq,
      Prod.mk.injEq] at h
    rw [← h.2]

theorem store_all_final {w w' : World μ σ} {xs : List σ} (h : store_all w xs = .ok w') :
    w'.run.final = w.run.final := by
  induction xs generalizing w with
  | nil =>
    simp only [store_all, Except.ok.injEq] at h
    rw [h]
  | cons x xs ih =>
    simp only [store_all] at h
    cases ha : w.run.addSolution x with
    | error p => simp [ha] at h
    | ok kr => rw [ha] at h; rw [ih h]; exact add_final ha

/-- C51: if the run has a final solution already, that stays, and the solver reports
success unless an exception leaves its search. -/
theorem crosser_keeps_final (e : Env σ ι) (inp : ι) (v_r : ℝ) (r : Run μ σ) (n : ℕ) (s : σ)
    (h : r.final = .value (some s)) :
    (solver e inp v_r r n).2.final = .value (some s) ∧
      ((solver e inp v_r r n).1 = .ok true ∨
        ∃ p, (searched e inp v_r r n).1 = .error p ∧ (solver e inp v_r r n).1 = .error p) := by
  have key : (searched e inp v_r r n).2.run.final = .value (some s) := by
    have hwr : ∀ (x : σ) (w : World μ σ), w.run.final = .value (some s) →
        (writer e x w).2.run.final = .value (some s) := by
      intro x w hw
      unfold writer
      cases ha : w.run.addSolution x with
      | error p => simp only; split <;> exact hw
      | ok kr =>
        simp only
        split
        · exact (add_final ha).trans hw
        · exact hw
    unfold searched Stepper.binary_searcher
    refine search_keeps (fun w : World μ σ => w.run.final = .value (some s))
      ?_ ?_ ?_ (fun k w hw => hw) n 0 inp _ h
    · intro i w hw
      unfold solution_func
      cases hst : store_all w (e.step_solver i).1 with
      | error p => exact hw
      | ok w' =>
        have hw' := (store_all_final hst).trans hw
        simp only
        cases (e.step_solver i).2 with
        | some p => cases p <;> exact hw'
        | none =>
          cases w'.run.solutions.getLast with
          | error p => exact hw'
          | ok last =>
            simp only
            cases e.single (e.final_input last) with
            | error p => exact hw'
            | ok x =>
              simp only
              cases ha : w'.run.addSolution x with
              | error p => exact hw'
              | ok kr =>
                have := (add_final ha).trans hw'
                simp only
                cases kr.2.solutions.getLast with
                | error p => exact this
                | ok y => exact this
    · intro o k w hw
      exact bind_keeps (fun w : World μ σ => w.run.final = .value (some s)) _ _ _ (hwr o w hw)
        (fun _ _ h => h)
    · intro o k w hw
      refine bind_keeps (fun w : World μ σ => w.run.final = .value (some s)) _ _ _ (hwr o w hw) ?_
      intro _ w hw
      unfold step_world
      cases step (0.01 * v_r) (e.v_r o) (e.quality o) w.vars with
      | mk r v => cases r <;> exact hw
  have hs : solver e inp v_r r n = match searched e inp v_r r n with
    | (.error p, w) => (.error p, w.run)
    | (.ok best, w) =>
      match w.run.final with
      | .value (some _) => (.ok true, w.run)
      | _ =>
        let found : Except PyErr σ :=
          match best.join with
          | some s => .ok s
          | none => w.run.solutions.getLast
        match found with
        | .error p => (.error (.py p), w.run)
        | .ok s =>
          match w.run.setFinal s with
          | .error p => (.error (.py p), w.run)
          | .ok r => (.ok true, r) := rfl
  cases hse : searched e inp v_r r n with
  | mk res w =>
    rw [hse] at key hs
    simp only at key
    cases res with
    | error p => rw [hs]; exact ⟨key, Or.inr ⟨p, rfl, rfl⟩⟩
    | ok b =>
      simp only [key] at hs
      rw [hs]; exact ⟨key, Or.inl rfl⟩

end

/-- A search in which the quality falls as the velocity grows. -/
noncomputable def witEnv : Env ℝ ℝ where
  step_solver v := ([v], none)
  single v := .ok v
  final_input v := v
  broken v := v
  flagged _ := true
  quality v := some (-v)
  v_r v := v
  next_input _ v := v

/-- C51, false of the code: the final solution should be the best found, but it is
the last one stored, here one whose quality is worse. -/
theorem crosser_final_not_best :
    (solver witEnv 100 100 { info := () } 2).1 = .ok true ∧
    ∃ best final, best ∈ Dict.keys (solver witEnv 100 100 { info := () } 2).2.solutions ∧
      (solver witEnv 100 100 { info := () } 2).2.final = .value (some final) ∧
      ∃ s, Dict.get? (solver witEnv 100 100 { info := () } 2).2.solutions best = some s ∧
        gt (witEnv.quality s) (witEnv.quality final) = true := by
  obtain ⟨w₁, w₂, a1, a2, a3, a4⟩ := crosser_attempt (step_size := 0.01 * 100) witEnv
    (w := { run := { info := () } })
    (xs := []) (zs := [100]) (last := 100) (s := 100) (m := ()) 0 ⟨rfl, rfl, rfl⟩
    (inp := (100 : ℝ)) rfl rfl rfl rfl rfl
  obtain ⟨w₃, w₄, b1, b2, b3, b4⟩ := crosser_attempt (step_size := 0.01 * 100) witEnv
    (w := w₂) (zs := [100 + 0.01 * 100]) (last := 100 + 0.01 * 100)
    (s := 100 + 0.01 * 100) 1 a3 (inp := (100 + 0.01 * 100 : ℝ)) rfl rfl rfl rfl (by
      rw [a4]
      have : gt (witEnv.quality (100 + 0.01 * 100)) (witEnv.quality 100) = false := by
        norm_num [witEnv, gt]
      simp only [step, this, Bool.false_eq_true, if_false]
      rfl)
  have hr : Stepper.Reaches (solution_func witEnv) (stepper witEnv (0.01 * 100)) 100
      { run := { info := () } } 2 _ w₄ :=
    .next (.next .start a1 a2) b1 b2
  have hse := Stepper.search_exhausted (R := Option ℝ)
    (fun s _ => Code.bind (writer witEnv s) fun _ w => (.ok none, w))
    (fun _ w => (.ok none, w)) hr
  have hsol : solver witEnv 100 100 { info := () } 2 =
      (.ok true, { w₄.run with final := .value (some (100 + 0.01 * 100)) }) := by
    obtain ⟨c1, c2, c3⟩ := b3
    have hl : w₄.run.solutions.getLast = .ok (100 + 0.01 * 100) := by
      rw [c3]
      have := get_last_most_recent ([] ++ [100] ++ [100, 100] ++ [100 + 0.01 * 100] ++
        [(100 + 0.01 * 100 : ℝ)]) (100 + 0.01 * 100)
      rw [List.append_assoc] at this
      exact this
    unfold solver
    rw [hse]
    rcases w₄ with ⟨⟨i, fin, sols, a1, a2, a3⟩, vs⟩
    simp only at c1 c2 c3 hl
    subst c2
    simp only [Option.join]
    rw [hl]
    rfl
  rw [hsol]
  obtain ⟨c1, c2, c3⟩ := b3
  refine ⟨rfl, Nat.repr 0, 100 + 0.01 * 100, ?_, rfl, 100, ?_, ?_⟩
  · simp only [c3, numbered_keys]
    simp
  · simp only [c3, numbered_get]
    rfl
  · norm_num [witEnv, gt]

/-- A search whose every attempt fails after storing one solution. -/
noncomputable def failEnv : Env ℝ ℝ :=
  { witEnv with step_solver := fun v => ([v], some .SolverError), flagged := fun _ => false }

example := crosser_attempt_failed (step_size := 1) failEnv
  (w := { run := { info := () } }) (xs := []) (zs := [100]) (m := ()) 0 ⟨rfl, rfl, rfl⟩
  (inp := (100 : ℝ)) rfl rfl rfl
example := crosser_attempt_raises
  { failEnv with step_solver := fun v => ([v], some .KeyError) }
  (w := { run := { info := () } }) (xs := []) (zs := [100]) (m := ()) ⟨rfl, rfl, rfl⟩
  (inp := (100 : ℝ)) (p := .KeyError) (Or.inl ⟨rfl, by simp⟩)
example := crosser_keeps_final witEnv 100 100 { info := (), final := .value (some 3) } 2 3 rfl

end FastCrosser

end DiscSolver
