import Mathlib.Analysis.SpecialFunctions.Trigonometric.Arctan
import Verif.Model.Trajectory
import Verif.Props.Arrays

/-!
# C63: following field lines and streamlines
-/

namespace DiscSolver.Trajectory

open Complex (arg)

theorem arctan2_scale (c y x : ℝ) (hc : 0 < c) : arctan2 (c * y) (c * x) = arctan2 y x := by
  unfold arctan2
  have : (⟨c * x, c * y⟩ : ℂ) = (c : ℂ) * ⟨x, y⟩ := by
    apply Complex.ext <;> simp
  rw [this, Complex.arg_real_mul _ hc]

theorem cos_arctan2 (y x : ℝ) (h : x ^ 2 + y ^ 2 ≠ 0) :
    Real.cos (arctan2 y x) = x / Real.sqrt (x ^ 2 + y ^ 2) ∧
    Real.sin (arctan2 y x) = y / Real.sqrt (x ^ 2 + y ^ 2) := by
  have hz : (⟨x, y⟩ : ℂ) ≠ 0 := by
    intro h0
    have h1 := congrArg Complex.re h0
    have h2 := congrArg Complex.im h0
    simp only [Complex.zero_re, Complex.zero_im] at h1 h2
    apply h
    rw [h1, h2]
    norm_num
  have hn : ‖(⟨x, y⟩ : ℂ)‖ = Real.sqrt (x ^ 2 + y ^ 2) := by
    rw [Complex.norm_def, Complex.normSq_mk]
    congr 1
    ring
  constructor
  · rw [arctan2, Complex.cos_arg hz, hn]
  · rw [arctan2, Complex.sin_arg, hn]

/-- C63. The value at a position is the unit vector along the field there: with
`r` and `θ` the looked-up components along the radius and across it, it is
`(r e_r + θ e_θ) / |(r, θ)|` in Cartesian components.  In particular neither the
distance from the origin nor the power with which the field falls off matters. -/
theorem compute_values_direction (angles r_vals θ_vals : List ℝ) (k : ℝ) (p : Vec)
    (hp : p.1 ^ 2 + p.2 ^ 2 ≠ 0) (r θ : ℝ)
    (hr : get_closest_value_sorted angles r_vals (arctan2 p.2 p.1) = .ok r)
    (hθ : get_closest_value_sorted angles θ_vals (arctan2 p.2 p.1) = .ok θ)
    (hf : r ^ 2 + θ ^ 2 ≠ 0) :
    compute_values angles r_vals θ_vals k p = .ok
      ((r * p.1 - θ * p.2) / (Real.sqrt (r ^ 2 + θ ^ 2) * Real.sqrt (p.1 ^ 2 + p.2 ^ 2)),
       (r * p.2 + θ * p.1) / (Real.sqrt (r ^ 2 + θ ^ 2) * Real.sqrt (p.1 ^ 2 + p.2 ^ 2))) := by
  have hpos : 0 < p.1 ^ 2 + p.2 ^ 2 := lt_of_le_of_ne (by positivity) (Ne.symm hp)
  simp only [compute_values, hr, hθ, arctan2_scale _ _ _ (Real.rpow_pos_of_pos hpos k)]
  obtain ⟨c1, s1⟩ := cos_arctan2 p.2 p.1 hp
  obtain ⟨c2, s2⟩ := cos_arctan2 θ r hf
  rw [Real.cos_add, Real.sin_add, c1, s1, c2, s2]
  have h1 : Real.sqrt (p.1 ^ 2 + p.2 ^ 2) ≠ 0 := (Real.sqrt_pos.2 hpos).ne'
  have h2 : Real.sqrt (r ^ 2 + θ ^ 2) ≠ 0 :=
    (Real.sqrt_pos.2 (lt_of_le_of_ne (by positivity) (Ne.symm hf))).ne'
  congr 1
  refine Prod.ext ?_ ?_
  · simp only
    field_simp
  · simp only
    field_simp
    ring

/-- C63. Every value is a unit vector. -/
theorem compute_values_unit (angles r_vals θ_vals : List ℝ) (k : ℝ) (p v : Vec)
    (h : compute_values angles r_vals θ_vals k p = .ok v) : v.1 ^ 2 + v.2 ^ 2 = 1 := by
  unfold compute_values at h
  simp only at h
  split at h
  · cases h
  · split at h
    · cases h
    · injection h with h
      rw [← h]
      exact Real.cos_sq_add_sin_sq _

/-- C63. The values run out exactly where the direction of the position is above every
angle of the solution; then and only then `IndexError` is raised. -/
theorem compute_values_edge (angles r_vals θ_vals : List ℝ) (k : ℝ) (p : Vec)
    (hr : angles.length = r_vals.length) (hθ : angles.length = θ_vals.length) :
    (compute_values angles r_vals θ_vals k p = .error .IndexError ↔
      ∀ a ∈ angles, a < arctan2 p.2 p.1) ∧
    ((∃ a ∈ angles, arctan2 p.2 p.1 ≤ a) →
      ∃ v, compute_values angles r_vals θ_vals k p = .ok v) := by
  rcases closest_sorted_partial angles r_vals hr (arctan2 p.2 p.1) with
    ⟨i, v, hv, hx, -, y, -, he⟩ | ⟨hall, he⟩
  · rcases closest_sorted_partial angles θ_vals hθ (arctan2 p.2 p.1) with
      ⟨_, _, -, -, -, y', -, he'⟩ | ⟨hall, -⟩
    · simp only [compute_values, he, he']
      refine ⟨⟨fun h => by (cases h), fun h => ?_⟩, fun _ => ⟨_, rfl⟩⟩
      exact absurd (h v (List.mem_of_getElem? hv)) (not_lt.2 hx)
    · exact absurd (hall v (List.mem_of_getElem? hv)) (not_lt.2 hx)
  · simp only [compute_values, he]
    refine ⟨⟨fun _ => hall, fun _ => by trivial⟩, ?_⟩
    rintro ⟨a, ha, hle⟩
    exact absurd (hall a ha) (not_lt.2 hle)

/-- C63. Never more points than requested. -/
theorem loop_length (values : Vec → Except PyErr Vec) (n : ℕ) (st : State) :
    (loop values n st).1.length ≤ n := by
  induction n generalizing st with
  | zero => simp [loop]
  | succ n ih =>
    unfold loop
    split
    · simpa using ih _
    · split
      · simp
      · simp only
        split
        · simpa using ih _
        · simp
        · simp
    · simp

/-- C63. Following a trajectory yields at most the requested number of points. -/
theorem follow_bounded (values : Vec → Except PyErr Vec) (start : Vec) (n : ℕ) (c : ℝ) :
    (follow_trajectory values start n c).1.length ≤ n := loop_length _ _ _

/-- What one yielded point and the next have to do with each other: the value belongs to
its position, and the next position is one step along the value, with the scaling
reduced some number of times, or the same position again. -/
def Step (values : Vec → Except PyErr Vec) (c : ℝ) (a b : Vec × Vec) : Prop :=
  values a.2 = .ok a.1 ∧ values b.2 = .ok b.1 ∧
    (b = a ∨ ∃ k : ℕ, b.2 = move a.2 (c * (1 / 100) ^ k) a.1)

theorem move_zero (p v : Vec) : move p 0 v = p := by simp [move]

theorem loop_chain (values : Vec → Except PyErr Vec) (c : ℝ) (n : ℕ) (st : State)
    (j : ℕ) (hs : st.step_scaling = c * (1 / 100) ^ j)
    (hp : ∀ pp pv, st.prev = some (pp, pv) → values pp = .ok pv ∧
      (st.pos = pp ∨ ∃ k : ℕ, st.pos = move pp (c * (1 / 100) ^ k) pv)) :
    (∀ pp pv, st.prev = some (pp, pv) →
      ∀ b ∈ (loop values n st).1.head?, Step values c (pv, pp) b) ∧
    (loop values n st).1.IsChain (Step values c) ∧
    (st.prev = none → ∀ b ∈ (loop values n st).1.head?, b.2 = st.pos) ∧
    ∀ b ∈ (loop values n st).1, values b.2 = .ok b.1 := by
  induction n generalizing st j with
  | zero => simp [loop]
  | succ n ih =>
    unfold loop
    split
    · rename_i vals hv
      obtain ⟨i1, i2, -, i4⟩ := ih
        ⟨move st.pos st.step_scaling vals, some (st.pos, vals), st.step_scaling⟩ j hs
        (by
          intro pp pv h
          simp only [Option.some.injEq, Prod.mk.injEq] at h
          obtain ⟨rfl, rfl⟩ := h
          exact ⟨hv, .inr ⟨j, by simp only; rw [hs]⟩⟩)
      refine ⟨?_, ?_, ?_, ?_⟩
      · intro pp pv h b hb
        simp only [List.head?_cons, Option.mem_def, Option.some.injEq] at hb
        subst hb
        obtain ⟨h1, h2⟩ := hp pp pv h
        refine ⟨h1, hv, ?_⟩
        rcases h2 with h2 | ⟨k, h2⟩
        · left
          rw [h2] at hv
          rw [h2]
          rw [h1] at hv
          injection hv with hv
          rw [hv]
        · exact .inr ⟨k, h2⟩
      · rw [List.isChain_cons]
        exact ⟨fun b hb => i1 _ _ rfl b hb, i2⟩
      · intro _ b hb
        simp only [List.head?_cons, Option.mem_def, Option.some.injEq] at hb
        rw [← hb]
      · intro b hb
        rcases List.mem_cons.1 hb with rfl | hb
        · exact hv
        · exact i4 b hb
    · rename_i hv
      split
      · simp
      · rename_i pp pv hprev
        simp only
        split
        · rename_i vals hv'
          have hs' : st.step_scaling * (1 / 100) = c * (1 / 100) ^ (j + 1) := by
            rw [hs, pow_succ]; ring
          obtain ⟨i1, i2, -, i4⟩ := ih
            ⟨move pp (st.step_scaling * (1 / 100)) pv,
              some (move pp (st.step_scaling * (1 / 100)) pv, vals),
              st.step_scaling * (1 / 100)⟩ (j + 1) hs'
            (by
              intro pp' pv' h
              simp only [Option.some.injEq, Prod.mk.injEq] at h
              obtain ⟨rfl, rfl⟩ := h
              exact ⟨hv', .inl rfl⟩)
          refine ⟨?_, ?_, ?_, ?_⟩
          · intro pp' pv' h b hb
            rw [hprev] at h
            simp only [Option.some.injEq, Prod.mk.injEq] at h
            obtain ⟨rfl, rfl⟩ := h
            simp only [List.head?_cons, Option.mem_def, Option.some.injEq] at hb
            subst hb
            exact ⟨(hp pp pv hprev).1, hv', .inr ⟨j + 1, by rw [← hs']⟩⟩
          · rw [List.isChain_cons]
            exact ⟨fun b hb => i1 _ _ rfl b hb, i2⟩
          · intro h
            rw [hprev] at h
            cases h
          · intro b hb
            rcases List.mem_cons.1 hb with rfl | hb
            · exact hv'
            · exact i4 b hb
        · simp
        · simp
    · simp

/-- C63 (partial). Every yielded value is the value at its position, the first position
is the start, and every later one is one step along the previous value, the step being
the requested one or that reduced a number of times by a factor of a hundred; or it is
the previous point again.  The repetition is the missing part: the full statement (every
point one step further) is false of the code, see `follow_repeats`. -/
theorem follow_steps_partial (values : Vec → Except PyErr Vec) (start : Vec) (n : ℕ)
    (c : ℝ) :
    (∀ b ∈ (follow_trajectory values start n c).1.head?, b.2 = start) ∧
    (∀ b ∈ (follow_trajectory values start n c).1, values b.2 = .ok b.1) ∧
    (follow_trajectory values start n c).1.IsChain (fun a b =>
      b = a ∨ ∃ k : ℕ, b.2 = move a.2 (c * (1 / 100) ^ k) a.1) := by
  obtain ⟨-, h2, h3, h4⟩ := loop_chain values c n ⟨start, none, c⟩ 0 (by simp)
    (by intro pp pv h; cases h)
  exact ⟨h3 rfl, h4, h2.imp fun a b h => h.2.2⟩

/-- C63. With unit values the distance between neighbouring points is the scaling, or
that reduced, or zero. -/
theorem step_distance (values : Vec → Except PyErr Vec)
    (hu : ∀ p v, values p = .ok v → v.1 ^ 2 + v.2 ^ 2 = 1) (start : Vec) (n : ℕ) (c : ℝ) :
    (follow_trajectory values start n c).1.IsChain (fun a b =>
      b = a ∨ ∃ k : ℕ, (b.2.1 - a.2.1) ^ 2 + (b.2.2 - a.2.2) ^ 2 =
        (c * (1 / 100) ^ k) ^ 2) := by
  obtain ⟨-, h4, h2⟩ := follow_steps_partial values start n c
  refine (List.IsChain.imp_of_mem_imp ?_ h2)
  intro a b ha _ h
  rcases h with h | ⟨k, h⟩
  · exact .inl h
  · right
    refine ⟨k, ?_⟩
    rw [h]
    simp only [move]
    have := hu _ _ (h4 a ha)
    linear_combination (c * (1 / 100) ^ k) ^ 2 * this

/-- C63. A start outside the solution does not give an empty trajectory: if any point is
asked for, `TypeError` is raised. -/
theorem follow_start_outside (values : Vec → Except PyErr Vec) (start : Vec) (n : ℕ)
    (c : ℝ) (h : values start = .error .IndexError) :
    follow_trajectory values start (n + 1) c = ([], some .TypeError) ∧
    get_trajectory values start (n + 1) c = .error .TypeError := by
  have : follow_trajectory values start (n + 1) c = ([], some .TypeError) := by
    simp only [follow_trajectory, loop, h]
  exact ⟨this, by simp only [get_trajectory, this]⟩

theorem loop_ok {values : Vec → Except PyErr Vec} {n : ℕ} {st : State} {vals : Vec}
    (h : values st.pos = .ok vals) :
    loop values (n + 1) st =
      ((vals, st.pos) :: (loop values n
        ⟨move st.pos st.step_scaling vals, some (st.pos, vals), st.step_scaling⟩).1,
       (loop values n
        ⟨move st.pos st.step_scaling vals, some (st.pos, vals), st.step_scaling⟩).2) := by
  simp only [loop, h]

theorem loop_retry {values : Vec → Except PyErr Vec} {n : ℕ} {st : State} {pp pv vals : Vec}
    (h : values st.pos = .error .IndexError) (hp : st.prev = some (pp, pv))
    (h' : values (move pp (st.step_scaling * (1 / 100)) pv) = .ok vals) :
    loop values (n + 1) st =
      ((vals, move pp (st.step_scaling * (1 / 100)) pv) :: (loop values n
        ⟨move pp (st.step_scaling * (1 / 100)) pv,
          some (move pp (st.step_scaling * (1 / 100)) pv, vals),
          st.step_scaling * (1 / 100)⟩).1,
       (loop values n
        ⟨move pp (st.step_scaling * (1 / 100)) pv,
          some (move pp (st.step_scaling * (1 / 100)) pv, vals),
          st.step_scaling * (1 / 100)⟩).2) := by
  simp only [loop, h, hp, h']

theorem loop_break {values : Vec → Except PyErr Vec} {n : ℕ} {st : State} {pp pv : Vec}
    (h : values st.pos = .error .IndexError) (hp : st.prev = some (pp, pv))
    (h' : values (move pp (st.step_scaling * (1 / 100)) pv) = .error .IndexError) :
    loop values (n + 1) st = ([], none) := by
  simp only [loop, h, hp, h']

theorem loop_stops (values : Vec → Except PyErr Vec) (c : ℝ)
    (hI : ∀ p e, values p = .error e → e = .IndexError) (n : ℕ) (st : State)
    (j : ℕ) (hs : st.step_scaling = c * (1 / 100) ^ j)
    (pp pv : Vec) (hprev : st.prev = some (pp, pv)) (hpv : values pp = .ok pv)
    (hpos : st.pos = pp ∨ st.pos = move pp st.step_scaling pv) :
    (loop values n st).2 = none ∧
    ((loop values n st).1.length < n →
      ∃ q v k, ((pv, pp) :: (loop values n st).1).getLast? = some (v, q) ∧
        values (move q (c * (1 / 100) ^ k) v) = .error .IndexError ∧
        values (move q (c * (1 / 100) ^ (k + 1)) v) = .error .IndexError) := by
  induction n generalizing st pp pv j with
  | zero => simp [loop]
  | succ n ih =>
    have hs' : st.step_scaling * (1 / 100) = c * (1 / 100) ^ (j + 1) := by
      rw [hs, pow_succ]; ring
    rcases hv : values st.pos with e | vals
    · obtain rfl := hI _ _ hv
      rcases hv' : values (move pp (st.step_scaling * (1 / 100)) pv) with e | vals
      · obtain rfl := hI _ _ hv'
        rw [loop_break hv hprev hv']
        refine ⟨rfl, fun _ => ⟨pp, pv, j, rfl, ?_, hs' ▸ hv'⟩⟩
        rcases hpos with hpos | hpos
        · rw [hpos, hpv] at hv
          cases hv
        · rw [← hs, ← hpos]
          exact hv
      · rw [loop_retry hv hprev hv']
        obtain ⟨i1, i2⟩ := ih
          ⟨move pp (st.step_scaling * (1 / 100)) pv,
            some (move pp (st.step_scaling * (1 / 100)) pv, vals),
            st.step_scaling * (1 / 100)⟩ (j + 1) hs' _ vals rfl hv' (.inl rfl)
        refine ⟨i1, fun hlen => ?_⟩
        simp only [List.length_cons, Nat.add_lt_add_iff_right] at hlen
        obtain ⟨q, v, k, h1, h2⟩ := i2 hlen
        exact ⟨q, v, k, by rw [List.getLast?_cons_cons]; exact h1, h2⟩
    · rw [loop_ok hv]
      obtain ⟨i1, i2⟩ := ih
        ⟨move st.pos st.step_scaling vals, some (st.pos, vals), st.step_scaling⟩
        j hs st.pos vals rfl hv (.inr rfl)
      refine ⟨i1, fun hlen => ?_⟩
      simp only [List.length_cons, Nat.add_lt_add_iff_right] at hlen
      obtain ⟨q, v, k, h1, h2⟩ := i2 hlen
      exact ⟨q, v, k, by rw [List.getLast?_cons_cons]; exact h1, h2⟩

/-- C63. A trajectory which starts inside the solution never fails, has a point if one is
asked for, and has fewer points than asked for only because it is at the edge: both the
step from its last point and the hundred times shorter one leave the solution. -/
theorem follow_stops_at_edge (values : Vec → Except PyErr Vec) (start v₀ : Vec) (n : ℕ)
    (c : ℝ) (hI : ∀ p e, values p = .error e → e = .IndexError)
    (h0 : values start = .ok v₀) :
    ∃ l, follow_trajectory values start (n + 1) c = ((v₀, start) :: l, none) ∧
      l.length ≤ n ∧
      (l.length < n → ∃ q v k, ((v₀, start) :: l).getLast? = some (v, q) ∧
        values (move q (c * (1 / 100) ^ k) v) = .error .IndexError ∧
        values (move q (c * (1 / 100) ^ (k + 1)) v) = .error .IndexError) := by
  have h := loop_stops values c hI n ⟨move start c v₀, some (start, v₀), c⟩ 0 (by simp)
    start v₀ rfl h0 (.inr rfl)
  refine ⟨(loop values n ⟨move start c v₀, some (start, v₀), c⟩).1, ?_, loop_length _ _ _,
    h.2⟩
  rw [follow_trajectory, loop_ok (st := ⟨start, none, c⟩) h0]
  simp only
  rw [h.1]

/-- C63. The full property for the trajectories of a solution: the hypotheses on
`values` above hold for `compute_values` with aligned arrays. -/
theorem compute_values_only_index (angles r_vals θ_vals : List ℝ) (k : ℝ)
    (hr : angles.length = r_vals.length) (hθ : angles.length = θ_vals.length) (p : Vec)
    (e : PyErr) (h : compute_values angles r_vals θ_vals k p = .error e) :
    e = .IndexError := by
  by_cases hall : ∀ a ∈ angles, a < arctan2 p.2 p.1
  · have := (compute_values_edge angles r_vals θ_vals k p hr hθ).1.2 hall
    rw [this] at h
    injection h with h
    exact h.symm
  · push Not at hall
    obtain ⟨v, hv⟩ := (compute_values_edge angles r_vals θ_vals k p hr hθ).2 hall
    rw [hv] at h
    cases h

/-- C63. After every recovery at the edge the point is reported twice: whenever the step
leaves the solution and the hundred times shorter one does not, the shorter step's point
is yielded two times in a row if so many points are asked for. -/
theorem follow_repeats (values : Vec → Except PyErr Vec) (start v₀ v₁ : Vec) (n : ℕ) (c : ℝ)
    (h0 : values start = .ok v₀) (h1 : values (move start c v₀) = .error .IndexError)
    (h2 : values (move start (c * (1 / 100)) v₀) = .ok v₁) :
    ∃ l, (follow_trajectory values start (n + 3) c).1 =
      (v₀, start) :: (v₁, move start (c * (1 / 100)) v₀) ::
        (v₁, move start (c * (1 / 100)) v₀) :: l := by
  rw [follow_trajectory, loop_ok (st := ⟨start, none, c⟩) h0,
    loop_retry (st := ⟨move start c v₀, some (start, v₀), c⟩) h1 rfl h2, loop_ok h2]
  exact ⟨_, rfl⟩

theorem arctan2_one (y : ℝ) : arctan2 y 1 = Real.arctan y := by
  rw [arctan2, Complex.arg_of_re_nonneg (by simp), Real.arctan_eq_arcsin,
    Complex.norm_def, Complex.normSq_mk]
  congr 3
  ring

/-- A field across the radius with values up to the direction of `(1, 1/100)`. -/
noncomputable def witValues : Vec → Except PyErr Vec :=
  compute_values [Real.arctan (1 / 100)] [0] [1] (-(1 / 2))

theorem witValues_at (y : ℝ) (hy : y ≤ 1 / 100) :
    witValues (1, y) = .ok (-y / Real.sqrt (1 + y ^ 2), 1 / Real.sqrt (1 + y ^ 2)) := by
  have hle : Real.arctan y ≤ Real.arctan (1 / 100) := Real.arctan_mono hy
  have hl : ∀ v : ℝ, get_closest_value_sorted [Real.arctan (1 / 100)] [v]
      (arctan2 (1, y).2 (1, y).1) = .ok v := by
    intro v
    simp only
    rw [arctan2_one]
    simp [get_closest_value_sorted, searchsorted, List.findIdx_cons, -one_div, hle]
  have := compute_values_direction [Real.arctan (1 / 100)] [0] [1] (-(1 / 2)) (1, y)
    (by simp only; positivity) 0 1 (hl 0) (hl 1) (by norm_num)
  rw [witValues, this]
  simp

theorem witValues_out (y : ℝ) (hy : 1 / 100 < y) :
    witValues (1, y) = .error .IndexError := by
  refine (compute_values_edge [Real.arctan (1 / 100)] [0] [1] _ _ rfl rfl).1.2 ?_
  intro a ha
  rw [List.mem_singleton.1 ha]
  simp only
  rw [arctan2_one]
  exact Real.arctan_strictMono hy

theorem witValues_start : witValues (1, 0) = .ok (0, 1) := by
  rw [witValues_at 0 (by norm_num)]
  norm_num

theorem wit_move (c : ℝ) : move (1, 0) c (0, 1) = (1, c) := by simp [move]

/-- The hypotheses of `compute_values_direction`, `follow_stops_at_edge`,
`follow_repeats` and `step_distance` hold for a field of this kind. -/
noncomputable example := follow_stops_at_edge witValues (1, 0) _ 5 1
  (compute_values_only_index _ _ _ _ rfl rfl) witValues_start

example : ∃ l, (follow_trajectory witValues (1, 0) 10 1).1 = ((0, 1), (1, 0)) :: l ∧
    ∃ q l', l = (q, (1, 1 / 100)) :: (q, (1, 1 / 100)) :: l' := by
  obtain ⟨l, h⟩ := follow_repeats witValues (1, 0) _ _ 7 1 witValues_start
    (by rw [wit_move]; exact witValues_out 1 (by norm_num))
    (by rw [wit_move]; exact witValues_at _ (by norm_num))
  rw [one_mul, wit_move] at h
  rw [h]
  exact ⟨_, rfl, _, l, rfl⟩

example := follow_start_outside witValues (1, 1) 4 1 (witValues_out 1 (by norm_num))

example := step_distance witValues (fun p v h => compute_values_unit _ _ _ _ p v h) (1, 0) 10 1

/-- C63. `ds-traj` cannot succeed: for every file, run and output it ends in
`TypeError` as soon as the file could be read, and `save_trajectory` never runs. -/
theorem traj_main_fails {α ρ : Type} (r : ρ) (save : ρ → Except PyErr α) :
    traj_main (.ok r) save = .error .TypeError ∧
    ∀ e, traj_main (.error e) save = .error e := by
  refine ⟨?_, fun _ => rfl⟩
  rw [traj_main, callKw, if_neg (by decide)]

/-- C63. Every option of `save_trajectory` is passed once, and one more,
`with_max_v_angle`, which it does not take.  It is the only reason for the failure. -/
theorem traj_keywords :
    trajKeywords.Perm ("with_max_v_angle" :: saveParams) ∧ "with_max_v_angle" ∉ saveParams ∧
    saveParams.Nodup := by
  decide +kernel

/-- Every option of `plot` is passed once, except `close`, which keeps its default. -/
theorem plot_keywords : ("close" :: plotKeywords).Perm plotParams ∧ plotParams.Nodup := by
  decide +kernel

/-- The plotting entry point passes the same options to a function which takes them. -/
theorem plot_main_runs {α ρ : Type} (r : ρ) (plot : ρ → Except PyErr α) :
    plot_main (.ok r) plot = plot r := by
  rw [plot_main, callKw, if_pos (by decide)]

end DiscSolver.Trajectory
