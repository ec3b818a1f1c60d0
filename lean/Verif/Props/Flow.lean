import Mathlib.Analysis.SpecialFunctions.Trigonometric.Arctan
import Verif.Model.Flow
import Verif.Props.Csv
import Verif.Props.Stats
import Verif.Props.Trajectory

/-!
# C97: figures and files of field lines and streamlines
-/

namespace DiscSolver.Flow

open Trajectory

/-! ## Specification -/

/-- `(r e_r + θ e_θ) / |(r, θ)|` at the point `a`, in Cartesian components. -/
noncomputable def direction (r θ : ℝ) (a : Vec) : Vec :=
  ((r * a.1 - θ * a.2) / (Real.sqrt (r ^ 2 + θ ^ 2) * Real.sqrt (a.1 ^ 2 + a.2 ^ 2)),
   (r * a.2 + θ * a.1) / (Real.sqrt (r ^ 2 + θ ^ 2) * Real.sqrt (a.1 ^ 2 + a.2 ^ 2)))

/-- The points start at `start`, and each is one step on from the one before along the
vector with components `r`, `θ` looked up at its angle; the step is `c`, or that reduced by
a power of a hundred.  Points may be repeated. -/
def Follows (angles rs θs : List ℝ) (start : Vec) (c : ℝ) (l : List Vec) : Prop :=
  l.head? = some start ∧ l.IsChain fun a b => b = a ∨ ∃ (k : ℕ) (r θ : ℝ),
    get_closest_value_sorted angles rs (arctan2 a.2 a.1) = .ok r ∧
    get_closest_value_sorted angles θs (arctan2 a.2 a.1) = .ok θ ∧
    (a.1 ^ 2 + a.2 ^ 2 ≠ 0 → r ^ 2 + θ ^ 2 ≠ 0 →
      b = move a (c * (1 / 100) ^ k) (direction r θ a))

/-- The point is not above the solution. -/
def Inside (s : Soln) (p : Vec) : Prop := ∃ a ∈ s.angles, arctan2 p.2 p.1 ≤ a

/-! ## Lines through the origin -/

theorem arctan2_pos (y x : ℝ) (hx : 0 < x) : arctan2 y x = Real.arctan (y / x) := by
  rw [← arctan2_one, ← arctan2_scale x (y / x) 1 hx]
  congr 1
  · field_simp
  · ring

/-- **The line of an angle.** Right of the axis the line through the origin with slope
`tan a` is where the angle above the midplane is `a`, and below it the angle is smaller. -/
theorem axline_angle (a y x : ℝ) (hx : 0 < x) (h1 : -(Real.pi / 2) < a)
    (h2 : a < Real.pi / 2) :
    (arctan2 y x = a ↔ y = Real.tan a * x) ∧ (arctan2 y x ≤ a ↔ y ≤ Real.tan a * x) := by
  rw [arctan2_pos y x hx]
  have ha : Real.arctan (Real.tan a) = a := Real.arctan_tan h1 h2
  constructor
  · rw [← div_eq_iff hx.ne']
    constructor
    · intro h
      rw [← h, Real.tan_arctan]
    · intro h
      rw [h, ha]
  · rw [← div_le_iff₀ hx]
    constructor
    · intro h
      rw [← ha] at h
      exact Real.arctan_strictMono.le_iff_le.1 h
    · intro h
      rw [← ha]
      exact Real.arctan_strictMono.le_iff_le.2 h

example := axline_angle (Real.pi / 4) 2 2 (by norm_num) (by linarith [Real.pi_pos])
  (by linarith [Real.pi_pos])

/-! ## The trajectories -/

section

variable {angles rs θs : List ℝ}

theorem follow_follows (k : ℝ) (start : Vec) (n : ℕ) (c : ℝ) (l : List (Vec × Vec))
    (h : (follow_trajectory (compute_values angles rs θs k) start n c).1 = l)
    (hne : l ≠ []) : Follows angles rs θs start c (l.map (·.2)) := by
  obtain ⟨h1, h2, h3⟩ := follow_steps_partial (compute_values angles rs θs k) start n c
  rw [h] at h1 h2 h3
  refine ⟨?_, ?_⟩
  · cases l with
    | nil => exact absurd rfl hne
    | cons b l => simpa using h1 b (by simp)
  · rw [List.isChain_map]
    refine List.IsChain.imp_of_mem_imp ?_ h3
    intro a b ha _ hab
    rcases hab with rfl | ⟨j, hj⟩
    · exact .inl rfl
    · right
      have hv := h2 a ha
      cases hr : get_closest_value_sorted angles rs (arctan2 a.2.2 a.2.1) with
      | error e => simp [compute_values, hr] at hv
      | ok r =>
        cases hθ : get_closest_value_sorted angles θs (arctan2 a.2.2 a.2.1) with
        | error e => simp [compute_values, hr, hθ] at hv
        | ok θ =>
          refine ⟨j, r, θ, rfl, rfl, fun hp hf => ?_⟩
          rw [compute_values_direction angles rs θs k a.2 hp r θ hr hθ hf] at hv
          injection hv with hv
          rw [hj, ← hv]
          rfl

/-- When a trajectory has points. -/
theorem follow_iff (hr : angles.length = rs.length) (hθ : angles.length = θs.length)
    (k : ℝ) (start : Vec) (n : ℕ) (c : ℝ) :
    (follow_trajectory (compute_values angles rs θs k) start n c).2 = none ∧
      (follow_trajectory (compute_values angles rs θs k) start n c).1 ≠ [] ↔
    0 < n ∧ ∃ a ∈ angles, arctan2 start.2 start.1 ≤ a := by
  have he := compute_values_edge angles rs θs k start hr hθ
  cases n with
  | zero => simp [follow_trajectory, loop]
  | succ n =>
    by_cases hin : ∃ a ∈ angles, arctan2 start.2 start.1 ≤ a
    · obtain ⟨v, hv⟩ := he.2 hin
      obtain ⟨l, hl, -⟩ := follow_stops_at_edge (compute_values angles rs θs k) start v n c
        (fun p e => compute_values_only_index angles rs θs k hr hθ p e) hv
      simp [hl, hin]
    · have : ∀ a ∈ angles, a < arctan2 start.2 start.1 := by
        intro a ha
        by_contra hlt
        exact hin ⟨a, ha, not_lt.1 hlt⟩
      have := (follow_start_outside _ start n c (he.1.2 this)).1
      simp [this, hin]

theorem no_error (hr : angles.length = rs.length) (hθ : angles.length = θs.length)
    (k : ℝ) (start : Vec) (n : ℕ) (c : ℝ) (hin : ∃ a ∈ angles, arctan2 start.2 start.1 ≤ a) :
    (follow_trajectory (compute_values angles rs θs k) start n c).2 = none := by
  cases n with
  | zero => rfl
  | succ n => exact ((follow_iff hr hθ k start (n + 1) c).2 ⟨by omega, hin⟩).1

end

/-! ## The figure -/

theorem positions_ok {l : List (Vec × Vec) × Option PyErr} {q : List Vec} :
    positions l = .ok q ↔ l.2 = none ∧ q = l.1.map (·.2) := by
  obtain ⟨a, e⟩ := l
  cases e with
  | none => simp [positions, eq_comm]
  | some e => simp [positions]

theorem maxOf_ok {l : List ℝ} (h : l ≠ []) : ∃ m, Stats.maxOf l = .ok m := by
  cases l with
  | nil => exact absurd rfl h
  | cons x l => exact ⟨_, rfl⟩

theorem maxLine_ok (str : ℝ → String) (w : Bool) {l : List ℝ} (h : l ≠ [])
    (name color : String) : ∃ sl, maxLine str w l name color = .ok sl := by
  obtain ⟨m, hm⟩ := maxOf_ok h
  unfold maxLine
  rw [hm]
  split <;> exact ⟨_, rfl⟩

/-- The parts of a figure. -/
theorem generate_ok {str : ℝ → String} {s : Soln} {p : Path} {o : Lines} {fig : Figure}
    (h : generate_plot str s p o = .ok fig) :
    ∃ points sl vl, s.points = .ok points ∧
      ((vFollow s p).2 = none ∧ (vFollow s p).1 ≠ []) ∧
      ((BFollow s p).2 = none ∧ (BFollow s p).1 ≠ []) ∧
      maxLine str o.with_max_soln_angle s.angles "solution" "C7" = .ok sl ∧
      maxLine str o.with_max_v_angle (((vFollow s p).1.map (·.2)).map fun q => arctan2 q.2 q.1)
        "v streamline" "C8" = .ok vl ∧
      fig.lines = pointLine str o.with_slow points.slow "Slow" "C2" ++
        pointLine str o.with_sonic points.sonic "Sonic" "C3" ++
        pointLine str o.with_alfven points.alfven "alfven" "C4" ++
        pointLine str o.with_fast points.fast "fast" "C5" ++
        (if o.with_45_line then [⟨1, "45°", "C6"⟩] else []) ++ sl ++ vl ∧
      fig.curves = [
        ⟨(BFollow s p).1.map (·.2), some "$B$ field line", some "C1"⟩,
        ⟨(vFollow s p).1.map (·.2), some "$v$ streamline", some "C0"⟩] ∧
      fig.xlabel = "Cylindrical radius (distance from origin, arb. units)" ∧
      fig.ylabel = "Cylindrical height (distance from origin, arb. units)" := by
  unfold generate_plot at h
  cases hp : s.points with
  | error e => simp [hp] at h
  | ok points =>
    cases hv : positions (vFollow s p) with
    | error e => simp [hp, hv] at h
    | ok v =>
      cases hB : positions (BFollow s p) with
      | error e => simp [hp, hv, hB] at h
      | ok B =>
        obtain ⟨nv, rfl⟩ := positions_ok.1 hv
        obtain ⟨nB, rfl⟩ := positions_ok.1 hB
        simp only [hp, hv, hB] at h
        cases h1 : maxLine str o.with_max_soln_angle s.angles "solution" "C7" with
        | error e => simp [h1] at h
        | ok sl =>
          simp only [h1] at h
          by_cases hc : (vFollow s p).1.map (·.2) = [] ∧ o.with_max_v_angle = true
          · simp [hc] at h
          · rw [if_neg hc] at h
            cases h2 : maxLine str o.with_max_v_angle
                (((vFollow s p).1.map (·.2)).map fun q => arctan2 q.2 q.1) "v streamline"
                "C8" with
            | error e => simp only [h2, reduceCtorEq] at h
            | ok vl =>
              simp only [h2] at h
              split at h
              · cases h
              · rename_i hne
                push Not at hne
                injection h with h
                subst h
                exact ⟨points, sl, vl, rfl, ⟨nv, by simpa using hne.2⟩,
                  ⟨nB, by simpa using hne.1⟩, rfl,
                  rfl, rfl, rfl, rfl, rfl⟩

/-- **When there is a figure**: the critical points are found, a positive number of steps is
asked for, and neither start is above the solution. -/
theorem flow_ok_iff (str : ℝ → String) (s : Soln) (p : Path) (o : Lines) :
    (∃ fig, generate_plot str s p o = .ok fig) ↔
      (∃ q, s.points = .ok q) ∧ 0 < p.v_max_steps ∧ 0 < p.B_max_steps ∧
      Inside s p.v_start_position ∧ Inside s p.B_start_position := by
  have hv := follow_iff (angles := s.angles) (rs := s.rows.map (·.2.v_r))
    (θs := s.rows.map (·.2.v_θ)) (by simp [Soln.angles]) (by simp [Soln.angles]) (-1 / 2)
    p.v_start_position p.v_max_steps.toNat p.v_step_scaling
  have hB := follow_iff (angles := s.angles) (rs := s.rows.map (·.2.B_r))
    (θs := s.rows.map (·.2.B_θ)) (by simp [Soln.angles]) (by simp [Soln.angles]) (s.γ - 5 / 4)
    p.B_start_position p.B_max_steps.toNat p.B_step_scaling
  rw [← vFollow, Int.lt_toNat, Nat.cast_zero] at hv
  rw [← BFollow, Int.lt_toNat, Nat.cast_zero] at hB
  constructor
  · rintro ⟨fig, h⟩
    obtain ⟨points, -, -, hp, h1, h2, -⟩ := generate_ok h
    exact ⟨⟨points, hp⟩, (hv.1 h1).1, (hB.1 h2).1, (hv.1 h1).2, (hB.1 h2).2⟩
  · rintro ⟨⟨points, hp⟩, h1, h2, h3, h4⟩
    obtain ⟨nv, hvl⟩ := hv.2 ⟨h1, h3⟩
    obtain ⟨nB, hBl⟩ := hB.2 ⟨h2, h4⟩
    have hne : (vFollow s p).1.map (·.2) ≠ [] := by simpa using hvl
    have hneB : (BFollow s p).1.map (·.2) ≠ [] := by simpa using hBl
    have hang : s.angles ≠ [] := by
      obtain ⟨a, ha, -⟩ := h3
      exact List.ne_nil_of_mem ha
    obtain ⟨l1, e1⟩ := maxLine_ok str o.with_max_soln_angle hang "solution" "C7"
    obtain ⟨l2, e2⟩ := maxLine_ok str o.with_max_v_angle
      (l := ((vFollow s p).1.map (·.2)).map fun q => arctan2 q.2 q.1)
      (by rw [ne_eq, List.map_eq_nil_iff]; exact hne) "v streamline" "C8"
    have hp1 := positions_ok.2 ⟨nv, rfl⟩
    have hp2 := positions_ok.2 ⟨nB, rfl⟩
    unfold generate_plot
    simp only [hp, hp1, hp2, e1]
    rw [if_neg fun h => hne h.1]
    simp only [e2]
    rw [if_neg (by rintro (h | h); exacts [hneB h, hne h])]
    exact ⟨_, rfl⟩

/-- **The curves of the figure**: a field line and a streamline, each from the start asked
for with the step asked for. -/
theorem flow_curves (str : ℝ → String) (s : Soln) (p : Path) (o : Lines) (fig : Figure)
    (h : generate_plot str s p o = .ok fig) :
    ∃ B v : List Vec, fig.curves = [
        ⟨B, some "$B$ field line", some "C1"⟩, ⟨v, some "$v$ streamline", some "C0"⟩] ∧
      Follows s.angles (s.rows.map (·.2.B_r)) (s.rows.map (·.2.B_θ)) p.B_start_position
        p.B_step_scaling B ∧
      Follows s.angles (s.rows.map (·.2.v_r)) (s.rows.map (·.2.v_θ)) p.v_start_position
        p.v_step_scaling v ∧
      (B.length : ℤ) ≤ p.B_max_steps ∧ (v.length : ℤ) ≤ p.v_max_steps := by
  obtain ⟨points, sl, vl, -, ⟨-, hv⟩, ⟨-, hB⟩, -, -, -, hc, -⟩ := generate_ok h
  obtain ⟨-, hv0, hB0, -⟩ := (flow_ok_iff str s p o).1 ⟨fig, h⟩
  refine ⟨_, _, hc, follow_follows _ _ _ _ _ rfl hB, follow_follows _ _ _ _ _ rfl hv, ?_, ?_⟩
  · have := follow_bounded (compute_values s.angles (s.rows.map (·.2.B_r))
      (s.rows.map (·.2.B_θ)) (s.γ - 5 / 4)) p.B_start_position p.B_max_steps.toNat
      p.B_step_scaling
    rw [List.length_map]
    change (BFollow s p).1.length ≤ _ at this
    omega
  · have := follow_bounded (compute_values s.angles (s.rows.map (·.2.v_r))
      (s.rows.map (·.2.v_θ)) (-1 / 2)) p.v_start_position p.v_max_steps.toNat
      p.v_step_scaling
    rw [List.length_map]
    change (vFollow s p).1.length ≤ _ at this
    omega

theorem mem_pointLine (str : ℝ → String) (w : Bool) (angle : Option ℝ) (name color : String)
    (l : AxLine) : l ∈ pointLine str w angle name color ↔ w = true ∧ ∃ a, angle = some a ∧
      l = ⟨Real.tan a, name ++ " point angle (" ++ str (ValidatePlot.degrees a) ++ "°)",
        color⟩ := by
  cases w <;> cases angle <;> simp [pointLine]

theorem mem_maxLine {str : ℝ → String} {w : Bool} {angles : List ℝ} {name color : String}
    {sl : List AxLine} (h : maxLine str w angles name color = .ok sl) (l : AxLine) :
    l ∈ sl ↔ w = true ∧ ∃ a ∈ angles, (∀ b ∈ angles, b ≤ a) ∧
      l = ⟨Real.tan a, "Max angle in " ++ name ++ " " ++ str (ValidatePlot.degrees a) ++ "°",
        color⟩ := by
  unfold maxLine at h
  cases w with
  | false =>
    simp only [Bool.false_eq_true, if_false] at h
    injection h with h
    simp [← h]
  | true =>
    simp only [if_true] at h
    cases hm : Stats.maxOf angles with
    | error e => simp [hm] at h
    | ok m =>
      simp only [hm] at h
      injection h with h
      obtain ⟨h1, h2⟩ := Stats.maxOf_spec angles m hm
      rw [← h, List.mem_singleton]
      constructor
      · intro hl
        exact ⟨rfl, m, h1, h2, hl⟩
      · rintro ⟨-, a, ha, hb, hl⟩
        rw [hl, le_antisymm (h2 a ha) (hb m h1)]

/-- **The lines of the figure** are exactly those asked for: one for each critical point the
solution has, one at 45 degrees, one at the largest angle of the solution, and one at the
largest angle of the streamline drawn. -/
theorem flow_lines (str : ℝ → String) (s : Soln) (p : Path) (o : Lines) (fig : Figure)
    (h : generate_plot str s p o = .ok fig) :
    ∃ points B v, s.points = .ok points ∧ fig.curves = [B, v] ∧ ∀ l, l ∈ fig.lines ↔
      (o.with_slow = true ∧ ∃ a, points.slow = some a ∧ l = ⟨Real.tan a,
        "Slow point angle (" ++ str (ValidatePlot.degrees a) ++ "°)", "C2"⟩) ∨
      (o.with_sonic = true ∧ ∃ a, points.sonic = some a ∧ l = ⟨Real.tan a,
        "Sonic point angle (" ++ str (ValidatePlot.degrees a) ++ "°)", "C3"⟩) ∨
      (o.with_alfven = true ∧ ∃ a, points.alfven = some a ∧ l = ⟨Real.tan a,
        "alfven point angle (" ++ str (ValidatePlot.degrees a) ++ "°)", "C4"⟩) ∨
      (o.with_fast = true ∧ ∃ a, points.fast = some a ∧ l = ⟨Real.tan a,
        "fast point angle (" ++ str (ValidatePlot.degrees a) ++ "°)", "C5"⟩) ∨
      (o.with_45_line = true ∧ l = ⟨1, "45°", "C6"⟩) ∨
      (o.with_max_soln_angle = true ∧ ∃ a ∈ s.angles, (∀ b ∈ s.angles, b ≤ a) ∧
        l = ⟨Real.tan a,
          "Max angle in solution " ++ str (ValidatePlot.degrees a) ++ "°", "C7"⟩) ∨
      (o.with_max_v_angle = true ∧ ∃ q ∈ v.points,
        (∀ q' ∈ v.points, arctan2 q'.2 q'.1 ≤ arctan2 q.2 q.1) ∧
        l = ⟨Real.tan (arctan2 q.2 q.1), "Max angle in v streamline " ++
          str (ValidatePlot.degrees (arctan2 q.2 q.1)) ++ "°", "C8"⟩) := by
  obtain ⟨points, sl, vl, hp, -, -, h1, h2, hl, hc, -⟩ := generate_ok h
  refine ⟨points, _, _, hp, hc, fun l => ?_⟩
  have e1 : "Slow" ++ " point angle (" = "Slow point angle (" := by decide
  have e2 : "Sonic" ++ " point angle (" = "Sonic point angle (" := by decide
  have e3 : "alfven" ++ " point angle (" = "alfven point angle (" := by decide
  have e4 : "fast" ++ " point angle (" = "fast point angle (" := by decide
  have e5 : "Max angle in " ++ "solution" ++ " " = "Max angle in solution " := by decide
  have e6 : "Max angle in " ++ "v streamline" ++ " " = "Max angle in v streamline " := by
    decide
  have m1 := mem_maxLine h1 l
  have m2 := mem_maxLine h2 l
  simp only [e5, e6] at m1 m2
  have m3 : l ∈ (if o.with_45_line = true then [(⟨1, "45°", "C6"⟩ : AxLine)] else []) ↔
      o.with_45_line = true ∧ l = ⟨1, "45°", "C6"⟩ := by
    split <;> simp_all
  rw [hl]
  simp only [List.mem_append, mem_pointLine, m1, m2, m3, e1, e2, e3, e4, or_assoc,
    List.mem_map, exists_exists_and_eq_and, forall_exists_index, and_imp,
    forall_apply_eq_imp_iff₂]

/-- **The streamline stays below the line of its largest angle** and touches it, as long as
it stays right of the axis. -/
theorem flow_max_line (str : ℝ → String) (s : Soln) (p : Path) (o : Lines) (fig : Figure)
    (h : generate_plot str s p o = .ok fig) (ho : o.with_max_v_angle = true) (B v : Plots.Curve)
    (hc : fig.curves = [B, v]) (hx : ∀ q ∈ v.points, 0 < q.1) :
    ∃ l ∈ fig.lines, l.color = "C8" ∧ (∀ q ∈ v.points, q.2 ≤ l.slope * q.1) ∧
      ∃ q ∈ v.points, q.2 = l.slope * q.1 := by
  obtain ⟨points, sl, vl, -, hne, -, -, h2, hl, hc', -⟩ := generate_ok h
  rw [hc'] at hc
  simp only [List.cons.injEq, and_true] at hc
  obtain ⟨-, rfl⟩ := hc
  unfold maxLine at h2
  rw [if_pos ho] at h2
  cases hm : Stats.maxOf (((vFollow s p).1.map (·.2)).map fun q => arctan2 q.2 q.1) with
  | error e => simp only [hm, reduceCtorEq] at h2
  | ok m =>
    simp only [hm] at h2
    injection h2 with h2
    obtain ⟨hmem, hmax⟩ := Stats.maxOf_spec _ m hm
    obtain ⟨q, hq, hqm⟩ := List.mem_map.1 hmem
    have hb : -(Real.pi / 2) < m ∧ m < Real.pi / 2 := by
      rw [← hqm, arctan2_pos _ _ (hx q hq)]
      exact ⟨Real.neg_pi_div_two_lt_arctan _, Real.arctan_lt_pi_div_two _⟩
    refine ⟨_, by rw [hl, ← h2]; exact List.mem_append_right _ (List.mem_singleton.2 rfl), rfl,
      ?_, q, hq, ?_⟩
    · intro q' hq'
      exact (axline_angle m q'.2 q'.1 (hx q' hq') hb.1 hb.2).2.1
        (hmax _ (List.mem_map.2 ⟨q', hq', rfl⟩))
    · exact (axline_angle m q.2 q.1 (hx q hq) hb.1 hb.2).1.1 hqm

/-- **The command's figure** has at most two lines: the sonic point, always, and the largest
angle of the streamline unless that is switched off. -/
theorem flow_plot (str : ℝ → String) (s : Soln) (p : Path) (w : Bool) (fig : Figure)
    (h : plot str s p w = .ok fig) :
    ∃ points B v, s.points = .ok points ∧ fig.curves = [B, v] ∧ ∀ l, l ∈ fig.lines ↔
      (∃ a, points.sonic = some a ∧ l = ⟨Real.tan a,
        "Sonic point angle (" ++ str (ValidatePlot.degrees a) ++ "°)", "C3"⟩) ∨
      (w = true ∧ ∃ q ∈ v.points,
        (∀ q' ∈ v.points, arctan2 q'.2 q'.1 ≤ arctan2 q.2 q.1) ∧
        l = ⟨Real.tan (arctan2 q.2 q.1), "Max angle in v streamline " ++
          str (ValidatePlot.degrees (arctan2 q.2 q.1)) ++ "°", "C8"⟩) := by
  obtain ⟨points, B, v, h1, h2, h3⟩ := flow_lines str s p _ fig h
  refine ⟨points, B, v, h1, h2, fun l => ?_⟩
  rw [h3 l]
  simp

/-! ## The files -/

/-- What is read back from the text of a file: comments and rows. -/
def Reads (t : Text) (comments : List Text) (rows : List (List Text)) : Prop :=
  Csv.comments (Csv.rawLines t) = comments ∧
    Csv.readRows {} (Csv.dataLines (Csv.rawLines t)) = .ok rows

theorem written_get (creatable : String → Bool) (fs : Files) (path other : String)
    (body : List Text × Option PyErr) (t : Text) (h : fs.get? other = some t) :
    (writeNew creatable fs path body).2.get? other = some t := by
  unfold writeNew
  cases hp : fs.get? path with
  | some x => exact h
  | none =>
    simp only
    split
    · rw [Dict.get?_set_ne _ _ (by rintro rfl; rw [h] at hp; cases hp)]
      exact h
    · exact h

/-- **No file that exists is changed**, whatever happens. -/
theorem save_never_overwrites (str : ℝ → Text) (creatable : String → Bool) (s : Soln)
    (p : Path) (o : Out) (fs : Files) (path : String) (t : Text)
    (h : fs.get? path = some t) :
    (save_trajectory str creatable s p o fs).2.get? path = some t := by
  unfold save_trajectory
  cases s.points with
  | error e => exact h
  | ok points =>
    cases Stats.maxOf s.angles with
    | error e => exact h
    | ok m =>
      simp only
      generalize hb : (startOf o _ ++ _, (none : Option PyErr)) = b1
      have h1 := written_get creatable fs o.stats_output_file path b1 t h
      cases e1 : writeNew creatable fs o.stats_output_file b1 with
      | mk r1 fs1 =>
        rw [e1] at h1
        cases r1 with
        | error e => exact h1
        | ok u =>
          simp only
          generalize (startOf o _ ++ _, (vFollow s p).2) = b2
          have h2 := written_get creatable fs1 o.v_output_file path b2 t h1
          cases e2 : writeNew creatable fs1 o.v_output_file b2 with
          | mk r2 fs2 =>
            rw [e2] at h2
            cases r2 with
            | error e => exact h2
            | ok u => exact written_get creatable fs2 o.B_output_file path _ t h2

/-- Printed values stay on their line. -/
structure OneLine (str : ℝ → Text) (o : Out) : Prop where
  number : ∀ x, '\n' ∉ str x
  filename : '\n' ∉ o.filename
  soln_range : '\n' ∉ o.soln_range

/-- The metadata as comments. -/
def metadata (o : Out) : List Text :=
  ["filename=".toList ++ o.filename, "soln_range=".toList ++ o.soln_range]

/-- Neither name ends in a blank. -/
def Trimmed (o : Out) : Prop := ∀ t ∈ metadata o, Text.Trim t

theorem reads_text {str : ℝ → Text} {o : Out} (h1 : OneLine str o) (h2 : Trimmed o)
    (header : List Text) (rows : List (List Text)) (hh : header ≠ [] ∧ ∀ t ∈ header, '\n' ∉ t)
    (hr : ∀ r ∈ rows, r ≠ [] ∧ ∀ t ∈ r, '\n' ∉ t) :
    Reads (startOf o header ++ rows.map Csv.writeRow).flatten (metadata o)
      (header :: rows) := by
  let items : List Csv.Item := (metadata o).map .comment ++ (header :: rows).map .row
  have ht : items.map Csv.Item.text = startOf o header ++ rows.map Csv.writeRow := by
    simp only [items, metadata, startOf, Csv.metadataLines, List.map_map,
      List.map_cons, List.map_nil, Csv.Item.text, List.append_assoc, List.cons_append,
      List.nil_append]
    rfl
  have hl : ∀ i ∈ items, i.OneLine := by
    intro i hi
    simp only [items, metadata, List.map_cons, List.map_nil, List.cons_append, List.nil_append,
      List.mem_cons, List.mem_map] at hi
    rcases hi with rfl | rfl | rfl | ⟨r, hr', rfl⟩
    · simp only [Csv.Item.OneLine, List.mem_append, not_or]
      exact ⟨by decide, h1.filename⟩
    · simp only [Csv.Item.OneLine, List.mem_append, not_or]
      exact ⟨by decide, h1.soln_range⟩
    · exact hh
    · exact hr r hr'
  have hrows : ∀ l : List (List Text), Csv.rowsOf (l.map .row) = l := by
    intro l
    induction l with
    | nil => rfl
    | cons r l ih => simp [Csv.rowsOf, ih]
  have hcom : ∀ l : List (List Text), Csv.commentsOf (l.map .row) = [] := by
    intro l
    induction l with
    | nil => rfl
    | cons r l ih => simp [Csv.commentsOf, ih]
  have hro : Csv.rowsOf items = header :: rows := by
    simp only [items, metadata, List.map_cons, List.map_nil, List.cons_append, List.nil_append,
      Csv.rowsOf, hrows]
  have hco : Csv.commentsOf items = metadata o := by
    simp only [items, metadata, List.map_cons, List.map_nil, List.cons_append, List.nil_append,
      Csv.commentsOf, hcom]
  rw [← ht]
  refine ⟨?_, ?_⟩
  · rw [Csv.csv_comments items hl (by rw [hco]; exact h2), hco]
  · rw [Csv.rawLines_items items hl, Csv.dataLines_items items hl, hro]
    refine Csv.readRows_records ?_
    have hne := Csv.rowsOf_ne items hl
    rw [hro] at hne
    generalize header :: rows = l at hne
    induction l with
    | nil => exact .nil
    | cons r l ih =>
      exact .cons (Csv.record_written r (hne r (by simp))) (ih fun s hs => hne s (by simp [hs]))

/-- The fields of a row of a trajectory. -/
def trajFields (str : ℝ → Text) (q : Vec × Vec) : List Text :=
  [str q.1.1, str q.1.2, str q.2.1, str q.2.2]

/-- **The files written.** If the three names are new and different and files can be made
there, the critical points are found and neither start is above the solution, all three files
are written and nothing is raised. Reading them gives back the metadata, the angles of the
points (empty if there is none) and the largest angle, and every value of the streamline and
the field line with its position, in order. -/
theorem saved (str : ℝ → Text) (creatable : String → Bool) (s : Soln) (p : Path) (o : Out)
    (fs : Files) (h1 : OneLine str o) (h2 : Trimmed o) (points : Info.Sonics)
    (hp : s.points = .ok points)
    (hv : Inside s p.v_start_position) (hB : Inside s p.B_start_position)
    (hd : [o.stats_output_file, o.v_output_file, o.B_output_file].Nodup)
    (hn : ∀ f ∈ [o.stats_output_file, o.v_output_file, o.B_output_file],
      fs.get? f = none ∧ creatable f = true) :
    (save_trajectory str creatable s p o fs).1 = .ok () ∧
    ∃ (m : ℝ) (t₁ t₂ t₃ : Text), m ∈ s.angles ∧ (∀ a ∈ s.angles, a ≤ m) ∧
      (save_trajectory str creatable s p o fs).2.get? o.stats_output_file = some t₁ ∧
      (save_trajectory str creatable s p o fs).2.get? o.v_output_file = some t₂ ∧
      (save_trajectory str creatable s p o fs).2.get? o.B_output_file = some t₃ ∧
      Reads t₁ (metadata o) [
        ["slow_angle".toList, "sonic_angle".toList, "alfven_angle".toList,
          "fast_angle".toList, "max_soln_angle".toList],
        [(points.slow.map str).getD [], (points.sonic.map str).getD [],
          (points.alfven.map str).getD [], (points.fast.map str).getD [], str m]] ∧
      Reads t₂ (metadata o) (["v_x".toList, "v_y".toList, "x".toList, "y".toList] ::
        (vFollow s p).1.map (trajFields str)) ∧
      Reads t₃ (metadata o) (["B_x".toList, "B_y".toList, "x".toList, "y".toList] ::
        (BFollow s p).1.map (trajFields str)) := by
  have nv : (vFollow s p).2 = none := no_error (by simp [Soln.angles]) (by simp [Soln.angles])
    _ _ _ _ hv
  have nB : (BFollow s p).2 = none := no_error (by simp [Soln.angles]) (by simp [Soln.angles])
    _ _ _ _ hB
  have hang : s.angles ≠ [] := by
    obtain ⟨a, ha, -⟩ := hv
    exact List.ne_nil_of_mem ha
  obtain ⟨m, hm⟩ := maxOf_ok hang
  obtain ⟨hm1, hm2⟩ := Stats.maxOf_spec _ m hm
  obtain ⟨a1, b1⟩ := hn o.stats_output_file (by simp)
  obtain ⟨a2, b2⟩ := hn o.v_output_file (by simp)
  obtain ⟨a3, b3⟩ := hn o.B_output_file (by simp)
  simp only [List.nodup_cons, List.mem_cons, List.not_mem_nil, or_false, not_or,
    List.nodup_nil, and_true, not_false_eq_true] at hd
  obtain ⟨⟨d1, d2⟩, d3⟩ := hd
  have hrows : ∀ l : List (Vec × Vec), l.map (trajRow str) =
      (l.map (trajFields str)).map Csv.writeRow := by
    intro l
    rw [List.map_map]
    rfl
  have htraj : ∀ l : List (Vec × Vec), ∀ r ∈ l.map (trajFields str),
      r ≠ [] ∧ ∀ t ∈ r, '\n' ∉ t := by
    intro l r hr
    obtain ⟨q, -, rfl⟩ := List.mem_map.1 hr
    refine ⟨by simp [trajFields], ?_⟩
    intro t ht
    simp only [trajFields, List.mem_cons, List.not_mem_nil, or_false] at ht
    rcases ht with rfl | rfl | rfl | rfl <;> exact h1.number _
  have hopt : ∀ x : Option ℝ, optField str x = (x.map str).getD [] := by
    intro x
    cases x <;> rfl
  have hopt' : ∀ x : Option ℝ, '\n' ∉ (x.map str).getD [] := by
    intro x
    cases x with
    | none => simp
    | some x => exact h1.number x
  unfold save_trajectory
  simp only [hp, hm]
  simp only [writeNew, a1, b1, if_true, Dict.get?_set_ne _ _ d1, Dict.get?_set_ne _ _ d2,
    Dict.get?_set_ne _ _ d3, a2, b2, nv, a3, b3, nB]
  refine ⟨trivial, m, _, _, _, hm1, hm2,
    (Dict.get?_set_ne _ _ (Ne.symm d2)).trans
      ((Dict.get?_set_ne _ _ (Ne.symm d1)).trans (Dict.get?_set_self _ _ _)),
    (Dict.get?_set_ne _ _ (Ne.symm d3)).trans (Dict.get?_set_self _ _ _),
    Dict.get?_set_self _ _ _, ?_, ?_, ?_⟩
  · have := reads_text h1 h2 ["slow_angle".toList, "sonic_angle".toList,
      "alfven_angle".toList, "fast_angle".toList, "max_soln_angle".toList]
      [[(points.slow.map str).getD [], (points.sonic.map str).getD [],
        (points.alfven.map str).getD [], (points.fast.map str).getD [], str m]]
      (by decide) (by
        intro r hr
        rw [List.mem_singleton] at hr
        subst hr
        refine ⟨by simp, ?_⟩
        intro t ht
        simp only [List.mem_cons, List.not_mem_nil, or_false] at ht
        rcases ht with rfl | rfl | rfl | rfl | rfl
        · exact hopt' _
        · exact hopt' _
        · exact hopt' _
        · exact hopt' _
        · exact h1.number _)
    simpa only [hopt, List.map_cons, List.map_nil] using this
  · rw [hrows]
    exact reads_text h1 h2 _ _ (by decide) (htraj _)
  · rw [hrows]
    exact reads_text h1 h2 _ _ (by decide) (htraj _)

/-- **What else may happen to the files.** No other file is touched. If the first file exists
nothing is written; if the second does, only the first is written; in both cases an exception
is raised. -/
theorem save_order (str : ℝ → Text) (creatable : String → Bool) (s : Soln) (p : Path)
    (o : Out) (fs : Files) :
    (∀ path, path ∉ [o.stats_output_file, o.v_output_file, o.B_output_file] →
      (save_trajectory str creatable s p o fs).2.get? path = fs.get? path) ∧
    ((fs.get? o.stats_output_file).isSome →
      (save_trajectory str creatable s p o fs).2 = fs ∧
      ∃ e, (save_trajectory str creatable s p o fs).1 = .error e) ∧
    (o.stats_output_file ≠ o.v_output_file → (fs.get? o.v_output_file).isSome →
      (∃ e, (save_trajectory str creatable s p o fs).1 = .error e) ∧
      ∀ path, path ≠ o.stats_output_file →
        (save_trajectory str creatable s p o fs).2.get? path = fs.get? path) := by
  have other : ∀ (fs : Files) (path file : String) (b : List Text × Option PyErr),
      path ≠ file → (writeNew creatable fs file b).2.get? path = fs.get? path := by
    intro fs path file b hne
    unfold writeNew
    cases fs.get? file with
    | some x => rfl
    | none =>
      simp only
      split
      · rw [Dict.get?_set_ne _ _ (Ne.symm hne)]
      · rfl
  have exists_ : ∀ (fs : Files) (file : String) (b : List Text × Option PyErr),
      (fs.get? file).isSome → writeNew creatable fs file b = (.error .FileExistsError, fs) := by
    intro fs file b h
    unfold writeNew
    cases hf : fs.get? file with
    | none => rw [hf] at h; cases h
    | some x => rfl
  unfold save_trajectory
  cases s.points with
  | error e => exact ⟨fun _ _ => rfl, fun _ => ⟨rfl, e, rfl⟩, fun _ _ => ⟨⟨e, rfl⟩, fun _ _ => rfl⟩⟩
  | ok points =>
    cases Stats.maxOf s.angles with
    | error e =>
      exact ⟨fun _ _ => rfl, fun _ => ⟨rfl, e, rfl⟩, fun _ _ => ⟨⟨e, rfl⟩, fun _ _ => rfl⟩⟩
    | ok m =>
      simp only
      generalize hb : (startOf o _ ++ _, (none : Option PyErr)) = b1
      generalize (startOf o _ ++ _, (vFollow s p).2) = b2
      generalize (startOf o _ ++ _, (BFollow s p).2) = b3
      refine ⟨?_, ?_, ?_⟩
      · intro path hpath
        simp only [List.mem_cons, List.not_mem_nil, or_false, not_or] at hpath
        have k1 := other fs path o.stats_output_file b1 hpath.1
        cases e1 : writeNew creatable fs o.stats_output_file b1 with
        | mk r1 fs1 =>
          rw [e1] at k1
          cases r1 with
          | error e => exact k1
          | ok u =>
            have k2 := other fs1 path o.v_output_file b2 hpath.2.1
            simp only
            cases e2 : writeNew creatable fs1 o.v_output_file b2 with
            | mk r2 fs2 =>
              rw [e2] at k2
              cases r2 with
              | error e => exact k2.trans k1
              | ok u => exact (other fs2 path o.B_output_file b3 hpath.2.2).trans (k2.trans k1)
      · intro h
        rw [exists_ _ _ _ h]
        exact ⟨rfl, _, rfl⟩
      · intro hne h
        have k1 := fun path => other fs path o.stats_output_file b1
        cases e1 : writeNew creatable fs o.stats_output_file b1 with
        | mk r1 fs1 =>
          rw [e1] at k1
          cases r1 with
          | error e => exact ⟨⟨e, rfl⟩, k1⟩
          | ok u =>
            simp only
            have : (fs1.get? o.v_output_file).isSome := by
              rw [k1 _ (Ne.symm hne)]
              exact h
            rw [exists_ _ _ _ this]
            exact ⟨⟨_, rfl⟩, k1⟩

/-- **A start above the solution**: the file of the streamline is left behind with its header
only, that of the field line is not made, and `TypeError` is raised. -/
theorem save_start_outside (str : ℝ → Text) (creatable : String → Bool) (s : Soln) (p : Path)
    (o : Out) (fs : Files) (points : Info.Sonics) (hp : s.points = .ok points)
    (hrows : s.rows ≠ []) (hv : ¬ Inside s p.v_start_position) (hn : 0 < p.v_max_steps)
    (hd : [o.stats_output_file, o.v_output_file, o.B_output_file].Nodup)
    (hnew : ∀ f ∈ [o.stats_output_file, o.v_output_file],
      fs.get? f = none ∧ creatable f = true) :
    (save_trajectory str creatable s p o fs).1 = .error .TypeError ∧
    (save_trajectory str creatable s p o fs).2.get? o.v_output_file =
      some (startOf o ["v_x".toList, "v_y".toList, "x".toList, "y".toList]).flatten ∧
    (save_trajectory str creatable s p o fs).2.get? o.B_output_file =
      fs.get? o.B_output_file := by
  have hf : vFollow s p = ([], some .TypeError) := by
    unfold vFollow
    obtain ⟨n, hn⟩ : ∃ n, p.v_max_steps.toNat = n + 1 := ⟨p.v_max_steps.toNat - 1, by omega⟩
    rw [hn]
    refine (follow_start_outside _ _ _ _ ?_).1
    refine (compute_values_edge _ _ _ _ _ (by simp [Soln.angles]) (by simp [Soln.angles])).1.2 ?_
    intro a ha
    by_contra hlt
    exact hv ⟨a, ha, not_lt.1 hlt⟩
  obtain ⟨m, hm⟩ := maxOf_ok (l := s.angles) (by simpa [Soln.angles] using hrows)
  obtain ⟨a1, b1⟩ := hnew o.stats_output_file (by simp)
  obtain ⟨a2, b2⟩ := hnew o.v_output_file (by simp)
  simp only [List.nodup_cons, List.mem_cons, List.not_mem_nil, or_false, not_or,
    List.nodup_nil, and_true, not_false_eq_true] at hd
  obtain ⟨⟨d1, d2⟩, d3⟩ := hd
  unfold save_trajectory
  simp only [hp, hm]
  simp only [writeNew, a1, b1, if_true, Dict.get?_set_ne _ _ d1, a2, b2, hf, List.map_nil,
    List.append_nil]
  refine ⟨trivial, Dict.get?_set_self _ _ _, ?_⟩
  rw [Dict.get?_set_ne _ _ d3, Dict.get?_set_ne _ _ d2]

/-! ## Examples -/

/-- A solution up to the axis. -/
noncomputable def witSoln : Soln where
  rows := [(0, St.zero), (Real.pi / 2, { St.zero with v_r := 1, v_θ := 1, B_r := 1 })]
  γ := 1 / 1000
  points := .ok ⟨none, some 1, none, none⟩

theorem wit_inside (p : Vec) (h : 0 < p.1) : Inside witSoln p := by
  refine ⟨Real.pi / 2, by simp [witSoln, Soln.angles], ?_⟩
  rw [arctan2_pos _ _ h]
  exact (Real.arctan_lt_pi_div_two _).le

theorem wit_flow : ∃ fig, plot (fun _ => "") witSoln {} true = .ok fig :=
  (flow_ok_iff _ _ _ _).2 ⟨⟨_, rfl⟩, by norm_num, by norm_num,
    wit_inside _ (by norm_num), wit_inside _ (by norm_num)⟩

example := flow_curves _ _ _ _ _ wit_flow.choose_spec
example := flow_lines _ _ _ _ _ wit_flow.choose_spec
example := flow_plot _ _ _ _ _ wit_flow.choose_spec

/-- One point is right of the axis. -/
theorem wit_one : ∃ fig, plot (fun _ => "") witSoln { v_max_steps := 1 } true = .ok fig :=
  (flow_ok_iff _ _ _ _).2 ⟨⟨_, rfl⟩, by norm_num, by norm_num,
    wit_inside _ (by norm_num), wit_inside _ (by norm_num)⟩

example : ∃ B v, wit_one.choose.curves = [B, v] ∧ ∃ l ∈ wit_one.choose.lines,
    l.color = "C8" ∧ (∀ q ∈ v.points, q.2 ≤ l.slope * q.1) ∧
      ∃ q ∈ v.points, q.2 = l.slope * q.1 := by
  obtain ⟨B, v, hc, -, hv, -, hl⟩ := flow_curves _ _ _ _ _ wit_one.choose_spec
  refine ⟨_, _, hc, flow_max_line _ _ _ _ _ wit_one.choose_spec rfl _ _ hc ?_⟩
  intro q hq
  obtain ⟨h1, -⟩ := hv
  match v, h1, hl, hq with
  | [a], h1, _, hq =>
    simp only [List.head?_cons, Option.some.injEq] at h1
    simp only [List.mem_singleton] at hq
    rw [hq, h1]
    norm_num
  | a :: b :: l, _, hl, _ => simp at hl; omega

def witOut : Out := ⟨"stats", "B", "v", "run.hdf5".toList, "None".toList⟩

theorem wit_oneLine : OneLine (fun _ => "1.0".toList) witOut :=
  ⟨fun _ => by decide, by decide, by decide⟩

theorem wit_trimmed : Trimmed witOut := by
  intro t ht
  simp only [metadata, List.mem_cons, List.not_mem_nil, or_false] at ht
  rcases ht with rfl | rfl <;> exact Text.trim_of_all (by decide)

example := saved (fun _ => "1.0".toList) (fun _ => true) witSoln {} witOut []
  wit_oneLine wit_trimmed _ rfl (wit_inside _ (by norm_num)) (wit_inside _ (by norm_num))
  (by decide) (by simp)

example := save_never_overwrites (fun _ => "1.0".toList) (fun _ => true) witSoln {} witOut
  [("v", "old".toList)] "v" _ rfl

example := (save_order (fun _ => "1.0".toList) (fun _ => true) witSoln {} witOut
  [("v", "old".toList)]).2.2 (by decide) rfl

example := save_start_outside (fun _ => "1.0".toList) (fun _ => true)
  { witSoln with rows := [(0, St.zero)] } { v_start_position := (1, 1) } witOut [] _ rfl
  (by simp) (by
    rintro ⟨a, ha, hle⟩
    simp only [Soln.angles, List.map_cons, List.map_nil, List.mem_singleton] at ha
    rw [ha, arctan2_one, Real.arctan_one] at hle
    linarith [Real.pi_pos])
  (by norm_num) (by decide) (by simp)

end DiscSolver.Flow
