import Verif.Model.TaylorScan
import Verif.Props.TaylorSpace
import Verif.Props.Taylor

/-!
# Properties: `ds-plot-taylor-space`

C104.
-/

namespace DiscSolver.TaylorSpace

/-- The disc of a point of the scan: the Hall and the ambipolar diffusivity are those
asked for the other way round (C53). -/
noncomputable def disc (g r a c : ℝ) : NumInput where
  start := 0
  stop := 0
  num_angles := 0
  γ := g
  v_rin_on_c_s := r
  v_a_on_c_s := a
  c_s_on_v_k := c
  η_O := 0.005
  η_A := 0.008
  η_H := 0.001
  use_E_r := false

/-- The points of the scan. -/
structure InScan (g r a c : ℝ) : Prop where
  γ : 1e-5 ≤ g ∧ g < 1e-2
  v_r : 0.1 ≤ r ∧ r < 1
  v_a : 0.1 ≤ a ∧ a < 1
  c_s : 0.03 < c ∧ c ≤ 0.05

theorem disc_discriminant {g r a c : ℝ} (h : InScan g r a c) :
    300 ≤ v_φ_discriminant (v_r := -r) (η_H := 0.001) (η_P := 0.005 + 0.008)
      (norm_kepler_sq := 1 / c ^ 2) (a_0 := a ^ 2) (γ := g) := by
  obtain ⟨⟨g1, g2⟩, ⟨r1, r2⟩, ⟨a1, a2⟩, ⟨c1, c2⟩⟩ := h
  have hc : (400 : ℝ) ≤ 1 / c ^ 2 := by
    rw [le_div_iff₀ (by positivity)]
    nlinarith
  have ha : a ^ 2 ≤ 1 := by nlinarith
  have ha0 : 0 ≤ a ^ 2 := sq_nonneg a
  have hra : r * a ^ 2 ≤ 1 := by nlinarith
  have hr2 : r * r ≤ 1 := by nlinarith
  have hr20 : 0 ≤ r * r := by nlinarith
  unfold v_φ_discriminant
  have : 1 / c ^ 2 - 5 / 2 + 2 * g + -r * (a ^ 2 / (0.005 + 0.008) + -r / 2 *
      (0.001 ^ 2 / (8 * (0.005 + 0.008) ^ 2) - 1)) =
      1 / c ^ 2 - 5 / 2 + 2 * g - (r * a ^ 2) * (1000 / 13) - (r * r) * (1351 / 2704) := by
    ring
  rw [this]
  linarith

/-- The midplane of a point. -/
theorem disc_conditions {g r a c : ℝ} (h : InScan g r a c) :
    ∃ k, define_conditions (disc g r a c) = some k ∧ AtMidplane k.init_con ∧
      k.γ = g ∧ k.a_0 = a ^ 2 ∧ k.init_con.v_r = -r ∧ 16 ≤ k.init_con.v_φ ∧
      k.init_con.η_O = 0.005 ∧ k.init_con.η_A = 0.008 ∧ k.init_con.η_H = 0.001 := by
  have hd := disc_discriminant h
  obtain ⟨-, ⟨r1, r2⟩, -, -⟩ := h
  cases hk : define_conditions (disc g r a c) with
  | none =>
    exfalso
    unfold define_conditions v_φ_boundary_func disc at hk
    dsimp only at hk
    rw [if_neg (by linarith)] at hk
    cases hk
  | some k =>
    have hm := atMidplane_of_conditions _ _ hk
    refine ⟨k, rfl, hm, ?_⟩
    unfold define_conditions v_φ_boundary_func disc at hk
    dsimp only at hk
    rw [if_neg (by linarith)] at hk
    injection hk with hk
    subst hk
    refine ⟨rfl, rfl, rfl, ?_, rfl, rfl, rfl⟩
    dsimp only
    have hs : (17 : ℝ) ≤ Real.sqrt (v_φ_discriminant (v_r := -r) (η_H := 0.001)
        (η_P := 0.005 + 0.008) (norm_kepler_sq := 1 / c ^ 2) (a_0 := a ^ 2) (γ := g)) := by
      apply Real.le_sqrt_of_sq_le
      linarith
    have : -r * 0.001 / (4 * (0.005 + 0.008)) = - r * (1 / 52) := by ring
    rw [this]
    linarith

/-- C104. The divisions in the Taylor series have no zero divisor at any point of the scan:
`η_P`, `Z_5`, `Y_5` and `Y_6` are positive. -/
theorem disc_regular {g r a c : ℝ} (h : InScan g r a c) {k : Conditions}
    (hk : define_conditions (disc g r a c) = some k) :
    let s := k.init_con
    let η_P := s.η_O + s.η_A
    let C := midplane_C_func s.η_H η_P
    let Z_5 := midplane_Z_5_func (η_P ^ 2 + s.η_H ^ 2) η_P
    let Y_5 := Y_5_func k.a_0 s.v_r k.γ Z_5
    0 < η_P ∧ 0 < Z_5 ∧ 0 < Y_5 ∧
      0 < Y_6_func s.v_φ Y_5 k.a_0 C Z_5 k.γ s.v_r η_P s.η_H ∧ s.v_r ≠ 0 ∧ k.a_0 ≠ 0 := by
  obtain ⟨k', hk', -, e1, e2, e3, e4, e5, e6, e7⟩ := disc_conditions h
  rw [hk] at hk'
  injection hk' with hk'
  subst hk'
  obtain ⟨⟨g1, g2⟩, ⟨r1, r2⟩, ⟨a1, a2⟩, -⟩ := h
  dsimp only
  rw [e1, e2, e3, e5, e6, e7]
  generalize k.init_con.v_φ = q at e4
  have hZ : midplane_Z_5_func ((0.005 + 0.008) ^ 2 + 0.001 ^ 2) (0.005 + 0.008) =
      (17 / 1300 : ℝ) := by norm_num [midplane_Z_5_func]
  have hC : midplane_C_func 0.001 (0.005 + 0.008) = (1 / 13 : ℝ) := by
    norm_num [midplane_C_func]
  rw [hZ, hC]
  have haa : 0.01 ≤ a ^ 2 := by nlinarith
  have hY5 : 0 < Y_5_func (a ^ 2) (-r) g (17 / 1300) := by
    have : Y_5_func (a ^ 2) (-r) g (17 / 1300) =
        - r + 8 * (r * g) + a ^ 2 * (2600 / 17) := by unfold Y_5_func; ring
    rw [this]
    have : 0 ≤ r * g := mul_nonneg (by linarith) (by linarith)
    linarith
  refine ⟨by norm_num, by norm_num, hY5, ?_, by linarith, by positivity⟩
  generalize Y_5_func (a ^ 2) (-r) g (17 / 1300) = y at hY5
  have hq : 0 < q := by linarith
  have hr : 0 < r := by linarith
  have hg : 0 < g := by linarith
  have ha : 0 < a ^ 2 := by linarith
  have : Y_6_func q y (a ^ 2) (1 / 13) (17 / 1300) g (-r) (0.005 + 0.008) 0.001 =
      q / y * (a ^ 2 * (200 / 17) + q) + (4 * g + 1) * r / 2 +
        a ^ 2 * (500 / 13) * (169 / 170 + (a ^ 2 * (200 / 17) + q) / y * (13 / 170)) := by
    unfold Y_6_func
    field_simp
    ring
  rw [this]
  positivity

/-- C104. The second derivatives at a point of the scan: those of the density and of the
vertical field are negative. -/
theorem disc_second {g r a c : ℝ} (h : InScan g r a c) {k : Conditions}
    (hk : define_conditions (disc g r a c) = some k) :
    let y := get_taylor_second_order k.init_con k.γ k.a_0 false false
    y.B_r = 0 ∧ y.B_φ = 0 ∧ y.v_θ = 0 ∧ y.η_O = 0 ∧ y.η_A = 0 ∧ y.η_H = 0 ∧
      y.ρ < 0 ∧ y.B_θ < 0 := by
  obtain ⟨k', hk', -, e1, e2, e3, e4, e5, e6, e7⟩ := disc_conditions h
  rw [hk] at hk'
  injection hk' with hk'
  subst hk'
  obtain ⟨⟨g1, g2⟩, ⟨r1, r2⟩, ⟨a1, a2⟩, -⟩ := h
  have hBr : deriv_B_r_midplane_func k.γ
      (B_φ_prime_boundary_func k.init_con.v_r k.init_con.v_φ k.a_0) k.init_con.η_H
      (k.init_con.η_O + k.init_con.η_A) k.init_con.v_r ≥ 7 := by
    rw [e1, e2, e3, e5, e6, e7]
    unfold deriv_B_r_midplane_func B_φ_prime_boundary_func
    have hpos : 0 ≤ k.init_con.v_φ * r / (2 * a ^ 2) := by positivity
    have : g - 1 / 4 - (k.init_con.v_φ * -r / (2 * a ^ 2) * 0.001 + -r) / (0.005 + 0.008) =
        g - 1 / 4 + k.init_con.v_φ * r / (2 * a ^ 2) * (1 / 13) + r * (1000 / 13) := by ring
    rw [this]
    linarith
  refine ⟨rfl, rfl, rfl, by simp [get_taylor_second_order, taylor_series],
    by simp [get_taylor_second_order, taylor_series],
    by simp [get_taylor_second_order, taylor_series], ?_, ?_⟩
  · show - Y_1_func k.init_con.v_r k.init_con.v_φ (deriv_B_r_midplane_func k.γ
      (B_φ_prime_boundary_func k.init_con.v_r k.init_con.v_φ k.a_0) k.init_con.η_H
      (k.init_con.η_O + k.init_con.η_A) k.init_con.v_r)
      (B_φ_prime_boundary_func k.init_con.v_r k.init_con.v_φ k.a_0) k.γ k.a_0 < 0
    generalize deriv_B_r_midplane_func _ _ _ _ _ = b at hBr
    generalize B_φ_prime_boundary_func _ _ _ = p
    rw [e1, e2, e3]
    unfold Y_1_func
    have h1 : 0 ≤ a ^ 2 * (b * (1 / 4 - g + b) + p ^ 2) := by
      apply mul_nonneg (sq_nonneg a)
      have : 0 ≤ b * (1 / 4 - g + b) := mul_nonneg (by linarith) (by linarith)
      nlinarith [sq_nonneg p]
    have h2 : (-r) ^ 2 * g * (1 - 4 * g) / 2 ≤ 1 := by
      have : (-r) ^ 2 * g ≤ 1 := by nlinarith
      have h0 : 0 ≤ (-r) ^ 2 * g := by positivity
      nlinarith
    nlinarith
  · show 1 - (k.γ + 3 / 4) * (deriv_B_r_midplane_func k.γ
      (B_φ_prime_boundary_func k.init_con.v_r k.init_con.v_φ k.a_0) k.init_con.η_H
      (k.init_con.η_O + k.init_con.η_A) k.init_con.v_r) < 0
    generalize deriv_B_r_midplane_func _ _ _ _ _ = b at hBr
    rw [e1]
    nlinarith

/-! ## The command -/

theorem values_disc {g r a c : ℝ} (h : InScan g r a c) :
    ∃ k, define_conditions (disc g r a c) = some k ∧
      compute_taylor_values (sampleInput g r a c 0.005 0.001 0.008) = .ok
        ⟨k.init_con, get_taylor_first_order k.init_con k.γ k.a_0,
          get_taylor_second_order k.init_con k.γ k.a_0 false false,
          get_taylor_third_order k.init_con k.γ k.a_0 false false⟩ := by
  obtain ⟨k, hk, -⟩ := disc_conditions h
  refine ⟨k, hk, ?_⟩
  have hn : numInput (sampleInput g r a c 0.005 0.001 0.008) = .ok (disc g r a c) := by
    simp [numInput, sampleInput, number, SingleRun.bool, SingleRun.count, Bind.bind,
      Except.bind, disc, pure, Except.pure]
  unfold compute_taylor_values
  rw [hn]
  simp only [Bind.bind, Except.bind, hk]
  rfl

/-- A number drawn from `[0, 1)`. -/
def Drawn (u : ℝ) : Prop := 0 ≤ u ∧ u < 1

theorem drawn_inScan {u v w x : ℝ} (hu : Drawn u) (hv : Drawn v) (hw : Drawn w)
    (hx : Drawn x) : InScan (uniform 1e-5 1e-2 u) (uniform 0.1 1.0 v) (uniform 0.1 1.0 w)
      (uniform 0.05 0.03 x) := by
  obtain ⟨u1, u2⟩ := hu
  obtain ⟨v1, v2⟩ := hv
  obtain ⟨w1, w2⟩ := hw
  obtain ⟨x1, x2⟩ := hx
  unfold uniform
  refine ⟨⟨?_, ?_⟩, ⟨?_, ?_⟩, ⟨?_, ?_⟩, ⟨?_, ?_⟩⟩ <;> norm_num <;> linarith

/-- A point of the plot: its parameters, and the second derivatives there. -/
def Shown (x : List ℝ) (y : St) : Prop :=
  ∃ g r a c k, x = [g, r, a, c] ∧ InScan g r a c ∧
    define_conditions (disc g r a c) = some k ∧
    y = get_taylor_second_order k.init_con k.γ k.a_0 false false

theorem scan_shown (u v w x : List ℝ) (h1 : u.length = v.length) (h2 : u.length = w.length)
    (h3 : u.length = x.length) (hu : ∀ z ∈ u, Drawn z) (hv : ∀ z ∈ v, Drawn z)
    (hw : ∀ z ∈ w, Drawn z) (hx : ∀ z ∈ x, Drawn z) :
    ∃ l, (inputs 0.005 0.001 0.008 (u.map (uniform 1e-5 1e-2)) (v.map (uniform 0.1 1.0))
        (w.map (uniform 0.1 1.0)) (x.map (uniform 0.05 0.03))).mapM compute_taylor_values =
          .ok l ∧ l.length = u.length ∧
      List.Forall₂ Shown (rows (u.map (uniform 1e-5 1e-2)) (v.map (uniform 0.1 1.0))
        (w.map (uniform 0.1 1.0)) (x.map (uniform 0.05 0.03))) (l.map Orders.second) := by
  induction u generalizing v w x with
  | nil =>
    match v, w, x, h1, h2, h3 with
    | [], [], [], _, _, _ => exact ⟨[], rfl, rfl, .nil⟩
  | cons a u ih =>
    match v, w, x, h1, h2, h3 with
    | b :: v, c :: w, d :: x, h1, h2, h3 =>
      simp only [List.length_cons, Nat.add_right_cancel_iff] at h1 h2 h3
      simp only [List.mem_cons, forall_eq_or_imp] at hu hv hw hx
      obtain ⟨l, e1, e2, e3⟩ := ih v w x h1 h2 h3 hu.2 hv.2 hw.2 hx.2
      have hin := drawn_inScan hu.1 hv.1 hw.1 hx.1
      obtain ⟨k, hk, hval⟩ := values_disc hin
      refine ⟨⟨k.init_con, get_taylor_first_order k.init_con k.γ k.a_0,
          get_taylor_second_order k.init_con k.γ k.a_0 false false,
          get_taylor_third_order k.init_con k.γ k.a_0 false false⟩ :: l, ?_, by simp [e2],
        .cons ⟨_, _, _, _, k, rfl, hin, hk, rfl⟩ e3⟩
      · simp only [List.map_cons, inputs, List.mapM_cons, hval, e1, Bind.bind, Except.bind,
          pure, Except.pure]

/-- C104. `ds-plot-taylor-space` never fails, whatever is drawn.  It shows one point for
each sample, in order: the parameters, within the ranges of the scan, and the second
derivatives at the midplane of the disc with these parameters.  The numbers printed are
the least second derivatives of the radial and of the azimuthal velocity. -/
theorem scan_plots (u v w x : List ℝ) (h0 : u ≠ []) (h1 : u.length = v.length)
    (h2 : u.length = w.length) (h3 : u.length = x.length) (hu : ∀ z ∈ u, Drawn z)
    (hv : ∀ z ∈ v, Drawn z) (hw : ∀ z ∈ w, Drawn z) (hx : ∀ z ∈ x, Drawn z) :
    ∃ plot a b, main u v w x = .ok plot ∧ plot.ys.length = u.length ∧
      List.Forall₂ Shown plot.xs plot.ys ∧ plot.printed = [a, b] ∧
      a ∈ plot.ys.map St.v_r ∧ (∀ y ∈ plot.ys, a ≤ y.v_r) ∧
      b ∈ plot.ys.map St.v_φ ∧ (∀ y ∈ plot.ys, b ≤ y.v_φ) ∧
      plot.input_names = ["γ", "v_rin_on_c_s", "v_a_on_c_s", "c_s_on_v_k"] ∧
      plot.output_names = odeNames ∧ plot.limits = mainLimits := by
  obtain ⟨l, e1, e2, e3⟩ := scan_shown u v w x h1 h2 h3 hu hv hw hx
  have hl : l ≠ [] := by
    rintro rfl
    exact h0 (List.length_eq_zero_iff.1 e2.symm)
  have hspace : sampled_space (1e-5, 1e-2) (0.1, 1.0) (0.1, 1.0) (0.05, 0.03) 0.005 0.001
      0.008 u v w x = .ok ⟨u.map (uniform 1e-5 1e-2), v.map (uniform 0.1 1.0),
        w.map (uniform 0.1 1.0), x.map (uniform 0.05 0.03), l⟩ := by
    have hg : solution_input_generator (u.map (uniform 1e-5 1e-2)) (v.map (uniform 0.1 1.0))
        (w.map (uniform 0.1 1.0)) (x.map (uniform 0.05 0.03)) 0.005 0.001 0.008 =
        .ok (inputs 0.005 0.001 0.008 (u.map (uniform 1e-5 1e-2)) (v.map (uniform 0.1 1.0))
          (w.map (uniform 0.1 1.0)) (x.map (uniform 0.05 0.03))) := by
      unfold solution_input_generator
      simp only [List.length_map]
      rw [if_neg (not_not.2 h1), if_neg (not_not.2 h2), if_neg (not_not.2 h3)]
    simp only [sampled_space, compute_taylor_space, hg, e1]
  have hmin : ∀ f : St → ℝ, ∃ a, ((l.map Orders.second).map f).min? = some a ∧
      a ∈ (l.map Orders.second).map f ∧ ∀ y ∈ l.map Orders.second, a ≤ f y := by
    intro f
    cases hm : ((l.map Orders.second).map f).min? with
    | none =>
      rw [List.min?_eq_none_iff] at hm
      simp at hm
      exact absurd hm hl
    | some a =>
      rw [List.min?_eq_some_iff] at hm
      exact ⟨a, rfl, hm.1, fun y hy => hm.2 _ (List.mem_map_of_mem hy)⟩
  obtain ⟨a, ha, ha1, ha2⟩ := hmin St.v_r
  obtain ⟨b, hb, hb1, hb2⟩ := hmin St.v_φ
  refine ⟨⟨rows (u.map (uniform 1e-5 1e-2)) (v.map (uniform 0.1 1.0))
      (w.map (uniform 0.1 1.0)) (x.map (uniform 0.05 0.03)), l.map Orders.second, [a, b],
      parameterNames, odeNames, mainLimits⟩, a, b, ?_, ?_, e3, rfl, ha1, ha2, hb1, hb2, rfl, rfl, rfl⟩
  · simp only [main, hspace, plot_taylor_space, ha, hb]
  · simp [e2]

/-- C104. What is shown of a point: six of the eleven panels are always flat, and the
density and the vertical field have negative second derivatives everywhere, while the
limits of their panels begin at zero. -/
theorem scan_out_of_limits (u v w x : List ℝ) (plot : Plot) (hp : main u v w x = .ok plot)
    (h1 : u.length = v.length) (h2 : u.length = w.length) (h3 : u.length = x.length)
    (hu : ∀ z ∈ u, Drawn z) (hv : ∀ z ∈ v, Drawn z) (hw : ∀ z ∈ w, Drawn z)
    (hx : ∀ z ∈ x, Drawn z) :
    ("ρ", some 0, none) ∈ plot.limits ∧ ("B_θ", some 0, none) ∈ plot.limits ∧
    ∀ y ∈ plot.ys, y.ρ < 0 ∧ y.B_θ < 0 ∧ y.B_r = 0 ∧ y.B_φ = 0 ∧ y.v_θ = 0 ∧ y.η_O = 0 ∧
      y.η_A = 0 ∧ y.η_H = 0 := by
  by_cases h0 : u = []
  · subst h0
    match v, w, x, h1, h2, h3 with
    | [], [], [], _, _, _ => cases hp
  · obtain ⟨plot', a, b, hp', -, hf, -, -, -, -, -, -, -, hlim⟩ :=
      scan_plots u v w x h0 h1 h2 h3 hu hv hw hx
    rw [hp] at hp'
    injection hp' with hp'
    subst hp'
    rw [hlim]
    refine ⟨by simp [mainLimits, odeNames], by simp [mainLimits, odeNames], ?_⟩
    intro y hy
    obtain ⟨p, -, hs⟩ : ∃ p ∈ plot.xs, Shown p y := by
      obtain ⟨i, hi, rfl⟩ := List.getElem_of_mem hy
      have hlen := hf.length_eq
      exact ⟨plot.xs[i]'(by omega), List.getElem_mem _, hf.get (by omega) hi⟩
    obtain ⟨g, r, a, c, k, -, hin, hk, rfl⟩ := hs
    obtain ⟨d1, d2, d3, d4, d5, d6, d7, d8⟩ := disc_second hin hk
    exact ⟨d7, d8, d1, d2, d3, d4, d5, d6⟩

/-- C104. Without samples it raises. -/
theorem scan_empty : main [] [] [] [] = .error .ValueError := rfl

/-! ## A case -/

theorem wit_drawn : ∀ z ∈ [(0 : ℝ), 1 / 2], Drawn z := by
  intro z hz
  simp only [List.mem_cons, List.not_mem_nil, or_false] at hz
  rcases hz with rfl | rfl <;> constructor <;> norm_num

example := scan_plots [0, 1 / 2] [0, 1 / 2] [0, 1 / 2] [0, 1 / 2] (by simp) rfl rfl rfl
  wit_drawn wit_drawn wit_drawn wit_drawn

example := scan_out_of_limits [0, 1 / 2] [0, 1 / 2] [0, 1 / 2] [0, 1 / 2] _
  (scan_plots [0, 1 / 2] [0, 1 / 2] [0, 1 / 2] [0, 1 / 2] (by simp) rfl rfl rfl
    wit_drawn wit_drawn wit_drawn wit_drawn).choose_spec.choose_spec.choose_spec.1
  rfl rfl rfl wit_drawn wit_drawn wit_drawn wit_drawn

example : InScan 0.001 0.5 0.5 0.05 := by
  constructor <;> constructor <;> norm_num

theorem wit_inScan : InScan 0.001 0.5 0.5 0.05 := by
  constructor <;> constructor <;> norm_num

example := disc_regular wit_inScan (disc_conditions wit_inScan).choose_spec.1
example := disc_second wit_inScan (disc_conditions wit_inScan).choose_spec.1

end DiscSolver.TaylorSpace
