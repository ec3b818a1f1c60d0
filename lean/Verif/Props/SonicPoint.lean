import Verif.Lemmas.SonicPoint
import Verif.Lemmas.Witness

/-!
# C88: the slope of `v_θ` at the sonic point

See `Verif.Spec.SonicPoint` for what going smoothly through the sonic point means.
-/

namespace DiscSolver

open Filter Topology

namespace SonicPoint

variable {P : OdeArgs} {f : ℝ → St} {θ₀ : ℝ} {d₀ : St}

private theorem limit_eq {g : ℝ → ℝ} {c : ℝ} (hc : ContinuousAt g θ₀)
    (h : Tendsto g (𝓝[≠] θ₀) (𝓝 c)) : c = g θ₀ :=
  tendsto_nhds_unique h (hc.tendsto.mono_left nhdsWithin_le_nhds)

/-- The derivatives the right-hand side would return at the point if `v_θ'` were `w`. -/
noncomputable def given (P : OdeArgs) (w θ₀ : ℝ) (s : St) : St :=
  rhsDerivs { P with deriv_v_θ_func := some fun _ => w } θ₀ s

/-- Along a curve on which `v_θ'` tends to `w`, everything the right-hand side returns
tends to what it would return for `w`. -/
theorem rhs_tendsto (hP : Plain P) (hd : HasStDeriv f d₀ θ₀) (hR : Regular θ₀ (f θ₀))
    (hv : (f θ₀).v_θ = 1) {w : ℝ}
    (hw : Tendsto (fun t => (rhsDerivs P t (f t)).v_θ) (𝓝[≠] θ₀) (𝓝 w)) :
    StTendsto (fun t => rhsDerivs P t (f t)) (𝓝[≠] θ₀) (given P w θ₀ (f θ₀)) := by
  obtain ⟨cφ, cr⟩ := rhs_B_continuous hP hd hR
  obtain ⟨ur, uφ, uθ⟩ := hasDerivAt_units (P := P) hd hR.B
  obtain ⟨g1, g2, g3, g4, g5, g6, g7, g8⟩ := rhs_given hP w θ₀ (f θ₀)
  have cT := (hasDerivAt_tan' hR.cos).continuousAt
  have c1 := hd.B_r.continuousAt
  have c2 := hd.B_φ.continuousAt
  have c3 := hd.B_θ.continuousAt
  have c4 := hd.v_r.continuousAt
  have c5 := hd.v_θ.continuousAt
  have c6 := hd.η_O.continuousAt
  have c7 := hd.η_A.continuousAt
  have c8 := hd.η_H.continuousAt
  have c9 := ur.continuousAt
  have c10 := uφ.continuousAt
  have c11 := uθ.continuousAt
  have c12 := hd.v_φ.continuousAt
  have c13 := hd.ρ.continuousAt
  have hv0 : (f θ₀).v_θ ≠ 0 := by rw [hv]; exact one_ne_zero
  have hρ0 := hR.ρ
  have cθ : ContinuousAt (fun t => (rhsDerivs P t (f t)).B_θ) θ₀ := by
    simp only [rhs_B_θ]; fun_prop
  have cvr : ContinuousAt (fun t => (rhsDerivs P t (f t)).v_r) θ₀ := by
    simp only [rhs_v_r _ _ _ hP.T]; fun_prop (disch := assumption)
  have cvφ : ContinuousAt (fun t => (rhsDerivs P t (f t)).v_φ) θ₀ := by
    simp only [rhs_v_φ _ _ _ hP.T]; fun_prop (disch := assumption)
  have cX : ContinuousAt (fun t => (rhsDerivs P t (f t)).X) θ₀ := by
    simp only [rhs_X_E hP, deriv_E_r_func, E_θ_func, J_r_func, J_θ_func, J_φ_func]
    fun_prop
  have hρ : Tendsto (fun t => (rhsDerivs P t (f t)).ρ) (𝓝[≠] θ₀)
      (𝓝 (given P w θ₀ (f θ₀)).ρ) := by
    rw [given, g8]
    simp only [rhs_ρ _ _ _ hP.T]
    have k : ∀ {g : ℝ → ℝ}, ContinuousAt g θ₀ → Tendsto g (𝓝[≠] θ₀) (𝓝 (g θ₀)) :=
      fun h => h.tendsto.mono_left nhdsWithin_le_nhds
    exact (k c13.neg).mul ((((k (c4.const_mul (2 * P.γ))).add hw).div (k c5) hv0).sub
      (k cT))
  have k : ∀ {g : ℝ → ℝ}, ContinuousAt g θ₀ → Tendsto g (𝓝[≠] θ₀) (𝓝 (g θ₀)) :=
    fun h => h.tendsto.mono_left nhdsWithin_le_nhds
  have hη : ∀ η₀ : ℝ, Tendsto (fun t => deriv_η_skw_func
      (deriv_ρ := (rhsDerivs P t (f t)).ρ) (deriv_B_θ := (rhsDerivs P t (f t)).B_θ)
      (ρ := (f t).ρ) (B_r := (f t).B_r) (B_φ := (f t).B_φ) (B_θ := (f t).B_θ)
      (deriv_B_r := (rhsDerivs P t (f t)).B_r)
      (deriv_B_φ := (rhsDerivs P t (f t)).B_φ) * η₀) (𝓝[≠] θ₀)
      (𝓝 (deriv_η_skw_func (deriv_ρ := (given P w θ₀ (f θ₀)).ρ)
        (deriv_B_θ := (given P w θ₀ (f θ₀)).B_θ) (ρ := (f θ₀).ρ) (B_r := (f θ₀).B_r)
        (B_φ := (f θ₀).B_φ) (B_θ := (f θ₀).B_θ)
        (deriv_B_r := (given P w θ₀ (f θ₀)).B_r)
        (deriv_B_φ := (given P w θ₀ (f θ₀)).B_φ) * η₀)) := by
    intro η₀
    simp only [deriv_η_skw_func]
    have h1 := (k (g := fun t => 2 * ((f t).B_r * (rhsDerivs P t (f t)).B_r +
      (f t).B_φ * (rhsDerivs P t (f t)).B_φ + (f t).B_θ * (rhsDerivs P t (f t)).B_θ))
      (by fun_prop))
    have h2 := k (g := fun t => (f t).B_r ^ 2 + (f t).B_φ ^ 2 + (f t).B_θ ^ 2)
      (by fun_prop)
    exact ((h1.sub ((h2.mul hρ).div (k c13) hρ0)).div (k c13) hρ0).mul_const η₀
  refine ⟨k cr, k cφ, k cθ, k cvr, k cvφ, hw, hρ, ?_, ?_, ?_, ?_⟩
  · rw [given, g6]; exact k cX
  all_goals
    rcases h : P.η_derivs with _ | _
    · simp only [rhs_η_const P _ _ h, given,
        rhs_η_const { P with deriv_v_θ_func := some fun _ => w } _ _ h]
      exact tendsto_const_nhds
    · simp only [rhs_η P _ _ h, given,
        rhs_η { P with deriv_v_θ_func := some fun _ => w } _ _ h]
      exact hη _

/-- What the split parts are for a derivative the right-hand side would return. -/
private theorem given_parts (hP : Plain P) (s : St) (hv : s.v_θ = 1) (w : ℝ)
    (h : d₀ = given P w θ₀ s) :
    d₀.B_φ = (rhsDerivs P θ₀ s).B_φ ∧ d₀.B_r = (rhsDerivs P θ₀ s).B_r ∧
    d₀.X = (rhsDerivs P θ₀ s).X ∧ d₀.v_θ = w ∧
    d₀.ρ = (callAt P θ₀ s d₀).deriv_ρ_up + (callAt P θ₀ s d₀).deriv_ρ_down * w ∧
    d₀.η_O = (callAt P θ₀ s d₀).deriv_η_O_up + (callAt P θ₀ s d₀).deriv_η_O_down * w ∧
    d₀.η_A = (callAt P θ₀ s d₀).deriv_η_A_up + (callAt P θ₀ s d₀).deriv_η_A_down * w ∧
    d₀.η_H = (callAt P θ₀ s d₀).deriv_η_H_up +
      (callAt P θ₀ s d₀).deriv_η_H_down * w := by
  obtain ⟨g1, g2, g3, g4, g5, g6, g7, g8⟩ := rhs_given hP w θ₀ s
  have hρ : d₀.ρ = (callAt P θ₀ s d₀).deriv_ρ_up +
      (callAt P θ₀ s d₀).deriv_ρ_down * w := by
    rw [h, given, g8, hv]
    simp only [Args.deriv_ρ_up, Args.deriv_ρ_down, deriv_ρ_up_func, deriv_ρ_down_func,
      callAt]
    ring
  have hη : ∀ η₀ : ℝ, deriv_η_skw_func (deriv_ρ := d₀.ρ) (deriv_B_θ := d₀.B_θ)
      (ρ := s.ρ) (B_r := s.B_r) (B_φ := s.B_φ) (B_θ := s.B_θ) (deriv_B_r := d₀.B_r)
      (deriv_B_φ := d₀.B_φ) * η₀ = (callAt P θ₀ s d₀).deriv_η_scale_up * η₀ +
        (callAt P θ₀ s d₀).deriv_η_scale_down * η₀ * w := by
    intro η₀
    rw [hρ]
    simp only [deriv_η_skw_func, Args.deriv_η_scale_up, Args.deriv_η_scale_down,
      deriv_η_up_func, deriv_η_down_func]
    generalize (callAt P θ₀ s d₀).deriv_ρ_up = u
    generalize (callAt P θ₀ s d₀).deriv_ρ_down = v
    simp only [callAt]
    ring
  refine ⟨by rw [h]; exact g1, by rw [h]; exact g2, by rw [h]; exact g6,
    by rw [h]; exact g7, hρ, ?_⟩
  simp only [Args.deriv_η_O_up, Args.deriv_η_O_down, Args.deriv_η_A_up,
    Args.deriv_η_A_down, Args.deriv_η_H_up, Args.deriv_η_H_down]
  rcases hh : P.η_derivs with _ | _
  · have e : (callAt P θ₀ s d₀).η_derivs = false := hh
    obtain ⟨r1, r2, r3⟩ :=
      rhs_η_const { P with deriv_v_θ_func := some fun _ => w } θ₀ s hh
    simp only [e]
    rw [h]
    refine ⟨?_, ?_, ?_⟩ <;> simp [given, r1, r2, r3]
  · have e : (callAt P θ₀ s d₀).η_derivs = true := hh
    obtain ⟨r1, r2, r3⟩ := rhs_η { P with deriv_v_θ_func := some fun _ => w } θ₀ s hh
    simp only [e, if_true]
    refine ⟨?_, ?_, ?_⟩
    · refine Eq.trans ?_ (hη P.init_con.η_O)
      rw [h]; exact r1
    · refine Eq.trans ?_ (hη P.init_con.η_A)
      rw [h]; exact r2
    · refine Eq.trans ?_ (hη P.init_con.η_H)
      rw [h]; exact r3

/-- C88, exactly.  A differentiable curve of states with `v_θ = 1` at `θ₀` and slope
`w = d₀.v_θ ≠ 0` goes smoothly through the sonic point if and only if the numerator of
`v_θ'` vanishes there, the other derivatives are those of the right-hand side for
`v_θ' = w`, and `a w² + b w + c` is `slopeError`, where `a`, `b`, `c` are the coefficients
`deriv_v_θ_sonic` passes to the quadratic solver. -/
theorem sonic_slope_iff (hP : Plain P) (hd : HasStDeriv f d₀ θ₀)
    (hR : Regular θ₀ (f θ₀)) (hv : (f θ₀).v_θ = 1) (hw : d₀.v_θ ≠ 0) :
    Through P f θ₀ d₀ ↔ d₀ = given P d₀.v_θ θ₀ (f θ₀) ∧ numer P θ₀ (f θ₀) = 0 ∧
      (callAt P θ₀ (f θ₀) d₀).a * d₀.v_θ ^ 2 + (callAt P θ₀ (f θ₀) d₀).b * d₀.v_θ +
        (callAt P θ₀ (f θ₀) d₀).c = slopeError (callAt P θ₀ (f θ₀) d₀) d₀.v_θ := by
  have hne : ∀ᶠ t in 𝓝[≠] θ₀, (1 - (f t).v_θ) * (1 + (f t).v_θ) ≠ 0 := by
    have h1 : ∀ᶠ t in 𝓝[≠] θ₀, (f t).v_θ ≠ 1 := by
      have := hd.v_θ.eventually_ne hw (c := 1)
      simpa using this
    have h2 : ∀ᶠ t in 𝓝[≠] θ₀, (f t).v_θ ≠ -1 := by
      have : ∀ᶠ t in 𝓝 θ₀, (f t).v_θ ≠ -1 :=
        hd.v_θ.continuousAt.eventually_ne (by rw [hv]; norm_num)
      exact this.filter_mono nhdsWithin_le_nhds
    filter_upwards [h1, h2] with t a b
    refine mul_ne_zero (fun h => a (by linarith)) (fun h => b (by linarith))
  have ha : (callAt P θ₀ (f θ₀) d₀).a = 2 := by simp [Args.a, callAt]
  have hvc : Tendsto (fun t => (f t).v_θ) (𝓝[≠] θ₀) (𝓝 1) := by
    have := hd.v_θ.continuousAt.tendsto.mono_left (nhdsWithin_le_nhds (s := {θ₀}ᶜ))
    rwa [hv] at this
  have hsl : Tendsto (fun t => (t - θ₀)⁻¹ * ((f t).v_θ - 1)) (𝓝[≠] θ₀) (𝓝 d₀.v_θ) := by
    refine (hasDerivAt_iff_tendsto_slope.1 hd.v_θ).congr fun t => ?_
    rw [slope_def_field, hv]
    ring
  constructor
  · intro hT
    have heq : d₀ = given P d₀.v_θ θ₀ (f θ₀) := by
      have hl := rhs_tendsto hP hd hR hv hT.limit.v_θ
      have e : ∀ {g : ℝ → ℝ} {a b : ℝ}, Tendsto g (𝓝[≠] θ₀) (𝓝 a) →
          Tendsto g (𝓝[≠] θ₀) (𝓝 b) → a = b := fun h1 h2 => tendsto_nhds_unique h1 h2
      obtain ⟨a1, a2, a3, a4, a5, a6, a7, a8, a9, a10, a11⟩ := hT.limit
      obtain ⟨b1, b2, b3, b4, b5, b6, b7, b8, b9, b10, b11⟩ := hl
      exact St.ext (e a1 b1) (e a2 b2) (e a3 b3) (e a4 b4) (e a5 b5) (e a6 b6) (e a7 b7)
        (e a8 b8) (e a9 b9) (e a10 b10) (e a11 b11)
    obtain ⟨p1, p2, p3, -, p5, p6, p7, p8⟩ := given_parts hP (f θ₀) hv _ heq
    have hN := hasDerivAt_numer hP hd hR hv p1 p2 p3 p5 p6 p7 p8
    have hmul : ∀ᶠ t in 𝓝[≠] θ₀, numer P t (f t) =
        (rhsDerivs P t (f t)).v_θ * ((1 - (f t).v_θ) * (1 + (f t).v_θ)) := by
      filter_upwards [hne] with t ht
      rw [rhs_numer hP, div_mul_cancel₀ _ ht]
    have hN0 : numer P θ₀ (f θ₀) = 0 := by
      have h1 : Tendsto (fun t => numer P t (f t)) (𝓝[≠] θ₀)
          (𝓝 (d₀.v_θ * ((1 - 1) * (1 + 1)))) :=
        (hT.limit.v_θ.mul ((hvc.const_sub 1).mul (hvc.const_add 1))).congr'
          (hmul.mono fun _ h => h.symm)
      have := limit_eq hN.continuousAt h1
      rw [← this]; ring
    refine ⟨heq, hN0, ?_⟩
    have h1 := hasDerivAt_iff_tendsto_slope.1 hN
    have h2 : Tendsto (fun t => -((rhsDerivs P t (f t)).v_θ *
        ((t - θ₀)⁻¹ * ((f t).v_θ - 1)) * (1 + (f t).v_θ))) (𝓝[≠] θ₀)
        (𝓝 (-(d₀.v_θ * d₀.v_θ * (1 + 1)))) :=
      ((hT.limit.v_θ.mul hsl).mul (hvc.const_add 1)).neg
    have h3 := tendsto_nhds_unique h1 (h2.congr' (by
      filter_upwards [hmul] with t ht
      rw [slope_def_field, hN0, ht]
      ring))
    rw [hN0] at h3
    rw [ha]
    linear_combination h3
  · rintro ⟨heq, hN0, hq⟩
    obtain ⟨p1, p2, p3, -, p5, p6, p7, p8⟩ := given_parts hP (f θ₀) hv _ heq
    have hN := hasDerivAt_numer hP hd hR hv p1 p2 p3 p5 p6 p7 p8
    refine ⟨hd, hv, hw, ?_⟩
    have h1 := hasDerivAt_iff_tendsto_slope.1 hN
    have h2 : Tendsto (fun t => -(((t - θ₀)⁻¹ * ((f t).v_θ - 1)) * (1 + (f t).v_θ)))
        (𝓝[≠] θ₀) (𝓝 (-(d₀.v_θ * (1 + 1)))) :=
      (hsl.mul (hvc.const_add 1)).neg
    have hlim : Tendsto (fun t => (rhsDerivs P t (f t)).v_θ) (𝓝[≠] θ₀) (𝓝 d₀.v_θ) := by
      have h3 := h1.div h2 (by
        intro h
        exact hw (by linarith))
      have e : ((callAt P θ₀ (f θ₀) d₀).b * d₀.v_θ + (callAt P θ₀ (f θ₀) d₀).c -
          slopeError (callAt P θ₀ (f θ₀) d₀) d₀.v_θ + d₀.v_θ * numer P θ₀ (f θ₀)) /
          -(d₀.v_θ * (1 + 1)) = d₀.v_θ := by
        rw [hN0, ← hq, ha]
        field_simp
        ring
      rw [e] at h3
      refine h3.congr' ?_
      filter_upwards [hne, self_mem_nhdsWithin] with t ht hne'
      have hne'' : t - θ₀ ≠ 0 := sub_ne_zero.2 hne'
      have := left_ne_zero_of_mul ht
      have h4 : (f t).v_θ - 1 ≠ 0 := fun h => this (by linarith)
      have h5 := right_ne_zero_of_mul ht
      rw [rhs_numer hP, Pi.div_apply, slope_def_field, hN0]
      field_simp
      ring
    have := rhs_tendsto hP hd hR hv hlim
    rw [← heq] at this
    exact this

/-- A curve that solves the equations on both sides of the point, with continuous
derivative, goes smoothly through it. -/
theorem through_of_solution (d : ℝ → St) (hs : P.θ_scale = 1)
    (h1 : ∀ᶠ t in 𝓝[≠] θ₀, rhs_equation P t (f t) = (0, some (d t)))
    (h2 : StTendsto d (𝓝[≠] θ₀) (d θ₀)) (h3 : HasStDeriv f (d θ₀) θ₀)
    (hv : (f θ₀).v_θ = 1) (hw : (d θ₀).v_θ ≠ 0) : Through P f θ₀ (d θ₀) := by
  have e : ∀ᶠ t in 𝓝[≠] θ₀, d t = rhsDerivs P t (f t) := by
    filter_upwards [h1] with t ht
    have := (rhs_accepted ht).2.2.2
    rwa [hs, mul_one] at this
  refine ⟨h3, hv, hw, ?_⟩
  obtain ⟨a1, a2, a3, a4, a5, a6, a7, a8, a9, a10, a11⟩ := h2
  exact ⟨a1.congr' (e.mono fun t h => by rw [h]), a2.congr' (e.mono fun t h => by rw [h]),
    a3.congr' (e.mono fun t h => by rw [h]), a4.congr' (e.mono fun t h => by rw [h]),
    a5.congr' (e.mono fun t h => by rw [h]), a6.congr' (e.mono fun t h => by rw [h]),
    a7.congr' (e.mono fun t h => by rw [h]), a8.congr' (e.mono fun t h => by rw [h]),
    a9.congr' (e.mono fun t h => by rw [h]), a10.congr' (e.mono fun t h => by rw [h]),
    a11.congr' (e.mono fun t h => by rw [h])⟩

/-- C88, exact error: the slope of a curve through the sonic point misses being a root of
the quadratic by `slopeError`. -/
theorem sonic_slope_error (hP : Plain P) (hR : Regular θ₀ (f θ₀))
    (h : Through P f θ₀ d₀) :
    (callAt P θ₀ (f θ₀) d₀).a * d₀.v_θ ^ 2 + (callAt P θ₀ (f θ₀) d₀).b * d₀.v_θ +
      (callAt P θ₀ (f θ₀) d₀).c = slopeError (callAt P θ₀ (f θ₀) d₀) d₀.v_θ :=
  ((sonic_slope_iff hP h.deriv hR h.sonic h.crosses).1 h).2.2

/-- C88, the part that holds: for purely Ohmic diffusion at the point, the slope is a
root of the quadratic. -/
theorem sonic_slope_partial (hP : Plain P) (hR : Regular θ₀ (f θ₀))
    (h : Through P f θ₀ d₀) (hA : (f θ₀).η_A = 0) (hH : (f θ₀).η_H = 0) :
    (callAt P θ₀ (f θ₀) d₀).a * d₀.v_θ ^ 2 + (callAt P θ₀ (f θ₀) d₀).b * d₀.v_θ +
      (callAt P θ₀ (f θ₀) d₀).c = 0 := by
  rw [sonic_slope_error hP hR h]
  simp [slopeError, errB_φ, errA, errZ, Args.C, C_func, callAt, hA, hH]

/-- The contract of the external quadratic solver: when there are real roots it returns
all of them. -/
def Solves (q : ℝ → ℝ → ℝ → ℝ × ℝ) : Prop :=
  ∀ a b c, a ≠ 0 → (∃ x : ℝ, a * x ^ 2 + b * x + c = 0) →
    ∀ x, a * x ^ 2 + b * x + c = 0 ↔ x = (q a b c).1 ∨ x = (q a b c).2

/-- C88. When the quadratic has a real root, `deriv_v_θ_sonic` returns exactly when there
is one positive root, and returns that root. -/
theorem sonic_returns (q : ℝ → ℝ → ℝ → ℝ × ℝ) (hq : Solves q) (p : Args)
    (hp : p.v_θ ≠ 0) (hx : ∃ x : ℝ, p.a * x ^ 2 + p.b * x + p.c = 0)
    (h2 : (q p.a p.b p.c).1 ≠ (q p.a p.b p.c).2) (x : ℝ) :
    deriv_v_θ_sonic q p = .ok x ↔ (0 < x ∧ p.a * x ^ 2 + p.b * x + p.c = 0 ∧
      ∀ y, 0 < y → p.a * y ^ 2 + p.b * y + p.c = 0 → y = x) := by
  have ha : p.a ≠ 0 := mul_ne_zero two_ne_zero hp
  have hr := hq p.a p.b p.c ha hx
  simp only [deriv_v_θ_sonic]
  generalize hu : q p.a p.b p.c = u at *
  obtain ⟨u1, u2⟩ := u
  simp only at *
  constructor
  · intro h
    split_ifs at h with c1 c2 c3
    · injection h with h
      subst h
      refine ⟨c2, (hr _).2 (Or.inl rfl), ?_⟩
      intro y hy0 hy
      rcases (hr y).1 hy with e | e
      · exact e
      · exact absurd ⟨c2, e ▸ hy0⟩ c1
    · injection h with h
      subst h
      refine ⟨c3, (hr _).2 (Or.inr rfl), ?_⟩
      intro y hy0 hy
      rcases (hr y).1 hy with e | e
      · exact absurd (e ▸ hy0) c2
      · exact e
  · rintro ⟨h0, h1, hu'⟩
    rcases (hr x).1 h1 with e | e
    · subst e
      have : ¬ (0 < u2) := fun hc => h2 (hu' u2 hc ((hr u2).2 (Or.inr rfl))).symm
      rw [if_neg (fun hc => this hc.2), if_pos h0]
    · subst e
      have : ¬ (0 < u1) := fun hc => h2 (hu' u1 hc ((hr u1).2 (Or.inl rfl)))
      rw [if_neg (fun hc => this hc.1), if_neg this, if_pos h0]

/-- C88. The only other outcome of a call is `SolverError`, when both roots are positive
(so also for a positive double root) or none is. -/
theorem sonic_raises (q : ℝ → ℝ → ℝ → ℝ × ℝ) (p : Args) (e : PyErr) :
    deriv_v_θ_sonic q p = .error e ↔ e = .SolverError ∧
      ((0 < (q p.a p.b p.c).1 ∧ 0 < (q p.a p.b p.c).2) ∨
        ((q p.a p.b p.c).1 ≤ 0 ∧ (q p.a p.b p.c).2 ≤ 0)) := by
  simp only [deriv_v_θ_sonic]
  generalize q p.a p.b p.c = u
  obtain ⟨u1, u2⟩ := u
  simp only
  split_ifs with c1 c2 c3
  · simp only [Except.error.injEq]
    exact ⟨fun h => ⟨h.symm, Or.inl c1⟩, fun h => h.1.symm⟩
  · simp only [false_iff]
    rintro ⟨-, h | h⟩
    · exact c1 h
    · exact absurd c2 (not_lt.2 h.1)
  · simp only [false_iff]
    rintro ⟨-, h | h⟩
    · exact c1 h
    · exact absurd c3 (not_lt.2 h.2)
  · simp only [Except.error.injEq]
    exact ⟨fun h => ⟨h.symm, Or.inr ⟨not_lt.1 c2, not_lt.1 c3⟩⟩, fun h => h.1.symm⟩

/-- C88, the part that holds: for purely Ohmic diffusion at the point, what the function
returns is the slope of every curve that rises through the sonic point. -/
theorem sonic_slope_returned_partial (q : ℝ → ℝ → ℝ → ℝ × ℝ) (hq : Solves q)
    (hP : Plain P) (hR : Regular θ₀ (f θ₀)) (h : Through P f θ₀ d₀)
    (hA : (f θ₀).η_A = 0) (hH : (f θ₀).η_H = 0) (hw : 0 < d₀.v_θ) (x : ℝ)
    (hx : deriv_v_θ_sonic q (callAt P θ₀ (f θ₀) d₀) = .ok x) : x = d₀.v_θ := by
  have hroot := sonic_slope_partial hP hR h hA hH
  have ha : (callAt P θ₀ (f θ₀) d₀).a ≠ 0 := by simp [Args.a, callAt]
  have hr := (hq _ _ _ ha ⟨_, hroot⟩ d₀.v_θ).1 hroot
  simp only [deriv_v_θ_sonic] at hx
  split_ifs at hx with c1 c2 c3
  · injection hx with hx
    rcases hr with e | e
    · rw [e, hx]
    · exact absurd ⟨c2, e ▸ hw⟩ c1
  · injection hx with hx
    rcases hr with e | e
    · exact absurd (e ▸ hw) c2
    · rw [e, hx]

/-! ### Witnesses -/

/-- The quadratic formula. -/
noncomputable def formula (a b c : ℝ) : ℝ × ℝ :=
  ((-b + Real.sqrt (b ^ 2 - 4 * a * c)) / (2 * a),
    (-b - Real.sqrt (b ^ 2 - 4 * a * c)) / (2 * a))

/-- The contract can be met. -/
theorem formula_solves : Solves formula := by
  intro a b c ha ⟨x₀, h₀⟩ x
  have hd : b ^ 2 - 4 * a * c = (2 * a * x₀ + b) ^ 2 := by
    linear_combination (-4 * a) * h₀
  have hs : Real.sqrt (b ^ 2 - 4 * a * c) ^ 2 = b ^ 2 - 4 * a * c :=
    Real.sq_sqrt (by rw [hd]; positivity)
  simp only [formula]
  generalize Real.sqrt (b ^ 2 - 4 * a * c) = r at hs
  rw [eq_div_iff (by simpa using ha), eq_div_iff (by simpa using ha)]
  constructor
  · intro h
    have : (x * (2 * a) - (-b + r)) * (x * (2 * a) - (-b - r)) = 0 := by
      linear_combination (4 * a) * h - hs
    rcases mul_eq_zero.1 this with h | h
    · exact Or.inl (by linarith)
    · exact Or.inr (by linarith)
  · intro h
    have : 4 * a * (a * x ^ 2 + b * x + c) = 0 := by
      rcases h with h | h
      · linear_combination (x * (2 * a) + 2 * b - b + r) * h + hs
      · linear_combination (x * (2 * a) + 2 * b - b - r) * h + hs
    rcases mul_eq_zero.1 this with h | h
    · exact absurd h (by simpa using ha)
    · exact h

/-- Parameters for the Ohmic case. -/
noncomputable def ohmP : OdeArgs :=
  { γ := 1/2, a_0 := 1, norm_kepler_sq := 1/4, init_con := St.zero, η_derivs := false,
    use_E_r := true }

/-- A sonic state on the midplane with vertical field. -/
noncomputable def ohmS : St :=
  { B_r := 0, B_φ := 0, B_θ := 1, v_r := 0, v_φ := 0, v_θ := 1, ρ := 1, X := 0,
    η_O := 1, η_A := 0, η_H := 0 }

/-- A curve through it. -/
noncomputable def ohmF : ℝ → St := line ohmS (given ohmP (1/4) 0 ohmS) 0

theorem ohm_plain : Plain ohmP := ⟨rfl, rfl, rfl⟩

theorem ohm_mag : B_mag ohmS = 1 := by
  have : ohmS.B_r ^ 2 + ohmS.B_φ ^ 2 + ohmS.B_θ ^ 2 = 1 ^ 2 := by norm_num [ohmS]
  rw [B_mag, this, Real.sqrt_sq (by norm_num)]

theorem ohm_regular : Regular 0 (ohmF 0) := by
  rw [ohmF, line_at]
  refine ⟨by simp, by norm_num [ohmS], by norm_num [ohmS], ?_, ?_⟩
  · rw [ohm_mag]; norm_num [ohmS]
  · rw [ohm_mag]; norm_num [ohmS, Z_5_func, C_func]

theorem ohm_given : given ohmP (1/4) 0 ohmS =
    { B_r := 1/4, B_φ := 0, B_θ := 0, v_r := 9/4, v_φ := 0, v_θ := 1/4, ρ := -1/4,
      X := 0, η_O := 0, η_A := 0, η_H := 0 } := by
  have hk : (0 - Real.sqrt (1/4)) * (0 + Real.sqrt (1/4)) = -(1/4) := by
    have := Real.mul_self_sqrt (show (0:ℝ) ≤ 1/4 by norm_num)
    linear_combination -this
  have hφ : (given ohmP (1/4) 0 ohmS).B_φ = 0 := by
    simp only [given, rhsDerivs, rhsValues, ohm_mag]
    norm_num [ohmP, ohmS, deriv_B_φ_func, C_func, Z_5_func]
  have hr : (given ohmP (1/4) 0 ohmS).B_r = 1/4 := by
    rw [given, rhs_B_r, ← given, hφ, ohm_mag]
    norm_num [ohmP, ohmS, deriv_B_r_func]
  ext
  · exact hr
  · exact hφ
  · norm_num [given, rhs_B_θ, ohmP, ohmS]
  · rw [given, rhs_v_r _ _ _ rfl, ← given, hr]
    simp only [ohmP, ohmS]
    rw [hk]; norm_num
  · rw [given, rhs_v_φ _ _ _ rfl, ← given, hφ]
    norm_num [ohmP, ohmS]
  · rfl
  · rw [given, (rhs_given ohm_plain _ _ _).2.2.2.2.2.2.2]
    norm_num [ohmP, ohmS]
  · rw [given, (rhs_given ohm_plain _ _ _).2.2.2.2.2.1, rhs_X_E ohm_plain,
      ← (rhs_given ohm_plain (1/4) 0 ohmS).1, ← (rhs_given ohm_plain (1/4) 0 ohmS).2.1,
      ← given, hφ, hr, ohm_mag]
    norm_num [ohmP, ohmS, deriv_E_r_func, E_θ_func, J_r_func, J_θ_func, J_φ_func]
  · exact (rhs_η_const _ _ _ rfl).1
  · exact (rhs_η_const _ _ _ rfl).2.1
  · exact (rhs_η_const _ _ _ rfl).2.2

/-- The curve goes smoothly through the sonic point with slope `1/4`. -/
theorem ohm_through : Through ohmP ohmF 0 (given ohmP (1/4) 0 ohmS) := by
  have hv : (ohmF 0).v_θ = 1 := by rw [ohmF, line_at]; rfl
  have hw : (given ohmP (1/4) 0 ohmS).v_θ = 1/4 := rfl
  refine (sonic_slope_iff (f := ohmF) ohm_plain (hasStDeriv_line _ _ _) ohm_regular hv
    (by rw [hw]; norm_num)).2 ⟨by rw [hw, ohmF, line_at], ?_, ?_⟩
  · rw [ohmF, line_at, numer, ← (rhs_given ohm_plain (1/4) 0 ohmS).1,
      ← (rhs_given ohm_plain (1/4) 0 ohmS).2.1, ← given, ohm_given]
    norm_num [ohmP, ohmS]
  · have hm : Real.sqrt ((0:ℝ) ^ 2 + 0 ^ 2 + 1 ^ 2) = 1 := by
      rw [show (0:ℝ) ^ 2 + 0 ^ 2 + 1 ^ 2 = 1 ^ 2 by norm_num, Real.sqrt_sq (by norm_num)]
    have hc : callAt ohmP 0 (ohmF 0) (given ohmP (1/4) 0 ohmS) =
        callAt ohmP 0 ohmS (given ohmP (1/4) 0 ohmS) := by rw [ohmF, line_at]
    rw [hc, hw]
    simp only [callAt, ohm_mag, ohm_given]
    simp only [ohmP, ohmS, Args.a, Args.b, Args.c, Args.S_1, S_1_func,
      Args.S_1_dash_up, Args.S_1_dash_down, S_1_dash_up_func, S_1_dash_down_func,
      Args.dderiv_B_r_up, Args.dderiv_B_r_down, dderiv_B_r_up_func,
      dderiv_B_r_down_func, Args.dderiv_B_φ_up, Args.dderiv_B_φ_down,
      dderiv_B_φ_up_func, dderiv_B_φ_down_func, Args.Z_5_up, Args.Z_5_down,
      Z_5_up_func, Z_5_down_func, Args.A_up, Args.A_down, A_up_func, A_down_func,
      Args.deriv_η_O_up, Args.deriv_η_A_up, Args.deriv_η_H_up, Args.deriv_η_O_down,
      Args.deriv_η_A_down, Args.deriv_η_H_down, Args.deriv_ρ_up, Args.deriv_ρ_down,
      deriv_ρ_up_func, deriv_ρ_down_func, Args.Z_5, Z_5_func, Args.C, C_func, Args.E,
      Args.deriv_E_r, deriv_E_r_func, E_θ_func, Args.J_r, Args.J_θ, Args.J_φ, J_r_func,
      J_θ_func, J_φ_func, Args.deriv_b_r, Args.deriv_b_φ, Args.deriv_b_θ,
      Args.unit_derivs, B_unit_derivs, slopeError, errB_φ, errA, errZ]
    simp only [hm]
    norm_num

/-- Parameters for a case with the Hall effect. -/
noncomputable def hallP : OdeArgs :=
  { γ := 1/4, a_0 := 1, norm_kepler_sq := 233/160, init_con := St.zero, η_derivs := false,
    use_E_r := true }

/-- A sonic state with a tilted field. -/
noncomputable def hallS : St :=
  { B_r := 3, B_φ := 0, B_θ := 4, v_r := 3/4, v_φ := 0, v_θ := 1, ρ := 1, X := 0,
    η_O := 1, η_A := 0, η_H := 1 }

/-- A curve through it. -/
noncomputable def hallF : ℝ → St := line hallS (given hallP 1 0 hallS) 0

theorem hall_plain : Plain hallP := ⟨rfl, rfl, rfl⟩

theorem hall_mag : B_mag hallS = 5 := by
  have : hallS.B_r ^ 2 + hallS.B_φ ^ 2 + hallS.B_θ ^ 2 = 5 ^ 2 := by norm_num [hallS]
  rw [B_mag, this, Real.sqrt_sq (by norm_num)]

theorem hall_regular : Regular 0 (hallF 0) := by
  rw [hallF, line_at]
  refine ⟨by simp, by norm_num [hallS], by norm_num [hallS], ?_, ?_⟩
  · rw [hall_mag]; norm_num [hallS]
  · rw [hall_mag]; norm_num [hallS, Z_5_func, C_func]

theorem hall_given : given hallP 1 0 hallS =
    { B_r := 0, B_φ := 0, B_θ := -3, v_r := 73/40, v_φ := 0, v_θ := 1, ρ := -11/8,
      X := 0, η_O := 0, η_A := 0, η_H := 0 } := by
  have hk : (0 - Real.sqrt (233/160)) * (0 + Real.sqrt (233/160)) = -(233/160) := by
    have := Real.mul_self_sqrt (show (0:ℝ) ≤ 233/160 by norm_num)
    linear_combination -this
  have hφ : (given hallP 1 0 hallS).B_φ = 0 := by
    simp only [given, rhsDerivs, rhsValues, hall_mag]
    norm_num [hallP, hallS, deriv_B_φ_func, C_func, Z_5_func]
  have hr : (given hallP 1 0 hallS).B_r = 0 := by
    rw [given, rhs_B_r, ← given, hφ, hall_mag]
    norm_num [hallP, hallS, deriv_B_r_func]
  ext
  · exact hr
  · exact hφ
  · norm_num [given, rhs_B_θ, hallP, hallS]
  · rw [given, rhs_v_r _ _ _ rfl, ← given, hr]
    simp only [hallP, hallS]
    rw [hk]; norm_num
  · rw [given, rhs_v_φ _ _ _ rfl, ← given, hφ]
    norm_num [hallP, hallS]
  · rfl
  · rw [given, (rhs_given hall_plain _ _ _).2.2.2.2.2.2.2]
    norm_num [hallP, hallS]
  · rw [given, (rhs_given hall_plain _ _ _).2.2.2.2.2.1, rhs_X_E hall_plain,
      ← (rhs_given hall_plain 1 0 hallS).1, ← (rhs_given hall_plain 1 0 hallS).2.1,
      ← given, hφ, hr, hall_mag]
    norm_num [hallP, hallS, deriv_E_r_func, E_θ_func, J_r_func, J_θ_func, J_φ_func]
  · exact (rhs_η_const _ _ _ rfl).1
  · exact (rhs_η_const _ _ _ rfl).2.1
  · exact (rhs_η_const _ _ _ rfl).2.2

/-- The curve goes smoothly through the sonic point with slope `1`. -/
theorem hall_through : Through hallP hallF 0 (given hallP 1 0 hallS) := by
  have hv : (hallF 0).v_θ = 1 := by rw [hallF, line_at]; rfl
  have hw : (given hallP 1 0 hallS).v_θ = 1 := rfl
  refine (sonic_slope_iff (f := hallF) hall_plain (hasStDeriv_line _ _ _) hall_regular hv
    (by rw [hw]; norm_num)).2 ⟨by rw [hw, hallF, line_at], ?_, ?_⟩
  · rw [hallF, line_at, numer, ← (rhs_given hall_plain 1 0 hallS).1,
      ← (rhs_given hall_plain 1 0 hallS).2.1, ← given, hall_given]
    norm_num [hallP, hallS]
  · have hm : Real.sqrt ((3:ℝ) ^ 2 + 0 ^ 2 + 4 ^ 2) = 5 := by
      rw [show (3:ℝ) ^ 2 + 0 ^ 2 + 4 ^ 2 = 5 ^ 2 by norm_num, Real.sqrt_sq (by norm_num)]
    have hc : callAt hallP 0 (hallF 0) (given hallP 1 0 hallS) =
        callAt hallP 0 hallS (given hallP 1 0 hallS) := by rw [hallF, line_at]
    rw [hc, hw]
    simp only [callAt, hall_mag, hall_given]
    simp only [hallP, hallS, Args.a, Args.b, Args.c, Args.S_1, S_1_func,
      Args.S_1_dash_up, Args.S_1_dash_down, S_1_dash_up_func, S_1_dash_down_func,
      Args.dderiv_B_r_up, Args.dderiv_B_r_down, dderiv_B_r_up_func,
      dderiv_B_r_down_func, Args.dderiv_B_φ_up, Args.dderiv_B_φ_down,
      dderiv_B_φ_up_func, dderiv_B_φ_down_func, Args.Z_5_up, Args.Z_5_down,
      Z_5_up_func, Z_5_down_func, Args.A_up, Args.A_down, A_up_func, A_down_func,
      Args.deriv_η_O_up, Args.deriv_η_A_up, Args.deriv_η_H_up, Args.deriv_η_O_down,
      Args.deriv_η_A_down, Args.deriv_η_H_down, Args.deriv_ρ_up, Args.deriv_ρ_down,
      deriv_ρ_up_func, deriv_ρ_down_func, Args.Z_5, Z_5_func, Args.C, C_func, Args.E,
      Args.deriv_E_r, deriv_E_r_func, E_θ_func, Args.J_r, Args.J_θ, Args.J_φ, J_r_func,
      J_θ_func, J_φ_func, Args.deriv_b_r, Args.deriv_b_φ, Args.deriv_b_θ,
      Args.unit_derivs, B_unit_derivs, slopeError, errB_φ, errA, errZ]
    simp only [hm]
    norm_num

/-- C88 is false with the Hall effect: there is a curve that rises through the sonic point
with slope 1, for which the function returns another number, whatever the quadratic
solver. -/
theorem sonic_slope_wrong : ∃ (P : OdeArgs) (f : ℝ → St) (θ₀ : ℝ) (d₀ : St), Plain P ∧
    Regular θ₀ (f θ₀) ∧ Through P f θ₀ d₀ ∧ d₀.v_θ = 1 ∧
    ∀ q, Solves q → ∃ x, deriv_v_θ_sonic q (callAt P θ₀ (f θ₀) d₀) = .ok x ∧
      x ≠ d₀.v_θ := by
  have hw : (given hallP 1 0 hallS).v_θ = 1 := rfl
  refine ⟨hallP, hallF, 0, given hallP 1 0 hallS, hall_plain, hall_regular, hall_through,
    hw, ?_⟩
  intro q hq
  have he := sonic_slope_error hall_plain hall_regular hall_through
  have hm : Real.sqrt ((3:ℝ) ^ 2 + 0 ^ 2 + 4 ^ 2) = 5 := by
    rw [show (3:ℝ) ^ 2 + 0 ^ 2 + 4 ^ 2 = 5 ^ 2 by norm_num, Real.sqrt_sq (by norm_num)]
  have hc : callAt hallP 0 (hallF 0) (given hallP 1 0 hallS) =
      callAt hallP 0 hallS (given hallP 1 0 hallS) := by rw [hallF, line_at]
  rw [hc] at he ⊢
  have hs : slopeError (callAt hallP 0 hallS (given hallP 1 0 hallS)) 1 = 144/41 := by
    simp only [callAt, hall_mag, hall_given]
    simp only [hallP, hallS, slopeError, errB_φ, errA, errZ, Args.Z_5, Z_5_func, Args.C,
      C_func, Args.deriv_b_φ, Args.deriv_b_r, Args.unit_derivs, B_unit_derivs]
    simp only [hm]
    norm_num
  have hcc : (callAt hallP 0 hallS (given hallP 1 0 hallS)).c < 0 := by
    simp only [callAt, hall_mag, hall_given]
    simp only [hallP, hallS, Args.c,
      Args.S_1_dash_up, S_1_dash_up_func, Args.dderiv_B_r_up, dderiv_B_r_up_func,
      Args.dderiv_B_φ_up, dderiv_B_φ_up_func, Args.Z_5_up, Z_5_up_func, Args.A_up,
      A_up_func, Args.deriv_η_O_up, Args.deriv_η_A_up, Args.deriv_η_H_up,
      Args.deriv_ρ_up, deriv_ρ_up_func, Args.Z_5, Z_5_func, Args.C, C_func, Args.E,
      Args.deriv_E_r, deriv_E_r_func, E_θ_func, Args.J_r, Args.J_θ, Args.J_φ, J_r_func,
      J_θ_func, J_φ_func, Args.deriv_b_r, Args.deriv_b_φ, Args.deriv_b_θ,
      Args.unit_derivs, B_unit_derivs]
    simp only [hm]
    norm_num
  have ha : (callAt hallP 0 hallS (given hallP 1 0 hallS)).a = 2 := by
    simp [Args.a, callAt]
  rw [hw, hs] at he
  rw [hw]
  have hp : (callAt hallP 0 hallS (given hallP 1 0 hallS)).v_θ ≠ 0 := one_ne_zero
  generalize callAt hallP 0 hallS (given hallP 1 0 hallS) = p at *
  -- the quadratic opens upwards and is negative at zero
  have hdisc : 0 < p.b ^ 2 - 4 * p.a * p.c := by rw [ha]; nlinarith [sq_nonneg p.b]
  have hr1 := Real.sqrt_pos.2 hdisc
  have hr2 := Real.sq_sqrt hdisc.le
  have hroot : p.a * ((-p.b + Real.sqrt (p.b ^ 2 - 4 * p.a * p.c)) / 4) ^ 2 +
      p.b * ((-p.b + Real.sqrt (p.b ^ 2 - 4 * p.a * p.c)) / 4) + p.c = 0 := by
    rw [ha] at hr2 ⊢
    linear_combination hr2 / 8
  have hpos : 0 < (-p.b + Real.sqrt (p.b ^ 2 - 4 * p.a * p.c)) / 4 := by
    have : |p.b| < Real.sqrt (p.b ^ 2 - 4 * p.a * p.c) := by
      rw [← Real.sqrt_sq_eq_abs]
      apply Real.sqrt_lt_sqrt (sq_nonneg _)
      rw [ha]; linarith
    have := le_abs_self p.b
    linarith
  have hne : (q p.a p.b p.c).1 ≠ (q p.a p.b p.c).2 := by
    intro h
    have h1 := hq p.a p.b p.c (by rw [ha]; norm_num) ⟨_, hroot⟩
    have h2 := (h1 _).1 hroot
    have h3 : p.a * ((-p.b - Real.sqrt (p.b ^ 2 - 4 * p.a * p.c)) / 4) ^ 2 +
        p.b * ((-p.b - Real.sqrt (p.b ^ 2 - 4 * p.a * p.c)) / 4) + p.c = 0 := by
      rw [ha] at hr2 ⊢
      linear_combination hr2 / 8
    have h4 := (h1 _).1 h3
    rw [h] at h2 h4
    simp only [or_self] at h2 h4
    rw [← h4] at h2
    linarith
  refine ⟨_, (sonic_returns q hq p hp ⟨_, hroot⟩ hne _).2 ⟨hpos, hroot, ?_⟩, ?_⟩
  · intro y hy hy0
    have hz : (y - (-p.b + Real.sqrt (p.b ^ 2 - 4 * p.a * p.c)) / 4) *
        (y + (p.b + Real.sqrt (p.b ^ 2 - 4 * p.a * p.c)) / 4) = 0 := by
      rw [ha] at hr2 hy0 ⊢
      linear_combination hy0 / 2 - hr2 / 16
    rcases mul_eq_zero.1 hz with h | h
    · linarith
    · exfalso
      have : |p.b| < Real.sqrt (p.b ^ 2 - 4 * p.a * p.c) := by
        rw [← Real.sqrt_sq_eq_abs]
        apply Real.sqrt_lt_sqrt (sq_nonneg _)
        rw [ha]; linarith
      have := neg_abs_le p.b
      linarith
  · intro h
    rw [h] at hroot
    rw [hroot] at he
    norm_num at he

example := sonic_slope_iff (f := ohmF) ohm_plain (hasStDeriv_line _ _ _) ohm_regular
  ohm_through.sonic ohm_through.crosses
example := sonic_slope_error ohm_plain ohm_regular ohm_through
example := sonic_slope_partial ohm_plain ohm_regular ohm_through
  (by rw [ohmF, line_at]; rfl) (by rw [ohmF, line_at]; rfl)
example := sonic_slope_error hall_plain hall_regular hall_through
example := sonic_slope_returned_partial formula formula_solves ohm_plain ohm_regular
  ohm_through (by rw [ohmF, line_at]; rfl) (by rw [ohmF, line_at]; rfl)
  (by norm_num [ohm_given])

end SonicPoint

end DiscSolver
