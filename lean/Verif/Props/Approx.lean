import Mathlib.Analysis.Calculus.MeanValue
import Verif.Model.Approx
import Verif.Model.StatsValues
import Verif.Spec.Approx
import Verif.Spec.Residuals
import Verif.Props.ValidatePlot
import Verif.Props.Stats

/-!
# C118: statistics of solutions stored without internal data
-/

namespace DiscSolver.Approx

open Spec ValidatePlot

/-- One difference quotient. -/
theorem quotient_near {g g' : ℝ → ℝ} {a b M h : ℝ} (hab : a < b) (hh : b - a ≤ h) (hM : 0 ≤ M)
    (hg : ∀ t ∈ Set.Icc a b, HasDerivAt g (g' t) t)
    (hl : ∀ t ∈ Set.Icc a b, ∀ u ∈ Set.Icc a b, |g' t - g' u| ≤ M * |t - u|) :
    |(g b - g a) / (b - a) - g' a| ≤ M * h ∧ |(g b - g a) / (b - a) - g' b| ≤ M * h := by
  obtain ⟨c, hc, he⟩ := exists_hasDerivAt_eq_slope g g' hab
    (fun t ht => (hg t ht).continuousAt.continuousWithinAt)
    (fun t ht => hg t ⟨ht.1.le, ht.2.le⟩)
  rw [← he]
  have hc' : c ∈ Set.Icc a b := ⟨hc.1.le, hc.2.le⟩
  constructor
  · refine (hl c hc' a ⟨le_rfl, hab.le⟩).trans (mul_le_mul_of_nonneg_left ?_ hM)
    rw [abs_of_pos (by linarith [hc.1])]; linarith [hc.2]
  · refine (hl c hc' b ⟨hab.le, le_rfl⟩).trans (mul_le_mul_of_nonneg_left ?_ hM)
    rw [abs_of_neg (by linarith [hc.2])]; linarith [hc.1]

/-- The approximated derivative is as good as the spacing of the samples. -/
theorem gradient_near {g g' : ℝ → ℝ} {x y : ℕ → ℝ} {n : ℕ} {M h : ℝ} (hM : 0 ≤ M)
    (hn : 2 ≤ n) (hx : ∀ i, i + 1 < n → x i < x (i + 1))
    (hh : ∀ i, i + 1 < n → x (i + 1) - x i ≤ h) (hy : ∀ i, i < n → y i = g (x i))
    (hg : ∀ i, i + 1 < n → ∀ t ∈ Set.Icc (x i) (x (i + 1)), HasDerivAt g (g' t) t)
    (hl : ∀ i, i + 1 < n → ∀ t ∈ Set.Icc (x i) (x (i + 1)),
      ∀ u ∈ Set.Icc (x i) (x (i + 1)), |g' t - g' u| ≤ M * |t - u|)
    (i : ℕ) (hi : i < n) : |gradientAt x y n i - g' (x i)| ≤ M * h := by
  have q := fun i (h : i + 1 < n) => quotient_near (hx i h) (hh i h) hM (hg i h) (hl i h)
  unfold gradientAt
  split_ifs with h0 h1
  · subst h0
    rw [hy 1 (by omega), hy 0 (by omega)]
    exact (q 0 (by omega)).1
  · obtain ⟨j, rfl⟩ := Nat.exists_eq_succ_of_ne_zero h0
    simp only [Nat.succ_eq_add_one, Nat.add_sub_cancel]
    rw [hy (j + 1) hi, hy j (by omega)]
    exact (q j (by omega)).2
  · obtain ⟨j, rfl⟩ := Nat.exists_eq_succ_of_ne_zero h0
    simp only [Nat.succ_eq_add_one, Nat.add_sub_cancel] at *
    have a := (q j (by omega)).2
    have b := (q (j + 1) (by omega)).1
    have d1 := sub_pos.2 (hx j (by omega))
    have d2 := sub_pos.2 (hx (j + 1) (by omega))
    rw [hy j (by omega), hy (j + 1) (by omega), hy (j + 1 + 1) (by omega)]
    generalize g (x j) = y0 at *
    generalize g (x (j + 1)) = y1 at *
    generalize g (x (j + 1 + 1)) = y2 at *
    generalize x (j + 1) - x j = dx1 at *
    generalize x (j + 1 + 1) - x (j + 1) = dx2 at *
    generalize g' (x (j + 1)) = z at *
    have e : -dx2 / (dx1 * (dx1 + dx2)) * y0 + (dx2 - dx1) / (dx1 * dx2) * y1 +
        dx1 / (dx2 * (dx1 + dx2)) * y2 - z =
        dx2 / (dx1 + dx2) * ((y1 - y0) / dx1 - z) +
          dx1 / (dx1 + dx2) * ((y2 - y1) / dx2 - z) := by
      field_simp
      ring
    rw [e]
    have w1 : 0 ≤ dx2 / (dx1 + dx2) := by positivity
    have w2 : 0 ≤ dx1 / (dx1 + dx2) := by positivity
    have w : dx2 / (dx1 + dx2) + dx1 / (dx1 + dx2) = 1 := by field_simp; ring
    calc |dx2 / (dx1 + dx2) * ((y1 - y0) / dx1 - z) +
          dx1 / (dx1 + dx2) * ((y2 - y1) / dx2 - z)|
        ≤ dx2 / (dx1 + dx2) * |(y1 - y0) / dx1 - z| +
          dx1 / (dx1 + dx2) * |(y2 - y1) / dx2 - z| := by
          refine (abs_add_le _ _).trans (le_of_eq ?_)
          rw [abs_mul, abs_mul, abs_of_nonneg w1, abs_of_nonneg w2]
      _ ≤ dx2 / (dx1 + dx2) * (M * h) + dx1 / (dx1 + dx2) * (M * h) :=
          add_le_add (mul_le_mul_of_nonneg_left a w1) (mul_le_mul_of_nonneg_left b w2)
      _ = M * h := by rw [← add_mul, w, one_mul]

/-- C118. Between the ends the approximation is exact for quadratic flows, whatever the
spacing of the angles. -/
theorem gradient_quadratic (a b c : ℝ) (x : ℕ → ℝ) (n i : ℕ) (hi : 0 < i) (hn : i + 1 < n)
    (h1 : x (i - 1) < x i) (h2 : x i < x (i + 1)) :
    gradientAt x (fun k => a * x k ^ 2 + b * x k + c) n i = 2 * a * x i + b := by
  unfold gradientAt
  rw [if_neg (by omega), if_neg (by omega)]
  obtain ⟨u, hu⟩ : ∃ u, u = x i - x (i - 1) := ⟨_, rfl⟩
  obtain ⟨v, hv⟩ : ∃ v, v = x (i + 1) - x i := ⟨_, rfl⟩
  have hu0 : 0 < u := by linarith
  have hv0 : 0 < v := by linarith
  have e1 : x (i - 1) = x i - u := by linarith
  have e2 : x (i + 1) = x i + v := by linarith
  dsimp only
  rw [← hu, ← hv, e1, e2]
  field_simp
  ring

/-- C118. The end points use one neighbour only: for a quadratic flow the derivative there is
off by the spacing. -/
theorem gradient_ends (a b c : ℝ) (x : ℕ → ℝ) (n : ℕ) (h0 : x 0 < x 1) :
    gradientAt x (fun k => a * x k ^ 2 + b * x k + c) n 0 =
      2 * a * x 0 + b + a * (x 1 - x 0) := by
  unfold gradientAt
  rw [if_pos rfl]
  have := (sub_pos.2 h0).ne'
  field_simp
  ring

/-- C118. The rows `ds-stats` checks for a solution without internal data: one for each
sample, with derivatives as good as the samples are close. -/
theorem approx_rows {f d : ℝ → St} {S : Set ℝ} {M h : ℝ} {angles : List ℝ} (hM : 0 ≤ M)
    (hs : Sampled angles S h) (hf : Smooth f d S M) :
    ∃ rows, get_values none angles (angles.map f) = .ok rows ∧
      rows.map (·.θ) = angles ∧
      ∀ r ∈ rows, r.θ ∈ angles ∧ r.s = f r.θ ∧ Within (M * h) r.deriv (d r.θ) := by
  have hx : ∀ i (hi : i < angles.length), angles.getD i 0 = angles[i] := fun i hi => by
    simp [hi]
  have hsub : ∀ i, i + 1 < angles.length →
      Set.Icc (angles.getD i 0) (angles.getD (i + 1) 0) ⊆ S := fun i hi => by
    rw [hx i (by omega), hx (i + 1) hi]
    exact hs.interval.out (hs.inside _ (List.getElem_mem _)) (hs.inside _ (List.getElem_mem _))
  have key : ∀ (p : St → ℝ), (∀ θ ∈ S, HasDerivAt (fun t => p (f t)) (p (d θ)) θ) →
      (∀ θ ∈ S, ∀ θ' ∈ S, |p (d θ) - p (d θ')| ≤ M * |θ - θ'|) → ∀ i, i < angles.length →
      |gradientAt (fun k => angles.getD k 0)
        (fun k => p ((angles.map f).getD k St.zero)) angles.length i -
          p (d (angles.getD i 0))| ≤ M * h := by
    intro p h1 h2 i hi
    refine gradient_near (g := fun t => p (f t)) (g' := fun t => p (d t)) hM hs.two ?_ ?_ ?_ ?_ ?_
      i hi
    · intro j hj
      rw [hx j (by omega), hx (j + 1) hj]
      exact hs.increasing j hj
    · intro j hj
      rw [hx j (by omega), hx (j + 1) hj]
      exact hs.close j hj
    · intro j hj
      simp [hj]
    · exact fun j hj t ht => h1 t (hsub j hj ht)
    · exact fun j hj t ht u hu => h2 t (hsub j hj ht) u (hsub j hj hu)
  refine ⟨_, by
    simp only [get_values, approxRows]
    rw [if_neg (by have := hs.two; simp; omega)], ?_, ?_⟩
  · apply List.ext_getElem
    · simp
    · intro i h1 h2
      simp [h2]
  · intro r hr
    simp only [List.mem_map, List.mem_range] at hr
    obtain ⟨i, hi, rfl⟩ := hr
    refine ⟨by simp [hi], by simp [hi], ?_⟩
    exact {
      B_r := key (·.B_r) (fun t ht => (hf.deriv t ht).B_r)
        (fun t ht u hu => (hf.slow t ht u hu).B_r) i hi
      B_φ := key (·.B_φ) (fun t ht => (hf.deriv t ht).B_φ)
        (fun t ht u hu => (hf.slow t ht u hu).B_φ) i hi
      B_θ := key (·.B_θ) (fun t ht => (hf.deriv t ht).B_θ)
        (fun t ht u hu => (hf.slow t ht u hu).B_θ) i hi
      v_r := key (·.v_r) (fun t ht => (hf.deriv t ht).v_r)
        (fun t ht u hu => (hf.slow t ht u hu).v_r) i hi
      v_φ := key (·.v_φ) (fun t ht => (hf.deriv t ht).v_φ)
        (fun t ht u hu => (hf.slow t ht u hu).v_φ) i hi
      v_θ := key (·.v_θ) (fun t ht => (hf.deriv t ht).v_θ)
        (fun t ht u hu => (hf.slow t ht u hu).v_θ) i hi
      ρ := key (·.ρ) (fun t ht => (hf.deriv t ht).ρ)
        (fun t ht u hu => (hf.slow t ht u hu).ρ) i hi
      X := key (·.X) (fun t ht => (hf.deriv t ht).X)
        (fun t ht u hu => (hf.slow t ht u hu).X) i hi
      η_O := key (·.η_O) (fun t ht => (hf.deriv t ht).η_O)
        (fun t ht u hu => (hf.slow t ht u hu).η_O) i hi
      η_A := key (·.η_A) (fun t ht => (hf.deriv t ht).η_A)
        (fun t ht u hu => (hf.slow t ht u hu).η_A) i hi
      η_H := key (·.η_H) (fun t ht => (hf.deriv t ht).η_H)
        (fun t ht u hu => (hf.slow t ht u hu).η_H) i hi }

/-- The maximum over rows which are all small. -/
theorem max_diff_small {check : Cons → Row → ℝ} {c : Cons} {rows : List Row} {ε : ℝ}
    (hne : rows ≠ []) (h : ∀ r ∈ rows, |check c r| ≤ ε) :
    ∃ m, Stats.max_diff check c rows = .ok m ∧ |m| ≤ ε := by
  obtain ⟨r, l, rfl⟩ := List.exists_cons_of_ne_nil hne
  refine ⟨_, rfl, ?_⟩
  obtain ⟨hm, -⟩ := Stats.maxOf_spec ((r :: l).map (check c)) _ rfl
  obtain ⟨r', hr', he⟩ := List.mem_map.1 hm
  rw [← he]
  exact h r' hr'

section

variable {f d : ℝ → St} {S : Set ℝ} {M h : ℝ} {angles : List ℝ}

/-- From a bound at each sample to the number reported. -/
theorem reported_small {check : Cons → Row → ℝ} {c : Cons} {ε : ℝ} (hM : 0 ≤ M)
    (hs : Sampled angles S h) (hf : Smooth f d S M)
    (hc : ∀ θ ∈ angles, ∀ e, Within (M * h) e (d θ) → |check c ⟨θ, f θ, e⟩| ≤ ε) :
    ∃ m, max_difference check c none angles (angles.map f) = .ok m ∧ |m| ≤ ε := by
  obtain ⟨rows, h1, h2, h3⟩ := approx_rows hM hs hf
  unfold max_difference
  rw [h1]
  refine max_diff_small ?_ fun r hr => ?_
  · rintro rfl
    have := hs.two
    rw [← h2] at this
    simp at this
  · obtain ⟨h4, h5, h6⟩ := h3 r hr
    have := hc r.θ h4 r.deriv h6
    rw [← h5] at this
    exact this

/-- C118. Without internal data: a flow without divergence of its field is reported with a
difference below the spacing of its samples. -/
theorem stats_solenoid (hM : 0 ≤ M) (hs : Sampled angles S h) (hf : Smooth f d S M) (c : Cons)
    (he : ∀ θ ∈ angles, Solenoid (5/4 - c.γ) (flowOf θ (f θ) (d θ))) :
    ∃ m, max_difference validate_solenoid c none angles (angles.map f) = .ok m ∧
      |m| ≤ M * h := by
  refine reported_small hM hs hf fun θ hθ e hw => ?_
  have h0 := he θ hθ
  simp only [Solenoid, solenoidRes, flowOf] at h0
  have : validate_solenoid c ⟨θ, f θ, e⟩ = e.B_θ - (d θ).B_θ := by
    simp only [validate_solenoid, Cons.β]
    linear_combination h0
  rw [this]
  exact hw.B_θ

/-- C118. Likewise for the conservation of mass, with the weight of the density's
derivative. -/
theorem stats_continuity (hM : 0 ≤ M) (hs : Sampled angles S h) (hf : Smooth f d S M) (c : Cons)
    (he : ∀ θ ∈ angles, Continuity (5/4 - c.γ) (flowOf θ (f θ) (d θ)))
    (W : ℝ) (hW : ∀ θ ∈ angles, |(f θ).v_θ / (f θ).ρ| ≤ W) :
    ∃ m, max_difference validate_continuity c none angles (angles.map f) = .ok m ∧
      |m| ≤ (1 + W) * (M * h) := by
  refine reported_small hM hs hf fun θ hθ e hw => ?_
  have h0 := he θ hθ
  simp only [Continuity, continuityRes, flowOf] at h0
  have : validate_continuity c ⟨θ, f θ, e⟩ =
      (e.v_θ - (d θ).v_θ) + (f θ).v_θ / (f θ).ρ * (e.ρ - (d θ).ρ) := by
    simp only [validate_continuity, Cons.β]
    linear_combination h0
  rw [this, add_mul, one_mul]
  refine (abs_add_le _ _).trans (add_le_add hw.v_θ ?_)
  rw [abs_mul]
  exact mul_le_mul (hW θ hθ) hw.ρ (abs_nonneg _) ((abs_nonneg _).trans (hW θ hθ))

/-- C118. Likewise for the radial momentum. -/
theorem stats_radial (hM : 0 ≤ M) (hs : Sampled angles S h) (hf : Smooth f d S M) (c : Cons)
    (he : ∀ θ ∈ angles,
      RadialMomentum (5/4 - c.γ) c.a_0 c.norm_kepler_sq (flowOf θ (f θ) (d θ)))
    (W : ℝ) (hW : ∀ θ ∈ angles, |(f θ).v_θ| + |c.a_0 / (f θ).ρ * (f θ).B_θ| ≤ W) :
    ∃ m, max_difference validate_radial_momentum c none angles (angles.map f) = .ok m ∧
      |m| ≤ W * (M * h) := by
  refine reported_small hM hs hf fun θ hθ e hw => ?_
  have h0 := he θ hθ
  simp only [RadialMomentum, radialRes, flowOf] at h0
  have : validate_radial_momentum c ⟨θ, f θ, e⟩ =
      (f θ).v_θ * (e.v_r - (d θ).v_r) - c.a_0 / (f θ).ρ * (f θ).B_θ * (e.B_r - (d θ).B_r) := by
    simp only [validate_radial_momentum, Cons.β]
    linear_combination h0
  rw [this]
  refine (abs_sub _ _).trans ?_
  rw [abs_mul, abs_mul _ (e.B_r - _)]
  have hp := (abs_nonneg _).trans hw.v_r
  calc _ ≤ |(f θ).v_θ| * (M * h) + |c.a_0 / (f θ).ρ * (f θ).B_θ| * (M * h) :=
        add_le_add (mul_le_mul_of_nonneg_left hw.v_r (abs_nonneg _))
          (mul_le_mul_of_nonneg_left hw.B_r (abs_nonneg _))
    _ ≤ W * (M * h) := by
        rw [← add_mul]
        exact mul_le_mul_of_nonneg_right (hW θ hθ) hp

/-- C118. Likewise for the azimuthal momentum. -/
theorem stats_azimuthal (hM : 0 ≤ M) (hs : Sampled angles S h) (hf : Smooth f d S M) (c : Cons)
    (he : ∀ θ ∈ angles, AzimuthalMomentum (5/4 - c.γ) c.a_0 (flowOf θ (f θ) (d θ)))
    (W : ℝ) (hW : ∀ θ ∈ angles, |(f θ).v_θ| + |c.a_0 / (f θ).ρ * (f θ).B_θ| ≤ W) :
    ∃ m, max_difference validate_azimuthal_mometum c none angles (angles.map f) = .ok m ∧
      |m| ≤ W * (M * h) := by
  refine reported_small hM hs hf fun θ hθ e hw => ?_
  have h0 := he θ hθ
  simp only [AzimuthalMomentum, azimuthalRes, flowOf] at h0
  have : validate_azimuthal_mometum c ⟨θ, f θ, e⟩ =
      (f θ).v_θ * (e.v_φ - (d θ).v_φ) - c.a_0 / (f θ).ρ * (f θ).B_θ * (e.B_φ - (d θ).B_φ) := by
    simp only [validate_azimuthal_mometum, Cons.β]
    linear_combination h0
  rw [this]
  refine (abs_sub _ _).trans ?_
  rw [abs_mul, abs_mul _ (e.B_φ - _)]
  have hp := (abs_nonneg _).trans hw.v_φ
  calc _ ≤ |(f θ).v_θ| * (M * h) + |c.a_0 / (f θ).ρ * (f θ).B_θ| * (M * h) :=
        add_le_add (mul_le_mul_of_nonneg_left hw.v_φ (abs_nonneg _))
          (mul_le_mul_of_nonneg_left hw.B_φ (abs_nonneg _))
    _ ≤ W * (M * h) := by
        rw [← add_mul]
        exact mul_le_mul_of_nonneg_right (hW θ hθ) hp

/-- C118. Likewise for the polar momentum. -/
theorem stats_polar (hM : 0 ≤ M) (hs : Sampled angles S h) (hf : Smooth f d S M) (c : Cons)
    (he : ∀ θ ∈ angles, PolarMomentum (5/4 - c.γ) c.a_0 (flowOf θ (f θ) (d θ)))
    (W : ℝ) (hW : ∀ θ ∈ angles, |(f θ).v_θ| + |1 / (f θ).ρ| +
      |c.a_0 / (f θ).ρ * (f θ).B_r| + |c.a_0 / (f θ).ρ * (f θ).B_φ| ≤ W) :
    ∃ m, max_difference validate_polar_momentum c none angles (angles.map f) = .ok m ∧
      |m| ≤ W * (M * h) := by
  refine reported_small hM hs hf fun θ hθ e hw => ?_
  have h0 := he θ hθ
  simp only [PolarMomentum, polarRes, flowOf] at h0
  have : validate_polar_momentum c ⟨θ, f θ, e⟩ =
      (f θ).v_θ * (e.v_θ - (d θ).v_θ) + 1 / (f θ).ρ * (e.ρ - (d θ).ρ) +
        c.a_0 / (f θ).ρ * (f θ).B_r * (e.B_r - (d θ).B_r) +
        c.a_0 / (f θ).ρ * (f θ).B_φ * (e.B_φ - (d θ).B_φ) := by
    simp only [validate_polar_momentum, Cons.β]
    linear_combination h0
  rw [this]
  have hp := (abs_nonneg _).trans hw.v_φ
  have t : ∀ k z : ℝ, |z| ≤ M * h → |k * z| ≤ |k| * (M * h) := fun k z hz => by
    rw [abs_mul]; exact mul_le_mul_of_nonneg_left hz (abs_nonneg _)
  refine ((abs_add_le _ _).trans (add_le_add ((abs_add_le _ _).trans (add_le_add
    ((abs_add_le _ _).trans (add_le_add (t _ _ hw.v_θ) (t _ _ hw.ρ))) (t _ _ hw.B_r)))
    (t _ _ hw.B_φ))).trans ?_
  rw [← add_mul, ← add_mul, ← add_mul]
  exact mul_le_mul_of_nonneg_right (hW θ hθ) hp

/-- C118. Likewise for the induction of the poloidal field, which the code calls `E_φ`. -/
theorem stats_E_φ (hM : 0 ≤ M) (hs : Sampled angles S h) (hf : Smooth f d S M) (c : Cons)
    (he : ∀ θ ∈ angles, PolarInduction (5/4 - c.γ) ((f θ).B_r / B_mag (f θ))
      ((f θ).B_φ / B_mag (f θ)) ((f θ).B_θ / B_mag (f θ)) (flowOf θ (f θ) (d θ)))
    (W : ℝ) (hW : ∀ θ ∈ angles,
      |(f θ).η_O + (f θ).η_A * (1 - ((f θ).B_φ / B_mag (f θ)) ^ 2)| +
      |(f θ).η_H * ((f θ).B_θ / B_mag (f θ)) +
        (f θ).η_A * ((f θ).B_r / B_mag (f θ)) * ((f θ).B_φ / B_mag (f θ))| ≤ W) :
    ∃ m, max_difference validate_E_φ c none angles (angles.map f) = .ok m ∧
      |m| ≤ W * (M * h) := by
  refine reported_small hM hs hf fun θ hθ e hw => ?_
  have h0 := he θ hθ
  have hr := (residuals_are_spec c ⟨θ, f θ, e⟩).2.2.2.2.2
  have hp := (abs_nonneg _).trans hw.v_φ
  have hw' := hW θ hθ
  simp only [PolarInduction, polarInductionRes, flowOf, Row.flow] at h0 hr
  have : validate_E_φ c ⟨θ, f θ, e⟩ =
      ((f θ).η_O + (f θ).η_A * (1 - ((f θ).B_φ / B_mag (f θ)) ^ 2)) * (e.B_r - (d θ).B_r) +
      ((f θ).η_H * ((f θ).B_θ / B_mag (f θ)) +
        (f θ).η_A * ((f θ).B_r / B_mag (f θ)) * ((f θ).B_φ / B_mag (f θ))) *
          (e.B_φ - (d θ).B_φ) := by
    rw [hr]
    linear_combination -h0
  rw [this]
  refine (abs_add_le _ _).trans ?_
  rw [abs_mul, abs_mul _ (e.B_φ - _)]
  calc _ ≤ |(f θ).η_O + (f θ).η_A * (1 - ((f θ).B_φ / B_mag (f θ)) ^ 2)| * (M * h) +
      |(f θ).η_H * ((f θ).B_θ / B_mag (f θ)) +
        (f θ).η_A * ((f θ).B_r / B_mag (f θ)) * ((f θ).B_φ / B_mag (f θ))| * (M * h) :=
        add_le_add (mul_le_mul_of_nonneg_left hw.B_r (abs_nonneg _))
          (mul_le_mul_of_nonneg_left hw.B_φ (abs_nonneg _))
    _ ≤ W * (M * h) := by
        rw [← add_mul]
        exact mul_le_mul_of_nonneg_right hw' hp

end

/-- A bound on the weights of the derivatives in the equations. -/
noncomputable def weight (c : Cons) (s : St) : ℝ :=
  1 + |s.v_θ / s.ρ| + |s.v_θ| + |1 / s.ρ| + |c.a_0 / s.ρ * s.B_θ| + |c.a_0 / s.ρ * s.B_r| +
    |c.a_0 / s.ρ * s.B_φ| + |s.η_O + s.η_A * (1 - (s.B_φ / B_mag s) ^ 2)| +
    |s.η_H * (s.B_θ / B_mag s) + s.η_A * (s.B_r / B_mag s) * (s.B_φ / B_mag s)|

/-- The quantities checked which are residuals of an equation. -/
noncomputable def sound : List (Cons → Row → ℝ) :=
  [validate_continuity, validate_solenoid, validate_radial_momentum, validate_azimuthal_mometum,
    validate_polar_momentum, validate_E_φ]

/-- How much the residuals change with the derivatives. -/
theorem residual_near {c : Cons} {θ ε : ℝ} {s a b : St} (h : Within ε a b)
    (check : Cons → Row → ℝ) (hc : check ∈ sound) :
    |check c ⟨θ, s, a⟩ - check c ⟨θ, s, b⟩| ≤ weight c s * ε := by
  have hε := (abs_nonneg _).trans h.v_φ
  have t : ∀ k z : ℝ, |z| ≤ ε → |k * z| ≤ |k| * ε := fun k z hz => by
    rw [abs_mul]; exact mul_le_mul_of_nonneg_left hz (abs_nonneg _)
  have two : ∀ k l y z : ℝ, |y| ≤ ε → |z| ≤ ε → |k| + |l| ≤ weight c s →
      |k * y + l * z| ≤ weight c s * ε := fun k l y z hy hz hw => by
    refine ((abs_add_le _ _).trans (add_le_add (t k y hy) (t l z hz))).trans ?_
    rw [← add_mul]
    exact mul_le_mul_of_nonneg_right hw hε
  have n1 := abs_nonneg (s.v_θ / s.ρ)
  have n2 := abs_nonneg s.v_θ
  have n3 := abs_nonneg (1 / s.ρ)
  have n4 := abs_nonneg (c.a_0 / s.ρ * s.B_θ)
  have n5 := abs_nonneg (c.a_0 / s.ρ * s.B_r)
  have n6 := abs_nonneg (c.a_0 / s.ρ * s.B_φ)
  have n7 := abs_nonneg (s.η_O + s.η_A * (1 - (s.B_φ / B_mag s) ^ 2))
  have n8 := abs_nonneg
    (s.η_H * (s.B_θ / B_mag s) + s.η_A * (s.B_r / B_mag s) * (s.B_φ / B_mag s))
  simp only [sound, List.mem_cons, List.not_mem_nil, or_false] at hc
  rcases hc with rfl | rfl | rfl | rfl | rfl | rfl
  · have e : validate_continuity c ⟨θ, s, a⟩ - validate_continuity c ⟨θ, s, b⟩ =
        1 * (a.v_θ - b.v_θ) + s.v_θ / s.ρ * (a.ρ - b.ρ) := by
      simp only [validate_continuity]; ring
    rw [e]
    refine two _ _ _ _ h.v_θ h.ρ ?_
    rw [abs_one, weight]; linarith
  · have e : validate_solenoid c ⟨θ, s, a⟩ - validate_solenoid c ⟨θ, s, b⟩ =
        1 * (a.B_θ - b.B_θ) + 0 * (a.ρ - b.ρ) := by
      simp only [validate_solenoid]; ring
    rw [e]
    refine two _ _ _ _ h.B_θ h.ρ ?_
    rw [abs_one, abs_zero, weight]; linarith
  · have e : validate_radial_momentum c ⟨θ, s, a⟩ - validate_radial_momentum c ⟨θ, s, b⟩ =
        s.v_θ * (a.v_r - b.v_r) + -(c.a_0 / s.ρ * s.B_θ) * (a.B_r - b.B_r) := by
      simp only [validate_radial_momentum]; ring
    rw [e]
    refine two _ _ _ _ h.v_r h.B_r ?_
    rw [abs_neg, weight]; linarith
  · have e : validate_azimuthal_mometum c ⟨θ, s, a⟩ - validate_azimuthal_mometum c ⟨θ, s, b⟩ =
        s.v_θ * (a.v_φ - b.v_φ) + -(c.a_0 / s.ρ * s.B_θ) * (a.B_φ - b.B_φ) := by
      simp only [validate_azimuthal_mometum]; ring
    rw [e]
    refine two _ _ _ _ h.v_φ h.B_φ ?_
    rw [abs_neg, weight]; linarith
  · have e : validate_polar_momentum c ⟨θ, s, a⟩ - validate_polar_momentum c ⟨θ, s, b⟩ =
        s.v_θ * (a.v_θ - b.v_θ) + 1 / s.ρ * (a.ρ - b.ρ) +
          c.a_0 / s.ρ * s.B_r * (a.B_r - b.B_r) + c.a_0 / s.ρ * s.B_φ * (a.B_φ - b.B_φ) := by
      simp only [validate_polar_momentum]; ring
    rw [e]
    refine ((abs_add_le _ _).trans (add_le_add ((abs_add_le _ _).trans (add_le_add
      ((abs_add_le _ _).trans (add_le_add (t _ _ h.v_θ) (t _ _ h.ρ))) (t _ _ h.B_r)))
      (t _ _ h.B_φ))).trans ?_
    rw [← add_mul, ← add_mul, ← add_mul]
    refine mul_le_mul_of_nonneg_right ?_ hε
    rw [weight]; linarith
  · have e : validate_E_φ c ⟨θ, s, a⟩ - validate_E_φ c ⟨θ, s, b⟩ =
        (s.η_O + s.η_A * (1 - (s.B_φ / B_mag s) ^ 2)) * (a.B_r - b.B_r) +
        (s.η_H * (s.B_θ / B_mag s) + s.η_A * (s.B_r / B_mag s) * (s.B_φ / B_mag s)) *
          (a.B_φ - b.B_φ) := by
      rw [(residuals_are_spec c ⟨θ, s, a⟩).2.2.2.2.2, (residuals_are_spec c ⟨θ, s, b⟩).2.2.2.2.2]
      simp only [polarInductionRes, flowOf, Row.flow]
      ring
    rw [e]
    refine two _ _ _ _ h.B_r h.B_φ ?_
    rw [weight]; linarith

/-- C118. Without internal data: the number reported is the largest of the residuals at the
samples up to the spacing, whether or not the flow satisfies the equation.  Nothing larger is
hidden by the approximation and nothing is invented by it. -/
theorem reported_near {f d : ℝ → St} {S : Set ℝ} {M h W : ℝ} {angles : List ℝ} (hM : 0 ≤ M)
    (hs : Sampled angles S h) (hf : Smooth f d S M) (c : Cons)
    (hW : ∀ θ ∈ angles, weight c (f θ) ≤ W) (check : Cons → Row → ℝ) (hc : check ∈ sound) :
    ∃ m, max_difference check c none angles (angles.map f) = .ok m ∧
      (∀ θ ∈ angles, check c ⟨θ, f θ, d θ⟩ ≤ m + W * (M * h)) ∧
      ∃ θ ∈ angles, m ≤ check c ⟨θ, f θ, d θ⟩ + W * (M * h) := by
  obtain ⟨rows, h1, h2, h3⟩ := approx_rows hM hs hf
  have near : ∀ r ∈ rows, |check c r - check c ⟨r.θ, f r.θ, d r.θ⟩| ≤ W * (M * h) := by
    intro r hr
    obtain ⟨k1, k2, k3⟩ := h3 r hr
    have := residual_near (c := c) (θ := r.θ) (s := r.s) k3 check hc
    rw [← k2]
    refine this.trans (mul_le_mul_of_nonneg_right ?_ ((abs_nonneg _).trans k3.v_φ))
    rw [k2]
    exact hW _ k1
  have hne : rows ≠ [] := by
    rintro rfl
    have := hs.two
    rw [← h2] at this
    simp at this
  obtain ⟨r, l, rfl⟩ := List.exists_cons_of_ne_nil hne
  obtain ⟨m, hm⟩ : ∃ m, Stats.maxOf ((r :: l).map (check c)) = .ok m := ⟨_, rfl⟩
  obtain ⟨g1, g2⟩ := Stats.maxOf_spec _ m hm
  refine ⟨m, ?_, ?_, ?_⟩
  · unfold max_difference
    rw [h1]
    exact hm
  · intro θ hθ
    rw [← h2] at hθ
    obtain ⟨r', hr', rfl⟩ := List.mem_map.1 hθ
    have := abs_le.1 (near r' hr')
    have := g2 _ (List.mem_map.2 ⟨r', hr', rfl⟩)
    linarith
  · obtain ⟨r', hr', he⟩ := List.mem_map.1 g1
    refine ⟨r'.θ, (h3 r' hr').1, ?_⟩
    have := abs_le.1 (near r' hr')
    rw [← he]
    linarith

/-- C118. A solution of one angle cannot be checked without internal data: `ValueError`, for
which `ds-stats` leaves the solution out. -/
theorem one_angle (check : Cons → Row → ℝ) (c : Cons) (θ : ℝ) (s : St) :
    max_difference check c none [θ] [s] = .error .ValueError := by
  simp [max_difference, get_values, approxRows]

/-- C118. Without internal data `ds-stats` leaves out a solution exactly when it has fewer than
two angles, or not one state for each angle. -/
theorem left_out (check : Cons → Row → ℝ) (c : Cons) (angles : List ℝ) (solution : List St) :
    ((angles.length ≠ solution.length ∨ angles.length < 2) →
      max_difference check c none angles solution = .error .ValueError) ∧
    (angles.length = solution.length → 2 ≤ angles.length →
      ∃ m, max_difference check c none angles solution = .ok m) := by
  unfold max_difference get_values approxRows
  dsimp only
  refine ⟨fun h => by rw [if_pos h], fun h h2 => ?_⟩
  rw [if_neg (by omega)]
  obtain ⟨n, hn⟩ : ∃ n, angles.length = n + 1 := ⟨angles.length - 1, by omega⟩
  rw [hn, List.range_succ_eq_map]
  exact ⟨_, rfl⟩

example := (left_out validate_solenoid ⟨1, 0, 1⟩ [0, 1, 2] [St.zero, St.zero]).1 (.inl (by simp))
example := (left_out validate_solenoid ⟨1, 0, 1⟩ [0, 1] [St.zero, St.zero]).2 rfl (by simp)

/-- C118. With internal data the solution itself is not looked at. -/
theorem internal_used (check : Cons → Row → ℝ) (c : Cons) (data : InternalData)
    (angles : List ℝ) (solution : List St) :
    max_difference check c (some data) angles solution =
      Stats.max_diff check c (rowsOf data) := rfl

/-- C118. These are the numbers in the columns of `ds-stats`, each in the column of its
equation. -/
theorem columns (c : Cons) (internal : Option InternalData) (angles : List ℝ)
    (solution : List St) (rows : List Row) (hg : get_values internal angles solution = .ok rows)
    (hne : rows ≠ []) :
    ∃ row, Stats.compute_max_difference_in_equations c rows = .ok row ∧
      ∀ p ∈ [("max_diff_continuity", validate_continuity),
          ("max_diff_solenoid", validate_solenoid),
          ("max_diff_radial_momentum", validate_radial_momentum),
          ("max_diff_azimuthal_momentum", validate_azimuthal_mometum),
          ("max_diff_polar_momentum", validate_polar_momentum),
          ("max_diff_polar_induction", validate_polar_induction),
          ("max_diff_E_φ", validate_E_φ)],
        ∃ m, max_difference p.2 c internal angles solution = .ok m ∧
          row.get? p.1 = some (.ofFlt (some m)) := by
  obtain ⟨r, l, rfl⟩ := List.exists_cons_of_ne_nil hne
  have hm : ∀ check, max_difference check c internal angles solution =
      Stats.max_diff check c (r :: l) := fun check => by
    unfold max_difference
    rw [hg]
  simp only [hm]
  refine ⟨_, rfl, ?_⟩
  intro p hp
  simp only [List.mem_cons, List.not_mem_nil, or_false] at hp
  rcases hp with rfl | rfl | rfl | rfl | rfl | rfl | rfl <;> exact ⟨_, rfl, rfl⟩

/-! ## A concrete flow -/

/-- A flow with a quadratic field. -/
noncomputable def witFlow (θ : ℝ) : St := { St.zero with B_θ := θ ^ 2, ρ := 1 }

noncomputable def witSlope (θ : ℝ) : St := { St.zero with B_θ := 2 * θ }

theorem wit_smooth : Smooth witFlow witSlope Set.univ 2 where
  deriv θ _ := by
    constructor <;> simp only [witFlow, witSlope, St.zero]
    case B_θ => simpa using hasDerivAt_pow 2 θ
    all_goals exact hasDerivAt_const _ _
  slow θ _ θ' _ := by
    constructor <;> simp only [witSlope, St.zero, sub_self, abs_zero]
    case B_θ => rw [← mul_sub, abs_mul]; norm_num
    all_goals positivity

theorem wit_sampled : Sampled [0, 1/10, 3/10] Set.univ (1/5) where
  interval := Set.ordConnected_univ
  inside := by simp
  two := by simp
  increasing i hi := by
    have : i = 0 ∨ i = 1 := by simp at hi; omega
    rcases this with rfl | rfl <;> norm_num
  close i hi := by
    have : i = 0 ∨ i = 1 := by simp at hi; omega
    rcases this with rfl | rfl <;> norm_num

example := approx_rows (by norm_num) wit_sampled wit_smooth
example := gradient_quadratic 3 2 1 (fun k => (k : ℝ) ^ 2) 5 2 (by norm_num) (by norm_num)
  (by norm_num) (by norm_num)
example := gradient_ends 3 2 1 (fun k => (k : ℝ) ^ 2) 5 (by norm_num)

/-- Gas turning with a toroidal field: tension balances the centrifugal force towards the
axis, and what is left of the force outwards is balanced by gravity. -/
noncomputable def witTurning (_ : ℝ) : St := { St.zero with ρ := 1, v_φ := 1, B_φ := 1 }

/-- The constants which belong to `witTurning`. -/
noncomputable def witCons : Cons := ⟨1, 0, 15/4⟩

theorem turning_smooth : Smooth witTurning (fun _ => St.zero) Set.univ 1 where
  deriv θ _ := by
    constructor <;> simp only [witTurning, St.zero] <;> exact hasDerivAt_const _ _
  slow θ _ θ' _ := by
    constructor <;> simp only [sub_self, abs_zero, one_mul] <;> exact abs_nonneg _

example := stats_solenoid (by norm_num) wit_sampled turning_smooth witCons
  (fun θ _ => by norm_num [Solenoid, solenoidRes, flowOf, witTurning, St.zero])
example := stats_continuity (by norm_num) wit_sampled turning_smooth witCons
  (fun θ _ => by norm_num [Continuity, continuityRes, flowOf, witTurning, St.zero]) 0
  (fun θ _ => by norm_num [witTurning, St.zero])
example := stats_radial (by norm_num) wit_sampled turning_smooth witCons
  (fun θ _ => by norm_num [RadialMomentum, radialRes, flowOf, witTurning, witCons, St.zero]) 0
  (fun θ _ => by norm_num [witTurning, St.zero])
example := stats_azimuthal (by norm_num) wit_sampled turning_smooth witCons
  (fun θ _ => by norm_num [AzimuthalMomentum, azimuthalRes, flowOf, witTurning, St.zero]) 0
  (fun θ _ => by norm_num [witTurning, St.zero])
example := stats_polar (by norm_num) wit_sampled turning_smooth witCons
  (fun θ _ => by norm_num [PolarMomentum, polarRes, flowOf, witTurning, witCons, St.zero]) 2
  (fun θ _ => by norm_num [witTurning, witCons, St.zero])
example := stats_E_φ (by norm_num) wit_sampled turning_smooth witCons
  (fun θ _ => by norm_num [PolarInduction, polarInductionRes, flowOf, witTurning, St.zero]) 0
  (fun θ _ => by norm_num [witTurning, St.zero])

example := reported_near (by norm_num) wit_sampled turning_smooth witCons
  (fun θ _ => le_refl (weight witCons (witTurning 0))) validate_polar_momentum
  (by simp [sound])

example := columns witCons none [0, 1/10, 3/10] ([0, 1/10, 3/10].map witFlow) _
  (approx_rows (by norm_num) wit_sampled wit_smooth).choose_spec.1 (by
    intro h
    have := (approx_rows (by norm_num) wit_sampled wit_smooth).choose_spec.2.1
    rw [h] at this
    cases this)

end DiscSolver.Approx
