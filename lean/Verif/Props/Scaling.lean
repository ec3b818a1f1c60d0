import Mathlib.Tactic.FieldSimp
import Mathlib.Tactic.Linarith
import Mathlib.Tactic.Positivity
import Mathlib.Tactic.LinearCombination
import Verif.Model.Scaling
import Verif.Model.Ode

/-!
# Rescaling and coordinates: C28, C29, C32
-/

namespace DiscSolver

/-! ## C32 -/

/-- C32. The two conversions undo each other. -/
theorem angle_scale_inverse (x k : ℝ) (hk : k ≠ 0) :
    scaled_to_rad (rad_to_scaled x k) k = x ∧ rad_to_scaled (scaled_to_rad x k) k = x := by
  simp only [scaled_to_rad, rad_to_scaled]
  constructor <;> field_simp

/-- C32. With the scale the solver uses, `stop` of the input in radians, the angle at
which the integration stops is one and the midplane is zero; order is kept. -/
theorem angle_scale_order (x y k : ℝ) (hk : 0 < k) :
    (rad_to_scaled x k < rad_to_scaled y k ↔ x < y) ∧ rad_to_scaled k k = 1 ∧
      rad_to_scaled 0 k = 0 := by
  simp only [rad_to_scaled]
  exact ⟨div_lt_div_iff_of_pos_right hk, div_self hk.ne', zero_div _⟩

example := angle_scale_inverse 2 3 (by norm_num)
example := angle_scale_order 2 3 5 (by norm_num)

/-! ## C28 -/

/-- C28. The change of components preserves lengths and angles between vectors. -/
theorem rotation_isometry (a b a' b' θ : ℝ) :
    let p := spherical_r_θ_to_cylindrical_R_z a b θ
    let q := spherical_r_θ_to_cylindrical_R_z a' b' θ
    p.1 * q.1 + p.2 * q.2 = a * a' + b * b' := by
  simp only [spherical_r_θ_to_cylindrical_R_z]
  linear_combination (a * a' + b * b') * Real.sin_sq_add_cos_sq θ

/-- C28. It is undone by the opposite angle. -/
theorem rotation_inverse (a b θ : ℝ) :
    spherical_r_θ_to_cylindrical_R_z (spherical_r_θ_to_cylindrical_R_z a b θ).1
      (spherical_r_θ_to_cylindrical_R_z a b θ).2 (-θ) = (a, b) := by
  simp only [spherical_r_θ_to_cylindrical_R_z, Real.cos_neg, Real.sin_neg]
  congr 1
  · linear_combination a * Real.sin_sq_add_cos_sq θ
  · linear_combination b * Real.sin_sq_add_cos_sq θ

/-- C28. The direction is right: the radial unit vector at latitude `θ` has
cylindrical components `(cos θ, sin θ)`, the latitude unit vector `(-sin θ, cos θ)`. -/
theorem rotation_basis (θ : ℝ) :
    spherical_r_θ_to_cylindrical_R_z 1 0 θ = (Real.cos θ, Real.sin θ) ∧
    spherical_r_θ_to_cylindrical_R_z 0 1 θ = (-Real.sin θ, Real.cos θ) := by
  simp [spherical_r_θ_to_cylindrical_R_z]

/-- The self-similar solution at radius `r`: the row a user of the radial exponents of
the model (`v ∝ r^(-1/2)`, `B ∝ r^(γ-5/4)`, `ρ ∝ r^(2γ-3/2)`, `η ∝ r^(1/2)`) expects. -/
structure AtRadius (γ r : ℝ) (s t : St) : Prop where
  v_r : t.v_r = r ^ (-(1/2) : ℝ) * s.v_r
  v_φ : t.v_φ = r ^ (-(1/2) : ℝ) * s.v_φ
  v_θ : t.v_θ = r ^ (-(1/2) : ℝ) * s.v_θ
  B_r : t.B_r = r ^ (γ - 5/4) * s.B_r
  B_φ : t.B_φ = r ^ (γ - 5/4) * s.B_φ
  B_θ : t.B_θ = r ^ (γ - 5/4) * s.B_θ
  B_φ_prime : t.X = r ^ (γ - 5/4) * s.X
  ρ : t.ρ = r ^ (2 * γ - 3/2) * s.ρ
  η_O : t.η_O = r ^ (1/2 : ℝ) * s.η_O
  η_A : t.η_A = r ^ (1/2 : ℝ) * s.η_A
  η_H : t.η_H = r ^ (1/2 : ℝ) * s.η_H

theorem inv_sqrt_rpow {r : ℝ} (hr : 0 < r) : 1 / Real.sqrt r = r ^ (-(1/2) : ℝ) := by
  rw [Real.rpow_neg hr.le, ← Real.sqrt_eq_rpow, one_div]

/-- C29. `scale_solution_to_radii` is the self-similar solution at that radius; with
`use_E_r` it refuses. -/
theorem scale_spec (s t : St) (r γ : ℝ) (E : Bool) (hr : 0 < r) :
    scale_solution_to_radii s r γ E = .ok t ↔ E = false ∧ AtRadius γ r s t := by
  cases E with
  | true => simp [scale_solution_to_radii]
  | false =>
    simp only [scale_solution_to_radii, Bool.false_eq_true, if_false, true_and,
      inv_sqrt_rpow hr]
    rw [Real.sqrt_eq_rpow]
    constructor
    · intro h
      injection h with h
      subst h
      constructor <;> rfl
    · intro h
      obtain ⟨h1, h2, h3, h4, h5, h6, h7, h8, h9, h10, h11⟩ := h
      obtain ⟨B_r, B_φ, B_θ, v_r, v_φ, v_θ, ρ, X, η_O, η_A, η_H⟩ := t
      simp only at h1 h2 h3 h4 h5 h6 h7 h8 h9 h10 h11
      rw [h1, h2, h3, h4, h5, h6, h7, h8, h9, h10, h11]

/-- C29. Scaling to one radius and then by another is scaling by the product. -/
theorem scale_compose (s t u : St) (r₁ r₂ γ : ℝ) (E : Bool) (h₁ : 0 < r₁) (h₂ : 0 < r₂)
    (ht : scale_solution_to_radii s r₁ γ E = .ok t)
    (hu : scale_solution_to_radii t r₂ γ E = .ok u) :
    scale_solution_to_radii s (r₁ * r₂) γ E = .ok u := by
  obtain ⟨hE, a⟩ := (scale_spec s t r₁ γ E h₁).1 ht
  obtain ⟨-, b⟩ := (scale_spec t u r₂ γ E h₂).1 hu
  refine (scale_spec s u _ γ E (mul_pos h₁ h₂)).2 ⟨hE, ?_⟩
  constructor
  · rw [b.v_r, a.v_r, Real.mul_rpow h₁.le h₂.le]; ring
  · rw [b.v_φ, a.v_φ, Real.mul_rpow h₁.le h₂.le]; ring
  · rw [b.v_θ, a.v_θ, Real.mul_rpow h₁.le h₂.le]; ring
  · rw [b.B_r, a.B_r, Real.mul_rpow h₁.le h₂.le]; ring
  · rw [b.B_φ, a.B_φ, Real.mul_rpow h₁.le h₂.le]; ring
  · rw [b.B_θ, a.B_θ, Real.mul_rpow h₁.le h₂.le]; ring
  · rw [b.B_φ_prime, a.B_φ_prime, Real.mul_rpow h₁.le h₂.le]; ring
  · rw [b.ρ, a.ρ, Real.mul_rpow h₁.le h₂.le]; ring
  · rw [b.η_O, a.η_O, Real.mul_rpow h₁.le h₂.le]; ring
  · rw [b.η_A, a.η_A, Real.mul_rpow h₁.le h₂.le]; ring
  · rw [b.η_H, a.η_H, Real.mul_rpow h₁.le h₂.le]; ring

/-- C29. Radius one is the solution itself. -/
theorem scale_one (s : St) (γ : ℝ) : scale_solution_to_radii s 1 γ false = .ok s := by
  rw [scale_spec s s 1 γ false one_pos]
  refine ⟨rfl, ?_⟩
  constructor <;> simp

/-- C29. What does not depend on the radius: the squared Alfvén Mach numbers, the
magnetic Reynolds numbers `v r / η`, the ratio of the diffusivities; and the mass flux
`ρ v_r r²` grows as `r^(2γ)`. -/
theorem scale_invariants (s t : St) (r γ : ℝ) (E : Bool) (hr : 0 < r)
    (h : scale_solution_to_radii s r γ E = .ok t) :
    t.ρ * t.v_θ ^ 2 * (s.B_θ ^ 2) = s.ρ * s.v_θ ^ 2 * t.B_θ ^ 2 ∧
    t.ρ * t.v_φ ^ 2 * (s.B_φ ^ 2) = s.ρ * s.v_φ ^ 2 * t.B_φ ^ 2 ∧
    t.v_r * r * s.η_O = s.v_r * t.η_O ∧
    t.v_r * r * s.η_A = s.v_r * t.η_A ∧
    t.v_r * r * s.η_H = s.v_r * t.η_H ∧
    t.ρ * t.v_r * r ^ 2 = r ^ (2 * γ) * (s.ρ * s.v_r) := by
  obtain ⟨-, a⟩ := (scale_spec s t r γ E hr).1 h
  have e1 : r ^ (2 * γ - 3/2) * (r ^ (-(1/2) : ℝ)) ^ 2 = (r ^ (γ - 5/4)) ^ 2 := by
    simp only [sq]
    rw [← Real.rpow_add hr, ← Real.rpow_add hr, ← Real.rpow_add hr]
    congr 1
    ring
  have e2 : r ^ (-(1/2) : ℝ) * r = r ^ (1/2 : ℝ) := by
    nth_rewrite 2 [← Real.rpow_one r]
    rw [← Real.rpow_add hr]
    norm_num
  have e3 : r ^ (2 * γ - 3/2) * r ^ (-(1/2) : ℝ) * r ^ 2 = r ^ (2 * γ) := by
    rw [← Real.rpow_natCast r 2, ← Real.rpow_add hr, ← Real.rpow_add hr]
    congr 1
    push_cast
    ring
  rw [a.v_r, a.v_θ, a.v_φ, a.ρ, a.B_θ, a.B_φ, a.η_O, a.η_A, a.η_H]
  refine ⟨?_, ?_, ?_, ?_, ?_, ?_⟩
  · linear_combination (s.ρ * s.v_θ ^ 2 * s.B_θ ^ 2) * e1
  · linear_combination (s.ρ * s.v_φ ^ 2 * s.B_φ ^ 2) * e1
  · linear_combination (s.v_r * s.η_O) * e2
  · linear_combination (s.v_r * s.η_A) * e2
  · linear_combination (s.v_r * s.η_H) * e2
  · linear_combination (s.ρ * s.v_r) * e3

/-- C29. The two-dimensional branch scales each row to its own radius. -/
theorem scale_rows_spec (rows out : List St) (radii : List ℝ) (γ : ℝ) (E : Bool)
    (hlen : rows.length = radii.length)
    (h : scale_rows rows radii γ E = .ok out) :
    out.length = rows.length ∧
    ∀ (k : ℕ) (s : St) (r : ℝ), rows[k]? = some s → radii[k]? = some r →
      ∃ t, out[k]? = some t ∧ scale_solution_to_radii s r γ E = .ok t := by
  have key : ∀ (l : List (St × ℝ)) (out : List St),
      l.mapM (fun p => scale_solution_to_radii p.1 p.2 γ E) = .ok out →
      out.length = l.length ∧ ∀ (k : ℕ) (p : St × ℝ), l[k]? = some p →
        ∃ t, out[k]? = some t ∧ scale_solution_to_radii p.1 p.2 γ E = .ok t := by
    intro l
    induction l with
    | nil =>
      intro out h
      injection h with h
      subst h
      exact ⟨rfl, fun k p hp => by simp at hp⟩
    | cons p l ih =>
      intro out h
      rw [List.mapM_cons] at h
      cases h1 : scale_solution_to_radii p.1 p.2 γ E with
      | error e => rw [h1] at h; cases h
      | ok t =>
        cases h2 : l.mapM (fun p => scale_solution_to_radii p.1 p.2 γ E) with
        | error e => rw [h1, h2] at h; cases h
        | ok ts =>
          rw [h1, h2] at h
          injection h with h
          subst h
          obtain ⟨i1, i2⟩ := ih ts h2
          refine ⟨by simp [i1], fun k q hq => ?_⟩
          cases k with
          | zero =>
            simp only [List.getElem?_cons_zero, Option.some.injEq] at hq
            subst hq
            exact ⟨t, rfl, h1⟩
          | succ k => exact i2 k q (by simpa using hq)
  obtain ⟨h1, h2⟩ := key _ _ h
  refine ⟨by rw [h1, List.length_zip, hlen, min_self], fun k s r hs hr => ?_⟩
  exact h2 k (s, r) (List.getElem?_zip_eq_some.2 ⟨hs, hr⟩)

/-- C29. The normalisation is consistent: the sound speed is the requested fraction of
the Keplerian speed, and the field is that of the requested Alfvén speed,
`B² / (4πρ) = v_a²`. -/
theorem normalisation_consistent (G c a radius mass density : ℝ) (hG : 0 < G)
    (hr : 0 < radius) (hm : 0 < mass) (hd : 0 < density) :
    let n := get_normalisation G c a radius mass density
    n.1 ^ 2 = c ^ 2 * (G * mass / radius) ∧
    n.2.1 ^ 2 / (4 * Real.pi * n.2.2.1) = (a * n.1) ^ 2 ∧
    n.2.2.2 = radius * n.1 := by
  have hpi := Real.pi_pos
  simp only [get_normalisation]
  refine ⟨?_, ?_, trivial⟩
  · rw [mul_pow, Real.sq_sqrt (by positivity)]
  · rw [mul_pow, mul_pow, Real.sq_sqrt (by positivity)]
    field_simp
    ring

/-- The scaling of the conversion is by the distance the code computes. -/
theorem convert_spec (θ : ℝ) (s : St) (E : Bool) (γ c h : ℝ) (t : CylSt)
    (hc : convert_spherical_to_cylindrical θ s E γ c = .ok (h, t)) :
    E = false ∧ h = Real.tan θ / c ∧ ∃ u : St,
      AtRadius γ (Real.sqrt (1 + (Real.tan θ / c) ^ 2)) s u ∧
      t.v_φ = u.v_φ ∧ t.B_φ = u.B_φ ∧ t.ρ = u.ρ ∧ t.η_O = u.η_O ∧ t.η_A = u.η_A ∧
      t.η_H = u.η_H ∧ t.X = u.X ∧
      (t.v_R, t.v_z) = spherical_r_θ_to_cylindrical_R_z u.v_r u.v_θ θ ∧
      (t.B_R, t.B_z) = spherical_r_θ_to_cylindrical_R_z u.B_r u.B_θ θ := by
  have hpos : 0 < Real.sqrt (1 + (Real.tan θ / c) ^ 2) := by
    apply Real.sqrt_pos.2; positivity
  cases E with
  | true => simp [convert_spherical_to_cylindrical] at hc
  | false =>
    simp only [convert_spherical_to_cylindrical, convert_solution_to_vertical,
      get_heights, get_vertical_scaling, Bool.false_eq_true, if_false] at hc
    cases hu : scale_solution_to_radii s (Real.sqrt (1 + (Real.tan θ / c) ^ 2)) γ
        false with
    | error e => rw [hu] at hc; cases hc
    | ok u =>
      rw [hu] at hc
      simp only at hc
      injection hc with hc
      injection hc with h1 h2
      subst h2
      exact ⟨rfl, h1.symm, u, ((scale_spec _ _ _ _ _ hpos).1 hu).2, rfl, rfl, rfl, rfl,
        rfl, rfl, rfl, rfl, rfl⟩

/-- C28. In every row the conversion keeps `|v|²`, `|B|²` and `v·B` of the rescaled
row. -/
theorem convert_isometry (θ : ℝ) (s : St) (E : Bool) (γ c h : ℝ) (t : CylSt)
    (hc : convert_spherical_to_cylindrical θ s E γ c = .ok (h, t)) :
    ∃ u : St, AtRadius γ (Real.sqrt (1 + (Real.tan θ / c) ^ 2)) s u ∧
      t.v_R ^ 2 + t.v_φ ^ 2 + t.v_z ^ 2 = u.v_r ^ 2 + u.v_φ ^ 2 + u.v_θ ^ 2 ∧
      t.B_R ^ 2 + t.B_φ ^ 2 + t.B_z ^ 2 = u.B_r ^ 2 + u.B_φ ^ 2 + u.B_θ ^ 2 ∧
      t.v_R * t.B_R + t.v_φ * t.B_φ + t.v_z * t.B_z =
        u.v_r * u.B_r + u.v_φ * u.B_φ + u.v_θ * u.B_θ ∧
      t.ρ = u.ρ ∧ t.η_O = u.η_O ∧ t.η_A = u.η_A ∧ t.η_H = u.η_H := by
  obtain ⟨-, -, u, hu, e1, e2, e3, e4, e5, e6, -, hv, hB⟩ := convert_spec _ _ _ _ _ _ _ hc
  refine ⟨u, hu, ?_, ?_, ?_, e3, e4, e5, e6⟩
  · have := rotation_isometry u.v_r u.v_θ u.v_r u.v_θ θ
    rw [← hv] at this
    simp only at this
    rw [e1]
    linear_combination this
  · have := rotation_isometry u.B_r u.B_θ u.B_r u.B_θ θ
    rw [← hB] at this
    simp only at this
    rw [e2]
    linear_combination this
  · have := rotation_isometry u.v_r u.v_θ u.B_r u.B_θ θ
    rw [← hv, ← hB] at this
    simp only at this
    rw [e1, e2]
    linear_combination this

/-- C28. Exactly when the distance used is that of the point of the cylinder `R = 1`
at latitude `θ`, namely `1 / cos θ`. -/
theorem cylinder_radius_iff (θ c : ℝ) (hcos : 0 < Real.cos θ) (hc : c ≠ 0) :
    get_vertical_scaling θ c = 1 / Real.cos θ ↔ Real.sin θ = 0 ∨ c ^ 2 = 1 := by
  unfold get_vertical_scaling get_heights
  rw [Real.sqrt_eq_iff_mul_self_eq (by positivity) (by positivity),
    Real.tan_eq_sin_div_cos]
  have hs := Real.sin_sq_add_cos_sq θ
  constructor
  · intro h
    have h2 : Real.sin θ ^ 2 * (c ^ 2 - 1) = 0 := by
      field_simp at h
      linear_combination c ^ 2 * hs - h
    rcases mul_eq_zero.1 h2 with h | h
    · left; exact pow_eq_zero_iff (two_ne_zero) |>.1 h
    · right; linarith
  · intro h
    have h2 : Real.sin θ ^ 2 * (c ^ 2 - 1) = 0 := by
      rcases h with h | h
      · rw [h]; ring
      · rw [h]; ring
    field_simp
    linear_combination c ^ 2 * hs - h2

/-- C28, what holds: at the midplane, and for `c_s_on_v_k = 1`, the converted values
are those of the self-similar solution at constant cylindrical radius. -/
theorem cylindrical_partial (θ : ℝ) (s : St) (E : Bool) (γ c h : ℝ) (t : CylSt)
    (hcos : 0 < Real.cos θ) (hc : c ≠ 0) (hcase : Real.sin θ = 0 ∨ c ^ 2 = 1)
    (ht : convert_spherical_to_cylindrical θ s E γ c = .ok (h, t)) :
    ∃ u, AtRadius γ (1 / Real.cos θ) s u ∧ t.v_φ = u.v_φ ∧ t.B_φ = u.B_φ ∧ t.ρ = u.ρ := by
  obtain ⟨-, -, u, hu, e1, e2, e3, -⟩ := convert_spec _ _ _ _ _ _ _ ht
  have := (cylinder_radius_iff θ c hcos hc).2 hcase
  unfold get_vertical_scaling get_heights at this
  rw [this] at hu
  exact ⟨u, hu, e1, e2, e3⟩

/-- C28 is false of the code: with the default `c_s_on_v_k = 0.03`, at latitude 45°,
the rotation speed reported for the cylinder is that of a much larger distance. -/
theorem cylindrical_wrong_radius (s : St) (hs : 0 < s.v_φ) (γ : ℝ) :
    ∃ h t, convert_spherical_to_cylindrical (Real.pi / 4) s false γ (3/100) =
        .ok (h, t) ∧
      ∀ u, AtRadius γ (1 / Real.cos (Real.pi / 4)) s u → t.v_φ < u.v_φ := by
  have hx : ∃ p, convert_spherical_to_cylindrical (Real.pi / 4) s false γ (3/100) =
      .ok p := by
    simp [convert_spherical_to_cylindrical, convert_solution_to_vertical,
      scale_solution_to_radii]
  obtain ⟨⟨h, t⟩, ht⟩ := hx
  refine ⟨h, t, ht, fun u hu => ?_⟩
  obtain ⟨-, -, w, hw, e1, -⟩ := convert_spec _ _ _ _ _ _ _ ht
  rw [e1, hw.v_φ, hu.v_φ]
  have hcos : 0 < Real.cos (Real.pi / 4) := by rw [Real.cos_pi_div_four]; positivity
  have hlt : 1 / Real.cos (Real.pi / 4) <
      Real.sqrt (1 + (Real.tan (Real.pi / 4) / (3/100)) ^ 2) := by
    rw [Real.tan_pi_div_four, Real.cos_pi_div_four]
    rw [Real.lt_sqrt (by positivity), div_pow, div_pow, Real.sq_sqrt (by norm_num)]
    norm_num
  apply mul_lt_mul_of_pos_right _ hs
  rw [Real.rpow_neg (by positivity), Real.rpow_neg (by positivity)]
  apply inv_strictAnti₀ (by positivity)
  exact Real.rpow_lt_rpow (by positivity) hlt (by norm_num)

/-- A row to scale. -/
noncomputable def witRow : St :=
  { B_r := 1, B_φ := 2, B_θ := 2, v_r := -1, v_φ := 2, v_θ := 3, ρ := 1,
    X := 1, η_O := 1, η_A := 1/2, η_H := 1/4 }

theorem witScaled (s : St) (r γ : ℝ) : ∃ t, scale_solution_to_radii s r γ false = .ok t :=
  ⟨_, rfl⟩

example := (scale_spec witRow _ 2 (1/10) false (by norm_num)).1 (witScaled _ _ _).choose_spec

example : ∃ out, scale_rows [witRow, witRow] [1, 2] (1/10) false = .ok out ∧
    out.length = 2 := by
  have h : ∃ out, scale_rows [witRow, witRow] [1, 2] (1/10) false = .ok out := ⟨_, rfl⟩
  obtain ⟨out, h⟩ := h
  exact ⟨out, h, (scale_rows_spec _ out _ _ _ rfl h).1⟩

example := scale_compose witRow _ _ 2 3 (1/10) false (by norm_num) (by norm_num)
  (witScaled _ 2 (1/10)).choose_spec (witScaled _ 3 (1/10)).choose_spec
example := scale_invariants witRow _ 2 (1/10) false (by norm_num)
  (witScaled _ 2 (1/10)).choose_spec
example := normalisation_consistent 1 (3/100) 1 2 3 4 (by norm_num) (by norm_num)
  (by norm_num) (by norm_num)
example := cylinder_radius_iff 0 (3/100) (by simp) (by norm_num)
example := cylindrical_wrong_radius witRow (by norm_num [witRow]) (1/10)
example : ∃ h t, convert_spherical_to_cylindrical 0 witRow false (1/10) (3/100) =
    .ok (h, t) ∧ ∃ u, AtRadius (1/10) (1 / Real.cos 0) witRow u ∧ t.v_φ = u.v_φ ∧
      t.B_φ = u.B_φ ∧ t.ρ = u.ρ :=
  ⟨_, _, rfl, cylindrical_partial 0 witRow false (1/10) (3/100) _ _ (by simp)
    (by norm_num) (Or.inl (by simp)) rfl⟩

theorem witConverted : ∃ x, convert_spherical_to_cylindrical 1 witRow false (1/10) (3/100) =
    .ok x := ⟨_, rfl⟩

example := convert_spec 1 witRow false (1/10) (3/100) _ _ witConverted.choose_spec
example := convert_isometry 1 witRow false (1/10) (3/100) _ _ witConverted.choose_spec

end DiscSolver
