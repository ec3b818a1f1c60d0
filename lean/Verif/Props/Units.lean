import Verif.Lemmas.Units
import Verif.Model.Conditions
import Verif.Props.Electric

/-!
# C99: a solution in physical units

`Run inp P f θ` is what a solution is at an angle where its equations were
solved: the conditions are those which `define_conditions` sets up for the input,
and the profile follows the right-hand side.  `physical` multiplies the profile,
extended to all radii by `scale_solution_to_radii`, by the norms which
`get_normalisation` returns.
-/

namespace DiscSolver

open Spec

/-- The parameters of a right-hand side are those set up for an input. -/
structure SetUp (inp : NumInput) (P : OdeArgs) : Prop where
  conditions : ∃ c, define_conditions inp = some c ∧ P.γ = c.γ ∧ P.a_0 = c.a_0 ∧
    P.norm_kepler_sq = c.norm_kepler_sq ∧ P.init_con = c.init_con
  θ_scale : P.θ_scale = 1
  with_taylor : P.with_taylor = false

/-- The fields of a profile in the units of `get_normalisation`: at radius `r`
they are the norms times the profile scaled to `r / radius`.  The pressure is that
of a gas with the sound speed of the input. -/
noncomputable def physical (G c_s_on_v_k v_a_on_c_s radius mass density : ℝ)
    (F : ℝ → ℝ → St) : Config :=
  let n := get_normalisation G c_s_on_v_k v_a_on_c_s radius mass density
  { u := ⟨fun r θ => n.1 * (F (r / radius) θ).v_r, fun r θ => n.1 * (F (r / radius) θ).v_φ,
      fun r θ => n.1 * (F (r / radius) θ).v_θ⟩
    B := ⟨fun r θ => n.2.1 * (F (r / radius) θ).B_r,
      fun r θ => n.2.1 * (F (r / radius) θ).B_φ,
      fun r θ => n.2.1 * (F (r / radius) θ).B_θ⟩
    ρ := fun r θ => n.2.2.1 * (F (r / radius) θ).ρ
    p := fun r θ => n.2.2.1 * (F (r / radius) θ).ρ *
      (c_s_on_v_k * Real.sqrt (G * mass / r)) ^ 2
    η_O := fun r θ => n.2.2.2 * (F (r / radius) θ).η_O
    η_A := fun r θ => n.2.2.2 * (F (r / radius) θ).η_A
    η_H := fun r θ => n.2.2.2 * (F (r / radius) θ).η_H }

/-- The gas is locally isothermal with the sound speed of the input. -/
theorem physical_isothermal (G h v radius mass density : ℝ) (F : ℝ → ℝ → St) :
    LocallyIsothermal G mass h (physical G h v radius mass density F) :=
  fun _ _ _ => rfl

/-- The two pressures agree where the radius is positive. -/
theorem physical_eq {G h v radius mass density : ℝ} (F : ℝ → ℝ → St)
    (hG : 0 < G) (hR : 0 < radius) (hM : 0 < mass) :
    let n := get_normalisation G h v radius mass density
    let c := physical G h v radius mass density F
    let c' := rescale radius n.1 n.2.2.1 n.2.1 n.2.2.2 (configOf F)
    c.u = c'.u ∧ c.B = c'.B ∧ c.ρ = c'.ρ ∧ c.η_O = c'.η_O ∧ c.η_A = c'.η_A ∧
      c.η_H = c'.η_H ∧ ∀ r θ, 0 < r → c.p r θ = c'.p r θ := by
  refine ⟨rfl, rfl, rfl, rfl, rfl, rfl, fun r θ hr => ?_⟩
  simp only [physical, rescale, rescaleF, configOf, get_normalisation, mul_pow]
  rw [Real.sq_sqrt (by positivity), Real.sq_sqrt (by positivity)]
  field_simp

/-- Equations which do not differentiate the pressure in the direction across
`r = 0` see only its values at positive radii. -/
theorem ddr_congr {p q : Field} {r θ : ℝ} (hr : 0 < r)
    (h : ∀ r θ, 0 < r → p r θ = q r θ) : ddr p r θ = ddr q r θ := by
  unfold ddr
  apply Filter.EventuallyEq.deriv_eq
  exact Filter.eventually_of_mem (Ioi_mem_nhds hr) fun r' h' => h r' θ h'

theorem ddθ_congr {p q : Field} {r θ : ℝ} (hr : 0 < r)
    (h : ∀ r θ, 0 < r → p r θ = q r θ) : ddθ p r θ = ddθ q r θ := by
  unfold ddθ
  congr 1
  funext θ'
  exact h r θ' hr

/-- C99. In physical units a solution obeys the steady equations of motion of
magnetised gas about the mass it was scaled to: at every radius, and every angle at
which the profile follows the right-hand side with positive density and a speed
`v_θ` neither zero nor sonic. -/
theorem physical_solution {inp : NumInput} {P : OdeArgs} (hP : SetUp inp P)
    (hfun : P.deriv_v_θ_func = none)
    (hc : inp.c_s_on_v_k ≠ 0) (ha : inp.v_a_on_c_s ≠ 0)
    {G radius mass density : ℝ} (hG : 0 < G) (hR : 0 < radius) (hM : 0 < mass)
    (hD : 0 < density) {f : ℝ → St} {F : ℝ → ℝ → St} (hF : Scaled inp.γ f F)
    {r θ : ℝ} (hr : 0 < r) (hcos : Real.cos θ ≠ 0) (h : Follows P f θ)
    (hρ : (f θ).ρ ≠ 0) (hv : (f θ).v_θ ≠ 0) (h1 : (f θ).v_θ ^ 2 ≠ 1) :
    GaussianDisc G mass
      (physical G inp.c_s_on_v_k inp.v_a_on_c_s radius mass density F) r θ := by
  obtain ⟨⟨c, hcon, hγ, ha0, hk, -⟩, hs, hT⟩ := hP
  have hval : c.γ = inp.γ ∧ c.a_0 = inp.v_a_on_c_s ^ 2 ∧
      c.norm_kepler_sq = 1 / inp.c_s_on_v_k ^ 2 := by
    unfold define_conditions at hcon
    dsimp only at hcon
    split at hcon
    · cases hcon
    · injection hcon with hcon
      subst hcon
      exact ⟨rfl, rfl, rfl⟩
  rw [hval.1] at hγ
  rw [hval.2.1] at ha0
  rw [hval.2.2] at hk
  rw [← hγ] at hF
  have hr' : 0 < r / radius := by positivity
  have hK : 0 ≤ P.norm_kepler_sq := by rw [hk]; positivity
  have e1 := pde_div_free hs h hF hr' hcos
  have e2 := pde_mass hs hT h hF hr' hcos hρ hv
  have e3 := pde_momentum_r hs hT hK h hF hr' hcos hρ hv
  have e4 := pde_momentum_φ hs hT h hF hr' hcos hρ hv
  have e5 := pde_momentum_θ hs hT hfun h hF hr' hcos hρ hv h1
  obtain ⟨q1, q2, q3, -, -, -, q7⟩ := physical_eq (density := density)
    (h := inp.c_s_on_v_k) (v := inp.v_a_on_c_s) F hG hR hM
  set n := get_normalisation G inp.c_s_on_v_k inp.v_a_on_c_s radius mass density with hn
  set cp := physical G inp.c_s_on_v_k inp.v_a_on_c_s radius mass density F
  have n1 : n.1 ^ 2 = inp.c_s_on_v_k ^ 2 * (G * mass / radius) := by
    rw [hn]; simp only [get_normalisation, mul_pow]
    rw [Real.sq_sqrt (by positivity)]
  have n2 : n.2.1 ^ 2 = inp.v_a_on_c_s ^ 2 * n.1 ^ 2 * (4 * Real.pi * density) := by
    have hpi := Real.pi_pos
    rw [hn]; simp only [get_normalisation, mul_pow]
    rw [Real.sq_sqrt (by positivity : (0 : ℝ) ≤ Real.pi * density)]
    ring
  have n3 : n.2.2.1 = density := rfl
  have hn1 : n.1 ^ 2 ≠ 0 := by rw [n1]; positivity
  have hb : n.2.1 ≠ 0 := by
    have hpi := Real.pi_pos
    have : n.2.1 ^ 2 ≠ 0 := by rw [n2]; positivity
    exact fun h => this (by rw [h]; norm_num)
  have hD' : n.2.2.1 ≠ 0 := by rw [n3]; exact hD.ne'
  have c1 : P.norm_kepler_sq * n.1 ^ 2 * radius = G * mass := by
    rw [hk, n1]; field_simp
  have c2 : P.a_0 * n.1 ^ 2 * n.2.2.1 / n.2.1 ^ 2 = 1 / (4 * Real.pi) := by
    have hpi := Real.pi_pos.ne'
    have hd := hD.ne'
    have hn : n.1 ≠ 0 := fun h => hn1 (by rw [h]; norm_num)
    rw [ha0, n2, n3]
    field_simp
  have r1 := e1.rescale (V := n.1) (D := n.2.2.1) (b := n.2.1) (H := n.2.2.2) hR.ne'
  have r2 := e2.rescale (V := n.1) (D := n.2.2.1) (b := n.2.1) (H := n.2.2.2) hR.ne'
  have r3 := e3.rescale (V := n.1) (D := n.2.2.1) (b := n.2.1) (H := n.2.2.2) hR.ne' hD' hb
  have r4 := e4.rescale (V := n.1) (D := n.2.2.1) (b := n.2.1) (H := n.2.2.2) hR.ne' hD' hb
  have r5 := e5.rescale (V := n.1) (D := n.2.2.1) (b := n.2.1) (H := n.2.2.2) hR.ne' hD' hb
  rw [c1, c2] at r3
  rw [c2] at r4 r5
  refine ⟨?_, ?_, ?_, ?_, ?_⟩
  · exact r1
  · exact r2
  · unfold MomentumR at r3 ⊢
    rw [ddr_congr hr q7]
    exact r3
  · exact r4
  · unfold MomentumΘ at r5 ⊢
    rw [ddθ_congr hr q7]
    exact r5

/-- An input whose conditions `witQ` has. -/
noncomputable def witInp : NumInput :=
  ⟨0, 5, 100, 1/10, 1/2, 1, 1/4, 1, 1/2, 1/4, false⟩

theorem witInp_conditions : ∃ c, define_conditions witInp = some c := by
  have h : ¬ v_φ_discriminant (-(1/2)) (1/4) (1 + 1/2) (1 / (1/4) ^ 2) (1 ^ 2) (1/10) < 0 := by
    norm_num [v_φ_discriminant]
  unfold define_conditions v_φ_boundary_func
  simp only [witInp, h, if_false]
  exact ⟨_, rfl⟩

/-- The right-hand side of the conditions of `witInp`. -/
noncomputable def witQ : OdeArgs :=
  { γ := 1/10, a_0 := 1, norm_kepler_sq := 16,
    init_con := witInp_conditions.choose.init_con }

theorem witQ_setUp : SetUp witInp witQ := by
  refine ⟨⟨_, witInp_conditions.choose_spec, ?_, ?_, ?_, rfl⟩, rfl, rfl⟩
  all_goals
    have h := witInp_conditions.choose_spec
    set c := witInp_conditions.choose
    unfold define_conditions at h
    dsimp only at h
    split at h
    · cases h
    · injection h with h
      rw [← h]
      norm_num [witQ, witInp]

example := physical_solution witQ_setUp rfl (by norm_num [witInp]) (by norm_num [witInp])
  (G := 6.6742e-8) (radius := 1.4957871e13) (mass := 2e33) (density := 1.5e-9)
  (by norm_num) (by norm_num) (by norm_num) (by norm_num)
  (f := witC witQ) (scaled_scaledField _ _) (r := 3e13) (by norm_num) cos_tenth
  (witC_follows witQ rfl) (by rw [witC_at]; norm_num [witS])
  (by rw [witC_at]; norm_num [witS]) (by rw [witC_at]; norm_num [witS])

theorem ohm_units {b : ℝ} (hb : 0 < b) {L : ℝ} (hL : L ≠ 0) (V : ℝ) (u B J : V3)
    (η_O η_A η_H : ℝ) :
    ohm ⟨V * u.r, V * u.φ, V * u.θ⟩ ⟨b * B.r, b * B.φ, b * B.θ⟩
      ⟨b / L * J.r, b / L * J.φ, b / L * J.θ⟩
      (L * V * η_O) (L * V * η_A) (L * V * η_H) =
    ⟨V * b * (ohm u B J η_O η_A η_H).r, V * b * (ohm u B J η_O η_A η_H).φ,
     V * b * (ohm u B J η_O η_A η_H).θ⟩ := by
  have hu : V3.unit ⟨b * B.r, b * B.φ, b * B.θ⟩ = V3.unit B := by
    have h1 : Real.sqrt (V3.sq ⟨b * B.r, b * B.φ, b * B.θ⟩) =
        b * Real.sqrt (V3.sq B) := by
      have : V3.sq ⟨b * B.r, b * B.φ, b * B.θ⟩ = b ^ 2 * V3.sq B := by
        simp only [V3.sq]; ring
      rw [this, Real.sqrt_mul (sq_nonneg b), Real.sqrt_sq hb.le]
    simp only [V3.unit, h1, mul_div_mul_left _ _ hb.ne']
  unfold ohm
  rw [hu]
  simp only [V3.cross, V3.mk.injEq]
  refine ⟨?_, ?_, ?_⟩ <;> · field_simp

/-- The electric field in physical units is that of the code times the units of
velocity and of field. -/
theorem physical_electric {G h v radius mass density : ℝ} (F : ℝ → ℝ → St)
    (hG : 0 < G) (hR : 0 < radius) (hM : 0 < mass) (hD : 0 < density) (hh : 0 < h)
    (hv : 0 < v) (r θ : ℝ) :
    let n := get_normalisation G h v radius mass density
    let E := (electric (configOf F)).at (r / radius) θ
    (electric (physical G h v radius mass density F)).at r θ =
      ⟨n.1 * n.2.1 * E.r, n.1 * n.2.1 * E.φ, n.1 * n.2.1 * E.θ⟩ := by
  intro n E
  have hpi := Real.pi_pos
  have hb : 0 < n.2.1 := by
    simp only [n, get_normalisation]
    positivity
  have h4 : n.2.2.2 = radius * n.1 := rfl
  have := ohm_units hb hR.ne' n.1 ((configOf F).u.at (r / radius) θ)
    ((configOf F).B.at (r / radius) θ) ((curl (configOf F).B).at (r / radius) θ)
    ((configOf F).η_O (r / radius) θ) ((configOf F).η_A (r / radius) θ)
    ((configOf F).η_H (r / radius) θ)
  have hJ := curl_rescale hR.ne' n.2.1 (configOf F).B r θ
  have e : (electric (physical G h v radius mass density F)).at r θ =
      ohm ⟨n.1 * ((configOf F).u.at (r / radius) θ).r,
          n.1 * ((configOf F).u.at (r / radius) θ).φ,
          n.1 * ((configOf F).u.at (r / radius) θ).θ⟩
        ⟨n.2.1 * ((configOf F).B.at (r / radius) θ).r,
          n.2.1 * ((configOf F).B.at (r / radius) θ).φ,
          n.2.1 * ((configOf F).B.at (r / radius) θ).θ⟩
        ((curl (rescaleV radius n.2.1 (configOf F).B)).at r θ)
        (radius * n.1 * (configOf F).η_O (r / radius) θ)
        (radius * n.1 * (configOf F).η_A (r / radius) θ)
        (radius * n.1 * (configOf F).η_H (r / radius) θ) := rfl
  rw [e, hJ]
  exact this

/-- C99, no toroidal electric field. In physical units Ohm's law with the
diffusivities of the solution, in units of radius times sound speed, has no azimuthal
component, so no magnetic flux moves. -/
theorem physical_toroidal_field_zero {inp : NumInput} {P : OdeArgs} (hP : SetUp inp P)
    (hc : 0 < inp.c_s_on_v_k) (ha : 0 < inp.v_a_on_c_s)
    {G radius mass density : ℝ} (hG : 0 < G) (hR : 0 < radius) (hM : 0 < mass)
    (hD : 0 < density) {f : ℝ → St} {F : ℝ → ℝ → St} (hF : Scaled inp.γ f F)
    {r θ : ℝ} (hr : 0 < r) (hcos : Real.cos θ ≠ 0) (h : Follows P f θ)
    (hB : (f θ).B_r ^ 2 + (f θ).B_φ ^ 2 + (f θ).B_θ ^ 2 ≠ 0)
    (hη : (f θ).η_O + (f θ).η_A * (1 - ((f θ).B_φ / B_mag (f θ)) ^ 2) ≠ 0) :
    (electric (physical G inp.c_s_on_v_k inp.v_a_on_c_s radius mass density F)).φ r θ
      = 0 := by
  obtain ⟨⟨c, hcon, hγ, -⟩, hs, -⟩ := hP
  have hval : c.γ = inp.γ := by
    unfold define_conditions at hcon
    dsimp only at hcon
    split at hcon
    · cases hcon
    · injection hcon with hcon
      subst hcon
      rfl
  rw [← hval, ← hγ] at hF
  have hr' : 0 < r / radius := by positivity
  have h1 := pde_toroidal_field_zero hs h hF hr' hcos hB hη
  have h2 := congrArg V3.φ (physical_electric F hG hR hM hD hc ha r θ)
  simp only [VField.at] at h2
  rw [h2, h1, mul_zero]

example := physical_toroidal_field_zero witQ_setUp (by norm_num [witInp])
  (by norm_num [witInp]) (G := 6.6742e-8) (radius := 1.4957871e13) (mass := 2e33)
  (density := 1.5e-9) (by norm_num) (by norm_num) (by norm_num) (by norm_num)
  (f := witC witQ) (scaled_scaledField _ _) (r := 3e13) (by norm_num) cos_tenth
  (witC_follows witQ rfl) (by rw [witC_at]; norm_num [witS])
  (by rw [witC_at, witS_mag]; norm_num [witS])

/-- C99, the disc asked for. In the midplane at the radius it was scaled to, the
density is the one given, the gas falls in at the requested fraction of the sound
speed, the squared Alfvén speed is the requested multiple, the field is vertical, and
the diffusivities are the requested multiples of radius times sound speed. -/
theorem physical_midplane {inp : NumInput} {P : OdeArgs} (hP : SetUp inp P)
    {G radius mass density : ℝ} (hR : 0 < radius) (hD : 0 < density)
    {f : ℝ → St} {F : ℝ → ℝ → St} (hF : Scaled inp.γ f F) (h0 : f 0 = P.init_con) :
    let c := physical G inp.c_s_on_v_k inp.v_a_on_c_s radius mass density F
    let c_s := inp.c_s_on_v_k * Real.sqrt (G * mass / radius)
    c.ρ radius 0 = density ∧ c.u.r radius 0 = -(inp.v_rin_on_c_s * c_s) ∧
    c.u.θ radius 0 = 0 ∧ c.B.r radius 0 = 0 ∧ c.B.φ radius 0 = 0 ∧
    alfvenSq c radius 0 = (inp.v_a_on_c_s * c_s) ^ 2 ∧
    c.η_O radius 0 = inp.η_O * (radius * c_s) ∧
    c.η_A radius 0 = inp.η_A * (radius * c_s) ∧
    c.η_H radius 0 = inp.η_H * (radius * c_s) := by
  obtain ⟨⟨c, hcon, -, -, -, hi⟩, -, -⟩ := hP
  have hval : c.init_con.ρ = 1 ∧ c.init_con.v_r = - inp.v_rin_on_c_s ∧ c.init_con.v_θ = 0 ∧
      c.init_con.B_r = 0 ∧ c.init_con.B_φ = 0 ∧ c.init_con.B_θ = 1 ∧
      c.init_con.η_O = inp.η_O ∧ c.init_con.η_A = inp.η_A ∧ c.init_con.η_H = inp.η_H := by
    unfold define_conditions at hcon
    dsimp only at hcon
    split at hcon
    · cases hcon
    · injection hcon with hcon
      subst hcon
      exact ⟨rfl, rfl, rfl, rfl, rfl, rfl, rfl, rfl, rfl⟩
  obtain ⟨i1, i2, i3, i4, i5, i6, i7, i8, i9⟩ := hval
  have hpi := Real.pi_pos
  have hf : F 1 0 = _ := hF.val one_pos 0
  simp only [Real.sqrt_one, Real.one_rpow, div_one, one_mul] at hf
  have hs : Real.sqrt (Real.pi * density) ^ 2 = Real.pi * density :=
    Real.sq_sqrt (by positivity)
  simp only [physical, alfvenSq, VField.at, V3.sq, get_normalisation, div_self hR.ne', hf,
    h0, hi, i1, i2, i3, i4, i5, i6, i7, i8, i9]
  refine ⟨by ring, by ring, by ring, by ring, by ring, ?_, by ring, by ring, by ring⟩
  field_simp
  rw [hs]
  field_simp
  ring

example := physical_midplane witQ_setUp (G := 6.6742e-8) (radius := 1.4957871e13)
  (mass := 2e33) (density := 1.5e-9) (by norm_num) (by norm_num)
  (f := fun _ => witQ.init_con) (scaled_scaledField _ _) rfl

example (F : ℝ → ℝ → St) := physical_eq (G := 6.6742e-8) (h := 1/20) (v := 1/10)
  (radius := 1.4957871e13) (mass := 2e33) (density := 1.5e-9) F (by norm_num) (by norm_num)
  (by norm_num)
example (F : ℝ → ℝ → St) := physical_electric (G := 6.6742e-8) (h := 1/20) (v := 1/10)
  (radius := 1.4957871e13) (mass := 2e33) (density := 1.5e-9) F (by norm_num) (by norm_num)
  (by norm_num) (by norm_num) (by norm_num) (by norm_num) 3e13 (1/10)

end DiscSolver
