import Verif.Props.Electric
import Verif.Props.OdeResiduals

/-!
# C15–C17: midplane conditions
-/

namespace DiscSolver

open Spec

/-- A reflection-symmetric flow at the midplane: `B_r = B_φ = v_θ = 0`,
`B_θ = ρ = 1`, even variables stationary. -/
def midFlow (v_r v_φ η_O η_A η_H B_r' B_φ' v_θ' : ℝ) : Flow :=
  { θ := 0, B_r := 0, B_φ := 0, B_θ := 1, v_r := v_r, v_φ := v_φ, v_θ := 0,
    ρ := 1, η_O := η_O, η_A := η_A, η_H := η_H, B_r' := B_r', B_φ' := B_φ',
    B_θ' := 0, v_r' := 0, v_φ' := 0, v_θ' := v_θ', ρ' := 0 }

/-- `v_φ` is a possible rotation speed at the midplane: with some field
gradients, radial and azimuthal momentum and polar induction hold there. -/
def MidplaneRotation (inp : NumInput) (v_φ : ℝ) : Prop :=
  ∃ B_r' B_φ' v_θ' : ℝ,
    let f := midFlow (-inp.v_rin_on_c_s) v_φ inp.η_O inp.η_A inp.η_H B_r' B_φ' v_θ'
    RadialMomentum (5/4 - inp.γ) (inp.v_a_on_c_s ^ 2) (1 / inp.c_s_on_v_k ^ 2) f ∧
    AzimuthalMomentum (5/4 - inp.γ) (inp.v_a_on_c_s ^ 2) f ∧
    PolarInduction (5/4 - inp.γ) 0 0 1 f

theorem midplaneRotation_iff (inp : NumInput) (v : ℝ)
    (ha : inp.v_a_on_c_s ≠ 0) (hη : inp.η_O + inp.η_A ≠ 0) :
    MidplaneRotation inp v ↔
      (v - -inp.v_rin_on_c_s * inp.η_H / (4 * (inp.η_O + inp.η_A))) ^ 2 =
        v_φ_discriminant (v_r := -inp.v_rin_on_c_s) (η_H := inp.η_H)
          (η_P := inp.η_O + inp.η_A) (norm_kepler_sq := 1 / inp.c_s_on_v_k ^ 2)
          (a_0 := inp.v_a_on_c_s ^ 2) (γ := inp.γ) := by
  have ha2 : inp.v_a_on_c_s ^ 2 ≠ 0 := pow_ne_zero 2 ha
  unfold MidplaneRotation
  simp only [RadialMomentum, radialRes, AzimuthalMomentum, azimuthalRes,
    PolarInduction, polarInductionRes, midFlow, v_φ_discriminant, Real.tan_zero,
    exists_const]
  generalize inp.v_a_on_c_s ^ 2 = a at *
  generalize 1 / inp.c_s_on_v_k ^ 2 = K at *
  generalize -inp.v_rin_on_c_s = v_r at *
  have hs : inp.η_A = (inp.η_O + inp.η_A) - inp.η_O := by ring
  generalize inp.η_O + inp.η_A = p at *
  constructor
  · rintro ⟨Br, Bφ, h1, h2, h3⟩
    rw [hs] at h3
    have e2 : Bφ = v_r * v / (2 * a) := by
      field_simp; linear_combination (-2) * h2
    have e3 : Br = inp.γ - 1/4 - (v_r + Bφ * inp.η_H) / p := by
      field_simp; linear_combination (-4) * h3
    rw [e3, e2] at h1
    field_simp at h1 ⊢
    linear_combination (-32 * p) * h1
  · intro h
    refine ⟨inp.γ - 1/4 - (v_r + v_r * v / (2 * a) * inp.η_H) / p,
      v_r * v / (2 * a), ?_, ?_, ?_⟩
    · field_simp at h ⊢
      apply mul_left_cancel₀ hη
      linear_combination (-1/32) * h
    · field_simp; ring
    · rw [hs]; field_simp; ring

/-- C16. `define_conditions` raises `SolverError` exactly when no rotation speed
is dynamically possible at the midplane. -/
theorem define_conditions_fails_iff (inp : NumInput)
    (ha : inp.v_a_on_c_s ≠ 0) (hη : inp.η_O + inp.η_A ≠ 0) :
    define_conditions inp = none ↔ ¬ ∃ v, MidplaneRotation inp v := by
  simp only [midplaneRotation_iff inp _ ha hη, define_conditions,
    v_φ_boundary_func]
  by_cases h : v_φ_discriminant (v_r := -inp.v_rin_on_c_s) (η_H := inp.η_H)
      (η_P := inp.η_O + inp.η_A) (norm_kepler_sq := 1 / inp.c_s_on_v_k ^ 2)
      (a_0 := inp.v_a_on_c_s ^ 2) (γ := inp.γ) < 0
  · rw [if_pos h]
    simp only [true_iff, not_exists]
    intro v hv
    have := sq_nonneg
      (v - -inp.v_rin_on_c_s * inp.η_H / (4 * (inp.η_O + inp.η_A)))
    linarith
  · rw [if_neg h]
    simp only [reduceCtorEq, false_iff, not_not]
    refine ⟨-inp.v_rin_on_c_s * inp.η_H / (4 * (inp.η_O + inp.η_A)) +
      Real.sqrt (v_φ_discriminant (v_r := -inp.v_rin_on_c_s) (η_H := inp.η_H)
      (η_P := inp.η_O + inp.η_A) (norm_kepler_sq := 1 / inp.c_s_on_v_k ^ 2)
      (a_0 := inp.v_a_on_c_s ^ 2) (γ := inp.γ)), ?_⟩
    rw [add_sub_cancel_left, Real.sq_sqrt (not_lt.1 h)]

/-- An input in the regime of the shipped examples. -/
noncomputable def witI (use_E_r : Bool) : NumInput :=
  { start := 0, stop := 5, num_angles := 10000, γ := 1/1000,
    v_rin_on_c_s := 1, v_a_on_c_s := 1, c_s_on_v_k := 3/100, η_O := 1/1000,
    η_A := 1/2000, η_H := 1/10000, use_E_r := use_E_r }

/-- `c_s_on_v_k` large: no rotation supports the disc. -/
noncomputable def witI_bad : NumInput :=
  { witI false with c_s_on_v_k := 1 }

example := define_conditions_fails_iff (witI false) (by norm_num [witI])
  (by norm_num [witI])

/-- Both outcomes of C16 occur. -/
theorem define_conditions_outcomes :
    (define_conditions (witI false)).isSome = true ∧
    define_conditions witI_bad = none := by
  constructor
  · simp only [define_conditions, v_φ_boundary_func]
    rw [if_neg]
    · rfl
    · norm_num [v_φ_discriminant, witI]
  · simp only [define_conditions, v_φ_boundary_func]
    rw [if_pos]
    norm_num [v_φ_discriminant, witI_bad, witI]

/-- C16. What `define_conditions` returns when it succeeds. -/
theorem define_conditions_shape (inp : NumInput) (c : Conditions)
    (h : define_conditions inp = some c) :
    c.init_con.v_θ = 0 ∧ c.init_con.ρ = 1 ∧ c.init_con.B_θ = 1 ∧
    c.init_con.B_r = 0 ∧ c.init_con.B_φ = 0 ∧
    c.init_con.v_r = -inp.v_rin_on_c_s ∧
    c.init_con.η_O = inp.η_O ∧ c.init_con.η_A = inp.η_A ∧
    c.init_con.η_H = inp.η_H ∧ c.γ = inp.γ ∧ c.a_0 = inp.v_a_on_c_s ^ 2 ∧
    c.norm_kepler_sq = 1 / inp.c_s_on_v_k ^ 2 ∧
    c.angles.length = inp.num_angles ∧
    (2 ≤ inp.num_angles → c.angles.head? = some (inp.start * (Real.pi / 180)) ∧
      c.angles.getLast? = some (inp.stop * (Real.pi / 180))) := by
  simp only [define_conditions] at h
  split at h
  · simp at h
  · simp only [Option.some.injEq] at h
    subst h
    refine ⟨rfl, rfl, rfl, rfl, rfl, rfl, rfl, rfl, rfl, rfl, rfl, rfl, ?_, ?_⟩
    · simp only [List.length_map]
      unfold linspace
      split <;> simp [*]
    · intro hn
      obtain ⟨m, hm⟩ := Nat.exists_eq_add_of_le hn
      have hm' : inp.num_angles = m + 2 := by omega
      simp only [hm', linspace, List.head?_map, List.getLast?_map]
      refine ⟨by simp [List.range_succ_eq_map, radians], ?_⟩
      rw [List.range_succ, List.getLast?_append]
      simp only [List.getLast?_singleton, Option.some_or, Option.map_some,
        Option.some.injEq, radians]
      have : ((m : ℝ) + 1) ≠ 0 := by positivity
      push_cast
      field_simp
      ring

example := define_conditions_shape (witI false) _
  (Option.isSome_iff_exists.1 define_conditions_outcomes.1).choose_spec

/-- The right-hand side that `solution` builds from initial conditions
(`solve/solution.py:549-555`). -/
def argsOf (use_E_r : Bool) (c : Conditions) : OdeArgs :=
  { γ := c.γ, a_0 := c.a_0, norm_kepler_sq := c.norm_kepler_sq,
    init_con := c.init_con, use_E_r := use_E_r }

/-- C15. At the midplane, in either formulation, the right-hand side accepts the
initial conditions and the field gradients it returns satisfy radial and
azimuthal momentum whatever the (indeterminate, `0/0`) derivatives of `v_r` and
`v_φ` are, polar induction (`E_φ = 0`) holds, `B_φ'` is the same in both
formulations, and the stored slot is `B_φ'` or Ohm's law's `E_r`. -/
theorem midplane_consistent (inp : NumInput) (c : Conditions)
    (h : define_conditions inp = some c)
    (ha : inp.v_a_on_c_s ≠ 0) (hη : inp.η_O + inp.η_A ≠ 0) :
    ∃ d, rhs_equation (argsOf inp.use_E_r c) 0 c.init_con = (0, some d) ∧
      (∀ w₁ w₂ : ℝ,
        RadialMomentum (5/4 - c.γ) c.a_0 c.norm_kepler_sq
          (flowOf 0 c.init_con { d with v_r := w₁, v_φ := w₂ }) ∧
        AzimuthalMomentum (5/4 - c.γ) c.a_0
          (flowOf 0 c.init_con { d with v_r := w₁, v_φ := w₂ }) ∧
        PolarInduction (5/4 - c.γ) 0 0 1
          (flowOf 0 c.init_con { d with v_r := w₁, v_φ := w₂ })) ∧
      d.B_φ = c.init_con.v_φ * c.init_con.v_r / (2 * c.a_0) ∧
      (inp.use_E_r = false → c.init_con.X = d.B_φ) ∧
      (inp.use_E_r = true → c.init_con.X = (electricOf c.γ 0 c.init_con d).r) := by
  have hsh := define_conditions_shape inp c h
  obtain ⟨hvθ, hρ, hBθ, hBr, hBφ, hvr, hO, hA, hH, hγ, ha0, hK, -, -⟩ := hsh
  have ha2 : inp.v_a_on_c_s ^ 2 ≠ 0 := pow_ne_zero 2 ha
  have hmag : B_mag c.init_con = 1 := by
    rw [B_mag, hBr, hBφ, hBθ]; norm_num
  have hperp : (inp.η_O + inp.η_A) ^ 2 + inp.η_H ^ 2 ≠ 0 := by
    have := sq_pos_of_ne_zero hη
    have := sq_nonneg inp.η_H
    positivity
  -- the quadratic for v_φ
  have hq : (c.init_con.v_φ -
      -inp.v_rin_on_c_s * inp.η_H / (4 * (inp.η_O + inp.η_A))) ^ 2 =
        v_φ_discriminant (v_r := -inp.v_rin_on_c_s) (η_H := inp.η_H)
          (η_P := inp.η_O + inp.η_A) (norm_kepler_sq := 1 / inp.c_s_on_v_k ^ 2)
          (a_0 := inp.v_a_on_c_s ^ 2) (γ := inp.γ) := by
    have h' := h
    simp only [define_conditions] at h'
    split at h'
    · simp at h'
    · rename_i v hv
      simp only [Option.some.injEq] at h'
      subst h'
      simp only [v_φ_boundary_func] at hv
      split_ifs at hv with h0
      simp only [Option.some.injEq] at hv
      rw [← hv, add_sub_cancel_left, Real.sq_sqrt (not_lt.1 h0)]
  -- the stored slot
  have hX : c.init_con.X = if inp.use_E_r then
        E_r_boundary_func (v_r := c.init_con.v_r) (v_φ := c.init_con.v_φ)
          (η_P := inp.η_O + inp.η_A) (η_H := inp.η_H)
          (η_perp_sq := (inp.η_O + inp.η_A) ^ 2 + inp.η_H ^ 2)
          (a_0 := c.a_0)
      else B_φ_prime_boundary_func (v_r := c.init_con.v_r)
        (v_φ := c.init_con.v_φ) (a_0 := c.a_0) := by
    have h' := h
    simp only [define_conditions] at h'
    split at h'
    · simp at h'
    · simp only [Option.some.injEq] at h'
      subst h'
      rfl
  have hp : inp.η_A = (inp.η_O + inp.η_A) - inp.η_O := by ring
  -- the recovered B_φ'
  have hd : (rhsDerivs (argsOf inp.use_E_r c) 0 c.init_con).B_φ =
      c.init_con.v_φ * c.init_con.v_r / (2 * c.a_0) := by
    cases hE : inp.use_E_r
    · rw [rhs_B_φ _ _ _ rfl, hX, hE]
      rfl
    · simp only [rhsDerivs, rhsValues, argsOf, if_true, deriv_B_φ_func, C_func,
        Z_5_func, hmag, hBr, hBφ, hBθ, hX, hE, E_r_boundary_func, hO, hA, hH,
        Real.tan_zero, ha0, hvr]
      simp only [div_one, mul_zero, zero_mul, add_zero, sub_zero, mul_one,
        zero_sub, ne_eq, OfNat.ofNat_ne_zero, not_false_eq_true, zero_pow]
      generalize inp.v_a_on_c_s ^ 2 = a at *
      generalize inp.η_O + inp.η_A = p at *
      have hZ : p + inp.η_H / p * inp.η_H ≠ 0 := by
        intro h0; apply hperp; field_simp at h0; linear_combination h0
      rw [div_eq_iff hZ]
      field_simp
      ring
  have hBr' : (rhsDerivs (argsOf inp.use_E_r c) 0 c.init_con).B_r =
      c.γ - 1/4 - (c.init_con.v_r +
        c.init_con.v_φ * c.init_con.v_r / (2 * c.a_0) * inp.η_H) /
        (inp.η_O + inp.η_A) := by
    rw [rhs_B_r, hd]
    simp only [deriv_B_r_func, hmag, hBr, hBφ, hBθ, hO, hA, hH, hvθ,
      Real.tan_zero, argsOf]
    simp only [div_one, mul_zero, zero_mul, add_zero, sub_zero, mul_one,
      zero_sub]
    field_simp
    ring
  refine ⟨_, by
    have := accepted (argsOf inp.use_E_r c) 0 c.init_con (by rw [hρ]; norm_num)
      (by rw [hvθ])
    rwa [zero_mul] at this, ?_, hd, ?_, ?_⟩
  · intro w₁ w₂
    refine ⟨?_, ?_, ?_⟩
    · simp only [RadialMomentum, radialRes, flowOf, hBr', hρ, hBθ, hvθ, hBφ, hγ]
      rw [hK, ha0, hvr]
      simp only [v_φ_discriminant] at hq
      generalize inp.v_a_on_c_s ^ 2 = a at *
      generalize inp.η_O + inp.η_A = p at *
      generalize 1 / inp.c_s_on_v_k ^ 2 = K at *
      field_simp at hq ⊢
      apply mul_left_cancel₀ hη
      linear_combination (-1/32) * hq
    · simp only [AzimuthalMomentum, azimuthalRes, flowOf, hd, hρ, hBθ, hvθ, hBφ,
        hBr, Real.tan_zero]
      rw [ha0]
      field_simp
      ring
    · simp only [PolarInduction, polarInductionRes, flowOf, hd, hBr', hρ, hBθ,
        hvθ, hBφ, hBr, Real.tan_zero, hO, hA, hH]
      rw [ha0]
      field_simp
      ring
  · intro hE
    rw [hX, hd, if_neg (by simp [hE])]
    rfl
  · intro hE
    rw [hX, if_pos hE]
    simp only [electricOf, currentOf, E_r_func, J_r_func, J_θ_func, J_φ_func, hd,
      hBr', hmag, hBr, hBφ, hBθ, hO, hA, hH, hvθ, Real.tan_zero,
      E_r_boundary_func]
    rw [ha0]
    field_simp
    ring

theorem witI_ok (b : Bool) : ∃ c, define_conditions (witI b) = some c := by
  apply Option.isSome_iff_exists.1
  simp only [define_conditions, v_φ_boundary_func]
  rw [if_neg]
  · rfl
  · norm_num [v_φ_discriminant, witI]

example := midplaneRotation_iff (witI true) 3 (by norm_num [witI]) (by norm_num [witI])

example := midplane_consistent (witI true) _ (witI_ok true).choose_spec
  (by norm_num [witI]) (by norm_num [witI])

/-- C16. Among the possible rotation speeds the code takes the largest. -/
theorem define_conditions_fastest (inp : NumInput) (c : Conditions)
    (h : define_conditions inp = some c)
    (ha : inp.v_a_on_c_s ≠ 0) (hη : inp.η_O + inp.η_A ≠ 0) :
    MidplaneRotation inp c.init_con.v_φ ∧
    ∀ v, MidplaneRotation inp v → v ≤ c.init_con.v_φ := by
  simp only [define_conditions] at h
  split at h
  · simp at h
  · rename_i w hw
    simp only [Option.some.injEq] at h
    subst h
    simp only [v_φ_boundary_func] at hw
    split_ifs at hw with h0
    simp only [Option.some.injEq] at hw
    simp only [midplaneRotation_iff inp _ ha hη]
    constructor
    · rw [← hw, add_sub_cancel_left, Real.sq_sqrt (not_lt.1 h0)]
    · intro v hv
      rw [← hw, ← hv, Real.sqrt_sq_eq_abs]
      have := le_abs_self
        (v - -inp.v_rin_on_c_s * inp.η_H / (4 * (inp.η_O + inp.η_A)))
      linarith

example := define_conditions_fastest (witI true) _ (witI_ok true).choose_spec
  (by norm_num [witI]) (by norm_num [witI])

end DiscSolver
