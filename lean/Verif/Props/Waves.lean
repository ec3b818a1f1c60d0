import Verif.Model.Waves
import Verif.Model.Arrays
import Verif.Model.Conditions
import Mathlib.Tactic.FieldSimp
import Mathlib.Tactic.LinearCombination
import Mathlib.Tactic.Positivity

/-!
# C23, C24, C69: wave speeds
-/

namespace DiscSolver

/-- Specification: the squared Alfvén speed of the whole field, in the units of
`mhd_wave_speeds`. -/
noncomputable def vA2 (s : St) : ℝ :=
  (s.B_r ^ 2 + s.B_φ ^ 2 + s.B_θ ^ 2) / (4 * Real.pi * s.ρ)

/-- Specification: the same for the field along the direction of propagation. -/
noncomputable def vAn2 (s : St) : ℝ := s.B_θ ^ 2 / (4 * Real.pi * s.ρ)

section

variable (s : St) (c : ℝ) (hρ : 0 < s.ρ)
  (hB : s.B_r ^ 2 + s.B_φ ^ 2 + s.B_θ ^ 2 ≠ 0)
include hρ hB

omit hρ in
theorem B_sq_pos : 0 < s.B_r ^ 2 + s.B_φ ^ 2 + s.B_θ ^ 2 :=
  lt_of_le_of_ne (by positivity) (Ne.symm hB)

theorem vA2_pos : 0 < vA2 s := by
  have := B_sq_pos s hB
  have := Real.pi_pos
  unfold vA2
  positivity

theorem alfven_eq : (mhd_wave_speeds s c).alfven = vAn2 s := by
  have := Real.pi_pos
  simp only [mhd_wave_speeds, vAn2]
  field_simp

omit hB in
theorem vAn2_le : vAn2 s ≤ vA2 s := by
  have := Real.pi_pos
  unfold vAn2 vA2
  gcongr
  nlinarith [sq_nonneg s.B_r, sq_nonneg s.B_φ]

omit hB in
theorem vAn2_nonneg : 0 ≤ vAn2 s := by
  have := Real.pi_pos
  unfold vAn2
  positivity

/-- The discriminant of the dispersion relation. -/
theorem wave_disc : (vA2 s + c ^ 2) ^ 2 - 4 * vA2 s * c ^ 2 *
      (s.B_θ ^ 2 / (s.B_r ^ 2 + s.B_φ ^ 2 + s.B_θ ^ 2)) =
    (vA2 s - c ^ 2) ^ 2 + 4 * c ^ 2 * (vA2 s - vAn2 s) := by
  have := Real.pi_pos
  have h : vA2 s * (s.B_θ ^ 2 / (s.B_r ^ 2 + s.B_φ ^ 2 + s.B_θ ^ 2)) = vAn2 s := by
    unfold vA2 vAn2
    field_simp
  linear_combination -4 * c ^ 2 * h

/-- The speeds through the discriminant. -/
theorem wave_roots : ∃ q, 0 ≤ q ∧
    q ^ 2 = (vA2 s - c ^ 2) ^ 2 + 4 * c ^ 2 * (vA2 s - vAn2 s) ∧
    (mhd_wave_speeds s c).slow = 1/2 * (vA2 s + c ^ 2 - q) ∧
    (mhd_wave_speeds s c).fast = 1/2 * (vA2 s + c ^ 2 + q) := by
  have hle := vAn2_le s hρ
  refine ⟨_, Real.sqrt_nonneg _, Real.sq_sqrt ?_, ?_, ?_⟩
  · have : 0 ≤ c ^ 2 * (vA2 s - vAn2 s) := mul_nonneg (sq_nonneg _) (by linarith)
    nlinarith [sq_nonneg (vA2 s - c ^ 2)]
  · rw [← wave_disc s c hρ hB]; rfl
  · rw [← wave_disc s c hρ hB]; rfl

/-- C23. The slow and fast speeds are the two roots of the dispersion relation:
`(x - slow²) (x - fast²) = x² - (v_A² + c²) x + v_An² c²` for every `x`. -/
theorem wave_dispersion (x : ℝ) :
    (x - (mhd_wave_speeds s c).slow) * (x - (mhd_wave_speeds s c).fast) =
      x ^ 2 - (vA2 s + c ^ 2) * x + vAn2 s * c ^ 2 := by
  obtain ⟨q, -, hq, h1, h2⟩ := wave_roots s c hρ hB
  rw [h1, h2]
  linear_combination -1/4 * hq

/-- C23. The speeds are ordered, and the slow and fast speeds enclose both the sound
speed and the Alfvén speed. -/
theorem wave_order :
    let w := mhd_wave_speeds s c
    0 ≤ w.slow ∧ w.slow ≤ w.alfven ∧ w.alfven ≤ w.fast ∧
    w.slow ≤ c ^ 2 ∧ c ^ 2 ≤ w.fast ∧ w.alfven = vAn2 s := by
  obtain ⟨q, hq0, hq, h1, h2⟩ := wave_roots s c hρ hB
  have hal := alfven_eq s c hρ hB
  have hle := vAn2_le s hρ
  have hn := vAn2_nonneg s hρ
  have hp := vA2_pos s hρ hB
  simp only
  rw [h1, h2, hal]
  generalize vA2 s = V at *
  generalize vAn2 s = W at *
  have hc : 0 ≤ c ^ 2 := sq_nonneg c
  generalize c ^ 2 = C at *
  have hWC : 0 ≤ C * W := mul_nonneg hc hn
  have hC : 0 ≤ C * (V - W) := mul_nonneg hc (by linarith)
  have hVW : 0 ≤ W * (V - W) := mul_nonneg hn (by linarith)
  -- q lies between |V - C| and V + C, and encloses V + C - 2 W
  have a1 : q ≤ V + C := abs_le_of_sq_le_sq' (by nlinarith) (by linarith) |>.2
  have a2 : V - C ≤ q := (abs_le_of_sq_le_sq' (by nlinarith) hq0).2
  have a3 : C - V ≤ q := (abs_le_of_sq_le_sq' (by nlinarith) hq0).2
  have a4 : V + C - 2 * W ≤ q := (abs_le_of_sq_le_sq' (by nlinarith) hq0).2
  refine ⟨by linarith, by linarith, by linarith, by linarith, by linarith, rfl⟩

/-- C24. Where the flow outruns the fast wave it outruns the sound, Alfvén and slow
waves too (as far as their speeds are nonzero). -/
theorem fast_implies_all (hv : 0 ≤ s.v_θ) {m : ℝ}
    (hm : (get_mach_numbers s).fast = some m) (h1 : 1 < m) :
    (∃ x, (get_mach_numbers s).sonic = some x ∧ 1 < x) ∧
    (∀ x, (get_mach_numbers s).alfven = some x → 1 < x) ∧
    (∀ x, (get_mach_numbers s).slow = some x → 1 < x) := by
  obtain ⟨o1, o2, o3, -, o5, -⟩ := wave_order s 1 hρ hB
  have key : ∀ u v : ℝ, 0 ≤ u → machOf (s.v_θ ^ 2) u = some v → (1 < v ↔ u < s.v_θ ^ 2) := by
    intro u v hu h
    unfold machOf at h
    by_cases h0 : u = 0
    · rw [if_pos h0] at h; cases h
    · rw [if_neg h0] at h
      injection h with h
      have hup : 0 < u := lt_of_le_of_ne hu (Ne.symm h0)
      rw [← h, Real.lt_sqrt (by norm_num), one_pow, one_lt_div hup]
  have hf := (key _ m (by linarith) hm).1 h1
  refine ⟨⟨s.v_θ, rfl, ?_⟩, fun x hx => (key _ x (by linarith) hx).2 (by linarith),
    fun x hx => (key _ x (by linarith) hx).2 (by linarith)⟩
  nlinarith

end

/-- C69, what the code does: whatever Alfvén speed the disc was set up with, at the
midplane the reported squared Alfvén speed is `1 / (4 π)`. -/
theorem midplane_alfven_partial (inp : NumInput) (c : Conditions)
    (h : define_conditions inp = some c) :
    (mhd_wave_speeds c.init_con 1).alfven = 1 / (4 * Real.pi) := by
  unfold define_conditions at h
  simp only at h
  split at h
  · cases h
  · injection h with h
    subst h
    simp [mhd_wave_speeds]

/-- C69 is false of the code: the reported Alfvén speed at the midplane is the one
requested only for a single value of `v_a_on_c_s`. -/
theorem midplane_alfven_iff (inp : NumInput) (c : Conditions)
    (h : define_conditions inp = some c) :
    (mhd_wave_speeds c.init_con 1).alfven = inp.v_a_on_c_s ^ 2 ↔
      inp.v_a_on_c_s ^ 2 = 1 / (4 * Real.pi) := by
  rw [midplane_alfven_partial inp c h]
  exact eq_comm

/-- A disc with a strong field. -/
noncomputable def witInput : NumInput :=
  { start := 0, stop := 5, num_angles := 3, γ := 1/10, v_rin_on_c_s := 1,
    v_a_on_c_s := 1, c_s_on_v_k := 1/10, η_O := 1, η_A := 0, η_H := 0,
    use_E_r := false }

theorem witInput_conditions : ∃ c, define_conditions witInput = some c := by
  have h : ¬ v_φ_discriminant (-1) 0 1 100 1 (1/10) < 0 := by
    norm_num [v_φ_discriminant]
  simp only [define_conditions, witInput, v_φ_boundary_func]
  norm_num at h ⊢
  rw [if_neg (not_lt.2 h)]
  exact ⟨_, rfl⟩

/-- A fast flow in an oblique field. -/
noncomputable def witFast : St :=
  { B_r := 1, B_φ := 2, B_θ := 2, v_r := -1, v_φ := 2, v_θ := 3, ρ := 1,
    X := 1, η_O := 1, η_A := 1/2, η_H := 1/4 }

theorem witFast_fast : ∃ m, (get_mach_numbers witFast).fast = some m ∧ 1 < m := by
  obtain ⟨q, hq0, hq, -, hf⟩ := wave_roots witFast 1 (by norm_num [witFast])
    (by norm_num [witFast])
  have hV : vA2 witFast < 2 := by
    have := Real.two_le_pi
    rw [vA2, div_lt_iff₀ (by simp only [witFast]; positivity)]
    simp only [witFast]
    linarith
  have hV0 := vA2_pos witFast (by norm_num [witFast]) (by norm_num [witFast])
  have hW := vAn2_nonneg witFast (by norm_num [witFast])
  have hq2 : q ≤ 3 := (abs_le_of_sq_le_sq' (by nlinarith) (by norm_num)).2
  have hlt : (mhd_wave_speeds witFast 1).fast < 9 := by rw [hf]; linarith
  have hpos : 0 < (mhd_wave_speeds witFast 1).fast := by rw [hf]; linarith
  refine ⟨Real.sqrt (witFast.v_θ ^ 2 / (mhd_wave_speeds witFast 1).fast), ?_, ?_⟩
  · simp only [get_mach_numbers, machOf, if_neg hpos.ne']
  · rw [Real.lt_sqrt (by norm_num), one_pow, one_lt_div hpos]
    norm_num [witFast]
    exact hlt

example := wave_dispersion witFast 1 (by norm_num [witFast]) (by norm_num [witFast])
example := wave_order witFast 1 (by norm_num [witFast]) (by norm_num [witFast])
example := fast_implies_all witFast (by norm_num [witFast]) (by norm_num [witFast])
  (by norm_num [witFast]) witFast_fast.choose_spec.1 witFast_fast.choose_spec.2
example := midplane_alfven_iff witInput _ witInput_conditions.choose_spec

example := midplane_alfven_partial witInput _ witInput_conditions.choose_spec

end DiscSolver
