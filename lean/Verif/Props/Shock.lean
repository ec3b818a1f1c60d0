import Mathlib.Tactic.FieldSimp
import Mathlib.Tactic.Linarith
import Mathlib.Tactic.Positivity
import Verif.Model.Shock
import Verif.Model.Ode
import Verif.Props.Electric

/-!
# Shock properties: C30, C31, C71
-/

namespace DiscSolver

/-! ## C30 -/

/-- The row after the jump. -/
noncomputable def postShock (c : Conditions) (angles : List ℝ) (θ : ℝ) (s : St) : St :=
  (get_shock_modified_initial_conditions c angles θ s).init_con

/-- C30. Mass flux and normal momentum flux (isothermal, `c_s = 1`) are the same on
both sides. -/
theorem shock_conserves (c : Conditions) (angles : List ℝ) (θ : ℝ) (s : St)
    (hv : s.v_θ ≠ 0) :
    (postShock c angles θ s).ρ * (postShock c angles θ s).v_θ = s.ρ * s.v_θ ∧
    (postShock c angles θ s).ρ * ((postShock c angles θ s).v_θ ^ 2 + 1) =
      s.ρ * (s.v_θ ^ 2 + 1) := by
  simp only [postShock, get_shock_modified_initial_conditions,
    Conditions.create_modified, get_v_θ_post, get_ρ_post]
  constructor
  · field_simp
  · field_simp
    ring

/-- C30. The jump is the only nontrivial one: whatever conserves both fluxes and is
not the original state is what the code computes. -/
theorem shock_unique (c : Conditions) (angles : List ℝ) (θ : ℝ) (s : St) (v ρ : ℝ)
    (hv : s.v_θ ≠ 0) (hρ : s.ρ ≠ 0) (hmass : ρ * v = s.ρ * s.v_θ)
    (hmom : ρ * (v ^ 2 + 1) = s.ρ * (s.v_θ ^ 2 + 1)) (hne : v ≠ s.v_θ) :
    v = (postShock c angles θ s).v_θ ∧ ρ = (postShock c angles θ s).ρ := by
  simp only [postShock, get_shock_modified_initial_conditions,
    Conditions.create_modified, get_v_θ_post, get_ρ_post]
  have hv0 : v ≠ 0 := by
    rintro rfl
    rw [mul_zero] at hmass
    exact mul_ne_zero hρ hv hmass.symm
  have h1 : s.ρ * ((v - s.v_θ) * (s.v_θ * v - 1)) = 0 := by
    have : s.ρ * s.v_θ * (v ^ 2 + 1) = s.ρ * (s.v_θ ^ 2 + 1) * v := by
      rw [← hmass, ← hmom]; ring
    linear_combination this
  have h2 : s.v_θ * v = 1 := by
    rcases mul_eq_zero.1 h1 with h | h
    · exact absurd h hρ
    · rcases mul_eq_zero.1 h with h | h
      · exact absurd (sub_eq_zero.1 h) hne
      · linarith
  constructor
  · rw [eq_div_iff hv, mul_comm, h2]
  · have : ρ * (v * s.v_θ) = s.ρ * s.v_θ ^ 2 := by rw [← mul_assoc, hmass]; ring
    rw [mul_comm v, h2, mul_one] at this
    exact this

/-- C30. Everything else carries over, and the integration restarts at the shock:
the remaining angles are those at or beyond it, in order. -/
theorem shock_unchanged (c : Conditions) (angles : List ℝ) (θ : ℝ) (s : St) :
    let c' := get_shock_modified_initial_conditions c angles θ s
    { c'.init_con with v_θ := s.v_θ, ρ := s.ρ } = s ∧
    c'.norm_kepler_sq = c.norm_kepler_sq ∧ c'.a_0 = c.a_0 ∧ c'.γ = c.γ ∧
    c'.angles.Sublist angles ∧ (∀ a, a ∈ c'.angles ↔ a ∈ angles ∧ θ ≤ a) := by
  refine ⟨rfl, rfl, rfl, rfl, List.filter_sublist, fun a => ?_⟩
  simp [get_shock_modified_initial_conditions, Conditions.create_modified]

/-- C30. No angle at or beyond the shock is dropped. -/
theorem shock_angles_all (c : Conditions) (angles : List ℝ) (θ a : ℝ) (s : St)
    (ha : θ ≤ a) :
    (get_shock_modified_initial_conditions c angles θ s).angles.count a =
      angles.count a := by
  classical
  simp only [get_shock_modified_initial_conditions, Conditions.create_modified]
  exact List.count_filter (by simpa using ha)

/-- C30. A supersonic flow becomes subsonic and denser. -/
theorem shock_slows (c : Conditions) (angles : List ℝ) (θ : ℝ) (s : St)
    (hv : 1 < s.v_θ) (hρ : 0 < s.ρ) :
    0 < (postShock c angles θ s).v_θ ∧ (postShock c angles θ s).v_θ < 1 ∧
      s.ρ < (postShock c angles θ s).ρ := by
  simp only [postShock, get_shock_modified_initial_conditions,
    Conditions.create_modified, get_v_θ_post, get_ρ_post]
  refine ⟨by positivity, ?_, ?_⟩
  · rw [div_lt_one (by linarith)]; exact hv
  · nlinarith [mul_pos hρ (by nlinarith : 0 < s.v_θ ^ 2 - 1)]

/-- C30. Jumping twice gives the original row back. -/
theorem shock_involutive (c : Conditions) (angles : List ℝ) (θ : ℝ) (s : St)
    (hv : s.v_θ ≠ 0) :
    postShock c angles θ (postShock c angles θ s) = s := by
  obtain ⟨B_r, B_φ, B_θ, v_r, v_φ, v_θ, ρ, X, η_O, η_A, η_H⟩ := s
  simp only [postShock, get_shock_modified_initial_conditions,
    Conditions.create_modified, get_v_θ_post, get_ρ_post] at *
  congr 1
  · simp
  · field_simp

/-- A supersonic row. -/
noncomputable def witShock : St :=
  { B_r := 1, B_φ := 2, B_θ := 2, v_r := -1, v_φ := 2, v_θ := 3, ρ := 1,
    X := 1, η_O := 1, η_A := 1/2, η_H := 1/4 }

noncomputable def witShockC : Conditions :=
  { norm_kepler_sq := 1000, a_0 := 1, init_con := St.zero, angles := [0, 1, 2], γ := 1/1000 }

example := shock_conserves witShockC [0, 1, 2] 1 witShock (by norm_num [witShock])
example := shock_unique witShockC [0, 1, 2] 1 witShock (1/3) 9
  (by norm_num [witShock]) (by norm_num [witShock]) (by norm_num [witShock])
  (by norm_num [witShock]) (by norm_num [witShock])
example := shock_angles_all witShockC [0, 1, 2] 1 2 witShock (by norm_num)
example := shock_slows witShockC [0, 1, 2] 1 witShock (by norm_num [witShock])
  (by norm_num [witShock])
example := shock_involutive witShockC [0, 1, 2] 1 witShock (by norm_num [witShock])

/-! ## C31 -/

/-- `nanargmax` is the first of the largest values. -/
theorem nanargmax_spec (l : List ℝ) (i : ℕ) (h : nanargmax l = .ok i) :
    ∃ m, l[i]? = some m ∧ (∀ z ∈ l, z ≤ m) ∧
      ∀ (k : ℕ) (z : ℝ), k < i → l[k]? = some z → z < m := by
  classical
  cases l with
  | nil => cases h
  | cons x t =>
    simp only [nanargmax] at h
    injection h with h
    obtain ⟨m, hm, hmax⟩ : ∃ m ∈ x :: t, ∀ z ∈ x :: t, z ≤ m := by
      clear h
      induction t generalizing x with
      | nil => exact ⟨x, List.mem_cons_self, by simp⟩
      | cons y t ih =>
        obtain ⟨m, hm, hmax⟩ := ih y
        rcases le_total x m with hx | hx
        · refine ⟨m, List.mem_cons_of_mem _ hm, fun z hz => ?_⟩
          rcases List.mem_cons.1 hz with rfl | hz
          · exact hx
          · exact hmax z hz
        · refine ⟨x, List.mem_cons_self, fun z hz => ?_⟩
          rcases List.mem_cons.1 hz with rfl | hz
          · exact le_rfl
          · exact (hmax z hz).trans hx
    have hlt : i < (x :: t).length := by
      rw [← h, List.findIdx_lt_length]
      exact ⟨m, hm, decide_eq_true hmax⟩
    subst h
    refine ⟨_, List.getElem?_eq_getElem hlt,
      of_decide_eq_true (List.findIdx_getElem (w := hlt)), ?_⟩
    intro k z hk hz
    have hn := List.not_of_lt_findIdx hk
    rw [List.getElem?_eq_getElem (hk.trans hlt)] at hz
    injection hz with hz
    have hn' := of_decide_eq_false hn
    by_contra hle
    apply hn'
    intro w hw
    rw [hz]
    have h1 := of_decide_eq_true (List.findIdx_getElem (w := hlt)) w hw
    exact h1.trans (not_lt.1 hle)

example : ∃ i, nanargmax [1, 3, 2, 3] = .ok i := ⟨_, rfl⟩
example := nanargmax_spec [1, 3, 2, 3] _ rfl

/-- C31. The candidates are, in order, exactly the samples with the velocity strictly
between the limits, strictly beyond the smallest angle and, with `post_max`, strictly
beyond the first of the largest velocities. -/
theorem shock_candidates (soln out : List (ℝ × St)) (vmin vmax amin : ℝ) (pm : Bool)
    (h : find_shock_test_values soln vmin vmax amin pm = .ok out) :
    out.Sublist soln ∧
    ∀ p, p ∈ out ↔ p ∈ soln ∧ vmin < p.2.v_θ ∧ p.2.v_θ < vmax ∧ radians amin < p.1 ∧
      (pm = true → ∃ i m, soln[i]? = some m ∧ (∀ q ∈ soln, q.2.v_θ ≤ m.2.v_θ) ∧
        (∀ (k : ℕ) (q : ℝ × St), k < i → soln[k]? = some q → q.2.v_θ < m.2.v_θ) ∧
        m.1 < p.1) := by
  classical
  cases pm with
  | false =>
    simp only [find_shock_test_values, shock_min_angle, Bool.false_eq_true, if_false] at h
    injection h with h
    subst h
    refine ⟨List.filter_sublist, fun p => ?_⟩
    simp
  | true =>
    simp only [find_shock_test_values, shock_min_angle, if_true] at h
    cases hi : nanargmax (soln.map fun p => p.2.v_θ) with
    | error e => rw [hi] at h; cases h
    | ok i =>
      rw [hi] at h
      obtain ⟨m, hm, hmax, hfirst⟩ := nanargmax_spec _ _ hi
      rw [List.getElem?_map] at hm
      cases hs : soln[i]? with
      | none => rw [hs] at hm; cases hm
      | some q =>
        rw [hs] at hm
        simp only [Option.map_some, Option.some.injEq] at hm
        have ha : (soln.map Prod.fst)[i]? = some q.1 := by rw [List.getElem?_map, hs]; rfl
        have hmaxq : ∀ x ∈ soln, x.2.v_θ ≤ q.2.v_θ := fun x hx => by
          rw [hm]; exact hmax _ (List.mem_map.2 ⟨x, hx, rfl⟩)
        have hfirstq : ∀ (k : ℕ) (x : ℝ × St), k < i → soln[k]? = some x →
            x.2.v_θ < q.2.v_θ := fun k x hk hx => by
          rw [hm]; exact hfirst k _ hk (by rw [List.getElem?_map, hx]; rfl)
        simp only [ha] at h
        injection h with h
        subst h
        refine ⟨List.filter_sublist, fun p => ?_⟩
        simp only [List.mem_filter, decide_eq_true_eq, max_lt_iff]
        constructor
        · rintro ⟨h1, h2, h3, h4, h5⟩
          exact ⟨h1, h2, h3, h4, fun _ => ⟨i, q, hs, hmaxq, hfirstq, h5⟩⟩
        · rintro ⟨h1, h2, h3, h4, h5⟩
          obtain ⟨j, w, hw, hwm, hwf, hlt⟩ := h5 trivial
          refine ⟨h1, h2, h3, h4, ?_⟩
          have hij : i = j := by
            rcases lt_trichotomy i j with hij | hij | hij
            · exact absurd (hwf i q hij hs) (not_lt.2 (hmaxq w (List.mem_of_getElem? hw)))
            · exact hij
            · exact absurd (hfirstq j w hij hw)
                (not_lt.2 (hwm q (List.mem_of_getElem? hs)))
          subst hij
          rw [hs] at hw
          injection hw with hw
          subst hw
          exact hlt

/-- C31. It fails only on an empty solution, when the maximum is asked for. -/
theorem shock_candidates_fails (soln : List (ℝ × St)) (vmin vmax amin : ℝ) (pm : Bool) :
    (∃ e, find_shock_test_values soln vmin vmax amin pm = .error e) ↔
      pm = true ∧ soln = [] := by
  classical
  cases pm with
  | false => simp [find_shock_test_values, shock_min_angle]
  | true =>
    cases soln with
    | nil => simp [find_shock_test_values, shock_min_angle, nanargmax]
    | cons p l =>
      simp only [true_and, reduceCtorEq, iff_false]
      rintro ⟨e, he⟩
      have hn : ∃ i, nanargmax ((p :: l).map fun p => p.2.v_θ) = .ok i := ⟨_, rfl⟩
      obtain ⟨i, hi⟩ := hn
      obtain ⟨m, hm, -, -⟩ := nanargmax_spec _ _ hi
      rw [List.getElem?_map] at hm
      cases hs : (p :: l)[i]? with
      | none => rw [hs] at hm; cases hm
      | some q =>
        have ha : ((p :: l).map Prod.fst)[i]? = some q.1 := by
          rw [List.getElem?_map, hs]; rfl
        simp only [find_shock_test_values, shock_min_angle, if_true, hi, ha] at he
        cases he

/-- Two samples past the largest velocity. -/
example : ∃ out, find_shock_test_values [(0, witShock), (1, { witShock with v_θ := 2 })]
    1 10 0 true = .ok out ∧ (1, { witShock with v_θ := 2 }) ∈ out := by
  cases h : find_shock_test_values [(0, witShock), (1, { witShock with v_θ := 2 })]
      1 10 0 true with
  | error e => exact absurd ((shock_candidates_fails _ _ _ _ _).1 ⟨e, h⟩) (by simp)
  | ok out =>
    refine ⟨out, rfl, ((shock_candidates _ _ _ _ _ _ h).2 _).2 ?_⟩
    refine ⟨by simp, by norm_num, by norm_num, by simp [radians], fun _ =>
      ⟨0, (0, witShock), rfl, ?_, by intro k q hk; omega, by norm_num⟩⟩
    intro q hq
    simp only [List.mem_cons, List.not_mem_nil, or_false] at hq
    rcases hq with rfl | rfl <;> norm_num [witShock]

/-! ## C71 -/

/-- The tangential (radial) electric field of a row: Ohm's law with the derivatives
the solver uses. -/
noncomputable def tangentialE (P : OdeArgs) (θ : ℝ) (s : St) : ℝ :=
  (electricOf P.γ θ s (rhsDerivs P θ s)).r

/-- C71. The exact jump of the tangential electric field across the shock, in the
formulation that carries `B_φ'`. -/
theorem shock_E_jump (P : OdeArgs) (c : Conditions) (angles : List ℝ) (θ : ℝ) (s : St)
    (hE : P.use_E_r = false)
    (hD : s.η_O + s.η_A * (1 - (s.B_φ / B_mag s) ^ 2) ≠ 0) :
    tangentialE P θ (postShock c angles θ s) - tangentialE P θ s =
      (1 / s.v_θ - s.v_θ) * (s.B_φ + s.B_r *
        ((s.η_H * (s.B_θ / B_mag s) - s.η_A * (s.B_r / B_mag s) * (s.B_φ / B_mag s)) /
          (s.η_O + s.η_A * (1 - (s.B_φ / B_mag s) ^ 2)))) := by
  have hm : B_mag (postShock c angles θ s) = B_mag s := rfl
  have hx : s.η_O + s.η_A * (1 - s.B_φ / B_mag s) * (1 + s.B_φ / B_mag s) =
      s.η_O + s.η_A * (1 - (s.B_φ / B_mag s) ^ 2) := by ring
  simp only [tangentialE, electricOf, currentOf, rhsDerivs, rhsValues, hE,
    E_r_func, J_r_func, J_θ_func, J_φ_func, deriv_B_r_func, hm, hx]
  simp only [postShock, get_shock_modified_initial_conditions,
    Conditions.create_modified, get_v_θ_post, Bool.false_eq_true, if_false, hx]
  generalize s.η_O + s.η_A * (1 - (s.B_φ / B_mag s) ^ 2) = D at hD
  generalize s.B_φ / B_mag s = bφ
  generalize s.B_r / B_mag s = br
  generalize s.B_θ / B_mag s = bθ
  generalize 1 / s.v_θ = w
  field_simp
  ring

/-- C71. It is continuous exactly when the flow is sonic or a combination of the
field and the diffusivities vanishes. -/
theorem shock_E_iff (P : OdeArgs) (c : Conditions) (angles : List ℝ) (θ : ℝ) (s : St)
    (hE : P.use_E_r = false) (hv : 1 < s.v_θ)
    (hD : s.η_O + s.η_A * (1 - (s.B_φ / B_mag s) ^ 2) ≠ 0) :
    tangentialE P θ (postShock c angles θ s) = tangentialE P θ s ↔
      s.B_φ * (s.η_O + s.η_A * (1 - (s.B_φ / B_mag s) ^ 2)) + s.B_r *
        (s.η_H * (s.B_θ / B_mag s) - s.η_A * (s.B_r / B_mag s) * (s.B_φ / B_mag s)) =
          0 := by
  rw [← sub_eq_zero, shock_E_jump P c angles θ s hE hD]
  have h1 : 1 / s.v_θ - s.v_θ ≠ 0 := by
    have : 1 / s.v_θ < 1 := by rw [div_lt_one (by linarith)]; exact hv
    linarith
  rw [mul_eq_zero, or_iff_right h1]
  generalize s.η_O + s.η_A * (1 - (s.B_φ / B_mag s) ^ 2) = D at *
  rw [← mul_left_inj' hD, zero_mul]
  field_simp

/-- C71, what holds: in the other formulation the carried `E_r` itself is the same on
both sides, and so is the field. -/
theorem shock_E_partial (c : Conditions) (angles : List ℝ) (θ : ℝ) (s : St) :
    (postShock c angles θ s).X = s.X ∧ (postShock c angles θ s).B_r = s.B_r ∧
    (postShock c angles θ s).B_φ = s.B_φ ∧ (postShock c angles θ s).B_θ = s.B_θ :=
  ⟨rfl, rfl, rfl, rfl⟩

/-- C71 is false of the code: purely Ohmic diffusion and a toroidal field. -/
theorem shock_E_discontinuous :
    ∃ (P : OdeArgs) (c : Conditions) (angles : List ℝ) (θ : ℝ) (s : St),
      P.use_E_r = false ∧ 1 < s.v_θ ∧ 0 < s.ρ ∧ 0 < s.η_O ∧
      tangentialE P θ (postShock c angles θ s) ≠ tangentialE P θ s := by
  refine ⟨{ γ := 1/1000, a_0 := 1, norm_kepler_sq := 1000, init_con := St.zero },
    witShockC, [0, 1, 2], 1, { witShock with η_A := 0, η_H := 0 }, rfl,
    by norm_num [witShock], by norm_num [witShock], by norm_num [witShock], ?_⟩
  rw [Ne, shock_E_iff _ _ _ _ _ rfl (by norm_num [witShock]) (by norm_num [witShock])]
  norm_num [witShock]

example := shock_E_jump { γ := 1/1000, a_0 := 1, norm_kepler_sq := 1000, init_con := St.zero }
  witShockC [0, 1, 2] 1 { witShock with η_A := 0 } rfl (by norm_num [witShock])
example := shock_E_iff { γ := 1/1000, a_0 := 1, norm_kepler_sq := 1000, init_con := St.zero }
  witShockC [0, 1, 2] 1 { witShock with η_A := 0 } rfl (by norm_num [witShock])
  (by norm_num [witShock])

end DiscSolver
