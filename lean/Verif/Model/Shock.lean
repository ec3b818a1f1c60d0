import Verif.Model.Conditions
import Verif.Model.Py

/-!
# Shocks

`src/disc_solver/solve/shock.py:25-81`.
-/

namespace DiscSolver

/-- `shock.py:25-29` (`get_v_θ_post`). -/
noncomputable def get_v_θ_post (v_θ_pre : ℝ) : ℝ := 1 / v_θ_pre

/-- `shock.py:32-36` (`get_ρ_post`). -/
noncomputable def get_ρ_post (v_θ_pre ρ_pre : ℝ) : ℝ := ρ_pre * v_θ_pre ^ 2

/-- `InitialConditions.create_modified` (`file_format/_containers.py:700-709`):
`attr.evolve` with a new row and new angles.  The diffusivities are passed as `None`
and so are read from the new row. -/
def Conditions.create_modified (c : Conditions) (init_con : St) (angles : List ℝ) :
    Conditions := { c with init_con := init_con, angles := angles }

/-- `shock.py:39-58` (`get_shock_modified_initial_conditions`), without the
message it prints. -/
noncomputable def get_shock_modified_initial_conditions (initial_conditions : Conditions)
    (angles : List ℝ) (jump_θ : ℝ) (pre_jump_values : St) : Conditions :=
  let v_θ_pre := pre_jump_values.v_θ
  let ρ_pre := pre_jump_values.ρ
  let v_θ_post := get_v_θ_post v_θ_pre
  let ρ_post := get_ρ_post v_θ_pre ρ_pre
  let post_jump_values := { pre_jump_values with v_θ := v_θ_post, ρ := ρ_post }
  let post_jump_angles :=
    open Classical in angles.filter fun a => decide (jump_θ ≤ a)
  initial_conditions.create_modified post_jump_values post_jump_angles

/-- `numpy.nanargmax` for data without NaN: the first position of the largest
value, `ValueError` for an empty array. -/
noncomputable def nanargmax : List ℝ → Except PyErr ℕ
  | [] => .error .ValueError
  | x :: l => open Classical in
    .ok ((x :: l).findIdx fun y => decide (∀ z ∈ x :: l, z ≤ y))

/-- The angle limit of `find_shock_test_values` (`shock.py:70-73`) for a solution given
as its list of `(angle, row)` pairs, without NaN. -/
noncomputable def shock_min_angle (soln : List (ℝ × St)) (min_angle : ℝ)
    (post_max : Bool) : Except PyErr ℝ :=
  if post_max then
    match nanargmax (soln.map fun p => p.2.v_θ) with
    | .error e => .error e
    | .ok i =>
      match (soln.map Prod.fst)[i]? with
      | some a => .ok (max (radians min_angle) a)
      | none => .error .IndexError
  else .ok (radians min_angle)

/-- `shock.py:61-81` (`find_shock_test_values`) for a solution given as its list of
`(angle, row)` pairs, without NaN. -/
noncomputable def find_shock_test_values (soln : List (ℝ × St))
    (min_v_θ_pre : ℝ := 1) (max_v_θ_pre : ℝ := 10) (min_angle : ℝ := 40)
    (post_max : Bool := true) : Except PyErr (List (ℝ × St)) :=
  match shock_min_angle soln min_angle post_max with
  | .error e => .error e
  | .ok min_angle_rad =>
    .ok <| open Classical in soln.filter fun p =>
      decide (min_v_θ_pre < p.2.v_θ ∧ p.2.v_θ < max_v_θ_pre ∧ min_angle_rad < p.1)

end DiscSolver
