import Mathlib.Analysis.SpecialFunctions.Pow.Real
import Mathlib.Analysis.SpecialFunctions.Trigonometric.Basic
import Verif.Model.State

/-!
# Rescaling and coordinate conversion

`src/disc_solver/utils.py:134-146, 180-326`.
-/

namespace DiscSolver

/-- `DiscSolverError`, `src/disc_solver/utils.py:41-45`. -/
inductive ScaleError where
  | E_r_not_supported
deriving DecidableEq, Repr

/-- `utils.py:180-220` (`scale_solution_to_radii`) on one row; the branch on
`ndim` in the code applies the same formulas to every row
(see `scale_rows`). -/
noncomputable def scale_solution_to_radii (soln : St) (new_r γ : ℝ)
    (use_E_r : Bool) : Except ScaleError St :=
  let v_scale := 1 / Real.sqrt new_r
  let B_scale := new_r ^ (γ - 5 / 4)
  let ρ_scale := new_r ^ (2 * γ - 3 / 2)
  let η_scale := Real.sqrt new_r
  if use_E_r then .error .E_r_not_supported
  else .ok
    { v_r := v_scale * soln.v_r, v_φ := v_scale * soln.v_φ,
      v_θ := v_scale * soln.v_θ, B_r := B_scale * soln.B_r,
      B_φ := B_scale * soln.B_φ, B_θ := B_scale * soln.B_θ,
      ρ := ρ_scale * soln.ρ, η_O := η_scale * soln.η_O,
      η_A := η_scale * soln.η_A, η_H := η_scale * soln.η_H,
      X := B_scale * soln.X }

/-- `utils.py:203-218`: the two-dimensional branch, one radius per row (numpy
broadcasting of `v_scale * soln[:, idx].T`).  The lists have equal length in
every call site; `zip` stands for the broadcast. -/
noncomputable def scale_rows (rows : List St) (radii : List ℝ) (γ : ℝ)
    (use_E_r : Bool) : Except ScaleError (List St) :=
  (rows.zip radii).mapM fun p => scale_solution_to_radii p.1 p.2 γ use_E_r

/-- `utils.py:223-227` (`get_heights`), one angle. -/
noncomputable def get_heights (angle c_s_on_v_k : ℝ) : ℝ :=
  Real.tan angle / c_s_on_v_k

/-- `utils.py:230-235` (`get_vertical_scaling`), one angle. -/
noncomputable def get_vertical_scaling (angle c_s_on_v_k : ℝ) : ℝ :=
  Real.sqrt (1 + get_heights angle c_s_on_v_k ^ 2)

/-- `utils.py:238-247` (`convert_solution_to_vertical`), one row. -/
noncomputable def convert_solution_to_vertical (angle : ℝ) (soln : St)
    (γ c_s_on_v_k : ℝ) (use_E_r : Bool) : Except ScaleError (ℝ × St) :=
  match scale_solution_to_radii soln (get_vertical_scaling angle c_s_on_v_k) γ
      use_E_r with
  | .error e => .error e
  | .ok s => .ok (get_heights angle c_s_on_v_k, s)

/-- `utils.py:250-257` (`spherical_r_θ_to_cylindrical_R_z`), one angle. -/
noncomputable def spherical_r_θ_to_cylindrical_R_z (r_var θ_var angle : ℝ) :
    ℝ × ℝ :=
  (r_var * Real.cos angle - θ_var * Real.sin angle,
   θ_var * Real.cos angle + r_var * Real.sin angle)

/-- One cylindrical row, `utils.py:75-90` (`CylindricalODEIndex`). -/
structure CylSt where
  B_R : ℝ
  B_φ : ℝ
  B_z : ℝ
  v_R : ℝ
  v_φ : ℝ
  v_z : ℝ
  ρ : ℝ
  X : ℝ
  η_O : ℝ
  η_A : ℝ
  η_H : ℝ

/-- `utils.py:260-326` (`convert_spherical_to_cylindrical`), one row. -/
noncomputable def convert_spherical_to_cylindrical (angle : ℝ) (soln : St)
    (use_E_r : Bool) (γ c_s_on_v_k : ℝ) : Except ScaleError (ℝ × CylSt) :=
  if use_E_r then .error .E_r_not_supported
  else
    match convert_solution_to_vertical angle soln γ c_s_on_v_k use_E_r with
    | .error e => .error e
    | .ok (heights, soln) =>
      let v := spherical_r_θ_to_cylindrical_R_z soln.v_r soln.v_θ angle
      let B := spherical_r_θ_to_cylindrical_R_z soln.B_r soln.B_θ angle
      .ok (heights,
        { v_φ := soln.v_φ, B_φ := soln.B_φ, ρ := soln.ρ, η_O := soln.η_O,
          η_A := soln.η_A, η_H := soln.η_H, v_R := v.1, v_z := v.2,
          B_R := B.1, B_z := B.2, X := soln.X })

/-- `utils.py:134-146` (`get_normalisation`); `G` from `constants.py`. -/
noncomputable def get_normalisation (G c_s_on_v_k v_a_on_c_s radius mass
    density : ℝ) : ℝ × ℝ × ℝ × ℝ :=
  let kepler_sq := G * mass / radius
  let c_s := c_s_on_v_k * Real.sqrt kepler_sq
  let v_a := v_a_on_c_s * c_s
  (c_s, v_a * 2 * Real.sqrt (Real.pi * density), density, radius * c_s)

end DiscSolver
