import Verif.Model.Inputs

/-!
# Scanning parameter space

`src/disc_solver/solve/taylor_space.py`.  Sampling and what is plotted are in `Model/TaylorScan`.
-/

namespace DiscSolver

namespace TaylorSpace

variable {F : Type}

/-- The `SolutionInput` built for one sample (`taylor_space.py:120-140`), with the
defaults of `_containers.py:270-278`. -/
def sampleInput (γ v_rin_on_c_s v_a_on_c_s c_s_on_v_k η_O η_A η_H : F) :
    SolutionInput F
  | .start => .int 0
  | .stop => .int 0
  | .taylor_stop_angle => .none
  | .max_steps => .none
  | .num_angles => .int 0
  | .relative_tolerance => .none
  | .absolute_tolerance => .none
  | .nwalkers => .none
  | .iterations => .none
  | .threads => .none
  | .target_velocity => .none
  | .split_method => .none
  | .γ => .float γ
  | .v_rin_on_c_s => .float v_rin_on_c_s
  | .v_a_on_c_s => .float v_a_on_c_s
  | .c_s_on_v_k => .float c_s_on_v_k
  | .η_O => .float η_O
  | .η_H => .float η_A
  | .η_A => .float η_H
  | .η_derivs => .bool true
  | .jump_before_sonic => .none
  | .use_taylor_jump => .bool true
  | .mcmc_vars => .none
  | .v_θ_sonic_crit => .none
  | .after_sonic => .none
  | .sonic_interp_size => .none
  | .interp_range => .int 10
  | .interp_slice => .slice ⟨some (-1000), some (-100), none⟩
  | .use_E_r => .bool false

/-- The loop of `solution_input_generator` over samples of equal number. -/
def inputs (η_O η_A η_H : F) : List F → List F → List F → List F →
    List (SolutionInput F)
  | g :: gs, r :: rs, a :: as, c :: cs =>
    sampleInput g r a c η_O η_A η_H :: inputs η_O η_A η_H gs rs as cs
  | _, _, _, _ => []

/-- `solution_input_generator` (`taylor_space.py:106-140`), run to its end. -/
def solution_input_generator (γ v_rin_on_c_s v_a_on_c_s c_s_on_v_k : List F)
    (η_O η_A η_H : F) : Except PyErr (List (SolutionInput F)) :=
  if γ.length ≠ v_rin_on_c_s.length then .error .RuntimeError
  else if γ.length ≠ v_a_on_c_s.length then .error .RuntimeError
  else if γ.length ≠ c_s_on_v_k.length then .error .RuntimeError
  else .ok (inputs η_O η_A η_H γ v_rin_on_c_s v_a_on_c_s c_s_on_v_k)

/-- `compute_taylor_space` (`taylor_space.py:56-82`) after sampling: one row for each
input, from `compute_taylor_values`. -/
def compute_taylor_space {τ : Type}
    (compute_taylor_values : SolutionInput F → Except PyErr τ)
    (γ v_rin_on_c_s v_a_on_c_s c_s_on_v_k : List F) (η_O η_A η_H : F) :
    Except PyErr (List τ) :=
  match solution_input_generator γ v_rin_on_c_s v_a_on_c_s c_s_on_v_k η_O η_A η_H with
  | .error e => .error e
  | .ok l => l.mapM compute_taylor_values

end TaylorSpace

end DiscSolver
