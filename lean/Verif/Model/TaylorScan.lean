import Verif.Model.TaylorSpace
import Verif.Model.SingleRun
import Verif.Model.Midplane

/-!
# `ds-plot-taylor-space`

`src/disc_solver/solve/taylor_space.py:56-103,143-190`.  The random numbers are arguments.
Numbers are exact reals.  Drawing is outside the model.
-/

namespace DiscSolver.TaylorSpace

/-- `numpy.random.uniform` for a number drawn from `[0, 1)`, which does not mind `high`
below `low`. -/
noncomputable def uniform (low high u : ℝ) : ℝ := low + (high - low) * u

/-- An attribute used as a number; integers can be. -/
noncomputable def number : SVal ℝ → Except PyErr ℝ
  | .float x => .ok x
  | .int n => .ok n
  | _ => .error .TypeError

/-- The attributes `define_conditions` reads (`config.py:60-67,89,98`), here with integers
for some. -/
noncomputable def numInput (s : SolutionInput ℝ) : Except PyErr NumInput := do
  let v_rin_on_c_s ← number (s .v_rin_on_c_s)
  let v_a_on_c_s ← number (s .v_a_on_c_s)
  let c_s_on_v_k ← number (s .c_s_on_v_k)
  let γ ← number (s .γ)
  let η_O ← number (s .η_O)
  let η_A ← number (s .η_A)
  let η_H ← number (s .η_H)
  let use_E_r ← SingleRun.bool (s .use_E_r)
  let start ← number (s .start)
  let stop ← number (s .stop)
  let num_angles ← SingleRun.count (s .num_angles)
  pure { start, stop, num_angles, γ, v_rin_on_c_s, v_a_on_c_s, c_s_on_v_k, η_O, η_A, η_H,
         use_E_r }

/-- One entry of `taylor_orders`: the four orders. -/
structure Orders where
  zero : St
  first : St
  second : St
  third : St

/-- `compute_taylor_values` (`taylor_space.py:85-103`). -/
noncomputable def compute_taylor_values (s : SolutionInput ℝ) : Except PyErr Orders := do
  let inp ← numInput s
  match define_conditions inp with
  | none => .error .SolverError
  | some c =>
    .ok ⟨c.init_con, get_taylor_first_order c.init_con c.γ c.a_0,
      get_taylor_second_order c.init_con c.γ c.a_0 false inp.use_E_r,
      get_taylor_third_order c.init_con c.γ c.a_0 false inp.use_E_r⟩

/-- `TaylorSpace` (`taylor_space.py:43-53`). -/
structure Space where
  γ_arr : List ℝ
  v_rin_on_c_s_arr : List ℝ
  v_a_on_c_s_arr : List ℝ
  c_s_on_v_k_arr : List ℝ
  taylor_orders : List Orders

/-- `compute_taylor_space` (`taylor_space.py:56-82`) with its ranges; `u`, `v`, `w`, `x` are
the numbers drawn for the four parameters. -/
noncomputable def sampled_space (γ v_rin_on_c_s v_a_on_c_s c_s_on_v_k : ℝ × ℝ)
    (η_O η_A η_H : ℝ) (u v w x : List ℝ) : Except PyErr Space :=
  let γ_arr := u.map (uniform γ.1 γ.2)
  let v_rin_on_c_s_arr := v.map (uniform v_rin_on_c_s.1 v_rin_on_c_s.2)
  let v_a_on_c_s_arr := w.map (uniform v_a_on_c_s.1 v_a_on_c_s.2)
  let c_s_on_v_k_arr := x.map (uniform c_s_on_v_k.1 c_s_on_v_k.2)
  match compute_taylor_space compute_taylor_values γ_arr v_rin_on_c_s_arr v_a_on_c_s_arr
      c_s_on_v_k_arr η_O η_A η_H with
  | .error e => .error e
  | .ok taylor_orders =>
    .ok { γ_arr, v_rin_on_c_s_arr, v_a_on_c_s_arr, c_s_on_v_k_arr, taylor_orders }

/-- What `plot_taylor_space` hands to `spaceplots`, and the numbers it prints before. -/
structure Plot where
  xs : List (List ℝ)
  ys : List St
  printed : List ℝ
  input_names : List String
  output_names : List String
  limits : List (String × Option ℝ × Option ℝ)

/-- The names of `Parameters` (`taylor_space.py:32-40`). -/
def parameterNames : List String := ["γ", "v_rin_on_c_s", "v_a_on_c_s", "c_s_on_v_k"]

/-- The names of `ODEIndex` (`utils.py:57-72`); `E_r` is another name for `B_φ_prime`, and
not among the items. -/
def odeNames : List String :=
  ["B_r", "B_φ", "B_θ", "v_r", "v_φ", "v_θ", "ρ", "B_φ_prime", "η_O", "η_A", "η_H"]

/-- The transpose of `taylor_space.py:149-154`. -/
def rows : List ℝ → List ℝ → List ℝ → List ℝ → List (List ℝ)
  | a :: as, b :: bs, c :: cs, d :: ds => [a, b, c, d] :: rows as bs cs ds
  | _, _, _, _ => []

/-- `plot_taylor_space` (`taylor_space.py:143-170`).  Without samples there is nothing to
unpack into the four orders (`ValueError`). -/
noncomputable def plot_taylor_space (space : Space)
    (limits : List (String × Option ℝ × Option ℝ)) : Except PyErr Plot :=
  let ys := space.taylor_orders.map Orders.second
  match (ys.map St.v_r).min?, (ys.map St.v_φ).min? with
  | some a, some b =>
    .ok { xs := rows space.γ_arr space.v_rin_on_c_s_arr space.v_a_on_c_s_arr
            space.c_s_on_v_k_arr
          ys := ys
          printed := [a, b]
          input_names := parameterNames
          output_names := odeNames
          limits := limits }
  | _, _ => .error .ValueError

/-- The limits of `main` (`taylor_space.py:183-185`). -/
noncomputable def mainLimits : List (String × Option ℝ × Option ℝ) :=
  odeNames.map fun n =>
    if n = "v_r" ∨ n = "v_φ" then (n, some (-100), some 0) else (n, some 0, none)

/-- `main` (`taylor_space.py:173-190`). -/
noncomputable def main (u v w x : List ℝ) : Except PyErr Plot :=
  match sampled_space (1e-5, 1e-2) (0.1, 1.0) (0.1, 1.0) (0.05, 0.03) 0.005 0.001 0.008
      u v w x with
  | .error e => .error e
  | .ok space => plot_taylor_space space mainLimits

end DiscSolver.TaylorSpace
