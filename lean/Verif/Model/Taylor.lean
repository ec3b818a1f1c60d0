import Verif.Model.Midplane

/-!
# One large step off the midplane

The arithmetic of `taylor_jump`, `src/disc_solver/solve/solution.py:423-460`.
-/

namespace DiscSolver

/-- `solution.py:444-452`: `init + t (first + t/2 (second + t/3 third))`. -/
noncomputable def taylorStep (s d1 d2 d3 : St) (t : ℝ) : St :=
  s.add ((d1.add ((d2.add (d3.smul (t / 3))).smul (t / 2))).smul t)

/-- `solution.py:434-452` (`taylor_jump`): the values reached at the scaled stop
angle `t`. -/
noncomputable def taylor_values (init_con : St) (γ a_0 : ℝ)
    (η_derivs use_E_r : Bool) (t : ℝ) : St :=
  taylorStep init_con (get_taylor_first_order init_con γ a_0)
    (get_taylor_second_order init_con γ a_0 η_derivs use_E_r)
    (get_taylor_third_order init_con γ a_0 η_derivs use_E_r) t

end DiscSolver
