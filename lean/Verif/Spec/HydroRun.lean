import Verif.Model.HydroRun

/-!
# What a hydrostatic run should report

Stated with the data types only.
-/

namespace DiscSolver.Spec

/-- The request is for the integration of the state `init` over `angles`, with the
stopping conditions of `h`, the stop angle being on the integrator's scale. -/
structure Asks {A : Type} (req : HydroRequest A) (args : A) (h : HydroArgs)
    (angles : List ℝ) (init : St) : Prop where
  args : req.args = args
  angles : req.angles = angles
  init : req.init = init
  rootfn : req.rootfn = h.root_func
  nr_rootfns : req.nr_rootfns = if h.root_func.isSome then h.root_func_args else none
  onroot : req.has_onroot = h.has_onroot
  tstop : req.tstop = h.tstop.map (· / h.θ_scale)
  ontstop : req.has_ontstop = h.has_ontstop
  store : req.store_internal = h.store_internal

/-- The solution reports the integration `soln` with the given rows: the flag and
the states at the roots are the integrator's, angles are in radians, and the
solution refers to the initial conditions `c`. -/
structure Reports (sol : HydroSolution) (θ_scale : ℝ) (soln : CvSoln)
    (rows : List St) (c : Conditions) : Prop where
  flag : sol.out.flag = soln.flag
  angles : sol.out.angles = soln.t.map (· * θ_scale)
  rows : sol.out.solution = rows
  t_roots : sol.out.t_roots = soln.roots_t.map (List.map (· * θ_scale))
  y_roots : sol.out.y_roots = soln.roots_y
  whole : sol.out.is_post_shock_only = false
  conditions : sol.initial_conditions = c

/-- The internal data holds one entry for each of `rows` (angle, parameters,
derivatives), in order, and nothing of the data only the full solver records. -/
structure Records (d : InternalData) (rows : List (ℝ × St × St)) : Prop where
  angles : d.angles = rows.map (·.1)
  params : d.params = rows.map (·.2.1)
  derivs : d.derivs = rows.map (·.2.2)
  jacobians : d.jacobian_data.jacobians = [] ∧ d.jacobian_data.angles = [] ∧
    d.jacobian_data.params = [] ∧ d.jacobian_data.derivs = []
  normals : d.v_r_normal = [] ∧ d.v_φ_normal = [] ∧ d.ρ_normal = []
  taylors : d.v_r_taylor = [] ∧ d.v_φ_taylor = [] ∧ d.ρ_taylor = []

/-- The state apart from the two horizontal velocities. -/
def SameButVelocities (s s' : St) : Prop :=
  s' = { s with v_r := s'.v_r, v_φ := s'.v_φ }

end DiscSolver.Spec
