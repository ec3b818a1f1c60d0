import Verif.Model.Ode
import Verif.Model.Containers

/-!
# The right-hand side as a stateful callback

`rhs_equation` with the internal data it records
(`src/disc_solver/solve/solution.py:76-90,93-302`), `InternalData` and
`JacobianData` (`src/disc_solver/file_format/_containers.py:381-506`).
-/

namespace DiscSolver

/-- `JacobianData` (`_containers.py:381-389`). -/
structure JacobianData where
  jacobians : List (St → St) := []
  derivs : List St := []
  params : List St := []
  angles : List ℝ := []

namespace JacobianData

/-- `JacobianData.__add__` (`_containers.py:409-419`).  `_finalise` turns lists
into arrays and is not modelled. -/
def add (a b : JacobianData) : JacobianData :=
  { derivs := a.derivs ++ b.derivs, params := a.params ++ b.params,
    angles := a.angles ++ b.angles, jacobians := a.jacobians ++ b.jacobians }

/-- `JacobianData.flip` (`_containers.py:421-429`). -/
def flip (a : JacobianData) : JacobianData :=
  { derivs := a.derivs.reverse, params := a.params.reverse,
    angles := a.angles.reverse, jacobians := a.jacobians.reverse }

/-- `jacobian_viewer` (`solution.py:316-328`): one view of the solver's
Jacobian. -/
def view (a : JacobianData) (θ : ℝ) (params derivs : St) (jac : St → St) :
    JacobianData :=
  { angles := a.angles ++ [θ], params := a.params ++ [params],
    derivs := a.derivs ++ [derivs], jacobians := a.jacobians ++ [jac] }

end JacobianData

/-- `InternalData` (`_containers.py:433-449`). -/
structure InternalData where
  derivs : List St := []
  params : List St := []
  angles : List ℝ := []
  jacobian_data : JacobianData := {}
  v_r_normal : List ℝ := []
  v_φ_normal : List ℝ := []
  ρ_normal : List ℝ := []
  v_r_taylor : List ℝ := []
  v_φ_taylor : List ℝ := []
  ρ_taylor : List ℝ := []
  problems : Problems := []

namespace InternalData

/-- `InternalData.__add__` (`_containers.py:472-489`). -/
def add (a b : InternalData) : InternalData :=
  { derivs := a.derivs ++ b.derivs, params := a.params ++ b.params,
    angles := a.angles ++ b.angles,
    jacobian_data := a.jacobian_data.add b.jacobian_data,
    v_r_normal := a.v_r_normal ++ b.v_r_normal,
    v_φ_normal := a.v_φ_normal ++ b.v_φ_normal,
    ρ_normal := a.ρ_normal ++ b.ρ_normal,
    v_r_taylor := a.v_r_taylor ++ b.v_r_taylor,
    v_φ_taylor := a.v_φ_taylor ++ b.v_φ_taylor,
    ρ_taylor := a.ρ_taylor ++ b.ρ_taylor,
    problems := Problems.join a.problems b.problems }

/-- `InternalData.flip` (`_containers.py:491-506`). -/
def flip (a : InternalData) : InternalData :=
  { derivs := a.derivs.reverse, params := a.params.reverse,
    angles := a.angles.reverse, jacobian_data := a.jacobian_data.flip,
    v_r_normal := a.v_r_normal.reverse, v_φ_normal := a.v_φ_normal.reverse,
    ρ_normal := a.ρ_normal.reverse, v_r_taylor := a.v_r_taylor.reverse,
    v_φ_taylor := a.v_φ_taylor.reverse, ρ_taylor := a.ρ_taylor.reverse,
    problems := a.problems }

end InternalData

/-- What one callback leaves behind: the return code, the caller's derivative
array and the internal data (`none` when `store_internal` is off). -/
structure RhsOutcome where
  code : ℤ
  derivs : St
  internal : Option InternalData

/-- One call `rhs_equation(x, params, derivs)` (`solution.py:93-302`).  `buf` is
the contents of the caller's `derivs` array, `str` how Python prints an angle. -/
noncomputable def rhs_call (P : OdeArgs) (str : ℝ → String)
    (internal : Option InternalData) (x : ℝ) (params buf : St) : RhsOutcome :=
  let θ := scaled_to_rad x P.θ_scale
  if params.ρ < 0 then
    { code := 1, derivs := buf,
      internal := internal.map fun d =>
        { d with problems := d.problems.append str (.num θ) "negative density" } }
  else if params.v_θ < 0 then
    { code := -1, derivs := buf,
      internal := internal.map fun d =>
        { d with problems := d.problems.append str (.num θ) "negative velocity" } }
  else
    let v := rhsValues P θ params
    { code := 0, derivs := v.derivs,
      internal := internal.map fun d =>
        { d with
          params := d.params ++ [params]
          derivs := d.derivs ++ [v.derivs]
          angles := d.angles ++ [θ]
          v_r_normal := d.v_r_normal ++ [v.v_r_normal]
          v_φ_normal := d.v_φ_normal ++ [v.v_φ_normal]
          ρ_normal := d.ρ_normal ++ [v.ρ_normal]
          v_r_taylor := d.v_r_taylor ++ [v.v_r_taylor]
          v_φ_taylor := d.v_φ_taylor ++ [v.v_φ_taylor]
          ρ_taylor := d.ρ_taylor ++ [v.ρ_taylor] } }

/-- One call of a history: scaled angle, state, contents of the derivative
array. -/
structure Call where
  x : ℝ
  s : St
  buf : St

/-- The internal data after a sequence of calls. -/
noncomputable def afterCalls (P : OdeArgs) (str : ℝ → String)
    (d : Option InternalData) (calls : List Call) : Option InternalData :=
  calls.foldl (fun d c => (rhs_call P str d c.x c.s c.buf).internal) d

end DiscSolver
