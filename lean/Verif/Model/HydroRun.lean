import Verif.Model.Solution
import Verif.Model.Hydro
import Verif.Model.ModHydro

/-!
# Running the hydrostatic solvers

`src/disc_solver/solve/hydrostatic.py:351-685` and
`src/disc_solver/solve/mod_hydro.py:310-730`: what a callback records, the one
integration that is asked for, and the `Solution` made of its result.  As in
`Model/Solution`, the integrator is a parameter and the calls to it are logged;
tolerances and `max_steps` are passed on unchanged and left out, and so are the
log messages.
-/

namespace DiscSolver

/-- One call of the integrator (`hydrostatic.py:583-600`, `mod_hydro.py:635-652`),
with the arguments `args` of the system that is integrated. -/
structure HydroRequest (A : Type) where
  args : A
  store_internal : Bool
  rootfn : Option RootFn := none
  nr_rootfns : Option ℕ := none
  has_onroot : Bool := false
  tstop : Option ℝ := none
  has_ontstop : Bool := false
  angles : List ℝ
  init : St

/-- A computation that may raise, with the integrations it asked for. -/
structure HydroRun (A α : Type) where
  log : List (HydroRequest A)
  result : Except PyErr α

/-- Keyword arguments of `solution` (`hydrostatic.py:624-628`,
`mod_hydro.py:681-685`) that both solvers have. -/
structure HydroArgs where
  root_func : Option RootFn := none
  root_func_args : Option ℕ := none
  has_onroot : Bool := false
  tstop : Option ℝ := none
  has_ontstop : Bool := false
  store_internal : Bool := true
  θ_scale : ℝ := 1

/-- The integration that is asked for (`hydrostatic.py:567-600`,
`mod_hydro.py:619-652`). -/
noncomputable def hydro_plan {A : Type} (args : A) (h : HydroArgs)
    (angles : List ℝ) (init : St) : Except PyErr (HydroRequest A) :=
  let base : HydroRequest A :=
    { args := args, store_internal := h.store_internal, has_onroot := h.has_onroot,
      tstop := h.tstop.map (fun x => rad_to_scaled x h.θ_scale),
      has_ontstop := h.has_ontstop, angles := angles, init := init }
  match h.root_func with
  | none => .ok base
  | some f =>
    match h.root_func_args with
    | some n => .ok { base with rootfn := some f, nr_rootfns := some n }
    | none => .error .SolverError

/-- What happens to the three exceptions of the integrator
(`hydrostatic.py:602-619`, `mod_hydro.py:654-671`). -/
def hydro_result (out : Integration) : Except PyErr CvSoln :=
  if out.ending = .failed ∧ out.soln.flag = .TOO_CLOSE then .error .CVODESolveFailed
  else .ok out.soln

/-- The `Solution` that is returned, as far as it is filled in
(`hydrostatic.py:663-672`, `mod_hydro.py:707-716`), with the initial conditions
it refers to.  `is_post_shock_only` keeps its default
(`src/disc_solver/file_format/_containers.py:88`). -/
structure HydroSolution where
  out : SolutionOut
  initial_conditions : Conditions

/-- `hydrostatic.py:663-672`, `mod_hydro.py:707-716`. -/
noncomputable def hydroSolutionOf (θ_scale : ℝ) (c : Conditions) (soln : CvSoln)
    (internal : Option InternalData) : HydroSolution :=
  { initial_conditions := c
    out :=
      { flag := soln.flag, internal_data := internal,
        angles := soln.t.map (fun x => scaled_to_rad x θ_scale),
        solution := soln.y,
        t_roots := soln.roots_t.map (·.map fun x => scaled_to_rad x θ_scale),
        y_roots := soln.roots_y, is_post_shock_only := false } }

namespace Hydro

/-- One call `rhs_equation(x, params, derivs)` (`hydrostatic.py:372-553`).  `buf`
is the contents of the caller's `derivs` array. -/
noncomputable def rhs_call (P : Args) (str : ℝ → String)
    (internal : Option InternalData) (x : ℝ) (params buf : St) : RhsOutcome :=
  let θ := scaled_to_rad x P.θ_scale
  if params.ρ < 0 then
    { code := 1, derivs := buf,
      internal := internal.map fun d =>
        { d with problems := d.problems.append str (.num θ) "negative density" } }
  else if discriminant P θ params < 0 then
    { code := 1, derivs := buf, internal := internal }
  else
    let v := rhsDerivs P θ params
    { code := 0, derivs := v,
      internal := internal.map fun d =>
        { d with
          params := d.params ++ [params]
          derivs := d.derivs ++ [v]
          angles := d.angles ++ [θ] } }

/-- The internal data after a sequence of calls. -/
noncomputable def afterCalls (P : Args) (str : ℝ → String)
    (d : Option InternalData) (calls : List Call) : Option InternalData :=
  calls.foldl (fun d c => (rhs_call P str d c.x c.s c.buf).internal) d

/-- `hydrostatic_solution` (`hydrostatic.py:557-621`). -/
noncomputable def hydrostatic_solution (I : HydroRequest Args → Integration)
    (str : ℝ → String) (P : Args) (h : HydroArgs) (angles : List ℝ) (init : St) :
    HydroRun Args (CvSoln × Option InternalData) :=
  match hydro_plan P h angles init with
  | .error e => ⟨[], .error e⟩
  | .ok req =>
    let out := I req
    let internal := afterCalls P str
      (if h.store_internal then some {} else none) out.calls
    ⟨[req], (hydro_result out).map fun soln => (soln, internal)⟩

/-- `init_con[VELOCITY_INDEXES] = 0` (`hydrostatic.py:652`; the indices are listed
at `src/disc_solver/utils.py:94`). -/
noncomputable def zeroVelocities (s : St) : St :=
  { s with v_r := 0, v_φ := 0, v_θ := 0 }

/-- The initial conditions object after the velocities may have been zeroed in
place (`hydrostatic.py:644-652`).  `double` says whether the float type is one the
root solver works with. -/
noncomputable def fixedConditions (double no_v_deriv : Bool) (c : Conditions) :
    Conditions :=
  if no_v_deriv ∧ double then { c with init_con := zeroVelocities c.init_con }
  else c

/-- `solution` (`hydrostatic.py:624-672`): the run and the caller's initial
conditions afterwards.  `η_derivs` and `use_E_r` are read from the input. -/
noncomputable def solution (I : HydroRequest Args → Integration)
    (str : ℝ → String) (double η_derivs use_E_r no_v_deriv : Bool)
    (c : Conditions) (h : HydroArgs) : HydroRun Args HydroSolution × Conditions :=
  if use_E_r then (⟨[], .error .SolverError⟩, c)
  else
    let c' := fixedConditions double no_v_deriv c
    let P : Args :=
      { a_0 := c'.a_0, norm_kepler_sq := c'.norm_kepler_sq, init_con := c'.init_con,
        θ_scale := h.θ_scale, η_derivs := η_derivs,
        no_v_deriv := no_v_deriv && double }
    let r := hydrostatic_solution I str P h c'.angles c'.init_con
    (⟨r.log, r.result.map fun p => hydroSolutionOf h.θ_scale c' p.1 p.2⟩, c')

/-- `solver` (`hydrostatic.py:675-685`), with the integrations asked for. -/
noncomputable def runSolver {μ : Type} (I : HydroRequest Args → Integration)
    (str : ℝ → String) (double η_derivs store_internal : Bool) (inp : NumInput)
    (run : Run μ HydroSolution) : Run μ HydroSolution × Except PyErr Bool :=
  solver (fun c => (solution I str double η_derivs inp.use_E_r false c
    { store_internal := store_internal }).1.result) inp run

end Hydro

namespace ModHydro

/-- The root tracker made by `v_r_func_generator` (`mod_hydro.py:233-240`,
`CubicTracker` of an external package): a memory, which starts from a given root
and is replaced at every call, and the root that is answered. -/
structure Tracker where
  Memory : Type
  start : ℝ → Memory
  solve : Memory → ℝ × ℝ × ℝ × ℝ → ℝ × Memory

/-- The arguments of `ode_system` without the tracker (`mod_hydro.py:371-374`). -/
structure SystemArgs where
  a_0 : ℝ
  norm_kepler_sq : ℝ
  init_con : St
  θ_scale : ℝ := 1
  η_derivs : Bool := true
  use_E_r : Bool := false

/-- The right-hand side's arguments when the tracker has the memory `m`. -/
def SystemArgs.withTracker (S : SystemArgs) (T : Tracker) (m : T.Memory) : Args :=
  { a_0 := S.a_0, norm_kepler_sq := S.norm_kepler_sq, init_con := S.init_con,
    θ_scale := S.θ_scale, η_derivs := S.η_derivs, use_E_r := S.use_E_r,
    tracker := fun p => (T.solve m p).1 }

/-- The cubic of `v_r_func` at a state (`mod_hydro.py:420-447`, and
`mod_hydro.py:336-354` in `fix_solution`). -/
noncomputable def cubicAt (a_0 norm_kepler_sq θ : ℝ) (s : St) : ℝ × ℝ × ℝ × ℝ :=
  let b_r := s.B_r / B_mag s
  let b_φ := s.B_φ / B_mag s
  let b_θ := s.B_θ / B_mag s
  let C := C_func (η_O := s.η_O) (η_A := s.η_A) (η_H := s.η_H) (b_θ := b_θ)
    (b_r := b_r) (b_φ := b_φ)
  let Z_5 := Z_5_func (η_O := s.η_O) (η_A := s.η_A) (η_H := s.η_H)
    (b_r := b_r) (b_θ := b_θ) (b_φ := b_φ) (C := C)
  v_r_coeffs (θ := θ) (a_0 := a_0) (norm_kepler := Real.sqrt norm_kepler_sq)
    (ρ := s.ρ) (Z_5 := Z_5)
    (Z_8 := Z_8_func (θ := θ) (b_r := b_r) (b_θ := b_θ) (b_φ := b_φ)
      (B_φ := s.B_φ) (η_O := s.η_O) (η_A := s.η_A) (η_H := s.η_H) (E_r := s.X)
      (Z_5 := Z_5) (C := C))
    (B_r := s.B_r) (B_θ := s.B_θ) (B_φ := s.B_φ) (b_r := b_r) (b_θ := b_θ)
    (b_φ := b_φ) (η_O := s.η_O) (η_A := s.η_A) (η_H := s.η_H) (C := C)
    (X := Hydro.X_func (η_O := s.η_O) (η_A := s.η_A) (η_H := s.η_H) (b_θ := b_θ)
      (b_r := b_r) (b_φ := b_φ))

/-- The tracker's memory after it was asked at a state. -/
noncomputable def remember (S : SystemArgs) (T : Tracker) (m : T.Memory) (θ : ℝ)
    (s : St) : T.Memory :=
  (T.solve m (cubicAt S.a_0 S.norm_kepler_sq θ s)).2

/-- What one callback leaves behind: besides the outcome, the parameter array and
the tracker's memory. -/
structure ModOutcome (M : Type) where
  code : ℤ
  params : St
  derivs : St
  internal : Option InternalData
  memory : M

/-- One call `rhs_equation(x, params, derivs)` (`mod_hydro.py:397-605`). -/
noncomputable def rhs_call (S : SystemArgs) (T : Tracker) (str : ℝ → String)
    (m : T.Memory) (internal : Option InternalData) (x : ℝ) (params buf : St) :
    ModOutcome T.Memory :=
  let θ := scaled_to_rad x S.θ_scale
  let P := S.withTracker T m
  if params.ρ < 0 then
    { code := 1, params := params, derivs := buf, memory := m,
      internal := internal.map fun d =>
        { d with problems := d.problems.append str (.num θ) "negative density" } }
  else
    let s := if S.use_E_r then withVelocities P θ params else params
    let v := if S.use_E_r then derivsE P θ s else derivsB P θ s
    { code := 0, params := s, derivs := v,
      memory := if S.use_E_r then remember S T m θ params else m,
      internal := internal.map fun d =>
        { d with
          params := d.params ++ [s]
          derivs := d.derivs ++ [v]
          angles := d.angles ++ [θ] } }

/-- The tracker's memory and the internal data after a sequence of calls. -/
noncomputable def afterCalls (S : SystemArgs) (T : Tracker) (str : ℝ → String) :
    T.Memory → Option InternalData → List Call → T.Memory × Option InternalData
  | m, d, [] => (m, d)
  | m, d, c :: calls =>
    let o := rhs_call S T str m d c.x c.s c.buf
    afterCalls S T str o.memory o.internal calls

/-- The loop of `fix_solution` (`mod_hydro.py:325-366`): the rows are rewritten in
place, in order, as far as there are angles. -/
noncomputable def fixRows (S : SystemArgs) (T : Tracker) :
    T.Memory → List ℝ → List St → List St
  | m, x :: xs, s :: rows =>
    withVelocities (S.withTracker T m) (scaled_to_rad x S.θ_scale) s ::
      fixRows S T (remember S T m (scaled_to_rad x S.θ_scale) s) xs rows
  | _, _, rows => rows

/-- `fix_solution` (`mod_hydro.py:310-368`).  The tracker is a new one. -/
noncomputable def fix_solution (S : SystemArgs) (T : Tracker) (soln : CvSoln) :
    CvSoln :=
  if S.use_E_r then
    { soln with y := fixRows S T (T.start S.init_con.v_r) soln.t soln.y }
  else soln

/-- `mod_hydro_solution` (`mod_hydro.py:609-678`). -/
noncomputable def mod_hydro_solution (I : HydroRequest SystemArgs → Integration)
    (str : ℝ → String) (T : Tracker) (S : SystemArgs) (h : HydroArgs)
    (angles : List ℝ) (init : St) :
    HydroRun SystemArgs (CvSoln × Option InternalData) :=
  match hydro_plan S h angles init with
  | .error e => ⟨[], .error e⟩
  | .ok req =>
    let out := I req
    let internal := (afterCalls S T str (T.start S.init_con.v_r)
      (if h.store_internal then some {} else none) out.calls).2
    ⟨[req], (hydro_result out).map fun soln => (fix_solution S T soln, internal)⟩

/-- `solution` (`mod_hydro.py:681-716`). -/
noncomputable def solution (I : HydroRequest SystemArgs → Integration)
    (str : ℝ → String) (T : Tracker) (η_derivs use_E_r : Bool) (c : Conditions)
    (h : HydroArgs) : HydroRun SystemArgs HydroSolution :=
  let S : SystemArgs :=
    { a_0 := c.a_0, norm_kepler_sq := c.norm_kepler_sq, init_con := c.init_con,
      θ_scale := h.θ_scale, η_derivs := η_derivs, use_E_r := use_E_r }
  let r := mod_hydro_solution I str T S h c.angles c.init_con
  ⟨r.log, r.result.map fun p => hydroSolutionOf h.θ_scale c p.1 p.2⟩

/-- `solver` (`mod_hydro.py:719-729`). -/
noncomputable def runSolver {μ : Type} (I : HydroRequest SystemArgs → Integration)
    (str : ℝ → String) (T : Tracker) (η_derivs store_internal : Bool)
    (inp : NumInput) (run : Run μ HydroSolution) :
    Run μ HydroSolution × Except PyErr Bool :=
  solver (fun c => (solution I str T η_derivs inp.use_E_r c
    { store_internal := store_internal }).result) inp run

end ModHydro

end DiscSolver
