import Verif.Model.Rhs
import Verif.Model.Taylor
import Verif.Model.Slice

/-!
# Finding a solution

`src/disc_solver/solve/solution.py:335-784`: the Taylor start, the main
integration, the two ways of crossing the sonic point, and `solution`, which
joins their results.  The integrator is a parameter; every call to it is logged.
Tolerances and `max_steps` are passed on unchanged by the code and left out.
-/

namespace DiscSolver

/-- `StatusEnum` of scikits.odes; `OTHER` stands for the remaining failures. -/
inductive StatusFlag where
  | SUCCESS
  | TSTOP_RETURN
  | ROOT_RETURN
  | TOO_CLOSE
  | OTHER (code : Int)
deriving DecidableEq

/-- A root function: angle and state to the values whose zeros stop the
integration. -/
abbrev RootFn := ℝ → St → List ℝ

/-- `velocity_stop_generator` (`src/disc_solver/solve/utils.py:116-127`). -/
noncomputable def velocity_stop (target_velocity : ℝ) : RootFn :=
  fun _ s => [target_velocity - s.v_θ]

/-- One call of the integrator (`ode(...).solve(angles, init)`). -/
structure Request where
  args : OdeArgs
  store_internal : Bool
  rootfn : Option RootFn := none
  nr_rootfns : Option ℕ := none
  has_onroot : Bool := false
  tstop : Option ℝ := none
  has_ontstop : Bool := false
  angles : List ℝ
  init : St

/-- What the integrator returns (`SolverReturn` of scikits.odes). -/
structure CvSoln where
  flag : StatusFlag
  t : List ℝ
  y : List St
  roots_t : Option (List ℝ) := none
  roots_y : Option (List St) := none
  tstop_t : List ℝ := []
  tstop_y : List St := []

/-- How the integrator ends: by returning, or with one of three exceptions that
carry the solution so far. -/
inductive Ending where
  | finished
  | failed
  | foundRoot
  | reachedTstop
deriving DecidableEq

/-- One integration: the result and the callbacks that were made. -/
structure Integration where
  ending : Ending
  soln : CvSoln
  calls : List Call := []

/-- The integrator. -/
abbrev Integrator := Request → Integration

/-- A computation that may raise, with the integrations it asked for. -/
structure Logged (α : Type) where
  log : List Request
  result : Except PyErr α

namespace Logged

variable {α β : Type}

/-- Return a value. -/
def ok (a : α) : Logged α := ⟨[], .ok a⟩

/-- Raise. -/
def raise (e : PyErr) : Logged α := ⟨[], .error e⟩

/-- Sequence two computations. -/
def bind (x : Logged α) (f : α → Logged β) : Logged β :=
  match x.result with
  | .error e => ⟨x.log, .error e⟩
  | .ok a => ⟨x.log ++ (f a).log, (f a).result⟩

instance : Monad Logged where
  pure := ok
  bind := bind

/-- A computation without integrations. -/
def lift (x : Except PyErr α) : Logged α := ⟨[], x⟩

end Logged

/-- The fields of `SolutionInput` that `solution` reads
(`solution.py:612-630`). -/
structure SolveOpts where
  taylor_stop_angle : ℝ
  η_derivs : Bool := true
  use_taylor_jump : Bool := true
  jump_before_sonic : Option ℝ := none
  v_θ_sonic_crit : Option ℝ := none
  after_sonic : Option ℝ := none
  interp_slice : PySlice := { start := some (-1000), stop := some (-100) }
  sonic_interp_size : Option ℝ := none
  use_E_r : Bool := false

/-- Keyword arguments of `solution` (`solution.py:603-608`).  Callbacks other than
the root function are only passed on, so their presence is all that matters. -/
structure SolveArgs where
  root_func : Option RootFn := none
  root_func_args : Option ℕ := none
  has_onroot : Bool := false
  tstop : Option ℝ := none
  has_ontstop : Bool := false
  store_internal : Bool := true
  with_taylor : Bool := true
  modified_initial_conditions : Option Conditions := none
  θ_scale : ℝ := 1
  is_post_shock_only : Bool := false

/-- `TaylorSolution` (`solution.py:43-50`). -/
structure TaylorSolution where
  angles : List ℝ
  params : List St
  new_angles : List ℝ
  internal_data : Option InternalData
  new_initial_conditions : St
  angle_stopped : ℝ

/-- `jump_across_sonic` (`solution.py:335-366`).  `t`, `y` are the values of the
base solution.  The derivative buffer starts as zeros and stays so when the state
is rejected. -/
noncomputable def jump_across_sonic (P : OdeArgs) (str : ℝ → String) (t : List ℝ)
    (y : List St) (angles : List ℝ) (jump_before_sonic : ℝ)
    (jump_after_sonic : Option ℝ) : Except PyErr (List ℝ × St) :=
  let jump_after_sonic := jump_after_sonic.getD jump_before_sonic
  match t.getLast?, y.getLast? with
  | some initial_angle, some initial_values =>
    let derivs := (rhs_call P str none initial_angle initial_values St.zero).derivs
    let dθ := (jump_before_sonic + jump_after_sonic) / derivs.v_θ
    let final_angle := initial_angle + dθ
    .ok (final_angle :: (open Classical in
        angles.filter (fun x => rad_to_scaled final_angle P.θ_scale < x)),
      initial_values.add (derivs.smul dθ))
  | _, _ => .error .IndexError

/-- The angles `taylor_jump` and `taylor_solution` hand on
(`solution.py:412-413,432-433`): those beyond the stop angle.  The result of
`insert` is thrown away by the code. -/
noncomputable def taylor_new_angles (angles : List ℝ) (stop : ℝ) : List ℝ :=
  open Classical in angles.filter (fun x => stop < x)

/-- `taylor_jump` (`solution.py:423-460`). -/
noncomputable def taylor_jump (angles : List ℝ) (init_con : St) (γ a_0 : ℝ)
    (taylor_stop_angle : ℝ) (η_derivs : Bool) (θ_scale : ℝ) (use_E_r : Bool) :
    TaylorSolution :=
  let stop := rad_to_scaled taylor_stop_angle θ_scale
  let values := taylor_values init_con γ a_0 η_derivs use_E_r stop
  { angles := [scaled_to_rad 0 θ_scale, scaled_to_rad stop θ_scale],
    params := [init_con, values], new_angles := taylor_new_angles angles stop,
    internal_data := none, new_initial_conditions := values,
    angle_stopped := stop }

/-- `taylor_solution` (`solution.py:369-420`). -/
noncomputable def taylor_solution (I : Integrator) (str : ℝ → String)
    (P : OdeArgs) (angles : List ℝ) (store_internal : Bool)
    (taylor_stop_angle : ℝ) : Logged TaylorSolution :=
  let stop := rad_to_scaled taylor_stop_angle P.θ_scale
  let req : Request :=
    { args := { P with with_taylor := true }, store_internal := store_internal,
      tstop := some stop, angles := angles, init := P.init_con }
  let out := I req
  let internal := afterCalls req.args str
    (if store_internal then some {} else none) out.calls
  ⟨[req],
    match out.ending with
    | .reachedTstop =>
      match out.soln.tstop_t.head?, out.soln.tstop_y.head? with
      | some t0, some y0 =>
        .ok { angles := out.soln.t.map (fun x => scaled_to_rad x P.θ_scale),
              params := out.soln.y, new_angles := taylor_new_angles angles stop,
              internal_data := internal, new_initial_conditions := y0,
              angle_stopped := t0 }
      | _, _ => .error .IndexError
    | _ => .error .SolverError⟩

/-- The arguments of one `main_solution` leg (`solution.py:503-512`). -/
structure MainArgs where
  angles : List ℝ
  ode_init : St
  has_onroot : Bool := false
  jump_before_sonic : Option ℝ := none
  tstop : Option ℝ := none
  has_ontstop : Bool := false
  root_func : Option RootFn := none
  root_func_args : Option ℕ := none
  deriv_v_θ_func : Option (ℝ → ℝ) := none
  sonic_interp_size : Option ℝ := none

/-- The checks of `main_solution` and the integrator call they lead to
(`solution.py:516-577`). -/
noncomputable def main_plan (P : OdeArgs) (store_internal : Bool) (m : MainArgs) :
    Except PyErr Request :=
  if m.sonic_interp_size.isSome ∧ m.root_func.isSome then .error .SolverError
  else if m.sonic_interp_size.isSome ∧ m.jump_before_sonic.isSome then
    .error .SolverError
  else if m.sonic_interp_size.isSome ∧ ¬ store_internal then .error .SolverError
  else if m.jump_before_sonic.isSome ∧ m.root_func.isSome then .error .SolverError
  else if m.jump_before_sonic.isSome ∧ m.has_onroot then .error .SolverError
  else
    let base : Request :=
      { args := { P with with_taylor := false, deriv_v_θ_func := m.deriv_v_θ_func },
        store_internal := store_internal, has_onroot := m.has_onroot,
        tstop := m.tstop.map (fun x => rad_to_scaled x P.θ_scale),
        has_ontstop := m.has_ontstop, angles := m.angles, init := m.ode_init }
    let req : Except PyErr Request :=
      match m.sonic_interp_size with
      | some size =>
        .ok { base with rootfn := some (velocity_stop (1 - size)), nr_rootfns := some 1 }
      | none =>
        match m.jump_before_sonic with
        | some jump =>
          .ok { base with
            rootfn := some (velocity_stop (1 - jump)), nr_rootfns := some 1 }
        | none =>
          match m.root_func with
          | some f =>
            match m.root_func_args with
            | some n => .ok { base with rootfn := some f, nr_rootfns := some n }
            | none => .error .SolverError
          | none => .ok base
    match req with
    | .error e => .error e
    | .ok r => if m.angles.length < 2 then .error .SolverError else .ok r

/-- `main_solution` (`solution.py:503-600`). -/
noncomputable def main_solution (I : Integrator) (str : ℝ → String) (P : OdeArgs)
    (store_internal : Bool) (m : MainArgs) :
    Logged (CvSoln × Option InternalData) :=
  match main_plan P store_internal m with
  | .error e => .raise e
  | .ok req =>
    let out := I req
    let internal := afterCalls req.args str
      (if store_internal then some {} else none) out.calls
    ⟨[req],
      if out.ending = .failed ∧ out.soln.flag = .TOO_CLOSE then
        .error .CVODESolveFailed
      else .ok (out.soln, internal)⟩

/-- Outcome of `interp_cross_sonic`: `None`s when no interpolation could be
built. -/
structure InterpLeg where
  soln : CvSoln
  internal : Option InternalData
  new_angles : List ℝ
  new_init : St

/-- `interp_cross_sonic` (`solution.py:463-500`).  `interp` is
`deduplicate_and_interpolate` with cubic extrapolation, `none` for its
`ValueError`; a zero slice step is also a `ValueError`, raised outside the
`try`. -/
noncomputable def interp_cross_sonic (I : Integrator) (str : ℝ → String)
    (interp : List ℝ → List ℝ → Option (ℝ → ℝ)) (P : OdeArgs)
    (store_internal : Bool) (base : CvSoln) (internal : Option InternalData)
    (angles : List ℝ) (after_sonic : ℝ) (interp_slice : PySlice) :
    Logged (Option InterpLeg) :=
  match internal with
  | none => .raise .AttributeError
  | some d =>
    match interp_slice.index d.angles, interp_slice.index d.derivs with
    | some θ_interp, some derivs_interp =>
      match interp θ_interp (derivs_interp.map (·.v_θ)) with
      | none => .ok none
      | some f =>
        match base.t.getLast?, base.y.getLast? with
        | some start, some y0 =>
          (main_solution I str P store_internal
            { angles := open Classical in angles.filter (fun x => start ≤ x),
              ode_init := y0, root_func := some (velocity_stop (1 + after_sonic)),
              root_func_args := some 1, deriv_v_θ_func := some f }).bind
            fun (soln, int) =>
              match soln.t.getLast?, soln.y.getLast? with
              | some t1, some y1 =>
                .ok (some
                  { soln := soln, internal := int, new_init := y1,
                    new_angles := t1 :: (open Classical in
                      angles.filter (fun x => t1 < x)) })
              | _, _ => .raise .IndexError
        | _, _ => .raise .IndexError
    | _, _ => .raise .ValueError

/-- The parts of `Solution` that `solution` fills in (`solution.py:772-784`). -/
structure SolutionOut where
  flag : StatusFlag
  angles : List ℝ
  solution : List St
  internal_data : Option InternalData
  t_roots : Option (List ℝ)
  y_roots : Option (List St)
  is_post_shock_only : Bool

/-- `internal_data + other`, done only when both are there. -/
def joinInternal (store : Bool) (a b : Option InternalData) : Option InternalData :=
  if store then
    match a, b with
    | some x, some y => some (x.add y)
    | a, none => a
    | none, some _ => none
  else a

/-- The Taylor part of `solution` (`solution.py:632-671`): what it produced, if it
was used, and where the main integration starts. -/
noncomputable def taylor_start (I : Integrator) (str : ℝ → String) (o : SolveOpts)
    (c : Conditions) (a : SolveArgs) (P : OdeArgs) :
    Logged (Option TaylorSolution × List ℝ × St) :=
  if a.with_taylor then
    let stop := radians o.taylor_stop_angle
    if o.use_taylor_jump then
      let ts := taylor_jump c.angles c.init_con c.γ c.a_0 stop o.η_derivs a.θ_scale
        o.use_E_r
      .ok (some ts, ts.new_angles, ts.new_initial_conditions)
    else
      (taylor_solution I str P c.angles a.store_internal stop).bind fun ts =>
        .ok (some ts, ts.new_angles, ts.new_initial_conditions)
  else
    match a.modified_initial_conditions with
    | none => .ok (none, c.angles, c.init_con)
    | some mc => .ok (none, mc.angles, mc.init_con)

/-- The arguments of `ode_system` shared by all legs. -/
def solveOdeArgs (o : SolveOpts) (c : Conditions) (a : SolveArgs) : OdeArgs :=
  { γ := c.γ, a_0 := c.a_0, norm_kepler_sq := c.norm_kepler_sq,
    init_con := c.init_con, θ_scale := a.θ_scale, η_derivs := o.η_derivs,
    use_E_r := o.use_E_r }

/-- `solution` (`solution.py:603-784`). -/
noncomputable def solution (I : Integrator) (str : ℝ → String)
    (interp : List ℝ → List ℝ → Option (ℝ → ℝ)) (o : SolveOpts) (c : Conditions)
    (a : SolveArgs) : Logged SolutionOut :=
  let P := solveOdeArgs o c a
  let rad := fun l : List ℝ => l.map (fun x => scaled_to_rad x a.θ_scale)
  (taylor_start I str o c a P).bind fun (ts, angles, init) =>
  (main_solution I str P a.store_internal
    { angles := angles, ode_init := init, has_onroot := a.has_onroot,
      tstop := a.tstop, has_ontstop := a.has_ontstop,
      jump_before_sonic := o.jump_before_sonic, root_func := a.root_func,
      root_func_args := a.root_func_args,
      sonic_interp_size := o.sonic_interp_size }).bind fun (soln, main_int) =>
  let internal :=
    if a.store_internal then
      match ts.bind (·.internal_data) with
      | some t => main_int.map (t.add ·)
      | none => main_int
    else main_int
  let joined_angles := (ts.map (·.angles)).getD [] ++ rad soln.t
  let joined_solution := (ts.map (·.params)).getD [] ++ soln.y
  let finish := fun (angles : List ℝ) (rows : List St) (int : Option InternalData) =>
    ({ flag := soln.flag, angles := angles, solution := rows, internal_data := int,
       t_roots := soln.roots_t.map rad, y_roots := soln.roots_y,
       is_post_shock_only := a.is_post_shock_only } : SolutionOut)
  match o.sonic_interp_size with
  | some size =>
    (interp_cross_sonic I str interp P a.store_internal soln internal angles
      (o.after_sonic.getD size) o.interp_slice).bind fun leg =>
    match leg with
    | none => .ok (finish joined_angles joined_solution internal)
    | some leg =>
      (main_solution I str P a.store_internal
        { angles := leg.new_angles, ode_init := leg.new_init,
          has_onroot := a.has_onroot, tstop := a.tstop,
          has_ontstop := a.has_ontstop, root_func := a.root_func,
          root_func_args := a.root_func_args }).bind fun (post, post_int) =>
      .ok (finish (joined_angles ++ rad leg.soln.t ++ rad post.t)
        (joined_solution ++ leg.soln.y ++ post.y)
        (joinInternal a.store_internal
          (joinInternal a.store_internal internal leg.internal) post_int))
  | none =>
    match o.jump_before_sonic with
    | some jump =>
      (Logged.lift (jump_across_sonic P str soln.t soln.y angles jump
        o.after_sonic)).bind fun (post_angles, post_init) =>
      (main_solution I str P a.store_internal
        { angles := post_angles, ode_init := post_init, has_onroot := a.has_onroot,
          tstop := a.tstop, has_ontstop := a.has_ontstop,
          root_func := a.root_func,
          root_func_args := a.root_func_args }).bind fun (post, post_int) =>
      .ok (finish (joined_angles ++ rad post.t) (joined_solution ++ post.y)
        (joinInternal a.store_internal internal post_int))
    | none => .ok (finish joined_angles joined_solution internal)

end DiscSolver
