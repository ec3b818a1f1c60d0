import Mathlib.Analysis.SpecialFunctions.Log.Basic
import Mathlib.Data.List.GetD
import Verif.Model.Solution
import Verif.Model.Conditions
import Verif.Model.Stepper

/-!
# The sonic-root solver

`src/disc_solver/solve/sonic_root.py`.  `InitialConditions` objects hold a reference to
their array of values, so a small heap of arrays is modelled.  `scipy.optimize.root` is
any sequence of evaluations that starts at the first guess.
-/

namespace DiscSolver

namespace SonicRoot

open Stepper (Row)

/-- `TotalVars` (`sonic_root.py:41-52`). -/
inductive TotalVar where
  | θ_sonic
  | v_φ
  | v_r
  | B_θ
  | B_r
  | B_φ
  | log_ρ
  | B_φ_prime
deriving DecidableEq

/-- The members of `TotalVars` in the order of their values. -/
def TotalVar.all : List TotalVar :=
  [.θ_sonic, .v_φ, .v_r, .B_θ, .B_r, .B_φ, .log_ρ, .B_φ_prime]

/-- `ODEIndex[var.name]`, or `none` when `hasattr(ODEIndex, var.name)` is false
(`sonic_root.py:196-197`, `utils.py:57-72`). -/
def TotalVar.index : TotalVar → Option (Fin 11)
  | .θ_sonic => none
  | .v_φ => some 4
  | .v_r => some 3
  | .B_θ => some 2
  | .B_r => some 0
  | .B_φ => some 1
  | .log_ρ => none
  | .B_φ_prime => some 7

/-- The eight numbers the root solver varies.  Simplification: the angle is not NaN. -/
structure Guess where
  θ_sonic : ℝ
  var : TotalVar → Flt

/-- The arrays in memory, by address. -/
abbrev Heap := ℕ → Row

/-- `array[i] = x`. -/
def assign (h : Heap) (r : ℕ) (i : Fin 11) (x : Flt) : Heap :=
  Function.update h r (Function.update (h r) i x)

/-- An `InitialConditions` object (`file_format/_containers.py:653-694`): `init_con` is
the address of its array. -/
structure Cons where
  norm_kepler_sq : ℝ
  a_0 : ℝ
  γ : ℝ
  η_O : Flt
  η_A : Flt
  η_H : Flt
  init_con : ℕ
  angles : List ℝ

/-- `a != b` for floats: true when either is NaN. -/
noncomputable def floatNe : Flt → Flt → Bool
  | some a, some b => open Classical in decide (a ≠ b)
  | _, _ => true

/-- `InitialConditions(**vars(c))` (`_containers.py:665-694`), for an object whose array
has eleven entries: the array is not copied. -/
noncomputable def remake (h : Heap) (c : Cons) : Except PyErr Cons :=
  if floatNe c.η_O (h c.init_con 8) then .error .RuntimeError
  else if floatNe c.η_A (h c.init_con 9) then .error .RuntimeError
  else if floatNe c.η_H (h c.init_con 10) then .error .RuntimeError
  else .ok c

/-- One turn of the loop `for var in TotalVars` (`sonic_root.py:195-199`). -/
noncomputable def setVar (guess : Guess) (r : ℕ) (h : Heap) (v : TotalVar) : Heap :=
  match v.index with
  | some i => assign h r i (guess.var v)
  | none => if v = .log_ρ then assign h r 6 ((guess.var v).map Real.exp) else h

/-- `total_vars_to_mod_cons` (`sonic_root.py:184-206`). -/
noncomputable def total_vars_to_mod_cons (h : Heap) (initial_conditions : Cons)
    (guess : Guess) (sonic_stop : ℝ) : Heap × Except PyErr Cons :=
  match remake h initial_conditions with
  | .error e => (h, .error e)
  | .ok c =>
    let mod_cons := { c with
      angles := linspace guess.θ_sonic sonic_stop initial_conditions.angles.length }
    let h := assign h mod_cons.init_con 5 (some 1)
    let h := TotalVar.all.foldl (setVar guess mod_cons.init_con) h
    open Classical in
    if ∃ i, h mod_cons.init_con i = none then (h, .error .SolverError)
    else (h, .ok mod_cons)

/-- The row of reals held by an array without NaN. -/
def rowSt (r : Row) : St :=
  let x := fun i => (r i).getD 0
  ⟨x 0, x 1, x 2, x 3, x 4, x 5, x 6, x 7, x 8, x 9, x 10⟩

/-- The array holding a row of reals. -/
def stRow (s : St) : Row := fun i =>
  some ([s.B_r, s.B_φ, s.B_θ, s.v_r, s.v_φ, s.v_θ, s.ρ, s.X, s.η_O, s.η_A,
    s.η_H].getD i 0)

/-- What `solution` reads from an `InitialConditions` object. -/
def Cons.read (h : Heap) (c : Cons) : Conditions :=
  { norm_kepler_sq := c.norm_kepler_sq, a_0 := c.a_0, init_con := rowSt (h c.init_con),
    angles := c.angles, γ := c.γ }

/-- A `Solution` as this solver sees it.  `input` and `cons` say which input object and
which initial-conditions object it holds.  `!=` compares identities for initial
conditions and values for inputs (`_containers.py:246,653`); an object equals itself in
both cases.  `init_con` is the array of the initial conditions when the solution was
stored: a run which belongs to an open file writes it then. -/
structure Soln where
  input : ℕ
  cons : ℕ
  coordinate_system : String
  out : SolutionOut
  init_con : Row

/-- The value of a flag. -/
def code : StatusFlag → Int
  | .SUCCESS => 0
  | .TSTOP_RETURN => 1
  | .ROOT_RETURN => 2
  | .TOO_CLOSE => -27
  | .OTHER c => c

/-- Joining internal data (`sonic_root.py:246-259`). -/
def joined_internal : Option InternalData → Option InternalData → Option InternalData
  | none, none => none
  | none, some s => some s.flip
  | some i, none => some i
  | some i, some s => some (i.add s.flip)

variable {μ : Type}

/-- The solution `write_solution` stores (`sonic_root.py:240-272`). -/
def joined (now : Row) (initial sonic : Soln) : Soln :=
  { input := initial.input, cons := initial.cons,
    coordinate_system := initial.coordinate_system,
    init_con := now
    out :=
      { flag := sonic.out.flag
        angles := initial.out.angles ++ sonic.out.angles.reverse
        solution := initial.out.solution ++ sonic.out.solution.reverse
        internal_data := joined_internal initial.out.internal_data
          sonic.out.internal_data
        t_roots := initial.out.t_roots
        y_roots := initial.out.y_roots
        is_post_shock_only := false } }

/-- `write_solution` (`sonic_root.py:209-272`), without the log messages.  Line 235 reads
`StatusFlag.SUCESS`, which the enumeration does not have.  `now` is the array of the initial
conditions at this time. -/
def write_solution (now : Row) (run : Run μ Soln) (initial sonic : Soln) :
    Except PyErr (Run μ Soln) :=
  if initial.input ≠ sonic.input then .error .SolverError
  else if initial.cons ≠ sonic.cons then .error .SolverError
  else if initial.coordinate_system ≠ sonic.coordinate_system then .error .SolverError
  else if code sonic.out.flag < 0 then
    (run.addSolution (joined now initial sonic)).map Prod.snd
  else .error .AttributeError

/-- `log(a / b)`: NaN or infinite unless the quotient is positive. -/
noncomputable def logRatio (a b : ℝ) : Flt :=
  open Classical in if b ≠ 0 ∧ 0 < a / b then some (Real.log (a / b)) else none

/-- `get_root_results` (`sonic_root.py:123-144`). -/
noncomputable def get_root_results (sonic midplane : SolutionOut) :
    Except PyErr (List Flt) :=
  if sonic.solution = [] then .error .SolverError
  else
    match sonic.solution.getLast?, midplane.solution.getLast?, sonic.angles.getLast?,
      midplane.angles.getLast? with
    | some s, some m, some a, some b =>
      .ok [some (s.v_r - m.v_r), some (s.v_θ - m.v_θ), some (s.v_φ - m.v_φ),
        some (s.B_r - m.B_r), some (s.B_θ - m.B_θ), some (s.B_φ - m.B_φ),
        logRatio s.ρ m.ρ, some (a - b)]
    | _, _, _, _ => .error .IndexError

/-- `x / y * z` for floats, not finite when `y` is zero. -/
noncomputable def slope (x y z : ℝ) : Flt :=
  open Classical in if y = 0 then none else some (x / y * z)

/-- `get_sonic_point_value` (`sonic_root.py:162-181`) for a variable other than the
angle, from the last two rows `p`, `q`. -/
noncomputable def sonic_point_value (p q : St) (v : TotalVar) : Flt :=
  let d_v_θ := 1 - q.v_θ
  let dv := q.v_θ - p.v_θ
  let along := fun f : St → ℝ =>
    (slope (f q - f p) dv d_v_θ).map fun x => f q + x
  match v with
  | .θ_sonic => none
  | .log_ρ =>
    (logRatio q.ρ p.ρ).bind fun d => (logRatio q.ρ 1).bind fun l =>
      (slope d dv d_v_θ).map fun x => l + x
  | .v_φ => along (·.v_φ)
  | .v_r => along (·.v_r)
  | .B_θ => along (·.B_θ)
  | .B_r => along (·.B_r)
  | .B_φ => along (·.B_φ)
  | .B_φ_prime => along (·.X)

/-- `guess_root_vals` (`sonic_root.py:147-181`).  No input has an attribute named after
one of the variables.  Fewer than two rows: `diff` is empty and `[-1]` fails. -/
noncomputable def guess_root_vals (initial : SolutionOut) : Except PyErr Guess :=
  match initial.solution.reverse, initial.angles.getLast? with
  | q :: p :: _, some a =>
    .ok { θ_sonic := a / (9/10), var := fun v =>
      if v = .θ_sonic then some (a / (9/10)) else sonic_point_value p q v }
  | _, _ => .error .IndexError

/-- What the objective closes over (`sonic_root.py:95-104`): the ODE solver, the options
of the input, the initial conditions, the initial solution. -/
structure Env where
  I : Integrator
  str : ℝ → String
  interp : List ℝ → List ℝ → Option (ℝ → ℝ)
  opts : SolveOpts
  store_internal : Bool
  cons : Cons
  initial : Soln
  /-- `get_sonic_stop` (`sonic_root.py:291-295`) -/
  sonic_stop : ℝ
  /-- `ERR_FLOAT` (`sonic_root.py:28`) -/
  err : ℝ

/-- The arguments of the sonic integration (`sonic_root.py:114-118`). -/
def sonicArgs (e : Env) (h : Heap) (sonic_cons : Cons) : SolveArgs :=
  { with_taylor := false
    modified_initial_conditions := some (sonic_cons.read h)
    store_internal := e.store_internal }

/-- The integration from the sonic point (`sonic_root.py:114-118`). -/
noncomputable def sonic_solution (e : Env) (h : Heap) (sonic_cons : Cons) :
    Except PyErr SolutionOut :=
  (solution e.I e.str e.interp e.opts (e.cons.read h) (sonicArgs e h sonic_cons)).result

/-- What evaluations change: the arrays in memory and the run. -/
structure World (μ : Type) where
  heap : Heap
  run : Run μ Soln

/-- `root_func` (`sonic_root.py:101-119`). -/
noncomputable def root_func (e : Env) (w : World μ) (guess : Guess) :
    World μ × Except PyErr (List Flt) :=
  match total_vars_to_mod_cons w.heap e.cons guess e.sonic_stop with
  | (h, .error p) => (⟨h, w.run⟩, .error p)
  | (h, .ok sonic_cons) =>
    match sonic_solution e h sonic_cons with
    | .error p => (⟨h, w.run⟩, .error p)
    | .ok out =>
      match write_solution (h e.cons.init_con) w.run e.initial { e.initial with out := out } with
      | .error p => (⟨h, w.run⟩, .error p)
      | .ok run => (⟨h, run⟩, get_root_results out e.initial.out)

/-- `wrap_root_catch_error` (`sonic_root.py:275-288`). -/
noncomputable def wrapped (e : Env) (w : World μ) (guess : Guess) :
    World μ × Except PyErr (List Flt) :=
  match root_func e w guess with
  | (w, .error .SolverError) => (w, .ok (List.replicate 8 (some e.err)))
  | r => r

/-- The evaluations a root search makes, in order, up to the first exception. -/
noncomputable def evaluations (e : Env) : World μ → List Guess → World μ × Except PyErr Unit
  | w, [] => (w, .ok ())
  | w, g :: gs =>
    match wrapped e w g with
    | (w, .error p) => (w, .error p)
    | (w, .ok _) => evaluations e w gs

/-- The object `define_conditions` makes, its array at address zero. -/
def newCons (c : Conditions) : Cons :=
  { norm_kepler_sq := c.norm_kepler_sq, a_0 := c.a_0, γ := c.γ
    η_O := some c.init_con.η_O, η_A := some c.init_con.η_A, η_H := some c.init_con.η_H
    init_con := 0, angles := c.angles }

/-- `run.final_solution = run.solutions[str(len(run.solutions) - 1)]`
(`sonic_root.py:91`). -/
def set_final (run : Run μ Soln) : Except PyErr (Run μ Soln) :=
  match Dict.getItem run.solutions (Nat.repr (run.solutions.length - 1)) with
  | .error p => .error p
  | .ok s => run.setFinal s

/-- The rest of `solver` after the initial solution was stored
(`sonic_root.py:69-92`).  `rest` are the guesses the root search tries after the first,
`success` its verdict, or what it raises. -/
noncomputable def search (e : Env) (w : World μ) (rest : List Guess)
    (success : Except PyErr Bool) :
    World μ × Except PyErr Bool :=
  match guess_root_vals e.initial.out with
  | .error p => (w, .error p)
  | .ok best =>
    match evaluations e w (best :: rest) with
    | (w, .error p) => (w, .error p)
    | (w, .ok _) =>
      match success with
      | .error p => (w, .error p)
      | .ok success =>
        match set_final w.run with
        | .error p => (w, .error p)
        | .ok run => (⟨w.heap, run⟩, .ok success)

/-- The arguments of `solver`. -/
structure Args where
  I : Integrator
  str : ℝ → String
  interp : List ℝ → List ℝ → Option (ℝ → ℝ)
  inp : NumInput
  opts : SolveOpts
  target_velocity : ℝ
  store_internal : Bool
  coords : String
  err : ℝ

/-- The midplane solution (`sonic_root.py:60-64`). -/
noncomputable def initial_out (a : Args) (c : Conditions) : Except PyErr SolutionOut :=
  (solution a.I a.str a.interp a.opts c
    { root_func := some (velocity_stop a.target_velocity), root_func_args := some 1,
      store_internal := a.store_internal }).result

/-- What the root search closes over. -/
def Args.env (a : Args) (c : Conditions) (out : SolutionOut) (stop : ℝ) : Env :=
  { I := a.I, str := a.str, interp := a.interp, opts := a.opts
    store_internal := a.store_internal, cons := newCons c
    initial := ⟨0, 0, a.coords, out, stRow c.init_con⟩, sonic_stop := stop, err := a.err }

/-- `solver` (`sonic_root.py:55-86`). -/
noncomputable def solver (a : Args) (run : Run μ Soln) (rest : List Guess)
    (success : Except PyErr Bool) : Run μ Soln × Except PyErr Bool :=
  match define_conditions a.inp with
  | none => (run, .error .SolverError)
  | some c =>
    match initial_out a c with
    | .error p => (run, .error p)
    | .ok out =>
      match run.addSolution ⟨0, 0, a.coords, out, stRow c.init_con⟩ with
      | .error p => (run, .error p)
      | .ok (_, run) =>
        match out.angles.getLast? with
        | none => (run, .error .IndexError)
        | some stop =>
          let r := search (a.env c out stop) ⟨fun _ => stRow c.init_con, run⟩ rest success
          (r.1.run, r.2)

end SonicRoot

end DiscSolver
