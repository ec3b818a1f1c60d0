import Verif.Model.Stepper
import Mathlib.Analysis.SpecialFunctions.Sqrt

/-!
# The fast-crosser search

`src/disc_solver/solve/fast_crosser.py`: a search over the starting radial velocity
whose attempts are whole stepping searches.  Velocities are exact reals; the quality
of a solution may be NaN.
-/

namespace DiscSolver

namespace FastCrosser

open Stepper (Code Stop)

/-- `Phase` (`fast_crosser.py:30-37`). -/
inductive Phase where
  | STARTING
  | FINDING_MAX
  | FINDING_MIN
  | BISECTING
deriving DecidableEq

/-- `limits` and `phase` (`fast_crosser.py:58-66`). -/
structure Vars where
  min : Option ℝ := none
  min_val : Option Flt := none
  max : Option ℝ := none
  max_val : Option Flt := none
  mid : Option ℝ := none
  mid_val : Option Flt := none
  phase : Phase := .STARTING

/-- `a > b` for floats: false if either is NaN. -/
noncomputable def gt (a b : Flt) : Bool :=
  open Classical in
  match a, b with
  | some a, some b => decide (a > b)
  | _, _ => false

/-- `GOLDEN_RATIO` (`fast_crosser.py:27`). -/
noncomputable def GOLDEN_RATIO : ℝ := (1 + Real.sqrt 5) / 2

/-- The part of `stepper` (`fast_crosser.py:68-161`) after the solution is written:
from the velocity `v` and the quality `q` of the attempt, the velocity of the next
one.  Using a limit that is `None` raises `TypeError`. -/
noncomputable def step (step_size : ℝ) (v : ℝ) (q : Flt) (s : Vars) :
    Except Stop ℝ × Vars :=
  open Classical in
  match s.phase with
  | .STARTING =>
    (.ok (v + step_size),
      { s with min := some v, max := some v, min_val := some q, max_val := some q,
               phase := .FINDING_MAX })
  | .FINDING_MAX =>
    match s.max_val, s.min with
    | some max_val, some min =>
      if gt q max_val then
        (.ok (v + step_size), { s with max := some v, max_val := some q })
      else (.ok (min - step_size), { s with phase := .FINDING_MIN })
    | _, _ => (.error (.py .TypeError), s)
  | .FINDING_MIN =>
    match s.min_val, s.min, s.max with
    | some min_val, some min, some max =>
      if gt q min_val then
        (.ok (v - step_size), { s with min := some v, min_val := some q })
      else if min = max then (.error .error, { s with phase := .BISECTING })
      else (.ok (min + (min - max) / (GOLDEN_RATIO - 1)), { s with phase := .BISECTING })
    | _, _, _ => (.error (.py .TypeError), s)
  | .BISECTING =>
    match s.mid, s.min, s.max with
    | none, some min, some max =>
      (.ok (min + (max - v)), { s with mid := some v, mid_val := some q })
    | some mid, some min, some max =>
      match s.mid_val with
      | none => (.error (.py .TypeError), s)
      | some mid_val =>
        let lmid_lim := if mid > v then v else mid
        let hmid_lim := if mid > v then mid else v
        let lmid_val := if mid > v then q else mid_val
        let hmid_val := if mid > v then mid_val else q
        if gt lmid_val hmid_val then
          let s' := { s with mid := some lmid_lim, mid_val := some lmid_val,
                             max := some hmid_lim, max_val := some hmid_val }
          let new := min + (hmid_lim - lmid_lim)
          (if new = v then .error .stop else .ok new, s')
        else
          let s' := { s with min := some lmid_lim, min_val := some lmid_val,
                             mid := some hmid_lim, mid_val := some hmid_val }
          let new := lmid_lim + (max - hmid_lim)
          (if new = v then .error .stop else .ok new, s')
    | _, _, _ => (.error (.py .TypeError), s)

/-! ## The solver -/

/-- What the fast crosser calls.  `step_solver` stores solutions in the run, in
order, and then returns or raises; `single_solver` solves once. -/
structure Env (σ ι : Type) where
  /-- `stepper.solver(inp, run, no_final_solution=True)` -/
  step_solver : ι → List σ × Option PyErr
  /-- `solution(inp, define_conditions(inp))` -/
  single : ι → Except PyErr σ
  /-- the input of a solution with `final_stop` and `final_steps` -/
  final_input : σ → ι
  /-- `get_known_broken_solution` -/
  broken : ι → σ
  /-- `soln.flag is not None` -/
  flagged : σ → Bool
  /-- `compute_quality` (`fast_crosser.py:40-44`) -/
  quality : σ → Flt
  /-- `soln.solution_input.v_rin_on_c_s` -/
  v_r : σ → ℝ
  /-- `get_next_input` (`fast_crosser.py:51-56`) -/
  next_input : σ → ℝ → ι

variable {σ ι μ : Type}

/-- The run and the stepper's variables. -/
structure World (μ σ : Type) where
  run : Run μ σ
  vars : Vars := {}

/-- Storing solutions one after another. -/
def store_all (w : World μ σ) : List σ → Except PyErr (World μ σ)
  | [] => .ok w
  | x :: xs =>
    match w.run.addSolution x with
    | .error e => .error e
    | .ok (_, r) => store_all { w with run := r } xs

/-- `solution_func` (`fast_crosser.py:177-197`).  Only a `SolverError` of the step
solver is caught. -/
def solution_func (e : Env σ ι) (inp : ι) : Code (World μ σ) (σ × Bool) := fun w =>
  match store_all w (e.step_solver inp).1 with
  | .error p => (.error (.py p), w)
  | .ok w =>
    match (e.step_solver inp).2 with
    | some .SolverError => (.ok (e.broken inp, false), w)
    | some p => (.error (.py p), w)
    | none =>
      match w.run.solutions.getLast with
      | .error p => (.error (.py p), w)
      | .ok last =>
        match e.single (e.final_input last) with
        | .error p => (.error (.py p), w)
        | .ok s =>
          match w.run.addSolution s with
          | .error p => (.error (.py p), w)
          | .ok (_, r) =>
            match r.solutions.getLast with
            | .error p => (.error (.py p), { w with run := r })
            | .ok s => (.ok (s, false), { w with run := r })

/-- `writer` (`stepper.py:142-148`). -/
def writer (e : Env σ ι) (s : σ) : Code (World μ σ) Unit := fun w =>
  if e.flagged s then
    match w.run.addSolution s with
    | .error p => (.error (.py p), w)
    | .ok (_, r) => (.ok (), { w with run := r })
  else (.ok (), w)

/-- `step` on the whole state. -/
noncomputable def step_world (e : Env σ ι) (step_size : ℝ) (s : σ) :
    Code (World μ σ) ι := fun w =>
  match step step_size (e.v_r s) (e.quality s) w.vars with
  | (.ok v, vars) => (.ok (e.next_input s v), { w with vars := vars })
  | (.error p, vars) => (.error p, { w with vars := vars })

/-- `stepper` (`fast_crosser.py:68-161`). -/
noncomputable def stepper (e : Env σ ι) (step_size : ℝ) (s : σ) (_attempt : ℕ) :
    Code (World μ σ) ι :=
  Code.bind (writer e s) fun _ => step_world e step_size s

/-- `solver` (`fast_crosser.py:202-236`).  Both clean-up functions return `None`
without touching the final solution, as `no_final_solution` is set. -/
noncomputable def solver (e : Env σ ι) (inp : ι) (v_r : ℝ) (r : Run μ σ)
    (num_attempts : ℕ) : Except Stop Bool × Run μ σ :=
  match Stepper.binary_searcher (R := Option σ) (solution_func e)
      (fun s _ => Code.bind (writer e s) fun _ w => (.ok none, w))
      (stepper e (0.01 * v_r)) (fun _ w => (.ok none, w)) inp num_attempts
      { run := r } with
  | (.error p, w) => (.error p, w.run)
  | (.ok best, w) =>
    match w.run.final with
    | .value (some _) => (.ok true, w.run)
    | _ =>
      let found : Except PyErr σ :=
        match best.join with
        | some s => .ok s
        | none => w.run.solutions.getLast
      match found with
      | .error p => (.error (.py p), w.run)
      | .ok s =>
        match w.run.setFinal s with
        | .error p => (.error (.py p), w.run)
        | .ok r => (.ok true, r)

end FastCrosser

end DiscSolver
