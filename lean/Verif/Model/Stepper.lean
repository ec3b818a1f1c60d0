import Verif.Model.Containers
import Verif.Model.Arrays
import Verif.Model.Solution
import Mathlib.Algebra.Order.Field.Basic

/-!
# Accepting solutions and searching for the best one

`src/disc_solver/solve/stepper.py` and `validate_solution` of
`src/disc_solver/solve/utils.py`.

The ODE solve (`define_conditions` then `solution`) and the person answering the
`human` splitter are parameters.  Log messages are left out.
-/

namespace DiscSolver

namespace Stepper

/-! ## Solutions as the search sees them -/

/-- A row of `Solution.solution` or of `InternalData.derivs`: eleven floats, in
the order of `ODEIndex` (`src/disc_solver/utils.py:57-72`). -/
abbrev Row := Fin 11 → Flt

/-- `ODEIndex.v_θ` (`utils.py:66`). -/
def iv_θ : Fin 11 := 5

/-- `ODEIndex.ρ` (`utils.py:67`). -/
def iρ : Fin 11 := 6

/-- The parts of `InternalData` the splitter reads (`_containers.py:433-449`). -/
structure Internal where
  problems : Problems
  derivs : List Row

/-- The parts of `Solution` (`_containers.py:71-88`) the search reads. -/
structure SolnData where
  flag : Option StatusFlag
  rows : List Row
  internal : Option Internal

/-- `x < c` for floats: false for NaN. -/
noncomputable def below (c : ℝ) (x : Flt) : Bool :=
  open Classical in x.any fun x => decide (x < c)

/-- `x > c` for floats: false for NaN. -/
noncomputable def above (c : ℝ) (x : Flt) : Bool :=
  open Classical in x.any fun x => decide (c < x)

/-- numpy `diff`, NaN if either neighbour is. -/
noncomputable def diff (xs : List Flt) : List Flt :=
  xs.zipWith (fun a b => a.bind fun a => b.map fun b => b - a) xs.tail

/-- `validate_solution` (`solve/utils.py:35-50`), the flag it returns. -/
noncomputable def validate_solution (s : SolnData) : Bool :=
  if s.flag ≠ some .SUCCESS then false
  else
    let v_θ := s.rows.map (· iv_θ)
    let ρ := s.rows.map (· iρ)
    if v_θ.any (below 0) then false
    else if (diff v_θ).any (below 0) then false
    else if ρ.any (below 0) then false
    else true

/-- `DEFAULT_SPLITTER_CUTOFF` (`stepper.py:19`). -/
noncomputable def cutoff : ℝ := 0.9

/-- `v_θ[np_and(v_θ > cutoff, v_θ < 1)]` (`stepper.py:58,226,235`).  What passes
the comparisons is not NaN. -/
noncomputable def near_sonic (c : ℝ) (v_θ : List Flt) : List Flt :=
  v_θ.filter fun x => above c x && below 1 x

/-- `is_solution_best` (`stepper.py:48-65`), the flag it returns. -/
noncomputable def is_solution_best (s : SolnData) : Bool :=
  if !validate_solution s then false
  else
    let v_θ := s.rows.map (· iv_θ)
    if (near_sonic cutoff v_θ).isEmpty then false
    else if (diff (diff (near_sonic cutoff v_θ))).any (above 0) then false
    else true

/-! ## Classifying a failed solution -/

/-- `SplitterStatus` (`stepper.py:25-31`). -/
inductive SplitterStatus where
  | STOP
  | SIGN_FLIP
  | DIVERGE
deriving DecidableEq

/-- `v_θ_deriv_splitter` (`stepper.py:209-239`).  `derivs[ODEIndex.v_θ]` is row
number five of the array, that is, the derivatives of all variables at the sixth
recorded evaluation; it raises `IndexError` if there are fewer. -/
noncomputable def v_θ_deriv_splitter (s : SolnData) :
    Except PyErr SplitterStatus :=
  let v_θ := s.rows.map (· iv_θ)
  let rest : Except PyErr SplitterStatus :=
    if (near_sonic cutoff v_θ).isEmpty then .ok .SIGN_FLIP
    else if v_θ.any (above 1) then .ok .DIVERGE
    else if is_monotonically_increasing ((near_sonic cutoff v_θ).reduceOption) then
      .ok .DIVERGE
    else .ok .SIGN_FLIP
  match s.internal with
  | none => rest
  | some d =>
    if d.problems.any (fun e => e.2.contains "negative velocity") then .ok .SIGN_FLIP
    else
      match d.derivs[(iv_θ : ℕ)]? with
      | none => .error .IndexError
      | some row =>
        if (diff (diff (List.ofFn row))).any (above 0) then .ok .DIVERGE
        else if (diff (List.ofFn row)).any (below 0) then .ok .SIGN_FLIP
        else rest

/-- A splitter: from the solutions shown so far (oldest first) and the new one.
Only the `human` splitter looks at the former. -/
abbrev Splitter := List SolnData → SolnData → Except PyErr SplitterStatus

/-- `create_soln_splitter` (`stepper.py:242-251`): `method_dict.get(method)()`,
and calling `None` is a `TypeError`.  `human` is what the person answers
(`human_view_splitter_generator`, `stepper.py:186-206`), who is asked until the
answer is one of the three. -/
noncomputable def create_soln_splitter (human : List SolnData → SplitterStatus)
    (method : String) : Except PyErr Splitter :=
  if method = "v_θ_deriv" then .ok fun _ s => v_θ_deriv_splitter s
  else if method = "human" then .ok fun seen s => .ok (human (seen ++ [s]))
  else .error .TypeError

/-! ## The search loop -/

/-- What can end a step: the two exceptions of the stepper (`stepper.py:33-45`),
any other exception, and a loop that never ends. -/
inductive Stop where
  /-- `StepperError` -/
  | error
  /-- `StepperStop` -/
  | stop
  /-- another exception -/
  | py (e : PyErr)
  /-- no result: the code loops for ever -/
  | hangs
deriving DecidableEq

/-- Code with state `W`; an exception keeps the changes made before it. -/
abbrev Code (W α : Type) := W → Except Stop α × W

/-- One piece of code after another. -/
def Code.bind {W α β : Type} (m : Code W α) (f : α → Code W β) : Code W β :=
  fun w =>
    match m w with
    | (.ok a, w') => f a w'
    | (.error e, w') => (.error e, w')

/-- `binary_searcher` (`stepper.py:68-91`).  `search` is the `for` loop from
`attempt` on with `left` rounds to go, and the `try` around it: `none` is
`return None`. -/
def search {W I O R : Type} (func : I → Code W (O × Bool))
    (pass_func : O → ℕ → Code W R) (fail_func : O → ℕ → Code W I)
    (final_fail_func : ℕ → Code W R) : (left attempt : ℕ) → I → Code W (Option R)
  | 0, _, _ => fun w => (.ok none, w)
  | left + 1, attempt, inp => fun w =>
    let handle : Stop → W → Except Stop (Option R) × W := fun e w =>
      match e with
      | .error => (.ok none, w)
      | .stop =>
        match final_fail_func attempt w with
        | (.ok r, w) => (.ok (some r), w)
        | (.error e, w) => (.error e, w)
      | e => (.error e, w)
    match func inp w with
    | (.error e, w) => handle e w
    | (.ok (out, true), w) =>
      match pass_func out attempt w with
      | (.ok r, w) => (.ok (some r), w)
      | (.error e, w) => handle e w
    | (.ok (out, false), w) =>
      match fail_func out attempt w with
      | (.error e, w) => handle e w
      | (.ok inp', w) =>
        search func pass_func fail_func final_fail_func left (attempt + 1) inp' w

/-- `binary_searcher` (`stepper.py:68-91`): the loop from attempt zero. -/
def binary_searcher {W I O R : Type} (func : I → Code W (O × Bool))
    (pass_func : O → ℕ → Code W R) (fail_func : O → ℕ → Code W I)
    (final_fail_func : ℕ → Code W R) (initial_input : I) (num_attempts : ℕ) :
    Code W (Option R) :=
  search func pass_func fail_func final_fail_func num_attempts 0 initial_input

/-! ## The state of a search -/

/-- The arithmetic the stepper uses, with no law assumed: it is floating point. -/
structure Ops (F : Type) where
  add : F → F → F
  sub : F → F → F
  /-- `x / 2` -/
  half : F → F
  /-- `0.1 * x` -/
  tenth : F → F
  zero : F

/-- A `SolutionInput` (`_containers.py:245-345`): `γ`, and everything else. -/
structure Input (F R : Type) where
  γ : F
  rest : R

/-- A `Solution` object: its data and the address of its `solution_input`. -/
structure Soln where
  data : SolnData
  input : ℕ

/-- What `Solutions` holds for a solution: the object itself, and, if the
container belongs to an open file, the copy of its input written there when it was
stored (`wrap_on_demand`, `_containers.py:538-539`). -/
structure Stored (F R : Type) where
  soln : Soln
  saved : Option (Input F R)

/-- The variables of the closure of `stepper_creator` (`stepper.py:101-104`). -/
structure StepperVars (F : Type) where
  search_steps : ℕ := 0
  binary_started : Bool := false
  prev_soln_type : Option SplitterStatus := none
  step_size : F

/-- Everything the search changes: `SolutionInput` objects in memory, the run, the
stepper's variables, and the solutions the person has seen. -/
structure World (F R μ : Type) where
  heap : ℕ → Input F R
  next : ℕ
  run : Run μ (Stored F R)
  vars : StepperVars F
  seen : List SolnData := []

/-- What never changes during a search.  `on_file`: the run's `Solutions` belong
to an open file. -/
structure Setup (F R : Type) where
  ops : Ops F
  /-- `solution(inp, define_conditions(inp))` -/
  solve : Input F R → Except PyErr SolnData
  on_file : Bool
  no_final_solution : Bool
  max_search_steps : ℕ

variable {F R μ : Type}

/-- A new object with the fields `i`. -/
def World.alloc (w : World F R μ) (i : Input F R) : World F R μ :=
  { w with heap := Function.update w.heap w.next i, next := w.next + 1 }

/-- The input a stored solution shows when it is looked at now. -/
def World.shown (w : World F R μ) (s : Stored F R) : Input F R :=
  match s.saved with
  | some i => i
  | none => w.heap s.soln.input

/-- `solution_func` (`stepper.py:261-269`): a copy of the input is solved. -/
noncomputable def solution_func (c : Setup F R) (inp : ℕ) :
    Code (World F R μ) (Soln × Bool) := fun w =>
  let w' := w.alloc (w.heap inp)
  match c.solve (w.heap inp) with
  | .error e => (.error (.py e), w')
  | .ok d => (.ok (⟨d, w.next⟩, is_solution_best d), w')

/-- `writer` (`stepper.py:142-148`). -/
def writer (c : Setup F R) (soln : Soln) : Code (World F R μ) Unit := fun w =>
  match soln.data.flag with
  | none => (.ok (), w)
  | some _ =>
    match w.run.addSolution
        ⟨soln, if c.on_file then some (w.heap soln.input) else none⟩ with
    | .ok (_, r) => (.ok (), { w with run := r })
    | .error e => (.error (.py e), w)

/-- Assigning `run.final_solution` a solution found by `found`. -/
def assign_final (found : Run μ (Stored F R) → Except PyErr (Stored F R)) :
    Code (World F R μ) (Option (Stored F R)) := fun w =>
  match found w.run with
  | .error e => (.error (.py e), w)
  | .ok s =>
    match w.run.setFinal s with
    | .error e => (.error (.py e), w)
    | .ok r => (.ok (some s), { w with run := r })

/-- `cleanup` of `cleanup_generator` (`stepper.py:157-165`). -/
def cleanup (c : Setup F R) (soln : Soln) (_attempt : ℕ) :
    Code (World F R μ) (Option (Stored F R)) :=
  Code.bind (writer c soln) fun _ =>
    if c.no_final_solution then fun w => (.ok none, w)
    else assign_final fun r => r.solutions.getLast

/-- `cleanup` of `alternate_cleanup_generator` (`stepper.py:174-181`). -/
def alternate_cleanup (c : Setup F R) (attempt : ℕ) :
    Code (World F R μ) (Option (Stored F R)) :=
  if c.no_final_solution then fun w => (.ok none, w)
  else assign_final fun r => Dict.getItem r.solutions attempt.repr

/-- `bigger_step` after `k` rounds of the loop at `stepper.py:297-300`. -/
def bigger_step (o : Ops F) (step : F) : ℕ → F
  | 0 => o.zero
  | k + 1 => o.add (bigger_step o step k) step

/-- The new `γ` (`stepper.py:281-300`); floats are compared with `==` and taken
not to be NaN.  While the loop runs `γ` still equals `prev_γ`, so round `k` leaves
`prev_γ + bigger_step`. -/
noncomputable def next_γ (o : Ops F) (γ : F) (t : SplitterStatus) (step : F) :
    Except Stop F :=
  open Classical in
  match t with
  | .STOP => .error .stop
  | .DIVERGE => if o.sub γ step = γ then .error .stop else .ok (o.sub γ step)
  | .SIGN_FLIP =>
    if o.add γ step = γ then
      if h : ∃ k, o.add γ (bigger_step o step (k + 1)) ≠ γ then
        .ok (o.add γ (bigger_step o step (Nat.find h + 1)))
      else .error .hangs
    else .ok (o.add γ step)

/-- `step_func` (`stepper.py:278-301`).  `vars(soln.solution_input)` is the
dictionary of the object itself: the new `γ` is written into the input of the
solution just found, and then copied into a new object. -/
noncomputable def step_func (c : Setup F R) (soln : Soln) (t : SplitterStatus)
    (step : F) : Code (World F R μ) ℕ := fun w =>
  let old := w.heap soln.input
  match next_γ c.ops old.γ t step with
  | .error e => (.error e, w)
  | .ok γ =>
    let w' := { w with heap := Function.update w.heap soln.input { old with γ := γ } }
    (.ok w'.next, w'.alloc { old with γ := γ })

/-- Calling the splitter; the `human` one remembers the solution. -/
def get_soln_type (split : Splitter) (soln : Soln) :
    Code (World F R μ) SplitterStatus := fun w =>
  match split w.seen soln.data with
  | .error e => (.error (.py e), { w with seen := w.seen ++ [soln.data] })
  | .ok t => (.ok t, { w with seen := w.seen ++ [soln.data] })

/-- The part of `stepper` that chooses the step size (`stepper.py:114-134`). -/
def choose_step (c : Setup F R) (t : SplitterStatus) (v : StepperVars F) :
    Except Stop F × StepperVars F :=
  if !v.binary_started then
    let v := { v with search_steps := v.search_steps + 1 }
    if v.search_steps > c.max_search_steps then (.error .error, v)
    else
      match v.prev_soln_type with
      | some p =>
        if p ≠ t then
          let s := c.ops.half v.step_size
          (.ok s, { v with binary_started := true, step_size := s })
        else (.ok v.step_size, v)
      | none => (.ok v.step_size, { v with prev_soln_type := some t })
  else
    let s := c.ops.half v.step_size
    (.ok s, { v with step_size := s })

/-- `choose_step` on the whole state. -/
def choose (c : Setup F R) (t : SplitterStatus) : Code (World F R μ) F := fun w =>
  match choose_step c t w.vars with
  | (r, v) => (r, { w with vars := v })

/-- `stepper` (`stepper.py:106-133`). -/
noncomputable def stepper (c : Setup F R) (split : Splitter) (soln : Soln)
    (_attempt : ℕ) : Code (World F R μ) ℕ :=
  Code.bind (writer c soln) fun _ =>
  Code.bind (get_soln_type split soln) fun t =>
  Code.bind (choose c t) fun step => step_func c soln t step

/-- The search of `solver` (`stepper.py:315-327`) from a run and an input object;
`split` is the splitter made from the input's `split_method`. -/
noncomputable def run_search (c : Setup F R) (split : Splitter)
    (inp : Input F R) (r : Run μ (Stored F R)) (num_attempts : ℕ) :
    Except Stop (Option (Option (Stored F R))) × World F R μ :=
  binary_searcher (solution_func c) (cleanup c) (stepper c split)
    (alternate_cleanup c) 0 num_attempts
    { heap := fun _ => inp, next := 1, run := r,
      vars := { step_size := c.ops.tenth inp.γ } }

/-- `run.final_solution = None` (`_containers.py:629-635`). -/
def clear_final (r : Run μ (Stored F R)) : Except PyErr (Run μ (Stored F R)) :=
  match r.final with
  | .delayed => .ok { r with final := .value none }
  | .value _ => .error .RuntimeError

/-- `isinstance(run.final_solution, Solution)`. -/
def has_final (r : Run μ (Stored F R)) : Bool :=
  match r.final with
  | .value (some _) => true
  | _ => false

/-- `solver` (`stepper.py:306-334`): the flag it returns, and the state. -/
noncomputable def solver (c : Setup F R) (human : List SolnData → SplitterStatus)
    (split_method : String) (inp : Input F R) (r : Run μ (Stored F R))
    (num_attempts : ℕ) : Except Stop Bool × Run μ (Stored F R) × (ℕ → Input F R) :=
  match create_soln_splitter human split_method with
  | .error e => (.error (.py e), r, fun _ => inp)
  | .ok split =>
    match run_search c split inp r num_attempts with
    | (.error e, w) => (.error e, w.run, w.heap)
    | (.ok best, w) =>
      let answer := !(best.join.isNone && !c.no_final_solution)
      if !has_final w.run && !c.no_final_solution then
        match clear_final w.run with
        | .error e => (.error (.py e), w.run, w.heap)
        | .ok r' => (.ok answer, r', w.heap)
      else (.ok answer, w.run, w.heap)

end Stepper

end DiscSolver
