import Verif.Model.Inputs
import Verif.Model.Solution
import Verif.Model.SingleRun

/-!
# Specification: what a sampling run tries, keeps and prefers
-/

namespace DiscSolver.McmcRun

open SingleRun

/-- The text selects a variable: it is one of its comma-separated parts, or the text is empty
or `None`. -/
def Picks (t : Text) (name : String) : Prop :=
  t = [] ∨ t = "None".toList ∨ name.toList ∈ (Text.strip t).splitComma

/-- The parameters which are sampled: `γ` and the selected ones. -/
noncomputable def sampled (t : Text) : List SField :=
  open Classical in
  [.γ] ++ (if Picks t "v_r" then [.v_rin_on_c_s] else []) ++
    (if Picks t "v_a" then [.v_a_on_c_s] else []) ++
    (if Picks t "v_k" then [.c_s_on_v_k] else [])

/-- The value of a parameter which can be sampled. -/
def value (inp : NumInput) : SField → ℝ
  | .γ => inp.γ
  | .v_rin_on_c_s => inp.v_rin_on_c_s
  | .v_a_on_c_s => inp.v_a_on_c_s
  | .c_s_on_v_k => inp.c_s_on_v_k
  | _ => 0

/-- The value at a position: that of the position, or `x` if the parameter is not
sampled. -/
def place (vars : List SField) (p : List ℝ) (f : SField) (x : ℝ) : ℝ :=
  ((vars.zip p).lookup f).getD x

/-- The numbers at a position. -/
def moved (inp : NumInput) (vars : List SField) (p : List ℝ) : NumInput :=
  { inp with
    γ := place vars p .γ inp.γ
    v_rin_on_c_s := place vars p .v_rin_on_c_s inp.v_rin_on_c_s
    v_a_on_c_s := place vars p .v_a_on_c_s inp.v_a_on_c_s
    c_s_on_v_k := place vars p .c_s_on_v_k inp.c_s_on_v_k }

/-- All parameters which can be sampled are positive. -/
def Positive (inp : NumInput) : Prop :=
  0 < inp.γ ∧ 0 < inp.v_rin_on_c_s ∧ 0 < inp.v_a_on_c_s ∧ 0 < inp.c_s_on_v_k

/-- The initial conditions and the solution for these numbers: none if a parameter is not
positive, there is no disc, or the integrator found nothing. -/
noncomputable def attempt (I : Integrator) (str : ℝ → String)
    (interp : List ℝ → List ℝ → Option (ℝ → ℝ)) (o : SolveOpts) (store_internal : Bool)
    (inp : NumInput) : Option (Conditions × SolutionOut) :=
  open Classical in
  if Positive inp then
    match define_conditions inp with
    | none => none
    | some c =>
      match (solution I str interp o c { store_internal }).result with
      | .ok out => some (c, out)
      | .error _ => none
  else none

/-- How good a solution counts: it should become fast, and its steps in `v_θ` should be
even. -/
def Merit (out : SolutionOut) (x : ℝ) : Prop :=
  ∃ m ∈ out.solution.map (·.v_θ), (∀ y ∈ out.solution.map (·.v_θ), y ≤ m) ∧
    x = - 10 * Real.exp (-m) - ∑ i ∈ Finset.range (out.solution.length - 2),
      (((out.solution.map (·.v_θ)).getD (i + 2) 0 - (out.solution.map (·.v_θ)).getD (i + 1) 0) ^ 2 -
        ((out.solution.map (·.v_θ)).getD (i + 1) 0 - (out.solution.map (·.v_θ)).getD i 0) ^ 2) ^ 2

/-- The first of the best solutions, if there are any. -/
def Best (ms : List Made) : Option Made → Prop
  | none => ms = []
  | some m => ∃ (i : ℕ) (x : ℝ), ms[i]? = some m ∧ Merit m.out x ∧
      ∀ (j : ℕ) (m' : Made), ms[j]? = some m' → ∃ y, Merit m'.out y ∧ y ≤ x ∧ (j < i → y < x)

end DiscSolver.McmcRun
