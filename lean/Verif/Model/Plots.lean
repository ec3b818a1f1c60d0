import Verif.Model.Scaling
import Verif.Model.Waves
import Verif.Model.ValidatePlot

/-!
# Plots

`src/disc_solver/analyse/utils.py:38-144, 489-509, 539-549` and the `generate_*`
functions of `plot.py`, `compare_plot.py`, `vert_plot.py`, `params_plot.py`,
`derivs_plot.py` and `conserve_plot.py` in `src/disc_solver/analyse`.  A figure is the
list of its axes with the curves drawn on them.  Layout, line styles, titles and what
`matplotlib` does with the curves are left out.

`COMMON_ARGUMENTS` is a module-level dictionary of dictionaries which every call of
`get_common_arguments` writes to, so it is a state passed from call to call.
-/

namespace DiscSolver.Plots

/-- The keys of `COMMON_ARGUMENTS` (`analyse/utils.py:38-76`). -/
inductive Param where
  | B_r | B_φ | B_θ | B_z | v_r | v_φ | v_θ | v_z | ρ | B_φ_prime | E_r
deriving DecidableEq

/-- An additional line. -/
structure Extra where
  label : String
  data : List ℝ

/-- One of the dictionaries in `COMMON_ARGUMENTS`; `none` is a missing key.  An offset,
which may be a number or an array, is given for each row. -/
@[ext] structure Settings where
  name : String
  scale : Option String := none
  legend : Bool := false
  extras : Option (List Extra) := none
  offset : Option (ℕ → ℝ) := none

/-- The state of `COMMON_ARGUMENTS`. -/
abbrev Common := Param → Settings

/-- `COMMON_ARGUMENTS` when the module was imported (`analyse/utils.py:38-76`). -/
def COMMON_ARGUMENTS : Common
  | .B_r => { name := "$B_r/B_0$" }
  | .B_φ => { name := "$B_φ/B_0$" }
  | .B_θ => { name := "$B_θ/B_0$" }
  | .B_z => { name := "$B_z/B_0$" }
  | .v_r => { name := "$v_r/c_s$" }
  | .v_φ => { name := "$(v_φ - v_k)/c_s$" }
  | .v_θ => { name := "$v_θ/c_s$", legend := true }
  | .v_z => { name := "$v_z/c_s$", legend := true }
  | .ρ => { name := "$ρ/ρ_0$", scale := some "log" }
  | .B_φ_prime => { name := "$B_φ'/B_0$" }
  | .E_r => { name := "$E_r/E_0$" }

/-- `PlotOrdering` (`analyse/utils.py:78-85`). -/
inductive Ordering where
  | E_r | B_φ_prime | E_r_vert | B_φ_prime_vert
deriving DecidableEq

/-- `PLOT_ORDERINGS` (`analyse/utils.py:89-100`). -/
def PLOT_ORDERINGS : Ordering → List Param
  | .B_φ_prime => [.B_r, .B_φ, .B_θ, .v_r, .v_φ, .v_θ, .ρ, .B_φ_prime]
  | .E_r => [.B_r, .B_φ, .B_θ, .v_r, .v_φ, .v_θ, .ρ, .E_r]
  | .B_φ_prime_vert => [.B_r, .B_φ, .B_z, .v_r, .v_φ, .v_z, .ρ, .B_φ_prime]
  | .E_r_vert => [.B_r, .B_φ, .B_z, .v_r, .v_φ, .v_z, .ρ, .E_r]

/-- Changing one of the dictionaries: `args[i][…] = …`, where `args[i]` is the dictionary
of `params[i]` itself.  An index out of range does not occur. -/
def modify (c : Common) (params : List Param) (i : ℕ) (f : Settings → Settings) : Common :=
  match params[i]? with
  | some p => fun q => if q = p then f (c q) else c q
  | none => c

/-- The arguments of `get_common_arguments` (`analyse/utils.py:118-121`).  `kepler` is
`sqrt(initial_conditions.norm_kepler_sq)`. -/
structure CommonArgs where
  ordering : Ordering
  v_θ_scale : String := "linear"
  kepler : ℝ
  no_v_φ_offset : Bool := false
  v_φ_offset : Option (ℕ → ℝ) := none

/-- `get_common_arguments` (`analyse/utils.py:118-140`): the parameters whose
dictionaries are returned, and the state after.  `ODEIndex.v_θ` and
`CylindricalODEIndex.v_z` are 5, `ODEIndex.v_φ` is 4. -/
def get_common_arguments (a : CommonArgs) (c : Common) : List Param × Common :=
  let params := PLOT_ORDERINGS a.ordering
  let c := if .v_θ ∈ params then
      modify (modify c params 5 fun s => { s with scale := some a.v_θ_scale })
        params 5 fun s => { s with extras := some [] }
    else c
  let c := if .v_z ∈ params then
      modify c params 5 fun s => { s with extras := some [] }
    else c
  let c := match a.v_φ_offset with
    | some o => if .v_φ ∈ params then
        modify c params 4 fun s => { s with offset := some o } else c
    | none => if !a.no_v_φ_offset && decide (.v_φ ∈ params) then
        modify c params 4 fun s => { s with offset := some fun _ => a.kepler } else c
  (params, c)

/-- `param_names[i]["extras"].append(extra)`; `KeyError` without that key does not
occur. -/
def addExtra (c : Common) (params : List Param) (i : ℕ) (e : Extra) : Common :=
  modify c params i fun s => { s with extras := some (s.extras.getD [] ++ [e]) }

/-- Several of them. -/
def addExtras (c : Common) (params : List Param) (i : ℕ) (es : List Extra) : Common :=
  es.foldl (fun c e => addExtra c params i e) c

/-- A curve: points, label, colour. -/
structure Curve where
  points : List (ℝ × ℝ)
  label : Option String := none
  color : Option String := none

/-- Axes: label, scale, whether there is a legend, and what is drawn in order. -/
structure Axis where
  ylabel : String
  scale : String
  legend : Bool
  curves : List Curve

/-- Column `i` of a solution (`ODEIndex`, `utils.py:57-72`). -/
def col : ℕ → St → ℝ
  | 0, s => s.B_r | 1, s => s.B_φ | 2, s => s.B_θ | 3, s => s.v_r | 4, s => s.v_φ
  | 5, s => s.v_θ | 6, s => s.ρ | 7, s => s.X | 8, s => s.η_O | 9, s => s.η_A
  | _, s => s.η_H

/-- Column `i` of a cylindrical solution (`CylindricalODEIndex`, `utils.py:75-90`). -/
def cylCol : ℕ → CylSt → ℝ
  | 0, s => s.B_R | 1, s => s.B_φ | 2, s => s.B_z | 3, s => s.v_R | 4, s => s.v_φ
  | 5, s => s.v_z | 6, s => s.ρ | 7, s => s.X | 8, s => s.η_O | 9, s => s.η_A
  | _, s => s.η_H

/-- `x[indexes], y[indexes]` for arrays over the rows, where `indexes` selects
`start <= x <= stop`. -/
noncomputable def inRange (start stop : ℝ) (x y : List ℝ) : List (ℝ × ℝ) :=
  open Classical in
  (x.zip y).filter fun p => decide (start ≤ p.1 ∧ p.1 ≤ stop)

/-- `values - settings.get("offset", 0)`. -/
def minusOffset (s : Settings) (values : List ℝ) : List ℝ :=
  values.zipIdx.map fun p => p.1 - (s.offset.getD fun _ => 0) p.2

/-- A solution as far as it is plotted. -/
structure Soln where
  rows : List (ℝ × St)
  kepler : ℝ
  sonic : Option (ℝ × St) := none
  roots : Option (List (ℝ × St)) := none

/-- `degrees(angles)`. -/
noncomputable def Soln.degrees (s : Soln) : List ℝ :=
  s.rows.map fun p => ValidatePlot.degrees p.1

/-- The options of `generate_plot` in `plot.py:95-100` (`linestyle` and layout left
out). -/
structure Opts where
  with_slow : Bool := false
  with_alfven : Bool := false
  with_fast : Bool := false
  with_sonic : Bool := false
  start : ℝ := 0
  stop : ℝ := 90
  v_θ_scale : String := "linear"
  use_E_r : Bool := false
  hide_roots : Bool := false
  hide_sonic_angle : Bool := false

/-- The call of `get_common_arguments` in `plot.py:120-122` and `compare_plot.py:98-100`. -/
def plotArgs (o : Opts) (s : Soln) : CommonArgs where
  ordering := if o.use_E_r then .E_r else .B_φ_prime
  v_θ_scale := o.v_θ_scale
  kepler := s.kepler

/-- The extra lines asked for (`plot.py:124-143`). -/
noncomputable def speedExtras (o : Opts) (s : Soln) : List Extra :=
  (if o.with_slow then
    [⟨"slow", s.rows.map fun p => Real.sqrt (mhd_wave_speeds p.2 1).slow⟩] else []) ++
  (if o.with_alfven then
    [⟨"alfven", s.rows.map fun p => Real.sqrt (mhd_wave_speeds p.2 1).alfven⟩] else []) ++
  (if o.with_fast then
    [⟨"fast", s.rows.map fun p => Real.sqrt (mhd_wave_speeds p.2 1).fast⟩] else []) ++
  (if o.with_sonic then [⟨"sound", s.rows.map fun _ => 1⟩] else [])

/-- The sonic point (`plot.py:167-172`).  The offset of `v_φ` is a number in this plot;
it is taken at row zero. -/
noncomputable def sonicCurve (o : Opts) (s : Soln) (st : Settings) (i : ℕ) : List Curve :=
  match s.sonic with
  | some (a, v) =>
    if o.hide_sonic_angle then []
    else [{ points := [(ValidatePlot.degrees a,
        col i v - (st.offset.getD fun _ => 0) 0)], color := some "red" }]
  | none => []

/-- The roots (`plot.py:173-178`). -/
noncomputable def rootsCurve (o : Opts) (s : Soln) (st : Settings) (i : ℕ) : List Curve :=
  match s.roots with
  | some r =>
    if o.hide_roots then []
    else [{ points := r.map fun p => (ValidatePlot.degrees p.1,
        col i p.2 - (st.offset.getD fun _ => 0) 0), color := some "black" }]
  | none => []

/-- The loop body of `generate_plot` (`plot.py:153-183`) for axis `i`. -/
noncomputable def plotAxis (o : Opts) (s : Soln) (st : Settings) (i : ℕ) : Axis :=
  { ylabel := st.name, scale := st.scale.getD "linear", legend := st.legend,
    curves :=
      [{ points := inRange o.start o.stop s.degrees
          (minusOffset st (s.rows.map fun p => col i p.2)), label := some st.name }] ++
      ((st.extras.getD []).map fun e =>
        { points := inRange o.start o.stop s.degrees e.data, label := some e.label }) ++
      sonicCurve o s st i ++ rootsCurve o s st i }

/-- The axes for the returned parameters, settings read from the state. -/
def axesOf (params : List Param) (c : Common) (f : Settings → ℕ → Axis) : List Axis :=
  params.zipIdx.map fun p => f (c p.1) p.2

/-- `generate_plot` of `plot.py:94-184`. -/
noncomputable def generate_plot (o : Opts) (s : Soln) (c : Common) : List Axis × Common :=
  let a := get_common_arguments (plotArgs o s) c
  let c := addExtras a.2 a.1 5 (speedExtras o s)
  (axesOf a.1 c (plotAxis o s), c)

/-- The options of `generate_plot` in `vert_plot.py:76-79`; `sound` asks for the line at
the speed of sound. -/
structure VertOpts where
  with_sonic : Bool := false
  start : ℝ := 0
  stop : ℝ := 90
  use_E_r : Bool := false
  γ : ℝ
  c_s_on_v_k : ℝ

/-- The rows converted (`vert_plot.py:88-90`). -/
noncomputable def vertRows (o : VertOpts) (s : Soln) : Except ScaleError (List (ℝ × CylSt)) :=
  s.rows.mapM fun p => convert_spherical_to_cylindrical p.1 p.2 o.use_E_r o.γ o.c_s_on_v_k

/-- `sqrt(cons.norm_kepler_sq / get_vertical_scaling(angles, …))`
(`vert_plot.py:99-104`); rows beyond the end do not matter. -/
noncomputable def vertOffset (o : VertOpts) (s : Soln) (norm_kepler_sq : ℝ) (n : ℕ) : ℝ :=
  match s.rows[n]? with
  | some p => Real.sqrt (norm_kepler_sq / get_vertical_scaling p.1 o.c_s_on_v_k)
  | none => 0

/-- The loop body of `generate_plot` of `vert_plot.py:122-139`. -/
noncomputable def vertAxis (o : VertOpts) (rows : List (ℝ × CylSt)) (st : Settings)
    (i : ℕ) : Axis :=
  { ylabel := st.name, scale := st.scale.getD "linear", legend := st.legend,
    curves :=
      [{ points := inRange o.start o.stop (rows.map (·.1))
          (minusOffset st (rows.map fun p => cylCol i p.2)), label := some st.name }] ++
      ((st.extras.getD []).map fun e =>
        { points := inRange o.start o.stop (rows.map (·.1)) e.data,
          label := some e.label }) }

/-- `generate_plot` of `vert_plot.py:75-139`.  The conversion is refused before the
shared settings are touched. -/
noncomputable def generate_vert_plot (o : VertOpts) (s : Soln) (norm_kepler_sq : ℝ)
    (c : Common) : Except ScaleError (List Axis) × Common :=
  match vertRows o s with
  | .error e => (.error e, c)
  | .ok rows =>
    let a := get_common_arguments
      { ordering := if o.use_E_r then .E_r_vert else .B_φ_prime_vert,
        kepler := s.kepler, v_φ_offset := some (vertOffset o s norm_kepler_sq) } c
    let c := addExtras a.2 a.1 5
      (if o.with_sonic then [⟨"sound", rows.map fun _ => 1⟩] else [])
    (.ok (axesOf a.1 c (vertAxis o rows)), c)

/-- `plot_log_lines` (`analyse/utils.py:539-547`): values from zero upwards and the
negatives of the others. -/
noncomputable def logCurves (points : List (ℝ × ℝ)) : List Curve :=
  open Classical in
  [{ points := points.filter fun p => decide (0 ≤ p.2) },
   { points := (points.filter fun p => !decide (0 ≤ p.2)).map fun p => (p.1, -p.2) }]

/-- The loop body of `generate_params_plot` and `generate_derivs_plot`
(`params_plot.py:85-92`, `derivs_plot.py:96-112`); `nolog` only exists for the second. -/
noncomputable def internalAxis (start stop : ℝ) (nolog : Bool) (rows : List (ℝ × St))
    (st : Settings) (i : ℕ) : Axis :=
  let points := inRange start stop (rows.map fun p => ValidatePlot.degrees p.1)
    (rows.map fun p => col i p.2)
  { ylabel := st.name, scale := if nolog then "linear" else "log", legend := false,
    curves := if nolog then [{ points := points }] else logCurves points }

/-- `generate_params_plot` (`params_plot.py:58-92`); `internal` are the angles and
parameters of the internal data. -/
noncomputable def generate_params_plot (use_E_r : Bool) (start stop kepler : ℝ)
    (internal : Option (List (ℝ × St))) (c : Common) : Except PyErr (List Axis) × Common :=
  if use_E_r then (.error .AnalysisError, c)
  else
    match internal with
    | none => (.error .AnalysisError, c)
    | some rows =>
      let a := get_common_arguments { ordering := .B_φ_prime, kepler := kepler } c
      (.ok (axesOf a.1 a.2 (internalAxis start stop false rows)), a.2)

/-- `generate_derivs_plot` (`derivs_plot.py:72-113`); `internal` are the angles and
derivatives. -/
noncomputable def generate_derivs_plot (use_E_r nolog : Bool) (start stop kepler : ℝ)
    (internal : Option (List (ℝ × St))) (c : Common) : Except PyErr (List Axis) × Common :=
  match internal with
  | none => (.error .AnalysisError, c)
  | some rows =>
    let a := get_common_arguments
      { ordering := if use_E_r then .E_r else .B_φ_prime, kepler := kepler,
        no_v_φ_offset := true } c
    (.ok (axesOf a.1 a.2 (internalAxis start stop nolog rows)), a.2)

/-! ## Colours and several solutions -/

/-- The palettes of the libraries, with their sizes. -/
structure Palettes where
  tab10 : List String
  tab20 : List String
  light10 : List String
  medium10 : List String
  /-- `GREYS(linspace(0.1, 0.9, num=n))` -/
  greys : ℕ → List String
  size10 : tab10.length = 10
  size20 : tab20.length = 20
  sizeLight : light10.length = 10
  sizeMedium : medium10.length = 10
  sizeGreys : ∀ n, (greys n).length = n

/-- `distinct_color_map` (`analyse/utils.py:489-509`). -/
def distinct_color_map (P : Palettes) (size : ℕ) : List String :=
  let tab30 := P.tab10 ++ P.light10 ++ P.medium10
  if size ≤ P.tab10.length then P.tab10
  else if size ≤ P.tab20.length then P.tab20
  else if size ≤ tab30.length then tab30
  else P.greys (size - tab30.length) ++ tab30

/-- `solution_loader` of `multiple_solution_plotter` (`analyse/utils.py:205-217`): what
it yields before it ends or raises.  `load` is opening the file and getting the solution;
`None` is skipped. -/
def solutionLoader {α σ : Type} (load : α → Except PyErr (Option σ)) (name : α → String) :
    List α → List (String × σ) × Option PyErr
  | [] => ([], none)
  | a :: l =>
    match load a with
    | .error e => ([], some e)
    | .ok none => solutionLoader load name l
    | .ok (some s) =>
      ((name a, s) :: (solutionLoader load name l).1, (solutionLoader load name l).2)

/-- `for (soln_name, soln), color in zip(solutions, colors)`: the triples the body of the
loop gets.  An exception of `solutions` is raised unless the colours ended before. -/
def zipColors {σ : Type} (solutions : List (String × σ) × Option PyErr)
    (colors : List String) : List ((String × σ) × String) × Option PyErr :=
  (solutions.1.zip colors,
    if solutions.1.length ≤ colors.length then solutions.2 else none)

/-- The body of the inner loop (`compare_plot.py:102-111`). -/
noncomputable def compareAxis (o : Opts) (name : String) (s : Soln) (color : String)
    (st : Settings) (i : ℕ) : Axis where
  ylabel := st.name
  scale := st.scale.getD "linear"
  legend := false
  curves :=
    [{ points := inRange o.start o.stop s.degrees
         (minusOffset st (s.rows.map fun p => col i p.2))
       label := some name
       color := some color }]

/-- The loop of `generate_plot` of `compare_plot.py:90-112`: one list of axes for each
solution, drawn on the same figure. -/
noncomputable def compareLoop (o : Opts) : List ((String × Soln) × String) → Common →
    List (List Axis) × Common
  | [], c => ([], c)
  | ((name, s), color) :: l, c =>
    let a := get_common_arguments (plotArgs o s) c
    let rest := compareLoop o l a.2
    (axesOf a.1 a.2 (compareAxis o name s color) :: rest.1, rest.2)

/-- `generate_plot` of `compare_plot.py:75-113` under `multiple_solution_plotter`. -/
noncomputable def generate_compare_plot {α : Type} (P : Palettes) (o : Opts)
    (load : α → Except PyErr (Option Soln)) (name : α → String) (pairs : List α)
    (c : Common) : Except PyErr (List (List Axis)) × Common :=
  let z := zipColors (solutionLoader load name pairs) (distinct_color_map P pairs.length)
  let r := compareLoop o z.1 c
  match z.2 with
  | some e => (.error e, r.2)
  | none => (.ok r.1, r.2)

/-- The selection of `diverge_plot` (`diverge_plot.py:162-166`): the solutions asked for
in the order asked for. -/
def selectSolutions {σ : Type} (solutions : Dict String σ) (filter : Option (List String)) :
    Except PyErr (List (String × σ)) :=
  match filter with
  | none => .ok solutions
  | some ids => ids.mapM fun i => (Dict.getItem solutions i).map fun s => (i, s)

/-- The curves of `generate_conserve_plot` (`conserve_plot.py:63-73`): `ρ v_θ`. -/
noncomputable def conserveCurves (P : Palettes) (start stop : ℝ)
    (solutions : List (String × Soln)) : List Curve :=
  (solutions.zip (distinct_color_map P solutions.length)).map fun p =>
    { points := inRange start stop p.1.2.degrees (p.1.2.rows.map fun r => r.2.ρ * r.2.v_θ),
      label := some p.1.1, color := some p.2 }

/-- The curves of `generate_diverge_plot` (`diverge_plot.py:104-146`). -/
noncomputable def divergeCurves (P : Palettes) (o : Opts)
    (solutions : List (String × Soln)) : List Curve :=
  (solutions.zip (distinct_color_map P solutions.length)).flatMap fun p =>
    let line := fun (label : String) (y : List ℝ) =>
      ({ points := inRange o.start o.stop p.1.2.degrees y, label := some label,
         color := some p.2 } : Curve)
    [line p.1.1 (p.1.2.rows.map fun r => r.2.v_θ)] ++
    (if o.with_slow then
      [line "slow" (p.1.2.rows.map fun r => Real.sqrt (mhd_wave_speeds r.2 1).slow)] else []) ++
    (if o.with_alfven then
      [line "alfven" (p.1.2.rows.map fun r => Real.sqrt (mhd_wave_speeds r.2 1).alfven)]
      else []) ++
    (if o.with_fast then
      [line "fast" (p.1.2.rows.map fun r => Real.sqrt (mhd_wave_speeds r.2 1).fast)] else [])

end DiscSolver.Plots
