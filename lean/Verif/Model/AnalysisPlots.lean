import Verif.Model.Plots
import Verif.Model.Stats

/-!
# Further plots

`component_plot.py`, `j_e_plot.py`, `combine_plot.py`, `taylor_plot.py`, `acc_plot.py`,
`surface_density_plot.py`, `sonic_ratio_plot.py`, `v_deriv_cmp.py` and
`phys_ratio_plot.py` in `src/disc_solver/analyse`.  As in `Model.Plots` a figure is the
list of its axes with the curves drawn on them.
-/

namespace DiscSolver.AnalysisPlots

open Plots ValidatePlot

/-- The rows with `(start <= degrees(angles)) & (degrees(angles) <= stop)`, computed in
each of the plots. -/
noncomputable def rowsIn {σ : Type} (start stop : ℝ) (rows : List (ℝ × σ)) : List (ℝ × σ) :=
  open Classical in
  rows.filter fun p => decide (start ≤ degrees p.1 ∧ degrees p.1 ≤ stop)

/-- A curve over some rows: the angle in degrees and a value, `ax.plot(degrees(angles[indexes]),
values[indexes], …)` in each of the plots. -/
noncomputable def curveOf {σ : Type} (label : Option String) (rows : List (ℝ × σ))
    (f : ℝ → σ → ℝ) : Curve :=
  { points := rows.map fun p => (degrees p.1, f p.1 p.2), label := label }

/-! ## Components of the equations -/

/-- `deriv_B_r` (`component_plot.py:148-151`). -/
noncomputable def compDerivBr (c : Cons) (θ : ℝ) (s : St) : ℝ :=
  deriv_B_r_func (B_r := s.B_r) (B_φ := s.B_φ) (B_θ := s.B_θ) (η_O := s.η_O)
    (η_H := s.η_H) (η_A := s.η_A) (θ := θ) (v_r := s.v_r) (v_θ := s.v_θ)
    (deriv_B_φ := s.X) (γ := c.γ) (b_r := s.B_r / B_mag s) (b_θ := s.B_θ / B_mag s)
    (b_φ := s.B_φ / B_mag s)

/-- `deriv_v_θ` (`component_plot.py:153-160`). -/
noncomputable def compDerivVθ (c : Cons) (θ : ℝ) (s : St) : ℝ :=
  (s.v_r / 2 * (s.v_θ ^ 2 - 4 * c.γ) + s.v_θ * (
      Real.tan θ * (s.v_φ ^ 2 + 1) + c.a_0 / s.ρ * (
        (1/4 - c.γ) * s.B_θ * s.B_r + s.B_r * compDerivBr c θ s +
        s.B_φ * s.X - s.B_φ ^ 2 * Real.tan θ
      )
    )) / ((1 - s.v_θ) * (1 + s.v_θ))

/-- The denominator used for the polar induction (`component_plot.py:218-220`). -/
noncomputable def compDenominator (s : St) : ℝ :=
  s.η_O + s.η_A * (1 - s.B_φ / B_mag s) * (1 + s.B_φ / B_mag s)

/-- `compute_components` (`component_plot.py:120-257`): for every equation its parts, as
functions of the row.  `norm_kepler` is `sqrt(norm_kepler_sq)`. -/
noncomputable def compute_components (c : Cons) :
    List (String × List (String × (ℝ → St → ℝ))) :=
  [("radial momentum",
    [("radial terms", fun _ s => s.v_r ^ 2 + s.v_θ ^ 2 + 5 / 2 - 2 * c.γ),
     ("keplerian terms", fun _ s =>
       (s.v_φ - Real.sqrt c.norm_kepler_sq) * (s.v_φ + Real.sqrt c.norm_kepler_sq)),
     ("magnetic terms", fun θ s =>
       c.a_0 / s.ρ * (s.B_θ * compDerivBr c θ s +
         (1/4 - c.γ) * (s.B_θ ^ 2 + s.B_φ ^ 2))),
     ("all terms", fun θ s =>
       s.v_r ^ 2 / 2 + s.v_θ ^ 2 + 5/2 - 2 * c.γ +
       (s.v_φ - Real.sqrt c.norm_kepler_sq) * (s.v_φ + Real.sqrt c.norm_kepler_sq) +
       c.a_0 / s.ρ * (s.B_θ * compDerivBr c θ s +
         (1/4 - c.γ) * (s.B_θ ^ 2 + s.B_φ ^ 2)))]),
   ("azimuthal momentum",
    [("non-magnetic terms", fun θ s =>
       s.v_φ * s.v_θ * Real.tan θ - s.v_φ * s.v_r / 2),
     ("magnetic terms", fun θ s => c.a_0 / s.ρ * (
       s.B_θ * s.X - (1/4 - c.γ) * s.B_r * s.B_φ - s.B_θ * s.B_φ * Real.tan θ)),
     ("all terms", fun θ s =>
       s.v_φ * s.v_θ * Real.tan θ - s.v_φ * s.v_r / 2 + c.a_0 / s.ρ * (
         s.B_θ * s.X - (1/4 - c.γ) * s.B_r * s.B_φ - s.B_θ * s.B_φ * Real.tan θ))]),
   ("polar momentum",
    [("no-B no-v_φ terms", fun _ s => s.v_r / 2 * (s.v_θ ^ 2 - 4 * c.γ)),
     ("no-B v_φ terms", fun θ s => s.v_θ * Real.tan θ * (s.v_φ ^ 2 + 1)),
     ("magnetic terms", fun θ s =>
       s.v_θ * c.a_0 / s.ρ * (
         (1/4 - c.γ) * s.B_θ * s.B_r + s.B_r * compDerivBr c θ s +
         s.B_φ * s.X - s.B_φ ^ 2 * Real.tan θ)),
     ("all terms", fun θ s =>
       s.v_r / 2 * (s.v_θ ^ 2 - 4 * c.γ) + s.v_θ * (
         Real.tan θ * (s.v_φ ^ 2 + 1) + c.a_0 / s.ρ * (
           (1/4 - c.γ) * s.B_θ * s.B_r + s.B_r * compDerivBr c θ s +
           s.B_φ * s.X - s.B_φ ^ 2 * Real.tan θ)))]),
   ("continuity",
    [("tan term", fun θ s => s.v_θ * Real.tan θ),
     ("non-tan terms", fun θ s => - (2 * c.γ * s.v_r + compDerivVθ c θ s)),
     ("all terms", fun θ s =>
       - (2 * c.γ * s.v_r + compDerivVθ c θ s) + s.v_θ * Real.tan θ)]),
   ("solenoid condition",
    [("B_θ terms", fun θ s => s.B_θ * Real.tan θ),
     ("B_r terms", fun _ s => - (c.γ + 3/4) * s.B_r),
     ("all terms", fun θ s => s.B_θ * Real.tan θ - (c.γ + 3/4) * s.B_r)]),
   ("polar induction",
    [("v terms", fun _ s => (s.v_θ * s.B_r - s.v_r * s.B_θ) / compDenominator s),
     ("no-η terms", fun _ s => - s.B_θ * (1/4 - c.γ)),
     ("$B_φ'$ terms", fun _ s => - s.X * (
       s.η_H * (s.B_θ / B_mag s) + s.η_A * (s.B_r / B_mag s) * (s.B_φ / B_mag s)) /
       compDenominator s),
     ("$B_φ$ terms", fun θ s => s.B_φ * (
       s.η_A * (s.B_φ / B_mag s) * (
         s.B_r / B_mag s * Real.tan θ - s.B_θ / B_mag s * (1/4 - c.γ)) +
       s.η_H * (s.B_r / B_mag s * (1/4 - c.γ) + s.B_θ / B_mag s * Real.tan θ)) /
       compDenominator s),
     ("all terms", fun θ s =>
       (s.v_θ * s.B_r - s.v_r * s.B_θ - s.X * (
          s.η_H * (s.B_θ / B_mag s) + s.η_A * (s.B_r / B_mag s) * (s.B_φ / B_mag s)) +
        s.B_φ * (
          s.η_A * (s.B_φ / B_mag s) * (
            s.B_r / B_mag s * Real.tan θ - s.B_θ / B_mag s * (1/4 - c.γ)) +
          s.η_H * (s.B_r / B_mag s * (1/4 - c.γ) + s.B_θ / B_mag s * Real.tan θ))) /
       compDenominator s - s.B_θ * (1/4 - c.γ))])]

/-- The axes for one equation (`component_plot.py:93-98, 109-115`). -/
noncomputable def componentAxis (rows : List (ℝ × St))
    (e : String × List (String × (ℝ → St → ℝ))) : Axis :=
  { ylabel := e.1, scale := "linear", legend := true,
    curves := e.2.map fun p => curveOf (some p.1) rows p.2 }

/-- `generate_plot` (`component_plot.py:71-117`); the grid has eight axes. -/
noncomputable def generate_component_plot (c : Cons) (only : Option String)
    (use_E_r : Bool) (start stop : ℝ) (rows : List (ℝ × St)) : Except PyErr (List Axis) :=
  if use_E_r then .error .AnalysisError
  else
    let only := only.getD ""
    if only ≠ "" then
      match (compute_components c).lookup only with
      | none => .error .AnalysisError
      | some comps => .ok [componentAxis (rowsIn start stop rows) (only, comps)]
    else .ok ((compute_components c).take 8 |>.map (componentAxis (rowsIn start stop rows)))

/-! ## Currents and electric fields -/

/-- The values drawn by `generate_plot` of `j_e_plot.py:111-145`, one row. -/
noncomputable def jeValues (γ θ : ℝ) (s : St) : (ℝ × ℝ × ℝ) × (ℝ × ℝ × ℝ) :=
  let deriv_B_r := deriv_B_r_func (γ := γ) (θ := θ) (v_r := s.v_r) (v_θ := s.v_θ)
    (B_r := s.B_r) (B_θ := s.B_θ) (B_φ := s.B_φ) (η_O := s.η_O) (η_A := s.η_A)
    (η_H := s.η_H) (deriv_B_φ := s.X) (b_r := s.B_r / B_mag s) (b_φ := s.B_φ / B_mag s)
    (b_θ := s.B_θ / B_mag s)
  let J := J_func (γ := γ) (θ := θ) (B_θ := s.B_θ) (B_φ := s.B_φ) (deriv_B_φ := s.X)
    (deriv_B_r := deriv_B_r)
  (J, E_func (v_r := s.v_r) (v_θ := s.v_θ) (v_φ := s.v_φ) (B_r := s.B_r) (B_θ := s.B_θ)
    (B_φ := s.B_φ) (J_r := J.1) (J_θ := J.2.1) (J_φ := J.2.2) (η_O := s.η_O)
    (η_A := s.η_A) (η_H := s.η_H))

/-- One of the axes (`j_e_plot.py:155-201`). -/
noncomputable def jeAxis (rows : List (ℝ × St)) (label : String) (f : ℝ → St → ℝ) : Axis :=
  { ylabel := label, scale := "linear", legend := false, curves := [curveOf none rows f] }

/-- `generate_plot` (`j_e_plot.py:102-203`). -/
noncomputable def generate_je_plot (γ : ℝ) (use_E_r : Bool) (start stop : ℝ)
    (rows : List (ℝ × St)) : Except PyErr (List Axis) :=
  if use_E_r then .error .AnalysisError
  else
    let rows := rowsIn start stop rows
    .ok [jeAxis rows "$J_r$" fun θ s => (jeValues γ θ s).1.1,
      jeAxis rows "$J_θ$" fun θ s => (jeValues γ θ s).1.2.1,
      jeAxis rows "$J_φ$" fun θ s => (jeValues γ θ s).1.2.2,
      jeAxis rows "$E_r$" fun θ s => (jeValues γ θ s).2.1,
      jeAxis rows "$E_θ$" fun θ s => (jeValues γ θ s).2.2.1,
      jeAxis rows "$E_φ$" fun θ s => (jeValues γ θ s).2.2.2]

/-! ## Physical units -/

/-- `KM` (`constants.py:9`). -/
def KM : ℝ := 100000

/-- The norms used: `B_norm`, `v_norm` and `ρ_norm`. -/
structure Norms where
  B : ℝ
  v : ℝ
  ρ : ℝ

/-- One line of `plot_props` (`combine_plot.py:110-180, 191-202`): its values before the
normalisation, and the offset. -/
structure Line where
  label : String
  value : St → ℝ
  offset : ℝ := 0

/-- One entry of `plot_props`. -/
structure Props where
  normalisation : ℝ
  ylabel : String
  scale : String := "linear"
  lines : List Line

/-- `plot_props` (`combine_plot.py:108-180`).  The wave speeds are those of the row. -/
noncomputable def combineProps (n : Norms) (norm_kepler_sq : ℝ) (o : Opts) : List Props :=
  [{ normalisation := n.v / KM, ylabel := "Velocity Field (km/s)",
     lines :=
      [{ label := "$v_r$", value := St.v_r },
       { label := "$v_φ - v_k$", value := St.v_φ,
         offset := Real.sqrt norm_kepler_sq * n.v / KM },
       { label := "$v_θ$", value := St.v_θ }] ++
      (if o.with_slow then
        [{ label := "slow", value := fun s => Real.sqrt (mhd_wave_speeds s 1).slow }]
        else []) ++
      (if o.with_alfven then
        [{ label := "alfven", value := fun s => Real.sqrt (mhd_wave_speeds s 1).alfven }]
        else []) ++
      (if o.with_fast then
        [{ label := "fast", value := fun s => Real.sqrt (mhd_wave_speeds s 1).fast }]
        else []) ++
      (if o.with_sonic then [{ label := "$c_s$", value := fun _ => 1 }] else []) },
   { ylabel := "Density (g cm$^{-3}$)", normalisation := n.ρ, scale := "log",
     lines := [{ label := "$ρ$", value := St.ρ }] },
   { normalisation := n.B, ylabel := "Magnetic Field (G)",
     lines := [{ label := "$B_r$", value := St.B_r }, { label := "$B_φ$", value := St.B_φ },
       { label := "$B_θ$", value := St.B_θ }] }]

/-- `generate_plot_combine` (`combine_plot.py:91-208`). -/
noncomputable def generate_plot_combine (n : Norms) (norm_kepler_sq : ℝ) (o : Opts)
    (rows : List (ℝ × St)) : List Axis :=
  (combineProps n norm_kepler_sq o).map fun p =>
    { ylabel := p.ylabel, scale := p.scale, legend := true,
      curves := p.lines.map fun l => curveOf (some l.label) (rowsIn o.start o.stop rows)
        fun _ s => l.value s * p.normalisation - l.offset }

/-! ## Comparison with the Taylor series -/

/-- One row of the internal data used: the derivatives found in the two ways
(`taylor_plot.py:86-93`). -/
structure TaylorRow where
  v_r_normal : ℝ
  v_φ_normal : ℝ
  ρ_normal : ℝ
  v_r_taylor : ℝ
  v_φ_taylor : ℝ
  ρ_taylor : ℝ

/-- The two curves drawn for one column with `--show-values`: values from zero upwards and
the negatives of the others (`taylor_plot.py:95-155`). -/
noncomputable def signedCurves {σ : Type} (rows : List (ℝ × σ)) (f : σ → ℝ) : List Curve :=
  open Classical in
  [{ points := (rows.filter fun p => decide (0 ≤ f p.2)).map fun p =>
      (degrees p.1, f p.2), color := some "C0" },
   { points := (rows.filter fun p => decide (f p.2 < 0)).map fun p =>
      (degrees p.1, - f p.2), color := some "C1" }]

/-- The curve of the ratio (`taylor_plot.py:156-168`): `deriv_angles` already is in
degrees.  Simplification: division by zero, `inf` or NaN in the code, is that of `ℝ`. -/
noncomputable def ratioCurve (rows : List (ℝ × TaylorRow)) (f g : TaylorRow → ℝ) :
    List Curve :=
  [{ points := rows.map fun p => (degrees (degrees p.1), |f p.2 / g p.2|) }]

/-- `generate_taylor_plot` (`taylor_plot.py:74-178`); `ylabel` holds the title. -/
noncomputable def generate_taylor_plot (show_values : Bool) (_start _stop : ℝ)
    (internal : Option (List (ℝ × TaylorRow))) : Except PyErr (List Axis) :=
  match internal with
  | none => .error .AnalysisError
  | some rows =>
    let curves (f g : TaylorRow → ℝ) : List Curve :=
      if show_values then signedCurves rows f ++ signedCurves rows g
      else ratioCurve rows f g
    .ok [{ ylabel := "v_r", scale := "log", legend := false,
           curves := curves TaylorRow.v_r_normal TaylorRow.v_r_taylor },
         { ylabel := "v_φ", scale := "log", legend := false,
           curves := curves TaylorRow.v_φ_normal TaylorRow.v_φ_taylor },
         { ylabel := "ρ", scale := "log", legend := false,
           curves := curves TaylorRow.ρ_normal TaylorRow.ρ_taylor }]

/-! ## Accretion and surface density -/

/-- `AU` (`constants.py:7`), in centimetres. -/
noncomputable def AU : ℝ := 1.4957871e13

/-- `M_SUN` (`constants.py:8`), in grams. -/
noncomputable def M_SUN : ℝ := 2e33

/-- `YEAR` (`constants.py:10`), in seconds. -/
noncomputable def YEAR : ℝ := 31557600

/-- `ACC_CONSTANT` (`acc_plot.py:17-18`). -/
noncomputable def ACC_CONSTANT : ℝ := (AU ^ 2 / (30 * KM)) / (M_SUN / YEAR)

/-- `WIND_CONSTANT` (`acc_plot.py:19-20`). -/
noncomputable def WIND_CONSTANT : ℝ := (Real.pi * AU ^ 2) / (M_SUN / YEAR)

/-- `generate_acc_plot` (`acc_plot.py:66-93`): `start` and `stop` are not used. -/
noncomputable def generate_acc_plot (n : Norms) (_start _stop : ℝ)
    (rows : List (ℝ × St)) : List Axis :=
  open Classical in
  let shown := rows.filter fun p => decide (degrees p.1 < 1)
  [{ ylabel := "", scale := "linear", legend := false,
     curves := [curveOf none shown fun _ s =>
       s.B_θ * n.B * (s.B_φ * n.B) * ACC_CONSTANT] },
   { ylabel := "", scale := "linear", legend := false,
     curves := [curveOf none shown fun _ s => s.v_θ * n.v * (s.ρ * n.ρ) * WIND_CONSTANT] }]

/-- `numpy.cumsum`. -/
noncomputable def cumsum (a : ℝ) : List ℝ → List ℝ
  | [] => []
  | x :: l => (a + x) :: cumsum (a + x) l

/-- `generate_surface_density_plot` (`surface_density_plot.py:60-79`). -/
noncomputable def generate_surface_density_plot (start stop : ℝ) (rows : List (ℝ × St)) :
    Axis :=
  { ylabel := "σ", scale := "linear", legend := false,
    curves := [⟨inRange start stop (rows.map fun p => degrees p.1)
      (cumsum 0 (rows.map fun p => p.2.ρ)), none, none⟩] }

/-! ## Several solutions -/

/-- The curves of `generate_plot` of `sonic_ratio_plot.py:60-96` on the two axes; a Mach
number that is not finite is `none`. -/
noncomputable def sonicRatioCurves (P : Palettes) (num_solutions : ℕ) (start stop : ℝ)
    (solutions : List (String × Soln)) (mach : Machs → Option ℝ) :
    List (String × String × List (ℝ × Option ℝ)) :=
  (solutions.zip (distinct_color_map P num_solutions)).map fun p =>
    (p.1.1, p.2, (rowsIn start stop p.1.2.rows).map fun r =>
      (degrees r.1, mach (get_mach_numbers r.2)))

/-- The loop of `generate_plot` of `v_deriv_cmp.py:61-95`: solutions with their internal
data. -/
noncomputable def vDerivCurves (start stop : ℝ) :
    List ((String × Option (List (ℝ × St))) × String) → Except PyErr (List Curve)
  | [] => .ok []
  | ((name, none), _) :: _ => (fun _ => .error .AnalysisError) name
  | ((name, some rows), color) :: l =>
    match vDerivCurves start stop l with
    | .error e => .error e
    | .ok cs => .ok ({ (curveOf (some name) (rowsIn start stop rows) fun _ s => s.v_θ) with
        color := some color } :: cs)

/-! ## Ratios -/

/-- `MARKER_LIST` (`phys_ratio_plot.py:17-20`). -/
def MARKER_LIST : List String :=
  [".", "o", "v", "^", "<", ">", "1", "2", "3", "4", "8", "s", "p", "*", "h", "H", "+", "x",
   "D", "d", "P", "X"]

/-- `TAB_COLOR_MAP` (`phys_ratio_plot.py:22-33`). -/
def TAB_COLOR_MAP : Dict String String :=
  [("C0", "blue"), ("C1", "orange"), ("C2", "green"), ("C3", "red"), ("C4", "purple"),
   ("C5", "brown"), ("C6", "pink"), ("C7", "gray"), ("C8", "olive"), ("C9", "cyan")]

/-- The colour names `'C' + str(n)` for `n < 10`. -/
def colorName (n : ℕ) : String :=
  (["C0", "C1", "C2", "C3", "C4", "C5", "C6", "C7", "C8", "C9"][n]?).getD ""

/-- A mapping from the values met to names, with its counter (`phys_ratio_plot.py:98-101`).
Keys are looked up as Python does, by equality. -/
structure Mapping where
  count : ℕ
  map : List (ℝ × String)

/-- `if x not in mapping: …` and then `mapping[x]` (`phys_ratio_plot.py:108-116`): the name
of `x` and the mapping after.  `name` is the name for a counter, `size` where the counter
starts again. -/
noncomputable def Mapping.assign (name : ℕ → String) (size : ℕ) (m : Mapping) (x : ℝ) :
    String × Mapping :=
  open Classical in
  match m.map.lookup x with
  | some s => (s, m)
  | none => (name m.count, ⟨(m.count + 1) % size, m.map ++ [(x, name m.count)]⟩)

/-- One solution as far as `phys_ratio_plot` reads it. -/
structure Ratio where
  η_A : ℝ
  a_0 : ℝ
  v_r : ℝ
  c_s_on_v_k : ℝ
  γ : ℝ
  rows : List (ℝ × St)

/-- One point of the figure: position on the two axes, marker and colour. -/
structure Mark where
  x : ℝ
  y₀ : ℝ
  y₁ : ℝ
  marker : String
  color : String
  label : String

/-- The points drawn for one solution (`phys_ratio_plot.py:118-129`). -/
noncomputable def markOf (name : String) (s : Ratio) (rows : List (ℝ × St)) (ratio : ℝ)
    (marker color : String) : Mark where
  x := s.η_A / s.c_s_on_v_k
  y₀ := s.a_0 / Stats.compute_Sigma rows
  y₁ := ratio
  marker := marker
  color := color
  label := name

/-- The loop of `generate_plot` (`phys_ratio_plot.py:103-129`): the marks, and the mappings
which are printed afterwards.  Divisions by zero are those of `ℝ`; `r_in` and `r_out` have
their defaults. -/
noncomputable def ratioLoop (simps : List (ℝ × ℝ) → ℝ) (start stop : ℝ) :
    List (String × Ratio) → Mapping → Mapping →
      Except PyErr (List Mark × Mapping × Mapping)
  | [], v, a => .ok ([], v, a)
  | (name, s) :: l, v, a =>
    let c := v.assign colorName 10 s.v_r
    let m := a.assign (fun n => (MARKER_LIST[n]?).getD "") MARKER_LIST.length s.a_0
    let rows := rowsIn start stop s.rows
    match Stats.compute_M_dot_out_on_M_dot_in simps s.γ 0.1 100 rows with
    | .error e => .error e
    | .ok ratio =>
      match ratioLoop simps start stop l c.2 m.2 with
      | .error e => .error e
      | .ok (marks, v', a') =>
        .ok (markOf name s rows ratio m.1 c.1 :: marks, v', a')

/-- The names of the colours printed (`phys_ratio_plot.py:131-132`). -/
def printedColors : List (ℝ × String) → Except PyErr (List (ℝ × String × String))
  | [] => .ok []
  | (x, color) :: l =>
    match TAB_COLOR_MAP.getItem color with
    | .error e => .error e
    | .ok name =>
      match printedColors l with
      | .error e => .error e
      | .ok r => .ok ((x, color, name) :: r)

/-- `generate_plot` (`phys_ratio_plot.py:80-137`): the marks and the printed names of the
colours, where `TAB_COLOR_MAP[color]` may raise `KeyError`. -/
noncomputable def generate_ratio_plot (simps : List (ℝ × ℝ) → ℝ) (start stop : ℝ)
    (solutions : List (String × Ratio)) :
    Except PyErr (List Mark × List (ℝ × String × String) × List (ℝ × String)) :=
  match ratioLoop simps start stop solutions ⟨0, []⟩ ⟨0, []⟩ with
  | .error e => .error e
  | .ok (marks, v, a) =>
    match printedColors v.map with
    | .error e => .error e
    | .ok printed => .ok (marks, printed, a.map)

end DiscSolver.AnalysisPlots
