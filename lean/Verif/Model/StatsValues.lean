import Mathlib.Data.EReal.Basic
import Verif.Model.Stats
import Verif.Model.Scaling

/-!
# The numbers `ds-stats` reports

The functions in `STATS_FUNCS` (`src/disc_solver/analyse/stats.py:66-209`).  Here a float is
NaN (`none`) or an extended real, so that a Mach number relative to a wave of no speed is the
`inf` the code computes.  Negative zero is not distinguished from zero, and the warnings of
`numpy` are left out.
-/

namespace DiscSolver.Stats

open ValidatePlot (degrees)

/-- A float: `none` is NaN. -/
abbrev Ext := Option EReal

/-- `x / y` for finite `x` and `y`. -/
noncomputable def extDiv (x y : ℝ) : Ext :=
  open Classical in
  if y = 0 then
    if x = 0 then none else if 0 < x then some ⊤ else some ⊥
  else some ((x / y : ℝ) : EReal)

/-- `sqrt(v_sq / speed_sq)` (`critical_points.py:58-60`); `v_sq` is a square. -/
noncomputable def machExt (v_sq speed_sq : ℝ) : Ext :=
  open Classical in
  if speed_sq = 0 then
    if v_sq = 0 then none else some ⊤
  else if v_sq / speed_sq < 0 then none
  else some ((Real.sqrt (v_sq / speed_sq) : ℝ) : EReal)

/-- The four Mach numbers of one row. -/
structure MachRow where
  slow : Ext
  sonic : Ext
  alfven : Ext
  fast : Ext

/-- `get_mach_numbers` (`critical_points.py:12-62`) for one row.  Without a field `cos_sq_psi`
is NaN; without density `v_a_sq` is `inf`, the square roots are NaN, and the Alfvén speed is
`inf`, or NaN without a vertical field. -/
noncomputable def machRow (s : St) : MachRow :=
  open Classical in
  if s.B_r ^ 2 + s.B_φ ^ 2 + s.B_θ ^ 2 = 0 then ⟨none, some s.v_θ, none, none⟩
  else if s.ρ = 0 then ⟨none, some s.v_θ, if s.B_θ = 0 then none else some 0, none⟩
  else
    let w := mhd_wave_speeds s 1
    ⟨machExt (s.v_θ ^ 2) w.slow, some s.v_θ, machExt (s.v_θ ^ 2) w.alfven,
      machExt (s.v_θ ^ 2) w.fast⟩

/-- `numpy.nanmax`: `ValueError` for an empty array, NaN if there is nothing else. -/
noncomputable def nanmax (l : List Ext) : Except PyErr Ext :=
  match l with
  | [] => .error .ValueError
  | _ :: _ =>
    match l.reduceOption with
    | [] => .ok none
    | x :: r => .ok (some (r.foldl max x))

/-- `argmax` of an array without NaN: the first position of the largest value. -/
noncomputable def argmax (l : List EReal) : ℕ :=
  open Classical in l.findIdx fun x => decide (l.foldl max ⊥ ≤ x)

/-- `numpy.nanargmax`: NaN is replaced by `-inf`; `ValueError` if there is nothing else. -/
noncomputable def nanargmax (l : List Ext) : Except PyErr ℕ :=
  if l.all (·.isNone) then .error .ValueError
  else .ok (argmax (l.map fun x => x.getD ⊥))

/-- `get_max_mach_degrees` (`stats.py:121-130`): NaN if there is no Mach number. -/
noncomputable def get_max_mach_degrees (angles : List ℝ) (mach : List Ext) :
    Except PyErr Flt :=
  match nanargmax mach with
  | .error .ValueError => .ok none
  | .error e => .error e
  | .ok idx =>
    match angles[idx]? with
    | some θ => .ok (some (degrees θ))
    | none => .error .IndexError

/-- Two neighbouring entries of the dictionary of `get_max_mach_numbers`. -/
noncomputable def maxMach (mach : MachRow → Ext) (rows : List (ℝ × St)) :
    Except PyErr (Ext × Flt) :=
  match nanmax (rows.map fun p => mach (machRow p.2)) with
  | .error e => .error e
  | .ok m =>
    match get_max_mach_degrees (rows.map (·.1)) (rows.map fun p => mach (machRow p.2)) with
    | .error e => .error e
    | .ok a => .ok (m, a)

/-- The objects put into the row of a solution. -/
inductive Value where
  | str (s : String)
  | num (x : Ext)
  | bool (b : Bool)
  | None
  | other (n : ℕ)

/-- A number, NaN or not. -/
noncomputable def Value.ofFlt (x : Flt) : Value := .num (x.map fun y => ((y : ℝ) : EReal))

/-- An angle, or `None`. -/
noncomputable def Value.ofOption : Option ℝ → Value
  | none => .None
  | some x => .num (some (x : EReal))

/-- `get_max_mach_numbers` (`stats.py:116-143`). -/
noncomputable def get_max_mach_numbers (rows : List (ℝ × St)) :
    Except PyErr (Dict String Value) :=
  match maxMach (·.slow) rows, maxMach (·.sonic) rows, maxMach (·.alfven) rows,
      maxMach (·.fast) rows with
  | .ok slow, .ok sonic, .ok alfven, .ok fast => .ok [
      ("max_slow_mach", .num slow.1), ("max_slow_mach_angle_degrees", .ofFlt slow.2),
      ("max_sonic_mach", .num sonic.1), ("max_sonic_mach_angle_degrees", .ofFlt sonic.2),
      ("max_alfven_mach", .num alfven.1), ("max_alfven_mach_angle_degrees", .ofFlt alfven.2),
      ("max_fast_mach", .num fast.1), ("max_fast_mach_angle_degrees", .ofFlt fast.2)]
  | .error e, _, _, _ => .error e
  | _, .error e, _, _ => .error e
  | _, _, .error e, _ => .error e
  | _, _, _, .error e => .error e

/-- `a > b` on floats. -/
noncomputable def extGt : Ext → Ext → Bool
  | some a, some b => open Classical in decide (b < a)
  | _, _ => false

/-- Python's `max` over an array: the first value is kept until a greater one is met. -/
noncomputable def pyMax : List Ext → Except PyErr Ext
  | [] => .error .ValueError
  | x :: l => .ok (l.foldl (fun m y => if extGt y m then y else m) x)

/-- `max(compute_B_poloidal_vs_B_toroidal(solution))` (`stats.py:146-153, 192`). -/
noncomputable def max_B_p_on_B_t (rows : List (ℝ × St)) : Except PyErr Ext :=
  pyMax (rows.map fun p => extDiv p.2.B_φ (Real.sqrt (p.2.B_r ^ 2 + p.2.B_θ ^ 2)))

/-- `degrees(nanmax(solution.angles))` (`stats.py:193`). -/
noncomputable def max_angle_reached (rows : List (ℝ × St)) : Except PyErr ℝ :=
  match maxOf (rows.map (·.1)) with
  | .error e => .error e
  | .ok θ => .ok (degrees θ)

/-- `singluar_stats` (`stats.py:186-203`); `simps` is the Simpson rule of `scipy`, `γ` that
of the initial conditions. -/
noncomputable def singluar_stats (simps : List (ℝ × ℝ) → ℝ) (γ : ℝ) (rows : List (ℝ × St)) :
    Except PyErr (Dict String Value) :=
  match compute_M_dot_out_on_M_dot_in simps γ (1 / 10) 100 rows with
  | .error e => .error e
  | .ok M_dot_out_on_M_dot_in =>
    match max_B_p_on_B_t rows with
    | .error e => .error e
    | .ok B =>
      match max_angle_reached rows with
      | .error e => .error e
      | .ok θ =>
        match does_v_θ_end_low 10 rows with
        | .error e => .error e
        | .ok low => .ok [
            ("M_dot_out_on_M_dot_in", .ofFlt (some M_dot_out_on_M_dot_in)),
            ("Σ", .ofFlt (some (compute_Sigma rows))),
            ("max_B_p_on_B_t", .num B),
            ("max_angle_reached_degrees", .ofFlt (some θ)),
            ("v_θ_starts_monotonic", .bool (is_v_θ_monotonic 20 rows)),
            ("v_θ_ends_low", .bool low)]

/-- `compute_max_vert_jet_velocity` (`stats.py:96-113`); `γ` and `c_s_on_v_k` are those of
the solution input. -/
noncomputable def compute_max_vert_jet_velocity (γ c_s_on_v_k : ℝ) (rows : List (ℝ × St)) :
    Except PyErr (Dict String Value) :=
  match rows.mapM fun p => convert_spherical_to_cylindrical p.1 p.2 false γ c_s_on_v_k with
  | .error _ => .error .DiscSolverError
  | .ok vert =>
    match nanargmax (vert.map fun q => some ((q.2.v_z : ℝ) : EReal)) with
    | .error e => .error e
    | .ok idx =>
      match vert[idx]? with
      | none => .error .IndexError
      | some q => .ok [("max_jet_v_z", .ofFlt (some q.2.v_z)),
          ("max_jet_v_z_height", .ofFlt (some q.1))]

/-- `compute_max_difference_in_equations` (`stats.py:66-93`) on the rows given by
`get_values`. -/
noncomputable def compute_max_difference_in_equations (c : ValidatePlot.Cons)
    (rows : List ValidatePlot.Row) : Except PyErr (Dict String Value) := do
  let a ← max_diff ValidatePlot.validate_continuity c rows
  let b ← max_diff ValidatePlot.validate_solenoid c rows
  let d ← max_diff ValidatePlot.validate_radial_momentum c rows
  let e ← max_diff ValidatePlot.validate_azimuthal_mometum c rows
  let f ← max_diff ValidatePlot.validate_polar_momentum c rows
  let g ← max_diff ValidatePlot.validate_polar_induction c rows
  let h ← max_diff ValidatePlot.validate_E_φ c rows
  pure [("max_diff_continuity", .ofFlt (some a)), ("max_diff_solenoid", .ofFlt (some b)),
    ("max_diff_radial_momentum", .ofFlt (some d)),
    ("max_diff_azimuthal_momentum", .ofFlt (some e)),
    ("max_diff_polar_momentum", .ofFlt (some f)),
    ("max_diff_polar_induction", .ofFlt (some g)), ("max_diff_E_φ", .ofFlt (some h))]

/-- The finite value of a float. -/
noncomputable def Ext.finite? : Ext → Option ℝ
  | none => none
  | some x => open Classical in if x = ⊤ ∨ x = ⊥ then none else some x.toReal

/-- One entry of `labelled_get_all_sonic_points`.  For Mach numbers which are not all finite
the result of the interpolation is a parameter. -/
noncomputable def sonicPoint (unknown : List (ℝ × St) → Except PyErr (Option ℝ))
    (mach : MachRow → Ext) (rows : List (ℝ × St)) : Except PyErr (Option ℝ) :=
  match rows.mapM fun p => (mach (machRow p.2)).finite? with
  | some l => sonic_angle (rows.map (·.1)) l
  | none => unknown rows

/-- `labelled_get_all_sonic_points` (`stats.py:156-166`). -/
noncomputable def labelled_get_all_sonic_points
    (unknown : List (ℝ × St) → Except PyErr (Option ℝ)) (rows : List (ℝ × St)) :
    Except PyErr (Dict String Value) := do
  let slow_θ ← sonicPoint unknown (·.slow) rows
  let sonic_θ ← sonicPoint unknown (·.sonic) rows
  let alfven_θ ← sonicPoint unknown (·.alfven) rows
  let fast_θ ← sonicPoint unknown (·.fast) rows
  pure [("slow_sonic_point", .ofOption slow_θ), ("sonic_sonic_point", .ofOption sonic_θ),
    ("alfven_sonic_point", .ofOption alfven_θ), ("fast_sonic_point", .ofOption fast_θ)]

/-- The parts of a solution used by the functions of `STATS_FUNCS`: its rows, the rows
compared with the equations, the initial conditions and the input. -/
structure StatsSoln where
  rows : List (ℝ × St)
  compared : List ValidatePlot.Row
  cons : ValidatePlot.Cons
  γ : ℝ
  c_s_on_v_k : ℝ
  input : SField → Value

/-- A dictionary as a function of its keys. -/
def asFunction (d : Dict String Value) : String → Value :=
  fun k => (d.get? k).getD .None

/-- `STATS_FUNCS` (`stats.py:206-209`), each function named by its keys. -/
noncomputable def statsEnv (simps : List (ℝ × ℝ) → ℝ)
    (unknown : List (ℝ × St) → Except PyErr (Option ℝ)) : Env StatsSoln Value where
  str := .str
  input s f := s.input f
  values keys s :=
    (if keys = machKeys then get_max_mach_numbers s.rows
    else if keys = sonicKeys then labelled_get_all_sonic_points unknown s.rows
    else if keys = singularKeys then singluar_stats simps s.cons.γ s.rows
    else if keys = jetKeys then compute_max_vert_jet_velocity s.γ s.c_s_on_v_k s.rows
    else compute_max_difference_in_equations s.cons s.compared).map asFunction

end DiscSolver.Stats
