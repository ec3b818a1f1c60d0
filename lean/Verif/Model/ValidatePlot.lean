import Verif.Model.Hydro
import Verif.Model.Rhs

/-!
# The checking plots

`src/disc_solver/analyse/validate_plot.py`, `hydro_check_plot.py` and the
electric fields of `j_e_plot.py`: what they compute for each stored row, which
rows they show and what they print.  Drawing itself is not modelled, nor is
`validate_radial_momentum_hydro` (`hydro_check_plot.py:132-164`), which nothing
calls.
-/

namespace DiscSolver.ValidatePlot

/-- The `initial_conditions` namespace built by `get_values`
(`validate_plot.py:206-209`), without `β`. -/
structure Cons where
  a_0 : ℝ
  γ : ℝ
  norm_kepler_sq : ℝ

/-- `validate_plot.py:208`. -/
noncomputable def Cons.β (c : Cons) : ℝ := 5 / 4 - c.γ

/-- One entry of the arrays in `values` (`validate_plot.py:211-232`): the angle,
the parameters and the derivatives. -/
structure Row where
  θ : ℝ
  s : St
  deriv : St

/-- `validate_plot.py:234-236`: the direction of the field. -/
noncomputable def Row.norm_B_r (r : Row) : ℝ :=
  r.s.B_r / Real.sqrt (r.s.B_r ^ 2 + r.s.B_φ ^ 2 + r.s.B_θ ^ 2)

/-- See `Row.norm_B_r`. -/
noncomputable def Row.norm_B_φ (r : Row) : ℝ :=
  r.s.B_φ / Real.sqrt (r.s.B_r ^ 2 + r.s.B_φ ^ 2 + r.s.B_θ ^ 2)

/-- See `Row.norm_B_r`. -/
noncomputable def Row.norm_B_θ (r : Row) : ℝ :=
  r.s.B_θ / Real.sqrt (r.s.B_r ^ 2 + r.s.B_φ ^ 2 + r.s.B_θ ^ 2)

/-- `j_e_plot.py:21-29` (`J_func`). -/
noncomputable def J_func (γ θ B_θ B_φ deriv_B_φ deriv_B_r : ℝ) : ℝ × ℝ × ℝ :=
  (J_r_func (θ := θ) (B_φ := B_φ) (deriv_B_φ := deriv_B_φ),
    J_θ_func (γ := γ) (B_φ := B_φ),
    J_φ_func (γ := γ) (B_θ := B_θ) (deriv_B_r := deriv_B_r))

/-- `j_e_plot.py:32-54` (`E_func`). -/
noncomputable def E_func
    (v_r v_θ v_φ B_r B_θ B_φ J_r J_θ J_φ η_O η_A η_H : ℝ) : ℝ × ℝ × ℝ :=
  let B_mag := Real.sqrt (B_r ^ 2 + B_φ ^ 2 + B_θ ^ 2)
  let b_r := B_r / B_mag
  let b_φ := B_φ / B_mag
  let b_θ := B_θ / B_mag
  (E_r_func (v_θ := v_θ) (v_φ := v_φ) (B_θ := B_θ) (B_φ := B_φ) (J_r := J_r)
      (J_θ := J_θ) (J_φ := J_φ) (η_O := η_O) (η_A := η_A) (η_H := η_H)
      (b_r := b_r) (b_θ := b_θ) (b_φ := b_φ),
    E_θ_func (v_r := v_r) (v_φ := v_φ) (B_r := B_r) (B_φ := B_φ) (J_r := J_r)
      (J_θ := J_θ) (J_φ := J_φ) (η_O := η_O) (η_A := η_A) (η_H := η_H)
      (b_r := b_r) (b_θ := b_θ) (b_φ := b_φ),
    E_φ_func (v_r := v_r) (v_θ := v_θ) (B_r := B_r) (B_θ := B_θ) (J_r := J_r)
      (J_θ := J_θ) (J_φ := J_φ) (η_O := η_O) (η_A := η_A) (η_H := η_H)
      (b_r := b_r) (b_θ := b_θ) (b_φ := b_φ))

/-- `validate_plot.py:248-256`: the currents of one row. -/
noncomputable def J_values (c : Cons) (r : Row) : ℝ × ℝ × ℝ :=
  J_func (γ := c.γ) (θ := r.θ) (B_θ := r.s.B_θ) (B_φ := r.s.B_φ)
    (deriv_B_φ := r.deriv.B_φ) (deriv_B_r := r.deriv.B_r)

/-- `validate_plot.py:258-262`: the electric field of one row. -/
noncomputable def E_values (c : Cons) (r : Row) : ℝ × ℝ × ℝ :=
  let J := J_values c r
  E_func (v_r := r.s.v_r) (v_θ := r.s.v_θ) (v_φ := r.s.v_φ) (B_r := r.s.B_r)
    (B_θ := r.s.B_θ) (B_φ := r.s.B_φ) (J_r := J.1) (J_θ := J.2.1)
    (J_φ := J.2.2) (η_O := r.s.η_O) (η_A := r.s.η_A) (η_H := r.s.η_H)

/-- `validate_plot.py:264-266`: the electric field in the frame of the fluid. -/
noncomputable def E_dash_values (c : Cons) (r : Row) : ℝ × ℝ × ℝ :=
  let E := E_values c r
  (E.1 + r.s.v_φ * r.s.B_θ - r.s.v_θ * r.s.B_φ,
    E.2.1 + r.s.v_r * r.s.B_φ - r.s.v_φ * r.s.B_r,
    E.2.2 + r.s.v_θ * r.s.B_r - r.s.v_r * r.s.B_θ)

/-- `validate_plot.py:274-282`. -/
noncomputable def validate_continuity (c : Cons) (r : Row) : ℝ :=
  (5 / 2 - 2 * c.β) * r.s.v_r + r.deriv.v_θ + r.s.v_θ / r.s.ρ * (
    r.deriv.ρ - r.s.ρ * Real.tan r.θ
  )

/-- `validate_plot.py:285-292`. -/
noncomputable def validate_solenoid (c : Cons) (r : Row) : ℝ :=
  r.deriv.B_θ - ((c.β - 2) * r.s.B_r + r.s.B_θ * Real.tan r.θ)

/-- `validate_plot.py:295-308`. -/
noncomputable def validate_radial_momentum (c : Cons) (r : Row) : ℝ :=
  r.s.v_θ * r.deriv.v_r - 1 / 2 * r.s.v_r ^ 2 - r.s.v_θ ^ 2 - r.s.v_φ ^ 2 +
    c.norm_kepler_sq - 2 * c.β - c.a_0 / r.s.ρ * (
      r.s.B_θ * r.deriv.B_r + (c.β - 1) * (r.s.B_θ ^ 2 + r.s.B_φ ^ 2)
    )

/-- `validate_plot.py:311-323`. -/
noncomputable def validate_azimuthal_mometum (c : Cons) (r : Row) : ℝ :=
  r.s.v_θ * r.deriv.v_φ + 1 / 2 * r.s.v_r * r.s.v_φ -
    Real.tan r.θ * r.s.v_θ * r.s.v_φ - c.a_0 / r.s.ρ * (
      r.s.B_θ * r.deriv.B_φ + (1 - c.β) * r.s.B_r * r.s.B_φ -
      Real.tan r.θ * r.s.B_θ * r.s.B_φ
    )

/-- `validate_plot.py:326-339`. -/
noncomputable def validate_polar_momentum (c : Cons) (r : Row) : ℝ :=
  r.s.v_r * r.s.v_θ / 2 + r.s.v_θ * r.deriv.v_θ + Real.tan r.θ * r.s.v_φ ^ 2 +
    r.deriv.ρ / r.s.ρ + c.a_0 / r.s.ρ * (
      (c.β - 1) * r.s.B_θ * r.s.B_r + r.s.B_r * r.deriv.B_r +
      r.s.B_φ * r.deriv.B_φ - r.s.B_φ ^ 2 * Real.tan r.θ
    )

/-- `validate_plot.py:342-363`. -/
noncomputable def validate_polar_induction (c : Cons) (r : Row) : ℝ :=
  r.s.v_θ * r.s.B_r - r.s.v_r * r.s.B_θ + (
    r.s.B_θ * (1 - c.β) - r.deriv.B_r
  ) * (
    r.s.η_O + r.s.η_A * (1 - r.norm_B_φ ^ 2)
  ) + r.deriv.B_φ * (
    r.s.η_H * r.norm_B_θ - r.s.η_A * r.norm_B_r * r.norm_B_φ
  ) + r.s.B_φ * (
    r.s.η_H * (
      r.norm_B_r * (1 - c.β) - r.norm_B_θ * Real.tan r.θ
    ) - r.s.η_A * r.norm_B_φ * (
      r.norm_B_θ * (1 - c.β) - r.norm_B_r * Real.tan r.θ
    )
  )

/-- `validate_plot.py:366-371`. -/
noncomputable def validate_E_φ (c : Cons) (r : Row) : ℝ := (E_values c r).2.2

/-- `param_names`, `validate_plot.py:74-104`. -/
noncomputable def checks : List (String × (Cons → Row → ℝ)) :=
  [("continuity", validate_continuity),
   ("solenoid", validate_solenoid),
   ("radial momentum", validate_radial_momentum),
   ("azimuthal momentum", validate_azimuthal_mometum),
   ("polar momentum", validate_polar_momentum),
   ("polar induction", validate_polar_induction),
   ("E_φ", validate_E_φ)]

/-- `numpy.degrees`. -/
noncomputable def degrees (θ : ℝ) : ℝ := θ * (180 / Real.pi)

/-- `validate_plot.py:109-111`: the rows inside the requested range of angles. -/
noncomputable def selected (start stop : ℝ) (rows : List Row) : List Row :=
  open Classical in
  rows.filter fun r => start ≤ degrees r.θ ∧ degrees r.θ ≤ stop

/-- `validate_plot.py:211-232`: the arrays of the internal data, row by row.
Simplification: the three arrays have the same length (C14 shows it for recorded
data). -/
def rowsOf (d : InternalData) : List Row :=
  (d.angles.zip (d.params.zip d.derivs)).map fun x => ⟨x.1, x.2.1, x.2.2⟩

/-- `max(absolute(difference))` for a list with a first element. -/
noncomputable def maxAbs (x : ℝ) (l : List ℝ) : ℝ :=
  l.foldl (fun m y => max m |y|) |x|

/-- What is printed and plotted for one equation. -/
structure Report where
  name : String
  printed : ℝ
  points : List (ℝ × ℝ)

/-- `validate_plot.py:121-131`: one pass of the loop.  `max` of an empty array
raises `ValueError`. -/
noncomputable def report (c : Cons) (rows : List Row)
    (chk : String × (Cons → Row → ℝ)) : Except PyErr Report :=
  match rows.map (chk.2 c) with
  | [] => .error .ValueError
  | x :: l => .ok ⟨chk.1, maxAbs x l,
      rows.map fun r => (degrees r.θ, chk.2 c r)⟩

/-- `validate_plot.py:66-131` and `hydro_check_plot.py:61-107` up to the other
panels: `use_E_r` and missing internal data are refused, otherwise one report per
equation, in order. -/
noncomputable def generate (table : List (String × (Cons → Row → ℝ)))
    (use_E_r : Bool) (internal : Option InternalData) (c : Cons)
    (start stop : ℝ) : Except PyErr (List Report) :=
  if use_E_r then .error .AnalysisError
  else
    match internal with
    | none => .error .AnalysisError
    | some d => table.mapM (report c (selected start stop (rowsOf d)))

/-- `validate_plot.py:68-176` (`generate_validate_plot`). -/
noncomputable def generate_validate_plot := generate checks

/-- `hydro_check_plot.py:110-120`. -/
noncomputable def validate_hydro_azimuthal_mometum (c : Cons) (r : Row) : ℝ :=
  1 / 2 * r.s.v_r * r.s.v_φ - c.a_0 / r.s.ρ * (
    r.s.B_θ * r.deriv.B_φ + (1 - c.β) * r.s.B_r * r.s.B_φ -
    Real.tan r.θ * r.s.B_θ * r.s.B_φ
  )

/-- `hydro_check_plot.py:123-129`. -/
noncomputable def validate_hydro_approximate_momenta (c : Cons) (r : Row) : ℝ :=
  1 - 2 * c.a_0 * r.s.B_θ * r.deriv.B_φ / (r.s.ρ * r.s.v_r * r.s.v_φ)

/-- `hydro_check_plot.py:167-197`. -/
noncomputable def validate_radial_momentum_mod_φ (c : Cons) (r : Row) : ℝ :=
  let b_r := r.norm_B_r
  let b_φ := r.norm_B_φ
  let b_θ := r.norm_B_θ
  let X := Hydro.X_func (η_O := r.s.η_O) (η_A := r.s.η_A) (η_H := r.s.η_H)
    (b_θ := b_θ) (b_r := b_r) (b_φ := b_φ)
  let norm_kepler := Real.sqrt c.norm_kepler_sq
  norm_kepler - r.s.v_φ - (
    1 / 2 * r.s.v_r ^ 2 + 5 / 2 + c.a_0 / r.s.ρ * (
      r.s.B_φ ^ 2 / 4 - X * r.deriv.B_φ * r.s.B_θ - r.s.B_θ / (
        r.s.η_O + r.s.η_A * (1 - b_φ ^ 2)
      ) * (
        r.s.v_r * r.s.B_θ - r.s.B_φ * (
          r.s.η_A * b_φ * (
            b_r * Real.tan r.θ - b_θ / 4
          ) + r.s.η_H * (
            b_r / 4 + b_θ * Real.tan r.θ
          )
        )
      )
    )
  ) / (2 * norm_kepler)

/-- `param_names`, `hydro_check_plot.py:71-84`. -/
noncomputable def hydroChecks : List (String × (Cons → Row → ℝ)) :=
  [("azimuthal momentum", validate_hydro_azimuthal_mometum),
   ("approximate momenta", validate_hydro_approximate_momenta),
   ("radial momentum (approx method)", validate_radial_momentum_mod_φ)]

/-- `hydro_check_plot.py:61-107` (`generate_hydro_check_plot`). -/
noncomputable def generate_hydro_check_plot := generate hydroChecks

/-- `j_e_plot.py:103-148` (`generate_plot`): the electric field shown for one row
`s` of the solution at angle `θ`, with the derivatives recomputed from the
row. -/
noncomputable def jePlotE (γ θ : ℝ) (s : St) : ℝ × ℝ × ℝ :=
  let B_mag := Real.sqrt (s.B_r ^ 2 + s.B_φ ^ 2 + s.B_θ ^ 2)
  let deriv_B_r := deriv_B_r_func (γ := γ) (θ := θ) (v_r := s.v_r)
    (v_θ := s.v_θ) (B_r := s.B_r) (B_θ := s.B_θ) (B_φ := s.B_φ) (η_O := s.η_O)
    (η_A := s.η_A) (η_H := s.η_H) (deriv_B_φ := s.X) (b_r := s.B_r / B_mag)
    (b_φ := s.B_φ / B_mag) (b_θ := s.B_θ / B_mag)
  let J := J_func (γ := γ) (θ := θ) (B_θ := s.B_θ) (B_φ := s.B_φ)
    (deriv_B_φ := s.X) (deriv_B_r := deriv_B_r)
  E_func (v_r := s.v_r) (v_θ := s.v_θ) (v_φ := s.v_φ) (B_r := s.B_r)
    (B_θ := s.B_θ) (B_φ := s.B_φ) (J_r := J.1) (J_θ := J.2.1) (J_φ := J.2.2)
    (η_O := s.η_O) (η_A := s.η_A) (η_H := s.η_H)

end DiscSolver.ValidatePlot
