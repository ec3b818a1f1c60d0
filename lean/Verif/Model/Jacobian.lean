import Mathlib.Data.Complex.Basic
import Mathlib.LinearAlgebra.Matrix.Defs
import Mathlib.Data.Matrix.Mul
import Verif.Model.Ode
import Verif.Model.Slice
import Verif.Model.AnalysisPlots

/-!
# Jacobians of solutions

`src/disc_solver/analyse/compute_jacobian.py`.  Rows are pairs of an angle and a state.
Floats are exact reals; a float which is not finite is `none`.  The divisions inside the
right-hand side are those of `rhsDerivs`, where a zero divisor is not tracked; theorems that
depend on them assume the divisors nonzero.  The eigenvalue routines of `scipy` and the
matrix inverse of `numpy` are parameters.  `compute_coefs_of_subtracted_solution`
(lines 500-522) is never called and is left out, as are colours and layout.
-/

namespace DiscSolver.Jacobian

open Plots AnalysisPlots ValidatePlot

/-- An array of shape `[ode_size, ode_size]` that may contain values which are not finite. -/
abbrev Mat := Fin 11 → Fin 11 → Flt

/-- The parts of a solution used here (`compute_jacobian.py:205-220, 529-541`). -/
structure Soln where
  γ : ℝ
  a_0 : ℝ
  norm_kepler_sq : ℝ
  init_con : St
  η_derivs : Bool
  use_E_r : Bool
  rows : List (ℝ × St)

/-- `params[i] = x` on a copy of one row (`ODEIndex`, `utils.py:57-72`). -/
def put (s : St) (i : Fin 11) (x : ℝ) : St :=
  { B_r := if i = 0 then x else s.B_r, B_φ := if i = 1 then x else s.B_φ,
    B_θ := if i = 2 then x else s.B_θ, v_r := if i = 3 then x else s.v_r,
    v_φ := if i = 4 then x else s.v_φ, v_θ := if i = 5 then x else s.v_θ,
    ρ := if i = 6 then x else s.ρ, X := if i = 7 then x else s.X,
    η_O := if i = 8 then x else s.η_O, η_A := if i = 9 then x else s.η_A,
    η_H := if i = 10 then x else s.η_H }

/-- The system whose Jacobian is computed (`compute_jacobian.py:173-178`). -/
def system (S : Soln) (θ_scale : ℝ) : OdeArgs :=
  { γ := S.γ, a_0 := S.a_0, norm_kepler_sq := S.norm_kepler_sq, init_con := S.init_con,
    θ_scale := θ_scale, with_taylor := false, η_derivs := S.η_derivs, use_E_r := S.use_E_r,
    deriv_v_θ_func := none }

/-- `rhs_eq(θ, params, derivs)` with `derivs_post_solution=True`: no check of the state
(`compute_jacobian.py:196-199`, `solution.py:98-113, 133-142`). -/
noncomputable def rhsEq (P : OdeArgs) (x : ℝ) (s : St) : St :=
  rhsDerivs P (scaled_to_rad x P.θ_scale) s

/-- `x / y` in `numpy`, `none` if the result is not finite. -/
noncomputable def fdiv (x y : ℝ) : Flt :=
  open Classical in if y = 0 then none else some (x / y)

/-- What is assigned to `J[:, :, i]` in one row (`compute_jacobian.py:187-201`). -/
noncomputable def column (P : OdeArgs) (eps : ℝ) (p : ℝ × St) (i : Fin 11) : Fin 11 → Flt :=
  let params_h := put p.2 i (col i p.2 + eps)
  let params_l := put p.2 i (col i p.2 - eps)
  let derivs_h := rhsEq P p.1 params_h
  let derivs_l := rhsEq P p.1 params_l
  fun j => fdiv (col j derivs_h - col j derivs_l) (2 * eps)

/-- `J[:, :, i] = c` in one row. -/
def setColumn (J : Mat) (i : Fin 11) (c : Fin 11 → Flt) : Mat :=
  fun j i' => if i' = i then c j else J j i'

/-- One row of `compute_jacobian` (`compute_jacobian.py:180-202`): `J` starts as zeros and
its columns are assigned one after another. -/
noncomputable def rowJacobian (P : OdeArgs) (eps : ℝ) (p : ℝ × St) : Mat :=
  (List.finRange 11).foldl (fun J i => setColumn J i (column P eps p i)) (fun _ _ => some 0)

/-- `compute_jacobian` (`compute_jacobian.py:166-202`). -/
noncomputable def compute_jacobian (P : OdeArgs) (rows : List (ℝ × St)) (eps : ℝ) : List Mat :=
  rows.map (rowJacobian P eps)

/-- `compute_jacobian_from_solution` (`compute_jacobian.py:205-226`). -/
noncomputable def compute_jacobian_from_solution (S : Soln) (eps : ℝ) (θ_scale : ℝ := 1) :
    List Mat :=
  compute_jacobian (system S θ_scale) S.rows eps

/-- `compute_jacobian_at_index` (`compute_jacobian.py:525-547`): the slice
`slice(index, index + 1)` of the solution, and the first Jacobian of it. -/
noncomputable def compute_jacobian_at_index (S : Soln) (eps : ℝ) (index : Int)
    (θ_scale : ℝ := 1) : Except PyErr Mat :=
  let s : PySlice := { start := some index, stop := some (index + 1) }
  let rows := (s.index S.rows).getD []
  match (compute_jacobian (system S θ_scale) rows eps)[0]? with
  | some J => .ok J
  | none => .error .IndexError

/-- Complex matrices of the size of the system. -/
abbrev CMat := Matrix (Fin 11) (Fin 11) ℂ

/-- The routines of `scipy.linalg` and `numpy.linalg` used. -/
structure LinAlg where
  /-- `eigvals` -/
  eigvals : (Fin 11 → Fin 11 → ℝ) → (Fin 11 → ℂ)
  /-- `eig`: eigenvalues, and eigenvectors as the columns of a matrix -/
  eig : (Fin 11 → Fin 11 → ℝ) → (Fin 11 → ℂ) × CMat
  /-- `inv`; `none` is `LinAlgError` -/
  inv : CMat → Option CMat

/-- The entries of a matrix without values that are not finite, `isfinite(jacobian).all()`. -/
noncomputable def finiteEntries (J : Mat) : Option (Fin 11 → Fin 11 → ℝ) :=
  open Classical in
  if ∀ j i, (J j i).isSome then some fun j i => (J j i).getD 0 else none

/-- `compute_eigenvalues` (`compute_jacobian.py:338-344`); `none` is the array of NaN. -/
noncomputable def compute_eigenvalues (L : LinAlg) (J : Mat) : Option (Fin 11 → ℂ) :=
  (finiteEntries J).map L.eigvals

/-- `compute_eigenvalues_and_eigenvectors` (`compute_jacobian.py:347-354`); `none` is the
arrays of NaN. -/
noncomputable def compute_eigenvalues_and_eigenvectors (L : LinAlg) (J : Mat) :
    Option ((Fin 11 → ℂ) × CMat) :=
  (finiteEntries J).map L.eig

/-- `compute_norm(eigvecs, axis=1)` (`compute_jacobian.py:468-472, 490`) for the
eigenvectors of one row. -/
noncomputable def compute_norm (v : CMat) : Fin 11 → ℂ :=
  fun j => ((List.finRange 11).map fun i => v i j * (starRingEnd ℂ) (v i j)).sum

/-- One call of `ax.plot`: marker, label, and the points in order.  `none` is NaN, which
draws nothing. -/
structure Marks where
  marker : String
  label : Option String
  points : List (ℝ × Flt)

/-- `plot_log_complex_data` (`compute_jacobian.py:357-390`).  NaN is neither `>= 0` nor
left out by `npnot`. -/
noncomputable def plot_log_complex_data (label : Option String)
    (data : List (ℝ × Option ℂ)) : List Marks :=
  open Classical in
  let posReal : ℝ × Option ℂ → Bool := fun p => p.2.any fun y => decide (0 ≤ y.re)
  let posImag : ℝ × Option ℂ → Bool := fun p => p.2.any fun y => decide (0 ≤ y.im)
  [{ marker := "^", label := label,
     points := (data.filter posReal).map fun p => (p.1, p.2.map fun y => y.re) },
   { marker := "v", label := label,
     points := (data.filter fun p => !posReal p).map fun p => (p.1, p.2.map fun y => - y.re) },
   { marker := "2", label := label,
     points := (data.filter posImag).map fun p => (p.1, p.2.map fun y => y.im) },
   { marker := "1", label := label,
     points := (data.filter fun p => !posImag p).map fun p => (p.1, p.2.map fun y => - y.im) }]

/-- `degrees(angles[indexes])` beside `data[indexes]` (`compute_jacobian.py:402, 411-412`). -/
noncomputable def selected {α : Type} (start stop : ℝ) (S : Soln) (data : List α) :
    List (ℝ × α) :=
  (rowsIn start stop ((S.rows.map (·.1)).zip data)).map fun p => (degrees p.1, p.2)

/-- `plot_jacobian_eigenvalues` (`compute_jacobian.py:393-418`) after
`jacobian_single_solution_plot_wrapper` (`compute_jacobian.py:229-245`): what is drawn on
the single axes. -/
noncomputable def plot_jacobian_eigenvalues (L : LinAlg) (S : Soln) (eps start stop : ℝ) :
    List Marks :=
  let data := (compute_jacobian_from_solution S eps).map (compute_eigenvalues L)
  (List.finRange 11).flatMap fun i =>
    plot_log_complex_data (some (toString i.val))
      ((selected start stop S data).map fun p => (p.1, p.2.map fun e => e i))

/-- `plot_jacobian_eigenvectors` (`compute_jacobian.py:421-465`): what is drawn on each of
the axes; the last of the twelve stays empty. -/
noncomputable def plot_jacobian_eigenvectors (L : LinAlg) (S : Soln) (eps start stop : ℝ) :
    List (List Marks) :=
  let data :=
    (compute_jacobian_from_solution S eps).map (compute_eigenvalues_and_eigenvectors L)
  (List.finRange 11).map fun j =>
    plot_log_complex_data none
      ((selected start stop S data).map fun p => (p.1, p.2.map fun e => e.1 j)) ++
    (List.finRange 11).flatMap fun i =>
      plot_log_complex_data (some (toString i.val))
        ((selected start stop S data).map fun p => (p.1, p.2.map fun e => e.2 i j))

/-- `plot_jacobian_eigenvector_norm` (`compute_jacobian.py:475-497`): one curve for each
eigenvector; drawing discards the imaginary part. -/
noncomputable def plot_jacobian_eigenvector_norm (L : LinAlg) (S : Soln)
    (eps start stop : ℝ) : List Marks :=
  let data := (compute_jacobian_from_solution S eps).map fun J =>
    (compute_eigenvalues_and_eigenvectors L J).map fun e => compute_norm e.2
  (List.finRange 11).map fun j =>
    { marker := "", label := none,
      points := (selected start stop S data).map fun p => (p.1, p.2.map fun n => (n j).re) }

/-- `solution - critical_vals` in one row, as a complex vector. -/
noncomputable def subtracted (crit s : St) : Fin 11 → ℂ :=
  fun i => ((col i s - col i crit : ℝ) : ℂ)

/-- `inv(eigvecs)` for the stacked eigenvectors: one singular matrix makes the whole call
raise, NaN gives NaN. -/
def invAll (L : LinAlg) : List (Option CMat) → Except PyErr (List (Option CMat))
  | [] => .ok []
  | none :: l => (invAll L l).map (none :: ·)
  | some V :: l =>
    match L.inv V with
    | none => .error .LinAlgError
    | some W => (invAll L l).map (some W :: ·)

/-- A position `index` of a sequence in Python. -/
def pyIndex {α : Type} (l : List α) (index : Int) : Except PyErr α :=
  let k := if index < 0 then index + l.length else index
  match if k < 0 then none else l[k.toNat]? with
  | some a => .ok a
  | none => .error .IndexError

/-- `get_eigenvector_coef_around_critical_point` (`compute_jacobian.py:550-585`).  The
coefficients of a row are `none` when they are NaN. -/
noncomputable def get_eigenvector_coef_around_critical_point (L : LinAlg) (S : Soln)
    (critical_point_index : Int) (eps : ℝ) (local_eigvecs : Bool) :
    Except PyErr (List (Option (Fin 11 → ℂ))) :=
  match pyIndex S.rows critical_point_index with
  | .error e => .error e
  | .ok crit =>
    let subtracted_soln := S.rows.map fun p => subtracted crit.2 p.2
    if local_eigvecs then
      let eigvecs := (compute_jacobian_from_solution S eps).map fun J =>
        (compute_eigenvalues_and_eigenvectors L J).map (·.2)
      match invAll L eigvecs with
      | .error e => .error e
      | .ok inv_eigvecs =>
        .ok ((inv_eigvecs.zip subtracted_soln).map fun p =>
          p.1.map fun W => fun i => (((W.mulVec p.2) i).re : ℂ))
    else
      match compute_jacobian_at_index S eps critical_point_index with
      | .error e => .error e
      | .ok critical_jac =>
        match compute_eigenvalues_and_eigenvectors L critical_jac with
        | none => .ok (subtracted_soln.map fun _ => none)
        | some e =>
          match L.inv e.2 with
          | none => .error .LinAlgError
          | some W => .ok (subtracted_soln.map fun v => some (W.mulVec v))

/-- `CRITICAL_POINT_MAP` (`compute_jacobian.py:29-34`) applied to the indices. -/
def criticalPoint (c : CritIndices) (name : String) : Except PyErr (Option ℕ) :=
  if name = "slow" then .ok c.slow
  else if name = "sonic" then .ok c.sonic
  else if name = "alfven" then .ok c.alfven
  else if name = "fast" then .ok c.fast
  else .error .KeyError

/-- What `plot_eigenvector_coef_around_sonic_point` leaves: lines printed, curves, and the
position and name of the vertical line. -/
structure CoefPlot where
  printed : List String
  curves : List Marks
  vline : ℝ
  vlabel : String

/-- `plot_eigenvector_coef_around_sonic_point` (`compute_jacobian.py:588-641`).  Drawing
discards imaginary parts.  `capitalize` is applied to known names only. -/
noncomputable def plot_eigenvector_coef_around_sonic_point (L : LinAlg) (S : Soln)
    (file_use_E_r : Bool) (eps start stop : ℝ) (local_eigvecs : Bool := true)
    (critical_point : String := "sonic") : Except PyErr CoefPlot :=
  match get_critical_point_indices (S.rows.map (·.2)) with
  | .error e => .error e
  | .ok crit_indexes =>
    match criticalPoint crit_indexes critical_point with
    | .error e => .error e
    | .ok found =>
      let index : Int := (found.map fun i : ℕ => (i : Int)).getD (-1)
      match get_eigenvector_coef_around_critical_point L S index eps local_eigvecs with
      | .error e => .error e
      | .ok coefs =>
        match pyIndex S.rows index with
        | .error e => .error e
        | .ok p =>
          .ok {
            printed := (if file_use_E_r then ["E_r used"] else []) ++
              (if found = none then
                ["Failed to find " ++ critical_point ++ " so setting to last value"] else [])
            curves := (List.finRange 11).map fun i =>
              { marker := "", label := some (toString i.val),
                points := (selected start stop S coefs).map fun q =>
                  (q.1, q.2.map fun c => (c i).re) }
            vline := degrees p.1
            vlabel := critical_point.capitalize ++ " point" }

/-- `get_eigen_args` (`compute_jacobian.py:117-125`) on the parsed options, which are absent
unless given because of `argument_default=SUPPRESS` (`analyse/utils.py:343-346`). -/
noncomputable def get_eigen_args (eps : Option ℝ) (critical_point : Option String)
    (local_eigvecs : Option Bool) : ℝ × String × Bool :=
  (eps.getD (1 / 10 ^ 10), critical_point.getD "sonic", local_eigvecs.getD true)

end DiscSolver.Jacobian
