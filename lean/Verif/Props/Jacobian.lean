import Mathlib.LinearAlgebra.Matrix.NonsingularInverse
import Mathlib.LinearAlgebra.Eigenspace.Triangularizable
import Mathlib.LinearAlgebra.Matrix.ToLin
import Mathlib.Analysis.Complex.Polynomial.Basic
import Mathlib.Tactic.FinCases
import Mathlib.Tactic.NormNum
import Verif.Model.Jacobian
import Verif.Lemmas.Jacobian
import Verif.Props.Arrays
import Verif.Props.Slice

/-!
# Jacobians of solutions (C89, C90, C91)
-/

namespace DiscSolver.Jacobian

open Filter Topology Plots ValidatePlot

/-! ## Specification -/

/-- Entry `[k, j, i]` of a stack of matrices; `none` if it is not finite or not there. -/
def entry (l : List Mat) (k : ℕ) (j i : Fin 11) : Flt := l[k]?.bind fun J => J j i

/-! ## Lemmas -/

theorem col_vec (i : Fin 11) (s : St) : col i s = vec s i := by
  fin_cases i <;> rfl

theorem put_vec (s : St) (i : Fin 11) (x : ℝ) : put s i x = ofVec (Function.update (vec s) i x) := by
  fin_cases i <;> rfl

theorem update_add (x : Fin 11 → ℝ) (i : Fin 11) (e : ℝ) :
    Function.update x i (x i + e) = x + Pi.single i e := by
  funext k
  by_cases h : k = i
  · subst h; simp
  · simp [h]

theorem update_sub (x : Fin 11 → ℝ) (i : Fin 11) (e : ℝ) :
    Function.update x i (x i - e) = x - Pi.single i e := by
  funext k
  by_cases h : k = i
  · subst h; simp
  · simp [h]

theorem foldl_setColumn (c : Fin 11 → Fin 11 → Flt) (l : List (Fin 11)) (J : Mat)
    (j i : Fin 11) :
    (l.foldl (fun J i => setColumn J i (c i)) J) j i = if i ∈ l then c i j else J j i := by
  induction l generalizing J with
  | nil => simp
  | cons a l ih =>
    rw [List.foldl_cons, ih]
    by_cases h : i ∈ l
    · simp [h]
    · by_cases ha : i = a
      · subst ha; simp [h, setColumn]
      · simp [h, ha, setColumn]

theorem rowJacobian_entry (P : OdeArgs) (eps : ℝ) (p : ℝ × St) (j i : Fin 11) :
    rowJacobian P eps p j i = column P eps p i j := by
  unfold rowJacobian
  rw [foldl_setColumn]
  simp

theorem column_eq (P : OdeArgs) {eps : ℝ} (he : eps ≠ 0) (p : ℝ × St) (j i : Fin 11) :
    column P eps p i j = some
      ((rhsVec P (scaled_to_rad p.1 P.θ_scale) (vec p.2 + Pi.single i eps) j -
        rhsVec P (scaled_to_rad p.1 P.θ_scale) (vec p.2 - Pi.single i eps) j) / (2 * eps)) := by
  have h2 : (2 : ℝ) * eps ≠ 0 := by simpa using he
  simp only [column, fdiv, if_neg h2, rhsEq, put_vec, col_vec, update_add, update_sub, rhsVec]

theorem getElem?_jac (S : Soln) (eps : ℝ) (k : ℕ) :
    (compute_jacobian_from_solution S eps)[k]? =
      S.rows[k]?.map (rowJacobian (system S 1) eps) := by
  simp [compute_jacobian_from_solution, compute_jacobian]

/-! ## The matrices -/

/-- C89. There is one matrix for every row of the solution, and its entry `[j, i]` is the
central difference of component `j` of the derivatives in component `i` of the state: the
derivatives are those of the row with that one component moved by `eps` either way. -/
theorem jacobian_entries (S : Soln) (eps : ℝ) (he : eps ≠ 0) :
    (compute_jacobian_from_solution S eps).length = S.rows.length ∧
    ∀ (k : ℕ) (θ : ℝ) (s : St), S.rows[k]? = some (θ, s) → ∀ j i : Fin 11,
      entry (compute_jacobian_from_solution S eps) k j i = some
        ((rhsVec (system S 1) θ (vec s + Pi.single i eps) j -
          rhsVec (system S 1) θ (vec s - Pi.single i eps) j) / (2 * eps)) := by
  refine ⟨by simp [compute_jacobian_from_solution, compute_jacobian], ?_⟩
  intro k θ s hk j i
  rw [entry, getElem?_jac, hk]
  simp only [Option.map_some, Option.bind_some, rowJacobian_entry]
  rw [column_eq _ he]
  simp [scaled_to_rad, system]

/-- C89. The derivatives differentiated are those the solver integrates: for a state the
solver accepts they are what its right-hand side returns. -/
theorem jacobian_of_solver (S : Soln) (θ : ℝ) (s d : St) (code : ℤ)
    (h : rhs_equation (system S 1) θ s = (code, some d)) :
    rhsVec (system S 1) θ (vec s) = vec d := by
  obtain ⟨-, -, -, hd⟩ := rhs_accepted h
  have e : ofVec (vec s) = s := rfl
  rw [hd, rhsVec, e]
  simp [system]

theorem hasDerivAt_line {P : OdeArgs} {θ : ℝ} {s : St} {L : (Fin 11 → ℝ) →L[ℝ] (Fin 11 → ℝ)}
    (hL : HasFDerivAt (rhsVec P θ) L (vec s)) (i j : Fin 11) :
    HasDerivAt (fun e : ℝ => rhsVec P θ (vec s + Pi.single i e) j)
      (L (Pi.single i 1) j) 0 := by
  have h1 : HasDerivAt (fun e : ℝ => vec s + Pi.single i e) (Pi.single i (1 : ℝ)) 0 := by
    refine HasDerivAt.const_add (vec s) ?_
    have : (fun e : ℝ => (Pi.single i e : Fin 11 → ℝ)) =
        fun e => e • (Pi.single i (1 : ℝ) : Fin 11 → ℝ) := by
      funext e k
      by_cases h : k = i
      · subst h; simp
      · simp [h]
    change HasDerivAt (fun e : ℝ => (Pi.single i e : Fin 11 → ℝ)) _ _
    rw [this]
    simpa using (hasDerivAt_id (0 : ℝ)).smul_const (Pi.single i (1 : ℝ) : Fin 11 → ℝ)
  have h2 : HasFDerivAt (rhsVec P θ) L (vec s + Pi.single i (0 : ℝ)) := by simpa using hL
  have h3 := h2.comp_hasDerivAt (0 : ℝ) h1
  exact (hasDerivAt_pi.1 h3) j

/-- C89. At a state away from the singular ones the derivatives have a Jacobian (the
matrix of the derivative as a linear map), and every entry computed agrees with it to
second order in `eps`. -/
theorem jacobian_accurate (S : Soln) (k : ℕ) (θ : ℝ) (s : St)
    (hk : S.rows[k]? = some (θ, s)) (hs : Smooth s) :
    ∃ L : (Fin 11 → ℝ) →L[ℝ] (Fin 11 → ℝ),
      HasFDerivAt (rhsVec (system S 1) θ) L (vec s) ∧
      ∀ j i : Fin 11, ∃ d : ℝ → ℝ,
        (∀ eps : ℝ, eps ≠ 0 →
          entry (compute_jacobian_from_solution S eps) k j i = some (d eps)) ∧
        (fun eps => d eps - L (Pi.single i 1) j) =O[𝓝[≠] 0] fun eps : ℝ => eps ^ 2 := by
  have hc := rhsVec_smooth (P := system S 1) (θ := θ) rfl rfl hs 3
  refine ⟨_, (hc.differentiableAt (by norm_num)).hasFDerivAt, ?_⟩
  intro j i
  refine ⟨_, fun eps he => (jacobian_entries S eps he).2 k θ s hk j i, ?_⟩
  have hd := hasDerivAt_line (hc.differentiableAt (by norm_num)).hasFDerivAt i j
  have hg : ContDiffAt ℝ 3 (fun e : ℝ => rhsVec (system S 1) θ (vec s + Pi.single i e) j) 0 := by
    have h1 : ContDiffAt ℝ 3 (fun e : ℝ => vec s + (Pi.single i e : Fin 11 → ℝ)) 0 := by
      refine contDiffAt_const.add ?_
      rw [contDiffAt_pi]
      intro m
      by_cases h : m = i
      · subst h
        simp only [Pi.single_eq_same]
        fun_prop
      · simpa [h] using contDiffAt_const
    have h2 : ContDiffAt ℝ 3 (rhsVec (system S 1) θ) (vec s + Pi.single i (0 : ℝ)) := by
      simpa using hc
    exact (contDiffAt_pi.1 (h2.comp (0 : ℝ) h1)) j
  have hcd := central_difference hg
  rw [hd.deriv] at hcd
  refine hcd.congr_left fun e => ?_
  simp only [zero_add, zero_sub]
  congr 4
  funext m
  by_cases h : m = i
  · subst h; simp [sub_eq_add_neg]
  · simp [h]

/-- C89. The step may have either sign; a zero step leaves no finite entry. -/
theorem jacobian_step (S : Soln) (eps : ℝ) :
    compute_jacobian_from_solution S (-eps) = compute_jacobian_from_solution S eps ∧
    ∀ J ∈ compute_jacobian_from_solution S 0, ∀ j i, J j i = none := by
  constructor
  · by_cases he : eps = 0
    · simp [he]
    have he' : -eps ≠ 0 := by simpa using he
    refine List.map_congr_left fun p _ => ?_
    funext j i
    rw [rowJacobian_entry, rowJacobian_entry, column_eq _ he, column_eq _ he', Pi.single_neg,
      sub_neg_eq_add, ← sub_eq_add_neg]
    congr 1
    field_simp
    ring
  · intro J hJ j i
    simp only [compute_jacobian_from_solution, compute_jacobian, List.mem_map] at hJ
    obtain ⟨p, -, rfl⟩ := hJ
    rw [rowJacobian_entry]
    simp [column, fdiv]

/-- C89. Entries that are exact for every step: the row of `B_θ`, which is linear; that of
`B_φ` when its derivative is a variable; and those of constant diffusivities. -/
theorem jacobian_exact (S : Soln) (eps : ℝ) (he : eps ≠ 0) (k : ℕ) (θ : ℝ) (s : St)
    (hk : S.rows[k]? = some (θ, s)) (i : Fin 11) :
    entry (compute_jacobian_from_solution S eps) k 2 i =
      some (if i = 2 then Real.tan θ else if i = 0 then - (S.γ + 3 / 4) else 0) ∧
    (S.use_E_r = false → entry (compute_jacobian_from_solution S eps) k 1 i =
      some (if i = 7 then 1 else 0)) ∧
    (S.η_derivs = false → ∀ j : Fin 11, 8 ≤ j →
      entry (compute_jacobian_from_solution S eps) k j i = some 0) := by
  have h := (jacobian_entries S eps he).2 k θ s hk
  refine ⟨?_, ?_, ?_⟩
  · rw [h]
    have e : ∀ x, rhsVec (system S 1) θ x 2 = x 2 * Real.tan θ - (S.γ + 3 / 4) * x 0 :=
      fun _ => rfl
    rw [e, e]
    congr 1
    fin_cases i <;> simp
    all_goals (field_simp; ring)
  · intro hE
    rw [h]
    have e : ∀ x, rhsVec (system S 1) θ x 1 = x 7 := fun x =>
      rhs_B_φ (system S 1) θ (ofVec x) hE
    rw [e, e]
    congr 1
    fin_cases i <;> simp
    field_simp
    ring
  · intro hη j hj
    rw [h]
    have e : ∀ x, rhsVec (system S 1) θ x j = 0 := by
      intro x
      obtain ⟨h1, h2, h3⟩ := rhs_η_const (system S 1) θ (ofVec x) hη
      fin_cases j <;> first | exact absurd hj (by decide) | assumption
    rw [e, e]
    simp

/-! ## One row -/

theorem slice_one {α : Type} (l : List α) (k : ℕ) (hk : k < l.length) :
    ({ start := some (k : Int), stop := some ((k : Int) + 1) } : PySlice).index l =
      some [l[k]] := by
  have h1 : PySlice.clamp l.length 0 l.length (k : Int) = k := by
    unfold PySlice.clamp; split <;> omega
  have h2 : PySlice.clamp l.length 0 l.length ((k : Int) + 1) = k + 1 := by
    unfold PySlice.clamp; split <;> omega
  simp [PySlice.index, PySlice.positions, h1, h2, hk]

theorem slice_neg {α : Type} (l : List α) (m : ℕ) (hm : 2 ≤ m) (hk : m ≤ l.length) :
    ({ start := some (-(m : Int)), stop := some (-(m : Int) + 1) } : PySlice).index l =
      some [l[l.length - m]'(by omega)] := by
  have h1 : PySlice.clamp l.length 0 l.length (-(m : Int)) = (l.length - m : ℕ) := by
    unfold PySlice.clamp; split <;> omega
  have h2 : PySlice.clamp l.length 0 l.length (-(m : Int) + 1) = (l.length - m : ℕ) + 1 := by
    unfold PySlice.clamp; split <;> omega
  have h3 : l.length - m < l.length := by omega
  simp [PySlice.index, PySlice.positions, h1, h2, h3]

theorem slice_last {α : Type} (l : List α) :
    ({ start := some (-1), stop := some (-1 + 1) } : PySlice).index l = some [] := by
  have h1 : PySlice.clamp l.length 0 l.length 0 = 0 := by
    unfold PySlice.clamp; split <;> omega
  have h2 : 0 ≤ PySlice.clamp l.length 0 l.length (-1) := by
    unfold PySlice.clamp; split <;> omega
  have h3 : (0 - PySlice.clamp l.length 0 l.length (-1)).toNat = 0 := by omega
  simp [PySlice.index, PySlice.positions, h1] at h3 ⊢
  omega

/-- C89. The Jacobian at one position is that of the whole solution at this position,
counting from the start, or from the end but for the last row: the index `-1` is always an
error. -/
theorem jacobian_at_index (S : Soln) (eps : ℝ) :
    (∀ (k : ℕ) (J : Mat), (compute_jacobian_from_solution S eps)[k]? = some J →
      compute_jacobian_at_index S eps k = .ok J) ∧
    (∀ (m : ℕ) (J : Mat), 2 ≤ m → m ≤ S.rows.length →
      (compute_jacobian_from_solution S eps)[S.rows.length - m]? = some J →
      compute_jacobian_at_index S eps (-m) = .ok J) ∧
    compute_jacobian_at_index S eps (-1) = .error .IndexError := by
  refine ⟨?_, ?_, ?_⟩
  · intro k J hJ
    rw [getElem?_jac] at hJ
    have hk : k < S.rows.length := by
      by_contra h
      rw [List.getElem?_eq_none (by omega)] at hJ
      cases hJ
    rw [List.getElem?_eq_getElem hk, Option.map_some, Option.some.injEq] at hJ
    simp [compute_jacobian_at_index, slice_one _ _ hk, compute_jacobian, hJ]
  · intro m J hm hl hJ
    rw [getElem?_jac] at hJ
    have hk : S.rows.length - m < S.rows.length := by omega
    rw [List.getElem?_eq_getElem hk, Option.map_some, Option.some.injEq] at hJ
    simp [compute_jacobian_at_index, slice_neg _ _ hm hl, compute_jacobian, hJ]
  · simp only [compute_jacobian_at_index]
    rw [slice_last]
    rfl

/-! ## Eigenvectors -/

/-- Specification of the linear algebra routines: the columns of the matrix `eig` returns
are eigenvectors for the values beside them, `eigvals` returns eigenvalues, and `inv`
returns an inverse or fails because there is none. -/
structure LinAlgOk (L : LinAlg) : Prop where
  eig_ne : ∀ (A : Fin 11 → Fin 11 → ℝ) (j : Fin 11), ∃ i, (L.eig A).2 i j ≠ 0
  eig : ∀ (A : Fin 11 → Fin 11 → ℝ) (i j : Fin 11),
    ∑ m, (A i m : ℂ) * (L.eig A).2 m j = (L.eig A).1 j * (L.eig A).2 i j
  eigvals : ∀ (A : Fin 11 → Fin 11 → ℝ) (j : Fin 11), ∃ v : Fin 11 → ℂ, v ≠ 0 ∧
    ∀ i, ∑ m, (A i m : ℂ) * v m = L.eigvals A j * v i
  inv : ∀ V W, L.inv V = some W → V * W = 1
  inv_none : ∀ V, L.inv V = none ↔ ¬ IsUnit V

/-- Specification: `c` are the coefficients of `v` in the columns of `V`. -/
def Expands (V : CMat) (c v : Fin 11 → ℂ) : Prop := ∀ i, ∑ j, c j * V i j = v i

/-- Specification: how far one state is from another. -/
noncomputable def offset (s crit : St) : Fin 11 → ℂ := fun i => ((vec s i - vec crit i : ℝ) : ℂ)

theorem expands_mulVec (V : CMat) (c v : Fin 11 → ℂ) : Expands V c v ↔ V.mulVec c = v := by
  constructor
  · intro h
    funext i
    rw [← h i]
    simp [Matrix.mulVec, dotProduct, mul_comm]
  · rintro rfl i
    simp [Matrix.mulVec, dotProduct, mul_comm]

theorem expands_of_inv {L : LinAlg} (hL : LinAlgOk L) {V W : CMat} (h : L.inv V = some W)
    (v : Fin 11 → ℂ) : Expands V (W.mulVec v) v := by
  rw [expands_mulVec, Matrix.mulVec_mulVec, hL.inv V W h, Matrix.one_mulVec]

theorem isUnit_of_inv {L : LinAlg} (hL : LinAlgOk L) {V W : CMat} (h : L.inv V = some W) :
    IsUnit V := by
  by_contra hu
  rw [(hL.inv_none V).2 hu] at h
  cases h

theorem expands_unique {V : CMat} (hV : IsUnit V) {c d v : Fin 11 → ℂ} (hc : Expands V c v)
    (hd : Expands V d v) : c = d := by
  rw [expands_mulVec] at hc hd
  exact Matrix.mulVec_injective_of_isUnit hV (hc.trans hd.symm)

theorem subtracted_eq (crit s : St) : subtracted crit s = offset s crit := by
  funext i
  simp only [subtracted, offset, col_vec]

/-- The entries of the matrix of a row. -/
noncomputable def realJac (S : Soln) (eps : ℝ) (p : ℝ × St) : Fin 11 → Fin 11 → ℝ :=
  fun j i => (rhsVec (system S 1) p.1 (vec p.2 + Pi.single i eps) j -
    rhsVec (system S 1) p.1 (vec p.2 - Pi.single i eps) j) / (2 * eps)

theorem rowJacobian_real (S : Soln) {eps : ℝ} (he : eps ≠ 0) (p : ℝ × St) :
    rowJacobian (system S 1) eps p = fun j i => some (realJac S eps p j i) := by
  funext j i
  rw [rowJacobian_entry, column_eq _ he]
  simp [realJac, system, scaled_to_rad]

theorem finite_real (S : Soln) {eps : ℝ} (he : eps ≠ 0) (p : ℝ × St) :
    finiteEntries (rowJacobian (system S 1) eps p) = some (realJac S eps p) := by
  rw [rowJacobian_real S he]
  simp [finiteEntries]

theorem entry_real (S : Soln) {eps : ℝ} (he : eps ≠ 0) {k : ℕ} {p : ℝ × St}
    (hk : S.rows[k]? = some p) (j i : Fin 11) :
    entry (compute_jacobian_from_solution S eps) k j i = some (realJac S eps p j i) := by
  rw [(jacobian_entries S eps he).2 k p.1 p.2 hk]
  rfl

theorem pyIndex_nat {α : Type} {l : List α} {k : ℕ} {a : α} (h : l[k]? = some a) :
    pyIndex l (k : Int) = .ok a := by
  have h0 : ¬ ((k : Int) < 0) := by omega
  simp [pyIndex, h0, h]

theorem pyIndex_last {α : Type} {l : List α} (h : l ≠ []) :
    pyIndex l (-1) = .ok (l.getLast h) := by
  have hl : 0 < l.length := List.length_pos_iff.2 h
  have h0 : ¬ ((-1 : Int) + l.length < 0) := by omega
  have h1 : ((-1 : Int) + l.length).toNat = l.length - 1 := by omega
  have h2 : l[l.length - 1]? = some (l.getLast h) := by
    rw [← List.getLast?_eq_getElem?, List.getLast?_eq_some_getLast h]
  simp [pyIndex, h0, h1, h2]

/-- C90. With the eigenvectors of the critical point itself the coefficients are exactly
those of every row's distance from the critical point, and the call fails exactly when these
eigenvectors do not span. -/
theorem coef_global {L : LinAlg} (hL : LinAlgOk L) (S : Soln) (eps : ℝ) (he : eps ≠ 0)
    (k : ℕ) (θc : ℝ) (crit : St) (hk : S.rows[k]? = some (θc, crit)) :
    ∃ A : Fin 11 → Fin 11 → ℝ,
      (∀ j i, entry (compute_jacobian_from_solution S eps) k j i = some (A j i)) ∧
      (IsUnit (L.eig A).2 → ∃ coefs,
        get_eigenvector_coef_around_critical_point L S k eps false = .ok coefs ∧
        coefs.length = S.rows.length ∧
        ∀ (m : ℕ) (θ : ℝ) (s : St), S.rows[m]? = some (θ, s) →
          ∃ c, coefs[m]? = some (some c) ∧ Expands (L.eig A).2 c (offset s crit)) ∧
      (¬ IsUnit (L.eig A).2 →
        get_eigenvector_coef_around_critical_point L S k eps false = .error .LinAlgError) := by
  refine ⟨realJac S eps (θc, crit), entry_real S he hk, ?_, ?_⟩
  all_goals
    have hJ := (jacobian_at_index S eps).1 k (rowJacobian (system S 1) eps (θc, crit))
      (by rw [getElem?_jac, hk]; rfl)
    intro hu
    simp only [get_eigenvector_coef_around_critical_point, pyIndex_nat hk, hJ,
      compute_eigenvalues_and_eigenvectors, finite_real S he, Option.map_some,
      Bool.false_eq_true, if_false]
  · cases hi : L.inv (L.eig (realJac S eps (θc, crit))).2 with
    | none => exact absurd hu ((hL.inv_none _).1 hi)
    | some W =>
      refine ⟨_, rfl, by simp, ?_⟩
      intro m θ s hm
      refine ⟨W.mulVec (subtracted crit s), by simp [hm], ?_⟩
      rw [subtracted_eq]
      exact expands_of_inv hL hi _
  · rw [(hL.inv_none _).2 hu]

theorem invAll_ok {L : LinAlg} : ∀ {l r : List (Option CMat)}, invAll L l = .ok r →
    r.length = l.length ∧ ∀ (m : ℕ) (V : CMat), l[m]? = some (some V) →
      ∃ W, r[m]? = some (some W) ∧ L.inv V = some W := by
  intro l
  induction l with
  | nil =>
    intro r h
    simp only [invAll, Except.ok.injEq] at h
    subst h
    simp
  | cons o l ih =>
    intro r h
    have key : ∀ (o' : Option CMat), (invAll L l).map (o' :: ·) = .ok r →
        ∃ r', invAll L l = .ok r' ∧ r = o' :: r' := by
      intro o' h
      cases hr : invAll L l with
      | error e => rw [hr] at h; cases h
      | ok r' =>
        rw [hr] at h
        exact ⟨r', rfl, (Except.ok.inj h).symm⟩
    cases o with
    | none =>
      obtain ⟨r', hr', rfl⟩ := key none h
      obtain ⟨h1, h2⟩ := ih hr'
      refine ⟨by simp [h1], ?_⟩
      intro m V hm
      cases m with
      | zero => simp at hm
      | succ m => exact h2 m V (by simpa using hm)
    | some V₀ =>
      cases hi : L.inv V₀ with
      | none => simp [invAll, hi] at h
      | some W =>
        simp only [invAll, hi] at h
        obtain ⟨r', hr', rfl⟩ := key (some W) h
        obtain ⟨h1, h2⟩ := ih hr'
        refine ⟨by simp [h1], ?_⟩
        intro m V hm
        cases m with
        | zero =>
          have : V₀ = V := by simpa using hm
          subst this
          exact ⟨W, by simp, hi⟩
        | succ m => simpa using h2 m V (by simpa using hm)

theorem invAll_error {L : LinAlg} : ∀ {l : List (Option CMat)},
    ((∃ V, some V ∈ l ∧ L.inv V = none) → invAll L l = .error .LinAlgError) ∧
    ((∀ V, some V ∈ l → L.inv V ≠ none) → ∃ r, invAll L l = .ok r) := by
  intro l
  induction l with
  | nil => exact ⟨by simp, fun _ => ⟨[], rfl⟩⟩
  | cons o l ih =>
    obtain ⟨ih1, ih2⟩ := ih
    cases o with
    | none =>
      constructor
      · rintro ⟨V, hV, hi⟩
        simp only [invAll]
        rw [ih1 ⟨V, by simpa using hV, hi⟩]
        rfl
      · intro h
        obtain ⟨r, hr⟩ := ih2 fun V hV => h V (List.mem_cons_of_mem _ hV)
        simp only [invAll, hr]
        exact ⟨_, rfl⟩
    | some V₀ =>
      cases hi : L.inv V₀ with
      | none =>
        refine ⟨fun _ => by simp [invAll, hi], fun h => absurd hi (h V₀ (by simp))⟩
      | some W =>
        simp only [invAll, hi]
        constructor
        · rintro ⟨V, hV, hn⟩
          have : some V ∈ l := by
            rcases List.mem_cons.1 hV with h | h
            · cases h; rw [hi] at hn; cases hn
            · exact h
          rw [ih1 ⟨V, this, hn⟩]
          rfl
        · intro h
          obtain ⟨r, hr⟩ := ih2 fun V hV => h V (List.mem_cons_of_mem _ hV)
          rw [hr]
          exact ⟨_, rfl⟩

/-- C90. With the eigenvectors of each row the numbers returned are the real parts of the
coefficients of the row's distance from the critical point in the eigenvectors of that row.
They are themselves coefficients exactly when the true ones are real.  The call fails
exactly when the eigenvectors of some row do not span. -/
theorem coef_local {L : LinAlg} (hL : LinAlgOk L) (S : Soln) (eps : ℝ) (he : eps ≠ 0)
    (k : ℕ) (θc : ℝ) (crit : St) (hk : S.rows[k]? = some (θc, crit)) :
    ∃ A : ℕ → Fin 11 → Fin 11 → ℝ,
      (∀ m < S.rows.length, ∀ j i,
        entry (compute_jacobian_from_solution S eps) m j i = some (A m j i)) ∧
      ((∀ m < S.rows.length, IsUnit (L.eig (A m)).2) → ∃ coefs,
        get_eigenvector_coef_around_critical_point L S k eps true = .ok coefs ∧
        coefs.length = S.rows.length ∧
        ∀ (m : ℕ) (θ : ℝ) (s : St), S.rows[m]? = some (θ, s) →
          ∃ c x, coefs[m]? = some (some c) ∧ Expands (L.eig (A m)).2 x (offset s crit) ∧
            (∀ i, c i = ((x i).re : ℂ)) ∧
            (Expands (L.eig (A m)).2 c (offset s crit) ↔ ∀ i, (x i).im = 0)) ∧
      ((∃ m < S.rows.length, ¬ IsUnit (L.eig (A m)).2) →
        get_eigenvector_coef_around_critical_point L S k eps true = .error .LinAlgError) := by
  classical
  refine ⟨fun m => realJac S eps (S.rows.getD m (0, St.zero)), ?_, ?_, ?_⟩
  · intro m hm j i
    have : S.rows[m]? = some (S.rows.getD m (0, St.zero)) := by
      simp [hm]
    exact entry_real S he this j i
  all_goals
    have hvecs : ((compute_jacobian_from_solution S eps).map fun J =>
        (compute_eigenvalues_and_eigenvectors L J).map (·.2)) =
        S.rows.map fun p => some (L.eig (realJac S eps p)).2 := by
      simp only [compute_jacobian_from_solution, compute_jacobian, List.map_map]
      refine List.map_congr_left fun p _ => ?_
      simp [compute_eigenvalues_and_eigenvectors, finite_real S he]
    intro hu
    simp only [get_eigenvector_coef_around_critical_point, pyIndex_nat hk, if_true, hvecs]
  · have hall : ∀ V, some V ∈ (S.rows.map fun p => some (L.eig (realJac S eps p)).2) →
        L.inv V ≠ none := by
      intro V hV hn
      simp only [List.mem_map, Option.some.injEq] at hV
      obtain ⟨p, hp, rfl⟩ := hV
      obtain ⟨m, hm, rfl⟩ := List.getElem_of_mem hp
      have := hu m hm
      have e : S.rows.getD m (0, St.zero) = S.rows[m] := by simp [hm]
      simp only [e] at this
      exact (hL.inv_none _).1 hn this
    obtain ⟨r, hr⟩ := invAll_error.2 hall
    obtain ⟨h1, h2⟩ := invAll_ok hr
    rw [hr]
    simp only
    refine ⟨_, rfl, by simp [h1], ?_⟩
    intro m θ s hm
    have hlt : m < S.rows.length := by
      by_contra h
      rw [List.getElem?_eq_none (by omega)] at hm
      cases hm
    have hgd : S.rows.getD m (0, St.zero) = (θ, s) := by simp [hm]
    obtain ⟨W, hW, hi⟩ := h2 m (L.eig (realJac S eps (θ, s))).2 (by simp [hm])
    rw [hgd]
    have hx := expands_of_inv hL hi (offset s crit)
    refine ⟨fun i => ((W.mulVec (offset s crit) i).re : ℂ), W.mulVec (offset s crit), ?_, hx,
      fun _ => rfl, ?_⟩
    · have hz : (r.zip (S.rows.map fun p => subtracted crit p.2))[m]? =
          some (some W, subtracted crit s) := by
        rw [List.getElem?_zip_eq_some]
        exact ⟨hW, by simp [hm]⟩
      rw [List.getElem?_map, hz, Option.map_some, subtracted_eq]
      rfl
    · constructor
      · intro hc i
        have := congrFun (expands_unique (isUnit_of_inv hL hi) hc hx) i
        rw [← this]
        simp
      · intro him
        have : (fun i => ((W.mulVec (offset s crit) i).re : ℂ)) =
            W.mulVec (offset s crit) := by
          funext i
          exact Complex.ext (by simp) (by simp [him i])
        rw [this]
        exact hx
  · obtain ⟨m, hm, hn⟩ := hu
    rw [invAll_error.1]
    refine ⟨_, List.mem_map.2 ⟨S.rows.getD m (0, St.zero), ?_, rfl⟩, (hL.inv_none _).2 hn⟩
    have e : S.rows.getD m (0, St.zero) = S.rows[m] := by simp [hm]
    rw [e]
    exact List.getElem_mem hm

/-- C90. If the eigenvectors are real so are the coefficients, and nothing is lost. -/
theorem real_coefs {V : CMat} (hV : IsUnit V) (hr : ∀ i j, (V i j).im = 0) {x : Fin 11 → ℂ}
    {s crit : St} (hx : Expands V x (offset s crit)) : ∀ i, (x i).im = 0 := by
  have hconj : Expands V (fun i => (starRingEnd ℂ) (x i)) (offset s crit) := by
    intro i
    have h := congrArg (starRingEnd ℂ) (hx i)
    rw [map_sum] at h
    have e : ∀ j, (starRingEnd ℂ) (x j * V i j) = (starRingEnd ℂ) (x j) * V i j := by
      intro j
      rw [map_mul, Complex.conj_eq_iff_im.2 (hr i j)]
    simp only [e] at h
    rw [h]
    simp [offset]
  have := expands_unique hV hconj hx
  intro i
  exact Complex.conj_eq_iff_im.1 (congrFun this i)

/-- Two complex eigenvectors, `(1, -i)` and `(1, i)`, and the other unit vectors. -/
noncomputable def turnVecs : CMat := fun i j =>
  if j = 0 then (if i = 0 then 1 else if i = 1 then -Complex.I else 0)
  else if j = 1 then (if i = 0 then 1 else if i = 1 then Complex.I else 0)
  else if i = j then 1 else 0

/-- A quarter turn of the first two components; the others are not coupled. -/
def turn : Fin 11 → Fin 11 → ℝ := fun i j =>
  if i = 0 ∧ j = 1 then -1 else if i = 1 ∧ j = 0 then 1 else 0

theorem turnVecs_mulVec (c : Fin 11 → ℂ) (i : Fin 11) : ∑ j, c j * turnVecs i j =
    if i = 0 then c 0 + c 1 else if i = 1 then - (c 0 * Complex.I) + c 1 * Complex.I
    else c i := by
  fin_cases i <;> simp [Fin.sum_univ_succ, turnVecs]

theorem turnVecs_isUnit : IsUnit turnVecs := by
  rw [← Matrix.mulVec_injective_iff_isUnit]
  intro c d h
  have hi : ∀ i, ∑ j, c j * turnVecs i j = ∑ j, d j * turnVecs i j := by
    intro i
    have := congrFun h i
    simpa [Matrix.mulVec, dotProduct, mul_comm] using this
  have h0 : c 0 + c 1 = d 0 + d 1 := by simpa only [turnVecs_mulVec, if_true] using hi 0
  have h1 : - (c 0 * Complex.I) + c 1 * Complex.I = - (d 0 * Complex.I) + d 1 * Complex.I := by
    have := hi 1
    rw [turnVecs_mulVec, turnVecs_mulVec] at this
    simpa using this
  have h2 : - c 0 + c 1 = - d 0 + d 1 := by
    have : (- c 0 + c 1) * Complex.I = (- d 0 + d 1) * Complex.I := by linear_combination h1
    exact mul_right_cancel₀ Complex.I_ne_zero this
  funext i
  by_cases i0 : i = 0
  · subst i0; linear_combination (h0 - h2) / 2
  by_cases i1 : i = 1
  · subst i1; linear_combination (h0 + h2) / 2
  have := hi i
  rw [turnVecs_mulVec, turnVecs_mulVec] at this
  simpa [i0, i1] using this

/-- C90. Keeping the real parts does lose: for a matrix with complex eigenvectors there are
two states whose distance is not recovered from the real parts of its coefficients. -/
theorem real_parts_lose :
    ∃ (A : Fin 11 → Fin 11 → ℝ) (V : CMat) (lam : Fin 11 → ℂ) (x : Fin 11 → ℂ) (s crit : St),
      IsUnit V ∧ (∀ i j, ∑ m, (A i m : ℂ) * V m j = lam j * V i j) ∧
      Expands V x (offset s crit) ∧
      ¬ Expands V (fun i => ((x i).re : ℂ)) (offset s crit) := by
  refine ⟨turn, turnVecs, fun j => if j = 0 then Complex.I else if j = 1 then -Complex.I else 0,
    fun j => if j = 0 then Complex.I / 2 else if j = 1 then -Complex.I / 2 else 0,
    { St.zero with B_φ := 1 }, St.zero, turnVecs_isUnit, ?_, ?_, ?_⟩
  · intro i j
    fin_cases i <;> fin_cases j <;> simp [Fin.sum_univ_succ, turn, turnVecs]
  · intro i
    rw [turnVecs_mulVec]
    fin_cases i <;> simp [offset, vec, St.zero]
    · ring
    · have := Complex.I_mul_I
      linear_combination (-1 : ℂ) * this
  · intro h
    have := h 1
    rw [turnVecs_mulVec] at this
    simp [offset, vec, St.zero] at this

/-! ## The plot of coefficients -/

/-- Specification: the Mach number belonging to the name of a critical point. -/
noncomputable def namedMach (name : String) (s : St) : Flt :=
  if name = "slow" then (get_mach_numbers s).slow
  else if name = "sonic" then (get_mach_numbers s).sonic
  else if name = "alfven" then (get_mach_numbers s).alfven
  else (get_mach_numbers s).fast

/-- Specification: the critical points there are. -/
def names : List String := ["slow", "sonic", "alfven", "fast"]

/-- Specification: the rows drawn, with the values of `data` in the same rows. -/
def InPlot {α : Type} (S : Soln) (start stop : ℝ) (data : List α) (x : ℝ) (d : α) : Prop :=
  ∃ (m : ℕ) (θ : ℝ) (s : St), S.rows[m]? = some (θ, s) ∧ data[m]? = some d ∧
    start ≤ degrees θ ∧ degrees θ ≤ stop ∧ x = degrees θ

theorem mem_selected {α : Type} (S : Soln) (start stop : ℝ) (data : List α) (x : ℝ) (d : α) :
    (x, d) ∈ selected start stop S data ↔ InPlot S start stop data x d := by
  unfold selected AnalysisPlots.rowsIn InPlot
  simp only [List.mem_map, List.mem_filter, decide_eq_true_eq, Prod.mk.injEq]
  constructor
  · rintro ⟨⟨θ, d'⟩, ⟨hz, h1, h2⟩, rfl, rfl⟩
    obtain ⟨m, hm, he⟩ := List.getElem_of_mem hz
    have := List.getElem?_eq_getElem hm
    rw [he, List.getElem?_zip_eq_some] at this
    obtain ⟨h3, h4⟩ := this
    rw [List.getElem?_map] at h3
    cases hr : S.rows[m]? with
    | none => rw [hr] at h3; cases h3
    | some p =>
      rw [hr] at h3
      have : p.1 = θ := by simpa using h3
      subst this
      exact ⟨m, p.1, p.2, hr, h4, h1, h2, rfl⟩
  · rintro ⟨m, θ, s, h1, h2, h3, h4, rfl⟩
    refine ⟨(θ, d), ⟨?_, h3, h4⟩, rfl, rfl⟩
    refine List.mem_of_getElem? (i := m) ?_
    rw [List.getElem?_zip_eq_some]
    exact ⟨by simp [h1], h2⟩

theorem crit_indices {rows : List St} (h : rows ≠ []) :
    ∃ c, get_critical_point_indices rows = .ok c ∧
      first_closest_index (rows.map (namedMach "slow")) 1 = .ok c.slow ∧
      first_closest_index (rows.map (namedMach "sonic")) 1 = .ok c.sonic ∧
      first_closest_index (rows.map (namedMach "alfven")) 1 = .ok c.alfven ∧
      first_closest_index (rows.map (namedMach "fast")) 1 = .ok c.fast := by
  have hok : ∀ f : St → Flt, ∃ o, first_closest_index (rows.map f) 1 = .ok o := by
    intro f
    cases hf : first_closest_index (rows.map f) 1 with
    | ok o => exact ⟨o, rfl⟩
    | error e =>
      exact absurd ((first_closest_raises _ _).1 ⟨e, hf⟩) (by simpa using h)
  obtain ⟨o1, h1⟩ := hok fun s => (get_mach_numbers s).slow
  obtain ⟨o2, h2⟩ := hok fun s => (get_mach_numbers s).sonic
  obtain ⟨o3, h3⟩ := hok fun s => (get_mach_numbers s).alfven
  obtain ⟨o4, h4⟩ := hok fun s => (get_mach_numbers s).fast
  refine ⟨⟨o1, o2, o3, o4⟩, ?_, ?_, ?_, ?_, ?_⟩
  · unfold get_critical_point_indices
    rw [h1, h2, h3, h4]
    rfl
  · exact h1
  · exact h2
  · exact h3
  · exact h4

theorem criticalPoint_names {rows : List St} (h : rows ≠ []) :
    ∃ c, get_critical_point_indices rows = .ok c ∧
      (∀ name ∈ names, ∃ found, criticalPoint c name = .ok found ∧
        first_closest_index (rows.map (namedMach name)) 1 = .ok found) ∧
      (∀ name, name ∉ names → criticalPoint c name = .error .KeyError) := by
  obtain ⟨c, h0, h1, h2, h3, h4⟩ := crit_indices h
  refine ⟨c, h0, ?_, ?_⟩
  · intro name hn
    simp only [names, List.mem_cons, List.not_mem_nil, or_false] at hn
    rcases hn with rfl | rfl | rfl | rfl
    · exact ⟨_, rfl, h1⟩
    · exact ⟨_, rfl, h2⟩
    · exact ⟨_, rfl, h3⟩
    · exact ⟨_, rfl, h4⟩
  · intro name hn
    simp only [names, List.mem_cons, List.not_mem_nil, or_false, not_or] at hn
    simp [criticalPoint, hn]

/-- C90. What the plot of coefficients draws when the critical point asked for is in the
solution: the vertical line is at the row where the Mach number of that name first crosses
one, and curve `i` is the real part of coefficient `i` around this row, over the rows
between the two angles. -/
theorem coef_plot (L : LinAlg) (S : Soln) (E : Bool) (eps start stop : ℝ) (loc : Bool)
    (name : String) (hn : name ∈ names) (k : ℕ)
    (hk : first_closest_index ((S.rows.map (·.2)).map (namedMach name)) 1 = .ok (some k)) :
    ∃ θc crit, S.rows[k]? = some (θc, crit) ∧
      match get_eigenvector_coef_around_critical_point L S k eps loc with
      | .error e =>
        plot_eigenvector_coef_around_sonic_point L S E eps start stop loc name = .error e
      | .ok coefs => ∃ fig,
        plot_eigenvector_coef_around_sonic_point L S E eps start stop loc name = .ok fig ∧
        fig.vline = degrees θc ∧ fig.vlabel = name.capitalize ++ " point" ∧
        fig.printed = (if E then ["E_r used"] else []) ∧ fig.curves.length = 11 ∧
        ∀ i : Fin 11, ∃ c, fig.curves[i.val]? = some c ∧ c.label = some (toString i.val) ∧
          ∀ x y, (x, some y) ∈ c.points ↔
            ∃ co, InPlot S start stop coefs x (some co) ∧ y = (co i).re := by
  have hne : S.rows.map (·.2) ≠ [] := by
    intro h
    rw [h] at hk
    simp [first_closest_index] at hk
  obtain ⟨c, hc, hcn, -⟩ := criticalPoint_names hne
  obtain ⟨found, hf, hf'⟩ := hcn name hn
  have : found = some k := by
    rw [hk] at hf'
    exact (Except.ok.inj hf').symm
  subst this
  obtain ⟨m, hm, -⟩ := (first_closest_some _ _ _).1 hk
  have hkl : k < S.rows.length := by
    by_contra h
    rw [List.getElem?_eq_none (by simp; omega)] at hm
    cases hm
  refine ⟨S.rows[k].1, S.rows[k].2, List.getElem?_eq_getElem hkl, ?_⟩
  have hp : pyIndex S.rows (k : Int) = .ok S.rows[k] :=
    pyIndex_nat (List.getElem?_eq_getElem hkl)
  cases hg : get_eigenvector_coef_around_critical_point L S k eps loc with
  | error e =>
    simp [plot_eigenvector_coef_around_sonic_point, hc, hf, hg]
  | ok coefs =>
    simp only [plot_eigenvector_coef_around_sonic_point, hc, hf, Option.map_some,
      Option.getD_some, hg, hp]
    refine ⟨_, rfl, rfl, rfl, by simp, by simp, ?_⟩
    intro i
    have hi : (List.finRange 11)[i.val]? = some i := by simp
    refine ⟨_, by rw [List.getElem?_map, hi, Option.map_some], rfl, ?_⟩
    intro x y
    simp only [List.mem_map, Prod.mk.injEq, Prod.exists]
    constructor
    · rintro ⟨x', co, hsel, rfl, hy⟩
      cases co with
      | none => cases hy
      | some co => exact ⟨co, (mem_selected ..).1 hsel, by simpa using hy.symm⟩
    · rintro ⟨co, hin, rfl⟩
      exact ⟨x, some co, (mem_selected ..).2 hin, rfl, rfl⟩

/-- C90. When the critical point asked for is not in the solution, a message is printed and
the last row takes its place, which works with the eigenvectors of each row only: with
those of the critical point the plot is always an `IndexError`. -/
theorem coef_plot_missing (L : LinAlg) (S : Soln) (E : Bool) (eps start stop : ℝ)
    (name : String) (hn : name ∈ names)
    (hk : first_closest_index ((S.rows.map (·.2)).map (namedMach name)) 1 = .ok none) :
    plot_eigenvector_coef_around_sonic_point L S E eps start stop false name =
      .error .IndexError ∧
    get_eigenvector_coef_around_critical_point L S (-1) eps true =
      get_eigenvector_coef_around_critical_point L S ((S.rows.length - 1 : ℕ) : Int) eps true ∧
    ∀ fig, plot_eigenvector_coef_around_sonic_point L S E eps start stop true name = .ok fig →
      (∃ θ s, S.rows.getLast? = some (θ, s) ∧ fig.vline = degrees θ) ∧
      fig.vlabel = name.capitalize ++ " point" ∧
      "Failed to find " ++ name ++ " so setting to last value" ∈ fig.printed := by
  have hne : S.rows.map (·.2) ≠ [] := by
    intro h
    rw [h] at hk
    simp [first_closest_index] at hk
  have hne' : S.rows ≠ [] := by simpa using hne
  obtain ⟨c, hc, hcn, -⟩ := criticalPoint_names hne
  obtain ⟨found, hf, hf'⟩ := hcn name hn
  have : found = none := by
    rw [hk] at hf'
    exact (Except.ok.inj hf').symm
  subst this
  have hp := pyIndex_last hne'
  have hlast : S.rows[S.rows.length - 1]? = some (S.rows.getLast hne') := by
    rw [← List.getLast?_eq_getElem?, List.getLast?_eq_some_getLast hne']
  refine ⟨?_, ?_, ?_⟩
  · simp [plot_eigenvector_coef_around_sonic_point, hc, hf,
      get_eigenvector_coef_around_critical_point, hp, (jacobian_at_index S eps).2.2]
  · simp only [get_eigenvector_coef_around_critical_point, hp, pyIndex_nat hlast, if_true]
  · intro fig hfig
    cases hg : get_eigenvector_coef_around_critical_point L S (-1) eps true with
    | error e => simp [plot_eigenvector_coef_around_sonic_point, hc, hf, hg] at hfig
    | ok coefs =>
      simp only [plot_eigenvector_coef_around_sonic_point, hc, hf, Option.map_none,
        Option.getD_none, hg, hp, Except.ok.injEq] at hfig
      subst hfig
      refine ⟨⟨(S.rows.getLast hne').1, (S.rows.getLast hne').2,
        List.getLast?_eq_some_getLast hne', rfl⟩, rfl, ?_⟩
      simp

/-- C90. An empty solution or a name that is not one of the four is an error. -/
theorem coef_plot_errors (L : LinAlg) (S : Soln) (E : Bool) (eps start stop : ℝ) (loc : Bool)
    (name : String) :
    (S.rows = [] → ∃ e,
      plot_eigenvector_coef_around_sonic_point L S E eps start stop loc name = .error e) ∧
    (S.rows ≠ [] → name ∉ names →
      plot_eigenvector_coef_around_sonic_point L S E eps start stop loc name =
        .error .KeyError) := by
  constructor
  · intro h
    refine ⟨.ValueError, ?_⟩
    have : get_critical_point_indices (S.rows.map (·.2)) = .error .ValueError := by
      rw [h]
      unfold get_critical_point_indices
      simp only [List.map_nil]
      have : first_closest_index [] 1 = .error .ValueError := by simp [first_closest_index]
      rw [this]
      rfl
    simp [plot_eigenvector_coef_around_sonic_point, this]
  · intro h hn
    obtain ⟨c, hc, -, hcn⟩ := criticalPoint_names (rows := S.rows.map (·.2)) (by simpa using h)
    simp [plot_eigenvector_coef_around_sonic_point, hc, hcn name hn]

/-! ## The plots of eigenvalues and eigenvectors -/

/-- Specification: how a complex number is drawn on logarithmic axes.  The size of its real
part carries an upward or downward triangle for its sign, that of its imaginary part the
upward or downward tick. -/
def Drawn (marker : String) (z : ℂ) (y : ℝ) : Prop :=
  (marker = "^" ∧ 0 ≤ z.re ∧ y = |z.re|) ∨ (marker = "v" ∧ z.re < 0 ∧ y = |z.re|) ∨
  (marker = "2" ∧ 0 ≤ z.im ∧ y = |z.im|) ∨ (marker = "1" ∧ z.im < 0 ∧ y = |z.im|)

/-- Specification: the number `y` at `x` is drawn with this label and marker. -/
def Shows (plot : List Marks) (label : Option String) (marker : String) (x y : ℝ) : Prop :=
  ∃ M ∈ plot, M.label = label ∧ M.marker = marker ∧ (x, some y) ∈ M.points

/-- C91. Every complex number is drawn, with the size of its parts and markers for their
signs; NaN is not drawn. -/
theorem log_complex (label label' : Option String) (data : List (ℝ × Option ℂ))
    (marker : String) (x y : ℝ) :
    Shows (plot_log_complex_data label data) label' marker x y ↔
      label' = label ∧ ∃ z, (x, some z) ∈ data ∧ Drawn marker z y := by
  have hpos : ∀ (f : ℂ → ℝ), (x, some y) ∈ (data.filter fun p : ℝ × Option ℂ =>
      p.2.any fun y => open Classical in decide (0 ≤ f y)).map
        (fun p => (p.1, p.2.map f)) ↔
      ∃ z, (x, some z) ∈ data ∧ 0 ≤ f z ∧ y = |f z| := by
    intro f
    simp only [List.mem_map, List.mem_filter, Prod.mk.injEq, Prod.exists]
    constructor
    · rintro ⟨x', o, ⟨hm, ho⟩, rfl, hy⟩
      cases o with
      | none => cases hy
      | some z =>
        have h0 : 0 ≤ f z := by simpa using ho
        exact ⟨z, hm, h0, by rw [abs_of_nonneg h0]; simpa using hy.symm⟩
    · rintro ⟨z, hm, h0, rfl⟩
      exact ⟨x, some z, ⟨hm, by simpa using h0⟩, rfl, by simp [abs_of_nonneg h0]⟩
  have hneg : ∀ (f : ℂ → ℝ), (x, some y) ∈ (data.filter fun p : ℝ × Option ℂ =>
      !(p.2.any fun y => open Classical in decide (0 ≤ f y))).map
        (fun p => (p.1, p.2.map fun z => - f z)) ↔
      ∃ z, (x, some z) ∈ data ∧ f z < 0 ∧ y = |f z| := by
    intro f
    simp only [List.mem_map, List.mem_filter, Prod.mk.injEq, Prod.exists]
    constructor
    · rintro ⟨x', o, ⟨hm, ho⟩, rfl, hy⟩
      cases o with
      | none => cases hy
      | some z =>
        have h0 : f z < 0 := by simpa using ho
        exact ⟨z, hm, h0, by rw [abs_of_neg h0]; simpa using hy.symm⟩
    · rintro ⟨z, hm, h0, rfl⟩
      exact ⟨x, some z, ⟨hm, by simpa using h0⟩, rfl, by simp [abs_of_neg h0]⟩
  unfold Shows plot_log_complex_data
  simp only [List.mem_cons, List.not_mem_nil, or_false, exists_eq_or_imp, exists_eq_left]
  rw [hpos, hneg, hpos, hneg]
  unfold Drawn
  constructor
  · rintro (⟨rfl, rfl, z, h⟩ | ⟨rfl, rfl, z, h⟩ | ⟨rfl, rfl, z, h⟩ | ⟨rfl, rfl, z, h⟩) <;>
      exact ⟨rfl, z, h.1, by simp [h.2]⟩
  · rintro ⟨rfl, z, hz, (⟨rfl, h⟩ | ⟨rfl, h⟩ | ⟨rfl, h⟩ | ⟨rfl, h⟩)⟩
    · exact .inl ⟨rfl, rfl, z, hz, h⟩
    · exact .inr (.inl ⟨rfl, rfl, z, hz, h⟩)
    · exact .inr (.inr (.inl ⟨rfl, rfl, z, hz, h⟩))
    · exact .inr (.inr (.inr ⟨rfl, rfl, z, hz, h⟩))

theorem shows_append (a b : List Marks) (l : Option String) (m : String) (x y : ℝ) :
    Shows (a ++ b) l m x y ↔ Shows a l m x y ∨ Shows b l m x y := by
  unfold Shows
  simp only [List.mem_append, or_and_right, exists_or]

theorem shows_flatMap {α : Type} (f : α → List Marks) (l : List α) (lab : Option String)
    (m : String) (x y : ℝ) :
    Shows (l.flatMap f) lab m x y ↔ ∃ a ∈ l, Shows (f a) lab m x y := by
  unfold Shows
  simp only [List.mem_flatMap]
  constructor
  · rintro ⟨M, ⟨a, ha, hM⟩, h⟩
    exact ⟨a, ha, M, hM, h⟩
  · rintro ⟨a, ha, M, hM, h⟩
    exact ⟨M, ⟨a, ha, hM⟩, h⟩

theorem label_inj : ∀ i i' : Fin 11, toString i.val = toString i'.val → i = i' := by
  decide +kernel

/-- Specification: `A` is the matrix of a row drawn at `x` (in degrees). -/
def MatrixAt (S : Soln) (eps start stop x : ℝ) (A : Fin 11 → Fin 11 → ℝ) : Prop :=
  ∃ (m : ℕ) (θ : ℝ) (s : St), S.rows[m]? = some (θ, s) ∧ start ≤ degrees θ ∧
    degrees θ ≤ stop ∧ x = degrees θ ∧
    ∀ j i, entry (compute_jacobian_from_solution S eps) m j i = some (A j i)

theorem mem_mapped (S : Soln) {eps : ℝ} (he : eps ≠ 0) (start stop x : ℝ) {α β : Type}
    (f : (Fin 11 → Fin 11 → ℝ) → α) (g : α → β) (z : β) :
    (x, some z) ∈ (selected start stop S ((compute_jacobian_from_solution S eps).map
        fun J => (finiteEntries J).map f)).map (fun p => (p.1, p.2.map g)) ↔
      ∃ A, MatrixAt S eps start stop x A ∧ z = g (f A) := by
  have hd : ∀ m : ℕ, ((compute_jacobian_from_solution S eps).map
      fun J => (finiteEntries J).map f)[m]? =
      S.rows[m]?.map fun p => some (f (realJac S eps p)) := by
    intro m
    rw [List.getElem?_map, getElem?_jac, Option.map_map]
    cases S.rows[m]? with
    | none => rfl
    | some p => simp [finite_real S he]
  simp only [List.mem_map, Prod.mk.injEq, Prod.exists]
  constructor
  · rintro ⟨x', o, hsel, rfl, hz⟩
    obtain ⟨m, θ, s, h1, h2, h3, h4, h5⟩ := (mem_selected ..).1 hsel
    rw [hd, h1] at h2
    simp only [Option.map_some, Option.some.injEq] at h2
    subst h2
    exact ⟨_, ⟨m, θ, s, h1, h3, h4, h5, entry_real S he h1⟩, by simpa using hz.symm⟩
  · rintro ⟨A, ⟨m, θ, s, h1, h3, h4, h5, h6⟩, rfl⟩
    have hA : A = realJac S eps (θ, s) := by
      funext j i
      have := entry_real S he h1 j i
      rw [h6] at this
      exact Option.some.inj this
    subst hA
    refine ⟨x, some (f (realJac S eps (θ, s))), (mem_selected ..).2 ?_, rfl, rfl⟩
    exact ⟨m, θ, s, h1, by rw [hd, h1]; rfl, h3, h4, h5⟩

/-- C91. The plot of eigenvalues draws, with label `i`, exactly the `i`th eigenvalue of the
matrix of every row between the two angles. -/
theorem eigenvalue_plot (L : LinAlg) (S : Soln) (eps start stop : ℝ) (he : eps ≠ 0)
    (i : Fin 11) (marker : String) (x y : ℝ) :
    Shows (plot_jacobian_eigenvalues L S eps start stop) (some (toString i.val)) marker x y ↔
      ∃ A, MatrixAt S eps start stop x A ∧ Drawn marker (L.eigvals A i) y := by
  unfold plot_jacobian_eigenvalues
  simp only [shows_flatMap, log_complex, Option.some.injEq]
  have hm := fun i' => mem_mapped S he start stop x L.eigvals (fun e => e i')
  constructor
  · rintro ⟨i', -, hi, z, hz, hd⟩
    have := label_inj i i' hi
    subst this
    obtain ⟨A, hA, rfl⟩ := (hm i z).1 hz
    exact ⟨A, hA, hd⟩
  · rintro ⟨A, hA, hd⟩
    exact ⟨i, List.mem_finRange i, rfl, _, (hm i _).2 ⟨A, hA, rfl⟩, hd⟩

/-- C91. In the plot of eigenvectors axes `j` show the `j`th eigenvalue, without a label,
and with label `i` component `i` of the eigenvector for it. -/
theorem eigenvector_plot (L : LinAlg) (S : Soln) (eps start stop : ℝ) (he : eps ≠ 0) :
    (plot_jacobian_eigenvectors L S eps start stop).length = 11 ∧
    ∀ j : Fin 11, ∃ axes, (plot_jacobian_eigenvectors L S eps start stop)[j.val]? = some axes ∧
      (∀ marker x y, Shows axes none marker x y ↔
        ∃ A, MatrixAt S eps start stop x A ∧ Drawn marker ((L.eig A).1 j) y) ∧
      ∀ (i : Fin 11) marker x y, Shows axes (some (toString i.val)) marker x y ↔
        ∃ A, MatrixAt S eps start stop x A ∧ Drawn marker ((L.eig A).2 i j) y := by
  refine ⟨by simp [plot_jacobian_eigenvectors], ?_⟩
  intro j
  have hj : (List.finRange 11)[j.val]? = some j := by simp
  refine ⟨_, by rw [plot_jacobian_eigenvectors, List.getElem?_map, hj, Option.map_some], ?_, ?_⟩
  · intro marker x y
    have hm := mem_mapped S he start stop x L.eig (fun e => e.1 j)
    simp only [shows_append, shows_flatMap, log_complex]
    constructor
    · rintro (⟨-, z, hz, hd⟩ | ⟨i, -, hi, -⟩)
      · obtain ⟨A, hA, rfl⟩ := (hm z).1 hz
        exact ⟨A, hA, hd⟩
      · cases hi
    · rintro ⟨A, hA, hd⟩
      exact .inl ⟨trivial, _, (hm _).2 ⟨A, hA, rfl⟩, hd⟩
  · intro i marker x y
    have hm := fun i' => mem_mapped S he start stop x L.eig (fun e => e.2 i' j)
    simp only [shows_append, shows_flatMap, log_complex]
    constructor
    · rintro (⟨hi, -⟩ | ⟨i', -, hi, z, hz, hd⟩)
      · cases hi
      · have := label_inj i i' (Option.some.inj hi)
        subst this
        obtain ⟨A, hA, rfl⟩ := (hm i z).1 hz
        exact ⟨A, hA, hd⟩
    · rintro ⟨A, hA, hd⟩
      exact .inr ⟨i, List.mem_finRange i, rfl, _, (hm i _).2 ⟨A, hA, rfl⟩, hd⟩

theorem compute_norm_eq (V : CMat) (j : Fin 11) :
    compute_norm V j = ((∑ i, ‖V i j‖ ^ 2 : ℝ) : ℂ) := by
  unfold compute_norm
  rw [← Fin.sum_univ_def, Complex.ofReal_sum]
  refine Finset.sum_congr rfl fun i _ => ?_
  rw [Complex.mul_conj, Complex.normSq_eq_norm_sq]

/-- C91. The plot of norms has one curve for each eigenvector, showing the sum of the
squares of the sizes of its components, that is its length squared. -/
theorem norm_plot (L : LinAlg) (S : Soln) (eps start stop : ℝ) (he : eps ≠ 0) :
    (plot_jacobian_eigenvector_norm L S eps start stop).length = 11 ∧
    ∀ j : Fin 11, ∃ c, (plot_jacobian_eigenvector_norm L S eps start stop)[j.val]? = some c ∧
      ∀ x y, (x, some y) ∈ c.points ↔
        ∃ A, MatrixAt S eps start stop x A ∧ y = ∑ i, ‖(L.eig A).2 i j‖ ^ 2 := by
  refine ⟨by simp [plot_jacobian_eigenvector_norm], ?_⟩
  intro j
  have hj : (List.finRange 11)[j.val]? = some j := by simp
  refine ⟨_, by rw [plot_jacobian_eigenvector_norm, List.getElem?_map, hj, Option.map_some], ?_⟩
  intro x y
  have hm := mem_mapped S he start stop x (fun A => compute_norm (L.eig A).2)
    (fun n => (n j).re) y
  simp only [compute_norm_eq, Complex.ofReal_re] at hm
  simp only [compute_eigenvalues_and_eigenvectors, Option.map_map]
  exact hm

/-- C91. With no step at all there is nothing to draw. -/
theorem no_step_no_plot (L : LinAlg) (S : Soln) (start stop : ℝ) (lab : Option String)
    (marker : String) (x y : ℝ) :
    ¬ Shows (plot_jacobian_eigenvalues L S 0 start stop) lab marker x y := by
  unfold plot_jacobian_eigenvalues
  simp only [shows_flatMap, log_complex, List.mem_map, Prod.mk.injEq, Prod.exists]
  rintro ⟨i, -, -, z, ⟨x', o, hsel, rfl, hz⟩, -⟩
  obtain ⟨m, θ, s, h1, h2, -⟩ := (mem_selected ..).1 hsel
  rw [List.getElem?_map] at h2
  cases hJ : (compute_jacobian_from_solution S 0)[m]? with
  | none => rw [hJ] at h2; cases h2
  | some J =>
    rw [hJ] at h2
    have hn := (jacobian_step S 0).2 J (List.mem_of_getElem? hJ)
    have : compute_eigenvalues L J = none := by
      simp [compute_eigenvalues, finiteEntries, hn]
    simp only [Option.map_some, this, Option.some.injEq] at h2
    subst h2
    cases hz

/-! ## The hypotheses can be met -/

/-- Routines as specified exist. -/
theorem exists_linAlg : ∃ L, LinAlgOk L := by
  classical
  have h : ∀ A : Fin 11 → Fin 11 → ℝ, ∃ (μ : ℂ) (v : Fin 11 → ℂ), v ≠ 0 ∧
      ∀ i, ∑ m, (A i m : ℂ) * v m = μ * v i := by
    intro A
    obtain ⟨μ, hμ⟩ := Module.End.exists_eigenvalue
      (Matrix.toLin' (Matrix.of fun i m => (A i m : ℂ)))
    obtain ⟨v, hv⟩ := hμ.exists_hasEigenvector
    refine ⟨μ, v, hv.2, fun i => ?_⟩
    have := congrFun hv.apply_eq_smul i
    simpa [Matrix.toLin'_apply, Matrix.mulVec, dotProduct] using this
  choose μ v hv hμ using h
  refine ⟨⟨fun A _ => μ A, fun A => (fun _ => μ A, fun i _ => v A i),
    fun V => if IsUnit V then some V⁻¹ else none⟩, ?_, ?_, ?_, ?_, ?_⟩
  · intro A j
    exact Function.ne_iff.1 (hv A)
  · intro A i j
    exact hμ A i
  · intro A j
    exact ⟨v A, hv A, hμ A⟩
  · intro V W hW
    by_cases hu : IsUnit V
    · simp only [hu, if_true, Option.some.injEq] at hW
      subst hW
      exact Matrix.mul_nonsing_inv V ((Matrix.isUnit_iff_isUnit_det V).1 hu)
    · simp [hu] at hW
  · intro V
    by_cases hu : IsUnit V <;> simp [hu]

/-- Two rows, one below and one above the sonic point. -/
def exRow (v : ℝ) : St :=
  { B_r := 0, B_φ := 0, B_θ := 1, v_r := 0, v_φ := 1, v_θ := v, ρ := 1, X := 0, η_O := 1,
    η_A := 0, η_H := 0 }

noncomputable def exSoln (rows : List (ℝ × St)) : Soln :=
  { γ := 1 / 10, a_0 := 1, norm_kepler_sq := 1, init_con := exRow 0, η_derivs := true,
    use_E_r := false, rows := rows }

theorem exRow_smooth {v : ℝ} (h0 : v ≠ 0) (h1 : v ≠ 1) (h2 : v ≠ -1) : Smooth (exRow v) := by
  constructor <;> simp [exRow, h0, h1, h2]

theorem named_sonic (s : St) : namedMach "sonic" s = some s.v_θ := by
  simp [namedMach, get_mach_numbers]

theorem ex_found : first_closest_index
    (((exSoln [(0, exRow (1 / 2)), (1 / 2, exRow 2)]).rows.map (·.2)).map
      (namedMach "sonic")) 1 = .ok (some 1) := by
  simp only [exSoln, List.map_cons, List.map_nil, named_sonic, exRow]
  norm_num [first_closest_index, nan_free_index, any_argmax, List.findIdx?_cons]
  intro h
  cases h

theorem ex_missing : first_closest_index
    (((exSoln [(0, exRow (1 / 2))]).rows.map (·.2)).map (namedMach "sonic")) 1 = .ok none := by
  simp only [exSoln, List.map_cons, List.map_nil, named_sonic, exRow]
  norm_num [first_closest_index, nan_free_index, any_argmax, List.findIdx?_cons]

example := jacobian_entries (exSoln [(0, exRow (1 / 2)), (1 / 2, exRow 2)]) (1 / 1000)
  (by norm_num)

example := jacobian_accurate (exSoln [(0, exRow (1 / 2)), (1 / 2, exRow 2)]) 1 (1 / 2) (exRow 2)
  rfl (exRow_smooth (by norm_num) (by norm_num) (by norm_num))

example := jacobian_exact (exSoln [(0, exRow (1 / 2))]) (1 / 1000) (by norm_num) 0 0
  (exRow (1 / 2)) rfl 7

example := (jacobian_at_index (exSoln [(0, exRow (1 / 2)), (1 / 2, exRow 2)]) (1 / 1000)).2.1 2
  _ le_rfl le_rfl rfl

example := jacobian_of_solver (exSoln []) 0 (exRow 2) _ 0
  (by rw [rhs_equation, if_neg (by norm_num [exRow]), if_neg (by norm_num [exRow])])

example := coef_global exists_linAlg.choose_spec (exSoln [(0, exRow (1 / 2)), (1 / 2, exRow 2)])
  (1 / 1000) (by norm_num) 1 (1 / 2) (exRow 2) rfl

example := coef_local exists_linAlg.choose_spec (exSoln [(0, exRow (1 / 2)), (1 / 2, exRow 2)])
  (1 / 1000) (by norm_num) 1 (1 / 2) (exRow 2) rfl

example := real_coefs (V := 1) (x := offset (exRow 2) (exRow 1)) (s := exRow 2) (crit := exRow 1)
  isUnit_one (fun i j => by by_cases h : i = j <;> simp [Matrix.one_apply, h])
  ((expands_mulVec _ _ _).2 (Matrix.one_mulVec _))

example := coef_plot exists_linAlg.choose (exSoln [(0, exRow (1 / 2)), (1 / 2, exRow 2)]) false
  (1 / 1000) 0 90 true "sonic" (by simp [names]) 1 ex_found

example := coef_plot_missing exists_linAlg.choose (exSoln [(0, exRow (1 / 2))]) false
  (1 / 1000) 0 90 "sonic" (by simp [names]) ex_missing

example := eigenvalue_plot exists_linAlg.choose (exSoln [(0, exRow (1 / 2))])
  (1 / 1000) 0 90 (by norm_num) 3

example := eigenvector_plot exists_linAlg.choose (exSoln [(0, exRow (1 / 2))])
  (1 / 1000) 0 90 (by norm_num)

example := norm_plot exists_linAlg.choose (exSoln [(0, exRow (1 / 2))])
  (1 / 1000) 0 90 (by norm_num)

example := (coef_plot_errors exists_linAlg.choose (exSoln [(0, exRow (1 / 2))]) false
  (1 / 1000) 0 90 true "soinc").2 (by simp [exSoln]) (by simp [names])

end DiscSolver.Jacobian
