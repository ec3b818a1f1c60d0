import Verif.Model.Rhs
import Verif.Props.Containers
import Verif.Lemmas.Witness

/-!
# C13, C14: the callback
-/

namespace DiscSolver

variable (P : OdeArgs) (str : ℝ → String)

/-- C13. The return code is positive exactly for a negative density, negative
exactly for a nonnegative density and a negative polar velocity, otherwise zero;
the derivative array is the caller's own in the first two cases and is
overwritten with the derivatives in the last. -/
theorem rhs_code (d : Option InternalData) (x : ℝ) (s buf : St) :
    let o := rhs_call P str d x s buf
    (0 < o.code ↔ s.ρ < 0) ∧ (o.code < 0 ↔ 0 ≤ s.ρ ∧ s.v_θ < 0) ∧
    (o.code = 0 ↔ 0 ≤ s.ρ ∧ 0 ≤ s.v_θ) ∧
    (o.code ≠ 0 → o.derivs = buf) ∧
    (o.code = 0 → o.derivs = rhsDerivs P (x * P.θ_scale) s) := by
  simp only [rhs_call]
  by_cases h1 : s.ρ < 0
  · rw [if_pos h1]
    simp [h1, not_le.2 h1]
  · rw [if_neg h1]
    by_cases h2 : s.v_θ < 0
    · rw [if_pos h2]
      simp [h1, h2, not_lt.1 h1, not_le.2 h2]
    · rw [if_neg h2]
      simp [h1, h2, not_lt.1 h1, not_lt.1 h2, rhsDerivs, scaled_to_rad]

/-- The stateful callback and the pure one of `Model/Ode` agree. -/
theorem rhs_call_eq (d : Option InternalData) (x : ℝ) (s buf : St) :
    (rhs_call P str d x s buf).code = (rhs_equation P x s).1 ∧
    (rhs_call P str d x s buf).derivs = (rhs_equation P x s).2.getD buf := by
  simp only [rhs_call, rhs_equation]
  split
  · exact ⟨rfl, rfl⟩
  · split <;> exact ⟨rfl, rfl⟩

/-- C13. Recording does not influence the result: the code and the derivatives are
the same with and without internal storage. -/
theorem rhs_storage_independent (d d' : Option InternalData) (x : ℝ) (s buf : St) :
    (rhs_call P str d x s buf).code = (rhs_call P str d' x s buf).code ∧
    (rhs_call P str d x s buf).derivs = (rhs_call P str d' x s buf).derivs := by
  simp only [(rhs_call_eq P str _ x s buf).1, (rhs_call_eq P str _ x s buf).2,
    and_self]

/-- The calls that are not rejected. -/
noncomputable def acceptedCalls (calls : List Call) : List Call :=
  open Classical in calls.filter (fun c => 0 ≤ c.s.ρ ∧ 0 ≤ c.s.v_θ)

/-- The message a rejected call should leave. -/
noncomputable def rejection (c : Call) : Option String :=
  open Classical in
  if c.s.ρ < 0 then some "negative density"
  else if c.s.v_θ < 0 then some "negative velocity"
  else none

/-- C14. Without internal storage nothing is ever recorded. -/
theorem nothing_stored (calls : List Call) : afterCalls P str none calls = none := by
  induction calls with
  | nil => rfl
  | cons c calls ih =>
    have : (rhs_call P str none c.x c.s c.buf).internal = none := by
      simp only [rhs_call]
      split
      · rfl
      · split <;> rfl
    simp only [afterCalls, List.foldl_cons, this] at *
    exact ih

/-- C14. After any history of calls the recorded lists hold exactly one entry per
accepted call, in call order, all of them from the same call. -/
theorem internal_data_history (calls : List Call) (d : InternalData) :
    ∃ d', afterCalls P str (some d) calls = some d' ∧
      d'.params = d.params ++ (acceptedCalls calls).map (·.s) ∧
      d'.angles = d.angles ++ (acceptedCalls calls).map (fun c => c.x * P.θ_scale) ∧
      d'.derivs = d.derivs ++
        (acceptedCalls calls).map (fun c => rhsDerivs P (c.x * P.θ_scale) c.s) ∧
      d'.v_r_normal = d.v_r_normal ++
        (acceptedCalls calls).map (fun c => (rhsValues P (c.x * P.θ_scale) c.s).v_r_normal) ∧
      d'.v_φ_normal = d.v_φ_normal ++
        (acceptedCalls calls).map (fun c => (rhsValues P (c.x * P.θ_scale) c.s).v_φ_normal) ∧
      d'.ρ_normal = d.ρ_normal ++
        (acceptedCalls calls).map (fun c => (rhsValues P (c.x * P.θ_scale) c.s).ρ_normal) ∧
      d'.v_r_taylor = d.v_r_taylor ++
        (acceptedCalls calls).map (fun c => (rhsValues P (c.x * P.θ_scale) c.s).v_r_taylor) ∧
      d'.v_φ_taylor = d.v_φ_taylor ++
        (acceptedCalls calls).map (fun c => (rhsValues P (c.x * P.θ_scale) c.s).v_φ_taylor) ∧
      d'.ρ_taylor = d.ρ_taylor ++
        (acceptedCalls calls).map (fun c => (rhsValues P (c.x * P.θ_scale) c.s).ρ_taylor) ∧
      d'.jacobian_data = d.jacobian_data := by
  induction calls generalizing d with
  | nil => exact ⟨d, rfl, by simp [acceptedCalls]⟩
  | cons c calls ih =>
    have hstep : afterCalls P str (some d) (c :: calls) =
      afterCalls P str (rhs_call P str (some d) c.x c.s c.buf).internal calls := rfl
    by_cases h1 : c.s.ρ < 0
    · have hr : ¬ (0 ≤ c.s.ρ ∧ 0 ≤ c.s.v_θ) := fun h => absurd h.1 (not_le.2 h1)
      obtain ⟨d', h, hd⟩ := ih { d with
          problems := d.problems.append str (.num (scaled_to_rad c.x P.θ_scale))
            "negative density" }
      refine ⟨d', ?_, ?_⟩
      · rw [hstep, ← h]
        simp only [rhs_call, if_pos h1, Option.map_some]
      · simpa [acceptedCalls, hr] using hd
    · by_cases h2 : c.s.v_θ < 0
      · have hr : ¬ (0 ≤ c.s.ρ ∧ 0 ≤ c.s.v_θ) := fun h => absurd h.2 (not_le.2 h2)
        obtain ⟨d', h, hd⟩ := ih { d with
          problems := d.problems.append str (.num (scaled_to_rad c.x P.θ_scale))
            "negative velocity" }
        refine ⟨d', ?_, ?_⟩
        · rw [hstep, ← h]
          simp only [rhs_call, if_neg h1, if_pos h2, Option.map_some]
        · simpa [acceptedCalls, hr] using hd
      · have hr : 0 ≤ c.s.ρ ∧ 0 ≤ c.s.v_θ := ⟨not_lt.1 h1, not_lt.1 h2⟩
        obtain ⟨d', h, hd⟩ := ih
          ((rhs_call P str (some d) c.x c.s c.buf).internal.get
            (by simp [rhs_call, h1, h2]))
        refine ⟨d', ?_, ?_⟩
        · rw [hstep, ← h, Option.some_get]
        · simp only [rhs_call, if_neg h1, if_neg h2, Option.map_some,
            Option.get_some, scaled_to_rad] at hd
          simpa [acceptedCalls, hr, rhsDerivs] using hd

/-- C13. After any history of calls the problems recorded for an angle are exactly
the rejections of the calls made at that angle, in order. -/
theorem problems_recorded (calls : List Call) (d : InternalData)
    (k : ProblemKey ℝ) :
    ∃ d', afterCalls P str (some d) calls = some d' ∧
      messages str d'.problems k = messages str d.problems k ++
        (open Classical in
          (calls.filter (fun c => str (c.x * P.θ_scale) = k.str str)).filterMap
            rejection) := by
  have hnum : ∀ θ, (ProblemKey.num θ).str str = str θ := fun _ => rfl
  induction calls generalizing d with
  | nil => exact ⟨d, rfl, by simp⟩
  | cons c calls ih =>
    have hstep : afterCalls P str (some d) (c :: calls) =
      afterCalls P str (rhs_call P str (some d) c.x c.s c.buf).internal calls := rfl
    by_cases h1 : c.s.ρ < 0
    · obtain ⟨d', h, hd⟩ := ih { d with
          problems := d.problems.append str (.num (scaled_to_rad c.x P.θ_scale))
            "negative density" }
      refine ⟨d', ?_, ?_⟩
      · rw [hstep, ← h]
        simp only [rhs_call, if_pos h1, Option.map_some]
      · rw [hd, problems_append]
        by_cases hk : str (c.x * P.θ_scale) = k.str str
        · simp [hnum, scaled_to_rad, hk, rejection, h1]
        · simp [hnum, scaled_to_rad, hk]
    · by_cases h2 : c.s.v_θ < 0
      · obtain ⟨d', h, hd⟩ := ih { d with
          problems := d.problems.append str (.num (scaled_to_rad c.x P.θ_scale))
            "negative velocity" }
        refine ⟨d', ?_, ?_⟩
        · rw [hstep, ← h]
          simp only [rhs_call, if_neg h1, if_pos h2, Option.map_some]
        · rw [hd, problems_append]
          by_cases hk : str (c.x * P.θ_scale) = k.str str
          · simp [hnum, scaled_to_rad, hk, rejection, h1, h2]
          · simp [hnum, scaled_to_rad, hk]
      · obtain ⟨d', h, hd⟩ := ih
          ((rhs_call P str (some d) c.x c.s c.buf).internal.get
            (by simp [rhs_call, h1, h2]))
        refine ⟨d', ?_, ?_⟩
        · rw [hstep, ← h, Option.some_get]
        · rw [hd]
          simp only [rhs_call, if_neg h1, if_neg h2, Option.map_some,
            Option.get_some]
          by_cases hk : str (c.x * P.θ_scale) = k.str str
          · simp [hk, rejection, h1, h2]
          · simp [hk]

/-- A history with an accepted call and both kinds of rejection at one angle. -/
noncomputable def witCalls : List Call :=
  [⟨1/10, witS, St.zero⟩, ⟨1/10, { witS with ρ := -1 }, St.zero⟩,
   ⟨1/10, { witS with v_θ := -1 }, St.zero⟩]

/-- The witness history leaves one entry and two problems. -/
theorem witCalls_recorded :
    ∃ d, afterCalls witP (fun _ => "0.1") (some {}) witCalls = some d ∧
      d.params = [witS] ∧ d.angles = [1/10] := by
  obtain ⟨d, h, h1, h2, -⟩ :=
    internal_data_history witP (fun _ => "0.1") witCalls {}
  have ha : acceptedCalls witCalls = [⟨1/10, witS, St.zero⟩] := by
    simp only [acceptedCalls, witCalls]
    norm_num [List.filter_cons, witS]
  refine ⟨d, h, ?_, ?_⟩
  · rw [h1, ha]; rfl
  · rw [h2, ha]; norm_num [witP]

theorem witCalls_problems :
    ∃ d, afterCalls witP (fun _ => "0.1") (some {}) witCalls = some d ∧
      messages (fun _ => "0.1") d.problems (.text "0.1" : ProblemKey ℝ) =
        ["negative density", "negative velocity"] := by
  obtain ⟨d, h, h1⟩ :=
    problems_recorded witP (fun _ => "0.1") witCalls {} (.text "0.1")
  refine ⟨d, h, ?_⟩
  rw [h1]
  norm_num [messages, witCalls, ProblemKey.str, rejection, witS, List.filterMap_cons]

/-! ### Joining and flipping -/

/-- One row of internal data. -/
structure InternalRow where
  derivs : St
  params : St
  angle : ℝ
  v_r_normal : ℝ
  v_φ_normal : ℝ
  ρ_normal : ℝ
  v_r_taylor : ℝ
  v_φ_taylor : ℝ
  ρ_taylor : ℝ

/-- The nine arrays are the columns of `rows`. -/
structure Holds (d : InternalData) (rows : List InternalRow) : Prop where
  derivs : d.derivs = rows.map (·.derivs)
  params : d.params = rows.map (·.params)
  angles : d.angles = rows.map (·.angle)
  v_r_normal : d.v_r_normal = rows.map (·.v_r_normal)
  v_φ_normal : d.v_φ_normal = rows.map (·.v_φ_normal)
  ρ_normal : d.ρ_normal = rows.map (·.ρ_normal)
  v_r_taylor : d.v_r_taylor = rows.map (·.v_r_taylor)
  v_φ_taylor : d.v_φ_taylor = rows.map (·.v_φ_taylor)
  ρ_taylor : d.ρ_taylor = rows.map (·.ρ_taylor)

/-- One row of Jacobian data. -/
structure JacobianRow where
  jacobian : St → St
  derivs : St
  params : St
  angle : ℝ

/-- The four arrays are the columns of `rows`. -/
structure JHolds (d : JacobianData) (rows : List JacobianRow) : Prop where
  jacobians : d.jacobians = rows.map (·.jacobian)
  derivs : d.derivs = rows.map (·.derivs)
  params : d.params = rows.map (·.params)
  angles : d.angles = rows.map (·.angle)

/-- C14. The data recorded by any history of calls on fresh internal data is
aligned: it consists of one row per accepted call. -/
theorem recorded_aligned (calls : List Call) :
    ∃ d, afterCalls P str (some {}) calls = some d ∧
      Holds d ((acceptedCalls calls).map fun c =>
        let v := rhsValues P (c.x * P.θ_scale) c.s
        ⟨v.derivs, c.s, c.x * P.θ_scale, v.v_r_normal, v.v_φ_normal, v.ρ_normal,
          v.v_r_taylor, v.v_φ_taylor, v.ρ_taylor⟩) := by
  obtain ⟨d, h, h1, h2, h3, h4, h5, h6, h7, h8, h9, -⟩ :=
    internal_data_history P str calls {}
  refine ⟨d, h, ?_⟩
  constructor
  · rw [h3, List.map_map]; rfl
  · rw [h1, List.map_map]; rfl
  · rw [h2, List.map_map]; rfl
  · rw [h4, List.map_map]; rfl
  · rw [h5, List.map_map]; rfl
  · rw [h6, List.map_map]; rfl
  · rw [h7, List.map_map]; rfl
  · rw [h8, List.map_map]; rfl
  · rw [h9, List.map_map]; rfl

/-- C14. Joining two aligned records gives the rows of the first followed by those
of the second, and joins the problems. -/
theorem join_aligned (a b : InternalData) (ra rb : List InternalRow)
    (ha : Holds a ra) (hb : Holds b rb) :
    Holds (a.add b) (ra ++ rb) ∧
      (a.problems.keys.Nodup → b.problems.keys.Nodup → ∀ k : ProblemKey ℝ,
        messages str (a.add b).problems k =
          messages str a.problems k ++ messages str b.problems k) := by
  constructor
  · constructor <;> simp [InternalData.add, ha.derivs, ha.params, ha.angles,
      ha.v_r_normal, ha.v_φ_normal, ha.ρ_normal, ha.v_r_taylor, ha.v_φ_taylor,
      ha.ρ_taylor, hb.derivs, hb.params, hb.angles, hb.v_r_normal, hb.v_φ_normal,
      hb.ρ_normal, hb.v_r_taylor, hb.v_φ_taylor, hb.ρ_taylor]
  · intro h1 h2 k
    exact problems_join str _ _ h1 h2 k

/-- C14. Flipping an aligned record reverses its rows. -/
theorem flip_aligned (a : InternalData) (ra : List InternalRow) (ha : Holds a ra) :
    Holds a.flip ra.reverse ∧ a.flip.problems = a.problems := by
  refine ⟨?_, rfl⟩
  constructor <;> simp [InternalData.flip, ha.derivs, ha.params, ha.angles,
    ha.v_r_normal, ha.v_φ_normal, ha.ρ_normal, ha.v_r_taylor, ha.v_φ_taylor,
    ha.ρ_taylor]

/-- C14, for the Jacobian views: viewing appends one row, joining concatenates and
flipping reverses, also when done through the enclosing internal data. -/
theorem jacobian_aligned (a b : InternalData) (ra rb : List JacobianRow)
    (ha : JHolds a.jacobian_data ra) (hb : JHolds b.jacobian_data rb)
    (row : JacobianRow) :
    JHolds (a.jacobian_data.view row.angle row.params row.derivs row.jacobian)
      (ra ++ [row]) ∧
    JHolds (a.add b).jacobian_data (ra ++ rb) ∧
    JHolds a.flip.jacobian_data ra.reverse := by
  refine ⟨?_, ?_, ?_⟩
  · constructor <;> simp [JacobianData.view, ha.jacobians, ha.derivs, ha.params,
      ha.angles]
  · constructor <;> simp [InternalData.add, JacobianData.add, ha.jacobians,
      ha.derivs, ha.params, ha.angles, hb.jacobians, hb.derivs, hb.params, hb.angles]
  · constructor <;> simp [InternalData.flip, JacobianData.flip, ha.jacobians,
      ha.derivs, ha.params, ha.angles]

example := join_aligned (fun _ => "0.1") _ _ _ _
  (recorded_aligned witP (fun _ => "0.1") witCalls).choose_spec.2
  (recorded_aligned witP (fun _ => "0.1") witCalls).choose_spec.2
example := flip_aligned _ _
  (recorded_aligned witP (fun _ => "0.1") witCalls).choose_spec.2
example (row : JacobianRow) := jacobian_aligned
  { jacobian_data := ⟨[row.jacobian], [row.derivs], [row.params], [row.angle]⟩ } {}
  [row] [] ⟨rfl, rfl, rfl, rfl⟩ ⟨rfl, rfl, rfl, rfl⟩ row

end DiscSolver
