import Verif.Model.AnalysisPlots
import Verif.Props.Plots
import Verif.Props.ValidatePlot
import Verif.Lemmas.Ode
import Verif.Lemmas.Witness

/-!
# Properties of the further plots

C82: the terms of the equations.  C83: what is drawn, and where.  C84: colours and
markers.
-/

namespace DiscSolver.AnalysisPlots

open Plots ValidatePlot

/-! ## C82: the terms of the equations -/

/-- Value number `k` of a curve. -/
noncomputable def Curve.at (c : Curve) (k : ℕ) : ℝ := ((c.points[k]?).map Prod.snd).getD 0

/-- The parts of one equation followed by their total. -/
theorem component_parts (c : Cons) (e : String × List (String × (ℝ → St → ℝ)))
    (he : e ∈ compute_components c) :
    ∃ (parts : List (String × (ℝ → St → ℝ))) (total : ℝ → St → ℝ),
      e.2 = parts ++ [("all terms", total)] ∧ (∀ p ∈ parts, p.1 ≠ "all terms") ∧
      (e.1 ≠ "radial momentum" → ∀ θ s, (parts.map fun p => p.2 θ s).sum = total θ s) ∧
      (e.1 = "radial momentum" → ∀ θ s,
        (parts.map fun p => p.2 θ s).sum = total θ s + s.v_r ^ 2 / 2) := by
  simp only [compute_components, List.mem_cons, List.not_mem_nil, or_false] at he
  rcases he with rfl | rfl | rfl | rfl | rfl | rfl
  · refine ⟨[_, _, _], _, rfl, by simp, by simp, fun _ θ s => ?_⟩
    simp only [List.map_cons, List.map_nil, List.sum_cons, List.sum_nil]; ring
  · refine ⟨[_, _], _, rfl, by simp, fun _ θ s => ?_, by simp⟩
    simp only [List.map_cons, List.map_nil, List.sum_cons, List.sum_nil]; ring
  · refine ⟨[_, _, _], _, rfl, by simp, fun _ θ s => ?_, by simp⟩
    simp only [List.map_cons, List.map_nil, List.sum_cons, List.sum_nil]; ring
  · refine ⟨[_, _], _, rfl, by simp, fun _ θ s => ?_, by simp⟩
    simp only [List.map_cons, List.map_nil, List.sum_cons, List.sum_nil]; ring
  · refine ⟨[_, _], _, rfl, by simp, fun _ θ s => ?_, by simp⟩
    simp only [List.map_cons, List.map_nil, List.sum_cons, List.sum_nil]; ring
  · refine ⟨[_, _, _, _], _, rfl, by simp, fun _ θ s => ?_, by simp⟩
    simp only [List.map_cons, List.map_nil, List.sum_cons, List.sum_nil]; ring

example := component_parts ⟨1, 1/10, 4⟩ _ (List.mem_cons_self ..)

theorem curve_at {σ : Type} (l : Option String) (rows : List (ℝ × σ)) (f : ℝ → σ → ℝ) (k : ℕ) :
    Curve.at (curveOf l rows f) k = ((rows[k]?).map fun p => f p.1 p.2).getD 0 := by
  simp only [Curve.at, curveOf, List.getElem?_map]
  cases rows[k]? <;> rfl

/-- The six equations drawn. -/
def equations : List String :=
  ["radial momentum", "azimuthal momentum", "polar momentum", "continuity",
   "solenoid condition", "polar induction"]

/-- C82 (without the radial momentum). On every axis of the component plot the curves over
the parts of an equation add up, at every angle, to the curve named "all terms". -/
theorem components_add_up_partial (c : Cons) (start stop : ℝ) (rows : List (ℝ × St)) :
    ∃ axes, generate_component_plot c none false start stop rows = .ok axes ∧
      axes.map Axis.ylabel = equations ∧
      ∀ a ∈ axes, ∃ parts total, a.curves = parts ++ [total] ∧
        total.label = some "all terms" ∧ (∀ p ∈ parts, p.label ≠ some "all terms") ∧
        (∀ q ∈ a.curves, q.points.map Prod.fst =
          (between start stop rows).map fun p => degrees p.1) ∧
        (a.ylabel ≠ "radial momentum" → ∀ k,
          (parts.map fun p => Curve.at p k).sum = Curve.at total k) := by
  refine ⟨_, rfl, rfl, ?_⟩
  intro a ha
  obtain ⟨e, he, rfl⟩ := List.mem_map.1 ha
  have he' : e ∈ compute_components c := he
  obtain ⟨parts, total, h1, h2, h3, -⟩ := component_parts c e he'
  refine ⟨parts.map fun p => curveOf (some p.1) (rowsIn start stop rows) p.2,
    curveOf (some "all terms") (rowsIn start stop rows) total, ?_, rfl, ?_, ?_, ?_⟩
  · simp [componentAxis, h1]
  · intro p hp
    obtain ⟨q, hq, rfl⟩ := List.mem_map.1 hp
    simpa [curveOf] using h2 q hq
  · intro q hq
    obtain ⟨p, -, rfl⟩ := List.mem_map.1 hq
    simp only [curveOf, List.map_map]
    rfl
  · intro hne k
    rw [List.map_map, curve_at]
    rw [show ((fun p => Curve.at p k) ∘ fun p : String × (ℝ → St → ℝ) =>
        curveOf (some p.1) (rowsIn start stop rows) p.2) = fun p =>
        (((rowsIn start stop rows)[k]?).map fun r => p.2 r.1 r.2).getD 0 from by
      funext p; exact curve_at _ _ _ _]
    rcases (rowsIn start stop rows)[k]? with _ | r
    · clear h1 h2 h3
      induction parts with
      | nil => rfl
      | cons a l ih => simp
    · simpa using h3 hne r.1 r.2

example (a b : St) := components_add_up_partial ⟨1, 1/10, 4⟩ 0 90 [(0, a), (1, b)]

/-- C82 is false of the radial momentum: its "radial terms" contain `v_r²`, the total
`v_r²/2`. -/
theorem radial_components_wrong (c : Cons) (start stop : ℝ) (rows : List (ℝ × St)) :
    ∃ axes, generate_component_plot c (some "radial momentum") false start stop rows =
        .ok axes ∧
      ∃ a, axes = [a] ∧ ∃ parts total, a.curves = parts ++ [total] ∧
        total.label = some "all terms" ∧ ∀ k r, (between start stop rows)[k]? = some r →
          (parts.map fun p => Curve.at p k).sum = Curve.at total k + r.2.v_r ^ 2 / 2 := by
  refine ⟨_, rfl, _, rfl, [_, _, _], _, rfl, rfl, ?_⟩
  intro k r hr
  have hr' : (rowsIn start stop rows)[k]? = some r := hr
  simp only [List.map_cons, List.map_nil, List.sum_cons, List.sum_nil, curve_at, hr',
    Option.map_some, Option.getD_some]
  ring

/-- A row where the sum is off. -/
example : ∃ axes a parts total,
    generate_component_plot ⟨1, 1/10, 4⟩ (some "radial momentum") false 0 90 [(0, witS)] =
      .ok axes ∧ axes = [a] ∧ a.curves = parts ++ [total] ∧
    (parts.map fun p => Curve.at p 0).sum ≠ Curve.at total 0 := by
  obtain ⟨axes, h1, a, h2, parts, total, h3, -, h4⟩ :=
    radial_components_wrong ⟨1, 1/10, 4⟩ 0 90 [(0, witS)]
  refine ⟨axes, a, parts, total, h1, h2, h3, ?_⟩
  have hb : (between 0 90 [(0, witS)])[0]? = some (0, witS) := by
    simp [between, degrees]
  rw [h4 0 _ hb]
  norm_num [witS]

/-- What the total of each equation should be: the term with the derivative the solver
finds for it. -/
noncomputable def equationTerm (P : OdeArgs) (name : String) (θ : ℝ) (s : St) : ℝ :=
  if name = "radial momentum" then s.v_θ * (rhsDerivs P θ s).v_r
  else if name = "azimuthal momentum" then s.v_θ * (rhsDerivs P θ s).v_φ
  else if name = "polar momentum" then (1 - s.v_θ ^ 2) * (rhsDerivs P θ s).v_θ
  else if name = "continuity" then s.v_θ * (rhsDerivs P θ s).ρ / s.ρ
  else if name = "solenoid condition" then (rhsDerivs P θ s).B_θ
  else (rhsDerivs P θ s).B_r

theorem compDerivBr_eq (P : OdeArgs) (hE : P.use_E_r = false) (θ : ℝ) (s : St) :
    compDerivBr ⟨P.a_0, P.γ, P.norm_kepler_sq⟩ θ s = (rhsDerivs P θ s).B_r := by
  rw [rhs_B_r, rhs_B_φ P θ s hE]; rfl

theorem compDerivVθ_eq (P : OdeArgs) (hE : P.use_E_r = false) (hf : P.deriv_v_θ_func = none)
    (θ : ℝ) (s : St) :
    compDerivVθ ⟨P.a_0, P.γ, P.norm_kepler_sq⟩ θ s = (rhsDerivs P θ s).v_θ := by
  rw [rhs_v_θ P θ s hf, compDerivVθ, compDerivBr_eq P hE, rhs_B_φ P θ s hE]

theorem component_total (P : OdeArgs) (hE : P.use_E_r = false) (hT : P.with_taylor = false)
    (hf : P.deriv_v_θ_func = none) (e : String × List (String × (ℝ → St → ℝ)))
    (he : e ∈ compute_components ⟨P.a_0, P.γ, P.norm_kepler_sq⟩)
    (f : ℝ → St → ℝ) (hm : ("all terms", f) ∈ e.2) (θ : ℝ) (s : St) (hρ : s.ρ ≠ 0)
    (hv : s.v_θ ≠ 0) (h1 : s.v_θ ^ 2 ≠ 1) :
    f θ s = equationTerm P e.1 θ s := by
  have h1' : (1 - s.v_θ) * (1 + s.v_θ) ≠ 0 := by
    intro h0; apply h1; linear_combination -h0
  have hr := rhs_v_r P θ s hT
  have hφ := rhs_v_φ P θ s hT
  have hθ := rhs_v_θ P θ s hf
  have hd := rhs_ρ P θ s hT
  have hB := rhs_B_φ P θ s hE
  have hBr := compDerivBr_eq P hE θ s
  have hVθ := compDerivVθ_eq P hE hf θ s
  rw [hB] at hφ hθ
  simp only [compute_components, List.mem_cons, List.not_mem_nil, or_false] at he
  rcases he with rfl | rfl | rfl | rfl | rfl | rfl
  · simp only [List.mem_cons, Prod.mk.injEq, List.not_mem_nil, or_false, String.reduceEq,
      false_and, false_or, true_and] at hm
    subst hm
    dsimp only
    rw [equationTerm, if_pos rfl, hr, hBr, mul_div_cancel₀ _ hv]
  · simp only [List.mem_cons, Prod.mk.injEq, List.not_mem_nil, or_false, String.reduceEq,
      false_and, false_or, true_and] at hm
    subst hm
    dsimp only
    rw [equationTerm, if_neg (by decide), if_pos rfl, hφ, mul_div_cancel₀ _ hv]
  · simp only [List.mem_cons, Prod.mk.injEq, List.not_mem_nil, or_false, String.reduceEq,
      false_and, false_or, true_and] at hm
    subst hm
    dsimp only
    rw [equationTerm, if_neg (by decide), if_neg (by decide), if_pos rfl, hθ, hBr,
      show (1 - s.v_θ ^ 2) = (1 - s.v_θ) * (1 + s.v_θ) by ring, mul_div_cancel₀ _ h1']
  · simp only [List.mem_cons, Prod.mk.injEq, List.not_mem_nil, or_false, String.reduceEq,
      false_and, false_or, true_and] at hm
    subst hm
    dsimp only
    rw [equationTerm, if_neg (by decide), if_neg (by decide), if_neg (by decide), if_pos rfl, hVθ, hd]
    field_simp
    ring
  · simp only [List.mem_cons, Prod.mk.injEq, List.not_mem_nil, or_false, String.reduceEq,
      false_and, false_or, true_and] at hm
    subst hm
    dsimp only
    rw [equationTerm, if_neg (by decide), if_neg (by decide), if_neg (by decide), if_neg (by decide),
      if_pos rfl, rhs_B_θ]
  · simp only [List.mem_cons, Prod.mk.injEq, List.not_mem_nil, or_false, String.reduceEq,
      false_and, false_or, true_and] at hm
    subst hm
    dsimp only
    rw [equationTerm, if_neg (by decide), if_neg (by decide), if_neg (by decide), if_neg (by decide),
      if_neg (by decide), ← hBr]
    simp only [compDerivBr, deriv_B_r_func, compDenominator]

/-- C82. The curve "all terms" of each equation shows exactly what the solver integrates:
the derivative found for that equation times the factor it stands with. -/
theorem component_totals (P : OdeArgs) (hE : P.use_E_r = false) (hT : P.with_taylor = false)
    (hf : P.deriv_v_θ_func = none) (start stop : ℝ) (rows : List (ℝ × St))
    (hrows : ∀ p ∈ rows, p.2.ρ ≠ 0 ∧ p.2.v_θ ≠ 0 ∧ p.2.v_θ ^ 2 ≠ 1) :
    ∃ axes, generate_component_plot ⟨P.a_0, P.γ, P.norm_kepler_sq⟩ none false start stop
        rows = .ok axes ∧ axes.map Axis.ylabel = equations ∧
      ∀ a ∈ axes, ∃ total ∈ a.curves, total.label = some "all terms" ∧
        total.points = (between start stop rows).map fun p =>
          (degrees p.1, equationTerm P a.ylabel p.1 p.2) := by
  refine ⟨_, rfl, rfl, ?_⟩
  intro a ha
  obtain ⟨e, he, rfl⟩ := List.mem_map.1 ha
  have he' : e ∈ compute_components ⟨P.a_0, P.γ, P.norm_kepler_sq⟩ := he
  obtain ⟨parts, total, h1, -⟩ := component_parts _ e he'
  have hm : ("all terms", total) ∈ e.2 := by rw [h1]; simp
  refine ⟨curveOf (some "all terms") (rowsIn start stop rows) total, ?_, rfl, ?_⟩
  · exact List.mem_map.2 ⟨_, hm, rfl⟩
  · simp only [curveOf]
    apply List.map_congr_left
    intro p hp
    have hp' : p ∈ rows := List.mem_of_mem_filter hp
    obtain ⟨r1, r2, r3⟩ := hrows p hp'
    rw [component_total P hE hT hf e he' total hm p.1 p.2 r1 r2 r3]
    rfl

example := component_totals witP rfl rfl rfl 0 90 [(1/2, witS)] (by
  intro p hp
  simp only [List.mem_singleton] at hp
  subst hp
  norm_num [witS])

/-- C82. Asking for one equation gives its axes only, anything else is refused, and so is a
solution with the electric field as variable. -/
theorem component_choice (c : Cons) (start stop : ℝ) (rows : List (ℝ × St)) (name : String) :
    (name ∈ equations → ∃ axes a, generate_component_plot c none false start stop rows =
        .ok axes ∧ a ∈ axes ∧ a.ylabel = name ∧
        generate_component_plot c (some name) false start stop rows = .ok [a]) ∧
    (name ∉ equations → name ≠ "" →
      generate_component_plot c (some name) false start stop rows = .error .AnalysisError) ∧
    generate_component_plot c (some "") false start stop rows =
      generate_component_plot c none false start stop rows ∧
    (∀ only, generate_component_plot c only true start stop rows =
      .error .AnalysisError) := by
  refine ⟨fun h => ?_, fun h hne => ?_, rfl, fun _ => rfl⟩
  · simp only [equations, List.mem_cons, List.not_mem_nil, or_false] at h
    rcases h with rfl | rfl | rfl | rfl | rfl | rfl
    · exact ⟨_, _, rfl, List.Mem.head _, rfl, rfl⟩
    · exact ⟨_, _, rfl, .tail _ (List.Mem.head _), rfl, rfl⟩
    · exact ⟨_, _, rfl, .tail _ (.tail _ (List.Mem.head _)), rfl, rfl⟩
    · exact ⟨_, _, rfl, .tail _ (.tail _ (.tail _ (List.Mem.head _))), rfl, rfl⟩
    · exact ⟨_, _, rfl, .tail _ (.tail _ (.tail _ (.tail _ (List.Mem.head _)))), rfl, rfl⟩
    · exact ⟨_, _, rfl, .tail _ (.tail _ (.tail _ (.tail _ (.tail _ (List.Mem.head _))))),
        rfl, rfl⟩
  · simp only [equations, List.mem_cons, List.not_mem_nil, or_false, not_or] at h
    obtain ⟨h1, h2, h3, h4, h5, h6⟩ := h
    have hl : (compute_components c).lookup name = none := by
      rw [List.lookup_eq_none_iff]
      intro p hp
      simp only [compute_components, List.mem_cons, List.not_mem_nil, or_false] at hp
      rcases hp with rfl | rfl | rfl | rfl | rfl | rfl <;> simpa using by assumption
    simp only [generate_component_plot, Bool.false_eq_true, if_false, Option.getD_some]
    rw [if_pos hne, hl]

example := (component_choice ⟨1, 1/10, 4⟩ 0 90 [(0, witS)] "polar momentun").2.1
  (by decide) (by decide)

/-! ## C83: what is drawn, and where -/

/-- A curve showing a function of the row at the angles of the rows asked for. -/
def Shows (c : Curve) (rows : List (ℝ × St)) (f : ℝ → St → ℝ) : Prop :=
  c.points = rows.map fun p => (degrees p.1, f p.1 p.2)

/-- C83, currents and fields. The six axes show, for exactly the rows in range, the curl of
the magnetic field in the self-similar disc, taken with the derivative of `B_r` the solver
finds, and the electric field which Ohm's law gives for it; `E_φ` is zero wherever the
diffusivity across the field is not. -/
theorem je_plot_shows (P : OdeArgs) (hE : P.use_E_r = false) (start stop : ℝ)
    (rows : List (ℝ × St))
    (hB : ∀ p ∈ rows, p.2.B_r ^ 2 + p.2.B_φ ^ 2 + p.2.B_θ ^ 2 ≠ 0) :
    let J : ℝ → St → Spec.V3 := fun θ s =>
      ⟨s.B_φ * Real.tan θ - (rhsDerivs P θ s).B_φ,
       (rhsDerivs P θ s).B_r + s.B_θ * (1/4 - P.γ), - s.B_φ * (1/4 - P.γ)⟩
    let E : ℝ → St → Spec.V3 := fun θ s =>
      Spec.ohm ⟨s.v_r, s.v_φ, s.v_θ⟩ ⟨s.B_r, s.B_φ, s.B_θ⟩ (J θ s) s.η_O s.η_A s.η_H
    ∃ axes, generate_je_plot P.γ false start stop rows = .ok axes ∧
      axes.map Axis.ylabel = ["$J_r$", "$J_θ$", "$J_φ$", "$E_r$", "$E_θ$", "$E_φ$"] ∧
      List.Forall₂ (fun (a : Axis) f => ∃ c, a.curves = [c] ∧
          Shows c (between start stop rows) f) axes
        [fun θ s => (J θ s).r, fun θ s => (J θ s).θ, fun θ s => (J θ s).φ,
         fun θ s => (E θ s).r, fun θ s => (E θ s).θ, fun θ s => (E θ s).φ] ∧
      ((∀ p ∈ rows, p.2.η_O + p.2.η_A * (1 - (p.2.B_φ / B_mag p.2) ^ 2) ≠ 0) →
        ∀ a ∈ axes, a.ylabel = "$E_φ$" → ∀ c ∈ a.curves, ∀ q ∈ c.points, q.2 = 0) := by
  intro J E
  refine ⟨_, rfl, rfl, ?_, ?_⟩
  · have hBr : ∀ θ s, deriv_B_r_func (γ := P.γ) (θ := θ) (v_r := s.v_r) (v_θ := s.v_θ)
        (B_r := s.B_r) (B_θ := s.B_θ) (B_φ := s.B_φ) (η_O := s.η_O) (η_A := s.η_A)
        (η_H := s.η_H) (deriv_B_φ := s.X) (b_r := s.B_r / B_mag s)
        (b_φ := s.B_φ / B_mag s) (b_θ := s.B_θ / B_mag s) = (rhsDerivs P θ s).B_r :=
      fun θ s => compDerivBr_eq P hE θ s
    have hOhm : ∀ p ∈ between start stop rows, (jeValues P.γ p.1 p.2).2 =
        ((E p.1 p.2).r, (E p.1 p.2).θ, (E p.1 p.2).φ) := by
      intro p hp
      rw [← E_func_ohm ⟨p.2.v_r, p.2.v_φ, p.2.v_θ⟩ ⟨p.2.B_r, p.2.B_φ, p.2.B_θ⟩ (J p.1 p.2)
        p.2.η_O p.2.η_A p.2.η_H (hB p (List.mem_of_mem_filter hp))]
      simp only [jeValues, J, rhs_B_φ P _ _ hE, ← hBr]
      rfl
    refine .cons ⟨_, rfl, ?_⟩ (.cons ⟨_, rfl, ?_⟩ (.cons ⟨_, rfl, ?_⟩ (.cons ⟨_, rfl, ?_⟩
      (.cons ⟨_, rfl, ?_⟩ (.cons ⟨_, rfl, ?_⟩ .nil)))))
    · refine List.map_congr_left fun p _ => ?_
      simp only [J, rhs_B_φ P _ _ hE]
      rfl
    · rfl
    · refine List.map_congr_left fun p _ => ?_
      simp only [jeValues, hBr]
      rfl
    · exact List.map_congr_left fun p hp => by beta_reduce; rw [hOhm p hp]
    · exact List.map_congr_left fun p hp => by beta_reduce; rw [hOhm p hp]
    · exact List.map_congr_left fun p hp => by beta_reduce; rw [hOhm p hp]
  · intro h a ha hl c hc q hq
    simp only [List.mem_cons, List.not_mem_nil, or_false] at ha
    rcases ha with rfl | rfl | rfl | rfl | rfl | rfl
    · exact absurd hl (by simp [jeAxis])
    · exact absurd hl (by simp [jeAxis])
    · exact absurd hl (by simp [jeAxis])
    · exact absurd hl (by simp [jeAxis])
    · exact absurd hl (by simp [jeAxis])
    · simp only [jeAxis, List.mem_singleton] at hc
      subst hc
      obtain ⟨p, hp, rfl⟩ := List.mem_map.1 hq
      have hp' : p ∈ rows := List.mem_of_mem_filter hp
      exact je_plot_E_φ_zero P.γ p.1 p.2 (h p hp')

example := (je_plot_shows witP rfl 0 90 [(1/2, witS)] (by
  intro p hp
  simp only [List.mem_singleton] at hp
  subst hp
  norm_num [witS])).choose_spec.2.2.2 (by
  intro p hp
  simp only [List.mem_singleton] at hp
  subst hp
  exact witS_regular.η)

/-- C83. The plot of currents and fields refuses solutions with the electric field as
variable. -/
theorem je_plot_refuses_E_r (γ start stop : ℝ) (rows : List (ℝ × St)) :
    generate_je_plot γ true start stop rows = .error .AnalysisError := rfl

example := je_plot_refuses_E_r 0 0 90 [(1/2, witS)]

/-- The norms of a solution input. -/
noncomputable def normsOf (G c_s_on_v_k v_a_on_c_s radius mass density : ℝ) : Norms :=
  let n := get_normalisation G c_s_on_v_k v_a_on_c_s radius mass density
  ⟨n.2.1, n.1, n.2.2.1⟩

/-- The lines of the combined plot: axis, name, value in the units of the axis.  Velocities
are in km/s, with `c_s` the sound speed in cm/s and 1 km = 10⁵ cm. -/
noncomputable def combineLines (c_s ρ_0 B_0 v_k : ℝ) (o : Opts) :
    List (String × String × List (String × (St → ℝ))) :=
  let km (v : ℝ) : ℝ := v * c_s / 100000
  [("Velocity Field (km/s)", "linear",
    [("$v_r$", fun s => km s.v_r), ("$v_φ - v_k$", fun s => km (s.v_φ - v_k)),
     ("$v_θ$", fun s => km s.v_θ)] ++
    (if o.with_slow then [("slow", fun s => km (Real.sqrt (mhd_wave_speeds s 1).slow))]
      else []) ++
    (if o.with_alfven then
      [("alfven", fun s => km (Real.sqrt (mhd_wave_speeds s 1).alfven))] else []) ++
    (if o.with_fast then [("fast", fun s => km (Real.sqrt (mhd_wave_speeds s 1).fast))]
      else []) ++
    (if o.with_sonic then [("$c_s$", fun _ => km 1)] else [])),
   ("Density (g cm$^{-3}$)", "log", [("$ρ$", fun s => s.ρ * ρ_0)]),
   ("Magnetic Field (G)", "linear", [("$B_r$", fun s => s.B_r * B_0),
     ("$B_φ$", fun s => s.B_φ * B_0), ("$B_θ$", fun s => s.B_θ * B_0)])]

theorem forall₂_append {α β : Type} {R : α → β → Prop} {a c : List α} {b d : List β}
    (h : List.Forall₂ R a b) (h' : List.Forall₂ R c d) :
    List.Forall₂ R (a ++ c) (b ++ d) := by
  induction h with
  | nil => exact h'
  | cons h _ ih => exact .cons h ih

/-- C83, physical units. The combined plot shows the named quantities in the named units,
for exactly the rows in range. -/
theorem combine_shows (G c_s_on_v_k v_a_on_c_s radius mass density nks : ℝ) (o : Opts)
    (rows : List (ℝ × St)) :
    let c_s := c_s_on_v_k * Real.sqrt (G * mass / radius)
    let B_0 := v_a_on_c_s * c_s * 2 * Real.sqrt (Real.pi * density)
    List.Forall₂ (fun (a : Axis) (e : String × String × List (String × (St → ℝ))) =>
        a.ylabel = e.1 ∧ a.scale = e.2.1 ∧ a.legend = true ∧
        List.Forall₂ (fun (c : Curve) (l : String × (St → ℝ)) => c.label = some l.1 ∧
          c.points = graph l.2 (between o.start o.stop rows)) a.curves e.2.2)
      (generate_plot_combine
        (normsOf G c_s_on_v_k v_a_on_c_s radius mass density) nks o rows)
      (combineLines c_s density B_0 (Real.sqrt nks) o) := by
  intro c_s B_0
  have key : ∀ (k : ℝ) (f g : St → ℝ) (off : ℝ), (∀ s, f s * k - off = g s) →
      ∀ l : String, (curveOf (some l) (rowsIn o.start o.stop rows)
        fun _ s => f s * k - off).label = some l ∧
      (curveOf (some l) (rowsIn o.start o.stop rows) fun _ s => f s * k - off).points =
        graph g (between o.start o.stop rows) := by
    intro k f g off h l
    refine ⟨rfl, ?_⟩
    simp only [curveOf, graph]
    refine List.map_congr_left fun p _ => ?_
    rw [h]
  refine .cons ⟨rfl, rfl, rfl, ?_⟩ (.cons ⟨rfl, rfl, rfl, ?_⟩
    (.cons ⟨rfl, rfl, rfl, ?_⟩ .nil))
  · have hk : ∀ (f : St → ℝ) (l : String), _ := fun f l =>
      key (c_s / KM) f (fun s => f s * c_s / 100000) 0
        (fun s => by simp only [KM]; ring) l
    simp only [List.map_append, List.map_cons, List.map_nil]
    refine forall₂_append (forall₂_append (forall₂_append (forall₂_append
      (.cons (hk _ _) (.cons ?_ (.cons (hk _ _) .nil))) ?_) ?_) ?_) ?_
    · refine key (c_s / KM) St.v_φ (fun s => (s.v_φ - Real.sqrt nks) * c_s / 100000)
        (Real.sqrt nks * c_s / KM) (fun s => ?_) _
      simp only [KM]; ring
    · by_cases h : o.with_slow
      · simp only [h, if_true]; exact .cons (hk _ _) .nil
      · simp only [h]; exact .nil
    · by_cases h : o.with_alfven
      · simp only [h, if_true]; exact .cons (hk _ _) .nil
      · simp only [h]; exact .nil
    · by_cases h : o.with_fast
      · simp only [h, if_true]; exact .cons (hk _ _) .nil
      · simp only [h]; exact .nil
    · by_cases h : o.with_sonic
      · simp only [h, if_true]; exact .cons (hk (fun _ => 1) _) .nil
      · simp only [h]; exact .nil
  · exact .cons (key density St.ρ (fun s => s.ρ * density) 0 (fun s => by ring) _) .nil
  · exact .cons (key B_0 St.B_r (fun s => s.B_r * B_0) 0 (fun s => by ring) _)
      (.cons (key B_0 St.B_φ (fun s => s.B_φ * B_0) 0 (fun s => by ring) _)
      (.cons (key B_0 St.B_θ (fun s => s.B_θ * B_0) 0 (fun s => by ring) _) .nil))

example := combine_shows 1 (1/20) (1/2) 1 1 1 400 { with_fast := true } [(0, witS), (1/2, witS)]

/-- C83 is false of the wave speeds in physical units. The Alfvén speed belonging to the
magnetic field and the density shown in the same figure, in cm/s, is the one drawn times
`v_a_on_c_s √(4π)`. -/
theorem combine_alfven_wrong (G c_s_on_v_k v_a_on_c_s radius mass density : ℝ) (s : St)
    (hρ : 0 < s.ρ) (hd : 0 < density) (ha : 0 < v_a_on_c_s) (hB : s.B_θ ≠ 0)
    (hc : 0 < c_s_on_v_k) :
    let c_s := c_s_on_v_k * Real.sqrt (G * mass / radius)
    let B_0 := v_a_on_c_s * c_s * 2 * Real.sqrt (Real.pi * density)
    let drawn := Real.sqrt (mhd_wave_speeds s 1).alfven * c_s
    |s.B_θ * B_0| / Real.sqrt (4 * Real.pi * (s.ρ * density)) =
      v_a_on_c_s * Real.sqrt (4 * Real.pi) * drawn := by
  intro c_s B_0 drawn
  have hπ := Real.pi_pos
  have hcs : 0 ≤ c_s := mul_nonneg hc.le (Real.sqrt_nonneg _)
  have hsq : s.B_r ^ 2 + s.B_φ ^ 2 + s.B_θ ^ 2 ≠ 0 := by
    have : 0 < s.B_θ ^ 2 := by positivity
    positivity
  have h1 : (mhd_wave_speeds s 1).alfven = s.B_θ ^ 2 / (4 * Real.pi * s.ρ) := by
    simp only [mhd_wave_speeds]
    field_simp
  have h2 : Real.sqrt (mhd_wave_speeds s 1).alfven = |s.B_θ| / Real.sqrt (4 * Real.pi * s.ρ) := by
    rw [h1, Real.sqrt_div (sq_nonneg _), Real.sqrt_sq_eq_abs]
  have h3 : Real.sqrt (4 * Real.pi * (s.ρ * density)) =
      Real.sqrt (4 * Real.pi * s.ρ) * Real.sqrt density := by
    rw [← Real.sqrt_mul (by positivity)]; ring_nf
  have h4 : Real.sqrt (Real.pi * density) = Real.sqrt Real.pi * Real.sqrt density :=
    Real.sqrt_mul hπ.le _
  have h5 : Real.sqrt (4 * Real.pi) = 2 * Real.sqrt Real.pi := by
    rw [Real.sqrt_mul (by norm_num), show (4 : ℝ) = 2 ^ 2 by norm_num,
      Real.sqrt_sq (by norm_num)]
  have hB0 : 0 ≤ B_0 := by
    have := Real.sqrt_nonneg (Real.pi * density)
    positivity
  have hsd : Real.sqrt density ≠ 0 := (Real.sqrt_pos.2 hd).ne'
  have hsr : Real.sqrt (4 * Real.pi * s.ρ) ≠ 0 := (Real.sqrt_pos.2 (by positivity)).ne'
  simp only [drawn]
  rw [h2, h3, h5, abs_mul, abs_of_nonneg hB0]
  simp only [B_0, h4]
  field_simp

example := combine_alfven_wrong 1 (1/20) (1/2) 1 1 1 witS (by norm_num [witS]) (by norm_num)
  (by norm_num) (by norm_num [witS]) (by norm_num)

/-- Every value, with its sign given by the colour: the two curves for one column together
show each row once, at its angle, with the absolute value. -/
def ShowsSigned {σ : Type} (cs : List Curve) (rows : List (ℝ × σ)) (f : σ → ℝ) : Prop :=
  ∃ up down, cs = [up, down] ∧ up.color ≠ down.color ∧
    (∀ x y, (x, y) ∈ up.points ↔ ∃ p ∈ rows, 0 ≤ f p.2 ∧ x = degrees p.1 ∧ y = |f p.2|) ∧
    (∀ x y, (x, y) ∈ down.points ↔ ∃ p ∈ rows, f p.2 < 0 ∧ x = degrees p.1 ∧ y = |f p.2|) ∧
    up.points.length + down.points.length = rows.length

theorem signed_curves {σ : Type} (rows : List (ℝ × σ)) (f : σ → ℝ) :
    ShowsSigned (signedCurves rows f) rows f := by
  classical
  refine ⟨_, _, rfl, by simp, ?_, ?_, ?_⟩
  · intro x y
    simp only [List.mem_map, List.mem_filter, decide_eq_true_eq, Prod.mk.injEq]
    constructor
    · rintro ⟨p, ⟨h1, h2⟩, rfl, rfl⟩
      exact ⟨p, h1, h2, rfl, (abs_of_nonneg h2).symm⟩
    · rintro ⟨p, h1, h2, rfl, rfl⟩
      exact ⟨p, ⟨h1, h2⟩, rfl, (abs_of_nonneg h2).symm⟩
  · intro x y
    simp only [List.mem_map, List.mem_filter, decide_eq_true_eq, Prod.mk.injEq]
    constructor
    · rintro ⟨p, ⟨h1, h2⟩, rfl, rfl⟩
      exact ⟨p, h1, h2, rfl, (abs_of_neg h2).symm⟩
    · rintro ⟨p, h1, h2, rfl, rfl⟩
      exact ⟨p, ⟨h1, h2⟩, rfl, (abs_of_neg h2).symm⟩
  · simp only [List.length_map]
    induction rows with
    | nil => rfl
    | cons p l ih =>
      by_cases h : 0 ≤ f p.2
      · have h' : ¬ f p.2 < 0 := not_lt.2 h
        simp only [List.filter_cons, h, h', decide_true, decide_false, if_true, List.length_cons]
        simp only [Bool.false_eq_true, if_false]
        omega
      · have h' : f p.2 < 0 := not_le.1 h
        simp only [List.filter_cons, h, h', decide_true, decide_false, if_true, List.length_cons]
        simp only [Bool.false_eq_true, if_false]
        omega

example := signed_curves [(0, (-1 : ℝ)), (1, 2)] id

/-- C83, comparison with the Taylor series. With `--show-values` each axis shows both
derivatives of its quantity at every recorded angle, with the sign in the colour. -/
theorem taylor_values_shown (start stop : ℝ) (rows : List (ℝ × TaylorRow)) :
    ∃ axes, generate_taylor_plot true start stop (some rows) = .ok axes ∧
      List.Forall₂ (fun (a : Axis) (e : String × (TaylorRow → ℝ) × (TaylorRow → ℝ)) =>
        a.ylabel = e.1 ∧ a.scale = "log" ∧ ∃ n t, a.curves = n ++ t ∧
          ShowsSigned n rows e.2.1 ∧ ShowsSigned t rows e.2.2) axes
        [("v_r", TaylorRow.v_r_normal, TaylorRow.v_r_taylor),
         ("v_φ", TaylorRow.v_φ_normal, TaylorRow.v_φ_taylor),
         ("ρ", TaylorRow.ρ_normal, TaylorRow.ρ_taylor)] :=
  ⟨_, rfl, .cons ⟨rfl, rfl, _, _, rfl, signed_curves _ _, signed_curves _ _⟩
    (.cons ⟨rfl, rfl, _, _, rfl, signed_curves _ _, signed_curves _ _⟩
    (.cons ⟨rfl, rfl, _, _, rfl, signed_curves _ _, signed_curves _ _⟩ .nil))⟩

example := taylor_values_shown 0 90 [(1/2, ⟨1, -1, 2, 1, 1, 3⟩)]

/-- C83 is false of the ratios: they are drawn at the angle converted to degrees twice,
which for no angle but zero is the angle. -/
theorem taylor_ratio_wrong_angle (start stop : ℝ) (rows : List (ℝ × TaylorRow)) :
    ∃ axes, generate_taylor_plot false start stop (some rows) = .ok axes ∧
      List.Forall₂ (fun (a : Axis) (e : String × (TaylorRow → ℝ) × (TaylorRow → ℝ)) =>
        a.ylabel = e.1 ∧ ∃ c, a.curves = [c] ∧ c.points = rows.map fun p =>
          (degrees p.1 * (180 / Real.pi), |e.2.1 p.2 / e.2.2 p.2|)) axes
        [("v_r", TaylorRow.v_r_normal, TaylorRow.v_r_taylor),
         ("v_φ", TaylorRow.v_φ_normal, TaylorRow.v_φ_taylor),
         ("ρ", TaylorRow.ρ_normal, TaylorRow.ρ_taylor)] ∧
      ∀ p : ℝ × TaylorRow, p.1 ≠ 0 → degrees p.1 * (180 / Real.pi) ≠ degrees p.1 := by
  have hd : ∀ x : ℝ, degrees (degrees x) = degrees x * (180 / Real.pi) := by
    intro x; simp only [degrees]
  have hc : ∀ f g : TaylorRow → ℝ, ∃ c, ratioCurve rows f g = [c] ∧
      c.points = rows.map fun p => (degrees p.1 * (180 / Real.pi), |f p.2 / g p.2|) := by
    intro f g
    refine ⟨_, rfl, ?_⟩
    exact List.map_congr_left fun p _ => by rw [hd]
  refine ⟨_, rfl, .cons ⟨rfl, hc _ _⟩ (.cons ⟨rfl, hc _ _⟩ (.cons ⟨rfl, hc _ _⟩ .nil)), ?_⟩
  intro p hp h
  have hπ := Real.pi_pos
  have h0 : degrees p.1 ≠ 0 := by
    simp only [degrees]
    intro h0
    rcases mul_eq_zero.1 h0 with h0 | h0
    · exact hp h0
    · exact (by positivity : (180 / Real.pi) ≠ 0) h0
  have h1 : (180 / Real.pi : ℝ) = 1 := by
    have := mul_left_cancel₀ h0 (h.trans (mul_one _).symm)
    exact this
  have h2 : (180 : ℝ) = Real.pi := by
    field_simp at h1; exact h1
  have := Real.pi_le_four
  linarith

example := (taylor_ratio_wrong_angle 0 90 [(1/2, ⟨1, -1, 2, 1, 1, 3⟩)]).choose_spec.2.2
  (1/2, ⟨1, -1, 2, 1, 1, 3⟩) (by norm_num)

/-- C83 is false of the range of the Taylor and the accretion plots: they ignore it. -/
theorem range_ignored (start stop start' stop' : ℝ) (v : Bool)
    (internal : Option (List (ℝ × TaylorRow))) (n : Norms) (rows : List (ℝ × St)) :
    generate_taylor_plot v start stop internal = generate_taylor_plot v start' stop' internal ∧
    generate_acc_plot n start stop rows = generate_acc_plot n start' stop' rows := ⟨rfl, rfl⟩

example := range_ignored 0 90 10 20 true (some [(0, ⟨1, 1, 1, 1, 1, 1⟩)]) ⟨1, 1, 1⟩ [(0, witS)]

/-- C83. What the accretion plot shows: for the rows below one degree, `B_θ B_φ` and `ρ v_θ`
in physical units times a constant. -/
theorem acc_shows (n : Norms) (start stop : ℝ) (rows : List (ℝ × St)) :
    ∃ a b, generate_acc_plot n start stop rows = [a, b] ∧
      ∃ ca cb, a.curves = [ca] ∧ b.curves = [cb] ∧
      (∀ x y, (x, y) ∈ ca.points ↔ ∃ p ∈ rows, degrees p.1 < 1 ∧ x = degrees p.1 ∧
        y = (p.2.B_θ * n.B) * (p.2.B_φ * n.B) * ACC_CONSTANT) ∧
      (∀ x y, (x, y) ∈ cb.points ↔ ∃ p ∈ rows, degrees p.1 < 1 ∧ x = degrees p.1 ∧
        y = (p.2.ρ * n.ρ) * (p.2.v_θ * n.v) * WIND_CONSTANT) := by
  classical
  refine ⟨_, _, rfl, _, _, rfl, rfl, ?_, ?_⟩
  · intro x y
    simp only [curveOf, List.mem_map, List.mem_filter, decide_eq_true_eq, Prod.mk.injEq]
    constructor
    · rintro ⟨p, ⟨h1, h2⟩, rfl, rfl⟩; exact ⟨p, h1, h2, rfl, rfl⟩
    · rintro ⟨p, h1, h2, rfl, rfl⟩; exact ⟨p, ⟨h1, h2⟩, rfl, rfl⟩
  · intro x y
    simp only [curveOf, List.mem_map, List.mem_filter, decide_eq_true_eq, Prod.mk.injEq]
    constructor
    · rintro ⟨p, ⟨h1, h2⟩, rfl, rfl⟩; exact ⟨p, h1, h2, rfl, by ring⟩
    · rintro ⟨p, h1, h2, rfl, rfl⟩; exact ⟨p, ⟨h1, h2⟩, rfl, by ring⟩

example := acc_shows ⟨1, 1, 1⟩ 0 90 [(0, witS)]

/-- C83. The derivative plots of a solution without internal data are refused. -/
theorem internal_data_needed (v : Bool) (start stop : ℝ) :
    generate_taylor_plot v start stop none = .error .AnalysisError := rfl

example := internal_data_needed true 0 90

theorem cumsum_getElem (a : ℝ) (l : List ℝ) (k : ℕ) (hk : k < l.length) :
    (cumsum a l)[k]? = some (a + (l.take (k + 1)).sum) := by
  induction l generalizing a k with
  | nil => simp at hk
  | cons x l ih =>
    cases k with
    | zero => simp [cumsum]
    | succ k =>
      rw [cumsum, List.getElem?_cons_succ, ih (a + x) k (by simpa using hk)]
      simp [add_assoc]

theorem cumsum_length (a : ℝ) (l : List ℝ) : (cumsum a l).length = l.length := by
  induction l generalizing a with
  | nil => rfl
  | cons x l ih => simp [cumsum, ih]

/-- C83. The surface density shown at a row is the sum of the densities of all rows up to
it, also of those below `start`; no distance between rows enters. -/
theorem surface_density_shows (start stop : ℝ) (rows : List (ℝ × St)) (x y : ℝ) :
    (∃ c, (generate_surface_density_plot start stop rows).curves = [c] ∧
      ((x, y) ∈ c.points ↔ ∃ k, ∃ h : k < rows.length, x = degrees (rows[k]).1 ∧
        start ≤ x ∧ x ≤ stop ∧ y = ((rows.take (k + 1)).map fun p => p.2.ρ).sum)) := by
  classical
  refine ⟨_, rfl, ?_⟩
  simp only [inRange, List.mem_filter, decide_eq_true_eq]
  constructor
  · rintro ⟨hm, h1, h2⟩
    obtain ⟨k, hk, he⟩ := List.mem_iff_getElem.1 hm
    rw [List.length_zip, List.length_map, cumsum_length, List.length_map, min_self] at hk
    have hc := cumsum_getElem 0 (rows.map fun p => p.2.ρ) k (by simpa using hk)
    rw [List.getElem_zip] at he
    injection he with e1 e2
    refine ⟨k, hk, ?_, h1, h2, ?_⟩
    · rw [← e1, List.getElem_map]
    · rw [List.getElem?_eq_getElem (by rw [cumsum_length]; simpa using hk), e2] at hc
      injection hc with hc
      rw [hc, zero_add, ← List.map_take]
  · rintro ⟨k, hk, rfl, h1, h2, rfl⟩
    refine ⟨?_, h1, h2⟩
    have hc := cumsum_getElem 0 (rows.map fun p => p.2.ρ) k (by simpa using hk)
    rw [List.getElem?_eq_getElem (by rw [cumsum_length]; simpa using hk)] at hc
    injection hc with hc
    refine List.mem_iff_getElem.2 ⟨k, by simp [cumsum_length, hk], ?_⟩
    rw [List.getElem_zip, hc, zero_add, ← List.map_take, List.getElem_map]

example := surface_density_shows 0 90 [(0, witS), (1, witS)] (degrees 1) 2

/-- C83 is false of the surface density: the same profile, stored at two or at three angles,
gives different values at the same angle. -/
theorem surface_density_sampling (θ₁ θ₂ stop : ℝ) (s : St) (hs : s.ρ ≠ 0) (h1 : 0 < θ₁)
    (h2 : θ₁ < θ₂) (h3 : degrees θ₂ ≤ stop) :
    ∃ c d, (generate_surface_density_plot 0 stop [(0, s), (θ₂, s)]).curves = [c] ∧
      (generate_surface_density_plot 0 stop [(0, s), (θ₁, s), (θ₂, s)]).curves = [d] ∧
      (degrees θ₂, 2 * s.ρ) ∈ c.points ∧ (degrees θ₂, 3 * s.ρ) ∈ d.points ∧
      2 * s.ρ ≠ 3 * s.ρ := by
  have hπ := Real.pi_pos
  have h4 : 0 ≤ degrees θ₂ := by
    simp only [degrees]
    have : 0 < θ₂ := h1.trans h2
    positivity
  obtain ⟨c, hc, hc'⟩ := surface_density_shows 0 stop [(0, s), (θ₂, s)] (degrees θ₂) (2 * s.ρ)
  obtain ⟨d, hd, hd'⟩ := surface_density_shows 0 stop [(0, s), (θ₁, s), (θ₂, s)] (degrees θ₂)
    (3 * s.ρ)
  refine ⟨c, d, hc, hd, hc'.2 ⟨1, by simp, rfl, h4, h3, ?_⟩,
    hd'.2 ⟨2, by simp, rfl, h4, h3, ?_⟩, ?_⟩
  · simp; ring
  · simp; ring
  · intro h; apply hs; linarith

example := surface_density_sampling 1 2 180 witS (by norm_num [witS]) (by norm_num)
  (by norm_num) (by
    simp only [degrees]
    rw [mul_div_assoc', div_le_iff₀ Real.pi_pos]
    nlinarith [Real.two_le_pi])

/-- C83, ratios to the wave speeds. Every solution given gets one curve on each axis, in
order, with its name, over exactly its rows in range; with at most as many solutions as
announced none is left out. -/
theorem sonic_ratio_shows (P : Palettes) (n : ℕ) (start stop : ℝ)
    (solutions : List (String × Soln)) (mach : Machs → Option ℝ)
    (hn : solutions.length ≤ n) :
    (sonicRatioCurves P n start stop solutions mach).map (fun c => (c.1, c.2.2)) =
      solutions.map fun s => (s.1, (between start stop s.2.rows).map fun r =>
        (degrees r.1, mach (get_mach_numbers r.2))) := by
  have hl : solutions.length ≤ (distinct_color_map P n).length :=
    hn.trans (enough_colors P n)
  unfold sonicRatioCurves
  generalize distinct_color_map P n = colors at hl
  rw [List.map_map]
  clear hn
  induction solutions generalizing colors with
  | nil => simp
  | cons x l ih =>
    cases colors with
    | nil => simp at hl
    | cons c cs =>
      simp only [List.zip_cons_cons, List.map_cons]
      rw [ih cs (by simpa using hl)]
      rfl

example (P : Palettes) := sonic_ratio_shows P 1 0 90 [("0", ⟨[(0, witS)], 2, none, none⟩)]
  Machs.fast (by simp)

/-- C83, the derivative of `v_θ`. Every solution gets one curve, and the plot is refused as
soon as one of them has no internal data. -/
theorem v_deriv_shows (start stop : ℝ)
    (l : List ((String × Option (List (ℝ × St))) × String)) :
    (∀ cs, vDerivCurves start stop l = .ok cs →
      List.Forall₂ (fun (c : Curve) (p : (String × Option (List (ℝ × St))) × String) =>
        ∃ rows, p.1.2 = some rows ∧ c.label = some p.1.1 ∧ c.color = some p.2 ∧
          c.points = graph St.v_θ (between start stop rows)) cs l) ∧
    ((∃ p ∈ l, p.1.2 = none) → vDerivCurves start stop l = .error .AnalysisError) ∧
    ((∀ p ∈ l, p.1.2 ≠ none) → ∃ cs, vDerivCurves start stop l = .ok cs) := by
  induction l with
  | nil => exact ⟨by rintro cs ⟨⟩; exact .nil, by simp, fun _ => ⟨_, rfl⟩⟩
  | cons p l ih =>
    obtain ⟨⟨name, internal⟩, color⟩ := p
    obtain ⟨i1, i2, i3⟩ := ih
    rcases internal with _ | rows
    · exact ⟨by rintro cs ⟨⟩, fun _ => rfl, fun h => absurd rfl (h _ (List.mem_cons_self ..))⟩
    · refine ⟨?_, ?_, ?_⟩
      · intro cs h
        rcases hl : vDerivCurves start stop l with e | cs'
        · simp only [vDerivCurves, hl] at h; exact nomatch h
        · simp only [vDerivCurves, hl] at h
          injection h with h
          subst h
          exact .cons ⟨rows, rfl, rfl, rfl, rfl⟩ (i1 cs' hl)
      · rintro ⟨p, hp, hn⟩
        rcases List.mem_cons.1 hp with rfl | hp
        · exact absurd hn (by simp)
        · simp only [vDerivCurves, i2 ⟨p, hp, hn⟩]
      · intro h
        obtain ⟨cs, hcs⟩ := i3 fun p hp => h p (List.mem_cons_of_mem _ hp)
        simp only [vDerivCurves, hcs]
        exact ⟨_, rfl⟩

example := (v_deriv_shows 0 90 [(("0", some [(0, witS)]), "C0"), (("1", none), "C1")]).2.1
  ⟨_, .tail _ (.head _), rfl⟩

/-! ## C84: colours and markers -/

/-- The distinct values in the order they come. -/
noncomputable def distinct (seen : List ℝ) (xs : List ℝ) : List ℝ :=
  open Classical in
  xs.foldl (fun acc x => if x ∈ acc then acc else acc ++ [x]) seen

/-- A mapping that has met the values `seen`. -/
def Knows (name : ℕ → String) (size : ℕ) (m : Mapping) (seen : List ℝ) : Prop :=
  m.count = seen.length % size ∧
    m.map = seen.zipIdx.map fun p => (p.1, name (p.2 % size))

theorem distinct_prefix (seen xs : List ℝ) : seen <+: distinct seen xs := by
  classical
  induction xs generalizing seen with
  | nil => exact List.prefix_rfl
  | cons x xs ih =>
    simp only [distinct, List.foldl_cons]
    by_cases h : x ∈ seen
    · rw [if_pos h]; exact ih seen
    · rw [if_neg h]; exact (List.prefix_append _ _).trans (ih _)

theorem distinct_nodup (seen xs : List ℝ) (h : seen.Nodup) : (distinct seen xs).Nodup := by
  classical
  induction xs generalizing seen with
  | nil => exact h
  | cons x xs ih =>
    simp only [distinct, List.foldl_cons]
    by_cases hx : x ∈ seen
    · rw [if_pos hx]; exact ih seen h
    · rw [if_neg hx]
      apply ih
      rw [List.nodup_append]
      exact ⟨h, by simp, by rintro a ha b hb rfl; simp at hb; exact hx (hb ▸ ha)⟩

theorem mem_distinct (seen xs : List ℝ) (x : ℝ) :
    x ∈ distinct seen xs ↔ x ∈ seen ∨ x ∈ xs := by
  classical
  induction xs generalizing seen with
  | nil => simp [distinct]
  | cons y xs ih =>
    simp only [distinct, List.foldl_cons]
    by_cases hy : y ∈ seen
    · rw [if_pos hy]
      rw [show xs.foldl _ seen = distinct seen xs from rfl, ih]
      simp only [List.mem_cons]
      constructor
      · rintro (h | h) <;> tauto
      · rintro (h | rfl | h) <;> tauto
    · rw [if_neg hy]
      rw [show xs.foldl _ (seen ++ [y]) = distinct (seen ++ [y]) xs from rfl, ih]
      simp only [List.mem_append, List.mem_cons, List.not_mem_nil, or_false]
      tauto

open Classical in
theorem idxOf_prefix {a b : List ℝ} (h : a <+: b) {x : ℝ} (hx : x ∈ a) :
    b.idxOf x = a.idxOf x := by
  obtain ⟨t, rfl⟩ := h
  exact List.idxOf_append_of_mem hx

open Classical in
theorem lookup_zipIdx (name : ℕ → String) (seen : List ℝ) (x : ℝ) (k : ℕ) :
    ((seen.zipIdx k).map fun p => (p.1, name p.2)).lookup x =
      if x ∈ seen then some (name (k + seen.idxOf x)) else none := by
  induction seen generalizing k with
  | nil => simp
  | cons y l ih =>
    simp only [List.zipIdx_cons, List.map_cons, List.lookup_cons]
    by_cases h : x = y
    · subst h; simp
    · have h1 : (x == y) = false := by simpa using h
      have h2 : y ≠ x := fun e => h e.symm
      rw [h1]
      simp only [ih, List.mem_cons, h, false_or, List.idxOf_cons_ne _ h2]
      rw [show k + 1 + l.idxOf x = k + (l.idxOf x + 1) by omega]

open Classical in
/-- One step: the name given is that of the place of the value among the distinct ones. -/
theorem assign_spec (name : ℕ → String) (size : ℕ) {m : Mapping} {seen : List ℝ}
    (h : Knows name size m seen) (x : ℝ) :
    (m.assign name size x).1 = name ((distinct seen [x]).idxOf x % size) ∧
      Knows name size (m.assign name size x).2 (distinct seen [x]) := by
  obtain ⟨h1, h2⟩ := h
  have hl := lookup_zipIdx (fun n => name (n % size)) seen x 0
  rw [← h2, zero_add] at hl
  simp only [distinct, List.foldl_cons, List.foldl_nil]
  by_cases hx : x ∈ seen
  · rw [if_pos hx] at hl
    rw [if_pos hx]
    simp only [Mapping.assign, hl]
    exact ⟨trivial, h1, h2⟩
  · rw [if_neg hx] at hl
    rw [if_neg hx]
    simp only [Mapping.assign, hl]
    refine ⟨?_, ?_, ?_⟩
    · rw [List.idxOf_append_of_notMem hx]
      simp [h1]
    · simp [h1]
    · simp [h2, h1, List.zipIdx_append]

/-- The names given to a list of values. -/
noncomputable def assignAll (name : ℕ → String) (size : ℕ) :
    Mapping → List ℝ → List String × Mapping
  | m, [] => ([], m)
  | m, x :: l =>
    ((m.assign name size x).1 :: (assignAll name size (m.assign name size x).2 l).1,
      (assignAll name size (m.assign name size x).2 l).2)

theorem distinct_cons (seen : List ℝ) (x : ℝ) (xs : List ℝ) :
    distinct seen (x :: xs) = distinct (distinct seen [x]) xs := rfl

open Classical in
theorem assignAll_spec (name : ℕ → String) (size : ℕ) (xs : List ℝ) {m : Mapping}
    {seen : List ℝ} (h : Knows name size m seen) :
    (assignAll name size m xs).1 =
        xs.map (fun x => name ((distinct seen xs).idxOf x % size)) ∧
      Knows name size (assignAll name size m xs).2 (distinct seen xs) := by
  induction xs generalizing m seen with
  | nil => exact ⟨rfl, h⟩
  | cons x xs ih =>
    obtain ⟨h1, h2⟩ := assign_spec name size h x
    obtain ⟨i1, i2⟩ := ih h2
    rw [distinct_cons]
    refine ⟨?_, i2⟩
    simp only [assignAll, List.map_cons, h1, i1]
    rw [idxOf_prefix (distinct_prefix _ xs) ((mem_distinct _ _ _).2 (Or.inr (by simp)))]

theorem ratioLoop_names (simps : List (ℝ × ℝ) → ℝ) (start stop : ℝ)
    (l : List (String × Ratio)) (v a : Mapping) (marks : List Mark) (v' a' : Mapping)
    (h : ratioLoop simps start stop l v a = .ok (marks, v', a')) :
    (marks.map Mark.color, v') = assignAll colorName 10 v (l.map fun p => p.2.v_r) ∧
    (marks.map Mark.marker, a') = assignAll (fun n => (MARKER_LIST[n]?).getD "") 22 a
      (l.map fun p => p.2.a_0) ∧
    marks.map Mark.label = l.map Prod.fst := by
  induction l generalizing v a marks v' a' with
  | nil =>
    simp only [ratioLoop, Except.ok.injEq, Prod.mk.injEq] at h
    obtain ⟨rfl, rfl, rfl⟩ := h
    exact ⟨rfl, rfl, rfl⟩
  | cons p l ih =>
    obtain ⟨name, s⟩ := p
    simp only [ratioLoop] at h
    rcases hr : Stats.compute_M_dot_out_on_M_dot_in simps s.γ 0.1 100
      (rowsIn start stop s.rows) with e | ratio
    · rw [hr] at h; exact nomatch h
    · rw [hr] at h
      simp only at h
      rcases hl : ratioLoop simps start stop l (v.assign colorName 10 s.v_r).2
        (a.assign (fun n => (MARKER_LIST[n]?).getD "") MARKER_LIST.length s.a_0).2 with
        e | ⟨ms, v₁, a₁⟩
      · rw [hl] at h; exact nomatch h
      · rw [hl] at h
        simp only [Except.ok.injEq, Prod.mk.injEq] at h
        obtain ⟨rfl, rfl, rfl⟩ := h
        obtain ⟨i1, i2, i3⟩ := ih _ _ _ _ _ hl
        have j1 := Prod.mk.inj i1
        have j2 := Prod.mk.inj i2
        refine ⟨?_, ?_, ?_⟩
        · simp only [List.map_cons, assignAll, Prod.mk.injEq, List.cons.injEq]
          exact ⟨⟨rfl, j1.1⟩, j1.2⟩
        · simp only [List.map_cons, assignAll, Prod.mk.injEq, List.cons.injEq]
          exact ⟨⟨rfl, j2.1⟩, j2.2⟩
        · simp only [List.map_cons, i3]; rfl

example := ratioLoop_names (fun _ => 1) 0 90
  [("a", ⟨1, 1, 2, 1/20, 1/10, [(0, witS)]⟩), ("b", ⟨1, 1, 3, 1/20, 1/10, [(0, witS)]⟩)] ⟨0, []⟩ ⟨0, []⟩ _ _ _ (by
    have h : rowsIn 0 90 [(0, witS)] = [(0, witS)] := by simp [rowsIn, degrees]
    simp only [ratioLoop, h, Stats.compute_M_dot_out_on_M_dot_in, Stats.compute_M_dot_out,
      List.getLast?_singleton]
    rfl)

theorem colorName_mem (n : ℕ) (h : n < 10) : ∃ c, TAB_COLOR_MAP.getItem (colorName n) = .ok c := by
  have : ∀ n : Fin 10, ∃ c, TAB_COLOR_MAP.getItem (colorName n) = .ok c := by
    intro n
    fin_cases n <;> exact ⟨_, rfl⟩
  exact this ⟨n, h⟩

theorem printed_ok (l : List (ℝ × String)) (h : ∀ p ∈ l, ∃ n < 10, p.2 = colorName n) :
    ∃ r, printedColors l = .ok r ∧ r.map (fun q => (q.1, q.2.1)) = l := by
  induction l with
  | nil => exact ⟨_, rfl, rfl⟩
  | cons p l ih =>
    obtain ⟨r, hr, hr'⟩ := ih fun q hq => h q (List.mem_cons_of_mem _ hq)
    obtain ⟨n, hn, he⟩ := h p (List.mem_cons_self ..)
    obtain ⟨c, hc⟩ := colorName_mem n hn
    obtain ⟨x, color⟩ := p
    simp only at he
    subst he
    refine ⟨(x, colorName n, c) :: r, ?_, ?_⟩
    · simp only [printedColors, hc, hr]
    · simp only [List.map_cons, hr']

example := printed_ok [(3, colorName 0), (1, colorName 9)] (by
  intro p hp
  simp only [List.mem_cons, List.not_mem_nil, or_false] at hp
  rcases hp with rfl | rfl
  · exact ⟨0, by norm_num, rfl⟩
  · exact ⟨9, by norm_num, rfl⟩)

theorem knows_nil (name : ℕ → String) (size : ℕ) : Knows name size ⟨0, []⟩ [] :=
  ⟨by simp, rfl⟩

example := assign_spec colorName 10 (knows_nil colorName 10) 3

example := assignAll_spec colorName 10 [3, 1, 3] (knows_nil colorName 10)

/-- C84. Printing the colours never fails: if the rates of all solutions can be found, the
figure is made, with one mark per solution, in order and with its name, and the values of
`v_r` and `a_0` are printed once each with the colour and the marker used for them. -/
theorem ratio_plot_ok (simps : List (ℝ × ℝ) → ℝ) (start stop : ℝ)
    (solutions : List (String × Ratio))
    (h : ∀ p ∈ solutions, between start stop p.2.rows ≠ []) :
    ∃ marks colors markers, generate_ratio_plot simps start stop solutions =
        .ok (marks, colors, markers) ∧ marks.map Mark.label = solutions.map Prod.fst ∧
      (colors.map fun c => c.1).Nodup ∧ (markers.map Prod.fst).Nodup ∧
      (∀ x, x ∈ colors.map (fun c => c.1) ↔ ∃ p ∈ solutions, p.2.v_r = x) ∧
      (∀ x, x ∈ markers.map Prod.fst ↔ ∃ p ∈ solutions, p.2.a_0 = x) ∧
      (∀ (i : ℕ) (p : String × Ratio) (m : Mark), solutions[i]? = some p → marks[i]? = some m →
        (∃ c, (p.2.v_r, m.color, c) ∈ colors) ∧ (p.2.a_0, m.marker) ∈ markers) := by
  classical
  have hok : ∀ (l : List (String × Ratio)), (∀ p ∈ l, between start stop p.2.rows ≠ []) →
      ∀ v a, ∃ r, ratioLoop simps start stop l v a = .ok r := by
    intro l
    induction l with
    | nil => intro _ v a; exact ⟨_, rfl⟩
    | cons p l ih =>
      intro h v a
      obtain ⟨name, s⟩ := p
      have hne : rowsIn start stop s.rows ≠ [] := h _ (List.mem_cons_self ..)
      obtain ⟨q, hq⟩ : ∃ q, (rowsIn start stop s.rows).getLast? = some q :=
        ⟨_, List.getLast?_eq_some_getLast hne⟩
      obtain ⟨r, hr⟩ := ih (fun p hp => h p (List.mem_cons_of_mem _ hp))
        (v.assign colorName 10 s.v_r).2
        (a.assign (fun n => (MARKER_LIST[n]?).getD "") MARKER_LIST.length s.a_0).2
      obtain ⟨ms, v₁, a₁⟩ := r
      simp only [ratioLoop, Stats.compute_M_dot_out_on_M_dot_in, Stats.compute_M_dot_out, hq, hr]
      exact ⟨_, rfl⟩
  obtain ⟨⟨marks, v, a⟩, hl⟩ := hok solutions h ⟨0, []⟩ ⟨0, []⟩
  obtain ⟨h1, h2, h3⟩ := ratioLoop_names _ _ _ _ _ _ _ _ _ hl
  obtain ⟨c1, -, c2⟩ := assignAll_spec colorName 10 (solutions.map fun p => p.2.v_r)
    (knows_nil colorName 10)
  obtain ⟨d1, -, d2⟩ := assignAll_spec (fun n => (MARKER_LIST[n]?).getD "") 22
    (solutions.map fun p => p.2.a_0) (knows_nil _ 22)
  rw [← h1] at c1 c2
  rw [← h2] at d1 d2
  simp only at c1 c2 d1 d2
  obtain ⟨printed, hp, hp'⟩ := printed_ok v.map (by
    intro p hp
    rw [c2] at hp
    obtain ⟨q, -, rfl⟩ := List.mem_map.1 hp
    exact ⟨_, Nat.mod_lt _ (by norm_num), rfl⟩)
  have k1 : printed.map (fun c => c.1) = distinct [] (solutions.map fun p => p.2.v_r) := by
    rw [show (printed.map fun c => c.1) = (printed.map fun q => (q.1, q.2.1)).map Prod.fst
      by rw [List.map_map]; rfl, hp', c2, List.map_map]
    exact List.zipIdx_map_fst 0 _
  have k2 : a.map.map Prod.fst = distinct [] (solutions.map fun p => p.2.a_0) := by
    rw [d2, List.map_map]
    exact List.zipIdx_map_fst 0 _
  refine ⟨marks, printed, a.map, ?_, h3, ?_, ?_, ?_, ?_, ?_⟩
  · simp only [generate_ratio_plot, hl, hp]
  · rw [k1]
    exact distinct_nodup _ _ List.nodup_nil
  · rw [k2]
    exact distinct_nodup _ _ List.nodup_nil
  · intro x
    rw [k1, mem_distinct]
    simp
  · intro x
    rw [k2, mem_distinct]
    simp
  · intro i p m hi hm
    have e1 : m.color = colorName ((distinct [] (solutions.map fun p => p.2.v_r)).idxOf
        p.2.v_r % 10) := by
      have := congrArg (fun l => l[i]?) c1
      simp only [List.getElem?_map, hi, hm, Option.map_some, Option.some.injEq] at this
      exact this
    have e2 : m.marker = (MARKER_LIST[(distinct [] (solutions.map fun p => p.2.a_0)).idxOf
        p.2.a_0 % 22]?).getD "" := by
      have := congrArg (fun l => l[i]?) d1
      simp only [List.getElem?_map, hi, hm, Option.map_some, Option.some.injEq] at this
      exact this
    have hmem : p ∈ solutions := List.mem_of_getElem? hi
    have key : ∀ (l : List ℝ) (x : ℝ), x ∈ l → (x, l.idxOf x) ∈ l.zipIdx := by
      intro l x hx
      rw [List.mem_zipIdx_iff_getElem?]
      exact List.getElem?_idxOf hx
    constructor
    · have : (p.2.v_r, m.color) ∈ v.map := by
        rw [c2, e1]
        exact List.mem_map.2 ⟨_, key _ _ ((mem_distinct _ _ _).2 (Or.inr
          (List.mem_map.2 ⟨p, hmem, rfl⟩))), rfl⟩
      rw [← hp'] at this
      obtain ⟨q, hq, he⟩ := List.mem_map.1 this
      have he' := Prod.mk.inj he
      refine ⟨q.2.2, ?_⟩
      rw [← he'.1, ← he'.2]
      exact hq
    · rw [d2, e2]
      exact List.mem_map.2 ⟨_, key _ _ ((mem_distinct _ _ _).2 (Or.inr
        (List.mem_map.2 ⟨p, hmem, rfl⟩))), rfl⟩

example (simps : List (ℝ × ℝ) → ℝ) := ratio_plot_ok simps 0 90
  [("0", ⟨1, 1, -1, 1/20, 1/10, [(0, witS)]⟩), ("1", ⟨1, 2, -1, 1/20, 1/10, [(0, witS)]⟩)] (by
    intro p hp
    simp only [List.mem_cons, List.not_mem_nil, or_false] at hp
    rcases hp with rfl | rfl <;> simp [between, degrees])

/-- C84. Where the marks are: at the midplane diffusivity over `c_s/v_k`, with `a_0` over the
sum of the densities on the one axis and the ratio of the rates on the other. -/
theorem ratio_positions (simps : List (ℝ × ℝ) → ℝ) (start stop : ℝ)
    (solutions : List (String × Ratio)) (marks : List Mark)
    (colors : List (ℝ × String × String)) (markers : List (ℝ × String))
    (h : generate_ratio_plot simps start stop solutions = .ok (marks, colors, markers)) :
    List.Forall₂ (fun (m : Mark) (p : String × Ratio) =>
      m.x = p.2.η_A / p.2.c_s_on_v_k ∧
      m.y₀ = p.2.a_0 / ((between start stop p.2.rows).map fun r => r.2.ρ).sum ∧
      Stats.compute_M_dot_out_on_M_dot_in simps p.2.γ 0.1 100
        (between start stop p.2.rows) = .ok m.y₁) marks solutions := by
  have key : ∀ (l : List (String × Ratio)) (v a : Mapping) (marks : List Mark)
      (v' a' : Mapping), ratioLoop simps start stop l v a = .ok (marks, v', a') →
      List.Forall₂ (fun (m : Mark) (p : String × Ratio) =>
        m.x = p.2.η_A / p.2.c_s_on_v_k ∧
        m.y₀ = p.2.a_0 / ((between start stop p.2.rows).map fun r => r.2.ρ).sum ∧
        Stats.compute_M_dot_out_on_M_dot_in simps p.2.γ 0.1 100
          (between start stop p.2.rows) = .ok m.y₁) marks l := by
    intro l
    induction l with
    | nil =>
      intro v a marks v' a' h
      simp only [ratioLoop, Except.ok.injEq, Prod.mk.injEq] at h
      obtain ⟨rfl, -, -⟩ := h
      exact .nil
    | cons p l ih =>
      intro v a marks v' a' h
      obtain ⟨name, s⟩ := p
      simp only [ratioLoop] at h
      rcases hr : Stats.compute_M_dot_out_on_M_dot_in simps s.γ 0.1 100
        (rowsIn start stop s.rows) with e | ratio
      · rw [hr] at h; exact nomatch h
      · rw [hr] at h
        simp only at h
        rcases hl : ratioLoop simps start stop l (v.assign colorName 10 s.v_r).2
          (a.assign (fun n => (MARKER_LIST[n]?).getD "") MARKER_LIST.length s.a_0).2 with
          e | ⟨ms, v₁, a₁⟩
        · rw [hl] at h; exact nomatch h
        · rw [hl] at h
          simp only [Except.ok.injEq, Prod.mk.injEq] at h
          obtain ⟨rfl, -, -⟩ := h
          exact .cons ⟨rfl, rfl, hr⟩ (ih _ _ _ _ _ hl)
  rcases hl : ratioLoop simps start stop solutions ⟨0, []⟩ ⟨0, []⟩ with e | ⟨ms, v, a⟩
  · simp only [generate_ratio_plot, hl] at h; exact nomatch h
  simp only [generate_ratio_plot, hl] at h
  rcases hp : printedColors v.map with e | pr
  · rw [hp] at h; exact nomatch h
  · rw [hp] at h
    simp only [Except.ok.injEq, Prod.mk.injEq] at h
    obtain ⟨rfl, -, -⟩ := h
    exact key _ _ _ _ _ _ hl

/-- Eleven solutions with different `v_r`. -/
noncomputable def eleven : List (String × Ratio) :=
  (List.range 11).map fun (k : ℕ) => (toString k, ⟨1, 1, -(k : ℝ), 1/20, 1/10, [(0, witS)]⟩)

theorem eleven_ok (simps : List (ℝ × ℝ) → ℝ) : ∃ marks colors markers,
    generate_ratio_plot simps 0 90 eleven = .ok (marks, colors, markers) ∧
      10 < colors.length := by
  obtain ⟨marks, colors, markers, h, -, h2, -, h4, -⟩ := ratio_plot_ok simps 0 90 eleven (by
    intro p hp
    obtain ⟨k, -, rfl⟩ := List.mem_map.1 hp
    simp [between, degrees])
  refine ⟨marks, colors, markers, h, ?_⟩
  have nd : ((List.range 11).map fun (k : ℕ) => -(k : ℝ)).Nodup := by
    refine List.Nodup.map ?_ List.nodup_range
    intro a b hab
    exact_mod_cast neg_injective hab
  have hs : ((List.range 11).map fun (k : ℕ) => -(k : ℝ)) ⊆ colors.map fun c => c.1 := by
    intro x hx
    obtain ⟨k, hk, rfl⟩ := List.mem_map.1 hx
    exact (h4 _).2 ⟨_, List.mem_map.2 ⟨k, hk, rfl⟩, rfl⟩
  have := (nd.subperm hs).length_le
  simp only [List.length_map, List.length_range] at this
  omega

example (simps : List (ℝ × ℝ) → ℝ) := ratio_positions simps 0 90 eleven _ _ _
  (eleven_ok simps).choose_spec.choose_spec.choose_spec.1

/-- C84. A solution with no row in range ends the plot with `IndexError`. -/
theorem ratio_plot_empty (simps : List (ℝ × ℝ) → ℝ) (start stop : ℝ)
    (solutions : List (String × Ratio))
    (h : ∃ p ∈ solutions, between start stop p.2.rows = []) :
    generate_ratio_plot simps start stop solutions = .error .IndexError := by
  have key : ∀ (l : List (String × Ratio)), (∃ p ∈ l, between start stop p.2.rows = []) →
      ∀ v a, ratioLoop simps start stop l v a = .error .IndexError := by
    intro l
    induction l with
    | nil => rintro ⟨p, hp, -⟩; exact absurd hp (by simp)
    | cons p l ih =>
      rintro ⟨q, hq, hr⟩ v a
      obtain ⟨name, s⟩ := p
      rcases hl : (rowsIn start stop s.rows).getLast? with _ | x
      · simp only [ratioLoop, Stats.compute_M_dot_out_on_M_dot_in, Stats.compute_M_dot_out, hl]
      · rcases List.mem_cons.1 hq with rfl | hq
        · rw [show rowsIn start stop s.rows = [] from hr] at hl
          exact absurd hl (by simp)
        · simp only [ratioLoop, Stats.compute_M_dot_out_on_M_dot_in, Stats.compute_M_dot_out, hl,
            ih ⟨q, hq, hr⟩]
  simp only [generate_ratio_plot, key solutions h]

example (simps : List (ℝ × ℝ) → ℝ) := ratio_plot_empty simps 0 90
  [("0", ⟨1, 1, -1, 1/20, 1/10, []⟩)] ⟨_, .head _, by simp [between]⟩

theorem colorName_inj : ∀ i j : Fin 10, colorName i = colorName j → i = j := by decide

theorem marker_inj : ∀ i j : Fin 22, (MARKER_LIST[i.1]?).getD "" = (MARKER_LIST[j.1]?).getD "" →
    i = j := by decide

open Classical in
theorem idxOf_inj {l : List ℝ} {x y : ℝ} (hx : x ∈ l) (h : l.idxOf x = l.idxOf y) : x = y := by
  exact (List.idxOf_inj hx).1 h

/-- C84. Equal values of `v_r` get equal colours, equal values of `a_0` equal markers.  As
long as there are at most ten distinct values of `v_r` the colour tells them apart, and so
does the marker up to 22 distinct values of `a_0`. -/
theorem ratio_marks_partial (simps : List (ℝ × ℝ) → ℝ) (start stop : ℝ)
    (solutions : List (String × Ratio)) (marks : List Mark)
    (colors : List (ℝ × String × String)) (markers : List (ℝ × String))
    (h : generate_ratio_plot simps start stop solutions = .ok (marks, colors, markers))
    (i j : ℕ) (p q : String × Ratio) (m n : Mark) (hp : solutions[i]? = some p)
    (hq : solutions[j]? = some q) (hm : marks[i]? = some m) (hn : marks[j]? = some n) :
    (p.2.v_r = q.2.v_r → m.color = n.color) ∧ (p.2.a_0 = q.2.a_0 → m.marker = n.marker) ∧
    (colors.length ≤ 10 → m.color = n.color → p.2.v_r = q.2.v_r) ∧
    (markers.length ≤ 22 → m.marker = n.marker → p.2.a_0 = q.2.a_0) := by
  classical
  rcases hl : ratioLoop simps start stop solutions ⟨0, []⟩ ⟨0, []⟩ with e | ⟨ms, v, a⟩
  · simp only [generate_ratio_plot, hl] at h; exact nomatch h
  simp only [generate_ratio_plot, hl] at h
  obtain ⟨h1, h2, -⟩ := ratioLoop_names _ _ _ _ _ _ _ _ _ hl
  obtain ⟨c1, -, c2⟩ := assignAll_spec colorName 10 (solutions.map fun p => p.2.v_r)
    (knows_nil colorName 10)
  obtain ⟨d1, -, d2⟩ := assignAll_spec (fun n => (MARKER_LIST[n]?).getD "") 22
    (solutions.map fun p => p.2.a_0) (knows_nil _ 22)
  rw [← h1] at c1 c2
  rw [← h2] at d1 d2
  simp only at c1 c2 d1 d2
  obtain ⟨printed, hpr, hpr'⟩ := printed_ok v.map (by
    intro p hp
    rw [c2] at hp
    obtain ⟨q, -, rfl⟩ := List.mem_map.1 hp
    exact ⟨_, Nat.mod_lt _ (by norm_num), rfl⟩)
  rw [hpr] at h
  simp only [Except.ok.injEq, Prod.mk.injEq] at h
  obtain ⟨rfl, rfl, rfl⟩ := h
  have lenC : printed.length = (distinct [] (solutions.map fun p => p.2.v_r)).length := by
    have := congrArg List.length hpr'
    rw [List.length_map, c2, List.length_map, List.length_zipIdx] at this
    exact this
  have lenM : a.map.length = (distinct [] (solutions.map fun p => p.2.a_0)).length := by
    rw [d2, List.length_map, List.length_zipIdx]
  have color : ∀ (i : ℕ) (p : String × Ratio) (m : Mark), solutions[i]? = some p →
      ms[i]? = some m → m.color = colorName ((distinct []
        (solutions.map fun p => p.2.v_r)).idxOf p.2.v_r % 10) := by
    intro i p m hi hm
    have := congrArg (fun l => l[i]?) c1
    simp only [List.getElem?_map, hi, hm, Option.map_some, Option.some.injEq] at this
    exact this
  have marker : ∀ (i : ℕ) (p : String × Ratio) (m : Mark), solutions[i]? = some p →
      ms[i]? = some m → m.marker = (MARKER_LIST[(distinct []
        (solutions.map fun p => p.2.a_0)).idxOf p.2.a_0 % 22]?).getD "" := by
    intro i p m hi hm
    have := congrArg (fun l => l[i]?) d1
    simp only [List.getElem?_map, hi, hm, Option.map_some, Option.some.injEq] at this
    exact this
  have memV : ∀ (i : ℕ) (p : String × Ratio), solutions[i]? = some p →
      p.2.v_r ∈ distinct [] (solutions.map fun p => p.2.v_r) := fun i p hi =>
    (mem_distinct _ _ _).2 (Or.inr (List.mem_map.2 ⟨p, List.mem_of_getElem? hi, rfl⟩))
  have memA : ∀ (i : ℕ) (p : String × Ratio), solutions[i]? = some p →
      p.2.a_0 ∈ distinct [] (solutions.map fun p => p.2.a_0) := fun i p hi =>
    (mem_distinct _ _ _).2 (Or.inr (List.mem_map.2 ⟨p, List.mem_of_getElem? hi, rfl⟩))
  refine ⟨fun e => ?_, fun e => ?_, fun hlen e => ?_, fun hlen e => ?_⟩
  · rw [color i p m hp hm, color j q n hq hn, e]
  · rw [marker i p m hp hm, marker j q n hq hn, e]
  · rw [color i p m hp hm, color j q n hq hn] at e
    have k1 := List.idxOf_lt_length_of_mem (memV i p hp)
    have k2 := List.idxOf_lt_length_of_mem (memV j q hq)
    rw [Nat.mod_eq_of_lt (by omega), Nat.mod_eq_of_lt (by omega)] at e
    have := colorName_inj ⟨_, lt_of_lt_of_le k1 (lenC ▸ hlen)⟩
      ⟨_, lt_of_lt_of_le k2 (lenC ▸ hlen)⟩ e
    exact idxOf_inj (memV i p hp) (Fin.mk.inj this)
  · rw [marker i p m hp hm, marker j q n hq hn] at e
    have k1 := List.idxOf_lt_length_of_mem (memA i p hp)
    have k2 := List.idxOf_lt_length_of_mem (memA j q hq)
    rw [Nat.mod_eq_of_lt (by omega), Nat.mod_eq_of_lt (by omega)] at e
    have := marker_inj ⟨_, lt_of_lt_of_le k1 (lenM ▸ hlen)⟩
      ⟨_, lt_of_lt_of_le k2 (lenM ▸ hlen)⟩ e
    exact idxOf_inj (memA i p hp) (Fin.mk.inj this)

example (simps : List (ℝ × ℝ) → ℝ) := ratio_marks_partial simps 0 90 eleven _ _ _
  (eleven_ok simps).choose_spec.choose_spec.choose_spec.1 0 1 ("0", ⟨1, 1, -((0 : ℕ) : ℝ), 1/20, 1/10,
    [(0, witS)]⟩)

/-- C84 fails beyond: with more than ten values of `v_r`, the first and the eleventh get the
same colour. -/
theorem ratio_colors_collide (simps : List (ℝ × ℝ) → ℝ) (start stop : ℝ)
    (solutions : List (String × Ratio)) (marks : List Mark)
    (colors : List (ℝ × String × String)) (markers : List (ℝ × String))
    (h : generate_ratio_plot simps start stop solutions = .ok (marks, colors, markers))
    (hlen : 10 < colors.length) :
    ∃ c d, colors[0]? = some c ∧ colors[10]? = some d ∧ c.1 ≠ d.1 ∧ c.2 = d.2 := by
  classical
  rcases hl : ratioLoop simps start stop solutions ⟨0, []⟩ ⟨0, []⟩ with e | ⟨ms, v, a⟩
  · simp only [generate_ratio_plot, hl] at h; exact nomatch h
  simp only [generate_ratio_plot, hl] at h
  obtain ⟨h1, -, -⟩ := ratioLoop_names _ _ _ _ _ _ _ _ _ hl
  obtain ⟨-, -, c2⟩ := assignAll_spec colorName 10 (solutions.map fun p => p.2.v_r)
    (knows_nil colorName 10)
  rw [← h1] at c2
  simp only at c2
  obtain ⟨printed, hpr, hpr'⟩ := printed_ok v.map (by
    intro p hp
    rw [c2] at hp
    obtain ⟨q, -, rfl⟩ := List.mem_map.1 hp
    exact ⟨_, Nat.mod_lt _ (by norm_num), rfl⟩)
  rw [hpr] at h
  simp only [Except.ok.injEq, Prod.mk.injEq] at h
  obtain ⟨-, rfl, -⟩ := h
  have nd : (distinct [] (solutions.map fun p => p.2.v_r)).Nodup :=
    distinct_nodup _ _ List.nodup_nil
  generalize distinct [] (solutions.map fun p => p.2.v_r) = ds at c2 nd
  have lenC : printed.length = ds.length := by
    have := congrArg List.length hpr'
    rw [List.length_map, c2, List.length_map, List.length_zipIdx] at this
    exact this
  have get : ∀ k (hk : k < printed.length), (printed[k]).1 = ds[k]'(lenC ▸ hk) ∧
      (printed[k]).2.1 = colorName (k % 10) := by
    intro k hk
    have := congrArg (fun l => l[k]?) (hpr'.trans c2)
    simp only [List.getElem?_map, List.getElem?_zipIdx, List.getElem?_eq_getElem hk,
      List.getElem?_eq_getElem (lenC ▸ hk : k < ds.length), Option.map_some, Option.some.injEq,
      Prod.mk.injEq, Nat.zero_add] at this
    exact this
  have names : ∀ (l : List (ℝ × String)) r, printedColors l = .ok r → ∀ q ∈ r,
      TAB_COLOR_MAP.getItem q.2.1 = .ok q.2.2 := by
    intro l
    induction l with
    | nil => intro r hr q hq; simp only [printedColors, Except.ok.injEq] at hr; subst hr; simp at hq
    | cons p l ih =>
      intro r hr q hq
      obtain ⟨x, c⟩ := p
      rcases hc : TAB_COLOR_MAP.getItem c with e | nm
      · simp only [printedColors, hc] at hr; exact nomatch hr
      · rcases hl : printedColors l with e | r'
        · simp only [printedColors, hc, hl] at hr; exact nomatch hr
        · simp only [printedColors, hc, hl, Except.ok.injEq] at hr
          subst hr
          rcases List.mem_cons.1 hq with rfl | hq
          · exact hc
          · exact ih _ hl q hq
  have h0 : 0 < printed.length := by omega
  refine ⟨printed[0], printed[10], List.getElem?_eq_getElem h0, List.getElem?_eq_getElem hlen,
    ?_, ?_⟩
  · rw [(get 0 h0).1, (get 10 hlen).1]
    intro e
    have := (List.Nodup.getElem_inj_iff nd).1 e
    omega
  · have e1 : (printed[0]).2.1 = (printed[10]).2.1 := by
      rw [(get 0 h0).2, (get 10 hlen).2]
    have n0 := names _ _ hpr _ (List.getElem_mem h0)
    have n1 := names _ _ hpr _ (List.getElem_mem hlen)
    rw [e1, n1] at n0
    injection n0 with n0
    exact Prod.ext e1 n0.symm

example (simps : List (ℝ × ℝ) → ℝ) := ratio_colors_collide simps 0 90 eleven _ _ _
  (eleven_ok simps).choose_spec.choose_spec.choose_spec.1
  (eleven_ok simps).choose_spec.choose_spec.choose_spec.2

end DiscSolver.AnalysisPlots
