import Verif.Model.Plots
import Mathlib.Tactic.Common
import Mathlib.Tactic.Linarith
import Mathlib.Tactic.IntervalCases

/-!
# What the plots show (C62, C81)

The settings of the plots are kept in dictionaries shared by all plots of a process, and
every plot writes to them.  The theorems say that nevertheless every figure depends on its
own arguments only, that axis `i` shows the quantity its label names for exactly the rows
in the range asked for, and that several solutions are all drawn.
-/

namespace DiscSolver.Plots

/-! ## Specification -/

/-- What one process did before: any of the plots, with any arguments. -/
inductive Op where
  | plot (o : Opts) (s : Soln)
  | vert (o : VertOpts) (s : Soln) (norm_kepler_sq : ℝ)
  | params (use_E_r : Bool) (start stop kepler : ℝ) (internal : Option (List (ℝ × St)))
  | derivs (use_E_r nolog : Bool) (start stop kepler : ℝ)
      (internal : Option (List (ℝ × St)))
  | compare (P : Palettes) (o : Opts) (solutions : List (Except PyErr (Option Soln)))

/-- The state of the shared settings after a plot. -/
noncomputable def Op.run : Op → Common → Common
  | .plot o s, c => (generate_plot o s c).2
  | .vert o s k, c => (generate_vert_plot o s k c).2
  | .params e a b k i, c => (generate_params_plot e a b k i c).2
  | .derivs e n a b k i, c => (generate_derivs_plot e n a b k i c).2
  | .compare P o l, c => (generate_compare_plot P o id (fun _ => "") l c).2

/-- The state after a history of plots. -/
noncomputable def after (history : List Op) : Common :=
  history.foldl (fun c op => op.run c) COMMON_ARGUMENTS

/-- The eight quantities, with the labels a reader sees. -/
def quantities (use_E_r : Bool) (v_k : ℝ) : List (String × (St → ℝ)) :=
  [("$B_r/B_0$", fun s => s.B_r), ("$B_φ/B_0$", fun s => s.B_φ),
   ("$B_θ/B_0$", fun s => s.B_θ), ("$v_r/c_s$", fun s => s.v_r),
   ("$(v_φ - v_k)/c_s$", fun s => s.v_φ - v_k), ("$v_θ/c_s$", fun s => s.v_θ),
   ("$ρ/ρ_0$", fun s => s.ρ),
   (if use_E_r then "$E_r/E_0$" else "$B_φ'/B_0$", fun s => s.X)]

/-- The quantities of the vertical plot; the second argument is the polar angle of the
row, the reference is the Keplerian velocity at the radius of the row. -/
noncomputable def vertQuantities (use_E_r : Bool) (norm_kepler_sq c_s_on_v_k : ℝ) :
    List (String × (CylSt → ℝ → ℝ)) :=
  [("$B_r/B_0$", fun s _ => s.B_R), ("$B_φ/B_0$", fun s _ => s.B_φ),
   ("$B_z/B_0$", fun s _ => s.B_z), ("$v_r/c_s$", fun s _ => s.v_R),
   ("$(v_φ - v_k)/c_s$", fun s θ =>
     s.v_φ - Real.sqrt (norm_kepler_sq / get_vertical_scaling θ c_s_on_v_k)),
   ("$v_z/c_s$", fun s _ => s.v_z), ("$ρ/ρ_0$", fun s _ => s.ρ),
   (if use_E_r then "$E_r/E_0$" else "$B_φ'/B_0$", fun s _ => s.X)]

open Classical in
/-- The rows between two angles in degrees. -/
noncomputable def between (start stop : ℝ) (rows : List (ℝ × St)) : List (ℝ × St) :=
  rows.filter fun p => decide (start ≤ ValidatePlot.degrees p.1 ∧
    ValidatePlot.degrees p.1 ≤ stop)

/-- The points of a curve: the angle in degrees and the quantity. -/
noncomputable def graph (f : St → ℝ) (rows : List (ℝ × St)) : List (ℝ × ℝ) :=
  rows.map fun p => (ValidatePlot.degrees p.1, f p.2)

/-! ## The shared settings -/

/-- What no plot changes: labels, legends, scales other than that of `v_θ`; only `v_θ` and
`v_z` get additional lines, only `v_φ` an offset. -/
structure Good (c : Common) : Prop where
  name : ∀ q, (c q).name = (COMMON_ARGUMENTS q).name
  legend : ∀ q, (c q).legend = (COMMON_ARGUMENTS q).legend
  scale : ∀ q, q ≠ .v_θ → (c q).scale = (COMMON_ARGUMENTS q).scale
  extras : ∀ q, q ≠ .v_θ → q ≠ .v_z → (c q).extras = none
  offset : ∀ q, q ≠ .v_φ → (c q).offset = none

theorem good_init : Good COMMON_ARGUMENTS := by
  constructor <;> intro q <;> cases q <;> simp [COMMON_ARGUMENTS]

/-- Index five of every ordering is `v_θ` or `v_z`. -/
theorem ordering_five (o : Ordering) :
    (PLOT_ORDERINGS o)[5]? = some .v_θ ∨ (PLOT_ORDERINGS o)[5]? = some .v_z := by
  cases o <;> simp [PLOT_ORDERINGS]

/-- A change of one dictionary within these limits. -/
theorem good_modify {c : Common} (h : Good c) {params : List Param} {i : ℕ} {p : Param}
    (hp : params[i]? = some p) {f : Settings → Settings}
    (h1 : ∀ s, (f s).name = s.name) (h2 : ∀ s, (f s).legend = s.legend)
    (h3 : p ≠ .v_θ → ∀ s, (f s).scale = s.scale)
    (h4 : p ≠ .v_θ → p ≠ .v_z → ∀ s, (f s).extras = s.extras)
    (h5 : p ≠ .v_φ → ∀ s, (f s).offset = s.offset) : Good (modify c params i f) := by
  simp only [modify, hp]
  constructor <;> intro q
  · split
    · rw [h1, h.name]
    · exact h.name q
  · split
    · rw [h2, h.legend]
    · exact h.legend q
  · intro hq
    split
    · rename_i e; rw [h3 (e ▸ hq), h.scale q hq]
    · exact h.scale q hq
  · intro hq hq'
    split
    · rename_i e; rw [h4 (e ▸ hq) (e ▸ hq'), h.extras q hq hq']
    · exact h.extras q hq hq'
  · intro hq
    split
    · rename_i e; rw [h5 (e ▸ hq), h.offset q hq]
    · exact h.offset q hq

theorem good_extra {c : Common} (h : Good c) (o : Ordering) (e : Extra) :
    Good (addExtra c (PLOT_ORDERINGS o) 5 e) := by
  rcases ordering_five o with h' | h' <;>
    exact good_modify h h' (fun _ => rfl) (fun _ => rfl) (fun _ _ => rfl)
      (fun a b => by first | exact absurd rfl a | exact absurd rfl b) (fun _ _ => rfl)

theorem good_extras {o : Ordering} (es : List Extra) {c : Common} (h : Good c) :
    Good (addExtras c (PLOT_ORDERINGS o) 5 es) := by
  induction es generalizing c with
  | nil => exact h
  | cons e es ih => exact ih (good_extra h o e)

/-- The state after `get_common_arguments` for the orderings with `v_θ`. -/
theorem get_sph (a : CommonArgs) (c : Common)
    (h : a.ordering = .E_r ∨ a.ordering = .B_φ_prime) :
    (get_common_arguments a c).2 = fun q =>
      if q = .v_θ then { c .v_θ with scale := some a.v_θ_scale, extras := some [] }
      else if q = .v_φ then { c .v_φ with offset :=
        match a.v_φ_offset with
        | some o => some o
        | none => if a.no_v_φ_offset then (c .v_φ).offset else some fun _ => a.kepler }
      else c q := by
  obtain ⟨o, sc, k, no, off⟩ := a
  funext q
  rcases h with h | h <;> simp only at h <;> subst h <;> cases off <;> cases no <;>
    cases q <;> simp [get_common_arguments, PLOT_ORDERINGS, modify]

/-- The same for the orderings with `v_z`. -/
theorem get_cyl (a : CommonArgs) (c : Common)
    (h : a.ordering = .E_r_vert ∨ a.ordering = .B_φ_prime_vert) :
    (get_common_arguments a c).2 = fun q =>
      if q = .v_z then { c .v_z with extras := some [] }
      else if q = .v_φ then { c .v_φ with offset :=
        match a.v_φ_offset with
        | some o => some o
        | none => if a.no_v_φ_offset then (c .v_φ).offset else some fun _ => a.kepler }
      else c q := by
  obtain ⟨o, sc, k, no, off⟩ := a
  funext q
  rcases h with h | h <;> simp only at h <;> subst h <;> cases off <;> cases no <;>
    cases q <;> simp [get_common_arguments, PLOT_ORDERINGS, modify]

theorem get_params (a : CommonArgs) (c : Common) :
    (get_common_arguments a c).1 = PLOT_ORDERINGS a.ordering := rfl

theorem ordering_cases (a : CommonArgs) : (a.ordering = .E_r ∨ a.ordering = .B_φ_prime) ∨
    (a.ordering = .E_r_vert ∨ a.ordering = .B_φ_prime_vert) := by
  cases a.ordering <;> simp

theorem good_get {c : Common} (h : Good c) (a : CommonArgs) :
    Good (get_common_arguments a c).2 := by
  rcases ordering_cases a with ho | ho
  · rw [get_sph a c ho]
    constructor <;> intro q
    · cases q <;> simp [h.name]
    · cases q <;> simp [h.legend]
    · intro hq; have := h.scale q hq; cases q <;> simp_all
    · intro hq hq'; have := h.extras q hq hq'; cases q <;> simp_all
    · intro hq
      have := h.offset q hq
      have := h.offset .v_θ
      cases q <;> simp_all
  · rw [get_cyl a c ho]
    constructor <;> intro q
    · cases q <;> simp [h.name]
    · cases q <;> simp [h.legend]
    · intro hq; have := h.scale q hq; have := h.scale .v_z; cases q <;> simp_all
    · intro hq hq'; have := h.extras q hq hq'; cases q <;> simp_all
    · intro hq
      have := h.offset q hq
      have := h.offset .v_z
      cases q <;> simp_all

theorem good_compareLoop (o : Opts) (l : List ((String × Soln) × String)) {c : Common}
    (h : Good c) : Good (compareLoop o l c).2 := by
  induction l generalizing c with
  | nil => exact h
  | cons x l ih => exact ih (good_get h _)

theorem good_run {c : Common} (h : Good c) (op : Op) : Good (op.run c) := by
  cases op with
  | plot o s => exact good_extras _ (good_get h _)
  | vert o s k =>
    simp only [Op.run, generate_vert_plot]
    split
    · exact h
    · exact good_extras _ (good_get h _)
  | params e a b k i =>
    simp only [Op.run, generate_params_plot]
    split
    · exact h
    · split
      · exact h
      · dsimp only; exact good_get h _
  | derivs e n a b k i =>
    simp only [Op.run, generate_derivs_plot]
    split
    · exact h
    · dsimp only; exact good_get h _
  | compare P o l =>
    simp only [Op.run, generate_compare_plot]
    split <;> exact good_compareLoop _ _ h

theorem good_after (history : List Op) : Good (after history) := by
  unfold after
  generalize hc : COMMON_ARGUMENTS = c
  have h : Good c := hc ▸ good_init
  clear hc
  induction history generalizing c with
  | nil => exact h
  | cons op l ih => exact ih _ (good_run h op)

/-! ## Curves -/

theorem zipIdx_zip_map {α : Type} (rows : List α) (f g : α → ℝ) (k : ℕ → ℝ) (n : ℕ) :
    (rows.map f).zip (((rows.map g).zipIdx n).map fun p => p.1 - k p.2) =
      (rows.zipIdx n).map fun p => (f p.1, g p.1 - k p.2) := by
  induction rows generalizing n with
  | nil => rfl
  | cons a l ih => simp [ih]

/-- The points of a curve with an offset given row by row. -/
theorem points_offset {α : Type} (start stop : ℝ) (rows : List α) (f g : α → ℝ)
    (s : Settings) (k : ℕ → ℝ) (hk : (s.offset.getD fun _ => 0) = k) :
    inRange start stop (rows.map f) (minusOffset s (rows.map g)) =
      open Classical in
      (rows.zipIdx.filter fun p => decide (start ≤ f p.1 ∧ f p.1 ≤ stop)).map
        fun p => (f p.1, g p.1 - k p.2) := by
  unfold inRange minusOffset
  rw [hk, zipIdx_zip_map, List.filter_map]
  rfl

theorem filter_zipIdx {α β : Type} (rows : List α) (p : α → Bool) (h : α → β) (n : ℕ) :
    ((rows.zipIdx n).filter fun x => p x.1).map (fun x => h x.1) =
      (rows.filter p).map h := by
  induction rows generalizing n with
  | nil => rfl
  | cons a l ih =>
    by_cases ha : p a <;> simp [ha, ih]

/-- The points of a curve with one offset. -/
theorem points_const {α : Type} (start stop : ℝ) (rows : List α) (f g : α → ℝ)
    (s : Settings) (k : ℝ) (hk : (s.offset.getD fun _ => 0) = fun _ => k) :
    inRange start stop (rows.map f) (minusOffset s (rows.map g)) =
      open Classical in
      (rows.filter fun p => decide (start ≤ f p ∧ f p ≤ stop)).map
        fun p => (f p, g p - k) := by
  classical
  rw [points_offset start stop rows f g s _ hk]
  exact filter_zipIdx rows (fun p => decide (start ≤ f p ∧ f p ≤ stop))
    (fun p => (f p, g p - k)) 0

/-- Without offset. -/
theorem points_plain {α : Type} (start stop : ℝ) (rows : List α) (f g : α → ℝ) :
    inRange start stop (rows.map f) (rows.map g) =
      open Classical in
      (rows.filter fun p => decide (start ≤ f p ∧ f p ≤ stop)).map
        fun p => (f p, g p) := by
  classical
  have := points_const start stop rows f g { name := "" } 0 rfl
  simp only [sub_zero] at this
  rw [← this]
  congr 1
  unfold minusOffset
  generalize rows.map g = l
  generalize 0 = n
  induction l generalizing n with
  | nil => rfl
  | cons a l ih => simp

/-! ## Single solutions -/

/-- The settings of a plot with `v_θ`, from its own arguments. -/
def sphSpec (a : CommonArgs) (es : List Extra) : Common := fun q =>
  { name := (COMMON_ARGUMENTS q).name
    legend := (COMMON_ARGUMENTS q).legend
    scale := if q = .v_θ then some a.v_θ_scale else (COMMON_ARGUMENTS q).scale
    extras := if q = .v_θ then some es else none
    offset := if q = .v_φ then some fun _ => a.kepler else none }

/-- The settings of a plot with `v_z`, from its own arguments. -/
def cylSpec (k : ℕ → ℝ) (es : List Extra) : Common := fun q =>
  { name := (COMMON_ARGUMENTS q).name
    legend := (COMMON_ARGUMENTS q).legend
    scale := (COMMON_ARGUMENTS q).scale
    extras := if q = .v_z then some es else none
    offset := if q = .v_φ then some k else none }

theorem addExtras_at {params : List Param} {p : Param} (hp : params[5]? = some p)
    (es : List Extra) : ∀ (d : Common) (l : List Extra), (d p).extras = some l →
      addExtras d params 5 es = fun q =>
        if q = p then { d p with extras := some (l ++ es) } else d q := by
  induction es with
  | nil =>
    intro d l hl
    funext q
    by_cases hq : q = p
    · subst hq; simp [addExtras, ← hl]
    · simp [addExtras, hq]
  | cons e es ih =>
    intro d l hl
    have := ih (addExtra d params 5 e) (l ++ [e]) (by simp [addExtra, modify, hp, hl])
    rw [show addExtras d params 5 (e :: es) =
      addExtras (addExtra d params 5 e) params 5 es from rfl, this]
    funext q
    by_cases hq : q = p
    · subst hq; simp [addExtra, modify, hp]
    · simp [addExtra, modify, hp, hq]

theorem sph_settings {c : Common} (h : Good c) (a : CommonArgs)
    (ho : a.ordering = .E_r ∨ a.ordering = .B_φ_prime) (hoff : a.v_φ_offset = none)
    (hno : a.no_v_φ_offset = false) (es : List Extra) (q : Param) (hq : q ≠ .v_z) :
    addExtras (get_common_arguments a c).2 (PLOT_ORDERINGS a.ordering) 5 es q =
      sphSpec a es q := by
  have hp : (PLOT_ORDERINGS a.ordering)[5]? = some .v_θ := by
    rcases ho with h | h <;> rw [h] <;> rfl
  rw [addExtras_at hp es _ [] (by rw [get_sph a c ho]; simp)]
  rw [get_sph a c ho]
  have h1 := h.name q
  have h2 := h.legend q
  have h3 := h.scale q
  have h4 := h.extras q
  have h5 := h.offset q
  cases q <;> simp_all [Settings.ext_iff, sphSpec]

theorem cyl_settings {c : Common} (h : Good c) (a : CommonArgs)
    (ho : a.ordering = .E_r_vert ∨ a.ordering = .B_φ_prime_vert) (k : ℕ → ℝ)
    (hoff : a.v_φ_offset = some k) (es : List Extra) (q : Param) (hq : q ≠ .v_θ) :
    addExtras (get_common_arguments a c).2 (PLOT_ORDERINGS a.ordering) 5 es q =
      cylSpec k es q := by
  have hp : (PLOT_ORDERINGS a.ordering)[5]? = some .v_z := by
    rcases ho with h | h <;> rw [h] <;> rfl
  rw [addExtras_at hp es _ [] (by rw [get_cyl a c ho]; simp)]
  rw [get_cyl a c ho]
  have h1 := h.name q
  have h2 := h.legend q
  have h3 := h.scale q
  have h4 := h.extras q
  have h5 := h.offset q
  cases q <;> simp_all [Settings.ext_iff, cylSpec]

theorem axesOf_congr {params : List Param} {c d : Common} {f g : Settings → ℕ → Axis}
    (h : ∀ q ∈ params, ∀ i, f (c q) i = g (d q) i) :
    axesOf params c f = axesOf params d g := by
  refine List.map_congr_left fun p hp => ?_
  obtain ⟨q, i⟩ := p
  exact h q (List.fst_mem_of_mem_zipIdx hp) i

theorem sph_no_v_z {a : CommonArgs} (ho : a.ordering = .E_r ∨ a.ordering = .B_φ_prime) :
    ∀ q ∈ PLOT_ORDERINGS a.ordering, q ≠ .v_z := by
  rcases ho with h | h <;> rw [h] <;> simp [PLOT_ORDERINGS]

theorem cyl_no_v_θ {a : CommonArgs}
    (ho : a.ordering = .E_r_vert ∨ a.ordering = .B_φ_prime_vert) :
    ∀ q ∈ PLOT_ORDERINGS a.ordering, q ≠ .v_θ := by
  rcases ho with h | h <;> rw [h] <;> simp [PLOT_ORDERINGS]

theorem plotArgs_ordering (o : Opts) (s : Soln) :
    (plotArgs o s).ordering = .E_r ∨ (plotArgs o s).ordering = .B_φ_prime := by
  unfold plotArgs; cases o.use_E_r <;> simp

theorem plot_eq {c : Common} (h : Good c) (o : Opts) (s : Soln) :
    (generate_plot o s c).1 = axesOf (PLOT_ORDERINGS (plotArgs o s).ordering)
      (sphSpec (plotArgs o s) (speedExtras o s)) (plotAxis o s) :=
  axesOf_congr fun q hq i => by
    rw [get_params] at hq ⊢
    rw [sph_settings h (plotArgs o s) (plotArgs_ordering o s) rfl rfl _ q
      (sph_no_v_z (plotArgs_ordering o s) q hq)]

/-- **The figure of `ds-plot`, axis by axis**: after any plots made before, there are
eight axes; axis `i` is labelled with the name of quantity `i` and its curve shows that
quantity of exactly the rows in the range, in order. -/
theorem plot_shows (history : List Op) (o : Opts) (s : Soln) :
    (generate_plot o s (after history)).1.map
        (fun ax => (ax.ylabel, ax.curves.head?.map (·.points))) =
      (quantities o.use_E_r s.kepler).map fun q =>
        (q.1, some (graph q.2 (between o.start o.stop s.rows))) := by
  rw [plot_eq (good_after history)]
  have hc : ∀ (st : Settings) (i : ℕ) (k : ℝ), (st.offset.getD fun _ => 0) = (fun _ => k) →
      inRange o.start o.stop s.degrees (minusOffset st (s.rows.map fun p => col i p.2)) =
      graph (fun v => col i v - k) (between o.start o.stop s.rows) := fun st i k hk =>
    points_const o.start o.stop s.rows (fun p => ValidatePlot.degrees p.1) _ _ k hk
  have h4 := hc (sphSpec (plotArgs o s) (speedExtras o s) .v_φ) 4 s.kepler
    (by simp [sphSpec, plotArgs])
  have h0 : ∀ (q : Param) (i : ℕ), q ≠ .v_φ →
      inRange o.start o.stop s.degrees (minusOffset
        (sphSpec (plotArgs o s) (speedExtras o s) q) (s.rows.map fun p => col i p.2)) =
      graph (fun v => col i v) (between o.start o.stop s.rows) := fun q i hq => by
    rw [hc _ i 0 (by simp [sphSpec, hq])]
    simp
  cases hE : o.use_E_r with
  | false =>
    have hp : (plotArgs o s).ordering = .B_φ_prime := by simp [plotArgs, hE]
    simp [axesOf, PLOT_ORDERINGS, plotAxis, quantities, hp, h4, h0]
    simp [sphSpec, COMMON_ARGUMENTS, col]
  | true =>
    have hp : (plotArgs o s).ordering = .E_r := by simp [plotArgs, hE]
    simp [axesOf, PLOT_ORDERINGS, plotAxis, quantities, hp, h4, h0]
    simp [sphSpec, COMMON_ARGUMENTS, col]

/-- A concrete case: two rows, of which one is in range, after a plot of something else. -/
example (a b : St) : (generate_plot { stop := 1 } ⟨[(0, a), (1, b)], 2, none, none⟩
    (after [.derivs true true 0 90 7 (some [])])).1.map
      (fun ax => (ax.ylabel, ax.curves.head?.map (·.points))) =
    (quantities false 2).map fun q => (q.1, some (graph q.2
      (between 0 1 [(0, a), (1, b)]))) :=
  plot_shows [.derivs true true 0 90 7 (some [])] { stop := 1 }
    ⟨[(0, a), (1, b)], 2, none, none⟩

/-- **The additional lines**: they are drawn on the axis of `v_θ` and on no other, and are
exactly those asked for, over the rows in range: none is left over from an earlier plot.
(Marks without label, the sonic point and the roots, are left out.) -/
theorem plot_extras (history : List Op) (o : Opts) (s : Soln) (i : ℕ) (hi : i < 8) :
    ((generate_plot o s (after history)).1[i]?).map
        (fun ax => (ax.curves.tail.filter (·.label.isSome)).map fun c => (c.label, c.points)) =
      some (if i = 5 then
        (if o.with_slow then [(some "slow", graph (fun v =>
          Real.sqrt (mhd_wave_speeds v 1).slow) (between o.start o.stop s.rows))] else []) ++
        (if o.with_alfven then [(some "alfven", graph (fun v =>
          Real.sqrt (mhd_wave_speeds v 1).alfven) (between o.start o.stop s.rows))]
          else []) ++
        (if o.with_fast then [(some "fast", graph (fun v =>
          Real.sqrt (mhd_wave_speeds v 1).fast) (between o.start o.stop s.rows))] else []) ++
        (if o.with_sonic then [(some "sound", graph (fun _ => 1)
          (between o.start o.stop s.rows))] else [])
      else []) := by
  rw [plot_eq (good_after history)]
  have hc : ∀ g : St → ℝ, inRange o.start o.stop s.degrees (s.rows.map fun p => g p.2) =
      graph g (between o.start o.stop s.rows) := fun g =>
    points_plain o.start o.stop s.rows (fun p => ValidatePlot.degrees p.1) _
  have h1 : inRange o.start o.stop s.degrees (s.rows.map fun _ => 1) = _ := hc fun _ => 1
  have h2 := hc fun v => Real.sqrt (mhd_wave_speeds v 1).slow
  have h3 := hc fun v => Real.sqrt (mhd_wave_speeds v 1).alfven
  have h4 := hc fun v => Real.sqrt (mhd_wave_speeds v 1).fast
  have key : ∀ (st : Settings) (j : ℕ),
      ((plotAxis o s st j).curves.tail.filter (·.label.isSome)).map
        (fun c => (c.label, c.points)) =
      (st.extras.getD []).map fun e => (some e.label, inRange o.start o.stop s.degrees e.data) := by
    intro st j
    have h1 : (sonicCurve o s st j).filter (·.label.isSome) = [] := by
      unfold sonicCurve; split
      · split <;> simp
      · rfl
    have h2 : (rootsCurve o s st j).filter (·.label.isSome) = [] := by
      unfold rootsCurve; split
      · split <;> simp
      · rfl
    simp only [plotAxis, List.cons_append, List.nil_append, List.tail_cons,
      List.filter_append, h1, h2, List.append_nil]
    rw [List.filter_eq_self.2 (by simp)]
    simp
  have hE : ((axesOf (PLOT_ORDERINGS (plotArgs o s).ordering)
      (sphSpec (plotArgs o s) (speedExtras o s))
      (plotAxis o s))[i]?).map
        (fun ax => (ax.curves.tail.filter (·.label.isSome)).map fun c => (c.label, c.points)) =
      some ((if i = 5 then speedExtras o s else []).map
        (fun e => (some e.label, inRange o.start o.stop s.degrees e.data))) := by
    cases hE : o.use_E_r <;>
    · have hp : (plotArgs o s).ordering =
        (if o.use_E_r then .E_r else .B_φ_prime) := rfl
      rw [hp, hE]
      interval_cases i <;> simp [axesOf, PLOT_ORDERINGS, key, sphSpec]
  rw [hE]
  by_cases hi5 : i = 5
  · simp only [if_pos hi5, speedExtras, List.map_append]
    congr 1
    cases o.with_slow <;> cases o.with_alfven <;> cases o.with_fast <;> cases o.with_sonic <;>
      simp [h1, h2, h3, h4, -List.map_const', -List.map_const]
  · simp [hi5]

example (a b : St) := plot_extras [.derivs true true 0 90 7 (some [])]
  { with_slow := true, with_sonic := true } ⟨[(0, a), (1, b)], 2, none, none⟩ 5 (by decide)

/-- **The marks**: besides its lines, axis `i` has the sonic point in red and the roots in
black, each unless it is unknown or hidden, at their angles in degrees and with quantity `i`
of their states. -/
theorem plot_marks (history : List Op) (o : Opts) (s : Soln) :
    (generate_plot o s (after history)).1.map
        (fun ax => (ax.curves.filter (·.label.isNone)).map fun c => (c.color, c.points)) =
      (quantities o.use_E_r s.kepler).map fun q =>
        (if o.hide_sonic_angle then [] else s.sonic.toList.map fun x =>
          (some "red", graph q.2 [x])) ++
        (if o.hide_roots then [] else s.roots.toList.map fun r => (some "black", graph q.2 r)) := by
  rw [plot_eq (good_after history)]
  have key : ∀ (st : Settings) (j : ℕ) (k : ℝ), (st.offset.getD fun _ => 0) = (fun _ => k) →
      ((plotAxis o s st j).curves.filter (·.label.isNone)).map (fun c => (c.color, c.points)) =
      (if o.hide_sonic_angle then [] else s.sonic.toList.map fun x =>
          (some "red", graph (fun v => col j v - k) [x])) ++
        (if o.hide_roots then [] else s.roots.toList.map fun r =>
          (some "black", graph (fun v => col j v - k) r)) := by
    intro st j k hk
    have h1 : ((sonicCurve o s st j).filter (·.label.isNone)).map
        (fun c => (c.color, c.points)) =
        if o.hide_sonic_angle then [] else s.sonic.toList.map fun x =>
          (some "red", graph (fun v => col j v - k) [x]) := by
      unfold sonicCurve
      rcases s.sonic with _ | ⟨a, v⟩
      · simp
      · cases o.hide_sonic_angle <;> simp [hk, graph]
    have h2 : ((rootsCurve o s st j).filter (·.label.isNone)).map
        (fun c => (c.color, c.points)) =
        if o.hide_roots then [] else s.roots.toList.map fun r =>
          (some "black", graph (fun v => col j v - k) r) := by
      unfold rootsCurve
      rcases s.roots with _ | r
      · simp
      · cases o.hide_roots <;> simp [hk, graph]
    rw [← h1, ← h2]
    simp only [plotAxis, List.filter_append, List.map_append, List.filter_cons,
      List.filter_nil, List.filter_map]
    simp
  have h4 := key (sphSpec (plotArgs o s) (speedExtras o s) .v_φ) 4 s.kepler
    (by simp [sphSpec, plotArgs])
  have h0 : ∀ (q : Param) (i : ℕ), q ≠ .v_φ →
      ((plotAxis o s (sphSpec (plotArgs o s) (speedExtras o s) q) i).curves.filter
        (·.label.isNone)).map (fun c => (c.color, c.points)) =
      (if o.hide_sonic_angle then [] else s.sonic.toList.map fun x =>
          (some "red", graph (fun v => col i v) [x])) ++
        (if o.hide_roots then [] else s.roots.toList.map fun r =>
          (some "black", graph (fun v => col i v) r)) := fun q i hq => by
    rw [key _ i 0 (by simp [sphSpec, hq])]
    simp
  cases hE : o.use_E_r with
  | false =>
    have hp : (plotArgs o s).ordering = .B_φ_prime := by simp [plotArgs, hE]
    rw [hp]
    simp only [axesOf, PLOT_ORDERINGS, List.zipIdx_cons, List.zipIdx_nil, List.map_cons,
      List.map_nil, quantities, Nat.zero_add, Nat.reduceAdd]
    rw [h0 _ _ (by decide), h0 _ _ (by decide), h0 _ _ (by decide), h0 _ _ (by decide), h4,
      h0 _ _ (by decide), h0 _ _ (by decide), h0 _ _ (by decide)]
    rfl
  | true =>
    have hp : (plotArgs o s).ordering = .E_r := by simp [plotArgs, hE]
    rw [hp]
    simp only [axesOf, PLOT_ORDERINGS, List.zipIdx_cons, List.zipIdx_nil, List.map_cons,
      List.map_nil, quantities, Nat.zero_add, Nat.reduceAdd]
    rw [h0 _ _ (by decide), h0 _ _ (by decide), h0 _ _ (by decide), h0 _ _ (by decide), h4,
      h0 _ _ (by decide), h0 _ _ (by decide), h0 _ _ (by decide)]
    rfl

example (a b : St) := plot_marks [.derivs true true 0 90 7 (some [])] { hide_roots := false }
  ⟨[(0, a), (1, b)], 2, some (1/2, a), some [(0, a), (1, b)]⟩

/-- **The scales and legends**: whatever was plotted before, the density is on a logarithmic
axis, `v_θ` on the one asked for and has the legend, the others are linear. -/
theorem plot_scales (history : List Op) (o : Opts) (s : Soln) :
    (generate_plot o s (after history)).1.map (fun ax => (ax.scale, ax.legend)) =
      [("linear", false), ("linear", false), ("linear", false), ("linear", false),
       ("linear", false), (o.v_θ_scale, true), ("log", false), ("linear", false)] := by
  rw [plot_eq (good_after history)]
  cases hE : o.use_E_r with
  | false =>
    have hp : (plotArgs o s).ordering = .B_φ_prime := by simp [plotArgs, hE]
    rw [hp]; rfl
  | true =>
    have hp : (plotArgs o s).ordering = .E_r := by simp [plotArgs, hE]
    rw [hp]; rfl

example (a b : St) := plot_scales [.derivs true true 0 90 7 (some [])]
  { v_θ_scale := "log" } ⟨[(0, a), (1, b)], 2, none, none⟩

/-! ## Vertical plot -/

theorem zip_idx {α β : Type} (rows : List α) (ss : List β) (k : ℕ → ℝ) (h : β → ℝ)
    (p : α → Bool) (f g : α → ℝ) (n : ℕ) (hl : rows.length = ss.length)
    (hk : ∀ i (hi : i < ss.length), k (n + i) = h ss[i]) :
    ((rows.zipIdx n).filter fun x => p x.1).map (fun x => (f x.1, g x.1 - k x.2)) =
      ((rows.zip ss).filter fun x => p x.1).map fun x => (f x.1, g x.1 - h x.2) := by
  induction rows generalizing n ss with
  | nil => rfl
  | cons a l ih =>
    cases ss with
    | nil => simp at hl
    | cons b m =>
      have h0 : k n = h b := hk 0 (by simp)
      have := ih m (n + 1) (by simpa using hl) fun i hi => by
        have := hk (i + 1) (by simpa using hi)
        simpa [Nat.add_assoc, Nat.add_comm 1 i] using this
      by_cases ha : p a <;> simp [ha, this, h0]

theorem vertArgs_ordering (o : VertOpts) (k : ℝ) (off : Option (ℕ → ℝ)) :
    ({ ordering := if o.use_E_r then .E_r_vert else .B_φ_prime_vert, kepler := k,
       v_φ_offset := off } : CommonArgs).ordering = .E_r_vert ∨
    ({ ordering := if o.use_E_r then .E_r_vert else .B_φ_prime_vert, kepler := k,
       v_φ_offset := off } : CommonArgs).ordering = .B_φ_prime_vert := by
  cases o.use_E_r <;> simp

/-- The lines added to the vertical plot. -/
noncomputable def vertExtras (o : VertOpts) (rows : List (ℝ × CylSt)) : List Extra :=
  if o.with_sonic then [⟨"sound", rows.map fun _ => 1⟩] else []

theorem vert_eq {c : Common} (h : Good c) (o : VertOpts) (s : Soln) (K : ℝ)
    {rows : List (ℝ × CylSt)} (hr : vertRows o s = .ok rows) :
    (generate_vert_plot o s K c).1 = .ok (axesOf
      (PLOT_ORDERINGS (if o.use_E_r then .E_r_vert else .B_φ_prime_vert))
      (cylSpec (vertOffset o s K) (vertExtras o rows)) (vertAxis o rows)) := by
  simp only [generate_vert_plot, hr]
  congr 1
  refine axesOf_congr fun q hq i => ?_
  rw [get_params] at hq ⊢
  have ho := vertArgs_ordering o s.kepler (some (vertOffset o s K))
  rw [cyl_settings h _ ho (vertOffset o s K) rfl _ q (cyl_no_v_θ ho q hq)]
  rfl

theorem vertRows_length {o : VertOpts} {s : Soln} {rows : List (ℝ × CylSt)}
    (hr : vertRows o s = .ok rows) : rows.length = s.rows.length := by
  unfold vertRows at hr
  generalize s.rows = l at hr
  induction l generalizing rows with
  | nil => cases hr; rfl
  | cons a l ih =>
    rw [List.mapM_cons] at hr
    rcases h1 : convert_spherical_to_cylindrical a.1 a.2 o.use_E_r o.γ o.c_s_on_v_k with e | b
    · rw [h1] at hr; cases hr
    · rw [h1] at hr
      rcases h2 : l.mapM (fun p =>
        convert_spherical_to_cylindrical p.1 p.2 o.use_E_r o.γ o.c_s_on_v_k) with e | m
      · simp only [h2] at hr; cases hr
      · simp only [h2] at hr
        cases hr
        simp [ih h2]

/-- The conversion succeeds exactly in the `B_φ_prime` formulation (an empty solution
aside). -/
theorem vertRows_ok_iff (o : VertOpts) (s : Soln) (hs : s.rows ≠ []) :
    (∃ rows, vertRows o s = .ok rows) ↔ o.use_E_r = false := by
  have conv : ∀ (θ : ℝ) (v : St), o.use_E_r = false → ∃ r,
      convert_spherical_to_cylindrical θ v o.use_E_r o.γ o.c_s_on_v_k = .ok r := by
    intro θ v h
    rw [h]
    exact ⟨_, rfl⟩
  constructor
  · rintro ⟨rows, h⟩
    cases hE : o.use_E_r with
    | false => rfl
    | true =>
      exfalso
      rcases hl : s.rows with _ | ⟨p, l⟩
      · exact hs hl
      · simp only [vertRows, hl, List.mapM_cons, hE, convert_spherical_to_cylindrical] at h
        cases h
  · intro h
    unfold vertRows
    generalize s.rows = l
    induction l with
    | nil => exact ⟨[], rfl⟩
    | cons p l ih =>
      obtain ⟨m, hm⟩ := ih
      obtain ⟨r, hr⟩ := conv p.1 p.2 h
      exact ⟨r :: m, by rw [List.mapM_cons, hr, hm]; rfl⟩

/-- **The vertical plot refuses the electric field formulation**, leaving the shared
settings alone. -/
theorem vert_refuses_E_r (o : VertOpts) (s : Soln) (K : ℝ) (c : Common) (hs : s.rows ≠ [])
    (hE : o.use_E_r = true) : ∃ e, generate_vert_plot o s K c = (.error e, c) := by
  rcases h : vertRows o s with e | rows
  · exact ⟨e, by simp [generate_vert_plot, h]⟩
  · have := (vertRows_ok_iff o s hs).1 ⟨rows, h⟩
    rw [hE] at this
    cases this

example (a : St) := vert_refuses_E_r { use_E_r := true, γ := 1 / 100, c_s_on_v_k := 1 / 10 }
  ⟨[(0, a)], 2, none, none⟩ 1
  COMMON_ARGUMENTS (by simp) rfl

open Classical in
/-- **The figure of the vertical plot, axis by axis**: quantity `i` of the converted rows
whose height is in the range; the azimuthal velocity relative to the Keplerian velocity of
the same row, whatever was plotted before. -/
theorem vert_shows (history : List Op) (o : VertOpts) (s : Soln) (K : ℝ)
    (rows : List (ℝ × CylSt)) (hr : vertRows o s = .ok rows) :
    ∃ axes, (generate_vert_plot o s K (after history)).1 = .ok axes ∧
      axes.map (fun ax => (ax.ylabel, ax.curves.head?.map (·.points))) =
        (vertQuantities o.use_E_r K o.c_s_on_v_k).map fun q =>
          (q.1, some (((rows.zip s.rows).filter fun x =>
            decide (o.start ≤ x.1.1 ∧ x.1.1 ≤ o.stop)).map fun x =>
              (x.1.1, q.2 x.1.2 x.2.1))) := by
  refine ⟨_, vert_eq (good_after history) o s K hr, ?_⟩
  have hlen := vertRows_length hr
  have h4 : inRange o.start o.stop (rows.map (·.1)) (minusOffset
      (cylSpec (vertOffset o s K) (vertExtras o rows) .v_φ)
        (rows.map fun p => cylCol 4 p.2)) =
      ((rows.zip s.rows).filter fun x => decide (o.start ≤ x.1.1 ∧ x.1.1 ≤ o.stop)).map
        fun x => (x.1.1, cylCol 4 x.1.2 -
          Real.sqrt (K / get_vertical_scaling x.2.1 o.c_s_on_v_k)) := by
    rw [points_offset o.start o.stop rows (·.1) (fun p => cylCol 4 p.2) _
      (vertOffset o s K) (by simp [cylSpec])]
    exact zip_idx rows s.rows (vertOffset o s K)
      (fun p => Real.sqrt (K / get_vertical_scaling p.1 o.c_s_on_v_k))
      (fun p => decide (o.start ≤ p.1 ∧ p.1 ≤ o.stop)) (·.1) (fun p => cylCol 4 p.2) 0 hlen
      fun i hi => by simp [vertOffset, hi]
  have h0 : ∀ (q : Param) (i : ℕ), q ≠ .v_φ → inRange o.start o.stop (rows.map (·.1))
      (minusOffset (cylSpec (vertOffset o s K) (vertExtras o rows) q)
        (rows.map fun p => cylCol i p.2)) =
      ((rows.zip s.rows).filter fun x => decide (o.start ≤ x.1.1 ∧ x.1.1 ≤ o.stop)).map
        fun x => (x.1.1, cylCol i x.1.2) := by
    intro q i hq
    rw [points_offset o.start o.stop rows (·.1) (fun p => cylCol i p.2) _
      (fun _ => 0) (by simp [cylSpec, hq])]
    simpa using zip_idx rows s.rows (fun _ => 0) (fun _ => 0)
      (fun p => decide (o.start ≤ p.1 ∧ p.1 ≤ o.stop)) (·.1) (fun p => cylCol i p.2) 0 hlen
      fun i hi => rfl
  cases hE : o.use_E_r with
  | false =>
    simp [axesOf, PLOT_ORDERINGS, vertAxis, vertQuantities, h4, h0]
    simp [cylSpec, COMMON_ARGUMENTS, cylCol]
  | true =>
    simp [axesOf, PLOT_ORDERINGS, vertAxis, vertQuantities, h4, h0]
    simp [cylSpec, COMMON_ARGUMENTS, cylCol]

example (a b : St) := vert_shows [.plot { with_slow := true } ⟨[(0, b)], 3, none, none⟩]
  { γ := 1 / 10, c_s_on_v_k := 3 / 100 } ⟨[(0, a), (1, b)], 2, none, none⟩ 5 _
  ((vertRows_ok_iff { γ := 1 / 10, c_s_on_v_k := 3 / 100 } ⟨[(0, a), (1, b)], 2, none, none⟩
    (by simp)).2 rfl).choose_spec

/-- **The scales of the vertical plot**: only the density is on a logarithmic axis, even after
a plot that asked for one for `v_θ`; only `v_z` has a legend. -/
theorem vert_scales (history : List Op) (o : VertOpts) (s : Soln) (K : ℝ)
    (rows : List (ℝ × CylSt)) (hr : vertRows o s = .ok rows) :
    ∃ axes, (generate_vert_plot o s K (after history)).1 = .ok axes ∧
      axes.map (fun ax => (ax.scale, ax.legend)) =
      [("linear", false), ("linear", false), ("linear", false), ("linear", false),
       ("linear", false), ("linear", true), ("log", false), ("linear", false)] := by
  refine ⟨_, vert_eq (good_after history) o s K hr, ?_⟩
  cases hE : o.use_E_r <;> rfl

example (a b : St) := vert_scales [.plot { v_θ_scale := "log" } ⟨[(0, b)], 3, none, none⟩]
  { γ := 1 / 10, c_s_on_v_k := 3 / 100 } ⟨[(0, a), (1, b)], 2, none, none⟩ 5 _
  ((vertRows_ok_iff { γ := 1 / 10, c_s_on_v_k := 3 / 100 } ⟨[(0, a), (1, b)], 2, none, none⟩
    (by simp)).2 rfl).choose_spec

/-! ## Plots of the internal data -/

/-- The points of a plot with a logarithmic scale, positive values first. -/
theorem log_curves_points (points : List (ℝ × ℝ)) :
    ∃ pos neg : Curve, logCurves points = [pos, neg] ∧
      (∀ p, p ∈ pos.points ↔ p ∈ points ∧ 0 ≤ p.2) ∧
      (∀ p, p ∈ neg.points ↔ (p.1, -p.2) ∈ points ∧ 0 < p.2) ∧
      pos.points.length + neg.points.length = points.length := by
  classical
  refine ⟨_, _, rfl, fun p => by simp, fun p => ?_, ?_⟩
  · simp only [List.mem_map, List.mem_filter]
    constructor
    · rintro ⟨q, ⟨hq, hn⟩, rfl⟩
      simp at hn
      exact ⟨by simpa using hq, by simpa using hn⟩
    · rintro ⟨h, hp⟩
      exact ⟨(p.1, -p.2), ⟨h, by simpa using hp⟩, by simp⟩
  · simp only [List.length_map]
    have := List.length_eq_length_filter_add (l := points) (fun p => decide (0 ≤ p.2))
    omega

theorem internal_eq {c : Common} (h : Good c) (a : CommonArgs) (start stop : ℝ)
    (nolog : Bool) (rows : List (ℝ × St)) :
    axesOf (get_common_arguments a c).1 (get_common_arguments a c).2
        (internalAxis start stop nolog rows) =
      axesOf (PLOT_ORDERINGS a.ordering) COMMON_ARGUMENTS
        (internalAxis start stop nolog rows) :=
  axesOf_congr fun q hq i => by
    have := (good_get h a).name q
    simp only [internalAxis, this]

/-- The curves of one quantity: split by sign, unless the scale is to be linear. -/
noncomputable def internalCurves (nolog : Bool) (points : List (ℝ × ℝ)) : List Curve :=
  if nolog then [{ points := points }] else logCurves points

theorem internal_axes (useE : Bool) (start stop : ℝ) (nolog : Bool) (rows : List (ℝ × St)) :
    (axesOf (PLOT_ORDERINGS (if useE then .E_r else .B_φ_prime)) COMMON_ARGUMENTS
        (internalAxis start stop nolog rows)).map
          (fun ax => (ax.ylabel, ax.scale, ax.legend, ax.curves)) =
      (quantities useE 0).map fun q =>
        (q.1, (if nolog then "linear" else "log"), false, internalCurves nolog (graph q.2 (between start stop rows))) := by
  have hc : ∀ i, inRange start stop (rows.map fun p => ValidatePlot.degrees p.1)
      (rows.map fun p => col i p.2) = graph (col i) (between start stop rows) := fun i =>
    points_plain start stop rows (fun p => ValidatePlot.degrees p.1) fun p => col i p.2
  cases useE <;>
  · simp only [axesOf, PLOT_ORDERINGS, internalAxis, hc, quantities, internalCurves, sub_zero,
      List.zipIdx_cons, List.zipIdx_nil, List.map_cons, List.map_nil, if_true,
      Bool.false_eq_true, if_false]
    rfl

/-- **The figure of the parameters**: refused with the electric field and without internal
data; otherwise every axis shows the parameter it names, with no offset, for exactly the
rows in range. -/
theorem params_shows (history : List Op) (useE : Bool) (start stop kepler : ℝ)
    (internal : Option (List (ℝ × St))) :
    (useE = true ∨ internal = none →
      (generate_params_plot useE start stop kepler internal (after history)).1 =
        .error .AnalysisError) ∧
    ∀ rows, useE = false → internal = some rows →
      ∃ axes, (generate_params_plot useE start stop kepler internal (after history)).1 =
        .ok axes ∧ axes.map (fun ax => (ax.ylabel, ax.scale, ax.legend, ax.curves)) =
          (quantities false 0).map fun q =>
            (q.1, "log", false, logCurves (graph q.2 (between start stop rows))) := by
  refine ⟨fun h => ?_, fun rows h1 h2 => ?_⟩
  · cases useE <;> cases internal <;> simp_all [generate_params_plot]
  · subst h1 h2
    refine ⟨_, ?_, internal_axes false start stop false rows⟩
    simp only [generate_params_plot, Bool.false_eq_true, if_false]
    rw [internal_eq (good_after history)]

example (a : St) := (params_shows [] false 0 90 33 (some [(0, a)])).2 _ rfl rfl

/-- The title of the azimuthal velocity announces a difference to the Keplerian velocity,
but in the figure of the parameters it is the velocity itself: the quantity announced
differs from the one shown by that velocity. -/
theorem params_title_wrong (history : List Op) (start stop kepler : ℝ) (hk : kepler ≠ 0)
    (rows : List (ℝ × St)) (hr : between start stop rows ≠ []) :
    ∃ axes ax c, (generate_params_plot false start stop kepler (some rows)
        (after history)).1 = .ok axes ∧ axes[4]? = some ax ∧ logCurves c = ax.curves ∧
      ax.ylabel = "$(v_φ - v_k)/c_s$" ∧
      c = graph (fun s => s.v_φ) (between start stop rows) ∧
      c ≠ graph (fun s => s.v_φ - kepler) (between start stop rows) := by
  obtain ⟨axes, h1, h2⟩ := (params_shows history false start stop kepler (some rows)).2 rows
    rfl rfl
  have h3 := congrArg (fun l => l[4]?) h2
  simp only [List.getElem?_map] at h3
  rcases h4 : axes[4]? with _ | ax
  · rw [h4] at h3; simp [quantities] at h3
  · rw [h4] at h3
    simp [quantities] at h3
    refine ⟨axes, ax, _, h1, h4, h3.2.2.2.symm, h3.1, rfl, ?_⟩
    rcases hb : between start stop rows with _ | ⟨p, l⟩
    · exact absurd hb hr
    · simp only [graph, List.map_cons]
      intro hc
      injection hc with hc
      injection hc with _ hc
      exact hk (by linarith)

example (a : St) := params_title_wrong [] 0 90 33 (by norm_num) [(0, a)]
  (by simp [between, ValidatePlot.degrees])

/-- **The figure of the derivatives.** -/
theorem derivs_shows (history : List Op) (useE nolog : Bool) (start stop kepler : ℝ)
    (rows : List (ℝ × St)) :
    (generate_derivs_plot useE nolog start stop kepler none (after history)).1 =
        .error .AnalysisError ∧
    ∃ axes, (generate_derivs_plot useE nolog start stop kepler (some rows)
        (after history)).1 = .ok axes ∧
      axes.map (fun ax => (ax.ylabel, ax.scale, ax.legend, ax.curves)) =
          (quantities useE 0).map fun q =>
            (q.1, (if nolog then "linear" else "log"), false, internalCurves nolog (graph q.2 (between start stop rows))) := by
  refine ⟨rfl, _, ?_, internal_axes useE start stop nolog rows⟩
  simp only [generate_derivs_plot]
  rw [internal_eq (good_after history)]

example (a : St) := derivs_shows [.plot { with_slow := true } ⟨[(0, a)], 3, none, none⟩]
  true false 0 90 33 [(0, a)]

/-! ## Several solutions -/

/-- **There are always enough colours.** -/
theorem enough_colors (P : Palettes) (n : ℕ) : n ≤ (distinct_color_map P n).length := by
  have h1 := P.size10
  have h2 := P.size20
  have h3 := P.sizeLight
  have h4 := P.sizeMedium
  have h5 := P.sizeGreys (n - (10 + 10 + 10))
  simp only [distinct_color_map, List.length_append, h1, h2, h3, h4]
  split
  · omega
  · split
    · omega
    · split
      · simp only [List.length_append]; omega
      · simp only [List.length_append]; omega

/-- Exactly how many there are. -/
theorem number_of_colors (P : Palettes) (n : ℕ) : (distinct_color_map P n).length =
    if n ≤ 10 then 10 else if n ≤ 20 then 20 else if n ≤ 30 then 30 else n := by
  have h1 := P.size10
  have h2 := P.size20
  have h3 := P.sizeLight
  have h4 := P.sizeMedium
  have h5 := P.sizeGreys (n - (10 + 10 + 10))
  simp only [distinct_color_map, List.length_append, h1, h2, h3, h4]
  split
  · exact h1
  · split
    · exact h2
    · split
      · simp only [List.length_append]; omega
      · simp only [List.length_append]; omega

/-- Palettes of the right sizes. -/
def greyPalettes : Palettes where
  tab10 := List.replicate 10 "a"
  tab20 := List.replicate 20 "b"
  light10 := List.replicate 10 "c"
  medium10 := List.replicate 10 "d"
  greys n := List.replicate n "grey"
  size10 := rfl
  size20 := rfl
  sizeLight := rfl
  sizeMedium := rfl
  sizeGreys n := by simp

example : (distinct_color_map greyPalettes 31).length = 31 := number_of_colors greyPalettes 31

/-- The name and solution of a pair, if there is one. -/
def found {α σ : Type} (load : α → Except PyErr (Option σ)) (name : α → String) (a : α) :
    Option (String × σ) :=
  match load a with
  | .ok (some s) => some (name a, s)
  | _ => none

/-- What the loader yields when nothing fails: the solutions found, in order. -/
theorem loader_ok {α σ : Type} (load : α → Except PyErr (Option σ)) (name : α → String)
    (pairs : List α) (h : ∀ a ∈ pairs, ∃ r, load a = .ok r) :
    solutionLoader load name pairs =
      (pairs.filterMap (found load name), none) := by
  induction pairs with
  | nil => rfl
  | cons a l ih =>
    obtain ⟨r, hr⟩ := h a (by simp)
    have := ih fun b hb => h b (by simp [hb])
    cases r with
    | none => simp [solutionLoader, hr, this, found]
    | some s => simp [solutionLoader, hr, this, found]

theorem loader_length {α σ : Type} (load : α → Except PyErr (Option σ)) (name : α → String)
    (pairs : List α) : (solutionLoader load name pairs).1.length ≤ pairs.length := by
  induction pairs with
  | nil => simp [solutionLoader]
  | cons a l ih =>
    rcases h : load a with e | r
    · simp [solutionLoader, h]
    · cases r with
      | none => simp only [solutionLoader, h, List.length_cons]; omega
      | some s => simp only [solutionLoader, h, List.length_cons]; omega

/-- The names and curves of the axes of one solution in the comparison. -/
def shown (axes : List Axis) : List (String × List (Option String × List (ℝ × ℝ))) :=
  axes.map fun ax => (ax.ylabel, ax.curves.map fun c => (c.label, c.points))

theorem compareLoop_shows (o : Opts) (l : List ((String × Soln) × String)) {c : Common}
    (h : Good c) : (compareLoop o l c).1.map shown = l.map fun x =>
      (quantities o.use_E_r x.1.2.kepler).map fun q =>
        (q.1, [(some x.1.1, graph q.2 (between o.start o.stop x.1.2.rows))]) := by
  induction l generalizing c with
  | nil => rfl
  | cons x l ih =>
    obtain ⟨⟨name, s⟩, color⟩ := x
    simp only [compareLoop, List.map_cons]
    rw [ih (good_get h _)]
    congr 1
    have h1 : axesOf (get_common_arguments (plotArgs o s) c).1
        (get_common_arguments (plotArgs o s) c).2 (compareAxis o name s color) =
        axesOf (PLOT_ORDERINGS (plotArgs o s).ordering) (sphSpec (plotArgs o s) [])
          (compareAxis o name s color) :=
      axesOf_congr fun q hq i => by
        rw [get_params] at hq
        rw [← sph_settings h (plotArgs o s) (plotArgs_ordering o s) rfl rfl [] q
          (sph_no_v_z (plotArgs_ordering o s) q hq)]
        rfl
    rw [h1]
    have hc : ∀ (st : Settings) (i : ℕ) (k : ℝ),
        (st.offset.getD fun _ => 0) = (fun _ => k) →
        inRange o.start o.stop s.degrees (minusOffset st (s.rows.map fun p => col i p.2)) =
        graph (fun v => col i v - k) (between o.start o.stop s.rows) := fun st i k hk =>
      points_const o.start o.stop s.rows (fun p => ValidatePlot.degrees p.1) _ _ k hk
    have h4 := hc (sphSpec (plotArgs o s) [] .v_φ) 4 s.kepler (by simp [sphSpec, plotArgs])
    have h0 : ∀ (q : Param) (i : ℕ), q ≠ .v_φ →
        inRange o.start o.stop s.degrees (minusOffset
          (sphSpec (plotArgs o s) [] q) (s.rows.map fun p => col i p.2)) =
        graph (fun v => col i v) (between o.start o.stop s.rows) := fun q i hq => by
      rw [hc _ i 0 (by simp [sphSpec, hq])]
      simp
    cases hE : o.use_E_r with
    | false =>
      have hp : (plotArgs o s).ordering = .B_φ_prime := by simp [plotArgs, hE]
      simp [shown, axesOf, PLOT_ORDERINGS, compareAxis, quantities, hp, h4, h0]
      simp [sphSpec, COMMON_ARGUMENTS, col]
    | true =>
      have hp : (plotArgs o s).ordering = .E_r := by simp [plotArgs, hE]
      simp [shown, axesOf, PLOT_ORDERINGS, compareAxis, quantities, hp, h4, h0]
      simp [sphSpec, COMMON_ARGUMENTS, col]

theorem compareLoop_style (o : Opts) (l : List ((String × Soln) × String)) {c : Common}
    (h : Good c) :
    (compareLoop o l c).1.map (fun axes => axes.map fun ax =>
        (ax.scale, ax.legend, ax.curves.map (·.color))) = l.map fun x =>
      ["linear", "linear", "linear", "linear", "linear", o.v_θ_scale, "log", "linear"].map
        fun scale => (scale, false, [some x.2]) := by
  induction l generalizing c with
  | nil => rfl
  | cons x l ih =>
    obtain ⟨⟨name, s⟩, color⟩ := x
    simp only [compareLoop, List.map_cons]
    rw [ih (good_get h _)]
    congr 1
    have h1 : axesOf (get_common_arguments (plotArgs o s) c).1
        (get_common_arguments (plotArgs o s) c).2 (compareAxis o name s color) =
        axesOf (PLOT_ORDERINGS (plotArgs o s).ordering) (sphSpec (plotArgs o s) [])
          (compareAxis o name s color) :=
      axesOf_congr fun q hq i => by
        rw [get_params] at hq
        rw [← sph_settings h (plotArgs o s) (plotArgs_ordering o s) rfl rfl [] q
          (sph_no_v_z (plotArgs_ordering o s) q hq)]
        rfl
    rw [h1]
    cases hE : o.use_E_r with
    | false =>
      have hp : (plotArgs o s).ordering = .B_φ_prime := by simp [plotArgs, hE]
      rw [hp]; rfl
    | true =>
      have hp : (plotArgs o s).ordering = .E_r := by simp [plotArgs, hE]
      rw [hp]; rfl

theorem map_fst_zip {α β : Type} (l : List α) (m : List β) (h : l.length ≤ m.length) :
    (l.zip m).map (·.1) = l := by
  induction l generalizing m with
  | nil => rfl
  | cons a l ih =>
    cases m with
    | nil => simp at h
    | cons b m => simp [ih m (by simpa using h)]

/-- **A comparison draws every solution that was found, in order, each relative to its own
Keplerian velocity**; solutions not found are left out, and nothing else. -/
theorem compare_shows_all {α : Type} (history : List Op) (P : Palettes) (o : Opts)
    (load : α → Except PyErr (Option Soln)) (name : α → String) (pairs : List α)
    (h : ∀ a ∈ pairs, ∃ r, load a = .ok r) :
    ∃ axes, (generate_compare_plot P o load name pairs (after history)).1 = .ok axes ∧
      axes.map shown = (pairs.filterMap (found load name)).map fun x =>
        (quantities o.use_E_r x.2.kepler).map fun q =>
          (q.1, [(some x.1, graph q.2 (between o.start o.stop x.2.rows))]) := by
  have hl := loader_ok load name pairs h
  have hlen := loader_length load name pairs
  have hcol := enough_colors P pairs.length
  simp only [generate_compare_plot, zipColors, hl] at hlen ⊢
  simp only [ite_self]
  refine ⟨_, rfl, ?_⟩
  rw [compareLoop_shows o _ (good_after history)]
  conv_rhs => rw [← map_fst_zip (pairs.filterMap (found load name))
    (distinct_color_map P pairs.length) (by omega)]
  rw [List.map_map]
  rfl

/-- **Each solution of a comparison has its own entry of the palette**, the same on every
axis, the scales are those of a plot of one solution, and no axis has a legend of its own
(the figure has one). -/
theorem compare_style {α : Type} (history : List Op) (P : Palettes) (o : Opts)
    (load : α → Except PyErr (Option Soln)) (name : α → String) (pairs : List α)
    (h : ∀ a ∈ pairs, ∃ r, load a = .ok r) :
    ∃ axes, (generate_compare_plot P o load name pairs (after history)).1 = .ok axes ∧
      axes.length = (pairs.filterMap (found load name)).length ∧
      ∀ (i : ℕ) (one : List Axis), axes[i]? = some one →
        ∃ color, (distinct_color_map P pairs.length)[i]? = some color ∧
          one.map (fun ax => (ax.scale, ax.legend, ax.curves.map (·.color))) =
          ["linear", "linear", "linear", "linear", "linear", o.v_θ_scale, "log", "linear"].map
            fun scale => (scale, false, [some color]) := by
  have hl := loader_ok load name pairs h
  have hlen := loader_length load name pairs
  have hcol := enough_colors P pairs.length
  simp only [generate_compare_plot, zipColors, hl] at hlen ⊢
  simp only [ite_self]
  have hs := compareLoop_style o ((pairs.filterMap (found load name)).zip
    (distinct_color_map P pairs.length)) (good_after history)
  refine ⟨_, rfl, ?_, fun i one hi => ?_⟩
  · have := congrArg List.length hs
    simp only [List.length_map, List.length_zip] at this
    omega
  · have := congrArg (fun (x : List (List (String × Bool × List (Option String)))) => x[i]?) hs
    simp only [List.getElem?_map, hi, Option.map_some] at this
    obtain ⟨x, hx, hx'⟩ := Option.map_eq_some_iff.1 this.symm
    refine ⟨x.2, ?_, hx'.symm⟩
    rw [List.getElem?_zip_eq_some] at hx
    exact hx.2

example (s : Soln) := compare_style [] greyPalettes { v_θ_scale := "log" }
  (fun i : ℕ => .ok (if i = 1 then none else some s)) (fun i => toString i) [0, 1, 2]
  (fun _ _ => ⟨_, rfl⟩)

/-- **A solution that cannot be loaded ends the comparison**, even if others could be
drawn. -/
theorem compare_error {α : Type} (P : Palettes) (o : Opts)
    (load : α → Except PyErr (Option Soln)) (name : α → String) (pre : List α) (a : α)
    (post : List α) (e : PyErr) (h : ∀ b ∈ pre, ∃ r, load b = .ok r)
    (ha : load a = .error e) (c : Common) :
    (generate_compare_plot P o load name (pre ++ a :: post) c).1 = .error e := by
  have h2 : (solutionLoader load name (pre ++ a :: post)).2 = some e := by
    induction pre with
    | nil => simp [solutionLoader, ha]
    | cons b l ih =>
      obtain ⟨r, hr⟩ := h b (by simp)
      have := ih fun x hx => h x (by simp [hx])
      cases r with
      | none => simp [solutionLoader, hr, this]
      | some s => simp [solutionLoader, hr, this]
  have hlen := loader_length load name (pre ++ a :: post)
  have hcol := enough_colors P (pre ++ a :: post).length
  simp only [generate_compare_plot, zipColors]
  rw [if_pos (by omega), h2]

/-- Three pairs: one found, one missing, one that raises. -/
example (s : Soln) : (∃ axes, (generate_compare_plot greyPalettes {}
      (fun n : ℕ => if n = 0 then .ok (some s) else if n = 1 then .ok none
        else .error .KeyError) (fun _ => "run") [0, 1] (after [])).1 = .ok axes ∧
      axes.length = 1) ∧
    (generate_compare_plot greyPalettes {}
      (fun n : ℕ => if n = 0 then .ok (some s) else if n = 1 then .ok none
        else .error .KeyError) (fun _ => "run") [0, 1, 2] (after [])).1 =
      .error .KeyError := by
  constructor
  · obtain ⟨axes, h1, h2⟩ := compare_shows_all [] greyPalettes {}
      (fun n : ℕ => if n = 0 then .ok (some s) else if n = 1 then .ok none
        else .error .KeyError) (fun _ => "run") [0, 1] (by simp)
    exact ⟨axes, h1, by simpa [found] using congrArg List.length h2⟩
  · exact compare_error greyPalettes {} _ (fun _ => "run") [0, 1] 2 [] .KeyError
      (by simp) (by simp) (after [])

/-- **`ds-conserve` and `ds-diverge` draw every solution.** -/
theorem conserve_shows_all (P : Palettes) (start stop : ℝ)
    (solutions : List (String × Soln)) :
    (conserveCurves P start stop solutions).map (fun c => (c.label, c.points)) =
      solutions.map fun x =>
        (some x.1, graph (fun v => v.ρ * v.v_θ) (between start stop x.2.rows)) := by
  have hcol := enough_colors P solutions.length
  simp only [conserveCurves, List.map_map, Function.comp_def]
  have := map_fst_zip solutions (distinct_color_map P solutions.length) hcol
  conv_rhs => rw [← this]
  rw [List.map_map]
  refine List.map_congr_left fun x _ => ?_
  simp only [Function.comp]
  congr 1
  exact points_plain start stop x.1.2.rows (fun p => ValidatePlot.degrees p.1) _

/-- **What `ds-diverge` draws**: for each solution in turn its latitudinal velocity under its
own name, followed by exactly the wave speeds asked for (each the square root of the speed
squared which `Waves` proves to be that of the linear waves), all in its own colour. -/
theorem diverge_shows_all (P : Palettes) (o : Opts) (solutions : List (String × Soln)) :
    let wave := fun (asked : Bool) (label : String) (f : St → ℝ) (x : String × Soln) =>
      if asked then [(some label, graph f (between o.start o.stop x.2.rows))] else []
    (divergeCurves P o solutions).map (fun c => (c.label, c.points)) =
      solutions.flatMap (fun x =>
        (some x.1, graph (fun v => v.v_θ) (between o.start o.stop x.2.rows)) ::
        (wave o.with_slow "slow" (fun v => Real.sqrt (mhd_wave_speeds v 1).slow) x ++
         wave o.with_alfven "alfven" (fun v => Real.sqrt (mhd_wave_speeds v 1).alfven) x ++
         wave o.with_fast "fast" (fun v => Real.sqrt (mhd_wave_speeds v 1).fast) x)) := by
  intro wave
  have hcol := enough_colors P solutions.length
  have := map_fst_zip solutions (distinct_color_map P solutions.length) hcol
  conv_rhs => rw [← this]
  rw [divergeCurves, List.map_flatMap, List.flatMap_map]
  refine List.flatMap_congr fun p _ => ?_
  have hp := fun f => points_plain o.start o.stop p.1.2.rows
    (fun p => ValidatePlot.degrees p.1) f
  simp only [List.map_append, List.map_cons, List.map_nil, apply_ite (List.map _), wave,
    List.cons_append, List.nil_append]
  simp only [Soln.degrees, hp, List.append_assoc]
  rfl

example (s : Soln) := diverge_shows_all greyPalettes { with_slow := true } [("run", s)]

/-- **The colours of `ds-diverge`**: every curve of a solution has that solution's entry of
the palette. -/
theorem diverge_colors (P : Palettes) (o : Opts) (solutions : List (String × Soln)) :
    (divergeCurves P o solutions).map (·.color) =
      (solutions.zip (distinct_color_map P solutions.length)).flatMap (fun p =>
        List.replicate (1 + [o.with_slow, o.with_alfven, o.with_fast].count true)
          (some p.2)) := by
  rw [divergeCurves, List.map_flatMap]
  refine List.flatMap_congr fun p _ => ?_
  cases o.with_slow <;> cases o.with_alfven <;> cases o.with_fast <;> rfl

/-! ## The figures do not depend on what was plotted before -/

/-- **History independence**: whatever was plotted before in the process, each figure is
the one a fresh process draws. -/
theorem figures_independent (history : List Op) :
    (∀ o s, (generate_plot o s (after history)).1 = (generate_plot o s COMMON_ARGUMENTS).1) ∧
    (∀ o s K, (generate_vert_plot o s K (after history)).1 =
      (generate_vert_plot o s K COMMON_ARGUMENTS).1) ∧
    (∀ e a b k i, (generate_params_plot e a b k i (after history)).1 =
      (generate_params_plot e a b k i COMMON_ARGUMENTS).1) ∧
    (∀ e n a b k i, (generate_derivs_plot e n a b k i (after history)).1 =
      (generate_derivs_plot e n a b k i COMMON_ARGUMENTS).1) := by
  have h := good_after history
  have h0 := good_init
  refine ⟨fun o s => by rw [plot_eq h, plot_eq h0], fun o s K => ?_, fun e a b k i => ?_,
    fun e n a b k i => ?_⟩
  · rcases hr : vertRows o s with e | rows
    · simp [generate_vert_plot, hr]
    · rw [vert_eq h o s K hr, vert_eq h0 o s K hr]
  · cases e <;> cases i <;> simp [generate_params_plot, internal_eq h, internal_eq h0]
  · cases i <;> simp [generate_derivs_plot, internal_eq h, internal_eq h0]

/-- After a figure that added curves to the shared arguments. -/
example (a b : St) := figures_independent [.plot { with_slow := true, v_θ_scale := "log" }
  ⟨[(0, a), (1, b)], 2, none, none⟩, .derivs true true 0 90 7 (some [(0, a)])]

/-- **The settings themselves do depend on history**: asked for no offset, the function
still returns the offset of an earlier plot. -/
theorem stale_offset (s : Soln) : ∃ history a,
    a.no_v_φ_offset = true ∧ a.v_φ_offset = none ∧
    ((get_common_arguments a COMMON_ARGUMENTS).2 .v_φ).offset = none ∧
    ((get_common_arguments a (after history)).2 .v_φ).offset = some fun _ => s.kepler := by
  refine ⟨[.plot {} s], { ordering := .B_φ_prime, kepler := 0, no_v_φ_offset := true },
    rfl, rfl, ?_, ?_⟩
  · rw [get_sph _ _ (Or.inr rfl)]; simp [COMMON_ARGUMENTS]
  · rw [get_sph _ _ (Or.inr rfl)]
    have := sph_settings good_init (plotArgs {} s) (plotArgs_ordering {} s) rfl rfl
      (speedExtras {} s) .v_φ (by simp)
    have h2 : after [.plot {} s] .v_φ = sphSpec (plotArgs {} s) (speedExtras {} s) .v_φ := this
    simp [h2, sphSpec, plotArgs]

end DiscSolver.Plots
