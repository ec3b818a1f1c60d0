import Verif.Model.StatsValues
import Verif.Props.Stats
import Verif.Props.Info
import Verif.Props.Acceptance
import Mathlib.Data.List.ReduceOption

/-!
# C92: the maxima and judgements `ds-stats` reports
-/

namespace DiscSolver.Stats

open ValidatePlot (degrees)

/-! ## Specification -/

/-- The speeds the Mach numbers are relative to. -/
inductive Wave where
  | slow
  | sonic
  | alfven
  | fast
deriving DecidableEq

/-- The square of the speed across the disc, in units of the sound speed: the slow and fast
speeds are the roots of the dispersion relation (`wave_dispersion`). -/
noncomputable def Wave.speedSq : Wave → St → ℝ
  | .slow, s => (vA2 s + 1 - Real.sqrt ((vA2 s + 1) ^ 2 - 4 * vAn2 s)) / 2
  | .sonic, _ => 1
  | .alfven, s => vAn2 s
  | .fast, s => (vA2 s + 1 + Real.sqrt ((vA2 s + 1) ^ 2 - 4 * vAn2 s)) / 2

/-- The Mach number of a row. -/
noncomputable def Wave.mach (w : Wave) (p : ℝ × St) : ℝ :=
  |p.2.v_θ| / Real.sqrt (w.speedSq p.2)

/-- The name of a wave in the columns. -/
def Wave.name : Wave → String
  | .slow => "slow"
  | .sonic => "sonic"
  | .alfven => "alfven"
  | .fast => "fast"

/-- `p` is the first row at which `f` has its greatest value. -/
def FirstGreatest (f : ℝ × St → ℝ) (rows : List (ℝ × St)) (p : ℝ × St) : Prop :=
  ∃ i : ℕ, rows[i]? = some p ∧ (∀ q ∈ rows, f q ≤ f p) ∧
    ∀ (j : ℕ) (q : ℝ × St), j < i → rows[j]? = some q → f q < f p

/-- The vertical velocity at the foot radius. -/
noncomputable def jet_v_z (c : ℝ) (p : ℝ × St) : ℝ :=
  (p.2.v_θ * Real.cos p.1 + p.2.v_r * Real.sin p.1) /
    Real.sqrt (Real.sqrt (1 + (Real.tan p.1 / c) ^ 2))

/-- The ratio of the toroidal to the poloidal field. -/
noncomputable def toroidal_on_poloidal (p : ℝ × St) : ℝ :=
  p.2.B_φ / Real.sqrt (p.2.B_r ^ 2 + p.2.B_θ ^ 2)

/-- The column of a row of output which has this name holds `v`. -/
def Holds (row : List Value) (name : String) (v : Value) : Prop :=
  ∃ i : ℕ, FIELD_NAMES[i]? = some name ∧ row[i]? = some v

/-- A finite number. -/
noncomputable def number (x : ℝ) : Value := .num (some (x : EReal))

/-! ## Largest values -/

/-- The entry of this wave. -/
def Wave.get : Wave → MachRow → Ext
  | .slow => (·.slow)
  | .sonic => (·.sonic)
  | .alfven => (·.alfven)
  | .fast => (·.fast)

theorem foldl_max_spec {α : Type} [LinearOrder α] (l : List α) (x : α) :
    l.foldl max x ∈ x :: l ∧ ∀ y ∈ x :: l, y ≤ l.foldl max x := by
  induction l generalizing x with
  | nil => simp
  | cons z l ih =>
    rw [List.foldl_cons]
    obtain ⟨h1, h2⟩ := ih (max x z)
    constructor
    · rcases List.mem_cons.1 h1 with h1 | h1
      · rw [h1]
        rcases max_choice x z with h | h <;> rw [h] <;> simp
      · simp [h1]
    · intro y hy
      rcases List.mem_cons.1 hy with rfl | hy
      · exact (le_max_left y z).trans (h2 _ (by simp))
      · rcases List.mem_cons.1 hy with rfl | hy
        · exact (le_max_right x y).trans (h2 _ (by simp))
        · exact h2 y (by simp [hy])

theorem argmax_spec (l : List EReal) (hne : l ≠ []) :
    ∃ x, l[argmax l]? = some x ∧ (∀ y ∈ l, y ≤ x) ∧
      ∀ j y, j < argmax l → l[j]? = some y → y < x := by
  obtain ⟨h1, h2⟩ := foldl_max_spec l ⊥
  obtain ⟨x₀, hx₀, hle⟩ : ∃ x ∈ l, l.foldl max ⊥ ≤ x := by
    rcases List.mem_cons.1 h1 with h | h
    · obtain ⟨x, hx⟩ := List.exists_mem_of_ne_nil l hne
      exact ⟨x, hx, by rw [h]; exact bot_le⟩
    · exact ⟨_, h, le_rfl⟩
  have hlt : argmax l < l.length :=
    List.findIdx_lt_length_of_exists ⟨x₀, hx₀, by simpa using hle⟩
  have hp : l.foldl max ⊥ ≤ l[argmax l] := by
    have := List.findIdx_getElem (w := hlt)
    exact of_decide_eq_true this
  refine ⟨l[argmax l], List.getElem?_eq_getElem hlt,
    fun y hy => (h2 y (by simp [hy])).trans hp, ?_⟩
  intro j y hj hy
  obtain ⟨hjl, e⟩ := List.getElem?_eq_some_iff.1 hy
  have := not_le.1 (of_decide_eq_false (by simpa using List.not_of_lt_findIdx hj))
  rw [e] at this
  exact this.trans_le hp

/-- The largest of values with a NaN here and there, and the first position it is met. -/
theorem nan_max_spec (l : List Ext) (h : ∃ x, x ≠ ⊥ ∧ some x ∈ l) :
    ∃ (i : ℕ) (m : EReal), nanmax l = .ok (some m) ∧ nanargmax l = .ok i ∧ l[i]? = some (some m) ∧
      (∀ x, some x ∈ l → x ≤ m) ∧ ∀ j x, j < i → l[j]? = some (some x) → x < m := by
  obtain ⟨x₀, hb, hx₀⟩ := h
  have hall : l.all (·.isNone) = false := by
    rw [List.all_eq_false]
    exact ⟨_, hx₀, by simp⟩
  obtain ⟨a, l', rfl⟩ : ∃ a l', l = a :: l' := by
    cases l with
    | nil => simp at hx₀
    | cons a l' => exact ⟨a, l', rfl⟩
  have hmem : x₀ ∈ (a :: l').reduceOption := List.reduceOption_mem_iff.2 hx₀
  rcases hr : (a :: l').reduceOption with _ | ⟨x, r⟩
  · rw [hr] at hmem
    simp at hmem
  obtain ⟨m1, m2⟩ := foldl_max_spec r x
  rw [← hr] at m1 m2
  obtain ⟨y, hy, y1, y2⟩ := argmax_spec ((a :: l').map fun x => x.getD ⊥) (by simp)
  set i := argmax ((a :: l').map fun x => x.getD ⊥) with hi
  have hget : ∀ z, some z ∈ a :: l' → z ≤ y := fun z hz =>
    y1 z (List.mem_map.2 ⟨some z, hz, rfl⟩)
  have hyb : y ≠ ⊥ := fun e => hb (le_bot_iff.1 (e ▸ hget x₀ hx₀))
  have hli : (a :: l')[i]? = some (some y) := by
    rw [List.getElem?_map] at hy
    rcases hz : (a :: l')[i]? with _ | z
    · rw [hz] at hy; cases hy
    · rw [hz] at hy
      cases z with
      | none => exact absurd (by simpa using hy.symm) hyb
      | some z => simpa using hy
  have hym : r.foldl max x = y := by
    apply le_antisymm
    · exact hget _ (List.reduceOption_mem_iff.1 m1)
    · exact m2 y (List.reduceOption_mem_iff.2 (List.mem_of_getElem? hli))
  refine ⟨i, y, ?_, ?_, hli, hget, ?_⟩
  · simp only [nanmax, hr, hym]
  · rw [nanargmax, hall]
    simp [hi]
  · intro j z hj hz
    exact y2 j z hj (by rw [List.getElem?_map, hz]; rfl)

/-- No Mach number is `-inf`. -/
theorem mach_ne_bot (w : Wave) (s : St) : w.get (machRow s) ≠ some ⊥ := by
  have h : ∀ a b : ℝ, machExt a b ≠ some ⊥ := by
    intro a b
    unfold machExt
    split
    · split <;> simp
    · split
      · simp
      · simp
  unfold machRow
  split
  · cases w <;> simp [Wave.get]
  · split
    · cases w <;> simp only [Wave.get, ne_eq]
      · simp
      · simp
      · split <;> simp
      · simp
    · cases w <;> simp [Wave.get, h]

/-- C92: for every solution with a Mach number the reported value is the greatest there is,
and the angle reported beside it that of the first row which has it. -/
theorem max_mach_any (w : Wave) (rows : List (ℝ × St))
    (h : ∃ p ∈ rows, w.get (machRow p.2) ≠ none) :
    ∃ (i : ℕ) (p : ℝ × St) (m : EReal), rows[i]? = some p ∧ w.get (machRow p.2) = some m ∧
      (∀ q ∈ rows, ∀ x, w.get (machRow q.2) = some x → x ≤ m) ∧
      (∀ j q x, j < i → rows[j]? = some q → w.get (machRow q.2) = some x → x < m) ∧
      maxMach w.get rows = .ok (some m, some (degrees p.1)) := by
  obtain ⟨p₀, hp₀, hne⟩ := h
  obtain ⟨x₀, hx₀⟩ := Option.ne_none_iff_exists'.1 hne
  obtain ⟨i, m, e1, e2, e3, e4, e5⟩ := nan_max_spec (rows.map fun p => w.get (machRow p.2))
    ⟨x₀, fun e => mach_ne_bot w p₀.2 (e ▸ hx₀), List.mem_map.2 ⟨p₀, hp₀, hx₀⟩⟩
  rw [List.getElem?_map] at e3
  rcases hr : rows[i]? with _ | p
  · rw [hr] at e3; cases e3
  rw [hr] at e3
  refine ⟨i, p, m, hr, by simpa using e3, ?_, ?_, ?_⟩
  · intro q hq x hx
    exact e4 x (List.mem_map.2 ⟨q, hq, hx⟩)
  · intro j q x hj hq hx
    exact e5 j x hj (by rw [List.getElem?_map, hq]; simpa using hx)
  · have ha : (rows.map (·.1))[i]? = some p.1 := by rw [List.getElem?_map, hr]; rfl
    simp only [maxMach, e1, get_max_mach_degrees, e2, ha]

/-- C92: a solution without any Mach number of a kind is reported as NaN, twice. -/
theorem max_mach_nan (w : Wave) (rows : List (ℝ × St)) (hne : rows ≠ [])
    (h : ∀ p ∈ rows, w.get (machRow p.2) = none) :
    maxMach w.get rows = .ok (none, none) := by
  obtain ⟨a, l, rfl⟩ := List.exists_cons_of_ne_nil hne
  have h1 : ((a :: l).map fun p => w.get (machRow p.2)).reduceOption = [] := by
    rw [List.eq_nil_iff_forall_not_mem]
    intro x hx
    obtain ⟨p, hp, e⟩ := List.mem_map.1 (List.reduceOption_mem_iff.1 hx)
    rw [h p hp] at e
    cases e
  have h2 : (((a :: l).map fun p => w.get (machRow p.2)).all (·.isNone)) = true := by
    rw [List.all_eq_true]
    intro x hx
    obtain ⟨p, hp, e⟩ := List.mem_map.1 hx
    rw [← e, h p hp]
    rfl
  have h3 : nanmax ((a :: l).map fun p => w.get (machRow p.2)) = .ok none := by
    rw [List.map_cons] at h1 ⊢
    simp only [nanmax, h1]
  simp only [maxMach, h3, get_max_mach_degrees, nanargmax, h2, if_true]

/-- C92: without a vertical field a moving row is infinitely faster than the slow and the
Alfvén wave, and this is what is reported. -/
theorem mach_no_vertical_field (s : St) (hρ : 0 < s.ρ) (hB : s.B_r ^ 2 + s.B_φ ^ 2 ≠ 0)
    (hθ : s.B_θ = 0) (hv : s.v_θ ≠ 0) :
    (machRow s).slow = some ⊤ ∧ (machRow s).alfven = some ⊤ := by
  have hB' : s.B_r ^ 2 + s.B_φ ^ 2 + s.B_θ ^ 2 ≠ 0 := by rw [hθ]; simpa using hB
  have hpos : 0 ≤ (s.B_r ^ 2 + s.B_φ ^ 2 + s.B_θ ^ 2) / (4 * Real.pi * s.ρ) + 1 := by
    have := Real.pi_pos
    positivity
  have h1 : (mhd_wave_speeds s 1).slow = 0 := by
    simp only [mhd_wave_speeds]
    rw [hθ] at hpos ⊢
    simp only [one_pow, ne_eq, OfNat.ofNat_ne_zero, not_false_eq_true, zero_pow, zero_div,
      mul_zero, sub_zero] at hpos ⊢
    rw [Real.sqrt_sq hpos]
    ring
  have h2 : (mhd_wave_speeds s 1).alfven = 0 := by
    simp [mhd_wave_speeds, hθ]
  unfold machRow
  rw [if_neg hB', if_neg hρ.ne']
  simp [h1, h2, machExt, hv]

/-! ## A solution with matter and a vertical field -/

theorem speeds_good {s : St} (h : GoodRow s) :
    (mhd_wave_speeds s 1).slow = Wave.slow.speedSq s ∧
    (mhd_wave_speeds s 1).alfven = Wave.alfven.speedSq s ∧
    (mhd_wave_speeds s 1).fast = Wave.fast.speedSq s := by
  have hB := h.B_ne
  have hc : 4 * ((s.B_r ^ 2 + s.B_φ ^ 2 + s.B_θ ^ 2) / (4 * Real.pi * s.ρ)) * 1 ^ 2 *
      (s.B_θ ^ 2 / (s.B_r ^ 2 + s.B_φ ^ 2 + s.B_θ ^ 2)) = 4 * vAn2 s := by
    have := Real.pi_pos
    have := h.1
    unfold vAn2
    field_simp
  refine ⟨?_, alfven_eq s 1 h.1 hB, ?_⟩
  · simp only [mhd_wave_speeds, hc, Wave.speedSq, vA2]
    ring_nf
  · simp only [mhd_wave_speeds, hc, Wave.speedSq, vA2]
    ring_nf

theorem speedSq_pos {s : St} (h : GoodRow s) (w : Wave) : 0 < w.speedSq s := by
  obtain ⟨w', h1, h2, h3, -, -⟩ := good_machs h
  obtain ⟨e1, e2, e3⟩ := speeds_good h
  have hal : 0 < vAn2 s := by
    have := Real.pi_pos
    have h1 := h.1
    have : 0 < s.B_θ ^ 2 := by have := h.2.1; positivity
    unfold vAn2
    positivity
  obtain ⟨-, o2, o3, o4, o5, o6⟩ := wave_order s 1 h.1 h.B_ne
  have hfast : 0 < (mhd_wave_speeds s 1).fast := by linarith
  cases w with
  | slow =>
    have hd := wave_dispersion s 1 h.1 h.B_ne 0
    rw [← e1]
    have : (mhd_wave_speeds s 1).slow * (mhd_wave_speeds s 1).fast = vAn2 s := by
      linear_combination hd
    by_contra hn
    nlinarith [mul_nonneg (neg_nonneg.2 (le_of_not_gt hn)) hfast.le]
  | sonic => exact one_pos
  | alfven => exact hal
  | fast => rw [← e3]; exact hfast

theorem machRow_good {s : St} (h : GoodRow s) (w : Wave) (θ : ℝ) :
    w.get (machRow s) = some ((w.mach (θ, s) : ℝ) : EReal) := by
  obtain ⟨e1, e2, e3⟩ := speeds_good h
  have key : ∀ w : Wave, machExt (s.v_θ ^ 2) (w.speedSq s) =
      some ((w.mach (θ, s) : ℝ) : EReal) := by
    intro w
    have hp := speedSq_pos h w
    unfold machExt
    rw [if_neg hp.ne', if_neg (by have := sq_nonneg s.v_θ; have := div_nonneg this hp.le; linarith)]
    rw [Real.sqrt_div (sq_nonneg _), Real.sqrt_sq_eq_abs]
    rfl
  unfold machRow
  rw [if_neg h.B_ne, if_neg h.1.ne']
  cases w with
  | slow => simp only [Wave.get, e1]; exact key _
  | sonic => simp [Wave.get, Wave.mach, Wave.speedSq, abs_of_nonneg h.2.2]
  | alfven => simp only [Wave.get, e2]; exact key _
  | fast => simp only [Wave.get, e3]; exact key _

theorem max_mach_good (w : Wave) (rows : List (ℝ × St)) (hne : rows ≠ [])
    (hg : ∀ p ∈ rows, GoodRow p.2) :
    ∃ p, FirstGreatest w.mach rows p ∧
      maxMach w.get rows = .ok (some ((w.mach p : ℝ) : EReal), some (degrees p.1)) := by
  obtain ⟨a, ha⟩ := List.exists_mem_of_ne_nil rows hne
  obtain ⟨i, p, m, h1, h2, h3, h4, h5⟩ := max_mach_any w rows
    ⟨a, ha, by rw [machRow_good (hg a ha) w a.1]; simp⟩
  have hp := List.mem_of_getElem? h1
  have hm : m = ((w.mach p : ℝ) : EReal) := by
    rw [machRow_good (hg p hp) w p.1] at h2
    exact (Option.some.inj h2).symm
  subst hm
  refine ⟨p, ⟨i, h1, ?_, ?_⟩, h5⟩
  · intro q hq
    have := h3 q hq _ (machRow_good (hg q hq) w q.1)
    exact EReal.coe_le_coe_iff.1 this
  · intro j q hj hq
    have := h4 j q _ hj hq (machRow_good (hg q (List.mem_of_getElem? hq)) w q.1)
    exact EReal.coe_lt_coe_iff.1 this

/-! ## Judgements -/

/-- C92: `v_θ_starts_monotonic` is true exactly if, of two rows not beyond twenty degrees,
the later never has the smaller `v_θ`. -/
theorem starts_monotonic (d : ℝ) (rows : List (ℝ × St)) :
    is_v_θ_monotonic d rows = true ↔
      ∀ (i j : ℕ) (p q : ℝ × St), i < j → rows[i]? = some p → rows[j]? = some q →
        degrees p.1 ≤ d → degrees q.1 ≤ d → p.2.v_θ ≤ q.2.v_θ := by
  classical
  unfold is_v_θ_monotonic
  rw [Stepper.sorted_iff, List.pairwise_map, List.pairwise_filter]
  rw [List.pairwise_iff_getElem]
  constructor
  · intro h i j p q hij hp hq h1 h2
    obtain ⟨hi, rfl⟩ := List.getElem?_eq_some_iff.1 hp
    obtain ⟨hj, rfl⟩ := List.getElem?_eq_some_iff.1 hq
    exact h i j hi hj hij (by simpa using h1) (by simpa using h2)
  · intro h i j hi hj hij h1 h2
    exact h i j _ _ hij (List.getElem?_eq_getElem hi) (List.getElem?_eq_getElem hj)
      (by simpa using h1) (by simpa using h2)

/-- C92: `v_θ_ends_low` is true exactly if `v_θ` of the last row is not above the cutoff. -/
theorem ends_low (cutoff : ℝ) (rows : List (ℝ × St)) (p : ℝ × St) :
    does_v_θ_end_low cutoff (rows ++ [p]) = .ok true ↔ p.2.v_θ ≤ cutoff := by
  simp [does_v_θ_end_low]

theorem max_angle (rows : List (ℝ × St)) (hne : rows ≠ []) :
    ∃ p ∈ rows, (∀ q ∈ rows, degrees q.1 ≤ degrees p.1) ∧
      max_angle_reached rows = .ok (degrees p.1) := by
  obtain ⟨a, l, rfl⟩ := List.exists_cons_of_ne_nil hne
  have hm : maxOf ((a :: l).map (·.1)) = .ok ((l.map (·.1)).foldl max a.1) := rfl
  obtain ⟨h1, h2⟩ := maxOf_spec _ _ hm
  obtain ⟨p, hp, e⟩ := List.mem_map.1 h1
  refine ⟨p, hp, ?_, ?_⟩
  · intro q hq
    have := h2 q.1 (List.mem_map_of_mem hq)
    rw [← e] at this
    have hpi := Real.pi_pos
    unfold degrees
    gcongr
  · rw [max_angle_reached, hm, ← e]

/-! ## The ratio of the fields -/

theorem pyMax_finite (f : ℝ × St → ℝ) (a : ℝ × St) (l : List (ℝ × St)) :
    ∃ p ∈ a :: l, (∀ q ∈ a :: l, f q ≤ f p) ∧
      pyMax ((a :: l).map fun q => some ((f q : ℝ) : EReal)) = .ok (some ((f p : ℝ) : EReal)) := by
  have key : ∀ (l : List (ℝ × St)) (a : ℝ × St), ∃ p ∈ a :: l, (∀ q ∈ a :: l, f q ≤ f p) ∧
      (l.map fun q => some ((f q : ℝ) : EReal)).foldl
        (fun m y => if extGt y m then y else m) (some ((f a : ℝ) : EReal)) =
        some ((f p : ℝ) : EReal) := by
    intro l
    induction l with
    | nil => intro a; exact ⟨a, by simp, by simp, rfl⟩
    | cons b l ih =>
      intro a
      rw [List.map_cons, List.foldl_cons]
      by_cases hlt : f a < f b
      · have : extGt (some ((f b : ℝ) : EReal)) (some ((f a : ℝ) : EReal)) = true := by
          simpa [extGt] using hlt
        rw [if_pos this]
        obtain ⟨p, hp, h1, h2⟩ := ih b
        refine ⟨p, by simp [hp], ?_, h2⟩
        intro q hq
        rcases List.mem_cons.1 hq with rfl | hq
        · exact hlt.le.trans (h1 b (by simp))
        · exact h1 q hq
      · have : ¬ extGt (some ((f b : ℝ) : EReal)) (some ((f a : ℝ) : EReal)) = true := by
          simpa [extGt] using hlt
        rw [if_neg this]
        obtain ⟨p, hp, h1, h2⟩ := ih a
        refine ⟨p, ?_, ?_, h2⟩
        · rcases List.mem_cons.1 hp with rfl | hp <;> simp [*]
        · intro q hq
          rcases List.mem_cons.1 hq with rfl | hq
          · exact h1 q (by simp)
          · rcases List.mem_cons.1 hq with rfl | hq
            · exact (not_lt.1 hlt).trans (h1 a (by simp))
            · exact h1 q (by simp [hq])
  obtain ⟨p, hp, h1, h2⟩ := key l a
  exact ⟨p, hp, h1, by rw [List.map_cons, pyMax, h2]⟩

theorem poloidal_pos {s : St} (h : s.B_r ≠ 0 ∨ s.B_θ ≠ 0) :
    0 < Real.sqrt (s.B_r ^ 2 + s.B_θ ^ 2) := by
  apply Real.sqrt_pos.2
  rcases h with h | h
  · have : 0 < s.B_r ^ 2 := by positivity
    nlinarith [sq_nonneg s.B_θ]
  · have : 0 < s.B_θ ^ 2 := by positivity
    nlinarith [sq_nonneg s.B_r]

theorem max_B (rows : List (ℝ × St)) (hne : rows ≠ [])
    (h : ∀ p ∈ rows, p.2.B_r ≠ 0 ∨ p.2.B_θ ≠ 0) :
    ∃ p ∈ rows, (∀ q ∈ rows, toroidal_on_poloidal q ≤ toroidal_on_poloidal p) ∧
      max_B_p_on_B_t rows = .ok (some ((toroidal_on_poloidal p : ℝ) : EReal)) := by
  obtain ⟨a, l, rfl⟩ := List.exists_cons_of_ne_nil hne
  obtain ⟨p, hp, h1, h2⟩ := pyMax_finite toroidal_on_poloidal a l
  refine ⟨p, hp, h1, ?_⟩
  rw [← h2, max_B_p_on_B_t]
  congr 1
  apply List.map_congr_left
  intro q hq
  rw [extDiv, if_neg (poloidal_pos (h q hq)).ne']
  rfl

/-- C92 is false for `max_B_p_on_B_t`: in a solution whose toroidal field starts from zero at
the midplane and is nowhere positive, zero is reported, however strong that field is. -/
theorem max_B_hides (a : ℝ × St) (l : List (ℝ × St)) (h0 : a.2.B_φ = 0)
    (hneg : ∀ p ∈ l, p.2.B_φ ≤ 0) (h : ∀ p ∈ a :: l, p.2.B_r ≠ 0 ∨ p.2.B_θ ≠ 0) :
    max_B_p_on_B_t (a :: l) = .ok (some 0) := by
  obtain ⟨p, hp, h1, h2⟩ := max_B (a :: l) (by simp) h
  have ha : toroidal_on_poloidal a = 0 := by simp [toroidal_on_poloidal, h0]
  have hle : toroidal_on_poloidal p ≤ 0 := by
    rcases List.mem_cons.1 hp with rfl | hp'
    · exact ha.le
    · exact div_nonpos_of_nonpos_of_nonneg (hneg p hp') (Real.sqrt_nonneg _)
  have hge := h1 a (by simp)
  rw [ha] at hge
  rw [h2, le_antisymm hle hge]
  rfl

/-- C92 is false for `max_B_p_on_B_t`: the number is the ratio of the toroidal to the
poloidal field, so for a single row it is the ratio its name promises only where the two
fields are equally strong. -/
theorem max_B_inverted (p : ℝ × St) (hφ : 0 < p.2.B_φ) (h : p.2.B_r ≠ 0 ∨ p.2.B_θ ≠ 0) :
    max_B_p_on_B_t [p] =
        .ok (some ((Real.sqrt (p.2.B_r ^ 2 + p.2.B_θ ^ 2) / p.2.B_φ : ℝ) : EReal)) ↔
      Real.sqrt (p.2.B_r ^ 2 + p.2.B_θ ^ 2) = p.2.B_φ := by
  obtain ⟨q, hq, -, h2⟩ := max_B [p] (by simp) (by simpa using h)
  obtain rfl : q = p := by simpa using hq
  rw [h2]
  have hpos := poloidal_pos h
  simp only [Except.ok.injEq, Option.some.injEq, EReal.coe_eq_coe_iff, toroidal_on_poloidal]
  rw [div_eq_div_iff hpos.ne' hφ.ne']
  constructor
  · intro e
    nlinarith [mul_self_eq_mul_self_iff.1 (show q.2.B_φ * q.2.B_φ =
      Real.sqrt (q.2.B_r ^ 2 + q.2.B_θ ^ 2) * Real.sqrt (q.2.B_r ^ 2 + q.2.B_θ ^ 2) by linarith)
      |>.resolve_right (by intro e'; linarith)]
  · intro e
    rw [e]

/-! ## The jet -/

theorem mapM_ok {α β ε : Type} (g : α → β) (f : α → Except ε β) (l : List α)
    (h : ∀ a ∈ l, f a = .ok (g a)) : l.mapM f = .ok (l.map g) := by
  induction l with
  | nil => rfl
  | cons a l ih =>
    rw [List.mapM_cons, h a (by simp), ih fun b hb => h b (by simp [hb])]
    rfl

theorem convert_v_z (γ c : ℝ) (p : ℝ × St) :
    ∃ t : CylSt, convert_spherical_to_cylindrical p.1 p.2 false γ c =
      .ok (Real.tan p.1 / c, t) ∧ t.v_z = jet_v_z c p := by
  refine ⟨_, rfl, ?_⟩
  simp only [spherical_r_θ_to_cylindrical_R_z, get_vertical_scaling, get_heights, jet_v_z]
  ring

/-- C92: the greatest vertical velocity and the height of the first row which has it. -/
theorem max_jet (γ c : ℝ) (rows : List (ℝ × St)) (hne : rows ≠ []) :
    ∃ p, FirstGreatest (jet_v_z c) rows p ∧
      compute_max_vert_jet_velocity γ c rows = .ok [("max_jet_v_z", number (jet_v_z c p)),
        ("max_jet_v_z_height", number (Real.tan p.1 / c))] := by
  choose t ht hv using convert_v_z γ c
  have hm : (rows.mapM fun p => convert_spherical_to_cylindrical p.1 p.2 false γ c) =
      .ok (rows.map fun p => (Real.tan p.1 / c, t p)) := by
    apply mapM_ok
    intro p _
    exact ht p
  obtain ⟨a, ha⟩ := List.exists_mem_of_ne_nil rows hne
  have hl : (rows.map fun p => (Real.tan p.1 / c, t p)).map
      (fun q => (some ((q.2.v_z : ℝ) : EReal) : Ext)) =
      rows.map fun p => some ((jet_v_z c p : ℝ) : EReal) := by
    rw [List.map_map]
    apply List.map_congr_left
    intro p _
    simp [hv]
  obtain ⟨i, m, -, e2, e3, e4, e5⟩ := nan_max_spec
    (rows.map fun p => some ((jet_v_z c p : ℝ) : EReal))
    ⟨_, EReal.coe_ne_bot _, List.mem_map.2 ⟨a, ha, rfl⟩⟩
  rw [List.getElem?_map] at e3
  rcases hr : rows[i]? with _ | p
  · rw [hr] at e3; cases e3
  rw [hr] at e3
  have hmp : m = ((jet_v_z c p : ℝ) : EReal) := by simpa using e3.symm
  subst hmp
  refine ⟨p, ⟨i, hr, ?_, ?_⟩, ?_⟩
  · intro q hq
    exact EReal.coe_le_coe_iff.1 (e4 _ (List.mem_map.2 ⟨q, hq, rfl⟩))
  · intro j q hj hq
    exact EReal.coe_lt_coe_iff.1 (e5 j _ hj (by rw [List.getElem?_map, hq]; rfl))
  · have hp : (rows.map fun p => (Real.tan p.1 / c, t p))[i]? =
        some (Real.tan p.1 / c, t p) := by rw [List.getElem?_map, hr]; rfl
    simp only [compute_max_vert_jet_velocity, hm, hl, e2, hp]
    simp [Value.ofFlt, number, hv]

/-! ## The whole row -/

theorem sonic_point_good (unknown : List (ℝ × St) → Except PyErr (Option ℝ)) (w : Wave)
    (a : ℝ × St) (l : List (ℝ × St)) (h0 : a.2.v_θ = 0)
    (hg : ∀ p ∈ a :: l, GoodRow p.2) :
    ∃ r, sonicPoint unknown w.get (a :: l) = .ok r ∧
      sonic_angle ((a :: l).map (·.1)) ((a :: l).map w.mach) = .ok r ∧
      (r ≠ none ↔ ∃ p ∈ a :: l, 1 < w.mach p) := by
  have hf : ∀ x : ℝ, Ext.finite? (some (x : EReal)) = some x := by
    intro x
    simp [Ext.finite?]
  have hm : ((a :: l).mapM fun p => (w.get (machRow p.2)).finite?) =
      some ((a :: l).map w.mach) := by
    generalize a :: l = rows at hg
    induction rows with
    | nil => rfl
    | cons b l ih =>
      rw [List.mapM_cons, machRow_good (hg b (by simp)) w b.1, hf,
        ih fun p hp => hg p (by simp [hp])]
      rfl
  obtain ⟨r, h1, h2⟩ := Info.sonic_angle_found ((a :: l).map (·.1)) (w.mach a) (l.map w.mach)
    (by simp) (by simp [Wave.mach, h0])
  refine ⟨r, ?_, h1, ?_⟩
  · rw [sonicPoint, hm]
    exact h1
  · rw [h2]
    simp

theorem max_diff_ok (check : ValidatePlot.Cons → ValidatePlot.Row → ℝ) (c : ValidatePlot.Cons)
    (rows : List ValidatePlot.Row) (hne : rows ≠ []) :
    ∃ r ∈ rows, (∀ q ∈ rows, check c q ≤ check c r) ∧ max_diff check c rows = .ok (check c r) := by
  obtain ⟨a, l, rfl⟩ := List.exists_cons_of_ne_nil hne
  have hm : max_diff check c (a :: l) = .ok ((l.map (check c)).foldl max (check c a)) := rfl
  obtain ⟨h1, h2⟩ := maxOf_spec _ _ hm
  obtain ⟨p, hp, e⟩ := List.mem_map.1 h1
  exact ⟨p, hp, fun q hq => e ▸ h2 _ (List.mem_map_of_mem hq), by rw [hm, ← e]⟩

/-- C92: a solution that starts at rest, with matter and a vertical field in every row, gets a
row of output.  Its columns hold, for each of the four waves, the greatest Mach number and the
angle in degrees of the first row that has it, and the angle in radians interpolated for the
crossing, which is there exactly if the wave is overtaken; the greatest vertical velocity and
the height of the first row that has it; the greatest angle reached, in degrees; whether the
velocity never falls within twenty degrees; whether it ends not above ten; the inputs and the
names.  Under `max_B_p_on_B_t` is the greatest ratio of toroidal to poloidal field. -/
theorem reported_partial (simps : List (ℝ × ℝ) → ℝ)
    (unknown : List (ℝ × St) → Except PyErr (Option ℝ)) (filename name : String)
    (s : StatsSoln) (a : ℝ × St) (l : List (ℝ × St)) (hrows : s.rows = a :: l)
    (h0 : a.2.v_θ = 0) (hg : ∀ p ∈ s.rows, GoodRow p.2) (hc : s.compared ≠ []) :
    ∃ row, statsRow (statsEnv simps unknown) filename name s = .ok row ∧
      (∀ w : Wave, ∃ p, FirstGreatest w.mach s.rows p ∧
        Holds row ("max_" ++ w.name ++ "_mach") (number (w.mach p)) ∧
        Holds row ("max_" ++ w.name ++ "_mach_angle_degrees") (number (degrees p.1))) ∧
      (∀ w : Wave, ∃ r, sonic_angle (s.rows.map (·.1)) (s.rows.map w.mach) = .ok r ∧
        (r ≠ none ↔ ∃ p ∈ s.rows, 1 < w.mach p) ∧
        Holds row (w.name ++ "_sonic_point") (.ofOption r)) ∧
      (∃ p, FirstGreatest (jet_v_z s.c_s_on_v_k) s.rows p ∧
        Holds row "max_jet_v_z" (number (jet_v_z s.c_s_on_v_k p)) ∧
        Holds row "max_jet_v_z_height" (number (Real.tan p.1 / s.c_s_on_v_k))) ∧
      (∃ p ∈ s.rows, (∀ q ∈ s.rows, degrees q.1 ≤ degrees p.1) ∧
        Holds row "max_angle_reached_degrees" (number (degrees p.1))) ∧
      (∃ b, Holds row "v_θ_starts_monotonic" (.bool b) ∧ (b = true ↔
        ∀ (i j : ℕ) (p q : ℝ × St), i < j → s.rows[i]? = some p → s.rows[j]? = some q →
          degrees p.1 ≤ 20 → degrees q.1 ≤ 20 → p.2.v_θ ≤ q.2.v_θ)) ∧
      (∃ b p, Holds row "v_θ_ends_low" (.bool b) ∧ s.rows.getLast? = some p ∧
        (b = true ↔ p.2.v_θ ≤ 10)) ∧
      (∃ p ∈ s.rows, (∀ q ∈ s.rows, toroidal_on_poloidal q ≤ toroidal_on_poloidal p) ∧
        Holds row "max_B_p_on_B_t" (number (toroidal_on_poloidal p))) ∧
      (∀ f : SField, Holds row f.name (s.input f)) ∧
      Holds row "filename" (.str filename) ∧ Holds row "solution_name" (.str name) := by
  classical
  have hne : s.rows ≠ [] := by simp [hrows]
  -- the five dictionaries
  choose pm hm1 hm2 using fun w : Wave => max_mach_good w s.rows hne hg
  have hmach : get_max_mach_numbers s.rows = .ok [
      ("max_slow_mach", number (Wave.slow.mach (pm .slow))),
      ("max_slow_mach_angle_degrees", number (degrees (pm .slow).1)),
      ("max_sonic_mach", number (Wave.sonic.mach (pm .sonic))),
      ("max_sonic_mach_angle_degrees", number (degrees (pm .sonic).1)),
      ("max_alfven_mach", number (Wave.alfven.mach (pm .alfven))),
      ("max_alfven_mach_angle_degrees", number (degrees (pm .alfven).1)),
      ("max_fast_mach", number (Wave.fast.mach (pm .fast))),
      ("max_fast_mach_angle_degrees", number (degrees (pm .fast).1))] := by
    have e1 := hm2 .slow
    have e2 := hm2 .sonic
    have e3 := hm2 .alfven
    have e4 := hm2 .fast
    simp only [Wave.get] at e1 e2 e3 e4
    simp only [get_max_mach_numbers, e1, e2, e3, e4]
    rfl
  choose rs hs1 hs2 hs3 using fun w : Wave =>
    sonic_point_good unknown w a l h0 (hrows ▸ hg)
  have hsonic : labelled_get_all_sonic_points unknown s.rows = .ok [
      ("slow_sonic_point", .ofOption (rs .slow)), ("sonic_sonic_point", .ofOption (rs .sonic)),
      ("alfven_sonic_point", .ofOption (rs .alfven)),
      ("fast_sonic_point", .ofOption (rs .fast))] := by
    have e1 := hs1 .slow
    have e2 := hs1 .sonic
    have e3 := hs1 .alfven
    have e4 := hs1 .fast
    simp only [Wave.get] at e1 e2 e3 e4
    rw [hrows]
    simp only [labelled_get_all_sonic_points, e1, e2, e3, e4]
    rfl
  obtain ⟨pj, hj1, hj2⟩ := max_jet s.γ s.c_s_on_v_k s.rows hne
  obtain ⟨pa, ha1, ha2, ha3⟩ := max_angle s.rows hne
  obtain ⟨pb, hb1, hb2, hb3⟩ := max_B s.rows hne fun p hp => Or.inr (hg p hp).2.1
  obtain ⟨z, hz⟩ : ∃ z, s.rows.getLast? = some z :=
    ⟨_, List.getLast?_eq_some_getLast hne⟩
  have hlow : does_v_θ_end_low 10 s.rows = .ok (decide (z.2.v_θ ≤ 10)) := by
    simp only [does_v_θ_end_low, hz]
  obtain ⟨out, hout⟩ : ∃ x, compute_M_dot_out_on_M_dot_in simps s.cons.γ (1 / 10) 100 s.rows =
      .ok x := by
    simp only [compute_M_dot_out_on_M_dot_in, compute_M_dot_out, hz]
    exact ⟨_, rfl⟩
  have hsing : singluar_stats simps s.cons.γ s.rows = .ok [
      ("M_dot_out_on_M_dot_in", number out), ("Σ", number (compute_Sigma s.rows)),
      ("max_B_p_on_B_t", number (toroidal_on_poloidal pb)),
      ("max_angle_reached_degrees", number (degrees pa.1)),
      ("v_θ_starts_monotonic", .bool (is_v_θ_monotonic 20 s.rows)),
      ("v_θ_ends_low", .bool (decide (z.2.v_θ ≤ 10)))] := by
    simp only [singluar_stats, hout, hb3, ha3, hlow]
    rfl
  have hdiff : ∃ d, compute_max_difference_in_equations s.cons s.compared = .ok d := by
    have key := fun check => max_diff_ok check s.cons s.compared hc
    choose r _ _ hr using key
    simp only [compute_max_difference_in_equations, hr]
    exact ⟨_, rfl⟩
  obtain ⟨dd, hdiff⟩ := hdiff
  -- the row
  obtain ⟨g, hgd⟩ : ∃ g : List String → String → Value, ∀ keys ∈ statsKeys,
      (statsEnv simps unknown).values keys s = .ok (g keys) := by
    refine ⟨fun keys => asFunction (match (if keys = machKeys then get_max_mach_numbers s.rows
      else if keys = sonicKeys then labelled_get_all_sonic_points unknown s.rows
      else if keys = singularKeys then singluar_stats simps s.cons.γ s.rows
      else if keys = jetKeys then compute_max_vert_jet_velocity s.γ s.c_s_on_v_k s.rows
      else compute_max_difference_in_equations s.cons s.compared) with
      | .ok d => d | .error _ => []), ?_⟩
    intro keys _
    simp only [statsEnv]
    split_ifs
    · rw [hmach]; rfl
    · rw [hsonic]; rfl
    · rw [hsing]; rfl
    · rw [hj2]; rfl
    · rw [hdiff]; rfl
  obtain ⟨row, hrow, hlen, hcols⟩ := row_complete (statsEnv simps unknown) filename name s g hgd
  have hmem : ∀ k ∈ statsKeys.flatten, k ∈ FIELD_NAMES := by decide +kernel
  have hold : ∀ keys ∈ statsKeys, ∀ k ∈ keys, Holds row k (g keys k) := by
    intro keys hk k hkk
    obtain ⟨i, hi⟩ := List.getElem?_of_mem (hmem k (List.mem_flatten.2 ⟨keys, hk, hkk⟩))
    exact ⟨i, hi, (hcols i k hi).2.1 keys hk hkk⟩
  have gmach : ∀ d, get_max_mach_numbers s.rows = .ok d → g machKeys = asFunction d := by
    intro d hd
    have := hgd machKeys (by simp [statsKeys])
    simp only [statsEnv, if_true, hd, Except.map] at this
    injection this with this
    exact this.symm
  have gsonic : ∀ d, labelled_get_all_sonic_points unknown s.rows = .ok d →
      g sonicKeys = asFunction d := by
    intro d hd
    have := hgd sonicKeys (by simp [statsKeys])
    simp only [statsEnv, if_true, hd, Except.map,
      if_neg (show sonicKeys ≠ machKeys by decide)] at this
    injection this with this
    exact this.symm
  have gsing : ∀ d, singluar_stats simps s.cons.γ s.rows = .ok d →
      g singularKeys = asFunction d := by
    intro d hd
    have := hgd singularKeys (by simp [statsKeys])
    simp only [statsEnv, if_true, hd, Except.map,
      if_neg (show singularKeys ≠ machKeys by decide),
      if_neg (show singularKeys ≠ sonicKeys by decide)] at this
    injection this with this
    exact this.symm
  have gjet : ∀ d, compute_max_vert_jet_velocity s.γ s.c_s_on_v_k s.rows = .ok d →
      g jetKeys = asFunction d := by
    intro d hd
    have := hgd jetKeys (by simp [statsKeys])
    simp only [statsEnv, if_true, hd, Except.map,
      if_neg (show jetKeys ≠ machKeys by decide),
      if_neg (show jetKeys ≠ sonicKeys by decide),
      if_neg (show jetKeys ≠ singularKeys by decide)] at this
    injection this with this
    exact this.symm
  have val : ∀ (keys : List String) (d : Dict String Value) (k : String) (v : Value),
      keys ∈ statsKeys → k ∈ keys → g keys = asFunction d → d.get? k = some v →
      Holds row k v := by
    intro keys d k v h1 h2 h3 h4
    have := hold keys h1 k h2
    rw [h3, asFunction, h4] at this
    exact this
  refine ⟨row, hrow, ?_, ?_, ?_, ?_, ?_, ?_, ?_, ?_, ?_, ?_⟩
  · intro w
    refine ⟨pm w, hm1 w, ?_, ?_⟩
    · cases w <;> exact val machKeys _ _ _ (by simp [statsKeys]) (by decide +kernel) (gmach _ hmach) rfl
    · cases w <;> exact val machKeys _ _ _ (by simp [statsKeys]) (by decide +kernel) (gmach _ hmach) rfl
  · intro w
    refine ⟨rs w, by rw [hrows]; exact hs2 w, by rw [hrows]; exact hs3 w, ?_⟩
    cases w <;> exact val sonicKeys _ _ _ (by simp [statsKeys]) (by decide +kernel) (gsonic _ hsonic) rfl
  · exact ⟨pj, hj1, val jetKeys _ _ _ (by simp [statsKeys]) (by decide +kernel) (gjet _ hj2) rfl,
      val jetKeys _ _ _ (by simp [statsKeys]) (by decide +kernel) (gjet _ hj2) rfl⟩
  · exact ⟨pa, ha1, ha2,
      val singularKeys _ _ _ (by simp [statsKeys]) (by decide +kernel) (gsing _ hsing) rfl⟩
  · exact ⟨_, val singularKeys _ _ _ (by simp [statsKeys]) (by decide +kernel) (gsing _ hsing) rfl,
      starts_monotonic 20 s.rows⟩
  · exact ⟨_, z, val singularKeys _ _ _ (by simp [statsKeys]) (by decide +kernel) (gsing _ hsing) rfl, hz,
      by simp⟩
  · exact ⟨pb, hb1, hb2,
      val singularKeys _ _ _ (by simp [statsKeys]) (by decide +kernel) (gsing _ hsing) rfl⟩
  · intro f
    have hf : f.name ∈ FIELD_NAMES := by cases f <;> decide +kernel
    obtain ⟨i, hi⟩ := List.getElem?_of_mem hf
    exact ⟨i, hi, (hcols i _ hi).1 f rfl⟩
  · obtain ⟨i, hi⟩ := List.getElem?_of_mem (show "filename" ∈ FIELD_NAMES by decide +kernel)
    exact ⟨i, hi, (hcols i _ hi).2.2.1 rfl⟩
  · obtain ⟨i, hi⟩ := List.getElem?_of_mem (show "solution_name" ∈ FIELD_NAMES by decide +kernel)
    exact ⟨i, hi, (hcols i _ hi).2.2.2 rfl⟩

/-! ## Cases -/

/-- A row with a field, matter and the given velocity and toroidal field. -/
def wRow (θ v Bφ : ℝ) : ℝ × St := (θ, ⟨0, Bφ, 1, -1, 10, v, 1, 0, 1, 0, 0⟩)

theorem wRow_good (θ v Bφ : ℝ) (hv : 0 ≤ v) : GoodRow (wRow θ v Bφ).2 := by
  refine ⟨?_, ?_, ?_⟩ <;> simp [wRow, hv]

/-- A solution that moves away from the midplane and bends its field. -/
noncomputable def wSoln : StatsSoln where
  rows := [wRow 0 0 0, wRow (1/10) (1/2) (-3), wRow (1/5) 2 (-7)]
  compared := [⟨0, (wRow 0 0 0).2, (wRow 0 0 0).2⟩]
  cons := ⟨0, 0, 0⟩
  γ := 0
  c_s_on_v_k := 1/20
  input := fun _ => .None

theorem wSoln_good : ∀ p ∈ wSoln.rows, GoodRow p.2 := by
  intro p hp
  simp only [wSoln, List.mem_cons, List.not_mem_nil, or_false] at hp
  rcases hp with rfl | rfl | rfl
  · exact wRow_good _ _ _ (by norm_num)
  · exact wRow_good _ _ _ (by norm_num)
  · exact wRow_good _ _ _ (by norm_num)

example := reported_partial (fun _ => 1) (fun _ => .ok none) "a.hdf5" "0" wSoln _ _ rfl rfl
  wSoln_good (by simp [wSoln])
example := max_B_hides (wRow 0 0 0) [wRow (1/10) (1/2) (-3), wRow (1/5) 2 (-7)] rfl
  (by simp [wRow]) (by simp [wRow])
example := max_B_inverted (wRow 0 0 3) (by simp [wRow]) (Or.inr (by simp [wRow]))
example := max_mach_any .slow wSoln.rows ⟨_, List.mem_cons_self, by
  rw [machRow_good (wSoln_good _ List.mem_cons_self) .slow 0]; simp⟩
example := max_mach_nan .slow [((0 : ℝ), (⟨0, 0, 0, 0, 0, 1, 1, 0, 0, 0, 0⟩ : St))] (by simp)
  (by simp [Wave.get, machRow])
example := mach_no_vertical_field ⟨1, 0, 0, 0, 0, 1, 1, 0, 0, 0, 0⟩ (by norm_num) (by norm_num)
  rfl (by norm_num)
example := max_jet 0 (1/20) wSoln.rows (by simp [wSoln])

end DiscSolver.Stats
