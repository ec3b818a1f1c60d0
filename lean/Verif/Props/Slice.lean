import Mathlib.Tactic.Linarith
import Mathlib.Tactic.Ring
import Verif.Model.Slice
import Verif.Props.Solution

/-!
# C87: which samples the interpolation across the sonic point uses
-/

namespace DiscSolver

namespace PySlice

/-- A bound of a slice of `n` items: negative bounds count from the end, and bounds
beyond the ends are moved to `lo` or `hi`. -/
def bound (n : ℕ) (lo hi : Int) (x : Int) : Int :=
  max lo (min hi (if x < 0 then x + n else x))

/-- The items a slice stands for, by the Python documentation: `i`, `i + k`, `i + 2k` and
so on up to but not including `j`. -/
def Selects (i j k : Int) (p : Int) : Prop :=
  ∃ m : ℕ, p = i + m * k ∧ (if k < 0 then j < p else p < j)

theorem clamp_up (n : ℕ) (x : Int) : clamp n 0 n x = bound n 0 n x := by
  unfold clamp bound
  split <;> omega

theorem clamp_down (n : ℕ) (x : Int) : clamp n (-1) (n - 1) x = bound n (-1) (n - 1) x := by
  unfold clamp bound
  split <;> omega

/-- Counting upwards. -/
theorem count_up (i j k : Int) (hk : 0 < k) (m : ℕ) :
    m < ((j - i + k - 1) / k).toNat ↔ i + m * k < j := by
  rw [Int.lt_toNat]
  constructor
  · intro h
    have h1 : (m : Int) + 1 ≤ (j - i + k - 1) / k := h
    rw [Int.le_ediv_iff_mul_le hk] at h1
    have : ((m : Int) + 1) * k = m * k + k := by ring
    omega
  · intro h
    have : ((m : Int) + 1) ≤ (j - i + k - 1) / k := by
      rw [Int.le_ediv_iff_mul_le hk]
      have : ((m : Int) + 1) * k = m * k + k := by ring
      omega
    omega

theorem count_down (i j k : Int) (hk : k < 0) (m : ℕ) :
    m < ((i - j + (-k) - 1) / (-k)).toNat ↔ j < i + m * k := by
  have h := count_up j i (-k) (by omega) m
  have e : (m : Int) * (-k) = - (m * k) := by ring
  rw [e] at h
  rw [h]
  omega

/-- C87. The positions a slice with a positive step selects, in increasing order. -/
theorem positions_up (s : PySlice) (n : ℕ) (k : Int) (hk : 0 < k) (hs : s.step.getD 1 = k) :
    ∃ ps, s.positions n = some ps ∧ ps.Pairwise (· < ·) ∧
      ∀ p, p ∈ ps ↔ Selects ((s.start.map (bound n 0 n)).getD 0)
        ((s.stop.map (bound n 0 n)).getD n) k p := by
  have hk0 : ¬ k = 0 := by omega
  have hkn : ¬ k < 0 := by omega
  have e : clamp n 0 n = bound n 0 n := funext (clamp_up n)
  unfold positions
  simp only [hs, if_neg hk0, if_neg hkn]
  rw [e]
  generalize (s.start.map (bound n 0 n)).getD 0 = i
  generalize (s.stop.map (bound n 0 n)).getD n = j
  refine ⟨_, rfl, ?_, fun p => ?_⟩
  · rw [List.pairwise_map]
    exact List.pairwise_lt_range.imp fun {a b} h => by
      have : (a : Int) < b := by exact_mod_cast h
      nlinarith
  · simp only [List.mem_map, List.mem_range, Selects, if_neg hkn]
    constructor
    · rintro ⟨m, hm, rfl⟩
      exact ⟨m, rfl, (count_up i j k hk m).1 hm⟩
    · rintro ⟨m, rfl, hm⟩
      exact ⟨m, (count_up i j k hk m).2 hm, rfl⟩

/-- C87. The positions a slice with a negative step selects, in decreasing order. -/
theorem positions_down (s : PySlice) (n : ℕ) (k : Int) (hk : k < 0) (hs : s.step.getD 1 = k) :
    ∃ ps, s.positions n = some ps ∧ ps.Pairwise (· > ·) ∧
      ∀ p, p ∈ ps ↔ Selects ((s.start.map (bound n (-1) (n - 1))).getD (n - 1))
        ((s.stop.map (bound n (-1) (n - 1))).getD (-1)) k p := by
  have hk0 : ¬ k = 0 := by omega
  have e : clamp n (-1) (n - 1) = bound n (-1) (n - 1) := funext (clamp_down n)
  unfold positions
  simp only [hs, if_neg hk0, if_pos hk]
  rw [e]
  generalize (s.start.map (bound n (-1) (n - 1))).getD (n - 1) = i
  generalize (s.stop.map (bound n (-1) (n - 1))).getD (-1) = j
  refine ⟨_, rfl, ?_, fun p => ?_⟩
  · rw [List.pairwise_map]
    exact List.pairwise_lt_range.imp fun {a b} h => by
      have : (a : Int) < b := by exact_mod_cast h
      show i + b * k < i + a * k
      nlinarith
  · simp only [List.mem_map, List.mem_range, Selects, if_pos hk]
    constructor
    · rintro ⟨m, hm, rfl⟩
      exact ⟨m, rfl, (count_down i j k hk m).1 hm⟩
    · rintro ⟨m, rfl, hm⟩
      exact ⟨m, (count_down i j k hk m).2 hm, rfl⟩

theorem bound_mem (n : ℕ) (lo hi : Int) (h : lo ≤ hi) (x : Int) :
    lo ≤ bound n lo hi x ∧ bound n lo hi x ≤ hi := by
  unfold bound
  constructor <;> omega

/-- Every position selected is that of an item. -/
theorem positions_in_range (s : PySlice) (n : ℕ) (ps : List Int)
    (h : s.positions n = some ps) : ∀ p ∈ ps, 0 ≤ p ∧ p < n := by
  have hd : ∀ (o : Option Int) (lo hi d : Int), lo ≤ hi → lo ≤ d → d ≤ hi →
      lo ≤ (o.map (bound n lo hi)).getD d ∧ (o.map (bound n lo hi)).getD d ≤ hi := by
    intro o lo hi d h1 h2 h3
    cases o with
    | none => exact ⟨h2, h3⟩
    | some x => exact bound_mem n lo hi h1 x
  rcases lt_trichotomy (s.step.getD 1) 0 with hk | hk | hk
  · obtain ⟨qs, h1, -, h2⟩ := positions_down s n _ hk rfl
    rw [h1] at h
    injection h with h
    subst h
    intro p hp
    obtain ⟨m, e, hlt⟩ := (h2 p).1 hp
    rw [if_pos hk] at hlt
    have b1 := hd s.start (-1) (n - 1) (n - 1) (by omega) (by omega) (by omega)
    have b2 := hd s.stop (-1) (n - 1) (-1) (by omega) (by omega) (by omega)
    have hm : (m : Int) * s.step.getD 1 ≤ 0 := by nlinarith
    omega
  · unfold positions at h
    simp only [hk, if_true] at h
    cases h
  · obtain ⟨qs, h1, -, h2⟩ := positions_up s n _ hk rfl
    rw [h1] at h
    injection h with h
    subst h
    intro p hp
    obtain ⟨m, e, hlt⟩ := (h2 p).1 hp
    rw [if_neg (by omega)] at hlt
    have b1 := hd s.start 0 n 0 (by omega) (by omega) (by omega)
    have b2 := hd s.stop 0 n n (by omega) (by omega) (by omega)
    have hm : 0 ≤ (m : Int) * s.step.getD 1 := by nlinarith
    omega

/-- C87. Indexing with a slice gives the items at its positions, none left out; it fails
exactly for a zero step. -/
theorem index_spec {α : Type} (s : PySlice) (xs : List α) :
    (s.step = some 0 ↔ s.index xs = none) ∧
    ∀ ps, s.positions xs.length = some ps →
      ∃ l, s.index xs = some l ∧ l.map some = ps.map fun p => xs[p.toNat]? := by
  constructor
  · have e : s.step = some 0 ↔ s.step.getD 1 = 0 := by
      cases s.step with
      | none => simp
      | some k => simp
    rw [e]
    unfold index positions
    by_cases h : s.step.getD 1 = 0
    · simp [h]
    · simp [h]
  · intro ps hps
    have hr := positions_in_range s xs.length ps hps
    refine ⟨ps.filterMap fun p => xs[p.toNat]?, by simp only [index, hps, Option.map_some], ?_⟩
    clear hps
    induction ps with
    | nil => rfl
    | cons p ps ih =>
      obtain ⟨h0, h1⟩ := hr p List.mem_cons_self
      have hlt : p.toNat < xs.length := by omega
      rw [List.filterMap_cons, List.map_cons, List.getElem?_eq_getElem hlt]
      simp only [List.map_cons]
      rw [ih fun q hq => hr q (List.mem_cons_of_mem _ hq)]

/-- C87. A slice takes the same positions from columns of the same length. -/
theorem index_zip {α β : Type} (s : PySlice) (xs : List α) (ys : List β)
    (h : xs.length = ys.length) (a : List α) (b : List β) (ha : s.index xs = some a)
    (hb : s.index ys = some b) : s.index (xs.zip ys) = some (a.zip b) := by
  have hn : (xs.zip ys).length = xs.length := by rw [List.length_zip]; omega
  rcases hp : s.positions xs.length with _ | ps
  · simp only [index, hp, Option.map_none, reduceCtorEq] at ha
  · have hr := positions_in_range s xs.length ps hp
    simp only [index, hn, ← h, hp, Option.map_some, Option.some.injEq] at ha hb ⊢
    subst ha hb
    clear hp
    induction ps with
    | nil => rfl
    | cons p ps ih =>
      obtain ⟨h0, h1⟩ := hr p List.mem_cons_self
      have hx : p.toNat < xs.length := by omega
      have hy : p.toNat < ys.length := by omega
      have hz : p.toNat < (xs.zip ys).length := by omega
      rw [List.filterMap_cons, List.filterMap_cons, List.filterMap_cons,
        List.getElem?_eq_getElem hx, List.getElem?_eq_getElem hy, List.getElem?_eq_getElem hz]
      simp only [List.getElem_zip, List.zip_cons_cons]
      rw [ih fun q hq => hr q (List.mem_cons_of_mem _ hq)]

theorem range_items {α : Type} (xs : List α) (a c : ℕ) :
    (List.range c).filterMap (fun i => xs[a + i]?) = (xs.drop a).take c := by
  induction c with
  | zero => rfl
  | succ c ih =>
    rw [List.range_succ, List.filterMap_append, ih, List.take_add_one, List.getElem?_drop]
    congr 1

/-- C87. The default slice `-1000:-100`, and any like it: all items but the last `b`, as far
back as `a` from the end. -/
theorem index_tail {α : Type} (xs : List α) (a b : ℕ) (ha : 0 < a) (hb : 0 < b) :
    index { start := some (-a), stop := some (-b) } xs =
      some ((xs.take (xs.length - b)).drop (xs.length - a)) := by
  have ha' : (-(a : Int)) < 0 := by omega
  have hb' : (-(b : Int)) < 0 := by omega
  unfold index positions
  simp only [Option.getD_none, one_ne_zero, if_false, Option.getD_some, clamp, if_pos ha', if_pos hb',
    Option.map_some, Option.some.injEq]
  have h1 : max (-(a : Int) + xs.length) 0 = ((xs.length - a : ℕ) : Int) := by omega
  have h2 : max (-(b : Int) + xs.length) 0 = ((xs.length - b : ℕ) : Int) := by omega
  rw [if_neg (by omega), if_neg (by omega), h1, h2]
  have h3 : ((((xs.length - b : ℕ) : Int) - ((xs.length - a : ℕ) : Int) + 1 - 1) / 1).toNat =
      (xs.length - b) - (xs.length - a) := by
    rw [Int.ediv_one]; omega
  rw [h3, List.filterMap_map, List.drop_take, ← range_items]
  apply List.filterMap_congr
  intro i _
  simp only [Function.comp, mul_one]
  rw [← Int.natCast_add, Int.toNat_natCast]

/-- The samples 9, 6, 3 of ten. -/
example := positions_down { start := some 9, stop := some 0, step := some (-3) } 10 (-3)
  (by decide) rfl
example := positions_up { start := some (-4), step := some 2 } 10 2 (by decide) rfl
example : index { start := some (-4), step := some 2 } [0, 1, 2, 3, 4, 5, 6, 7, 8, 9] =
    some [6, 8] := by decide
example : index { start := some 9, stop := some 0, step := some (-3) }
    [0, 1, 2, 3, 4, 5, 6, 7, 8, 9] = some [9, 6, 3] := by decide
example := positions_in_range { start := some (-40), step := some 2 } 10 [0, 2, 4, 6, 8]
  (by decide)
example := (index_spec { step := some 2 } [0, 1, 2, 3, 4]).2 [0, 2, 4] (by decide)
example := index_zip (α := ℕ) { step := some 2 } [0, 1, 2] ["a", "b", "c"] rfl
  [0, 2] ["a", "c"] rfl rfl
example := index_tail [0, 1, 2, 3, 4, 5] 4 1 (by decide) (by decide)

end PySlice

/-- C87. When the sonic point was crossed by interpolation, the derivative of the polar
velocity used for the crossing is the interpolation of exactly the recorded angles and
derivatives at the positions the slice selects. -/
theorem interp_samples {I : Integrator} {str : ℝ → String}
    {interp : List ℝ → List ℝ → Option (ℝ → ℝ)} {P : OdeArgs} {st : Bool}
    {base : CvSoln} {internal : Option InternalData} {angles : List ℝ} {after : ℝ}
    {sl : PySlice} {leg : InterpLeg}
    (h : (interp_cross_sonic I str interp P st base internal angles after sl).result =
      .ok (some leg)) :
    ∃ d θs ds f r, internal = some d ∧ sl.index d.angles = some θs ∧
      sl.index d.derivs = some ds ∧ interp θs (ds.map (·.v_θ)) = some f ∧
      (interp_cross_sonic I str interp P st base internal angles after sl).log = [r] ∧
      r.args.deriv_v_θ_func = some f ∧ leg.soln = (I r).soln ∧
      (d.angles.length = d.derivs.length →
        sl.index (d.angles.zip d.derivs) = some (θs.zip ds)) := by
  unfold interp_cross_sonic at h ⊢
  split at h
  · cases h
  · rename_i d
    split at h
    · rename_i θs ds hθ hd
      split at h
      · cases h
      · rename_i f hf
        split at h
        · rename_i θ₀ y₀ ht₀ hy₀
          obtain ⟨v, h1, h2, h3⟩ := Logged.bind_ok h
          obtain ⟨s, i⟩ := v
          obtain ⟨r, hr, hlog, hs, -, -⟩ := main_solution_ok h1
          obtain ⟨-, -, hroot, hargs, -, -, -, -, hang, hini⟩ := main_plan_ok hr
          simp only at h2
          split at h2
          · rename_i θ₁ y₁ ht₁ hy₁
            injection h2 with h2
            injection h2 with h2
            refine ⟨d, θs, ds, f, r, rfl, hθ, hd, hf, ?_, by rw [hargs], by rw [← h2, hs],
              fun hlen => PySlice.index_zip sl _ _ hlen _ _ hθ hd⟩
            refine h3.trans ?_
            rw [hlog]
            simp only [ht₁, hy₁, Logged.ok, List.append_nil]
          · cases h2
        · cases h
    · cases h

/-- One recorded sample. -/
noncomputable def witSample : InternalData := { angles := [0], derivs := [witJ] }

/-- The start of an interpolation. -/
noncomputable def witBase : CvSoln := { flag := .SUCCESS, t := [0], y := [witJ] }

theorem witInterp (str : ℝ → String) :
    ∃ leg, (interp_cross_sonic (rootI .SUCCESS) str (fun _ _ => some fun _ => 1) witJP true
      witBase (some witSample) [0, 1, 2] (1/10) {}).result = .ok (some leg) := by
  have h1 : PySlice.index {} witSample.angles = some [0] := rfl
  have h2 : PySlice.index {} witSample.derivs = some [witJ] := rfl
  have h3 : ([0, 1, 2] : List ℝ).filter (fun x => decide (0 ≤ x)) = [0, 1, 2] := by
    rw [List.filter_eq_self]
    intro x hx
    simp only [List.mem_cons, List.not_mem_nil, or_false] at hx
    rcases hx with rfl | rfl | rfl <;> norm_num
  unfold interp_cross_sonic
  simp only [h1, h2, witBase, List.getLast?_singleton]
  simp [main_solution, main_plan, rootI, Logged.bind, Logged.ok, h3]

example (str : ℝ → String) := interp_samples (witInterp str).choose_spec

end DiscSolver
