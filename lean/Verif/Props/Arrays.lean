import Verif.Model.Arrays
import Verif.Lemmas.Dict
import Verif.Props.Waves

/-!
# C25, C26, C27, C24 (indices), C70: array helpers
-/

namespace DiscSolver

/-- Every sample before `i` that is not NaN satisfies `p`. -/
def Before (a : List Flt) (i : ℕ) (p : ℝ → Prop) : Prop :=
  ∀ k, k < i → ∀ y, a[k]? = some (some y) → p y

/-- Some sample before `i` is not NaN. -/
def SomeBefore (a : List Flt) (i : ℕ) : Prop :=
  ∃ k, k < i ∧ ∃ y, a[k]? = some (some y)

/-- Specification: `i` is the first position at or beyond the crossing of `val`. -/
def FirstCrossing (a : List Flt) (val : ℝ) (i : ℕ) : Prop :=
  ∃ x, a[i]? = some (some x) ∧
    ((x = val ∧ (Before a i (· < val) ∨ Before a i (val < ·))) ∨
     (val < x ∧ SomeBefore a i ∧ Before a i (· < val)) ∨
     (x < val ∧ SomeBefore a i ∧ Before a i (val < ·)))

theorem nan_free_spec (a : List Flt) (ha : a ≠ []) :
    (∃ x, a[nan_free_index a]? = some (some x) ∧
      ∀ k, k < nan_free_index a → a[k]? = some none) ∨
    ((∀ y ∈ a, y = none) ∧ a[nan_free_index a]? = some none) := by
  unfold nan_free_index
  cases h : a.findIdx? (·.isSome) with
  | none =>
    right
    rw [List.findIdx?_eq_none_iff] at h
    have h' : ∀ y ∈ a, y = none := fun y hy => by simpa using h y hy
    refine ⟨h', ?_⟩
    cases a with
    | nil => exact absurd rfl ha
    | cons y l => simp [h' y List.mem_cons_self]
  | some i =>
    left
    rw [List.findIdx?_eq_some_iff_getElem] at h
    obtain ⟨hi, hs, hk⟩ := h
    obtain ⟨x, hx⟩ := Option.isSome_iff_exists.1 hs
    refine ⟨x, ?_, ?_⟩
    · rw [Option.getD_some, List.getElem?_eq_getElem hi, hx]
    · intro k hki
      have := hk k hki
      simp only [Option.getD_some] at hki
      rw [List.getElem?_eq_getElem (hki.trans hi)]
      simpa using this

/-- The first position satisfying a test, NaN never does. -/
theorem any_argmax_some (a : List Flt) (p : ℝ → Prop) [DecidablePred p] (i : ℕ) :
    any_argmax (a.map fun y => y.any fun y => decide (p y)) = some i ↔
      (∃ x, a[i]? = some (some x) ∧ p x) ∧ Before a i (fun y => ¬ p y) := by
  unfold any_argmax Before
  rw [List.findIdx?_eq_some_iff_getElem]
  constructor
  · rintro ⟨hi, hp, hk⟩
    simp only [List.length_map] at hi
    simp only [List.getElem_map, id] at hp hk
    refine ⟨?_, ?_⟩
    · cases hx : a[i] with
      | none => rw [hx] at hp; simp at hp
      | some x =>
        rw [hx] at hp
        exact ⟨x, by rw [List.getElem?_eq_getElem hi, hx], by simpa using hp⟩
    · intro k hki y hy
      have := hk k hki
      rw [List.getElem?_eq_getElem (hki.trans hi)] at hy
      injection hy with hy
      rw [hy] at this
      simpa using this
  · rintro ⟨⟨x, hx, hp⟩, hk⟩
    have hi : i < a.length := (List.getElem?_eq_some_iff.1 hx).1
    refine ⟨by simpa using hi, ?_, ?_⟩
    · have := (List.getElem?_eq_some_iff.1 hx).2
      simp [this, hp]
    · intro k hki
      simp only [List.getElem_map, id]
      cases hy : a[k]'(hki.trans hi) with
      | none => simp
      | some y =>
        have := hk k hki y (by rw [List.getElem?_eq_getElem (hki.trans hi), hy])
        simpa using this

theorem any_argmax_none (a : List Flt) (p : ℝ → Prop) [DecidablePred p] :
    any_argmax (a.map fun y => y.any fun y => decide (p y)) = none ↔
      ∀ y, some y ∈ a → ¬ p y := by
  unfold any_argmax
  rw [List.findIdx?_eq_none_iff]
  simp only [List.mem_map, id]
  constructor
  · intro h y hy
    simpa using h _ ⟨some y, hy, rfl⟩
  · rintro h _ ⟨y, hy, rfl⟩
    cases y with
    | none => rfl
    | some y => simpa using h y hy

/-- C25. The answer is the first crossing, if there is one. -/
theorem first_closest_some (a : List Flt) (val : ℝ) (i : ℕ) :
    first_closest_index a val = .ok (some i) ↔ FirstCrossing a val i := by
  classical
  by_cases ha : a = []
  · subst ha
    simp [first_closest_index, FirstCrossing]
  have hne : first_closest_index a val = _ := if_neg ha
  rw [hne]
  simp only
  rcases nan_free_spec a ha with ⟨x, hx, hlt⟩ | ⟨hall, hn⟩
  · -- the samples before the first one are all NaN
    have hmin : ∀ k y, a[k]? = some (some y) → nan_free_index a ≤ k := by
      intro k y hy
      by_contra hk
      rw [hlt k (not_le.1 hk)] at hy
      cases hy
    rw [hx]
    simp only [Option.join_some]
    by_cases h1 : x < val
    · rw [if_pos h1, Except.ok.injEq, any_argmax_some]
      constructor
      · rintro ⟨⟨z, hz, hzv⟩, hb⟩
        have hb' : Before a i (· < val) := fun k hk y hy => not_le.1 (hb k hk y hy)
        refine ⟨z, hz, ?_⟩
        rcases eq_or_lt_of_le hzv with he | hl
        · exact Or.inl ⟨he.symm, Or.inl hb'⟩
        · refine Or.inr (Or.inl ⟨hl, ⟨nan_free_index a, ?_, x, hx⟩, hb'⟩)
          refine lt_of_le_of_ne (hmin i z hz) ?_
          intro he
          rw [← he, hx] at hz
          injection hz with hz
          injection hz with hz
          linarith
      · rintro ⟨z, hz, h⟩
        have hlow : ∀ p : ℝ → Prop, Before a i p → nan_free_index a < i → p x :=
          fun p hb hk => hb _ hk x hx
        have hzx : nan_free_index a = i → z = x := by
          intro he
          rw [← he, hx] at hz
          injection hz with hz
          injection hz with hz
          exact hz.symm
        rcases h with ⟨hzv, hb | hb⟩ | ⟨hl, -, hb⟩ | ⟨hl, ⟨k, hk, y, hy⟩, hb⟩
        · exact ⟨⟨z, hz, hzv.ge⟩, fun k hk y hy => not_le.2 (hb k hk y hy)⟩
        · exfalso
          rcases (hmin i z hz).lt_or_eq with hk | hk
          · have := hlow _ hb hk; linarith
          · have := hzx hk; linarith
        · exact ⟨⟨z, hz, hl.le⟩, fun k hk y hy => not_le.2 (hb k hk y hy)⟩
        · exfalso
          have hk' := lt_of_le_of_lt (hmin k y hy) hk
          have := hlow _ hb hk'
          linarith
    · rw [if_neg h1]
      by_cases h2 : val < x
      · rw [if_pos h2, Except.ok.injEq, any_argmax_some]
        constructor
        · rintro ⟨⟨z, hz, hzv⟩, hb⟩
          have hb' : Before a i (val < ·) := fun k hk y hy => not_le.1 (hb k hk y hy)
          refine ⟨z, hz, ?_⟩
          rcases eq_or_lt_of_le hzv with he | hl
          · exact Or.inl ⟨he, Or.inr hb'⟩
          · refine Or.inr (Or.inr ⟨hl, ⟨nan_free_index a, ?_, x, hx⟩, hb'⟩)
            refine lt_of_le_of_ne (hmin i z hz) ?_
            intro he
            rw [← he, hx] at hz
            injection hz with hz
            injection hz with hz
            linarith
        · rintro ⟨z, hz, h⟩
          have hlow : ∀ p : ℝ → Prop, Before a i p → nan_free_index a < i → p x :=
            fun p hb hk => hb _ hk x hx
          have hzx : nan_free_index a = i → z = x := by
            intro he
            rw [← he, hx] at hz
            injection hz with hz
            injection hz with hz
            exact hz.symm
          rcases h with ⟨hzv, hb | hb⟩ | ⟨hl, ⟨k, hk, y, hy⟩, hb⟩ | ⟨hl, -, hb⟩
          · exfalso
            rcases (hmin i z hz).lt_or_eq with hk | hk
            · have := hlow _ hb hk; linarith
            · have := hzx hk; linarith
          · exact ⟨⟨z, hz, hzv.le⟩, fun k hk y hy => not_le.2 (hb k hk y hy)⟩
          · exfalso
            have hk' := lt_of_le_of_lt (hmin k y hy) hk
            have := hlow _ hb hk'
            linarith
          · exact ⟨⟨z, hz, hl.le⟩, fun k hk y hy => not_le.2 (hb k hk y hy)⟩
      · rw [if_neg h2, Except.ok.injEq, Option.some.injEq]
        have hxv : x = val := le_antisymm (not_lt.1 h2) (not_lt.1 h1)
        constructor
        · rintro rfl
          refine ⟨x, hx, Or.inl ⟨hxv, Or.inl fun k hk y hy => ?_⟩⟩
          rw [hlt k hk] at hy
          cases hy
        · rintro ⟨z, hz, h⟩
          by_contra hk
          have hk' : nan_free_index a < i := lt_of_le_of_ne (hmin i z hz) hk
          rcases h with ⟨-, hb | hb⟩ | ⟨-, -, hb⟩ | ⟨-, -, hb⟩ <;>
          · have := hb _ hk' x hx
            linarith
  · rw [hn]
    simp only [Option.join_some, Except.ok.injEq, reduceCtorEq, false_iff]
    rintro ⟨x, hx, -⟩
    have := hall _ (List.mem_of_getElem? hx)
    cases this

/-- C25. There is no answer exactly when the data stay strictly on one side. -/
theorem first_closest_none (a : List Flt) (val : ℝ) (ha : a ≠ []) :
    first_closest_index a val = .ok none ↔
      (∀ y, some y ∈ a → y < val) ∨ (∀ y, some y ∈ a → val < y) := by
  classical
  have hne : first_closest_index a val = _ := if_neg ha
  rw [hne]
  simp only
  rcases nan_free_spec a ha with ⟨x, hx, -⟩ | ⟨hall, hn⟩
  · have hm : some x ∈ a := List.mem_of_getElem? hx
    rw [hx]
    simp only [Option.join_some]
    by_cases h1 : x < val
    · rw [if_pos h1, Except.ok.injEq, any_argmax_none]
      simp only [not_le]
      constructor
      · exact Or.inl
      · rintro (h | h)
        · exact h
        · have := h x hm; linarith
    · rw [if_neg h1]
      by_cases h2 : val < x
      · rw [if_pos h2, Except.ok.injEq, any_argmax_none]
        simp only [not_le]
        constructor
        · exact Or.inr
        · rintro (h | h)
          · have := h x hm; linarith
          · exact h
      · rw [if_neg h2]
        simp only [Except.ok.injEq, reduceCtorEq, false_iff]
        rintro (h | h)
        · exact h1 (h x hm)
        · exact h2 (h x hm)
  · rw [hn]
    simp only [Option.join_some, true_iff]
    exact Or.inl fun y hy => by have := hall _ hy; cases this

example : first_closest_index [none, some 0, some 2] 3 = .ok none :=
  (first_closest_none _ _ (by simp)).2 (Or.inl (by simp; norm_num))

/-- C25. The function raises only for an empty array. -/
theorem first_closest_raises (a : List Flt) (val : ℝ) :
    (∃ e, first_closest_index a val = .error e) ↔ a = [] := by
  classical
  constructor
  · rintro ⟨e, h⟩
    by_contra ha
    have hne : first_closest_index a val = _ := if_neg ha
    rw [hne] at h
    simp only at h
    split at h
    · cases h
    · split at h
      · cases h
      · split at h <;> cases h
  · rintro rfl
    exact ⟨.ValueError, by simp [first_closest_index]⟩

/-- If `b` is at or above `val` wherever `a` is and both start below it, `b` crosses
no later than `a`. -/
theorem crosses_no_later (a b : List Flt) (val : ℝ) (i : ℕ)
    (ha : first_closest_index a val = .ok (some i))
    (a0 : ∃ u, a[0]? = some (some u) ∧ u < val)
    (b0 : ∃ u, b[0]? = some (some u) ∧ u < val)
    (hab : ∀ (k : ℕ) (x : ℝ), a[k]? = some (some x) → val ≤ x →
      ∃ y, b[k]? = some (some y) ∧ val ≤ y) :
    ∃ j, j ≤ i ∧ first_closest_index b val = .ok (some j) := by
  obtain ⟨u, hu, huv⟩ := a0
  obtain ⟨w, hw, hwv⟩ := b0
  obtain ⟨x, hx, hc⟩ := (first_closest_some a val i).1 ha
  have hxv : val ≤ x := by
    rcases hc with ⟨h, -⟩ | ⟨h, -⟩ | ⟨h, ⟨k, hk, -⟩, hb⟩
    · exact h.ge
    · exact h.le
    · have := hb 0 (by omega) u hu
      linarith
  obtain ⟨y, hy, hyv⟩ := hab i x hx hxv
  have hbne : b ≠ [] := by
    rintro rfl
    simp at hw
  cases hr : first_closest_index b val with
  | error e => exact absurd ((first_closest_raises b val).1 ⟨e, hr⟩) hbne
  | ok r =>
    cases r with
    | none =>
      rcases (first_closest_none b val hbne).1 hr with h | h
      · have := h y (List.mem_of_getElem? hy); linarith
      · have := h w (List.mem_of_getElem? hw); linarith
    | some j =>
      refine ⟨j, ?_, rfl⟩
      by_contra hji
      have hij : i < j := not_le.1 hji
      obtain ⟨z, -, hc⟩ := (first_closest_some b val j).1 hr
      have hlo : ∀ P : Prop, Before b j (· < val) → P := fun P hb => by
        have := hb i hij y hy; exact absurd this (not_lt.2 hyv)
      have hhi : ∀ P : Prop, Before b j (val < ·) → P := fun P hb => by
        have := hb 0 (by omega) w hw; exact absurd this (not_lt.2 hwv.le)
      rcases hc with ⟨-, hb | hb⟩ | ⟨-, -, hb⟩ | ⟨-, -, hb⟩
      · exact hlo _ hb
      · exact hhi _ hb
      · exact hlo _ hb
      · exact hhi _ hb

/-- A row the solver can produce: positive density, a field component along the
direction of propagation, outflow. -/
def GoodRow (s : St) : Prop := 0 < s.ρ ∧ s.B_θ ≠ 0 ∧ 0 ≤ s.v_θ

theorem GoodRow.B_ne {s : St} (h : GoodRow s) :
    s.B_r ^ 2 + s.B_φ ^ 2 + s.B_θ ^ 2 ≠ 0 := by
  have : 0 < s.B_θ ^ 2 := by have := h.2.1; positivity
  nlinarith [sq_nonneg s.B_r, sq_nonneg s.B_φ]

/-- All Mach numbers of a good row are finite, and compare with one like the
velocity with the wave speed. -/
theorem good_machs {s : St} (h : GoodRow s) :
    ∃ w : WaveSpeeds, 0 < w.slow ∧ w.slow ≤ w.alfven ∧ w.alfven ≤ w.fast ∧
      1 ≤ w.fast ∧
      (get_mach_numbers s).slow = some (Real.sqrt (s.v_θ ^ 2 / w.slow)) ∧
      (get_mach_numbers s).sonic = some s.v_θ ∧
      (get_mach_numbers s).alfven = some (Real.sqrt (s.v_θ ^ 2 / w.alfven)) ∧
      (get_mach_numbers s).fast = some (Real.sqrt (s.v_θ ^ 2 / w.fast)) := by
  obtain ⟨o1, o2, o3, o4, o5, o6⟩ := wave_order s 1 h.1 h.B_ne
  have hal : 0 < vAn2 s := by
    have := Real.pi_pos
    have h1 := h.1
    have : 0 < s.B_θ ^ 2 := by have := h.2.1; positivity
    unfold vAn2
    positivity
  have hsl : 0 < (mhd_wave_speeds s 1).slow := by
    rcases o1.lt_or_eq with h1 | h1
    · exact h1
    · have := wave_dispersion s 1 h.1 h.B_ne 0
      rw [← h1] at this
      simp at this
      linarith
  refine ⟨mhd_wave_speeds s 1, hsl, o2, o3, by simpa using o5, ?_, rfl, ?_, ?_⟩
  · simp only [get_mach_numbers, machOf, if_neg hsl.ne']
  · simp only [get_mach_numbers, machOf, if_neg (hsl.trans_le o2).ne']
  · simp only [get_mach_numbers, machOf, if_neg (hsl.trans_le (o2.trans o3)).ne']

/-- C24. In a solution that starts at rest at the midplane, a fast crossing comes
with a sonic, an Alfvén and a slow crossing, none of them later. -/
theorem critical_point_order (s₀ : St) (rows : List St)
    (hrows : ∀ s ∈ s₀ :: rows, GoodRow s) (h0 : s₀.v_θ = 0) (i : ℕ)
    (hi : first_closest_index
      ((s₀ :: rows).map fun s => (get_mach_numbers s).fast) 1 = .ok (some i)) :
    ∃ js jc ja, js ≤ i ∧ jc ≤ i ∧ ja ≤ i ∧
      get_critical_point_indices (s₀ :: rows) =
        .ok ⟨some js, some jc, some ja, some i⟩ := by
  have start : ∀ f : Machs → Flt, f (get_mach_numbers s₀) = some 0 →
      ∃ u, ((s₀ :: rows).map fun s => f (get_mach_numbers s))[0]? = some (some u) ∧
        u < 1 := by
    intro f hf
    exact ⟨0, by simp [hf], by norm_num⟩
  obtain ⟨w, -, -, -, -, e1, e2, e3, e4⟩ := good_machs (hrows s₀ List.mem_cons_self)
  rw [h0] at e1 e2 e3 e4
  have e0 : ∀ u : ℝ, Real.sqrt (0 ^ 2 / u) = 0 := by intro u; simp
  rw [e0] at e1 e3 e4
  have one_le : ∀ u v : ℝ, 0 < u → (1 ≤ Real.sqrt (v / u) ↔ u ≤ v) := by
    intro u v hu
    rw [Real.le_sqrt' (by norm_num), one_pow, one_le_div hu]
  have step : ∀ f : Machs → Flt,
      (∀ s, GoodRow s → ∀ x, (get_mach_numbers s).fast = some x → 1 ≤ x →
        ∃ y, f (get_mach_numbers s) = some y ∧ 1 ≤ y) →
      ∀ (k : ℕ) (x : ℝ), ((s₀ :: rows).map fun s => (get_mach_numbers s).fast)[k]? =
        some (some x) → 1 ≤ x →
      ∃ y, ((s₀ :: rows).map fun s => f (get_mach_numbers s))[k]? = some (some y) ∧
        1 ≤ y := by
    intro f hf k x hx hx1
    rw [List.getElem?_map] at hx ⊢
    cases hk : (s₀ :: rows)[k]? with
    | none => rw [hk] at hx; cases hx
    | some s =>
      rw [hk] at hx
      simp only [Option.map_some, Option.some.injEq] at hx ⊢
      exact hf s (hrows s (List.mem_of_getElem? hk)) x hx hx1
  have S := crosses_no_later _ _ 1 i hi (start (·.fast) e4) (start (·.slow) e1)
    (step (·.slow) (by
      intro s hs x hx hx1
      obtain ⟨w, h1, h2, h3, h4, f1, f2, f3, f4⟩ := good_machs hs
      rw [f4] at hx
      injection hx with hx
      rw [← hx, one_le _ _ (by linarith)] at hx1
      exact ⟨_, f1, (one_le _ _ h1).2 (by linarith)⟩))
  have C := crosses_no_later _ _ 1 i hi (start (·.fast) e4) (start (·.sonic) e2)
    (step (·.sonic) (by
      intro s hs x hx hx1
      obtain ⟨w, h1, h2, h3, h4, f1, f2, f3, f4⟩ := good_machs hs
      rw [f4] at hx
      injection hx with hx
      rw [← hx, one_le _ _ (by linarith)] at hx1
      refine ⟨_, f2, ?_⟩
      have := hs.2.2
      nlinarith))
  have A := crosses_no_later _ _ 1 i hi (start (·.fast) e4) (start (·.alfven) e3)
    (step (·.alfven) (by
      intro s hs x hx hx1
      obtain ⟨w, h1, h2, h3, h4, f1, f2, f3, f4⟩ := good_machs hs
      rw [f4] at hx
      injection hx with hx
      rw [← hx, one_le _ _ (by linarith)] at hx1
      exact ⟨_, f3, (one_le _ _ (by linarith)).2 (by linarith)⟩))
  obtain ⟨js, hjs, hS⟩ := S
  obtain ⟨jc, hjc, hC⟩ := C
  obtain ⟨ja, hja, hA⟩ := A
  refine ⟨js, jc, ja, hjs, hjc, hja, ?_⟩
  unfold get_critical_point_indices
  rw [hS, hC, hA, hi]
  rfl

/-- C25: a value reached between samples, after a NaN. -/
example : first_closest_index [none, some 0, some 2, some 1] 1 = .ok (some 2) :=
  (first_closest_some _ _ _).2 ⟨2, rfl, Or.inr (Or.inl
    ⟨by norm_num, ⟨1, by omega, 0, rfl⟩, by
      intro k hk u hu
      have : k = 0 ∨ k = 1 := by omega
      rcases this with rfl | rfl
      · simp at hu
      · simp at hu; rw [← hu]; norm_num⟩)⟩

/-- C24: at rest, then faster than the fast speed. -/
noncomputable def witAtRest : St := { witFast with v_θ := 0 }

theorem witRows_good : ∀ s ∈ [witAtRest, witFast], GoodRow s := by
  intro s hs
  simp only [List.mem_cons, List.not_mem_nil, or_false] at hs
  rcases hs with rfl | rfl <;> norm_num [GoodRow, witAtRest, witFast]

theorem witRows_fast : first_closest_index
    ([witAtRest, witFast].map fun s => (get_mach_numbers s).fast) 1 = .ok (some 1) := by
  obtain ⟨m, hm, h1⟩ := witFast_fast
  obtain ⟨w, -, -, -, -, -, -, -, e4⟩ := good_machs (witRows_good witAtRest (by simp))
  have e0 : (get_mach_numbers witAtRest).fast = some 0 := by rw [e4]; simp [witAtRest]
  rw [first_closest_some]
  refine ⟨m, by simp [hm], Or.inr (Or.inl ⟨h1, ⟨0, by omega, 0, by simp [e0]⟩, ?_⟩)⟩
  intro k hk u hu
  obtain rfl : k = 0 := by omega
  simp [e0] at hu
  rw [← hu]
  norm_num

example := critical_point_order witAtRest [witFast] witRows_good rfl 1 witRows_fast

/-! ## C26 -/

/-- C26, what holds: the returned sample is the first one not below the target; past
the end of the data the function raises `IndexError`. -/
theorem closest_sorted_partial {α : Type} (xs : List ℝ) (ys : List α)
    (hlen : xs.length = ys.length) (x : ℝ) :
    (∃ (i : ℕ) (v : ℝ), xs[i]? = some v ∧ x ≤ v ∧ (∀ (k : ℕ) (u : ℝ), k < i → xs[k]? = some u → u < x) ∧
      ∃ y, ys[i]? = some y ∧ get_closest_value_sorted xs ys x = .ok y) ∨
    ((∀ u ∈ xs, u < x) ∧ get_closest_value_sorted xs ys x = .error .IndexError) := by
  classical
  by_cases h : ∃ u ∈ xs, x ≤ u
  · left
    have hlt : searchsorted xs x < xs.length := by
      unfold searchsorted
      rw [List.findIdx_lt_length]
      obtain ⟨u, hu, hx⟩ := h
      exact ⟨u, hu, by simpa using hx⟩
    refine ⟨searchsorted xs x, xs[searchsorted xs x], List.getElem?_eq_getElem hlt, ?_,
      ?_, ys[searchsorted xs x]'(hlen ▸ hlt), List.getElem?_eq_getElem _, ?_⟩
    · exact of_decide_eq_true
        (List.findIdx_getElem (xs := xs) (p := fun y => decide (x ≤ y)) (w := hlt))
    · intro k u hk hu
      have := List.not_of_lt_findIdx hk
      rw [List.getElem?_eq_getElem (hk.trans hlt)] at hu
      injection hu with hu
      rw [hu] at this
      simpa using this
    · unfold get_closest_value_sorted
      rw [List.getElem?_eq_getElem (hlen ▸ hlt)]
  · right
    have h' : ∀ u ∈ xs, u < x := fun u hu => not_le.1 fun hx => h ⟨u, hu, hx⟩
    refine ⟨h', ?_⟩
    have : searchsorted xs x = xs.length := by
      unfold searchsorted
      rw [List.findIdx_eq_length]
      intro u hu
      simpa using h' u hu
    unfold get_closest_value_sorted
    rw [this, List.getElem?_eq_none (by omega)]

example := closest_sorted_partial [0, 1, 3] ["a", "b", "c"] rfl 2

/-- C26 is false of the code: in `[0, 1]` the sample returned for `1/10` is `1`. -/
theorem closest_sorted_not_closest :
    get_closest_value_sorted [0, 1] [(0 : ℝ), 1] (1/10) = .ok 1 ∧
    |(0 : ℝ) - 1/10| < |1 - 1/10| := by
  constructor
  · have : searchsorted [0, 1] (1/10) = 1 := by
      unfold searchsorted
      rw [List.findIdx_cons, decide_eq_false (by norm_num), cond_false,
        List.findIdx_cons, decide_eq_true (by norm_num), cond_true]
    unfold get_closest_value_sorted
    rw [this]
    rfl
  · norm_num [abs_of_pos, abs_of_neg]

/-- C26: exactly when the answer is the closest sample: no sample below the target is
closer to it than the one returned. -/
theorem closest_sorted_iff (xs : List ℝ) (hs : xs.Pairwise (· ≤ ·)) (x v : ℝ)
    (hv : get_closest_value_sorted xs xs x = .ok v) :
    (∀ u ∈ xs, |v - x| ≤ |u - x|) ↔ ∀ u ∈ xs, u < x → v - x ≤ x - u := by
  rcases closest_sorted_partial xs xs rfl x with ⟨i, w, hw, hx, hb, y, hy, he⟩ | ⟨-, he⟩
  · rw [hw] at hy
    injection hy with hy
    subst hy
    rw [hv] at he
    injection he with he
    subst he
    rw [abs_of_nonneg (by linarith : 0 ≤ v - x)]
    constructor
    · intro h u hu hux
      have := h u hu
      rw [abs_of_neg (by linarith)] at this
      linarith
    · intro h u hu
      rcases lt_or_ge u x with hux | hux
      · rw [abs_of_neg (by linarith)]
        have := h u hu hux
        linarith
      · rw [abs_of_nonneg (by linarith)]
        obtain ⟨k, hk⟩ := List.getElem?_of_mem hu
        have hik : i ≤ k := by
          by_contra hki
          have := hb k u (not_le.1 hki) hk
          linarith
        obtain ⟨hi', hiv⟩ := List.getElem?_eq_some_iff.1 hw
        obtain ⟨hk', hku⟩ := List.getElem?_eq_some_iff.1 hk
        rcases hik.lt_or_eq with hlt | heq
        · have := List.pairwise_iff_getElem.1 hs i k hi' hk' hlt
          linarith
        · subst heq
          linarith
  · rw [hv] at he
    cases he

/-- The target `1` of `[0, 1]`. -/
example : (∀ u ∈ [(0 : ℝ), 1], |1 - 1| ≤ |u - 1|) :=
  (closest_sorted_iff [0, 1] (by simp) 1 1 (by
    have : searchsorted [0, 1] 1 = 1 := by
      unfold searchsorted
      rw [List.findIdx_cons, decide_eq_false (by norm_num), cond_false,
        List.findIdx_cons, decide_eq_true (by norm_num), cond_true]
    unfold get_closest_value_sorted
    rw [this]
    rfl)).2 (by
    intro u hu hx
    simp at hu
    rcases hu with rfl | rfl <;> norm_num)

/-! ## C27 -/

open Classical in
theorem dedup_get (zs : List (ℝ × ℝ)) (d : Dict ℝ (List ℝ)) (k : ℝ) :
    (zs.foldl (fun d p => d.set p.1 ((d.get? p.1).getD [] ++ [p.2])) d).get? k =
      if k ∈ zs.map Prod.fst ∨ (d.get? k).isSome then
        some ((d.get? k).getD [] ++ (zs.filter fun p => decide (p.1 = k)).map Prod.snd)
      else none := by
  induction zs generalizing d with
  | nil => cases h : d.get? k <;> simp [h]
  | cons z zs ih =>
    obtain ⟨a, b⟩ := z
    rw [List.foldl_cons, ih]
    by_cases hak : a = k
    · subst hak
      simp
    · rw [Dict.get?_set_ne _ _ hak]
      have hka : k ≠ a := Ne.symm hak
      simp [hak, hka]

open Classical in
theorem dedup_nodup (zs : List (ℝ × ℝ)) (d : Dict ℝ (List ℝ)) (h : (Dict.keys d).Nodup) :
    (Dict.keys (zs.foldl (fun d p =>
      Dict.set d p.1 ((Dict.get? d p.1).getD [] ++ [p.2])) d)).Nodup := by
  induction zs generalizing d with
  | nil => exact h
  | cons z zs ih => exact ih _ (Dict.nodup_set _ _ _ h)

theorem foldl_max_spec (l : List ℝ) (a : ℝ) :
    (l.foldl max a = a ∨ l.foldl max a ∈ l) ∧ a ≤ l.foldl max a ∧
      ∀ v ∈ l, v ≤ l.foldl max a := by
  induction l generalizing a with
  | nil => simp
  | cons b l ih =>
    obtain ⟨h1, h2, h3⟩ := ih (max a b)
    rw [List.foldl_cons]
    refine ⟨?_, (le_max_left a b).trans h2, ?_⟩
    · rcases h1 with h1 | h1
      · rcases max_choice a b with h | h
        · left; rw [h1, h]
        · right; rw [h1, h]; exact List.mem_cons_self
      · right; exact List.mem_cons_of_mem _ h1
    · intro v hv
      rcases List.mem_cons.1 hv with rfl | hv
      · exact (le_max_right a v).trans h2
      · exact h3 v hv

/-- C27. The samples handed to the interpolator are one for each distinct abscissa,
with the largest ordinate recorded there. -/
theorem deduplicate_spec (x y : List ℝ) (l : List (ℝ × ℝ))
    (h : deduplicate x y = .ok l) :
    (l.map Prod.fst).Nodup ∧
    (∀ k, (∃ v, (k, v) ∈ l) ↔ ∃ v, (k, v) ∈ x.zip y) ∧
    ∀ k m, (k, m) ∈ l → (k, m) ∈ x.zip y ∧ ∀ v, (k, v) ∈ x.zip y → v ≤ m := by
  classical
  have hl : l = (dedup_dict x y).map fun p => (p.1, p.2.foldl max (p.2.headD 0)) := by
    unfold deduplicate at h
    cases hd : dedup_dict x y with
    | nil => rw [hd] at h; cases h
    | cons a d => rw [hd] at h; injection h with h; exact h.symm
  have hnod : (Dict.keys (dedup_dict x y)).Nodup := by
    unfold dedup_dict
    exact dedup_nodup _ _ (by simp [Dict.keys])
  have hget : ∀ k, Dict.get? (dedup_dict x y) k =
      if k ∈ (x.zip y).map Prod.fst then
        some (((x.zip y).filter fun p => decide (p.1 = k)).map Prod.snd) else none := by
    intro k
    have := dedup_get (x.zip y) [] k
    simpa [dedup_dict] using this
  have hmem : ∀ (d : Dict ℝ (List ℝ)), (Dict.keys d).Nodup → ∀ k v, (k, v) ∈ d →
      Dict.get? d k = some v := by
    intro d
    induction d with
    | nil => intro _ k v hv; cases hv
    | cons q d ih =>
      obtain ⟨a, b⟩ := q
      intro hn k v hv
      have hn' := List.nodup_cons.1 (by simpa [Dict.keys] using hn : (a :: d.map Prod.fst).Nodup)
      rcases List.mem_cons.1 hv with hv | hv
      · injection hv with h1 h2
        subst h1; subst h2
        simp [Dict.get?]
      · have hk : a ≠ k := by
          rintro rfl
          exact hn'.1 (List.mem_map.2 ⟨_, hv, rfl⟩)
        have := ih (by simpa [Dict.keys] using hn'.2) k v hv
        simpa [Dict.get?, hk] using this
  refine ⟨?_, ?_, ?_⟩
  · rw [hl, List.map_map]
    exact hnod
  · intro k
    have hkeys : (∃ v, (k, v) ∈ l) ↔ k ∈ Dict.keys (dedup_dict x y) := by
      rw [hl]
      simp only [List.mem_map, Dict.keys]
      constructor
      · rintro ⟨v, p, hp, he⟩
        injection he with h1 h2
        exact ⟨p, hp, h1⟩
      · rintro ⟨p, hp, he⟩
        exact ⟨_, p, hp, by rw [← he]⟩
    rw [hkeys, ← Dict.get?_isSome_iff, hget]
    by_cases hk : k ∈ (x.zip y).map Prod.fst
    · rw [if_pos hk]
      simp only [Option.isSome_some, true_iff]
      obtain ⟨p, hp, he⟩ := List.mem_map.1 hk
      exact ⟨p.2, by rw [← he]; exact hp⟩
    · rw [if_neg hk]
      simp only [Option.isSome_none, Bool.false_eq_true, false_iff]
      rintro ⟨v, hv⟩
      exact hk (List.mem_map.2 ⟨_, hv, rfl⟩)
  · intro k m hkm
    rw [hl] at hkm
    obtain ⟨p, hp, he⟩ := List.mem_map.1 hkm
    injection he with h1 h2
    have hg := hmem _ hnod p.1 p.2 hp
    rw [h1, hget] at hg
    by_cases hk : k ∈ (x.zip y).map Prod.fst
    · rw [if_pos hk] at hg
      injection hg with hg
      have hin : ∀ v, v ∈ p.2 ↔ (k, v) ∈ x.zip y := by
        intro v
        rw [← hg]
        simp only [List.mem_map, List.mem_filter, decide_eq_true_eq]
        constructor
        · rintro ⟨q, ⟨hq, e1⟩, e2⟩
          rw [← e1, ← e2]
          exact hq
        · intro hv
          exact ⟨(k, v), ⟨hv, rfl⟩, rfl⟩
      have hne : p.2 ≠ [] := by
        obtain ⟨q, hq, e⟩ := List.mem_map.1 hk
        have := (hin q.2).2 (by rw [← e]; exact hq)
        intro h0
        rw [h0] at this
        cases this
      obtain ⟨s1, s2, s3⟩ := foldl_max_spec p.2 (p.2.headD 0)
      rw [← h2]
      refine ⟨(hin _).1 ?_, fun v hv => s3 v ((hin v).2 hv)⟩
      rcases s1 with s1 | s1
      · rw [s1]
        cases hp2 : p.2 with
        | nil => exact absurd hp2 hne
        | cons a r => exact List.mem_cons_self
      · exact s1
    · rw [if_neg hk] at hg
      cases hg

/-- C27. It fails only when there are no samples. -/
theorem deduplicate_fails (x y : List ℝ) :
    (∃ e, deduplicate x y = .error e) ↔ x.zip y = [] := by
  classical
  unfold deduplicate
  cases hd : dedup_dict x y with
  | nil =>
    simp only [Except.error.injEq, exists_eq', true_iff]
    cases hz : x.zip y with
    | nil => rfl
    | cons p z =>
      have := dedup_get (x.zip y) [] p.1
      rw [hz] at this
      unfold dedup_dict at hd
      rw [hz] at hd
      rw [hd] at this
      simp at this
  | cons p d =>
    simp only [reduceCtorEq, exists_false, false_iff]
    intro hz
    unfold dedup_dict at hd
    rw [hz] at hd
    cases hd

/-- A repeated abscissa. -/
example : ∃ l, deduplicate [1, 2, 1] [5, 6, 7] = .ok l ∧ (l.map Prod.fst).Nodup := by
  cases h : deduplicate [1, 2, 1] [5, 6, 7] with
  | error e => exact absurd ((deduplicate_fails _ _).1 ⟨e, h⟩) (by simp)
  | ok l => exact ⟨l, rfl, (deduplicate_spec _ _ l h).1⟩

/-! ## C70 -/

theorem interp_pair (p q a b y : ℝ) (h1 : p < y) (h2 : y < q) :
    interp1d [(p, a), (q, b)] y = .ok (a + (b - a) / (q - p) * (y - p)) := by
  have hs : sortSamples [(p, a), (q, b)] = [(p, a), (q, b)] := by
    simp only [sortSamples, List.foldl_cons, List.foldl_nil, insertSample]
    rw [if_neg (by simp; linarith)]
  unfold interp1d
  rw [hs]
  simp only [List.head?_cons, List.getLast?_cons_cons, List.getLast?_singleton, interpSorted]
  rw [if_pos (Or.inr trivial)]
  simp only
  rw [if_neg (by push Not; exact ⟨h1.le, h2.le⟩)]

theorem interp_triple (p q r a b c y : ℝ) (h1 : p < y) (h2 : y < q) (h3 : q ≤ r) :
    interp1d [(p, a), (q, b), (r, c)] y = .ok (a + (b - a) / (q - p) * (y - p)) := by
  have hs : sortSamples [(p, a), (q, b), (r, c)] = [(p, a), (q, b), (r, c)] := by
    simp only [sortSamples, List.foldl_cons, List.foldl_nil, insertSample]
    rw [if_neg (by simp; linarith)]
    simp only [insertSample]
    rw [if_neg (by simp; linarith), if_neg (by simp; linarith)]
  unfold interp1d
  rw [hs]
  simp only [List.head?_cons, List.getLast?_cons_cons, List.getLast?_singleton, interpSorted]
  rw [if_pos (Or.inl h2.le)]
  simp only
  rw [if_neg (by push Not; exact ⟨h1.le, by linarith⟩)]

/-- C70, what holds: for an upward crossing after which the values do not fall back,
the answer is the linear interpolation across the crossing interval, which lies
inside it. -/
theorem interp_for_value_partial (xpre ypre xpost ypost : List ℝ) (a b p q y : ℝ)
    (hpre : xpre.length = ypre.length) (hpost : xpost.length = ypost.length)
    (hlo : ∀ u ∈ ypre, u < y) (h1 : p < y) (h2 : y < q)
    (hmono : ∀ r, ypost.head? = some r → q ≤ r) (hab : a ≤ b) :
    interp_for_value (xpre ++ a :: b :: xpost) (ypre ++ p :: q :: ypost) y =
      .ok (some (a + (b - a) / (q - p) * (y - p))) ∧
    a ≤ a + (b - a) / (q - p) * (y - p) ∧ a + (b - a) / (q - p) * (y - p) ≤ b := by
  have hqp : 0 < q - p := by linarith
  constructor
  · have hidx : first_closest_index ((ypre ++ p :: q :: ypost).map some) y =
        .ok (some (ypre.length + 1)) := by
      rw [first_closest_some]
      refine ⟨q, by simp, Or.inr (Or.inl ⟨h2, ?_, ?_⟩)⟩
      · refine ⟨ypre.length, by omega, p, ?_⟩
        simp
      · intro k hk u hu
        rcases Nat.lt_succ_iff_lt_or_eq.1 hk with hk | hk
        · rw [List.getElem?_map, List.getElem?_append_left hk] at hu
          cases hz : ypre[k]? with
          | none => rw [hz] at hu; cases hu
          | some z =>
            rw [hz] at hu
            simp only [Option.map_some, Option.some.injEq] at hu
            rw [← hu]
            exact hlo z (List.mem_of_getElem? hz)
        · subst hk
          simp at hu
          rw [← hu]
          exact h1
    have ey : (ypre ++ p :: q :: ypost)[ypre.length + 1]? = some q := by
      simp
    have ex : (xpre ++ a :: b :: xpost)[ypre.length + 1]? = some b := by
      rw [← hpre]
      simp
    have wy : (ypre ++ p :: q :: ypost).drop (ypre.length + 1 - 1) = p :: q :: ypost := by
      simp
    have wx : (xpre ++ a :: b :: xpost).drop (ypre.length + 1 - 1) = a :: b :: xpost := by
      rw [← hpre]
      simp
    unfold interp_for_value
    rw [hidx]
    simp only [ey, ex]
    rw [if_neg h2.ne', wy, wx, show ypre.length + 1 + 2 - (ypre.length + 1 - 1) = 3 by omega]
    cases ypost with
    | nil =>
      cases xpost with
      | nil => simp only [List.take_succ_cons, List.take_nil, List.zip_cons_cons,
                List.zip_nil_right, interp_pair p q a b y h1 h2]
      | cons _ _ => simp at hpost
    | cons r rs =>
      cases xpost with
      | nil => simp at hpost
      | cons c cs =>
        simp only [List.take_succ_cons, List.take_zero, List.zip_cons_cons,
          List.zip_nil_right,
          interp_triple p q r a b c y h1 h2 (hmono r rfl)]
  · have ht0 : 0 ≤ (y - p) / (q - p) := div_nonneg (by linarith) hqp.le
    have ht1 : (y - p) / (q - p) ≤ 1 := by rw [div_le_one hqp]; linarith
    have e : a + (b - a) / (q - p) * (y - p) = a + (b - a) * ((y - p) / (q - p)) := by ring
    rw [e]
    constructor <;> nlinarith

/-- C70. The critical angle of a solution whose Mach number rises through one, and does
not fall back at once, is where the line between the two samples has Mach number one. -/
theorem sonic_angle_crossing (xpre ypre xpost ypost : List ℝ) (a b p q : ℝ)
    (hpre : xpre.length = ypre.length) (hpost : xpost.length = ypost.length)
    (hlo : ∀ u ∈ ypre, u < 1) (h1 : p < 1) (h2 : 1 < q)
    (hmono : ∀ r, ypost.head? = some r → q ≤ r) (hab : a ≤ b) :
    ∃ θ, sonic_angle (xpre ++ a :: b :: xpost) (ypre ++ p :: q :: ypost) = .ok (some θ) ∧
      a ≤ θ ∧ θ ≤ b ∧ (θ - a) * (q - p) = (b - a) * (1 - p) := by
  obtain ⟨k1, k2, k3⟩ :=
    interp_for_value_partial xpre ypre xpost ypost a b p q 1 hpre hpost hlo h1 h2 hmono hab
  refine ⟨_, ?_, k2, k3, ?_⟩
  · unfold sonic_angle
    rw [if_pos]
    · exact k1
    · rw [List.any_eq_true]
      exact ⟨q, by simp, by simpa using h2⟩
  · have : q - p ≠ 0 := by linarith
    field_simp
    ring

example := sonic_angle_crossing [0] [0] [3] [5] 1 2 (1/2) 2 rfl rfl (by simp) (by norm_num)
  (by norm_num) (by simp; norm_num) (by norm_num)

/-- C70: the Mach number of three samples. -/
example := interp_for_value_partial [0] [0] [3] [5] 1 2 (1/2) 2 1 rfl rfl
  (by simp) (by norm_num) (by norm_num) (by simp; norm_num) (by norm_num)

/-- C70 is false of the code: when the next sample falls back below the target the
answer leaves the crossing interval `[0, 1]`. -/
theorem interp_for_value_outside :
    interp_for_value [0, 1, 2] [0, 2, 1/2] 1 = .ok (some (5/3)) ∧ (1 : ℝ) < 5/3 := by
  refine ⟨?_, by norm_num⟩
  have hidx : first_closest_index (([0, 2, 1/2] : List ℝ).map some) 1 = .ok (some 1) := by
    rw [first_closest_some]
    refine ⟨2, rfl, Or.inr (Or.inl ⟨by norm_num, ⟨0, by omega, 0, rfl⟩, ?_⟩)⟩
    intro k hk u hu
    obtain rfl : k = 0 := by omega
    simp at hu
    rw [← hu]
    norm_num
  have hs : sortSamples [((0 : ℝ), (0 : ℝ)), (2, 1), (1/2, 2)] =
      [(0, 0), (1/2, 2), (2, 1)] := by
    simp only [sortSamples, List.foldl_cons, List.foldl_nil, insertSample]
    rw [if_neg (by norm_num)]
    simp only [insertSample]
    rw [if_neg (by norm_num), if_pos (by norm_num)]
  unfold interp_for_value
  rw [hidx]
  simp only [List.getElem?_cons_succ, List.getElem?_cons_zero]
  rw [if_neg (by norm_num)]
  simp only [Nat.sub_self, List.drop_zero, Nat.sub_zero, List.take_succ_cons, List.take_zero,
    List.zip_cons_cons, List.zip_nil_right, interp1d, hs]
  simp only [List.head?_cons, List.getLast?_cons_cons, List.getLast?_singleton, interpSorted]
  rw [if_neg (by norm_num), if_pos (Or.inr trivial)]
  simp only
  rw [if_neg (by norm_num)]
  norm_num

end DiscSolver
