import Verif.Props.Stepper
import Mathlib.Data.List.TakeWhile
import Mathlib.Tactic.Ring
import Mathlib.Tactic.FieldSimp
import Mathlib.Tactic.Linarith
import Mathlib.Algebra.Order.AbsoluteValue.Basic

/-!
# C46, C47, C73: how `γ` moves, and what becomes of the recorded inputs
-/

namespace DiscSolver

namespace Stepper

variable {F R μ : Type}

/-! ## C46: steps -/

/-- C46: no halving happens exactly as long as every attempt is classified like the
first. -/
theorem halvings_zero_iff (ts : List SplitterStatus) :
    halvings ts = 0 ↔ ∀ t ∈ ts, ts.head? = some t := by
  unfold halvings
  rw [List.length_eq_zero_iff, List.dropWhile_eq_nil_iff]
  simp [eq_comm]

/-- C46: from the first attempt classified differently from the first one on, every
attempt adds one halving. -/
theorem halvings_step (ts : List SplitterStatus) (t : SplitterStatus) :
    halvings (ts ++ [t]) = halvings ts + (if ∀ u ∈ ts ++ [t], (ts ++ [t]).head? = some u
      then 0 else 1) := by
  by_cases h : ∀ u ∈ ts ++ [t], (ts ++ [t]).head? = some u
  · rw [if_pos h]
    have h1 := (halvings_zero_iff _).2 h
    have h2 : halvings ts = 0 := by
      rw [halvings_append] at h1
      by_contra hc
      rw [if_pos hc] at h1
      omega
    rw [h1, h2]
  · rw [if_neg h, halvings_append]
    have h1 := mt (halvings_zero_iff _).1 h
    rw [halvings_append] at h1
    by_cases h0 : halvings ts = 0
    · rw [if_neg (by simpa using h0)] at h1 ⊢
      split_ifs at h1 ⊢ with hc
      · exact absurd rfl h1
      · omega
    · rw [if_pos h0]

/-- The attempt number `j + 1` follows from number `j`: classified as `ts[j]`, it is
the same input with `γ` moved by the initial step halved `halvings` times. -/
def Follows (c : Setup F R) (split : Splitter) (i₀ : Input F R)
    (as : List (Attempt F R)) (ts : List SplitterStatus) : Prop :=
  ∀ (j : ℕ) (a b : Attempt F R), as[j]? = some a → as[j + 1]? = some b →
    ∃ t, ts[j]? = some t ∧ split ((as.take j).map (·.data)) a.data = .ok t ∧
      b.input.rest = a.input.rest ∧
      next_γ c.ops a.input.γ t
        (c.ops.half^[halvings (ts.take (j + 1))] (c.ops.tenth i₀.γ)) = .ok b.input.γ

theorem history_follows {c : Setup F R} {split : Splitter} {i₀ i : Input F R}
    {xs : List (Attempt F R)} {ts : List SplitterStatus}
    (h : History c split i₀ xs ts i) (d : SolnData) :
    Follows c split i₀ (xs ++ [⟨i, d⟩]) ts := by
  induction h generalizing d with
  | start =>
    intro j a b ha hb
    rw [List.getElem?_eq_none (by simp)] at hb
    simp at hb
  | @next xs ts i d' t γ hist hs hb ht hl hn ih =>
    have htl := history_types hist
    intro j a b ha hb'
    rcases Nat.lt_trichotomy j xs.length with hj | hj | hj
    · have hmem : ∀ k ≤ xs.length, (xs ++ [(⟨i, d'⟩ : Attempt F R)] ++
          [⟨{ i with γ := γ }, d⟩])[k]? = (xs ++ [(⟨i, d'⟩ : Attempt F R)])[k]? := fun k hk =>
        List.getElem?_append_left (by simp; omega)
      rw [hmem _ (by omega)] at ha
      rw [hmem _ (by omega)] at hb'
      obtain ⟨u, h1, h2, h3, h4⟩ := ih d' j a b ha hb'
      refine ⟨u, by rw [List.getElem?_append_left (by omega)]; exact h1, ?_, h3, ?_⟩
      · rw [List.take_append_of_le_length (by simp; omega)]
        exact h2
      · rw [List.take_append_of_le_length (by omega)]
        exact h4
    · subst hj
      rw [List.append_assoc, List.getElem?_append_right (by omega)] at ha hb'
      simp at ha hb'
      subst ha hb'
      refine ⟨t, by rw [List.getElem?_append_right (by omega)]; simp [htl], ?_, rfl, ?_⟩
      · rw [List.append_assoc, List.take_append_of_le_length (by omega), List.take_length]
        exact ht
      · rw [List.take_of_length_le (by simp; omega)]
        exact hn
    · rw [List.getElem?_eq_none (by simp; omega)] at hb'
      simp at hb'

theorem ends_follows {c : Setup F R} {split : Splitter} {i₀ i : Input F R} {n : ℕ}
    {xs as : List (Attempt F R)} {ts : List SplitterStatus} {e : Reason}
    (h : History c split i₀ xs ts i) (h' : Ends c split i₀ n xs ts i e as) :
    Follows c split i₀ as ts := by
  rcases ends_stored h' with rfl | ⟨d, rfl, _, _⟩
  · intro j a b ha hb
    have hj : j + 1 < as.length := by
      by_contra hc
      rw [List.getElem?_eq_none (by omega)] at hb
      simp at hb
    have := history_follows h ⟨none, [], none⟩ j a b
      (by rw [List.getElem?_append_left (by omega)]; exact ha)
      (by rw [List.getElem?_append_left (by omega)]; exact hb)
    rwa [List.take_append_of_le_length (by omega)] at this
  · exact history_follows h d

/-- C46: in every search there are classifications such that each stored attempt is
the one before it with `γ` moved by one step: the initial tenth of `γ`, halved once
for each attempt from the first change of classification on. -/
theorem solver_steps (c : Setup F R) (human : List SolnData → SplitterStatus)
    (m : String) (split : Splitter) (i₀ : Input F R) (r₀ : Run μ (Stored F R)) (n : ℕ)
    (hm : create_soln_splitter human m = .ok split) (hflags : Flags c) (hr : Fresh r₀) :
    ∃ (as : List (Attempt F R)) (ss : List (Stored F R)) (ts : List SplitterStatus),
      (solver c human m i₀ r₀ n).2.1.solutions = numbered ss ∧ DataOf ss as ∧
      (∀ a, as.head? = some a → a.input = i₀) ∧ Follows c split i₀ as ts := by
  obtain ⟨xs, ts, i, e, as, ss, heap, next, h1, h2, h3, h4, h5⟩ :=
    solver_outcome c human m split i₀ r₀ n hm hflags hr
  refine ⟨as, ss, ts, by rw [h5], h4.dataOf, ?_, ends_follows h1 h3⟩
  intro a ha
  have hh := history_head h1
  rcases ends_stored h3 with rfl | ⟨d, rfl, hd, _⟩
  · cases as with
    | nil => simp at ha
    | cons x xs => simp at ha hh; subst ha; exact hh
  · cases xs with
    | nil => simp at ha hh; subst ha; exact hh
    | cons x xs => simp at ha hh; subst ha; exact hh

/-- Exact arithmetic. -/
noncomputable def realOps : Ops ℝ :=
  ⟨(· + ·), (· - ·), fun x => x / 2, fun x => 0.1 * x, 0⟩

theorem half_iterate (k : ℕ) (x : ℝ) : realOps.half^[k] x = x / 2 ^ k := by
  induction k with
  | zero => simp
  | succ k ih =>
    rw [Function.iterate_succ_apply', ih]
    simp only [realOps]
    field_simp
    ring

/-- C46: in exact arithmetic a step that is not zero moves `γ` by exactly that step,
down when diverging and up on a sign flip. -/
theorem next_γ_exact (γ step : ℝ) (h : step ≠ 0) :
    next_γ realOps γ .DIVERGE step = .ok (γ - step) ∧
    next_γ realOps γ .SIGN_FLIP step = .ok (γ + step) := by
  unfold next_γ
  constructor
  · have e : ¬ realOps.sub γ step = γ := by simpa [realOps] using h
    simp only [if_neg e]
    rfl
  · have e : ¬ realOps.add γ step = γ := by simpa [realOps] using h
    simp only [if_neg e]
    rfl

example : next_γ realOps 1 .DIVERGE 0.1 = .ok (1 - 0.1) :=
  (next_γ_exact 1 0.1 (by norm_num)).1

/-- C46: whatever the arithmetic, a new `γ` is different from the old one. -/
theorem next_γ_moves (o : Ops F) (γ γ' step : F) (t : SplitterStatus)
    (h : next_γ o γ t step = .ok γ') : γ' ≠ γ := by
  unfold next_γ at h
  cases t with
  | STOP => simp at h
  | DIVERGE =>
    simp only at h
    split_ifs at h with hc
    injection h with h
    rw [← h]; exact hc
  | SIGN_FLIP =>
    simp only at h
    split_ifs at h with hc hk
    · injection h with h
      rw [← h]
      classical exact Nat.find_spec hk
    · injection h with h
      rw [← h]; exact hc

example : (1 : ℝ) - 0.1 ≠ 1 :=
  next_γ_moves realOps _ _ _ _ (next_γ_exact 1 0.1 (by norm_num)).1

theorem bigger_step_zero (k : ℕ) : bigger_step realOps 0 k = 0 := by
  induction k with
  | zero => rfl
  | succ k ih => simp only [bigger_step, ih]; simp [realOps]

/-- C46 fails for `γ = 0`: the step is zero, so the search stops at a diverging
solution and never ends at a sign flip. -/
theorem zero_γ_stuck (k : ℕ) :
    next_γ realOps 0 .DIVERGE (realOps.half^[k] (realOps.tenth 0)) = .error .stop ∧
    next_γ realOps 0 .SIGN_FLIP (realOps.half^[k] (realOps.tenth 0)) = .error .hangs := by
  have h0 : realOps.half^[k] (realOps.tenth 0) = 0 := by
    rw [half_iterate]; simp [realOps]
  rw [h0]
  unfold next_γ
  constructor
  · simp [realOps]
  · have e : realOps.add 0 0 = 0 := by simp [realOps]
    simp only [if_pos e]
    rw [dif_neg]
    rintro ⟨k, hk⟩
    rw [bigger_step_zero] at hk
    exact hk e

/-! ## C73: bisection converges -/

/-- C73: with exact arithmetic and a positive starting `γ`, if a threshold separates
diverging solutions (above) from sign flips (at or below), then once the
classification has changed the next `γ` is within the last step of the threshold:
the error halves with every further attempt. -/
theorem bisection_converges {c : Setup ℝ R} {split : Splitter} {i₀ i : Input ℝ R}
    {xs : List (Attempt ℝ R)} {ts : List SplitterStatus} (γs : ℝ)
    (hops : c.ops = realOps) (hpos : 0 < i₀.γ)
    (hsplit : ∀ (j : Input ℝ R) (d : SolnData) (seen : List SolnData), c.solve j = .ok d →
      split seen d = .ok (if γs < j.γ then .DIVERGE else .SIGN_FLIP))
    (h : History c split i₀ xs ts i) (hts : halvings ts ≠ 0) :
    |i.γ - γs| ≤ 0.1 * i₀.γ / 2 ^ halvings ts := by
  have key : (halvings ts ≠ 0 → |i.γ - γs| ≤ 0.1 * i₀.γ / 2 ^ halvings ts) ∧
      (halvings ts = 0 →
        (ts.head? = some .DIVERGE → γs < i.γ + 0.1 * i₀.γ) ∧
        (ts.head? = some .SIGN_FLIP → i.γ - 0.1 * i₀.γ ≤ γs) ∧
        ts.head? ≠ some .STOP) := by
    clear hts
    induction h with
    | start => simp [halvings]
    | @next xs ts i d t γ hist hs hb ht hl hn ih =>
      have hs0 : 0 < 0.1 * i₀.γ := by positivity
      have htype := hsplit i d (xs.map (·.data)) hs
      rw [ht] at htype
      injection htype with htype
      rw [hops] at hn
      have htenth : realOps.tenth i₀.γ = 0.1 * i₀.γ := rfl
      unfold stepAfter at hn
      rw [half_iterate, htenth] at hn
      set s := 0.1 * i₀.γ / 2 ^ halvings (ts ++ [t]) with hsdef
      have hspos : 0 < s := by positivity
      have hmove : (γs < i.γ ∧ t = .DIVERGE ∧ γ = i.γ - s) ∨
          (i.γ ≤ γs ∧ t = .SIGN_FLIP ∧ γ = i.γ + s) := by
        by_cases hc : γs < i.γ
        · rw [if_pos hc] at htype
          rw [htype, (next_γ_exact _ _ hspos.ne').1] at hn
          injection hn with hn
          exact .inl ⟨hc, htype, hn.symm⟩
        · rw [if_neg hc] at htype
          rw [htype, (next_γ_exact _ _ hspos.ne').2] at hn
          injection hn with hn
          exact .inr ⟨not_lt.1 hc, htype, hn.symm⟩
      rw [halvings_append] at hsdef
      by_cases h0 : halvings ts = 0
      · obtain ⟨hD, hS, hno⟩ := ih.2 h0
        rw [if_neg (by simpa using h0)] at hsdef
        by_cases hsame : ts = [] ∨ ts.head? = some t
        · rw [if_pos hsame, pow_zero, div_one] at hsdef
          have hz : halvings (ts ++ [t]) = 0 := by
            rw [halvings_append, if_neg (by simpa using h0), if_pos hsame]
          refine ⟨fun hc => absurd hz hc, fun _ => ?_⟩
          have hhead : (ts ++ [t]).head? = some t := by
            rcases hsame with rfl | hh
            · rfl
            · cases ts with
              | nil => simp at hh
              | cons a l => simpa using hh
          rw [hhead]
          rcases hmove with ⟨hc, rfl, hg⟩ | ⟨hc, rfl, hg⟩
          · refine ⟨fun _ => ?_, by simp, by simp⟩
            simp only [hg]; linarith
          · refine ⟨by simp, fun _ => ?_, by simp⟩
            simp only [hg]; linarith
        · rw [if_neg hsame, pow_one] at hsdef
          have hone : halvings (ts ++ [t]) = 1 := by
            rw [halvings_append, if_neg (by simpa using h0), if_neg hsame]
          refine ⟨fun _ => ?_, fun hc => by omega⟩
          push Not at hsame
          obtain ⟨hne, hhd⟩ := hsame
          cases hh : ts.head? with
          | none => simp at hh; exact absurd hh hne
          | some u =>
            rw [hh] at hD hS hno hhd
            rw [abs_le]
            rcases hmove with ⟨hc, rfl, hg⟩ | ⟨hc, rfl, hg⟩
            · cases u with
              | STOP => exact absurd rfl hno
              | DIVERGE => exact absurd rfl hhd
              | SIGN_FLIP =>
                have := hS rfl
                simp only [hg]
                constructor <;> linarith
            · cases u with
              | STOP => exact absurd rfl hno
              | SIGN_FLIP => exact absurd rfl hhd
              | DIVERGE =>
                have := hD rfl
                simp only [hg]
                constructor <;> linarith
      · rw [if_pos h0] at hsdef
        have hsucc : halvings (ts ++ [t]) = halvings ts + 1 := by
          rw [halvings_append, if_pos h0]
        refine ⟨fun _ => ?_, fun hc => by omega⟩
        have hi := ih.1 h0
        have h2 : 0.1 * i₀.γ / 2 ^ halvings ts = 2 * s := by
          rw [hsdef, pow_succ]; field_simp
        rw [h2] at hi
        rw [abs_le] at hi ⊢
        rcases hmove with ⟨hc, _, hg⟩ | ⟨hc, _, hg⟩
        · simp only [hg]
          constructor <;> linarith
        · simp only [hg]
          constructor <;> linarith
  exact key.1 hts

/-! ## C47: recorded inputs -/

/-- C47 (the part that holds): in a run that belongs to an open file every recorded
solution keeps the input it was computed with.  Missing: runs kept in memory. -/
theorem recorded_input_on_file_partial (c : Setup F R)
    (human : List SolnData → SplitterStatus)
    (m : String) (split : Splitter) (i₀ : Input F R) (r₀ : Run μ (Stored F R)) (n : ℕ)
    (hm : create_soln_splitter human m = .ok split) (hflags : Flags c) (hr : Fresh r₀)
    (hfile : c.on_file = true) :
    ∃ (ss : List (Stored F R)),
      (solver c human m i₀ r₀ n).2.1.solutions = numbered ss ∧
      ∀ s ∈ ss, ∃ i, s.saved = some i ∧ c.solve i = .ok s.soln.data := by
  obtain ⟨xs, ts, i, e, as, ss, heap, next, h1, h2, h3, h4, h5⟩ :=
    solver_outcome c human m split i₀ r₀ n hm hflags hr
  refine ⟨ss, by rw [h5], ?_⟩
  intro s hs
  obtain ⟨j, hj, rfl⟩ := List.mem_iff_getElem.1 hs
  have hja : j < as.length := by rw [← h4.1]; exact hj
  obtain ⟨r1, r2, _, _⟩ := h4.2.2 j _ _ _ (List.getElem?_eq_getElem hj)
    (List.getElem?_eq_getElem hja)
    (List.getElem?_eq_getElem (show j < (laterInputs as i).length by rw [h4.2.1]; exact hja))
  rw [if_pos hfile] at r2
  refine ⟨_, r2, ?_⟩
  rw [r1]
  have hmem : as[j] ∈ as := List.getElem_mem hja
  rcases ends_stored h3 with rfl | ⟨d, rfl, hd, _⟩
  · exact (history_solved h1 _ hmem).1
  · rcases List.mem_append.1 hmem with hm' | hm'
    · exact (history_solved h1 _ hm').1
    · rw [List.mem_singleton] at hm'
      rw [hm']
      exact hd

/-- C47 is false of the code: in a run kept in memory every recorded solution but the
last shows, after the search, the input of the attempt that came after it. -/
theorem recorded_input_shifted (c : Setup F R) (human : List SolnData → SplitterStatus)
    (m : String) (split : Splitter) (i₀ : Input F R) (r₀ : Run μ (Stored F R)) (n : ℕ)
    (hm : create_soln_splitter human m = .ok split) (hflags : Flags c) (hr : Fresh r₀)
    (hmem : c.on_file = false) :
    ∃ (as : List (Attempt F R)) (ss : List (Stored F R)),
      (solver c human m i₀ r₀ n).2.1.solutions = numbered ss ∧ DataOf ss as ∧
      (∀ a ∈ as, c.solve a.input = .ok a.data) ∧
      (∀ (j : ℕ) (s : Stored F R) (b : Attempt F R), ss[j]? = some s → as[j + 1]? = some b →
        s.saved = none ∧ (solver c human m i₀ r₀ n).2.2 s.soln.input = b.input) ∧
      (∀ (j : ℕ) (a b : Attempt F R), as[j]? = some a → as[j + 1]? = some b →
        a.input.γ ≠ b.input.γ) := by
  obtain ⟨xs, ts, i, e, as, ss, heap, next, h1, h2, h3, h4, h5⟩ :=
    solver_outcome c human m split i₀ r₀ n hm hflags hr
  refine ⟨as, ss, by rw [h5], h4.dataOf, ?_, ?_, ?_⟩
  · rcases ends_stored h3 with rfl | ⟨d, rfl, hd, _⟩
    · exact fun a ha => (history_solved h1 a ha).1
    · intro a ha
      rcases List.mem_append.1 ha with ha | ha
      · exact (history_solved h1 a ha).1
      · rw [List.mem_singleton] at ha
        rw [ha]; exact hd
  · intro j s b hs hb
    have hj : j + 1 < as.length := by
      by_contra hc
      rw [List.getElem?_eq_none (by omega)] at hb
      simp at hb
    have hl : (laterInputs as i)[j]? = some b.input := by
      unfold laterInputs
      rw [List.getElem?_tail, List.getElem?_append_left (by simpa using hj), List.getElem?_map,
        hb]
      rfl
    obtain ⟨r1, r2, r3, r4⟩ := h4.2.2 j s as[j] b.input hs
      (List.getElem?_eq_getElem (by omega)) hl
    rw [if_neg (by simp [hmem])] at r2
    exact ⟨r2, by rw [h5]; exact r4⟩
  · intro j a b ha hb
    obtain ⟨t, _, _, _, h⟩ := ends_follows h1 h3 j a b ha hb
    exact fun he => next_γ_moves _ _ _ _ _ h he.symm

/-- C47: the final solution, when there is one, shows the input it was computed with
either way. -/
theorem recorded_input_final (c : Setup F R) (human : List SolnData → SplitterStatus)
    (m : String) (split : Splitter) (i₀ : Input F R) (r₀ : Run μ (Stored F R)) (n : ℕ)
    (hm : create_soln_splitter human m = .ok split) (hflags : Flags c) (hr : Fresh r₀)
    (s : Stored F R) (hf : (solver c human m i₀ r₀ n).2.1.final = .value (some s)) :
    (∀ i, s.saved = some i → c.solve i = .ok s.soln.data) ∧
    c.solve ((solver c human m i₀ r₀ n).2.2 s.soln.input) = .ok s.soln.data := by
  obtain ⟨xs, ts, i, e, as, ss, heap, next, h1, h2, h3, h4, h5⟩ :=
    solver_outcome c human m split i₀ r₀ n hm hflags hr
  rw [h5] at hf ⊢
  have hset : e.setsFinal = true ∧ ss.getLast? = some s := by
    cases e <;> simp only [finalFor] at hf <;> try split_ifs at hf
    · simp at hf
    · injection hf with hf; exact ⟨rfl, hf⟩
    · simp at hf
    · injection hf with hf; exact ⟨rfl, hf⟩
    · simp at hf
  obtain ⟨d, rfl, hd⟩ : ∃ d, as = xs ++ [⟨i, d⟩] ∧ c.solve i = .ok d := by
    cases h3 with
    | exhausted => simp [Reason.setsFinal] at hset
    | noSolution => simp [Reason.setsFinal] at hset
    | found _ hd => exact ⟨_, rfl, hd⟩
    | noType _ hd => exact ⟨_, rfl, hd⟩
    | gaveUp _ hd => exact ⟨_, rfl, hd⟩
    | stopped _ hd => exact ⟨_, rfl, hd⟩
    | hangs _ hd => exact ⟨_, rfl, hd⟩
  have hlen : ss.length = xs.length + 1 := by rw [h4.1]; simp
  have hs : ss[xs.length]? = some s := by
    rw [List.getLast?_eq_getElem?, hlen] at hset
    exact hset.2
  obtain ⟨r1, r2, r3, r4⟩ := h4.2.2 xs.length s ⟨i, d⟩ i hs (by simp)
    (by rw [laterInputs_snoc, List.getElem?_append_right (by simp [laterInputs])]
        simp [laterInputs])
  refine ⟨?_, ?_⟩
  · intro i' hi'
    rw [r2] at hi'
    split_ifs at hi'
    injection hi' with hi'
    rw [← hi', r1]
    exact hd
  · simp only
    rw [r4, r1]
    exact hd

/-! A search that finds a solution at the second attempt. -/

/-- A solution that does not get near the sound speed. -/
def witBad : SolnData := solnV [0.5] none

theorem witBad_near : nearSonicSamples witBad = [] := by
  unfold nearSonicSamples witBad
  rw [column_solnV]
  simp [List.reduceOption]
  norm_num

theorem witBad_bad : is_solution_best witBad = false := by
  rw [Bool.eq_false_iff]
  intro h
  exact ((best_iff _).1 h).2.1 witBad_near

/-- Every input but `γ = 1` has an acceptable solution. -/
noncomputable def witSetup (on_file : Bool) : Setup ℝ Unit :=
  { ops := realOps
    solve := fun i => open Classical in .ok (if i.γ = 1 then witBad else witBest)
    on_file := on_file
    no_final_solution := false
    max_search_steps := 20 }

theorem witSetup_flags (b : Bool) : Flags (witSetup b) := by
  intro i d h
  simp only [witSetup] at h
  injection h with h
  subst h
  split_ifs <;> simp [witBad, witBest, solnV]

/-- Someone who answers `diverge`. -/
def witHuman : List SolnData → SplitterStatus := fun _ => .DIVERGE

/-- The `human` splitter with that answer. -/
def witSplit : Splitter := fun _ _ => .ok .DIVERGE

theorem witSplit_made : create_soln_splitter witHuman "human" = .ok witSplit := by
  unfold create_soln_splitter
  rw [if_neg (by decide), if_pos rfl]
  rfl

/-- The starting input. -/
def witInput : Input ℝ Unit := ⟨1, ()⟩

/-- An empty run. -/
def witRun : Run Unit (Stored ℝ Unit) := { info := () }

theorem witRun_fresh : Fresh witRun := ⟨rfl, rfl⟩

theorem witHistory (b : Bool) : History (witSetup b) witSplit witInput
    [⟨witInput, witBad⟩] [.DIVERGE] ⟨0.9, ()⟩ := by
  have hn : next_γ realOps 1 .DIVERGE (stepAfter realOps (realOps.tenth 1)
      ([] ++ [SplitterStatus.DIVERGE])) = .ok 0.9 := by
    have : stepAfter realOps (realOps.tenth 1) ([] ++ [SplitterStatus.DIVERGE]) = 0.1 := by
      simp [stepAfter, halvings, realOps]
    rw [this, (next_γ_exact 1 0.1 (by norm_num)).1]
    norm_num
  exact History.next (c := witSetup b) (split := witSplit) (i₀ := witInput) (d := witBad)
    (t := .DIVERGE) (γ := 0.9) .start (by simp [witSetup, witInput]) witBad_bad rfl
    (.inr (by simp [witSetup])) hn

theorem wit_next : next_γ realOps 1 .DIVERGE 0.1 = .ok 0.9 := by
  rw [(next_γ_exact 1 0.1 (by norm_num)).1]
  norm_num

/-- That search kept in memory: two attempts, and both records show `γ = 0.9`. -/
theorem wit_shown :
    let out := solver (witSetup false) witHuman "human" witInput witRun 2
    out.1 = .ok true ∧
    out.2.1.solutions = numbered [⟨⟨witBad, 1⟩, none⟩, ⟨⟨witBest, 3⟩, none⟩] ∧
    (out.2.2 1).γ = 0.9 := by
  have hw : (0.9 : ℝ) ≠ 1 := by norm_num
  have ht : realOps.tenth 1 = 0.1 := by simp [realOps]
  have hadd : ∀ (s : Stored ℝ Unit), Solutions.add ([] : Solutions (Stored ℝ Unit)) s =
      .ok ("0", numbered [s]) := fun s => add_numbered [] s
  have hadd' : ∀ (s s' : Stored ℝ Unit), Solutions.add (numbered [s]) s' =
      .ok (Nat.repr 1, numbered [s, s']) := fun s s' => add_numbered [s] s'
  have hf : witBad.flag = some .SUCCESS := rfl
  have hf' : witBest.flag = some .SUCCESS := rfl
  have hlast : ∀ (s s' : Stored ℝ Unit), Solutions.getLast (numbered [s, s']) = .ok s' :=
    fun s s' => get_last_most_recent [s] s'
  simp only [solver, witSplit_made, run_search, binary_searcher, search, solution_func]
  simp [witSetup, witInput, witBad_bad, witBest_best, stepper, Code.bind, writer, hf, hf',
    witRun, Run.addSolution, hadd, get_soln_type, witSplit, choose, choose_step, step_func, ht,
    wit_next, World.alloc, hw, cleanup, assign_final, hadd', hlast, Run.setFinal,
    bind, Except.bind, pure, Except.pure, has_final]

/-- C47 is false of the code: after this search the first recorded solution shows an
input whose solution is a different one. -/
theorem recorded_input_wrong :
    ∃ s : Stored ℝ Unit,
      Dict.get? (solver (witSetup false) witHuman "human" witInput witRun 2).2.1.solutions "0" =
        some s ∧ s.saved = none ∧
      (witSetup false).solve
        ((solver (witSetup false) witHuman "human" witInput witRun 2).2.2 s.soln.input) ≠
        .ok s.soln.data := by
  obtain ⟨-, h2, h3⟩ := wit_shown
  refine ⟨⟨⟨witBad, 1⟩, none⟩, ?_, rfl, ?_⟩
  · rw [h2]
    exact numbered_get (σ := Stored ℝ Unit) [⟨⟨witBad, 1⟩, none⟩, ⟨⟨witBest, 3⟩, none⟩] 0
  · simp only [witSetup]
    intro h
    injection h with h
    rw [if_neg] at h
    · have := congrArg is_solution_best h
      rw [witBest_best, witBad_bad] at this
      simp at this
    · have h3' := h3
      simp only [witSetup] at h3'
      rw [h3']
      norm_num

example := solver_stores_attempts (witSetup true) witHuman "human" witSplit witInput witRun 2
  witSplit_made (witSetup_flags true) witRun_fresh

example := (solver_final (witSetup false) witHuman "human" witSplit witInput witRun 2
  witSplit_made (witSetup_flags false) witRun_fresh rfl).1 wit_shown.1

example := solver_best_is_final (witSetup false) witHuman "human" witSplit witInput witRun 2
  witSplit_made (witSetup_flags false) witRun_fresh rfl (Nat.repr 1) ⟨⟨witBest, 3⟩, none⟩
  (by rw [wit_shown.2.1]
      exact numbered_get (σ := Stored ℝ Unit) [⟨⟨witBad, 1⟩, none⟩, ⟨⟨witBest, 3⟩, none⟩] 1) witBest_best

example := solver_steps (witSetup true) witHuman "human" witSplit witInput witRun 2
  witSplit_made (witSetup_flags true) witRun_fresh

example := recorded_input_on_file_partial (witSetup true) witHuman "human" witSplit witInput
  witRun 2 witSplit_made (witSetup_flags true) witRun_fresh rfl

example := recorded_input_shifted (witSetup false) witHuman "human" witSplit witInput
  witRun 2 witSplit_made (witSetup_flags false) witRun_fresh rfl

example := recorded_input_final (witSetup false) witHuman "human" witSplit witInput
  witRun 2 witSplit_made (witSetup_flags false) witRun_fresh
  _ ((solver_final (witSetup false) witHuman "human" witSplit witInput witRun 2
    witSplit_made (witSetup_flags false) witRun_fresh rfl).1 wit_shown.1).choose_spec.1

/-! A search around a threshold. -/

/-- A solution marked as diverging or not. -/
def witMarked (b : Bool) : SolnData := ⟨some .TOO_CLOSE, [], if b then none else some ⟨[], []⟩⟩

/-- Never accepted; marked by whether `γ` is above `0.95`. -/
noncomputable def witThreshold : Setup ℝ Unit :=
  { ops := realOps
    solve := fun i => open Classical in .ok (witMarked (decide (0.95 < i.γ)))
    on_file := true
    no_final_solution := false
    max_search_steps := 20 }

/-- Reads the mark. -/
def witMarkSplit : Splitter := fun _ d =>
  .ok (if d.internal.isNone then .DIVERGE else .SIGN_FLIP)

theorem witThreshold_splits (j : Input ℝ Unit) (d : SolnData) (seen : List SolnData)
    (h : witThreshold.solve j = .ok d) :
    witMarkSplit seen d = .ok (if 0.95 < j.γ then .DIVERGE else .SIGN_FLIP) := by
  simp only [witThreshold] at h
  injection h with h
  subst h
  by_cases hc : (0.95 : ℝ) < j.γ <;> simp [witMarkSplit, witMarked, hc]

theorem witMarked_bad (b : Bool) : is_solution_best (witMarked b) = false := by
  rw [Bool.eq_false_iff]
  intro h
  have := ((best_iff _).1 h).1.success
  simp [witMarked] at this

theorem witThreshold_history : History witThreshold witMarkSplit witInput
    [⟨witInput, witMarked true⟩, ⟨⟨0.9, ()⟩, witMarked false⟩] [.DIVERGE, .SIGN_FLIP]
    ⟨0.95, ()⟩ := by
  have h1 : History witThreshold witMarkSplit witInput [⟨witInput, witMarked true⟩]
      [.DIVERGE] ⟨0.9, ()⟩ := by
    refine History.next (c := witThreshold) (i := witInput) (xs := []) (ts := [])
      (d := witMarked true) (t := .DIVERGE) (γ := 0.9) .start ?_ (witMarked_bad _) ?_
      (.inr (by simp [witThreshold])) ?_
    · simp [witThreshold, witInput]; norm_num
    · simp [witMarkSplit, witMarked]
    · have : stepAfter witThreshold.ops (witThreshold.ops.tenth witInput.γ)
          ([] ++ [SplitterStatus.DIVERGE]) = 0.1 := by
        simp [stepAfter, halvings, realOps, witThreshold, witInput]
      rw [this]
      exact wit_next
  refine History.next (c := witThreshold) (i := ⟨0.9, ()⟩) (xs := [⟨witInput, witMarked true⟩])
    (ts := [.DIVERGE]) (d := witMarked false) (t := .SIGN_FLIP) (γ := 0.95) h1 ?_
    (witMarked_bad _) ?_ (.inr (by simp [witThreshold])) ?_
  · simp [witThreshold]; norm_num
  · simp [witMarkSplit, witMarked]
  · have : stepAfter witThreshold.ops (witThreshold.ops.tenth witInput.γ)
        ([.DIVERGE] ++ [SplitterStatus.SIGN_FLIP]) = 0.05 := by
      simp [stepAfter, halvings, realOps, witThreshold, witInput]; norm_num
    rw [this]
    have := (next_γ_exact 0.9 0.05 (by norm_num)).2
    rw [show witThreshold.ops = realOps from rfl, this]
    norm_num

example := bisection_converges 0.95 rfl (by norm_num [witInput]) witThreshold_splits
  witThreshold_history (by simp [halvings])

end Stepper

end DiscSolver
