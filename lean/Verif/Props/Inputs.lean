import Mathlib.Tactic.Linarith
import Verif.Model.Inputs
import Verif.Lemmas.Text
import Verif.Lemmas.Dict

/-!
# Inputs: C37, C38, C39, C40, C41
-/

namespace DiscSolver

open Text hiding none

/-! ## C40 -/

/-- Reading back a comma-separated list of numbers. -/
theorem str_to_slice_join (eval : Text → Except PyErr (Option PySlice)) (l : List Int)
    (hl : l ≠ []) :
    str_to_slice eval (some (joinComma (l.map ofInt))) =
      match mkSlice l with
      | .error e => .error e
      | .ok s => .ok (some s) := by
  have hne : l.map ofInt ≠ [] := by simpa using hl
  have hchars : ∀ c ∈ joinComma (l.map ofInt), c = ',' ∨ c = '-' ∨ c.isDigit = true := by
    clear hl hne
    induction l with
    | nil => intro c hc; simp [joinComma] at hc
    | cons a l ih =>
      intro c hc
      cases l with
      | nil =>
        simp only [joinComma, List.map_cons, List.map_nil,
          List.intercalate_singleton] at hc
        exact Or.inr (ofInt_chars a hc)
      | cons b l =>
        simp only [joinComma, List.map_cons, List.intercalate_cons_cons] at hc ih
        rcases List.mem_append.1 hc with hc | hc
        · rcases List.mem_append.1 hc with hc | hc
          · exact Or.inr (ofInt_chars a hc)
          · left; simpa using hc
        · exact ih c hc
  have hsplit : splitComma (joinComma (l.map ofInt)) = l.map ofInt := by
    apply splitComma_joinComma hne
    intro s hs c hc
    obtain ⟨n, -, rfl⟩ := List.mem_map.1 hs
    exact ofInt_no_comma n hc
  have hstrip : strip (joinComma (l.map ofInt)) = joinComma (l.map ofInt) := by
    apply strip_of
    apply trim_of_all
    intro c hc
    rcases hchars c hc with rfl | rfl | h
    · rfl
    · rfl
    · exact isDigit_not_space h
  have hmap : (l.map ofInt).mapM toInt = .ok l := by
    clear hl hne hchars hsplit hstrip
    induction l with
    | nil => rfl
    | cons a l ih => rw [List.map_cons, List.mapM_cons, toInt_ofInt, ih]; rfl
  have hno : ∀ c : Char, c ∈ joinComma (l.map ofInt) → c ≠ 'N' ∧ c ≠ 's' := by
    intro c hc
    rcases hchars c hc with rfl | rfl | h
    · decide
    · decide
    · constructor <;> (rintro rfl; simp [Char.isDigit] at h)
  have h1 : joinComma (l.map ofInt) ≠ Text.none := by
    intro hp
    exact (hno 'N' (by rw [hp]; simp [Text.none])).1 rfl
  have h2 : ¬ ("slice(".toList.isPrefixOf (joinComma (l.map ofInt)) = true) := by
    intro hp
    have hp' := List.isPrefixOf_iff_prefix.1 hp
    obtain ⟨t, ht⟩ := hp'
    exact (hno 's' (by rw [← ht]; simp)).2 rfl
  unfold str_to_slice
  simp only [if_neg h1, if_neg h2, hstrip, hsplit, hmap]
  cases mkSlice l <;> rfl

/-- C40. A slice round-trips through text exactly when both ends are given, or the stop
alone. -/
theorem slice_text_iff (eval : Text → Except PyErr (Option PySlice)) (s : PySlice)
    (t : Text) (ht : slice_to_str (some s) = .ok t) :
    str_to_slice eval (some t) = .ok (some s) ↔
      (s.start ≠ none ∧ s.stop ≠ none) ∨
      (s.start = none ∧ s.stop ≠ none ∧ s.step = none) := by
  obtain ⟨a, b, c⟩ := s
  simp only [slice_to_str] at ht
  injection ht with ht
  subst ht
  have hnil : str_to_slice eval (some []) = .error .ValueError := rfl
  have key : ∀ l : List Int, l ≠ [] → str_to_slice eval (some (joinComma (l.map ofInt))) =
      match mkSlice l with
      | .error e => .error e
      | .ok s => .ok (some s) := fun l hl => str_to_slice_join eval l hl
  cases a with
  | none =>
    cases b with
    | none =>
      cases c with
      | none =>
        have : str_to_slice eval (some (joinComma (List.map ofInt
          (List.filterMap id [none, none, none])))) = .error .ValueError := rfl
        rw [this]; simp
      | some c => have := key [c] (by simp); simp_all [mkSlice]
    | some b =>
      cases c with
      | none => have := key [b] (by simp); simp_all [mkSlice]
      | some c => have := key [b, c] (by simp); simp_all [mkSlice]
  | some a =>
    cases b with
    | none =>
      cases c with
      | none => have := key [a] (by simp); simp_all [mkSlice]
      | some c => have := key [a, c] (by simp); simp_all [mkSlice]
    | some b =>
      cases c with
      | none => have := key [a, b] (by simp); simp_all [mkSlice]
      | some c => have := key [a, b, c] (by simp); simp_all [mkSlice]

example (eval : Text → Except PyErr (Option PySlice)) :=
  slice_text_iff eval ⟨none, some 5, none⟩ _ rfl

/-- C40, what holds. -/
theorem slice_text_partial (eval : Text → Except PyErr (Option PySlice)) (a b : Int)
    (step : Option Int) :
    ∃ t, slice_to_str (some ⟨some a, some b, step⟩) = .ok t ∧
      str_to_slice eval (some t) = .ok (some ⟨some a, some b, step⟩) :=
  ⟨_, rfl, (slice_text_iff eval _ _ rfl).2 (Or.inl ⟨by simp, by simp⟩)⟩

/-- C40 is false of the code: a slice without a stop comes back as one without a
start, selecting other elements. -/
theorem slice_text_wrong (eval : Text → Except PyErr (Option PySlice)) (a : Int) :
    ∃ t, slice_to_str (some ⟨some a, none, none⟩) = .ok t ∧
      str_to_slice eval (some t) = .ok (some ⟨none, some a, none⟩) := by
  refine ⟨_, rfl, ?_⟩
  exact str_to_slice_join eval [a] (by simp)

/-- The default slice. -/
example (eval : Text → Except PyErr (Option PySlice)) :=
  slice_text_partial eval (-1000) (-100) none

/-! ## C41 -/

/-- C41. Every selection round-trips through its own text. -/
theorem mcmc_text_round_trip (m : MCMCVars) :
    mcmc_vars_str_to_obj (some m.str) = some m := by
  obtain ⟨a, b, c⟩ := m
  cases a <;> cases b <;> cases c <;> decide +kernel

/-- C41. Through a configuration, which replaces the empty text, it does so exactly
when something is selected; the empty selection becomes `None`. -/
theorem mcmc_config_iff (m : MCMCVars) :
    mcmc_vars_str_to_obj (replace_empty_string (some m.str)) = some m ↔
      m.with_v_r = true ∨ m.with_v_a = true ∨ m.with_v_k = true := by
  obtain ⟨a, b, c⟩ := m
  cases a <;> cases b <;> cases c <;> decide +kernel

/-- C41. The selection read from text: exactly the names among its comma-separated
parts. -/
theorem mcmc_read_spec (t : Text) (ht : t ≠ Text.none) :
    ∃ m, mcmc_vars_str_to_obj (some t) = some m ∧
      (m.with_v_r = true ↔ "v_r".toList ∈ (strip t).splitComma) ∧
      (m.with_v_a = true ↔ "v_a".toList ∈ (strip t).splitComma) ∧
      (m.with_v_k = true ↔ "v_k".toList ∈ (strip t).splitComma) := by
  simp only [mcmc_vars_str_to_obj, if_neg ht]
  refine ⟨_, rfl, ?_, ?_, ?_⟩ <;> simp

/-- C41 is false of the code as to unknown names: they are not rejected, and a name
after a blank is unknown. -/
theorem mcmc_unknown_accepted :
    mcmc_vars_str_to_obj (some "v_x".toList) = some ⟨false, false, false⟩ ∧
    mcmc_vars_str_to_obj (some "v_r, v_a".toList) = some ⟨true, false, false⟩ := by
  constructor <;> decide +kernel

example := mcmc_read_spec "v_r,v_k".toList (by decide)

/-! ## C39 -/

section
variable {F : Type}

/-- A value of the type a field of the given kind should have. -/
def KindOf : Kind → SVal F → Prop
  | .float, .float _ => True
  | .int, .int _ => True
  | .bool, .bool _ => True
  | .str, .str _ => True
  | .optFloat, .float _ => True
  | .optFloat, .none => True
  | .optInt, .int _ => True
  | .optInt, .none => True
  | .slice, .slice _ => True
  | .slice, .none => True
  | .mcmc, .mcmc _ => True
  | .mcmc, .none => True
  | _, _ => False

/-- A field value of the type the solver expects. -/
def Typed (f : SField) (v : SVal F) : Prop := KindOf f.kind v

/-- A faithful number printer and faithful converters. -/
structure Faithful (C : Conv F) : Prop where
  float : ∀ x, C.float_type (C.str_to_float (some (C.float_str x))) = .ok x
  float_ne : ∀ x, C.float_str x ≠ [] ∧ C.float_str x ≠ Text.none
  int : ∀ n, C.str_to_int (some (ofInt n)) = some n
  true : C.str_to_bool (some "True".toList) = .ok true
  false : C.str_to_bool (some "False".toList) = .ok false

theorem ofInt_ne_none (n : Int) : ofInt n ≠ Text.none := by
  intro h
  have : 'N' ∈ ofInt n := by rw [h]; simp [Text.none]
  rcases ofInt_chars n this with h | h
  · exact absurd h (by decide)
  · simp [Char.isDigit] at h

theorem mem_readOrder (f : SField) : f ∈ SField.readOrder := by
  cases f <;> decide

/-- A configuration is read when each of its fields is, with the values read. -/
theorem to_soln_input_ok (C : Conv F) (c : ConfigInput) (s : SolutionInput F) :
    c.to_soln_input C = .ok s ↔ ∀ f, readField C f.kind (c (.s f)) = .ok (s f) := by
  unfold ConfigInput.to_soln_input
  constructor
  · intro h f
    cases hn : SField.readOrder.findSome?
        (fun f => raised (readField C f.kind (c (.s f)))) with
    | some e => rw [hn] at h; cases h
    | none =>
      rw [hn] at h
      injection h with h
      have := (List.findSome?_eq_none_iff.1 hn) f (mem_readOrder f)
      rw [← h]
      cases hr : readField C f.kind (c (.s f)) with
      | error e => rw [hr] at this; cases this
      | ok v => simp only [readValue, hr]
  · intro h
    have hn : SField.readOrder.findSome?
        (fun f => raised (readField C f.kind (c (.s f)))) = none := by
      rw [List.findSome?_eq_none_iff]
      intro f _
      rw [h f]; rfl
    rw [hn]
    simp only [h, readValue]

/-- It raises when some field cannot be read. -/
theorem to_soln_input_error (C : Conv F) (c : ConfigInput) (e : PyErr)
    (h : c.to_soln_input C = .error e) :
    ∃ f, readField C f.kind (c (.s f)) = .error e := by
  unfold ConfigInput.to_soln_input at h
  cases hn : SField.readOrder.findSome?
      (fun f => raised (readField C f.kind (c (.s f)))) with
  | none => rw [hn] at h; cases h
  | some e' =>
    rw [hn] at h
    injection h with h
    subst h
    obtain ⟨f, -, hf⟩ := List.exists_of_findSome?_eq_some hn
    refine ⟨f, ?_⟩
    cases hr : readField C f.kind (c (.s f)) with
    | error e => rw [hr] at hf; injection hf with hf; rw [hf]
    | ok v => rw [hr] at hf; cases hf

/-- One field there and back, other than the slice. -/
theorem readField_pyStr (C : Conv F) (hC : Faithful C) (f : SField) (v : SVal F)
    (hk : f.kind ≠ .slice) (hm : f.kind ≠ .mcmc) (ht : Typed f v) :
    readField C f.kind (some (v.pyStr C)) = .ok v := by
  unfold Typed at ht
  generalize f.kind = k at ht hk hm
  have hopt : ∀ t : Text, t ≠ Text.none → ¬ (some t = some Text.none ∨ some t = none) := by
    intro t ht h
    rcases h with h | h
    · exact ht (Option.some.inj h)
    · cases h
  have hF : ∀ x, readFloat C (some (C.float_str x)) = .ok (.float x) := fun x => by
    simp only [readFloat, hC.float]
  have hI : ∀ n, readInt C (some (ofInt n)) = .int n := fun n => by
    simp only [readInt, hC.int]
  cases k <;> cases v <;> simp only [KindOf] at ht
  case float.float x => exact hF x
  case int.int n => exact congrArg Except.ok (hI n)
  case bool.bool b =>
    cases b
    · change (match C.str_to_bool (some "False".toList) with
        | .ok b => Except.ok (SVal.bool b)
        | .error e => .error e) = _
      rw [hC.false]
    · change (match C.str_to_bool (some "True".toList) with
        | .ok b => Except.ok (SVal.bool b)
        | .error e => .error e) = _
      rw [hC.true]
  case optFloat.float x =>
    exact (if_neg (hopt _ (hC.float_ne x).2)).trans (hF x)
  case optFloat.none => rfl
  case optInt.int n =>
    exact (if_neg (hopt _ (ofInt_ne_none n))).trans (congrArg Except.ok (hI n))
  case optInt.none => rfl
  all_goals first | rfl | exact absurd rfl hk | exact absurd rfl hm

theorem pyStr_ne_nil (C : Conv F) (hC : Faithful C) (f : SField) (v : SVal F)
    (hk : f.kind ≠ .slice) (hm : f.kind ≠ .mcmc) (hs : f.kind ≠ .str) (ht : Typed f v) :
    v.pyStr C ≠ [] := by
  unfold Typed at ht
  generalize f.kind = k at ht hk hm hs
  cases k <;> cases v <;> simp only [KindOf] at ht <;>
    simp only [SVal.pyStr]
  case float.float x => exact (hC.float_ne x).1
  case int.int n => exact ofInt_ne_nil n
  case bool.bool b => cases b <;> simp
  case optFloat.float x => exact (hC.float_ne x).1
  case optFloat.none => simp [Text.none]
  case optInt.int n => exact ofInt_ne_nil n
  case optInt.none => simp [Text.none]
  all_goals first | exact absurd rfl hk | exact absurd rfl hm | exact absurd rfl hs

theorem replace_of_ne {t : Text} (h : t ≠ []) : replace_empty_string (some t) = some t := by
  cases t with
  | nil => exact absurd rfl h
  | cons a t => rfl

/-- Conversion to the configuration form fails exactly when there is no slice, as for
the inputs of shock solutions. -/
theorem to_config_input_fails (C : Conv F) (s : SolutionInput F) (label : Text) :
    (∃ e, s.to_config_input C label = .error e) ↔ ∀ sl, s .interp_slice ≠ .slice sl := by
  unfold SolutionInput.to_config_input
  constructor
  · rintro ⟨e, he⟩ sl hsl
    rw [hsl] at he
    simp only [slice_to_str] at he
    cases he
  · intro h
    cases hs : s .interp_slice <;> simp only [slice_to_str, Except.error.injEq, exists_eq']
    case slice sl => exact absurd hs (h sl)

/-- C39. Converting to configuration form and back is the identity exactly when the
selection of MCMC variables is not empty and the slice has both ends or a stop only. -/
theorem input_round_trip_iff (C : Conv F) (hC : Faithful C) (s : SolutionInput F)
    (ht : ∀ f, Typed f (s f)) (label : Text) (c : ConfigInput)
    (hc : s.to_config_input C label = .ok c) :
    c.to_soln_input C = .ok s ↔
      s .mcmc_vars ≠ .mcmc ⟨false, false, false⟩ ∧
      ∃ sl, s .interp_slice = .slice sl ∧ ((sl.start ≠ none ∧ sl.stop ≠ none) ∨
        (sl.start = none ∧ sl.stop ≠ none ∧ sl.step = none)) := by
  obtain ⟨sl, hsl⟩ : ∃ sl, s .interp_slice = .slice sl := by
    by_contra hn
    push Not at hn
    obtain ⟨e, he⟩ := (to_config_input_fails C s label).2 hn
    rw [he] at hc
    cases hc
  obtain ⟨t, htx⟩ : ∃ t, slice_to_str (some sl) = .ok t := ⟨_, rfl⟩
  unfold SolutionInput.to_config_input at hc
  simp only [hsl, htx] at hc
  injection hc with hc
  have hother : ∀ f : SField, f.kind ≠ .slice → f.kind ≠ .mcmc →
      readField C f.kind (c (.s f)) = .ok (s f) := by
    intro f hk hm
    by_cases hs : f.kind = .str
    · have hf : f = .split_method := by cases f <;> simp [SField.kind] at hs ⊢
      subst hf
      have := ht .split_method
      rw [← hc]
      cases hv : s .split_method <;> rw [hv] at this <;>
        simp only [Typed, SField.kind, KindOf] at this
      simp [ConfigInput.mk, CField.hasConverter, readField, SField.kind]
    · have e : c (.s f) = some ((s f).pyStr C) := by
        have hne := pyStr_ne_nil C hC f (s f) hk hm hs (ht f)
        have e0 : c (.s f) = if CField.hasConverter (.s f) = true then
            replace_empty_string (some ((s f).pyStr C)) else some ((s f).pyStr C) := by
          rw [← hc]
          cases f <;> first | rfl | exact absurd rfl hk | exact absurd rfl hs
        rw [e0, replace_of_ne hne]
        split <;> rfl
      rw [e]
      exact readField_pyStr C hC f (s f) hk hm (ht f)
  have hmc : readField C .mcmc (c (.s .mcmc_vars)) = .ok (s .mcmc_vars) ↔
      s .mcmc_vars ≠ .mcmc ⟨false, false, false⟩ := by
    have := ht .mcmc_vars
    have hcm : c (.s .mcmc_vars) =
        replace_empty_string (some ((s .mcmc_vars).pyStr C)) := by rw [← hc]; rfl
    cases hv : s .mcmc_vars <;> rw [hv] at this <;>
      simp only [Typed, SField.kind, KindOf] at this
    · next m =>
      have e : c (.s .mcmc_vars) =
          replace_empty_string (some m.str) := by
        rw [hcm, hv]; rfl
      rw [e]
      by_cases hz : m = ⟨false, false, false⟩
      · subst hz
        have e : mcmc_vars_str_to_obj (replace_empty_string
            (some (MCMCVars.str ⟨false, false, false⟩))) = none := by decide +kernel
        simp [readField, e]
      · have h1 : m.with_v_r = true ∨ m.with_v_a = true ∨ m.with_v_k = true := by
          obtain ⟨a, b, d⟩ := m
          cases a <;> cases b <;> cases d <;> simp_all
        simp [readField, (mcmc_config_iff m).2 h1, hz]
    · have e : c (.s .mcmc_vars) =
          some Text.none := by
        rw [hcm, hv]; rfl
      rw [e]
      simp [readField, mcmc_vars_str_to_obj]
  have hsi : readField C .slice (c (.s .interp_slice)) = .ok (s .interp_slice) ↔
      ((sl.start ≠ none ∧ sl.stop ≠ none) ∨
        (sl.start = none ∧ sl.stop ≠ none ∧ sl.step = none)) := by
    rw [← slice_text_iff C.eval_slice sl t htx, ← hc, hsl]
    simp only [ConfigInput.mk, CField.hasConverter, if_true]
    by_cases hn : t = []
    · subst hn
      have e1 : str_to_slice C.eval_slice (replace_empty_string (some [])) = .ok none := by
        simp [replace_empty_string, str_to_slice]
      have e2 : str_to_slice C.eval_slice (some []) = .error .ValueError := rfl
      simp only [readField, e1, e2]
      simp
    · rw [replace_of_ne hn]
      simp only [readField]
      cases str_to_slice C.eval_slice (some t) with
      | error e => simp
      | ok o => cases o <;> simp
  rw [to_soln_input_ok]
  constructor
  · intro h
    exact ⟨hmc.1 (h .mcmc_vars), sl, hsl, hsi.1 (h .interp_slice)⟩
  · rintro ⟨h1, sl', h2, h3⟩ f
    rw [hsl] at h2
    injection h2 with h2
    subst h2
    by_cases hk : f.kind = .slice
    · have : f = .interp_slice := by cases f <;> simp [SField.kind] at hk ⊢
      subst this
      exact hsi.2 h3
    · by_cases hm : f.kind = .mcmc
      · have : f = .mcmc_vars := by cases f <;> simp [SField.kind] at hm ⊢
        subst this
        exact hmc.2 h1
      · exact hother f hk hm

/-- C39. The inputs of shock solutions cannot be converted, whatever they were made
from, so `ds-dumpcfg` fails on them. -/
theorem shock_input_not_convertible (C : Conv F) (s : SolutionInput F) (label : Text) :
    s.new_without_sonic_taylor.to_config_input C label = .error .AttributeError := rfl

/-- C39, what holds: ordinary inputs with a selection of variables and a slice with both
ends convert and come back unchanged. -/
theorem input_round_trip_partial (C : Conv F) (hC : Faithful C) (s : SolutionInput F)
    (ht : ∀ f, Typed f (s f)) (label : Text)
    (hm : s .mcmc_vars ≠ .mcmc ⟨false, false, false⟩) (a b : Int) (step : Option Int)
    (hs : s .interp_slice = .slice ⟨some a, some b, step⟩) :
    ∃ c, s.to_config_input C label = .ok c ∧ c.to_soln_input C = .ok s ∧
      c .label = some label := by
  have hc : ∃ c, s.to_config_input C label = .ok c ∧ c .label = some label := by
    unfold SolutionInput.to_config_input
    simp only [hs, slice_to_str]
    exact ⟨_, rfl, rfl⟩
  obtain ⟨c, hc, hl⟩ := hc
  exact ⟨c, hc, (input_round_trip_iff C hC s ht label c hc).2
    ⟨hm, _, hs, Or.inl ⟨by simp, by simp⟩⟩, hl⟩

/-- Reading fails silently for integers: text that is not one becomes `None`, so the
input is not of the type the solver expects. -/
theorem unreadable_int_accepted (C : Conv F) (c : ConfigInput) (s : SolutionInput F)
    (h : c.to_soln_input C = .ok s) (f : SField) (hf : f.kind = .int)
    (hu : C.str_to_int (c (.s f)) = none) : s f = .none ∧ ¬ Typed f (s f) := by
  have := (to_soln_input_ok C c s).1 h f
  rw [hf] at this
  simp only [readField, readInt, hu] at this
  injection this with this
  refine ⟨this.symm, ?_⟩
  rw [← this]
  simp only [Typed, hf, KindOf, not_false_eq_true]

/-- C72, what holds: text that is not a number is rejected in a floating-point field
when the floating-point constructor rejects `None`, which is what the converter gives. -/
theorem unreadable_float_rejected_partial (C : Conv F) (e : PyErr)
    (he : C.float_type none = .error e) (c : ConfigInput) (f : SField)
    (hf : f.kind = .float) (hu : C.str_to_float (c (.s f)) = none) :
    ∃ e', c.to_soln_input C = .error e' := by
  cases h : c.to_soln_input C with
  | error e' => exact ⟨e', rfl⟩
  | ok s =>
    have := (to_soln_input_ok C c s).1 h f
    rw [hf] at this
    simp only [readField, readFloat, hu, he] at this
    cases this

/-! ## C37 -/

/-- The last value given for a name. -/
def lastValue (l : List (String × Text)) (k : String) : Option Text :=
  (l.reverse.find? (fun p => p.1 = k)).map Prod.snd

/-- The fold inside `validate_overrides`. -/
theorem validate_fold (l : List (String × Text)) (d : Overrides) (hd : d.keys.Nodup) :
    (∀ p ∈ l, p.1 ∈ CField.all.map CField.name) →
    ∃ d', l.foldlM (fun (d : Overrides) p =>
        if p.1 ∈ CField.all.map CField.name then Except.ok (d.set p.1 p.2)
        else Except.error PyErr.SolverError) d = .ok d' ∧ d'.keys.Nodup ∧
      ∀ k, d'.get? k = (lastValue l k).or (d.get? k) := by
  induction l generalizing d with
  | nil => intro _; exact ⟨d, rfl, hd, fun k => by simp [lastValue]⟩
  | cons p l ih =>
    intro hl
    rw [List.foldlM_cons, if_pos (hl p (by simp))]
    obtain ⟨d', h1, h2, h3⟩ := ih (d.set p.1 p.2) (Dict.nodup_set d _ _ hd)
      (fun q hq => hl q (by simp [hq]))
    refine ⟨d', h1, h2, fun k => ?_⟩
    rw [h3, Dict.get?_set]
    unfold lastValue
    rw [List.reverse_cons, List.find?_append]
    cases hf : l.reverse.find? (fun p => decide (p.1 = k)) with
    | some q => simp
    | none =>
      by_cases hk : p.1 = k <;> simp [hk]

/-- C37. Known names only: the result holds the last value of each option, once. -/
theorem validate_overrides_ok (l : List (String × Text))
    (hl : ∀ p ∈ l, ∃ f : CField, f.name = p.1) :
    ∃ d, validate_overrides l = .ok d ∧ d.keys.Nodup ∧ ∀ k, d.get? k = lastValue l k := by
  have : ∀ f : CField, f ∈ CField.all := by
    intro f
    cases f with
    | label => decide
    | s f => cases f <;> decide
  obtain ⟨d, h1, h2, h3⟩ := validate_fold l [] (by simp [Dict.keys]) (fun p hp => by
    obtain ⟨f, hf⟩ := hl p hp
    exact List.mem_map.2 ⟨f, this f, hf⟩)
  exact ⟨d, h1, h2, fun k => by rw [h3 k]; simp⟩

/-- C37. An unknown name is rejected, wherever it stands. -/
theorem validate_overrides_unknown (l : List (String × Text))
    (hl : ∃ p ∈ l, ∀ f : CField, f.name ≠ p.1) :
    validate_overrides l = .error .SolverError := by
  unfold validate_overrides
  have key : ∀ d : Overrides, l.foldlM (fun (d : Overrides) p =>
        if p.1 ∈ CField.all.map CField.name then Except.ok (d.set p.1 p.2)
        else Except.error PyErr.SolverError) d = .error .SolverError := by
    induction l with
    | nil => obtain ⟨p, hp, -⟩ := hl; cases hp
    | cons q l ih =>
      intro d
      rw [List.foldlM_cons]
      by_cases hq : q.1 ∈ CField.all.map CField.name
      · rw [if_pos hq]
        apply ih
        obtain ⟨p, hp, hn⟩ := hl
        rcases List.mem_cons.1 hp with rfl | hp
        · obtain ⟨f, -, hf⟩ := List.mem_map.1 hq
          exact absurd hf (hn f)
        · exact ⟨p, hp, hn⟩
      · rw [if_neg hq]; rfl
  exact key []

/-- Field names are distinct. -/
theorem CField.name_injective (f g : CField) (h : f.name = g.name) : f = g := by
  cases f with
  | label =>
    cases g with
    | label => rfl
    | s g => cases g <;> simp [CField.name, SField.name] at h
  | s f =>
    cases g with
    | label => cases f <;> simp [CField.name, SField.name] at h
    | s g =>
      cases f <;> cases g <;> first | rfl | (simp [CField.name, SField.name] at h)

/-- A configuration as its constructor makes it: no empty text in the fields where
empty text stands for `None`. -/
def Canonical (c : ConfigInput) : Prop := ∀ f, f.hasConverter = true → c f ≠ some []

/-- Every constructed configuration is so. -/
theorem mk_canonical (c : CField → Option Text) : Canonical (ConfigInput.mk c) := by
  intro f hf
  simp only [ConfigInput.mk, hf, if_true]
  cases h : c f with
  | none => simp [replace_empty_string]
  | some t => cases t <;> simp [replace_empty_string, Text.none]

/-- C37. Applying overrides with known names: an overridden field holds the override
(`"None"` for an empty one in fields where that is allowed), every other field is
unchanged, and the result is again as constructed. -/
theorem add_overrides_ok (c : ConfigInput) (hc : Canonical c) (o : Overrides)
    (ho : ∀ k ∈ o.keys, ∃ f : CField, f.name = k) :
    ∃ c', add_overrides (some o) c = .ok c' ∧ Canonical c' ∧
      (∀ f v, o.get? f.name = some v →
        c' f = some (if f.hasConverter = true ∧ v = [] then Text.none else v)) ∧
      ∀ f : CField, f.name ∉ o.keys → c' f = c f := by
  have hall : ∀ f : CField, f ∈ CField.all := by
    intro f
    cases f with
    | label => decide
    | s f => cases f <;> decide
  have hk : o.keys.all (fun k => decide (k ∈ CField.all.map CField.name)) = true := by
    rw [List.all_eq_true]
    intro k hk
    obtain ⟨f, hf⟩ := ho k hk
    exact decide_eq_true (List.mem_map.2 ⟨f, hall f, hf⟩)
  have he : add_overrides (some o) c = .ok (ConfigInput.mk fun f =>
      match o.get? f.name with
      | some v => some v
      | none => c f) := by
    simp only [add_overrides, ConfigInput.evolve, hk, if_true]
    rfl
  refine ⟨_, he, mk_canonical _, ?_, ?_⟩
  · intro f v hv
    simp only [ConfigInput.mk, hv]
    by_cases hf : f.hasConverter = true
    · simp only [hf, if_true, true_and]
      cases v <;> simp [replace_empty_string]
    · simp [hf]
  · intro f hf
    have := (Dict.get?_eq_none_iff o f.name).2 hf
    simp only [ConfigInput.mk, this]
    by_cases h : f.hasConverter = true
    · simp only [h, if_true]
      have := hc f h
      cases hcf : c f with
      | none => rfl
      | some t =>
        rw [hcf] at this
        cases t with
        | nil => exact absurd rfl this
        | cons a t => rfl
    · simp [h]

/-- C37. An unknown name among the overrides raises. -/
theorem add_overrides_unknown (c : ConfigInput) (o : Overrides)
    (ho : ∃ k ∈ o.keys, ∀ f : CField, f.name ≠ k) :
    add_overrides (some o) c = .error .TypeError := by
  have hk : ¬ (o.keys.all (fun k => decide (k ∈ CField.all.map CField.name)) = true) := by
    rw [List.all_eq_true]
    intro h
    obtain ⟨k, hk, hn⟩ := ho
    obtain ⟨f, -, hf⟩ := List.mem_map.1 (of_decide_eq_true (h k hk))
    exact hn f hf
  simp only [add_overrides, ConfigInput.evolve, if_neg hk]

/-- C37. No overrides, no change. -/
theorem add_overrides_none (c : ConfigInput) : add_overrides none c = .ok c := rfl

example := validate_overrides_ok [("start", "1".toList), ("start", "2".toList)]
  (by simp only [List.mem_cons, List.not_mem_nil, or_false, forall_eq_or_imp, forall_eq,
        and_self]; exact ⟨.s .start, rfl⟩)

example := validate_overrides_unknown [("start", "1".toList), ("strat", "2".toList)]
  ⟨("strat", "2".toList), by simp, fun f => by
    cases f with
    | label => simp [CField.name]
    | s f => cases f <;> simp [CField.name, SField.name]⟩

/-! ## C38 -/

/-- C38. When re-solving succeeds, the configuration is the old one with the overrides,
overridden fields are read from it, and every other field is the old solution's. -/
theorem resolve_inputs (C : Conv F) (hC : ∀ x y, C.float_eq x y = true → x = y)
    (c : ConfigInput) (hc : Canonical c) (old : SolutionInput F) (o : Overrides)
    (c' : ConfigInput) (s : SolutionInput F)
    (h : new_inputs_with_overrides C c old (some o) = .ok (c', s)) :
    add_overrides (some o) c = .ok c' ∧
      ∀ f : SField,
        (f.name ∈ o.keys → readField C f.kind (c' (.s f)) = .ok (s f)) ∧
        (f.name ∉ o.keys → s f = old f) := by
  unfold new_inputs_with_overrides at h
  simp only [Option.getD_some] at h
  cases h1 : add_overrides (some o) c with
  | error e => rw [h1] at h; cases h
  | ok c1 =>
  rw [h1] at h
  simp only [bind, Except.bind] at h
  cases h2 : c1.to_soln_input C with
  | error e => rw [h2] at h; cases h
  | ok s1 =>
  rw [h2] at h
  simp only at h
  cases h3 : c.to_soln_input C with
  | error e => rw [h3] at h; cases h
  | ok s0 =>
  rw [h3] at h
  simp only at h
  have ho : ∀ k ∈ o.keys, ∃ f : CField, f.name = k := by
    intro k hk
    by_contra hn
    push Not at hn
    rw [add_overrides_unknown c o ⟨k, hk, hn⟩] at h1
    cases h1
  obtain ⟨c2, h4, -, -, hsame⟩ := add_overrides_ok c hc o ho
  rw [h1] at h4
  injection h4 with h4
  subst h4
  have r1 := (to_soln_input_ok C c1 s1).1 h2
  have r0 := (to_soln_input_ok C c s0).1 h3
  have hkeep : ∀ f : SField, f.name ∉ o.keys → s1 f = s0 f := by
    intro f hf
    have a := r1 f
    rw [hsame (.s f) hf, r0 f] at a
    injection a with a
    exact a.symm
  have heq : ∀ a b : SVal F, a.pyEq C b = true → a = b := by
    intro a b hab
    cases a <;> cases b <;> simp only [SVal.pyEq, decide_eq_true_eq, Bool.false_eq_true]
      at hab <;> first | rfl | (rw [hab]) | (rw [hC _ _ hab])
  have hmem : ∀ f : SField, f ∈ SField.all := by intro f; cases f <;> decide
  split at h
  · next hall =>
    injection h with h
    injection h with ha hb
    subst ha hb
    refine ⟨rfl, fun f => ⟨fun _ => r1 f, fun hf => ?_⟩⟩
    rw [hkeep f hf]
    exact (heq _ _ (List.all_eq_true.1 hall f (hmem f))).symm
  · injection h with h
    injection h with ha hb
    subst ha hb
    refine ⟨rfl, fun f => ⟨fun hf => ?_, fun hf => ?_⟩⟩
    · simp only [List.mem_filter, hf, decide_true, Bool.not_true, Bool.false_and,
        Bool.false_eq_true, and_false, if_false]
      exact r1 f
    · by_cases he : (s0 f).pyEq C (old f) = true
      · simp only [List.mem_filter, he, Bool.not_true, Bool.and_false,
          Bool.false_eq_true, and_false, if_false]
        rw [hkeep f hf]
        exact heq _ _ he
      · simp [List.mem_filter, he, hf, hmem]

/-- C38. Re-solving succeeds exactly when the overrides are known and both the old and
the new configuration can be read. -/
theorem resolve_inputs_succeeds (C : Conv F) (c : ConfigInput) (old : SolutionInput F)
    (o : Overrides) :
    (∃ r, new_inputs_with_overrides C c old (some o) = .ok r) ↔
      ∃ c' s s', add_overrides (some o) c = .ok c' ∧ c'.to_soln_input C = .ok s ∧
        c.to_soln_input C = .ok s' := by
  unfold new_inputs_with_overrides
  simp only [Option.getD_some]
  cases h1 : add_overrides (some o) c with
  | error e => simp [bind, Except.bind]
  | ok c1 =>
  simp only [bind, Except.bind]
  cases h2 : c1.to_soln_input C with
  | error e => simp [h2]
  | ok s1 =>
  simp only
  cases h3 : c.to_soln_input C with
  | error e => simp
  | ok s0 =>
    simp only
    constructor
    · intro _; exact ⟨c1, s1, s0, rfl, h2, rfl⟩
    · intro _
      split <;> exact ⟨_, rfl⟩

/-! ## Witnesses -/

/-- Conversions with integers standing for floats. -/
def witConv : Conv Int where
  str_to_float t := match t with
    | none => none
    | some t => match toInt t with
      | .ok n => some n
      | .error _ => none
  str_to_int t := match t with
    | none => none
    | some t => match toInt t with
      | .ok n => some n
      | .error _ => none
  str_to_bool t := if t = some "True".toList then .ok true
    else if t = some "False".toList then .ok false else .error .ValueError
  float_type x := match x with
    | some x => .ok x
    | none => .error .TypeError
  float_str := ofInt
  eval_slice _ := .error .ValueError
  float_eq a b := decide (a = b)

theorem witConv_faithful : Faithful witConv where
  float x := by simp only [witConv, toInt_ofInt]
  float_ne x := ⟨ofInt_ne_nil x, ofInt_ne_none x⟩
  int n := by simp only [witConv, toInt_ofInt]
  true := by decide
  false := by decide

/-- A non-trivial input. -/
def witSolnInput : SolutionInput Int := fun f => match f.kind with
  | .float => .float 7
  | .int => .int 10000
  | .bool => .bool true
  | .str => .str "v_θ_deriv".toList
  | .optFloat => .none
  | .optInt => .int 10
  | .slice => .slice ⟨some (-1000), some (-100), none⟩
  | .mcmc => .mcmc ⟨true, true, false⟩

theorem witSolnInput_typed (f : SField) : Typed f (witSolnInput f) := by
  cases f <;> exact trivial

example := input_round_trip_partial witConv witConv_faithful witSolnInput
  witSolnInput_typed "run".toList (fun h => by cases h) (-1000) (-100) none rfl

example := input_round_trip_iff witConv witConv_faithful witSolnInput witSolnInput_typed
  "run".toList _ (input_round_trip_partial witConv witConv_faithful witSolnInput
    witSolnInput_typed "run".toList (fun h => by cases h) (-1000) (-100) none rfl).choose_spec.1

/-- A configuration. -/
def witConfig : ConfigInput := ConfigInput.mk fun
  | .label => some "run".toList
  | .s f => match f.kind with
    | .float => some "7".toList
    | .int => some "10000".toList
    | .bool => some "True".toList
    | .str => some "v_θ_deriv".toList
    | .optFloat => some []
    | .optInt => some "10".toList
    | .slice => some "-1000,-100".toList
    | .mcmc => some "v_r,v_a".toList

/-- The same with the override of the example below. -/
def witConfig' : ConfigInput := fun f => if f = .s .γ then some "8".toList else witConfig f

theorem witConfig_reads : witConfig.to_soln_input witConv = .ok witSolnInput := by
  rw [to_soln_input_ok]
  intro f
  cases f <;> rfl

example := add_overrides_ok witConfig (mk_canonical _) [("start", "1".toList), ("γ", [])] (by
  intro k hk
  simp only [Dict.keys, List.map_cons, List.map_nil, List.mem_cons, List.not_mem_nil,
    or_false] at hk
  rcases hk with rfl | rfl
  · exact ⟨.s .start, rfl⟩
  · exact ⟨.s .γ, rfl⟩)

example := add_overrides_unknown witConfig [("start", "1".toList), ("strat", "2".toList)]
  ⟨"strat", by simp [Dict.keys], fun f => by
    cases f with
    | label => simp [CField.name]
    | s f => cases f <;> simp [CField.name, SField.name]⟩

theorem witConfig'_reads : witConfig'.to_soln_input witConv =
    .ok (fun f => if f = .γ then .float 8 else witSolnInput f) := by
  rw [to_soln_input_ok]
  intro f
  cases f <;> rfl

/-- The solution was found at another `start` than configured; `γ` is overridden. -/
theorem witResolve : ∃ r, new_inputs_with_overrides witConv witConfig
    (fun f => if f = .start then .float 9 else witSolnInput f) (some [("γ", "8".toList)]) =
      .ok r :=
  (resolve_inputs_succeeds witConv witConfig _ _).2
    ⟨witConfig', _, _, by
      simp only [add_overrides, ConfigInput.evolve]
      rw [if_pos (by decide)]
      congr 1
      funext f
      cases f with
      | label => rfl
      | s f => cases f <;> rfl, witConfig'_reads, witConfig_reads⟩

example := resolve_inputs witConv (fun _ _ h => of_decide_eq_true h) witConfig
  (mk_canonical _) _ _ _ _ witResolve.choose_spec

/-- `start = five`. -/
example := unreadable_float_rejected_partial witConv .TypeError rfl
  (fun f => if f = .s .start then some "five".toList else witConfig f) .start rfl rfl

/-- `max_steps = many`. -/
example := unreadable_int_accepted witConv
  (fun f => if f = .s .max_steps then some "many".toList else witConfig f)
  (fun f => if f = .max_steps then .none else witSolnInput f)
  ((to_soln_input_ok _ _ _).2 fun f => by cases f <;> rfl) .max_steps rfl rfl

end

end DiscSolver
