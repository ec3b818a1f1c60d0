import Verif.Props.CsvRunner
import Verif.Props.Runners

/-!
# C54, C55: the run hdf5runner stores for a row
-/

namespace DiscSolver

namespace Runners

variable {F σ : Type}

theorem get?_erase_ne {κ β : Type} [DecidableEq κ] (d : Dict κ β) {k k' : κ} (h : k ≠ k') :
    (d.erase k).get? k' = d.get? k' := by
  induction d with
  | nil => rfl
  | cons p d ih =>
    obtain ⟨a, b⟩ := p
    simp only [Dict.erase]
    by_cases ha : a = k
    · subst ha
      rw [if_pos rfl]
      simp only [Dict.get?, if_neg h]
    · rw [if_neg ha]
      simp only [Dict.get?, ih]

theorem get?_withoutIds (d : Dict Text (Option Text)) (f : CField) :
    (withoutIds d).get? f.name.toList = d.get? f.name.toList := by
  unfold withoutIds
  rw [get?_erase_ne _ (k := "solution_name".toList), get?_erase_ne]
  all_goals
    cases f with
    | label => decide
    | s f => cases f <;> decide

/-- What the input read from a row is: the text in the column where there is one. -/
def RowInput (d : Dict Text (Option Text)) (c : ConfigInput) : Prop :=
  ∀ (f : CField) (t : Text), d.get? f.name.toList = some (some t) → t ≠ [] → c f = some t

theorem ofDict_rowInput (d : Dict Text (Option Text)) (c : ConfigInput)
    (h : ConfigInput.ofDict (withoutIds d) = .ok c) : RowInput d c := by
  intro f t ht hne
  unfold ConfigInput.ofDict at h
  split at h
  case isFalse => cases h
  injection h with h
  rw [← h]
  simp only [ConfigInput.mk, get?_withoutIds, ht, Option.getD_some]
  split
  · cases t with
    | nil => exact absurd rfl hne
    | cons a t => rfl
  · rfl

/-- C54. The job of a row is the one asked for: a known method, run on the input of the
row with the overrides applied, in a run which names that method, holds no solution yet
and records the file and the solution named in the row. -/
theorem hdf5_job_of_row (e : Env F) (impl : String → Solver F σ) (method : String)
    (o : Option Overrides) (out : Option String) (dir name : String)
    (d : Dict Text (Option Text)) (j : Job F σ)
    (h : hdf5_job e impl method o out dir name d = .ok j) :
    IsMethod method ∧ j.solver = impl method ∧
    (∃ c, RowInput d c ∧ add_overrides o c = .ok j.run.info.config_input) ∧
    j.run.info.config_input.to_soln_input e.conv = .ok j.input ∧
    j.run.info.sonic_method = method ∧ j.run.info.use_E_r = j.input .use_E_r ∧
    j.run.info.config_filename = none ∧ j.run.solutions = [] ∧
    (∀ t, d.get? "filename".toList = some (some t) →
      j.run.based_on_filename = some (String.ofList t)) ∧
    (∀ t, d.get? "solution_name".toList = some (some t) →
      j.run.based_on_solution = some (String.ofList t)) ∧
    (d.get? "filename".toList = none → j.run.based_on_filename = none) ∧
    (d.get? "solution_name".toList = none → j.run.based_on_solution = none) ∧
    ∃ f, j.path = e.path dir f ∧
      (out = none → ∃ l, j.run.info.config_input .label = some l ∧
        f = String.ofList l ++ (name ++ ".hdf5")) ∧
      ∀ g, out = some g → f = g := by
  unfold hdf5_job at h
  cases hm : getMethod impl method with
  | none => rw [hm] at h; cases h
  | some solver =>
    rw [hm] at h
    unfold getMethod at hm
    split at hm
    case isFalse => cases hm
    rename_i hk
    injection hm with hm
    subst hm
    cases hr : row_inputs (σ := σ) e.conv method o d with
    | error x => rw [hr] at h; cases h
    | ok p =>
      obtain ⟨s, run⟩ := p
      rw [hr] at h
      dsimp only at h
      cases hn : output_name out (run.info.config_input .label) (name ++ ".hdf5") with
      | error x => rw [hn] at h; cases h
      | ok f =>
        rw [hn] at h
        injection h with h
        subst h
        unfold row_inputs at hr
        cases hc : ConfigInput.ofDict (withoutIds d) with
        | error x => rw [hc] at hr; cases hr
        | ok c =>
          rw [hc] at hr
          dsimp only at hr
          cases ho : add_overrides o c with
          | error x => rw [ho] at hr; cases hr
          | ok c' =>
            rw [ho] at hr
            dsimp only at hr
            cases hs : c'.to_soln_input e.conv with
            | error x => rw [hs] at hr; cases hr
            | ok s' =>
              rw [hs] at hr
              injection hr with hr
              injection hr with h1 h2
              subst h1
              subst h2
              refine ⟨(isMethod_iff _).1 hk, rfl, ⟨c, ofDict_rowInput d c hc, ho⟩, hs, rfl, rfl,
                rfl, rfl, ?_, ?_, ?_, ?_, f, rfl, ?_, ?_⟩
              · intro t ht; simp only [popped, ht]
              · intro t ht; simp only [popped, ht]
              · intro ht; simp only [popped, ht]
              · intro ht; simp only [popped, ht]
              · rintro rfl
                unfold output_name at hn
                cases hl : c' .label with
                | none => simp only [hl] at hn; cases hn
                | some l =>
                  simp only [hl] at hn
                  injection hn with hn
                  exact ⟨l, hl, hn.symm⟩
              · rintro g rfl
                unfold output_name at hn
                injection hn with hn
                exact hn.symm

example := hdf5_job_of_row { witEnv with conv := yesConv } witImpl "single" none none "." "now"
  (witRow "a.hdf5".toList) _ rfl

end Runners

end DiscSolver
