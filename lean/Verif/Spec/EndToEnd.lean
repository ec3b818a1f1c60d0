import Verif.Spec.ConfigDoc
import Verif.Spec.CliSolve

/-!
# Specification: what a configuration file and a command line ask for
-/

namespace DiscSolver.EndToEnd

open ConfDoc CliSolve Cli

/-- The text a file has for an option, references filled in; the fallback if the file
says nothing of it. -/
def InFile (d : Doc) (name : String) (v : Text) : Prop :=
  (d.Silent (home name.toList) name.toList ∧ ∃ t, (name, t) ∈ fallbacks ∧ v = t.toList) ∨
    ∃ w, d.Says (home name.toList) name.toList w ∧ Means (d.Says (home name.toList)) 10 w v

/-- The text asked for: that of the last `--override` of the option, or that of the
file. -/
def Asked (d : Doc) (given : List Occ) (name : String) (v : Text) : Prop :=
  match overrideGiven given name with
  | some w => v = w.toList
  | none => InFile d name v

/-- How the text is kept. -/
def kept (name : String) (v : Text) : Text :=
  if name ∈ mayBeEmpty ∧ v = [] then "None".toList else v

variable {F : Type}

/-- The option is a number, and this is the one asked for. -/
def Number (C : Conv F) (d : Doc) (given : List Occ) (name : String) (x : F) : Prop :=
  ∃ v, Asked d given name v ∧ C.float_type (C.str_to_float (some v)) = .ok x

/-- The option is a number which can be left out: as an empty text or `None`. -/
def OptNumber (C : Conv F) (d : Doc) (given : List Occ) (name : String) (x : Option F) :
    Prop :=
  ∃ v, Asked d given name v ∧
    (((v = [] ∨ v = "None".toList) ∧ x = none) ∨
      (v ≠ [] ∧ v ≠ "None".toList ∧ ∃ y, x = some y ∧
        C.float_type (C.str_to_float (some v)) = .ok y))

/-- The option is a truth value. -/
def Truth (C : Conv F) (d : Doc) (given : List Occ) (name : String) (b : Bool) : Prop :=
  ∃ v, Asked d given name v ∧ C.str_to_bool (some v) = .ok b

/-- The option is a whole number; `none` if the text is not one. -/
def Whole (C : Conv F) (d : Doc) (given : List Occ) (name : String) (n : Option Int) :
    Prop :=
  ∃ v, Asked d given name v ∧ C.str_to_int (some v) = n

end DiscSolver.EndToEnd
