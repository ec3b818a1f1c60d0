import Mathlib.Tactic.NormNum
import Verif.Model.Text

/-!
# Facts about Python strings
-/

namespace DiscSolver.Text

/-- No blank at either end. -/
def Trim (s : Text) : Prop :=
  (∀ c, s.head? = some c → isSpace c = false) ∧
  (∀ c, s.getLast? = some c → isSpace c = false)

theorem lstrip_of {s : Text} (h : ∀ c, s.head? = some c → isSpace c = false) :
    lstrip s = s := by
  cases s with
  | nil => rfl
  | cons a s => simp [lstrip, h a rfl]

theorem rstrip_of {s : Text} (h : ∀ c, s.getLast? = some c → isSpace c = false) :
    rstrip s = s := by
  unfold rstrip
  have := lstrip_of (s := s.reverse) (by simpa [List.head?_reverse] using h)
  unfold lstrip at this
  rw [this, List.reverse_reverse]

theorem strip_of {s : Text} (h : Trim s) : strip s = s := by
  unfold strip
  rw [lstrip_of h.1, rstrip_of h.2]

theorem trim_of_all {s : Text} (h : ∀ c ∈ s, isSpace c = false) : Trim s :=
  ⟨fun c hc => h c (List.mem_of_mem_head? hc), fun c hc => h c (List.mem_of_getLast? hc)⟩

theorem isDigit_not_space {c : Char} (h : c.isDigit = true) : isSpace c = false := by
  by_contra hs
  have hs' : isSpace c = true := by simpa using hs
  unfold isSpace at hs'
  simp only [Bool.or_eq_true, decide_eq_true_eq] at hs'
  rcases hs' with ((((rfl | rfl) | rfl) | rfl) | rfl) | rfl <;> simp [Char.isDigit] at h

theorem digit_of_mem {n : ℕ} {c : Char} (h : c ∈ Nat.toDigits 10 n) : c.isDigit = true :=
  Nat.isDigit_of_mem_toDigits (by decide) (by decide) h

theorem digits_toDigits (n : ℕ) : digits (Nat.toDigits 10 n) = some n := by
  unfold digits
  rw [if_pos ⟨Nat.toDigits_ne_nil, List.all_eq_true.2 fun c hc => digit_of_mem hc⟩,
    Nat.ofDigitChars_ten_toDigits]

/-- The characters of a number. -/
theorem ofInt_chars (n : Int) {c : Char} (h : c ∈ ofInt n) : c = '-' ∨ c.isDigit = true := by
  unfold ofInt at h
  split at h
  · rcases List.mem_cons.1 h with h | h
    · exact Or.inl h
    · exact Or.inr (digit_of_mem h)
  · exact Or.inr (digit_of_mem h)

theorem ofInt_ne_nil (n : Int) : ofInt n ≠ [] := by
  unfold ofInt
  split
  · simp
  · exact Nat.toDigits_ne_nil

theorem ofInt_trim (n : Int) : Trim (ofInt n) := by
  apply trim_of_all
  intro c hc
  rcases ofInt_chars n hc with rfl | h
  · rfl
  · exact isDigit_not_space h

theorem ofInt_no_comma (n : Int) {c : Char} (h : c ∈ ofInt n) : c ≠ ',' := by
  rcases ofInt_chars n h with rfl | h
  · decide
  · rintro rfl
    simp [Char.isDigit] at h

/-- Numbers round-trip through text. -/
theorem toInt_ofInt (n : Int) : toInt (ofInt n) = .ok n := by
  unfold toInt
  rw [strip_of (ofInt_trim n)]
  have key : signed (ofInt n) = some n := by
    by_cases h : n < 0
    · rw [ofInt, if_pos h, signed, if_pos rfl, digits_toDigits, Option.map_some]
      congr 1
      simp only [Int.ofNat_eq_natCast]
      omega
    · rw [ofInt, if_neg h]
      have hd : digits (Nat.toDigits 10 n.natAbs) = some n.natAbs := digits_toDigits _
      cases ht : Nat.toDigits 10 n.natAbs with
      | nil => exact absurd ht Nat.toDigits_ne_nil
      | cons a t =>
        have ha : a.isDigit = true := digit_of_mem (n := n.natAbs) (by rw [ht]; simp)
        have h1 : a ≠ '-' := by rintro rfl; simp [Char.isDigit] at ha
        have h2 : a ≠ '+' := by rintro rfl; simp [Char.isDigit] at ha
        rw [ht] at hd
        rw [signed, if_neg h1, if_neg h2, hd, Option.map_some]
        congr 1
        simp only [Int.ofNat_eq_natCast]
        omega
  rw [key]

/-- Splitting undoes joining for nonempty lists of comma-free parts. -/
theorem splitComma_joinComma {l : List Text} (hne : l ≠ [])
    (h : ∀ s ∈ l, ∀ c ∈ s, c ≠ ',') : splitComma (joinComma l) = l := by
  induction l with
  | nil => exact absurd rfl hne
  | cons a l ih =>
    have ha : ∀ c ∈ a, (c == ',') = false := fun c hc => by
      simpa using h a List.mem_cons_self c hc
    cases l with
    | nil =>
      simp only [joinComma, splitComma, List.intercalate_singleton]
      exact List.splitOnP_eq_singleton ha
    | cons b l =>
      have := ih (by simp) fun s hs => h s (List.mem_cons_of_mem _ hs)
      simp only [joinComma, splitComma] at this ⊢
      rw [List.intercalate_cons_cons, List.append_assoc, List.singleton_append]
      have e := List.splitOnP_append_cons_of_forall_mem (p := (· == ',')) ha ','
        (by simp) (List.intercalate [','] (b :: l))
      unfold List.splitOn at this ⊢
      rw [e, this]

end DiscSolver.Text
