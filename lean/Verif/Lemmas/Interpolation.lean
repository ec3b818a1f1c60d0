import Verif.Model.ConfigFile
import Verif.Spec.ConfigDoc
import Verif.Lemmas.ConfigFile

/-! Helper lemmas: interpolation finds what a text means. -/

namespace DiscSolver.Cfg

open ConfDoc

theorem matchKey_of {k : Text} (s : Text) (hk : k ≠ [] ∧ ')' ∉ k) :
    matchKey (k ++ ")s".toList ++ s) = some (k, s) := by
  have hp : ∀ c ∈ k, (decide (c ≠ ')')) = true := fun c hc => by
    simp only [decide_eq_true_eq]
    rintro rfl
    exact hk.2 hc
  have e : k ++ ")s".toList ++ s = k ++ ')' :: 's' :: s := by simp
  have h1 : (k ++ ')' :: 's' :: s).takeWhile (· ≠ ')') = k := by
    rw [List.takeWhile_append_of_pos hp, List.takeWhile_cons_of_neg (by simp), List.append_nil]
  have h2 : (k ++ ')' :: 's' :: s).dropWhile (· ≠ ')') = ')' :: 's' :: s := by
    rw [List.dropWhile_append_of_pos hp, List.dropWhile_cons_of_neg (by simp)]
  rw [e]
  unfold matchKey
  simp only [h1, h2]
  cases k with
  | nil => exact absurd rfl hk.1
  | cons a k => rfl

theorem matchKey_some {t k s : Text} (h : matchKey t = some (k, s)) :
    (k ≠ [] ∧ ')' ∉ k) ∧ t = k ++ ")s".toList ++ s := by
  unfold matchKey at h
  have hn : ')' ∉ t.takeWhile (· ≠ ')') := fun hm => by
    have := List.all_eq_true.1 (List.all_takeWhile (p := (· ≠ ')')) (l := t)) _ hm
    simp at this
  have ht : t.takeWhile (· ≠ ')') ++ t.dropWhile (· ≠ ')') = t :=
    List.takeWhile_append_dropWhile
  dsimp only at h
  generalize t.takeWhile (· ≠ ')') = a at h hn ht
  generalize t.dropWhile (· ≠ ')') = b at h ht
  split at h
  · cases h
  · next key rest hne =>
    injection h with h
    injection h with h1 h2
    subst h1 h2
    exact ⟨⟨hne, hn⟩, by rw [← ht]; simp⟩
  · cases h

/-- The value a reference stands for. -/
def expandKey (look : Text → Option Text) (d : ℕ) (key : Text) : Except PyErr Text :=
  match look key with
  | none => .error .ConfigParserError
  | some w => if '%' ∈ w then interpolate look d w else .ok w

theorem interpolate_succ (look : Text → Option Text) (d : ℕ) (v : Text) :
    interpolate look (d + 1) v = interpLoop (expandKey look d) v.length v := rfl

theorem interpLoop_means {look : Text → Option Text} {val : Text → Text → Prop}
    (hl : ∀ k w, look k = some w ↔ val k w) (d : ℕ)
    (hd : ∀ w r, interpolate look d w = .ok r ↔ Means val d w r)
    (n : ℕ) (v r : Text) (hn : v.length ≤ n) :
    interpLoop (expandKey look d) n v = .ok r ↔ Means val (d + 1) v r := by
  induction n generalizing v r with
  | zero =>
    have : v = [] := List.length_eq_zero_iff.1 (Nat.le_zero.1 hn)
    subst this
    simp only [interpLoop, Except.ok.injEq]
    constructor
    · rintro rfl; exact .nil d
    · intro h; cases h; rfl
  | succ n ih =>
    cases v with
    | nil =>
      simp only [interpLoop, Except.ok.injEq]
      constructor
      · rintro rfl; exact .nil d
      · intro h; cases h; rfl
    | cons c s =>
      have hs : s.length ≤ n := Nat.le_of_succ_le_succ hn
      constructor
      · intro h
        simp only [interpLoop] at h
        by_cases hc : c = '%'
        · rw [if_pos hc] at h
          subst hc
          split at h
          · next t =>
            have ht : t.length ≤ n := Nat.le_of_succ_le hs
            cases hi : interpLoop (expandKey look d) n t with
            | error e => rw [hi] at h; cases h
            | ok r' =>
              rw [hi] at h
              injection h with h
              subst h
              exact .percent ((ih t r' ht).1 hi)
          · next t =>
            cases hm : matchKey t with
            | none => rw [hm] at h; cases h
            | some p =>
              obtain ⟨k, rest⟩ := p
              obtain ⟨hk, rfl⟩ := matchKey_some hm
              rw [hm] at h
              simp only at h
              have hrest : rest.length ≤ n := by
                simp only [List.length_cons, List.length_append] at hs
                omega
              cases he : expandKey look d k with
              | error e => rw [he] at h; cases h
              | ok w' =>
                rw [he] at h
                simp only at h
                cases hi : interpLoop (expandKey look d) n rest with
                | error e => rw [hi] at h; cases h
                | ok r' =>
                  rw [hi] at h
                  injection h with h
                  subst h
                  have hr := (ih rest r' hrest).1 hi
                  unfold expandKey at he
                  cases hw : look k with
                  | none => rw [hw] at he; cases he
                  | some w =>
                    rw [hw] at he
                    simp only at he
                    by_cases hp : '%' ∈ w
                    · rw [if_pos hp] at he
                      have := Means.nested hk ((hl k w).1 hw) hp ((hd w w').1 he) hr
                      simpa using this
                    · rw [if_neg hp] at he
                      injection he with he
                      subst he
                      have := Means.plain hk ((hl k w).1 hw) hp hr
                      simpa using this
          · cases h
        · rw [if_neg hc] at h
          cases hi : interpLoop (expandKey look d) n s with
          | error e => rw [hi] at h; cases h
          | ok r' =>
            rw [hi] at h
            injection h with h
            subst h
            exact .char hc ((ih s r' hs).1 hi)
      · intro h
        generalize hv : c :: s = v at h
        cases h with
        | nil => cases hv
        | char hc h =>
          injection hv with h1 h2
          subst h1 h2
          simp only [interpLoop, if_neg hc, (ih _ _ hs).2 h]
        | percent h =>
          rename_i s' r'
          have e : c :: s = '%' :: '%' :: s' := hv
          injection e with h1 h2
          subst h1 h2
          have hs' : s'.length ≤ n := Nat.le_of_succ_le hs
          rw [← hv]
          simp only [interpLoop, if_true, (ih _ _ hs').2 h]
        | plain hk hw hp h =>
          rename_i k w s' r'
          have e : c :: s = '%' :: '(' :: (k ++ ")s".toList ++ s') := by rw [hv]; simp
          injection e with h1 h2
          subst h1 h2
          have hs' : s'.length ≤ n := by
            simp only [List.length_cons, List.length_append] at hs
            omega
          have he : expandKey look d k = .ok w := by
            unfold expandKey
            rw [(hl k w).2 hw]
            simp only [if_neg hp]
          rw [← hv]
          simp only [interpLoop, if_true, matchKey_of s' hk, he, (ih _ _ hs').2 h]
        | nested hk hw hp hw' h =>
          rename_i k w w' s' r'
          have e : c :: s = '%' :: '(' :: (k ++ ")s".toList ++ s') := by rw [hv]; simp
          injection e with h1 h2
          subst h1 h2
          have hs' : s'.length ≤ n := by
            simp only [List.length_cons, List.length_append] at hs
            omega
          have he : expandKey look d k = .ok w' := by
            unfold expandKey
            rw [(hl k w).2 hw]
            simp only [if_pos hp, (hd w w').2 hw']
          rw [← hv]
          simp only [interpLoop, if_true, matchKey_of s' hk, he, (ih _ _ hs').2 h]

/-- Interpolation finds what a text means. -/
theorem interpolate_iff {look : Text → Option Text} {val : Text → Text → Prop}
    (hl : ∀ k w, look k = some w ↔ val k w) (d : ℕ) (v r : Text) :
    interpolate look d v = .ok r ↔ Means val d v r := by
  induction d generalizing v r with
  | zero =>
    constructor
    · intro h; cases h
    · intro h; cases h
  | succ d ih =>
    rw [interpolate_succ]
    exact interpLoop_means hl d (fun w r => ih w r) _ v r (Nat.le_refl _)

theorem interpLoop_error {expand : Text → Except PyErr Text}
    (he : ∀ k e, expand k = .error e → e = .ConfigParserError) (n : ℕ) (v : Text) (e : PyErr)
    (h : interpLoop expand n v = .error e) : e = .ConfigParserError := by
  induction n generalizing v with
  | zero => cases h
  | succ n ih =>
    cases v with
    | nil => cases h
    | cons c s =>
      simp only [interpLoop] at h
      by_cases hc : c = '%'
      · rw [if_pos hc] at h
        split at h
        · next t =>
          cases hi : interpLoop expand n t with
          | error e' => rw [hi] at h; injection h with h; subst h; exact ih t hi
          | ok r => rw [hi] at h; cases h
        · next t =>
          cases hm : matchKey t with
          | none => rw [hm] at h; injection h with h; exact h.symm
          | some p =>
            rw [hm] at h
            simp only at h
            cases hx : expand p.1 with
            | error e' => rw [hx] at h; injection h with h; subst h; exact he _ _ hx
            | ok w =>
              rw [hx] at h
              simp only at h
              cases hi : interpLoop expand n p.2 with
              | error e' => rw [hi] at h; injection h with h; subst h; exact ih _ hi
              | ok r => rw [hi] at h; cases h
        · injection h with h; exact h.symm
      · rw [if_neg hc] at h
        cases hi : interpLoop expand n s with
        | error e' => rw [hi] at h; injection h with h; subst h; exact ih s hi
        | ok r => rw [hi] at h; cases h

/-- The only error of interpolation. -/
theorem interpolate_error (look : Text → Option Text) (d : ℕ) (v : Text) (e : PyErr)
    (h : interpolate look d v = .error e) : e = .ConfigParserError := by
  induction d generalizing v e with
  | zero => injection h with h; exact h.symm
  | succ d ih =>
    rw [interpolate_succ] at h
    refine interpLoop_error (fun k e' hk => ?_) _ v e h
    unfold expandKey at hk
    cases hw : look k with
    | none => rw [hw] at hk; injection hk with hk; exact hk.symm
    | some w =>
      rw [hw] at hk
      simp only at hk
      by_cases hp : '%' ∈ w
      · rw [if_pos hp] at hk
        exact ih w e' hk
      · rw [if_neg hp] at hk; cases hk

end DiscSolver.Cfg
