import Verif.Model.Py
import Mathlib.Data.List.Basic

/-! Helper lemmas: the laws of dictionaries. -/

namespace DiscSolver.Dict

variable {κ β : Type} [DecidableEq κ]

@[simp] theorem get?_nil (k : κ) : get? ([] : Dict κ β) k = none := rfl

theorem get?_set (d : Dict κ β) (k k' : κ) (v : β) :
    get? (set d k v) k' = if k = k' then some v else get? d k' := by
  induction d with
  | nil => rfl
  | cons p d ih =>
    obtain ⟨a, b⟩ := p
    simp only [set]
    by_cases h : a = k
    · subst h
      simp only [if_true, get?]
      by_cases h2 : a = k' <;> simp [h2]
    · simp only [if_neg h, get?]
      by_cases h2 : a = k'
      · have : ¬ k = k' := fun e => h (h2.trans e.symm)
        simp [h2, this]
      · simp [h2, ih]

@[simp] theorem get?_set_self (d : Dict κ β) (k : κ) (v : β) :
    get? (set d k v) k = some v := by simp [get?_set]

theorem get?_set_ne (d : Dict κ β) {k k' : κ} (v : β) (h : k ≠ k') :
    get? (set d k v) k' = get? d k' := by simp [get?_set, h]

theorem get?_eq_none_iff (d : Dict κ β) (k : κ) : get? d k = none ↔ k ∉ keys d := by
  induction d with
  | nil => simp [keys]
  | cons p d ih =>
    obtain ⟨a, b⟩ := p
    simp only [get?, keys, List.map_cons, List.mem_cons, not_or] at *
    by_cases h : a = k
    · simp [h]
    · simp [h, ih, Ne.symm h]

theorem get?_isSome_iff (d : Dict κ β) (k : κ) : (get? d k).isSome ↔ k ∈ keys d := by
  have := get?_eq_none_iff d k
  cases h : get? d k <;> simp_all

theorem set_of_not_mem (d : Dict κ β) (k : κ) (v : β) (h : k ∉ keys d) :
    set d k v = d ++ [(k, v)] := by
  induction d with
  | nil => rfl
  | cons p d ih =>
    obtain ⟨a, b⟩ := p
    simp only [keys, List.map_cons, List.mem_cons, not_or] at h
    simp only [set, if_neg (Ne.symm h.1), List.cons_append]
    rw [ih h.2]

theorem keys_set (d : Dict κ β) (k : κ) (v : β) :
    keys (set d k v) = if k ∈ keys d then keys d else keys d ++ [k] := by
  induction d with
  | nil => rfl
  | cons p d ih =>
    obtain ⟨a, b⟩ := p
    simp only [set]
    by_cases h : a = k
    · simp [h, keys]
    · simp only [if_neg h]
      have hk : keys ((a, b) :: d) = a :: keys d := rfl
      have hk' : keys ((a, b) :: set d k v) = a :: keys (set d k v) := rfl
      rw [hk, hk', ih]
      by_cases h2 : k ∈ keys d
      · simp [h2]
      · simp [h2, Ne.symm h]

theorem nodup_set (d : Dict κ β) (k : κ) (v : β) (h : (keys d).Nodup) :
    (keys (set d k v)).Nodup := by
  rw [keys_set]
  split
  · exact h
  · rename_i hk
    exact List.nodup_append.2 ⟨h, by simp, by
      intro a ha b hb
      simp only [List.mem_singleton] at hb
      subst hb
      exact fun e => hk (e ▸ ha)⟩

theorem keys_erase_sublist (d : Dict κ β) (k : κ) :
    (keys (erase d k)).Sublist (keys d) := by
  induction d with
  | nil => exact List.Sublist.refl _
  | cons p d ih =>
    obtain ⟨a, b⟩ := p
    simp only [erase]
    split
    · exact List.sublist_cons_self _ _
    · exact List.Sublist.cons_cons _ ih

theorem nodup_erase (d : Dict κ β) (k : κ) (h : (keys d).Nodup) :
    (keys (erase d k)).Nodup := h.sublist (keys_erase_sublist d k)

theorem get?_erase (d : Dict κ β) (k k' : κ) (h : (keys d).Nodup) :
    get? (erase d k) k' = if k = k' then none else get? d k' := by
  induction d with
  | nil => simp [erase]
  | cons p d ih =>
    obtain ⟨a, b⟩ := p
    have hk : keys ((a, b) :: d) = a :: keys d := rfl
    rw [hk, List.nodup_cons] at h
    simp only [erase]
    by_cases ha : a = k
    · subst ha
      simp only [if_true, get?]
      by_cases h2 : a = k'
      · subst h2
        simp [get?_eq_none_iff, h.1]
      · simp [h2]
    · simp only [if_neg ha, get?]
      by_cases h2 : a = k'
      · have : ¬ k = k' := fun e => ha (h2.trans e.symm)
        simp [h2, this]
      · simp [h2, ih h.2]

theorem length_set (d : Dict κ β) (k : κ) (v : β) :
    (set d k v).length = if k ∈ keys d then d.length else d.length + 1 := by
  have h := congrArg List.length (keys_set d k v)
  simp only [keys, List.length_map] at h ⊢
  rw [h]
  by_cases hk : k ∈ List.map Prod.fst d <;> simp [hk]

theorem get?_update_of_not_mem (e d : Dict κ β) (k : κ) (h : k ∉ keys e) :
    get? (update d e) k = get? d k := by
  induction e generalizing d with
  | nil => rfl
  | cons p e ih =>
    obtain ⟨a, b⟩ := p
    have hk : keys ((a, b) :: e) = a :: keys e := rfl
    rw [hk, List.mem_cons, not_or] at h
    have : update d ((a, b) :: e) = update (set d a b) e := rfl
    rw [this, ih _ h.2, get?_set_ne _ _ (Ne.symm h.1)]

theorem get?_update (e d : Dict κ β) (k : κ) (hn : (keys e).Nodup) :
    get? (update d e) k = (get? e k).or (get? d k) := by
  induction e generalizing d with
  | nil => rfl
  | cons p e ih =>
    obtain ⟨a, b⟩ := p
    have hk : keys ((a, b) :: e) = a :: keys e := rfl
    rw [hk, List.nodup_cons] at hn
    have : update d ((a, b) :: e) = update (set d a b) e := rfl
    by_cases h : a = k
    · subst h
      rw [this, get?_update_of_not_mem _ _ _ hn.1]
      simp [get?]
    · rw [this, ih _ hn.2]
      simp [get?, h, get?_set_ne _ _ h]

end DiscSolver.Dict
