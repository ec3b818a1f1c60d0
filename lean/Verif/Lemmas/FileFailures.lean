import Verif.Lemmas.OldFiles

/-! Lemmas about files that cannot be written or read. -/

namespace DiscSolver.FileFormat

theorem collect_inv {ι α : Type} (f : ι → String) (g : ι → Except PyErr α) (l : List ι)
    (m : List (String × α)) (h : collect (l.map fun a => (f a, g a)) = .ok m) :
    ∀ a ∈ l, ∃ x, g a = .ok x := by
  intro a ha
  cases hg : g a with
  | ok x => exact ⟨x, rfl⟩
  | error e =>
    obtain ⟨e', he⟩ := collect_error (l.map fun a => (f a, g a)) (f a) e
      (List.mem_map.2 ⟨a, ha, by rw [hg]⟩)
    rw [h] at he
    cases he

theorem collect_value (g : String → Except PyErr α) (l : List String)
    (m : List (String × α)) (h : collect (l.map fun a => (a, g a)) = .ok m) :
    ∀ a ∈ l, ∃ x, g a = .ok x ∧ m.lookup a = some x := by
  have key : ∀ a, ∃ x : Option α, a ∈ l → ∃ y, x = some y ∧ g a = .ok y := by
    intro a
    by_cases ha : a ∈ l
    · obtain ⟨x, hx⟩ := collect_inv (fun a => a) g l m h a ha
      exact ⟨some x, fun _ => ⟨x, rfl, hx⟩⟩
    · exact ⟨none, fun h => absurd h ha⟩
  choose X hX using key
  intro a ha
  obtain ⟨x, hx, hg⟩ := hX a ha
  refine ⟨x, hg, ?_⟩
  have := collect_ok (fun a => a) g (fun a => (X a).getD x) l fun b hb => by
    obtain ⟨y, hy, hgy⟩ := hX b hb
    rw [hy, hgy]
    rfl
  rw [h] at this
  cases this
  rw [lookup_map (fun a => (X a).getD x) l a ha, hx]
  rfl

/-- What a written object looks like. -/
theorem write_inv (c : Cls) (fields : List (String × Obj)) (n : Node)
    (h : write (.obj c fields) = .ok n) :
    ∃ as ns, n = .group (dumper c).label (dumper c).version as ns ∧
      ns.map (·.1) = (dumper c).members ∧
      (∀ k ∈ (dumper c).attrs, ∃ o a, fields.lookup k = some o ∧ asAttr o = .ok a ∧
        as.lookup k = some a) ∧
      (∀ k ∈ (dumper c).members, ∃ o x, fields.lookup k = some o ∧ write o = .ok x ∧
        ns.lookup k = some (finaliseNode c k x)) := by
  rw [write] at h
  cases h₁ : collect ((dumper c).attrs.map fun k => (k, pickAttr fields k)) with
  | error e => rw [h₁] at h; cases h
  | ok as =>
    rw [h₁] at h
    dsimp only at h
    cases h₂ : collect ((dumper c).members.map fun k => (k, pick c (writeFields fields) k)) with
    | error e => rw [h₂] at h; cases h
    | ok ns =>
      rw [h₂] at h
      cases h
      refine ⟨as, ns, rfl, ?_, ?_, ?_⟩
      · rw [collect_keys _ _ h₂, List.map_map]
        exact List.map_id _
      · intro k hk
        obtain ⟨a, ha, hl⟩ := collect_value _ _ _ h₁ k hk
        unfold pickAttr getField at ha
        cases hf : fields.lookup k with
        | none => rw [hf] at ha; cases ha
        | some o => rw [hf] at ha; exact ⟨o, a, rfl, ha, hl⟩
      · intro k hk
        obtain ⟨a, ha, hl⟩ := collect_value _ _ _ h₂ k hk
        unfold pick getField at ha
        rw [writeFields_lookup] at ha
        cases hf : fields.lookup k with
        | none => rw [hf] at ha; cases ha
        | some o =>
          rw [hf] at ha
          simp only [Option.map_some] at ha
          cases hw : write o with
          | error e => rw [hw] at ha; cases ha
          | ok x =>
            rw [hw] at ha
            cases ha
            exact ⟨o, x, rfl, hw, hl⟩

theorem readMembers_lookup (E : Env) (ns : List (String × Node)) (m : List (String × Obj))
    (hn : (ns.map (·.1)).Nodup) (h : readMembers E ns = .ok m) (k : String) (n : Node)
    (hk : ns.lookup k = some n) :
    (n = .absent → m.lookup k = none) ∧
      (n ≠ .absent → ∃ o, read E n = .ok o ∧ m.lookup k = some o) := by
  have hsub : ∀ (ns : List (String × Node)) (m : List (String × Obj)),
      readMembers E ns = .ok m → ∀ k ∈ m.map (·.1), k ∈ ns.map (·.1) := by
    intro ns
    induction ns with
    | nil => intro m h; cases h; simp
    | cons e ns ih =>
      intro m h k hk
      obtain ⟨k', n'⟩ := e
      by_cases ha : n' = .absent
      · subst ha
        rw [readMembers] at h
        simp [ih m h k hk]
      · rw [readMembers] at h
        · cases hr : read E n' with
          | error e => rw [hr] at h; cases h
          | ok o =>
            rw [hr] at h
            dsimp only at h
            cases hm : readMembers E ns with
            | error e => rw [hm] at h; cases h
            | ok m' =>
              rw [hm] at h
              cases h
              rcases List.mem_cons.1 hk with hk | hk
              · simp at hk; simp [hk]
              · have := ih m' hm k hk
                simp only [List.map_cons, List.mem_cons]
                exact .inr this
        · exact ha
  induction ns generalizing m with
  | nil => simp at hk
  | cons e ns ih =>
    obtain ⟨k', n'⟩ := e
    simp only [List.map_cons, List.nodup_cons] at hn
    rw [List.lookup_cons] at hk
    by_cases ha : n' = .absent
    · subst ha
      rw [readMembers] at h
      by_cases hkk : k = k'
      · subst hkk
        simp only [beq_self_eq_true, Option.some.injEq] at hk
        subst hk
        exact ⟨fun _ => lookup_none fun hm => hn.1 (hsub ns m h k hm), fun h => absurd rfl h⟩
      · rw [beq_false_of_ne hkk] at hk
        exact ih m hn.2 h hk
    · rw [readMembers] at h
      · cases hr : read E n' with
        | error e => rw [hr] at h; cases h
        | ok o =>
          rw [hr] at h
          dsimp only at h
          cases hm : readMembers E ns with
          | error e => rw [hm] at h; cases h
          | ok m' =>
            rw [hm] at h
            cases h
            by_cases hkk : k = k'
            · subst hkk
              simp only [beq_self_eq_true, Option.some.injEq] at hk
              subst hk
              exact ⟨fun h => absurd h ha, fun _ => ⟨o, hr, by simp⟩⟩
            · rw [beq_false_of_ne hkk] at hk
              rw [List.lookup_cons, beq_false_of_ne hkk]
              exact ih m' hn.2 hm hk
      · exact ha

/-- If one argument cannot be computed, the group cannot be read. -/
theorem unreadable_arg (E : Env) (c : Cls) (label : String) (v : ℕ) (t : Table)
    (ht : loaderTable label v = some (c, t))
    (as : List (String × Obj)) (ns : List (String × Node))
    (h : ∀ m, readMembers E ns = .ok m → ∃ a ∈ t, ∃ e, evalSrc E as m a.2 = .error e) :
    ∃ e, read E (.group label v as ns) = .error e := by
  rw [read]
  cases hm : readMembers E ns with
  | error e => exact ⟨e, rfl⟩
  | ok m =>
    dsimp only
    obtain ⟨a, ha, e, he⟩ := h m hm
    obtain ⟨e', he'⟩ := collect_error (t.map fun a => (a.1, evalSrc E as m a.2)) a.1 e
      (List.mem_map.2 ⟨a, ha, by rw [he]⟩)
    unfold loader
    rw [ht]
    dsimp only
    rw [he']
    exact ⟨e', rfl⟩

theorem members_nodup (c : Cls) : ((dumper c).members).Nodup := by
  cases c <;> decide +kernel

/-- The field of an object that was read. -/
theorem read_field (E : Env) (c : Cls) (label : String) (v : ℕ) (t : Table)
    (ht : loaderTable label v = some (c, t)) (hp : ¬ (label = "Run" ∧ (v = 5 ∨ v = 6)))
    (hc : c ≠ .InitialConditions) (k : String) (s : Src)
    (hs : t.lookup k = some s) (ht' : (t.map (·.1)).Nodup)
    (hconv : ∀ o, convert E c k o = .ok o) (hk : k ∈ (kinds c).map (·.1))
    (as : List (String × Obj)) (ns : List (String × Node)) (o : Obj)
    (h : read E (.group label v as ns) = .ok o) :
    ∃ m values x, readMembers E ns = .ok m ∧ o = .obj c values ∧
      values.lookup k = some x ∧ evalSrc E as m s = .ok x := by
  rw [read] at h
  cases hm : readMembers E ns with
  | error e => rw [hm] at h; cases h
  | ok m =>
    rw [hm] at h
    dsimp only at h
    unfold loader at h
    rw [ht] at h
    dsimp only at h
    cases hcl : collect (t.map fun a => (a.1, evalSrc E as m a.2)) with
    | error e => rw [hcl] at h; cases h
    | ok kwargs =>
      rw [hcl] at h
      simp only [Except.bind] at h
      rw [prepare, if_neg hp] at h
      dsimp only at h
      unfold construct at h
      split_ifs at h
      cases hcv : collect ((classFields c).map fun f => (f.1, fieldValue E c kwargs f)) with
      | error e => rw [hcv] at h; cases h
      | ok values =>
        rw [hcv] at h
        dsimp only at h
        rw [finish, if_neg hc] at h
        cases h
        have hsm : (k, s) ∈ t := mem_of_lookup hs
        have hkw : ∃ x, evalSrc E as m s = .ok x ∧ kwargs.lookup k = some x := by
          have : (t.map fun a => (a.1, evalSrc E as m a.2)) =
              ((t.map (·.1)).map fun k => (k, evalSrc E as m ((t.lookup k).getD s))) := by
            rw [List.map_map]
            refine List.map_congr_left fun a ha => ?_
            simp [lookup_of_mem ht' (show (a.1, a.2) ∈ t from ha)]
          rw [this] at hcl
          obtain ⟨x, hx, hl⟩ := collect_value _ _ _ hcl k (List.mem_map.2 ⟨_, hsm, rfl⟩)
          rw [hs] at hx
          exact ⟨x, hx, hl⟩
        obtain ⟨x, hx, hl⟩ := hkw
        refine ⟨m, values, x, rfl, rfl, ?_, hx⟩
        have hcn : ((classFields c).map (·.1)).Nodup := by
          rw [classFields_names]; exact kinds_nodup c
        have hkc : k ∈ (classFields c).map (·.1) := by rw [classFields_names]; exact hk
        have : ((classFields c).map fun f => (f.1, fieldValue E c kwargs f)) =
            (((classFields c).map (·.1)).map fun k =>
              (k, fieldValue E c kwargs (k, ((classFields c).lookup k).getD none))) := by
          rw [List.map_map]
          refine List.map_congr_left fun f hf => ?_
          simp [lookup_of_mem hcn (show (f.1, f.2) ∈ classFields c from hf)]
        rw [this] at hcv
        obtain ⟨y, hy, hyl⟩ := collect_value _ _ _ hcv k hkc
        unfold fieldValue at hy
        rw [hl] at hy
        dsimp only at hy
        rw [hconv] at hy
        cases hy
        exact hyl

end DiscSolver.FileFormat
