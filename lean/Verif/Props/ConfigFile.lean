import Verif.Lemmas.ConfigFile
import Verif.Props.Inputs

/-!
# Configuration files: C42
-/

namespace DiscSolver

open Text hiding none
open Cfg

/-- A text with every `%` doubled, which is how `configparser` wants a literal `%`. -/
def escapePercent : Text → Text
  | [] => []
  | c :: t => if c = '%' then '%' :: '%' :: escapePercent t else c :: escapePercent t

theorem dropEscaped_escape (t : Text) :
    dropEscaped (escapePercent t) = t.filter (· ≠ '%') := by
  induction t with
  | nil => rfl
  | cons c t ih =>
    by_cases h : c = '%'
    · subst h
      rw [escapePercent, if_pos rfl, dropEscaped, ih]
      simp
    · rw [escapePercent, if_neg h]
      unfold dropEscaped
      split
      · next heq => injection heq with h1 _; exact absurd h1 h
      · next heq =>
        injection heq with h1 h2
        subst h1 h2
        rw [ih]
        simp [h]
      · next heq => cases heq

theorem before_set_escape (t : Text) : before_set (escapePercent t) = .ok (escapePercent t) := by
  have h : '%' ∉ t.filter (· ≠ '%') := by simp
  unfold before_set
  simp only [dropEscaped_escape, dropKeys_of _ h, h, if_false]

theorem interpLoop_escape (e : Text → Except PyErr Text) (t : Text) (n : ℕ)
    (hn : (escapePercent t).length ≤ n) : interpLoop e n (escapePercent t) = .ok t := by
  induction t generalizing n with
  | nil => cases n <;> rfl
  | cons c t ih =>
    by_cases h : c = '%'
    · subst h
      rw [escapePercent, if_pos rfl] at hn ⊢
      simp only [List.length_cons] at hn
      obtain ⟨m, rfl⟩ : ∃ m, n = m + 1 := ⟨n - 1, by omega⟩
      unfold interpLoop
      simp only [if_true]
      rw [ih m (by omega)]
    · rw [escapePercent, if_neg h] at hn ⊢
      simp only [List.length_cons] at hn
      obtain ⟨m, rfl⟩ : ∃ m, n = m + 1 := ⟨n - 1, by omega⟩
      unfold interpLoop
      rw [if_neg h, ih m (by omega)]

/-- What was written is read: two sections of options. -/
theorem read_written (l m : List (Text × Text))
    (hl : ∀ p ∈ l, GoodName p.1 ∧ '\n' ∉ p.1) (hm : ∀ p ∈ m, GoodName p.1 ∧ '\n' ∉ p.1)
    (hln : (l.map Prod.fst).Nodup) (hmn : (m.map Prod.fst).Nodup) :
    ∃ secs, readFile (writeSection "config".toList l ++ writeSection "initial".toList m) =
        .ok secs ∧
      ∃ look look' : Text → Option Text,
        (∀ k v fb, (k, v) ∈ l → get secs "config".toList k fb = interpolate look 10 (held v)) ∧
        (∀ k fb, k ∉ l.map Prod.fst → get secs "config".toList k fb = .ok fb) ∧
        (∀ k v fb, (k, v) ∈ m → get secs "initial".toList k fb = interpolate look' 10 (held v)) ∧
        (∀ k fb, k ∉ m.map Prod.fst → get secs "initial".toList k fb = .ok fb) := by
  obtain ⟨ql, el, gl⟩ := items_of l hl
  obtain ⟨qm, em, gm⟩ := items_of m hm
  clear hl hm
  subst el em
  have hl := gl
  have hm := gm
  have hfst : ∀ q : List Item, (q.map fun q => (q.1, q.value)).map Prod.fst = q.map Prod.fst :=
    fun q => by rw [List.map_map]; rfl
  rw [hfst] at hln hmn
  have hlines : fileLines (writeSection "config".toList (ql.map fun q => (q.1, q.value)) ++
      writeSection "initial".toList (qm.map fun q => (q.1, q.value))) =
      "[config]".toList :: (ql.flatMap Item.lines) ++ [[]] ++
        ("[initial]".toList :: (qm.flatMap Item.lines) ++ [[]]) := by
    have e : ∀ (name : Text) (items : List Item), (∀ q ∈ items, q.Good) →
        writeSection name (items.map fun q => (q.1, q.value)) =
          ((('[' :: name ++ [']']) :: (items.flatMap Item.lines) ++ [[]]).map
            (· ++ ['\n'])).flatten := by
      intro name items hi
      have : ((items.map fun q => (q.1, q.value)).map writeItem).flatten =
          ((items.flatMap Item.lines).map (· ++ ['\n'])).flatten := by
        induction items with
        | nil => rfl
        | cons q items ih =>
          rw [List.map_cons, List.map_cons, List.flatten_cons,
            ih fun q hq => hi q (List.mem_cons_of_mem _ hq), List.flatMap_cons,
            List.map_append, List.flatten_append, writeItem_lines q (hi q (by simp))]
      simp only [writeSection, this, List.map_cons, List.map_append, List.flatten_cons,
        List.flatten_append, List.map_nil, List.flatten_nil, List.append_assoc,
        List.cons_append, List.nil_append, List.append_nil]
    rw [e _ _ hl, e _ _ hm, ← List.flatten_append, ← List.map_append, fileLines_flatten]
    · rfl
    · have hi : ∀ items : List Item, (∀ q ∈ items, q.Good) →
          ∀ s ∈ items.flatMap Item.lines, '\n' ∉ s := by
        intro items hi s hs
        obtain ⟨q, hq, hs⟩ := List.mem_flatMap.1 hs
        obtain ⟨-, h1, h2⟩ := hi q hq
        rcases List.mem_cons.1 hs with rfl | hs
        · simp only [itemLine, List.mem_append, not_or]
          exact ⟨⟨h1, by decide⟩, h2 _ (by simp)⟩
        · obtain ⟨t, ht, rfl⟩ := List.mem_map.1 hs
          simp only [List.mem_cons, not_or]
          exact ⟨by decide, h2 t (by simp [ht])⟩
      intro s hs
      simp only [List.mem_append, List.mem_cons, List.not_mem_nil, or_false] at hs
      rcases hs with ((rfl | hs) | rfl) | ((rfl | hs) | rfl)
      · decide
      · exact hi ql hl s hs
      · decide
      · decide
      · exact hi qm hm s hs
      · decide
  -- the first section
  have h1 : readLine start "[config]".toList = .ok ⟨[("config".toList, [])],
      some "config".toList, none, 0, [("config".toList, none)], false⟩ := by rfl
  obtain ⟨s1, a1, a2, a3, ⟨d1, a4, a5, a6⟩, a7, a8⟩ := readLines_items ql "config".toList
    ⟨[("config".toList, [])], some "config".toList, none, 0,
      [("config".toList, none)], false⟩ []
    hl hln rfl rfl
    (fun p _ h => by simp at h)
  obtain ⟨s2, b1, b2, b3, -, b5, b6, b7, b8⟩ := readLine_blank s1
  obtain ⟨d2, c1, c2⟩ := b6 _ _ a4
  obtain ⟨d2', c1', c3⟩ := b8 _ _ a4
  rw [c1] at c1'
  injection c1' with c1'
  subst c1'
  -- the second header
  have hno : s2.sections.get? "initial".toList = none := by
    apply b7
    rw [a7 _ (by decide)]
    rfl
  have hdef2 : s2.sections.get? defaultSection = none := by
    apply b7
    rw [a7 _ (by decide)]
    rfl
  have hadd2 : ∀ o, (("initial".toList : Text), o) ∉ s2.added := by
    intro o
    rw [b5, a8 _ _ (by decide)]
    simp
  have h2 : readLine s2 "[initial]".toList = .ok { s2 with
      sections := s2.sections.set "initial".toList [], cur := some "initial".toList,
      opt := none, indent := 0, added := ("initial".toList, none) :: s2.added } := by
    have hh : readLine.header s2 0 "[initial]".toList = .ok { s2 with
        sections := s2.sections.set "initial".toList [], cur := some "initial".toList,
        opt := none, indent := 0, added := ("initial".toList, none) :: s2.added } := by
      have hm : matchSection "[initial]".toList = some "initial".toList := by decide +kernel
      unfold readLine.header
      simp only [hm]
      rw [if_neg (by decide), hno]
      rfl
    have hst : strip "[initial]".toList = "[initial]".toList := by decide +kernel
    have hind : ("[initial]".toList.takeWhile isSpace).length = 0 := by decide +kernel
    unfold readLine
    simp only [hst, hind]
    rw [if_neg (by decide), if_neg (by decide)]
    cases s2.cur with
    | none => exact hh
    | some a =>
      cases s2.opt with
      | none => exact hh
      | some o =>
        simp only [Nat.not_lt_zero, and_false, if_false]
        exact hh
  obtain ⟨s3, e1, e2, e3, ⟨d3, e4, e5, e6⟩, e7, e8⟩ := readLines_items qm "initial".toList
    { s2 with
      sections := s2.sections.set "initial".toList [], cur := some "initial".toList,
      opt := none, indent := 0, added := ("initial".toList, none) :: s2.added } []
    hm hmn rfl (Dict.get?_set_self _ _ _)
    (fun p _ h => by
      rcases List.mem_cons.1 h with h | h
      · injection h with _ h; cases h
      · exact hadd2 _ h)
  obtain ⟨s4, f1, f2, f3, -, f5, f6, f7, f8⟩ := readLine_blank s3
  obtain ⟨d4, g1, g2⟩ := f6 _ _ e4
  obtain ⟨d4', g1', g3⟩ := f8 _ _ e4
  rw [g1] at g1'
  injection g1' with g1'
  subst g1'
  have hc3 : s3.sections.get? "config".toList = some d2 := by
    rw [e7 _ (by decide)]
    simp only
    rw [Dict.get?_set_ne _ _ (by decide), c1]
  obtain ⟨d5, i1, i2⟩ := f6 _ _ hc3
  obtain ⟨d5', i1', i3⟩ := f8 _ _ hc3
  rw [i1] at i1'
  injection i1' with i1'
  subst i1'
  have hdef4 : s4.sections.get? defaultSection = none := by
    apply f7
    rw [e7 _ (by decide)]
    simp only
    rw [Dict.get?_set_ne _ _ (by decide), hdef2]
  have hrun : (fileLines (writeSection "config".toList (ql.map fun q => (q.1, q.value)) ++
      writeSection "initial".toList (qm.map fun q => (q.1, q.value)))).foldlM readLine start =
      .ok s4 := by
    rw [hlines]
    simp only [List.cons_append, List.append_assoc, List.nil_append]
    rw [foldlM_cons_ok h1, foldlM_append_ok a1, foldlM_cons_ok b1, foldlM_cons_ok h2,
      foldlM_append_ok e1, foldlM_cons_ok f1]
    rfl
  refine ⟨s4.sections, ?_, lookup s4.sections d5, lookup s4.sections d4, ?_, ?_, ?_, ?_⟩
  · have hb : s4.bad = false := by
      rw [f3, e3]; change s2.bad = false; rw [b3, a3]
    unfold readFile
    rw [hrun]
    simp [hb]
  · intro k v fb hkv
    obtain ⟨q, hq, hqe⟩ := List.mem_map.1 hkv
    injection hqe with h1 h2
    subst h1 h2
    obtain ⟨l1, j1, j2⟩ := c2 q.1 _ (a5 q hq)
    obtain ⟨l2, j3, j4⟩ := i2 q.1 l1 j1
    have htr := hl q hq
    have hj : joinValue l2 = held q.value := by
      rcases j2 with rfl | rfl <;> rcases j4 with rfl | rfl
      · exact joinValue_of htr (Or.inl rfl)
      · exact joinValue_of htr (Or.inr rfl)
      · exact joinValue_of htr (Or.inr rfl)
      · exact joinValue_of2 htr
    have hlk : lookup s4.sections d5 q.1 = some (held q.value) := by
      simp only [lookup, j3, hj]
    unfold Cfg.get
    simp only [i1, hlk]
  · intro k fb hk
    rw [hfst] at hk
    have h0 : d5.get? k = none := i3 k (c3 k (by rw [a6 k hk]; rfl))
    unfold Cfg.get
    simp only [i1, lookup, h0, hdef4]
  · intro k v fb hkv
    obtain ⟨q, hq, hqe⟩ := List.mem_map.1 hkv
    injection hqe with h1 h2
    subst h1 h2
    obtain ⟨l2, j3, j4⟩ := g2 q.1 _ (e5 q hq)
    have hlk : lookup s4.sections d4 q.1 = some (held q.value) := by
      simp only [lookup, j3, joinValue_of (hm q hq) j4]
    unfold Cfg.get
    simp only [g1, hlk]
  · intro k fb hk
    rw [hfst] at hk
    have h0 : d4.get? k = none := g3 k (by rw [e6 k hk]; rfl)
    unfold Cfg.get
    simp only [g1, lookup, h0, hdef4]

/-! ## The code -/

/-- A configuration that can be written: the options always written are not `None`,
and every text is one the format can hold. -/
def Writable (c : ConfigInput) : Prop :=
  (∀ f, f.skipNone = false → c f ≠ none) ∧ ∀ f t, c f = some t → Safe t

theorem setItems_ok (c : ConfigInput) (fs : List CField)
    (hr : ∀ f ∈ fs, f.skipNone = false → c f ≠ none)
    (hp : ∀ f ∈ fs, ∀ t, c f = some t → before_set t = .ok t) :
    setItems c fs = .ok (fs.filterMap fun f => (c f).map fun t => (f.name.toList, t)) := by
  induction fs with
  | nil => rfl
  | cons f fs ih =>
    have ih := ih (fun g hg => hr g (by simp [hg])) (fun g hg => hp g (by simp [hg]))
    unfold setItems
    cases hc : c f with
    | none =>
      have : f.skipNone = true := by
        by_contra hn
        exact hr f (by simp) (by simpa using hn) hc
      simp only [this, if_true]
      rw [ih, List.filterMap_cons_none (by simp [hc])]
    | some t =>
      simp only [hp f (by simp) t hc, ih]
      rw [List.filterMap_cons_some (b := (f.name.toList, t)) (by simp [hc])]

/-- A `%` the parser objects to stops the writing. -/
theorem setItems_bad (c : ConfigInput) (fs : List CField) (f : CField) (hf : f ∈ fs)
    (t : Text) (e : PyErr) (hc : c f = some t) (hb : before_set t = .error e) :
    ∃ e', setItems c fs = .error e' := by
  induction fs with
  | nil => cases hf
  | cons g fs ih =>
    unfold setItems
    rcases List.mem_cons.1 hf with rfl | hf
    · simp only [hc, hb]; exact ⟨e, rfl⟩
    · obtain ⟨e', he'⟩ := ih hf
      cases c g with
      | none =>
        simp only
        split
        · exact ⟨e', he'⟩
        · exact ⟨_, rfl⟩
      | some u =>
        simp only
        cases before_set u with
        | error e => exact ⟨e, rfl⟩
        | ok u => simp only [he']; exact ⟨e', rfl⟩

theorem goodName (f : CField) : GoodName f.name.toList ∧ '\n' ∉ f.name.toList := by
  unfold GoodName
  cases f with
  | label => decide +kernel
  | s f => cases f <;> decide +kernel

theorem mem_getOrder (f : CField) : f ∈ CField.getOrder := by
  cases f with
  | label => decide
  | s f => cases f <;> decide

theorem mem_keys (f : CField) :
    (f.section = "config".toList ∧ f ∈ configKeys) ∨
    (f.section = "initial".toList ∧ f ∈ initialKeys) := by
  cases f with
  | label => left; exact ⟨rfl, by decide⟩
  | s f => cases f <;> first | (left; exact ⟨rfl, by decide⟩) | (right; exact ⟨rfl, by decide⟩)

theorem toList_injective {a b : String} (h : a.toList = b.toList) : a = b :=
  String.toList_injective h

/-- Writing and reading: every option written is the interpolation of what is kept of its
own text, every other its fallback. -/
theorem conf_file_read (c : ConfigInput) (hr : ∀ f, f.skipNone = false → c f ≠ none)
    (hp : ∀ f t, c f = some t → before_set t = .ok t) :
    ∃ txt secs, c.to_conf_file = .ok txt ∧ readFile txt = .ok secs ∧
      ∃ look look' : Text → Option Text, ∀ f : CField,
        Cfg.get secs f.section f.name.toList f.fallback =
          match c f with
          | none => .ok f.fallback
          | some t =>
            interpolate (if f.section = "config".toList then look else look') 10 (held t) := by
  have e1 := setItems_ok c configKeys (fun f _ => hr f) (fun f _ => hp f)
  have e2 := setItems_ok c initialKeys (fun f _ => hr f) (fun f _ => hp f)
  have hgood : ∀ fs : List CField, ∀ p ∈ fs.filterMap
      (fun f => (c f).map fun t => (f.name.toList, t)),
      GoodName p.1 ∧ '\n' ∉ p.1 := by
    intro fs p h
    obtain ⟨f, -, hf⟩ := List.mem_filterMap.1 h
    cases hc : c f with
    | none => rw [hc] at hf; cases hf
    | some t =>
      rw [hc] at hf
      injection hf with hf
      subst hf
      exact goodName f
  have hsub : ∀ fs : List CField, ((fs.filterMap
      (fun f => (c f).map fun t => (f.name.toList, t))).map Prod.fst).Sublist
      (fs.map fun f => f.name.toList) := by
    intro fs
    induction fs with
    | nil => simp
    | cons f fs ih =>
      cases hc : c f with
      | none =>
        rw [List.filterMap_cons_none (by simp [hc]), List.map_cons]
        exact ih.cons _
      | some t =>
        rw [List.filterMap_cons_some (b := (f.name.toList, t)) (by simp [hc]),
          List.map_cons, List.map_cons]
        exact ih.cons_cons _
  have hn1 : (configKeys.map fun f => f.name.toList).Nodup := by decide +kernel
  have hn2 : (initialKeys.map fun f => f.name.toList).Nodup := by decide +kernel
  obtain ⟨secs, h1, look, look', h2, h3, h4, h5⟩ := read_written _ _ (hgood configKeys)
    (hgood initialKeys) (hn1.sublist (hsub configKeys)) (hn2.sublist (hsub initialKeys))
  refine ⟨_, secs, by unfold ConfigInput.to_conf_file; simp only [e1, e2], h1,
    look, look', fun f => ?_⟩
  have hkey : ∀ fs : List CField, c f = none →
      f.name.toList ∉ (fs.filterMap (fun f => (c f).map fun t => (f.name.toList, t))).map
        Prod.fst := by
    intro fs hc hm
    obtain ⟨p, hp, hpn⟩ := List.mem_map.1 hm
    obtain ⟨g, -, hg⟩ := List.mem_filterMap.1 hp
    cases hcg : c g with
    | none => rw [hcg] at hg; cases hg
    | some t =>
      rw [hcg] at hg
      injection hg with hg
      subst hg
      have := CField.name_injective g f (toList_injective hpn)
      subst this
      rw [hc] at hcg; cases hcg
  have hmem : ∀ fs : List CField, f ∈ fs → ∀ t, c f = some t → (f.name.toList, t) ∈
      fs.filterMap (fun f => (c f).map fun t => (f.name.toList, t)) := by
    intro fs hf t hc
    exact List.mem_filterMap.2 ⟨f, hf, by simp [hc]⟩
  rcases mem_keys f with ⟨hs, hf⟩ | ⟨hs, hf⟩
  · rw [hs]
    cases hc : c f with
    | none => exact h3 _ _ (hkey _ hc)
    | some t => simp only [if_true]; exact h2 _ _ _ (hmem _ hf t hc)
  · rw [hs]
    cases hc : c f with
    | none => exact h5 _ _ (hkey _ hc)
    | some t =>
      rw [if_neg (by decide)]
      exact h4 _ _ _ (hmem _ hf t hc)

/-- From the values read to the configuration. -/
theorem conf_file_input (txt : Text) (secs : Dict Text (Dict Text (List Text)))
    (h : readFile txt = .ok secs) (v : CField → Text)
    (hv : ∀ f : CField, Cfg.get secs f.section f.name.toList f.fallback = .ok (v f)) :
    get_input_from_conffile (some txt) none = .ok (ConfigInput.mk fun f => some (v f)) := by
  unfold get_input_from_conffile
  simp only [h]
  have hn : CField.getOrder.findSome? (fun f => raised
      (Cfg.get secs f.section f.name.toList f.fallback)) = none := by
    rw [List.findSome?_eq_none_iff]
    intro f _
    rw [hv f]; rfl
  simp only [hn, add_overrides]
  congr 1
  funext f
  simp only [ConfigInput.mk, hv, gotValue]

theorem fallback_ne_nil (f : CField) : f.fallback ≠ [] := by
  cases f with
  | label => decide
  | s f => cases f <;> decide

theorem mk_some (v : CField → Text) (hne : ∀ f : CField, f.hasConverter = true → v f ≠ []) :
    (ConfigInput.mk fun f => some (v f)) = fun f => some (v f) := by
  funext f
  unfold ConfigInput.mk
  by_cases hf : f.hasConverter = true
  · rw [if_pos hf, replace_of_ne (hne f hf)]
  · rw [if_neg hf]

/-- The text an option is read back as: what is kept of its text, its fallback if it had
none, and `None` in place of nothing. -/
def readBack (c : ConfigInput) (f : CField) : Text :=
  let t := match c f with
    | none => f.fallback
    | some t => held t
  if f.hasConverter = true ∧ t = [] then "None".toList else t

theorem mk_readBack (c : ConfigInput) :
    (ConfigInput.mk fun f => some (match c f with | none => f.fallback | some t => held t)) =
      fun f => some (readBack c f) := by
  funext f
  unfold ConfigInput.mk readBack
  by_cases hf : f.hasConverter = true
  · rw [if_pos hf]
    simp only [hf, true_and]
    generalize (match c f with | none => f.fallback | some t => held t) = t
    by_cases ht : t = []
    · subst ht; rfl
    · rw [if_neg ht, replace_of_ne ht]
  · rw [if_neg hf]
    simp only [hf, Bool.false_eq_true, false_and, if_false]

/-- C42. What any configuration without `%` is read back as. -/
theorem conf_file_reads_back (c : ConfigInput) (hr : ∀ f, f.skipNone = false → c f ≠ none)
    (hp : ∀ f t, c f = some t → '%' ∉ t) :
    ∃ txt, c.to_conf_file = .ok txt ∧
      get_input_from_conffile (some txt) none = .ok fun f => some (readBack c f) := by
  obtain ⟨txt, secs, h1, h2, look, look', h3⟩ :=
    conf_file_read c hr (fun f t h => before_set_of (hp f t h))
  refine ⟨txt, h1, ?_⟩
  rw [← mk_readBack]
  refine conf_file_input txt secs h2 _ (fun f => ?_)
  rw [h3 f]
  cases h : c f with
  | none => rfl
  | some t => exact interpolate_of _ _ fun hm => hp f t h (mem_held (by decide) hm)

theorem readBack_of {c : ConfigInput} {f : CField} {t : Text} (h : c f = some t)
    (hc : f.hasConverter = true → t ≠ []) (ht : Safe t) : readBack c f = t := by
  unfold readBack
  simp only [h, held_of_safe ht]
  exact if_neg fun hn => hc hn.1 hn.2

/-- C42. It is the same configuration exactly if every option has a text the format can
hold (and no number is given by nothing). -/
theorem conf_file_round_trip_iff (c : ConfigInput)
    (hr : ∀ f, f.skipNone = false → c f ≠ none) (hp : ∀ f t, c f = some t → '%' ∉ t) :
    (∃ txt, c.to_conf_file = .ok txt ∧ get_input_from_conffile (some txt) none = .ok c) ↔
      ∀ f, ∃ t, c f = some t ∧ Safe t ∧ (f.hasConverter = true → t ≠ []) := by
  obtain ⟨txt, h1, h2⟩ := conf_file_reads_back c hr hp
  constructor
  · rintro ⟨txt', h1', h2'⟩ f
    rw [h1] at h1'
    injection h1' with h1'
    subst h1'
    rw [h2] at h2'
    injection h2' with h2'
    have hf : some (readBack c f) = c f := congrFun h2' f
    have hb : readBack c f = (let t := match c f with
        | none => f.fallback
        | some t => held t
      if f.hasConverter = true ∧ t = [] then "None".toList else t) := rfl
    refine ⟨readBack c f, hf.symm, ?_⟩
    rw [← hf] at hb
    dsimp only at hb
    by_cases hn : f.hasConverter = true ∧ held (readBack c f) = []
    · rw [if_pos hn] at hb
      have : held "None".toList = [] := hb ▸ hn.2
      have h' : held "None".toList = "None".toList := by decide +kernel
      rw [h'] at this
      cases this
    · rw [if_neg hn] at hb
      refine ⟨(held_eq_iff _).1 hb.symm, fun hcv he => hn ⟨hcv, ?_⟩⟩
      rw [← hb]
      exact he
  · intro h
    refine ⟨txt, h1, ?_⟩
    rw [h2]
    congr 1
    funext f
    obtain ⟨t, ht, hs, hne⟩ := h f
    rw [readBack_of ht hne hs, ht]

/-- C42. What a written file reads back as: every option as it was, options that were
`None` at their fallback. -/
theorem conf_file_round_trip_partial (c : ConfigInput) (hc : Canonical c) (hw : Writable c)
    (hp : ∀ f t, c f = some t → '%' ∉ t) :
    ∃ txt, c.to_conf_file = .ok txt ∧
      get_input_from_conffile (some txt) none = .ok fun f => some ((c f).getD f.fallback) := by
  obtain ⟨txt, h1, h2⟩ := conf_file_reads_back c hw.1 hp
  refine ⟨txt, h1, ?_⟩
  rw [h2]
  congr 1
  funext f
  cases h : c f with
  | none =>
    unfold readBack
    simp only [h, fallback_ne_nil f, and_false, if_false]
    rfl
  | some t =>
    rw [readBack_of h (fun hcv e => hc f hcv (by rw [h, e])) (hw.2 f t h)]
    rfl

/-- C42. What was read from a file without `%` can be written, and is read back the same. -/
theorem conf_file_reread (txt : Text) (hp : '%' ∉ txt) (c : ConfigInput)
    (h : get_input_from_conffile (some txt) none = .ok c) :
    ∃ txt', c.to_conf_file = .ok txt' ∧ get_input_from_conffile (some txt') none = .ok c := by
  unfold get_input_from_conffile at h
  cases hs : readFile txt with
  | error e => simp only [hs, reduceCtorEq] at h
  | ok secs =>
    simp only [hs] at h
    split at h
    · cases h
    · next hnone =>
      rw [List.findSome?_eq_none_iff] at hnone
      simp only [add_overrides] at h
      injection h with h
      have hfb : ∀ f : CField, Safe f.fallback ∧ '%' ∉ f.fallback := by
        intro f
        have : ∀ t : Text, (∀ c ∈ t, isSpace c = false ∧ c ≠ '%') → Safe t ∧ '%' ∉ t :=
          fun t ht => ⟨safe_of_line (trim_of_all fun c hc => (ht c hc).1)
            fun hc => by have := (ht _ hc).1; simp [isSpace] at this,
            fun hc => (ht _ hc).2 rfl⟩
        cases f with
        | label => exact this _ (by decide +kernel)
        | s f => cases f <;> exact this _ (by decide +kernel)
      have hgot : ∀ f : CField, ∃ v, Cfg.get secs f.section f.name.toList f.fallback = .ok v ∧
          Safe v ∧ '%' ∉ v := by
        intro f
        cases hg : Cfg.get secs f.section f.name.toList f.fallback with
        | error e =>
          have := hnone f (mem_getOrder f)
          rw [hg] at this
          cases this
        | ok v => exact ⟨v, rfl, get_good hp hs (hfb f) hg⟩
      have hnone' : Safe "None".toList ∧ '%' ∉ "None".toList := hfb (.s .after_sonic)
      have hcf : ∀ f, ∃ t, c f = some t ∧ Safe t ∧ '%' ∉ t := by
        intro f
        obtain ⟨v, hv, hv'⟩ := hgot f
        rw [← h]
        simp only [ConfigInput.mk, hv, gotValue]
        by_cases hcv : f.hasConverter = true
        · rw [if_pos hcv]
          cases v with
          | nil => exact ⟨_, rfl, hnone'⟩
          | cons x v => exact ⟨_, rfl, hv'⟩
        · rw [if_neg hcv]
          exact ⟨v, rfl, hv'⟩
      have hcan : Canonical c := by rw [← h]; exact mk_canonical _
      refine (conf_file_round_trip_iff c (fun f _ hn => ?_) (fun f t ht => ?_)).2 fun f => ?_
      · obtain ⟨t, ht, -⟩ := hcf f
        rw [hn] at ht
        cases ht
      · obtain ⟨u, hu, -, h3⟩ := hcf f
        rw [ht] at hu
        injection hu with hu
        subst hu
        exact h3
      · obtain ⟨t, ht, h2, -⟩ := hcf f
        exact ⟨t, ht, h2, fun hcv e => hcan f hcv (by rw [ht, e])⟩

/-- C42 is false of the code for a label with a line which looks like a comment or with
blanks at the ends of a line: it is read back without them. -/
theorem conf_file_label_loses (c : ConfigInput) (hr : ∀ f, f.skipNone = false → c f ≠ none)
    (hp : ∀ f t, c f = some t → '%' ∉ t) (t : Text) (hl : c .label = some t)
    (hs : held t ≠ t) :
    ∃ txt c', c.to_conf_file = .ok txt ∧ get_input_from_conffile (some txt) none = .ok c' ∧
      c' .label = some (held t) ∧ c' .label ≠ c .label := by
  obtain ⟨txt, h1, h2⟩ := conf_file_reads_back c hr hp
  have hb : readBack c .label = held t := by
    unfold readBack
    simp only [hl, CField.hasConverter, Bool.false_eq_true, false_and, if_false]
  refine ⟨txt, _, h1, h2, by rw [hb], ?_⟩
  rw [hb, hl]
  exact fun e => hs (Option.some.inj e)

/-- C42. When every option has a text, the configuration is the same. -/
theorem conf_file_round_trip (c : ConfigInput) (hc : Canonical c)
    (hp : ∀ f, ∃ t, c f = some t ∧ Safe t ∧ '%' ∉ t) :
    ∃ txt, c.to_conf_file = .ok txt ∧ get_input_from_conffile (some txt) none = .ok c := by
  have hq : ∀ f t, c f = some t → Safe t ∧ '%' ∉ t := by
    intro f t h
    obtain ⟨u, hu, h1⟩ := hp f
    rw [h] at hu
    injection hu with hu
    subst hu
    exact h1
  have hs : ∀ f, f.skipNone = false → c f ≠ none := by
    intro f _ h
    obtain ⟨t, ht, _⟩ := hp f
    rw [h] at ht
    cases ht
  obtain ⟨txt, h1, h2⟩ := conf_file_round_trip_partial c hc
    ⟨hs, fun f t h => (hq f t h).1⟩ (fun f t h => (hq f t h).2)
  refine ⟨txt, h1, ?_⟩
  rw [h2]
  congr 1
  funext f
  obtain ⟨t, ht, _⟩ := hp f
  rw [ht]; rfl

/-- C42. As an input to the solver it is the same as long as `mcmc_vars` was given. -/
theorem conf_file_same_input {F : Type} (C : Conv F) (c : ConfigInput)
    (hm : c (.s .mcmc_vars) ≠ none) (hr : ∀ f, f.skipNone = false → c f ≠ none) :
    ConfigInput.to_soln_input C (fun f => some ((c f).getD f.fallback)) =
      c.to_soln_input C := by
  have key : ∀ f : SField, readField C f.kind (some ((c (.s f)).getD (CField.s f).fallback)) =
      readField C f.kind (c (.s f)) := by
    intro f
    cases h : c (.s f) with
    | some t => rfl
    | none =>
      have hs : (CField.s f).skipNone = true := by
        by_contra hn
        exact hr (.s f) (by simpa using hn) h
      cases f <;> first | (cases hs; done) | exact absurd h hm | rfl
  unfold ConfigInput.to_soln_input
  simp only [key]

/-- C42 is false of the code when `mcmc_vars` is `None`: the file read back selects all
three variables, and is otherwise the same input. -/
theorem conf_file_mcmc_none {F : Type} (C : Conv F) (c : ConfigInput) (hc : Canonical c)
    (hw : Writable c) (hp : ∀ f t, c f = some t → '%' ∉ t) (hm : c (.s .mcmc_vars) = none)
    (s : SolutionInput F) (hs : c.to_soln_input C = .ok s) :
    s .mcmc_vars = .none ∧
    ∃ txt c', c.to_conf_file = .ok txt ∧ get_input_from_conffile (some txt) none = .ok c' ∧
      c'.to_soln_input C =
        .ok fun f => if f = .mcmc_vars then .mcmc ⟨true, true, true⟩ else s f := by
  obtain ⟨txt, h1, h2⟩ := conf_file_round_trip_partial c hc hw hp
  have hr := (to_soln_input_ok C c s).1 hs
  have a := hr .mcmc_vars
  rw [hm] at a
  refine ⟨by injection a with a; exact a.symm, txt, _, h1, h2, ?_⟩
  rw [to_soln_input_ok]
  intro f
  by_cases hf : f = .mcmc_vars
  · subst hf
    have e : mcmc_vars_str_to_obj (some (CField.s .mcmc_vars).fallback) =
        some ⟨true, true, true⟩ := by decide +kernel
    simp only [hm, Option.getD_none, SField.kind, readField, e, if_true]
  · rw [if_neg hf, ← hr f]
    cases h : c (.s f) with
    | some t => rfl
    | none =>
      have hsk : (CField.s f).skipNone = true := by
        by_contra hn
        exact hw.1 (.s f) (by simpa using hn) h
      cases f <;> first | (cases hsk; done) | exact absurd rfl hf | rfl

/-- C42 is false of the code for a label with a `%` in it: a doubled one is read back
single. -/
theorem conf_file_percent (c : ConfigInput) (hc : Canonical c) (hw : Writable c)
    (t : Text) (hl : c .label = some (escapePercent t))
    (hp : ∀ f u, f ≠ .label → c f = some u → '%' ∉ u) :
    ∃ txt c', c.to_conf_file = .ok txt ∧ get_input_from_conffile (some txt) none = .ok c' ∧
      c' .label = some t := by
  have hb : ∀ f u, c f = some u → before_set u = .ok u := by
    intro f u h
    by_cases hf : f = .label
    · subst hf
      rw [hl] at h
      injection h with h
      subst h
      exact before_set_escape t
    · exact before_set_of (hp f u hf h)
  obtain ⟨txt, secs, h1, h2, look, look', h3⟩ := conf_file_read c hw.1 hb
  refine ⟨txt, fun f => some (if f = .label then t else (c f).getD f.fallback), h1, ?_,
    by simp⟩
  have hmk := mk_some (fun f => if f = .label then t else (c f).getD f.fallback)
    (fun f hf => ?_)
  · rw [← hmk]
    refine conf_file_input txt secs h2 _ (fun f => ?_)
    rw [h3 f]
    by_cases hf : f = .label
    · subst hf
      have := held_of_safe (hw.2 _ _ hl)
      simp only [hl, if_pos, this]
      exact interpLoop_escape _ _ _ le_rfl
    · rw [if_neg hf]
      cases h : c f with
      | none => rfl
      | some u =>
        have := held_of_safe (hw.2 _ _ h)
        simp only [this]
        exact interpolate_of _ _ (hp f u hf h)
  · have hf' : f ≠ .label := by rintro rfl; cases hf
    rw [if_neg hf']
    cases h : c f with
    | none => exact fallback_ne_nil f
    | some t =>
      have := hc f hf
      rw [h] at this
      exact fun e => this (congrArg some e)

/-- C42. A single `%` at the end of the label stops the writing. -/
theorem conf_file_percent_fails (c : ConfigInput) (t : Text) (ht : '%' ∉ t)
    (hl : c .label = some (t ++ ['%'])) : ∃ e, c.to_conf_file = .error e := by
  have hd : ∀ t : Text, '%' ∉ t → dropEscaped (t ++ ['%']) = t ++ ['%'] := by
    intro t ht
    induction t with
    | nil => rfl
    | cons a t ih =>
      simp only [List.mem_cons, not_or] at ht
      rw [List.cons_append]
      unfold dropEscaped
      split
      · next heq => injection heq with h1 _; exact absurd h1.symm ht.1
      · next heq => injection heq with h1 h2; subst h1 h2; rw [ih ht.2]
      · next heq => cases heq
  have hk : ∀ (n : ℕ) (t : Text), '%' ∉ t → dropKeys n (t ++ ['%']) = t ++ ['%'] := by
    intro n
    induction n with
    | zero => intro t _; rfl
    | succ n ih =>
      intro t ht
      cases t with
      | nil => cases n <;> rfl
      | cons a t =>
        simp only [List.mem_cons, not_or] at ht
        rw [List.cons_append]
        unfold dropKeys
        split
        · exact absurd rfl ht.1
        · rw [ih t ht.2]
  have hb : before_set (t ++ ['%']) = .error .ValueError := by
    unfold before_set
    simp only [hd t ht, hk _ t ht]
    simp
  obtain ⟨e, he⟩ := setItems_bad c configKeys .label (by decide) _ _ hl hb
  exact ⟨e, by unfold ConfigInput.to_conf_file; rw [he]⟩

/-- C42, C39. Dumping the configuration of a solution and reading it back gives the input of
that solution, for ordinary inputs, a plain label and a printer whose numbers are plain. -/
theorem dump_config_round_trip {F : Type} (C : Conv F) (hC : Faithful C)
    (hstr : ∀ x, Trim (C.float_str x) ∧ '\n' ∉ C.float_str x ∧ '%' ∉ C.float_str x)
    (s : SolutionInput F) (ht : ∀ f, Typed f (s f)) (label : Text)
    (hlabel : Safe label ∧ '%' ∉ label)
    (hsplit : ∀ t, s .split_method = .str t → Safe t ∧ '%' ∉ t)
    (hm : s .mcmc_vars ≠ .mcmc ⟨false, false, false⟩) (a b : Int) (step : Option Int)
    (hs : s .interp_slice = .slice ⟨some a, some b, step⟩) :
    ∃ c txt c', s.to_config_input C label = .ok c ∧ c.to_conf_file = .ok txt ∧
      get_input_from_conffile (some txt) none = .ok c' ∧ c'.to_soln_input C = .ok s ∧
      c' .label = some label := by
  obtain ⟨c, h1, h2, h3⟩ := input_round_trip_partial C hC s ht label hm a b step hs
  have hint : ∀ n : Int, Trim (ofInt n) ∧ '\n' ∉ ofInt n ∧ '%' ∉ ofInt n := by
    intro n
    refine ⟨ofInt_trim n, ?_, ?_⟩ <;> intro h <;> rcases ofInt_chars n h with h | h <;>
      simp [Char.isDigit] at h
  have hall : ∀ t : Text, (∀ c ∈ t, isSpace c = false ∧ c ≠ '%') →
      Trim t ∧ '\n' ∉ t ∧ '%' ∉ t := by
    intro t h
    refine ⟨trim_of_all fun c hc => (h c hc).1, fun hc => ?_, fun hc => (h _ hc).2 rfl⟩
    have := (h _ hc).1
    simp [isSpace] at this
  have hnone : Trim Text.none ∧ '\n' ∉ Text.none ∧ '%' ∉ Text.none := by
    apply hall
    decide +kernel
  have hbool : ∀ b : Bool, Trim (if b then "True".toList else "False".toList) ∧
      '\n' ∉ (if b then "True".toList else "False".toList) ∧
      '%' ∉ (if b then "True".toList else "False".toList) := by
    intro b
    cases b <;> (apply hall; decide +kernel)
  have hmcmc : ∀ m : MCMCVars, Trim m.str ∧ '\n' ∉ m.str ∧ '%' ∉ m.str := by
    intro m
    obtain ⟨x, y, z⟩ := m
    cases x <;> cases y <;> cases z <;> (apply hall; decide +kernel)
  have hc := h1
  unfold SolutionInput.to_config_input at hc
  simp only [hs, slice_to_str] at hc
  injection hc with hc
  have hcan : Canonical c := by rw [← hc]; exact mk_canonical _
  have hline : ∀ {t : Text}, Trim t ∧ '\n' ∉ t ∧ '%' ∉ t → Safe t ∧ '%' ∉ t :=
    fun h => ⟨safe_of_line h.1 h.2.1, h.2.2⟩
  have hpy : ∀ f : SField, f.kind ≠ .slice → f.kind ≠ .str → Trim ((s f).pyStr C) ∧ '\n' ∉ (s f).pyStr C ∧
      '%' ∉ (s f).pyStr C := by
    intro f hk hsp
    have htf := ht f
    unfold Typed at htf
    generalize f.kind = k at htf hk hsp
    generalize s f = v at htf
    cases k <;> cases v <;> simp only [KindOf] at htf <;>
      first
      | exact absurd rfl hk
      | exact absurd rfl hsp
      | exact hstr _
      | exact hint _
      | exact hnone
      | exact hbool _
      | exact hmcmc _
  have hrep : ∀ t : Text, (Trim t ∧ '\n' ∉ t ∧ '%' ∉ t) →
      ∃ u, replace_empty_string (some t) = some u ∧ Safe u ∧ '%' ∉ u := by
    intro t h
    cases t with
    | nil => exact ⟨_, rfl, hline hnone⟩
    | cons x t => exact ⟨_, rfl, hline h⟩
  have hslice : ∀ l : List Int, (Trim (joinComma (l.map ofInt)) ∧
      '\n' ∉ joinComma (l.map ofInt) ∧ '%' ∉ joinComma (l.map ofInt)) := by
    intro l
    apply hall
    induction l with
    | nil => intro c hc; simp [joinComma] at hc
    | cons x l ih =>
      have hx : ∀ c ∈ ofInt x, isSpace c = false ∧ c ≠ '%' := by
        intro c hc
        refine ⟨?_, fun e => (hint x).2.2 (e ▸ hc)⟩
        rcases ofInt_chars x hc with rfl | h
        · rfl
        · exact isDigit_not_space h
      cases l with
      | nil =>
        intro c hc
        simp only [joinComma, List.map_cons, List.map_nil,
          List.intercalate_singleton] at hc
        exact hx c hc
      | cons y l =>
        intro c hc
        simp only [joinComma, List.map_cons, List.intercalate_cons_cons] at hc ih
        rcases List.mem_append.1 hc with hc | hc
        · rcases List.mem_append.1 hc with hc | hc
          · exact hx c hc
          · simp only [List.mem_singleton] at hc
            subst hc
            exact ⟨rfl, by decide⟩
        · exact ih c hc
  have hplain : ∀ f, ∃ t, c f = some t ∧ Safe t ∧ '%' ∉ t := by
    intro f
    rw [← hc]
    cases f with
    | label => exact ⟨label, rfl, hlabel⟩
    | s f =>
      by_cases hk : f.kind = .slice
      · have : f = .interp_slice := by cases f <;> simp [SField.kind] at hk ⊢
        subst this
        exact hrep _ (hslice _)
      · by_cases hsp : f.kind = .str
        · have : f = .split_method := by cases f <;> simp [SField.kind] at hsp ⊢
          subst this
          have htf := ht .split_method
          cases hv : s .split_method <;> rw [hv] at htf <;>
            simp only [Typed, SField.kind, KindOf] at htf
          next t =>
            exact ⟨t, by simp [ConfigInput.mk, CField.hasConverter], hsplit t hv⟩
        · have hp := hpy f hk hsp
          by_cases hcv : (CField.s f).hasConverter = true
          · obtain ⟨u, hu, hu'⟩ := hrep _ hp
            refine ⟨u, ?_, hu'⟩
            rw [← hu]
            cases f <;> first | rfl | exact absurd rfl hk | exact absurd rfl hsp | cases hcv
          · refine ⟨_, ?_, hline hp⟩
            cases f <;> first | rfl | exact absurd rfl hk | exact absurd rfl hsp |
              exact absurd rfl hcv
  obtain ⟨txt, h4, h5⟩ := conf_file_round_trip c hcan hplain
  exact ⟨c, txt, c, h1, h4, h5, h2, h3⟩

/-- Without a file every option is at its fallback. -/
theorem no_conf_file : get_input_from_conffile none none = .ok fun f => some f.fallback := by
  have hg : ∀ f : CField, Cfg.get [] f.section f.name.toList f.fallback = .ok f.fallback :=
    fun f => rfl
  unfold get_input_from_conffile
  have hn : CField.getOrder.findSome? (fun f => raised
      (Cfg.get [] f.section f.name.toList f.fallback)) = none := by
    rw [List.findSome?_eq_none_iff]
    intro f _
    rfl
  simp only [hn, add_overrides]
  congr 1
  funext f
  simp only [ConfigInput.mk, hg, gotValue, replace_of_ne (fallback_ne_nil f), ite_self]

/-! ## Witnesses -/

theorem witConfig_plain (f : CField) :
    ∃ t, witConfig f = some t ∧ Trim t ∧ '\n' ∉ t ∧ '%' ∉ t := by
  have hall : ∀ t : Text, (∀ c ∈ t, isSpace c = false ∧ c ≠ '%') →
      Trim t ∧ '\n' ∉ t ∧ '%' ∉ t := by
    intro t h
    refine ⟨trim_of_all fun c hc => (h c hc).1, fun hc => ?_, fun hc => (h _ hc).2 rfl⟩
    have := (h _ hc).1
    simp [isSpace] at this
  cases f with
  | label => exact ⟨_, rfl, hall _ (by decide +kernel)⟩
  | s f => cases f <;> exact ⟨_, rfl, hall _ (by decide +kernel)⟩

example := conf_file_round_trip witConfig (mk_canonical _) fun f =>
  have ⟨t, h, h1, h2, h3⟩ := witConfig_plain f
  ⟨t, h, safe_of_line h1 h2, h3⟩

/-- A configuration with one field changed. -/
def changed (g : CField) (v : Option Text) : ConfigInput := fun f =>
  if f = g then v else witConfig f

theorem changed_canonical (g : CField) (v : Option Text) (hv : v ≠ some []) :
    Canonical (changed g v) := by
  intro f hf
  unfold changed
  by_cases h : f = g
  · rw [if_pos h]; exact hv
  · rw [if_neg h]; exact mk_canonical _ f hf

theorem changed_writable (g : CField) (v : Option Text)
    (hv : ∀ t, v = some t → Safe t) (hs : v = none → g.skipNone = true) :
    Writable (changed g v) := by
  constructor
  · intro f hf
    unfold changed
    by_cases h : f = g
    · rw [if_pos h]
      intro hn
      rw [h, hs hn] at hf
      cases hf
    · rw [if_neg h]
      obtain ⟨t, ht, _⟩ := witConfig_plain f
      rw [ht]; simp
  · intro f t
    unfold changed
    by_cases h : f = g
    · rw [if_pos h]; exact hv t
    · rw [if_neg h]
      intro ht
      obtain ⟨u, hu, h1, h2, _⟩ := witConfig_plain f
      rw [hu] at ht
      injection ht with ht
      subst ht
      exact safe_of_line h1 h2

theorem changed_percent (g : CField) (v : Text) (hv : '%' ∉ v) :
    ∀ f t, changed g (some v) f = some t → '%' ∉ t := by
  intro f t h
  unfold changed at h
  by_cases hf : f = g
  · rw [if_pos hf] at h
    injection h with h
    subst h
    exact hv
  · rw [if_neg hf] at h
    obtain ⟨u, hu, _, _, h3⟩ := witConfig_plain f
    rw [hu] at h
    injection h with h
    subst h
    exact h3

theorem changed_some (g : CField) (v : Text) (f : CField) : changed g (some v) f ≠ none := by
  unfold changed
  by_cases hf : f = g
  · rw [if_pos hf]; simp
  · rw [if_neg hf]
    obtain ⟨t, ht, _⟩ := witConfig_plain f
    rw [ht]; simp

/-- A label on three lines is kept. -/
example := (conf_file_round_trip_iff (changed .label (some "a run\n\nby night".toList))
  (fun f _ => changed_some _ _ f) (changed_percent _ _ (by decide))).2 fun f => by
    by_cases hf : f = .label
    · subst hf
      exact ⟨_, rfl, (held_eq_iff _).1 (by decide +kernel), by simp [CField.hasConverter]⟩
    · obtain ⟨t, ht, h1, h2, -⟩ := witConfig_plain f
      refine ⟨t, by rw [← ht]; unfold changed; rw [if_neg hf], safe_of_line h1 h2, ?_⟩
      intro hcv e
      exact mk_canonical _ f hcv (ht.trans (congrArg some e))

/-- Of this one the second line is lost. -/
example : held "run\n #2\n  b ".toList = "run\nb".toList := by decide +kernel
example := conf_file_label_loses (changed .label (some "run\n #2\n  b ".toList))
  (fun f _ => changed_some _ _ f) (changed_percent _ _ (by decide)) _ rfl (by decide +kernel)

/-- A file with a value on two lines, a comment and a section of its own. -/
example := conf_file_reread
  "[config]\nlabel = one\n  two\n# no\n\nstart: 1\n[other]\nx = 1\n".toList (by decide +kernel) _ rfl

/-- `mcmc_vars` not given. -/
example := conf_file_mcmc_none witConv (changed (.s .mcmc_vars) none)
  (changed_canonical _ _ (by simp)) (changed_writable _ _ (by simp) (fun _ => rfl))
  (fun f t h => by
    unfold changed at h
    by_cases hf : f = .s .mcmc_vars
    · rw [if_pos hf] at h; cases h
    · rw [if_neg hf] at h
      obtain ⟨u, hu, _, _, h3⟩ := witConfig_plain f
      rw [hu] at h
      injection h with h
      subst h
      exact h3) rfl (fun f => if f = .mcmc_vars then .none else witSolnInput f)
  ((to_soln_input_ok _ _ _).2 fun f => by cases f <;> rfl)

/-- The label `50%%`. -/
example := conf_file_percent (changed .label (some "50%%".toList))
  (changed_canonical _ _ (by decide))
  (changed_writable _ _ (fun t h => by
    injection h with h
    subst h
    exact safe_of_line (trim_of_all (by decide +kernel)) (by decide)) (fun h => by cases h))
  "50%".toList (by decide +kernel)
  (fun f u hf h => by
    unfold changed at h
    rw [if_neg hf] at h
    obtain ⟨w, hw, _, _, h3⟩ := witConfig_plain f
    rw [hw] at h
    injection h with h
    subst h
    exact h3)

/-- The label `50%`. -/
example := conf_file_percent_fails (changed .label (some "50%".toList)) "50".toList
  (by decide) (by decide +kernel)

example := dump_config_round_trip witConv witConv_faithful
  (fun n => ⟨ofInt_trim n, by
      intro h; rcases ofInt_chars n h with h | h <;> simp [Char.isDigit] at h, by
      intro h; rcases ofInt_chars n h with h | h <;> simp [Char.isDigit] at h⟩)
  witSolnInput witSolnInput_typed "my run".toList
  ⟨safe_of_line ⟨by decide +kernel, by decide +kernel⟩ (by decide), by decide⟩
  (fun t h => by
    injection h with h
    subst h
    exact ⟨safe_of_line (trim_of_all (by decide +kernel)) (by decide +kernel),
      by decide +kernel⟩)
  (fun h => by cases h) (-1000) (-100) none rfl

theorem witConfig_some (f : CField) : witConfig f ≠ none := by
  obtain ⟨t, h, -⟩ := witConfig_plain f
  rw [h]
  exact fun h => by cases h

theorem witConfig_percent (f : CField) (t : Text) (h : witConfig f = some t) : '%' ∉ t := by
  obtain ⟨u, hu, -, -, h3⟩ := witConfig_plain f
  rw [h] at hu
  injection hu with hu
  exact hu ▸ h3

example := conf_file_reads_back witConfig (fun f _ => witConfig_some f) witConfig_percent

example := conf_file_same_input witConv witConfig (witConfig_some _) (fun f _ => witConfig_some f)

end DiscSolver
