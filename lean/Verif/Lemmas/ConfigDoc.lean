import Verif.Lemmas.Interpolation
import Verif.Lemmas.Dict

/-! Helper lemmas: reading a configuration file written by hand. -/

namespace DiscSolver.Cfg

open ConfDoc
open Text hiding none

theorem OptionName.good {k : Text} (h : OptionName k) : GoodName k := h

theorem rstrip_blanks {p : Text} (h : ∀ c ∈ p, c = ' ' ∨ c = '\t') : rstrip p = [] := by
  unfold rstrip
  rw [List.reverse_eq_nil_iff]
  have := List.dropWhile_append_of_pos (p := isSpace) (l₁ := p.reverse) (l₂ := [])
    fun c hc => by
      rcases h c (List.mem_reverse.1 hc) with rfl | rfl <;> rfl
  simpa using this

/-- An option line, stripped. -/
theorem strip_option {k pad rest : Text} {c : Char} (hk : OptionName k)
    (hc : c = '=' ∨ c = ':') :
    strip (k ++ pad ++ c :: rest) = k ++ pad ++ c :: rstrip rest := by
  have hl : lstrip (k ++ pad ++ c :: rest) = k ++ pad ++ c :: rest := by
    apply lstrip_of
    intro x hx
    cases k with
    | nil => exact absurd rfl hk.1
    | cons a k =>
      simp only [List.cons_append, List.head?_cons, Option.some.injEq] at hx
      subst hx
      exact (hk.2 a (by simp)).1
  unfold strip
  rw [hl]
  have e : k ++ pad ++ c :: rest = (k ++ pad ++ [c]) ++ rest := by simp
  have e2 : k ++ pad ++ c :: rstrip rest = (k ++ pad ++ [c]) ++ rstrip rest := by simp
  rw [e, rstrip_append, e2]
  by_cases h : rstrip rest = []
  · rw [if_pos h, h, List.append_nil]
    apply rstrip_of
    intro x hx
    rw [List.getLast?_append] at hx
    simp only [List.getLast?_singleton, Option.some_or, Option.some.injEq] at hx
    subst hx
    rcases hc with rfl | rfl <;> rfl
  · rw [if_neg h]

theorem matchOption_option {k pad rest : Text} {c : Char} (hk : OptionName k)
    (hpad : ∀ c ∈ pad, c = ' ' ∨ c = '\t') (hc : c = '=' ∨ c = ':') :
    matchOption (k ++ pad ++ c :: rstrip rest) = some (k, strip rest) := by
  have hp : ∀ x ∈ k ++ pad, (fun c : Char => c ≠ '=' && c ≠ ':') x = true := by
    intro x hx
    rcases List.mem_append.1 hx with hx | hx
    · obtain ⟨_, h1, h2, _⟩ := hk.2 x hx
      simp [h1, h2]
    · rcases hpad x hx with rfl | rfl <;> rfl
  have hcn : ¬ ((fun c : Char => c ≠ '=' && c ≠ ':') c = true) := by
    rcases hc with rfl | rfl <;> simp
  have hr : rstrip (k ++ pad) = k := by
    rw [rstrip_append, if_pos (rstrip_blanks hpad)]
    exact rstrip_of (GoodName.trim (OptionName.good hk)).2
  unfold matchOption
  rw [List.dropWhile_append_of_pos hp, List.takeWhile_append_of_pos hp,
    List.dropWhile_cons_of_neg (p := fun c : Char => c ≠ '=' && c ≠ ':') hcn,
    List.takeWhile_cons_of_neg (p := fun c : Char => c ≠ '=' && c ≠ ':') hcn]
  simp only [List.append_nil, hr, strip_rstrip]

/-- Reading an option line. -/
theorem readLine_option (st : RState) {sec k pad rest : Text} {c : Char} (hk : OptionName k)
    (hpad : ∀ c ∈ pad, c = ' ' ∨ c = '\t') (hc : c = '=' ∨ c = ':')
    (hcur : st.cur = some sec) (hadd : (sec, some k) ∉ st.added) :
    readLine st (k ++ pad ++ c :: rest) = .ok { st with
      sections := st.sections.set sec (((st.sections.get? sec).getD []).set k [strip rest])
      opt := some k, indent := 0, added := (sec, some k) :: st.added } := by
  have h1 := strip_option (pad := pad) (rest := rest) hk hc
  have hm := matchOption_option (rest := rest) hk hpad hc
  obtain ⟨a, t, hk'⟩ : ∃ a t, k = a :: t := by
    cases k with
    | nil => exact absurd rfl hk.1
    | cons a t => exact ⟨a, t, rfl⟩
  obtain ⟨h0, -, -, h3, h4, h5⟩ := hk.2 a (by rw [hk']; simp)
  have hne : k ≠ [] := hk.1
  have hv : k ++ pad ++ c :: rstrip rest = a :: (t ++ pad ++ c :: rstrip rest) := by
    rw [hk']; rfl
  have hh : readLine.header st 0 (k ++ pad ++ c :: rstrip rest) = .ok { st with
      sections := st.sections.set sec (((st.sections.get? sec).getD []).set k [strip rest])
      opt := some k, indent := 0, added := (sec, some k) :: st.added } := by
    have hs : matchSection (k ++ pad ++ c :: rstrip rest) = none := by
      rw [hv]
      unfold matchSection
      split
      · next heq => injection heq with e _; exact absurd e h5
      · rfl
    unfold readLine.header
    simp only [hs, hcur, hm, if_neg hadd, hne, decide_false, Bool.or_false]
  have hcom : ¬ ((strip (k ++ pad ++ c :: rest)).head? = some '#' ∨
      (strip (k ++ pad ++ c :: rest)).head? = some ';') := by
    rw [h1, hv]
    simp [h3, h4]
  have hvn : k ++ pad ++ c :: rstrip rest ≠ [] := by rw [hv]; simp
  have hind : ((k ++ pad ++ c :: rest).takeWhile isSpace).length = 0 := by
    rw [hk']
    simp only [List.cons_append]
    rw [List.takeWhile_cons_of_neg (by simp [h0])]
    rfl
  unfold readLine
  simp only [if_neg hcom, hcur, hind]
  rw [h1, if_neg hvn]
  simp only [Nat.not_lt_zero, and_false, if_false]
  simp only [hcur] at hh
  cases st.opt with
  | none => exact hh
  | some o => exact hh

theorem matchSection_of {n : Text} (hn : n ≠ []) :
    matchSection ('[' :: n ++ [']']) = some n := by
  unfold matchSection
  simp only [List.cons_append, List.reverse_append, List.reverse_cons, List.reverse_nil,
    List.nil_append, List.dropWhile_cons]
  simp [hn]

theorem strip_header (n : Text) : strip ('[' :: n ++ [']']) = '[' :: n ++ [']'] := by
  unfold strip
  rw [lstrip_of (by intro c hc; simp at hc; subst hc; rfl)]
  apply rstrip_of
  intro c hc
  rw [List.getLast?_append] at hc
  simp only [List.getLast?_singleton, Option.some_or, Option.some.injEq] at hc
  subst hc; rfl

/-- Reading a header. -/
theorem readLine_header (st : RState) (n : Text) :
    readLine st ('[' :: n ++ [']']) = readLine.header st 0 ('[' :: n ++ [']']) := by
  have hcom : ¬ ((strip ('[' :: n ++ [']'])).head? = some '#' ∨
      (strip ('[' :: n ++ [']'])).head? = some ';') := by
    rw [strip_header]; simp
  have hind : (('[' :: n ++ [']']).takeWhile isSpace).length = 0 := by
    simp only [List.cons_append]
    rw [List.takeWhile_cons_of_neg (by simp [isSpace])]
    rfl
  unfold readLine
  simp only [if_neg hcom, hind]
  rw [strip_header, if_neg (by simp)]
  simp only [Nat.not_lt_zero, and_false, if_false]
  split <;> rfl

/-- What has been read after some lines. -/
structure HasRead (st : RState) (names : List Text) (opts : List ((Text × Text) × Text)) :
    Prop where
  sec : ∀ s, (st.sections.get? s).isSome = true ↔ s ∈ names
  val : ∀ s d k r, st.sections.get? s = some d → ((s, k), r) ∈ opts →
    ∃ l, d.get? k = some l ∧ l ≠ [] ∧ joinValue l = strip r
  non : ∀ s d k, st.sections.get? s = some d → (∀ r, ((s, k), r) ∉ opts) → d.get? k = none
  addS : ∀ s, (s, none) ∈ st.added ↔ s ∈ names ∧ s ≠ everywhere
  addO : ∀ s k, (s, some k) ∈ st.added ↔ ∃ r, ((s, k), r) ∈ opts
  bad : st.bad = false

theorem hasRead_start : HasRead start [] [] :=
  ⟨fun s => by simp [start], fun s d k r h => by simp [start] at h,
    fun s d k h => by simp [start] at h, fun s => by simp [start],
    fun s k => by simp [start], rfl⟩

theorem readLine_filler {st : RState} {names : List Text}
    {opts : List ((Text × Text) × Text)} (h : HasRead st names opts) {l : Text}
    (hl : Filler l) :
    ∃ st', readLine st l = .ok st' ∧ st'.cur = st.cur ∧ HasRead st' names opts := by
  rcases hl.2 with hb | hc
  · have e : readLine st l = readLine st [] := by
      unfold readLine
      have h0 : strip ([] : Text) = [] := rfl
      simp only [hb, h0, List.head?_nil, reduceCtorEq, or_self, if_false, if_true]
    rw [e]
    obtain ⟨st', h1, h2, h3, h4, h5, h6, h7, h8⟩ := readLine_blank st
    refine ⟨st', h1, h2, ?_, ?_, ?_, ?_, ?_, ?_⟩
    · intro s
      rw [← h.sec s]
      cases hs : st.sections.get? s with
      | none => rw [h7 s hs]
      | some d =>
        obtain ⟨d', hd', -⟩ := h6 s d hs
        rw [hd']
        simp
    · intro s d' k r hd' hr
      cases hs : st.sections.get? s with
      | none => rw [h7 s hs] at hd'; cases hd'
      | some d =>
        obtain ⟨d'', hd'', hk⟩ := h6 s d hs
        rw [hd''] at hd'
        injection hd' with hd'
        subst hd'
        obtain ⟨l0, hl0, hne, hj⟩ := h.val s d k r hs hr
        obtain ⟨l', hl', rfl | rfl⟩ := hk k l0 hl0
        · exact ⟨l', hl', hne, hj⟩
        · exact ⟨_, hl', by simp, by rw [joinValue_blank l0 hne, hj]⟩
    · intro s d' k hd' hr
      cases hs : st.sections.get? s with
      | none => rw [h7 s hs] at hd'; cases hd'
      | some d =>
        obtain ⟨d'', hd'', hk⟩ := h8 s d hs
        rw [hd''] at hd'
        injection hd' with hd'
        subst hd'
        exact hk k (h.non s d k hs hr)
    · rw [h5]; exact h.addS
    · rw [h5]; exact h.addO
    · rw [h3]; exact h.bad
  · have e : readLine st l = .ok st := by
      unfold readLine
      simp only [if_pos hc, if_true]
    exact ⟨st, e, rfl, h⟩

theorem readLines_filler (ls : List Text) {st : RState} {names : List Text}
    {opts : List ((Text × Text) × Text)} (h : HasRead st names opts)
    (hl : ∀ l ∈ ls, Filler l) :
    ∃ st', ls.foldlM readLine st = .ok st' ∧ st'.cur = st.cur ∧ HasRead st' names opts := by
  induction ls generalizing st with
  | nil => exact ⟨st, rfl, rfl, h⟩
  | cons l ls ih =>
    obtain ⟨st1, h1, hc, h2⟩ := readLine_filler h (hl l (by simp))
    obtain ⟨st2, h3, hc2, h4⟩ := ih h2 fun x hx => hl x (by simp [hx])
    exact ⟨st2, (foldlM_cons_ok h1 _).trans h3, hc2.trans hc, h4⟩

/-- The options of some lines of a section. -/
def bodyOptions (sec : Text) (es : List Entry) : List ((Text × Text) × Text) :=
  Part.options ⟨sec, es⟩

theorem readLine_good_option {st : RState} {names : List Text}
    {opts : List ((Text × Text) × Text)} (h : HasRead st names opts) {sec k pad rest : Text}
    {c : Char} (hk : OptionName k) (hpad : ∀ c ∈ pad, c = ' ' ∨ c = '\t')
    (hc : c = '=' ∨ c = ':') (hcur : st.cur = some sec) (hsec : sec ∈ names)
    (hnew : ∀ r, ((sec, k), r) ∉ opts) :
    ∃ st', readLine st (k ++ pad ++ c :: rest) = .ok st' ∧ st'.cur = some sec ∧
      HasRead st' names (opts ++ [((sec, k), rest)]) := by
  have hadd : (sec, some k) ∉ st.added := fun hm => by
    obtain ⟨r, hr⟩ := (h.addO sec k).1 hm
    exact hnew r hr
  refine ⟨_, readLine_option st hk hpad hc hcur hadd, hcur, ?_⟩
  obtain ⟨d0, hd0⟩ := Option.isSome_iff_exists.1 ((h.sec sec).2 hsec)
  refine ⟨?_, ?_, ?_, ?_, ?_, h.bad⟩
  · intro s
    simp only [Dict.get?_set]
    by_cases hs : sec = s
    · subst hs; simp [hsec]
    · rw [if_neg hs]; exact h.sec s
  · intro s d k' r hd hr
    simp only [Dict.get?_set, hd0, Option.getD_some] at hd
    by_cases hs : sec = s
    · subst hs
      rw [if_pos rfl] at hd
      injection hd with hd
      subst hd
      rw [Dict.get?_set]
      by_cases hkk : k = k'
      · subst hkk
        have hr' : r = rest := by
          rcases List.mem_append.1 hr with hr | hr
          · exact absurd hr (hnew r)
          · simpa using hr
        subst hr'
        refine ⟨_, if_pos rfl, by simp, ?_⟩
        have : joinValue [strip r] = rstrip (strip r) := by
          unfold joinValue
          simp [List.intercalate]
        rw [this]
        exact rstrip_of (strip_trim r).2
      · rw [if_neg hkk]
        have hr' : ((sec, k'), r) ∈ opts := by
          rcases List.mem_append.1 hr with hr | hr
          · exact hr
          · simp only [List.mem_singleton, Prod.mk.injEq] at hr
            exact absurd hr.1.2.symm hkk
        exact h.val sec d0 k' r hd0 hr'
    · rw [if_neg hs] at hd
      have hr' : ((s, k'), r) ∈ opts := by
        rcases List.mem_append.1 hr with hr | hr
        · exact hr
        · simp only [List.mem_singleton, Prod.mk.injEq] at hr
          exact absurd hr.1.1.symm hs
      exact h.val s d k' r hd hr'
  · intro s d k' hd hr
    have hr' : ∀ r, ((s, k'), r) ∉ opts := fun r hm => hr r (List.mem_append_left _ hm)
    simp only [Dict.get?_set, hd0, Option.getD_some] at hd
    by_cases hs : sec = s
    · subst hs
      rw [if_pos rfl] at hd
      injection hd with hd
      subst hd
      have hkk : k ≠ k' := by
        rintro rfl
        exact hr rest (List.mem_append_right _ (by simp))
      rw [Dict.get?_set_ne _ _ hkk]
      exact h.non sec d0 k' hd0 hr'
    · rw [if_neg hs] at hd
      exact h.non s d k' hd hr'
  · intro s
    simp only [List.mem_cons, Prod.mk.injEq, reduceCtorEq, and_false, false_or]
    exact h.addS s
  · intro s k'
    simp only [List.mem_cons, Prod.mk.injEq, Option.some.injEq, List.mem_append,
      List.not_mem_nil, or_false, h.addO s k']
    constructor
    · rintro (⟨rfl, rfl⟩ | ⟨r, hr⟩)
      · exact ⟨rest, Or.inr ⟨⟨rfl, rfl⟩, rfl⟩⟩
      · exact ⟨r, Or.inl hr⟩
    · rintro ⟨r, hr | ⟨⟨rfl, rfl⟩, rfl⟩⟩
      · exact Or.inr ⟨r, hr⟩
      · exact Or.inl ⟨rfl, rfl⟩

theorem readLines_body (es : List Entry) {st : RState} {names : List Text}
    {opts : List ((Text × Text) × Text)} (h : HasRead st names opts) {sec : Text}
    (hcur : st.cur = some sec) (hsec : sec ∈ names) (he : ∀ e ∈ es, e.Good)
    (hnew : ((opts ++ bodyOptions sec es).map Prod.fst).Nodup) :
    ∃ st', (es.map Entry.line).foldlM readLine st = .ok st' ∧ st'.cur = some sec ∧
      HasRead st' names (opts ++ bodyOptions sec es) := by
  induction es generalizing st opts with
  | nil => exact ⟨st, rfl, hcur, by simpa [bodyOptions, Part.options] using h⟩
  | cons e es ih =>
    have hg := he e (by simp)
    cases e with
    | filler l =>
      obtain ⟨st1, h1, hc1, h2⟩ := readLine_filler h hg
      have eb : bodyOptions sec (.filler l :: es) = bodyOptions sec es := rfl
      rw [eb] at hnew ⊢
      obtain ⟨st2, h3, hc2, h4⟩ := ih h2 (hc1.trans hcur) (fun x hx => he x (by simp [hx])) hnew
      exact ⟨st2, (foldlM_cons_ok h1 _).trans h3, hc2, h4⟩
    | option k pad c rest =>
      obtain ⟨hk, hpad, hc, hr⟩ := hg
      have eb : bodyOptions sec (.option k pad c rest :: es) =
        ((sec, k), rest) :: bodyOptions sec es := rfl
      rw [eb, List.append_cons] at hnew ⊢
      have hn : ∀ r, ((sec, k), r) ∉ opts := by
        intro r hm
        rw [List.map_append] at hnew
        have hnd := (List.nodup_append.1 hnew).1
        rw [List.map_append] at hnd
        exact (List.nodup_append.1 hnd).2.2 (sec, k) (List.mem_map.2 ⟨_, hm, rfl⟩) (sec, k)
          (by simp) rfl
      obtain ⟨st1, h1, hc1, h2⟩ := readLine_good_option (rest := rest) h hk hpad hc hcur hsec hn
      obtain ⟨st2, h3, hc2, h4⟩ := ih h2 hc1 (fun x hx => he x (by simp [hx])) hnew
      exact ⟨st2, (foldlM_cons_ok h1 _).trans h3, hc2, h4⟩

theorem readLine_good_header {st : RState} {names : List Text}
    {opts : List ((Text × Text) × Text)} (h : HasRead st names opts) {n : Text}
    (hn : n ≠ []) (hnew : n ≠ everywhere → n ∉ names)
    (ho : ∀ s k r, ((s, k), r) ∈ opts → s ∈ names) :
    ∃ st', readLine st ('[' :: n ++ [']']) = .ok st' ∧ st'.cur = some n ∧
      HasRead st' (names ++ [n]) opts := by
  rw [readLine_header st n]
  unfold readLine.header
  rw [matchSection_of hn]
  simp only
  have hde : defaultSection = everywhere := rfl
  by_cases hd : n = defaultSection
  · rw [if_pos hd]
    by_cases hs : (st.sections.get? n).isSome = true
    · refine ⟨_, rfl, rfl, ?_, ?_, ?_, ?_, h.addO, h.bad⟩
      · intro s
        simp only [if_pos hs]
        rw [h.sec s]
        simp only [List.mem_append, List.mem_singleton]
        exact ⟨Or.inl, fun hh => hh.elim id fun e => e ▸ (h.sec n).1 hs⟩
      · simp only [if_pos hs]; exact h.val
      · simp only [if_pos hs]; exact h.non
      · intro s
        rw [h.addS s]
        simp only [List.mem_append, List.mem_singleton]
        exact ⟨fun hh => ⟨Or.inl hh.1, hh.2⟩, fun hh => ⟨hh.1.elim id fun e =>
          absurd (e.trans hd) (hde ▸ hh.2), hh.2⟩⟩
    · have hn0 : n ∉ names := fun hm => hs ((h.sec n).2 hm)
      refine ⟨_, rfl, rfl, ?_, ?_, ?_, ?_, h.addO, h.bad⟩
      · intro s
        simp only [if_neg hs, Dict.get?_set, List.mem_append, List.mem_singleton]
        by_cases e : n = s
        · subst e; simp
        · rw [if_neg e, h.sec s]
          exact ⟨Or.inl, fun hh => hh.elim id fun e' => absurd e'.symm e⟩
      · intro s d k r hd' hr
        simp only [if_neg hs, Dict.get?_set] at hd'
        by_cases e : n = s
        · subst e; exact absurd (ho _ _ _ hr) hn0
        · rw [if_neg e] at hd'; exact h.val s d k r hd' hr
      · intro s d k hd' hr
        simp only [if_neg hs, Dict.get?_set] at hd'
        by_cases e : n = s
        · rw [if_pos e] at hd'
          injection hd' with hd'
          subst hd'; rfl
        · rw [if_neg e] at hd'; exact h.non s d k hd' hr
      · intro s
        rw [h.addS s]
        simp only [List.mem_append, List.mem_singleton]
        exact ⟨fun hh => ⟨Or.inl hh.1, hh.2⟩, fun hh => ⟨hh.1.elim id fun e =>
          absurd (e.trans hd) (hde ▸ hh.2), hh.2⟩⟩
  · rw [if_neg hd]
    have hn0 : n ∉ names := hnew (hde ▸ hd)
    have hs : ¬ (st.sections.get? n).isSome = true := fun hh => hn0 ((h.sec n).1 hh)
    rw [if_neg hs]
    refine ⟨_, rfl, rfl, ?_, ?_, ?_, ?_, ?_, h.bad⟩
    · intro s
      simp only [Dict.get?_set, List.mem_append, List.mem_singleton]
      by_cases e : n = s
      · subst e; simp
      · rw [if_neg e, h.sec s]
        exact ⟨Or.inl, fun hh => hh.elim id fun e' => absurd e'.symm e⟩
    · intro s d k r hd' hr
      simp only [Dict.get?_set] at hd'
      by_cases e : n = s
      · subst e; exact absurd (ho _ _ _ hr) hn0
      · rw [if_neg e] at hd'; exact h.val s d k r hd' hr
    · intro s d k hd' hr
      simp only [Dict.get?_set] at hd'
      by_cases e : n = s
      · rw [if_pos e] at hd'
        injection hd' with hd'
        subst hd'; rfl
      · rw [if_neg e] at hd'; exact h.non s d k hd' hr
    · intro s
      simp only [List.mem_cons, Prod.mk.injEq, and_true, h.addS s, List.mem_append,
        List.not_mem_nil, or_false]
      constructor
      · rintro (rfl | hh)
        · exact ⟨Or.inr rfl, hde ▸ hd⟩
        · exact ⟨Or.inl hh.1, hh.2⟩
      · rintro ⟨hh | rfl, h2⟩
        · exact Or.inr ⟨hh, h2⟩
        · exact Or.inl rfl
    · intro s k
      simp only [List.mem_cons, Prod.mk.injEq, reduceCtorEq, and_false, false_or]
      exact h.addO s k

theorem bodyOptions_sec {sec : Text} {es : List Entry} {s k r : Text}
    (h : ((s, k), r) ∈ bodyOptions sec es) : s = sec := by
  unfold bodyOptions Part.options at h
  rw [List.mem_filterMap] at h
  obtain ⟨e, -, he⟩ := h
  cases e with
  | filler l => cases he
  | option a b c d => injection he with he; injection he with h1 _; injection h1 with h1 _; exact h1.symm

theorem readLines_parts (ps : List Part) {st : RState} {names : List Text}
    {opts : List ((Text × Text) × Text)} (h : HasRead st names opts)
    (hname : ∀ p ∈ ps, p.name ≠ []) (hbody : ∀ p ∈ ps, ∀ e ∈ p.body, e.Good)
    (honce : ((names ++ ps.map Part.name).filter (· ≠ everywhere)).Nodup)
    (hnew : ((opts ++ ps.flatMap Part.options).map Prod.fst).Nodup)
    (ho : ∀ s k r, ((s, k), r) ∈ opts → s ∈ names) :
    ∃ st', (ps.flatMap Part.lines).foldlM readLine st = .ok st' ∧
      st'.cur = (ps.map Part.name).getLast?.or st.cur ∧
      HasRead st' (names ++ ps.map Part.name) (opts ++ ps.flatMap Part.options) := by
  induction ps generalizing st names opts with
  | nil => exact ⟨st, rfl, rfl, by simpa using h⟩
  | cons p ps ih =>
    have hn : p.name ≠ everywhere → p.name ∉ names := by
      intro hne hm
      rw [List.filter_append] at honce
      refine (List.nodup_append.1 honce).2.2 p.name ?_ p.name ?_ rfl
      · rw [List.mem_filter]; exact ⟨hm, by simpa using hne⟩
      · rw [List.mem_filter]; exact ⟨by simp, by simpa using hne⟩
    obtain ⟨st1, h1, hc1, h2⟩ := readLine_good_header h (hname p (by simp)) hn ho
    have eo : opts ++ (p :: ps).flatMap Part.options =
        (opts ++ bodyOptions p.name p.body) ++ ps.flatMap Part.options := by
      rw [List.flatMap_cons, List.append_assoc]; rfl
    rw [eo] at hnew ⊢
    have hnb : ((opts ++ bodyOptions p.name p.body).map Prod.fst).Nodup := by
      rw [List.map_append] at hnew
      exact (List.nodup_append.1 hnew).1
    obtain ⟨st2, h3, hc2, h4⟩ := readLines_body p.body h2 hc1 (by simp) (hbody p (by simp)) hnb
    have en : names ++ (p :: ps).map Part.name = (names ++ [p.name]) ++ ps.map Part.name := by
      simp
    rw [en] at honce ⊢
    obtain ⟨st3, h5, hc3, h6⟩ := ih h4 (fun q hq => hname q (by simp [hq]))
      (fun q hq => hbody q (by simp [hq])) honce hnew (by
        intro s k r hm
        rcases List.mem_append.1 hm with hm | hm
        · exact List.mem_append_left _ (ho s k r hm)
        · rw [bodyOptions_sec hm]; simp)
    refine ⟨st3, ?_, ?_, h6⟩
    · rw [List.flatMap_cons]
      exact (foldlM_append_ok ((foldlM_cons_ok h1 _).trans h3) _).trans h5
    · rw [hc3, hc2, List.map_cons]
      cases hps : ps.map Part.name with
      | nil => rfl
      | cons a t =>
        rw [List.getLast?_cons_cons]
        simp [List.getLast?_cons]

/-- The lines of a good file hold no line end. -/
theorem doc_lines (d : Doc) (h : d.Good) :
    ∀ l ∈ d.pre ++ d.parts.flatMap Part.lines, '\n' ∉ l := by
  intro l hl
  rcases List.mem_append.1 hl with hl | hl
  · exact (h.pre l hl).1
  · obtain ⟨p, hp, hl⟩ := List.mem_flatMap.1 hl
    unfold Part.lines at hl
    rcases List.mem_cons.1 hl with rfl | hl
    · have := (h.name p hp).2
      simp [this]
    · obtain ⟨e, he, rfl⟩ := List.mem_map.1 hl
      have hg := h.body p hp e he
      cases e with
      | filler l => exact hg.1
      | option k pad c rest =>
        obtain ⟨hk, hpad, hc, hr⟩ := hg
        simp only [Entry.line, List.mem_append, List.mem_cons, not_or]
        refine ⟨⟨fun hm => ?_, fun hm => ?_⟩, ?_, hr⟩
        · have := (hk.2 _ hm).1
          revert this; decide
        · have := hpad _ hm
          revert this; decide
        · rcases hc with rfl | rfl <;> decide

/-- The state after the lines of a good file. -/
theorem readLines_doc (d : Doc) (h : d.Good) :
    ∃ st, (d.pre ++ d.parts.flatMap Part.lines).foldlM readLine start = .ok st ∧
      st.cur = d.names.getLast? ∧ HasRead st d.names d.options := by
  obtain ⟨st1, h1, hc1, h2⟩ := readLines_filler d.pre hasRead_start h.pre
  obtain ⟨st2, h3, hc2, h4⟩ := readLines_parts d.parts h2 (fun p hp => (h.name p hp).1) h.body
    (by simpa [Doc.names] using h.once) (by simpa [Doc.options] using h.unique)
    (fun s k r hm => by cases hm)
  refine ⟨st2, (foldlM_append_ok h1 _).trans h3, ?_, by simpa [Doc.names, Doc.options] using h4⟩
  rw [hc2, hc1]
  simp [start, Doc.names]

/-- Reading a good file. -/
theorem readFile_doc (d : Doc) (h : d.Good) :
    ∃ secs, readFile d.text = .ok secs ∧
      (∀ s, (secs.get? s).isSome = true ↔ s ∈ d.names) ∧
      (∀ s e k r, secs.get? s = some e → ((s, k), r) ∈ d.options →
        ∃ l, e.get? k = some l ∧ joinValue l = strip r) ∧
      (∀ s e k, secs.get? s = some e → (∀ r, ((s, k), r) ∉ d.options) → e.get? k = none) := by
  obtain ⟨st2, h3, -, h4⟩ := readLines_doc d h
  have hf : (fileLines d.text).foldlM readLine start = .ok st2 := by
    unfold Doc.text
    rw [fileLines_flatten _ (doc_lines d h)]
    exact h3
  refine ⟨st2.sections, ?_, h4.sec, ?_, h4.non⟩
  · unfold readFile
    rw [hf]
    simp only [h4.bad, Bool.false_eq_true, if_false]
  · intro s e k r he hr
    obtain ⟨l, hl, -, hj⟩ := h4.val s e k r he hr
    exact ⟨l, hl, hj⟩

/-! ### Files that are refused -/

/-- The lines of a text that starts with lines. -/
theorem fileLines_append (l : List Text) (h : ∀ s ∈ l, '\n' ∉ s) (t : Text) :
    fileLines ((l.map (· ++ ['\n'])).flatten ++ t) = l ++ fileLines t := by
  have key : ((l.map (· ++ ['\n'])).flatten ++ t).splitOn '\n' = l ++ t.splitOn '\n' := by
    induction l with
    | nil => rfl
    | cons a l ih =>
      have ha : ∀ c ∈ a, (c == '\n') = false := fun c hc => by
        have : c ≠ '\n' := fun e => h a (by simp) (e ▸ hc)
        simpa using this
      have ih := ih fun s hs => h s (List.mem_cons_of_mem _ hs)
      simp only [List.map_cons, List.flatten_cons, List.append_assoc, List.cons_append,
        List.nil_append]
      unfold List.splitOn at ih ⊢
      rw [List.splitOnP_append_cons_of_forall_mem (p := (· == '\n')) ha '\n' (by simp), ih]
  have hne : t.splitOn '\n' ≠ [] := List.splitOnP_ne_nil _ _
  unfold fileLines
  simp only [key]
  have hg : (l ++ t.splitOn '\n').getLast? = (t.splitOn '\n').getLast? := by
    obtain ⟨x, hx⟩ : ∃ x, (t.splitOn '\n').getLast? = some x :=
      ⟨_, List.getLast?_eq_some_getLast hne⟩
    rw [List.getLast?_append, hx, Option.some_or]
  by_cases h0 : (t.splitOn '\n').getLast? = some []
  · rw [if_pos h0, if_pos (hg.trans h0), List.dropLast_append_of_ne_nil hne]
  · rw [if_neg h0, if_neg (fun e => h0 (hg.symm.trans e))]

/-- Once a line was not understood the file stays refused. -/
theorem readLine_bad {st st' : RState} {l : Text} (h : readLine st l = .ok st')
    (hb : st.bad = true) : st'.bad = true := by
  have hh : ∀ ind v, readLine.header st ind v = .ok st' → st'.bad = true := by
    intro ind v h
    unfold readLine.header at h
    repeat' split at h
    all_goals first
      | (injection h with h; subst h; first | exact hb | rfl | simp [hb])
      | cases h
  unfold readLine at h
  dsimp only at h
  repeat' split at h
  all_goals first
    | exact hh _ _ h
    | (injection h with h; subst h; exact hb)

theorem readLine_error {st : RState} {l : Text} {e : PyErr} (h : readLine st l = .error e) :
    e = .ConfigParserError := by
  have hh : ∀ ind v, readLine.header st ind v = .error e → e = .ConfigParserError := by
    intro ind v h
    unfold readLine.header at h
    repeat' split at h
    all_goals first
      | (injection h with h; exact h.symm)
      | cases h
  unfold readLine at h
  dsimp only at h
  repeat' split at h
  all_goals first
    | exact hh _ _ h
    | cases h

theorem readLines_bad (ls : List Text) {st : RState} (hb : st.bad = true) :
    (∃ st', ls.foldlM readLine st = .ok st' ∧ st'.bad = true) ∨
      ls.foldlM readLine st = .error .ConfigParserError := by
  induction ls generalizing st with
  | nil => exact Or.inl ⟨st, rfl, hb⟩
  | cons l ls ih =>
    cases h : readLine st l with
    | error e =>
      refine Or.inr ?_
      rw [List.foldlM_cons, h, readLine_error h]
      rfl
    | ok st1 =>
      rw [foldlM_cons_ok h]
      exact ih (readLine_bad h hb)

/-- A file with a line which is refused after a good beginning is refused. -/
theorem readFile_refused (d : Doc) (h : d.Good) (l : Text) (hl : '\n' ∉ l)
    (hbad : ∀ st, st.cur = d.names.getLast? → HasRead st d.names d.options →
      readLine st l = .error .ConfigParserError ∨
        ∃ st', readLine st l = .ok st' ∧ st'.bad = true) (rest : Text) :
    readFile (d.text ++ l ++ '\n' :: rest) = .error .ConfigParserError := by
  obtain ⟨st, h1, hc, h2⟩ := readLines_doc d h
  have hf : fileLines (d.text ++ l ++ '\n' :: rest) =
      (d.pre ++ d.parts.flatMap Part.lines) ++ l :: fileLines rest := by
    have := fileLines_append ((d.pre ++ d.parts.flatMap Part.lines) ++ [l]) (fun x hx => by
      rcases List.mem_append.1 hx with hx | hx
      · exact doc_lines d h x hx
      · simp only [List.mem_singleton] at hx; subst hx; exact hl) rest
    rw [List.append_assoc _ [l], List.singleton_append] at this
    rw [← this]
    simp [Doc.text]
  unfold readFile
  rw [hf, foldlM_append_ok h1]
  rcases hbad st hc h2 with he | ⟨st', he, hb⟩
  · rw [List.foldlM_cons, he]; rfl
  · rw [foldlM_cons_ok he]
    rcases readLines_bad (fileLines rest) hb with ⟨st'', h3, h4⟩ | h3
    · rw [h3]; simp only [h4, if_true]
    · rw [h3]

end DiscSolver.Cfg
