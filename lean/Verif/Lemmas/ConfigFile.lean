import Verif.Model.ConfigFile
import Verif.Spec.ConfigFile
import Verif.Lemmas.Text
import Verif.Lemmas.Dict

/-!
# Facts about reading and writing configuration files
-/

namespace DiscSolver.Cfg

open Text hiding none

/-- An option name as the code uses them: not empty, and of characters that have no
meaning to the parser. -/
def GoodName (k : Text) : Prop :=
  k ≠ [] ∧ ∀ c ∈ k, isSpace c = false ∧ c ≠ '=' ∧ c ≠ ':' ∧ c ≠ '#' ∧ c ≠ ';' ∧ c ≠ '['

/-- A value on one line, without blanks at its ends and without `%`. -/
def Plain (v : Text) : Prop := Trim v ∧ '\n' ∉ v ∧ '%' ∉ v

theorem indentNewlines_of {v : Text} (h : '\n' ∉ v) : indentNewlines v = v := by
  induction v with
  | nil => rfl
  | cons c v ih =>
    simp only [List.mem_cons, not_or] at h
    rw [indentNewlines, if_neg (Ne.symm h.1), ih h.2]

theorem dropEscaped_of {v : Text} (h : '%' ∉ v) : dropEscaped v = v := by
  induction v with
  | nil => rfl
  | cons c v ih =>
    simp only [List.mem_cons, not_or] at h
    have hc : c ≠ '%' := Ne.symm h.1
    unfold dropEscaped
    split
    · next heq => injection heq with h1 _; exact absurd h1 hc
    · next heq => injection heq with h1 h2; subst h1 h2; rw [ih h.2]
    · next heq => cases heq

theorem dropKeys_of {v : Text} (n : ℕ) (h : '%' ∉ v) : dropKeys n v = v := by
  induction n generalizing v with
  | zero => rfl
  | succ n ih =>
    cases v with
    | nil => rfl
    | cons c v =>
      simp only [List.mem_cons, not_or] at h
      have hc : c ≠ '%' := Ne.symm h.1
      unfold dropKeys
      split
      · exact absurd rfl hc
      · rw [ih h.2]

theorem before_set_of {v : Text} (h : '%' ∉ v) : before_set v = .ok v := by
  unfold before_set
  simp only [dropEscaped_of h, dropKeys_of _ h, h, if_false]

theorem interpLoop_of (e : Text → Except PyErr Text) {v : Text} (n : ℕ) (hn : v.length ≤ n)
    (h : '%' ∉ v) : interpLoop e n v = .ok v := by
  induction n generalizing v with
  | zero =>
    have : v = [] := List.length_eq_zero_iff.1 (Nat.le_zero.1 hn)
    subst this; rfl
  | succ n ih =>
    cases v with
    | nil => rfl
    | cons c v =>
      simp only [List.mem_cons, not_or] at h
      have hc : c ≠ '%' := Ne.symm h.1
      unfold interpLoop
      rw [if_neg hc, ih (by simpa using hn) h.2]

theorem interpolate_of (look : Text → Option Text) {v : Text} (d : ℕ) (h : '%' ∉ v) :
    interpolate look (d + 1) v = .ok v := interpLoop_of _ _ le_rfl h

/-- The lines of a text made of lines. -/
theorem fileLines_flatten (l : List Text) (h : ∀ s ∈ l, '\n' ∉ s) :
    fileLines ((l.map (· ++ ['\n'])).flatten) = l := by
  have key : ((l.map (· ++ ['\n'])).flatten).splitOn '\n' = l ++ [[]] := by
    induction l with
    | nil => rfl
    | cons a l ih =>
      have ha : ∀ c ∈ a, (c == '\n') = false := fun c hc => by
        have : c ≠ '\n' := fun e => h a (by simp) (e ▸ hc)
        simpa using this
      have ih := ih fun s hs => h s (List.mem_cons_of_mem _ hs)
      simp only [List.map_cons, List.flatten_cons, List.append_assoc, List.singleton_append]
      unfold List.splitOn at ih ⊢
      rw [List.splitOnP_append_cons_of_forall_mem (p := (· == '\n')) ha '\n' (by simp), ih]
      rfl
  unfold fileLines
  simp only [key]
  simp

/-- The line of an option. -/
def itemLine (p : Text × Text) : Text := p.1 ++ " = ".toList ++ p.2

theorem writeItem_eq {p : Text × Text} (h : '\n' ∉ p.2) :
    writeItem p = itemLine p ++ ['\n'] := by
  simp only [writeItem, itemLine, indentNewlines_of h]

theorem GoodName.trim {k : Text} (h : GoodName k) : Trim k :=
  trim_of_all fun c hc => (h.2 c hc).1

theorem rstrip_append_space {s : Text} (h : ∀ c, s.getLast? = some c → isSpace c = false) :
    rstrip (s ++ [' ']) = s := by
  unfold rstrip
  rw [List.reverse_append]
  have := rstrip_of h
  unfold rstrip at this
  simp only [List.reverse_cons, List.reverse_nil, List.nil_append, List.singleton_append]
  rw [List.dropWhile_cons_of_pos (by rfl), this]

theorem rstrip_last (s : Text) : ∀ c, (rstrip s).getLast? = some c → isSpace c = false := by
  intro c h
  unfold rstrip at h
  rw [List.getLast?_reverse] at h
  have := List.head?_dropWhile_not isSpace s.reverse
  rw [h] at this
  simpa using this

theorem lstrip_head (s : Text) : ∀ c, (lstrip s).head? = some c → isSpace c = false := by
  intro c h
  unfold lstrip at h
  have := List.head?_dropWhile_not isSpace s
  rw [h] at this
  simpa using this

theorem rstrip_prefix (s : Text) : ∃ t, s = rstrip s ++ t := by
  refine ⟨(s.reverse.takeWhile isSpace).reverse, ?_⟩
  unfold rstrip
  rw [← List.reverse_append, List.takeWhile_append_dropWhile, List.reverse_reverse]

theorem mem_rstrip {s : Text} {c : Char} (h : c ∈ rstrip s) : c ∈ s := by
  obtain ⟨t, ht⟩ := rstrip_prefix s
  rw [ht]
  exact List.mem_append_left _ h

theorem mem_strip {s : Text} {c : Char} (h : c ∈ strip s) : c ∈ s :=
  List.dropWhile_sublist isSpace |>.mem (mem_rstrip h)

theorem strip_trim (s : Text) : Trim (strip s) := by
  refine ⟨fun c h => lstrip_head s c ?_, rstrip_last _⟩
  obtain ⟨t, ht⟩ := rstrip_prefix (lstrip s)
  unfold strip at h
  rw [ht]
  cases e : rstrip (lstrip s) with
  | nil => rw [e] at h; cases h
  | cons x l => rw [e] at h; exact h

theorem rstrip_append (p v : Text) :
    rstrip (p ++ v) = if rstrip v = [] then rstrip p else p ++ rstrip v := by
  unfold rstrip
  rw [List.reverse_append, List.dropWhile_append]
  by_cases h : v.reverse.dropWhile isSpace = []
  · simp [h]
  · have h2 : ¬ (v.reverse.dropWhile isSpace).reverse = [] := by simpa using h
    have h1 : ¬ (v.reverse.dropWhile isSpace).isEmpty = true := by simpa using h
    rw [if_neg h1, if_neg h2]
    simp

theorem lstrip_append {b m : Text} (hb : ∀ c ∈ b, isSpace c = true) :
    lstrip (b ++ m) = lstrip m := by
  unfold lstrip
  exact List.dropWhile_append_of_pos hb

theorem strip_rstrip (v : Text) : strip (rstrip v) = strip v := by
  have hv : v.takeWhile isSpace ++ lstrip v = v := List.takeWhile_append_dropWhile
  have hb : ∀ c ∈ v.takeWhile isSpace, isSpace c = true := fun c hc => by
    have := List.all_takeWhile (p := isSpace) (l := v)
    exact List.all_eq_true.1 this c hc
  have hr := rstrip_append (v.takeWhile isSpace) (lstrip v)
  rw [hv] at hr
  by_cases h : rstrip (lstrip v) = []
  · rw [if_pos h] at hr
    have hb0 : rstrip (v.takeWhile isSpace) = [] := by
      unfold rstrip
      rw [List.reverse_eq_nil_iff]
      have := List.dropWhile_append_of_pos (p := isSpace) (l₁ := (v.takeWhile isSpace).reverse)
        (l₂ := []) fun c hc => hb c (List.mem_reverse.1 hc)
      simpa using this
    rw [hr, hb0]
    unfold strip
    rw [h]
    rfl
  · rw [if_neg h] at hr
    unfold strip
    rw [hr, lstrip_append hb]
    have ht := strip_trim v
    unfold strip at ht
    rw [lstrip_of ht.1, rstrip_of ht.2]

theorem strip_blank {c : Char} (hc : isSpace c = true) (v : Text) : strip (c :: v) = strip v := by
  unfold strip
  have := lstrip_append (b := [c]) (m := v) (by simpa using hc)
  rw [← this]
  rfl

/-- An option line, stripped: the trailing blank goes when the value is blank. -/
theorem strip_itemLine {k : Text} (v : Text) (hk : GoodName k) :
    strip (itemLine (k, v)) =
      if rstrip v = [] then k ++ " =".toList else itemLine (k, rstrip v) := by
  have hne := hk.1
  have hl : lstrip (itemLine (k, v)) = itemLine (k, v) := by
    apply lstrip_of
    intro c hc
    cases k with
    | nil => exact absurd rfl hne
    | cons a k =>
      simp only [itemLine, List.cons_append, List.head?_cons, Option.some.injEq] at hc
      subst hc
      exact (hk.2 a (by simp)).1
  unfold strip
  rw [hl]
  simp only [itemLine]
  rw [rstrip_append]
  by_cases h : rstrip v = []
  · rw [if_pos h, if_pos h]
    have e : k ++ " = ".toList = (k ++ " =".toList) ++ [' '] := by simp
    rw [e]
    apply rstrip_append_space
    intro c hc
    have : (k ++ " =".toList).getLast? = some '=' := by
      simp [List.getLast?_append]
    rw [this] at hc
    injection hc with hc
    subst hc; rfl
  · rw [if_neg h, if_neg h]

/-- Matching an option line. -/
theorem matchOption_item {k : Text} (v : Text) (hk : GoodName k) :
    matchOption (strip (itemLine (k, v))) = some (k, strip v) := by
  have hp : ∀ c ∈ k ++ [' '], (fun c : Char => c ≠ '=' && c ≠ ':') c = true := by
    intro c hc
    rcases List.mem_append.1 hc with hc | hc
    · obtain ⟨_, h1, h2, _⟩ := hk.2 c hc
      simp [h1, h2]
    · simp only [List.mem_singleton] at hc; subst hc; rfl
  rw [strip_itemLine v hk]
  have key : ∀ r : Text, Text.strip r = strip v →
      matchOption ((k ++ [' ']) ++ '=' :: r) = some (k, strip v) := by
    intro r hr
    unfold matchOption
    rw [List.dropWhile_append_of_pos hp, List.takeWhile_append_of_pos hp,
      List.dropWhile_cons_of_neg (by simp), List.takeWhile_cons_of_neg (by simp)]
    simp only [List.append_nil, hr, rstrip_append_space hk.trim.2]
  by_cases h : rstrip v = []
  · rw [if_pos h]
    have := key [] (by rw [← strip_rstrip v, h])
    simpa using this
  · rw [if_neg h]
    have e : itemLine (k, rstrip v) = (k ++ [' ']) ++ '=' :: (' ' :: rstrip v) := by
      simp [itemLine]
    rw [e]
    apply key
    rw [strip_blank rfl, strip_rstrip]

theorem itemLine_head {k : Text} (v : Text) (hk : GoodName k) :
    ∃ c t, strip (itemLine (k, v)) = c :: t ∧ (itemLine (k, v)).head? = some c ∧
      c ≠ '#' ∧ c ≠ ';' ∧ c ≠ '[' ∧ isSpace c = false := by
  rw [strip_itemLine v hk]
  cases k with
  | nil => exact absurd rfl hk.1
  | cons a k =>
    obtain ⟨h0, -, -, h3, h4, h5⟩ := hk.2 a (by simp)
    by_cases h : rstrip v = []
    · exact ⟨a, k ++ " =".toList, by simp [h], by simp [itemLine], h3, h4, h5, h0⟩
    · exact ⟨a, k ++ " = ".toList ++ rstrip v, by simp [h, itemLine], by simp [itemLine],
        h3, h4, h5, h0⟩

/-- Reading an option line. -/
theorem readLine_item (st : RState) {sec k : Text} (v : Text) (hk : GoodName k)
    (hcur : st.cur = some sec) (hadd : (sec, some k) ∉ st.added) :
    readLine st (itemLine (k, v)) = .ok { st with
      sections := st.sections.set sec (((st.sections.get? sec).getD []).set k [strip v])
      opt := some k, indent := 0, added := (sec, some k) :: st.added } := by
  obtain ⟨c, t, h1, h2, h3, h4, h5, h6⟩ := itemLine_head v hk
  have hm := matchOption_item v hk
  rw [h1] at hm
  have hne : k ≠ [] := hk.1
  have hh : readLine.header st 0 (c :: t) = .ok { st with
      sections := st.sections.set sec (((st.sections.get? sec).getD []).set k [strip v])
      opt := some k, indent := 0, added := (sec, some k) :: st.added } := by
    have hs : matchSection (c :: t) = none := by
      unfold matchSection
      split
      · next heq => injection heq with e _; exact absurd e h5
      · rfl
    unfold readLine.header
    simp only [hs, hcur, hm, if_neg hadd, hne, decide_false, Bool.or_false]
  have hcom : ¬ ((c :: t).head? = some '#' ∨ (c :: t).head? = some ';') := by
    simp [h3, h4]
  have hind : ((itemLine (k, v)).takeWhile isSpace).length = 0 := by
    cases e : itemLine (k, v) with
    | nil => rfl
    | cons x r =>
      rw [e] at h2
      injection h2 with h2
      subst h2
      rw [List.takeWhile_cons_of_neg (by simp [h6])]
      rfl
  unfold readLine
  simp only [h1, if_neg hcom, hcur, hind, List.cons_ne_nil, if_false, Nat.not_lt_zero,
    and_false]
  simp only [hcur] at hh
  cases st.opt with
  | none => exact hh
  | some o => exact hh

/-- Reading a blank line. -/
theorem readLine_blank (st : RState) :
    ∃ st', readLine st [] = .ok st' ∧ st'.cur = st.cur ∧ st'.bad = st.bad ∧
      st'.indent = st.indent ∧ st'.added = st.added ∧
      (∀ s d, st.sections.get? s = some d → ∃ d', st'.sections.get? s = some d' ∧
        ∀ k l, d.get? k = some l → ∃ l', d'.get? k = some l' ∧ (l' = l ∨ l' = l ++ [[]])) ∧
      (∀ s, st.sections.get? s = none → st'.sections.get? s = none) ∧
      (∀ s d, st.sections.get? s = some d → ∃ d', st'.sections.get? s = some d' ∧
        ∀ k, d.get? k = none → d'.get? k = none) := by
  have hid : ∃ st', (Except.ok st : Except PyErr RState) = .ok st' ∧ st'.cur = st.cur ∧ st'.bad = st.bad ∧
      st'.indent = st.indent ∧ st'.added = st.added ∧
      (∀ s d, st.sections.get? s = some d → ∃ d', st'.sections.get? s = some d' ∧
        ∀ k l, d.get? k = some l → ∃ l', d'.get? k = some l' ∧ (l' = l ∨ l' = l ++ [[]])) ∧
      (∀ s, st.sections.get? s = none → st'.sections.get? s = none) ∧
      (∀ s d, st.sections.get? s = some d → ∃ d', st'.sections.get? s = some d' ∧
        ∀ k, d.get? k = none → d'.get? k = none) :=
    ⟨st, rfl, rfl, rfl, rfl, rfl, fun s d h => ⟨d, h, fun k l hl => ⟨l, hl, Or.inl rfl⟩⟩,
      fun s h => h, fun s d h => ⟨d, h, fun k hk => hk⟩⟩
  have hr : readLine st [] = match st.cur, st.opt with
      | some sec, some o => if o = [] then .ok st
        else .ok { st with sections := appendLine st.sections sec o [] }
      | _, _ => .ok st := rfl
  rw [hr]
  cases hc : st.cur with
  | none => rw [hc] at hid; exact hid
  | some sec =>
    cases ho : st.opt with
    | none => rw [hc] at hid; exact hid
    | some o =>
      simp only
      by_cases hon : o = []
      · rw [if_pos hon]; rw [hc] at hid; exact hid
      · rw [if_neg hon]
        refine ⟨_, rfl, rfl, rfl, rfl, rfl, ?_⟩
        simp only
        unfold appendLine
        cases hs : st.sections.get? sec with
        | none =>
          exact ⟨fun s d h => ⟨d, h, fun k l hl => ⟨l, hl, Or.inl rfl⟩⟩,
            fun s h => h, fun s d h => ⟨d, h, fun k hk => hk⟩⟩
        | some d0 =>
          simp only
          cases hd : d0.get? o with
          | none =>
            exact ⟨fun s d h => ⟨d, h, fun k l hl => ⟨l, hl, Or.inl rfl⟩⟩,
              fun s h => h, fun s d h => ⟨d, h, fun k hk => hk⟩⟩
          | some l0 =>
            simp only [Dict.get?_set]
            refine ⟨?_, ?_, ?_⟩
            · intro s d h
              by_cases hss : sec = s
              · subst hss
                rw [hs] at h
                injection h with h
                subst h
                refine ⟨_, by rw [if_pos rfl], fun k l hl => ?_⟩
                rw [Dict.get?_set]
                by_cases hok : o = k
                · subst hok
                  rw [hd] at hl
                  injection hl with hl
                  subst hl
                  exact ⟨_, if_pos rfl, Or.inr rfl⟩
                · exact ⟨l, by rw [if_neg hok]; exact hl, Or.inl rfl⟩
              · exact ⟨d, by rw [if_neg hss]; exact h, fun k l hl => ⟨l, hl, Or.inl rfl⟩⟩
            · intro s h
              by_cases hss : sec = s
              · subst hss; rw [hs] at h; cases h
              · rw [if_neg hss]; exact h
            · intro s d h
              by_cases hss : sec = s
              · subst hss
                rw [hs] at h
                injection h with h
                subst h
                refine ⟨_, by rw [if_pos rfl], fun k hk => ?_⟩
                rw [Dict.get?_set]
                by_cases hok : o = k
                · subst hok; rw [hd] at hk; cases hk
                · rw [if_neg hok]; exact hk
              · exact ⟨d, by rw [if_neg hss]; exact h, fun k hk => hk⟩

/-! ### Values on several lines -/

/-- A value the format can hold: its lines have no blanks at their ends, none but the
first starts like a comment, and the last is not blank unless it is the only one. -/
def Safe (v : Text) : Prop :=
  ∃ a ls, v = ['\n'].intercalate (a :: ls) ∧ (∀ l ∈ a :: ls, Trim l ∧ '\n' ∉ l) ∧
    (∀ l ∈ ls, l.head? ≠ some '#' ∧ l.head? ≠ some ';') ∧
    ∀ c, v.getLast? = some c → isSpace c = false

theorem safe_of_line {v : Text} (h : Trim v) (hn : '\n' ∉ v) : Safe v :=
  ⟨v, [], by simp [List.intercalate], by simpa using ⟨h, hn⟩, by simp, h.2⟩

theorem indentNewlines_append (a b : Text) :
    indentNewlines (a ++ b) = indentNewlines a ++ indentNewlines b := by
  induction a with
  | nil => rfl
  | cons c a ih =>
    rw [List.cons_append, indentNewlines, indentNewlines, ih]
    split <;> rfl

theorem indentNewlines_join (a : Text) (ls : List Text) (h : ∀ l ∈ a :: ls, '\n' ∉ l) :
    indentNewlines (['\n'].intercalate (a :: ls)) ++ ['\n'] =
      ((a :: ls.map ('\t' :: ·)).map (· ++ ['\n'])).flatten := by
  induction ls generalizing a with
  | nil =>
    rw [List.intercalate_singleton, indentNewlines_of (h a (by simp))]
    simp
  | cons b ls ih =>
    have ih := ih b fun l hl => h l (List.mem_cons_of_mem _ hl)
    rw [List.intercalate_cons_cons, indentNewlines_append, indentNewlines_append,
      indentNewlines_of (h a (by simp))]
    simp only [List.map_cons, List.flatten_cons] at ih ⊢
    have e : indentNewlines ['\n'] = ['\n', '\t'] := rfl
    rw [e, List.append_assoc, List.append_assoc, ih]
    simp

/-- An option whose value has the lines `a :: ls`. -/
abbrev Item := Text × Text × List Text

/-- Its value. -/
def Item.value (q : Item) : Text := ['\n'].intercalate (q.2.1 :: q.2.2)

/-- The lines it is written on. -/
def Item.lines (q : Item) : List Text := itemLine (q.1, q.2.1) :: q.2.2.map ('\t' :: ·)

/-- What is read of it. -/
def Item.kept (q : Item) : List Text := keptLines q.2.1 q.2.2

/-- The conditions on it. -/
def Item.Good (q : Item) : Prop :=
  GoodName q.1 ∧ '\n' ∉ q.1 ∧ ∀ l ∈ q.2.1 :: q.2.2, '\n' ∉ l

theorem writeItem_lines (q : Item) (h : q.Good) :
    writeItem (q.1, q.value) = (q.lines.map (· ++ ['\n'])).flatten := by
  have := indentNewlines_join q.2.1 q.2.2 h.2.2
  simp only [writeItem, Item.value, Item.lines, List.append_assoc, this, itemLine,
    List.map_cons, List.flatten_cons]

theorem mem_splitOn (t : Text) : ∀ l ∈ t.splitOn '\n', '\n' ∉ l ∧ ∀ c ∈ l, c ∈ t := by
  induction t with
  | nil => intro l hl; simp at hl; subst hl; simp
  | cons x t ih =>
    intro l hl
    rw [List.splitOn_cons_eq_if_modifyHead] at hl
    by_cases hx : x = '\n'
    · subst hx
      rw [if_pos (by rfl)] at hl
      rcases List.mem_cons.1 hl with rfl | hl
      · simp
      · exact ⟨(ih l hl).1, fun c hc => List.mem_cons_of_mem _ ((ih l hl).2 c hc)⟩
    · rw [if_neg (by simpa using hx)] at hl
      cases hs : t.splitOn '\n' with
      | nil => rw [hs] at hl; cases hl
      | cons a r =>
        rw [hs] at hl ih
        rw [List.modifyHead_cons] at hl
        rcases List.mem_cons.1 hl with rfl | hl
        · have ha := ih a (by simp)
          refine ⟨?_, fun c hc => ?_⟩
          · simp only [List.mem_cons, not_or]
            exact ⟨Ne.symm hx, ha.1⟩
          · rcases List.mem_cons.1 hc with rfl | hc
            · simp
            · exact List.mem_cons_of_mem _ (ha.2 c hc)
        · have := ih l (List.mem_cons_of_mem _ hl)
          exact ⟨this.1, fun c hc => List.mem_cons_of_mem _ (this.2 c hc)⟩

theorem items_of (l : List (Text × Text)) (h : ∀ p ∈ l, GoodName p.1 ∧ '\n' ∉ p.1) :
    ∃ qs : List Item, l = qs.map (fun q => (q.1, q.value)) ∧ ∀ q ∈ qs, q.Good := by
  induction l with
  | nil => exact ⟨[], rfl, by simp⟩
  | cons p l ih =>
    obtain ⟨qs, h1, h2⟩ := ih fun p hp => h p (List.mem_cons_of_mem _ hp)
    obtain ⟨hk, hn⟩ := h p (by simp)
    cases hs : p.2.splitOn '\n' with
    | nil => exact absurd hs (List.splitOn_ne_nil _ _)
    | cons a ls =>
      have hv : ['\n'].intercalate (a :: ls) = p.2 := by
        rw [← hs]
        exact List.intercalate_splitOn _
      refine ⟨(p.1, a, ls) :: qs, ?_, ?_⟩
      · rw [List.map_cons, ← h1]
        congr 1
        exact Prod.ext rfl hv.symm
      · intro q hq
        rcases List.mem_cons.1 hq with rfl | hq
        · exact ⟨hk, hn, fun l hl => (mem_splitOn p.2 l (by rw [hs]; exact hl)).1⟩
        · exact h2 q hq

/-- Reading a line which continues a value. -/
theorem readLine_more (st : RState) {sec k : Text} (l : Text) (hcur : st.cur = some sec)
    (hopt : st.opt = some k) (hk : k ≠ []) (hi : st.indent = 0) :
    readLine st ('\t' :: l) = .ok (if IsComment l then st else
      { st with sections := appendLine st.sections sec k (strip l) }) := by
  have hs : strip ('\t' :: l) = strip l := strip_blank rfl l
  have hind : 0 < (('\t' :: l).takeWhile isSpace).length := by
    rw [List.takeWhile_cons_of_pos (by rfl)]
    simp
  unfold readLine
  by_cases hc : IsComment l
  · have hc' := hc
    unfold IsComment at hc'
    simp only [hs, if_pos hc', if_pos hc, if_true]
  · have hc' := hc
    unfold IsComment at hc'
    simp only [hs, if_neg hc', if_neg hc, hcur, hopt, hi, hk, if_false, ne_eq,
      not_false_eq_true, hind, and_self, if_true]
    by_cases hn : strip l = []
    · rw [if_pos hn, hn]
    · rw [if_neg hn]

theorem readLines_more (ls : List Text) (st : RState) {sec k : Text}
    {d : Dict Text (List Text)} {acc : List Text} (hcur : st.cur = some sec)
    (hopt : st.opt = some k) (hk : k ≠ []) (hi : st.indent = 0)
    (hsec : st.sections.get? sec = some d) (hd : d.get? k = some acc) :
    ∃ st' d', (ls.map ('\t' :: ·)).foldlM readLine st = .ok st' ∧ st'.cur = some sec ∧
      st'.bad = st.bad ∧ st'.added = st.added ∧ st'.sections.get? sec = some d' ∧
      d'.get? k = some (acc ++ (ls.filter fun l => ¬ IsComment l).map strip) ∧
      (∀ k', k' ≠ k → d'.get? k' = d.get? k') ∧
      (∀ s, s ≠ sec → st'.sections.get? s = st.sections.get? s) := by
  induction ls generalizing st d acc with
  | nil => exact ⟨st, d, rfl, hcur, rfl, rfl, hsec, by simpa using hd, fun _ _ => rfl,
      fun _ _ => rfl⟩
  | cons l ls ih =>
    have h1 := readLine_more st l hcur hopt hk hi
    by_cases hc : IsComment l
    · rw [if_pos hc] at h1
      obtain ⟨st', d', g1, g⟩ := ih st hcur hopt hi hsec hd
      refine ⟨st', d', ?_, ?_⟩
      · rw [List.map_cons, List.foldlM_cons, h1]
        exact g1
      · rw [List.filter_cons_of_neg (by simpa using hc)]
        exact g
    rw [if_neg hc] at h1
    have e : appendLine st.sections sec k (strip l) =
        st.sections.set sec (d.set k (acc ++ [strip l])) := by
      unfold appendLine
      simp only [hsec, hd]
    rw [e] at h1
    obtain ⟨st', d', g1, g2, g3, g4, g5, g6, g7, g8⟩ := ih
      { st with sections := st.sections.set sec (d.set k (acc ++ [strip l])) } hcur hopt hi
      (Dict.get?_set_self _ _ _) (Dict.get?_set_self _ _ _)
    refine ⟨st', d', ?_, g2, g3, g4, g5, ?_, ?_, ?_⟩
    · rw [List.map_cons, List.foldlM_cons, h1]
      exact g1
    · rw [g6, List.filter_cons_of_pos (by simpa using hc)]
      simp
    · intro k' hk'
      rw [g7 k' hk', Dict.get?_set_ne _ _ (Ne.symm hk')]
    · intro s hs
      rw [g8 s hs]
      exact Dict.get?_set_ne _ _ (Ne.symm hs)

/-- Reading the options of a section. -/
theorem readLines_items (items : List Item) (sec : Text) (st : RState)
    (d : Dict Text (List Text))
    (hgood : ∀ q ∈ items, q.Good) (hnd : (items.map Prod.fst).Nodup)
    (hcur : st.cur = some sec) (hsec : st.sections.get? sec = some d)
    (hadd : ∀ q ∈ items, (sec, some q.1) ∉ st.added) :
    ∃ st', (items.flatMap Item.lines).foldlM readLine st = .ok st' ∧ st'.cur = some sec ∧
      st'.bad = st.bad ∧
      (∃ d', st'.sections.get? sec = some d' ∧
        (∀ q ∈ items, d'.get? q.1 = some q.kept) ∧
        (∀ k, k ∉ items.map Prod.fst → d'.get? k = d.get? k)) ∧
      (∀ s, s ≠ sec → st'.sections.get? s = st.sections.get? s) ∧
      (∀ s o, s ≠ sec → ((s, o) ∈ st'.added ↔ (s, o) ∈ st.added)) := by
  induction items generalizing st d with
  | nil => exact ⟨st, rfl, hcur, rfl, ⟨d, hsec, by simp, by simp⟩, fun _ _ => rfl,
      fun _ _ _ => Iff.rfl⟩
  | cons p items ih =>
    obtain ⟨k, a, ls⟩ := p
    obtain ⟨hk, -, -⟩ := hgood (k, a, ls) (by simp)
    simp only [List.map_cons, List.nodup_cons] at hnd
    have h0 := readLine_item st a hk hcur (hadd (k, a, ls) (by simp))
    simp only [hsec, Option.getD_some] at h0
    obtain ⟨st1, d1, g1, g2, g3, g4, g5, g6, g7, g8⟩ := readLines_more ls
      { st with sections := st.sections.set sec (d.set k [strip a]), opt := some k, indent := 0,
                added := (sec, some k) :: st.added } (k := k)
      hcur rfl hk.1 rfl
      (Dict.get?_set_self _ _ _) (Dict.get?_set_self _ _ _)
    obtain ⟨st', h1, h2, h3, ⟨d', h4, h5, h6⟩, h7, h8⟩ := ih st1 d1
      (fun q hq => hgood q (by simp [hq])) hnd.2 g2 g5
      (fun q hq hm => by
        rw [g4] at hm
        rcases List.mem_cons.1 hm with hm | hm
        · injection hm with _ hm
          injection hm with hm
          exact hnd.1 (List.mem_map.2 ⟨q, hq, hm⟩)
        · exact hadd q (by simp [hq]) hm)
    refine ⟨st', ?_, h2, h3.trans g3, ⟨d', h4, ?_, ?_⟩, ?_, ?_⟩
    · rw [List.flatMap_cons, List.foldlM_append]
      have : (Item.lines (k, a, ls)).foldlM readLine st = .ok st1 := by
        rw [Item.lines, List.foldlM_cons, h0]
        exact g1
      rw [this]
      exact h1
    · intro q hq
      rcases List.mem_cons.1 hq with rfl | hq
      · rw [h6 _ hnd.1, g6]
        rfl
      · exact h5 q hq
    · intro k' hk'
      simp only [List.map_cons, List.mem_cons, not_or] at hk'
      rw [h6 k' hk'.2, g7 k' hk'.1, Dict.get?_set_ne _ _ (Ne.symm hk'.1)]
    · intro s hs
      rw [h7 s hs, g8 s hs]
      exact Dict.get?_set_ne _ _ (Ne.symm hs)
    · intro s o hs
      rw [h8 s o hs, g4]
      simp [hs]

theorem intercalate_blank (l : List Text) (h : l ≠ []) :
    ['\n'].intercalate (l ++ [[]]) = ['\n'].intercalate l ++ ['\n'] := by
  induction l with
  | nil => exact absurd rfl h
  | cons a l ih =>
    cases l with
    | nil =>
      rw [List.singleton_append, List.intercalate_cons_cons, List.intercalate_singleton,
        List.intercalate_singleton, List.append_nil]
    | cons b l =>
      rw [List.cons_append, List.cons_append, List.intercalate_cons_cons,
        List.intercalate_cons_cons, ← List.cons_append, ih (by simp)]
      simp

theorem rstrip_newline (v : Text) : rstrip (v ++ ['\n']) = rstrip v := by
  unfold rstrip
  rw [List.reverse_append]
  simp only [List.reverse_cons, List.reverse_nil, List.nil_append, List.singleton_append]
  rw [List.dropWhile_cons_of_pos (by rfl)]

theorem joinValue_blank (l : List Text) (h : l ≠ []) : joinValue (l ++ [[]]) = joinValue l := by
  unfold joinValue
  rw [intercalate_blank l h, rstrip_newline]

theorem Item.Good.join {q : Item} (h : q.Good) : joinValue q.kept = held q.value := by
  have : q.value.splitOn '\n' = q.2.1 :: q.2.2 := by
    unfold Item.value
    exact List.splitOn_intercalate _ h.2.2 (by simp)
  unfold held
  simp only [this]
  rfl

theorem Item.kept_ne (q : Item) : q.kept ≠ [] := by
  unfold Item.kept keptLines
  simp

theorem joinValue_of {q : Item} (h : q.Good) {l : List Text}
    (hl : l = q.kept ∨ l = q.kept ++ [[]]) : joinValue l = held q.value := by
  rcases hl with rfl | rfl
  · exact h.join
  · rw [joinValue_blank _ q.kept_ne, h.join]

theorem joinValue_of2 {q : Item} (h : q.Good) :
    joinValue (q.kept ++ [[]] ++ [[]]) = held q.value := by
  rw [joinValue_blank _ (by simp), joinValue_blank _ q.kept_ne, h.join]

theorem foldlM_append_ok {α β : Type} {f : β → α → Except PyErr β} {a b : β} {l : List α}
    (h : l.foldlM f a = .ok b) (m : List α) : (l ++ m).foldlM f a = m.foldlM f b := by
  rw [List.foldlM_append, h]; rfl

theorem foldlM_cons_ok {α β : Type} {f : β → α → Except PyErr β} {a b : β} {x : α}
    (h : f a x = .ok b) (m : List α) : (x :: m).foldlM f a = m.foldlM f b := by
  rw [List.foldlM_cons, h]; rfl

/-! ### What a file can be read as -/

/-- The lines of a value as they are kept while reading. -/
def GoodLines (l : List Text) : Prop :=
  ∃ a ls, l = a :: ls ∧ (∀ t ∈ a :: ls, Trim t ∧ '\n' ∉ t ∧ '%' ∉ t) ∧
    ∀ t ∈ ls, t.head? ≠ some '#' ∧ t.head? ≠ some ';'

theorem intercalate_concat (l : List Text) (x : Text) :
    ∃ p, ['\n'].intercalate (l ++ [x]) = p ++ x := by
  induction l with
  | nil => exact ⟨[], by simp⟩
  | cons a l ih =>
    obtain ⟨p, hp⟩ := ih
    cases l with
    | nil => exact ⟨a ++ ['\n'], by simp [List.intercalate]⟩
    | cons b l =>
      refine ⟨a ++ ['\n'] ++ p, ?_⟩
      rw [List.cons_append, List.cons_append, List.intercalate_cons_cons, ← List.cons_append,
        hp]
      simp

/-- The same for values with a `%`. -/
def TrimLines (l : List Text) : Prop :=
  ∃ a ls, l = a :: ls ∧ (∀ t ∈ a :: ls, Trim t ∧ '\n' ∉ t) ∧
    ∀ t ∈ ls, t.head? ≠ some '#' ∧ t.head? ≠ some ';'

theorem GoodLines.trim {l : List Text} (h : GoodLines l) : TrimLines l := by
  obtain ⟨a, ls, h0, h1, h2⟩ := h
  exact ⟨a, ls, h0, fun t ht => ⟨(h1 t ht).1, (h1 t ht).2.1⟩, h2⟩

/-- A value read from a file can be written. -/
theorem joinValue_safe (n : ℕ) (l : List Text) (hn : l.length = n) (h : TrimLines l) :
    Safe (joinValue l) := by
  induction n generalizing l with
  | zero =>
    obtain ⟨a, ls, rfl, -⟩ := h
    cases hn
  | succ n ih =>
    obtain ⟨a, ls, rfl, h1, h2⟩ := h
    rcases List.eq_nil_or_concat ls with rfl | ⟨l', x, hx⟩
    · have ha := h1 a (by simp)
      have : joinValue [a] = a := by
        unfold joinValue
        rw [List.intercalate_singleton]
        exact rstrip_of ha.1.2
      rw [this]
      exact safe_of_line ha.1 ha.2
    · rw [List.concat_eq_append] at hx
      subst hx
      by_cases hx : x = []
      · subst hx
        rw [← List.cons_append, joinValue_blank _ (by simp)]
        refine ih _ (by simpa using hn) ⟨a, l', rfl, fun t ht => h1 t ?_, fun t ht => h2 t ?_⟩
        · rcases List.mem_cons.1 ht with rfl | ht
          · simp
          · simp [ht]
        · simp [ht]
      · have hl : ∀ c, (['\n'].intercalate (a :: (l' ++ [x]))).getLast? = some c →
            isSpace c = false := by
          intro c hc
          obtain ⟨p, hp⟩ := intercalate_concat (a :: l') x
          rw [← List.cons_append, hp, List.getLast?_append_of_ne_nil _ hx] at hc
          exact (h1 x (by simp)).1.2 c hc
        have : joinValue (a :: (l' ++ [x])) = ['\n'].intercalate (a :: (l' ++ [x])) :=
          rstrip_of hl
        rw [this]
        exact ⟨a, l' ++ [x], rfl, h1, h2, hl⟩

/-- What is kept can be kept. -/
theorem held_safe (v : Text) : Safe (held v) := by
  unfold held
  cases hs : v.splitOn '\n' with
  | nil => exact absurd hs (List.splitOn_ne_nil _ _)
  | cons a ls =>
    have hn := mem_splitOn v
    rw [hs] at hn
    refine joinValue_safe _ (keptLines a ls) rfl ⟨_, _, rfl, fun t ht => ?_, fun t ht => ?_⟩
    · rcases List.mem_cons.1 ht with rfl | ht
      · exact ⟨strip_trim a, fun h => (hn a (by simp)).1 (mem_strip h)⟩
      · obtain ⟨l, hl, rfl⟩ := List.mem_map.1 ht
        exact ⟨strip_trim l, fun h =>
          (hn l (List.mem_cons_of_mem _ (List.mem_filter.1 hl).1)).1 (mem_strip h)⟩
    · obtain ⟨l, hl, rfl⟩ := List.mem_map.1 ht
      have := (List.mem_filter.1 hl).2
      simp only [decide_eq_true_eq] at this
      exact not_or.1 this

/-- What can be kept is kept. -/
theorem held_of_safe {v : Text} (h : Safe v) : held v = v := by
  obtain ⟨a, ls, rfl, h1, h2, h3⟩ := h
  have hs : (['\n'].intercalate (a :: ls)).splitOn '\n' = a :: ls :=
    List.splitOn_intercalate _ (fun l hl => (h1 l hl).2) (by simp)
  unfold held
  simp only [hs]
  have hk : keptLines a ls = a :: ls := by
    unfold keptLines
    rw [strip_of (h1 a (by simp)).1]
    congr 1
    rw [List.filter_eq_self.2]
    · conv_rhs => rw [← List.map_id ls]
      exact List.map_congr_left fun l hl => strip_of (h1 l (List.mem_cons_of_mem _ hl)).1
    · intro l hl
      simp only [decide_eq_true_eq, IsComment, strip_of (h1 l (List.mem_cons_of_mem _ hl)).1,
        not_or]
      exact h2 l hl
  rw [hk]
  exact rstrip_of h3

theorem held_eq_iff (v : Text) : held v = v ↔ Safe v :=
  ⟨fun h => h ▸ held_safe v, held_of_safe⟩

theorem held_held (v : Text) : held (held v) = held v := held_of_safe (held_safe v)

theorem mem_intercalate {c : Char} (l : List Text) (h : c ∈ ['\n'].intercalate l) :
    c = '\n' ∨ ∃ t ∈ l, c ∈ t := by
  induction l with
  | nil => simp [List.intercalate] at h
  | cons a l ih =>
    cases l with
    | nil => rw [List.intercalate_singleton] at h; exact Or.inr ⟨a, by simp, h⟩
    | cons b l =>
      rw [List.intercalate_cons_cons, List.mem_append, List.mem_append] at h
      rcases h with (h | h) | h
      · exact Or.inr ⟨a, by simp, h⟩
      · exact Or.inl (by simpa using h)
      · rcases ih h with h | ⟨t, ht, h⟩
        · exact Or.inl h
        · exact Or.inr ⟨t, List.mem_cons_of_mem _ ht, h⟩

theorem mem_held {v : Text} {c : Char} (hc : c ≠ '\n') (h : c ∈ held v) : c ∈ v := by
  unfold held at h
  cases hs : v.splitOn '\n' with
  | nil => simp only [hs] at h; cases h
  | cons a ls =>
    simp only [hs] at h
    have hn := mem_splitOn v
    rw [hs] at hn
    rcases mem_intercalate _ (mem_rstrip h) with h | ⟨t, ht, h⟩
    · exact absurd h hc
    · rcases List.mem_cons.1 ht with rfl | ht
      · exact (hn a (by simp)).2 c (mem_strip h)
      · obtain ⟨l, hl, rfl⟩ := List.mem_map.1 ht
        exact (hn l (List.mem_cons_of_mem _ (List.mem_filter.1 hl).1)).2 c (mem_strip h)

theorem joinValue_percent {l : List Text} (h : GoodLines l) : '%' ∉ joinValue l := by
  intro hm
  obtain ⟨a, ls, rfl, h1, -⟩ := h
  rcases mem_intercalate _ (mem_rstrip hm) with h | ⟨t, ht, h⟩
  · cases h
  · exact (h1 t ht).2.2 h

/-- All values of a dictionary of sections. -/
def GoodSections (secs : Dict Text (Dict Text (List Text))) : Prop :=
  ∀ s d, secs.get? s = some d → ∀ k l, d.get? k = some l → GoodLines l

theorem GoodSections.set {secs : Dict Text (Dict Text (List Text))} (h : GoodSections secs)
    (s : Text) (d : Dict Text (List Text)) (hd : ∀ k l, d.get? k = some l → GoodLines l) :
    GoodSections (secs.set s d) := by
  intro s' d' hs' k l hk
  by_cases e : s = s'
  · subst e
    rw [Dict.get?_set_self] at hs'
    injection hs' with hs'
    subst hs'
    exact hd k l hk
  · rw [Dict.get?_set_ne _ _ e] at hs'
    exact h s' d' hs' k l hk

theorem GoodSections.set_line {d : Dict Text (List Text)} {k : Text} {l : List Text}
    (hd : ∀ k l, d.get? k = some l → GoodLines l) (hl : GoodLines l) :
    ∀ k' l', (d.set k l).get? k' = some l' → GoodLines l' := by
  intro k' l' hk
  by_cases e : k = k'
  · subst e
    rw [Dict.get?_set_self] at hk
    injection hk with hk
    subst hk
    exact hl
  · rw [Dict.get?_set_ne _ _ e] at hk
    exact hd k' l' hk

theorem GoodSections.append {secs : Dict Text (Dict Text (List Text))} (h : GoodSections secs)
    (s k : Text) {t : Text} (ht : Trim t ∧ '\n' ∉ t ∧ '%' ∉ t)
    (hc : t.head? ≠ some '#' ∧ t.head? ≠ some ';') : GoodSections (appendLine secs s k t) := by
  unfold appendLine
  cases hs : secs.get? s with
  | none => exact h
  | some d =>
    dsimp only
    cases hk : d.get? k with
    | none => exact h
    | some l =>
      dsimp only
      refine h.set s _ (GoodSections.set_line (h s d hs) ?_)
      obtain ⟨a, ls, rfl, h1, h2⟩ := h s d hs k l hk
      refine ⟨a, ls ++ [t], rfl, fun u hu => ?_, fun u hu => ?_⟩
      · simp only [List.mem_cons, List.mem_append, List.not_mem_nil, or_false] at hu
        rcases hu with rfl | hu | rfl
        · exact h1 _ (by simp)
        · exact h1 _ (by simp [hu])
        · exact ht
      · simp only [List.mem_append, List.mem_singleton] at hu
        rcases hu with hu | rfl
        · exact h2 u hu
        · exact hc

theorem matchOption_value {v n t : Text} (hv : '\n' ∉ v ∧ '%' ∉ v)
    (h : matchOption v = some (n, t)) : Trim t ∧ '\n' ∉ t ∧ '%' ∉ t := by
  unfold matchOption at h
  split at h
  · cases h
  · next c rest e =>
    injection h with h
    injection h with _ h
    subst h
    have hsub : ∀ x ∈ strip rest, x ∈ v := fun x hx =>
      (List.dropWhile_sublist _).mem (e ▸ List.mem_cons_of_mem _ (mem_strip hx))
    exact ⟨strip_trim _, fun hx => hv.1 (hsub _ hx), fun hx => hv.2 (hsub _ hx)⟩

theorem header_good {st st' : RState} {ind : ℕ} {v : Text} (h : GoodSections st.sections)
    (hv : '\n' ∉ v ∧ '%' ∉ v) (hr : readLine.header st ind v = .ok st') :
    GoodSections st'.sections := by
  have hnil : ∀ k l, Dict.get? ([] : Dict Text (List Text)) k = some l → GoodLines l :=
    fun k l h => by cases h
  unfold readLine.header at hr
  cases hm : matchSection v with
  | some name =>
    simp only [hm] at hr
    split at hr
    · injection hr with hr
      subst hr
      dsimp only
      split
      · exact h
      · exact h.set _ _ hnil
    · split at hr
      · split at hr
        · cases hr
        · injection hr with hr
          subst hr
          exact h
      · injection hr with hr
        subst hr
        exact h.set _ _ hnil
  | none =>
    simp only [hm] at hr
    cases hc : st.cur with
    | none => simp only [hc, reduceCtorEq] at hr
    | some sec =>
      simp only [hc] at hr
      cases ho : matchOption v with
      | none =>
        simp only [ho] at hr
        injection hr with hr
        subst hr
        exact h
      | some p =>
        obtain ⟨n, t⟩ := p
        simp only [ho] at hr
        split at hr
        · cases hr
        · injection hr with hr
          subst hr
          refine h.set _ _ (GoodSections.set_line ?_ ?_)
          · cases hs : st.sections.get? sec with
            | none => exact hnil
            | some d => exact h sec d hs
          · exact ⟨t, [], rfl, by simpa using matchOption_value hv ho, by simp⟩

theorem readLine_good {st st' : RState} {line : Text} (h : GoodSections st.sections)
    (hv : '\n' ∉ line ∧ '%' ∉ line) (hr : readLine st line = .ok st') :
    GoodSections st'.sections := by
  have hs : '\n' ∉ strip line ∧ '%' ∉ strip line :=
    ⟨fun hx => hv.1 (mem_strip hx), fun hx => hv.2 (mem_strip hx)⟩
  have hblank : ∀ s k, GoodSections (appendLine st.sections s k []) := fun s k =>
    h.append s k ⟨trim_of_all (by simp), by simp, by simp⟩ (by simp)
  unfold readLine at hr
  dsimp only at hr
  by_cases hc : (strip line).head? = some '#' ∨ (strip line).head? = some ';'
  · simp only [if_pos hc, if_true] at hr
    injection hr with hr
    subst hr
    exact h
  · simp only [if_neg hc] at hr
    by_cases hn : strip line = []
    · rw [if_pos hn] at hr
      cases hcur : st.cur with
      | none => simp only [hcur] at hr; injection hr with hr; subst hr; exact h
      | some sec =>
        cases hopt : st.opt with
        | none => simp only [hcur, hopt] at hr; injection hr with hr; subst hr; exact h
        | some o =>
          simp only [hcur, hopt] at hr
          split at hr
          · injection hr with hr; subst hr; exact h
          · injection hr with hr; subst hr; exact hblank _ _
    · rw [if_neg hn] at hr
      cases hcur : st.cur with
      | none => simp only [hcur] at hr; exact header_good h hs hr
      | some sec =>
        cases hopt : st.opt with
        | none => simp only [hcur, hopt] at hr; exact header_good h hs hr
        | some o =>
          simp only [hcur, hopt] at hr
          split at hr
          · injection hr with hr
            subst hr
            exact h.append _ _ ⟨strip_trim _, hs⟩ (not_or.1 hc)
          · exact header_good h hs hr

theorem readLines_good (ls : List Text) (hv : ∀ l ∈ ls, '\n' ∉ l ∧ '%' ∉ l) (st st' : RState)
    (h : GoodSections st.sections) (hr : ls.foldlM readLine st = .ok st') :
    GoodSections st'.sections := by
  induction ls generalizing st with
  | nil => injection hr with hr; subst hr; exact h
  | cons l ls ih =>
    rw [List.foldlM_cons] at hr
    cases h1 : readLine st l with
    | error e => rw [h1] at hr; cases hr
    | ok s1 =>
      rw [h1] at hr
      exact ih (fun l hl => hv l (List.mem_cons_of_mem _ hl)) s1
        (readLine_good h (hv l (by simp)) h1) hr

theorem readFile_good {t : Text} (ht : '%' ∉ t) {secs : Dict Text (Dict Text (List Text))}
    (h : readFile t = .ok secs) : GoodSections secs := by
  unfold readFile at h
  have hl : ∀ l ∈ fileLines t, '\n' ∉ l ∧ '%' ∉ l := by
    have : ∀ l ∈ fileLines t, l ∈ t.splitOn '\n' := by
      intro l hl
      unfold fileLines at hl
      dsimp only at hl
      split at hl
      · exact List.dropLast_subset _ hl
      · exact hl
    intro l hl
    have := mem_splitOn t l (this l hl)
    exact ⟨this.1, fun hp => ht (this.2 _ hp)⟩
  cases hr : (fileLines t).foldlM readLine start with
  | error e => rw [hr] at h; cases h
  | ok st =>
    rw [hr] at h
    dsimp only at h
    split at h
    · cases h
    · injection h with h
      subst h
      exact readLines_good _ hl start st (fun s d hs => by cases hs) hr

theorem lookup_good {secs : Dict Text (Dict Text (List Text))} (h : GoodSections secs)
    {s k v : Text} {d : Dict Text (List Text)} (hs : secs.get? s = some d)
    (hv : lookup secs d k = some v) : Safe v ∧ '%' ∉ v := by
  have key : ∀ l, GoodLines l → Safe (joinValue l) ∧ '%' ∉ joinValue l :=
    fun l hl => ⟨joinValue_safe _ l rfl hl.trim, joinValue_percent hl⟩
  unfold lookup at hv
  cases hk : d.get? k with
  | some l =>
    simp only [hk] at hv
    injection hv with hv
    subst hv
    exact key l (h s d hs k l hk)
  | none =>
    simp only [hk] at hv
    cases hd : secs.get? defaultSection with
    | none => simp only [hd, reduceCtorEq] at hv
    | some e =>
      simp only [hd] at hv
      cases he : e.get? k with
      | none => rw [he] at hv; cases hv
      | some l =>
        rw [he] at hv
        injection hv with hv
        subst hv
        exact key l (h _ e hd k l he)

/-- An option of a file without `%` is its fallback or a text that can be written. -/
theorem get_good {t : Text} (ht : '%' ∉ t) {secs : Dict Text (Dict Text (List Text))}
    (h : readFile t = .ok secs) {s k fb v : Text} (hfb : Safe fb ∧ '%' ∉ fb)
    (hv : Cfg.get secs s k fb = .ok v) : Safe v ∧ '%' ∉ v := by
  have hg := readFile_good ht h
  unfold Cfg.get at hv
  cases hs : secs.get? s with
  | none =>
    simp only [hs] at hv
    injection hv with hv
    subst hv
    exact hfb
  | some d =>
    simp only [hs] at hv
    cases hl : lookup secs d k with
    | none =>
      simp only [hl] at hv
      injection hv with hv
      subst hv
      exact hfb
    | some w =>
      simp only [hl] at hv
      have := lookup_good hg hs hl
      rw [interpolate_of _ _ this.2] at hv
      injection hv with hv
      subst hv
      exact this

end DiscSolver.Cfg
