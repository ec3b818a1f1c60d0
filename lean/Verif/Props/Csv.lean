import Verif.Model.Csv
import Verif.Lemmas.Dict
import Verif.Lemmas.Text
import Mathlib.Data.List.Forall2

/-!
# C55: reading inputs from a CSV file
-/

namespace DiscSolver

namespace Csv

/-! ## Lines that are records -/

/-- The line is one whole record with these fields. -/
def Record (line : Text) (fields : List Text) : Prop :=
  Reader.line {} line = .ok { fields := fields }

theorem readRows_records {ls : List Text} {rows : List (List Text)}
    (h : List.Forall₂ Record ls rows) : readRows {} ls = .ok rows := by
  induction h with
  | nil => rfl
  | cons h _ ih => simp [readRows, ih, show Reader.line {} _ = _ from h]

theorem chars_append (r : Reader) (a b : Text) :
    r.chars (a ++ b) = match r.chars a with
      | .error e => .error e
      | .ok r => r.chars b := by
  induction a generalizing r with
  | nil => rfl
  | cons c a ih =>
    simp only [List.cons_append, Reader.chars]
    cases r.char c with
    | error e => rfl
    | ok r => exact ih r

theorem chars_quoted (fs : List Text) (f t : Text) :
    Reader.chars { state := .inQuoted, field := f, fields := fs }
      (t.flatMap fun c => if c = '"' then ['"', '"'] else [c]) =
      .ok { state := .inQuoted, field := f ++ t, fields := fs } := by
  induction t generalizing f with
  | nil => simp [Reader.chars]
  | cons c t ih =>
    rw [List.flatMap_cons]
    by_cases hc : c = '"'
    · subst hc
      simp only [if_true, List.cons_append, List.nil_append, Reader.chars, Reader.char,
        Reader.add]
      rw [ih]
      simp
    · simp only [if_neg hc, List.cons_append, List.nil_append, Reader.chars, Reader.char,
        Reader.add]
      rw [ih]
      simp

/-- Reading a written field at the start of a field. -/
theorem chars_writeField (s : RState) (hs : s = .startRecord ∨ s = .startField)
    (fs : List Text) (t : Text) :
    Reader.chars { state := s, field := [], fields := fs } (writeField t) =
      .ok { state := .quoteInQuoted, field := t, fields := fs } := by
  have h1 : Reader.char { state := s, field := [], fields := fs } '"' =
      .ok { state := .inQuoted, field := [], fields := fs } := by
    rcases hs with rfl | rfl <;> simp [Reader.char, isNl, Reader.startField]
  unfold writeField
  rw [List.cons_append, Reader.chars, h1]
  simp only
  rw [chars_append, chars_quoted]
  simp [Reader.chars, Reader.char]

/-- A field as it may stand in a file: quoted, or plain text without commas, quotes and
line ends. -/
inductive Written : Text → Text → Prop
  | quoted (t : Text) : Written t (writeField t)
  | plain (t : Text) : (∀ c ∈ t, c ≠ ',' ∧ c ≠ '"' ∧ isNl c = false) → Written t t

theorem chars_inField (fs : List Text) (f t : Text)
    (h : ∀ c ∈ t, c ≠ ',' ∧ c ≠ '"' ∧ isNl c = false) :
    Reader.chars { state := .inField, field := f, fields := fs } t =
      .ok { state := .inField, field := f ++ t, fields := fs } := by
  induction t generalizing f with
  | nil => simp [Reader.chars]
  | cons c t ih =>
    obtain ⟨h1, h2, h3⟩ := h c (by simp)
    simp only [Reader.chars, Reader.char, h3, Bool.false_eq_true, if_false, if_neg h1,
      Reader.add]
    rw [ih _ fun d hd => h d (by simp [hd])]
    simp

/-- A state in which `field` is complete. -/
def Done (s : RState) (t : Text) : Prop :=
  s = .quoteInQuoted ∨ s = .inField ∨ ((s = .startField ∨ s = .startRecord) ∧ t = [])

theorem chars_written (s : RState) (hs : s = .startRecord ∨ s = .startField)
    (fs : List Text) {t w : Text} (h : Written t w) :
    ∃ s', Reader.chars { state := s, field := [], fields := fs } w =
      .ok { state := s', field := t, fields := fs } ∧
      Done s' t ∧ (s' = .startRecord → s = .startRecord ∧ w = []) := by
  cases h with
  | quoted => exact ⟨_, chars_writeField s hs fs t, Or.inl rfl, by simp⟩
  | plain h =>
    cases t with
    | nil =>
      refine ⟨s, rfl, Or.inr (Or.inr ⟨hs.symm, rfl⟩), fun h => ⟨h, rfl⟩⟩
    | cons c t =>
      obtain ⟨h1, h2, h3⟩ := h c (by simp)
      refine ⟨.inField, ?_, Or.inr (Or.inl rfl), by simp⟩
      have : Reader.char { state := s, field := [], fields := fs } c =
          .ok { state := .inField, field := [c], fields := fs } := by
        rcases hs with rfl | rfl <;>
          simp [Reader.char, h3, Reader.startField, h1, h2, Reader.add]
      simp only [Reader.chars, this]
      rw [chars_inField _ _ _ fun d hd => h d (by simp [hd])]
      rfl

/-- The rest of a line after a complete field. -/
theorem chars_rest (fs : List Text) (t : Text) (s : RState) (hd : Done s t)
    (hs : s ≠ .startRecord) {ts ws : List Text} (h : List.Forall₂ Written ts ws) :
    ∃ s' t', Reader.chars { state := s, field := t, fields := fs }
        ((ws.map fun w => ',' :: w).flatten) =
        .ok { state := s', field := t', fields := fs ++ (t :: ts).dropLast } ∧
      Done s' t' ∧ s' ≠ .startRecord ∧ (t :: ts).getLast? = some t' := by
  induction h generalizing fs t s with
  | nil => exact ⟨s, t, by simp [Reader.chars], hd, hs, rfl⟩
  | cons h _ ih =>
    rename_i t2 w2 ts ws _
    have hc : Reader.char { state := s, field := t, fields := fs } ',' =
        .ok { state := .startField, field := [], fields := fs ++ [t] } := by
      rcases hd with rfl | rfl | ⟨rfl | rfl, rfl⟩
      · simp [Reader.char, Reader.save]
      · simp [Reader.char, isNl, Reader.save]
      · simp [Reader.char, Reader.startField, isNl, Reader.save]
      · exact absurd rfl hs
    obtain ⟨s2, e2, d2, n2⟩ := chars_written .startField (Or.inr rfl) (fs ++ [t]) h
    have hs2 : s2 ≠ .startRecord := fun e => by
      have := (n2 e).1
      cases this
    obtain ⟨s3, t3, e3, d3, h3, l3⟩ := ih (fs ++ [t]) t2 s2 d2 hs2
    refine ⟨s3, t3, ?_, d3, h3, by simpa using l3⟩
    simp only [List.map_cons, List.flatten_cons, List.cons_append, Reader.chars, hc]
    rw [chars_append, e2]
    simp only
    rw [e3]
    simp

theorem join_flatten (w : Text) (ws : List Text) :
    Text.joinComma (w :: ws) = w ++ (ws.map fun w => ',' :: w).flatten := by
  induction ws generalizing w with
  | nil => simp [Text.joinComma, List.intercalate]
  | cons v ws ih =>
    have : Text.joinComma (w :: v :: ws) = w ++ ',' :: Text.joinComma (v :: ws) := by
      simp [Text.joinComma, List.intercalate, List.intersperse]
    rw [this, ih v]
    simp

theorem done_line {s : RState} {t : Text} (hd : Done s t) (hs : s ≠ .startRecord)
    (fs : List Text) (e : Text) (he : e = [] ∨ e = ['\n']) :
    ∃ r, Reader.chars { state := s, field := t, fields := fs } e = .ok r ∧
      r.endLine = { fields := fs ++ [t] } := by
  rcases he with rfl | rfl
  · refine ⟨_, rfl, ?_⟩
    rcases hd with rfl | rfl | ⟨rfl | rfl, rfl⟩
    · rfl
    · rfl
    · rfl
    · exact absurd rfl hs
  · rcases hd with rfl | rfl | ⟨rfl | rfl, rfl⟩
    · exact ⟨_, by simp [Reader.chars, Reader.char, isNl]; rfl, rfl⟩
    · exact ⟨_, by simp [Reader.chars, Reader.char, isNl]; rfl, rfl⟩
    · exact ⟨_, by simp [Reader.chars, Reader.char, Reader.startField, isNl]; rfl, rfl⟩
    · exact absurd rfl hs

/-- C55: the fields of a line, each quoted or plain, joined by commas, with or without
the end of line, are read back.  The line must not be empty. -/
theorem record_of_fields {ts ws : List Text} (h : List.Forall₂ Written ts ws)
    (hne : ws ≠ [] ∧ ws ≠ [[]]) (e : Text) (he : e = [] ∨ e = ['\n']) :
    Record (Text.joinComma ws ++ e) ts := by
  cases h with
  | nil => exact absurd rfl hne.1
  | cons h hs =>
    rename_i t w ts ws
    obtain ⟨s1, e1, d1, n1⟩ := chars_written .startRecord (Or.inl rfl) [] h
    unfold Record Reader.line
    rw [join_flatten, List.append_assoc, chars_append]
    have e1' : Reader.chars {} w = _ := e1
    rw [e1']
    simp only
    by_cases hs1 : s1 = .startRecord
    · obtain ⟨-, rfl⟩ := n1 hs1
      subst hs1
      have ht : t = [] := by
        rcases d1 with d | d | ⟨-, d⟩
        · cases d
        · cases d
        · exact d
      subst ht
      cases hs with
      | nil => exact absurd rfl hne.2
      | cons h2 hs2 =>
        rename_i t2 w2 ts2 ws2
        have hc : Reader.char { state := .startRecord, field := [], fields := [] } ',' =
            .ok { state := .startField, field := [], fields := [[]] } := by
          simp [Reader.char, Reader.startField, isNl, Reader.save]
        simp only [List.map_cons, List.flatten_cons, List.cons_append, Reader.chars, hc]
        obtain ⟨s2, e2, d2, n2⟩ := chars_written .startField (Or.inr rfl) [[]] h2
        have hs2' : s2 ≠ .startRecord := fun e => by
          have := (n2 e).1
          cases this
        rw [List.append_assoc, chars_append, e2]
        simp only
        obtain ⟨s3, t3, e3, d3, h3, l3⟩ := chars_rest [[]] t2 s2 d2 hs2' hs2
        rw [chars_append, e3]
        simp only
        obtain ⟨r4, e4, f4⟩ := done_line d3 h3 ([[]] ++ (t2 :: ts2).dropLast) e he
        rw [e4]
        simp only [f4]
        obtain ⟨ys, hys⟩ := List.getLast?_eq_some_iff.1 l3
        rw [hys]
        simp
    · obtain ⟨s3, t3, e3, d3, h3, l3⟩ := chars_rest [] t s1 d1 hs1 hs
      rw [chars_append, e3]
      simp only
      obtain ⟨r4, e4, f4⟩ := done_line d3 h3 ([] ++ (t :: ts).dropLast) e he
      rw [e4]
      simp only [f4]
      obtain ⟨ys, hys⟩ := List.getLast?_eq_some_iff.1 l3
      rw [hys]
      simp

example := record_of_fields (.cons (.quoted "x,y".toList) (.cons (.plain "1".toList (by decide)) .nil))
  ⟨by simp, by simp⟩ ['\n'] (Or.inr rfl)

/-- C55: a row written by the library's writer is read back, whatever its fields. -/
theorem record_written (row : List Text) (h : row ≠ []) : Record (writeRow row) row := by
  refine record_of_fields (ws := row.map writeField) ?_ ?_ ['\n'] (Or.inr rfl)
  · clear h
    induction row with
    | nil => exact .nil
    | cons t row ih => exact .cons (.quoted t) ih
  · refine ⟨by simpa using h, ?_⟩
    intro e
    cases row with
    | nil => exact h rfl
    | cons t row => simp [writeField] at e

example := record_written ["0.1".toList, "red, \"dark\"".toList] (by simp)

/-- C55: an empty line has no fields. -/
theorem record_empty : Record ['\n'] [] := rfl

/-! ## The inputs -/

/-- The columns which are kept: the fields of a configuration and the two naming a
solution. -/
def Known (k : Text) : Prop :=
  (∃ f : CField, k = f.name.toList) ∨ k = "filename".toList ∨ k = "solution_name".toList

theorem mem_columns (k : Text) : k ∈ columns ↔ Known k := by
  have hall : ∀ f : CField, f ∈ CField.all := by
    intro f
    cases f with
    | label => decide
    | s f => cases f <;> decide
  unfold columns Known
  simp only [List.mem_append, List.mem_map, List.mem_cons, List.not_mem_nil, or_false]
  constructor
  · rintro (⟨f, -, rfl⟩ | h)
    · exact Or.inl ⟨f, rfl⟩
    · exact Or.inr h
  · rintro (⟨f, rfl⟩ | h)
    · exact Or.inl ⟨f, hall f, rfl⟩
    · exact Or.inr h

/-- What the code does to a row of the table: the value of each known column, with the
label replaced. -/
structure IsInput (header row : List Text) (label : Text) (d : Dict Text (Option Text)) :
    Prop where
  label : Dict.get? d "label".toList = some (some label)
  column : ∀ (j : ℕ) (k : Text), header[j]? = some k → k ≠ "label".toList → Known k →
    Dict.get? d k = some row[j]?
  other : ∀ k, k ≠ "label".toList → (k ∉ header ∨ ¬ Known k) → Dict.get? d k = none

/-- Filling a dictionary from names and values. -/
def fill (d : Dict Text (Option Text)) : List Text → List Text → Dict Text (Option Text)
  | [], _ => d
  | k :: ks, vs => fill (Dict.set d k vs.head?) ks vs.tail

theorem dictRow_fill (ks vs : List Text) : dictRow ks vs = fill [] ks vs := by
  have key : ∀ (d : Dict Text (Option Text)),
      (ks.drop vs.length).foldl (fun d k => Dict.set d k none)
        ((ks.zip vs).foldl (fun d p => Dict.set d p.1 (some p.2)) d) = fill d ks vs := by
    induction ks generalizing vs with
    | nil => intro d; simp [fill]
    | cons k ks ih =>
      intro d
      cases vs with
      | nil =>
        have := ih [] (Dict.set d k none)
        simpa [fill] using this
      | cons v vs =>
        have := ih vs (Dict.set d k (some v))
        simpa [fill] using this
  exact key []

theorem fill_other (d : Dict Text (Option Text)) (ks vs : List Text) (k : Text)
    (h : k ∉ ks) : Dict.get? (fill d ks vs) k = Dict.get? d k := by
  induction ks generalizing d vs with
  | nil => rfl
  | cons a ks ih =>
    simp only [List.mem_cons, not_or] at h
    rw [fill, ih _ _ h.2, Dict.get?_set_ne _ _ (Ne.symm h.1)]

theorem fill_get (d : Dict Text (Option Text)) (ks vs : List Text) (hn : ks.Nodup) (j : ℕ)
    (k : Text) (h : ks[j]? = some k) : Dict.get? (fill d ks vs) k = some vs[j]? := by
  induction ks generalizing d vs j with
  | nil => simp at h
  | cons a ks ih =>
    obtain ⟨h1, h2⟩ := List.nodup_cons.1 hn
    rw [fill]
    cases j with
    | zero =>
      simp only [List.getElem?_cons_zero, Option.some.injEq] at h
      subst h
      rw [fill_other _ _ _ _ h1, Dict.get?_set_self]
      cases vs <;> rfl
    | succ j =>
      rw [ih _ _ h2 j (by simpa using h)]
      cases vs <;> simp

theorem get?_filter (d : Dict Text (Option Text)) (p : Text → Bool) (k : Text) :
    Dict.get? (d.filter fun q => p q.1) k = if p k then Dict.get? d k else none := by
  induction d with
  | nil => simp
  | cons q d ih =>
    obtain ⟨a, v⟩ := q
    rw [List.filter_cons]
    by_cases ha : a = k
    · subst ha
      by_cases hp : p a = true
      · simp [hp, Dict.get?]
      · simp only [hp, if_false, Bool.false_eq_true, ih]
    · by_cases hp : p a = true
      · simp only [hp, if_true, Dict.get?, if_neg ha, ih]
      · simp only [hp, if_false, Bool.false_eq_true, Dict.get?, if_neg ha, ih]

theorem label_column : "label".toList ∈ columns := by decide

theorem isInput_row (header row : List Text) (hn : header.Nodup) (label : Text) :
    IsInput header row label
      ((Dict.set (dictRow header row) "label".toList (some label)).filter
        fun p => decide (p.1 ∈ columns)) := by
  rw [dictRow_fill]
  refine ⟨?_, ?_, ?_⟩
  · rw [get?_filter _ fun k => decide (k ∈ columns)]
    rw [if_pos (decide_eq_true label_column), Dict.get?_set_self]
  · intro j k hj hk hc
    rw [← mem_columns] at hc
    rw [get?_filter _ fun k => decide (k ∈ columns), if_pos (decide_eq_true hc),
      Dict.get?_set_ne _ _ (Ne.symm hk), fill_get _ _ _ hn j k hj]
  · intro k hk h
    rw [← mem_columns] at h
    rw [get?_filter _ fun k => decide (k ∈ columns)]
    by_cases hc : k ∈ columns
    · rw [if_pos (decide_eq_true hc), Dict.get?_set_ne _ _ (Ne.symm hk)]
      rcases h with h | h
      · rw [fill_other _ _ _ _ h]; rfl
      · exact absurd hc h
    · rw [if_neg (by simpa using hc)]

/-- C55: in a file whose data lines are whole records, the first giving distinct column
names, every later line with fields gives one input, in order; comment lines give
none. -/
theorem csv_inputs (sniff : Text → Except PyErr (List Text)) (lines : List Text)
    (label : Text) (header : List Text) (rows : List (List Text)) (line : Text)
    (guess : List Text) (hfirst : (dataLines lines).head? = some line)
    (hs : sniff line = .ok guess) (hg : guess ≠ [])
    (hr : List.Forall₂ Record (dataLines lines) (header :: rows)) (hn : header.Nodup) :
    ∃ inputs, get_csv_inputs sniff lines label = .ok inputs ∧
      List.Forall₂ (fun row d => IsInput header row label d)
        (rows.filter (· ≠ [])) inputs := by
  have hh : has_csv_header sniff lines = .ok true := by
    unfold has_csv_header
    cases hl : dataLines lines with
    | nil => simp [hl] at hfirst
    | cons l ls =>
      simp only [hl, List.head?_cons, Option.some.injEq] at hfirst
      subst hfirst
      have : 0 < guess.length := List.length_pos_iff.2 hg
      simp [hs, this]
  unfold get_csv_inputs
  simp only [hh, if_true, dictReader, readRows_records hr]
  refine ⟨_, rfl, ?_⟩
  generalize rows.filter (· ≠ []) = l
  induction l with
  | nil => exact .nil
  | cons row l ih => exact .cons (isInput_row header row hn label) ih

example := csv_inputs (fun _ => .ok [[]])
  ["# a comment\n".toList, "γ,start\n".toList, "0.1,5\n".toList] "run".toList
  ["γ".toList, "start".toList] [["0.1".toList, "5".toList]] "γ,start\n".toList [[]] rfl rfl
  (by simp) (.cons rfl (.cons rfl .nil)) (by decide)

/-- C55: only when no field at all is found in the first data line are the rows read
without a header, each as the fields of an input in their order. -/
theorem csv_inputs_unnamed (sniff : Text → Except PyErr (List Text)) (lines : List Text)
    (label : Text) (rows : List (List Text)) (line : Text)
    (hfirst : (dataLines lines).head? = some line) (hs : sniff line = .ok [])
    (hr : List.Forall₂ Record (dataLines lines) rows) :
    ∃ inputs, get_csv_inputs sniff lines label = .ok inputs ∧
      List.Forall₂ (fun row d => IsInput (SField.all.map fun f => f.name.toList) row label d)
        (rows.filter (· ≠ [])) inputs := by
  have hh : has_csv_header sniff lines = .ok false := by
    unfold has_csv_header
    cases hl : dataLines lines with
    | nil => simp [hl] at hfirst
    | cons l ls =>
      simp only [hl, List.head?_cons, Option.some.injEq] at hfirst
      subst hfirst
      simp [hs]
  unfold get_csv_inputs
  simp only [hh, Bool.false_eq_true, if_false, dictReaderNamed, readRows_records hr]
  refine ⟨_, rfl, ?_⟩
  generalize rows.filter (· ≠ []) = l
  have hn : (SField.all.map fun f => f.name.toList).Nodup := by decide
  induction l with
  | nil => exact .nil
  | cons row l ih => exact .cons (isInput_row _ row hn label) ih

/-- A blank line in front of the rows. -/
example := csv_inputs_unnamed (fun _ => .ok []) ["\n".toList, "0,5\n".toList] "run".toList
  [[], ["0".toList, "5".toList]] "\n".toList rfl rfl (.cons rfl (.cons rfl .nil))

/-! ## Whole files -/

/-- A line of a file: a comment or a row. -/
inductive Item where
  | comment (t : Text)
  | row (r : List Text)

/-- The text of an item. -/
def Item.text : Item → Text
  | .comment t => '#' :: t ++ ['\n']
  | .row r => writeRow r

/-- The rows among items. -/
def rowsOf : List Item → List (List Text)
  | [] => []
  | .comment _ :: l => rowsOf l
  | .row r :: l => r :: rowsOf l

/-- The comments among items. -/
def commentsOf : List Item → List Text
  | [] => []
  | .comment t :: l => t :: commentsOf l
  | .row _ :: l => commentsOf l

/-- One line, not empty if a row. -/
def Item.OneLine : Item → Prop
  | .comment t => '\n' ∉ t
  | .row r => r ≠ [] ∧ ∀ t ∈ r, '\n' ∉ t

theorem rawLines_line (a : Text) (h : '\n' ∉ a) (t : Text) :
    rawLines (a ++ '\n' :: t) = (a ++ ['\n']) :: rawLines t := by
  induction a with
  | nil => simp [rawLines]
  | cons c a ih =>
    simp only [List.mem_cons, not_or] at h
    simp [rawLines, Ne.symm h.1, ih h.2]

theorem writeField_no_nl (t : Text) (h : '\n' ∉ t) : '\n' ∉ writeField t := by
  unfold writeField
  simp only [List.cons_append, List.mem_cons, List.mem_append, List.mem_flatMap, not_or]
  refine ⟨by decide, ?_, by simp⟩
  rintro ⟨c, hc, hm⟩
  by_cases e : c = '"'
  · simp [e] at hm
  · rw [if_neg e, List.mem_singleton] at hm
    exact h (hm ▸ hc)

theorem join_no_nl (l : List Text) (h : ∀ t ∈ l, '\n' ∉ t) : '\n' ∉ Text.joinComma l := by
  cases l with
  | nil => simp [Text.joinComma]
  | cons w ws =>
    rw [join_flatten]
    simp only [List.mem_append, List.mem_flatten, List.mem_map, not_or]
    refine ⟨h w (by simp), ?_⟩
    rintro ⟨x, ⟨v, hv, rfl⟩, hm⟩
    rcases List.mem_cons.1 hm with hm | hm
    · exact absurd hm (by decide)
    · exact h v (by simp [hv]) hm

theorem item_text (i : Item) (h : i.OneLine) : ∃ a, i.text = a ++ ['\n'] ∧ '\n' ∉ a := by
  cases i with
  | comment t =>
    refine ⟨'#' :: t, rfl, ?_⟩
    simp only [List.mem_cons, not_or]
    exact ⟨by decide, h⟩
  | row r =>
    refine ⟨_, rfl, join_no_nl _ ?_⟩
    intro t ht
    obtain ⟨u, hu, rfl⟩ := List.mem_map.1 ht
    exact writeField_no_nl u (h.2 u hu)

theorem rawLines_items (items : List Item) (h : ∀ i ∈ items, i.OneLine) :
    rawLines ((items.map Item.text).flatten) = items.map Item.text := by
  induction items with
  | nil => rfl
  | cons i items ih =>
    obtain ⟨a, ha, hn⟩ := item_text i (h i (by simp))
    simp only [List.map_cons, List.flatten_cons, ha, List.append_assoc, List.cons_append,
      List.nil_append]
    rw [rawLines_line a hn, ih fun j hj => h j (by simp [hj])]

theorem strip_head {c : Char} {t : Text} (hc : Text.isSpace c = false) :
    ∃ u, Text.strip (c :: t) = c :: u := by
  have hl : Text.lstrip (c :: t) = c :: t := by
    unfold Text.lstrip
    rw [List.dropWhile_cons_of_neg (by simp [hc])]
  unfold Text.strip
  rw [hl]
  unfold Text.rstrip
  rw [List.reverse_cons]
  have : ∀ l : Text, ∃ u, ((l ++ [c]).dropWhile Text.isSpace).reverse = c :: u := by
    intro l
    induction l with
    | nil => exact ⟨[], by simp [hc]⟩
    | cons d l ih =>
      by_cases hd : Text.isSpace d = true
      · simpa [List.dropWhile, hd] using ih
      · refine ⟨(d :: l).reverse, ?_⟩
        rw [List.cons_append, List.dropWhile_cons_of_neg (by simpa using hd)]
        simp
  exact this t.reverse

theorem strip_nl (t : Text) (ht : ∃ c ∈ t, Text.isSpace c = false) :
    Text.strip (t ++ ['\n']) = Text.strip t := by
  unfold Text.strip
  have hl : Text.lstrip (t ++ ['\n']) = Text.lstrip t ++ ['\n'] := by
    obtain ⟨c, hc, hs⟩ := ht
    unfold Text.lstrip
    induction t with
    | nil => simp at hc
    | cons d t ih =>
      by_cases hd : Text.isSpace d = true
      · rw [List.cons_append, List.dropWhile_cons_of_pos hd, List.dropWhile_cons_of_pos hd]
        rcases List.mem_cons.1 hc with rfl | hc
        · simp [hs] at hd
        · exact ih hc
      · rw [List.cons_append, List.dropWhile_cons_of_neg hd, List.dropWhile_cons_of_neg hd]
        rfl
  rw [hl]
  unfold Text.rstrip
  rw [List.reverse_append, List.reverse_singleton, List.singleton_append,
    List.dropWhile_cons_of_pos (by decide)]

theorem comment_isComment (t : Text) : isComment (Item.comment t).text = true := by
  obtain ⟨u, hu⟩ := strip_head (c := '#') (t := t ++ ['\n']) (by decide)
  unfold isComment
  rw [show (Item.comment t).text = '#' :: (t ++ ['\n']) from rfl, hu]
  rfl

theorem row_not_comment (r : List Text) (h : r ≠ []) : isComment (Item.row r).text = false := by
  cases r with
  | nil => exact absurd rfl h
  | cons f r =>
    have e : ∃ v, (Item.row (f :: r)).text = '"' :: v := by
      have e : (Item.row (f :: r)).text = writeRow (f :: r) := rfl
      rw [e]
      unfold writeRow
      rw [List.map_cons, join_flatten]
      unfold writeField
      rw [List.cons_append, List.cons_append, List.cons_append]
      exact ⟨_, rfl⟩
    obtain ⟨v, e⟩ := e
    obtain ⟨u, hu⟩ := strip_head (c := '"') (t := v) (by decide)
    unfold isComment
    rw [e, hu, List.head?_cons]
    decide

theorem dataLines_items (items : List Item) (h : ∀ i ∈ items, i.OneLine) :
    dataLines (items.map Item.text) = (rowsOf items).map writeRow := by
  induction items with
  | nil => rfl
  | cons i items ih =>
    have ih := ih fun j hj => h j (by simp [hj])
    unfold dataLines at ih ⊢
    cases i with
    | comment t => simp [comment_isComment, rowsOf, ih]
    | row r =>
      have := row_not_comment r (h (.row r) (by simp)).1
      simp [this, rowsOf, ih]
      rfl

theorem rowsOf_ne (items : List Item) (h : ∀ i ∈ items, i.OneLine) :
    ∀ r ∈ rowsOf items, r ≠ [] := by
  induction items with
  | nil => simp [rowsOf]
  | cons i items ih =>
    have ih := ih fun j hj => h j (by simp [hj])
    cases i with
    | comment t => exact ih
    | row r =>
      intro s hs
      rcases List.mem_cons.1 hs with rfl | hs
      · exact (h (.row s) (by simp)).1
      · exact ih s hs

/-- C55: a text file of comment lines and rows, each value on one line, whose first row
gives distinct column names, yields one input per later row, in order, with the known
columns and the label, and its comments. -/
theorem csv_file_inputs (sniff : Text → Except PyErr (List Text)) (items : List Item)
    (label : Text) (header : List Text) (rows : List (List Text)) (guess : List Text)
    (h : ∀ i ∈ items, i.OneLine) (hr : rowsOf items = header :: rows) (hn : header.Nodup)
    (hs : sniff (writeRow header) = .ok guess) (hg : guess ≠ []) :
    ∃ inputs,
      get_csv_inputs sniff (rawLines (items.map Item.text).flatten) label = .ok inputs ∧
      List.Forall₂ (fun row d => IsInput header row label d) rows inputs := by
  have hne := rowsOf_ne items h
  rw [hr] at hne
  rw [rawLines_items items h]
  have hd := dataLines_items items h
  rw [hr] at hd
  have key := csv_inputs sniff (items.map Item.text) label header rows (writeRow header)
    guess (by rw [hd]; rfl) hs hg (by
      rw [hd]
      have : ∀ l : List (List Text), (∀ r ∈ l, r ≠ []) →
          List.Forall₂ Record (l.map writeRow) l := by
        intro l
        induction l with
        | nil => intro _; exact .nil
        | cons r l ih =>
          intro hl
          exact .cons (record_written r (hl r (by simp)))
            (ih fun s hs => hl s (by simp [hs]))
      exact this _ hne) hn
  have hf : rows.filter (· ≠ []) = rows := by
    rw [List.filter_eq_self]
    intro r hr
    simpa using hne r (by simp [hr])
  rwa [hf] at key

/-- C55: the comments of a file are its comment lines without marker and blanks. -/
theorem csv_comments (items : List Item) (h : ∀ i ∈ items, i.OneLine)
    (ht : ∀ t ∈ commentsOf items, Text.Trim t) :
    comments (rawLines (items.map Item.text).flatten) = commentsOf items := by
  rw [rawLines_items items h]
  induction items with
  | nil => rfl
  | cons i items ih =>
    unfold comments at ih ⊢
    have h' : ∀ j ∈ items, j.OneLine := fun j hj => h j (by simp [hj])
    cases i with
    | row r =>
      have := row_not_comment r (h (.row r) (by simp)).1
      simpa [this, commentsOf] using ih h' ht
    | comment t =>
      have hs : Text.strip (Item.comment t).text = '#' :: t := by
        have e : (Item.comment t).text = '#' :: t ++ ['\n'] := rfl
        rw [e, strip_nl _ ⟨'#', by simp, by decide⟩, Text.strip_of]
        have := ht t (by simp [commentsOf])
        refine ⟨by simp; decide, ?_⟩
        intro c hc
        cases t with
        | nil =>
          simp only [List.getLast?_singleton, Option.some.injEq] at hc
          subst hc
          decide
        | cons d t => exact this.2 c (by simpa using hc)
      have := ih h' fun u hu => ht u (by simp [commentsOf, hu])
      simpa [comment_isComment, commentsOf, hs] using this

/-! ## A concrete file -/

/-- A file with comments, a header with two known columns and an unknown one, and rows
one of which is short. -/
def witItems : List Item :=
  [.comment "nworkers=4".toList, .row ["γ".toList, "colour".toList, "start".toList],
    .row ["0.1".toList, "red, \"dark\"".toList, "0".toList], .comment "done".toList,
    .row ["#2".toList]]

theorem witItems_lines : ∀ i ∈ witItems, i.OneLine := by
  intro i hi
  simp only [witItems, List.mem_cons, List.not_mem_nil, or_false] at hi
  rcases hi with rfl | rfl | rfl | rfl | rfl <;> simp only [Item.OneLine] <;> decide

example : ∃ inputs,
    get_csv_inputs (fun _ => .ok [[]]) (rawLines (witItems.map Item.text).flatten)
      "run".toList = .ok inputs ∧
    List.Forall₂ (fun row d => IsInput ["γ".toList, "colour".toList, "start".toList] row
      "run".toList d)
      [["0.1".toList, "red, \"dark\"".toList, "0".toList], ["#2".toList]] inputs :=
  csv_file_inputs _ witItems _ _ _ [[]] witItems_lines rfl (by decide) rfl (by simp)

example : comments (rawLines (witItems.map Item.text).flatten) =
    ["nworkers=4".toList, "done".toList] :=
  csv_comments witItems witItems_lines (by
    intro t ht
    simp only [witItems, commentsOf, List.mem_cons, List.not_mem_nil, or_false] at ht
    rcases ht with rfl | rfl <;> exact Text.trim_of_all (by decide))

/-! ## Where the property fails -/

/-- C55: the check for a header finds one in every file with a non-blank data line. -/
theorem header_always (sniff : Text → Except PyErr (List Text)) (lines : List Text)
    (line : Text) (guess : List Text) (h : (dataLines lines).head? = some line)
    (hs : sniff line = .ok guess) (hg : guess ≠ []) :
    has_csv_header sniff lines = .ok true := by
  unfold has_csv_header
  cases hl : dataLines lines with
  | nil => simp [hl] at h
  | cons l ls =>
    simp only [hl, List.head?_cons, Option.some.injEq] at h
    subst h
    have : 0 < guess.length := List.length_pos_iff.2 hg
    simp [hs, this]

example := header_always (fun _ => .ok [[]]) ["0.1,5\n".toList] "0.1,5\n".toList [[]] rfl rfl
  (by simp)

/-- C55 fails for a file without a header: its first row is taken as the header, so that
a file of `n + 1` rows gives `n` inputs, and no value is kept under a known column when
the first row holds no column names. -/
theorem headerless_loses_row (sniff : Text → Except PyErr (List Text)) (lines : List Text)
    (label : Text) (first : List Text) (rows : List (List Text)) (line : Text)
    (guess : List Text) (hfirst : (dataLines lines).head? = some line)
    (hs : sniff line = .ok guess) (hg : guess ≠ [])
    (hr : List.Forall₂ Record (dataLines lines) (first :: rows)) (hn : first.Nodup)
    (hrows : ∀ r ∈ rows, r ≠ []) (hk : ∀ k ∈ first, ¬ Known k) :
    ∃ inputs, get_csv_inputs sniff lines label = .ok inputs ∧
      inputs.length = rows.length ∧
      ∀ d ∈ inputs, ∀ k, k ≠ "label".toList → Dict.get? d k = none := by
  obtain ⟨inputs, h, hf⟩ := csv_inputs sniff lines label first rows line guess hfirst hs hg
    hr hn
  have hrw : rows.filter (· ≠ []) = rows := by
    rw [List.filter_eq_self]
    intro r hr
    simpa using hrows r hr
  rw [hrw] at hf
  refine ⟨inputs, h, hf.length_eq.symm, ?_⟩
  intro d hd k hkl
  obtain ⟨i, hi, rfl⟩ := List.getElem_of_mem hd
  have := (List.forall₂_iff_get.1 hf).2 i (by rw [hf.length_eq]; exact hi) hi
  refine this.other k hkl ?_
  by_cases hm : k ∈ first
  · exact Or.inr (hk k hm)
  · exact Or.inl hm

example : ∃ inputs,
    get_csv_inputs (fun _ => .ok [[]]) (["0.1,1\n".toList, "0.2,2\n".toList]) [] = .ok inputs ∧
      inputs.length = 1 ∧ ∀ d ∈ inputs, ∀ k, k ≠ "label".toList → Dict.get? d k = none :=
  headerless_loses_row _ _ _ ["0.1".toList, "1".toList] [["0.2".toList, "2".toList]]
    "0.1,1\n".toList [[]] rfl rfl (by simp)
    (.cons rfl (.cons rfl .nil)) (by decide) (by decide) (fun k hk => by
      rw [← mem_columns]
      revert k
      decide)

/-- C55 fails for a quoted value over several lines one of which starts with `#`: that
line is taken out of the value as a comment. -/
theorem multiline_value_loses_line :
    ∃ (row : List Text) (inputs : List (Dict Text (Option Text))),
      get_csv_inputs (fun _ => .ok [[]])
        (rawLines (writeRow ["filename".toList] ++ writeRow row)) [] = .ok inputs ∧
      row = ["a\n#b\nc".toList] ∧
      inputs.map (fun d => Dict.get? d "filename".toList) = [some (some "a\nc".toList)] :=
  ⟨["a\n#b\nc".toList], _, rfl, rfl, by decide⟩

end Csv

end DiscSolver
