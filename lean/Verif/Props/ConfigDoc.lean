import Verif.Lemmas.ConfigDoc
import Verif.Props.ConfigFile
import Mathlib.Data.List.Nodup

/-!
# Properties: what a configuration file written by hand means

C101.
-/

namespace DiscSolver.ConfDoc

open Cfg
open Text hiding none

/-! ## From the sections read to what the file says -/

/-- What `d[option]` finds is what the file says. -/
theorem lookup_says (d : Doc) (h : d.Good) (secs : Dict Text (Dict Text (List Text)))
    (h1 : ∀ s, (secs.get? s).isSome = true ↔ s ∈ d.names)
    (h2 : ∀ s e k r, secs.get? s = some e → ((s, k), r) ∈ d.options →
        ∃ l, e.get? k = some l ∧ joinValue l = strip r)
    (h3 : ∀ s e k, secs.get? s = some e → (∀ r, ((s, k), r) ∉ d.options) → e.get? k = none)
    (s : Text) (e : Dict Text (List Text)) (he : secs.get? s = some e) (k w : Text) :
    lookup secs e k = some w ↔ d.Says s k w := by
  have hsec : s ∈ d.names := (h1 s).1 (by rw [he]; rfl)
  have huniq : ∀ (x : Text × Text) (r r' : Text), (x, r) ∈ d.options → (x, r') ∈ d.options →
      r = r' := by
    intro x r r' hr hr'
    have := List.inj_on_of_nodup_map h.unique hr hr' rfl
    injection this
  have hev : ∀ x k r, ((x, k), r) ∈ d.options → x ∈ d.names := by
    intro x k r hm
    obtain ⟨p, hp, hm⟩ := List.mem_flatMap.1 hm
    have : x = p.name := bodyOptions_sec (sec := p.name) (es := p.body) hm
    rw [this]
    exact List.mem_map.2 ⟨p, hp, rfl⟩
  unfold lookup
  by_cases hown : ∃ r, ((s, k), r) ∈ d.options
  · obtain ⟨r, hr⟩ := hown
    obtain ⟨l, hl, hj⟩ := h2 s e k r he hr
    rw [hl]
    simp only [Option.some.injEq, hj]
    constructor
    · rintro rfl
      exact ⟨hsec, r, rfl, Or.inl hr⟩
    · rintro ⟨-, r', rfl, hr' | ⟨hno, -⟩⟩
      · rw [huniq _ _ _ hr hr']
      · exact absurd hr (hno r)
  · have hno : ∀ r, ((s, k), r) ∉ d.options := fun r hr => hown ⟨r, hr⟩
    rw [h3 s e k he hno]
    have hde : defaultSection = everywhere := rfl
    simp only [hde]
    by_cases hall : ∃ r, ((everywhere, k), r) ∈ d.options
    · obtain ⟨r, hr⟩ := hall
      obtain ⟨e', he'⟩ := Option.isSome_iff_exists.1 ((h1 everywhere).2 (hev _ _ _ hr))
      obtain ⟨l, hl, hj⟩ := h2 _ e' k r he' hr
      rw [he']
      simp only [hl, Option.map_some, Option.some.injEq, hj]
      constructor
      · rintro rfl
        exact ⟨hsec, r, rfl, Or.inr ⟨hno, hr⟩⟩
      · rintro ⟨-, r', rfl, hr' | ⟨-, hr'⟩⟩
        · exact absurd hr' (hno r')
        · rw [huniq _ _ _ hr hr']
    · have hno' : ∀ r, ((everywhere, k), r) ∉ d.options := fun r hr => hall ⟨r, hr⟩
      have hsil : ¬ d.Says s k w := by
        rintro ⟨-, r', rfl, hr' | ⟨-, hr'⟩⟩
        · exact hno r' hr'
        · exact hno' r' hr'
      cases he' : secs.get? everywhere with
      | none => simp only [reduceCtorEq, false_iff]; exact hsil
      | some e' =>
        simp only [h3 _ e' k he' hno', Option.map_none, reduceCtorEq, false_iff]
        exact hsil

/-- What `config.get` returns. -/
theorem get_doc (d : Doc) (h : d.Good) (s k fallback : Text) :
    ∃ secs, readFile d.text = .ok secs ∧
      (∀ v, Cfg.get secs s k fallback = .ok v ↔
        (d.Silent s k ∧ v = fallback) ∨ ∃ w, d.Says s k w ∧ Means (d.Says s) 10 w v) ∧
      (∀ e, Cfg.get secs s k fallback = .error e → e = .ConfigParserError) := by
  obtain ⟨secs, h0, h1, h2, h3⟩ := readFile_doc d h
  refine ⟨secs, h0, ?_⟩
  unfold Cfg.get
  cases hs : secs.get? s with
  | none =>
    have hno : s ∉ d.names := fun hm => by
      have := (h1 s).2 hm
      rw [hs] at this
      cases this
    refine ⟨fun v => ?_, fun e he => by cases he⟩
    simp only [Except.ok.injEq]
    constructor
    · rintro rfl
      exact Or.inl ⟨fun w hw => hno hw.1, rfl⟩
    · rintro (⟨-, rfl⟩ | ⟨w, hw, -⟩)
      · rfl
      · exact absurd hw.1 hno
  | some e =>
    have hl := lookup_says d h secs h1 h2 h3 s e hs
    simp only
    cases hk : lookup secs e k with
    | none =>
      have hsil : d.Silent s k := fun w hw => by
        rw [(hl k w).2 hw] at hk
        cases hk
      refine ⟨fun v => ?_, fun e he => by cases he⟩
      simp only [Except.ok.injEq]
      constructor
      · rintro rfl
        exact Or.inl ⟨hsil, rfl⟩
      · rintro (⟨-, rfl⟩ | ⟨w, hw, -⟩)
        · rfl
        · exact absurd hw (hsil w)
    | some w =>
      have hw := (hl k w).1 hk
      refine ⟨fun v => ?_, fun e he => interpolate_error _ _ _ _ he⟩
      simp only
      rw [interpolate_iff hl]
      constructor
      · intro hm; exact Or.inr ⟨w, hw, hm⟩
      · rintro (⟨hsil, -⟩ | ⟨w', hw', hm⟩)
        · exact absurd hw (hsil w)
        · have : some w' = some w := by rw [← hk]; exact ((hl k w').2 hw').symm
          injection this with this
          rw [← this]; exact hm

theorem section_home (f : CField) : f.section = home f.name.toList := by
  cases f with
  | label => decide
  | s f => cases f <;> decide

/-- The same with the fallbacks and converters of the model. -/
theorem conf_doc_meaning_aux (d : Doc) (h : d.Good) (c : ConfigInput) :
    get_input_from_conffile (some d.text) none = .ok c ↔
      ∀ f : CField, ∃ v : Text,
        ((d.Silent (home f.name.toList) f.name.toList ∧ v = f.fallback) ∨
          ∃ w, d.Says (home f.name.toList) f.name.toList w ∧
            Means (d.Says (home f.name.toList)) 10 w v) ∧
        c f = some (if f.hasConverter = true ∧ v = [] then "None".toList else v) := by
  obtain ⟨secs, h0, h1, h2, h3⟩ := readFile_doc d h
  have hg : ∀ (f : CField) v, Cfg.get secs f.section f.name.toList f.fallback = .ok v ↔
      (d.Silent (home f.name.toList) f.name.toList ∧ v = f.fallback) ∨
        ∃ w, d.Says (home f.name.toList) f.name.toList w ∧
          Means (d.Says (home f.name.toList)) 10 w v := by
    intro f v
    obtain ⟨secs', h0', hv, -⟩ := get_doc d h f.section f.name.toList f.fallback
    rw [h0] at h0'
    injection h0' with h0'
    subst h0'
    rw [hv v, section_home]
  have hmk : ∀ (v : Text) (f : CField),
      (if f.hasConverter then replace_empty_string (some v) else some v) =
        some (if f.hasConverter = true ∧ v = [] then "None".toList else v) := by
    intro v f
    by_cases hf : f.hasConverter = true
    · rw [if_pos hf]
      by_cases hv : v = []
      · subst hv; rw [if_pos ⟨hf, rfl⟩]; rfl
      · rw [if_neg (fun hh => hv hh.2), replace_of_ne hv]
    · rw [if_neg hf, if_neg (fun hh => hf hh.1)]
  constructor
  · intro hc f
    unfold get_input_from_conffile at hc
    simp only [h0] at hc
    cases hfs : CField.getOrder.findSome? (fun f => raised
        (Cfg.get secs f.section f.name.toList f.fallback)) with
    | some e => rw [hfs] at hc; cases hc
    | none =>
      rw [hfs] at hc
      simp only [add_overrides] at hc
      injection hc with hc
      have hn := List.findSome?_eq_none_iff.1 hfs f (mem_getOrder f)
      cases hv : Cfg.get secs f.section f.name.toList f.fallback with
      | error e => rw [hv] at hn; cases hn
      | ok v =>
        refine ⟨v, (hg f v).1 hv, ?_⟩
        rw [← hc]
        unfold ConfigInput.mk
        simp only [hv, gotValue]
        exact hmk v f
  · intro hc
    choose v hv hcv using hc
    rw [conf_file_input d.text secs h0 v (fun f => (hg f (v f)).2 (hv f))]
    congr 1
    funext f
    rw [hcv f]
    exact hmk (v f) f

theorem fallback_eq (f : CField) (v : Text) :
    v = f.fallback ↔ ∃ t, (f.name, t) ∈ fallbacks ∧ v = t.toList := by
  have h1 : ∃ t, (f.name, t) ∈ fallbacks ∧ f.fallback = t.toList := by
    cases f with
    | label => exact ⟨"default", by decide, rfl⟩
    | s f => cases f <;> exact ⟨_, by decide +kernel, rfl⟩
  have hn : (fallbacks.map Prod.fst).Nodup := by decide +kernel
  obtain ⟨t, ht, he⟩ := h1
  constructor
  · rintro rfl; exact ⟨t, ht, he⟩
  · rintro ⟨t', ht', rfl⟩
    have := List.inj_on_of_nodup_map hn ht ht' rfl
    injection this with _ this
    rw [he, this]

theorem converter_eq (f : CField) : f.hasConverter = true ↔ f.name ∈ mayBeEmpty := by
  cases f with
  | label => decide
  | s f => cases f <;> decide

/-- C101. What a file written by hand means: the configuration read from it gives each
option what the file says of it in its section, or in `DEFAULT` if the section is there
but does not mention the option, with the references replaced; the options the file says
nothing of are at their fallbacks; an empty text is `None` for the options which may be
left out.  There is no other configuration, so if some text has no meaning the file is
refused. -/
theorem conf_doc_meaning (d : Doc) (h : d.Good) (c : ConfigInput) :
    get_input_from_conffile (some d.text) none = .ok c ↔
      ∀ f : CField, ∃ v : Text,
        ((d.Silent (home f.name.toList) f.name.toList ∧ 
            ∃ t, (f.name, t) ∈ fallbacks ∧ v = t.toList) ∨
          ∃ w, d.Says (home f.name.toList) f.name.toList w ∧
            Means (d.Says (home f.name.toList)) 10 w v) ∧
        c f = some (if f.name ∈ mayBeEmpty ∧ v = [] then "None".toList else v) := by
  rw [conf_doc_meaning_aux d h c]
  refine forall_congr' fun f => exists_congr fun v => ?_
  rw [fallback_eq f v]
  refine and_congr Iff.rfl ?_
  have e : (f.hasConverter = true ∧ v = []) = (f.name ∈ mayBeEmpty ∧ v = []) := by
    rw [converter_eq]
  simp only [e]

/-- C101. The only way a file written by hand is refused. -/
theorem conf_doc_error (d : Doc) (h : d.Good) (e : PyErr)
    (he : get_input_from_conffile (some d.text) none = .error e) : e = .ConfigParserError := by
  obtain ⟨secs, h0, -⟩ := readFile_doc d h
  unfold get_input_from_conffile at he
  simp only [h0] at he
  cases hfs : CField.getOrder.findSome? (fun f => raised
      (Cfg.get secs f.section f.name.toList f.fallback)) with
  | none => rw [hfs] at he; simp only [add_overrides] at he; cases he
  | some e' =>
    rw [hfs] at he
    injection he with he
    subst he
    obtain ⟨f, -, hf⟩ := List.exists_of_findSome?_eq_some hfs
    obtain ⟨secs', h0', -, herr⟩ := get_doc d h f.section f.name.toList f.fallback
    rw [h0] at h0'
    injection h0' with h0'
    subst h0'
    cases hv : Cfg.get secs f.section f.name.toList f.fallback with
    | ok v => rw [hv] at hf; cases hf
    | error e'' =>
      rw [hv] at hf
      injection hf with hf
      subst hf
      exact herr _ hv

/-- C101. Only what a file says matters: comments, blank lines, the order of sections and
options, the blanks around names and values and the choice of delimiter do not. -/
theorem conf_doc_same (d d' : Doc) (h : d.Good) (h' : d'.Good)
    (hs : ∀ s k v, d.Says s k v ↔ d'.Says s k v) :
    get_input_from_conffile (some d.text) none = get_input_from_conffile (some d'.text) none := by
  have e : d.Says = d'.Says := by
    funext s k v
    exact propext (hs s k v)
  have hsil : d.Silent = d'.Silent := by
    funext s k
    unfold Doc.Silent
    rw [e]
  have key : ∀ c, get_input_from_conffile (some d.text) none = .ok c ↔
      get_input_from_conffile (some d'.text) none = .ok c := by
    intro c
    rw [conf_doc_meaning_aux d h, conf_doc_meaning_aux d' h', e, hsil]
  cases h1 : get_input_from_conffile (some d.text) none with
  | ok c => exact ((key c).1 h1).symm
  | error x =>
    cases h2 : get_input_from_conffile (some d'.text) none with
    | ok c =>
      have := (key c).2 h2
      rw [h1] at this
      cases this
    | error y => rw [conf_doc_error d h x h1, conf_doc_error d' h' y h2]

/-- C101. An option a section does mention is never looked for in `DEFAULT`, and
`DEFAULT` counts for nothing while the section itself is missing: a file without
`[config]` and `[initial]` leaves every option at its fallback. -/
theorem conf_doc_no_sections (d : Doc) (h : d.Good) (h1 : "config".toList ∉ d.names)
    (h2 : "initial".toList ∉ d.names) :
    get_input_from_conffile (some d.text) none = .ok fun f => some f.fallback := by
  rw [conf_doc_meaning_aux d h]
  intro f
  refine ⟨f.fallback, Or.inl ⟨fun v hv => ?_, rfl⟩, ?_⟩
  · have := hv.1
    unfold home at this
    split at this
    · exact h2 this
    · exact h1 this
  · rw [if_neg (fun hh => fallback_ne_nil f hh.2)]

/-- References in a circle have no meaning, at any depth. -/
theorem means_circle (val : Text → Text → Prop) (hv : ∀ k w w', val k w → val k w' → w = w')
    (K : Text → Prop)
    (hK : ∀ k, K k → ∃ a k' b, val k (a ++ "%(".toList ++ k' ++ ")s".toList ++ b) ∧
      '%' ∉ a ∧ (k' ≠ [] ∧ ')' ∉ k') ∧ K k')
    (n : ℕ) (k w r : Text) (hk : K k) (hw : val k w) : ¬ Means val n w r := by
  induction n generalizing k w r with
  | zero => intro h; cases h
  | succ n ih =>
    obtain ⟨a, k', b, hval, ha, hk', hKk'⟩ := hK k hk
    have := hv k _ _ hw hval
    subst this
    clear hw hval
    induction a generalizing r with
    | nil =>
      intro h
      generalize hx : [] ++ "%(".toList ++ k' ++ ")s".toList ++ b = x at h
      have key : ∀ (k2 s : Text), k2 ≠ [] ∧ ')' ∉ k2 →
          "%(".toList ++ k2 ++ ")s".toList ++ s = "%(".toList ++ k' ++ ")s".toList ++ b →
          k2 = k' := by
        intro k2 s hk2 e
        have e' : k2 ++ ")s".toList ++ s = k' ++ ")s".toList ++ b := by simpa using e
        have m1 := matchKey_of s hk2
        rw [e', matchKey_of b hk'] at m1
        injection m1 with m1
        injection m1 with m1 _
        exact m1.symm
      cases h with
      | nil => simp at hx
      | char hc h =>
        have : '%' :: _ = _ := hx
        injection this with h1 _
        exact hc h1.symm
      | percent h => simp at hx
      | plain hk2 hw hp h =>
        have := key _ _ hk2 (by rw [← hx]; simp)
        subst this
        obtain ⟨a, k'', b', hval, -, -, -⟩ := hK _ hKk'
        have := hv _ _ _ hw hval
        subst this
        exact hp (by simp)
      | nested hk2 hw hp hw' h =>
        have := key _ _ hk2 (by rw [← hx]; simp)
        subst this
        exact ih _ _ _ hKk' hw hw'
    | cons c a iha =>
      intro h
      have hca : c ≠ '%' ∧ '%' ∉ a := by
        constructor
        · rintro rfl; exact ha (by simp)
        · exact fun hm => ha (by simp [hm])
      generalize hx : c :: a ++ "%(".toList ++ k' ++ ")s".toList ++ b = x at h
      cases h with
      | nil => cases hx
      | char hc h =>
        rename_i s r'
        injection hx with h1 h2
        subst h1
        have h2' : a ++ "%(".toList ++ k' ++ ")s".toList ++ b = s := h2
        rw [← h2'] at h
        exact iha r' hca.2 h
      | percent h =>
        have hx' : c :: _ = '%' :: _ := hx
        injection hx' with h1 _
        exact hca.1 h1
      | plain hk2 hw hp h =>
        have hx' : c :: _ = '%' :: _ := hx
        injection hx' with h1 _
        exact hca.1 h1
      | nested hk2 hw hp hw' h =>
        have hx' : c :: _ = '%' :: _ := hx
        injection hx' with h1 _
        exact hca.1 h1

theorem says_unique (d : Doc) (h : d.Good) (s k v v' : Text) (h1 : d.Says s k v)
    (h2 : d.Says s k v') : v = v' := by
  have huniq : ∀ (x : Text × Text) (r r' : Text), (x, r) ∈ d.options → (x, r') ∈ d.options →
      r = r' := by
    intro x r r' hr hr'
    have := List.inj_on_of_nodup_map h.unique hr hr' rfl
    injection this
  obtain ⟨-, r, rfl, hr⟩ := h1
  obtain ⟨-, r', rfl, hr'⟩ := h2
  rcases hr with hr | ⟨hn, hr⟩
  · rcases hr' with hr' | ⟨hn', -⟩
    · rw [huniq _ _ _ hr hr']
    · exact absurd hr (hn' r)
  · rcases hr' with hr' | ⟨-, hr'⟩
    · exact absurd hr' (hn r')
    · rw [huniq _ _ _ hr hr']

/-- C101. A file in which options refer to each other in a circle is refused: it never
runs forever and never gives a value. -/
theorem conf_doc_circle (d : Doc) (h : d.Good) (f : CField) (K : Text → Prop)
    (hf : K f.name.toList)
    (hK : ∀ k, K k → ∃ a k' b,
      d.Says (home f.name.toList) k (a ++ "%(".toList ++ k' ++ ")s".toList ++ b) ∧
      '%' ∉ a ∧ (k' ≠ [] ∧ ')' ∉ k') ∧ K k') :
    get_input_from_conffile (some d.text) none = .error .ConfigParserError := by
  cases hc : get_input_from_conffile (some d.text) none with
  | error e => rw [conf_doc_error d h e hc]
  | ok c =>
    exfalso
    obtain ⟨v, hv, -⟩ := (conf_doc_meaning_aux d h c).1 hc f
    rcases hv with ⟨hsil, -⟩ | ⟨w, hw, hm⟩
    · obtain ⟨a, k', b, hs, -⟩ := hK _ hf
      exact hsil _ hs
    · exact means_circle (d.Says (home f.name.toList))
        (fun k w w' => says_unique d h _ k w w') K hK 10 _ w v hf hw hm

/-! ## Files that are refused -/

theorem conf_refused_of {t : Text} (h : readFile t = .error .ConfigParserError)
    (o : Option Overrides) :
    get_input_from_conffile (some t) o = .error .ConfigParserError := by
  unfold get_input_from_conffile
  simp only [h]

theorem matchSection_some {v n : Text} (h : matchSection v = some n) :
    n ≠ [] ∧ ∃ t, v = '[' :: n ++ ']' :: t := by
  unfold matchSection at h
  split at h
  · next s =>
    split at h
    · cases h
    · next h' hne =>
      by_cases hd : (s.reverse.dropWhile (· ≠ ']')).reverse.dropLast = []
      · rw [if_pos hd] at h; cases h
      · rw [if_neg hd] at h
        injection h with h
        subst h
        refine ⟨hd, (s.reverse.takeWhile (· ≠ ']')).reverse, ?_⟩
        have e : s.reverse.takeWhile (· ≠ ']') ++ s.reverse.dropWhile (· ≠ ']') = s.reverse :=
          List.takeWhile_append_dropWhile
        generalize s.reverse.takeWhile (· ≠ ']') = a at e
        generalize hb : s.reverse.dropWhile (· ≠ ']') = b at e hne hd
        cases b with
        | nil => simp at hne
        | cons x b =>
          have hx : x = ']' := by
            have := List.head?_dropWhile_not (p := (· ≠ ']')) s.reverse
            rw [hb] at this
            simpa using this
          subst hx
          have : s = (a ++ ']' :: b).reverse := by rw [e, List.reverse_reverse]
          rw [this]
          simp
  · cases h

theorem junk_line {l : Text} (h : Junk l) (st : RState) :
    readLine st l = .error .ConfigParserError ∨
      ∃ st', readLine st l = .ok st' ∧ st'.bad = true := by
  obtain ⟨⟨c, hc, hs, h1, h2⟩, he, hco, hn, hhead⟩ := h
  obtain ⟨t, rfl⟩ : ∃ t, l = c :: t := by
    cases l with
    | nil => cases hc
    | cons a t => injection hc with hc; subst hc; exact ⟨t, rfl⟩
  have hstrip : strip (c :: t) = c :: rstrip t := by
    unfold strip
    rw [lstrip_of (by intro x hx; injection hx with hx; subst hx; exact hs)]
    have e : c :: t = [c] ++ t := rfl
    rw [e, rstrip_append]
    have hc1 : rstrip [c] = [c] := rstrip_of (by
      intro x hx
      simp only [List.getLast?_singleton, Option.some.injEq] at hx
      subst hx; exact hs)
    by_cases hr : rstrip t = []
    · rw [if_pos hr, hr, hc1]
    · rw [if_neg hr]; rfl
  have hcom : ¬ ((strip (c :: t)).head? = some '#' ∨ (strip (c :: t)).head? = some ';') := by
    rw [hstrip]; simp [h1, h2]
  have hind : ((c :: t).takeWhile isSpace).length = 0 := by
    rw [List.takeWhile_cons_of_neg (by simp [hs])]; rfl
  obtain ⟨z, hz⟩ := rstrip_prefix t
  have hms : matchSection (c :: rstrip t) = none := by
    cases hm : matchSection (c :: rstrip t) with
    | none => rfl
    | some n =>
      obtain ⟨hne, t', e⟩ := matchSection_some hm
      exfalso
      apply hhead n (t' ++ z) hne
      have : c :: t = (c :: rstrip t) ++ z := by
        rw [List.cons_append, ← hz]
      rw [this, e]
      simp
  have hmo : matchOption (c :: rstrip t) = none := by
    have hall : ∀ x ∈ c :: rstrip t, (fun c : Char => c ≠ '=' && c ≠ ':') x = true := by
      intro x hx
      have hx' : x ∈ c :: t := by
        rcases List.mem_cons.1 hx with rfl | hx
        · simp
        · exact List.mem_cons_of_mem _ (mem_rstrip hx)
      have hx1 : x ≠ '=' := fun e => he (e ▸ hx')
      have hx2 : x ≠ ':' := fun e => hco (e ▸ hx')
      simp [hx1, hx2]
    have hd : (c :: rstrip t).dropWhile (fun c => c ≠ '=' && c ≠ ':') = [] := by
      have := List.dropWhile_append_of_pos (l₂ := []) hall
      simpa using this
    unfold matchOption
    rw [hd]
  have hh : readLine st (c :: t) = readLine.header st 0 (c :: rstrip t) := by
    unfold readLine
    simp only [if_neg hcom, hind]
    rw [hstrip, if_neg (by simp)]
    simp only [Nat.not_lt_zero, and_false, if_false]
    split <;> rfl
  rw [hh]
  unfold readLine.header
  rw [hms]
  simp only
  cases st.cur with
  | none => exact Or.inl rfl
  | some sec =>
    simp only [hmo]
    exact Or.inr ⟨_, rfl, rfl⟩

/-- C101. A file with a line at the margin which is neither comment nor header nor option
is refused, whatever follows. -/
theorem conf_refused_junk (d : Doc) (h : d.Good) (l : Text) (hl : Junk l) (rest : Text)
    (o : Option Overrides) :
    get_input_from_conffile (some (d.text ++ l ++ '\n' :: rest)) o =
      .error .ConfigParserError :=
  conf_refused_of (readFile_refused d h l hl.2.2.2.1 (fun st _ _ => junk_line hl st) rest) o

theorem option_newline {k pad rest : Text} {c : Char}
    (h : (Entry.option k pad c rest).Good) : '\n' ∉ k ++ pad ++ c :: rest := by
  obtain ⟨hk, hpad, hc, hr⟩ := h
  simp only [List.mem_append, List.mem_cons, not_or]
  refine ⟨⟨fun hm => ?_, fun hm => ?_⟩, ?_, hr⟩
  · have := (hk.2 _ hm).1
    revert this; decide
  · have := hpad _ hm
    revert this; decide
  · rcases hc with rfl | rfl <;> decide

/-- What becomes of an option line. -/
theorem option_refused {k pad r : Text} {c : Char} (hg : (Entry.option k pad c r).Good)
    (st : RState) (hst : ∀ sec, st.cur = some sec → (sec, some k) ∈ st.added) :
    readLine st (k ++ pad ++ c :: r) = .error .ConfigParserError := by
  obtain ⟨hk, hpad, hc, -⟩ := hg
  have h1 := strip_option (pad := pad) (rest := r) hk hc
  have hm := matchOption_option (rest := r) hk hpad hc
  obtain ⟨a, t, hk'⟩ : ∃ a t, k = a :: t := by
    cases k with
    | nil => exact absurd rfl hk.1
    | cons a t => exact ⟨a, t, rfl⟩
  obtain ⟨h0, -, -, h3, h4, h5⟩ := hk.2 a (by rw [hk']; simp)
  have hv : k ++ pad ++ c :: rstrip r = a :: (t ++ pad ++ c :: rstrip r) := by
    rw [hk']; rfl
  have hcom : ¬ ((strip (k ++ pad ++ c :: r)).head? = some '#' ∨
      (strip (k ++ pad ++ c :: r)).head? = some ';') := by
    rw [h1, hv]
    simp [h3, h4]
  have hvn : k ++ pad ++ c :: rstrip r ≠ [] := by rw [hv]; simp
  have hind : ((k ++ pad ++ c :: r).takeWhile isSpace).length = 0 := by
    rw [hk']
    simp only [List.cons_append]
    rw [List.takeWhile_cons_of_neg (by simp [h0])]
    rfl
  have hs : matchSection (k ++ pad ++ c :: rstrip r) = none := by
    rw [hv]
    unfold matchSection
    split
    · next heq => injection heq with e _; exact absurd e h5
    · rfl
  have hh : readLine st (k ++ pad ++ c :: r) =
      readLine.header st 0 (k ++ pad ++ c :: rstrip r) := by
    unfold readLine
    simp only [if_neg hcom, hind]
    rw [h1, if_neg hvn]
    simp only [Nat.not_lt_zero, and_false, if_false]
    split <;> rfl
  rw [hh]
  unfold readLine.header
  rw [hs]
  simp only
  cases hcur : st.cur with
  | none => rfl
  | some sec => simp only [hm, if_pos (hst sec hcur)]

/-- C101. So is a file with an option before the first section, -/
theorem conf_refused_headless (d : Doc) (h : d.Good) (hp : d.parts = [])
    (k pad r : Text) (c : Char) (hg : (Entry.option k pad c r).Good) (rest : Text)
    (o : Option Overrides) :
    get_input_from_conffile (some (d.text ++ (k ++ pad ++ c :: r) ++ '\n' :: rest)) o =
      .error .ConfigParserError := by
  refine conf_refused_of (readFile_refused d h _ (option_newline hg) (fun st hc _ =>
    Or.inl (option_refused hg st fun sec hs => ?_)) rest) o
  rw [hc] at hs
  simp [Doc.names, hp] at hs

/-- C101. one with an option a second time in the same section, -/
theorem conf_refused_twice (d : Doc) (h : d.Good) (s k r' : Text)
    (hs : d.names.getLast? = some s) (hk : ((s, k), r') ∈ d.options)
    (pad r : Text) (c : Char) (hg : (Entry.option k pad c r).Good) (rest : Text)
    (o : Option Overrides) :
    get_input_from_conffile (some (d.text ++ (k ++ pad ++ c :: r) ++ '\n' :: rest)) o =
      .error .ConfigParserError := by
  refine conf_refused_of (readFile_refused d h _ (option_newline hg) (fun st hc hr =>
    Or.inl (option_refused hg st fun sec hsec => ?_)) rest) o
  rw [hc, hs] at hsec
  injection hsec with hsec
  subst hsec
  exact (hr.addO s k).2 ⟨r', hk⟩

/-- C101. and one with a section other than `DEFAULT` a second time. -/
theorem conf_refused_section (d : Doc) (h : d.Good) (s : Text) (hs : s ∈ d.names)
    (hne : s ≠ everywhere) (rest : Text) (o : Option Overrides) :
    get_input_from_conffile (some (d.text ++ ('[' :: s ++ [']']) ++ '\n' :: rest)) o =
      .error .ConfigParserError := by
  obtain ⟨p, hp, rfl⟩ := List.mem_map.1 hs
  obtain ⟨hn, hnl⟩ := h.name p hp
  refine conf_refused_of (readFile_refused d h _ (by simp [hnl]) (fun st hc hr =>
    Or.inl ?_) rest) o
  rw [readLine_header]
  unfold readLine.header
  rw [matchSection_of hn]
  simp only
  rw [if_neg (show p.name ≠ defaultSection from hne), if_pos ((hr.sec p.name).2 hs), if_pos ((hr.addS p.name).2 ⟨hs, hne⟩)]

/-! ## What can be written -/

theorem dropEscaped_cons {c : Char} (hc : c ≠ '%') (s : Text) :
    dropEscaped (c :: s) = c :: dropEscaped s := by
  rw [dropEscaped]
  intro s' h _
  exact hc h

theorem dropEscaped_append {k : Text} (hk : '%' ∉ k) (s : Text) :
    dropEscaped (k ++ s) = k ++ dropEscaped s := by
  induction k with
  | nil => rfl
  | cons c k ih =>
    rw [List.cons_append, dropEscaped_cons (fun e => hk (by simp [e])),
      ih (fun hm => hk (by simp [hm])), List.cons_append]

/-- A template without `%%`. -/
inductive Bare : Text → Prop
  | nil : Bare []
  | char {c : Char} {s : Text} (hc : c ≠ '%') (h : Bare s) : Bare (c :: s)
  | ref {k s : Text} (hk : k ≠ [] ∧ ')' ∉ k) (h : Bare s) :
      Bare ("%(".toList ++ k ++ ")s".toList ++ s)

theorem dropEscaped_ref {k : Text} (hk : '%' ∉ k) (s : Text) :
    dropEscaped ("%(".toList ++ k ++ ")s".toList ++ s) =
      "%(".toList ++ k ++ ")s".toList ++ dropEscaped s := by
  have e : "%(".toList ++ k ++ ")s".toList ++ s = '%' :: '(' :: (k ++ ')' :: 's' :: s) := by simp
  have e' : "%(".toList ++ k ++ ")s".toList ++ dropEscaped s =
    '%' :: '(' :: (k ++ ')' :: 's' :: dropEscaped s) := by simp
  rw [e, e']
  have h1 : dropEscaped ('%' :: '(' :: (k ++ ')' :: 's' :: s)) =
      '%' :: dropEscaped ('(' :: (k ++ ')' :: 's' :: s)) := by
    rw [dropEscaped]
    intro s' _ h
    injection h with h _
    revert h; decide
  rw [h1, dropEscaped_cons (by decide), dropEscaped_append hk, dropEscaped_cons (by decide),
    dropEscaped_cons (by decide)]

/-- Without the escaped signs a template is bare. -/
theorem template_bare {v : Text} (h : Template v) (t : Text) :
    ∃ b, Bare b ∧ dropEscaped (v ++ t) = b ++ dropEscaped t := by
  induction h with
  | nil => exact ⟨[], .nil, rfl⟩
  | char hc _ ih =>
    obtain ⟨b, hb, e⟩ := ih
    exact ⟨_, .char hc hb, by rw [List.cons_append, dropEscaped_cons hc, e, List.cons_append]⟩
  | percent _ ih =>
    obtain ⟨b, hb, e⟩ := ih
    exact ⟨b, hb, e⟩
  | ref hk _ ih =>
    obtain ⟨b, hb, e⟩ := ih
    refine ⟨_, .ref ⟨hk.1, hk.2.1⟩ hb, ?_⟩
    rw [List.append_assoc, dropEscaped_ref hk.2.2, e]
    simp

/-- References of a bare text are dropped. -/
theorem dropKeys_bare {b : Text} (h : Bare b) (t : Text) (n : ℕ) (hn : (b ++ t).length ≤ n) :
    ∃ m, t.length ≤ m ∧ ('%' ∈ dropKeys n (b ++ t) ↔ '%' ∈ dropKeys m t) := by
  induction h generalizing n with
  | nil => exact ⟨n, hn, Iff.rfl⟩
  | char hc _ ih =>
    rename_i c s _
    cases n with
    | zero => simp at hn
    | succ n =>
      obtain ⟨m, hm, e⟩ := ih n (by simpa using hn)
      refine ⟨m, hm, ?_⟩
      rw [← e, List.cons_append, dropKeys]
      · simp [Ne.symm hc]
      · intro t' h1 _
        exact absurd h1 hc
  | ref hk _ ih =>
    rename_i k s _
    have ea : "%(".toList ++ k ++ ")s".toList ++ s ++ t =
      '%' :: '(' :: (k ++ ")s".toList ++ (s ++ t)) := by simp
    rw [ea] at hn ⊢
    cases n with
    | zero => simp at hn
    | succ n =>
      obtain ⟨m, hm, e⟩ := ih n (by
        simp only [List.length_cons, List.length_append] at hn ⊢
        omega)
      refine ⟨m, hm, ?_⟩
      rw [← e]
      simp only [dropKeys, matchKey_of (s ++ t) hk]

/-- C101. Any template can be written. -/
theorem before_set_template (v : Text) (h : Template v) : before_set v = .ok v := by
  obtain ⟨b, hb, e⟩ := template_bare h []
  have e0 : dropEscaped v = b := by simpa [dropEscaped] using e
  unfold before_set
  simp only [e0]
  obtain ⟨m, -, hiff⟩ := dropKeys_bare hb [] b.length (by simp)
  rw [List.append_nil] at hiff
  have : '%' ∉ dropKeys m [] := by cases m <;> simp [dropKeys]
  rw [if_neg (fun hm => this (hiff.1 hm))]

/-- C101. A percent sign on its own cannot: `ValueError`, and nothing is written. -/
theorem before_set_stray (a b : Text) (ha : Template a)
    (hb : b.head? ≠ some '%' ∧ b.head? ≠ some '(') :
    before_set (a ++ '%' :: b) = .error .ValueError := by
  obtain ⟨b', hb', e⟩ := template_bare ha ('%' :: b)
  have e1 : dropEscaped ('%' :: b) = '%' :: dropEscaped b := by
    cases b with
    | nil => rfl
    | cons x b =>
      rw [dropEscaped]
      intro s' _ h
      injection h with h _
      exact hb.1 (by simp [h])
  have e2 : (dropEscaped b).head? = b.head? := by
    cases b with
    | nil => rfl
    | cons x b =>
      rw [dropEscaped_cons (fun h => hb.1 (by simp [h]))]
      rfl
  unfold before_set
  simp only [e, e1]
  obtain ⟨m, hm, hiff⟩ := dropKeys_bare hb' ('%' :: dropEscaped b) _ le_rfl
  rw [if_pos (hiff.2 _)]
  cases m with
  | zero => simp at hm
  | succ m =>
    rw [dropKeys]
    · simp
    · intro t _ h2
      apply hb.2
      rw [← e2, h2]
      rfl

/-- C101. A text can be accepted for writing and yet have no meaning when read. -/
theorem before_set_not_enough : before_set "%(a)%%s".toList = .ok "%(a)%%s".toList ∧
    ∀ val n r, ¬ Means val n "%(a)%%s".toList r := by
  refine ⟨rfl, fun val n r h => ?_⟩
  have hne : ∀ k s : Text, k ≠ [] ∧ ')' ∉ k →
      "%(a)%%s".toList ≠ "%(".toList ++ k ++ ")s".toList ++ s := by
    intro k s hk e
    have e' : "a)%%s".toList = k ++ ")s".toList ++ s := by
      have : '%' :: '(' :: "a)%%s".toList = '%' :: '(' :: (k ++ ")s".toList ++ s) := by
        rw [List.append_assoc] at e
        simpa using e
      injection this with _ this
      injection this
    have m := matchKey_of s hk
    rw [← e'] at m
    revert m
    have : matchKey "a)%%s".toList = none := by decide
    rw [this]
    intro m; cases m
  generalize hx : "%(a)%%s".toList = x at h
  cases h with
  | nil => revert hx; decide
  | char hc h =>
    have : '%' :: _ = _ := hx
    injection this with h1 _
    exact hc h1.symm
  | percent h =>
    have : '%' :: '(' :: _ = '%' :: '%' :: _ := hx
    injection this with _ h2
    injection h2 with h2 _
    revert h2; decide
  | plain hk hw hp h => exact hne _ _ hk hx
  | nested hk hw hp hw' h => exact hne _ _ hk hx

/-! ## Witnesses -/

/-- A file with a comment, a `DEFAULT` section, both delimiters and references. -/
def witDoc : Doc where
  pre := ["# a disc".toList, []]
  parts := [
    ⟨"DEFAULT".toList, [.option "base".toList " ".toList '=' " 90".toList]⟩,
    ⟨"initial".toList, [.option "γ".toList [] ':' " 0.5".toList, .filler "; note".toList]⟩,
    ⟨"config".toList, [.option "stop".toList " ".toList '=' " %(base)s".toList, .filler [],
      .option "label".toList " \t".toList '=' " 5%% of %(stop)s ".toList]⟩]

theorem witDoc_good : witDoc.Good where
  pre := by
    intro l hl
    simp only [witDoc, List.mem_cons, List.not_mem_nil, or_false] at hl
    rcases hl with rfl | rfl
    · exact ⟨by decide, Or.inr (Or.inl (by decide))⟩
    · exact ⟨by decide, Or.inl (by decide)⟩
  name := by
    intro p hp
    simp only [witDoc, List.mem_cons, List.not_mem_nil, or_false] at hp
    rcases hp with rfl | rfl | rfl <;> exact ⟨by decide, by decide⟩
  body := by
    intro p hp e he
    simp only [witDoc, List.mem_cons, List.not_mem_nil, or_false] at hp
    rcases hp with rfl | rfl | rfl
    · simp only [List.mem_cons, List.not_mem_nil, or_false] at he
      subst he
      exact ⟨⟨by decide, by decide⟩, by decide, by decide, by decide⟩
    · simp only [List.mem_cons, List.not_mem_nil, or_false] at he
      rcases he with rfl | rfl
      · exact ⟨⟨by decide, by decide⟩, by decide, by decide, by decide⟩
      · exact ⟨by decide, Or.inr (Or.inr (by decide))⟩
    · simp only [List.mem_cons, List.not_mem_nil, or_false] at he
      rcases he with rfl | rfl | rfl
      · exact ⟨⟨by decide, by decide⟩, by decide, by decide, by decide⟩
      · exact ⟨by decide, Or.inl (by decide)⟩
      · exact ⟨⟨by decide, by decide⟩, by decide, by decide, by decide⟩
  once := by decide
  unique := by decide

example := conf_doc_meaning witDoc witDoc_good
example := conf_doc_error witDoc witDoc_good

theorem silent_of (d : Doc) (s k : Text) (h : k ∉ d.options.map fun o => o.1.2) :
    d.Silent s k := by
  rintro v ⟨-, r, -, hr | ⟨-, hr⟩⟩
  · exact h (List.mem_map.2 ⟨_, hr, rfl⟩)
  · exact h (List.mem_map.2 ⟨_, hr, rfl⟩)

/-- What one expects of the options of the file. -/
def witValue : CField → Text
  | .s .stop => "90".toList
  | .label => "5% of 90".toList
  | .s .γ => "0.5".toList
  | f => f.fallback

theorem witDoc_base : witDoc.Says "config".toList "base".toList "90".toList :=
  ⟨by decide, " 90".toList, by decide, Or.inr ⟨fun r hr => by
    have : ("config".toList, "base".toList) ∈ witDoc.options.map Prod.fst :=
      List.mem_map.2 ⟨_, hr, rfl⟩
    revert this; decide, by decide⟩⟩

theorem witDoc_stop : witDoc.Says "config".toList "stop".toList "%(base)s".toList :=
  ⟨by decide, " %(base)s".toList, by decide, Or.inl (by decide)⟩

theorem witDoc_stop_means :
    Means (witDoc.Says "config".toList) 9 "%(base)s".toList "90".toList :=
  .plain (k := "base".toList) (s := []) (r := []) (by decide) witDoc_base (by decide) (.nil _)

/-- The texts the file has. -/
theorem witDoc_text (f : CField) :
    (witDoc.Silent (home f.name.toList) f.name.toList ∧ witValue f = f.fallback) ∨
      ∃ w, witDoc.Says (home f.name.toList) f.name.toList w ∧
        Means (witDoc.Says (home f.name.toList)) 10 w (witValue f) := by
  have hs : ∀ f : CField, f.name.toList ∉ witDoc.options.map (fun o => o.1.2) →
      witValue f = f.fallback →
      (witDoc.Silent (home f.name.toList) f.name.toList ∧ witValue f = f.fallback) ∨
        ∃ w, witDoc.Says (home f.name.toList) f.name.toList w ∧
          Means (witDoc.Says (home f.name.toList)) 10 w (witValue f) :=
    fun f h1 h2 => Or.inl ⟨silent_of _ _ _ h1, h2⟩
  have hh : home "stop".toList = "config".toList := by decide
  have hh2 : home "label".toList = "config".toList := by decide
  have hh3 : home "γ".toList = "initial".toList := by decide
  cases f with
  | label =>
    refine Or.inr ⟨"5%% of %(stop)s".toList, ?_, ?_⟩
    · exact ⟨by decide, " 5%% of %(stop)s ".toList, by decide, Or.inl (by decide)⟩
    · show Means (witDoc.Says (home "label".toList)) 10 _ _
      rw [hh2]
      have h0 := Means.nested (n := 9) (k := "stop".toList) (s := []) (r := [])
        (by decide) witDoc_stop (by decide) witDoc_stop_means (.nil 9)
      exact .char (by decide) (.percent (.char (by decide) (.char (by decide)
        (.char (by decide) (.char (by decide) h0)))))
  | s f =>
    cases f
    case stop =>
      refine Or.inr ⟨"%(base)s".toList, ?_, ?_⟩
      · show witDoc.Says (home "stop".toList) _ _
        rw [hh]; exact witDoc_stop
      · show Means (witDoc.Says (home "stop".toList)) 10 _ _
        rw [hh]
        exact .plain (k := "base".toList) (s := []) (r := []) (by decide) witDoc_base
          (by decide) (.nil _)
    case γ =>
      refine Or.inr ⟨"0.5".toList, ?_, ?_⟩
      · exact ⟨by decide, " 0.5".toList, by decide, Or.inl (by decide)⟩
      · exact .char (by decide) (.char (by decide) (.char (by decide) (.nil _)))
    all_goals exact hs _ (by decide) rfl

/-- The file is read: its options have the values one expects. -/
theorem witDoc_read : get_input_from_conffile (some witDoc.text) none =
    .ok fun f => some (witValue f) := by
  rw [conf_doc_meaning_aux witDoc witDoc_good]
  intro f
  refine ⟨witValue f, witDoc_text f, ?_⟩
  have : witValue f ≠ [] := by
    cases f with
    | label => decide
    | s f => cases f <;> decide
  rw [if_neg (fun hh => this hh.2)]

/-- A file whose options refer to each other in a circle. -/
def circleDoc : Doc where
  pre := []
  parts := [⟨"config".toList, [.option "start".toList [] '=' "1%(stop)s".toList,
    .option "stop".toList [] '=' "%(start)s".toList]⟩]

theorem circleDoc_good : circleDoc.Good where
  pre := by intro l hl; cases hl
  name := by
    intro p hp
    simp only [circleDoc, List.mem_cons, List.not_mem_nil, or_false] at hp
    subst hp
    exact ⟨by decide, by decide⟩
  body := by
    intro p hp e he
    simp only [circleDoc, List.mem_cons, List.not_mem_nil, or_false] at hp
    subst hp
    simp only [List.mem_cons, List.not_mem_nil, or_false] at he
    rcases he with rfl | rfl <;>
      exact ⟨⟨by decide, by decide⟩, by decide, by decide, by decide⟩
  once := by decide
  unique := by decide

example : get_input_from_conffile (some circleDoc.text) none = .error .ConfigParserError :=
  conf_doc_circle circleDoc circleDoc_good (.s .start)
    (fun k => k = "start".toList ∨ k = "stop".toList) (Or.inl rfl) (by
      have hh : home (CField.name (.s .start)).toList = "config".toList := by decide
      rw [hh]
      rintro k (rfl | rfl)
      · exact ⟨"1".toList, "stop".toList, [], ⟨by decide, "1%(stop)s".toList, by decide,
          Or.inl (by decide)⟩, by decide, by decide, Or.inr rfl⟩
      · exact ⟨[], "start".toList, [], ⟨by decide, "%(start)s".toList, by decide,
          Or.inl (by decide)⟩, by decide, by decide, Or.inl rfl⟩)

/-- Files with the same sections and options, up to their order and to blanks, say the
same. -/
theorem says_of_options (d d' : Doc) (hn : ∀ s, s ∈ d.names ↔ s ∈ d'.names)
    (ho : ∀ x, x ∈ d.options.map (fun o => (o.1, strip o.2)) ↔
      x ∈ d'.options.map (fun o => (o.1, strip o.2))) (s k v : Text) :
    d.Says s k v ↔ d'.Says s k v := by
  have key : ∀ (e e' : Doc), (∀ s, s ∈ e.names ↔ s ∈ e'.names) →
      (∀ x, x ∈ e.options.map (fun o => (o.1, strip o.2)) ↔
        x ∈ e'.options.map (fun o => (o.1, strip o.2))) → e.Says s k v → e'.Says s k v := by
    intro e e' hn ho
    have hm : ∀ x r, (x, r) ∈ e.options → ∃ r', (x, r') ∈ e'.options ∧ strip r = strip r' := by
      intro x r hr
      obtain ⟨o, ho', he⟩ := List.mem_map.1 ((ho (x, strip r)).1 (List.mem_map.2 ⟨_, hr, rfl⟩))
      injection he with h1 h2
      subst h1
      exact ⟨o.2, ho', h2.symm⟩
    have hm' : ∀ x r, (x, r) ∈ e'.options → ∃ r', (x, r') ∈ e.options := by
      intro x r hr
      obtain ⟨o, ho', he⟩ := List.mem_map.1 ((ho (x, strip r)).2 (List.mem_map.2 ⟨_, hr, rfl⟩))
      injection he with h1 h2
      subst h1
      exact ⟨o.2, ho'⟩
    rintro ⟨h1, r, rfl, hr | ⟨hno, hr⟩⟩
    · obtain ⟨r', hr', e⟩ := hm _ _ hr
      exact ⟨(hn s).1 h1, r', e, Or.inl hr'⟩
    · obtain ⟨r', hr', e⟩ := hm _ _ hr
      refine ⟨(hn s).1 h1, r', e, Or.inr ⟨fun r'' h'' => ?_, hr'⟩⟩
      obtain ⟨x, hx⟩ := hm' _ _ h''
      exact hno x hx
  exact ⟨key d d' hn ho, key d' d (fun s => (hn s).symm) fun x => (ho x).symm⟩

/-- The same said in another way. -/
def otherDoc : Doc where
  pre := []
  parts := [⟨"config".toList, [.option "start".toList [] ':' "1%(stop)s".toList, .filler [],
    .option "stop".toList " ".toList '=' " %(start)s ".toList]⟩]

theorem otherDoc_good : otherDoc.Good where
  pre := by intro l hl; cases hl
  name := by
    intro p hp
    simp only [otherDoc, List.mem_cons, List.not_mem_nil, or_false] at hp
    subst hp
    exact ⟨by decide, by decide⟩
  body := by
    intro p hp e he
    simp only [otherDoc, List.mem_cons, List.not_mem_nil, or_false] at hp
    subst hp
    simp only [List.mem_cons, List.not_mem_nil, or_false] at he
    rcases he with rfl | rfl | rfl
    · exact ⟨⟨by decide, by decide⟩, by decide, by decide, by decide⟩
    · exact ⟨by decide, by decide⟩
    · exact ⟨⟨by decide, by decide⟩, by decide, by decide, by decide⟩
  once := by decide
  unique := by decide

example := conf_doc_same circleDoc otherDoc circleDoc_good otherDoc_good
  (says_of_options _ _ (fun s => Iff.rfl) fun x => by
    have h : circleDoc.options.map (fun o => (o.1, strip o.2)) =
      otherDoc.options.map (fun o => (o.1, strip o.2)) := by decide
    rw [h])

example : get_input_from_conffile (some (Doc.text ⟨["#".toList], [⟨everywhere,
    [.option "start".toList [] '=' "7".toList]⟩]⟩)) none = .ok fun f => some f.fallback :=
  conf_doc_no_sections _ {
    pre := by
      intro l hl
      simp only [List.mem_cons, List.not_mem_nil, or_false] at hl
      subst hl
      exact ⟨by decide, by decide⟩
    name := by
      intro p hp
      simp only [List.mem_cons, List.not_mem_nil, or_false] at hp
      subst hp
      exact ⟨by decide, by decide⟩
    body := by
      intro p hp e he
      simp only [List.mem_cons, List.not_mem_nil, or_false] at hp
      subst hp
      simp only [List.mem_cons, List.not_mem_nil, or_false] at he
      subst he
      exact ⟨⟨by decide, by decide⟩, by decide, by decide, by decide⟩
    once := by decide
    unique := by decide } (by decide) (by decide)

example := conf_refused_junk witDoc witDoc_good "[]x".toList
  ⟨⟨'[', by decide, by decide, by decide, by decide⟩, by decide, by decide, by decide,
    fun n t hn e => by
      cases n with
      | nil => exact hn rfl
      | cons a n =>
        have e' : '[' :: ']' :: 'x' :: [] = '[' :: a :: (n ++ ']' :: t) := e
        injection e' with _ e'
        injection e' with _ e'
        have := congrArg List.length e'
        cases n with
        | nil => injection e' with e' _; revert e'; decide
        | cons b n => simp at this⟩

example := conf_refused_headless ⟨["# only".toList], []⟩
  ⟨by
    intro l hl
    simp only [List.mem_cons, List.not_mem_nil, or_false] at hl
    subst hl
    exact ⟨by decide, by decide⟩, fun p hp => (by cases hp), fun p hp => (by cases hp),
    by decide, by decide⟩ rfl "start".toList [] "3".toList '='
  ⟨⟨by decide, by decide⟩, by decide, by decide, by decide⟩

example := conf_refused_twice witDoc witDoc_good "config".toList "stop".toList
  " %(base)s".toList (by decide) (by decide) [] "3".toList ':'
  ⟨⟨by decide, by decide⟩, by decide, by decide, by decide⟩

example := conf_refused_section witDoc witDoc_good "initial".toList (by decide) (by decide)

example : before_set "a%%b%(stop)s".toList = .ok "a%%b%(stop)s".toList :=
  before_set_template _ (.char (by decide) (.percent (.char (by decide)
    (.ref (k := "stop".toList) (s := []) (by decide) .nil))))

example : before_set "50%".toList = .error .ValueError :=
  before_set_stray "50".toList [] (.char (by decide) (.char (by decide) .nil)) (by decide)

end DiscSolver.ConfDoc
