import Verif.Spec.Cli

/-!
# Lemmas about command lines
-/

namespace DiscSolver.Cli

/-! ## Parsed options -/

theorem get_set {β : Type} (d : Dict String β) (k k' : String) (v : β) :
    Dict.get? (Dict.set d k v) k' = if k = k' then some v else Dict.get? d k' := by
  induction d with
  | nil => simp [Dict.set, Dict.get?]
  | cons p d ih =>
    obtain ⟨q, w⟩ := p
    by_cases h : q = k
    · subst h
      by_cases h' : q = k' <;> simp [Dict.set, Dict.get?, h']
    · by_cases h' : q = k'
      · subst h'
        have : k ≠ q := fun e => h e.symm
        simp [Dict.set, Dict.get?, h, this]
      · simp only [Dict.set, h, if_false, Dict.get?, h', ih]

/-- The default of the first option with a destination. -/
theorem get_initial (suppress : Bool) (opts : List Opt) (ns : Dict String Val) (k : String) :
    Dict.get? (initial suppress opts ns) k =
      match Dict.get? ns k with
      | some v => some v
      | none => ((opts.filter (·.dest = k)).filterMap (·.initial suppress)).head? := by
  induction opts generalizing ns with
  | nil => cases h : Dict.get? ns k <;> simp [initial, h]
  | cons o l ih =>
    rw [initial]
    cases h : o.initial suppress with
    | none =>
      rw [ih]
      by_cases hk : o.dest = k <;> simp [hk, h]
    | some v =>
      simp only
      rw [ih]
      by_cases hk : o.dest = k
      · subst hk
        cases hn : Dict.get? ns o.dest <;> simp [get_set, h, hn]
      · by_cases hc : (Dict.get? ns o.dest).isSome = true
        · simp [hc, hk]
        · simp [hc, hk, get_set]

/-- What the options on the command line make of a destination which belongs to one
option. -/
def after (before : Option Val) (given : List Occ) (o : Opt) : Option Val :=
  match o.action with
  | .store =>
    match lastGiven given o.name with
    | some v => some v
    | none => before
  | .storeTrue => if isGiven given o.name then some (.bool true) else before
  | .storeFalse => if isGiven given o.name then some (.bool false) else before
  | .append => given.foldl (fun b occ =>
      if occ.1 = o.name then some (Action.append.apply b occ.2) else b) before

theorem lastGiven_cons (x : Occ) (given : List Occ) (name : String) :
    lastGiven (x :: given) name = match lastGiven given name with
      | some v => some v
      | none => if x.1 = name then some x.2 else none := by
  unfold lastGiven
  by_cases h : x.1 = name
  · rw [List.filter_cons_of_pos (by simp [h])]
    cases hg : given.filter (·.1 = name) with
    | nil => simp [h]
    | cons y l => simp [List.getLast?_cons]
  · rw [List.filter_cons_of_neg (by simp [h]), if_neg h]
    cases Option.map (·.2) (given.filter (·.1 = name)).getLast? <;> rfl

theorem isGiven_of_eq {x : Occ} {given : List Occ} {name : String} (h : x.1 = name) :
    isGiven (x :: given) name = true := by
  simp [isGiven, h]

theorem isGiven_of_ne {x : Occ} {given : List Occ} {name : String} (h : x.1 ≠ name) :
    isGiven (x :: given) name = isGiven given name := by
  simp [isGiven, h]

theorem get_steps (opts : List Opt) (given : List Occ) (ns : Dict String Val) (o : Opt)
    (hf : opts.find? (·.name = o.name) = some o)
    (hu : ∀ x ∈ given, ∀ p ∈ opts, p.dest = o.dest → x.1 = p.name → p.name = o.name) :
    Dict.get? (given.foldl (step opts) ns) o.dest = after (Dict.get? ns o.dest) given o := by
  induction given generalizing ns with
  | nil => cases h : o.action <;> simp [after, h, lastGiven, isGiven]
  | cons x given ih =>
    rw [List.foldl_cons, ih _ (fun y hy => hu y (List.mem_cons_of_mem _ hy))]
    have key : Dict.get? (step opts ns x) o.dest =
        if x.1 = o.name then some (o.action.apply (Dict.get? ns o.dest) x.2)
        else Dict.get? ns o.dest := by
      unfold step
      by_cases hx : x.1 = o.name
      · rw [hx, hf]; simp [get_set]
      · rw [if_neg hx]
        rcases hp : opts.find? (·.name = x.1) with _ | p
        · rw [hp]
        · rw [hp]
          simp only [get_set]
          rw [if_neg]
          intro hd
          have h2 := List.find?_some hp
          simp only [decide_eq_true_eq] at h2
          have h1 := hu x (by simp) p (List.mem_of_find?_eq_some hp) hd h2.symm
          exact hx (h2 ▸ h1)
    rw [key]
    by_cases hx : x.1 = o.name
    · rw [if_pos hx]
      cases h : o.action
      · simp only [after, h, lastGiven_cons, hx, if_true, Action.apply]
        cases lastGiven given o.name <;> rfl
      · simp only [after, h, Action.apply]
        rw [isGiven_of_eq hx, if_pos rfl, ite_self]
      · simp only [after, h, Action.apply]
        rw [isGiven_of_eq hx, if_pos rfl, ite_self]
      · simp [after, h, hx]
    · rw [if_neg hx]
      cases h : o.action
      · simp only [after, h, lastGiven_cons, hx, if_false]
        cases lastGiven given o.name <;> rfl
      · simp only [after, h, isGiven_of_ne hx]
      · simp only [after, h, isGiven_of_ne hx]
      · simp [after, h, hx]

/-- The parsed options, one destination at a time. -/
theorem parsed (suppress : Bool) (opts : List Opt) (given : List Occ) (o : Opt)
    (hf : opts.find? (·.name = o.name) = some o)
    (hu : opts.filter (·.dest = o.dest) = [o]) :
    Dict.get? (given.foldl (step opts) (initial suppress opts [])) o.dest =
      after (o.initial suppress) given o := by
  rw [get_steps opts given _ o hf]
  · rw [get_initial, hu]
    cases h : o.initial suppress <;> simp [Dict.get?, h]
  · intro x _ p hp hd _
    have : p ∈ opts.filter (·.dest = o.dest) := by simp [hp, hd]
    rw [hu] at this
    simp only [List.mem_singleton] at this
    rw [this]

/-- An option with a name and a destination of its own. -/
def Own (opts : List Opt) (o : Opt) : Prop :=
  opts.find? (·.name = o.name) = some o ∧ opts.filter (·.dest = o.dest) = [o]

/-- Every option has a name and a destination of its own. -/
def Distinct (opts : List Opt) : Prop := ∀ o ∈ opts, Own opts o

theorem distinct (opts : List Opt) (h1 : (opts.map (·.name)).Nodup)
    (h2 : (opts.map (·.dest)).Nodup) : Distinct opts := by
  intro o ho
  constructor
  · induction opts with
    | nil => cases ho
    | cons p l ih =>
      simp only [List.map_cons, List.nodup_cons, List.mem_map, not_exists, not_and] at h1 h2
      rcases List.mem_cons.mp ho with rfl | ho
      · simp
      · rw [List.find?_cons_of_neg, ih h1.2 h2.2 ho]
        simpa using fun e => h1.1 o ho e.symm
  · induction opts with
    | nil => cases ho
    | cons p l ih =>
      simp only [List.map_cons, List.nodup_cons, List.mem_map, not_exists, not_and] at h1 h2
      rcases List.mem_cons.mp ho with rfl | ho
      · rw [List.filter_cons_of_pos (by simp), List.filter_eq_nil_iff.mpr]
        intro q hq
        simpa using h2.1 q hq
      · rw [List.filter_cons_of_neg, ih h1.2 h2.2 ho]
        simpa using fun e => h2.1 o ho e.symm

theorem find_of_nodup (opts : List Opt) (h1 : (opts.map (·.name)).Nodup) (o : Opt)
    (ho : o ∈ opts) : opts.find? (·.name = o.name) = some o := by
  induction opts with
  | nil => cases ho
  | cons p l ih =>
    simp only [List.map_cons, List.nodup_cons, List.mem_map, not_exists, not_and] at h1
    rcases List.mem_cons.mp ho with rfl | ho
    · simp
    · rw [List.find?_cons_of_neg, ih h1.2 ho]
      simpa using fun e => h1.1 o ho e.symm

/-- Two options with the same destination which exclude each other: the last of the
command line decides, and there is only one kind. -/
theorem parsed_switch_any (suppress : Bool) (opts : List Opt) (h1 : (opts.map (·.name)).Nodup) (on off : Opt)
    (g dest : String) (h2 : opts.filter (·.dest = dest) = [on, off]) (hon : on.action = .storeTrue)
    (hoff : off.action = .storeFalse) (hgon : on.group = some g) (hgoff : off.group = some g)
    (hne : on.name ≠ off.name) (given : List Occ) (ha : accepted opts given = true) :
    Dict.get? (given.foldl (step opts) (initial suppress opts [])) dest =
      if isGiven given off.name then some (.bool false)
      else if isGiven given on.name then some (.bool true)
      else ([on, off].filterMap (·.initial suppress)).head? := by
  have mon : on ∈ opts ∧ on.dest = dest := by
    have : on ∈ opts.filter (·.dest = dest) := by simp [h2]
    simpa using this
  have moff : off ∈ opts ∧ off.dest = dest := by
    have : off ∈ opts.filter (·.dest = dest) := by simp [h2]
    simpa using this
  have fon := find_of_nodup opts h1 on mon.1
  have foff := find_of_nodup opts h1 off moff.1
  have two (p : Opt) (hp : p ∈ opts) (hd : p.dest = dest) : p = on ∨ p = off := by
    have : p ∈ opts.filter (·.dest = dest) := by simp [hp, hd]
    rw [h2] at this
    simpa using this
  have hinit : Dict.get? (initial suppress opts []) dest =
      ([on, off].filterMap (·.initial suppress)).head? := by
    rw [get_initial, h2]
    rfl
  by_cases hg : isGiven given off.name = true
  · rw [if_pos hg]
    have key := get_steps opts given (initial suppress opts []) off foff ?_
    · rw [moff.2] at key
      rw [key, after, hoff]
      simp only [hg, if_true]
    · intro x hx p hp hd hxp
      rcases two p hp (hd.trans moff.2) with rfl | rfl
      · exfalso
        unfold isGiven at hg
        obtain ⟨y, hy, hyn⟩ := List.any_eq_true.mp hg
        simp only [decide_eq_true_eq] at hyn
        simp only [accepted, Bool.and_eq_true, List.all_eq_true, Bool.not_eq_true'] at ha
        have hc := ha.2 x hx y hy
        rw [conflict, hxp, hyn, fon, foff] at hc
        simp [hgon, hgoff, hne] at hc
      · rfl
  · rw [if_neg hg]
    have key := get_steps opts given (initial suppress opts []) on fon ?_
    · rw [mon.2] at key
      rw [key, after, hon, hinit]
    · intro x hx p hp hd hxp
      rcases two p hp (hd.trans mon.2) with rfl | rfl
      · rfl
      · exfalso
        apply hg
        unfold isGiven
        exact List.any_eq_true.mpr ⟨x, hx, by simp [hxp]⟩

theorem parsed_switch (opts : List Opt) (h1 : (opts.map (·.name)).Nodup) (on off : Opt)
    (g dest : String) (h2 : opts.filter (·.dest = dest) = [on, off]) (hon : on.action = .storeTrue)
    (hoff : off.action = .storeFalse) (hgon : on.group = some g) (hgoff : off.group = some g)
    (hne : on.name ≠ off.name) (given : List Occ) (ha : accepted opts given = true) :
    Dict.get? (given.foldl (step opts) (initial true opts [])) dest =
      if isGiven given off.name then some (.bool false)
      else if isGiven given on.name then some (.bool true)
      else ([on, off].filterMap (·.initial true)).head? :=
  parsed_switch_any true opts h1 on off g dest h2 hon hoff hgon hgoff hne given ha

theorem own_of (opts : List Opt) (h1 : (opts.map (·.name)).Nodup) (o : Opt) (ho : o ∈ opts)
    (h2 : (opts.map (·.dest)).count o.dest = 1) : Own opts o := by
  constructor
  · exact find_of_nodup opts h1 o ho
  · have hlen : (opts.filter (·.dest = o.dest)).length = 1 := by
      rw [← h2, List.count, List.countP_map, List.countP_eq_length_filter]
      congr 2
    obtain ⟨q, hq⟩ := List.length_eq_one_iff.mp hlen
    have : o ∈ opts.filter (·.dest = o.dest) := by simp [ho]
    rw [hq, List.mem_singleton] at this
    rw [hq, this]

/-- An option which is kept, under its default. -/
theorem parsed_store_any (suppress : Bool) {opts : List Opt} (given : List Occ)
    (name dest : String) (d : Val) (choices : Option (List String)) (group : Option String)
    (hm : Own opts ⟨name, dest, .store, some d, choices, group⟩) :
    Dict.get? (given.foldl (step opts) (initial suppress opts [])) dest =
      some ((lastGiven given name).getD d) := by
  have h := parsed suppress opts given _ hm.1 hm.2
  simp only [after, Opt.initial] at h
  rw [h]
  cases lastGiven given name <;> rfl

theorem parsed_store {opts : List Opt} (given : List Occ)
    (name dest : String) (d : Val) (choices : Option (List String)) (group : Option String)
    (hm : Own opts ⟨name, dest, .store, some d, choices, group⟩) :
    Dict.get? (given.foldl (step opts) (initial true opts [])) dest =
      some ((lastGiven given name).getD d) :=
  parsed_store_any true given name dest d choices group hm

/-- A flag which sets. -/
theorem parsed_set_any (suppress : Bool) {opts : List Opt} (given : List Occ)
    (name dest : String) (choices : Option (List String)) (group : Option String)
    (hm : Own opts ⟨name, dest, .storeTrue, some (.bool false), choices, group⟩) :
    Dict.get? (given.foldl (step opts) (initial suppress opts [])) dest =
      some (.bool (isGiven given name)) := by
  have h := parsed suppress opts given _ hm.1 hm.2
  simp only [after, Opt.initial] at h
  rw [h]
  cases isGiven given name <;> rfl

theorem parsed_set {opts : List Opt} (given : List Occ)
    (name dest : String) (choices : Option (List String)) (group : Option String)
    (hm : Own opts ⟨name, dest, .storeTrue, some (.bool false), choices, group⟩) :
    Dict.get? (given.foldl (step opts) (initial true opts [])) dest =
      some (.bool (isGiven given name)) :=
  parsed_set_any true given name dest choices group hm

/-- A flag which clears. -/
theorem parsed_clear {opts : List Opt} (given : List Occ)
    (name dest : String) (choices : Option (List String)) (group : Option String)
    (hm : Own opts ⟨name, dest, .storeFalse, some (.bool true), choices, group⟩) :
    Dict.get? (given.foldl (step opts) (initial true opts [])) dest =
      some (.bool (!isGiven given name)) := by
  have h := parsed true opts given _ hm.1 hm.2
  simp only [after, Opt.initial] at h
  rw [h]
  cases isGiven given name <;> rfl

/-- The common options, as parsed. -/
structure CommonParsed (given : List Occ) (args : Dict String Val) : Prop where
  show_ : Dict.get? args "show" = some (.bool (isGiven given "--show"))
  filename : Dict.get? args "filename" = some ((lastGiven given "--filename").getD .none)
  figsize : Dict.get? args "figsize" = some ((lastGiven given "--figsize").getD .none)
  title : Dict.get? args "title" = some ((lastGiven given "--title").getD .none)
  style : Dict.get? args "style" = some ((lastGiven given "--style").getD (.str "bmh"))
  version : Dict.get? args "with_version" = some (.bool (!isGiven given "--no-show-version"))

theorem commonParsed {opts : List Opt} (given : List Occ)
    (h : ∀ o ∈ common_output_plot_options ++ common_plot_appearence_options, Own opts o) :
    CommonParsed given (given.foldl (step opts) (initial true opts [])) where
  show_ := parsed_set given "--show" "show" none none
    (h _ (by simp [common_output_plot_options]))
  filename := parsed_store given "--filename" "filename" .none none none
    (h _ (by simp [common_output_plot_options]))
  figsize := parsed_store given "--figsize" "figsize" .none none none
    (h _ (by simp [common_output_plot_options]))
  title := parsed_store given "--title" "title" .none none none
    (h _ (by simp [common_plot_appearence_options]))
  style := parsed_store given "--style" "style" (.str "bmh") none none
    (h _ (by simp [common_plot_appearence_options, DEFAULT_MPL_STYLE]))
  version := parsed_clear given "--no-show-version" "with_version" none none
    (h _ (by simp [common_plot_appearence_options]))

/-- What the common options are turned into. -/
theorem commonArgs {opts : List Opt} (given : List Occ)
    (h : ∀ o ∈ common_plotting_options, Own opts o) :
    get_common_plot_args (given.foldl (step opts) (initial true opts [])) = .ok
      [("title", (lastGiven given "--title").getD .none),
       ("mpl_style", (lastGiven given "--style").getD (.str "bmh")),
       ("with_version", .bool (!isGiven given "--no-show-version")),
       ("show", .bool (isGiven given "--show")),
       ("plot_filename", (lastGiven given "--filename").getD .none),
       ("figargs", figsize ((lastGiven given "--figsize").getD .none)),
       ("start", (lastGiven given "--start").getD (.num 0)),
       ("stop", (lastGiven given "--stop").getD (.num 90)),
       ("linestyle", (lastGiven given "--linestyle").getD (.str "-"))] := by
  obtain ⟨h1, h2, h3, h4, h5, h6⟩ := commonParsed given
    (fun o ho => h o (List.mem_append_left _ ho))
  have hs := parsed_store given "--start" "start" (.num 0) none none
    (h _ (by simp [common_plotting_options]))
  have ht := parsed_store given "--stop" "stop" (.num 90) none none
    (h _ (by simp [common_plotting_options]))
  have hl := parsed_store given "--linestyle" "linestyle" (.str "-") none none
    (h _ (by simp [common_plotting_options]))
  simp only [get_common_plot_args, get_common_plot_appearence_args, get_common_plot_output_args,
    items, Dict.getItem, h1, h2, h3, h4, h5, h6, hs, ht, hl, figsize, List.cons_append,
    List.nil_append]
  cases (lastGiven given "--figsize").getD .none <;> rfl

theorem bind_ok (s : Sig) (kw : Dict String Val) (hn : (Dict.keys kw).Nodup)
    (hk : s.kwargs = true ∨ (Dict.keys kw).all (· ∈ s.required ++ Dict.keys s.optional) = true)
    (hr : s.required.all (· ∈ Dict.keys kw) = true) :
    bind s kw = .ok
      (s.required.map (fun k => (k, getD kw k .none)) ++
        s.optional.map (fun p => (p.1, getD kw p.1 p.2)),
       kw.filter fun p => !decide (p.1 ∈ s.required ++ Dict.keys s.optional)) := by
  unfold bind
  simp only
  rw [if_neg (not_not.mpr hn), if_neg, if_neg (not_not.mpr hr)]
  rintro ⟨h1, h2⟩
  rcases hk with h | h
  · exact h1 h
  · exact h2 h

/-- A function without wrappers and without `**kwargs`. -/
theorem bindAll_one (s : Sig) (kw : Dict String Val) (hn : (Dict.keys kw).Nodup)
    (hk : (Dict.keys kw).all (· ∈ s.required ++ Dict.keys s.optional) = true)
    (hr : s.required.all (· ∈ Dict.keys kw) = true) :
    bindAll [s] kw = .ok (s.required.map (fun k => (k, getD kw k .none)) ++
        s.optional.map (fun p => (p.1, getD kw p.1 p.2))) := by
  rw [bindAll, bind_ok s kw hn (Or.inr hk) hr]
  have hf : (kw.filter fun p => !decide (p.1 ∈ s.required ++ Dict.keys s.optional)) = [] := by
    apply List.filter_eq_nil_iff.mpr
    intro p hp
    have := List.all_eq_true.mp hk p.1 (List.mem_map_of_mem hp)
    simp only [this, Bool.not_true, Bool.false_eq_true, not_false_eq_true]
  simp only [hf, bindAll, List.append_nil]

theorem figsize_orElse (v : Val) : (figsize v).orElse (.figargs none) = figsize v := by
  cases v <;> rfl

theorem get_append {β : Type} (a b : Dict String β) (k : String) :
    Dict.get? (a ++ b) k = (match Dict.get? a k with | some v => some v | none => Dict.get? b k) := by
  induction a with
  | nil => rfl
  | cons p a ih =>
    obtain ⟨q, w⟩ := p
    by_cases h : q = k <;> simp [Dict.get?, h, ih]

theorem get_mapped {β : Type} (l : List String) (f : String → β) (k : String) :
    Dict.get? (l.map fun k => (k, f k)) k = if k ∈ l then some (f k) else none := by
  induction l with
  | nil => rfl
  | cons q l ih =>
    by_cases h : q = k
    · simp [Dict.get?, h]
    · have h' : ¬ k = q := fun e => h e.symm
      simp [Dict.get?, h, h', ih]

theorem get_mapped_snd {β γ : Type} (l : Dict String β) (f : String → β → γ) (k : String) :
    Dict.get? (l.map fun p => (p.1, f p.1 p.2)) k = (Dict.get? l k).map (f k) := by
  induction l with
  | nil => rfl
  | cons p l ih =>
    obtain ⟨q, w⟩ := p
    by_cases h : q = k <;> simp [Dict.get?, h, ih]

theorem get_of_mem_keys {β : Type} (d : Dict String β) (k : String) (h : k ∈ Dict.keys d) :
    ∃ v, Dict.get? d k = some v := by
  induction d with
  | nil => simp [Dict.keys] at h
  | cons p d ih =>
    obtain ⟨q, w⟩ := p
    by_cases hq : q = k
    · exact ⟨w, by simp [Dict.get?, hq]⟩
    · obtain ⟨v, hv⟩ := ih (by
        simp only [Dict.keys, List.map_cons, List.mem_cons] at h
        rcases h with h | h
        · exact absurd h.symm hq
        · exact h)
      exact ⟨v, by simp [Dict.get?, hq, hv]⟩

theorem str_orElse (s : String) (d : Val) : (Val.str s).orElse d = .str s := rfl

theorem get_of_not_mem_keys {β : Type} (l : Dict String β) (k : String)
    (hc : k ∉ Dict.keys l) : Dict.get? l k = none := by
  induction l with
  | nil => rfl
  | cons p l ih =>
    obtain ⟨q, w⟩ := p
    simp only [Dict.keys, List.map_cons, List.mem_cons, not_or] at hc
    have : ¬ q = k := fun e => hc.1 e.symm
    simp only [Dict.get?, this, if_false]
    exact ih hc.2

/-- A parameter is what it is called with, or its default. -/
theorem bound_get (s : Sig) (kw : Dict String Val) (k : String)
    (hr : s.required.all (· ∈ Dict.keys kw) = true) :
    getD (s.required.map (fun k => (k, getD kw k .none)) ++
      s.optional.map (fun p => (p.1, getD kw p.1 p.2))) k .none =
      if k ∈ s.required ++ Dict.keys s.optional then getD kw k (getD s.optional k .none)
      else .none := by
  have hm := get_mapped s.required (fun k => getD kw k .none) k
  have ho := get_mapped_snd s.optional (fun k d => getD kw k d) k
  rw [getD, get_append, hm, ho]
  by_cases h : k ∈ s.required
  · rw [if_pos h, if_pos (List.mem_append_left _ h)]
    obtain ⟨v, hv⟩ := get_of_mem_keys kw k (by simpa using (List.all_eq_true.mp hr) k h)
    simp [getD, hv]
  · rw [if_neg h]
    cases hg : Dict.get? s.optional k with
    | none =>
      rw [if_neg]
      · rfl
      · intro hc
        rcases List.mem_append.mp hc with hc | hc
        · exact h hc
        · obtain ⟨v, hv⟩ := get_of_mem_keys _ _ hc
          simp [hv] at hg
    | some d =>
      rw [if_pos]
      · simp [getD, hg]
      · apply List.mem_append_right
        by_contra hc
        have := get_of_not_mem_keys _ _ hc
        simp [this] at hg

/-- The keywords all plots get. -/
def common6 (given : List Occ) : Dict String Val :=
  [("title", (lastGiven given "--title").getD .none),
   ("mpl_style", (lastGiven given "--style").getD (.str "bmh")),
   ("with_version", .bool (!isGiven given "--no-show-version")),
   ("show", .bool (isGiven given "--show")),
   ("plot_filename", (lastGiven given "--filename").getD .none),
   ("figargs", figsize ((lastGiven given "--figsize").getD .none))]

/-- The names of keywords taken by others than the drawing function. -/
def reserved : List String :=
  ["filename", "soln_range", "title", "mpl_style", "with_version", "show", "plot_filename",
   "figargs"]

/-- The names of keywords in a command fit together: nothing is passed twice, everything
passed is known, nothing needed is missing. -/
structure Wired (c : Command) (names keys : List String) : Prop where
  nodup : (reserved ++ keys).Nodup
  known : (reserved ++ keys).all (· ∈ c.func.required ++ Dict.keys c.func.optional) = true
  needed : c.func.required.all (· ∈ reserved ++ keys) = true
  call : c.call = same (["figargs", "title", "filename", "mpl_style", "with_version"] ++ names)
  namesNodup :
    (["figargs", "title", "filename", "mpl_style", "with_version"] ++ names).Nodup
  namesKnown : names.all (· ∈ c.func.required ++ Dict.keys c.func.optional) = true
  namesFree : names.all (· ∉ reserved) = true
  close : Dict.get? c.func.optional "close" = some (.bool true)
  closeFree : "close" ∉ keys

theorem run_eq {α : Type} (c : Command) (names : List String) (rest : Dict String Val)
    (hw : Wired c names (Dict.keys rest)) (cmd : Dict String (Dict String Val))
    (load : String → Except PyErr RunHead)
    (draw : RunHead → Val → Dict String Val → Except PyErr α) (file range : String)
    (given : List Occ) (h : accepted (logging_options ++ c.options) given = true)
    (hs : split (given.foldl (step (logging_options ++ c.options))
      (initial true (logging_options ++ c.options) [])) c.splitters = .ok cmd)
    (hm : callMain c.main ("soln_range" :: Dict.keys cmd) = true)
    (hp : passed cmd c.passes = common6 given ++ rest)
    (l : List (String × Source))
    (hb : ∀ E : Bool, bindAll c.sigs (("use_E_r", .bool E) ::
      names.map fun k => (k, getD rest k (getD c.func.optional k .none))) =
        .ok (arguments given E l)) :
    c.run load draw file range given = expected load draw file range given l := by
  unfold Command.run parse_args
  rw [if_pos h]
  simp only [hs, hm, not_true, if_false]
  unfold expected
  cases hl : load file with
  | error e => rfl
  | ok run =>
  simp only
  set kw : Dict String Val := ("filename", .str file) :: ("soln_range", .str range) ::
    passed cmd c.passes with hkw
  have hkeys : Dict.keys kw = reserved ++ Dict.keys rest := by
    rw [hkw, hp]; rfl
  have hreq : c.func.required.all (· ∈ Dict.keys kw) = true := by rw [hkeys]; exact hw.needed
  rw [bind_ok c.func kw (by rw [hkeys]; exact hw.nodup) (Or.inr (by rw [hkeys]; exact hw.known))
    hreq]
  simp only
  generalize hP : (c.func.required.map (fun k => (k, getD kw k .none)) ++
    c.func.optional.map (fun p => (p.1, getD kw p.1 p.2))) = P
  have get (k : String) (hk : k ∈ c.func.required ++ Dict.keys c.func.optional) :
      getD P k .none = getD kw k (getD c.func.optional k .none) := by
    rw [← hP, bound_get c.func kw k hreq, if_pos hk]
  have known (k : String) (hk : k ∈ reserved) :
      k ∈ c.func.required ++ Dict.keys c.func.optional := by
    simpa using (List.all_eq_true.mp hw.known) k (List.mem_append_left _ hk)
  have hc (k : String) (d : Val) (hk : k ∈ names) : getD kw k d = getD rest k d := by
    have := (List.all_eq_true.mp hw.namesFree) k hk
    simp only [reserved, decide_eq_true_eq, List.mem_cons, not_or, List.not_mem_nil] at this
    obtain ⟨h1, h2, h3, h4, h5, h6, h7, h8, -⟩ := this
    rw [hkw, hp]
    simp [common6, getD, Dict.get?, Ne.symm h1, Ne.symm h2, Ne.symm h3, Ne.symm h4,
      Ne.symm h5, Ne.symm h6, Ne.symm h7, Ne.symm h8]
  have hpick : pick P c.call = [("figargs", figsize ((lastGiven given "--figsize").getD .none)),
      ("title", (lastGiven given "--title").getD .none), ("filename", .str file),
      ("mpl_style", (lastGiven given "--style").getD (.str "bmh")),
      ("with_version", .bool (!isGiven given "--no-show-version"))] ++
      names.map fun k => (k, getD rest k (getD c.func.optional k .none)) := by
    rw [hw.call, pick, same, List.map_map, List.map_append]
    congr 1
    · simp only [List.map_cons, List.map_nil, Function.comp_apply]
      rw [get "figargs" (known _ (by simp [reserved])),
        get "title" (known _ (by simp [reserved])),
        get "filename" (known _ (by simp [reserved])),
        get "mpl_style" (known _ (by simp [reserved])),
        get "with_version" (known _ (by simp [reserved])), hkw, hp]
      simp [common6, getD, Dict.get?]
    · apply List.map_congr_left
      intro k hk
      simp only [Function.comp_apply]
      rw [get k (by simpa using (List.all_eq_true.mp hw.namesKnown) k hk), hc k _ hk]
  have hrange : getD P "soln_range" .none = .str range := by
    rw [get _ (known _ (by simp [reserved])), hkw]
    simp [getD, Dict.get?]
  have hcl := hw.close
  have hclose : getD P "close" .none = .bool true := by
    have hk : "close" ∈ c.func.required ++ Dict.keys c.func.optional := by
      apply List.mem_append_right
      by_contra hn
      rw [get_of_not_mem_keys _ _ hn] at hcl
      cases hcl
    rw [get _ hk, hkw, hp]
    have : Dict.get? rest "close" = none := get_of_not_mem_keys _ _ hw.closeFree
    simp [common6, getD, Dict.get?, this, hcl]
  have hshow : getD P "show" .none = .bool (isGiven given "--show") := by
    rw [get _ (known _ (by simp [reserved])), hkw, hp]
    simp [common6, getD, Dict.get?]
  have hsave : getD P "plot_filename" .none = (lastGiven given "--filename").getD .none := by
    rw [get _ (known _ (by simp [reserved])), hkw, hp]
    simp [common6, getD, Dict.get?]
  rw [hrange, hpick]
  set more : Dict String Val := names.map fun k => (k, getD rest k (getD c.func.optional k .none))
    with hmore
  have hmk : Dict.keys more = names := by
    rw [hmore, Dict.keys, List.map_map]
    exact List.map_id' _
  have hfilter : (more.filter fun p => !decide (p.1 ∈ single_sig.required ++
      Dict.keys single_sig.optional)) = more := by
    apply List.filter_eq_self.mpr
    intro p hpm
    have hpn : p.1 ∈ names := by
      rw [← hmk]; exact List.mem_map_of_mem hpm
    have := (List.all_eq_true.mp hw.namesFree) p.1 hpn
    simp only [reserved, decide_eq_true_eq, List.mem_cons, not_or, List.not_mem_nil] at this
    obtain ⟨h1, h2, h3, h4, h5, h6, h7, h8, -⟩ := this
    simp [single_sig, Dict.keys, h1, h3, h4, h5, h8]
  unfold single_solution_plotter
  rw [bind_ok]
  · simp only [List.filter_append, hfilter]
    rw [List.filter_eq_nil_iff.mpr (by simp [single_sig, Dict.keys])]
    rw [List.nil_append, hb run.use_E_r]
    simp only [str_orElse]
    cases draw run (.str range) (arguments given run.use_E_r l) with
    | error e => rfl
    | ok contents =>
      simp only [plot_output_wrapper, hclose, hshow, hsave, expectedFigure, Val.truthy]
      have hf := figsize_orElse ((lastGiven given "--figsize").getD .none)
      simp [single_sig, getD, Dict.get?, str_orElse, Val.text, hf]
  · have hn := hw.namesNodup
    rw [← hmk] at hn
    exact hn
  · exact Or.inl rfl
  · rfl

/-- The lookup of an argument. -/
theorem get_arguments (given : List Occ) (E : Bool) (m : List (String × Source))
    (hn : (m.map (·.1)).Nodup) (p : String × Source) (hp : p ∈ m) :
    Dict.get? (arguments given E m) p.1 = some (p.2.value given E) := by
  induction m with
  | nil => cases hp
  | cons q m ih =>
    simp only [List.map_cons, List.nodup_cons] at hn
    rcases List.mem_cons.mp hp with rfl | hp
    · simp [arguments, Dict.get?]
    · have : q.1 ≠ p.1 := fun e => hn.1 (e ▸ List.mem_map_of_mem hp)
      have ih := ih hn.2 hp
      simp only [arguments] at ih ⊢
      simp only [List.map_cons, Dict.get?, this, if_false, ih]

/-- A drawing function without further wrappers gets each argument by its name. -/
theorem bind_table (s : Sig) (hs : s.required = []) (given : List Occ) (E : Bool)
    (names : List String) (m l : List (String × Source)) (rest : Dict String Val)
    (hrest : rest = arguments given E m) (dflt : String → Val)
    (hm : (m.map (·.1)).Nodup) (hn : ("use_E_r" :: names).Nodup)
    (hk : ∀ k ∈ "use_E_r" :: names, k ∈ Dict.keys s.optional)
    (hl : l.map (·.1) = Dict.keys s.optional)
    (hp : ∀ p ∈ l, p = ("use_E_r", .run) ∨ (p ∈ m ∧ p.1 ∈ names)) :
    bindAll [s] (("use_E_r", .bool E) :: names.map fun k => (k, getD rest k (dflt k))) =
      .ok (arguments given E l) := by
  set kw : Dict String Val := ("use_E_r", .bool E) :: names.map fun k => (k, getD rest k (dflt k))
    with hkw
  have hkeys : Dict.keys kw = "use_E_r" :: names := by
    rw [hkw, Dict.keys, List.map_cons, List.map_map]
    congr 1
    exact List.map_id' _
  have hall : (Dict.keys kw).all (· ∈ s.required ++ Dict.keys s.optional) = true := by
    rw [hkeys, hs, List.nil_append]
    exact List.all_eq_true.mpr fun k h => decide_eq_true (hk k h)
  rw [bindAll, bind_ok s kw (by rw [hkeys]; exact hn) (Or.inr hall) (by rw [hs]; rfl)]
  simp only [bindAll, hs, List.map_nil, List.nil_append]
  have hf : (kw.filter fun p => !decide (p.1 ∈ Dict.keys s.optional)) = [] := by
    apply List.filter_eq_nil_iff.mpr
    intro p hpk
    have : p.1 ∈ Dict.keys kw := List.mem_map_of_mem hpk
    rw [hkeys] at this
    simp [hk _ this]
  rw [hf, List.append_nil]
  congr 1
  have hget (p : String × Source) (hpl : p ∈ l) (d : Val) :
      getD kw p.1 d = p.2.value given E := by
    rcases hp p hpl with rfl | ⟨h1, h2⟩
    · simp [hkw, getD, Dict.get?, Source.value]
    · have hne : ¬ "use_E_r" = p.1 := by
        rintro e
        exact (List.nodup_cons.mp hn).1 (e ▸ h2)
      have hg := get_mapped names (fun k => getD rest k (dflt k)) p.1
      rw [if_pos h2] at hg
      simp only [hkw, getD, Dict.get?, hne, if_false] at hg ⊢
      rw [hg, hrest, get_arguments given E m hm p h1]
      rfl
  clear hf hall hk hp hkeys hn
  generalize s.optional = o at hl
  induction l generalizing o with
  | nil =>
    cases o with
    | nil => rfl
    | cons q o => simp [Dict.keys] at hl
  | cons p l ih =>
    cases o with
    | nil => simp [Dict.keys] at hl
    | cons q o =>
      simp only [Dict.keys, List.map_cons, List.cons.injEq] at hl
      simp only [arguments, List.map_cons]
      have h0 := hget p (by simp) q.2
      rw [hl.1] at h0
      rw [h0, hl.1]
      congr 1
      exact ih (fun p hp d => hget p (List.mem_cons_of_mem _ hp) d) o hl.2

theorem own_eq {α : Type} (name : String) (options : List Opt) (linestyle : Val)
    (getPlotArgs : List (String × String × Val)) (func draw' : Dict String Val)
    (call : List String) (own : List (String × Source)) (given : List Occ)
    (hd : Distinct (logging_options ++ (common_plotting_options ++ options)))
    (hg : ∀ E : Bool, gets getPlotArgs (given.foldl
      (step (logging_options ++ (common_plotting_options ++ options)))
      (initial true (logging_options ++ (common_plotting_options ++ options)) [])) =
      .ok (arguments given E own))
    (hw : Wired (ownCommand name options linestyle getPlotArgs func draw' call)
      (["linestyle", "start", "stop"] ++ call)
      (["start", "stop", "linestyle"] ++ own.map (·.1)))
    (l : List (String × Source))
    (hn : ("use_E_r" :: "linestyle" :: "start" :: "stop" :: call).Nodup)
    (hk : ∀ k ∈ call, k ∈ Dict.keys draw')
    (hl : l.map (·.1) = Dict.keys (drawSig linestyle draw').optional)
    (hp : ∀ p ∈ l, p = ("use_E_r", .run) ∨ p ∈ common ∨ (p ∈ own ∧ p.1 ∈ call))
    (load : String → Except PyErr RunHead)
    (draw : RunHead → Val → Dict String Val → Except PyErr α) (file range : String)
    (h : accepted (logging_options ++ (common_plotting_options ++ options)) given = true) :
    (ownCommand name options linestyle getPlotArgs func draw' call).run load draw file range given
      = expected load draw file range given l := by
  have hca := commonArgs given (fun o ho => hd o (by simp only [List.mem_append]; tauto))
  set c := ownCommand name options linestyle getPlotArgs func draw' call with hc
  let m : List (String × Source) := [("start", .option "--start" (.num 0)),
    ("stop", .option "--stop" (.num 90)), ("linestyle", .option "--linestyle" (.str "-"))] ++ own
  have hkeys : Dict.keys (arguments given false m) =
      ["start", "stop", "linestyle"] ++ own.map (·.1) := by
    simp [m, arguments, Dict.keys, Function.comp_def]
  have hm : m.map (·.1) = ["start", "stop", "linestyle"] ++ own.map (·.1) := by simp [m]
  have hrest (E : Bool) : arguments given false m = arguments given E m := by
    have h1 := hg false
    rw [hg E] at h1
    injection h1 with h1
    simp only [m, arguments, List.map_append] at h1 ⊢
    rw [h1]
    rfl
  refine run_eq c (["linestyle", "start", "stop"] ++ call) (arguments given false m)
    (by rw [hkeys]; exact hw)
    [("common_plot_args", common6 given ++ arguments given false (m.take 3)),
      ("plot_args", arguments given false own)] load draw file range given h ?_ ?_ ?_ l ?_
  · simp only [hc, ownCommand] at hca ⊢
    simp only [split, hca, hg false]
    rfl
  · rfl
  · simp [hc, ownCommand, passed, Dict.get?, m, arguments]
  · intro E
    refine bind_table (drawSig linestyle draw') rfl given E _ m l _ (hrest E) _ ?_ hn
      ?_ hl ?_
    · rw [hm]
      exact (List.nodup_append.mp hw.nodup).2.1
    · intro k hkm
      simp only [List.cons_append, List.nil_append, List.mem_cons] at hkm
      simp only [drawSig, Dict.keys, List.map_append, List.map_cons, List.map_nil, List.mem_append,
        List.mem_cons]
      rcases hkm with rfl | rfl | rfl | rfl | hkm
      · simp
      · simp
      · simp
      · simp
      · exact Or.inl (Or.inr (hk k hkm))
    · intro p hpl
      rcases hp p hpl with h | h | ⟨h1, h2⟩
      · exact Or.inl h
      · right
        simp only [common, List.mem_cons, List.not_mem_nil, or_false] at h
        rcases h with rfl | rfl | rfl <;> simp [m]
      · exact Or.inr ⟨List.mem_append_right _ h1, List.mem_append_right _ h2⟩

/-- Commands with the common options only. -/
theorem common_eq {α : Type} (name : String) (linestyle : Val) (given : List Occ)
    (load : String → Except PyErr RunHead)
    (draw : RunHead → Val → Dict String Val → Except PyErr α) (file range : String)
    (h : accepted (logging_options ++ common_plotting_options) given = true) :
    (commonCommand name linestyle).run load draw file range given =
      expected load draw file range given (common ++ [("use_E_r", .run)]) := by
  have hd : Distinct (logging_options ++ common_plotting_options) := by
    refine distinct _ ?_ ?_ <;>
    · simp only [logging_options, common_plotting_options, common_output_plot_options,
        common_plot_appearence_options, List.map_append, List.map_cons, List.map_nil]
      decide +kernel
  have hca := commonArgs given (fun o ho => hd o (by simp only [List.mem_append]; tauto))
  let m : List (String × Source) := [("start", .option "--start" (.num 0)),
    ("stop", .option "--stop" (.num 90)), ("linestyle", .option "--linestyle" (.str "-"))]
  have hw : Wired (commonCommand name linestyle) ["linestyle", "start", "stop"]
      ["start", "stop", "linestyle"] := by
    constructor <;> simp [reserved, commonCommand, plotSig, fileSig, plotCall, same, Dict.keys,
      Dict.get?]
  refine run_eq (commonCommand name linestyle) ["linestyle", "start", "stop"]
    (arguments given false m) hw
    [("common_plot_args", common6 given ++ arguments given false m)]
    load draw file range given h ?_ rfl ?_ _ ?_
  · simp only [commonCommand] at hca ⊢
    simp only [split, hca]
    rfl
  · simp [commonCommand, passed, Dict.get?]
  · intro E
    refine bind_table (drawSig linestyle []) rfl given E _ m _ _ rfl _ ?_ ?_ ?_ ?_ ?_
    · decide +kernel
    · decide +kernel
    · simp [drawSig, Dict.keys]
    · simp [drawSig, Dict.keys, common]
    · simp [common, m]

end DiscSolver.Cli
