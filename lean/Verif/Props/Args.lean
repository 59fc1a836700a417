import Verif.Lemmas.Args

/-!
# C89, C90: what the command line and the environment mean
-/

namespace Sigstore.Props

open Sigstore.Cli Sigstore.Spec Sigstore.Args

/-! ## The tables -/

theorem table_main : Table mainOptions := ⟨by decide +kernel, by decide +kernel⟩

theorem table_common : Table commonOptions := ⟨by decide +kernel, by decide +kernel⟩

theorem table_command (c : Command) : Table c.options := by
  cases c <;> exact ⟨by decide +kernel, by decide +kernel⟩

theorem nodup_main : (mainOptions.map Opt.dest).Nodup := by decide +kernel

theorem nodup_common : (commonOptions.map Opt.dest).Nodup := by decide +kernel

theorem nodup_command (c : Command) : (c.options.map Opt.dest).Nodup := by cases c <;> decide +kernel

/-- the switch that is the default of an option -/
def switchOf (o : Opt) : Option Str :=
  match o.default with
  | .envFlag x => some x
  | _ => none

theorem switchOf_iff (o : Opt) (x : Str) : switchOf o = some x ↔ o.default = .envFlag x := by
  unfold switchOf
  cases o.default <;> simp

theorem buildParsers_iff (environ : Environ) : ∀ cs : List Command, buildParsers environ cs = .ok () ↔
    (∃ ns, initial environ mainOptions = .ok ns) ∧ ∀ c ∈ cs, ∃ ns, initial environ c.options = .ok ns
  | [] => by
    rw [buildParsers]
    cases initial environ mainOptions <;> simp
  | c :: cs => by
    have ih := buildParsers_iff environ cs
    rw [buildParsers]
    cases h : initial environ c.options with
    | error e =>
      dsimp only
      constructor
      · intro h'; cases h'
      · rintro ⟨_, h'⟩
        obtain ⟨ns, h'⟩ := h' c List.mem_cons_self
        rw [h] at h'; cases h'
    | ok ns =>
      dsimp only
      rw [ih]
      refine and_congr_right fun _ => ?_
      constructor
      · intro h' c' hc'
        rcases List.mem_cons.1 hc' with rfl | hc'
        · exact ⟨ns, h⟩
        · exact h' c' hc'
      · intro h' c' hc'
        exact h' c' (List.mem_cons_of_mem _ hc')

theorem buildParsers_error (environ : Environ) : ∀ (cs : List Command) (e : Exc), buildParsers environ cs = .error e →
    e = .valueError
  | [], e, h => by
    rw [buildParsers] at h
    split at h
    · rename_i e' he; obtain rfl := Except.error.inj h; exact initial_error _ _ _ he
    · cases h
  | c :: cs, e, h => by
    rw [buildParsers] at h
    split at h
    · rename_i e' he; obtain rfl := Except.error.inj h; exact initial_error _ _ _ he
    · exact buildParsers_error environ cs e h

theorem mem_commands (c : Command) : c ∈ commands := by cases c <;> decide

theorem environOk_iff (environ : Environ) : buildParsers environ commands = .ok () ↔ EnvironOk environ := by
  rw [buildParsers_iff]
  simp only [initial_iff, boolify_ok_iff]
  unfold EnvironOk
  constructor
  · rintro ⟨h1, h2⟩ x hx
    have : ∀ x ∈ switches, (∃ o ∈ mainOptions, switchOf o = some x.toList) ∨
        ∃ c ∈ commands, ∃ o ∈ c.options, switchOf o = some x.toList := by decide +kernel
    rcases this x hx with ⟨o, ho, hs⟩ | ⟨c, hc, o, ho, hs⟩
    · exact h1 o ho _ ((switchOf_iff _ _).1 hs)
    · exact h2 c hc o ho _ ((switchOf_iff _ _).1 hs)
  · intro h
    have m : ∀ x ∈ mainOptions.filterMap switchOf, ∃ s ∈ switches, s.toList = x := by decide +kernel
    have c : ∀ c ∈ commands, ∀ x ∈ c.options.filterMap switchOf, ∃ s ∈ switches, s.toList = x := by decide +kernel
    constructor
    · intro o ho x hx
      obtain ⟨s, hs, rfl⟩ := m x (List.mem_filterMap.2 ⟨o, ho, (switchOf_iff _ _).2 hx⟩)
      exact h s hs
    · intro c' hc' o ho x hx
      obtain ⟨s, hs, rfl⟩ := c c' hc' x (List.mem_filterMap.2 ⟨o, ho, (switchOf_iff _ _).2 hx⟩)
      exact h s hs

/-! ## What may be written -/

/-- the table has the documented options -/
structure Documents (opts : List Opt) (d : Documented) : Prop where
  values : ∀ n ∈ d.values, ∃ o ∈ opts, o.action = .store ∧ n.toList ∈ o.names
  flags : ∀ n ∈ d.flags, ∃ o ∈ opts, (o.action = .storeTrue ∨ o.action = .count) ∧ n.toList ∈ o.names
  onlyValues : ∀ o ∈ opts, o.action = .store → ∀ n ∈ o.names, ∃ s ∈ d.values, n = s.toList
  onlyFlags : ∀ o ∈ opts, (o.action = .storeTrue ∨ o.action = .count) → ∀ n ∈ o.names, ∃ s ∈ d.flags, n = s.toList

theorem documents_main : Documents mainOptions documentedTop :=
  ⟨by decide +kernel, by decide +kernel, by decide +kernel, by decide +kernel⟩

theorem documents_middle : Documents commonOptions documentedMiddle :=
  ⟨by decide +kernel, by decide +kernel, by decide +kernel, by decide +kernel⟩

theorem documents_command (c : Command) : Documents c.options (documented c) := by
  cases c <;> exact ⟨by decide +kernel, by decide +kernel, by decide +kernel, by decide +kernel⟩

theorem allows_iff {opts : List Opt} {d : Documented} (h : Documents opts d) (occ : Occ) :
    (∃ o ∈ opts, occ.name ∈ o.names ∧ Shape o occ) ↔ d.Allows occ := by
  unfold Shape Documented.Allows
  constructor
  · rintro ⟨o, ho, hn, ⟨ha, hv⟩ | ⟨ha, hv⟩⟩
    · obtain ⟨s, hs, e⟩ := h.onlyValues o ho ha _ hn
      exact .inl ⟨s, hs, e, hv⟩
    · obtain ⟨s, hs, e⟩ := h.onlyFlags o ho ha _ hn
      exact .inr ⟨s, hs, e, hv⟩
  · rintro (⟨n, hn, e, hv⟩ | ⟨n, hn, e, hv⟩)
    · obtain ⟨o, ho, ha, hm⟩ := h.values n hn
      exact ⟨o, ho, by rw [e]; exact hm, .inl ⟨ha, hv⟩⟩
    · obtain ⟨o, ho, ha, hm⟩ := h.flags n hn
      exact ⟨o, ho, by rw [e]; exact hm, .inr ⟨ha, hv⟩⟩

theorem required_iff (c : Command) (occs : List Occ) :
    (∀ o ∈ c.options, o.required = true → GivenS o.names occs) ↔ ∀ x ∈ requiredOptions c, Occurs [x] occs := by
  have h1 : ∀ o ∈ c.options, o.required = true → ∃ x ∈ requiredOptions c, o.names = [x].map String.toList := by
    cases c <;> decide +kernel
  have h2 : ∀ x ∈ requiredOptions c, ∃ o ∈ c.options, o.required = true ∧ o.names = [x].map String.toList := by
    cases c <;> decide +kernel
  constructor
  · intro h x hx
    obtain ⟨o, ho, hr, hn⟩ := h2 x hx
    rw [occurs_iff, ← hn]
    exact h o ho hr
  · intro h o ho hr
    obtain ⟨x, hx, hn⟩ := h1 o ho hr
    rw [hn, ← occurs_iff]
    exact h x hx

theorem no_required {opts : List Opt} (h : ∀ o ∈ opts, o.required = false) (occs : List Occ) :
    ∀ o ∈ opts, o.required = true → GivenS o.names occs := by
  intro o ho hr
  rw [h o ho] at hr
  cases hr

theorem givenD_iff {opts : List Opt} (ht : Table opts) {names : List String} {o : Opt} (ho : o ∈ opts)
    (hn : o.names = names.map String.toList) (occs : List Occ) : GivenD opts o.dest occs ↔ Occurs names occs := by
  rw [occurs_iff, ← hn]
  constructor
  · rintro ⟨o', ho', hd, hg⟩
    obtain rfl := ht.dests o' ho' o ho hd
    exact hg
  · intro hg; exact ⟨o, ho, rfl, hg⟩

theorem exclusive_iff (occs : List Occ) :
    (∀ d ∈ exclusiveGroup, ∀ d' ∈ exclusiveGroup, GivenD mainOptions d occs → GivenD mainOptions d' occs → d = d') ↔
    ∀ x ∈ ["--staging", "--instance", "--trust-config"], ∀ y ∈ ["--staging", "--instance", "--trust-config"],
      Occurs [x] occs → Occurs [y] occs → x = y := by
  have e1 : GivenD mainOptions "staging".toList occs ↔ Occurs ["--staging"] occs :=
    givenD_iff table_main (o := optFlag "--staging" "staging" (envFlag "SIGSTORE_STAGING")) (by decide) rfl occs
  have e2 : GivenD mainOptions "instance".toList occs ↔ Occurs ["--instance"] occs :=
    givenD_iff table_main (o := opt ["--instance"] "instance" .null) (by decide) rfl occs
  have e3 : GivenD mainOptions "trust_config".toList occs ↔ Occurs ["--trust-config"] occs :=
    givenD_iff table_main (o := opt ["--trust-config"] "trust_config" .null) (by decide) rfl occs
  have g : exclusiveGroup = ["staging".toList, "instance".toList, "trust_config".toList] := rfl
  have d1 : "staging".toList ≠ "instance".toList := by decide
  have d2 : "staging".toList ≠ "trust_config".toList := by decide
  have d3 : "instance".toList ≠ "trust_config".toList := by decide
  have f1 : "--staging" ≠ "--instance" := by decide
  have f2 : "--staging" ≠ "--trust-config" := by decide
  have f3 : "--instance" ≠ "--trust-config" := by decide
  rw [g]
  simp only [List.forall_mem_cons, List.not_mem_nil, false_imp_iff, forall_const, and_true, e1, e2, e3, d1, d2, d3, d1.symm,
    d2.symm, d3.symm, f1, f2, f3, f1.symm, f2.symm, f3.symm, implies_true]

theorem nested_iff (c : Command) :
    c.nested = true ↔ c ∈ [Command.verifyIdentity, .verifyGithub, .fixBundle, .updateTrustRoot] := by
  cases c <;> decide

/-- what the levels of a parsed line are -/
theorem parseArgs_ok {environ : Environ} {line : CommandLine} {ns : Namespace} (h : parseArgs environ line = .ok ns) :
    EnvironOk environ ∧ ∃ top middle sub,
      parseLevel environ mainOptions exclusiveGroup line.top = .ok (top, false) ∧
      (if line.command.nested = true then parseLevel environ commonOptions [] line.middle = .ok (middle, false)
        else middle = fun _ => none) ∧
      parseLevel environ line.command.options [] line.sub = .ok (sub, false) ∧
      line.command.arity line.positional = true ∧ ns = (sub.over middle).over top := by
  unfold parseArgs at h
  split at h
  · cases h
  · rename_i hb
    refine ⟨(environOk_iff environ).1 hb, ?_⟩
    split at h
    · cases h
    · rename_i top x h1
      split at h
      · cases h
      · rename_i middle y h2
        split at h
        · cases h
        · rename_i sub z h3
          split at h
          · cases h
          · rename_i hx
            obtain ⟨⟨⟨hx, hy⟩, hz⟩, ha⟩ : ((x = false ∧ y = false) ∧ z = false) ∧ line.command.arity line.positional = true := by
              simpa using hx
            subst hx hy hz
            refine ⟨top, middle, sub, h1, ?_, h3, ha, (Except.ok.inj h).symm⟩
            cases hn : line.command.nested with
            | true => rw [hn] at h2; rw [if_pos rfl]; simpa using h2
            | false =>
              rw [hn, if_neg Bool.false_ne_true] at h2
              rw [if_neg Bool.false_ne_true]
              exact (Prod.mk.inj (Except.ok.inj h2)).1.symm

/-- C89: a command line is accepted exactly if it is well-formed and the switches in the environment can be understood -/
theorem C89_accepted_iff (environ : Environ) (line : CommandLine) :
    (∃ ns, parseArgs environ line = .ok ns) ↔ EnvironOk environ ∧ LineOk line := by
  have arity : line.command.arity line.positional = true ↔
      match line.command with
      | .sign | .attest | .verifyIdentity | .verifyGithub => line.positional ≠ []
      | .trustInstance => ∃ root, line.positional = [root]
      | _ => line.positional = [] := by
    unfold Command.arity
    cases line.command <;> simp [List.length_eq_one_iff]
  have main : (∃ ns, parseLevel environ mainOptions exclusiveGroup line.top = .ok (ns, false)) ↔
      (∃ ns, initial environ mainOptions = .ok ns) ∧ (∀ o ∈ line.top, documentedTop.Allows o) ∧ _ :=
    (parseLevel_iff table_main _ _).trans (and_congr_right fun _ => and_congr
      (forall_congr' fun occ => imp_congr_right fun _ => allows_iff documents_main occ)
      ((and_iff_left (no_required (by decide +kernel) _)).trans (exclusive_iff line.top)))
  have middle : (∃ ns, parseLevel environ commonOptions [] line.middle = .ok (ns, false)) ↔
      (∃ ns, initial environ commonOptions = .ok ns) ∧ ∀ o ∈ line.middle, documentedMiddle.Allows o :=
    (parseLevel_iff table_common _ _).trans (and_congr_right fun _ =>
      (and_congr (forall_congr' fun occ => imp_congr_right fun _ => allows_iff documents_middle occ)
        (and_iff_left (no_required (by decide +kernel) _))).trans (and_iff_left (fun _ h => nomatch h)))
  have sub : (∃ ns, parseLevel environ line.command.options [] line.sub = .ok (ns, false)) ↔
      (∃ ns, initial environ line.command.options = .ok ns) ∧ (∀ o ∈ line.sub, (documented line.command).Allows o) ∧
        ∀ x ∈ requiredOptions line.command, Occurs [x] line.sub :=
    (parseLevel_iff (table_command _) _ _).trans (and_congr_right fun _ => and_congr
      (forall_congr' fun occ => imp_congr_right fun _ => allows_iff (documents_command _) occ)
      ((and_iff_right (fun _ h => nomatch h)).trans (required_iff _ _)))
  constructor
  · rintro ⟨ns, h⟩
    obtain ⟨he, top, mid, sb, h1, h2, h3, h4, _⟩ := parseArgs_ok h
    obtain ⟨_, m1, m2⟩ := main.1 ⟨_, h1⟩
    obtain ⟨_, s1, s2⟩ := sub.1 ⟨_, h3⟩
    refine ⟨he, m1, ?_, s1, m2, s2, arity.1 h4⟩
    intro hn
    rw [if_pos ((nested_iff _).2 hn)] at h2
    exact (middle.1 ⟨_, h2⟩).2
  · rintro ⟨he, hl⟩
    have hb := (environOk_iff environ).2 he
    obtain ⟨i1, i2⟩ := (buildParsers_iff environ _).1 hb
    have i3 : ∃ ns, initial environ commonOptions = .ok ns := i2 .trustInstance (mem_commands _)
    obtain ⟨top, h1⟩ := main.2 ⟨i1, hl.top, hl.exclusive⟩
    obtain ⟨sb, h3⟩ := sub.2 ⟨i2 _ (mem_commands _), hl.sub, hl.required⟩
    have h2 : ∃ mid, (if line.command.nested = true then parseLevel environ commonOptions [] line.middle
        else .ok (fun _ => none, false)) = .ok (mid, false) := by
      split
      · rename_i hn; exact middle.2 ⟨i3, hl.middle ((nested_iff _).1 hn)⟩
      · exact ⟨_, rfl⟩
    obtain ⟨mid, h2⟩ := h2
    unfold parseArgs
    rw [hb, h1]
    dsimp only
    rw [h2]
    dsimp only
    rw [h3]
    dsimp only
    rw [arity.2 hl.positional]
    exact ⟨_, rfl⟩

/-- C89: otherwise the exit status is 2, unless help was asked for; a switch that cannot be understood is an uncaught
`ValueError`, whatever the command -/
theorem C89_rejected (environ : Environ) (line : CommandLine) (e : Exc) (h : parseArgs environ line = .error e) :
    (¬ EnvironOk environ ∧ e = .valueError) ∨
    (EnvironOk environ ∧ (e = .systemExit 2 ∨ (e = .systemExit 0 ∧ AsksForHelp line))) := by
  unfold parseArgs at h
  split at h
  · rename_i e' hb
    obtain rfl := Except.error.inj h
    refine .inl ⟨?_, buildParsers_error _ _ _ hb⟩
    intro he
    rw [(environOk_iff environ).2 he] at hb
    cases hb
  · rename_i hb
    refine .inr ⟨(environOk_iff environ).1 hb, ?_⟩
    obtain ⟨i1, i2⟩ := (buildParsers_iff environ _).1 hb
    have i3 : ∃ ns, initial environ commonOptions = .ok ns := i2 .trustInstance (mem_commands _)
    have info : ∀ (opts : List Opt) (names : List String),
        (∀ o ∈ opts, o.action = .info → ∀ n ∈ o.names, n ∈ names.map String.toList) →
        ∀ occs, (∃ o ∈ opts, o.action = .info ∧ GivenS o.names occs) → Occurs names occs := by
      rintro opts names hn occs ⟨o, ho, ha, x, hx, hm⟩
      exact (occurs_iff _ _).2 ⟨x, hx, hn o ho ha _ hm⟩
    split at h
    · rename_i e' h1
      obtain rfl := Except.error.inj h
      rcases parseLevel_error h1 i1 with h' | ⟨h', hi⟩
      · exact .inl h'
      · exact .inr ⟨h', .inl (info _ _ (by decide +kernel) _ hi)⟩
    · split at h
      · rename_i e' h2
        obtain rfl := Except.error.inj h
        split at h2
        · rcases parseLevel_error h2 i3 with h' | ⟨h', hi⟩
          · exact .inl h'
          · exact .inr ⟨h', .inr (.inl (info _ _ (by decide +kernel) _ hi))⟩
        · cases h2
      · split at h
        · rename_i e' h3
          obtain rfl := Except.error.inj h
          rcases parseLevel_error h3 (i2 _ (mem_commands _)) with h' | ⟨h', hi⟩
          · exact .inl h'
          · refine .inr ⟨h', .inr (.inr (info _ _ ?_ _ hi))⟩
            cases line.command <;> decide +kernel
        · split at h
          · exact .inl (Except.error.inj h).symm
          · cases h

/-! ## What the options mean -/

section Meaning

variable {environ : Environ} {line : CommandLine} {ns : Namespace}

/-- an attribute of the command -/
theorem attr_sub {top middle sub : Namespace} {d : Str} {v : Val} (h : sub d = some v) : ((sub.over middle).over top) d = some v := by
  unfold Namespace.over
  rw [h]

/-- an attribute that only the main parser has -/
theorem attr_top {top middle sub : Namespace} {d : Str} (h1 : sub d = none) (h2 : middle d = none) :
    ((sub.over middle).over top) d = top d := by
  unfold Namespace.over
  rw [h1]
  dsimp only
  rw [h2]

theorem middle_foreign {middle : Namespace} {dest : String}
    (h : if line.command.nested = true then parseLevel environ commonOptions [] line.middle = .ok (middle, false)
        else middle = fun _ => none) (hd : ∀ o ∈ commonOptions, o.dest ≠ dest.toList) : middle dest.toList = none := by
  split at h
  · exact level_foreign table_common h hd
  · rw [h]

theorem text_of {t : Option Str} {dest : String}
    (h : ns dest.toList = some (match t with | some v => .text v | none => .null)) : ns.text dest = t := by
  unfold Namespace.text
  rw [h]
  cases t <;> rfl

theorem text_of_some {v : Str} {dest : String} (h : ns dest.toList = some (.text v)) : ns.text dest = some v := by
  unfold Namespace.text
  rw [h]

theorem text_of_none {dest : String} (h : ns dest.toList = none) : ns.text dest = none := by
  unfold Namespace.text
  rw [h]

theorem flag_of {b : Bool} {dest : String} (h : ns dest.toList = some (.flag b)) : ns.flag dest = b := by
  unfold Namespace.flag
  rw [h]

theorem flag_of_none {dest : String} (h : ns dest.toList = none) : ns.flag dest = false := by
  unfold Namespace.flag
  rw [h]

variable (h : parseArgs environ line = .ok ns)

include h

/-- an option of the command with an environment variable -/
theorem sub_env {names : List String} {dest var : String} (ho : opt names dest (env var) false ∈ line.command.options) :
    TextValue environ line.sub names (some var) none (ns.text dest) := by
  obtain ⟨_, top, mid, sub, _, _, h3, _, rfl⟩ := parseArgs_ok h
  obtain ⟨t, ht, he⟩ := level_env (table_command _) (nodup_command _) h3 ho
  rw [text_of (attr_sub he)]
  exact ht

theorem sub_path {names : List String} {dest var : String} (ho : opt names dest (env var) false ∈ line.command.options) :
    PathValue environ line.sub names (some var) (ns.path dest) :=
  ⟨_, sub_env h ho, rfl⟩

theorem sub_required {names : List String} {dest : String} {d : Default} (ho : opt names dest d true ∈ line.command.options) :
    ∃ v, LastGiven names line.sub v ∧ ns.text dest = some v := by
  obtain ⟨_, top, mid, sub, _, _, h3, _, rfl⟩ := parseArgs_ok h
  obtain ⟨v, hv, he⟩ := level_required (table_command _) (nodup_command _) h3 ho
  exact ⟨v, hv, text_of_some (attr_sub he)⟩

theorem sub_flag {name dest var : String} (ho : optFlag name dest (envFlag var) ∈ line.command.options) :
    FlagValue environ line.sub name (some var) (ns.flag dest) := by
  obtain ⟨_, top, mid, sub, _, _, h3, _, rfl⟩ := parseArgs_ok h
  obtain ⟨b, he, hb⟩ := level_flag (table_command _) (nodup_command _) h3 ho
  rw [flag_of (attr_sub he)]
  exact hb

theorem sub_switch {name dest : String} (ho : optFlag name dest .off ∈ line.command.options) :
    FlagValue environ line.sub name none (ns.flag dest) := by
  obtain ⟨_, top, mid, sub, _, _, h3, _, rfl⟩ := parseArgs_ok h
  obtain ⟨b, he, hb⟩ := level_switch (table_command _) (nodup_command _) h3 ho
  rw [flag_of (attr_sub he)]
  exact hb

/-- an attribute that no parser has -/
theorem foreign {dest : String} (h1 : ∀ o ∈ line.command.options, o.dest ≠ dest.toList)
    (h2 : ∀ o ∈ commonOptions, o.dest ≠ dest.toList) (h3 : ∀ o ∈ mainOptions, o.dest ≠ dest.toList) :
    ns dest.toList = none := by
  obtain ⟨_, top, mid, sub, l1, l2, l3, _, rfl⟩ := parseArgs_ok h
  rw [attr_top (level_foreign (table_command _) l3 h1) (middle_foreign l2 h2)]
  exact level_foreign table_main l1 h3

theorem top_plain {names : List String} {dest : String} (ho : opt names dest .null false ∈ mainOptions)
    (h1 : ∀ o ∈ line.command.options, o.dest ≠ dest.toList) (h2 : ∀ o ∈ commonOptions, o.dest ≠ dest.toList) :
    TextValue environ line.top names none none (ns.text dest) := by
  obtain ⟨_, top, mid, sub, l1, l2, l3, _, rfl⟩ := parseArgs_ok h
  obtain ⟨t, ht, he⟩ := level_plain table_main nodup_main l1 ho
  rw [text_of ((attr_top (level_foreign (table_command _) l3 h1) (middle_foreign l2 h2)).trans he)]
  exact ht

theorem top_flag {name dest var : String} (ho : optFlag name dest (envFlag var) ∈ mainOptions)
    (h1 : ∀ o ∈ line.command.options, o.dest ≠ dest.toList) (h2 : ∀ o ∈ commonOptions, o.dest ≠ dest.toList) :
    FlagValue environ line.top name (some var) (ns.flag dest) := by
  obtain ⟨_, top, mid, sub, l1, l2, l3, _, rfl⟩ := parseArgs_ok h
  obtain ⟨b, he, hb⟩ := level_flag table_main nodup_main l1 ho
  rw [flag_of ((attr_top (level_foreign (table_command _) l3 h1) (middle_foreign l2 h2)).trans he)]
  exact hb

theorem meaning_trust (version : Option Nat) :
    TrustOptions environ line.top line.sub (decide (line.command = .verifyIdentity ∨ line.command = .verifyGithub))
      (trustArgsOf ns version) where
  trustConfig := ⟨_, top_plain h (by decide) (by cases line.command <;> decide +kernel) (by decide), rfl⟩
  instance_ := top_plain h (by decide) (by cases line.command <;> decide +kernel) (by decide)
  staging := top_flag h (by decide) (by cases line.command <;> decide +kernel) (by decide)
  offline := by
    cases hc : line.command
    case verifyIdentity => exact sub_flag h (by rw [hc]; decide)
    case verifyGithub => exact sub_flag h (by rw [hc]; decide)
    all_goals exact flag_of_none (foreign h (by rw [hc]; decide +kernel) (by decide) (by decide))

theorem version_text (hc : line.command = .sign ∨ line.command = .attest) :
    (∃ v, LastGiven ["--rekor-version"] line.sub v ∧ ns.text "rekor_version" = some v) ∨
      (¬ Occurs ["--rekor-version"] line.sub ∧ ns.text "rekor_version" = none) := by
  obtain ⟨_, top, mid, sub, l1, l2, l3, _, rfl⟩ := parseArgs_ok h
  have ho : opt ["--rekor-version"] "rekor_version" .suppress ∈ line.command.options := by
    rcases hc with hc | hc <;> rw [hc] <;> decide
  rcases level_text (table_command _) (nodup_command _) l3 ho with ⟨v, hv, he⟩ | ⟨hg, _, he⟩
  · exact .inl ⟨v, hv, text_of_some (attr_sub he)⟩
  · refine .inr ⟨hg, text_of_none ?_⟩
    rw [attr_top (Except.ok.inj he).symm (middle_foreign l2 (by decide))]
    exact level_foreign table_main l1 (by decide)

theorem meaning_version (libs : MainLibs) (hc : line.command = .sign ∨ line.command = .attest) :
    (∀ v, rekorVersionArg libs ns = .ok v ↔ RekorVersion libs.int line.sub v) := by
  have key := version_text h hc
  intro v
  unfold rekorVersionArg RekorVersion
  rcases key with ⟨s, hs, he⟩ | ⟨hg, he⟩
  · rw [he]
    dsimp only
    cases hi : libs.int s with
    | none =>
      dsimp only
      constructor
      · intro h'; cases h'
      · cases v with
        | none => intro h'; exact absurd (lastGiven_given hs) h'
        | some n =>
          rintro ⟨s', hs', hn⟩
          rw [lastGiven_unique hs' hs, hi] at hn
          cases hn
    | some n =>
      dsimp only
      cases v with
      | none =>
        constructor
        · intro h'; cases h'
        · intro h'; exact absurd (lastGiven_given hs) h'
      | some m =>
        constructor
        · intro h'
          obtain rfl := Option.some.inj (Except.ok.inj h')
          exact ⟨s, hs, hi⟩
        · rintro ⟨s', hs', hn⟩
          rw [lastGiven_unique hs' hs, hi] at hn
          rw [hn]
  · rw [he]
    dsimp only
    cases v with
    | none => exact ⟨fun _ => hg, fun _ => rfl⟩
    | some n =>
      constructor
      · intro h'; cases h'
      · rintro ⟨s', hs', _⟩; exact absurd (lastGiven_given hs') hg

theorem meaning_identity (hc : line.command = .sign ∨ line.command = .attest ∨ line.command = .getIdentityToken) :
    IdentityOptions environ line.sub (decide (line.command ≠ .getIdentityToken)) (identityArgsOf ns) where
  token := by
    rcases hc with hc | hc | hc <;> rw [hc]
    · exact sub_env h (by rw [hc]; decide)
    · exact sub_env h (by rw [hc]; decide)
    · exact text_of_none (foreign h (by rw [hc]; decide) (by decide) (by decide))
  clientId := by
    have ho : opt ["--oidc-client-id"] "oidc_client_id"
        (.env "SIGSTORE_OIDC_CLIENT_ID".toList (some "sigstore".toList)) ∈ line.command.options := by
      rcases hc with hc | hc | hc <;> rw [hc] <;> decide
    obtain ⟨_, top, mid, sub, l1, l2, l3, _, rfl⟩ := parseArgs_ok h
    rcases level_text (table_command _) (nodup_command _) l3 ho with ⟨v, hv, he⟩ | ⟨hg, _, he⟩
    · have : (identityArgsOf ((sub.over mid).over top)).clientId = v := by
        unfold identityArgsOf
        rw [text_of_some (attr_sub he)]
        rfl
      rw [this]
      exact .given hv
    · unfold evalDefault at he
      dsimp only at he
      cases hx : environ "SIGSTORE_OIDC_CLIENT_ID".toList with
      | some v =>
        rw [hx] at he
        have : (identityArgsOf ((sub.over mid).over top)).clientId = v := by
          unfold identityArgsOf
          rw [text_of_some (attr_sub (Except.ok.inj he).symm)]
          rfl
        rw [this]
        exact .environment hg rfl hx
      | none =>
        rw [hx] at he
        have : (identityArgsOf ((sub.over mid).over top)).clientId = "sigstore".toList := by
          unfold identityArgsOf
          rw [text_of_some (attr_sub (Except.ok.inj he).symm)]
          rfl
        rw [this]
        exact .default hg (by intro x hx'; rw [← Option.some.inj hx']; exact hx)
  clientSecret := sub_env h (by rcases hc with hc | hc | hc <;> rw [hc] <;> decide)
  disableAmbient := sub_flag h (by rcases hc with hc | hc | hc <;> rw [hc] <;> decide)
  issuer := sub_env h (by rcases hc with hc | hc | hc <;> rw [hc] <;> decide)
  forceOob := sub_flag h (by rcases hc with hc | hc | hc <;> rw [hc] <;> decide)

theorem meaning_sign (hc : line.command = .sign) :
    SignOptions environ line.sub line.positional (signArgsOf ns line.positional) where
  files := rfl
  signature := sub_path h (by rw [hc]; decide)
  certificate := sub_path h (by rw [hc]; decide)
  bundle := sub_path h (by rw [hc]; decide)
  outputDirectory := sub_path h (by rw [hc]; decide)
  noDefaultFiles := sub_flag h (by rw [hc]; decide)
  overwrite := sub_flag h (by rw [hc]; decide)

theorem meaning_attest (hc : line.command = .attest) (a : AttestArgs) (ha : attestArgsOf ns line.positional = .ok a) :
    AttestOptions environ line.sub line.positional a := by
  obtain ⟨p, hp, hp'⟩ := sub_required h (names := ["--predicate"]) (dest := "predicate") (d := .null) (by rw [hc]; decide)
  obtain ⟨t, ht, ht'⟩ := sub_required h (names := ["--predicate-type"]) (dest := "predicate_type") (d := .null)
    (by rw [hc]; decide)
  unfold attestArgsOf Namespace.path at ha
  rw [hp', ht'] at ha
  dsimp only [Option.map] at ha
  split at ha
  · rename_i hs
    obtain rfl := Except.ok.inj ha
    exact ⟨rfl, ⟨p, hp, rfl⟩, ht, hs, sub_path h (by rw [hc]; decide), sub_flag h (by rw [hc]; decide)⟩
  · cases ha

theorem meaning_verify (hc : line.command = .verifyIdentity ∨ line.command = .verifyGithub) :
    VerifyOptions environ line.sub (ns.path "certificate") (ns.path "signature") (ns.path "bundle") where
  certificate := sub_path h (by rcases hc with hc | hc <;> rw [hc] <;> decide)
  signature := sub_path h (by rcases hc with hc | hc <;> rw [hc] <;> decide)
  bundle := sub_path h (by rcases hc with hc | hc <;> rw [hc] <;> decide)

theorem meaning_github (hc : line.command = .verifyGithub) : GithubOptions environ line.sub (githubArgsOf ns) where
  identity := sub_env h (by rw [hc]; decide)
  trigger := sub_env h (by rw [hc]; decide)
  sha := sub_env h (by rw [hc]; decide)
  name := sub_env h (by rw [hc]; decide)
  repository := sub_env h (by rw [hc]; decide)
  ref := sub_env h (by rw [hc]; decide)

/-- C90: only the `-v` after the command count -/
theorem C90_verbosity_partial : ns.verbosity = timesGiven ["-v", "--verbose"] line.sub := by
  obtain ⟨_, top, mid, sub, l1, l2, l3, _, rfl⟩ := parseArgs_ok h
  obtain ⟨ns₀, st, h0, h1, rfl, _, _⟩ := parseLevel_ok l3
  have ho : (⟨["-v", "--verbose"].map String.toList, "verbose".toList, .count, .zero, false⟩ : Opt) ∈ line.command.options := by
    cases line.command <;> decide
  have h2 := initial_value h0 (nodup_command _) _ ho
  have h3 := takeAll_count (table_command _) ho rfl line.sub _ st 0 (Except.ok.inj h2).symm h1
  unfold Namespace.verbosity
  rw [attr_sub h3]
  dsimp only
  unfold timesGiven
  rw [Nat.zero_add]

end Meaning

/-! ## The meaning is unique -/

theorem pathValue_unique {environ : Environ} {occs : List Occ} {names : List String} {var : Option String} {a b : Option Path}
    (h : PathValue environ occs names var a) (h' : PathValue environ occs names var b) : a = b := by
  obtain ⟨t, ht, rfl⟩ := h
  obtain ⟨t', ht', rfl⟩ := h'
  rw [textValue_unique ht ht']

theorem flagValue_unique {environ : Environ} {occs : List Occ} {name : String} {var : Option String} {a b : Bool}
    (h : FlagValue environ occs name var a) (h' : FlagValue environ occs name var b) : a = b :=
  Bool.eq_iff_iff.2 (h.trans h'.symm)

theorem trustOptions_unique {environ : Environ} {top sub : List Occ} {o : Bool} {a b : TrustArgs}
    (h : TrustOptions environ top sub o a) (h' : TrustOptions environ top sub o b) (hv : a.rekorVersion = b.rekorVersion) :
    a = b := by
  obtain ⟨a1, a2, a3, a4, a5⟩ := a
  obtain ⟨b1, b2, b3, b4, b5⟩ := b
  obtain ⟨h1, h2, h3, h4⟩ := h
  obtain ⟨g1, g2, g3, g4⟩ := h'
  dsimp only at *
  rw [pathValue_unique h1 g1, textValue_unique h2 g2, flagValue_unique h3 g3, hv]
  cases o with
  | true =>
    have h4' : FlagValue environ sub "--offline" (some "SIGSTORE_OFFLINE") a4 := h4
    have g4' : FlagValue environ sub "--offline" (some "SIGSTORE_OFFLINE") b4 := g4
    rw [flagValue_unique h4' g4']
  | false =>
    have h4' : a4 = false := by simpa using h4
    have g4' : b4 = false := by simpa using g4
    rw [h4', g4']

theorem identityOptions_unique {environ : Environ} {sub : List Occ} {t : Bool} {a b : IdentityArgs}
    (h : IdentityOptions environ sub t a) (h' : IdentityOptions environ sub t b) : a = b := by
  obtain ⟨a1, a2, a3, a4, a5, a6⟩ := a
  obtain ⟨b1, b2, b3, b4, b5, b6⟩ := b
  obtain ⟨h1, h2, h3, h4, h5, h6⟩ := h
  obtain ⟨g1, g2, g3, g4, g5, g6⟩ := h'
  dsimp only at *
  have e1 : a1 = b1 := by
    cases t with
    | true => exact textValue_unique h1 g1
    | false =>
      have h1' : a1 = none := h1
      have g1' : b1 = none := g1
      rw [h1', g1']
  rw [e1, Option.some.inj (textValue_unique h2 g2), textValue_unique h3 g3, flagValue_unique h4 g4, textValue_unique h5 g5,
    flagValue_unique h6 g6]

theorem signOptions_unique {environ : Environ} {sub : List Occ} {p : List Str} {a b : SignArgs}
    (h : SignOptions environ sub p a) (h' : SignOptions environ sub p b) : a = b := by
  obtain ⟨a1, a2, a3, a4, a5, a6, a7⟩ := a
  obtain ⟨b1, b2, b3, b4, b5, b6, b7⟩ := b
  obtain ⟨h1, h2, h3, h4, h5, h6, h7⟩ := h
  obtain ⟨g1, g2, g3, g4, g5, g6, g7⟩ := h'
  dsimp only at *
  rw [h1, g1, pathValue_unique h2 g2, pathValue_unique h3 g3, pathValue_unique h4 g4, pathValue_unique h5 g5,
    flagValue_unique h6 g6, flagValue_unique h7 g7]

theorem attestOptions_unique {environ : Environ} {sub : List Occ} {p : List Str} {a b : AttestArgs}
    (h : AttestOptions environ sub p a) (h' : AttestOptions environ sub p b) : a = b := by
  obtain ⟨a1, a2, a3, a4, a5⟩ := a
  obtain ⟨b1, b2, b3, b4, b5⟩ := b
  obtain ⟨h1, ⟨s, h2, h2'⟩, h3, _, h4, h5⟩ := h
  obtain ⟨g1, ⟨s', g2, g2'⟩, g3, _, g4, g5⟩ := h'
  dsimp only at *
  rw [h1, g1, h2', g2', lastGiven_unique h2 g2, lastGiven_unique h3 g3, pathValue_unique h4 g4, flagValue_unique h5 g5]

theorem githubOptions_unique {environ : Environ} {sub : List Occ} {a b : GithubArgs}
    (h : GithubOptions environ sub a) (h' : GithubOptions environ sub b) : a = b := by
  obtain ⟨a1, a2, a3, a4, a5, a6⟩ := a
  obtain ⟨b1, b2, b3, b4, b5, b6⟩ := b
  obtain ⟨h1, h2, h3, h4, h5, h6⟩ := h
  obtain ⟨g1, g2, g3, g4, g5, g6⟩ := h'
  dsimp only at *
  rw [textValue_unique h1 g1, textValue_unique h2 g2, textValue_unique h3 g3, textValue_unique h4 g4, textValue_unique h5 g5,
    textValue_unique h6 g6]

end Sigstore.Props
