import Verif.Lemmas.ArgvSplit
import Verif.Props.Args

/-!
# C115: which words are a command line, and which one
-/

namespace Sigstore.Props

open Sigstore.Cli Sigstore.Spec Sigstore.Args

/-! ## The tables -/

/-- a name with two dashes and more, or one dash and a letter -/
def nameShape (n : Str) : Bool :=
  match n with
  | ['-', c] => decide (c ≠ '-')
  | '-' :: '-' :: _ :: _ => true
  | _ => false

theorem nameShape_spec {n : Str} (h : nameShape n = true) :
    ("--".toList <+: n ∧ "--".toList ≠ n) ∨ ∃ c, c ≠ '-' ∧ n = ['-', c] := by
  unfold nameShape at h
  split at h
  · rename_i c
    exact .inr ⟨c, by simpa using h, rfl⟩
  · rename_i c cs
    refine .inl ⟨⟨c :: cs, rfl⟩, ?_⟩
    intro h
    have : ['-', '-'] = '-' :: '-' :: c :: cs := h
    simp at this
  · cases h

/-- the conditions of `Speaks` that can be computed -/
structure Checks (opts : List Opt) (v : Vocabulary) : Prop where
  names₁ : ∀ n ∈ optionNames opts, n ∈ v.names
  names₂ : ∀ n ∈ v.names, n ∈ optionNames opts
  nodup : (optionNames opts).Nodup
  shape : ∀ n ∈ v.names, nameShape n = true
  noEq : ∀ n ∈ v.names, '=' ∉ n
  values : ∀ n ∈ v.values.map String.toList, (findOpt opts n).any fun o => decide (o.action = .store)
  flags : ∀ n ∈ v.flags.map String.toList, (findOpt opts n).any fun o => decide (o.action ≠ .store)
  onlyValues : ∀ o ∈ opts, o.action = .store → ∀ n ∈ o.names, n ∈ v.values.map String.toList ∧ n.length ≠ 2
  shortFlag : ∀ n ∈ v.flags.map String.toList, shortName n = true → n = "-v".toList
  verbose : "-v".toList ∈ v.flags.map String.toList
  apart : ∀ n ∈ v.flags.map String.toList, n ∉ v.values.map String.toList
  helpName : "--help".toList ∈ v.names
  verboseName : "--verbose".toList ∈ v.names

theorem Checks.speaks {opts : List Opt} {v : Vocabulary} (h : Checks opts v) : Speaks opts v where
  names n := ⟨h.names₁ n, h.names₂ n⟩
  nodup := h.nodup
  shape n hn := nameShape_spec (h.shape n hn)
  noEq := h.noEq
  values n hn := by
    have := h.values n hn
    cases e : findOpt opts n with
    | none => rw [e] at this; cases this
    | some o => rw [e] at this; exact ⟨o, rfl, by simpa using this⟩
  flags n hn := by
    have := h.flags n hn
    cases e : findOpt opts n with
    | none => rw [e] at this; cases this
    | some o => rw [e] at this; exact ⟨o, rfl, by simpa using this⟩
  onlyValues n o hf ha :=
    (h.onlyValues o (List.mem_of_find?_eq_some hf) ha n (by simpa using List.find?_some hf)).1
  short c o hf ha :=
    (h.onlyValues o (List.mem_of_find?_eq_some hf) ha ['-', c] (by simpa using List.find?_some hf)).2 rfl
  shortFlag := h.shortFlag
  verbose := h.verbose
  apart := h.apart
  helpName := h.helpName
  verboseName := h.verboseName

theorem speaks_main : Speaks mainOptions vocabularyTop := Checks.speaks
  ⟨by decide +kernel, by decide +kernel, by decide +kernel, by decide +kernel, by decide +kernel, by decide +kernel,
   by decide +kernel, by decide +kernel, by decide +kernel, by decide +kernel, by decide +kernel, by decide +kernel,
   by decide +kernel⟩

theorem speaks_middle : Speaks commonOptions vocabularyMiddle := Checks.speaks
  ⟨by decide +kernel, by decide +kernel, by decide +kernel, by decide +kernel, by decide +kernel, by decide +kernel,
   by decide +kernel, by decide +kernel, by decide +kernel, by decide +kernel, by decide +kernel, by decide +kernel,
   by decide +kernel⟩

theorem speaks_command (c : Command) : Speaks c.options (vocabulary c) := by
  cases c <;> exact Checks.speaks
    ⟨by decide +kernel, by decide +kernel, by decide +kernel, by decide +kernel, by decide +kernel, by decide +kernel,
     by decide +kernel, by decide +kernel, by decide +kernel, by decide +kernel, by decide +kernel, by decide +kernel,
     by decide +kernel⟩

/-! ## Reading -/

theorem fits_iff (d : Documented) (help : List String) (o : Occ) : Fits ⟨d.values, d.flags, help⟩ o ↔ d.Allows o := by
  unfold Fits Documented.Allows
  simp only [List.mem_map]
  constructor
  · rintro (⟨⟨n, hn, e⟩, x, hx⟩ | ⟨⟨n, hn, e⟩, hx⟩)
    · exact .inl ⟨n, hn, e.symm, by rw [hx]; exact fun h => nomatch h⟩
    · exact .inr ⟨n, hn, e.symm, hx⟩
  · rintro (⟨n, hn, e, hx⟩ | ⟨n, hn, e, hx⟩)
    · exact .inl ⟨⟨n, hn, e.symm⟩, Option.ne_none_iff_exists'.1 hx⟩
    · exact .inr ⟨⟨n, hn, e.symm⟩, hx⟩

theorem optionWords_noDashes {negative : Str → Bool} {opts : List Opt} {v : Vocabulary} (hs : Speaks opts v) {ws : List Str}
    {os : List Occ} (h : OptionWords negative v ws os) : ∀ w ∈ ws, w ≠ "--".toList := by
  induction h with
  | nil => intro w hw; cases hw
  | flag hn _ _ ih => exact List.forall_mem_cons.2 ⟨names_ne_dashes hs hn, ih⟩
  | value hn _ hp _ ih => exact List.forall_mem_cons.2 ⟨names_ne_dashes hs hn, List.forall_mem_cons.2 ⟨hp.1, ih⟩⟩
  | @joined w n x _ _ hn _ _ ih =>
    refine List.forall_mem_cons.2 ⟨?_, ih⟩
    intro h
    have : '=' ∈ "--".toList := h ▸ (by simp)
    exact absurd this (by decide)
  | verbose _ ih =>
    refine List.forall_mem_cons.2 ⟨?_, ih⟩
    intro h
    have := congrArg (fun l => l[1]?) h
    simp at this

theorem beforeDashes_append {ws rest : List Str} (h : ∀ w ∈ ws, w ≠ "--".toList) :
    beforeDashes (ws ++ rest) = ws ++ beforeDashes rest := by
  unfold beforeDashes
  rw [List.takeWhile_append_of_pos]
  intro w hw
  simpa using h w hw

theorem clear_append {v : Vocabulary} {ws rest : List Str} (h : ∀ w ∈ ws, w ≠ "--".toList) (hc : v.Clear (ws ++ rest)) :
    v.Clear rest := by
  intro w hw
  refine hc w ?_
  rw [beforeDashes_append h]
  exact List.mem_append_right _ hw

theorem split_sound {negative : Str → Bool} {opts : List Opt} {v : Vocabulary} (hs : Speaks opts v) {kind : Positional}
    {ws : List Str} {s : Split} (h : splitWords negative opts kind ws = .ok s) (hx : s.extras = false)
    (hf : ∀ occ ∈ s.occs, Fits v occ) : v.Clear ws ∧ Result negative v kind .fresh ws s := by
  unfold splitWords at h
  split at h
  · cases h
  · rename_i ms hm
    obtain rfl := Except.ok.inj h
    exact ⟨(marks_clear hs ws).1 ⟨ms, hm⟩, consume_sound hs kind _ ws ms (Nat.le_refl _) hm .fresh hx hf⟩

theorem lookupCommand_direct {name : Str} {c : Command} (h : lookupCommand name = some (.inl c)) :
    ∃ n, commandName c = (none, n) ∧ name = n.toList := by
  unfold lookupCommand at h
  repeat' split at h
  all_goals try cases h
  all_goals exact ⟨_, rfl, by assumption⟩

theorem lookupCommand_group {name name' : Str} {g : Group} {c : Command} (h : lookupCommand name = some (.inr g))
    (h' : g.lookup name' = some c) : ∃ m n, commandName c = (some m, n) ∧ name = m.toList ∧ name' = n.toList := by
  unfold lookupCommand at h
  repeat' split at h
  all_goals try cases h
  all_goals
    unfold Group.lookup at h'
    dsimp only at h'
    repeat' split at h'
    all_goals try cases h'
    all_goals exact ⟨_, _, rfl, by assumption, by assumption⟩

theorem direct_lookup {c : Command} {n : String} (h : commandName c = (none, n)) :
    lookupCommand n.toList = some (.inl c) ∧ c.nested = false := by
  cases c <;> cases h <;> exact ⟨by decide, rfl⟩

theorem group_lookup {c : Command} {m n : String} (h : commandName c = (some m, n)) :
    ∃ g, lookupCommand m.toList = some (.inr g) ∧ g.lookup n.toList = some c ∧ c.nested = true := by
  cases c <;> cases h
  · exact ⟨.verify, by decide, by decide, rfl⟩
  · exact ⟨.verify, by decide, by decide, rfl⟩
  · exact ⟨.plumbing, by decide, by decide, rfl⟩
  · exact ⟨.plumbing, by decide, by decide, rfl⟩

theorem command_plain (negative : Str → Bool) (v : Vocabulary) {c : Command} {m : Option String} {n : String}
    (h : commandName c = (m, n)) : v.Plain negative n.toList ∧ ∀ g, m = some g → v.Plain negative g.toList := by
  cases c <;> cases h <;>
    refine ⟨⟨by decide, .inl (by decide)⟩, fun g hg => ?_⟩ <;> cases hg <;> exact ⟨by decide, .inl (by decide)⟩

theorem command_noDashes {c : Command} {m : Option String} {n : String} (h : commandName c = (m, n)) :
    n.toList ≠ "--".toList ∧ ∀ g, m = some g → g.toList ≠ "--".toList :=
  ⟨(command_plain (fun _ => false) vocabularyTop h).1.1, fun g hg => ((command_plain (fun _ => false) vocabularyTop h).2 g hg).1⟩

/-- the parser of a command -/
theorem parseCommand_ok {environ : Environ} {negative : Str → Bool} {top middle : List Occ} {outer : Namespace} {x : Bool}
    {c : Command} {words : List Str} {line : CommandLine} {ns : Namespace}
    (h : parseCommand environ negative top middle outer x c words = .ok (line, ns)) :
    x = false ∧ ∃ s sub, splitWords negative c.options c.kind words = .ok s ∧ s.extras = false ∧
      parseLevel environ c.options [] s.occs = .ok (sub, false) ∧ c.arity s.args = true ∧
      line = ⟨top, middle, c, s.occs, s.args⟩ ∧ ns = sub.over outer := by
  unfold parseCommand at h
  split at h
  · cases h
  · rename_i s hs
    split at h
    · cases h
    · rename_i sub z hl
      split at h
      · cases h
      · rename_i hx
        obtain ⟨⟨⟨hx0, hy⟩, hz⟩, ha⟩ : ((x = false ∧ s.extras = false) ∧ z = false) ∧ c.arity s.args = true := by
          simpa using hx
        subst hz
        obtain ⟨rfl, rfl⟩ := Prod.mk.inj (Except.ok.inj h)
        exact ⟨hx0, s, sub, hs, hy, hl, ha, rfl, rfl⟩

theorem over_assoc (a b c : Namespace) : (a.over b).over c = a.over (b.over c) := by
  funext d
  unfold Namespace.over
  cases a d <;> rfl

theorem over_none (a b : Namespace) : (a.over fun _ => none).over b = a.over b := by
  funext d
  unfold Namespace.over
  cases a d <;> rfl

/-- C115: a sequence of words is accepted exactly if it writes a command line that is accepted, and then it means that -/
theorem C115_parsed_iff (environ : Environ) (negative : Str → Bool) (argv : List Str) (line : CommandLine) (ns : Namespace) :
    parseArgv environ negative argv = .ok (line, ns) ↔ Writes negative argv line ∧ parseArgs environ line = .ok ns := by
  constructor
  · intro h
    unfold parseArgv at h
    split at h
    · cases h
    · rename_i hb
      split at h
      · cases h
      · rename_i s hs
        split at h
        · cases h
        · rename_i top x h1
          split at h
          · cases h
          · rename_i name words hargs
            split at h
            · cases h
            · rename_i c hname
              obtain ⟨hx, s', sub, h2, h3, h4, h5, rfl, rfl⟩ := parseCommand_ok h
              obtain ⟨hx1, rfl⟩ : s.extras = false ∧ x = false := by simpa using hx
              obtain ⟨n, hn, rfl⟩ := lookupCommand_direct hname
              have hnest := (direct_lookup hn).2
              have hp : parseArgs environ ⟨s.occs, [], c, s'.occs, s'.args⟩ = .ok (sub.over top) := by
                unfold parseArgs
                rw [hb, h1]
                dsimp only
                rw [hnest]
                rw [if_neg Bool.false_ne_true]
                dsimp only
                rw [h4]
                dsimp only
                rw [h5, over_none]
                rfl
              obtain ⟨_, hl⟩ := (C89_accepted_iff environ _).1 ⟨_, hp⟩
              obtain ⟨hc1, w₁, hw, ho⟩ := split_sound speaks_main hs hx1 fun o ho => (fits_iff _ _ o).2 (hl.top o ho)
              obtain ⟨_, hr⟩ := split_sound (speaks_command c) h2 h3 fun o ho => (fits_iff _ _ o).2 (hl.sub o ho)
              rw [hargs] at hw
              subst hw
              refine ⟨.direct hn ho rfl ?_ ?_, hp⟩
              · have hpos := hl.positional
                cases c <;> first | exact hr | (obtain ⟨h6, h7⟩ := hr; rw [h7]; exact commandWords_of_options h6)
              · have := clear_append (optionWords_noDashes speaks_main ho) hc1
                exact clear_append (ws := [n.toList]) (by
                  intro w hw
                  rw [List.mem_singleton.1 hw]
                  exact (command_noDashes hn).1) this
            · rename_i g hname
              split at h
              · cases h
              · rename_i m hm
                split at h
                · cases h
                · rename_i middle y h1'
                  split at h
                  · cases h
                  · rename_i name' words' hargs'
                    split at h
                    · cases h
                    · rename_i c hname'
                      obtain ⟨hx, s', sub, h2, h3, h4, h5, rfl, rfl⟩ := parseCommand_ok h
                      obtain ⟨⟨⟨hx1, rfl⟩, hx2⟩, rfl⟩ : ((s.extras = false ∧ x = false) ∧ m.extras = false) ∧ y = false := by
                        simpa using hx
                      obtain ⟨gn, n, hn, rfl, rfl⟩ := lookupCommand_group hname hname'
                      obtain ⟨_, _, _, hnest⟩ := group_lookup hn
                      have hp : parseArgs environ ⟨s.occs, m.occs, c, s'.occs, s'.args⟩ = .ok (sub.over (middle.over top)) := by
                        unfold parseArgs
                        rw [hb, h1]
                        dsimp only
                        rw [hnest]
                        rw [if_pos rfl]
                        rw [h1']
                        dsimp only
                        rw [h4]
                        dsimp only
                        rw [h5, over_assoc]
                        rfl
                      obtain ⟨_, hl⟩ := (C89_accepted_iff environ _).1 ⟨_, hp⟩
                      obtain ⟨hc1, w₁, hw, ho⟩ := split_sound speaks_main hs hx1 fun o ho => (fits_iff _ _ o).2 (hl.top o ho)
                      obtain ⟨hc2, w₂, hw2, ho2⟩ := split_sound speaks_middle hm hx2 fun o ho =>
                        (fits_iff _ _ o).2 (hl.middle ((nested_iff _).1 hnest) o ho)
                      obtain ⟨_, hr⟩ := split_sound (speaks_command c) h2 h3 fun o ho => (fits_iff _ _ o).2 (hl.sub o ho)
                      rw [hargs] at hw
                      rw [hargs'] at hw2
                      subst hw hw2
                      refine ⟨.nested hn ho ho2 ?_ ?_ ?_, hp⟩
                      · cases c <;> first | exact hr | (obtain ⟨h6, h7⟩ := hr; rw [h7]; exact commandWords_of_options h6)
                      · have := clear_append (optionWords_noDashes speaks_main ho) hc1
                        exact clear_append (ws := [gn.toList]) (by
                          intro w hw
                          rw [List.mem_singleton.1 hw]
                          exact (command_noDashes hn).2 _ rfl) this
                      · have := clear_append (optionWords_noDashes speaks_middle ho2) hc2
                        exact clear_append (ws := [n.toList]) (by
                          intro w hw
                          rw [List.mem_singleton.1 hw]
                          exact (command_noDashes hn).1) this
  · rintro ⟨hw, hp⟩
    obtain ⟨he, top, middle, sub, h1, h2, h3, h4, rfl⟩ := parseArgs_ok hp
    have hb := (environOk_iff environ).2 he
    have hkind : match line.command.kind with
        | .none => line.positional = []
        | .one => ∃ p, line.positional = [p]
        | .many => line.positional ≠ []
        | .command => False := by
      unfold Command.arity at h4
      cases e : line.command <;> rw [e] at h4 <;> simpa [Command.kind, List.length_eq_one_iff] using h4
    cases hw with
    | @direct _ ws subw name hn ho hmid hsub hclear =>
      obtain ⟨hl, hnest⟩ := direct_lookup hn
      have e1 := split_command (negative := negative) speaks_main ho (command_plain negative vocabularyTop hn).1 hclear
      have e2 := split_complete (speaks_command line.command) line.command.kind hsub hkind
      rw [hnest, if_neg Bool.false_ne_true] at h2
      subst h2
      unfold parseArgv
      rw [hb]
      dsimp only
      rw [e1]
      dsimp only
      rw [h1]
      dsimp only
      rw [hl]
      dsimp only
      unfold parseCommand
      rw [e2]
      dsimp only
      rw [h3]
      dsimp only
      rw [h4, over_none]
      obtain ⟨t, m, c, su, po⟩ := line
      dsimp only at hmid
      subst hmid
      rfl
    | @nested _ ws ms subw group name hn ho hom hsub hclear hclear' =>
      obtain ⟨g, hl, hl', hnest⟩ := group_lookup hn
      have e1 := split_command (negative := negative) speaks_main ho ((command_plain negative vocabularyTop hn).2 _ rfl) hclear
      have e1' := split_command (negative := negative) speaks_middle hom (command_plain negative vocabularyMiddle hn).1 hclear'
      have e2 := split_complete (speaks_command line.command) line.command.kind hsub hkind
      rw [hnest, if_pos rfl] at h2
      unfold parseArgv
      rw [hb]
      dsimp only
      rw [e1]
      dsimp only
      rw [h1]
      dsimp only
      rw [hl]
      dsimp only
      rw [e1']
      dsimp only
      rw [h2]
      dsimp only
      rw [hl']
      dsimp only
      unfold parseCommand
      rw [e2]
      dsimp only
      rw [h3]
      dsimp only
      rw [h4, over_assoc]
      rfl

/-- C115: in other words -/
theorem C115_accepted_iff (environ : Environ) (negative : Str → Bool) (argv : List Str) :
    (∃ r, parseArgv environ negative argv = .ok r) ↔
      EnvironOk environ ∧ ∃ line, Writes negative argv line ∧ LineOk line := by
  constructor
  · rintro ⟨⟨line, ns⟩, h⟩
    obtain ⟨hw, hp⟩ := (C115_parsed_iff environ negative argv line ns).1 h
    obtain ⟨he, hl⟩ := (C89_accepted_iff environ line).1 ⟨ns, hp⟩
    exact ⟨he, line, hw, hl⟩
  · rintro ⟨he, line, hw, hl⟩
    obtain ⟨ns, hp⟩ := (C89_accepted_iff environ line).2 ⟨he, hl⟩
    exact ⟨(line, ns), (C115_parsed_iff environ negative argv line ns).2 ⟨hw, hp⟩⟩

/-- C115: there is only one way to read a sequence of words -/
theorem C115_one_reading {negative : Str → Bool} {argv : List Str} {line line' : CommandLine}
    (h : Writes negative argv line) (h' : Writes negative argv line') (hl : LineOk line) (hl' : LineOk line') : line = line' := by
  have he : EnvironOk fun _ => none := fun x _ v hv => nomatch hv
  obtain ⟨ns, hp⟩ := (C89_accepted_iff _ line).2 ⟨he, hl⟩
  obtain ⟨ns', hp'⟩ := (C89_accepted_iff _ line').2 ⟨he, hl'⟩
  have e := (C115_parsed_iff _ negative argv line ns).2 ⟨h, hp⟩
  rw [(C115_parsed_iff _ negative argv line' ns').2 ⟨h', hp'⟩] at e
  exact (Prod.mk.inj (Except.ok.inj e)).1.symm

/-- C115: the process does what the command line says -/
theorem C115_main (libs : MainLibs) (o : SignOracle) {environ : Environ} (he : EnvironOk environ) {negative : Str → Bool}
    {argv : List Str} {line : CommandLine} (hw : Writes negative argv line) (hl : LineOk line) (s : MainState) :
    mainArgv libs o environ negative argv [] s = Cli.main libs o environ line s ∧
    ∀ other, mainArgv libs o environ negative other argv s = Cli.main libs o environ line s := by
  obtain ⟨ns, hp⟩ := (C89_accepted_iff environ line).2 ⟨he, hl⟩
  have e := (C115_parsed_iff environ negative argv line ns).2 ⟨hw, hp⟩
  have hne : argv ≠ [] := by cases hw <;> simp
  constructor
  · unfold mainArgv Cli.main
    rw [if_pos rfl, e, hp]
  · intro other
    unfold mainArgv Cli.main
    rw [if_neg hne, e, hp]

/-! ## Refusal -/

section
variable {negative : Str → Bool} {opts : List Opt} {v : Vocabulary} (hs : Speaks opts v)
include hs

theorem marks_error : ∀ {ws : List Str} {e : Exc}, marks negative opts ws = .error e → e = .systemExit 2
  | [], e, h => by rw [marks] at h; cases h
  | w :: ws, e, h => by
    rw [marks] at h
    split at h
    · cases h
    · rename_i hd
      have hc := parse_cases (negative := negative) hs hd
      split at h
      · rename_i e' he
        obtain rfl := Except.error.inj h
        rw [he] at hc
        exact hc.1
      · split at h
        · rename_i e' he
          obtain rfl := Except.error.inj h
          exact marks_error he
        · cases h

omit hs in
/-- the options in one word -/
theorem cluster_names : ∀ (text : Str) (occs : List Occ) (o : Opt) (name : Str) (sep : Bool) (P : Str → Prop),
    (∀ x ∈ occs, P x.name) → P name → (sep = true ∨ ∀ d ∈ text, P ['-', d]) →
    match cluster opts occs o name sep text with
    | .closed occs' _ => ∀ x ∈ occs', P x.name
    | .opened occs' _ n => (∀ x ∈ occs', P x.name) ∧ P n
  | [], occs, o, name, sep, P, h, hn, ht => by
    have h1 : ∀ {y : Option Str}, ∀ x ∈ occs ++ [⟨name, y⟩], P x.name := fun x hx => by
      rcases List.mem_append.1 hx with hx | hx
      · exact h x hx
      · rw [List.mem_singleton.1 hx]; exact hn
    have h2 : ∀ {y : Option Str}, ∀ x ∈ [(⟨name, y⟩ : Occ)], P x.name := fun x hx => by
      rw [List.mem_singleton.1 hx]; exact hn
    rw [cluster]
    by_cases ha : o.action = .store
    · rw [if_pos ha]; exact h1
    · rw [if_neg ha]; exact h2
  | c :: cs, occs, o, name, sep, P, h, hn, ht => by
    have h1 : ∀ {y : Option Str}, ∀ x ∈ occs ++ [⟨name, y⟩], P x.name := fun x hx => by
      rcases List.mem_append.1 hx with hx | hx
      · exact h x hx
      · rw [List.mem_singleton.1 hx]; exact hn
    have h2 : ∀ {y : Option Str}, ∀ x ∈ [(⟨name, y⟩ : Occ)], P x.name := fun x hx => by
      rw [List.mem_singleton.1 hx]; exact hn
    rw [cluster.eq_def]
    dsimp only
    by_cases ha : o.action = .store
    · rw [if_pos ha]; exact h1
    · rw [if_neg ha]
      by_cases hb : shortName name = false
      · rw [if_pos hb]; exact h2
      · rw [if_neg hb]
        by_cases hc : (sep || decide (c = '-')) = true
        · rw [if_pos hc]; exact h2
        · rw [if_neg hc]
          have hsep : sep = false := by
            cases sep with
            | false => rfl
            | true => exact absurd rfl hc
          have hd : ∀ d ∈ c :: cs, P ['-', d] := ht.resolve_left (by rw [hsep]; exact Bool.false_ne_true)
          cases hf : findOpt opts ['-', c] with
          | none => exact h1
          | some o' =>
            dsimp only
            match cs with
            | [] => exact ⟨h1, hd c List.mem_cons_self⟩
            | d :: cs =>
              by_cases he : d = '='
              · subst he
                exact cluster_names cs _ o' ['-', c] true P h1 (hd c List.mem_cons_self) (.inl rfl)
              · have e : (match d :: cs with
                  | [] => Cluster.opened (occs ++ [⟨name, none⟩]) o' ['-', c]
                  | '=' :: cs => cluster opts (occs ++ [⟨name, none⟩]) o' ['-', c] true cs
                  | c' :: cs => cluster opts (occs ++ [⟨name, none⟩]) o' ['-', c] false (c' :: cs)) =
                    cluster opts (occs ++ [⟨name, none⟩]) o' ['-', c] false (d :: cs) := by
                  split
                  · rename_i h; cases h
                  · rename_i h; exact absurd (List.cons.inj h).1 he
                  · rename_i h; obtain ⟨rfl, rfl⟩ := List.cons.inj h; rfl
                have := cluster_names (d :: cs) (occs ++ [⟨name, none⟩]) o' ['-', c] false P h1 (hd c List.mem_cons_self)
                  (.inr fun x hx => hd x (List.mem_cons_of_mem _ hx))
                rw [← e] at this
                exact this

/-- a word mentions an option -/
def Mentions (v : Vocabulary) (w n : Str) : Prop :=
  v.Names (beforeEq w) n ∨ ∃ t, w = '-' :: t ∧ t.head? ≠ some '-' ∧ ∃ d ∈ t, n = ['-', d]

/-- every option is in a word before `--` -/
theorem consume_occ (kind : Positional) : ∀ (k : Nat) (ws : List Str) (ms : List (Str × Mark)), ws.length ≤ k →
    marks negative opts ws = .ok ms → ∀ (ph : Phase), ∀ x ∈ (consume opts kind ph ms).occs,
    ∃ w ∈ beforeDashes ws, Mentions v w x.name
  | _, [], ms, _, hm, ph, x, hx => by
    rw [marks] at hm
    obtain rfl := Except.ok.inj hm
    rw [consume] at hx
    cases hx
  | 0, w :: ws, _, hk, _, _, _, _ => by cases hk
  | k + 1, w :: ws, ms, hk, hm, ph, x, hx => by
    have hk : ws.length ≤ k := Nat.le_of_succ_le_succ hk
    rcases marks_cons_ok hm with ⟨hw, rfl⟩ | ⟨hw, m, ms', hp, hm', rfl⟩
    · exfalso
      have after : ∀ (ws : List Str) (ph : Phase), (consume opts kind ph (afterDashes ws)).occs = [] := by
        intro ws
        induction ws with
        | nil => intro ph; rw [afterDashes, consume]
        | cons w ws ih =>
          intro ph
          rw [afterDashes, consume.eq_def]
          cases kind <;> cases ph <;> first | rfl | exact ih _
      have : (consume opts kind ph ((w, .dashes) :: afterDashes ws)).occs = [] := by
        rw [consume.eq_def]
        cases kind <;> cases ph <;> dsimp only <;> first | rfl | exact after _ _ | (split <;> first | rfl | exact after _ _)
      rw [this] at hx
      cases hx
    · have here : beforeDashes (w :: ws) = w :: beforeDashes ws :=
        beforeDashes_append (ws := [w]) (rest := ws) (by intro y hy; rw [List.mem_singleton.1 hy]; exact hw)
      rw [here]
      have later : ∀ ph', x ∈ (consume opts kind ph' ms').occs → ∃ y ∈ w :: beforeDashes ws, Mentions v y x.name := by
        intro ph' h
        obtain ⟨y, hy, h⟩ := consume_occ kind k ws ms' hk hm' ph' x h
        exact ⟨y, List.mem_cons_of_mem _ hy, h⟩
      have hc := parse_cases (negative := negative) hs hw
      rw [hp] at hc
      match m, hc, hx with
      | .dashes, hc, _ => exact hc.elim
      | .option none n e, _, hx =>
        rw [consume.eq_def] at hx
        exact later _ hx
      | .arg, _, hx =>
        rw [consume.eq_def] at hx
        cases kind <;> cases ph <;> first | exact later _ hx | cases hx
      | .option (some o) n e, hc, hx =>
        obtain ⟨_, hf, hc⟩ := hc
        -- the options in this word
        have P : ∀ cl, (match e with
            | none => Cluster.opened [] o n
            | some (sep, text) => cluster opts [] o n sep text) = cl →
            match cl with
            | .closed occs _ => ∀ y ∈ occs, Mentions v w y.name
            | .opened occs _ n => (∀ y ∈ occs, Mentions v w y.name) ∧ Mentions v w n := by
          rintro cl rfl
          rcases hc with ⟨rfl, hn⟩ | ⟨l, t, rfl, rfl, hn⟩ | ⟨c, t, hcd, rfl, rfl, _, rfl⟩
          · exact ⟨(fun _ h => nomatch h), .inl (by rw [beforeEq_none (names_noEq hs hn)]; exact hn)⟩
          · exact cluster_names t [] o n true (Mentions v (l ++ '=' :: t)) (fun _ h => nomatch h)
              (.inl (by rw [beforeEq_some (names_noEq hs hn)]; exact hn)) (.inl rfl)
          · exact cluster_names t [] o ['-', c] false (Mentions v ('-' :: c :: t)) (fun _ h => nomatch h)
              (.inr ⟨c :: t, rfl, by simpa using hcd, c, List.mem_cons_self, rfl⟩)
              (.inr fun d hd => .inr ⟨c :: t, rfl, by simpa using hcd, d, List.mem_cons_of_mem _ hd, rfl⟩)
        rw [consume.eq_def] at hx
        dsimp only at hx
        have this_word : ∀ {occs : List Occ} {n : Str} {y : Option Str}, (∀ y ∈ occs, Mentions v w y.name) → Mentions v w n →
            x ∈ occs ++ [⟨n, y⟩] → ∃ y ∈ w :: beforeDashes ws, Mentions v y x.name := by
          intro occs n y h1 h2 h
          rcases List.mem_append.1 h with h | h
          · exact ⟨w, List.mem_cons_self, h1 x h⟩
          · rw [List.mem_singleton.1 h]; exact ⟨w, List.mem_cons_self, h2⟩
        split at hx
        · rename_i occs extra hcl
          have P := P _ hcl
          rcases List.mem_append.1 hx with h | h
          · exact ⟨w, List.mem_cons_self, P x h⟩
          · exact later _ h
        · rename_i occs o' n' hcl
          have P := P _ hcl
          split at hx
          · split at hx
            · rename_i y rest
              rcases List.mem_append.1 hx with h | h
              · exact this_word P.1 P.2 h
              · match ws, hk, hm' with
                | [], _, hm' => rw [marks] at hm'; cases hm'
                | z :: ws, hk, hm' =>
                  rcases marks_cons_ok hm' with ⟨_, h'⟩ | ⟨hz, m, ms', _, hm2, h'⟩
                  · cases (List.cons.inj h').1
                  · obtain ⟨h1, rfl⟩ := List.cons.inj h'
                    have hk2 : ws.length ≤ k := Nat.le_of_succ_le hk
                    obtain ⟨u, hu, h⟩ := consume_occ kind k ws _ hk2 hm2 _ x h
                    refine ⟨u, List.mem_cons_of_mem _ ?_, h⟩
                    have hb := beforeDashes_append (ws := [z]) (rest := ws) (by
                      intro y hy; rw [List.mem_singleton.1 hy]; exact hz)
                    rw [List.singleton_append] at hb
                    rw [hb]
                    exact List.mem_append_right _ hu
            · rcases List.mem_append.1 hx with h | h
              · exact this_word P.1 P.2 h
              · exact later _ h
          · rcases List.mem_append.1 hx with h | h
            · exact this_word P.1 P.2 h
            · exact later _ h

omit hs in
/-- the command and the words after it end the sequence, and `--` is not before it -/
theorem consume_command : ∀ (k : Nat) (ws : List Str) (ms : List (Str × Mark)), ws.length ≤ k →
    marks negative opts ws = .ok ms → ∀ (ph : Phase) (name : Str) (rest : List Str),
    (consume opts .command ph ms).args = name :: rest → name ≠ "--".toList →
    ∃ pre, ws = pre ++ name :: rest ∧ ∀ w ∈ pre, w ≠ "--".toList
  | _, [], ms, _, hm, ph, name, rest, h, _ => by
    rw [marks] at hm
    obtain rfl := Except.ok.inj hm
    rw [consume] at h
    cases h
  | 0, w :: ws, _, hk, _, _, _, _, _, _ => by cases hk
  | k + 1, w :: ws, ms, hk, hm, ph, name, rest, h, hname => by
    have hk : ws.length ≤ k := Nat.le_of_succ_le_succ hk
    rcases marks_cons_ok hm with ⟨hw, rfl⟩ | ⟨hw, m, ms', hp, hm', rfl⟩
    · rw [consume.eq_def] at h
      exact absurd ((List.cons.inj h).1.symm.trans hw) hname
    · have later : ∀ ph', (consume opts .command ph' ms').args = name :: rest →
          ∃ pre, w :: ws = pre ++ name :: rest ∧ ∀ w ∈ pre, w ≠ "--".toList := by
        intro ph' h
        obtain ⟨pre, rfl, hpre⟩ := consume_command k ws ms' hk hm' ph' name rest h hname
        exact ⟨w :: pre, rfl, List.forall_mem_cons.2 ⟨hw, hpre⟩⟩
      match m, h with
      | .dashes, h =>
        rw [consume.eq_def] at h
        obtain ⟨rfl, rfl⟩ := List.cons.inj h
        exact ⟨[], by rw [marks_fst hm']; rfl, fun _ h => nomatch h⟩
      | .arg, h =>
        rw [consume.eq_def] at h
        obtain ⟨rfl, rfl⟩ := List.cons.inj h
        exact ⟨[], by rw [marks_fst hm']; rfl, fun _ h => nomatch h⟩
      | .option none n e, h =>
        rw [consume.eq_def] at h
        exact later _ h
      | .option (some o) n e, h =>
        rw [consume.eq_def] at h
        dsimp only at h
        split at h
        · exact later _ h
        · split at h
          · split at h
            · rename_i y rest'
              match ws, hk, hm' with
              | [], _, hm' => rw [marks] at hm'; cases hm'
              | z :: ws, hk, hm' =>
                rcases marks_cons_ok hm' with ⟨_, h'⟩ | ⟨hz, m, ms', _, hm2, h'⟩
                · cases (List.cons.inj h').1
                · obtain ⟨h1, rfl⟩ := List.cons.inj h'
                  have hk2 : ws.length ≤ k := Nat.le_of_succ_le hk
                  obtain ⟨pre, rfl, hpre⟩ := consume_command k ws _ hk2 hm2 _ name rest h hname
                  exact ⟨w :: z :: pre, rfl, List.forall_mem_cons.2 ⟨hw, List.forall_mem_cons.2 ⟨hz, hpre⟩⟩⟩
            · exact later _ h
          · exact later _ h

/-- an option that asks for help is in a word that does -/
theorem help_word {w n : Str} (hn : n ∈ ["-h", "--help", "-V", "--version"].map String.toList) (h : Mentions v w n) :
    HelpWord w := by
  have short : ∀ c, n = ['-', c] → c = 'h' ∨ c = 'V' := by
    rintro c rfl
    simpa using hn
  rcases h with h | ⟨t, rfl, ht, d, hd, he⟩
  · have hnd := names_ne_dashes hs h
    obtain ⟨hm, h | ⟨_, hp, hpre, _⟩⟩ := h
    · rcases hs.shape n hm with ⟨h1, h2⟩ | ⟨c, hc, rfl⟩
      · left
        refine ⟨h ▸ h1, hnd, ?_⟩
        rw [h]
        simp only [List.map_cons, List.map_nil, List.mem_cons, List.not_mem_nil, or_false] at hn
        rcases hn with rfl | rfl | rfl | rfl
        · exact absurd h1 (by decide)
        · exact ⟨_, by decide, List.prefix_refl _⟩
        · exact absurd h1 (by decide)
        · exact ⟨_, by decide, List.prefix_refl _⟩
      · right
        have hw : ∃ t, w = '-' :: c :: t := by
          rcases eq_cases w with he | ⟨l, x, he, rfl⟩
          · rw [beforeEq_none he] at h; exact ⟨[], h⟩
          · rw [beforeEq_some he] at h; exact ⟨'=' :: x, by rw [h]; rfl⟩
        obtain ⟨t, rfl⟩ := hw
        refine ⟨c :: t, rfl, by simpa using hc, ?_⟩
        rcases short c rfl with rfl | rfl
        · exact .inl List.mem_cons_self
        · exact .inr List.mem_cons_self
    · left
      refine ⟨hp, hnd, ?_⟩
      have hl : "--".toList <+: n := hp.trans hpre
      simp only [List.map_cons, List.map_nil, List.mem_cons, List.not_mem_nil, or_false] at hn
      rcases hn with rfl | rfl | rfl | rfl
      · exact absurd hl (by decide)
      · exact ⟨_, by decide, hpre⟩
      · exact absurd hl (by decide)
      · exact ⟨_, by decide, hpre⟩
  · right
    refine ⟨t, rfl, ht, ?_⟩
    rcases short d he with rfl | rfl
    · exact .inl hd
    · exact .inr hd

/-- what ends one parser -/
theorem level_error {environ : Environ} {ex : List Str} {kind : Positional} {ws : List Str} {s : Split} {e : Exc}
    (hi : ∃ ns, initial environ opts = .ok ns)
    (hinfo : ∀ o ∈ opts, o.action = .info → ∀ n ∈ o.names, n ∈ ["-h", "--help", "-V", "--version"].map String.toList)
    (h : splitWords negative opts kind ws = .ok s) (he : parseLevel environ opts ex s.occs = .error e) :
    e = .systemExit 2 ∨ (e = .systemExit 0 ∧ ∃ w ∈ beforeDashes ws, HelpWord w) := by
  rcases parseLevel_error he hi with h' | ⟨h', o, ho, ha, x, hx, hm⟩
  · exact .inl h'
  · refine .inr ⟨h', ?_⟩
    unfold splitWords at h
    split at h
    · cases h
    · rename_i ms hms
      obtain rfl := Except.ok.inj h
      obtain ⟨w, hw, h⟩ := consume_occ hs kind _ ws ms (Nat.le_refl _) hms _ x hx
      exact ⟨w, hw, help_word hs (hinfo o ho ha _ hm) h⟩

theorem split_error {kind : Positional} {ws : List Str} {e : Exc} (h : splitWords negative opts kind ws = .error e) :
    e = .systemExit 2 := by
  unfold splitWords at h
  split at h
  · rename_i e' he
    obtain rfl := Except.error.inj h
    exact marks_error hs he
  · cases h

omit hs in
theorem split_args {ws : List Str} {s : Split} {name : Str} {rest : List Str}
    (h : splitWords negative opts .command ws = .ok s) (ha : s.args = name :: rest) (hn : name ≠ "--".toList) :
    ∀ w ∈ beforeDashes rest, w ∈ beforeDashes ws := by
  unfold splitWords at h
  split at h
  · cases h
  · rename_i ms hms
    obtain rfl := Except.ok.inj h
    obtain ⟨pre, rfl, hpre⟩ := consume_command _ ws ms (Nat.le_refl _) hms _ name rest ha hn
    intro w hw
    rw [List.append_cons, beforeDashes_append]
    · exact List.mem_append_right _ hw
    · intro y hy
      rcases List.mem_append.1 hy with hy | hy
      · exact hpre y hy
      · rw [List.mem_singleton.1 hy]; exact hn

end

theorem parseCommand_error {environ : Environ} {negative : Str → Bool} {top middle : List Occ} {outer : Namespace} {x : Bool}
    {c : Command} {words : List Str} {e : Exc} (hi : ∃ ns, initial environ c.options = .ok ns)
    (h : parseCommand environ negative top middle outer x c words = .error e) :
    e = .systemExit 2 ∨ (e = .systemExit 0 ∧ ∃ w ∈ beforeDashes words, HelpWord w) := by
  unfold parseCommand at h
  split at h
  · rename_i e' h1
    obtain rfl := Except.error.inj h
    exact .inl (split_error (speaks_command c) h1)
  · rename_i s h1
    split at h
    · rename_i e' h2
      obtain rfl := Except.error.inj h
      exact level_error (speaks_command c) hi (by cases c <;> decide +kernel) h1 h2
    · split at h
      · exact .inl (Except.error.inj h).symm
      · cases h

/-- C115: what is not accepted ends the process with status 2, unless a word before `--` asks for the help or the version (or a
switch in the environment cannot be understood) -/
theorem C115_rejected (environ : Environ) (negative : Str → Bool) (argv : List Str) (e : Exc)
    (h : parseArgv environ negative argv = .error e) :
    (¬ EnvironOk environ ∧ e = .valueError) ∨
    (EnvironOk environ ∧ (e = .systemExit 2 ∨ (e = .systemExit 0 ∧ ∃ w ∈ beforeDashes argv, HelpWord w))) := by
  unfold parseArgv at h
  split at h
  · rename_i e' hb
    obtain rfl := Except.error.inj h
    refine .inl ⟨?_, buildParsers_error _ _ _ hb⟩
    intro he
    rw [(environOk_iff environ).2 he] at hb
    cases hb
  · rename_i hb
    refine .inr ⟨(environOk_iff environ).1 hb, ?_⟩
    obtain ⟨i1, i2⟩ := (buildParsers_iff environ _).1 hb
    have i3 : ∃ ns, initial environ commonOptions = .ok ns := i2 .trustInstance (mem_commands _)
    split at h
    · rename_i e' h1
      obtain rfl := Except.error.inj h
      exact .inl (split_error speaks_main h1)
    · rename_i s h1
      split at h
      · rename_i e' h2
        obtain rfl := Except.error.inj h
        exact level_error speaks_main i1 (by decide +kernel) h1 h2
      · split at h
        · exact .inl (Except.error.inj h).symm
        · rename_i name words ha
          split at h
          · exact .inl (Except.error.inj h).symm
          · rename_i c hc
            obtain ⟨n, hn, rfl⟩ := lookupCommand_direct hc
            rcases parseCommand_error (i2 _ (mem_commands _)) h with h | ⟨h, w, hw, h'⟩
            · exact .inl h
            · exact .inr ⟨h, w, split_args h1 ha (command_noDashes hn).1 w hw, h'⟩
          · rename_i g hg
            have hgn : name ≠ "--".toList := by
              rintro rfl
              rw [show lookupCommand "--".toList = none by decide] at hg
              cases hg
            split at h
            · rename_i e' h3
              obtain rfl := Except.error.inj h
              exact .inl (split_error speaks_middle h3)
            · rename_i m h3
              split at h
              · rename_i e' h4
                obtain rfl := Except.error.inj h
                rcases level_error speaks_middle i3 (by decide +kernel) h3 h4 with h | ⟨h, w, hw, h'⟩
                · exact .inl h
                · exact .inr ⟨h, w, split_args h1 ha hgn w hw, h'⟩
              · split at h
                · exact .inl (Except.error.inj h).symm
                · rename_i name' words' ha'
                  split at h
                  · exact .inl (Except.error.inj h).symm
                  · rename_i c hc
                    obtain ⟨gn, n, hn, rfl, rfl⟩ := lookupCommand_group hg hc
                    rcases parseCommand_error (i2 _ (mem_commands _)) h with h | ⟨h, w, hw, h'⟩
                    · exact .inl h
                    · exact .inr ⟨h, w, split_args h1 ha hgn w (split_args h3 ha' (command_noDashes hn).1 w hw), h'⟩

end Sigstore.Props
