import Verif.Spec.Shown
import Verif.Props.CliMain

/-!
# C120: credentials among the options are shown
-/

namespace Sigstore.Props

open Sigstore.Cli Sigstore.Spec Sigstore.Args

theorem reprText_plain (printable : Char → Bool) {s : Str} (h : PlainText s) : reprText printable s = '\'' :: (s ++ ['\'']) := by
  have hq : '\'' ∉ s := fun hm => (h _ hm).2.2.1 rfl
  unfold reprText
  rw [if_neg (fun hx => hq hx.1)]
  dsimp only
  have key : ∀ l : Str, PlainText l → l.flatMap (reprChar printable '\'') = l := by
    intro l
    induction l with
    | nil => intro _; rfl
    | cons c l ih =>
      intro hl
      rw [List.flatMap_cons, ih fun x hx => hl x (List.mem_cons_of_mem _ hx)]
      obtain ⟨h1, h2, h3, h4⟩ := hl c List.mem_cons_self
      have ht : c ≠ '\t' := by rintro rfl; revert h1; decide
      have hn : c ≠ '\n' := by rintro rfl; revert h1; decide
      have hr : c ≠ '\r' := by rintro rfl; revert h1; decide
      unfold reprChar
      rw [if_neg (by rintro (h | h); exacts [h3 h, h4 h]), if_neg ht, if_neg hn, if_neg hr, if_neg (by omega), if_pos (.inl h2)]
      rfl
  rw [key s h]

theorem infix_intercalate (sep x : Str) : ∀ l : List Str, x ∈ l → x <:+: sep.intercalate l
  | [], h => by cases h
  | [y], h => by
    rw [List.mem_singleton] at h
    subst h
    simp [List.intercalate]
  | y :: z :: l, h => by
    have e : sep.intercalate (y :: z :: l) = y ++ (sep ++ sep.intercalate (z :: l)) := by simp [List.intercalate]
    rw [e]
    rcases List.mem_cons.1 h with rfl | h
    · exact ⟨[], sep ++ sep.intercalate (z :: l), rfl⟩
    · obtain ⟨a, b, hab⟩ := infix_intercalate sep x (z :: l) h
      exact ⟨y ++ sep ++ a, b, by rw [← hab]; simp⟩

/-- every attribute is in the log line -/
theorem infix_parsedArguments (printable : Char → Bool) (c : Command) (ns : Namespace) (d : Str) (hd : d ∈ attributes c) (v : Str)
    (hv : ns d = some (.text v)) (hp : PlainText v) : v <:+: parsedArguments printable c ns := by
  have hm : d ++ '=' :: reprVal printable (.text v) ∈
      (attributes c).filterMap fun d => (ns d).map fun v => d ++ '=' :: reprVal printable v := by
    rw [List.mem_filterMap]
    exact ⟨d, hd, by rw [hv]; rfl⟩
  have h1 : v <:+: d ++ '=' :: reprVal printable (.text v) := by
    show v <:+: d ++ '=' :: reprText printable v
    rw [reprText_plain printable hp]
    exact ⟨d ++ ['=', '\''], ['\''], by simp⟩
  unfold parsedArguments
  with_reducible exact (h1.trans (infix_intercalate ", ".toList _ _ hm)).trans (List.infix_append _ _ _)

theorem text_some {ns : Namespace} {d : String} {v : Str} (h : ns.text d = some v) : ns d.toList = some (.text v) := by
  unfold Namespace.text at h
  split at h
  · cases h; assumption
  · cases h

theorem importLevel_cases {upper : Str → Str} {loglevel : Option Str} {level : Nat} (h : importLevel upper loglevel = .ok level) :
    level = 10 ↔ upper (loglevel.getD "INFO".toList) = "DEBUG".toList := by
  unfold importLevel at h
  generalize upper (loglevel.getD "INFO".toList) = s at h ⊢
  unfold levelByName at h
  have e1 : "DEBUG".toList ≠ "CRITICAL".toList := by decide
  have e2 : "DEBUG".toList ≠ "FATAL".toList := by decide
  have e3 : "DEBUG".toList ≠ "ERROR".toList := by decide
  have e4 : "DEBUG".toList ≠ "WARNING".toList := by decide
  have e5 : "DEBUG".toList ≠ "WARN".toList := by decide
  have e6 : "DEBUG".toList ≠ "INFO".toList := by decide
  constructor
  · rintro rfl
    by_contra hs
    rw [if_neg hs] at h
    split at h
    · cases h
    · rename_i n hn
      cases h
      repeat' split at hn
      all_goals first | (injection hn with hn; omega) | cases hn
  · rintro rfl
    rw [if_neg e1, if_neg e2, if_neg e3, if_neg e5, if_neg e4, if_neg e6, if_pos rfl] at h
    cases h
    rfl

/-- **C120** is false if debug messages are asked for, which is all that `-v` is documented to do: the credential that is used, given on
the line or by the environment, is written to the log. -/
theorem C120_logged (upper : Str → Str) (printable : Char → Bool) (loglevel : Option Str) (level : Nat)
    (hl : importLevel upper loglevel = .ok level) (environ : Environ) (line : CommandLine) (ns : Namespace)
    (h : parseArgs environ line = .ok ns) (name var : String) (hc : Credential line.command name var) (v : Str)
    (hv : TextValue environ line.sub [name] (some var) none (some v)) (hp : PlainText v)
    (hd : DebugAskedFor upper loglevel line) :
    ∃ text, startLog upper printable loglevel line.command ns = .ok [text] ∧ v <:+: text := by
  have hlevel : 10 ≥ effectiveLevel level ns.verbosity := by
    unfold effectiveLevel
    rcases hd with hd | ⟨l, rfl, hd⟩
    · rw [← C90_verbosity_partial h] at hd
      simp only [if_pos hd]
      split <;> simp_all
    · have := (importLevel_cases hl).2 hd
      subst this
      simp
  refine ⟨parsedArguments printable line.command ns, ?_, ?_⟩
  · unfold startLog
    rw [hl]
    dsimp only
    rw [if_pos hlevel]
  · obtain ⟨top, middle, command, sub, positional⟩ := line
    have key : ∀ dest : String, opt [name] dest (env var) false ∈ Command.options command →
        dest.toList ∈ attributes command → v <:+: parsedArguments printable command ns := by
      intro dest ho hd
      exact infix_parsedArguments printable _ _ _ hd v (text_some (textValue_unique (sub_env h ho) hv)) hp
    cases hc with
    | signToken => exact key "identity_token" (by decide) (by decide)
    | attestToken => exact key "identity_token" (by decide) (by decide)
    | signSecret => exact key "oidc_client_secret" (by decide) (by decide)
    | attestSecret => exact key "oidc_client_secret" (by decide) (by decide)
    | getSecret => exact key "oidc_client_secret" (by decide) (by decide)

/-- **C120** (partial) The line with the options is written exactly if debug messages are asked for; otherwise nothing is logged
before the command starts. -/
theorem C120_written_iff_partial (upper : Str → Str) (hu : upper "INFO".toList = "INFO".toList) (printable : Char → Bool)
    (loglevel : Option Str) (level : Nat) (hl : importLevel upper loglevel = .ok level) (environ : Environ) (line : CommandLine)
    (ns : Namespace) (h : parseArgs environ line = .ok ns) :
    (DebugAskedFor upper loglevel line ∧
      startLog upper printable loglevel line.command ns = .ok [parsedArguments printable line.command ns]) ∨
    (¬ DebugAskedFor upper loglevel line ∧ startLog upper printable loglevel line.command ns = .ok []) := by
  have hdebug : level = 10 ↔ ∃ l, loglevel = some l ∧ upper l = "DEBUG".toList := by
    rw [importLevel_cases hl]
    cases loglevel with
    | none =>
      rw [Option.getD_none, hu]
      constructor
      · intro h; exact absurd h (by decide)
      · rintro ⟨l, h, -⟩; cases h
    | some l =>
      rw [Option.getD_some]
      exact ⟨fun h => ⟨l, rfl, h⟩, by rintro ⟨l', h, h'⟩; cases h; exact h'⟩
  have hvals : level = 0 ∨ 10 ≤ level := by
    unfold importLevel at hl
    unfold levelByName at hl
    generalize upper (loglevel.getD "INFO".toList) = s at hl
    split at hl
    · cases hl
    · rename_i n hn
      cases hl
      repeat' split at hn
      all_goals first | (injection hn with hn; omega) | cases hn
  have hiff : 10 ≥ effectiveLevel level ns.verbosity ↔ DebugAskedFor upper loglevel line := by
    unfold DebugAskedFor
    rw [← hdebug, ← C90_verbosity_partial h]
    unfold effectiveLevel
    by_cases h1 : ns.verbosity ≥ 1
    · simp only [h1, true_or, iff_true]
      split <;> simp_all
    · have h2 : ¬ ns.verbosity ≥ 2 := by omega
      dsimp only
      rw [if_neg h1, if_neg h2]
      rcases hvals with h0 | h0
      · subst h0; simp [h1]
      · rw [if_neg (by omega)]; omega
  unfold startLog
  rw [hl]
  dsimp only
  by_cases hd : 10 ≥ effectiveLevel level ns.verbosity
  · exact .inl ⟨hiff.1 hd, by rw [if_pos hd]⟩
  · exact .inr ⟨fun h => hd (hiff.2 h), by rw [if_neg hd]⟩

/-- **C120** is false of `--help`, whatever the environment is: it shows the credential that the environment holds, as the default
of the option. -/
theorem C120_help (environ : Environ) (he : EnvironOk environ) (c : Command) (name var : String) (hc : Credential c name var)
    (v : Str) (hv : environ var.toList = some v) :
    parseArgs environ ⟨[], [], c, [⟨"--help".toList, none⟩], []⟩ = .error (.systemExit 0) ∧
    ∃ names, name.toList ∈ names ∧ (names, "(default: ".toList ++ v ++ ")".toList) ∈ helpDefaults environ c.options := by
  have hb := (environOk_iff environ).2 he
  have hall := (buildParsers_iff environ commands).1 hb
  constructor
  · have hnested : c.nested = false := by cases hc <;> rfl
    obtain ⟨ns0, h0⟩ := hall.1
    obtain ⟨ns1, h1⟩ := hall.2 c (by cases c <;> decide)
    unfold parseArgs
    rw [hb]
    dsimp only
    have e0 : parseLevel environ mainOptions exclusiveGroup [] = .ok (ns0, false) := by
      unfold parseLevel
      rw [h0]
      rfl
    have e1 : parseLevel environ c.options [] [⟨"--help".toList, none⟩] = .error (.systemExit 0) := by
      unfold parseLevel
      rw [h1]
      cases hc <;> rfl
    rw [e0]
    dsimp only
    rw [hnested, e1]
    rfl
  · have key : ∀ dest : String, opt [name] dest (env var) false ∈ c.options →
        ∃ names, name.toList ∈ names ∧ (names, "(default: ".toList ++ v ++ ")".toList) ∈ helpDefaults environ c.options := by
      intro dest ho
      refine ⟨[name.toList], List.mem_singleton.2 rfl, ?_⟩
      unfold helpDefaults
      rw [List.mem_filterMap]
      refine ⟨_, ho, ?_⟩
      have : evalDefault environ (opt [name] dest (env var) false).default = .ok (some (.text v)) := by
        show evalDefault environ (.env var.toList none) = _
        unfold evalDefault
        dsimp only
        rw [hv]
      rw [this]
      rfl
    cases hc with
    | signToken => exact key "identity_token" (by decide)
    | attestToken => exact key "identity_token" (by decide)
    | signSecret => exact key "oidc_client_secret" (by decide)
    | attestSecret => exact key "oidc_client_secret" (by decide)
    | getSecret => exact key "oidc_client_secret" (by decide)

end Sigstore.Props
