import Verif.Spec.Logging
import Verif.Props.CliReport

/-!
# Which log records of `sigstore verify` are written (C107)
-/

namespace Sigstore.Props

open Sigstore.Spec Sigstore.Trust Sigstore.LogEntry Sigstore.Dsse Sigstore.Cli

theorem levelByName_cases (s : Str) :
    (levelByName s = some 50 ∧ s ∈ ["CRITICAL".toList, "FATAL".toList]) ∨
    (levelByName s = some 40 ∧ s = "ERROR".toList) ∨
    (∃ n, levelByName s = some n ∧ n ≤ 30 ∧ s ∈ KnownLevels ∧ s ∉ ["CRITICAL".toList, "FATAL".toList, "ERROR".toList]) ∨
    (levelByName s = none ∧ s ∉ KnownLevels) := by
  by_cases h1 : s = "CRITICAL".toList
  · subst h1; exact .inl ⟨by decide, by decide⟩
  by_cases h2 : s = "FATAL".toList
  · subst h2; exact .inl ⟨by decide, by decide⟩
  by_cases h3 : s = "ERROR".toList
  · subst h3; exact .inr (.inl ⟨by decide, rfl⟩)
  by_cases h4 : s = "WARN".toList
  · subst h4; exact .inr (.inr (.inl ⟨30, by decide, by decide, by decide, by decide⟩))
  by_cases h5 : s = "WARNING".toList
  · subst h5; exact .inr (.inr (.inl ⟨30, by decide, by decide, by decide, by decide⟩))
  by_cases h6 : s = "INFO".toList
  · subst h6; exact .inr (.inr (.inl ⟨20, by decide, by decide, by decide, by decide⟩))
  by_cases h7 : s = "DEBUG".toList
  · subst h7; exact .inr (.inr (.inl ⟨10, by decide, by decide, by decide, by decide⟩))
  by_cases h8 : s = "NOTSET".toList
  · subst h8; exact .inr (.inr (.inl ⟨0, by decide, by decide, by decide, by decide⟩))
  refine .inr (.inr (.inr ⟨?_, ?_⟩))
  · unfold levelByName
    rw [if_neg h1, if_neg h2, if_neg h3, if_neg h4, if_neg h5, if_neg h6, if_neg h7, if_neg h8]
  · unfold KnownLevels
    simp only [List.mem_cons, List.not_mem_nil, or_false, not_or]
    exact ⟨h1, h2, h3, h4, h5, h6, h7, h8⟩

/-- the level after the import and the options -/
theorem effective_cases {upper : Str → Str} (hupper : upper "INFO".toList = "INFO".toList) (loglevel : Option Str)
    (verbosity : Nat) :
    (importLevel upper loglevel = .error .valueError ∧ ¬ LevelKnown upper loglevel) ∨
    (LevelKnown upper loglevel ∧ ∃ n, importLevel upper loglevel = .ok n ∧
      ((effectiveLevel n verbosity = 50 ∧ Silenced upper loglevel verbosity ∧ Quiet upper loglevel verbosity) ∨
       (effectiveLevel n verbosity = 40 ∧ ¬ Silenced upper loglevel verbosity ∧ Quiet upper loglevel verbosity) ∨
       (effectiveLevel n verbosity ≤ 30 ∧ ¬ Silenced upper loglevel verbosity ∧ ¬ Quiet upper loglevel verbosity))) := by
  cases loglevel with
  | none =>
    refine .inr ⟨nofun, 20, ?_, .inr (.inr ⟨?_, ?_, ?_⟩)⟩
    · unfold importLevel
      rw [show (none : Option Str).getD "INFO".toList = "INFO".toList from rfl, hupper]
      rfl
    · unfold effectiveLevel
      dsimp only
      split
      · rw [if_neg (by decide)]; decide
      · rw [if_neg (by decide)]; decide
    · rintro ⟨_, s, h, _⟩; cases h
    · rintro ⟨_, s, h, _⟩; cases h
  | some s =>
    have hquiet : ∀ names, QuietAt names upper (some s) verbosity ↔ verbosity = 0 ∧ upper s ∈ names := by
      intro names
      constructor
      · rintro ⟨h, t, ht, h'⟩; cases ht; exact ⟨h, h'⟩
      · rintro ⟨h, h'⟩; exact ⟨h, s, rfl, h'⟩
    have hknown : LevelKnown upper (some s) ↔ upper s ∈ KnownLevels :=
      ⟨fun h => h s rfl, fun h t ht => by cases ht; exact h⟩
    have himp : importLevel upper (some s) = (match levelByName (upper s) with | none => .error .valueError | some n => .ok n) :=
      rfl
    have heff : ∀ n, verbosity ≠ 0 → effectiveLevel n verbosity ≤ 30 := by
      intro n h
      unfold effectiveLevel
      dsimp only
      rw [if_pos (show verbosity ≥ 1 by omega), if_neg (by decide)]
      decide
    have heff0 : ∀ n, verbosity = 0 → effectiveLevel n verbosity = if n = 0 then 30 else n := by
      intro n h
      subst h
      rfl
    unfold Silenced Quiet
    rw [hquiet, hquiet, hknown, himp]
    rcases levelByName_cases (upper s) with ⟨h1, h2⟩ | ⟨h1, h2⟩ | ⟨n, h1, h2, h3, h4⟩ | ⟨h1, h2⟩
    · rw [h1]
      refine .inr ⟨?_, 50, rfl, ?_⟩
      · rcases List.mem_cons.1 h2 with h | h
        · rw [h]; decide
        · rw [List.mem_singleton.1 h]; decide
      · by_cases hv : verbosity = 0
        · refine .inl ⟨by rw [heff0 _ hv]; rfl, ⟨hv, h2⟩, hv, ?_⟩
          rcases List.mem_cons.1 h2 with h | h
          · rw [h]; decide
          · rw [List.mem_singleton.1 h]; decide
        · exact .inr (.inr ⟨heff _ hv, fun h => hv h.1, fun h => hv h.1⟩)
    · rw [h1, h2]
      refine .inr ⟨by decide, 40, rfl, ?_⟩
      by_cases hv : verbosity = 0
      · refine .inr (.inl ⟨by rw [heff0 _ hv]; rfl, fun h => absurd h.2 (by decide), hv, by decide⟩)
      · exact .inr (.inr ⟨heff _ hv, fun h => hv h.1, fun h => hv h.1⟩)
    · rw [h1]
      refine .inr ⟨h3, n, rfl, .inr (.inr ⟨?_, fun h => h4 ?_, fun h => h4 h.2⟩)⟩
      · by_cases hv : verbosity = 0
        · rw [heff0 _ hv]
          split <;> omega
        · exact heff _ hv
      · rcases List.mem_cons.1 h.2 with h | h
        · rw [h]; decide
        · rw [List.mem_singleton.1 h]; decide
    · rw [h1]
      exact .inl ⟨rfl, h2⟩

/-- everything that a verification says is a line, an error, or the hint -/
theorem said_levels (venv : VerifyEnv) (fs : Fs) (now : Time) (cmd : VerifyCommand) (verbose : Bool) (positional : List Str)
    (certificate signature bundle : Option Path) (trust : TrustArgs) (w : VerifyWorld) :
    ∀ x ∈ (verifyMainSaid venv fs now cmd verbose positional certificate signature bundle trust w).2.2,
      (∃ s, x = .out s) ∨ (∃ s, x = .err s) ∨ (∃ m, x = .log 40 m) ∨ x = CertificateHint := by
  obtain ⟨r, w', said, e, hr⟩ := C106_report venv fs now cmd verbose positional certificate signature bundle trust w
  rw [e]
  dsimp only
  intro x hx
  rcases hr with ⟨_, rfl | ⟨e, rfl⟩⟩ | ⟨_, _, _, _, _, _, _, _, _, done, rest, tail, _, g2, rfl, g4⟩
  · cases hx
  · rw [List.mem_singleton] at hx
    exact .inr (.inr (.inl ⟨_, hx⟩))
  · rcases List.mem_append.1 hx with hx | hx
    · obtain ⟨y, hy, hx⟩ := List.mem_flatMap.1 hx
      obtain ⟨name, _, hl⟩ := (g2 y hy).2
      cases hp : y.2.1 with
      | none =>
        rw [hp] at hl
        dsimp only at hl
        rw [hl, List.mem_singleton] at hx
        exact .inr (.inl ⟨_, hx⟩)
      | some bytes =>
        rw [hp] at hl
        dsimp only at hl
        obtain ⟨line, _, hl⟩ := hl
        rw [hl] at hx
        rcases List.mem_cons.1 hx with hx | hx
        · exact .inr (.inl ⟨_, hx⟩)
        · exact .inl ⟨_, List.mem_singleton.1 hx⟩
    · rcases g4 with ⟨_, _, rfl⟩ | ⟨i, rest', _, hs⟩
      · cases hx
      · cases hs with
        | failed _ _ _ hl =>
          rw [hl] at hx
          rcases List.mem_append.1 hx with hx | hx
          · rcases List.mem_append.1 hx with hx | hx
            · split at hx
              · exact .inr (.inr (.inr (List.mem_singleton.1 hx)))
              · cases hx
            · rcases List.mem_cons.1 hx with hx | hx
              · exact .inr (.inr (.inl ⟨_, hx⟩))
              · exact .inr (.inr (.inl ⟨_, List.mem_singleton.1 hx⟩))
          · split at hx
            · exact .inr (.inr (.inl ⟨_, List.mem_singleton.1 hx⟩))
            · cases hx
        | raised => cases hx
        | unprintable => exact .inr (.inl ⟨_, List.mem_singleton.1 hx⟩)

/-- **C107** With an unknown level in `SIGSTORE_LOGLEVEL`, no command runs: `ValueError`, without any output. -/
theorem C107_unknown_level {upper : Str → Str} (hupper : upper "INFO".toList = "INFO".toList) (loglevel : Option Str)
    (venv : VerifyEnv) (fs : Fs) (now : Time) (cmd : VerifyCommand) (verbosity : Nat) (positional : List Str)
    (certificate signature bundle : Option Path) (trust : TrustArgs) (w : VerifyWorld) (h : ¬ LevelKnown upper loglevel) :
    verifyProgram upper loglevel venv fs now cmd verbosity positional certificate signature bundle trust w =
      (.error .valueError, w, []) := by
  rcases effective_cases hupper loglevel verbosity with ⟨hi, _⟩ | ⟨hk, _⟩
  · unfold verifyProgram
    rw [hi]
  · exact absurd hk h

/-- **C107** With a known level, the log level changes neither the result nor the effects, nor what goes to standard output and
the `OK` lines: it is the run of `verifyMain`, of whose output only log records can be missing, and the order is kept. -/
theorem C107_same_run {upper : Str → Str} (hupper : upper "INFO".toList = "INFO".toList) (loglevel : Option Str)
    (venv : VerifyEnv) (fs : Fs) (now : Time) (cmd : VerifyCommand) (verbosity : Nat) (positional : List Str)
    (certificate signature bundle : Option Path) (trust : TrustArgs) (w : VerifyWorld) (h : LevelKnown upper loglevel) :
    ∃ written, verifyProgram upper loglevel venv fs now cmd verbosity positional certificate signature bundle trust w =
        ((verifyMain venv fs now cmd (decide (verbosity ≥ 1)) positional certificate signature bundle trust w).1,
         (verifyMain venv fs now cmd (decide (verbosity ≥ 1)) positional certificate signature bundle trust w).2, written) ∧
      written.Sublist
        (verifyMainSaid venv fs now cmd (decide (verbosity ≥ 1)) positional certificate signature bundle trust w).2.2 ∧
      (∀ s, written.count (Said.out s) =
        (verifyMainSaid venv fs now cmd (decide (verbosity ≥ 1)) positional certificate signature bundle trust w).2.2.count
          (Said.out s)) ∧
      (∀ s, written.count (Said.err s) =
        (verifyMainSaid venv fs now cmd (decide (verbosity ≥ 1)) positional certificate signature bundle trust w).2.2.count
          (Said.err s)) := by
  rcases effective_cases hupper loglevel verbosity with ⟨_, hk⟩ | ⟨_, n, hi, _⟩
  · exact absurd h hk
  · refine ⟨_, by unfold verifyProgram; rw [hi, verifyMainSaid_refines], List.filter_sublist, ?_, ?_⟩
    · exact fun s => List.count_filter rfl
    · exact fun s => List.count_filter rfl

/-- **C107** Unless `SIGSTORE_LOGLEVEL` is one of `CRITICAL`, `FATAL` and `ERROR` and there is no `--verbose`, everything is
written. -/
theorem C107_all_written {upper : Str → Str} (hupper : upper "INFO".toList = "INFO".toList) (loglevel : Option Str)
    (venv : VerifyEnv) (fs : Fs) (now : Time) (cmd : VerifyCommand) (verbosity : Nat) (positional : List Str)
    (certificate signature bundle : Option Path) (trust : TrustArgs) (w : VerifyWorld) (h : LevelKnown upper loglevel)
    (hq : ¬ Quiet upper loglevel verbosity) :
    verifyProgram upper loglevel venv fs now cmd verbosity positional certificate signature bundle trust w =
      verifyMainSaid venv fs now cmd (decide (verbosity ≥ 1)) positional certificate signature bundle trust w := by
  rcases effective_cases hupper loglevel verbosity with ⟨_, hk⟩ | ⟨_, n, hi, ⟨_, _, hq'⟩ | ⟨_, _, hq'⟩ | ⟨hl, _, _⟩⟩
  · exact absurd h hk
  · exact absurd hq' hq
  · exact absurd hq' hq
  · unfold verifyProgram
    rw [hi]
    dsimp only
    rw [List.filter_eq_self.2]
    intro x hx
    rcases said_levels venv fs now cmd (decide (verbosity ≥ 1)) positional certificate signature bundle trust w x hx with
      ⟨s, rfl⟩ | ⟨s, rfl⟩ | ⟨m, rfl⟩ | rfl
    · rfl
    · rfl
    · exact decide_eq_true (show 40 ≥ effectiveLevel n verbosity by omega)
    · exact decide_eq_true (show 30 ≥ effectiveLevel n verbosity by omega)

/-- **C107** Unless `SIGSTORE_LOGLEVEL` is `CRITICAL` or `FATAL` and there is no `--verbose`, everything but the hint about
certificates is written; in particular every `FAIL`. -/
theorem C107_errors_written {upper : Str → Str} (hupper : upper "INFO".toList = "INFO".toList) (loglevel : Option Str)
    (venv : VerifyEnv) (fs : Fs) (now : Time) (cmd : VerifyCommand) (verbosity : Nat) (positional : List Str)
    (certificate signature bundle : Option Path) (trust : TrustArgs) (w : VerifyWorld) (h : LevelKnown upper loglevel)
    (hq : ¬ Silenced upper loglevel verbosity) :
    ∀ x ∈ (verifyMainSaid venv fs now cmd (decide (verbosity ≥ 1)) positional certificate signature bundle trust w).2.2,
      x ≠ CertificateHint →
      x ∈ (verifyProgram upper loglevel venv fs now cmd verbosity positional certificate signature bundle trust w).2.2 := by
  have hle : ∃ n, importLevel upper loglevel = .ok n ∧ effectiveLevel n verbosity ≤ 40 := by
    rcases effective_cases hupper loglevel verbosity with ⟨_, hk⟩ | ⟨_, n, hi, ⟨_, hq', _⟩ | ⟨hl, _⟩ | ⟨hl, _, _⟩⟩
    · exact absurd h hk
    · exact absurd hq' hq
    · exact ⟨n, hi, by omega⟩
    · exact ⟨n, hi, by omega⟩
  obtain ⟨n, hi, hl⟩ := hle
  intro x hx hne
  unfold verifyProgram
  rw [hi]
  dsimp only
  refine List.mem_filter.2 ⟨hx, ?_⟩
  rcases said_levels venv fs now cmd (decide (verbosity ≥ 1)) positional certificate signature bundle trust w x hx with
    ⟨s, rfl⟩ | ⟨s, rfl⟩ | ⟨m, rfl⟩ | rfl
  · rfl
  · rfl
  · exact decide_eq_true (show 40 ≥ effectiveLevel n verbosity by omega)
  · exact absurd rfl hne

/-- **C107** If it is, no log record at all is written: a failed verification then shows only in the exit status. -/
theorem C107_silenced {upper : Str → Str} (hupper : upper "INFO".toList = "INFO".toList) (loglevel : Option Str)
    (venv : VerifyEnv) (fs : Fs) (now : Time) (cmd : VerifyCommand) (verbosity : Nat) (positional : List Str)
    (certificate signature bundle : Option Path) (trust : TrustArgs) (w : VerifyWorld)
    (hq : Silenced upper loglevel verbosity) :
    ∀ level m, Said.log level m ∉
      (verifyProgram upper loglevel venv fs now cmd verbosity positional certificate signature bundle trust w).2.2 := by
  intro level m hx
  rcases effective_cases hupper loglevel verbosity with ⟨hi, _⟩ | ⟨_, n, hi, ⟨hl, _, _⟩ | ⟨_, hq', _⟩ | ⟨_, hq', _⟩⟩
  · unfold verifyProgram at hx
    rw [hi] at hx
    cases hx
  · unfold verifyProgram at hx
    rw [hi] at hx
    dsimp only at hx
    obtain ⟨hx, hs⟩ := List.mem_filter.1 hx
    have hs' := of_decide_eq_true hs
    rcases said_levels venv fs now cmd (decide (verbosity ≥ 1)) positional certificate signature bundle trust w _ hx with
      ⟨s, e⟩ | ⟨s, e⟩ | ⟨m', e⟩ | e
    · cases e
    · cases e
    · cases e
      omega
    · unfold CertificateHint at e
      cases e
      omega
  · exact absurd hq hq'
  · exact absurd hq hq'

end Sigstore.Props
