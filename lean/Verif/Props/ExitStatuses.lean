import Verif.Lemmas.NeverExit
import Verif.Props.CliComplete
import Verif.Props.CliMainExamples

/-!
# C123: what the exit statuses mean
-/

namespace Sigstore.Props

open Sigstore.Trust Sigstore.LogEntry Sigstore.Dsse Sigstore.Signing Sigstore.Cli Sigstore.Spec Sigstore.Args Sigstore.Tuf Sigstore.NeverExit

/-- the last of the questions asked was about an entry that the log does not have -/
def NoEntryFound (retrieve : HashedrekordBody → Py (Option LogEntry)) (asked : List HashedrekordBody) : Prop :=
  ∃ earlier body, asked = earlier ++ [body] ∧ retrieve body = .ok none

/-! ## `sigstore verify` -/

section Verify

variable {venv : VerifyEnv} {fs : Fs} (hl : LibrariesNeverExit venv fs)
include hl

theorem loadMaterials_exits {hd : Hashed} {w w' : VerifyWorld} {m : Materials} {r : Py Bundle}
    (h : loadMaterials venv fs hd w m = (r, w')) :
    ∃ asked, w'.queries = w.queries ++ asked ∧ ∀ n, r = .error (.systemExit n) ↔ n = 2 ∧ NoEntryFound venv.retrieve asked := by
  have quiet : ∀ {r : Py Bundle}, (∀ n, r ≠ .error (.systemExit n)) →
      ∃ asked, w.queries = w.queries ++ asked ∧ ∀ n, r = .error (.systemExit n) ↔ n = 2 ∧ NoEntryFound venv.retrieve asked := by
    intro r hr
    refine ⟨[], by simp, fun n => ⟨fun h => absurd h (hr n), ?_⟩⟩
    rintro ⟨_, earlier, body, h, _⟩
    simp at h
  have asked1 : ∀ {r : Py Bundle} {body : HashedrekordBody}, (∀ n, r ≠ .error (.systemExit n)) → venv.retrieve body ≠ .ok none →
      ∃ asked, w.queries ++ [body] = w.queries ++ asked ∧
        ∀ n, r = .error (.systemExit n) ↔ n = 2 ∧ NoEntryFound venv.retrieve asked := by
    intro r body hr hb
    refine ⟨[body], rfl, fun n => ⟨fun h => absurd h (hr n), ?_⟩⟩
    rintro ⟨_, earlier, body', h, h'⟩
    have := List.append_inj_right' (s₁ := []) h rfl
    cases this
    exact absurd h' hb
  unfold loadMaterials at h
  split at h
  · split at h
    · rename_i e he
      cases h
      exact quiet fun n hn => hl.read _ n (by rw [he, Except.error.inj hn])
    · split at h
      · rename_i e he
        cases h
        exact quiet fun n hn => hl.parseBundle _ _ (by rw [he, Except.error.inj hn])
      · cases h
        exact quiet fun n hn => NeverExit.bundleInit _ _ hn
  · split at h
    · rename_i e he
      cases h
      exact quiet fun n hn => hl.read _ n (by rw [he, Except.error.inj hn])
    · split at h
      · cases h
        exact quiet fun n hn => by cases hn
      · split at h
        · rename_i e he
          cases h
          exact quiet fun n hn => NeverExit.readText_nz hl _ (by rw [he, Except.error.inj hn])
        · split at h
          · rename_i e he
            cases h
            exact quiet fun n hn => NeverExit.b64Decode _ (by rw [he, Except.error.inj hn])
          · split at h
            · rename_i e he
              cases h
              exact quiet fun n hn => NeverExit.hashedrekordFromParts _ _ _ (by rw [he, Except.error.inj hn])
            · dsimp only at h
              split at h
              · rename_i e he
                cases h
                exact asked1 (fun n hn => hl.retrieve _ _ (by rw [he, Except.error.inj hn])) (by rw [he]; nofun)
              · rename_i hnone
                cases h
                refine ⟨_, rfl, fun n => ⟨fun hn => ?_, fun hn => (by rw [hn.1])⟩⟩
                cases hn
                exact ⟨rfl, [], _, rfl, hnone⟩
              · rename_i entry hsome
                cases h
                exact asked1 (fun n hn => NeverExit.fromSignature _ _ _ _ hn) (by rw [hsome]; nofun)

theorem loadAll_exits : ∀ {ms : Dict VerifyInput Materials} {w w' : VerifyWorld} {r : Py (List (VerifyInput × Hashed × Bundle))},
    loadAll venv fs w ms = (r, w') →
    ∃ asked, w'.queries = w.queries ++ asked ∧ ∀ n, r = .error (.systemExit n) ↔ n = 2 ∧ NoEntryFound venv.retrieve asked
  | [], w, w', r, h => by
    cases h
    refine ⟨[], by simp, fun n => ⟨fun h => (by cases h), ?_⟩⟩
    rintro ⟨_, earlier, body, h, _⟩
    simp at h
  | (i, m) :: ms, w, w', r, h => by
    rw [loadAll.eq_def] at h
    dsimp only at h
    split at h
    · rename_i e he
      cases h
      refine ⟨[], by simp, fun n => ⟨fun h => ?_, ?_⟩⟩
      · exact absurd (by rw [he, Except.error.inj h]) (NeverExit.inputDigest_nz (n := n) hl venv.env.crypto i)
      · rintro ⟨_, earlier, body, h, _⟩
        simp at h
    · split at h
      · rename_i e w₁ he
        cases h
        obtain ⟨asked, h1, h2⟩ := loadMaterials_exits hl he
        refine ⟨asked, h1, fun n => ?_⟩
        rw [← h2 n]
        exact ⟨fun h => (by rw [Except.error.inj h]), fun h => (by rw [Except.error.inj h])⟩
      · rename_i b w₁ hb
        obtain ⟨asked₁, h1, h2⟩ := loadMaterials_exits hl hb
        have hfound : ¬ NoEntryFound venv.retrieve asked₁ := fun hno => by cases (h2 2).2 ⟨rfl, hno⟩
        have key : ∀ {w₂ : VerifyWorld} {asked : List HashedrekordBody}, w₂.queries = w₁.queries ++ asked →
            w₂.queries = w.queries ++ (asked₁ ++ asked) ∧
              (NoEntryFound venv.retrieve (asked₁ ++ asked) ↔ NoEntryFound venv.retrieve asked) := by
          intro w₂ asked hq
          refine ⟨by rw [hq, h1, List.append_assoc], ?_, ?_⟩
          · rintro ⟨earlier, body, h, hn⟩
            rcases List.eq_nil_or_concat asked with rfl | ⟨init, last, rfl⟩
            · rw [List.append_nil] at h
              exact absurd ⟨earlier, body, h, hn⟩ hfound
            · rw [List.concat_eq_append, ← List.append_assoc] at h
              have := List.append_inj_right' h rfl
              cases this
              exact ⟨init, body, List.concat_eq_append, hn⟩
          · rintro ⟨earlier, body, rfl, hn⟩
            exact ⟨asked₁ ++ earlier, body, by rw [List.append_assoc], hn⟩
        split at h
        · rename_i e w₂ he
          cases h
          obtain ⟨asked, g1, g2⟩ := loadAll_exits he
          obtain ⟨k1, k2⟩ := key g1
          refine ⟨_, k1, fun n => ?_⟩
          rw [k2, ← g2 n]
        · rename_i items w₂ he
          cases h
          obtain ⟨asked, g1, g2⟩ := loadAll_exits he
          obtain ⟨k1, k2⟩ := key g1
          refine ⟨_, k1, fun n => ?_⟩
          rw [k2, ← g2 n]
          exact ⟨fun h => (by cases h), fun h => (by cases h)⟩

theorem collectState_exits {now : Time} {args : VerifyArgs} {map : Dict VerifyInput Materials} {w w' : VerifyWorld}
    {r : Py (Verifier × List (VerifyInput × Hashed × Bundle))} (hm : inputMap fs args = .ok map)
    (h : collectState venv fs now args w = (r, w')) :
    ∃ asked, w'.queries = w.queries ++ asked ∧ ∀ n, r = .error (.systemExit n) ↔ n = 2 ∧ NoEntryFound venv.retrieve asked := by
  have quiet : ∀ {r : Py (Verifier × List (VerifyInput × Hashed × Bundle))}, (∀ n, r ≠ .error (.systemExit n)) →
      ∃ asked, w.queries = w.queries ++ asked ∧ ∀ n, r = .error (.systemExit n) ↔ n = 2 ∧ NoEntryFound venv.retrieve asked := by
    intro r hr
    refine ⟨[], by simp, fun n => ⟨fun h => absurd h (hr n), ?_⟩⟩
    rintro ⟨_, earlier, body, h, _⟩
    simp at h
  unfold collectState at h
  rw [hm] at h
  dsimp only at h
  split at h
  · rename_i e t he
    cases h
    exact quiet fun n hn => NeverExit.getTrustConfig_nz (n := n) hl _ _ _ (by rw [he, Except.error.inj hn])
  · split at h
    · rename_i e he
      cases h
      exact quiet fun n hn => NeverExit.trustedRoot_nz (n := n) _ (by rw [he, Except.error.inj hn])
    · split at h
      · rename_i e he
        cases h
        exact quiet fun n hn => NeverExit.verifierInit_nz (n := n) _ _ (by rw [he, Except.error.inj hn])
      · split at h
        · rename_i e w₁ he
          cases h
          obtain ⟨asked, h1, h2⟩ := loadAll_exits hl he
          refine ⟨asked, h1, fun n => ?_⟩
          rw [← h2 n]
          exact ⟨fun h => (by rw [Except.error.inj h]), fun h => (by rw [Except.error.inj h])⟩
        · rename_i items w₁ he
          cases h
          obtain ⟨asked, h1, h2⟩ := loadAll_exits hl he
          refine ⟨asked, h1, fun n => ?_⟩
          rw [← h2 n]
          exact ⟨fun h => (by cases h), fun h => (by cases h)⟩

omit hl in
theorem logAndExit_exits {v : Bool} {e : Exc} {n : Nat} (hn : n ≠ 1) (h : logAndExit v e = .systemExit n) : e = .systemExit n := by
  unfold logAndExit at h
  split at h
  · exact h
  · exact absurd (Exc.systemExit.inj h).symm hn

omit hl in
theorem mainHandler_exits {α : Type} {v : Bool} {r : Py α} {n : Nat} (hn : n ≠ 1) :
    mainHandler v r = .error (.systemExit n) ↔ r = .error (.systemExit n) := by
  constructor
  · intro h
    cases r with
    | ok a => cases h
    | error e =>
      rw [mainHandler] at h
      split at h
      · rw [logAndExit_exits hn (Except.error.inj h)]
      · exact h
  · rintro rfl
    rfl

omit hl in
theorem verifyLoop_exits {now : Time} {v : Verifier} {policy : Cert → Py Unit} {decode verbose : Bool} {n : Nat} (hn : n ≠ 1)
    (hp : ∀ cert, policy cert = .error (.systemExit n) → False) : ∀ items : List (VerifyInput × Hashed × Bundle),
    verifyLoop venv now v policy decode verbose items ≠ .error (.systemExit n)
  | [] => nofun
  | (_, hd, b) :: items => by
    intro h
    rw [verifyLoop] at h
    split at h
    · rename_i e he
      have : e = .systemExit n := by
        split at h
        · exact logAndExit_exits hn (Except.error.inj h)
        · exact Except.error.inj h
      subst this
      exact NeverExit.verifyCommonCli_nz now v hd b policy hp he
    · split at h
      · rename_i e he
        rw [Except.error.inj h] at he
        exact NeverExit.printStatement_nz _ _ he
      · exact verifyLoop_exits hn hp items h

/-- `sigstore verify`: which statuses other than 1 an exit can have, and when -/
theorem verifyMain_exits {now : Time} {cmd : VerifyCommand} {verbose : Bool} {positional : List Str}
    {certificate signature bundle : Option Path} {trust : TrustArgs} {w w' : VerifyWorld} {r : Py Unit}
    (h : verifyMain venv fs now cmd verbose positional certificate signature bundle trust w = (r, w')) {n : Nat} (hn : n ≠ 1) :
    r = .error (.systemExit n) ↔ n = 2 ∧ (¬ UsableVerify fs positional certificate signature bundle trust ∨ (∀ p, cmd.policy ≠ .ok p) ∨
      ∃ asked, w'.queries = w.queries ++ asked ∧ NoEntryFound venv.retrieve asked) := by
  by_cases hu : ¬ UsableVerify fs positional certificate signature bundle trust ∨ ∀ p, cmd.policy ≠ .ok p
  · rw [C100_verify _ _ _ _ _ _ _ _ _ _ _ hu] at h
    cases h
    refine ⟨fun h => ?_, fun h => (by rw [h.1])⟩
    cases h
    exact ⟨rfl, hu.imp_right .inl⟩
  · rw [not_or, not_not] at hu
    obtain ⟨hu, hpol⟩ := hu
    push Not at hpol
    obtain ⟨policy, hpol⟩ := hpol
    have hu' := hu
    obtain ⟨hne, inputs, hf, hc, hm⟩ := hu
    have hfile : ∀ q, .file q ∈ inputs → fs.isFile q = true := by
      intro q hq
      clear hm hc hne hu' h
      induction hf with
      | nil => cases hq
      | cons h1 _ ih =>
        rcases List.mem_cons.1 hq with rfl | hq
        · cases h1; assumption
        · exact ih hq
    obtain ⟨map, hmap⟩ := inputMap_total fs ⟨inputs, certificate, signature, bundle, trust⟩ hc (by
      rintro rfl
      cases hf
      exact hne rfl) hfile hm
    have simp1 : ∀ P : Prop, (¬ UsableVerify fs positional certificate signature bundle trust ∨ (∀ p, cmd.policy ≠ .ok p) ∨ P) ↔ P := by
      intro P
      refine ⟨?_, fun h => .inr (.inr h)⟩
      rintro (h | h | h)
      · exact absurd hu' h
      · exact absurd hpol (h _)
      · exact h
    rw [simp1]
    unfold verifyMain at h
    split at h
    · exact absurd rfl hne
    · rw [(parseInputs_iff fs _ _).2 hf] at h
      dsimp only at h
      unfold verifyCommand at h
      rw [hpol] at h
      dsimp only at h
      cases hs : collectState venv fs now ⟨inputs, certificate, signature, bundle, trust⟩ w with
      | mk r₁ w₁ =>
        obtain ⟨asked, h1, h2⟩ := collectState_exits hl hmap hs
        have hex : (∃ asked', w₁.queries = w.queries ++ asked' ∧ NoEntryFound venv.retrieve asked') ↔ NoEntryFound venv.retrieve asked := by
          refine ⟨?_, fun h => ⟨asked, h1, h⟩⟩
          rintro ⟨asked', g1, g2⟩
          rwa [List.append_cancel_left (g1.symm.trans h1)] at g2
        rw [hs] at h
        cases r₁ with
        | error e =>
          dsimp only at h
          cases h
          rw [mainHandler_exits hn, hex, ← h2 n]
          exact ⟨fun h => (by rw [Except.error.inj h]), fun h => (by rw [Except.error.inj h])⟩
        | ok r₁ =>
          obtain ⟨v, items⟩ := r₁
          dsimp only at h
          cases h
          rw [mainHandler_exits hn, hex, ← h2 n]
          refine ⟨fun h => absurd h (verifyLoop_exits hn (NeverExit.commandPolicy cmd policy hpol) items), fun h => by cases h⟩

theorem verifyMain_exits' (now : Time) (cmd : VerifyCommand) (verbose : Bool) (positional : List Str)
    (certificate signature bundle : Option Path) (trust : TrustArgs) (w : VerifyWorld) {n : Nat} (hn : n ≠ 1) :
    (verifyMain venv fs now cmd verbose positional certificate signature bundle trust w).1 = .error (.systemExit n) ↔
      n = 2 ∧ (¬ UsableVerify fs positional certificate signature bundle trust ∨ (∀ p, cmd.policy ≠ .ok p) ∨
        ∃ asked, (verifyMain venv fs now cmd verbose positional certificate signature bundle trust w).2.queries = w.queries ++ asked ∧
          NoEntryFound venv.retrieve asked) :=
  verifyMain_exits hl (Prod.mk.eta).symm hn

end Verify

/-! ## `sigstore sign` and `sigstore attest` -/

section Sign

theorem signOutputs_exits {e : DiskEnv} {args : SignArgs} {d d' : Disk} {n : Nat}
    (h : signOutputs e args d = (.error (.systemExit n), d')) : n = 2 := by
  have hone : ∀ {f : Path} {d d' : Disk}, signOutputsOne e args f d = (.error (.systemExit n), d') → n = 2 := by
    intro f d d' h
    unfold signOutputsOne at h
    dsimp only at h
    split at h
    · cases h; rfl
    · split at h
      · cases h; rfl
      · split at h
        · rename_i x hx
          cases h
          unfold DiskEnv.mkdir at hx
          repeat' split at hx
          all_goals cases hx
        · split at h <;> cases h; rfl
  have hloop : ∀ {files : List Path} {map : Dict Path SigningOutputs} {d d' : Disk},
      signOutputsLoop e args map files d = (.error (.systemExit n), d') → n = 2 := by
    intro files
    induction files with
    | nil => intro map d d' h; cases h
    | cons f fs ih =>
      intro map d d' h
      rw [signOutputsLoop] at h
      split at h
      · rename_i hx
        cases h
        exact hone hx
      · exact ih h
  unfold signOutputs at h
  split at h
  · cases h; rfl
  · exact hloop h

variable {libs : MainLibs} {o : SignOracle} (hw : WorldNeverExits libs o)
include hw

theorem signMain_exits {trust : TrustArgs} {ident : IdentityArgs} {args : SignArgs} {s : SignState} {n : Nat}
    (h : (signMain libs.sign o trust ident args s).1 = some (.error (.systemExit n))) :
    n = 2 ∧ ∀ map d, signOutputs libs.sign.disk args s.disk ≠ (.ok map, d) := by
  unfold signMain at h
  split at h
  · rename_i e d he
    rw [Except.error.inj (Option.some.inj h)] at he
    exact ⟨signOutputs_exits he, fun map d h => by rw [he] at h; cases h⟩
  · exact absurd h (NeverExit.signCommon_nz hw _ _ _ _ _)

theorem attestMain_exits {trust : TrustArgs} {ident : IdentityArgs} {args : AttestArgs} {s : SignState} {n : Nat}
    (h : (attestMain libs.sign o trust ident args s).1 = some (.error (.systemExit n))) :
    n = 2 ∧ ((∀ pred, readPredicate libs.sign.disk libs.sign.loads args s.disk ≠ .ok pred) ∨
      ∀ map, attestOutputsLoop libs.sign.disk args s.disk [] args.files ≠ .ok map) := by
  unfold attestMain at h
  split at h
  · rename_i e he
    rw [Except.error.inj (Option.some.inj h)] at he
    refine ⟨?_, .inl fun pred h => by rw [he] at h; cases h⟩
    have hread : ∀ x, readText (libs.sign.disk.fs s.disk) args.predicate ≠ .error (.systemExit x) := by
      intro x h
      exact NeverExit.readText_nz (hw.verify s.disk) _ h
    have hcp : ∀ (accepts : Json → Bool) (j : Json), checkPredicate accepts j = .error (.systemExit n) → n = 2 := by
      intro accepts j hj
      unfold checkPredicate at hj
      split at hj
      · split at hj <;> cases hj; rfl
      · cases hj; rfl
    unfold readPredicate at he
    split at he
    · cases he; rfl
    · split at he
      · rename_i x hx
        rw [Except.error.inj he] at hx
        exact absurd hx (hread _)
      · split at he
        · cases he; rfl
        · split at he
          · exact hcp _ _ he
          · split at he
            · exact hcp _ _ he
            · cases he; rfl
  · split at h
    · rename_i e he
      rw [Except.error.inj (Option.some.inj h)] at he
      exact ⟨Exc.systemExit.inj (attestOutputsLoop_error he), .inr fun map h => by rw [he] at h; cases h⟩
    · exact absurd h (NeverExit.signCommon_nz hw _ _ _ _ _)

end Sign

/-! ## The whole program -/

section Main

variable {libs : MainLibs} {o : SignOracle} (hw : WorldNeverExits libs o)
include hw

theorem main_exits {environ : Environ} {line : CommandLine} {s : MainState} {n : Nat} (hn : n ≠ 1)
    (h : (Cli.main libs o environ line s).1 = some (.error (.systemExit n))) : n = 2 ∨ (n = 0 ∧ AsksForHelp line) := by
  have hmo : ∀ {x : Option (Py Unit)} {v : Bool}, x.map (mainHandler v) = some (.error (.systemExit n)) →
      x = some (.error (.systemExit n)) := by
    intro x v hx
    obtain ⟨y, rfl, hy⟩ := Option.map_eq_some_iff.1 hx
    rw [(mainHandler_exits hn).1 hy]
  have hp : ∀ {α β : Type} {x : Py α × β}, (∀ b, x ≠ (.error (.systemExit n), b)) → x.1 ≠ .error (.systemExit n) := by
    rintro α β ⟨x, b⟩ hx rfl
    exact hx b rfl
  unfold Cli.main at h
  split at h
  · rename_i e he
    rw [Except.error.inj (Option.some.inj h)] at he
    rcases C89_rejected _ _ _ he with ⟨_, h'⟩ | ⟨_, h' | ⟨h', h''⟩⟩
    · cases h'
    · exact .inl (Exc.systemExit.inj h')
    · exact .inr ⟨Exc.systemExit.inj h', h''⟩
  · left
    unfold dispatch at h
    dsimp only at h
    split at h
    · rename_i e he
      rw [rekorVersionArg_error he] at h
      exact (Exc.systemExit.inj (Except.error.inj (Option.some.inj h))).symm
    · split at h
      · exact (signMain_exits hw (hmo h)).1
      · split at h
        · rename_i e he
          rw [attestArgsOf_error he] at h
          exact (Exc.systemExit.inj (Except.error.inj (Option.some.inj h))).symm
        · exact (attestMain_exits hw (hmo h)).1
      · exact ((verifyMain_exits' (hw.verify _) _ _ _ _ _ _ _ _ _ hn).1 (Option.some.inj h)).1
      · exact ((verifyMain_exits' (hw.verify _) _ _ _ _ _ _ _ _ _ hn).1 (Option.some.inj h)).1
      · exact absurd ((mainHandler_exits hn).1 (Option.some.inj h)) (hp fun _ => NeverExit.getIdentityToken_nz hw _ _ _ _ _)
      · split at h
        · have h' := (mainHandler_exits hn).1 (Option.some.inj h)
          exact (NeverExit.trustInstance_nz hw _ _ _ _ _ (Prod.ext h' rfl)).1
        · exact (Exc.systemExit.inj (Except.error.inj (Option.some.inj h))).symm
      · split at h
        · exact (Exc.systemExit.inj (Except.error.inj (Option.some.inj h))).symm
        · exact absurd ((mainHandler_exits hn).1 (Option.some.inj h)) (hp fun _ => NeverExit.fixBundle_nz hw hn _ _ _ _ _ _)
      · exact absurd ((mainHandler_exits hn).1 (Option.some.inj h)) (hp fun _ => NeverExit.updateTrustRoot_nz hw _ _ _ _)

omit hw in
theorem exitStatus_eq {r : Py Unit} {n : Nat} (hn : n ≠ 0) (hn' : n ≠ 1) : exitStatus r = n ↔ r = .error (.systemExit n) := by
  constructor
  · intro h
    match r with
    | .ok () => exact absurd h.symm hn
    | .error e =>
      cases e with
      | systemExit m => rw [show m = n from h]
      | _ => exact absurd h.symm hn'
  · rintro rfl
    rfl

/-- **C123** Every command ends with status 0, 1 or 2, as long as no library ends the process by itself. -/
theorem C123_statuses (environ : Environ) (line : CommandLine) (s : MainState) (r : Py Unit)
    (h : (Cli.main libs o environ line s).1 = some r) : exitStatus r = 0 ∨ exitStatus r = 1 ∨ exitStatus r = 2 := by
  by_cases h0 : exitStatus r = 0
  · exact .inl h0
  · by_cases h1 : exitStatus r = 1
    · exact .inr (.inl h1)
    · right; right
      have := (exitStatus_eq h0 h1).1 rfl
      rw [this] at h
      rcases main_exits hw h1 h with h' | ⟨h', _⟩
      · exact h'
      · exact absurd h' h0

variable (s : MainState) {environ : Environ} {line : CommandLine} (he : EnvironOk environ) (hl : LineOk line) {r : Py Unit}
  (h : (Cli.main libs o environ line s).1 = some r)
include he hl h

/-- **C123** `sigstore verify identity` ends with status 2 if and only if its arguments are not usable, or the last question
that it asked the log was about an entry that the log does not have. -/
theorem C123_verify_identity (hc : line.command = .verifyIdentity) {trust : TrustArgs} {identity issuer : Str}
    {certificate signature bundle : Option Path} (ht : TrustOptions environ line.top line.sub true trust)
    (hv : trust.rekorVersion = none) (hm : VerifyOptions environ line.sub certificate signature bundle)
    (hi : LastGiven ["--cert-identity"] line.sub identity) (hs : LastGiven ["--cert-oidc-issuer"] line.sub issuer) :
    exitStatus r = 2 ↔ ¬ UsableVerify (libs.sign.disk.fs s.sign.disk) line.positional certificate signature bundle trust ∨
      ∃ asked, (Cli.main libs o environ line s).2.queries = s.queries ++ asked ∧ NoEntryFound libs.retrieve asked := by
  rw [C89_verify_identity libs o s he hl hc ht hv hm hi hs] at h ⊢
  rw [exitStatus_eq (by decide) (by decide), ← Option.some.inj h, verifyRun,
    verifyMain_exits' (hw.verify _) _ _ _ _ _ _ _ _ _ (show (2 : Nat) ≠ 1 by decide)]
  constructor
  · rintro ⟨_, h | h | h⟩
    · exact .inl h
    · exact absurd rfl (h _)
    · exact .inr h
  · rintro (h | h)
    · exact ⟨rfl, .inl h⟩
    · exact ⟨rfl, .inr (.inr h)⟩

/-- **C123** The same for `sigstore verify github`, where an identity or a repository must be given as well. -/
theorem C123_verify_github (hc : line.command = .verifyGithub) {trust : TrustArgs} {args : GithubArgs}
    {certificate signature bundle : Option Path} (ht : TrustOptions environ line.top line.sub true trust)
    (hv : trust.rekorVersion = none) (hm : VerifyOptions environ line.sub certificate signature bundle)
    (ha : GithubOptions environ line.sub args) :
    exitStatus r = 2 ↔ ¬ UsableVerify (libs.sign.disk.fs s.sign.disk) line.positional certificate signature bundle trust ∨
      ((∀ v, ¬ Given args.certIdentity v) ∧ ∀ v, ¬ Given args.workflowRepository v) ∨
      ∃ asked, (Cli.main libs o environ line s).2.queries = s.queries ++ asked ∧ NoEntryFound libs.retrieve asked := by
  rw [C89_verify_github libs o s he hl hc ht hv hm ha] at h ⊢
  rw [exitStatus_eq (by decide) (by decide), ← Option.some.inj h, verifyRun,
    verifyMain_exits' (hw.verify _) _ _ _ _ _ _ _ _ _ (show (2 : Nat) ≠ 1 by decide)]
  have hg : (∀ p, (VerifyCommand.github args).policy ≠ .ok p) ↔
      (∀ v, ¬ Given args.certIdentity v) ∧ ∀ v, ¬ Given args.workflowRepository v := by
    rw [← (C25_github_requires_identity_or_repository args).1]
    change (∀ p, githubPolicy args ≠ .ok p) ↔ _
    constructor
    · intro h
      cases hp : githubPolicy args with
      | ok p => exact absurd hp (h p)
      | error e => rw [verifyPolicy_error (cmd := .github args) hp]
    · intro h p hp
      rw [h] at hp
      cases hp
  rw [hg]
  exact ⟨fun h => h.2, fun h => ⟨rfl, h⟩⟩

/-- **C123** `sigstore sign` ends with status 2 if and only if its arguments are not usable, as long as its files can be read and
its outputs written. -/
theorem C123_sign (hc : line.command = .sign) {trust : TrustArgs} {ident : IdentityArgs} {args : SignArgs}
    (ht : TrustOptions environ line.top line.sub false trust) (hv : RekorVersion libs.int line.sub trust.rekorVersion)
    (hi : IdentityOptions environ line.sub true ident) (ha : SignOptions environ line.sub line.positional args)
    (hp : PlacesOk libs.sign.disk args s.sign.disk) :
    exitStatus r = 2 ↔ ¬ UsableSign libs.sign.disk args s.sign.disk := by
  rw [exitStatus_eq (by decide) (by decide)]
  constructor
  · rintro rfl hu
    rw [C89_sign libs o s he hl hc ht hv hi ha] at h
    obtain ⟨y, hy, hy'⟩ := Option.map_eq_some_iff.1 h
    rw [(mainHandler_exits (by decide)).1 hy'] at hy
    obtain ⟨map, d, hm, _⟩ := signOutputs_ready hu hp
    exact (signMain_exits hw hy).2 _ _ hm
  · intro hu
    obtain ⟨d, hm, _⟩ := C100_main_sign libs o s he hl hc ht hv hi ha hu (by
      intro f hf
      refine (hp.directories f hf _ ?_).1
      cases hd : args.outputDirectory with
      | none => exact .beside hd
      | some dir => exact .given hd)
    rw [hm] at h
    exact (Option.some.inj h).symm

/-- **C123** The same for `sigstore attest`. -/
theorem C123_attest (hc : line.command = .attest) {trust : TrustArgs} {ident : IdentityArgs} {args : AttestArgs}
    (ht : TrustOptions environ line.top line.sub false trust) (hv : RekorVersion libs.int line.sub trust.rekorVersion)
    (hi : IdentityOptions environ line.sub true ident) (ha : AttestOptions environ line.sub line.positional args)
    (hr : PredicateReadable libs.sign.disk args s.sign.disk) :
    exitStatus r = 2 ↔ ¬ UsableAttest libs.sign.disk libs.sign.loads args s.sign.disk := by
  rw [exitStatus_eq (by decide) (by decide)]
  constructor
  · rintro rfl hu
    rw [C89_attest libs o s he hl hc ht hv hi ha] at h
    obtain ⟨y, hy, hy'⟩ := Option.map_eq_some_iff.1 h
    rw [(mainHandler_exits (by decide)).1 hy'] at hy
    obtain ⟨content, text, pred, u1, u2, u3, u4⟩ := hu.predicate
    obtain ⟨map, hm⟩ := attestOutputsLoop_total (e := libs.sign.disk) (args := args) (d := s.sign.disk) args.files [] hu.inputs hu.outputs
    rcases (attestMain_exits hw hy).2 with hx | hx
    · refine hx pred ((readPredicate_ok_iff _ _ _ _ _).2 ⟨content, text, u1, (hr _ u1).1, u2, u3, ?_⟩)
      rcases u4 with ⟨h, h'⟩ | ⟨h, h'⟩
      · exact .inl ⟨h, (C88_v0_2_iff_partial _).2 h'⟩
      · exact .inr ⟨h, (C88_v1_iff_partial _).2 h'⟩
    · exact hx map hm
  · intro hu
    rw [C100_main_attest libs o s he hl hc ht hv hi ha hu hr] at h
    exact (Option.some.inj h).symm

/-- **C123** `sigstore trust-instance` ends with status 2 if and only if its argument is not a file or there is no `--instance`. -/
theorem C123_trust_instance (hc : line.command = .trustInstance) {root : Str} {url : Option Str}
    (hp : line.positional = [root]) (hu : TextValue environ line.top ["--instance"] none none url) :
    exitStatus r = 2 ↔ (libs.sign.disk.fs s.sign.disk).isFile (Path.ofStr root) = false ∨ url = none := by
  rw [exitStatus_eq (by decide) (by decide)]
  constructor
  · rintro rfl
    rw [C89_trust_instance libs o s he hl hc hp hu] at h
    have h' := (mainHandler_exits (show (2 : Nat) ≠ 1 by decide)).1 (Option.some.inj h)
    exact (NeverExit.trustInstance_nz hw _ _ _ _ _ (Prod.ext h' rfl)).2
  · intro hu'
    rw [C100_main_trust_instance libs o s he hl hc hp hu hu'] at h
    exact (Option.some.inj h).symm

/-- **C123** The other commands have no status 2 once their command line is accepted. -/
theorem C123_others (hc : line.command = .getIdentityToken ∨ line.command = .fixBundle ∨ line.command = .updateTrustRoot) :
    exitStatus r ≠ 2 := by
  rw [ne_eq, exitStatus_eq (by decide) (by decide)]
  rintro rfl
  have hp : ∀ {α β : Type} {x : Py α × β}, (∀ b, x ≠ (.error (.systemExit 2), b)) → x.1 ≠ .error (.systemExit 2) := by
    rintro α β ⟨x, b⟩ hx rfl
    exact hx b rfl
  obtain ⟨ns, hns⟩ := (C89_accepted_iff environ line).2 ⟨he, hl⟩
  rw [main_eq hns] at h
  have e0 := no_version (libs := libs) hns (by rintro h; rw [h] at hc; revert hc; decide) (by rintro h; rw [h] at hc; revert hc; decide)
  unfold dispatch at h
  rw [e0] at h
  dsimp only at h
  rcases hc with hc | hc | hc
  · rw [hc] at h
    dsimp only at h
    exact hp (fun _ => NeverExit.getIdentityToken_nz hw _ _ _ _ _) ((mainHandler_exits (by decide)).1 (Option.some.inj h))
  · rw [hc] at h
    dsimp only at h
    obtain ⟨p, _, ep⟩ := sub_required hns (names := ["--bundle"]) (dest := "bundle") (d := .null) (by rw [hc]; decide)
    have e4 : ns.path "bundle" = some (Path.ofStr p) := by unfold Namespace.path; rw [ep]; rfl
    rw [e4] at h
    dsimp only at h
    exact hp (fun _ => NeverExit.fixBundle_nz hw (by decide) _ _ _ _ _ _) ((mainHandler_exits (by decide)).1 (Option.some.inj h))
  · rw [hc] at h
    dsimp only at h
    exact hp (fun _ => NeverExit.updateTrustRoot_nz hw _ _ _ _) ((mainHandler_exits (by decide)).1 (Option.some.inj h))

end Main

/-! ## Concrete runs -/

theorem exAnswersNeverExit (t : Time) : AnswersNeverExit (exAnswers t) where
  fulcio csr n h := by
    unfold exAnswers at h
    dsimp only at h
    split at h <;> cases h
  tsas x hx sig n h := by
    unfold exAnswers at hx
    dsimp only at hx
    simp only [List.mem_cons, List.not_mem_nil, or_false] at hx
    rcases hx with rfl | rfl | rfl <;> cases h
  rekor r n h := by
    unfold exAnswers at h
    dsimp only at h
    cases h

/-- no library of the signing examples ends the process -/
theorem exNeverExits (turns : List Nat) : WorldNeverExits exMainSign (exOracle turns) where
  verify d :=
    { read := fun p n h => NeverExit.diskRead_nz _ _ _ h
      parseBundle := fun b n h => by
        change (exMainLibs 'B').parseBundle b = _ at h
        unfold exMainLibs at h
        dsimp only at h
        split at h
        · cases h
        · split at h <;> cases h
      config := fun b n h => by
        change (if b = [3] then _ else _) = _ at h
        split at h <;> cases h
      root := fun b n h => by cases h
      signingConfig := fun b n h => by cases h
      retrieve := fun b n h => by cases h
      targetInfo := fun n m h => by cases h
      findCached := fun f i n h => by cases h
      download := fun i n h => by cases h }
  detect c n h := by cases h
  issuer u n h := by cases h
  interactive u c s f n h := by cases h
  token t c n h := by cases h
  first t := exAnswersNeverExit _
  perFile p := ⟨exAnswersNeverExit _, exAnswersNeverExit _⟩
  shown := exAnswersNeverExit _
  fetch b i n h := by
    cases b <;> cases h

/-- an issuer that cannot be reached is no mistake in the arguments -/
example (r : Py Unit) (h : (Cli.main exMainSign (exOracle []) exNoEnviron (exTokenLine []) exMainState).1 = some r) :
    exitStatus r = 1 := by
  have h2 := C123_others (exNeverExits []) exMainState exSignLine_ok.1 ((C89_accepted_iff exNoEnviron _).1 ⟨_, rfl⟩).2 h (.inl rfl)
  rcases C123_statuses (exNeverExits []) _ _ _ _ h with h0 | h1 | h2'
  · rw [show (Cli.main exMainSign (exOracle []) exNoEnviron (exTokenLine []) exMainState).1 = some (.error (.systemExit 1)) by
      decide +kernel] at h
    rw [← Option.some.inj h]
    rfl
  · exact h1
  · exact absurd h2' h2

/-- of the two files to sign, only one is there -/
example : ∃ r, (Cli.main exMainSign (exOracle exTurns) exNoEnviron exSignLine ⟨exSignState [(exPath "a", 1)], [], []⟩).1 = some r ∧
    exitStatus r = 2 ∧ ¬ UsableSign exMainSign.sign.disk exSignArgs (exDisk [(exPath "a", 1)]) :=
  ⟨_, rfl, by decide +kernel, fun h => by
    obtain ⟨c, hc⟩ := h.inputs (exPath "b") (by decide)
    revert hc
    change exDisk [(exPath "a", 1)] (exPath "b") ≠ _
    rw [show exDisk [(exPath "a", 1)] (exPath "b") = none by decide]
    simp⟩

/-- an artifact with its certificate and signature -/
def exDetachedState : MainState :=
  ⟨⟨exTufWorld, ⟨0, []⟩, fun p =>
    if p = Path.ofStr "a".toList then some (.file exArtifact)
    else if p = Path.ofStr "c".toList then some (.file [4])
    else if p = Path.ofStr "s".toList then some (.file (utf8 "AAAA".toList))
    else if p = Path.ofStr "t".toList then some (.file [2])
    else none⟩, [], []⟩

/-- `sigstore --trust-config t verify identity --cert-identity me --cert-oidc-issuer https://i --certificate c --signature s a` -/
def exDetachedLine : CommandLine :=
  { exVerifyLine with sub := exVerifyLine.sub ++ [exOcc "--certificate" "c", exOcc "--signature" "s"] }

/-- The arguments are usable, but the log has no entry for them: the status is 2 after one question. -/
example : ∃ r s, Cli.main { exMainVerify with loadPem := fun _ => some exSigner, retrieve := fun _ => .ok none } (exOracle [])
      exNoEnviron exDetachedLine exDetachedState = (some r, s) ∧
    exitStatus r = 2 ∧ s.queries.length = 1 ∧ NoEntryFound (fun _ => .ok none) s.queries := by
  refine ⟨_, _, rfl, by decide +kernel, by decide +kernel, ?_⟩
  refine ⟨_, _, (List.dropLast_append_getLast ?_).symm, rfl⟩
  rw [← List.length_pos_iff]
  decide +kernel

end Sigstore.Props
