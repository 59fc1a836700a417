import Verif.Lemmas.NoExit
import Verif.Props.CliExit
import Verif.Props.Tuf
import Verif.Props.VerificationExamples

/-!
# C44, C69, C70: exit status of `sigstore verify`, what `--offline` means, formats of trust material
-/

namespace Sigstore.Props

open Sigstore.Trust Sigstore.LogEntry Sigstore.Dsse Sigstore.Cli Sigstore.Tuf Sigstore.Spec

/-- the external libraries do not end the process with status 0 -/
structure LibrariesDoNotExit (venv : VerifyEnv) (fs : Fs) : Prop where
  read : ∀ p, fs.read p ≠ .error (.systemExit 0)
  parseBundle : ∀ b, venv.parseBundle b ≠ .error (.systemExit 0)
  config : ∀ b, venv.parsers.config b ≠ .error (.systemExit 0)
  root : ∀ b, venv.parsers.root b ≠ .error (.systemExit 0)
  signingConfig : ∀ b, venv.parsers.signingConfig b ≠ .error (.systemExit 0)
  retrieve : ∀ b, venv.retrieve b ≠ .error (.systemExit 0)
  targetInfo : ∀ n, venv.tuf.library.targetInfo n ≠ .error (.systemExit 0)
  findCached : ∀ f i, venv.tuf.library.findCached f i ≠ .error (.systemExit 0)
  download : ∀ i, venv.tuf.library.download i ≠ .error (.other (.systemExit 0))

section NonZero

variable {venv : VerifyEnv} {fs : Fs} (hl : LibrariesDoNotExit venv fs)

/-- like `nz` for functions that return a world as well -/
macro "nzp" "[" ls:Lean.Parser.Tactic.SolveByElim.arg,* "]" h:ident : tactic =>
  `(tactic| ((try dsimp only at $h:ident) <;> (repeat' (split at $h:ident)) <;>
      first
        | (simp at $h:ident; done)
        | (solve_by_elim [$ls,*])
        | (rw [Prod.mk.injEq] at $h:ident; exact absurd (And.left $h:ident) (by solve_by_elim [$ls,*]))
        | (rw [Prod.mk.injEq, Except.error.injEq] at $h:ident; rcases $h:ident with ⟨hhe, hhw⟩; subst hhe; solve_by_elim [$ls,*])))

theorem tufInit_nz (env : Tuf.Env) (url : Str) (offline : Bool) (w w' : World) :
    TrustUpdater.init env url offline none w = (.error (.systemExit 0), w') → False := by
  intro h
  unfold TrustUpdater.init at h
  dsimp only at h
  split at h
  · simp at h
  · cases hb : env.embedded (quote (stripSlashes url)) rootName with
    | none => rw [hb] at h; dsimp only at h; nzp [] h
    | some b => rw [hb] at h; dsimp only at h; nzp [] h

include hl

theorem targetPath_nz (u : TrustUpdater) (n : Str) (w w' : World) :
    u.targetPath venv.tuf n w = (.error (.systemExit 0), w') → False := by
  intro h
  unfold TrustUpdater.targetPath at h
  nzp [hl.targetInfo, hl.findCached, hl.download] h

theorem trustedRootPath_nz (u u' : TrustUpdater) (w w' : World) :
    u.getTrustedRootPath venv.tuf w = (.error (.systemExit 0), u', w') → False := by
  intro h
  unfold TrustUpdater.getTrustedRootPath at h
  nzp [targetPath_nz hl] h

theorem signingConfigPath_nz (u u' : TrustUpdater) (w w' : World) :
    u.getSigningConfigPath venv.tuf w = (.error (.systemExit 0), u', w') → False := by
  intro h
  unfold TrustUpdater.getSigningConfigPath at h
  nzp [targetPath_nz hl] h

omit hl in
theorem readBytes_nz (w : World) (p : Path) : readBytes w p = .error (.systemExit 0) → False := by
  intro h
  unfold readBytes at h
  nz [] h

theorem fromTuf_nz (url : Str) (offline : Bool) (w w' : World) :
    fromTuf venv.tuf url offline none w = (.error (.systemExit 0), w') → False := by
  intro h
  unfold fromTuf at h
  nzp [tufInit_nz, trustedRootPath_nz hl, signingConfigPath_nz hl, readBytes_nz] h

theorem parseTuf_nz (tr sc : Bytes) : parseTuf venv.parsers tr sc = .error (.systemExit 0) → False := by
  intro h
  unfold parseTuf at h
  nz [hl.root, hl.signingConfig] h

theorem getTrustConfig_nz (args : TrustArgs) (w w' : World) :
    getTrustConfig fs venv.tuf venv.parsers args w = (.error (.systemExit 0), w') → False := by
  intro h
  unfold getTrustConfig at h
  nzp [hl.read, hl.config, fromTuf_nz hl, parseTuf_nz hl] h

omit hl in
theorem defaultBundle_nz (fs : Fs) (p : Path) : defaultBundle fs p = .error (.systemExit 0) → False := by
  intro h
  unfold defaultBundle at h
  nz [] h

omit hl in
theorem fileMaterials_nz (fs : Fs) (args : VerifyArgs) (p : Path) :
    fileMaterials fs args p = .error (.systemExit 0) → False := by
  intro h
  have hd := defaultBundle_nz fs p
  unfold fileMaterials at h
  cases hb : args.bundle <;> simp only [hb] at h <;> nz [hd] h

omit hl in
theorem fileLoop_nz (fs : Fs) (args : VerifyArgs) (is : List VerifyInput) :
    ∀ map, fileLoop fs args map is = .error (.systemExit 0) → False := by
  induction is with
  | nil => intro map h; simp [fileLoop] at h
  | cons i is ih =>
    intro map h
    cases i <;> rw [fileLoop] at h <;> nz [ih, fileMaterials_nz] h

omit hl in
theorem digestMaterials_nz (fs : Fs) (args : VerifyArgs) : digestMaterials fs args = .error (.systemExit 0) → False := by
  intro h
  unfold digestMaterials at h
  nz [] h

omit hl in
theorem inputMap_nz (fs : Fs) (args : VerifyArgs) : inputMap fs args = .error (.systemExit 0) → False := by
  intro h
  unfold inputMap at h
  nz [fileLoop_nz, digestMaterials_nz] h

theorem readText_nz (p : Path) : readText fs p = .error (.systemExit 0) → False := by
  intro h
  unfold readText at h
  nz [hl.read] h

theorem inputDigest_nz (c : Crypto) (i : VerifyInput) : inputDigest c fs i = .error (.systemExit 0) → False := by
  intro h
  unfold inputDigest at h
  nz [hl.read] h

theorem loadMaterials_nz (hd : Hashed) (w w' : VerifyWorld) (m : Materials) :
    loadMaterials venv fs hd w m = (.error (.systemExit 0), w') → False := by
  intro h
  unfold loadMaterials at h
  nzp [hl.read, hl.parseBundle, NoExit.bundleInit, readText_nz hl, NoExit.b64Decode, NoExit.hashedrekordFromParts, hl.retrieve, NoExit.fromSignature] h

theorem loadAll_nz (ms : Dict VerifyInput Materials) :
    ∀ w w', loadAll venv fs w ms = (.error (.systemExit 0), w') → False := by
  induction ms with
  | nil => intro w w' h; simp [loadAll] at h
  | cons m ms ih =>
    intro w w' h
    rw [loadAll.eq_def] at h
    nzp [inputDigest_nz hl, loadMaterials_nz hl, ih] h

omit hl in
theorem collectFulcioCerts_nz (now : Time) (cas : List (CertificateAuthority Cert)) :
    ∀ acc, collectFulcioCerts now acc cas = .error (.systemExit 0) → False := by
  induction cas with
  | nil => intro acc h; simp [collectFulcioCerts] at h
  | cons a as ih => intro acc h; rw [collectFulcioCerts] at h; nz [ih, NoExit.caInit] h

omit hl in
theorem getFulcioCerts_nz (now : Time) (r : TrustedRoot Cert) : getFulcioCerts now r = .error (.systemExit 0) → False := by
  intro h; unfold getFulcioCerts at h; nz [collectFulcioCerts_nz] h

omit hl in
theorem verifierInit_nz (now : Time) (r : TrustedRoot Cert) : Verifier.init now r = .error (.systemExit 0) → False := by
  intro h; unfold Verifier.init at h; nz [getFulcioCerts_nz] h

omit hl in
theorem trustedRoot_nz (c : LoadedConfig) : c.trustedRoot = .error (.systemExit 0) → False := by
  intro h; unfold LoadedConfig.trustedRoot at h; nz [] h

theorem collectState_nz (now : Time) (args : VerifyArgs) (w w' : VerifyWorld) :
    collectState venv fs now args w = (.error (.systemExit 0), w') → False := by
  intro h
  unfold collectState at h
  nzp [inputMap_nz, getTrustConfig_nz hl, trustedRoot_nz, verifierInit_nz, loadAll_nz hl] h

omit hl in
theorem ofBytes_nz (codec : StatementCodec) (b : Bytes) : Statement.ofBytes codec b = .error (.systemExit 0) → False := by
  intro h; unfold Statement.ofBytes at h; nz [] h

omit hl in
theorem matchesDigest_nz (s : Statement) (d : Hashed) : s.matchesDigest d = .error (.systemExit 0) → False := by
  intro h; unfold Statement.matchesDigest at h; nz [] h

omit hl in
theorem verifyCommonCli_nz (now : Time) (v : Verifier) (hd : Hashed) (b : Bundle) (policy : Cert → Py Unit)
    (hp : ∀ cert, policy cert = .error (.systemExit 0) → False) :
    verifyCommonCli venv now v hd b policy = .error (.systemExit 0) → False := by
  intro h
  have h1 := NoExit.verifyDsse venv.env now v b policy hp
  have h2 := NoExit.verifyArtifact venv.env now v (.hashed hd) b policy hp
  unfold verifyCommonCli at h
  nz [NoExit.envelopeInit, h1, h2, ofBytes_nz, matchesDigest_nz] h

omit hl in
theorem printStatement_nz (d : Bool) (s : Option Statement) : printStatement d s = .error (.systemExit 0) → False := by
  intro h; unfold printStatement at h; nz [] h

omit hl in
theorem logAndExit_nz (verbose : Bool) (e : Exc) : logAndExit verbose e = .systemExit 0 → e = .systemExit 0 := by
  intro h
  unfold logAndExit at h
  split at h
  · exact h
  · simp at h

omit hl in
theorem verifyLoop_nz (now : Time) (v : Verifier) (policy : Cert → Py Unit) (decode verbose : Bool)
    (hp : ∀ cert, policy cert = .error (.systemExit 0) → False) (items : List (VerifyInput × Hashed × Bundle)) :
    verifyLoop venv now v policy decode verbose items = .error (.systemExit 0) → False := by
  induction items with
  | nil => intro h; simp [verifyLoop] at h
  | cons x xs ih =>
    intro h
    rw [verifyLoop.eq_def] at h
    dsimp only at h
    split at h
    · next e he =>
      split at h
      · rw [Except.error.injEq] at h
        rw [logAndExit_nz _ _ h] at he
        exact verifyCommonCli_nz now v _ _ policy hp he
      · rw [Except.error.injEq] at h
        rw [h] at he
        exact verifyCommonCli_nz now v _ _ policy hp he
    · nz [printStatement_nz, ih] h

theorem verifyCommand_nz (now : Time) (cmd : VerifyCommand) (verbose : Bool) (args : VerifyArgs) (w w' : VerifyWorld) :
    verifyCommand venv fs now cmd verbose args w = (.error (.systemExit 0), w') → False := by
  intro h
  unfold verifyCommand at h
  split at h
  · next e he =>
    rw [Prod.mk.injEq, Except.error.injEq] at h
    rw [h.1] at he
    exact NoExit.commandPolicyError cmd he
  · next p hp =>
    split at h
    · next e w1 he =>
      rw [Prod.mk.injEq, Except.error.injEq] at h
      rw [h.1] at he
      exact collectState_nz hl _ _ _ _ he
    · rw [Prod.mk.injEq] at h
      exact verifyLoop_nz now _ p.verify _ _ (fun cert => NoExit.commandPolicy cmd p hp cert) _ h.1

omit hl in
theorem parseInputs_nz (as : List Str) : parseInputs fs as = .error (.systemExit 0) → False := by
  induction as with
  | nil => intro h; simp [parseInputs] at h
  | cons a as ih => intro h; rw [parseInputs] at h; nz [ih] h

theorem verifyMain_nz (now : Time) (cmd : VerifyCommand) (verbose : Bool) (positional : List Str)
    (certificate signature bundle : Option Path) (trust : TrustArgs) (w : VerifyWorld) :
    (verifyMain venv fs now cmd verbose positional certificate signature bundle trust w).1 = .error (.systemExit 0) →
      False := by
  intro h
  unfold verifyMain at h
  split at h
  · simp at h
  · split at h
    · next e he =>
      dsimp only at h
      rw [Except.error.injEq] at h
      rw [h] at he
      exact parseInputs_nz _ he
    · next inputs hi =>
      cases hc : verifyCommand venv fs now cmd verbose ⟨inputs, certificate, signature, bundle, trust⟩ w with
      | mk r w' =>
        rw [hc] at h
        dsimp only at h
        cases r with
        | ok u => simp [mainHandler] at h
        | error e =>
          rw [mainHandler] at h
          have he : e = .systemExit 0 := by
            split at h
            · exact logAndExit_nz _ _ (Except.error.inj h)
            · exact Except.error.inj h
          subst he
          exact verifyCommand_nz hl _ _ _ _ _ _ hc

end NonZero

/-- **C44** If no library ends the process by itself, `sigstore verify` exits with status 0 exactly if there is at least one
argument, every argument stands for an input, the options fit together, the trust configuration loads, and every single input
is verified, with the materials that belong to it, under the policy of the command. -/
theorem C44_exit_zero_iff (venv : VerifyEnv) (fs : Fs) (hl : LibrariesDoNotExit venv fs) (now : Time) (cmd : VerifyCommand)
    (verbose : Bool) (positional : List Str) (certificate signature bundle : Option Path) (trust : TrustArgs)
    (w : VerifyWorld) :
    exitStatus (verifyMain venv fs now cmd verbose positional certificate signature bundle trust w).1 = 0 ↔
      positional ≠ [] ∧ ∃ inputs config, List.Forall₂ (ArgDenotes fs) positional inputs ∧
        (getTrustConfig fs venv.tuf venv.parsers trust w.tuf).1 = .ok config ∧
        VerifySucceeds venv fs now cmd ⟨inputs, certificate, signature, bundle, trust⟩ config := by
  rw [← C44_returns_iff venv fs now cmd verbose positional certificate signature bundle trust w]
  constructor
  · intro h
    cases hr : (verifyMain venv fs now cmd verbose positional certificate signature bundle trust w).1 with
    | ok u => rfl
    | error e =>
      rw [hr] at h
      exfalso
      have hz : e = .systemExit 0 := by
        cases e <;> simp [exitStatus] at h
        next n => subst h; rfl
      subst hz
      exact verifyMain_nz hl now cmd verbose positional certificate signature bundle trust w hr
  · intro h
    rw [h]
    rfl

theorem policy_checked {env : Env} {now : Time} {v : Verifier} {b : Bundle} {policy : Cert → Py Unit}
    (h : verifyCommon env now v b policy = .ok ()) : policy b.cert = .ok () := by
  obtain ⟨_, _, _, _, _, _, hp, _⟩ := (verifyCommon_steps _ _ _ _ _).1 h
  exact hp

/-- **C44** In particular, after exit status 0 every argument stands for an input whose digest is signed, by a certificate
that passed the common checks with the policy of the command, either directly or through an attestation with that digest as
subject; and the signature is the logged one. -/
theorem C44_exit_zero_sound (venv : VerifyEnv) (fs : Fs) (hl : LibrariesDoNotExit venv fs) (now : Time) (cmd : VerifyCommand)
    (verbose : Bool) (positional : List Str) (certificate signature bundle : Option Path) (trust : TrustArgs)
    (w : VerifyWorld)
    (h : exitStatus (verifyMain venv fs now cmd verbose positional certificate signature bundle trust w).1 = 0) :
    ∃ config policy certs, (getTrustConfig fs venv.tuf venv.parsers trust w.tuf).1 = .ok config ∧ cmd.policy = .ok policy ∧
      getFulcioCerts now config.root = .ok certs ∧ positional ≠ [] ∧
      ∀ arg ∈ positional, ∃ input digest b, ArgDenotes fs arg input ∧ DigestOf venv.env.crypto fs input digest ∧
        verifyCommon venv.env now ⟨config.root, certs⟩ b policy.verify = .ok () ∧ policy.verify b.cert = .ok () ∧
        (ArtifactOk venv.env b digest ∨
          ∃ payload inner, DsseOk venv.env b "application/vnd.in-toto+json".toList payload ∧
            venv.codec.parse payload = some inner ∧ HasSubject inner digest) := by
  obtain ⟨hne, inputs, config, hd, hcfg, hs⟩ :=
    (C44_exit_zero_iff venv fs hl now cmd verbose positional certificate signature bundle trust w).1 h
  obtain ⟨policy, certs, hp, hcerts, hver⟩ := hs.inputs
  refine ⟨config, policy, certs, hcfg, hp, hcerts, hne, ?_⟩
  intro arg harg
  obtain ⟨input, hin, hden⟩ := forall₂_mem_left hd _ harg
  obtain ⟨m, digest, b, _, hdig, _, hacc⟩ := hver input hin
  refine ⟨input, digest, b, hden, hdig, ?_⟩
  rcases hacc with ⟨_, ha⟩ | ⟨_, payload, inner, ha, h1, _, h2, _⟩
  · obtain ⟨h3, h4⟩ := verifyArtifact_parts ha
    exact ⟨h3, policy_checked h3, .inl h4⟩
  · obtain ⟨h3, h4⟩ := verifyDsse_parts ha
    exact ⟨h3, policy_checked h3, .inr ⟨payload, inner, h4, h1, h2⟩⟩

/-! ## C69: `--offline` -/

theorem offline_trust_calls (fs : Fs) (env : Tuf.Env) (parsers : TrustParsers) (args : TrustArgs) (w : Tuf.World)
    (ho : args.offline = true) : (getTrustConfig fs env parsers args w).2.calls = w.calls := by
  unfold getTrustConfig
  split
  · split
    · rfl
    · split <;> rfl
  · rename_i url _
    have h := (C48_offline env url none w).1
    rw [ho]
    cases hf : fromTuf env url true none w with
    | mk r w' =>
      rw [hf] at h
      cases r with
      | error e => exact h
      | ok p =>
        obtain ⟨tr, sc⟩ := p
        dsimp only
        split <;> exact h

theorem bundled_queries (venv : VerifyEnv) (fs : Fs) (map : Dict VerifyInput Materials)
    (hb : ∀ x ∈ map, ∃ p, x.2 = .bundled p) : ∀ w, (loadAll venv fs w map).2 = w := by
  induction map with
  | nil => intro w; rfl
  | cons x xs ih =>
    intro w
    obtain ⟨i, m⟩ := x
    obtain ⟨p, hm⟩ := hb (i, m) (by simp)
    dsimp only at hm
    subst hm
    have hl : ∀ h, (loadMaterials venv fs h w (.bundled p)).2 = w := by
      intro h
      unfold loadMaterials
      dsimp only
      split
      · rfl
      · split <;> rfl
    rw [loadAll.eq_def]
    dsimp only
    split
    · rfl
    · next h _ =>
      have hl := hl h
      cases hm : loadMaterials venv fs h w (.bundled p) with
      | mk r w' =>
        rw [hm] at hl
        dsimp only at hl
        subst hl
        cases r with
        | error e => rfl
        | ok b =>
          dsimp only
          have hi := ih (fun x hx => hb x (by simp [hx])) w'
          cases hr : loadAll venv fs w' xs with
          | mk r2 w2 =>
            rw [hr] at hi
            cases r2 <;> exact hi

theorem materials_offline {fs : Fs} {args : VerifyArgs} {i : VerifyInput} {m : Materials} (h : MaterialsFor fs args i m)
    (hc : args.certificate = none ∧ args.signature = none) : ∃ p, m = .bundled p := by
  cases h with
  | explicitBundle _ _ => exact ⟨_, rfl⟩
  | foundBundle _ _ _ _ _ => exact ⟨_, rfl⟩
  | foundLegacy _ _ _ _ _ => exact ⟨_, rfl⟩
  | detachedFile _ h2 _ _ _ =>
    rcases h2 with h2 | h2
    · exact absurd hc.1 h2
    · exact absurd hc.2 h2
  | detachedDigest _ h2 _ _ _ => rw [hc.1] at h2; simp at h2

/-- **C69** With `--offline`, whatever the arguments and whatever happens, `sigstore verify` sends no query to Rekor and
does not call the TUF client library. -/
theorem C69_offline (venv : VerifyEnv) (fs : Fs) (now : Time) (cmd : VerifyCommand) (verbose : Bool) (positional : List Str)
    (certificate signature bundle : Option Path) (trust : TrustArgs) (w : VerifyWorld) (ho : trust.offline = true) :
    let w' := (verifyMain venv fs now cmd verbose positional certificate signature bundle trust w).2
    w'.queries = w.queries ∧ w'.tuf.calls = w.tuf.calls := by
  have hstate : ∀ inputs, (collectState venv fs now ⟨inputs, certificate, signature, bundle, trust⟩ w).2.queries = w.queries ∧
      (collectState venv fs now ⟨inputs, certificate, signature, bundle, trust⟩ w).2.tuf.calls = w.tuf.calls := by
    intro inputs
    unfold collectState
    split
    · exact ⟨rfl, rfl⟩
    · rename_i map hmap
      obtain ⟨hcons, _, _, hmat⟩ := inputMap_ok fs _ map hmap
      have hb : ∀ x ∈ map, ∃ p, x.2 = Materials.bundled p := by
        rintro ⟨i, m⟩ hx
        exact materials_offline (hmat i m hx).2 (hcons.offline ho)
      have ht := offline_trust_calls fs venv.tuf venv.parsers trust w.tuf ho
      cases hg : getTrustConfig fs venv.tuf venv.parsers trust w.tuf with
      | mk r t =>
        rw [hg] at ht
        dsimp only at ht
        cases r with
        | error e => exact ⟨rfl, ht⟩
        | ok config =>
          dsimp only
          split
          · exact ⟨rfl, ht⟩
          · split
            · exact ⟨rfl, ht⟩
            · have hl := bundled_queries venv fs map hb { w with tuf := t }
              cases hla : loadAll venv fs { w with tuf := t } map with
              | mk r2 w2 =>
                rw [hla] at hl
                dsimp only at hl
                subst hl
                cases r2 <;> exact ⟨rfl, ht⟩
  intro w'
  show (verifyMain venv fs now cmd verbose positional certificate signature bundle trust w).2.queries = _ ∧
    (verifyMain venv fs now cmd verbose positional certificate signature bundle trust w).2.tuf.calls = _
  unfold verifyMain
  split
  · exact ⟨rfl, rfl⟩
  · split
    · exact ⟨rfl, rfl⟩
    · rename_i inputs _
      have hs := hstate inputs
      show (verifyCommand venv fs now cmd verbose ⟨inputs, certificate, signature, bundle, trust⟩ w).2.queries = _ ∧
        (verifyCommand venv fs now cmd verbose ⟨inputs, certificate, signature, bundle, trust⟩ w).2.tuf.calls = _
      unfold verifyCommand
      split
      · exact ⟨rfl, rfl⟩
      · cases hc : collectState venv fs now ⟨inputs, certificate, signature, bundle, trust⟩ w with
        | mk r w2 =>
          rw [hc] at hs
          cases r with
          | error e => exact hs
          | ok x => exact hs

/-! ## C70: formats of trust material -/

/-- **C70** (refuted) The media type of a trust configuration file is never looked at: a file is loaded with the same result
whatever its type is. -/
theorem C70_config_type_ignored (fs : Fs) (env : Tuf.Env) (parsers : TrustParsers) (args : TrustArgs) (w : Tuf.World)
    (p : Path) (bytes : Bytes) (mediaType : Str) (m : TrustConfigMsg) (hp : args.trustConfig = some p)
    (hr : fs.read p = .ok bytes) (hm : parsers.config bytes = .ok { m with mediaType := mediaType }) :
    (getTrustConfig fs env parsers args w).1 = .ok ⟨m.rootMediaType, m.root, m.signingConfig, args.rekorVersion⟩ := by
  unfold getTrustConfig trustSource
  rw [hp]
  dsimp only
  rw [hr]
  dsimp only
  rw [hm]

/-- **C70** What does hold: verification succeeds only if the trusted root in the configuration has the known type.  (Missing:
the type of the configuration itself; see `C70_config_type_ignored`.) -/
theorem C70_root_type_partial (venv : VerifyEnv) (fs : Fs) (hl : LibrariesDoNotExit venv fs) (now : Time) (cmd : VerifyCommand)
    (verbose : Bool) (positional : List Str) (certificate signature bundle : Option Path) (trust : TrustArgs)
    (w : VerifyWorld)
    (h : exitStatus (verifyMain venv fs now cmd verbose positional certificate signature bundle trust w).1 = 0) :
    ∃ config, (getTrustConfig fs venv.tuf venv.parsers trust w.tuf).1 = .ok config ∧
      config.rootMediaType = "application/vnd.dev.sigstore.trustedroot+json;version=0.1".toList := by
  obtain ⟨_, _, config, _, hcfg, hs⟩ :=
    (C44_exit_zero_iff venv fs hl now cmd verbose positional certificate signature bundle trust w).1 h
  exact ⟨config, hcfg, hs.rootType⟩

/-! ## Example -/

/-- one artifact `a` with its bundle, and a trust configuration `t` -/
def exVerifyFs : Fs where
  isFile p := decide (p ∈ [Path.ofStr "a".toList, Path.ofStr "a.sigstore.json".toList, Path.ofStr "t".toList])
  read p :=
    if p = Path.ofStr "a".toList then .ok exArtifact
    else if p = Path.ofStr "a.sigstore.json".toList then .ok [1]
    else if p = Path.ofStr "t".toList then .ok [2]
    else .error .osError

/-- the known format of trusted roots -/
def exRootMediaType : Str := "application/vnd.dev.sigstore.trustedroot+json;version=0.1".toList

/-- external functions that read the example files -/
def exVerifyEnv : VerifyEnv where
  env := exVEnv
  tuf := exTufEnv exTufLibrary
  parsers :=
    { config := fun b => if b = [2] then .ok ⟨[], exRootMediaType, exRoot, ⟨[], [], [], [], none, [], none⟩⟩ else .error .pydantic
      root := fun _ => .error .pydantic
      signingConfig := fun _ => .error .pydantic }
  parseBundle b := if b = [1] then .ok exBundle.inner else .error .pydantic
  loadPem _ := none
  codec := ⟨fun _ => none, fun _ => []⟩
  retrieve _ := .error .rekorClient

/-- no library exits -/
theorem exLibraries : LibrariesDoNotExit exVerifyEnv exVerifyFs where
  read p h := by
    simp only [exVerifyFs] at h
    (repeat' split at h) <;> simp at h
  parseBundle b h := by
    simp only [exVerifyEnv] at h
    split at h <;> simp at h
  config b h := by
    simp only [exVerifyEnv] at h
    split at h <;> simp at h
  root b h := by simp [exVerifyEnv] at h
  signingConfig b h := by simp [exVerifyEnv] at h
  retrieve b h := by simp [exVerifyEnv] at h
  targetInfo n h := by simp [exVerifyEnv, exTufEnv, exTufLibrary] at h
  findCached f i h := by simp [exVerifyEnv, exTufEnv, exTufLibrary] at h
  download i h := by simp [exVerifyEnv, exTufEnv, exTufLibrary] at h

/-- `sigstore verify identity --cert-identity me --cert-oidc-issuer https://i --trust-config t a` exits with status 0, also
with `--offline` -/
theorem exVerified (offline : Bool) :
    exitStatus (verifyMain exVerifyEnv exVerifyFs 3000000000 (.identity "me".toList "https://i".toList) false ["a".toList]
      none none none ⟨some (Path.ofStr "t".toList), none, false, offline, none⟩ ⟨exTufWorld, []⟩).1 = 0 := by
  rw [C44_exit_zero_iff _ _ exLibraries]
  refine ⟨by simp, [.file (Path.ofStr "a".toList)], ⟨exRootMediaType, exRoot, ⟨[], [], [], [], none, [], none⟩, none⟩,
    .cons (.file (by decide)) .nil, by cases offline <;> rfl, ?_, rfl, by simp [exRoot], _, [exIssuer], rfl, by decide, ?_⟩
  · exact ⟨by simp, by simp, by simp, by simp⟩
  · intro i hi
    rw [List.mem_singleton] at hi
    subst hi
    refine ⟨.bundled (Path.ofStr "a.sigstore.json".toList), ⟨.sha2_256, exArtifact⟩, exBundle, ?_, ?_, ?_, ?_⟩
    · exact .foundBundle rfl rfl rfl (by decide) (by decide)
    · exact .file (by decide)
    · exact .bundled (bytes := [1]) (by decide) rfl (by decide)
    · refine .inl ⟨rfl, ?_⟩
      show verifyArtifact exVEnv 3000000000 exVerifier (.hashed ⟨.sha2_256, exArtifact⟩) exBundle _ = .ok ()
      unfold verifyArtifact
      rw [exCommonPolicy exBundle _ _ _ (by decide) rfl rfl (by decide)]
      decide

/-- the example's configuration has no valid type of its own -/
example : (getTrustConfig exVerifyFs exVerifyEnv.tuf exVerifyEnv.parsers
    ⟨some (Path.ofStr "t".toList), none, false, false, none⟩ exTufWorld).1 =
      .ok ⟨exRootMediaType, exRoot, ⟨[], [], [], [], none, [], none⟩, none⟩ :=
  C70_config_type_ignored _ _ _ _ _ _ [2] [] ⟨[], exRootMediaType, exRoot, ⟨[], [], [], [], none, [], none⟩⟩ rfl (by decide) rfl

/-- with `--offline` nothing is asked -/
example : (verifyMain exVerifyEnv exVerifyFs 3000000000 (.identity "me".toList "https://i".toList) false ["a".toList]
      none none none ⟨none, none, false, true, none⟩ ⟨exTufWorld, []⟩).2.tuf.calls = [] :=
  (C69_offline _ _ _ _ _ _ _ _ _ _ _ rfl).2

end Sigstore.Props
