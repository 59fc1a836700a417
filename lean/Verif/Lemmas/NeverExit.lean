import Verif.Props.CliUsage

/-!
# Nothing in the code of verification and signing exits the process by itself

The same as `Verif.Lemmas.NoExit`, and the lemmas of `Props.CliExitStatus` and `Props.CliMainStatus`, for every status.
-/

namespace Sigstore.NeverExit

open Sigstore.Trust Sigstore.LogEntry Sigstore.Dsse Sigstore.Sct Sigstore.Cli Sigstore.Tuf Sigstore.Props Sigstore.Signing

variable {n : Nat}

theorem keyVerify (c : Crypto) (k : Key) (s d : Bytes) : Key.verify c k s d = .error (.systemExit n) → False := by
  intro h; unfold Key.verify at h; nz [] h

theorem tryCandidates (c : Crypto) (s d : Bytes) (ks : List Key) :
    Trust.tryCandidates c s d ks = .error (.systemExit n) → False := by
  induction ks with
  | nil => intro h; simp [Trust.tryCandidates] at h
  | cons k ks ih => intro h; rw [Trust.tryCandidates] at h; nz [ih, keyVerify] h

theorem keyringVerify (c : Crypto) (kr : Keyring) (i s d : Bytes) : kr.verify c i s d = .error (.systemExit n) → False := by
  intro h; unfold Keyring.verify at h; nz [tryCandidates] h

theorem keyringInit (c : Crypto) (ms : List PublicKeyMsg) : Keyring.init c ms = .error (.systemExit n) → False := by
  intro h
  obtain ⟨kr, hk⟩ := C10_keyring_total c ms
  rw [hk] at h; simp at h

theorem rekorKeyring (c : Crypto) (now : Time) (r : TrustedRoot Cert) (p : Purpose) :
    Trust.rekorKeyring c now r p = .error (.systemExit n) → False := by
  intro h; unfold Trust.rekorKeyring at h; dsimp only at h; nz [keyringInit] h

theorem ctKeyring (c : Crypto) (now : Time) (r : TrustedRoot Cert) (p : Purpose) :
    Trust.ctKeyring c now r p = .error (.systemExit n) → False := by
  intro h; unfold Trust.ctKeyring at h; dsimp only at h; nz [keyringInit] h

theorem getSct (cert : Cert) : Sct.getSct cert = .error (.systemExit n) → False := by
  intro h; unfold Sct.getSct at h; nz [] h

theorem getIssuerCert (chain : List Cert) : Sct.getIssuerCert chain = .error (.systemExit n) → False := by
  intro h; unfold Sct.getIssuerCert at h; nz [] h

theorem certIsCa (cert : Cert) : Sigstore.certIsCa cert = .error (.systemExit n) → False := by
  intro h; unfold Sigstore.certIsCa at h; nz [] h

theorem sctCertIsCa (cert : Cert) : Sct.sctCertIsCa cert = .error (.systemExit n) → False := by
  intro h; unfold Sct.sctCertIsCa at h; nz [certIsCa] h

theorem issuerKeyIdFor (c : Crypto) (sct : Sct) (chain : List Cert) :
    Sct.issuerKeyIdFor c sct chain = .error (.systemExit n) → False := by
  intro h; unfold Sct.issuerKeyIdFor at h; nz [getIssuerCert, sctCertIsCa] h

theorem packOpaque24 (der : Bytes) : Sct.packOpaque24 der = .error (.systemExit n) → False := by
  intro h; unfold Sct.packOpaque24 at h; nz [] h

theorem packSignedEntry (sct : Sct) (cert : Cert) (i : Option Bytes) :
    Sct.packSignedEntry sct cert i = .error (.systemExit n) → False := by
  intro h; unfold Sct.packSignedEntry at h; nz [packOpaque24] h

theorem packDigitallySigned (sct : Sct) (cert : Cert) (i : Option Bytes) :
    Sct.packDigitallySigned sct cert i = .error (.systemExit n) → False := by
  intro h; unfold Sct.packDigitallySigned at h; nz [packSignedEntry] h

theorem verifySct (c : Crypto) (cert : Cert) (chain : List Cert) (kr : Keyring) :
    Sct.verifySct c cert chain kr = .error (.systemExit n) → False := by
  intro h; unfold Sct.verifySct at h
  nz [getSct, issuerKeyIdFor, packDigitallySigned, keyringVerify] h

theorem b64Decode (s : Str) : Sigstore.b64Decode s = .error (.systemExit n) → False := by
  intro h; unfold Sigstore.b64Decode at h; nz [] h

theorem logCheckpointFromText (pyInt : Str → Option Int) (t : Str) :
    Checkpoint.LogCheckpoint.fromText pyInt t = .error (.systemExit n) → False := by
  intro h; unfold Checkpoint.LogCheckpoint.fromText at h; nz [b64Decode] h

theorem parseSignature (m : Str × Str) : Checkpoint.parseSignature m = .error (.systemExit n) → False := by
  intro h; unfold Checkpoint.parseSignature at h; nz [b64Decode] h

theorem parseSignatures (ms : List (Str × Str)) : Checkpoint.parseSignatures ms = .error (.systemExit n) → False := by
  induction ms with
  | nil => intro h; simp [Checkpoint.parseSignatures] at h
  | cons m ms ih => intro h; rw [Checkpoint.parseSignatures] at h; nz [ih, parseSignature] h

theorem signedNoteFromText (t : Str) : Checkpoint.SignedNote.fromText t = .error (.systemExit n) → False := by
  intro h; unfold Checkpoint.SignedNote.fromText at h; nz [parseSignatures] h

theorem verifySigs (c : Crypto) (kr : Keyring) (i m : Bytes) (ss : List Checkpoint.RekorSignature) :
    Checkpoint.verifySigs c kr i m ss = .error (.systemExit n) → False := by
  induction ss with
  | nil => intro h; simp [Checkpoint.verifySigs] at h
  | cons s ss ih => intro h; rw [Checkpoint.verifySigs] at h; nz [ih, b64Decode, keyringVerify] h

theorem signedCheckpointFromText (pyInt : Str → Option Int) (t : Str) :
    Checkpoint.SignedCheckpoint.fromText pyInt t = .error (.systemExit n) → False := by
  intro h; unfold Checkpoint.SignedCheckpoint.fromText at h; nz [signedNoteFromText, logCheckpointFromText] h

theorem verifyCheckpoint (pyInt : Str → Option Int) (c : Crypto) (kr : Keyring) (i : Bytes)
    (p : Merkle.InclusionProof) : Checkpoint.verifyCheckpoint pyInt c kr i p = .error (.systemExit n) → False := by
  intro h; unfold Checkpoint.verifyCheckpoint Checkpoint.SignedNote.verify at h
  nz [signedCheckpointFromText, verifySigs] h

theorem merkle (H : Bytes → Bytes) (b : Bytes) (p : Merkle.InclusionProof) :
    Merkle.verifyMerkleInclusion H b p = .error (.systemExit n) → False := by
  intro h; have := Merkle.verify_error H b p _ h; simp at this

theorem jsonInt (m : Int) : LogEntry.jsonInt m = .error (.systemExit n) → False := by
  intro h; unfold LogEntry.jsonInt at h; nz [] h

theorem encodeCanonical (e : LogEntry) : e.encodeCanonical = .error (.systemExit n) → False := by
  intro h; unfold LogEntry.encodeCanonical at h; nz [jsonInt] h

theorem verifySet (c : Crypto) (kr : Keyring) (e : LogEntry) : e.verifySet c kr = .error (.systemExit n) → False := by
  intro h; unfold LogEntry.verifySet at h; nz [encodeCanonical, keyringVerify] h

theorem entryVerify (pyInt : Str → Option Int) (c : Crypto) (kr : Keyring) (e : LogEntry) :
    e.verify pyInt c kr = .error (.systemExit n) → False := by
  intro h; unfold LogEntry.verify at h; nz [merkle, verifyCheckpoint, verifySet] h

theorem entryValidate (e : LogEntry) : e.validate = .error (.systemExit n) → False := by
  intro h; unfold LogEntry.validate at h; nz [] h

theorem envelopeInit (e : EnvelopeMsg) : Dsse.envelopeInit e = .error (.systemExit n) → False := by
  intro h; unfold Dsse.envelopeInit at h; nz [] h

theorem certIsRootCa (cert : Cert) : Sigstore.certIsRootCa cert = .error (.systemExit n) → False := by
  intro h; unfold Sigstore.certIsRootCa at h; nz [certIsCa] h

theorem certIsLeaf (cert : Cert) : Sigstore.certIsLeaf cert = .error (.systemExit n) → False := by
  intro h; unfold Sigstore.certIsLeaf at h; nz [certIsCa] h

theorem loadCerts (env : Env) (bs : List Bytes) : Sigstore.loadCerts env bs = .error (.systemExit n) → False := by
  induction bs with
  | nil => intro h; simp [Sigstore.loadCerts] at h
  | cons b bs ih => intro h; rw [Sigstore.loadCerts] at h; nz [ih] h

theorem checkChainCerts (cs : List Cert) : Sigstore.checkChainCerts cs = .error (.systemExit n) → False := by
  induction cs with
  | nil => intro h; simp [Sigstore.checkChainCerts] at h
  | cons c cs ih => intro h; rw [Sigstore.checkChainCerts] at h; nz [ih, certIsRootCa] h

theorem extractLeaf (env : Env) (t : BundleType) (m : BundleMsg) :
    Sigstore.extractLeaf env t m = .error (.systemExit n) → False := by
  intro h; unfold Sigstore.extractLeaf at h; nz [loadCerts, certIsLeaf, checkChainCerts] h

theorem decodeTsrs (env : Env) (bs : List Bytes) : Sigstore.decodeTsrs env bs = .error (.systemExit n) → False := by
  induction bs with
  | nil => intro h; simp [Sigstore.decodeTsrs] at h
  | cons b bs ih => intro h; rw [Sigstore.decodeTsrs] at h; nz [ih] h

theorem timestampData (env : Env) (m : BundleMsg) : Sigstore.timestampData env m = .error (.systemExit n) → False := by
  intro h; unfold Sigstore.timestampData at h; exact decodeTsrs _ _ h

theorem extractEntry (env : Env) (t : BundleType) (m : BundleMsg) :
    Sigstore.extractEntry env t m = .error (.systemExit n) → False := by
  intro h; unfold Sigstore.extractEntry at h; nz [timestampData, entryValidate] h

theorem bundleInit (env : Env) (m : BundleMsg) : Bundle.init env m = .error (.systemExit n) → False := by
  intro h; unfold Bundle.init at h; nz [extractLeaf, extractEntry] h

theorem fromSignature (env : Env) (cert : Cert) (sig : Bytes) (e : LogEntry) :
    Bundle.fromSignature env cert sig e = .error (.systemExit n) → False := by
  intro h; unfold Bundle.fromSignature Bundle.fromParts at h; nz [bundleInit] h

theorem bundleSignature (b : Bundle) : b.signature = .error (.systemExit n) → False := by
  intro h; unfold Bundle.signature at h; nz [envelopeInit] h

theorem verifySignedTimestamp (env : Env) (now : Time) (t : Tsr) (m : Bytes) (cas : List (CertificateAuthority Cert)) :
    Sigstore.verifySignedTimestamp env now t m cas = .error (.systemExit n) → False := by
  induction cas with
  | nil => intro h; simp [Sigstore.verifySignedTimestamp] at h
  | cons ca cas ih => intro h; rw [Sigstore.verifySignedTimestamp.eq_def] at h; nz [ih] h

theorem verifyTimestamps (env : Env) (now : Time) (cas : List (CertificateAuthority Cert)) (b : Bundle) (ts : List Tsr) :
    Sigstore.verifyTimestamps env now cas b.signature ts = .error (.systemExit n) → False := by
  induction ts with
  | nil => intro h; simp [Sigstore.verifyTimestamps] at h
  | cons t ts ih => intro h; rw [Sigstore.verifyTimestamps.eq_def] at h; nz [ih, verifySignedTimestamp, bundleSignature] h

theorem verifyTimestampAuthority (env : Env) (now : Time) (cas : List (CertificateAuthority Cert)) (b : Bundle)
    (ts : List Tsr) : Sigstore.verifyTimestampAuthority env now cas b ts = .error (.systemExit n) → False := by
  intro h; unfold Sigstore.verifyTimestampAuthority at h; nz [verifyTimestamps] h

theorem fromTimestamp (t : Int) : Sigstore.fromTimestamp t = .error (.systemExit n) → False := by
  intro h; unfold Sigstore.fromTimestamp at h; nz [] h

theorem logTime (e : LogEntry) : Sigstore.logTime e = .error (.systemExit n) → False := by
  intro h; unfold Sigstore.logTime at h; nz [fromTimestamp] h

theorem caInit (ca : CertificateAuthority Cert) : ca.init = .error (.systemExit n) → False := by
  intro h; unfold CertificateAuthority.init at h; nz [] h

theorem mapM_init (cas : List (CertificateAuthority Cert)) :
    cas.mapM CertificateAuthority.init = .error (.systemExit n) → False := by
  induction cas with
  | nil => intro h; simp [pure, Except.pure] at h
  | cons a as ih =>
    intro h
    rw [List.mapM_cons] at h
    cases ha : a.init with
    | error e =>
      rw [ha] at h
      simp only [bind, Except.bind, Except.error.injEq] at h
      subst h; exact caInit a ha
    | ok c =>
      rw [ha] at h
      cases hr : as.mapM CertificateAuthority.init with
      | error e =>
        rw [hr] at h
        simp only [bind, Except.bind, Except.error.injEq] at h
        subst h; exact ih hr
      | ok l => rw [hr] at h; simp [bind, Except.bind, pure, Except.pure] at h

theorem tsaTimes (env : Env) (now : Time) (v : Verifier) (b : Bundle) :
    Sigstore.tsaTimes env now v b = .error (.systemExit n) → False := by
  intro h; unfold Sigstore.tsaTimes getTimestampAuthorities at h
  nz [timestampData, verifyTimestampAuthority, mapM_init] h

theorem establishTime (env : Env) (now : Time) (v : Verifier) (b : Bundle) :
    Sigstore.establishTime env now v b = .error (.systemExit n) → False := by
  intro h; unfold Sigstore.establishTime at h; nz [tsaTimes, logTime] h

theorem verifyChains (env : Env) (store : List Cert) (cert : Cert) (ts : List VerifiedTime) :
    ∀ chain, Sigstore.verifyChains env store cert chain ts = .error (.systemExit n) → False := by
  induction ts with
  | nil => intro chain h; simp [Sigstore.verifyChains] at h
  | cons t ts ih => intro chain h; rw [Sigstore.verifyChains] at h; nz [ih] h

theorem checkSct (env : Env) (now : Time) (v : Verifier) (cert : Cert) (chain : List Cert) :
    Sigstore.checkSct env now v cert chain = .error (.systemExit n) → False := by
  intro h; unfold Sigstore.checkSct at h; nz [ctKeyring, verifySct] h

theorem checkUsage (cert : Cert) : Sigstore.checkUsage cert = .error (.systemExit n) → False := by
  intro h; unfold Sigstore.checkUsage at h; nz [] h

theorem checkEntry (env : Env) (now : Time) (v : Verifier) (e : LogEntry) :
    Sigstore.checkEntry env now v e = .error (.systemExit n) → False := by
  intro h; unfold Sigstore.checkEntry at h; nz [rekorKeyring, entryVerify] h

theorem checkWindow (cert : Cert) (ts : List VerifiedTime) :
    Sigstore.checkWindow cert ts = .error (.systemExit n) → False := by
  induction ts with
  | nil => intro h; simp [Sigstore.checkWindow] at h
  | cons t ts ih => intro h; rw [Sigstore.checkWindow] at h; nz [ih] h

theorem verifyCommon (env : Env) (now : Time) (v : Verifier) (b : Bundle) (policy : Cert → Py Unit)
    (hp : ∀ cert, policy cert = .error (.systemExit n) → False) :
    Sigstore.verifyCommon env now v b policy = .error (.systemExit n) → False := by
  intro h; unfold Sigstore.verifyCommon at h
  nz [establishTime, verifyChains, checkSct, checkUsage, checkEntry, checkWindow, hp] h

theorem verifyPrehashed (c : Crypto) (k : PubKey) (s : Bytes) (hd : Hashed) :
    Sigstore.verifyPrehashed c k s hd = .error (.systemExit n) → False := by
  intro h; unfold Sigstore.verifyPrehashed at h; nz [] h

theorem getKeyDetails (cert : Cert) : Sigstore.getKeyDetails cert = .error (.systemExit n) → False := by
  intro h; unfold Sigstore.getKeyDetails at h; nz [] h

theorem v2Verifier (cert : Cert) : Sigstore.v2Verifier cert = .error (.systemExit n) → False := by
  intro h; unfold Sigstore.v2Verifier at h; nz [getKeyDetails] h

theorem hashedrekordFromParts (cert : Cert) (s : Bytes) (hd : Hashed) :
    Sigstore.hashedrekordFromParts cert s hd = .error (.systemExit n) → False := by
  intro h; unfold Sigstore.hashedrekordFromParts at h; nz [] h

theorem validateHashedrekordV001 (env : Env) (cert : Cert) (e : LogEntry) (s : Bytes) (hd : Hashed) :
    Sigstore.validateHashedrekordV001 env cert e s hd = .error (.systemExit n) → False := by
  intro h; unfold Sigstore.validateHashedrekordV001 at h; nz [hashedrekordFromParts] h

theorem validateHashedrekordV002 (env : Env) (cert : Cert) (e : LogEntry) (s : Bytes) (hd : Hashed) :
    Sigstore.validateHashedrekordV002 env cert e s hd = .error (.systemExit n) → False := by
  intro h; unfold Sigstore.validateHashedrekordV002 at h; nz [v2Verifier] h

theorem validateDsseV001 (env : Env) (cert : Cert) (e : LogEntry) (m : EnvelopeMsg) :
    Sigstore.validateDsseV001 env cert e m = .error (.systemExit n) → False := by
  intro h; unfold Sigstore.validateDsseV001 at h; nz [] h

theorem getAlgorithmDetails (kd : KeyDetails) : Sigstore.getAlgorithmDetails kd = .error (.systemExit n) → False := by
  intro h; unfold Sigstore.getAlgorithmDetails at h; nz [] h

theorem getPrehash (kd : KeyDetails) : Sigstore.getPrehash kd = .error (.systemExit n) → False := by
  intro h; unfold Sigstore.getPrehash at h; nz [getAlgorithmDetails] h

theorem validateHashedrekordV002Dsse (env : Env) (cert : Cert) (e : LogEntry) (m : EnvelopeMsg) :
    Sigstore.validateHashedrekordV002Dsse env cert e m = .error (.systemExit n) → False := by
  intro h; unfold Sigstore.validateHashedrekordV002Dsse at h; nz [v2Verifier, getPrehash] h

theorem checkArtifact (env : Env) (b : Bundle) (i : HashInput) :
    Sigstore.checkArtifact env b i = .error (.systemExit n) → False := by
  intro h; unfold Sigstore.checkArtifact at h
  nz [verifyPrehashed, validateHashedrekordV001, validateHashedrekordV002] h

theorem ecVerify (c : Crypto) (k : PubKey) (s d : Bytes) : Dsse.ecVerify c k s d = .error (.systemExit n) → False := by
  intro h; unfold Dsse.ecVerify at h; nz [] h

theorem dsseVerify (c : Crypto) (k : PubKey) (m : EnvelopeMsg) : Dsse.dsseVerify c k m = .error (.systemExit n) → False := by
  intro h; unfold Dsse.dsseVerify at h; nz [ecVerify] h

theorem checkDsse (env : Env) (b : Bundle) : Sigstore.checkDsse env b = .error (.systemExit n) → False := by
  intro h; unfold Sigstore.checkDsse at h
  split at h
  · simp at h
  · split at h
    · next e x hx =>
      rw [Except.error.injEq] at h; subst h; exact envelopeInit _ hx
    · split at h
      · next e x hx =>
        rw [Except.error.injEq] at h; subst h; exact dsseVerify _ _ _ hx
      · dsimp only at h
        split at h
        · next e x hx =>
          rw [Except.error.injEq] at h; subst h
          nz [validateHashedrekordV002Dsse, validateDsseV001] hx
        · simp at h

theorem verifyArtifact (env : Env) (now : Time) (v : Verifier) (i : HashInput) (b : Bundle) (policy : Cert → Py Unit)
    (hp : ∀ cert, policy cert = .error (.systemExit n) → False) :
    Sigstore.verifyArtifact env now v i b policy = .error (.systemExit n) → False := by
  intro h; unfold Sigstore.verifyArtifact at h
  have := verifyCommon env now v b policy hp
  nz [this, checkArtifact] h

theorem verifyDsse (env : Env) (now : Time) (v : Verifier) (b : Bundle) (policy : Cert → Py Unit)
    (hp : ∀ cert, policy cert = .error (.systemExit n) → False) :
    Sigstore.verifyDsse env now v b policy = .error (.systemExit n) → False := by
  intro h; unfold Sigstore.verifyDsse at h
  have := verifyCommon env now v b policy hp
  nz [this, checkDsse] h

/-! ## Policies of the command line -/

theorem verifyExt (cls : Policy.ExtClass) (s : Str) (cert : Cert) :
    Policy.verifyExt cls s cert = .error (.systemExit n) → False := by
  intro h; unfold Policy.verifyExt at h; nz [] h

theorem otherNames (l : List GeneralName) : Policy.otherNames l = .error (.systemExit n) → False := by
  induction l with
  | nil => intro h; simp [Policy.otherNames] at h
  | cons g l ih => intro h; cases g <;> rw [Policy.otherNames.eq_def] at h <;> nz [ih] h

theorem verifyIssuer (iss : Option Str) (cert : Cert) : Policy.verifyIssuer iss cert = .error (.systemExit n) → False := by
  intro h; unfold Policy.verifyIssuer at h; nz [verifyExt] h

theorem verifyIdentity (i : Str) (iss : Option Str) (cert : Cert) :
    Policy.verifyIdentity i iss cert = .error (.systemExit n) → False := by
  intro h; unfold Policy.verifyIdentity at h; nz [verifyIssuer, otherNames] h

/-- a policy of the command line -/
def Simple : Policy.Policy → Prop
  | .ext _ _ => True
  | .identity _ _ => True
  | _ => False

theorem simple_policy (cert : Cert) (p : Policy.Policy) (hs : Simple p) :
    p.verify cert = .error (.systemExit n) → False := by
  intro h
  cases p <;> simp only [Simple] at hs
  · rw [Policy.Policy.verify] at h; exact verifyExt _ _ _ h
  · rw [Policy.Policy.verify] at h; exact verifyIdentity _ _ _ h

theorem verifyAll (cert : Cert) (ps : List Policy.Policy) (hs : ∀ p ∈ ps, Simple p) :
    Policy.verifyAll cert ps = .error (.systemExit n) → False := by
  induction ps with
  | nil => intro h; simp [Policy.verifyAll] at h
  | cons p ps ih =>
    intro h; rw [Policy.verifyAll] at h
    have h1 := simple_policy (n := n) cert p (hs p (by simp))
    have h2 := ih (fun q hq => hs q (by simp [hq]))
    nz [h1, h2] h

theorem optionalPolicy_simple (o : Option Str) (mk : Str → Policy.Policy) (hm : ∀ s, Simple (mk s)) :
    ∀ p ∈ optionalPolicy o mk, Simple p := by
  intro p hp
  unfold optionalPolicy at hp
  split at hp
  · split at hp
    · simp only [List.mem_singleton] at hp; subst hp; exact hm _
    · simp at hp
  · simp at hp

theorem commandPolicy (cmd : VerifyCommand) (p : Policy.Policy) (hc : cmd.policy = .ok p) (cert : Cert) :
    p.verify cert = .error (.systemExit n) → False := by
  intro h
  cases cmd with
  | identity i iss =>
    simp only [VerifyCommand.policy, Except.ok.injEq] at hc
    subst hc
    exact simple_policy cert (identityPolicy i (some iss)) trivial h
  | github a =>
    simp only [VerifyCommand.policy, githubPolicy] at hc
    split at hc
    · simp at hc
    · have hc := Except.ok.inj hc
      subst hc
      rw [Policy.Policy.verify] at h
      split at h
      · simp at h
      · refine verifyAll cert _ ?_ h
        intro q hq
        simp only [List.mem_append, List.mem_singleton] at hq
        rcases hq with (((((h1 | h1) | h1) | h1) | h1) | h1) | h1
        · subst h1; trivial
        all_goals exact optionalPolicy_simple _ _ (fun _ => by trivial) q h1

/-- the external libraries do not end the process -/
structure LibrariesNeverExit (venv : VerifyEnv) (fs : Fs) : Prop where
  read : ∀ p n, fs.read p ≠ .error (.systemExit n)
  parseBundle : ∀ b n, venv.parseBundle b ≠ .error (.systemExit n)
  config : ∀ b n, venv.parsers.config b ≠ .error (.systemExit n)
  root : ∀ b n, venv.parsers.root b ≠ .error (.systemExit n)
  signingConfig : ∀ b n, venv.parsers.signingConfig b ≠ .error (.systemExit n)
  retrieve : ∀ b n, venv.retrieve b ≠ .error (.systemExit n)
  targetInfo : ∀ t n, venv.tuf.library.targetInfo t ≠ .error (.systemExit n)
  findCached : ∀ f i n, venv.tuf.library.findCached f i ≠ .error (.systemExit n)
  download : ∀ i n, venv.tuf.library.download i ≠ .error (.other (.systemExit n))

section NonZero

variable {venv : VerifyEnv} {fs : Fs} (hl : LibrariesNeverExit venv fs)

theorem tufInit_nz (env : Tuf.Env) (url : Str) (offline : Bool) (w w' : Tuf.World) :
    TrustUpdater.init env url offline none w = (.error (.systemExit n), w') → False := by
  intro h
  unfold TrustUpdater.init at h
  dsimp only at h
  split at h
  · simp at h
  · cases hb : env.embedded (quote (stripSlashes url)) rootName with
    | none => rw [hb] at h; dsimp only at h; nzp [] h
    | some b => rw [hb] at h; dsimp only at h; nzp [] h

include hl

theorem targetPath_nz (u : TrustUpdater) (name : Str) (w w' : Tuf.World) :
    u.targetPath venv.tuf name w = (.error (.systemExit n), w') → False := by
  intro h
  unfold TrustUpdater.targetPath at h
  nzp [hl.targetInfo, hl.findCached, hl.download] h

theorem trustedRootPath_nz (u u' : TrustUpdater) (w w' : Tuf.World) :
    u.getTrustedRootPath venv.tuf w = (.error (.systemExit n), u', w') → False := by
  intro h
  unfold TrustUpdater.getTrustedRootPath at h
  nzp [targetPath_nz hl] h

theorem signingConfigPath_nz (u u' : TrustUpdater) (w w' : Tuf.World) :
    u.getSigningConfigPath venv.tuf w = (.error (.systemExit n), u', w') → False := by
  intro h
  unfold TrustUpdater.getSigningConfigPath at h
  nzp [targetPath_nz hl] h

omit hl in
theorem readBytes_nz (w : Tuf.World) (p : Path) : readBytes w p = .error (.systemExit n) → False := by
  intro h
  unfold readBytes at h
  nz [] h

theorem fromTuf_nz (url : Str) (offline : Bool) (w w' : Tuf.World) :
    fromTuf venv.tuf url offline none w = (.error (.systemExit n), w') → False := by
  intro h
  unfold fromTuf at h
  nzp [tufInit_nz, trustedRootPath_nz hl, signingConfigPath_nz hl, readBytes_nz] h

theorem parseTuf_nz (tr sc : Bytes) : parseTuf venv.parsers tr sc = .error (.systemExit n) → False := by
  intro h
  unfold parseTuf at h
  nz [hl.root, hl.signingConfig] h

theorem getTrustConfig_nz (args : TrustArgs) (w w' : Tuf.World) :
    getTrustConfig fs venv.tuf venv.parsers args w = (.error (.systemExit n), w') → False := by
  intro h
  unfold getTrustConfig at h
  nzp [hl.read, hl.config, fromTuf_nz hl, parseTuf_nz hl] h

theorem readText_nz (p : Path) : readText fs p = .error (.systemExit n) → False := by
  intro h
  unfold readText at h
  nz [hl.read] h

theorem inputDigest_nz (c : Crypto) (i : VerifyInput) : inputDigest c fs i = .error (.systemExit n) → False := by
  intro h
  unfold inputDigest at h
  nz [hl.read] h

omit hl in
theorem collectFulcioCerts_nz (now : Time) (cas : List (CertificateAuthority Cert)) :
    ∀ acc, collectFulcioCerts now acc cas = .error (.systemExit n) → False := by
  induction cas with
  | nil => intro acc h; simp [collectFulcioCerts] at h
  | cons a as ih => intro acc h; rw [collectFulcioCerts] at h; nz [ih, NeverExit.caInit] h

omit hl in
theorem getFulcioCerts_nz (now : Time) (r : TrustedRoot Cert) : getFulcioCerts now r = .error (.systemExit n) → False := by
  intro h; unfold getFulcioCerts at h; nz [collectFulcioCerts_nz] h

omit hl in
theorem verifierInit_nz (now : Time) (r : TrustedRoot Cert) : Verifier.init now r = .error (.systemExit n) → False := by
  intro h; unfold Verifier.init at h; nz [getFulcioCerts_nz] h

omit hl in
theorem trustedRoot_nz (c : LoadedConfig) : c.trustedRoot = .error (.systemExit n) → False := by
  intro h; unfold LoadedConfig.trustedRoot at h; nz [] h

omit hl in
theorem ofBytes_nz (codec : StatementCodec) (b : Bytes) : Statement.ofBytes codec b = .error (.systemExit n) → False := by
  intro h; unfold Statement.ofBytes at h; nz [] h

omit hl in
theorem matchesDigest_nz (s : Statement) (d : Hashed) : s.matchesDigest d = .error (.systemExit n) → False := by
  intro h; unfold Statement.matchesDigest at h; nz [] h

omit hl in
theorem verifyCommonCli_nz (now : Time) (v : Verifier) (hd : Hashed) (b : Bundle) (policy : Cert → Py Unit)
    (hp : ∀ cert, policy cert = .error (.systemExit n) → False) :
    verifyCommonCli venv now v hd b policy = .error (.systemExit n) → False := by
  intro h
  have h1 := NeverExit.verifyDsse venv.env now v b policy hp
  have h2 := NeverExit.verifyArtifact venv.env now v (.hashed hd) b policy hp
  unfold verifyCommonCli at h
  nz [NeverExit.envelopeInit, h1, h2, ofBytes_nz, matchesDigest_nz] h

omit hl in
theorem printStatement_nz (d : Bool) (s : Option Statement) : printStatement d s = .error (.systemExit n) → False := by
  intro h; unfold printStatement at h; nz [] h

end NonZero

/-- the services do not end the process -/
structure AnswersNeverExit (a : Answers) : Prop where
  fulcio : ∀ csr n, a.fulcio csr ≠ .error (.systemExit n)
  tsas : ∀ t ∈ a.tsas, ∀ sig n, t sig ≠ .error (.systemExit n)
  rekor : ∀ r n, a.rekor r ≠ .error (.systemExit n)

/-- no library and no service ends the process -/
structure WorldNeverExits (libs : MainLibs) (o : SignOracle) : Prop where
  verify : ∀ d, LibrariesNeverExit libs.verify (libs.sign.disk.fs d)
  detect : ∀ c n, libs.sign.identity.detect c ≠ .error (.systemExit n)
  issuer : ∀ u n, libs.sign.identity.issuer u ≠ .error (.systemExit n)
  interactive : ∀ u c s f n, libs.sign.identity.interactive u c s f ≠ .error (.systemExit n)
  token : ∀ t c n, libs.sign.identity.token t c ≠ .error (.systemExit n)
  first : ∀ t, AnswersNeverExit (o.first t)
  perFile : ∀ p, AnswersNeverExit (o.perFile p).1 ∧ AnswersNeverExit (o.perFile p).2
  shown : AnswersNeverExit o.shown
  fetch : ∀ b i n, libs.fetch b i ≠ .error (.systemExit n)

/-! ## Signing -/

section Signing

theorem checkNewCert_nz (env : Env) (ctx : Context) (now : Time) (cert : Cert) (chain : List Cert) :
    checkNewCert env ctx now cert chain = .error (.systemExit n) → False := by
  intro h
  unfold checkNewCert at h
  nz [NeverExit.ctKeyring, NeverExit.verifySct] h

theorem signingCert_nz {a : Answers} (ha : AnswersNeverExit a) (env : Env) (ctx : Context) (kp : KeyPairs) (s : Signer)
    (w w' : Signing.World) : s.signingCert env ctx kp a w = (.error (.systemExit n), w') → False := by
  intro h
  unfold Signer.signingCert at h
  nzp [ha.fulcio, checkNewCert_nz] h

theorem signerInit_nz {a : Answers} (ha : AnswersNeverExit a) (env : Env) (ctx : Context) (kp : KeyPairs) (cache : Bool)
    (w w' : Signing.World) : Signer.init env ctx kp a cache w = (.error (.systemExit n), w') → False := by
  intro h
  unfold Signer.init at h
  nzp [signingCert_nz ha] h

theorem collectTimestamps_nz (sig : Bytes) : ∀ ts : List (Bytes → Py Tsr), (∀ t ∈ ts, ∀ s m, t s ≠ .error (.systemExit m)) →
    collectTimestamps sig ts = .error (.systemExit n) → False
  | [], _, h => by rw [collectTimestamps] at h; cases h
  | t :: ts, ht, h => by
    rw [collectTimestamps] at h
    have ih := collectTimestamps_nz sig ts (fun t' h' => ht t' (List.mem_cons_of_mem _ h'))
    split at h
    · rename_i e he
      split at h
      · exact ih h
      · rw [Except.error.inj h] at he
        exact ht t List.mem_cons_self _ _ he
    · split at h
      · rename_i e he
        rw [Except.error.inj h] at he
        exact ih he
      · cases h

theorem fromParts_nz (env : Env) (cert : Cert) (c : Option Content) (e : LogEntry) (ts : Option (List Tsr)) :
    Bundle.fromParts env cert c e ts = .error (.systemExit n) → False := by
  intro h
  unfold Bundle.fromParts at h
  nz [NeverExit.bundleInit] h

theorem finalizeSign_nz {a : Answers} (ha : AnswersNeverExit a) (env : Env) (cert : Cert) (c : Content) (sig : Bytes)
    (r : Rekor.EntryRequest) : finalizeSign env a cert c sig r = .error (.systemExit n) → False := by
  intro h
  unfold finalizeSign at h
  nz [collectTimestamps_nz, ha.rekor, fromParts_nz, ha.tsas] h

theorem signPrehashed_nz (kp : KeyPairs) (k m : Nat) (hd : Hashed) : signPrehashed kp k m hd = .error (.systemExit n) → False := by
  intro h
  unfold signPrehashed at h
  nz [] h

theorem hashedRekordRequest_nz (v : Rekor.ApiVersion) (hd : Hashed) (s : Bytes) (cert : Cert) :
    Rekor.hashedRekordRequest v hd s cert = .error (.systemExit n) → False := by
  intro h
  unfold Rekor.hashedRekordRequest at h
  split at h
  · unfold Rekor.hashedRekordRequestV1 at h
    nz [] h
  · unfold Rekor.hashedRekordRequestV2 at h
    nz [NeverExit.getKeyDetails] h

theorem dsseRequest_nz (c : Crypto) (v : Rekor.ApiVersion) (e : EnvelopeMsg) (cert : Cert) :
    Rekor.dsseRequest c v e cert = .error (.systemExit n) → False := by
  intro h
  unfold Rekor.dsseRequest at h
  split at h
  · unfold Rekor.dsseRequestV1 at h
    nz [] h
  · unfold Rekor.dsseRequestV2 at h
    nz [NeverExit.getKeyDetails, NeverExit.getPrehash, NeverExit.envelopeInit] h

theorem dsseSign_nz (f : Bytes → Bytes) (st : Statement) : dsseSign f st = .error (.systemExit n) → False := by
  intro h
  unfold dsseSign at h
  nz [NeverExit.envelopeInit] h

theorem sign_nz {a : Answers} (ha : AnswersNeverExit a) (env : Env) (ctx : Context) (kp : KeyPairs) (s : Signer)
    (w w' : Signing.World) (call : Signing.Call) : s.sign env ctx kp a w call = (.error (.systemExit n), w') → False := by
  intro h
  cases call with
  | artifact i =>
    rw [Signer.sign] at h
    unfold Signer.signArtifact at h
    nzp [signingCert_nz ha, signPrehashed_nz, hashedRekordRequest_nz, finalizeSign_nz ha] h
  | dsse st =>
    rw [Signer.sign] at h
    unfold Signer.signDsse at h
    nzp [signingCert_nz ha, dsseSign_nz, dsseRequest_nz, NeverExit.envelopeInit, finalizeSign_nz ha] h

end Signing

/-! ## The threads -/

theorem callFor_nz (je : JobEnv) (file : Path) (hd : Hashed) : callFor je file hd = .error (.systemExit n) → False := by
  intro h
  unfold callFor StatementBuilder.build at h
  nz [] h

theorem bundleSignature_nz (b : Bundle) : b.signature = .error (.systemExit n) → False := by
  intro h
  unfold Bundle.signature at h
  nz [NeverExit.envelopeInit] h

theorem outputData_nz {a : Answers} (ha : AnswersNeverExit a) (je : JobEnv) (b : Bundle) (w w' : Signing.World) (out : Output) :
    outputData je a b w out = (.error (.systemExit n), w') → False := by
  intro h
  cases out <;> rw [outputData] at h
  · nzp [bundleSignature_nz] h
  · nzp [signingCert_nz ha] h
  · cases h

theorem diskRead_nz (e : DiskEnv) (d : Disk) (p : Path) : e.read d p = .error (.systemExit n) → False := by
  intro h
  unfold DiskEnv.read at h
  nz [] h

theorem openW_nz (e : DiskEnv) (d : Disk) (p : Path) : e.openW d p = .error (.systemExit n) → False := by
  intro h
  unfold DiskEnv.openW at h
  nz [] h

theorem writeBytes_nz (e : DiskEnv) (p : Path) : ∀ (bs : Bytes) (m : Nat) (d : Disk),
    (writeBytes e p m bs d).1 = .error (.systemExit n) → False
  | [], m, d, h => by
    rw [writeBytes] at h
    split at h <;> cases h
  | b :: bs, m, d, h => by
    rw [writeBytes] at h
    split at h
    · exact writeBytes_nz e p bs _ _ h
    · cases h

/-- no thread has failed -/
def NoThreadExitsWith (n : Nat) (st : JobsState) : Prop := ∀ i, st.pcs i ≠ .failed (.systemExit n)

theorem goto_exits {st : JobsState} (h : NoThreadExitsWith n st) (i : Nat) {pc : JobPc} (hpc : pc ≠ .failed (.systemExit n)) :
    NoThreadExitsWith n (st.goto i pc) := by
  intro j
  unfold JobsState.goto
  dsimp only
  rw [Function.update_apply]
  split
  · exact hpc
  · exact h j

theorem jobStep_exits (je : JobEnv) (jobs : List Job)
    (hj : ∀ job ∈ jobs, AnswersNeverExit job.answers ∧ AnswersNeverExit job.certAnswers) {st : JobsState}
    (h : NoThreadExitsWith n st) (i : Nat) : NoThreadExitsWith n (jobStep je jobs st i) := by
  have hw : ∀ w d, NoThreadExitsWith n { st with world := w, disk := d } := fun _ _ => h
  have hf : ∀ {e : Exc}, e ≠ .systemExit n → JobPc.failed e ≠ .failed (.systemExit n) :=
    fun he hc => he (JobPc.failed.inj hc)
  unfold jobStep
  cases hi : jobs[i]? with
  | none => exact h
  | some job =>
    obtain ⟨h1, h2⟩ := hj job (List.mem_of_getElem? hi)
    dsimp only
    cases st.pcs i with
    | start =>
      dsimp only
      cases hr : je.disk.read st.disk job.file with
      | error e => exact goto_exits h i (hf (fun he => diskRead_nz _ _ _ (he ▸ hr)))
      | ok c => exact goto_exits h i (fun hc => nomatch hc)
    | hashed hd =>
      dsimp only
      cases hr : callFor je job.file hd with
      | error e => exact goto_exits h i (hf (fun he => callFor_nz _ _ _ (he ▸ hr)))
      | ok call =>
        dsimp only
        cases hs : je.signer.sign je.env je.ctx je.kp job.answers st.world call with
        | mk r w =>
          cases r with
          | error e => exact goto_exits (hw w st.disk) i (hf (fun he => sign_nz h1 _ _ _ _ _ _ _ (he ▸ hs)))
          | ok b => exact goto_exits (hw w st.disk) i (fun hc => nomatch hc)
    | emit b todo =>
      cases todo with
      | nil => exact goto_exits h i (fun hc => nomatch hc)
      | cons out todo =>
        dsimp only
        cases ho : outputData je job.certAnswers b st.world out with
        | mk r w =>
          cases r with
          | error e => exact goto_exits (hw w st.disk) i (hf (fun he => outputData_nz h2 _ _ _ _ _ (he ▸ ho)))
          | ok data =>
            dsimp only
            cases hopen : je.disk.openW st.disk out.path with
            | error e => exact goto_exits (hw w st.disk) i (hf (fun he => openW_nz _ _ _ (he ▸ hopen)))
            | ok d => exact goto_exits (hw w d) i (fun hc => nomatch hc)
    | writing b p data k todo =>
      dsimp only
      split
      · cases data[k]? with
        | none => exact goto_exits h i (fun hc => nomatch hc)
        | some byte => exact goto_exits (hw st.world _) i (fun hc => nomatch hc)
      · exact goto_exits h i (fun hc => nomatch hc)
    | done => exact h
    | failed e => exact h

theorem runJobs_exits (je : JobEnv) (jobs : List Job)
    (hj : ∀ job ∈ jobs, AnswersNeverExit job.answers ∧ AnswersNeverExit job.certAnswers) :
    ∀ (schedule : List Nat) {st : JobsState}, NoThreadExitsWith n st → NoThreadExitsWith n (runJobs je jobs st schedule)
  | [], _, h => h
  | i :: schedule, _, h => runJobs_exits je jobs hj schedule (jobStep_exits je jobs hj h i)

theorem jobsResult_nz {jobs : List Job} {order : List Nat} {st : JobsState} (h : NoThreadExitsWith n st) :
    jobsResult jobs order st ≠ some (.error (.systemExit n)) := by
  intro hr
  unfold jobsResult at hr
  split at hr
  · split at hr
    · cases hr
    · rename_i e he
      rw [Except.error.inj (Option.some.inj hr)] at he
      obtain ⟨i, _, hi⟩ := List.exists_of_findSome?_eq_some he
      split at hi
      · cases hp : st.pcs i with
        | failed x => rw [hp] at hi; exact h i (by rw [hp]; rw [Option.some.inj hi])
        | _ => rw [hp] at hi; cases hi
      · cases hi
  · cases hr

/-! ## The commands -/

section Commands

variable {libs : MainLibs} {o : SignOracle} (hw : WorldNeverExits libs o)

theorem validServices_nz (now : Time) (l : List Config.Service) (v : List Nat) (c : Option Config.ServiceConfiguration) :
    Config.getValidServices now l v c = .error (.systemExit n) → False := by
  intro h
  unfold Config.getValidServices at h
  nz [] h

theorem signingConfig_nz (now : Time) (m : Config.SigningConfigMsg) (v : Option Nat) :
    Config.SigningConfig.init now m v = .error (.systemExit n) → False := by
  intro h
  unfold Config.SigningConfig.init at h
  nz [validServices_nz] h

theorem getTlogs_nz : ∀ l : List Config.Service, Config.getTlogs l = .error (.systemExit n) → False
  | [], h => by cases h
  | s :: rest, h => by
    have ih := getTlogs_nz rest
    rw [Config.getTlogs] at h
    split at h
    · rename_i e he
      rw [Except.error.inj h] at he
      nz [] he
    · nz [ih] h

theorem getFulcio_nz (c : Config.SigningConfig) : c.getFulcio = .error (.systemExit n) → False := by
  intro h; unfold Config.SigningConfig.getFulcio at h; nz [] h

theorem getOidcUrl_nz (c : Config.SigningConfig) : c.getOidcUrl = .error (.systemExit n) → False := by
  intro h; unfold Config.SigningConfig.getOidcUrl at h; nz [] h

theorem context_nz (now : Time) (t : Config.ClientTrustConfig) :
    Config.contextFromTrustConfig now t = .error (.systemExit n) → False := by
  intro h
  unfold Config.contextFromTrustConfig at h
  nz [signingConfig_nz, getFulcio_nz, getTlogs_nz] h

include hw

theorem getIdentity_nz (now : Time) (args : IdentityArgs) (cfg : LoadedConfig) :
    getIdentity libs.sign.identity now args cfg = .error (.systemExit n) → False := by
  intro h
  unfold getIdentity at h
  have hd : (if args.disableAmbient = true then Except.ok none else libs.sign.identity.detect args.clientId) =
      (Except.error (Exc.systemExit n) : Py (Option Str)) → False := by
    intro h
    split at h
    · cases h
    · exact hw.detect _ _ h
  nz [hd, hw.issuer, hw.interactive, hw.token, signingConfig_nz, getOidcUrl_nz] h

theorem signIdentity_nz (now : Time) (args : IdentityArgs) (cfg : LoadedConfig) :
    signIdentity libs.sign.identity now args cfg = .error (.systemExit n) → False := by
  intro h
  unfold signIdentity at h
  nz [hw.token, getIdentity_nz hw] h

theorem signPrepare_nz (trust : TrustArgs) (ident : IdentityArgs) (s s' : SignState) :
    signPrepare libs.sign o trust ident s = (.error (.systemExit n), s') → False := by
  intro h
  unfold signPrepare at h
  have ht := getTrustConfig_nz (n := n) (hw.verify s.disk) trust s.tuf
  nzp [ht, context_nz, signIdentity_nz hw, signerInit_nz (hw.first _), signingCert_nz hw.shown] h

theorem signCommon_nz (trust : TrustArgs) (ident : IdentityArgs) (map : Dict Path SigningOutputs)
    (predicate : Option (Str × Dict Str Json)) (s : SignState) :
    (signCommon libs.sign o trust ident map predicate s).1 ≠ some (.error (.systemExit n)) := by
  intro h
  unfold signCommon at h
  split at h
  · rename_i e s' he
    rw [Except.error.inj (Option.some.inj h)] at he
    exact signPrepare_nz hw _ _ _ _ he
  · refine jobsResult_nz (runJobs_exits _ _ ?_ _ ?_) h
    · intro job hj
      obtain ⟨p, _, rfl⟩ := List.mem_map.1 hj
      exact hw.perFile _
    · intro i hc
      cases hc

theorem getIdentityToken_nz (now : Time) (trust : TrustArgs) (ident : IdentityArgs) (s s' : MainState) :
    getIdentityTokenMain libs now trust ident s = (.error (.systemExit n), s') → False := by
  intro h
  unfold getIdentityTokenMain at h
  have ht := getTrustConfig_nz (n := n) (hw.verify s.sign.disk) trust s.sign.tuf
  nzp [ht, getIdentity_nz hw] h

theorem updateTrustRoot_nz (now : Time) (trust : TrustArgs) (s s' : MainState) :
    updateTrustRootMain libs now trust s = (.error (.systemExit n), s') → False := by
  intro h
  unfold updateTrustRootMain at h
  have ht := getTrustConfig_nz (n := n) (hw.verify s.sign.disk) trust s.sign.tuf
  nzp [ht, trustedRoot_nz, getFulcioCerts_nz] h

omit hw in
theorem finishFix_nz (hn : n ≠ 1) (env : Env) (upgrade : Bool) (m : BundleMsg) : finishFix env upgrade m = .error (.systemExit n) → False := by
  intro h
  have hu : ∀ b : Bundle, b.upgrade env = .error (.systemExit n) → False := by
    intro b h
    have hp : b.toParts = .error (.systemExit n) → False := by
      intro h
      unfold Bundle.toParts at h
      nz [NeverExit.envelopeInit] h
    unfold Bundle.upgrade at h
    nz [hp, fromParts_nz] h
  unfold finishFix at h
  split at h
  · rename_i e he
    split at h
    · exact hn (Exc.systemExit.inj (Except.error.inj h)).symm
    · rw [Except.error.inj h] at he
      exact NeverExit.bundleInit _ _ he
  · nz [hu] h

omit hw in
theorem lacksCheckpoint_nz (e : LogEntry) : e.lacksCheckpoint = .error (.systemExit n) → False := by
  intro h
  unfold LogEntry.lacksCheckpoint at h
  nz [] h

theorem fixBundle_nz (hn : n ≠ 1) (path : Path) (staging upgrade inPlace : Bool) (s s' : MainState) :
    fixBundleMain libs path staging upgrade inPlace s = (.error (.systemExit n), s') → False := by
  intro h
  have hf : ∀ m, fixBundle libs.sign.env (libs.fetch staging) upgrade m = .error (.systemExit n) → False := by
    intro m h
    unfold fixBundle at h
    split at h
    · nz [lacksCheckpoint_nz, finishFix_nz hn, hw.fetch] h
    · exact hn (Exc.systemExit.inj (Except.error.inj h)).symm
  have hp := (hw.verify s.sign.disk).parseBundle
  have ho : ∀ text d, (writeText libs.sign.disk libs.localeEncode path text d).1 = .error (.systemExit n) → False := by
    intro text d h
    unfold writeText at h
    split at h
    · rename_i x hx
      rw [Except.error.inj h] at hx
      exact openW_nz _ _ _ hx
    · split at h
      · cases h
      · exact writeBytes_nz _ _ _ _ _ h
  unfold fixBundleMain at h
  nzp [diskRead_nz, hp, hf, ho] h

theorem trustInstance_nz (root : Path) (url : Option Str) (d : Disk) (t t' : Tuf.World) :
    trustInstance (libs.sign.disk.fs d) libs.sign.tuf libs.sign.parsers root url t = (.error (.systemExit n), t') →
      n = 2 ∧ ((libs.sign.disk.fs d).isFile root = false ∨ url = none) := by
  intro h
  have hl := hw.verify d
  have hi : ∀ u w w', Tuf.TrustUpdater.init libs.sign.tuf u false (some (libs.sign.disk.read d root)) w =
      (.error (.systemExit n), w') → False := by
    intro u w w' h
    have hr := diskRead_nz (n := n) libs.sign.disk d root
    unfold Tuf.TrustUpdater.init at h
    dsimp only at h
    split at h
    · cases h
    · cases hb : libs.sign.tuf.embedded (Tuf.quote (Tuf.stripSlashes u)) Tuf.rootName with
      | some b => rw [hb] at h; dsimp only at h; nzp [] h
      | none =>
        rw [hb] at h
        cases hc : libs.sign.disk.read d root with
        | error e =>
          rw [hc] at h
          dsimp only at h
          refine hr ?_
          rw [hc, (Except.error.inj (Prod.mk.inj h).1)]
        | ok c => rw [hc] at h; dsimp only at h; nzp [] h
  have ht : ∀ u w w', Tuf.fromTuf libs.sign.tuf u false (some (libs.sign.disk.read d root)) w =
      (.error (.systemExit n), w') → False := by
    intro u w w' h
    unfold Tuf.fromTuf at h
    nzp [hi, trustedRootPath_nz hl, signingConfigPath_nz hl, readBytes_nz] h
  unfold trustInstance at h
  split at h
  · rename_i hf
    obtain h := Exc.systemExit.inj (Except.error.inj (Prod.mk.inj h).1)
    exact ⟨h.symm, .inl (by simpa using hf)⟩
  · split at h
    · obtain h := Exc.systemExit.inj (Except.error.inj (Prod.mk.inj h).1)
      exact ⟨h.symm, .inr rfl⟩
    · exfalso
      nzp [ht, parseTuf_nz hl] h


end Commands

end Sigstore.NeverExit
