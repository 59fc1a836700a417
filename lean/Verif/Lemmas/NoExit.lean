import Verif.Model.CliVerify
import Verif.Props.Failures

/-!
# Nothing in the verification code exits with status 0
-/

namespace Sigstore.NoExit

open Sigstore.Trust Sigstore.LogEntry Sigstore.Dsse Sigstore.Sct Sigstore.Cli Sigstore.Tuf Sigstore.Props

/-- split all cases of `h`, and use the given facts for propagated errors -/
macro "nz" "[" ls:Lean.Parser.Tactic.SolveByElim.arg,* "]" h:ident : tactic =>
  `(tactic| ((try dsimp only at $h:ident) <;> (repeat' (split at $h:ident)) <;>
      first
        | (simp at $h:ident; done)
        | (solve_by_elim [$ls,*])
        | (rw [Except.error.injEq] at $h:ident; subst $h:ident; solve_by_elim [$ls,*])
        | (rw [Except.error.injEq] at $h:ident; subst $h:ident; simp_all; done)))

theorem keyVerify (c : Crypto) (k : Key) (s d : Bytes) : Key.verify c k s d = .error (.systemExit 0) → False := by
  intro h; unfold Key.verify at h; nz [] h

theorem tryCandidates (c : Crypto) (s d : Bytes) (ks : List Key) :
    Trust.tryCandidates c s d ks = .error (.systemExit 0) → False := by
  induction ks with
  | nil => intro h; simp [Trust.tryCandidates] at h
  | cons k ks ih => intro h; rw [Trust.tryCandidates] at h; nz [ih, keyVerify] h

theorem keyringVerify (c : Crypto) (kr : Keyring) (i s d : Bytes) : kr.verify c i s d = .error (.systemExit 0) → False := by
  intro h; unfold Keyring.verify at h; nz [tryCandidates] h

theorem keyringInit (c : Crypto) (ms : List PublicKeyMsg) : Keyring.init c ms = .error (.systemExit 0) → False := by
  intro h
  obtain ⟨kr, hk⟩ := C10_keyring_total c ms
  rw [hk] at h; simp at h

theorem rekorKeyring (c : Crypto) (now : Time) (r : TrustedRoot Cert) (p : Purpose) :
    Trust.rekorKeyring c now r p = .error (.systemExit 0) → False := by
  intro h; unfold Trust.rekorKeyring at h; dsimp only at h; nz [keyringInit] h

theorem ctKeyring (c : Crypto) (now : Time) (r : TrustedRoot Cert) (p : Purpose) :
    Trust.ctKeyring c now r p = .error (.systemExit 0) → False := by
  intro h; unfold Trust.ctKeyring at h; dsimp only at h; nz [keyringInit] h

theorem getSct (cert : Cert) : Sct.getSct cert = .error (.systemExit 0) → False := by
  intro h; unfold Sct.getSct at h; nz [] h

theorem getIssuerCert (chain : List Cert) : Sct.getIssuerCert chain = .error (.systemExit 0) → False := by
  intro h; unfold Sct.getIssuerCert at h; nz [] h

theorem certIsCa (cert : Cert) : Sigstore.certIsCa cert = .error (.systemExit 0) → False := by
  intro h; unfold Sigstore.certIsCa at h; nz [] h

theorem sctCertIsCa (cert : Cert) : Sct.sctCertIsCa cert = .error (.systemExit 0) → False := by
  intro h; unfold Sct.sctCertIsCa at h; nz [certIsCa] h

theorem issuerKeyIdFor (c : Crypto) (sct : Sct) (chain : List Cert) :
    Sct.issuerKeyIdFor c sct chain = .error (.systemExit 0) → False := by
  intro h; unfold Sct.issuerKeyIdFor at h; nz [getIssuerCert, sctCertIsCa] h

theorem packOpaque24 (der : Bytes) : Sct.packOpaque24 der = .error (.systemExit 0) → False := by
  intro h; unfold Sct.packOpaque24 at h; nz [] h

theorem packSignedEntry (sct : Sct) (cert : Cert) (i : Option Bytes) :
    Sct.packSignedEntry sct cert i = .error (.systemExit 0) → False := by
  intro h; unfold Sct.packSignedEntry at h; nz [packOpaque24] h

theorem packDigitallySigned (sct : Sct) (cert : Cert) (i : Option Bytes) :
    Sct.packDigitallySigned sct cert i = .error (.systemExit 0) → False := by
  intro h; unfold Sct.packDigitallySigned at h; nz [packSignedEntry] h

theorem verifySct (c : Crypto) (cert : Cert) (chain : List Cert) (kr : Keyring) :
    Sct.verifySct c cert chain kr = .error (.systemExit 0) → False := by
  intro h; unfold Sct.verifySct at h
  nz [getSct, issuerKeyIdFor, packDigitallySigned, keyringVerify] h

theorem b64Decode (s : Str) : Sigstore.b64Decode s = .error (.systemExit 0) → False := by
  intro h; unfold Sigstore.b64Decode at h; nz [] h

theorem logCheckpointFromText (pyInt : Str → Option Int) (t : Str) :
    Checkpoint.LogCheckpoint.fromText pyInt t = .error (.systemExit 0) → False := by
  intro h; unfold Checkpoint.LogCheckpoint.fromText at h; nz [b64Decode] h

theorem parseSignature (m : Str × Str) : Checkpoint.parseSignature m = .error (.systemExit 0) → False := by
  intro h; unfold Checkpoint.parseSignature at h; nz [b64Decode] h

theorem parseSignatures (ms : List (Str × Str)) : Checkpoint.parseSignatures ms = .error (.systemExit 0) → False := by
  induction ms with
  | nil => intro h; simp [Checkpoint.parseSignatures] at h
  | cons m ms ih => intro h; rw [Checkpoint.parseSignatures] at h; nz [ih, parseSignature] h

theorem signedNoteFromText (t : Str) : Checkpoint.SignedNote.fromText t = .error (.systemExit 0) → False := by
  intro h; unfold Checkpoint.SignedNote.fromText at h; nz [parseSignatures] h

theorem verifySigs (c : Crypto) (kr : Keyring) (i n : Bytes) (ss : List Checkpoint.RekorSignature) :
    Checkpoint.verifySigs c kr i n ss = .error (.systemExit 0) → False := by
  induction ss with
  | nil => intro h; simp [Checkpoint.verifySigs] at h
  | cons s ss ih => intro h; rw [Checkpoint.verifySigs] at h; nz [ih, b64Decode, keyringVerify] h

theorem signedCheckpointFromText (pyInt : Str → Option Int) (t : Str) :
    Checkpoint.SignedCheckpoint.fromText pyInt t = .error (.systemExit 0) → False := by
  intro h; unfold Checkpoint.SignedCheckpoint.fromText at h; nz [signedNoteFromText, logCheckpointFromText] h

theorem verifyCheckpoint (pyInt : Str → Option Int) (c : Crypto) (kr : Keyring) (i : Bytes)
    (p : Merkle.InclusionProof) : Checkpoint.verifyCheckpoint pyInt c kr i p = .error (.systemExit 0) → False := by
  intro h; unfold Checkpoint.verifyCheckpoint Checkpoint.SignedNote.verify at h
  nz [signedCheckpointFromText, verifySigs] h

theorem merkle (H : Bytes → Bytes) (b : Bytes) (p : Merkle.InclusionProof) :
    Merkle.verifyMerkleInclusion H b p = .error (.systemExit 0) → False := by
  intro h; have := Merkle.verify_error H b p _ h; simp at this

theorem jsonInt (n : Int) : LogEntry.jsonInt n = .error (.systemExit 0) → False := by
  intro h; unfold LogEntry.jsonInt at h; nz [] h

theorem encodeCanonical (e : LogEntry) : e.encodeCanonical = .error (.systemExit 0) → False := by
  intro h; unfold LogEntry.encodeCanonical at h; nz [jsonInt] h

theorem verifySet (c : Crypto) (kr : Keyring) (e : LogEntry) : e.verifySet c kr = .error (.systemExit 0) → False := by
  intro h; unfold LogEntry.verifySet at h; nz [encodeCanonical, keyringVerify] h

theorem entryVerify (pyInt : Str → Option Int) (c : Crypto) (kr : Keyring) (e : LogEntry) :
    e.verify pyInt c kr = .error (.systemExit 0) → False := by
  intro h; unfold LogEntry.verify at h; nz [merkle, verifyCheckpoint, verifySet] h

theorem entryValidate (e : LogEntry) : e.validate = .error (.systemExit 0) → False := by
  intro h; unfold LogEntry.validate at h; nz [] h

theorem envelopeInit (e : EnvelopeMsg) : Dsse.envelopeInit e = .error (.systemExit 0) → False := by
  intro h; unfold Dsse.envelopeInit at h; nz [] h

theorem certIsRootCa (cert : Cert) : Sigstore.certIsRootCa cert = .error (.systemExit 0) → False := by
  intro h; unfold Sigstore.certIsRootCa at h; nz [certIsCa] h

theorem certIsLeaf (cert : Cert) : Sigstore.certIsLeaf cert = .error (.systemExit 0) → False := by
  intro h; unfold Sigstore.certIsLeaf at h; nz [certIsCa] h

theorem loadCerts (env : Env) (bs : List Bytes) : Sigstore.loadCerts env bs = .error (.systemExit 0) → False := by
  induction bs with
  | nil => intro h; simp [Sigstore.loadCerts] at h
  | cons b bs ih => intro h; rw [Sigstore.loadCerts] at h; nz [ih] h

theorem checkChainCerts (cs : List Cert) : Sigstore.checkChainCerts cs = .error (.systemExit 0) → False := by
  induction cs with
  | nil => intro h; simp [Sigstore.checkChainCerts] at h
  | cons c cs ih => intro h; rw [Sigstore.checkChainCerts] at h; nz [ih, certIsRootCa] h

theorem extractLeaf (env : Env) (t : BundleType) (m : BundleMsg) :
    Sigstore.extractLeaf env t m = .error (.systemExit 0) → False := by
  intro h; unfold Sigstore.extractLeaf at h; nz [loadCerts, certIsLeaf, checkChainCerts] h

theorem decodeTsrs (env : Env) (bs : List Bytes) : Sigstore.decodeTsrs env bs = .error (.systemExit 0) → False := by
  induction bs with
  | nil => intro h; simp [Sigstore.decodeTsrs] at h
  | cons b bs ih => intro h; rw [Sigstore.decodeTsrs] at h; nz [ih] h

theorem timestampData (env : Env) (m : BundleMsg) : Sigstore.timestampData env m = .error (.systemExit 0) → False := by
  intro h; unfold Sigstore.timestampData at h; exact decodeTsrs _ _ h

theorem extractEntry (env : Env) (t : BundleType) (m : BundleMsg) :
    Sigstore.extractEntry env t m = .error (.systemExit 0) → False := by
  intro h; unfold Sigstore.extractEntry at h; nz [timestampData, entryValidate] h

theorem bundleInit (env : Env) (m : BundleMsg) : Bundle.init env m = .error (.systemExit 0) → False := by
  intro h; unfold Bundle.init at h; nz [extractLeaf, extractEntry] h

theorem fromSignature (env : Env) (cert : Cert) (sig : Bytes) (e : LogEntry) :
    Bundle.fromSignature env cert sig e = .error (.systemExit 0) → False := by
  intro h; unfold Bundle.fromSignature Bundle.fromParts at h; nz [bundleInit] h

theorem bundleSignature (b : Bundle) : b.signature = .error (.systemExit 0) → False := by
  intro h; unfold Bundle.signature at h; nz [envelopeInit] h

theorem verifySignedTimestamp (env : Env) (now : Time) (t : Tsr) (m : Bytes) (cas : List (CertificateAuthority Cert)) :
    Sigstore.verifySignedTimestamp env now t m cas = .error (.systemExit 0) → False := by
  induction cas with
  | nil => intro h; simp [Sigstore.verifySignedTimestamp] at h
  | cons ca cas ih => intro h; rw [Sigstore.verifySignedTimestamp.eq_def] at h; nz [ih] h

theorem verifyTimestamps (env : Env) (now : Time) (cas : List (CertificateAuthority Cert)) (b : Bundle) (ts : List Tsr) :
    Sigstore.verifyTimestamps env now cas b.signature ts = .error (.systemExit 0) → False := by
  induction ts with
  | nil => intro h; simp [Sigstore.verifyTimestamps] at h
  | cons t ts ih => intro h; rw [Sigstore.verifyTimestamps.eq_def] at h; nz [ih, verifySignedTimestamp, bundleSignature] h

theorem verifyTimestampAuthority (env : Env) (now : Time) (cas : List (CertificateAuthority Cert)) (b : Bundle)
    (ts : List Tsr) : Sigstore.verifyTimestampAuthority env now cas b ts = .error (.systemExit 0) → False := by
  intro h; unfold Sigstore.verifyTimestampAuthority at h; nz [verifyTimestamps] h

theorem fromTimestamp (t : Int) : Sigstore.fromTimestamp t = .error (.systemExit 0) → False := by
  intro h; unfold Sigstore.fromTimestamp at h; nz [] h

theorem logTime (e : LogEntry) : Sigstore.logTime e = .error (.systemExit 0) → False := by
  intro h; unfold Sigstore.logTime at h; nz [fromTimestamp] h

theorem caInit (ca : CertificateAuthority Cert) : ca.init = .error (.systemExit 0) → False := by
  intro h; unfold CertificateAuthority.init at h; nz [] h

theorem mapM_init (cas : List (CertificateAuthority Cert)) :
    cas.mapM CertificateAuthority.init = .error (.systemExit 0) → False := by
  induction cas with
  | nil => intro h; simp [pure, Except.pure] at h
  | cons a as ih =>
    intro h
    rw [List.mapM_cons] at h
    cases ha : a.init with
    | error e =>
      rw [ha] at h
      simp only [bind, Except.bind, Except.error.injEq] at h
      subst h; exact caInit a ha
    | ok c =>
      rw [ha] at h
      cases hr : as.mapM CertificateAuthority.init with
      | error e =>
        rw [hr] at h
        simp only [bind, Except.bind, Except.error.injEq] at h
        subst h; exact ih hr
      | ok l => rw [hr] at h; simp [bind, Except.bind, pure, Except.pure] at h

theorem tsaTimes (env : Env) (now : Time) (v : Verifier) (b : Bundle) :
    Sigstore.tsaTimes env now v b = .error (.systemExit 0) → False := by
  intro h; unfold Sigstore.tsaTimes getTimestampAuthorities at h
  nz [timestampData, verifyTimestampAuthority, mapM_init] h

theorem establishTime (env : Env) (now : Time) (v : Verifier) (b : Bundle) :
    Sigstore.establishTime env now v b = .error (.systemExit 0) → False := by
  intro h; unfold Sigstore.establishTime at h; nz [tsaTimes, logTime] h

theorem verifyChains (env : Env) (store : List Cert) (cert : Cert) (ts : List VerifiedTime) :
    ∀ chain, Sigstore.verifyChains env store cert chain ts = .error (.systemExit 0) → False := by
  induction ts with
  | nil => intro chain h; simp [Sigstore.verifyChains] at h
  | cons t ts ih => intro chain h; rw [Sigstore.verifyChains] at h; nz [ih] h

theorem checkSct (env : Env) (now : Time) (v : Verifier) (cert : Cert) (chain : List Cert) :
    Sigstore.checkSct env now v cert chain = .error (.systemExit 0) → False := by
  intro h; unfold Sigstore.checkSct at h; nz [ctKeyring, verifySct] h

theorem checkUsage (cert : Cert) : Sigstore.checkUsage cert = .error (.systemExit 0) → False := by
  intro h; unfold Sigstore.checkUsage at h; nz [] h

theorem checkEntry (env : Env) (now : Time) (v : Verifier) (e : LogEntry) :
    Sigstore.checkEntry env now v e = .error (.systemExit 0) → False := by
  intro h; unfold Sigstore.checkEntry at h; nz [rekorKeyring, entryVerify] h

theorem checkWindow (cert : Cert) (ts : List VerifiedTime) :
    Sigstore.checkWindow cert ts = .error (.systemExit 0) → False := by
  induction ts with
  | nil => intro h; simp [Sigstore.checkWindow] at h
  | cons t ts ih => intro h; rw [Sigstore.checkWindow] at h; nz [ih] h

theorem verifyCommon (env : Env) (now : Time) (v : Verifier) (b : Bundle) (policy : Cert → Py Unit)
    (hp : ∀ cert, policy cert = .error (.systemExit 0) → False) :
    Sigstore.verifyCommon env now v b policy = .error (.systemExit 0) → False := by
  intro h; unfold Sigstore.verifyCommon at h
  nz [establishTime, verifyChains, checkSct, checkUsage, checkEntry, checkWindow, hp] h

theorem verifyPrehashed (c : Crypto) (k : PubKey) (s : Bytes) (hd : Hashed) :
    Sigstore.verifyPrehashed c k s hd = .error (.systemExit 0) → False := by
  intro h; unfold Sigstore.verifyPrehashed at h; nz [] h

theorem getKeyDetails (cert : Cert) : Sigstore.getKeyDetails cert = .error (.systemExit 0) → False := by
  intro h; unfold Sigstore.getKeyDetails at h; nz [] h

theorem v2Verifier (cert : Cert) : Sigstore.v2Verifier cert = .error (.systemExit 0) → False := by
  intro h; unfold Sigstore.v2Verifier at h; nz [getKeyDetails] h

theorem hashedrekordFromParts (cert : Cert) (s : Bytes) (hd : Hashed) :
    Sigstore.hashedrekordFromParts cert s hd = .error (.systemExit 0) → False := by
  intro h; unfold Sigstore.hashedrekordFromParts at h; nz [] h

theorem validateHashedrekordV001 (env : Env) (cert : Cert) (e : LogEntry) (s : Bytes) (hd : Hashed) :
    Sigstore.validateHashedrekordV001 env cert e s hd = .error (.systemExit 0) → False := by
  intro h; unfold Sigstore.validateHashedrekordV001 at h; nz [hashedrekordFromParts] h

theorem validateHashedrekordV002 (env : Env) (cert : Cert) (e : LogEntry) (s : Bytes) (hd : Hashed) :
    Sigstore.validateHashedrekordV002 env cert e s hd = .error (.systemExit 0) → False := by
  intro h; unfold Sigstore.validateHashedrekordV002 at h; nz [v2Verifier] h

theorem validateDsseV001 (env : Env) (cert : Cert) (e : LogEntry) (m : EnvelopeMsg) :
    Sigstore.validateDsseV001 env cert e m = .error (.systemExit 0) → False := by
  intro h; unfold Sigstore.validateDsseV001 at h; nz [] h

theorem getAlgorithmDetails (kd : KeyDetails) : Sigstore.getAlgorithmDetails kd = .error (.systemExit 0) → False := by
  intro h; unfold Sigstore.getAlgorithmDetails at h; nz [] h

theorem getPrehash (kd : KeyDetails) : Sigstore.getPrehash kd = .error (.systemExit 0) → False := by
  intro h; unfold Sigstore.getPrehash at h; nz [getAlgorithmDetails] h

theorem validateHashedrekordV002Dsse (env : Env) (cert : Cert) (e : LogEntry) (m : EnvelopeMsg) :
    Sigstore.validateHashedrekordV002Dsse env cert e m = .error (.systemExit 0) → False := by
  intro h; unfold Sigstore.validateHashedrekordV002Dsse at h; nz [v2Verifier, getPrehash] h

theorem checkArtifact (env : Env) (b : Bundle) (i : HashInput) :
    Sigstore.checkArtifact env b i = .error (.systemExit 0) → False := by
  intro h; unfold Sigstore.checkArtifact at h
  nz [verifyPrehashed, validateHashedrekordV001, validateHashedrekordV002] h

theorem ecVerify (c : Crypto) (k : PubKey) (s d : Bytes) : Dsse.ecVerify c k s d = .error (.systemExit 0) → False := by
  intro h; unfold Dsse.ecVerify at h; nz [] h

theorem dsseVerify (c : Crypto) (k : PubKey) (m : EnvelopeMsg) : Dsse.dsseVerify c k m = .error (.systemExit 0) → False := by
  intro h; unfold Dsse.dsseVerify at h; nz [ecVerify] h

theorem checkDsse (env : Env) (b : Bundle) : Sigstore.checkDsse env b = .error (.systemExit 0) → False := by
  intro h; unfold Sigstore.checkDsse at h
  split at h
  · simp at h
  · split at h
    · next e x hx =>
      rw [Except.error.injEq] at h; subst h; exact envelopeInit _ hx
    · split at h
      · next e x hx =>
        rw [Except.error.injEq] at h; subst h; exact dsseVerify _ _ _ hx
      · dsimp only at h
        split at h
        · next e x hx =>
          rw [Except.error.injEq] at h; subst h
          nz [validateHashedrekordV002Dsse, validateDsseV001] hx
        · simp at h

theorem verifyArtifact (env : Env) (now : Time) (v : Verifier) (i : HashInput) (b : Bundle) (policy : Cert → Py Unit)
    (hp : ∀ cert, policy cert = .error (.systemExit 0) → False) :
    Sigstore.verifyArtifact env now v i b policy = .error (.systemExit 0) → False := by
  intro h; unfold Sigstore.verifyArtifact at h
  have := verifyCommon env now v b policy hp
  nz [this, checkArtifact] h

theorem verifyDsse (env : Env) (now : Time) (v : Verifier) (b : Bundle) (policy : Cert → Py Unit)
    (hp : ∀ cert, policy cert = .error (.systemExit 0) → False) :
    Sigstore.verifyDsse env now v b policy = .error (.systemExit 0) → False := by
  intro h; unfold Sigstore.verifyDsse at h
  have := verifyCommon env now v b policy hp
  nz [this, checkDsse] h

/-! ## Policies of the command line -/

theorem verifyExt (cls : Policy.ExtClass) (s : Str) (cert : Cert) :
    Policy.verifyExt cls s cert = .error (.systemExit 0) → False := by
  intro h; unfold Policy.verifyExt at h; nz [] h

theorem otherNames (l : List GeneralName) : Policy.otherNames l = .error (.systemExit 0) → False := by
  induction l with
  | nil => intro h; simp [Policy.otherNames] at h
  | cons g l ih => intro h; cases g <;> rw [Policy.otherNames.eq_def] at h <;> nz [ih] h

theorem verifyIssuer (iss : Option Str) (cert : Cert) : Policy.verifyIssuer iss cert = .error (.systemExit 0) → False := by
  intro h; unfold Policy.verifyIssuer at h; nz [verifyExt] h

theorem verifyIdentity (i : Str) (iss : Option Str) (cert : Cert) :
    Policy.verifyIdentity i iss cert = .error (.systemExit 0) → False := by
  intro h; unfold Policy.verifyIdentity at h; nz [verifyIssuer, otherNames] h

/-- a policy of the command line -/
def Simple : Policy.Policy → Prop
  | .ext _ _ => True
  | .identity _ _ => True
  | _ => False

theorem simple_policy (cert : Cert) (p : Policy.Policy) (hs : Simple p) :
    p.verify cert = .error (.systemExit 0) → False := by
  intro h
  cases p <;> simp only [Simple] at hs
  · rw [Policy.Policy.verify] at h; exact verifyExt _ _ _ h
  · rw [Policy.Policy.verify] at h; exact verifyIdentity _ _ _ h

theorem verifyAll (cert : Cert) (ps : List Policy.Policy) (hs : ∀ p ∈ ps, Simple p) :
    Policy.verifyAll cert ps = .error (.systemExit 0) → False := by
  induction ps with
  | nil => intro h; simp [Policy.verifyAll] at h
  | cons p ps ih =>
    intro h; rw [Policy.verifyAll] at h
    have h1 := simple_policy cert p (hs p (by simp))
    have h2 := ih (fun q hq => hs q (by simp [hq]))
    nz [h1, h2] h

theorem optionalPolicy_simple (o : Option Str) (mk : Str → Policy.Policy) (hm : ∀ s, Simple (mk s)) :
    ∀ p ∈ optionalPolicy o mk, Simple p := by
  intro p hp
  unfold optionalPolicy at hp
  split at hp
  · split at hp
    · simp only [List.mem_singleton] at hp; subst hp; exact hm _
    · simp at hp
  · simp at hp

theorem commandPolicy (cmd : VerifyCommand) (p : Policy.Policy) (hc : cmd.policy = .ok p) (cert : Cert) :
    p.verify cert = .error (.systemExit 0) → False := by
  intro h
  cases cmd with
  | identity i iss =>
    simp only [VerifyCommand.policy, Except.ok.injEq] at hc
    subst hc
    exact simple_policy cert (identityPolicy i (some iss)) trivial h
  | github a =>
    simp only [VerifyCommand.policy, githubPolicy] at hc
    split at hc
    · simp at hc
    · have hc := Except.ok.inj hc
      subst hc
      rw [Policy.Policy.verify] at h
      split at h
      · simp at h
      · refine verifyAll cert _ ?_ h
        intro q hq
        simp only [List.mem_append, List.mem_singleton] at hq
        rcases hq with (((((h1 | h1) | h1) | h1) | h1) | h1) | h1
        · subst h1; trivial
        all_goals exact optionalPolicy_simple _ _ (fun _ => by trivial) q h1

theorem commandPolicyError (cmd : VerifyCommand) : cmd.policy = .error (.systemExit 0) → False := by
  intro h; cases cmd <;> simp only [VerifyCommand.policy, githubPolicy] at h <;> nz [] h

end Sigstore.NoExit
