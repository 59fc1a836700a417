import Verif.Spec.Raises
import Verif.Props.Failures

/-!
# Which exceptions the functions of the verifier raise
-/

namespace Sigstore.Raises

open Sigstore.Trust Sigstore.LogEntry Sigstore.Dsse Sigstore.Sct Sigstore.Props

/-- split all cases of `h`, and use the given facts for propagated errors -/
macro "rz" "[" ls:Lean.Parser.Tactic.SolveByElim.arg,* "]" h:ident : tactic =>
  `(tactic| ((try dsimp only at $h:ident) <;> (repeat' (split at $h:ident)) <;>
      first
        | (simp at $h:ident; done)
        | (solve_by_elim [$ls,*])
        | (rw [Except.error.injEq] at $h:ident; subst $h:ident; solve_by_elim [$ls,*])
        | (rw [Except.error.injEq] at $h:ident; subst $h:ident; decide)))

theorem keyVerify (c : Crypto) (k : Key) (s d : Bytes) :
    Key.verify c k s d = .error x → x = .invalidSignature ∨ x ∈ Spec.commonRaises := by
  intro h; unfold Key.verify at h; rz [] h

theorem tryCandidates (c : Crypto) (s d : Bytes) (ks : List Key) :
    Trust.tryCandidates c s d ks = .error x → x ∈ Spec.commonRaises := by
  induction ks with
  | nil => intro h; simp [Trust.tryCandidates] at h
  | cons k ks ih =>
    intro h; rw [Trust.tryCandidates] at h
    split at h
    · simp at h
    · exact ih h
    · next e hne hk =>
      rw [Except.error.injEq] at h; subst h
      rcases keyVerify c k s d hk with rfl | h
      · exact absurd rfl hne
      · exact h

theorem keyringVerify (c : Crypto) (kr : Keyring) (i s d : Bytes) : kr.verify c i s d = .error x → x ∈ Spec.commonRaises := by
  intro h; unfold Keyring.verify at h; rz [tryCandidates] h

theorem keyringInit (c : Crypto) (ms : List PublicKeyMsg) : Keyring.init c ms = .error x → x ∈ Spec.commonRaises := by
  intro h
  obtain ⟨kr, hk⟩ := C10_keyring_total c ms
  rw [hk] at h; simp at h

theorem rekorKeyring (c : Crypto) (now : Time) (r : TrustedRoot Cert) (p : Purpose) :
    Trust.rekorKeyring c now r p = .error x → x ∈ Spec.commonRaises := by
  intro h; unfold Trust.rekorKeyring at h; dsimp only at h; rz [keyringInit] h

theorem ctKeyring (c : Crypto) (now : Time) (r : TrustedRoot Cert) (p : Purpose) :
    Trust.ctKeyring c now r p = .error x → x ∈ Spec.commonRaises := by
  intro h; unfold Trust.ctKeyring at h; dsimp only at h; rz [keyringInit] h

theorem getSct (cert : Cert) : Sct.getSct cert = .error x → x ∈ Spec.commonRaises := by
  intro h; unfold Sct.getSct at h; rz [] h

theorem getIssuerCert (chain : List Cert) : Sct.getIssuerCert chain = .error x → x ∈ Spec.commonRaises := by
  intro h; unfold Sct.getIssuerCert at h; rz [] h

theorem certIsCa (cert : Cert) : Sigstore.certIsCa cert = .error x → x ∈ Spec.commonRaises := by
  intro h; unfold Sigstore.certIsCa at h; rz [] h

theorem sctCertIsCa (cert : Cert) : Sct.sctCertIsCa cert = .error x → x ∈ Spec.commonRaises := by
  intro h; unfold Sct.sctCertIsCa at h; rz [certIsCa] h

theorem issuerKeyIdFor (c : Crypto) (sct : Sct) (chain : List Cert) :
    Sct.issuerKeyIdFor c sct chain = .error x → x ∈ Spec.commonRaises := by
  intro h; unfold Sct.issuerKeyIdFor at h; rz [getIssuerCert, sctCertIsCa] h

theorem packOpaque24 (der : Bytes) : Sct.packOpaque24 der = .error x → x ∈ Spec.commonRaises := by
  intro h; unfold Sct.packOpaque24 at h; rz [] h

theorem packSignedEntry (sct : Sct) (cert : Cert) (i : Option Bytes) :
    Sct.packSignedEntry sct cert i = .error x → x ∈ Spec.commonRaises := by
  intro h; unfold Sct.packSignedEntry at h; rz [packOpaque24] h

theorem packDigitallySigned (sct : Sct) (cert : Cert) (i : Option Bytes) :
    Sct.packDigitallySigned sct cert i = .error x → x ∈ Spec.commonRaises := by
  intro h; unfold Sct.packDigitallySigned at h; rz [packSignedEntry] h

theorem verifySct (c : Crypto) (cert : Cert) (chain : List Cert) (kr : Keyring) :
    Sct.verifySct c cert chain kr = .error x → x ∈ Spec.commonRaises := by
  intro h; unfold Sct.verifySct at h
  rz [getSct, issuerKeyIdFor, packDigitallySigned, keyringVerify] h

theorem b64Decode (s : Str) : Sigstore.b64Decode s = .error x → x ∈ Spec.commonRaises := by
  intro h; unfold Sigstore.b64Decode at h; rz [] h

theorem logCheckpointFromText (pyInt : Str → Option Int) (t : Str) :
    Checkpoint.LogCheckpoint.fromText pyInt t = .error x → x ∈ Spec.commonRaises := by
  intro h; unfold Checkpoint.LogCheckpoint.fromText at h; rz [b64Decode] h

theorem parseSignature (m : Str × Str) : Checkpoint.parseSignature m = .error x → x ∈ Spec.commonRaises := by
  intro h; unfold Checkpoint.parseSignature at h; rz [b64Decode] h

theorem parseSignatures (ms : List (Str × Str)) : Checkpoint.parseSignatures ms = .error x → x ∈ Spec.commonRaises := by
  induction ms with
  | nil => intro h; simp [Checkpoint.parseSignatures] at h
  | cons m ms ih => intro h; rw [Checkpoint.parseSignatures] at h; rz [ih, parseSignature] h

theorem signedNoteFromText (t : Str) : Checkpoint.SignedNote.fromText t = .error x → x ∈ Spec.commonRaises := by
  intro h; unfold Checkpoint.SignedNote.fromText at h; rz [parseSignatures] h

theorem verifySigs (c : Crypto) (kr : Keyring) (i n : Bytes) (ss : List Checkpoint.RekorSignature) :
    Checkpoint.verifySigs c kr i n ss = .error x → x ∈ Spec.commonRaises := by
  induction ss with
  | nil => intro h; simp only [Checkpoint.verifySigs, Except.error.injEq] at h; subst h; decide
  | cons s ss ih => intro h; rw [Checkpoint.verifySigs] at h; rz [ih, b64Decode, keyringVerify] h

theorem signedCheckpointFromText (pyInt : Str → Option Int) (t : Str) :
    Checkpoint.SignedCheckpoint.fromText pyInt t = .error x → x ∈ Spec.commonRaises := by
  intro h; unfold Checkpoint.SignedCheckpoint.fromText at h; rz [signedNoteFromText, logCheckpointFromText] h

theorem verifyCheckpoint (pyInt : Str → Option Int) (c : Crypto) (kr : Keyring) (i : Bytes)
    (p : Merkle.InclusionProof) : Checkpoint.verifyCheckpoint pyInt c kr i p = .error x → x ∈ Spec.commonRaises := by
  intro h; unfold Checkpoint.verifyCheckpoint Checkpoint.SignedNote.verify at h
  rz [signedCheckpointFromText, verifySigs] h

theorem merkle (H : Bytes → Bytes) (b : Bytes) (p : Merkle.InclusionProof) :
    Merkle.verifyMerkleInclusion H b p = .error x → x ∈ Spec.commonRaises := by
  intro h; rw [Merkle.verify_error H b p _ h]; decide

theorem jsonInt (n : Int) : LogEntry.jsonInt n = .error x → x ∈ Spec.commonRaises := by
  intro h; unfold LogEntry.jsonInt at h; rz [] h

theorem encodeCanonical (e : LogEntry) : e.encodeCanonical = .error x → x ∈ Spec.commonRaises := by
  intro h; unfold LogEntry.encodeCanonical at h; rz [jsonInt] h

theorem verifySet (c : Crypto) (kr : Keyring) (e : LogEntry) : e.verifySet c kr = .error x → x ∈ Spec.commonRaises := by
  intro h; unfold LogEntry.verifySet at h; rz [encodeCanonical, keyringVerify] h

theorem entryVerify (pyInt : Str → Option Int) (c : Crypto) (kr : Keyring) (e : LogEntry) :
    e.verify pyInt c kr = .error x → x ∈ Spec.commonRaises := by
  intro h; unfold LogEntry.verify at h; rz [merkle, verifyCheckpoint, verifySet] h

theorem envelopeInit (e : EnvelopeMsg) : Dsse.envelopeInit e = .error x → x ∈ Spec.commonRaises := by
  intro h; unfold Dsse.envelopeInit at h; rz [] h

theorem decodeTsrs (env : Env) (bs : List Bytes) : Sigstore.decodeTsrs env bs = .error x → x ∈ Spec.commonRaises := by
  induction bs with
  | nil => intro h; simp [Sigstore.decodeTsrs] at h
  | cons b bs ih => intro h; rw [Sigstore.decodeTsrs] at h; rz [ih] h

theorem timestampData (env : Env) (m : BundleMsg) : Sigstore.timestampData env m = .error x → x ∈ Spec.commonRaises := by
  intro h; unfold Sigstore.timestampData at h; exact decodeTsrs _ _ h

theorem bundleSignature (b : Bundle) : b.signature = .error x → x ∈ Spec.commonRaises := by
  intro h; unfold Bundle.signature at h; rz [envelopeInit] h

theorem verifySignedTimestamp (env : Env) (now : Time) (t : Tsr) (m : Bytes) (cas : List (CertificateAuthority Cert)) :
    Sigstore.verifySignedTimestamp env now t m cas = .error x → x ∈ Spec.commonRaises := by
  induction cas with
  | nil => intro h; simp [Sigstore.verifySignedTimestamp] at h
  | cons ca cas ih => intro h; rw [Sigstore.verifySignedTimestamp.eq_def] at h; rz [ih] h

theorem verifyTimestamps (env : Env) (now : Time) (cas : List (CertificateAuthority Cert)) (b : Bundle) (ts : List Tsr) :
    Sigstore.verifyTimestamps env now cas b.signature ts = .error x → x ∈ Spec.commonRaises := by
  induction ts with
  | nil => intro h; simp [Sigstore.verifyTimestamps] at h
  | cons t ts ih => intro h; rw [Sigstore.verifyTimestamps.eq_def] at h; rz [ih, verifySignedTimestamp, bundleSignature] h

theorem verifyTimestampAuthority (env : Env) (now : Time) (cas : List (CertificateAuthority Cert)) (b : Bundle)
    (ts : List Tsr) : Sigstore.verifyTimestampAuthority env now cas b ts = .error x → x ∈ Spec.commonRaises := by
  intro h; unfold Sigstore.verifyTimestampAuthority at h; rz [verifyTimestamps] h

theorem fromTimestamp (t : Int) : Sigstore.fromTimestamp t = .error x → x ∈ Spec.commonRaises := by
  intro h; unfold Sigstore.fromTimestamp at h; rz [] h

theorem logTime (e : LogEntry) : Sigstore.logTime e = .error x → x ∈ Spec.commonRaises := by
  intro h; unfold Sigstore.logTime at h; rz [fromTimestamp] h

theorem caInit (ca : CertificateAuthority Cert) : ca.init = .error x → x ∈ Spec.commonRaises := by
  intro h; unfold CertificateAuthority.init at h; rz [] h

theorem mapM_init (cas : List (CertificateAuthority Cert)) :
    cas.mapM CertificateAuthority.init = .error x → x ∈ Spec.commonRaises := by
  induction cas with
  | nil => intro h; simp [pure, Except.pure] at h
  | cons a as ih =>
    intro h
    rw [List.mapM_cons] at h
    cases ha : a.init with
    | error e =>
      rw [ha] at h
      simp only [bind, Except.bind, Except.error.injEq] at h
      subst h; exact caInit a ha
    | ok c =>
      rw [ha] at h
      cases hr : as.mapM CertificateAuthority.init with
      | error e =>
        rw [hr] at h
        simp only [bind, Except.bind, Except.error.injEq] at h
        subst h; exact ih hr
      | ok l => rw [hr] at h; simp [bind, Except.bind, pure, Except.pure] at h

theorem tsaTimes (env : Env) (now : Time) (v : Verifier) (b : Bundle) :
    Sigstore.tsaTimes env now v b = .error x → x ∈ Spec.commonRaises := by
  intro h; unfold Sigstore.tsaTimes getTimestampAuthorities at h
  rz [timestampData, verifyTimestampAuthority, mapM_init] h

theorem establishTime (env : Env) (now : Time) (v : Verifier) (b : Bundle) :
    Sigstore.establishTime env now v b = .error x → x ∈ Spec.commonRaises := by
  intro h; unfold Sigstore.establishTime at h; rz [tsaTimes, logTime] h

theorem verifyChains (env : Env) (store : List Cert) (cert : Cert) (ts : List VerifiedTime) :
    ∀ chain, Sigstore.verifyChains env store cert chain ts = .error x → x ∈ Spec.commonRaises := by
  induction ts with
  | nil => intro chain h; simp [Sigstore.verifyChains] at h
  | cons t ts ih => intro chain h; rw [Sigstore.verifyChains] at h; rz [ih] h

theorem checkSct (env : Env) (now : Time) (v : Verifier) (cert : Cert) (chain : List Cert) :
    Sigstore.checkSct env now v cert chain = .error x → x ∈ Spec.commonRaises := by
  intro h; unfold Sigstore.checkSct at h; rz [ctKeyring, verifySct] h

theorem checkUsage (cert : Cert) : Sigstore.checkUsage cert = .error x → x ∈ Spec.commonRaises := by
  intro h; unfold Sigstore.checkUsage at h; rz [] h

theorem checkEntry (env : Env) (now : Time) (v : Verifier) (e : LogEntry) :
    Sigstore.checkEntry env now v e = .error x → x ∈ Spec.commonRaises := by
  intro h; unfold Sigstore.checkEntry at h; rz [rekorKeyring, entryVerify] h

theorem checkWindow (cert : Cert) (ts : List VerifiedTime) :
    Sigstore.checkWindow cert ts = .error x → x ∈ Spec.commonRaises := by
  induction ts with
  | nil => intro h; simp [Sigstore.checkWindow] at h
  | cons t ts ih => intro h; rw [Sigstore.checkWindow] at h; rz [ih] h

theorem verifyCommon (env : Env) (now : Time) (v : Verifier) (b : Bundle) (policy : Cert → Py Unit)
    (hp : policy b.cert = .error x → x ∈ Spec.commonRaises) :
    Sigstore.verifyCommon env now v b policy = .error x → x ∈ Spec.commonRaises := by
  intro h; unfold Sigstore.verifyCommon at h
  rz [establishTime, verifyChains, checkSct, checkUsage, checkEntry, checkWindow, hp] h

theorem verifyPrehashed (c : Crypto) (k : PubKey) (s : Bytes) (hd : Hashed) :
    Sigstore.verifyPrehashed c k s hd = .error x → x ∈ Spec.verifyRaises := by
  intro h; unfold Sigstore.verifyPrehashed at h; rz [] h

theorem getKeyDetails (cert : Cert) : Sigstore.getKeyDetails cert = .error x → x ∈ Spec.verifyRaises := by
  intro h; unfold Sigstore.getKeyDetails at h; rz [] h

theorem v2Verifier (cert : Cert) : Sigstore.v2Verifier cert = .error x → x ∈ Spec.verifyRaises := by
  intro h; unfold Sigstore.v2Verifier at h; rz [getKeyDetails] h

theorem hashedrekordFromParts (cert : Cert) (s : Bytes) (hd : Hashed) :
    Sigstore.hashedrekordFromParts cert s hd = .error x → x ∈ Spec.verifyRaises := by
  intro h; unfold Sigstore.hashedrekordFromParts at h; rz [] h

theorem validateHashedrekordV001 (env : Env) (cert : Cert) (e : LogEntry) (s : Bytes) (hd : Hashed) :
    Sigstore.validateHashedrekordV001 env cert e s hd = .error x → x ∈ Spec.verifyRaises := by
  intro h; unfold Sigstore.validateHashedrekordV001 at h; rz [hashedrekordFromParts] h

theorem validateHashedrekordV002 (env : Env) (cert : Cert) (e : LogEntry) (s : Bytes) (hd : Hashed) :
    Sigstore.validateHashedrekordV002 env cert e s hd = .error x → x ∈ Spec.verifyRaises := by
  intro h; unfold Sigstore.validateHashedrekordV002 at h; rz [v2Verifier] h

theorem validateDsseV001 (env : Env) (cert : Cert) (e : LogEntry) (m : EnvelopeMsg) :
    Sigstore.validateDsseV001 env cert e m = .error x → x ∈ Spec.verifyRaises := by
  intro h; unfold Sigstore.validateDsseV001 at h; rz [] h

theorem getAlgorithmDetails (kd : KeyDetails) : Sigstore.getAlgorithmDetails kd = .error x → x ∈ Spec.verifyRaises := by
  intro h; unfold Sigstore.getAlgorithmDetails at h; rz [] h

theorem getPrehash (kd : KeyDetails) : Sigstore.getPrehash kd = .error x → x ∈ Spec.verifyRaises := by
  intro h; unfold Sigstore.getPrehash at h; rz [getAlgorithmDetails] h

theorem validateHashedrekordV002Dsse (env : Env) (cert : Cert) (e : LogEntry) (m : EnvelopeMsg) :
    Sigstore.validateHashedrekordV002Dsse env cert e m = .error x → x ∈ Spec.verifyRaises := by
  intro h; unfold Sigstore.validateHashedrekordV002Dsse at h; rz [v2Verifier, getPrehash] h

theorem checkArtifact (env : Env) (b : Bundle) (i : HashInput) :
    Sigstore.checkArtifact env b i = .error x → x ∈ Spec.verifyRaises := by
  intro h; unfold Sigstore.checkArtifact at h
  rz [verifyPrehashed, validateHashedrekordV001, validateHashedrekordV002] h

theorem ecVerify (c : Crypto) (k : PubKey) (s d : Bytes) :
    Dsse.ecVerify c k s d = .error x → x = .invalidSignature ∨ x ∈ Spec.verifyRaises := by
  intro h; unfold Dsse.ecVerify at h; rz [] h

theorem dsseVerify (c : Crypto) (k : PubKey) (m : EnvelopeMsg) :
    Dsse.dsseVerify c k m = .error x → x ∈ Spec.verifyRaises := by
  intro h; unfold Dsse.dsseVerify at h
  split at h
  · split at h
    · simp at h
    · rw [Except.error.injEq] at h; subst h; decide
    · next hne hk =>
      rw [Except.error.injEq] at h; subst h
      rcases ecVerify _ _ _ _ hk with rfl | h
      · exact absurd rfl hne
      · exact h
  · rw [Except.error.injEq] at h; subst h; decide

theorem common_subset (h : x ∈ Spec.commonRaises) : x ∈ Spec.verifyRaises := List.mem_append_left _ h

theorem checkDsse (env : Env) (b : Bundle) : Sigstore.checkDsse env b = .error x → x ∈ Spec.verifyRaises := by
  intro h; unfold Sigstore.checkDsse at h
  split at h
  · rw [Except.error.injEq] at h; subst h; decide
  · split at h
    · next e y hx =>
      rw [Except.error.injEq] at h; subst h; exact common_subset (envelopeInit _ hx)
    · split at h
      · next e y hx =>
        rw [Except.error.injEq] at h; subst h; exact dsseVerify _ _ _ hx
      · dsimp only at h
        split at h
        · next e y hx =>
          rw [Except.error.injEq] at h; subst h
          rz [validateHashedrekordV002Dsse, validateDsseV001] hx
        · simp at h

/-! ## Policies -/

theorem verifyExt (cls : Policy.ExtClass) (s : Str) (cert : Cert) :
    Policy.verifyExt cls s cert = .error x → x ∈ Spec.policyRaises := by
  intro h; unfold Policy.verifyExt at h; rz [] h

theorem otherNames (l : List GeneralName) : Policy.otherNames l = .error x → x ∈ Spec.policyRaises := by
  induction l with
  | nil => intro h; simp [Policy.otherNames] at h
  | cons g l ih => intro h; cases g <;> rw [Policy.otherNames.eq_def] at h <;> rz [ih] h

theorem verifyIssuer (iss : Option Str) (cert : Cert) :
    Policy.verifyIssuer iss cert = .error x → x ∈ Spec.policyRaises := by
  intro h; unfold Policy.verifyIssuer at h; rz [verifyExt] h

theorem verifyIdentity (i : Str) (iss : Option Str) (cert : Cert) :
    Policy.verifyIdentity i iss cert = .error x → x ∈ Spec.policyRaises := by
  intro h; unfold Policy.verifyIdentity at h; rz [verifyIssuer, otherNames] h

end Sigstore.Raises
