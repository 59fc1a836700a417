import Verif.Props.VerificationExamples

/-!
# C19: which exceptions verification raises

The full claim is false of the code: many malformed inputs raise something else than `VerificationError`.  The
witnesses below change one thing in the accepted example.  The partial theorems give conditions on the inputs
under which only `VerificationError` (or its subclass `CertValidationError`) is raised.
-/

namespace Sigstore.Props

open Sigstore.Trust Sigstore.LogEntry Sigstore.Dsse Sigstore.Sct Sigstore.Spec Sigstore.Merkle Sigstore.Checkpoint

/-! ## Witnesses -/

/-- **C19** (refuted) `verify_artifact` can fail with something else than `VerificationError`. -/
theorem C19_artifact_leaks :
    ¬ ∀ (env : Env) (now : Time) (v : Verifier) (input : HashInput) (b : Bundle) (policy : Cert → Py Unit),
      (∀ c, (policy c).Clean) → (verifyArtifact env now v input b policy).Clean := by
  intro h
  -- the caller passes a digest made with another algorithm
  have h1 := h exVEnv 3000000000 exVerifier (.hashed ⟨.sha2_512, exArtifact⟩) exBundle (fun _ => .ok ())
    (by intro c e he; simp at he) .error (by
      unfold verifyArtifact
      rw [exCommon exBundle _ _ rfl rfl (by decide)]
      decide)
  revert h1; decide

/-- **C19** (refuted) `verify_dsse` can fail with something else than `VerificationError`. -/
theorem C19_dsse_leaks :
    ¬ ∀ (env : Env) (now : Time) (v : Verifier) (b : Bundle) (policy : Cert → Py Unit),
      (∀ c, (policy c).Clean) → (verifyDsse env now v b policy).Clean := by
  intro h
  -- the envelope has two signatures
  have h1 := h exVEnv 3000000000 exVerifier
    { exDsseBundle with inner := { exDsseBundle.inner with dsseEnvelope := some ⟨exArtifact, "t".toList, [[1], [2]]⟩ } }
    (fun _ => .ok ()) (by intro c e he; simp at he) .invalidEnvelope (by decide)
  revert h1; decide

/-- **C19** More ways to fail with another exception, each from the accepted example by one change: a log time
beyond year 9999, a trusted root without CT logs, a body that is not the JSON of a `hashedrekord`, an RSA key,
a precomputed digest of the wrong length, a digest made with another algorithm, and certificates without KeyUsage or
ExtendedKeyUsage. -/
theorem C19_more_leaks :
    verifyArtifact exVEnv 3000000000 exVerifier (.bytes exArtifact)
        { exBundle with entry := { exBundle.entry with integratedTime := some 253402300800 } } (fun _ => .ok ()) =
      .error .valueError ∧
    verifyArtifact exVEnv 3000000000 ⟨{ exRoot with ctlogs := [] }, [exIssuer]⟩ (.bytes exArtifact) exBundle
        (fun _ => .ok ()) = .error .metadata ∧
    verifyArtifact exVEnv 3000000000 exVerifier (.hashed ⟨.sha2_512, exArtifact⟩) exBundle (fun _ => .ok ()) =
      .error .error ∧
    checkArtifact { exVEnv with parseHashedrekord := fun _ => none } exBundle (.bytes exArtifact) = .error .pydantic ∧
    checkArtifact exVEnv { exBundle with cert := { exSigner with pubKey := ⟨.rsa 2048, [2, 30]⟩ } } (.bytes exArtifact) =
      .error .typeError ∧
    checkArtifact exVEnv { exBundle with inner := { exBundle.inner with messageSignature := some ⟨none, []⟩ } }
      (.hashed ⟨.sha2_256, [1]⟩) = .error .valueError ∧
    checkUsage { exSigner with eku := none } = .error .extensionNotFound ∧
    checkUsage { exSigner with keyUsage := none } = .error .extensionNotFound := by
  refine ⟨by decide, by decide, ?_, by decide, by decide, by decide, by decide, by decide⟩
  unfold verifyArtifact
  rw [exCommon exBundle _ _ rfl rfl (by decide)]
  decide

/-! ## Conditions under which nothing else is raised -/

theorem clean_ok {α : Type} (a : α) : Py.Clean (.ok a : Py α) := by intro e h; simp at h

theorem clean_error {α : Type} {e : Exc} (h : e.isVerificationError = true) : Py.Clean (.error e : Py α) := by
  intro e' h'; simp at h'; subst h'; exact h

theorem clean_verification {α : Type} : Py.Clean (.error .verification : Py α) := clean_error rfl

theorem keyring_clean (c : Crypto) (ms : List PublicKeyMsg) (kr : Keyring) (h : Keyring.init c ms = .ok kr)
    (id sig data : Bytes) : (kr.verify c id sig data).Clean := by
  intro e he
  rw [C10_failure_is_verification_error c ms kr h id sig data e he]; rfl

/-- conditions on the certificate and its chain -/
structure SctBenign (cert : Cert) (chain : List Cert) : Prop where
  issuer : ∃ i, IssuerIn chain i
  der : cert.der.length < 2 ^ 32
  tbs : cert.tbsPrecert.length < 2 ^ 32
  times : ∀ sct, cert.scts = some [sct] → sct.timestamp ≤ lastMillisecond
  exts : ∀ sct, cert.scts = some [sct] → sct.extensionBytes.length < 2 ^ 16

theorem packOpaque24_clean (der : Bytes) (h : der.length < 2 ^ 32) : (packOpaque24 der).Clean := by
  unfold packOpaque24
  rw [if_neg (by omega)]
  split
  · split
    · exact clean_verification
    · exact clean_ok _
  · rename_i hx
    exact absurd (show beBytes 4 der.length = [_, _, _, _] from rfl) (hx _ _ _ _)

theorem verifySct_clean (c : Crypto) (cert : Cert) (chain : List Cert) (ms : List PublicKeyMsg) (kr : Keyring)
    (hkr : Keyring.init c ms = .ok kr) (h : SctBenign cert chain) : (verifySct c cert chain kr).Clean := by
  unfold verifySct
  cases hs : getSct cert with
  | error e =>
    unfold getSct at hs
    split at hs <;> simp at hs <;> subst hs <;> exact clean_verification
  | ok sct =>
    have hsct : cert.scts = some [sct] := by
      unfold getSct at hs
      split at hs
      · simp at hs
      · rename_i s hc; rw [Except.ok.injEq] at hs; rw [hc, hs]
      · simp at hs
    dsimp only
    have hik : (issuerKeyIdFor c sct chain).Clean := by
      unfold issuerKeyIdFor
      split
      · exact clean_ok _
      · obtain ⟨i, hi⟩ := h.issuer
        rw [(getIssuerCert_iff _ _).2 hi]
        dsimp only
        unfold sctCertIsCa
        cases hca : certIsCa i with
        | ok b =>
          dsimp only
          split
          · exact clean_ok _
          · exact clean_verification
        | error e =>
          rw [((C30_ca_error_iff _ _).1 hca).1]
          exact clean_verification
    cases hk : issuerKeyIdFor c sct chain with
    | error e => exact clean_error (hik e hk)
    | ok ik =>
      dsimp only
      have hp : (packDigitallySigned sct cert ik).Clean := by
        unfold packDigitallySigned
        have he : (packSignedEntry sct cert ik).Clean := by
          unfold packSignedEntry
          split
          · exact packOpaque24_clean _ h.der
          · split
            · exact clean_verification
            · split
              · exact clean_verification
              · have := packOpaque24_clean _ h.tbs
                cases ho : packOpaque24 cert.tbsPrecert with
                | error e => exact clean_error (this e ho)
                | ok b => exact clean_ok _
        cases hpe : packSignedEntry sct cert ik with
        | error e => exact clean_error (he e hpe)
        | ok b =>
          dsimp only
          rw [if_neg (by have := h.times sct hsct; rw [maxDatetimeMillis_eq]; omega), if_neg (by have := h.exts sct hsct; omega)]
          exact clean_ok _
      cases hpk : packDigitallySigned sct cert ik with
      | error e => exact clean_error (hp e hpk)
      | ok data =>
        dsimp only
        split
        · exact clean_verification
        · have := keyring_clean c ms kr hkr sct.logId sct.signature data
          cases hv : kr.verify c sct.logId sct.signature data with
          | ok u => exact clean_ok _
          | error e => dsimp only; rw [if_pos (this e hv)]; exact clean_verification

/-- conditions on the log entry: its proof exists, the checkpoint's lines are ASCII and its signatures base64, and
the numbers covered by the promise fit into JSON -/
structure EntryBenign (e : LogEntry) : Prop where
  proof : e.proof ≠ none
  sigs : ∀ p env note data, e.proof = some p → p.checkpoint = some env → SplitsAt env note data →
    ∀ name b64, SigLineIn data name b64 → ∃ bs, b64Decode b64 = .ok bs
  ascii : ∀ p env note data, e.proof = some p → p.checkpoint = some env → SplitsAt env note data →
    ∀ l ∈ splitLines (strip note), ∀ ch ∈ l, ch.toNat < 128
  index : JsonSafe e.logIndex
  time : ∀ t, e.integratedTime = some t → JsonSafe t ∧ -62135596800 ≤ t ∧ t ≤ 253402300799

theorem entry_clean (pyInt : Str → Option Int) (c : Crypto) (ms : List PublicKeyMsg) (kr : Keyring)
    (hkr : Keyring.init c ms = .ok kr) (e : LogEntry) (h : EntryBenign e) : (e.verify pyInt c kr).Clean := by
  unfold LogEntry.verify
  cases hp : e.proof with
  | none => exact absurd hp h.proof
  | some p =>
    dsimp only
    cases hm : verifyMerkleInclusion c.sha256 e.body p with
    | error x => rw [verify_error _ _ _ _ hm]; exact clean_verification
    | ok u =>
      dsimp only
      have hck := C06_clean_partial pyInt c ms kr hkr e.logId p (fun env note data he => h.sigs p env note data hp he)
        (fun env note data he => h.ascii p env note data hp he)
      cases hv : verifyCheckpoint pyInt c kr e.logId p with
      | error x => exact clean_error (hck x hv)
      | ok u =>
        dsimp only
        split
        · rename_i hu
          unfold LogEntry.hasUsableSet at hu
          unfold LogEntry.verifySet
          cases hpr : e.promise with
          | none => exact clean_verification
          | some set =>
            dsimp only
            cases ht : e.integratedTime with
            | none => rw [ht] at hu; simp at hu
            | some t =>
              rw [(C08_set_payload_iff e _).2 ⟨t, ht, (h.time t ht).1, h.index, rfl⟩]
              dsimp only
              split
              · exact clean_ok _
              · rename_i x hx
                rw [if_pos (keyring_clean c ms kr hkr _ _ _ x hx)]; exact clean_verification
        · exact clean_ok _

/-- conditions on everything that artifact and attestation verification have in common -/
structure CommonBenign (env : Env) (now : Time) (v : Verifier) (b : Bundle) (policy : Cert → Py Unit) : Prop where
  windows : ∀ ca ∈ v.root.timestampAuthorities, ca.validFor ≠ none
  authorities : ∀ ca ∈ v.root.timestampAuthorities, ca.certificates ≠ []
  signature : ∃ sig, SignatureOf b.inner sig
  ctlogs : startedKeys now v.root.ctlogs ≠ []
  tlogs : startedKeys now v.root.tlogs ≠ []
  sct : ∀ t chain, env.buildChain v.fulcioCerts t b.cert = some chain → SctBenign b.cert chain
  keyUsage : b.cert.keyUsage ≠ none
  eku : b.cert.eku ≠ none
  policy : (policy b.cert).Clean
  entry : EntryBenign b.entry

theorem verifyTimestamps_clean (env : Env) (now : Time) (cas : List (CertificateAuthority Cert)) (sig : Bytes)
    (hw : ∀ ca ∈ cas, ca.validFor ≠ none) : ∀ tsrs, (verifyTimestamps env now cas (.ok sig) tsrs).Clean := by
  intro tsrs
  induction tsrs with
  | nil => exact clean_ok _
  | cons t ts ih =>
    unfold verifyTimestamps
    dsimp only
    by_cases hv : ∃ ca ∈ cas, Vouches env now sig t ca
    · rw [(C16_timestamp_iff env now t sig cas hw).1 hv]
      dsimp only
      cases hr : verifyTimestamps env now cas (.ok sig) ts with
      | error e => exact clean_error (ih e hr)
      | ok l => exact clean_ok _
    · rw [(C16_timestamp_iff env now t sig cas hw).2 fun ca hca hvo => hv ⟨ca, hca, hvo⟩]
      dsimp only
      cases hr : verifyTimestamps env now cas (.ok sig) ts with
      | error e => exact clean_error (ih e hr)
      | ok l => exact clean_ok _

theorem establishTime_clean (env : Env) (now : Time) (v : Verifier) (b : Bundle)
    (hw : ∀ ca ∈ v.root.timestampAuthorities, ca.validFor ≠ none)
    (hc : ∀ ca ∈ v.root.timestampAuthorities, ca.certificates ≠ []) (hsig : ∃ sig, SignatureOf b.inner sig)
    (he : ∀ t, b.entry.integratedTime = some t → -62135596800 ≤ t ∧ t ≤ 253402300799) :
    (establishTime env now v b).Clean := by
  have h1 : (tsaTimes env now v b).Clean := by
    unfold tsaTimes timestampData
    cases hd : decodeTsrs env b.inner.timestamps with
    | error e => rw [decodeTsrs_error hd]; exact clean_verification
    | ok tsrs =>
      cases tsrs with
      | nil => exact clean_ok _
      | cons t ts =>
        dsimp only
        rcases getTimestampAuthorities_eq v.root with ⟨_, hg⟩ | ⟨⟨ca, hca, hce⟩, hg⟩
        · rw [hg]
          cases hcas : v.root.timestampAuthorities with
          | nil => exact clean_verification
          | cons ca cas =>
            dsimp only
            unfold verifyTimestampAuthority
            split
            · exact clean_verification
            · split
              · exact clean_verification
              · obtain ⟨sig, hs⟩ := hsig
                rw [(signature_ok_iff b sig).2 hs, ← hcas]
                exact verifyTimestamps_clean env now _ sig hw _
        · exact absurd hce (hc ca hca)
  have h2 : (logTime b.entry).Clean := by
    unfold logTime
    cases ht : b.entry.integratedTime with
    | none => exact clean_ok _
    | some t =>
      dsimp only
      split
      · split
        · unfold fromTimestamp
          rw [if_pos (he t ht)]
          exact clean_ok _
        · exact clean_verification
      · exact clean_ok _
  unfold establishTime
  cases ht : tsaTimes env now v b with
  | error e => exact clean_error (h1 e ht)
  | ok l1 =>
    dsimp only
    cases hl : logTime b.entry with
    | error e => exact clean_error (h2 e hl)
    | ok l2 => exact clean_ok _

theorem verifyCommon_clean (env : Env) (now : Time) (v : Verifier) (b : Bundle) (policy : Cert → Py Unit)
    (h : CommonBenign env now v b policy) : (verifyCommon env now v b policy).Clean := by
  unfold verifyCommon
  have h1 := establishTime_clean env now v b h.windows h.authorities h.signature fun t ht => (h.entry.time t ht).2
  cases ht : establishTime env now v b with
  | error e => exact clean_error (h1 e ht)
  | ok times =>
    dsimp only
    split
    · exact clean_verification
    · rename_i hn
      have hch : ∀ l chain0, (verifyChains env v.fulcioCerts b.cert chain0 l).Clean := by
        intro l
        induction l with
        | nil => intro _; exact clean_ok _
        | cons x xs ih =>
          intro chain0
          unfold verifyChains
          split
          · exact clean_error rfl
          · exact ih _
      cases hc : verifyChains env v.fulcioCerts b.cert [] times with
      | error e => exact clean_error (hch _ _ e hc)
      | ok chain =>
        dsimp only
        have hben : SctBenign b.cert chain := by
          rcases (verifyChains_ok_iff env v.fulcioCerts b.cert times [] chain).1 hc with ⟨rfl, _⟩ | ⟨_, t, _, hb⟩
          · simp [verifiedTimeThreshold] at hn
          · exact h.sct t chain hb
        have hs : (checkSct env now v b.cert chain).Clean := by
          unfold checkSct ctKeyring
          rw [getTlogKeys_verify]
          obtain ⟨kr, hkr⟩ := C10_keyring_total env.crypto (startedKeys now v.root.ctlogs)
          have hne : (startedKeys now v.root.ctlogs).isEmpty = false := by
            cases hk : startedKeys now v.root.ctlogs with
            | nil => exact absurd hk h.ctlogs
            | cons => rfl
          simp only [hne, Bool.false_eq_true, if_false, hkr]
          have := verifySct_clean env.crypto b.cert chain _ kr hkr hben
          cases hv : verifySct env.crypto b.cert chain kr with
          | error e => dsimp only; rw [if_pos (this e hv)]; exact clean_verification
          | ok u => exact clean_ok _
        cases hsc : checkSct env now v b.cert chain with
        | error e => exact clean_error (hs e hsc)
        | ok u =>
          dsimp only
          have hu : (checkUsage b.cert).Clean := by
            unfold checkUsage
            cases hku : b.cert.keyUsage with
            | none => exact absurd hku h.keyUsage
            | some ku =>
              dsimp only
              split
              · exact clean_verification
              · cases hek : b.cert.eku with
                | none => exact absurd hek h.eku
                | some l =>
                  dsimp only
                  split
                  · exact clean_ok _
                  · exact clean_verification
          cases huc : checkUsage b.cert with
          | error e => exact clean_error (hu e huc)
          | ok u =>
            dsimp only
            cases hpc : policy b.cert with
            | error e => exact clean_error (h.policy e hpc)
            | ok u =>
              dsimp only
              have hent : (checkEntry env now v b.entry).Clean := by
                unfold checkEntry rekorKeyring
                rw [getTlogKeys_verify]
                obtain ⟨kr, hkr⟩ := C10_keyring_total env.crypto (startedKeys now v.root.tlogs)
                dsimp only
                rw [if_neg (by rw [List.length_eq_zero_iff]; exact h.tlogs), hkr]
                dsimp only
                have := entry_clean env.pyInt env.crypto _ kr hkr b.entry h.entry
                cases hv : b.entry.verify env.pyInt env.crypto kr with
                | error e => dsimp only; rw [if_pos (this e hv)]; exact clean_verification
                | ok u => exact clean_ok _
              cases hec : checkEntry env now v b.entry with
              | error e => exact clean_error (hent e hec)
              | ok u =>
                dsimp only
                generalize times = l
                induction l with
                | nil => exact clean_ok _
                | cons x xs ih =>
                  unfold checkWindow
                  split
                  · exact ih
                  · exact clean_verification

/-- the certificate's key is on one of the supported curves -/
def SupportedCurve (k : PubKey) : Prop := k.kind = .ec .p256 ∨ k.kind = .ec .p384 ∨ k.kind = .ec .p521

theorem v2Verifier_supported {cert : Cert} (h : SupportedCurve cert.pubKey) :
    ∃ kd x, v2Verifier cert = .ok (.x509 cert.der, kd) ∧ getPrehash kd = .ok x := by
  rcases h with h | h | h
  · exact ⟨_, _, (v2Verifier_ok_iff h (.x509 cert.der, .pkixEcdsaP256Sha256)).2 ⟨rfl, _, by rw [h]; exact .p256⟩, rfl⟩
  · exact ⟨_, _, (v2Verifier_ok_iff h (.x509 cert.der, .pkixEcdsaP384Sha384)).2 ⟨rfl, _, by rw [h]; exact .p384⟩, rfl⟩
  · exact ⟨_, _, (v2Verifier_ok_iff h (.x509 cert.der, .pkixEcdsaP521Sha512)).2 ⟨rfl, _, by rw [h]; exact .p521⟩, rfl⟩

/-- **C19** (what does hold) `verify_artifact` only fails with `VerificationError` if the certificate has a key on
a NIST curve, a KeyUsage and an ExtendedKeyUsage; the input is or has a 32-byte SHA-256 digest; the log entry's
body parses; and the conditions of `CommonBenign` hold.
Missing: each of these conditions can be violated by an untrusted bundle, see `C19_more_leaks`. -/
theorem C19_artifact_clean_partial (env : Env) (now : Time) (v : Verifier) (input : HashInput) (b : Bundle)
    (policy : Cert → Py Unit) (h : CommonBenign env now v b policy) (hk : SupportedCurve b.cert.pubKey)
    (halg : (sha256Digest env.crypto input).algorithm = .sha2_256)
    (hlen : (sha256Digest env.crypto input).digest.length = 32)
    (hb1 : b.entry.version = "0.0.1".toList → env.parseHashedrekord b.entry.body ≠ none)
    (hb2 : b.entry.version = "0.0.2".toList → env.parseV2 b.entry.body ≠ none) :
    (verifyArtifact env now v input b policy).Clean := by
  have hc := verifyCommon_clean env now v b policy h
  unfold verifyArtifact
  cases hv : verifyCommon env now v b policy with
  | error e => exact clean_error (hc e hv)
  | ok u =>
    dsimp only
    unfold checkArtifact
    generalize sha256Digest env.crypto input = d at *
    dsimp only
    cases hm : b.inner.messageSignature with
    | none => exact clean_verification
    | some ms =>
      dsimp only
      split
      · exact clean_verification
      · have hp : (verifyPrehashed env.crypto b.cert.pubKey ms.signature d).Clean := by
          unfold verifyPrehashed
          rcases hk with hk | hk | hk <;> rw [hk] <;> dsimp only <;> rw [if_pos halg, if_pos hlen] <;> split <;>
            first | exact clean_ok _ | exact clean_verification
        cases hpe : verifyPrehashed env.crypto b.cert.pubKey ms.signature d with
        | error e => exact clean_error (hp e hpe)
        | ok u =>
          dsimp only
          split
          · exact clean_verification
          · split
            · rename_i h2
              unfold validateHashedrekordV002
              obtain ⟨kd, _, hvv, _⟩ := v2Verifier_supported hk
              rw [hvv]
              dsimp only
              cases hpb : env.parseV2 b.entry.body with
              | none => exact absurd hpb (hb2 h2)
              | some a => dsimp only; split <;> first | exact clean_ok _ | exact clean_verification
            · split
              · rename_i h1
                unfold validateHashedrekordV001 hashedrekordFromParts
                rw [if_pos halg]
                dsimp only
                cases hpb : env.parseHashedrekord b.entry.body with
                | none => exact absurd hpb (hb1 h1)
                | some a => dsimp only; split <;> first | exact clean_ok _ | exact clean_verification
              · exact clean_verification

/-- **C19** (what does hold) The same for `verify_dsse`, for an envelope with exactly one non-empty signature and a
log body that parses and has a payload hash. -/
theorem C19_dsse_clean_partial (env : Env) (now : Time) (v : Verifier) (b : Bundle)
    (policy : Cert → Py Unit) (h : CommonBenign env now v b policy) (hk : SupportedCurve b.cert.pubKey)
    (hone : ∀ e, b.inner.dsseEnvelope = some e → ∃ sig, e.signatures = [sig] ∧ sig ≠ [])
    (hb1 : ∀ body, env.parseDsse b.entry.body = some body → body.payloadHash ≠ none)
    (hb2 : b.entry.version = "0.0.2".toList → env.parseV2 b.entry.body ≠ none) :
    (verifyDsse env now v b policy).Clean := by
  have hc := verifyCommon_clean env now v b policy h
  unfold verifyDsse
  cases hv : verifyCommon env now v b policy with
  | error e => exact clean_error (hc e hv)
  | ok u =>
    dsimp only
    unfold checkDsse
    cases hm : b.inner.dsseEnvelope with
    | none => exact clean_verification
    | some e =>
      dsimp only
      obtain ⟨sig, hs, hne⟩ := hone e hm
      rw [((C34_envelope_iff e).1 sig).2 ⟨hs, hne⟩]
      dsimp only
      have hd : (dsseVerify env.crypto b.cert.pubKey e).Clean := by
        unfold dsseVerify
        rw [hs]
        dsimp only
        have hec : ecVerify env.crypto b.cert.pubKey sig (Dsse.pae e.payloadType e.payload) = .ok () ∨
            ecVerify env.crypto b.cert.pubKey sig (Dsse.pae e.payloadType e.payload) = .error .invalidSignature := by
          unfold ecVerify
          rcases hk with hk | hk | hk <;> rw [hk] <;> dsimp only <;> split <;> simp
        rcases hec with hec | hec <;> rw [hec]
        · exact clean_ok _
        · exact clean_verification
      cases hde : dsseVerify env.crypto b.cert.pubKey e with
      | error x => exact clean_error (hd x hde)
      | ok p =>
        dsimp only
        by_cases h2 : b.entry.kind = "hashedrekord".toList ∧ b.entry.version = "0.0.2".toList
        · rw [if_pos h2]
          unfold validateHashedrekordV002Dsse
          rw [hs]
          obtain ⟨kd, x, hvv, hpp⟩ := v2Verifier_supported hk
          rw [hvv]
          dsimp only
          rw [hpp]
          dsimp only
          cases hpb : env.parseV2 b.entry.body with
          | none => exact absurd hpb (hb2 h2.2)
          | some a =>
            dsimp only
            split
            · rename_i hx; split at hx <;> simp at hx; subst hx; exact clean_verification
            · exact clean_ok _
        · rw [if_neg h2]
          by_cases h1 : b.entry.kind = "dsse".toList ∧ b.entry.version = "0.0.1".toList
          · rw [if_pos h1]
            have : (validateDsseV001 env b.cert b.entry e).Clean := by
              unfold validateDsseV001
              cases hpb : env.parseDsse b.entry.body with
              | none => exact clean_verification
              | some body =>
                dsimp only
                cases hph : body.payloadHash with
                | none => exact absurd hph (hb1 body hpb)
                | some x =>
                  dsimp only
                  repeat' split
                  all_goals first | exact clean_ok _ | exact clean_verification
            cases hvd : validateDsseV001 env b.cert b.entry e with
            | error x => exact clean_error (this x hvd)
            | ok u => exact clean_ok _
          · rw [if_neg h1]
            exact clean_verification

/-! ## The conditions hold for the accepted example -/

theorem exSplitsAt : SplitsAt exEnv1 "o\n1\nABQ=\n".toList "— o BBQAAAQUAABvCjEKQUJRPQo=\n".toList :=
  splitSep_some _ _ _ (by decide)

theorem exEntryBenign (kind version : Str) : EntryBenign (exLogged kind version) where
  proof := by simp [exLogged]
  sigs := by
    intro p env note data hp he hs name b64 hl
    have hp : _ = p := Option.some.inj hp
    subst hp
    have he : exEnv1 = env := Option.some.inj he
    subst he
    obtain ⟨rfl, rfl⟩ := splitsAt_unique exSplitsAt hs
    obtain ⟨rfl, rfl⟩ := sigLineIn_unique (pre := []) (rest := " o BBQAAAQUAABvCjEKQUJRPQo=\n".toList)
      (name' := "o".toList) (b64' := "BBQAAAQUAABvCjEKQUJRPQo=".toList)
      (by decide) (by decide) (by decide) (by decide) (by decide) (by decide) hl
    exact ⟨[4, 20, 0, 0] ++ ([4, 20, 0, 0] ++ utf8 exCk1.noteText), by decide⟩
  ascii := by
    intro p env note data hp he hs
    have hp : _ = p := Option.some.inj hp
    subst hp
    have he : exEnv1 = env := Option.some.inj he
    subst he
    obtain ⟨rfl, rfl⟩ := splitsAt_unique exSplitsAt hs
    decide
  index := by show JsonSafe 0; unfold JsonSafe; decide
  time := by
    intro t ht
    have ht : (1500 : Int) = t := Option.some.inj ht
    subst ht
    unfold JsonSafe; decide

/-- so the example, with any other artifact, can only be accepted or rejected with `VerificationError` -/
example (d : Bytes) (hd : d.length = 32) :
    (verifyArtifact exVEnv 3000000000 exVerifier (.bytes d) exBundle (fun _ => .ok ())).Clean := by
  refine C19_artifact_clean_partial _ _ _ _ _ _ ⟨by decide, by decide, ⟨exSignature, .inr ⟨rfl, _, rfl, rfl⟩⟩, by decide,
    by decide, ?_, by decide, by decide, clean_ok _, exEntryBenign _ _⟩ (.inl rfl) rfl hd (fun _ => by decide)
    (fun h => absurd h (by decide))
  intro t chain hc
  have : chain = [exIssuer] := by
    simp only [exVEnv] at hc
    split at hc
    · exact (Option.some.inj hc).symm
    · simp at hc
  subst this
  refine ⟨⟨exIssuer, .direct _ _ (by intro l hl; simp [exIssuer, exCaCert] at hl)⟩, by decide, by decide, ?_, ?_⟩
  · intro sct hs
    have hs : some [exSct .preCertificate exPayload] = some [sct] := hs
    have hs := (List.cons.inj (Option.some.inj hs)).1
    rw [← hs]; decide
  · intro sct hs
    have hs : some [exSct .preCertificate exPayload] = some [sct] := hs
    have hs := (List.cons.inj (Option.some.inj hs)).1
    rw [← hs]; decide

end Sigstore.Props
