import Verif.Props.Verification

/-!
# A concrete accepted bundle

With the toy crypto suite, a bundle with a promise and a timestamp is accepted as the signature of an artifact,
and a similar one as an attestation: the hypotheses of C09, C13-C18 and C20 can be met.
-/

namespace Sigstore.Props

open Sigstore.Trust Sigstore.LogEntry Sigstore.Dsse Sigstore.Sct Sigstore.Spec Sigstore.Merkle Sigstore.Checkpoint

/-- the artifact -/
def exArtifact : Bytes := List.replicate 32 9

/-- a signing certificate with one SCT, for an identity and an issuer -/
def exSigner : Cert :=
  { exSctCert with
      pubKey := ⟨.ec .p256, [2, 30]⟩, notBefore := 1000000000, notAfter := 2000000000,
      keyUsage := some ⟨true, false⟩, eku := some [.codeSigning], san := some [.rfc822 "me".toList],
      exts := [(Policy.fulcioArc 1, utf8 "https://i".toList)] }

/-- its signature of the artifact -/
def exSignature : Bytes := [2, 30] ++ exArtifact

/-- its issuer -/
def exIssuer : Cert := { exCaCert with pubKey := exIssuerKey }

/-- the body of the log entry (its contents are given by `exVEnv`) -/
def exBody : Bytes := [20]

/-- what the log signed: body, time, log id and index -/
def exPromise : Bytes :=
  [4, 20, 0, 0] ++ utf8 (canonicalText (b64Encode exBody) "1500".toList (hexEncode [4, 20, 0, 0]) "0".toList)

/-- the checkpoint of the log with this single entry -/
def exCk1 : Spec.Checkpoint := { origin := "o".toList, size := 1, root := [0, 20], extra := [] }

/-- the signed checkpoint -/
def exEnv1 : Str := envelopeText exCk1 [⟨"o".toList, [4, 20, 0, 0], [4, 20, 0, 0] ++ utf8 exCk1.noteText⟩]

/-- the log entry of the artifact's signature -/
def exLogged (kind version : Str) : LogEntry :=
  { logIndex := 0, logId := [4, 20, 0, 0], kind := kind, version := version,
    integratedTime := some 1500, promise := some exPromise, body := exBody,
    proof := some { logIndex := 0, rootHash := [0, 20], treeSize := 1, hashes := [], checkpoint := some exEnv1 } }

/-- external behaviour for the example -/
def exVEnv : Env where
  crypto := toyCrypto
  pyInt := asciiInt
  loadCert := fun b => if b = [4] then some exSigner else none
  decodeTsr := fun b => match b with | [n] => some ⟨[n], 1000000000 + n.toNat⟩ | _ => none
  verifyTsr := fun _ _ _ t _ => t.raw != [13]
  buildChain := fun store t c => if c = exSigner ∧ store = [exIssuer] ∧ 0 ≤ t then some [exIssuer] else none
  parseHashedrekord := fun b =>
    if b = exBody then some ⟨"0.0.1".toList, some (b64Encode exSignature), some (base64EncodePemCert exSigner),
      some ("sha256".toList, hexEncode exArtifact)⟩ else none
  parseDsse := fun b =>
    if b = exBody then some ⟨some ("sha256".toList, hexEncode exArtifact),
      some [(b64Encode ([2, 30] ++ Dsse.pae "t".toList exArtifact), base64EncodePemCert exSigner)]⟩ else none
  parseV2 := fun _ => none

/-- the trusted root of the example -/
def exRoot : TrustedRoot Cert where
  tlogs := [⟨some [4, 20, 0, 0], .pkixEd25519, some ⟨0, none⟩⟩]
  ctlogs := toyMsgs
  certificateAuthorities := [⟨some ⟨0, none⟩, [exIssuer]⟩]
  timestampAuthorities := [⟨some ⟨0, some 1900000000⟩, [exLeafCert, exCaCert]⟩]

/-- the verifier of the example -/
def exVerifier : Verifier := ⟨exRoot, [exIssuer]⟩

/-- a bundle with two timestamps, the second of which no authority verifies -/
def exBundle : Bundle :=
  ⟨{ mediaType := "application/vnd.dev.sigstore.bundle.v0.3+json".toList, certificate := some [4], chain := none,
     tlogEntries := [exLogged "hashedrekord".toList "0.0.1".toList], timestamps := [[7], [13]],
     messageSignature := some ⟨some exArtifact, exSignature⟩, dsseEnvelope := none },
   exSigner, exLogged "hashedrekord".toList "0.0.1".toList⟩

/-- the same for an attestation -/
def exDsseBundle : Bundle :=
  ⟨{ mediaType := "application/vnd.dev.sigstore.bundle.v0.3+json".toList, certificate := some [4], chain := none,
     tlogEntries := [exLogged "dsse".toList "0.0.1".toList], timestamps := [[7], [13]], messageSignature := none,
     dsseEnvelope := some ⟨exArtifact, "t".toList, [[2, 30] ++ Dsse.pae "t".toList exArtifact]⟩ },
   exSigner, exLogged "dsse".toList "0.0.1".toList⟩

theorem exLogged_verifies (kind version : Str) :
    (exLogged kind version).verify asciiInt toyCrypto exKeyring = .ok () := by
  rw [C57_entry_verifies_iff]
  refine ⟨_, rfl, ?_, ?_, ?_⟩
  · show verifyMerkleInclusion toyCrypto.sha256 exBody
      { logIndex := 0, rootHash := [0, 20], treeSize := 1, hashes := [], checkpoint := some exEnv1 } = _
    decide
  · show verifyCheckpoint asciiInt toyCrypto exKeyring [4, 20, 0, 0] _ = _
    rw [C07_honest_checkpoint_iff asciiInt toyCrypto exKeyring [4, 20, 0, 0] _ exCk1 [] []
      ⟨"o".toList, [4, 20, 0, 0], [4, 20, 0, 0] ++ utf8 exCk1.noteText⟩
      ⟨by decide, by decide, by decide, by decide, by decide, by decide, by decide⟩
      (by intro x hx
          rw [List.nil_append, List.mem_singleton] at hx
          subst hx; exact ⟨by decide, by decide, by decide, by decide⟩)
      (by decide) rfl (by simp) (by decide)]
    exact ⟨by decide, rfl⟩
  · intro set t h1 h2 _
    have h1 : exPromise = set := by simpa [exLogged] using h1
    have h2 : (1500 : Int) = t := by simpa [exLogged] using h2
    subst h1 h2
    refine ⟨by unfold JsonSafe; decide, by show JsonSafe 0; unfold JsonSafe; decide, ?_⟩
    show exKeyring.verify toyCrypto [4, 20, 0, 0] exPromise
      (utf8 (promiseText exBody 1500 [4, 20, 0, 0] 0)) = _
    decide

theorem exEntryOk (kind version : Str) : EntryOk exVEnv 3000000000 exRoot (exLogged kind version) := by
  show EntryOk exVEnv 3000000000 exVerifier.root _
  rw [← checkEntry_ok_iff exVEnv 3000000000 exVerifier]
  have hk : rekorKeyring toyCrypto 3000000000 exRoot .verify = .ok exKeyring := by decide
  unfold checkEntry
  rw [show rekorKeyring exVEnv.crypto 3000000000 exVerifier.root .verify = .ok exKeyring from hk]
  dsimp only
  rw [show (exLogged kind version).verify exVEnv.pyInt exVEnv.crypto exKeyring = .ok () from exLogged_verifies _ _]

/-- the common steps succeed for both, with a policy that accepts the certificate -/
theorem exCommonPolicy (b : Bundle) (kind version : Str) (policy : Cert → Py Unit) (hp : policy exSigner = .ok ())
    (hc : b.cert = exSigner) (he : b.entry = exLogged kind version)
    (ht : establishTime exVEnv 3000000000 exVerifier b =
      .ok [⟨.timestampAuthority, 1000000007⟩, ⟨.transparencyService, 1500000000⟩]) :
    verifyCommon exVEnv 3000000000 exVerifier b policy = .ok () := by
  rw [verifyCommon_steps, hc, he]
  refine ⟨_, ht, by decide, ?_, ⟨1500000000, [exIssuer], by decide, by decide, ?_⟩, ?_, hp, exEntryOk _ _, by decide⟩
  · intro t ht
    have ht : t = 1000000007 ∨ t = 1500000000 := by simpa [timesOf] using ht
    rcases ht with rfl | rfl <;> exact ⟨[exIssuer], by decide⟩
  · rw [← checkSct_ok_iff exVEnv 3000000000 exVerifier]; decide
  · exact ⟨⟨⟨true, false⟩, rfl, rfl⟩, [.codeSigning], rfl, by simp⟩

theorem exCommon (b : Bundle) (kind version : Str) (hc : b.cert = exSigner) (he : b.entry = exLogged kind version)
    (ht : establishTime exVEnv 3000000000 exVerifier b =
      .ok [⟨.timestampAuthority, 1000000007⟩, ⟨.transparencyService, 1500000000⟩]) :
    verifyCommon exVEnv 3000000000 exVerifier b (fun _ => .ok ()) = .ok () :=
  exCommonPolicy b kind version _ rfl hc he ht

theorem exArtifact_accepted :
    verifyArtifact exVEnv 3000000000 exVerifier (.bytes exArtifact) exBundle (fun _ => .ok ()) = .ok () := by
  unfold verifyArtifact
  rw [exCommon exBundle _ _ rfl rfl (by decide)]
  decide

theorem exDsse_accepted :
    verifyDsse exVEnv 3000000000 exVerifier exDsseBundle (fun _ => .ok ()) = .ok ("t".toList, exArtifact) := by
  unfold verifyDsse
  rw [exCommon exDsseBundle _ _ rfl rfl (by decide)]
  decide

/-- the hypothesis on the authorities' windows -/
example : ∀ ca ∈ exVerifier.root.timestampAuthorities, ca.validFor ≠ none := by decide

/-- another artifact is not accepted with the same bundle -/
example : verifyArtifact exVEnv 3000000000 exVerifier (.bytes (List.replicate 32 8)) exBundle (fun _ => .ok ()) ≠
    .ok () := by
  intro h
  have := C20_one_artifact _ _ _ _ _ _ _ _ _ _ exArtifact_accepted h
  revert this; decide

/-- the artifact bundle is not an attestation -/
example : ∀ r, verifyDsse exVEnv 3000000000 exVerifier exBundle (fun _ => .ok ()) ≠ .ok r :=
  fun r => C18_exclusive _ _ _ _ _ _ _ _ _ r (.inr rfl) exArtifact_accepted

/-- the log's time in the example is covered by the promise (C09) -/
example : ∃ l x, establishTime exVEnv 3000000000 exVerifier exBundle = .ok l ∧ x ∈ l ∧
    x.source = .transparencyService :=
  ⟨[⟨.timestampAuthority, 1000000007⟩, ⟨.transparencyService, 1500000000⟩], ⟨.transparencyService, 1500000000⟩,
    by decide, by decide, rfl⟩

/-- reordering the timestamps and adding one more that is not trusted (C17) -/
example : ∃ l', establishTime exVEnv 3000000000 exVerifier
      (withTimestamps { exBundle with inner := { exBundle.inner with timestamps := [[7]] } } [[13], [7]]) = .ok l' ∧
    (timesOf l').Perm [1000000007, 1500000000] := by
  refine C17_extra_timestamps exVEnv 3000000000 exVerifier
    { exBundle with inner := { exBundle.inner with timestamps := [[7]] } } (by decide)
    [⟨.timestampAuthority, 1000000007⟩, ⟨.transparencyService, 1500000000⟩] (by decide) [[13], [7]]
    [⟨[13], 1000000013⟩, ⟨[7], 1000000007⟩] [⟨[13], 1000000013⟩] (by decide) ?_ (by decide) (by decide)
    (by decide) (by decide) exSignature (.inr ⟨rfl, _, rfl, rfl⟩) ?_
  · exact List.Perm.swap _ _ _
  · rintro t ht ⟨ca, hca, leaf, mid, root, period, h1, h2, h3, h4, _⟩
    rw [List.mem_singleton] at ht
    subst ht
    simp [exVEnv] at h4

end Sigstore.Props
