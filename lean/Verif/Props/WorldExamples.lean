import Verif.Props.EndToEndExamples
import Verif.Props.VerificationExamples
import Verif.Props.World

/-!
# Worlds in which the services can be trusted

Two histories.  In the first a signer logs in, signs an artifact and a statement, and has them logged while the certificate
is valid.  In the second the private key signs the artifact long after the certificate has expired; what has a timestamp
is another signature, in an envelope in the same bundle.
-/

namespace Sigstore.Props

open Sigstore.Trust Sigstore.LogEntry Sigstore.Dsse Sigstore.Sct Sigstore.Spec Sigstore.Merkle Sigstore.Checkpoint
open Sigstore.Rfc6962

/-- the log's key and its id -/
def wLogKey : PubKey := ⟨.ed25519, [4, 20, 0, 0]⟩

/-- the CT log's key -/
def wCtKey : PubKey := ⟨.ed25519, [4, 30]⟩

/-- what the CT log took responsibility for -/
def wPromised : DigitallySigned := ⟨0, 1794830400123, .precert (List.replicate 32 7) [1, 2, 3], []⟩

/-- the signing certificate -/
def wSigner : Cert :=
  { exSigner with
      scts := some [{ version := 0, timestamp := 1794830400123, entryType := .preCertificate, logId := pad32 [4, 30],
                      extensionBytes := [], hashAlgorithm := some .sha256, signature := [4, 30] ++ wPromised.encode }] }

/-- the digest of the statement -/
def wPae : Bytes := pad32 (Dsse.pae "t".toList exArtifact)

/-- the log's only checkpoint -/
def wCk : Spec.Checkpoint := { origin := "o".toList, size := 1, root := pad32 [0, 20], extra := [] }

/-- the log's only promise -/
def wPromise : Str := promiseText exBody 1500 (pad32 [4, 20, 0, 0]) 0

/-- only the signatures that were really made are valid -/
def wCrypto (late : Bool) : Crypto where
  sha256 := pad32
  sha384 := id
  sha512 := id
  rsaPkcs1 := fun _ _ _ _ => false
  ecdsa := fun k d s => k == wSigner.pubKey && (d == exArtifact || d == wPae) && s == k.spki ++ d
  ed25519 := fun k d s => s == k.spki ++ d &&
    ((k == wLogKey && (d == utf8 wCk.noteText || (!late && d == utf8 wPromise))) || (k == wCtKey && d == wPromised.encode))
  loadDerPublicKey := fun der => some ⟨.ed25519, der⟩

/-- external behaviour: timestamps are for the signatures in the first history, for another string in the second -/
def wEnv (late : Bool) : Env where
  crypto := wCrypto late
  pyInt := asciiInt
  loadCert := fun _ => some wSigner
  decodeTsr := fun b => some ⟨b, 1000000007⟩
  verifyTsr := fun _ _ _ t m => t.genTime == 1000000007 &&
    if late then m == [99] else m == [2, 30] ++ exArtifact || m == [2, 30] ++ wPae
  buildChain := fun store t c => if c = wSigner ∧ store = [exIssuer] ∧ 0 ≤ t then some [exIssuer] else none
  parseHashedrekord := fun b =>
    if b = exBody then some ⟨"0.0.1".toList, some (b64Encode ([2, 30] ++ exArtifact)), some (base64EncodePemCert wSigner),
      some ("sha256".toList, hexEncode exArtifact)⟩ else none
  parseDsse := fun b =>
    if b = exBody then some ⟨some ("sha256".toList, hexEncode exArtifact),
      some [(b64Encode ([2, 30] ++ wPae), base64EncodePemCert wSigner)]⟩ else none
  parseV2 := fun b =>
    if b = exBody then some ⟨"hashedrekord".toList, "0.0.2".toList,
      some ⟨.sha2_256, exArtifact, [2, 30] ++ exArtifact, .x509 wSigner.der, .pkixEcdsaP256Sha256⟩⟩ else none

/-- the trusted root -/
def wRoot : TrustedRoot Cert where
  tlogs := [⟨some [4, 20, 0, 0], .pkixEd25519, some ⟨0, none⟩⟩]
  ctlogs := [⟨some [4, 30], .pkixEd25519, some ⟨0, none⟩⟩]
  certificateAuthorities := [⟨some ⟨0, none⟩, [exIssuer]⟩]
  timestampAuthorities := [⟨some ⟨0, none⟩, [exLeafCert, exCaCert]⟩]

/-- the verifier -/
def wVerifier : Verifier := ⟨wRoot, [exIssuer]⟩

/-- when the key was used -/
def wSigningTime (late : Bool) : Time := if late then 5000000000 else 1000000001

/-- what happened -/
def wHistory (late : Bool) : History where
  signed := fun key d s t => key = wSigner.pubKey ∧ (d = exArtifact ∨ d = wPae) ∧ s = key.spki ++ d ∧ t = wSigningTime late
  known := fun x t => (x = [99] ∧ 1000000000 ≤ t) ∨
    ((x = exBody ∨ x = [2, 30] ++ exArtifact ∨ x = [2, 30] ++ wPae) ∧ wSigningTime late ≤ t)
  issued := fun c => c = wSigner
  authenticated := fun i iss k t => i = "me".toList ∧ iss = "https://i".toList ∧ k = wSigner.pubKey ∧ t = wSigner.notBefore
  log := fun _ => [exBody]
  promised := fun k d => k = wCtKey ∧ d = wPromised

theorem wDenotes {late : Bool} {raw : Bytes} {w : Option TimeRange} {key : PubKey} {s : Scheme}
    (h : Denotes (wCrypto late) ⟨some raw, .pkixEd25519, w⟩ key s) : key = ⟨.ed25519, raw⟩ ∧ s = .ed25519 := by
  obtain ⟨r, h1, _, h2, h3, _⟩ := h
  rw [Option.some.injEq] at h1
  subst h1
  have : s = .ed25519 := by
    cases h3; rfl
  exact ⟨(Option.some.inj h2).symm, this⟩

theorem wCk_wf : wCk.WF := ⟨by decide, by decide, by decide, by decide, by decide, by decide, by decide⟩

/-- everybody can be trusted in both histories -/
theorem wTrustworthy (late : Bool) : Trustworthy (wEnv late) 6000000000 wVerifier (wHistory late) where
  signatures := by
    intro key d s t h hk
    have h : (key == wSigner.pubKey && (d == exArtifact || d == wPae) && s == key.spki ++ d) = true := h
    simp only [Bool.and_eq_true, Bool.or_eq_true, beq_iff_eq] at h
    obtain ⟨⟨rfl, hd⟩, rfl⟩ := h
    refine ⟨wSigningTime late, ?_, rfl, hd, rfl, rfl⟩
    rcases hk with ⟨h, _⟩ | ⟨_, h⟩
    · have h := congrArg List.length h
      rcases hd with rfl | rfl <;> exact absurd h (by decide)
    · exact h
  ca := by
    constructor
    · intro t cert chain h
      simp only [wEnv] at h
      split at h
      · rename_i hc; exact hc.1
      · cases h
    · rintro cert rfl
      refine ⟨"https://i".toList, ?_, ?_⟩
      · rintro i ⟨n, enc, hm, he⟩
        have he : _ ∈ [(Policy.fulcioArc 1, utf8 "https://i".toList)] := he
        rw [List.mem_singleton, Prod.mk.injEq] at he
        obtain ⟨h1, h2⟩ := he
        have hn : n = 1 := by simpa [Policy.fulcioArc] using h1
        subst hn
        have henc : enc = .raw := by
          revert hm; cases enc <;> decide
        subst henc
        exact utf8_injective h2
      · rintro identity ⟨names, h1, h2⟩
        have h1 : [GeneralName.rfc822 "me".toList] = names := Option.some.inj h1
        subst h1
        simp only [List.mem_singleton, GeneralName.rfc822.injEq, reduceCtorEq, or_false] at h2
        exact ⟨h2, rfl, rfl, rfl⟩
  logs := by
    intro m hm key s hd data sig ha
    rw [show wVerifier.root.tlogs = [⟨some [4, 20, 0, 0], .pkixEd25519, some ⟨0, none⟩⟩] from rfl, List.mem_singleton] at hm
    subst hm
    obtain ⟨rfl, rfl⟩ := wDenotes hd
    have ha : (sig == [4, 20, 0, 0] ++ data && ((wLogKey == wLogKey && (data == utf8 wCk.noteText || (!late && data == utf8 wPromise)))
      || (wLogKey == wCtKey && data == wPromised.encode))) = true := ha
    have hne : (wLogKey == wCtKey) = false := by decide
    rw [hne] at ha
    simp only [Bool.and_eq_true, Bool.or_eq_true, beq_iff_eq, Bool.false_and, Bool.false_eq_true, or_false, true_and,
      beq_self_eq_true, Bool.not_eq_true'] at ha
    rcases ha.2 with h | ⟨rfl, h⟩
    · refine .inr ⟨wCk, wCk_wf, show 1 ≤ 1 by decide, ?_, h⟩
      show pad32 [0, 20] = mth pad32 [exBody]
      simp [mth, exBody]
    · exact .inl ⟨exBody, 1500, _, 0, h, .inr ⟨.inl rfl, by decide⟩⟩
  tsas := by
    rintro message tsr ⟨ca, _, leaf, mid, root, period, _, _, _, h, _⟩
    simp only [wEnv] at h
    cases late
    · simp only [Bool.and_eq_true, Bool.or_eq_true, beq_iff_eq, Bool.false_eq_true, if_false] at h
      refine .inr ⟨.inr h.2, ?_⟩
      rw [h.1]; decide
    · simp only [Bool.and_eq_true, beq_iff_eq, if_true] at h
      refine .inl ⟨h.2, ?_⟩
      rw [h.1]; decide
  entries := by
    intro body sig t hr hk
    have key : body = exBody ∧ (sig = [2, 30] ++ exArtifact ∨ sig = [2, 30] ++ wPae) := by
      rcases hr with ⟨r, h1, h2⟩ | ⟨r, l, h1, h2, h3⟩ | ⟨e, r, h1, h2, h3⟩
      · simp only [wEnv] at h1
        split at h1
        · rename_i hb
          rw [Option.some.injEq] at h1
          subst h1
          exact ⟨hb, .inl (b64Encode_injective (Option.some.inj h2).symm)⟩
        · cases h1
      · simp only [wEnv] at h1
        split at h1
        · rename_i hb
          rw [Option.some.injEq] at h1
          subst h1
          rw [← Option.some.inj h2] at h3
          rw [List.map_cons, List.map_nil, List.mem_singleton] at h3
          exact ⟨hb, .inr (b64Encode_injective h3)⟩
        · cases h1
      · simp only [wEnv] at h1
        split at h1
        · rename_i hb
          rw [Option.some.injEq] at h1
          subst h1
          rw [← Option.some.inj h2] at h3
          exact ⟨hb, .inl h3.symm⟩
        · cases h1
    rcases hk with ⟨h, _⟩ | ⟨_, h⟩
    · rw [key.1] at h; exact absurd h (by decide)
    · exact .inr ⟨.inr key.2, h⟩

theorem wTrustworthyCt (late : Bool) : TrustworthyCtLogs (wCrypto late) wRoot.ctlogs (wHistory late) := by
  intro m hm key s hd data sig ha
  rw [show wRoot.ctlogs = [⟨some [4, 30], .pkixEd25519, some ⟨0, none⟩⟩] from rfl, List.mem_singleton] at hm
  subst hm
  obtain ⟨rfl, rfl⟩ := wDenotes hd
  have ha : (sig == [4, 30] ++ data && ((wCtKey == wLogKey && (data == utf8 wCk.noteText || (!late && data == utf8 wPromise)))
    || (wCtKey == wCtKey && data == wPromised.encode))) = true := ha
  have hne : (wCtKey == wLogKey) = false := by decide
  rw [hne] at ha
  simp only [Bool.and_eq_true, Bool.or_eq_true, beq_iff_eq, Bool.false_and, Bool.false_eq_true, false_or, true_and,
    beq_self_eq_true] at ha
  exact ⟨wPromised, ⟨by decide, by simp [wPromised, SignedEntry.Valid], by decide⟩, ha.2, rfl, rfl⟩

/-- the log entry; with a promise in the first history -/
def wEntry (late : Bool) (kind version : Str) : LogEntry :=
  { logIndex := 0, logId := pad32 [4, 20, 0, 0], kind := kind, version := version,
    integratedTime := if late then none else some 1500,
    promise := if late then none else some ([4, 20, 0, 0] ++ utf8 wPromise), body := exBody,
    proof := some { logIndex := 0, rootHash := pad32 [0, 20], treeSize := 1, hashes := [],
                    checkpoint := some (envelopeText wCk [⟨"o".toList, [4, 20, 0, 0], [4, 20, 0, 0] ++ utf8 wCk.noteText⟩]) } }

/-- the bundle of the artifact's signature -/
def wBundle : Bundle :=
  ⟨{ mediaType := "application/vnd.dev.sigstore.bundle.v0.3+json".toList, certificate := some [4], chain := none,
     tlogEntries := [wEntry false "hashedrekord".toList "0.0.1".toList], timestamps := [[7]],
     messageSignature := some ⟨some exArtifact, [2, 30] ++ exArtifact⟩, dsseEnvelope := none },
   wSigner, wEntry false "hashedrekord".toList "0.0.1".toList⟩

/-- the bundle of the statement's signature -/
def wDsseBundle : Bundle :=
  ⟨{ mediaType := "application/vnd.dev.sigstore.bundle.v0.3+json".toList, certificate := some [4], chain := none,
     tlogEntries := [wEntry false "dsse".toList "0.0.1".toList], timestamps := [[7]], messageSignature := none,
     dsseEnvelope := some ⟨exArtifact, "t".toList, [[2, 30] ++ wPae]⟩ },
   wSigner, wEntry false "dsse".toList "0.0.1".toList⟩

/-- the bundle of the second history: a late signature of the artifact, and an envelope with a signature that has a
timestamp -/
def wLateBundle : Bundle :=
  ⟨{ mediaType := "application/vnd.dev.sigstore.bundle.v0.3+json".toList, certificate := some [4], chain := none,
     tlogEntries := [wEntry true "hashedrekord".toList "0.0.2".toList], timestamps := [[7]],
     messageSignature := some ⟨some exArtifact, [2, 30] ++ exArtifact⟩,
     dsseEnvelope := some ⟨[], "t".toList, [[99]]⟩ },
   wSigner, wEntry true "hashedrekord".toList "0.0.2".toList⟩

/-- the log's keyring -/
def wKeyring : Keyring := [(pad32 [4, 20, 0, 0], ⟨none, wLogKey, pad32 [4, 20, 0, 0]⟩)]

theorem wEntry_verifies (late : Bool) (kind version : Str) :
    (wEntry late kind version).verify asciiInt (wCrypto late) wKeyring = .ok () := by
  rw [C57_entry_verifies_iff]
  refine ⟨_, rfl, ?_, ?_, ?_⟩
  · show verifyMerkleInclusion pad32 exBody
      { logIndex := 0, rootHash := pad32 [0, 20], treeSize := 1, hashes := [], checkpoint := _ } = _
    decide
  · show verifyCheckpoint asciiInt (wCrypto late) wKeyring (pad32 [4, 20, 0, 0]) _ = _
    rw [C07_honest_checkpoint_iff asciiInt (wCrypto late) wKeyring (pad32 [4, 20, 0, 0]) _ wCk [] []
      ⟨"o".toList, [4, 20, 0, 0], [4, 20, 0, 0] ++ utf8 wCk.noteText⟩ wCk_wf
      (by intro x hx
          rw [List.nil_append, List.mem_singleton] at hx
          subst hx; exact ⟨by decide, by decide, by decide, by decide⟩)
      (by decide) rfl (by simp) (by decide)]
    cases late <;> exact ⟨by decide, rfl⟩
  · intro set t h1 h2 _
    cases late
    · have h1 : [4, 20, 0, 0] ++ utf8 wPromise = set := by simpa [wEntry] using h1
      have h2 : (1500 : Int) = t := by simpa [wEntry] using h2
      subst h1 h2
      refine ⟨by unfold JsonSafe; decide, by show JsonSafe 0; unfold JsonSafe; decide, ?_⟩
      show wKeyring.verify (wCrypto false) (pad32 [4, 20, 0, 0]) ([4, 20, 0, 0] ++ utf8 wPromise) (utf8 wPromise) = _
      decide
    · simp [wEntry] at h1

theorem wEntryOk (late : Bool) (kind version : Str) :
    EntryOk (wEnv late) 6000000000 wRoot (wEntry late kind version) := by
  show EntryOk (wEnv late) 6000000000 wVerifier.root _
  rw [← checkEntry_ok_iff (wEnv late) 6000000000 wVerifier]
  have hk : rekorKeyring (wCrypto late) 6000000000 wRoot .verify = .ok wKeyring := by cases late <;> decide
  unfold checkEntry
  rw [show rekorKeyring (wEnv late).crypto 6000000000 wVerifier.root .verify = .ok wKeyring from hk]
  dsimp only
  rw [show (wEntry late kind version).verify (wEnv late).pyInt (wEnv late).crypto wKeyring = .ok ()
    from wEntry_verifies late _ _]

/-- the common steps succeed -/
theorem wCommon (late : Bool) (b : Bundle) (kind version : Str) (l : List VerifiedTime)
    (hc : b.cert = wSigner) (he : b.entry = wEntry late kind version)
    (ht : establishTime (wEnv late) 6000000000 wVerifier b = .ok l) (hne : timesOf l ≠ [])
    (hl : ∀ t ∈ timesOf l, t = 1000000007 ∨ t = 1500000000) :
    verifyCommon (wEnv late) 6000000000 wVerifier b (Sigstore.Policy.Policy.identity "me".toList (some "https://i".toList)).verify = .ok () := by
  have hch : ∀ t, 0 ≤ t → (wEnv late).buildChain wVerifier.fulcioCerts t wSigner = some [exIssuer] := fun t ht =>
    if_pos ⟨rfl, rfl, ht⟩
  rw [verifyCommon_steps, hc, he]
  refine ⟨l, ht, hne, ?_, ?_, ?_, by decide, wEntryOk late _ _, ?_⟩
  · intro t ht
    rcases hl t ht with rfl | rfl <;> exact ⟨[exIssuer], hch _ (by decide)⟩
  · obtain ⟨t, ht⟩ : ∃ t, (timesOf l).getLast? = some t := by
      rw [List.getLast?_eq_some_getLast hne]; exact ⟨_, rfl⟩
    refine ⟨t, [exIssuer], ht, hch t ?_, ?_⟩
    · rcases hl t (List.mem_of_getLast? ht) with rfl | rfl <;> decide
    · rw [← checkSct_ok_iff (wEnv late) 6000000000 wVerifier]; cases late <;> decide
  · exact ⟨⟨⟨true, false⟩, rfl, rfl⟩, [.codeSigning], rfl, by simp⟩
  · intro t ht
    rcases hl t ht with rfl | rfl <;> decide

theorem wArtifact_accepted :
    verifyArtifact (wEnv false) 6000000000 wVerifier (.bytes exArtifact) wBundle
      (Sigstore.Policy.Policy.identity "me".toList (some "https://i".toList)).verify = .ok () := by
  unfold verifyArtifact
  rw [wCommon false wBundle _ _ [⟨.timestampAuthority, 1000000007⟩, ⟨.transparencyService, 1500000000⟩] rfl rfl (by decide)
    (by decide) (by decide)]
  decide

theorem wDsse_accepted :
    verifyDsse (wEnv false) 6000000000 wVerifier wDsseBundle
      (Sigstore.Policy.Policy.identity "me".toList (some "https://i".toList)).verify = .ok ("t".toList, exArtifact) := by
  unfold verifyDsse
  rw [wCommon false wDsseBundle _ _ [⟨.timestampAuthority, 1000000007⟩, ⟨.transparencyService, 1500000000⟩] rfl rfl (by decide)
    (by decide) (by decide)]
  decide

theorem wLate_accepted :
    verifyArtifact (wEnv true) 6000000000 wVerifier (.bytes exArtifact) wLateBundle
      (Sigstore.Policy.Policy.identity "me".toList (some "https://i".toList)).verify = .ok () := by
  unfold verifyArtifact
  rw [wCommon true wLateBundle _ _ [⟨.timestampAuthority, 1000000007⟩] rfl rfl (by decide) (by decide) (by decide)]
  decide

theorem wUnique : UniqueExts wSigner := by unfold UniqueExts; decide

/-- **C74** (refuted) The time of an artifact's signature is not established when the bundle also holds an envelope:
timestamps are checked against the envelope's signature.  Everybody can be trusted, the bundle is accepted, and yet the
artifact was only signed after the certificate had expired. -/
theorem C74_timestamp_of_another_signature :
    ∃ (env : Env) (now : Time) (v : Verifier) (h : History) (input : HashInput) (b : Bundle) (identity : Str)
      (issuer : Option Str), Trustworthy env now v h ∧ UniqueExts b.cert ∧
      verifyArtifact env now v input b (Sigstore.Policy.Policy.identity identity issuer).verify = .ok () ∧
      ∀ sig τ, h.signed b.cert.pubKey (sha256Digest env.crypto input).digest sig τ → b.cert.notAfter < τ := by
  refine ⟨wEnv true, 6000000000, wVerifier, wHistory true, .bytes exArtifact, wLateBundle, _, _, wTrustworthy true, wUnique,
    wLate_accepted, ?_⟩
  rintro sig τ ⟨_, _, _, rfl⟩
  decide

/-- **C73** is not vacuous -/
example : SignedBy (wHistory false) wSigner "me".toList (some "https://i".toList) wPae :=
  C73_dsse_authentic (wEnv false) 6000000000 wVerifier (wHistory false) (wTrustworthy false) wDsseBundle wUnique _ _
    (by rintro i ⟨⟩; decide) _ _ wDsse_accepted

/-- **C74** is not vacuous -/
example : SignedBy (wHistory false) wSigner "me".toList (some "https://i".toList) exArtifact :=
  C74_artifact_authentic_partial (wEnv false) 6000000000 wVerifier (wHistory false) (wTrustworthy false) (.bytes exArtifact)
    wBundle (.inl rfl) wUnique _ _ (by rintro i ⟨⟩; decide) wArtifact_accepted

theorem wNoCollision (kind version : Str) : NoCollision (wEnv false) wVerifier (wHistory false) (wEntry false kind version) := by
  intro m hm key s hd n p hp x hx y hy hxy
  have hp := Option.some.inj hp
  subst hp
  have key : ∀ z, z ∈ hashedByTree (wEnv false).crypto.sha256 (((wHistory false).log key).take n) ++
      hashedByCheck (wEnv false).crypto.sha256 (codeDirs 0 1) exBody [] → z = [] ∨ z = [0, 20] := by
    intro z hz
    rcases List.mem_append.1 hz with hz | hz
    · cases n with
      | zero => left; simpa [hashedByTree] using hz
      | succ n => right; simpa [wHistory, hashedByTree, exBody] using hz
    · right; simpa [hashedByCheck, stepInputs, exBody] using hz
  have hxy : pad32 x = pad32 y := hxy
  rcases key x hx with rfl | rfl <;> rcases key y hy with rfl | rfl
  · rfl
  · exact absurd hxy (by decide)
  · exact absurd hxy (by decide)
  · rfl

/-- **C76** is not vacuous -/
example : ∃ m ∈ wRoot.tlogs, ∃ key s, Denotes (wCrypto false) m key s ∧ exBody ∈ (wHistory false).log key :=
  (C76_artifact_is_public (wEnv false) 6000000000 wVerifier (wHistory false) (wTrustworthy false).logs 32 pad32_length
    (.bytes exArtifact) wBundle _ (wNoCollision _ _) wArtifact_accepted).1

example : ∃ m ∈ wRoot.tlogs, ∃ key s, Denotes (wCrypto false) m key s ∧ exBody ∈ (wHistory false).log key :=
  (C76_dsse_is_public (wEnv false) 6000000000 wVerifier (wHistory false) (wTrustworthy false).logs 32 pad32_length
    wDsseBundle _ (wNoCollision _ _) _ _ wDsse_accepted).1

/-- **C77** is not vacuous -/
example : ∃ m ∈ wRoot.ctlogs, ∃ key s, Denotes (wCrypto false) m key s ∧ ∃ d, (wHistory false).promised key d := by
  obtain ⟨m, hm, key, s, hd, d, h, _⟩ := C77_certificate_is_public (wEnv false) 6000000000 wVerifier (wHistory false)
    (wTrustworthyCt false) wBundle _ (.inl ⟨_, wArtifact_accepted⟩)
  exact ⟨m, hm, key, s, hd, d, h⟩

/-- **C75** is not vacuous: a text that is a signed note, an entry with a promise, and an SCT -/
example : ∃ n data, SignedNote.fromText exEnv1 = .ok n ∧ (exLogged "dsse".toList "0.0.1".toList).encodeCanonical = .ok data ∧
    utf8 n.note ≠ data := by
  have hr := C07_roundtrip asciiInt exCk1 [⟨"o".toList, [4, 20, 0, 0], [4, 20, 0, 0] ++ utf8 exCk1.noteText⟩]
    ⟨by decide, by decide, by decide, by decide, by decide, by decide, by decide⟩
    (by intro x hx
        rw [List.mem_singleton] at hx
        subst hx; exact ⟨by decide, by decide, by decide, by decide⟩) (by simp) (by decide)
  change SignedCheckpoint.fromText asciiInt exEnv1 = _ at hr
  obtain ⟨data, hd⟩ := (C08_set_payload_defined (exLogged "dsse".toList "0.0.1".toList)).1.2
    ⟨1500, rfl, by unfold JsonSafe; decide, by show JsonSafe 0; unfold JsonSafe; decide⟩
  cases hn : SignedNote.fromText exEnv1 with
  | error e => unfold SignedCheckpoint.fromText at hr; rw [hn] at hr; cases hr
  | ok n => exact ⟨n, data, rfl, hd, C75_promise_is_no_checkpoint _ _ hn _ _ hd⟩

example : ∃ data data', (exLogged "dsse".toList "0.0.1".toList).encodeCanonical = .ok data ∧
    packDigitallySigned (exSct .preCertificate exPayload) exSctCert (some (List.replicate 32 7)) = .ok data' ∧
    data ≠ data' := by
  obtain ⟨data, hd⟩ := (C08_set_payload_defined (exLogged "dsse".toList "0.0.1".toList)).1.2
    ⟨1500, rfl, by unfold JsonSafe; decide, by show JsonSafe 0; unfold JsonSafe; decide⟩
  have hp : packDigitallySigned (exSct .preCertificate exPayload) exSctCert (some (List.replicate 32 7)) = .ok exPayload := by
    decide
  exact ⟨data, _, hd, hp, C75_promise_is_no_sct _ _ hd _ _ _ _ hp⟩

end Sigstore.Props
