import Verif.Spec.Confusion
import Verif.Props.VerificationExamples

/-!
# C112: artifacts and attestations with the same evidence
-/

namespace Sigstore.Props

open Sigstore.Trust Sigstore.LogEntry Sigstore.Dsse Sigstore.Spec

theorem asAttestation_common (env : Env) (now : Time) (v : Verifier) (b : Bundle) (policy : Cert → Py Unit) (ms : MessageSignature)
    (hm : b.inner.messageSignature = some ms) (hd : b.inner.dsseEnvelope = none) (hs : ms.signature ≠ []) (ty : Str) (payload : Bytes) :
    verifyCommon env now v (asAttestation b ms.signature ty payload) policy = verifyCommon env now v b policy := by
  have h1 : (asAttestation b ms.signature ty payload).signature = b.signature := by
    unfold Bundle.signature asAttestation
    rw [hd, hm]
    show envelopeInit ⟨payload, ty, [ms.signature]⟩ = .ok ms.signature
    unfold envelopeInit
    dsimp only
    rw [if_neg hs]
  unfold verifyCommon establishTime tsaTimes verifyTimestampAuthority
  rw [h1]
  rfl

/-- **C112** refuted: in a log of the second version, the evidence for an artifact is evidence for the attestation that the artifact
encodes.  Whoever gets somebody to sign the file `pae ty payload` has that person's attestation of `payload`. -/
theorem C112_artifact_as_attestation (env : Env) (now : Time) (v : Verifier) (b : Bundle) (policy : Cert → Py Unit) (ty : Str)
    (payload : Bytes) (h : verifyArtifact env now v (.bytes (pae ty payload)) b policy = .ok ())
    (hv : b.entry.version = "0.0.2".toList) (hk : b.cert.pubKey.kind = .ec .p256) (hd : b.inner.dsseEnvelope = none)
    (ms : MessageSignature) (hm : b.inner.messageSignature = some ms) (hs : ms.signature ≠ []) :
    verifyDsse env now v (asAttestation b ms.signature ty payload) policy = .ok (ty, payload) := by
  have hc := asAttestation_common env now v b policy ms hm hd hs ty payload
  unfold verifyArtifact at h
  split at h
  · cases h
  · next h0 =>
    unfold verifyDsse
    rw [hc, h0]
    dsimp only
    unfold checkArtifact at h
    rw [hm] at h
    dsimp only at h
    rw [if_pos hv] at h
    split at h
    · cases h
    · split at h
      · cases h
      · next hp =>
        split at h
        · cases h
        · next hkind =>
          unfold verifyPrehashed at hp
          rw [hk] at hp
          dsimp only at hp
          rw [if_pos (show (sha256Digest env.crypto (.bytes (Dsse.pae ty payload))).algorithm = .sha2_256 from rfl)] at hp
          split at hp
          · split at hp
            · next hsig =>
              unfold checkDsse
              rw [show (asAttestation b ms.signature ty payload).inner.dsseEnvelope = some ⟨payload, ty, [ms.signature]⟩ from rfl]
              dsimp only
              rw [show envelopeInit ⟨payload, ty, [ms.signature]⟩ = .ok ms.signature from by
                unfold envelopeInit; dsimp only; rw [if_neg hs]]
              dsimp only
              have h1 : dsseVerify env.crypto b.cert.pubKey ⟨payload, ty, [ms.signature]⟩ = .ok payload := by
                unfold dsseVerify ecVerify
                rw [hk]
                dsimp only
                rw [if_pos (show env.crypto.ecdsa b.cert.pubKey (env.crypto.sha256 (Dsse.pae ty payload)) ms.signature = true from hsig)]
              rw [show (asAttestation b ms.signature ty payload).cert = b.cert from rfl, h1]
              dsimp only
              rw [show (asAttestation b ms.signature ty payload).entry = b.entry from rfl,
                if_pos ⟨not_not.1 hkind, hv⟩]
              have h2 : validateHashedrekordV002Dsse env b.cert b.entry ⟨payload, ty, [ms.signature]⟩ = .ok () := by
                unfold validateHashedrekordV002 v2Verifier getKeyDetails at h
                rw [hk] at h
                unfold validateHashedrekordV002Dsse v2Verifier getKeyDetails
                rw [hk]
                exact h
              rw [h2]
            · cases hp
          · cases hp

theorem artifact_body {env : Env} {b : Bundle} {input : HashInput} (h : checkArtifact env b input = .ok ()) :
    ∃ ms, b.inner.messageSignature = some ms ∧ b.entry.kind = "hashedrekord".toList ∧
      (sha256Digest env.crypto input).algorithm = .sha2_256 ∧
      ((b.entry.version = "0.0.2".toList ∧ ∃ kd, getKeyDetails b.cert = .ok kd ∧
        env.parseV2 b.entry.body = some ⟨b.entry.kind, b.entry.version, some ⟨(sha256Digest env.crypto input).algorithm,
          (sha256Digest env.crypto input).digest, ms.signature, .x509 b.cert.der, kd⟩⟩) ∨
       (b.entry.version = "0.0.1".toList ∧ ∃ a, env.parseHashedrekord b.entry.body = some a ∧ a.apiVersion = "0.0.1".toList)) := by
  unfold checkArtifact at h
  dsimp only at h
  split at h
  · cases h
  · next ms hm =>
    refine ⟨ms, hm, ?_⟩
    split at h
    · cases h
    · split at h
      · cases h
      · next hp =>
        split at h
        · cases h
        · next hk =>
          refine ⟨not_not.1 hk, ?_, ?_⟩
          · unfold verifyPrehashed at hp
            split at hp
            · cases hp
            · split at hp <;> cases hp
            · split at hp <;> cases hp
            · split at hp
              · assumption
              · cases hp
          · split at h
            · next hv =>
              refine .inl ⟨hv, ?_⟩
              unfold validateHashedrekordV002 v2Verifier at h
              split at h
              · cases h
              · next hx =>
                split at hx
                · cases hx
                · next kd' hkd =>
                  cases hx
                  refine ⟨_, hkd, ?_⟩
                  dsimp only at h
                  split at h
                  · cases h
                  · next actual ha =>
                    split at h
                    · cases h
                    · next he => exact ha.trans (congrArg some (not_not.1 he).symm)
            · split at h
              · next hv =>
                refine .inr ⟨hv, ?_⟩
                unfold validateHashedrekordV001 at h
                split at h
                · cases h
                · next expected hx =>
                  split at h
                  · cases h
                  · next actual ha =>
                    split at h
                    · cases h
                    · next he =>
                      refine ⟨actual, ha, ?_⟩
                      rw [← not_not.1 he]
                      unfold hashedrekordFromParts at hx
                      split at hx
                      · cases hx; rfl
                      · cases hx
              · cases h

theorem dsse_body {env : Env} {b : Bundle} {ty : Str} {payload : Bytes} (h : checkDsse env b = .ok (ty, payload)) :
    ∃ sig, b.inner.dsseEnvelope = some ⟨payload, ty, [sig]⟩ ∧
      ((b.entry.version = "0.0.2".toList ∧ ∃ kd algorithm hash, getKeyDetails b.cert = .ok kd ∧ getPrehash kd = .ok (algorithm, hash) ∧
        env.parseV2 b.entry.body = some ⟨b.entry.kind, b.entry.version, some ⟨algorithm, env.crypto.hash hash (pae ty payload), sig,
          .x509 b.cert.der, kd⟩⟩) ∨
       ∃ d, env.parseDsse b.entry.body = some d) := by
  unfold checkDsse at h
  split at h
  · cases h
  · next e he =>
    split at h
    · cases h
    · next s hs =>
      have hsig : e.signatures = [s] := by
        unfold envelopeInit at hs
        split at hs
        · next h1 =>
          split at hs
          · cases hs
          · cases hs; exact h1
        · cases hs
      split at h
      · cases h
      · dsimp only at h
        split at h
        · cases h
        · next hx =>
          cases h
          refine ⟨s, ?_, ?_⟩
          · rw [he]; cases e; dsimp only at hsig ⊢; rw [hsig]
          · split at hx
            · next hv =>
              refine .inl ⟨hv.2, ?_⟩
              unfold validateHashedrekordV002Dsse v2Verifier at hx
              rw [hsig] at hx
              dsimp only at hx
              split at hx
              · cases hx
              · next hy =>
                split at hy
                · cases hy
                · next kd' hkd =>
                  cases hy
                  split at hx
                  · cases hx
                  · next algorithm hash hpre =>
                    split at hx
                    · cases hx
                    · next actual ha =>
                      split at hx
                      · cases hx
                      · next heq => exact ⟨_, algorithm, hash, hkd, hpre, ha.trans (congrArg some (not_not.1 heq).symm)⟩
            · split at hx
              · unfold validateDsseV001 at hx
                split at hx
                · cases hx
                · next d hd => exact .inr ⟨d, hd⟩
              · cases hx

/-- **C112** If an accepted artifact and an accepted attestation have log entries with the same body then both are entries of the second
version, with the same signature and certificate, and the artifact's digest is that of the encoded attestation.  (Missing: that there is
no such pair, which is false.) -/
theorem C112_same_entry_partial (env : Env) (hr : SameMembers env) (now now' : Time) (v v' : Verifier) (b b' : Bundle)
    (policy policy' : Cert → Py Unit) (input : HashInput) (ty : Str) (payload : Bytes)
    (h : verifyArtifact env now v input b policy = .ok ()) (h' : verifyDsse env now' v' b' policy' = .ok (ty, payload))
    (hb : b.entry.body = b'.entry.body) :
    b.entry.version = "0.0.2".toList ∧ b'.entry.version = "0.0.2".toList ∧ b.cert.der = b'.cert.der ∧
      (∃ ms, b.inner.messageSignature = some ms ∧ b'.inner.dsseEnvelope = some ⟨payload, ty, [ms.signature]⟩) ∧
      sha256Digest env.crypto input = sha256Digest env.crypto (.bytes (pae ty payload)) := by
  have h1 : checkArtifact env b input = .ok () := by
    unfold verifyArtifact at h
    split at h
    · cases h
    · exact h
  have h2 : checkDsse env b' = .ok (ty, payload) := by
    unfold verifyDsse at h'
    split at h'
    · cases h'
    · exact h'
  obtain ⟨ms, a1, a2, a3, a4⟩ := artifact_body h1
  obtain ⟨sig, c1, c2⟩ := dsse_body h2
  rw [← hb] at c2
  rcases a4 with ⟨av, kd, ak, ap⟩ | ⟨av, a, ap, aa⟩
  · rcases c2 with ⟨cv, kd', alg, hash, ck, cp, cq⟩ | ⟨d, cd⟩
    · have heq := ap.symm.trans cq
      injection heq with heq
      injection heq with e1 e2 e3
      injection e3 with e3
      injection e3 with f1 f2 f3 f4 f5
      injection f4 with f4
      subst f3 f5
      refine ⟨av, cv, f4, ⟨ms, a1, c1⟩, ?_⟩
      have hh : hash = .sha256 := by
        rw [a3] at f1
        subst f1
        revert cp
        cases kd <;> first | (intro cp; cases cp; rfl) | (intro cp; cases cp)
      subst hh
      cases hd : sha256Digest env.crypto input with
      | mk alg' dig =>
        rw [hd] at a3 f2
        dsimp only at a3 f2
        rw [a3, f2]
        rfl
    · have := hr.kindV2 _ _ _ cd ap
      exact absurd (a2.symm.trans this) (by decide)
  · rcases c2 with ⟨cv, kd', alg, hash, ck, cp, cq⟩ | ⟨d, cd⟩
    · have := hr.version _ _ _ ap cq
      exact absurd (aa.symm.trans (this.trans cv)) (by decide)
    · have := hr.kind _ _ ap
      rw [cd] at this
      cases this

theorem pae_prefix (ty : Str) (payload : Bytes) : attestationPrefix <+: pae ty payload := by
  refine ⟨utf8 (decimal ty.length ++ " ".toList ++ ty ++ " ".toList) ++ (utf8 (decimal payload.length) ++ utf8 " ".toList ++ payload), ?_⟩
  unfold Dsse.pae
  rw [show utf8 ("DSSEv1 ".toList ++ decimal ty.length ++ " ".toList ++ ty ++ " ".toList) =
    attestationPrefix ++ utf8 (decimal ty.length ++ " ".toList ++ ty ++ " ".toList) from ?_]
  · exact (List.append_assoc _ _ _).symm
  · unfold utf8
    simp only [List.flatMap_append, List.append_assoc]
    rfl

/-- **C112** Consequence: the evidence for a document that does not begin like an attestation is no evidence for any attestation, unless
the hash function has a collision. -/
theorem C112_other_documents_partial (env : Env) (hr : SameMembers env) (now now' : Time) (v v' : Verifier) (b b' : Bundle)
    (policy policy' : Cert → Py Unit) (d : Bytes) (ty : Str) (payload : Bytes) (hd : ¬ attestationPrefix <+: d)
    (hc : env.crypto.sha256 d = env.crypto.sha256 (pae ty payload) → d = pae ty payload)
    (h : verifyArtifact env now v (.bytes d) b policy = .ok ()) (hb : b.entry.body = b'.entry.body) :
    verifyDsse env now' v' b' policy' ≠ .ok (ty, payload) := by
  intro h'
  obtain ⟨-, -, -, -, heq⟩ := C112_same_entry_partial env hr now now' v v' b b' policy policy' _ ty payload h h' hb
  exact hd (hc (Hashed.mk.inj heq).2 ▸ pae_prefix ty payload)

/-! ## A concrete case -/

/-- the payload of the attestation that was never signed as one (the "digest" of the encoding has 32 bytes) -/
def exSmuggled : Bytes := List.replicate 18 65

/-- the file that was signed -/
def exEncoded : Bytes := Dsse.pae "t".toList exSmuggled

/-- the signature of the file -/
def exSmuggledSignature : Bytes := [2, 30] ++ exEncoded

/-- the world of the example with a log of the second version that has the entry of the file -/
def exConfusedEnv : Env :=
  { exVEnv with
    parseHashedrekord := fun _ => none
    parseDsse := fun _ => none
    parseV2 := fun b => if b = exBody then some ⟨"hashedrekord".toList, "0.0.2".toList,
      some ⟨.sha2_256, exEncoded, exSmuggledSignature, .x509 exSigner.der, .pkixEcdsaP256Sha256⟩⟩ else none }

theorem exConfusedEnv_members : SameMembers exConfusedEnv :=
  ⟨fun _ _ _ h => (by cases h), fun _ _ h => (by cases h), fun _ _ _ h => (by cases h)⟩

/-- the entry of the file -/
def exConfusedEntry : LogEntry := { exLogged "hashedrekord".toList "0.0.2".toList with integratedTime := none, promise := none }

/-- the bundle of the file -/
def exConfused : Bundle :=
  ⟨{ exBundle.inner with tlogEntries := [exConfusedEntry], messageSignature := some ⟨some exEncoded, exSmuggledSignature⟩ }, exSigner,
   exConfusedEntry⟩

theorem exConfused_accepted :
    verifyArtifact exConfusedEnv 3000000000 exVerifier (.bytes (Dsse.pae "t".toList exSmuggled)) exConfused (fun _ => .ok ()) = .ok () := by
  decide +kernel

/-- **C112** refuted, concretely -/
theorem C112_smuggled :
    verifyDsse exConfusedEnv 3000000000 exVerifier (asAttestation exConfused exSmuggledSignature "t".toList exSmuggled) (fun _ => .ok ()) =
      .ok ("t".toList, exSmuggled) :=
  C112_artifact_as_attestation exConfusedEnv 3000000000 exVerifier exConfused _ _ _ exConfused_accepted rfl rfl rfl _ rfl (by decide)

/-- the hypotheses of `C112_same_entry_partial` are met -/
example : sha256Digest exConfusedEnv.crypto (.bytes exEncoded) = sha256Digest exConfusedEnv.crypto (.bytes (Dsse.pae "t".toList exSmuggled)) :=
  (C112_same_entry_partial exConfusedEnv exConfusedEnv_members _ _ _ _ _ _ _ _ _ _ _ exConfused_accepted C112_smuggled rfl).2.2.2.2

/-- another file, which does not begin like an attestation -/
example : ¬ attestationPrefix <+: exArtifact := by decide

end Sigstore.Props
