import Verif.Props.Verifier
import Mathlib.Data.List.Perm.Basic

/-!
# Consequences of the verifier's specification

C09, C15, C17, C18 and C20.
-/

namespace Sigstore.Props

open Sigstore.Trust Sigstore.LogEntry Sigstore.Dsse Sigstore.Sct Sigstore.Spec

/-! ## C15: the certificate was valid at every verified time -/

/-- **C15** After a successful verification there is a verified time, every verified time lies in the validity
window of the certificate (both ends included), and the certificate chains to the Fulcio certificates then. -/
theorem C15_valid_at_every_time (env : Env) (now : Time) (v : Verifier) (b : Bundle) (policy : Cert → Py Unit)
    (hw : ∀ ca ∈ v.root.timestampAuthorities, ca.validFor ≠ none)
    (h : (∃ input, verifyArtifact env now v input b policy = .ok ()) ∨ ∃ r, verifyDsse env now v b policy = .ok r)
    (times : List Time) (ht : TimesOf env now v.root b times) :
    times ≠ [] ∧ ∀ t ∈ times, b.cert.notBefore ≤ t ∧ t ≤ b.cert.notAfter ∧
      ∃ chain, env.buildChain v.fulcioCerts t b.cert = some chain := by
  have hc : verifyCommon env now v b policy = .ok () := by
    rcases h with ⟨input, h⟩ | ⟨⟨ty, p⟩, h⟩
    · exact (verifyArtifact_parts h).1
    · exact (verifyDsse_parts h).1
  obtain ⟨l, h1, h2, h3, _, _, _, _, h4⟩ := (verifyCommon_steps _ _ _ _ _).1 hc
  obtain ⟨l', h1', rfl⟩ := (C16_establish_time_iff env now v b hw times).2 ht
  rw [h1, Except.ok.injEq] at h1'
  subst h1'
  exact ⟨h2, fun t ht => ⟨(h4 t ht).1, (h4 t ht).2, h3 t ht⟩⟩

/-- **C15** A bundle whose certificate was not valid at one of its verified times is never accepted. -/
theorem C15_expired_rejected (env : Env) (now : Time) (v : Verifier) (b : Bundle) (policy : Cert → Py Unit)
    (hw : ∀ ca ∈ v.root.timestampAuthorities, ca.validFor ≠ none)
    (times : List Time) (ht : TimesOf env now v.root b times)
    (hbad : times = [] ∨ ∃ t ∈ times, t < b.cert.notBefore ∨ b.cert.notAfter < t) :
    (∀ input, verifyArtifact env now v input b policy ≠ .ok ()) ∧ ∀ r, verifyDsse env now v b policy ≠ .ok r := by
  have key : ¬ ((∃ input, verifyArtifact env now v input b policy = .ok ()) ∨
      ∃ r, verifyDsse env now v b policy = .ok r) := by
    intro h
    obtain ⟨h1, h2⟩ := C15_valid_at_every_time env now v b policy hw h times ht
    rcases hbad with hbad | ⟨t, htm, hbad⟩
    · exact h1 hbad
    · have := h2 t htm; omega
  exact ⟨fun i h => key (.inl ⟨i, h⟩), fun r h => key (.inr ⟨r, h⟩)⟩

/-! ## C09: the log's time is only used with a verified promise -/

theorem verifyTimestamps_source (env : Env) (now : Time) (cas : List (CertificateAuthority Cert))
    (sig : Py Bytes) : ∀ (tsrs : List Tsr) (l : List VerifiedTime), verifyTimestamps env now cas sig tsrs = .ok l →
      ∀ x ∈ l, x.source = .timestampAuthority := by
  intro tsrs
  induction tsrs with
  | nil => intro l h; simp [verifyTimestamps] at h; subst h; simp
  | cons t ts ih =>
    intro l h
    unfold verifyTimestamps at h
    split at h
    · simp at h
    · split at h
      · simp at h
      · rename_i r hr
        split at h
        · simp at h
        · rename_i rest hrest
          rw [Except.ok.injEq] at h
          subst h
          intro x hx
          cases r with
          | none => exact ih rest hrest x hx
          | some y =>
            rcases List.mem_cons.1 hx with rfl | hx
            · rw [(C16_timestamp_sound env now t _ cas x hr).1]
            · exact ih rest hrest x hx

theorem tsaTimes_source (env : Env) (now : Time) (v : Verifier) (b : Bundle) (l : List VerifiedTime)
    (h : tsaTimes env now v b = .ok l) : ∀ x ∈ l, x.source = .timestampAuthority := by
  unfold tsaTimes at h
  split at h
  · simp at h
  · simp at h; subst h; simp
  · split at h
    · simp at h
    · simp at h
    · unfold verifyTimestampAuthority at h
      split at h
      · simp at h
      · split at h
        · simp at h
        · exact verifyTimestamps_source _ _ _ _ _ _ h

/-- **C09** If an accepted bundle counted a time of the transparency log, then that time is the integrated time of
a `dsse` or `hashedrekord` entry of version 0.0.1 with a promise, and a trusted key of a log accepts the promise
as a signature of the entry's body, time, log id and index. -/
theorem C09_log_time_promised (env : Env) (now : Time) (v : Verifier) (b : Bundle) (policy : Cert → Py Unit)
    (h : verifyCommon env now v b policy = .ok ()) (l : List VerifiedTime) (hl : establishTime env now v b = .ok l)
    (x : VerifiedTime) (hx : x ∈ l) (hs : x.source = .transparencyService) :
    ∃ t set, b.entry.integratedTime = some t ∧ x.time = t * 1000000 ∧ b.entry.promise = some set ∧
      (b.entry.kind = "dsse".toList ∨ b.entry.kind = "hashedrekord".toList) ∧ b.entry.version = "0.0.1".toList ∧
      ∃ m ∈ v.root.tlogs, (∀ r, m.validFor = some r → r.start ≤ now) ∧
        ∃ key s, Denotes env.crypto m key s ∧ Accepts env.crypto key s
          (utf8 (promiseText b.entry.body t b.entry.logId b.entry.logIndex)) set := by
  obtain ⟨_, _, _, _, _, _, _, hentry, _⟩ := (verifyCommon_steps _ _ _ _ _).1 h
  unfold establishTime at hl
  split at hl
  · simp at hl
  · rename_i l1 h1
    split at hl
    · simp at hl
    · rename_i l2 h2
      rw [Except.ok.injEq] at hl
      subst hl
      rcases List.mem_append.1 hx with hx | hx
      · rw [tsaTimes_source env now v b l1 h1 x hx] at hs; simp at hs
      · obtain ⟨ts, hlt, rfl⟩ := (logTime_ok_iff _ _).1 h2
        obtain ⟨t', ht', rfl⟩ := List.mem_map.1 hx
        rcases hlt with ⟨t, a1, a2, a3, a4, a5, _, _, rfl⟩ | ⟨_, rfl⟩
        · obtain ⟨set, hset⟩ := Option.ne_none_iff_exists'.1 a3
          refine ⟨t, set, a1, by simpa using ht', hset, a4, a5, ?_⟩
          obtain ⟨_, p, kr, _, _, _, _, hset'⟩ := hentry
          obtain ⟨_, _, hk⟩ := hset' set t hset a1 a2
          have : ∃ id key s, Effective env.crypto (startedKeys now v.root.tlogs) id key s ∧
              Accepts env.crypto key s (utf8 (promiseText b.entry.body t b.entry.logId b.entry.logIndex)) set := by
            rcases hk with ⟨key, s, h1, h2⟩ | ⟨_, id, key, s, h1, h2⟩
            · exact ⟨_, key, s, h1, h2⟩
            · exact ⟨id, key, s, h1, h2⟩
          obtain ⟨id, key, s, ⟨pre, m, post, hm, hd, _⟩, ha⟩ := this
          have hmem : m ∈ startedKeys now v.root.tlogs := by rw [hm]; simp
          obtain ⟨hmem, hst⟩ := List.mem_filter.1 hmem
          refine ⟨m, hmem, ?_, key, s, hd, ha⟩
          intro r hr
          rw [hr] at hst
          simpa using hst
        · simp at ht'

/-- **C09** Without a promise, or without a time, the log contributes no time. -/
theorem C09_no_promise_no_time (env : Env) (now : Time) (v : Verifier) (b : Bundle)
    (hp : b.entry.promise = none ∨ b.entry.integratedTime = none ∨ b.entry.integratedTime = some 0)
    (l : List VerifiedTime) (hl : establishTime env now v b = .ok l) :
    ∀ x ∈ l, x.source = .timestampAuthority := by
  unfold establishTime at hl
  split at hl
  · simp at hl
  · rename_i l1 h1
    split at hl
    · simp at hl
    · rename_i l2 h2
      rw [Except.ok.injEq] at hl
      subst hl
      intro x hx
      rcases List.mem_append.1 hx with hx | hx
      · exact tsaTimes_source env now v b l1 h1 x hx
      · obtain ⟨ts, hlt, rfl⟩ := (logTime_ok_iff _ _).1 h2
        obtain ⟨t', ht', rfl⟩ := List.mem_map.1 hx
        rcases hlt with ⟨t, a1, a2, a3, _⟩ | ⟨_, rfl⟩
        · rcases hp with hp | hp | hp
          · exact absurd hp a3
          · rw [a1] at hp; simp at hp
          · rw [a1] at hp; simp only [Option.some.injEq] at hp; exact absurd hp a2
        · simp at ht'

/-! ## C17: untrusted or reordered timestamps -/

theorem signatureOf_unique {m : BundleMsg} {s s' : Bytes} (h : SignatureOf m s) (h' : SignatureOf m s') : s = s' := by
  rcases h with ⟨e, h1, h2, _⟩ | ⟨h1, ms, h2, h3⟩ <;> rcases h' with ⟨e', h1', h2', _⟩ | ⟨h1', ms', h2', h3'⟩
  · rw [h1, Option.some.injEq] at h1'
    subst h1'
    rw [h2] at h2'
    simpa using h2'
  · rw [h1] at h1'; simp at h1'
  · rw [h1] at h1'; simp at h1'
  · rw [h2, Option.some.injEq] at h2'
    subst h2'
    rw [← h3, ← h3']

/-- replaces the timestamps of a bundle -/
def withTimestamps (b : Bundle) (raws : List Bytes) : Bundle :=
  { b with inner := { b.inner with timestamps := raws } }

open Classical in
/-- **C17** Permuting the timestamps of a bundle and adding distinct ones that no trusted authority vouches for,
staying within the limit of 32, permutes the verified times. -/
theorem C17_extra_timestamps (env : Env) (now : Time) (v : Verifier) (b : Bundle)
    (hw : ∀ ca ∈ v.root.timestampAuthorities, ca.validFor ≠ none)
    (l : List VerifiedTime) (h : establishTime env now v b = .ok l)
    (raws' : List Bytes) (tsrs' extra : List Tsr) (hd : raws'.map env.decodeTsr = tsrs'.map some)
    (hperm : (tsrs'.map some).Perm (b.inner.timestamps.map env.decodeTsr ++ extra.map some))
    (hnd : tsrs'.Nodup) (hlen : tsrs'.length ≤ 32)
    (hcas : v.root.timestampAuthorities ≠ []) (hcerts : ∀ ca ∈ v.root.timestampAuthorities, ca.certificates ≠ [])
    (sig : Bytes) (hsig : SignatureOf b.inner sig)
    (hextra : ∀ t ∈ extra, ¬ TrustedTsr env now v.root sig t) :
    ∃ l', establishTime env now v (withTimestamps b raws') = .ok l' ∧ (timesOf l').Perm (timesOf l) := by
  obtain ⟨tsrs, sig', logTimes, h1, h2, h3, h4⟩ := (C16_establish_time_iff env now v b hw _).1 ⟨l, h, rfl⟩
  obtain ⟨l', hl', ht'⟩ := (C16_establish_time_iff env now v (withTimestamps b raws') hw _).2
    ⟨tsrs', sig, logTimes, hd, fun _ => ⟨hcas, hcerts, hlen, hnd, hsig⟩, h3, rfl⟩
  refine ⟨l', hl', ?_⟩
  rw [ht', h4]
  apply List.Perm.append_right
  have hp : tsrs'.Perm (tsrs ++ extra) := by
    rw [h1, ← List.map_append] at hperm
    exact (List.map_perm_map_iff (Option.some_injective _)).1 hperm
  have hf : tsrs.filter (fun t => decide (TrustedTsr env now v.root sig t)) =
      tsrs.filter (fun t => decide (TrustedTsr env now v.root sig' t)) := by
    cases tsrs with
    | nil => rfl
    | cons t ts => rw [signatureOf_unique hsig (h2 (by simp)).2.2.2.2]
  have hfe : extra.filter (fun t => decide (TrustedTsr env now v.root sig t)) = [] := by
    rw [List.filter_eq_nil_iff]
    intro t ht
    simpa using hextra t ht
  refine (hp.filter _).map _ |>.trans ?_
  rw [List.filter_append, hfe, List.append_nil, hf]

/-! ## C18: no confusion between artifacts and attestations -/

/-- **C18** `verify_artifact` never accepts a bundle without message signature or whose entry is not a
`hashedrekord`. -/
theorem C18_artifact_needs_message_signature (env : Env) (now : Time) (v : Verifier) (input : HashInput) (b : Bundle)
    (policy : Cert → Py Unit) (h : verifyArtifact env now v input b policy = .ok ()) :
    b.inner.messageSignature ≠ none ∧ b.entry.kind = "hashedrekord".toList ∧
      (b.entry.version = "0.0.1".toList ∨ b.entry.version = "0.0.2".toList) := by
  obtain ⟨_, ms, h1, _, _, _, _, _, h2, h3⟩ := verifyArtifact_parts h
  refine ⟨by rw [h1]; simp, h2, ?_⟩
  rcases h3 with ⟨h, _⟩ | ⟨h, _⟩
  · exact .inl h
  · exact .inr h

/-- **C18** `verify_dsse` never accepts a bundle without envelope, or whose entry is neither a `dsse` entry of
version 0.0.1 nor a `hashedrekord` entry of version 0.0.2. -/
theorem C18_dsse_needs_envelope (env : Env) (now : Time) (v : Verifier) (b : Bundle)
    (policy : Cert → Py Unit) (r : Str × Bytes) (h : verifyDsse env now v b policy = .ok r) :
    b.inner.dsseEnvelope ≠ none ∧
      ((b.entry.kind = "dsse".toList ∧ b.entry.version = "0.0.1".toList) ∨
       (b.entry.kind = "hashedrekord".toList ∧ b.entry.version = "0.0.2".toList)) := by
  obtain ⟨_, e, sig, h1, _, _, _, _, _, _, h2⟩ := verifyDsse_parts (type_ := r.1) (payload := r.2) h
  refine ⟨by rw [h1]; simp, ?_⟩
  rcases h2 with ⟨h, h', _⟩ | ⟨h, h', _⟩
  · exact .inl ⟨h, h'⟩
  · exact .inr ⟨h, h'⟩

/-- **C18** The content of a bundle is one of the two, so the same bundle is never accepted both as an artifact's
signature and as an attestation. -/
theorem C18_exclusive (env : Env) (now now' : Time) (v v' : Verifier) (input : HashInput) (b : Bundle)
    (policy policy' : Cert → Py Unit) (r : Str × Bytes)
    (honeof : b.inner.messageSignature = none ∨ b.inner.dsseEnvelope = none)
    (h : verifyArtifact env now v input b policy = .ok ()) : verifyDsse env now' v' b policy' ≠ .ok r := by
  intro h'
  rcases honeof with ho | ho
  · exact (C18_artifact_needs_message_signature env now v input b policy h).1 ho
  · exact (C18_dsse_needs_envelope env now' v' b policy' r h').1 ho

/-! ## C20: one bundle vouches for one artifact -/

/-- **C20** If a bundle is accepted for two inputs, whatever the verifiers, policies and instants, then the inputs
have the same SHA-256 digest. -/
theorem C20_one_artifact (env : Env) (now now' : Time) (v v' : Verifier) (input input' : HashInput) (b : Bundle)
    (policy policy' : Cert → Py Unit) (h : verifyArtifact env now v input b policy = .ok ())
    (h' : verifyArtifact env now' v' input' b policy' = .ok ()) :
    sha256Digest env.crypto input = sha256Digest env.crypto input' := by
  obtain ⟨_, ms, h1, _, ha, _, _, _, _, h3⟩ := verifyArtifact_parts h
  obtain ⟨_, ms', h1', _, ha', _, _, _, _, h3'⟩ := verifyArtifact_parts h'
  have hd : (sha256Digest env.crypto input).digest = (sha256Digest env.crypto input').digest := by
    rcases h3 with ⟨hv, _, h3⟩ | ⟨hv, kd, hf, _, h3⟩ <;> rcases h3' with ⟨hv', _, h3'⟩ | ⟨hv', kd', hf', _, h3'⟩
    · rw [h3] at h3'
      simp only [Option.some.injEq, HashedrekordBody.mk.injEq, Prod.mk.injEq, true_and] at h3'
      exact hexEncode_injective h3'.2
    · rw [hv] at hv'; exact absurd hv' (by decide)
    · rw [hv] at hv'; exact absurd hv' (by decide)
    · rw [h3] at h3'
      simp only [Option.some.injEq, V2Entry.mk.injEq, HashedRekordV002.mk.injEq, true_and] at h3'
      exact h3'.1
  generalize sha256Digest env.crypto input = a at *
  generalize sha256Digest env.crypto input' = a' at *
  obtain ⟨alg, d⟩ := a
  obtain ⟨alg', d'⟩ := a'
  dsimp only at ha ha' hd
  rw [ha, ha', hd]

/-- **C20** Two documents with the same bundle are equal, unless SHA-256 collides on them. -/
theorem C20_same_document (env : Env) (now now' : Time) (v v' : Verifier) (d d' : Bytes) (b : Bundle)
    (policy policy' : Cert → Py Unit) (h : verifyArtifact env now v (.bytes d) b policy = .ok ())
    (h' : verifyArtifact env now' v' (.bytes d') b policy' = .ok ())
    (nocoll : env.crypto.sha256 d = env.crypto.sha256 d' → d = d') : d = d' := by
  have := C20_one_artifact env now now' v v' _ _ b policy policy' h h'
  simp only [sha256Digest, Hashed.mk.injEq] at this
  exact nocoll this.2

end Sigstore.Props
