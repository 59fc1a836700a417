import Verif.Spec.World
import Verif.Props.Checkpoint
import Verif.Props.Codecs
import Verif.Props.Merkle
import Verif.Props.Policy
import Verif.Props.Verification

/-!
# C73-C77: what an accepted bundle says about the world
-/

namespace Sigstore.Props

open Sigstore.Trust Sigstore.LogEntry Sigstore.Dsse Sigstore.Sct Sigstore.Spec Sigstore.Policy Sigstore.Rfc6962

/-! ## C75: the two kinds of text a log signs cannot be confused -/

theorem promiseText_last (body : Bytes) (t : Int) (id : Bytes) (i : Int) :
    (promiseText body t id i).getLast? = some '}' := by
  rw [← canonicalText_eq]
  unfold canonicalText
  rw [List.getLast?_append, show "}".toList.getLast? = some '}' from rfl]
  rfl

theorem noteText_last (ck : Spec.Checkpoint) : ck.noteText.getLast? = some '\n' := by
  unfold Spec.Checkpoint.noteText Spec.Checkpoint.lines
  have : ∀ (l : List Str), l ≠ [] → (l.flatMap fun x => x ++ ['\n']).getLast? = some '\n' := by
    intro l hl
    induction l with
    | nil => exact absurd rfl hl
    | cons x xs ih =>
      cases xs with
      | nil => simp
      | cons y ys =>
        rw [List.flatMap_cons, List.getLast?_append, ih (by simp)]
        rfl
  exact this _ (by simp)

theorem promiseText_injective {b b' : Bytes} {t t' : Int} {id id' : Bytes} {i i' : Int}
    (h : promiseText b t id i = promiseText b' t' id' i') : b = b' ∧ t = t' ∧ id = id' ∧ i = i' := by
  rw [← canonicalText_eq, ← canonicalText_eq] at h
  obtain ⟨x1, x2, x3, x4⟩ := canonicalText_injective _ _ _ _ _ _ _ _ (b64Encode_no_quote _) (b64Encode_no_quote _)
    (decimalInt_no_comma _) (decimalInt_no_comma _) (hexEncode_no_quote _) (hexEncode_no_quote _) h
  exact ⟨b64Encode_injective x1, decimalInt_injective x2, hexEncode_injective x3, decimalInt_injective x4⟩

/-- **C75** What a log signs to promise an entry is never taken for a checkpoint: no text that is read as a signed note
is the payload of a promise. -/
theorem C75_promise_is_no_checkpoint (text : Str) (n : Sigstore.Checkpoint.SignedNote)
    (hn : Sigstore.Checkpoint.SignedNote.fromText text = .ok n) (e : LogEntry) (data : Bytes)
    (he : e.encodeCanonical = .ok data) : utf8 n.note ≠ data := by
  obtain ⟨t, _, _, _, rfl⟩ := (C08_set_payload_iff e data).1 he
  obtain ⟨_, _, hl, _⟩ := Sigstore.Checkpoint.signedNote_ok hn
  intro h
  have h := utf8_injective h
  rw [h] at hl
  have := promiseText_last e.body t e.logId e.logIndex
  rw [hl] at this
  revert this; decide

/-- **C75** Nor is it ever what a certificate transparency log signs: the second byte of an SCT's structure is 0, that of
a promise is a quotation mark. -/
theorem C75_promise_is_no_sct (e : LogEntry) (data : Bytes) (he : e.encodeCanonical = .ok data) (sct : Sct) (cert : Cert)
    (ik : Option Bytes) (data' : Bytes) (hs : packDigitallySigned sct cert ik = .ok data') : data ≠ data' := by
  obtain ⟨t, _, _, _, rfl⟩ := (C08_set_payload_iff e data).1 he
  obtain ⟨entry, _, _, _, _, rfl⟩ := (C26_is_rfc6962 _ _ _ _).1 hs
  intro h
  have h2 := congrArg (fun l : Bytes => l[1]?) h
  have : ∀ rest : Str, (utf8 ("{\"body\":\"".toList ++ rest))[1]? = some 34 := by
    intro rest
    rw [show "{\"body\":\"".toList = ['{', '"', 'b', 'o', 'd', 'y', '"', ':', '"'] from rfl]
    simp only [List.cons_append, utf8_cons]
    rfl
  rw [← canonicalText_eq] at h2
  unfold canonicalText at h2
  simp only [List.append_assoc] at h2
  rw [this] at h2
  simp [DigitallySigned.encode] at h2

/-! ## Verified times -/

theorem verifyTimestamps_sound (env : Env) (now : Time) (cas : List (CertificateAuthority Cert)) (sig : Py Bytes) :
    ∀ (tsrs : List Tsr) (l : List VerifiedTime), verifyTimestamps env now cas sig tsrs = .ok l →
      ∀ x ∈ l, ∃ s tsr, sig = .ok s ∧ x.time = tsr.genTime ∧ ∃ ca ∈ cas, Vouches env now s tsr ca := by
  intro tsrs
  induction tsrs with
  | nil => intro l h; simp [verifyTimestamps] at h; subst h; simp
  | cons t ts ih =>
    intro l h
    unfold verifyTimestamps at h
    cases sig with
    | error e => simp at h
    | ok s =>
      dsimp only at h
      split at h
      · simp at h
      · rename_i r hr
        split at h
        · simp at h
        · rename_i rest hrest
          rw [Except.ok.injEq] at h
          subst h
          intro x hx
          cases r with
          | none => exact ih rest hrest x hx
          | some y =>
            rcases List.mem_cons.1 hx with rfl | hx
            · obtain ⟨e, hv⟩ := C16_timestamp_sound env now t s cas x hr
              exact ⟨s, t, rfl, by rw [e], hv⟩
            · exact ih rest hrest x hx

theorem tsaTimes_sound (env : Env) (now : Time) (v : Verifier) (b : Bundle) (l : List VerifiedTime)
    (h : tsaTimes env now v b = .ok l) :
    ∀ x ∈ l, ∃ sig tsr, SignatureOf b.inner sig ∧ TrustedTsr env now v.root sig tsr ∧ x.time = tsr.genTime := by
  unfold tsaTimes at h
  split at h
  · simp at h
  · simp at h; subst h; simp
  · split at h
    · simp at h
    · simp at h
    · rename_i ca cas hg
      unfold verifyTimestampAuthority at h
      split at h
      · simp at h
      · split at h
        · simp at h
        · intro x hx
          obtain ⟨s, tsr, hs, ht, hv⟩ := verifyTimestamps_sound _ _ _ _ _ _ h x hx
          refine ⟨s, tsr, (signature_ok_iff b s).1 hs, ?_, ht⟩
          rcases getTimestampAuthorities_eq v.root with ⟨_, hg'⟩ | ⟨_, hg'⟩
          · rw [hg', Except.ok.injEq] at hg
            unfold TrustedTsr
            rw [hg]; exact hv
          · rw [hg'] at hg; simp at hg

/-- what a verified time goes back to: a trusted timestamp of the bundle's signature, or a promise of a trusted log -/
theorem verified_time_origin (env : Env) (now : Time) (v : Verifier) (b : Bundle) (policy : Cert → Py Unit)
    (h : verifyCommon env now v b policy = .ok ()) (l : List VerifiedTime) (hl : establishTime env now v b = .ok l)
    (x : VerifiedTime) (hx : x ∈ l) :
    (∃ sig tsr, SignatureOf b.inner sig ∧ TrustedTsr env now v.root sig tsr ∧ x.time = tsr.genTime) ∨
    ∃ t set, x.time = t * 1000000 ∧ ∃ m ∈ v.root.tlogs, ∃ key s, Denotes env.crypto m key s ∧
      Accepts env.crypto key s (utf8 (promiseText b.entry.body t b.entry.logId b.entry.logIndex)) set := by
  by_cases hs : x.source = .transparencyService
  · obtain ⟨t, set, _, ht, _, _, _, m, hm, _, key, s, hd, ha⟩ := C09_log_time_promised env now v b policy h l hl x hx hs
    exact .inr ⟨t, set, ht, m, hm, key, s, hd, ha⟩
  · left
    unfold establishTime at hl
    split at hl
    · simp at hl
    · rename_i l1 h1
      split at hl
      · simp at hl
      · rename_i l2 h2
        rw [Except.ok.injEq] at hl
        subst hl
        rcases List.mem_append.1 hx with hx | hx
        · exact tsaTimes_sound env now v b l1 h1 x hx
        · obtain ⟨ts, _, rfl⟩ := (logTime_ok_iff _ _).1 h2
          obtain ⟨t, _, rfl⟩ := List.mem_map.1 hx
          exact absurd rfl hs

/-- a promise of a trustworthy log: the entry was known at the promised time -/
theorem promise_known (c : Crypto) (h : History) (key : PubKey) (s : Scheme) (hlog : TrustworthyLog c h key s)
    (body : Bytes) (t : Int) (id : Bytes) (i : Int) (sig : Bytes)
    (ha : Accepts c key s (utf8 (promiseText body t id i)) sig) : h.known body (t * 1000000) := by
  rcases hlog _ _ ha with ⟨body', t', id', i', e, hk⟩ | ⟨ck, _, _, _, e⟩
  · obtain ⟨rfl, rfl, _, _⟩ := promiseText_injective (utf8_injective e)
    exact hk
  · have e := utf8_injective e
    have h1 := promiseText_last body t id i
    rw [e, noteText_last] at h1
    exact absurd h1 (by decide)

/-! ## C73: authenticity of attestations -/

theorem signed_in_time (env : Env) (now : Time) (v : Verifier) (h : History) (ht : Trustworthy env now v h)
    (b : Bundle) (policy : Cert → Py Unit) (hok : verifyCommon env now v b policy = .ok ()) (digest sig : Bytes)
    (hsig : (∀ s, SignatureOf b.inner s → s = sig) ∨
      ∃ l x, establishTime env now v b = .ok l ∧ x ∈ l ∧ x.source = .transparencyService)
    (hrev : Reveals env b.entry.body sig) (hec : env.crypto.ecdsa b.cert.pubKey digest sig = true) :
    h.issued b.cert ∧ ∃ τ, h.signed b.cert.pubKey digest sig τ ∧ τ ≤ b.cert.notAfter := by
  obtain ⟨l, hl, hne, hch, _, _, _, _, hwin⟩ := (verifyCommon_steps _ _ _ _ _).1 hok
  obtain ⟨t0, rest, htl⟩ := List.exists_cons_of_ne_nil hne
  have ht0 : t0 ∈ timesOf l := by rw [htl]; simp
  obtain ⟨chain, hchain⟩ := hch t0 ht0
  have hissued := ht.ca.issues _ _ _ hchain
  refine ⟨hissued, ?_⟩
  have hpromise : ∀ t set, ∀ m ∈ v.root.tlogs, ∀ key s, Denotes env.crypto m key s →
      Accepts env.crypto key s (utf8 (promiseText b.entry.body t b.entry.logId b.entry.logIndex)) set →
      h.known sig (t * 1000000) := fun t set m hm key sc hd ha =>
    ht.entries _ _ _ hrev (promise_known _ _ _ _ (ht.logs m hm key sc hd) _ _ _ _ _ ha)
  have hknown : ∃ x ∈ l, h.known sig x.time := by
    rcases hsig with hsig | ⟨l', x, hl', hx, hs⟩
    · obtain ⟨x, hx, _⟩ := List.mem_map.1 ht0
      refine ⟨x, hx, ?_⟩
      rcases verified_time_origin env now v b policy hok l hl x hx with
        ⟨s, tsr, h1, h2, h3⟩ | ⟨t, set, h3, m, hm, key, sc, hd, ha⟩
      · rw [h3, ← hsig s h1]; exact ht.tsas _ _ h2
      · rw [h3]; exact hpromise t set m hm key sc hd ha
    · rw [hl, Except.ok.injEq] at hl'
      subst hl'
      obtain ⟨t, set, _, h3, _, _, _, m, hm, _, key, sc, hd, ha⟩ := C09_log_time_promised env now v b policy hok l hl x hx hs
      exact ⟨x, hx, by rw [h3]; exact hpromise t set m hm key sc hd ha⟩
  obtain ⟨x, hx, hk⟩ := hknown
  obtain ⟨τ, hτ, hs⟩ := ht.signatures _ _ _ _ hec hk
  exact ⟨τ, hs, hτ.trans (hwin _ (List.mem_map.2 ⟨x, hx, rfl⟩)).2⟩

theorem hashedrekord_reveals {env : Env} {entry : LogEntry} {cert : Cert} {alg : HashAlgorithm} {digest sig : Bytes}
    (h : HashedrekordFor env entry cert alg digest sig) : Reveals env entry.body sig := by
  rcases h with ⟨_, ⟨_, _, hp⟩ | ⟨_, kd, hf, _, hp⟩⟩
  · exact .inl ⟨_, hp, rfl⟩
  · exact .inr (.inr ⟨_, _, hp, rfl, rfl⟩)

theorem dsse_reveals {env : Env} {entry : LogEntry} {cert : Cert} {e : EnvelopeMsg} {sig : Bytes}
    (h : DsseLogged env entry cert e sig) : Reveals env entry.body sig := by
  rcases h with ⟨_, _, hp⟩ | ⟨_, _, kd, alg, hf, _, hp⟩
  · exact .inr (.inl ⟨_, _, hp, rfl, by simp⟩)
  · exact .inr (.inr ⟨_, _, hp, rfl, rfl⟩)

theorem identity_holder (env : Env) (store : List Cert) (h : History) (hca : TrustworthyCa env store h) (cert : Cert)
    (hu : UniqueExts cert) (identity : Str) (issuer : Option Str)
    (hsize : ∀ i, issuer = some i → (utf8 i).length < 4294967296)
    (hp : (Policy.identity identity issuer).verify cert = .ok ()) (hi : h.issued cert) :
    ∃ iss, (∀ i, issuer = some i → i ≠ [] → i = iss) ∧ h.authenticated identity iss cert.pubKey cert.notBefore := by
  obtain ⟨h1, h2, _⟩ := (C22_identity_iff identity issuer cert hu hsize).1 hp
  obtain ⟨iss, h3, h4⟩ := hca.authenticates cert hi
  exact ⟨iss, fun i hi hne => h3 i (h1 i hi hne), h4 identity h2⟩

/-- **C73** What `verify_dsse` returns under an `Identity` policy is authentic: somebody with the certificate's private key
logged in as that identity when the certificate's validity began, and somebody with that key signed the pre-authentication
encoding of the returned type and payload before the validity ended. -/
theorem C73_dsse_authentic (env : Env) (now : Time) (v : Verifier) (h : History)
    (ht : Trustworthy env now v h) (b : Bundle) (hu : UniqueExts b.cert) (identity : Str) (issuer : Option Str)
    (hsize : ∀ i, issuer = some i → (utf8 i).length < 4294967296) (type_ : Str) (payload : Bytes)
    (hok : verifyDsse env now v b (Policy.identity identity issuer).verify = .ok (type_, payload)) :
    SignedBy h b.cert identity issuer (env.crypto.sha256 (pae type_ payload)) := by
  obtain ⟨hc, e, sig, he, _, _, hs1, hs2, _, hec, hlog⟩ := verifyDsse_parts hok
  have hsig : ∀ s, SignatureOf b.inner s → s = sig := by
    rintro s (⟨e', he', hs', _⟩ | ⟨hn, _⟩)
    · rw [he] at he'; cases he'; rw [hs1] at hs'; simpa using hs'.symm
    · rw [he] at hn; simp at hn
  obtain ⟨hi, τ, hs, hτ⟩ := signed_in_time env now v h ht b _ hc _ _ (.inl hsig) (dsse_reveals hlog) hec
  obtain ⟨_, _, _, _, _, _, hp, _⟩ := (verifyCommon_steps _ _ _ _ _).1 hc
  obtain ⟨iss, h1, h2⟩ := identity_holder env _ h ht.ca b.cert hu identity issuer hsize hp hi
  exact ⟨iss, _, τ, h1, h2, hs, hτ⟩

/-! ## C74: authenticity of artifacts -/

/-- **C74** (partial) If `verify_artifact` accepts a bundle under an `Identity` policy, somebody with the certificate's
private key logged in as that identity when the certificate's validity began, and somebody with that key signed the digest
of this very artifact before the validity ended.  What is missing: this is shown of bundles without an envelope and of
those with a time promised by the log, and false of others (`C74_timestamp_of_another_signature`). -/
theorem C74_artifact_authentic_partial (env : Env) (now : Time) (v : Verifier) (h : History)
    (ht : Trustworthy env now v h) (input : HashInput) (b : Bundle)
    (one : b.inner.dsseEnvelope = none ∨
      ∃ l x, establishTime env now v b = .ok l ∧ x ∈ l ∧ x.source = .transparencyService)
    (hu : UniqueExts b.cert) (identity : Str) (issuer : Option Str)
    (hsize : ∀ i, issuer = some i → (utf8 i).length < 4294967296)
    (hok : verifyArtifact env now v input b (Policy.identity identity issuer).verify = .ok ()) :
    SignedBy h b.cert identity issuer (sha256Digest env.crypto input).digest := by
  obtain ⟨hc, ms, hms, _, _, _, _, hec, hlog⟩ := verifyArtifact_parts hok
  have hsig : b.inner.dsseEnvelope = none → ∀ s, SignatureOf b.inner s → s = ms.signature := by
    rintro one s (⟨e, he, _⟩ | ⟨_, ms', hms', rfl⟩)
    · rw [one] at he; simp at he
    · rw [hms] at hms'; cases hms'; rfl
  obtain ⟨hi, τ, hs, hτ⟩ :=
    signed_in_time env now v h ht b _ hc _ _ (one.imp_left hsig) (hashedrekord_reveals hlog) hec
  obtain ⟨_, _, _, _, _, _, hp, _⟩ := (verifyCommon_steps _ _ _ _ _).1 hc
  obtain ⟨iss, h1, h2⟩ := identity_holder env _ h ht.ca b.cert hu identity issuer hsize hp hi
  exact ⟨iss, _, τ, h1, h2, hs, hτ⟩

/-! ## C76: transparency -/

/-- a hash without collisions among the strings hashed for the heads of the trusted logs and for checking the bundle's
inclusion proof -/
def NoCollision (env : Env) (v : Verifier) (h : History) (e : LogEntry) : Prop :=
  ∀ m ∈ v.root.tlogs, ∀ key s, Denotes env.crypto m key s → ∀ n p, e.proof = some p →
    ∀ x ∈ hashedByTree env.crypto.sha256 ((h.log key).take n) ++
        hashedByCheck env.crypto.sha256 (Merkle.codeDirs p.logIndex p.treeSize) e.body p.hashes,
      ∀ y ∈ hashedByTree env.crypto.sha256 ((h.log key).take n) ++
          hashedByCheck env.crypto.sha256 (Merkle.codeDirs p.logIndex p.treeSize) e.body p.hashes,
        env.crypto.sha256 x = env.crypto.sha256 y → x = y

theorem entry_in_log (env : Env) (now : Time) (v : Verifier) (h : History)
    (hlogs : TrustworthyLogs env.crypto v.root.tlogs h) (L : Nat) (hL : ∀ x, (env.crypto.sha256 x).length = L)
    (e : LogEntry) (nocoll : NoCollision env v h e) (hok : EntryOk env now v.root e) :
    ∃ m ∈ v.root.tlogs, ∃ key s, Denotes env.crypto m key s ∧ e.body ∈ h.log key := by
  obtain ⟨_, p, kr, hp, hm, hkr, hck, _⟩ := hok
  obtain ⟨text, note, data, htext, hsplit, hlast, _, ⟨origin, size, root, rest, hlines, hroot⟩, _, _, sig, _, _, _, m, hmem,
    key, s, hd, ha⟩ := C05_checkpoint_sound env.pyInt env.crypto _ kr hkr e.logId p hck
  have hmem : m ∈ v.root.tlogs := (List.mem_filter.1 hmem).1
  refine ⟨m, hmem, key, s, hd, ?_⟩
  rcases hlogs m hmem key s hd _ _ ha with ⟨body', t', id', i', e', _⟩ | ⟨ck, hwf, hsz, hrt, e'⟩
  · have e' := utf8_injective e'
    have h1 := promiseText_last body' t' id' i'
    rw [← e', hlast] at h1
    exact absurd h1 (by decide)
  · have e' := utf8_injective e'
    rw [e', Sigstore.Checkpoint.noteText_strip ck hwf] at hlines
    unfold Spec.Checkpoint.lines at hlines
    simp only [List.cons.injEq] at hlines
    obtain ⟨_, _, hr, _⟩ := hlines
    rw [← hr, C54_base64_roundtrip, Except.ok.injEq] at hroot
    have := C02_accepted_is_member env.crypto.sha256 L hL ((h.log key).take ck.size) e.body p
      (by rw [← hroot, hrt]) (nocoll m hmem key s hd ck.size p hp) hm
    exact List.mem_of_mem_take this

/-- **C76** An accepted artifact bundle can be found by whoever watches the logs: its entry is among the entries of a trusted
log, and records this certificate, this digest and this signature. -/
theorem C76_artifact_is_public (env : Env) (now : Time) (v : Verifier) (h : History)
    (hlogs : TrustworthyLogs env.crypto v.root.tlogs h) (L : Nat) (hL : ∀ x, (env.crypto.sha256 x).length = L)
    (input : HashInput) (b : Bundle) (policy : Cert → Py Unit) (nocoll : NoCollision env v h b.entry)
    (hok : verifyArtifact env now v input b policy = .ok ()) :
    (∃ m ∈ v.root.tlogs, ∃ key s, Denotes env.crypto m key s ∧ b.entry.body ∈ h.log key) ∧
    ∃ ms, b.inner.messageSignature = some ms ∧
      HashedrekordFor env b.entry b.cert .sha2_256 (sha256Digest env.crypto input).digest ms.signature := by
  obtain ⟨hc, ms, hms, _, _, _, _, _, hlog⟩ := verifyArtifact_parts hok
  obtain ⟨_, _, _, _, _, _, _, he, _⟩ := (verifyCommon_steps _ _ _ _ _).1 hc
  exact ⟨entry_in_log env now v h hlogs L hL b.entry nocoll he, ms, hms, hlog⟩

/-- **C76** The same for attestations. -/
theorem C76_dsse_is_public (env : Env) (now : Time) (v : Verifier) (h : History)
    (hlogs : TrustworthyLogs env.crypto v.root.tlogs h) (L : Nat) (hL : ∀ x, (env.crypto.sha256 x).length = L)
    (b : Bundle) (policy : Cert → Py Unit) (nocoll : NoCollision env v h b.entry) (type_ : Str) (payload : Bytes)
    (hok : verifyDsse env now v b policy = .ok (type_, payload)) :
    (∃ m ∈ v.root.tlogs, ∃ key s, Denotes env.crypto m key s ∧ b.entry.body ∈ h.log key) ∧
    ∃ e sig, e.payloadType = type_ ∧ e.payload = payload ∧ e.signatures = [sig] ∧ DsseLogged env b.entry b.cert e sig := by
  obtain ⟨hc, e, sig, _, h1, h2, h3, _, _, _, hlog⟩ := verifyDsse_parts hok
  obtain ⟨_, _, _, _, _, _, _, he, _⟩ := (verifyCommon_steps _ _ _ _ _).1 hc
  exact ⟨entry_in_log env now v h hlogs L hL b.entry nocoll he, e, sig, h1, h2, h3, hlog⟩

/-! ## C77: the certificate itself is public -/

/-- **C77** The certificate of an accepted bundle was submitted to a trusted certificate transparency log: the log took
responsibility for this certificate, or for its precertificate under the key of its issuer in the verified chain. -/
theorem C77_certificate_is_public (env : Env) (now : Time) (v : Verifier) (h : History)
    (hct : TrustworthyCtLogs env.crypto v.root.ctlogs h) (b : Bundle) (policy : Cert → Py Unit)
    (hok : (∃ input, verifyArtifact env now v input b policy = .ok ()) ∨ ∃ r, verifyDsse env now v b policy = .ok r) :
    ∃ m ∈ v.root.ctlogs, ∃ key s, Denotes env.crypto m key s ∧ ∃ d, h.promised key d ∧
      (d.entry = .x509 b.cert.der ∨
        ∃ t chain issuer, env.buildChain v.fulcioCerts t b.cert = some chain ∧ IssuerIn chain issuer ∧
          d.entry = .precert (env.crypto.sha256 issuer.pubKey.spki) b.cert.tbsPrecert) := by
  have hc : verifyCommon env now v b policy = .ok () := by
    rcases hok with ⟨input, h⟩ | ⟨⟨ty, p⟩, h⟩
    · exact (verifyArtifact_parts h).1
    · exact (verifyDsse_parts h).1
  obtain ⟨_, _, _, _, ⟨t, chain, _, hchain, _, sct, ik, entry, _, _, hbound, hfor, hvalid, hts, hext, hacc⟩, _⟩ :=
    (verifyCommon_steps _ _ _ _ _).1 hc
  have hex : ∃ m ∈ v.root.ctlogs, ∃ key s, Denotes env.crypto m key s ∧ Accepts env.crypto key s
      (DigitallySigned.encode ⟨sct.version, sctMillis sct.timestamp, entry, sct.extensionBytes⟩) sct.signature := by
    have : ∀ id key s, Effective env.crypto (startedKeys now v.root.ctlogs) id key s →
        ∃ m ∈ v.root.ctlogs, Denotes env.crypto m key s := by
      rintro id key s ⟨pre, m, post, e, hd, _⟩
      have : m ∈ startedKeys now v.root.ctlogs := by rw [e]; simp
      exact ⟨m, (List.mem_filter.1 this).1, hd⟩
    rcases hacc with ⟨key, s, he, ha⟩ | ⟨_, id', key, s, he, ha⟩
    · obtain ⟨m, hm, hd⟩ := this _ _ _ he
      exact ⟨m, hm, key, s, hd, ha⟩
    · obtain ⟨m, hm, hd⟩ := this _ _ _ he
      exact ⟨m, hm, key, s, hd, ha⟩
  obtain ⟨m, hm, key, s, hd, ha⟩ := hex
  obtain ⟨d, hdv, hde, hp⟩ := hct m hm key s hd _ _ ha
  have := C26_encode_injective _ _ ⟨sctMillis_lt _ hts, hvalid, hext⟩ hdv hde
  subst this
  refine ⟨m, hm, key, s, hd, _, hp, ?_⟩
  cases hfor with
  | x509 _ => exact .inl rfl
  | precert hpre id hid =>
    subst hid
    cases hbound with
    | precert _ issuer hi _ => exact .inr ⟨t, chain, issuer, hchain, hi, rfl⟩

end Sigstore.Props
