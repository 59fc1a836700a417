import Verif.Spec.Signing
import Verif.Props.VerificationExamples

/-!
# C35-C37: signing
-/

namespace Sigstore.Props

open Sigstore.Trust Sigstore.LogEntry Sigstore.Dsse Sigstore.Sct Sigstore.Spec Sigstore.Signing Sigstore.Rekor

/-! ## Fulcio -/

theorem loadPems_ok_iff (loadPem : Bytes → Option Cert) : ∀ (pems : List Bytes) (cs : List Cert),
    loadPems loadPem pems = .ok cs ↔ pems.map loadPem = cs.map some := by
  intro pems
  induction pems with
  | nil => intro cs; cases cs <;> simp [loadPems]
  | cons b bs ih =>
    intro cs
    rw [loadPems]
    cases hb : loadPem b with
    | none => cases cs <;> simp [hb]
    | some c =>
      cases hl : loadPems loadPem bs with
      | error e =>
        have : ∀ cs : List Cert, bs.map loadPem ≠ cs.map some := fun cs h => by
          have := (ih cs).2 h
          rw [hl] at this; simp at this
        cases cs with
        | nil => simp
        | cons c' cs' =>
          dsimp only
          constructor
          · simp
          · intro h
            simp only [List.map_cons, hb, List.cons.injEq] at h
            exact absurd h.2 (this _)
      | ok cs₀ =>
        have h0 := ih cs₀
        rw [hl] at h0
        have h0 := h0.1 rfl
        cases cs with
        | nil => simp
        | cons c' cs' =>
          simp only [Except.ok.injEq, List.cons.injEq, List.map_cons, hb, Option.some.injEq, h0]
          refine and_congr_right fun _ => ?_
          exact (List.map_injective_iff.2 (Option.some_injective _)).eq_iff.symm

theorem loadPems_error_iff (loadPem : Bytes → Option Cert) : ∀ (pems : List Bytes) (e : Exc),
    loadPems loadPem pems = .error e ↔ e = .valueError ∧ ∃ b ∈ pems, loadPem b = none := by
  intro pems
  induction pems with
  | nil => intro e; simp [loadPems]
  | cons b bs ih =>
    intro e
    rw [loadPems]
    cases hb : loadPem b with
    | none => simp [hb, eq_comm]
    | some c =>
      have := ih e
      cases hl : loadPems loadPem bs with
      | error e' => rw [hl] at this; simpa [hb] using this
      | ok cs => rw [hl] at this; simpa [hb] using this

/-- **C64** The Fulcio client returns exactly: the first certificate of the response, and the others, of which there
is at least one, in order. -/
theorem C64_fulcio_ok_iff (loadPem : Bytes → Option Cert) (reply : FulcioReply) (cert : Cert) (chain : List Cert) :
    fulcioPost loadPem reply = .ok (cert, chain) ↔
      ∃ p ps, reply = .certificates (p :: ps) ∧ chain ≠ [] ∧ loadPem p = some cert ∧ ps.map loadPem = chain.map some := by
  cases reply with
  | httpError => simp [fulcioPost]
  | noChain => simp [fulcioPost]
  | certificates pems =>
    rw [fulcioPost]
    rcases pems with _ | ⟨p, _ | ⟨q, ps⟩⟩
    · simp
    · simp only [List.length_cons, List.length_nil, Nat.zero_add, Nat.one_lt_ofNat, ↓reduceIte, reduceCtorEq, false_iff]
      rintro ⟨p', ps', h1, h2, _, h3⟩
      cases h1
      cases chain <;> simp_all
    · rw [if_neg (by simp)]
      have h := loadPems_ok_iff loadPem (p :: q :: ps)
      cases hl : loadPems loadPem (p :: q :: ps) with
      | error e =>
        simp only [reduceCtorEq, false_iff]
        rintro ⟨p', ps', h1, h2, h3, h4⟩
        cases h1
        have := (h (cert :: chain)).2 (by simp only [List.map_cons] at h4 ⊢; rw [h3, h4])
        rw [hl] at this; simp at this
      | ok cs =>
        have h := h cs
        rw [hl] at h
        have h := h.1 rfl
        cases cs with
        | nil => simp at h
        | cons c cs =>
          simp only [List.map_cons, List.cons.injEq] at h
          simp only [Except.ok.injEq, Prod.mk.injEq, FulcioReply.certificates.injEq, List.cons.injEq]
          constructor
          · rintro ⟨rfl, rfl⟩
            refine ⟨p, q :: ps, ⟨rfl, rfl⟩, ?_, h.1, h.2⟩
            rintro rfl
            simp at h
          · rintro ⟨p', ps', ⟨rfl, rfl⟩, _, h1, h2⟩
            refine ⟨Option.some.inj (h.1.symm.trans h1), ?_⟩
            exact List.map_injective_iff.2 (Option.some_injective _) (h.2.symm.trans h2)

/-- **C64** Otherwise it raises: `FulcioClientError` for an error status, a response without certificates, or fewer than two of
them; `ValueError` for a certificate that does not load. -/
theorem C64_fulcio_error_iff (loadPem : Bytes → Option Cert) (reply : FulcioReply) (e : Exc) :
    fulcioPost loadPem reply = .error e ↔
      (e = .fulcioClient ∧ ∀ pems, reply = .certificates pems → pems.length < 2) ∨
      (e = .valueError ∧ ∃ pems, reply = .certificates pems ∧ 2 ≤ pems.length ∧ ∃ p ∈ pems, loadPem p = none) := by
  cases reply with
  | httpError => simp [fulcioPost, eq_comm]
  | noChain => simp [fulcioPost, eq_comm]
  | certificates pems =>
    rw [fulcioPost]
    by_cases hlen : pems.length < 2
    · rw [if_pos hlen]
      simp only [Except.error.injEq, FulcioReply.certificates.injEq, forall_eq', hlen, and_true]
      constructor
      · exact fun h => .inl h.symm
      · rintro (h | ⟨_, _, rfl, h, _⟩)
        · exact h.symm
        · omega
    · rw [if_neg hlen]
      simp only [FulcioReply.certificates.injEq, forall_eq', hlen, and_false, false_or, exists_eq_left',
        Nat.le_of_not_lt hlen, true_and]
      have h := loadPems_error_iff loadPem pems e
      cases hl : loadPems loadPem pems with
      | error e' =>
        rw [hl] at h
        simp only [Except.error.injEq] at h ⊢
        exact h
      | ok cs =>
        rw [hl] at h
        simp only [reduceCtorEq, false_iff] at h
        have hl' := congrArg List.length ((loadPems_ok_iff _ _ _).1 hl)
        cases cs with
        | nil => rw [List.length_map, List.map_nil, List.length_nil] at hl'; omega
        | cons c cs =>
          dsimp only
          simp only [reduceCtorEq, false_iff]
          exact h

example : fulcioPost (fun b => if b = [1] then some exSigner else some exIssuer) (.certificates [[1], [2]]) =
    .ok (exSigner, [exIssuer]) := by decide

/-! ## Timestamps -/

theorem collectTimestamps_ok_iff (sig : Bytes) : ∀ (tsas : List (Bytes → Py Tsr)) (ts : List Tsr),
    collectTimestamps sig tsas = .ok ts ↔
      (∀ tsa ∈ tsas, ∀ e, tsa sig = .error e → e = .timestamp) ∧ ts = answered sig tsas := by
  intro tsas
  induction tsas with
  | nil => intro ts; simp [collectTimestamps, answered, eq_comm]
  | cons f rest ih =>
    intro ts
    rw [collectTimestamps]
    cases hf : f sig with
    | error e =>
      have ha : answered sig (f :: rest) = answered sig rest := by simp [answered, hf, Except.toOption]
      rw [ha]
      dsimp only
      by_cases he : e = .timestamp
      · rw [if_pos he, ih]
        simp [hf, he]
      · rw [if_neg he]
        simp only [reduceCtorEq, List.mem_cons, forall_eq_or_imp, hf, Except.error.injEq, forall_eq', he, false_and]
    | ok t =>
      have ha : answered sig (f :: rest) = t :: answered sig rest := by simp [answered, hf, Except.toOption]
      rw [ha]
      dsimp only
      cases hr : collectTimestamps sig rest with
      | error e =>
        simp only [reduceCtorEq, false_iff]
        rintro ⟨h1, rfl⟩
        have := (ih (answered sig rest)).2 ⟨fun x hx => h1 x (List.mem_cons_of_mem _ hx), rfl⟩
        rw [hr] at this; cases this
      | ok ts' =>
        obtain ⟨h1, rfl⟩ := (ih ts').1 hr
        simp only [Except.ok.injEq, List.mem_cons, forall_eq_or_imp, hf, reduceCtorEq, false_implies, implies_true,
          true_and]
        constructor
        · rintro rfl; exact ⟨h1, rfl⟩
        · rintro ⟨_, rfl⟩; rfl

/-- **C37** A timestamp client only ever raises `TimestampError`, whatever the server does. -/
theorem C37_client_raises_timestamp_error (s : TsaServer) (sig : Bytes) (e : Exc)
    (h : requestTimestamp s sig = .error e) : e = .timestamp := by
  unfold requestTimestamp at h
  split at h
  · cases h; rfl
  · split at h
    · cases h; rfl
    · split at h
      · cases h; rfl
      · cases h

/-- **C37** and it returns exactly the decoded response of the server to the request for this signature. -/
theorem C37_client_returns_response (s : TsaServer) (sig : Bytes) (t : Tsr) :
    requestTimestamp s sig = .ok t ↔
      ∃ req content, s.build sig = some req ∧ s.post req = some content ∧ s.decode content = some t := by
  unfold requestTimestamp
  cases h1 : s.build sig with
  | none => simp
  | some req =>
    dsimp only
    cases h2 : s.post req with
    | none => simp [h2]
    | some content =>
      dsimp only
      cases h3 : s.decode content with
      | none => simp [h2, h3]
      | some t' => simp [h2, h3]

/-! ## Structure of a signing call -/

/-- the signature in the content of a bundle made for `call` -/
def signatureFor (c : Crypto) (kp : KeyPairs) (k nonce : Nat) : Call → Bytes
  | .artifact input => kp.sign k nonce (sha256Digest c input).digest
  | .dsse stmt => kp.sign k nonce (c.sha256 (pae inTotoType stmt.contents))

/-- the content of a bundle made for `call` -/
def contentFor (c : Crypto) (kp : KeyPairs) (k nonce : Nat) : Call → Content
  | .artifact input =>
    .message ⟨some (sha256Digest c input).digest, kp.sign k nonce (sha256Digest c input).digest⟩
  | .dsse stmt =>
    .envelope ⟨stmt.contents, inTotoType, [kp.sign k nonce (c.sha256 (pae inTotoType stmt.contents))]⟩

/-- the request for `call` -/
def requestFor (c : Crypto) (kp : KeyPairs) (v : ApiVersion) (k nonce : Nat) (cert : Cert) : Call → Py EntryRequest
  | .artifact input =>
    hashedRekordRequest v (sha256Digest c input) (kp.sign k nonce (sha256Digest c input).digest) cert
  | .dsse stmt =>
    dsseRequest c v ⟨stmt.contents, inTotoType, [kp.sign k nonce (c.sha256 (pae inTotoType stmt.contents))]⟩ cert

/-- what can be signed: a SHA-256 digest of 32 bytes, or a statement (whose signature is not empty) -/
def Signable (c : Crypto) (kp : KeyPairs) (k nonce : Nat) : Call → Prop
  | .artifact input => (sha256Digest c input).algorithm = .sha2_256 ∧ (sha256Digest c input).digest.length = 32
  | .dsse stmt => kp.sign k nonce (c.sha256 (pae inTotoType stmt.contents)) ≠ []

theorem signPrehashed_ok_iff (kp : KeyPairs) (k n : Nat) (h : Hashed) (sig : Bytes) :
    signPrehashed kp k n h = .ok sig ↔
      h.algorithm = .sha2_256 ∧ h.digest.length = 32 ∧ sig = kp.sign k n h.digest := by
  unfold signPrehashed
  by_cases h1 : h.algorithm = .sha2_256
  · by_cases h2 : h.digest.length = 32
    · rw [if_pos h1, if_pos h2]
      simp only [Except.ok.injEq, h1, h2, true_and]
      exact eq_comm
    · rw [if_pos h1, if_neg h2]; simp [h2]
  · rw [if_neg h1]; simp [h1]

theorem dsseSign_ok_iff (sign : Bytes → Bytes) (stmt : Statement) (e : EnvelopeMsg) :
    dsseSign sign stmt = .ok e ↔
      sign (pae inTotoType stmt.contents) ≠ [] ∧
      e = ⟨stmt.contents, inTotoType, [sign (pae inTotoType stmt.contents)]⟩ := by
  unfold dsseSign envelopeInit
  dsimp only
  by_cases h : sign (pae inTotoType stmt.contents) = []
  · rw [if_pos h]; simp [h]
  · rw [if_neg h]
    simp only [Except.ok.injEq, ne_eq, h, not_false_eq_true, true_and]
    exact eq_comm

/-- A call returns a bundle exactly when each of its steps succeeds. -/
theorem sign_ok_iff (env : Env) (ctx : Context) (kp : KeyPairs) (a : Answers) (s : Signer) (w w' : World)
    (call : Call) (b : Bundle) :
    s.sign env ctx kp a w call = (.ok b, w') ↔
      ∃ cert w₁ k request ts entry, s.signingCert env ctx kp a w = (.ok cert, w₁) ∧ s.privateKey w₁ = (k, w') ∧
        Signable env.crypto kp k a.nonce call ∧ requestFor env.crypto kp ctx.rekor k a.nonce cert call = .ok request ∧
        collectTimestamps (signatureFor env.crypto kp k a.nonce call) a.tsas = .ok ts ∧
        a.rekor request = .ok entry ∧
        Bundle.fromParts env cert (some (contentFor env.crypto kp k a.nonce call)) entry (some ts) = .ok b := by
  have fin : ∀ cert content sig request, finalizeSign env a cert content sig request = .ok b ↔
      ∃ ts entry, collectTimestamps sig a.tsas = .ok ts ∧ a.rekor request = .ok entry ∧
        Bundle.fromParts env cert (some content) entry (some ts) = .ok b := by
    intro cert content sig request
    unfold finalizeSign
    cases collectTimestamps sig a.tsas with
    | error e => simp
    | ok ts =>
      dsimp only
      cases a.rekor request with
      | error e => simp
      | ok entry => simp
  cases call with
  | artifact input =>
    rw [Signer.sign, Signer.signArtifact]
    cases hc : s.signingCert env ctx kp a w with
    | mk r w₁ =>
      cases r with
      | error e => simp
      | ok cert =>
        dsimp only
        cases hk : s.privateKey w₁ with
        | mk k w₂ =>
          dsimp only
          cases hs : signPrehashed kp k a.nonce (sha256Digest env.crypto input) with
          | error e =>
            simp only [Prod.mk.injEq, reduceCtorEq, false_and, false_iff, not_exists, not_and]
            intro cert' w₁' k' request ts entry h1 h2 h3
            simp only [Except.ok.injEq] at h1
            obtain ⟨rfl, rfl⟩ := h1
            rw [hk, Prod.mk.injEq] at h2
            obtain ⟨rfl, rfl⟩ := h2
            have := (signPrehashed_ok_iff kp k a.nonce _ _).2 ⟨h3.1, h3.2, rfl⟩
            rw [hs] at this; cases this
          | ok sig =>
            obtain ⟨h1, h2, rfl⟩ := (signPrehashed_ok_iff kp k a.nonce _ _).1 hs
            dsimp only
            cases hr : hashedRekordRequest ctx.rekor (sha256Digest env.crypto input)
                (kp.sign k a.nonce (sha256Digest env.crypto input).digest) cert with
            | error e =>
              simp only [Prod.mk.injEq, reduceCtorEq, false_and, false_iff, not_exists, not_and]
              intro cert' w₁' k' request ts entry h1 h2 h3 h4
              simp only [Except.ok.injEq] at h1
              obtain ⟨rfl, rfl⟩ := h1
              rw [hk, Prod.mk.injEq] at h2
              obtain ⟨rfl, rfl⟩ := h2
              rw [requestFor, hr] at h4; cases h4
            | ok request =>
              simp only [Prod.mk.injEq, fin, Except.ok.injEq]
              constructor
              · rintro ⟨⟨ts, entry, h4, h5, h6⟩, rfl⟩
                exact ⟨cert, w₁, k, request, ts, entry, ⟨rfl, rfl⟩, hk, ⟨h1, h2⟩, hr, h4, h5, h6⟩
              · rintro ⟨cert', w₁', k', request', ts, entry, ⟨rfl, rfl⟩, h7, h3, h8, h4, h5, h6⟩
                rw [hk, Prod.mk.injEq] at h7
                obtain ⟨rfl, rfl⟩ := h7
                rw [requestFor, hr, Except.ok.injEq] at h8
                subst h8
                exact ⟨⟨ts, entry, h4, h5, h6⟩, rfl⟩
  | dsse stmt =>
    rw [Signer.sign, Signer.signDsse]
    cases hc : s.signingCert env ctx kp a w with
    | mk r w₁ =>
      cases r with
      | error e => simp
      | ok cert =>
        dsimp only
        cases hk : s.privateKey w₁ with
        | mk k w₂ =>
          dsimp only
          cases hs : dsseSign (fun data => kp.sign k a.nonce (env.crypto.sha256 data)) stmt with
          | error e =>
            simp only [Prod.mk.injEq, reduceCtorEq, false_and, false_iff, not_exists, not_and]
            intro cert' w₁' k' request ts entry h1 h2 h3
            simp only [Except.ok.injEq] at h1
            obtain ⟨rfl, rfl⟩ := h1
            rw [hk, Prod.mk.injEq] at h2
            obtain ⟨rfl, rfl⟩ := h2
            have := (dsseSign_ok_iff (fun data => kp.sign k a.nonce (env.crypto.sha256 data)) stmt _).2 ⟨h3, rfl⟩
            rw [hs] at this; cases this
          | ok e =>
            obtain ⟨h1, rfl⟩ := (dsseSign_ok_iff _ _ _).1 hs
            dsimp only at h1 ⊢
            have he : envelopeInit ⟨stmt.contents, inTotoType,
                [kp.sign k a.nonce (env.crypto.sha256 (pae inTotoType stmt.contents))]⟩ =
                .ok (kp.sign k a.nonce (env.crypto.sha256 (pae inTotoType stmt.contents))) := by
              unfold envelopeInit; dsimp only; rw [if_neg h1]
            cases hr : dsseRequest env.crypto ctx.rekor ⟨stmt.contents, inTotoType,
                [kp.sign k a.nonce (env.crypto.sha256 (pae inTotoType stmt.contents))]⟩ cert with
            | error e =>
              simp only [Prod.mk.injEq, reduceCtorEq, false_and, false_iff, not_exists, not_and]
              intro cert' w₁' k' request ts entry h1 h2 h3 h4
              simp only [Except.ok.injEq] at h1
              obtain ⟨rfl, rfl⟩ := h1
              rw [hk, Prod.mk.injEq] at h2
              obtain ⟨rfl, rfl⟩ := h2
              rw [requestFor, hr] at h4; cases h4
            | ok request =>
              dsimp only
              rw [he]
              simp only [Prod.mk.injEq, fin, Except.ok.injEq]
              constructor
              · rintro ⟨⟨ts, entry, h4, h5, h6⟩, rfl⟩
                exact ⟨cert, w₁, k, request, ts, entry, ⟨rfl, rfl⟩, hk, h1, hr, h4, h5, h6⟩
              · rintro ⟨cert', w₁', k', request', ts, entry, ⟨rfl, rfl⟩, h7, h3, h8, h4, h5, h6⟩
                rw [hk, Prod.mk.injEq] at h7
                obtain ⟨rfl, rfl⟩ := h7
                rw [requestFor, hr, Except.ok.injEq] at h8
                subst h8
                exact ⟨⟨ts, entry, h4, h5, h6⟩, rfl⟩

/-- what `Bundle.fromParts` made of the content -/
theorem fromParts_content {env : Env} {kp : KeyPairs} {k n : Nat} {call : Call} {cert : Cert} {entry : LogEntry}
    {ts : List Tsr} {b : Bundle}
    (h : Bundle.fromParts env cert (some (contentFor env.crypto kp k n call)) entry (some ts) = .ok b) :
    SignedWith env.crypto kp b k n call ∧ b.inner.certificate = some cert.der ∧ b.inner.tlogEntries = [entry] ∧
      b.entry = entry ∧ b.inner.timestamps = ts.map Tsr.raw ∧ WellFormed env b.inner b.cert b.entry := by
  obtain ⟨h1, h2, h3, h4, h5, h6, h7, hw⟩ := (fromParts_ok_iff _ _ _ _ _ _).1 h
  refine ⟨?_, h2, h4, ?_, h5, hw⟩
  · cases call with
    | artifact input => exact ⟨h7, h6⟩
    | dsse stmt => exact ⟨h6, h7⟩
  · have := hw.oneEntry
    rw [h4] at this; simpa using this.symm

/-! ## C37 -/

/-- **C37** Whatever subset of timestamp authorities fails: if signing returns a bundle, it contains exactly the
timestamps of the authorities that answered, in order (every other authority raised `TimestampError`), its log entry is
what Rekor returned, and it has an inclusion promise or at least one timestamp. -/
theorem C37_timestamps (env : Env) (ctx : Context) (kp : KeyPairs) (a : Answers) (s : Signer) (w w' : World)
    (call : Call) (b : Bundle) (h : s.sign env ctx kp a w call = (.ok b, w')) :
    ∃ sig, SignatureOf b.inner sig ∧ b.inner.timestamps = (answered sig a.tsas).map Tsr.raw ∧
      (∀ tsa ∈ a.tsas, (∃ t, tsa sig = .ok t) ∨ tsa sig = .error .timestamp) ∧
      (∃ request, a.rekor request = .ok b.entry) ∧
      (b.entry.promise ≠ none ∨ b.inner.timestamps ≠ []) := by
  obtain ⟨cert, w₁, k, request, ts, entry, h1, h2, h3, h4, h5, h6, h7⟩ := (sign_ok_iff _ _ _ _ _ _ _ _ _).1 h
  obtain ⟨g1, g2, g3, rfl, g5, g6⟩ := fromParts_content h7
  obtain ⟨c1, rfl⟩ := (collectTimestamps_ok_iff _ _ _).1 h5
  refine ⟨signatureFor env.crypto kp k a.nonce call, ?_, g5, ?_, ⟨request, h6⟩, ?_⟩
  · cases call with
    | artifact input => exact .inr ⟨g1.1, _, g1.2, rfl⟩
    | dsse stmt => exact .inl ⟨_, g1.2, rfl, h3⟩
  · intro tsa ht
    cases hr : tsa (signatureFor env.crypto kp k a.nonce call) with
    | ok t => exact .inl ⟨t, rfl⟩
    | error e => exact .inr (by rw [c1 tsa ht e hr])
  · cases hp : b.entry.promise with
    | some _ => exact .inl (by simp)
    | none => exact .inr (g6.time hp).1

/-- **C37** Without an inclusion promise and without any answer from an authority, no bundle is returned. -/
theorem C37_no_time_source (env : Env) (ctx : Context) (kp : KeyPairs) (a : Answers) (s : Signer) (w w' : World)
    (call : Call) (hp : ∀ request entry, a.rekor request = .ok entry → entry.promise = none)
    (ht : ∀ tsa ∈ a.tsas, ∀ sig t, tsa sig ≠ .ok t) (b : Bundle) :
    s.sign env ctx kp a w call ≠ (.ok b, w') := by
  intro h
  obtain ⟨sig, _, h2, h3, ⟨request, h4⟩, h5⟩ := C37_timestamps env ctx kp a s w w' call b h
  rcases h5 with h5 | h5
  · exact h5 (hp _ _ h4)
  · apply h5
    rw [h2, List.map_eq_nil_iff, answered, List.filterMap_eq_nil_iff]
    intro tsa hm
    rcases h3 tsa hm with ⟨t, h⟩ | h
    · exact absurd h (ht tsa hm sig t)
    · rw [h]; rfl

/-- **C37** Failing authorities do not prevent signing: replacing any of the timestamp clients by ones that raise
`TimestampError` still yields a bundle, if the log entry has a promise. -/
theorem C37_failures_tolerated (env : Env) (ctx : Context) (kp : KeyPairs) (a : Answers) (s : Signer) (w w' : World)
    (call : Call) (b : Bundle) (h : s.sign env ctx kp a w call = (.ok b, w')) (hp : b.entry.promise ≠ none)
    (tsas : List (Bytes → Py Tsr)) (ht : ∀ tsa ∈ tsas, ∀ sig e, tsa sig = .error e → e = .timestamp) :
    ∃ b', s.sign env ctx kp { a with tsas := tsas } w call = (.ok b', w') ∧ b'.cert = b.cert ∧ b'.entry = b.entry ∧
      contentOf b'.inner = contentOf b.inner := by
  obtain ⟨cert, w₁, k, request, ts, entry, h1, h2, h3, h4, h5, h6, h7⟩ := (sign_ok_iff _ _ _ _ _ _ _ _ _).1 h
  obtain ⟨g1, g2, g3, rfl, g5, g6⟩ := fromParts_content h7
  have hc : s.signingCert env ctx kp { a with tsas := tsas } w = s.signingCert env ctx kp a w := rfl
  have key : ∃ b', Bundle.fromParts env cert (some (contentFor env.crypto kp k a.nonce call)) b.entry
      (some (answered (signatureFor env.crypto kp k a.nonce call) tsas)) = .ok b' ∧ b'.cert = b.cert ∧
      b'.entry = b.entry ∧ contentOf b'.inner = contentOf b.inner := by
    obtain ⟨f1, f2, f3, f4, f5, f6, f7, hw⟩ := (fromParts_ok_iff _ _ _ _ _ _).1 h7
    let ts' := (answered (signatureFor env.crypto kp k a.nonce call) tsas).map Tsr.raw
    refine ⟨⟨{ b.inner with timestamps := ts' }, b.cert, b.entry⟩, ?_, rfl, rfl, ?_⟩
    · rw [fromParts_ok_iff]
      refine ⟨f1, f2, f3, f4, rfl, f6, f7, ?_⟩
      exact ⟨hw.leaf, hw.oneEntry, hw.version, hw.proof, hw.promise, fun hn => absurd hn hp⟩
    · rfl
  obtain ⟨b', hb', hb⟩ := key
  refine ⟨b', ?_, hb⟩
  rw [sign_ok_iff]
  exact ⟨cert, w₁, k, request, _, b.entry, by rw [hc]; exact h1, h2, h3, h4,
    (collectTimestamps_ok_iff _ _ _).2 ⟨fun tsa hm e he => ht tsa hm _ e he, rfl⟩, h6, hb'⟩

/-! ## C35 -/

theorem signingCert_cached (env : Env) (ctx : Context) (kp : KeyPairs) (a : Answers) (k : Option Nat) (cert : Cert)
    (w : World) :
    Signer.signingCert env ctx kp a ⟨k, some cert⟩ w =
      (if a.now > cert.notAfter then .error .expiredCertificate else .ok cert, w) := rfl

theorem sign_of_cert_error {env : Env} {ctx : Context} {kp : KeyPairs} {a : Answers} {s : Signer} {w w₁ : World}
    {e : Exc} (h : s.signingCert env ctx kp a w = (.error e, w₁)) (call : Call) :
    s.sign env ctx kp a w call = (.error e, w₁) := by
  cases call with
  | artifact input => rw [Signer.sign, Signer.signArtifact, h]
  | dsse stmt => rw [Signer.sign, Signer.signDsse, h]

/-- a caching signer never changes the world -/
theorem sign_cached_world (env : Env) (ctx : Context) (kp : KeyPairs) (a : Answers) (k : Nat) (cert : Cert)
    (w : World) (call : Call) : (Signer.sign env ctx kp a ⟨some k, some cert⟩ w call).2 = w := by
  by_cases hn : a.now > cert.notAfter
  · have hc : Signer.signingCert env ctx kp a ⟨some k, some cert⟩ w = (.error .expiredCertificate, w) := by
      rw [signingCert_cached, if_pos hn]
    rw [sign_of_cert_error hc]
  · have hc : Signer.signingCert env ctx kp a ⟨some k, some cert⟩ w = (.ok cert, w) := by
      rw [signingCert_cached, if_neg hn]
    have hp : Signer.privateKey ⟨some k, some cert⟩ w = (k, w) := rfl
    cases call with
    | artifact input =>
      rw [Signer.sign, Signer.signArtifact, hc]
      dsimp only
      rw [hp]
      dsimp only
      split
      · rfl
      · split <;> rfl
    | dsse stmt =>
      rw [Signer.sign, Signer.signDsse, hc]
      dsimp only
      rw [hp]
      dsimp only
      split
      · rfl
      · split
        · rfl
        · split <;> rfl

theorem run_cached (env : Env) (ctx : Context) (kp : KeyPairs) (k : Nat) (cert : Cert) (w : World) :
    ∀ (calls : List (Answers × Call)),
      Signer.run env ctx kp ⟨some k, some cert⟩ w calls =
        (calls.map fun c => (Signer.sign env ctx kp c.1 ⟨some k, some cert⟩ w c.2).1, w) := by
  intro calls
  induction calls with
  | nil => rfl
  | cons c calls ih =>
    obtain ⟨a, call⟩ := c
    have hw := sign_cached_world env ctx kp a k cert w call
    rw [Signer.run]
    cases hr : Signer.sign env ctx kp a ⟨some k, some cert⟩ w call with
    | mk r w' =>
      rw [hr] at hw
      dsimp only at hw ⊢
      subst hw
      rw [ih]
      simp [hr]

/-- construction of a caching signer: one key, and one request with it unless the token has expired -/
theorem init_cached_iff (env : Env) (ctx : Context) (kp : KeyPairs) (a : Answers) (w w' : World) (s : Signer) :
    Signer.init env ctx kp a true w = (.ok s, w') ↔
      ∃ cert chain, a.tokenValid = true ∧ a.fulcio ⟨kp.pub w.keys⟩ = .ok (cert, chain) ∧
        checkNewCert env ctx a.now cert chain = .ok () ∧ s = ⟨some w.keys, some cert⟩ ∧
        w' = ⟨w.keys + 1, w.posts ++ [⟨kp.pub w.keys⟩]⟩ := by
  unfold Signer.init Signer.signingCert Signer.buildCsr Signer.privateKey
  simp only [if_true]
  cases hv : a.tokenValid with
  | false => simp
  | true =>
    simp only [Bool.not_true, Bool.false_eq_true, if_false, true_and]
    cases hf : a.fulcio ⟨kp.pub w.keys⟩ with
    | error e => simp
    | ok r =>
      obtain ⟨cert, chain⟩ := r
      simp only [Except.ok.injEq, Prod.mk.injEq]
      cases hc : checkNewCert env ctx a.now cert chain with
      | error e =>
        simp only [Prod.mk.injEq, reduceCtorEq, false_and, false_iff, not_exists, not_and]
        rintro cert' chain' ⟨rfl, rfl⟩ h
        rw [hc] at h; cases h
      | ok u =>
        simp only [Prod.mk.injEq, Except.ok.injEq]
        constructor
        · rintro ⟨rfl, rfl⟩; exact ⟨cert, chain, ⟨rfl, rfl⟩, hc, rfl, rfl⟩
        · rintro ⟨cert', chain', ⟨rfl, rfl⟩, _, rfl, rfl⟩; exact ⟨rfl, rfl⟩

/-- **C35** Over any sequence of calls with any answers, a caching signer generates one key pair, sends Fulcio one
request (with that key), and every call after the certificate's end raises `ExpiredCertificate` while every bundle
returned carries that certificate and was made before its end. -/
theorem C35_caching_signer (env : Env) (ctx : Context) (kp : KeyPairs) (a₀ : Answers) (w₀ w₁ : World) (s : Signer)
    (hinit : Signer.init env ctx kp a₀ true w₀ = (.ok s, w₁)) (calls : List (Answers × Call)) :
    ∃ cert, IssuedFor kp a₀ w₀.keys cert ∧
      ∃ results, s.run env ctx kp w₁ calls = (results, ⟨w₀.keys + 1, w₀.posts ++ [⟨kp.pub w₀.keys⟩]⟩) ∧
        results.length = calls.length ∧
        ∀ (i : Nat) (a : Answers) (call : Call) (r : Py Bundle), calls[i]? = some (a, call) → results[i]? = some r →
          (cert.notAfter < a.now → r = .error .expiredCertificate) ∧
          ∀ b, r = .ok b → a.now ≤ cert.notAfter ∧ b.inner.certificate = some cert.der := by
  obtain ⟨cert, chain, h1, h2, h3, rfl, rfl⟩ := (init_cached_iff _ _ _ _ _ _ _).1 hinit
  refine ⟨cert, ⟨h1, chain, h2⟩, _, run_cached _ _ _ _ _ _ _, by simp, ?_⟩
  intro i a call r hi hr
  rw [List.getElem?_map, hi, Option.map_some, Option.some.injEq] at hr
  dsimp only at hr
  constructor
  · intro hn
    have hc := signingCert_cached env ctx kp a (some w₀.keys) cert ⟨w₀.keys + 1, w₀.posts ++ [⟨kp.pub w₀.keys⟩]⟩
    rw [if_pos hn] at hc
    rw [← hr, sign_of_cert_error hc]
  · rintro b rfl
    obtain ⟨cert', w₂, k, request, ts, entry, g1, _, _, _, _, _, g7⟩ :=
      (sign_ok_iff env ctx kp a _ _ _ call b).1 (Prod.ext hr rfl)
    rw [signingCert_cached] at g1
    by_cases hn : a.now > cert.notAfter
    · rw [if_pos hn] at g1; simp at g1
    · rw [if_neg hn, Prod.mk.injEq, Except.ok.injEq] at g1
      obtain ⟨rfl, _⟩ := g1
      exact ⟨by omega, (fromParts_content g7).2.1⟩

/-- **C35** Construction generates exactly one key pair and sends at most one request, also when it fails. -/
theorem C35_construction_effects (env : Env) (ctx : Context) (kp : KeyPairs) (a : Answers) (w : World) :
    (Signer.init env ctx kp a true w).2.keys = w.keys + 1 ∧
    (Signer.init env ctx kp a true w).2.posts =
      if a.tokenValid then w.posts ++ [⟨kp.pub w.keys⟩] else w.posts := by
  unfold Signer.init Signer.signingCert Signer.buildCsr Signer.privateKey
  simp only [if_true]
  cases hv : a.tokenValid with
  | false => simp
  | true =>
    simp only [Bool.not_true, Bool.false_eq_true, if_false]
    cases hf : a.fulcio ⟨kp.pub w.keys⟩ with
    | error e => simp
    | ok r =>
      obtain ⟨cert, chain⟩ := r
      dsimp only
      cases hc : checkNewCert env ctx a.now cert chain <;> simp

/-- **C35** A certificate is only accepted if its SCT verifies under the CT keys that are valid for signing now. -/
theorem C35_new_certificate_has_sct (env : Env) (ctx : Context) (kp : KeyPairs) (a : Answers) (w w' : World)
    (s : Signer) (h : Signer.init env ctx kp a true w = (.ok s, w')) :
    ∃ cert chain kr, s.cachedCert = some cert ∧ a.fulcio ⟨kp.pub w.keys⟩ = .ok (cert, chain) ∧
      ctKeyring env.crypto a.now ctx.root .sign = .ok kr ∧ verifySct env.crypto cert chain kr = .ok () := by
  obtain ⟨cert, chain, h1, h2, h3, rfl, rfl⟩ := (init_cached_iff _ _ _ _ _ _ _).1 h
  unfold checkNewCert at h3
  split at h3
  · simp at h3
  · rename_i kr hk
    exact ⟨cert, chain, kr, rfl, h2, hk, h3⟩

/-! ## C36 -/

/-- **C36** (what does hold; the full claim fails for `cache=False`, see below) Every bundle returned by a caching
signer carries a signature of the requested input made with the private key whose public key was in the request for
the bundle's certificate. -/
theorem C36_signature_matches_partial (env : Env) (ctx : Context) (kp : KeyPairs) (a₀ a : Answers) (w₀ w₁ w w' : World)
    (s : Signer) (hinit : Signer.init env ctx kp a₀ true w₀ = (.ok s, w₁)) (call : Call) (b : Bundle)
    (h : s.sign env ctx kp a w call = (.ok b, w')) :
    ∃ k cert, IssuedFor kp a₀ k cert ∧ b.inner.certificate = some cert.der ∧
      SignedWith env.crypto kp b k a.nonce call := by
  obtain ⟨cert, chain, h1, h2, h3, rfl, rfl⟩ := (init_cached_iff _ _ _ _ _ _ _).1 hinit
  obtain ⟨cert', w₂, k, request, ts, entry, g1, g2, _, _, _, _, g7⟩ := (sign_ok_iff _ _ _ _ _ _ _ _ _).1 h
  rw [signingCert_cached] at g1
  by_cases hn : a.now > cert.notAfter
  · rw [if_pos hn] at g1; simp at g1
  · rw [if_neg hn, Prod.mk.injEq, Except.ok.injEq] at g1
    obtain ⟨rfl, rfl⟩ := g1
    have hk : k = w₀.keys := by
      unfold Signer.privateKey at g2
      dsimp only at g2
      exact (Prod.mk.inj g2).1.symm
    subst hk
    exact ⟨_, cert, ⟨h1, chain, h2⟩, (fromParts_content g7).2.1, (fromParts_content g7).1⟩

/-- **C36** (refuted) A signer made with `cache=False` requests the certificate with one key and signs with another:
*every* bundle it returns is signed with the key generated after the one in the certificate request. -/
theorem C36_uncached_uses_another_key (env : Env) (ctx : Context) (kp : KeyPairs) (a₀ a : Answers) (w₀ w₁ w w' : World)
    (s : Signer) (hinit : Signer.init env ctx kp a₀ false w₀ = (.ok s, w₁)) (call : Call) (b : Bundle)
    (h : s.sign env ctx kp a w call = (.ok b, w')) :
    ∃ cert, w'.posts = w.posts ++ [⟨kp.pub w.keys⟩] ∧ IssuedFor kp a w.keys cert ∧
      b.inner.certificate = some cert.der ∧ SignedWith env.crypto kp b (w.keys + 1) a.nonce call := by
  have hs : s = ⟨none, none⟩ := by
    unfold Signer.init at hinit
    simp at hinit
    exact hinit.1.symm
  subst hs
  obtain ⟨cert, w₂, k, request, ts, entry, g1, g2, _, _, _, _, g7⟩ := (sign_ok_iff _ _ _ _ _ _ _ _ _).1 h
  unfold Signer.signingCert Signer.buildCsr Signer.privateKey at g1
  dsimp only at g1
  cases hv : a.tokenValid with
  | false => rw [hv] at g1; simp at g1
  | true =>
    rw [hv] at g1
    simp only [Bool.not_true, Bool.false_eq_true, if_false] at g1
    cases hf : a.fulcio ⟨kp.pub w.keys⟩ with
    | error e => rw [hf] at g1; simp at g1
    | ok r =>
      obtain ⟨cert', chain⟩ := r
      rw [hf] at g1
      dsimp only at g1
      cases hc : checkNewCert env ctx a.now cert' chain with
      | error e => rw [hc] at g1; simp at g1
      | ok u =>
        rw [hc] at g1
        simp only [Prod.mk.injEq, Except.ok.injEq] at g1
        obtain ⟨rfl, rfl⟩ := g1
        unfold Signer.privateKey at g2
        simp only [Prod.mk.injEq] at g2
        obtain ⟨rfl, rfl⟩ := g2
        exact ⟨cert', rfl, ⟨hv, chain, hf⟩, (fromParts_content g7).2.1, (fromParts_content g7).1⟩

theorem cert_of_loads {env : Env} {kp : KeyPairs} {k n : Nat} {call : Call} {cert : Cert} {entry : LogEntry}
    {ts : List Tsr} {b : Bundle} (hload : env.loadCert cert.der = some cert)
    (h : Bundle.fromParts env cert (some (contentFor env.crypto kp k n call)) entry (some ts) = .ok b) :
    b.cert = cert := by
  obtain ⟨_, h2, h3, _, _, _, _, hw⟩ := (fromParts_ok_iff _ _ _ _ _ _).1 h
  rcases hw.leaf with ⟨_, raw, hr, hl⟩ | ⟨_, raw, raws, hr, _⟩
  · rw [h2] at hr; cases hr
    rw [hload] at hl; cases hl; rfl
  · rw [h3] at hr; simp at hr

/-- **C36** (refuted, consequence) With a Fulcio that certifies the key it is asked for and a signature scheme in
which a signature of one key is not accepted under another, no bundle returned with `cache=False` verifies. -/
theorem C36_uncached_never_verifies (env : Env) (ctx : Context) (kp : KeyPairs) (a₀ a : Answers) (w₀ w₁ w w' : World)
    (s : Signer) (hinit : Signer.init env ctx kp a₀ false w₀ = (.ok s, w₁)) (call : Call) (b : Bundle)
    (h : s.sign env ctx kp a w call = (.ok b, w'))
    (hfulcio : ∀ csr cert chain, a.fulcio csr = .ok (cert, chain) →
      cert.pubKey = csr.pubKey ∧ env.loadCert cert.der = some cert)
    (hother : ∀ j k d, j ≠ k → env.crypto.ecdsa (kp.pub j) d (kp.sign k a.nonce d) = false)
    (now : Time) (v : Verifier) (policy : Cert → Py Unit) :
    (∀ input, verifyArtifact env now v input b policy ≠ .ok ()) ∧
    ∀ r, verifyDsse env now v b policy ≠ .ok r := by
  obtain ⟨cert, _, ⟨_, chain, hf⟩, hcert, hsigned⟩ :=
    C36_uncached_uses_another_key env ctx kp a₀ a w₀ w₁ w w' s hinit call b h
  obtain ⟨hpk, hload⟩ := hfulcio _ _ _ hf
  have hbc : b.cert.pubKey = kp.pub w.keys := by
    obtain ⟨cert', w₂, k, request, ts, entry, _, _, _, _, _, _, g7⟩ := (sign_ok_iff _ _ _ _ _ _ _ _ _).1 h
    obtain ⟨_, f2, f3, _, _, _, _, hw⟩ := (fromParts_ok_iff _ _ _ _ _ _).1 g7
    rcases hw.leaf with ⟨_, raw, hr, hl⟩ | ⟨_, raw, raws, hr, _⟩
    · rw [hcert] at hr; cases hr
      rw [hload] at hl; cases hl; exact hpk
    · rw [f3] at hr; simp at hr
  constructor
  · intro input hv
    obtain ⟨_, hv⟩ := verifyArtifact_parts hv
    obtain ⟨ms, h1, h2, h3, h4, h5, h6, _⟩ := hv
    cases call with
    | artifact input' =>
      rw [hsigned.2] at h1
      cases h1
      have := h2 _ rfl
      rw [hbc, ← this, hother _ _ _ (by omega)] at h6
      cases h6
    | dsse stmt => rw [hsigned.1] at h1; cases h1
  · rintro ⟨type_, payload⟩ hv
    obtain ⟨_, hv⟩ := verifyDsse_parts hv
    obtain ⟨e, sig, h1, h2, h3, h4, _, _, h6, _⟩ := hv
    cases call with
    | artifact input' => rw [hsigned.1] at h1; cases h1
    | dsse stmt =>
      rw [hsigned.2] at h1
      cases h1
      dsimp only at h2 h3 h4
      cases h4
      rw [hbc, ← h2, ← h3, hother _ _ _ (by omega)] at h6
      cases h6

/-! ## Concrete cases -/

/-- key pairs of the toy scheme -/
def exKeys : KeyPairs where
  pub := fun k => ⟨.ec .p256, [2, 30] ++ List.replicate k 1⟩
  sign := fun k _ d => [2, 30] ++ List.replicate k 1 ++ d

/-- the external world of the verification example, with certificates that load -/
def exSEnv : Env := { exVEnv with loadCert := fun b => if b = exSigner.der then some exSigner else none }

/-- a context with a v1 log -/
def exCtx : Context := ⟨exRoot, .v1⟩

/-- answers at time `now`: Fulcio issues `exSigner`, one of three authorities answers -/
def exAnswers (now : Time) : Answers where
  now := now
  tokenValid := true
  fulcio := fun csr => if csr.pubKey = exSigner.pubKey then .ok (exSigner, [exIssuer]) else .error .fulcioClient
  tsas := [fun _ => .error .timestamp, fun _ => .ok ⟨[7], 1000000007⟩, fun _ => .error .timestamp]
  rekor := fun _ => .ok (exLogged "hashedrekord".toList "0.0.1".toList)
  nonce := 0

/-- the signer of the example -/
def exCached : Signer := ⟨some 0, some exSigner⟩

/-- the bundle that is returned -/
def exReturned : Bundle :=
  ⟨{ mediaType := "application/vnd.dev.sigstore.bundle.v0.3+json".toList, certificate := some exSigner.der, chain := none,
     tlogEntries := [exLogged "hashedrekord".toList "0.0.1".toList], timestamps := [[7]],
     messageSignature := some ⟨some exArtifact, exSignature⟩, dsseEnvelope := none },
   exSigner, exLogged "hashedrekord".toList "0.0.1".toList⟩

theorem exInit : Signer.init exSEnv exCtx exKeys (exAnswers 1500000000) true ⟨0, []⟩ =
    (.ok exCached, ⟨1, [⟨exSigner.pubKey⟩]⟩) := by decide

theorem exSign : exCached.sign exSEnv exCtx exKeys (exAnswers 1500000000) ⟨1, [⟨exSigner.pubKey⟩]⟩
    (.artifact (.bytes exArtifact)) = (.ok exReturned, ⟨1, [⟨exSigner.pubKey⟩]⟩) := by decide

/-- a run of three calls, the last one after the certificate has expired -/
example : exCached.run exSEnv exCtx exKeys ⟨1, [⟨exSigner.pubKey⟩]⟩
    [(exAnswers 1500000000, .artifact (.bytes exArtifact)), (exAnswers 2000000000, .artifact (.bytes exArtifact)),
     (exAnswers 2000000001, .artifact (.bytes exArtifact))] =
    ([.ok exReturned, .ok exReturned, .error .expiredCertificate], ⟨1, [⟨exSigner.pubKey⟩]⟩) := by decide

/-- without caching the same call returns a bundle signed with another key -/
def exUncached : Bundle :=
  ⟨{ exReturned.inner with messageSignature := some ⟨some exArtifact, [2, 30, 1] ++ exArtifact⟩ }, exSigner, exReturned.entry⟩

theorem exSignUncached : Signer.sign exSEnv exCtx exKeys (exAnswers 1500000000) ⟨none, none⟩ ⟨0, []⟩
    (.artifact (.bytes exArtifact)) = (.ok exUncached, ⟨2, [⟨exSigner.pubKey⟩]⟩) := by decide

example (now : Time) (v : Verifier) : verifyArtifact exSEnv now v (.bytes exArtifact) exUncached (fun _ => .ok ()) ≠ .ok () := by
  refine (C36_uncached_never_verifies exSEnv exCtx exKeys (exAnswers 1500000000) (exAnswers 1500000000) ⟨0, []⟩ ⟨0, []⟩
    ⟨0, []⟩ _ ⟨none, none⟩ rfl _ _ exSignUncached ?_ ?_ now v _).1 _
  · intro csr cert chain h
    by_cases hc : csr.pubKey = exSigner.pubKey
    · simp only [exAnswers, if_pos hc, Except.ok.injEq, Prod.mk.injEq] at h
      obtain ⟨rfl, rfl⟩ := h
      exact ⟨hc.symm, by decide⟩
    · simp only [exAnswers, if_neg hc] at h
      cases h
  · intro j k d hjk
    show ([2, 30] ++ List.replicate k 1 ++ d == [2, 30] ++ List.replicate j 1 ++ d) = false
    rw [beq_eq_false_iff_ne]
    intro h
    have := congrArg List.length h
    simp at this
    exact hjk this.symm

end Sigstore.Props
