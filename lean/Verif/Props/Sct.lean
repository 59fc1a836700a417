import Verif.Lemmas.Sct
import Verif.Props.Trust
import Verif.Props.CertUtils
import Verif.Spec.Canonical

/-!
# C26, C27, C28, C29: signed certificate timestamps
-/

namespace Sigstore.Props

open Sigstore.Sct Sigstore.Trust Sigstore.Spec

/-- the bound in the code is the end of the year 9999 -/
theorem maxDatetimeMillis_eq : maxDatetimeMillis = lastMillisecond := by decide

/-! ## C29 -/

/-- **C29** (refuted) Some millisecond timestamps (for instance in January 2038) change on their way through
floating point. -/
theorem C29_millis_not_exact : ¬ ∀ ms ≤ lastMillisecond, sctMillis ms = ms := by
  intro h
  have := h 2148321528233 (by decide)
  revert this; decide

/-- **C29** (what does hold) The value is exact whenever `2^k ≤ ms < 1000 * 2^(k-9)` for some `k`; `k = 40` covers
November 2004 to 19 January 2038.  Missing: the complementary ranges, where the next theorem applies. -/
theorem C29_exact_partial (k ms : Nat) (hk0 : 9 ≤ k) (hk : k ≤ 52) (h1 : 2 ^ k ≤ ms) (h2 : ms < 1000 * 2 ^ (k - 9)) :
    sctMillis ms = ms := sctMillis_exact k ms hk0 hk h1 h2

/-- **C29** (what does hold) Every representable timestamp is exact or one millisecond too small. -/
theorem C29_within_one_partial (ms : Nat) (h : ms ≤ lastMillisecond) : sctMillis ms = ms ∨ sctMillis ms + 1 = ms :=
  sctMillis_within_one ms (by unfold lastMillisecond daysThrough at h; omega)

/-- today: 2026-11-16 -/
example : sctMillis 1794830400123 = 1794830400123 :=
  C29_exact_partial 40 _ (by decide) (by decide) (by decide) (by decide)

/-! ## C26 -/

/-- the RFC 6962 entry for this SCT, certificate and issuer key hash -/
inductive EntryFor (sct : Sct) (cert : Cert) (issuerKeyId : Option Bytes) : SignedEntry → Prop
  | x509 (h : sct.entryType = .x509Certificate) : EntryFor sct cert issuerKeyId (.x509 cert.der)
  | precert (h : sct.entryType = .preCertificate) (id : Bytes) (hid : issuerKeyId = some id) :
      EntryFor sct cert issuerKeyId (.precert id cert.tbsPrecert)

theorem entryFor_iff (sct : Sct) (cert : Cert) (ik : Option Bytes) (e : SignedEntry) :
    EntryFor sct cert ik e ↔ (sct.entryType = .x509Certificate ∧ e = .x509 cert.der) ∨
      (sct.entryType = .preCertificate ∧ ∃ id, ik = some id ∧ e = .precert id cert.tbsPrecert) := by
  constructor
  · intro h
    cases h with
    | x509 h => exact .inl ⟨h, rfl⟩
    | precert h id hid => exact .inr ⟨h, id, hid, rfl⟩
  · rintro (⟨h, rfl⟩ | ⟨h, id, hid, rfl⟩)
    · exact .x509 h
    · exact .precert h id hid

theorem packOpaque24_eq (der : Bytes) :
    packOpaque24 der = if der.length < 2 ^ 24 then .ok (tlsVector 3 der)
      else if der.length < 2 ^ 32 then .error .verification else .error .structError := by
  unfold packOpaque24
  by_cases h32 : 2 ^ 32 ≤ der.length
  · rw [if_pos h32, if_neg (by omega), if_neg (by omega)]
  · rw [if_neg h32]
    have e4 : beBytes 4 der.length = UInt8.ofNat (der.length / 256 / 256 / 256 % 256) :: beBytes 3 der.length := rfl
    have e3 : beBytes 3 der.length = [UInt8.ofNat (der.length / 256 / 256 % 256), UInt8.ofNat (der.length / 256 % 256),
      UInt8.ofNat (der.length % 256)] := rfl
    rw [e4, e3]
    dsimp only
    by_cases h24 : der.length < 2 ^ 24
    · have : UInt8.ofNat (der.length / 256 / 256 / 256 % 256) = 0 := by
        rw [show der.length / 256 / 256 / 256 % 256 = 0 by omega]; rfl
      rw [this, if_pos h24, if_neg (by simp), tlsVector, e3]
    · have : UInt8.ofNat (der.length / 256 / 256 / 256 % 256) ≠ 0 := by
        intro h
        have := congrArg UInt8.toNat h
        rw [toNat_ofNat8 (by omega)] at this
        have : der.length / 256 / 256 / 256 % 256 = 0 := this
        omega
      rw [if_pos this, if_neg h24, if_pos (by omega)]

/-- **C26** Packing succeeds exactly within the RFC 6962 size limits, and its result is the RFC 6962
digitally-signed structure (with the timestamp as computed, see C29). -/
theorem C26_is_rfc6962 (sct : Sct) (cert : Cert) (ik : Option Bytes) (data : Bytes) :
    packDigitallySigned sct cert ik = .ok data ↔
      ∃ entry, EntryFor sct cert ik entry ∧ entry.Valid ∧ sct.timestamp ≤ lastMillisecond ∧
        sct.extensionBytes.length < 2 ^ 16 ∧
        data = DigitallySigned.encode ⟨sct.version, sctMillis sct.timestamp, entry, sct.extensionBytes⟩ := by
  have hbe0 : beBytes 2 0 = [0, 0] := rfl
  have hbe1 : beBytes 2 1 = [0, 1] := rfl
  -- what remains after the signed entry
  have tail : ∀ (signed : Bytes), (if lastMillisecond < sct.timestamp then (Except.error Exc.valueError : Py Bytes)
      else if 2 ^ 16 ≤ sct.extensionBytes.length then .error .structError else .ok signed) = .ok data ↔
      sct.timestamp ≤ lastMillisecond ∧ sct.extensionBytes.length < 2 ^ 16 ∧ data = signed := by
    intro signed
    by_cases h1 : lastMillisecond < sct.timestamp
    · rw [if_pos h1]; simp only [reduceCtorEq, false_iff]; omega
    · rw [if_neg h1]
      by_cases h2 : 2 ^ 16 ≤ sct.extensionBytes.length
      · rw [if_pos h2]; simp only [reduceCtorEq, false_iff]; omega
      · rw [if_neg h2]
        simp only [Except.ok.injEq]
        constructor
        · rintro rfl; exact ⟨by omega, by omega, rfl⟩
        · rintro ⟨_, _, rfl⟩; rfl
  unfold packDigitallySigned packSignedEntry
  rw [maxDatetimeMillis_eq]
  cases ht : sct.entryType with
  | x509Certificate =>
    have hent : ∀ entry, EntryFor sct cert ik entry ↔ entry = .x509 cert.der := by
      intro entry
      constructor
      · intro h
        cases h with
        | x509 => rfl
        | precert h' => rw [ht] at h'; simp at h'
      · rintro rfl; exact .x509 ht
    simp only [hent, packOpaque24_eq, exists_eq_left, SignedEntry.Valid]
    by_cases hl : cert.der.length < 2 ^ 24
    · rw [if_pos hl]
      dsimp only
      rw [tail]
      simp only [hl, true_and, SctEntryType.value, hbe0, DigitallySigned.encode, SignedEntry.encode, tlsVector,
        List.append_assoc, List.cons_append, List.nil_append]
    · rw [if_neg hl]
      have : (fun r : Py Bytes => ∃ e, r = .error e) (if cert.der.length < 2 ^ 32 then .error .verification else .error .structError) := by
        split <;> exact ⟨_, rfl⟩
      obtain ⟨e, he⟩ := this
      rw [he]
      simp [hl]
  | preCertificate =>
    cases ik with
    | none =>
      simp only [reduceCtorEq, false_iff, not_exists, not_and]
      intro entry hent
      cases hent with
      | x509 h => rw [ht] at h; simp at h
      | precert _ id hid => simp at hid
    | some id =>
      have hent : ∀ entry, EntryFor sct cert (some id) entry ↔ entry = .precert id cert.tbsPrecert := by
        intro entry
        constructor
        · intro h
          cases h with
          | x509 h => rw [ht] at h; simp at h
          | precert _ id' hid => cases hid; rfl
        · rintro rfl; exact .precert ht id rfl
      simp only [hent, packOpaque24_eq, exists_eq_left, SignedEntry.Valid]
      by_cases hid : id.length = 32
      · rw [if_neg (by simp [hid])]
        by_cases hl : cert.tbsPrecert.length < 2 ^ 24
        · rw [if_pos hl]
          dsimp only
          rw [tail]
          simp only [hl, hid, true_and, SctEntryType.value, hbe1, DigitallySigned.encode, SignedEntry.encode,
            tlsVector, List.append_assoc, List.cons_append, List.nil_append]
        · rw [if_neg hl]
          have : (fun r : Py Bytes => ∃ e, r = .error e) (if cert.tbsPrecert.length < 2 ^ 32 then .error .verification else .error .structError) := by
            split <;> exact ⟨_, rfl⟩
          obtain ⟨e, he⟩ := this
          rw [he]
          simp [hl]
      · rw [if_pos hid]
        simp [hid]

theorem append_inj_len {α : Type} {a b x y : List α} (h : a ++ x = b ++ y) (hl : a.length = b.length) : a = b ∧ x = y :=
  List.append_inj h hl

theorem tlsVector_inj {k : Nat} {a b x y : Bytes} (ha : a.length < 256 ^ k) (hb : b.length < 256 ^ k)
    (h : tlsVector k a ++ x = tlsVector k b ++ y) : a = b ∧ x = y := by
  unfold tlsVector at h
  rw [List.append_assoc, List.append_assoc] at h
  obtain ⟨h1, h2⟩ := append_inj_len h (by simp [length_beBytes])
  exact append_inj_len h2 (beBytes_injective ha hb h1)

/-- **C26** (RFC 6962 structure) The signed bytes determine every field. -/
theorem C26_encode_injective (a b : DigitallySigned) (ha : a.Valid) (hb : b.Valid) (h : a.encode = b.encode) :
    a = b := by
  obtain ⟨av, at', ae, ax⟩ := a
  obtain ⟨bv, bt, be, bx⟩ := b
  obtain ⟨ha1, ha2, ha3⟩ := ha
  obtain ⟨hb1, hb2, hb3⟩ := hb
  simp only [DigitallySigned.encode, List.append_assoc, List.cons_append, List.nil_append, List.cons.injEq,
    true_and] at h
  obtain ⟨rfl, h⟩ := h
  obtain ⟨h1, h2⟩ := append_inj_len h (by simp [length_beBytes])
  have ht : at' = bt := beBytes_injective (k := 8) ha1 hb1 h1
  subst ht
  clear h h1
  have hx : ∀ x y : Bytes, x.length < 2 ^ 16 → y.length < 2 ^ 16 → tlsVector 2 x = tlsVector 2 y → x = y := by
    intro x y hx hy hxy
    exact (tlsVector_inj (k := 2) (x := []) (y := []) hx hy (by simpa using hxy)).1
  cases ae with
  | x509 c =>
    cases be with
    | x509 c' =>
      simp only [SignedEntry.encode, List.cons_append, List.nil_append, List.cons.injEq, true_and] at h2
      obtain ⟨rfl, h3⟩ := tlsVector_inj (k := 3) ha2 hb2 h2
      rw [hx ax bx ha3 hb3 h3]
    | precert _ _ =>
      simp [SignedEntry.encode] at h2
  | precert i c =>
    cases be with
    | x509 c' => simp [SignedEntry.encode] at h2
    | precert i' c' =>
      simp only [SignedEntry.encode, List.append_assoc, List.cons_append, List.nil_append, List.cons.injEq,
        true_and] at h2
      obtain ⟨rfl, h3⟩ := append_inj_len h2 (by rw [ha2.1, hb2.1])
      obtain ⟨rfl, h4⟩ := tlsVector_inj (k := 3) ha2.2 hb2.2 h3
      rw [hx ax bx ha3 hb3 h4]

theorem sctMillis_lt (ms : Nat) (h : ms ≤ lastMillisecond) : sctMillis ms < 2 ^ 64 := by
  have := sctMillis_within_one ms (by unfold lastMillisecond daysThrough at h; omega)
  unfold lastMillisecond daysThrough at h
  omega

/-- **C26** The bytes over which an SCT is checked determine version, (computed) timestamp, entry type,
issuer key hash, (pre)certificate bytes and extensions. -/
theorem C26_pack_injective (s s' : Sct) (cert cert' : Cert) (ik ik' : Option Bytes) (data : Bytes)
    (h : packDigitallySigned s cert ik = .ok data) (h' : packDigitallySigned s' cert' ik' = .ok data) :
    s.version = s'.version ∧ sctMillis s.timestamp = sctMillis s'.timestamp ∧ s.entryType = s'.entryType ∧
    s.extensionBytes = s'.extensionBytes ∧
    (s.entryType = .x509Certificate → cert.der = cert'.der) ∧
    (s.entryType = .preCertificate → cert.tbsPrecert = cert'.tbsPrecert ∧ ik = ik') := by
  obtain ⟨e, he, hv, ht, hx, hd⟩ := (C26_is_rfc6962 _ _ _ _).1 h
  obtain ⟨e', he', hv', ht', hx', hd'⟩ := (C26_is_rfc6962 _ _ _ _).1 h'
  rw [hd] at hd'
  have := C26_encode_injective _ _ ⟨sctMillis_lt _ ht, hv, hx⟩ ⟨sctMillis_lt _ ht', hv', hx'⟩ hd'
  simp only [DigitallySigned.mk.injEq] at this
  obtain ⟨h1, h2, h3, h4⟩ := this
  subst h3
  rw [entryFor_iff] at he he'
  rcases he with ⟨t, e1⟩ | ⟨t, id, hid, e1⟩ <;> rcases he' with ⟨t', e2⟩ | ⟨t', id', hid', e2⟩ <;>
    rw [e1] at e2 <;> simp only [SignedEntry.x509.injEq, SignedEntry.precert.injEq, reduceCtorEq] at e2
  · exact ⟨h1, h2, by rw [t, t'], h4, fun _ => e2, fun h => by rw [t] at h; simp at h⟩
  · exact ⟨h1, h2, by rw [t, t'], h4, fun h => (by rw [t] at h; simp at h), fun _ => ⟨e2.2, by rw [hid, hid', e2.1]⟩⟩

/-- **C26** Certificates of `2^24` bytes or more (and below `2^32`) are rejected with `VerificationError`. -/
theorem C26_large_rejected (sct : Sct) (cert : Cert) (ik : Option Bytes)
    (hx : sct.entryType = .x509Certificate → 2 ^ 24 ≤ cert.der.length ∧ cert.der.length < 2 ^ 32)
    (hp : sct.entryType = .preCertificate → 2 ^ 24 ≤ cert.tbsPrecert.length ∧ cert.tbsPrecert.length < 2 ^ 32) :
    packDigitallySigned sct cert ik = .error .verification := by
  unfold packDigitallySigned packSignedEntry
  cases ht : sct.entryType with
  | x509Certificate =>
    have := hx ht
    dsimp only
    rw [packOpaque24_eq, if_neg (by omega), if_pos (by omega)]
  | preCertificate =>
    have := hp ht
    cases ik with
    | none => rfl
    | some id =>
      dsimp only
      split
      · rename_i e he
        split at he
        · cases he; rfl
        · rw [packOpaque24_eq, if_neg (by omega), if_pos (by omega)] at he
          cases he; rfl
      · rename_i e he
        split at he
        · simp at he
        · rw [packOpaque24_eq, if_neg (by omega), if_pos (by omega)] at he
          simp at he

/-! ## C27 -/

/-- the issuing CA in a chain: the first certificate, or the second one if the first is a precertificate
signing certificate (RFC 6962 section 3.1) -/
inductive IssuerIn : List Cert → Cert → Prop
  | direct (c : Cert) (rest : List Cert) (h : ∀ l, c.eku = some l → .certificateTransparency ∉ l) : IssuerIn (c :: rest) c
  | via (p c : Cert) (rest : List Cert) (l : List Eku) (h : p.eku = some l) (hm : .certificateTransparency ∈ l) :
      IssuerIn (p :: c :: rest) c

theorem getIssuerCert_iff (chain : List Cert) (i : Cert) : getIssuerCert chain = .ok i ↔ IssuerIn chain i := by
  have hpre : ∀ c : Cert, isPreissuer c = true ↔ ∃ l, c.eku = some l ∧ .certificateTransparency ∈ l := by
    intro c
    unfold isPreissuer
    cases c.eku with
    | none => simp
    | some l => simp
  cases chain with
  | nil =>
    simp only [getIssuerCert, reduceCtorEq, false_iff]
    intro h; cases h
  | cons c rest =>
    simp only [getIssuerCert]
    cases hp : isPreissuer c with
    | false =>
      have hn : ∀ l, c.eku = some l → .certificateTransparency ∉ l := by
        intro l hl hm
        have := (hpre c).2 ⟨l, hl, hm⟩
        rw [hp] at this; simp at this
      simp only [Bool.false_eq_true, if_false, Except.ok.injEq]
      constructor
      · rintro rfl; exact .direct _ _ hn
      · intro h
        cases h with
        | direct => rfl
        | via _ _ _ l h hm => exact absurd hm (hn l h)
    | true =>
      obtain ⟨l, hl, hm⟩ := (hpre c).1 hp
      simp only [if_true]
      cases rest with
      | nil =>
        simp only [reduceCtorEq, false_iff]
        intro h
        cases h with
        | direct _ _ h => exact h l hl hm
      | cons c' rest =>
        simp only [Except.ok.injEq]
        constructor
        · rintro rfl; exact .via _ _ _ l hl hm
        · intro h
          cases h with
          | direct _ _ h => exact absurd hm (h l hl)
          | via => rfl

/-- what `verify_sct` requires of the issuer of a precertificate -/
def IssuerAcceptable (issuer : Cert) : Prop :=
  (∃ b, certIsCa issuer = .ok b) ∧ ((∃ n, issuer.pubKey.kind = .rsa n) ∨ ∃ cv, issuer.pubKey.kind = .ec cv)

/-- the issuer key hash the SCT is bound to -/
inductive BoundTo (c : Crypto) (sct : Sct) (chain : List Cert) : Option Bytes → Prop
  | x509 (h : sct.entryType = .x509Certificate) : BoundTo c sct chain none
  | precert (h : sct.entryType = .preCertificate) (issuer : Cert) (hi : IssuerIn chain issuer)
      (ha : IssuerAcceptable issuer) : BoundTo c sct chain (some (c.sha256 issuer.pubKey.spki))

theorem issuerKeyIdFor_iff (c : Crypto) (sct : Sct) (chain : List Cert) (ik : Option Bytes) :
    issuerKeyIdFor c sct chain = .ok ik ↔ BoundTo c sct chain ik := by
  unfold issuerKeyIdFor
  cases ht : sct.entryType with
  | x509Certificate =>
    simp only [Except.ok.injEq]
    constructor
    · rintro rfl; exact .x509 ht
    · intro h
      cases h with
      | x509 => rfl
      | precert h => rw [ht] at h; simp at h
  | preCertificate =>
    have inv : BoundTo c sct chain ik → ∃ issuer, getIssuerCert chain = .ok issuer ∧ IssuerAcceptable issuer ∧
        ik = some (c.sha256 issuer.pubKey.spki) := by
      intro h
      cases h with
      | x509 h => rw [ht] at h; simp at h
      | precert _ issuer hi ha => exact ⟨issuer, (getIssuerCert_iff _ _).2 hi, ha, rfl⟩
    cases hg : getIssuerCert chain with
    | error e =>
      simp only [reduceCtorEq, false_iff]
      intro h
      obtain ⟨_, h, _⟩ := inv h
      rw [hg] at h; simp at h
    | ok issuer =>
      dsimp only
      have hkind : (issuer.pubKey.isRsa || issuer.pubKey.isEc) = true ↔
          ((∃ n, issuer.pubKey.kind = .rsa n) ∨ ∃ cv, issuer.pubKey.kind = .ec cv) := by
        unfold PubKey.isRsa PubKey.isEc
        cases issuer.pubKey.kind <;> simp
      unfold sctCertIsCa
      cases hca : certIsCa issuer with
      | error e =>
        have hn : ¬ BoundTo c sct chain ik := by
          intro h
          obtain ⟨i, h, ha, _⟩ := inv h
          rw [hg] at h; cases h
          obtain ⟨⟨b, hb⟩, _⟩ := ha
          rw [hca] at hb; simp at hb
        have he := ((C30_ca_error_iff issuer e).1 hca).1
        subst he
        simp [Exc.isVerificationError, hn]
      | ok b =>
        dsimp only
        by_cases hk : (issuer.pubKey.isRsa || issuer.pubKey.isEc) = true
        · rw [if_pos hk]
          constructor
          · intro h
            cases h
            exact .precert ht issuer ((getIssuerCert_iff _ _).1 hg) ⟨⟨b, hca⟩, hkind.1 hk⟩
          · intro h
            obtain ⟨i, h, _, he⟩ := inv h
            rw [hg] at h; cases h
            rw [he]; rfl
        · rw [if_neg hk]
          simp only [reduceCtorEq, false_iff]
          intro h
          obtain ⟨i, h, ha, _⟩ := inv h
          rw [hg] at h; cases h
          exact hk (hkind.2 ha.2)

/-- **C27** `verify_sct` accepts iff the certificate embeds exactly one SCT, made with SHA-256, whose signature over
the RFC 6962 structure for this certificate (bound to the issuer's key hash for precertificates) is accepted by
the keyring under the SCT's log id. -/
theorem C27_verify_sct_iff (c : Crypto) (cert : Cert) (chain : List Cert) (kr : Keyring) :
    verifySct c cert chain kr = .ok () ↔
      ∃ sct ik entry, cert.scts = some [sct] ∧ sct.hashAlgorithm = some .sha256 ∧ BoundTo c sct chain ik ∧
        EntryFor sct cert ik entry ∧ entry.Valid ∧ sct.timestamp ≤ lastMillisecond ∧
        sct.extensionBytes.length < 2 ^ 16 ∧
        kr.verify c sct.logId sct.signature
          (DigitallySigned.encode ⟨sct.version, sctMillis sct.timestamp, entry, sct.extensionBytes⟩) = .ok () := by
  constructor
  · intro h
    unfold verifySct getSct at h
    split at h
    · simp at h
    · rename_i sct hs
      split at hs
      · simp at hs
      · rename_i sct' hsc
        rw [Except.ok.injEq] at hs
        subst hs
        split at h
        · simp at h
        · rename_i ik hik
          split at h
          · simp at h
          · rename_i data hdata
            obtain ⟨entry, h1, h2, h3, h4, h5⟩ := (C26_is_rfc6962 _ _ _ _).1 hdata
            split at h
            · simp at h
            · rename_i hh
              split at h
              · rename_i hv
                subst h5
                exact ⟨sct', ik, entry, hsc, by simpa using hh, (issuerKeyIdFor_iff _ _ _ _).1 hik, h1, h2, h3, h4, hv⟩
              · split at h <;> simp at h
      · simp at hs
  · rintro ⟨sct, ik, entry, h1, h2, h3, h4, h5, h6, h7, h8⟩
    unfold verifySct getSct
    rw [h1]
    dsimp only
    rw [(issuerKeyIdFor_iff _ _ _ _).2 h3]
    dsimp only
    rw [(C26_is_rfc6962 _ _ _ _).2 ⟨entry, h4, h5, h6, h7, rfl⟩]
    dsimp only
    rw [if_neg (by simp [h2]), h8]

/-- **C27** A successful check means that a key of the trusted CT logs signed the RFC 6962 structure. -/
theorem C27_signed_by_trusted_ct_key (c : Crypto) (cert : Cert) (chain : List Cert) (ms : List PublicKeyMsg) (kr : Keyring)
    (hkr : Keyring.init c ms = .ok kr) (h : verifySct c cert chain kr = .ok ()) :
    ∃ sct ik entry, cert.scts = some [sct] ∧ BoundTo c sct chain ik ∧ EntryFor sct cert ik entry ∧
      ∃ m ∈ ms, ∃ key s, Denotes c m key s ∧
        Accepts c key s (DigitallySigned.encode ⟨sct.version, sctMillis sct.timestamp, entry, sct.extensionBytes⟩)
          sct.signature := by
  obtain ⟨sct, ik, entry, h1, _, h3, h4, _, _, _, h8⟩ := (C27_verify_sct_iff c cert chain kr).1 h
  exact ⟨sct, ik, entry, h1, h3, h4, C10_sound c ms kr hkr _ _ _ h8⟩

/-! ## C28 -/

/-- an SCT signed by the toy CT key -/
def exSct (entry : SctEntryType) (payload : Bytes) : Sct :=
  { version := 0, timestamp := 1794830400123, entryType := entry, logId := [2, 20], extensionBytes := [],
    hashAlgorithm := some .sha256, signature := [2, 20] ++ payload }

/-- an issuer key whose (toy) hash has 32 bytes -/
def exIssuerKey : PubKey := ⟨.ec .p384, List.replicate 32 7⟩

/-- the payload of `exSctCert` -/
def exPayload : Bytes :=
  DigitallySigned.encode ⟨0, 1794830400123, .precert (List.replicate 32 7) [1, 2, 3], []⟩

/-- a leaf with one precertificate SCT -/
def exSctCert : Cert :=
  { exLeafCert with tbsPrecert := [1, 2, 3], scts := some [exSct .preCertificate exPayload] }

/-- the example is accepted with a CA issuer -/
example : verifySct toyCrypto exSctCert [{ exCaCert with pubKey := exIssuerKey }] toyKeyring = .ok () := by decide

/-- **C28** (refuted) `verify_sct` accepts a precertificate SCT whose issuer certificate is not a CA: the result of
`cert_is_ca` is ignored. -/
theorem C28_non_ca_issuer_accepted :
    ¬ ∀ (c : Crypto) (cert : Cert) (chain : List Cert) (kr : Keyring), verifySct c cert chain kr = .ok () →
      ∀ sct, cert.scts = some [sct] → sct.entryType = .preCertificate →
      ∃ issuer, IssuerIn chain issuer ∧ certIsCa issuer = .ok true := by
  intro h
  obtain ⟨issuer, hi, hca⟩ := h toyCrypto exSctCert [{ exLeafCert with pubKey := exIssuerKey }] toyKeyring (by decide)
    _ rfl rfl
  cases hi with
  | direct _ _ _ => revert hca; decide

/-- **C28** (what does hold) The issuer of an accepted precertificate SCT is a v3 certificate with consistent CA
state: it asserts to be a CA or denies it, but is never malformed; and its key is RSA or EC.
Missing: that it asserts to be a CA. -/
theorem C28_issuer_consistent_partial (c : Crypto) (cert : Cert) (chain : List Cert) (kr : Keyring)
    (h : verifySct c cert chain kr = .ok ()) (sct : Sct) (hs : cert.scts = some [sct])
    (hp : sct.entryType = .preCertificate) :
    ∃ issuer, IssuerIn chain issuer ∧ issuer.isV3 = true ∧ (AssertsCa issuer ∨ DeniesCa issuer) ∧
      ((∃ n, issuer.pubKey.kind = .rsa n) ∨ ∃ cv, issuer.pubKey.kind = .ec cv) := by
  obtain ⟨sct', ik, entry, h1, _, h3, _⟩ := (C27_verify_sct_iff c cert chain kr).1 h
  rw [hs] at h1; cases h1
  cases h3 with
  | x509 h => rw [hp] at h; simp at h
  | precert _ issuer hi ha =>
    obtain ⟨⟨b, hb⟩, hk⟩ := ha
    refine ⟨issuer, hi, ?_⟩
    cases b with
    | true => obtain ⟨h1, h2⟩ := (C30_ca_iff issuer).1 hb; exact ⟨h1, .inl h2, hk⟩
    | false => obtain ⟨h1, h2⟩ := (C30_not_ca_iff issuer).1 hb; exact ⟨h1, .inr h2, hk⟩

end Sigstore.Props
