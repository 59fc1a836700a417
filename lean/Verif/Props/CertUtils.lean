import Verif.Model.CertUtils

/-!
# C30, C60: certificate classification
-/

namespace Sigstore.Props

/-- the certificate asserts that it is a CA: critical BasicConstraints with `ca`, and `keyCertSign` -/
def AssertsCa (cert : Cert) : Prop :=
  cert.basicConstraints = some ⟨true, true⟩ ∧ ∃ ku, cert.keyUsage = some ku ∧ ku.keyCertSign = true

/-- the certificate denies being a CA: no BasicConstraints at all, or critical BasicConstraints without
`ca` together with a KeyUsage without `keyCertSign` -/
def DeniesCa (cert : Cert) : Prop :=
  cert.basicConstraints = none ∨
    (cert.basicConstraints = some ⟨true, false⟩ ∧ ∃ ku, cert.keyUsage = some ku ∧ ku.keyCertSign = false)

/-- **C30** `cert_is_ca` returns `True` iff the certificate is v3 and asserts to be a CA. -/
theorem C30_ca_iff (cert : Cert) : certIsCa cert = .ok true ↔ cert.isV3 = true ∧ AssertsCa cert := by
  unfold certIsCa AssertsCa
  rcases cert.isV3 with _ | _ <;> rcases cert.basicConstraints with _ | ⟨_ | _, _ | _⟩ <;>
    rcases cert.keyUsage with _ | ⟨ds, _ | _⟩ <;> simp

/-- **C30** `cert_is_ca` returns `False` iff the certificate is v3 and denies being a CA. -/
theorem C30_not_ca_iff (cert : Cert) : certIsCa cert = .ok false ↔ cert.isV3 = true ∧ DeniesCa cert := by
  unfold certIsCa DeniesCa
  rcases cert.isV3 with _ | _ <;> rcases cert.basicConstraints with _ | ⟨_ | _, _ | _⟩ <;>
    rcases cert.keyUsage with _ | ⟨ds, _ | _⟩ <;> simp

/-- **C30** In every other case `cert_is_ca` raises `VerificationError`. -/
theorem C30_ca_error_iff (cert : Cert) (e : Exc) :
    certIsCa cert = .error e ↔
      e = .verification ∧ ¬ (cert.isV3 = true ∧ AssertsCa cert) ∧ ¬ (cert.isV3 = true ∧ DeniesCa cert) := by
  unfold certIsCa AssertsCa DeniesCa
  rcases cert.isV3 with _ | _ <;> rcases cert.basicConstraints with _ | ⟨_ | _, _ | _⟩ <;>
    rcases cert.keyUsage with _ | ⟨ds, _ | _⟩ <;> simp <;> exact eq_comm

/-- **C30** `cert_is_leaf` returns `True` iff the certificate is v3, denies being a CA, and allows
digital signatures and code signing. -/
theorem C30_leaf_iff (cert : Cert) :
    certIsLeaf cert = .ok true ↔ cert.isV3 = true ∧ DeniesCa cert ∧
      (∃ ku, cert.keyUsage = some ku ∧ ku.digitalSignature = true) ∧
      ∃ l, cert.eku = some l ∧ .codeSigning ∈ l := by
  have h := C30_not_ca_iff cert
  unfold certIsLeaf
  cases hv : cert.isV3 with
  | false => simp
  | true =>
    simp only [hv, true_and] at h
    simp only [Bool.not_true, Bool.false_eq_true, if_false, true_and]
    cases hc : certIsCa cert with
    | error e =>
      rw [hc] at h
      have h : ¬ DeniesCa cert := fun x => by simpa using h.2 x
      simp [h]
    | ok b =>
      rw [hc] at h
      cases b with
      | true =>
        have h : ¬ DeniesCa cert := fun x => by simpa using h.2 x
        simp [h]
      | false =>
        have h : DeniesCa cert := h.1 rfl
        simp only [h, true_and]
        rcases cert.keyUsage with _ | ⟨_ | _, kc⟩
        · simp
        · simp
        · rcases cert.eku with _ | l
          · simp
          · simp

/-- **C30** No certificate is classified both as CA and as leaf. -/
theorem C30_ca_leaf_exclusive (cert : Cert) : ¬ (certIsCa cert = .ok true ∧ certIsLeaf cert = .ok true) := by
  rintro ⟨h1, h2⟩
  unfold certIsLeaf at h2
  rw [h1] at h2
  split at h2 <;> simp at h2

/-- **C30** Root CAs are exactly the CAs that issued themselves. -/
theorem C30_root_iff (cert : Cert) :
    certIsRootCa cert = .ok true ↔ certIsCa cert = .ok true ∧ cert.selfIssued = true := by
  unfold certIsRootCa
  have hv := C30_ca_iff cert
  cases h3 : cert.isV3 with
  | false => rw [h3] at hv; simp [hv]
  | true =>
    simp only [Bool.not_true, Bool.false_eq_true, if_false]
    rcases certIsCa cert with e | _ | _ <;> simp

/-- a root CA and a leaf -/
def exCaCert : Cert :=
  { der := [4], tbsPrecert := [], isV3 := true, pubKey := ⟨.ec .p384, [7]⟩, sigParamsPkcs1 := false, notBefore := 0,
    notAfter := 9, basicConstraints := some ⟨true, true⟩, keyUsage := some ⟨false, true⟩, eku := none, san := none,
    scts := none, exts := [], selfIssued := true }

/-- a leaf -/
def exLeafCert : Cert :=
  { exCaCert with basicConstraints := none, keyUsage := some ⟨true, false⟩, eku := some [.codeSigning] }

example : certIsRootCa exCaCert = .ok true ∧ certIsLeaf exCaCert = .ok false ∧ certIsLeaf exLeafCert = .ok true ∧
    certIsCa exLeafCert = .ok false ∧ certIsCa { exCaCert with keyUsage := none } = .error .verification := by decide

/-! ## C60 -/

/-- **C60** (refuted) A certificate that asserts `keyCertSign` but has no BasicConstraints is accepted as
a leaf. -/
theorem C60_keyCertSign_leaf :
    ¬ ∀ cert : Cert, certIsLeaf cert = .ok true → ∀ ku, cert.keyUsage = some ku → ku.keyCertSign = false := by
  intro h
  have := h { exLeafCert with keyUsage := some ⟨true, true⟩ } (by decide) ⟨true, true⟩ rfl
  simp at this

/-- **C60** (what does hold) With BasicConstraints present, a leaf never asserts `keyCertSign` nor `ca`.
Missing: certificates without BasicConstraints. -/
theorem C60_leaf_not_keyCertSign_partial (cert : Cert) (h : certIsLeaf cert = .ok true)
    (hbc : cert.basicConstraints ≠ none) :
    cert.basicConstraints = some ⟨true, false⟩ ∧ ∀ ku, cert.keyUsage = some ku → ku.keyCertSign = false := by
  obtain ⟨_, hd, _, _⟩ := (C30_leaf_iff cert).1 h
  rcases hd with hd | ⟨h1, ku, h2, h3⟩
  · exact absurd hd hbc
  · refine ⟨h1, ?_⟩
    intro ku' hk
    rw [h2] at hk; cases hk; exact h3

end Sigstore.Props
