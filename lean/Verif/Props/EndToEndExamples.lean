import Mathlib.Data.Countable.Basic
import Mathlib.Logic.Equiv.List
import Verif.Props.EndToEnd

/-!
# A world in which all hypotheses of C38 hold

Keys are byte strings, the signature of a digest under a key is the key followed by the digest, SHA-256 is "pad or cut
to 32 bytes", and the log accepts every request: its entries are numbered (requests are countable).
-/

namespace Sigstore.Props

open Sigstore.Trust Sigstore.LogEntry Sigstore.Dsse Sigstore.Sct Sigstore.Spec Sigstore.Signing Sigstore.Rekor
open Sigstore.Rfc6962

/-! ## Numbering log bodies -/

instance : Countable Char :=
  Function.Injective.countable (f := Char.toNat) fun _ _ h => Char.ext (UInt32.toNat_inj.1 h)

instance : Countable UInt8 :=
  Function.Injective.countable (f := UInt8.toNat) fun _ _ h => UInt8.toNat_inj.1 h

instance : Countable HashedrekordBody :=
  Function.Injective.countable (f := fun x => (x.apiVersion, x.content, x.publicKey, x.hash)) <| by
    rintro ⟨a, b, c, d⟩ ⟨a', b', c', d'⟩ h
    simp only [Prod.mk.injEq] at h
    obtain ⟨rfl, rfl, rfl, rfl⟩ := h
    rfl

instance : Countable DsseBody :=
  Function.Injective.countable (f := fun x => (x.payloadHash, x.signatures)) <| by
    rintro ⟨a, b⟩ ⟨a', b'⟩ h
    simp only [Prod.mk.injEq] at h
    obtain ⟨rfl, rfl⟩ := h
    rfl

instance : Countable V2VerifierKey :=
  Function.Injective.countable (f := fun x => match x with | .x509 d => (true, d) | .publicKey d => (false, d)) <| by
    rintro (a | a) (b | b) h <;> simp_all

instance : Countable HashAlgorithm :=
  Function.Injective.countable (f := HashAlgorithm.ctorIdx) <| by
    intro a b h; cases a <;> cases b <;> first | rfl | cases h

instance : Countable KeyDetails :=
  Function.Injective.countable (f := KeyDetails.ctorIdx) <| by
    intro a b h; cases a <;> cases b <;> first | rfl | cases h

instance : Countable HashedRekordV002 :=
  Function.Injective.countable (f := fun x => (x.algorithm, x.digest, x.signature, x.verifier, x.keyDetails)) <| by
    rintro ⟨a, b, c, d, e⟩ ⟨a', b', c', d', e'⟩ h
    simp only [Prod.mk.injEq] at h
    obtain ⟨rfl, rfl, rfl, rfl, rfl⟩ := h
    rfl

instance : Countable V2Entry :=
  Function.Injective.countable (f := fun x => (x.kind, x.apiVersion, x.hashedRekord)) <| by
    rintro ⟨a, b, c⟩ ⟨a', b', c'⟩ h
    simp only [Prod.mk.injEq] at h
    obtain ⟨rfl, rfl, rfl⟩ := h
    rfl

/-- the number of a body, in unary -/
noncomputable def encodeBody {α : Type} [Countable α] (x : α) : Bytes :=
  List.replicate ((exists_injective_nat α).choose x) 0

open Classical in
/-- its inverse -/
noncomputable def decodeBody (α : Type) [Countable α] (b : Bytes) : Option α :=
  if h : ∃ x : α, encodeBody x = b then some h.choose else none

theorem decodeBody_encodeBody {α : Type} [Countable α] (x : α) : decodeBody α (encodeBody x) = some x := by
  have h : ∃ y : α, encodeBody y = encodeBody x := ⟨x, rfl⟩
  unfold decodeBody
  rw [dif_pos h]
  have := congrArg List.length h.choose_spec
  unfold encodeBody at this
  rw [List.length_replicate, List.length_replicate] at this
  exact congrArg some ((exists_injective_nat α).choose_spec this)

/-! ## The world -/

/-- pad or cut to 32 bytes -/
def pad32 (x : Bytes) : Bytes := (x ++ List.replicate 32 0).take 32

theorem pad32_length (x : Bytes) : (pad32 x).length = 32 := by
  rw [pad32, List.length_take, List.length_append, List.length_replicate]; omega

/-- signatures are the key followed by the digest -/
def padCrypto : Crypto where
  sha256 := pad32
  sha384 := id
  sha512 := id
  rsaPkcs1 := fun _ _ _ _ => false
  ecdsa := fun k d s => s == k.spki ++ d
  ed25519 := fun _ _ _ => false
  loadDerPublicKey := fun b => some ⟨.ec .p256, b⟩

/-- the client's key pairs -/
def padKeys : KeyPairs where
  pub := fun k => ⟨.ec .p256, 9 :: List.replicate k 1⟩
  sign := fun k _ d => 9 :: List.replicate k 1 ++ d

/-- the keys of the CT log and of Rekor -/
def padCt : ServiceKey := ⟨⟨.ec .p256, [5]⟩, .ecdsa .sha256⟩
/-- the key of Rekor -/
def padLog : ServiceKey := ⟨⟨.ec .p256, [7]⟩, .ecdsa .sha256⟩

/-- its SCT -/
def padSct (tbs : Bytes) : Sct where
  version := 0
  timestamp := 1794830400123
  entryType := .preCertificate
  logId := pad32 [5]
  extensionBytes := []
  hashAlgorithm := some .sha256
  signature := [5] ++ pad32 (DigitallySigned.encode ⟨0, 1794830400123, .precert (pad32 exIssuer.pubKey.spki) tbs, []⟩)

/-- the certificate Fulcio issues for a key -/
def padCert (spki : Bytes) : Cert :=
  { exLeafCert with
      der := spki, tbsPrecert := spki.take 100, pubKey := ⟨.ec .p256, spki⟩, notBefore := 1000000000,
      notAfter := 2000000000, keyUsage := some ⟨true, false⟩, eku := some [.codeSigning],
      san := some [.rfc822 "me".toList], exts := [(Policy.fulcioArc 1, utf8 "https://i".toList)],
      scts := some [padSct (spki.take 100)] }

/-- its surroundings -/
noncomputable def padEnv : Env where
  crypto := padCrypto
  pyInt := asciiInt
  loadCert := fun der => some (padCert der)
  decodeTsr := fun b => some ⟨b, 1700000000⟩
  verifyTsr := fun _ _ _ _ _ => true
  buildChain := fun _ _ _ => some [exIssuer]
  parseHashedrekord := decodeBody _
  parseDsse := decodeBody _
  parseV2 := decodeBody _

/-- the trusted root -/
def padRoot : TrustedRoot Cert where
  tlogs := [⟨some [7], .pkixEcdsaP256Sha256, some ⟨0, none⟩⟩]
  ctlogs := [⟨some [5], .pkixEcdsaP256Sha256, some ⟨0, none⟩⟩]
  certificateAuthorities := [⟨some ⟨0, none⟩, [exIssuer]⟩]
  timestampAuthorities := [⟨some ⟨0, none⟩, [exLeafCert, exCaCert]⟩]

/-- the body, kind and version the log stores -/
noncomputable def padBody : Recorded → Bytes × Str × Str
  | .hashedrekord spec => (encodeBody spec, "hashedrekord".toList, "0.0.1".toList)
  | .dsse spec => (encodeBody spec, "dsse".toList, "0.0.1".toList)
  | .v2 e => (encodeBody e, e.kind, e.apiVersion)

/-- the checkpoint of a log with this single entry -/
def padCheckpoint (body : Bytes) : Spec.Checkpoint :=
  { origin := "o".toList, size := 1, root := mth pad32 [body], extra := [] }

/-- its signature by the log -/
def padNoteSig (body : Bytes) : NoteSig :=
  ⟨"o".toList, [7, 0, 0, 0], [7] ++ pad32 (utf8 (padCheckpoint body).noteText)⟩

/-- a log entry for this body: the first of its log -/
noncomputable def padEntry (r : Recorded) : LogEntry where
  logIndex := 0
  logId := pad32 [7]
  kind := (padBody r).2.1
  version := (padBody r).2.2
  integratedTime := some 1500
  promise :=
    if (padBody r).2.2 = "0.0.1".toList then
      some ([7] ++ pad32 (utf8 (promiseText (padBody r).1 1500 (pad32 [7]) 0)))
    else none
  body := (padBody r).1
  proof := some { logIndex := 0, treeSize := 1, rootHash := mth pad32 [(padBody r).1], hashes := [],
                  checkpoint := some (envelopeText (padCheckpoint (padBody r).1) [padNoteSig (padBody r).1]) }

open Classical in
/-- the log: records what can be recorded -/
noncomputable def padRekor (request : EntryRequest) : Py LogEntry :=
  if h : ∃ r, Records padCrypto request r then .ok (padEntry h.choose) else .error .rekorClient

/-- the services, at a time when the certificate is valid -/
noncomputable def padAnswers : Answers where
  now := 1600000000
  tokenValid := true
  fulcio := fun csr => .ok (padCert csr.pubKey.spki, [exIssuer])
  tsas := [fun sig => .ok ⟨sig, 1700000000⟩]
  rekor := padRekor
  nonce := 3

theorem padEntry_logged (request : EntryRequest) (r : Recorded) (h : Records padCrypto request r) (ms : List PublicKeyMsg)
    (spki : Bytes) : Logged padEnv padLog ms (padCert spki) request (padEntry r) where
  body := by
    refine ⟨r, h, ?_⟩
    cases r with
    | hashedrekord spec => exact ⟨rfl, rfl, decodeBody_encodeBody spec⟩
    | dsse spec => exact ⟨rfl, rfl, decodeBody_encodeBody spec⟩
    | v2 e => exact ⟨rfl, rfl, decodeBody_encodeBody e⟩
  logId := .inl rfl
  proof := by
    refine ⟨[(padBody r).1], 0, padCheckpoint (padBody r).1, [], [], padNoteSig (padBody r).1, rfl, show 1 < 2 ^ 64 by decide, ?_, rfl, rfl,
      ?_, by simp, rfl, ?_, ?_⟩
    · have ho : (padCheckpoint (padBody r).1).origin = "o".toList := rfl
      refine ⟨by rw [ho]; decide, by rw [ho]; decide, by rw [ho]; decide, ?_, by simp [padCheckpoint], by simp [padCheckpoint], by simp [padCheckpoint]⟩
      intro hn
      have := congrArg List.length hn
      rw [show (padCheckpoint (padBody r).1).root = pad32 (0 :: (padBody r).1) by simp [padCheckpoint, mth], pad32_length] at this
      cases this
    · intro x hx
      rw [List.nil_append, List.mem_singleton] at hx
      subst hx
      have ho : (padNoteSig (padBody r).1).name = "o".toList := rfl
      exact ⟨by rw [ho]; decide, by rw [ho]; decide, rfl, by simp [padNoteSig]⟩
    · show (_ == _) = true
      rw [beq_iff_eq]; rfl
    · have hp : path padEnv.crypto.sha256 0 [(padBody r).1] = [] := by simp [path]
      rw [hp]; rfl
  promised := by
    intro hv
    refine ⟨_, 1500, if_pos hv, rfl, by decide, by decide, ?_, le_refl _, ?_, ?_⟩
    · exact ⟨show (1000000000 : Int) ≤ 1500 * 1000000 by decide, show (1500 * 1000000 : Int) ≤ 2000000000 by decide⟩
    · exact show (0 : Int) < 2 ^ 53 by decide
    · show (_ == _) = true
      rw [beq_iff_eq]; rfl
  unpromised := fun hv => if_neg hv

theorem padKeys_correct : CorrectKeys padCrypto padKeys where
  p256 := fun _ => rfl
  accepted := fun k n d _ => by
    show (_ == _) = true
    rw [beq_iff_eq]; rfl
  nonempty := fun k n d => by simp [padKeys]

theorem padTrusted (k : Bytes) (hk : k ≠ []) :
    ServiceKey.TrustedIn padCrypto ⟨⟨.ec .p256, k⟩, .ecdsa .sha256⟩ [⟨some k, .pkixEcdsaP256Sha256, some ⟨0, none⟩⟩] :=
  ⟨[], _, [], rfl, ⟨k, rfl, hk, rfl, .p256, .ec _ _⟩, rfl, by simp⟩

theorem padFulcio_honest : HonestFulcio padEnv [exIssuer] padCt padAnswers.fulcio := by
  rintro ⟨⟨kind, spki⟩⟩ hk cert chain h
  dsimp only at hk
  subst hk
  obtain ⟨rfl, rfl⟩ := Prod.mk.inj (Except.ok.inj h)
  have hi : IssuerIn [exIssuer] exIssuer := .direct _ _ (by intro l hl; simp [exIssuer, exCaCert] at hl)
  refine ⟨rfl, rfl, ⟨_, rfl, rfl⟩, ⟨_, rfl, by decide⟩, exIssuer, ⟨⟨true, by decide⟩, .inr ⟨_, rfl⟩⟩, hi,
    ⟨padSct (spki.take 100), rfl, rfl, rfl, rfl, ?_, ?_, show 0 < 2 ^ 16 by decide, ?_, ?_⟩, fun _ _ _ => ⟨_, rfl, hi⟩⟩
  · exact show 2 ^ 40 ≤ 1794830400123 by decide
  · exact show 1794830400123 < 1000 * 2 ^ 31 by decide
  · have : (spki.take 100).length ≤ 100 := List.length_take_le _ _
    show (spki.take 100).length < 2 ^ 24
    omega
  · show (_ == _) = true
    rw [beq_iff_eq]; rfl

theorem padRekor_honest (ms : List PublicKeyMsg) (spki : Bytes) : HonestLog padEnv padLog ms (padCert spki) padRekor := by
  intro request h entry he
  change ∃ r, Records padCrypto request r at h
  unfold padRekor at he
  rw [dif_pos h, Except.ok.injEq] at he
  subst he
  exact padEntry_logged request _ h.choose_spec ms spki

theorem padTsas_honest (spki : Bytes) : HonestTsas padEnv 1800000000 padRoot (padCert spki) padAnswers.tsas where
  answers := by
    intro tsa hm sig
    rw [show padAnswers.tsas = [fun sig => .ok ⟨sig, 1700000000⟩] from rfl, List.mem_singleton] at hm
    subst hm
    refine .inr ⟨_, rfl, rfl, ⟨_, List.mem_singleton.2 rfl, exLeafCert, [], exCaCert, _, rfl, rfl, ?_, rfl, ?_, ?_⟩, ?_, ?_⟩
    · exact show (0 : Int) ≤ 1800000000 by decide
    · exact show (0 : Int) ≤ 1700000000 by decide
    · intro e he; cases he
    · exact show (1000000000 : Int) ≤ 1700000000 by decide
    · exact show (1700000000 : Int) ≤ 2000000000 by decide
  different := fun sig => by
    rw [show answered sig padAnswers.tsas = [⟨sig, 1700000000⟩] from rfl]
    exact List.nodup_singleton _
  few := by decide

theorem padInt (n : Nat) (_ : n < 2 ^ 64) : padEnv.pyInt (decimal n) = some (n : Int) := by
  show asciiInt (decimal n) = _
  unfold asciiInt
  rw [if_pos ⟨decimal_ne_nil n, List.all_eq_true.2 (decimal_digits n)⟩, decimalVal_decimal]

/-- **C38** is not vacuous: in this world, with either version of the log, every artifact and every statement can be
signed, and what is signed verifies. -/
example (v : ApiVersion) (w₀ : World) :
    ∃ s w₁ cert, Signer.init padEnv ⟨padRoot, v⟩ padKeys padAnswers true w₀ = (.ok s, w₁) ∧ s.cachedCert = some cert ∧
      ∀ (w : World) (call : Call), CanSign call →
        ∃ b w', s.sign padEnv ⟨padRoot, v⟩ padKeys padAnswers w call = (.ok b, w') ∧ b.cert = cert ∧
          ∀ policy, VerifiesUpToPolicy padEnv 1800000000 ⟨padRoot, [exIssuer]⟩ b policy call := by
  obtain ⟨s, w₁, cert, h1, h2, h3⟩ := C38_end_to_end_partial padEnv ⟨padRoot, v⟩ padKeys padAnswers w₀ ⟨padRoot, [exIssuer]⟩ 1800000000
    padCt padLog padKeys_correct pad32_length padInt rfl (padTrusted _ (by simp)) (padTrusted _ (by simp))
    (padTrusted _ (by simp)) (by intro ca hc; rw [List.mem_singleton.1 hc]; exact ⟨by simp, by simp⟩)
    padFulcio_honest ⟨_, _, rfl⟩
  refine ⟨s, w₁, cert, h1, h2, ?_⟩
  obtain ⟨cert', chain, i1, i2, i3, rfl, rfl⟩ := (init_cached_iff _ _ _ _ _ _ _).1 h1
  rw [Option.some.injEq] at h2
  subst h2
  obtain ⟨rfl, rfl⟩ := Prod.mk.inj (Except.ok.inj i2)
  intro w call hcan
  refine h3 padAnswers w call ?_ hcan (padRekor_honest _ _) ?_ (padTsas_honest _)
    (.inr ⟨_, List.mem_singleton.2 rfl, fun _ => ⟨_, rfl⟩⟩)
  · exact show (1600000000 : Int) ≤ 2000000000 by decide
  · intro request h
    change ∃ r, Records padCrypto request r at h
    exact ⟨padEntry h.choose, by show padRekor request = _; unfold padRekor; rw [dif_pos h]⟩

end Sigstore.Props
