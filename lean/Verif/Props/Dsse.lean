import Verif.Model.Dsse
import Verif.Spec.Dsse

/-!
# C33, C61, C34, C53: DSSE envelopes and statements
-/

namespace Sigstore.Props

open Sigstore.Dsse

theorem utf8_ascii (s : Str) (h : ∀ c ∈ s, c.toNat < 128) : utf8 s = s.map fun c => UInt8.ofNat c.toNat := by
  induction s with
  | nil => rfl
  | cons c s ih =>
    rw [utf8_cons, ih fun d hd => h d (List.mem_cons_of_mem _ hd), List.map_cons]
    have : utf8Char c = [UInt8.ofNat c.toNat] := by
      unfold utf8Char; exact if_pos (h c (List.mem_cons_self ..))
    rw [this]; rfl

theorem decDigit_range {c : Char} (h : isDecDigit c = true) : 48 ≤ c.toNat ∧ c.toNat ≤ 57 := by
  simpa [isDecDigit] using h

theorem utf8_decimal (n : Nat) : utf8 (decimal n) = (decimal n).map fun c => UInt8.ofNat c.toNat :=
  utf8_ascii _ fun c hc => by have := decDigit_range (decimal_digits n c hc); omega

theorem space_not_mem_decimal (n : Nat) : (0x20 : UInt8) ∉ utf8 (decimal n) := by
  rw [utf8_decimal]
  intro h
  obtain ⟨c, hc, he⟩ := List.mem_map.1 h
  have hr := decDigit_range (decimal_digits n c hc)
  have := congrArg UInt8.toNat he
  rw [toNat_ofNat8 (by omega)] at this
  have : c.toNat = 32 := this
  omega

theorem pae_eq (t : Str) (b : Bytes) :
    pae t b = utf8 "DSSEv1 ".toList ++
      (utf8 (decimal t.length) ++ 0x20 :: (utf8 t ++ 0x20 :: (utf8 (decimal b.length) ++ 0x20 :: b))) := by
  have hs : utf8 " ".toList = [0x20] := by decide
  simp only [pae, utf8_append, hs, List.append_assoc, List.cons_append, List.nil_append]

/-- **C33** The pre-authentication encoding determines both the payload type and the payload. -/
theorem C33_pae_injective (t t' : Str) (b b' : Bytes) (h : pae t b = pae t' b') : t = t' ∧ b = b' := by
  rw [pae_eq, pae_eq] at h
  have h := List.append_cancel_left h
  obtain ⟨h1, h2⟩ := split_at_delim 0x20 _ _ _ _ (space_not_mem_decimal _) (space_not_mem_decimal _) h
  have hl : t.length = t'.length := decimal_injective (utf8_injective h1)
  obtain ⟨h3, h4⟩ := utf8_prefix_free t t' _ _ hl h2
  have h4 := (List.cons.inj h4).2
  obtain ⟨_, h6⟩ := split_at_delim 0x20 _ _ _ _ (space_not_mem_decimal _) (space_not_mem_decimal _) h4
  exact ⟨h3, h6⟩

/-- **C33** No encoding is a prefix-extension confusion: appending to a payload always changes the
encoding, and types cannot be traded for payload bytes. -/
theorem C33_no_shift (t t' : Str) (b b' : Bytes) : pae t b = pae t' b' ↔ t = t' ∧ b = b' :=
  ⟨C33_pae_injective t t' b b', by rintro ⟨rfl, rfl⟩; rfl⟩

/-- concrete: moving a blank between type and payload changes the encoding -/
example : pae "a ".toList [98] ≠ pae "a".toList [32, 98] := by decide

/-! ## C61 -/

theorem utf8Char_length_one (c : Char) : (utf8Char c).length = 1 ↔ c.toNat < 128 := by
  unfold utf8Char
  dsimp only
  split
  · rename_i h; simp [h]
  · rename_i h
    split
    · simp [h]
    · split <;> simp [h]

theorem utf8_length_eq_iff (t : Str) : (utf8 t).length = t.length ↔ ∀ c ∈ t, c.toNat < 128 := by
  induction t with
  | nil => simp [utf8]
  | cons c t ih =>
    have h1 := length_le_length_utf8 t
    have h2 := length_utf8Char_pos c
    rw [utf8_cons, List.length_append, List.length_cons, List.forall_mem_cons, ← ih, ← utf8Char_length_one]
    omega

/-- **C61** (exact characterisation) The encoding is that of the DSSE specification exactly for the ASCII payload types. -/
theorem C61_spec_iff (t : Str) (b : Bytes) :
    pae t b = Spec.pae (utf8 t) b ↔ ∀ c ∈ t, c.toNat < 128 := by
  have hpre : utf8 "DSSEv1 ".toList = [0x44, 0x53, 0x53, 0x45, 0x76, 0x31, 0x20] := by decide
  have e : Spec.pae (utf8 t) b = utf8 "DSSEv1 ".toList ++
      (utf8 (decimal (utf8 t).length) ++ 0x20 :: (utf8 t ++ 0x20 :: (utf8 (decimal b.length) ++ 0x20 :: b))) := by
    simp only [Spec.pae, Spec.lenBytes, Spec.sp, hpre, utf8_decimal, List.append_assoc, List.cons_append,
      List.nil_append]
  rw [← utf8_length_eq_iff, e, pae_eq]
  constructor
  · intro h
    have h := List.append_cancel_left h
    obtain ⟨h1, _⟩ := split_at_delim 0x20 _ _ _ _ (space_not_mem_decimal _) (space_not_mem_decimal _) h
    exact (decimal_injective (utf8_injective h1)).symm
  · intro h; rw [h]

/-- **C61** (refuted) For a non-ASCII payload type the encoding differs from the specification. -/
theorem C61_non_ascii_mismatch : ¬ ∀ (t : Str) (b : Bytes), pae t b = Spec.pae (utf8 t) b := by
  intro h
  have := (C61_spec_iff "é".toList []).1 (h _ _) 'é' (by decide)
  revert this; decide

/-- **C61** (what does hold) For ASCII payload types, in particular the in-toto type that signing uses, the
encoding follows the specification.  Missing: non-ASCII payload types. -/
theorem C61_ascii_partial (t : Str) (b : Bytes) (h : ∀ c ∈ t, c.toNat < 128) : pae t b = Spec.pae (utf8 t) b :=
  (C61_spec_iff t b).2 h

/-- the in-toto type is ASCII -/
example (b : Bytes) : pae inTotoType b = Spec.pae (utf8 inTotoType) b := C61_ascii_partial _ _ (by decide)

/-! ## C34 -/

/-- **C34** Envelope construction succeeds iff there is exactly one signature and it is not empty, and
otherwise raises `InvalidEnvelope`. -/
theorem C34_envelope_iff (e : EnvelopeMsg) :
    (∀ sig, envelopeInit e = .ok sig ↔ e.signatures = [sig] ∧ sig ≠ []) ∧
    (∀ x, envelopeInit e = .error x → x = .invalidEnvelope) := by
  unfold envelopeInit
  rcases e.signatures with _ | ⟨s, _ | ⟨s', l⟩⟩
  · simp [eq_comm]
  · by_cases h : s = []
    · subst h
      refine ⟨fun sig => ?_, fun x hx => ?_⟩
      · simp [eq_comm]
      · simpa [eq_comm] using hx
    · refine ⟨fun sig => ?_, fun x hx => ?_⟩
      · simp only [h, if_false, Except.ok.injEq, List.cons.injEq, and_true, ne_eq]
        constructor
        · rintro rfl; exact ⟨rfl, h⟩
        · exact fun hx => hx.1
      · simp [h] at hx
  · simp [eq_comm]

/-- **C34** Envelope verification accepts iff there is exactly one signature, made by the (elliptic curve) key over the
pre-authentication encoding of the envelope's own type and payload; it returns that payload. -/
theorem C34_verify_iff (c : Crypto) (key : PubKey) (e : EnvelopeMsg) (p : Bytes) :
    dsseVerify c key e = .ok p ↔
      p = e.payload ∧ (∃ curve, key.kind = .ec curve) ∧
      ∃ sig, e.signatures = [sig] ∧ c.ecdsa key (c.sha256 (pae e.payloadType e.payload)) sig = true := by
  unfold dsseVerify ecVerify
  rcases e.signatures with _ | ⟨s, _ | ⟨s', l⟩⟩
  · simp
  · cases hk : key.kind with
    | ec curve =>
      cases hv : c.ecdsa key (c.sha256 (pae e.payloadType e.payload)) s
      · simp [hv]
      · simp only [if_true, Except.ok.injEq, List.cons.injEq, and_true, exists_eq_left', hv, KeyKind.ec.injEq,
          exists_eq']
        exact eq_comm
    | rsa n => simp
    | ed25519 => simp
    | other n => simp
  · simp

/-- **C34** Signing produces an envelope that carries exactly the statement bytes under the in-toto type
and that verifies under the matching key, for every statement and every correct signature scheme. -/
theorem C34_sign_verify (c : Crypto) (key : PubKey) (curve : Curve) (hk : key.kind = .ec curve)
    (sign : Bytes → Bytes) (hsign : ∀ m, c.ecdsa key (c.sha256 m) (sign m) = true) (hne : ∀ m, sign m ≠ [])
    (stmt : Statement) :
    ∃ e, dsseSign sign stmt = .ok e ∧ e.payload = stmt.contents ∧ e.payloadType = inTotoType ∧
      (∃ sig, envelopeInit e = .ok sig) ∧ dsseVerify c key e = .ok stmt.contents := by
  refine ⟨⟨stmt.contents, inTotoType, [sign (pae inTotoType stmt.contents)]⟩, ?_, rfl, rfl, ?_, ?_⟩
  · simp [dsseSign, envelopeInit, hne]
  · exact ⟨_, ((C34_envelope_iff _).1 _).2 ⟨rfl, hne _⟩⟩
  · exact (C34_verify_iff _ _ _ _).2 ⟨rfl, ⟨curve, hk⟩, _, rfl, hsign _⟩

/-! ## C53 (statement level) -/

/-- **C53** A statement matches a SHA-256 digest iff one of its subjects records, under `sha256`, exactly
the lower-case hex of the digest. -/
theorem C53_matches_iff (s : Statement) (d : Hashed) :
    s.matchesDigest d = .ok true ↔ d.algorithm = .sha2_256 ∧
      ∃ sub ∈ s.inner.subjects, Dict.get? sub.digest "sha256".toList = some (hexEncode d.digest) := by
  have h : ∀ l : List Subject, anySubject (hexEncode d.digest) l = true ↔
      ∃ sub ∈ l, Dict.get? sub.digest "sha256".toList = some (hexEncode d.digest) := by
    intro l
    induction l with
    | nil => simp [anySubject]
    | cons a l ih =>
      rw [anySubject]
      simp only [List.mem_cons, exists_eq_or_imp]
      cases hd : Dict.get? a.digest "sha256".toList with
      | none => simp only [ih]; simp
      | some x =>
        by_cases hx : x = hexEncode d.digest
        · simp [hx]
        · simp only [hx, if_false, ih, Option.some.injEq, false_or]
  unfold Statement.matchesDigest
  by_cases ha : d.algorithm = .sha2_256
  · simp [ha, h]
  · simp [ha]

/-- a statement with a matching second subject -/
example : (Statement.mk [] ⟨[⟨none, [("sha512".toList, "00".toList)]⟩, ⟨none, [("sha256".toList, "0a".toList)]⟩],
    [], none⟩).matchesDigest ⟨.sha2_256, [10]⟩ = .ok true := by decide

/-- the hypotheses of `C34_sign_verify` are satisfiable and the envelope is not trivial -/
example : dsseSign (fun m => UInt8.ofNat m.length :: []) ⟨[1, 2, 3], ⟨[], [], none⟩⟩ =
    .ok ⟨[1, 2, 3], inTotoType, [[44]]⟩ := by decide

end Sigstore.Props
