import Verif.Spec.Identity
import Verif.Model.CliPolicy

/-!
# C21 - C25: verification policies
-/

namespace Sigstore.Props

open Sigstore.Policy Sigstore.Spec Sigstore.Cli

/-! ## C21 -/

theorem verifyAll_ok_iff (cert : Cert) (cs : List Policy) :
    verifyAll cert cs = .ok () ↔ ∀ p ∈ cs, p.verify cert = .ok () := by
  induction cs with
  | nil => simp [verifyAll]
  | cons p ps ih =>
    rw [verifyAll]
    cases h : p.verify cert with
    | ok u => cases u; simp [ih, h]
    | error e => simp [h]

/-- **C21** `AllOf` accepts iff it has a child and every child accepts. -/
theorem C21_allOf_iff (cert : Cert) (cs : List Policy) :
    (Policy.allOf cs).verify cert = .ok () ↔ cs ≠ [] ∧ ∀ p ∈ cs, p.verify cert = .ok () := by
  rw [Policy.verify]
  split
  · rename_i h
    have : cs = [] := List.length_eq_zero_iff.1 (by omega)
    simp [this]
  · rename_i h
    have : cs ≠ [] := by rintro rfl; simp at h
    simp [this, verifyAll_ok_iff]

/-- **C21** `AllOf` fails with the failure of its first failing child. -/
theorem C21_allOf_error_iff (cert : Cert) (cs : List Policy) (e : Exc) (hne : cs ≠ []) :
    (Policy.allOf cs).verify cert = .error e ↔
      ∃ pre p post, cs = pre ++ p :: post ∧ (∀ q ∈ pre, q.verify cert = .ok ()) ∧ p.verify cert = .error e := by
  rw [Policy.verify, if_neg (by have := List.length_pos_iff.2 hne; omega)]
  clear hne
  induction cs with
  | nil => simp [verifyAll]
  | cons p ps ih =>
    rw [verifyAll]
    cases h : p.verify cert with
    | ok u =>
      cases u
      rw [ih]
      constructor
      · rintro ⟨pre, q, post, rfl, h1, h2⟩
        refine ⟨p :: pre, q, post, rfl, ?_, h2⟩
        intro x hx
        rcases List.mem_cons.1 hx with rfl | hx
        · exact h
        · exact h1 x hx
      · rintro ⟨pre, q, post, he, h1, h2⟩
        cases pre with
        | nil =>
          simp at he
          obtain ⟨rfl, _⟩ := he
          rw [h] at h2; simp at h2
        | cons x pre =>
          simp at he
          obtain ⟨rfl, rfl⟩ := he
          exact ⟨pre, q, post, rfl, fun y hy => h1 y (List.mem_cons_of_mem _ hy), h2⟩
    | error x =>
      constructor
      · intro he; cases he; exact ⟨[], p, ps, rfl, by simp, h⟩
      · rintro ⟨pre, q, post, he, h1, h2⟩
        cases pre with
        | nil =>
          simp at he
          obtain ⟨rfl, _⟩ := he
          rw [h] at h2; exact h2
        | cons y pre =>
          simp at he
          obtain ⟨rfl, _⟩ := he
          have := h1 p (List.mem_cons_self ..)
          rw [h] at this; simp at this

/-- **C21** What `AnyOf` does in general: it accepts iff some child accepts after only children that
failed with `VerificationError`. -/
theorem C21_anyOf_exact (cert : Cert) (cs : List Policy) :
    (Policy.anyOf cs).verify cert = .ok () ↔
      ∃ pre p post, cs = pre ++ p :: post ∧ p.verify cert = .ok () ∧
        ∀ q ∈ pre, ∃ e, q.verify cert = .error e ∧ e.isVerificationError = true := by
  rw [Policy.verify]
  induction cs with
  | nil => simp [verifyAny]
  | cons p ps ih =>
    rw [verifyAny]
    cases h : p.verify cert with
    | ok u =>
      cases u
      simp only [true_iff]
      exact ⟨[], p, ps, rfl, h, by simp⟩
    | error x =>
      dsimp only
      cases hx : x.isVerificationError with
      | true =>
        rw [if_pos rfl, ih]
        constructor
        · rintro ⟨pre, q, post, rfl, h1, h2⟩
          refine ⟨p :: pre, q, post, rfl, h1, ?_⟩
          intro y hy
          rcases List.mem_cons.1 hy with rfl | hy
          · exact ⟨x, h, hx⟩
          · exact h2 y hy
        · rintro ⟨pre, q, post, he, h1, h2⟩
          cases pre with
          | nil =>
            simp at he
            obtain ⟨rfl, _⟩ := he
            rw [h] at h1; simp at h1
          | cons y pre =>
            simp at he
            obtain ⟨rfl, rfl⟩ := he
            exact ⟨pre, q, post, rfl, h1, fun z hz => h2 z (List.mem_cons_of_mem _ hz)⟩
      | false =>
        simp only [Bool.false_eq_true, if_false, reduceCtorEq, false_iff]
        rintro ⟨pre, q, post, he, h1, h2⟩
        cases pre with
        | nil =>
          simp at he
          obtain ⟨rfl, _⟩ := he
          rw [h] at h1; simp at h1
        | cons y pre =>
          simp at he
          obtain ⟨rfl, _⟩ := he
          obtain ⟨e, he, hv⟩ := h2 p (List.mem_cons_self ..)
          rw [h] at he; cases he
          rw [hx] at hv; simp at hv

/-- **C21** When no child fails with anything but `VerificationError`, `AnyOf` is a disjunction, and it
fails with `VerificationError`. -/
theorem C21_anyOf_iff (cert : Cert) (cs : List Policy) (clean : ∀ p ∈ cs, (p.verify cert).Clean) :
    ((Policy.anyOf cs).verify cert = .ok () ↔ ∃ p ∈ cs, p.verify cert = .ok ()) ∧
    ((Policy.anyOf cs).verify cert = .error .verification ↔ ∀ p ∈ cs, p.verify cert ≠ .ok ()) := by
  rw [Policy.verify]
  induction cs with
  | nil => simp [verifyAny]
  | cons p ps ih =>
    obtain ⟨ih1, ih2⟩ := ih (fun q hq => clean q (List.mem_cons_of_mem _ hq))
    rw [verifyAny]
    cases h : p.verify cert with
    | ok u => cases u; simp [h]
    | error x =>
      have := clean p (List.mem_cons_self ..) x h
      simp only [this, if_true, ih1, ih2]
      simp [h]

/-- **C21** Empty combinators reject every certificate with `VerificationError`. -/
theorem C21_empty_rejects (cert : Cert) :
    (Policy.anyOf []).verify cert = .error .verification ∧ (Policy.allOf []).verify cert = .error .verification := by
  constructor
  · rw [Policy.verify, verifyAny]
  · rw [Policy.verify]; rfl

/-! ## C23 -/

theorem ext?_eq_some_iff (cert : Cert) (hu : UniqueExts cert) (oid : Oid) (raw : Bytes) :
    cert.ext? oid = some raw ↔ (oid, raw) ∈ cert.exts := by
  unfold Cert.ext? UniqueExts at *
  generalize cert.exts = l at *
  induction l with
  | nil => simp
  | cons e l ih =>
    rw [List.map_cons, List.nodup_cons] at hu
    rw [List.find?_cons]
    by_cases he : e.1 = oid
    · simp only [he, decide_true, Option.some.injEq, List.mem_cons]
      constructor
      · rintro rfl; left; rw [← he]
      · rintro (h | h)
        · rw [← h]
        · exact absurd (List.mem_map.2 ⟨_, h, he.symm⟩) hu.1
    · simp only [he, decide_false, List.mem_cons]
      rw [ih hu.2]
      constructor
      · exact Or.inr
      · rintro (h | h)
        · rw [← h] at he; exact absurd rfl he
        · exact h

/-- **C23** Every policy class reads the OID and the encoding that Fulcio's table assigns to it. -/
theorem C23_oid_table (cls : ExtClass) :
    ∃ n enc, (n, cls, enc) ∈ fulcioTable ∧ cls.oid = [1, 3, 6, 1, 4, 1, 57264, 1, n] ∧
      (enc = .der ↔ cls.isV2 = true) ∧ ∀ n' enc', (n', cls, enc') ∈ fulcioTable → n' = n ∧ enc' = enc := by
  refine ⟨_, if cls.isV2 then .der else .raw, ?_, (by cases cls <;> rfl : cls.oid = fulcioArc (cls.oid.getLast!)), ?_, ?_⟩
  · cases cls <;> decide
  · cases cls <;> decide
  · intro n enc h
    cases cls <;> (simp only [fulcioTable, List.mem_cons, Prod.mk.injEq, reduceCtorEq, false_and, and_false,
      true_and, or_false, false_or, List.not_mem_nil] at h; obtain ⟨rfl, rfl⟩ := h; exact ⟨rfl, rfl⟩)

/-- **C23** Different classes read different extensions. -/
theorem C23_oids_distinct (a b : ExtClass) (h : a.oid = b.oid) : a = b := by
  cases a <;> cases b <;> first | rfl | (simp [ExtClass.oid, fulcioArc] at h)

/-- **C23** A single-extension policy accepts iff the certificate claims exactly the configured value
(in an extension of less than 4 GiB). -/
theorem C23_ext_iff (cls : ExtClass) (value : Str) (cert : Cert) (hu : UniqueExts cert)
    (hsize : (utf8 value).length < 4294967296) :
    (Policy.ext cls value).verify cert = .ok () ↔ Claims cert cls value := by
  obtain ⟨n, enc, h1, h2, h3, h4⟩ := C23_oid_table cls
  have hclaims : Claims cert cls value ↔ cert.ext? cls.oid = some (enc.encode value) := by
    rw [ext?_eq_some_iff cert hu, h2]
    constructor
    · rintro ⟨n', enc', ht, hm⟩
      obtain ⟨rfl, rfl⟩ := h4 n' enc' ht
      exact hm
    · intro hm; exact ⟨n, enc, h1, hm⟩
  rw [hclaims, Policy.verify, verifyExt]
  cases hx : cert.ext? cls.oid with
  | none => simp
  | some raw =>
    cases hv : cls.isV2 with
    | true =>
      have he : enc = .der := h3.2 hv
      subst he
      simp only [if_true, Encoding.encode, Option.some.injEq]
      cases hd : derDecodeUtf8String raw with
      | none =>
        simp only [reduceCtorEq, false_iff]
        rintro rfl
        rw [(derDecodeUtf8String_iff _ value).2 ⟨hsize, rfl⟩] at hd
        simp at hd
      | some s =>
        obtain ⟨hl, rfl⟩ := (derDecodeUtf8String_iff _ _).1 hd
        simp only [ne_eq, ite_not]
        constructor
        · intro h
          split at h
          · rename_i he; rw [he]
          · simp at h
        · intro h
          have := (derDecodeUtf8String_iff _ value).2 ⟨hsize, h⟩
          rw [hd] at this
          rw [if_pos (Option.some.inj this)]
    | false =>
      have he : enc = .raw := by
        cases enc with
        | raw => rfl
        | der => rw [h3.1 rfl] at hv; simp at hv
      subst he
      simp only [Bool.false_eq_true, if_false, Encoding.encode, Option.some.injEq]
      cases hd : utf8Decode raw with
      | none =>
        simp only [reduceCtorEq, false_iff]
        rintro rfl
        rw [utf8Decode_utf8] at hd; simp at hd
      | some s =>
        have := (utf8Decode_eq_some_iff _ _).1 hd
        subst this
        simp only [ne_eq, ite_not]
        constructor
        · intro h
          split at h
          · rename_i he; rw [he]
          · simp at h
        · intro h
          rw [if_pos (utf8_injective h)]

/-- **C23** No two values are accepted for the same certificate. -/
theorem C23_value_unique (cls : ExtClass) (v w : Str) (cert : Cert)
    (hv : (Policy.ext cls v).verify cert = .ok ()) (hw : (Policy.ext cls w).verify cert = .ok ()) : v = w := by
  rw [Policy.verify, verifyExt] at hv hw
  split at hv
  · simp at hv
  · rename_i raw hx
    rw [hx] at hw
    dsimp only at hw
    split at hv
    · rename_i h2
      rw [if_pos h2] at hw
      split at hv
      · simp at hv
      · rename_i s hd
        rw [hd] at hw
        dsimp only at hw
        split at hv <;> split at hw <;> simp_all
    · rename_i h2
      rw [if_neg h2] at hw
      split at hv
      · simp at hv
      · rename_i s hd
        rw [hd] at hw
        dsimp only at hw
        split at hv <;> split at hw <;> simp_all

/-- **C23** Failures of a single-extension policy: absent extension or different value is
`VerificationError`; undecodable content is another exception. -/
theorem C23_ext_errors (cls : ExtClass) (value : Str) (cert : Cert) (e : Exc)
    (h : (Policy.ext cls value).verify cert = .error e) :
    (e = .verification ∧ (cert.ext? cls.oid = none ∨
        (cls.isV2 = false ∧ ∃ s, s ≠ value ∧ cert.ext? cls.oid = some (utf8 s)) ∨
        (cls.isV2 = true ∧ ∃ s, s ≠ value ∧ (utf8 s).length < 4294967296 ∧ cert.ext? cls.oid = some (derUtf8String s)))) ∨
      (e = .unicodeDecode ∧ cls.isV2 = false ∧ ∃ raw, cert.ext? cls.oid = some raw ∧ ∀ s, raw ≠ utf8 s) ∨
      (e = .valueError ∧ cls.isV2 = true ∧ ∃ raw, cert.ext? cls.oid = some raw ∧
        ∀ s, (utf8 s).length < 4294967296 → raw ≠ derUtf8String s) := by
  rw [Policy.verify, verifyExt] at h
  split at h
  · rename_i hx
    exact .inl ⟨by simpa using h.symm, .inl hx⟩
  · rename_i raw hx
    split at h
    · rename_i hv
      split at h
      · rename_i hd
        right; right
        refine ⟨by simpa using h.symm, hv, raw, hx, ?_⟩
        rintro s hl rfl
        rw [(derDecodeUtf8String_iff _ s).2 ⟨hl, rfl⟩] at hd; simp at hd
      · rename_i s hd
        split at h
        · rename_i hne
          obtain ⟨hl, rfl⟩ := (derDecodeUtf8String_iff _ s).1 hd
          exact .inl ⟨by simpa using h.symm, .inr (.inr ⟨hv, s, hne, hl, hx⟩)⟩
        · simp at h
    · rename_i hv
      split at h
      · rename_i hd
        right; left
        refine ⟨by simpa using h.symm, by simpa using hv, raw, hx, ?_⟩
        rintro s rfl
        rw [utf8Decode_utf8] at hd; simp at hd
      · rename_i s hd
        split at h
        · rename_i hne
          exact .inl ⟨by simpa using h.symm, .inr (.inl ⟨by simpa using hv, s, hne, by rw [hx, (utf8Decode_eq_some_iff _ _).1 hd]⟩)⟩
        · simp at h

/-! ## C22 -/

theorem otherNames_ok (names : List GeneralName) (l : List Str) (h : otherNames names = .ok l) (s : Str) :
    s ∈ l ↔ .otherName otherNameOid (utf8 s) ∈ names := by
  induction names generalizing l with
  | nil => simp [otherNames] at h; subst h; simp
  | cons g rest ih =>
    cases g with
    | otherName oid v =>
      rw [otherNames] at h
      split at h
      · rename_i ho
        subst ho
        split at h
        · simp at h
        · rename_i t hd
          have hv := (utf8Decode_eq_some_iff _ _).1 hd
          subst hv
          split at h
          · simp at h
          · rename_i l' hr
            cases h
            rw [List.mem_cons, List.mem_cons, ih l' hr]
            constructor
            · rintro (rfl | h)
              · exact .inl rfl
              · exact .inr h
            · rintro (h | h)
              · injection h with _ h; exact .inl (utf8_injective h)
              · exact .inr h
      · rename_i ho
        rw [ih l h, List.mem_cons]
        constructor
        · exact .inr
        · rintro (h | h)
          · injection h with h _; exact absurd h.symm ho
          · exact h
    | rfc822 v => simp only [otherNames] at h; rw [ih l h]; simp
    | uri v => simp only [otherNames] at h; rw [ih l h]; simp
    | other v => simp only [otherNames] at h; rw [ih l h]; simp

/-- every Fulcio "other name" of the certificate is valid UTF-8 -/
def OtherNamesDecodable (names : List GeneralName) : Prop :=
  ∀ v, .otherName [1, 3, 6, 1, 4, 1, 57264, 1, 7] v ∈ names → ∃ s, v = utf8 s

theorem otherNames_ok_iff (names : List GeneralName) :
    (∃ l, otherNames names = .ok l) ↔ OtherNamesDecodable names := by
  unfold OtherNamesDecodable
  induction names with
  | nil => simp [otherNames]
  | cons g rest ih =>
    cases g with
    | otherName oid v =>
      rw [otherNames]
      split
      · rename_i ho
        subst ho
        split
        · rename_i hd
          simp only [reduceCtorEq, exists_false, false_iff]
          intro hall
          obtain ⟨s, rfl⟩ := hall v (List.mem_cons_self ..)
          rw [utf8Decode_utf8] at hd; simp at hd
        · rename_i t hd
          have hv := (utf8Decode_eq_some_iff _ _).1 hd
          subst hv
          constructor
          · rintro ⟨l, h⟩
            split at h
            · simp at h
            · rename_i l' hr
              intro w hw
              rcases List.mem_cons.1 hw with hw | hw
              · injection hw with _ hw; exact ⟨t, hw⟩
              · exact ih.1 ⟨l', hr⟩ w hw
          · intro h
            obtain ⟨l', hl⟩ := ih.2 (fun w hw => h w (List.mem_cons_of_mem _ hw))
            rw [hl]; exact ⟨_, rfl⟩
      · rename_i ho
        rw [ih]
        constructor
        · intro h w hw
          rcases List.mem_cons.1 hw with hw | hw
          · injection hw with hw _; exact absurd hw.symm ho
          · exact h w hw
        · intro h w hw; exact h w (List.mem_cons_of_mem _ hw)
    | rfc822 v => simp only [otherNames, ih]; simp
    | uri v => simp only [otherNames, ih]; simp
    | other v => simp only [otherNames, ih]; simp

/-- **C22** `Identity` accepts iff the certificate claims the configured issuer (whenever a non-empty
one is configured) and was issued to the configured identity; all its Fulcio other-names must be
decodable. -/
theorem C22_identity_iff (identity : Str) (issuer : Option Str) (cert : Cert) (hu : UniqueExts cert)
    (hsize : ∀ i, issuer = some i → (utf8 i).length < 4294967296) :
    (Policy.identity identity issuer).verify cert = .ok () ↔
      (∀ i, issuer = some i → i ≠ [] → Claims cert .oidcIssuer i) ∧ IssuedTo cert identity ∧
      (∀ names, cert.san = some names → OtherNamesDecodable names) := by
  have hiss : verifyIssuer issuer cert = .ok () ↔
      ∀ i, issuer = some i → i ≠ [] → Claims cert .oidcIssuer i := by
    unfold verifyIssuer
    cases issuer with
    | none => simp
    | some i =>
      cases i with
      | nil => simp
      | cons a as =>
        have := C23_ext_iff .oidcIssuer (a :: as) cert hu (hsize _ rfl)
        rw [Policy.verify] at this
        simp [this]
  rw [Policy.verify, verifyIdentity, ← hiss]
  generalize verifyIssuer issuer cert = r
  cases r with
  | error e => simp
  | ok u =>
    cases u
    simp only [true_and]
    unfold IssuedTo
    cases hs : cert.san with
    | none => simp
    | some names =>
      simp only [Option.some.injEq, exists_eq_left', forall_eq']
      cases ho : otherNames names with
      | error e =>
        have : ¬ OtherNamesDecodable names := by
          rw [← otherNames_ok_iff]; rintro ⟨l, h⟩; rw [ho] at h; simp at h
        simp [this]
      | ok l =>
        have hd : OtherNamesDecodable names := (otherNames_ok_iff names).1 ⟨l, ho⟩
        have h1 : identity ∈ rfc822Names names ↔ .rfc822 identity ∈ names := by
          simp only [rfc822Names, List.mem_filterMap]
          constructor
          · rintro ⟨g, hg, h⟩
            cases g with
            | rfc822 v => simp at h; subst h; exact hg
            | uri v => simp at h
            | otherName a b => simp at h
            | other v => simp at h
          · intro h; exact ⟨_, h, rfl⟩
        have h2 : identity ∈ uriNames names ↔ .uri identity ∈ names := by
          simp only [uriNames, List.mem_filterMap]
          constructor
          · rintro ⟨g, hg, h⟩
            cases g with
            | rfc822 v => simp at h
            | uri v => simp at h; subst h; exact hg
            | otherName a b => simp at h
            | other v => simp at h
          · intro h; exact ⟨_, h, rfl⟩
        have h3 := otherNames_ok names l ho identity
        simp only [otherNameOid, fulcioArc] at h3
        dsimp only
        simp only [List.mem_append, h1, h2, h3, hd, and_true, or_assoc]
        constructor
        · intro h
          split at h
          · assumption
          · simp at h
        · intro h; rw [if_pos h]

/-! ### Concrete certificates -/

/-- a leaf certificate issued to `a@b.c` by the issuer `i`, with a v2 issuer extension and a repository -/
def exCert : Cert :=
  { der := [1, 2, 3], tbsPrecert := [1, 2], isV3 := true, pubKey := ⟨.ec .p256, [9]⟩, sigParamsPkcs1 := false,
    notBefore := 0, notAfter := 600, basicConstraints := none, keyUsage := some ⟨true, false⟩,
    eku := some [.codeSigning],
    san := some [.rfc822 "a@b.c".toList, .otherName [1, 3, 6, 1, 4, 1, 57264, 1, 7] (utf8 "user!host".toList)],
    scts := none,
    exts := [([1, 3, 6, 1, 4, 1, 57264, 1, 1], utf8 "https://issuer".toList),
             ([1, 3, 6, 1, 4, 1, 57264, 1, 8], derUtf8String "https://issuer".toList),
             ([1, 3, 6, 1, 4, 1, 57264, 1, 5], [0xff])],
    selfIssued := false }

example : UniqueExts exCert := by unfold UniqueExts; decide

example : Claims exCert .oidcIssuerV2 "https://issuer".toList ∧ IssuedTo exCert "user!host".toList ∧
    (Policy.identity "user!host".toList (some "https://issuer".toList)).verify exCert = .ok () ∧
    (Policy.identity "user!host".toList (some "https://other".toList)).verify exCert = .error .verification ∧
    (Policy.identity "user".toList none).verify exCert = .error .verification ∧
    (Policy.ext .oidcIssuerV2 "https://issuer".toList).verify exCert = .ok () := by
  refine ⟨⟨8, .der, by decide, by decide⟩, ⟨_, rfl, by decide⟩, by decide, by decide, by decide, by decide⟩

/-- **C22** If the issuer is as configured and the certificate's names can be read, but none of them is the identity, then `Identity`
raises `VerificationError`. -/
theorem C22_mismatch (identity : Str) (issuer : Option Str) (cert : Cert) (hu : UniqueExts cert)
    (hsize : ∀ i, issuer = some i → (utf8 i).length < 4294967296)
    (hiss : ∀ i, issuer = some i → i ≠ [] → Claims cert .oidcIssuer i) (names : List GeneralName) (hn : cert.san = some names)
    (hd : OtherNamesDecodable names) (hno : ¬ IssuedTo cert identity) :
    (Policy.identity identity issuer).verify cert = .error .verification := by
  have h1 : (Policy.identity identity issuer).verify cert ≠ .ok () := fun h =>
    hno ((C22_identity_iff identity issuer cert hu hsize).1 h).2.1
  have h2 : verifyIssuer issuer cert = .ok () := by
    unfold verifyIssuer
    cases issuer with
    | none => rfl
    | some i =>
      cases i with
      | nil => rfl
      | cons a as =>
        have := (C23_ext_iff .oidcIssuer (a :: as) cert hu (hsize _ rfl)).2 (hiss _ rfl (by simp))
        rw [Policy.verify] at this
        simpa using this
  obtain ⟨l, hl⟩ := (otherNames_ok_iff names).2 hd
  rw [Policy.verify, verifyIdentity, h2] at h1 ⊢
  simp only [hn, hl] at h1 ⊢
  split
  · rename_i hm
    exact absurd (if_pos hm) h1
  · rfl

/-- a certificate and an identity that the theorem is about -/
example : UniqueExts exCert ∧ (∃ names, exCert.san = some names ∧ OtherNamesDecodable names) ∧
    (Policy.identity "user".toList none).verify exCert = .error .verification ∧ ¬ IssuedTo exCert "user".toList := by
  have hu : UniqueExts exCert := by unfold UniqueExts; decide
  have hok : (Policy.identity "user!host".toList none).verify exCert = .ok () := by decide
  have hi := (C22_identity_iff _ none exCert hu (by simp)).1 hok
  obtain ⟨names, hn, -⟩ := hi.2.1
  have hbad : (Policy.identity "user".toList none).verify exCert = .error .verification := by decide
  refine ⟨hu, ⟨names, hn, hi.2.2 names hn⟩, hbad, fun h => ?_⟩
  have := (C22_identity_iff _ none exCert hu (by simp)).2 ⟨by simp, h, hi.2.2⟩
  rw [hbad] at this
  cases this

/-- **C22** (boundary) An empty issuer string configures no issuer check. -/
theorem C22_empty_issuer_is_no_issuer (identity : Str) (cert : Cert) :
    (Policy.identity identity (some [])).verify cert = (Policy.identity identity none).verify cert := by
  rw [Policy.verify, Policy.verify, verifyIdentity, verifyIdentity]; rfl

/-! ## C24 -/

/-- **C24** (refuted) `AnyOf` can abort with another exception although a later child accepts. -/
theorem C24_anyOf_can_abort :
    ¬ ∀ (cert : Cert) (cs : List Policy) (p : Policy), p ∈ cs → p.verify cert = .ok () →
      (Policy.anyOf cs).verify cert = .ok () := by
  intro h
  have := h exCert [.ext .githubWorkflowRepository "x".toList, .identity "a@b.c".toList none]
    (.identity "a@b.c".toList none) (by simp) (by decide)
  exact absurd this (by decide)

/-- **C24** (what does hold) An accepting child decides, provided the children before it do not fail
with anything but `VerificationError`.  Missing: children before it that raise another exception. -/
theorem C24_anyOf_accepts_partial (cert : Cert) (pre post : List Policy) (p : Policy)
    (hp : p.verify cert = .ok ()) (hpre : ∀ q ∈ pre, (q.verify cert).Clean) :
    (Policy.anyOf (pre ++ p :: post)).verify cert = .ok () := by
  rw [Policy.verify]
  induction pre with
  | nil => rw [List.nil_append, verifyAny, hp]
  | cons q pre ih =>
    rw [List.cons_append, verifyAny]
    split
    · rfl
    · rename_i e he
      rw [if_pos (hpre q (List.mem_cons_self ..) e he)]
      exact ih (fun x hx => hpre x (List.mem_cons_of_mem _ hx))

/-! ## C25 -/

theorem mem_optionalPolicy (o : Option Str) (mk : Str → Policy) (p : Policy) :
    p ∈ optionalPolicy o mk ↔ ∃ v, o = some v ∧ v ≠ [] ∧ p = mk v := by
  unfold optionalPolicy truthy
  cases o with
  | none => simp
  | some v =>
    cases v with
    | nil => simp
    | cons a as => simp

/-- the value of an option that was given and is not empty -/
def Given (o : Option Str) (v : Str) : Prop := o = some v ∧ v ≠ []

/-- **C25** `verify github`: a policy exists iff an identity or a repository is given, and it accepts a
certificate iff the issuer is GitHub Actions and the certificate matches every given option. -/
theorem C25_github_iff (args : GithubArgs) (p : Policy) (hp : githubPolicy args = .ok p) (cert : Cert)
    (hu : UniqueExts cert)
    (hsize : ∀ o ∈ [args.workflowTrigger, args.workflowSha, args.workflowName, args.workflowRepository,
      args.workflowRef], ∀ v, o = some v → (utf8 v).length < 4294967296) :
    ((∃ v, Given args.certIdentity v) ∨ (∃ v, Given args.workflowRepository v)) ∧
    (p.verify cert = .ok () ↔
      Claims cert .oidcIssuer "https://token.actions.githubusercontent.com".toList ∧
      (∀ v, Given args.certIdentity v → IssuedTo cert v ∧
        ∀ names, cert.san = some names → OtherNamesDecodable names) ∧
      (∀ v, Given args.workflowTrigger v → Claims cert .githubWorkflowTrigger v) ∧
      (∀ v, Given args.workflowSha v → Claims cert .githubWorkflowSha v) ∧
      (∀ v, Given args.workflowName v → Claims cert .githubWorkflowName v) ∧
      (∀ v, Given args.workflowRepository v → Claims cert .githubWorkflowRepository v) ∧
      (∀ v, Given args.workflowRef v → Claims cert .githubWorkflowRef v)) := by
  unfold githubPolicy at hp
  have htr : ∀ o, truthy o = true ↔ ∃ v, Given o v := by
    intro o
    unfold truthy Given
    cases o with
    | none => simp
    | some v => cases v <;> simp
  split at hp
  · simp at hp
  · rename_i hreq
    have hreq' : truthy args.certIdentity = true ∨ truthy args.workflowRepository = true := by
      revert hreq
      cases truthy args.certIdentity <;> cases truthy args.workflowRepository <;> simp
    rw [htr, htr] at hreq'
    refine ⟨hreq', ?_⟩
    cases hp
    rw [C21_allOf_iff]
    simp only [List.mem_append, mem_optionalPolicy, List.mem_singleton]
    have hI := C23_ext_iff .oidcIssuer githubIssuer cert hu (by decide)
    have hs : ∀ cls o, o ∈ [args.workflowTrigger, args.workflowSha, args.workflowName, args.workflowRepository,
        args.workflowRef] → ∀ v, o = some v →
        ((Policy.ext cls v).verify cert = .ok () ↔ Claims cert cls v) := by
      intro cls o ho v hv
      exact C23_ext_iff cls v cert hu (hsize o ho v hv)
    constructor
    · rintro ⟨_, h⟩
      refine ⟨hI.1 (h _ (by simp)), ?_, ?_, ?_, ?_, ?_, ?_⟩
      · rintro v ⟨hv, hn⟩
        have := (C22_identity_iff v none cert hu (by simp)).1
          (h (.identity v none) (by simp [hv, hn]))
        exact this.2
      · rintro v ⟨hv, hn⟩
        exact (hs _ _ (by simp) v hv).1 (h (.ext .githubWorkflowTrigger v) (by simp [hv, hn]))
      · rintro v ⟨hv, hn⟩
        exact (hs _ args.workflowSha (by simp) v hv).1 (h (.ext .githubWorkflowSha v) (by simp [hv, hn]))
      · rintro v ⟨hv, hn⟩
        exact (hs _ args.workflowName (by simp) v hv).1 (h (.ext .githubWorkflowName v) (by simp [hv, hn]))
      · rintro v ⟨hv, hn⟩
        exact (hs _ args.workflowRepository (by simp) v hv).1 (h (.ext .githubWorkflowRepository v) (by simp [hv, hn]))
      · rintro v ⟨hv, hn⟩
        exact (hs _ args.workflowRef (by simp) v hv).1 (h (.ext .githubWorkflowRef v) (by simp [hv, hn]))
    · rintro ⟨h0, h1, h2, h3, h4, h5, h6⟩
      refine ⟨by simp, ?_⟩
      rintro q ((((((rfl | ⟨v, hv, hn, rfl⟩) | ⟨v, hv, hn, rfl⟩) | ⟨v, hv, hn, rfl⟩) | ⟨v, hv, hn, rfl⟩) |
        ⟨v, hv, hn, rfl⟩) | ⟨v, hv, hn, rfl⟩)
      · exact hI.2 h0
      · exact (C22_identity_iff v none cert hu (by simp)).2 ⟨by simp, h1 v ⟨hv, hn⟩⟩
      · exact (hs _ args.workflowTrigger (by simp) v hv).2 (h2 v ⟨hv, hn⟩)
      · exact (hs _ args.workflowSha (by simp) v hv).2 (h3 v ⟨hv, hn⟩)
      · exact (hs _ args.workflowName (by simp) v hv).2 (h4 v ⟨hv, hn⟩)
      · exact (hs _ args.workflowRepository (by simp) v hv).2 (h5 v ⟨hv, hn⟩)
      · exact (hs _ args.workflowRef (by simp) v hv).2 (h6 v ⟨hv, hn⟩)

/-- **C25** Without an identity and without a repository the command fails (argparse error, status 2);
otherwise a policy is always built. -/
theorem C25_github_requires_identity_or_repository (args : GithubArgs) :
    (githubPolicy args = .error (.systemExit 2) ↔
      (∀ v, ¬ Given args.certIdentity v) ∧ ∀ v, ¬ Given args.workflowRepository v) ∧
    ((∃ p, githubPolicy args = .ok p) ↔
      (∃ v, Given args.certIdentity v) ∨ ∃ v, Given args.workflowRepository v) := by
  have htr : ∀ o, truthy o = true ↔ ∃ v, Given o v := by
    intro o
    unfold truthy Given
    cases o with
    | none => simp
    | some v => cases v <;> simp
  unfold githubPolicy
  rw [← htr, ← htr]
  have hn : ∀ o, (∀ v, ¬ Given o v) ↔ truthy o = false := by
    intro o
    rw [← not_exists, ← htr]; simp
  rw [hn, hn]
  cases truthy args.certIdentity <;> cases truthy args.workflowRepository <;> simp

/-- the command line `verify github --repository o/r` -/
def exGithub : GithubArgs := ⟨none, none, none, none, some "o/r".toList, none⟩

/-- A concrete accepted certificate and one with the right repository but another issuer. -/
example : ∃ p, githubPolicy exGithub = .ok p ∧
    p.verify { exCert with exts := [([1, 3, 6, 1, 4, 1, 57264, 1, 1], utf8 githubIssuer),
      ([1, 3, 6, 1, 4, 1, 57264, 1, 5], utf8 "o/r".toList)] } = .ok () ∧
    p.verify { exCert with exts := [([1, 3, 6, 1, 4, 1, 57264, 1, 1], utf8 "https://evil".toList),
      ([1, 3, 6, 1, 4, 1, 57264, 1, 5], utf8 "o/r".toList)] } = .error .verification := by
  refine ⟨_, rfl, by decide, by decide⟩

end Sigstore.Props
