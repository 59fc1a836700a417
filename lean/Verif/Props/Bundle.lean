import Verif.Model.Bundle
import Verif.Props.CertUtils
import Verif.Props.Trust
import Verif.Props.Dsse

/-!
# C31, C32: bundle objects
-/

namespace Sigstore.Props

open Sigstore.LogEntry Sigstore.Dsse

/-! ## C31 -/

/-- a signing certificate: v3, not a CA, usable for digital signatures and code signing -/
def IsLeaf (cert : Cert) : Prop :=
  cert.isV3 = true ∧ DeniesCa cert ∧ (∃ ku, cert.keyUsage = some ku ∧ ku.digitalSignature = true) ∧
    ∃ l, cert.eku = some l ∧ .codeSigning ∈ l

/-- a certificate that clearly is, or clearly is not, a CA -/
def Classifiable (cert : Cert) : Prop := cert.isV3 = true ∧ (AssertsCa cert ∨ DeniesCa cert)

/-- the media types of bundles up to version 0.2, which carry a certificate chain -/
def oldMediaTypes : List Str :=
  ["application/vnd.dev.sigstore.bundle+json;version=0.1".toList,
   "application/vnd.dev.sigstore.bundle+json;version=0.2".toList]

/-- the media types of version 0.3, which carries a single certificate -/
def newMediaTypes : List Str :=
  ["application/vnd.dev.sigstore.bundle+json;version=0.3".toList,
   "application/vnd.dev.sigstore.bundle.v0.3+json".toList]

/-- The leaf certificate of a bundle, by version. -/
def LeafOf (env : Env) (m : BundleMsg) (cert : Cert) : Prop :=
  (m.mediaType ∈ newMediaTypes ∧ ∃ raw, m.certificate = some raw ∧ env.loadCert raw = some cert) ∨
  (m.mediaType ∈ oldMediaTypes ∧ ∃ raw raws, m.chain = some (raw :: raws) ∧ env.loadCert raw = some cert ∧
    IsLeaf cert ∧ ∀ r ∈ raws, ∃ c, env.loadCert r = some c ∧ Classifiable c)

/-- The requirements of the bundle format. -/
structure WellFormed (env : Env) (m : BundleMsg) (cert : Cert) (entry : LogEntry) : Prop where
  leaf : LeafOf env m cert
  oneEntry : m.tlogEntries = [entry]
  version : entry.version = "0.0.1".toList ∨ entry.version = "0.0.2".toList
  proof : ∃ p cp, entry.proof = some p ∧ p.checkpoint = some cp
  /-- version 0.1 requires an inclusion promise -/
  promise : m.mediaType = "application/vnd.dev.sigstore.bundle+json;version=0.1".toList → entry.promise ≠ none
  /-- without a promise there is at least one signed timestamp, and all of them decode -/
  time : entry.promise = none → m.timestamps ≠ [] ∧ ∀ b ∈ m.timestamps, ∃ t, env.decodeTsr b = some t

theorem ofValue_eq_some_iff (s : Str) (t : BundleType) : BundleType.ofValue s = some t ↔ t.value = s := by
  constructor
  · intro h
    have := List.find?_some h
    simpa using this
  · rintro rfl
    cases t <;> decide

theorem map_some_inj {α : Type} {l l' : List α} (h : l.map some = l'.map some) : l = l' :=
  (List.map_inj_right (fun _ _ h => by simpa using h)).1 h

theorem LeafOf.known {env : Env} {m : BundleMsg} {cert : Cert} (h : LeafOf env m cert) :
    ∃ t : BundleType, t.value = m.mediaType := by
  have key : ∀ s ∈ newMediaTypes ++ oldMediaTypes,
      s ∈ [BundleType.v0_1, .v0_2, .v0_3_alt, .v0_3].map BundleType.value := by decide
  have hm : m.mediaType ∈ newMediaTypes ++ oldMediaTypes := by
    rcases h with ⟨h, _⟩ | ⟨h, _⟩
    · exact List.mem_append_left _ h
    · exact List.mem_append_right _ h
  obtain ⟨t, _, ht⟩ := List.mem_map.1 (key _ hm)
  exact ⟨t, ht⟩

theorem loadCerts_ok_iff (env : Env) : ∀ (bs : List Bytes) (cs : List Cert),
    loadCerts env bs = .ok cs ↔ bs.map env.loadCert = cs.map some := by
  intro bs
  induction bs with
  | nil => intro cs; cases cs <;> simp [loadCerts]
  | cons b bs ih =>
    intro cs
    rw [loadCerts]
    cases hb : env.loadCert b with
    | none => cases cs <;> simp [hb]
    | some c =>
      cases hr : loadCerts env bs with
      | error e =>
        have : ∀ cs : List Cert, bs.map env.loadCert ≠ cs.map some := by
          intro cs' h'; rw [← ih] at h'; rw [hr] at h'; simp at h'
        cases cs with
        | nil => simp
        | cons x xs => simp [this xs]
      | ok cs' =>
        rw [ih] at hr
        cases cs with
        | nil => simp
        | cons x xs =>
          simp only [Except.ok.injEq, List.map_cons, List.cons.injEq, hb, Option.some.injEq]
          rw [hr]
          constructor
          · rintro ⟨rfl, rfl⟩; exact ⟨rfl, rfl⟩
          · rintro ⟨rfl, h⟩
            exact ⟨rfl, map_some_inj h⟩

theorem certIsRootCa_defined_iff (c : Cert) : (∃ b, certIsRootCa c = .ok b) ↔ Classifiable c := by
  unfold Classifiable
  have h1 := C30_ca_iff c
  have h2 := C30_not_ca_iff c
  unfold certIsRootCa
  cases h3 : c.isV3 with
  | false => simp
  | true =>
    simp only [h3, true_and] at h1 h2
    rw [← h1, ← h2]
    rcases certIsCa c with e | _ | _ <;> simp

theorem checkChainCerts_ok_iff (cs : List Cert) : checkChainCerts cs = .ok () ↔ ∀ c ∈ cs, Classifiable c := by
  induction cs with
  | nil => simp [checkChainCerts]
  | cons c cs ih =>
    rw [checkChainCerts, List.forall_mem_cons, ← certIsRootCa_defined_iff, ← ih]
    rcases certIsRootCa c with e | b <;> simp

theorem map_eq_map_some {α β : Type} (f : α → Option β) (P : β → Prop) (as : List α) :
    (∃ bs : List β, as.map f = bs.map some ∧ ∀ b ∈ bs, P b) ↔ ∀ a ∈ as, ∃ b, f a = some b ∧ P b := by
  induction as with
  | nil => simp
  | cons a as ih =>
    rw [List.forall_mem_cons, ← ih]
    constructor
    · rintro ⟨bs, h1, h2⟩
      cases bs with
      | nil => simp at h1
      | cons b bs =>
        simp only [List.map_cons, List.cons.injEq] at h1
        rw [List.forall_mem_cons] at h2
        exact ⟨⟨b, h1.1, h2.1⟩, bs, h1.2, h2.2⟩
    · rintro ⟨⟨b, h1, h2⟩, bs, h3, h4⟩
      exact ⟨b :: bs, by simp [h1, h3], by simpa [h2] using h4⟩

theorem decodeTsrs_ok_iff (env : Env) : ∀ (bs : List Bytes) (ts : List Tsr),
    decodeTsrs env bs = .ok ts ↔ bs.map env.decodeTsr = ts.map some := by
  intro bs
  induction bs with
  | nil => intro cs; cases cs <;> simp [decodeTsrs]
  | cons b bs ih =>
    intro cs
    rw [decodeTsrs]
    cases hb : env.decodeTsr b with
    | none => cases cs <;> simp [hb]
    | some c =>
      cases hr : decodeTsrs env bs with
      | error e =>
        have : ∀ cs : List Tsr, bs.map env.decodeTsr ≠ cs.map some := by
          intro cs' h'; rw [← ih] at h'; rw [hr] at h'; simp at h'
        cases cs with
        | nil => simp
        | cons x xs => simp [this xs]
      | ok cs' =>
        rw [ih] at hr
        cases cs with
        | nil => simp
        | cons x xs =>
          simp only [Except.ok.injEq, List.map_cons, List.cons.injEq, hb, Option.some.injEq]
          rw [hr]
          constructor
          · rintro ⟨rfl, rfl⟩; exact ⟨rfl, rfl⟩
          · rintro ⟨rfl, h⟩
            exact ⟨rfl, map_some_inj h⟩

theorem decodeTsrs_error {env : Env} {bs : List Bytes} {e : Exc} (h : decodeTsrs env bs = .error e) :
    e = .verification := by
  induction bs with
  | nil => simp [decodeTsrs] at h
  | cons b bs ih =>
    rw [decodeTsrs] at h
    split at h
    · simpa using h.symm
    · split at h
      · rename_i h'; rw [Except.error.injEq] at h; subst h; exact ih h'
      · simp at h

theorem extractLeaf_ok_iff (env : Env) (t : BundleType) (m : BundleMsg) (ht : t.value = m.mediaType) (cert : Cert) :
    extractLeaf env t m = .ok cert ↔ LeafOf env m cert := by
  have hnew : m.mediaType ∈ newMediaTypes ↔ t = .v0_3 ∨ t = .v0_3_alt := by
    rw [← ht]; cases t <;> decide
  have hold : m.mediaType ∈ oldMediaTypes ↔ ¬ (t = .v0_3 ∨ t = .v0_3_alt) := by
    rw [← ht]; cases t <;> decide
  unfold LeafOf
  rw [hnew, hold, extractLeaf]
  split
  · rename_i hv
    simp only [hv, true_and, not_true, false_and, or_false]
    cases m.certificate with
    | none => simp
    | some raw => cases h : env.loadCert raw <;> simp [h]
  · rename_i hv
    simp only [hv, not_false_eq_true, true_and, false_and, false_or]
    rcases m.chain with _ | _ | ⟨raw, raws⟩
    · simp
    · simp
    · simp only [Option.some.injEq, List.cons.injEq]
      have key : (∃ raw' raws', (raw = raw' ∧ raws = raws') ∧ env.loadCert raw' = some cert ∧ IsLeaf cert ∧
          ∀ r ∈ raws', ∃ c, env.loadCert r = some c ∧ Classifiable c) ↔
          env.loadCert raw = some cert ∧ IsLeaf cert ∧
            ∃ cs : List Cert, raws.map env.loadCert = cs.map some ∧ ∀ c ∈ cs, Classifiable c := by
        rw [map_eq_map_some]
        constructor
        · rintro ⟨_, _, ⟨rfl, rfl⟩, h⟩; exact h
        · intro h; exact ⟨_, _, ⟨rfl, rfl⟩, h⟩
      rw [key]
      cases hl : loadCerts env (raw :: raws) with
      | error e =>
        have hno : ∀ cs, loadCerts env (raw :: raws) ≠ .ok cs := by rw [hl]; simp
        simp only [reduceCtorEq, false_iff]
        rintro ⟨h1, _, cs, h2, _⟩
        exact hno (cert :: cs) ((loadCerts_ok_iff _ _ _).2 (by simp [h1, h2]))
      | ok l =>
        rw [loadCerts_ok_iff] at hl
        cases l with
        | nil => simp at hl
        | cons leaf rest =>
          simp only [List.map_cons, List.cons.injEq] at hl
          have hrest : (∃ cs : List Cert, raws.map env.loadCert = cs.map some ∧ ∀ c ∈ cs, Classifiable c) ↔
              ∀ c ∈ rest, Classifiable c := by
            rw [hl.2]
            constructor
            · rintro ⟨cs, h1, h2⟩
              have := map_some_inj h1
              rw [this]; exact h2
            · intro h; exact ⟨rest, rfl, h⟩
          rw [hl.1, hrest, Option.some.injEq, ← checkChainCerts_ok_iff]
          have hleaf := C30_leaf_iff leaf
          change _ ↔ IsLeaf leaf at hleaf
          dsimp only
          rcases hx : certIsLeaf leaf with e | _ | _
          · rw [hx] at hleaf
            have hn : ¬ IsLeaf leaf := fun h => by simpa using hleaf.2 h
            simp only [reduceCtorEq, false_iff]
            rintro ⟨rfl, h, _⟩; exact hn h
          · rw [hx] at hleaf
            have hn : ¬ IsLeaf leaf := fun h => by simpa using hleaf.2 h
            simp only [reduceCtorEq, false_iff]
            rintro ⟨rfl, h, _⟩; exact hn h
          · have hn : IsLeaf leaf := hleaf.1 hx
            rcases hy : checkChainCerts rest with e | ⟨⟩
            · simp
            · simp only [Except.ok.injEq, and_true]
              constructor
              · rintro rfl; exact ⟨rfl, hn⟩
              · exact fun h => h.1

theorem decodeTsrs_defined_iff (env : Env) (bs : List Bytes) :
    (∃ ts, decodeTsrs env bs = .ok ts) ↔ ∀ b ∈ bs, ∃ t, env.decodeTsr b = some t := by
  have := map_eq_map_some env.decodeTsr (fun _ => True) bs
  simp only [implies_true, and_true] at this
  rw [← this]
  simp only [decodeTsrs_ok_iff]

theorem extractEntry_ok_iff (env : Env) (t : BundleType) (m : BundleMsg) (e : LogEntry) :
    extractEntry env t m = .ok e ↔
      (m.tlogEntries = [e] ∧ (e.version = "0.0.1".toList ∨ e.version = "0.0.2".toList) ∧
        (∃ p cp, e.proof = some p ∧ p.checkpoint = some cp) ∧
        (t = .v0_1 → e.promise ≠ none) ∧
        (e.promise = none → m.timestamps ≠ [] ∧ ∀ b ∈ m.timestamps, ∃ t, env.decodeTsr b = some t)) := by
  unfold extractEntry
  split
  · rename_i entry hent
    rw [hent]
    simp only [List.cons.injEq, and_true]
    have hval : entry.validate = .ok () ↔ ∃ p cp, entry.proof = some p ∧ p.checkpoint = some cp := by
      unfold LogEntry.validate
      rcases entry.proof with _ | p
      · simp
      · rcases h : p.checkpoint with _ | cp <;> simp [h]
    split
    · rename_i hv
      simp only [reduceCtorEq, false_iff]
      rintro ⟨rfl, h, _⟩
      rcases h with h | h
      · exact hv.1 h
      · exact hv.2 h
    · rename_i hv
      have hv : entry.version = "0.0.1".toList ∨ entry.version = "0.0.2".toList := by
        by_cases h1 : entry.version = "0.0.1".toList
        · exact .inl h1
        · by_cases h2 : entry.version = "0.0.2".toList
          · exact .inr h2
          · exact absurd ⟨h1, h2⟩ hv
      split
      · rename_i x hx
        have : ¬ ∃ p cp, entry.proof = some p ∧ p.checkpoint = some cp := by
          rw [← hval, hx]; simp
        simp only [reduceCtorEq, false_iff]
        rintro ⟨rfl, _, h, _⟩
        exact this h
      · rename_i hx
        rw [hval] at hx
        have hd := decodeTsrs_defined_iff env m.timestamps
        rw [timestampData]
        have step : ∀ P : Prop, (entry = e ∧ (e.version = "0.0.1".toList ∨ e.version = "0.0.2".toList) ∧
            (∃ p cp, e.proof = some p ∧ p.checkpoint = some cp) ∧
            (t = .v0_1 → e.promise ≠ none) ∧ (e.promise = none → P)) ↔
            (entry = e ∧ (t = .v0_1 → entry.promise ≠ none) ∧ (entry.promise = none → P)) := by
          intro P
          constructor
          · rintro ⟨rfl, _, _, h⟩; exact ⟨rfl, h⟩
          · rintro ⟨rfl, h⟩; exact ⟨rfl, hv, hx, h⟩
        rw [step, ← hd]
        by_cases htv : t = .v0_1
        · simp only [htv, if_true, true_imp_iff]
          cases hp : entry.promise <;> simp
        · simp only [htv, if_false, false_imp_iff, true_and]
          cases hp : entry.promise with
          | some p => simp
          | none =>
            simp only [Option.isNone_none, if_true, true_imp_iff]
            cases hts : m.timestamps with
            | nil => simp [decodeTsrs]
            | cons b bs =>
              rcases hdec : decodeTsrs env (b :: bs) with x | _ | ⟨y, ys⟩
              · simp
              · rw [decodeTsrs_ok_iff] at hdec; simp at hdec
              · simp
  · rename_i hne
    simp only [reduceCtorEq, false_iff]
    rintro ⟨h, _⟩
    exact hne _ h

/-- **C31** A `Bundle` object is constructed from a message iff the message meets the requirements of
the format, and the object then holds exactly its leaf certificate and its one log entry. -/
theorem C31_bundle_iff (env : Env) (m : BundleMsg) (b : Bundle) :
    Bundle.init env m = .ok b ↔ b.inner = m ∧ WellFormed env m b.cert b.entry := by
  obtain ⟨im, cert, entry⟩ := b
  simp only [Bundle.init]
  cases ht : BundleType.ofValue m.mediaType with
  | none =>
    simp only [reduceCtorEq, false_iff]
    rintro ⟨_, hw⟩
    obtain ⟨t, h⟩ := LeafOf.known hw.leaf
    rw [← ofValue_eq_some_iff, ht] at h
    simp at h
  | some t =>
    rw [ofValue_eq_some_iff] at ht
    have hleaf := extractLeaf_ok_iff env t m ht
    have hentry : ∀ e, extractEntry env t m = .ok e ↔
        (m.tlogEntries = [e] ∧ (e.version = "0.0.1".toList ∨ e.version = "0.0.2".toList) ∧
          (∃ p cp, e.proof = some p ∧ p.checkpoint = some cp) ∧
          (m.mediaType = "application/vnd.dev.sigstore.bundle+json;version=0.1".toList → e.promise ≠ none) ∧
          (e.promise = none → m.timestamps ≠ [] ∧ ∀ b ∈ m.timestamps, ∃ t, env.decodeTsr b = some t)) := by
      intro e
      rw [← ht]
      have hv : t.value = "application/vnd.dev.sigstore.bundle+json;version=0.1".toList ↔ t = .v0_1 := by
        cases t <;> decide
      rw [hv]
      exact extractEntry_ok_iff env t m e
    dsimp only
    cases hl : extractLeaf env t m with
    | error e =>
      simp only [reduceCtorEq, false_iff]
      rintro ⟨_, hw⟩
      have := (hleaf _).2 hw.leaf
      rw [hl] at this; simp at this
    | ok c =>
      dsimp only
      cases he : extractEntry env t m with
      | error e =>
        simp only [reduceCtorEq, false_iff]
        rintro ⟨_, hw⟩
        have := (hentry _).2 ⟨hw.oneEntry, hw.version, hw.proof, hw.promise, hw.time⟩
        rw [he] at this; simp at this
      | ok e =>
        simp only [Except.ok.injEq, Bundle.mk.injEq]
        constructor
        · rintro ⟨rfl, rfl, rfl⟩
          obtain ⟨h1, h2, h3, h4, h5⟩ := (hentry _).1 he
          exact ⟨rfl, (hleaf _).1 hl, h1, h2, h3, h4, h5⟩
        · rintro ⟨rfl, hw⟩
          have h1 := (hleaf _).2 hw.leaf
          have h2 := (hentry _).2 ⟨hw.oneEntry, hw.version, hw.proof, hw.promise, hw.time⟩
          rw [hl, Except.ok.injEq] at h1
          rw [he, Except.ok.injEq] at h2
          exact ⟨rfl, h1, h2⟩

/-- **C31** Spelled out: what holds of every `Bundle` object. -/
theorem C31_bundle_invariant (env : Env) (m : BundleMsg) (b : Bundle) (h : Bundle.init env m = .ok b) :
    m.mediaType ∈ oldMediaTypes ++ newMediaTypes ∧
    (∃ raw, env.loadCert raw = some b.cert ∧
      (m.certificate = some raw ∨ ∃ raws, m.chain = some (raw :: raws))) ∧
    m.tlogEntries = [b.entry] ∧ (b.entry.version = "0.0.1".toList ∨ b.entry.version = "0.0.2".toList) ∧
    (∃ p cp, b.entry.proof = some p ∧ p.checkpoint = some cp) ∧
    (b.entry.promise ≠ none ∨ m.timestamps ≠ []) ∧
    (m.mediaType = "application/vnd.dev.sigstore.bundle+json;version=0.1".toList → b.entry.promise ≠ none) := by
  obtain ⟨_, hw⟩ := (C31_bundle_iff env m b).1 h
  refine ⟨?_, ?_, hw.oneEntry, hw.version, hw.proof, ?_, hw.promise⟩
  · rcases hw.leaf with ⟨h, _⟩ | ⟨h, _⟩
    · exact List.mem_append_right _ h
    · exact List.mem_append_left _ h
  · rcases hw.leaf with ⟨_, raw, h1, h2⟩ | ⟨_, raw, raws, h1, h2, _⟩
    · exact ⟨raw, h2, .inl h1⟩
    · exact ⟨raw, h2, .inr ⟨raws, h1⟩⟩
  · cases hp : b.entry.promise with
    | some _ => exact .inl (by simp)
    | none => exact .inr (hw.time hp).1

/-- environment for the examples: certificates and timestamps are named by one byte -/
def exEnv : Env where
  crypto := toyCrypto
  pyInt := fun _ => none
  loadCert := fun b => if b = [4] then some exLeafCert else if b = [5] then some exCaCert else none
  decodeTsr := fun b => match b with | [n] => some ⟨[n], n.toNat⟩ | _ => none
  verifyTsr := fun _ _ _ _ _ => true
  buildChain := fun _ _ _ => some []
  parseHashedrekord := fun _ => none
  parseDsse := fun _ => none
  parseV2 := fun _ => none

/-- a log entry with promise -/
def exEntry : LogEntry :=
  { logIndex := 3, logId := [1], kind := "hashedrekord".toList, version := "0.0.1".toList, integratedTime := some 5,
    promise := some [9], proof := some ⟨3, [1], 4, [], some "x".toList⟩, body := [] }

/-- a v0.3 bundle with a promise and a timestamp -/
def exMsg : BundleMsg :=
  { mediaType := "application/vnd.dev.sigstore.bundle.v0.3+json".toList, certificate := some [4], chain := none,
    tlogEntries := [exEntry], timestamps := [[7]], messageSignature := some ⟨none, [1, 2]⟩, dsseEnvelope := none }

example : Bundle.init exEnv exMsg = .ok ⟨exMsg, exLeafCert, exEntry⟩ := by decide

/-- an old bundle with a chain -/
def exOldMsg : BundleMsg :=
  { mediaType := "application/vnd.dev.sigstore.bundle+json;version=0.1".toList, certificate := none,
    chain := some [[4], [5]], tlogEntries := [exEntry], timestamps := [], messageSignature := some ⟨none, [1, 2]⟩,
    dsseEnvelope := none }

example : Bundle.init exEnv exOldMsg = .ok ⟨exOldMsg, exLeafCert, exEntry⟩ := by decide

/-- a bundle whose only time source is a timestamp -/
example : Bundle.init exEnv { exMsg with tlogEntries := [{ exEntry with promise := none }] } =
    .ok ⟨{ exMsg with tlogEntries := [{ exEntry with promise := none }] }, exLeafCert,
      { exEntry with promise := none }⟩ := by decide

/-! ## C62 -/

/-- **C62** (refuted) Not every unusable bundle message is reported as `InvalidBundle`. -/
theorem C62_not_always_invalid_bundle :
    ¬ ∀ (env : Env) (m : BundleMsg) (e : Exc), Bundle.init env m = .error e → e.isInvalidBundle = true := by
  intro h
  have := h exEnv { exMsg with certificate := some [8] } .valueError (by decide)
  revert this; decide

theorem certIsCa_error {c : Cert} {e : Exc} (h : certIsCa c = .error e) : e = .verification ∧ ¬ Classifiable c := by
  obtain ⟨h1, h2, h3⟩ := (C30_ca_error_iff _ _).1 h
  exact ⟨h1, fun ⟨h4, h5⟩ => h5.elim (fun h5 => h2 ⟨h4, h5⟩) fun h5 => h3 ⟨h4, h5⟩⟩

theorem certIsRootCa_error {c : Cert} {e : Exc} (h : certIsRootCa c = .error e) : e = .verification ∧ ¬ Classifiable c := by
  unfold certIsRootCa at h
  split at h
  · rename_i hv
    exact ⟨by simpa using h.symm, fun hc => by rw [hc.1] at hv; cases hv⟩
  · split at h
    · rename_i x hx
      rw [Except.error.injEq] at h; subst h
      exact certIsCa_error hx
    · simp at h
    · simp at h

theorem checkChainCerts_error {cs : List Cert} {e : Exc} (h : checkChainCerts cs = .error e) :
    e = .verification ∧ ∃ c ∈ cs, ¬ Classifiable c := by
  induction cs with
  | nil => simp [checkChainCerts] at h
  | cons c cs ih =>
    rw [checkChainCerts] at h
    split at h
    · rename_i hx; rw [Except.error.injEq] at h; subst h
      exact ⟨(certIsRootCa_error hx).1, c, by simp, (certIsRootCa_error hx).2⟩
    · obtain ⟨h1, d, h2, h3⟩ := ih h
      exact ⟨h1, d, List.mem_cons_of_mem _ h2, h3⟩

theorem loadCerts_error {env : Env} {bs : List Bytes} {e : Exc} (h : loadCerts env bs = .error e) :
    e = .valueError ∧ ∃ b ∈ bs, env.loadCert b = none := by
  induction bs with
  | nil => simp [loadCerts] at h
  | cons b bs ih =>
    rw [loadCerts] at h
    split at h
    · rename_i hb; exact ⟨by simpa using h.symm, b, List.mem_cons_self .., hb⟩
    · split at h
      · rename_i hx; rw [Except.error.injEq] at h; subst h
        obtain ⟨h1, b', h2, h3⟩ := ih hx
        exact ⟨h1, b', List.mem_cons_of_mem _ h2, h3⟩
      · simp at h

theorem certIsLeaf_error {c : Cert} {e : Exc} (h : certIsLeaf c = .error e) :
    (e = .verification ∧ (¬ Classifiable c ∨ (∃ ku, c.keyUsage = some ku ∧ ku.digitalSignature = false) ∨ c.eku = none)) ∨
    (e = .extensionNotFound ∧ c.keyUsage = none) := by
  unfold certIsLeaf at h
  split at h
  · rename_i hv
    exact .inl ⟨by simpa using h.symm, .inl fun hc => by rw [hc.1] at hv; cases hv⟩
  · split at h
    · rename_i hx; rw [Except.error.injEq] at h; subst h
      exact .inl ⟨(certIsCa_error hx).1, .inl (certIsCa_error hx).2⟩
    · simp at h
    · split at h
      · rename_i hk; right; exact ⟨by simpa using h.symm, hk⟩
      · rename_i ku hk
        split at h
        · rename_i hd
          exact .inl ⟨by simpa using h.symm, .inr (.inl ⟨ku, hk, by simpa using hd⟩)⟩
        · split at h
          · rename_i he
            exact .inl ⟨by simpa using h.symm, .inr (.inr he)⟩
          · simp at h

/-- **C62** (what does hold) Besides `InvalidBundle` only these errors occur: `ValueError`, if one of the
certificates does not parse; `ExtensionNotFound`, only for a chain whose leaf has no KeyUsage; and
`VerificationError`, for a chain (of an old bundle) whose leaf cannot sign or says nothing about what it is for, or with a
certificate that is neither clearly a CA nor clearly not, or for undecodable timestamps.
Missing: these three are not `InvalidBundle`. -/
theorem C62_init_errors_partial (env : Env) (m : BundleMsg) (e : Exc) (h : Bundle.init env m = .error e) :
    e.isInvalidBundle = true ∨
    (e = .valueError ∧ ∃ raw, env.loadCert raw = none ∧
      (m.certificate = some raw ∨ ∃ l, m.chain = some l ∧ raw ∈ l)) ∨
    (e = .extensionNotFound ∧ ∃ raw raws c, m.chain = some (raw :: raws) ∧ env.loadCert raw = some c ∧
      c.keyUsage = none) ∨
    (e = .verification ∧ ((∃ raw raws c, m.chain = some (raw :: raws) ∧ m.mediaType ∈ oldMediaTypes ∧
        ((env.loadCert raw = some c ∧ ((∃ ku, c.keyUsage = some ku ∧ ku.digitalSignature = false) ∨ c.eku = none)) ∨
          ∃ raw' ∈ raw :: raws, env.loadCert raw' = some c ∧ ¬ Classifiable c)) ∨
      ∃ b ∈ m.timestamps, env.decodeTsr b = none)) := by
  unfold Bundle.init at h
  split at h
  · rw [Except.error.injEq] at h; subst h; exact .inl rfl
  · rename_i t ht
    rw [ofValue_eq_some_iff] at ht
    split at h
    · rename_i x hx
      rw [Except.error.injEq] at h; subst h
      unfold extractLeaf at hx
      split at hx
      · split at hx
        · rw [Except.error.injEq] at hx; subst hx; exact .inl rfl
        · rename_i raw hraw
          split at hx
          · rename_i hnone
            rw [Except.error.injEq] at hx; subst hx
            exact .inr (.inl ⟨rfl, raw, hnone, .inl hraw⟩)
          · simp at hx
      · rename_i hv
        split at hx
        · rw [Except.error.injEq] at hx; subst hx; exact .inl rfl
        · rw [Except.error.injEq] at hx; subst hx; exact .inl rfl
        · rename_i raw raws hch
          have hold : m.mediaType ∈ oldMediaTypes := by
            rw [← ht]; revert hv; cases t <;> decide
          split at hx
          · rename_i y hy
            rw [Except.error.injEq] at hx; subst hx
            obtain ⟨h1, b, h2, h3⟩ := loadCerts_error hy
            exact .inr (.inl ⟨h1, b, h3, .inr ⟨_, hch, h2⟩⟩)
          · rename_i hl
            rw [loadCerts_ok_iff] at hl; simp at hl
          · rename_i leaf rest hl
            rw [loadCerts_ok_iff] at hl
            simp only [List.map_cons, List.cons.injEq] at hl
            split at hx
            · rename_i y hy
              rw [Except.error.injEq] at hx; subst hx
              rcases certIsLeaf_error hy with ⟨h1, h2 | h2⟩ | ⟨h1, h2⟩
              · exact .inr (.inr (.inr ⟨h1, .inl ⟨_, _, leaf, hch, hold, .inr ⟨raw, by simp, hl.1, h2⟩⟩⟩))
              · exact .inr (.inr (.inr ⟨h1, .inl ⟨_, _, leaf, hch, hold, .inl ⟨hl.1, h2⟩⟩⟩))
              · exact .inr (.inr (.inl ⟨h1, raw, raws, leaf, hch, hl.1, h2⟩))
            · rw [Except.error.injEq] at hx; subst hx; exact .inl rfl
            · split at hx
              · rename_i y hy
                rw [Except.error.injEq] at hx; subst hx
                obtain ⟨h1, c, h2, h3⟩ := checkChainCerts_error hy
                obtain ⟨raw', h4, h5⟩ : ∃ raw' ∈ raws, env.loadCert raw' = some c := by
                  have : some c ∈ raws.map env.loadCert := hl.2 ▸ List.mem_map_of_mem h2
                  simpa using this
                exact .inr (.inr (.inr ⟨h1, .inl ⟨_, _, c, hch, hold, .inr ⟨raw', List.mem_cons_of_mem _ h4, h5, h3⟩⟩⟩))
              · simp at hx
    · split at h
      · rename_i x hx
        rw [Except.error.injEq] at h; subst h
        unfold extractEntry at hx
        split at hx
        · rename_i entry _
          split at hx
          · rw [Except.error.injEq] at hx; subst hx; exact .inl rfl
          · split at hx
            · rename_i y hy
              rw [Except.error.injEq] at hx; subst hx
              left
              unfold LogEntry.validate at hy
              split at hy
              · rw [Except.error.injEq] at hy; subst hy; rfl
              · split at hy
                · rw [Except.error.injEq] at hy; subst hy; rfl
                · simp at hy
            · split at hx
              · split at hx
                · rw [Except.error.injEq] at hx; subst hx; exact .inl rfl
                · simp at hx
              · split at hx
                · split at hx
                  · rename_i y hy
                    rw [Except.error.injEq] at hx; subst hx
                    rw [timestampData] at hy
                    refine .inr (.inr (.inr ⟨decodeTsrs_error hy, .inr ?_⟩))
                    apply Classical.byContradiction
                    intro hno
                    have : ∃ ts, decodeTsrs env m.timestamps = .ok ts := by
                      rw [decodeTsrs_defined_iff]
                      intro b hb
                      cases hd : env.decodeTsr b with
                      | none => exact absurd ⟨b, hb, hd⟩ hno
                      | some t => exact ⟨t, rfl⟩
                    obtain ⟨ts, hts⟩ := this
                    rw [hy] at hts; simp at hts
                  · rw [Except.error.injEq] at hx; subst hx; exact .inl rfl
                  · simp at hx
                · simp at hx
        · rw [Except.error.injEq] at hx; subst hx; exact .inl rfl
      · simp at h

/-- all the exceptional cases occur -/
example : Bundle.init exEnv { exMsg with certificate := some [8] } = .error .valueError ∧
    Bundle.init { exEnv with loadCert := fun _ => some { exLeafCert with keyUsage := none } }
      { exMsg with mediaType := "application/vnd.dev.sigstore.bundle+json;version=0.2".toList, chain := some [[1]] } =
        .error .extensionNotFound ∧
    Bundle.init exEnv { exMsg with timestamps := [[]], tlogEntries := [{ exEntry with promise := none }] } =
      .error .verification ∧
    Bundle.init exEnv { exMsg with tlogEntries := [] } = .error .invalidBundle := by decide

/-! ## C32 -/

/-- the content of a bundle: its envelope, or else its message signature -/
def contentOf (m : BundleMsg) : Option Content :=
  match m.dsseEnvelope with
  | some e => some (.envelope e)
  | none => m.messageSignature.map .message

/-- `b'` is a v0.3 bundle with the verification material of `b`. -/
def SameMaterial (b b' : Bundle) : Prop :=
  b'.inner.mediaType ∈ newMediaTypes ∧ b'.cert = b.cert ∧ contentOf b'.inner = contentOf b.inner ∧
    b'.entry = b.entry ∧ b'.inner.timestamps = b.inner.timestamps

/-- certificates parse back to themselves -/
def LoadsBack (env : Env) : Prop := ∀ raw cert, env.loadCert raw = some cert → env.loadCert cert.der = some cert

/-- **C32** (refuted) Upgrading drops the signed timestamps of a bundle, … -/
theorem C32_upgrade_loses_timestamps :
    ¬ ∀ (env : Env) (m : BundleMsg) (b b' : Bundle), LoadsBack env → Bundle.init env m = .ok b →
      b.upgrade env = .ok b' → SameMaterial b b' := by
  intro h
  let env : Env := { exEnv with loadCert := fun _ => some exLeafCert }
  have := h env exMsg ⟨exMsg, exLeafCert, exEntry⟩ ⟨{ exMsg with timestamps := [] }, exLeafCert, exEntry⟩
    (fun _ cert h => by cases h; rfl) (by decide) (by decide)
  revert this
  unfold SameMaterial
  decide

/-- … **C32** (refuted) and a bundle whose only time source is a timestamp cannot be upgraded at all. -/
theorem C32_upgrade_can_fail :
    ∃ (env : Env) (m : BundleMsg) (b : Bundle), LoadsBack env ∧ Bundle.init env m = .ok b ∧
      b.signature = .ok [1, 2] ∧ b.upgrade env = .error .invalidBundle := by
  let m : BundleMsg := { exMsg with tlogEntries := [{ exEntry with promise := none }] }
  exact ⟨{ exEnv with loadCert := fun _ => some exLeafCert }, m, ⟨m, exLeafCert, { exEntry with promise := none }⟩,
    fun _ cert h => by cases h; rfl, by decide, by decide, by decide⟩

theorem fromParts_ok_iff (env : Env) (cert : Cert) (content : Content) (entry : LogEntry) (ts : Option (List Tsr))
    (b : Bundle) :
    Bundle.fromParts env cert (some content) entry ts = .ok b ↔
      b.inner.mediaType = "application/vnd.dev.sigstore.bundle.v0.3+json".toList ∧
      b.inner.certificate = some cert.der ∧ b.inner.chain = none ∧ b.inner.tlogEntries = [entry] ∧
      b.inner.timestamps = (ts.getD []).map Tsr.raw ∧
      (b.inner.messageSignature = match content with | .message m => some m | .envelope _ => none) ∧
      (b.inner.dsseEnvelope = match content with | .message _ => none | .envelope e => some e) ∧
      WellFormed env b.inner b.cert b.entry := by
  unfold Bundle.fromParts
  cases content with
  | message ms =>
    dsimp only
    rw [C31_bundle_iff]
    constructor
    · rintro ⟨h, hw⟩
      rw [← h] at hw
      refine ⟨?_, ?_, ?_, ?_, ?_, ?_, ?_, hw⟩ <;> rw [h] <;> rfl
    · rintro ⟨h1, h2, h3, h4, h5, h6, h7, hw⟩
      have hi : b.inner = { mediaType := BundleType.v0_3.value, certificate := some cert.der, chain := none, tlogEntries := [entry], timestamps := (ts.getD []).map Tsr.raw, messageSignature := some ms, dsseEnvelope := none } := by
        rw [← h2, ← h3, ← h4, ← h5, ← h6, ← h7]
        obtain ⟨⟨_, _, _, _, _, _, _⟩, _, _⟩ := b
        dsimp only at h1
        rw [h1]; rfl
      exact ⟨hi, hi ▸ hw⟩
  | envelope e =>
    dsimp only
    rw [C31_bundle_iff]
    constructor
    · rintro ⟨h, hw⟩
      rw [← h] at hw
      refine ⟨?_, ?_, ?_, ?_, ?_, ?_, ?_, hw⟩ <;> rw [h] <;> rfl
    · rintro ⟨h1, h2, h3, h4, h5, h6, h7, hw⟩
      have hi : b.inner = { mediaType := BundleType.v0_3.value, certificate := some cert.der, chain := none, tlogEntries := [entry], timestamps := (ts.getD []).map Tsr.raw, messageSignature := none, dsseEnvelope := some e } := by
        rw [← h2, ← h3, ← h4, ← h5, ← h6, ← h7]
        obtain ⟨⟨_, _, _, _, _, _, _⟩, _, _⟩ := b
        dsimp only at h1
        rw [h1]; rfl
      exact ⟨hi, hi ▸ hw⟩

/-- the content is usable: there is one, and an envelope has one non-empty signature -/
def UsableContent (m : BundleMsg) : Prop :=
  match contentOf m with
  | none => False
  | some (.message _) => True
  | some (.envelope e) => ∃ sig, e.signatures = [sig] ∧ sig ≠ []

/-- **C32** (what does hold) Upgrading a bundle succeeds exactly when it has an inclusion promise and usable
content, and the result then has version 0.3, the same certificate, content and log entry, and no
timestamps.  So nothing is lost from bundles without timestamps.
Missing: the timestamps of the other bundles. -/
theorem C32_upgrade_iff_partial (env : Env) (hlb : LoadsBack env) (m : BundleMsg) (b : Bundle)
    (hb : Bundle.init env m = .ok b) :
    ((∃ b', b.upgrade env = .ok b') ↔ b.entry.promise ≠ none ∧ UsableContent m) ∧
    ∀ b', b.upgrade env = .ok b' →
      b'.inner.mediaType ∈ newMediaTypes ∧ b'.cert = b.cert ∧ contentOf b'.inner = contentOf m ∧
      b'.entry = b.entry ∧ b'.inner.timestamps = [] ∧ (m.timestamps = [] → SameMaterial b b') := by
  obtain ⟨hi, hw⟩ := (C31_bundle_iff env m b).1 hb
  have hload : env.loadCert b.cert.der = some b.cert := by
    rcases hw.leaf with ⟨_, raw, _, h⟩ | ⟨_, raw, _, _, h, _⟩ <;> exact hlb _ _ h
  -- re-assembly of any content
  have hparts : ∀ (c : Content) (b' : Bundle), Bundle.fromParts env b.cert (some c) b.entry none = .ok b' →
      b.entry.promise ≠ none ∧ b'.inner.mediaType ∈ newMediaTypes ∧ b'.cert = b.cert ∧ contentOf b'.inner = some c ∧
      b'.entry = b.entry ∧ b'.inner.timestamps = [] := by
    intro c b' h
    obtain ⟨h1, h2, h3, h4, h5, h6, h7, hw'⟩ := (fromParts_ok_iff _ _ _ _ _ _).1 h
    have hnew : b'.inner.mediaType ∈ newMediaTypes := by rw [h1]; decide
    have he : b'.entry = b.entry := by
      have := hw'.oneEntry
      rw [h4] at this; simpa using this.symm
    refine ⟨?_, hnew, ?_, ?_, he, by simpa using h5⟩
    · intro hp
      have := hw'.time (by rw [he]; exact hp)
      rw [h5] at this; simp at this
    · rcases hw'.leaf with ⟨_, raw, hr, hl⟩ | ⟨_, raw, raws, hr, _⟩
      · rw [h2] at hr; cases hr
        rw [hload, Option.some.injEq] at hl; exact hl.symm
      · rw [h3] at hr; simp at hr
    · unfold contentOf
      rw [h6, h7]
      cases c <;> rfl
  have hparts' : ∀ c : Content, b.entry.promise ≠ none →
      ∃ b', Bundle.fromParts env b.cert (some c) b.entry none = .ok b' := by
    intro c hp
    refine ⟨⟨{ mediaType := "application/vnd.dev.sigstore.bundle.v0.3+json".toList, certificate := some b.cert.der, chain := none, tlogEntries := [b.entry], timestamps := [], messageSignature := match c with | .message m => some m | .envelope _ => none, dsseEnvelope := match c with | .message _ => none | .envelope e => some e }, b.cert, b.entry⟩, ?_⟩
    rw [fromParts_ok_iff]
    refine ⟨rfl, rfl, rfl, rfl, rfl, rfl, rfl, ?_⟩
    exact { leaf := .inl ⟨(by decide : "application/vnd.dev.sigstore.bundle.v0.3+json".toList ∈ newMediaTypes), _, rfl, hload⟩
            oneEntry := rfl, version := hw.version, proof := hw.proof, promise := fun _ => hp
            time := fun h => absurd h hp }
  have hup : ∀ c : Content, contentOf m = some c → UsableContent m →
      b.upgrade env = Bundle.fromParts env b.cert (some c) b.entry none := by
    intro c hc hu
    unfold UsableContent at hu
    rw [hc] at hu
    unfold Bundle.upgrade Bundle.toParts
    rw [hi]
    unfold contentOf at hc
    cases hd : m.dsseEnvelope with
    | some e =>
      rw [hd] at hc
      simp only [Option.some.injEq] at hc
      subst hc
      obtain ⟨sig, hs⟩ := hu
      dsimp only
      rw [((C34_envelope_iff e).1 sig).2 hs]
    | none =>
      rw [hd] at hc
      dsimp only at hc
      rw [hc]
  have hno : ¬ UsableContent m → ∀ b', b.upgrade env ≠ .ok b' := by
    intro hu b' h
    unfold Bundle.upgrade Bundle.toParts at h
    rw [hi] at h
    unfold UsableContent contentOf at hu
    cases hd : m.dsseEnvelope with
    | some e =>
      rw [hd] at h hu
      dsimp only at h hu
      cases he : envelopeInit e with
      | error x => rw [he] at h; simp at h
      | ok sig => exact hu ⟨sig, ((C34_envelope_iff e).1 sig).1 he⟩
    | none =>
      rw [hd] at h hu
      cases hm : m.messageSignature with
      | none => rw [hm] at h; simp [Bundle.fromParts] at h
      | some ms => rw [hm] at hu; simp at hu
  have husable : UsableContent m → ∃ c, contentOf m = some c := by
    intro hu
    unfold UsableContent at hu
    cases hc : contentOf m with
    | none => rw [hc] at hu; exact hu.elim
    | some c => exact ⟨c, rfl⟩
  refine ⟨⟨?_, ?_⟩, ?_⟩
  · rintro ⟨b', h⟩
    have hu : UsableContent m := Classical.byContradiction fun hn => hno hn b' h
    obtain ⟨c, hc⟩ := husable hu
    rw [hup c hc hu] at h
    exact ⟨(hparts c b' h).1, hu⟩
  · rintro ⟨hp, hu⟩
    obtain ⟨c, hc⟩ := husable hu
    rw [hup c hc hu]
    exact hparts' c hp
  · intro b' h
    have hu : UsableContent m := Classical.byContradiction fun hn => hno hn b' h
    obtain ⟨c, hc⟩ := husable hu
    rw [hup c hc hu] at h
    obtain ⟨_, h1, h2, h3, h4, h5⟩ := hparts c b' h
    refine ⟨h1, h2, by rw [h3, hc], h4, h5, ?_⟩
    intro hts
    exact ⟨h1, h2, by rw [h3, hi, hc], h4, by rw [h5, hi, hts]⟩

example : LoadsBack { exEnv with loadCert := fun _ => some exLeafCert } ∧
    Bundle.init exEnv { exMsg with timestamps := [] } = .ok ⟨{ exMsg with timestamps := [] }, exLeafCert, exEntry⟩ ∧
    Bundle.upgrade exEnv ⟨{ exMsg with timestamps := [] }, exLeafCert, exEntry⟩ =
      .ok ⟨{ exMsg with timestamps := [] }, exLeafCert, exEntry⟩ :=
  ⟨fun _ cert h => by cases h; rfl, by decide, by decide⟩

/-- **C32** (what does hold) With the timestamps passed on, as the signer does, taking apart and re-assembling
keeps everything. -/
theorem C32_reassemble_partial (env : Env) (cert : Cert) (content : Content) (entry : LogEntry)
    (ts : List Tsr) (b : Bundle) (hload : env.loadCert cert.der = some cert)
    (hts : ∀ t ∈ ts, env.decodeTsr t.raw = some t)
    (h : Bundle.fromParts env cert (some content) entry (some ts) = .ok b) :
    b.cert = cert ∧ contentOf b.inner = some content ∧ b.entry = entry ∧ timestampData env b.inner = .ok ts ∧
      b.inner.mediaType ∈ newMediaTypes := by
  obtain ⟨h1, h2, h3, h4, h5, h6, h7, hw⟩ := (fromParts_ok_iff _ _ _ _ _ _).1 h
  refine ⟨?_, ?_, ?_, ?_, by rw [h1]; decide⟩
  · rcases hw.leaf with ⟨_, raw, hr, hl⟩ | ⟨_, raw, raws, hr, _⟩
    · rw [h2] at hr; cases hr
      rw [hload] at hl; cases hl; rfl
    · rw [h3] at hr; simp at hr
  · unfold contentOf
    rw [h6, h7]
    cases content <;> rfl
  · have := hw.oneEntry
    rw [h4] at this; simpa using this.symm
  · rw [timestampData, decodeTsrs_ok_iff, h5]
    simp only [Option.getD_some, List.map_map]
    exact List.map_congr_left fun t ht => hts t ht

example : Bundle.fromParts exEnv exLeafCert (some (.message ⟨none, [1, 2]⟩)) exEntry (some [⟨[7], 7⟩]) =
    .ok ⟨exMsg, exLeafCert, exEntry⟩ := by decide

/-! ## C63 -/

/-- **C63** `fix-bundle` without `--upgrade-version` writes exactly the message it read, except that a log
entry whose proof lacked a checkpoint is replaced by what the log returned for its index; and what it
writes is a well-formed bundle. -/
theorem C63_fix_bundle_iff (env : Env) (fetch : Int → Py LogEntry) (m : BundleMsg) (b : Bundle) :
    fixBundle env fetch false m = .ok b ↔
      ∃ entry proof, m.tlogEntries = [entry] ∧ entry.proof = some proof ∧
        WellFormed env b.inner b.cert b.entry ∧
        ((proof.checkpoint ≠ none ∧ b.inner = m) ∨
         (proof.checkpoint = none ∧ ∃ new, fetch entry.logIndex = .ok new ∧
           b.inner = { m with tlogEntries := [new] })) := by
  unfold fixBundle
  split
  · rename_i entry hent
    rw [hent]
    simp only [List.cons.injEq, and_true]
    unfold LogEntry.LogEntry.lacksCheckpoint
    cases hp : entry.proof with
    | none =>
      simp only [reduceCtorEq, false_iff]
      rintro ⟨_, p, rfl, h, _⟩
      rw [hp] at h; simp at h
    | some p =>
      have hstep : ∀ (m' : BundleMsg),
          finishFix env false m' = .ok b ↔ WellFormed env b.inner b.cert b.entry ∧ b.inner = m' := by
        intro m'
        unfold finishFix
        have h := C31_bundle_iff env m' b
        cases hi : Bundle.init env m' with
        | error e =>
          rw [hi] at h
          have h : ¬ (b.inner = m' ∧ WellFormed env m' b.cert b.entry) := fun x => by simpa using h.2 x
          constructor
          · intro h'
            dsimp only at h'
            split at h' <;> simp at h'
          · rintro ⟨h1, h2⟩
            rw [h2] at h1
            exact absurd ⟨h2, h1⟩ h
        | ok b' =>
          rw [hi] at h
          simp only [Bool.false_eq_true, if_false]
          rw [h]
          constructor
          · rintro ⟨h1, h2⟩; rw [h1]; exact ⟨h2, rfl⟩
          · rintro ⟨h1, h2⟩; rw [h2] at h1; exact ⟨h2, h1⟩
      dsimp only
      cases hc : p.checkpoint with
      | some cp =>
        simp only [Option.isNone_some]
        rw [hstep m]
        constructor
        · rintro ⟨h1, h2⟩
          exact ⟨entry, p, rfl, hp, h1, .inl ⟨by simp [hc], h2⟩⟩
        · rintro ⟨_, p', rfl, hp', h1, h2⟩
          rw [hp, Option.some.injEq] at hp'; subst hp'
          rcases h2 with ⟨_, h2⟩ | ⟨h2, _⟩
          · exact ⟨h1, h2⟩
          · rw [hc] at h2; simp at h2
      | none =>
        simp only [Option.isNone_none]
        cases hf : fetch entry.logIndex with
        | error e =>
          simp only [reduceCtorEq, false_iff]
          rintro ⟨_, p', rfl, hp', h1, h2⟩
          rw [hp, Option.some.injEq] at hp'; subst hp'
          rcases h2 with ⟨h2, _⟩ | ⟨_, new, h2, _⟩
          · exact h2 hc
          · rw [hf] at h2; simp at h2
        | ok new =>
          dsimp only
          rw [hstep]
          constructor
          · rintro ⟨h1, h2⟩
            exact ⟨entry, p, rfl, hp, h1, .inr ⟨hc, new, hf, h2⟩⟩
          · rintro ⟨_, p', rfl, hp', h1, h2⟩
            rw [hp, Option.some.injEq] at hp'; subst hp'
            rcases h2 with ⟨h2, _⟩ | ⟨_, new', h2, h3⟩
            · exact absurd hc h2
            · rw [hf, Except.ok.injEq] at h2; subst h2; exact ⟨h1, h3⟩
  · rename_i hne
    simp only [reduceCtorEq, false_iff]
    rintro ⟨e, _, h, _⟩
    exact hne _ h

example : fixBundle exEnv (fun _ => .ok exEntry) false
    { exMsg with tlogEntries := [{ exEntry with proof := some ⟨3, [1], 4, [], none⟩ }] } =
    .ok ⟨exMsg, exLeafCert, exEntry⟩ := by decide

end Sigstore.Props
