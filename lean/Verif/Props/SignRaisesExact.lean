import Verif.Props.SignRaises
import Verif.Props.TrafficExamples
import Verif.Props.Raises

/-!
# C109: every exception on the lists is raised
-/

namespace Sigstore.Props

open Sigstore.Trust Sigstore.LogEntry Sigstore.Dsse Sigstore.Rekor Sigstore.Signing Sigstore.Http Sigstore.Url Sigstore.Spec
  Sigstore.Traffic
open Sigstore.Config (ContextServices RekorHandle)

/-- some context, clock, token and services make the creation of a (caching) `Signer` fail with `e` -/
def MetInit (e : Exc) : Prop :=
  ∃ ctx now token srv n, SaneLibs ctx ∧ RequestsOnly srv ∧ (Traffic.init ctx now token true srv n).1 = .error e

/-- a (caching) `Signer` is created, and some call that signs one of `calls` fails with `e` -/
def MetSign (calls : Call → Prop) (e : Exc) : Prop :=
  ∃ ctx now token srv n s n', SaneLibs ctx ∧ RequestsOnly srv ∧ Traffic.init ctx now token true srv n = (.ok s, n') ∧
    ∃ now' token' nonce call, calls call ∧ (Traffic.sign ctx now' token' nonce s call srv n').1 = .error e

/-- an artifact is signed -/
def IsArtifact (c : Call) : Prop := ∃ input, c = .artifact input

/-- a statement is signed -/
def IsDsse (c : Call) : Prop := ∃ stmt, c = .dsse stmt

/-- services: the answers of Fulcio and of the log -/
def metSrv (fulcio rekor : Py Response) : Services := fun _ r =>
  match r.payload with
  | .csr _ => fulcio
  | .query _ => .ok ⟨200, [7], [], none⟩
  | .entry _ => rekor

theorem metSrv_requests {fulcio rekor : Py Response} (h1 : ∀ e, fulcio = .error e → e.isRequestException = true)
    (h2 : ∀ e, rekor = .error e → e.isRequestException = true) : RequestsOnly (metSrv fulcio rekor) := by
  intro sent r e h
  unfold metSrv at h
  split at h
  · exact h1 e h
  · cases h
  · exact h2 e h

/-- the external world -/
def metEnv : Env := { exSEnv with decodeTsr := fun b => some ⟨b, 1000000007⟩ }

/-- a context -/
def metCtx (root : TrustedRoot Cert) (rekor : RekorHandle) (libs : Traffic.Libs) : Traffic.Context :=
  ⟨metEnv, root, { exTServices with rekor := rekor }, libs, exKeys⟩

theorem metCtx_sane (root : TrustedRoot Cert) (rekor : RekorHandle) (libs : Traffic.Libs) : SaneLibs (metCtx root rekor libs) where
  signature := fun _ _ _ h => by cases h
  timestamp := fun _ _ _ h => by cases h

/-- Fulcio answers with a document -/
def metJson (j : Json) : Py Response := .ok ⟨201, [], [], some j⟩

/-- certificates in Fulcio's answer -/
def metChain (certs : Json) : Json :=
  .obj [("signedCertificateEmbeddedSct".toList, .obj [("chain".toList, .obj [("certificates".toList, certs)])])]

/-- libraries: the certificate of the signer and of its issuer -/
def metLibs (leaf issuer : Cert) : Traffic.Libs :=
  { exTLibs with loadPem := fun b => if b = utf8 "-leaf-".toList then some leaf else if b = utf8 "-issuer-".toList then some issuer else none }

theorem met_init (root : TrustedRoot Cert) (libs : Traffic.Libs) (fulcio : Py Response) (valid : Bool) (e : Exc)
    (hf : ∀ e, fulcio = .error e → e.isRequestException = true)
    (h : (Traffic.init (metCtx root (.v1 []) libs) 1500000000 ⟨"eyJ".toList, valid⟩ true (metSrv fulcio (metJson .null)) ⟨⟨0, []⟩, []⟩).1 =
      .error e) : MetInit e :=
  ⟨_, _, _, _, _, metCtx_sane _ _ _, metSrv_requests hf (fun _ h => by cases h), h⟩

theorem exTUrl : fulcioSigningCertUrl exTLibs.urls exTServices.fulcio = .ok "https://fulcio.example.com/api/v2/signingCert".toList := by
  decide +kernel

theorem init_cert_error (ctx : Traffic.Context) (now : Time) (token : Str) (srv : Services) (n : Net) (e : Exc) (endpoint : Str)
    (answer : Response) (cert : Cert) (chain : List Cert) 
    (hu : fulcioSigningCertUrl ctx.libs.urls ctx.services.fulcio = .ok endpoint)
    (hs : ∀ sent headers csr, srv sent ⟨endpoint, headers, .csr csr⟩ = .ok answer)
    (ha : fulcioSigningCert ctx.libs.loads ctx.libs.loadPem (.ok answer) = .ok (cert, chain))
    (hc : checkNewCert ctx.env ⟨ctx.root, apiVersion ctx.services.rekor⟩ now cert chain = .error e) :
    (Traffic.init ctx now ⟨token, true⟩ true srv n).1 = .error e := by
  simp only [Traffic.init, Traffic.signingCert, Traffic.requestCert, Traffic.fulcioPost, Traffic.andThen, Traffic.pure, Traffic.post, hu, hs, ha, hc,
    if_true, Bool.not_true, Bool.false_eq_true, if_false, Traffic.privateKey, Signer.privateKey]

theorem metInit_struct (ext : Bytes) (h : 2 ^ 16 ≤ ext.length) : MetInit .structError := by
  refine met_init exRoot (metLibs (raiseLong ext) exIssuer) (metJson exTChain) true _ (fun _ h => by cases h) ?_
  have h2 : ctKeyring toyCrypto 1500000000 exRoot .sign = .ok toyKeyring := by decide
  have h3 := raiseLong_sct ext h
  have h4 : checkNewCert (metCtx exRoot (.v1 []) (metLibs (raiseLong ext) exIssuer)).env ⟨exRoot, .v1⟩ 1500000000 (raiseLong ext)
      [exIssuer] = .error .structError := by
    unfold checkNewCert
    rw [show ctKeyring (metCtx exRoot (.v1 []) (metLibs (raiseLong ext) exIssuer)).env.crypto 1500000000 exRoot .sign = .ok toyKeyring from h2]
    dsimp only
    exact h3
  have h5 : fulcioSigningCert (metLibs (raiseLong ext) exIssuer).loads (metLibs (raiseLong ext) exIssuer).loadPem (metJson exTChain) =
      .ok (raiseLong ext, [exIssuer]) := rfl
  exact init_cert_error _ _ _ _ _ _ "https://fulcio.example.com/api/v2/signingCert".toList _ _ _ exTUrl (fun _ _ _ => rfl) h5 h4

theorem metInit_all (e : Exc) (h : e.isRequestException = true ∨ e ∈ certRaises) : MetInit e := by
  rcases h with h | h
  · exact met_init exRoot exTLibs (.error e) true e (fun _ h' => by cases h'; exact h) rfl
  · simp only [certRaises, List.mem_cons, List.not_mem_nil, or_false] at h
    rcases h with rfl | rfl | rfl | rfl | rfl | rfl | rfl | rfl | rfl | rfl
    -- the token has expired
    · exact met_init exRoot exTLibs (metJson exTChain) false _ (fun _ h => by cases h) (by decide +kernel)
    -- an error status
    · exact met_init exRoot exTLibs (.ok ⟨500, [], [], none⟩) true _ (fun _ h => by cases h) (by decide +kernel)
    -- the trusted root has no key of a certificate transparency log
    · exact met_init { exRoot with ctlogs := [] } exTLibs (metJson exTChain) true _ (fun _ h => by cases h) (by decide +kernel)
    -- a certificate without SCT
    · exact met_init exRoot (metLibs { exSigner with scts := none } exIssuer) (metJson exTChain) true _ (fun _ h => by cases h) (by decide +kernel)
    -- a text that is no certificate
    · exact met_init exRoot exTLibs (metJson (metChain (.arr [.str "?".toList, .str "?".toList]))) true _ (fun _ h => by cases h) (by decide +kernel)
    -- an array in place of an object
    · exact met_init exRoot exTLibs (metJson (.arr [])) true _ (fun _ h => by cases h) (by decide +kernel)
    -- `null` in place of certificates
    · exact met_init exRoot exTLibs (metJson (metChain (.arr [.null, .null]))) true _ (fun _ h => by cases h) (by decide +kernel)
    -- an object in place of the list of certificates
    · exact met_init exRoot exTLibs (metJson (metChain (.obj [("a".toList, .null), ("b".toList, .null)]))) true _ (fun _ h => by cases h) (by decide +kernel)
    -- the issuer is a precertificate issuer, and there is no further certificate
    · exact met_init exRoot (metLibs exSigner { exIssuer with eku := some [.certificateTransparency] }) (metJson exTChain) true _ (fun _ h => by cases h) (by decide +kernel)
    · exact metInit_struct (List.replicate (2 ^ 16) 0) (by rw [List.length_replicate])

/-- **C109** What creating a `Signer` raises, exactly: what `requests` raises, and the exceptions on the list. -/
theorem C109_init_iff (e : Exc) : MetInit e ↔ e.isRequestException = true ∨ e ∈ certRaises := by
  refine ⟨?_, metInit_all e⟩
  rintro ⟨ctx, now, token, srv, n, -, hs, h⟩
  exact C109_init_bound ctx now token true srv n hs e h

/-! ## Signing -/

/-- the libraries for a log of the first version, and the entry that one of the second version answers with -/
def metLibsE (entry : LogEntry) : Traffic.Libs := { exTLibs with entryV2 := fun _ => some entry }

/-- the statement that is signed -/
def metStmt : Statement := ⟨exArtifact, ⟨[], [], none⟩⟩

theorem met_sign (rekor : RekorHandle) (libs : Traffic.Libs) (answer : Py Response) (now' : Time) (e : Exc) (call : Call)
    (hl : ∀ e, answer = .error e → e.isRequestException = true)
    (hi : (Traffic.init (metCtx exRoot rekor libs) 1500000000 ⟨"eyJ".toList, true⟩ true (metSrv (metJson exTChain) answer) ⟨⟨0, []⟩, []⟩).1 =
      .ok exCached)
    (h : ∀ n, (Traffic.sign (metCtx exRoot rekor libs) now' ⟨"eyJ".toList, true⟩ 0 exCached call (metSrv (metJson exTChain) answer) n).1 =
      .error e) (calls : Call → Prop) (hc : calls call) : MetSign calls e :=
  ⟨_, _, _, _, _, _, _, metCtx_sane _ _ _, metSrv_requests (fun _ h => by cases h) hl, Prod.ext hi rfl, now', ⟨"eyJ".toList, true⟩, 0, call, hc, h _⟩

/-- a document of the log, without and with a body -/
def metBody (body : Json) : Json := .obj [("u".toList, .obj [("body".toList, body)])]

theorem metSign_all (call : Call) (hcall : call = .artifact (.bytes exArtifact) ∨ call = .dsse metStmt) (e : Exc)
    (h : e.isRequestException = true ∨ e ∈ dsseRaises) (calls : Call → Prop) (hc : calls call) : MetSign calls e := by
  rcases h with h | h
  · refine met_sign (.v1 []) exTLibs (.error e) 1500000000 e call (fun _ h' => by cases h'; exact h) (by rfl) (fun n => ?_) calls hc
    rcases hcall with rfl | rfl <;> rfl
  · simp only [dsseRaises, List.mem_cons, List.not_mem_nil, or_false] at h
    rcases h with rfl | rfl | rfl | rfl | rfl | rfl | rfl | rfl | rfl | rfl
    -- after the certificate's end
    · refine met_sign (.v1 []) exTLibs (metJson .null) 2000000001 _ call (fun _ h => by cases h) (by decide +kernel) (fun n => ?_) calls hc
      rcases hcall with rfl | rfl <;> rfl
    -- an error status
    · refine met_sign (.v1 []) exTLibs (.ok ⟨500, [], [], none⟩) 1500000000 _ call (fun _ h => by cases h) (by decide +kernel) (fun n => ?_) calls hc
      rcases hcall with rfl | rfl <;> rfl
    -- no entry
    · refine met_sign (.v1 []) exTLibs (metJson (.obj [])) 1500000000 _ call (fun _ h => by cases h) (by decide +kernel) (fun n => ?_) calls hc
      rcases hcall with rfl | rfl <;> rfl
    -- `null` in place of an object
    · refine met_sign (.v1 []) exTLibs (metJson .null) 1500000000 _ call (fun _ h => by cases h) (by decide +kernel) (fun n => ?_) calls hc
      rcases hcall with rfl | rfl <;> rfl
    -- an entry without body
    · refine met_sign (.v1 []) exTLibs (metJson (.obj [("u".toList, .obj [])])) 1500000000 _ call (fun _ h => by cases h) (by decide +kernel) (fun n => ?_) calls hc
      rcases hcall with rfl | rfl <;> rfl
    -- `null` in place of an entry
    · refine met_sign (.v1 []) exTLibs (metJson (.obj [("u".toList, .null)])) 1500000000 _ call (fun _ h => by cases h) (by decide +kernel) (fun n => ?_) calls hc
      rcases hcall with rfl | rfl <;> rfl
    -- a body that is not Base64
    · refine met_sign (.v1 []) exTLibs (metJson (metBody (.str "A".toList))) 1500000000 _ call (fun _ h => by cases h) (by decide +kernel) (fun n => ?_) calls hc
      rcases hcall with rfl | rfl <;> rfl
    -- a body that is no JSON
    · refine met_sign (.v1 []) exTLibs (metJson (metBody (.str []))) 1500000000 _ call (fun _ h => by cases h) (by decide +kernel) (fun n => ?_) calls hc
      rcases hcall with rfl | rfl <;> rfl
    -- an entry without inclusion proof
    · refine met_sign (.v2 []) (metLibsE { exLogged "hashedrekord".toList "0.0.2".toList with proof := none }) (metJson .null) 1500000000 _ call
        (fun _ h => by cases h) (by decide +kernel) (fun n => ?_) calls hc
      rcases hcall with rfl | rfl <;> rfl
    -- an entry of an unknown version
    · refine met_sign (.v2 []) (metLibsE (exLogged "hashedrekord".toList "0.0.9".toList)) (metJson .null) 1500000000 _ call
        (fun _ h => by cases h) (by decide +kernel) (fun n => ?_) calls hc
      rcases hcall with rfl | rfl <;> rfl

theorem init_caches {ctx : Traffic.Context} {now : Time} {token : Token} {srv : Services} {n n' : Net} {s : Signer}
    (h : Traffic.init ctx now token true srv n = (.ok s, n')) : s.cachedCert ≠ none := by
  unfold Traffic.init at h
  rw [if_pos rfl] at h
  unfold Traffic.andThen at h
  dsimp only at h
  split at h
  · cases h
  · cases h
    intro h; cases h

/-- **C109** What `sign_artifact` raises with a `Signer` that was created, exactly. -/
theorem C109_artifact_iff (e : Exc) : MetSign IsArtifact e ↔ e.isRequestException = true ∨ e ∈ artifactRaises := by
  constructor
  · rintro ⟨ctx, now, token, srv, n, s, n', hl, hs, hi, now', token', nonce, _, ⟨input, rfl⟩, h⟩
    rcases C109_artifact_bound ctx hl now' token' nonce s input srv n' hs e h with h | ⟨h, -⟩
    · exact h
    · exact absurd h (init_caches hi)
  · rintro (h | h)
    · exact metSign_all _ (.inl rfl) e (.inl h) _ ⟨_, rfl⟩
    · rcases List.mem_cons.1 h with rfl | h
      -- a digest of another algorithm
      · exact met_sign (.v1 []) exTLibs (metJson .null) 1500000000 _ (.artifact (.hashed ⟨.sha2_512, exArtifact⟩)) (fun _ h => by cases h)
          (by decide +kernel) (fun n => rfl) _ ⟨_, rfl⟩
      · exact metSign_all _ (.inl rfl) e (.inr h) _ ⟨_, rfl⟩

/-- **C109** What `sign_dsse` raises with a `Signer` that was created, exactly. -/
theorem C109_dsse_iff (e : Exc) : MetSign IsDsse e ↔ e.isRequestException = true ∨ e ∈ dsseRaises := by
  constructor
  · rintro ⟨ctx, now, token, srv, n, s, n', hl, hs, hi, now', token', nonce, _, ⟨stmt, rfl⟩, h⟩
    rcases C109_dsse_bound ctx hl now' token' nonce s stmt srv n' hs e h with h | ⟨h, -⟩
    · exact h
    · exact absurd h (init_caches hi)
  · exact fun h => metSign_all _ (.inr rfl) e h _ ⟨_, rfl⟩

/-- **C109** Exceptions that are no errors of sigstore (`main` shows a traceback for them) and yet come out of signing. -/
theorem C109_foreign (e : Exc) (h : e ∈ [Exc.valueError, .typeError, .attributeError, .keyError]) :
    e.isSigstoreError = false ∧ MetInit e ∧ MetSign IsArtifact e ∧ MetSign IsDsse e := by
  refine ⟨?_, (C109_init_iff e).2 (.inr ?_), (C109_artifact_iff e).2 (.inr ?_), (C109_dsse_iff e).2 (.inr ?_)⟩ <;>
    (simp only [List.mem_cons, List.not_mem_nil, or_false] at h; rcases h with rfl | rfl | rfl | rfl <;> decide)

/-- the bounds apply: the session of the example with a late call -/
example : (Traffic.sign (metCtx exRoot (.v1 []) exTLibs) 2000000001 ⟨[], true⟩ 0 exCached (.artifact (.bytes exArtifact))
    (metSrv (metJson exTChain) (metJson .null)) ⟨⟨1, []⟩, []⟩).1 = .error .expiredCertificate := by decide +kernel

end Sigstore.Props
