import Verif.Props.Traffic
import Verif.Props.Signer

/-!
# C96, C97: a concrete session
-/

namespace Sigstore.Props

open Sigstore.Trust Sigstore.LogEntry Sigstore.Dsse Sigstore.Rekor Sigstore.Signing Sigstore.Http Sigstore.Url Sigstore.Spec
  Sigstore.Traffic
open Sigstore.Config (ContextServices RekorHandle)

/-- Fulcio's answer -/
def exTChain : Json :=
  .obj [("signedCertificateEmbeddedSct".toList, .obj [("chain".toList, .obj [("certificates".toList,
    .arr [.str "-leaf-".toList, .str "-issuer-".toList])])])]

/-- libraries for the world of `exSEnv` -/
def exTLibs : Traffic.Libs where
  urls := ⟨fun _ => true, fun _ => true⟩
  loads := fun _ => none
  loadPem := fun b => if b = utf8 "-leaf-".toList then some exSigner else if b = utf8 "-issuer-".toList then some exIssuer else none
  buildQuery := fun sig => some (48 :: sig)
  decodeTsr := fun b => some ⟨b, 1000000007⟩
  entryV1 := ⟨fun _ => none, fun _ => [], fun _ => none, fun _ => none⟩
  entryV2 := fun _ => some (exLogged "hashedrekord".toList "0.0.1".toList)
  userAgent := "sigstore-python/4.2.0".toList

/-- services at four hosts -/
def exTServices : ContextServices where
  fulcio := "https://fulcio.example.com/".toList
  rekor := .v2 "https://rekor.example.com".toList
  tsas := ["https://tsa.example.com/a".toList, "https://tsa.example.org/b".toList]

/-- the context of the example -/
def exTCtx : Traffic.Context := ⟨exSEnv, exRoot, exTServices, exTLibs, exKeys⟩

/-- the services: the first timestamp authority is broken -/
def exTSrv : Services := fun _ r =>
  match r.payload with
  | .csr _ => .ok ⟨201, [], [], some exTChain⟩
  | .query _ => if r.url = "https://tsa.example.com/a".toList then .ok ⟨500, [], [], none⟩ else .ok ⟨200, [7], [], none⟩
  | .entry _ => .ok ⟨201, [], [], some .null⟩

/-- two artifacts, the second one after the certificate has expired -/
def exTJobs : List Job :=
  [⟨1500000000, true, 0, .artifact (.bytes exArtifact)⟩, ⟨2000000001, true, 0, .artifact (.bytes exArtifact)⟩]

theorem exTSession : (Traffic.session exTCtx "eyJ".toList 1500000000 true true exTJobs exTSrv ⟨⟨0, []⟩, []⟩).1 =
      .ok [.ok exReturned, .error .expiredCertificate] ∧
    (Traffic.session exTCtx "eyJ".toList 1500000000 true true exTJobs exTSrv ⟨⟨0, []⟩, []⟩).2.sent.map Request.url =
      ["https://fulcio.example.com/api/v2/signingCert".toList, "https://tsa.example.com/a".toList,
       "https://tsa.example.org/b".toList, "https://rekor.example.com/api/v2/log/entries".toList] := by
  decide +kernel

/-- the origin of Fulcio in the example -/
def exTFulcio : Origin := ⟨"https".toList, "fulcio.example.com".toList⟩

theorem exTFulcio_wf : exTFulcio.WF := by
  unfold exTFulcio Origin.WF
  exact ⟨.inr rfl, by decide, by decide⟩

theorem exTLibs_pem : PemLoader exTLibs := by
  intro c
  have h : (utf8 [c]).length ≤ 4 := by
    rw [utf8, List.flatMap_cons, List.flatMap_nil, List.append_nil, utf8Char]
    split
    · simp
    · split
      · simp
      · split <;> simp
  show (if utf8 [c] = utf8 "-leaf-".toList then some exSigner else if utf8 [c] = utf8 "-issuer-".toList then some exIssuer else none) = none
  rw [if_neg, if_neg]
  · intro he; rw [he] at h; revert h; decide
  · intro he; rw [he] at h; revert h; decide

/-- C97 applies to the session above -/
example (res : Py (List (Py Bundle))) (n' : Net)
    (h : Traffic.session exTCtx "eyJ".toList 1500000000 true true exTJobs exTSrv ⟨⟨0, []⟩, []⟩ = (res, n')) :
    certificateRequests n'.sent ≤ 1 ∧ submissions n'.sent ≤ 2 := by
  obtain ⟨new, h1, -, h3, h4, -, -⟩ := C97_session exTCtx exTLibs_pem exTFulcio exTFulcio_wf "/".toList (.inr ⟨_, _, rfl, .inl rfl⟩) rfl
    _ _ _ _ _ _ _ _ _ h
  rw [List.nil_append] at h1
  rw [h1]
  exact ⟨h3, h4⟩

/-- C96 applies to the session above and any other token: the services of the example ignore the token -/
example (token : Str) :
    (Traffic.session exTCtx token 1500000000 true true exTJobs exTSrv ⟨⟨0, []⟩, []⟩).1 = .ok [.ok exReturned, .error .expiredCertificate] := by
  rw [← exTSession.1]
  have h : SameAnswers (exTFulcio.text ++ "/api/v2/signingCert".toList) token "eyJ".toList exTSrv exTSrv := by
    rintro h h' r r' - (rfl | ⟨h1, h2, h3, -⟩)
    · rfl
    · unfold exTSrv
      rw [h1, h2, h3]
  exact (C96_token_only_to_fulcio exTCtx exTFulcio exTFulcio_wf "/".toList (.inr ⟨_, _, rfl, .inl rfl⟩) rfl
    token "eyJ".toList 1500000000 true true exTJobs exTSrv exTSrv h ⟨⟨0, []⟩, []⟩).1

end Sigstore.Props
