import Verif.Props.Redirects
import Verif.Props.TrafficExamples

/-!
# C134: a concrete session with redirects
-/

namespace Sigstore.Props

open Sigstore.Redirects Sigstore.Spec Sigstore.Traffic Sigstore.Http Sigstore.Url

/-- libraries for the URLs of the example: locations are absolute -/
def exRdLibs : Redirects.Libs where
  parts := fun u =>
    if u = "https://fulcio.example.com/api/v2/signingCert".toList then ⟨"https".toList, some "fulcio.example.com".toList, none⟩
    else if u = "https://fulcio.example.com:443/new".toList then ⟨"https".toList, some "fulcio.example.com".toList, some 443⟩
    else ⟨"https".toList, some "elsewhere.example.org".toList, none⟩
  target := fun _ l => .ok l
  netrc := fun _ => none
  userinfo := fun _ => none

/-- Fulcio redirects twice, the second time to another host; the others answer as in `exTSrv` -/
def exRdServices : WireServices Payload := fun _ w =>
  if w.url = "https://fulcio.example.com/api/v2/signingCert".toList then
    .ok ⟨⟨308, [], [], none⟩, some "https://fulcio.example.com:443/new".toList⟩
  else if w.url = "https://fulcio.example.com:443/new".toList then
    .ok ⟨⟨307, [], [], none⟩, some "https://elsewhere.example.org/".toList⟩
  else
    match w.body with
    | none => .error .requestsOther
    | some p =>
      match exTSrv [] ⟨w.url, [], p⟩ with
      | .error e => .error e
      | .ok r => .ok ⟨r, none⟩

/-- the session succeeds, and the token is in the first two requests only -/
theorem exRdSession :
    (Traffic.session exTCtx "eyJ".toList 1500000000 true true exTJobs (services exRdLibs exRdServices) ⟨⟨0, []⟩, []⟩).1 =
      .ok [.ok exReturned, .error .expiredCertificate] ∧
    (wireTrace exRdLibs exRdServices []
        (Traffic.session exTCtx "eyJ".toList 1500000000 true true exTJobs (services exRdLibs exRdServices) ⟨⟨0, []⟩, []⟩).2.sent).map
        (fun w => (w.url, w.headers.filterMap fun h => if h.1 = authorization then some h.2 else none)) =
      [("https://fulcio.example.com/api/v2/signingCert".toList, ["Bearer eyJ".toList]),
       ("https://fulcio.example.com:443/new".toList, ["Bearer eyJ".toList]), ("https://elsewhere.example.org/".toList, []),
       ("https://tsa.example.com/a".toList, []), ("https://tsa.example.org/b".toList, []),
       ("https://rekor.example.com/api/v2/log/entries".toList, [])] := by
  decide +kernel

/-- C134 applies to the session above and any other token -/
example (token : Str) :
    (Traffic.session exTCtx token 1500000000 true true exTJobs (services exRdLibs exRdServices) ⟨⟨0, []⟩, []⟩).1 =
      .ok [.ok exReturned, .error .expiredCertificate] := by
  rw [← exRdSession.1]
  refine (C134_token exTCtx exTFulcio exTFulcio_wf "/".toList (.inr ⟨_, _, rfl, .inl rfl⟩) rfl token "eyJ".toList 1500000000 true true
    exTJobs exRdLibs exRdServices exRdServices ?_ ⟨⟨0, []⟩, []⟩).1
  rintro h h' w w' - (rfl | ⟨-, -, h2, h3, -⟩)
  · rfl
  · unfold exRdServices
    rw [h2, h3]

/-- C134 applies to a token request whose endpoint redirects to another host: the secret does not matter there -/
example (secret : Str) :
    (follow exRdLibs (fun h _ => .ok ⟨⟨if h = [] then 307 else 200, [], [], none⟩, some "https://elsewhere.example.org/".toList⟩)
      maxRedirects [] (ofTokenRequest (fun a b => a ++ ":".toList ++ b) []
        ⟨"sigstore".toList, secret, [], "https://fulcio.example.com/api/v2/signingCert".toList⟩ ⟨[], "c".toList, "v".toList⟩)).1 =
    (follow exRdLibs (fun h _ => .ok ⟨⟨if h = [] then 307 else 200, [], [], none⟩, some "https://elsewhere.example.org/".toList⟩)
      maxRedirects [] (ofTokenRequest (fun a b => a ++ ":".toList ++ b) []
        ⟨"sigstore".toList, [], [], "https://fulcio.example.com/api/v2/signingCert".toList⟩ ⟨[], "c".toList, "v".toList⟩)).1 := by
  refine (C134_secret _ [] ⟨"sigstore".toList, secret, [], "https://fulcio.example.com/api/v2/signingCert".toList⟩ [] ⟨[], "c".toList, "v".toList⟩
    exRdLibs _ _ ?_).1
  intro h h' w w' hh _
  cases hh <;> rfl

/-- an endpoint that C134's theorem on encryption is about, and two requests to it -/
example : (exRdLibs.parts "https://fulcio.example.com/api/v2/signingCert".toList).scheme = "https".toList ∧
    SameButCredentials exRdLibs.parts "https://fulcio.example.com/api/v2/signingCert".toList "a".toList "b".toList
      (⟨.post, "https://fulcio.example.com:443/new".toList, [(authorization, "a".toList)], none⟩ : WireRequest Payload)
      ⟨.post, "https://fulcio.example.com:443/new".toList, [(authorization, "b".toList)], none⟩ := by
  refine ⟨by decide, .inr ⟨⟨by decide, .inl ⟨by decide, by decide⟩⟩, rfl, rfl, rfl, [], [], rfl, rfl⟩⟩

end Sigstore.Props
