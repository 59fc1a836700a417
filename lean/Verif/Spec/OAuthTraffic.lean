import Verif.Model.OAuthTraffic
import Verif.Spec.Url

/-!
# Specification: what the OAuth flow tells whom
-/

namespace Sigstore.Spec

open Sigstore.OAuth

/-- sessions that differ in the verifier only, hash functions that agree on the two -/
structure SameChallenge (libs libs' : Libs) (s s' : Session) : Prop where
  split : libs.split = libs'.split
  parseQs : libs.parseQs = libs'.parseQs
  state : s.state = s'.state
  baseUri : s.baseUri = s'.baseUri
  hash : libs.sha256 (utf8 s.codeVerifier) = libs'.sha256 (utf8 s'.codeVerifier)

/-- the same output, or requests to the token endpoint that differ in the verifier only -/
def SameButVerifier (tokenEndpoint verifier verifier' : Str) (e e' : Event) : Prop :=
  e = e' ∨ ∃ before after auth,
    e = .token tokenEndpoint (before ++ ("code_verifier".toList, verifier) :: after) auth ∧
    e' = .token tokenEndpoint (before ++ ("code_verifier".toList, verifier') :: after) auth

/-- the output gives away this authorization URL: to whoever asked the local server, or on the screen -/
def HandsOut (e : Event) (url : Str) : Prop :=
  e = .answer 302 (some url) ∨ e = .stderr ("Go to the following link in a browser:\n\n\t".toList ++ url)

/-- the same output, or requests to the token endpoint that differ in the password only, or authorization URLs that differ in one
value only -/
def SameButSecret (tokenEndpoint secret secret' : Str) (e e' : Event) : Prop :=
  e = e' ∨ (∃ form user, e = .token tokenEndpoint form (user, secret) ∧ e' = .token tokenEndpoint form (user, secret')) ∨
    ∃ before after t t', HandsOut e (before ++ t ++ after) ∧ HandsOut e' (before ++ t' ++ after) ∧
      formText t = some secret ∧ formText t' = some secret'

/-- responses of the local server and connections it closes -/
def isAnswer : Event → Bool
  | .answer _ _ | .dropped => true
  | _ => false

/-- How the local server answers the request `target` after the requests `before`, in the browser flow: the first redirect is
confirmed and ends the service; the first request for the start page is redirected to the identity provider, further ones get no
response; everything else is not found. -/
def answerTo (callback start : Str → Prop) [DecidablePred callback] [DecidablePred start] (url : Str) (before : List Str)
    (target : Str) : Event :=
  if ∃ x ∈ before, callback x then .answer 404 none
  else if callback target then .answer 200 none
  else if start target then (if ∃ x ∈ before, start x then .dropped else .answer 302 (some url))
  else .answer 404 none

/-- the answers to a sequence of requests that follow the requests `before` -/
def answersTo (callback start : Str → Prop) [DecidablePred callback] [DecidablePred start] (url : Str) :
    (before : List Str) → List Str → List Event
  | _, [] => []
  | before, x :: rest => answerTo callback start url before x :: answersTo callback start url (before ++ [x]) rest

end Sigstore.Spec
