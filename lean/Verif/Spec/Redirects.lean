import Verif.Model.Redirects
import Verif.Spec.Traffic

/-!
# Specification: who gets credentials when services redirect
-/

namespace Sigstore.Spec

open Sigstore.Redirects

/-- the port in use -/
def portInUse (p : UrlParts) : Option Nat :=
  match p.port with
  | some n => some n
  | none => if p.scheme = "http".toList then some 80 else if p.scheme = "https".toList then some 443 else none

/-- the URL is at the same service as the endpoint: same host, scheme and port, or the same host with `https` in place of `http` -/
def SameService (parts : Str → UrlParts) (endpoint url : Str) : Prop :=
  (parts url).host = (parts endpoint).host ∧
    (((parts url).scheme = (parts endpoint).scheme ∧ portInUse (parts url) = portInUse (parts endpoint)) ∨
      ((parts endpoint).scheme = "http".toList ∧ portInUse (parts endpoint) = some 80 ∧
        (parts url).scheme = "https".toList ∧ portInUse (parts url) = some 443))

/-- the same request on the wire or, at the service of the endpoint, requests that differ in the credentials only -/
def SameButCredentials {β : Type} (parts : Str → UrlParts) (endpoint value value' : Str) (w w' : WireRequest β) : Prop :=
  w = w' ∨ (SameService parts endpoint w.url ∧ w.method = w'.method ∧ w.url = w'.url ∧ w.body = w'.body ∧
    ∃ before after, w.headers = before ++ ("Authorization".toList, value) :: after ∧
      w'.headers = before ++ ("Authorization".toList, value') :: after)

/-- whoever is on the wire answers without regard to the credentials that are sent to the service of the endpoint -/
def SameReplies {β : Type} (parts : Str → UrlParts) (endpoint value value' : Str) (ws ws' : WireServices β) : Prop :=
  ∀ h h' w w', List.Forall₂ (SameButCredentials parts endpoint value value') h h' →
    SameButCredentials parts endpoint value value' w w' → ws h w = ws' h' w'

end Sigstore.Spec
