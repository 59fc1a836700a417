import Verif.Model.Tuf

/-!
# Specification of trust material obtained through TUF
-/

namespace Sigstore.Spec

open Sigstore.Tuf

/-- a text that names an entry of a directory -/
def SingleComponent (s : Str) : Prop :=
  s ≠ [] ∧ s ≠ ".".toList ∧ s ≠ "..".toList ∧ '/' ∉ s ∧ Char.ofNat 0 ∉ s

/-- What the TUF client library promises: files it returns have the length and hashes listed in the verified metadata
(`Fits info content`). -/
structure TufContract (lib : Library) (Fits : TargetInfo → Bytes → Prop) : Prop where
  cached : ∀ files info p, lib.findCached files info = .ok (some p) → ∃ b, files p = some b ∧ Fits info b
  downloaded : ∀ info p b, lib.download info = .ok (p, b) → Fits info b

/-- a content is that of a target listed in the verified metadata -/
def ListedTarget (lib : Library) (Fits : TargetInfo → Bytes → Prop) (name : Str) (content : Bytes) : Prop :=
  ∃ info, lib.targetInfo name = .ok (some info) ∧ Fits info content

/-- the calls that may access the network -/
def UsesNetwork : Call → Prop
  | .refresh _ _ => True
  | .targetInfo _ => True
  | .findCached _ => False
  | .download _ => True

/-- the characters that RFC 3986 calls unreserved -/
def unreserved : Str := "ABCDEFGHIJKLMNOPQRSTUVWXYZabcdefghijklmnopqrstuvwxyz0123456789-._~".toList

end Sigstore.Spec
