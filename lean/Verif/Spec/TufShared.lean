import Verif.Model.TufShared

/-!
# Specification of processes that share a cache of trust material
-/

namespace Sigstore.Spec

open Sigstore.Tuf Sigstore.TufShared

/-- a complete or incomplete copy: it is not longer, and every byte is the right one or zero -/
def CopyOf (data b : Bytes) : Prop :=
  b.length ≤ data.length ∧ ∀ (k : Nat) (x : UInt8), b[k]? = some x → x = 0 ∨ data[k]? = some x

/-- All processes are about the same material `D`: they bring it along for the files that are missing, their repository lists
and hands out nothing else, and their parsers accept no incomplete copy of it.  (The last is so for JSON objects: no proper
beginning of the text of an object is one, nor is a text with the character zero.) -/
structure SameMaterial (procs : List Proc) (cache : Cache) (D : Artifact → Bytes) : Prop where
  embedded : ∀ p ∈ procs, ∀ a b, cache a = none → p.embedded a = some b → b = D a
  listed : ∀ p ∈ procs, p.offline = false → ∀ a info b, p.targetInfo a = .ok (some info) → p.fits info b = true → b = D a
  handed : ∀ p ∈ procs, p.offline = false → ∀ a info b, p.targetInfo a = .ok (some info) → p.download info = .ok b → b = D a
  readable : ∀ p ∈ procs, ∀ a b, CopyOf (D a) b → p.parse a b = .ok () → b = D a

/-- the process brings along `E` and can write files -/
structure CanFill (p : Proc) (E : Artifact → Bytes) : Prop where
  mkdir : p.mkdir = true
  embedded : ∀ a, p.embedded a = some (E a)
  opening : ∀ a, p.opening a = .opened
  canPut : ∀ a n, p.canPut a n = true

/-- everything works for the process, which is online: it brings along `E`, and the repository lists exactly `D` -/
structure Works (p : Proc) (E D : Artifact → Bytes) : Prop extends CanFill p E where
  online : p.offline = false
  bootstrap : p.bootstrap = .ok ()
  refresh : p.refresh = true
  targets : ∀ a, ∃ info, p.targetInfo a = .ok (some info) ∧ (∀ b, p.fits info b = true ↔ b = D a) ∧ p.download info = .ok (D a)
  parseE : ∀ a, p.parse a (E a) = .ok ()
  parseD : ∀ a, p.parse a (D a) = .ok ()

end Sigstore.Spec
