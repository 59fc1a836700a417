import Verif.Model.Torn

/-!
# Specification: contents that are put together from several versions of a file
-/

namespace Sigstore.Spec

open Sigstore.Torn

/-- the contents of the file, from the first reading on -/
def versions (raws : List Raw) (final : Bytes) : List Bytes := raws.map Raw.content ++ [final]

/-- every byte is the one that some version has at this place, and later bytes are of the same or later versions -/
def PutTogether (vs : List Bytes) (b : Bytes) : Prop :=
  ∃ version : Nat → Nat, (∀ i j, i ≤ j → version i ≤ version j) ∧
    ∀ (i : Nat) (x : UInt8), b[i]? = some x → ∃ v, vs[version i]? = some v ∧ v[i]? = some x

/-- others only append to the file -/
def OnlyGrows (vs : List Bytes) : Prop := vs.Pairwise (· <+: ·)

end Sigstore.Spec
