import Verif.Prelude.Basic

/-!
# Model of `/repo/sigstore/_internal/merkle.py`

`H` is `hashlib.sha256(·).digest()`; it stays a parameter.
-/

namespace Sigstore.Merkle

/-- Python `int.bit_length` on a non-negative integer. -/
def bitLength (n : Nat) : Nat :=
  if n = 0 then 0 else Nat.log2 n + 1

/-- number of one bits among the lowest `fuel` bits -/
def onesBelow : Nat → Nat → Nat
  | 0, _ => 0
  | fuel + 1, n => n % 2 + onesBelow fuel (n / 2)

/-- Python `bin(n).count("1")` on a non-negative integer. -/
def popCount (n : Nat) : Nat := onesBelow (bitLength n) n

/-- `abs(index ^ (size - 1))` as Python computes it.  For `size = 0` the right operand is `-1`, so
the xor is `-(index + 1)`; `bit_length` of a negative number is that of its absolute value.
(`merkle.py:50`) -/
def xorPred (index size : Nat) : Nat :=
  match size with
  | 0 => index + 1
  | s + 1 => index ^^^ s

/-- `_decomp_inclusion_proof` (`merkle.py:40-52`). Both arguments are unsigned 64-bit protobuf
fields, hence naturals. -/
def decompInclusionProof (index size : Nat) : Nat × Nat :=
  let inner := bitLength (xorPred index size)
  let border := popCount (index >>> inner)
  (inner, border)

variable (H : Bytes → Bytes)

/-- `_hash_children` (`merkle.py:82-85`); `_NODE_HASH_PREFIX = 1` (`merkle.py:37`). -/
def hashChildren (lhs rhs : Bytes) : Bytes := H (1 :: (lhs ++ rhs))

/-- `_hash_leaf` (`merkle.py:88-91`); `_LEAF_HASH_PREFIX = 0` (`merkle.py:36`). -/
def hashLeaf (leaf : Bytes) : Bytes := H (0 :: leaf)

/-- The loop of `_chain_inner` (`merkle.py:62-68`) started at position `i`. -/
def chainInnerFrom (i : Nat) (seed : Bytes) (hashes : List Bytes) (logIndex : Nat) : Bytes :=
  match hashes with
  | [] => seed
  | h :: hs =>
    if (logIndex >>> i) &&& 1 = 0 then
      chainInnerFrom (i + 1) (hashChildren H seed h) hs logIndex
    else
      chainInnerFrom (i + 1) (hashChildren H h seed) hs logIndex

/-- `_chain_inner` (`merkle.py:55-68`). -/
def chainInner (seed : Bytes) (hashes : List Bytes) (logIndex : Nat) : Bytes :=
  chainInnerFrom H 0 seed hashes logIndex

/-- `_chain_border_right` (`merkle.py:71-79`). -/
def chainBorderRight (seed : Bytes) (hashes : List Bytes) : Bytes :=
  match hashes with
  | [] => seed
  | h :: hs => chainBorderRight (hashChildren H h seed) hs

/-- The fields of a bundle's inclusion proof (`sigstore_models.rekor.v1.InclusionProof`). The
checkpoint is modelled as its envelope text. -/
structure InclusionProof where
  logIndex : Nat
  rootHash : Bytes
  treeSize : Nat
  hashes : List Bytes
  checkpoint : Option Str
deriving DecidableEq, Repr

/-- `verify_merkle_inclusion` (`merkle.py:94-126`) for an entry with the given canonicalized body
and inclusion proof. -/
def verifyMerkleInclusion (body : Bytes) (proof : InclusionProof) : Py Unit :=
  let (inner, border) := decompInclusionProof proof.logIndex proof.treeSize
  if proof.hashes.length ≠ inner + border then
    .error .verification
  else
    let leafHash := hashLeaf H body
    let intermediate := chainInner H leafHash (proof.hashes.take inner) proof.logIndex
    let calcHash := chainBorderRight H intermediate (proof.hashes.drop inner)
    if calcHash ≠ proof.rootHash then
      .error .verification
    else
      .ok ()

end Sigstore.Merkle
