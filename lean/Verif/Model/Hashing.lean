import Verif.Prelude.Crypto

/-!
# Model of `sha256_digest` and `_sha256_streaming` (`/repo/sigstore/_utils.py:157-209`) and of
`Hashed` (`/repo/sigstore/hashes.py`)
-/

namespace Sigstore

/-- `sigstore_models.common.v1.HashAlgorithm` -/
inductive HashAlgorithm where
  | unspecified | sha2_256 | sha2_384 | sha2_512 | sha3_256 | sha3_384
deriving DecidableEq, Repr

/-- `Hashed` (`hashes.py:28-41`) -/
structure Hashed where
  algorithm : HashAlgorithm
  digest : Bytes
deriving DecidableEq, Repr

/-- what `io.readinto(view)` does on successive calls: the bytes it stores, or `None`; past the end of
the list it returns 0 -/
abbrev Reads := List (Option Bytes)

/-- `view` after `readinto` stored `chunk` at its front -/
def writeBuf (buf chunk : Bytes) : Bytes := chunk ++ buf.drop chunk.length

/-- The loop of `_sha256_streaming` (`_utils.py:204-207`); `acc` is everything passed to
`sha256.update` so far (the digest of `hashlib` depends only on the concatenation). -/
def streamLoop (buf acc : Bytes) : Reads → Bytes
  | [] => acc
  | none :: _ => acc
  | some chunk :: rest =>
    let buf := writeBuf buf chunk
    let nbytes := chunk.length
    if nbytes = 0 then acc else streamLoop buf (acc ++ buf.take nbytes) rest

/-- `_sha256_streaming` (`_utils.py:179-209`): the buffer starts as 128 KiB of zeros. -/
def sha256Streaming (c : Crypto) (io : Reads) : Bytes :=
  c.sha256 (streamLoop (List.replicate (128 * 1024) 0) [] io)

/-- the argument of `sha256_digest`: `bytes | IO[bytes] | Hashed` -/
inductive HashInput where
  | bytes (b : Bytes)
  | stream (io : Reads)
  | hashed (h : Hashed)

/-- `sha256_digest` (`_utils.py:157-176`) -/
def sha256Digest (c : Crypto) : HashInput → Hashed
  | .hashed h => h
  | .bytes b => { digest := c.sha256 b, algorithm := .sha2_256 }
  | .stream io => { digest := sha256Streaming c io, algorithm := .sha2_256 }

end Sigstore
