import Verif.Model.Hashing

/-!
# Model of digesting an open file while others change it

`_sha256_streaming` (`/repo/sigstore/_utils.py:179-209`) calls `readinto` of the object that `file.open(mode="rb")` returned
(`/repo/sigstore/_cli.py:706-709,1098-1099`) until it returns 0.  `readinto` of `io.BufferedReader`, which is not part of `/repo`,
reads from the operating system until the view is full, or once finds the end of the file; what it has read in excess it keeps for
the next call.  Each reading of the operating system may find another content.

Simplifications: reading does not raise; the content is that of the opened file (another file that is put in its place with `rename`
is not read); the bytes that `readinto` delivers are in one piece per reading of the operating system, not per call (by C51 this
does not change the digest).
-/

namespace Sigstore.Torn

/-- a reading of the operating system: the content of the file at that moment, and how many bytes are read at most -/
structure Raw where
  content : Bytes
  size : Nat

/-- what a reading at this position delivers -/
def Raw.at (r : Raw) (pos : Nat) : Bytes := (r.content.drop pos).take r.size

/-- `view` (`_utils.py:202`) -/
def viewSize : Nat := 128 * 1024

/-- The pieces that are digested (`_utils.py:204-207`).  `pos` is the position in the file; `got` is how many bytes the current call
of `readinto` has.  A reading that finds the end ends the call, and ends the loop if the call has nothing.  After the readings that are
listed, the content is `final`. -/
def pieces (final : Bytes) : List Raw → (pos got : Nat) → List Bytes
  | [], pos, _ => if final.drop pos = [] then [] else [final.drop pos]
  | r :: rest, pos, got =>
    if r.at pos = [] then if got = 0 then [] else pieces final rest pos 0
    else r.at pos :: pieces final rest (pos + (r.at pos).length) ((got + (r.at pos).length) % viewSize)

/-- `sha256_digest(io)` for a file just opened (`_utils.py:157-176`) -/
def digest (c : Crypto) (raws : List Raw) (final : Bytes) : Hashed :=
  sha256Digest c (.stream ((pieces final raws 0 0).map some))

end Sigstore.Torn
