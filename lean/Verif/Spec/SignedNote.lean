import Verif.Prelude.Base64
import Verif.Prelude.Decimal
import Verif.Prelude.PyStr

/-!
# Signed notes and log checkpoints as a log writes them

From <https://github.com/transparency-dev/formats/blob/main/log/README.md> and the Go `note` format:
the text consists of non-empty lines, then a blank line, then one line per signature.
-/

namespace Sigstore.Spec

/-- what a checkpoint says -/
structure Checkpoint where
  origin : Str
  size : Nat
  root : Bytes
  extra : List Str

/-- one signature of a note: signer name, four-byte key hint, signature bytes -/
structure NoteSig where
  name : Str
  hint : Bytes
  sig : Bytes

namespace Checkpoint

/-- the lines of the checkpoint body -/
def lines (c : Checkpoint) : List Str := c.origin :: decimal c.size :: b64Encode c.root :: c.extra

/-- the signed text: every line terminated by a newline -/
def noteText (c : Checkpoint) : Str := c.lines.flatMap fun l => l ++ ['\n']

/-- admissible checkpoints: lines without newlines, none of them empty, no blank at the very start or
at the end of the text -/
structure WF (c : Checkpoint) : Prop where
  origin_ne : c.origin ≠ []
  origin_start : ∀ ch ∈ c.origin.head?, isPySpace ch = false
  origin_line : '\n' ∉ c.origin
  root_ne : c.root ≠ []
  extra_ne : ∀ l ∈ c.extra, l ≠ []
  extra_line : ∀ l ∈ c.extra, '\n' ∉ l
  end_ok : ∀ l ∈ c.extra.getLast?, ∀ ch ∈ l.getLast?, isPySpace ch = false

end Checkpoint

namespace NoteSig

/-- one line of the signature block -/
def line (s : NoteSig) : Str :=
  Char.ofNat 0x2014 :: ' ' :: (s.name ++ ' ' :: (b64Encode (s.hint ++ s.sig) ++ ['\n']))

/-- admissible signatures -/
structure WF (s : NoteSig) : Prop where
  name_ne : s.name ≠ []
  name_chars : ∀ ch ∈ s.name, isPySpace ch = false
  hint_len : s.hint.length = 4
  sig_ne : s.sig ≠ []

end NoteSig

/-- the complete envelope -/
def envelopeText (c : Checkpoint) (sigs : List NoteSig) : Str :=
  c.noteText ++ '\n' :: sigs.flatMap NoteSig.line

end Sigstore.Spec
