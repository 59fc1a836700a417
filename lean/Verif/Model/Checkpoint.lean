import Verif.Prelude.Base64
import Verif.Prelude.Hex
import Verif.Prelude.Utf8
import Verif.Prelude.PyStr
import Verif.Model.Trust
import Verif.Model.Merkle

/-!
# Model of `/repo/sigstore/_internal/rekor/checkpoint.py`

`pyInt` is Python `int(str)`: `none` stands for `ValueError`.
-/

namespace Sigstore.Checkpoint

open Sigstore.Trust

/-- Python `text.count("\n\n")`: non-overlapping occurrences -/
def countSep : Str → Nat
  | [] => 0
  | [_] => 0
  | c :: d :: s => if c = '\n' ∧ d = '\n' then 1 + countSep s else countSep (d :: s)

/-- `text[:text.index("\n\n") + 1]` and `text[text.index("\n\n") + 2:]`, when the separator occurs -/
def splitSep : Str → Option (Str × Str)
  | [] => none
  | [_] => none
  | c :: d :: s =>
    if c = '\n' ∧ d = '\n' then some (['\n'], s)
    else (splitSep (d :: s)).map fun p => (c :: p.1, p.2)

/-- One attempt to match the regular expression `— (\S+) (\S+)\n` (`checkpoint.py:156`) at the
front of a text; returns the two groups and the rest.  Because a `\S+` group must be followed by a
white-space character, it is always the maximal run of non-space characters, so greedy matching with
backtracking has at most one outcome. -/
def matchSigLine (s : Str) : Option (Str × Str × Str) :=
  match s with
  | d :: sp :: rest =>
    if d.toNat = 0x2014 ∧ sp = ' ' then
      let name := rest.takeWhile fun c => !isPySpace c
      match rest.dropWhile fun c => !isPySpace c with
      | sp' :: rest' =>
        let sig := rest'.takeWhile fun c => !isPySpace c
        match rest'.dropWhile fun c => !isPySpace c with
        | nl :: rest'' =>
          if name ≠ [] ∧ sp' = ' ' ∧ sig ≠ [] ∧ nl = '\n' then some (name, sig, rest'') else none
        | [] => none
      | [] => none
    else none
  | _ => none

/-- `re.findall(sig_parser, data)` (`checkpoint.py:158`): leftmost, non-overlapping matches. `fuel`
bounds the number of scanning steps; `data.length` always suffices. -/
def findSigLines : Nat → Str → List (Str × Str)
  | 0, _ => []
  | _ + 1, [] => []
  | fuel + 1, c :: s =>
    match matchSigLine (c :: s) with
    | some (name, sig, rest) => (name, sig) :: findSigLines fuel rest
    | none => findSigLines fuel s

/-- `RekorSignature` (`checkpoint.py:38-50`).  The code keeps the signature in base64 and decodes it
again before use; the model keeps that text. -/
structure RekorSignature where
  name : Str
  sigHash : Bytes
  signature : Str
deriving DecidableEq, Repr

/-- `LogCheckpoint` (`checkpoint.py:53-67`). -/
structure LogCheckpoint where
  origin : Str
  logSize : Int
  logHash : Str
  otherContent : List Str
deriving DecidableEq, Repr

/-- `LogCheckpoint.from_text` (`checkpoint.py:70-99`). -/
def LogCheckpoint.fromText (pyInt : Str → Option Int) (text : Str) : Py LogCheckpoint :=
  match splitLines (strip text) with
  | origin :: size :: root :: other =>
    if origin.length = 0 then .error .verification
    else
      match pyInt size with
      | none => .error .verification
      | some logSize =>
        match b64Decode root with
        | .ok bs => .ok { origin := origin, logSize := logSize, logHash := hexEncode bs, otherContent := other }
        | .error .binasciiError => .error .verification
        | .error e => .error e
  | _ => .error .verification

/-- `SignedNote` (`checkpoint.py:112-119`). -/
structure SignedNote where
  note : Str
  signatures : List RekorSignature
deriving DecidableEq, Repr

/-- The loop body of `SignedNote.from_text` (`checkpoint.py:159-170`) for one match. -/
def parseSignature (m : Str × Str) : Py RekorSignature :=
  match b64Decode m.2 with
  | .error e => .error e
  | .ok bs =>
    if bs.length < 5 then .error .verification
    else .ok { name := m.1, sigHash := bs.take 4, signature := b64Encode (bs.drop 4) }

/-- the loop over all matches (`checkpoint.py:157-170`) -/
def parseSignatures : List (Str × Str) → Py (List RekorSignature)
  | [] => .ok []
  | m :: ms =>
    match parseSignature m with
    | .error e => .error e
    | .ok s =>
      match parseSignatures ms with
      | .error e => .error e
      | .ok ss => .ok (s :: ss)

/-- `SignedNote.from_text` (`checkpoint.py:121-172`). -/
def SignedNote.fromText (text : Str) : Py SignedNote :=
  if countSep text ≠ 1 then .error .verification
  else
    match splitSep text with
    | none => .error .valueError  -- `text.index` would raise; unreachable after the count
    | some (header, data) =>
      if data.length = 0 then .error .verification
      else if data.getLast? ≠ some '\n' then .error .verification
      else
        match parseSignatures (findSigLines data.length data) with
        | .error e => .error e
        | .ok sigs => .ok { note := header, signatures := sigs }

/-- The loop of `SignedNote.verify` (`checkpoint.py:181-195`): the first signature whose hint matches
decides. -/
def verifySigs (c : Crypto) (kr : Keyring) (keyId note : Bytes) : List RekorSignature → Py Unit
  | [] => .error .verification
  | s :: ss =>
    if s.sigHash = keyId.take 4 then
      match b64Decode s.signature with
      | .error e => .error e
      | .ok sig =>
        match kr.verify c keyId sig note with
        | .ok () => .ok ()
        | .error e => if e.isVerificationError then .error .verification else .error e
    else verifySigs c kr keyId note ss

/-- `SignedNote.verify` (`checkpoint.py:174-195`). -/
def SignedNote.verify (c : Crypto) (kr : Keyring) (keyId : Bytes) (n : SignedNote) : Py Unit :=
  verifySigs c kr keyId (utf8 n.note) n.signatures

/-- `SignedCheckpoint` (`checkpoint.py:198-205`). -/
structure SignedCheckpoint where
  signedNote : SignedNote
  checkpoint : LogCheckpoint
deriving DecidableEq, Repr

/-- `SignedCheckpoint.from_text` (`checkpoint.py:207-215`). -/
def SignedCheckpoint.fromText (pyInt : Str → Option Int) (text : Str) : Py SignedCheckpoint :=
  match SignedNote.fromText text with
  | .error e => .error e
  | .ok n =>
    match LogCheckpoint.fromText pyInt n.note with
    | .error e => .error e
    | .ok ck => .ok { signedNote := n, checkpoint := ck }

/-- `verify_checkpoint` (`checkpoint.py:218-243`) for an inclusion proof and the entry's log id. -/
def verifyCheckpoint (pyInt : Str → Option Int) (c : Crypto) (kr : Keyring) (logId : Bytes)
    (proof : Merkle.InclusionProof) : Py Unit :=
  match proof.checkpoint with
  | none => .error .verification
  | some envelope =>
    match SignedCheckpoint.fromText pyInt envelope with
    | .error e => .error e
    | .ok sc =>
      match sc.signedNote.verify c kr logId with
      | .error e => .error e
      | .ok () =>
        if sc.checkpoint.logHash ≠ hexEncode proof.rootHash then .error .verification else .ok ()

end Sigstore.Checkpoint
