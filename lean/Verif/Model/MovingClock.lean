import Verif.Model.Verifier

/-!
# Verification while the clock moves

`is_timerange_valid` (`/repo/sigstore/_utils.py:360-379`) reads the clock each time it is called: once for each certificate
authority when the `Verifier` is made, and in each verification once for each timestamp and timestamp authority tried, once for each
certificate transparency log and once for each transparency log.  `Verif.Model.Trust` and `Verif.Model.Verifier` take one reading
for all of them.  Here every reading is its own: a clock gives each reading its value, and may go on, stand still, or be set back in
between.
-/

namespace Sigstore.MovingClock

open Sigstore.Trust Sigstore.LogEntry Sigstore.Dsse Sigstore.Sct

/-- the readings of the clock: for the `i`th certificate authority (`models.py:881-883`), for the `i`th timestamp authority when the
`t`th timestamp is verified (`verifier.py:133-135`), for the `i`th certificate transparency log and for the `i`th transparency log
(`models.py:847-851`) -/
inductive Reading where
  | ca (i : Nat)
  | tsa (t i : Nat)
  | ct (i : Nat)
  | tlog (i : Nat)
deriving DecidableEq, Repr

/-- a clock: the value of each reading -/
abbrev Clock := Reading → Time

/-- `TrustedRoot._get_tlog_keys` (`models.py:839-853`) from the `i`th log on -/
def getTlogKeys (clock : Nat → Time) (purpose : Purpose) : Nat → List PublicKeyMsg → List PublicKeyMsg
  | _, [] => []
  | i, t :: ts =>
    if isTimerangeValid (clock i) t.validFor (purpose = .verify) then t :: getTlogKeys clock purpose (i + 1) ts
    else getTlogKeys clock purpose (i + 1) ts

/-- `TrustedRoot.rekor_keyring` (`models.py:855-863`) -/
def rekorKeyring {χ : Type} (c : Crypto) (clock : Clock) (tr : TrustedRoot χ) (purpose : Purpose) : Py Keyring :=
  let keys := getTlogKeys (fun i => clock (.tlog i)) purpose 0 tr.tlogs
  if keys.length = 0 then .error .metadata else Keyring.init c keys

/-- `TrustedRoot.ct_keyring` (`models.py:865-872`) -/
def ctKeyring {χ : Type} (c : Crypto) (clock : Clock) (tr : TrustedRoot χ) (purpose : Purpose) : Py Keyring :=
  let keys := getTlogKeys (fun i => clock (.ct i)) purpose 0 tr.ctlogs
  if keys.isEmpty then .error .metadata else Keyring.init c keys

/-- the loop of `TrustedRoot.get_fulcio_certs` (`models.py:881-883`) from the `i`th authority on -/
def collectFulcioCerts {χ : Type} (clock : Clock) (acc : List χ) : Nat → List (CertificateAuthority χ) → Py (List χ)
  | _, [] => .ok acc
  | i, a :: as =>
    match a.init with
    | .error e => .error e
    | .ok ca => collectFulcioCerts clock (acc ++ ca.certs (clock (.ca i)) true) (i + 1) as

/-- `TrustedRoot.get_fulcio_certs` (`models.py:874-887`) -/
def getFulcioCerts {χ : Type} (clock : Clock) (tr : TrustedRoot χ) : Py (List χ) :=
  match collectFulcioCerts clock [] 0 tr.certificateAuthorities with
  | .error e => .error e
  | .ok [] => .error .metadata
  | .ok certs => .ok certs

/-- `Verifier.__init__` (`verifier.py:83-96`) -/
def init (clock : Clock) (root : TrustedRoot Cert) : Py Verifier :=
  match getFulcioCerts clock root with
  | .error e => .error e
  | .ok certs =>
    match root.tlogs with
    | [] => .error .indexError
    | _ :: _ => .ok { root := root, fulcioCerts := certs }

/-- the loop of `_verify_signed_timestamp` (`verifier.py:133-171`) for the `t`th timestamp, from the `i`th authority on -/
def verifySignedTimestamp (env : Env) (clock : Clock) (t : Nat) (tsr : Tsr) (message : Bytes) :
    Nat → List (CertificateAuthority Cert) → Py (Option VerifiedTime)
  | _, [] => .ok none
  | i, ca :: cas =>
    match ca.certs (clock (.tsa t i)) true with
    | [] => verifySignedTimestamp env clock t tsr message (i + 1) cas
    | [_] => verifySignedTimestamp env clock t tsr message (i + 1) cas
    | leaf :: c2 :: cs =>
      let certificates := leaf :: c2 :: cs
      let root := certificates.getLast (by simp)
      let intermediates := (c2 :: cs).dropLast
      if env.verifyTsr leaf root intermediates tsr message then
        match ca.validFor with
        | none => .error .attributeError
        | some r =>
          if inWindow r tsr.genTime then
            .ok (some { source := .timestampAuthority, time := tsr.genTime })
          else verifySignedTimestamp env clock t tsr message (i + 1) cas
      else verifySignedTimestamp env clock t tsr message (i + 1) cas

/-- the list comprehension of `_verify_timestamp_authority` (`verifier.py:197-201`) from the `t`th timestamp on -/
def verifyTimestamps (env : Env) (clock : Clock) (cas : List (CertificateAuthority Cert)) (signature : Py Bytes) :
    Nat → List Tsr → Py (List VerifiedTime)
  | _, [] => .ok []
  | t, tsr :: tsrs =>
    match signature with
    | .error e => .error e
    | .ok sig =>
      match verifySignedTimestamp env clock t tsr sig 0 cas with
      | .error e => .error e
      | .ok r =>
        match verifyTimestamps env clock cas signature (t + 1) tsrs with
        | .error e => .error e
        | .ok rs => .ok (match r with | none => rs | some v => v :: rs)

/-- `_verify_timestamp_authority` (`verifier.py:173-203`) -/
def verifyTimestampAuthority (env : Env) (clock : Clock) (cas : List (CertificateAuthority Cert)) (b : Bundle)
    (tsrs : List Tsr) : Py (List VerifiedTime) :=
  if tsrs.length > maxAllowedTimestamp then .error .verification
  else if tsrs.eraseDups.length ≠ tsrs.length then .error .verification
  else verifyTimestamps env clock cas b.signature 0 tsrs

/-- the timestamps part of `_establish_time` (`verifier.py:217-226`) -/
def tsaTimes (env : Env) (clock : Clock) (v : Verifier) (b : Bundle) : Py (List VerifiedTime) :=
  match timestampData env b.inner with
  | .error e => .error e
  | .ok [] => .ok []
  | .ok (t :: ts) =>
    match getTimestampAuthorities v.root with
    | .error e => .error e
    | .ok [] => .error .verification
    | .ok (ca :: cas) => verifyTimestampAuthority env clock (ca :: cas) b (t :: ts)

/-- `_establish_time` (`verifier.py:205-248`) -/
def establishTime (env : Env) (clock : Clock) (v : Verifier) (b : Bundle) : Py (List VerifiedTime) :=
  match tsaTimes env clock v b with
  | .error e => .error e
  | .ok l1 =>
    match logTime b.entry with
    | .error e => .error e
    | .ok l2 => .ok (l1 ++ l2)

/-- step (2) (`verifier.py:333-341`) -/
def checkSct (env : Env) (clock : Clock) (v : Verifier) (cert : Cert) (chain : List Cert) : Py Unit :=
  match ctKeyring env.crypto clock v.root .verify with
  | .error e => if e.isVerificationError then .error .verification else .error e
  | .ok kr =>
    match verifySct env.crypto cert chain kr with
    | .error e => if e.isVerificationError then .error .verification else .error e
    | .ok () => .ok ()

/-- steps (4) and (5) (`verifier.py:357-364`) -/
def checkEntry (env : Env) (clock : Clock) (v : Verifier) (e : LogEntry) : Py Unit :=
  match rekorKeyring env.crypto clock v.root .verify with
  | .error x => if x.isVerificationError then .error .verification else .error x
  | .ok kr =>
    match e.verify env.pyInt env.crypto kr with
    | .error x => if x.isVerificationError then .error .verification else .error x
    | .ok () => .ok ()

/-- `_verify_common_signing_cert` (`verifier.py:283-376`) -/
def verifyCommon (env : Env) (clock : Clock) (v : Verifier) (b : Bundle) (policy : Cert → Py Unit) : Py Unit :=
  match establishTime env clock v b with
  | .error e => .error e
  | .ok times =>
    if times.length < verifiedTimeThreshold then .error .verification
    else
      match verifyChains env v.fulcioCerts b.cert [] times with
      | .error e => .error e
      | .ok chain =>
        match checkSct env clock v b.cert chain with
        | .error e => .error e
        | .ok () =>
          match checkUsage b.cert with
          | .error e => .error e
          | .ok () =>
            match policy b.cert with
            | .error e => .error e
            | .ok () =>
              match checkEntry env clock v b.entry with
              | .error e => .error e
              | .ok () => checkWindow b.cert times

/-- `Verifier.verify_artifact` (`verifier.py:440-504`) -/
def verifyArtifact (env : Env) (clock : Clock) (v : Verifier) (input : HashInput) (b : Bundle)
    (policy : Cert → Py Unit) : Py Unit :=
  match verifyCommon env clock v b policy with
  | .error e => .error e
  | .ok () => checkArtifact env b input

/-- `Verifier.verify_dsse` (`verifier.py:378-438`) -/
def verifyDsse (env : Env) (clock : Clock) (v : Verifier) (b : Bundle) (policy : Cert → Py Unit) : Py (Str × Bytes) :=
  match verifyCommon env clock v b policy with
  | .error e => .error e
  | .ok () => checkDsse env b

/-- a verifier is made and verifies an artifact -/
def artifactRun (env : Env) (clock : Clock) (root : TrustedRoot Cert) (input : HashInput) (b : Bundle)
    (policy : Cert → Py Unit) : Py Unit :=
  match init clock root with
  | .error e => .error e
  | .ok v => verifyArtifact env clock v input b policy

/-- a verifier is made and verifies an attestation -/
def dsseRun (env : Env) (clock : Clock) (root : TrustedRoot Cert) (b : Bundle) (policy : Cert → Py Unit) : Py (Str × Bytes) :=
  match init clock root with
  | .error e => .error e
  | .ok v => verifyDsse env clock v b policy

end Sigstore.MovingClock
