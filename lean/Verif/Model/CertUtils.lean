import Verif.Model.Cert

/-!
# Model of the certificate classification in `/repo/sigstore/_utils.py:222-357`
-/

namespace Sigstore

/-- `cert_is_ca` (`_utils.py:222-283`). -/
def certIsCa (cert : Cert) : Py Bool :=
  if !cert.isV3 then .error .verification
  else match cert.basicConstraints with
    | none => .ok false
    | some bc =>
      if !bc.critical then .error .verification
      else match cert.keyUsage with
        | none => .error .verification
        | some ku =>
          if bc.ca && ku.keyCertSign then .ok true
          else if !(bc.ca || ku.keyCertSign) then .ok false
          else .error .verification

/-- `cert_is_root_ca` (`_utils.py:286-313`). -/
def certIsRootCa (cert : Cert) : Py Bool :=
  if !cert.isV3 then .error .verification
  else match certIsCa cert with
    | .error e => .error e
    | .ok false => .ok false
    | .ok true => .ok cert.selfIssued

/-- `cert_is_leaf` (`_utils.py:316-357`). -/
def certIsLeaf (cert : Cert) : Py Bool :=
  if !cert.isV3 then .error .verification
  else match certIsCa cert with
    | .error e => .error e
    | .ok true => .ok false
    | .ok false =>
      match cert.keyUsage with
      | none => .error .extensionNotFound
      | some ku =>
        if !ku.digitalSignature then .error .verification
        else match cert.eku with
          | none => .error .verification
          | some l => .ok (l.contains .codeSigning)

end Sigstore
