import Verif.Model.Trust
import Verif.Model.Cert
import Verif.Model.Hashing

/-!
# Model of `/repo/sigstore/_internal/key_details.py`
-/

namespace Sigstore

open Sigstore.Trust

/-- `AlgorithmDetails` (`key_details.py:30-36`); the hash function is named by its `hashlib` algorithm -/
structure AlgorithmDetails where
  keyDetails : KeyDetails
  hashAlgorithm : Option HashAlgorithm
  hashFunc : Option HashAlg
deriving DecidableEq, Repr

/-- `_ALGORITHM_REGISTRY` (`key_details.py:41-85`) -/
def algorithmRegistry : List AlgorithmDetails :=
  [⟨.pkixRsaPkcs1v15_2048Sha256, some .sha2_256, some .sha256⟩,
   ⟨.pkixRsaPkcs1v15_3072Sha256, some .sha2_256, some .sha256⟩,
   ⟨.pkixRsaPkcs1v15_4096Sha256, some .sha2_256, some .sha256⟩,
   ⟨.pkixEcdsaP256Sha256, some .sha2_256, some .sha256⟩,
   ⟨.pkixEcdsaP384Sha384, some .sha2_384, some .sha384⟩,
   ⟨.pkixEcdsaP521Sha512, some .sha2_512, some .sha512⟩,
   ⟨.pkixEd25519, none, none⟩,
   ⟨.pkixEd25519Ph, some .sha2_512, some .sha512⟩]

/-- `_DETAILS_BY_KEY` (`key_details.py:87-89`): a dict comprehension -/
def detailsByKey : Dict KeyDetails AlgorithmDetails :=
  algorithmRegistry.foldl (fun d a => Dict.set d a.keyDetails a) []

/-- `_get_algorithm_details` (`key_details.py:92-99`) -/
def getAlgorithmDetails (kd : KeyDetails) : Py AlgorithmDetails :=
  match Dict.get? detailsByKey kd with
  | none => .error .valueError
  | some a => .ok a

/-- `_get_prehash` (`key_details.py:102-117`) -/
def getPrehash (kd : KeyDetails) : Py (HashAlgorithm × HashAlg) :=
  match getAlgorithmDetails kd with
  | .error e => .error e
  | .ok a => match a.hashAlgorithm, a.hashFunc with
    | some ha, some hf => .ok (ha, hf)
    | _, _ => .error .valueError

/-- `_get_key_details` (`key_details.py:120-169`) -/
def getKeyDetails (cert : Cert) : Py KeyDetails :=
  match cert.pubKey.kind with
  | .ec .p256 => .ok .pkixEcdsaP256Sha256
  | .ec .p384 => .ok .pkixEcdsaP384Sha384
  | .ec .p521 => .ok .pkixEcdsaP521Sha512
  | .ec (.other _) => .error .valueError
  | .rsa bits =>
    if bits = 2048 then
      if cert.sigParamsPkcs1 then .ok .pkixRsaPkcs1v15_2048Sha256 else .error .valueError
    else if bits = 3072 then
      if cert.sigParamsPkcs1 then .ok .pkixRsaPkcs1v15_3072Sha256 else .error .valueError
    else if bits = 4096 then
      if cert.sigParamsPkcs1 then .ok .pkixRsaPkcs1v15_4096Sha256 else .error .valueError
    else .error .valueError
  | .ed25519 => .ok .pkixEd25519
  | .other _ => .error .valueError

end Sigstore
