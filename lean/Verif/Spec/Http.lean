import Verif.Model.Oidc
import Verif.Model.LogEntry
import Verif.Model.Http

/-!
# What services answer

Independent of the clients: HTTP error statuses, members of JSON documents, and which documents describe a log entry, a
certificate chain, the configuration of an identity provider.
-/

namespace Sigstore.Spec

open Sigstore.Oidc Sigstore.LogEntry Sigstore.Http

/-- client and server errors -/
def ErrorStatus (n : Nat) : Prop := 400 ≤ n ∧ n ≤ 599

/-- the member of a document at the end of a path -/
def At (j : Json) : List Str → Json → Prop
  | [], v => j = v
  | k :: ks, v => ∃ fields x, j = .obj fields ∧ Dict.get? fields k = some x ∧ At x ks v

/-- some member of the path is missing, those before it being objects -/
def Missing (j : Json) : List Str → Prop
  | [] => False
  | k :: ks => ∃ fields, j = .obj fields ∧
      (Dict.get? fields k = none ∨ ∃ x, Dict.get? fields k = some x ∧ Missing x ks)

/-- the texts that a loop over a document sees: a list of texts, the names of an object's members, or characters -/
def Elements (x : Json) (ts : List Str) : Prop :=
  x = .arr (ts.map .str) ∨ (∃ fields, x = .obj fields ∧ ts = fields.map Prod.fst) ∨ ∃ s : Str, x = .str s ∧ ts = s.map ([·])

/-- a Rekor v1 response that describes a log entry: one member, whose members are texts and numbers -/
def DescribesV1 (libs : EntryLibs) (j : Json) (e : LogEntry) : Prop :=
  ∃ uuid entry, j = .obj [(uuid, entry)] ∧
    (∃ t, At entry ["body".toList] (.str t) ∧ b64Decode t = .ok e.body) ∧
    libs.parseEntry e.body = some (some (e.kind, e.version)) ∧
    (∃ x, At entry ["logIndex".toList] x ∧ libs.protoInt (libs.str x) = some e.logIndex) ∧
    (∃ t, At entry ["logID".toList] (.str t) ∧ hexDecode t = some e.logId) ∧
    (∃ x time, At entry ["integratedTime".toList] x ∧ libs.protoInt (libs.str x) = some time ∧
      e.integratedTime = some time) ∧
    (∃ t set, At entry ["verification".toList, "signedEntryTimestamp".toList] (.str t) ∧ b64Decode t = .ok set ∧
      e.promise = some set) ∧
    ∃ p c, e.proof = some p ∧ p.checkpoint = some c ∧
      (∃ x, At entry ["verification".toList, "inclusionProof".toList, "logIndex".toList] x ∧
        libs.protoNat (libs.str x) = some p.logIndex) ∧
      (∃ x, At entry ["verification".toList, "inclusionProof".toList, "treeSize".toList] x ∧
        libs.protoNat (libs.str x) = some p.treeSize) ∧
      (∃ t, At entry ["verification".toList, "inclusionProof".toList, "rootHash".toList] (.str t) ∧
        hexDecode t = some p.rootHash) ∧
      (∃ x ts, At entry ["verification".toList, "inclusionProof".toList, "hashes".toList] x ∧ Elements x ts ∧
        ts.map hexDecode = p.hashes.map some) ∧
      At entry ["verification".toList, "inclusionProof".toList, "checkpoint".toList] (.str c)

/-- a Fulcio response with these certificates, as texts -/
def HasChain (j : Json) (pems : List Str) : Prop :=
  At j ["signedCertificateEmbeddedSct".toList, "chain".toList, "certificates".toList] (.arr (pems.map .str))

end Sigstore.Spec
