import Verif.Prelude.Decimal
import Verif.Prelude.Utf8

/-!
# The pre-authentication encoding of the DSSE v1 protocol

https://github.com/secure-systems-lab/dsse/blob/v1.0.0/protocol.md:
`PAE(type, body) = "DSSEv1" + SP + LEN(type) + SP + type + SP + LEN(body) + SP + body`, where `SP` is the
ASCII space and `LEN(s)` is the ASCII decimal encoding of the byte length of `s`.  The type is a byte string
(the UTF-8 of the payload type).
-/

namespace Sigstore.Spec

/-- ASCII space -/
def sp : Bytes := [0x20]

/-- `LEN(s)` -/
def lenBytes (s : Bytes) : Bytes := (decimal s.length).map fun c => UInt8.ofNat c.toNat

/-- `PAE(type, body)` -/
def pae (type body : Bytes) : Bytes :=
  [0x44, 0x53, 0x53, 0x45, 0x76, 0x31] ++ sp ++ lenBytes type ++ sp ++ type ++ sp ++ lenBytes body ++ sp ++ body

end Sigstore.Spec
