import Verif.Prelude.Base64
import Verif.Prelude.Decimal
import Verif.Prelude.Hex

/-!
# Specification: canonical JSON (RFC 8785) of what Rekor signs, and the range of dates
-/

namespace Sigstore.Spec

/-- a JSON value in a promise: a text without characters that have to be escaped, or an integer -/
inductive CanonicalValue where
  | text (s : Str)
  | int (n : Int)

/-- RFC 8785, sections 3.2.2 and 3.2.3, of such a value -/
def CanonicalValue.render : CanonicalValue → Str
  | .text s => ['"'] ++ s ++ ['"']
  | .int n => decimalInt n

/-- RFC 8785 of an object, given its members in the order of their names: no blanks -/
def canonicalObject (members : List (Str × CanonicalValue)) : Str :=
  ['{'] ++ List.intercalate [','] (members.map fun m => ['"'] ++ m.1 ++ ['"', ':'] ++ m.2.render) ++ ['}']

/-- the members of a promise; their names are in order -/
def promiseMembers (body : Bytes) (time : Int) (logId : Bytes) (index : Int) : List (Str × CanonicalValue) :=
  [("body".toList, .text (b64Encode body)), ("integratedTime".toList, .int time),
   ("logID".toList, .text (hexEncode logId)), ("logIndex".toList, .int index)]

/-- what a log signs when it promises to include an entry -/
def promiseText (body : Bytes) (time : Int) (logId : Bytes) (index : Int) : Str :=
  canonicalObject (promiseMembers body time logId index)

/-- the days of the years 1 to `y` of the Gregorian calendar -/
def daysThrough (y : Nat) : Nat := 365 * y + y / 4 - y / 100 + y / 400

/-- the last millisecond of the year 9999, counted from 1970: Python has no later dates -/
def lastMillisecond : Nat := (daysThrough 9999 - daysThrough 1969) * 86400000 - 1

end Sigstore.Spec
