import Verif.Model.Statement
import Verif.Prelude.Utf8
import Verif.Prelude.Hex
import Verif.Prelude.Decimal

/-!
# Model of the JSON text of statements

`model_dump_json(by_alias=True).encode()` and `model_validate_json` (`/repo/sigstore/dsse/__init__.py:97,101`).  The text is written
and read by pydantic, which is not part of `/repo` and was not available: that it writes and reads as here is an assumption, and how
deep documents may be is a parameter of the reader.

Simplifications: numbers other than integers are written and read by parameters; a `float` with an integral value is not told from the
`int` (in `Json` they are equal); writing does not fail for documents that are very deep, and texts have no lone surrogates.

The predicate file is read by Python's `json.load` (`/repo/sigstore/_cli.py:818-819`), which differs from this reader: it also reads
`NaN`, `Infinity`, `-Infinity` and lone surrogates, and its depth is limited by the stack only.
-/

namespace Sigstore.JsonIO

/-- the text of numbers that are no integers -/
structure Floats where
  write : ℚ → Str
  read : Str → Option ℚ

/-! ## Writing -/

/-- a character of a text (`dsse/__init__.py:101`) -/
def escape (c : Char) : Str :=
  if c = '"' then ['\\', '"']
  else if c = '\\' then ['\\', '\\']
  else if c = '\n' then ['\\', 'n']
  else if c = '\r' then ['\\', 'r']
  else if c = '\t' then ['\\', 't']
  else if c = Char.ofNat 8 then ['\\', 'b']
  else if c = Char.ofNat 12 then ['\\', 'f']
  else if c.toNat < 32 then ['\\', 'u', '0', '0', hexDigit (c.toNat / 16), hexDigit (c.toNat % 16)]
  else [c]

/-- a text in quotes, without the first one -/
def writeChars (s : Str) : Str := s.flatMap escape ++ ['"']

/-- a number -/
def writeNum (fl : Floats) (q : ℚ) : Str := if q.den = 1 then decimalInt q.num else fl.write q

mutual

/-- a document, without blanks (`dsse/__init__.py:101`) -/
def write (fl : Floats) (j : Json) : Str :=
  match j with
  | .null => ['n', 'u', 'l', 'l']
  | .bool true => ['t', 'r', 'u', 'e']
  | .bool false => ['f', 'a', 'l', 's', 'e']
  | .num q => writeNum fl q
  | .str s => '"' :: writeChars s
  | .arr [] => ['[', ']']
  | .arr (x :: xs) => '[' :: (write fl x ++ writeItems fl xs)
  | .obj [] => ['{', '}']
  | .obj (m :: ms) => '{' :: (writeMember fl m ++ writeMembers fl ms)
termination_by structural j

/-- the items after the first, and the end of the array -/
def writeItems (fl : Floats) (l : List Json) : Str :=
  match l with
  | [] => [']']
  | x :: xs => ',' :: (write fl x ++ writeItems fl xs)
termination_by structural l

/-- the members after the first, and the end of the object -/
def writeMembers (fl : Floats) (l : List (Str × Json)) : Str :=
  match l with
  | [] => ['}']
  | m :: ms => ',' :: (writeMember fl m ++ writeMembers fl ms)
termination_by structural l

/-- a member -/
def writeMember (fl : Floats) (m : Str × Json) : Str :=
  match m with
  | (k, v) => '"' :: (writeChars k ++ ':' :: write fl v)
termination_by structural m

end

/-! ## Reading -/

/-- blanks -/
def isBlank (c : Char) : Bool := c = ' ' ∨ c = '\n' ∨ c = '\r' ∨ c = '\t'

/-- without the blanks before it -/
def skip (s : Str) : Str := s.dropWhile isBlank

/-- four hexadecimal digits -/
def hex4 : Str → Option (Nat × Str)
  | a :: b :: c :: d :: r =>
    match hexVal a, hexVal b, hexVal c, hexVal d with
    | some a, some b, some c, some d => some (((a * 16 + b) * 16 + c) * 16 + d, r)
    | _, _, _, _ => none
  | _ => none

/-- after `\u`: a character, or the first half of one, which the second half has to follow -/
def readUnicode (s : Str) : Option (Char × Str) :=
  match hex4 s with
  | none => none
  | some (n, r) =>
    if n < 0xD800 ∨ 0xE000 ≤ n then some (Char.ofNat n, r)
    else if n < 0xDC00 then
      match r with
      | '\\' :: 'u' :: r =>
        match hex4 r with
        | none => none
        | some (m, r) =>
          if 0xDC00 ≤ m ∧ m < 0xE000 then some (Char.ofNat (0x10000 + (n - 0xD800) * 0x400 + (m - 0xDC00)), r) else none
      | _ => none
    else none

/-- after a backslash -/
def readEscape : Str → Option (Char × Str)
  | [] => none
  | c :: r =>
    if c = '"' ∨ c = '\\' ∨ c = '/' then some (c, r)
    else if c = 'n' then some ('\n', r)
    else if c = 'r' then some ('\r', r)
    else if c = 't' then some ('\t', r)
    else if c = 'b' then some (Char.ofNat 8, r)
    else if c = 'f' then some (Char.ofNat 12, r)
    else if c = 'u' then readUnicode r
    else none

/-- a text, after the first quote; the first argument bounds the number of characters -/
def readChars : Nat → Str → Option (Str × Str)
  | 0, _ => none
  | _ + 1, [] => none
  | n + 1, c :: r =>
    if c = '"' then some ([], r)
    else if c = '\\' then
      match readEscape r with
      | none => none
      | some (x, r) => (readChars n r).map fun p => (x :: p.1, p.2)
    else if c.toNat < 32 then none
    else (readChars n r).map fun p => (c :: p.1, p.2)

/-- the characters of numbers -/
def isNumChar (c : Char) : Bool := isDecDigit c || c = '-' || c = '+' || c = '.' || c = 'e' || c = 'E'

/-- digits without a zero before others -/
def isNatText (s : Str) : Bool := s ≠ [] ∧ s.all isDecDigit ∧ (s.head? = some '0' → s.length = 1)

/-- a number -/
def readNum (fl : Floats) (s : Str) : Option ℚ :=
  match s with
  | [] => none
  | c :: r =>
    if c = '-' then if isNatText r then some (-(decimalVal r : Int) : Int) else fl.read s
    else if isNatText s then some ((decimalVal s : Int) : ℚ) else fl.read s

/-- a document that is one word or number -/
def readAtom (fl : Floats) (s : Str) : Option (Json × Str) :=
  match s with
  | 'n' :: 'u' :: 'l' :: 'l' :: r => some (.null, r)
  | 't' :: 'r' :: 'u' :: 'e' :: r => some (.bool true, r)
  | 'f' :: 'a' :: 'l' :: 's' :: 'e' :: r => some (.bool false, r)
  | s => (readNum fl (s.takeWhile isNumChar)).map fun q => (.num q, s.dropWhile isNumChar)

/-- of members with the same name, the last has the value -/
def merge (l : List (Str × Json)) : Dict Str Json := l.foldl (fun d m => Dict.set d m.1 m.2) []

mutual

/-- a document (`dsse/__init__.py:97`): `n` bounds the number of steps, `d` the depth -/
def readValue (fl : Floats) : (n d : Nat) → Str → Option (Json × Str)
  | 0, _, _ => none
  | n + 1, d, s =>
    match skip s with
    | [] => none
    | c :: r =>
      if c = '"' then (readChars (r.length + 1) r).map fun p => (.str p.1, p.2)
      else if c = '[' then
        if d = 0 then none
        else if (skip r).head? = some ']' then some (.arr [], (skip r).tail)
        else (readItems fl n (d - 1) r).map fun p => (.arr p.1, p.2)
      else if c = '{' then
        if d = 0 then none
        else if (skip r).head? = some '}' then some (.obj [], (skip r).tail)
        else (readMembers fl n (d - 1) r).map fun p => (.obj (merge p.1), p.2)
      else readAtom fl (c :: r)

/-- the items of an array, to its end -/
def readItems (fl : Floats) : (n d : Nat) → Str → Option (List Json × Str)
  | 0, _, _ => none
  | n + 1, d, s =>
    match readValue fl n d s with
    | none => none
    | some (v, r) =>
      if (skip r).head? = some ',' then (readItems fl n d (skip r).tail).map fun p => (v :: p.1, p.2)
      else if (skip r).head? = some ']' then some ([v], (skip r).tail)
      else none

/-- the members of an object, to its end -/
def readMembers (fl : Floats) : (n d : Nat) → Str → Option (List (Str × Json) × Str)
  | 0, _, _ => none
  | n + 1, d, s =>
    if (skip s).head? = some '"' then
      match readChars ((skip s).length + 1) (skip s).tail with
      | none => none
      | some (k, r) =>
        if (skip r).head? = some ':' then
          match readValue fl n d (skip r).tail with
          | none => none
          | some (v, r) =>
            if (skip r).head? = some ',' then (readMembers fl n d (skip r).tail).map fun p => ((k, v) :: p.1, p.2)
            else if (skip r).head? = some '}' then some ([(k, v)], (skip r).tail)
            else none
        else none
    else none

end

/-- the bytes of a text that is one document, at most `limit` deep, with blanks around it -/
def parse (fl : Floats) (limit : Nat) (b : Bytes) : Option Json :=
  match utf8Decode b with
  | none => none
  | some s =>
    match readValue fl (s.length + 1) limit s with
    | none => none
    | some (j, r) => if skip r = [] then some j else none

/-- the text format -/
def text (fl : Floats) (limit : Nat) : Dsse.JsonText where
  parse := parse fl limit
  dump := fun j => utf8 (write fl j)

end Sigstore.JsonIO
