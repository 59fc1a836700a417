import Verif.Model.JsonText

/-!
# Specification: JSON text (RFC 8259), and which documents can be read back
-/

namespace Sigstore.Spec

open Sigstore.JsonIO (Floats)

/-- the value of a hexadecimal digit of either case -/
def HexIs (c : Char) (n : Nat) : Prop :=
  ('0' ≤ c ∧ c ≤ '9' ∧ n = c.toNat - 48) ∨ ('a' ≤ c ∧ c ≤ 'f' ∧ n = c.toNat - 87) ∨ ('A' ≤ c ∧ c ≤ 'F' ∧ n = c.toNat - 55)

/-- `\u` and four digits -/
def UnicodeIs (t : Str) (n : Nat) : Prop :=
  ∃ a b c d w x y z, t = ['\\', 'u', a, b, c, d] ∧ HexIs a w ∧ HexIs b x ∧ HexIs c y ∧ HexIs d z ∧ n = w * 4096 + x * 256 + y * 16 + z

/-- RFC 8259, section 7: one character -/
inductive CharText : Char → Str → Prop
  | plain (c : Char) : 0x20 ≤ c.toNat → c ≠ '"' → c ≠ '\\' → CharText c [c]
  | short (c e : Char) : (e, c) ∈ [('"', '"'), ('\\', '\\'), ('/', '/'), ('b', Char.ofNat 8), ('f', Char.ofNat 12), ('n', '\n'),
      ('r', '\r'), ('t', '\t')] → CharText c ['\\', e]
  | unicode (c : Char) (t : Str) : UnicodeIs t c.toNat → CharText c t
  | pair (c : Char) (t u : Str) (n m : Nat) : UnicodeIs t n → UnicodeIs u m → 0xD800 ≤ n → n < 0xDC00 → 0xDC00 ≤ m → m < 0xE000 →
      c.toNat = 0x10000 + (n - 0xD800) * 0x400 + (m - 0xDC00) → CharText c (t ++ u)

/-- the characters of a text -/
inductive CharsText : Str → Str → Prop
  | nil : CharsText [] []
  | cons (c : Char) (s t u : Str) : CharText c t → CharsText s u → CharsText (c :: s) (t ++ u)

/-- section 2: insignificant blanks -/
def Blanks (s : Str) : Prop := ∀ c ∈ s, c ∈ [' ', '\n', '\r', '\t']

/-- section 6, of integers -/
def IntText (z : Int) (s : Str) : Prop := s = decimalInt z ∨ z = 0 ∧ s = ['-', '0']

/-- section 6; numbers that are not written as integers are read by a parameter -/
def NumText (fl : Floats) (q : ℚ) (s : Str) : Prop :=
  (∃ z : Int, q = z ∧ IntText z s) ∨
  (s ≠ [] ∧ (∀ c ∈ s, c ∈ "0123456789-+.eE".toList) ∧ (¬ ∃ z, IntText z s) ∧ fl.read s = some q)

/-- names in the order in which they occur first -/
def firstNames : List Str → List Str
  | [] => []
  | k :: ks => k :: (firstNames ks).filter fun x => decide (x ≠ k)

/-- of members with the same name, the last counts; names are in the order in which they occur first -/
def LastCounts (l : List (Str × Json)) (d : Dict Str Json) : Prop :=
  d.map Prod.fst = firstNames (l.map Prod.fst) ∧ ∀ (k : Str) (v : Json), (k, v) ∈ d ↔ ∃ a b, l = a ++ (k, v) :: b ∧ k ∉ b.map Prod.fst

mutual

/-- section 3: a text of a document, with at most `d` arrays and objects within each other -/
inductive ValueText (fl : Floats) : (d : Nat) → Json → Str → Prop
  | null (d : Nat) : ValueText fl d .null "null".toList
  | true (d : Nat) : ValueText fl d (.bool true) "true".toList
  | false (d : Nat) : ValueText fl d (.bool false) "false".toList
  | num (d : Nat) (q : ℚ) (s : Str) : NumText fl q s → ValueText fl d (.num q) s
  | str (d : Nat) (s t : Str) : CharsText s t → ValueText fl d (.str s) ('"' :: (t ++ ['"']))
  | noItems (d : Nat) (b : Str) : Blanks b → ValueText fl (d + 1) (.arr []) ('[' :: (b ++ [']']))
  | items (d : Nat) (l : List Json) (t : Str) : ItemsText fl d l t → ValueText fl (d + 1) (.arr l) ('[' :: (t ++ [']']))
  | noMembers (d : Nat) (b : Str) : Blanks b → ValueText fl (d + 1) (.obj []) ('{' :: (b ++ ['}']))
  | members (d : Nat) (l : List (Str × Json)) (m : Dict Str Json) (t : Str) : MembersText fl d l t → LastCounts l m →
      ValueText fl (d + 1) (.obj m) ('{' :: (t ++ ['}']))

/-- section 5: items -/
inductive ItemsText (fl : Floats) : (d : Nat) → List Json → Str → Prop
  | one (d : Nat) (x : Json) (a t b : Str) : Blanks a → ValueText fl d x t → Blanks b → ItemsText fl d [x] (a ++ (t ++ b))
  | cons (d : Nat) (x : Json) (l : List Json) (a t b u : Str) : Blanks a → ValueText fl d x t → Blanks b → ItemsText fl d l u →
      ItemsText fl d (x :: l) (a ++ (t ++ (b ++ ',' :: u)))

/-- section 4: members -/
inductive MembersText (fl : Floats) : (d : Nat) → List (Str × Json) → Str → Prop
  | one (d : Nat) (k : Str) (x : Json) (a s b c t e : Str) : Blanks a → CharsText k s → Blanks b → Blanks c → ValueText fl d x t →
      Blanks e → MembersText fl d [(k, x)] (a ++ '"' :: (s ++ '"' :: (b ++ ':' :: (c ++ (t ++ e)))))
  | cons (d : Nat) (k : Str) (x : Json) (l : List (Str × Json)) (a s b c t e u : Str) : Blanks a → CharsText k s → Blanks b →
      Blanks c → ValueText fl d x t → Blanks e → MembersText fl d l u →
      MembersText fl d ((k, x) :: l) (a ++ '"' :: (s ++ '"' :: (b ++ ':' :: (c ++ (t ++ (e ++ ',' :: u))))))

end

/-! ## Documents that are read back -/

/-- a part of a document -/
inductive PartOf : Json → Json → Prop
  | self (j : Json) : PartOf j j
  | item (l : List Json) (x y : Json) : x ∈ l → PartOf x y → PartOf (.arr l) y
  | member (l : List (Str × Json)) (m : Str × Json) (y : Json) : m ∈ l → PartOf m.2 y → PartOf (.obj l) y

/-- at most this many arrays and objects within each other -/
inductive DepthLe : Nat → Json → Prop
  | null (d : Nat) : DepthLe d .null
  | bool (d : Nat) (b : Bool) : DepthLe d (.bool b)
  | num (d : Nat) (q : ℚ) : DepthLe d (.num q)
  | str (d : Nat) (s : Str) : DepthLe d (.str s)
  | arr (d : Nat) (l : List Json) : (∀ x ∈ l, DepthLe d x) → DepthLe (d + 1) (.arr l)
  | obj (d : Nat) (l : List (Str × Json)) : (∀ m ∈ l, DepthLe d m.2) → DepthLe (d + 1) (.obj l)

/-- a number that is no integer is written with a point or an exponent, and read back -/
def FloatKept (fl : Floats) (q : ℚ) : Prop :=
  fl.read (fl.write q) = some q ∧ (∀ c ∈ fl.write q, c ∈ "0123456789-+.eE".toList) ∧
  (∃ c ∈ fl.write q, c = '.' ∨ c = 'e' ∨ c = 'E') ∧ ∃ c r, fl.write q = c :: r ∧ c ∈ "0123456789-".toList

/-- what Python documents are: names in an object differ.  And numbers are kept. -/
def TextKept (fl : Floats) (j : Json) : Prop :=
  (∀ q, PartOf j (.num q) → q.den = 1 ∨ FloatKept fl q) ∧ ∀ l, PartOf j (.obj l) → (l.map Prod.fst).Nodup

end Sigstore.Spec
