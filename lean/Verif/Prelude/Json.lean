import Verif.Prelude.Dict
import Mathlib.Data.Rat.Defs

/-!
# JSON values
-/

namespace Sigstore

/-- A value `json.loads` returns.  Simplification: numbers are finite. -/
inductive Json where
  | null
  | bool (b : Bool)
  | num (q : ℚ)
  | str (s : Str)
  | arr (items : List Json)
  | obj (fields : List (Str × Json))
deriving Repr

namespace Json

mutual

/-- equality of JSON values -/
def beq (a : Json) (b : Json) : Bool :=
  match a, b with
  | .null, .null => true
  | .bool x, .bool y => x == y
  | .num x, .num y => decide (x = y)
  | .str x, .str y => decide (x = y)
  | .arr x, .arr y => beqItems x y
  | .obj x, .obj y => beqFields x y
  | _, _ => false
termination_by structural a

/-- equality of lists of JSON values -/
def beqItems (a b : List Json) : Bool :=
  match a, b with
  | [], [] => true
  | x :: xs, y :: ys => beq x y && beqItems xs ys
  | _, _ => false
termination_by structural a

/-- equality of lists of members -/
def beqFields (a b : List (Str × Json)) : Bool :=
  match a, b with
  | [], [] => true
  | x :: xs, y :: ys => beqField x y && beqFields xs ys
  | _, _ => false
termination_by structural a

/-- equality of members -/
def beqField (a b : Str × Json) : Bool :=
  match a, b with
  | (k, x), (l, y) => decide (k = l) && beq x y
termination_by structural a

end

mutual

theorem beq_iff (a b : Json) : beq a b = true ↔ a = b := by
  cases a <;> cases b <;> simp [beq, beqItems_iff, beqFields_iff]
termination_by structural a

theorem beqItems_iff (a b : List Json) : beqItems a b = true ↔ a = b := by
  match a, b with
  | [], [] => simp [beqItems]
  | [], _ :: _ => simp [beqItems]
  | _ :: _, [] => simp [beqItems]
  | x :: xs, y :: ys => simp [beqItems, beq_iff x y, beqItems_iff xs ys]
termination_by structural a

theorem beqFields_iff (a b : List (Str × Json)) : beqFields a b = true ↔ a = b := by
  match a, b with
  | [], [] => simp [beqFields]
  | [], _ :: _ => simp [beqFields]
  | _ :: _, [] => simp [beqFields]
  | x :: xs, y :: ys => simp [beqFields, beqField_iff x y, beqFields_iff xs ys]
termination_by structural a

theorem beqField_iff (a b : Str × Json) : beqField a b = true ↔ a = b := by
  match a, b with
  | (k, x), (l, y) => simp [beqField, beq_iff x y]
termination_by structural a

end

instance : DecidableEq Json := fun a b => decidable_of_iff (beq a b = true) (beq_iff a b)

end Json

end Sigstore
