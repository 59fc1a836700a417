import Mathlib.Data.Nat.Log
import Verif.Prelude.Basic

/-!
# RFC 6962 section 2.1: Merkle tree hash and audit paths

Written from the RFC, independently of the model of the code.
-/

namespace Sigstore.Rfc6962

/-- "the largest power of two smaller than n" (for `n ≥ 2`). -/
def splitPoint (n : Nat) : Nat := 2 ^ Nat.log 2 (n - 1)

theorem splitPoint_pos (n : Nat) : 0 < splitPoint n := Nat.pow_pos (by omega)

theorem splitPoint_lt {n : Nat} (h : 2 ≤ n) : splitPoint n < n := by
  have := Nat.pow_log_le_self 2 (x := n - 1) (by omega)
  unfold splitPoint; omega

theorem le_two_mul_splitPoint {n : Nat} (h : 2 ≤ n) : n ≤ 2 * splitPoint n := by
  have := Nat.lt_pow_succ_log_self (b := 2) (by omega) (n - 1)
  unfold splitPoint
  rw [Nat.pow_succ] at this
  omega

variable (H : Bytes → Bytes)

/-- Merkle Tree Hash of an ordered list of entries. -/
def mth (D : List Bytes) : Bytes :=
  match D with
  | [] => H []
  | [d] => H (0 :: d)
  | d₀ :: d₁ :: ds =>
    let D := d₀ :: d₁ :: ds
    let k := splitPoint D.length
    H (1 :: (mth (D.take k) ++ mth (D.drop k)))
termination_by D.length
decreasing_by
  · have := splitPoint_lt (n := (d₀ :: d₁ :: ds).length) (by simp)
    simp only [List.length_take]; omega
  · have := splitPoint_pos (d₀ :: d₁ :: ds).length
    simp only [List.length_drop]
    simp only [List.length_cons] at *
    omega

/-- Merkle audit path `PATH(m, D)` of entry `m` (`m < |D|`), from the leaf upwards. -/
def path (m : Nat) (D : List Bytes) : List Bytes :=
  match D with
  | [] => []
  | [_] => []
  | d₀ :: d₁ :: ds =>
    let D := d₀ :: d₁ :: ds
    let k := splitPoint D.length
    if m < k then path m (D.take k) ++ [mth H (D.drop k)]
    else path (m - k) (D.drop k) ++ [mth H (D.take k)]
termination_by D.length
decreasing_by
  · have := splitPoint_lt (n := (d₀ :: d₁ :: ds).length) (by simp)
    simp only [List.length_take]; omega
  · have := splitPoint_pos (d₀ :: d₁ :: ds).length
    simp only [List.length_drop]
    simp only [List.length_cons] at *
    omega

/-- Number of hashes in the audit path of entry `m` of a tree with `n` leaves. -/
def pathLength (m n : Nat) : Nat :=
  if h : n < 2 then 0
  else
    if m < splitPoint n then pathLength m (splitPoint n) + 1
    else pathLength (m - splitPoint n) (n - splitPoint n) + 1
termination_by n
decreasing_by
  · exact splitPoint_lt (by omega)
  · have := splitPoint_pos n; omega

/-- Every byte string hashed when computing `mth H D`. -/
def hashedByTree (D : List Bytes) : List Bytes :=
  match D with
  | [] => [[]]
  | [d] => [0 :: d]
  | d₀ :: d₁ :: ds =>
    let D := d₀ :: d₁ :: ds
    let k := splitPoint D.length
    (1 :: (mth H (D.take k) ++ mth H (D.drop k))) ::
      (hashedByTree (D.take k) ++ hashedByTree (D.drop k))
termination_by D.length
decreasing_by
  · have := splitPoint_lt (n := (d₀ :: d₁ :: ds).length) (by simp)
    simp only [List.length_take]; omega
  · have := splitPoint_pos (d₀ :: d₁ :: ds).length
    simp only [List.length_drop]
    simp only [List.length_cons] at *
    omega

/-! ## Recomputing a root from an audit path -/

/-- Directions prescribed by the RFC 6962 recursion, leaf first: `false` means that
the running hash is the left child, `true` that it is the right child. -/
def rfcDirs (i n : Nat) : List Bool :=
  if _h : n < 2 then []
  else
    if i < splitPoint n then rfcDirs i (splitPoint n) ++ [false]
    else rfcDirs (i - splitPoint n) (n - splitPoint n) ++ [true]
termination_by n
decreasing_by
  · exact splitPoint_lt (by omega)
  · have := splitPoint_pos n; omega

/-- the string hashed in one step -/
def stepInput (seed : Bytes) (b : Bool) (h : Bytes) : Bytes :=
  1 :: (if b then h ++ seed else seed ++ h)

/-- fold the proof hashes, leaf first -/
def runSteps (seed : Bytes) : List (Bool × Bytes) → Bytes
  | [] => seed
  | (b, h) :: s => runSteps (H (stepInput seed b h)) s

/-- the strings hashed by `runSteps` -/
def stepInputs (seed : Bytes) : List (Bool × Bytes) → List Bytes
  | [] => []
  | (b, h) :: s => stepInput seed b h :: stepInputs (H (stepInput seed b h)) s

/-- Every byte string hashed when the root is recomputed from entry `body` and proof hashes `hashes`
with the given directions. -/
def hashedByCheck (dirs : List Bool) (body : Bytes) (hashes : List Bytes) : List Bytes :=
  (0 :: body) :: stepInputs H (H (0 :: body)) (dirs.zip hashes)

end Sigstore.Rfc6962
