import Verif.Model.Merkle
import Verif.Spec.Rfc6962
import Mathlib.Tactic.Ring

/-!
# Lemmas connecting the iterative proof check with the recursive RFC 6962 definitions
-/

namespace Sigstore.Merkle

open Rfc6962

/-! ## Bits -/

theorem bitLength_le_iff (j n : Nat) : bitLength n ≤ j ↔ n < 2 ^ j := by
  unfold bitLength
  split
  · rename_i h; subst h
    have := Nat.pow_pos (n := j) (show 0 < 2 by omega)
    omega
  · rename_i h
    rw [← Nat.log2_lt h]; omega

theorem bitLength_eq_succ {n j : Nat} (h1 : 2 ^ j ≤ n) (h2 : n < 2 ^ (j + 1)) :
    bitLength n = j + 1 := by
  have a := (bitLength_le_iff (j + 1) n).2 h2
  have b : ¬ bitLength n ≤ j := fun h => by have := (bitLength_le_iff j n).1 h; omega
  omega

theorem onesBelow_add (f : Nat) : ∀ (n : Nat), n < 2 ^ f → ∀ g, onesBelow (f + g) n = onesBelow f n := by
  induction f with
  | zero =>
    intro n h g
    have : n = 0 := by simpa using h
    subst this
    induction g with
    | zero => rfl
    | succ g ih => rw [Nat.zero_add] at *; simp [onesBelow] at *; exact ih
  | succ f ih =>
    intro n h g
    rw [show f + 1 + g = (f + g) + 1 by omega, onesBelow, onesBelow,
      ih (n / 2) (by rw [Nat.pow_succ] at h; omega)]

theorem popCount_eq {n f : Nat} (h : n < 2 ^ f) : popCount n = onesBelow f n := by
  have hb := (bitLength_le_iff f n).2 h
  obtain ⟨g, rfl⟩ := Nat.exists_eq_add_of_le hb
  rw [onesBelow_add _ _ ((bitLength_le_iff _ n).1 (Nat.le_refl _))]; rfl

theorem onesBelow_top (m : Nat) : ∀ a, a < 2 ^ m → onesBelow (m + 1) (2 ^ m + a) = onesBelow m a + 1 := by
  induction m with
  | zero =>
    intro a h
    have : a = 0 := by simpa using h
    subst this
    decide
  | succ m ih =>
    intro a h
    have h2 : (2 ^ (m + 1) + a) / 2 = 2 ^ m + a / 2 := by rw [Nat.pow_succ]; omega
    have h3 : (2 ^ (m + 1) + a) % 2 = a % 2 := by rw [Nat.pow_succ]; omega
    rw [onesBelow, h2, h3, ih (a / 2) (by rw [Nat.pow_succ] at h; omega), onesBelow]
    omega

theorem popCount_add_pow (m a : Nat) (h : a < 2 ^ m) : popCount (2 ^ m + a) = popCount a + 1 := by
  rw [popCount_eq (f := m + 1) (by rw [Nat.pow_succ]; omega), onesBelow_top m a h, popCount_eq h]

theorem and_one_eq_zero_iff (x i : Nat) : ((x >>> i) &&& 1 = 0) ↔ x.testBit i = false := by
  have h : x.testBit i = ((x >>> i) % 2 == 1) := by
    rw [Nat.testBit, Nat.one_and_eq_mod_two]
    cases h : (x >>> i) % 2 with
    | zero => rfl
    | succ m => have : m = 0 := by omega
                subst this; rfl
  rw [h, Nat.and_one_is_mod]
  simp

theorem splitPoint_pow (j : Nat) : splitPoint (2 ^ (j + 1)) = 2 ^ j := by
  have h1 : 0 < 2 ^ j := Nat.pow_pos (by omega)
  have h : Nat.log 2 (2 ^ (j + 1) - 1) = j := by
    rw [Nat.log_eq_iff (Or.inr ⟨by omega, by rw [Nat.pow_succ]; omega⟩)]
    constructor
    · rw [Nat.pow_succ]; omega
    · omega
  rw [splitPoint, h]

theorem testBit_sub_pow {i j m : Nat} (h2 : 2 ^ j ≤ i) (hm : m < j) :
    (i - 2 ^ j).testBit m = i.testBit m := by
  obtain ⟨a, rfl⟩ := Nat.exists_eq_add_of_le h2
  rw [Nat.add_sub_cancel_left, Nat.testBit_two_pow_add_gt hm]

theorem testBit_top {i j : Nat} (h1 : i < 2 ^ (j + 1)) (h2 : 2 ^ j ≤ i) : i.testBit j = true := by
  obtain ⟨a, rfl⟩ := Nat.exists_eq_add_of_le h2
  rw [Nat.testBit_two_pow_add_eq, Nat.testBit_lt_two_pow (by rw [Nat.pow_succ] at h1; omega)]
  rfl

theorem xor_two_pow_add {j a b : Nat} (ha : a < 2 ^ j) (hb : b < 2 ^ j) :
    (2 ^ j + a) ^^^ (2 ^ j + b) = a ^^^ b := by
  apply Nat.eq_of_testBit_eq
  intro m
  rw [Nat.testBit_xor, Nat.testBit_xor]
  rcases Nat.lt_trichotomy m j with h | h | h
  · rw [Nat.testBit_two_pow_add_gt h, Nat.testBit_two_pow_add_gt h]
  · subst h
    rw [Nat.testBit_two_pow_add_eq, Nat.testBit_two_pow_add_eq]
    cases a.testBit m <;> cases b.testBit m <;> rfl
  · have hle : 2 ^ (j + 1) ≤ 2 ^ m := Nat.pow_le_pow_right (by omega) h
    have hs : 2 ^ (j + 1) = 2 ^ j + 2 ^ j := by rw [Nat.pow_succ]; omega
    rw [Nat.testBit_lt_two_pow (by omega), Nat.testBit_lt_two_pow (by omega),
      Nat.testBit_lt_two_pow (by omega), Nat.testBit_lt_two_pow (by omega)]

theorem shiftRight_two_pow_add {j m a : Nat} (h : m ≤ j) :
    (2 ^ j + a) >>> m = 2 ^ (j - m) + a >>> m := by
  rw [Nat.shiftRight_eq_div_pow, Nat.shiftRight_eq_div_pow]
  have : 2 ^ j = 2 ^ (j - m) * 2 ^ m := by rw [← Nat.pow_add]; congr 1; omega
  rw [this, Nat.mul_comm, Nat.mul_add_div (Nat.pow_pos (by omega))]

/-- decomposition when the leaf is in the (perfect) left subtree -/
theorem decomp_left {j i n : Nat} (hi : i < 2 ^ j) (hn : 2 ^ j < n) (hn2 : n ≤ 2 * 2 ^ j) :
    decompInclusionProof i n = (j + 1, 0) := by
  obtain ⟨s, rfl⟩ : ∃ s, n = s + 1 := ⟨n - 1, by omega⟩
  have hs2 : 2 ^ (j + 1) = 2 ^ j + 2 ^ j := by rw [Nat.pow_succ]; omega
  have hb : (i ^^^ s).testBit j = true := by
    rw [Nat.testBit_xor, Nat.testBit_lt_two_pow hi, testBit_top (by omega) (by omega)]; rfl
  have h1 : 2 ^ j ≤ i ^^^ s := Nat.ge_two_pow_of_testBit hb
  have h2 : i ^^^ s < 2 ^ (j + 1) := Nat.xor_lt_two_pow (by omega) (by omega)
  have hbl : bitLength (xorPred i (s + 1)) = j + 1 := bitLength_eq_succ h1 h2
  unfold decompInclusionProof
  rw [hbl]
  dsimp only
  have : i >>> (j + 1) = 0 := by
    rw [Nat.shiftRight_eq_div_pow]; exact Nat.div_eq_of_lt (by omega)
  rw [this]
  rfl

/-- decomposition when the leaf is in the right subtree -/
theorem decomp_right {j i n : Nat} (hi : i < n) (hi2 : 2 ^ j ≤ i) (hn2 : n ≤ 2 * 2 ^ j) :
    (decompInclusionProof i n).1 = (decompInclusionProof (i - 2 ^ j) (n - 2 ^ j)).1 ∧
    (decompInclusionProof i n).2 = (decompInclusionProof (i - 2 ^ j) (n - 2 ^ j)).2 + 1 ∧
    (decompInclusionProof i n).1 ≤ j := by
  obtain ⟨a, rfl⟩ := Nat.exists_eq_add_of_le hi2
  obtain ⟨b, rfl⟩ : ∃ b, n = 2 ^ j + b + 1 := ⟨n - 1 - 2 ^ j, by omega⟩
  have ha : a < 2 ^ j := by omega
  have hb : b < 2 ^ j := by omega
  have e1 : 2 ^ j + a - 2 ^ j = a := by omega
  have e2 : 2 ^ j + b + 1 - 2 ^ j = b + 1 := by omega
  rw [e1, e2]
  have hx : xorPred (2 ^ j + a) (2 ^ j + b + 1) = xorPred a (b + 1) := xor_two_pow_add ha hb
  have hlt : xorPred a (b + 1) < 2 ^ j := Nat.xor_lt_two_pow ha hb
  have hle := (bitLength_le_iff j _).2 hlt
  unfold decompInclusionProof
  rw [hx]
  refine ⟨rfl, ?_, hle⟩
  dsimp only
  rw [shiftRight_two_pow_add hle, popCount_add_pow]
  rw [Nat.shiftRight_eq_div_pow]
  have : 2 ^ j = 2 ^ (j - bitLength (xorPred a (b + 1))) * 2 ^ bitLength (xorPred a (b + 1)) := by
    rw [← Nat.pow_add]; congr 1; omega
  rw [this] at ha
  exact Nat.div_lt_of_lt_mul (by rw [Nat.mul_comm]; exact ha)


/-! ## Directions -/

/-- Direction of each proof hash as the code uses them, leaf first: `false` means the running hash
is the left child, `true` that it is the right child. -/
def codeDirs (i n : Nat) : List Bool :=
  (List.range (decompInclusionProof i n).1).map i.testBit ++
    List.replicate (decompInclusionProof i n).2 true

theorem length_rfcDirs : ∀ (n i : Nat), (rfcDirs i n).length = pathLength i n := by
  intro n
  induction n using Nat.strong_induction_on with
  | _ n ih =>
    intro i
    rw [rfcDirs, pathLength]
    split
    · rfl
    · rename_i hn
      have hk1 := splitPoint_lt (n := n) (by omega)
      have hk0 := splitPoint_pos n
      split
      · simp [ih _ hk1]
      · simp [ih (n - splitPoint n) (by omega)]

theorem rfcDirs_pow : ∀ (j i : Nat), i < 2 ^ j → rfcDirs i (2 ^ j) = (List.range j).map i.testBit := by
  intro j
  induction j with
  | zero => intro i _; rw [rfcDirs]; simp
  | succ j ih =>
    intro i hi
    have h1 : 0 < 2 ^ j := Nat.pow_pos (by omega)
    have hs : 2 ^ (j + 1) - 2 ^ j = 2 ^ j := by rw [Nat.pow_succ]; omega
    rw [rfcDirs, dif_neg (by rw [Nat.pow_succ]; omega), splitPoint_pow, hs, List.range_succ,
      List.map_append]
    split
    · rename_i hk
      rw [ih i hk]
      simp [Nat.testBit_lt_two_pow hk]
    · rename_i hk
      rw [ih (i - 2 ^ j) (by rw [Nat.pow_succ] at hi; omega)]
      rw [List.map_singleton, testBit_top hi (by omega)]
      congr 1
      apply List.map_congr_left
      intro m hm
      exact testBit_sub_pow (by omega) (by simpa using hm)

/-- The code walks the tree exactly as the RFC recursion does. -/
theorem codeDirs_eq_rfcDirs : ∀ (n i : Nat), i < n → codeDirs i n = rfcDirs i n := by
  intro n
  induction n using Nat.strong_induction_on with
  | _ n ih =>
    intro i hi
    by_cases hn : n < 2
    · have h1 : n = 1 := by omega
      have h0 : i = 0 := by omega
      subst h1; subst h0
      rw [rfcDirs, dif_pos hn]
      decide
    · have hk1 := splitPoint_lt (n := n) (by omega)
      have hk2 := le_two_mul_splitPoint (n := n) (by omega)
      have hk0 := splitPoint_pos n
      rw [rfcDirs, dif_neg hn]
      split
      · rename_i hlt
        unfold splitPoint at *
        rw [codeDirs, decomp_left hlt hk1 hk2, rfcDirs_pow _ _ hlt, List.range_succ, List.map_append]
        simp [Nat.testBit_lt_two_pow hlt]
      · rename_i hge
        rw [← ih (n - splitPoint n) (by omega) (i - splitPoint n) (by omega)]
        obtain ⟨ha, hb, hc⟩ := decomp_right (j := Nat.log 2 (n - 1)) (i := i) (n := n) hi
          (by unfold splitPoint at hge; omega) hk2
        unfold splitPoint at *
        rw [codeDirs, codeDirs, hb, ha, List.replicate_succ', ← List.append_assoc]
        congr 2
        apply List.map_congr_left
        intro m hm
        exact (testBit_sub_pow (by omega) (by simp at hm; omega)).symm

theorem length_codeDirs (i n : Nat) :
    (codeDirs i n).length = (decompInclusionProof i n).1 + (decompInclusionProof i n).2 := by
  simp [codeDirs]

/-! ## Running a sequence of steps -/

variable (H : Bytes → Bytes)

theorem runSteps_append (s t : List (Bool × Bytes)) : ∀ seed,
    runSteps H seed (s ++ t) = runSteps H (runSteps H seed s) t := by
  induction s with
  | nil => intro seed; rfl
  | cons a s ih => intro seed; obtain ⟨b, h⟩ := a; simp only [List.cons_append, runSteps, ih]

theorem stepInputs_append (s t : List (Bool × Bytes)) : ∀ seed,
    stepInputs H seed (s ++ t) = stepInputs H seed s ++ stepInputs H (runSteps H seed s) t := by
  induction s with
  | nil => intro seed; rfl
  | cons a s ih => intro seed; obtain ⟨b, h⟩ := a; simp only [List.cons_append, stepInputs, runSteps, ih]

theorem chainInnerFrom_eq (x : Nat) (hs : List Bytes) : ∀ (i : Nat) (seed : Bytes),
    chainInnerFrom H i seed hs x =
      runSteps H seed (((List.range' i hs.length).map x.testBit).zip hs) := by
  induction hs with
  | nil => intro i seed; simp [chainInnerFrom, runSteps]
  | cons a hs ih =>
    intro i seed
    rw [List.length_cons, List.range'_succ, List.map_cons, List.zip_cons_cons, runSteps,
      chainInnerFrom]
    by_cases hb : x.testBit i = false
    · rw [if_pos ((and_one_eq_zero_iff x i).2 hb), ih, hb]; rfl
    · rw [if_neg (fun h => hb ((and_one_eq_zero_iff x i).1 h)), ih]
      have : x.testBit i = true := by simpa using hb
      rw [this]; rfl

theorem chainBorderRight_eq (hs : List Bytes) : ∀ seed : Bytes,
    chainBorderRight H seed hs = runSteps H seed ((List.replicate hs.length true).zip hs) := by
  induction hs with
  | nil => intro seed; rfl
  | cons a hs ih =>
    intro seed
    rw [List.length_cons, List.replicate_succ, List.zip_cons_cons, runSteps, chainBorderRight, ih]; rfl

/-- What `verify_merkle_inclusion` recomputes as root from the leaf hash. -/
def calcRoot (i n : Nat) (lh : Bytes) (p : List Bytes) : Bytes :=
  let inner := (decompInclusionProof i n).1
  chainBorderRight H (chainInner H lh (p.take inner) i) (p.drop inner)

theorem calcRoot_eq (i n : Nat) (lh : Bytes) (p : List Bytes)
    (hl : p.length = (decompInclusionProof i n).1 + (decompInclusionProof i n).2) :
    calcRoot H i n lh p = runSteps H lh ((codeDirs i n).zip p) := by
  unfold calcRoot codeDirs chainInner
  dsimp only
  rw [chainInnerFrom_eq, chainBorderRight_eq, ← runSteps_append]
  congr 1
  have h1 : (p.take (decompInclusionProof i n).1).length = (decompInclusionProof i n).1 := by
    rw [List.length_take]; omega
  have h2 : (p.drop (decompInclusionProof i n).1).length = (decompInclusionProof i n).2 := by
    rw [List.length_drop]; omega
  conv => rhs; rw [← List.take_append_drop (decompInclusionProof i n).1 p]
  rw [List.zip_append (by simp [h1]), h1, h2, List.range_eq_range']

theorem verify_ok_iff (body : Bytes) (p : InclusionProof) :
    verifyMerkleInclusion H body p = .ok () ↔
      p.hashes.length = (codeDirs p.logIndex p.treeSize).length ∧
      runSteps H (H (0 :: body)) ((codeDirs p.logIndex p.treeSize).zip p.hashes) = p.rootHash := by
  rw [length_codeDirs]
  unfold verifyMerkleInclusion
  dsimp only
  split
  · simp_all
  · rename_i hl
    have hl : p.hashes.length = _ := not_not.1 hl
    have hc := calcRoot_eq H p.logIndex p.treeSize (H (0 :: body)) p.hashes hl
    unfold calcRoot at hc
    dsimp only at hc
    unfold hashLeaf
    rw [hc]
    simp [hl]

theorem verify_error (body : Bytes) (p : InclusionProof) (e : Exc)
    (h : verifyMerkleInclusion H body p = .error e) : e = .verification := by
  unfold verifyMerkleInclusion at h
  dsimp only at h
  split at h
  · simpa using h.symm
  · split at h
    · simpa using h.symm
    · simp at h

/-! ## Relation to the RFC 6962 tree -/

theorem length_path (D : List Bytes) : ∀ (n : Nat) (i : Nat), D.length = n → i < n →
    (path H i D).length = pathLength i n := by
  intro n
  induction n using Nat.strong_induction_on generalizing D with
  | _ n ih =>
    intro i hD hi
    match D, hD with
    | [], hD => simp at hD; omega
    | [d], hD =>
      have : n = 1 := by simpa using hD.symm
      subst this
      rw [path, pathLength]; simp
    | d₀ :: d₁ :: ds, hD =>
      have hn : ¬ n < 2 := by simp at hD; omega
      have hk1 := splitPoint_lt (n := n) (by omega)
      have hk0 := splitPoint_pos n
      rw [path, pathLength, dif_neg hn]
      rw [hD]
      split
      · rename_i hlt
        rw [List.length_append, List.length_singleton,
          ih (splitPoint n) hk1 _ i (by rw [List.length_take]; omega) hlt]
      · rw [List.length_append, List.length_singleton,
          ih (n - splitPoint n) (by omega) _ (i - splitPoint n) (by rw [List.length_drop]; omega) (by omega)]

/-- The honest audit path reconstructs the tree head. -/
theorem runSteps_path (D : List Bytes) : ∀ (n : Nat) (i : Nat) (d : Bytes), D.length = n →
    D[i]? = some d → runSteps H (H (0 :: d)) ((rfcDirs i n).zip (path H i D)) = mth H D := by
  intro n
  induction n using Nat.strong_induction_on generalizing D with
  | _ n ih =>
    intro i d hD hi
    have hin : i < n := by
      have := (List.getElem?_eq_some_iff.1 hi).1
      omega
    match D, hD with
    | [], hD => simp at hi
    | [x], hD =>
      have h0 : i = 0 := by simp at hD; omega
      subst h0
      have : x = d := by simpa using hi
      subst this
      rw [path, mth]; simp [runSteps]
    | d₀ :: d₁ :: ds, hD =>
      have hn : ¬ n < 2 := by simp at hD; omega
      have hk1 := splitPoint_lt (n := n) (by omega)
      have hk0 := splitPoint_pos n
      rw [path, mth, rfcDirs, dif_neg hn]
      rw [hD]
      split
      · rename_i hlt
        rw [List.zip_append (by
            rw [length_rfcDirs, length_path H _ (splitPoint n) i (by rw [List.length_take]; omega) hlt]),
          runSteps_append,
          ih (splitPoint n) hk1 _ i d (by rw [List.length_take]; omega)
            (by rw [List.getElem?_take_of_lt hlt]; exact hi)]
        rfl
      · rename_i hge
        rw [List.zip_append (by
            rw [length_rfcDirs, length_path H _ (n - splitPoint n) (i - splitPoint n)
              (by rw [List.length_drop]; omega) (by omega)]),
          runSteps_append,
          ih (n - splitPoint n) (by omega) _ (i - splitPoint n) d (by rw [List.length_drop]; omega)
            (by rw [List.getElem?_drop, ← hi]; congr 1; omega)]
        rfl

/-- Leaf of the tree over `D` reached by following directions from the root. -/
def lookupDirs : List Bool → List Bytes → Option Bytes
  | [], [d] => some d
  | b :: bs, d₀ :: d₁ :: ds =>
    let D := d₀ :: d₁ :: ds
    lookupDirs bs (if b then D.drop (splitPoint D.length) else D.take (splitPoint D.length))
  | _, _ => none

theorem lookupDirs_mem : ∀ (bs : List Bool) (D : List Bytes) (x : Bytes),
    lookupDirs bs D = some x → x ∈ D := by
  intro bs
  induction bs with
  | nil =>
    intro D x h
    match D, h with
    | [d], h => simp [lookupDirs] at h; simp [h]
  | cons b bs ih =>
    intro D x h
    match D, h with
    | d₀ :: d₁ :: ds, h =>
      rw [lookupDirs] at h
      have := ih _ _ h
      cases b with
      | true => exact List.mem_of_mem_drop this
      | false => exact List.mem_of_mem_take this

theorem lookupDirs_rfcDirs : ∀ (n i : Nat) (D : List Bytes) (x : Bytes), D.length = n → i < n →
    lookupDirs (rfcDirs i n).reverse D = some x → D[i]? = some x := by
  intro n
  induction n using Nat.strong_induction_on with
  | _ n ih =>
    intro i D x hD hi h
    match D, hD with
    | [], hD => simp at hD; omega
    | [d], hD =>
      have : n = 1 := by simpa using hD.symm
      subst this
      have h0 : i = 0 := by omega
      subst h0
      rw [rfcDirs] at h
      simpa [lookupDirs] using h
    | d₀ :: d₁ :: ds, hD =>
      have hn : ¬ n < 2 := by simp at hD; omega
      have hk1 := splitPoint_lt (n := n) (by omega)
      have hk0 := splitPoint_pos n
      rw [rfcDirs, dif_neg hn] at h
      split at h
      · rename_i hlt
        rw [List.reverse_append, List.reverse_singleton, List.singleton_append, lookupDirs, hD] at h
        have := ih (splitPoint n) hk1 i _ x (by simp only [Bool.false_eq_true, if_false, List.length_take]; omega) hlt h
        simp only [Bool.false_eq_true, if_false] at this
        rwa [List.getElem?_take_of_lt hlt] at this
      · rename_i hge
        rw [List.reverse_append, List.reverse_singleton, List.singleton_append, lookupDirs, hD] at h
        have := ih (n - splitPoint n) (by omega) (i - splitPoint n) _ x
          (by simp only [if_true, List.length_drop]; omega) (by omega) h
        simp only [if_true] at this
        rw [List.getElem?_drop] at this
        rw [← this]; congr 1; omega

theorem length_runSteps {L : Nat} (hL : ∀ x, (H x).length = L) (s : List (Bool × Bytes)) : ∀ seed,
    seed.length = L → (runSteps H seed s).length = L := by
  induction s with
  | nil => intro seed h; exact h
  | cons a s ih => intro seed h; obtain ⟨b, x⟩ := a; exact ih _ (hL _)

theorem length_mth {L : Nat} (hL : ∀ x, (H x).length = L) (D : List Bytes) :
    (mth H D).length = L := by
  match D with
  | [] => rw [mth]; exact hL _
  | [d] => rw [mth]; exact hL _
  | d₀ :: d₁ :: ds => rw [mth]; exact hL _

/-- If a chain of steps from a leaf hash ends in the head of the tree over `D`, and the hash is
injective on the strings that were hashed, then the leaf is the one the directions lead to. -/
theorem runSteps_sound {L : Nat} (hL : ∀ x, (H x).length = L) (body : Bytes) (S : Bytes → Prop)
    (inj : ∀ x y, S x → S y → H x = H y → x = y) (hbody : S (0 :: body)) :
    ∀ (k : Nat) (s : List (Bool × Bytes)) (D : List Bytes), s.length = k →
      (∀ x ∈ stepInputs H (H (0 :: body)) s, S x) → (∀ x ∈ hashedByTree H D, S x) →
      runSteps H (H (0 :: body)) s = mth H D →
      lookupDirs (s.map Prod.fst).reverse D = some body := by
  intro k
  induction k with
  | zero =>
    intro s D hs _ hD h
    have : s = [] := List.length_eq_zero_iff.1 hs
    subst this
    rw [runSteps] at h
    match D with
    | [] =>
      rw [mth] at h
      have := inj _ _ hbody (hD [] (by simp [hashedByTree])) h
      simp at this
    | [d] =>
      rw [mth] at h
      have := inj _ _ hbody (hD (0 :: d) (by simp [hashedByTree])) h
      simp at this
      simp [lookupDirs, this]
    | d₀ :: d₁ :: ds =>
      rw [mth] at h
      have := inj _ _ hbody (hD _ (by rw [hashedByTree]; exact List.mem_cons_self)) h
      simp at this
  | succ k ih =>
    intro s D hs hS hD h
    obtain ⟨s, ⟨b, x⟩, rfl⟩ : ∃ t a, s = t ++ [a] := by
      rcases List.eq_nil_or_concat s with h | ⟨t, a, h⟩
      · subst h; simp at hs
      · exact ⟨t, a, by simpa using h⟩
    have hs' : s.length = k := by simpa using hs
    rw [runSteps_append, runSteps, runSteps] at h
    rw [stepInputs_append] at hS
    have hin : S (stepInput (runSteps H (H (0 :: body)) s) b x) :=
      hS _ (by simp [stepInputs])
    have hS' : ∀ x ∈ stepInputs H (H (0 :: body)) s, S x := fun y hy => hS y (by simp [hy])
    match D with
    | [] =>
      rw [mth] at h
      have := inj _ _ hin (hD [] (by simp [hashedByTree])) h
      simp [stepInput] at this
    | [d] =>
      rw [mth] at h
      have := inj _ _ hin (hD (0 :: d) (by simp [hashedByTree])) h
      simp [stepInput] at this
    | d₀ :: d₁ :: ds =>
      rw [mth] at h
      rw [hashedByTree] at hD
      have heq := inj _ _ hin (hD _ List.mem_cons_self) h
      rw [stepInput, List.cons.injEq] at heq
      have heq := heq.2
      have hlen := length_runSteps H hL s (H (0 :: body)) (hL _)
      rw [List.map_append, List.map_singleton, List.reverse_append, List.reverse_singleton,
        List.singleton_append, lookupDirs]
      cases b with
      | false =>
        rw [if_neg (by simp)] at heq
        have := (List.append_inj heq (by rw [hlen, length_mth H hL])).1
        rw [if_neg (by simp)]
        exact ih s _ hs' hS' (fun y hy => hD y (List.mem_cons_of_mem _ (List.mem_append_left _ hy))) this
      | true =>
        rw [if_pos rfl] at heq
        have := (List.append_inj' heq (by rw [hlen, length_mth H hL])).2
        rw [if_pos rfl]
        exact ih s _ hs' hS' (fun y hy => hD y (List.mem_cons_of_mem _ (List.mem_append_right _ hy))) this

/-- Two chains with the same directions and the same result started from the same leaf hash. -/
theorem runSteps_inj {L : Nat} (hL : ∀ x, (H x).length = L) (s₁ s₂ : Bytes) (h₁ : s₁.length = L)
    (h₂ : s₂.length = L) (S : Bytes → Prop) (inj : ∀ x y, S x → S y → H x = H y → x = y) :
    ∀ (k : Nat) (dirs : List Bool) (p q : List Bytes), dirs.length = k → p.length = k → q.length = k →
      (∀ x ∈ stepInputs H s₁ (dirs.zip p), S x) → (∀ x ∈ stepInputs H s₂ (dirs.zip q), S x) →
      runSteps H s₁ (dirs.zip p) = runSteps H s₂ (dirs.zip q) → s₁ = s₂ := by
  intro k
  induction k with
  | zero =>
    intro dirs p q hd hp hq _ _ h
    have : dirs = [] := List.length_eq_zero_iff.1 hd
    subst this
    simpa [runSteps] using h
  | succ k ih =>
    intro dirs p q hd hp hq hS₁ hS₂ h
    have snoc : ∀ {α : Type} (l : List α), l.length = k + 1 → ∃ (t : List α) (a : α), l = t ++ [a] := by
      intro α l hl
      rcases List.eq_nil_or_concat l with h | ⟨t, a, h⟩
      · subst h; simp at hl
      · exact ⟨t, a, by simpa using h⟩
    obtain ⟨dirs, b, rfl⟩ := snoc dirs hd
    obtain ⟨p, x, rfl⟩ := snoc p hp
    obtain ⟨q, y, rfl⟩ := snoc q hq
    simp only [List.length_append, List.length_singleton, Nat.add_right_cancel_iff] at hd hp hq
    rw [List.zip_append (by omega), stepInputs_append] at hS₁ hS₂
    rw [List.zip_append (by omega), List.zip_append (by omega), runSteps_append, runSteps_append] at h
    simp only [List.zip_cons_cons, List.zip_nil_right, runSteps, stepInputs] at h hS₁ hS₂
    have heq := inj _ _ (hS₁ _ (by simp)) (hS₂ _ (by simp)) h
    refine ih dirs p q hd hp hq (fun z hz => hS₁ z (by simp [hz])) (fun z hz => hS₂ z (by simp [hz])) ?_
    rw [stepInput, stepInput, List.cons.injEq] at heq
    have hl₁ := length_runSteps H hL (dirs.zip p) s₁ h₁
    have hl₂ := length_runSteps H hL (dirs.zip q) s₂ h₂
    cases b with
    | false => exact (List.append_inj heq.2 (by omega)).1
    | true => exact (List.append_inj' heq.2 (by omega)).2

end Sigstore.Merkle
