import Verif.Lemmas.Merkle

/-!
# C01, C02, C03: Merkle inclusion proofs
-/

namespace Sigstore.Props

open Sigstore.Merkle Sigstore.Rfc6962

/-- A small concrete "hash" with one-byte output, used in the examples. -/
def toyHash (x : Bytes) : Bytes := [x.foldl (fun a b => a * 37 + b + 11) 0]

/-- **C01** Every honest inclusion proof is accepted: for every log `D` and every entry `d` at index
`i`, the RFC 6962 audit path verifies against the RFC 6962 tree head. -/
theorem C01_honest_proof_accepted (H : Bytes → Bytes) (D : List Bytes) (i : Nat) (d : Bytes)
    (h : D[i]? = some d) (ck : Option Str) :
    verifyMerkleInclusion H d
      { logIndex := i, treeSize := D.length, rootHash := mth H D, hashes := path H i D,
        checkpoint := ck } = .ok () := by
  have hi : i < D.length := (List.getElem?_eq_some_iff.1 h).1
  rw [verify_ok_iff]
  dsimp only
  rw [codeDirs_eq_rfcDirs _ _ hi]
  exact ⟨by rw [length_rfcDirs, length_path H D _ i rfl hi], runSteps_path H D _ i d rfl h⟩

/-- the hypothesis of `C01` is satisfiable, with a three-leaf log -/
example : verifyMerkleInclusion toyHash [20]
    { logIndex := 1, treeSize := 3, rootHash := mth toyHash [[10], [20], [30]],
      hashes := path toyHash 1 [[10], [20], [30]], checkpoint := none } = .ok () :=
  C01_honest_proof_accepted toyHash [[10], [20], [30]] 1 [20] rfl none

/-- **C02** (sizes agree) An accepted proof for index `i < n` against the head of a log of `n`
leaves shows that the body is leaf `i`, provided the hash has fixed output length and has no
collision among the strings hashed when building that head and when checking that proof. -/
theorem C02_accepted_is_leaf (H : Bytes → Bytes) (L : Nat) (hL : ∀ x, (H x).length = L)
    (D : List Bytes) (body : Bytes) (p : InclusionProof)
    (hsize : p.treeSize = D.length) (hidx : p.logIndex < p.treeSize)
    (hroot : p.rootHash = mth H D)
    (nocoll : ∀ x ∈ hashedByTree H D ++ hashedByCheck H (rfcDirs p.logIndex p.treeSize) body p.hashes,
      ∀ y ∈ hashedByTree H D ++ hashedByCheck H (rfcDirs p.logIndex p.treeSize) body p.hashes,
        H x = H y → x = y)
    (hok : verifyMerkleInclusion H body p = .ok ()) :
    D[p.logIndex]? = some body := by
  rw [verify_ok_iff, codeDirs_eq_rfcDirs _ _ hidx, hroot] at hok
  obtain ⟨hlen, hrun⟩ := hok
  have hl : lookupDirs ((rfcDirs p.logIndex p.treeSize).zip p.hashes |>.map Prod.fst).reverse D
      = some body := by
    refine runSteps_sound H hL body
      (fun x => x ∈ hashedByTree H D ++ hashedByCheck H (rfcDirs p.logIndex p.treeSize) body p.hashes)
      (fun x y hx hy => nocoll x hx y hy) (by simp [hashedByCheck]) _ _ D rfl ?_ ?_ hrun
    · intro x hx; simp [hashedByCheck, hx]
    · intro x hx; simp [hx]
  rw [List.map_fst_zip (by omega)] at hl
  rw [hsize] at hl
  exact lookupDirs_rfcDirs D.length _ D body rfl (by omega) hl

/-- **C02** (sizes unknown) Whatever index and size a proof claims, acceptance against the head of a
log shows that the body is some leaf of that log, under the same absence of collisions. -/
theorem C02_accepted_is_member (H : Bytes → Bytes) (L : Nat) (hL : ∀ x, (H x).length = L)
    (D : List Bytes) (body : Bytes) (p : InclusionProof) (hroot : p.rootHash = mth H D)
    (nocoll : ∀ x ∈ hashedByTree H D ++ hashedByCheck H (codeDirs p.logIndex p.treeSize) body p.hashes,
      ∀ y ∈ hashedByTree H D ++ hashedByCheck H (codeDirs p.logIndex p.treeSize) body p.hashes,
        H x = H y → x = y)
    (hok : verifyMerkleInclusion H body p = .ok ()) :
    body ∈ D := by
  rw [verify_ok_iff, hroot] at hok
  obtain ⟨hlen, hrun⟩ := hok
  refine lookupDirs_mem _ D body (runSteps_sound H hL body
      (fun x => x ∈ hashedByTree H D ++ hashedByCheck H (codeDirs p.logIndex p.treeSize) body p.hashes)
      (fun x y hx hy => nocoll x hx y hy) (by simp [hashedByCheck]) _ _ D rfl ?_ ?_ hrun)
  · intro x hx; simp [hashedByCheck, hx]
  · intro x hx; simp [hx]

/-- **C02** (no equivocation) Two different bodies can never both be proved for the same claimed
index, size and root, whether or not that root is the head of any log, unless the two checks together
hash two colliding strings. -/
theorem C02_no_equivocation (H : Bytes → Bytes) (L : Nat) (hL : ∀ x, (H x).length = L)
    (b₁ b₂ : Bytes) (p₁ p₂ : InclusionProof) (hi : p₁.logIndex = p₂.logIndex)
    (hn : p₁.treeSize = p₂.treeSize) (hr : p₁.rootHash = p₂.rootHash)
    (nocoll : ∀ x ∈ hashedByCheck H (codeDirs p₁.logIndex p₁.treeSize) b₁ p₁.hashes ++
          hashedByCheck H (codeDirs p₂.logIndex p₂.treeSize) b₂ p₂.hashes,
      ∀ y ∈ hashedByCheck H (codeDirs p₁.logIndex p₁.treeSize) b₁ p₁.hashes ++
          hashedByCheck H (codeDirs p₂.logIndex p₂.treeSize) b₂ p₂.hashes, H x = H y → x = y)
    (h₁ : verifyMerkleInclusion H b₁ p₁ = .ok ()) (h₂ : verifyMerkleInclusion H b₂ p₂ = .ok ()) :
    b₁ = b₂ := by
  rw [verify_ok_iff] at h₁ h₂
  rw [hi, hn] at h₁ nocoll
  rw [hr, ← h₂.2] at h₁
  have e := runSteps_inj H hL (H (0 :: b₁)) (H (0 :: b₂)) (hL _) (hL _)
    (fun x => x ∈ hashedByCheck H (codeDirs p₂.logIndex p₂.treeSize) b₁ p₁.hashes ++
          hashedByCheck H (codeDirs p₂.logIndex p₂.treeSize) b₂ p₂.hashes)
    (fun x y hx hy => nocoll x hx y hy) _ (codeDirs p₂.logIndex p₂.treeSize) p₁.hashes p₂.hashes rfl
    h₁.1 h₂.1 (fun x hx => by simp [hashedByCheck, hx]) (fun x hx => by simp [hashedByCheck, hx]) h₁.2
  have := nocoll (0 :: b₁) (by simp [hashedByCheck]) (0 :: b₂) (by simp [hashedByCheck]) e
  simpa using this

section Examples

private theorem sp3 : splitPoint 3 = 2 := by
  unfold splitPoint; rw [show Nat.log 2 (3 - 1) = 1 by rw [Nat.log_eq_iff] <;> decide]

private theorem sp2 : splitPoint 2 = 1 := by
  unfold splitPoint; rw [show Nat.log 2 (2 - 1) = 0 by rw [Nat.log_eq_iff] <;> decide]

/-- the proof of entry 1 of the log `[10], [20], [30]` -/
def exampleProof : InclusionProof :=
  { logIndex := 1, treeSize := 3, rootHash := mth toyHash [[10], [20], [30]],
    hashes := path toyHash 1 [[10], [20], [30]], checkpoint := none }

/-- The hypotheses of `C02_accepted_is_leaf` hold for a concrete three-leaf log. -/
example : (∀ x, (toyHash x).length = 1) ∧ exampleProof.treeSize = [[10], [20], [30]].length ∧
    exampleProof.logIndex < exampleProof.treeSize ∧
    (∀ x ∈ hashedByTree toyHash [[10], [20], [30]] ++ hashedByCheck toyHash (rfcDirs 1 3) [20] exampleProof.hashes,
      ∀ y ∈ hashedByTree toyHash [[10], [20], [30]] ++ hashedByCheck toyHash (rfcDirs 1 3) [20] exampleProof.hashes,
        toyHash x = toyHash y → x = y) ∧
    verifyMerkleInclusion toyHash [20] exampleProof = .ok () := by
  refine ⟨fun _ => rfl, rfl, by decide, ?_, C01_honest_proof_accepted toyHash [[10], [20], [30]] 1 [20] rfl none⟩
  have hd : rfcDirs 1 3 = [true, false] := by
    rw [rfcDirs, dif_neg (by decide), sp3, if_pos (by decide), rfcDirs, dif_neg (by decide), sp2,
      if_neg (by decide), rfcDirs, dif_pos (by decide)]; rfl
  rw [hd]
  simp only [exampleProof, hashedByTree, path, mth, List.length_cons, List.length_nil, Nat.reduceAdd, sp3,
    sp2, List.take, List.drop, hashedByCheck, Nat.reduceLT, Nat.reduceSub, if_true, if_false, Nat.lt_irrefl]
  decide

/-- The hypotheses of `C02_no_equivocation` hold with two different (accepted) proof objects. -/
example : verifyMerkleInclusion toyHash [10]
      { logIndex := 0, treeSize := 2, rootHash := toyHash (1 :: (toyHash [0, 10] ++ toyHash [0, 20])),
        hashes := [toyHash [0, 20]], checkpoint := none } = .ok () ∧
    (∀ x ∈ hashedByCheck toyHash (codeDirs 0 2) [10] [toyHash [0, 20]],
      ∀ y ∈ hashedByCheck toyHash (codeDirs 0 2) [10] [toyHash [0, 20]], toyHash x = toyHash y → x = y) := by
  decide

end Examples

/-- **C03** An accepted proof for index `i < n` has exactly the RFC 6962 length. -/
theorem C03_exact_length (H : Bytes → Bytes) (body : Bytes) (p : InclusionProof)
    (hidx : p.logIndex < p.treeSize) (hok : verifyMerkleInclusion H body p = .ok ()) :
    p.hashes.length = pathLength p.logIndex p.treeSize := by
  rw [verify_ok_iff, codeDirs_eq_rfcDirs _ _ hidx, length_rfcDirs] at hok
  exact hok.1

/-- **C03** Any other length is rejected with `VerificationError`. -/
theorem C03_wrong_length_rejected (H : Bytes → Bytes) (body : Bytes) (p : InclusionProof)
    (hidx : p.logIndex < p.treeSize) (hlen : p.hashes.length ≠ pathLength p.logIndex p.treeSize) :
    verifyMerkleInclusion H body p = .error .verification := by
  cases h : verifyMerkleInclusion H body p with
  | ok u => exact absurd (C03_exact_length H body p hidx h) hlen
  | error e => rw [verify_error H body p e h]

/-- concrete instances of the C03 hypotheses: a size-3 tree needs one hash for its last leaf -/
example : verifyMerkleInclusion toyHash [30]
    { logIndex := 2, treeSize := 3, rootHash := [], hashes := [[1], [2]], checkpoint := none }
      = .error .verification := by decide

end Sigstore.Props
