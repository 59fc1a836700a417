import Verif.Spec.Torn
import Verif.Props.Hashing

/-!
# C135: what is digested while others change the file
-/

namespace Sigstore.Props

open Sigstore.Torn Sigstore.Spec

private theorem pieces_ne (final : Bytes) (raws : List Raw) : ∀ pos got, ∀ x ∈ pieces final raws pos got, x ≠ [] := by
  induction raws with
  | nil =>
    intro pos got x hx
    unfold pieces at hx
    split at hx
    · cases hx
    · rename_i h
      rw [List.mem_singleton] at hx
      exact hx ▸ h
  | cons r rest ih =>
    intro pos got x hx
    unfold pieces at hx
    split at hx
    · split at hx
      · cases hx
      · exact ih _ _ x hx
    · rename_i h
      rcases List.mem_cons.1 hx with rfl | hx
      · exact h
      · exact ih _ _ x hx

/-- **C135** The digest is the SHA-256 of one content, made of the bytes of the versions at their places, in the order of the
versions. -/
theorem C135_put_together (c : Crypto) (raws : List Raw) (final : Bytes) :
    ∃ b, digest c raws final = ⟨.sha2_256, c.sha256 b⟩ ∧ PutTogether (versions raws final) b := by
  refine ⟨(pieces final raws 0 0).flatten, ?_, ?_⟩
  · unfold digest
    rw [C51_chunking_irrelevant c _ (pieces_ne final raws 0 0)]
    rfl
  suffices h : ∀ (raws : List Raw) (pos got : Nat), ∃ version : Nat → Nat, (∀ i j, i ≤ j → version i ≤ version j) ∧
      ∀ (i : Nat) (x : UInt8), (pieces final raws pos got).flatten[i]? = some x →
        ∃ v, (versions raws final)[version i]? = some v ∧ v[pos + i]? = some x by
    obtain ⟨f, h1, h2⟩ := h raws 0 0
    exact ⟨f, h1, fun i x hx => by simpa using h2 i x hx⟩
  intro raws
  induction raws with
  | nil =>
    intro pos got
    refine ⟨fun _ => 0, fun _ _ _ => Nat.le_refl _, fun i x hx => ⟨final, rfl, ?_⟩⟩
    unfold pieces at hx
    split at hx
    · simp at hx
    · simpa using hx
  | cons r rest ih =>
    intro pos got
    unfold pieces
    split
    · split
      · exact ⟨fun _ => 0, fun _ _ _ => Nat.le_refl _, fun i x hx => by simp at hx⟩
      · obtain ⟨f, h1, h2⟩ := ih pos 0
        exact ⟨fun i => f i + 1, fun i j h => Nat.succ_le_succ (h1 i j h), fun i x hx => h2 i x hx⟩
    · obtain ⟨f, h1, h2⟩ := ih (pos + (r.at pos).length) ((got + (r.at pos).length) % viewSize)
      refine ⟨fun i => if i < (r.at pos).length then 0 else f (i - (r.at pos).length) + 1, fun i j h => ?_, fun i x hx => ?_⟩
      · dsimp only
        split
        · exact Nat.zero_le _
        · rw [if_neg (by omega)]
          exact Nat.succ_le_succ (h1 _ _ (by omega))
      · rw [List.flatten_cons] at hx
        dsimp only
        split
        · rename_i hi
          rw [List.getElem?_append_left hi] at hx
          refine ⟨r.content, rfl, ?_⟩
          unfold Raw.at at hx
          rw [List.getElem?_take] at hx
          split at hx
          · simpa using hx
          · cases hx
        · rename_i hi
          rw [List.getElem?_append_right (by omega)] at hx
          obtain ⟨v, hv, hb⟩ := h2 _ x hx
          refine ⟨v, hv, ?_⟩
          rwa [show pos + (r.at pos).length + (i - (r.at pos).length) = pos + i by omega] at hb

/-- **C135** (partial: others only append)  The digest is that of a beginning of the last version that contains the first one. -/
theorem C135_growing_partial (c : Crypto) (raws : List Raw) (final : Bytes) (hsize : ∀ r ∈ raws, 0 < r.size)
    (hg : OnlyGrows (versions raws final)) :
    ∃ b, digest c raws final = ⟨.sha2_256, c.sha256 b⟩ ∧ b <+: final ∧ ∀ v, (versions raws final).head? = some v → v <+: b := by
  suffices h : ∀ (raws : List Raw) (pos got : Nat), (∀ r ∈ raws, 0 < r.size) → OnlyGrows (versions raws final) →
      (∀ v, (versions raws final).head? = some v → pos ≤ v.length) →
      ∃ m, (pieces final raws pos got).flatten = (final.drop pos).take m ∧
        ∀ v, (versions raws final).head? = some v → v.length ≤ pos + m by
    obtain ⟨m, h1, h2⟩ := h raws 0 0 hsize hg (fun _ _ => Nat.zero_le _)
    refine ⟨(pieces final raws 0 0).flatten, ?_, ?_, ?_⟩
    · unfold digest
      rw [C51_chunking_irrelevant c _ (pieces_ne final raws 0 0)]
      rfl
    · rw [h1, List.drop_zero]
      exact List.take_prefix _ _
    · intro v hv
      have hvf : v <+: final := by
        unfold versions at hv hg
        cases raws with
        | nil => simp at hv; exact hv ▸ List.prefix_refl _
        | cons r rest =>
          simp at hv
          subst hv
          exact (List.pairwise_cons.1 hg).1 final (by simp)
      rw [h1, List.drop_zero, List.prefix_take_iff]
      exact ⟨hvf, by simpa using h2 v hv⟩
  intro raws
  induction raws with
  | nil =>
    intro pos got _ _ _
    refine ⟨final.length, ?_, fun v hv => ?_⟩
    · unfold pieces
      split
      · rename_i h
        rw [h, List.take_nil]; rfl
      · simp [List.take_of_length_le]
    · simp [versions] at hv
      subst hv
      omega
  | cons r rest ih =>
    intro pos got hs hgrow hp
    have hp := hp r.content rfl
    obtain ⟨hfirst, hrest⟩ := List.pairwise_cons.1 hgrow
    have hfin : r.content <+: final := hfirst final (by simp)
    have hnext : ∀ v, (versions rest final).head? = some v → r.content.length ≤ v.length := fun v hv =>
      (hfirst v (List.mem_of_head? hv)).length_le
    have hsome : ∃ v, (versions rest final).head? = some v := by
      unfold versions
      cases rest <;> exact ⟨_, rfl⟩
    obtain ⟨w, hw⟩ := hsome
    have hv : ∀ v, (versions (r :: rest) final).head? = some v → v = r.content := by
      intro v hv
      exact (Option.some.inj hv).symm
    unfold pieces
    split
    · rename_i he
      have hend : r.content.length ≤ pos := by
        unfold Raw.at at he
        have := hs r List.mem_cons_self
        have := congrArg List.length he
        simp only [List.length_take, List.length_drop, List.length_nil] at this
        omega
      split
      · exact ⟨0, rfl, fun v h => by rw [hv v h]; omega⟩
      · obtain ⟨m, h1, h2⟩ := ih pos 0 (fun x hx => hs x (List.mem_cons_of_mem _ hx)) hrest
          (fun v h => Nat.le_trans hp (hnext v h))
        exact ⟨m, h1, fun v h => by rw [hv v h]; exact Nat.le_trans hend (Nat.le_add_right _ _)⟩
    · have hlen : pos + (r.at pos).length ≤ r.content.length := by
        unfold Raw.at
        simp only [List.length_take, List.length_drop]
        omega
      have hpiece : r.at pos = (final.drop pos).take (r.at pos).length := by
        obtain ⟨t, ht⟩ := hfin
        have e : final.drop pos = r.content.drop pos ++ t := by rw [← ht, List.drop_append_of_le_length hp]
        rw [e, List.take_append_of_le_length (by simp only [List.length_drop]; omega)]
        unfold Raw.at
        rw [List.length_take, ← List.take_eq_take_min]
      obtain ⟨m, h1, h2⟩ := ih (pos + (r.at pos).length) ((got + (r.at pos).length) % viewSize)
        (fun x hx => hs x (List.mem_cons_of_mem _ hx)) hrest (fun v h => Nat.le_trans hlen (hnext v h))
      refine ⟨(r.at pos).length + m, ?_, fun v h => ?_⟩
      · rw [List.flatten_cons, h1, List.take_add, List.drop_drop, ← hpiece]
      · have := h2 w hw
        have := hnext w hw
        rw [hv v h]
        omega

/-- **C135** (partial: nobody changes the file)  The digest is that of the content. -/
theorem C135_unchanged_partial (c : Crypto) (raws : List Raw) (final : Bytes) (hsize : ∀ r ∈ raws, 0 < r.size)
    (hsame : ∀ r ∈ raws, r.content = final) : digest c raws final = ⟨.sha2_256, c.sha256 final⟩ := by
  have hall : ∀ v ∈ versions raws final, v = final := by
    intro v hv
    rcases List.mem_append.1 hv with hv | hv
    · obtain ⟨r, hr, rfl⟩ := List.mem_map.1 hv
      exact hsame r hr
    · exact List.mem_singleton.1 hv
  obtain ⟨b, h1, h2, h3⟩ := C135_growing_partial c raws final hsize
    (List.Pairwise.imp_of_mem (R := fun _ _ => True) (fun ha hb _ => by rw [hall _ ha, hall _ hb]; exact List.prefix_refl _) (List.pairwise_of_forall fun _ _ => trivial))
  have hhead : ∃ v, (versions raws final).head? = some v := by
    unfold versions
    cases raws <;> exact ⟨_, rfl⟩
  obtain ⟨v, hv⟩ := hhead
  have h4 := h3 v hv
  rw [hall v (List.mem_of_head? hv)] at h4
  rw [h1, List.IsPrefix.eq_of_length h2 (Nat.le_antisymm h2.length_le h4.length_le)]

/-- **C135** (refuted in general)  If the file is rewritten after the first reading, then the digest is that of the beginning of the old
content and the end of the new one.  If they differ in both parts, then the file never had this content. -/
theorem C135_torn (c : Crypto) (old new : Bytes) (k : Nat) (hk : 0 < k) (hl : k ≤ old.length) :
    digest c [⟨old, k⟩] new = ⟨.sha2_256, c.sha256 (old.take k ++ new.drop k)⟩ ∧
    (old.take k ≠ new.take k → old.drop k ≠ new.drop k → ∀ v ∈ versions [⟨old, k⟩] new, old.take k ++ new.drop k ≠ v) := by
  have hlen : (old.take k).length = k := by simp [hl]
  constructor
  · have hp : (pieces new [⟨old, k⟩] 0 0).flatten = old.take k ++ new.drop k := by
      have hne : (Raw.at ⟨old, k⟩ 0) ≠ [] := by
        intro h
        have := congrArg List.length h
        unfold Raw.at at this
        rw [List.drop_zero, hlen] at this
        simp at this
        omega
      have hat : Raw.at ⟨old, k⟩ 0 = old.take k := by unfold Raw.at; rw [List.drop_zero]
      unfold pieces
      rw [if_neg hne, hat, hlen, List.flatten_cons, Nat.zero_add]
      congr 1
      unfold pieces
      split
      · rename_i h
        rw [h]; rfl
      · simp
    unfold digest
    rw [C51_chunking_irrelevant c _ (pieces_ne new _ 0 0), hp]
    rfl
  · intro h1 h2 v hv
    simp only [versions, List.map_cons, List.map_nil, List.cons_append, List.nil_append, List.mem_cons, List.not_mem_nil, or_false] at hv
    rcases hv with rfl | rfl
    · intro h
      have := congrArg (List.drop k) h
      rw [List.drop_append_of_le_length (by omega), List.drop_of_length_le (by omega), List.nil_append] at this
      exact h2 this.symm
    · intro h
      have := congrArg (List.take k) h
      rw [List.take_append_of_le_length (by omega), List.take_of_length_le (by omega)] at this
      exact h1 this

private theorem digest_of {c : Crypto} {raws : List Raw} {final b : Bytes} (h : (pieces final raws 0 0).flatten = b) :
    digest c raws final = ⟨.sha2_256, c.sha256 b⟩ := by
  unfold digest
  rw [C51_chunking_irrelevant c _ (pieces_ne final raws 0 0), h]
  rfl

/-- **C135** When reading ends: a reading that finds the end is not the last one if bytes are in the view, so that what others append in
between is digested; the next one is.  If the bytes fill the view of 128 KiB, then the first one is the last. -/
theorem C135_end (c : Crypto) (old more : Bytes) (k k' k'' : Nat) (hne : old ≠ []) (hk : old.length ≤ k) :
    (old.length < 131072 → digest c [⟨old, k⟩, ⟨old, k'⟩] (old ++ more) = ⟨.sha2_256, c.sha256 (old ++ more)⟩ ∧
      digest c [⟨old, k⟩, ⟨old, k'⟩, ⟨old, k''⟩] (old ++ more) = ⟨.sha2_256, c.sha256 old⟩) ∧
    (old.length = 131072 → digest c [⟨old, k⟩, ⟨old, k'⟩] (old ++ more) = ⟨.sha2_256, c.sha256 old⟩) := by
  have h0 : Raw.at ⟨old, k⟩ 0 = old := by unfold Raw.at; rw [List.drop_zero, List.take_of_length_le hk]
  have h1 : ∀ n, Raw.at ⟨old, n⟩ old.length = [] := by intro n; unfold Raw.at; rw [List.drop_length, List.take_nil]
  have hpos : 0 < old.length := List.length_pos_iff.mpr hne
  have hrest : (pieces (old ++ more) [] old.length 0).flatten = more := by
    unfold pieces
    rw [List.drop_append_of_le_length (Nat.le_refl _), List.drop_length, List.nil_append]
    split
    · rename_i h
      rw [h]; rfl
    · simp
  have step0 : ∀ rest, pieces (old ++ more) (⟨old, k⟩ :: rest) 0 0 =
      old :: pieces (old ++ more) rest old.length (old.length % 131072) := by
    intro rest
    rw [pieces, h0, if_neg hne, Nat.zero_add]
    rfl
  have stop : ∀ n rest, pieces (old ++ more) (⟨old, n⟩ :: rest) old.length 0 = [] := by
    intro n rest
    rw [pieces, if_pos (h1 n), if_pos rfl]
  have again : ∀ n rest got, got ≠ 0 → pieces (old ++ more) (⟨old, n⟩ :: rest) old.length got =
      pieces (old ++ more) rest old.length 0 := by
    intro n rest got hg
    rw [pieces, if_pos (h1 n), if_neg hg]
  refine ⟨fun hl => ?_, fun hl => ?_⟩
  · have hg : old.length % 131072 ≠ 0 := by rw [Nat.mod_eq_of_lt hl]; omega
    refine ⟨digest_of ?_, digest_of ?_⟩
    · rw [step0, again _ _ _ hg, List.flatten_cons, hrest]
    · rw [step0, again _ _ _ hg, stop, List.flatten_cons, List.flatten_nil, List.append_nil]
  · refine digest_of ?_
    rw [step0, hl, Nat.mod_self, ← hl, stop, List.flatten_cons, List.flatten_nil, List.append_nil]

/-- a file that grows while it is read: the second reading finds the end, the third more -/
example : pieces [1, 2, 3, 4] [⟨[1, 2], 5⟩, ⟨[1, 2], 5⟩, ⟨[1, 2, 3], 5⟩] 0 0 = [[1, 2], [3], [4]] ∧
    OnlyGrows (versions [⟨[1, 2], 5⟩, ⟨[1, 2], 5⟩, ⟨[1, 2, 3], 5⟩] [1, 2, 3, 4]) := by
  refine ⟨by decide +kernel, by unfold OnlyGrows versions; decide⟩

/-- readings that twice in a row find the end are the last ones -/
example : pieces [1, 2, 3, 4] [⟨[1, 2], 5⟩, ⟨[1, 2], 5⟩, ⟨[1, 2], 5⟩] 0 0 = [[1, 2]] := by decide +kernel

/-- versions as in the refutation -/
example : List.take 1 ([1, 2] : Bytes) ≠ List.take 1 [3, 4] ∧ List.drop 1 ([1, 2] : Bytes) ≠ List.drop 1 [3, 4] ∧
    pieces [3, 4] [⟨[1, 2], 1⟩] 0 0 = [[1], [4]] := by decide +kernel

end Sigstore.Props
