import Verif.Model.Hashing

/-!
# C51: streaming digests
-/

namespace Sigstore.Props

theorem streamLoop_append (buf acc : Bytes) (io : Reads) :
    streamLoop buf acc io = acc ++ streamLoop buf [] io := by
  induction io generalizing buf acc with
  | nil => simp [streamLoop]
  | cons r rest ih =>
    cases r with
    | none => simp [streamLoop]
    | some chunk =>
      simp only [streamLoop]
      split
      · simp
      · rw [ih, List.nil_append, ih _ (List.take _ _), List.append_assoc]

/-- what a stream delivers: the chunks up to the first read that returned nothing -/
def delivered (io : Reads) : List Bytes :=
  (io.takeWhile (fun r => match r with | some c => !c.isEmpty | none => false)).filterMap id

/-- **C51** The digest of a stream is the SHA-256 of the concatenation of what the reads delivered,
for all chunk sizes and whatever the buffer held. -/
theorem C51_stream_digest (c : Crypto) (io : Reads) :
    sha256Digest c (.stream io) = { algorithm := .sha2_256, digest := c.sha256 (delivered io).flatten } := by
  have h : ∀ buf, streamLoop buf [] io = (delivered io).flatten := by
    induction io with
    | nil => intro buf; rfl
    | cons r rest ih =>
      intro buf
      cases r with
      | none => rfl
      | some chunk =>
        cases chunk with
        | nil => rfl
        | cons x xs =>
          simp only [streamLoop, List.length_cons, Nat.add_one_ne_zero, if_false, List.nil_append]
          rw [streamLoop_append, ih, writeBuf]
          have : ((x :: xs) ++ buf.drop (xs.length + 1)).take (xs.length + 1) = x :: xs :=
            List.take_left' rfl
          simp only [List.length_cons]
          rw [this]
          simp [delivered]
  simp only [sha256Digest, sha256Streaming, h]

/-- **C51** However a content is cut into non-empty reads, the stream digest equals the digest of the
whole content as `bytes`. -/
theorem C51_chunking_irrelevant (c : Crypto) (chunks : List Bytes) (hne : ∀ x ∈ chunks, x ≠ []) :
    sha256Digest c (.stream (chunks.map some)) = sha256Digest c (.bytes chunks.flatten) := by
  rw [C51_stream_digest]
  have : delivered (chunks.map some) = chunks := by
    unfold delivered
    induction chunks with
    | nil => rfl
    | cons x xs ih =>
      have hx := hne x (List.mem_cons_self ..)
      cases x with
      | nil => exact absurd rfl hx
      | cons a as =>
        simp only [List.map_cons, List.takeWhile_cons, List.isEmpty_cons, Bool.not_false, if_true, List.filterMap_cons,
          id_eq, ih (fun y hy => hne y (List.mem_cons_of_mem _ hy))]
  rw [this]; rfl

/-- **C51** A pre-computed digest is used unchanged. -/
theorem C51_hashed_unchanged (c : Crypto) (h : Hashed) : sha256Digest c (.hashed h) = h := rfl

/-- **C51** Two inputs get the same digest only if what was read is the same, up to a collision. -/
theorem C51_no_collision (c : Crypto) (a b : List Bytes) (ha : ∀ x ∈ a, x ≠ []) (hb : ∀ x ∈ b, x ≠ [])
    (h : sha256Digest c (.stream (a.map some)) = sha256Digest c (.stream (b.map some)))
    (nocoll : c.sha256 a.flatten = c.sha256 b.flatten → a.flatten = b.flatten) : a.flatten = b.flatten := by
  rw [C51_chunking_irrelevant c a ha, C51_chunking_irrelevant c b hb] at h
  exact nocoll (by simpa [sha256Digest] using h)

/-- concrete: three reads; and a short read followed by `None` truncates -/
example : delivered [some [1, 2], some [3], some [4, 5]] = [[1, 2], [3], [4, 5]] ∧
    delivered [some [1], none, some [2]] = [[1]] := by decide

end Sigstore.Props
