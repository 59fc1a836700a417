import Verif.Prelude.Basic

/-!
# UTF-8: Python `str.encode()` and strict `bytes.decode()`
-/

namespace Sigstore

/-- UTF-8 encoding of one code point -/
def utf8Char (c : Char) : Bytes :=
  let n := c.toNat
  if n < 0x80 then [UInt8.ofNat n]
  else if n < 0x800 then [UInt8.ofNat (0xC0 + n / 64), UInt8.ofNat (0x80 + n % 64)]
  else if n < 0x10000 then
    [UInt8.ofNat (0xE0 + n / 4096), UInt8.ofNat (0x80 + n / 64 % 64), UInt8.ofNat (0x80 + n % 64)]
  else
    [UInt8.ofNat (0xF0 + n / 262144), UInt8.ofNat (0x80 + n / 4096 % 64),
      UInt8.ofNat (0x80 + n / 64 % 64), UInt8.ofNat (0x80 + n % 64)]

/-- Python `s.encode()` -/
def utf8 (s : Str) : Bytes := s.flatMap utf8Char

/-- payload of a continuation byte -/
def contVal (b : UInt8) : Option Nat :=
  if 0x80 ≤ b.toNat ∧ b.toNat < 0xC0 then some (b.toNat - 0x80) else none

/-- a scalar value in the given range -/
def mkChar (lo n : Nat) : Option Char :=
  if n.isValidChar ∧ lo ≤ n then some (Char.ofNat n) else none

/-- decode one code point from the front of a byte string -/
def utf8DecodeChar : Bytes → Option (Char × Bytes)
  | [] => none
  | b :: rest =>
    let n := b.toNat
    if n < 0x80 then some (Char.ofNat n, rest)
    else if n < 0xC0 then none
    else if n < 0xE0 then
      match rest with
      | b1 :: rest =>
        match contVal b1 with
        | some v1 => (mkChar 0x80 ((n - 0xC0) * 64 + v1)).map (·, rest)
        | none => none
      | _ => none
    else if n < 0xF0 then
      match rest with
      | b1 :: b2 :: rest =>
        match contVal b1, contVal b2 with
        | some v1, some v2 => (mkChar 0x800 ((n - 0xE0) * 4096 + v1 * 64 + v2)).map (·, rest)
        | _, _ => none
      | _ => none
    else if n < 0xF8 then
      match rest with
      | b1 :: b2 :: b3 :: rest =>
        match contVal b1, contVal b2, contVal b3 with
        | some v1, some v2, some v3 =>
          (mkChar 0x10000 ((n - 0xF0) * 262144 + v1 * 4096 + v2 * 64 + v3)).map (·, rest)
        | _, _, _ => none
      | _ => none
    else none

/-- strict decoding with an explicit bound on the number of code points -/
def utf8DecodeAux : Nat → Bytes → Option Str
  | _, [] => some []
  | 0, _ :: _ => none
  | fuel + 1, b :: bs =>
    match utf8DecodeChar (b :: bs) with
    | none => none
    | some (c, rest) => (utf8DecodeAux fuel rest).map (c :: ·)

/-- Python `b.decode()`; `none` stands for `UnicodeDecodeError` -/
def utf8Decode (b : Bytes) : Option Str := utf8DecodeAux b.length b

/-! ## Round trip -/

theorem char_toNat_lt (c : Char) : c.toNat < 0x110000 := by
  have := c.valid
  rcases this with h | h
  · exact Nat.lt_trans h (by decide)
  · exact h.2

theorem mkChar_toNat (c : Char) (lo : Nat) (h : lo ≤ c.toNat) : mkChar lo c.toNat = some c := by
  rw [mkChar, if_pos ⟨c.valid, h⟩, Char.ofNat_toNat]

theorem toNat_ofNat8 {n : Nat} (h : n < 256) : (UInt8.ofNat n).toNat = n := by
  rw [UInt8.toNat_ofNat']; omega

theorem contVal_ofNat {v : Nat} (h : v < 64) : contVal (UInt8.ofNat (0x80 + v)) = some v := by
  rw [contVal, toNat_ofNat8 (by omega), if_pos (by omega)]
  exact congrArg some (by omega)

theorem utf8DecodeChar_utf8Char (c : Char) (rest : Bytes) :
    utf8DecodeChar (utf8Char c ++ rest) = some (c, rest) := by
  have hlt := char_toNat_lt c
  unfold utf8Char
  dsimp only
  split
  · rename_i h
    simp only [List.cons_append, List.nil_append, utf8DecodeChar, toNat_ofNat8 (show c.toNat < 256 by omega),
      if_pos h, Char.ofNat_toNat]
  · split
    · rename_i h0 h
      simp only [List.cons_append, List.nil_append, utf8DecodeChar,
        toNat_ofNat8 (show 0xC0 + c.toNat / 64 < 256 by omega),
        contVal_ofNat (show c.toNat % 64 < 64 by omega)]
      rw [if_neg (by omega), if_neg (by omega), if_pos (by omega),
        show (0xC0 + c.toNat / 64 - 0xC0) * 64 + c.toNat % 64 = c.toNat by omega,
        mkChar_toNat c _ (by omega)]
      rfl
    · split
      · rename_i h0 h1 h
        simp only [List.cons_append, List.nil_append, utf8DecodeChar,
          toNat_ofNat8 (show 0xE0 + c.toNat / 4096 < 256 by omega),
          contVal_ofNat (show c.toNat % 64 < 64 by omega),
          contVal_ofNat (show c.toNat / 64 % 64 < 64 by omega)]
        rw [if_neg (by omega), if_neg (by omega), if_neg (by omega), if_pos (by omega),
          show (0xE0 + c.toNat / 4096 - 0xE0) * 4096 + c.toNat / 64 % 64 * 64 + c.toNat % 64 = c.toNat by omega,
          mkChar_toNat c _ (by omega)]
        rfl
      · rename_i h0 h1 h
        simp only [List.cons_append, List.nil_append, utf8DecodeChar,
          toNat_ofNat8 (show 0xF0 + c.toNat / 262144 < 256 by omega),
          contVal_ofNat (show c.toNat % 64 < 64 by omega),
          contVal_ofNat (show c.toNat / 64 % 64 < 64 by omega),
          contVal_ofNat (show c.toNat / 4096 % 64 < 64 by omega)]
        rw [if_neg (by omega), if_neg (by omega), if_neg (by omega), if_neg (by omega), if_pos (by omega),
          show (0xF0 + c.toNat / 262144 - 0xF0) * 262144 + c.toNat / 4096 % 64 * 4096 +
            c.toNat / 64 % 64 * 64 + c.toNat % 64 = c.toNat by omega,
          mkChar_toNat c _ (by omega)]
        rfl

theorem utf8Char_ne_nil (c : Char) : utf8Char c ≠ [] := by
  unfold utf8Char; dsimp only; split; · simp
  split; · simp
  split <;> simp

theorem length_utf8Char_pos (c : Char) : 0 < (utf8Char c).length :=
  List.length_pos_iff.2 (utf8Char_ne_nil c)

theorem utf8_cons (c : Char) (s : Str) : utf8 (c :: s) = utf8Char c ++ utf8 s := rfl

theorem utf8_append (s t : Str) : utf8 (s ++ t) = utf8 s ++ utf8 t := by simp [utf8]

theorem length_le_length_utf8 (s : Str) : s.length ≤ (utf8 s).length := by
  induction s with
  | nil => simp [utf8]
  | cons c s ih =>
    rw [utf8_cons, List.length_append, List.length_cons]
    have := length_utf8Char_pos c
    omega

theorem utf8DecodeAux_utf8 (s : Str) : ∀ fuel, s.length ≤ fuel → utf8DecodeAux fuel (utf8 s) = some s := by
  induction s with
  | nil => intro fuel _; cases fuel <;> rfl
  | cons c s ih =>
    intro fuel h
    cases fuel with
    | zero => simp at h
    | succ fuel =>
      rw [utf8_cons]
      obtain ⟨b, bs, hb⟩ := List.exists_cons_of_ne_nil (utf8Char_ne_nil c)
      have hd := utf8DecodeChar_utf8Char c (utf8 s)
      rw [hb, List.cons_append] at *
      rw [utf8DecodeAux, hd]
      dsimp only
      rw [ih fuel (by simpa using h)]
      rfl

/-- decoding inverts encoding -/
theorem utf8Decode_utf8 (s : Str) : utf8Decode (utf8 s) = some s :=
  utf8DecodeAux_utf8 s _ (length_le_length_utf8 s)

theorem utf8_injective : Function.Injective utf8 := by
  intro a b h
  have := utf8Decode_utf8 a
  rw [h, utf8Decode_utf8] at this
  exact (Option.some.inj this).symm

/-- UTF-8 texts with the same number of code points are self-delimiting. -/
theorem utf8_prefix_free : ∀ (s t : Str) (x y : Bytes), s.length = t.length →
    utf8 s ++ x = utf8 t ++ y → s = t ∧ x = y := by
  intro s
  induction s with
  | nil =>
    intro t x y hl h
    have : t = [] := List.length_eq_zero_iff.1 hl.symm
    subst this
    exact ⟨rfl, by simpa [utf8] using h⟩
  | cons c s ih =>
    intro t x y hl h
    cases t with
    | nil => simp at hl
    | cons d t =>
      rw [utf8_cons, utf8_cons, List.append_assoc, List.append_assoc] at h
      have h1 := utf8DecodeChar_utf8Char c (utf8 s ++ x)
      rw [h, utf8DecodeChar_utf8Char d (utf8 t ++ y)] at h1
      simp only [Option.some.injEq, Prod.mk.injEq] at h1
      obtain ⟨e1, e2⟩ := h1
      obtain ⟨r1, r2⟩ := ih t x y (by simpa using hl) e2.symm
      exact ⟨by rw [e1, r1], r2⟩

theorem mkChar_some {lo n : Nat} {c : Char} (h : mkChar lo n = some c) : c.toNat = n ∧ lo ≤ n := by
  unfold mkChar at h
  split at h
  · rename_i hv
    have hc := Option.some.inj h
    subst hc
    refine ⟨?_, hv.2⟩
    rw [Char.ofNat, dif_pos hv.1]
    rfl
  · simp at h

theorem contVal_some {b : UInt8} {v : Nat} (h : contVal b = some v) : b.toNat = 0x80 + v ∧ v < 64 := by
  unfold contVal at h
  split at h
  · have := Option.some.inj h; omega
  · simp at h

theorem ofNat8_eq {b : UInt8} {n : Nat} (h : b.toNat = n) : UInt8.ofNat n = b := by
  subst h; exact UInt8.ofNat_toNat

/-- a decoded character re-encodes to the bytes consumed -/
theorem utf8Char_of_decode {bs rest : Bytes} {c : Char} (h : utf8DecodeChar bs = some (c, rest)) :
    bs = utf8Char c ++ rest := by
  cases bs with
  | nil => simp [utf8DecodeChar] at h
  | cons b bs =>
    have hb : b.toNat < 256 := b.toNat_lt
    unfold utf8DecodeChar at h
    dsimp only at h
    split at h
    · rename_i hn
      simp only [Option.some.injEq, Prod.mk.injEq] at h
      obtain ⟨rfl, rfl⟩ := h
      have hc : (Char.ofNat b.toNat).toNat = b.toNat := by
        rw [Char.ofNat, dif_pos (Or.inl (by omega))]; rfl
      unfold utf8Char
      simp only [hc, if_pos hn, List.cons_append, List.nil_append, UInt8.ofNat_toNat]
    · split at h
      · simp at h
      · split at h
        · match bs, h with
          | [], h => simp at h
          | b1 :: bs, h =>
            try dsimp only at h
            split at h
            · rename_i v1 hv1
              obtain ⟨e1, l1⟩ := contVal_some hv1
              rw [Option.map_eq_some_iff] at h
              obtain ⟨c', hc', hp⟩ := h
              obtain ⟨rfl, rfl⟩ := Prod.mk.inj hp
              obtain ⟨hc, hlo⟩ := mkChar_some hc'
              unfold utf8Char
              simp only [hc]
              rw [if_neg (by omega), if_pos (by omega)]
              simp only [List.cons_append, List.nil_append, List.cons.injEq, and_true]
              exact ⟨(ofNat8_eq (by omega)).symm, (ofNat8_eq (by omega)).symm⟩
            · simp at h
        · split at h
          · match bs, h with
            | [], h => simp at h
            | [b1], h => simp at h
            | b1 :: b2 :: bs, h =>
              try dsimp only at h
              split at h
              · rename_i v1 v2 hv1 hv2
                obtain ⟨e1, l1⟩ := contVal_some hv1
                obtain ⟨e2, l2⟩ := contVal_some hv2
                rw [Option.map_eq_some_iff] at h
                obtain ⟨c', hc', hp⟩ := h
                obtain ⟨rfl, rfl⟩ := Prod.mk.inj hp
                obtain ⟨hc, hlo⟩ := mkChar_some hc'
                unfold utf8Char
                simp only [hc]
                rw [if_neg (by omega), if_neg (by omega), if_pos (by omega)]
                simp only [List.cons_append, List.nil_append, List.cons.injEq, and_true]
                exact ⟨(ofNat8_eq (by omega)).symm, (ofNat8_eq (by omega)).symm, (ofNat8_eq (by omega)).symm⟩
              · simp at h
          · split at h
            · match bs, h with
              | [], h => simp at h
              | [b1], h => simp at h
              | [b1, b2], h => simp at h
              | b1 :: b2 :: b3 :: bs, h =>
                try dsimp only at h
                split at h
                · rename_i v1 v2 v3 hv1 hv2 hv3
                  obtain ⟨e1, l1⟩ := contVal_some hv1
                  obtain ⟨e2, l2⟩ := contVal_some hv2
                  obtain ⟨e3, l3⟩ := contVal_some hv3
                  rw [Option.map_eq_some_iff] at h
                  obtain ⟨c', hc', hp⟩ := h
                  obtain ⟨rfl, rfl⟩ := Prod.mk.inj hp
                  obtain ⟨hc, hlo⟩ := mkChar_some hc'
                  unfold utf8Char
                  simp only [hc]
                  rw [if_neg (by omega), if_neg (by omega), if_neg (by omega)]
                  simp only [List.cons_append, List.nil_append, List.cons.injEq, and_true]
                  exact ⟨(ofNat8_eq (by omega)).symm, (ofNat8_eq (by omega)).symm,
                    (ofNat8_eq (by omega)).symm, (ofNat8_eq (by omega)).symm⟩
                · simp at h
            · simp at h

theorem utf8_of_decodeAux : ∀ (fuel : Nat) (b : Bytes) (s : Str), utf8DecodeAux fuel b = some s → utf8 s = b := by
  intro fuel
  induction fuel with
  | zero =>
    intro b s h
    cases b with
    | nil => simp [utf8DecodeAux] at h; subst h; rfl
    | cons b bs => simp [utf8DecodeAux] at h
  | succ f ih =>
    intro b s h
    cases b with
    | nil => simp [utf8DecodeAux] at h; subst h; rfl
    | cons b bs =>
      rw [utf8DecodeAux] at h
      split at h
      · simp at h
      · rename_i c rest hd
        rw [Option.map_eq_some_iff] at h
        obtain ⟨t, ht, rfl⟩ := h
        rw [utf8_cons, ih _ _ ht, utf8Char_of_decode hd]

/-- strict decoding succeeds exactly on encodings -/
theorem utf8Decode_eq_some_iff (b : Bytes) (s : Str) : utf8Decode b = some s ↔ b = utf8 s := by
  constructor
  · intro h; exact (utf8_of_decodeAux _ b s h).symm
  · rintro rfl; exact utf8Decode_utf8 s

/-- ASCII text encodes byte for byte -/
theorem length_utf8_ascii (s : Str) (h : ∀ c ∈ s, c.toNat < 128) : (utf8 s).length = s.length := by
  induction s with
  | nil => rfl
  | cons c s ih =>
    have hc := h c (by simp)
    rw [utf8_cons, List.length_append, ih (fun d hd => h d (by simp [hd]))]
    unfold utf8Char
    simp only [if_pos hc, List.length_cons, List.length_nil]
    omega

end Sigstore
