import Verif.Model.Sct
import Verif.Spec.Rfc6962Sct

/-!
# Helper lemmas about the SCT payload and its timestamp
-/

namespace Sigstore.Sct

/-- relative error of one rounding -/
theorem f64_rel (n d : Nat) (hd : 0 < d) (h : 2 ^ 52 ≤ n * 2 ^ 200 / d) :
    2 ^ 53 * (f64 n d * d) ≤ 2 ^ 53 * (n * 2 ^ 200) + n * 2 ^ 200 ∧
    2 ^ 53 * (n * 2 ^ 200) ≤ 2 ^ 53 * (f64 n d * d) + n * 2 ^ 200 := by
  unfold f64
  dsimp only
  generalize hT : n * 2 ^ 200 = A at *
  have hne : A / d ≠ 0 := by have := Nat.two_pow_pos 52; omega
  have hlog : 52 ≤ Nat.log2 (A / d) := (Nat.le_log2 hne).2 h
  obtain ⟨e, he⟩ : ∃ e, Nat.log2 (A / d) = e + 52 := ⟨Nat.log2 (A / d) - 52, by omega⟩
  rw [he, Nat.add_sub_cancel]
  have hle : 2 ^ (e + 52) ≤ A / d := by rw [← he]; exact Nat.log2_self_le hne
  have hle2 : 2 ^ (e + 52) * d ≤ A := Nat.le_trans (Nat.mul_le_mul_right d hle) (Nat.div_mul_le_self A d)
  have hP : 0 < 2 ^ e := Nat.two_pow_pos e
  have hdp : 0 < d * 2 ^ e := Nat.mul_pos hd hP
  have a := roundHalfEven_le A (d * 2 ^ e) hdp
  have b := le_roundHalfEven A (d * 2 ^ e) hdp
  have e1 : roundHalfEven A (d * 2 ^ e) * 2 ^ e * d = roundHalfEven A (d * 2 ^ e) * (d * 2 ^ e) := by
    rw [Nat.mul_assoc, Nat.mul_comm (2 ^ e) d]
  rw [e1]
  generalize roundHalfEven A (d * 2 ^ e) * (d * 2 ^ e) = R at *
  have e2 : 2 ^ (e + 52) * d = 2 ^ 52 * (d * 2 ^ e) := by
    rw [Nat.pow_add, Nat.mul_assoc, Nat.mul_comm, Nat.mul_assoc, Nat.mul_comm (2 ^ 52)]
  rw [e2] at hle2
  generalize d * 2 ^ e = D at *
  omega

theorem f64_scale (n d x : Nat) (hx : 0 < x) : f64 (n * x) (d * x) = f64 n d := by
  unfold f64
  have e1 : n * x * 2 ^ 200 = n * 2 ^ 200 * x := Nat.mul_right_comm ..
  dsimp only
  rw [e1, Nat.mul_div_mul_right _ _ hx]
  rw [Nat.mul_right_comm d, roundHalfEven_scale _ _ _ hx]

/-- both roundings in terms of `ms / 1000` and of a product over `2^200` -/
theorem sctMillis_eq (ms : Nat) : sctMillis ms = f64Trunc (f64 (f64 ms 1000 * 1000) (2 ^ 200)) := by
  unfold sctMillis
  rw [show (1000000 : Nat) = 1000 * 1000 from rfl, f64_scale ms 1000 1000 (by decide)]

/-- a product that is within `1000/1024` of half a unit in the last place of the integer `ms` truncates to it -/
theorem millis_core (T P k ms V : Nat) (hT : T = 2 ^ 200) (hk : k ≤ 52) (hP : P = 2 ^ (k + 138))
    (hlo : 2 ^ 62 * P ≤ V * 1000) (hhi : V * 1000 < 2 ^ 63 * P)
    (h1 : 2 * (V * 1000) ≤ 2 * (ms * T) + 1000 * P) (h2 : 2 * (ms * T) ≤ 2 * (V * 1000) + 1000 * P) :
    f64Trunc (f64 (V * 1000) (2 ^ 200)) = ms := by
  have hPpos : 0 < P := by rw [hP]; exact Nat.two_pow_pos _
  have hlog : Nat.log2 (V * 1000) = k + 200 := by
    apply log2_eq
    · rw [show k + 200 = 62 + (k + 138) by omega, Nat.pow_add, ← hP]; exact hlo
    · rw [show k + 200 + 1 = 63 + (k + 138) by omega, Nat.pow_add, ← hP]; exact hhi
  have hmt : ms * T = ms * 2 ^ (52 - k) * 2 ^ (k + 148) := by
    rw [hT, Nat.mul_assoc, ← Nat.pow_add, show 52 - k + (k + 148) = 200 by omega]
  have hE : 2 ^ (k + 148) = 1024 * P := by
    rw [show k + 148 = 10 + (k + 138) by omega, Nat.pow_add, ← hP]
  unfold f64
  rw [Nat.mul_div_cancel _ (Nat.two_pow_pos 200), hlog, show k + 200 - 52 = k + 148 by omega]
  dsimp only
  rw [Nat.mul_comm (2 ^ 200) (2 ^ (k + 148)), roundHalfEven_scale _ _ _ (Nat.two_pow_pos 200)]
  have : roundHalfEven (V * 1000) (2 ^ (k + 148)) = ms * 2 ^ (52 - k) := by
    apply roundHalfEven_eq
    · rw [← hmt, hE]; omega
    · rw [← hmt, hE]; omega
  rw [this, ← hmt, hT, f64Trunc, Nat.mul_div_cancel _ (Nat.two_pow_pos 200)]

/-- the timestamp survives when `ms / 1000` and `ms` lie ten binades apart -/
theorem sctMillis_exact (k ms : Nat) (hk0 : 9 ≤ k) (hk : k ≤ 52) (h1 : 2 ^ k ≤ ms) (h2 : ms < 1000 * 2 ^ (k - 9)) :
    sctMillis ms = ms := by
  rw [sctMillis_eq]
  obtain ⟨T, hT⟩ : ∃ T : Nat, T = 2 ^ 200 := ⟨_, rfl⟩
  obtain ⟨P, hP⟩ : ∃ P : Nat, P = 2 ^ (k + 138) := ⟨_, rfl⟩
  have hPpos : 0 < P := by rw [hP]; exact Nat.two_pow_pos _
  have hkT : 2 ^ k * T = 2 ^ 62 * P := by rw [hT, hP, ← Nat.pow_add, ← Nat.pow_add]; congr 1; omega
  have hkT' : 1000 * 2 ^ (k - 9) * T = 1000 * (2 ^ 53 * P) := by
    rw [hT, hP, Nat.mul_assoc, ← Nat.pow_add, ← Nat.pow_add]; congr 2; omega
  have hTP : 1024 * P ≤ T := by
    rw [hT, hP, show (1024 : Nat) = 2 ^ 10 from rfl, ← Nat.pow_add]
    exact Nat.pow_le_pow_right (by omega) (by omega)
  have hAlo : 2 ^ 62 * P ≤ ms * T := by rw [← hkT]; exact Nat.mul_le_mul_right T h1
  have hAhi : ms * T + T ≤ 1000 * (2 ^ 53 * P) := by
    rw [← hkT', ← Nat.succ_mul]; exact Nat.mul_le_mul_right T h2
  have hlog : Nat.log2 (ms * 2 ^ 200 / 1000) = k + 190 := by
    rw [← hT]
    apply log2_eq
    · rw [show k + 190 = 52 + (k + 138) by omega, Nat.pow_add, ← hP, Nat.le_div_iff_mul_le (by omega)]; omega
    · rw [show k + 190 + 1 = 53 + (k + 138) by omega, Nat.pow_add, ← hP, Nat.div_lt_iff_lt_mul (by omega)]; omega
  have hV : f64 ms 1000 = roundHalfEven (ms * T) (1000 * P) * P := by
    unfold f64
    rw [hlog, show k + 190 - 52 = k + 138 by omega]
    dsimp only
    rw [← hP, ← hT]
  rw [hV]
  have a := roundHalfEven_le (ms * T) (1000 * P) (by omega)
  have b := le_roundHalfEven (ms * T) (1000 * P) (by omega)
  have e : roundHalfEven (ms * T) (1000 * P) * P * 1000 = roundHalfEven (ms * T) (1000 * P) * (1000 * P) := by
    rw [Nat.mul_assoc, Nat.mul_comm P]
  rw [← e] at a b
  refine millis_core T P k ms _ hT hk hP ?_ ?_ a b
  · rcases Nat.lt_or_ge (2 ^ k) ms with hgt | hle
    · have : 2 ^ 62 * P + T ≤ ms * T := by
        rw [← hkT, ← Nat.succ_mul]; exact Nat.mul_le_mul_right T hgt
      omega
    · have hms : ms = 2 ^ k := by omega
      rw [hms, hkT, roundHalfEven_scale _ _ _ hPpos, show roundHalfEven (2 ^ 62) 1000 = 4611686018427388 by decide]
      omega
  · omega

/-- the timestamp is never off by more than one -/
theorem sctMillis_within_one (ms : Nat) (h : ms < 2 ^ 51) : sctMillis ms = ms ∨ sctMillis ms + 1 = ms := by
  rw [sctMillis_eq]
  rcases Nat.eq_zero_or_pos ms with h0 | hpos
  · subst h0; left; decide
  obtain ⟨T, hT⟩ : ∃ T : Nat, T = 2 ^ 200 := ⟨_, rfl⟩
  have hTval : T = 1606938044258990275541962092341162602522202993782792835301376 := by rw [hT]
  have hTA : T ≤ ms * T := Nat.le_mul_of_pos_left T hpos
  have hAT : ms * T + T ≤ 2 ^ 51 * T := by rw [← Nat.succ_mul]; exact Nat.mul_le_mul_right T h
  have r1 := f64_rel ms 1000 (by omega) (by
    rw [Nat.le_div_iff_mul_le (by omega), ← hT]; omega)
  generalize f64 ms 1000 = V at *
  rw [← hT] at r1
  obtain ⟨N, hN⟩ : ∃ N : Nat, N = V * 1000 := ⟨_, rfl⟩
  rw [← hN] at r1 ⊢
  have r2 := f64_rel N (2 ^ 200) (Nat.two_pow_pos 200) (by
    rw [Nat.mul_div_cancel _ (Nat.two_pow_pos 200)]; omega)
  generalize f64 N (2 ^ 200) = W at *
  have c1 : 2 ^ 53 * W ≤ 2 ^ 53 * N + N := by
    have := r2.1
    rw [← Nat.mul_assoc, ← Nat.mul_assoc, ← Nat.add_mul] at this
    exact Nat.le_of_mul_le_mul_right this (Nat.two_pow_pos 200)
  have c2 : 2 ^ 53 * N ≤ 2 ^ 53 * W + N := by
    have := r2.2
    rw [← Nat.mul_assoc, ← Nat.mul_assoc, ← Nat.add_mul] at this
    exact Nat.le_of_mul_le_mul_right this (Nat.two_pow_pos 200)
  have hhi : W < (ms + 1) * T := by rw [Nat.add_mul]; omega
  have hlo : ms * T ≤ W + T := by omega
  unfold f64Trunc
  rw [← hT]
  have u : W / T < ms + 1 := (Nat.div_lt_iff_lt_mul (by omega)).2 hhi
  have l : ms - 1 ≤ W / T := by
    rw [Nat.le_div_iff_mul_le (by omega), Nat.sub_mul]; omega
  omega

end Sigstore.Sct
