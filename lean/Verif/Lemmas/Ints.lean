import Verif.Spec.Guard

/-! Helper lemmas: fixed-width and CPython integers. -/

namespace Verif

theorem fits32 (v : Int) : FitsS 32 v ↔ -2147483648 ≤ v ∧ v < 2147483648 := by
  unfold FitsS; rw [show ((2:Int) ^ (32 - 1)) = 2147483648 from by decide]

theorem fits64 (v : Int) : FitsS 64 v ↔ -9223372036854775808 ≤ v ∧ v < 9223372036854775808 := by
  unfold FitsS; rw [show ((2:Int) ^ (64 - 1)) = 9223372036854775808 from by decide]

theorem Kind.fits64_of (K : Kind) {v : Int} (h : FitsS K.bits v) : FitsS 64 v := by
  cases K
  · simp only [Kind.bits, fits32] at h; rw [fits64]; omega
  · exact h

theorem wrapS_fits (K : Kind) (v : Int) : FitsS K.bits (wrapS K.bits v) := by
  unfold wrapS
  cases K <;> simp only [Kind.bits, fits32, fits64]
  · have h1 := Int.le_bmod (x := v) (m := 2 ^ 32) (by decide)
    have h2 := Int.bmod_lt (x := v) (m := 2 ^ 32) (by decide)
    omega
  · have h1 := Int.le_bmod (x := v) (m := 2 ^ 64) (by decide)
    have h2 := Int.bmod_lt (x := v) (m := 2 ^ 64) (by decide)
    omega

theorem wrapS_of_fits (K : Kind) {v : Int} (h : FitsS K.bits v) : wrapS K.bits v = v := by
  unfold wrapS
  cases K <;> simp only [Kind.bits, fits32, fits64] at *
  · exact Int.bmod_eq_of_le (by omega) (by omega)
  · exact Int.bmod_eq_of_le (by omega) (by omega)

theorem digitsVal_digits30 (n : Nat) : digitsVal (digits30 n) = n := by
  fun_induction digits30 n with
  | case1 => rfl
  | case2 n h ih =>
    rw [digitsVal, ih]
    exact Nat.mod_add_div n (2 ^ 30)

theorem canon_value (v : Int) : (canon v).value = v := by
  unfold canon PyLong.value
  simp only [digitsVal_digits30]
  exact Int.sign_mul_natAbs v

theorem canon_inj {a b : Int} (h : canon a = canon b) : a = b := by
  rw [← canon_value a, h, canon_value]

theorem digits30_lt (n : Nat) : ∀ d ∈ digits30 n, d < 2 ^ 30 := by
  fun_induction digits30 n with
  | case1 => simp
  | case2 n h ih =>
    intro d hd
    rcases List.mem_cons.1 hd with rfl | hd
    · exact Nat.mod_lt _ (by decide)
    · exact ih d hd

theorem digits30_last (n : Nat) : (digits30 n).getLast? ≠ some 0 := by
  fun_induction digits30 n with
  | case1 => simp
  | case2 n h ih =>
    by_cases h2 : n / 2 ^ 30 = 0
    · rw [h2, digits30, dif_pos rfl]
      simp only [List.getLast?_singleton, ne_eq, Option.some.injEq]
      omega
    · have : digits30 (n / 2 ^ 30) ≠ [] := by rw [digits30, dif_neg h2]; simp
      rw [List.getLast?_cons_of_ne_nil this]
      exact ih

theorem digits30_nil (n : Nat) : digits30 n = [] ↔ n = 0 := by
  rw [digits30]; split <;> simp [*]

theorem canon_normal (v : Int) : (canon v).Normal := by
  refine ⟨digits30_lt _, digits30_last _, ?_, ?_⟩
  · simp [canon, digits30_nil, Int.sign_eq_zero_iff_zero]
  · simp only [canon]
    rcases Int.lt_trichotomy v 0 with h | h | h
    · right; right; exact Int.sign_eq_neg_one_of_neg h
    · left; simp [h]
    · right; left; exact Int.sign_eq_one_of_pos h

theorem digits30_small {n : Nat} (h0 : 0 < n) (h : n < 2 ^ 30) : digits30 n = [n] := by
  rw [digits30, dif_neg (by omega), Nat.div_eq_of_lt h, Nat.mod_eq_of_lt h, digits30, dif_pos rfl]

theorem box_eq_canon_iff (cfg : Cfg) (K : Kind) {v : Int} (hv : FitsS K.bits v) :
    box K cfg.py v = canon v ↔ BoxOk cfg K v := by
  unfold BoxOk box
  cases K with
  | i64 => simp
  | i32 =>
    simp only [Kind.bits, fits32] at hv
    have key : (⟨if v < 0 then -1 else 1, [(v % 2 ^ 32).toNat]⟩ : PyLong) = canon v ↔ 0 < v ∧ v < 2 ^ 30 := by
      constructor
      · intro h
        have hn := canon_normal v
        rw [← h] at hn
        obtain ⟨h1, h2, -, -⟩ := hn
        simp at h1 h2
        have hval : (canon v).value = v := canon_value v
        rw [← h] at hval
        simp only [PyLong.value, digitsVal] at hval
        split at hval <;> omega
      · rintro ⟨h1, h2⟩
        have : v % 2 ^ 32 = v := by omega
        unfold canon
        rw [this, Int.sign_eq_one_of_pos h1, if_neg (by omega), digits30_small (by omega) (by omega)]
        congr 2
        omega
    unfold fromInt
    cases hpy : cfg.py <;> simp only [reduceCtorEq, false_or, true_or] <;> exact key

end Verif
