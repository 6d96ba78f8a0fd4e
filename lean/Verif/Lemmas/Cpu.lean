import Verif.Model.Cpu
import Verif.Spec.Cpu

/-! # Masks and bits -/

namespace Verif.CpuDetect

open Spec

theorem bit_eq (x k : Nat) : bit x k = x.testBit k := by
  unfold bit
  rw [Nat.one_shiftLeft]
  cases h : x.testBit k with
  | false =>
    have : x &&& 2 ^ k = 0 := by
      apply Nat.eq_of_testBit_eq
      intro i
      rw [Nat.testBit_and, Nat.testBit_two_pow, Nat.zero_testBit]
      by_cases e : k = i
      · subst e; rw [h]; rfl
      · simp [e]
    simp [this]
  | true =>
    have : x &&& 2 ^ k ≠ 0 := by
      intro e
      have : (x &&& 2 ^ k).testBit k = false := by rw [e, Nat.zero_testBit]
      rw [Nat.testBit_and, h, Nat.testBit_two_pow_self] at this
      cases this
    simp [this]

theorem mask6 (x : Nat) : (x &&& 6 = 6) ↔ x.testBit 1 = true ∧ x.testBit 2 = true := by
  constructor
  · intro h
    have h1 : (x &&& 6).testBit 1 = (6 : Nat).testBit 1 := by rw [h]
    have h2 : (x &&& 6).testBit 2 = (6 : Nat).testBit 2 := by rw [h]
    rw [Nat.testBit_and] at h1 h2
    have e1 : (6 : Nat).testBit 1 = true := by decide
    have e2 : (6 : Nat).testBit 2 = true := by decide
    rw [e1, Bool.and_true] at h1
    rw [e2, Bool.and_true] at h2
    exact ⟨h1, h2⟩
  · intro ⟨h1, h2⟩
    apply Nat.eq_of_testBit_eq
    intro i
    rw [Nat.testBit_and]
    match i with
    | 0 => simp
    | 1 => rw [h1]; rfl
    | 2 => rw [h2]; rfl
    | i + 3 =>
      have : (6 : Nat).testBit (i + 3) = false := Nat.testBit_lt_two_pow (by
        have : 2 ^ (i + 3) = 2 ^ i * 8 := by rw [Nat.pow_add]
        have := Nat.two_pow_pos i
        omega)
      rw [this, Bool.and_false]

theorem os_eq (c : Cpu) (h : 1 ≤ c.maxLeaf) (b : Build) (hb : b = .gcc ∨ b = .msvc) :
    osSupportsAVX b c = true ↔ osAvx c := by
  rcases hb with rfl | rfl
  · simp only [osSupportsAVX, getEcx1, if_pos h, bit_eq, osAvx]
    by_cases h1 : c.ecx1.testBit 27 = true
    · rw [if_pos h1, decide_eq_true_eq, mask6]; simp [h1]
    · rw [if_neg h1]; simp [h1]
  · simp only [osSupportsAVX, msvcEcx1, if_pos h, bit_eq, osAvx]
    by_cases h1 : c.ecx1.testBit 27 = true
    · rw [if_pos h1, decide_eq_true_eq, mask6]; simp [h1]
    · rw [if_neg h1]; simp [h1]

/-- What the AVX-512 test checks. -/
def Checked512 (c : Cpu) : Prop := 7 ≤ c.maxLeaf ∧ c.ecx1.testBit 28 ∧ osAvx c ∧ c.ebx7.testBit 16

theorem avx2_gcc (c : Cpu) : isAVX2Supported .gcc c = true ↔ Usable c .avx2 := by
  unfold isAVX2Supported Usable
  by_cases h : 1 ≤ c.maxLeaf
  · have ho := os_eq c h .gcc (.inl rfl)
    simp only [getEcx1, if_pos h, bit_eq]
    by_cases h7 : 7 ≤ c.maxLeaf
    · simp only [getEbx7, if_pos h7]
      by_cases hx : osSupportsAVX .gcc c = true
      · have h27 : c.ecx1.testBit 27 = true := (ho.1 hx).1
        simp [hx, h7, ho.1 hx, h27]
      · have : ¬ osAvx c := fun h' => hx (ho.2 h')
        simp [hx, this]
    · simp [getEbx7, h7]
  · simp only [getEcx1, if_neg h]
    constructor
    · intro h'; cases h'
    · intro h'; have := h'.1; omega

theorem avx512_gcc (c : Cpu) : isAVX512Supported .gcc c = true ↔ Checked512 c := by
  unfold isAVX512Supported Checked512
  by_cases h : 1 ≤ c.maxLeaf
  · have ho := os_eq c h .gcc (.inl rfl)
    simp only [getEcx1, if_pos h, bit_eq]
    by_cases h7 : 7 ≤ c.maxLeaf
    · simp only [getEbx7, if_pos h7]
      by_cases hx : osSupportsAVX .gcc c = true
      · have h27 : c.ecx1.testBit 27 = true := (ho.1 hx).1
        simp [hx, h7, ho.1 hx, h27]
      · have : ¬ osAvx c := fun h' => hx (ho.2 h')
        simp [hx, this]
    · simp [getEbx7, h7]
  · simp only [getEcx1, if_neg h]
    constructor
    · intro h'; cases h'
    · intro h'; have := h'.1; omega

theorem avx2_msvc (c : Cpu) (h7 : 7 ≤ c.maxLeaf) : isAVX2Supported .msvc c = true ↔ Usable c .avx2 := by
  unfold isAVX2Supported Usable
  have h : 1 ≤ c.maxLeaf := by omega
  have ho := os_eq c h .msvc (.inr rfl)
  simp only [msvcEcx1, msvcEbx7, if_pos h, if_pos h7, bit_eq]
  by_cases hx : osSupportsAVX .msvc c = true
  · have h27 : c.ecx1.testBit 27 = true := (ho.1 hx).1
    simp [hx, h7, ho.1 hx, h27]
  · have : ¬ osAvx c := fun h' => hx (ho.2 h')
    simp [hx, this]

theorem avx512_msvc (c : Cpu) (h7 : 7 ≤ c.maxLeaf) : isAVX512Supported .msvc c = true ↔ Checked512 c := by
  unfold isAVX512Supported Checked512
  have h : 1 ≤ c.maxLeaf := by omega
  have ho := os_eq c h .msvc (.inr rfl)
  simp only [msvcEcx1, msvcEbx7, if_pos h, if_pos h7, bit_eq]
  by_cases hx : osSupportsAVX .msvc c = true
  · have h27 : c.ecx1.testBit 27 = true := (ho.1 hx).1
    simp [hx, h7, ho.1 hx, h27]
  · have : ¬ osAvx c := fun h' => hx (ho.2 h')
    simp [hx, this]

theorem sse41_iff (c : Cpu) (b : Build) (hb : b ≠ .unknown) (h : b = .msvc → 1 ≤ c.maxLeaf) :
    isSSE41Supported b c = true ↔ Usable c .sse41 := by
  have key : (match getEcx1 c with | none => false | some ecx => bit ecx 19) = true ↔ Usable c .sse41 := by
    unfold getEcx1 Usable
    by_cases h1 : 1 ≤ c.maxLeaf
    · simp only [if_pos h1, bit_eq]; simp [h1]
    · simp [h1]
  cases b with
  | msvc =>
    have h1 := h rfl
    simp only [isSSE41Supported, msvcEcx1, if_pos h1, bit_eq, Usable]
    simp [h1]
  | gcc => exact key
  | apple => exact key
  | unknown => exact absurd rfl hb

theorem ssse3_iff (c : Cpu) (b : Build) (hb : b ≠ .unknown) (h : b = .msvc → 1 ≤ c.maxLeaf) :
    isSSSE3Supported b c = true ↔ Usable c .ssse3 := by
  have key : (match getEcx1 c with | none => false | some ecx => bit ecx 9) = true ↔ Usable c .ssse3 := by
    unfold getEcx1 Usable
    by_cases h1 : 1 ≤ c.maxLeaf
    · simp only [if_pos h1, bit_eq]; simp [h1]
    · simp [h1]
  cases b with
  | msvc =>
    have h1 := h rfl
    simp only [isSSSE3Supported, msvcEcx1, if_pos h1, bit_eq, Usable]
    simp [h1]
  | gcc => exact key
  | apple => exact key
  | unknown => exact absurd rfl hb

theorem avx_apple (c : Cpu) : isAVX2Supported .apple c = false ∧ isAVX512Supported .apple c = false := by
  constructor
  · unfold isAVX2Supported
    simp only [osSupportsAVX, Bool.not_false, if_true]
    cases getEcx1 c <;> simp
  · unfold isAVX512Supported
    simp only [osSupportsAVX, Bool.not_false, if_true]
    cases getEcx1 c <;> simp

theorem avx2_sound (b : Build) (c : Cpu) (h7 : b = .msvc → 7 ≤ c.maxLeaf) (h : isAVX2Supported b c = true) :
    Usable c .avx2 := by
  cases b with
  | msvc => exact (avx2_msvc c (h7 rfl)).1 h
  | gcc => exact (avx2_gcc c).1 h
  | apple => rw [(avx_apple c).1] at h; cases h
  | unknown => cases h

theorem avx512_sound (b : Build) (c : Cpu) (h7 : b = .msvc → 7 ≤ c.maxLeaf) (h : isAVX512Supported b c = true) :
    Checked512 c := by
  cases b with
  | msvc => exact (avx512_msvc c (h7 rfl)).1 h
  | gcc => exact (avx512_gcc c).1 h
  | apple => rw [(avx_apple c).2] at h; cases h
  | unknown => cases h

end Verif.CpuDetect
