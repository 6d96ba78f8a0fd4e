import Verif.Lemmas.Cpu

/-!
# C40: a reported SIMD feature can be used
-/

namespace Verif.Props

open CpuDetect

/-- C40. `isAVX2Supported()`, `isSSE41Supported()` and `isSSSE3Supported()` (GCC and Clang on Linux) report true exactly
on the machines where the extension can be used: never a fault, never a needless fallback. -/
theorem C40_reported_exactly (c : Cpu) :
    (isAVX2Supported .gcc c = true ↔ Spec.Usable c .avx2) ∧ (isSSE41Supported .gcc c = true ↔ Spec.Usable c .sse41) ∧
      (isSSSE3Supported .gcc c = true ↔ Spec.Usable c .ssse3) :=
  ⟨avx2_gcc c, sse41_iff c .gcc (by decide) (by intro h; cases h), ssse3_iff c .gcc (by decide) (by intro h; cases h)⟩

/-- A machine with AVX2, and one where the operating system has not enabled the AVX registers. -/
example : isAVX2Supported .gcc ⟨13, 0xFFFFFFFF, 0x20, 7, 0⟩ = true ∧
    isAVX2Supported .gcc ⟨13, 0xFFFFFFFF, 0x20, 3, 0⟩ = false := by decide

/-- C40 for every vector path guarded by an SSE or AVX2 flag, and every compiler: the instructions it executes can be
used. With MSVC, which does not ask for the largest CPUID leaf, for machines with leaf 7. -/
theorem C40_guarded_paths_partial (b : Build) (c : Cpu) (p : Path) (e : Ext)
    (hp : p ≠ .copyAvx512 ∧ p ≠ .reverseAvx512 ∧ p ≠ .mergeAvx512 ∧ p ≠ .sortAvx512) (h7 : b = .msvc → 7 ≤ c.maxLeaf)
    (hg : guard b c p = true) (he : e ∈ needs p) : Spec.Usable c e := by
  have h1 : b = .msvc → 1 ≤ c.maxLeaf := fun h => by have := h7 h; omega
  obtain ⟨p1, p2, p3, p4⟩ := hp
  cases p with
  | copySse => cases he
  | mergeSse =>
    cases List.mem_singleton.1 he
    exact (sse41_iff c b (by rintro rfl; cases hg) h1).1 hg
  | reverseSse =>
    cases List.mem_singleton.1 he
    exact (ssse3_iff c b (by rintro rfl; cases hg) h1).1 hg
  | copyAvx2 => cases List.mem_singleton.1 he; exact avx2_sound b c h7 hg
  | reverseAvx2 => cases List.mem_singleton.1 he; exact avx2_sound b c h7 hg
  | mergeAvx2 => cases List.mem_singleton.1 he; exact avx2_sound b c h7 hg
  | sortAvx2 => cases List.mem_singleton.1 he; exact avx2_sound b c h7 hg
  | copyAvx512 => exact absurd rfl p1
  | reverseAvx512 => exact absurd rfl p2
  | mergeAvx512 => exact absurd rfl p3
  | sortAvx512 => exact absurd rfl p4

example : guard .gcc ⟨13, 0xFFFFFFFF, 0x20, 7, 0⟩ .reverseAvx2 = true ∧
    guard .msvc ⟨13, 0x80000, 0, 0, 0⟩ .mergeSse = true := by decide

/-- C40 for the AVX-512 paths, on machines whose operating system has enabled the AVX-512 registers (and which have
AVX-512BW, for `reverse`): the instructions can be used. Missing: the detection does not check these two conditions. -/
theorem C40_avx512_partial (b : Build) (c : Cpu) (p : Path) (e : Ext) (h7 : b = .msvc → 7 ≤ c.maxLeaf)
    (hp : p = .copyAvx512 ∨ p = .reverseAvx512 ∨ p = .mergeAvx512 ∨ p = .sortAvx512)
    (hos : Spec.osAvx512 c) (hbw : p = .reverseAvx512 → c.ebx7.testBit 30 = true)
    (hg : guard b c p = true) (he : e ∈ needs p) : Spec.Usable c e := by
  have hc : Checked512 c := by
    apply avx512_sound b c h7
    rcases hp with rfl | rfl | rfl | rfl <;> exact hg
  have f : Spec.Usable c .avx512f := ⟨hc.1, hc.2.1, hos, hc.2.2.2⟩
  rcases hp with rfl | rfl | rfl | rfl
  · cases List.mem_singleton.1 he; exact f
  · rcases List.mem_cons.1 he with rfl | he
    · exact f
    · cases List.mem_singleton.1 he
      exact ⟨hc.1, hc.2.1, hos, hc.2.2.2, hbw rfl⟩
  · cases List.mem_singleton.1 he; exact f
  · cases List.mem_singleton.1 he; exact f

example : guard .gcc ⟨13, 0xFFFFFFFF, 0x40010020, 0xE7, 0⟩ .reverseAvx512 = true ∧
    (0x40010020 : Nat).testBit 30 = true ∧ (0xE7 : Nat).testBit 5 = true := by decide

/-- C40 is violated. The AVX-512 test is the AVX2 test with another feature bit: it never looks at the AVX-512 register
state in XCR0. Every CPU with AVX-512F under an operating system that has enabled only the AVX registers is reported as
supporting AVX-512, and all four AVX-512 paths fault there. -/
theorem C40_avx512_without_os_support (c : Cpu) (h7 : 7 ≤ c.maxLeaf) (havx : c.ecx1.testBit 28 = true)
    (hos : Spec.osAvx c) (hf : c.ebx7.testBit 16 = true) (hno : c.xcr0.testBit 6 = false) :
    isAVX512Supported .gcc c = true ∧ isAVX512Supported .msvc c = true ∧ ¬ Spec.Usable c .avx512f ∧
      ∀ p, p = .copyAvx512 ∨ p = .reverseAvx512 ∨ p = .mergeAvx512 ∨ p = .sortAvx512 →
        guard .gcc c p = true ∧ ∃ e ∈ needs p, ¬ Spec.Usable c e := by
  have hc : Checked512 c := ⟨h7, havx, hos, hf⟩
  have g := (avx512_gcc c).2 hc
  have nu : ¬ Spec.Usable c .avx512f := by
    intro ⟨_, _, ⟨_, _, h6, _⟩, _⟩
    rw [hno] at h6
    cases h6
  refine ⟨g, (avx512_msvc c h7).2 hc, nu, fun p hp => ?_⟩
  rcases hp with rfl | rfl | rfl | rfl
  · exact ⟨g, .avx512f, by simp [needs], nu⟩
  · exact ⟨g, .avx512f, by simp [needs], nu⟩
  · exact ⟨g, .avx512f, by simp [needs], nu⟩
  · exact ⟨g, .avx512f, by simp [needs], nu⟩

example : ∃ c : Cpu, 7 ≤ c.maxLeaf ∧ c.ecx1.testBit 28 = true ∧ Spec.osAvx c ∧ c.ebx7.testBit 16 = true ∧
    c.xcr0.testBit 6 = false :=
  ⟨⟨13, 0x18000000, 0x10020, 7, 0⟩, by decide, by decide, ⟨by decide, by decide, by decide⟩, by decide, by decide⟩

/-- C40 is violated. `reverse` executes AVX-512BW instructions under the AVX-512 flag, which only looks at AVX-512F:
on every CPU with AVX-512F but not AVX-512BW (Knights Landing) it faults, whatever the operating system. -/
theorem C40_reverse_needs_avx512bw (c : Cpu) (h7 : 7 ≤ c.maxLeaf) (havx : c.ecx1.testBit 28 = true)
    (hos : Spec.osAvx512 c) (hf : c.ebx7.testBit 16 = true) (hno : c.ebx7.testBit 30 = false) :
    guard .gcc c .reverseAvx512 = true ∧ .avx512bw ∈ needs .reverseAvx512 ∧ ¬ Spec.Usable c .avx512bw := by
  refine ⟨(avx512_gcc c).2 ⟨h7, havx, hos.1, hf⟩, by simp [needs], ?_⟩
  intro ⟨_, _, _, _, h⟩
  rw [hno] at h
  cases h

example : ∃ c : Cpu, 7 ≤ c.maxLeaf ∧ c.ecx1.testBit 28 = true ∧ Spec.osAvx512 c ∧ c.ebx7.testBit 16 = true ∧
    c.ebx7.testBit 30 = false :=
  ⟨⟨13, 0x18000000, 0x10020, 0xE7, 0⟩, by decide, by decide,
    ⟨⟨by decide, by decide, by decide⟩, by decide, by decide, by decide⟩, by decide, by decide⟩

end Verif.Props
