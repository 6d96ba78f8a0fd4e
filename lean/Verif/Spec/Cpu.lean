import Verif.VocabCpu

/-!
# When an instruction set extension can be used

The rules of the Intel manual (Software Developer's Manual, volume 1, chapters 12, 14 and 15): CPUID must report the
extension, and for the AVX families the operating system must have enabled XGETBV (OSXSAVE) and the register state in
XCR0: SSE and AVX state (bits 1, 2), for AVX-512 also opmask and ZMM state (bits 5, 6, 7).
-/

namespace Verif.Spec

/-- The operating system saves the AVX registers. -/
def osAvx (c : Cpu) : Prop := c.ecx1.testBit 27 ∧ c.xcr0.testBit 1 ∧ c.xcr0.testBit 2

/-- The operating system saves the AVX-512 registers. -/
def osAvx512 (c : Cpu) : Prop := osAvx c ∧ c.xcr0.testBit 5 ∧ c.xcr0.testBit 6 ∧ c.xcr0.testBit 7

/-- The instructions of the extension execute without fault. -/
def Usable (c : Cpu) : Ext → Prop
  | .sse41 => 1 ≤ c.maxLeaf ∧ c.ecx1.testBit 19
  | .ssse3 => 1 ≤ c.maxLeaf ∧ c.ecx1.testBit 9
  | .avx2 => 7 ≤ c.maxLeaf ∧ c.ecx1.testBit 28 ∧ osAvx c ∧ c.ebx7.testBit 5
  | .avx512f => 7 ≤ c.maxLeaf ∧ c.ecx1.testBit 28 ∧ osAvx512 c ∧ c.ebx7.testBit 16
  | .avx512bw => 7 ≤ c.maxLeaf ∧ c.ecx1.testBit 28 ∧ osAvx512 c ∧ c.ebx7.testBit 16 ∧ c.ebx7.testBit 30

end Verif.Spec
