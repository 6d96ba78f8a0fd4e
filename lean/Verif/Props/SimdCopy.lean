import Verif.Lemmas.SimdCopy

/-!
# C38: SIMD.memcpyX copies exactly count elements
-/

namespace Verif.Props

/-- C38, unaligned functions: for every CPU, element size (a divisor of 16 bytes covers every exported
type), addresses, contents and count, the copy succeeds and changes exactly the `count` destination
elements. -/
theorem C38_memcpy_exact (cfg : Cfg) {sz : Nat} (hsz : sz ∣ 16) (fa ta : Nat) (src dst : List α)
    (off count : Nat) (h1 : count ≤ src.length) (h2 : off + count ≤ dst.length) :
    ∃ dst', simdMemCpy cfg false sz fa ta src dst off count = .ok dst' ∧
      Spec.Copied src dst dst' off count := by
  refine ⟨_, ?_, writeAt_copied h1 h2⟩
  rw [simdMemCpy_eq cfg false hsz h1 h2 (by simp), if_neg (by simp)]

example : ∃ dst', simdMemCpy ⟨.ge313, true, true, true, true⟩ false 4 20 36
    (List.range 37) (List.replicate 40 7) 2 37 = .ok dst' ∧
      Spec.Copied (List.range 37) (List.replicate 40 7) dst' 2 37 :=
  C38_memcpy_exact _ (by decide) _ _ _ _ _ _ (by decide) (by decide)

/-- C38, aligned functions on 64-byte aligned addresses. -/
theorem C38_memcpyAligned_exact (cfg : Cfg) {sz : Nat} (hsz : sz ∣ 16) (fa ta : Nat) (src dst : List α)
    (off count : Nat) (h1 : count ≤ src.length) (h2 : off + count ≤ dst.length)
    (hfa : fa % 64 = 0) (hta : ta % 64 = 0) :
    ∃ dst', simdMemCpy cfg true sz fa ta src dst off count = .ok dst' ∧
      Spec.Copied src dst dst' off count := by
  refine ⟨_, ?_, writeAt_copied h1 h2⟩
  rw [simdMemCpy_eq cfg true hsz h1 h2 (fun _ => hfa), if_neg]
  rintro ⟨-, h⟩
  exact h ⟨fun _ _ => hta, fun _ _ => by omega, fun _ _ => by omega⟩

example : ∃ dst', simdMemCpy ⟨.ge313, false, true, true, true⟩ true 8 128 192
    (List.range 9) (List.replicate 10 7) 0 9 = .ok dst' ∧
      Spec.Copied (List.range 9) (List.replicate 10 7) dst' 0 9 :=
  C38_memcpyAligned_exact _ (by decide) _ _ _ _ _ _ (by decide) (by decide) (by decide) (by decide)

/-- C38, exact fault condition of the aligned functions when only the source is 64-byte aligned: either
the copy is exact or it faults, and it faults exactly when `CopyAligned` fails. -/
theorem C38_memcpyAligned_dichotomy (cfg : Cfg) {sz : Nat} (hsz : sz ∣ 16) (fa ta : Nat) (src dst : List α)
    (off count : Nat) (h1 : count ≤ src.length) (h2 : off + count ≤ dst.length) (hfa : fa % 64 = 0) :
    (CopyAligned cfg sz ta count ∧ ∃ dst', simdMemCpy cfg true sz fa ta src dst off count = .ok dst' ∧
      Spec.Copied src dst dst' off count) ∨
    (¬ CopyAligned cfg sz ta count ∧
      simdMemCpy cfg true sz fa ta src dst off count = .error .misaligned) := by
  rw [simdMemCpy_eq cfg true hsz h1 h2 (fun _ => hfa)]
  by_cases h : CopyAligned cfg sz ta count
  · exact .inl ⟨h, _, by simp [h], writeAt_copied h1 h2⟩
  · exact .inr ⟨h, by simp [h]⟩

example : ¬ CopyAligned ⟨.ge313, false, true, true, true⟩ 4 4 9 := by decide
example : CopyAligned ⟨.ge313, false, true, true, true⟩ 4 4 3 := by decide

/-- `fast_memcpy`, used by the object lists: exact for every size, address and CPU. -/
theorem C38_fastMemcpy_exact (cfg : Cfg) (fa ta : Nat) (src dst : List α) (off n : Nat)
    (h1 : n ≤ src.length) (h2 : off + n ≤ dst.length) :
    ∃ dst', fastMemcpy cfg fa ta src dst off n = .ok dst' ∧ Spec.Copied src dst dst' off n :=
  ⟨_, fastMemcpy_eq cfg h1 h2, writeAt_copied h1 h2⟩

example : ∃ dst', fastMemcpy ⟨.ge313, true, true, true, true⟩ 64 128 (List.range 40) (List.replicate 60 7)
    3 40 = .ok dst' ∧ Spec.Copied (List.range 40) (List.replicate 60 7) dst' 3 40 :=
  C38_fastMemcpy_exact _ _ _ _ _ _ _ (by decide) (by decide)

end Verif.Props
