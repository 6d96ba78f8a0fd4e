import Verif.Lemmas.SimdCall
import Verif.Props.SimdReverse

/-!
# C63: the copying and reversing methods of the SIMD class, from the call to the bytes in memory
-/

namespace Verif.Props

open SimdCall

/-- C63, `memcpyX`: for every CPU, every element type and every number of elements, a call with the addresses of two
separate ranges of living memory returns None, the bytes of the elements are at the destination, and nothing else has
changed. -/
theorem C63_memcpy (cfg : Cfg) (T : ElemName) (m : Mem) (src dst n : Nat) (h1 : src < 2 ^ 64) (h2 : dst < 2 ^ 64)
    (h3 : n < 2 ^ 64)
    (hmem : n = 0 ∨ Spec.Alive m src (n * Spec.elemBytes T) ∧ Spec.Alive m dst (n * Spec.elemBytes T) ∧
      (src + n * Spec.elemBytes T ≤ dst ∨ dst + n * Spec.elemBytes T ≤ src)) :
    ∃ m', call cfg .memcpy T m [.int src, .int dst, .int n] = .ok m' .none ∧
      Spec.MemCopied m m' src dst (n * Spec.elemBytes T) :=
  memcpy_done cfg T m (word_nat h1) (word_nat h2) (word_nat h3) hmem

/-- Twenty shorts between two blocks. -/
example : ∃ m', call ⟨.ge313, true, true, true, true⟩ .memcpy .short
    ⟨[(64, 40), (200, 100)], fun x => Fin.ofNat 256 x⟩ [.int 64, .int 210, .int 20] = .ok m' .none ∧
    Spec.MemCopied ⟨[(64, 40), (200, 100)], fun x => Fin.ofNat 256 x⟩ m' 64 210 40 :=
  C63_memcpy _ .short _ 64 210 20 (by decide) (by decide) (by decide)
    (.inr ⟨⟨(64, 40), by decide, by decide, by decide⟩, ⟨(200, 100), by decide, by decide, by decide⟩, .inl (by decide)⟩)

/-- C63, `memcpyXAligned`: the same if both addresses have the alignment that the vector instructions used for this many
elements ask for, a fault otherwise. -/
theorem C63_memcpyAligned_dichotomy (cfg : Cfg) (T : ElemName) (m : Mem) (src dst n : Nat) (h1 : src < 2 ^ 64)
    (h2 : dst < 2 ^ 64) (h3 : n < 2 ^ 64) (hn : 0 < n) (a1 : Spec.Alive m src (n * Spec.elemBytes T))
    (a2 : Spec.Alive m dst (n * Spec.elemBytes T))
    (a3 : src + n * Spec.elemBytes T ≤ dst ∨ dst + n * Spec.elemBytes T ≤ src) :
    (CopyAligned cfg (Spec.elemBytes T) src n ∧ CopyAligned cfg (Spec.elemBytes T) dst n ∧
      ∃ m', call cfg .memcpyAligned T m [.int src, .int dst, .int n] = .ok m' .none ∧
        Spec.MemCopied m m' src dst (n * Spec.elemBytes T)) ∨
    (¬ (CopyAligned cfg (Spec.elemBytes T) src n ∧ CopyAligned cfg (Spec.elemBytes T) dst n) ∧
      call cfg .memcpyAligned T m [.int src, .int dst, .int n] = .ub .misaligned) :=
  memcpyAligned_done cfg T m (pointer_nat h1) (pointer_nat h2) (word_nat h3) hn a1 a2 a3

/-- C63, `memcpyXAligned` with addresses that are multiples of 64, as the documentation asks: always done. -/
theorem C63_memcpyAligned (cfg : Cfg) (T : ElemName) (m : Mem) (src dst n : Nat) (h1 : src < 2 ^ 64) (h2 : dst < 2 ^ 64)
    (h3 : n < 2 ^ 64) (hs : src % 64 = 0) (hd : dst % 64 = 0)
    (hmem : n = 0 ∨ Spec.Alive m src (n * Spec.elemBytes T) ∧ Spec.Alive m dst (n * Spec.elemBytes T) ∧
      (src + n * Spec.elemBytes T ≤ dst ∨ dst + n * Spec.elemBytes T ≤ src)) :
    ∃ m', call cfg .memcpyAligned T m [.int src, .int dst, .int n] = .ok m' .none ∧
      Spec.MemCopied m m' src dst (n * Spec.elemBytes T) := by
  by_cases hn : n = 0
  · subst hn
    have e1 : pointer (.int src) = (src, none) := pointer_nat h1
    have e2 : pointer (.int dst) = (dst, none) := pointer_nat h2
    have e3 : word (.int (0 : Nat)) = (0, none) := by decide
    simp only [call, e1, e2, e3, copy_zero]
    exact ⟨m, rfl, rfl, fun i hi => by omega, fun x _ => rfl⟩
  · obtain ⟨a1, a2, a3⟩ := hmem.resolve_left hn
    have al : ∀ a, a % 64 = 0 → CopyAligned cfg (Spec.elemBytes T) a n := fun a ha =>
      ⟨fun _ _ => ha, fun _ _ => by omega, fun _ _ => by omega⟩
    rcases C63_memcpyAligned_dichotomy cfg T m src dst n h1 h2 h3 (by omega) a1 a2 a3 with ⟨-, -, h⟩ | ⟨h, -⟩
    · exact h
    · exact absurd ⟨al src hs, al dst hd⟩ h

example : ∃ m', call ⟨.ge313, true, true, true, true⟩ .memcpyAligned .double
    ⟨[(64, 80), (256, 100)], fun x => Fin.ofNat 256 x⟩ [.int 64, .int 256, .int 10] = .ok m' .none ∧
    Spec.MemCopied ⟨[(64, 80), (256, 100)], fun x => Fin.ofNat 256 x⟩ m' 64 256 80 :=
  C63_memcpyAligned _ .double _ 64 256 10 (by decide) (by decide) (by decide) (by decide) (by decide)
    (.inr ⟨⟨(64, 80), by decide, by decide, by decide⟩, ⟨(256, 100), by decide, by decide, by decide⟩, .inl (by decide)⟩)

/-- C63, `reverseX`: in every case but the one of C39 (elements of 16 bytes, long enough for the AVX2 loop), the elements
are in opposite order and nothing else has changed. -/
theorem C63_reverse_partial (cfg : Cfg) (T : ElemName) (m : Mem) (p n : Nat) (h1 : p < 2 ^ 64) (h3 : n < 2 ^ 64)
    (hmem : n = 0 ∨ Spec.Alive m p (n * Spec.elemBytes T)) (h : T ≠ .longDouble ∨ ¬ Avx2Loop16 cfg n) :
    ∃ m', call cfg .reverse T m [.int p, .int n] = .ok m' .none ∧ Spec.MemReversed m m' p (Spec.elemBytes T) n :=
  reverse_done cfg T m (pointer_nat h1) (word_nat h3) hmem h

example : ∃ m', call ⟨.ge313, false, true, true, true⟩ .reverse .pyObjectPtr
    ⟨[(64, 8000)], fun x => Fin.ofNat 256 x⟩ [.int 64, .int 1000] = .ok m' .none ∧
    Spec.MemReversed ⟨[(64, 8000)], fun x => Fin.ofNat 256 x⟩ m' 64 8 1000 :=
  C63_reverse_partial _ .pyObjectPtr _ 64 1000 (by decide) (by decide)
    (.inr ⟨(64, 8000), by decide, by decide, by decide⟩) (.inl (by decide))

/-- C63 fails for `reverseLongDouble` on AVX2 machines (C39): the halves of elements are exchanged. -/
theorem C63_reverseLongDouble_negation (cfg : Cfg) (m : Mem) (p n : Nat) (h1 : p < 2 ^ 64) (h3 : n < 2 ^ 64)
    (hmem : Spec.Alive m p (n * 16)) (h : Avx2Loop16 cfg n)
    (hne : ∀ e, e < n → m.byte (p + e * 16) ≠ m.byte (p + (e * 16 + 8))) :
    ¬ ∃ m', call cfg .reverse .longDouble m [.int p, .int n] = .ok m' .none ∧ Spec.MemReversed m m' p 16 n :=
  reverse_halves cfg m (pointer_nat h1) (word_nat h3) hmem h hne

example : Avx2Loop16 ⟨.ge313, false, true, true, true⟩ 4 ∧
    ∀ e, e < 4 → (Fin.ofNat 256 (64 + e * 16) : Byte) ≠ Fin.ofNat 256 (64 + (e * 16 + 8)) := by
  refine ⟨⟨rfl, by decide⟩, by decide⟩

/-- C63, `reverseLongDouble`, exactly: with `n` elements in living memory, the call reverses them precisely when every element that
the AVX2 loop exchanges (pairs at both ends that the AVX-512 loop has not handled) consists of two equal halves. -/
theorem C63_reverseLongDouble_exact (cfg : Cfg) (m : Mem) (p n : Nat) (h1 : p < 2 ^ 64) (h3 : n < 2 ^ 64)
    (hmem : n = 0 ∨ Spec.Alive m p (n * 16)) :
    (∃ m', call cfg .reverse .longDouble m [.int p, .int n] = .ok m' .none ∧ Spec.MemReversed m m' p 16 n) ↔
      (cfg.avx2 = true → ∀ e, (if cfg.avx512 then n / 2 / 4 * 4 else 0) ≤ e → e < n / 2 / 2 * 2 → ∀ b, b < 8 →
        m.byte (p + (e * 16 + b)) = m.byte (p + (e * 16 + 8 + b)) ∧
        m.byte (p + ((n - 1 - e) * 16 + b)) = m.byte (p + ((n - 1 - e) * 16 + 8 + b))) :=
  (reverse16_iff cfg m (pointer_nat h1) (word_nat h3) hmem).trans (C39_reverse16_exact cfg n fun i => m.byte (p + i))

/-- Ten elements of equal halves are reversed on an AVX2 machine. -/
example : ∃ m', call ⟨.ge313, false, true, true, true⟩ .reverse .longDouble
    ⟨[(64, 160)], fun a => Fin.ofNat 256 (a / 16 + a % 8)⟩ [.int (64 : Nat), .int (10 : Nat)] = .ok m' .none ∧
      Spec.MemReversed ⟨[(64, 160)], fun a => Fin.ofNat 256 (a / 16 + a % 8)⟩ m' 64 16 10 :=
  (C63_reverseLongDouble_exact _ _ 64 10 (by decide) (by decide) (.inr ⟨(64, 160), by decide, by decide, by decide⟩)).2
    fun _ e _ _ b hb => by
      dsimp only
      constructor <;> exact congrArg (Fin.ofNat 256) (by omega)

/-- C63, wrong number of arguments: TypeError, nothing touched. -/
theorem C63_wrong_number (cfg : Cfg) (f : SimdFn) (T : ElemName) (m : Mem) (args : List Arg)
    (h : args.length ≠ if f = .reverse then 2 else 3) : call cfg f T m args = .exc m .typeError := by
  rcases args with _ | ⟨a, _ | ⟨b, _ | ⟨c, _ | ⟨d, as⟩⟩⟩⟩ <;> cases f <;> first | rfl | exact absurd rfl h

example : call ⟨.ge313, true, true, true, true⟩ .reverse .char ⟨[], fun _ => 0⟩ [.int 64] =
    .exc ⟨[], fun _ => 0⟩ .typeError := C63_wrong_number _ _ _ _ _ (by decide)

/-- C63 fails for a number of elements that is none (negative, 2^64 or more, or no int): no method raises; every method
runs over all of the address space, for every element type, on every machine. -/
theorem C63_bad_count_negation (cfg : Cfg) (T : ElemName) (m : Mem) (hs : Spec.Sane m) (c : Arg) (hc : ¬ Spec.IsWord c)
    (a b : Arg) :
    call cfg .memcpy T m [a, b, c] = .ub .outOfBounds ∧ call cfg .memcpyAligned T m [a, b, c] = .ub .outOfBounds ∧
      call cfg .reverse T m [a, c] = .ub .outOfBounds := by
  obtain ⟨e, he⟩ := word_bad hc
  have hp := size_pos T
  have hbig : ∀ p, m.covers p ((2 ^ 64 - 1) * (ctype T).size) = false := fun p => by
    by_cases h0 : p = 0
    · subst h0; exact covers_null hs (Nat.mul_pos (by decide) hp)
    · refine covers_top hs (Nat.mul_pos (by decide) hp) ?_
      have : 2 ^ 64 - 1 ≤ (2 ^ 64 - 1) * (ctype T).size := Nat.le_mul_of_pos_right _ hp
      omega
  simp only [call, he]
  refine ⟨?_, ?_, ?_⟩
  · rw [copy_dead _ _ _ _ (by decide) (.inl (hbig _))]
  · rw [copy_dead _ _ _ _ (by decide) (.inl (hbig _))]
  · rw [reverse_dead _ _ _ (by decide) (hbig _)]

example : call ⟨.ge313, true, true, true, true⟩ .memcpy .int ⟨[(64, 4000), (8192, 4000)], fun _ => 0⟩
    [.int 64, .int 8192, .int (-1)] = .ub .outOfBounds :=
  (C63_bad_count_negation _ _ _ (by decide) (.int (-1)) (by rintro ⟨h, -⟩; exact absurd h (by decide)) _ _).1

/-- C63 fails for an address that is none: with elements to handle, `memcpyX` goes to the last address of the machine,
`memcpyXAligned` and `reverseX` to address 0, instead of raising. -/
theorem C63_bad_address_negation (cfg : Cfg) (T : ElemName) (m : Mem) (hs : Spec.Sane m) (n : Nat) (h0 : 0 < n)
    (hn : n < 2 ^ 64) (a b : Arg) :
    (¬ Spec.IsWord a ∨ ¬ Spec.IsWord b → call cfg .memcpy T m [a, b, .int n] = .ub .outOfBounds) ∧
    (a.isInt = false ∨ b.isInt = false → call cfg .memcpyAligned T m [a, b, .int n] = .ub .outOfBounds) ∧
    (a.isInt = false → call cfg .reverse T m [a, .int n] = .ub .outOfBounds) :=
  bad_address cfg T m hs h0 (word_nat hn) a b

/-- C63 fails for an address that is none even with nothing to do: the call returns a value with the exception set. -/
theorem C63_pending_negation (cfg : Cfg) (T : ElemName) (m : Mem) (a b : Arg) (h : ¬ Spec.IsWord a) :
    ∃ e, call cfg .memcpy T m [a, b, .int 0] = .pending m .none e := by
  obtain ⟨e, he⟩ := word_bad h
  have hw : word (.int 0) = (0, none) := by decide
  simp only [call, hw, copy_zero, he]
  cases hb : (word b).2 with
  | none => exact ⟨e, by simp [finish]⟩
  | some e' => exact ⟨e', by simp [finish]⟩

example : ¬ Spec.IsWord .other ∧ Spec.Sane ⟨[(64, 4000)], fun _ => 0⟩ := ⟨fun h => h, by decide⟩

end Verif.Props
