import Verif.Lemmas.QReverse16
import Verif.Model.SimdCall
import Verif.Spec.SimdCall
import Verif.Lemmas.SimdCopy
import Verif.Lemmas.QReverse
import Verif.Lemmas.Unsafe

namespace Verif

/-- One stage (`if (FLAG && …) for …`) of the copy, from a state with `c` elements copied. -/
theorem stageBoth {on aligned : Bool} {B sz W fa ta : Nat} {src : List α} {off count : Nat}
    (hW : B / sz = W) (hB : W * sz = B) (hWpos : 0 < W) (h1 : count ≤ src.length) (d0 : List α)
    (h2 : off + count ≤ d0.length) (c : Nat) (hc : c ≤ count) (hcB : c * sz % B = 0) :
    copyStage on aligned B sz fa ta src off count (writeAt d0 off (src.take c), c) =
    if aligned = true ∧ on = true ∧ W ≤ count - c ∧ ¬ (fa % B = 0 ∧ ta % B = 0) then .error .misaligned
    else .ok (writeAt d0 off (src.take (if on then c + (count - c) / W * W else c)),
      if on then c + (count - c) / W * W else c) := by
  unfold copyStage
  rw [hW]
  cases on
  · simp
  · simp only [if_true, true_and]
    have hta : (ta + c * sz) % B = ta % B := by
      rw [Nat.add_mod, hcB, Nat.add_zero, Nat.mod_mod]
    have hfa : (fa + c * sz) % B = fa % B := by
      rw [Nat.add_mod, hcB, Nat.add_zero, Nat.mod_mod]
    by_cases h : aligned = true ∧ W ≤ count - c ∧ ¬ (fa % B = 0 ∧ ta % B = 0)
    · rw [if_pos h]
      obtain ⟨rfl, h3, h4⟩ := h
      refine blockLoop_misaligned hWpos h3 ?_
      rw [hta, hfa]; omega
    · rw [if_neg h]
      by_cases h5 : W ≤ count - c
      · refine blockLoop_ok hB h1 d0 h2 _ c rfl hc (fun ha => ?_)
        rw [hta, hfa]
        apply Classical.byContradiction
        intro h6
        exact h ⟨ha, h5, h6⟩
      · rw [blockLoop, dif_neg (by omega)]
        have : (count - c) / W = 0 := Nat.div_eq_of_lt (by omega)
        simp [this]

theorem simdMemCpy_both (cfg : Cfg) (aligned : Bool) {sz fa ta : Nat} {src dst : List α} {off count : Nat}
    (hsz : sz ∣ 16) (h1 : count ≤ src.length) (h2 : off + count ≤ dst.length) :
    simdMemCpy cfg aligned sz fa ta src dst off count =
      if aligned = true ∧ ¬ (CopyAligned cfg sz fa count ∧ CopyAligned cfg sz ta count) then .error .misaligned
      else .ok (writeAt dst off (src.take count)) := by
  -- after the optional memcpy
  obtain ⟨d0, hd0, hl, hw⟩ : ∃ d0, copyHead cfg src dst off count = .ok d0 ∧
      d0.length = dst.length ∧ writeAt d0 off (src.take count) = writeAt dst off (src.take count) := by
    have l3 : (src.take count).length = count := by simp; omega
    unfold copyHead
    split
    · refine ⟨writeAt dst off (src.take count), ?_, writeAt_length (by omega), writeAt_over (Nat.le_refl _) h1 h2⟩
      simp [memcpyElems, h1, h2]
    · exact ⟨dst, rfl, rfl, rfl⟩
  have h2' : off + count ≤ d0.length := by omega
  have hz : writeAt d0 off (src.take 0) = d0 := by simp [writeAt_nil]
  rw [← hw]
  unfold simdMemCpy
  rw [hd0]
  simp only [bind, Except.bind]
  have hs : sz = 1 ∨ sz = 2 ∨ sz = 4 ∨ sz = 8 ∨ sz = 16 := by
    have : sz ≤ 16 := Nat.le_of_dvd (by decide) hsz
    have : ∀ s, s ≤ 16 → s ∣ 16 → s = 1 ∨ s = 2 ∨ s = 4 ∨ s = 8 ∨ s = 16 := by decide
    exact this sz (by omega) hsz
  have w5 : 64 / sz * sz = 64 ∧ 0 < 64 / sz := by rcases hs with rfl | rfl | rfl | rfl | rfl <;> decide
  have w2 : 32 / sz * sz = 32 ∧ 0 < 32 / sz := by rcases hs with rfl | rfl | rfl | rfl | rfl <;> decide
  have w1 : 16 / sz * sz = 16 ∧ 0 < 16 / sz := by rcases hs with rfl | rfl | rfl | rfl | rfl <;> decide
  have s5 := stageBoth (on := cfg.avx512) (aligned := aligned) (fa := fa) (ta := ta) rfl w5.1 w5.2 h1 d0 h2' 0
    (Nat.zero_le _) (by simp)
  rw [hz] at s5
  rw [s5]
  generalize hc1 : (if cfg.avx512 = true then 0 + (count - 0) / (64 / sz) * (64 / sz) else 0) = c1
  have c1le : c1 ≤ count := by
    have := Nat.div_mul_le_self count (64 / sz)
    subst hc1; split <;> simp <;> omega
  have c1B : c1 * sz % 64 = 0 := by
    subst hc1; split
    · rw [Nat.zero_add, Nat.sub_zero, Nat.mul_assoc, w5.1]; exact Nat.mul_mod_left _ _
    · simp
  by_cases m5 : aligned = true ∧ cfg.avx512 = true ∧ 64 / sz ≤ count - 0 ∧ ¬ (fa % 64 = 0 ∧ ta % 64 = 0)
  · rw [if_pos m5, if_pos]
    exact ⟨m5.1, fun h => m5.2.2.2 ⟨h.1.1 m5.2.1 (by omega), h.2.1 m5.2.1 (by omega)⟩⟩
  rw [if_neg m5]
  dsimp only
  have hc1sz : c1 * sz % 32 = 0 := by omega
  have s2 := stageBoth (on := cfg.avx2) (aligned := aligned) (fa := fa) (ta := ta) rfl w2.1 w2.2 h1 d0 h2' c1
    c1le hc1sz
  rw [s2]
  generalize hc2 : (if cfg.avx2 = true then c1 + (count - c1) / (32 / sz) * (32 / sz) else c1) = c2
  have c2le : c2 ≤ count := by
    have := Nat.div_mul_le_self (count - c1) (32 / sz)
    subst hc2; split <;> omega
  have c2B : c2 * sz % 32 = 0 := by
    subst hc2; split
    · rw [Nat.add_mul, Nat.mul_assoc, w2.1]; omega
    · exact hc1sz
  have r1 : count - c1 = if cfg.avx512 = true then count % (64 / sz) else count := by
    subst hc1; split
    · have := Nat.mod_add_div count (64 / sz)
      rw [Nat.mul_comm] at this
      simp; omega
    · simp
  by_cases m2 : aligned = true ∧ cfg.avx2 = true ∧ 32 / sz ≤ count - c1 ∧ ¬ (fa % 32 = 0 ∧ ta % 32 = 0)
  · rw [if_pos m2, if_pos]
    exact ⟨m2.1, fun h => m2.2.2.2 ⟨h.1.2.1 m2.2.1 (by rw [← r1]; exact m2.2.2.1),
      h.2.2.1 m2.2.1 (by rw [← r1]; exact m2.2.2.1)⟩⟩
  rw [if_neg m2]
  dsimp only
  have hc2sz : c2 * sz % 16 = 0 := by omega
  have s1 := stageBoth (on := cfg.sse41) (aligned := aligned) (fa := fa) (ta := ta) rfl w1.1 w1.2 h1 d0 h2' c2
    c2le hc2sz
  rw [s1]
  generalize hc3 : (if cfg.sse41 = true then c2 + (count - c2) / (16 / sz) * (16 / sz) else c2) = c3
  have c3le : c3 ≤ count := by
    have := Nat.div_mul_le_self (count - c2) (16 / sz)
    subst hc3; split <;> omega
  have r2 : count - c2 = if cfg.avx2 = true then count % (32 / sz)
      else if cfg.avx512 = true then count % (64 / sz) else count := by
    have hd : 64 / sz = 2 * (32 / sz) := by rcases hs with rfl | rfl | rfl | rfl | rfl <;> decide
    subst hc2
    split
    · have e := Nat.mod_add_div (count - c1) (32 / sz)
      rw [Nat.mul_comm] at e
      have : (count - c1) % (32 / sz) = count % (32 / sz) := by
        rw [r1]; split
        · rw [hd]; exact Nat.mod_mod_of_dvd _ (Nat.dvd_mul_left _ _)
        · rfl
      omega
    · exact r1
  by_cases m1 : aligned = true ∧ cfg.sse41 = true ∧ 16 / sz ≤ count - c2 ∧ ¬ (fa % 16 = 0 ∧ ta % 16 = 0)
  · rw [if_pos m1, if_pos]
    exact ⟨m1.1, fun h => m1.2.2.2 ⟨h.1.2.2 m1.2.1 (by rw [← r2]; exact m1.2.2.1),
      h.2.2.2 m1.2.1 (by rw [← r2]; exact m1.2.2.1)⟩⟩
  rw [if_neg m1]
  dsimp only
  rw [scalarTail_ok h1 d0 h2' _ c3 rfl c3le, if_neg]
  rintro ⟨ha, hn⟩
  apply hn
  have k5 : cfg.avx512 = true → 64 / sz ≤ count → fa % 64 = 0 ∧ ta % 64 = 0 := fun q1 q2 =>
    Classical.byContradiction fun q3 => m5 ⟨ha, q1, by omega, q3⟩
  have k2 : cfg.avx2 = true → 32 / sz ≤ (if cfg.avx512 = true then count % (64 / sz) else count) →
      fa % 32 = 0 ∧ ta % 32 = 0 := fun q1 q2 =>
    Classical.byContradiction fun q3 => m2 ⟨ha, q1, by rw [r1]; exact q2, q3⟩
  have k1 : cfg.sse41 = true → 16 / sz ≤ (if cfg.avx2 = true then count % (32 / sz)
      else if cfg.avx512 = true then count % (64 / sz) else count) → fa % 16 = 0 ∧ ta % 16 = 0 := fun q1 q2 =>
    Classical.byContradiction fun q3 => m1 ⟨ha, q1, by rw [r2]; exact q2, q3⟩
  exact ⟨⟨fun a b => (k5 a b).1, fun a b => (k2 a b).1, fun a b => (k1 a b).1⟩,
    ⟨fun a b => (k5 a b).2, fun a b => (k2 a b).2, fun a b => (k1 a b).2⟩⟩

namespace SimdCall

theorem size_eq (T : ElemName) : (ctype T).size = Spec.elemBytes T := by cases T <;> rfl

theorem size_dvd (T : ElemName) : (ctype T).size ∣ 16 := by cases T <;> decide

theorem size_pos (T : ElemName) : 0 < (ctype T).size := by cases T <;> decide

theorem covers_of {m : Mem} {a n : Nat} (h : Spec.Alive m a n) : m.covers a n = true := by
  obtain ⟨b, hb, h1, h2⟩ := h
  simp only [Mem.covers, Bool.or_eq_true, List.any_eq_true]
  exact .inr ⟨b, hb, by simpa using ⟨h1, h2⟩⟩

theorem alive_of {m : Mem} {a n : Nat} (hn : 0 < n) (h : m.covers a n = true) : Spec.Alive m a n := by
  simp only [Mem.covers, Bool.or_eq_true, List.any_eq_true, beq_iff_eq] at h
  rcases h with h | ⟨b, hb, h⟩
  · omega
  · exact ⟨b, hb, by simpa using h⟩

theorem covers_null {m : Mem} (hs : Spec.Sane m) {n : Nat} (hn : 0 < n) : m.covers 0 n = false := by
  cases h : m.covers 0 n with
  | false => rfl
  | true =>
    obtain ⟨b, hb, h1, h2⟩ := alive_of hn h
    have := hs b hb
    omega

theorem covers_top {m : Mem} (hs : Spec.Sane m) {a n : Nat} (hn : 0 < n) (h : 2 ^ 64 ≤ a + n) :
    m.covers a n = false := by
  cases hc : m.covers a n with
  | false => rfl
  | true =>
    obtain ⟨b, hb, h1, h2⟩ := alive_of hn hc
    have := hs b hb
    omega

theorem elems_length (m : Mem) (a sz n : Nat) : (elems m a sz n).length = n := by simp [elems]

theorem elems_flatten (m : Mem) (a sz n : Nat) : (elems m a sz n).flatten = m.read a (n * sz) := by
  induction n with
  | zero => simp [elems, Mem.read]
  | succ n ih =>
    have e : elems m a sz (n + 1) = elems m a sz n ++ [m.read (a + n * sz) sz] := by
      simp [elems, List.range_succ]
    rw [e, List.flatten_append, ih]
    apply List.ext_getElem?
    intro i
    have h1 : (m.read a (n * sz)).length = n * sz := Unsafe.read_length ..
    have h2 : (n + 1) * sz = n * sz + sz := by rw [Nat.add_mul]; omega
    simp only [List.flatten_cons, List.flatten_nil, List.append_nil]
    rw [List.getElem?_append, h1, h2]
    split
    · next h => rw [Unsafe.read_getElem?, Unsafe.read_getElem?, if_pos h, if_pos (by omega)]
    · next h =>
      rw [Unsafe.read_getElem?, Unsafe.read_getElem?]
      by_cases h3 : i - n * sz < sz
      · rw [if_pos h3, if_pos (by omega)]
        congr 2; omega
      · rw [if_neg h3, if_neg (by omega)]

theorem copied (m : Mem) (src dst n : Nat) : Spec.MemCopied m (m.write dst (m.read src n)) src dst n := by
  have hl : (m.read src n).length = n := Unsafe.read_length ..
  refine ⟨rfl, fun i hi => ?_, fun x hx => Unsafe.write_byte_out (by rw [hl]; exact hx)⟩
  rw [Unsafe.write_byte_in (by omega)]
  simp [Mem.read]

/-- A copy inside living memory between separate ranges: done, or a fault because of an address. -/
theorem copy_eq (cfg : Cfg) (aligned : Bool) {sz : Nat} (hsz : sz ∣ 16) (hpos : 0 < sz) (m : Mem) {src dst n : Nat}
    (hn : 0 < n) (h1 : Spec.Alive m src (n * sz)) (h2 : Spec.Alive m dst (n * sz))
    (h3 : src + n * sz ≤ dst ∨ dst + n * sz ≤ src) :
    copy cfg aligned sz m src dst n =
      if aligned = true ∧ ¬ (CopyAligned cfg sz src n ∧ CopyAligned cfg sz dst n) then .error .misaligned
      else .ok (m.write dst (m.read src (n * sz))) := by
  unfold copy
  have hp : 0 < n * sz := Nat.mul_pos hn hpos
  rw [if_neg (by omega), covers_of h1, covers_of h2, if_neg (by simp), if_neg (by omega)]
  rw [simdMemCpy_both cfg aligned hsz (by rw [elems_length]; omega) (by rw [elems_length]; omega)]
  by_cases hc : aligned = true ∧ ¬ (CopyAligned cfg sz src n ∧ CopyAligned cfg sz dst n)
  · rw [if_pos hc, if_pos hc]
  · rw [if_neg hc, if_neg hc]
    have e : writeAt (elems m dst sz n) 0 ((elems m src sz n).take n) = elems m src sz n := by
      have l1 := elems_length m src sz n
      have l2 := elems_length m dst sz n
      rw [List.take_of_length_le (by omega)]
      unfold writeAt
      rw [List.take_zero, List.nil_append, List.drop_of_length_le (by omega), List.append_nil]
    simp only [e, elems_flatten]

theorem copy_dead (cfg : Cfg) (aligned : Bool) (sz : Nat) (m : Mem) {src dst n : Nat} (hn : 0 < n)
    (h : m.covers src (n * sz) = false ∨ m.covers dst (n * sz) = false) :
    copy cfg aligned sz m src dst n = .error .outOfBounds := by
  unfold copy
  rw [if_neg (by omega), if_pos (by rcases h with h | h <;> simp [h])]

theorem copy_zero (cfg : Cfg) (aligned : Bool) (sz : Nat) (m : Mem) (src dst : Nat) :
    copy cfg aligned sz m src dst 0 = .ok m := rfl

theorem reverse_eq (cfg : Cfg) {sz : Nat} (hpos : 0 < sz) (m : Mem) {p n : Nat}
    (h1 : n = 0 ∨ Spec.Alive m p (n * sz)) (h : sz ≠ 16 ∨ ¬ Avx2Loop16 cfg n) :
    ∃ m', reverse cfg sz m p n = .ok m' ∧ Spec.MemReversed m m' p sz n := by
  by_cases h0 : n = 0
  · subst h0
    exact ⟨m, rfl, rfl, fun e b he => by omega, fun x _ => rfl⟩
  · have h1 := h1.resolve_left h0
    obtain ⟨b, hb, h2, h3⟩ : ∃ b, qReverse cfg sz n (fun i => m.byte (p + i)) = some b ∧
        Spec.Reversed sz n (fun i => m.byte (p + i)) b := by
      by_cases h16 : sz = 16
      · subst h16
        exact qReverse16_ok cfg n _ (h.resolve_left (by simp))
      · unfold qReverse
        split
        · exact qReverse1_ok cfg n _
        · exact qReverse2_ok cfg n _
        · exact qReverse4_ok cfg n _
        · exact qReverse8_ok cfg n _
        · exact absurd rfl h16
        · exact qReverseGeneric_ok _ n hpos _
    unfold reverse
    rw [if_neg h0, covers_of h1, if_neg (by simp), hb]
    refine ⟨_, rfl, rfl, fun e k he hk => ?_, fun x hx => ?_⟩
    · dsimp only
      rw [if_pos (by omega)]
      have : p + e * sz + k - p = e * sz + k := by omega
      rw [this]
      exact (h2 e k he hk).trans (congrArg m.byte (by omega))
    · dsimp only
      split
      · exact (h3 _ (by omega)).trans (congrArg m.byte (by omega))
      · rfl

theorem reverse_dead (cfg : Cfg) (sz : Nat) (m : Mem) {p n : Nat} (hn : 0 < n) (h : m.covers p (n * sz) = false) :
    reverse cfg sz m p n = .error .outOfBounds := by
  unfold reverse
  rw [if_neg (by omega), h, if_pos (by simp)]

theorem word_of {a : Arg} (h : Spec.IsWord a) : ∃ v : Nat, a = .int v ∧ v < 2 ^ 64 ∧ word a = (v, none) ∧
    pointer a = (v, none) := by
  cases a with
  | int v =>
    obtain ⟨h1, h2⟩ := h
    refine ⟨v.toNat, by rw [Int.toNat_of_nonneg h1], by omega, ?_, ?_⟩
    · simp only [word, Unsafe.asSizeT, if_pos (And.intro h1 h2)]
    · simp only [pointer, Unsafe.asVoidPtr]
      rw [if_pos (by omega), Int.emod_eq_of_lt h1 h2]
  | index v => cases h
  | other => cases h

theorem isWord_nat {n : Nat} (h : n < 2 ^ 64) : Spec.IsWord (.int n) :=
  ⟨Int.natCast_nonneg n, by exact_mod_cast h⟩

theorem word_nat {n : Nat} (h : n < 2 ^ 64) : word (.int n) = (n, none) := by
  have w := isWord_nat h
  clear h
  obtain ⟨v, e, -, h, -⟩ := word_of w
  have : v = n := (Int.ofNat.inj (Arg.int.inj e)).symm
  rw [h, this]

theorem pointer_nat {n : Nat} (h : n < 2 ^ 64) : pointer (.int n) = (n, none) := by
  have w := isWord_nat h
  clear h
  obtain ⟨v, e, -, -, h⟩ := word_of w
  have : v = n := (Int.ofNat.inj (Arg.int.inj e)).symm
  rw [h, this]

theorem word_bad {a : Arg} (h : ¬ Spec.IsWord a) : ∃ e, word a = (2 ^ 64 - 1, some e) := by
  cases a with
  | int v =>
    refine ⟨.overflowError, ?_⟩
    simp only [word, Unsafe.asSizeT]
    rw [if_neg (show ¬ (0 ≤ v ∧ v < 2 ^ 64) from h)]
  | index v => exact ⟨.typeError, rfl⟩
  | other => exact ⟨.typeError, rfl⟩

theorem pointer_bad {a : Arg} (h : ∀ v, a = .int v → v < -(2 ^ 63) ∨ 2 ^ 64 ≤ v) : ∃ e, pointer a = (0, some e) := by
  cases a with
  | int v =>
    refine ⟨.overflowError, ?_⟩
    have := h v rfl
    simp only [pointer, Unsafe.asVoidPtr]
    rw [if_neg (by omega)]
  | index v => exact ⟨.typeError, rfl⟩
  | other => exact ⟨.typeError, rfl⟩

theorem memcpy_done (cfg : Cfg) (T : ElemName) (m : Mem) {a b c : Arg} {src dst n : Nat} (e1 : word a = (src, none))
    (e2 : word b = (dst, none)) (e3 : word c = (n, none))
    (hmem : n = 0 ∨ Spec.Alive m src (n * Spec.elemBytes T) ∧ Spec.Alive m dst (n * Spec.elemBytes T) ∧
      (src + n * Spec.elemBytes T ≤ dst ∨ dst + n * Spec.elemBytes T ≤ src)) :
    ∃ m', call cfg .memcpy T m [a, b, c] = .ok m' .none ∧
      Spec.MemCopied m m' src dst (n * Spec.elemBytes T) := by
  simp only [call, e1, e2, e3]
  by_cases hn : n = 0
  · subst hn
    rw [copy_zero]
    exact ⟨m, rfl, rfl, fun i hi => by omega, fun x _ => rfl⟩
  · obtain ⟨a1, a2, a3⟩ := hmem.resolve_left hn
    rw [← size_eq] at a1 a2 a3 ⊢
    rw [copy_eq cfg false (size_dvd T) (size_pos T) m (by omega) a1 a2 a3, if_neg (by simp)]
    exact ⟨_, rfl, copied m src dst _⟩

theorem memcpyAligned_done (cfg : Cfg) (T : ElemName) (m : Mem) {a b c : Arg} {src dst n : Nat}
    (e1 : pointer a = (src, none)) (e2 : pointer b = (dst, none)) (e3 : word c = (n, none)) (hn : 0 < n)
    (a1 : Spec.Alive m src (n * Spec.elemBytes T)) (a2 : Spec.Alive m dst (n * Spec.elemBytes T))
    (a3 : src + n * Spec.elemBytes T ≤ dst ∨ dst + n * Spec.elemBytes T ≤ src) :
    (CopyAligned cfg (Spec.elemBytes T) src n ∧ CopyAligned cfg (Spec.elemBytes T) dst n ∧
      ∃ m', call cfg .memcpyAligned T m [a, b, c] = .ok m' .none ∧
        Spec.MemCopied m m' src dst (n * Spec.elemBytes T)) ∨
    (¬ (CopyAligned cfg (Spec.elemBytes T) src n ∧ CopyAligned cfg (Spec.elemBytes T) dst n) ∧
      call cfg .memcpyAligned T m [a, b, c] = .ub .misaligned) := by
  simp only [call, e1, e2, e3]
  rw [← size_eq] at a1 a2 a3 ⊢
  rw [copy_eq cfg true (size_dvd T) (size_pos T) m hn a1 a2 a3]
  by_cases hc : CopyAligned cfg (ctype T).size src n ∧ CopyAligned cfg (ctype T).size dst n
  · rw [if_neg (by simp [hc])]
    exact .inl ⟨hc.1, hc.2, _, rfl, copied m src dst _⟩
  · rw [if_pos ⟨rfl, hc⟩]
    exact .inr ⟨hc, rfl⟩

theorem reverse_done (cfg : Cfg) (T : ElemName) (m : Mem) {a c : Arg} {p n : Nat} (e1 : pointer a = (p, none))
    (e3 : word c = (n, none)) (hmem : n = 0 ∨ Spec.Alive m p (n * Spec.elemBytes T))
    (h : T ≠ .longDouble ∨ ¬ Avx2Loop16 cfg n) :
    ∃ m', call cfg .reverse T m [a, c] = .ok m' .none ∧ Spec.MemReversed m m' p (Spec.elemBytes T) n := by
  simp only [call, e1, e3]
  rw [← size_eq] at hmem ⊢
  obtain ⟨m', e, hr⟩ := reverse_eq cfg (size_pos T) m hmem
    (h.imp_left fun h => by cases T <;> first | exact absurd rfl h | decide)
  rw [e]
  exact ⟨m', rfl, hr⟩

theorem reverse_halves (cfg : Cfg) (m : Mem) {a c : Arg} {p n : Nat} (e1 : pointer a = (p, none))
    (e3 : word c = (n, none)) (hmem : Spec.Alive m p (n * 16)) (h : Avx2Loop16 cfg n)
    (hne : ∀ e, e < n → m.byte (p + e * 16) ≠ m.byte (p + (e * 16 + 8))) :
    ¬ ∃ m', call cfg .reverse .longDouble m [a, c] = .ok m' .none ∧ Spec.MemReversed m m' p 16 n := by
  have hn : n ≠ 0 := by
    rintro rfl
    obtain ⟨-, h⟩ := h
    split at h <;> simp at h
  rintro ⟨m', e, -, hr, -⟩
  obtain ⟨b, i, hi, hb, hv⟩ := qReverse16_swaps_halves cfg n (fun i => m.byte (p + i)) h
  have hq : qReverse cfg 16 n (fun i => m.byte (p + i)) = some b := hb
  simp only [call, e1, e3, ctype, CType.size, SimdCall.reverse, if_neg hn, covers_of hmem, hq] at e
  rw [if_neg (by simp)] at e
  simp only [finish, Option.or] at e
  cases e
  have h4 := hr i 0 hi (by decide)
  dsimp only at h4
  rw [if_pos (by omega)] at h4
  have : p + i * 16 + 0 - p = i * 16 := by omega
  rw [this, hv] at h4
  exact hne (n - 1 - i) (by omega) h4.symm

/-- `reverseLongDouble` on living memory, as the routine on the bytes from the pointer on. -/
theorem reverse16_iff (cfg : Cfg) (m : Mem) {a c : Arg} {p n : Nat} (e1 : pointer a = (p, none))
    (e3 : word c = (n, none)) (hmem : n = 0 ∨ Spec.Alive m p (n * 16)) :
    (∃ m', call cfg .reverse .longDouble m [a, c] = .ok m' .none ∧ Spec.MemReversed m m' p 16 n) ↔
      ∃ b, qReverse cfg 16 n (fun i => m.byte (p + i)) = some b ∧ Spec.Reversed 16 n (fun i => m.byte (p + i)) b := by
  by_cases hn : n = 0
  · subst hn
    have h : ¬ Avx2Loop16 cfg 0 := by
      rintro ⟨-, h⟩
      split at h <;> simp at h
    exact ⟨fun _ => qReverse16_ok cfg 0 _ h, fun _ => reverse_done cfg .longDouble m e1 e3 (.inl rfl) (.inr h)⟩
  · obtain ⟨b, hb, -, hf⟩ := qReverse16_bytes cfg n (fun i => m.byte (p + i))
    have hq : qReverse cfg 16 n (fun i => m.byte (p + i)) = some b := hb
    have e : call cfg .reverse .longDouble m [a, c] = .ok
        { m with byte := fun x => if p ≤ x then b (x - p) else m.byte x } .none := by
      simp only [call, e1, e3, ctype, CType.size, SimdCall.reverse, if_neg hn, covers_of (hmem.resolve_left hn), hq]
      rw [if_neg (by simp)]
      rfl
    rw [e, hq]
    constructor
    · rintro ⟨m', h, -, hr, -⟩
      injection h with h _
      subst h
      refine ⟨b, rfl, fun i k hi hk => ?_, hf⟩
      have h4 := hr i k hi hk
      dsimp only at h4
      rw [if_pos (by omega)] at h4
      have : p + i * 16 + k - p = i * 16 + k := by omega
      rw [this] at h4
      exact h4.trans (congrArg m.byte (by omega))
    · rintro ⟨b', h, h2, -⟩
      injection h with h
      subst h
      refine ⟨_, rfl, rfl, fun i k hi hk => ?_, fun x hx => ?_⟩
      · dsimp only
        rw [if_pos (by omega)]
        have : p + i * 16 + k - p = i * 16 + k := by omega
        rw [this]
        exact (h2 i k hi hk).trans (congrArg m.byte (by omega))
      · dsimp only
        split
        · rw [hf _ (by omega)]
          exact congrArg m.byte (by omega)
        · rfl

theorem covers_last {m : Mem} (hs : Spec.Sane m) {n : Nat} (hn : 0 < n) : m.covers (2 ^ 64 - 1) n = false :=
  covers_top hs hn (by omega)

theorem bad_address (cfg : Cfg) (T : ElemName) (m : Mem) (hs : Spec.Sane m) {n : Nat} (h0 : 0 < n) {c : Arg}
    (hw : word c = (n, none)) (a b : Arg) :
    (¬ Spec.IsWord a ∨ ¬ Spec.IsWord b → call cfg .memcpy T m [a, b, c] = .ub .outOfBounds) ∧
    (a.isInt = false ∨ b.isInt = false → call cfg .memcpyAligned T m [a, b, c] = .ub .outOfBounds) ∧
    (a.isInt = false → call cfg .reverse T m [a, c] = .ub .outOfBounds) := by
  have hp := Nat.mul_pos h0 (size_pos T)
  have htop : m.covers (2 ^ 64 - 1) (n * (ctype T).size) = false := covers_last hs hp
  have hnull : m.covers 0 (n * (ctype T).size) = false := covers_null hs hp
  have hptr : ∀ a : Arg, a.isInt = false → ∃ e, pointer a = (0, some e) := fun a ha =>
    pointer_bad fun v hv => by rw [hv] at ha; cases ha
  simp only [call, hw]
  refine ⟨fun h => ?_, fun h => ?_, fun h => ?_⟩
  · rw [copy_dead _ _ _ _ h0]
    rcases h with h | h <;> obtain ⟨e, he⟩ := word_bad h
    · exact .inl (by rw [he]; exact htop)
    · exact .inr (by rw [he]; exact htop)
  · rw [copy_dead _ _ _ _ h0]
    rcases h with h | h <;> obtain ⟨e, he⟩ := hptr _ h
    · exact .inl (by rw [he]; exact hnull)
    · exact .inr (by rw [he]; exact hnull)
  · obtain ⟨e, he⟩ := hptr _ h
    rw [reverse_dead _ _ _ h0 (by rw [he]; exact hnull)]

end SimdCall
end Verif
