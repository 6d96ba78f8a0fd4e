import Verif.Lemmas.QReverse16

/-!
# C39: SIMD.reverseX reverses elements of every width
-/

namespace Verif.Props

/-- C39 for the element widths 1, 2, 4 and 8 (and every width without a specialisation): all CPUs,
counts and contents. Missing for the full property: width 16, see below. -/
theorem C39_reverse_partial (cfg : Cfg) (sz count : Nat) (m : Bytes α) (hsz : 0 < sz) (h16 : sz ≠ 16) :
    ∃ m', qReverse cfg sz count m = some m' ∧ Spec.Reversed sz count m m' := by
  unfold qReverse
  split
  · exact qReverse1_ok cfg count m
  · exact qReverse2_ok cfg count m
  · exact qReverse4_ok cfg count m
  · exact qReverse8_ok cfg count m
  · exact absurd rfl h16
  · exact qReverseGeneric_ok _ count hsz m

example : ∃ m', qReverse ⟨.ge313, true, true, true, true⟩ 4 100 (fun p => p % 251) = some m' ∧
    Spec.Reversed 4 100 (fun p => p % 251) m' := C39_reverse_partial _ _ _ _ (by decide) (by decide)

/-- C39, width 16 (`reverseLongDouble`): correct whenever the AVX2 loop is not entered. -/
theorem C39_reverse16_partial (cfg : Cfg) (count : Nat) (m : Bytes α) (h : ¬ Avx2Loop16 cfg count) :
    ∃ m', qReverse cfg 16 count m = some m' ∧ Spec.Reversed 16 count m m' :=
  qReverse16_ok cfg count m h

example : ¬ Avx2Loop16 ⟨.ge313, true, true, true, true⟩ 9 := by unfold Avx2Loop16; decide
example : ¬ Avx2Loop16 ⟨.ge313, false, false, true, true⟩ 1000 := by unfold Avx2Loop16; decide

/-- C39 fails for width 16 on every AVX2 machine as soon as the AVX2 loop is entered: for every block in
which no element has equal 8-byte halves (here: all bytes distinct), the result is not the reversal. -/
theorem C39_reverse16_negation (cfg : Cfg) (count : Nat) (m : Bytes α) (h : Avx2Loop16 cfg count)
    (hne : ∀ e, e < count → m (e * 16) ≠ m (e * 16 + 8)) :
    ¬ ∃ m', qReverse cfg 16 count m = some m' ∧ Spec.Reversed 16 count m m' := by
  rintro ⟨m', h1, h2, -⟩
  obtain ⟨m'', i, hi, h3, h4⟩ := qReverse16_swaps_halves cfg count m h
  have hm : m' = m'' := by
    have : qReverse cfg 16 count m = qReverse16 cfg count m := rfl
    rw [this, h3] at h1; exact (Option.some.inj h1).symm
  subst hm
  have h5 := h2 i 0 hi (by decide)
  simp only [Nat.add_zero] at h5
  rw [h5] at h4
  exact hne _ (by omega) h4

example : Avx2Loop16 ⟨.ge313, false, true, true, true⟩ 4 ∧
    ∀ e, e < 4 → (fun p : Nat => (p % 256 : Nat)) (e * 16) ≠ (fun p => p % 256) (e * 16 + 8) :=
  ⟨by unfold Avx2Loop16; decide, by decide⟩

/-- C39, width 16, exactly: the elements that the AVX2 loop exchanges (those the AVX-512 loop has left, in pairs, at both ends) have
to consist of two equal halves. -/
theorem C39_reverse16_exact (cfg : Cfg) (count : Nat) (m : Bytes α) :
    (∃ m', qReverse cfg 16 count m = some m' ∧ Spec.Reversed 16 count m m') ↔
      (cfg.avx2 = true → ∀ e, (if cfg.avx512 then count / 2 / 4 * 4 else 0) ≤ e → e < count / 2 / 2 * 2 → ∀ b, b < 8 →
        m (e * 16 + b) = m (e * 16 + 8 + b) ∧ m ((count - 1 - e) * 16 + b) = m ((count - 1 - e) * 16 + 8 + b)) := by
  obtain ⟨m0, h1, h2, h3⟩ := qReverse16_bytes cfg count m
  have e0 : qReverse cfg 16 count m = some m0 := h1
  have hH : ∀ e, Halved cfg count e ↔ cfg.avx2 = true ∧
      (((if cfg.avx512 then count / 2 / 4 * 4 else 0) ≤ e ∧ e < count / 2 / 2 * 2) ∨
        ((if cfg.avx512 then count / 2 / 4 * 4 else 0) ≤ count - 1 - e ∧ count - 1 - e < count / 2 / 2 * 2)) := fun _ => Iff.rfl
  generalize (if cfg.avx512 then count / 2 / 4 * 4 else 0) = i at *
  constructor
  · rintro ⟨m', h4, h5, -⟩ ha e he he' b hb
    rw [e0, Option.some.injEq] at h4
    subst h4
    have hh : ∀ e, half16 cfg count e b = if Halved cfg count e then b + 8 else b := by
      intro e; unfold half16; split
      · omega
      · rfl
    have q1 := h2 e b (by omega) (by omega)
    rw [h5 e b (by omega) (by omega), hh, if_pos ((hH e).2 ⟨ha, .inl ⟨he, he'⟩⟩)] at q1
    have q2 := h2 (count - 1 - e) b (by omega) (by omega)
    have e1 : count - 1 - (count - 1 - e) = e := by omega
    rw [h5 (count - 1 - e) b (by omega) (by omega), hh, if_pos ((hH _).2 ⟨ha, .inr (by rw [e1]; exact ⟨he, he'⟩)⟩), e1] at q2
    have e2 : ∀ p, p + 8 + b = p + (b + 8) := fun p => by omega
    rw [e2, e2]
    exact ⟨q2, q1⟩
  · intro h
    refine ⟨m0, e0, fun e b he hb => ?_, h3⟩
    rw [h2 e b he hb]
    unfold half16
    by_cases c : Halved cfg count e
    · rw [if_pos c]
      obtain ⟨ha, c⟩ := (hH e).1 c
      have key : ∀ d, d < 8 → m ((count - 1 - e) * 16 + d) = m ((count - 1 - e) * 16 + 8 + d) := by
        intro d hd
        rcases c with c | c
        · exact (h ha e c.1 c.2 d hd).2
        · exact (h ha (count - 1 - e) c.1 c.2 d hd).1
      by_cases hb8 : b < 8
      · have e2 : (b + 8) % 16 = 8 + b := by omega
        rw [e2, ← Nat.add_assoc, ← key b hb8]
      · have e2 : (b + 8) % 16 = b - 8 := by omega
        rw [e2, key (b - 8) (by omega)]
        congr 1; omega
    · rw [if_neg c]

/-- Both sides occur: four elements of which the AVX2 loop exchanges all. -/
example : (∃ m', qReverse ⟨.ge313, false, true, true, true⟩ 16 4 (fun p => p / 16) = some m' ∧
    Spec.Reversed 16 4 (fun p => p / 16) m') :=
  (C39_reverse16_exact _ _ _).2 (fun _ e _ _ b hb => ⟨by omega, by omega⟩)
example : ¬ ∃ m', qReverse ⟨.ge313, false, true, true, true⟩ 16 4 (fun p => p) = some m' ∧ Spec.Reversed 16 4 (fun p => p) m' :=
  fun h => absurd ((C39_reverse16_exact _ _ _).1 h rfl 0 (by decide) (by decide) 0 (by decide)).1 (by decide)

end Verif.Props
