import Verif.Model.QReverse
import Verif.Spec.Reverse

namespace Verif

/-- `perm` reverses the `W` elements of `sz` bytes of a register. -/
def IsRev (sz W : Nat) (perm : Bytes α → Bytes α) : Prop :=
  ∀ (r : Bytes α) e b, e < W → b < sz → perm r (e * sz + b) = r ((W - 1 - e) * sz + b)

/-- The first and last `i` elements are exchanged, the rest is untouched. -/
def RevInv (sz count : Nat) (m0 : Bytes α) (i : Nat) (m : Bytes α) : Prop :=
  ∀ e b, b < sz → m (e * sz + b) =
    if e < count ∧ (e < i ∨ count - i ≤ e) then m0 ((count - 1 - e) * sz + b) else m0 (e * sz + b)

theorem block_mem {sz e b i W : Nat} (hb : b < sz) :
    (i * sz ≤ e * sz + b ∧ e * sz + b < i * sz + W * sz) ↔ (i ≤ e ∧ e < i + W) := by
  constructor
  · rintro ⟨h1, h2⟩
    rw [← Nat.add_mul] at h2
    constructor
    · apply Nat.le_of_not_lt; intro h
      have : (e + 1) * sz ≤ i * sz := Nat.mul_le_mul_right _ h
      rw [Nat.add_mul] at this; omega
    · apply Nat.lt_of_not_le; intro h
      have : (i + W) * sz ≤ e * sz := Nat.mul_le_mul_right _ h
      omega
  · rintro ⟨h1, h2⟩
    have a : i * sz ≤ e * sz := Nat.mul_le_mul_right _ h1
    have c : (e + 1) * sz ≤ (i + W) * sz := Nat.mul_le_mul_right _ h2
    rw [Nat.add_mul, Nat.add_mul] at c
    omega

theorem block_sub {sz e b i : Nat} (h : i ≤ e) : e * sz + b - i * sz = (e - i) * sz + b := by
  have a : i * sz ≤ e * sz := Nat.mul_le_mul_right _ h
  rw [Nat.sub_mul]; omega

theorem swapBlocks_inv {sz W count i : Nat} {perm : Bytes α → Bytes α} {m0 m : Bytes α}
    (hp : IsRev sz W perm) (hinv : RevInv sz count m0 i m) (hi : 2 * (i + W) ≤ count) :
    ∃ m', swapBlocks sz W count perm i m = some m' ∧ RevInv sz count m0 (i + W) m' := by
  unfold swapBlocks
  rw [if_pos (by omega)]
  refine ⟨_, rfl, ?_⟩
  intro e b hb
  dsimp only
  by_cases h1 : count - i - W ≤ e ∧ e < count - i - W + W
  · rw [if_pos ((block_mem hb).2 h1), block_sub h1.1, hp _ _ _ (by omega) hb]
    rw [← Nat.add_assoc, ← Nat.add_mul, hinv _ _ hb, if_neg (by omega), if_pos (by omega)]
    congr 3; omega
  · rw [if_neg (mt (block_mem hb).1 h1)]
    by_cases h2 : i ≤ e ∧ e < i + W
    · rw [if_pos ((block_mem hb).2 h2), block_sub h2.1, hp _ _ _ (by omega) hb]
      rw [← Nat.add_assoc, ← Nat.add_mul, hinv _ _ hb, if_neg (by omega), if_pos (by omega)]
      congr 3; omega
    · rw [if_neg (mt (block_mem hb).1 h2), hinv _ _ hb]
      by_cases h3 : e < count ∧ (e < i ∨ count - i ≤ e)
      · rw [if_pos h3, if_pos (by omega)]
      · rw [if_neg h3, if_neg (by omega)]

theorem swapIter_inv {sz W count : Nat} {perm : Bytes α → Bytes α} {m0 : Bytes α}
    (hp : IsRev sz W perm) : ∀ (n i : Nat) (m : Bytes α), RevInv sz count m0 i m →
    2 * (i + n * W) ≤ count →
    ∃ m', swapIter sz W count perm n i m = some (i + n * W, m') ∧ RevInv sz count m0 (i + n * W) m'
  | 0, i, m, h, _ => ⟨m, by simp [swapIter], by simpa using h⟩
  | n + 1, i, m, h, hn => by
    have e : i + (n + 1) * W = i + W + n * W := by rw [Nat.add_mul]; omega
    rw [e] at hn
    obtain ⟨m1, h1, h2⟩ := swapBlocks_inv hp h (by omega)
    obtain ⟨m', h3, h4⟩ := swapIter_inv hp n (i + W) m1 h2 hn
    exact ⟨m', by rw [swapIter, h1]; simp only [h3, e], by rw [e]; exact h4⟩

/-- State of the reversal between two loops: `i` elements done at both ends, `i` a multiple of `D`. -/
def LoopOk (sz count D : Nat) (m0 : Bytes α) (o : Option (Nat × Bytes α)) : Prop :=
  ∃ i m, o = some (i, m) ∧ D ∣ i ∧ 2 * i ≤ count ∧ RevInv sz count m0 i m

theorem swapLoop_ok {sz W D count : Nat} {perm : Bytes α → Bytes α} {m0 : Bytes α}
    (hp : IsRev sz W perm) (hW : W ∣ D) (on : Bool) {o : Option (Nat × Bytes α)}
    (h : LoopOk sz count D m0 o) :
    LoopOk sz count W m0 (o.bind (swapLoop on sz W count perm)) := by
  obtain ⟨i, m, rfl, hd, h1, h2⟩ := h
  have hWi : W ∣ i := Nat.dvd_trans hW hd
  simp only [Option.bind_some, swapLoop]
  cases on
  · exact ⟨i, m, rfl, hWi, h1, h2⟩
  · have key : 2 * (i + (count / 2 / W - i / W) * W) ≤ count := by
      obtain ⟨k, rfl⟩ := hWi
      rcases Nat.eq_zero_or_pos W with rfl | hpos
      · simp
      rw [Nat.mul_div_cancel_left _ hpos, Nat.sub_mul, Nat.mul_comm k W]
      have := Nat.div_mul_le_self (count / 2) W
      omega
    obtain ⟨m', h3, h4⟩ := swapIter_inv hp _ i m h2 key
    exact ⟨_, m', by simpa using h3, Nat.dvd_add hWi (Nat.dvd_mul_left _ _), key, h4⟩

theorem isRev_id (sz : Nat) : IsRev (α := α) sz 1 id := by
  intro r e b he hb
  have : e = 0 := by omega
  subst this; simp

theorem naiveLoop_ok {sz count D : Nat} {m0 : Bytes α} (hsz : 0 < sz) {o : Option (Nat × Bytes α)}
    (h : LoopOk sz count D m0 o) :
    ∃ m', o.bind (naiveLoop sz count) = some m' ∧ Spec.Reversed sz count m0 m' := by
  obtain ⟨i, m, rfl, -, h1, h2⟩ := h
  obtain ⟨m', h3, h4⟩ := swapIter_inv (isRev_id sz) (count / 2 - i) i m h2 (by omega)
  refine ⟨m', by simp [naiveLoop, h3], ?_, ?_⟩
  · intro e b he hb
    rw [h4 e b hb]
    split
    · rfl
    · have : e = count - 1 - e := by omega
      rw [← this]
  · intro p hp
    have e1 : p = p / sz * sz + p % sz := by rw [Nat.mul_comm]; exact (Nat.div_add_mod p sz).symm
    have e2 : count ≤ p / sz := (Nat.le_div_iff_mul_le hsz).2 hp
    rw [e1, h4 _ _ (Nat.mod_lt _ hsz), if_neg (by omega)]

theorem loopOk_start (sz count D : Nat) (m : Bytes α) : LoopOk sz count D m (some (0, m)) := by
  refine ⟨0, m, rfl, Nat.dvd_zero D, by omega, ?_⟩
  intro e b _
  rw [if_neg (by omega)]

/-! ### The register permutations (finite tables) -/

theorem isRev_of_table {sz W : Nat} {perm : Bytes α → Bytes α} {idx : Nat → Nat}
    (hperm : ∀ r, perm r = permReg idx r)
    (h : ∀ e, e < W → ∀ b, b < sz → idx (e * sz + b) = (W - 1 - e) * sz + b) : IsRev sz W perm := by
  intro r e b he hb
  rw [hperm, permReg, h e he b hb]

theorem isRev_512x1 : IsRev (α := α) 1 64 perm512x1 :=
  isRev_of_table (idx := fun k => idxShuffleEpi8 (setEpi 4 [0x00010203, 0x4050607, 0x8090a0b, 0xc0d0e0f,
    0x00010203, 0x4050607, 0x8090a0b, 0xc0d0e0f, 0x00010203, 0x4050607, 0x8090a0b, 0xc0d0e0f,
    0x00010203, 0x4050607, 0x8090a0b, 0xc0d0e0f]) (idxPermutexvar 8 (setEpi 8 [1, 0, 3, 2, 5, 4, 7, 6]) k))
    (fun _ => rfl) (by decide +kernel)

theorem isRev_256x1 : IsRev (α := α) 1 32 perm256x1 :=
  isRev_of_table (idx := fun k => idxShuffleEpi8 (setEpi 1 [0, 1, 2, 3, 4, 5, 6, 7, 8, 9, 10, 11, 12, 13,
    14, 15, 0, 1, 2, 3, 4, 5, 6, 7, 8, 9, 10, 11, 12, 13, 14, 15]) (idxPermute2x128 k))
    (fun _ => rfl) (by decide +kernel)

theorem isRev_128x1 : IsRev (α := α) 1 16 perm128x1 :=
  isRev_of_table (fun _ => rfl) (by decide +kernel)

theorem isRev_bswap (w : Nat) : IsRev (α := α) 1 w (bswap w) := by
  intro r e b he hb
  simp [bswap, permReg]
  congr 1; omega

theorem isRev_512x2 : IsRev (α := α) 2 32 perm512x2 :=
  isRev_of_table (fun _ => rfl) (by decide +kernel)

theorem isRev_256x2 : IsRev (α := α) 2 16 perm256x2 :=
  isRev_of_table (idx := fun k => idxShuffleEpi8 (setEpi 1
    [1, 0, 3, 2, 5, 4, 7, 6, 9, 8, 11, 10, 13, 12, 15, 14,
     1, 0, 3, 2, 5, 4, 7, 6, 9, 8, 11, 10, 13, 12, 15, 14]) (idxPermute2x128 k))
    (fun _ => rfl) (by decide +kernel)

theorem isRev_128x2 : IsRev (α := α) 2 8 perm128x2 :=
  isRev_of_table (fun _ => rfl) (by decide +kernel)

theorem isRev_512x4 : IsRev (α := α) 4 16 perm512x4 :=
  isRev_of_table (fun _ => rfl) (by decide +kernel)

theorem isRev_256x4 : IsRev (α := α) 4 8 perm256x4 :=
  isRev_of_table (idx := fun k => idxShuffleEpi32 (mmShuffle 0 1 2 3) (idxPermute2x128 k))
    (fun _ => rfl) (by decide +kernel)

theorem isRev_128x4 : IsRev (α := α) 4 4 perm128x4 :=
  isRev_of_table (fun _ => rfl) (by decide +kernel)

theorem isRev_512x8 : IsRev (α := α) 8 8 perm512x8 :=
  isRev_of_table (fun _ => rfl) (by decide +kernel)

theorem isRev_256x8 : IsRev (α := α) 8 4 perm256x8 :=
  isRev_of_table (idx := fun k => idxAlignr8 (idxPermute2x128 k)) (fun _ => rfl) (by decide +kernel)

theorem isRev_128x8 : IsRev (α := α) 8 2 perm128x8 :=
  isRev_of_table (fun _ => rfl) (by decide +kernel)

theorem isRev_512x16 : IsRev (α := α) 16 4 perm512x16 :=
  isRev_of_table (fun _ => rfl) (by decide +kernel)

/-! ### The template instances -/

theorem qReverseGeneric_ok (sz count : Nat) (hsz : 0 < sz) (m : Bytes α) :
    ∃ m', qReverseGeneric sz count m = some m' ∧ Spec.Reversed sz count m m' :=
  naiveLoop_ok hsz (loopOk_start sz count 1 m)

theorem qReverse1_ok (cfg : Cfg) (count : Nat) (m : Bytes α) :
    ∃ m', qReverse1 cfg count m = some m' ∧ Spec.Reversed 1 count m m' := by
  have h := swapLoop_ok isRev_512x1 (Nat.dvd_refl _) cfg.avx512 (loopOk_start 1 count 64 m)
  have h := swapLoop_ok isRev_256x1 (by decide) cfg.avx2 h
  have h := swapLoop_ok isRev_128x1 (by decide) cfg.ssse3 h
  have h := swapLoop_ok (isRev_bswap 8) (by decide) true h
  have h := swapLoop_ok (isRev_bswap 4) (by decide) true h
  have h := swapLoop_ok (isRev_bswap 2) (by decide) true h
  have h := naiveLoop_ok (by decide) h
  simp only [Option.bind_assoc, Option.bind_some] at h
  exact h

theorem qReverse2_ok (cfg : Cfg) (count : Nat) (m : Bytes α) :
    ∃ m', qReverse2 cfg count m = some m' ∧ Spec.Reversed 2 count m m' := by
  have h := swapLoop_ok isRev_512x2 (Nat.dvd_refl _) cfg.avx512 (loopOk_start 2 count 32 m)
  have h := swapLoop_ok isRev_256x2 (by decide) cfg.avx2 h
  have h := swapLoop_ok isRev_128x2 (by decide) cfg.ssse3 h
  have h := naiveLoop_ok (by decide) h
  simp only [Option.bind_assoc, Option.bind_some] at h
  exact h

theorem qReverse4_ok (cfg : Cfg) (count : Nat) (m : Bytes α) :
    ∃ m', qReverse4 cfg count m = some m' ∧ Spec.Reversed 4 count m m' := by
  have h := swapLoop_ok isRev_512x4 (Nat.dvd_refl _) cfg.avx512 (loopOk_start 4 count 16 m)
  have h := swapLoop_ok isRev_256x4 (by decide) cfg.avx2 h
  have h := swapLoop_ok isRev_128x4 (by decide) cfg.ssse3 h
  have h := naiveLoop_ok (by decide) h
  simp only [Option.bind_assoc, Option.bind_some] at h
  exact h

theorem qReverse8_ok (cfg : Cfg) (count : Nat) (m : Bytes α) :
    ∃ m', qReverse8 cfg count m = some m' ∧ Spec.Reversed 8 count m m' := by
  have h := swapLoop_ok isRev_512x8 (Nat.dvd_refl _) cfg.avx512 (loopOk_start 8 count 8 m)
  have h := swapLoop_ok isRev_256x8 (by decide) cfg.avx2 h
  have h := swapLoop_ok isRev_128x8 (by decide) cfg.ssse3 h
  have h := naiveLoop_ok (by decide) h
  simp only [Option.bind_assoc, Option.bind_some] at h
  exact h

/-- The AVX2 loop of the sixteen-byte instance runs at least once. -/
def Avx2Loop16 (cfg : Cfg) (count : Nat) : Prop :=
  cfg.avx2 = true ∧ (if cfg.avx512 then 2 ≤ count / 2 % 4 else 4 ≤ count)

theorem loop512x16 (cfg : Cfg) (count : Nat) (m : Bytes α) :
    ∃ m1, swapLoop cfg.avx512 16 4 count perm512x16 (0, m) =
      some (if cfg.avx512 then count / 2 / 4 * 4 else 0, m1) ∧
      RevInv 16 count m (if cfg.avx512 then count / 2 / 4 * 4 else 0) m1 := by
  have h0 : RevInv 16 count m 0 m := by intro e b _; rw [if_neg (by omega)]
  unfold swapLoop
  cases cfg.avx512
  · exact ⟨m, rfl, h0⟩
  · obtain ⟨m', h3, h4⟩ := swapIter_inv isRev_512x16 (count / 2 / 4 - 0 / 4) 0 m h0 (by omega)
    refine ⟨m', ?_, ?_⟩
    · simpa using h3
    · simpa using h4

/-- Sixteen-byte elements: correct whenever the AVX2 loop does not run. -/
theorem qReverse16_ok (cfg : Cfg) (count : Nat) (m : Bytes α) (hc : ¬ Avx2Loop16 cfg count) :
    ∃ m', qReverse16 cfg count m = some m' ∧ Spec.Reversed 16 count m m' := by
  obtain ⟨m1, h1, h2⟩ := loop512x16 cfg count m
  have skip : swapLoop cfg.avx2 16 2 count perm256x16
      (if cfg.avx512 then count / 2 / 4 * 4 else 0, m1) =
      some (if cfg.avx512 then count / 2 / 4 * 4 else 0, m1) := by
    unfold swapLoop Avx2Loop16 at *
    cases h3 : cfg.avx2
    · rfl
    · have : count / 2 / 2 - (if cfg.avx512 = true then count / 2 / 4 * 4 else 0) / 2 = 0 := by
        cases h4 : cfg.avx512 <;> simp [h3, h4] at hc ⊢ <;> omega
      simp only [if_true]
      rw [this]; rfl
  have h : LoopOk 16 count 1 m (some (if cfg.avx512 then count / 2 / 4 * 4 else 0, m1)) :=
    ⟨_, _, rfl, Nat.one_dvd _, by split <;> omega, h2⟩
  have h := naiveLoop_ok (by decide) h
  simp only [qReverse16, h1, bind, Option.bind_some, skip]
  exact h

theorem swapIter_frame {sz W count : Nat} {perm : Bytes α → Bytes α} :
    ∀ (n i : Nat) (m : Bytes α), 2 * (i + n * W) ≤ count →
    ∃ m', swapIter sz W count perm n i m = some (i + n * W, m') ∧ ∀ p, p < i * sz → m' p = m p
  | 0, i, m, _ => ⟨m, by simp [swapIter], fun _ _ => rfl⟩
  | n + 1, i, m, hn => by
    have e : i + (n + 1) * W = i + W + n * W := by rw [Nat.add_mul]; omega
    rw [e] at hn
    have hs : ∃ m1, swapBlocks sz W count perm i m = some m1 ∧ ∀ p, p < i * sz → m1 p = m p := by
      unfold swapBlocks
      rw [if_pos (by omega)]
      refine ⟨_, rfl, fun p hp => ?_⟩
      have : i * sz ≤ (count - i - W) * sz := Nat.mul_le_mul_right _ (by omega)
      dsimp only
      rw [if_neg (by omega), if_neg (by omega)]
    obtain ⟨m1, h1, h2⟩ := hs
    obtain ⟨m', h3, h4⟩ := swapIter_frame (sz := sz) (perm := perm) n (i + W) m1 hn
    refine ⟨m', by rw [swapIter, h1]; simp only [h3, e], fun p hp => ?_⟩
    have : i * sz ≤ (i + W) * sz := Nat.mul_le_mul_right _ (by omega)
    rw [h4 p (by omega), h2 p hp]

/-- Sixteen-byte elements: whenever the AVX2 loop runs, some element comes out with its two halves
exchanged. -/
theorem qReverse16_swaps_halves (cfg : Cfg) (count : Nat) (m : Bytes α) (hc : Avx2Loop16 cfg count) :
    ∃ m' i, i < count ∧ qReverse16 cfg count m = some m' ∧
      m' (i * 16) = m ((count - 1 - i) * 16 + 8) := by
  obtain ⟨m1, h1, h2⟩ := loop512x16 cfg count m
  generalize hi : (if cfg.avx512 then count / 2 / 4 * 4 else 0) = i at h1 h2
  obtain ⟨hc1, hc2⟩ := hc
  have hi2 : i % 4 = 0 ∧ i + 2 ≤ count / 2 := by
    cases h4 : cfg.avx512 <;> simp [h4] at hi hc2 <;> omega
  -- first AVX2 iteration
  obtain ⟨k, hk⟩ : ∃ k, count / 2 / 2 - i / 2 = k + 1 := ⟨count / 2 / 2 - i / 2 - 1, by omega⟩
  have hs : ∃ m2, swapBlocks 16 2 count perm256x16 i m1 = some m2 ∧
      m2 (i * 16) = m ((count - 1 - i) * 16 + 8) := by
    unfold swapBlocks
    rw [if_pos (by omega)]
    refine ⟨_, rfl, ?_⟩
    dsimp only
    rw [if_neg (by omega), if_pos (by omega)]
    have e0 : perm256x16 (fun k => m1 ((count - i - 2) * 16 + k)) (i * 16 - i * 16) =
        m1 ((count - i - 2) * 16 + 24) := by
      rw [Nat.sub_self]; rfl
    have e1 : (count - i - 2) * 16 + 24 = (count - 1 - i) * 16 + 8 := by omega
    rw [e0, e1, h2 _ _ (by omega), if_neg (by omega)]
  obtain ⟨m2, hs1, hs2⟩ := hs
  obtain ⟨m3, h5, h6⟩ := swapIter_frame (sz := 16) (W := 2) (perm := perm256x16 (α := α)) k (i + 2) m2
    (count := count) (by omega)
  obtain ⟨m4, h7, h8⟩ := swapIter_frame (sz := 16) (W := 1) (perm := id) (count / 2 - (i + 2 + k * 2))
    (i + 2 + k * 2) m3 (count := count) (by omega)
  refine ⟨m4, i, by omega, ?_, ?_⟩
  · have a : swapLoop cfg.avx2 16 2 count perm256x16 (i, m1) = some (i + 2 + k * 2, m3) := by
      simp only [swapLoop, hc1, if_true, hk, swapIter, hs1, h5]
    simp only [qReverse16, h1, bind, Option.bind_some, a, naiveLoop, h7, Option.map_some]
  · rw [h8 _ (by omega), h6 _ (by omega), hs2]

end Verif
