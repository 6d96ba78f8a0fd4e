import Verif.Lemmas.QReverse

/-! Helper lemmas for C39: what the sixteen-byte instance does, byte by byte. -/

namespace Verif

/-- `perm` reverses the `W` elements of `sz` bytes of a register and reorders the bytes of each by `τ`. -/
def IsRevBy (sz W : Nat) (τ : Nat → Nat) (perm : Bytes α → Bytes α) : Prop :=
  ∀ (r : Bytes α) e b, e < W → b < sz → perm r (e * sz + b) = r ((W - 1 - e) * sz + τ b)

/-- The first and last `i` elements are exchanged, element `e` with its bytes reordered by `σ e`; the rest is untouched. -/
def RevBy (sz count : Nat) (σ : Nat → Nat → Nat) (m0 : Bytes α) (i : Nat) (m : Bytes α) : Prop :=
  ∀ e b, b < sz → m (e * sz + b) =
    if e < count ∧ (e < i ∨ count - i ≤ e) then m0 ((count - 1 - e) * sz + σ e b) else m0 (e * sz + b)

theorem swapBlocks_by {sz W count i : Nat} {τ : Nat → Nat} {σ : Nat → Nat → Nat} {perm : Bytes α → Bytes α} {m0 m : Bytes α}
    (hp : IsRevBy sz W τ perm) (hτ : ∀ b, b < sz → τ b < sz) (hσ : ∀ e, (i ≤ e ∧ e < i + W) ∨ (count - i - W ≤ e ∧ e < count - i) → σ e = τ)
    (hinv : RevBy sz count σ m0 i m) (hi : 2 * (i + W) ≤ count) :
    ∃ m', swapBlocks sz W count perm i m = some m' ∧ RevBy sz count σ m0 (i + W) m' := by
  unfold swapBlocks
  rw [if_pos (by omega)]
  refine ⟨_, rfl, ?_⟩
  intro e b hb
  dsimp only
  by_cases h1 : count - i - W ≤ e ∧ e < count - i - W + W
  · rw [if_pos ((block_mem hb).2 h1), block_sub h1.1, hp _ _ _ (by omega) hb]
    rw [← Nat.add_assoc, ← Nat.add_mul, hinv _ _ (hτ b hb), if_neg (by omega), if_pos (by omega), hσ e (.inr (by omega))]
    congr 3; omega
  · rw [if_neg (mt (block_mem hb).1 h1)]
    by_cases h2 : i ≤ e ∧ e < i + W
    · rw [if_pos ((block_mem hb).2 h2), block_sub h2.1, hp _ _ _ (by omega) hb]
      rw [← Nat.add_assoc, ← Nat.add_mul, hinv _ _ (hτ b hb), if_neg (by omega), if_pos (by omega), hσ e (.inl h2)]
      congr 3; omega
    · rw [if_neg (mt (block_mem hb).1 h2), hinv _ _ hb]
      by_cases h3 : e < count ∧ (e < i ∨ count - i ≤ e)
      · rw [if_pos h3, if_pos (by omega)]
      · rw [if_neg h3, if_neg (by omega)]

theorem swapIter_by {sz W count : Nat} {τ : Nat → Nat} {σ : Nat → Nat → Nat} {perm : Bytes α → Bytes α} {m0 : Bytes α}
    (hp : IsRevBy sz W τ perm) (hτ : ∀ b, b < sz → τ b < sz) : ∀ (n i : Nat) (m : Bytes α),
    (∀ e, (i ≤ e ∧ e < i + n * W) ∨ (count - i - n * W ≤ e ∧ e < count - i) → σ e = τ) → RevBy sz count σ m0 i m →
    2 * (i + n * W) ≤ count →
    ∃ m', swapIter sz W count perm n i m = some (i + n * W, m') ∧ RevBy sz count σ m0 (i + n * W) m'
  | 0, i, m, _, h, _ => ⟨m, by simp [swapIter], by simpa using h⟩
  | n + 1, i, m, hσ, h, hn => by
    have e : i + (n + 1) * W = i + W + n * W := by rw [Nat.add_mul]; omega
    have e2 : (n + 1) * W = W + n * W := by rw [Nat.add_mul]; omega
    rw [e] at hn
    rw [e2] at hσ
    obtain ⟨m1, h1, h2⟩ := swapBlocks_by hp hτ (fun x hx => hσ x (by omega)) h (by omega)
    obtain ⟨m', h3, h4⟩ := swapIter_by hp hτ n (i + W) m1 (fun x hx => hσ x (by omega)) h2 hn
    exact ⟨m', by rw [swapIter, h1]; simp only [h3, e], by rw [e]; exact h4⟩

/-- The elements that the AVX2 loop exchanges: from the first it finds undone to the last whole pair, and those opposite. -/
def Halved (cfg : Cfg) (count e : Nat) : Prop :=
  cfg.avx2 = true ∧ (let i := if cfg.avx512 then count / 2 / 4 * 4 else 0
    (i ≤ e ∧ e < count / 2 / 2 * 2) ∨ (i ≤ count - 1 - e ∧ count - 1 - e < count / 2 / 2 * 2))

instance (cfg : Cfg) (count e : Nat) : Decidable (Halved cfg count e) := by unfold Halved; exact inferInstance

/-- Bytes of element `e`. -/
def half16 (cfg : Cfg) (count e b : Nat) : Nat := if Halved cfg count e then (b + 8) % 16 else b

theorem isRevBy_id : IsRevBy (α := α) 16 1 id id := by
  intro r e b he hb
  have : e = 0 := by omega
  subst this; simp

theorem isRevBy_256x16 : IsRevBy (α := α) 16 2 (fun b => (b + 8) % 16) perm256x16 := by
  intro r e b he hb
  have key : ∀ e, e < 2 → ∀ b, b < 16 → idxPermute4x64 (mmShuffle 0 1 2 3) (e * 16 + b) = (2 - 1 - e) * 16 + (b + 8) % 16 := by
    decide +kernel
  show r (idxPermute4x64 (mmShuffle 0 1 2 3) (e * 16 + b)) = _
  rw [key e he b hb]

theorem qReverse16_bytes (cfg : Cfg) (count : Nat) (m : Bytes α) :
    ∃ m', qReverse16 cfg count m = some m' ∧
      (∀ e b, e < count → b < 16 → m' (e * 16 + b) = m ((count - 1 - e) * 16 + half16 cfg count e b)) ∧
      ∀ p, count * 16 ≤ p → m' p = m p := by
  obtain ⟨m1, h1, h2⟩ := loop512x16 cfg count m
  generalize hi : (if cfg.avx512 then count / 2 / 4 * 4 else 0) = i at h1 h2
  have hi1 : i % 4 = 0 ∧ 2 * i ≤ count := by
    rw [← hi]; split <;> omega
  have hH : ∀ e, Halved cfg count e ↔ cfg.avx2 = true ∧
      ((i ≤ e ∧ e < count / 2 / 2 * 2) ∨ (i ≤ count - 1 - e ∧ count - 1 - e < count / 2 / 2 * 2)) := by
    intro e; unfold Halved; rw [hi]
  have hs : ∀ e, ¬ Halved cfg count e → half16 cfg count e = id := by
    intro e he; funext b; simp [half16, he]
  have ht : ∀ e, Halved cfg count e → half16 cfg count e = fun b => (b + 8) % 16 := by
    intro e he; funext b; simp [half16, he]
  have g1 : RevBy 16 count (half16 cfg count) m i m1 := by
    intro e b hb
    rw [h2 e b hb]
    by_cases c : e < count ∧ (e < i ∨ count - i ≤ e)
    · rw [if_pos c, if_pos c, hs e (by rw [hH]; omega)]; rfl
    · rw [if_neg c, if_neg c]
  have g2 : ∃ j m2, swapLoop cfg.avx2 16 2 count perm256x16 (i, m1) = some (j, m2) ∧ RevBy 16 count (half16 cfg count) m j m2 ∧
      2 * j ≤ count ∧ ∀ e, j ≤ e → e < count - j → ¬ Halved cfg count e := by
    unfold swapLoop
    cases ha : cfg.avx2 with
    | false =>
      refine ⟨i, m1, by simp, g1, hi1.2, fun e _ _ => ?_⟩
      rw [hH, ha]
      simp
    | true =>
      have hj : i + (count / 2 / 2 - i / 2) * 2 = max i (count / 2 / 2 * 2) := by omega
      obtain ⟨m2, k1, k2⟩ := swapIter_by (σ := half16 cfg count) isRevBy_256x16 (fun b _ => Nat.mod_lt _ (by decide))
        (count / 2 / 2 - i / 2) i m1
        (fun e he => ht e (by rw [hH]; exact ⟨ha, by omega⟩)) g1 (by omega)
      refine ⟨_, m2, by simpa using k1, k2, by omega, fun e he he' => ?_⟩
      rw [hH]
      omega
  obtain ⟨j, m2, g3, g4, g5, g6⟩ := g2
  obtain ⟨m3, k1, k2⟩ := swapIter_by (σ := half16 cfg count) (isRevBy_id (α := α)) (fun _ h => h) (count / 2 - j) j m2
    (fun e he => hs e (g6 e (by omega) (by omega))) g4 (by omega)
  refine ⟨m3, ?_, ?_, ?_⟩
  · simp only [qReverse16, h1, bind, Option.bind_some, g3, naiveLoop, k1, Option.map_some]
  · intro e b he hb
    rw [k2 e b hb]
    split
    · rfl
    · have hmid : e = count - 1 - e := by omega
      rw [hs e (g6 e (by omega) (by omega)), ← hmid]; rfl
  · intro p hp
    have e1 : p = p / 16 * 16 + p % 16 := by omega
    rw [e1, k2 _ _ (Nat.mod_lt _ (by decide)), if_neg (by omega)]

end Verif
