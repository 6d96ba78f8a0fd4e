import Verif.Model.SimdCopy
import Verif.Spec.Copy
import Verif.Spec.Aligned

namespace Verif

theorem writeAt_length {dst : List α} {pos : Nat} {xs : List α} (h : pos + xs.length ≤ dst.length) :
    (writeAt dst pos xs).length = dst.length := by
  simp [writeAt]; omega

theorem writeAt_getElem? {dst : List α} {pos : Nat} {xs : List α} (h : pos + xs.length ≤ dst.length)
    (p : Nat) : (writeAt dst pos xs)[p]? =
      if pos ≤ p ∧ p < pos + xs.length then xs[p - pos]? else dst[p]? := by
  unfold writeAt
  have hl : (dst.take pos).length = pos := by simp; omega
  rw [List.append_assoc, List.getElem?_append, hl]
  by_cases h1 : p < pos
  · rw [if_pos h1, if_neg (by omega), List.getElem?_take, if_pos h1]
  · rw [if_neg h1, List.getElem?_append]
    by_cases h2 : p - pos < xs.length
    · rw [if_pos h2, if_pos (by omega)]
    · rw [if_neg h2, if_neg (by omega), List.getElem?_drop]
      congr 1; omega

theorem writeAt_nil (dst : List α) (pos : Nat) : writeAt dst pos [] = dst := by
  simp [writeAt]

theorem writeAt_copied {src dst : List α} {off count : Nat} (h1 : count ≤ src.length)
    (h2 : off + count ≤ dst.length) :
    Spec.Copied src dst (writeAt dst off (src.take count)) off count := by
  have hl : (src.take count).length = count := by simp; omega
  refine ⟨writeAt_length (by omega), fun k hk => ?_, fun p hp => ?_⟩
  · rw [writeAt_getElem? (by omega), if_pos (by omega)]
    refine ⟨src[k]'(by omega), by simp, ?_⟩
    rw [List.getElem?_take, if_pos (by omega)]
    simp
  · rw [writeAt_getElem? (by omega), if_neg (by omega)]

/-- Extending a written prefix by the next `W` elements. -/
theorem writeAt_step {src dst : List α} {off c W : Nat} (h1 : c + W ≤ src.length)
    (h2 : off + c + W ≤ dst.length) :
    writeAt (writeAt dst off (src.take c)) (off + c) ((src.drop c).take W) =
      writeAt dst off (src.take (c + W)) := by
  have l1 : (src.take c).length = c := by simp; omega
  have l2 : ((src.drop c).take W).length = W := by simp; omega
  have l3 : (src.take (c + W)).length = c + W := by simp; omega
  apply List.ext_getElem?
  intro p
  rw [writeAt_getElem? (by rw [writeAt_length (by omega)]; omega), writeAt_getElem? (by omega),
    writeAt_getElem? (by omega), l1, l2, l3]
  by_cases a : off + c ≤ p ∧ p < off + c + W
  · rw [if_pos a, if_pos (by omega), List.getElem?_take, if_pos (by omega), List.getElem?_drop,
      List.getElem?_take, if_pos (by omega)]
    congr 1; omega
  · rw [if_neg a]
    by_cases b : off ≤ p ∧ p < off + c
    · rw [if_pos b, if_pos (by omega), List.getElem?_take, if_pos (by omega), List.getElem?_take,
        if_pos (by omega)]
    · rw [if_neg b, if_neg (by omega)]

/-- Rewriting the whole range over a written prefix. -/
theorem writeAt_over {src dst : List α} {off c count : Nat} (h0 : c ≤ count) (h1 : count ≤ src.length)
    (h2 : off + count ≤ dst.length) :
    writeAt (writeAt dst off (src.take count)) off (src.take c) = writeAt dst off (src.take count) := by
  have l1 : (src.take c).length = c := by simp; omega
  have l3 : (src.take count).length = count := by simp; omega
  apply List.ext_getElem?
  intro p
  rw [writeAt_getElem? (by rw [writeAt_length (by omega)]; omega), writeAt_getElem? (by omega), l1, l3]
  by_cases a : off ≤ p ∧ p < off + c
  · rw [if_pos a, if_pos (by omega), List.getElem?_take, if_pos (by omega), List.getElem?_take,
      if_pos (by omega)]
  · rw [if_neg a]

theorem blockLoop_ok {aligned : Bool} {B sz fa ta : Nat} {src : List α} {off count W : Nat}
    (hB : W * sz = B) (h1 : count ≤ src.length) (d0 : List α) (h2 : off + count ≤ d0.length)
    (dst : List α) (c : Nat) :
    dst = writeAt d0 off (src.take c) → c ≤ count →
    (aligned = true → (fa + c * sz) % B = 0 ∧ (ta + c * sz) % B = 0) →
    blockLoop aligned B sz fa ta src off count W dst c =
      .ok (writeAt d0 off (src.take (c + (count - c) / W * W)), c + (count - c) / W * W) := by
  fun_induction blockLoop aligned B sz fa ta src off count W dst c with
  | case1 dst c h u hu =>
    rintro rfl hc hal
    have l0 : (src.take c).length = c := by simp; omega
    exfalso
    unfold blockMove at hu
    rw [if_neg, if_pos] at hu
    · simp at hu
    · rw [writeAt_length (by omega)]; omega
    · cases aligned
      · simp
      · simp [hal rfl]
  | case2 dst c h dst' hd ih =>
    rintro rfl hc hal
    have l0 : (src.take c).length = c := by simp; omega
    unfold blockMove at hd
    rw [if_neg, if_pos] at hd
    · simp only [Except.ok.injEq] at hd
      rw [writeAt_step (by omega) (by omega)] at hd
      have e2 : (count - c) / W = (count - (c + W)) / W + 1 := by
        have : count - c = count - (c + W) + W := by omega
        rw [this, Nat.add_div_right _ h.2]
      have e3 : c + (count - c) / W * W = c + W + (count - (c + W)) / W * W := by
        rw [e2, Nat.add_mul]; omega
      rw [e3]
      refine ih hd.symm (by omega) (fun ha => ?_)
      obtain ⟨q1, q2⟩ := hal ha
      have e1 : (c + W) * sz = c * sz + B := by rw [Nat.add_mul, hB]
      rw [e1, ← Nat.add_assoc, ← Nat.add_assoc, Nat.add_mod_right, Nat.add_mod_right]
      exact ⟨q1, q2⟩
    · rw [writeAt_length (by omega)]; omega
    · cases aligned
      · simp
      · simp [hal rfl]
  | case3 dst c h =>
    rintro rfl hc hal
    have e : (count - c) / W * W = 0 := by
      rcases Nat.eq_zero_or_pos W with rfl | hpos
      · simp
      · have : (count - c) / W = 0 := Nat.div_eq_of_lt (by omega)
        rw [this]; simp
    rw [e]; rfl

theorem blockLoop_misaligned {B sz fa ta : Nat} {src : List α} {off count W : Nat} {dst : List α} {c : Nat}
    (hW : 0 < W) (h : W ≤ count - c) (hm : (fa + c * sz) % B ≠ 0 ∨ (ta + c * sz) % B ≠ 0) :
    blockLoop true B sz fa ta src off count W dst c = .error .misaligned := by
  rw [blockLoop, dif_pos ⟨h, hW⟩]
  have : blockMove true B sz fa ta src dst off W c = .error .misaligned := by
    unfold blockMove
    rw [if_pos]
    simpa using hm
  rw [this]

theorem scalarTail_ok {src : List α} {off count : Nat} (h1 : count ≤ src.length) (d0 : List α)
    (h2 : off + count ≤ d0.length) (dst : List α) (c : Nat) :
    dst = writeAt d0 off (src.take c) → c ≤ count →
    scalarTail src off count dst c = .ok (writeAt d0 off (src.take count)) := by
  fun_induction scalarTail src off count dst c with
  | case1 dst c h h' ih =>
    rintro rfl hc
    exact ih (writeAt_step (by omega) (by omega)) (by omega)
  | case2 dst c h h' =>
    rintro rfl hc
    have l0 : (src.take c).length = c := by simp; omega
    rw [writeAt_length (by omega)] at h'
    omega
  | case3 dst c h =>
    rintro rfl hc
    have : c = count := by omega
    rw [this]

/-- One stage (`if (FLAG && …) for …`) of the copy, from a state with `c` elements copied. -/
theorem stage {on aligned : Bool} {B sz W fa ta : Nat} {src : List α} {off count : Nat}
    (hW : B / sz = W) (hB : W * sz = B) (hWpos : 0 < W) (h1 : count ≤ src.length) (d0 : List α)
    (h2 : off + count ≤ d0.length) (c : Nat) (hc : c ≤ count) (hfa : aligned = true → (fa + c * sz) % B = 0)
    (hcB : c * sz % B = 0) :
    copyStage on aligned B sz fa ta src off count (writeAt d0 off (src.take c), c) =
    if aligned = true ∧ on = true ∧ W ≤ count - c ∧ ta % B ≠ 0 then .error .misaligned
    else .ok (writeAt d0 off (src.take (if on then c + (count - c) / W * W else c)),
      if on then c + (count - c) / W * W else c) := by
  unfold copyStage
  rw [hW]
  cases on
  · simp
  · simp only [if_true, true_and]
    have hta : (ta + c * sz) % B = ta % B := by
      rw [Nat.add_mod, hcB, Nat.add_zero, Nat.mod_mod]
    by_cases h : aligned = true ∧ W ≤ count - c ∧ ta % B ≠ 0
    · rw [if_pos h]
      obtain ⟨rfl, h3, h4⟩ := h
      exact blockLoop_misaligned hWpos h3 (Or.inr (by rw [hta]; exact h4))
    · rw [if_neg h]
      by_cases h5 : W ≤ count - c
      · refine blockLoop_ok hB h1 d0 h2 _ c rfl hc (fun ha => ⟨hfa ha, ?_⟩)
        rw [hta]
        apply Classical.byContradiction
        intro h6
        exact h ⟨ha, h5, h6⟩
      · rw [blockLoop, dif_neg (by omega)]
        have : (count - c) / W = 0 := Nat.div_eq_of_lt (by omega)
        simp [this]

theorem simdMemCpy_eq (cfg : Cfg) (aligned : Bool) {sz fa ta : Nat} {src dst : List α} {off count : Nat}
    (hsz : sz ∣ 16) (h1 : count ≤ src.length) (h2 : off + count ≤ dst.length)
    (hfa : aligned = true → fa % 64 = 0) :
    simdMemCpy cfg aligned sz fa ta src dst off count =
      if aligned = true ∧ ¬ CopyAligned cfg sz ta count then .error .misaligned
      else .ok (writeAt dst off (src.take count)) := by
  -- after the optional memcpy
  obtain ⟨d0, hd0, hl, hw⟩ : ∃ d0, copyHead cfg src dst off count = .ok d0 ∧
      d0.length = dst.length ∧ writeAt d0 off (src.take count) = writeAt dst off (src.take count) := by
    have l3 : (src.take count).length = count := by simp; omega
    unfold copyHead
    split
    · refine ⟨writeAt dst off (src.take count), ?_, writeAt_length (by omega), writeAt_over (Nat.le_refl _) h1 h2⟩
      simp [memcpyElems, h1, h2]
    · exact ⟨dst, rfl, rfl, rfl⟩
  have h2' : off + count ≤ d0.length := by omega
  have hz : writeAt d0 off (src.take 0) = d0 := by simp [writeAt_nil]
  rw [← hw]
  unfold simdMemCpy
  rw [hd0]
  simp only [bind, Except.bind]
  have hs : sz = 1 ∨ sz = 2 ∨ sz = 4 ∨ sz = 8 ∨ sz = 16 := by
    have : sz ≤ 16 := Nat.le_of_dvd (by decide) hsz
    have : ∀ s, s ≤ 16 → s ∣ 16 → s = 1 ∨ s = 2 ∨ s = 4 ∨ s = 8 ∨ s = 16 := by decide
    exact this sz (by omega) hsz
  have w5 : 64 / sz * sz = 64 ∧ 0 < 64 / sz := by rcases hs with rfl | rfl | rfl | rfl | rfl <;> decide
  have w2 : 32 / sz * sz = 32 ∧ 0 < 32 / sz := by rcases hs with rfl | rfl | rfl | rfl | rfl <;> decide
  have w1 : 16 / sz * sz = 16 ∧ 0 < 16 / sz := by rcases hs with rfl | rfl | rfl | rfl | rfl <;> decide
  have s5 := stage (on := cfg.avx512) (aligned := aligned) (fa := fa) (ta := ta) rfl w5.1 w5.2 h1 d0 h2' 0
    (Nat.zero_le _) (fun h => by simpa using hfa h) (by simp)
  rw [hz] at s5
  rw [s5]
  generalize hc1 : (if cfg.avx512 = true then 0 + (count - 0) / (64 / sz) * (64 / sz) else 0) = c1
  have c1le : c1 ≤ count := by
    have := Nat.div_mul_le_self count (64 / sz)
    subst hc1; split <;> simp <;> omega
  have c1B : c1 * sz % 64 = 0 := by
    subst hc1; split
    · rw [Nat.zero_add, Nat.sub_zero, Nat.mul_assoc, w5.1]; exact Nat.mul_mod_left _ _
    · simp
  by_cases m5 : aligned = true ∧ cfg.avx512 = true ∧ 64 / sz ≤ count - 0 ∧ ta % 64 ≠ 0
  · rw [if_pos m5, if_pos]
    exact ⟨m5.1, fun h => m5.2.2.2 (h.1 m5.2.1 (by omega))⟩
  rw [if_neg m5]
  dsimp only
  have hc1sz : c1 * sz % 32 = 0 := by omega
  have s2 := stage (on := cfg.avx2) (aligned := aligned) (fa := fa) (ta := ta) rfl w2.1 w2.2 h1 d0 h2' c1
    c1le (fun h => by have := hfa h; omega) hc1sz
  rw [s2]
  generalize hc2 : (if cfg.avx2 = true then c1 + (count - c1) / (32 / sz) * (32 / sz) else c1) = c2
  have c2le : c2 ≤ count := by
    have := Nat.div_mul_le_self (count - c1) (32 / sz)
    subst hc2; split <;> omega
  have c2B : c2 * sz % 32 = 0 := by
    subst hc2; split
    · rw [Nat.add_mul, Nat.mul_assoc, w2.1]; omega
    · exact hc1sz
  have r1 : count - c1 = if cfg.avx512 = true then count % (64 / sz) else count := by
    subst hc1; split
    · have := Nat.mod_add_div count (64 / sz)
      rw [Nat.mul_comm] at this
      simp; omega
    · simp
  by_cases m2 : aligned = true ∧ cfg.avx2 = true ∧ 32 / sz ≤ count - c1 ∧ ta % 32 ≠ 0
  · rw [if_pos m2, if_pos]
    exact ⟨m2.1, fun h => m2.2.2.2 (h.2.1 m2.2.1 (by rw [← r1]; exact m2.2.2.1))⟩
  rw [if_neg m2]
  dsimp only
  have hc2sz : c2 * sz % 16 = 0 := by omega
  have s1 := stage (on := cfg.sse41) (aligned := aligned) (fa := fa) (ta := ta) rfl w1.1 w1.2 h1 d0 h2' c2
    c2le (fun h => by have := hfa h; omega) hc2sz
  rw [s1]
  generalize hc3 : (if cfg.sse41 = true then c2 + (count - c2) / (16 / sz) * (16 / sz) else c2) = c3
  have c3le : c3 ≤ count := by
    have := Nat.div_mul_le_self (count - c2) (16 / sz)
    subst hc3; split <;> omega
  have r2 : count - c2 = if cfg.avx2 = true then count % (32 / sz)
      else if cfg.avx512 = true then count % (64 / sz) else count := by
    have hd : 64 / sz = 2 * (32 / sz) := by rcases hs with rfl | rfl | rfl | rfl | rfl <;> decide
    subst hc2
    split
    · have e := Nat.mod_add_div (count - c1) (32 / sz)
      rw [Nat.mul_comm] at e
      have : (count - c1) % (32 / sz) = count % (32 / sz) := by
        rw [r1]; split
        · rw [hd]; exact Nat.mod_mod_of_dvd _ (Nat.dvd_mul_left _ _)
        · rfl
      omega
    · exact r1
  by_cases m1 : aligned = true ∧ cfg.sse41 = true ∧ 16 / sz ≤ count - c2 ∧ ta % 16 ≠ 0
  · rw [if_pos m1, if_pos]
    exact ⟨m1.1, fun h => m1.2.2.2 (h.2.2 m1.2.1 (by rw [← r2]; exact m1.2.2.1))⟩
  rw [if_neg m1]
  dsimp only
  rw [scalarTail_ok h1 d0 h2' _ c3 rfl c3le, if_neg]
  rintro ⟨ha, hn⟩
  apply hn
  refine ⟨fun q1 q2 => ?_, fun q1 q2 => ?_, fun q1 q2 => ?_⟩
  · exact Classical.byContradiction fun q3 => m5 ⟨ha, q1, by omega, q3⟩
  · exact Classical.byContradiction fun q3 => m2 ⟨ha, q1, by rw [r1]; exact q2, q3⟩
  · exact Classical.byContradiction fun q3 => m1 ⟨ha, q1, by rw [r2]; exact q2, q3⟩

theorem fastMemcpy_eq (cfg : Cfg) {fa ta : Nat} {src dst : List α} {off n : Nat}
    (h1 : n ≤ src.length) (h2 : off + n ≤ dst.length) :
    fastMemcpy cfg fa ta src dst off n = .ok (writeAt dst off (src.take n)) := by
  unfold fastMemcpy
  split
  · simp [memcpyElems, h1, h2]
  · split
    · next h =>
      rw [simdMemCpy_eq cfg true (by decide) h1 h2 (fun _ => h.1), if_neg]
      rintro ⟨-, hn⟩
      exact hn ⟨fun _ _ => h.2, fun _ _ => by omega, fun _ _ => by omega⟩
    · rw [simdMemCpy_eq cfg false (by decide) h1 h2 (by simp)]; simp

/-! ### Copies that do not fit -/

/-- Progress invariant: what was copied so far lay inside the destination. -/
def CopyInside (n off count : Nat) (st : List α × Nat) : Prop :=
  st.1.length = n ∧ st.2 ≤ count ∧ (st.2 = 0 ∨ off + st.2 ≤ n)

theorem blockLoop_inside {aligned : Bool} {B sz fa ta : Nat} {src : List α} {off count W n : Nat}
    {dst : List α} {c : Nat} (h : CopyInside n off count (dst, c)) {st : List α × Nat}
    (hok : blockLoop aligned B sz fa ta src off count W dst c = .ok st) : CopyInside n off count st := by
  induction hk : count - c using Nat.strongRecOn generalizing dst c with
  | ind k ih =>
    subst hk
    rw [blockLoop] at hok
    split at hok
    · next hW =>
      unfold blockMove at hok
      split at hok
      · cases hok
      · next d' hd =>
        split at hd
        · cases hd
        · split at hd
          · next hb =>
            obtain rfl := Except.ok.inj hd
            refine ih _ (by omega) ?_ hok rfl
            obtain ⟨h1, h2, h3⟩ := h
            simp only at h1 h2 h3
            have hl : ((src.drop c).take W).length = W := by simp; omega
            refine ⟨?_, by simp only; omega, .inr (by simp only; omega)⟩
            simp only
            rw [writeAt_length (by omega)]; exact h1
          · cases hd
    · obtain rfl := Except.ok.inj hok; exact h

theorem copyStage_inside {on aligned : Bool} {B sz fa ta : Nat} {src : List α} {off count n : Nat}
    {st st' : List α × Nat} (h : CopyInside n off count st)
    (hok : copyStage on aligned B sz fa ta src off count st = .ok st') : CopyInside n off count st' := by
  unfold copyStage at hok
  split at hok
  · exact blockLoop_inside h hok
  · obtain rfl := Except.ok.inj hok; exact h

theorem scalarTail_inside {src : List α} {off count n : Nat} {dst d : List α} {c : Nat}
    (h : CopyInside n off count (dst, c)) (hok : scalarTail src off count dst c = .ok d) :
    count = 0 ∨ off + count ≤ n := by
  induction hk : count - c using Nat.strongRecOn generalizing dst c with
  | ind k ih =>
    subst hk
    rw [scalarTail] at hok
    split at hok
    · next hc =>
      split at hok
      · next hb =>
        refine ih _ (by omega) ?_ hok rfl
        obtain ⟨h1, h2, h3⟩ := h
        simp only at h1 h2 h3
        have hl : ((src.drop c).take 1).length = 1 := by simp; omega
        refine ⟨?_, by simp only; omega, .inr (by simp only; omega)⟩
        simp only
        rw [writeAt_length (by omega)]; exact h1
      · cases hok
    · obtain ⟨h1, h2, h3⟩ := h
      simp only at h1 h2 h3
      omega

theorem bind_ok {ε β γ : Type _} {x : Except ε β} {f : β → Except ε γ} {c : γ} (h : x.bind f = .ok c) :
    ∃ b, x = .ok b ∧ f b = .ok c := by
  cases x with
  | error e => cases h
  | ok b => exact ⟨b, rfl, h⟩

/-- A copy that succeeds stayed inside the destination. -/
theorem simdMemCpy_inside {cfg : Cfg} {aligned : Bool} {sz fa ta : Nat} {src dst d : List α} {off count : Nat}
    (hok : simdMemCpy cfg aligned sz fa ta src dst off count = .ok d) : count = 0 ∨ off + count ≤ dst.length := by
  unfold simdMemCpy at hok
  obtain ⟨d0, h0, hok⟩ := bind_ok hok
  obtain ⟨s1, h1, hok⟩ := bind_ok hok
  obtain ⟨s2, h2, hok⟩ := bind_ok hok
  obtain ⟨s3, h3, hok⟩ := bind_ok hok
  have hd : d0.length = dst.length := by
    unfold copyHead at h0
    split at h0
    · unfold memcpyElems at h0
      split at h0
      · next hb =>
        obtain rfl := Except.ok.inj h0
        exact writeAt_length (by simp; omega)
      · cases h0
    · obtain rfl := Except.ok.inj h0; rfl
  have i0 : CopyInside dst.length off count (d0, 0) := ⟨hd, Nat.zero_le _, .inl rfl⟩
  exact scalarTail_inside (copyStage_inside (copyStage_inside (copyStage_inside i0 h1) h2) h3) hok

/-- A successful copy keeps the size of the destination. -/
theorem simdMemCpy_length {cfg : Cfg} {aligned : Bool} {sz fa ta : Nat} {src dst d : List α} {off count : Nat}
    (hsz : sz ∣ 16) (hc : count ≤ src.length) (hfa : aligned = true → fa % 64 = 0)
    (hok : simdMemCpy cfg aligned sz fa ta src dst off count = .ok d) (h0 : 0 < count) :
    d.length = dst.length := by
  have hb := (simdMemCpy_inside hok).resolve_left (by omega)
  rw [simdMemCpy_eq cfg aligned hsz hc hb hfa] at hok
  split at hok
  · cases hok
  · obtain rfl := Except.ok.inj hok
    exact writeAt_length (by simp; omega)

end Verif
