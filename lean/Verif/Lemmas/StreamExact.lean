import Verif.Lemmas.Stream

/-! # Which texts pass whole through fputs and fgets -/

namespace Verif.Stream

open Verif.Stream.Spec (Scalar encode utf8)

theorem cstring_cut (a b : List Nat) (h : 0 ∉ a) : cstring (a ++ 0 :: b) = a := by
  rw [cstring_append h]
  simp [cstring]

theorem encode_zero (a b : Str) : encode (a ++ 0 :: b) = encode a ++ 0 :: encode b := by
  rw [encode_append]
  rfl

/-- What one string adds, against what it should. -/
theorem cstring_encode_le (s : Str) : (cstring (encode s)).length ≤ (encode s).length ∧
    ((cstring (encode s)).length = (encode s).length ↔ 0 ∉ s) := by
  by_cases h : 0 ∈ s
  · obtain ⟨a, b, e, ha⟩ := List.eq_append_cons_of_mem h
    subst e
    rw [encode_zero, cstring_cut _ _ (encode_ne_zero ha)]
    simp [h]
  · rw [cstring_self (encode_ne_zero h)]
    simp [h]

/-- A piece that fits in `k` bytes is read whole. -/
theorem readUpTo_fits {k K : Nat} {t : Str} (hK : 0 < K) (hk : k ≤ K) (ht : t ≠ []) (h : (encode (Spec.take K t).1).length ≤ k) :
    readUpTo k (encode t) = (encode (Spec.take K t).1, encode (Spec.take K t).2) := by
  obtain ⟨h1, h2, _, h4⟩ := take_props hK ht
  have e := take_append K t
  generalize (Spec.take K t).1 = p at *
  generalize (Spec.take K t).2 = r at *
  rw [← e, encode_append]
  rcases List.eq_nil_or_concat p with hp | ⟨q, x, hp⟩
  · exact absurd hp h1
  · rw [List.concat_eq_append] at hp
    subst hp
    rw [List.dropLast_concat] at h2
    by_cases hx : x = 10
    · subst hx
      have e1 : encode (q ++ [10]) = encode q ++ [10] := encode_append _ _
      rw [e1] at h ⊢
      rw [List.length_append, List.length_singleton] at h
      rw [List.append_assoc, readUpTo_skip (encode_no_newline h2) (by omega)]
      obtain ⟨m, hm⟩ : ∃ m, k - (encode q).length = m + 1 := ⟨k - (encode q).length - 1, by omega⟩
      rw [hm]
      simp [readUpTo]
    · have hno : 10 ∉ q ++ [x] := by simp [h2]; exact fun h => hx h.symm
      rw [readUpTo_skip (encode_no_newline hno) h]
      by_cases hr : r = []
      · subst hr
        have : encode [] = [] := rfl
        rw [this]
        cases k - (encode (q ++ [x])).length <;> simp [readUpTo]
      · have hlen : (q ++ [x]).length = K := (h4 hr).resolve_left (by simp [hx])
        have := length_le_encode (q ++ [x])
        have h0 : k - (encode (q ++ [x])).length = 0 := by omega
        rw [h0]
        simp [readUpTo]

theorem readUpTo_length : ∀ (k : Nat) (bs : List Nat), (readUpTo k bs).1.length ≤ k := by
  intro k
  induction k with
  | zero => intro bs; simp [readUpTo]
  | succ k ih =>
    intro bs
    cases bs with
    | nil => simp [readUpTo]
    | cons b bs =>
      rw [readUpTo]
      split
      · simp
      · have := ih bs
        simp only [List.length_cons]
        omega

/-- `fgets` with room for `m` bytes where `N` characters are asked for. -/
theorem fgetsInto_exact {m N : Nat} {t : Str} {io : Std} (hm : 2 ≤ m) (hN : m ≤ N) (hs : ∀ c ∈ t, Scalar c)
    (hi : io.input = encode t) :
    ((fgetsInto m io).2 = .ok (Spec.fgets N t).1 ∧ (fgetsInto m io).1.input = encode (Spec.fgets N t).2) ↔
      t ≠ [] ∧ (encode (Spec.fgets N t).1).length < m ∧ 0 ∉ (Spec.fgets N t).1 := by
  have hpos : ¬ ((m : Int) ≤ 0) := by omega
  rw [fgetsInto, if_neg hpos]
  simp only [Int.toNat_natCast, hi]
  by_cases ht : t = []
  · subst ht
    have hc : cfgets m (encode []) = (none, []) := by rw [cfgets, if_neg (by omega)]; rfl
    rw [hc]
    simp
  · have hne : encode t ≠ [] := by rwa [Ne, encode_nil]
    have hc : cfgets m (encode t) = (some (readUpTo (m - 1) (encode t)).1, (readUpTo (m - 1) (encode t)).2) := by
      rw [cfgets, if_neg (by omega), if_neg hne]
    rw [hc]
    dsimp only
    have hsc : ∀ c ∈ (Spec.fgets N t).1, Scalar c := fun c hc =>
      hs c (by rw [← take_append (N - 1) t]; exact List.mem_append_left _ hc)
    constructor
    · intro ⟨h1, h2⟩
      have hrest : (readUpTo (m - 1) (encode t)).2 = encode (Spec.fgets N t).2 := by
        revert h2
        cases decode (cstring (readUpTo (m - 1) (encode t)).1) <;> exact id
      have hone : (readUpTo (m - 1) (encode t)).1 = encode (Spec.fgets N t).1 := by
        have e1 := readUpTo_append (m - 1) (encode t)
        have e2 := congrArg encode (take_append (N - 1) t)
        rw [encode_append] at e2
        rw [hrest] at e1
        exact List.append_cancel_right (e1.trans e2.symm)
      have hl := readUpTo_length (m - 1) (encode t)
      rw [hone] at hl h1
      refine ⟨ht, by omega, fun h0 => ?_⟩
      obtain ⟨a, b, e, ha⟩ := List.eq_append_cons_of_mem h0
      have hsa : ∀ c ∈ a, Scalar c := fun c hc => hsc c (by rw [e]; exact List.mem_append_left _ hc)
      have hd : decode (cstring (encode (Spec.fgets N t).1)) = some a := by
        rw [e, encode_zero, cstring_cut _ _ (encode_ne_zero ha), decode_text hsa]
      rw [hd] at h1
      have h3 : a = (Spec.fgets N t).1 := Except.ok.inj h1
      rw [e] at h3
      have := congrArg List.length h3
      simp at this
    · intro ⟨_, h2, h3⟩
      have hr := readUpTo_fits (k := m - 1) (K := N - 1) (by omega) (by omega) ht (by unfold Spec.fgets at h2; omega)
      rw [hr]
      have hd : decode (cstring (encode (Spec.take (N - 1) t).1)) = some (Spec.take (N - 1) t).1 := by
        have := cstring_self (encode_ne_zero h3)
        unfold Spec.fgets at this hsc
        rw [this, decode_text hsc]
      rw [hd]
      exact ⟨rfl, rfl⟩

end Verif.Stream
