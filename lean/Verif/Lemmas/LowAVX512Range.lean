import Verif.Lemmas.LowAVX512Bad

/-! # Integer arguments out of range -/

namespace Verif.LowAVX512

open Spec.Low

theorem declare_silent (py : PyVer) (f32 : List Byte → List Byte) (m : Mem) :
    ∀ (ts : List CTy) (args : List LArg) (k : Nat) (env : List (Nat × List Byte)),
      declare py f32 m args (declsFor ts k) = .ok (env, none) → ∀ (i : Nat) (t : CTy) (a : LArg), ts[i]? = some t →
        args[i + k]? = some a → ∃ v, convert py f32 m ⟨t, convFor t, i + k⟩ a = .ok (v, none)
  | [], _, _, _, _, i, t, _, ht, _ => by simp at ht
  | t0 :: ts, args, k, env, h, i, t, a, ht, ha => by
    simp only [declsFor, declare] at h
    split at h
    · cases h
    · rename_i b hb
      split at h
      · cases h
      · rename_i v e hv
        split at h
        · cases h
        · rename_i env' e' hd
          simp only [Except.ok.injEq, Prod.mk.injEq] at h
          obtain ⟨_, he⟩ := h
          cases e' with
          | some _ => cases he
          | none =>
            simp only [Option.none_or] at he
            subst he
            cases i with
            | zero =>
              simp only [List.getElem?_cons_zero, Option.some.injEq] at ht
              subst ht
              simp only [Nat.zero_add] at ha ⊢
              rw [hb] at ha
              cases ha
              exact ⟨v, hv⟩
            | succ i =>
              simp only [List.getElem?_cons_succ] at ht
              have e : i + 1 + k = i + (k + 1) := by omega
              rw [e] at ha ⊢
              exact declare_silent py f32 m ts args (k + 1) env' hd i t a ht ha

theorem declare_set (py : PyVer) (f32 : List Byte → List Byte) (m : Mem) {a b : LArg} {j : Nat} {args : List LArg}
    (ha : args[j]? = some a) :
    ∀ (ts : List CTy) (k : Nat),
      (∀ i t, i + k = j → ts[i]? = some t → convert py f32 m ⟨t, convFor t, j⟩ a = convert py f32 m ⟨t, convFor t, j⟩ b) →
        declare py f32 m args (declsFor ts k) = declare py f32 m (args.set j b) (declsFor ts k)
  | [], _, _ => rfl
  | t :: ts, k, h => by
    have ih := declare_set py f32 m ha ts (k + 1) fun i t hi ht => h (i + 1) t (by omega) (by simpa using ht)
    have hj : j < args.length := by
      rcases Nat.lt_or_ge j args.length with h | h
      · exact h
      · rw [List.getElem?_eq_none h] at ha
        cases ha
    simp only [declsFor, declare]
    rcases Nat.decEq k j with hk | rfl
    · rw [List.getElem?_set_ne (by omega), ih]
    · rw [ha, List.getElem?_set_self hj, ← ih]
      simp only
      rw [h 0 t (by omega) rfl]

theorem laneBytes_wrap : ∀ (n : Nat) (v k : Int), SimdSet.laneBytes n (v + 256 ^ n * k) = SimdSet.laneBytes n v := by
  intro n
  induction n with
  | zero => intro v k; rfl
  | succ n ih =>
    intro v k
    have e : v + 256 ^ (n + 1) * k = v + 256 * (256 ^ n * k) := by rw [Int.pow_succ]; ring
    have e1 : (v + 256 * (256 ^ n * k)) % 256 = v % 256 := by omega
    have e2 : (v + 256 * (256 ^ n * k)) / 256 = v / 256 + 256 ^ n * k := by omega
    simp only [SimdSet.laneBytes]
    rw [e, e1, e2, ih]

theorem laneBytes_mod (n : Nat) (v : Int) : SimdSet.laneBytes n (v % 256 ^ n) = SimdSet.laneBytes n v := by
  have := laneBytes_wrap n (v % 256 ^ n) (v / 256 ^ n)
  rw [Int.emod_add_mul_ediv] at this
  exact this.symm

theorem asUnsigned_ok {z : Int} (h : 0 ≤ z ∧ z < 2 ^ 64) : asUnsigned (.int z) = (z, none) := by
  have e : Unsafe.asSizeT (.int z) = .ok z.toNat := if_pos h
  unfold asUnsigned
  rw [e]
  simp only [Prod.mk.injEq, and_true]
  omega

theorem convert_uint (py : PyVer) (f32 : List Byte → List Byte) (m : Mem) (k : Nat) {z : Int} (h : 0 ≤ z ∧ z < 2 ^ 64) :
    convert py f32 m ⟨.uint, .asULong, k⟩ (.obj (.int z)) = convert py f32 m ⟨.uint, .asULong, k⟩ (.obj (.int (z % 2 ^ 32))) := by
  simp only [convert, toArg]
  rw [asUnsigned_ok h, asUnsigned_ok (by omega)]
  simp only [intBytes]
  exact congrArg (fun v => Except.ok (v, none)) (laneBytes_mod 4 z).symm

/-- A conversion that reports nothing was given a number in range. -/
theorem convert_silent {py : PyVer} {f32 : List Byte → List Byte} {m : Mem} {t : CTy} {k : Nat} {z : Int} {v : List Byte}
    (h : convert py f32 m ⟨t, convFor t, k⟩ (.obj (.int z)) = .ok (v, none)) :
    (t = .llong → -(2 ^ 63) ≤ z ∧ z < 2 ^ 63) ∧ (t = .ullong ∨ t = .uint → 0 ≤ z ∧ z < 2 ^ 64) := by
  constructor
  · rintro rfl
    simp only [convert, convFor, toArg, intBytes, Except.ok.injEq, Prod.mk.injEq] at h
    have h2 := h.2
    unfold asLong at h2
    simp only at h2
    split at h2
    · rename_i hf
      exact hf
    · cases h2
  · intro ht
    have : (asUnsigned (.int z)).2 = none := by
      rcases ht with rfl | rfl <;>
      · simp only [convert, convFor, toArg, intBytes, Except.ok.injEq, Prod.mk.injEq] at h
        exact h.2
    by_contra hz
    have e : Unsafe.asSizeT (.int z) = .error .overflowError := if_neg hz
    unfold asUnsigned at this
    rw [e] at this
    cases this

theorem exec_silent {py : PyVer} {f32 : List Byte → List Byte} {I : Intrinsics} {m m' : Mem} {args : List LArg}
    {n : Nat} {ds : List Decl} {callee : Ident} {passed : List Nat} {ret : Option CTy} {v : UVal}
    (h : exec py f32 I m args (.call n ds callee passed ret) = .ok m' v) :
    ∃ env, declare py f32 m args ds = .ok (env, none) := by
  simp only [exec] at h
  split at h
  · cases h
  · split at h
    · cases h
    · rename_i env e hd
      cases e with
      | none => exact ⟨env, hd⟩
      | some e =>
        exfalso
        split at h
        · cases h
        · split at h
          · cases h
          · split at h
            · cases h
            · split at h
              · cases h
              · cases h

theorem exec_set {py : PyVer} {f32 : List Byte → List Byte} {I : Intrinsics} {m : Mem} {args : List LArg} {b : LArg}
    {n j : Nat} {ds : List Decl} {callee : Ident} {passed : List Nat} {ret : Option CTy}
    (hd : declare py f32 m args ds = declare py f32 m (args.set j b) ds) (hj : ret = none ∨ 0 < j) :
    exec py f32 I m args (.call n ds callee passed ret) =
      exec py f32 I m (args.set j b) (.call n ds callee passed ret) := by
  simp only [exec, List.length_set, ← hd]
  rcases hj with rfl | hj
  · rfl
  · rw [List.getElem?_set_ne (by omega)]

end Verif.LowAVX512
