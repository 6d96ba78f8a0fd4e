import Verif.Lemmas.Ints
import Verif.Lemmas.Unsafe
import Verif.Model.Calls
import Verif.Spec.Calls

/-!
# Lemmas about calls of machine code
-/

namespace Verif.Calls

open Verif.Unsafe

theorem bytesOf_length : ∀ (n v : Nat), (bytesOf n v).length = n := by
  intro n
  induction n with
  | zero => intro v; rfl
  | succ n ih => intro v; rw [bytesOf, List.length_cons, ih]

theorem value_congr {m m' : Mem} : ∀ {n a : Nat}, (∀ x, a ≤ x → x < a + n → m'.byte x = m.byte x) →
    Spec.value m' a n = Spec.value m a n := by
  intro n
  induction n with
  | zero => intro a _; rfl
  | succ n ih =>
    intro a h
    rw [Spec.value, Spec.value, h a (Nat.le_refl _) (by omega), ih fun x h1 h2 => h x (by omega) (by omega)]

/-- The bytes in memory from `a` on stand for the number. -/
theorem value_bytes {m : Mem} : ∀ {n a v : Nat}, (∀ i, i < n → (bytesOf n v)[i]? = some (m.byte (a + i))) →
    Spec.value m a n = v % 256 ^ n := by
  intro n
  induction n with
  | zero => intro a v _; simp [Spec.value, Nat.mod_one]
  | succ n ih =>
    intro a v h
    have h0 := h 0 (by omega)
    simp only [bytesOf, List.getElem?_cons_zero, Option.some.injEq, Nat.add_zero] at h0
    have := ih (a := a + 1) (v := v / 256) fun i hi => by
      have := h (i + 1) (by omega)
      rw [bytesOf, List.getElem?_cons_succ] at this
      rw [this]
      congr 2
      omega
    have e256 : (Fin.ofNat 256 v).val = v % 256 := rfl
    rw [Spec.value, this, ← h0, e256, Nat.pow_succ, Nat.mul_comm (256 ^ n) 256, Nat.mod_mul]

theorem write_value (m : Mem) (a n v : Nat) : Spec.Stored m (m.write a (bytesOf n v)) a n (v % 256 ^ n) where
  value := value_bytes fun i hi => by
    have hl := bytesOf_length n v
    rw [write_byte_in (by omega), List.getElem?_eq_getElem (by omega)]
  rest := fun x hx => write_byte_out (by rw [bytesOf_length]; exact hx)
  blocks := rfl

theorem bmod_nat (v H : Nat) :
    Int.bmod v (2 * H) = if v % (2 * H) < H then ((v % (2 * H) : Nat) : Int) else (v % (2 * H) : Nat) - (2 * H : Nat) := by
  unfold Int.bmod
  simp only [← Int.natCast_emod]
  generalize v % (2 * H) = r
  split <;> split <;> omega

theorem wrap_signed (bits v : Nat) (hb : 0 < bits) : wrapS bits v = Spec.signed bits v := by
  obtain ⟨k, rfl⟩ : ∃ k, bits = k + 1 := ⟨bits - 1, by omega⟩
  unfold wrapS Spec.signed
  have e : 2 ^ (k + 1) = 2 * 2 ^ k := by rw [Nat.pow_succ, Nat.mul_comm]
  have e' : (2 : Int) ^ (k + 1) = ((2 * 2 ^ k : Nat) : Int) := by
    rw [← e]
    exact (Int.natCast_pow 2 (k + 1)).symm
  rw [e, bmod_nat, Nat.add_sub_cancel, e']

theorem signed_fits (v : Nat) : FitsS 32 (Spec.signed 32 v) := by
  rw [← wrap_signed 32 v (by decide)]
  exact wrapS_fits .i32 v

end Verif.Calls
