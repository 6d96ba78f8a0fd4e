import Verif.Lemmas.ArrayListStep

/-! Helper lemmas: reading one element through the API. -/

namespace Verif

open ArrayList

theorem positions_lt (n : Nat) (i j : Option Int) (k : Int) : ∀ p ∈ Spec.positions n i j k, p < n := by
  intro p hp
  unfold Spec.positions at hp
  split at hp
  · exact List.mem_range.1 (List.mem_filter.1 hp).1
  · exact List.mem_range.1 (List.mem_filter.1 (List.mem_reverse.1 hp)).1

theorem fits_len {n p : Nat} (hn : (n : Int) ≤ ssizeMax) (hp : p < n) : FitsS 64 (p : Int) := by
  have h : ssizeMax < 9223372036854775808 := by decide
  rw [fits64]
  generalize ssizeMax = m at *
  omega

theorem get_int (cfg : Cfg) (K : Kind) (l : List Int) (v : Int) (h : FitsS 64 v) :
    step cfg K l (.get (.idx (.int v))) = getItem cfg K l v := by
  have h : asSsizeIndex (.int v) = (v, none) := by
    simp only [asSsizeIndex, h, if_true]
  rw [step]
  simp only [subscript, h]

theorem get_at (cfg : Cfg) (K : Kind) (l : List Int) (p : Nat) (hn : (l.length : Int) ≤ ssizeMax)
    (hp : p < l.length) : step cfg K l (.get (.idx (.int p))) = .ok l (.int (box K cfg.py (l.getD p 0))) := by
  have hpp : Spec.position l.length (p : Int) = some p := by
    unfold Spec.position; rw [if_pos (by omega)]; simp
  rw [get_int cfg K l p (fits_len hn hp), getItem_eq, hpp]

/-- Reading a negative element back on CPython 3.12 and later flips its sign. -/
theorem rebox_negative (cfg : Cfg) (hpy : cfg.py ≠ .le311) {v : Int} (hv : FitsS 32 v) (hneg : v < 0)
    (hmin : v ≠ -(2 ^ 31)) : rebox .i32 cfg.py v = (-v, none) := by
  have hb : box .i32 cfg.py v = ⟨-1, [(v % 2 ^ 32).toNat]⟩ := by
    unfold box fromInt
    cases h : cfg.py with
    | le311 => exact absurd h hpy
    | _ => simp [hneg]
  rw [fits32] at hv
  have hval : (box .i32 cfg.py v).value = -(2 ^ 32 + v) := by
    rw [hb]; simp only [PyLong.value, digitsVal]; omega
  unfold rebox
  simp only [hval]
  rw [if_pos (by rw [fits64]; omega)]
  congr 1
  have : wrapS 32 (-(2 ^ 32 + v)) = wrapS 32 (-v) := by
    unfold wrapS
    rw [show -(2 ^ 32 + v) = -v - ((2 ^ 32 : Nat) : Int) by omega]
    exact Int.sub_bmod_right ..
  rw [show Kind.i32.bits = 32 from rfl, this]
  exact wrapS_of_fits .i32 (by simp only [Kind.bits, fits32]; omega)

end Verif
