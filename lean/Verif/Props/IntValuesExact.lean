import Verif.Lemmas.SimdSet

/-!
# C48, exactly: the values that pass through the integer helpers unchanged
-/

namespace Verif.Props

open SimdSet

/-- C48, `PyFast_AsInt`, exactly: an int comes through without an exception precisely if its magnitude is below 2^30 (up to
3.11), or it is a C int (from 3.12 on). -/
theorem C48_asInt_exact (py : PyVer) (v : Int) :
    asInt py (canon v) = (v, none) ↔ if py = .le311 then v.natAbs < 2 ^ 30 else FitsS 32 v := by
  by_cases hp : py = .le311
  · subst hp
    rw [if_pos rfl]
    refine ⟨fun h => Nat.lt_of_not_le fun hb => ?_, C48_asInt_311_partial v⟩
    obtain ⟨w, hw, e⟩ := C48_asInt_negation v hb
    rw [e] at h
    exact hw (Prod.mk.inj h).1
  · rw [if_neg hp, C48_asInt_312 py hp]
    split
    · next h => exact ⟨fun _ => h, fun _ => rfl⟩
    · next h => exact ⟨fun e => (nomatch (Prod.mk.inj e).2), fun h' => absurd h' h⟩

example : (if PyVer.le311 = .le311 then (-5 : Int).natAbs < 2 ^ 30 else FitsS 32 (-5)) ∧
    ¬ (if PyVer.le311 = .le311 then (2 ^ 30 : Int).natAbs < 2 ^ 30 else FitsS 32 (2 ^ 30)) ∧
    (if PyVer.v312 = .le311 then (2 ^ 30 : Int).natAbs < 2 ^ 30 else FitsS 32 (2 ^ 30)) := by decide

/-- C48, `PyFast_AsShort` and `PyFast_AsChar`, exactly: an int comes through unchanged precisely if it is a value of the C
type and, from 3.12 on, not negative or the smallest value. (No exception is ever set.) -/
theorem C48_asSmall_exact (bits : Nat) (hb : bits = 8 ∨ bits = 16) (py : PyVer) (v : Int) :
    asSmall bits py (canon v) = v ↔ FitsS bits v ∧ (py = .le311 ∨ 0 ≤ v ∨ v = -(2 ^ (bits - 1))) := by
  obtain ⟨f, h4, hf⟩ : ∃ f : VecFn, f.lane ≠ 4 ∧ 8 * f.lane = bits := by
    rcases hb with rfl | rfl
    · exact ⟨.avx2Vector8, by decide, by decide⟩
    · exact ⟨.avx2Vector16, by decide, by decide⟩
  have hc : intConv py f v = (asSmall bits py (canon v), none) := by
    rw [intConv, if_neg h4, hf]
  have hfit : Spec.LaneFits f v ↔ FitsS bits v := by
    unfold Spec.LaneFits FitsS
    have hl : f.lane = 1 ∨ f.lane = 2 := by omega
    subst hf
    rcases hl with h | h <;> rw [h] <;> omega
  have hmin : 2 * v = -(256 ^ f.lane : Int) ↔ v = -(2 ^ (bits - 1)) := by
    have hl : f.lane = 1 ∨ f.lane = 2 := by omega
    subst hf
    rcases hl with h | h <;> rw [h] <;> omega
  constructor
  · intro h
    have h1 : FitsS bits v := by
      have := intConv_fits py f v
      rw [hc] at this
      dsimp only at this
      rw [h] at this
      exact hfit.1 this
    refine ⟨h1, ?_⟩
    by_cases hp : py = .le311
    · exact .inl hp
    · refine .inr ?_
      by_cases h0 : 0 ≤ v
      · exact .inl h0
      · refine .inr (Classical.byContradiction fun hm => ?_)
        rw [C48_asSmall_negation bits hb py hp v h1 hm (by omega)] at h
        omega
  · rintro ⟨h1, h2⟩
    have := intConv_exact py f v (hfit.2 h1) (fun _ h => absurd h h4) fun hp _ => by
      rcases h2 with h | h | h
      · exact absurd h hp
      · exact .inl h
      · exact .inr (hmin.2 h)
    rw [hc] at this
    exact (Prod.mk.inj this).1

example : asSmall 8 .v312 (canon (-128)) = -128 ∧ asSmall 8 .v312 (canon (-127)) ≠ -127 ∧
    asSmall 16 .le311 (canon (-127)) = -127 ∧ asSmall 16 .le311 (canon 40000) ≠ 40000 := by
  refine ⟨(C48_asSmall_exact 8 (.inl rfl) _ _).2 (by decide), fun h => ?_, (C48_asSmall_exact 16 (.inr rfl) _ _).2 (by decide),
    fun h => ?_⟩
  · exact absurd ((C48_asSmall_exact 8 (.inl rfl) _ _).1 h) (by decide)
  · exact absurd ((C48_asSmall_exact 16 (.inr rfl) _ _).1 h) (by decide)

end Verif.Props
