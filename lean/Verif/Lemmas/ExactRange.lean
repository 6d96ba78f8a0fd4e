import Verif.Lemmas.Range
import Verif.Spec.ExactRange

/-! Helper lemmas: exact domain of `from_range`. -/

namespace Verif.ArrayList

open Verif

/-- What `from_range` does once its arguments are read. -/
def rangeOf (K : Kind) (start stop step : Int) : Out Unit (List Int) :=
  match rangeCount start stop step with
  | .error u => .ub u
  | .ok none => .ok () []
  | .ok (some n) =>
    match rangeLoop K step n.toNat start with
    | .ok l => .ok () l
    | .error u => .ub u

theorem fromRange_eq (K : Kind) (a1 : Arg) (a2 a3 : Option Arg) {start stop step : Int}
    (h : evalRange a1 a2 a3 = .ok (start, stop, step)) :
    fromRange K a1 a2 a3 = rangeOf K start stop step := by
  unfold fromRange; rw [h]; rfl

theorem wrapS_eq_iff (K : Kind) (v : Int) : wrapS K.bits v = v ↔ FitsS K.bits v :=
  ⟨fun h => h ▸ wrapS_fits K v, wrapS_of_fits K⟩

/-- The loop run for `n` elements yields the range iff `n` counts its positions and nothing overflows. -/
theorem rangeLoop_iff (K : Kind) (start stop step : Int) (n : Nat) :
    (∃ l, (match rangeLoop K step n start with
      | .ok l => (Out.ok () l : Out Unit (List Int))
      | .error u => .ub u) = .ok () l ∧ Spec.IsRange start stop step l) ↔
    (∀ i : Nat, i < n ↔ Spec.Position start stop step i) ∧
    ∀ i : Nat, Spec.Position start stop step i →
      FitsS K.bits (start + i * step) ∧ FitsS 64 (start + i * step + step) := by
  have hadd : ∀ i : Nat, start + ((i : Int) + 1) * step = start + i * step + step := by
    intro i; rw [Int.add_mul]; omega
  by_cases hall : ∀ i : Nat, i < n → FitsS 64 (start + (i + 1) * step)
  · rw [rangeLoop_ok K step n start hall]
    constructor
    · rintro ⟨l, hl, hr⟩
      simp only [Out.ok.injEq, true_and] at hl
      subst hl
      have key : ∀ i : Nat, Spec.Position start stop step i →
          i < n ∧ wrapS K.bits (start + i * step) = start + i * step := by
        intro i hi
        have h := hr i
        rw [if_pos (show (0 < step ∧ _) ∨ (step < 0 ∧ _) from hi), List.getElem?_map] at h
        by_cases hin : i < n
        · rw [List.getElem?_range hin] at h
          simp only [Option.map_some, Option.some.injEq] at h
          exact ⟨hin, h⟩
        · rw [List.getElem?_eq_none (by simpa using hin)] at h; cases h
      refine ⟨fun i => ⟨fun hin => ?_, fun h => (key i h).1⟩, fun i hi => ⟨?_, ?_⟩⟩
      · apply Classical.byContradiction
        intro hc
        have h := hr i
        unfold Spec.Position at hc
        rw [if_neg hc, List.getElem?_map, List.getElem?_range hin] at h
        cases h
      · exact (wrapS_eq_iff K _).1 (key i hi).2
      · have := hall i (key i hi).1
        rwa [hadd] at this
    · rintro ⟨hn, hf⟩
      exact ⟨_, rfl, isRange_of_count (n := n)
        (List.map_congr_left fun i hi => wrapS_of_fits K (hf i ((hn i).1 (List.mem_range.1 hi))).1) hn⟩
  · have hex : ∃ i : Nat, i < n ∧ ¬ FitsS 64 (start + (i + 1) * step) := by
      apply Classical.byContradiction
      intro hc
      exact hall fun i hi => Classical.byContradiction fun hf => hc ⟨i, hi, hf⟩
    rw [rangeLoop_overflow K step n start hex]
    constructor
    · rintro ⟨l, hl, -⟩; cases hl
    · rintro ⟨hn, hf⟩
      obtain ⟨i, hi, hbad⟩ := hex
      rw [hadd] at hbad
      exact absurd (hf i ((hn i).1 hi)).2 hbad

theorem isRange_nil {start stop step : Int} (h : ∀ i : Nat, ¬ Spec.Position start stop step i) :
    Spec.IsRange start stop step [] := by
  intro i
  have := h i
  unfold Spec.Position at this
  rw [if_neg this]; rfl

/-- With the arguments read, the result is the range exactly on `RangeCore`. -/
theorem rangeOf_iff (K : Kind) (start stop step : Int) (h0 : step ≠ 0) :
    (∃ l, rangeOf K start stop step = .ok () l ∧ Spec.IsRange start stop step l) ↔
      Spec.RangeCore K.bits start stop step := by
  have empty : (∀ i : Nat, ¬ Spec.Position start stop step i) → rangeCount start stop step = .ok none →
      ¬ (0 < step ∧ start < stop) → ¬ (step < 0 ∧ stop < start) →
      ((∃ l, rangeOf K start stop step = .ok () l ∧ Spec.IsRange start stop step l) ↔
        Spec.RangeCore K.bits start stop step) := by
    intro hno hc h1 h2
    unfold rangeOf
    rw [hc]
    exact ⟨fun _ => ⟨fun a b => absurd ⟨a, b⟩ h1, fun a b => absurd ⟨a, b⟩ h2, fun i hi => absurd hi (hno i)⟩,
      fun _ => ⟨[], rfl, isRange_nil hno⟩⟩
  rcases Int.lt_or_gt_of_ne h0 with hneg | hpos
  · have hmul : ∀ i : Nat, (i : Int) * step ≤ 0 := fun i =>
      Int.mul_nonpos_of_nonneg_of_nonpos (by omega) (by omega)
    by_cases hlt : stop < start
    · by_cases hf : FitsS 64 (start - stop) ∧ FitsS 64 (-step)
      · have hrc : rangeCount start stop step = .ok (some ((start - stop) / (-step))) := by
          unfold rangeCount
          rw [if_neg (by omega), if_neg (by omega), if_pos hf, Int.tdiv_eq_ediv_of_nonneg (by omega)]
        unfold rangeOf
        rw [hrc]
        simp only
        rw [rangeLoop_iff]
        have hq0 : 0 ≤ (start - stop) / (-step) := Int.ediv_nonneg (by omega) (by omega)
        have hcount : (∀ i : Nat, i < ((start - stop) / (-step)).toNat ↔ Spec.Position start stop step i) ↔
            (-step) ∣ (start - stop) := by
          have hem := Int.emod_add_mul_ediv (start - stop) (-step)
          have h1 := Int.emod_nonneg (start - stop) (show -step ≠ 0 by omega)
          constructor
          · intro h
            apply Int.dvd_of_emod_eq_zero
            have hq := h ((start - stop) / (-step)).toNat
            have hnot : ¬ Spec.Position start stop step ((start - stop) / (-step)).toNat := fun hc =>
              Nat.lt_irrefl _ (hq.2 hc)
            unfold Spec.Position at hnot
            rw [Int.toNat_of_nonneg hq0] at hnot
            have e : (-step) * ((start - stop) / (-step)) = - ((start - stop) / (-step) * step) := by
              rw [Int.neg_mul, Int.mul_comm]
            omega
          · intro hd i
            have hm := Int.emod_eq_zero_of_dvd hd
            have dc := down_count (start := start) (stop := stop) hneg i
            have e1 : (i < ((start - stop) / (-step)).toNat) ↔ ((i : Int) < (start - stop) / (-step)) := by omega
            rw [e1, dc]
            unfold Spec.Position
            constructor
            · intro h; right; exact ⟨hneg, by omega⟩
            · rintro (⟨h, -⟩ | ⟨-, h⟩)
              · omega
              · have e2 : start - stop + i * step = (-step) * ((start - stop) / (-step) - i) := by
                  rw [Int.mul_sub, Int.neg_mul (b := (i : Int)), Int.mul_comm step]; omega
                have hp : 0 < (-step) * ((start - stop) / (-step) - i) := by omega
                have hq : 0 < (start - stop) / (-step) - i :=
                  Int.pos_of_mul_pos_right hp (by omega)
                exact dc.1 (by omega)
        rw [hcount]
        constructor
        · rintro ⟨a, b⟩; exact ⟨fun h => by omega, fun _ _ => ⟨hf.1, hf.2, a⟩, b⟩
        · rintro ⟨-, a, b⟩; exact ⟨(a hneg hlt).2.2, b⟩
      · have hrc : rangeCount start stop step = .error .signedOverflow := by
          unfold rangeCount
          rw [if_neg (by omega), if_neg (by omega), if_neg hf]
        unfold rangeOf
        rw [hrc]
        constructor
        · rintro ⟨l, hl, -⟩; cases hl
        · rintro ⟨-, a, -⟩; exact absurd ⟨(a hneg hlt).1, (a hneg hlt).2.1⟩ hf
    · apply empty
      · rintro i (⟨h, -⟩ | ⟨-, h⟩)
        · omega
        · have := hmul i; omega
      · unfold rangeCount
        rw [if_neg (by omega), if_pos (by omega)]
      · omega
      · omega
  · have hmul : ∀ i : Nat, 0 ≤ (i : Int) * step := fun i => Int.mul_nonneg (by omega) (by omega)
    by_cases hlt : start < stop
    · by_cases hf : FitsS 64 (stop - start + step)
      · have hf' : FitsS 64 (stop - start) := by rw [fits64] at *; omega
        have hrc : rangeCount start stop step = .ok (some ((stop - start + step - 1) / step)) := by
          unfold rangeCount
          rw [if_pos (by omega), if_neg (by omega), if_pos ⟨hf', hf⟩, Int.tdiv_eq_ediv_of_nonneg (by omega)]
        unfold rangeOf
        rw [hrc]
        simp only
        rw [rangeLoop_iff]
        have hcount : ∀ i : Nat, i < ((stop - start + step - 1) / step).toNat ↔ Spec.Position start stop step i := by
          intro i
          have uc := up_count (start := start) (stop := stop) hpos i
          unfold Spec.Position
          omega
        constructor
        · rintro ⟨-, b⟩; exact ⟨fun _ _ => hf, fun h => by omega, b⟩
        · rintro ⟨-, -, b⟩; exact ⟨hcount, b⟩
      · have hrc : rangeCount start stop step = .error .signedOverflow := by
          unfold rangeCount
          rw [if_pos (by omega), if_neg (by omega), if_neg (fun h => hf h.2)]
        unfold rangeOf
        rw [hrc]
        constructor
        · rintro ⟨l, hl, -⟩; cases hl
        · rintro ⟨a, -, -⟩; exact absurd (a hpos hlt) hf
    · apply empty
      · rintro i (⟨-, h⟩ | ⟨h, -⟩)
        · have := hmul i; omega
        · omega
      · unfold rangeCount
        rw [if_pos (by omega), if_pos (by omega)]
      · omega
      · omega

theorem isRange_head {start stop step : Int} {l : List Int} (h : Spec.IsRange start stop step l) :
    l[0]? = if (0 < step ∧ start < stop) ∨ (step < 0 ∧ start > stop) then some start else none := by
  have := h 0
  simpa using this

/-- A unit step: the elements, the first one and their number. -/
theorem rangeOf_unit (K : Kind) {a b : Int} {l : List Int} (h : rangeOf K a b 1 = .ok () l) :
    (b ≤ a ∧ l = []) ∨
    (a < b ∧ l = (List.range (b - a).toNat).map fun i : Nat => wrapS K.bits (a + i * 1)) := by
  by_cases hab : b ≤ a
  · left
    unfold rangeOf rangeCount at h
    rw [if_pos (by decide), if_pos hab] at h
    cases h
    exact ⟨hab, rfl⟩
  · right
    refine ⟨by omega, ?_⟩
    unfold rangeOf rangeCount at h
    rw [if_pos (by decide), if_neg hab] at h
    by_cases hf : FitsS 64 (b - a) ∧ FitsS 64 (b - a + 1)
    · rw [if_pos hf] at h
      simp only [Int.add_sub_cancel, Int.tdiv_one] at h
      by_cases hall : ∀ i : Nat, i < (b - a).toNat → FitsS 64 (a + (i + 1) * 1)
      · rw [rangeLoop_ok K 1 _ a hall] at h
        cases h
        rfl
      · have hex : ∃ i : Nat, i < (b - a).toNat ∧ ¬ FitsS 64 (a + (i + 1) * 1) := by
          apply Classical.byContradiction
          intro hc
          exact hall fun i hi => Classical.byContradiction fun hf => hc ⟨i, hi, hf⟩
        rw [rangeLoop_overflow K 1 _ a hex] at h
        cases h
    · rw [if_neg hf] at h
      cases h

theorem rangeOf_stop_max (K : Kind) (start step m : Int) (hm : start ≤ m) (hm1 : 0 < m) (h0 : step ≠ 0) :
    (∃ l, rangeOf K 0 start 1 = .ok () l ∧ Spec.IsRange start m step l) ↔ step < 0 ∧ start ≤ 0 := by
  constructor
  · rintro ⟨l, hl, hr⟩
    have hh := isRange_head hr
    rcases rangeOf_unit K hl with ⟨hle, rfl⟩ | ⟨hlt, rfl⟩
    · refine ⟨?_, hle⟩
      rcases Int.lt_or_gt_of_ne h0 with h | h
      · exact h
      · rw [if_pos (Or.inl ⟨h, by omega⟩)] at hh
        cases hh
    · exfalso
      rw [List.getElem?_map, List.getElem?_range (by omega)] at hh
      simp only [Option.map_some] at hh
      split at hh
      · simp only [Option.some.injEq] at hh
        have : wrapS K.bits (0 + ((0 : Nat) : Int) * 1) = 0 := by cases K <;> decide
        omega
      · cases hh
  · rintro ⟨hs, hle⟩
    refine ⟨[], ?_, isRange_nil ?_⟩
    · unfold rangeOf rangeCount
      rw [if_pos (by decide), if_pos (by omega)]
    · rintro i (⟨h, -⟩ | ⟨-, h⟩)
      · omega
      · have := Int.mul_nonpos_of_nonneg_of_nonpos (show (0 : Int) ≤ i by omega) (show step ≤ 0 by omega)
        omega

theorem rangeOf_step_max (K : Kind) (start stop m : Int) (hs : FitsS 64 start) (hp : FitsS 64 stop)
    (hm : m = ssizeMax) :
    (∃ l, rangeOf K start stop 1 = .ok () l ∧ Spec.IsRange start stop m l) ↔
      stop ≤ start ∨ (stop = start + 1 ∧ FitsS K.bits start) := by
  have hm' : m = 9223372036854775807 := by rw [hm]; decide
  rw [fits64] at hs hp
  clear hm
  constructor
  · rintro ⟨l, hl, hr⟩
    have hh := isRange_head hr
    rcases rangeOf_unit K hl with ⟨hle, rfl⟩ | ⟨hlt, rfl⟩
    · exact Or.inl hle
    · right
      rw [List.getElem?_map, List.getElem?_range (by omega), if_pos (Or.inl ⟨by omega, hlt⟩)] at hh
      simp only [Option.map_some, Option.some.injEq] at hh
      rw [show start + ((0 : Nat) : Int) * 1 = start by omega] at hh
      have hfit := (wrapS_eq_iff K start).1 hh
      refine ⟨?_, hfit⟩
      apply Classical.byContradiction
      intro hne
      have h1 := hr 1
      rw [List.getElem?_map, List.getElem?_range (by omega)] at h1
      split at h1
      · rename_i hc
        simp only [Option.map_some, Option.some.injEq] at h1
        have hneg : start < 0 := by omega
        have hf1 : FitsS K.bits (start + ((1 : Nat) : Int) * 1) := by
          cases K <;> simp only [Kind.bits, fits32, fits64] at * <;> omega
        rw [wrapS_of_fits K hf1] at h1
        omega
      · cases h1
  · rintro (hle | ⟨he, hf⟩)
    · refine ⟨[], ?_, isRange_nil ?_⟩
      · unfold rangeOf rangeCount
        rw [if_pos (by decide), if_pos (by omega)]
      · rintro i (⟨-, h⟩ | ⟨h, -⟩)
        · have := Int.mul_nonneg (show (0 : Int) ≤ i by omega) (show 0 ≤ m by omega)
          omega
        · omega
    · refine ⟨[start], ?_, ?_⟩
      · have hrc : rangeCount start stop 1 = .ok (some 1) := by
          unfold rangeCount
          rw [if_pos (by decide), if_neg (by omega), show stop - start = 1 by omega, if_pos (by decide)]
          rfl
        unfold rangeOf
        rw [hrc]
        simp only
        rw [show Int.toNat 1 = 1 from rfl, rangeLoop_ok K 1 1 start (fun i hi => by
          rw [fits64]; omega)]
        simp [wrapS_of_fits K hf]
      · intro i
        cases i with
        | zero => rw [if_pos (Or.inl ⟨by omega, by omega⟩)]; simp
        | succ i =>
          have := Int.mul_nonneg (show (0 : Int) ≤ i by omega) (show 0 ≤ m by omega)
          rw [if_neg]
          · rfl
          · rw [Int.natCast_add, Int.natCast_one, Int.add_mul]
            omega

end Verif.ArrayList
