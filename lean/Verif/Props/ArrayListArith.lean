import Verif.Lemmas.ArrayListStep
import Verif.Lemmas.Range

/-!
# C09-C13: from_range, `+`, `*`, `*=`, `+=` of IntArrayList / BigIntArrayList
-/

namespace Verif.Props

open Verif ArrayList

/-! ## C09: from_range -/

/-- C09 for ascending ranges and for descending ranges whose step divides the distance, as long as no
intermediate value overflows the machine word and no argument is the sentinel `PY_SSIZE_T_MAX`. Missing:
the excluded arguments, see the negations. -/
theorem C09_from_range_partial (K : Kind) (start stop step : Int)
    (hs : FitsS 64 start) (hp : FitsS 64 stop) (hk : FitsS 64 step) (h0 : step ≠ 0)
    (hsent : stop ≠ ssizeMax ∧ step ≠ ssizeMax)
    (hov : 0 < step → start < stop → FitsS 64 (stop - start + step) ∧ FitsS 64 (stop - 1 + step))
    (hdn : step < 0 → stop < start → FitsS 64 (start - stop) ∧ FitsS 64 (-step) ∧ (-step) ∣ (start - stop))
    (hfit : ∀ i : Nat, (0 < step ∧ start + i * step < stop) ∨ (step < 0 ∧ start + i * step > stop) →
      FitsS K.bits (start + i * step)) :
    ∃ l, fromRange K (.int start) (some (.int stop)) (some (.int step)) = .ok () l ∧
      Spec.IsRange start stop step l := by
  have he : evalRange (.int start) (some (.int stop)) (some (.int step)) = .ok (start, stop, step) := by
    simp [evalRange, parseN, asLong, hs, hp, hk, hsent.1, hsent.2, h0]
  unfold fromRange
  rw [he]
  simp only
  rcases Int.lt_trichotomy step 0 with hneg | hz | hpos
  · -- descending
    by_cases hlt : stop < start
    · obtain ⟨f1, f2, hd⟩ := hdn hneg hlt
      have hrc : rangeCount start stop step = .ok (some ((start - stop) / (-step))) := by
        unfold rangeCount
        rw [if_neg (by omega), if_neg (by omega), if_pos ⟨f1, f2⟩, Int.tdiv_eq_ediv_of_nonneg (by omega)]
      rw [hrc]
      simp only
      have hq0 : 0 ≤ (start - stop) / (-step) := Int.ediv_nonneg (by omega) (by omega)
      generalize hq : (start - stop) / (-step) = q at *
      have hmem : ∀ i : Nat, i < q.toNat ↔ start + i * step + step ≥ stop := by
        intro i
        have := down_count (start := start) (stop := stop) hneg i
        rw [hq] at this; omega
      have hmul : ∀ i : Nat, (i : Int) * step ≤ 0 := fun i =>
        Int.mul_nonpos_of_nonneg_of_nonpos (by omega) (by omega)
      have hw : ∀ i : Nat, i < q.toNat → wrapS K.bits (start + i * step) = start + i * step := by
        intro i hi
        have h1 := (hmem i).1 hi
        exact wrapS_of_fits K (hfit i (by omega))
      rw [rangeLoop_ok K step q.toNat start]
      · refine ⟨_, rfl, isRange_of_count (n := q.toNat) (List.map_congr_left fun i hi => hw i (List.mem_range.1 hi)) ?_⟩
        intro i
        rw [hmem]
        constructor
        · intro h; right; omega
        · rintro (⟨h, -⟩ | ⟨-, h⟩)
          · omega
          · -- divisibility: the distance above `stop` is a positive multiple of the step
            obtain ⟨c, hc⟩ := hd
            have e1 : start + (i : Int) * step - stop = (-step) * (c - i) := by
              rw [Int.mul_sub, ← hc, Int.mul_comm (-step) i, Int.mul_neg]; omega
            have e2 : 0 < (-step) * (c - i) := by omega
            have e3 : 0 < c - (i : Int) := by
              rcases Int.lt_or_le 0 (c - i) with h' | h'
              · exact h'
              · have := Int.mul_nonpos_of_nonneg_of_nonpos (show 0 ≤ -step by omega) h'
                omega
            have e4 : (-step) * 1 ≤ (-step) * (c - i) := Int.mul_le_mul_of_nonneg_left (by omega) (by omega)
            omega
      · intro i hi
        have h1 := (hmem i).1 hi
        have h2 := hmul i
        rw [Int.add_mul, Int.one_mul]
        rw [fits64] at *
        omega
    · have hrc : rangeCount start stop step = .ok none := by
        unfold rangeCount; rw [if_neg (by omega), if_pos (by omega)]
      rw [hrc]
      refine ⟨[], rfl, ?_⟩
      intro i
      have := Int.mul_nonpos_of_nonneg_of_nonpos (show (0 : Int) ≤ i by omega) (show step ≤ 0 by omega)
      rw [if_neg (by omega)]; rfl
  · exact absurd hz h0
  · by_cases hlt : start < stop
    · obtain ⟨f1, f2⟩ := hov hpos hlt
      have f0 : FitsS 64 (stop - start) := by rw [fits64] at *; omega
      have hrc : rangeCount start stop step = .ok (some ((stop - start + step - 1) / step)) := by
        unfold rangeCount
        rw [if_pos hpos, if_neg (by omega), if_pos ⟨f0, f1⟩, Int.tdiv_eq_ediv_of_nonneg (by omega)]
      rw [hrc]
      simp only
      have hq0 : 0 ≤ (stop - start + step - 1) / step := Int.ediv_nonneg (by omega) (by omega)
      generalize hq : (stop - start + step - 1) / step = q at *
      have hmem : ∀ i : Nat, i < q.toNat ↔ start + i * step < stop := by
        intro i
        have := up_count (start := start) (stop := stop) hpos i
        rw [hq] at this; omega
      have hmul : ∀ i : Nat, 0 ≤ (i : Int) * step := fun i => Int.mul_nonneg (by omega) (by omega)
      have hw : ∀ i : Nat, i < q.toNat → wrapS K.bits (start + i * step) = start + i * step := by
        intro i hi
        have h1 := (hmem i).1 hi
        exact wrapS_of_fits K (hfit i (by omega))
      rw [rangeLoop_ok K step q.toNat start]
      · refine ⟨_, rfl, isRange_of_count (n := q.toNat) (List.map_congr_left fun i hi => hw i (List.mem_range.1 hi)) ?_⟩
        intro i
        rw [hmem]
        omega
      · intro i hi
        have h1 := (hmem i).1 hi
        have h2 := hmul i
        rw [Int.add_mul, Int.one_mul]
        rw [fits64] at *
        omega
    · have hrc : rangeCount start stop step = .ok none := by
        unfold rangeCount; rw [if_pos hpos, if_pos (by omega)]
      rw [hrc]
      refine ⟨[], rfl, ?_⟩
      intro i
      have := Int.mul_nonneg (show (0 : Int) ≤ i by omega) (show 0 ≤ step by omega)
      rw [if_neg (by omega)]; rfl

example : FitsS 64 (10 - 2 + 3) ∧ FitsS 64 (10 - 1 + 3) := by decide
example : FitsS 64 (10 - (-2)) ∧ FitsS 64 (-(-3)) ∧ (-(-3) : Int) ∣ (10 - (-2)) := by decide
example : fromRange .i32 (.int 10) (some (.int (-2))) (some (.int (-3))) = .ok () [10, 7, 4, 1] := by decide

/-- One- and two-argument forms: `from_range(stop)` and `from_range(start, stop)` are step 1 (same exclusions). -/
theorem C09_from_range_short (K : Kind) (start stop : Int) (hs : FitsS 64 start) (hp : FitsS 64 stop)
    (hsent : stop ≠ ssizeMax) :
    fromRange K (.int start) (some (.int stop)) none =
      fromRange K (.int start) (some (.int stop)) (some (.int 1)) ∧
    fromRange K (.int stop) none none = fromRange K (.int 0) (some (.int stop)) (some (.int 1)) := by
  have h1 : FitsS 64 1 := by decide
  have h0 : FitsS 64 0 := by decide
  have n1 : (1 : Int) ≠ ssizeMax := by decide
  constructor <;> simp [fromRange, evalRange, parseN, asLong, hs, hp, hsent, h1, h0, n1]

/-- A zero step is a ValueError, as in `range`. -/
theorem C09_zero_step (K : Kind) (start stop : Int) (hs : FitsS 64 start) (hp : FitsS 64 stop)
    (hsent : stop ≠ ssizeMax) :
    fromRange K (.int start) (some (.int stop)) (some (.int 0)) = .exc () .valueError := by
  have h0 : FitsS 64 0 := by decide
  have n0 : (0 : Int) ≠ ssizeMax := by decide
  simp [fromRange, evalRange, parseN, asLong, hs, hp, hsent, h0, n0]

/-- C09 fails for every descending range whose step does not divide the distance: the last element is
missing. -/
theorem C09_descending_negation (K : Kind) (start stop step : Int)
    (hs : FitsS 64 start) (hp : FitsS 64 stop) (hk : FitsS 64 step)
    (hneg : step < 0) (hlt : stop < start) (hov : FitsS 64 (start - stop) ∧ FitsS 64 (-step))
    (hsent : stop ≠ ssizeMax) (hd : ¬ (-step) ∣ (start - stop)) :
    ¬ ∃ l, fromRange K (.int start) (some (.int stop)) (some (.int step)) = .ok () l ∧
      Spec.IsRange start stop step l := by
  rintro ⟨l, hl, hr⟩
  have hk2 : step ≠ ssizeMax := by unfold ssizeMax; omega
  have he : evalRange (.int start) (some (.int stop)) (some (.int step)) = .ok (start, stop, step) := by
    have : step ≠ 0 := by omega
    simp [evalRange, parseN, asLong, hs, hp, hk, hsent, hk2, this]
  have hrc : rangeCount start stop step = .ok (some ((start - stop) / (-step))) := by
    unfold rangeCount
    rw [if_neg (by omega), if_neg (by omega), if_pos hov, Int.tdiv_eq_ediv_of_nonneg (by omega)]
  unfold fromRange at hl
  rw [he] at hl
  simp only [hrc] at hl
  have hq0 : 0 ≤ (start - stop) / (-step) := Int.ediv_nonneg (by omega) (by omega)
  have hlen : l.length = ((start - stop) / (-step)).toNat := by
    rw [rangeLoop_ok] at hl
    · cases hl; simp
    · intro i hi
      have := (down_count (start := start) (stop := stop) hneg i).1 (by omega)
      have h2 := Int.mul_nonpos_of_nonneg_of_nonpos (show (0 : Int) ≤ i by omega) (show step ≤ 0 by omega)
      rw [Int.add_mul, Int.one_mul]
      rw [fits64] at *
      omega
  -- position `q` is still before `stop`
  have hq := hr ((start - stop) / (-step)).toNat
  rw [List.getElem?_eq_none (by omega)] at hq
  have hem := Int.emod_add_mul_ediv (start - stop) (-step)
  have hpos : 0 < (start - stop) % (-step) := by
    have h1 := Int.emod_nonneg (start - stop) (show -step ≠ 0 by omega)
    have h2 : (start - stop) % (-step) ≠ 0 := fun h => hd (Int.dvd_of_emod_eq_zero h)
    omega
  rw [if_pos] at hq
  · cases hq
  · right
    refine ⟨hneg, ?_⟩
    rw [Int.toNat_of_nonneg hq0]
    have e : (-step) * ((start - stop) / (-step)) = - ((start - stop) / (-step) * step) := by
      rw [Int.mul_comm, Int.mul_neg]
    omega

example : FitsS 64 (10 - 0) ∧ FitsS 64 (-(-3)) ∧ ¬ (-(-3) : Int) ∣ (10 - 0) := by decide

/-- C09 fails when `stop` is the largest machine word: `from_range(a, PY_SSIZE_T_MAX)` is read as
`from_range(a)`. -/
theorem C09_sentinel_negation (K : Kind) (a : Int) (ha : FitsS 64 a) (k : Option Arg)
    (hk : k = none ∨ ∃ v, k = some (.int v) ∧ FitsS 64 v) :
    fromRange K (.int a) (some (.int ssizeMax)) k = fromRange K (.int a) none none := by
  have hm : FitsS 64 ssizeMax := by decide
  rcases hk with rfl | ⟨v, rfl, hv⟩
  · simp [fromRange, evalRange, parseN, asLong, ha, hm]
  · simp [fromRange, evalRange, parseN, asLong, ha, hm, hv]

/-- … so `from_range(2, 2**63 - 1)` has two elements, 0 and 1, instead of starting at 2. -/
theorem C09_sentinel_witness (K : Kind) :
    fromRange K (.int 2) (some (.int ssizeMax)) none = .ok () [0, 1] ∧ ¬ Spec.IsRange 2 ssizeMax 1 [0, 1] := by
  constructor
  · cases K <;> decide
  · intro h
    have := h 0
    rw [if_pos (by decide)] at this
    exact absurd this (by decide)

/-- C09 fails near the end of the machine word: `from_range(2**63-3, 2**63-2, 5)` overflows a signed
addition although the range has one element. -/
theorem C09_overflow_negation (K : Kind) :
    fromRange K (.int (2 ^ 63 - 3)) (some (.int (2 ^ 63 - 2))) (some (.int 5)) = .ub .signedOverflow ∧
    Spec.IsRange (2 ^ 63 - 3) (2 ^ 63 - 2) 5 [2 ^ 63 - 3] := by
  constructor
  · cases K <;> decide
  · intro i
    cases i with
    | zero => rfl
    | succ i =>
      have := Int.mul_nonneg (show (0 : Int) ≤ i by omega) (show (0 : Int) ≤ 5 by decide)
      rw [if_neg]
      · rfl
      · rw [Int.natCast_add, Int.natCast_one, Int.add_mul]
        omega

/-! ## C10: `l + other` -/

/-- C10 for a Python list on the right: elements of both in order, operand unchanged (the elements of `l`
are boxed as by `to_list`, see C01). Missing: an operand of the same class, where it fails. -/
theorem C10_add_list_partial (cfg : Cfg) (K : Kind) (l : List Int) (xs : List Arg) :
    ∃ ps, step cfg K l .toList = .ok l (.pylist ps) ∧
      step cfg K l (.add (.list xs)) = .ok l (.pyconcat ps xs) := ⟨_, rfl, rfl⟩

/-- C10 on a 64-bit list or where boxing is exact agrees with Python outright. -/
theorem C10_add_list_agrees (cfg : Cfg) (K : Kind) (l : List Int) (xs : List Arg) (hl : AllFits K l)
    (hb : ∀ v ∈ l, BoxOk cfg K v) :
    Agrees (step cfg K l (.add (.list xs))) (Spec.step K.bits l (.add (.list xs))) :=
  step_agrees cfg K l _ hl hb

example : AllFits .i64 [-5, 2 ^ 40] ∧ ∀ v ∈ [-5, 2 ^ 40], BoxOk ⟨.ge313, false, true, true, true⟩ .i64 v := by decide

/-- C10 fails for every pair of lists of the same class: `l + other` raises MemoryError. -/
theorem C10_add_same_negation (cfg : Cfg) (K : Kind) (l v : List Int) :
    step cfg K l (.add (.same v)) = .exc l .memoryError ∧
    step cfg K l (.add .self) = .exc l .memoryError ∧
    Spec.step K.bits l (.add (.same v)) = (l, .ok (.list (l ++ v))) := ⟨rfl, rfl, rfl⟩

/-! ## C11: `l * n` -/

/-- C11 when every copy starts at an address aligned for the vector stores the CPU selects. Missing: the
other lengths, where the store faults (`C11_mul_fault`). -/
theorem C11_mul_partial (cfg : Cfg) (K : Kind) (l : List Int) (n : Int)
    (h : ∀ t, t < n.toNat → CopyAligned cfg K.size (l.length * t * K.size) l.length) :
    step cfg K l (.mul n) = .ok l (.newList (List.replicate n.toNat l).flatten) ∧
    (FitsS 64 n → ∀ a, a = .int n ∨ a = .index n →
      step cfg K l (.rmul a) = .ok l (.newList (List.replicate n.toNat l).flatten)) := by
  have hm := (mul_eq cfg K l n).1 h
  refine ⟨hm, fun h64 a ha => ?_⟩
  have e : asLong a = (n, none) := by rcases ha with rfl | rfl <;> exact if_pos h64
  simp only [step, rmul, e]
  exact hm

/-- … in particular when the length in bytes is a multiple of 64, or on a CPU without these instructions,
or for less than two copies. -/
theorem C11_mul_aligned (cfg : Cfg) (K : Kind) (l : List Int) (n : Int)
    (h : l.length * K.size % 64 = 0 ∨ (cfg.avx512 = false ∧ cfg.avx2 = false ∧ cfg.sse41 = false) ∨ n ≤ 1) :
    step cfg K l (.mul n) = .ok l (.newList (List.replicate n.toNat l).flatten) := by
  refine (C11_mul_partial cfg K l n fun t ht => ?_).1
  rcases h with h | ⟨h1, h2, h3⟩ | h
  · have e : l.length * t * K.size % 64 = 0 := by
      rw [Nat.mul_right_comm, Nat.mul_mod, h, Nat.zero_mul, Nat.zero_mod]
    refine ⟨fun _ _ => e, fun _ _ => by omega, fun _ _ => by omega⟩
  · simp [CopyAligned, h1, h2, h3]
  · obtain rfl : t = 0 := by omega
    simp [CopyAligned]

example : [1, 2, 3, 4, 5, 6, 7, 8, 9, 10, 11, 12, 13, 14, 15, 16].length * Kind.i32.size % 64 = 0 := by decide

/-- C11 fails exactly otherwise: the call faults on a misaligned vector store. -/
theorem C11_mul_fault (cfg : Cfg) (K : Kind) (l : List Int) (n : Int) :
    step cfg K l (.mul n) = .ub .misaligned ↔
      ∃ t, t < n.toNat ∧ ¬ CopyAligned cfg K.size (l.length * t * K.size) l.length := by
  constructor
  · intro h
    apply Classical.byContradiction
    intro hne
    have := (mul_eq cfg K l n).1 (fun t ht => Classical.byContradiction fun hc => hne ⟨t, ht, hc⟩)
    rw [step, this] at h
    cases h
  · exact (mul_eq cfg K l n).2

/-- C11 fails on every AVX2 machine without AVX-512 for every list of 9 to 15 ints and at least two
copies. -/
theorem C11_mul_negation (cfg : Cfg) (h1 : cfg.avx512 = false) (h2 : cfg.avx2 = true) (l : List Int)
    (h9 : 9 ≤ l.length) (h15 : l.length ≤ 15) (n : Int) (hn : 2 ≤ n) :
    step cfg .i32 l (.mul n) = .ub .misaligned := by
  rw [C11_mul_fault]
  refine ⟨1, by omega, ?_⟩
  intro h
  have := h.2.1 h2
  rw [h1] at this
  simp only [Kind.size, Nat.mul_one, Bool.false_eq_true, if_false] at this
  omega

/-! ## C12: `l *= n` -/

/-- C12 for at most one copy and for the empty list. Missing: everything else, where it fails. -/
theorem C12_imul_partial (cfg : Cfg) (K : Kind) (l : List Int) (n : Int) (h : n ≤ 1 ∨ l = []) :
    step cfg K l (.imul n) = .ok (List.replicate n.toNat l).flatten .self := by
  rcases h with h | rfl
  · exact imul_small cfg K l n h
  · exact imul_nil cfg K n

/-- C12 fails for every non-empty list and every count of two or more, on every CPU: the copies are
written outside the vector (or a vector store faults before that). -/
theorem C12_imul_negation (cfg : Cfg) (K : Kind) (l : List Int) (n : Int) (hn : 2 ≤ n) (hl : l ≠ []) :
    ∃ u, step cfg K l (.imul n) = .ub u :=
  imul_ub cfg K l n hn hl

/-- The usual case, e.g. one element doubled: a write outside the vector. -/
example : step ⟨.ge313, false, true, true, true⟩ .i32 [7] (.imul 2) = .ub .outOfBounds := by decide

/-! ## C13: `l += other` -/

/-- C13 for operands other than a list of the same class: the list itself is returned, extended by
exactly the integers of the operand. Missing: operands of the same class, where it fails. -/
theorem C13_iadd_partial (cfg : Cfg) (K : Kind) (l : List Int) (s : Src) (xs : List Arg)
    (hs : s = .list xs ∨ s = .tuple xs ∨ s = .seq xs ∨ s = .seqNoLen xs ∨ s = .iter xs none)
    (hx : ∀ a ∈ xs, Spec.IsElem K.bits a = true) :
    step cfg K l (.iadd s) = .ok (l ++ xs.map Spec.argVal) .self := by
  have hloop : extendLoop K xs l = (l ++ xs.map Spec.argVal, none) := by
    clear hs
    induction xs generalizing l with
    | nil => simp [extendLoop]
    | cons a as ih =>
      rw [extendLoop, toElem_isElem (hx a (List.mem_cons_self ..))]
      simp only
      rw [ih (l ++ [Spec.argVal a]) (fun b hb => hx b (List.mem_cons_of_mem _ hb))]
      simp
  rcases hs with rfl | rfl | rfl | rfl | rfl <;>
    simp only [step, iadd, extendWith, hloop]

example : ∀ a ∈ [Arg.int 4, .index (-2)], Spec.IsElem Kind.i32.bits a = true := by decide

/-- C13 fails for every right operand of the same class: the result is None, so the name is rebound to
None (the list object is extended). -/
theorem C13_iadd_same_negation (cfg : Cfg) (K : Kind) (l v : List Int) :
    step cfg K l (.iadd (.same v)) = .ok (l ++ v) .none := rfl

end Verif.Props
