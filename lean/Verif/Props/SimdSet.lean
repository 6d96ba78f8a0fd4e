import Verif.Lemmas.SimdSet

/-!
# C44: the vector setters
-/

namespace Verif.Props

open SimdSet

/-- C44 for values that are representable and, on ≤ 3.11, below 2^30 in magnitude (32-bit lanes), on 3.12+, not negative
(16- and 8-bit lanes): all six setters store lane `i` = the `i`-th last value, change no byte outside the vector, and
return None. Missing: the other values (negations below). -/
theorem C44_stores_partial (py : PyVer) (f : VecFn) (m : Mem) (p : Nat) (vs : List Int) (h0 : 0 < p) (h1 : p < 2 ^ 64)
    (hal : p % f.width = 0) (hc : m.covers p f.width = true) (hlen : vs.length * f.lane = f.width)
    (hv : ∀ v ∈ vs, Spec.LaneExact py f v) :
    ∃ m', setVector py f m (.int p :: vs.map .int) = .ok m' .none ∧ m'.blocks = m.blocks ∧
      (∀ i (hi : i < vs.length), Spec.laneAt m'.byte f p i = vs[vs.length - 1 - i]) ∧
      ∀ x, x < p ∨ p + f.width ≤ x → m'.byte x = m.byte x := by
  have hn : vs.length = nargs f := by
    have := lanes_width f
    exact Nat.eq_of_mul_eq_mul_right (lane_pos f) (by omega)
  have hex : ∀ v ∈ vs, intConv py f v = (v, none) := by
    intro v h
    obtain ⟨hf, h1, h2⟩ := hv v h
    exact intConv_exact py f v hf h1 h2
  obtain ⟨m', e, hb, hl, hx⟩ := setVector_int py f m vs hn (Unsafe.word_nat h1) h0 hal hc
  refine ⟨m', ?_, hb, fun i hi => ?_, hx⟩
  · rw [e, remains_none]
    intro x hx
    obtain ⟨v, hv, rfl⟩ := List.mem_map.1 hx
    rw [hex v hv]
  · rw [hl i hi, hex _ (List.getElem_mem _)]

example : Spec.LaneExact .v312 .avx2Vector32 (-7) ∧ Spec.LaneExact .le311 .avx2Vector8 (-7) ∧
    (⟨[(64, 32)], fun _ => 0⟩ : Mem).covers 64 32 = true ∧ [1, 2, 3, 4, 5, 6, 7, -7].length * 4 = 32 := by
  refine ⟨⟨⟨by decide, by decide⟩, ?_, ?_⟩, ⟨⟨by decide, by decide⟩, ?_, ?_⟩, by decide, by decide⟩
  · intro h; cases h
  · intro _ h; exact absurd rfl h
  · intro _ h; cases h
  · intro h; exact absurd rfl h

/-- C44. A wrong number of arguments raises TypeError and stores nothing. -/
theorem C44_wrong_count (py : PyVer) (f : VecFn) (m : Mem) (args : List Arg)
    (h : (args.length - 1) * f.lane ≠ f.width ∨ args = []) : setVector py f m args = .exc m .typeError := by
  cases args with
  | nil => rfl
  | cons a as =>
    have : as.length ≠ nargs f := by
      intro e
      rcases h with h | h
      · apply h
        rw [List.length_cons, Nat.add_sub_cancel, e, lanes_width]
      · cases h
    simp only [setVector]
    rw [if_pos this]

example : ([Arg.int 64, Arg.int 1].length - 1) * VecFn.avx2Vector32.lane ≠ VecFn.avx2Vector32.width := by decide

/-- C44 is violated on 3.12+: the 16- and 8-bit setters store the absolute value of every negative argument but the
smallest. -/
theorem C44_small_lanes_lose_sign (py : PyVer) (hpy : py ≠ .le311) (f : VecFn) (hf : f.lane ≠ 4) (m : Mem) (p : Nat)
    (vs : List Int) (h0 : 0 < p) (h1 : p < 2 ^ 64) (hal : p % f.width = 0) (hc : m.covers p f.width = true)
    (hlen : vs.length * f.lane = f.width) (i : Nat) (hi : i < vs.length) (hfit : Spec.LaneFits f vs[vs.length - 1 - i])
    (hneg : vs[vs.length - 1 - i] < 0) (hmin : 2 * vs[vs.length - 1 - i] ≠ -(256 ^ f.lane : Int)) :
    ∃ m', setVector py f m (.int p :: vs.map .int) = .ok m' .none ∧
      Spec.laneAt m'.byte f p i = -vs[vs.length - 1 - i] := by
  have hn : vs.length = nargs f := by
    have := lanes_width f
    exact Nat.eq_of_mul_eq_mul_right (lane_pos f) (by omega)
  obtain ⟨m', e, -, hl, -⟩ := setVector_int py f m vs hn (Unsafe.word_nat h1) h0 hal hc
  refine ⟨m', ?_, ?_⟩
  · rw [e, remains_none]
    intro x hx
    obtain ⟨v, _, rfl⟩ := List.mem_map.1 hx
    exact intConv_small_none py f hf v
  · rw [hl i hi]
    exact intConv_small_neg py hpy f hf _ hfit hneg hmin

example : ∃ vs : List Int, vs.length * VecFn.avx2Vector8.lane = VecFn.avx2Vector8.width ∧ vs[31]? = some (-7) :=
  ⟨List.replicate 31 0 ++ [-7], by decide, by decide⟩

/-- C44 is violated: the 16- and 8-bit setters never raise for an unrepresentable integer; on every version, with every
tuple of integers, they store a vector and return None. -/
theorem C44_small_lanes_never_raise (py : PyVer) (f : VecFn) (hf : f.lane ≠ 4) (m : Mem) (p : Nat)
    (vs : List Int) (h0 : 0 < p) (h1 : p < 2 ^ 64) (hal : p % f.width = 0) (hc : m.covers p f.width = true)
    (hlen : vs.length * f.lane = f.width) (i : Nat) (hi : i < vs.length)
    (hbad : ¬ Spec.LaneFits f vs[vs.length - 1 - i]) :
    ∃ m', setVector py f m (.int p :: vs.map .int) = .ok m' .none ∧
      Spec.laneAt m'.byte f p i ≠ vs[vs.length - 1 - i] := by
  have hn : vs.length = nargs f := by
    have := lanes_width f
    exact Nat.eq_of_mul_eq_mul_right (lane_pos f) (by omega)
  obtain ⟨m', e, -, hl, -⟩ := setVector_int py f m vs hn (Unsafe.word_nat h1) h0 hal hc
  refine ⟨m', ?_, ?_⟩
  · rw [e, remains_none]
    intro x hx
    obtain ⟨v, _, rfl⟩ := List.mem_map.1 hx
    exact intConv_small_none py f hf v
  · rw [hl i hi]
    intro h
    exact hbad (h ▸ intConv_fits py f _)

example : ¬ Spec.LaneFits .avx2Vector8 200 ∧ (List.replicate 32 (200 : Int)).length * VecFn.avx2Vector8.lane = 32 := by
  refine ⟨?_, by decide⟩
  intro h
  exact absurd h.2 (by decide)

/-- C44 is violated on ≤ 3.11: the 32-bit setters store another value, without an exception, for every argument of
magnitude 2^30 or more. -/
theorem C44_first_digit_only (f : VecFn) (hf : f.lane = 4) (m : Mem) (p : Nat) (vs : List Int) (h0 : 0 < p)
    (h1 : p < 2 ^ 64) (hal : p % f.width = 0) (hc : m.covers p f.width = true)
    (hlen : vs.length * f.lane = f.width) (i : Nat) (hi : i < vs.length) (hbig : 2 ^ 30 ≤ vs[vs.length - 1 - i].natAbs) :
    ∃ m', setVector .le311 f m (.int p :: vs.map .int) = .ok m' .none ∧
      Spec.laneAt m'.byte f p i ≠ vs[vs.length - 1 - i] := by
  have hn : vs.length = nargs f := by
    have := lanes_width f
    exact Nat.eq_of_mul_eq_mul_right (lane_pos f) (by omega)
  obtain ⟨m', e, -, hl, -⟩ := setVector_int .le311 f m vs hn (Unsafe.word_nat h1) h0 hal hc
  refine ⟨m', ?_, ?_⟩
  · rw [e, remains_none]
    intro x hx
    obtain ⟨v, _, rfl⟩ := List.mem_map.1 hx
    exact intConv_311_none f v
  · rw [hl i hi]
    obtain ⟨w, hw, ew⟩ := C48_asInt_negation _ hbig
    simp only [intConv, if_pos hf, ew]
    exact hw

example : ∃ vs : List Int, vs.length * VecFn.avx2Vector32.lane = VecFn.avx2Vector32.width ∧
    ∃ v, vs[7]? = some v ∧ 2 ^ 30 ≤ v.natAbs ∧ Spec.LaneFits .avx2Vector32 v :=
  ⟨List.replicate 8 (2 ^ 30), by decide, 2 ^ 30, by decide, by decide, by decide, by decide⟩

/-- C44 is violated on 3.12+: an argument that is not a C int does not stop the 32-bit setters. The vector is stored,
with -1 in that lane, and None is returned with the exception pending. -/
theorem C44_overflow_stores (py : PyVer) (hpy : py ≠ .le311) (f : VecFn) (hf : f.lane = 4) (m : Mem) (p : Nat)
    (vs : List Int) (h0 : 0 < p) (h1 : p < 2 ^ 64) (hal : p % f.width = 0) (hc : m.covers p f.width = true)
    (hlen : vs.length * f.lane = f.width) (i : Nat) (hi : i < vs.length)
    (hbad : ¬ Spec.LaneFits f vs[vs.length - 1 - i]) :
    ∃ m' e, setVector py f m (.int p :: vs.map .int) = .pending m' .none e ∧ Spec.laneAt m'.byte f p i = -1 := by
  have hn : vs.length = nargs f := by
    have := lanes_width f
    exact Nat.eq_of_mul_eq_mul_right (lane_pos f) (by omega)
  obtain ⟨m', e, -, hl, -⟩ := setVector_int py f m vs hn (Unsafe.word_nat h1) h0 hal hc
  have hx : intConv py f vs[vs.length - 1 - i] = (-1, some .overflowError) := by
    simp only [intConv, if_pos hf]
    rw [C48_asInt_312 py hpy, if_neg]
    intro h
    apply hbad
    rw [fits32] at h
    unfold Spec.LaneFits
    rw [hf]
    omega
  obtain ⟨y, hy⟩ := remains_some (es := vs.map fun v => (intConv py f v).2) (x := .overflowError)
    (List.mem_map.2 ⟨vs[vs.length - 1 - i], List.getElem_mem _, by rw [hx]⟩)
  refine ⟨m', y, ?_, ?_⟩
  · rw [e, hy]
  · rw [hl i hi, hx]

example : ¬ Spec.LaneFits .avx2Vector32 (2 ^ 31) ∧
    (List.replicate 8 (2 ^ 31 : Int)).length * VecFn.avx2Vector32.lane = VecFn.avx2Vector32.width := by
  refine ⟨?_, by decide⟩
  intro h
  exact absurd h.2 (by decide)

/-- C44 is violated: an argument that is not an `int` object is read as one (type confusion) by the 16- and 8-bit setters
on every version and by the 32-bit ones on ≤ 3.11. -/
theorem C44_type_confusion (py : PyVer) (f : VecFn) (hf : f.lane ≠ 4 ∨ py = .le311) (m : Mem) (ptr : Arg)
    (as : List Arg) (hlen : as.length * f.lane = f.width) (a : Arg) (ha : a ∈ as) (hni : a.isInt = false) :
    ∃ u, setVector py f m (ptr :: as) = .ub u := by
  have hn : as.length = nargs f := by
    have := lanes_width f
    exact Nat.eq_of_mul_eq_mul_right (lane_pos f) (by omega)
  obtain ⟨u, hu⟩ := convs_confused py f hf as a ha hni
  refine ⟨u, ?_⟩
  simp only [setVector, hu]
  rw [if_neg (by omega)]

example : (List.replicate 32 Arg.other).length * VecFn.avx2Vector8.lane = VecFn.avx2Vector8.width ∧
    Arg.other.isInt = false := by decide

/-- C44, exactly: given a block the vector fits in and `int` objects, a setter stores every argument in its lane and returns
None with no exception pending precisely when every argument is representable in its lane and, in addition, has magnitude
below 2^30 (32-bit lanes on CPython ≤ 3.11) or is not negative unless it is the smallest value (16- and 8-bit lanes on
3.12+). -/
theorem C44_exact (py : PyVer) (f : VecFn) (m : Mem) (p : Nat) (vs : List Int) (h0 : 0 < p) (h1 : p < 2 ^ 64)
    (hal : p % f.width = 0) (hc : m.covers p f.width = true) (hlen : vs.length * f.lane = f.width) :
    (∃ m', setVector py f m (.int p :: vs.map .int) = .ok m' .none ∧
      ∀ i (hi : i < vs.length), Spec.laneAt m'.byte f p i = vs[vs.length - 1 - i]) ↔
    ∀ v ∈ vs, Spec.LaneExact py f v := by
  have hn : vs.length = nargs f := by
    have := lanes_width f
    exact Nat.eq_of_mul_eq_mul_right (lane_pos f) (by omega)
  obtain ⟨m', e, -, hl, -⟩ := setVector_int py f m vs hn (Unsafe.word_nat h1) h0 hal hc
  constructor
  · rintro ⟨m'', e', hl'⟩ v hv
    obtain ⟨k, hk, rfl⟩ := List.getElem_of_mem hv
    cases hr : remains (vs.map fun v => (intConv py f v).2) with
    | some x => rw [e, hr] at e'; exact nomatch e'
    | none =>
      rw [e, hr] at e'
      injection e' with em _
      subst em
      have hi : vs.length - 1 - k < vs.length := by omega
      have hval : (intConv py f vs[k]).1 = vs[k] := by
        have h2 := hl _ hi
        rw [hl' _ hi] at h2
        simp only [show vs.length - 1 - (vs.length - 1 - k) = k by omega] at h2
        exact h2.symm
      refine ⟨hval ▸ intConv_fits py f vs[k], ?_, ?_⟩
      · intro hp hf
        subst hp
        refine Nat.lt_of_not_le fun hbig => ?_
        obtain ⟨w, hw, ew⟩ := C48_asInt_negation _ hbig
        simp only [intConv, if_pos hf, ew] at hval
        exact hw hval
      · intro hp hf
        refine Classical.byContradiction fun hno => ?_
        rw [not_or] at hno
        have := intConv_small_neg py hp f hf vs[k] (hval ▸ intConv_fits py f vs[k]) (by omega) hno.2
        omega
  · intro h
    have hx : ∀ v ∈ vs, intConv py f v = (v, none) := fun v hv =>
      intConv_exact py f v (h v hv).1 (h v hv).2.1 (h v hv).2.2
    refine ⟨m', ?_, fun i hi => ?_⟩
    · rw [e, remains_none]
      intro x hx'
      obtain ⟨v, hv, rfl⟩ := List.mem_map.1 hx'
      rw [hx v hv]
    · rw [hl i hi, hx _ (List.getElem_mem _)]

example : ∃ vs : List Int, vs.length * VecFn.avx2Vector8.lane = VecFn.avx2Vector8.width ∧
    (∀ v ∈ vs, Spec.LaneExact .le311 .avx2Vector8 v) ∧ ¬ ∀ v ∈ vs, Spec.LaneExact .v312 .avx2Vector8 v := by
  refine ⟨List.replicate 32 (-3), by decide, ?_, fun h => ?_⟩
  · intro v hv
    rw [List.eq_of_mem_replicate hv]
    exact ⟨⟨by decide, by decide⟩, fun _ h => absurd h (by decide), fun h => absurd rfl h⟩
  · have := (h (-3) (by decide)).2.2 (by decide) (by decide)
    revert this
    decide

end Verif.Props
