import Verif.Lemmas.Ints

/-! Helper lemmas: CPython's slice arithmetic equals the filtered positions of the specification. -/

namespace Verif

theorem eq_of_sorted : ∀ {a b : List Nat}, a.Pairwise (· < ·) → b.Pairwise (· < ·) →
    (∀ x, x ∈ a ↔ x ∈ b) → a = b
  | [], [], _, _, _ => rfl
  | [], y :: b, _, _, h => by have := (h y).2 (by simp); simp at this
  | x :: a, [], _, _, h => by have := (h x).1 (by simp); simp at this
  | x :: a, y :: b, ha, hb, h => by
    have ha' := List.pairwise_cons.1 ha
    have hb' := List.pairwise_cons.1 hb
    have hxy : x = y := by
      have h1 := (h x).1 (by simp)
      have h2 := (h y).2 (by simp)
      rcases List.mem_cons.1 h1 with h1 | h1
      · exact h1
      rcases List.mem_cons.1 h2 with h2 | h2
      · exact h2.symm
      have := ha'.1 _ h2
      have := hb'.1 _ h1
      omega
    subst hxy
    congr 1
    refine eq_of_sorted ha'.2 hb'.2 fun z => ?_
    have hz := h z
    simp only [List.mem_cons] at hz
    constructor
    · intro hm
      rcases hz.1 (.inr hm) with rfl | h'
      · exact absurd (ha'.1 _ hm) (by omega)
      · exact h'
    · intro hm
      rcases hz.2 (.inr hm) with rfl | h'
      · exact absurd (hb'.1 _ hm) (by omega)
      · exact h'

/-- Number of terms of an arithmetic progression below a bound. -/
def progCount (lo hi k : Int) : Int := if lo < hi then (hi - lo - 1) / k + 1 else 0

theorem progCount_iff {lo hi k : Int} (hk : 0 < k) (t : Nat) :
    (t : Int) < progCount lo hi k ↔ lo + t * k < hi := by
  unfold progCount
  have hm : 0 ≤ (t : Int) * k := Int.mul_nonneg (by omega) (by omega)
  split
  · rw [Int.lt_add_one_iff, Int.le_ediv_iff_mul_le hk]; omega
  · constructor <;> intro h <;> omega

theorem filter_up {n : Nat} {lo hi k : Int} (hk : 0 < k) (hlo : 0 ≤ lo) (hhi : hi ≤ n) :
    ((List.range n).filter fun (p : Nat) => lo ≤ p ∧ (p : Int) < hi ∧ k ∣ p - lo) =
      (List.range (progCount lo hi k).toNat).map fun t : Nat => (lo + t * k).toNat := by
  apply eq_of_sorted
  · exact List.Pairwise.filter _ List.pairwise_lt_range
  · rw [List.pairwise_map]
    refine List.Pairwise.imp ?_ List.pairwise_lt_range
    intro a b hab
    have h1 : (a : Int) * k < b * k := Int.mul_lt_mul_of_pos_right (by omega) hk
    have h2 : 0 ≤ (a : Int) * k := Int.mul_nonneg (by omega) (by omega)
    omega
  · intro p
    simp only [List.mem_filter, List.mem_range, decide_eq_true_eq, List.mem_map]
    constructor
    · rintro ⟨h1, h2, h3, ⟨t, ht⟩⟩
      have ht0 : 0 ≤ t := by
        rcases Int.lt_or_le t 0 with h | h
        · have := Int.mul_neg_of_pos_of_neg hk h; omega
        · exact h
      have e : (t.toNat : Int) = t := Int.toNat_of_nonneg ht0
      have e2 : lo + t * k = p := by rw [Int.mul_comm]; omega
      refine ⟨t.toNat, ?_, ?_⟩
      · have : (t.toNat : Int) < progCount lo hi k := by
          rw [progCount_iff hk, e, e2]; exact h3
        omega
      · rw [e, e2]; simp
    · rintro ⟨t, h1, rfl⟩
      have h2 : 0 ≤ (t : Int) * k := Int.mul_nonneg (by omega) (by omega)
      have h3 := (progCount_iff (lo := lo) (hi := hi) hk t).1 (by omega)
      refine ⟨by omega, by omega, by omega, t, ?_⟩
      have := Int.mul_comm k t; omega

theorem filter_down {n : Nat} {lo hi k : Int} (hk : k < 0) (hlo : -1 ≤ lo) (hhi : hi ≤ n - 1) :
    ((List.range n).filter fun (p : Nat) => lo < p ∧ (p : Int) ≤ hi ∧ k ∣ hi - p).reverse =
      (List.range (progCount lo hi (-k)).toNat).map fun t : Nat => (hi + t * k).toNat := by
  rw [List.reverse_eq_iff]
  have hneg : ∀ t : Nat, (t : Int) * k = -(t * -k) := fun t => by rw [Int.mul_neg, Int.neg_neg]
  apply eq_of_sorted
  · exact List.Pairwise.filter _ List.pairwise_lt_range
  · rw [List.pairwise_reverse, List.pairwise_map]
    refine List.Pairwise.imp_of_mem ?_ List.pairwise_lt_range
    intro a b _ hb hab
    have h1 : (a : Int) * -k < b * -k := Int.mul_lt_mul_of_pos_right (by omega) (by omega)
    have h2 : 0 ≤ (a : Int) * -k := Int.mul_nonneg (by omega) (by omega)
    have h3 := (progCount_iff (lo := lo) (hi := hi) (k := -k) (by omega) b).1
      (by simp only [List.mem_range] at hb; omega)
    rw [hneg, hneg]
    omega
  · intro p
    simp only [List.mem_filter, List.mem_range, decide_eq_true_eq, List.mem_reverse, List.mem_map]
    constructor
    · rintro ⟨h1, h2, h3, ⟨t, ht⟩⟩
      have ht0 : t ≤ 0 := by
        rcases Int.lt_or_le 0 t with h | h
        · have := Int.mul_neg_of_neg_of_pos hk h; omega
        · exact h
      have e : (((-t).toNat : Nat) : Int) = -t := Int.toNat_of_nonneg (by omega)
      have e3 : -t * k = p - hi := by rw [Int.neg_mul, Int.mul_comm]; omega
      refine ⟨(-t).toNat, ?_, ?_⟩
      · have : (((-t).toNat : Nat) : Int) < progCount lo hi (-k) := by
          rw [progCount_iff (by omega), e, Int.mul_neg]; omega
        omega
      · rw [e, e3]; omega
    · rintro ⟨t, h1, rfl⟩
      have h2 : 0 ≤ (t : Int) * -k := Int.mul_nonneg (by omega) (by omega)
      have h3 := (progCount_iff (lo := lo) (hi := hi) (k := -k) (by omega) t).1 (by omega)
      have h4 := hneg t
      refine ⟨by omega, by omega, by omega, -t, ?_⟩
      have : k * -(t : Int) = -(t * k) := by rw [Int.mul_neg, Int.mul_comm]
      omega

theorem sliceIndex_field (d : Int) (a : Option Arg) :
    sliceIndex d a = (match Spec.field a with
      | .error e => .error e
      | .ok none => .ok d
      | .ok (some v) => .ok (clampSsize v)) := by
  rcases a with _ | (v | v | _) <;> rfl

theorem sliceUnpack_fields (s : SliceArg) :
    sliceUnpack s = (match Spec.fields s with
      | .error e => .error e
      | .ok (i, j, k) =>
        let k' := if clampSsize k < -ssizeMax then -ssizeMax else clampSsize k
        .ok ((i.map clampSsize).getD (if k < 0 then ssizeMax else 0),
          (j.map clampSsize).getD (if k < 0 then -(2 ^ 63) else ssizeMax), k')) ∧
    ∀ i j k, Spec.fields s = .ok (i, j, k) → k ≠ 0 := by
  unfold sliceUnpack sliceStep Spec.fields
  simp only [sliceIndex_field]
  have hc : ∀ k, (if clampSsize k < -ssizeMax then -ssizeMax else clampSsize k) < 0 ↔ k < 0 := by
    intro k; unfold clampSsize ssizeMax; split <;> split <;> (try split) <;> omega
  have hz : ∀ k, clampSsize k = 0 ↔ k = 0 := by
    intro k; unfold clampSsize ssizeMax; split <;> (try split) <;> omega
  have h1 : clampSsize 1 = 1 := by decide
  have h2 : ¬ (1 : Int) < -ssizeMax := by decide
  cases h3 : Spec.field s.step with
  | error e => simp
  | ok k =>
    cases k with
    | none =>
      cases h4 : Spec.field s.start with
      | error e => simp [h2]
      | ok i =>
        cases h5 : Spec.field s.stop with
        | error e => cases i <;> simp [h2]
        | ok j => cases i <;> cases j <;> simp [h2, h1]
    | some k =>
      by_cases hk : k = 0
      · subst hk; simp [hz]
      · have hk' : clampSsize k ≠ 0 := by rw [Ne, hz]; exact hk
        cases h4 : Spec.field s.start with
        | error e => simp [hk', hk]
        | ok i =>
          cases h5 : Spec.field s.stop with
          | error e => cases i <;> simp [hk', hk]
          | ok j => cases i <;> cases j <;> simp [hk', hk, hc]

theorem dvd_iff_of_big {k k' d : Int} (h : d.natAbs < k.natAbs) (h' : d.natAbs < k'.natAbs) :
    k ∣ d ↔ k' ∣ d := by
  constructor <;> intro hd
  · rw [Int.eq_zero_of_dvd_of_natAbs_lt_natAbs hd h]; exact Int.dvd_zero _
  · rw [Int.eq_zero_of_dvd_of_natAbs_lt_natAbs hd h']; exact Int.dvd_zero _

/-- The positions CPython's adjusted indices address are the specified ones. -/
theorem adjust_positions {n : Nat} (hn : (n : Int) ≤ ssizeMax) {i j : Option Int} {k : Int} (hk : k ≠ 0)
    {start stop cnt : Int}
    (h : adjustIndices n ((i.map clampSsize).getD (if k < 0 then ssizeMax else 0))
      ((j.map clampSsize).getD (if k < 0 then -(2 ^ 63) else ssizeMax))
      (if clampSsize k < -ssizeMax then -ssizeMax else clampSsize k) = (start, stop, cnt)) :
    Spec.positions n i j k = (List.range cnt.toNat).map (fun t : Nat =>
      (start + t * (if clampSsize k < -ssizeMax then -ssizeMax else clampSsize k)).toNat) ∧
    (∀ t : Nat, (t : Int) < cnt →
      0 ≤ start + t * (if clampSsize k < -ssizeMax then -ssizeMax else clampSsize k) ∧
      start + t * (if clampSsize k < -ssizeMax then -ssizeMax else clampSsize k) < n) ∧
    (0 < k → start = (i.map (Spec.clampUp n)).getD 0 ∧ stop = (j.map (Spec.clampUp n)).getD n) := by
  generalize hk' : (if clampSsize k < -ssizeMax then -ssizeMax else clampSsize k) = k' at *
  have hkk : k' = k ∨ (ssizeMax ≤ k' ∧ ssizeMax < k) ∨ (k' ≤ -ssizeMax ∧ k < -ssizeMax) := by
    subst hk'; unfold clampSsize ssizeMax
    split <;> split <;> (try split) <;> simp at * <;> omega
  have hs : k < 0 ↔ k' < 0 := by unfold ssizeMax at hkk; omega
  have h0 : k' ≠ 0 := by unfold ssizeMax at hkk; omega
  unfold Spec.positions
  rcases Int.lt_or_lt_of_ne hk with hneg | hpos
  · rw [if_neg (by omega)]
    have hneg' := hs.1 hneg
    have hst : start = (i.map (Spec.clampDown n)).getD (n - 1) := by
      have := congrArg Prod.fst h
      simp only [adjustIndices, if_pos hneg'] at this
      rw [← this]
      cases i with
      | none => simp only [Option.map_none, Option.getD_none, if_pos hneg]; unfold ssizeMax at *; omega
      | some v =>
        simp only [Option.map_some, Option.getD_some, Spec.clampDown, Spec.fromFront, clampSsize]
        unfold ssizeMax at *; omega
    have hsp : stop = (j.map (Spec.clampDown n)).getD (-1) := by
      have := congrArg (fun x => x.2.1) h
      simp only [adjustIndices, if_pos hneg'] at this
      rw [← this]
      cases j with
      | none => simp only [Option.map_none, Option.getD_none, if_pos hneg]; unfold ssizeMax at *; omega
      | some v =>
        simp only [Option.map_some, Option.getD_some, Spec.clampDown, Spec.fromFront, clampSsize]
        unfold ssizeMax at *; omega
    have hcn : cnt = progCount stop start (-k') := by
      have h1 := congrArg (fun x => x.1) h
      have h2 := congrArg (fun x => x.2.1) h
      have h3 := congrArg (fun x => x.2.2) h
      simp only [adjustIndices, if_pos hneg'] at h1 h2 h3
      rw [h1, h2] at h3
      rw [← h3]; rfl
    have hb1 : -1 ≤ stop := by
      rw [hsp]; cases j
      · simp
      · simp only [Option.map_some, Option.getD_some, Spec.clampDown]; omega
    have hb2 : start ≤ n - 1 := by
      rw [hst]; cases i
      · simp
      · simp only [Option.map_some, Option.getD_some, Spec.clampDown]; omega
    refine ⟨?_, ?_, fun h => by omega⟩
    · simp only [← hst, ← hsp]
      rw [hcn, ← filter_down hneg' hb1 hb2]
      congr 1
      apply List.filter_congr
      intro p hp
      have hp := List.mem_range.1 hp
      rcases hkk with rfl | hkk
      · rfl
      · rw [decide_eq_decide]
        unfold ssizeMax at hkk hn
        constructor <;> rintro ⟨a, b, c⟩ <;> refine ⟨a, b, ?_⟩
        · exact (dvd_iff_of_big (by omega) (by omega)).1 c
        · exact (dvd_iff_of_big (by omega) (by omega)).1 c
    · intro t ht
      have h2 : 0 ≤ (t : Int) * -k' := Int.mul_nonneg (by omega) (by omega)
      have h3 := (progCount_iff (lo := stop) (hi := start) (k := -k') (by omega) t).1 (by omega)
      have h4 : (t : Int) * -k' = - (t * k') := Int.mul_neg _ _
      omega
  · rw [if_pos hpos]
    have hpos' : ¬ k' < 0 := fun h => by have := hs.2 h; omega
    have hnn : ¬ k < 0 := by omega
    have hst : start = (i.map (Spec.clampUp n)).getD 0 := by
      have := congrArg Prod.fst h
      simp only [adjustIndices, if_neg hpos'] at this
      rw [← this]
      cases i with
      | none => simp only [Option.map_none, Option.getD_none, if_neg hnn]; omega
      | some v =>
        simp only [Option.map_some, Option.getD_some, Spec.clampUp, Spec.fromFront, clampSsize]
        unfold ssizeMax at *; omega
    have hsp : stop = (j.map (Spec.clampUp n)).getD n := by
      have := congrArg (fun x => x.2.1) h
      simp only [adjustIndices, if_neg hpos'] at this
      rw [← this]
      cases j with
      | none => simp only [Option.map_none, Option.getD_none, if_neg hnn]; unfold ssizeMax at *; omega
      | some v =>
        simp only [Option.map_some, Option.getD_some, Spec.clampUp, Spec.fromFront, clampSsize]
        unfold ssizeMax at *; omega
    have hcn : cnt = progCount start stop k' := by
      have h1 := congrArg (fun x => x.1) h
      have h2 := congrArg (fun x => x.2.1) h
      have h3 := congrArg (fun x => x.2.2) h
      simp only [adjustIndices, if_neg hpos'] at h1 h2 h3
      rw [h1, h2] at h3
      rw [← h3]; rfl
    have hb1 : 0 ≤ start := by
      rw [hst]; cases i
      · simp
      · simp only [Option.map_some, Option.getD_some, Spec.clampUp]; omega
    have hb2 : stop ≤ n := by
      rw [hsp]; cases j
      · simp
      · simp only [Option.map_some, Option.getD_some, Spec.clampUp]; omega
    refine ⟨?_, ?_, fun _ => ⟨hst, hsp⟩⟩
    · simp only [← hst, ← hsp]
      rw [hcn, ← filter_up (by omega) hb1 hb2]
      apply List.filter_congr
      intro p hp
      have hp := List.mem_range.1 hp
      rcases hkk with rfl | hkk
      · rfl
      · rw [decide_eq_decide]
        unfold ssizeMax at hkk hn
        constructor <;> rintro ⟨a, b, c⟩ <;> refine ⟨a, b, ?_⟩
        · exact (dvd_iff_of_big (by omega) (by omega)).1 c
        · exact (dvd_iff_of_big (by omega) (by omega)).1 c
    · intro t ht
      have h2 : 0 ≤ (t : Int) * k' := Int.mul_nonneg (by omega) (by omega)
      have h3 := (progCount_iff (lo := start) (hi := stop) (k := k') (by omega) t).1 (by omega)
      omega

end Verif
