import Verif.Lemmas.SimdSort

/-!
# C16: `sort()` without a key

`SimdSort.sort cfg K l r` is `l.sort(reverse=r)` of an `IntArrayList` (`K = i32`) or a `BigIntArrayList` (`K = i64`) on
a CPU with the features `cfg`. The full statement,

`∀ cfg K l r, ∃ out, sort cfg K l r = .ok out () ∧ out.Perm l ∧ (r = 0 → out.Pairwise (· ≤ ·)) ∧ (r ≠ 0 → out.Pairwise (· ≥ ·))`,

is false: on a CPU with AVX2 or AVX-512 the code for more than one block of elements overwrites most of them. What holds
without the vector code is proved as `C16_sorts_partial`; the rest are the ways in which the statement fails, each for
a whole class of lists.
-/

namespace Verif.Props

open Verif.Spec

/-- The vector code is used for a list of `n` elements: at least eight of them and more than one register full. -/
def UsesVectors (cfg : Cfg) (K : Kind) (n : Nat) : Prop :=
  8 ≤ n ∧ (cfg.avx512 = true ∧ 64 / K.size < n ∨ cfg.avx2 = true ∧ 32 / K.size < n)

/-- Nine to fifteen C ints with both AVX2 and AVX-512. -/
def OddSize (cfg : Cfg) (K : Kind) (n : Nat) : Prop :=
  cfg.avx512 = true ∧ cfg.avx2 = true ∧ K = .i32 ∧ 9 ≤ n ∧ n ≤ 15

theorem sort_ok {cfg : Cfg} {K : Kind} {l out : List Int} {r : Int} (hr : FitsS 32 r)
    (h : SimdSort.simdsort cfg K (decide (r = 1)) l = .ok out) : SimdSort.sort cfg K l r = .ok out () := by
  unfold SimdSort.sort
  rw [if_pos hr, h]

/-- Without the vector code, up to 2^27 elements (missing: every list on a CPU with AVX2 or AVX-512 as soon as the
vector code is used, where the statement is false; the values of `reverse` other than 0 and 1). -/
theorem C16_sorts_partial (cfg : Cfg) (K : Kind) (l : List Int) (r : Int) (hr : r = 0 ∨ r = 1) (hl : l.length ≤ 2 ^ 27)
    (hv : ¬ UsesVectors cfg K l.length) :
    ∃ out, SimdSort.sort cfg K l r = .ok out () ∧ out.Perm l ∧
      (r = 0 → out.Pairwise (· ≤ ·)) ∧ (r = 1 → out.Pairwise (· ≥ ·)) := by
  obtain ⟨out, e, p, s⟩ := SimdSort.simdsort_scalar (cfg := cfg) (K := K) (decide (r = 1)) l hl hv
  refine ⟨out, sort_ok (by rcases hr with rfl | rfl <;> exact (fits32 _).2 (by omega)) e, p, ?_, ?_⟩
  · rintro rfl
    refine s.imp ?_
    intro a b h
    simp [SimdSort.before] at h
    omega
  · rintro rfl
    refine s.imp ?_
    intro a b h
    simp [SimdSort.before] at h
    omega

example : ¬ UsesVectors ⟨.v312, false, true, true, true⟩ .i32 ([3, -1, 7, 3, 0, 2, -9, 5] : List Int).length := by
  unfold UsesVectors
  decide

/-- What the vector code does keep: the call returns and the length is unchanged, except for `OddSize`. -/
theorem C16_length_partial (cfg : Cfg) (K : Kind) (l : List Int) (r : Int) (hr : FitsS 32 r) (hl : l.length ≤ 2 ^ 27)
    (ho : ¬ OddSize cfg K l.length) : ∃ out, SimdSort.sort cfg K l r = .ok out () ∧ out.length = l.length := by
  by_cases hv : SimdSort.Vector cfg K l.length
  · have hQ : SimdSort.LaneProp K (fun x => FitsS 32 x) := ⟨(fits32 _).2 (by omega), fun _ _ h => h⟩
    have hQ' : SimdSort.LaneProp .i32 (fun _ => True) := ⟨trivial, fun h => by cases h⟩
    cases K with
    | i32 =>
      obtain ⟨out, e, h, _⟩ := SimdSort.simdsort_vector hQ' (decide (r = 1)) l (by omega) hv ho (Or.inr fun _ _ => trivial)
      exact ⟨out, sort_ok hr e, h⟩
    | i64 =>
      obtain ⟨out, e, h, _⟩ := SimdSort.simdsort_vector hQ (decide (r = 1)) l (by omega) hv ho
        (Or.inr fun v _ => ⟨SimdSort.lo32_fits v, SimdSort.hi32_fits v⟩)
      exact ⟨out, sort_ok hr e, h⟩
  · obtain ⟨out, e, p, _⟩ := SimdSort.simdsort_scalar (cfg := cfg) (K := K) (decide (r = 1)) l hl hv
    exact ⟨out, sort_ok hr e, p.length_eq⟩

example : ¬ OddSize ⟨.v312, true, true, true, true⟩ .i32 (List.replicate 100 (0 : Int)).length := by
  unfold OddSize
  simp

/-- What the vector code does keep for C ints: whatever is lost, each element left was there before, or is 0. -/
theorem C16_elements_partial (cfg : Cfg) (l : List Int) (r : Int) (hr : FitsS 32 r) (hl : l.length ≤ 2 ^ 27)
    (ho : ¬ OddSize cfg .i32 l.length) :
    ∃ out, SimdSort.sort cfg .i32 l r = .ok out () ∧ ∀ v ∈ out, v ∈ l ∨ v = 0 := by
  by_cases hv : SimdSort.Vector cfg .i32 l.length
  · have hQ : SimdSort.LaneProp .i32 (fun v => v ∈ l ∨ v = 0) := ⟨Or.inr rfl, fun h => by cases h⟩
    obtain ⟨out, e, _, h⟩ := SimdSort.simdsort_vector hQ (decide (r = 1)) l (by omega) hv ho (Or.inr fun _ h => Or.inl h)
    exact ⟨out, sort_ok hr e, h⟩
  · obtain ⟨out, e, p, _⟩ := SimdSort.simdsort_scalar (cfg := cfg) (K := .i32) (decide (r = 1)) l hl hv
    exact ⟨out, sort_ok hr e, fun v h => Or.inl (p.mem_iff.1 h)⟩

/-- Lists of zeros stay as they are, also with the vector code. -/
theorem C16_zeros_partial (cfg : Cfg) (n : Nat) (r : Int) (hr : FitsS 32 r) (hl : n ≤ 2 ^ 27) (ho : ¬ OddSize cfg .i32 n) :
    SimdSort.sort cfg .i32 (List.replicate n 0) r = .ok (List.replicate n 0) () := by
  have ho' : ¬ OddSize cfg .i32 (List.replicate n (0 : Int)).length := by simpa using ho
  obtain ⟨out, e, h⟩ := C16_elements_partial cfg (List.replicate n 0) r hr (by simpa using hl) ho'
  obtain ⟨out', e', h'⟩ := C16_length_partial cfg .i32 (List.replicate n 0) r hr (by simpa using hl) ho'
  rw [e] at e'
  cases e'
  rw [e]
  congr 1
  refine List.eq_replicate_iff.2 ⟨by simpa using h', fun v hv => ?_⟩
  rcases h v hv with h | h
  · exact (List.mem_replicate.1 h).2
  · exact h

/-- C16 is false: with AVX2 and AVX-512 the sort of nine to fifteen elements is always an access of a 64-byte register
at an address that is not a multiple of 64. -/
theorem C16_oddSize_faults (cfg : Cfg) (K : Kind) (l : List Int) (r : Int) (hr : FitsS 32 r)
    (ho : OddSize cfg K l.length) : SimdSort.sort cfg K l r = .ub .misaligned := by
  unfold SimdSort.sort
  rw [if_pos hr, SimdSort.simdsort_faults _ l ho]

example : OddSize ⟨.v312, true, true, true, true⟩ .i32 ([9, 8, 7, 6, 5, 4, 3, 2, 1, 0] : List Int).length := by
  unfold OddSize
  decide

/-- C16 is false: with vectors, an element of an `IntArrayList` that comes after one of the first four elements and is
not itself found after them is gone from the result. -/
theorem C16_loses_int (cfg : Cfg) (l : List Int) (r : Int) (hr : FitsS 32 r) (hl : l.length ≤ 2 ^ 27)
    (hv : UsesVectors cfg .i32 l.length) (ho : ¬ OddSize cfg .i32 l.length) (x y : Int) (hx : x ≠ 0)
    (hy : y ∈ l.take 4) (hb : if r = 1 then x < y else y < x) (hd : x ∉ l.drop 4) :
    ∃ out, SimdSort.sort cfg .i32 l r = .ok out () ∧ x ∉ out := by
  have hQ : SimdSort.LaneProp .i32 (fun v => v ≠ x) := ⟨Ne.symm hx, fun h => by cases h⟩
  have hbt : SimdSort.Beats (decide (r = 1)) y x := by
    unfold SimdSort.Beats SimdSort.before
    by_cases h : r = 1
    · simp only [h, if_true] at hb; simp only [h, decide_true, if_true, decide_eq_true_eq]; omega
    · simp only [h, if_false] at hb; simp [h, hb]
  have hdrop : ∀ n, ∀ v ∈ (l.take n).drop 4, v ≠ x := by
    rintro n v hv rfl
    rw [List.drop_take] at hv
    exact hd (List.mem_of_mem_take hv)
  have hdrop' : ∀ n, 4 ≤ n → ∀ v ∈ l.drop n, v ≠ x := by
    rintro n hn v hv rfl
    have : l.drop n = (l.drop 4).drop (n - 4) := by rw [List.drop_drop]; congr 1; omega
    rw [this] at hv
    exact hd (List.mem_of_mem_drop hv)
  have hfb : SimdSort.FirstBlock cfg .i32 (fun v => v ≠ x) (decide (r = 1)) l := by
    unfold SimdSort.FirstBlock
    have hv2 := hv.2
    split
    · rename_i h
      simp only [Kind.size, Nat.reduceDiv] at h ⊢
      refine ⟨SimdSort.lanes16 hx ?_ ⟨y, ?_, hbt⟩ (hdrop 16), hdrop' 16 (by omega)⟩
      · simp [SimdSort.toLanes]; omega
      · simpa [SimdSort.toLanes, List.take_take] using hy
    · rename_i h
      have h2 := hv2.resolve_left h
      simp only [Kind.size, Nat.reduceDiv] at h2 ⊢
      refine ⟨h2.1, h2.2, SimdSort.lanes8 hx ?_ ⟨y, ?_, hbt⟩ (hdrop 8), hdrop' 8 (by omega)⟩
      · simp [SimdSort.toLanes]; omega
      · simpa [SimdSort.toLanes, List.take_take] using hy
  obtain ⟨out, e, _, h⟩ := SimdSort.simdsort_vector hQ (decide (r = 1)) l (by omega) hv ho (Or.inl hfb)
  exact ⟨out, sort_ok hr e, fun hm => h x hm rfl⟩

/-- C16 is false: with vectors, a list of distinct C ints is never sorted: what is left is no permutation. -/
theorem C16_distinct_ints_lost (cfg : Cfg) (l : List Int) (r : Int) (hr : FitsS 32 r) (hl : l.length ≤ 2 ^ 27)
    (hv : UsesVectors cfg .i32 l.length) (hn : l.Nodup) :
    ¬ ∃ out, SimdSort.sort cfg .i32 l r = .ok out () ∧ out.Perm l := by
  rintro ⟨out, e, hp⟩
  by_cases ho : OddSize cfg .i32 l.length
  · rw [C16_oddSize_faults cfg .i32 l r hr ho] at e
    cases e
  · have h8 := hv.1
    match l, h8, hn, hv, ho, hp, e, hl with
    | a :: b :: c :: d :: rest, _, hn, hv, ho, hp, e, hl =>
      simp only [List.nodup_cons, List.mem_cons, not_or] at hn
      obtain ⟨⟨hab, hac, had, har⟩, ⟨hbc, hbd, hbr⟩, ⟨hcd, hcr⟩, hdr, _⟩ := hn
      have key : ∀ x y, x ∈ [a, b, c, d] → y ∈ [a, b, c, d] → x ≠ 0 → x ∉ rest →
          (if r = 1 then x < y else y < x) → False := by
        intro x y hx hy h0 hd hb
        obtain ⟨out', e', hx'⟩ := C16_loses_int cfg (a :: b :: c :: d :: rest) r hr hl hv ho x y h0
          (by simpa using hy) hb (by simpa using hd)
        rw [e] at e'
        cases e'
        refine hx' (hp.mem_iff.2 ?_)
        simp only [List.mem_cons, List.not_mem_nil, or_false] at hx ⊢
        rcases hx with h | h | h | h <;> simp [h]
      have k1 := key a b (by simp) (by simp)
      have k2 := key b a (by simp) (by simp)
      have k3 := key a c (by simp) (by simp)
      have k4 := key c a (by simp) (by simp)
      have k5 := key b c (by simp) (by simp)
      have k6 := key c b (by simp) (by simp)
      by_cases h1 : r = 1
      · simp only [h1, if_true] at k1 k2 k3 k4 k5 k6
        by_cases ha : a = 0
        · by_cases hlt : b < c
          · exact k5 (by omega) hbr hlt
          · exact k6 (by omega) hcr (by omega)
        · by_cases hb0 : b = 0
          · by_cases hlt : a < c
            · exact k3 ha har hlt
            · exact k4 (by omega) hcr (by omega)
          · by_cases hlt : a < b
            · exact k1 ha har hlt
            · exact k2 hb0 hbr (by omega)
      · simp only [h1, if_false] at k1 k2 k3 k4 k5 k6
        by_cases ha : a = 0
        · by_cases hlt : b < c
          · exact k6 (by omega) hcr hlt
          · exact k5 (by omega) hbr (by omega)
        · by_cases hb0 : b = 0
          · by_cases hlt : a < c
            · exact k4 (by omega) hcr hlt
            · exact k3 ha har (by omega)
          · by_cases hlt : a < b
            · exact k2 hb0 hbr hlt
            · exact k1 ha har (by omega)

/-- Twenty distinct elements. -/
def twenty : List Int := [7, 3, 11, 5, 2, 19, 17, 13, 1, 4, 6, 8, 9, 10, 12, 14, 15, 16, 18, 20]

example : twenty.Nodup ∧ UsesVectors ⟨.v312, false, true, true, true⟩ .i32 twenty.length ∧
    UsesVectors ⟨.v312, true, true, true, true⟩ .i32 twenty.length := by
  unfold UsesVectors
  decide

/-- Instance of `C16_loses_int`: 7 comes after 3, both among the first four. -/
example : ∃ out, SimdSort.sort ⟨.v312, false, true, true, true⟩ .i32 twenty 0 = .ok out () ∧ 7 ∉ out :=
  C16_loses_int _ twenty 0 ((fits32 _).2 (by omega)) (by decide) (by unfold UsesVectors; decide)
    (by unfold OddSize; decide) 7 3 (by decide) (by decide) (by decide) (by decide)

/-- C16 is false: with vectors, of a `BigIntArrayList` of numbers from 0 to 2^31 - 1 the first two elements are gone
from the ascending result, and the smaller of them from the descending one (if not 0 and not found further on). -/
theorem C16_loses_long (cfg : Cfg) (l : List Int) (r : Int) (hr : FitsS 32 r) (hl : l.length ≤ 2 ^ 27)
    (hv : UsesVectors cfg .i64 l.length) (hs : ∀ v ∈ l, 0 ≤ v ∧ v < 2 ^ 31) (x : Int) (h0 : x ≠ 0) (hx : x ∈ l.take 2)
    (hb : r = 1 → ∃ y ∈ l.take 2, x < y) (hd : x ∉ l.drop 2) :
    ∃ out, SimdSort.sort cfg .i64 l r = .ok out () ∧ x ∉ out := by
  have hfx := hs x (List.mem_of_mem_take hx)
  have hQ : SimdSort.LaneProp .i64 (fun v => v ≠ x ∧ FitsS 32 v) :=
    ⟨⟨Ne.symm h0, (fits32 _).2 (by omega)⟩, fun _ _ h => h.2⟩
  have hlo : ∀ v ∈ l, SimdSort.lo32 v = v := fun v hv => wrapS_of_fits .i32 ((fits32 _).2 (by have := hs v hv; omega))
  have hhi : ∀ v ∈ l, SimdSort.hi32 v = 0 := by
    intro v hv
    have := hs v hv
    unfold SimdSort.hi32
    rw [show v / 2 ^ 32 = 0 by omega]
    decide
  have h8 := hv.1
  have hdrop : ∀ n, 2 ≤ n → ∀ v ∈ l.drop n, SimdSort.Lanes .i64 (fun v => v ≠ x ∧ FitsS 32 v) v := by
    intro n hn v hv
    have hm := List.mem_of_mem_drop hv
    refine ⟨⟨?_, SimdSort.lo32_fits v⟩, ⟨?_, SimdSort.hi32_fits v⟩⟩
    · rw [hlo v hm]
      rintro rfl
      have : l.drop n = (l.drop 2).drop (n - 2) := by rw [List.drop_drop]; congr 1; omega
      rw [this] at hv
      exact hd (List.mem_of_mem_drop hv)
    · rw [hhi v hm]
      exact Ne.symm h0
  have hfb : SimdSort.FirstBlock cfg .i64 (fun v => v ≠ x ∧ FitsS 32 v) (decide (r = 1)) l := by
    match l, h8, hs, hx, hb, hd, hlo, hhi, hdrop, hv with
    | a :: b :: rest, _, hs, hx, hb, hd, hlo, hhi, hdrop, hv =>
      have hbt : ∃ y ∈ [a, 0, b, 0], SimdSort.Beats (decide (r = 1)) y x := by
        by_cases h : r = 1
        · obtain ⟨y, hy, hlt⟩ := hb h
          refine ⟨y, ?_, by simp [SimdSort.Beats, SimdSort.before, h, hlt]⟩
          simp at hy
          rcases hy with rfl | rfl <;> simp
        · exact ⟨0, by simp, by simp [SimdSort.Beats, SimdSort.before, h]; exact Int.lt_iff_le_and_ne.2 ⟨hfx.1, Ne.symm h0⟩⟩
      have hlanes : ∀ n, 2 ≤ n → SimdSort.toLanes .i64 ((a :: b :: rest).take n) =
          [a, 0, b, 0] ++ SimdSort.toLanes .i64 (rest.take (n - 2)) := by
        intro n hn
        obtain ⟨m, rfl⟩ : ∃ m, n = m + 2 := ⟨n - 2, by omega⟩
        simp [SimdSort.toLanes, hlo a (by simp), hlo b (by simp), hhi a (by simp), hhi b (by simp)]
      have hrest : ∀ n, ∀ y ∈ SimdSort.toLanes .i64 (rest.take n), y ≠ x := by
        intro n y hy
        refine (SimdSort.toLanes_all (K := .i64) (Q := fun v => v ≠ x ∧ FitsS 32 v) ?_ y hy).1
        intro v hv
        exact hdrop 2 (by omega) v (by simpa using List.mem_of_mem_take hv)
      have hlen : ∀ n, n ≤ (a :: b :: rest).length → (SimdSort.toLanes .i64 ((a :: b :: rest).take n)).length = 2 * n := by
        intro n hn
        have := SimdSort.toLanes_length .i64 ((a :: b :: rest).take n)
        rw [List.length_take, Nat.min_eq_left hn] at this
        simp only [Kind.size] at this
        omega
      have hfit : ∀ n, ∀ marks : List (List Nat), ∀ y ∈ SimdSort.sortLanes marks (decide (r = 1))
          (SimdSort.toLanes .i64 ((a :: b :: rest).take n)), FitsS 32 y := by
        intro n marks
        refine SimdSort.foldl_exchange_all (Q := FitsS 32) ((fits32 _).2 (by omega)) _ _ _ ?_
        exact SimdSort.toLanes_all (K := .i64) fun v _ => ⟨SimdSort.lo32_fits v, SimdSort.hi32_fits v⟩
      unfold SimdSort.FirstBlock
      have hv2 := hv.2
      have hv1 := hv.1
      split
      · rename_i h
        simp only [Kind.size, Nat.reduceDiv] at h ⊢
        refine ⟨fun y hy => ⟨?_, hfit 8 _ y hy⟩, hdrop 8 (by omega)⟩
        refine SimdSort.lanes16 h0 (hlen 8 (by omega)) ?_ ?_ y hy
        · rw [hlanes 8 (by omega)]; simpa using hbt
        · rw [hlanes 8 (by omega)]; simpa using hrest 6
      · rename_i h
        have h2 := hv2.resolve_left h
        simp only [Kind.size, Nat.reduceDiv] at h2 ⊢
        refine ⟨h2.1, h2.2, fun y hy => ⟨?_, hfit 4 _ y hy⟩, hdrop 4 (by omega)⟩
        refine SimdSort.lanes8 h0 (hlen 4 (by omega)) ?_ ?_ y hy
        · rw [hlanes 4 (by omega)]; simpa using hbt
        · rw [hlanes 4 (by omega)]; simpa using hrest 2
  obtain ⟨out, e, _, h⟩ := SimdSort.simdsort_vector hQ (decide (r = 1)) l (by omega) hv
    (fun h => by cases h.2.2.1) (Or.inl hfb)
  refine ⟨out, sort_ok hr e, fun hm => (h x hm).1.1 ?_⟩
  exact wrapS_of_fits .i32 ((fits32 _).2 (by omega))

/-- Instance of `C16_loses_long`: a BigIntArrayList of eight elements loses its first one. -/
example : ∃ out, SimdSort.sort ⟨.v312, false, true, true, true⟩ .i64 [5, 1, 2, 3, 4, 6, 7, 8] 0 = .ok out () ∧ 5 ∉ out :=
  C16_loses_long _ _ 0 ((fits32 _).2 (by omega)) (by decide) (by unfold UsesVectors; decide) (by decide) 5 (by decide)
    (by decide) (by decide) (by decide)

/-- C16 is false: a true `reverse` other than 1 (Python: any non-zero integer) sorts ascending. Here on every CPU, for
every list of at most seven elements, two of which differ. -/
theorem C16_reverse_ignored (cfg : Cfg) (K : Kind) (l : List Int) (r : Int) (hr : FitsS 32 r) (h1 : r ≠ 1)
    (hl : l.length ≤ 7) (x y : Int) (hx : x ∈ l) (hy : y ∈ l) (hne : x < y) :
    ∃ out, SimdSort.sort cfg K l r = .ok out () ∧ out.Perm l ∧ out.Pairwise (· ≤ ·) ∧ ¬ out.Pairwise (· ≥ ·) := by
  obtain ⟨out, e, p, s⟩ := SimdSort.simdsort_scalar (cfg := cfg) (K := K) (decide (r = 1)) l (by omega)
    (fun h => by have := h.1; omega)
  have hle : out.Pairwise (· ≤ ·) := by
    refine s.imp ?_
    intro a b h
    simp [SimdSort.before, h1] at h
    omega
  refine ⟨out, sort_ok hr e, p, hle, ?_⟩
  intro hge
  have hx' := p.mem_iff.2 hx
  have hy' := p.mem_iff.2 hy
  have hall : out.Pairwise (fun a b => a = b) := (hle.and hge).imp fun {a b} h => by omega
  have : ∀ {L : List Int}, L.Pairwise (fun a b => a = b) → ∀ a ∈ L, ∀ b ∈ L, a = b := by
    intro L hL
    induction hL with
    | nil => intro a ha; cases ha
    | cons h _ ih =>
      intro a ha b hb
      rcases List.mem_cons.1 ha with ha' | ha' <;> rcases List.mem_cons.1 hb with hb' | hb'
      · rw [ha', hb']
      · rw [ha']; exact h b hb'
      · rw [hb']; exact (h a ha').symm
      · exact ih a ha' b hb'
  have := this hall x hx' y hy'
  omega

example : FitsS 32 2 ∧ (2 : Int) ≠ 1 ∧ ([4, 1, 3] : List Int).length ≤ 7 := by decide

/-- A `reverse` that no C int holds raises, and the list stays. -/
theorem C16_flag_range (cfg : Cfg) (K : Kind) (l : List Int) (r : Int) (hr : ¬ (-2 ^ 31 ≤ r ∧ r < 2 ^ 31)) :
    SimdSort.sort cfg K l r = .exc l .overflowError := by
  unfold SimdSort.sort
  rw [if_neg (fun h => hr ((fits32 r).1 h))]

example : SimdSort.sort ⟨.v312, true, true, true, true⟩ .i32 [2, 1] (2 ^ 31) = .exc [2, 1] .overflowError :=
  C16_flag_range _ _ _ _ (by decide)

end Verif.Props
