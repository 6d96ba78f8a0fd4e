import Verif.Model.KeyCompare
import Verif.Spec.GuardCompare
import Verif.Lemmas.CPySortKeeps
import Verif.Lemmas.Ints

/-!
# The pre-sort check
-/

namespace Verif.KeyCompare

open Verif.Key Verif.CPySort Verif.Spec Verif.Spec.ByKey

variable {σ ε κ ν : Type}

/-- The part of a key the check looks at. -/
def part (inTuples : Bool) (k : Obj) : Obj := if inTuples then (tupleHead k).getD k else k

/-- What the loop of the check establishes. -/
theorem scan_spec (W : World σ) (s : σ) (kt : Ty) : ∀ (ks : List Obj) (f : Flags),
    ((scan W s kt f ks).inTuples = true → f.inTuples = true ∧ ∀ k ∈ ks, (tupleHead k).isSome) ∧
    ((scan W s kt f ks).sameType = true → f.sameType = true ∧ (scan W s kt f ks).inTuples = f.inTuples ∧
      ∀ k ∈ ks, W.ty s (part f.inTuples k) = kt ∧
        (kt = .int → (scan W s kt f ks).ints = true → bounded W.py (part f.inTuples k) = true) ∧
        (kt = .str → (scan W s kt f ks).strings = true → isLatin (part f.inTuples k) = true)) ∧
    ((scan W s kt f ks).ints = true → f.ints = true) ∧
    ((scan W s kt f ks).strings = true → f.strings = true)
  | [], f => by simp [scan]
  | k :: ks, ⟨it, st, sr, ib⟩ => by
    rw [scan]
    cases it with
    | true =>
      cases ht : tupleHead k with
      | none => simp
      | some x =>
        simp only [if_true, Option.getD_some]
        have hp : part true k = x := by simp [part, ht]
        by_cases hty : W.ty s x = kt
        · simp only [hty, decide_true, if_true, Bool.not_true, Bool.false_and, Bool.false_eq_true, if_false]
          cases st with
          | false =>
            simp only [Bool.false_eq_true, if_false]
            obtain ⟨h1, h2, h3, h4⟩ := scan_spec W s kt ks ⟨true, false, sr, ib⟩
            refine ⟨fun h => ⟨by simp, ?_⟩, fun h => absurd (h2 h).1 (by simp), h3, h4⟩
            intro k' hk'
            rcases List.mem_cons.mp hk' with rfl | hk'
            · simp [ht]
            · exact (h1 h).2 k' hk'
          | true =>
            simp only [if_true]
            split
            · rename_i hc
              obtain ⟨h1, h2, h3, h4⟩ := scan_spec W s kt ks ⟨true, true, sr, false⟩
              refine ⟨fun h => ⟨by simp, ?_⟩, fun h => ⟨by simp, (h2 h).2.1, ?_⟩, fun h => absurd (h3 h) (by simp), h4⟩
              · intro k' hk'
                rcases List.mem_cons.mp hk' with rfl | hk'
                · simp [ht]
                · exact (h1 h).2 k' hk'
              · intro k' hk'
                rcases List.mem_cons.mp hk' with rfl | hk'
                · refine ⟨by rw [hp, hty], fun _ hi => absurd (h3 hi) (by simp), fun hs => ?_⟩
                  rw [hc.1] at hs
                  cases hs
                · exact (h2 h).2.2 k' hk'
            · split
              · rename_i hn hc
                obtain ⟨h1, h2, h3, h4⟩ := scan_spec W s kt ks ⟨true, true, false, ib⟩
                refine ⟨fun h => ⟨by simp, ?_⟩, fun h => ⟨by simp, (h2 h).2.1, ?_⟩, h3, fun h => absurd (h4 h) (by simp)⟩
                · intro k' hk'
                  rcases List.mem_cons.mp hk' with rfl | hk'
                  · simp [ht]
                  · exact (h1 h).2 k' hk'
                · intro k' hk'
                  rcases List.mem_cons.mp hk' with rfl | hk'
                  · refine ⟨by rw [hp, hty], fun hi => ?_, fun _ hs => absurd (h4 hs) (by simp)⟩
                    rw [hc.1] at hi
                    cases hi
                  · exact (h2 h).2.2 k' hk'
              · rename_i hn hc
                obtain ⟨h1, h2, h3, h4⟩ := scan_spec W s kt ks ⟨true, true, sr, ib⟩
                refine ⟨fun h => ⟨by simp, ?_⟩, fun h => ⟨by simp, (h2 h).2.1, ?_⟩, h3, h4⟩
                · intro k' hk'
                  rcases List.mem_cons.mp hk' with rfl | hk'
                  · simp [ht]
                  · exact (h1 h).2 k' hk'
                · intro k' hk'
                  rcases List.mem_cons.mp hk' with rfl | hk'
                  · rw [hp]
                    refine ⟨hty, fun hi hb => ?_, fun hs hb => ?_⟩
                    · have := h3 hb
                      simp only at this
                      simpa [hi, this] using hn
                    · have := h4 hb
                      simp only at this
                      simpa [hs, this] using hc
                  · exact (h2 h).2.2 k' hk'
        · simp only [hty, decide_false, Bool.false_eq_true, if_false, Bool.not_false, Bool.not_true, Bool.and_false]
          obtain ⟨h1, h2, h3, h4⟩ := scan_spec W s kt ks ⟨true, false, sr, ib⟩
          refine ⟨fun h => ⟨by simp, ?_⟩, fun h => absurd (h2 h).1 (by simp), h3, h4⟩
          intro k' hk'
          rcases List.mem_cons.mp hk' with rfl | hk'
          · simp [ht]
          · exact (h1 h).2 k' hk'
    | false =>
      have hp : part false k = k := rfl
      have no (f : Flags) (hf : f.inTuples = false) : (scan W s kt f ks).inTuples ≠ true := fun h => by
        have := ((scan_spec W s kt ks f).1 h).1
        rw [hf] at this
        cases this
      simp only [Bool.false_eq_true, if_false]
      by_cases hty : W.ty s k = kt
      · simp only [hty, decide_true, if_true, Bool.not_true, Bool.false_and, Bool.false_eq_true, if_false]
        cases st with
        | false =>
          simp only [Bool.false_eq_true, if_false]
          obtain ⟨h1, h2, h3, h4⟩ := scan_spec W s kt ks ⟨false, false, sr, ib⟩
          exact ⟨fun h => absurd h (no _ rfl), fun h => absurd (h2 h).1 (by simp), h3, h4⟩
        | true =>
          simp only [if_true]
          split
          · rename_i hc
            obtain ⟨h1, h2, h3, h4⟩ := scan_spec W s kt ks ⟨false, true, sr, false⟩
            refine ⟨fun h => absurd h (no _ rfl), fun h => ⟨by simp, (h2 h).2.1, ?_⟩, fun h => absurd (h3 h) (by simp), h4⟩
            intro k' hk'
            rcases List.mem_cons.mp hk' with rfl | hk'
            · refine ⟨by rw [hp, hty], fun _ hi => absurd (h3 hi) (by simp), fun hs => ?_⟩
              rw [hc.1] at hs
              cases hs
            · exact (h2 h).2.2 k' hk'
          · split
            · rename_i hn hc
              obtain ⟨h1, h2, h3, h4⟩ := scan_spec W s kt ks ⟨false, true, false, ib⟩
              refine ⟨fun h => absurd h (no _ rfl), fun h => ⟨by simp, (h2 h).2.1, ?_⟩, h3, fun h => absurd (h4 h) (by simp)⟩
              intro k' hk'
              rcases List.mem_cons.mp hk' with rfl | hk'
              · refine ⟨by rw [hp, hty], fun hi => ?_, fun _ hs => absurd (h4 hs) (by simp)⟩
                rw [hc.1] at hi
                cases hi
              · exact (h2 h).2.2 k' hk'
            · rename_i hn hc
              obtain ⟨h1, h2, h3, h4⟩ := scan_spec W s kt ks ⟨false, true, sr, ib⟩
              refine ⟨fun h => absurd h (no _ rfl), fun h => ⟨by simp, (h2 h).2.1, ?_⟩, h3, h4⟩
              intro k' hk'
              rcases List.mem_cons.mp hk' with rfl | hk'
              · rw [hp]
                refine ⟨hty, fun hi hb => ?_, fun hs hb => ?_⟩
                · have := h3 hb
                  simp only at this
                  simpa [hi, this] using hn
                · have := h4 hb
                  simp only at this
                  simpa [hs, this] using hc
              · exact (h2 h).2.2 k' hk'
      · simp [hty]

/-- `c` may be used on `k`, the keys having type `kt`. -/
def Suits (W : World σ) (s : σ) (kt : Ty) (c : Cmp) (k : Obj) : Prop :=
  match c with
  | .safe => True
  | .object _ => W.ty s k = kt
  | .latin => ∃ i x, k = .str i x ∧ latin x = true
  | .long => W.py ≠ .le311 ∧ ∃ i p, k = .int i p ∧ p.compact = true
  | .float => ∃ i b, k = .float i b

theorem pick_suits (W : World σ) (s : σ) (kt : Ty) (f : Flags) (k : Obj)
    (h : f.sameType = true → W.ty s k = kt ∧ (kt = .int → f.ints = true → bounded W.py k = true) ∧
      (kt = .str → f.strings = true → isLatin k = true)) : Suits W s kt (pick W s kt f) k := by
  unfold pick
  split
  · rename_i hs
    obtain ⟨h1, h2, h3⟩ := h hs
    split
    · rename_i hc
      have := h3 hc.1 hc.2
      cases k <;> simp [isLatin] at this
      exact ⟨_, _, rfl, this⟩
    · split
      · rename_i hc
        have := h2 hc.1 hc.2
        cases k <;> simp [bounded] at this
        exact ⟨this.1, _, _, rfl, this.2⟩
      · split
        · rename_i hc
          subst hc
          cases k <;> simp [World.ty] at h1
          exact ⟨_, _, rfl⟩
        · split
          · exact h1
          · trivial
  · trivial

/-- What the check chooses can be used on all keys. -/
theorem choose_suits (W : World σ) (s : σ) (keys : List Obj) : ∃ kt,
    (∃ c, choose W s keys = .plain c ∧ ∀ k ∈ keys, Suits W s kt c k) ∨
    (∃ c, choose W s keys = .tuples c ∧ ∀ k ∈ keys, ∃ i x xs, k = .tuple i (x :: xs) ∧ Suits W s kt c x) := by
  match keys with
  | [] => exact ⟨.int, .inl ⟨.safe, rfl, fun _ _ => trivial⟩⟩
  | [_] => exact ⟨.int, .inl ⟨.safe, rfl, fun _ _ => trivial⟩⟩
  | k :: k' :: ks =>
    refine ⟨keyType W s k, ?_⟩
    obtain ⟨h1, h2, _, _⟩ := scan_spec W s (keyType W s k) (k :: k' :: ks) ⟨(tupleHead k).isSome, true, true, true⟩
    simp only [choose]
    generalize hf : scan W s (keyType W s k) ⟨(tupleHead k).isSome, true, true, true⟩ (k :: k' :: ks) = f at *
    by_cases hi : f.inTuples = true
    · right
      rw [if_pos hi]
      obtain ⟨a, b⟩ := h1 hi
      refine ⟨_, rfl, fun q hq => ?_⟩
      have hb := b q hq
      have ⟨i, x, xs, hx⟩ : ∃ i x xs, q = .tuple i (x :: xs) := by
        unfold tupleHead at hb
        split at hb
        · exact ⟨_, _, _, rfl⟩
        · cases hb
      refine ⟨i, x, xs, hx, ?_⟩
      split
      · trivial
      · refine pick_suits W s _ f x fun hs => ?_
        have := (h2 hs).2.2 q hq
        simp only at a
        rw [a, hx] at this
        exact this
    · left
      rw [if_neg hi]
      refine ⟨_, rfl, fun q hq => ?_⟩
      refine pick_suits W s _ f q fun hs => ?_
      obtain ⟨_, e, m⟩ := h2 hs
      have : (tupleHead k).isSome = false := by
        cases h : (tupleHead k).isSome with
        | false => rfl
        | true => exact absurd (e.trans h) hi
      have := m q hq
      rw [‹(tupleHead k).isSome = false›] at this
      exact this

/-! ## The comparison functions -/

/-- `<` between objects of the same type. -/
theorem less_same (W : World σ) (s : σ) (v w : Obj) (h : W.ty s v = W.ty s w) :
    W.less s v w = orElse (slotCall W (W.slotOf s (W.ty s v)) .lt s v w) fun s =>
      orElse (slotCall W (W.slotOf s (W.ty s w)) .gt s w v) fun s => (.error .typeError, s) := by
  unfold World.less
  rw [richBool]
  simp [h, Ask.swap, orElse]

theorem memcmp_spec : ∀ x y : List Nat,
    (let r := memcmp (x.take (min x.length y.length)) (y.take (min x.length y.length))
     if r ≠ 0 then decide (r < 0) else decide (x.length < y.length)) = strLess x y
  | [], [] => by simp [memcmp, strLess]
  | [], _ :: _ => by simp [memcmp, strLess]
  | _ :: _, [] => by simp [memcmp, strLess]
  | a :: as, b :: bs => by
    have ih := memcmp_spec as bs
    simp only at ih ⊢
    simp only [List.length_cons, Nat.add_min_add_right, List.take_succ_cons, memcmp, strLess]
    by_cases hab : a = b
    · simp only [hab, if_true, Nat.add_lt_add_iff_right]
      exact ih
    · by_cases hlt : a < b <;> simp [hab, hlt]

theorem latin_agrees (W : World σ) (s : σ) (i j : Nat) (x y : List Nat) (hx : latin x = true) (hy : latin y = true) :
    (latinCompare (.str i x) (.str j y), s) = pass (W.less s (.str i x) (.str j y)) := by
  rw [less_same W s (.str i x) (.str j y) rfl]
  simp only [World.ty, World.slotOf, slotCall, orElse, pass, latinCompare, hx, hy, Bool.and_self, if_true, Ask.ofStr]
  rw [← memcmp_spec]

theorem long_agrees (W : World σ) (s : σ) (i j : Nat) (p q : PyLong) (hpy : W.py ≠ .le311) (hp : p.compact = true)
    (hq : q.compact = true) : (longCompareRun W.py (.int i p) (.int j q), s) = pass (W.less s (.int i p) (.int j q)) := by
  rw [less_same W s (.int i p) (.int j q) rfl]
  simp only [World.ty, World.slotOf, slotCall, orElse, pass, longCompareRun, hp, hq, hpy, Bool.and_self, if_true, if_false,
    Ask.ofInt, longCompare, ne_eq, not_false_eq_true, and_self]
  congr 3
  rw [Int.sign_neg_iff]
  exact propext (by omega)

theorem float_agrees (W : World σ) (s : σ) (i j x y : Nat) :
    (floatCompare (.float i x) (.float j y), s) = pass (W.less s (.float i x) (.float j y)) := by
  rw [less_same W s (.float i x) (.float j y) rfl]
  simp only [World.ty, World.slotOf, slotCall, orElse, pass, floatCompare]

theorem slotCall_quiet {W : World σ} (hq : Quiet W) (fn : Option Slot) (a : Ask) (s s' : σ) (v w : Obj)
    (h : slotCall W fn a s v w = (.ok none, s')) : s' = s := by
  rw [slotCall.eq_def] at h
  split at h
  · cases h; rfl
  · cases h
  · cases h
  · cases h
  · split at h <;> cases h
  · exact hq _ _ _ _ _ _ h

theorem object_agrees {W : World σ} (hq : Quiet W) (fn : Slot) (s : σ) (v w : Obj) (h : W.ty s v = W.ty s w) :
    objectCompare W fn s v w = pass (W.less s v w) := by
  unfold objectCompare
  split
  · rfl
  · rename_i hg
    have hg : W.slotOf s (W.ty s v) = some fn := by
      cases hx : decide (W.slotOf s (W.ty s v) = some fn) with
      | true => exact of_decide_eq_true hx
      | false => exact absurd (of_decide_eq_false hx) hg
    have e := less_same W s v w h
    rw [hg] at e
    match hr : slotCall W (some fn) .lt s v w with
    | (.ok none, s') =>
      rw [slotCall_quiet hq _ _ _ _ _ _ hr]
    | (.error x, s') =>
      rw [e, hr]
      rfl
    | (.ok (some b), s') =>
      rw [e, hr]
      rfl

theorem firstDiff_ge (W : World σ) : ∀ (xs ys : List Obj) (s s' : σ) (i n : Nat),
    firstDiff W s xs ys i = (.ok n, s') → i ≤ n
  | [], _, s, s', i, n, h => by simp [firstDiff] at h; omega
  | _ :: _, [], s, s', i, n, h => by simp [firstDiff] at h; omega
  | x :: xs, y :: ys, s, s', i, n, h => by
    rw [firstDiff] at h
    split at h
    · cases h
    · cases h; omega
    · have := firstDiff_ge W xs ys _ _ _ _ h
      omega

theorem tupleAsk_firstDiff (W : World σ) : ∀ (xs ys : List Obj) (s : σ) (i : Nat),
    tupleAsk W .lt s xs ys =
      match firstDiff W s xs ys i with
      | (.error e, s) => (.error e, s)
      | (.ok n, s) =>
        match xs[n - i]?, ys[n - i]? with
        | some x, some y => W.less s x y
        | _, _ => (.ok (decide (xs.length < ys.length)), s)
  | [], ys, s, i => by simp [tupleAsk, firstDiff, Ask.ofInt]
  | x :: xs, [], s, i => by simp [tupleAsk, firstDiff, Ask.ofInt]; omega
  | x :: xs, y :: ys, s, i => by
    rw [tupleAsk, firstDiff]
    match hr : richBool W .eq s x y with
    | (.error e, s') => rfl
    | (.ok false, s') => simp [World.less]
    | (.ok true, s') =>
      simp only
      rw [tupleAsk_firstDiff W xs ys s' (i + 1)]
      match hf : firstDiff W s' xs ys (i + 1) with
      | (.error e, s'') => rfl
      | (.ok n, s'') =>
        have := firstDiff_ge W _ _ _ _ _ _ hf
        have e : n - i = (n - (i + 1)) + 1 := by omega
        simp only [e, List.getElem?_cons_succ, List.length_cons, Nat.add_lt_add_iff_right]

theorem tuple_agrees (W : World σ) (elem : Cmp) (s : σ) (i j : Nat) (x y : Obj) (xs ys : List Obj)
    (h : ∀ s', elem.run W s' x y = pass (W.less s' x y)) :
    tupleCompare W elem s (.tuple i (x :: xs)) (.tuple j (y :: ys)) =
      pass (W.less s (.tuple i (x :: xs)) (.tuple j (y :: ys))) := by
  rw [less_same W s (.tuple i (x :: xs)) (.tuple j (y :: ys)) rfl]
  simp only [World.ty, World.slotOf, slotCall, tupleCompare]
  rw [tupleAsk_firstDiff W (x :: xs) (y :: ys) s 0]
  simp only [List.isEmpty_cons, Bool.or_self, Bool.false_eq_true, if_false, Nat.sub_zero]
  match hf : firstDiff W s (x :: xs) (y :: ys) 0 with
  | (.error e, s') => rfl
  | (.ok n, s') =>
    simp only
    cases hx : (x :: xs)[n]? with
    | none => simp [orElse, pass]
    | some a =>
      cases hy : (y :: ys)[n]? with
      | none => simp [orElse, pass]
      | some b =>
        simp only
        have fin (k : σ → Except Exc Bool × σ) : pass (W.less s' a b) = pass (orElse (match W.less s' a b with
            | (.ok b, s) => (.ok (some b), s)
            | (.error e, s) => (.error e, s)) k) := by
          match W.less s' a b with
          | (.ok b, t) => rfl
          | (.error e, t) => rfl
        split
        · rename_i h0
          subst h0
          simp only [List.getElem?_cons_zero, Option.some.injEq] at hx hy
          subst hx hy
          rw [h s']
          exact fin _
        · exact fin _

/-- A function that suits its operands is `<`. -/
theorem run_agrees {W : World σ} {s0 : σ} (hs : Steady W s0) (hq : Quiet W) (kt : Ty) (c : Cmp) (s : σ) (v w : Obj)
    (hv : Suits W s0 kt c v) (hw : Suits W s0 kt c w) : c.run W s v w = pass (W.less s v w) := by
  have ty (x : Obj) : W.ty s x = W.ty s0 x := by
    cases x <;> simp [World.ty, hs s]
  cases c with
  | safe => rfl
  | object fn =>
    refine object_agrees hq fn s v w ?_
    rw [ty, ty]
    exact (show W.ty s0 v = kt from hv).trans (show W.ty s0 w = kt from hw).symm
  | latin =>
    obtain ⟨i, x, rfl, hx⟩ := hv
    obtain ⟨j, y, rfl, hy⟩ := hw
    exact latin_agrees W s i j x y hx hy
  | long =>
    obtain ⟨hp, i, x, rfl, hx⟩ := hv
    obtain ⟨_, j, y, rfl, hy⟩ := hw
    exact long_agrees W s i j x y hp hx hy
  | float =>
    obtain ⟨i, x, rfl⟩ := hv
    obtain ⟨j, y, rfl⟩ := hw
    exact float_agrees W s i j x y

/-- What the check chose is `<` on the keys. -/
theorem chosen_agrees {W : World σ} {s0 : σ} (hs : Steady W s0) (hq : Quiet W) (keys : List Obj) (v w : Obj)
    (hv : v ∈ keys) (hw : w ∈ keys) (s : σ) : (choose W s0 keys).run W s v w = pass (W.less s v w) := by
  obtain ⟨kt, ⟨c, e, h⟩ | ⟨c, e, h⟩⟩ := choose_suits W s0 keys
  · rw [e]
    exact run_agrees hs hq kt c s v w (h v hv) (h w hw)
  · rw [e]
    obtain ⟨i, x, xs, rfl, hx⟩ := h v hv
    obtain ⟨j, y, ys, rfl, hy⟩ := h w hw
    exact tuple_agrees W c s i j x y xs ys (fun s' => run_agrees hs hq kt c s' x y hx hy)

theorem pass_defined (r : Except Exc Bool × σ) : (pass r).1 ≠ .undef := by
  obtain ⟨r, s⟩ := r
  cases r <;> simp [pass]

theorem run_defined (W : World σ) (s0 : σ) (kt : Ty) (c : Cmp) (s : σ) (v w : Obj)
    (hv : Suits W s0 kt c v) (hw : Suits W s0 kt c w) : (c.run W s v w).1 ≠ .undef := by
  cases c with
  | safe => exact pass_defined _
  | object fn =>
    simp only [Cmp.run, objectCompare]
    split
    · exact pass_defined _
    · split
      · exact pass_defined _
      · simp
      · simp
  | latin =>
    obtain ⟨i, x, rfl, hx⟩ := hv
    obtain ⟨j, y, rfl, hy⟩ := hw
    simp [Cmp.run, latinCompare, hx, hy]
  | long =>
    obtain ⟨hp, i, x, rfl, hx⟩ := hv
    obtain ⟨_, j, y, rfl, hy⟩ := hw
    simp [Cmp.run, longCompareRun, hx, hy, hp]
  | float =>
    obtain ⟨i, x, rfl⟩ := hv
    obtain ⟨j, y, rfl⟩ := hw
    simp [Cmp.run, floatCompare]

/-- What the check chose is never applied to operands it must not be applied to. -/
theorem chosen_defined (W : World σ) (s0 : σ) (keys : List Obj) (v w : Obj) (hv : v ∈ keys) (hw : w ∈ keys) (s : σ) :
    ((choose W s0 keys).run W s v w).1 ≠ .undef := by
  obtain ⟨kt, ⟨c, e, h⟩ | ⟨c, e, h⟩⟩ := choose_suits W s0 keys
  · rw [e]
    exact run_defined W s0 kt c s v w (h v hv) (h w hw)
  · rw [e]
    obtain ⟨i, x, xs, rfl, hx⟩ := h v hv
    obtain ⟨j, y, ys, rfl, hy⟩ := h w hw
    simp only [Chosen.run, tupleCompare, List.isEmpty_cons, Bool.or_self, Bool.false_eq_true, if_false]
    split
    · simp
    · split
      · rename_i n _ _ _ a b ha hb
        split
        · rename_i h0
          subst h0
          simp only [List.getElem?_cons_zero, Option.some.injEq] at ha hb
          subst ha hb
          exact run_defined W s0 kt c _ x y hx hy
        · exact pass_defined _
      · simp

end Verif.KeyCompare
