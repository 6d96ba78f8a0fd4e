import Verif.Lemmas.KeySort
import Verif.Spec.KeyOrder

/-!
# The chosen comparison on numbers, strings and tuples of numbers
-/

namespace Verif.KeyCompare

open Verif.Key Verif.CPySort Verif.Spec Verif.Spec.ByKey

variable {σ ε κ ν : Type}

/-! ## Comparison of ints -/

/-- Value of a digit sequence, most significant digit first. -/
def valTop : List Nat → Nat
  | [] => 0
  | d :: ds => d * (2 ^ 30) ^ ds.length + valTop ds

theorem digitsVal_append (xs : List Nat) (d : Nat) : digitsVal (xs ++ [d]) = digitsVal xs + (2 ^ 30) ^ xs.length * d := by
  induction xs with
  | nil => simp [digitsVal]
  | cons x xs ih =>
    have e : (2 ^ 30) ^ (xs.length + 1) = 2 ^ 30 * (2 ^ 30) ^ xs.length := Nat.pow_succ'
    simp only [List.cons_append, digitsVal, ih, List.length_cons]
    rw [e, Nat.mul_add, Nat.add_assoc, ← Nat.mul_assoc]

theorem valTop_reverse (xs : List Nat) : valTop xs = digitsVal xs.reverse := by
  induction xs with
  | nil => rfl
  | cons x xs ih => rw [List.reverse_cons, digitsVal_append, valTop, ih, List.length_reverse, Nat.mul_comm, Nat.add_comm]

theorem valTop_lt : ∀ xs : List Nat, (∀ d ∈ xs, d < 2 ^ 30) → valTop xs < (2 ^ 30) ^ xs.length
  | [], _ => by simp [valTop]
  | x :: xs, h => by
    have ih := valTop_lt xs fun d hd => h d (List.mem_cons_of_mem _ hd)
    have hx := h x List.mem_cons_self
    have e : (2 ^ 30) ^ (xs.length + 1) = 2 ^ 30 * (2 ^ 30) ^ xs.length := Nat.pow_succ'
    rw [valTop, List.length_cons, e]
    generalize (2 ^ 30) ^ xs.length = B at *
    have : (x + 1) * B ≤ 2 ^ 30 * B := Nat.mul_le_mul_right B hx
    rw [Nat.add_mul, Nat.one_mul] at this
    omega

theorem topDiff_eq : ∀ xs ys : List Nat, xs.length = ys.length → (∀ d ∈ xs, d < 2 ^ 30) → (∀ d ∈ ys, d < 2 ^ 30) →
    topDiff xs ys = ((valTop xs : Int) - valTop ys).sign
  | [], [], _, _, _ => rfl
  | [], _ :: _, h, _, _ => by cases h
  | _ :: _, [], h, _, _ => by cases h
  | x :: xs, y :: ys, h, hx, hy => by
    have hl : xs.length = ys.length := by simpa using h
    have hx' := fun d hd => hx d (List.mem_cons_of_mem _ hd)
    have hy' := fun d hd => hy d (List.mem_cons_of_mem _ hd)
    have ih := topDiff_eq xs ys hl hx' hy'
    have ax := valTop_lt xs hx'
    have ay := valTop_lt ys hy'
    rw [topDiff, valTop, valTop]
    rw [hl] at ax ⊢
    generalize (2 ^ 30) ^ ys.length = B at *
    split
    · rename_i hlt
      have : (x + 1) * B ≤ y * B := Nat.mul_le_mul_right B hlt
      rw [Nat.add_mul, Nat.one_mul] at this
      rw [Int.sign_eq_neg_one_of_neg]
      omega
    · split
      · rename_i hlt
        have : (y + 1) * B ≤ x * B := Nat.mul_le_mul_right B hlt
        rw [Nat.add_mul, Nat.one_mul] at this
        rw [Int.sign_eq_one_of_pos]
        omega
      · have : x = y := by omega
        subst this
        rw [ih]
        congr 1
        omega

/-- The magnitude of a normal int, and its number of digits. -/
theorem normal_bounds {p : PyLong} (h : p.Normal) : digitsVal p.digits < (2 ^ 30) ^ p.digits.length ∧
    (p.digits ≠ [] → (2 ^ 30) ^ (p.digits.length - 1) ≤ digitsVal p.digits) := by
  obtain ⟨h1, h2, _, _⟩ := h
  constructor
  · have := valTop_lt p.digits.reverse (fun d hd => h1 d (List.mem_reverse.1 hd))
    rwa [valTop_reverse, List.reverse_reverse, List.length_reverse] at this
  · intro hne
    rcases List.eq_nil_or_concat p.digits with e | ⟨xs, d, e⟩
    · exact absurd e hne
    · rw [List.concat_eq_append] at e
      rw [e] at h2 ⊢
      rw [digitsVal_append]
      simp only [List.getLast?_append, List.getLast?_singleton, Option.some_or, ne_eq, Option.some.injEq] at h2
      simp only [List.length_append, List.length_singleton, Nat.add_sub_cancel]
      have : (2 ^ 30) ^ xs.length * 1 ≤ (2 ^ 30) ^ xs.length * d := Nat.mul_le_mul_left _ (by omega)
      omega

theorem mag_lt {p q : PyLong} (hp : p.Normal) (hq : q.Normal) (h : p.digits.length < q.digits.length) :
    digitsVal p.digits < digitsVal q.digits := by
  have a := (normal_bounds hp).1
  have b := (normal_bounds hq).2 (by intro e; rw [e] at h; simp at h)
  have : (2 ^ 30) ^ p.digits.length ≤ (2 ^ 30) ^ (q.digits.length - 1) := Nat.pow_le_pow_right (by decide) (by omega)
  omega

theorem mag_diff {p q : PyLong} (hp : p.Normal) (hq : q.Normal) (h : p.digits.length = q.digits.length) :
    topDiff p.digits.reverse q.digits.reverse = ((digitsVal p.digits : Int) - digitsVal q.digits).sign := by
  rw [topDiff_eq _ _ (by simp [h]) (fun d hd => hp.1 d (List.mem_reverse.1 hd)) (fun d hd => hq.1 d (List.mem_reverse.1 hd)),
    valTop_reverse, valTop_reverse, List.reverse_reverse, List.reverse_reverse]

theorem sign_flip (x : Int) : (-x).sign = -x.sign := Int.sign_neg x

/-- `long_compare` compares values. -/
theorem longCompare_sign (py : PyVer) {p q : PyLong} (hp : p.Normal) (hq : q.Normal) :
    (longCompare py p q).sign = (p.value - q.value).sign := by
  unfold longCompare
  split
  · rename_i hc
    have cv (r : PyLong) (h : r.compact = true) : r.compactValue = r.value := by
      simp only [PyLong.compact, decide_eq_true_eq] at h
      unfold PyLong.compactValue PyLong.value
      match hd : r.digits with
      | [] => rfl
      | [d] => simp [digitsVal]
      | _ :: _ :: _ => rw [hd] at h; simp at h
    rw [cv p hc.2.1, cv q hc.2.2]
    exact Int.sign_sign
  · have lp : p.digits.length = 0 ↔ p.sign = 0 := by rw [List.length_eq_zero_iff]; exact hp.2.2.1
    have lq : q.digits.length = 0 ↔ q.sign = 0 := by rw [List.length_eq_zero_iff]; exact hq.2.2.1
    have pos (r : PyLong) (h : r.Normal) (hl : r.digits.length ≠ 0) : 0 < digitsVal r.digits := by
      have := (normal_bounds h).2 (by intro e; rw [e] at hl; simp at hl)
      have : 0 < (2 ^ 30) ^ (r.digits.length - 1) := Nat.pow_pos (by decide)
      omega
    have zero (r : PyLong) (hl : r.digits.length = 0) : digitsVal r.digits = 0 := by
      rw [List.length_eq_zero_iff] at hl
      rw [hl]
      rfl
    have pp := pos p hp
    have pq := pos q hq
    have zp := zero p
    have zq := zero q
    have ml := mag_lt hp hq
    have mg := mag_lt hq hp
    have md := mag_diff hp hq
    unfold PyLong.value
    have sp := hp.2.2.2
    have sq := hq.2.2.2
    generalize digitsVal p.digits = a at *
    generalize digitsVal q.digits = b at *
    generalize topDiff p.digits.reverse q.digits.reverse = t at *
    generalize p.digits.length = m at *
    generalize q.digits.length = n at *
    generalize p.sign = u at *
    generalize q.sign = v at *
    simp only
    have key (x y : Int) (h1 : x < 0 ↔ y < 0) (h2 : 0 < x ↔ 0 < y) : x.sign = y.sign := by
      rcases Int.lt_trichotomy x 0 with h | h | h
      · rw [Int.sign_eq_neg_one_of_neg h, Int.sign_eq_neg_one_of_neg (h1.1 h)]
      · rw [show y = 0 by omega, h]
      · rw [Int.sign_eq_one_of_pos h, Int.sign_eq_one_of_pos (h2.1 h)]
    split
    · rename_i hd
      apply key <;> rcases sp with rfl | rfl | rfl <;> rcases sq with rfl | rfl | rfl <;> simp at * <;> omega
    · rename_i hd
      have e : m = n := by rcases sp with rfl | rfl | rfl <;> rcases sq with rfl | rfl | rfl <;> simp at * <;> omega
      have t' := md e
      have e2 : u = v := by rcases sp with rfl | rfl | rfl <;> rcases sq with rfl | rfl | rfl <;> simp at * <;> omega
      subst e2
      rw [t']
      rcases sp with rfl | rfl | rfl
      · have : m = 0 := lp.2 rfl
        rw [zp this, zq (e ▸ this)]
        rfl
      · simp
      · simp only [show ((-1 : Int) < 0) from by decide, if_true]
        rw [sign_flip, Int.sign_sign, ← sign_flip]
        congr 1
        omega

theorem longLess (py : PyVer) {p q : PyLong} (hp : p.Normal) (hq : q.Normal) :
    Ask.lt.ofInt (longCompare py p q) 0 = decide (p.value < q.value) := by
  have h := longCompare_sign py hp hq
  simp only [Ask.ofInt, decide_eq_decide]
  rw [← Int.sign_neg_iff, h, Int.sign_neg_iff]
  omega

theorem longEq (py : PyVer) {p q : PyLong} (hp : p.Normal) (hq : q.Normal) :
    Ask.eq.ofInt (longCompare py p q) 0 = decide (p.value = q.value) := by
  have h := longCompare_sign py hp hq
  simp only [Ask.ofInt, decide_eq_decide]
  rw [← Int.sign_eq_zero_iff_zero, h, Int.sign_eq_zero_iff_zero]
  omega

/-! ## The chosen comparison on built-in objects -/

/-- Between objects of one built-in type, whose own method always answers, every suitable function is `<`. -/
theorem run_builtin (W : World σ) (s0 : σ) (kt : Ty) (c : Cmp) (s : σ) (v w : Obj) (hv : Suits W s0 kt c v)
    (hw : Suits W s0 kt c w) (hty : W.ty s v = W.ty s w)
    (hans : ∀ fn s', W.slotOf s (W.ty s v) = some fn → slotCall W (some fn) .lt s v w ≠ (.ok none, s')) :
    c.run W s v w = pass (W.less s v w) := by
  cases c with
  | safe => rfl
  | object fn =>
    simp only [Cmp.run, objectCompare]
    split
    · rfl
    · rename_i hg
      have hg : W.slotOf s (W.ty s v) = some fn := by
        cases hx : decide (W.slotOf s (W.ty s v) = some fn) with
        | true => exact of_decide_eq_true hx
        | false => exact absurd (of_decide_eq_false hx) hg
      have e := less_same W s v w hty
      rw [hg] at e
      match hr : slotCall W (some fn) .lt s v w with
      | (.ok none, s') => exact absurd hr (hans fn s' hg)
      | (.error x, s') => rw [e, hr]; rfl
      | (.ok (some b), s') => rw [e, hr]; rfl
  | latin =>
    obtain ⟨i, x, rfl, hx⟩ := hv
    obtain ⟨j, y, rfl, hy⟩ := hw
    exact latin_agrees W s i j x y hx hy
  | long =>
    obtain ⟨hp, i, x, rfl, hx⟩ := hv
    obtain ⟨_, j, y, rfl, hy⟩ := hw
    exact long_agrees W s i j x y hp hx hy
  | float =>
    obtain ⟨i, x, rfl⟩ := hv
    obtain ⟨j, y, rfl⟩ := hw
    exact float_agrees W s i j x y

theorem less_int (W : World σ) (s : σ) {v w : Obj} (hv : IsInt v) (hw : IsInt w) :
    W.less s v w = (.ok (decide (intOf v < intOf w)), s) := by
  obtain ⟨i, p, rfl, hp⟩ := hv
  obtain ⟨j, q, rfl, hq⟩ := hw
  rw [less_same W s (.int i p) (.int j q) rfl]
  simp only [World.ty, World.slotOf, slotCall, orElse, longLess W.py hp hq, intOf]
  rfl

theorem eq_int (W : World σ) (s : σ) {v w : Obj} (hv : IsInt v) (hw : IsInt w) (hid : v.id = w.id → v = w) :
    richBool W .eq s v w = (.ok (decide (intOf v = intOf w)), s) := by
  rw [richBool]
  split
  · rename_i h
    rw [hid h.2]
    simp
  · obtain ⟨i, p, rfl, hp⟩ := hv
    obtain ⟨j, q, rfl, hq⟩ := hw
    simp [World.ty, World.slotOf, slotCall, orElse, longEq W.py hp hq, intOf]
    rfl

theorem less_str (W : World σ) (s : σ) {v w : Obj} (hv : IsStr v) (hw : IsStr w) :
    W.less s v w = (.ok (strLess (charsOf v) (charsOf w)), s) := by
  obtain ⟨i, p, rfl⟩ := hv
  obtain ⟨j, q, rfl⟩ := hw
  rw [less_same W s (.str i p) (.str j q) rfl]
  simp only [World.ty, World.slotOf, slotCall, orElse, Ask.ofStr, charsOf]

theorem less_float (W : World σ) (s : σ) {v w : Obj} (hv : IsNumber v) (hw : IsNumber w) :
    W.less s v w = (.ok (decide (placeOf v < placeOf w)), s) := by
  obtain ⟨i, p, rfl, hp⟩ := hv
  obtain ⟨j, q, rfl, hq⟩ := hw
  rw [less_same W s (.float i p) (.float j q) rfl]
  simp [World.ty, World.slotOf, slotCall, orElse, Ask.ofDouble, Ask.ofInt, placeOf, hp, hq]
  rfl

theorem strLess_eq : ∀ x y : List Nat, strLess x y = decide (x < y)
  | [], [] => by simp [strLess]
  | [], _ :: _ => by simp [strLess]
  | _ :: _, [] => by simp [strLess]
  | a :: as, b :: bs => by
    rw [strLess]
    split
    · rename_i h
      subst h
      rw [strLess_eq as bs, decide_eq_decide, List.cons_lt_cons_iff]
      constructor
      · exact fun h => .inr ⟨rfl, h⟩
      · rintro (h | h)
        · omega
        · exact h.2
    · rename_i h
      rw [decide_eq_decide, List.cons_lt_cons_iff]
      constructor
      · exact .inl
      · rintro (h' | h')
        · exact h'
        · exact absurd h'.1 h

theorem tupleAsk_ints (W : World σ) : ∀ (xs ys : List Obj) (s : σ), (∀ x ∈ xs, IsInt x) → (∀ y ∈ ys, IsInt y) →
    (∀ x ∈ xs, ∀ y ∈ ys, x.id = y.id → x = y) →
    tupleAsk W .lt s xs ys = (.ok (decide (xs.map intOf < ys.map intOf)), s)
  | [], [], s, _, _, _ => by simp [tupleAsk, Ask.ofInt]
  | [], _ :: _, s, _, _, _ => by simp [tupleAsk, Ask.ofInt]; try omega
  | _ :: _, [], s, _, _, _ => by simp [tupleAsk, Ask.ofInt]; omega
  | x :: xs, y :: ys, s, hx, hy, hid => by
    have h1 := hx x List.mem_cons_self
    have h2 := hy y List.mem_cons_self
    rw [tupleAsk, eq_int W s h1 h2 (hid x List.mem_cons_self y List.mem_cons_self)]
    have ih := tupleAsk_ints W xs ys s (fun a ha => hx a (List.mem_cons_of_mem _ ha))
      (fun a ha => hy a (List.mem_cons_of_mem _ ha))
      (fun a ha b hb => hid a (List.mem_cons_of_mem _ ha) b (List.mem_cons_of_mem _ hb))
    by_cases he : intOf x = intOf y
    · simp only [he, decide_true, ih, List.map_cons, List.cons_lt_cons_iff, Int.lt_irrefl, true_and, false_or]
    · have e : richBool W .lt s x y = (.ok (decide (intOf x < intOf y)), s) := less_int W s h1 h2
      simp [he, e, List.cons_lt_cons_iff]

theorem less_row (W : World σ) (s : σ) {v w : Obj} (hv : IsRow v) (hw : IsRow w)
    (hid : ∀ x ∈ itemsOf v, ∀ y ∈ itemsOf w, x.id = y.id → x = y) :
    W.less s v w = (.ok (decide (rowOf v < rowOf w)), s) := by
  obtain ⟨i, xs, rfl, _, hx⟩ := hv
  obtain ⟨j, ys, rfl, _, hy⟩ := hw
  rw [less_same W s (.tuple i xs) (.tuple j ys) rfl]
  simp only [World.ty, World.slotOf, slotCall, tupleAsk_ints W xs ys s hx hy hid, orElse, rowOf]
  rfl

theorem chosen_int (W : World σ) (s0 : σ) (keys : List Obj) (hk : ∀ k ∈ keys, IsInt k) (v w : Obj) (hv : v ∈ keys)
    (hw : w ∈ keys) (s : σ) : (choose W s0 keys).run W s v w = (.ans (decide (intOf v < intOf w)), s) := by
  have e := less_int W s (hk v hv) (hk w hw)
  obtain ⟨kt, ⟨c, hc, h⟩ | ⟨c, hc, h⟩⟩ := choose_suits W s0 keys
  · rw [hc]
    refine (run_builtin W s0 kt c s v w (h v hv) (h w hw) ?_ ?_).trans (by rw [e]; rfl)
    · obtain ⟨i, p, rfl, _⟩ := hk v hv
      obtain ⟨j, q, rfl, _⟩ := hk w hw
      rfl
    · obtain ⟨i, p, rfl, _⟩ := hk v hv
      obtain ⟨j, q, rfl, _⟩ := hk w hw
      intro fn s' hf
      cases hf
      simp [slotCall]
  · obtain ⟨i, p, rfl, _⟩ := hk v hv
    obtain ⟨_, _, _, hx, _⟩ := h _ hv
    cases hx

theorem chosen_str (W : World σ) (s0 : σ) (keys : List Obj) (hk : ∀ k ∈ keys, IsStr k) (v w : Obj) (hv : v ∈ keys)
    (hw : w ∈ keys) (s : σ) : (choose W s0 keys).run W s v w = (.ans (decide (charsOf v < charsOf w)), s) := by
  have e := less_str W s (hk v hv) (hk w hw)
  rw [strLess_eq] at e
  obtain ⟨kt, ⟨c, hc, h⟩ | ⟨c, hc, h⟩⟩ := choose_suits W s0 keys
  · rw [hc]
    refine (run_builtin W s0 kt c s v w (h v hv) (h w hw) ?_ ?_).trans (by rw [e]; rfl)
    · obtain ⟨i, p, rfl⟩ := hk v hv
      obtain ⟨j, q, rfl⟩ := hk w hw
      rfl
    · obtain ⟨i, p, rfl⟩ := hk v hv
      obtain ⟨j, q, rfl⟩ := hk w hw
      intro fn s' hf
      cases hf
      simp [slotCall]
  · obtain ⟨i, p, rfl⟩ := hk v hv
    obtain ⟨_, _, _, hx, _⟩ := h _ hv
    cases hx

theorem chosen_float (W : World σ) (s0 : σ) (keys : List Obj) (hk : ∀ k ∈ keys, IsNumber k) (v w : Obj) (hv : v ∈ keys)
    (hw : w ∈ keys) (s : σ) : (choose W s0 keys).run W s v w = (.ans (decide (placeOf v < placeOf w)), s) := by
  have e := less_float W s (hk v hv) (hk w hw)
  obtain ⟨kt, ⟨c, hc, h⟩ | ⟨c, hc, h⟩⟩ := choose_suits W s0 keys
  · rw [hc]
    refine (run_builtin W s0 kt c s v w (h v hv) (h w hw) ?_ ?_).trans (by rw [e]; rfl)
    · obtain ⟨i, p, rfl, _⟩ := hk v hv
      obtain ⟨j, q, rfl, _⟩ := hk w hw
      rfl
    · obtain ⟨i, p, rfl, _⟩ := hk v hv
      obtain ⟨j, q, rfl, _⟩ := hk w hw
      intro fn s' hf
      cases hf
      simp [slotCall]
  · obtain ⟨i, p, rfl, _⟩ := hk v hv
    obtain ⟨_, _, _, hx, _⟩ := h _ hv
    cases hx

theorem chosen_row (W : World σ) (s0 : σ) (keys : List Obj) (hk : ∀ k ∈ keys, IsRow k) (ho : OneHeap keys) (v w : Obj)
    (hv : v ∈ keys) (hw : w ∈ keys) (s : σ) :
    (choose W s0 keys).run W s v w = (.ans (decide (rowOf v < rowOf w)), s) := by
  have e := less_row W s (hk v hv) (hk w hw) (ho v hv w hw)
  obtain ⟨kt, ⟨c, hc, h⟩ | ⟨c, hc, h⟩⟩ := choose_suits W s0 keys
  · rw [hc]
    refine (run_builtin W s0 kt c s v w (h v hv) (h w hw) ?_ ?_).trans (by rw [e]; rfl)
    · obtain ⟨i, p, rfl, _⟩ := hk v hv
      obtain ⟨j, q, rfl, _⟩ := hk w hw
      rfl
    · obtain ⟨i, p, rfl, _⟩ := hk v hv
      obtain ⟨j, q, rfl, _⟩ := hk w hw
      intro fn s' hf
      cases hf
      simp only [slotCall]
      split <;> simp
  · rw [hc]
    obtain ⟨i, x, xs, rfl, hx⟩ := h v hv
    obtain ⟨j, y, ys, rfl, hy⟩ := h w hw
    refine (tuple_agrees W c s i j x y xs ys fun s' => ?_).trans (by rw [e]; rfl)
    have ix : IsInt x := by
      obtain ⟨_, _, hh, _, hi⟩ := hk _ hv
      cases hh
      exact hi x List.mem_cons_self
    have iy : IsInt y := by
      obtain ⟨_, _, hh, _, hi⟩ := hk _ hw
      cases hh
      exact hi y List.mem_cons_self
    refine run_builtin W s0 kt c s' x y hx hy ?_ ?_
    · obtain ⟨_, _, rfl, _⟩ := ix
      obtain ⟨_, _, rfl, _⟩ := iy
      rfl
    · obtain ⟨_, _, rfl, _⟩ := ix
      obtain ⟨_, _, rfl, _⟩ := iy
      intro fn s'' hf
      cases hf
      simp [slotCall]

/-! ## The orders -/

theorem weak_by_int (f : ε → Int) : StrictWeak (fun x y => decide (f x < f y)) :=
  ⟨by simp, by simp only [decide_eq_true_eq]; omega, by simp only [decide_eq_false_iff_not]; omega⟩

theorem weak_by_chars (f : ε → List Nat) : StrictWeak (fun x y => decide (f x < f y)) :=
  ⟨by simp, by simp only [decide_eq_true_eq]; exact fun x y z => List.lt_trans,
    by simp only [decide_eq_false_iff_not]; exact fun x y z h h' => List.not_lt.2 (List.le_trans (List.not_lt.1 h') (List.not_lt.1 h))⟩

theorem weak_by_row (f : ε → List Int) : StrictWeak (fun x y => decide (f x < f y)) :=
  ⟨by simp, by simp only [decide_eq_true_eq]; exact fun x y z => List.lt_trans,
    by simp only [decide_eq_false_iff_not]; exact fun x y z h h' => List.not_lt.2 (List.le_trans (List.not_lt.1 h') (List.not_lt.1 h))⟩

/-! ## The two methods -/

/-- Without a key function. -/
theorem sortList_spec (W : World σ) (malloc : σ → Nat → Bool × σ) (s : σ) (l : List Obj) (rev : Bool)
    (hmax : l.length < 2 ^ 60) (hm : ∀ t n, (malloc t n).1 = true) (lt : Obj → Obj → Bool) (sw : StrictWeak lt)
    (ans : ∀ t, ∀ x ∈ l, ∀ y ∈ l, ((choose W s l).run W t x y).1 = .ans (lt x y)) :
    ∃ out s', sortList W malloc s l rev = .ok (.ok out (), s') ∧ StableSort (dir lt rev) l out := by
  obtain ⟨ok, out, s', err, e, p, hr, hk⟩ := sortFrom_spec W malloc false (fun x => x) s l rev hmax
  rw [List.map_id'] at hr hk
  cases ok with
  | false =>
    obtain ⟨x, _, ⟨t, a, ha, b, hb, h⟩ | ⟨_, t, n, h⟩⟩ := hr rfl
    · have := ans t a ha b hb
      rw [h] at this
      cases this
    · have := hm t n
      rw [h] at this
      cases this
  | true =>
    obtain ⟨rfl, h⟩ := hk rfl
    refine ⟨out, s', ?_, h lt sw ans⟩
    unfold sortList
    rw [e]
    rfl

/-- With a key function. -/
theorem sortByKey_spec (W : World σ) (malloc : σ → Nat → Bool × σ) (key : σ → ν → Except Exc Obj × σ) (kf : ν → Obj) (s : σ)
    (l : List ν) (rev : Bool) (hmax : l.length < 2 ^ 60) (hm : ∀ t n, (malloc t n).1 = true)
    (hkey : ∀ t x, (key t x).1 = .ok (kf x)) (lt : Obj → Obj → Bool) (sw : StrictWeak lt)
    (ans : ∀ s' t, ∀ x ∈ l.map kf, ∀ y ∈ l.map kf, ((choose W s' (l.map kf)).run W t x y).1 = .ans (lt x y)) :
    ∃ out s', sortByKey W malloc key s l rev = .ok (.ok out (), s') ∧
      StableSort (dir (fun x y => lt (kf x) (kf y)) rev) l out := by
  unfold sortByKey
  have hg : ∃ s1, (if l.length < 256 / 2 then (true, s) else malloc s l.length) = (true, s1) := by
    split
    · exact ⟨s, rfl⟩
    · exact ⟨_, Prod.ext (hm s l.length) rfl⟩
  obtain ⟨s1, hg⟩ := hg
  rw [hg]
  simp only [Bool.not_true, Bool.false_eq_true, if_false]
  have hks := keysOf_pure { key := key, lt := W.less, malloc := malloc : Caller σ Obj ν } kf hkey l s1
  rcases hq : keysOf { key := key, lt := W.less, malloc := malloc : Caller σ Obj ν } s1 l with ⟨r, s2⟩
  rw [hq] at hks
  simp only at hks
  subst hks
  simp only
  have hz : ((l.map kf).zip l).map (fun x => x.1) = l.map kf := by
    rw [List.map_fst_zip]
    simp
  obtain ⟨ok, out, s', err, e, p, hr, hk⟩ := sortFrom_spec W malloc true (fun x : Obj × ν => x.1) s2 ((l.map kf).zip l) rev
    (by simpa using hmax)
  rw [hz] at hr hk
  have mem : ∀ x ∈ (l.map kf).zip l, x.1 ∈ l.map kf := fun x hx => (List.of_mem_zip hx).1
  cases ok with
  | false =>
    obtain ⟨x, _, ⟨t, a, ha, b, hb, h⟩ | ⟨_, t, n, h⟩⟩ := hr rfl
    · have := ans s2 t a.1 (mem a ha) b.1 (mem b hb)
      rw [h] at this
      cases this
    · have := hm t n
      rw [h] at this
      cases this
  | true =>
    obtain ⟨rfl, h⟩ := hk rfl
    refine ⟨out.map (·.2), s', ?_, ?_⟩
    · show (sortFrom W malloc true _ s2 ((l.map kf).zip l) rev >>= _) = _
      rw [e]
      rfl
    · have := h (fun x y => lt x.1 y.1) ⟨fun x => sw.irrefl _, fun x y z => sw.trans _ _ _, fun x y z => sw.negTrans _ _ _⟩
        (fun t x hx y hy => ans s2 t x.1 (mem x hx) y.1 (mem y hy))
      have d1 : dir (fun x y : Obj × ν => lt x.1 y.1) rev = fun x y => dir lt rev x.1 y.1 := by cases rev <;> rfl
      have d2 : dir (fun x y => lt (kf x) (kf y)) rev = fun x y => dir lt rev (kf x) (kf y) := by cases rev <;> rfl
      rw [d1] at this
      rw [d2]
      exact stable_values (dir lt rev) kf l out this

end Verif.KeyCompare
