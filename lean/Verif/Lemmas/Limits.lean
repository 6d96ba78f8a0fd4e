import Verif.Spec.Limits
import Verif.Lemmas.IntArrayList

/-!
# Vectors with a capacity

What the room-making functions do, and that the limited calls are the unlimited ones when room is made.
-/

namespace Verif.Limits

open Verif.Spec (visible Bounded GrantsUpTo roomFor sourceLength)

/-- `max_size` in figures. -/
theorem maxSize_eq (K : Kind) : maxSize K = Spec.maxElems K := by cases K <;> rfl

theorem size_pos (K : Kind) : 0 < K.size := by cases K <;> decide

/-- Elements of at most `PTRDIFF_MAX` bytes fit. -/
theorem le_maxSize {K : Kind} {n b : Nat} (h : n * K.size ≤ b) (hb : b ≤ 2 ^ 63 - 1) : n ≤ maxSize K :=
  (Nat.le_div_iff_mul_le (size_pos K)).2 (Nat.le_trans h hb)

/-! ### Making room keeps the elements -/

theorem getBlock_l (K : Kind) (m : Machine) (s : St) (n : Nat) : (getBlock K m s n).1.l = s.l := by
  unfold getBlock; split <;> rfl

theorem makeRoom_l (K : Kind) (m : Machine) (s : St) (n : Nat) : (makeRoom K m s n).1.l = s.l := by
  unfold makeRoom
  split
  · rfl
  · split
    · rfl
    · exact getBlock_l ..

theorem reserve_l (K : Kind) (m : Machine) (s : St) (n : Nat) : (reserve K m s n).1.l = s.l := by
  unfold reserve
  split
  · rfl
  · split
    · rfl
    · exact getBlock_l ..

theorem vresize_fail {K : Kind} {m : Machine} {s s' : St} {n : Nat} {x : Thrown} (h : vresize K m s n = (s', some x)) :
    s'.l = s.l := by
  unfold vresize at h
  split at h
  · simp at h
  · have hm := makeRoom_l K m s (n - s.l.length)
    split at h
    · next s1 x1 e1 => rw [e1] at hm; simp only [Prod.mk.injEq] at h; rw [← h.1]; exact hm
    · simp at h

theorem vresize_done {K : Kind} {m : Machine} {s s' : St} {n : Nat} (h : vresize K m s n = (s', none)) :
    s'.l = s.l.take n ++ List.replicate (n - s.l.length) 0 := by
  unfold vresize at h
  split at h
  · next hn =>
    simp only [Prod.mk.injEq, and_true] at h
    rw [← h, Nat.sub_eq_zero_of_le hn]; simp
  · next hn =>
    have hm := makeRoom_l K m s (n - s.l.length)
    split at h
    · simp at h
    · next s1 e1 =>
      rw [e1] at hm
      simp only [Prod.mk.injEq, and_true] at h
      rw [← h, List.take_of_length_le (by omega)]
      simp only at hm ⊢
      rw [hm]

/-! ### Room is made when the machine grants it -/

theorem getBlock_granted {K : Kind} {m : Machine} {b : Nat} (hg : GrantsUpTo b m) (s : St) {n : Nat} (hn : n * K.size ≤ b) :
    (getBlock K m s n).2 = none := by
  unfold getBlock; rw [if_pos (hg _ _ hn)]

theorem makeRoom_granted {K : Kind} {m : Machine} {b : Nat} (hg : GrantsUpTo b m) (hb : b ≤ 2 ^ 63 - 1) (s : St) {n : Nat}
    (hn : 2 * (s.l.length + n) * K.size ≤ b) : (makeRoom K m s n).2 = none := by
  have hmax := le_maxSize hn hb
  unfold makeRoom
  split
  · rfl
  · have e : checkLen K s.l.length n = some (min (s.l.length + max s.l.length n) (maxSize K)) :=
      if_neg (by omega)
    rw [e]
    refine getBlock_granted hg s (Nat.le_trans (Nat.mul_le_mul_right _ ?_) hn)
    omega

theorem reserve_granted {K : Kind} {m : Machine} {b : Nat} (hg : GrantsUpTo b m) (hb : b ≤ 2 ^ 63 - 1) (s : St) {n : Nat}
    (hn : n * K.size ≤ b) : (reserve K m s n).2 = none := by
  have hmax := le_maxSize hn hb
  unfold reserve
  rw [if_neg (by omega)]
  split
  · rfl
  · exact getBlock_granted hg s hn

theorem vresize_granted {K : Kind} {m : Machine} {b : Nat} (hg : GrantsUpTo b m) (hb : b ≤ 2 ^ 63 - 1) (s : St) {n : Nat}
    (hn : 2 * n * K.size ≤ b) : (vresize K m s n).2 = none := by
  unfold vresize
  split
  · rfl
  · next h =>
    have := makeRoom_granted hg hb s (n := n - s.l.length) (by rw [show s.l.length + (n - s.l.length) = n by omega]; exact hn)
    split
    · next e => rw [e] at this; simp at this
    · rfl

/-- A result of making room, taken apart. -/
theorem split_none {p : St × Option Thrown} (h : p.2 = none) : p = (p.1, none) := by
  obtain ⟨a, b⟩ := p; simp_all

/-! ### The calls that catch the exception -/

theorem append_bounded (K : Kind) (m : Machine) (s : St) (a : Arg) :
    Bounded s.l (ArrayList.append K s.l a) (append K m s a) := by
  unfold append ArrayList.append Bounded
  rcases toElem K a with ⟨v, _ | e⟩
  · have hm := makeRoom_l K m s 1
    rcases e : makeRoom K m s 1 with ⟨s', _ | x⟩
    · rw [e] at hm; simp only at hm; exact .inl (by simp [visible, hm])
    · rw [e] at hm; simp only at hm; exact .inr (by simp [visible, hm])
  · exact .inl rfl

theorem append_granted {K : Kind} {m : Machine} {s : St} {a : Arg} (h : (makeRoom K m s 1).2 = none) :
    visible (append K m s a) = ArrayList.append K s.l a := by
  unfold append ArrayList.append
  rcases toElem K a with ⟨v, _ | e⟩
  · rw [split_none h]; simp [visible, makeRoom_l]
  · rfl

theorem insert_bounded (K : Kind) (m : Machine) (s : St) (i a : Arg) :
    Bounded s.l (ArrayList.insert K s.l i a) (insert K m s i a) := by
  unfold insert ArrayList.insert Bounded
  rcases parseN i with ⟨i, _ | e⟩ <;> rcases parseElem K a with ⟨v, _ | e'⟩ <;> try exact .inl rfl
  simp only
  generalize (if i < 0 then max 0 ((s.l.length : Int) + i) else if i > (s.l.length : Int) then (s.l.length : Int) else i) = j
  split
  · have hm := makeRoom_l K m s 1
    rcases e : makeRoom K m s 1 with ⟨s', _ | x⟩
    · rw [e] at hm; simp only at hm; exact .inl (by simp [visible, hm])
    · rw [e] at hm; simp only at hm; exact .inr (by simp [visible, hm])
  · exact .inl rfl

theorem insert_granted {K : Kind} {m : Machine} {s : St} {i a : Arg} (h : (makeRoom K m s 1).2 = none) :
    visible (insert K m s i a) = ArrayList.insert K s.l i a := by
  unfold insert ArrayList.insert
  rcases parseN i with ⟨i, _ | e⟩ <;> rcases parseElem K a with ⟨v, _ | e'⟩ <;> try rfl
  simp only
  generalize (if i < 0 then max 0 ((s.l.length : Int) + i) else if i > (s.l.length : Int) then (s.l.length : Int) else i) = j
  split
  · rw [split_none h]; simp [visible, makeRoom_l]
  · rfl

theorem resize_bounded (K : Kind) (m : Machine) (s : St) (a : Arg) :
    Bounded s.l (ArrayList.resize s.l a) (resize K m s a) := by
  unfold resize ArrayList.resize Bounded
  cases a with
  | int v =>
    simp only
    split
    · exact .inl rfl
    · rcases e : vresize K m s (asSsize (.int v)).1.toNat with ⟨s', _ | x⟩
      · exact .inl (by simp [visible, vresize_done e])
      · exact .inr (by simp [visible, vresize_fail e])
  | index v => exact .inl rfl
  | other => exact .inl rfl

theorem resize_granted {K : Kind} {m : Machine} {s : St} {v : Int}
    (h : (vresize K m s (asSsize (.int v)).1.toNat).2 = none) :
    visible (resize K m s (.int v)) = ArrayList.resize s.l (.int v) := by
  unfold resize ArrayList.resize
  simp only
  split
  · rfl
  · rw [split_none h]
    simp only [visible]
    rw [vresize_done (split_none h)]

theorem copy_bounded (K : Kind) (m : Machine) (s : St) :
    Bounded s.l (.ok s.l (.newList s.l)) (copy K m s) := by
  unfold copy Bounded
  split
  · next h => exact .inl (by simp [visible, List.length_eq_zero_iff.1 h])
  · rcases getBlock K m ⟨[], 0, s.t⟩ s.l.length with ⟨d, _ | x⟩
    · exact .inl rfl
    · exact .inr rfl

theorem copy_granted {K : Kind} {m : Machine} {b : Nat} (hg : GrantsUpTo b m) {s : St} (h : s.l.length * K.size ≤ b) :
    visible (copy K m s) = .ok s.l (.newList s.l) := by
  unfold copy
  split
  · next h => simp [visible, List.length_eq_zero_iff.1 h]
  · rw [split_none (getBlock_granted hg _ h)]; rfl

/-! ### Slice assignment -/

theorem visible_inPlace (s : St) (o : Out (List Int) Ret) : visible (inPlace s o) = o := by cases o <;> rfl

/-- The inserting loop: the unlimited one, or RuntimeError somewhere on the way. -/
theorem insertLoop_or (cfg : Cfg) (K : Kind) (m : Machine) (src : Src) (start n i : Nat) (s : St) :
    visible (insertLoop cfg K m src start n i s) = ArrayList.insertLoop cfg K src start n i s.l ∨
    ∃ l, visible (insertLoop cfg K m src start n i s) = .exc l .runtimeError := by
  induction n generalizing i s with
  | zero => exact .inl rfl
  | succ n ih =>
    rw [insertLoop, ArrayList.insertLoop]
    rcases ArrayList.srcItem cfg K s.l src i with _ | ⟨v, e⟩
    · exact .inl rfl
    · simp only
      split
      · have hm := makeRoom_l K m s 1
        rcases he : makeRoom K m s 1 with ⟨s', _ | x⟩
        · rw [he] at hm
          simp only at hm ⊢
          rw [hm]
          cases e with
          | none => exact ih ..
          | some e => exact .inl rfl
        · exact .inr ⟨s'.l, rfl⟩
      · exact .inl rfl

theorem insertLoop_granted {cfg : Cfg} {K : Kind} {m : Machine} {b : Nat} (hg : GrantsUpTo b m) (hb : b ≤ 2 ^ 63 - 1)
    {src : Src} {start n i : Nat} {s : St} (h : 2 * (s.l.length + n) * K.size ≤ b) :
    visible (insertLoop cfg K m src start n i s) = ArrayList.insertLoop cfg K src start n i s.l := by
  induction n generalizing i s with
  | zero => rfl
  | succ n ih =>
    rw [insertLoop, ArrayList.insertLoop]
    rcases ArrayList.srcItem cfg K s.l src i with _ | ⟨v, e⟩
    · rfl
    · simp only
      split
      · next hle =>
        have hr : (makeRoom K m s 1).2 = none :=
          makeRoom_granted hg hb s (Nat.le_trans (Nat.mul_le_mul_right _ (by omega)) h)
        have hm := makeRoom_l K m s 1
        rw [split_none hr]
        simp only
        rw [hm]
        cases e with
        | none =>
          rw [ih (s := { (makeRoom K m s 1).1 with l := s.l.take (start + i) ++ v :: s.l.drop (start + i) })]
          have e1 : (s.l.take (start + i) ++ v :: s.l.drop (start + i)).length = s.l.length + 1 := by
            simp; omega
          show 2 * ((s.l.take (start + i) ++ v :: s.l.drop (start + i)).length + n) * K.size ≤ b
          rw [e1, show s.l.length + 1 + n = s.l.length + (n + 1) by omega]
          exact h
        | some e => rfl
      · rfl

theorem assignLoop_length {cfg : Cfg} {K : Kind} {src : Src} {start n i : Nat} {l l' : List Int} {r : Ret}
    (h : ArrayList.assignLoop cfg K src start n i l = .ok l' r) : l'.length = l.length := by
  induction n generalizing i l with
  | zero => rw [ArrayList.assignLoop] at h; cases h; rfl
  | succ n ih =>
    rw [ArrayList.assignLoop] at h
    split at h
    · cases h
    · split at h
      · split at h
        · cases h
        · have := ih h; simpa using this
      · cases h

/-- The unlimited slice assignment in its inserting branch. -/
theorem assSubscript_more {cfg : Cfg} {K : Kind} {l : List Int} {k : SliceArg} {src : Src} {start stop step a z n : Int}
    (hk : sliceUnpack k = .ok (start, stop, step)) (ha : adjustIndices l.length start stop step = (a, z, n))
    (h : ¬ (!src.isSequence) = true) (h1 : ¬ step ≠ 1) (h2 : n < ArrayList.srcSize l src) :
    ArrayList.assSubscript cfg K l (.slice k) (some (.inr src)) =
      match ArrayList.assignLoop cfg K src a.toNat n.toNat 0 l with
      | .ok l' _ => ArrayList.insertLoop cfg K src a.toNat (ArrayList.srcSize l src - n).toNat n.toNat l'
      | o => o := by
  unfold ArrayList.assSubscript
  simp only [hk, ha]
  rw [if_neg h, if_neg h1, if_neg (by omega), if_neg (by omega)]
  rcases ArrayList.assignLoop cfg K src a.toNat n.toNat 0 l with _ | _ | _ | _ <;> rfl

theorem setSlice_or (cfg : Cfg) (K : Kind) (m : Machine) (s : St) (k : SliceArg) (val : Arg ⊕ Src) :
    visible (setSlice cfg K m s k val) = ArrayList.assSubscript cfg K s.l (.slice k) (some val) ∨
    ∃ l, visible (setSlice cfg K m s k val) = .exc l .runtimeError := by
  unfold setSlice
  rcases hk : sliceUnpack k with e | ⟨start, stop, step⟩
  · left; unfold ArrayList.assSubscript; simp only [hk]; rfl
  · rcases ha : adjustIndices s.l.length start stop step with ⟨a, z, n⟩
    rcases val with v | src
    · left; unfold ArrayList.assSubscript; simp only [hk]; rfl
    · simp only [ha]
      split
      · next h => left; unfold ArrayList.assSubscript; simp only [hk, ha]; rw [if_pos h]; rfl
      · next h =>
        split
        · next h1 => left; unfold ArrayList.assSubscript; simp only [hk, ha]; rw [if_neg h, if_pos h1]; rfl
        · next h1 =>
          split
          · next h2 =>
            rw [assSubscript_more hk ha h h1 h2]
            rcases ArrayList.assignLoop cfg K src a.toNat n.toNat 0 s.l with _ | _ | _ | _
            · exact insertLoop_or ..
            · exact .inl rfl
            · exact .inl rfl
            · exact .inl rfl
          · exact .inl (visible_inPlace ..)

theorem srcSize_le (l : List Int) (src : Src) : ArrayList.srcSize l src ≤ (sourceLength l.length src : Int) := by
  cases src <;> simp [ArrayList.srcSize, sourceLength]

theorem adjust_nonneg {len start stop a z n : Int} (h : adjustIndices len start stop 1 = (a, z, n)) : 0 ≤ n := by
  unfold adjustIndices at h
  simp only [Int.ediv_one, if_neg (by decide : ¬ (1 : Int) < 0), Prod.mk.injEq] at h
  obtain ⟨-, -, rfl⟩ := h
  split <;> omega

theorem setSlice_granted {cfg : Cfg} {K : Kind} {m : Machine} {b : Nat} (hg : GrantsUpTo b m) (hb : b ≤ 2 ^ 63 - 1)
    {s : St} {k : SliceArg} {val : Arg ⊕ Src}
    (hr : ∀ src, val = .inr src → 2 * (s.l.length + sourceLength s.l.length src) * K.size ≤ b) :
    visible (setSlice cfg K m s k val) = ArrayList.assSubscript cfg K s.l (.slice k) (some val) := by
  unfold setSlice
  rcases hk : sliceUnpack k with e | ⟨start, stop, step⟩
  · unfold ArrayList.assSubscript; simp only [hk]; rfl
  · rcases ha : adjustIndices s.l.length start stop step with ⟨a, z, n⟩
    rcases val with v | src
    · unfold ArrayList.assSubscript; simp only [hk]; rfl
    · simp only [ha]
      split
      · next h => unfold ArrayList.assSubscript; simp only [hk, ha]; rw [if_pos h]; rfl
      · next h =>
        split
        · next h1 => unfold ArrayList.assSubscript; simp only [hk, ha]; rw [if_neg h, if_pos h1]; rfl
        · next h1 =>
          split
          · next h2 =>
            rw [assSubscript_more hk ha h h1 h2]
            have hn : 0 ≤ n := by
              rw [show step = 1 by simpa using h1] at ha; exact adjust_nonneg ha
            have hs := srcSize_le s.l src
            rcases hl : ArrayList.assignLoop cfg K src a.toNat n.toNat 0 s.l with ⟨l', r⟩ | _ | _ | _
            · refine insertLoop_granted hg hb (s := { s with l := l' }) ?_
              show 2 * (l'.length + _) * K.size ≤ b
              rw [assignLoop_length hl]
              exact Nat.le_trans (Nat.mul_le_mul_right _ (by omega)) (hr src rfl)
            · rfl
            · rfl
            · rfl
          · exact visible_inPlace ..

/-! ### `extend` and `+=` -/

theorem extendLoop_granted {K : Kind} {m : Machine} {b : Nat} (hg : GrantsUpTo b m) (hb : b ≤ 2 ^ 63 - 1)
    {xs : List Arg} {s : St} (h : 2 * (s.l.length + xs.length) * K.size ≤ b) :
    visible (extendLoop K m xs s) = match ArrayList.extendLoop K xs s.l with
      | (l, none) => .ok l ()
      | (l, some e) => .exc l e := by
  induction xs generalizing s with
  | nil => rfl
  | cons a as ih =>
    rw [extendLoop, ArrayList.extendLoop]
    rcases toElem K a with ⟨v, _ | e⟩
    · simp only [List.length_cons] at h
      have hr : (makeRoom K m s 1).2 = none :=
        makeRoom_granted hg hb s (Nat.le_trans (Nat.mul_le_mul_right _ (by omega)) h)
      have hm := makeRoom_l K m s 1
      rw [split_none hr]
      simp only
      rw [hm, ih (s := { (makeRoom K m s 1).1 with l := s.l ++ [v] })]
      show 2 * ((s.l ++ [v]).length + as.length) * K.size ≤ b
      rw [List.length_append, List.length_singleton, show s.l.length + 1 + as.length = s.l.length + (as.length + 1) by omega]
      exact h
    · rfl

/-- `extend` with room: the items of a source that is not such a list. -/
theorem extendItems_granted {K : Kind} {m : Machine} {b : Nat} (hg : GrantsUpTo b m) (hb : b ≤ 2 ^ 63 - 1)
    {s : St} {xs : List Arg} {f : Option Exc} {k : Nat} {r : Ret} (h : 2 * (s.l.length + max k xs.length) * K.size ≤ b) :
    visible (match (if 0 < k then reserve K m s (s.l.length + k) else (s, none)) with
      | (_, some _) => (.ub .terminate : Out St Ret)
      | (s', none) =>
        match extendLoop K m xs s', f with
        | .ok s'' _, none => .ok s'' r
        | .ok s'' _, some e => .exc s'' e
        | .exc s'' e, _ => .exc s'' e
        | .pending s'' _ e, _ => .pending s'' r e
        | .ub u, _ => .ub u) =
      match ArrayList.extendLoop K xs s.l, f with
      | (l', some e), _ => .exc l' e
      | (l', none), none => .ok l' r
      | (l', none), some e => .exc l' e := by
  have hp : ∃ s', (if 0 < k then reserve K m s (s.l.length + k) else (s, none)) = (s', none) ∧ s'.l = s.l := by
    split
    · refine ⟨(reserve K m s (s.l.length + k)).1, split_none (reserve_granted hg hb s ?_), reserve_l ..⟩
      exact Nat.le_trans (Nat.mul_le_mul_right _ (by omega)) h
    · exact ⟨s, rfl, rfl⟩
  obtain ⟨s', e, hl⟩ := hp
  rw [e]
  simp only
  have hx := extendLoop_granted (K := K) hg hb (xs := xs) (s := s') (by
    rw [hl]; exact Nat.le_trans (Nat.mul_le_mul_right _ (by omega)) h)
  rw [hl] at hx
  rcases ho : extendLoop K m xs s' with ⟨s2, u⟩ | ⟨s2, e2⟩ | ⟨s2, u, e2⟩ | u <;>
    rcases hp : ArrayList.extendLoop K xs s.l with ⟨l', _ | e3⟩ <;> rw [ho, hp] at hx <;> simp [visible] at hx <;>
    cases f <;> simp [visible, hx]

theorem extendWith_granted {K : Kind} {m : Machine} {b : Nat} (hg : GrantsUpTo b m) (hb : b ≤ 2 ^ 63 - 1)
    {s : St} {src : Src} {hint : Nat} {r : Ret}
    (h : 2 * (s.l.length + max hint (sourceLength s.l.length src)) * K.size ≤ b) :
    visible (extendWith K m s src hint r) = ArrayList.extendWith K s.l src r := by
  cases src with
  | same v =>
    have hr : (makeRoom K m s v.length).2 = none :=
      makeRoom_granted hg hb s (Nat.le_trans (Nat.mul_le_mul_right _ (by simp only [sourceLength]; omega)) h)
    unfold extendWith ArrayList.extendWith
    simp only
    rw [split_none hr]
    simp [visible, makeRoom_l]
  | self => rfl
  | notIterable => rfl
  | list xs =>
    refine (extendItems_granted (xs := xs) (k := xs.length) (f := none) hg hb
      (Nat.le_trans (Nat.mul_le_mul_right _ (by simp only [sourceLength]; omega)) h)).trans ?_
    unfold ArrayList.extendWith; simp only; rcases ArrayList.extendLoop K xs s.l with ⟨l', _ | e⟩ <;> rfl
  | tuple xs =>
    refine (extendItems_granted (xs := xs) (k := xs.length) (f := none) hg hb
      (Nat.le_trans (Nat.mul_le_mul_right _ (by simp only [sourceLength]; omega)) h)).trans ?_
    unfold ArrayList.extendWith; simp only; rcases ArrayList.extendLoop K xs s.l with ⟨l', _ | e⟩ <;> rfl
  | seq xs =>
    refine (extendItems_granted (xs := xs) (k := xs.length) (f := none) hg hb
      (Nat.le_trans (Nat.mul_le_mul_right _ (by simp only [sourceLength]; omega)) h)).trans ?_
    unfold ArrayList.extendWith; simp only; rcases ArrayList.extendLoop K xs s.l with ⟨l', _ | e⟩ <;> rfl
  | seqNoLen xs =>
    refine (extendItems_granted (xs := xs) (k := 0) (f := none) hg hb
      (Nat.le_trans (Nat.mul_le_mul_right _ (by simp only [sourceLength]; omega)) h)).trans ?_
    unfold ArrayList.extendWith; simp only; rcases ArrayList.extendLoop K xs s.l with ⟨l', _ | e⟩ <;> rfl
  | iter xs f =>
    refine (extendItems_granted (xs := xs) (k := hint) (f := f) hg hb
      (Nat.le_trans (Nat.mul_le_mul_right _ (by simp only [sourceLength]; omega)) h)).trans ?_
    unfold ArrayList.extendWith; simp only
    rcases ArrayList.extendLoop K xs s.l with ⟨l', _ | e⟩ <;> cases f <;> rfl

/-- An announced length that no vector can have ends the process. -/
theorem extendWith_hint (K : Kind) (m : Machine) (s : St) (xs : List Arg) (f : Option Exc) (hint : Nat) (r : Ret)
    (h0 : 0 < hint) (h : maxSize K < s.l.length + hint) : extendWith K m s (.iter xs f) hint r = .ub .terminate := by
  show (match (if 0 < hint then reserve K m s (s.l.length + hint) else (s, none)) with
      | (_, some _) => (.ub .terminate : Out St Ret)
      | (s', none) => _) = _
  rw [if_pos h0]
  unfold reserve
  rw [if_pos h]

/-- A refused request in `extend` ends the process. -/
theorem extendWith_refused (K : Kind) (m : Machine) (s : St) (v : List Int) (hint : Nat) (r : Ret)
    (h : (makeRoom K m s v.length).2 ≠ none) : extendWith K m s (.same v) hint r = .ub .terminate := by
  unfold extendWith
  rcases e : makeRoom K m s v.length with ⟨s', _ | x⟩
  · rw [e] at h; exact absurd rfl h
  · simp only [e]

/-! ### `*` and `*=` -/

theorem mulLoop_short {cfg : Cfg} {K : Kind} {l d r : List Int} {k i : Nat} (h0 : 0 < l.length)
    (hk : 0 < k) (hok : ArrayList.mulLoop cfg K l k i d = .ok r) : l.length * (i + k) ≤ d.length := by
  induction k generalizing i d with
  | zero => omega
  | succ k ih =>
    rw [ArrayList.mulLoop] at hok
    split at hok
    · cases hok
    · next d' hc =>
      have hb := (simdMemCpy_inside hc).resolve_left (by omega)
      have hl := simdMemCpy_length (ArrayList.kind_size_dvd K) (Nat.le_refl _) (by simp) hc h0
      cases k with
      | zero => rw [Nat.mul_add, Nat.mul_one]; omega
      | succ k =>
        have := ih (i := i + 1) (by omega) hok
        rw [show i + 1 + (k + 1) = i + (k + 1 + 1) by omega] at this
        omega

theorem nat_of (n : Int) : (if n < 0 then 0 else n) = (n.toNat : Int) := by split <;> omega

theorem mul_granted {cfg : Cfg} {K : Kind} {m : Machine} {b : Nat} (hg : GrantsUpTo b m) (hb : b ≤ 2 ^ 63 - 1)
    {s : St} {n : Int} (h : 2 * (s.l.length * n.toNat) * K.size ≤ b) :
    visible (mul cfg K m s n) = ArrayList.mul cfg K s.l n := by
  unfold mul ArrayList.mul
  simp only [nat_of]
  split
  · rfl
  · have hlt : s.l.length * n.toNat < 2 ^ 64 := by
      have h1 : 2 * (s.l.length * n.toNat) * 1 ≤ 2 * (s.l.length * n.toNat) * K.size := Nat.mul_le_mul_left _ (size_pos K)
      generalize s.l.length * n.toNat = q at h1 h ⊢
      omega
    rw [Int.toNat_natCast, Nat.mod_eq_of_lt hlt]
    have hv := split_none (vresize_granted (K := K) hg hb ⟨[], 0, s.t⟩ (n := s.l.length * n.toNat) h)
    have hd := vresize_done hv
    rw [hv]
    simp only
    rw [hd]
    simp only [List.take_nil, List.nil_append, List.length_nil, Nat.sub_zero]
    rcases ArrayList.mulLoop cfg K s.l n.toNat 0 (List.replicate (s.l.length * n.toNat) 0) with u | r <;> rfl

/-- A product of more elements than a vector can have is never delivered, and never refused either. -/
theorem mul_beyond (cfg : Cfg) (K : Kind) (m : Machine) (s : St) (n : Int) (hn : 0 < n)
    (h : maxSize K < s.l.length * n.toNat) :
    ∃ u, mul cfg K m s n = .ub u ∧ (maxSize K < s.l.length * n.toNat % 2 ^ 64 → u = .noGil) := by
  unfold mul
  simp only [nat_of]
  rw [if_neg (by omega), Int.toNat_natCast]
  have hl : 0 < s.l.length := by
    rcases Nat.eq_zero_or_pos s.l.length with h0 | h0
    · rw [h0, Nat.zero_mul] at h; omega
    · exact h0
  rcases e : vresize K m ⟨[], 0, s.t⟩ (s.l.length * n.toNat % 2 ^ 64) with ⟨d, _ | x⟩
  · have hd := vresize_done e
    simp only
    have hnw : ¬ maxSize K < s.l.length * n.toNat % 2 ^ 64 := by
      intro hw
      unfold vresize makeRoom at e
      rw [if_neg (by simp only [List.length_nil]; omega)] at e
      simp only [List.length_nil, Nat.sub_zero] at e
      rw [if_neg (by omega)] at e
      have e2 : checkLen K 0 (s.l.length * n.toNat % 2 ^ 64) = none := if_pos (by omega)
      rw [e2] at e
      simp at e
    rcases hr : ArrayList.mulLoop cfg K s.l n.toNat 0 d.l with u | r
    · exact ⟨u, rfl, fun hw => absurd hw hnw⟩
    · exfalso
      have := mulLoop_short hl (by omega) hr
      rw [hd] at this
      simp only [List.take_nil, List.nil_append, List.length_nil, Nat.sub_zero, List.length_replicate, Nat.zero_add] at this
      have hm : maxSize K < 2 ^ 64 := by cases K <;> decide
      have hq := Nat.mod_lt (s.l.length * n.toNat) (show 0 < 2 ^ 64 by decide)
      omega
  · exact ⟨_, rfl, fun _ => rfl⟩

/-- A refused block for the product: the handler runs without the lock. -/
theorem mul_refused (cfg : Cfg) (K : Kind) (m : Machine) (s : St) (n : Int) (hn : 0 < n)
    (h : (vresize K m ⟨[], 0, s.t⟩ (s.l.length * n.toNat % 2 ^ 64)).2 ≠ none) : mul cfg K m s n = .ub .noGil := by
  unfold mul
  simp only [nat_of]
  rw [if_neg (by omega), Int.toNat_natCast]
  rcases e : vresize K m ⟨[], 0, s.t⟩ (s.l.length * n.toNat % 2 ^ 64) with ⟨d, _ | x⟩
  · rw [e] at h; exact absurd rfl h
  · rfl

theorem imul_granted {cfg : Cfg} {K : Kind} {m : Machine} {b : Nat} (hg : GrantsUpTo b m) (hb : b ≤ 2 ^ 63 - 1)
    {s : St} {n : Int} (h : 2 * (s.l.length * n.toNat) * K.size ≤ b) :
    visible (imul cfg K m s n) = ArrayList.imul cfg K s.l n := by
  unfold imul ArrayList.imul
  simp only [nat_of]
  split
  · rfl
  · next h0 =>
    have hlt : s.l.length * n.toNat < 2 ^ 64 := by
      have h1 : 2 * (s.l.length * n.toNat) * 1 ≤ 2 * (s.l.length * n.toNat) * K.size := Nat.mul_le_mul_left _ (size_pos K)
      generalize s.l.length * n.toNat = q at h1 h ⊢
      omega
    rw [Int.toNat_natCast, Nat.mod_eq_of_lt hlt]
    have hv := split_none (vresize_granted (K := K) hg hb s (n := s.l.length * n.toNat) h)
    have hd := vresize_done hv
    have hle : s.l.length ≤ s.l.length * n.toNat := Nat.le_mul_of_pos_right _ (by omega)
    rw [hv]
    simp only
    rw [hd, List.take_of_length_le hle]
    rcases ArrayList.imulLoop cfg K s.l.length (n.toNat - 1) 1 (s.l ++ List.replicate (s.l.length * n.toNat - s.l.length) 0)
      with u | r <;> rfl

theorem rmul_granted {cfg : Cfg} {K : Kind} {m : Machine} {b : Nat} (hg : GrantsUpTo b m) (hb : b ≤ 2 ^ 63 - 1)
    {s : St} {a : Arg} {v : Int} (ha : a = .int v ∨ a = .index v) (h : 2 * (s.l.length * v.toNat) * K.size ≤ b) :
    visible (rmul cfg K m s a) = ArrayList.rmul cfg K s.l a := by
  unfold rmul ArrayList.rmul
  have e : asLong a = (v, none) ∨ ∃ x e, asLong a = (x, some e) := by
    rcases ha with rfl | rfl <;>
    · simp only [asLong]
      split
      · exact .inl rfl
      · exact .inr ⟨_, _, rfl⟩
  rcases e with e | ⟨x, e, h2⟩
  · rw [e]; exact mul_granted hg hb h
  · rw [h2]; rfl

/-! ### The storage -/

/-- The elements are within the storage, and the storage within the address space. -/
def Sound (K : Kind) (s : St) : Prop := s.l.length ≤ s.cap ∧ s.cap ≤ maxSize K

theorem getBlock_sound {K : Kind} {m : Machine} {s s' : St} {n : Nat} {x : Option Thrown} (hs : Sound K s)
    (hn : s.l.length ≤ n) (hm : n ≤ maxSize K) (e : getBlock K m s n = (s', x)) : Sound K s' ∧ (x = none → s'.cap = n) := by
  unfold getBlock at e
  split at e <;> (obtain ⟨rfl, rfl⟩ := Prod.mk.inj e)
  · exact ⟨⟨hn, hm⟩, fun _ => rfl⟩
  · exact ⟨hs, fun h => nomatch h⟩

theorem makeRoom_sound {K : Kind} {m : Machine} {s s' : St} {n : Nat} {x : Option Thrown} (hs : Sound K s)
    (e : makeRoom K m s n = (s', x)) : Sound K s' ∧ (x = none → s'.l.length + n ≤ s'.cap) := by
  have hl := makeRoom_l K m s n
  rw [e] at hl
  simp only at hl
  unfold makeRoom at e
  split at e
  · next h => obtain ⟨rfl, rfl⟩ := Prod.mk.inj e; exact ⟨hs, fun _ => by have := hs.1; omega⟩
  · next h =>
    have h1 := hs.1
    have h2 := hs.2
    rcases hc : checkLen K s.l.length n with _ | len
    · rw [hc] at e; obtain ⟨rfl, rfl⟩ := Prod.mk.inj e; exact ⟨hs, fun h => nomatch h⟩
    · rw [hc] at e
      unfold checkLen at hc
      split at hc
      · cases hc
      · next h3 =>
        have hc := Option.some.inj hc
        have := getBlock_sound hs (by omega) (by omega) e
        exact ⟨this.1, fun hx => by rw [this.2 hx, hl]; omega⟩

theorem reserve_sound {K : Kind} {m : Machine} {s s' : St} {n : Nat} {x : Option Thrown} (hs : Sound K s)
    (e : reserve K m s n = (s', x)) : Sound K s' := by
  unfold reserve at e
  split at e
  · obtain ⟨rfl, rfl⟩ := Prod.mk.inj e; exact hs
  · split at e
    · obtain ⟨rfl, rfl⟩ := Prod.mk.inj e; exact hs
    · have := hs.1
      exact (getBlock_sound hs (by omega) (by omega) e).1

theorem vresize_sound {K : Kind} {m : Machine} {s s' : St} {n : Nat} {x : Option Thrown} (hs : Sound K s)
    (e : vresize K m s n = (s', x)) : Sound K s' := by
  unfold vresize at e
  split at e
  · obtain ⟨rfl, rfl⟩ := Prod.mk.inj e
    exact ⟨by have := hs.1; simp only [List.length_take]; omega, hs.2⟩
  · rcases hm : makeRoom K m s (n - s.l.length) with ⟨s1, _ | y⟩
    · rw [hm] at e
      obtain ⟨rfl, rfl⟩ := Prod.mk.inj e
      obtain ⟨h1, h2⟩ := makeRoom_sound hs hm
      exact ⟨by simpa using h2 rfl, h1.2⟩
    · rw [hm] at e
      obtain ⟨rfl, rfl⟩ := Prod.mk.inj e
      exact (makeRoom_sound hs hm).1

/-- The state after a call is sound. -/
def After (K : Kind) (o : Out St α) : Prop := ∀ s, o.state? = some s → Sound K s

theorem after_ub (K : Kind) (u : UB) : After K (.ub u : Out St α) := fun _ h => nomatch h

theorem after_ok {K : Kind} {s : St} {a : α} (h : Sound K s) : After K (.ok s a) := by
  intro _ e; obtain rfl := Option.some.inj e; exact h

theorem after_exc {K : Kind} {s : St} {e : Exc} (h : Sound K s) : After K (.exc s e : Out St α) := by
  intro _ e; obtain rfl := Option.some.inj e; exact h

theorem after_pending {K : Kind} {s : St} {a : α} {e : Exc} (h : Sound K s) : After K (.pending s a e) := by
  intro _ e; obtain rfl := Option.some.inj e; exact h

theorem push_sound {K : Kind} {m : Machine} {s s' : St} {v : Int} (hs : Sound K s) (e : makeRoom K m s 1 = (s', none)) :
    Sound K { s' with l := s'.l ++ [v] } := by
  obtain ⟨h1, h2⟩ := makeRoom_sound hs e
  exact ⟨by simpa using h2 rfl, h1.2⟩

theorem insert_sound {K : Kind} {m : Machine} {s s' : St} {v : Int} {p : Nat} (hs : Sound K s)
    (e : makeRoom K m s 1 = (s', none)) : Sound K { s' with l := s'.l.take p ++ v :: s'.l.drop p } := by
  obtain ⟨h1, h2⟩ := makeRoom_sound hs e
  refine ⟨?_, h1.2⟩
  have := h2 rfl
  simp only [List.length_append, List.length_take, List.length_cons, List.length_drop]
  omega

theorem inPlace_sound {K : Kind} {s : St} {o : Out (List Int) Ret} (hs : Sound K s)
    (h : ∀ l, o.state? = some l → l.length ≤ s.l.length) : After K (inPlace s o) := by
  have key : ∀ l, o.state? = some l → Sound K { s with l := l } := fun l hl =>
    ⟨Nat.le_trans (h l hl) hs.1, hs.2⟩
  cases o with
  | ok l r => exact after_ok (key l rfl)
  | exc l e => exact after_exc (key l rfl)
  | pending l r e => exact after_pending (key l rfl)
  | ub u => exact after_ub K u

theorem assignLoop_shrinks {cfg : Cfg} {K : Kind} {src : Src} {start n i : Nat} {l l' : List Int}
    (h : (ArrayList.assignLoop cfg K src start n i l).state? = some l') : l'.length = l.length := by
  induction n generalizing i l with
  | zero => rw [ArrayList.assignLoop] at h; cases h; rfl
  | succ n ih =>
    rw [ArrayList.assignLoop] at h
    split at h
    · cases h; rfl
    · split at h
      · split at h
        · cases h; simp
        · have := ih h; simpa using this
      · cases h

theorem setItem_shrinks {K : Kind} {l l' : List Int} {i : Int} {a : Option Arg}
    (h : (ArrayList.setItem K l i a).state? = some l') : l'.length ≤ l.length := by
  unfold ArrayList.setItem at h
  simp only at h
  repeat' split at h
  all_goals (cases h; try simp)
  all_goals first | omega | exact List.length_eraseIdx_le ..

theorem asSlice_shrinks {cfg : Cfg} {K : Kind} {l l' : List Int} {k : SliceArg} {src : Src}
    {start stop step a z n : Int}
    (hk : sliceUnpack k = .ok (start, stop, step)) (ha : adjustIndices l.length start stop step = (a, z, n))
    (h1 : ¬ n < ArrayList.srcSize l src)
    (h : (ArrayList.assSubscript cfg K l (.slice k) (some (.inr src))).state? = some l') : l'.length ≤ l.length := by
  unfold ArrayList.assSubscript at h
  simp only [hk, ha] at h
  split at h
  · cases h; omega
  · split at h
    · cases h; omega
    · split at h
      · exact Nat.le_of_eq (assignLoop_shrinks h)
      · split at h
        · rcases hl : ArrayList.assignLoop cfg K src a.toNat (ArrayList.srcSize l src).toNat 0 l with
            ⟨l1, r⟩ | ⟨l1, e⟩ | ⟨l1, r, e⟩ | u
          · have e1 := assignLoop_length hl
            rw [hl] at h
            simp only at h
            split at h
            · next hb =>
              have : (l1.take (a + ArrayList.srcSize l src).toNat ++ l1.drop z.toNat).length ≤ l.length := by
                simp only [List.length_append, List.length_take, List.length_drop]; omega
              split at h <;> (cases h; exact this)
            · cases h
          · have := assignLoop_shrinks (l' := l1) (by rw [hl]; rfl)
            rw [hl] at h; cases h; omega
          · have := assignLoop_shrinks (l' := l1) (by rw [hl]; rfl)
            rw [hl] at h; cases h; omega
          · rw [hl] at h; cases h
        · omega

theorem insertLoop_sound {cfg : Cfg} {K : Kind} {m : Machine} {src : Src} {start n i : Nat} {s : St} (hs : Sound K s) :
    After K (insertLoop cfg K m src start n i s) := by
  induction n generalizing i s with
  | zero => exact after_ok hs
  | succ n ih =>
    rw [insertLoop]
    rcases ArrayList.srcItem cfg K s.l src i with _ | ⟨v, e⟩
    · exact after_exc hs
    · simp only
      split
      · rcases he : makeRoom K m s 1 with ⟨s', _ | x⟩
        · cases e with
          | none => exact ih (insert_sound hs he)
          | some e => exact after_exc (insert_sound hs he)
        · exact after_exc (makeRoom_sound hs he).1
      · exact after_ub _ _

theorem setSlice_sound {cfg : Cfg} {K : Kind} {m : Machine} {s : St} {k : SliceArg} {val : Arg ⊕ Src} (hs : Sound K s) :
    After K (setSlice cfg K m s k val) := by
  unfold setSlice
  rcases hk : sliceUnpack k with e | ⟨start, stop, step⟩
  · exact after_exc hs
  · rcases ha : adjustIndices s.l.length start stop step with ⟨a, z, n⟩
    rcases val with v | src
    · exact after_exc hs
    · simp only [ha]
      split
      · exact after_exc hs
      · split
        · exact after_exc hs
        · split
          · rcases hl : ArrayList.assignLoop cfg K src a.toNat n.toNat 0 s.l with ⟨l1, r⟩ | ⟨l1, e⟩ | ⟨l1, r, e⟩ | u
            · have := assignLoop_length hl
              exact insertLoop_sound ⟨by show l1.length ≤ s.cap; have := hs.1; omega, hs.2⟩
            · have := assignLoop_shrinks (l' := l1) (by rw [hl]; rfl)
              exact after_exc ⟨by show l1.length ≤ s.cap; have := hs.1; omega, hs.2⟩
            · have := assignLoop_shrinks (l' := l1) (by rw [hl]; rfl)
              exact after_pending ⟨by show l1.length ≤ s.cap; have := hs.1; omega, hs.2⟩
            · exact after_ub _ _
          · next h => exact inPlace_sound hs fun l hl => asSlice_shrinks hk ha h hl

theorem extendLoop_sound {K : Kind} {m : Machine} {xs : List Arg} {s : St} (hs : Sound K s) :
    After K (extendLoop K m xs s) := by
  induction xs generalizing s with
  | nil => exact after_ok hs
  | cons a as ih =>
    rw [extendLoop]
    rcases toElem K a with ⟨v, _ | e⟩
    · simp only
      rcases he : makeRoom K m s 1 with ⟨s', _ | x⟩
      · exact ih (push_sound hs he)
      · exact after_ub _ _
    · exact after_exc hs

theorem extendItems_sound {K : Kind} {m : Machine} {s : St} {xs : List Arg} {f : Option Exc} {k : Nat} {r : Ret}
    (hs : Sound K s) :
    After K (match (if 0 < k then reserve K m s (s.l.length + k) else (s, none)) with
      | (_, some _) => (.ub .terminate : Out St Ret)
      | (s', none) =>
        match extendLoop K m xs s', f with
        | .ok s'' _, none => .ok s'' r
        | .ok s'' _, some e => .exc s'' e
        | .exc s'' e, _ => .exc s'' e
        | .pending s'' _ e, _ => .pending s'' r e
        | .ub u, _ => .ub u) := by
  rcases e : (if 0 < k then reserve K m s (s.l.length + k) else (s, none)) with ⟨s', _ | x⟩
  · have h' : Sound K s' := by
      split at e
      · exact reserve_sound hs e
      · obtain ⟨rfl, -⟩ := Prod.mk.inj e; exact hs
    simp only
    have hx := extendLoop_sound (m := m) (xs := xs) h'
    rcases ho : extendLoop K m xs s' with ⟨s2, u⟩ | ⟨s2, e2⟩ | ⟨s2, u, e2⟩ | u <;> cases f <;>
      rw [ho] at hx <;> first
        | exact after_ok (hx _ rfl) | exact after_exc (hx _ rfl) | exact after_pending (hx _ rfl) | exact after_ub _ _
  · exact after_ub _ _

theorem extendWith_sound {K : Kind} {m : Machine} {s : St} {src : Src} {hint : Nat} {r : Ret} (hs : Sound K s) :
    After K (extendWith K m s src hint r) := by
  cases src with
  | same v =>
    unfold extendWith
    simp only
    rcases he : makeRoom K m s v.length with ⟨s', _ | x⟩
    · obtain ⟨h1, h2⟩ := makeRoom_sound hs he
      exact after_ok ⟨by simpa using h2 rfl, h1.2⟩
    · exact after_ub _ _
  | self => exact after_ub _ _
  | notIterable => exact after_exc hs
  | list xs => exact extendItems_sound (xs := xs) (k := xs.length) (f := none) hs
  | tuple xs => exact extendItems_sound (xs := xs) (k := xs.length) (f := none) hs
  | seq xs => exact extendItems_sound (xs := xs) (k := xs.length) (f := none) hs
  | seqNoLen xs => exact extendItems_sound (xs := xs) (k := 0) (f := none) hs
  | iter xs f => exact extendItems_sound (xs := xs) (k := hint) (f := f) hs

theorem mul_sound {cfg : Cfg} {K : Kind} {m : Machine} {s : St} {n : Int} (hs : Sound K s) :
    After K (mul cfg K m s n) := by
  unfold mul
  simp only [nat_of]
  split
  · exact after_ok hs
  · split
    · exact after_ub _ _
    · split
      · exact after_ub _ _
      · exact after_ok hs

theorem imulLoop_length {cfg : Cfg} {K : Kind} {size k i : Nat} {v r : List Int}
    (hok : ArrayList.imulLoop cfg K size k i v = .ok r) : r.length = v.length := by
  induction k generalizing i v with
  | zero => rw [ArrayList.imulLoop] at hok; cases hok; rfl
  | succ k ih =>
    rw [ArrayList.imulLoop] at hok
    split at hok
    · cases hok
    · next v' hc =>
      rw [ih hok]
      rcases Nat.eq_zero_or_pos size with h0 | h0
      · subst h0
        simp only [Nat.zero_mul] at hc
        rw [simdMemCpy_eq cfg true (ArrayList.kind_size_dvd K) (by simp) (by simp) (by simp)] at hc
        split at hc
        · cases hc
        · cases hc; simp [writeAt]
      · have hb := (simdMemCpy_inside hc).resolve_left (by omega)
        have h1 : size ≤ v.length := by omega
        exact simdMemCpy_length (ArrayList.kind_size_dvd K) (by simp; omega) (by simp) hc h0

theorem imul_sound {cfg : Cfg} {K : Kind} {m : Machine} {s : St} {n : Int} (hs : Sound K s) :
    After K (imul cfg K m s n) := by
  unfold imul
  simp only [nat_of]
  split
  · exact after_ok ⟨Nat.zero_le _, hs.2⟩
  · rcases e : vresize K m s (s.l.length * (n.toNat : Int).toNat % 2 ^ 64) with ⟨d, _ | x⟩
    · have hd := vresize_sound hs e
      simp only
      split
      · exact after_ub _ _
      · next r hr => exact after_ok ⟨by show r.length ≤ d.cap; rw [imulLoop_length hr]; exact hd.1, hd.2⟩
    · exact after_ub _ _

theorem pop_shrinks {cfg : Cfg} {K : Kind} {l l' : List Int} {a : Option Arg}
    (h : (ArrayList.pop cfg K l a).state? = some l') : l'.length ≤ l.length := by
  unfold ArrayList.pop at h
  simp only at h
  repeat' split at h
  all_goals first | (cases h; done) | (cases h; first | omega | exact List.length_eraseIdx_le .. | (simp; done) | (simp; omega))

theorem index_shrinks {cfg : Cfg} {K : Kind} {l l' : List Int} {a : Arg} {val : Option (Arg ⊕ Src)}
    (h : (ArrayList.assSubscript cfg K l (.idx a) val).state? = some l') : l'.length ≤ l.length := by
  unfold ArrayList.assSubscript at h
  cases a with
  | other => cases h
  | int v =>
    rcases hx : asSsizeIndex (.int v) with ⟨i, _ | e⟩
    · simp only [hx] at h
      rcases val with _ | v | s <;> exact setItem_shrinks h
    · simp only [hx] at h
      cases h; omega
  | index v =>
    rcases hx : asSsizeIndex (.index v) with ⟨i, _ | e⟩
    · simp only [hx] at h
      rcases val with _ | v | s <;> exact setItem_shrinks h
    · simp only [hx] at h
      cases h; omega

theorem delSlice_shrinks {cfg : Cfg} {K : Kind} {l l' : List Int} {k : SliceArg}
    (h : (ArrayList.assSubscript cfg K l (.slice k) none).state? = some l') : l'.length ≤ l.length := by
  unfold ArrayList.assSubscript at h
  rcases hk : sliceUnpack k with e | ⟨start, stop, step⟩
  · simp only [hk] at h; cases h; omega
  · simp only [hk] at h; cases h

theorem step_shrinks {cfg : Cfg} {K : Kind} {l l' : List Int} {op : Op} (hop : Spec.NeedsNoRoom op = true)
    (h : (ArrayList.step cfg K l op).state? = some l') : l'.length ≤ l.length := by
  cases op with
  | pop i => exact pop_shrinks h
  | remove a =>
    simp only [ArrayList.step, ArrayList.remove] at h
    repeat' split at h
    all_goals first | (cases h; done) | (cases h; first | omega | exact List.length_eraseIdx_le .. | exact List.length_erase_le ..)
  | set k v =>
    cases k with
    | slice k => simp [Spec.NeedsNoRoom] at hop
    | idx a => exact index_shrinks h
  | del k =>
    cases k with
    | slice k => exact delSlice_shrinks (cfg := cfg) (K := K) h
    | idx a => exact index_shrinks (cfg := cfg) (K := K) (a := a) (val := none) h
  | reverse =>
    simp only [ArrayList.step, ArrayList.reverse] at h
    repeat' split at h
    all_goals first | (cases h; done) | (cases h; simp [ArrayList.ofBytes])
  | clear => cases h; exact Nat.zero_le _
  | index a i j =>
    simp only [ArrayList.step, ArrayList.index] at h
    repeat' split at h
    all_goals first | (cases h; done) | (cases h; omega)
  | count a =>
    simp only [ArrayList.step, ArrayList.count] at h
    repeat' split at h
    all_goals first | (cases h; done) | (cases h; omega)
  | contains a =>
    simp only [ArrayList.step, ArrayList.contains] at h
    repeat' split at h
    all_goals first | (cases h; done) | (cases h; omega)
  | get k =>
    simp only [ArrayList.step, ArrayList.subscript, ArrayList.getItem] at h
    repeat' split at h
    all_goals first | (cases h; done) | (cases h; omega)
  | add s =>
    simp only [ArrayList.step, ArrayList.add] at h
    repeat' split at h
    all_goals first | (cases h; done) | (cases h; omega)
  | cmp op s =>
    simp only [ArrayList.step, ArrayList.compare, ArrayList.boolOut] at h
    repeat' split at h
    all_goals first | (cases h; done) | (cases h; omega)
  | toList => cases h; omega
  | len => cases h; omega
  | repr => cases h; omega
  | append a => simp [Spec.NeedsNoRoom] at hop
  | extend s => simp [Spec.NeedsNoRoom] at hop
  | iadd s => simp [Spec.NeedsNoRoom] at hop
  | insert i a => simp [Spec.NeedsNoRoom] at hop
  | resize a => simp [Spec.NeedsNoRoom] at hop
  | mul n => simp [Spec.NeedsNoRoom] at hop
  | rmul a => simp [Spec.NeedsNoRoom] at hop
  | imul n => simp [Spec.NeedsNoRoom] at hop
  | copy => simp [Spec.NeedsNoRoom] at hop

/-- Every call keeps the storage sound, whatever the machine grants. -/
theorem step_sound {cfg : Cfg} {K : Kind} {m : Machine} {s : St} {op : Op} {hint : Nat} (hs : Sound K s) :
    After K (step cfg K m s op hint) := by
  by_cases hop : Spec.NeedsNoRoom op = true
  · have e : step cfg K m s op hint = inPlace s (ArrayList.step cfg K s.l op) := by
      cases op with
      | set k v => cases k with
        | slice k => simp [Spec.NeedsNoRoom] at hop
        | idx a => rfl
      | append a => simp [Spec.NeedsNoRoom] at hop
      | extend s => simp [Spec.NeedsNoRoom] at hop
      | iadd s => simp [Spec.NeedsNoRoom] at hop
      | insert i a => simp [Spec.NeedsNoRoom] at hop
      | resize a => simp [Spec.NeedsNoRoom] at hop
      | mul n => simp [Spec.NeedsNoRoom] at hop
      | rmul a => simp [Spec.NeedsNoRoom] at hop
      | imul n => simp [Spec.NeedsNoRoom] at hop
      | copy => simp [Spec.NeedsNoRoom] at hop
      | _ => rfl
    rw [e]
    exact inPlace_sound hs fun l hl => step_shrinks hop hl
  · cases op with
    | append a =>
      show After K (append K m s a)
      unfold append
      rcases toElem K a with ⟨v, _ | e⟩
      · simp only
        rcases he : makeRoom K m s 1 with ⟨s', _ | x⟩
        · exact after_ok (push_sound hs he)
        · exact after_exc (makeRoom_sound hs he).1
      · exact after_exc hs
    | extend src => exact extendWith_sound hs
    | iadd src => exact extendWith_sound hs
    | insert i a =>
      show After K (insert K m s i a)
      unfold insert
      rcases parseN i with ⟨i, _ | e⟩ <;> rcases parseElem K a with ⟨v, _ | e'⟩ <;> try exact after_exc hs
      simp only
      generalize (if i < 0 then max 0 ((s.l.length : Int) + i) else if i > (s.l.length : Int) then (s.l.length : Int) else i) = j
      split
      · rcases he : makeRoom K m s 1 with ⟨s', _ | x⟩
        · exact after_ok (insert_sound hs he)
        · exact after_exc (makeRoom_sound hs he).1
      · exact after_ub _ _
    | resize a =>
      show After K (resize K m s a)
      unfold resize
      cases a with
      | int v =>
        simp only
        split
        · exact after_exc hs
        · rcases e : vresize K m s (asSsize (.int v)).1.toNat with ⟨s', _ | x⟩
          · exact after_ok (vresize_sound hs e)
          · exact after_exc (vresize_sound hs e)
      | index v => exact after_exc hs
      | other => exact after_exc hs
    | set k v => cases k with
      | slice k => exact setSlice_sound hs
      | idx a => simp [Spec.NeedsNoRoom] at hop
    | mul n => exact mul_sound hs
    | rmul a =>
      show After K (rmul cfg K m s a)
      unfold rmul
      rcases asLong a with ⟨n, _ | e⟩
      · exact mul_sound hs
      · exact after_exc hs
    | imul n => exact imul_sound hs
    | copy =>
      show After K (copy K m s)
      unfold copy
      split
      · exact after_ok hs
      · split
        · exact after_exc hs
        · exact after_ok hs
    | _ => simp [Spec.NeedsNoRoom] at hop

/-! ### The constructor -/

theorem initLoop_or (K : Kind) (m : Machine) (xs : List Arg) (s : St) :
    ((initLoop K m xs s).1.l, (initLoop K m xs s).2) = ArrayList.initLoop K xs s.l ∨
    (initLoop K m xs s).2 = some .runtimeError := by
  induction xs generalizing s with
  | nil => exact .inl rfl
  | cons a as ih =>
    rw [initLoop, ArrayList.initLoop]
    rcases h : (toElem K a).2 with _ | e
    · simp only
      have hm := makeRoom_l K m s 1
      rcases he : makeRoom K m s 1 with ⟨s', _ | x⟩
      · rw [he] at hm
        simp only at hm ⊢
        rw [hm]
        exact ih { s' with l := s.l ++ [(toElem K a).1] }
      · exact .inr rfl
    · exact .inr rfl

theorem init_or (K : Kind) (m : Machine) (t : Nat) (src : Src) (n : Nat) :
    visible (init K m t src n) = ArrayList.init K (some (.inr src)) ∨
    ∃ l, visible (init K m t src n) = .exc l .runtimeError := by
  have hp : ∃ s x, (if 0 < n then reserve K m ⟨[], 0, t⟩ n else ((⟨[], 0, t⟩ : St), (none : Option Thrown))) = (s, x) ∧ s.l = [] := by
    split
    · exact ⟨_, _, rfl, reserve_l ..⟩
    · exact ⟨_, _, rfl, rfl⟩
  obtain ⟨s, x, e, hl⟩ := hp
  unfold init
  rw [e]
  rcases x with _ | x
  · have items : ∀ xs f, visible (match initLoop K m xs s, f with
          | (s', some e), _ => (.exc s' e : Out St Unit)
          | (s', none), none => .ok s' ()
          | (s', none), some e => .exc s' e) =
        (match ArrayList.initLoop K xs [], f with
          | (acc, some e), _ => .exc acc e
          | (acc, none), none => .ok acc ()
          | (acc, none), some e => .exc acc e) ∨
        ∃ l, visible (match initLoop K m xs s, f with
          | (s', some e), _ => (.exc s' e : Out St Unit)
          | (s', none), none => .ok s' ()
          | (s', none), some e => .exc s' e) = .exc l .runtimeError := by
      intro xs f
      rcases initLoop_or K m xs s with h | h
      · left
        rw [hl] at h
        rw [← h]
        rcases initLoop K m xs s with ⟨s', _ | e⟩ <;> cases f <;> rfl
      · right
        rcases hi : initLoop K m xs s with ⟨s', y⟩
        rw [hi] at h
        simp only at h
        subst h
        exact ⟨s'.l, rfl⟩
    simp only
    cases src with
    | same v =>
      simp only
      split
      · exact .inl rfl
      · rcases getBlock K m s v.length with ⟨s', _ | x⟩
        · exact .inl rfl
        · exact .inr ⟨s'.l, rfl⟩
    | self => exact .inl (by simp [visible, ArrayList.init, hl])
    | notIterable => exact .inl (by simp [visible, ArrayList.init, hl])
    | list xs =>
      refine (items xs none).imp (fun h => h.trans ?_) id
      simp only [ArrayList.init]; rcases ArrayList.initLoop K xs [] with ⟨acc, _ | e⟩ <;> rfl
    | tuple xs =>
      refine (items xs none).imp (fun h => h.trans ?_) id
      simp only [ArrayList.init]; rcases ArrayList.initLoop K xs [] with ⟨acc, _ | e⟩ <;> rfl
    | seq xs =>
      refine (items xs none).imp (fun h => h.trans ?_) id
      simp only [ArrayList.init]; rcases ArrayList.initLoop K xs [] with ⟨acc, _ | e⟩ <;> rfl
    | seqNoLen xs =>
      refine (items xs none).imp (fun h => h.trans ?_) id
      simp only [ArrayList.init]; rcases ArrayList.initLoop K xs [] with ⟨acc, _ | e⟩ <;> rfl
    | iter xs f =>
      refine (items xs f).imp (fun h => h.trans ?_) id
      simp only [ArrayList.init]; rcases ArrayList.initLoop K xs [] with ⟨acc, _ | e⟩ <;> cases f <;> rfl
  · exact .inr ⟨s.l, rfl⟩

theorem initLoop_sound {K : Kind} {m : Machine} {xs : List Arg} {s : St} (hs : Sound K s) : Sound K (initLoop K m xs s).1 := by
  induction xs generalizing s with
  | nil => exact hs
  | cons a as ih =>
    rw [initLoop]
    rcases (toElem K a).2 with _ | e
    · simp only
      rcases he : makeRoom K m s 1 with ⟨s', _ | x⟩
      · exact ih (push_sound hs he)
      · exact (makeRoom_sound hs he).1
    · exact hs

theorem init_sound {K : Kind} {m : Machine} {t : Nat} {src : Src} {n : Nat} {s' : St}
    (hsrc : ∀ v, src = .same v → v.length ≤ maxSize K) (h : init K m t src n = .ok s' ()) : Sound K s' := by
  have hp : ∀ s x, (if 0 < n then reserve K m ⟨[], 0, t⟩ n else ((⟨[], 0, t⟩ : St), (none : Option Thrown))) = (s, x) →
      Sound K s ∧ s.l = [] := by
    intro s x e
    have h0 : Sound K ⟨[], 0, t⟩ := ⟨Nat.le_refl _, Nat.zero_le _⟩
    split at e
    · have := reserve_l K m ⟨[], 0, t⟩ n
      rw [e] at this
      exact ⟨reserve_sound h0 e, this⟩
    · obtain ⟨rfl, -⟩ := Prod.mk.inj e; exact ⟨h0, rfl⟩
  unfold init at h
  rcases e : (if 0 < n then reserve K m ⟨[], 0, t⟩ n else ((⟨[], 0, t⟩ : St), (none : Option Thrown))) with ⟨s, _ | x⟩
  · obtain ⟨hs, hl⟩ := hp _ _ e
    rw [e] at h
    have items : ∀ xs f, (match initLoop K m xs s, f with
          | (s', some e), _ => (.exc s' e : Out St Unit)
          | (s', none), none => .ok s' ()
          | (s', none), some e => .exc s' e) = .ok s' () → Sound K s' := by
      intro xs f hx
      have hi := initLoop_sound (m := m) (xs := xs) hs
      rcases ho : initLoop K m xs s with ⟨s1, _ | e⟩ <;> rw [ho] at hx hi <;> cases f <;> cases hx
      exact hi
    simp only at h
    cases src with
    | same v =>
      simp only at h
      split at h
      · next hv => cases h; exact ⟨hv, hs.2⟩
      · rcases hb : getBlock K m s v.length with ⟨s1, _ | x⟩
        · rw [hb] at h
          have := getBlock_sound hs (by rw [hl]; exact Nat.zero_le _) (hsrc v rfl) hb
          cases h
          exact ⟨by show v.length ≤ s1.cap; rw [this.2 rfl]; omega, this.1.2⟩
        · rw [hb] at h; cases h
    | self => cases h; exact hs
    | notIterable => cases h
    | list xs => exact items xs none h
    | tuple xs => exact items xs none h
    | seq xs => exact items xs none h
    | seqNoLen xs => exact items xs none h
    | iter xs f => exact items xs f h
  · rw [e] at h; cases h

end Verif.Limits
