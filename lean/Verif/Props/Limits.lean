import Verif.Lemmas.Limits

/-!
# C53: a list that needs more memory than there is raises an exception and stays what it was

The machine is arbitrary: it may grant or refuse each request for memory. A user of an array list of ints expects what
Python's list does: the call succeeds as if memory were unlimited, or it raises and the list is unchanged.
-/

namespace Verif.Props

open Verif.Spec (visible Bounded GrantsUpTo roomFor)
open Verif.Limits (St Machine Sound)

/-- A machine that grants everything up to `b` bytes, for the examples. -/
private def upTo (b : Nat) : Machine := fun _ n => decide (n ≤ b)

private theorem upTo_grants (b : Nat) : GrantsUpTo b (upTo b) := fun _ _ h => decide_eq_true h

/-- Within what the machine grants — twice the elements the call needs room for, because a vector doubles its storage —
every call does what it does with unlimited memory. This is what connects the theorems about the unlimited model with real
machines. -/
theorem C53_enough (cfg : Cfg) (K : Kind) (m : Machine) (b : Nat) (hg : GrantsUpTo b m) (hb : b ≤ 2 ^ 63 - 1) (s : St)
    (op : Op) (hint : Nat) (h : 2 * roomFor s.l.length hint op * K.size ≤ b) :
    visible (Limits.step cfg K m s op hint) = ArrayList.step cfg K s.l op := by
  cases op with
  | append a => exact Limits.append_granted (Limits.makeRoom_granted hg hb s h)
  | insert i a => exact Limits.insert_granted (Limits.makeRoom_granted hg hb s h)
  | extend src => exact Limits.extendWith_granted hg hb h
  | iadd src => exact Limits.extendWith_granted hg hb h
  | resize a =>
    cases a with
    | int v =>
      refine Limits.resize_granted (Limits.vresize_granted hg hb s (Nat.le_trans (Nat.mul_le_mul_right _ ?_) h))
      simp only [roomFor, asSsize]
      split <;> omega
    | index v => rfl
    | other => rfl
  | set k v =>
    cases k with
    | idx a => exact Limits.visible_inPlace ..
    | slice k => exact Limits.setSlice_granted hg hb (by rintro src rfl; exact h)
  | mul n => exact Limits.mul_granted hg hb h
  | rmul a =>
    cases a with
    | int v => exact Limits.rmul_granted hg hb (.inl rfl) h
    | index v => exact Limits.rmul_granted hg hb (.inr rfl) h
    | other => rfl
  | imul n => exact Limits.imul_granted hg hb h
  | copy => exact Limits.copy_granted hg (by have : 2 * s.l.length * K.size ≤ b := h; rw [Nat.mul_assoc] at this; omega)
  | clear => rfl
  | toList => rfl
  | len => rfl
  | repr => rfl
  | _ => exact Limits.visible_inPlace ..

/-- The hypotheses are met: a machine with a million bytes, a list of three elements and six copies of it. -/
example : GrantsUpTo 1000000 (upTo 1000000) ∧ (1000000 : Nat) ≤ 2 ^ 63 - 1 ∧
    2 * roomFor ([1, 2, 3] : List Int).length 0 (.mul 6) * Kind.i64.size ≤ 1000000 :=
  ⟨upTo_grants _, by decide, by decide⟩

/-- The calls that catch the failure: for every machine, `append`, `insert`, `resize` and `copy` do what they do with
unlimited memory, or raise RuntimeError and the elements are the old ones. -/
theorem C53_refused (cfg : Cfg) (K : Kind) (m : Machine) (s : St) (hint : Nat) :
    (∀ a, Bounded s.l (ArrayList.step cfg K s.l (.append a)) (Limits.step cfg K m s (.append a) hint)) ∧
    (∀ i a, Bounded s.l (ArrayList.step cfg K s.l (.insert i a)) (Limits.step cfg K m s (.insert i a) hint)) ∧
    (∀ a, Bounded s.l (ArrayList.step cfg K s.l (.resize a)) (Limits.step cfg K m s (.resize a) hint)) ∧
    Bounded s.l (ArrayList.step cfg K s.l .copy) (Limits.step cfg K m s .copy hint) :=
  ⟨fun a => Limits.append_bounded K m s a, fun i a => Limits.insert_bounded K m s i a,
    fun a => Limits.resize_bounded K m s a, Limits.copy_bounded K m s⟩

/-- Both halves happen: with room for four elements (sixteen bytes) the fourth `append` is granted, the fifth is refused. -/
example : let cfg : Cfg := ⟨.le311, false, false, false, false⟩
    visible (Limits.step cfg .i32 (upTo 16) ⟨[1, 2, 3], 3, 0⟩ (.resize (.int 4)) 0) = .exc [1, 2, 3] .runtimeError ∧
    visible (Limits.step cfg .i32 (upTo 16) ⟨[1, 2, 3], 4, 0⟩ (.append (.int 7)) 0) = .ok [1, 2, 3, 7] .none ∧
    visible (Limits.step cfg .i32 (upTo 16) ⟨[1, 2, 3, 7], 4, 0⟩ (.append (.int 8)) 0) = .exc [1, 2, 3, 7] .runtimeError :=
  ⟨by decide, by decide, by decide⟩

/-- A size no vector can have is refused by every machine, however much memory it has. -/
theorem C53_resize_huge (cfg : Cfg) (K : Kind) (m : Machine) (s : St) (hs : Sound K s) (v : Int) (hint : Nat)
    (hv : (Spec.maxElems K : Int) < v) (h64 : v < 2 ^ 63) :
    visible (Limits.step cfg K m s (.resize (.int v)) hint) = .exc s.l .runtimeError := by
  show visible (Limits.resize K m s (.int v)) = _
  rw [← Limits.maxSize_eq] at hv
  have h1 := hs.1
  have h2 := hs.2
  have e : asSsize (.int v) = (v, none) := if_pos ⟨by omega, h64⟩
  unfold Limits.resize
  simp only [e]
  rw [if_neg (by omega)]
  have ev : Limits.vresize K m s v.toNat = (s, some .lengthError) := by
    unfold Limits.vresize
    rw [if_neg (by omega)]
    have em : Limits.makeRoom K m s (v.toNat - s.l.length) = (s, some .lengthError) := by
      unfold Limits.makeRoom
      rw [if_neg (by omega)]
      have ec : Limits.checkLen K s.l.length (v.toNat - s.l.length) = none := if_pos (by omega)
      rw [ec]
    rw [em]
  rw [ev]
  rfl

example : (Spec.maxElems .i32 : Int) < 2 ^ 62 ∧ (2 ^ 62 : Int) < 2 ^ 63 ∧ Sound .i32 ⟨[1], 1, 0⟩ :=
  ⟨by decide, by decide, by decide, by decide⟩

/-- The constructor: what it does with unlimited memory, or RuntimeError (there is no list then), whatever size was asked
for. -/
theorem C53_create (K : Kind) (m : Machine) (t : Nat) (src : Src) (n : Nat) :
    visible (Limits.init K m t src n) = ArrayList.init K (some (.inr src)) ∨
    ∃ l, visible (Limits.init K m t src n) = .exc l .runtimeError :=
  Limits.init_or K m t src n

private theorem rangeLoop_length (K : Kind) (step : Int) : ∀ (n : Nat) (cur : Int) (l : List Int),
    ArrayList.rangeLoop K step n cur = .ok l → l.length = n := by
  intro n
  induction n with
  | zero =>
    intro cur l h
    cases h
    rfl
  | succ n ih =>
    intro cur l h
    unfold ArrayList.rangeLoop at h
    split at h
    · rcases hx : ArrayList.rangeLoop K step n (cur + step) with u | l'
      · rw [hx] at h
        cases h
      · rw [hx] at h
        cases h
        rw [List.length_cons, ih _ _ hx]
    · cases h

/-- `from_range`, exactly: arguments that are refused are refused in the same way; where it gives the list `l` with unlimited
memory (C09), it asks for room for as many elements once, unless there are none, and gives the same list, or RuntimeError if
that is more than a vector can have or is not granted. -/
theorem C53_from_range (K : Kind) (m : Machine) (t : Nat) (a1 : Arg) (a2 a3 : Option Arg) :
    (∀ e, ArrayList.fromRange K a1 a2 a3 = .exc () e → visible (Limits.fromRange K m t a1 a2 a3) = .exc [] e) ∧
    ∀ l, ArrayList.fromRange K a1 a2 a3 = .ok () l →
      visible (Limits.fromRange K m t a1 a2 a3) =
        (if l = [] ∨ l.length ≤ Spec.maxElems K ∧ m t (l.length * (K.bits / 8)) = true then .ok l () else
          .exc [] .runtimeError) := by
  have hsz : K.size = K.bits / 8 := by cases K <;> rfl
  unfold ArrayList.fromRange Limits.fromRange
  rcases ArrayList.evalRange a1 a2 a3 with e | ⟨start, stop, step⟩
  · refine ⟨?_, ?_⟩
    · intro e' h
      cases h
      rfl
    · intro l h
      cases h
  · dsimp only
    rcases ArrayList.rangeCount start stop step with u | _ | n
    · exact ⟨fun e h => (nomatch h), fun l h => (nomatch h)⟩
    · refine ⟨fun e h => (nomatch h), fun l h => ?_⟩
      cases h
      rw [if_pos (.inl rfl)]
      rfl
    · dsimp only
      rcases hr : ArrayList.rangeLoop K step n.toNat start with u | l
      · exact ⟨fun e h => (nomatch h), fun l h => (nomatch h)⟩
      · refine ⟨fun e h => (nomatch h), fun l' h => ?_⟩
        cases h
        have hlen := rangeLoop_length K step _ _ _ hr
        rw [← Limits.maxSize_eq, ← hsz, hlen]
        by_cases h0 : n.toNat = 0
        · have hl : l = [] := List.length_eq_zero_iff.mp (by omega)
          rw [if_pos (.inl hl), h0, hl]
          simp [Limits.vresize, visible]
        · have hl : l ≠ [] := by
            intro h
            rw [h] at hlen
            exact h0 hlen.symm
          have hroom : Limits.vresize K m ⟨[], 0, t⟩ n.toNat = if Limits.maxSize K < n.toNat then (⟨[], 0, t⟩, some .lengthError)
              else if m t (n.toNat * K.size) then (⟨List.replicate n.toNat 0, n.toNat, t + 1⟩, none)
              else (⟨[], 0, t + 1⟩, some .badAlloc) := by
            unfold Limits.vresize Limits.makeRoom Limits.checkLen Limits.getBlock
            rw [if_neg (by simp; omega), if_neg (by simp; omega)]
            by_cases hm : Limits.maxSize K < n.toNat
            · rw [if_pos (by simpa using hm), if_pos hm]
            · rw [if_neg (by simpa using hm), if_neg hm]
              have hmin : min (([] : List Int).length + max ([] : List Int).length (n.toNat - ([] : List Int).length))
                  (Limits.maxSize K) = n.toNat := by
                simp only [List.length_nil]
                omega
              simp only [hmin]
              by_cases hg : m t (n.toNat * K.size) = true
              · simp only [hg, if_true, List.length_nil, Nat.sub_zero, List.nil_append]
              · simp only [hg, Bool.false_eq_true, if_false]
          rw [hroom]
          by_cases hm : Limits.maxSize K < n.toNat
          · rw [if_pos hm, if_neg (by rintro (h | ⟨h, -⟩); exact hl h; omega)]
            rfl
          · rw [if_neg hm]
            by_cases hg : m t (n.toNat * K.size) = true
            · rw [if_pos hg, if_pos (.inr ⟨by omega, hg⟩)]
              rfl
            · rw [if_neg hg, if_neg (by rintro (h | ⟨-, h⟩); exact hl h; exact hg h)]
              rfl

example : visible (Limits.fromRange .i32 (upTo 12) 0 (.int 3) none none) = .ok [0, 1, 2] () ∧
    visible (Limits.fromRange .i32 (upTo 12) 0 (.int 4) none none) = .exc [] .runtimeError ∧
    visible (Limits.fromRange .i64 (upTo 12) 0 (.int 1) (some (.int 4)) (some (.int 2))) = .exc [] .runtimeError ∧
    visible (Limits.fromRange .i64 (fun _ _ => false) 0 (.int 1) (some (.int 1)) none) = .ok [] () := by decide

/-- Assigning to a slice: what it does with unlimited memory, or RuntimeError. -/
theorem C53_slice_partial (cfg : Cfg) (K : Kind) (m : Machine) (s : St) (k : SliceArg) (val : Arg ⊕ Src) (hint : Nat) :
    visible (Limits.step cfg K m s (.set (.slice k) val) hint) = ArrayList.step cfg K s.l (.set (.slice k) val) ∨
    ∃ l, visible (Limits.step cfg K m s (.set (.slice k) val) hint) = .exc l .runtimeError :=
  Limits.setSlice_or cfg K m s k val

/-- But after the exception the list is not what it was: the elements placed before the refusal stay. -/
theorem C53_slice_negation : ∃ (cfg : Cfg) (m : Machine) (s : St) (k : SliceArg) (val : Arg ⊕ Src), Sound .i32 s ∧
    visible (Limits.step cfg .i32 m s (.set (.slice k) val) 0) = .exc [8, 9, 2] .runtimeError ∧ s.l = [1, 2] :=
  ⟨⟨.le311, false, false, false, false⟩, upTo 12, ⟨[1, 2], 3, 0⟩, ⟨some (.int 0), some (.int 1), none⟩,
    .inr (.list [.int 8, .int 9, .int 10]), ⟨by decide, by decide⟩, by decide, rfl⟩

/-- `extend` and `+=` do not catch the failure. An iterator that announces more items than a vector can hold
(`itertools.repeat(1, 2**62)`, any `__length_hint__`) ends the process, on every machine and before the first item. -/
theorem C53_extend_negation (cfg : Cfg) (K : Kind) (m : Machine) (s : St) (xs : List Arg) (f : Option Exc) (hint : Nat)
    (h : Spec.maxElems K < hint) :
    Limits.step cfg K m s (.extend (.iter xs f)) hint = .ub .terminate ∧
    Limits.step cfg K m s (.iadd (.iter xs f)) hint = .ub .terminate := by
  rw [← Limits.maxSize_eq] at h
  exact ⟨Limits.extendWith_hint K m s xs f hint .none (by omega) (by omega),
    Limits.extendWith_hint K m s xs f hint .self (by omega) (by omega)⟩

example : Spec.maxElems .i32 < 2 ^ 62 ∧ Spec.maxElems .i64 < 2 ^ 62 := ⟨by decide, by decide⟩

/-- The same with an ordinary list as operand, when the machine refuses the block. -/
theorem C53_extend_refusal_negation (cfg : Cfg) (K : Kind) (m : Machine) (s : St) (v : List Int) (hint : Nat)
    (hfull : s.cap - s.l.length < v.length) (hrefuse : ∀ t n, s.cap * K.size < n → m t n = false) :
    Limits.step cfg K m s (.extend (.same v)) hint = .ub .terminate ∧
    Limits.step cfg K m s (.iadd (.same v)) hint = .ub .terminate := by
  have h : (Limits.makeRoom K m s v.length).2 ≠ none := by
    unfold Limits.makeRoom
    rw [if_neg (by omega)]
    rcases hc : Limits.checkLen K s.l.length v.length with _ | len
    · simp
    · simp only
      unfold Limits.checkLen at hc
      split at hc
      · cases hc
      · next hm =>
        have hc := Option.some.inj hc
        unfold Limits.getBlock
        have hlt : s.cap < len := by omega
        rw [hrefuse _ _ (Nat.mul_lt_mul_of_pos_right hlt (Limits.size_pos K))]
        simp
  exact ⟨Limits.extendWith_refused K m s v hint .none h, Limits.extendWith_refused K m s v hint .self h⟩

example : let s : St := ⟨[1, 2], 2, 0⟩
    s.cap - s.l.length < ([3] : List Int).length ∧ (∀ t n, s.cap * Kind.i32.size < n → upTo 8 t n = false) :=
  ⟨by decide, fun t n h => decide_eq_false (by simpa [Kind.size] using h)⟩

/-- `*` neither delivers nor refuses a product of more elements than a vector can have: every machine runs into undefined
behaviour. The number of bytes is computed modulo 2^64; if it is still too large the exception handler runs without the
interpreter lock, otherwise the copies are written outside the block. -/
theorem C53_mul_negation (cfg : Cfg) (K : Kind) (m : Machine) (s : St) (n : Int) (hint : Nat) (hn : 0 < n)
    (h : Spec.maxElems K < s.l.length * n.toNat) :
    ∃ u, Limits.step cfg K m s (.mul n) hint = .ub u ∧ (Spec.maxElems K < s.l.length * n.toNat % 2 ^ 64 → u = .noGil) := by
  rw [← Limits.maxSize_eq] at h ⊢
  exact Limits.mul_beyond cfg K m s n hn h

/-- A list of one element times 2^62 is such a product; with four elements the size wraps to 0. -/
example : Spec.maxElems .i32 < ([1] : List Int).length * (2 ^ 62 : Int).toNat ∧
    ([1, 2, 3, 4] : List Int).length * (2 ^ 62 : Int).toNat % 2 ^ 64 = 0 := ⟨by decide, by decide⟩

/-- And a product the machine has no block for: the handler runs without the interpreter lock. -/
theorem C53_mul_refusal_negation (cfg : Cfg) (K : Kind) (m : Machine) (s : St) (n : Int) (hint : Nat) (hn : 0 < n)
    (hl : s.l ≠ []) (hfit : s.l.length * n.toNat < 2 ^ 64) (hrefuse : ∀ t b, m t b = false) :
    Limits.step cfg K m s (.mul n) hint = .ub .noGil := by
  refine Limits.mul_refused cfg K m s n hn ?_
  rw [Nat.mod_eq_of_lt hfit]
  have hpos : 0 < s.l.length * n.toNat := Nat.mul_pos (List.length_pos_iff.2 hl) (by omega)
  unfold Limits.vresize
  rw [if_neg (by simp only [List.length_nil]; omega)]
  unfold Limits.makeRoom
  simp only [List.length_nil, Nat.sub_zero]
  rw [if_neg (by omega)]
  rcases Limits.checkLen K 0 (s.l.length * n.toNat) with _ | len
  · simp
  · simp [Limits.getBlock, hrefuse]

/-- Through all of this the storage of a list stays sound: from the constructor on, through every history of calls, on
every machine, the elements are within the block and the block within the address space. So nothing that is refused is
half done at the level of memory. -/
theorem C53_storage (cfg : Cfg) (K : Kind) (m : Machine) (t : Nat) (src : Src) (n : Nat) (s s' : St)
    (calls : List (Op × Nat)) (hsrc : ∀ v, src = .same v → v.length ≤ Spec.maxElems K)
    (h0 : Limits.init K m t src n = .ok s ()) (h : Limits.run cfg K m s calls = some s') : Sound K s' := by
  have hs : Sound K s := Limits.init_sound (fun v hv => by rw [Limits.maxSize_eq]; exact hsrc v hv) h0
  clear h0
  induction calls generalizing s with
  | nil => obtain rfl := Option.some.inj h; exact hs
  | cons c cs ih =>
    obtain ⟨op, hint⟩ := c
    rw [Limits.run] at h
    rcases hx : (Limits.step cfg K m s op hint).state? with _ | s1
    · rw [hx] at h; cases h
    · rw [hx] at h
      exact ih s1 h (Limits.step_sound hs s1 hx)

/-- A history in which a call is refused and the list goes on. -/
example : let cfg : Cfg := ⟨.le311, false, false, false, false⟩
    Limits.init .i32 (upTo 16) 0 (.list [.int 1, .int 2, .int 3]) 0 = .ok ⟨[1, 2, 3], 4, 3⟩ () ∧
    Limits.run cfg .i32 (upTo 16) ⟨[1, 2, 3], 4, 3⟩ [(.append (.int 4), 0), (.append (.int 5), 0), (.pop none, 0)] =
      some ⟨[1, 2, 3], 4, 4⟩ := ⟨by decide, by decide⟩

end Verif.Props
