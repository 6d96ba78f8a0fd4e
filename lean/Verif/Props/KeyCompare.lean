import Verif.Lemmas.KeyOrder

/-!
# C52: sorting compares with Python's `<`

`choose W s keys` is the comparison the pre-sort check picks for `keys`, `Chosen.run` a call of it, `W.less s v w` what
the interpreter does for `v < w` in state `s`: the answer or the exception, and the new state. `sortList` and
`sortByKey` are `sort()` and `sort(key=f)` of an object list with the check in place.
-/

namespace Verif.Props

open Verif.Key Verif.Spec Verif.Spec.ByKey Verif.KeyCompare

variable {σ ν : Type}

/-! ## A concrete interpreter -/

/-- Instances compare by address; every comparison is counted; class 7 answers `NotImplemented` (and counts nothing). -/
def counting : World Nat where
  py := .ge313
  cls _ i := if i < 100 then 1 else 7
  slot _ c := some (.other c)
  sub _ _ := false
  call s fn _ v w := if fn = .other 1 then (.ok (some (decide (v.id < w.id))), s + 1) else (.ok none, s)

/-- An allocator that always succeeds. -/
def plenty : Nat → Nat → Bool × Nat := fun s _ => (true, s)

theorem counting_steady : Steady counting 0 := fun _ _ => rfl

theorem counting_quiet : Quiet counting := by
  intro s fn a v w s' h
  simp only [counting] at h
  split at h
  · cases h
  · cases h
    rfl

/-- Mixed keys for the examples: tuples whose first items are strings of both kinds. -/
def mixedRows : List Obj :=
  [.tuple 1 [.str 2 [98, 99], .inst 3], .tuple 4 [.str 5 [98, 0x3b1], .inst 6], .tuple 7 [.str 8 [98, 99], .inst 9]]

/-! ## The choice is `<` -/

/-- Whatever the keys are, the comparison picked for them does exactly what `<` does: same answer, same exception, same
effects. The classes of the keys must not change meanwhile, and `NotImplemented` must be answered without effects
(such a method is asked twice). -/
theorem C52_is_less (W : World σ) (s0 : σ) (hs : Steady W s0) (hq : Quiet W) (keys : List Obj) (v w : Obj)
    (hv : v ∈ keys) (hw : w ∈ keys) (s : σ) :
    (choose W s0 keys).run W s v w =
      match W.less s v w with
      | (.ok b, s') => (.ans b, s')
      | (.error e, s') => (.raised e, s') := by
  rw [chosen_agrees hs hq keys v w hv hw s]
  rfl

example : choose counting 0 mixedRows = .tuples (.object .unicode) := by decide
example : choose counting 0 [.int 1 (canon 5), .int 2 (canon (-7))] = .plain .long := by decide +kernel
example : choose counting 0 [.int 1 (canon 5), .int 2 (canon (2 ^ 70))] = .plain (.object .long) := by decide +kernel
example : choose counting 0 [.str 1 [97], .str 2 [233]] = .plain .latin := by decide
example : choose counting 0 [.inst 1, .inst 200] = .plain .safe := by decide
example : choose counting 0 [.inst 1, .inst 2] = .plain (.object (.other 1)) := by decide

example (v w : Obj) (hv : v ∈ mixedRows) (hw : w ∈ mixedRows) (s : Nat) :
    (choose counting 0 mixedRows).run counting s v w =
      match counting.less s v w with
      | (.ok b, s') => (.ans b, s')
      | (.error e, s') => (.raised e, s') :=
  (C52_is_less counting 0 counting_steady counting_quiet mixedRows v w hv hw s).trans (by
    rcases counting.less s v w with ⟨_ | _, _⟩ <;> rfl)

/-- In every interpreter, also one in which classes and their methods change during the sort, the picked comparison is
never applied to objects it is not made for. -/
theorem C52_defined (W : World σ) (s0 : σ) (keys : List Obj) (v w : Obj) (hv : v ∈ keys) (hw : w ∈ keys) (s : σ) :
    ((choose W s0 keys).run W s v w).1 ≠ .undef :=
  chosen_defined W s0 keys v w hv hw s

example : (latinCompare (.str 1 [97]) (.int 2 (canon 5))) = .undef := rfl

/-! ## The sort -/

/-- In every interpreter `sort()` ends with a permutation of the list, without undefined behaviour; an exception is one
a comparison raised, or MemoryError. -/
theorem C52_sort_safe (W : World σ) (malloc : σ → Nat → Bool × σ) (s : σ) (l : List Obj) (rev : Bool)
    (hmax : l.length < 2 ^ 60) :
    ∃ out s', out.Perm l ∧ (sortList W malloc s l rev = .ok (.ok out (), s') ∨
      ∃ e, sortList W malloc s l rev = .ok (.exc out e, s') ∧
        ((∃ t, ∃ x ∈ l, ∃ y ∈ l, (choose W s l).run W t x y = (.raised e, s')) ∨
          (e = .memoryError ∧ ∃ t n, malloc t n = (false, s')))) := by
  obtain ⟨ok, out, s', err, e, p, hr, hk⟩ := sortFrom_spec W malloc false (fun x => x) s l rev hmax
  rw [List.map_id'] at hr
  refine ⟨out, s', p, ?_⟩
  cases ok with
  | true =>
    obtain ⟨rfl, _⟩ := hk rfl
    left
    unfold sortList
    rw [e]
    rfl
  | false =>
    obtain ⟨x, rfl, h⟩ := hr rfl
    refine .inr ⟨x, ?_, h⟩
    unfold sortList
    rw [e]
    rfl

example : mixedRows.length < 2 ^ 60 := by decide

/-- The same with a key function, for every interpreter and key function: a permutation of the list, no undefined
behaviour; an exception is one the key function or a comparison raised, or MemoryError. -/
theorem C52_by_key_safe (W : World σ) (malloc : σ → Nat → Bool × σ) (key : σ → ν → Except Exc Obj × σ) (s : σ)
    (l : List ν) (rev : Bool) (hmax : l.length < 2 ^ 60) :
    ∃ out s', out.Perm l ∧ (sortByKey W malloc key s l rev = .ok (.ok out (), s') ∨
      ∃ e, sortByKey W malloc key s l rev = .ok (.exc out e, s') ∧
        ((∃ t x, key t x = (.error e, s')) ∨
          (∃ s0 keys t, ∃ x ∈ keys, ∃ y ∈ keys, (choose W s0 keys).run W t x y = (.raised e, s')) ∨
          (e = .memoryError ∧ ∃ t n, malloc t n = (false, s')))) := by
  unfold sortByKey
  rcases hg : (if l.length < 256 / 2 then (true, s) else malloc s l.length) with ⟨got, s1⟩
  simp only
  cases got with
  | false =>
    refine ⟨l, s1, .refl l, .inr ⟨.memoryError, rfl, .inr (.inr ⟨rfl, ?_⟩)⟩⟩
    split at hg
    · cases hg
    · exact ⟨s, l.length, hg⟩
  | true =>
    rcases hq : CPySort.keysOf { key := key, lt := W.less, malloc := malloc : CPySort.Caller σ Obj ν } s1 l with ⟨r, s2⟩
    cases r with
    | error e =>
      obtain ⟨t, x, h⟩ := CPySort.keysOf_raised _ l s1 s2 e hq
      exact ⟨l, s2, .refl l, .inr ⟨e, rfl, .inl ⟨t, x, h⟩⟩⟩
    | ok ks =>
      have hlen : ks.length = l.length := CPySort.keysOf_len _ l s1 s2 ks hq
      obtain ⟨ok, out, s', err, e, p, hr, hk⟩ := sortFrom_spec W malloc true (fun x : Obj × ν => x.1) s2 (ks.zip l) rev
        (by simpa [hlen] using hmax)
      have p2 : (out.map (·.2)).Perm l := by
        have := p.map (fun x : Obj × ν => x.2)
        rwa [List.map_snd_zip (by omega)] at this
      refine ⟨out.map (·.2), s', p2, ?_⟩
      cases ok with
      | true =>
        obtain ⟨rfl, _⟩ := hk rfl
        left
        show (sortFrom W malloc true _ s2 (ks.zip l) rev >>= _) = _
        rw [e]
        rfl
      | false =>
        obtain ⟨x, rfl, h⟩ := hr rfl
        refine .inr ⟨x, ?_, ?_⟩
        · show (sortFrom W malloc true _ s2 (ks.zip l) rev >>= _) = _
          rw [e]
          rfl
        · rcases h with ⟨t, a, ha, b, hb, h⟩ | h
          · exact .inr (.inl ⟨s2, _, t, a.1, List.mem_map_of_mem ha, b.1, List.mem_map_of_mem hb, h⟩)
          · exact .inr (.inr h)

/-- The key function is asked for every element, in order, before anything is compared; if it raises, the list stays
as it is. -/
theorem C52_key_raises (W : World σ) (malloc : σ → Nat → Bool × σ) (key : σ → ν → Except Exc Obj × σ) (s s1 s2 : σ)
    (pre post : List ν) (x : ν) (e : Exc) (rev : Bool) (hm : ∀ t n, (malloc t n) = (true, t))
    (hpre : Asked key s pre s1) (hx : key s1 x = (.error e, s2)) :
    sortByKey W malloc key s (pre ++ x :: post) rev = .ok (.exc (pre ++ x :: post) e, s2) := by
  have hk : CPySort.keysOf { key := key, lt := W.less, malloc := malloc : CPySort.Caller σ Obj ν } s (pre ++ x :: post) =
      (.error e, s2) := by
    induction hpre with
    | nil s => simp only [List.nil_append, CPySort.keysOf, hx]
    | cons h _ ih =>
      have ih := ih hx
      simp only [List.cons_append, CPySort.keysOf, h, ih]
  unfold sortByKey
  have hg : (if (pre ++ x :: post).length < 256 / 2 then (true, s) else malloc s (pre ++ x :: post).length) = (true, s) := by
    split
    · rfl
    · exact hm _ _
  rw [hg]
  simp only [Bool.not_true, Bool.false_eq_true, if_false]
  rw [hk]

example : Asked (fun t (n : Nat) => if n = 5 then (.error .valueError, t) else (.ok (.int n (canon n)), t + 1)) 0 [3, 4] 2 :=
  .cons rfl (.cons rfl (.nil _))

/-- `sort()` succeeds only if every comparison it made answered and every allocation was granted: no exception of a
comparison is lost. -/
theorem C52_no_exception_lost (W : World σ) (malloc : σ → Nat → Bool × σ) (s s' : σ) (hs : Steady W s) (hq : Quiet W)
    (l out : List Obj) (rev : Bool) (hr : sortList W malloc s l rev = .ok (.ok out (), s')) :
    Smoothly W.less malloc l s s' := by
  unfold sortList at hr
  simp only [bind, Except.bind] at hr
  split at hr
  · cases hr
  · rename_i v hv
    obtain ⟨ok, o, ⟨t, u⟩, err⟩ := v
    simp only [pure, Except.pure, Except.ok.injEq, Prod.mk.injEq] at hr
    obtain ⟨hf, rfl⟩ := hr
    have he : err = none := by
      cases u <;> cases ok <;> cases err <;> simp [finish] at hf ⊢
    subst he
    refine sortFrom_smooth W malloc false (fun x => x) s t l o rev ok u (Smoothly W.less malloc l) .refl ?_ ?_
      (fun t n t' h => .room (.refl t) h) hv
    · intro a b c h1 h2
      induction h2 with
      | refl => exact h1
      | less _ hx hy h ih => exact .less ih hx hy h
      | room _ h ih => exact .room ih h
    · intro t x hx y hy b t' h
      rw [List.map_id', chosen_agrees hs hq l x y hx hy t] at h
      refine .less (b := b) (.refl t) hx hy ?_
      revert h
      rcases W.less t x y with ⟨r, w⟩
      cases r <;> intro h <;> simp_all [pass]

/-- If `<` is a strict weak order on the elements, `sort()` sorts by it, stably. -/
theorem C52_sorts (W : World σ) (malloc : σ → Nat → Bool × σ) (s : σ) (hs : Steady W s) (hq : Quiet W) (l : List Obj)
    (rev : Bool) (hmax : l.length < 2 ^ 60) (hm : ∀ t n, (malloc t n).1 = true) (lt : Obj → Obj → Bool)
    (sw : StrictWeak lt) (hlt : ∀ t, ∀ x ∈ l, ∀ y ∈ l, (W.less t x y).1 = .ok (lt x y)) :
    ∃ out s', sortList W malloc s l rev = .ok (.ok out (), s') ∧
      StableSort (if rev then fun x y => lt y x else lt) l out := by
  refine sortList_spec W malloc s l rev hmax hm lt sw fun t x hx y hy => ?_
  rw [chosen_agrees hs hq l x y hx hy t]
  have := hlt t x hx y hy
  revert this
  rcases W.less t x y with ⟨r, u⟩
  intro this
  simp only at this
  subst this
  rfl

theorem counting_less (t : Nat) (i j : Nat) (hi : i < 100) (hj : j < 100) :
    counting.less t (.inst i) (.inst j) = (.ok (decide (i < j)), t + 1) := by
  rw [less_same counting t (.inst i) (.inst j) (by simp [World.ty, counting, hi, hj])]
  simp [World.ty, World.slotOf, counting, hi, slotCall, orElse, Obj.id]
  rfl

example : ∃ out s', sortList counting plenty 0 [.inst 9, .inst 4] false = .ok (.ok out (), s') ∧
    Smoothly counting.less plenty [.inst 9, .inst 4] 0 s' := by
  obtain ⟨out, s', _, h | ⟨e, _, ⟨t, x, hx, y, hy, h⟩ | ⟨_, t, n, h⟩⟩⟩ :=
    C52_sort_safe counting plenty 0 [.inst 9, .inst 4] false (by decide)
  · exact ⟨out, s', h, C52_no_exception_lost counting plenty 0 s' counting_steady counting_quiet _ out false h⟩
  · have := C52_is_less counting 0 counting_steady counting_quiet [.inst 9, .inst 4] x y hx hy t
    rw [h] at this
    simp only [List.mem_cons, List.not_mem_nil, or_false] at hx hy
    rcases hx with rfl | rfl <;> rcases hy with rfl | rfl <;>
      rw [counting_less t _ _ (by decide) (by decide)] at this <;> cases this
  · cases h

example : ∃ out s', sortList counting plenty 0 [.inst 9, .inst 4, .inst 6] false = .ok (.ok out (), s') ∧
    StableSort (fun x y => decide ((x.id : Int) < y.id)) [.inst 9, .inst 4, .inst 6] out :=
  C52_sorts counting plenty 0 counting_steady counting_quiet [.inst 9, .inst 4, .inst 6] false (by decide)
    (fun _ _ => rfl) (fun x y => decide ((x.id : Int) < y.id)) (weak_by_int (fun x : Obj => (x.id : Int))) (by
      intro t x hx y hy
      simp only [List.mem_cons, List.not_mem_nil, or_false] at hx hy
      rcases hx with rfl | rfl | rfl <;> rcases hy with rfl | rfl | rfl <;>
        rw [counting_less t _ _ (by decide) (by decide)] <;> rfl)

/-- The same with a key function without side conditions on the keys but those of `<`. -/
theorem C52_sorts_by_key (W : World σ) (malloc : σ → Nat → Bool × σ) (key : σ → ν → Except Exc Obj × σ) (kf : ν → Obj)
    (s : σ) (hs : ∀ t, Steady W t) (hq : Quiet W) (l : List ν) (rev : Bool) (hmax : l.length < 2 ^ 60)
    (hm : ∀ t n, (malloc t n).1 = true) (hkey : ∀ t x, (key t x).1 = .ok (kf x)) (lt : Obj → Obj → Bool)
    (sw : StrictWeak lt) (hlt : ∀ t, ∀ x ∈ l, ∀ y ∈ l, (W.less t (kf x) (kf y)).1 = .ok (lt (kf x) (kf y))) :
    ∃ out s', sortByKey W malloc key s l rev = .ok (.ok out (), s') ∧
      StableSort (if rev then fun x y => lt (kf y) (kf x) else fun x y => lt (kf x) (kf y)) l out := by
  refine sortByKey_spec W malloc key kf s l rev hmax hm hkey lt sw fun s' t x hx y hy => ?_
  rw [chosen_agrees (hs s') hq (l.map kf) x y hx hy t]
  obtain ⟨x, hx', rfl⟩ := List.mem_map.1 hx
  obtain ⟨y, hy', rfl⟩ := List.mem_map.1 hy
  have := hlt t x hx' y hy'
  revert this
  rcases W.less t (kf x) (kf y) with ⟨r, u⟩
  intro this
  simp only at this
  subst this
  rfl

example : ∀ t, Steady counting t := fun _ _ _ => rfl

/-! ## Numbers, strings, tuples: every interpreter -/

/-- Ints are sorted by value, however large. -/
theorem C52_ints (W : World σ) (malloc : σ → Nat → Bool × σ) (s : σ) (l : List Obj) (rev : Bool)
    (hmax : l.length < 2 ^ 60) (hm : ∀ t n, (malloc t n).1 = true) (hl : ∀ k ∈ l, IsInt k) :
    ∃ out s', sortList W malloc s l rev = .ok (.ok out (), s') ∧
      StableSort (if rev then fun x y => decide (intOf y < intOf x) else fun x y => decide (intOf x < intOf y)) l out :=
  sortList_spec W malloc s l rev hmax hm _ (weak_by_int intOf) fun t x hx y hy => by rw [chosen_int W s l hl x y hx hy t]

/-- Strings are sorted by code points, narrow and wide ones alike. -/
theorem C52_strings (W : World σ) (malloc : σ → Nat → Bool × σ) (s : σ) (l : List Obj) (rev : Bool)
    (hmax : l.length < 2 ^ 60) (hm : ∀ t n, (malloc t n).1 = true) (hl : ∀ k ∈ l, IsStr k) :
    ∃ out s', sortList W malloc s l rev = .ok (.ok out (), s') ∧
      StableSort (if rev then fun x y => decide (charsOf y < charsOf x) else fun x y => decide (charsOf x < charsOf y)) l out :=
  sortList_spec W malloc s l rev hmax hm _ (weak_by_chars charsOf) fun t x hx y hy => by rw [chosen_str W s l hl x y hx hy t]

/-- Floats without NaN are sorted by size. -/
theorem C52_floats (W : World σ) (malloc : σ → Nat → Bool × σ) (s : σ) (l : List Obj) (rev : Bool)
    (hmax : l.length < 2 ^ 60) (hm : ∀ t n, (malloc t n).1 = true) (hl : ∀ k ∈ l, IsNumber k) :
    ∃ out s', sortList W malloc s l rev = .ok (.ok out (), s') ∧
      StableSort (if rev then fun x y => decide (placeOf y < placeOf x) else fun x y => decide (placeOf x < placeOf y)) l out :=
  sortList_spec W malloc s l rev hmax hm _ (weak_by_int placeOf) fun t x hx y hy => by rw [chosen_float W s l hl x y hx hy t]

/-- Tuples of ints are sorted lexicographically. -/
theorem C52_tuples (W : World σ) (malloc : σ → Nat → Bool × σ) (s : σ) (l : List Obj) (rev : Bool)
    (hmax : l.length < 2 ^ 60) (hm : ∀ t n, (malloc t n).1 = true) (hl : ∀ k ∈ l, IsRow k) (ho : OneHeap l) :
    ∃ out s', sortList W malloc s l rev = .ok (.ok out (), s') ∧
      StableSort (if rev then fun x y => decide (rowOf y < rowOf x) else fun x y => decide (rowOf x < rowOf y)) l out :=
  sortList_spec W malloc s l rev hmax hm _ (weak_by_row rowOf) fun t x hx y hy => by rw [chosen_row W s l hl ho x y hx hy t]

/-- With a key function: elements are sorted by the ints, strings, floats or tuples of ints their keys are. The key
function may have effects; it must give the same key whenever it is asked. -/
theorem C52_by_key (W : World σ) (malloc : σ → Nat → Bool × σ) (key : σ → ν → Except Exc Obj × σ) (kf : ν → Obj) (s : σ)
    (l : List ν) (rev : Bool) (hmax : l.length < 2 ^ 60) (hm : ∀ t n, (malloc t n).1 = true)
    (hkey : ∀ t x, (key t x).1 = .ok (kf x)) :
    ((∀ x ∈ l, IsInt (kf x)) → ∃ out s', sortByKey W malloc key s l rev = .ok (.ok out (), s') ∧
      StableSort (if rev then fun x y => decide (intOf (kf y) < intOf (kf x))
        else fun x y => decide (intOf (kf x) < intOf (kf y))) l out) ∧
    ((∀ x ∈ l, IsStr (kf x)) → ∃ out s', sortByKey W malloc key s l rev = .ok (.ok out (), s') ∧
      StableSort (if rev then fun x y => decide (charsOf (kf y) < charsOf (kf x))
        else fun x y => decide (charsOf (kf x) < charsOf (kf y))) l out) ∧
    ((∀ x ∈ l, IsNumber (kf x)) → ∃ out s', sortByKey W malloc key s l rev = .ok (.ok out (), s') ∧
      StableSort (if rev then fun x y => decide (placeOf (kf y) < placeOf (kf x))
        else fun x y => decide (placeOf (kf x) < placeOf (kf y))) l out) ∧
    ((∀ x ∈ l, IsRow (kf x)) → OneHeap (l.map kf) → ∃ out s', sortByKey W malloc key s l rev = .ok (.ok out (), s') ∧
      StableSort (if rev then fun x y => decide (rowOf (kf y) < rowOf (kf x))
        else fun x y => decide (rowOf (kf x) < rowOf (kf y))) l out) := by
  refine ⟨fun h => ?_, fun h => ?_, fun h => ?_, fun h ho => ?_⟩
  · exact sortByKey_spec W malloc key kf s l rev hmax hm hkey _ (weak_by_int intOf) fun s' t x hx y hy => by
      rw [chosen_int W s' (l.map kf) (by simpa using h) x y hx hy t]
  · exact sortByKey_spec W malloc key kf s l rev hmax hm hkey _ (weak_by_chars charsOf) fun s' t x hx y hy => by
      rw [chosen_str W s' (l.map kf) (by simpa using h) x y hx hy t]
  · exact sortByKey_spec W malloc key kf s l rev hmax hm hkey _ (weak_by_int placeOf) fun s' t x hx y hy => by
      rw [chosen_float W s' (l.map kf) (by simpa using h) x y hx hy t]
  · exact sortByKey_spec W malloc key kf s l rev hmax hm hkey _ (weak_by_row rowOf) fun s' t x hx y hy => by
      rw [chosen_row W s' (l.map kf) (by simpa using h) ho x y hx hy t]

theorem isInt_canon (i : Nat) (v : Int) : IsInt (.int i (canon v)) := ⟨_, _, rfl, canon_normal v⟩

/-- Ints of one and of several digits. -/
def someInts : List Obj := [.int 1 (canon (2 ^ 70)), .int 2 (canon (-3)), .int 3 (canon 0), .int 4 (canon (-(2 ^ 40)))]

example : ∀ k ∈ someInts, IsInt k := by
  intro k hk
  simp only [someInts, List.mem_cons, List.not_mem_nil, or_false] at hk
  rcases hk with rfl | rfl | rfl | rfl <;> exact isInt_canon _ _

example : ∀ k ∈ [Obj.str 1 [98, 99], .str 2 [0x3b1], .str 3 []], IsStr k := by
  intro k hk
  simp only [List.mem_cons, List.not_mem_nil, or_false] at hk
  rcases hk with rfl | rfl | rfl <;> exact ⟨_, _, rfl⟩

/-- 1.0, -0.0 and -infinity. -/
def someFloats : List Obj := [.float 1 0x3ff0000000000000, .float 2 0x8000000000000000, .float 3 0xfff0000000000000]

example : ∀ k ∈ someFloats, IsNumber k := by
  intro k hk
  simp only [someFloats, List.mem_cons, List.not_mem_nil, or_false] at hk
  rcases hk with rfl | rfl | rfl <;> exact ⟨_, _, rfl, by decide⟩

example : someFloats.map placeOf = [0x3ff0000000000000, 0, -0x7ff0000000000000] := by decide

def someRows : List Obj :=
  [.tuple 1 [.int 10 (canon 1), .int 11 (canon 5)], .tuple 2 [.int 10 (canon 1)], .tuple 3 [.int 12 (canon 0), .int 10 (canon 1)]]

example : (∀ k ∈ someRows, IsRow k) ∧ OneHeap someRows := by
  constructor
  · intro k hk
    simp only [someRows, List.mem_cons, List.not_mem_nil, or_false] at hk
    rcases hk with rfl | rfl | rfl <;> refine ⟨_, _, rfl, by simp, ?_⟩ <;> intro x hx <;>
      simp only [List.mem_cons, List.not_mem_nil, or_false] at hx
    · rcases hx with rfl | rfl <;> exact isInt_canon _ _
    · subst hx; exact isInt_canon _ _
    · rcases hx with rfl | rfl <;> exact isInt_canon _ _
  · intro v hv w hw x hx y hy h
    simp only [someRows, List.mem_cons, List.not_mem_nil, or_false] at hv hw
    rcases hv with rfl | rfl | rfl <;> rcases hw with rfl | rfl | rfl <;>
      simp only [itemsOf, List.mem_cons, List.not_mem_nil, or_false] at hx hy <;>
      rcases hx with rfl | rfl <;> rcases hy with rfl | rfl <;> first | rfl | (simp [Obj.id] at h)

example : ∃ out s', sortByKey counting plenty (fun t (n : Nat) => (.ok (.int n (canon (-(n : Int)))), t + 1)) 0
    [3, 1, 2] false = .ok (.ok out (), s') ∧
    StableSort (fun x y : Nat => decide (intOf (.int x (canon (-(x : Int)))) < intOf (.int y (canon (-(y : Int)))))) [3, 1, 2] out :=
  (C52_by_key counting plenty (fun t (n : Nat) => (.ok (.int n (canon (-(n : Int)))), t + 1))
    (fun n => .int n (canon (-(n : Int)))) 0 [3, 1, 2] false (by decide) (fun _ _ => rfl) (fun _ _ => rfl)).1
    fun _ _ => isInt_canon _ _

end Verif.Props
