import Verif.Lemmas.ObjArrayList

/-!
# ObjectArrayList: history, references, search, comparison, slices

C10 to C13, C18 and C29 to C33 for ObjectArrayList. `ext` are the references held outside the list.
-/

namespace Verif.Props

open Heap

instance : DecidableEq (Except Exc Bool)
  | .ok a, .ok b => if h : a = b then isTrue (h ▸ rfl) else isFalse fun e => h (by cases e; rfl)
  | .error a, .error b => if h : a = b then isTrue (h ▸ rfl) else isFalse fun e => h (by cases e; rfl)
  | .ok _, .error _ | .error _, .ok _ => isFalse fun e => by cases e

/-- Host of the examples: object 0 is None, objects up to 9 are ints, objects 2 and 3 are equal, order by number. -/
def exHost : OHost where
  none := 0
  isInt o := decide (0 < o ∧ o < 10)
  rich op x y :=
    match op with
    | .eq => .ok (x == y || (x == 2 && y == 3) || (x == 3 && y == 2))
    | .ne => .ok !(x == y || (x == 2 && y == 3) || (x == 3 && y == 2))
    | .lt => .ok (decide (x < y))
    | .le => .ok (decide (x ≤ y))
    | .gt => .ok (decide (y < x))
    | .ge => .ok (decide (y ≤ x))

/-- Heap of the examples: object 0 is immortal, every other object has the given count. -/
def exHeap (rc : Obj → Nat) : Heap := ⟨fun o => o == 0, rc⟩

section
open ObjArray

/-! ## C33 histories -/

/-- C33 (ObjectArrayList). Every history of calls in the domain gives, call by call, the result and the contents of
a Python list, and no undefined behaviour; the client holds the objects it passes in. -/
theorem C33_ObjectArrayList_history_partial (cfg : Cfg) (H : OHost) (fuel : Nat) (hf : 0 < fuel) (ext : Obj → Nat)
    (s : OState) (ops : List OOp) (hc : Covered ext s.heap s.vec) (hok : HistoryOk H s.heap.imm s.vec ops)
    (hh : ∀ op ∈ ops, Held ext s.heap op) : OAgreesAll (run cfg H fuel s ops) (Spec.orun H s.vec ops) :=
  run_ok cfg H fuel hf ops s hc hok hh

example : HistoryOk exHost (exHeap fun _ => 9).imm [4, 5]
    [.append 6, .insert (.int 0) 7, .setItem (.int (-1)) 4, .pop (some (.int 1)), .extend (.tuple [8, 8]),
      .setSlice ⟨some (.int 0), some (.int 2), none⟩ (.list [6]), .reverse, .get (.idx (.int 0)), .remove 8, .clear] := by
  refine ⟨trivial, trivial, by simp [OpOk], ?_, by simp [OpOk], ?_, trivial, by simp [OpOk], ?_, trivial, trivial⟩
  · exact .inl (by decide)
  · refine ⟨by decide, .inr ⟨rfl, ?_, ?_⟩⟩
    · intro i j k h
      simp only [Spec.fields, Spec.field] at h
      cases h
      rfl
    · show ¬ (_ < _)
      decide
  · show ∀ x ∈ _, _
    decide

/-- C33, deviation: `del l[a:b]` dereferences a null pointer for every list and every well-formed slice, where
Python deletes the addressed elements. -/
theorem C33_ObjectArrayList_del_slice_null (cfg : Cfg) (H : OHost) (fuel : Nat) (s : OState) (sl : SliceArg) (f)
    (hf : Spec.fields sl = .ok f) : step cfg H fuel s (.del (.slice sl)) = .ub .nullDeref := by
  have e := (sliceUnpack_fields sl).1
  rw [hf] at e
  show del s (.slice sl) = _
  simp only [del, e]

example : ∃ f, Spec.fields ⟨some (.int 0), some (.int 1), none⟩ = .ok f := ⟨_, rfl⟩

/-- C33, deviation: a subscript that is neither an integer nor a slice is used as a slice object. -/
theorem C33_ObjectArrayList_bad_key (cfg : Cfg) (H : OHost) (fuel : Nat) (s : OState) (o : Obj) :
    step cfg H fuel s (.get (.idx .other)) = .ub .typeConfusion ∧
    step cfg H fuel s (.setItem .other o) = .ub .typeConfusion ∧
    step cfg H fuel s (.del (.idx .other)) = .ub .typeConfusion := ⟨rfl, rfl, rfl⟩

/-! ## C29 reference counts -/

/-- C29 (ObjectArrayList). Over every session of calls in the domain, interleaved with the client giving up
references of its own: nothing freed is touched, the contents are the specified ones, and every mortal object is
counted once for each reference held by the client, once for each position in the list, and once for each reference
lost by an item assignment, a shrinking `resize` or `*= 0` before. When the list then dies, only the client's and the
lost references stay. -/
theorem C29_ObjectArrayList_session_partial (cfg : Cfg) (H : OHost) (fuel : Nat) (hf : 0 < fuel) (ext : Obj → Nat)
    (s : OState) (es : List OEvent) (hb : Balanced ext s.heap s.vec)
    (hok : SessionOk H s.heap.imm ext s.vec es) :
    ∃ s' h, play cfg H fuel s es = some s' ∧ s'.vec = Spec.contents H s.vec es ∧ s'.heap.imm = s.heap.imm ∧
      (∀ o, s.heap.imm o = false → s'.heap.rc o =
        Spec.holdings H ext s.vec es o + s'.vec.count o + (lost H s.vec es).count o) ∧
      dealloc s' = .ok h ∧
      ∀ o, s.heap.imm o = false → h.rc o = Spec.holdings H ext s.vec es o + (lost H s.vec es).count o := by
  obtain ⟨s', p1, p2, p3, p4⟩ := play_ok cfg H fuel hf es ext (fun _ => 0) s (fun o ho => hb o ho) hok
  obtain ⟨h, e, a⟩ := decrefs_ok (h := s'.heap) (xs := s'.vec) (fun o ho => by
    have := p4 o (by rw [← p3]; exact ho)
    omega)
  refine ⟨s', h, p1, p2, p3, fun o ho => by have := p4 o ho; omega, e, fun o ho => ?_⟩
  have q1 := p4 o ho
  have q2 := a.2 o (by rw [p3]; exact ho)
  dsimp only at q2
  omega

/-- Calls that lose no reference. -/
def Lossless : OOp → Prop
  | .setItem _ _ | .resize _ | .imul _ => False
  | _ => True

/-- C29 (ObjectArrayList). In a session without item assignment, `resize` and `*=` every mortal object is counted
exactly once per reference held by the client or the list, and when the list dies exactly the client's references
remain. -/
theorem C29_ObjectArrayList_balanced_partial (cfg : Cfg) (H : OHost) (fuel : Nat) (hf : 0 < fuel) (ext : Obj → Nat)
    (s : OState) (es : List OEvent) (hb : Balanced ext s.heap s.vec)
    (hok : SessionOk H s.heap.imm ext s.vec es) (hl : ∀ op, OEvent.call op ∈ es → Lossless op) :
    ∃ s' h, play cfg H fuel s es = some s' ∧ Balanced (Spec.holdings H ext s.vec es) s'.heap s'.vec ∧
      dealloc s' = .ok h ∧ Balanced (Spec.holdings H ext s.vec es) h [] := by
  obtain ⟨s', h, p1, p2, p3, p4, p5, p6⟩ := C29_ObjectArrayList_session_partial cfg H fuel hf ext s es hb hok
  have hlost : lost H s.vec es = [] := by
    clear hb hok p1 p2 p4 p5 p6 p3
    generalize s.vec = l
    induction es generalizing l with
    | nil => rfl
    | cons e es ih =>
      cases e with
      | drop o => exact ih (fun op ho => hl op (by simp [ho])) l
      | call op =>
        have h1 : leaked l op = [] := by
          have := hl op (by simp)
          cases op <;> first | rfl | exact this.elim
        rw [lost, h1, ih (fun op ho => hl op (by simp [ho]))]
        rfl
  rw [hlost] at p4 p6
  have him : h.imm = s'.heap.imm := by
    have : ∀ (l : List Obj) (h h2 : Heap), h.decrefs l = .ok h2 → h2.imm = h.imm := by
      intro l
      induction l with
      | nil => intro h h2 e; cases e; rfl
      | cons a l ih =>
        intro h h2 e
        rw [Heap.decrefs] at e
        cases e2 : h.decref a with
        | error u => rw [e2] at e; cases e
        | ok h3 =>
          rw [e2] at e
          rw [ih h3 h2 e]
          unfold Heap.decref at e2
          split at e2
          · cases e2; rfl
          · split at e2
            · cases e2
            · cases e2; rfl
    exact this _ _ _ p5
  refine ⟨s', h, p1, fun o ho => ?_, p5, fun o ho => ?_⟩
  · rw [p3] at ho
    have := p4 o ho
    simpa using this
  · rw [him, p3] at ho
    have := p6 o ho
    simpa using this

example : Balanced (fun o => if o = 4 ∨ o = 5 then 1 else 0)
      (exHeap fun o => if o = 4 ∨ o = 5 then 2 else if o = 6 then 1 else 0) [4, 5, 6] ∧
    SessionOk exHost (fun o => o == 0) (fun o => if o = 4 ∨ o = 5 then 1 else 0) [4, 5, 6]
      [.call (.append 4), .drop 4, .call (.pop none), .drop 4, .call (.get (.idx (.int 2))), .call .clear,
        .drop 6, .call (.extend (.iter [5, 4] (some .runtimeError))), .drop 5] := by
  refine ⟨?_, ?_⟩
  · intro o ho
    by_cases h4 : o = 4
    · subst h4; rfl
    · by_cases h5 : o = 5
      · subst h5; rfl
      · by_cases h6 : o = 6
        · subst h6; rfl
        · simp [exHeap, h4, h5, h6, Ne.symm h4, Ne.symm h5, Ne.symm h6]
  · refine ⟨trivial, ?_, .inr (by decide), trivial, ?_, .inr (by decide), by simp [OpOk], ?_, trivial, ?_,
      .inr (by decide), by simp [OpOk], ?_, .inr (by decide), trivial⟩ <;> simp [Spec.mentioned]

/-- C29, deviation: item assignment never releases the element it replaces. For every balanced list and every
valid index the replaced object is afterwards counted once more than it is held. -/
theorem C29_ObjectArrayList_setItem_leaks (cfg : Cfg) (H : OHost) (fuel : Nat) (hf : 0 < fuel) (ext : Obj → Nat)
    (s : OState) (i : Int) (p : Nat) (old new : Obj) (hb : Balanced ext s.heap s.vec) (hi : FitsS 64 i)
    (hp : Spec.position s.vec.length i = some p) (ho : s.vec[p]? = some old)
    (hn : s.heap.imm new = true ∨ 0 < ext new) :
    ∃ s', step cfg H fuel s (.setItem (.int i) new) = .ok s' .none ∧ s'.vec = s.vec.set p new ∧
      ∀ o, s.heap.imm o = false → s'.heap.rc o = ext o + s'.vec.count o + if o = old then 1 else 0 := by
  have hc : Covered ext s.heap s.vec := fun o h => Nat.le_of_eq (hb o h).symm
  obtain ⟨h', e, a⟩ := step_does cfg H fuel hf hc (op := .setItem (.int i) new) (by simp [OpOk])
    (fun o h => by rw [List.mem_singleton.1 h]; exact hn)
  have hw : Spec.word .indexError (.int i) = .ok i := by
    show (if Spec.InRange 64 i then _ else _) = _
    rw [if_pos (show Spec.InRange 64 i from hi)]
  have hs : Spec.ostep H s.vec (.setItem (.int i) new) = (s.vec.set p new, .ok .none) := by
    simp only [Spec.ostep, hw, hp]
    have hlt := ArrayList.position_lt hp
    rw [List.set_eq_take_append_cons_drop, if_pos hlt]
  have hl : leaked s.vec (.setItem (.int i) new) = [old] := by
    simp only [leaked, hw, hp, Option.bind_some, ho]
    rfl
  rw [hs] at e a
  rw [hl] at a
  refine ⟨_, e, rfl, fun o him => ?_⟩
  have q1 := a.2 o him
  have q2 := hb o him
  simp only [delta, Spec.carried, List.count_nil] at q1
  have : ([old].count o : Nat) = if o = old then 1 else 0 := by
    by_cases h : o = old
    · subst h; simp
    · simp [h, Ne.symm h]
  rw [this] at q1
  show h'.rc o = _
  dsimp only
  omega

example : Balanced (fun o => if o = 5 then 1 else 0) (exHeap fun o => if o = 4 ∨ o = 5 then 1 else 0) [4] ∧
    Spec.position [4].length 0 = some 0 := by
  refine ⟨?_, rfl⟩
  intro o ho
  by_cases h4 : o = 4
  · subst h4; rfl
  · by_cases h5 : o = 5
    · subst h5; rfl
    · simp [exHeap, h4, h5, Ne.symm h4]

/-- C29, deviation: `*= n` with `n ≤ 0` empties the list and releases nothing; likewise a shrinking `resize`. -/
theorem C29_ObjectArrayList_imul_resize_leak (cfg : Cfg) (H : OHost) (fuel : Nat) (s : OState) :
    (∀ n ≤ 0, step cfg H fuel s (.imul n) = .ok ⟨[], s.heap⟩ .self) ∧
    (∀ k : Nat, FitsS 64 k → k ≤ s.vec.length →
      step cfg H fuel s (.resize (.int k)) = .ok ⟨s.vec.take k, s.heap⟩ .none) := by
  refine ⟨fun n hn => ?_, fun k hk hle => ?_⟩
  · show imul fuel s n = _
    unfold imul
    by_cases h : n < 0
    · simp [h]
    · have : n = 0 := by omega
      subst this
      rfl
  · show resize H s (.int k) = _
    unfold resize
    have e : (asSsize (.int (k : Int))).1 = k := by
      have : FitsS 64 (k : Int) := hk
      unfold asSsize
      simp [this]
    simp only [e, Int.toNat_natCast]
    rw [if_neg (by omega), Nat.sub_eq_zero_of_le hle]
    simp

/-- C29, deviation: assigning a Python list (or a list of the same class) to a slice it is longer than stores the
additional objects without counting them: exactly the first `n` of them are counted, `n` the length of the slice. -/
theorem C29_ObjectArrayList_slice_growth_uncounted (cfg : Cfg) (H : OHost) (fuel : Nat) (ext : Obj → Nat) (s : OState)
    (sl : SliceArg) (i j : Option Int) (src : OSrc) (xs : List Obj) (hsrc : src = .same xs ∨ src = .list xs)
    (hf : Spec.fields sl = .ok (i, j, 1)) (hn : (s.vec.length : Int) ≤ ssizeMax)
    (hg : (Spec.positions s.vec.length i j 1).length < xs.length)
    (hb : Balanced ext s.heap s.vec) (hh : ∀ o ∈ xs, s.heap.imm o = true ∨ 0 < ext o) :
    ∃ s', step cfg H fuel s (.setSlice sl src) = .ok s' .none ∧ s'.vec = Spec.spliceAt s.vec i j xs ∧
      ∀ o, s.heap.imm o = false →
        s'.heap.rc o + (xs.drop (Spec.positions s.vec.length i j 1).length).count o = ext o + s'.vec.count o := by
  have hsz : sized src = some xs := by rcases hsrc with rfl | rfl <;> rfl
  have hfast : fast src = true := by rcases hsrc with rfl | rfl <;> rfl
  obtain ⟨e1, e2, e3, e4⟩ := elems_sized hsz s.vec
  have hc : Covered ext s.heap s.vec := fun o h => Nat.le_of_eq (hb o h).symm
  obtain ⟨start, stop, cnt, hadj, ⟨k, hk⟩, hs1, hs2, b1, b2, b3, b4, hcnt, hpos⟩ := slice_one hn hf
  obtain ⟨k1, k2, k3⟩ := k
  obtain ⟨q1, q2⟩ := hadj _ _ _ hk
  have hDlen : ((s.vec.take stop.toNat).drop start.toNat).length = stop.toNat - start.toNat := by
    simp only [List.length_drop, List.length_take]; omega
  have hsplit : s.vec = s.vec.take start.toNat ++ (s.vec.take stop.toNat).drop start.toNat ++
      s.vec.drop (max start.toNat stop.toNat) := by
    by_cases hle : start.toNat ≤ stop.toNat
    · rw [Nat.max_eq_right hle]
      conv => lhs; rw [← List.take_append_drop stop.toNat s.vec]
      congr 1
      conv => lhs; rw [← List.take_append_drop start.toNat (s.vec.take stop.toNat)]
      rw [List.take_take, Nat.min_eq_left hle]
    · rw [Nat.max_eq_left (by omega), List.drop_eq_nil_of_le (by simp; omega)]
      simp
  obtain ⟨h', r1, r2⟩ := replace_grow hsz _ _ _ start stop cnt hsplit
    (by simp; omega) (by rw [hcnt, hDlen]) (by rw [hDlen, ← hpos]; exact hg) hfast hc hh
  have hvec : s.vec.take start.toNat ++ xs ++ s.vec.drop (max start.toNat stop.toNat) =
      Spec.spliceAt s.vec i j xs := by
    simp only [Spec.spliceAt]
    rw [← hs1, ← hs2]
  refine ⟨⟨_, h'⟩, ?_, hvec, ?_⟩
  · show setSlice s sl src = _
    unfold setSlice
    rw [hk]
    simp only [q2]
    rw [if_neg (by simp [e3]), if_neg (by simp [q1]), e2, r1]
  · intro o ho
    have p1 := r2.2 o ho
    have p2 := hb o ho
    dsimp only at p1
    rw [hDlen, ← hpos] at p1
    have p3 : xs.count o = (xs.take (Spec.positions s.vec.length i j 1).length).count o +
        (xs.drop (Spec.positions s.vec.length i j 1).length).count o := by
      rw [← List.count_append, List.take_append_drop]
    have p4 : s.vec.count o = _ := congrArg (List.count o) hsplit
    simp only [List.count_append] at p4
    dsimp only
    simp only [List.count_append]
    omega

example : Spec.fields ⟨some (.int 1), some (.int 2), none⟩ = .ok (some 1, some 2, 1) ∧
    (Spec.positions [4, 5, 6].length (some 1) (some 2) 1).length < [7, 7].length := ⟨rfl, by decide⟩

/-- C29, deviation in use: for every mortal object `o` the client holds once, `l[0:0] = [o]` followed by the client
giving up `o` leaves a freed object in the list, and reading it is a use after free. -/
theorem C29_ObjectArrayList_use_after_free (cfg : Cfg) (H : OHost) (fuel : Nat) (h : Heap) (o : Obj)
    (hm : h.imm o = false) (hr : h.rc o = 1) :
    let s : OState := ⟨[], h⟩
    let ev : List OEvent := [.call (.setSlice ⟨some (.int 0), some (.int 0), none⟩ (.list [o])), .drop o]
    (∃ s', play cfg H fuel s ev = some s' ∧ s'.vec = [o] ∧ s'.heap.rc o = 0 ∧
      step cfg H fuel s' (.get (.idx (.int 0))) = .ub .useAfterFree) ∧
    SessionOk H h.imm (fun x => if x = o then 1 else 0) [] [.call (.append o), .drop o] := by
  refine ⟨?_, ⟨trivial, ?_, ?_, trivial⟩⟩
  · refine ⟨⟨[o], h.set o 0⟩, ?_, rfl, by simp [Heap.set], ?_⟩
    · rw [play]
      have : step cfg H fuel ⟨[], h⟩ (.setSlice ⟨some (.int 0), some (.int 0), none⟩ (.list [o])) = .ok ⟨[o], h⟩ .none := rfl
      rw [this]
      show play cfg H fuel _ [.drop o] = _
      rw [play]
      have : h.decref o = .ok (h.set o 0) := by simp [Heap.decref, hm, hr]
      rw [this]
      rfl
    · show subscript ⟨[o], h.set o 0⟩ (.idx (.int 0)) = _
      have e : asSsizeIndex (.int 0) = (0, none) := rfl
      simp only [subscript, e]
      simp [getItem, Heap.incref, Heap.set, hm, withHeap]
  · intro x hx
    rw [List.mem_singleton.1 hx]
    right; simp
  · right; simp [Spec.receive, Spec.ostep, Spec.carried]

example : (exHeap fun _ => 1).imm 4 = false ∧ (exHeap fun _ => 1).rc 4 = 1 := ⟨rfl, rfl⟩

/-- C29, deviation: constructing a list from a list of the same class shares the references. For every non-empty
list of mortal objects nobody else holds, the copy is left with freed objects when the original dies. -/
theorem C29_ObjectArrayList_constructor_uncounted (h : Heap) (v : List Obj) (hv : v ≠ [])
    (hm : ∀ o ∈ v, h.imm o = false) (hb : Balanced (fun _ => 0) h v) :
    ∃ s' h1, init h (some (.same v)) = .ok s' () ∧ s'.vec = v ∧ dealloc ⟨v, h⟩ = .ok h1 ∧
      (∀ o ∈ s'.vec, h1.rc o = 0) ∧ dealloc ⟨s'.vec, h1⟩ = .error .useAfterFree := by
  obtain ⟨h1, e, a⟩ := decrefs_ok (h := h) (xs := v) (fun o ho => by have := hb o ho; omega)
  have hz : ∀ o ∈ v, h1.rc o = 0 := by
    intro o ho
    have q1 := a.2 o (hm o ho)
    have q2 := hb o (hm o ho)
    dsimp only at q1 q2
    omega
  refine ⟨⟨v, h⟩, h1, rfl, rfl, e, hz, ?_⟩
  cases v with
  | nil => exact absurd rfl hv
  | cons x xs =>
    show Heap.decrefs _ _ = _
    have him : h1.imm x = false := by rw [a.1]; exact hm x (by simp)
    rw [Heap.decrefs]
    simp [Heap.decref, him, hz x (by simp)]

example : Balanced (fun _ => 0) (exHeap fun o => if o = 4 then 2 else 0) [4, 4] := by
  intro o ho
  by_cases h4 : o = 4
  · subst h4; rfl
  · simp [exHeap, h4, Ne.symm h4]

/-- C29 (constructor from a Python list or tuple, or any other iterable that does not raise): every object is
counted once per position. -/
theorem C29_ObjectArrayList_constructor_partial (ext : Obj → Nat) (h : Heap) (src : OSrc) (xs : List Obj)
    (hs : src = .list xs ∨ src = .tuple xs ∨ src = .seq xs ∨ src = .seqNoLen xs ∨ src = .iter xs none)
    (hb : Balanced ext h []) (hh : src = .list xs ∨ src = .tuple xs → ∀ o ∈ xs, h.imm o = true ∨ 0 < ext o) :
    ∃ s', init h (some src) = .ok s' () ∧ s'.vec = xs ∧ Balanced ext s'.heap s'.vec := by
  have key : ∀ h', Adj h h' (fun x => ((xs.count x : Nat) : Int)) → Balanced ext h' xs := by
    intro h' a o ho
    rw [a.1] at ho
    have q1 := a.2 o ho
    have q2 := hb o ho
    simp only [List.count_nil] at q2
    dsimp only at q1
    omega
  have hp : ∃ s', pushNew xs ⟨[], h⟩ = s' ∧ s'.vec = xs ∧ Balanced ext s'.heap s'.vec := by
    obtain ⟨h', e, a⟩ := pushNew_ok xs ⟨[], h⟩
    refine ⟨_, e, by simp, ?_⟩
    have := key h' a
    simpa using this
  have hinc : (src = .list xs ∨ src = .tuple xs) → ∃ h', h.increfs xs = .ok h' ∧ Balanced ext h' xs := by
    intro hq
    obtain ⟨h', e, a⟩ := increfs_ok (h := h) (xs := xs) (fun o ho => by
      rcases hh hq o ho with h1 | h1
      · exact .inl h1
      · by_cases him : h.imm o = true
        · exact .inl him
        · right
          have := hb o (by simpa using him)
          omega)
    exact ⟨h', e, key h' a⟩
  rcases hs with rfl | rfl | rfl | rfl | rfl
  · obtain ⟨h', e, b⟩ := hinc (.inl rfl)
    exact ⟨⟨xs, h'⟩, by simp only [init, e]; rfl, rfl, b⟩
  · obtain ⟨h', e, b⟩ := hinc (.inr rfl)
    exact ⟨⟨xs, h'⟩, by simp only [init, e]; rfl, rfl, b⟩
  · obtain ⟨s', e, b⟩ := hp
    exact ⟨s', by simp only [init, e], b⟩
  · obtain ⟨s', e, b⟩ := hp
    exact ⟨s', by simp only [init, e], b⟩
  · obtain ⟨s', e, b⟩ := hp
    exact ⟨s', by simp only [init, e], b⟩

example : Balanced (fun o => if o = 4 then 1 else 0) (exHeap fun o => if o = 4 then 1 else 0) [] :=
  fun o _ => by simp [exHeap]

/-- C29, deviation (CPython before 3.12, where None is counted): a growing `resize` stores None without counting
it. -/
theorem C29_ObjectArrayList_resize_growth_uncounted (cfg : Cfg) (H : OHost) (fuel : Nat) (ext : Obj → Nat) (s : OState)
    (k : Nat) (hk : FitsS 64 k) (hle : s.vec.length ≤ k) (hm : s.heap.imm H.none = false)
    (hb : Balanced ext s.heap s.vec) :
    ∃ s', step cfg H fuel s (.resize (.int k)) = .ok s' .none ∧
      s'.vec = s.vec ++ List.replicate (k - s.vec.length) H.none ∧
      s'.heap.rc H.none + (k - s.vec.length) = ext H.none + s'.vec.count H.none := by
  refine ⟨⟨s.vec ++ List.replicate (k - s.vec.length) H.none, s.heap⟩, ?_, rfl, ?_⟩
  · show resize H s (.int k) = _
    unfold resize
    have e : (asSsize (.int (k : Int))).1 = k := by
      have : FitsS 64 (k : Int) := hk
      unfold asSsize
      simp [this]
    simp only [e, Int.toNat_natCast]
    rw [if_neg (by omega), List.take_of_length_le hle]
  · have := hb _ hm
    simp only [List.count_append, List.count_replicate_self]
    omega

/-! ## C30 search -/

/-- C30 (ObjectArrayList). `index`, `count` and `remove` agree with a Python list when no element is equal to the
sought object without being that object; `in` moreover only for ints and for objects not in the list. -/
theorem C30_ObjectArrayList_search_partial (cfg : Cfg) (H : OHost) (fuel : Nat) (hf : 0 < fuel) (ext : Obj → Nat)
    (s : OState) (o : Obj) (hc : Covered ext s.heap s.vec) (ho : s.heap.imm o = true ∨ 0 < ext o)
    (hid : OObj.IdEq H s.vec o) :
    (∀ i j, ArrayList.BoundOk i → ArrayList.BoundOk j →
      OAgrees (step cfg H fuel s (.index o i j)) (Spec.ostep H s.vec (.index o i j))) ∧
    OAgrees (step cfg H fuel s (.count o)) (Spec.ostep H s.vec (.count o)) ∧
    OAgrees (step cfg H fuel s (.remove o)) (Spec.ostep H s.vec (.remove o)) ∧
    (H.isInt o = true ∨ o ∉ s.vec →
      OAgrees (step cfg H fuel s (.contains o)) (Spec.ostep H s.vec (.contains o))) := by
  have hh : ∀ op, Spec.mentioned op = [o] → Held ext s.heap op := by
    intro op e x hx
    rw [e] at hx
    rw [List.mem_singleton.1 hx]
    exact ho
  exact ⟨fun i j h1 h2 => (step_does cfg H fuel hf hc (op := .index o i j) ⟨hid, h1, h2⟩ (hh _ rfl)).agrees,
    (step_does cfg H fuel hf hc (op := .count o) hid (hh _ rfl)).agrees,
    (step_does cfg H fuel hf hc (op := .remove o) hid (hh _ rfl)).agrees,
    fun h => (step_does cfg H fuel hf hc (op := .contains o) ⟨hid, h⟩ (hh _ rfl)).agrees⟩

example : OObj.IdEq exHost [4, 5, 4] 4 := by
  show ∀ x ∈ _, _
  decide

/-- C30, deviation: an element that is equal to the sought object but is another object is never found, for all
objects and all positions. -/
theorem C30_ObjectArrayList_misses_equal (cfg : Cfg) (H : OHost) (fuel : Nat) (s : OState) (x o : Obj)
    (hv : ∀ y ∈ s.vec, y = x) (hne : s.vec ≠ []) (hxo : x ≠ o) (heq : H.rich .eq x o = .ok true) :
    (step cfg H fuel s (.index o none none) = .exc s .valueError ∧
      Spec.ostep H s.vec (.index o none none) = (s.vec, .ok (.int 0))) ∧
    (step cfg H fuel s (.count o) = .ok s (.int 0) ∧
      Spec.ostep H s.vec (.count o) = (s.vec, .ok (.int s.vec.length))) ∧
    (step cfg H fuel s (.remove o) = .exc s .valueError ∧
      Spec.ostep H s.vec (.remove o) = (s.vec.tail, .ok .none)) ∧
    (step cfg H fuel s (.contains o) = .ok s (.bool false) ∧
      Spec.ostep H s.vec (.contains o) = (s.vec, .ok (.bool true))) := by
  have hnm : o ∉ s.vec := fun h => hxo (hv o h).symm
  have hfind : ArrayList.findFrom s.vec 0 s.vec.length o = none := by
    rw [ArrayList.findFrom_eq _ _ _ _ (Nat.le_refl _)]
    unfold Spec.firstAt
    rw [List.find?_eq_none]
    intro k _
    simp only [decide_eq_true_eq]
    rintro ⟨_, _, h⟩
    exact hnm (List.mem_of_getElem? h)
  have hsame : Spec.same H x o = .ok true := by simp [Spec.same, hxo, heq]
  have hsearch : ∀ l : List Obj, (∀ y ∈ l, y = x) → l ≠ [] → Spec.search H o l = .ok (some 0) := by
    intro l hl hn
    cases l with
    | nil => exact absurd rfl hn
    | cons a l =>
      rw [hl a (by simp), Spec.search, hsame]
  have hocc : ∀ l : List Obj, (∀ y ∈ l, y = x) → Spec.occurrences H o l = .ok l.length := by
    intro l hl
    induction l with
    | nil => rfl
    | cons a l ih =>
      rw [hl a (by simp), Spec.occurrences, hsame]
      simp only
      rw [ih (fun y hy => hl y (by simp [hy]))]
      rfl
  refine ⟨⟨?_, ?_⟩, ⟨?_, ?_⟩, ⟨?_, ?_⟩, ⟨?_, ?_⟩⟩
  · show index s o none none = _
    unfold index
    simp only
    have h0 : ¬ ((0 : Int) < 0) := by omega
    have h1 : ¬ ((s.vec.length : Int) < 0) := by omega
    have h2 : ¬ ((s.vec.length : Int) > s.vec.length) := by omega
    have h3 : ¬ ((0 : Int) > s.vec.length) := by omega
    simp only [h0, h1, h2, if_false, Int.toNat_zero, Int.toNat_natCast, hfind]
  · simp only [Spec.ostep, Spec.field, Option.map_none, Option.getD_none, Int.toNat_zero, Int.toNat_natCast,
      List.take_length, List.drop_zero, hsearch _ hv hne]
    rfl
  · show count s o = _
    unfold count
    rw [List.count_eq_zero.2 hnm]
    rfl
  · simp only [Spec.ostep, hocc _ hv]
  · show remove s o = _
    unfold remove
    rw [hfind]
  · simp only [Spec.ostep, hsearch _ hv hne]
    cases s.vec <;> simp
  · show contains H s o = _
    unfold contains
    rw [hfind]
    split <;> rfl
  · simp only [Spec.ostep, hsearch _ hv hne]
    rfl

example : (2 : Obj) ≠ 3 ∧ exHost.rich .eq 2 3 = .ok true := ⟨by decide, rfl⟩

/-- C30, deviation: `in` answers False for every object that is not an int, also for the elements of the list. -/
theorem C30_ObjectArrayList_in_false (cfg : Cfg) (H : OHost) (fuel : Nat) (s : OState) (o : Obj)
    (hi : H.isInt o = false) : step cfg H fuel s (.contains o) = .ok s (.bool false) := by
  show contains H s o = _
  simp [contains, hi]

example : exHost.isInt 12 = false ∧ Spec.ostep exHost [12] (.contains 12) = ([12], .ok (.bool true)) := ⟨rfl, rfl⟩

/-! ## C31 comparison -/

/-- C31 (ObjectArrayList). `==` always, and the other operators in the domain `CmpOk`, answer like a Python list. -/
theorem C31_ObjectArrayList_compare_partial (cfg : Cfg) (H : OHost) (fuel : Nat) (hf : 0 < fuel) (ext : Obj → Nat)
    (s : OState) (op : CmpOp) (src : OSrc) (hc : Covered ext s.heap s.vec) (hh : Held ext s.heap (.cmp op src))
    (hok : OObj.CmpOk H op s.vec src) :
    OAgrees (step cfg H fuel s (.cmp op src)) (Spec.ostep H s.vec (.cmp op src)) :=
  (step_does cfg H fuel hf hc (op := .cmp op src) hok hh).agrees

/-- C31 (ObjectArrayList). `==` with a list of the class, itself or a Python list is always Python's `==`, whatever
the elements answer or raise. -/
theorem C31_ObjectArrayList_eq (cfg : Cfg) (H : OHost) (fuel : Nat) (hf : 0 < fuel) (ext : Obj → Nat) (s : OState)
    (src : OSrc) (r : List Obj) (hr : Spec.asList s.vec src = some r) (hc : Covered ext s.heap s.vec)
    (hh : Held ext s.heap (.cmp .eq src)) :
    OAgrees (step cfg H fuel s (.cmp .eq src)) (s.vec, (Spec.ocompare H .eq s.vec r).map .bool) := by
  have := C31_ObjectArrayList_compare_partial cfg H fuel hf ext s .eq src hc hh (by
    unfold OObj.CmpOk
    rw [hr]
    trivial)
  have e : Spec.ostep H s.vec (.cmp .eq src) = (s.vec, (Spec.ocompare H .eq s.vec r).map .bool) := by
    simp only [Spec.ostep, Spec.ocmp, hr]
  rw [e] at this
  exact this

example : OObj.CmpOk exHost .lt [4, 5] (.list [5, 1]) ∧ OObj.CmpOk exHost .ne [2, 5] (.same [3, 5]) ∧
    Covered (fun _ => 1) (exHeap fun _ => 9) [4, 5] := by
  refine ⟨?_, ?_, ?_⟩
  · exact ⟨rfl, .inl ⟨by decide, rfl⟩⟩
  · show ∀ x ∈ _, _
    decide
  · intro o _
    have : List.count o [4, 5] ≤ 2 := List.count_le_length
    show 1 + _ ≤ 9
    omega

/-- C31, deviation: lists of different lengths. All four order operators answer whether the list is shorter, whatever
the elements are. -/
theorem C31_ObjectArrayList_order_lengths (cfg : Cfg) (H : OHost) (fuel : Nat) (s : OState) (op : CmpOp)
    (hop : op = .lt ∨ op = .le ∨ op = .gt ∨ op = .ge) (src : OSrc) (r : List Obj)
    (hr : Spec.asList s.vec src = some r) (hl : r.length ≠ s.vec.length) :
    step cfg H fuel s (.cmp op src) = .ok s (.bool (decide (s.vec.length < r.length))) := by
  have : step cfg H fuel s (.cmp op src) = ord H op s src := by
    rcases hop with rfl | rfl | rfl | rfl <;> rfl
  rw [this, ord_lengths hr hl]

/-- Two lists on which that is wrong for every operator: `[1] > [0, 0]` is True in Python. -/
example : Spec.ocompare exHost .gt [1] [0, 0] = .ok true ∧ Spec.ocompare exHost .lt [1] [0, 0] = .ok false := ⟨rfl, rfl⟩

/-- C31, deviation: lists of equal positive length. The answer is that for the first elements alone; with the same
first object the rest is never looked at. -/
theorem C31_ObjectArrayList_order_first (cfg : Cfg) (H : OHost) (fuel : Nat) (s : OState) (op : CmpOp)
    (hop : op = .lt ∨ op = .le ∨ op = .gt ∨ op = .ge) (src : OSrc) (x y : Obj) (xs ys : List Obj)
    (hv : s.vec = x :: xs) (hr : Spec.asList s.vec src = some (y :: ys)) (hl : xs.length = ys.length)
    (hx : s.heap.imm x = true ∨ 0 < s.heap.rc x) :
    ∃ h', Adj s.heap h' (fun _ => 0) ∧ step cfg H fuel s (.cmp op src) =
      match H.rich op x y with
      | .ok b => .ok ⟨s.vec, h'⟩ (.bool b)
      | .error e => .exc ⟨s.vec, h'⟩ e := by
  have e1 : step cfg H fuel s (.cmp op src) = ord H op s src := by
    rcases hop with rfl | rfl | rfl | rfl <;> rfl
  obtain ⟨h', e2, a⟩ := compare1_ok H op x y s.heap hx
  refine ⟨h', a, ?_⟩
  have e3 : H.richBool op x y = H.rich op x y := by
    unfold OHost.richBool
    rcases hop with rfl | rfl | rfl | rfl <;> simp
  rw [e1, ord_heads hv hr hl, e2, e3]
  cases H.rich op x y <;> rfl

/-- `[4, 5] < [4, 6]` is True in Python and `4 < 4` is not. -/
example : Spec.ocompare exHost .lt [4, 5] [4, 6] = .ok true ∧ exHost.rich .lt 4 4 = .ok false := ⟨rfl, rfl⟩

/-- C31, deviation: an empty list is neither `<=` nor `>=` an empty list. -/
theorem C31_ObjectArrayList_empty (cfg : Cfg) (H : OHost) (fuel : Nat) (h : Heap) (op : CmpOp)
    (hop : op = .le ∨ op = .ge) :
    step cfg H fuel ⟨[], h⟩ (.cmp op (.list [])) = .ok ⟨[], h⟩ (.bool false) ∧
    Spec.ostep H [] (.cmp op (.list [])) = ([], .ok (.bool true)) := by
  rcases hop with rfl | rfl <;> exact ⟨rfl, rfl⟩

/-! ## C32 slice assignment -/

/-- C32 (ObjectArrayList). `l[a:b] = s` with a sized sequence other than the list itself replaces exactly the
addressed elements, whatever the lengths. -/
theorem C32_ObjectArrayList_slice_assignment_partial (cfg : Cfg) (H : OHost) (fuel : Nat) (hf : 0 < fuel)
    (ext : Obj → Nat) (s : OState) (sl : SliceArg) (i j : Option Int) (src : OSrc) (xs : List Obj)
    (hs : sized src = some xs) (hfl : Spec.fields sl = .ok (i, j, 1)) (hn : (s.vec.length : Int) ≤ ssizeMax)
    (hb : Balanced ext s.heap s.vec) (hh : ∀ o ∈ xs, s.heap.imm o = true ∨ 0 < ext o) :
    ∃ s', step cfg H fuel s (.setSlice sl src) = .ok s' .none ∧ s'.vec = Spec.spliceAt s.vec i j xs ∧
      (xs.length ≤ (Spec.positions s.vec.length i j 1).length ∨ src = .tuple xs ∨ src = .seq xs →
        Balanced ext s'.heap s'.vec) := by
  have hm : Spec.mentioned (.setSlice sl src) = xs := by
    cases src <;> simp_all [sized, Spec.mentioned]
  have hitems : Spec.oitems s.vec src = .ok (xs, none) := by
    cases src <;> simp_all [sized, Spec.oitems]
  have hc : Covered ext s.heap s.vec := fun o h => Nat.le_of_eq (hb o h).symm
  have hspec : Spec.ostep H s.vec (.setSlice sl src) = (Spec.spliceAt s.vec i j xs, .ok .none) := by
    simp only [Spec.ostep, hfl, hitems, if_true]
  by_cases hg : growsUncounted s.vec sl src
  · have hg' : (src = .same xs ∨ src = .list xs) ∧ (Spec.positions s.vec.length i j 1).length < xs.length := by
      unfold growsUncounted at hg
      rw [hfl] at hg
      cases src <;> simp_all [sized]
    obtain ⟨s', e, hv, _⟩ := C29_ObjectArrayList_slice_growth_uncounted cfg H fuel ext s sl i j src xs hg'.1 hfl hn
      hg'.2 hb hh
    refine ⟨s', e, hv, fun h => ?_⟩
    rcases h with h | h | h
    · omega
    · rcases hg'.1 with rfl | rfl <;> cases h
    · rcases hg'.1 with rfl | rfl <;> cases h
  · obtain ⟨h', e, a⟩ := step_does cfg H fuel hf hc (op := .setSlice sl src)
      ⟨hn, .inr ⟨by rw [hs]; rfl, fun i' j' k hk => by rw [hfl] at hk; cases hk; rfl, hg⟩⟩
      (fun o ho => by rw [hm] at ho; exact hh o ho)
    rw [hspec] at e a
    refine ⟨_, e, rfl, fun _ => ?_⟩
    have := balanced_after hb a
    simpa [Spec.carried] using this

example : sized (.list [7, 8]) = some [7, 8] ∧ Spec.fields ⟨some (.int 0), some (.int 1), none⟩ = .ok (some 0, some 1, 1) :=
  ⟨rfl, rfl⟩

/-- C32, deviation: any step other than 1 is refused, also for a value of the right length. -/
theorem C32_ObjectArrayList_step_refused (cfg : Cfg) (H : OHost) (fuel : Nat) (s : OState) (sl : SliceArg)
    (i j : Option Int) (k : Int) (src : OSrc) (hfl : Spec.fields sl = .ok (i, j, k)) (hk : k ≠ 1)
    (hs : src.isSequence = true) : step cfg H fuel s (.setSlice sl src) = .exc s .notImplementedError := by
  have e := (sliceUnpack_fields sl).1
  rw [hfl] at e
  show setSlice s sl src = _
  unfold setSlice
  rw [e]
  simp only
  rw [if_neg (by simp [hs]), if_pos]
  simp only [clampSsize, ssizeMax]
  split <;> omega

example : Spec.fields ⟨none, none, some (.int 2)⟩ = .ok (none, none, 2) := rfl

/-- C32, deviation: assigning a non-empty list to its own full slice releases the first element and then reads the
null pointer left in its place, for every list. -/
theorem C32_ObjectArrayList_self_slice_null (cfg : Cfg) (H : OHost) (fuel : Nat) (s : OState)
    (hn : (s.vec.length : Int) ≤ ssizeMax) (hne : s.vec ≠ [])
    (hl : ∀ o ∈ s.vec, s.heap.imm o = true ∨ 0 < s.heap.rc o) :
    step cfg H fuel s (.setSlice ⟨none, none, none⟩ .self) = .ub .nullDeref := by
  have hfl : Spec.fields ⟨none, none, none⟩ = .ok (none, none, 1) := rfl
  obtain ⟨start, stop, cnt, hadj, ⟨k, hk⟩, hs1, hs2, b1, b2, b3, b4, hcnt, hpos⟩ := slice_one hn hfl
  obtain ⟨k1, k2, k3⟩ := k
  obtain ⟨q1, q2⟩ := hadj _ _ _ hk
  simp only [Option.map_none, Option.getD_none] at hs1 hs2
  subst hs1 hs2
  show setSlice s ⟨none, none, none⟩ .self = _
  unfold setSlice
  rw [hk]
  simp only [q2]
  rw [if_neg (by simp [OSrc.isSequence]), if_neg (by simp [q1])]
  unfold replace
  have hc2 : cnt = s.vec.length := by rw [hcnt]; simp
  rw [if_pos (by simp [OSrc.size, hc2])]
  have : copyIn .self (0 : Int).toNat cnt.toNat (s.vec.map some) s.heap = .error .nullDeref := by
    rw [hc2]
    simp only [copyIn, fast, if_true, fastCopy, Int.toNat_natCast, Int.toNat_zero]
    cases hv : s.vec with
    | nil => exact absurd hv hne
    | cons x xs =>
      obtain ⟨h', e, _⟩ := decref_ok (h := s.heap) (o := x) (hl x (by simp [hv]))
      simp [swapRefs, e, srcSlots]
  rw [this]

end
end Verif.Props
