import Verif.Lemmas.Construct

/-!
# C62: constructor calls with any arguments

`Fits`, `IsArg`, `Sized` and `expected` (Spec/Construct.lean) say how arguments are bound to the parameters and which
elements an iterable stands for. The arguments are any objects, whose code works on a state `W`; `code` gives the
`__index__` of the objects in a Python list or tuple.
-/

namespace Verif.Props

open Verif.Construct Verif.Foreign

variable {W : Type}

/-- `IntArrayList(…)` and `BigIntArrayList(…)`: a call that fits the parameters, with an iterable, makes the list of the
expected elements and runs the code that is expected to run; if an exception is expected, there is one at that point.
Missing: list subclasses with their own `__iter__` (`C62_subclass_negation`), elements whose code changes the Python list
that is read (`C62_memory_negation`), ints between 32 and 64 bits (C49), and the exception raised may be another one
(`C62_exception_negation`). -/
theorem C62_array_partial (K : Kind) (room : Nat → Bool) (code : Nat → Live W) (c : Call W) (w w1 w' : W) (t : Thing W)
    (r : Except Exc (List Int)) (hc : Proper c) (hf : Fits ["iterable", "exceptSize"] c) (ht : IsArg c 0 "iterable" t)
    (hs : Sized room c w w1) (hi : ∀ v, t.what ≠ .int v) (hp : ∀ p, t.what.pyList = some p → Apart code p)
    (hsub : ∀ p it, t.what ≠ .sub p it) (he : expected K.bits code w1 t.what = (w', r)) :
    match r with
    | .ok vs => initArray K room code c w = .ok (w', vs) ()
    | .error e => K = .i64 ∨ e ≠ .overflowError → ∃ l e', initArray K room code c w = .exc (w', l) e' := by
  have hin : initArray K room code c w = elements K code w1 t.what := initWith_eq hc hf ht hs hi
  have hfol := elements_follow (K := K) (w := w1) hp hsub
  rw [he] at hfol
  rw [hin]
  cases r with
  | ok vs => simpa [Follows] using hfol
  | error e => exact hfol

/-- `IntLinkedList(…)`, likewise. -/
theorem C62_linked_partial (code : Nat → Live W) (c : Call W) (w w' : W) (t : Thing W) (r : Except Exc (List Int))
    (hc : Proper c) (hf : Fits ["iterable"] c) (ht : IsArg c 0 "iterable" t)
    (hp : ∀ p, t.what.pyList = some p → Apart code p) (hsub : ∀ p it, t.what ≠ .sub p it)
    (he : expected 32 code w t.what = (w', r)) :
    match r with
    | .ok vs => initLinked code c w = .ok (w', vs) ()
    | .error e => e ≠ .overflowError → ∃ l e', initLinked code c w = .exc (w', l) e' := by
  have hin : initLinked code c w = elements .i32 code w t.what := linkedWith_eq hc hf ht
  have hfol := elements_follow (K := .i32) (w := w) hp hsub
  have he : expected Kind.i32.bits code w t.what = (w', r) := he
  rw [he] at hfol
  rw [hin]
  cases r with
  | ok vs => simpa [Follows] using hfol
  | error e => exact fun h => hfol (.inr h)

/-- `ObjectArrayList(…)`: the list has exactly the objects that are expected, also when a list or a tuple among the arguments
has elements that run code. Missing: list subclasses with their own `__iter__`; the exception raised may be another one. -/
theorem C62_object_array_partial (room : Nat → Bool) (code : Nat → Live W) (c : Call W) (w w1 w' : W) (t : Thing W)
    (r : Except Exc (List (Live W))) (hc : Proper c) (hf : Fits ["iterable", "exceptSize"] c)
    (ht : IsArg c 0 "iterable" t) (hs : Sized room c w w1) (hi : ∀ v, t.what ≠ .int v)
    (hsub : ∀ p it, t.what ≠ .sub p it) (he : expectedObjects code w1 t.what = (w', r)) :
    match r with
    | .ok xs => initObjArray room code c w = .ok (w', xs) ()
    | .error _ => ∃ l e, initObjArray room code c w = .exc (w', l) e := by
  have hin : initObjArray room code c w = objects code w1 t.what := initWith_eq hc hf ht hs hi
  have h := objects_eq (code := code) (w := w1) hsub
  rw [he] at h
  rw [hin]
  cases r <;> exact h

/-- `ObjectLinkedList(…)`, likewise. -/
theorem C62_object_linked_partial (code : Nat → Live W) (c : Call W) (w w' : W) (t : Thing W)
    (r : Except Exc (List (Live W))) (hc : Proper c) (hf : Fits ["iterable"] c) (ht : IsArg c 0 "iterable" t)
    (hsub : ∀ p it, t.what ≠ .sub p it) (he : expectedObjects code w t.what = (w', r)) :
    match r with
    | .ok xs => initObjLinked code c w = .ok (w', xs) ()
    | .error _ => ∃ l e, initObjLinked code c w = .exc (w', l) e := by
  have hin : initObjLinked code c w = objects code w t.what := linkedWith_eq hc hf ht
  have h := objects_eq (code := code) (w := w) hsub
  rw [he] at h
  rw [hin]
  cases r <;> exact h

/-- Without an iterable an array list is empty: no argument at all, only `exceptSize`, or an int in place of the iterable,
which then is the size to reserve (and the argument `exceptSize` does not matter). -/
theorem C62_empty (K : Kind) (room : Nat → Bool) (code : Nat → Live W) (c : Call W) (w w1 : W) (hc : Proper c)
    (hf : Fits ["iterable", "exceptSize"] c) (hs : Sized room c w w1)
    (ht : (∀ t, ¬ IsArg c 0 "iterable" t) ∨
      ∃ t v, IsArg c 0 "iterable" t ∧ t.what = .int v ∧ -(2 ^ 63) ≤ v ∧ v < 2 ^ 63 ∧ (0 < v → room v.toNat = true)) :
    initArray K room code c w = .ok (w1, []) () ∧ initObjArray room code c w = .ok (w1, []) () :=
  ⟨initWith_empty hc hf hs ht, initWith_empty hc hf hs ht⟩

/-- `IntLinkedList(…)` and `ObjectLinkedList(…)` with arguments that do not fit raise TypeError and run no code. -/
theorem C62_linked_bad_call (code : Nat → Live W) (c : Call W) (w : W) (hc : Proper c) (hf : ¬ Fits ["iterable"] c) :
    initLinked code c w = .exc (w, []) .typeError ∧ initObjLinked code c w = .exc (w, []) .typeError :=
  ⟨linkedWith_bad hc hf, linkedWith_bad hc hf⟩

/-- The array lists: every call with arguments that do not fit, with an `exceptSize` that raises or is too large, or with
an int beyond the machine's word in place of the iterable, "succeeds" with an empty list while the exception is set. -/
theorem C62_bad_call_negation (K : Kind) (room : Nat → Bool) (code : Nat → Live W) (c : Call W) (w : W) (hc : Proper c)
    (h : ¬ Fits ["iterable", "exceptSize"] c ∨
      (∃ t w' e, IsArg c 1 "exceptSize" t ∧ t.index.run w = (w', .error e)) ∨
      (∃ t w' n, IsArg c 1 "exceptSize" t ∧ t.index.run w = (w', .ok n) ∧ ¬ (-(2 ^ 63) ≤ n ∧ n < 2 ^ 63)) ∨
      ∃ t v w', IsArg c 0 "iterable" t ∧ t.what = .int v ∧ ¬ (-(2 ^ 63) ≤ v ∧ v < 2 ^ 63) ∧ Sized room c w w') :
    (∃ w' e, initArray K room code c w = .pending (w', []) () e) ∧
    ∃ w' e, initObjArray room code c w = .pending (w', []) () e :=
  ⟨initWith_bad hc h, initWith_bad hc h⟩

/-- No call reads memory that a Python list among the arguments no longer has, if the code of the elements neither moves
nor shortens that list; tuples and other iterables need no such condition. Missing: code that does
(`C62_memory_negation`). -/
theorem C62_memory_partial (K : Kind) (room : Nat → Bool) (code : Nat → Live W) (c : Call W) (w : W) (hc : Proper c)
    (hp : ∀ t p, IsArg c 0 "iterable" t → t.what.pyList = some p → Stays code p) (u : UB) :
    initArray K room code c w ≠ .ub u ∧ initLinked code c w ≠ .ub u := by
  constructor
  · have key := fun g => parseArgs_given (g := g) hc (w := w)
    unfold initArray initWith
    rcases hpa : parseArgs c w with ⟨w1, g, n, e⟩
    rw [hpa] at key
    dsimp only at key ⊢
    split
    · simp
    · cases g with
      | none => cases e <;> simp [leave]
      | some g =>
        obtain ⟨t, ht, hg⟩ := key g rfl
        have hs := elements_safe (K := K) (w := w1) (g := g) (fun p hp' => hp t p ht (hg ▸ hp')) u
        dsimp only
        cases hel : elements K code w1 g with
        | ok s a => cases e <;> simp [leave]
        | exc s e' => simp [leave]
        | pending s a e' => simp [leave]
        | ub u' =>
          rw [hel] at hs
          exact hs
  · unfold initLinked linkedWith
    rcases hpo : parseO c with e | _ | t
    · simp
    · simp
    · have ht : pick c 0 "iterable" = some t := by
        unfold parseO at hpo
        split at hpo
        · cases hpo
        · split at hpo
          · cases hpo
          · exact Except.ok.inj hpo
      exact elements_safe (fun p hp' => hp t p ((pick_iff hc).1 ht) hp') u

/-- Every list of two or more elements: if the code of the first one makes the list move to another block (clearing it, or
making it grow, does), the constructor reads the freed block. -/
theorem C62_memory_negation (K : Kind) (room : Nat → Bool) (code : Nat → Live W) (p : PyList W) (ix : Live W) (w w' : W)
    (x y : Nat) (xs : List Nat) (v : Int) (hp : p.items w = x :: y :: xs) (hx : (code x).run w = (w', .ok v))
    (hv : -(2 ^ 63) ≤ v ∧ v < 2 ^ 63) (hb : p.block w' ≠ p.block w) :
    initArray K room code ⟨[⟨.list p, ix⟩], []⟩ w = .ub .useAfterFree ∧
    initLinked code ⟨[⟨.list p, ix⟩], []⟩ w = .ub .useAfterFree := by
  have hfit : FitsS 64 v := hv
  have key : ∀ K, elements K code w (.list p) = .ub .useAfterFree := by
    intro K
    have hc : conv (toElem K) (code x) w = (w', (wrapS K.bits v, none)) := by
      simp only [conv, hx, toElem, asLong, hfit, if_true]
    simp [elements, hp, fastLoop, hc, hb]
  constructor
  · simp [initArray, initWith, parseArgs, parseOn, pick, used, convOr, key, leave]
  · simp [initLinked, linkedWith, parseO, pick, used, key]

/-- Every list of two or more elements that stays where it is: if the code of the first one leaves it with at most one
element, the constructor reads behind the end. -/
theorem C62_shrunk_negation (K : Kind) (room : Nat → Bool) (code : Nat → Live W) (p : PyList W) (ix : Live W) (w w' : W)
    (x y : Nat) (xs : List Nat) (v : Int) (hp : p.items w = x :: y :: xs) (hx : (code x).run w = (w', .ok v))
    (hv : -(2 ^ 63) ≤ v ∧ v < 2 ^ 63) (hb : p.block w' = p.block w) (hl : (p.items w').length ≤ 1) :
    initArray K room code ⟨[⟨.list p, ix⟩], []⟩ w = .ub .outOfBounds ∧
    initLinked code ⟨[⟨.list p, ix⟩], []⟩ w = .ub .outOfBounds := by
  have hfit : FitsS 64 v := hv
  have hn : (p.items w')[1]? = none := List.getElem?_eq_none hl
  have key : ∀ K, elements K code w (.list p) = .ub .outOfBounds := by
    intro K
    have hc : conv (toElem K) (code x) w = (w', (wrapS K.bits v, none)) := by
      simp only [conv, hx, toElem, asLong, hfit, if_true]
    simp [elements, hp, fastLoop, hc, hb, hn]
  constructor
  · simp [initArray, initWith, parseArgs, parseOn, pick, used, convOr, key, leave]
  · simp [initLinked, linkedWith, parseO, pick, used, key]

/-- A size for which there is no memory, given as `exceptSize` or in place of the iterable: RuntimeError, and no element is
asked for. -/
theorem C62_no_room (K : Kind) (room : Nat → Bool) (code : Nat → Live W) (c : Call W) (w w1 : W) (hc : Proper c)
    (hf : Fits ["iterable", "exceptSize"] c)
    (h : (∃ t n, IsArg c 1 "exceptSize" t ∧ t.index.run w = (w1, .ok n) ∧ 0 < n ∧ n < 2 ^ 63 ∧ room n.toNat = false ∧
        ∀ t v, IsArg c 0 "iterable" t → t.what ≠ .int v) ∨
      ∃ t v, IsArg c 0 "iterable" t ∧ t.what = .int v ∧ 0 < v ∧ v < 2 ^ 63 ∧ room v.toNat = false ∧
        Sized (fun _ => true) c w w1) :
    initArray K room code c w = .exc (w1, []) .runtimeError ∧ initObjArray room code c w = .exc (w1, []) .runtimeError :=
  ⟨initWith_noRoom hc hf h, initWith_noRoom hc hf h⟩

/-- The exception that the code of an element raises is replaced by a RuntimeError, that of `__iter__` by a TypeError,
whatever they were. -/
theorem C62_exception_negation (K : Kind) (room : Nat → Bool) (code : Nat → Live W) (ix : Live W) (w w' : W) (x : Nat)
    (xs : List Nat) (e : Exc) (hx : (code x).run w = (w', .error e)) (it : W → W × Except Exc (Feed W))
    (hit : it w = (w', .error e)) (it2 : W → W × Except Exc (Feed W)) (w2 w3 : W) (g : W → W) (z : Live W)
    (k : W → Feed W) (hit2 : it2 w = (w2, .ok (.item g z k))) (hz : z.run (g w2) = (w3, .error e)) :
    initArray K room code ⟨[⟨.other it2, ix⟩], []⟩ w = .exc (w3, []) .runtimeError ∧
    initLinked code ⟨[⟨.other it2, ix⟩], []⟩ w = .exc (w3, []) .runtimeError ∧
    initArray K room code ⟨[⟨.tuple (x :: xs), ix⟩], []⟩ w = .exc (w', []) .runtimeError ∧
    initArray K room code ⟨[⟨.other it, ix⟩], []⟩ w = .exc (w', []) .typeError ∧
    initLinked code ⟨[⟨.tuple (x :: xs), ix⟩], []⟩ w = .exc (w', []) .runtimeError ∧
    initLinked code ⟨[⟨.other it, ix⟩], []⟩ w = .exc (w', []) .typeError := by
  have key : ∀ K, elements K code w (.tuple (x :: xs)) = .exc (w', []) .runtimeError := by
    intro K
    have hc : conv (toElem K) (code x) w = (w', (-1, some e)) := by simp only [conv, hx]
    simp [elements, fastLoop, hc]
  have key' : ∀ K, elements K code w (.other it) = .exc (w', []) .typeError := by
    intro K
    simp [elements, hit]
  have key2 : ∀ K, elements K code w (.other it2) = .exc (w3, []) .runtimeError := by
    intro K
    have hc : conv (toElem K) z (g w2) = (w3, (-1, some e)) := by simp only [conv, hz]
    simp [elements, hit2, iterLoop, hc]
  refine ⟨?_, ?_, ?_, ?_, ?_, ?_⟩ <;> simp [initArray, initWith, initLinked, linkedWith, parseArgs, parseOn, parseO, pick,
    used, convOr, key, key', key2, leave]

/-- An object of a class derived from `list` is read as the bare list: one whose `__iter__` yields nothing, so that the list
should be empty, gives the elements that its list part has. -/
theorem C62_subclass_negation (K : Kind) (room : Nat → Bool) (code : Nat → Live W) (p : PyList W) (ix : Live W) (w w' : W)
    (v : Int) (vs : List Int) (hp : Apart code p) (he : gather K.bits w ((p.items w).map code) = (w', .ok (v :: vs))) :
    expected K.bits code w (.sub p fun w => (w, .ok (.done id))) = (w, .ok []) ∧
    initArray K room code ⟨[⟨.sub p fun w => (w, .ok (.done id)), ix⟩], []⟩ w = .ok (w', v :: vs) () ∧
    (K = .i32 → initLinked code ⟨[⟨.sub p fun w => (w, .ok (.done id)), ix⟩], []⟩ w = .ok (w', v :: vs) ()) := by
  have h := fastLoop_follows (K := K) hp (i := 0) (w := w) (acc := []) rfl rfl (Nat.zero_add _)
  rw [List.drop_zero, he] at h
  have h : elements K code w (.sub p fun w => (w, .ok (.done id))) = .ok (w', v :: vs) () := h
  refine ⟨rfl, ?_, ?_⟩
  · simp [initArray, initWith, parseArgs, parseOn, pick, used, convOr, h, leave]
  · rintro rfl
    simp [initLinked, linkedWith, parseO, pick, used, h]

/-! ## The hypotheses can be met -/

/-- A state for the examples: the block and the elements of one Python list. -/
private abbrev St := Nat × List Nat

private def theList : PyList St := ⟨Prod.fst, Prod.snd⟩

/-- Object 0 clears the list, object 1 replaces its last element by object 7 and answers 10, object 2 raises; the others are
the ints of their number. -/
private def objs : Nat → Live St
  | 0 => ⟨fun w => ((w.1 + 1, []), .ok 0)⟩
  | 1 => ⟨fun w => ((w.1, w.2.dropLast ++ [7]), .ok 10)⟩
  | 2 => ⟨fun w => (w, .error (.user 1))⟩
  | n => ⟨fun w => (w, .ok n)⟩

private def noIndex : Live St := ⟨fun w => (w, .error .typeError)⟩

private def plain : Nat → Live St := fun n => ⟨fun w => (w, .ok n)⟩

private theorem plain_apart : Apart plain theList := fun _ _ => ⟨rfl, rfl⟩

private def someCall : Call St := ⟨[⟨.list theList, noIndex⟩], [("exceptSize", ⟨.int 9, ⟨fun w => (w, .ok 9)⟩⟩)]⟩

example : initArray .i32 (fun _ => true) plain someCall (5, [3, 4]) = .ok ((5, [3, 4]), [3, 4]) () :=
  C62_array_partial .i32 (fun _ => true) plain someCall (5, [3, 4]) (5, [3, 4]) (5, [3, 4]) ⟨.list theList, noIndex⟩
    (.ok [3, 4]) (by simp [Proper, someCall]) (by decide) (.inl rfl)
    (.inr ⟨_, 9, .inr ⟨by decide, List.mem_singleton.2 rfl⟩, rfl, by decide, by decide, fun _ => rfl⟩)
    (by simp) (by intro p hp; cases hp; exact plain_apart) (by simp) (by rfl)
example : initLinked plain ⟨[], [("iterable", ⟨.tuple [3, 4], noIndex⟩)]⟩ (0, []) = .ok ((0, []), [3, 4]) () :=
  C62_linked_partial plain _ (0, []) (0, []) ⟨.tuple [3, 4], noIndex⟩ (.ok [3, 4]) (by simp [Proper]) (by decide)
    (.inr ⟨by decide, List.mem_singleton.2 rfl⟩) (by simp [Given.pyList]) (by simp) (by rfl)
example : initLinked plain ⟨[], [("exceptSize", ⟨.int 3, noIndex⟩)]⟩ (0, []) = .exc ((0, []), []) .typeError :=
  (C62_linked_bad_call plain _ _ (by simp [Proper]) (by decide)).1
example : ∃ w' e, initArray .i64 (fun _ => true) plain ⟨[], [("size", ⟨.int 3, noIndex⟩)]⟩ (0, []) =
    .pending (w', []) () e :=
  (C62_bad_call_negation .i64 _ plain _ _ (by simp [Proper]) (.inl (by decide))).1
example : initArray .i32 (fun _ => true) objs ⟨[⟨.list theList, noIndex⟩], []⟩ (5, [0, 3, 4]) = .ub .useAfterFree :=
  (C62_memory_negation .i32 (fun _ => true) objs theList noIndex (5, [0, 3, 4]) (6, []) 0 3 [4] 0 rfl rfl (by decide)
    (by decide)).1
example : initArray .i32 (fun _ => true) (fun n => ⟨fun w => ((w.1, w.2.take 1), .ok n)⟩) ⟨[⟨.list theList, noIndex⟩], []⟩
    (5, [0, 3, 4]) = .ub .outOfBounds :=
  (C62_shrunk_negation .i32 (fun _ => true) _ theList noIndex (5, [0, 3, 4]) (5, [0]) 0 3 [4] 0 rfl rfl (by decide) rfl
    (by decide)).1
example : initArray .i32 (fun n => n < 100) objs ⟨[⟨.int 170, noIndex⟩], []⟩ (5, []) = .exc ((5, []), []) .runtimeError :=
  (C62_no_room .i32 _ objs _ _ _ (by simp [Proper]) (by decide)
    (.inr ⟨_, 170, .inl rfl, rfl, by decide, by decide, by decide,
      .inl ⟨by rintro t (h | ⟨_, h⟩) <;> simp at h, rfl⟩⟩)).1
example : initArray .i32 (fun _ => true) objs ⟨[⟨.list theList, noIndex⟩], []⟩ (5, [1, 3, 4]) =
    .ok ((5, [1, 3, 7]), [10, 3, 7]) () := by decide
example : initArray .i32 (fun _ => true) objs ⟨[⟨.tuple [3, 2, 4], noIndex⟩], []⟩ (5, []) =
    .exc ((5, []), [3]) .runtimeError := by decide
example : initArray .i32 (fun n => n < 100) objs ⟨[⟨.int 70, noIndex⟩], []⟩ (5, []) = .ok ((5, []), []) () :=
  (C62_empty .i32 _ objs _ _ _ (by simp [Proper]) (by decide)
    (.inl ⟨by rintro t (h | ⟨_, h⟩) <;> simp at h, rfl⟩)
    (.inr ⟨_, 70, .inl rfl, rfl, by decide, by decide, by decide⟩)).1
example : initObjLinked objs ⟨[⟨.list theList, noIndex⟩], []⟩ (5, [0, 2]) = .ok ((5, [0, 2]), [objs 0, objs 2]) () :=
  C62_object_linked_partial objs _ (5, [0, 2]) (5, [0, 2]) ⟨.list theList, noIndex⟩ (.ok [objs 0, objs 2])
    (by simp [Proper]) (by decide) (.inl rfl) (by simp) rfl
example : initObjArray (fun _ => true) objs ⟨[⟨.other fun w => (w, .ok (.item id (objs 2) fun _ => .done id)), noIndex⟩], []⟩
    (5, []) = .ok ((5, []), [objs 2]) () :=
  C62_object_array_partial (fun _ => true) objs _ (5, []) (5, []) (5, [])
    ⟨.other fun w => (w, .ok (.item id (objs 2) fun _ => .done id)), noIndex⟩ (.ok [objs 2])
    (by simp [Proper]) (by decide) (.inl rfl) (.inl ⟨by rintro t (h | ⟨_, h⟩) <;> simp at h, rfl⟩) (by simp) (by simp) rfl
example : initArray .i64 (fun _ => true) plain ⟨[⟨.sub theList fun w => (w, .ok (.done id)), noIndex⟩], []⟩ (5, [3, 4]) =
    .ok ((5, [3, 4]), [3, 4]) () :=
  (C62_subclass_negation .i64 (fun _ => true) plain theList noIndex (5, [3, 4]) (5, [3, 4]) 3 [4] plain_apart (by rfl)).2.1

end Verif.Props
