import Verif.Lemmas.Methods
import Verif.Lemmas.ExactSlice
import Verif.Lemmas.ExactLinked

/-!
# C64: calls by name

`documented` (Spec/Methods.lean) says what a call of a method with any positional and keyword arguments asks for; `request` is
what the type objects of the library make of it.
-/

namespace Verif.Props

open Verif.Methods

variable {S : Type}

/-- A name is missing exactly where it should be: every class has all methods of `list`. -/
theorem C64_names (cls : Cls) (empty : Bool) (name : Name) (c : Args S) :
    request cls empty name c = none ↔ Has cls name = false :=
  missing_iff cls empty name c

/-- C64. A call asks for what is documented, and is refused with a TypeError if it should be, exactly unless it `Deviates`:
`pop` with two arguments or more on an empty list, `sort` with positional arguments, with a value of `reverse` that is not a C
`int`, or with one that is neither 0 nor 1 on an int list without a key. -/
theorem C64_exact_partial (cls : Cls) (empty : Bool) (name : Name) (c : Args S) (hp : Proper c) (hh : Has cls name = true) :
    request cls empty name c = some (documented name c) ↔ ¬ Deviates cls empty name c := by
  rw [request_named hh, Option.some.injEq]
  exact named_iff hp

/-- A call of any method but `sort` that is not documented is always refused, and with a TypeError unless it is `pop` on an empty
list. -/
theorem C64_refused (cls : Cls) (empty : Bool) (name : Name) (c : Args S) (hp : Proper c) (hh : Has cls name = true)
    (hs : name ≠ .sort) (hd : ∀ r, documented name c ≠ .ok r) :
    request cls empty name c = some (.error .typeError) ∨
    (name = .pop ∧ empty = true ∧ request cls empty name c = some (.error .indexError)) := by
  by_cases h : Deviates cls empty name c
  · have hn : name = .pop := by
      cases name <;> first | rfl | exact absurd rfl hs | exact absurd h id
    subst hn
    obtain ⟨he, hk, hl⟩ := h
    obtain ⟨pos, kw⟩ := c
    dsimp only at hk hl
    subst hk he
    rcases pos with _ | ⟨a, _ | ⟨b, r⟩⟩
    · simp at hl
    · simp at hl
    · exact .inr ⟨rfl, rfl, by rw [request_named hh]; rfl⟩
  · rw [(C64_exact_partial cls empty name c hp hh).2 h]
    refine .inl ?_
    have he : documented name c = .error .typeError ∨ ∃ r, documented name c = .ok r := by
      unfold documented
      split <;> first | exact .inr ⟨_, rfl⟩ | exact .inl rfl | skip
      split
      · exact .inr ⟨_, rfl⟩
      · exact .inl rfl
    rcases he with e | ⟨r, e⟩
    · rw [e]
    · exact absurd e (hd r)

/-- C64, deviation: `pop` of an empty list with too many arguments is an IndexError. -/
theorem C64_pop_negation (cls : Cls) (a b : Thing S) (r : List (Thing S)) :
    request cls true .pop ⟨a :: b :: r, []⟩ = some (.error .indexError) ∧
    documented .pop (⟨a :: b :: r, []⟩ : Args S) = .error .typeError := by
  refine ⟨?_, rfl⟩
  rw [request_named (by cases cls <;> rfl)]
  rfl

/-- C64, deviation: `sort(f)` and `sort(f, n)` sort, although the parameters of `list.sort` are keyword-only. -/
theorem C64_sort_positional_negation (cls : Cls) (empty : Bool) (f t : Thing S) (n : Int) (hn : Number t n)
    (hr : Spec.InRange 32 n) :
    (∃ d, request cls empty .sort ⟨[f], []⟩ = some (.ok (.sort (if f.isNone then none else some f) d))) ∧
    (∃ d, request cls empty .sort ⟨[f, t], []⟩ = some (.ok (.sort (if f.isNone then none else some f) d))) ∧
    documented .sort (⟨[f], []⟩ : Args S) = .error .typeError ∧
    documented .sort (⟨[f, t], []⟩ : Args S) = .error .typeError := by
  have hk : keyed (some f) = if f.isNone then none else some f := by
    unfold keyed
    cases h : f.isNone <;> simp [Option.filter, h]
  have hc : parseI t.arg = (n, none) := by
    rcases hn with e | e <;> rw [e] <;> exact if_pos hr
  refine ⟨?_, ?_, rfl, rfl⟩
  · rw [request_named (by cases cls <;> rfl), ← hk]
    exact ⟨_, rfl⟩
  · rw [request_named (by cases cls <;> rfl), ← hk, named_sort]
    have : parseSort (⟨[f, t], []⟩ : Args S) = .ok (some f, n) := by
      simp [parseSort, pick, used, hc]
    rw [this]
    exact ⟨_, rfl⟩

/-- C64, deviation: `sort(reverse=n)` of an int list with a number such as 2 or -1 sorts in ascending order; the object lists
sort in descending order. -/
theorem C64_sort_reverse_negation (cls : Cls) (empty : Bool) (t : Thing S) (n : Int) (hn : Number t n)
    (hr : Spec.InRange 32 n) (h0 : n ≠ 0) (h1 : n ≠ 1) (ht : t.truth = true) :
    request cls empty .sort ⟨[], [("reverse", t)]⟩ =
      some (.ok (.sort none (decide (cls = .objArray ∨ cls = .objLinked)))) ∧
    documented .sort (⟨[], [("reverse", t)]⟩ : Args S) = .ok (.sort none true) := by
  have hc : parseI t.arg = (n, none) := by
    rcases hn with e | e <;> rw [e] <;> exact if_pos hr
  constructor
  · rw [request_named (by cases cls <;> rfl), named_sort]
    have : parseSort (⟨[], [("reverse", t)]⟩ : Args S) = .ok (none, n) := by
      simp [parseSort, pick, used, hc, List.lookup]
    rw [this]
    cases cls <;> simp [keyed, descending, h0, h1]
  · simp [documented, List.lookup, ht]

/-! ### Calls on int lists -/

/-- C64 with C03: any call by name on an IntArrayList or BigIntArrayList, with any arguments, does what the call does on a Python
list, exactly if it does not deviate and what it asks for is in `Exact`. (`Matches` leaves out calls that ask for a sort, a
range or an iterator.) -/
theorem C64_array_exact (cfg : Cfg) (K : Kind) (l : List Int) (name : Name) (c : Args Src) (hf : AllFits K l)
    (hn : (l.length : Int) ≤ ssizeMax) (hc : Proper c) (hs : name ≠ .sort)
    (hp : ∀ r op, documented name c = .ok r → r.op = some op → ArrayList.Possible K op) :
    Matches (callArray cfg K l name c) (pyCall K.bits l name c)
      (¬ Deviates .intArray l.isEmpty name c ∧
        ∀ r, documented name c = .ok r → ExactCall (ArrayList.Exact cfg K l) r) := by
  have hh : Has (clsOf K) name = true := by
    cases K <;> cases name <;> rfl
  unfold callArray pyCall
  rw [request_named hh]
  rcases named_or (cls := clsOf K) (empty := l.isEmpty) hc hs with
    ⟨h1, h2⟩ | ⟨h1, h2, h3⟩
  · rw [h2]
    rw [deviates_class hs .intArray] at h1
    cases e : documented name c with
    | error x =>
      exact iff_of_true ⟨rfl, rfl⟩ ⟨h1, fun r hr => by cases hr⟩
    | ok r =>
      have := perform_array (cfg := cfg) hf hn r (fun op => hp r op e)
      simp only [h1, not_false_eq_true, true_and, Except.ok.injEq, forall_eq']
      exact this
  · rw [deviates_class hs .intArray] at h1
    rw [h2, h3]
    refine iff_of_false ?_ (fun h => h.1 h1)
    rintro ⟨-, h⟩
    cases h

/-- C64 with C24: the same for IntLinkedList. -/
theorem C64_linked_exact (cfg : Cfg) (strict : Bool) (s : LState Int) (name : Name) (c : Args Src) (hf : AllFits .i32 s.vals)
    (hn : (s.vals.length : Int) ≤ ssizeMax) (hc : Proper c) (hs : name ≠ .sort) (hr : name ≠ .resize)
    (hp : ∀ r op, documented name c = .ok r → r.op = some op → LinkedList.Possible op) :
    Matches ((callLinked cfg strict s name c).map LinkedList.view) (pyCall 32 s.vals name c)
      (¬ Deviates .intLinked s.vals.isEmpty name c ∧
        ∀ r, documented name c = .ok r → ExactCall (LinkedList.Exact cfg strict s.vals) r) := by
  have hh : Has .intLinked name = true := by
    cases name <;> first | rfl | exact absurd rfl hr
  unfold callLinked pyCall
  rw [request_named hh]
  rcases named_or (cls := .intLinked) (empty := s.vals.isEmpty) hc hs with ⟨h1, h2⟩ | ⟨h1, h2, h3⟩
  · rw [h2]
    cases e : documented name c with
    | error x =>
      exact iff_of_true ⟨rfl, rfl⟩ ⟨h1, fun r hr => by cases hr⟩
    | ok r =>
      have := perform_linked (cfg := cfg) (strict := strict) hf hn r (fun op => hp r op e)
      simp only [h1, not_false_eq_true, true_and, Except.ok.injEq, forall_eq']
      exact this
  · rw [h2, h3]
    refine iff_of_false ?_ (fun h => h.1 h1)
    rintro ⟨-, h⟩
    cases h

/-! ### The hypotheses are satisfiable -/

section examples

/-- The number `n` as an argument. -/
def num (n : Int) : Thing Src := ⟨.int n, none, .notIterable, false, n ≠ 0, 0⟩

/-- A function as an argument. -/
def fun1 : Thing Src := ⟨.other, none, .notIterable, false, true, 1⟩

-- keywords are found in any order …
example : Proper (⟨[], [("reverse", num 1), ("key", fun1)]⟩ : Args Src) ∧
    request .intArray false .sort ⟨[], [("reverse", num 1), ("key", fun1)]⟩ = some (.ok (.sort (some fun1) true)) :=
  ⟨by decide, rfl⟩
-- … and a wrong one is refused
example : Proper (⟨[], [("reversed", num 1)]⟩ : Args Src) ∧
    request .objLinked false .sort (⟨[], [("reversed", num 1)]⟩ : Args Src) = some (.error .typeError) := ⟨by decide, rfl⟩
example : request .intLinked true .index (⟨[num 3, num 0], []⟩ : Args Src) =
    some (.ok (.index (num 3) (some (num 0)) none)) := rfl
example : request .bigIntArray true .append (⟨[], [("object", num 3)]⟩ : Args Src) = some (.error .typeError) := rfl
example : Deviates .intArray true .pop (⟨[num 3, num 0], []⟩ : Args Src) := ⟨rfl, rfl, by decide⟩
example : ¬ Deviates .intArray false .pop (⟨[num 3, num 0], []⟩ : Args Src) := fun h => absurd h.1 (by decide)
-- a call on a list with its outcome
example : callArray ⟨.le311, false, false, false, false⟩ .i32 [4, 5] .rmul ⟨[num 2], []⟩ =
    some (.ok [4, 5] (.newList [4, 5, 4, 5])) := by decide +kernel
example : AllFits .i32 [4, 5] ∧ Proper (⟨[num 0, num 7], []⟩ : Args Src) ∧
    (∀ r op, documented .insert (⟨[num 0, num 7], []⟩ : Args Src) = .ok r → r.op = some op → ArrayList.Possible .i32 op) ∧
    (∀ r op, documented .insert (⟨[num 0, num 7], []⟩ : Args Src) = .ok r → r.op = some op → LinkedList.Possible op) ∧
    callArray ⟨.le311, false, false, false, false⟩ .i32 [4, 5] .insert ⟨[num 0, num 7], []⟩ = some (.ok [7, 4, 5] .none) := by
  refine ⟨by decide, by decide, ?_, ?_, by decide +kernel⟩ <;>
  · intro r op h h'
    cases h; cases h'
    trivial
example : Number (num 2) 2 ∧ Spec.InRange 32 2 ∧ (num 2).truth = true := ⟨.inl rfl, by decide, rfl⟩

end examples

end Verif.Props
