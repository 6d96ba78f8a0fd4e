import Verif.Props.SliceRaise
import Verif.Props.InitExact
import Verif.Props.LinkedMisc
import Verif.Lemmas.ExactLinked

/-!
# C08 and C49: exactly the failing calls that leave an IntLinkedList unchanged, exactly what its constructor accepts
-/

namespace Verif.Props

open Verif LinkedList

/-- A call that, if it fails, leaves the list as it was: not `append`, and `extend` and `+=` only without items; `l[i] = x` if
the element is -1; a slice assignment as for the array lists, but with step 1 never for a sequence without a length. -/
def C08_LinkedKept (l : List Int) : Op → Prop
  | .append _ => False
  | .extend src | .iadd src =>
    match src with
    | .list xs | .tuple xs | .seq xs | .seqNoLen xs | .iter xs _ => xs = []
    | _ => True
  | .set (.idx (.int i)) _ | .set (.idx (.index i)) _ => ∀ p, Spec.position l.length i = some p → l[p]? = some (-1)
  | .set (.slice s) (.inr (.seqNoLen _)) => ∀ i j k, Spec.fields s = .ok (i, j, k) → k ≠ 1
  | .set (.slice s) v => C08_SliceKept .i32 l s v
  | _ => True

/-- The call fails: it raises, or it returns normally with an exception set. `l` are the contents it leaves. -/
private def Fails (o : LLOut) (l : List Int) : Prop := ∃ e, view o = .exc l e ∨ ∃ r, view o = .pending l r e

private theorem fails_exc {s : LState Int} {e : Exc} {l : List Int} (h : Fails (.exc s e) l) : l = s.vals := by
  obtain ⟨_, h | ⟨_, h⟩⟩ := h <;> cases h <;> rfl

private theorem fails_pending {s : LState Int} {r : Ret} {e : Exc} {l : List Int} (h : Fails (.pending s r e) l) :
    l = s.vals := by
  obtain ⟨_, h | ⟨_, h⟩⟩ := h <;> cases h; rfl

private theorem fails_ok {s : LState Int} {r : Ret} {l : List Int} : ¬ Fails (.ok s r) l := by
  rintro ⟨_, h | ⟨_, h⟩⟩ <;> cases h

private theorem fails_ub {u : UB} {l : List Int} : ¬ Fails (.ub u) l := by
  rintro ⟨_, h | ⟨_, h⟩⟩ <;> cases h

private theorem error_value {a : Arg} {v : Int} {e : Exc} (h : toElem .i32 a = (v, some e)) : v = -1 := by
  cases a with
  | other => cases h; rfl
  | int w | index w =>
    simp only [toElem, asLong] at h
    split at h
    · cases h
    · cases h; rfl

private theorem extend_kept {strict bump : Bool} {s : LState Int} {src : Src} {r : Ret} {l' : List Int}
    (h : Fails (extendWith strict bump s src r) l') :
    l' = s.vals ↔ match (motive := Src → Prop) src with
      | .list xs | .tuple xs | .seq xs | .seqNoLen xs | .iter xs _ => xs = []
      | _ => True := by
  have items : ∀ xs f, Fails (pushItems bump s xs f r) l' → (l' = s.vals ↔ xs = []) := by
    intro xs f h
    have hv : l' = (pushLoop xs s).1.vals := by
      unfold pushItems at h
      generalize pushLoop xs s = q at h ⊢
      obtain ⟨t, e, b⟩ := q
      simp only at h ⊢
      split at h
      · exact absurd h fails_ok
      · rw [fails_exc h]
        split <;> rfl
    rw [hv]
    constructor
    · intro he
      cases xs with
      | nil => rfl
      | cons a as =>
        exfalso
        have hl := congrArg List.length he
        rw [pushLoop] at hl
        rcases hq : toElem .i32 a with ⟨v, _ | e⟩
        · rw [hq] at hl
          have := pushLoop_len as (s.push v)
          simp only [LState.vals_push, List.length_append, List.length_cons, List.length_nil] at this hl
          omega
        · rw [hq] at hl
          simp only [LState.vals_push, List.length_append, List.length_cons, List.length_nil] at hl
          omega
    · rintro rfl; rfl
  cases src with
  | same v => exact absurd h fails_ok
  | self =>
    simp only [extendWith] at h
    split at h
    · exact absurd h fails_ub
    · exact absurd h fails_ok
  | notIterable => exact ⟨fun _ => trivial, fun _ => fails_exc h⟩
  | list xs | tuple xs | seq xs | seqNoLen xs => exact items xs none h
  | iter xs f => exact items xs f h

private theorem set_kept {s : LState Int} {i : Int} {a : Arg} {l' : List Int} (h : Fails (setItem s i (some a)) l') :
    l' = s.vals ↔ ∀ p, Spec.position s.vals.length i = some p → s.vals[p]? = some (-1) := by
  rw [ArrayList.position_eq, LState.length_vals]
  unfold setItem at h
  simp only [listAt_eq] at h
  rw [show (s.size : Int) + i = i + s.size from Int.add_comm _ _] at h
  generalize (if i < 0 then i + (s.size : Int) else i) = j at h ⊢
  by_cases hj : j < 0 ∨ j ≥ (s.size : Int)
  · rw [if_pos hj] at h ⊢
    exact ⟨fun _ p hp => (by cases hp), fun _ => fails_exc h⟩
  · rw [if_neg hj] at h ⊢
    have h1 : j.toNat < s.size := by omega
    rw [show min j.toNat s.size = j.toNat by omega] at h
    simp only [if_pos h1] at h
    rcases hq : toElem .i32 a with ⟨v, _ | e⟩
    · rw [hq] at h
      exact absurd h fails_ok
    · rw [hq] at h
      have := fails_pending h
      rw [this, LState.vals_assign, error_value hq]
      have hlt : j.toNat < s.vals.length := by rw [LState.length_vals]; exact h1
      simp only [Option.some.injEq, forall_eq']
      constructor
      · intro he
        rw [← he, List.getElem?_set_self hlt]
      · intro he
        obtain ⟨h', he⟩ := List.getElem?_eq_some_iff.1 he
        rw [← he]
        exact List.set_getElem_self _

private theorem walk_end {n : Nat} : ∀ {k p q : Nat}, walkFwd n k p = .ok q → 0 < k → q = p + k ∧ q ≤ n := by
  intro k
  induction k with
  | zero => intro p q _ h; omega
  | succ k ih =>
    intro p q h _
    rw [walkFwd] at h
    split at h
    · cases k with
      | zero => cases h; omega
      | succ k =>
        have := ih h (by omega)
        omega
    · cases h

private theorem assign_no_pending {cfg : Cfg} {src : Src} {p : Nat} (n : Nat) : ∀ {i : Nat} {l l' : List Int} {r : Ret} {e : Exc},
    ArrayList.assignLoop cfg .i32 src p n i l ≠ .pending l' r e := by
  induction n with
  | zero => intro i l l' r e h; cases h
  | succ n ih =>
    intro i l l' r e h
    rw [ArrayList.assignLoop] at h
    repeat' split at h
    all_goals first | cases h | exact ih h

private theorem insert_no_pending {cfg : Cfg} {src : Src} {p : Nat} (n : Nat) : ∀ {i : Nat} {l l' : List Int} {r : Ret} {e : Exc},
    ArrayList.insertLoop cfg .i32 src p n i l ≠ .pending l' r e := by
  induction n with
  | zero => intro i l l' r e h; cases h
  | succ n ih =>
    intro i l l' r e h
    rw [ArrayList.insertLoop] at h
    repeat' split at h
    all_goals first | cases h | exact ih h

private theorem slice_no_pending (cfg : Cfg) (l l' : List Int) (sl : SliceArg) (v : Arg ⊕ Src) (r : Ret) (e : Exc)
    (hv : ∀ xs, v ≠ .inr (.seqNoLen xs)) : ArrayList.assSubscript cfg .i32 l (.slice sl) (some v) ≠ .pending l' r e := by
  intro h
  cases v with
  | inl x =>
    simp only [ArrayList.assSubscript] at h
    repeat' split at h
    all_goals cases h
  | inr src =>
    simp only [ArrayList.assSubscript] at h
    by_cases hseq : src.isSequence = true
    · have hm : 0 ≤ ArrayList.srcSize l src := by
        cases src with
        | seqNoLen xs => exact absurd rfl (hv xs)
        | iter | notIterable => exact absurd hseq (by simp [Src.isSequence])
        | _ => simp only [ArrayList.srcSize]; omega
      simp only [hseq, Bool.not_true, Bool.false_eq_true, if_false] at h
      generalize ArrayList.srcSize l src = m at hm h
      repeat' split at h
      all_goals first
        | omega
        | exact assign_no_pending _ h
        | exact insert_no_pending _ h
        | cases h
        | exact assign_no_pending _ (by assumption)
    · simp only [hseq, Bool.not_false, if_true] at h
      repeat' split at h
      all_goals cases h

/-- C08 for IntLinkedList, exactly: of the calls that fail, raising or with an exception left set, these leave the contents as
they were. -/
theorem C08_linked_exact (cfg : Cfg) (strict : Bool) (s : LState Int) (op : Op) (l' : List Int) (e : Exc)
    (hf : AllFits .i32 s.vals) (hn : (s.vals.length : Int) ≤ ssizeMax) (hp : ArrayList.Possible .i32 op)
    (h : view (step cfg strict s op) = .exc l' e ∨ ∃ r, view (step cfg strict s op) = .pending l' r e) :
    l' = s.vals ↔ C08_LinkedKept s.vals op := by
  have h : Fails (step cfg strict s op) l' := ⟨e, h⟩
  have keep : l' = s.vals → (l' = s.vals ↔ True) := fun h => ⟨fun _ => trivial, fun _ => h⟩
  cases op with
  | append a =>
    simp only [step, append] at h
    rcases hq : toElem .i32 a with ⟨v, _ | e⟩
    · rw [hq] at h
      exact absurd h fails_ok
    · rw [hq] at h
      have := fails_pending h
      rw [this]
      simp [C08_LinkedKept]
  | extend src => exact extend_kept h
  | iadd src => exact extend_kept h
  | insert i a =>
    refine keep ?_
    simp only [step, LinkedList.insert] at h
    repeat' split at h
    all_goals first | exact fails_exc h | exact absurd h fails_ok | exact absurd h fails_ub
  | pop a =>
    refine keep ?_
    simp only [step, pop] at h
    repeat' split at h
    all_goals first | exact fails_exc h | exact absurd h fails_ok | exact absurd h fails_ub
  | remove a =>
    refine keep ?_
    simp only [step, remove] at h
    repeat' split at h
    all_goals first | exact fails_exc h | exact absurd h fails_ok | exact absurd h fails_ub
  | index a i j =>
    refine keep ?_
    simp only [step, index] at h
    repeat' split at h
    all_goals first | exact fails_exc h | exact absurd h fails_ok | exact absurd h fails_ub
  | count a =>
    refine keep ?_
    simp only [step, count] at h
    split at h
    · exact fails_exc h
    · exact absurd h fails_ok
  | contains a =>
    refine keep ?_
    simp only [step, contains] at h
    repeat' split at h
    all_goals first | exact fails_exc h | exact absurd h fails_ok | exact absurd h fails_ub
  | get k =>
    refine keep ?_
    simp only [step, subscript, getItem] at h
    repeat' split at h
    all_goals first | exact fails_exc h | exact absurd h fails_ok | exact absurd h fails_ub
  | set k v =>
    cases k with
    | idx a =>
      have hi : ∀ i, (∃ a', Fails (match asSsizeIndex (.int i) with
          | (_, some e) => .exc s e
          | (i, none) => setItem s i (some a')) l') →
          (l' = s.vals ↔ ∀ p, Spec.position s.vals.length i = some p → s.vals[p]? = some (-1)) := by
        rintro i ⟨a', h⟩
        simp only [asSsizeIndex] at h
        by_cases hfit : FitsS 64 i
        · rw [if_pos hfit] at h
          exact set_kept h
        · rw [if_neg hfit] at h
          refine ⟨fun _ p hp => ?_, fun _ => fails_exc h⟩
          exfalso
          apply hfit
          have e1 : ssizeMax = 9223372036854775807 := by decide
          rw [e1] at hn
          refine (fits64 i).2 ?_
          unfold Spec.position at hp
          split at hp
          · omega
          · split at hp
            · omega
            · cases hp
      cases a with
      | other => exact absurd h fails_ub
      | int i =>
        refine hi i ?_
        cases v with
        | inl x => exact ⟨x, h⟩
        | inr x => exact ⟨.other, h⟩
      | index i =>
        refine hi i ?_
        cases v with
        | inl x => exact ⟨x, h⟩
        | inr x => exact ⟨.other, h⟩
    | slice sl =>
      have gen : (∀ xs, v ≠ .inr (.seqNoLen xs)) → (l' = s.vals ↔ C08_SliceKept .i32 s.vals sl v) := by
        intro hv
        obtain ⟨e, h⟩ := h
        have hw := assSubscript_slice_view cfg s sl (some v) (fun xs h => hv xs (Option.some.inj h))
        simp only [step] at h
        rw [hw] at h
        rcases h with h | ⟨r, h⟩
        · exact C08_slice_exact cfg .i32 s.vals l' sl v e hf hn hp h
        · exact absurd h (slice_no_pending cfg s.vals l' sl v r e hv)
      cases v with
      | inl x => exact gen (by intro xs h; cases h)
      | inr src =>
        cases src with
        | seqNoLen xs =>
          obtain ⟨u1, u2⟩ := sliceUnpack_fields sl
          simp only [C08_LinkedKept]
          simp only [step, assSubscript, u1] at h
          cases hfl : Spec.fields sl with
          | error e =>
            rw [hfl] at h
            exact ⟨fun _ i j k hk => (by cases hk), fun _ => fails_exc h⟩
          | ok f =>
            obtain ⟨i, j, k⟩ := f
            rw [hfl] at h
            simp only [Except.ok.injEq, Prod.mk.injEq] at h ⊢
            generalize hadj : adjustIndices s.size _ _ _ = adj at h
            obtain ⟨start, stop, cnt⟩ := adj
            have e1 : ssizeMax = 9223372036854775807 := by decide
            by_cases hk : k = 1
            · subst hk
              have hst : (if clampSsize 1 < -ssizeMax then -ssizeMax else clampSsize 1) = 1 := by decide
              rw [hst] at h hadj
              obtain ⟨b1, b2, b3, b4, b5⟩ := adjust_one (n := s.size) hadj
              have hm : ArrayList.srcSize s.vals (.seqNoLen xs) = -1 := rfl
              generalize ArrayList.srcSize s.vals (.seqNoLen xs) = m at h hm
              subst hm
              simp only [Src.isSequence, Bool.not_true, Bool.false_eq_true, if_false, ne_eq, not_true_eq_false] at h
              rw [listAt_eq] at h
              simp only at h
              split at h
              · omega
              split at h
              case isFalse => omega
              simp only [show Int.toNat (-1) = 0 from rfl, assignLoop] at h
              refine ⟨fun he => ?_, fun hx => absurd rfl (hx i j 1 ⟨rfl, rfl, rfl⟩)⟩
              exfalso
              cases hw : walkFwd s.size (cnt - -1).toNat (min start.toNat s.size + 0) with
              | error u => rw [hw] at h; exact absurd h fails_ub
              | ok q =>
                rw [hw] at h
                simp only [show (-1 : Int) < 0 by decide, if_true] at h
                have hv := fails_pending h
                have hq := walk_end hw (by omega)
                have hl := congrArg List.length (hv.symm.trans he)
                rw [LState.vals_eraseRange] at hl
                simp only [List.length_append, List.length_take, List.length_drop, LState.length_vals] at hl
                omega
            · refine ⟨fun _ i' j' k' hk' => (by rw [← hk'.2.2]; exact hk), fun _ => ?_⟩
              rw [if_neg (by simp [Src.isSequence])] at h
              have hst : (if clampSsize k < -ssizeMax then -ssizeMax else clampSsize k) ≠ 1 := by
                intro h
                apply hk
                unfold clampSsize at h
                rw [e1] at h
                split at h
                · omega
                · split at h
                  · omega
                  · split at h <;> omega
              rw [if_pos hst] at h
              exact fails_exc h
        | _ => exact gen (by intro xs h; cases h)
  | del k =>
    refine keep ?_
    simp only [step, assSubscript, setItem] at h
    repeat' split at h
    all_goals first | exact fails_exc h | exact absurd h fails_ok | exact absurd h fails_ub
  | add src =>
    refine keep ?_
    simp only [step, add] at h
    repeat' split at h
    all_goals first | exact fails_exc h | exact absurd h fails_ok
  | mul n =>
    simp only [step, mul_eq] at h
    exact absurd h fails_ok
  | rmul a =>
    refine keep ?_
    simp only [step, rmul, mul_eq] at h
    split at h
    · exact fails_exc h
    · exact absurd h fails_ok
  | imul n =>
    refine keep ?_
    simp only [step, imul] at h
    repeat' split at h
    all_goals first | exact absurd h fails_ok | exact absurd h fails_ub
  | cmp op src =>
    refine keep ?_
    simp only [step, LinkedList.compare, ord, boolOut] at h
    repeat' split at h
    all_goals first | exact fails_exc h | exact fails_pending h | exact absurd h fails_ok
  | resize a => exact keep (fails_exc h)
  | repr =>
    refine keep ?_
    simp only [step, LinkedList.repr] at h
    repeat' split at h
    all_goals first | exact absurd h fails_ok | exact absurd h fails_ub
  | reverse | clear | copy | toList | len => exact absurd h fails_ok

/-- Failing calls of both kinds: `l[1] = "x"` where the element is -1, and where it is not; `extend` of nothing but an error. -/
example : C08_LinkedKept [3, -1] (.set (.idx (.int 1)) (.inl .other)) ∧ ¬ C08_LinkedKept [3, 4] (.set (.idx (.int 1)) (.inl .other)) ∧
    C08_LinkedKept [3] (.extend (.iter [] (some .valueError))) ∧ ¬ C08_LinkedKept [3] (.extend (.list [.other])) := by
  refine ⟨?_, ?_, rfl, ?_⟩
  · intro p hp
    cases hp
    rfl
  · intro h
    exact absurd (h 1 rfl) (by decide)
  · intro h
    cases h

example : view (step ⟨.v312, false, false, false, false⟩ true ⟨[(0, 3), (1, -1)], 2, 0⟩ (.set (.idx (.int 1)) (.inl .other))) =
    .pending [3, -1] .none .typeError := by decide

/-- C49 for IntLinkedList, exactly: the constructor on an iterable (not a list of its own class, which is copied) yields the
items given if and only if each is an integer of the element type. -/
theorem C49_linked_init_exact (s : Src) (xs : List Arg) (hs : Spec.items [] s = .ok (xs, none))
    (hsame : ∀ v, s ≠ .same v) (hself : s ≠ .self) :
    (∃ t, LinkedList.init (some (.inr s)) = .ok t () ∧ t.vals = xs.map Spec.argVal) ↔
      ∀ a ∈ xs, Spec.IsElem 32 a = true := by
  rw [show (32 : Nat) = Kind.i32.bits from rfl, ← C49_init_exact .i32 s xs hs hsame hself]
  simp only [LinkedList.init]
  constructor
  · rintro ⟨t, h1, h2⟩
    cases hq : ArrayList.init .i32 (some (.inr s)) with
    | ok l u =>
      rw [hq] at h1
      simp only [Out.mapState, Out.ok.injEq, and_true] at h1
      rw [← h1, LState.vals_pushAll] at h2
      rw [← h2]
      rfl
    | exc l e => rw [hq] at h1; cases h1
    | pending l u e => rw [hq] at h1; cases h1
    | ub u => rw [hq] at h1; cases h1
  · intro h
    exact ⟨_, by rw [h]; rfl, by rw [LState.vals_pushAll]; rfl⟩

/-- C49 for IntLinkedList, exactly: the constructor raises if and only if an item is no integer of the machine word, and then
the exception is RuntimeError. -/
theorem C49_linked_raises_exact (s : Src) (xs : List Arg) (hs : Spec.items [] s = .ok (xs, none))
    (hsame : ∀ v, s ≠ .same v) (hself : s ≠ .self) (e : Exc) :
    (∃ t, LinkedList.init (some (.inr s)) = .exc t e) ↔ e = .runtimeError ∧ ∃ a ∈ xs, C49_Word a = false := by
  rw [← C49_raises_exact .i32 s xs hs hsame hself e]
  simp only [LinkedList.init]
  constructor
  · rintro ⟨t, h⟩
    cases hq : ArrayList.init .i32 (some (.inr s)) with
    | exc l e' =>
      rw [hq] at h
      simp only [Out.mapState, Out.exc.injEq] at h
      exact ⟨l, by rw [h.2]⟩
    | ok l u => rw [hq] at h; cases h
    | pending l u e => rw [hq] at h; cases h
    | ub u => rw [hq] at h; cases h
  · rintro ⟨l, h⟩
    exact ⟨_, by rw [h]; rfl⟩

example : Spec.items [] (.tuple [.int 5, .int (2 ^ 40)]) = .ok ([.int 5, .int (2 ^ 40)], none) ∧
    Spec.IsElem 32 (.int (2 ^ 40)) = false ∧ C49_Word (.int (2 ^ 40)) = true := ⟨rfl, by decide, by decide⟩

end Verif.Props
