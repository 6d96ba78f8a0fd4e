import Verif.Lemmas.StoreExact
import Verif.Lemmas.SortReentry
import Verif.Props.SortReentry

/-!
# C37, exactly, for int array lists: which callbacks and threads a sort survives
-/

namespace Verif.Props

open Verif.Store Verif.Spec
open Verif.Reentry
open Verif.CPySort (Caller keysOf)
open Verif.ListSort (Call intArray finish)

variable {cfg : Cfg} {K : Kind} {grow : Nat → Nat → Nat} {κ σ ν : Type}

/-- Any operation. -/
private def Any : World → Ev → World → Prop := fun _ _ _ => True

private theorem step_room {w w' : World} {o b n : Nat} {e : Ev} (h : WF w) (hb : InBlock o b n w)
    (hs : (step cfg K grow w e).state? = some w') :
    (InRoom o n w e w' ∧ InBlock o b n w') ∨ (¬ InRoom o n w e w' ∧ Verif.Store.Gone b w') := by
  obtain ⟨l, hl⟩ := hb.live h
  have h' := step_wf h hs
  rcases block_step h hb hs hl with ⟨a, c, d⟩ | ⟨a, g⟩
  · refine .inl ⟨⟨a, ?_, fun l' hl' => d.len h' hl'⟩, d⟩
    intro l2 hl2
    rw [hl] at hl2
    cases hl2
    exact c
  · exact .inr ⟨fun c => a ⟨c.1, c.2.1 l hl, c.2.2⟩, g⟩

private theorem not_both {w : World} {o b n : Nat} (hb : InBlock o b n w) (hg : Verif.Store.Gone b w) : False := by
  obtain ⟨m, cs, ho, hm, _⟩ := hb
  rw [hg.1] at hm
  cases hm

private theorem raced_in {w w' : World} {o b n : Nat} (h : WF w) (hb : InBlock o b n w)
    (hr : Raced cfg K grow (InRoom o n) (some b) w w') : WF w' ∧ InBlock o b n w' := by
  induction hr with
  | refl => exact ⟨h, hb⟩
  | store w1 d cs i v _ hd hm ih =>
    cases hd
    obtain ⟨m, cs', ho, hm', hn⟩ := ih.2
    rw [hm] at hm'
    cases hm'
    exact ⟨store_wf ih.1 hm, m, _, ho, upd_same _ _ _, by rw [List.length_set]; exact hn⟩
  | other w1 w2 e _ hs he ih =>
    rcases step_room ih.1 ih.2 hs with ⟨_, hi⟩ | ⟨c, _⟩
    · exact ⟨step_wf ih.1 hs, hi⟩
    · exact absurd he c

private theorem raced_cases {ok : World → Ev → World → Prop} {w w' : World} {o b n : Nat} (h : WF w) (hb : InBlock o b n w)
    (hr : Raced cfg K grow ok (some b) w w') :
    WF w' ∧ ((Raced cfg K grow (InRoom o n) (some b) w w' ∧ InBlock o b n w') ∨ Verif.Store.Gone b w') := by
  induction hr with
  | refl => exact ⟨h, .inl ⟨.refl _, hb⟩⟩
  | store w1 d cs i v _ hd hm ih =>
    cases hd
    refine ⟨store_wf ih.1 hm, ?_⟩
    rcases ih.2 with ⟨hr, m, cs', ho, hm', hn⟩ | hg
    · rw [hm] at hm'
      cases hm'
      exact .inl ⟨.store _ _ _ _ _ _ hr rfl hm, m, _, ho, upd_same _ _ _, by rw [List.length_set]; exact hn⟩
    · rw [hg.1] at hm; cases hm
  | other w1 w2 e _ hs he ih =>
    refine ⟨step_wf ih.1 hs, ?_⟩
    rcases ih.2 with ⟨hr, hi⟩ | hg
    · rcases step_room ih.1 hi hs with ⟨a, c⟩ | ⟨_, c⟩
      · exact .inl ⟨.other _ _ _ e hr hs a, c⟩
      · exact .inr c
    · exact .inr (gone_step ih.1 hg hs)

/-- The same without stores of the sort in between. -/
private theorem reach_cases {ok : World → Ev → World → Prop} {w w' : World} {o b n : Nat} (h : WF w) (hb : InBlock o b n w)
    (hr : Reach cfg K grow ok w w') :
    WF w' ∧ ((Reach cfg K grow (InRoom o n) w w' ∧ InBlock o b n w') ∨ Verif.Store.Gone b w') := by
  induction hr with
  | refl => exact ⟨h, .inl ⟨.refl _, hb⟩⟩
  | step w1 w2 e _ hs he ih =>
    refine ⟨step_wf ih.1 hs, ?_⟩
    rcases ih.2 with ⟨hr, hi⟩ | hg
    · rcases step_room ih.1 hi hs with ⟨a, c⟩ | ⟨_, c⟩
      · exact .inl ⟨.step _ _ _ e hr hs a, c⟩
      · exact .inr c
    · exact .inr (gone_step ih.1 hg hs)

/-- `o.sort(key=…)` on a non-empty list, after any history: there is a number of elements, at least those the list has,
such that for all callbacks, whatever they do, answer or raise: if what they did amounts to operations that neither drop
the list nor give or promise it more than that number of elements, the sort ends as it does for the elements alone, its
result overwriting the front of what the callbacks left in the list; and otherwise it writes into freed memory. -/
theorem C37_exact (py : PyVer) {es : List Ev} {w : World} {o : Nat} {l : List Int}
    (hr : Store.run cfg K grow start es = some w) (hl : contents w o = some l) (hne : l ≠ []) (hmax : l.length < 2 ^ 60) :
    ∃ n, l.length ≤ n ∧ ∀ (c : Caller World κ PyLong), Conduct cfg K grow Any c → ∀ rev,
      ∃ r r' w2, intArray K py c w l rev = .ok (r, w2) ∧ sortIn K py c w o rev = .ok r' ∧ Reach cfg K grow Any w w2 ∧
        (Reach cfg K grow (InRoom o n) w w2 →
          ∃ old, contents w2 o = some old ∧ shows o r' = showsAlone (Spec.Out.over old r) ∧ ∀ u, r' ≠ .ub u) ∧
        (¬ Reach cfg K grow (InRoom o n) w w2 → r' = .ub .useAfterFree) := by
  have h := run_wf es _ _ wf_start hr
  obtain ⟨b, hob, hb⟩ := capacity_block h hl hne
  have hcap := capacity_le hl
  refine ⟨capacity w o, hcap, ?_⟩
  intro c hc rev
  obtain ⟨v, ho, ⟨env', e1, e2⟩ | ⟨l', e, w2, hlen, e1, e2, e3⟩⟩ :=
    sortIn_eq (cfg := cfg) (K := K) (grow := grow) h py c hl hc.malloc rev hmax
  · have : env' = w := by
      unfold intArray at e1
      have hm := hc.malloc w l.length
      split at e1
      · rename_i hx; rw [hx] at hm; cases e1; exact hm
      · rename_i hx
        simp only [bind, Except.bind] at e1
        split at e1
        · cases e1
        · exfalso
          simp only [pure, Except.pure, Except.ok.injEq, Prod.mk.injEq] at e1
          have e1 := e1.1
          unfold finish at e1
          split at e1 <;> cases e1
    subst this
    refine ⟨_, _, _, e1, e2, .refl _, fun _ => ⟨l, hl, ?_, by intro u hu; cases hu⟩, fun hx => absurd (.refl _) hx⟩
    simp [shows, showsAlone, hl, Spec.Out.over, over]
  · have hre := e2 _ hc
    rw [hob] at ho
    cases ho
    have hne' : l' ≠ [] := by
      intro hx
      rw [hx] at hlen
      exact hne (List.length_eq_zero_iff.1 hlen.symm)
    obtain ⟨h2, hcs⟩ := reach_cases h hb hre
    refine ⟨_, _, _, e1, e3, hre, ?_, ?_⟩
    · intro hin
      have hb2 : InBlock o b (capacity w o) w2 := by
        rcases hcs with ⟨_, hb2⟩ | hg
        · exact hb2
        · exact absurd hg (fun hg => not_both (raced_in h hb (raced_of_reach hin)).2 hg)
      obtain ⟨m, cs, ho2, hm2, hn2⟩ := hb2
      obtain ⟨cs', hcs', hle⟩ := h2.vec o b m ho2
      rw [hm2] at hcs'
      cases hcs'
      have hw : writeBlock w2 (some b) l' = .ok { w2 with mem := upd w2.mem b (some (l' ++ cs.drop l'.length)) } := by
        unfold writeBlock
        rw [if_neg hne']
        simp only [hm2]
        rw [if_pos (by omega)]
      refine ⟨cs.take m, contents_of ho2 hm2, ?_, ?_⟩
      · have hk : contents { w2 with mem := upd w2.mem b (some (l' ++ cs.drop l'.length)) } o = some (over l' (cs.take m)) := by
          refine (contents_of (w := { w2 with mem := upd w2.mem b (some (l' ++ cs.drop l'.length)) }) ho2 (upd_same _ _ _)).trans ?_
          rw [over, List.take_append, List.length_take, Nat.min_eq_left hle, List.drop_take]
        rw [hw]
        cases e <;> simp only [shows, showsAlone, finish, hk, Spec.Out.over]
      · rw [hw]
        cases e <;> (intro u hu; cases hu)
    · intro hout
      rcases hcs with ⟨hin, _⟩ | hg
      · exact absurd hin hout
      · have : writeBlock w2 (some b) l' = .error .useAfterFree := by
          unfold writeBlock
          rw [if_neg hne']
          simp only [hg.1]
        rw [this]

/-- `o.sort()` without a key runs without the interpreter lock. For every non-empty list, after any history, there is a
number of elements, at least those the list has, such that after any interleaving of stores of the sort and operations of
other threads: each access of the sort finds its element if what happened amounts to operations that neither drop the list
nor give or promise it more than that number of elements, and is otherwise a use after free. -/
theorem C37_threads_exact {es : List Ev} {w : World} {o : Nat} {v : Vec} {l : List Int}
    (hr : Store.run cfg K grow start es = some w) (ho : w.objs o = some v) (hl : contents w o = some l) (hne : l ≠ []) :
    ∃ n, l.length ≤ n ∧ ∀ w', Raced cfg K grow Any v.blk w w' → ∀ i, i < l.length →
      (Raced cfg K grow (InRoom o n) v.blk w w' →
        ∃ x l', accessBlock w' v.blk i = .ok x ∧ contents w' o = some l' ∧ (i < l'.length → l'[i]? = some x)) ∧
      (¬ Raced cfg K grow (InRoom o n) v.blk w w' → accessBlock w' v.blk i = .error .useAfterFree) := by
  have h := run_wf es _ _ wf_start hr
  obtain ⟨b, hob, hb⟩ := capacity_block h hl hne
  have hcap := capacity_le hl
  rw [hob] at ho
  cases ho
  refine ⟨capacity w o, hcap, ?_⟩
  intro w' hra i hi
  refine ⟨?_, ?_⟩
  · intro hin
    obtain ⟨h2, m, cs, ho2, hm2, hn2⟩ := raced_in h hb hin
    have hic : i < cs.length := by omega
    refine ⟨cs[i], cs.take m, ?_, contents_of ho2 hm2, ?_⟩
    · simp only [accessBlock, hm2, List.getElem?_eq_getElem hic]
    · intro hlt
      rw [List.length_take] at hlt
      rw [List.getElem?_take_of_lt (by omega), List.getElem?_eq_getElem hic]
  · intro hout
    rcases (raced_cases h hb hra).2 with ⟨hin, _⟩ | hg
    · exact absurd hin hout
    · simp only [accessBlock, hg.1]

/-! ### Linked lists -/

/-- `IntLinkedList.sort(key=…)`, for all callbacks: undefined behaviour exactly if the callbacks leave the list shorter
than it was at the start; otherwise the sorted elements overwrite the front of what they left. -/
theorem C37_int_linked_exact (py : PyVer) {s : LState Int} {c : Caller (LState Int) κ PyLong}
    (hmal : ∀ s n, (c.malloc s n).2 = s) (hmax : s.size < 2 ^ 60) (rev : Bool) :
    ∃ r r' s2, intArray .i32 py c s s.vals rev = .ok (r, s2) ∧ intLinkedIn py c s rev = .ok r' ∧
      (s.size ≤ s2.size → showsVals r' = Spec.Out.over s2.vals r ∧ ∀ u, r' ≠ .ub u) ∧
      (s2.size < s.size → r' = .ub .badIterator) := by
  have hlen : s.vals.length = s.size := by simp [LState.vals, LState.size]
  unfold intArray intLinkedIn
  rw [hlen]
  have hm := hmal s s.size
  cases hmal : c.malloc s s.size with
  | mk got s1 =>
    rw [hmal] at hm
    simp only at hm
    subst hm
    cases got with
    | false =>
      refine ⟨_, _, _, rfl, rfl, fun _ => ⟨?_, by intro u hu; cases hu⟩, fun hx => absurd hx (Nat.lt_irrefl _)⟩
      simp [showsVals, Spec.Out.over, over]
    | true =>
      obtain ⟨okb, out, s2, err, hs, hp, _⟩ := CPySort.sortKeyed_spec c s1 (s1.vals.map (box .i32 py)) rev (by simpa [hlen] using hmax)
      simp only [hs, bind, Except.bind, pure, Except.pure]
      have h1 := writeBack_length .i32 py out err
      have h2 := hp.length_eq
      rw [List.length_map] at h2
      refine ⟨_, _, _, rfl, rfl, fun hle => ?_, fun hlt => ?_⟩
      · have h3 : (ListSort.writeBack .i32 py out err).1.length ≤ s2.size := by omega
        obtain ⟨s3, e3, e4, _⟩ := rewrite_ok h3
        have h5 : (ListSort.writeBack .i32 py out err).1.length ≤ s2.vals.length := by
          simpa [LState.vals, LState.size] using h3
        refine ⟨?_, ?_⟩
        · rw [e3]
          cases (ListSort.writeBack .i32 py out err).2 <;>
            simp only [showsVals, finish, Spec.Out.over, over_le h5, ← e4] <;> rfl
        · rw [e3]
          cases (ListSort.writeBack .i32 py out err).2 <;> (intro u hu; cases hu)
      · rw [rewrite_short (by omega)]

/-- `ObjectLinkedList.sort(…)`, with or without a key function, for all callbacks: the same. Reference counts are not
part of this. -/
theorem C37_object_linked_exact {s : LState ν} {c : Call (LState ν) κ ν} (hmal : ∀ s n, (c.malloc s n).2 = s)
    (hmax : s.size < 2 ^ 60) (rev : Bool) : ∃ r', objLinkedIn c s rev = .ok r' ∧ (r' = .exc s .memoryError ∨
      ∃ ok out s2 err, c.sort s s.vals rev = .ok (ok, out, s2, err) ∧ out.Perm s.vals ∧
        (s.size ≤ s2.size → ∃ s', s'.vals = over out s2.vals ∧ s'.ids = s2.ids ∧
          r' = (match err with | none => .ok s' () | some e => .pending s' () e)) ∧
        (s2.size < s.size → r' = .ub .badIterator)) := by
  have hlen : s.vals.length = s.size := by simp [LState.vals, LState.size]
  unfold objLinkedIn
  have hm := hmal s s.size
  cases hmal : c.malloc s s.size with
  | mk got s1 =>
    rw [hmal] at hm
    simp only at hm
    subst hm
    cases got with
    | false => exact ⟨_, rfl, Or.inl rfl⟩
    | true =>
      obtain ⟨okb, out, s2, err, hs, hp, _⟩ := ListSort.call_spec c s1 s1.vals rev (by omega)
      simp only [hs, bind, Except.bind, pure, Except.pure]
      have h2 := hp.length_eq
      refine ⟨_, rfl, Or.inr ⟨okb, out, s2, err, rfl, hp, fun hle => ?_, fun hlt => ?_⟩⟩
      · have h3 : out.length ≤ s2.size := by omega
        obtain ⟨s3, e3, e4, e5⟩ := rewrite_ok h3
        have h5 : out.length ≤ s2.vals.length := by simpa [LState.vals, LState.size] using h3
        refine ⟨{ s3 with modCount := s3.modCount + 1 }, ?_, e5, ?_⟩
        · rw [over_le h5]; exact e4
        · rw [e3]
          cases err <;> rfl
      · rw [rewrite_short (by omega)]

/-! ### Object array lists -/

/-- What the key loop over an ObjectArrayList finds: the key function is called with the elements the list has at each
moment, as long as the list stays in its allocation and is long enough. -/
private def Finds (c : Caller σ κ ν) (vec : σ → OVec ν) (b : Nat) : σ → Nat → Nat → Prop
  | _, _, 0 => True
  | env, i, n + 1 =>
    (vec env).blk = b ∧ i < (vec env).items.length ∧
    ∀ x, (vec env).items[i]? = some x → ∀ k env', c.key env x = (.ok k, env') → Finds c vec b env' (i + 1) n

/-- The key loop of `ObjectArrayList.sort(key=…)` is defined exactly if, before each call of the key function, the list
still is in the allocation it was in at the start and still has the element to be passed; otherwise it is a use after
free. -/
theorem C37_object_array_keys_exact (c : Caller σ κ ν) (vec : σ → OVec ν) (b n : Nat) : ∀ (i : Nat) (env : σ),
    ((∃ r, keysIn c vec b env i n = .ok r) ↔ Finds c vec b env i n) ∧
    (¬ Finds c vec b env i n → keysIn c vec b env i n = .error .useAfterFree) := by
  induction n with
  | zero => intro i env; exact ⟨⟨fun _ => trivial, fun _ => ⟨_, rfl⟩⟩, fun h => absurd trivial h⟩
  | succ n ih =>
    intro i env
    unfold keysIn Finds
    by_cases hb : (vec env).blk = b
    · cases hx : (vec env).items[i]? with
      | none =>
        have hi : ¬ i < (vec env).items.length := by
          intro hi
          rw [List.getElem?_eq_getElem hi] at hx
          cases hx
        have : (vec env).access b i = .error .useAfterFree := by
          unfold OVec.access
          rw [if_neg (by simpa using hb), hx]
        simp only [this, bind, Except.bind]
        refine ⟨⟨?_, fun h => absurd h.2.1 hi⟩, fun _ => trivial⟩
        rintro ⟨r, hr⟩
        cases hr
      | some x =>
        have hi : i < (vec env).items.length := by
          apply Classical.byContradiction
          intro hi
          rw [List.getElem?_eq_none (by omega)] at hx
          cases hx
        have : (vec env).access b i = .ok x := by
          unfold OVec.access
          rw [if_neg (by simpa using hb), hx]
        simp only [this, bind, Except.bind]
        cases hk : c.key env x with
        | mk a env' =>
          cases a with
          | error e =>
            have hf : (vec env).blk = b ∧ i < (vec env).items.length ∧
                ∀ x', some x = some x' → ∀ k env', c.key env x' = (.ok k, env') → Finds c vec b env' (i + 1) n := by
              refine ⟨hb, hi, ?_⟩
              intro x' hx' k env2 hk2
              cases hx'
              rw [hk] at hk2
              cases hk2
            exact ⟨⟨fun _ => hf, fun _ => ⟨_, rfl⟩⟩, fun h => absurd hf h⟩
          | ok k =>
            have hf : ((vec env).blk = b ∧ i < (vec env).items.length ∧
                ∀ x', some x = some x' → ∀ k env', c.key env x' = (.ok k, env') → Finds c vec b env' (i + 1) n) ↔
                Finds c vec b env' (i + 1) n := by
              refine ⟨fun h => h.2.2 x rfl k env' hk, fun h => ⟨hb, hi, ?_⟩⟩
              intro x' hx' k2 env2 hk2
              cases hx'
              rw [hk] at hk2
              cases hk2
              exact h
            rw [hf]
            obtain ⟨ih1, ih2⟩ := ih (i + 1) env'
            simp only
            constructor
            · rw [← ih1]
              cases hr : keysIn c vec b env' (i + 1) n with
              | error u => simp
              | ok r =>
                obtain ⟨a, e⟩ := r
                cases a <;> simp [pure, Except.pure]
            · intro h
              rw [ih2 h]
    · have : (vec env).access b i = .error .useAfterFree := by
        unfold OVec.access
        rw [if_pos hb]
      simp only [this, bind, Except.bind]
      refine ⟨⟨?_, fun h => absurd h.1 hb⟩, fun _ => trivial⟩
      rintro ⟨r, hr⟩
      cases hr

/-! ### The hypotheses are satisfiable, and both cases occur -/

section examples

private def noSimd : Cfg := ⟨.v312, false, false, false, false⟩
private def doubling (cap need : Nat) : Nat := max (2 * cap) need
private def single : World :=
  (Store.run noSimd .i32 doubling start [.create 0 (some (.inr (.list [.int 3, .int 1]))) 3]).getD start

/-- A key function that appends to the list each time it is called. -/
private def appends : Caller World Int PyLong :=
  { key := fun w x => (.ok x.value, (Store.run noSimd .i32 doubling w [.call 0 (.append (.int 9)) 0]).getD w)
    lt := fun w x y => (.ok (decide (x < y)), w)
    malloc := fun w _ => (true, w) }

example : Conduct noSimd .i32 doubling Any appends := by
  refine ⟨?_, fun _ _ _ => .refl _, fun _ _ => rfl⟩
  intro w x
  show Reach noSimd .i32 doubling Any w ((Store.run noSimd .i32 doubling w [.call 0 (.append (.int 9)) 0]).getD w)
  cases hx : Store.run noSimd .i32 doubling w [.call 0 (.append (.int 9)) 0] with
  | none => exact .refl _
  | some w' => exact run_reach _ (fun _ _ _ _ => trivial) _ _ hx

example : contents single 0 = some [3, 1] ∧ capacity single 0 = 3 := by decide
/-- Two appends are one too many. -/
example : (sortIn .i32 .v312 appends single 0 false).toOption.map (shows 0) = some (.ub .useAfterFree) := by decide +kernel

/-- A key function that appends to the vector it is called for: defined while there is room. -/
private def pushes : Caller (OVec Int) Int Int :=
  { key := fun v x => (.ok x, v.push (fun n => 2 * n) 9)
    lt := fun v x y => (.ok (decide (x < y)), v)
    malloc := fun v _ => (true, v) }

example : ∃ r, keysIn pushes id 0 (⟨0, 4, [5, 6]⟩ : OVec Int) 0 2 = .ok r := ⟨_, rfl⟩
example : keysIn pushes id 0 (⟨0, 2, [5, 6]⟩ : OVec Int) 0 2 = .error .useAfterFree := rfl

end examples

end Verif.Props
