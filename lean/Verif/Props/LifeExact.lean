import Verif.Lemmas.LifeDepth
import Verif.Props.Life
import Mathlib.Tactic.ByContra

/-!
# C54, exactly: what stays behind, and how deep lists can be nested
-/

namespace Verif.Props

open Verif.Life Verif.Spec.Life

/-- **C54 (what stays behind, exactly).** After any history in which no list of objects is constructed from another list of its
own class and at whose end no list contains itself: the objects that are there are those to which a reference leads, either of
Python code or one that an object had when it was initialised again; the storage allocated is that of these objects and the one
that objects had when they were initialised again. When Python code has dropped its last reference, nothing is left exactly if
every object that was initialised again had neither references nor storage then. -/
theorem C54_reclaimed_exact (D : Nat) (evs : List Ev) (hs : Never sharing D empty evs) (w : World)
    (hw : run D empty evs = .ok w) (hc : NoCycle w) :
    (∀ x, Lives w x ↔ Held w (lost D empty evs).1 x) ∧
    w.heap.blocks = total (fun i => match w.heap.cells i with | some c => c.blocks | none => 0) w.heap.next +
      (lost D empty evs).2 ∧
    (w.names = [] → (((∀ x, ¬ Lives w x) ∧ w.heap.blocks = 0) ↔ lost D empty evs = ([], 0))) := by
  have ha := (C54_alive_partial D evs hs).2 w hw
  have h := run_fine evs empty [] 0 inv_empty hs
  rw [hw] at h
  obtain ⟨⟨L, B, iv, _, e1, e2⟩, _, _⟩ := h
  rw [List.nil_append] at e1
  rw [Nat.zero_add] at e2
  subst e1 e2
  obtain ⟨rank, hrank⟩ := hc
  have hl : ∀ x ∈ (lost D empty evs).1, Lives w x := fun x hx => iv.lives (by simp [hx])
  have h1 : ∀ x, Lives w x ↔ Held w (lost D empty evs).1 x := by
    intro x
    constructor
    · have : ∀ n x, total rank w.heap.next - rank x < n → Lives w x → Held w (lost D empty evs).1 x := by
        intro n
        induction n with
        | zero => intro x hx; omega
        | succ n ih =>
          intro x hx ⟨c, hc⟩
          rcases iv.referrer hc with hR | ⟨o, d, ho, hd, hx'⟩
          · rcases List.mem_append.1 hR with hR | hR
            · exact .name hR
            · exact .lost hR
          · obtain ⟨e, he, hr⟩ := List.mem_filterMap.1 hx'
            have hel : .obj x ∈ elems w o := by
              rw [elems_eq, itemsAt_some hd]
              cases e with
              | int v => simp [Elem.ref?] at hr
              | obj y => simp only [Elem.ref?, Option.some.injEq] at hr; exact hr ▸ he
            have hlt := hrank o x hel
            have hle := total_le (f := rank) w.heap.next ho
            exact .item (ih o (by omega) ⟨d, hd⟩) hel
      exact this _ x (Nat.lt_succ_self _)
    · intro r
      cases r with
      | name h => exact ha.1 x h
      | lost h => exact hl x h
      | item r h => exact ha.2 _ x h
  have h2 : w.heap.blocks = total (fun i => match w.heap.cells i with | some c => c.blocks | none => 0) w.heap.next +
      (lost D empty evs).2 := by
    rw [iv.blocks]
    congr 1
  refine ⟨h1, h2, fun hn => ⟨fun ⟨hx, hb⟩ => ?_, fun he => ?_⟩⟩
  · refine Prod.ext ?_ (by show (lost D empty evs).2 = 0; omega)
    exact List.eq_nil_iff_forall_not_mem.2 fun x hm => hx x (hl x hm)
  · have h3 : ∀ x, ¬ Lives w x := by
      intro x hx
      have := (h1 x).1 hx
      clear hx
      induction this with
      | name h => rw [hn] at h; cases h
      | lost h => rw [he] at h; cases h
      | item _ _ ih => exact ih
    refine ⟨h3, ?_⟩
    rw [h2, he]
    refine (Nat.add_zero _).trans (total_zero _ fun i _ => ?_)
    match hi : w.heap.cells i with
    | none => rfl
    | some c => exact absurd ⟨c, hi⟩ (h3 i)

/-! ### Both cases occur -/

/-- An object list that has an element is initialised again: the element and one block stay. -/
def reinitHistory : List Ev := [.new .other, .create .objArray [.obj 0] false, .init 1 [] false, .drop 1, .drop 0]

example : Never sharing 5 empty reinitHistory ∧ lost 5 empty reinitHistory = ([0], 1) ∧
    ∃ w, run 5 empty reinitHistory = .ok w ∧ NoCycle w ∧ w.names = [] ∧ Lives w 0 := by
  refine ⟨?_, rfl, _, rfl, ⟨fun _ => 0, fun o x h => ?_⟩, rfl, ⟨_, rfl⟩⟩
  · unfold reinitHistory
    repeat' (first | trivial | (refine ⟨rfl, fun w' h => ?_⟩; cases h))
  · have : ∀ o : Nat, o = 0 ∨ o = 1 ∨ 1 < o := by omega
    rcases this o with rfl | rfl | ho
    · exact nomatch (show Elem.obj x ∈ ([] : List Elem) from h)
    · exact nomatch (show Elem.obj x ∈ ([] : List Elem) from h)
    · exfalso
      have h0 : o ≠ 0 := by omega
      have h1 : o ≠ 1 := by omega
      simp [elems, Heap.put, upd, h0, h1, alloc, empty] at h

/-- Initialising an empty list again loses nothing. -/
example : lost 5 empty [.create .objArray [] false, .init 0 [] false, .drop 0] = ([], 0) ∧
    again (alloc empty .objArray (.made []) 0) (.init 0 [] false) = true ∧
    (run 5 empty [.create .objArray [] false, .init 0 [] false, .drop 0]).toOption.map (·.heap.blocks) = some 0 :=
  ⟨rfl, rfl, rfl⟩

/-! ## The stack -/

/-- **C54 (no crash, by depth).** However long the history, every event returns if lists are always nested less than `D` deep and
the two other causes of a crash are excluded: what the stack must have room for is the depth to which lists are nested, not the
number of objects or events. -/
theorem C54_no_crash_depth_partial (D : Nat) (evs : List Ev) (hs : Never sharing D empty evs)
    (hb : ∀ e ∈ evs, Ev.bare e = false) (hD : Shallow D empty evs) : ∃ w, run D empty evs = .ok w := by
  have h := run_fine evs empty [] 0 inv_empty hs
  match hr : run D empty evs with
  | .ok w => exact ⟨w, rfl⟩
  | .error u =>
    rw [hr] at h
    rcases h with ⟨rfl, _⟩ | ⟨_, h⟩
    · exact absurd hr (run_below evs empty [] 0 inv_empty hs hD)
    · exact absurd ⟨made_empty, hb⟩ h

/-- **C54 (depth, exactly).** `n + 1` lists, each in the next, can be built on a stack with room for `D + 1` frames whatever `n`
is; dropping them crashes exactly if they are more than the frames. -/
theorem C54_depth_exact (D n : Nat) :
    (run (D + 1) empty (nested n ++ [.drop n]) = .error .stackOverflow ↔ D < n) ∧
    (n ≤ D → ∃ w, run (D + 1) empty (nested n ++ [.drop n]) = .ok w ∧ w.names = [] ∧ ∀ x, ¬ Lives w x) := by
  obtain ⟨h, hr, hn, hc, hs, ha⟩ := nested_spec D n
  have hok : n ≤ D → ∃ h', decref (D + 1) h n = .ok h' ∧ (∀ i, i ≤ n → h'.cells i = none) ∧
      ∀ i, n < i → h'.cells i = h.cells i := fun hle => chain_drop (D + 1) n h hc (by omega)
  have hrun : run (D + 1) empty (nested n ++ [.drop n]) = run (D + 1) ⟨h, [n]⟩ [.drop n] := run_append _ _ _ _ _ hr
  have hpos : n ≤ D → ∃ w, run (D + 1) empty (nested n ++ [.drop n]) = .ok w ∧ w.names = [] ∧ ∀ x, ¬ Lives w x := by
    intro hle
    obtain ⟨h', e, h1, h2⟩ := hok hle
    refine ⟨⟨h', []⟩, ?_, rfl, ?_⟩
    · rw [hrun]
      simp [run, step, e, finish]
    · rintro x ⟨c, hx⟩
      simp only at hx
      by_cases hxn : x ≤ n
      · rw [h1 x hxn] at hx; cases hx
      · have h3 := run_fine (nested n) empty [] 0 inv_empty hs
        rw [hr] at h3
        obtain ⟨⟨L, B, iv, _⟩, _⟩ := h3
        rw [h2 x (by omega), iv.bound x (by show h.next ≤ x; omega)] at hx
        cases hx
  refine ⟨⟨fun e => ?_, fun hlt => ?_⟩, hpos⟩
  · by_contra hle
    obtain ⟨w, e', _⟩ := hpos (by omega)
    rw [e] at e'
    cases e'
  · rw [hrun]
    simp only [run, step, List.contains_cons, beq_self_eq_true, Bool.true_or, if_true,
      chain_overflow (D + 1) n h hc (by omega), finish]

/-- Six events, four frames: a list in another list that is created and dropped twice. -/
example : Shallow 4 empty [.create .objArray [] false, .create .objLinked [.obj 0] false, .drop 1,
    .create .objLinked [.obj 0] false, .drop 2, .drop 0] := by
  have key : ∀ w : World, (∀ o x, .obj x ∈ elems w o → x = 0 ∧ o ≠ 0) → Below 4 w := by
    intro w h
    refine ⟨fun x => if x = 0 then 0 else 1, fun o x hx => ?_, fun x => ?_⟩
    · obtain ⟨rfl, ho⟩ := h o x hx
      simp [ho]
    · dsimp only; split <;> omega
  have no : ∀ (w : World), (∀ o, o ≠ 1 → o ≠ 2 → elems w o = []) → (elems w 1 = [] ∨ elems w 1 = [.obj 0]) →
      (elems w 2 = [] ∨ elems w 2 = [.obj 0]) → Below 4 w := by
    intro w h0 h1 h2
    refine key w fun o x hx => ?_
    by_cases e1 : o = 1
    · subst e1; rcases h1 with h | h <;> rw [h] at hx <;> simp at hx; simp [hx]
    · by_cases e2 : o = 2
      · subst e2; rcases h2 with h | h <;> rw [h] at hx <;> simp at hx; simp [hx]
      · rw [h0 o e1 e2] at hx; cases hx
  repeat' (first
    | trivial
    | (refine ⟨no _ (fun o h1 h2 => by
          by_cases h0 : o = 0
          · subst h0; rfl
          · simp [elems, Heap.put, upd, h0, h1, h2, alloc, empty])
          (by first | exact .inl rfl | exact .inr rfl) (by first | exact .inl rfl | exact .inr rfl), fun w' h => ?_⟩
       cases h))

end Verif.Props
