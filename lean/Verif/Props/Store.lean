import Verif.Lemmas.Store

/-!
# C22 (buffers of an int array list) and C23 (independence of copies)
-/

namespace Verif.Props

open Verif.Spec
open Verif.Store

variable {cfg : Cfg} {K : Kind} {grow : Nat → Nat → Nat}

/-! ### C23 -/

/-- Whatever has happened before, `c = l.copy()` succeeds for a live list and gives a list with the same elements,
leaving the original and all other lists as they are. -/
theorem C23_copy {es : List Ev} {w : World} {o c : Nat} {l : List Int} (hr : run cfg K grow start es = some w)
    (ho : contents w o = some l) (hc : w.objs c = none) :
    ∃ w', step cfg K grow w (.copy o c) = .ok w' .none ∧ contents w' c = some l ∧
      ∀ p, p ≠ c → contents w' p = contents w p := by
  have h := run_wf es _ _ wf_start hr
  cases hv : w.objs o with
  | none => rw [contents_none hv] at ho; cases ho
  | some v =>
    obtain ⟨cs, hcs⟩ := cells_of h hv
    have e : cs.take v.size = l := by
      simp only [contents, hv, hcs, Option.map_some, Option.some.injEq] at ho
      exact ho
    refine ⟨fresh w c l l.length, by simp only [step, hv, hc, hcs, e], fresh_self (Nat.le_refl _), ?_⟩
    intro p hp
    exact fresh_other h hp

/-- No history of operations on other lists (or through other lists' memoryviews) changes a list: neither the original
that of the copy, nor the copy that of the original. -/
theorem C23_independent {es es' : List Ev} {w w' : World} {c : Nat} (hr : run cfg K grow start es = some w)
    (hu : Untouched cfg K grow c w es') (hr' : run cfg K grow w es' = some w') : contents w' c = contents w c :=
  run_untouched es' _ _ (run_wf es _ _ wf_start hr) hr' hu

/-- What a call on a list answers and stores is determined by the elements of that list: it is what the call does on
a list alone, wherever its elements are stored and whatever other lists there are. -/
theorem C23_own_contents_only {es : List Ev} {w : World} {c : Nat} {l : List Int} (hr : run cfg K grow start es = some w)
    (hl : contents w c = some l) (op : Op) (hint : Nat) :
    seen c (step cfg K grow w (.call c op hint)) = alone (ArrayList.step cfg K l op) :=
  callOp_seen (run_wf es _ _ wf_start hr) hl op hint

/-! ### C22 -/

/-- If the list was created with `exceptSize = n`, is not dropped, never exceeds `n` elements and is never extended by an
iterator promising more, each of its memoryviews stays readable over its whole length, and shows the current elements
of the list. Missing: all other lists. -/
theorem C22_partial {es es' : List Ev} {w w1 w' : World} {o n : Nat} {arg : Option (Int ⊕ Src)} (hg : Grows grow) (hn : 0 < n)
    (hr : run cfg K grow start es = some w) (hnew : ∀ id x, w.views id = some x → x.of ≠ o)
    (hc : step cfg K grow w (.create o arg n) = .ok w1 .none)
    (hwi : Within cfg K grow o n w1 es') (hr' : run cfg K grow w1 es' = some w')
    {id : Nat} {x : View} (hx : w'.views id = some x) (ho : x.of = o) {i : Nat} (hi : i < x.len) :
    ∃ v l, step cfg K grow w' (.read id i) = .ok w' (.int v) ∧ contents w' o = some l ∧ (i < l.length → l[i]? = some v) := by
  have h := run_wf es _ _ wf_start hr
  have h1 : WF w1 := step_wf h (by rw [hc]; rfl)
  have hh : ∃ b, Home o b n w1 := by
    simp only [step] at hc
    cases hv : w.objs o with
    | some v => simp only [hv] at hc; cases hc
    | none =>
      simp only [hv] at hc
      cases hi : ArrayList.init K arg with
      | ok l u =>
        simp only [hi] at hc
        cases hc
        refine ⟨w.next, ?_, ?_⟩
        · have : n ≤ room grow (room grow 0 n) l.length := Nat.le_trans (room_le hg 0 n) (room_ge hg _ _)
          unfold fresh
          rw [if_neg (by omega)]
          refine ⟨_, _, upd_same _ _ _, upd_same _ _ _, ?_⟩
          rw [List.length_append, List.length_replicate]
          omega
        · intro j blk k hj
          rw [fresh_views] at hj
          exact absurd rfl (hnew j _ hj)
      | exc l e => simp only [hi] at hc; cases hc
      | pending l u e => simp only [hi] at hc; cases hc
      | ub u => simp only [hi] at hc; cases hc
  obtain ⟨b, hh⟩ := hh
  obtain ⟨_, hh'⟩ := run_home es' _ _ h1 hh hwi hr'
  obtain ⟨p, blk, k⟩ := x
  simp only at ho hi
  subst ho
  obtain ⟨rfl, _⟩ := hh'.views id blk k hx
  exact home_read hh' hx hi

/-- The property fails: take any memoryview of a live list, freshly made. After enough appends to the list every read
through the view, at any index it admits, is a use after free. -/
theorem C22_append_dangles {es : List Ev} {w w1 : World} {o id i : Nat} {l : List Int}
    (hr : run cfg K grow start es = some w) (hl : contents w o = some l) (hi : i < l.length)
    (hv : step cfg K grow w (.view o id) = .ok w1 .none) :
    ∃ k w', run cfg K grow w1 (List.replicate k (.call o (.append (.int 0)) 0)) = some w' ∧
      step cfg K grow w' (.read id i) = .ub .useAfterFree := by
  have h := run_wf es _ _ wf_start hr
  have h1 : WF w1 := step_wf h (by rw [hv]; rfl)
  simp only [step] at hv
  cases ho : w.objs o with
  | none => simp only [ho] at hv; cases hv
  | some v =>
    cases hid : w.views id with
    | some _ => simp only [ho, hid] at hv; cases hv
    | none =>
      simp only [ho, hid] at hv
      cases hv
      obtain ⟨blk, m⟩ := v
      cases blk with
      | none =>
        rw [contents_nul ho] at hl
        cases hl
        simp at hi
      | some b =>
        obtain ⟨cs, hcs, hle⟩ := h.vec o b m ho
        have hlen := contents_len hl ho h
        obtain ⟨w', hr', hn, hvs⟩ := append_moves (cfg := cfg) (K := K) (grow := grow) (cs.length - m) _ o b m cs h1 ho hcs rfl
        refine ⟨_, w', hr', ?_⟩
        have : w'.views id = some ⟨o, some b, m⟩ := by rw [hvs]; exact upd_same _ _ _
        simp only [step, this, hn, if_pos (show i < m by omega)]

/-- Nor does the view keep the list alive: reading it after the last reference to the list is gone is a use after
free. -/
theorem C22_drop_dangles {es : List Ev} {w w1 : World} {o id i : Nat} {l : List Int}
    (hr : run cfg K grow start es = some w) (hl : contents w o = some l) (hi : i < l.length)
    (hv : step cfg K grow w (.view o id) = .ok w1 .none) :
    ∃ w', run cfg K grow w1 [.drop o] = some w' ∧ step cfg K grow w' (.read id i) = .ub .useAfterFree := by
  have h := run_wf es _ _ wf_start hr
  simp only [step] at hv
  cases ho : w.objs o with
  | none => simp only [ho] at hv; cases hv
  | some v =>
    cases hid : w.views id with
    | some _ => simp only [ho, hid] at hv; cases hv
    | none =>
      simp only [ho, hid] at hv
      cases hv
      obtain ⟨blk, m⟩ := v
      cases blk with
      | none =>
        rw [contents_nul ho] at hl
        cases hl
        simp at hi
      | some b =>
        have hlen := contents_len hl ho h
        refine ⟨_, by simp only [run, step, ho, Out.state?]; rfl, ?_⟩
        simp only [step, upd_same, if_pos (show i < m by omega)]

/-- A consumer that does not clear the `Py_buffer` it passes (as `bytes(l)` does not) releases a garbage object. -/
theorem C22_bytes_releases_garbage {es : List Ev} {w : World} {o g : Nat} {l : List Int}
    (hr : run cfg K grow start es = some w) (hl : contents w o = some l) (hg : g ≠ 0) :
    step cfg K grow w (.bytes o g) = .ub .typeConfusion := by
  have h := run_wf es _ _ wf_start hr
  cases hv : w.objs o with
  | none => rw [contents_none hv] at hl; cases hl
  | some v =>
    obtain ⟨cs, hcs⟩ := cells_of h hv
    simp only [step, hv, hcs, if_neg hg]

/-! ### The hypotheses are satisfiable -/

section examples

/-- A CPU without extensions, Python 3.12. -/
private def plain : Cfg := ⟨.v312, false, false, false, false⟩

private def double (cap need : Nat) : Nat := max (2 * cap) need

example : Grows double := fun _ _ => Nat.le_max_right ..

private def born : List Ev := [.create 0 (some (.inr (.list [.int 4, .int 5]))) 8, .view 0 9]

example : (run plain .i32 double start born).map (fun w => (contents w 0, w.views 9)) =
    some (some [4, 5], some ⟨0, some 0, 2⟩) := by decide

/-- A copy, then changes to the original only, one of them through a view. -/
private def later : List Ev := [.call 0 (.append (.int 6)) 0, .copy 0 2, .callOn 0 1 .extend, .write 9 0 8, .drop 2]

example : (run plain .i32 double start (born ++ .copy 0 1 :: later)).map
    (fun w => (contents w 0, contents w 1, contents w 2)) = some (some [8, 5, 6, 4, 5], some [4, 5], none) := by decide

private def copied : World := (run plain .i32 double start (born ++ [.copy 0 1])).getD start

example : Untouched plain .i32 double 1 copied later := by decide

/-- The list of capacity 8 stays in its block under these changes. -/
private def made : World := (run plain .i32 double start [.create 0 (some (.inr (.list [.int 4, .int 5]))) 8, .view 0 9, .copy 0 1]).getD start

example : Within plain .i32 double 0 8 made later := by decide

end examples

end Verif.Props
