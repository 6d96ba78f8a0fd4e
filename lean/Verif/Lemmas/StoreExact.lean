import Verif.Lemmas.Store

/-! Helper lemmas for the exact version of C22. -/

namespace Verif.Store

open Verif.Spec

variable {grow : Nat → Nat → Nat} {w : World} {cfg : Cfg} {K : Kind}

/-- The list `o` lives in block `b` of capacity `n`. -/
def InBlock (o b n : Nat) (w : World) : Prop :=
  ∃ m cs, w.objs o = some ⟨some b, m⟩ ∧ w.mem b = some cs ∧ cs.length = n

/-- Block `b` was freed. -/
def Gone (b : Nat) (w : World) : Prop := w.mem b = none ∧ b < w.next

theorem InBlock.frame {o b n : Nat} {w w' : World} (h : InBlock o b n w) (ho : w'.objs o = w.objs o)
    (hm : w'.mem b = w.mem b) : InBlock o b n w' := by
  unfold InBlock
  rw [ho, hm]
  exact h

theorem InBlock.len {o b n : Nat} (hh : InBlock o b n w) (h : WF w) {l : List Int} (hl : contents w o = some l) :
    l.length ≤ n := by
  obtain ⟨m, cs, ho, hm, rfl⟩ := hh
  obtain ⟨cs', hcs', hle⟩ := h.vec o b m ho
  rw [hm] at hcs'
  cases hcs'
  rw [contents_len hl ho h]
  exact hle

theorem InBlock.live {o b n : Nat} (hh : InBlock o b n w) (h : WF w) : ∃ l, contents w o = some l := by
  obtain ⟨m, cs, ho, hm, _⟩ := hh
  exact ⟨_, contents_of ho hm⟩

theorem gone_put {b : Nat} (hg : Gone b w) {o : Nat} {v : Vec} {cs l : List Int} {need : Nat}
    (hc : cells w v = some cs) : Gone b (put grow w o v cs l need) := by
  obtain ⟨blk, k⟩ := v
  have hb : blk ≠ some b := by
    rintro rfl
    have : w.mem b = some cs := hc
    rw [hg.1] at this
    cases this
  unfold put
  split
  · cases blk with
    | none => exact hg
    | some c =>
      have : b ≠ c := fun x => hb (by rw [x])
      exact ⟨by simp only [upd_other _ _ this]; exact hg.1, hg.2⟩
  · have hbn : b ≠ w.next := by have := hg.2; omega
    refine ⟨?_, Nat.lt_succ_of_lt hg.2⟩
    simp only [upd_other _ _ hbn]
    cases blk with
    | none => exact hg.1
    | some c =>
      have : b ≠ c := fun x => hb (by rw [x])
      simp only [upd_other _ _ this]
      exact hg.1

theorem gone_fresh {b : Nat} (hg : Gone b w) {o : Nat} {l : List Int} {cap : Nat} : Gone b (fresh w o l cap) := by
  unfold fresh
  split
  · exact hg
  · have hbn : b ≠ w.next := by have := hg.2; omega
    exact ⟨by simp only [upd_other _ _ hbn]; exact hg.1, Nat.lt_succ_of_lt hg.2⟩

theorem gone_callOp (h : WF w) {b : Nat} (hg : Gone b w) {o : Nat} {op : Op} {hint : Nat} {w' : World}
    (hs : (callOp cfg K grow w o op hint).state? = some w') : Gone b w' := by
  rcases callOp_state h hs with rfl | ⟨v, cs, l', ho, hcs, rfl⟩
  · exact hg
  · exact gone_put hg hcs

/-- A freed block stays freed. -/
theorem gone_step (h : WF w) {b : Nat} (hg : Gone b w) {e : Ev} {w' : World}
    (hs : (step cfg K grow w e).state? = some w') : Gone b w' := by
  cases step_did h hs with
  | same _ e => exact e ▸ hg
  | create o arg n l ho e => rw [e]; exact gone_fresh hg
  | call o op hint hs => exact gone_callOp h hg hs
  | callOn o p bi s _ hs' => exact gone_callOp h hg hs'
  | copy o c v cs ho hc hcn e => rw [e]; exact gone_fresh hg
  | drop o v ho ho' hm hv hn =>
    refine ⟨?_, by rw [hn]; exact hg.2⟩
    rw [hm]
    cases v.blk with
    | none => exact hg.1
    | some c =>
      by_cases e : b = c
      · subst e; exact upd_same _ _ _
      · simp only [upd_other _ _ e]; exact hg.1
  | view o id v ho e => subst e; exact hg
  | write id i a o c n cs hv hm e =>
    subst e
    have : b ≠ c := by rintro rfl; rw [hg.1] at hm; cases hm
    exact ⟨by simp only [upd_other _ _ this]; exact hg.1, hg.2⟩
  | release id e => subst e; exact hg

theorem gone_run (es : List Ev) {b : Nat} : ∀ w w' : World, WF w → Gone b w → run cfg K grow w es = some w' → Gone b w' := by
  induction es with
  | nil => intro w w' _ hg e; cases e; exact hg
  | cons e es ih =>
    intro w w' h hg he
    unfold run at he
    cases hs : (step cfg K grow w e).state? with
    | none => rw [hs] at he; cases he
    | some w1 => rw [hs] at he; exact ih w1 w' (step_wf h hs) (gone_step h hg hs) he

/-- A memoryview that is not released keeps what it recorded. -/
theorem view_step (h : WF w) {id : Nat} {x : View} (hx : w.views id = some x) {e : Ev} {w' : World}
    (hs : (step cfg K grow w e).state? = some w') (hr : e ≠ .release id) : w'.views id = some x := by
  have call : ∀ {o op hint}, (callOp cfg K grow w o op hint).state? = some w' → w'.views id = some x := by
    intro o op hint hs
    rcases callOp_state h hs with rfl | ⟨v, cs, l', ho, hcs, rfl⟩
    · exact hx
    · rw [put_views]; exact hx
  have hd := step_did h hs
  cases hd with
  | same _ e => exact e ▸ hx
  | create o arg n l ho e => rw [e, fresh_views]; exact hx
  | call o op hint hs => exact call hs
  | callOn o p bi s _ hs' => exact call hs'
  | copy o c v cs ho hc hcn e => rw [e, fresh_views]; exact hx
  | drop o v ho ho' hm hv hn => rw [hv]; exact hx
  | write id i a o c n cs hv hm e => subst e; exact hx
  | view o j v ho e =>
    clear e
    cases hv : w.views j with
    | some _ => simp only [step, ho, hv] at hs; cases hs; exact hx
    | none =>
      simp only [step, ho, hv] at hs
      cases hs
      have : id ≠ j := by rintro rfl; rw [hx] at hv; cases hv
      simp only [upd_other _ _ this]; exact hx
  | release j e =>
    subst e
    have : id ≠ j := by rintro rfl; exact hr rfl
    simp only [upd_other _ _ this]; exact hx

theorem view_run (es : List Ev) {id : Nat} {x : View} : ∀ w w' : World, WF w → w.views id = some x →
    .release id ∉ es → run cfg K grow w es = some w' → w'.views id = some x := by
  induction es with
  | nil => intro w w' _ hx _ e; cases e; exact hx
  | cons e es ih =>
    intro w w' h hx hr he
    unfold run at he
    rw [List.mem_cons, not_or] at hr
    cases hs : (step cfg K grow w e).state? with
    | none => rw [hs] at he; cases he
    | some w1 => rw [hs] at he; exact ih w1 w' (step_wf h hs) (view_step h hx hs (fun c => hr.1 c.symm)) hr.2 he

/-- A call on `o`: its block is kept if the room asked for is there, and freed otherwise. -/
theorem block_call (h : WF w) {o b n : Nat} (hh : InBlock o b n w) {op : Op} {hint : Nat} {w' : World} {l : List Int}
    (hs : (callOp cfg K grow w o op hint).state? = some w') (hl : contents w o = some l) :
    ∃ l', contents w' o = some l' ∧
      ((l.length + reserved op hint ≤ n ∧ l'.length ≤ n ∧ InBlock o b n w') ∨
       (¬ (l.length + reserved op hint ≤ n ∧ l'.length ≤ n) ∧ Gone b w')) := by
  obtain ⟨m, cs, ho, hm, rfl⟩ := hh
  rcases callOp_state h hs with rfl | ⟨v, cs', l', ho', hcs, rfl⟩
  · -- the call cannot leave the world alone without the vector being there; kept anyway
    unfold callOp at hs
    obtain ⟨cs2, hcs2⟩ := cells_of h ho
    have e2 : cs2 = cs := by
      have : w'.mem b = some cs2 := hcs2
      rw [hm] at this
      cases this; rfl
    subst e2
    simp only [ho, hcs2] at hs
    generalize ArrayList.step cfg K (List.take m cs2) op = r at hs
    have hlen := contents_len hl ho h
    have hlt : (cs2.take m).length = l.length := by
      have := contents_of ho hm
      rw [this] at hl
      cases hl; rfl
    refine ⟨l, hl, ?_⟩
    have hle : l.length ≤ cs2.length := by rw [← hlt, List.length_take]; omega
    have fin : ∀ l', put grow w' o ⟨some b, m⟩ cs2 l' (max l'.length ((cs2.take m).length + reserved op hint)) = w' →
        l.length + reserved op hint ≤ cs2.length := by
      intro l' e
      apply Classical.byContradiction
      intro hn
      have hneed : ¬ max l'.length ((cs2.take m).length + reserved op hint) ≤ cs2.length := by
        rw [hlt]; omega
      have e2 := congrArg World.next e
      unfold put at e2
      rw [if_neg hneed] at e2
      simp only at e2
      omega
    left
    refine ⟨?_, hle, m, cs2, ho, hm, rfl⟩
    cases r with
    | ok l' r => exact fin l' (Option.some.inj hs)
    | exc l' r => exact fin l' (Option.some.inj hs)
    | pending l' r x => exact fin l' (Option.some.inj hs)
    | ub u => cases hs
  · rw [ho] at ho'
    cases ho'
    have e2 : cs' = cs := by
      have : w.mem b = some cs' := hcs
      rw [hm] at this
      cases this; rfl
    subst e2
    refine ⟨l', put_self hcs (Nat.le_max_left ..), ?_⟩
    have e : cs'.take m = l := by
      rw [contents_of ho hm] at hl
      cases hl; rfl
    rw [e]
    by_cases hn : max l'.length (l.length + reserved op hint) ≤ cs'.length
    · left
      refine ⟨by omega, by omega, ?_⟩
      unfold put
      rw [if_pos hn]
      refine ⟨l'.length, _, upd_same _ _ _, upd_same _ _ _, ?_⟩
      rw [List.length_append, List.length_drop]; omega
    · right
      refine ⟨by omega, ?_⟩
      have hlow := h.low b cs' hm
      unfold put
      rw [if_neg hn]
      refine ⟨?_, Nat.lt_succ_of_lt hlow⟩
      have : b ≠ w.next := by omega
      simp only [upd_other _ _ this, upd_same]

theorem block_fresh (h : WF w) {o p b n : Nat} {l : List Int} {cap : Nat} (hh : InBlock o b n w) (hp : o ≠ p) :
    InBlock o b n (fresh w p l cap) := by
  obtain ⟨m, cs, ho, hm, e⟩ := hh
  refine InBlock.frame ⟨m, cs, ho, hm, e⟩ (fresh_objs hp) ?_
  unfold fresh
  split
  · rfl
  · have : b ≠ w.next := by have := h.low b cs hm; omega
    simp only [upd_other _ _ this]

theorem block_call_other (h : WF w) {o p b n : Nat} (hh : InBlock o b n w) (hp : o ≠ p) {op : Op} {hint : Nat} {w' : World}
    (hs : (callOp cfg K grow w p op hint).state? = some w') : InBlock o b n w' := by
  obtain ⟨m, cs, ho, hm, e⟩ := hh
  rcases callOp_state h hs with rfl | ⟨v, cs', l', hpo, hcs, rfl⟩
  · exact ⟨m, cs, ho, hm, e⟩
  · refine InBlock.frame ⟨m, cs, ho, hm, e⟩ (put_objs hp) ?_
    obtain ⟨blk, k⟩ := v
    have hb : blk ≠ some b := by
      rintro rfl
      exact hp (h.sep o p b m k ho hpo)
    unfold put
    split
    · cases blk with
      | none => rfl
      | some c =>
        have : b ≠ c := fun x => hb (by rw [x])
        simp only [upd_other _ _ this]
    · have hbn : b ≠ w.next := by have := h.low b cs hm; omega
      simp only [upd_other _ _ hbn]
      cases blk with
      | none => rfl
      | some c =>
        have : b ≠ c := fun x => hb (by rw [x])
        simp only [upd_other _ _ this]

/-- An event keeps the block of `o` if it is not the end of `o` and asks for no more than the block has, and frees it
otherwise. -/
theorem block_step (h : WF w) {o b n : Nat} (hh : InBlock o b n w) {e : Ev} {w' : World} {l : List Int}
    (hs : (step cfg K grow w e).state? = some w') (hl : contents w o = some l) :
    (e ≠ .drop o ∧ l.length + promised o e ≤ n ∧ InBlock o b n w') ∨
    (¬ (e ≠ .drop o ∧ l.length + promised o e ≤ n ∧ ∀ l' ∈ contents w' o, l'.length ≤ n) ∧ Gone b w') := by
  have hln := hh.len h hl
  have hh' := hh
  obtain ⟨m, cs, ho, hm, hcn⟩ := hh'
  cases step_did h hs with
  | same _ ew =>
    subst ew
    cases e with
    | drop p =>
      left
      refine ⟨?_, hln, hh⟩
      intro c
      cases c
      simp only [step, ho] at hs
      have := congrArg World.objs (Option.some.inj hs)
      have := congrFun this o
      simp only [upd_same, ho] at this
      cases this
    | call p op hint =>
      by_cases ep : p = o
      · subst ep
        obtain ⟨l', hl', hc⟩ := block_call h hh hs hl
        rcases hc with ⟨h1, h2, h3⟩ | ⟨h1, h2⟩
        · exact .inl ⟨by simp, by simpa [promised] using h1, h3⟩
        · rw [h2.1] at hm; cases hm
      · exact .inl ⟨by simp, by simpa [promised, ep] using hln, hh⟩
    | _ => exact .inl ⟨by simp, hln, hh⟩
  | create p arg k l2 hp ew =>
    refine .inl ⟨by simp, hln, ?_⟩
    rw [ew]
    exact block_fresh h hh (by rintro rfl; rw [ho] at hp; cases hp)
  | call p op hint hs =>
    by_cases ep : p = o
    · subst ep
      obtain ⟨l', hl', hc⟩ := block_call h hh hs hl
      rcases hc with ⟨h1, h2, h3⟩ | ⟨h1, h2⟩
      · exact .inl ⟨by simp, by simpa [promised] using h1, h3⟩
      · right
        refine ⟨fun c => h1 ⟨by simpa [promised] using c.2.1, c.2.2 l' hl'⟩, h2⟩
    · exact .inl ⟨by simp, by simpa [promised, ep] using hln, block_call_other h hh (fun x => ep x.symm) hs⟩
  | callOn p q bi s hsrc hs' =>
    by_cases ep : p = o
    · subst ep
      have h0 : reserved (bi.op s) 0 = 0 := by
        rcases hsrc with rfl | ⟨l, rfl⟩ <;> cases bi <;> rfl
      obtain ⟨l', hl', hc⟩ := block_call h hh hs' hl
      rw [h0] at hc
      rcases hc with ⟨h1, h2, h3⟩ | ⟨h1, h2⟩
      · exact .inl ⟨by simp, hln, h3⟩
      · right
        exact ⟨fun c => h1 ⟨hln, c.2.2 l' hl'⟩, h2⟩
    · exact .inl ⟨by simp, hln, block_call_other h hh (fun x => ep x.symm) hs'⟩
  | copy p c v cs2 hp hcs2 hc ew =>
    refine .inl ⟨by simp, hln, ?_⟩
    rw [ew]
    exact block_fresh h hh (by rintro rfl; rw [ho] at hc; cases hc)
  | drop p v hp hp' hm' hv hnx =>
    by_cases ep : p = o
    · subst ep
      right
      refine ⟨fun c => c.1 rfl, ?_, by rw [hnx]; exact h.low b cs hm⟩
      rw [ho] at hp
      cases hp
      rw [hm']
      exact upd_same _ _ _
    · left
      refine ⟨by simpa using ep, hln, ?_⟩
      refine hh.frame (by rw [hp', upd_other _ _ (fun x => ep x.symm)]) ?_
      rw [hm']
      obtain ⟨blk, k⟩ := v
      cases blk with
      | none => rfl
      | some c =>
        have : b ≠ c := by rintro rfl; exact ep (h.sep o p b m k ho hp).symm
        simp only [upd_other _ _ this]
  | view p id v hp ew => subst ew; exact .inl ⟨by simp, hln, hh⟩
  | write id i a p c k cs2 hv hm2 ew =>
    subst ew
    refine .inl ⟨by simp, hln, ?_⟩
    by_cases e : b = c
    · subst e
      rw [hm] at hm2
      cases hm2
      exact ⟨m, _, ho, upd_same _ _ _, by rw [List.length_set]; exact hcn⟩
    · exact hh.frame rfl (by simp only [upd_other _ _ e])
  | release id ew => subst ew; exact .inl ⟨by simp, hln, hh⟩

/-- A history keeps the block exactly if the list stays within its capacity. -/
theorem block_run (es : List Ev) {o b n : Nat} : ∀ w w' : World, WF w → InBlock o b n w →
    run cfg K grow w es = some w' →
    (Within cfg K grow o n w es ∧ InBlock o b n w') ∨ (¬ Within cfg K grow o n w es ∧ Gone b w') := by
  induction es with
  | nil =>
    intro w w' h hh e
    cases e
    exact .inl ⟨fun l hl => hh.len h hl, hh⟩
  | cons e es ih =>
    intro w w' h hh he
    unfold run at he
    unfold Within
    obtain ⟨l, hl⟩ := hh.live h
    cases hs : (step cfg K grow w e).state? with
    | none => rw [hs] at he; cases he
    | some w1 =>
      rw [hs] at he
      have h1 := step_wf h hs
      rcases block_step h hh hs hl with ⟨a, b', c⟩ | ⟨a, g⟩
      · rcases ih w1 w' h1 c he with ⟨x, y⟩ | ⟨x, y⟩
        · refine .inl ⟨⟨a, ?_, x⟩, y⟩
          intro l2 hl2
          rw [hl] at hl2
          cases hl2
          exact b'
        · exact .inr ⟨fun k => x k.2.2, y⟩
      · refine .inr ⟨fun k => a ⟨k.1, k.2.1 l hl, fun l' hl' => within_now k.2.2 l' hl'⟩, gone_run es w1 w' h1 g he⟩

/-- Elements the list `o` has room for where it is now. -/
def capacity (w : World) (o : Nat) : Nat := ((w.objs o).bind (cells w)).elim 0 List.length

/-- The elements are a prefix of the room there is. -/
theorem capacity_le {w : World} {o : Nat} {l : List Int} (hl : contents w o = some l) : l.length ≤ capacity w o := by
  unfold contents at hl
  unfold capacity
  cases ho : w.objs o with
  | none => simp only [ho] at hl; cases hl
  | some v =>
    simp only [ho] at hl
    cases hc : cells w v with
    | none => rw [hc] at hl; cases hl
    | some cs =>
      rw [hc] at hl
      cases hl
      simp only [Option.bind_some, hc, Option.elim_some]
      rw [List.length_take]
      omega

theorem capacity_block {o : Nat} {l : List Int} (h : WF w) (hl : contents w o = some l) (hne : l ≠ []) :
    ∃ b, w.objs o = some ⟨some b, l.length⟩ ∧ InBlock o b (capacity w o) w := by
  cases ho : w.objs o with
  | none => rw [contents_none ho] at hl; cases hl
  | some v =>
    obtain ⟨blk, m⟩ := v
    cases blk with
    | none =>
      rw [contents_nul ho] at hl
      cases hl
      exact absurd rfl hne
    | some b =>
      obtain ⟨cs, hcs, hle⟩ := h.vec o b m ho
      refine ⟨b, by rw [contents_len hl ho h], m, cs, ho, hcs, ?_⟩
      simp only [capacity, ho, Option.bind_some, cells, hcs, Option.elim_some]

end Verif.Store
