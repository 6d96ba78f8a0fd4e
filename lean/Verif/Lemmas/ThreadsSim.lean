import Verif.Lemmas.Threads

/-! Helper lemmas for C66: schedules and one-step calls. -/

namespace Verif.Threads

open Verif.Store Verif.Spec
open Verif.Reentry (Same step_same)

variable {cfg : Cfg} {K : Kind} {grow : Nat → Nat → Nat} {w : World} {G : Nat → Option (List Int)}

theorem copies_get {α : Type} {l : List α} : ∀ (n k : Nat), k < l.length * n →
    (List.replicate n l).flatten[k]? = l[k % l.length]?
  | 0, k, h => by simp at h
  | n + 1, k, h => by
    rw [List.replicate_succ, List.flatten_cons]
    by_cases hk : k < l.length
    · rw [List.getElem?_append_left hk, Nat.mod_eq_of_lt hk]
    · rw [List.getElem?_append_right (by omega), copies_get n (k - l.length) (by rw [Nat.mul_succ] at h; omega),
        ← Nat.mod_eq_sub_mod (by omega)]

theorem copies_length {α : Type} (l : List α) (n : Nat) : (List.replicate n l).flatten.length = l.length * n := by
  simp [List.length_flatten, Nat.mul_comm]

/-- A call in progress, with the answer it is going to give. -/
def TaskOk (w : World) (G : Nat → Option (List Int)) : Task → Option Ret → Prop
  | .rev o r, x => x = some .none ∧ (∃ n, w.objs o = some ⟨r.blk, n⟩) ∧ (r.blk = none → r.todo = []) ∧
      ∀ b, r.blk = some b → ∃ cs tgt, w.mem b = some cs ∧ G b = some tgt ∧ RevInv r cs tgt
  | .mul o size n blk acc, x => ∃ l, contents w o = some l ∧ l.length = size ∧
      x = some (.newList (List.replicate n l).flatten) ∧ acc <+: (List.replicate n l).flatten ∧
      (acc.length % size ≠ 0 → ∃ v, w.objs o = some v ∧ blk = v.blk)
  | .imul o size n, x => n = 1 ∧ x = some .self ∧ ∃ v, w.objs o = some v ∧ v.size = size

/-- The schedule so far and the one-step calls agree: the lists are the same but for those that are being reversed. -/
structure Sim (s : State) (a : Serving) (G : Nat → Option (List Int)) : Prop where
  wf : WF s.w
  eq : a.w = overlay G s.w
  aside : ∀ b tgt, G b = some tgt → ∃ t o r n, s.tasks t = some (.rev o r) ∧ s.w.objs o = some ⟨some b, n⟩
  one : ∀ t t' o r k, s.tasks t = some (.rev o r) → s.tasks t' = some k → worksOn k = o → t' = t
  task : ∀ t k, s.tasks t = some k → TaskOk s.w G k (a.answers t)

theorem Sim.put_aside {s : State} {a : Serving} (h : Sim s a G) : Aside G s.w (fun o => ∃ t r, s.tasks t = some (.rev o r)) := by
  intro b tgt e
  obtain ⟨t, o, r, n, h1, h2⟩ := h.aside b tgt e
  exact ⟨o, n, h2, t, r, h1⟩

theorem Sim.contents_eq {s : State} {a : Serving} (h : Sim s a G) {o : Nat} (ho : ∀ t r, s.tasks t ≠ some (.rev o r)) :
    contents a.w o = contents s.w o := by
  rw [h.eq]
  unfold contents
  have e : (overlay G s.w).objs o = s.w.objs o := rfl
  rw [e]
  cases hv : s.w.objs o with
  | none => rfl
  | some v =>
    dsimp only
    rw [overlay_cells h.wf h.put_aside (p := o) (fun ⟨t, r, e⟩ => ho t r e) hv]

theorem taskOk_same {w w' : World} {k : Task} {x : Option Ret} (hs : Same (worksOn k) w w') (h : TaskOk w G k x) :
    TaskOk w' G k x := by
  obtain ⟨h1, h2⟩ := hs
  have hc : contents w' (worksOn k) = contents w (worksOn k) := contents_frame h1 h2
  cases k with
  | rev o r =>
    obtain ⟨a1, ⟨n, a2⟩, a3, a4⟩ := h
    refine ⟨a1, ⟨n, h1.trans a2⟩, a3, fun b hb => ?_⟩
    obtain ⟨cs, tgt, b1, b2, b3⟩ := a4 b hb
    rw [hb] at a2
    exact ⟨cs, tgt, (h2 b n a2).trans b1, b2, b3⟩
  | mul o size n blk acc =>
    obtain ⟨l, a1, a2, a3, a4, a5⟩ := h
    refine ⟨l, hc.trans a1, a2, a3, a4, fun hm => ?_⟩
    obtain ⟨v, b1, b2⟩ := a5 hm
    exact ⟨v, h1.trans b1, b2⟩
  | imul o size n =>
    obtain ⟨a1, a2, v, a3, a4⟩ := h
    exact ⟨a1, a2, v, h1.trans a3, a4⟩

/-- The targets of other blocks do not matter. -/
theorem taskOk_targets {G G' : Nat → Option (List Int)} {k : Task} {x : Option Ret} (h : TaskOk w G k x)
    (hg : ∀ o r b, k = .rev o r → r.blk = some b → G' b = G b) : TaskOk w G' k x := by
  cases k with
  | rev o r =>
    obtain ⟨a1, a2, a3, a4⟩ := h
    refine ⟨a1, a2, a3, fun b hb => ?_⟩
    obtain ⟨cs, tgt, b1, b2, b3⟩ := a4 b hb
    exact ⟨cs, tgt, b1, (hg o r b rfl hb).trans b2, b3⟩
  | mul o size n blk acc => exact h
  | imul o size n => exact h

theorem contents_some (h : WF w) {o : Nat} {v : Vec} (ho : w.objs o = some v) :
    ∃ l, contents w o = some l ∧ l.length = v.size := by
  obtain ⟨cs, hcs⟩ := cells_of h ho
  refine ⟨cs.take v.size, by simp only [contents, ho, hcs, Option.map_some], ?_⟩
  obtain ⟨blk, n⟩ := v
  cases blk with
  | none =>
    have := h.nul o n ho
    subst this
    simp
  | some b =>
    obtain ⟨cs', h1, h2⟩ := h.vec o b n ho
    simp only [cells, h1, Option.some.injEq] at hcs
    subst hcs
    rw [List.length_take]; dsimp only; omega

theorem wf_cells (h : WF w) {b : Nat} {cs cs' : List Int} (hm : w.mem b = some cs) (hl : cs'.length = cs.length) :
    WF { w with mem := upd w.mem b (some cs') } where
  nul := h.nul
  vec := by
    intro o c n ho
    obtain ⟨ds, h1, h2⟩ := h.vec o c n ho
    by_cases e : c = b
    · subst e
      rw [hm] at h1
      cases h1
      exact ⟨cs', upd_same _ _ _, by omega⟩
    · exact ⟨ds, by simp only [upd_other _ _ e]; exact h1, h2⟩
  sep := h.sep
  low := by
    intro c ds hc
    by_cases e : c = b
    · subst e; exact h.low _ _ hm
    · simp only [upd_other _ _ e] at hc; exact h.low _ _ hc
  vlow := h.vlow
  vown := h.vown
  vnul := h.vnul

theorem resized_same (h : WF w) {o : Nat} {v : Vec} {cs : List Int} (ho : w.objs o = some v) (hc : cells w v = some cs) :
    resized grow w o v cs (v.size * 1) = w := by
  obtain ⟨blk, n⟩ := v
  have hobj : ∀ v, w.objs o = some v → upd w.objs o (some v) = w.objs := by
    intro v hv
    funext p
    by_cases e : p = o
    · subst e; rw [upd_same, hv]
    · rw [upd_other _ _ e]
  unfold resized put
  cases blk with
  | none =>
    have := h.nul o n ho
    subst this
    simp only [cells, Option.some.injEq] at hc
    subst hc
    simp only [Nat.zero_mul, List.take_nil, List.nil_append, Nat.sub_zero, List.replicate_zero, Nat.max_self, List.length_nil,
      Nat.le_refl, if_true, hobj _ ho]
  | some b =>
    obtain ⟨cs', h1, h2⟩ := h.vec o b n ho
    simp only [cells, h1, Option.some.injEq] at hc
    subst hc
    have hl : ((cs'.take n).take n ++ List.replicate (n - n) 0) = cs'.take n := by
      rw [Nat.sub_self, List.replicate_zero, List.append_nil, List.take_take, Nat.min_self]
    have hlen : (cs'.take n).length = n := by rw [List.length_take]; omega
    have hmem : upd w.mem b (some cs') = w.mem := by
      funext c
      by_cases e : c = b
      · subst e; rw [upd_same, h1]
      · rw [upd_other _ _ e]
    simp only [Nat.mul_one, hl, hlen, Nat.max_self, if_pos h2, List.take_append_drop, hmem, hobj _ ho]

theorem sim_call {s : State} {a : Serving} (h : Sim s a G) {e : Ev} (hx : Exclusive1 s (.call e)) {w' : World} {x : Obs}
    (hl : learnt (Store.step cfg K grow s.w e) = some (w', x)) :
    learnt (Store.step cfg K grow a.w e) = some (overlay G w', x) ∧ Sim ⟨w', s.tasks⟩ ⟨overlay G w', a.answers⟩ G := by
  have hG : Aside G s.w (fun o => ¬ Uses o s.w e) := by
    intro b tgt eg
    obtain ⟨t, o, r, n, h1, h2⟩ := h.aside b tgt eg
    exact ⟨o, n, h2, (hx t _ h1).2 o r rfl⟩
  have hs : (Store.step cfg K grow s.w e).state? = some w' := by
    cases eo : Store.step cfg K grow s.w e <;> rw [eo] at hl <;> simp only [learnt, Option.some.injEq, Prod.mk.injEq, reduceCtorEq] at hl <;>
      simp only [Out.state?, hl.1]
  constructor
  · rw [h.eq, overlay_step h.wf e hG]
    cases eo : Store.step cfg K grow s.w e <;> rw [eo] at hl <;> simp only [learnt, Option.some.injEq, Prod.mk.injEq, reduceCtorEq] at hl <;>
      simp only [overlayOut, learnt, hl.1, hl.2]
  · have hsame : ∀ t k, s.tasks t = some k → Same (worksOn k) s.w w' := fun t k hk => step_same h.wf hs (hx t k hk).1
    refine ⟨step_wf h.wf hs, rfl, ?_, h.one, fun t k hk => taskOk_same (hsame t k hk) (h.task t k hk)⟩
    intro b tgt eg
    obtain ⟨t, o, r, n, h1, h2⟩ := h.aside b tgt eg
    exact ⟨t, o, r, n, h1, (hsame t _ h1).1.trans h2⟩

theorem sim_call_ub {s : State} {a : Serving} (h : Sim s a G) {e : Ev} (hx : Exclusive1 s (.call e)) {u : UB}
    (hl : Store.step cfg K grow s.w e = .ub u) : Store.step cfg K grow a.w e = .ub u := by
  have hG : Aside G s.w (fun o => ¬ Uses o s.w e) := by
    intro b tgt eg
    obtain ⟨t, o, r, n, h1, h2⟩ := h.aside b tgt eg
    exact ⟨o, n, h2, (hx t _ h1).2 o r rfl⟩
  rw [h.eq, overlay_step h.wf e hG, hl]
  rfl

/-- Another list than those being reversed has another block. -/
theorem Sim.target_none {s : State} {a : Serving} (h : Sim s a G) {o b n : Nat} (ho : s.w.objs o = some ⟨some b, n⟩)
    (hr : ∀ t r, s.tasks t ≠ some (.rev o r)) : G b = none :=
  aside_none h.wf h.put_aside (p := o) (fun ⟨t, r, e⟩ => hr t r e) ho

theorem reverseNow_contents {s : State} {a : Serving} (h : Sim s a G) {o : Nat} (hr : ∀ t r, s.tasks t ≠ some (.rev o r))
    {v : Vec} (ho : s.w.objs o = some v) : ∃ l, contents a.w o = some l ∧ contents (reverseNow a.w o) o = some l.reverse ∧
      ∀ p, p ≠ o → contents (reverseNow a.w o) p = contents a.w p := by
  have hobjs : a.w.objs = s.w.objs := by rw [h.eq]; rfl
  obtain ⟨blk, n⟩ := v
  cases blk with
  | none =>
    have e : reverseNow a.w o = a.w := by unfold reverseNow; rw [hobjs, ho]
    rw [e]
    exact ⟨[], by rw [h.contents_eq hr, contents_nul ho], by rw [h.contents_eq hr, contents_nul ho]; rfl, fun _ _ => rfl⟩
  | some b =>
    obtain ⟨cs, hcs, hle⟩ := h.wf.vec o b n ho
    have hm : a.w.mem b = some cs := by
      rw [h.eq]
      simp only [overlay, h.target_none ho hr, hcs]
    have ho' : a.w.objs o = some ⟨some b, n⟩ := by rw [hobjs]; exact ho
    have e : reverseNow a.w o = { a.w with mem := upd a.w.mem b (some (turned n cs)) } := by
      unfold reverseNow
      rw [ho']
      dsimp only
      rw [hm]
      rfl
    rw [e]
    refine ⟨cs.take n, contents_of ho' hm, ?_, fun p hp => ?_⟩
    · rw [contents_of (w := { a.w with mem := upd a.w.mem b (some (turned n cs)) }) ho' (upd_same _ _ _), turned, List.take_left' (by rw [List.length_reverse, List.length_take]; omega)]
    · refine contents_frame rfl (fun c m hc => upd_other _ _ (fun ec => ?_))
      subst ec
      rw [hobjs] at hc
      exact hp (h.wf.sep _ _ _ _ _ hc ho)

theorem sim_reverse {s : State} {a : Serving} (h : Sim s a G) {t o : Nat} (hx : Exclusive1 s (.reverse t o)) {v : Vec}
    (ho : s.w.objs o = some v) :
    ∃ G', Sim ⟨s.w, upd s.tasks t (some (.rev o ⟨v.blk, v.size, rounds v.size (widths cfg K) 0, .idle⟩))⟩
      ⟨reverseNow a.w o, upd a.answers t (some .none)⟩ G' := by
  obtain ⟨hidle, -, hfree⟩ := hx
  have hne : ∀ t' k, t' ≠ t → upd s.tasks t (some (.rev o ⟨v.blk, v.size, rounds v.size (widths cfg K) 0, .idle⟩)) t' = some k →
      s.tasks t' = some k := by
    intro t' k hn hk
    rwa [upd_other _ _ hn] at hk
  have hone : ∀ t1 t2 o' r k, upd s.tasks t (some (.rev o ⟨v.blk, v.size, rounds v.size (widths cfg K) 0, .idle⟩)) t1 =
      some (.rev o' r) →
      upd s.tasks t (some (.rev o ⟨v.blk, v.size, rounds v.size (widths cfg K) 0, .idle⟩)) t2 = some k → worksOn k = o' →
      t2 = t1 := by
    intro t1 t2 o' r k h1 h2 h3
    by_cases e1 : t1 = t
    · subst e1
      rw [upd_same] at h1
      cases h1
      by_cases e2 : t2 = t1
      · exact e2
      · exact absurd h3 (hfree t2 k (hne t2 k e2 h2))
    · by_cases e2 : t2 = t
      · subst e2
        rw [upd_same] at h2
        cases h2
        exact absurd h3.symm (hfree t1 _ (hne t1 _ e1 h1))
      · exact h.one t1 t2 o' r k (hne t1 _ e1 h1) (hne t2 k e2 h2) h3
  obtain ⟨blk, n⟩ := v
  cases blk with
  | none =>
    have hz := h.wf.nul o n ho
    subst hz
    refine ⟨G, h.wf, ?_, ?_, hone, ?_⟩
    · have e : (overlay G s.w).objs o = some ⟨none, 0⟩ := ho
      dsimp only
      rw [h.eq, reverseNow, e]
    · intro b tgt eg
      obtain ⟨t', o', r, m, h1, h2⟩ := h.aside b tgt eg
      refine ⟨t', o', r, m, ?_, h2⟩
      have : t' ≠ t := by rintro rfl; rw [hidle] at h1; cases h1
      rwa [← upd_other s.tasks _ this] at h1
    · intro t' k hk
      by_cases e : t' = t
      · subst e
        simp only [upd_same, Option.some.injEq] at hk
        subst hk
        refine ⟨by dsimp only; rw [upd_same], ⟨0, ho⟩, fun _ => ?_, fun b hb => by cases hb⟩
        cases K <;> simp [rounds, widths]
      · dsimp only
        rw [upd_other _ _ e]
        exact h.task t' k (hne t' k e hk)
  | some b =>
    obtain ⟨cs, hcs, hle⟩ := h.wf.vec o b n ho
    have hb : G b = none := h.target_none ho (fun t' r e => hfree t' _ e rfl)
    refine ⟨upd G b (some (turned n cs)), h.wf, ?_, ?_, hone, ?_⟩
    · have e : (overlay G s.w).objs o = some ⟨some b, n⟩ := ho
      have e2 : (overlay G s.w).mem b = some cs := by simp only [overlay, hb, hcs]
      dsimp only
      rw [h.eq, reverseNow, e]
      dsimp only
      rw [e2]
      simp only [overlay]
      congr 1
      funext c
      by_cases ec : c = b
      · subst ec; simp only [upd_same]; rfl
      · simp only [upd_other _ _ ec]
    · intro c tgt eg
      by_cases ec : c = b
      · subst ec
        exact ⟨t, o, _, n, upd_same _ _ _, ho⟩
      · rw [upd_other _ _ ec] at eg
        obtain ⟨t', o', r, m, h1, h2⟩ := h.aside c tgt eg
        refine ⟨t', o', r, m, ?_, h2⟩
        have : t' ≠ t := by rintro rfl; rw [hidle] at h1; cases h1
        rwa [← upd_other s.tasks _ this] at h1
    · intro t' k hk
      by_cases e : t' = t
      · subst e
        simp only [upd_same, Option.some.injEq] at hk
        subst hk
        refine ⟨by dsimp only; rw [upd_same], ⟨n, ho⟩, (fun h => by cases h), fun c hc => ?_⟩
        cases hc
        exact ⟨cs, turned n cs, hcs, upd_same _ _ _, revInv_start cfg K (some b) hle⟩
      · dsimp only
        rw [upd_other _ _ e]
        refine taskOk_targets (h.task t' k (hne t' k e hk)) ?_
        intro o' r c hk' hc
        have hk2 := hne t' k e hk
        subst hk'
        obtain ⟨-, ⟨m, hm⟩, -, -⟩ := h.task t' _ hk2
        rw [hc] at hm
        refine upd_other _ _ (fun ec => ?_)
        subst ec
        exact hfree t' _ hk2 (h.wf.sep _ _ _ _ _ hm ho)

/-- A call in progress that leaves the targets alone is added, taken off or exchanged. -/
theorem sim_add {s : State} {a : Serving} (h : Sim s a G) {t : Nat} {k : Task} {x : Option Ret} (hidle : s.tasks t = none)
    (hk : TaskOk s.w G k x) (hn : ∀ o r, k ≠ .rev o r) (hf : ∀ t' r, s.tasks t' ≠ some (.rev (worksOn k) r)) :
    Sim ⟨s.w, upd s.tasks t (some k)⟩ ⟨a.w, upd a.answers t x⟩ G := by
  refine ⟨h.wf, h.eq, ?_, ?_, ?_⟩
  · intro b tgt eg
    obtain ⟨t', o', r, m, h1, h2⟩ := h.aside b tgt eg
    refine ⟨t', o', r, m, ?_, h2⟩
    have : t' ≠ t := by rintro rfl; rw [hidle] at h1; cases h1
    rwa [← upd_other s.tasks _ this] at h1
  · intro t1 t2 o' r k' h1 h2 h3
    dsimp only at h1 h2
    by_cases e1 : t1 = t
    · subst e1
      rw [upd_same, Option.some.injEq] at h1
      exact absurd h1 (hn _ _)
    · rw [upd_other _ _ e1] at h1
      by_cases e2 : t2 = t
      · subst e2
        rw [upd_same, Option.some.injEq] at h2
        subst h2 h3
        exact absurd h1 (hf _ _)
      · rw [upd_other _ _ e2] at h2
        exact h.one t1 t2 o' r k' h1 h2 h3
  · intro t' k' hk'
    dsimp only at hk'
    by_cases e : t' = t
    · subst e
      rw [upd_same, Option.some.injEq] at hk'
      subst hk'
      dsimp only
      rw [upd_same]
      exact hk
    · rw [upd_other _ _ e] at hk'
      dsimp only
      rw [upd_other _ _ e]
      exact h.task t' k' hk'

theorem sim_replace {s : State} {a : Serving} (h : Sim s a G) {t : Nat} {k k1 : Task} (ht : s.tasks t = some k1)
    (hk1 : ∀ o r, k1 ≠ .rev o r) (hk : TaskOk s.w G k (a.answers t)) (hn : ∀ o r, k ≠ .rev o r) (hw : worksOn k = worksOn k1) :
    Sim ⟨s.w, upd s.tasks t (some k)⟩ a G := by
  refine ⟨h.wf, h.eq, ?_, ?_, ?_⟩
  · intro b tgt eg
    obtain ⟨t', o', r, m, h1, h2⟩ := h.aside b tgt eg
    refine ⟨t', o', r, m, ?_, h2⟩
    have : t' ≠ t := by
      rintro rfl
      rw [ht, Option.some.injEq] at h1
      exact hk1 _ _ h1
    rwa [← upd_other s.tasks _ this] at h1
  · intro t1 t2 o' r k' h1 h2 h3
    dsimp only at h1 h2
    by_cases e1 : t1 = t
    · subst e1
      rw [upd_same, Option.some.injEq] at h1
      exact absurd h1 (hn _ _)
    · rw [upd_other _ _ e1] at h1
      by_cases e2 : t2 = t
      · subst e2
        rw [upd_same, Option.some.injEq] at h2
        subst h2
        rw [hw] at h3
        exact h.one t1 t2 o' r k1 h1 ht h3
      · rw [upd_other _ _ e2] at h2
        exact h.one t1 t2 o' r k' h1 h2 h3
  · intro t' k' hk'
    dsimp only at hk'
    by_cases e : t' = t
    · subst e
      rw [upd_same, Option.some.injEq] at hk'
      subst hk'
      exact hk
    · rw [upd_other _ _ e] at hk'
      exact h.task t' k' hk'

theorem sim_drop {s : State} {a : Serving} (h : Sim s a G) {t : Nat} {k1 : Task} (ht : s.tasks t = some k1)
    (hk1 : ∀ o r, k1 ≠ .rev o r) : Sim ⟨s.w, upd s.tasks t none⟩ ⟨a.w, upd a.answers t none⟩ G := by
  refine ⟨h.wf, h.eq, ?_, ?_, ?_⟩
  · intro b tgt eg
    obtain ⟨t', o', r, m, h1, h2⟩ := h.aside b tgt eg
    refine ⟨t', o', r, m, ?_, h2⟩
    have : t' ≠ t := by
      rintro rfl
      rw [ht, Option.some.injEq] at h1
      exact hk1 _ _ h1
    rwa [← upd_other s.tasks _ this] at h1
  · intro t1 t2 o' r k' h1 h2 h3
    dsimp only at h1 h2
    by_cases e1 : t1 = t
    · subst e1; rw [upd_same] at h1; cases h1
    · by_cases e2 : t2 = t
      · subst e2; rw [upd_same] at h2; cases h2
      · rw [upd_other _ _ e1] at h1
        rw [upd_other _ _ e2] at h2
        exact h.one t1 t2 o' r k' h1 h2 h3
  · intro t' k' hk'
    dsimp only at hk'
    by_cases e : t' = t
    · subst e; rw [upd_same] at hk'; cases hk'
    · rw [upd_other _ _ e] at hk'
      dsimp only
      rw [upd_other _ _ e]
      exact h.task t' k' hk'

theorem sim_rev_end {s : State} {a : Serving} (h : Sim s a G) {t o : Nat} {r : Rev Int} (ht : s.tasks t = some (.rev o r))
    (hd : r.todo = []) : ∃ G', Sim ⟨s.w, upd s.tasks t none⟩ ⟨a.w, upd a.answers t none⟩ G' := by
  obtain ⟨-, ⟨n, ho⟩, -, hblk⟩ := h.task t _ ht
  have hone : ∀ t1 t2 o' r' k, upd s.tasks t none t1 = some (.rev o' r') → upd s.tasks t none t2 = some k → worksOn k = o' →
      t2 = t1 := by
    intro t1 t2 o' r' k' h1 h2 h3
    by_cases e1 : t1 = t
    · subst e1; rw [upd_same] at h1; cases h1
    · by_cases e2 : t2 = t
      · subst e2; rw [upd_same] at h2; cases h2
      · rw [upd_other _ _ e1] at h1
        rw [upd_other _ _ e2] at h2
        exact h.one t1 t2 o' r' k' h1 h2 h3
  have other : ∀ t' k, upd s.tasks t none t' = some k → t' ≠ t ∧ s.tasks t' = some k := by
    intro t' k hk
    by_cases e : t' = t
    · subst e; rw [upd_same] at hk; cases hk
    · rw [upd_other _ _ e] at hk; exact ⟨e, hk⟩
  cases hb : r.blk with
  | none =>
    rw [hb] at ho
    refine ⟨G, h.wf, h.eq, ?_, hone, ?_⟩
    · intro b tgt eg
      obtain ⟨t', o', r', m, h1, h2⟩ := h.aside b tgt eg
      refine ⟨t', o', r', m, ?_, h2⟩
      have : t' ≠ t := by
        rintro rfl
        rw [ht] at h1
        cases h1
        rw [ho] at h2
        cases h2
      rwa [← upd_other s.tasks _ this] at h1
    · intro t' k hk
      obtain ⟨e, hk'⟩ := other t' k hk
      dsimp only
      rw [upd_other _ _ e]
      exact h.task t' k hk'
  | some b =>
    rw [hb] at ho
    obtain ⟨cs, tgt, h1, h2, h3⟩ := hblk b hb
    have hcs := revInv_done h3 hd
    subst hcs
    refine ⟨upd G b none, h.wf, ?_, ?_, hone, ?_⟩
    · dsimp only
      rw [h.eq]
      simp only [overlay]
      congr 1
      funext c
      by_cases ec : c = b
      · subst ec; simp only [upd_same, h2, h1]
      · simp only [upd_other _ _ ec]
    · intro c tgt eg
      by_cases ec : c = b
      · subst ec; rw [upd_same] at eg; cases eg
      · rw [upd_other _ _ ec] at eg
        obtain ⟨t', o', r', m, g1, g2⟩ := h.aside c tgt eg
        refine ⟨t', o', r', m, ?_, g2⟩
        have : t' ≠ t := by
          rintro rfl
          rw [ht] at g1
          cases g1
          rw [ho] at g2
          cases g2
          exact ec rfl
        rwa [← upd_other s.tasks _ this] at g1
    · intro t' k hk
      obtain ⟨e, hk'⟩ := other t' k hk
      dsimp only
      rw [upd_other _ _ e]
      refine taskOk_targets (h.task t' k hk') ?_
      intro o' r' c hke hc
      subst hke
      obtain ⟨-, ⟨m, hm⟩, -, -⟩ := h.task t' _ hk'
      rw [hc] at hm
      refine upd_other _ _ (fun ec => ?_)
      subst ec
      have := h.wf.sep _ _ _ _ _ hm ho
      subst this
      exact e (h.one t t' o' r _ ht hk' rfl)

theorem sim_rev_tick {s : State} {a : Serving} (h : Sim s a G) {t o : Nat} {r : Rev Int} (ht : s.tasks t = some (.rev o r))
    (hd : r.todo ≠ []) : ∃ s', tick grow s t = .ok (s', .quiet) ∧ Sim s' a G := by
  obtain ⟨ha, ⟨n, ho⟩, hnone, hblk⟩ := h.task t _ ht
  cases hb : r.blk with
  | none => exact absurd (hnone hb) hd
  | some b =>
    rw [hb] at ho
    obtain ⟨cs, tgt, h1, h2, h3⟩ := hblk b hb
    obtain ⟨r', cs', g1, g2, g3, g4⟩ := revInv_access h3 hd
    refine ⟨⟨{ s.w with mem := upd s.w.mem b (some cs') }, upd s.tasks t (some (.rev o r'))⟩, ?_, ?_⟩
    · unfold tick
      rw [ht]
      dsimp only
      rw [if_neg hd, hb]
      dsimp only
      rw [h1]
      dsimp only
      rw [g1]
    · have hlen : cs'.length = cs.length := by rw [← g2.1, ← h3.1]
      refine ⟨wf_cells h.wf h1 hlen, ?_, ?_, ?_, ?_⟩
      · rw [h.eq]
        simp only [overlay]
        congr 1
        funext c
        by_cases ec : c = b
        · subst ec; simp only [h2]
        · simp only [upd_other _ _ ec]
      · intro c tgt' eg
        obtain ⟨t', o', r'', m, q1, q2⟩ := h.aside c tgt' eg
        by_cases e : t' = t
        · subst e
          rw [ht] at q1
          cases q1
          exact ⟨t', _, r', m, upd_same _ _ _, q2⟩
        · exact ⟨t', o', r'', m, by rw [← upd_other s.tasks _ e] at q1; exact q1, q2⟩
      · intro t1 t2 o' q k' q1 q2 q3
        dsimp only at q1 q2
        by_cases e1 : t1 = t
        · subst e1
          rw [upd_same, Option.some.injEq] at q1
          cases q1
          by_cases e2 : t2 = t1
          · exact e2
          · rw [upd_other _ _ e2] at q2
            exact h.one _ _ _ _ _ ht q2 q3
        · rw [upd_other _ _ e1] at q1
          by_cases e2 : t2 = t
          · subst e2
            rw [upd_same, Option.some.injEq] at q2
            subst q2
            exact h.one _ _ _ _ _ q1 ht q3
          · rw [upd_other _ _ e2] at q2
            exact h.one _ _ _ _ _ q1 q2 q3
      · intro t' k hk
        dsimp only at hk
        by_cases e : t' = t
        · subst e
          rw [upd_same, Option.some.injEq] at hk
          subst hk
          refine ⟨ha, ⟨n, by rw [g3, hb]; exact ho⟩, fun hx => (by rw [g3, hb] at hx; cases hx), fun c hc => ?_⟩
          rw [g3, hb] at hc
          cases hc
          exact ⟨cs', tgt, upd_same _ _ _, h2, g2⟩
        · rw [upd_other _ _ e] at hk
          have hwo : worksOn k ≠ o := fun hw => e (h.one _ _ _ _ _ ht hk hw)
          refine taskOk_same (w := s.w) ⟨rfl, fun c m hc => ?_⟩ (h.task t' k hk)
          refine upd_other _ _ (fun ec => ?_)
          subst ec
          exact hwo (h.wf.sep _ _ _ _ _ hc ho)

theorem sim_mul_tick {s : State} {a : Serving} (h : Sim s a G) {t o size n : Nat} {blk : Option Nat} {acc : List Int}
    (ht : s.tasks t = some (.mul o size n blk acc)) (hd : acc.length ≠ size * n) :
    ∃ s', tick grow s t = .ok (s', .quiet) ∧ Sim s' a G := by
  obtain ⟨l, h1, h2, h3, h4, h5⟩ := h.task t _ ht
  have hle : acc.length < size * n := by
    have := h4.length_le
    rw [copies_length, h2] at this
    omega
  have hs : 0 < size := Nat.pos_of_ne_zero (fun e => by subst e; omega)
  cases ho : s.w.objs o with
  | none => rw [contents_none ho] at h1; cases h1
  | some v =>
    obtain ⟨b0, n0⟩ := v
    cases b0 with
    | none => rw [contents_nul ho] at h1; cases h1; simp only [List.length_nil] at h2; omega
    | some b =>
      obtain ⟨cs, hcs, hle'⟩ := h.wf.vec o b n0 ho
      have hl := contents_of ho hcs
      rw [h1, Option.some.injEq] at hl
      have hn0 : n0 = size := by rw [← h2, hl, List.length_take]; omega
      subst hn0
      have hmod := Nat.mod_lt acc.length hs
      have hx : cs[acc.length % n0]? = (List.replicate n l).flatten[acc.length]? := by
        rw [copies_get n _ (by rw [h2]; exact hle), h2, hl, List.getElem?_take_of_lt hmod]
      have hlt : acc.length < (List.replicate n l).flatten.length := by rw [copies_length, h2]; exact hle
      have hp : (if acc.length % n0 = 0 then (some b : Option Nat) else blk) = some b := by
        split
        · rfl
        · next hm =>
          obtain ⟨v, q1, q2⟩ := h5 hm
          rw [ho] at q1
          cases q1
          exact q2
      refine ⟨⟨s.w, upd s.tasks t (some (.mul o n0 n (some b) (acc ++ [(List.replicate n l).flatten[acc.length]])))⟩, ?_, ?_⟩
      · unfold tick
        rw [ht]
        dsimp only
        rw [if_neg hd, ho]
        dsimp only
        rw [hp]
        dsimp only
        rw [hcs]
        dsimp only
        rw [hx, List.getElem?_eq_getElem hlt]
      · refine sim_replace h ht (fun _ _ e => by cases e) ?_ (fun _ _ e => by cases e) rfl
        refine ⟨l, h1, h2, h3, ?_, fun _ => ⟨_, ho, rfl⟩⟩
        obtain ⟨z, hz⟩ := h4
        have : z ≠ [] := by
          rintro rfl
          rw [List.append_nil] at hz
          rw [hz] at hlt
          omega
        obtain ⟨y, z, rfl⟩ := List.exists_cons_of_ne_nil this
        refine ⟨z, ?_⟩
        have : (List.replicate n l).flatten[acc.length] = y := by
          rw [← Option.some.injEq, ← List.getElem?_eq_getElem hlt, ← hz, List.getElem?_append_right (Nat.le_refl _), Nat.sub_self]
          rfl
        rw [this, ← hz]
        simp

theorem sim_step {s : State} {a : Serving} (h : Sim s a G) {c : Act} (hx : Exclusive1 s c) :
    match step cfg K grow s c with
    | .ok (s', x) => ∃ a' G', Serial1 cfg K grow a x a' c ∧ Sim s' a' G'
    | .error u => ∃ e, c = .call e ∧ Store.step cfg K grow a.w e = .ub u := by
  cases c with
  | call e =>
    simp only [step]
    cases eo : Store.step cfg K grow s.w e with
    | ok w' y =>
      obtain ⟨g1, g2⟩ := sim_call (cfg := cfg) (K := K) (grow := grow) h hx (w' := w') (x := .ret y) (by rw [eo]; rfl)
      exact ⟨⟨overlay G w', a.answers⟩, G, ⟨g1, rfl⟩, g2⟩
    | exc w' y =>
      obtain ⟨g1, g2⟩ := sim_call (cfg := cfg) (K := K) (grow := grow) h hx (w' := w') (x := .exc y) (by rw [eo]; rfl)
      exact ⟨⟨overlay G w', a.answers⟩, G, ⟨g1, rfl⟩, g2⟩
    | pending w' y z =>
      obtain ⟨g1, g2⟩ := sim_call (cfg := cfg) (K := K) (grow := grow) h hx (w' := w') (x := .pending y z) (by rw [eo]; rfl)
      exact ⟨⟨overlay G w', a.answers⟩, G, ⟨g1, rfl⟩, g2⟩
    | ub u => exact ⟨e, rfl, sim_call_ub h hx eo⟩
  | reverse t o =>
    simp only [step]
    cases ho : s.w.objs o with
    | none => exact absurd ho hx.2.1
    | some v =>
      obtain ⟨G', g⟩ := sim_reverse (cfg := cfg) (K := K) h hx ho
      exact ⟨_, G', ⟨rfl, rfl, reverseNow_contents h (fun t' r e => hx.2.2 t' _ e rfl) ho⟩, g⟩
  | mul t o n =>
    simp only [step]
    obtain ⟨hidle, hne, hf⟩ := hx
    cases ho : s.w.objs o with
    | none => exact absurd ho hne
    | some v =>
      obtain ⟨l, q1, q2⟩ := contents_some h.wf ho
      refine ⟨_, G, ⟨rfl, l, by rw [h.contents_eq (fun t r e => hf t r e), q1], rfl⟩, ?_⟩
      refine sim_add h hidle ?_ (fun _ _ e => by cases e) (fun t' r => hf t' r)
      exact ⟨l, q1, q2, rfl, List.nil_prefix, fun e => absurd (Nat.zero_mod _) e⟩
  | imul t o n =>
    simp only [step]
    obtain ⟨rfl, hidle, hne, hf⟩ := hx
    cases ho : s.w.objs o with
    | none => exact absurd ho hne
    | some v =>
      obtain ⟨l, q1, q2⟩ := contents_some h.wf ho
      have q3 : contents a.w o = some l := by rw [h.contents_eq (fun t r e => hf t r e), q1]
      refine ⟨⟨a.w, upd a.answers t (some .self)⟩, G, ⟨rfl, l, q3, rfl, ?_, fun _ _ => rfl⟩, ?_⟩
      · rw [q3]; simp
      · refine sim_add h hidle ?_ (fun _ _ e => by cases e) (fun t' r => hf t' r)
        exact ⟨rfl, rfl, v, ho, rfl⟩
  | tick t =>
    simp only [step]
    cases ht : s.tasks t with
    | none =>
      have : tick grow s t = .ok (s, .quiet) := by unfold tick; rw [ht]
      rw [this]
      exact ⟨a, G, .inl ⟨rfl, rfl⟩, h⟩
    | some k =>
      cases k with
      | rev o r =>
        by_cases hd : r.todo = []
        · have : tick grow s t = .ok (⟨s.w, upd s.tasks t none⟩, .ret (.ret .none)) := by
            unfold tick; rw [ht]; exact if_pos hd
          rw [this]
          obtain ⟨G', g⟩ := sim_rev_end h ht hd
          exact ⟨_, G', .inr ⟨_, (h.task t _ ht).1, rfl, rfl⟩, g⟩
        · obtain ⟨s', g1, g2⟩ := sim_rev_tick (grow := grow) h ht hd
          rw [g1]
          exact ⟨a, G, .inl ⟨rfl, rfl⟩, g2⟩
      | mul o size n blk acc =>
        by_cases hd : acc.length = size * n
        · have : tick grow s t = .ok (⟨s.w, upd s.tasks t none⟩, .ret (.ret (.newList acc))) := by
            unfold tick; rw [ht]; exact if_pos hd
          rw [this]
          obtain ⟨l, q1, q2, q3, q4, -⟩ := h.task t _ ht
          have hacc : acc = (List.replicate n l).flatten :=
            q4.eq_of_length (by rw [copies_length, q2, hd])
          exact ⟨_, G, .inr ⟨_, q3, by rw [hacc], rfl⟩, sim_drop h ht (fun _ _ e => by cases e)⟩
        · obtain ⟨s', g1, g2⟩ := sim_mul_tick (grow := grow) h ht hd
          rw [g1]
          exact ⟨a, G, .inl ⟨rfl, rfl⟩, g2⟩
      | imul o size n =>
        obtain ⟨rfl, q2, v, q3, rfl⟩ := h.task t _ ht
        obtain ⟨cs, hcs⟩ := cells_of h.wf q3
        have : tick grow s t = .ok (⟨s.w, upd s.tasks t none⟩, .ret (.ret .self)) := by
          unfold tick
          rw [ht]
          dsimp only
          rw [q3]
          dsimp only
          rw [hcs]
          dsimp only
          rw [if_pos (.inl (Nat.le_refl 1)), resized_same h.wf q3 hcs]
        rw [this]
        exact ⟨_, G, .inr ⟨_, q2, rfl, rfl⟩, sim_drop h ht (fun _ _ e => by cases e)⟩

theorem sim_run : ∀ (cs : List Act) {s : State} {a : Serving} {G : Nat → Option (List Int)}, Sim s a G →
    Exclusive cfg K grow s cs →
    match run cfg K grow s cs with
    | .ok (s', xs) => ∃ a' G', Serial cfg K grow a cs xs a' ∧ Sim s' a' G'
    | .error u => ∃ pre e post xs a', cs = pre ++ .call e :: post ∧ Serial cfg K grow a pre xs a' ∧
        Store.step cfg K grow a'.w e = .ub u
  | [], s, a, G, h, _ => ⟨a, G, rfl, h⟩
  | c :: cs, s, a, G, h, hx => by
    obtain ⟨hx1, hx2⟩ := hx
    have h1 := sim_step (cfg := cfg) (K := K) (grow := grow) h hx1
    simp only [run]
    cases e1 : step cfg K grow s c with
    | error u =>
      rw [e1] at h1
      obtain ⟨e, rfl, g⟩ := h1
      exact ⟨[], e, cs, [], a, rfl, rfl, g⟩
    | ok p =>
      obtain ⟨s1, x⟩ := p
      rw [e1] at h1 hx2
      obtain ⟨a1, G1, g1, g2⟩ := h1
      have h2 := sim_run cs g2 hx2
      dsimp only
      cases e2 : run cfg K grow s1 cs with
      | error u =>
        rw [e2] at h2
        obtain ⟨pre, e, post, xs, a', rfl, q1, q2⟩ := h2
        exact ⟨c :: pre, e, post, x :: xs, a', rfl, ⟨a1, g1, q1⟩, q2⟩
      | ok p =>
        obtain ⟨s2, xs⟩ := p
        rw [e2] at h2
        obtain ⟨a', G', q1, q2⟩ := h2
        exact ⟨a', G', ⟨a1, g1, q1⟩, q2⟩

theorem sim_start : Sim start ⟨Store.start, fun _ => none⟩ (fun _ => none) where
  wf := wf_start
  eq := rfl
  aside := fun _ _ h => by cases h
  one := fun _ _ _ _ _ h => by cases h
  task := fun _ _ h => by cases h

end Verif.Threads
