import Verif.Spec.Store

/-! Helper lemmas for C22 and C23. -/

namespace Verif.Store

open Verif.Spec

theorem upd_same {α : Type} (f : Nat → α) (i : Nat) (v : α) : upd f i v i = v := by simp [upd]
theorem upd_other {α : Type} (f : Nat → α) {i j : Nat} (v : α) (h : j ≠ i) : upd f i v j = f j := by simp [upd, h]

structure WF (w : World) : Prop where
  nul : ∀ o n, w.objs o = some ⟨none, n⟩ → n = 0
  vec : ∀ o b n, w.objs o = some ⟨some b, n⟩ → ∃ cs, w.mem b = some cs ∧ n ≤ cs.length
  sep : ∀ o p b n m, w.objs o = some ⟨some b, n⟩ → w.objs p = some ⟨some b, m⟩ → o = p
  low : ∀ b cs, w.mem b = some cs → b < w.next
  vlow : ∀ id o b n, w.views id = some ⟨o, some b, n⟩ → b < w.next
  vown : ∀ id o b n p m, w.views id = some ⟨o, some b, n⟩ → w.objs p = some ⟨some b, m⟩ → p = o
  vnul : ∀ id o n, w.views id = some ⟨o, none, n⟩ → n = 0

theorem wf_start : WF start := by
  constructor <;> intros <;> simp_all [start]

theorem contents_of {w : World} {o : Nat} {b n : Nat} {cs : List Int} (h : w.objs o = some ⟨some b, n⟩)
    (hm : w.mem b = some cs) : contents w o = some (cs.take n) := by
  simp [contents, h, cells, hm]

theorem contents_nul {w : World} {o n : Nat} (h : w.objs o = some ⟨none, n⟩) : contents w o = some [] := by
  simp [contents, h, cells]

theorem contents_none {w : World} {o : Nat} (h : w.objs o = none) : contents w o = none := by
  simp [contents, h]

/-- The contents of an object depend on its own vector and block only. -/
theorem contents_frame {w w' : World} {o : Nat} (h : w'.objs o = w.objs o)
    (hm : ∀ b n, w.objs o = some ⟨some b, n⟩ → w'.mem b = w.mem b) : contents w' o = contents w o := by
  unfold contents
  rw [h]
  cases hv : w.objs o with
  | none => rfl
  | some v =>
    obtain ⟨blk, n⟩ := v
    cases blk with
    | none => rfl
    | some b => simp only [cells]; rw [hm b n hv]

variable {grow : Nat → Nat → Nat} {w : World}

/-! ### `put` -/

theorem put_wf (h : WF w) {o : Nat} {v : Vec} {cs l : List Int} {need : Nat} (ho : w.objs o = some v)
    (hc : cells w v = some cs) (hl : l.length ≤ need) : WF (put grow w o v cs l need) := by
  obtain ⟨blk, n⟩ := v
  unfold put
  split
  · next hn =>
    cases blk with
    | none =>
      simp only [cells, Option.some.injEq] at hc
      subst hc
      have hl0 : l.length = 0 := by simp only [List.length_nil] at hn; omega
      constructor <;> simp only
      · intro p m hp
        by_cases e : p = o
        · subst e; rw [upd_same] at hp; cases hp; exact hl0
        · rw [upd_other _ _ e] at hp; exact h.nul p m hp
      · intro p b m hp
        by_cases e : p = o
        · subst e; rw [upd_same] at hp; cases hp
        · rw [upd_other _ _ e] at hp; exact h.vec p b m hp
      · intro p q b m k hp hq
        have ep : p ≠ o := by rintro rfl; rw [upd_same] at hp; cases hp
        have eq : q ≠ o := by rintro rfl; rw [upd_same] at hq; cases hq
        rw [upd_other _ _ ep] at hp; rw [upd_other _ _ eq] at hq
        exact h.sep p q b m k hp hq
      · exact h.low
      · exact h.vlow
      · intro id p b m q k hid hq
        have eq : q ≠ o := by rintro rfl; rw [upd_same] at hq; cases hq
        rw [upd_other _ _ eq] at hq
        exact h.vown id p b m q k hid hq
      · exact h.vnul
    | some b =>
      have hmb : w.mem b = some cs := hc
      constructor <;> simp only
      · intro p m hp
        by_cases e : p = o
        · subst e; rw [upd_same] at hp; cases hp
        · rw [upd_other _ _ e] at hp; exact h.nul p m hp
      · intro p c m hp
        by_cases e : p = o
        · subst e
          rw [upd_same] at hp
          cases hp
          exact ⟨_, upd_same _ _ _, by simp⟩
        · rw [upd_other _ _ e] at hp
          have : c ≠ b := by rintro rfl; exact e (h.sep p o c m n hp ho)
          rw [upd_other _ _ this]
          exact h.vec p c m hp
      · intro p q c m k hp hq
        have old : ∀ x j, upd w.objs o (some ⟨some b, l.length⟩) x = some ⟨some c, j⟩ → ∃ j', w.objs x = some ⟨some c, j'⟩ := by
          intro x j hx
          by_cases e : x = o
          · subst e; rw [upd_same] at hx; cases hx; exact ⟨n, ho⟩
          · rw [upd_other _ _ e] at hx; exact ⟨j, hx⟩
        obtain ⟨m', hp'⟩ := old p m hp
        obtain ⟨k', hq'⟩ := old q k hq
        exact h.sep p q c m' k' hp' hq'
      · intro c cs' hm
        by_cases e : c = b
        · subst e; exact h.low c cs hmb
        · rw [upd_other _ _ e] at hm; exact h.low c cs' hm
      · exact h.vlow
      · intro id p c m q k hid hq
        by_cases e : q = o
        · subst e; rw [upd_same] at hq; cases hq; exact h.vown id p b m q n hid ho
        · rw [upd_other _ _ e] at hq; exact h.vown id p c m q k hid hq
      · exact h.vnul
  · next hn =>
    have hmem : ∀ c, (match blk with | none => w.mem | some b => upd w.mem b none) c ≠ w.mem c → blk = some c := by
      intro c hne
      cases blk with
      | none => exact absurd rfl hne
      | some b =>
        simp only at hne
        by_cases e : c = b
        · rw [e]
        · rw [upd_other _ _ e] at hne; exact absurd rfl hne
    have hsub : ∀ c cs', (match blk with | none => w.mem | some b => upd w.mem b none) c = some cs' → w.mem c = some cs' := by
      intro c cs' hm
      cases blk with
      | none => exact hm
      | some b =>
        simp only at hm
        by_cases e : c = b
        · subst e; rw [upd_same] at hm; cases hm
        · rw [upd_other _ _ e] at hm; exact hm
    have hlen : l.length ≤ (l ++ List.replicate (grow cs.length need - l.length) (0 : Int)).length := by
      simp
    constructor <;> simp only
    · intro p m hp
      by_cases e : p = o
      · subst e; rw [upd_same] at hp; cases hp
      · rw [upd_other _ _ e] at hp; exact h.nul p m hp
    · intro p c m hp
      by_cases e : p = o
      · subst e
        rw [upd_same] at hp
        cases hp
        exact ⟨_, upd_same _ _ _, hlen⟩
      · rw [upd_other _ _ e] at hp
        obtain ⟨cs', hcs, hle⟩ := h.vec p c m hp
        have hnc : c ≠ w.next := by have := h.low c cs' hcs; omega
        rw [upd_other _ _ hnc]
        refine ⟨cs', ?_, hle⟩
        apply Classical.byContradiction
        intro hne
        have := hmem c (by rw [hcs]; exact hne)
        subst this
        exact e (h.sep p o c m n hp ho)
    · intro p q c m k hp hq
      by_cases ep : p = o <;> by_cases eq : q = o
      · rw [ep, eq]
      · subst ep
        rw [upd_same] at hp
        cases hp
        rw [upd_other _ _ eq] at hq
        obtain ⟨cs', hcs, _⟩ := h.vec q _ k hq
        have := h.low _ cs' hcs
        omega
      · subst eq
        rw [upd_same] at hq
        cases hq
        rw [upd_other _ _ ep] at hp
        obtain ⟨cs', hcs, _⟩ := h.vec p _ m hp
        have := h.low _ cs' hcs
        omega
      · rw [upd_other _ _ ep] at hp; rw [upd_other _ _ eq] at hq
        exact h.sep p q c m k hp hq
    · intro c cs' hm
      by_cases e : c = w.next
      · subst e; omega
      · rw [upd_other _ _ e] at hm
        have := h.low c cs' (hsub c cs' hm)
        omega
    · intro id p c m hid
      have := h.vlow id p c m hid
      omega
    · intro id p c m q k hid hq
      by_cases e : q = o
      · subst e
        rw [upd_same] at hq
        cases hq
        have := h.vlow id p _ m hid
        omega
      · rw [upd_other _ _ e] at hq; exact h.vown id p c m q k hid hq
    · exact h.vnul

theorem put_self {o : Nat} {v : Vec} {cs l : List Int} {need : Nat}
    (hc : cells w v = some cs) (hl : l.length ≤ need) : contents (put grow w o v cs l need) o = some l := by
  obtain ⟨blk, n⟩ := v
  unfold put
  split
  · next hn =>
    cases blk with
    | none =>
      simp only [cells, Option.some.injEq] at hc
      subst hc
      have hl0 : l = [] := by
        cases l with
        | nil => rfl
        | cons a l => simp only [List.length_nil, List.length_cons] at hn hl; omega
      rw [contents_nul (n := l.length) (by simp only [upd_same]), hl0]
    | some b =>
      rw [contents_of (b := b) (n := l.length) (cs := l ++ cs.drop l.length) (by simp only [upd_same]) (by simp only [upd_same])]
      simp
  · rw [contents_of (b := w.next) (n := l.length) (upd_same _ _ _) (upd_same _ _ _)]
    simp

theorem put_other (h : WF w) {o p : Nat} {v : Vec} {cs l : List Int} {need : Nat} (ho : w.objs o = some v) (hp : p ≠ o) :
    contents (put grow w o v cs l need) p = contents w p := by
  obtain ⟨blk, n⟩ := v
  unfold put
  split
  · cases blk with
    | none =>
      apply contents_frame
      · simp only [upd_other _ _ hp]
      · intro b m _; rfl
    | some b =>
      apply contents_frame
      · simp only [upd_other _ _ hp]
      · intro c m hc
        have : c ≠ b := by rintro rfl; exact hp (h.sep p o c m n hc ho)
        simp only [upd_other _ _ this]
  · apply contents_frame
    · simp only [upd_other _ _ hp]
    · intro c m hc
      obtain ⟨cs', hcs, _⟩ := h.vec p c m hc
      have hnc : c ≠ w.next := by have := h.low c cs' hcs; omega
      simp only [upd_other _ _ hnc]
      cases blk with
      | none => rfl
      | some b =>
        have : c ≠ b := by rintro rfl; exact hp (h.sep p o c m n hc ho)
        simp only [upd_other _ _ this]

theorem put_views {o : Nat} {v : Vec} {cs l : List Int} {need : Nat} :
    (put grow w o v cs l need).views = w.views := by
  obtain ⟨blk, n⟩ := v
  unfold put
  split
  · cases blk <;> rfl
  · rfl

theorem put_objs {o p : Nat} {v : Vec} {cs l : List Int} {need : Nat} (hp : p ≠ o) :
    (put grow w o v cs l need).objs p = w.objs p := by
  obtain ⟨blk, n⟩ := v
  unfold put
  split
  · cases blk <;> simp only [upd_other _ _ hp]
  · simp only [upd_other _ _ hp]

/-! ### `fresh` -/

theorem room_le (hg : Grows grow) (cap need : Nat) : need ≤ room grow cap need := by
  unfold room
  split
  · assumption
  · exact hg cap need

theorem room_ge (hg : Grows grow) (cap need : Nat) : cap ≤ room grow cap need := by
  unfold room
  split
  · omega
  · have := hg cap need; omega

theorem fresh_wf (h : WF w) {o : Nat} {l : List Int} {cap : Nat} (ho : w.objs o = none) :
    WF (fresh w o l cap) := by
  unfold fresh
  split
  · constructor <;> simp only
    · intro p m hp
      by_cases e : p = o
      · subst e; rw [upd_same] at hp; cases hp; rfl
      · rw [upd_other _ _ e] at hp; exact h.nul p m hp
    · intro p b m hp
      by_cases e : p = o
      · subst e; rw [upd_same] at hp; cases hp
      · rw [upd_other _ _ e] at hp; exact h.vec p b m hp
    · intro p q b m k hp hq
      have ep : p ≠ o := by rintro rfl; rw [upd_same] at hp; cases hp
      have eq : q ≠ o := by rintro rfl; rw [upd_same] at hq; cases hq
      rw [upd_other _ _ ep] at hp; rw [upd_other _ _ eq] at hq
      exact h.sep p q b m k hp hq
    · exact h.low
    · exact h.vlow
    · intro id p b m q k hid hq
      have eq : q ≠ o := by rintro rfl; rw [upd_same] at hq; cases hq
      rw [upd_other _ _ eq] at hq
      exact h.vown id p b m q k hid hq
    · exact h.vnul
  · constructor <;> simp only
    · intro p m hp
      by_cases e : p = o
      · subst e; rw [upd_same] at hp; cases hp
      · rw [upd_other _ _ e] at hp; exact h.nul p m hp
    · intro p c m hp
      by_cases e : p = o
      · subst e
        rw [upd_same] at hp
        cases hp
        exact ⟨_, upd_same _ _ _, by simp⟩
      · rw [upd_other _ _ e] at hp
        obtain ⟨cs', hcs, hle⟩ := h.vec p c m hp
        have hnc : c ≠ w.next := by have := h.low c cs' hcs; omega
        rw [upd_other _ _ hnc]
        exact ⟨cs', hcs, hle⟩
    · intro p q c m k hp hq
      by_cases ep : p = o <;> by_cases eq : q = o
      · rw [ep, eq]
      · subst ep
        rw [upd_same] at hp
        cases hp
        rw [upd_other _ _ eq] at hq
        obtain ⟨cs', hcs, _⟩ := h.vec q _ k hq
        have := h.low _ cs' hcs
        omega
      · subst eq
        rw [upd_same] at hq
        cases hq
        rw [upd_other _ _ ep] at hp
        obtain ⟨cs', hcs, _⟩ := h.vec p _ m hp
        have := h.low _ cs' hcs
        omega
      · rw [upd_other _ _ ep] at hp; rw [upd_other _ _ eq] at hq
        exact h.sep p q c m k hp hq
    · intro c cs' hm
      by_cases e : c = w.next
      · subst e; omega
      · rw [upd_other _ _ e] at hm
        have := h.low c cs' hm
        omega
    · intro id p c m hid
      have := h.vlow id p c m hid
      omega
    · intro id p c m q k hid hq
      by_cases e : q = o
      · subst e
        rw [upd_same] at hq
        cases hq
        have := h.vlow id p _ m hid
        omega
      · rw [upd_other _ _ e] at hq; exact h.vown id p c m q k hid hq
    · exact h.vnul

theorem fresh_self {o : Nat} {l : List Int} {cap : Nat} (hl : l.length ≤ cap) : contents (fresh w o l cap) o = some l := by
  unfold fresh
  split
  · next e =>
    have : l = [] := by
      cases l with
      | nil => rfl
      | cons a l => simp only [List.length_cons] at hl; omega
    rw [contents_nul (n := 0) (by simp only [upd_same]), this]
  · rw [contents_of (b := w.next) (n := l.length) (upd_same _ _ _) (upd_same _ _ _)]
    simp

theorem fresh_other (h : WF w) {o p : Nat} {l : List Int} {cap : Nat} (hp : p ≠ o) :
    contents (fresh w o l cap) p = contents w p := by
  unfold fresh
  split
  · apply contents_frame
    · simp only [upd_other _ _ hp]
    · intro b m _; rfl
  · apply contents_frame
    · simp only [upd_other _ _ hp]
    · intro c m hc
      obtain ⟨cs', hcs, _⟩ := h.vec p c m hc
      have hnc : c ≠ w.next := by have := h.low c cs' hcs; omega
      simp only [upd_other _ _ hnc]

theorem fresh_views {o : Nat} {l : List Int} {cap : Nat} : (fresh w o l cap).views = w.views := by
  unfold fresh; split <;> rfl

theorem fresh_objs {o p : Nat} {l : List Int} {cap : Nat} (hp : p ≠ o) : (fresh w o l cap).objs p = w.objs p := by
  unfold fresh; split <;> simp only [upd_other _ _ hp]

/-! ### Calls -/

variable {cfg : Cfg} {K : Kind}

theorem cells_of (h : WF w) {o : Nat} {v : Vec} (ho : w.objs o = some v) : ∃ cs, cells w v = some cs := by
  obtain ⟨blk, n⟩ := v
  cases blk with
  | none => exact ⟨[], rfl⟩
  | some b => obtain ⟨cs, hcs, _⟩ := h.vec o b n ho; exact ⟨cs, hcs⟩

theorem callOp_seen (h : WF w) {o : Nat} {l : List Int} (hl : contents w o = some l) (op : Op) (hint : Nat) :
    seen o (callOp cfg K grow w o op hint) = alone (ArrayList.step cfg K l op) := by
  unfold callOp
  cases ho : w.objs o with
  | none => rw [contents_none ho] at hl; cases hl
  | some v =>
    obtain ⟨cs, hcs⟩ := cells_of h ho
    have e : cs.take v.size = l := by
      simp only [contents, ho, hcs, Option.map_some, Option.some.injEq] at hl
      exact hl
    simp only [hcs, e]
    cases ArrayList.step cfg K l op with
    | ok l' r => simp only [seen, alone]; rw [put_self hcs (Nat.le_max_left ..)]
    | exc l' r => simp only [seen, alone]; rw [put_self hcs (Nat.le_max_left ..)]
    | pending l' r x => simp only [seen, alone]; rw [put_self hcs (Nat.le_max_left ..)]
    | ub u => rfl

/-- What a call does to the world. -/
theorem callOp_state (h : WF w) {o : Nat} {op : Op} {hint : Nat} {w' : World}
    (hs : (callOp cfg K grow w o op hint).state? = some w') :
    w' = w ∨ ∃ v cs l', w.objs o = some v ∧ cells w v = some cs ∧
      w' = put grow w o v cs l' (max l'.length ((cs.take v.size).length + reserved op hint)) := by
  unfold callOp at hs
  cases ho : w.objs o with
  | none => simp only [ho] at hs; cases hs; exact .inl rfl
  | some v =>
    obtain ⟨cs, hcs⟩ := cells_of h ho
    simp only [ho, hcs] at hs
    right
    generalize ArrayList.step cfg K (List.take v.size cs) op = r at hs
    cases r with
    | ok l' r => cases hs; exact ⟨v, cs, l', rfl, hcs, rfl⟩
    | exc l' r => cases hs; exact ⟨v, cs, l', rfl, hcs, rfl⟩
    | pending l' r x => cases hs; exact ⟨v, cs, l', rfl, hcs, rfl⟩
    | ub u => cases hs

theorem callOp_wf (h : WF w) {o : Nat} {op : Op} {hint : Nat} {w' : World}
    (hs : (callOp cfg K grow w o op hint).state? = some w') : WF w' := by
  rcases callOp_state h hs with rfl | ⟨v, cs, l', ho, hcs, rfl⟩
  · exact h
  · exact put_wf h ho hcs (Nat.le_max_left ..)

theorem callOp_other (h : WF w) {o p : Nat} {op : Op} {hint : Nat} {w' : World}
    (hs : (callOp cfg K grow w o op hint).state? = some w') (hp : p ≠ o) : contents w' p = contents w p := by
  rcases callOp_state h hs with rfl | ⟨v, cs, l', ho, hcs, rfl⟩
  · rfl
  · exact put_other h ho hp

/-! ### Events -/

/-- Cases of an event that does not end in undefined behaviour. -/
inductive Did (grow : Nat → Nat → Nat) (cfg : Cfg) (K : Kind) (w w' : World) : Ev → Prop
  | same (e : Ev) (h : w' = w) : Did grow cfg K w w' e
  | create (o : Nat) (arg n) (l : List Int) (ho : w.objs o = none)
      (h : w' = fresh w o l (room grow (room grow 0 n) l.length)) : Did grow cfg K w w' (.create o arg n)
  | call (o : Nat) (op hint) (h : (callOp cfg K grow w o op hint).state? = some w') :
      Did grow cfg K w w' (.call o op hint)
  | callOn (o p : Nat) (b : Binary) (s : Src) (hs : s = .self ∨ ∃ l, s = .same l)
      (h : (callOp cfg K grow w o (b.op s) 0).state? = some w') : Did grow cfg K w w' (.callOn o p b)
  | copy (o c : Nat) (v : Vec) (cs : List Int) (ho : w.objs o = some v) (hc : cells w v = some cs) (hcn : w.objs c = none)
      (h : w' = fresh w c (cs.take v.size) (cs.take v.size).length) : Did grow cfg K w w' (.copy o c)
  | drop (o : Nat) (v : Vec) (ho : w.objs o = some v) (ho' : w'.objs = upd w.objs o none)
      (hm : w'.mem = match v.blk with | none => w.mem | some b => upd w.mem b none) (hv : w'.views = w.views)
      (hn : w'.next = w.next) : Did grow cfg K w w' (.drop o)
  | view (o id : Nat) (v : Vec) (ho : w.objs o = some v)
      (h : w' = { w with views := upd w.views id (some ⟨o, v.blk, v.size⟩) }) : Did grow cfg K w w' (.view o id)
  | write (id i : Nat) (a : Int) (o b n : Nat) (cs : List Int) (hv : w.views id = some ⟨o, some b, n⟩)
      (hm : w.mem b = some cs) (h : w' = { w with mem := upd w.mem b (some (cs.set i a)) }) :
      Did grow cfg K w w' (.write id i a)
  | release (id : Nat) (h : w' = { w with views := upd w.views id none }) : Did grow cfg K w w' (.release id)

theorem step_did (h : WF w) {e : Ev} {w' : World} (hs : (step cfg K grow w e).state? = some w') :
    Did grow cfg K w w' e := by
  cases e with
  | create o arg n =>
    simp only [step] at hs
    cases ho : w.objs o with
    | some v => simp only [ho] at hs; cases hs; exact .same _ rfl
    | none =>
      simp only [ho] at hs
      cases hi : ArrayList.init K arg with
      | ok l u => simp only [hi] at hs; cases hs; exact .create o arg n l ho rfl
      | exc l u => simp only [hi] at hs; cases hs; exact .same _ rfl
      | pending l u x => simp only [hi] at hs; cases hs; exact .create o arg n l ho rfl
      | ub u => simp only [hi] at hs; cases hs
  | call o op hint => exact .call o op hint hs
  | callOn o p b =>
    simp only [step] at hs
    split at hs
    · exact .callOn o p b .self (.inl rfl) hs
    · cases hp : w.objs p with
      | none => simp only [hp] at hs; cases hs; exact .same _ rfl
      | some v =>
        obtain ⟨cs, hcs⟩ := cells_of h hp
        simp only [hp, hcs] at hs
        exact .callOn o p b _ (.inr ⟨_, rfl⟩) hs
  | copy o c =>
    simp only [step] at hs
    cases ho : w.objs o with
    | none => simp only [ho] at hs; cases hs; exact .same _ rfl
    | some v =>
      cases hc : w.objs c with
      | some _ => simp only [ho, hc] at hs; cases hs; exact .same _ rfl
      | none =>
        obtain ⟨cs, hcs⟩ := cells_of h ho
        simp only [ho, hc, hcs] at hs
        cases hs
        exact .copy o c v cs ho hcs hc rfl
  | drop o =>
    simp only [step] at hs
    cases ho : w.objs o with
    | none => simp only [ho] at hs; cases hs; exact .same _ rfl
    | some v =>
      simp only [ho] at hs
      cases hb : v.blk with
      | none => simp only [hb] at hs; cases hs; exact .drop o v ho rfl (by simp only [hb]) rfl rfl
      | some b => simp only [hb] at hs; cases hs; exact .drop o v ho rfl (by simp only [hb]) rfl rfl
  | view o id =>
    simp only [step] at hs
    cases ho : w.objs o with
    | none => simp only [ho] at hs; cases hs; exact .same _ rfl
    | some v =>
      cases hv : w.views id with
      | some _ => simp only [ho, hv] at hs; cases hs; exact .same _ rfl
      | none => simp only [ho, hv] at hs; cases hs; exact .view o id v ho rfl
  | read id i =>
    simp only [step] at hs
    (repeat' split at hs) <;> cases hs <;> exact .same _ rfl
  | write id i a =>
    simp only [step] at hs
    cases hv : w.views id with
    | none => simp only [hv] at hs; cases hs; exact .same _ rfl
    | some x =>
      obtain ⟨o, blk, n⟩ := x
      simp only [hv] at hs
      split at hs
      · cases blk with
        | none => cases hs
        | some b =>
          simp only at hs
          cases hm : w.mem b with
          | none => simp only [hm] at hs; cases hs
          | some cs =>
            simp only [hm] at hs
            split at hs
            · cases hs; exact .write id i a o b n cs hv hm rfl
            · cases hs
      · cases hs; exact .same _ rfl
  | release id => simp only [step] at hs; cases hs; exact .release id rfl
  | bytes o g =>
    simp only [step] at hs
    (repeat' split at hs) <;> cases hs <;> exact .same _ rfl

theorem did_wf (h : WF w) {e : Ev} {w' : World} (hd : Did grow cfg K w w' e) : WF w' := by
  cases hd with
  | same _ e => exact e ▸ h
  | create o arg n l ho e => rw [e]; exact fresh_wf h ho
  | call o op hint hs => exact callOp_wf h hs
  | callOn o p b s _ hs => exact callOp_wf h hs
  | copy o c v cs ho hc hcn e => rw [e]; exact fresh_wf h hcn
  | drop o v ho ho' hm hv hn =>
    obtain ⟨blk, n⟩ := v
    have live : ∀ p b m, p ≠ o → w.objs p = some ⟨some b, m⟩ → w'.mem b = w.mem b := by
      intro p b m hp hpo
      rw [hm]
      cases blk with
      | none => rfl
      | some c =>
        have : b ≠ c := by rintro rfl; exact hp (h.sep p o b m n hpo ho)
        simp only [upd_other _ _ this]
    have objs : ∀ p x, w'.objs p = some x → p ≠ o ∧ w.objs p = some x := by
      intro p x hp
      rw [ho'] at hp
      by_cases e : p = o
      · subst e; rw [upd_same] at hp; cases hp
      · rw [upd_other _ _ e] at hp; exact ⟨e, hp⟩
    constructor
    · intro p m hp; exact h.nul p m (objs p _ hp).2
    · intro p b m hp
      obtain ⟨e, hp⟩ := objs p _ hp
      rw [live p b m e hp]
      exact h.vec p b m hp
    · intro p q b m k hp hq; exact h.sep p q b m k (objs p _ hp).2 (objs q _ hq).2
    · intro b cs hb
      rw [hm] at hb
      rw [hn]
      cases blk with
      | none => exact h.low b cs hb
      | some c =>
        simp only at hb
        by_cases e : b = c
        · subst e; rw [upd_same] at hb; cases hb
        · rw [upd_other _ _ e] at hb; exact h.low b cs hb
    · intro id p b m hid; rw [hv] at hid; rw [hn]; exact h.vlow id p b m hid
    · intro id p b m q k hid hq; rw [hv] at hid; exact h.vown id p b m q k hid (objs q _ hq).2
    · intro id p m hid; rw [hv] at hid; exact h.vnul id p m hid
  | view o id v ho e =>
    obtain ⟨blk, n⟩ := v
    subst e
    refine ⟨h.nul, h.vec, h.sep, h.low, ?_, ?_, ?_⟩
    · intro j p b m hj
      by_cases e : j = id
      · subst e
        simp only [upd_same] at hj
        cases hj
        obtain ⟨cs, hcs, _⟩ := h.vec o b n ho
        exact h.low b cs hcs
      · simp only [upd_other _ _ e] at hj; exact h.vlow j p b m hj
    · intro j p b m q k hj hq
      by_cases e : j = id
      · subst e
        simp only [upd_same] at hj
        cases hj
        exact h.sep q o b k n hq ho
      · simp only [upd_other _ _ e] at hj; exact h.vown j p b m q k hj hq
    · intro j p m hj
      by_cases e : j = id
      · subst e
        simp only [upd_same] at hj
        cases hj
        exact h.nul o n ho
      · simp only [upd_other _ _ e] at hj; exact h.vnul j p m hj
  | write id i a o b n cs hv hm e =>
    subst e
    refine ⟨h.nul, ?_, h.sep, ?_, h.vlow, h.vown, h.vnul⟩
    · intro p c m hp
      obtain ⟨cs', hcs', hle⟩ := h.vec p c m hp
      by_cases e : c = b
      · subst e
        rw [hm] at hcs'
        cases hcs'
        exact ⟨cs.set i a, upd_same _ _ _, by rw [List.length_set]; exact hle⟩
      · exact ⟨cs', by simp only [upd_other _ _ e]; exact hcs', hle⟩
    · intro c cs' hc
      by_cases e : c = b
      · subst e; exact h.low c cs hm
      · simp only [upd_other _ _ e] at hc; exact h.low c cs' hc
  | release id e =>
    subst e
    have key : ∀ j x, upd w.views id none j = some x → w.views j = some x := by
      intro j x hj
      by_cases e : j = id
      · subst e; rw [upd_same] at hj; cases hj
      · rw [upd_other _ _ e] at hj; exact hj
    exact ⟨h.nul, h.vec, h.sep, h.low, fun j p b m hj => h.vlow j p b m (key j _ hj),
      fun j p b m q k hj hq => h.vown j p b m q k (key j _ hj) hq, fun j p m hj => h.vnul j p m (key j _ hj)⟩

theorem step_wf (h : WF w) {e : Ev} {w' : World} (hs : (step cfg K grow w e).state? = some w') : WF w' :=
  did_wf h (step_did h hs)

theorem run_wf (es : List Ev) : ∀ w w' : World, WF w → run cfg K grow w es = some w' → WF w' := by
  induction es with
  | nil => intro w w' h e; cases e; exact h
  | cons e es ih =>
    intro w w' h he
    unfold run at he
    cases hs : (step cfg K grow w e).state? with
    | none => rw [hs] at he; cases he
    | some w1 => rw [hs] at he; exact ih w1 w' (step_wf h hs) he

/-- An event that is no operation on `c` leaves its contents alone. -/
theorem step_untouched (h : WF w) {e : Ev} {w' : World} {c : Nat} (hs : (step cfg K grow w e).state? = some w')
    (hu : ¬ Touches c w e) : contents w' c = contents w c := by
  have hd := step_did h hs
  cases hd with
  | same _ e => rw [e]
  | create o arg n l ho e => rw [e]; exact fresh_other h (fun x => hu x.symm)
  | call o op hint hs => exact callOp_other h hs (fun x => hu x.symm)
  | callOn o p b s _ hs' => exact callOp_other h hs' (fun x => hu x.symm)
  | copy o d v cs ho hc hcn e => rw [e]; exact fresh_other h (fun x => hu x.symm)
  | drop o v ho ho' hm hv hn =>
    have hc : c ≠ o := fun x => hu x.symm
    apply contents_frame
    · rw [ho', upd_other _ _ hc]
    · intro b m hb
      rw [hm]
      obtain ⟨blk, n⟩ := v
      cases blk with
      | none => rfl
      | some b' =>
        have : b ≠ b' := by rintro rfl; exact hc (h.sep c o b m n hb ho)
        simp only [upd_other _ _ this]
  | view o id v ho e => subst e; rfl
  | write id i a o b n cs hv hm e =>
    subst e
    refine contents_frame (by rfl) ?_
    intro d m hd
    have : d ≠ b := by
      rintro rfl
      have := h.vown id o d n c m hv hd
      exact hu (by rw [Touches, hv, this]; rfl)
    simp only [upd_other _ _ this]
  | release id e => subst e; rfl

theorem run_untouched (es : List Ev) {c : Nat} : ∀ w w' : World, WF w →
    run cfg K grow w es = some w' → Untouched cfg K grow c w es → contents w' c = contents w c := by
  induction es with
  | nil => intro w w' h e _; cases e; rfl
  | cons e es ih =>
    intro w w' h he hu
    unfold run at he
    cases hs : (step cfg K grow w e).state? with
    | none => rw [hs] at he; cases he
    | some w1 =>
      rw [hs] at he
      unfold Untouched at hu
      rw [hs] at hu
      rw [ih w1 w' (step_wf h hs) he hu.2]
      exact step_untouched h hs hu.1

/-! ### A list that stays in its block -/

/-- The list `o` lives in block `b` of capacity at least `n`, and so do its views. -/
structure Home (o b n : Nat) (w : World) : Prop where
  vec : ∃ m cs, w.objs o = some ⟨some b, m⟩ ∧ w.mem b = some cs ∧ n ≤ cs.length
  views : ∀ id blk k, w.views id = some ⟨o, blk, k⟩ → blk = some b ∧ ∃ cs, w.mem b = some cs ∧ k ≤ cs.length

theorem put_home {o b n m need : Nat} {cs l : List Int} (hh : Home o b n w)
    (hm : w.mem b = some cs) (hn : need ≤ n) (hl : l.length ≤ need) : Home o b n (put grow w o ⟨some b, m⟩ cs l need) := by
  obtain ⟨m', cs', ho', hm', hc⟩ := hh.vec
  rw [hm] at hm'
  cases hm'
  unfold put
  rw [if_pos (by omega)]
  have hlen : (l ++ cs.drop l.length).length = cs.length := by
    rw [List.length_append, List.length_drop]; omega
  refine ⟨⟨l.length, l ++ cs.drop l.length, upd_same _ _ _, upd_same _ _ _, by omega⟩, ?_⟩
  intro id blk k hid
  obtain ⟨e, cs2, hcs2, hk⟩ := hh.views id blk k hid
  rw [hm] at hcs2
  cases hcs2
  exact ⟨e, _, upd_same _ _ _, by omega⟩

theorem Home.frame {o b n : Nat} {w w' : World} (h : Home o b n w) (ho : w'.objs o = w.objs o) (hm : w'.mem b = w.mem b)
    (hv : w'.views = w.views) : Home o b n w' := by
  refine ⟨?_, ?_⟩
  · rw [ho, hm]; exact h.vec
  · intro id blk k; rw [hv, hm]; exact h.views id blk k

theorem callOp_home (h : WF w) {o b n p : Nat} (hh : Home o b n w) {op : Op} {hint : Nat} {w' : World}
    (hs : (callOp cfg K grow w p op hint).state? = some w')
    (hr : p = o → ∀ l, contents w o = some l → l.length + reserved op hint ≤ n)
    (hl : p = o → ∀ l, contents w' o = some l → l.length ≤ n) : Home o b n w' := by
  rcases callOp_state h hs with rfl | ⟨v, cs, l', hp, hcs, rfl⟩
  · exact hh
  · by_cases e : p = o
    · subst e
      obtain ⟨m, cs2, ho, hm, hn⟩ := hh.vec
      rw [ho] at hp
      cases hp
      have e : cs2 = cs := by
        have : w.mem b = some cs := hcs
        rw [hm] at this
        cases this; rfl
      subst e
      have h1 := hr rfl _ (contents_of ho hm)
      have h2 := hl rfl l' (put_self hcs (Nat.le_max_left ..))
      exact put_home hh hm (Nat.max_le.2 ⟨h2, h1⟩) (Nat.le_max_left ..)
    · have hoo : o ≠ p := fun x => e x.symm
      obtain ⟨m, cs2, ho, hm, hn⟩ := hh.vec
      refine hh.frame (put_objs hoo) ?_ put_views
      obtain ⟨blk, k⟩ := v
      have hb : blk ≠ some b := by
        rintro rfl
        exact hoo (h.sep o p b m k ho hp)
      unfold put
      split
      · cases blk with
        | none => rfl
        | some c =>
          have : b ≠ c := fun x => hb (by rw [x])
          simp only [upd_other _ _ this]
      · have hbn : b ≠ w.next := by have := h.low b cs2 hm; omega
        simp only [upd_other _ _ hbn]
        cases blk with
        | none => rfl
        | some c =>
          have : b ≠ c := fun x => hb (by rw [x])
          simp only [upd_other _ _ this]

theorem contents_len {o : Nat} {l : List Int} (hc : contents w o = some l) {b m : Nat}
    (ho : w.objs o = some ⟨some b, m⟩) (h : WF w) : l.length = m := by
  obtain ⟨cs, hcs, hle⟩ := h.vec o b m ho
  rw [contents_of ho hcs] at hc
  cases hc
  rw [List.length_take]
  omega

theorem fresh_home (h : WF w) {o p b n : Nat} {l : List Int} {cap : Nat} (hh : Home o b n w) (hp : o ≠ p) :
    Home o b n (fresh w p l cap) := by
  obtain ⟨m, cs, ho, hm, _⟩ := hh.vec
  refine hh.frame (fresh_objs hp) ?_ fresh_views
  unfold fresh
  split
  · rfl
  · have : b ≠ w.next := by have := h.low b cs hm; omega
    simp only [upd_other _ _ this]

theorem step_home (h : WF w) {o b n : Nat} (hh : Home o b n w) {e : Ev} {w' : World}
    (hs : (step cfg K grow w e).state? = some w') (hd : e ≠ .drop o)
    (hr : ∀ op hint, e = .call o op hint → ∀ l, contents w o = some l → l.length + reserved op hint ≤ n)
    (hw : ∀ l, contents w o = some l → l.length ≤ n)
    (hl : ∀ l, contents w' o = some l → l.length ≤ n) : Home o b n w' := by
  have did := step_did h hs
  obtain ⟨m, cs, ho, hm, hn⟩ := hh.vec
  cases did with
  | same _ e => exact e ▸ hh
  | create p arg k l hp e =>
    rw [e]
    exact fresh_home h hh (by rintro rfl; rw [ho] at hp; cases hp)
  | call p op hint hs => exact callOp_home h hh hs (fun e => hr op hint (by rw [e])) (fun _ => hl)
  | callOn p q bi s hsrc hs' =>
    refine callOp_home h hh hs' (fun e l hc => ?_) (fun _ => hl)
    have h0 : reserved (bi.op s) 0 = 0 := by
      rcases hsrc with rfl | ⟨l, rfl⟩ <;> cases bi <;> rfl
    rw [h0]
    exact hw l hc
  | copy p c v cs2 hp hcs2 hc e =>
    rw [e]
    exact fresh_home h hh (by rintro rfl; rw [ho] at hc; cases hc)
  | drop p v hp hp' hm' hv hnx =>
    have hop : o ≠ p := by rintro rfl; exact hd rfl
    refine hh.frame (by rw [hp', upd_other _ _ hop]) ?_ hv
    rw [hm']
    obtain ⟨blk, k⟩ := v
    cases blk with
    | none => rfl
    | some c =>
      have : b ≠ c := by rintro rfl; exact hop (h.sep o p b m k ho hp)
      simp only [upd_other _ _ this]
  | view p id v hp e =>
    subst e
    refine ⟨hh.vec, ?_⟩
    intro j blk k hj
    by_cases e : j = id
    · subst e
      simp only [upd_same] at hj
      cases hj
      rw [ho] at hp
      cases hp
      refine ⟨rfl, cs, hm, ?_⟩
      obtain ⟨cs', hcs', hle⟩ := h.vec o b m ho
      rw [hm] at hcs'
      cases hcs'
      exact hle
    · simp only [upd_other _ _ e] at hj; exact hh.views j blk k hj
  | write id i a p c k cs2 hv hm2 e =>
    subst e
    have key : ∀ k, k ≤ cs.length → ∃ cs', upd w.mem c (some (cs2.set i a)) b = some cs' ∧ k ≤ cs'.length := by
      intro k hk
      by_cases e : b = c
      · subst e
        rw [hm] at hm2
        cases hm2
        exact ⟨_, upd_same _ _ _, by rw [List.length_set]; exact hk⟩
      · exact ⟨cs, by rw [upd_other _ _ e]; exact hm, hk⟩
    obtain ⟨cs', hcs', hle⟩ := key n hn
    refine ⟨⟨m, cs', ho, hcs', hle⟩, ?_⟩
    intro j blk k hj
    obtain ⟨e, cs3, hcs3, hk⟩ := hh.views j blk k hj
    rw [hm] at hcs3
    cases hcs3
    exact ⟨e, key k hk⟩
  | release id e =>
    subst e
    refine ⟨hh.vec, ?_⟩
    intro j blk k hj
    by_cases e : j = id
    · subst e; simp only [upd_same] at hj; cases hj
    · simp only [upd_other _ _ e] at hj; exact hh.views j blk k hj

theorem within_now {o n : Nat} {es : List Ev} (h : Within cfg K grow o n w es) : ∀ l, contents w o = some l → l.length ≤ n := by
  intro l hl
  cases es with
  | nil => exact h l hl
  | cons e es => have := h.2.1 l hl; omega

theorem run_home (es : List Ev) {o b n : Nat} : ∀ w w' : World, WF w → Home o b n w →
    Within cfg K grow o n w es → run cfg K grow w es = some w' → WF w' ∧ Home o b n w' := by
  induction es with
  | nil => intro w w' h hh _ e; cases e; exact ⟨h, hh⟩
  | cons e es ih =>
    intro w w' h hh hwi he
    have hnow := within_now hwi
    unfold run at he
    unfold Within at hwi
    cases hs : (step cfg K grow w e).state? with
    | none => rw [hs] at he; cases he
    | some w1 =>
      rw [hs] at he hwi
      obtain ⟨h1, h2, h3⟩ := hwi
      refine ih w1 w' (step_wf h hs) (step_home h hh hs h1 ?_ hnow (within_now h3)) h3 he
      rintro op hint rfl l hl
      have := h2 l hl
      simpa [promised] using this

/-- Reading a view of a list in its block. -/
theorem home_read {o b n id k i : Nat} (hh : Home o b n w) (hv : w.views id = some ⟨o, some b, k⟩) (hi : i < k) :
    ∃ v l, step cfg K grow w (.read id i) = .ok w (.int v) ∧ contents w o = some l ∧ (i < l.length → l[i]? = some v) := by
  obtain ⟨m, cs, ho, hm, hn⟩ := hh.vec
  obtain ⟨_, cs', hcs', hk⟩ := hh.views id _ k hv
  rw [hm] at hcs'
  cases hcs'
  have hlt : i < cs.length := by omega
  refine ⟨cs[i], cs.take m, ?_, contents_of ho hm, ?_⟩
  · simp only [step, hv, if_pos hi, hm, List.getElem?_eq_getElem hlt]
  · intro hil
    rw [List.length_take] at hil
    rw [List.getElem?_take_of_lt (by omega), List.getElem?_eq_getElem hlt]

/-! ### A list that leaves its block -/

theorem append_zero (cfg : Cfg) (K : Kind) (l : List Int) :
    ArrayList.step cfg K l (.append (.int 0)) = .ok (l ++ [0]) .none := by
  cases K <;> rfl

/-- Appending moves the list to a new block as soon as the old one is full. -/
theorem append_moves (d : Nat) : ∀ (w : World) (o b m : Nat) (cs : List Int), WF w →
    w.objs o = some ⟨some b, m⟩ → w.mem b = some cs → cs.length - m = d →
    ∃ w', run cfg K grow w (List.replicate (d + 1) (.call o (.append (.int 0)) 0)) = some w' ∧ w'.mem b = none ∧
      w'.views = w.views := by
  induction d with
  | zero =>
    intro w o b m cs h ho hm hd
    obtain ⟨cs', hcs', hle⟩ := h.vec o b m ho
    rw [hm] at hcs'
    cases hcs'
    have hlen : (cs.take m).length = m := by rw [List.length_take]; omega
    refine ⟨put grow w o ⟨some b, m⟩ cs (cs.take m ++ [0]) (m + 1), ?_, ?_, put_views⟩
    · simp only [List.replicate, run, step, callOp, ho, cells, hm, append_zero, Out.state?, reserved]
      congr 1
      have : max (cs.take m ++ [0]).length ((cs.take m).length + 0) = m + 1 := by
        rw [List.length_append, hlen]; simp only [List.length_cons, List.length_nil]; omega
      rw [this]
    · unfold put
      rw [if_neg (by omega)]
      have hbn : b ≠ w.next := by have := h.low b cs hm; omega
      simp only [upd_other _ _ hbn, upd_same]
  | succ d ih =>
    intro w o b m cs h ho hm hd
    obtain ⟨cs', hcs', hle⟩ := h.vec o b m ho
    rw [hm] at hcs'
    cases hcs'
    have hlen : (cs.take m).length = m := by rw [List.length_take]; omega
    have hmx : max (cs.take m ++ [0]).length ((cs.take m).length + 0) = m + 1 := by
      rw [List.length_append, hlen]; simp only [List.length_cons, List.length_nil]; omega
    have hl' : (cs.take m ++ [(0 : Int)]).length = m + 1 := by
      rw [List.length_append, hlen]; rfl
    have hst : (step cfg K grow w (.call o (.append (.int 0)) 0)).state? =
        some (put grow w o ⟨some b, m⟩ cs (cs.take m ++ [0]) (m + 1)) := by
      simp only [step, callOp, ho, cells, hm, append_zero, Out.state?, reserved, hmx]
    have hwf := step_wf h hst
    have hput : put grow w o ⟨some b, m⟩ cs (cs.take m ++ [0]) (m + 1) =
        { w with mem := upd w.mem b (some (cs.take m ++ [0] ++ cs.drop (m + 1))),
                 objs := upd w.objs o (some ⟨some b, m + 1⟩) } := by
      unfold put
      rw [if_pos (by omega)]
      simp only [hl']
    obtain ⟨w', hr, hn, hv⟩ := ih _ o b (m + 1) (cs.take m ++ [0] ++ cs.drop (m + 1)) hwf
      (by rw [hput]; exact upd_same _ _ _) (by rw [hput]; exact upd_same _ _ _)
      (by rw [List.length_append, hl', List.length_drop]; omega)
    refine ⟨w', ?_, hn, by rw [hv, put_views]⟩
    rw [List.replicate_succ]
    unfold run
    rw [hst]
    exact hr

end Verif.Store
