import Verif.Lemmas.Life

/-!
# Every event keeps the counts exact
-/

namespace Verif.Life

open Verif.Spec.Life

theorem alloc_spec {w : World} {R : List Nat} {B : Nat} (iv : Inv w.heap R B) (k : Class) (body : Body) (nb : Nat)
    (hz : body = .zero → nb = 0) :
    Owed (alloc w k body nb).heap (body.items.filterMap Elem.ref?) (w.heap.next :: R) B := by
  have old : ∀ i, i < w.heap.next → upd w.heap.cells w.heap.next (some ⟨1, k, body, nb⟩) i = w.heap.cells i :=
    fun i hi => upd_ne _ _ (by omega)
  refine ⟨fun x => ?_, fun x d hd => ?_, fun x hx => ?_, ?_, fun x d hd hb' => ?_⟩
  · have e := iv.count x
    have ei : inner (alloc w k body nb).heap x = inner w.heap x + (body.items.filterMap Elem.ref?).count x := by
      simp only [inner, alloc, total, upd_self, refsOf_some, Cell.refs]
      rw [total_congr w.heap.next (fun i hi => by rw [old i hi])]
    rw [ei]
    simp only [alloc, List.count_cons]
    by_cases hx : x = w.heap.next
    · subst hx
      rw [iv.bound _ (Nat.le_refl _)] at e
      simp only [upd_self, rcOf_some, rcOf_none, beq_self_eq_true, if_true] at e ⊢
      omega
    · have : (w.heap.next == x) = false := by simp; omega
      simp only [upd_ne _ _ hx, this, Bool.false_eq_true, if_false]
      omega
  · simp only [alloc, upd] at hd
    split at hd
    · cases hd; simp
    · exact iv.pos x d hd
  · simp only [alloc] at hx ⊢
    rw [upd_ne _ _ (by omega)]
    exact iv.bound x (by omega)
  · have e := iv.blocks
    simp only [alloc, total, upd_self, blocksOf_some]
    rw [total_congr w.heap.next (fun i hi => by rw [old i hi])]
    omega
  · simp only [alloc, upd] at hd
    split at hd
    · cases hd; exact hz hb'
    · exact iv.zero x d hd hb'

theorem alloc_live (w : World) (k : Class) (body : Body) (nb : Nat) : live (alloc w k body nb).heap = live w.heap + 1 := by
  simp only [live, alloc, total, upd_self, alive_some]
  rw [total_congr w.heap.next (fun i hi => by rw [upd_ne _ _ (by omega)])]

theorem live_le (h : Heap) : live h ≤ h.next := by
  have : ∀ n, total (fun i => alive (h.cells i)) n ≤ n := by
    intro n
    induction n with
    | zero => simp [total]
    | succ n ih =>
      simp only [total]
      have : alive (h.cells n) ≤ 1 := by cases h.cells n <;> simp [alive]
      omega
  exact this _

theorem Sub.inner_le {h' h : Heap} (s : Sub h' h) (x : Nat) : inner h' x ≤ inner h x := by
  unfold inner
  rw [s.1]
  have : ∀ n, total (fun i => (refsOf (h'.cells i)).count x) n ≤ total (fun i => (refsOf (h.cells i)).count x) n := by
    intro n
    induction n with
    | zero => simp [total]
    | succ n ih =>
      simp only [total]
      have : (refsOf (h'.cells n)).count x ≤ (refsOf (h.cells n)).count x := by
        match hn : h'.cells n with
        | none => simp [refsOf]
        | some c =>
          obtain ⟨d, hd, b, _⟩ := s.2 n c hn
          rw [hd]
          simp only [refsOf_some, Cell.refs, b]
          exact Nat.le_refl _
      omega
  exact this _

/-- The elements of an object, from its memory. -/
def itemsAt (h : Heap) (x : Nat) : List Elem :=
  match h.cells x with
  | some c => c.body.items
  | none => []

theorem elems_eq (w : World) (x : Nat) : elems w x = itemsAt w.heap x := rfl

theorem itemsAt_some {h : Heap} {x : Nat} {c : Cell} (hc : h.cells x = some c) : itemsAt h x = c.body.items := by
  simp only [itemsAt, hc]

theorem Sub.items {h' h : Heap} (s : Sub h' h) {x : Nat} (hx : ∃ c, h'.cells x = some c) : itemsAt h' x = itemsAt h x := by
  obtain ⟨c', hc'⟩ := hx
  obtain ⟨c, hc, b, _⟩ := s.2 x c' hc'
  rw [itemsAt_some hc', itemsAt_some hc, b]

/-- What is kept by an event. -/
structure Kept (w : World) (ev : Ev) (L : List Nat) (B : Nat) (w' : World) : Prop where
  inv : ∃ L' B', Inv w'.heap (w'.names ++ L') B' ∧ (again w ev = false → L' = L ∧ B' = B) ∧
    L' = L ++ lostRefs w ev ∧ B' = B + lostBlocks w ev
  made : Made w.heap → Ev.bare ev = false → Made w'.heap
  next : w'.heap.next ≤ w.heap.next + 1

theorem takes_eq (w : World) (k : Class) (items : List Elem) : takes w k items = w.may k items := by
  unfold takes World.may
  congr 1
  funext e
  cases e <;> cases k <;> simp [Class.holds]

/-- An event that is refused initialises nothing. -/
theorem over_refused {w : World} {ev : Ev} {e : Exc} (h : refused w ev = some e) (he : e ≠ .valueError) : over w ev = none := by
  cases ev with
  | init o items fails =>
    have : refused w (.init o items fails) = some .typeError := by
      simp only [refused] at h ⊢
      (repeat' split at h) <;> simp_all
    simp [over, this]
  | initFrom o p =>
    have : refused w (.initFrom o p) = some .typeError := by
      simp only [refused] at h ⊢
      (repeat' split at h) <;> simp_all
    simp [over, this]
  | _ => rfl

/-- What an event may do. -/
def Fine (D : Nat) (w : World) (ev : Ev) (L : List Nat) (B : Nat) : Out World Ans → Prop
  | .ok w' a => Kept w ev L B w' ∧ (∀ x, Lives w' x → elems w' x = after (elems w) w.heap.next ev x) ∧
      answer (elems w) w.heap.next ev = some a ∧ refused w ev = none
  | .exc w' e => refused w ev = some e ∧ Kept w ev L B w' ∧ ((∀ x, Lives w' x → elems w' x = elems w x) ∨
      ∃ o items, ev = .init o items true ∧ e = .valueError ∧ ∀ x, Lives w' x → elems w' x = after (elems w) w.heap.next ev x)
  | .pending _ _ _ => False
  | .ub u => (u = .stackOverflow ∧ D ≤ live w.heap + 1) ∨ (u = .nullDeref ∧ ¬ Made w.heap)

section
variable {D : Nat} {w : World} {L : List Nat} {B : Nat} (iv : Inv w.heap (w.names ++ L) B)
include iv

theorem fine_exc (ev : Ev) (e : Exc) (hr : refused w ev = some e) (he : e ≠ .valueError := by simp) :
    Fine D w ev L B (.exc w e) :=
  ⟨hr, ⟨⟨L, B, iv, fun _ => ⟨rfl, rfl⟩, by simp [lostRefs, over_refused hr he], by simp [lostBlocks, over_refused hr he]⟩,
    fun m _ => m, by omega⟩, .inl fun _ _ => rfl⟩

theorem fine_onList (ev : Ev) (o : Nat) (f : Cell → Out World Ans)
    (hr : listOf w o = none → refused w ev = some .typeError)
    (hf : ∀ c, w.heap.cells o = some c → listOf w o = some c.cls → Fine D w ev L B (f c)) :
    Fine D w ev L B (onList w o f) := by
  unfold onList
  by_cases ho : w.names.contains o = true
  · rw [if_pos ho]
    have ho := List.contains_iff_mem.1 ho
    obtain ⟨c, hc⟩ := iv.lives (x := o) (by simp [ho])
    simp only [hc]
    split
    · exact fine_exc iv ev _ (hr (by simp [listOf, *]))
    · exact hf c hc (by simp [listOf, *])
  · rw [if_neg ho]
    have : o ∉ w.names := fun h => ho (List.contains_iff_mem.2 h)
    exact fine_exc iv ev _ (hr (by simp [listOf, this]))

theorem may_lives {k : Class} {items : List Elem} (hm : w.may k items = true) :
    ∀ x ∈ items.filterMap Elem.ref?, (w.heap.cells x).isSome := by
  intro x hx
  obtain ⟨e, he, hr⟩ := List.mem_filterMap.1 hx
  simp only [World.may, List.all_eq_true, Bool.and_eq_true] at hm
  have := (hm e he).2
  cases e with
  | int v => simp [Elem.ref?] at hr
  | obj y =>
    simp only [Elem.ref?, Option.some.injEq] at hr
    subst hr
    obtain ⟨c, hc⟩ := iv.lives (x := y) (by simp only [List.contains_iff_mem] at this; simp [this])
    rw [hc]; rfl

theorem fine_new (k : Class) : Fine D w (.new k) L B (step D w (.new k)) := by
  have h := (alloc_spec iv k .zero 0 (fun _ => rfl))
  refine ⟨⟨⟨L, B, h.inv, fun _ => ⟨rfl, rfl⟩, by simp [lostRefs, over], by simp [lostBlocks, over]⟩, ?_, by simp [alloc]⟩, ?_, rfl, rfl⟩
  · intro m hb x c hc hl
    simp only [alloc, upd] at hc
    split at hc
    · cases hc; simp [Ev.bare] at hb; simp [hb] at hl
    · exact m x c hc hl
  · intro x _
    simp only [elems_eq, after, itemsAt, alloc]
    by_cases hx : x = w.heap.next
    · subst hx; simp [upd_self, Body.items]
    · simp [upd_ne _ _ hx, hx]

/-- A change of the container of one object, then references counted. -/
theorem fine_change (ev : Ev) {o : Nat} {c : Cell} (hc : w.heap.cells o = some c) (items : List Elem) (nb b : Nat)
    (P S L' : List Nat) (B' : Nat) (names : List Nat)
    (hS : ∀ x, S.count x + (items.filterMap Elem.ref?).count x = P.count x + (w.names ++ L).count x + c.refs.count x)
    (hSn : S = names ++ L') (hb : b + c.blocks + B = w.heap.blocks + nb + B')
    (hP : ∀ x ∈ P, (w.heap.cells x).isSome) (ha : (again w ev = false → L' = L ∧ B' = B) ∧ L' = L ++ lostRefs w ev ∧ B' = B + lostBlocks w ev)
    (hafter : ∀ x, after (elems w) w.heap.next ev x = if x = o then items else elems w x) :
    ∃ h, P.foldlM incref ({ w.heap with blocks := b }.put o { c with body := .made items, blocks := nb }) = .ok h ∧
      Kept w ev L B ⟨h, names⟩ ∧ ∀ x, Lives ⟨h, names⟩ x → elems ⟨h, names⟩ x = after (elems w) w.heap.next ev x := by
  have h1 := iv.change (P := P) (S := S) (B' := B') hc (.made items) nb b hS hb (fun h => nomatch h)
  obtain ⟨h, e, i, s, _, _⟩ := increfs_spec P h1 (fun x hx => by
    simp only [Heap.put, upd]
    split
    · rfl
    · exact hP x hx)
  refine ⟨h, e, ⟨⟨L', B', hSn ▸ i, ha⟩, ?_, ?_⟩, ?_⟩
  · intro m _
    refine s.made fun x d hd hl => ?_
    simp only [Heap.put, upd] at hd
    split at hd
    · cases hd; simp
    · exact m x d hd hl
  · have := s.1
    simp only [Heap.put] at this
    show h.next ≤ _
    omega
  · intro x hx
    rw [hafter, elems_eq, s.items hx]
    simp only [itemsAt, Heap.put, elems_eq]
    by_cases hx : x = o
    · subst hx; simp [upd_self, Body.items]
    · simp [upd_ne _ _ hx, hx]

theorem fine_init (o : Nat) (items : List Elem) (fails : Bool) :
    Fine D w (.init o items fails) L B (step D w (.init o items fails)) := by
  unfold step
  refine fine_onList iv _ o _ (fun h => by simp [refused, h]) fun c hc hk => ?_
  by_cases hm : w.may c.cls items = true
  · rw [if_pos hm]
    obtain ⟨h, e, k, he⟩ := fine_change iv (.init o items fails) hc items (c.cls.blocksFor items.length)
      (w.heap.blocks + c.cls.blocksFor items.length) (items.filterMap Elem.ref?) (w.names ++ (L ++ c.refs)) (L ++ c.refs)
      (B + c.blocks) w.names (by intro x; simp only [List.count_append]; omega) rfl (by omega) (may_lives iv hm)
      ⟨by
        intro ha
        simp only [again, hc, bne_eq_false_iff_eq] at ha
        simp [Cell.refs, ha, Body.items, iv.zero o c hc ha],
        by cases fails <;> simp [lostRefs, over, refused, hk, takes_eq, hm, elems_eq, itemsAt_some hc, Cell.refs],
        by cases fails <;> simp [lostBlocks, over, refused, hk, takes_eq, hm, hc]⟩
      (fun x => rfl)
    simp only [initBody, increfAll]
    rw [e]
    cases fails with
    | false => exact ⟨k, he, rfl, by simp [refused, hk, takes_eq, hm]⟩
    | true => exact ⟨by simp [refused, hk, takes_eq, hm], k, .inr ⟨o, items, rfl, rfl, he⟩⟩
  · rw [if_neg hm]
    exact fine_exc iv _ _ (by simp [refused, hk, takes_eq, hm])

theorem fine_append (o : Nat) (e : Elem) : Fine D w (.append o e) L B (step D w (.append o e)) := by
  unfold step
  refine fine_onList iv _ o _ (fun h => by simp [refused, h]) fun c hc hk => ?_
  by_cases hm : w.may c.cls [e] = true
  · rw [if_pos hm]
    by_cases hz : (c.cls.linked && c.body == .zero) = true
    · rw [if_pos hz]
      simp only [Bool.and_eq_true, beq_iff_eq] at hz
      exact .inr ⟨rfl, fun m => m o c hc hz.1 hz.2⟩
    · rw [if_neg hz]
      have hb := iv.blocks
      have hle := total_le (f := fun i => blocksOf (w.heap.cells i)) w.heap.next (iv.lt hc)
      simp only [hc, blocksOf_some] at hle
      obtain ⟨h, e', k, he⟩ := fine_change iv (.append o e) hc (c.body.items ++ [e]) (if c.cls.linked then c.blocks + 1 else 1)
        (w.heap.blocks - c.blocks + if c.cls.linked then c.blocks + 1 else 1) ([e].filterMap Elem.ref?) (w.names ++ L) L B w.names
        (by intro x; simp only [List.count_append, Cell.refs, List.filterMap_append]; omega) rfl (by omega) (may_lives iv hm)
        ⟨fun _ => ⟨rfl, rfl⟩, by simp [lostRefs, over], by simp [lostBlocks, over]⟩ (fun x => by simp only [after, elems_eq, itemsAt_some hc])
      simp only [increfAll, finish]
      rw [e']
      exact ⟨k, he, rfl, by simp [refused, hk, takes_eq, hm]⟩
  · rw [if_neg hm]
    exact fine_exc iv _ _ (by simp [refused, hk, takes_eq, hm])

theorem fine_pop (o : Nat) : Fine D w (.pop o) L B (step D w (.pop o)) := by
  unfold step
  refine fine_onList iv _ o _ (fun h => by simp [refused, h]) fun c hc hk => ?_
  by_cases hz : (c.cls.linked && c.body == .zero) = true
  · rw [if_pos hz]
    simp only [Bool.and_eq_true, beq_iff_eq] at hz
    exact .inr ⟨rfl, fun m => m o c hc hz.1 hz.2⟩
  · rw [if_neg hz]
    match hl : c.body.items.getLast? with
    | none =>
      exact fine_exc iv _ _ (by simp [refused, hk, elems_eq, itemsAt_some hc, List.getLast?_eq_none_iff.1 hl])
    | some e =>
      have hb := iv.blocks
      have hle := total_le (f := fun i => blocksOf (w.heap.cells i)) w.heap.next (iv.lt hc)
      simp only [hc, blocksOf_some] at hle
      have hsplit : c.body.items = c.body.items.dropLast ++ [e] := by
        have hne : c.body.items ≠ [] := by intro h; rw [h] at hl; cases hl
        have := List.dropLast_concat_getLast hne
        rw [List.getLast?_eq_some_getLast hne] at hl
        cases hl
        exact this.symm
      obtain ⟨h, e', k, he⟩ := fine_change iv (.pop o) hc c.body.items.dropLast (if c.cls.linked then c.blocks - 1 else c.blocks)
        (w.heap.blocks - c.blocks + if c.cls.linked then c.blocks - 1 else c.blocks) [] (e.ref?.toList ++ w.names ++ L) L B
        (e.ref?.toList ++ w.names)
        (by
          intro x
          have : c.refs = c.body.items.dropLast.filterMap Elem.ref? ++ e.ref?.toList := by
            unfold Cell.refs
            rw [hsplit]
            cases e <;> simp [Elem.ref?, List.filterMap_append]
          rw [this]
          simp only [List.count_append, List.count_nil]
          omega) rfl (by omega) (by simp) ⟨fun _ => ⟨rfl, rfl⟩, by simp [lostRefs, over], by simp [lostBlocks, over]⟩ (fun x => by simp only [after, elems_eq, itemsAt_some hc])
      simp only [List.foldlM_nil, pure, Except.pure, Except.ok.injEq] at e'
      subst e'
      have hne : c.body.items ≠ [] := by intro h; rw [h] at hl; cases hl
      refine ⟨k, he, ?_, by simp [refused, hk, elems_eq, itemsAt_some hc, hne]⟩
      simp only [answer, elems_eq, itemsAt_some hc, hl, Option.map_some]

theorem fine_get (o i : Nat) : Fine D w (.get o i) L B (step D w (.get o i)) := by
  unfold step
  refine fine_onList iv _ o _ (fun h => by simp [refused, h]) fun c hc hk => ?_
  match hl : c.body.items[i]? with
  | none =>
    have := List.getElem?_eq_none_iff.1 hl
    exact fine_exc iv _ _ (by simp [refused, hk, elems_eq, itemsAt_some hc]; omega)
  | some e =>
    have hmem : e ∈ c.body.items := List.mem_of_getElem? hl
    obtain ⟨h, e', i', s, _, _⟩ := increfs_spec ([e].filterMap Elem.ref?) (iv.owed _) (by
      intro x hx
      obtain ⟨e2, he2, hr⟩ := List.mem_filterMap.1 hx
      simp only [List.mem_singleton] at he2
      subst he2
      obtain ⟨d, hd⟩ := iv.held hc (x := x) (List.mem_filterMap.2 ⟨e2, hmem, hr⟩)
      rw [hd]; rfl)
    simp only [increfAll, finish]
    rw [e']
    have hx : ([e].filterMap Elem.ref?) = e.ref?.toList := by cases e <;> rfl
    refine ⟨⟨⟨L, B, ?_, fun _ => ⟨rfl, rfl⟩, by simp [lostRefs, over], by simp [lostBlocks, over]⟩, fun m _ => s.made m, ?_⟩, fun x hx => ?_, ?_, ?_⟩
    · rw [hx] at i'
      simpa using i'
    · have := s.1
      show h.next ≤ _
      omega
    · exact s.items hx
    · simp only [answer, elems_eq, itemsAt_some hc, hl, Option.map_some]
    · have := (List.getElem?_eq_some_iff.1 hl).1
      simp [refused, hk, elems_eq, itemsAt_some hc, this]

theorem fine_len (o : Nat) : Fine D w (.len o) L B (step D w (.len o)) := by
  unfold step
  refine fine_onList iv _ o _ (fun h => by simp [refused, h]) fun c hc hk => ?_
  refine ⟨⟨⟨L, B, iv, fun _ => ⟨rfl, rfl⟩, by simp [lostRefs, over], by simp [lostBlocks, over]⟩, fun m _ => m, by omega⟩, fun _ _ => rfl, ?_, by simp [refused, hk]⟩
  simp only [answer, elems_eq, itemsAt_some hc]

theorem fine_clear (o : Nat) : Fine D w (.clear o) L B (step D w (.clear o)) := by
  unfold step
  refine fine_onList iv _ o _ (fun h => by simp [refused, h]) fun c hc hk => ?_
  by_cases hz : (c.cls.linked && c.body == .zero) = true
  · rw [if_pos hz]
    simp only [Bool.and_eq_true, beq_iff_eq] at hz
    exact .inr ⟨rfl, fun m => m o c hc hz.1 hz.2⟩
  · rw [if_neg hz]
    have hb := iv.blocks
    have hle := total_le (f := fun i => blocksOf (w.heap.cells i)) w.heap.next (iv.lt hc)
    simp only [hc, blocksOf_some] at hle
    have h1 := iv.change (P := []) (S := c.refs ++ (w.names ++ L)) (B' := B) hc (.made []) (if c.cls.linked then 0 else c.blocks)
      (w.heap.blocks - c.blocks + if c.cls.linked then 0 else c.blocks)
      (by intro x; simp only [Body.items, List.filterMap_nil, List.count_append, List.count_nil]; omega) (by omega)
      (fun h => nomatch h)
    have h2 := releases (decref_spec D) c.refs _ (w.names ++ L) B h1.inv
    simp only [finish, decrefAll]
    show Fine D w (.clear o) L B (match c.refs.foldlM (fun h y => decref D h y) _ with | .error u => _ | .ok h => _)
    have hmade : Made w.heap → Made ({ w.heap with blocks := w.heap.blocks - c.blocks + if c.cls.linked then 0 else c.blocks }.put o
        { c with body := .made [], blocks := if c.cls.linked then 0 else c.blocks }) := by
      intro m x d hd hl
      simp only [Heap.put, upd] at hd
      split at hd
      · cases hd; simp
      · exact m x d hd hl
    have hlive : live ({ w.heap with blocks := w.heap.blocks - c.blocks + if c.cls.linked then 0 else c.blocks }.put o
        { c with body := .made [], blocks := if c.cls.linked then 0 else c.blocks }) = live w.heap := by
      have := live_upd w.heap o (some { c with body := .made [], blocks := if c.cls.linked then 0 else c.blocks })
        (w.heap.blocks - c.blocks + if c.cls.linked then 0 else c.blocks) (iv.lt hc)
      rw [hc] at this
      simp only [alive_some] at this
      simp only [Heap.put]
      omega
    revert h2
    generalize c.refs.foldlM (fun h y => decref D h y) _ = r
    intro h2
    match r with
    | .error u =>
      rcases h2 with ⟨e, hd⟩ | ⟨e, hm⟩
      · exact .inl ⟨e, by rw [← hlive]; exact Nat.le_succ_of_le hd⟩
      · exact .inr ⟨e, fun m => hm (hmade m)⟩
    | .ok h =>
      refine ⟨⟨⟨L, B, h2.1, fun _ => ⟨rfl, rfl⟩, by simp [lostRefs, over], by simp [lostBlocks, over]⟩, fun m _ => h2.2.1.made (hmade m), ?_⟩, fun x hx => ?_, rfl, by simp [refused, hk]⟩
      · have := h2.2.1.1
        simp only [Heap.put] at this
        show h.next ≤ _
        omega
      · rw [elems_eq, h2.2.1.items hx]
        simp only [itemsAt, Heap.put, elems_eq, after]
        by_cases hx : x = o
        · subst hx; simp [upd_self, Body.items]
        · simp [upd_ne _ _ hx, hx]

theorem fine_copy (o : Nat) : Fine D w (.copy o) L B (step D w (.copy o)) := by
  unfold step
  refine fine_onList iv _ o _ (fun h => by simp [refused, h]) fun c hc hk => ?_
  by_cases hz : (c.cls.linked && c.body == .zero) = true
  · rw [if_pos hz]
    simp only [Bool.and_eq_true, beq_iff_eq] at hz
    exact .inr ⟨rfl, fun m => m o c hc hz.1 hz.2⟩
  · rw [if_neg hz]
    have h1 := alloc_spec iv c.cls (.made c.body.items) (c.cls.blocksFor c.body.items.length) (fun h => nomatch h)
    obtain ⟨h, e', i', s, _, _⟩ := increfs_spec _ h1 (by
      intro x hx
      obtain ⟨d, hd⟩ := iv.held hc (x := x) hx
      simp only [alloc, upd]
      split
      · rfl
      · rw [hd]; rfl)
    simp only [increfAll, finish]
    rw [show Body.items (.made c.body.items) = c.body.items from rfl] at e'
    rw [e']
    refine ⟨⟨⟨L, B, i', fun _ => ⟨rfl, rfl⟩, by simp [lostRefs, over], by simp [lostBlocks, over]⟩, fun m _ => s.made ?_, ?_⟩, fun x hx => ?_, rfl, by simp [refused, hk]⟩
    · intro x d hd hl
      simp only [alloc, upd] at hd
      split at hd
      · cases hd; simp
      · exact m x d hd hl
    · have := s.1
      simp only [alloc] at this
      show h.next ≤ _
      omega
    · rw [elems_eq, s.items hx]
      simp only [itemsAt, alloc, elems_eq, after, hc]
      by_cases hx : x = w.heap.next
      · subst hx; simp [upd_self, Body.items]
      · simp [upd_ne _ _ hx, hx]

theorem fine_dup (x : Nat) : Fine D w (.dup x) L B (step D w (.dup x)) := by
  unfold step
  by_cases hx : w.names.contains x = true
  · simp only [hx, if_true]
    obtain ⟨c, hc⟩ := iv.lives (x := x) (by simp only [List.contains_iff_mem] at hx; simp [hx])
    obtain ⟨h, e, i, s, _, _⟩ := incref_spec (iv.owed [x]) hc
    simp only [finish]
    rw [e]
    refine ⟨⟨⟨L, B, i.inv, fun _ => ⟨rfl, rfl⟩, by simp [lostRefs, over], by simp [lostBlocks, over]⟩, fun m _ => s.made m, ?_⟩, fun y hy => s.items hy, rfl, by simpa [refused] using hx⟩
    have := s.1
    show h.next ≤ _
    omega
  · simp only [hx]
    exact fine_exc iv _ _ (by simpa [refused] using hx)

theorem fine_drop (x : Nat) : Fine D w (.drop x) L B (step D w (.drop x)) := by
  unfold step
  by_cases hx : w.names.contains x = true
  · simp only [hx, if_true]
    have hx := List.contains_iff_mem.1 hx
    have iv1 : Inv w.heap (x :: (w.names.erase x ++ L)) B := iv.perm (by
      have := (List.perm_cons_erase hx).append_right L
      simpa using this)
    have h2 := decref_spec D w.heap x _ B iv1
    revert h2
    generalize decref D w.heap x = r
    intro h2
    match r with
    | .error u =>
      rcases h2 with ⟨e, hd⟩ | ⟨e, hm⟩
      · exact .inl ⟨e, by omega⟩
      · exact .inr ⟨e, hm⟩
    | .ok h =>
      refine ⟨⟨⟨L, B, h2.1, fun _ => ⟨rfl, rfl⟩, by simp [lostRefs, over], by simp [lostBlocks, over]⟩, fun m _ => h2.2.1.made m, ?_⟩, fun y hy => h2.2.1.items hy, rfl, by simpa [refused] using hx⟩
      have := h2.2.1.1
      show h.next ≤ _
      omega
  · simp only [hx]
    exact fine_exc iv _ _ (by simpa [refused] using hx)

theorem fine_create (k : Class) (items : List Elem) (fails : Bool) :
    Fine D w (.create k items fails) L B (step D w (.create k items fails)) := by
  simp only [step]
  by_cases hm : k ≠ .other ∧ w.may k items = true
  · rw [if_pos hm]
    have h0 := (alloc_spec iv k .zero 0 (fun _ => rfl)).inv
    have hcell : (alloc w k .zero 0).heap.cells w.heap.next = some ⟨1, k, .zero, 0⟩ := by simp [alloc, upd_self]
    have h1 := h0.change (P := items.filterMap Elem.ref?) (S := w.heap.next :: (w.names ++ L)) (B' := B) hcell (.made items)
      (k.blocksFor items.length) ((alloc w k .zero 0).heap.blocks + k.blocksFor items.length)
      (by intro x; simp only [Body.items, Cell.refs, List.filterMap_nil, List.count_nil]; omega) (by simp only; omega)
      (fun h => nomatch h)
    obtain ⟨h, e, i, s, hlive, _⟩ := increfs_spec _ h1 (fun x hx => by
      simp only [Heap.put, alloc, upd]
      split
      · rfl
      · exact may_lives iv hm.2 x hx)
    have hlive2 : live h = live w.heap + 1 := by
      have h3 := live_upd (alloc w k .zero 0).heap w.heap.next (some ⟨1, k, .made items, k.blocksFor items.length⟩)
        ((alloc w k .zero 0).heap.blocks + k.blocksFor items.length) (by simp [alloc])
      rw [hcell] at h3
      simp only [alive_some] at h3
      have h4 := alloc_live w k .zero 0
      simp only [Heap.put] at hlive
      omega
    have hmade : Made w.heap → Made h := by
      intro m
      refine s.made fun x d hd hl => ?_
      simp only [Heap.put, upd] at hd
      split at hd
      · cases hd; simp
      · simp only [alloc, upd] at hd
        rename_i hne
        rw [if_neg hne] at hd
        exact m x d hd hl
    have hnext : h.next = w.heap.next + 1 := by
      have := s.1
      simpa only [Heap.put, alloc] using this
    have hitems : ∀ x, (∃ c, h.cells x = some c) → itemsAt h x = if x = w.heap.next then items else itemsAt w.heap x := by
      intro x hx
      rw [s.items hx]
      simp only [itemsAt, Heap.put, alloc]
      by_cases hx : x = w.heap.next
      · subst hx; simp [upd_self, Body.items]
      · simp [upd_ne _ _ hx, hx]
    simp only [initBody, increfAll]
    rw [e]
    cases fails with
    | false =>
      refine ⟨⟨⟨L, B, i, fun _ => ⟨rfl, rfl⟩, by simp [lostRefs, over], by simp [lostBlocks, over]⟩, fun m _ => hmade m, ?_⟩, fun x hx => ?_, rfl, by simp [refused, takes_eq, hm]⟩
      · show h.next ≤ _
        omega
      · exact hitems x hx
    | true =>
      simp only [if_true]
      have h2 := decref_spec D h w.heap.next _ B i
      revert h2
      generalize decref D h w.heap.next = r
      intro h2
      match r with
      | .error u =>
        rcases h2 with ⟨e, hd⟩ | ⟨e, hm⟩
        · exact .inl ⟨e, by omega⟩
        · exact .inr ⟨e, fun m => hm (hmade m)⟩
      | .ok h' =>
        refine ⟨by simp [refused, takes_eq, hm], ⟨⟨L, B, h2.1, fun _ => ⟨rfl, rfl⟩, by simp [lostRefs, over], by simp [lostBlocks, over]⟩, fun m _ => h2.2.1.made (hmade m), ?_⟩, .inl fun x hx => ?_⟩
        · have := h2.2.1.1
          show h'.next ≤ _
          omega
        · have hne : x ≠ w.heap.next := by
            intro hx'
            subst hx'
            obtain ⟨c, hc⟩ := hx
            have e1 := h2.1.count w.heap.next
            have e2 := h2.2.1.inner_le w.heap.next
            have e3 := i.count w.heap.next
            have e4 := iv.count w.heap.next
            have e5 := h2.1.pos _ _ hc
            have e6 := s.inner_le w.heap.next
            have e7 := inner_upd (alloc w k .zero 0).heap w.heap.next (some ⟨1, k, .made items, k.blocksFor items.length⟩)
              ((alloc w k .zero 0).heap.blocks + k.blocksFor items.length) w.heap.next (by simp [alloc])
            have e8 := h0.count w.heap.next
            have e9 : (items.filterMap Elem.ref?).count w.heap.next = 0 := by
              refine List.count_eq_zero.2 fun hm' => ?_
              have := may_lives iv hm.2 _ hm'
              rw [iv.bound _ (Nat.le_refl _)] at this
              cases this
            rw [iv.bound _ (Nat.le_refl _)] at e4
            rw [hc] at e1
            rw [hcell] at e7 e8
            simp only [rcOf_some, rcOf_none, refsOf_some, Cell.refs, Body.items, Heap.put, List.count_cons_self] at e1 e4 e6 e7 e8
            simp only [List.filterMap_nil, List.count_nil] at e7
            omega
          obtain ⟨c, hc⟩ := hx
          obtain ⟨d, hd, _⟩ := h2.2.1.2 x c hc
          rw [elems_eq, h2.2.1.items ⟨c, hc⟩, hitems x ⟨d, hd⟩, if_neg hne]
          rfl
  · rw [if_neg hm]
    exact fine_exc iv _ _ (by simp only [refused, takes_eq, if_neg hm])

theorem fine_initFrom (o p : Nat) (hs : sharing w (.initFrom o p) = false) :
    Fine D w (.initFrom o p) L B (step D w (.initFrom o p)) := by
  unfold step
  refine fine_onList iv _ o _ (fun h => by simp [refused, h]) fun c hc hk => ?_
  refine fine_onList iv _ p _ (fun h => by simp [refused, h]) fun d hd hk' => ?_
  by_cases hcls : c.cls = d.cls
  · rw [if_pos hcls]
    have hr : refused w (.initFrom o p) = none := by simp [refused, hk, hk', hcls]
    have ha : (again w (.initFrom o p) = false → L ++ c.refs = L ∧ B + c.blocks = B) ∧
        L ++ c.refs = L ++ lostRefs w (.initFrom o p) ∧ B + c.blocks = B + lostBlocks w (.initFrom o p) := by
      refine ⟨?_, by simp [lostRefs, over, hr, elems_eq, itemsAt_some hc, Cell.refs], by simp [lostBlocks, over, hr, hc]⟩
      intro ha
      simp only [again, hc, bne_eq_false_iff_eq] at ha
      simp [Cell.refs, ha, Body.items, iv.zero o c hc ha]
    have go : ∀ items : List Elem, items.filterMap Elem.ref? = [] →
        (∀ x, after (elems w) w.heap.next (.initFrom o p) x = if x = o then items else elems w x) →
        Fine D w (.initFrom o p) L B (.ok ⟨initCopy w.heap o c items, w.names⟩ .none) := by
      intro items hi haf
      obtain ⟨h, e, k, he⟩ := fine_change iv (.initFrom o p) hc items (c.cls.blocksFor items.length)
        (w.heap.blocks + c.cls.blocksFor items.length) [] (w.names ++ (L ++ c.refs)) (L ++ c.refs)
        (B + c.blocks) w.names (by intro x; simp only [List.count_append, hi]; omega) rfl (by omega) (by simp) ha haf
      simp only [List.foldlM_nil, pure, Except.pure, Except.ok.injEq] at e
      subst e
      exact ⟨k, he, rfl, hr⟩
    by_cases hop : o = p
    · rw [if_pos hop]
      exact go [] rfl (fun x => by simp [after, hop])
    · rw [if_neg hop]
      by_cases hz : (d.cls.linked && d.body == .zero) = true
      · rw [if_pos hz]
        simp only [Bool.and_eq_true, beq_iff_eq] at hz
        exact .inr ⟨rfl, fun m => m p d hd hz.1 hz.2⟩
      · rw [if_neg hz]
        refine go d.body.items ?_ (fun x => by simp [after, hop, elems_eq, itemsAt_some hd])
        simp only [sharing, bne_iff_ne.2 hop, Bool.true_and, elems_eq, itemsAt_some hd, List.any_eq_false] at hs
        refine List.filterMap_eq_nil_iff.2 fun e he => ?_
        have := hs e he
        cases e with
        | int v => rfl
        | obj x => simp at this
  · rw [if_neg hcls]
    exact fine_exc iv _ _ (by simp [refused, hk, hk', hcls])

/-- **Every event keeps the counts exact**, unless it shares elements uncounted. -/
theorem step_fine (ev : Ev) (hs : sharing w ev = false) : Fine D w ev L B (step D w ev) := by
  cases ev with
  | new k => exact fine_new iv k
  | init o items fails => exact fine_init iv o items fails
  | initFrom o p => exact fine_initFrom iv o p hs
  | create k items fails => exact fine_create iv k items fails
  | append o e => exact fine_append iv o e
  | pop o => exact fine_pop iv o
  | get o i => exact fine_get iv o i
  | len o => exact fine_len iv o
  | clear o => exact fine_clear iv o
  | copy o => exact fine_copy iv o
  | dup x => exact fine_dup iv x
  | drop x => exact fine_drop iv x

end

/-! ## Histories -/

/-- What a history may do. -/
def FineRun (D : Nat) (w : World) (evs : List Ev) (L : List Nat) (B : Nat) : Except UB World → Prop
  | .ok w' => (∃ L' B', Inv w'.heap (w'.names ++ L') B' ∧ (Never again D w evs → L' = L ∧ B' = B) ∧
      L' = L ++ (lost D w evs).1 ∧ B' = B + (lost D w evs).2) ∧
      (Made w.heap → (∀ e ∈ evs, Ev.bare e = false) → Made w'.heap) ∧ w'.heap.next ≤ w.heap.next + evs.length
  | .error u => (u = .stackOverflow ∧ D ≤ w.heap.next + evs.length) ∨
      (u = .nullDeref ∧ ¬ (Made w.heap ∧ ∀ e ∈ evs, Ev.bare e = false))

theorem run_fine {D : Nat} : ∀ (evs : List Ev) (w : World) (L : List Nat) (B : Nat), Inv w.heap (w.names ++ L) B →
    Never sharing D w evs → FineRun D w evs L B (run D w evs)
  | [], w, L, B, iv, _ => ⟨⟨L, B, iv, fun _ => ⟨rfl, rfl⟩, by simp [lost], by simp [lost]⟩, fun m _ => m, by simp⟩
  | ev :: evs, w, L, B, iv, hn => by
    have hf := step_fine (D := D) iv ev hn.1
    have hgo : ∀ w', Kept w ev L B w' → (step D w ev).state? = some w' → FineRun D w (ev :: evs) L B (run D w' evs) := by
      intro w' k hw'
      obtain ⟨L1, B1, i1, e1, f1, g1⟩ := k.inv
      have := run_fine evs w' L1 B1 i1 (hn.2 w' hw')
      revert this
      generalize run D w' evs = r
      intro h
      match r with
      | .error u =>
        rcases h with ⟨e, hd⟩ | ⟨e, hm⟩
        · refine .inl ⟨e, ?_⟩
          have := k.next
          simp only [List.length_cons]
          omega
        · refine .inr ⟨e, fun hh => hm ⟨k.made hh.1 (hh.2 ev (by simp)), fun e he => hh.2 e (by simp [he])⟩⟩
      | .ok w2 =>
        obtain ⟨⟨L2, B2, i2, e2, f2, g2⟩, m2, n2⟩ := h
        refine ⟨⟨L2, B2, i2, fun ha => ?_, by simp [lost, hw', f2, f1], by simp [lost, hw', g2, g1, Nat.add_assoc]⟩, fun m hb => m2 (k.made m (hb ev (by simp))) fun e he => hb e (by simp [he]), ?_⟩
        · have a := e1 ha.1
          have b := e2 (ha.2 w' hw')
          exact ⟨b.1.trans a.1, b.2.trans a.2⟩
        · have := k.next
          simp only [List.length_cons]
          omega
    simp only [run]
    revert hf hgo
    generalize step D w ev = r
    intro hf hgo
    match r with
    | .ok w' a => exact hgo w' hf.1 rfl
    | .exc w' e => exact hgo w' hf.2.1 rfl
    | .pending w' a e => exact hf.elim
    | .ub u =>
      rcases hf with ⟨e, hd⟩ | ⟨e, hm⟩
      · refine .inl ⟨e, ?_⟩
        have := live_le w.heap
        simp only [List.length_cons]
        omega
      · exact .inr ⟨e, fun hh => hm hh.1⟩

theorem inv_empty : Inv empty.heap (empty.names ++ []) 0 :=
  ⟨fun x => by simp [empty, inner, total, rcOf], fun x c h => by simp [empty] at h, fun x _ => rfl, by simp [empty, total],
    fun x c h => by simp [empty] at h⟩

theorem made_empty : Made empty.heap := fun x c h => by simp [empty] at h

/-- A live object is referred to by a name or an element. -/
theorem Inv.referrer {h : Heap} {R : List Nat} {B : Nat} (i : Inv h R B) {x : Nat} {c : Cell} (hc : h.cells x = some c) :
    x ∈ R ∨ ∃ o d, o < h.next ∧ h.cells o = some d ∧ x ∈ d.refs := by
  have e := i.count x
  have p := i.pos x c hc
  rw [hc, rcOf_some] at e
  by_cases hR : x ∈ R
  · exact .inl hR
  · have : 0 < inner h x := by
      have := List.count_eq_zero.2 hR
      omega
    obtain ⟨o, ho, hp⟩ := total_pos _ this
    refine .inr ⟨o, ?_⟩
    match hd : h.cells o with
    | none => simp [hd, refsOf] at hp
    | some d => exact ⟨d, ho, rfl, List.count_pos_iff.1 (by simpa [hd, refsOf_some] using hp)⟩

end Verif.Life
