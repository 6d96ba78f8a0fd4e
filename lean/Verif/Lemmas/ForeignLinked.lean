import Verif.Model.ForeignLinked
import Verif.Spec.ForeignLinked
import Verif.Lemmas.Foreign
import Verif.Lemmas.LinkedIter

/-! # Lemmas on Python code inside a call of an IntLinkedList -/

namespace Verif.ForeignLinked

open Verif.LinkedList (S LLOut boolOut)
open Verif.Foreign (conv conv_of)

/-- The iterator is valid and has at least `k` nodes from its own on. -/
def Room (s : S) (it : Iter) (k : Nat) : Prop :=
  match it with
  | none => k = 0
  | some id => ∃ a b, s.ids = a ++ id :: b ∧ k ≤ b.length + 1

theorem room_keep {s s' : S} {it : Iter} {k : Nat} (h : Room s it k) (hs : s.ids.Sublist s'.ids) : Room s' it k := by
  cases it with
  | none => exact h
  | some id =>
    obtain ⟨a, b, e, hk⟩ := h
    rw [e, List.append_sublist_iff] at hs
    obtain ⟨r1, r2, e2, _, h2⟩ := hs
    rw [List.cons_sublist_iff] at h2
    obtain ⟨r3, r4, e3, hm, h4⟩ := h2
    obtain ⟨c, d, e4⟩ := List.append_of_mem hm
    refine ⟨r1 ++ c, d ++ r4, by rw [e2, e3, e4]; simp, ?_⟩
    have := h4.length_le
    simp only [List.length_append]
    omega

theorem room_mono {s : S} {it : Iter} {k k' : Nat} (h : Room s it k) (hk : k' ≤ k) : Room s it k' := by
  cases it with
  | none => simp only [Room] at *; omega
  | some id => obtain ⟨a, b, e, h2⟩ := h; exact ⟨a, b, e, by omega⟩

theorem room_ids {s s' : S} {it : Iter} {k : Nat} (h : Room s it k) (hs : s'.ids = s.ids) : Room s' it k :=
  room_keep h (by rw [hs]; exact List.Sublist.refl _)

theorem room_iterAt {s : S} {p k : Nat} (h : p + k ≤ s.size) : Room s (iterAt s p) k := by
  unfold iterAt
  by_cases hp : p < s.ids.length
  · rw [List.getElem?_eq_getElem hp]
    refine ⟨s.ids.take p, s.ids.drop (p + 1), ?_, ?_⟩
    · rw [← List.drop_eq_getElem_cons hp, List.take_append_drop]
    · rw [List.length_drop, LState.length_ids]; omega
  · rw [List.getElem?_eq_none (by omega)]
    rw [LState.length_ids] at hp
    show k = 0
    omega

theorem place_room {s : S} {it : Iter} {k : Nat} (h : Room s it k) :
    ∃ p, place s it = .ok p ∧ p + k ≤ s.size ∧ (it = none ∨ p < s.size) := by
  cases it with
  | none => exact ⟨s.size, rfl, by simp only [Room] at h; omega, .inl rfl⟩
  | some id =>
    obtain ⟨a, b, e, hk⟩ := h
    have hm : id ∈ s.ids := by rw [e]; simp
    have hl : s.size = a.length + (b.length + 1) := by rw [← LState.length_ids, e]; simp
    obtain ⟨p, hp⟩ : ∃ p, s.ids.idxOf? id = some p := by
      rcases h : s.ids.idxOf? id with _ | p
      · rw [List.idxOf?_eq_none_iff] at h; exact (h hm).elim
      · exact ⟨p, rfl⟩
    have hle : p ≤ a.length := by
      rw [List.idxOf?_eq_some_iff] at hp
      obtain ⟨h1, h2, h3⟩ := hp
      by_cases hc : p ≤ a.length
      · exact hc
      · exact (h3 a.length (by omega) (by simp only [e, List.getElem_append_right (Nat.le_refl _)]; simp)).elim
    refine ⟨p, by simp only [place, hp], by omega, .inr (by omega)⟩

theorem write_room {s : S} {it : Iter} {k : Nat} (v : Int) (h : Room s it (k + 1)) :
    ∃ s', write s it v = .ok s' ∧ s'.ids = s.ids := by
  obtain ⟨p, hp, h1, _⟩ := place_room h
  refine ⟨s.assign p v, ?_, LState.ids_assign s p v⟩
  simp only [write, hp, if_pos (show p < s.size by omega)]

theorem succ_room {s : S} {it : Iter} {k : Nat} (h : Room s it (k + 1)) : ∃ it', succ s it = .ok it' ∧ Room s it' k := by
  obtain ⟨p, hp, h1, _⟩ := place_room h
  refine ⟨iterAt s (p + 1), ?_, room_iterAt (by omega)⟩
  simp only [succ, hp, if_pos (show p < s.size by omega)]

theorem deref_room {s : S} {it : Iter} {k : Nat} (h : Room s it (k + 1)) : ∃ v, deref s it = .ok v := by
  obtain ⟨p, hp, h1, _⟩ := place_room h
  have : p < s.vals.length := by rw [LState.length_vals]; omega
  exact ⟨s.vals[p], by simp only [deref, hp, List.getElem?_eq_getElem this]⟩

theorem conv_keeps {x : Live} (h : x.KeepsNodes) (c : Arg → CRes) (s : S) : s.ids.Sublist (conv c x s).1.ids := by
  have this : _ := h s
  unfold conv
  dsimp only at this
  rcases hx : x.run s with ⟨l', r⟩
  rw [hx] at this
  cases r <;> simpa using this

/-! ## Slice assignment -/

theorem assignLoop_safe : ∀ {n r : Nat} {s : S} {it : Iter} {f : Feed}, f.KeepsNodes → Room s it (n + r) →
    (∃ s' it' f', assignLoop n s it f = .ok (s', it', f') () ∧ Room s' it' r ∧ f'.KeepsNodes) ∨
    (∃ t e, assignLoop n s it f = .exc t e) := by
  intro n
  induction n with
  | zero => intro r s it f hf h; exact .inl ⟨s, it, f, by cases f <;> rfl, by simpa using h, hf⟩
  | succ n ih =>
    intro r s it f hf h
    cases f with
    | done g => exact .inr ⟨_, _, rfl⟩
    | fail g e => exact .inr ⟨_, _, rfl⟩
    | item g x k =>
      obtain ⟨hg, hx, hk⟩ := hf
      have h2 := conv_keeps hx (toElem .i32) (g s)
      unfold assignLoop
      rcases hc : conv (toElem .i32) x (g s) with ⟨s', v, e⟩
      rw [hc] at h2
      have hr : Room s' it (n + r + 1) := room_keep (room_keep (by rw [show n + r + 1 = n + 1 + r by omega]; exact h) (hg s)) h2
      obtain ⟨s2, e2, hi⟩ := write_room v hr
      simp only [e2]
      cases e with
      | some e => exact .inr ⟨_, _, rfl⟩
      | none =>
        obtain ⟨it', e3, hr'⟩ := succ_room (room_ids hr hi)
        simp only [e3]
        exact ih (hk s) hr'

theorem ids_insert_sub (s : S) (p : Nat) (v : Int) : s.ids.Sublist (s.insert p v).ids := by
  unfold LState.ids LState.insert
  dsimp only
  rw [List.map_append, List.map_cons]
  have e : s.nodes.map (·.1) = (s.nodes.take p).map (·.1) ++ (s.nodes.drop p).map (·.1) := by
    rw [← List.map_append, List.take_append_drop]
  rw [e]
  exact List.Sublist.append (List.Sublist.refl _) (List.sublist_cons_self _ _)

theorem insertLoop_safe : ∀ {n : Nat} {s : S} {it : Iter} {f : Feed}, f.KeepsNodes → Room s it 0 →
    ∀ u, insertLoop n s it f ≠ .ub u := by
  intro n
  induction n with
  | zero => intro s it f _ _ u; cases f <;> simp [insertLoop]
  | succ n ih =>
    intro s it f hf h u
    cases f with
    | done g => simp [insertLoop]
    | fail g e => simp [insertLoop]
    | item g x k =>
      obtain ⟨hg, hx, hk⟩ := hf
      have h2 := conv_keeps hx (toElem .i32) (g s)
      unfold insertLoop
      rcases hc : conv (toElem .i32) x (g s) with ⟨s', v, e⟩
      rw [hc] at h2
      have hr : Room s' it 0 := room_keep (room_keep h (hg s)) h2
      obtain ⟨p, hp, _⟩ := place_room hr
      simp only [hp]
      cases e with
      | some e => simp
      | none => exact ih (hk s) (room_keep hr (ids_insert_sub s' p v)) u

theorem eraseSome_safe {s : S} {it : Iter} {k : Nat} (h : Room s it k) (pend : Option Exc) (u : UB) :
    eraseSome s it k pend ≠ .ub u := by
  obtain ⟨p, hp, h1, _⟩ := place_room h
  unfold eraseSome
  simp only [hp, walkFwd_ok _ _ _ h1]
  cases pend <;> simp

/-! ## Plain sequences -/

theorem place_iterAt {s : S} (h : s.WF) {p : Nat} (hp : p ≤ s.size) : place s (iterAt s p) = .ok p := by
  unfold iterAt
  by_cases hq : p < s.ids.length
  · have e : s.ids[p]? = some s.ids[p] := List.getElem?_eq_getElem hq
    rw [e]
    simp only [place, idxOf?_of_getElem? h.1 e]
  · rw [List.getElem?_eq_none (by omega)]
    rw [LState.length_ids] at hq
    show Except.ok s.size = _
    rw [show s.size = p by omega]

theorem size_assign (s : S) (p : Nat) (v : Int) : (s.assign p v).size = s.size := by
  rw [← LState.length_ids, LState.ids_assign, LState.length_ids]

theorem write_iterAt {s : S} (h : s.WF) {p : Nat} (hp : p < s.size) (v : Int) :
    write s (iterAt s p) v = .ok (s.assign p v) := by
  simp only [write, place_iterAt h (Nat.le_of_lt hp), if_pos hp]

theorem succ_iterAt {s : S} (h : s.WF) {p : Nat} (hp : p < s.size) : succ s (iterAt s p) = .ok (iterAt s (p + 1)) := by
  simp only [succ, place_iterAt h (Nat.le_of_lt hp), if_pos hp]

theorem deref_iterAt {s : S} (h : s.WF) {p : Nat} (hp : p < s.vals.length) : deref s (iterAt s p) = .ok s.vals[p] := by
  simp only [deref, place_iterAt h (show p ≤ s.size by rw [← LState.length_vals]; omega), List.getElem?_eq_getElem hp]

theorem iterAt_assign (s : S) (p q : Nat) (v : Int) : iterAt (s.assign p v) q = iterAt s q := by
  unfold iterAt; rw [LState.ids_assign]

theorem assignLoop_of {cfg : Cfg} {p : Nat} {xs : List Arg} : ∀ {n i : Nat} {s : S} {vs : List Int}, s.WF →
    p + i + n ≤ s.size → (∀ j, xs[i + j]? = vs[j]?.map Arg.index) →
    forget (assignLoop n s (iterAt s (p + i)) (.of vs)) = LinkedList.assignLoop cfg (.seq xs) p n i s ∧
    (∀ s' it f, assignLoop n s (iterAt s (p + i)) (.of vs) = .ok (s', it, f) () →
      f = .of (vs.drop n) ∧ it = iterAt s' (p + i + n) ∧ s'.WF ∧ s'.size = s.size) := by
  intro n
  induction n with
  | zero =>
    intro i s vs hw _ _
    have e : assignLoop 0 s (iterAt s (p + i)) (.of vs) = .ok (s, iterAt s (p + i), .of vs) () := by cases vs <;> rfl
    refine ⟨by rw [e]; rfl, ?_⟩
    intro s' it f h
    rw [e] at h
    simp only [Out.ok.injEq, Prod.mk.injEq, and_true] at h
    obtain ⟨rfl, rfl, rfl⟩ := h
    exact ⟨by rw [List.drop_zero], rfl, hw, rfl⟩
  | succ n ih =>
    intro i s vs hw hb hv
    have h0 := hv 0
    cases vs with
    | nil =>
      simp only [Nat.add_zero, List.getElem?_nil, Option.map_none] at h0
      refine ⟨by simp [Foreign.Feed.of, assignLoop, forget, LinkedList.assignLoop, LinkedList.srcItem, ArrayList.srcItem, h0], ?_⟩
      intro s' it f h
      simp [Foreign.Feed.of, assignLoop] at h
    | cons v vs =>
      simp only [Nat.add_zero, List.getElem?_cons_zero, Option.map_some] at h0
      have hv' : ∀ j, xs[i + 1 + j]? = vs[j]?.map Arg.index := by
        intro j
        have := hv (j + 1)
        rw [List.getElem?_cons_succ] at this
        rw [← this]
        congr 1
        omega
      have hlt : p + i < s.size := by omega
      simp only [Foreign.Feed.of, assignLoop, LinkedList.assignLoop, LinkedList.srcItem, ArrayList.srcItem, h0, Option.map_some,
        id, conv_of]
      rcases toElem .i32 (.index v) with ⟨w, e⟩
      simp only [write_iterAt hw hlt, hlt, if_true]
      cases e with
      | some e => exact ⟨rfl, by intro s' it f h; simp at h⟩
      | none =>
        have hw' := LState.wf_assign hw (p + i) w
        have hs' := size_assign s (p + i) w
        dsimp only
        rw [← iterAt_assign s (p + i) (p + i) w]
        simp only [succ_iterAt hw' (by rw [hs']; exact hlt)]
        have := ih (i := i + 1) (s := s.assign (p + i) w) hw' (by rw [hs']; omega) hv'
        refine ⟨this.1, fun s' it f h => ?_⟩
        obtain ⟨h1, h2, h3, h4⟩ := this.2 s' it f h
        exact ⟨by simpa using h1, by rw [h2]; congr 1; omega, h3, by rw [h4, hs']⟩

theorem iterAt_insert {s : S} {p : Nat} (hp : p ≤ s.size) (v : Int) : iterAt (s.insert p v) (p + 1) = iterAt s p := by
  unfold iterAt LState.ids LState.insert
  dsimp only
  have : (s.nodes.take p).length = p := by rw [List.length_take]; unfold LState.size at hp; omega
  rw [List.map_append, List.getElem?_append_right (by rw [List.length_map]; omega), List.length_map, this,
    show p + 1 - p = 0 + 1 by omega, List.map_cons, List.getElem?_cons_succ, List.map_drop, List.getElem?_drop]
  rfl

theorem size_insert {s : S} {p : Nat} (hp : p ≤ s.size) (v : Int) : (s.insert p v).size = s.size + 1 := by
  unfold LState.size LState.insert at *
  simp only [List.length_append, List.length_take, List.length_cons, List.length_drop]
  omega

theorem insertLoop_of {cfg : Cfg} {p : Nat} {xs : List Arg} : ∀ {n i : Nat} {s : S} {vs : List Int}, s.WF →
    p + i ≤ s.size → (∀ j, xs[i + j]? = vs[j]?.map Arg.index) →
    insertLoop n s (iterAt s (p + i)) (.of vs) = LinkedList.insertLoop cfg (.seq xs) p n i s := by
  intro n
  induction n with
  | zero => intro i s vs _ _ _; cases vs <;> rfl
  | succ n ih =>
    intro i s vs hw hb hv
    have h0 := hv 0
    cases vs with
    | nil =>
      simp only [Nat.add_zero, List.getElem?_nil, Option.map_none] at h0
      simp [Foreign.Feed.of, insertLoop, LinkedList.insertLoop, LinkedList.srcItem, ArrayList.srcItem, h0]
    | cons v vs =>
      simp only [Nat.add_zero, List.getElem?_cons_zero, Option.map_some] at h0
      have hv' : ∀ j, xs[i + 1 + j]? = vs[j]?.map Arg.index := by
        intro j
        have := hv (j + 1)
        rw [List.getElem?_cons_succ] at this
        rw [← this]
        congr 1
        omega
      simp only [Foreign.Feed.of, insertLoop, LinkedList.insertLoop, LinkedList.srcItem, ArrayList.srcItem, h0, Option.map_some,
        id, conv_of, place_iterAt hw hb, hb, if_true]
      rcases toElem .i32 (.index v) with ⟨w, e⟩
      cases e with
      | some e => rfl
      | none =>
        dsimp only
        rw [← iterAt_insert hb w]
        exact ih (LState.wf_insert hw (p + i) w) (by rw [size_insert hb]; omega) hv'

/-! ## Comparisons -/

theorem eqLoop_safe : ∀ {n : Nat} {s : S} {it : Iter} {f : Feed}, f.KeepsNodes → Room s it n →
    ∀ u, eqLoop n s it f ≠ .ub u := by
  intro n
  induction n with
  | zero => intro s it f _ _ u; cases f <;> simp [eqLoop]
  | succ n ih =>
    intro s it f hf h u
    cases f with
    | done g => simp [eqLoop]
    | fail g e => simp [eqLoop]
    | item g x k =>
      obtain ⟨hg, hx, hk⟩ := hf
      have h1 := room_keep h (hg s)
      have h2 := conv_keeps hx (toElem .i32) (g s)
      obtain ⟨a, ha⟩ := deref_room h1
      unfold eqLoop
      simp only [ha]
      rcases hc : conv (toElem .i32) x (g s) with ⟨s', v, e⟩
      rw [hc] at h2
      cases e with
      | some e => simp
      | none =>
        dsimp only
        split_ifs
        · simp
        · obtain ⟨it', h3, h4⟩ := succ_room (room_keep h1 h2)
          simp only [h3]
          exact ih (hk s) h4 u

theorem ordLoop_safe {op : CmpOp} : ∀ {n : Nat} {s : S} {it : Iter} {p : Option Exc} {f : Feed}, f.KeepsNodes → Room s it n →
    ∀ u, ordLoop op n s it p f ≠ .ub u := by
  intro n
  induction n with
  | zero => intro s it p f _ _ u; cases f <;> cases p <;> simp [ordLoop, boolOut]
  | succ n ih =>
    intro s it p f hf h u
    cases f with
    | done g => simp [ordLoop]
    | fail g e => simp [ordLoop]
    | item g x k =>
      obtain ⟨hg, hx, hk⟩ := hf
      have h1 := room_keep h (hg s)
      have h2 := conv_keeps hx (toElem .i32) (g s)
      obtain ⟨a, ha⟩ := deref_room h1
      unfold ordLoop
      simp only [ha]
      rcases hc : conv (toElem .i32) x (g s) with ⟨s', v, e⟩
      rw [hc] at h2
      dsimp only
      split_ifs
      · cases e <;> cases p <;> simp [boolOut]
      · obtain ⟨it', h3, h4⟩ := succ_room (room_keep h1 h2)
        simp only [h3]
        exact ih (hk s) h4 u

/-- `==` answers (with or without an exception left behind) unless fetching an item fails. -/
theorem eqLoop_answers : ∀ {n : Nat} {s : S} {it : Iter} {f : Feed}, f.Endless →
    (∃ s' b, eqLoop n s it f = .ok s' (.bool b)) ∨ (∃ s' b e, eqLoop n s it f = .pending s' (.bool b) e) ∨
      (∃ u, eqLoop n s it f = .ub u) := by
  intro n
  induction n with
  | zero => intro s it f _; exact .inl ⟨s, true, by cases f <;> rfl⟩
  | succ n ih =>
    intro s it f hf
    cases f with
    | done g => exact hf.elim
    | fail g e => exact hf.elim
    | item g x k =>
      unfold eqLoop
      cases deref (g s) it with
      | error u => exact .inr (.inr ⟨_, rfl⟩)
      | ok a =>
        rcases conv (toElem .i32) x (g s) with ⟨s', v, e⟩
        cases e with
        | some e => exact .inr (.inl ⟨_, _, _, rfl⟩)
        | none =>
          dsimp only
          split_ifs
          · exact .inl ⟨_, _, rfl⟩
          · cases succ s' it with
            | error u => exact .inr (.inr ⟨_, rfl⟩)
            | ok it' => exact ih (hf s)

theorem eqLoop_of {s : S} (hw : s.WF) : ∀ {n i : Nat} {vs : List Int}, vs.length = n → i + n = s.vals.length →
    eqLoop n s (iterAt s i) (.of vs) =
      boolOut s (ArrayList.eqLoop (s.vals.drop i) (vs.map fun v => toElem .i32 (.index v))).1
        (ArrayList.eqLoop (s.vals.drop i) (vs.map fun v => toElem .i32 (.index v))).2 := by
  intro n
  induction n with
  | zero =>
    intro i vs hv hi
    obtain rfl := List.eq_nil_of_length_eq_zero hv
    rw [List.drop_eq_nil_of_le (by omega)]
    rfl
  | succ n ih =>
    intro i vs hv hi
    cases vs with
    | nil => simp at hv
    | cons v vs =>
      have hlt : i < s.vals.length := by omega
      rw [List.drop_eq_getElem_cons hlt]
      simp only [Foreign.Feed.of, eqLoop, id, deref_iterAt hw hlt, conv_of, List.map_cons, ArrayList.eqLoop]
      rcases toElem .i32 (.index v) with ⟨w, e⟩
      cases e with
      | some e => rfl
      | none =>
        dsimp only
        by_cases h : s.vals[i] = w
        · simp only [h, ne_eq, not_true_eq_false, if_false, succ_iterAt hw (show i < s.size by rw [← LState.length_vals]; omega)]
          exact ih (by simpa using hv) (by omega)
        · simp only [h, ne_eq, not_false_eq_true, if_true]
          rfl

theorem ordLoop_of {op : CmpOp} {s : S} (hw : s.WF) : ∀ {n i : Nat} {vs : List Int} {p : Option Exc},
    vs.length = n → i + n = s.vals.length →
    ordLoop op n s (iterAt s i) p (.of vs) =
      match ArrayList.ordLoop op (s.vals.drop i) (vs.map fun v => toElem .i32 (.index v)) p with
      | (some b, p) => boolOut s b p
      | (none, p) => boolOut s false p := by
  intro n
  induction n with
  | zero =>
    intro i vs p hv hi
    obtain rfl := List.eq_nil_of_length_eq_zero hv
    rw [List.drop_eq_nil_of_le (by omega)]
    rfl
  | succ n ih =>
    intro i vs p hv hi
    cases vs with
    | nil => simp at hv
    | cons v vs =>
      have hlt : i < s.vals.length := by omega
      rw [List.drop_eq_getElem_cons hlt]
      simp only [Foreign.Feed.of, ordLoop, id, deref_iterAt hw hlt, conv_of, List.map_cons, ArrayList.ordLoop]
      by_cases h : s.vals[i] = (toElem .i32 (.index v)).1
      · simp only [h, ne_eq, not_true_eq_false, if_false, succ_iterAt hw (show i < s.size by rw [← LState.length_vals]; omega)]
        exact ih (by simpa using hv) (by omega)
      · simp only [h, ne_eq, not_false_eq_true, if_true]

end Verif.ForeignLinked
