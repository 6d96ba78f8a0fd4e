import Verif.Lemmas.Ledger
import Verif.Spec.LedgerHistory
import Verif.Lemmas.ExactLinked
import Verif.Spec.LedgerExact

/-! Helper lemmas: how many references the calls of an IntLinkedList lose. -/

namespace Verif.Ledger.Lnk

open LinkedList (S seen)

/-- The first `N` elements of an operand of the class can be fetched. -/
def Good (src : Operand) (cur : S) (N : Nat) : Prop :=
  (∃ v, src = .same v ∧ N ≤ v.length ∧ ∀ x ∈ v, FitsS 32 x) ∨
    (src = .self ∧ N ≤ cur.vals.length ∧ ∀ x ∈ cur.vals, FitsS 32 x)

theorem Good.at {src : Operand} {cur : S} {N i : Nat} (g : Good src cur N) (h : i < N) :
    ∃ v, elemAt cur.vals src i = some (.own v) ∧ FitsS 32 v := by
  rcases g with ⟨v, rfl, hn, hf⟩ | ⟨rfl, hn, hf⟩
  · have hi : i < v.length := by omega
    exact ⟨v[i], by simp [elemAt, hi], hf _ (List.getElem_mem hi)⟩
  · have hi : i < cur.vals.length := by omega
    exact ⟨cur.vals[i], by simp only [elemAt, List.getElem?_eq_getElem hi, Option.map_some], hf _ (List.getElem_mem hi)⟩

theorem convert_own (cfg : Cfg) {v : Int} (h : FitsS 32 v) :
    ∃ z, convert .i32 cfg (.own v) = (z, none) ∧ FitsS 32 z := by
  refine ⟨seen cfg v, LinkedList.rebox_seen cfg h, ?_⟩
  have hz := LinkedList.rebox_seen cfg h
  unfold rebox at hz
  dsimp only at hz
  split at hz
  · injection hz with hz _
    rw [← hz]; exact wrapS_fits .i32 _
  · cases congrArg Prod.snd hz

theorem Good.assign {src : Operand} {cur : S} {N q : Nat} {z : Int} (g : Good src cur N) (hz : FitsS 32 z) :
    Good src (cur.assign q z) N := by
  rcases g with g | ⟨rfl, hn, hf⟩
  · exact .inl g
  · refine .inr ⟨rfl, by simpa using hn, fun x hx => ?_⟩
    rw [LState.vals_assign] at hx
    rcases List.mem_or_eq_of_mem_set hx with hx | rfl
    · exact hf x hx
    · exact hz

theorem Good.insert {src : Operand} {cur : S} {N q : Nat} {z : Int} (g : Good src cur N) (hz : FitsS 32 z) :
    Good src (cur.insert q z) N := by
  rcases g with g | ⟨rfl, hn, hf⟩
  · exact .inl g
  · refine .inr ⟨rfl, ?_, fun x hx => ?_⟩
    · rw [LState.vals_insert]
      simp only [List.length_append, List.length_take, List.length_cons, List.length_drop]
      omega
    · rw [LState.vals_insert] at hx
      rcases List.mem_append.1 hx with hx | hx
      · exact hf x (List.mem_of_mem_take hx)
      · rcases List.mem_cons.1 hx with rfl | hx
        · exact hz
        · exact hf x (List.mem_of_mem_drop hx)

theorem Good.known {src : Operand} {cur : S} {N n : Nat} (g : Good src cur N) : src.Known n := by
  rcases g with ⟨v, rfl, -⟩ | ⟨rfl, -⟩ <;> trivial

/-- Overwriting `n` elements from a list of the class loses `n` references. -/
theorem assignLoop_lost (cfg : Cfg) {w : World} {src : Operand} (p : Nat) {N n i : Nat} {cur : S} {m : Mem}
    (h : m.WF) (hw : w.Ready m.next) (g : Good src cur N) (hi : i + n ≤ N) :
    (∃ u, assignLoop cfg w src p n i cur m = .ub u) ∨
      ∃ s' m' leak, assignLoop cfg w src p n i cur m = .ok (s', m') .none ∧ Good src s' N ∧ Grow m m' leak ∧ leak.length = n := by
  induction n generalizing i cur m with
  | zero => exact .inr ⟨cur, m, [], rfl, g, Grow.refl m, rfl⟩
  | succ n ih =>
    obtain ⟨v, ha, hv⟩ := g.at (i := i) (by omega)
    obtain ⟨z, hc, hz⟩ := convert_own cfg hv
    obtain ⟨m1, e1, g1⟩ := fetch_round true .i32 cfg h hw (a := .own v) trivial
    simp only [assignLoop, ha, e1, hc]
    split
    · rcases ih (g1.wf h) (hw.mono g1.le) (g.assign (q := p + i) hz) (i := i + 1) (by omega) with
        hu | ⟨s', m', leak, e2, a, b, c⟩
      · exact .inl hu
      · exact .inr ⟨s', m', _, e2, a, g1.trans b, by rw [List.length_append, c]; rfl⟩
    · exact .inl ⟨_, rfl⟩

/-- The same for insertion. -/
theorem insertLoop_lost (cfg : Cfg) {w : World} {src : Operand} (p : Nat) {N n i : Nat} {cur : S} {m : Mem}
    (h : m.WF) (hw : w.Ready m.next) (g : Good src cur N) (hi : i + n ≤ N) :
    (∃ u, insertLoop cfg w src p n i cur m = .ub u) ∨
      ∃ s' m' leak, insertLoop cfg w src p n i cur m = .ok (s', m') .none ∧ Grow m m' leak ∧ leak.length = n := by
  induction n generalizing i cur m with
  | zero => exact .inr ⟨cur, m, [], rfl, Grow.refl m, rfl⟩
  | succ n ih =>
    obtain ⟨v, ha, hv⟩ := g.at (i := i) (by omega)
    obtain ⟨z, hc, hz⟩ := convert_own cfg hv
    obtain ⟨m1, e1, g1⟩ := fetch_round true .i32 cfg h hw (a := .own v) trivial
    simp only [insertLoop, ha, e1, hc]
    split
    · rcases ih (g1.wf h) (hw.mono g1.le) (g.insert (q := p + i) hz) (i := i + 1) (by omega) with
        hu | ⟨s', m', leak, e2, b, c⟩
      · exact .inl hu
      · exact .inr ⟨s', m', _, e2, g1.trans b, by rw [List.length_append, c]; rfl⟩
    · exact .inl ⟨_, rfl⟩

/-- Slice assignment from a list of the class with `N` elements. -/
theorem setSlice_lost (cfg : Cfg) {w : World} (s : S) {m : Mem} (h : m.WF) (hw : w.Ready m.next)
    (sl : SliceArg) {src : Operand} {N : Nat} (g : Good src s N) (hN : Arr.sizeOf s.vals src = some (N : Int)) :
    (∃ u, setSlice cfg w s m sl src = .ub u) ∨ (∃ e, setSlice cfg w s m sl src = .exc (s, m) e) ∨
      ∃ s' m' leak, setSlice cfg w s m sl src = .ok (s', m') .none ∧ Grow m m' leak ∧ leak.length = N := by
  unfold setSlice
  rw [hN]
  rcases sliceUnpack sl with e | ⟨start, stop, step⟩
  · exact .inr (.inl ⟨_, rfl⟩)
  · simp only
    rcases hq : adjustIndices s.size start stop step with ⟨start', stop', n⟩
    simp only
    split
    · exact .inr (.inl ⟨_, rfl⟩)
    · next hst =>
      rw [Classical.not_not] at hst
      subst hst
      have hn0 : 0 ≤ n := by have := (LinkedList.adjust_one hq).2.2.2.2; omega
      clear hq
      rcases listAt s.size start'.toNat with u | p
      · exact .inl ⟨_, rfl⟩
      · simp only
        split
        · next hk =>
          rcases assignLoop_lost cfg p (n := n.toNat) (i := 0) h hw g (by omega) with hu | ⟨s', m', leak, e, _, a, b⟩
          · exact .inl hu
          · exact .inr (.inr ⟨s', m', leak, e, a, by omega⟩)
        · split
          · next hk hk' =>
            rcases assignLoop_lost cfg p (n := (N : Int).toNat) (i := 0) h hw g (by omega) with
              ⟨u, e⟩ | ⟨s', m', leak, e, _, a, b⟩
            · rw [e]; exact .inl ⟨_, rfl⟩
            · rw [e]
              dsimp only
              rcases walkFwd s'.size (n - N).toNat (p + (N : Int).toNat) with u | q
              · exact .inl ⟨_, rfl⟩
              · dsimp only
                rw [if_neg (by omega)]
                exact .inr (.inr ⟨_, m', leak, rfl, a, by omega⟩)
          · next hk hk' =>
            rcases assignLoop_lost cfg p (n := n.toNat) (i := 0) h hw g (by omega) with
              ⟨u, e⟩ | ⟨s', m', leak, e, g', a, b⟩
            · rw [e]; exact .inl ⟨_, rfl⟩
            · rw [e]
              dsimp only
              rcases insertLoop_lost cfg p (n := ((N : Int) - n).toNat) (i := n.toNat) (a.wf h) (hw.mono a.le) g' (by omega) with
                hu | ⟨s2, m2, leak2, e2, a2, b2⟩
              · exact .inl hu
              · exact .inr (.inr ⟨s2, m2, _, e2, a.trans a2, by rw [List.length_append]; omega⟩)

theorem eqLoop_lost (cfg : Cfg) {w : World} {xs ys : List Int} {m : Mem} (h : m.WF) (hw : w.Ready m.next)
    (hf : ∀ y ∈ ys, FitsS 32 y) :
    ∃ b m' leak, eqLoop true .i32 cfg w xs (ys.map .own) m = .ok (b, none, m') ∧ Grow m m' leak ∧
      leak.length = looked xs (ys.map (seen cfg)) := by
  induction xs generalizing ys m with
  | nil => exact ⟨true, m, [], by cases ys <;> rfl, Grow.refl m, by cases ys <;> rfl⟩
  | cons x xs ih =>
    cases ys with
    | nil => exact ⟨true, m, [], rfl, Grow.refl m, rfl⟩
    | cons y ys =>
      obtain ⟨m1, e1, g1⟩ := fetch_round true .i32 cfg h hw (a := .own y) trivial
      have hc : convert .i32 cfg (.own y) = (seen cfg y, none) := LinkedList.rebox_seen cfg (hf y (by simp))
      simp only [List.map_cons, eqLoop, e1, hc, looked]
      by_cases hxy : x = seen cfg y
      · rw [if_neg (by simpa using hxy), if_pos hxy]
        obtain ⟨b, m2, leak, e2, g2, l2⟩ := ih (ys := ys) (g1.wf h) (hw.mono g1.le) (fun y hy => hf y (by simp [hy]))
        exact ⟨b, m2, _, e2, g1.trans g2, by rw [List.length_append, l2]; rfl⟩
      · rw [if_pos hxy, if_neg hxy]
        exact ⟨false, m1, _, rfl, g1, rfl⟩

theorem ordLoop_lost (cfg : Cfg) {w : World} (op : CmpOp) {xs ys : List Int} {m : Mem} (h : m.WF) (hw : w.Ready m.next)
    (hf : ∀ y ∈ ys, FitsS 32 y) :
    ∃ b m' leak, ordLoop true .i32 cfg w op xs (ys.map .own) none m = .ok (b, none, m') ∧ Grow m m' leak ∧
      leak.length = looked xs (ys.map (seen cfg)) := by
  induction xs generalizing ys m with
  | nil => exact ⟨none, m, [], by cases ys <;> rfl, Grow.refl m, by cases ys <;> rfl⟩
  | cons x xs ih =>
    cases ys with
    | nil => exact ⟨none, m, [], rfl, Grow.refl m, rfl⟩
    | cons y ys =>
      obtain ⟨m1, e1, g1⟩ := fetch_round true .i32 cfg h hw (a := .own y) trivial
      have hc : convert .i32 cfg (.own y) = (seen cfg y, none) := LinkedList.rebox_seen cfg (hf y (by simp))
      simp only [List.map_cons, ordLoop, e1, hc, looked]
      by_cases hxy : x = seen cfg y
      · rw [if_neg (by simpa using hxy), if_pos hxy]
        obtain ⟨b, m2, leak, e2, g2, l2⟩ := ih (ys := ys) (g1.wf h) (hw.mono g1.le) (fun y hy => hf y (by simp [hy]))
        exact ⟨b, m2, _, e2, g1.trans g2, by rw [List.length_append, l2]; rfl⟩
      · rw [if_pos hxy, if_neg hxy]
        exact ⟨_, m1, _, rfl, g1, rfl⟩

theorem elems_own {s : S} {src : Operand} {v : List Int} (h : src.own s.vals = some v) :
    elems s src = some (v.map .own) := by
  cases src <;> cases h <;> rfl

/-- Comparison with a list of the class. -/
theorem compare_lost (cfg : Cfg) {w : World} (op : CmpOp) (s : S) {m : Mem} (h : m.WF) (hw : w.Ready m.next)
    {src : Operand} {v : List Int} (hv : src.own s.vals = some v) (hf : ∀ x ∈ v, FitsS 32 x) :
    ∃ b m' leak, compare cfg w op s m src = .ok (s, m') (.bool b) ∧ Grow m m' leak ∧
      leak.length = if v.length = s.vals.length then looked s.vals (v.map (seen cfg)) else 0 := by
  have he : ∀ neg, ∃ b m' leak, eq neg cfg w s m (v.map .own) = .ok (s, m') (.bool b) ∧ Grow m m' leak ∧
      leak.length = if v.length = s.vals.length then looked s.vals (v.map (seen cfg)) else 0 := fun neg => by
    unfold eq
    rw [List.length_map, LState.length_vals]
    by_cases hn : v.length = s.size
    · obtain ⟨b, m', leak, e, g, l⟩ := eqLoop_lost cfg (xs := s.vals) h hw hf
      rw [if_neg (by simpa using hn), if_pos hn, e]
      exact ⟨_, m', leak, rfl, g, l⟩
    · rw [if_pos hn, if_neg hn]
      exact ⟨_, m, [], rfl, Grow.refl m, rfl⟩
  have ho : ∀ op, ∃ b m' leak, ord op cfg w s m (v.map .own) = .ok (s, m') (.bool b) ∧ Grow m m' leak ∧
      leak.length = if v.length = s.vals.length then looked s.vals (v.map (seen cfg)) else 0 := fun op => by
    unfold ord
    rw [List.length_map, LState.length_vals]
    by_cases hn : v.length = s.size
    · obtain ⟨b, m', leak, e, g, l⟩ := ordLoop_lost cfg op (xs := s.vals) h hw hf
      rw [if_neg (by simpa using hn.symm), if_pos hn, e]
      cases b with
      | none => exact ⟨_, m', leak, rfl, g, l⟩
      | some b => exact ⟨_, m', leak, rfl, g, l⟩
    · rw [if_pos (fun h => hn h.symm), if_neg hn]
      exact ⟨_, m, [], rfl, Grow.refl m, rfl⟩
  unfold compare
  rw [elems_own hv]
  cases op with
  | eq => exact he false
  | ne => exact he true
  | lt => exact ho .lt
  | le => exact ho .le
  | gt => exact ho .gt
  | ge => exact ho .ge

/-- Results with an additional reference for every int. -/
theorem plain_lost {w : World} {m : Mem} (h : m.WF) (hw : w.Ready m.next) (hs : w.self < m.next)
    (hl : m.heap.live w.self = true) {out : Out σ Ret} (hr : ∀ r, ret? out = some r → Direct r) :
    ∃ leak, Sound w.self m (plain true true w m out) leak ∧
      leak.length = match ret? (plain true true w m out) with | some v => v.ints | none => 0 := by
  have hd : ∀ r, Direct r → ∃ m' v leak, deliver true true w m r = .ok (m', v) ∧ Grow m m' (v.refs w.self ++ leak) ∧
      leak.length = v.ints := by
    intro r hr
    cases r with
    | none => exact ⟨m, .none, [], rfl, Grow.refl m, rfl⟩
    | self =>
      obtain ⟨m', e, a⟩ := incref_grow hs hl
      exact ⟨m', .self, [], by simp [deliver, e], by simpa [Val.refs] using a, rfl⟩
    | int p => exact ⟨_, _, [(boxFor true w m p).2], rfl, boxFor_grow true h hw p, rfl⟩
    | bool b => exact ⟨m, .bool b, [], rfl, Grow.refl m, rfl⟩
    | pylist ps =>
      have a := make_grow h
      have b := boxAll_grow true (ps := ps) (a.wf h) (hw.mono a.le)
      exact ⟨_, _, extraRefs true (boxAll true w ps m.make.1).2, rfl,
        (a.trans b).perm (List.perm_append_comm (l₂ := [_])), rfl⟩
    | pyconcat ps as => exact absurd hr id
    | newList l => exact ⟨_, _, [], rfl, make_grow h, rfl⟩
    | str l => exact ⟨_, _, [], rfl, make_grow h, rfl⟩
  cases out with
  | ok s r =>
    obtain ⟨m', v, leak, e, b, c⟩ := hd r (hr r rfl)
    simp only [plain, e]
    exact ⟨leak, Sound.ok b, c⟩
  | exc s e => exact ⟨[], Sound.exc (Grow.refl m), rfl⟩
  | pending s r e' =>
    obtain ⟨m', v, leak, e, b, c⟩ := hd r (hr r rfl)
    simp only [plain, e]
    exact ⟨leak, Sound.pending b, c⟩
  | ub u => exact ⟨[], Sound.ub, rfl⟩

/-- The references lost by every call. -/
theorem step_lost (cfg : Cfg) (strict : Bool) {w : World} (s : S) {m : Mem} (h : m.WF) (hw : w.Ready m.next)
    (hs : w.self < m.next) (hl : m.heap.live w.self = true) {c : Call} (hk : c.Known m.next) (hf : c.Stored s.vals) :
    ∃ leak, Sound w.self m (step cfg strict w s m c) leak ∧
      ((step cfg strict w s m c).state?.isSome → leak.length = lost cfg s.vals c (ret? (step cfg strict w s m c))) := by
  obtain ⟨_, l0, b0, c0⟩ := step_ok cfg strict s h hw hs hl hk
  cases c with
  | extend src => exact ⟨l0, b0, fun _ => by rw [c0 id]; rfl⟩
  | iadd src => exact ⟨l0, b0, fun _ => by rw [c0 id]; rfl⟩
  | add src =>
    obtain ⟨_, leak, b, e⟩ := add_ok true s h hw (LinkedList.toList cfg s) (src := src) hk
    refine ⟨leak, b, fun _ => ?_⟩
    rw [e]
    have hb : (extraRefs true (boxAll true w (LinkedList.toList cfg s) m.make.1).2).length = s.vals.length := by
      show (boxAll true w (LinkedList.toList cfg s) m.make.1).2.length = _
      rw [boxAll_length]
      simp [LinkedList.toList]
    cases src with
    | same v => rfl
    | self => rfl
    | items sh o it xs => exact hb
    | notIterable => exact hb
  | setSlice sl src =>
    cases hv : src.own s.vals with
    | none =>
      refine ⟨l0, b0, fun _ => ?_⟩
      rw [c0 (by cases src <;> first | exact id | cases hv)]
      simp only [lost, hv]
      rfl
    | some v =>
      have g : Good src s v.length := by
        have := hf v hv
        cases src with
        | same v' => cases hv; exact .inl ⟨_, rfl, Nat.le_refl _, this⟩
        | self => cases hv; exact .inr ⟨rfl, Nat.le_refl _, this⟩
        | _ => cases hv
      have hN : Arr.sizeOf s.vals src = some (v.length : Int) := by cases src <;> cases hv <;> rfl
      simp only [step, lost, hv]
      rcases setSlice_lost cfg s h hw sl g hN with ⟨u, e⟩ | ⟨e', e⟩ | ⟨s', m', leak, e, a, b⟩
      · rw [e]; exact ⟨[], Sound.ub, nofun⟩
      · rw [e]; exact ⟨[], Sound.exc (Grow.refl m), fun _ => rfl⟩
      · rw [e]; exact ⟨leak, Sound.ok a, fun _ => b⟩
  | cmp op src =>
    cases hv : src.own s.vals with
    | none =>
      refine ⟨l0, b0, fun _ => ?_⟩
      rw [c0 (by cases src <;> first | exact id | cases hv)]
      simp only [lost, hv]
      rfl
    | some v =>
      simp only [step, lost, hv]
      obtain ⟨b, m', leak, e, g, l⟩ := compare_lost cfg op s h hw hv (hf v hv)
      rw [e]
      exact ⟨leak, Sound.ok g, fun _ => l⟩
  | plain op =>
    have hd := direct cfg strict s hk
    cases op with
    | get k =>
      obtain ⟨leak, b, l⟩ := plain_lost h hw hs hl hd
      exact ⟨leak, b, fun _ => l⟩
    | toList =>
      obtain ⟨leak, b, l⟩ := plain_lost h hw hs hl hd
      exact ⟨leak, b, fun _ => l⟩
    | _ => exact ⟨l0, b0, fun _ => by rw [c0 id]; rfl⟩

/-- Histories of calls that may lose references: `n` in all. -/
theorem lostHist_ok (cfg : Cfg) (strict : Bool) {self : Obj} {s s'' : S} {m m'' : Mem} {got gone : List Obj} {n : Nat}
    (hh : LostHist (step cfg strict) LState.vals cfg self s m got gone n s'' m'') (h : m.WF) :
    m''.WF ∧ m''.heap.imm = m.heap.imm ∧ m.next ≤ m''.next ∧ ∃ leak : List Obj, leak.length = n ∧ (∀ o ∈ leak, o < m''.next) ∧
      ∀ o, m.heap.imm o = false → m''.heap.rc o + gone.count o = m.heap.rc o + got.count o + leak.count o := by
  induction hh with
  | nil => exact ⟨h, rfl, Nat.le_refl _, [], rfl, nofun, fun o _ => by simp⟩
  | @call w c s m s' m' got gone n s'' m'' hs hr hok e _ ih =>
    subst hs
    obtain ⟨l1, a1, b1⟩ := step_lost cfg strict s h hr.ints hr.self hr.live hr.known hok
    have g := a1 s' m' e
    obtain ⟨h1, h2, h3, l2, h4, h5, h6⟩ := ih (g.wf h)
    have hl : l1.length = lost cfg s.vals c (result? (step cfg strict w s m c)) := by
      rw [b1 (by rw [e]; rfl)]
      congr 1
      cases step cfg strict w s m c <;> rfl
    refine ⟨h1, h2.trans g.imm, Nat.le_trans g.le h3, l1 ++ l2, by rw [List.length_append, hl, h4], ?_, fun o ho => ?_⟩
    · intro o ho
      rcases List.mem_append.1 ho with ho | ho
      · exact Nat.lt_of_lt_of_le (g.lt o (by simp [ho])) h3
      · exact h5 o ho
    · have a := h6 o (by rw [g.imm]; exact ho)
      have b := g.rc o ho
      rw [List.count_append] at b ⊢
      rw [List.count_append]
      omega
  | @release o s m m' got gone n s'' m'' e _ ih =>
    obtain ⟨e1, e2, e3⟩ := drop_inv e
    obtain ⟨h1, h2, h3, l2, h4, h5, h6⟩ := ih (fun x hx => by
      rw [e2] at hx
      obtain ⟨a, b⟩ := h x hx
      have := e3 x b
      refine ⟨by omega, by rw [e1]; exact b⟩)
    refine ⟨h1, h2.trans e1, e2 ▸ h3, l2, h4, h5, fun x hx => ?_⟩
    have a := h6 x (by rw [e1]; exact hx)
    have b := e3 x hx
    have c := Heap.count_cons_int o x gone
    omega
  | @take o s m got gone n s'' m'' hlt _ ih =>
    have g := gain_grow hlt
    obtain ⟨h1, h2, h3, l2, h4, h5, h6⟩ := ih (g.wf h)
    refine ⟨h1, h2.trans g.imm, Nat.le_trans g.le h3, l2, h4, h5, fun x hx => ?_⟩
    have a := h6 x (by rw [g.imm]; exact hx)
    have b := g.rc x hx
    have c := Heap.count_cons_int o x got
    omega
  | @make s m got gone n s'' m'' _ ih =>
    have g := make_grow h
    obtain ⟨h1, h2, h3, l2, h4, h5, h6⟩ := ih (g.wf h)
    refine ⟨h1, h2.trans g.imm, Nat.le_trans g.le h3, l2, h4, h5, fun x hx => ?_⟩
    have a := h6 x (by rw [g.imm]; exact hx)
    have b := g.rc x hx
    have c := Heap.count_cons_int m.make.2 x got
    omega

end Verif.Ledger.Lnk
