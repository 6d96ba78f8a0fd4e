import Verif.Spec.GuardLedger
import Verif.Lemmas.Heap

/-! Helper lemmas: the reference ledger of the int lists. -/

namespace Verif.Ledger

/-- From `m` to `m'` the references `gs` have come. -/
structure Grow (m m' : Mem) (gs : List Obj) : Prop where
  imm : m'.heap.imm = m.heap.imm
  le : m.next ≤ m'.next
  rc : ∀ o, m.heap.imm o = false → m'.heap.rc o = m.heap.rc o + gs.count o
  lt : ∀ g ∈ gs, g < m'.next

theorem Grow.refl (m : Mem) : Grow m m [] := ⟨rfl, Nat.le_refl _, fun o _ => by simp, by simp⟩

theorem Grow.trans {m m' m'' : Mem} {gs gs' : List Obj} (a : Grow m m' gs) (b : Grow m' m'' gs') :
    Grow m m'' (gs' ++ gs) := by
  refine ⟨b.imm.trans a.imm, Nat.le_trans a.le b.le, fun o ho => ?_, fun g hg => ?_⟩
  · rw [b.rc o (by rw [a.imm]; exact ho), a.rc o ho, List.count_append]; omega
  · rcases List.mem_append.1 hg with h | h
    · exact b.lt g h
    · exact Nat.lt_of_lt_of_le (a.lt g h) b.le

theorem Grow.perm {m m' : Mem} {gs gs' : List Obj} (a : Grow m m' gs) (p : gs.Perm gs') : Grow m m' gs' :=
  ⟨a.imm, a.le, fun o ho => by rw [a.rc o ho, p.count_eq], fun g hg => a.lt g (p.mem_iff.2 hg)⟩

theorem Grow.wf {m m' : Mem} {gs : List Obj} (a : Grow m m' gs) (h : m.WF) : m'.WF := fun o ho => by
  obtain ⟨h1, h2⟩ := h o (Nat.le_trans a.le ho)
  refine ⟨?_, by rw [a.imm]; exact h2⟩
  rw [a.rc o h2, h1, List.count_eq_zero_of_not_mem (fun hm => Nat.lt_irrefl _ (Nat.lt_of_lt_of_le (a.lt o hm) ho))]

theorem Grow.balanced {m m' : Mem} {gs : List Obj} (a : Grow m m' gs) :
    Balanced m.heap.imm m.heap.rc m'.heap.rc gs := a.rc

theorem gain_grow {m : Mem} {o : Obj} (h : o < m.next) : Grow m (m.gain o) [o] := by
  have a := Heap.gain_adj m.heap o
  refine ⟨a.1, Nat.le_refl _, fun x hx => ?_, by simpa [Mem.gain] using h⟩
  have := a.2 x hx
  dsimp only at this
  show (m.heap.gain o).rc x = _
  omega

theorem make_grow {m : Mem} (h : m.WF) : Grow m m.make.1 [m.make.2] := by
  refine ⟨rfl, Nat.le_succ _, fun x hx => ?_, by simp [Mem.make]⟩
  show (if x = m.next then 1 else m.heap.rc x) = _
  by_cases e : x = m.next
  · subst e; simp [Mem.make, (h m.next (Nat.le_refl _)).1]
  · rw [if_neg e]; simp [Mem.make, Ne.symm e]

theorem newRef_grow {m : Mem} (h : m.WF) {o : Option Obj} (ho : ∀ x, o = some x → x < m.next) :
    Grow m (m.newRef o).1 [(m.newRef o).2] := by
  cases o with
  | none => exact make_grow h
  | some x => exact gain_grow (ho x rfl)

theorem drop_grow {m m1 : Mem} {o : Obj} {gs : List Obj} (a : Grow m m1 (o :: gs)) :
    ∃ m2, m1.drop o = .ok m2 ∧ Grow m m2 gs := by
  obtain ⟨h', e, b⟩ := Heap.decref_ok (h := m1.heap) (o := o) (by
    by_cases hi : m1.heap.imm o = true
    · exact .inl hi
    · right
      have := a.rc o (by rw [← a.imm]; simpa using hi)
      rw [this]; simp; omega)
  refine ⟨{ m1 with heap := h' }, by simp [Mem.drop, e], b.1.trans a.imm, a.le, fun x hx => ?_, fun g hg =>
    a.lt g (by simp [hg])⟩
  have h1 := b.2 x (by rw [a.imm]; exact hx)
  have h2 := a.rc x hx
  have h3 := Heap.count_cons_int o x gs
  dsimp only at h1 ⊢
  omega

theorem drops_grow {m m1 : Mem} {os gs : List Obj} (a : Grow m m1 (os ++ gs)) :
    ∃ m2, m1.drops os = .ok m2 ∧ Grow m m2 gs := by
  induction os generalizing m1 with
  | nil => exact ⟨m1, rfl, a⟩
  | cons o os ih =>
    obtain ⟨m2, e, b⟩ := drop_grow (gs := os ++ gs) a
    obtain ⟨m3, e', c⟩ := ih b
    exact ⟨m3, by simp [Mem.drops, e, e'], c⟩

theorem incref_grow {m : Mem} {o : Obj} (h : o < m.next) (hl : m.heap.live o = true) :
    ∃ m', m.incref o = .ok m' ∧ Grow m m' [o] := by
  obtain ⟨h', e, a⟩ := Heap.incref_ok (h := m.heap) (o := o) (by simpa [Heap.live] using hl)
  refine ⟨{ m with heap := h' }, by simp [Mem.incref, e], a.1, Nat.le_refl _, fun x hx => ?_, by simpa using h⟩
  have := a.2 x hx
  dsimp only at this ⊢
  omega

/-- Fetch and release. -/
theorem round {m : Mem} (h : m.WF) {o : Option Obj} (ho : ∀ x, o = some x → x < m.next) :
    ∃ m', (m.newRef o).1.drop (m.newRef o).2 = .ok m' ∧ Grow m m' [] :=
  drop_grow (newRef_grow h ho)

theorem Grow.trans0 {m m' m'' : Mem} {gs : List Obj} (a : Grow m m' []) (b : Grow m' m'' gs) : Grow m m'' gs := by
  simpa using a.trans b

theorem Grow.live {m m' : Mem} {gs : List Obj} (a : Grow m m' gs) {o : Obj} (h : m.heap.live o = true) :
    m'.heap.live o = true := by
  unfold Heap.live at h ⊢
  rw [a.imm]
  by_cases hi : m.heap.imm o = true
  · simp [hi]
  · rw [a.rc o (by simpa using hi)]
    simp only [hi, Bool.false_or, decide_eq_true_eq] at h ⊢
    omega

/-! ## Making ints -/

theorem boxFor_grow (extra : Bool) {w : World} {m : Mem} (h : m.WF) (hw : w.Ready m.next) (p : PyLong) :
    Grow m (boxFor extra w m p).1
      ((boxFor extra w m p).2 :: (if extra then [(boxFor extra w m p).2] else [])) := by
  have a : Grow m (m.newRef (w.ready p)).1 [(m.newRef (w.ready p)).2] := newRef_grow h (hw p)
  unfold boxFor boxed
  cases extra with
  | false => simpa using a
  | true => simpa using a.trans (gain_grow (a.lt _ (by simp)))

/-- Additional references of a filled list. -/
def extraRefs (extra : Bool) (os : List Obj) : List Obj := if extra then os else []

theorem World.Ready.mono {w : World} {n n' : Obj} (h : w.Ready n) (l : n ≤ n') : w.Ready n' :=
  fun p o e => Nat.lt_of_lt_of_le (h p o e) l

theorem boxAll_grow (extra : Bool) {w : World} {ps : List PyLong} {m : Mem} (h : m.WF) (hw : w.Ready m.next) :
    Grow m (boxAll extra w ps m).1 ((boxAll extra w ps m).2 ++ extraRefs extra (boxAll extra w ps m).2) := by
  induction ps generalizing m with
  | nil => cases extra <;> exact Grow.refl m
  | cons p ps ih =>
    have a := boxFor_grow extra h hw p
    have b := ih (m := (boxFor extra w m p).1) (a.wf h) (hw.mono a.le)
    have c := a.trans b
    show Grow m (boxAll extra w ps (boxFor extra w m p).1).1 _
    refine c.perm ?_
    show List.Perm _ (((boxFor extra w m p).2 :: (boxAll extra w ps (boxFor extra w m p).1).2) ++
      extraRefs extra ((boxFor extra w m p).2 :: (boxAll extra w ps (boxFor extra w m p).1).2))
    cases extra with
    | false => simp [extraRefs]
    | true =>
      simp only [extraRefs, if_true]
      refine List.perm_iff_count.2 fun x => ?_
      simp only [List.count_append, List.count_cons, List.count_nil]
      omega

theorem boxAll_length (extra : Bool) (w : World) (ps : List PyLong) (m : Mem) : (boxAll extra w ps m).2.length = ps.length := by
  induction ps generalizing m with
  | nil => rfl
  | cons p ps ih => exact congrArg (· + 1) (ih (boxFor extra w m p).1)

/-- Ints are ready ones or new. -/
theorem boxAll_old (extra : Bool) {w : World} {n : Obj} {ps : List PyLong} {m : Mem} (h : m.WF) (hw : w.Ready n)
    (hn : n ≤ m.next) : ∀ o ∈ (boxAll extra w ps m).2, o < n ∨ m.next ≤ o := by
  induction ps generalizing m with
  | nil => intro o ho; cases ho
  | cons p ps ih =>
    intro o ho
    have a := boxFor_grow extra h (hw.mono hn) p
    rcases List.mem_cons.1 (show o ∈ (boxFor extra w m p).2 :: (boxAll extra w ps (boxFor extra w m p).1).2 from ho) with e | e
    · subst e
      show (m.newRef (w.ready p)).2 < n ∨ m.next ≤ (m.newRef (w.ready p)).2
      cases hr : w.ready p with
      | none => exact .inr (Nat.le_refl _)
      | some x => exact .inl (hw p x hr)
    · rcases ih (m := (boxFor extra w m p).1) (a.wf h) (Nat.le_trans hn a.le) o e with h1 | h1
      · exact .inl h1
      · exact .inr (Nat.le_trans a.le h1)

/-! ## Results -/

/-- The counts after an outcome are right: `leak` more references than the caller has received. -/
def Sound (self : Obj) (m : Mem) (o : Out (σ × Mem) Val) (leak : List Obj) : Prop :=
  ∀ s m', o.state? = some (s, m') → Grow m m' (given self o ++ leak)

/-- Not `pyconcat`. -/
def Direct : Ret → Prop
  | .pyconcat _ _ => False
  | _ => True

theorem deliver_ok (extra extras : Bool) {w : World} {m : Mem} (h : m.WF) (hw : w.Ready m.next) (hs : w.self < m.next)
    (hl : m.heap.live w.self = true) {r : Ret} (hr : Direct r) :
    ∃ m' v, deliver extra extras w m r = .ok (m', v) ∧ Matches v r ∧
      ∃ leak, Grow m m' (v.refs w.self ++ leak) ∧ (extra = false → extras = false → leak = []) := by
  cases r with
  | none => exact ⟨m, .none, rfl, trivial, [], Grow.refl m, fun _ _ => rfl⟩
  | self =>
    obtain ⟨m', e, a⟩ := incref_grow hs hl
    exact ⟨m', .self, by simp [deliver, e], trivial, [], by simpa [Val.refs] using a, fun _ _ => rfl⟩
  | int p =>
    refine ⟨_, _, rfl, trivial, if extra then [(boxFor extra w m p).2] else [], ?_, fun e _ => by rw [e]; rfl⟩
    exact boxFor_grow extra h hw p
  | bool b => exact ⟨m, .bool b, rfl, rfl, [], Grow.refl m, fun _ _ => rfl⟩
  | pylist ps =>
    have a := make_grow h
    have b := boxAll_grow extras (ps := ps) (a.wf h) (hw.mono a.le)
    refine ⟨_, _, rfl, boxAll_length extras w ps m.make.1, extraRefs extras (boxAll extras w ps m.make.1).2, ?_, fun _ e => by
      rw [e]; rfl⟩
    exact (a.trans b).perm (List.perm_append_comm (l₂ := [_]))
  | pyconcat ps as => exact absurd hr id
  | newList l => exact ⟨_, _, rfl, trivial, [], make_grow h, fun _ _ => rfl⟩
  | str l => exact ⟨_, _, rfl, trivial, [], make_grow h, fun _ _ => rfl⟩

/-- The result of an outcome, if there is one. -/
def ret? : Out σ α → Option α
  | .ok _ a | .pending _ a _ => some a
  | _ => none

theorem plain_ok (extra extras : Bool) {w : World} {m : Mem} (h : m.WF) (hw : w.Ready m.next) (hs : w.self < m.next)
    (hl : m.heap.live w.self = true) {out : Out σ Ret} (hr : ∀ r, ret? out = some r → Direct r) :
    Agrees (plain extra extras w m out) out ∧
      ∃ leak, Sound w.self m (plain extra extras w m out) leak ∧ (extra = false → extras = false → leak = []) := by
  cases out with
  | ok s r =>
    obtain ⟨m', v, e, a, leak, b, c⟩ := deliver_ok extra extras h hw hs hl (hr r rfl)
    simp only [plain, e]
    refine ⟨⟨rfl, a⟩, leak, ?_, c⟩
    rintro s' m'' ⟨⟩
    exact b
  | exc s e =>
    refine ⟨⟨rfl, rfl⟩, [], ?_, fun _ _ => rfl⟩
    rintro s' m'' ⟨⟩
    exact Grow.refl m
  | pending s r e' =>
    obtain ⟨m', v, e, a, leak, b, c⟩ := deliver_ok extra extras h hw hs hl (hr r rfl)
    simp only [plain, e]
    refine ⟨⟨rfl, a, rfl⟩, leak, ?_, c⟩
    rintro s' m'' ⟨⟩
    exact b
  | ub u => exact ⟨rfl, [], fun s' m'' e => (by simp [plain, Out.state?] at e), fun _ _ => rfl⟩

/-! ## Items -/

theorem Operand.Known.mono {n n' : Obj} (l : n ≤ n') {s : Operand} (h : s.Known n) : s.Known n' := by
  cases s with
  | items sh o it xs =>
    obtain ⟨h1, h2, h3, h4⟩ := h
    exact ⟨Nat.lt_of_lt_of_le h1 l, fun i e => Nat.lt_of_lt_of_le (h2 i e) l, fun x hx o e =>
      Nat.lt_of_lt_of_le (h3 x hx o e) l, h4⟩
  | same v => trivial
  | self => trivial
  | notIterable => trivial

/-- The object of an element exists. -/
def Elem.Known (n : Obj) : Elem → Prop
  | .own _ => True
  | .item x => ∀ o, x.obj = some o → o < n

theorem Elem.Known.mono {n n' : Obj} (l : n ≤ n') {a : Elem} (h : a.Known n) : a.Known n' := by
  cases a with
  | own v => trivial
  | item x => exact fun o e => Nat.lt_of_lt_of_le (h o e) l

/-- The reference that stays behind when an element has been fetched and released. -/
def Elem.left (extra : Bool) (K : Kind) (cfg : Cfg) (w : World) (m : Mem) : Elem → List Obj
  | .own v => if extra then [(boxFor extra w m (box K cfg.py v)).2] else []
  | .item _ => []

theorem fetch_round (extra : Bool) (K : Kind) (cfg : Cfg) {w : World} {m : Mem} (h : m.WF) (hw : w.Ready m.next) {a : Elem}
    (ha : a.Known m.next) :
    ∃ m', (fetch extra K cfg w m a).1.drop (fetch extra K cfg w m a).2 = .ok m' ∧ Grow m m' (a.left extra K cfg w m) := by
  cases a with
  | own v => exact drop_grow (boxFor_grow extra h hw _)
  | item x => exact drop_grow (newRef_grow h ha)

theorem elemAt_known {cur : List Int} {src : Operand} {n : Obj} (h : src.Known n) {i : Nat} {a : Elem}
    (e : elemAt cur src i = some a) : a.Known n := by
  cases src with
  | same v =>
    obtain ⟨y, _, rfl⟩ := Option.map_eq_some_iff.1 e
    trivial
  | self =>
    obtain ⟨y, _, rfl⟩ := Option.map_eq_some_iff.1 e
    trivial
  | items sh o it xs =>
    simp only [elemAt] at e
    split at e
    · obtain ⟨y, hy, rfl⟩ := Option.map_eq_some_iff.1 e
      exact h.2.2.1 y (List.mem_of_getElem? hy)
    · cases e
  | notIterable => cases e

theorem srcItem_eq (cfg : Cfg) (K : Kind) (cur : List Int) (src : Operand) (i : Nat) :
    ArrayList.srcItem cfg K cur src.plain i = (elemAt cur src i).map (convert K cfg) := by
  cases src with
  | same v => simp only [Operand.plain, ArrayList.srcItem, elemAt, Option.map_map]; rfl
  | self => simp only [Operand.plain, ArrayList.srcItem, elemAt, Option.map_map]; rfl
  | items sh o it xs =>
    cases sh <;>
      simp only [Operand.plain, ArrayList.srcItem, elemAt, Shape.isSequence, if_true, Option.map_map, List.getElem?_map,
        Bool.false_eq_true, if_false] <;> rfl
  | notIterable => rfl

theorem sizeOf_eq (l : List Int) (src : Operand) :
    Arr.sizeOf l src = if src.plain.isSequence then some (ArrayList.srcSize l src.plain) else none := by
  cases src with
  | items sh o it xs => cases sh <;> simp [Arr.sizeOf, Operand.plain, Src.isSequence, ArrayList.srcSize, Shape.isSequence, Shape.size]
  | _ => rfl

theorem Sound.ret {self : Obj} {m m' : Mem} {s : σ} {e : Exc} (g : Grow m m' []) :
    Sound self m (.exc (s, m') e : Out (σ × Mem) Val) [] := by
  rintro s' m'' ⟨⟩
  exact g

theorem Sound.ok {self : Obj} {m m' : Mem} {s : σ} {v : Val} {leak : List Obj} (g : Grow m m' (v.refs self ++ leak)) :
    Sound self m (.ok (s, m') v : Out (σ × Mem) Val) leak := by
  rintro s' m'' ⟨⟩
  exact g

theorem Sound.exc {self : Obj} {m m' : Mem} {s : σ} {e : Exc} {leak : List Obj} (g : Grow m m' leak) :
    Sound self m (.exc (s, m') e : Out (σ × Mem) Val) leak := by
  rintro s' m'' ⟨⟩
  exact g

theorem Sound.pending {self : Obj} {m m' : Mem} {s : σ} {v : Val} {e : Exc} {leak : List Obj}
    (g : Grow m m' (v.refs self ++ leak)) : Sound self m (.pending (s, m') v e : Out (σ × Mem) Val) leak := by
  rintro s' m'' ⟨⟩
  exact g

theorem Sound.ub {self : Obj} {m : Mem} {u : UB} {leak : List Obj} :
    Sound self m (.ub u : Out (σ × Mem) Val) leak := by
  rintro s' m'' ⟨⟩

/-- Earlier changes. -/
theorem Sound.after {self : Obj} {m m' : Mem} {out : Out (σ × Mem) Val} {l l' : List Obj} (g : Grow m m' l)
    (s : Sound self m' out l') : Sound self m out (l' ++ l) := fun s' m'' e => by
  rw [← List.append_assoc]
  exact g.trans (s s' m'' e)

/-- As it should be: like the model without identities, and with the right counts. -/
def Fine (self : Obj) (m : Mem) (out : Out (σ × Mem) Val) (ref : Out σ Ret) : Prop :=
  Agrees out ref ∧ Sound self m out []

theorem Fine.after {self : Obj} {m m' : Mem} {out : Out (σ × Mem) Val} {ref : Out σ Ret} (g : Grow m m' [])
    (s : Fine self m' out ref) : Fine self m out ref := ⟨s.1, by simpa using Sound.after g s.2⟩

/-! ## Array lists -/

namespace Arr

theorem extendLoop_ok (K : Kind) {xs : List Item} {l : List Int} {m : Mem} (h : m.WF)
    (hx : ∀ x ∈ xs, ∀ o, x.obj = some o → o < m.next) :
    ∃ m', extendLoop K xs l m =
        .ok ((ArrayList.extendLoop K (xs.map (·.arg)) l).1, (ArrayList.extendLoop K (xs.map (·.arg)) l).2, m') ∧
      Grow m m' [] := by
  induction xs generalizing l m with
  | nil => exact ⟨m, rfl, Grow.refl m⟩
  | cons x xs ih =>
    obtain ⟨m1, e1, g1⟩ := round h (hx x (by simp))
    simp only [extendLoop, List.map_cons, ArrayList.extendLoop, e1]
    rcases toElem K x.arg with ⟨v, _ | e⟩
    · obtain ⟨m2, e2, g2⟩ := ih (l := l ++ [v]) (g1.wf h) (fun y hy o e =>
        Nat.lt_of_lt_of_le (hx y (by simp [hy]) o e) g1.le)
      exact ⟨m2, e2, g1.trans0 g2⟩
    · exact ⟨m1, rfl, g1⟩

theorem extendWith_items (K : Kind) (l : List Int) (sh : Shape) (o : Obj) (it : Option Obj) (xs : List Item) (r : Ret) :
    ArrayList.extendWith K l (Operand.items sh o it xs).plain r =
      match (ArrayList.extendLoop K (xs.map (·.arg)) l).2.or sh.fail with
      | some e => .exc (ArrayList.extendLoop K (xs.map (·.arg)) l).1 e
      | none => .ok (ArrayList.extendLoop K (xs.map (·.arg)) l).1 r := by
  cases sh with
  | iter f =>
    simp only [Operand.plain, ArrayList.extendWith, Shape.fail]
    generalize ArrayList.extendLoop K (xs.map (·.arg)) l = p
    rcases p with ⟨l', _ | e⟩ <;> cases f <;> rfl
  | _ =>
    simp only [Operand.plain, ArrayList.extendWith, Shape.fail]
    generalize ArrayList.extendLoop K (xs.map (·.arg)) l = p
    rcases p with ⟨l', _ | e⟩ <;> rfl

theorem extend_ok (inplace : Bool) (K : Kind) {w : World} (l : List Int) {m : Mem} (h : m.WF) (hs : w.self < m.next)
    (hl : m.heap.live w.self = true) (hw : w.Ready m.next) {src : Operand} (hk : src.Known m.next) :
    Fine w.self m (extend inplace K w l m src)
      (ArrayList.extendWith K l src.plain (if inplace then .self else .none)) := by
  cases src with
  | same v => exact ⟨⟨rfl, trivial⟩, Sound.ok (Grow.refl m)⟩
  | self => exact ⟨rfl, Sound.ub⟩
  | notIterable => exact ⟨⟨rfl, rfl⟩, Sound.exc (Grow.refl m)⟩
  | items sh o it xs =>
    rw [extendWith_items]
    obtain ⟨_, h2, h3, _⟩ := hk
    have g0 := newRef_grow h h2
    obtain ⟨m1, e1, g1⟩ := extendLoop_ok K (l := l) (g0.wf h) (fun x hx o e => Nat.lt_of_lt_of_le (h3 x hx o e) g0.le)
    obtain ⟨m2, e2, g2⟩ := drop_grow (g0.trans g1)
    simp only [extend, e1, e2]
    cases (ArrayList.extendLoop K (xs.map (·.arg)) l).2.or sh.fail with
    | some e => exact ⟨⟨rfl, rfl⟩, Sound.exc g2⟩
    | none =>
      have hd : Direct (if inplace then Ret.self else .none) := by cases inplace <;> trivial
      obtain ⟨m3, v, e3, a, leak, g3, hn⟩ := deliver_ok false false (w := w) (g2.wf h) (hw.mono g2.le)
        (Nat.lt_of_lt_of_le hs g2.le) (g2.live hl) hd
      rw [hn rfl rfl] at g3
      simp only [e3]
      exact ⟨⟨rfl, a⟩, Sound.ok (g2.trans0 g3)⟩

theorem assignLoop_ok (cfg : Cfg) (K : Kind) {w : World} {src : Operand} (start : Nat) {n i : Nat} {cur : List Int} {m : Mem}
    (h : m.WF) (hw : w.Ready m.next) (hk : src.Known m.next) :
    Fine w.self m (assignLoop cfg K w src start n i cur m) (ArrayList.assignLoop cfg K src.plain start n i cur) := by
  induction n generalizing i cur m with
  | zero => exact ⟨⟨rfl, trivial⟩, Sound.ok (Grow.refl m)⟩
  | succ n ih =>
    rw [assignLoop, ArrayList.assignLoop, srcItem_eq]
    cases ha : elemAt cur src i with
    | none => exact ⟨⟨rfl, rfl⟩, Sound.exc (Grow.refl m)⟩
    | some a =>
      obtain ⟨m1, e1, g1⟩ := fetch_round false K cfg h hw (elemAt_known hk ha)
      have g1 : Grow m m1 [] := by cases a <;> exact g1
      simp only [Option.map_some, e1]
      rcases hc : convert K cfg a with ⟨v, e⟩
      simp only
      split
      · cases e with
        | some e => exact ⟨⟨rfl, rfl⟩, Sound.exc g1⟩
        | none => exact (ih (g1.wf h) (hw.mono g1.le) (hk.mono g1.le)).after g1
      · exact ⟨rfl, Sound.ub⟩

theorem insertLoop_ok (cfg : Cfg) (K : Kind) {w : World} {src : Operand} (start : Nat) {n i : Nat} {cur : List Int} {m : Mem}
    (h : m.WF) (hw : w.Ready m.next) (hk : src.Known m.next) :
    Fine w.self m (insertLoop cfg K w src start n i cur m) (ArrayList.insertLoop cfg K src.plain start n i cur) := by
  induction n generalizing i cur m with
  | zero => exact ⟨⟨rfl, trivial⟩, Sound.ok (Grow.refl m)⟩
  | succ n ih =>
    rw [insertLoop, ArrayList.insertLoop, srcItem_eq]
    cases ha : elemAt cur src i with
    | none => exact ⟨⟨rfl, rfl⟩, Sound.exc (Grow.refl m)⟩
    | some a =>
      obtain ⟨m1, e1, g1⟩ := fetch_round false K cfg h hw (elemAt_known hk ha)
      have g1 : Grow m m1 [] := by cases a <;> exact g1
      simp only [Option.map_some, e1]
      rcases hc : convert K cfg a with ⟨v, e⟩
      simp only
      split
      · cases e with
        | some e => exact ⟨⟨rfl, rfl⟩, Sound.exc g1⟩
        | none => exact (ih (g1.wf h) (hw.mono g1.le) (hk.mono g1.le)).after g1
      · exact ⟨rfl, Sound.ub⟩

end Arr

/-- The outcome of a part of a call that returns nothing: it went well, or the call is over. -/
theorem Fine.split {w : World} {m : Mem} {out : Out (σ × Mem) Val} {ref : Out σ Ret} (a : Fine w.self m out ref)
    (hn : ∀ s v, out = .ok s v → v = .none) :
    (∃ s m' r, out = .ok (s, m') .none ∧ ref = .ok s r ∧ Grow m m' []) ∨ (∃ s m' e, out = .exc (s, m') e ∧ ref = .exc s e) ∨
      (∃ s m' v r e, out = .pending (s, m') v e ∧ ref = .pending s r e) ∨ ∃ u, out = .ub u ∧ ref = .ub u := by
  obtain ⟨a1, a2⟩ := a
  cases out with
  | ok s v =>
    cases ref with
    | ok s' r =>
      obtain ⟨s, m'⟩ := s
      have hv := hn _ _ rfl
      subst hv
      exact .inl ⟨s, m', r, rfl, by rw [show s = s' from a1.1], a2 s m' rfl⟩
    | _ => exact absurd a1 id
  | exc s e =>
    cases ref with
    | exc s' e' =>
      obtain ⟨s, m'⟩ := s
      exact .inr (.inl ⟨s, m', e, rfl, by rw [show s = s' from a1.1, a1.2]⟩)
    | _ => exact absurd a1 id
  | pending s v e =>
    cases ref with
    | pending s' r e' =>
      obtain ⟨s, m'⟩ := s
      exact .inr (.inr (.inl ⟨s, m', v, r, e, rfl, by rw [show s = s' from a1.1, a1.2.2]⟩))
    | _ => exact absurd a1 id
  | ub u =>
    cases ref with
    | ub u' => exact .inr (.inr (.inr ⟨u, rfl, by rw [show u = u' from a1]⟩))
    | _ => exact absurd a1 id

namespace Arr

theorem assignLoop_none {cfg : Cfg} {K : Kind} {w : World} {src : Operand} {start n i : Nat} {cur : List Int} {m : Mem}
    {s : List Int × Mem} {v : Val} (e : assignLoop cfg K w src start n i cur m = .ok s v) : v = .none := by
  induction n generalizing i cur m with
  | zero => cases e; rfl
  | succ n ih =>
    rw [assignLoop] at e
    repeat' split at e
    all_goals first | cases e | exact ih e

theorem setSlice_ok (cfg : Cfg) (K : Kind) {w : World} (l : List Int) {m : Mem} (h : m.WF) (hw : w.Ready m.next)
    (sl : SliceArg) {src : Operand} (hk : src.Known m.next) :
    Fine w.self m (setSlice cfg K w l m sl src) (ArrayList.assSubscript cfg K l (.slice sl) (some (.inr src.plain))) := by
  unfold setSlice ArrayList.assSubscript
  rw [sizeOf_eq]
  dsimp only
  rcases sliceUnpack sl with e | ⟨start, stop, step⟩
  · exact ⟨⟨rfl, rfl⟩, Sound.exc (Grow.refl m)⟩
  · simp only
    rcases adjustIndices l.length start stop step with ⟨start', stop', n⟩
    simp only
    cases src.plain.isSequence with
    | false => exact ⟨⟨rfl, rfl⟩, Sound.exc (Grow.refl m)⟩
    | true =>
      simp only [if_true, Bool.not_true, Bool.false_eq_true, if_false]
      generalize ArrayList.srcSize l src.plain = k
      split
      · exact ⟨⟨rfl, rfl⟩, Sound.exc (Grow.refl m)⟩
      · split
        · exact assignLoop_ok cfg K start'.toNat h hw hk
        · split
          · have q := assignLoop_ok cfg K (n := k.toNat) (i := 0) (cur := l) start'.toNat h hw hk
            rcases q.split (fun s v e => assignLoop_none e) with
              ⟨s, m', r, e1, e2, g⟩ | ⟨s, m', e, e1, e2⟩ | ⟨s, m', v, r, e, e1, e2⟩ | ⟨u, e1, e2⟩
            · rw [e1, e2]
              dsimp only
              split
              · split
                · exact ⟨⟨rfl, trivial, rfl⟩, Sound.pending g⟩
                · exact ⟨⟨rfl, trivial⟩, Sound.ok g⟩
              · exact ⟨rfl, Sound.ub⟩
            all_goals rw [e1, e2] at q ⊢; exact q
          · have q := assignLoop_ok cfg K (n := n.toNat) (i := 0) (cur := l) start'.toNat h hw hk
            rcases q.split (fun s v e => assignLoop_none e) with
              ⟨s, m', r, e1, e2, g⟩ | ⟨s, m', e, e1, e2⟩ | ⟨s, m', v, r, e, e1, e2⟩ | ⟨u, e1, e2⟩
            · rw [e1, e2]
              exact (insertLoop_ok cfg K start'.toNat (g.wf h) (hw.mono g.le) (hk.mono g.le)).after g
            all_goals rw [e1, e2] at q ⊢; exact q

end Arr

/-! ## Comparisons -/

/-- What stays behind when a list of elements is fetched and released: nothing without `extra`, nothing for items. -/
def Clean (extra : Bool) (as : List Elem) : Prop := extra = false ∨ ∀ a ∈ as, ∃ x, a = .item x

theorem Clean.tail {extra : Bool} {a : Elem} {as : List Elem} (h : Clean extra (a :: as)) : Clean extra as :=
  h.imp id fun h b hb => h b (by simp [hb])

theorem Clean.left {extra : Bool} {a : Elem} {as : List Elem} (h : Clean extra (a :: as)) (K : Kind) (cfg : Cfg) (w : World)
    (m : Mem) : a.left extra K cfg w m = [] := by
  rcases h with rfl | h
  · cases a <;> rfl
  · obtain ⟨x, rfl⟩ := h a (by simp)
    rfl

theorem eqLoop_ok (extra : Bool) (K : Kind) (cfg : Cfg) {w : World} {xs : List Int} {as : List Elem} {m : Mem} (h : m.WF)
    (hw : w.Ready m.next) (ha : ∀ a ∈ as, a.Known m.next) :
    ∃ m' leak, eqLoop extra K cfg w xs as m =
        .ok ((ArrayList.eqLoop xs (as.map (convert K cfg))).1, (ArrayList.eqLoop xs (as.map (convert K cfg))).2, m') ∧
      Grow m m' leak ∧ (Clean extra as → leak = []) := by
  induction xs generalizing as m with
  | nil => exact ⟨m, [], rfl, Grow.refl m, fun _ => rfl⟩
  | cons x xs ih =>
    cases as with
    | nil => exact ⟨m, [], rfl, Grow.refl m, fun _ => rfl⟩
    | cons a as =>
      obtain ⟨m1, e1, g1⟩ := fetch_round extra K cfg h hw (ha a (by simp))
      simp only [eqLoop, e1, List.map_cons]
      rcases convert K cfg a with ⟨y, _ | e⟩
      · simp only [ArrayList.eqLoop]
        by_cases hxy : x ≠ y
        · rw [if_pos hxy, if_pos hxy]
          exact ⟨m1, _, rfl, g1, fun c => c.left K cfg w m⟩
        · rw [if_neg hxy, if_neg hxy]
          obtain ⟨m2, leak, e2, g2, c2⟩ := ih (as := as) (g1.wf h) (hw.mono g1.le) (fun b hb =>
            (ha b (by simp [hb])).mono g1.le)
          refine ⟨m2, _, e2, g1.trans g2, fun c => ?_⟩
          rw [c2 c.tail, c.left K cfg w m]; rfl
      · exact ⟨m1, _, rfl, g1, fun c => c.left K cfg w m⟩

theorem ordLoop_ok (extra : Bool) (K : Kind) (cfg : Cfg) {w : World} (op : CmpOp) {xs : List Int} {as : List Elem}
    {p : Option Exc} {m : Mem} (h : m.WF) (hw : w.Ready m.next) (ha : ∀ a ∈ as, a.Known m.next) :
    ∃ m' leak, ordLoop extra K cfg w op xs as p m =
        .ok ((ArrayList.ordLoop op xs (as.map (convert K cfg)) p).1, (ArrayList.ordLoop op xs (as.map (convert K cfg)) p).2, m') ∧
      Grow m m' leak ∧ (Clean extra as → leak = []) := by
  induction xs generalizing as p m with
  | nil => exact ⟨m, [], rfl, Grow.refl m, fun _ => rfl⟩
  | cons x xs ih =>
    cases as with
    | nil => exact ⟨m, [], rfl, Grow.refl m, fun _ => rfl⟩
    | cons a as =>
      obtain ⟨m1, e1, g1⟩ := fetch_round extra K cfg h hw (ha a (by simp))
      simp only [ordLoop, e1, List.map_cons]
      rcases convert K cfg a with ⟨y, e⟩
      simp only [ArrayList.ordLoop]
      by_cases hxy : x ≠ y
      · rw [if_pos hxy, if_pos hxy]
        exact ⟨m1, _, rfl, g1, fun c => c.left K cfg w m⟩
      · rw [if_neg hxy, if_neg hxy]
        obtain ⟨m2, leak, e2, g2, c2⟩ := ih (as := as) (p := e.or p) (g1.wf h) (hw.mono g1.le) (fun b hb =>
          (ha b (by simp [hb])).mono g1.le)
        refine ⟨m2, _, e2, g1.trans g2, fun c => ?_⟩
        rw [c2 c.tail, c.left K cfg w m]; rfl

theorem answer_ok {self : Obj} {m m' : Mem} (s : σ) (b : Bool) (p : Option Exc) {leak : List Obj} (g : Grow m m' leak) :
    Sound self m (answer s m' b p) leak := by
  cases p with
  | none => exact Sound.ok g
  | some e => exact Sound.pending g

theorem clean_items (extra : Bool) (xs : List Item) : Clean extra (xs.map Elem.item) := .inr fun a ha => by
  obtain ⟨x, _, rfl⟩ := List.mem_map.1 ha
  exact ⟨x, rfl⟩

theorem known_items {n : Obj} {xs : List Item} (h : ∀ x ∈ xs, ∀ o, x.obj = some o → o < n) :
    ∀ a ∈ xs.map Elem.item, a.Known n := fun a ha => by
  obtain ⟨x, hx, rfl⟩ := List.mem_map.1 ha
  exact h x hx

theorem convert_items (K : Kind) (cfg : Cfg) (xs : List Item) :
    (xs.map Elem.item).map (convert K cfg) = (xs.map (·.arg)).map (toElem K) := by
  rw [List.map_map, List.map_map]; rfl

namespace Arr

theorem eq_ok (neg : Bool) (cfg : Cfg) (K : Kind) {w : World} (l : List Int) {m : Mem} (h : m.WF) (hw : w.Ready m.next)
    {xs : List Item} (hx : ∀ x ∈ xs, ∀ o, x.obj = some o → o < m.next) :
    Fine w.self m (eq neg cfg K w l m xs)
      (ArrayList.boolOut l (neg ^^ (ArrayList.eq K l (.list (xs.map (·.arg)))).1) (ArrayList.eq K l (.list (xs.map (·.arg)))).2) := by
  simp only [eq, ArrayList.eq, List.length_map]
  by_cases hn : xs.length ≠ l.length
  · rw [if_pos hn, if_pos hn]
    exact ⟨⟨rfl, rfl⟩, answer_ok l _ _ (Grow.refl m)⟩
  · rw [if_neg hn, if_neg hn]
    obtain ⟨m', leak, e, g, c⟩ := eqLoop_ok false K cfg (xs := l) h hw (known_items hx)
    rw [c (.inl rfl)] at g
    rw [e, convert_items]
    simp only
    refine ⟨?_, answer_ok l _ _ g⟩
    generalize ArrayList.eqLoop l _ = q
    rcases q with ⟨b, _ | e⟩
    · exact ⟨rfl, rfl⟩
    · exact ⟨rfl, rfl, rfl⟩

theorem ord_ok (op : CmpOp) (cfg : Cfg) (K : Kind) {w : World} (l : List Int) {m : Mem} (h : m.WF) (hw : w.Ready m.next)
    {xs : List Item} (hx : ∀ x ∈ xs, ∀ o, x.obj = some o → o < m.next) :
    Fine w.self m (ord op cfg K w l m xs)
      (ArrayList.boolOut l (ArrayList.ord K op l (.list (xs.map (·.arg)))).1 (ArrayList.ord K op l (.list (xs.map (·.arg)))).2) := by
  simp only [ord, ArrayList.ord]
  obtain ⟨m', leak, e, g, c⟩ := ordLoop_ok false K cfg op (xs := l) (p := none) h hw (known_items hx)
  rw [c (.inl rfl)] at g
  rw [e, convert_items]
  simp only [List.length_map]
  generalize ArrayList.ordLoop op l _ none = q
  rcases q with ⟨_ | b, _ | e⟩
  · exact ⟨⟨rfl, rfl⟩, answer_ok l _ _ g⟩
  · exact ⟨⟨rfl, rfl, rfl⟩, answer_ok l _ _ g⟩
  · exact ⟨⟨rfl, rfl⟩, answer_ok l _ _ g⟩
  · exact ⟨⟨rfl, rfl, rfl⟩, answer_ok l _ _ g⟩

theorem plain_fine {w : World} {m : Mem} (h : m.WF) (hw : w.Ready m.next) (hs : w.self < m.next)
    (hl : m.heap.live w.self = true) {out : Out σ Ret} (hr : ∀ r, ret? out = some r → Direct r) :
    Fine w.self m (plain false false w m out) out := by
  obtain ⟨a, leak, b, c⟩ := plain_ok false false h hw hs hl hr
  rw [c rfl rfl] at b
  exact ⟨a, b⟩

theorem boolOut_direct (l : List Int) (b : Bool) (p : Option Exc) : ∀ r, ret? (ArrayList.boolOut l b p) = some r → Direct r := by
  cases p <;> (rintro r ⟨⟩; trivial)

theorem compare_ok (cfg : Cfg) (K : Kind) {w : World} (op : CmpOp) (l : List Int) {m : Mem} (h : m.WF) (hw : w.Ready m.next)
    (hs : w.self < m.next) (hl : m.heap.live w.self = true) {src : Operand} (hk : src.Known m.next) :
    Fine w.self m (compare cfg K w op l m src) (ArrayList.compare K op l src.plain) := by
  have hb : ∀ src : Src, Fine w.self m (plain false false w m (ArrayList.compare K op l src)) (ArrayList.compare K op l src) :=
    fun src => plain_fine h hw hs hl (by cases op <;> exact boolOut_direct l _ _)
  cases src with
  | items sh o it xs =>
    cases sh with
    | list =>
      cases op with
      | eq => have q := eq_ok false cfg K l h hw hk.2.2.1; simp only [Bool.false_bne] at q; exact q
      | ne => have q := eq_ok true cfg K l h hw hk.2.2.1; simp only [Bool.true_bne] at q; exact q
      | lt => exact ord_ok .lt cfg K l h hw hk.2.2.1
      | le => exact ord_ok .le cfg K l h hw hk.2.2.1
      | gt => exact ord_ok .gt cfg K l h hw hk.2.2.1
      | ge => exact ord_ok .ge cfg K l h hw hk.2.2.1
    | tuple =>
      cases op with
      | eq => have q := eq_ok false cfg K l h hw hk.2.2.1; simp only [Bool.false_bne] at q; exact q
      | ne => have q := eq_ok true cfg K l h hw hk.2.2.1; simp only [Bool.true_bne] at q; exact q
      | lt => exact ord_ok .lt cfg K l h hw hk.2.2.1
      | le => exact ord_ok .le cfg K l h hw hk.2.2.1
      | gt => exact ord_ok .gt cfg K l h hw hk.2.2.1
      | ge => exact ord_ok .ge cfg K l h hw hk.2.2.1
    | seq =>
      cases op with
      | eq => have q := eq_ok false cfg K l h hw hk.2.2.1; simp only [Bool.false_bne] at q; exact q
      | ne => have q := eq_ok true cfg K l h hw hk.2.2.1; simp only [Bool.true_bne] at q; exact q
      | lt => exact ord_ok .lt cfg K l h hw hk.2.2.1
      | le => exact ord_ok .le cfg K l h hw hk.2.2.1
      | gt => exact ord_ok .gt cfg K l h hw hk.2.2.1
      | ge => exact ord_ok .ge cfg K l h hw hk.2.2.1
    | seqNoLen => exact hb _
    | iter f => exact hb _
  | same v => exact hb _
  | self => exact hb _
  | notIterable => exact hb _

end Arr

/-! ## `+` -/

theorem foldl_gain_grow {os : List Obj} {m : Mem} (h : ∀ o ∈ os, o < m.next) : Grow m (os.foldl Mem.gain m) os := by
  induction os generalizing m with
  | nil => exact Grow.refl m
  | cons o os ih =>
    have a := gain_grow (h o (by simp))
    exact (a.trans (ih (m := m.gain o) fun x hx => h x (by simp [hx]))).perm (List.perm_append_comm (l₂ := [_]))

/-- The last reference to a list with the elements `os`. -/
theorem dropList_grow {m m1 : Mem} {c : Obj} {os gs : List Obj} (h : m.WF) (hc : m.next ≤ c) (a : Grow m m1 (c :: os ++ gs))
    (hn : c ∉ os ++ gs) : ∃ m2, m1.dropList c os = .ok m2 ∧ Grow m m2 gs := by
  obtain ⟨m2, e2, g2⟩ := drop_grow (gs := os ++ gs) a
  have hi := h c hc
  have hd : m2.heap.live c = false := by
    unfold Heap.live
    rw [g2.imm, hi.2, g2.rc c hi.2, hi.1, List.count_eq_zero_of_not_mem hn]
    rfl
  obtain ⟨m3, e3, g3⟩ := drops_grow g2
  exact ⟨m3, by simp [Mem.dropList, e2, hd, e3], g3⟩

theorem extraRefs_mem {extra : Bool} {os : List Obj} {o : Obj} (h : o ∈ extraRefs extra os) : o ∈ os := by
  cases extra with
  | true => exact h
  | false => cases h

/-- The temporary list of `+` and its ints. -/
theorem add_ok (extras : Bool) {w : World} {m : Mem} (s : σ) (h : m.WF) (hw : w.Ready m.next) (ps : List PyLong)
    {src : Operand} (hk : src.Known m.next) :
    Agrees (add extras w m s ps src) (match src.plain with
      | .same _ | .self => .exc s .memoryError
      | .list xs => .ok s (.pyconcat ps xs)
      | _ => .exc s .typeError) ∧
    ∃ leak, Sound w.self m (add extras w m s ps src) leak ∧
      (leak = match src with | .same _ | .self => [] | _ => extraRefs extras (boxAll extras w ps m.make.1).2) := by
  have g0 := make_grow h
  have g1 := boxAll_grow extras (ps := ps) (g0.wf h) (hw.mono g0.le)
  have hold := boxAll_old extras (n := m.next) (ps := ps) (g0.wf h) hw g0.le
  have hm : ∀ o ∈ (boxAll extras w ps m.make.1).2, o ≠ m.next := fun o ho e => by
    subst e
    rcases hold _ ho with h1 | h1
    · exact Nat.lt_irrefl _ h1
    · exact Nat.not_succ_le_self _ h1
  have hlast : ∃ m2, (boxAll extras w ps m.make.1).1.dropList m.make.2 (boxAll extras w ps m.make.1).2 = .ok m2 ∧
      Grow m m2 (extraRefs extras (boxAll extras w ps m.make.1).2) := by
    refine dropList_grow h (Nat.le_refl _) ((g0.trans g1).perm (List.perm_append_comm (l₂ := [_]))) fun hc => ?_
    rcases List.mem_append.1 hc with h1 | h1
    · exact hm _ h1 rfl
    · exact hm _ (extraRefs_mem h1) rfl
  obtain ⟨m2, e2, g2⟩ := hlast
  have hother : Agrees (match (boxAll extras w ps m.make.1).1.dropList m.make.2 (boxAll extras w ps m.make.1).2 with
        | .error u => (.ub u : Out (σ × Mem) Val)
        | .ok m => .exc (s, m) .typeError) (.exc s .typeError) ∧
      ∃ leak, Sound w.self m (match (boxAll extras w ps m.make.1).1.dropList m.make.2 (boxAll extras w ps m.make.1).2 with
        | .error u => (.ub u : Out (σ × Mem) Val)
        | .ok m => .exc (s, m) .typeError) leak ∧ leak = extraRefs extras (boxAll extras w ps m.make.1).2 := by
    rw [e2]
    exact ⟨⟨rfl, rfl⟩, _, Sound.exc g2, rfl⟩
  cases src with
  | same v => exact ⟨⟨rfl, rfl⟩, [], Sound.exc (Grow.refl m), rfl⟩
  | self => exact ⟨⟨rfl, rfl⟩, [], Sound.exc (Grow.refl m), rfl⟩
  | notIterable => exact hother
  | items sh o it xs =>
    cases sh with
    | list =>
      obtain ⟨_, _, h3, h4⟩ := hk
      have g01 := (g0.trans g1).perm (List.perm_append_comm (l₂ := [_]))
      have g2 := make_grow (g01.wf h)
      have hlt : ∀ o ∈ (boxAll extras w ps m.make.1).2 ++ xs.filterMap (·.obj), o < (boxAll extras w ps m.make.1).1.make.1.next := by
        intro o ho
        rcases List.mem_append.1 ho with h1 | h1
        · exact Nat.lt_of_lt_of_le (g1.lt o (by simp [h1])) g2.le
        · obtain ⟨x, hx, e⟩ := List.mem_filterMap.1 h1
          exact Nat.lt_of_lt_of_le (h3 x hx o e) (Nat.le_trans g01.le g2.le)
      have g3 := foldl_gain_grow hlt
      have hd : m.next < (boxAll extras w ps m.make.1).1.make.2 := Nat.lt_of_lt_of_le (Nat.lt_succ_self _) g1.le
      obtain ⟨m4, e4, g4⟩ := dropList_grow (c := m.make.2) (os := (boxAll extras w ps m.make.1).2)
        (gs := ((boxAll extras w ps m.make.1).1.make.2 :: ((boxAll extras w ps m.make.1).2 ++ xs.filterMap (·.obj))) ++
          extraRefs extras (boxAll extras w ps m.make.1).2) h (Nat.le_refl _)
        ((g01.trans (g2.trans g3)).perm (by
          refine List.perm_iff_count.2 fun x => ?_
          simp only [List.count_append, List.count_cons, List.count_nil]
          omega)) (by
        intro hc
        simp only [List.mem_append, List.mem_cons] at hc
        rcases hc with h1 | (h1 | h1 | h1) | h1
        · exact hm _ h1 rfl
        · exact Nat.lt_irrefl _ (h1 ▸ hd)
        · exact hm _ h1 rfl
        · obtain ⟨x, hx, e⟩ := List.mem_filterMap.1 h1
          exact Nat.lt_irrefl _ (h3 x hx _ e)
        · exact hm _ (extraRefs_mem h1) rfl)
      simp only [add, Operand.plain]
      rw [e4]
      refine ⟨⟨rfl, ?_⟩, _, Sound.ok g4, rfl⟩
      show ((boxAll extras w ps m.make.1).2 ++ xs.filterMap (·.obj)).length = ps.length + (xs.map (·.arg)).length
      rw [List.length_append, boxAll_length, List.length_map]
      congr 1
      have h5 := h4 (.inl rfl)
      clear h4 h3 e4 g4 g3 hlt
      induction xs with
      | nil => rfl
      | cons x xs ih =>
        have hx := h5 x (by simp)
        obtain ⟨o, ho⟩ := Option.isSome_iff_exists.1 hx
        rw [List.filterMap_cons_some ho, List.length_cons, List.length_cons, ih fun y hy => h5 y (by simp [hy])]
    | tuple => exact hother
    | seq => exact hother
    | seqNoLen => exact hother
    | iter f => exact hother

/-! ## Calls without operand -/

theorem arr_direct (cfg : Cfg) (K : Kind) (l : List Int) {op : Op} (h : Bare op) :
    ∀ r, ret? (ArrayList.step cfg K l op) = some r → Direct r := by
  intro r hr
  cases op with
  | extend s => exact absurd h id
  | iadd s => exact absurd h id
  | add s => exact absurd h id
  | cmp o s => exact absurd h id
  | set k v =>
    cases k with
    | idx a =>
      cases a <;> simp only [ArrayList.step, ArrayList.assSubscript, ArrayList.setItem] at hr
      all_goals repeat' split at hr
      all_goals first | (cases hr; trivial) | cases hr
    | slice sl =>
      cases v with
      | inr src => exact absurd h id
      | inl a =>
        simp only [ArrayList.step, ArrayList.assSubscript] at hr
        repeat' split at hr
        all_goals first | (cases hr; trivial) | cases hr
  | _ =>
    simp only [ArrayList.step, ArrayList.append, ArrayList.insert, ArrayList.pop, ArrayList.remove, ArrayList.index,
      ArrayList.count, ArrayList.contains, ArrayList.subscript, ArrayList.getItem, ArrayList.assSubscript, ArrayList.setItem,
      ArrayList.mul, ArrayList.rmul, ArrayList.imul, ArrayList.reverse, ArrayList.resize] at hr
    repeat' split at hr
    all_goals first | (cases hr; trivial) | cases hr

/-- Every call of an array list. -/
theorem Arr.step_ok (cfg : Cfg) (K : Kind) {w : World} (l : List Int) {m : Mem} (h : m.WF) (hw : w.Ready m.next)
    (hs : w.self < m.next) (hl : m.heap.live w.self = true) {c : Call} (hk : c.Known m.next) :
    Fine w.self m (Arr.step cfg K w l m c) (ArrayList.step cfg K l c.toOp) := by
  cases c with
  | extend s => exact Arr.extend_ok false K l h hs hl hw hk
  | iadd s => exact Arr.extend_ok true K l h hs hl hw hk
  | add s =>
    obtain ⟨a, leak, b, c⟩ := add_ok false l h hw (ArrayList.toList cfg K l) hk
    have hc : leak = [] := by cases s <;> exact c
    rw [hc] at b
    exact ⟨a, b⟩
  | setSlice sl s => exact Arr.setSlice_ok cfg K l h hw sl hk
  | cmp op s => exact Arr.compare_ok cfg K op l h hw hs hl hk
  | plain op => exact Arr.plain_fine h hw hs hl (arr_direct cfg K l hk)

/-! ## IntLinkedList -/

/-- Like the model without identities, with additional references unless `clean`. -/
def Loose (self : Obj) (m : Mem) (out : Out (σ × Mem) Val) (ref : Out σ Ret) (clean : Prop) : Prop :=
  Agrees out ref ∧ ∃ leak, Sound self m out leak ∧ (clean → leak = [])

theorem Fine.loose {self : Obj} {m : Mem} {out : Out (σ × Mem) Val} {ref : Out σ Ret} {clean : Prop} (a : Fine self m out ref) :
    Loose self m out ref clean := ⟨a.1, [], a.2, fun _ => rfl⟩

theorem Loose.after {self : Obj} {m m' : Mem} {out : Out (σ × Mem) Val} {ref : Out σ Ret} {clean : Prop} {l : List Obj}
    (g : Grow m m' l) (hl : clean → l = []) (s : Loose self m' out ref clean) : Loose self m out ref clean := by
  obtain ⟨a, leak, b, c⟩ := s
  exact ⟨a, _, Sound.after g b, fun h => by rw [c h, hl h]; rfl⟩

theorem Loose.split {w : World} {m : Mem} {out : Out (σ × Mem) Val} {ref : Out σ Ret} {clean : Prop}
    (a : Loose w.self m out ref clean) (hn : ∀ s v, out = .ok s v → v = .none) :
    (∃ s m' r leak, out = .ok (s, m') .none ∧ ref = .ok s r ∧ Grow m m' leak ∧ (clean → leak = [])) ∨
      (∃ s m' e, out = .exc (s, m') e ∧ ref = .exc s e) ∨
      (∃ s m' v r e, out = .pending (s, m') v e ∧ ref = .pending s r e) ∨ ∃ u, out = .ub u ∧ ref = .ub u := by
  obtain ⟨a1, leak, a2, hc⟩ := a
  cases out with
  | ok s v =>
    cases ref with
    | ok s' r =>
      obtain ⟨s, m'⟩ := s
      have hv := hn _ _ rfl
      subst hv
      exact .inl ⟨s, m', r, leak, rfl, by rw [show s = s' from a1.1], a2 s m' rfl, hc⟩
    | _ => exact absurd a1 id
  | exc s e =>
    cases ref with
    | exc s' e' =>
      obtain ⟨s, m'⟩ := s
      exact .inr (.inl ⟨s, m', e, rfl, by rw [show s = s' from a1.1, a1.2]⟩)
    | _ => exact absurd a1 id
  | pending s v e =>
    cases ref with
    | pending s' r e' =>
      obtain ⟨s, m'⟩ := s
      exact .inr (.inr (.inl ⟨s, m', v, r, e, rfl, by rw [show s = s' from a1.1, a1.2.2]⟩))
    | _ => exact absurd a1 id
  | ub u =>
    cases ref with
    | ub u' => exact .inr (.inr (.inr ⟨u, rfl, by rw [show u = u' from a1]⟩))
    | _ => exact absurd a1 id

/-- The operand is no list of the class. -/
def Foreign : Operand → Prop
  | .same _ | .self => False
  | _ => True

theorem elemAt_foreign {cur : List Int} {src : Operand} (h : Foreign src) {i : Nat} {a : Elem} (e : elemAt cur src i = some a) :
    ∃ x, a = .item x := by
  cases src with
  | same v => exact absurd h id
  | self => exact absurd h id
  | notIterable => cases e
  | items sh o it xs =>
    simp only [elemAt] at e
    split at e
    · obtain ⟨y, hy, rfl⟩ := Option.map_eq_some_iff.1 e
      exact ⟨y, rfl⟩
    · cases e

namespace Lnk

open LinkedList (S)

theorem extendLoop_ok {xs : List Item} {s : S} {m : Mem} (h : m.WF)
    (hx : ∀ x ∈ xs, ∀ o, x.obj = some o → o < m.next) :
    ∃ m', extendLoop xs s m =
        .ok ((LinkedList.pushLoop (xs.map (·.arg)) s).1, (LinkedList.pushLoop (xs.map (·.arg)) s).2.1,
          (LinkedList.pushLoop (xs.map (·.arg)) s).2.2, m') ∧ Grow m m' [] := by
  induction xs generalizing s m with
  | nil => exact ⟨m, rfl, Grow.refl m⟩
  | cons x xs ih =>
    obtain ⟨m1, e1, g1⟩ := round h (hx x (by simp))
    simp only [extendLoop, List.map_cons, LinkedList.pushLoop, e1]
    have hx' : ∀ y ∈ xs, ∀ o, y.obj = some o → o < m1.next := fun y hy o e =>
        Nat.lt_of_lt_of_le (hx y (by simp [hy]) o e) g1.le
    rcases toElem .i32 x.arg with ⟨v, _ | e⟩
    · obtain ⟨m2, e2, g2⟩ := ih (s := s.push v) (g1.wf h) hx'
      exact ⟨m2, e2, g1.trans0 g2⟩
    · cases xs with
      | nil => exact ⟨m1, rfl, g1⟩
      | cons y ys =>
        obtain ⟨m2, e2, g2⟩ := round (g1.wf h) (hx' y (by simp))
        exact ⟨m2, by simp [e2], g1.trans0 g2⟩

theorem extendWith_items (strict bump : Bool) (s : S) (sh : Shape) (o : Obj) (it : Option Obj) (xs : List Item) (r : Ret) :
    LinkedList.extendWith strict bump s (Operand.items sh o it xs).plain r =
      LinkedList.pushItems bump s (xs.map (·.arg)) sh.fail r := by
  cases sh <;> rfl

theorem extend_ok (inplace strict : Bool) {w : World} (s : S) {m : Mem} (h : m.WF) (hs : w.self < m.next)
    (hl : m.heap.live w.self = true) (hw : w.Ready m.next) {src : Operand} (hk : src.Known m.next) :
    Fine w.self m (extend inplace strict w s m src)
      (LinkedList.extendWith strict (!inplace) s src.plain (if inplace then .self else .none)) := by
  have hd : Direct (if inplace then Ret.self else .none) := by cases inplace <;> trivial
  cases src with
  | same v =>
    refine Arr.plain_fine (out := LinkedList.extendWith strict (!inplace) s (.same v) _) h hw hs hl ?_
    rintro r ⟨⟩
    trivial
  | self =>
    refine Arr.plain_fine (out := LinkedList.extendWith strict (!inplace) s .self _) h hw hs hl ?_
    cases strict
    · rintro r ⟨⟩; trivial
    · rintro r ⟨⟩
  | notIterable =>
    refine Arr.plain_fine (out := LinkedList.extendWith strict (!inplace) s .notIterable _) h hw hs hl ?_
    rintro r ⟨⟩
  | items sh o it xs =>
    rw [extendWith_items]
    obtain ⟨_, h2, h3, _⟩ := hk
    have g0 := newRef_grow h h2
    obtain ⟨m1, e1, g1⟩ := extendLoop_ok (s := s) (g0.wf h) (fun x hx o e => Nat.lt_of_lt_of_le (h3 x hx o e) g0.le)
    obtain ⟨m2, e2, g2⟩ := drop_grow (g0.trans g1)
    simp only [extend, e1, e2, LinkedList.pushItems]
    generalize LinkedList.pushLoop (xs.map (·.arg)) s = q
    rcases q with ⟨s', e, atEnd⟩
    dsimp only
    cases (if atEnd = true then sh.fail.or e else e) with
    | some e => exact ⟨⟨rfl, rfl⟩, Sound.exc g2⟩
    | none =>
      obtain ⟨m3, v, e3, a, leak, g3, hn⟩ := deliver_ok false false (w := w) (g2.wf h) (hw.mono g2.le)
        (Nat.lt_of_lt_of_le hs g2.le) (g2.live hl) hd
      rw [hn rfl rfl] at g3
      simp only [e3]
      exact ⟨⟨rfl, a⟩, Sound.ok (g2.trans0 g3)⟩

theorem assignLoop_ok (cfg : Cfg) {w : World} {src : Operand} (p : Nat) {n i : Nat} {cur : S} {m : Mem}
    (h : m.WF) (hw : w.Ready m.next) (hk : src.Known m.next) :
    Loose w.self m (assignLoop cfg w src p n i cur m) (LinkedList.assignLoop cfg src.plain p n i cur) (Foreign src) := by
  induction n generalizing i cur m with
  | zero => exact Fine.loose ⟨⟨rfl, trivial⟩, Sound.ok (Grow.refl m)⟩
  | succ n ih =>
    rw [assignLoop, LinkedList.assignLoop, LinkedList.srcItem, srcItem_eq]
    cases ha : elemAt cur.vals src i with
    | none => exact Fine.loose ⟨⟨rfl, rfl⟩, Sound.exc (Grow.refl m)⟩
    | some a =>
      obtain ⟨m1, e1, g1⟩ := fetch_round true .i32 cfg h hw (elemAt_known hk ha)
      have hc : Foreign src → a.left true .i32 cfg w m = [] := fun hf => by
        obtain ⟨x, rfl⟩ := elemAt_foreign hf ha
        rfl
      simp only [Option.map_some, e1]
      rcases convert .i32 cfg a with ⟨v, e⟩
      simp only
      split
      · cases e with
        | some e => exact ⟨⟨rfl, rfl⟩, _, Sound.exc g1, hc⟩
        | none => exact (ih (g1.wf h) (hw.mono g1.le) (hk.mono g1.le)).after g1 hc
      · exact Fine.loose ⟨rfl, Sound.ub⟩

theorem insertLoop_ok (cfg : Cfg) {w : World} {src : Operand} (p : Nat) {n i : Nat} {cur : S} {m : Mem}
    (h : m.WF) (hw : w.Ready m.next) (hk : src.Known m.next) :
    Loose w.self m (insertLoop cfg w src p n i cur m) (LinkedList.insertLoop cfg src.plain p n i cur) (Foreign src) := by
  induction n generalizing i cur m with
  | zero => exact Fine.loose ⟨⟨rfl, trivial⟩, Sound.ok (Grow.refl m)⟩
  | succ n ih =>
    rw [insertLoop, LinkedList.insertLoop, LinkedList.srcItem, srcItem_eq]
    cases ha : elemAt cur.vals src i with
    | none => exact Fine.loose ⟨⟨rfl, rfl⟩, Sound.exc (Grow.refl m)⟩
    | some a =>
      obtain ⟨m1, e1, g1⟩ := fetch_round true .i32 cfg h hw (elemAt_known hk ha)
      have hc : Foreign src → a.left true .i32 cfg w m = [] := fun hf => by
        obtain ⟨x, rfl⟩ := elemAt_foreign hf ha
        rfl
      simp only [Option.map_some, e1]
      rcases convert .i32 cfg a with ⟨v, e⟩
      simp only
      split
      · cases e with
        | some e => exact ⟨⟨rfl, rfl⟩, _, Sound.exc g1, hc⟩
        | none => exact (ih (g1.wf h) (hw.mono g1.le) (hk.mono g1.le)).after g1 hc
      · exact Fine.loose ⟨rfl, Sound.ub⟩

theorem assignLoop_none {cfg : Cfg} {w : World} {src : Operand} {p n i : Nat} {cur : S} {m : Mem}
    {s : S × Mem} {v : Val} (e : assignLoop cfg w src p n i cur m = .ok s v) : v = .none := by
  induction n generalizing i cur m with
  | zero => cases e; rfl
  | succ n ih =>
    rw [assignLoop] at e
    repeat' split at e
    all_goals first | cases e | exact ih e

theorem setSlice_ok (cfg : Cfg) {w : World} (s : S) {m : Mem} (h : m.WF) (hw : w.Ready m.next)
    (sl : SliceArg) {src : Operand} (hk : src.Known m.next) :
    Loose w.self m (setSlice cfg w s m sl src) (LinkedList.assSubscript cfg s (.slice sl) (some (.inr src.plain)))
      (Foreign src) := by
  unfold setSlice LinkedList.assSubscript
  rw [sizeOf_eq]
  dsimp only
  rcases sliceUnpack sl with e | ⟨start, stop, step⟩
  · exact Fine.loose ⟨⟨rfl, rfl⟩, Sound.exc (Grow.refl m)⟩
  · simp only
    rcases adjustIndices s.size start stop step with ⟨start', stop', n⟩
    simp only
    cases src.plain.isSequence with
    | false => exact Fine.loose ⟨⟨rfl, rfl⟩, Sound.exc (Grow.refl m)⟩
    | true =>
      simp only [if_true, Bool.not_true, Bool.false_eq_true, if_false]
      generalize ArrayList.srcSize s.vals src.plain = k
      split
      · exact Fine.loose ⟨⟨rfl, rfl⟩, Sound.exc (Grow.refl m)⟩
      · rcases listAt s.size start'.toNat with u | p
        · exact Fine.loose ⟨rfl, Sound.ub⟩
        · simp only
          split
          · exact assignLoop_ok cfg p h hw hk
          · split
            · have q := assignLoop_ok cfg (n := k.toNat) (i := 0) (cur := s) p h hw hk
              rcases q.split (fun s v e => assignLoop_none e) with
                ⟨s', m', r, leak, e1, e2, g, hc⟩ | ⟨s', m', e, e1, e2⟩ | ⟨s', m', v, r, e, e1, e2⟩ | ⟨u, e1, e2⟩
              · rw [e1, e2]
                dsimp only
                rcases walkFwd s'.size (n - k).toNat (p + k.toNat) with u | q
                · exact Fine.loose ⟨rfl, Sound.ub⟩
                · dsimp only
                  split
                  · exact ⟨⟨rfl, trivial, rfl⟩, leak, Sound.pending g, hc⟩
                  · exact ⟨⟨rfl, trivial⟩, leak, Sound.ok g, hc⟩
              all_goals rw [e1, e2] at q ⊢; exact q
            · have q := assignLoop_ok cfg (n := n.toNat) (i := 0) (cur := s) p h hw hk
              rcases q.split (fun s v e => assignLoop_none e) with
                ⟨s', m', r, leak, e1, e2, g, hc⟩ | ⟨s', m', e, e1, e2⟩ | ⟨s', m', v, r, e, e1, e2⟩ | ⟨u, e1, e2⟩
              · rw [e1, e2]
                exact (insertLoop_ok cfg p (g.wf h) (hw.mono g.le) (hk.mono g.le)).after g hc
              all_goals rw [e1, e2] at q ⊢; exact q

theorem elems_known {s : S} {src : Operand} {n : Obj} (h : src.Known n) {as : List Elem} (e : elems s src = some as) :
    ∀ a ∈ as, a.Known n := by
  cases src with
  | same v =>
    cases e
    intro a ha
    obtain ⟨y, _, rfl⟩ := List.mem_map.1 ha
    trivial
  | self =>
    cases e
    intro a ha
    obtain ⟨y, _, rfl⟩ := List.mem_map.1 ha
    trivial
  | items sh o it xs => cases sh <;> first | (cases e; done) | (cases e; exact known_items h.2.2.1)
  | notIterable => cases e

theorem elems_clean {s : S} {src : Operand} (h : Foreign src) {as : List Elem} (e : elems s src = some as) :
    Clean true as := by
  cases src with
  | same v => exact absurd h id
  | self => exact absurd h id
  | items sh o it xs => cases sh <;> first | (cases e; done) | (cases e; exact clean_items true xs)
  | notIterable => cases e

theorem cmpItems_eq (cfg : Cfg) (s : S) (src : Operand) :
    LinkedList.cmpItems cfg s src.plain = (elems s src).map (·.map (convert .i32 cfg)) := by
  cases src with
  | same v => simp only [Operand.plain, LinkedList.cmpItems, elems, Option.map_some, List.map_map]; rfl
  | self => simp only [Operand.plain, LinkedList.cmpItems, elems, Option.map_some, List.map_map]; rfl
  | items sh o it xs =>
    cases sh <;> simp only [Operand.plain, LinkedList.cmpItems, elems, Option.map_some, List.map_map, Option.map_none] <;> rfl
  | notIterable => rfl

theorem noLen {s : S} {src : Operand} {as : List Elem} (e : elems s src = some as) : ∀ xs, src.plain ≠ .seqNoLen xs := by
  intro xs h
  cases src with
  | items sh o it ys => cases sh <;> cases h <;> cases e
  | _ => cases h

theorem eq_ok (neg : Bool) (cfg : Cfg) {w : World} (s : S) {m : Mem} (h : m.WF) (hw : w.Ready m.next)
    {src : Operand} (hk : src.Known m.next) {as : List Elem} (e : elems s src = some as) :
    Loose w.self m (eq neg cfg w s m as)
      (LinkedList.boolOut s (neg ^^ (LinkedList.eq cfg s src.plain).1) (LinkedList.eq cfg s src.plain).2) (Foreign src) := by
  have hq : LinkedList.eq cfg s src.plain = if as.length ≠ s.size then (false, none) else
      ArrayList.eqLoop s.vals (as.map (convert .i32 cfg)) := by
    have hc := cmpItems_eq cfg s src
    rw [e] at hc
    unfold LinkedList.eq
    split
    · rename_i xs hx
      exact absurd hx (noLen e xs)
    · rw [hc]
      simp only [Option.map_some, List.length_map]
  rw [hq]
  unfold eq
  by_cases hn : as.length ≠ s.size
  · rw [if_pos hn, if_pos hn]
    exact Fine.loose ⟨⟨rfl, rfl⟩, answer_ok s _ _ (Grow.refl m)⟩
  · rw [if_neg hn, if_neg hn]
    obtain ⟨m', leak, e1, g, c⟩ := eqLoop_ok true .i32 cfg (xs := s.vals) h hw (elems_known hk e)
    rw [e1]
    simp only
    refine ⟨?_, leak, answer_ok s _ _ g, fun hf => c (elems_clean hf e)⟩
    generalize ArrayList.eqLoop s.vals _ = q
    rcases q with ⟨b, _ | e⟩
    · exact ⟨rfl, rfl⟩
    · exact ⟨rfl, rfl, rfl⟩

theorem ord_ok (op : CmpOp) (cfg : Cfg) {w : World} (s : S) {m : Mem} (h : m.WF) (hw : w.Ready m.next)
    {src : Operand} (hk : src.Known m.next) {as : List Elem} (e : elems s src = some as) :
    Loose w.self m (ord op cfg w s m as) (LinkedList.ord cfg op s src.plain) (Foreign src) := by
  have hq : LinkedList.ord cfg op s src.plain =
      if s.size ≠ as.length then .ok s (.bool (decide (s.size < as.length)))
      else
        match ArrayList.ordLoop op s.vals (as.map (convert .i32 cfg)) none with
        | (some b, p) => LinkedList.boolOut s b p
        | (none, p) => LinkedList.boolOut s false p := by
    have hc := cmpItems_eq cfg s src
    rw [e] at hc
    unfold LinkedList.ord
    split
    · rename_i xs hx
      exact absurd hx (noLen e xs)
    · rw [hc]
      simp only [Option.map_some, List.length_map]
      rfl
  rw [hq]
  unfold ord
  by_cases hn : s.size ≠ as.length
  · rw [if_pos hn, if_pos hn]
    exact Fine.loose ⟨⟨rfl, rfl⟩, Sound.ok (Grow.refl m)⟩
  · rw [if_neg hn, if_neg hn]
    obtain ⟨m', leak, e1, g, c⟩ := ordLoop_ok true .i32 cfg op (xs := s.vals) (p := none) h hw (elems_known hk e)
    rw [e1]
    generalize ArrayList.ordLoop op s.vals _ none = q
    have hf := fun hf => c (elems_clean hf e)
    rcases q with ⟨_ | b, _ | e⟩
    · exact ⟨⟨rfl, rfl⟩, leak, answer_ok s _ _ g, hf⟩
    · exact ⟨⟨rfl, rfl, rfl⟩, leak, answer_ok s _ _ g, hf⟩
    · exact ⟨⟨rfl, rfl⟩, leak, answer_ok s _ _ g, hf⟩
    · exact ⟨⟨rfl, rfl, rfl⟩, leak, answer_ok s _ _ g, hf⟩

theorem boolOut_direct (s : S) (b : Bool) (p : Option Exc) : ∀ r, ret? (LinkedList.boolOut s b p) = some r → Direct r := by
  cases p <;> (rintro r ⟨⟩; trivial)

theorem compare_direct (cfg : Cfg) (op : CmpOp) (s : S) (src : Src) :
    ∀ r, ret? (LinkedList.compare cfg op s src) = some r → Direct r := by
  have ho : ∀ op r, ret? (LinkedList.ord cfg op s src) = some r → Direct r := by
    intro op r hr
    unfold LinkedList.ord at hr
    repeat' split at hr
    all_goals first | exact boolOut_direct s _ _ r hr | (cases hr; trivial) | cases hr
  cases op with
  | eq => exact boolOut_direct s _ _
  | ne => exact boolOut_direct s _ _
  | lt => exact ho .lt
  | le => exact ho .le
  | gt => exact ho .gt
  | ge => exact ho .ge

theorem compare_ok (cfg : Cfg) {w : World} (op : CmpOp) (s : S) {m : Mem} (h : m.WF) (hw : w.Ready m.next)
    (hs : w.self < m.next) (hl : m.heap.live w.self = true) {src : Operand} (hk : src.Known m.next) :
    Loose w.self m (compare cfg w op s m src) (LinkedList.compare cfg op s src.plain) (Foreign src) := by
  unfold compare
  cases e : elems s src with
  | none => exact (Arr.plain_fine h hw hs hl (compare_direct cfg op s src.plain)).loose
  | some as =>
    cases op with
    | eq => have q := eq_ok false cfg s h hw hk e; simp only [Bool.false_bne] at q; exact q
    | ne => have q := eq_ok true cfg s h hw hk e; simp only [Bool.true_bne] at q; exact q
    | lt => exact ord_ok .lt cfg s h hw hk e
    | le => exact ord_ok .le cfg s h hw hk e
    | gt => exact ord_ok .gt cfg s h hw hk e
    | ge => exact ord_ok .ge cfg s h hw hk e

theorem direct (cfg : Cfg) (strict : Bool) (s : S) {op : Op} (h : Bare op) :
    ∀ r, ret? (LinkedList.step cfg strict s op) = some r → Direct r := by
  intro r hr
  cases op with
  | extend s => exact absurd h id
  | iadd s => exact absurd h id
  | add s => exact absurd h id
  | cmp o s => exact absurd h id
  | set k v =>
    cases k with
    | idx a =>
      cases a <;> simp only [LinkedList.step, LinkedList.assSubscript, LinkedList.setItem] at hr
      all_goals repeat' split at hr
      all_goals first | (cases hr; trivial) | cases hr
    | slice sl =>
      cases v with
      | inr src => exact absurd h id
      | inl a =>
        simp only [LinkedList.step, LinkedList.assSubscript] at hr
        repeat' split at hr
        all_goals first | (cases hr; trivial) | cases hr
  | _ =>
    simp only [LinkedList.step, LinkedList.append, LinkedList.insert, LinkedList.pop, LinkedList.remove, LinkedList.index,
      LinkedList.count, LinkedList.contains, LinkedList.subscript, LinkedList.getItem, LinkedList.assSubscript,
      LinkedList.setItem, LinkedList.mul, LinkedList.rmul, LinkedList.imul, LinkedList.repr] at hr
    repeat' split at hr
    all_goals first | (cases hr; trivial) | cases hr

/-- Every call of a linked list. -/
theorem step_ok (cfg : Cfg) (strict : Bool) {w : World} (s : S) {m : Mem} (h : m.WF) (hw : w.Ready m.next)
    (hs : w.self < m.next) (hl : m.heap.live w.self = true) {c : Call} (hk : c.Known m.next) :
    Loose w.self m (step cfg strict w s m c) (LinkedList.step cfg strict s c.toOp) (¬ Leaky c) := by
  cases c with
  | extend src => exact (extend_ok false strict s h hs hl hw hk).loose
  | iadd src => exact (extend_ok true strict s h hs hl hw hk).loose
  | add src =>
    obtain ⟨a, leak, b, c⟩ := add_ok true s h hw (LinkedList.toList cfg s) hk
    refine ⟨a, leak, b, fun hn => ?_⟩
    cases src with
    | same v => exact c
    | self => exact c
    | items sh o it xs => exact absurd trivial hn
    | notIterable => exact absurd trivial hn
  | setSlice sl src =>
    obtain ⟨a, leak, b, c⟩ := setSlice_ok cfg s h hw sl hk
    refine ⟨a, leak, b, fun hn => c ?_⟩
    cases src <;> first | exact absurd trivial hn | trivial
  | cmp op src =>
    obtain ⟨a, leak, b, c⟩ := compare_ok cfg op s h hw hs hl hk
    refine ⟨a, leak, b, fun hn => c ?_⟩
    cases src <;> first | exact absurd trivial hn | trivial
  | plain op =>
    have hd := direct cfg strict s hk
    cases op with
    | get k =>
      obtain ⟨a, leak, b, _⟩ := plain_ok true true h hw hs hl hd
      exact ⟨a, leak, b, fun hn => absurd trivial hn⟩
    | toList =>
      obtain ⟨a, leak, b, _⟩ := plain_ok true true h hw hs hl hd
      exact ⟨a, leak, b, fun hn => absurd trivial hn⟩
    | _ => exact (Arr.plain_fine h hw hs hl hd).loose

end Lnk

/-! ## Histories -/

theorem drop_inv {m m' : Mem} {o : Obj} (e : m.drop o = .ok m') :
    m'.heap.imm = m.heap.imm ∧ m'.next = m.next ∧
      ∀ x, m.heap.imm x = false → m'.heap.rc x + [o].count x = m.heap.rc x := by
  unfold Mem.drop Heap.decref at e
  by_cases hi : m.heap.imm o = true
  · rw [if_pos hi] at e
    cases e
    refine ⟨rfl, rfl, fun x hx => ?_⟩
    have : o ≠ x := by rintro rfl; rw [hi] at hx; cases hx
    simp [this]
  · rw [if_neg hi] at e
    by_cases h0 : m.heap.rc o = 0
    · rw [if_pos h0] at e; cases e
    · rw [if_neg h0] at e
      cases e
      refine ⟨rfl, rfl, fun x hx => ?_⟩
      show (if x = o then m.heap.rc o - 1 else m.heap.rc x) + _ = _
      by_cases hx : x = o
      · subst hx; rw [if_pos rfl]; simp; omega
      · rw [if_neg hx]; simp [Ne.symm hx]

/-- Histories balance if the calls do. -/
theorem hist_ok {step : World → σ → Mem → Call → Out (σ × Mem) Val} {ok : Call → Prop} {self : Obj}
    (hstep : ∀ w s m c, Mem.WF m → Ready w m c → ok c → Sound w.self m (step w s m c) [])
    {s s'' : σ} {m m'' : Mem} {got gone : List Obj} (hh : Hist step ok self s m got gone s'' m'') (h : m.WF) :
    m''.WF ∧ m''.heap.imm = m.heap.imm ∧
      ∀ o, m.heap.imm o = false → m''.heap.rc o + gone.count o = m.heap.rc o + got.count o := by
  induction hh with
  | nil => exact ⟨h, rfl, fun o _ => by simp⟩
  | @call w c s m s' m' got gone s'' m'' hs hr hok e _ ih =>
    subst hs
    have g := hstep w s m c h hr hok s' m' e
    rw [List.append_nil] at g
    obtain ⟨h1, h2, h3⟩ := ih (g.wf h)
    refine ⟨h1, h2.trans g.imm, fun o ho => ?_⟩
    have a := h3 o (by rw [g.imm]; exact ho)
    have b := g.rc o ho
    rw [List.count_append]
    omega
  | @release o s m m' got gone s'' m'' e _ ih =>
    obtain ⟨e1, e2, e3⟩ := drop_inv e
    obtain ⟨h1, h2, h3⟩ := ih (fun x hx => by
      rw [e2] at hx
      obtain ⟨a, b⟩ := h x hx
      have := e3 x b
      refine ⟨by omega, by rw [e1]; exact b⟩)
    refine ⟨h1, h2.trans e1, fun x hx => ?_⟩
    have a := h3 x (by rw [e1]; exact hx)
    have b := e3 x hx
    have c := Heap.count_cons_int o x gone
    omega
  | @take o s m got gone s'' m'' hlt _ ih =>
    have g := gain_grow hlt
    obtain ⟨h1, h2, h3⟩ := ih (g.wf h)
    refine ⟨h1, h2.trans g.imm, fun x hx => ?_⟩
    have a := h3 x (by rw [g.imm]; exact hx)
    have b := g.rc x hx
    have c := Heap.count_cons_int o x got
    omega
  | @make s m got gone s'' m'' _ ih =>
    have g := make_grow h
    obtain ⟨h1, h2, h3⟩ := ih (g.wf h)
    refine ⟨h1, h2.trans g.imm, fun x hx => ?_⟩
    have a := h3 x (by rw [g.imm]; exact hx)
    have b := g.rc x hx
    have c := Heap.count_cons_int m.make.2 x got
    omega

/-! ## The linked list's additional references, exactly -/

/-- `==` with a list of the class that answers True has fetched every element. -/
theorem eqLoop_leak (K : Kind) (cfg : Cfg) {w : World} {xs ys : List Int} {m : Mem} (h : m.WF) (hw : w.Ready m.next)
    (hn : ys.length = xs.length) (ht : ArrayList.eqLoop xs ((ys.map Elem.own).map (convert K cfg)) = (true, none)) :
    ∃ m' leak, eqLoop true K cfg w xs (ys.map .own) m = .ok (true, none, m') ∧ Grow m m' leak ∧ leak.length = xs.length := by
  induction xs generalizing ys m with
  | nil =>
    cases ys with
    | nil => exact ⟨m, [], rfl, Grow.refl m, rfl⟩
    | cons y ys => cases hn
  | cons x xs ih =>
    cases ys with
    | nil => cases hn
    | cons y ys =>
      obtain ⟨m1, e1, g1⟩ := fetch_round true K cfg h hw (a := .own y) trivial
      simp only [List.map_cons, eqLoop, e1] at ht ⊢
      rcases hc : convert K cfg (.own y) with ⟨z, _ | e⟩
      · rw [hc] at ht
        simp only [ArrayList.eqLoop] at ht
        by_cases hxy : x ≠ z
        · rw [if_pos hxy] at ht; cases ht
        · rw [if_neg hxy] at ht
          obtain ⟨m2, leak, e2, g2, l2⟩ := ih (g1.wf h) (hw.mono g1.le) (by simpa using hn) ht
          simp only [if_neg hxy]
          exact ⟨m2, _, e2, g1.trans g2, by rw [List.length_append, l2]; rfl⟩
      · rw [hc] at ht
        simp only [ArrayList.eqLoop] at ht
        cases ht

/-! ## Construction, sorting, iterators -/

theorem initFast_eq (K : Kind) (xs : List Item) (l : List Int) :
    initFast K xs l = ArrayList.initLoop K (xs.map (·.arg)) l := by
  induction xs generalizing l with
  | nil => rfl
  | cons x xs ih =>
    simp only [initFast, List.map_cons, ArrayList.initLoop]
    rcases toElem K x.arg with ⟨v, _ | e⟩
    · exact ih _
    · rfl

theorem initLoop_ok (K : Kind) {i : Obj} {xs : List Item} {l : List Int} {m0 m : Mem} (h0 : m0.WF) (g : Grow m0 m [i])
    (hx : ∀ x ∈ xs, ∀ o, x.obj = some o → o < m.next) :
    ∃ m', initLoop K i xs l m =
        .ok ((ArrayList.initLoop K (xs.map (·.arg)) l).1, (ArrayList.initLoop K (xs.map (·.arg)) l).2, m') ∧
      Grow m0 m' [] := by
  induction xs generalizing l m with
  | nil =>
    obtain ⟨m', e, g'⟩ := drop_grow g
    exact ⟨m', by simp [initLoop, e, ArrayList.initLoop], g'⟩
  | cons x xs ih =>
    have gx := newRef_grow (g.wf h0) (hx x (by simp))
    simp only [initLoop, List.map_cons, ArrayList.initLoop]
    rcases toElem K x.arg with ⟨v, _ | e⟩
    · obtain ⟨m1, e1, g1⟩ := round (g.wf h0) (hx x (by simp))
      obtain ⟨m2, e2, g2⟩ := ih (l := l ++ [v]) (m := m1) (by simpa using g.trans g1) (fun y hy o e =>
        Nat.lt_of_lt_of_le (hx y (by simp [hy]) o e) g1.le)
      exact ⟨m2, by simp [e1, e2], g2⟩
    · obtain ⟨m1, e1, g1⟩ := drops_grow (os := [i, (m.newRef x.obj).2]) (gs := [])
        ((g.trans gx).perm (List.Perm.swap _ _ _))
      exact ⟨m1, by simp [e1], g1⟩

theorem init_ok (K : Kind) {m : Mem} (h : m.WF) {src : Operand} (hk : src.Known m.next) :
    (init K m src).mapState Prod.fst = ArrayList.init K (some (.inr src.plain)) ∧
      ∀ l m', (init K m src).state? = some (l, m') → Grow m m' [] := by
  cases src with
  | same v => exact ⟨rfl, by rintro l m' ⟨⟩; exact Grow.refl m⟩
  | self => exact ⟨rfl, by rintro l m' ⟨⟩; exact Grow.refl m⟩
  | notIterable => exact ⟨rfl, by rintro l m' ⟨⟩; exact Grow.refl m⟩
  | items sh o it xs =>
    obtain ⟨h1, h2, h3, _⟩ := hk
    obtain ⟨m1, e1, g1⟩ := drop_grow (gain_grow (m := m) h1)
    have g0 := newRef_grow h h2
    obtain ⟨m2, e2, g2⟩ := initLoop_ok K (l := []) h g0 (fun x hx o e => Nat.lt_of_lt_of_le (h3 x hx o e) g0.le)
    cases sh with
    | list =>
      simp only [init, e1, Operand.plain, ArrayList.init, initFast_eq]
      generalize ArrayList.initLoop K (xs.map (·.arg)) [] = q
      rcases q with ⟨l, _ | e⟩ <;> exact ⟨rfl, by rintro l m' ⟨⟩; exact g1⟩
    | tuple =>
      simp only [init, e1, Operand.plain, ArrayList.init, initFast_eq]
      generalize ArrayList.initLoop K (xs.map (·.arg)) [] = q
      rcases q with ⟨l, _ | e⟩ <;> exact ⟨rfl, by rintro l m' ⟨⟩; exact g1⟩
    | seq =>
      simp only [init, e2, Operand.plain, ArrayList.init, Shape.fail]
      generalize ArrayList.initLoop K (xs.map (·.arg)) [] = q
      rcases q with ⟨l, _ | e⟩ <;> exact ⟨rfl, by rintro l m' ⟨⟩; exact g2⟩
    | seqNoLen =>
      simp only [init, e2, Operand.plain, ArrayList.init, Shape.fail]
      generalize ArrayList.initLoop K (xs.map (·.arg)) [] = q
      rcases q with ⟨l, _ | e⟩ <;> exact ⟨rfl, by rintro l m' ⟨⟩; exact g2⟩
    | iter f =>
      simp only [init, e2, Operand.plain, ArrayList.init, Shape.fail]
      generalize ArrayList.initLoop K (xs.map (·.arg)) [] = q
      rcases q with ⟨l, _ | e⟩ <;> cases f <;> exact ⟨rfl, by rintro l m' ⟨⟩; exact g2⟩

theorem keyLoop_ok {keys : List (Except Exc (Option Obj))} {taken os : List Obj} {m0 m : Mem} (h0 : m0.WF)
    (hk : ∀ o, .ok (some o) ∈ keys → o < m.next) (g : Grow m0 m (taken ++ os)) :
    ∃ ks m', keyLoop keys taken m = .ok (ks, firstError keys, m') ∧
      (if firstError keys = none then Grow m0 m' (ks ++ os) else Grow m0 m' os) := by
  induction keys generalizing taken m with
  | nil => exact ⟨taken, m, rfl, by simpa [firstError] using g⟩
  | cons k keys ih =>
    cases k with
    | error e =>
      obtain ⟨m1, e1, g1⟩ := drops_grow (os := taken.reverse) (gs := os)
        (g.perm ((List.reverse_perm taken).symm.append_right os))
      exact ⟨[], m1, by simp [keyLoop, e1, firstError], by simpa [firstError] using g1⟩
    | ok k =>
      have gk := newRef_grow (g.wf h0) (o := k) (fun x e => hk x (by simp [e]))
      exact ih (taken := taken ++ [(m.newRef k).2]) (m := (m.newRef k).1) (fun o ho =>
        Nat.lt_of_lt_of_le (hk o (by simp [ho])) gk.le) ((g.trans gk).perm (by
          refine List.perm_iff_count.2 fun x => ?_
          simp only [List.count_append, List.count_cons, List.count_nil]
          omega))

theorem sortKeyed_ok {w : World} {m : Mem} (h : m.WF) (hw : w.Ready m.next) (ps : List PyLong)
    {keys : List (Except Exc (Option Obj))} (hk : ∀ o, .ok (some o) ∈ keys → o < m.next) {order : List Obj → List Obj}
    (ho : ∀ l, (order l).Perm l) :
    ∃ m', sortKeyed w m ps keys order = .ok (m', firstError keys) ∧ Grow m m' [] := by
  have g0 : Grow m (boxAll false w ps m).1 (boxAll false w ps m).2 := by
    simpa [extraRefs] using boxAll_grow false (ps := ps) h hw
  obtain ⟨ks, m1, e1, g1⟩ := keyLoop_ok (taken := []) (os := (boxAll false w ps m).2) h
    (fun o hm => Nat.lt_of_lt_of_le (hk o hm) g0.le) g0
  simp only [sortKeyed, e1]
  cases hf : firstError keys with
  | some e =>
    rw [if_neg (by rw [hf]; exact nofun)] at g1
    obtain ⟨m2, e2, g2⟩ := drops_grow (gs := []) (by simpa using g1)
    exact ⟨m2, by simp [e2], g2⟩
  | none =>
    rw [if_pos hf] at g1
    obtain ⟨m2, e2, g2⟩ := drops_grow (g1.perm ((ho ks).symm.append_right _))
    obtain ⟨m3, e3, g3⟩ := drops_grow (gs := []) (by simpa using g2.perm (ho (boxAll false w ps m).2).symm)
    exact ⟨m3, by simp [e2, e3], g3⟩

theorem iterNew_ok {w : World} {m : Mem} (h : m.WF) (hs : w.self < m.next) (hl : m.heap.live w.self = true) :
    ∃ m', iterNew w m = .ok (m', m.next) ∧ Grow m m' [m.next, w.self] := by
  have g0 := make_grow h
  obtain ⟨m1, e1, g1⟩ := incref_grow (m := m.make.1) (Nat.lt_of_lt_of_le hs g0.le) (g0.live hl)
  exact ⟨m1, by simp only [iterNew, e1]; rfl, (g0.trans g1).perm (List.Perm.swap _ _ _)⟩

theorem iterDrop_ok {w : World} {m m2 : Mem} {gs : List Obj} (h : m.WF) (g : Grow m m2 (m.next :: w.self :: gs))
    (hs : w.self < m.next) (hn : m.next ∉ gs) : ∃ m3, iterDrop w m2 m.next = .ok m3 ∧ Grow m m3 gs := by
  obtain ⟨m3, e3, g3⟩ := drop_grow g
  have hi := h m.next (Nat.le_refl _)
  have hd : m3.heap.live m.next = false := by
    unfold Heap.live
    rw [g3.imm, hi.2, g3.rc _ hi.2, hi.1, List.count_eq_zero_of_not_mem (fun hm => by
      rcases List.mem_cons.1 hm with e | e
      · exact Nat.lt_irrefl _ (e ▸ hs)
      · exact hn e)]
    rfl
  obtain ⟨m4, e4, g4⟩ := drop_grow g3
  exact ⟨m4, by simp [iterDrop, e3, hd, e4], g4⟩

end Verif.Ledger
