import Verif.Lemmas.LinkedIter
import Verif.Lemmas.IntLinkedList
import Verif.Lemmas.Stored
import Verif.Model.LinkedSession
import Verif.Spec.GuardIter

/-! Helper lemmas: node identities and iterators under API calls. -/

namespace Verif.LinkedList

/-- Every state an outcome leaves satisfies `P`. -/
def OutAll (P : S → Prop) (o : LLOut) : Prop := ∀ s, o.state? = some s → P s

theorem outAll_ok {P : S → Prop} {s : S} {r : Ret} (h : P s) : OutAll P (.ok s r) := by
  rintro _ ⟨⟩; exact h
theorem outAll_exc {P : S → Prop} {s : S} {e : Exc} (h : P s) : OutAll P (.exc s e) := by
  rintro _ ⟨⟩; exact h
theorem outAll_pending {P : S → Prop} {s : S} {r : Ret} {e : Exc} (h : P s) : OutAll P (.pending s r e) := by
  rintro _ ⟨⟩; exact h
theorem outAll_ub {P : S → Prop} {u : UB} : OutAll P (.ub u) := by rintro _ ⟨⟩

/-- Splits until every leaf is an outcome whose state is known to satisfy the property. -/
macro "leaves " h:term : tactic => `(tactic| repeat' (first
  | exact outAll_ub | exact outAll_exc $h | exact outAll_ok $h | exact outAll_pending $h | split))

theorem read_index {P : S → Prop} {s : S} (h : P s) (a : Arg) (i j : Option Arg) : OutAll P (index s a i j) := by
  unfold index
  simp only
  leaves h

theorem read_count {P : S → Prop} {s : S} (h : P s) (a : Arg) : OutAll P (count s a) := by
  unfold count
  split
  split
  · exact outAll_exc h
  · exact outAll_ok h

theorem read_contains {P : S → Prop} {s : S} (h : P s) (a : Arg) : OutAll P (contains s a) := by
  unfold contains
  split
  · split
    · exact outAll_exc h
    · exact outAll_ok h
  · exact outAll_ok h

theorem read_get {P : S → Prop} {s : S} (h : P s) (cfg : Cfg) (k : Key) : OutAll P (subscript cfg s k) := by
  unfold subscript getItem
  simp only
  leaves h

theorem read_add {P : S → Prop} {s : S} (h : P s) (cfg : Cfg) (src : Src) : OutAll P (add cfg s src) := by
  unfold add
  split
  · exact outAll_exc h
  · exact outAll_exc h
  · exact outAll_ok h
  · exact outAll_exc h

theorem read_rmul {P : S → Prop} {s : S} (h : P s) (a : Arg) : OutAll P (rmul s a) := by
  unfold rmul
  split
  · exact outAll_exc h
  · rw [mul_eq]; exact outAll_ok h

theorem read_boolOut {P : S → Prop} {s : S} (h : P s) (b : Bool) (p : Option Exc) : OutAll P (boolOut s b p) := by
  unfold boolOut
  split
  · exact outAll_ok h
  · exact outAll_pending h

theorem read_cmp {P : S → Prop} {s : S} (h : P s) (cfg : Cfg) (op : CmpOp) (src : Src) :
    OutAll P (compare cfg op s src) := by
  have ho : ∀ op, OutAll P (ord cfg op s src) := by
    intro op
    unfold ord
    split
    · exact outAll_exc h
    · split
      · exact outAll_ok h
      · split
        · exact outAll_ok h
        · split <;> exact read_boolOut h _ _
  cases op
  · exact read_boolOut h _ _
  · exact read_boolOut h _ _
  all_goals exact ho _

theorem read_repr {P : S → Prop} {s : S} (h : P s) : OutAll P (repr s) := by
  unfold repr
  split
  · exact outAll_ok h
  · split
    · exact outAll_ub
    · exact outAll_ok h

theorem set_idx_vals {P : S → Prop} {s : S} (h : P s) (hp : ∀ p a, P (s.assign p (toElem .i32 a).1)) (cfg : Cfg)
    (a : Arg) (v : Arg ⊕ Src) : OutAll P (assSubscript cfg s (.idx a) (some v)) := by
  have set_some : ∀ i x, OutAll P (setItem s i (some x)) := by
    intro i x
    unfold setItem
    simp only
    generalize (if i < 0 then (s.size : Int) + i else i) = j
    split
    · exact outAll_exc h
    · split
      · exact outAll_ub
      · next p _ =>
        have := hp p x
        generalize toElem .i32 x = y at this
        obtain ⟨v, e⟩ := y
        cases e <;> leaves this
  unfold assSubscript
  split
  · exact outAll_ub
  · next a' ha hn =>
    split
    · exact outAll_exc h
    · cases v <;> exact set_some _ _
  · next ha => cases ha

theorem set_idx {P : S → Prop} {s : S} (h : P s) (hp : ∀ p v, P (s.assign p v)) (cfg : Cfg) (a : Arg)
    (v : Arg ⊕ Src) : OutAll P (assSubscript cfg s (.idx a) (some v)) :=
  set_idx_vals h (fun p _ => hp p _) cfg a v

theorem del_idx {P : S → Prop} {s : S} (h : P s) (he : ∀ p, P (s.erase p)) (cfg : Cfg) (a : Arg) :
    OutAll P (assSubscript cfg s (.idx a) none) := by
  have del : ∀ i, OutAll P (setItem s i none) := by
    intro i
    unfold setItem
    simp only
    generalize (if i < 0 then (s.size : Int) + i else i) = j
    split
    · exact outAll_exc h
    · leaves (he _)
  unfold assSubscript
  split
  · exact outAll_ub
  · split
    · exact outAll_exc h
    · exact del _
  · next ha => cases ha

/-! ### Node identities stay distinct -/

theorem srcItem_fits {cfg : Cfg} {s : S} {src : Src} {i : Nat} {v : Int} {e : Option Exc}
    (h : srcItem cfg s src i = some (v, e)) : FitsS 32 v := by
  refine ArrayList.srcItem_all (K := .i32) (fun a => ArrayList.toElem_fits .i32 a) (fun x => ?_) h
  unfold rebox
  simp only
  split
  · exact wrapS_fits .i32 _
  · decide

theorem assignLoop_out {P : S → Prop} (hA : ∀ s p v, FitsS 32 v → P s → P (s.assign p v))
    (cfg : Cfg) (src : Src) (p n i : Nat) (s : S) (h : P s) : OutAll P (assignLoop cfg src p n i s) := by
  induction n generalizing i s with
  | zero => exact outAll_ok h
  | succ n ih =>
    rw [assignLoop]
    split
    · exact outAll_exc h
    · next v e hv =>
      have h' := hA s (p + i) v (srcItem_fits hv) h
      split
      · split
        · exact outAll_exc h'
        · exact ih _ _ h'
      · exact outAll_ub

theorem insertLoop_out {P : S → Prop} (hI : ∀ s p v, FitsS 32 v → P s → P (s.insert p v))
    (cfg : Cfg) (src : Src) (p n i : Nat) (s : S) (h : P s) : OutAll P (insertLoop cfg src p n i s) := by
  induction n generalizing i s with
  | zero => exact outAll_ok h
  | succ n ih =>
    rw [insertLoop]
    split
    · exact outAll_exc h
    · next v e hv =>
      have h' := hI s (p + i) v (srcItem_fits hv) h
      split
      · split
        · exact outAll_exc h'
        · exact ih _ _ h'
      · exact outAll_ub

theorem walkFwd_ge {n k p q : Nat} (h : walkFwd n k p = .ok q) : p ≤ q := by
  induction k generalizing p with
  | zero => cases h; exact Nat.le_refl _
  | succ k ih =>
    rw [walkFwd] at h
    split at h
    · have := ih h; omega
    · cases h

theorem assSubscript_slice_out {P : S → Prop} (hA : ∀ s p v, FitsS 32 v → P s → P (s.assign p v))
    (hI : ∀ s p v, FitsS 32 v → P s → P (s.insert p v)) (hE : ∀ s p q, p ≤ q → P s → P (s.eraseRange p q))
    (cfg : Cfg) (s : S) (h : P s) (sl : SliceArg) (val : Option (Arg ⊕ Src)) :
    OutAll P (assSubscript cfg s (.slice sl) val) := by
  simp only [assSubscript]
  cases sliceUnpack sl with
  | error e => exact outAll_exc h
  | ok f =>
    obtain ⟨a, b, c⟩ := f
    simp only
    generalize adjustIndices (s.size : Int) a b c = t
    obtain ⟨start, stop, n⟩ := t
    simp only
    cases val with
    | none => exact outAll_ub
    | some val =>
      cases val with
      | inl x => exact outAll_exc h
      | inr src =>
        simp only
        split
        · exact outAll_exc h
        · split
          · exact outAll_exc h
          · split
            · exact outAll_ub
            · next p hp =>
              split
              · exact assignLoop_out hA _ _ _ _ _ _ h
              · split
                · have hw := assignLoop_out hA cfg src p (ArrayList.srcSize s.vals src).toNat 0 s h
                  cases ho : assignLoop cfg src p (ArrayList.srcSize s.vals src).toNat 0 s with
                  | ok s' r =>
                    rw [ho] at hw
                    have hs' : P s' := hw s' rfl
                    simp only
                    split
                    · exact outAll_ub
                    · next q hq =>
                      have := walkFwd_ge hq
                      split
                      · exact outAll_pending (hE _ _ _ this hs')
                      · exact outAll_ok (hE _ _ _ this hs')
                  | _ => rw [ho] at hw; exact hw
                · have hw := assignLoop_out hA cfg src p n.toNat 0 s h
                  cases ho : assignLoop cfg src p n.toNat 0 s with
                  | ok s' r =>
                    rw [ho] at hw
                    exact insertLoop_out hI _ _ _ _ _ _ (hw s' rfl)
                  | _ => rw [ho] at hw; exact hw

theorem assSubscript_slice_wf (cfg : Cfg) (s : S) (h : s.WF) (sl : SliceArg) (val : Option (Arg ⊕ Src)) :
    OutAll LState.WF (assSubscript cfg s (.slice sl) val) :=
  assSubscript_slice_out (P := LState.WF) (fun _ _ _ _ h => LState.wf_assign h _ _) (fun _ _ _ _ h => LState.wf_insert h _ _)
    (fun _ _ _ hpq h => LState.wf_eraseRange h hpq) cfg s h sl val

theorem pushLoop_wf (xs : List Arg) (s : S) (h : s.WF) : (pushLoop xs s).1.WF := by
  induction xs generalizing s with
  | nil => exact h
  | cons a as ih =>
    rw [pushLoop]
    split
    · exact ih _ (LState.wf_push h _)
    · exact LState.wf_push h _

theorem pushItems_wf (bump : Bool) (s : S) (xs : List Arg) (f : Option Exc) (r : Ret) (h : s.WF) :
    OutAll LState.WF (pushItems bump s xs f r) := by
  have hw := pushLoop_wf xs s h
  unfold pushItems
  generalize pushLoop xs s = t at hw
  obtain ⟨s', e, b⟩ := t
  simp only at hw ⊢
  have hw' : LState.WF (if (bump && b) = true then s'.bump else s') := by split <;> exact hw
  split
  · exact outAll_ok hw'
  · exact outAll_exc hw'

theorem extendWith_wf (strict bump : Bool) (s : S) (src : Src) (r : Ret) (h : s.WF) :
    OutAll LState.WF (extendWith strict bump s src r) := by
  have hb : ∀ s' : S, s'.WF → LState.WF (if bump = true then s'.bump else s') := by
    intro s' h'; split <;> exact h'
  cases src with
  | same v => exact outAll_ok (hb _ (LState.wf_pushAll h _))
  | self =>
    simp only [extendWith]
    split
    · exact outAll_ub
    · exact outAll_ok (hb _ (LState.wf_pushAll h _))
  | notIterable => exact outAll_exc h
  | iter xs f => exact pushItems_wf _ _ _ _ _ h
  | list xs => exact pushItems_wf _ _ _ _ _ h
  | tuple xs => exact pushItems_wf _ _ _ _ _ h
  | seq xs => exact pushItems_wf _ _ _ _ _ h
  | seqNoLen xs => exact pushItems_wf _ _ _ _ _ h

theorem imulLoop_wf (strict : Bool) (k : Nat) (s s' : S) (h : s.WF) (he : imulLoop strict k s = .ok s') : s'.WF := by
  induction k generalizing s with
  | zero => cases he; exact h
  | succ k ih =>
    rw [imulLoop] at he
    split at he
    · cases he
    · exact ih _ (LState.wf_pushAll h _) he

theorem step_wf (cfg : Cfg) (strict : Bool) (s : S) (op : Op) (h : s.WF) :
    OutAll LState.WF (step cfg strict s op) := by
  cases op with
  | append a =>
    simp only [step, append]
    split
    · exact outAll_ok (LState.wf_push h _)
    · exact outAll_pending (LState.wf_push h _)
  | extend src => exact extendWith_wf _ _ _ _ _ h
  | iadd src => exact extendWith_wf _ _ _ _ _ h
  | insert i a =>
    simp only [step, insert]
    split
    · exact outAll_exc h
    · exact outAll_exc h
    · leaves (LState.wf_insert h _ _)
  | pop a =>
    simp only [step, pop]
    split
    · exact outAll_exc h
    · split
      · exact outAll_ok (LState.wf_erase h _)
      · split
        · exact outAll_exc h
        · leaves h
  | remove a =>
    simp only [step, remove]
    split
    · exact outAll_exc h
    · split
      · exact outAll_exc h
      · exact outAll_ok (LState.wf_erase h _)
  | index a i j => exact read_index h _ _ _
  | count a => exact read_count h _
  | contains a => exact read_contains h _
  | get k => exact read_get h _ _
  | set k v =>
    cases k with
    | idx a => exact set_idx h (LState.wf_assign h) _ _ _
    | slice sl => exact assSubscript_slice_wf _ _ h _ _
  | del k =>
    cases k with
    | idx a => exact del_idx h (LState.wf_erase h) cfg a
    | slice sl => exact assSubscript_slice_wf cfg s h sl none
  | add src => exact read_add h _ _
  | mul n => simp only [step, mul_eq]; exact outAll_ok h
  | rmul a => exact read_rmul h _
  | imul n =>
    simp only [step, imul]
    generalize (if n < 0 then 0 else n) = m
    split
    · exact outAll_ok LState.wf_clear
    · split
      · exact outAll_ub
      · next s' he => exact outAll_ok (imulLoop_wf _ _ _ _ h he)
  | cmp op src => exact read_cmp h _ _ _
  | reverse => exact outAll_ok (LState.wf_reverse h)
  | resize a => exact outAll_exc h
  | clear => exact outAll_ok LState.wf_clear
  | copy => exact outAll_ok h
  | toList => exact outAll_ok h
  | len => exact outAll_ok h
  | repr => exact read_repr h

/-! ### Elements stay in range -/

/-- The elements of a list are 32-bit integers. -/
def Fits (s : S) : Prop := AllFits .i32 s.vals

theorem fits_push {s : S} (h : Fits s) {v : Int} (hv : FitsS 32 v) : Fits (s.push v) := by
  unfold Fits; rw [LState.vals_push]
  exact ArrayList.fits_append h (ArrayList.fits_cons hv (ArrayList.fits_nil _))

theorem fits_pushAll {s : S} (h : Fits s) {vs : List Int} (hv : AllFits .i32 vs) : Fits (s.pushAll vs) := by
  unfold Fits; rw [LState.vals_pushAll]; exact ArrayList.fits_append h hv

theorem fits_erase {s : S} (h : Fits s) (p : Nat) : Fits (s.erase p) := by
  unfold Fits; rw [LState.vals_erase]
  exact fun v hv => h v (List.mem_of_mem_eraseIdx hv)

theorem fits_insert {s : S} (h : Fits s) (p : Nat) {v : Int} (hv : FitsS 32 v) : Fits (s.insert p v) := by
  unfold Fits; rw [LState.vals_insert]
  exact ArrayList.fits_append (ArrayList.fits_take h _) (ArrayList.fits_cons hv (ArrayList.fits_drop h _))

theorem fits_assign {s : S} (h : Fits s) (p : Nat) {v : Int} (hv : FitsS 32 v) : Fits (s.assign p v) := by
  unfold Fits; rw [LState.vals_assign]
  intro x hx
  rcases List.mem_or_eq_of_mem_set hx with hx | hx
  · exact h x hx
  · exact hx ▸ hv

theorem fits_eraseRange {s : S} (h : Fits s) (p q : Nat) : Fits (s.eraseRange p q) := by
  unfold Fits; rw [LState.vals_eraseRange]
  exact ArrayList.fits_append (ArrayList.fits_take h _) (ArrayList.fits_drop h _)

theorem pushLoop_fits (xs : List Arg) (s : S) (h : Fits s) : Fits (pushLoop xs s).1 := by
  induction xs generalizing s with
  | nil => exact h
  | cons a as ih =>
    have hv := ArrayList.toElem_fits .i32 a
    rw [pushLoop]
    generalize toElem .i32 a = y at hv
    obtain ⟨v, e⟩ := y
    cases e with
    | none => exact ih _ (fits_push h hv)
    | some e => exact fits_push h hv

theorem pushItems_fits (bump : Bool) (s : S) (xs : List Arg) (f : Option Exc) (r : Ret) (h : Fits s) :
    OutAll Fits (pushItems bump s xs f r) := by
  have hw := pushLoop_fits xs s h
  unfold pushItems
  generalize pushLoop xs s = t at hw
  obtain ⟨s', e, b⟩ := t
  simp only at hw ⊢
  have hw' : Fits (if (bump && b) = true then s'.bump else s') := by split <;> exact hw
  split
  · exact outAll_ok hw'
  · exact outAll_exc hw'

theorem extendWith_fits (strict bump : Bool) (s : S) (src : Src) (r : Ret) (h : Fits s)
    (hsame : ∀ v, src = .same v → AllFits .i32 v) : OutAll Fits (extendWith strict bump s src r) := by
  have hb : ∀ s' : S, Fits s' → Fits (if bump = true then s'.bump else s') := by
    intro s' h'; split <;> exact h'
  cases src with
  | same v => exact outAll_ok (hb _ (fits_pushAll h (hsame v rfl)))
  | self =>
    simp only [extendWith]
    split
    · exact outAll_ub
    · exact outAll_ok (hb _ (fits_pushAll h h))
  | notIterable => exact outAll_exc h
  | iter xs f => exact pushItems_fits _ _ _ _ _ h
  | list xs => exact pushItems_fits _ _ _ _ _ h
  | tuple xs => exact pushItems_fits _ _ _ _ _ h
  | seq xs => exact pushItems_fits _ _ _ _ _ h
  | seqNoLen xs => exact pushItems_fits _ _ _ _ _ h

theorem imulLoop_fits (strict : Bool) (k : Nat) (s s' : S) (h : Fits s) (he : imulLoop strict k s = .ok s') :
    Fits s' := by
  induction k generalizing s with
  | zero => cases he; exact h
  | succ k ih =>
    rw [imulLoop] at he
    split at he
    · cases he
    · exact ih _ (fits_pushAll h h) he

theorem step_fits (cfg : Cfg) (strict : Bool) (s : S) (op : Op) (h : Fits s)
    (hsame : ∀ v, op = .extend (.same v) ∨ op = .iadd (.same v) → AllFits .i32 v) :
    OutAll Fits (step cfg strict s op) := by
  have hs : ∀ sl val, OutAll Fits (assSubscript cfg s (.slice sl) val) := fun sl val =>
    assSubscript_slice_out (P := Fits) (fun _ _ _ hv h => fits_assign h _ hv) (fun _ _ _ hv h => fits_insert h _ hv)
      (fun _ _ _ _ h => fits_eraseRange h _ _) cfg s h sl val
  cases op with
  | append a =>
    have hv := ArrayList.toElem_fits .i32 a
    simp only [step, append]
    generalize toElem .i32 a = y at hv
    obtain ⟨v, e⟩ := y
    cases e with
    | none => exact outAll_ok (fits_push h hv)
    | some e => exact outAll_pending (fits_push h hv)
  | extend src => exact extendWith_fits _ _ _ _ _ h (fun v hv => hsame v (.inl (by rw [hv])))
  | iadd src => exact extendWith_fits _ _ _ _ _ h (fun v hv => hsame v (.inr (by rw [hv])))
  | insert i a =>
    have hp := ArrayList.parseElem_eq .i32 a
    simp only [step, insert]
    split
    · exact outAll_exc h
    · exact outAll_exc h
    · next v _ hv =>
      have hfit : FitsS 32 v := by
        have e : parseElem .i32 a = (v, none) := hv
        rw [hp] at e
        cases he : Spec.elem Kind.i32.bits a with
        | error x => rw [he] at e; cases e
        | ok w =>
          rw [he] at e
          have := ArrayList.elem_fits (K := .i32) he
          injection e with e1 e2
          exact e1 ▸ this
      leaves (fits_insert h _ hfit)
  | pop a =>
    simp only [step, pop]
    split
    · exact outAll_exc h
    · split
      · exact outAll_ok (fits_erase h _)
      · split
        · exact outAll_exc h
        · leaves h
  | remove a =>
    simp only [step, remove]
    split
    · exact outAll_exc h
    · split
      · exact outAll_exc h
      · exact outAll_ok (fits_erase h _)
  | index a i j => exact read_index h _ _ _
  | count a => exact read_count h _
  | contains a => exact read_contains h _
  | get k => exact read_get h _ _
  | set k v =>
    cases k with
    | idx a =>
      refine set_idx_vals h ?_ _ _ _
      intro p a
      exact fits_assign h p (ArrayList.toElem_fits .i32 a)
    | slice sl => exact hs _ _
  | del k =>
    cases k with
    | idx a => exact del_idx h (fits_erase h) cfg a
    | slice sl => exact hs sl none
  | add src => exact read_add h _ _
  | mul n => simp only [step, mul_eq]; exact outAll_ok h
  | rmul a => exact read_rmul h _
  | imul n =>
    have hc : Fits s.clear := by intro v hv; cases hv
    simp only [step, imul]
    generalize (if n < 0 then 0 else n) = m
    split
    · exact outAll_ok hc
    · split
      · exact outAll_ub
      · next s' he => exact outAll_ok (imulLoop_fits _ _ _ _ h he)
  | cmp op src => exact read_cmp h _ _ _
  | reverse =>
    refine outAll_ok ?_
    unfold Fits; rw [LState.vals_reverse]
    exact fun v hv => h v (List.mem_reverse.1 hv)
  | resize a => exact outAll_exc h
  | clear => exact outAll_ok (by intro v hv; cases hv)
  | copy => exact outAll_ok h
  | toList => exact outAll_ok h
  | len => exact outAll_ok h
  | repr => exact read_repr h

/-! ### Which calls keep the nodes, which ones are recorded in `modCount` -/

/-- Same nodes, same modification count. -/
def SameNodes (s s' : S) : Prop := s'.ids = s.ids ∧ s'.modCount = s.modCount

theorem sizeKept_step (cfg : Cfg) (strict : Bool) (s : S) (op : Op) (h : SizeKept op) :
    OutAll (SameNodes s) (step cfg strict s op) := by
  have h0 : SameNodes s s := ⟨rfl, rfl⟩
  cases op with
  | index a i j => exact read_index h0 _ _ _
  | count a => exact read_count h0 _
  | contains a => exact read_contains h0 _
  | get k => exact read_get h0 _ _
  | set k v =>
    cases k with
    | idx a => exact set_idx h0 (fun p v => ⟨LState.ids_assign _ _ _, rfl⟩) _ _ _
    | slice sl => exact absurd h id
  | add src => exact read_add h0 _ _
  | mul n => simp only [step, mul_eq]; exact outAll_ok h0
  | rmul a => exact read_rmul h0 _
  | cmp op src => exact read_cmp h0 _ _ _
  | reverse => exact outAll_ok ⟨LState.ids_reverse _, rfl⟩
  | resize a => exact outAll_exc h0
  | copy => exact outAll_ok h0
  | toList => exact outAll_ok h0
  | len => exact outAll_ok h0
  | repr => exact read_repr h0
  | append | extend | insert | pop | remove | del | iadd | imul | clear => exact absurd h id

/-- Either nothing happened to the nodes or the modification count grew. -/
def Recorded (s s' : S) : Prop := SameNodes s s' ∨ s.modCount < s'.modCount

theorem modCount_pushAll {α : Type} (s : LState α) (vs : List α) : (s.pushAll vs).modCount = s.modCount := by
  induction vs generalizing s with
  | nil => rfl
  | cons v vs ih => exact ih (s.push v)

theorem modCount_pushLoop (xs : List Arg) (s : S) : (pushLoop xs s).1.modCount = s.modCount := by
  induction xs generalizing s with
  | nil => rfl
  | cons a as ih =>
    rw [pushLoop]
    split
    · exact ih _
    · rfl

theorem pushItems_recorded (s : S) (xs : List Arg) (f : Option Exc) (r : Ret)
    (h : ∀ a ∈ xs, Spec.IsElem 32 a = true) : OutAll (Recorded s) (pushItems true s xs f r) := by
  obtain ⟨s', h1, -⟩ := pushLoop_good xs s h
  have hm := modCount_pushLoop xs s
  unfold pushItems
  rw [h1] at hm ⊢
  simp only at hm
  have : Recorded s s'.bump := .inr (by simp [LState.bump, hm])
  cases f with
  | none => exact outAll_ok this
  | some e => exact outAll_exc this

theorem tracked_step (cfg : Cfg) (strict : Bool) (s : S) (op : Op) (h : Tracked op) :
    OutAll (Recorded s) (step cfg strict s op) := by
  have h0 : Recorded s s := .inl ⟨rfl, rfl⟩
  have hb : ∀ s' : S, s'.modCount = s.modCount → Recorded s s'.bump :=
    fun s' h => .inr (by simp [LState.bump, h])
  have keep : ∀ op, SizeKept op → OutAll (Recorded s) (step cfg strict s op) :=
    fun op h s' hs => .inl (sizeKept_step cfg strict s op h s' hs)
  cases op with
  | append a =>
    simp only [step, append]
    split
    · exact outAll_ok (hb _ rfl)
    · exact outAll_pending (hb _ rfl)
  | extend src =>
    cases src with
    | same v => exact outAll_ok (hb _ (modCount_pushAll _ _))
    | self => exact absurd h id
    | notIterable => exact outAll_exc h0
    | iter xs f => exact pushItems_recorded _ _ _ _ h
    | list xs => exact pushItems_recorded _ _ _ _ h
    | tuple xs => exact pushItems_recorded _ _ _ _ h
    | seq xs => exact pushItems_recorded _ _ _ _ h
    | seqNoLen xs => exact pushItems_recorded _ _ _ _ h
  | insert i a =>
    simp only [step, insert]
    split
    · exact outAll_exc h0
    · exact outAll_exc h0
    · leaves (hb _ rfl)
  | pop a =>
    cases a with
    | some a => exact absurd h id
    | none =>
      simp only [step, pop]
      split
      · exact outAll_exc h0
      · exact outAll_ok (hb _ rfl)
  | remove a =>
    simp only [step, remove]
    split
    · exact outAll_exc h0
    · split
      · exact outAll_exc h0
      · exact outAll_ok (hb _ rfl)
  | _ => exact keep _ h

/-! ### Sessions -/

theorem session_next {cfg : Cfg} {strict : Bool} {s : S} {it it' : LIter} {a : Next Int} {es : List Ev}
    (h : it.next s = (it', a)) (ha : ∀ u, a ≠ .ub u) :
    session cfg strict s it (.next :: es) = a :: session cfg strict s it' es := by
  rw [session, h]
  cases a with
  | ub u => exact absurd rfl (ha u)
  | _ => rfl

theorem session_call {cfg : Cfg} {strict : Bool} {s s' : S} {r : Ret} {it : LIter} {op : Op} {es : List Ev}
    (h : step cfg strict s op = .ok s' r) :
    session cfg strict s it (.call op :: es) = session cfg strict s' it es := by
  rw [session, h]; rfl

theorem session_ub {cfg : Cfg} {strict : Bool} {s : S} {it : LIter} {u : UB} {es : List Ev}
    (h : (it.next s).2 = .ub u) : session cfg strict s it (.next :: es) = [.ub u] := by
  rw [session]
  generalize it.next s = t at h
  obtain ⟨it', a⟩ := t
  subst h
  rfl

theorem agrees_step {cfg : Cfg} {strict : Bool} {s : S} {op : Op} (hl : AllFits .i32 s.vals)
    (h : OpOk cfg s.vals op) :
    ∃ s', (step cfg strict s op).state? = some s' ∧ s'.vals = (Spec.step 32 s.vals op).1 := by
  have hst := ArrayList.agrees_state (step_agrees cfg strict s op hl h)
  revert hst
  cases step cfg strict s op with
  | ok s' r => intro hst; exact ⟨s', rfl, Option.some.inj hst⟩
  | exc s' e => intro hst; exact ⟨s', rfl, Option.some.inj hst⟩
  | pending s' r e => intro hst; exact ⟨s', rfl, Option.some.inj hst⟩
  | ub u => intro hst; cases hst

theorem iterRun_short (i : Nat) (ls : List (List α)) (h : ∀ l ∈ ls, l.length ≤ i) :
    Spec.iterRun i ls = ls.map fun _ => .stop := by
  cases ls with
  | nil => rfl
  | cons l ls => rw [Spec.iterRun, List.getElem?_eq_none (h l (by simp))]; rfl

theorem session_exact (cfg : Cfg) (strict : Bool) (es : List Ev) : ∀ (s : S) (it : LIter) (i : Nat), s.WF →
    AllFits .i32 s.vals → (∀ op ∈ Ev.calls es, SizeKept op) → HistoryOk cfg s.vals (Ev.calls es) → it.Exact s i →
    session cfg strict s it es = Spec.iterRun i (Spec.contentsAt s.vals es) ∧
      ∀ l ∈ Spec.contentsAt s.vals es, l.length = s.size := by
  induction es with
  | nil => intros; exact ⟨rfl, by simp [Spec.contentsAt]⟩
  | cons e es ih =>
    intro s it i hw hl hk ho he
    cases e with
    | call op =>
      have hk1 : SizeKept op := hk op (by simp [Ev.calls])
      have hk2 : ∀ op ∈ Ev.calls es, SizeKept op := fun o h => hk o (by
        simp only [Ev.calls, List.filterMap_cons] at h ⊢
        exact List.mem_cons_of_mem _ h)
      have ho' : OpOk cfg s.vals op ∧ HistoryOk cfg (Spec.step 32 s.vals op).1 (Ev.calls es) := ho
      obtain ⟨s', h1, h2⟩ := agrees_step (strict := strict) hl ho'.1
      obtain ⟨hid, hmc⟩ := sizeKept_step cfg strict s op hk1 s' h1
      have hsz : s'.size = s.size := by rw [← LState.length_ids, ← LState.length_ids, hid]
      have hx : it.Exact s' i := by
        subst he; simp only [LIter.Exact, LIter.atPos, hid, hmc]
      have hf : AllFits .i32 s'.vals := by rw [h2]; exact ArrayList.spec_fits .i32 s.vals op hl
      have := ih s' it i (step_wf cfg strict s op hw s' h1) hf hk2 (by rw [h2]; exact ho'.2) hx
      simp only [session, h1, Spec.contentsAt]
      rw [← h2, ← hsz]
      exact this
    | next =>
      have ih' := ih s
      obtain ⟨h1, h2⟩ := LIter.next_exact hw he
      simp only [Spec.contentsAt]
      refine ⟨?_, fun l hl' => ?_⟩
      · by_cases hi : i < s.size
        · obtain ⟨hy, hx⟩ := h1 hi
          rw [session_next (it' := (it.next s).1) (a := .yield _) (by rw [← hy]) (by simp), Spec.iterRun,
            LIter.getElem?_vals hi]
          simp only
          rw [(ih' _ _ hw hl hk ho hx).1]
        · rw [session_next (h2 (by omega)) (by simp), Spec.iterRun, List.getElem?_eq_none (by simp; omega)]
          have hr := ih' _ _ hw hl hk ho he
          simp only
          rw [hr.1, iterRun_short]
          intro l hl'
          have := hr.2 l hl'
          omega
      · rcases List.mem_cons.1 hl' with rfl | hl'
        · simp
        · exact (ih' it i hw hl hk ho he).2 l hl'

theorem session_safe (cfg : Cfg) (strict : Bool) (es : List Ev) : ∀ (s : S) (it : LIter), s.WF →
    (∀ op ∈ Ev.calls es, Tracked op) → it.Inv s → it.cacheMod ≤ s.modCount →
    ∀ a ∈ session cfg strict s it es, ∀ u, a ≠ .ub u := by
  induction es with
  | nil => intro s it _ _ _ _ a ha; simp [session] at ha
  | cons e es ih =>
    intro s it hw hk hi hm
    cases e with
    | call op =>
      have hk1 : Tracked op := hk op (by simp [Ev.calls])
      have hk2 : ∀ op ∈ Ev.calls es, Tracked op := fun o h => hk o (by
        simp only [Ev.calls, List.filterMap_cons] at h ⊢
        exact List.mem_cons_of_mem _ h)
      simp only [session]
      cases hs : (step cfg strict s op).state? with
      | none => simp
      | some s' =>
        have hr := tracked_step cfg strict s op hk1 s' hs
        have hw' := step_wf cfg strict s op hw s' hs
        obtain ⟨hrv, i, hi1, hi2⟩ := hi
        refine ih s' it hw' hk2 ⟨hrv, i, hi1, ?_⟩ ?_
        · intro hc
          rcases hr with ⟨hid, hmc⟩ | hlt
          · obtain ⟨p, hp1, hp2, hp3⟩ := hi2 (by omega)
            refine ⟨p, hp1, ?_, ?_⟩
            · rw [← LState.length_ids, hid, LState.length_ids]; exact hp2
            · rw [hp3, LIter.atPos, LIter.atPos, hid]
          · omega
        · rcases hr with ⟨_, hmc⟩ | hlt <;> omega
    | next =>
      obtain ⟨h1, h2, h3⟩ := LIter.next_inv hw hi hm
      rw [session_next (it' := (it.next s).1) (a := (it.next s).2) rfl h3]
      intro a ha
      rcases List.mem_cons.1 ha with rfl | ha
      · exact h3
      · exact ih s _ hw hk h1 h2 a ha

/-- The first `p` steps over an unmodified list. -/
theorem session_prefix (cfg : Cfg) (strict : Bool) {s : S} (hw : s.WF) {es : List Ev} (p : Nat) (hp : p ≤ s.size) :
    ∃ it : LIter, it.Exact s p ∧ session cfg strict s (LIter.create s false) (List.replicate p .next ++ es) =
      (s.vals.take p).map Next.yield ++ session cfg strict s it es := by
  induction p generalizing es with
  | zero => exact ⟨LIter.create s false, rfl, by simp⟩
  | succ p ih =>
    obtain ⟨it, he, hs⟩ := ih (es := .next :: es) (by omega)
    obtain ⟨hy, hx⟩ := (LIter.next_exact hw he).1 (by omega)
    refine ⟨(it.next s).1, hx, ?_⟩
    rw [List.replicate_succ', List.append_assoc, List.singleton_append, hs,
      session_next (it' := (it.next s).1) (a := .yield _) (by rw [← hy]) (by simp)]
    rw [List.take_succ_eq_append_getElem (by simp; omega), List.map_append, List.append_assoc]
    rfl

theorem session_late (cfg : Cfg) (strict : Bool) {s : S} (hw : s.WF) (k : Nat) : ∀ (it : LIter) (i : Nat),
    it.Late s i → i + 1 + k = s.size →
    session cfg strict s it (List.replicate (k + 1) .next) = ((s.vals.drop i).dropLast).map Next.yield ++ [.stop] := by
  induction k with
  | zero =>
    intro it i h hk
    rw [List.replicate_succ, session_next ((LIter.next_late hw h).2 (by omega)) (by simp)]
    have : (s.vals.drop i).dropLast = [] := by
      rw [← List.length_eq_zero_iff]; simp; omega
    rw [this]
    rfl
  | succ k ih =>
    intro it i h hk
    obtain ⟨hy, hx⟩ := (LIter.next_late hw h).1 (by omega)
    rw [List.replicate_succ, session_next (it' := (it.next s).1) (a := .yield _) (by rw [← hy]) (by simp),
      ih _ _ hx (by omega)]
    have e : s.vals.drop i = s.vals[i]'(by simp; omega) :: s.vals.drop (i + 1) :=
      List.drop_eq_getElem_cons (by simp; omega)
    have hne : s.vals.drop (i + 1) ≠ [] := by
      intro h0
      have := congrArg List.length h0
      simp at this; omega
    rw [e, List.dropLast_cons_of_ne_nil hne]
    rfl

theorem del_eq (cfg : Cfg) (strict : Bool) (s : S) (p : Nat) (hp : p < s.size) (hn : (s.vals.length : Int) ≤ ssizeMax) :
    step cfg strict s (.del (.idx (.int p))) = .ok (s.erase p) .none := by
  have key : ∀ v : Int, 0 ≤ v → v < s.size → v < ssizeMax →
      step cfg strict s (.del (.idx (.int v))) = .ok (s.erase v.toNat) .none := by
    intro v h0 h1 h2
    have hw : asSsizeIndex (.int v) = (v, none) := by
      rw [ArrayList.asSsizeIndex_eq]
      have : Spec.InRange 64 v := by unfold Spec.InRange; unfold ssizeMax at h2; omega
      simp [Spec.word, this]
    simp only [step, assSubscript, hw, setItem]
    rw [if_neg (show ¬ v < 0 by omega), if_neg (by omega), listAt_eq]
    simp only [show min v.toNat s.size = v.toNat by omega]
    rw [if_pos (by omega)]
  rw [LState.length_vals] at hn
  exact key p (by omega) (by omega) (by omega)

theorem next_erased {α : Type} {it : LIter} {s : LState α} {p : Nat} (hw : s.WF) (h : it.Exact s p) (hp : p + 1 < s.size) :
    (it.next (s.erase p)).2 = .ub .useAfterFree := by
  subst h
  have hsz : (s.erase p).size = s.size - 1 := by
    rw [← LState.length_vals, LState.vals_erase, List.length_eraseIdx, LState.length_vals, if_pos (by omega)]
  have hid : s.ids[p]? = some (s.ids[p]'(by simp; omega)) := List.getElem?_eq_getElem _
  have hnot : (s.erase p).ids.idxOf? (s.ids[p]'(by simp; omega)) = none := by
    rw [List.idxOf?_eq_none_iff]
    have : (s.erase p).ids = s.ids.eraseIdx p := by
      simp only [LState.ids, LState.erase, List.eraseIdx_eq_take_drop_succ, List.map_append, List.map_take,
        List.map_drop]
    rw [this]
    intro hm
    have hnd := hw.1
    rw [List.mem_eraseIdx_iff_getElem] at hm
    obtain ⟨j, hj, hne, he⟩ := hm
    have e1 := idxOf?_of_getElem? hnd hid
    have e2 := idxOf?_of_getElem? hnd (List.getElem?_eq_getElem hj)
    rw [he, e1] at e2
    exact hne (Option.some.inj e2).symm
  unfold LIter.next
  rw [if_neg (by omega)]
  simp only [Bool.false_eq_true, if_false]
  rw [if_neg (by omega)]
  have hm : s.modCount = (s.erase p).modCount := rfl
  simp only [LIter.updateCache, hm, if_true, LIter.readMove, LIter.atPos, hid, LIter.locate, hnot]

theorem append_eq (cfg : Cfg) (strict : Bool) (s : S) (v : Int) (hv : FitsS 32 v) :
    step cfg strict s (.append (.int v)) = .ok (s.push v).bump .none := by
  have : toElem .i32 (.int v) = (v, none) := ArrayList.toElem_int (K := .i32) hv
  simp only [step, append, this]

theorem iadd_eq (cfg : Cfg) (strict : Bool) (s : S) (v : Int) (hv : FitsS 32 v) :
    step cfg strict s (.iadd (.list [.int v])) = .ok (s.push v) .self := by
  have : toElem .i32 (.int v) = (v, none) := ArrayList.toElem_int (K := .i32) hv
  simp only [step, extendWith, pushItems, pushLoop, this]
  rfl

end Verif.LinkedList
