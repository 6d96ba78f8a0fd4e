import Verif.Lemmas.Refuse

/-! Helper lemmas: lists of objects on a machine that grants what is needed. -/

namespace Verif.Refuse

open Verif.Spec

variable {σ ρ : Type}

namespace Arr

variable {b : Nat} {m : Machine}

theorem getBlock_granted (hg : GrantsBytes b m) (r : Room) (n : Nat) (h : n * 8 ≤ b) : (getBlock m r n).2 = true := by
  unfold getBlock
  rw [if_pos (hg _ _ h)]

theorem maxSize_eq : maxSize = 1152921504606846975 := rfl

theorem le_max (hb : b ≤ 2 ^ 63 - 1) {n : Nat} (h : 16 * n ≤ b) : n ≤ maxSize := by rw [maxSize_eq]; omega

theorem makeRoom_granted (hg : GrantsBytes b m) (hb : b ≤ 2 ^ 63 - 1) (n size : Nat) (r : Room)
    (h : 16 * (size + n) ≤ b) : (makeRoom m n size r).2 = true := by
  unfold makeRoom
  have h1 := le_max hb h
  generalize maxSize = M at h1 ⊢
  split
  · rfl
  · rw [if_neg (by omega)]
    exact getBlock_granted hg _ _ (by omega)

theorem reserve_granted (hg : GrantsBytes b m) (hb : b ≤ 2 ^ 63 - 1) (n : Nat) (r : Room) (h : 16 * n ≤ b) :
    (reserve m n r).2 = true := by
  unfold reserve
  have h1 := le_max hb h
  rw [if_neg (by omega)]
  split
  · rfl
  · exact getBlock_granted hg _ _ (by omega)

theorem asks_granted (hg : GrantsBytes b m) (hb : b ≤ 2 ^ 63 - 1) (k : Nat) :
    ∀ (size : Nat) (r : Room), 16 * (size + k) ≤ b → (asks (makeRoom m 1) k size r).2 = true := by
  induction k with
  | zero => intros; rfl
  | succ k ih =>
    intro size r h
    have h1 := makeRoom_granted hg hb 1 size r (by omega)
    rw [asks]
    rcases e : makeRoom m 1 size r with ⟨r', c⟩
    rw [e] at h1
    dsimp only at h1
    subst h1
    exact ih (size + 1) r' (by omega)

theorem elsewhere_granted (hg : GrantsBytes b m) (hb : b ≤ 2 ^ 63 - 1) (n : Nat) (r : Room) (h : 16 * n ≤ b) :
    (elsewhere m n r).2 = true := by
  unfold elsewhere
  split
  · rfl
  · rw [if_neg (by have := le_max hb h; omega)]
    exact hg _ _ (by omega)

theorem askItems_granted (hg : GrantsBytes b m) (hb : b ≤ 2 ^ 63 - 1) (size hint n : Nat) (r : Room)
    (h : 16 * (size + max hint n) ≤ b) : (askItems m size hint n r).2 = true := by
  unfold askItems
  have h1 : (if 0 < hint then reserve m (size + hint) r else (r, true)).2 = true := by
    split
    · exact reserve_granted hg hb _ _ (by omega)
    · rfl
  rcases e : (if 0 < hint then reserve m (size + hint) r else (r, true)) with ⟨r', c⟩
  rw [e] at h1
  dsimp only at h1
  subst h1
  exact asks_granted hg hb n size r' (by omega)

theorem grow_granted (hg : GrantsBytes b m) (hb : b ≤ 2 ^ 63 - 1) (s : St) (out : OOut)
    (h : ∀ s' v, out = .ok s' v → s'.vec.length ≤ s.1.vec.length ∨ 16 * s'.vec.length ≤ b) :
    shown (grow m s out) = out := by
  refine guarded_granted (fun s' v e => ?_)
  rcases h s' v e with h1 | h1
  · unfold makeRoom
    rw [if_pos (by omega)]
  · by_cases h2 : s'.vec.length ≤ s.1.vec.length
    · unfold makeRoom
      rw [if_pos (by omega)]
    · exact makeRoom_granted hg hb _ _ _ (by omega)

/-! ### Slice assignment -/

open ObjArray

theorem swapRefs_len (src : OSrc) (start n : Nat) :
    ∀ (i : Nat) (v v' : Slots) (h h' : Heap), swapRefs src start n i v h = .ok (v', h') →
      v'.length = v.length ∧ (0 < n → start + i + n ≤ v.length) := by
  induction n with
  | zero => intro i v v' h h' e; cases e; exact ⟨rfl, by omega⟩
  | succ n ih =>
    intro i v v' h h' e
    rw [swapRefs] at e
    split at e
    · cases e
    · cases e
    · rename_i d hd
      split at e
      · cases e
      · split at e
        · cases e
        · cases e
        · split at e
          · cases e
          · obtain ⟨h1, h2⟩ := ih _ _ _ _ _ e
            rw [List.length_set] at h1 h2
            refine ⟨h1, fun _ => ?_⟩
            have h3 : start + i < v.length := by
              rcases Nat.lt_or_ge (start + i) v.length with h4 | h4
              · exact h4
              · rw [List.getElem?_eq_none h4] at hd; cases hd
            by_cases hn : 0 < n
            · have := h2 hn; omega
            · omega

theorem genericCopy_len (src : OSrc) (start n : Nat) :
    ∀ (i : Nat) (v v' : Slots) (h h' : Heap), genericCopy src start n i v h = .ok (v', h') → v'.length = v.length := by
  induction n with
  | zero => intro i v v' h h' e; cases e; rfl
  | succ n ih =>
    intro i v v' h h' e
    rw [genericCopy] at e
    split at e
    · cases e
    · split at e
      · cases e
      · cases e
      · split at e
        · cases e
        · have := ih _ _ _ _ _ e
          rwa [List.length_set] at this

theorem copyIn_len {src : OSrc} {start n : Nat} {v v' : Slots} {h h' : Heap}
    (e : copyIn src start n v h = .ok (v', h')) : v'.length ≤ v.length := by
  unfold copyIn at e
  split at e
  · unfold fastCopy at e
    split at e
    · cases e
    · rename_i v1 h1 e1
      obtain ⟨h2, h3⟩ := swapRefs_len _ _ _ _ _ _ _ _ e1
      cases e
      simp only [List.length_append, List.length_take, List.length_drop]
      by_cases hn : 0 < n
      · have := h3 hn; omega
      · omega
  · exact Nat.le_of_eq (genericCopy_len _ _ _ _ _ _ _ _ e)

theorem insertNew_granted (hg : GrantsBytes b m) (hb : b ≤ 2 ^ 63 - 1) (src : OSrc) (start n : Nat) :
    ∀ (i : Nat) (v : Slots) (h : Heap) (r : Room), 16 * (v.length + n) ≤ b →
      shown (insertNew m src start n i v h r) =
        (match ObjArray.insertNew src start n i v h with | .error u => .ub u | .ok (v, h) => finishSlots v h none) := by
  induction n with
  | zero => intro i v h r _; exact shown_lift _ _
  | succ n ih =>
    intro i v h r hs
    rw [insertNew, ObjArray.insertNew]
    cases (src.elems [])[i]? with
    | none => rfl
    | some o =>
      dsimp only
      split
      · rename_i hp
        have h1 := makeRoom_granted hg hb 1 v.length r (by omega)
        rcases e : makeRoom m 1 v.length r with ⟨r', c⟩
        rw [e] at h1
        dsimp only at h1
        subst h1
        refine ih _ _ _ _ ?_
        simp only [List.length_append, List.length_cons, List.length_take, List.length_drop]
        omega
      · rfl

theorem growSlice_granted (hg : GrantsBytes b m) (hb : b ≤ 2 ^ 63 - 1) (src : OSrc) (start stop n k : Int) (s : St)
    (hnk : n < k) (hn : 0 ≤ n) (hs : 16 * (s.1.vec.length + k.toNat) ≤ b) :
    shown (growSlice m src start n k s) = ObjArray.replace src start stop n k s.1 := by
  unfold growSlice ObjArray.replace
  dsimp only
  rw [if_neg (by omega), if_neg (by omega)]
  cases e : copyIn src start.toNat n.toNat (s.1.vec.map some) s.1.heap with
  | error u => rfl
  | ok p =>
    obtain ⟨v, h⟩ := p
    have hl := copyIn_len e
    rw [List.length_map] at hl
    dsimp only
    split
    · split
      · rfl
      · split
        · have h1 := makeRoom_granted hg hb (k - n).toNat v.length s.2 (by omega)
          rcases e2 : makeRoom m (k - n).toNat v.length s.2 with ⟨r', c⟩
          rw [e2] at h1
          dsimp only at h1
          subst h1
          exact shown_lift _ _
        · rfl
    · exact insertNew_granted hg hb _ _ _ _ _ _ _ (by omega)

theorem adjust_one_nonneg (len start stop : Int) : 0 ≤ (adjustIndices len start stop 1).2.2 := by
  unfold adjustIndices
  dsimp only
  rw [if_neg (by omega : ¬ (1 : Int) < 0)]
  split
  · omega
  · omega

theorem size_given (src : OSrc) (cur : List Obj) : src.size cur ≤ givenBy cur.length src := by
  cases src <;> simp [OSrc.size, givenBy]

theorem setSlice_granted (hg : GrantsBytes b m) (hb : b ≤ 2 ^ 63 - 1) (s : St) (sl : SliceArg) (src : OSrc)
    (hs : 16 * (s.1.vec.length + givenBy s.1.vec.length src) ≤ b) :
    shown (setSlice m s sl src) = ObjArray.setSlice s.1 sl src := by
  unfold setSlice ObjArray.setSlice
  cases sliceUnpack sl with
  | error e => rfl
  | ok p =>
    obtain ⟨start, stop, step⟩ := p
    dsimp only
    have hn : step = 1 → 0 ≤ (adjustIndices s.1.vec.length start stop step).2.2 := by
      rintro rfl; exact adjust_one_nonneg _ _ _
    rcases hadj : adjustIndices s.1.vec.length start stop step with ⟨start', stop', n⟩
    rw [hadj] at hn
    dsimp only at hn ⊢
    split
    · rfl
    · split
      · rfl
      · rename_i hstep
        have hstep : step = 1 := by simpa using hstep
        have hz := size_given src s.1.vec
        split
        · rename_i hlt
          exact growSlice_granted hg hb _ _ _ _ _ _ hlt (hn hstep) (by omega)
        · exact shown_lift _ _

/-! ### `*`, `*=` -/

theorem product_eq {size : Nat} {n : Int} (hb : b ≤ 2 ^ 63 - 1) (h : 16 * (size * n.toNat) ≤ b) :
    product size n = size * n.toNat := by
  unfold product
  generalize size * n.toNat = p at h ⊢
  exact Nat.mod_eq_of_lt (by omega)

theorem mul_granted (hg : GrantsBytes b m) (hb : b ≤ 2 ^ 63 - 1) (s : St) (n : Int)
    (h : 16 * (s.1.vec.length * n.toNat) ≤ b) : shown (mul m s n) = ObjArray.mul s.1 n := by
  have hk : (if n < 0 then (0 : Int) else n).toNat = n.toNat := by split <;> omega
  unfold mul ObjArray.mul
  dsimp only
  rw [← hk] at h
  generalize (if n < 0 then (0 : Int) else n) = k at h ⊢
  by_cases h0 : k = 0
  · rw [if_pos h0, if_pos h0]; rfl
  · rw [if_neg h0, if_neg h0, product_eq hb h]
    have h1 := reserve_granted hg hb _ ⟨0, s.2.t⟩ h
    rcases e : reserve m (s.1.vec.length * k.toNat) ⟨0, s.2.t⟩ with ⟨r, c⟩
    rw [e] at h1
    dsimp only at h1
    subst h1
    dsimp only
    rw [mulLoop_times]
    obtain ⟨r', h2⟩ := mulPush_granted (makeRoom m 1) (times s.1.vec k.toNat) [] s.1.heap r
      (asks_granted hg hb _ _ _ (by rw [length_times]; simpa using h))
    rw [h2]
    cases s.1.heap.increfs (times s.1.vec k.toNat) with
    | error u => rfl
    | ok h => rfl

theorem imulOuter_nil (fuel k : Nat) (h : Heap) (r : Room) :
    (imulOuter m fuel k (⟨[], h⟩, r) = none ∧ ObjArray.imulOuter fuel k [] h = none) ∨
    (imulOuter m fuel k (⟨[], h⟩, r) = some (.ok ((⟨[], h⟩, r), true)) ∧
      ObjArray.imulOuter fuel k [] h = some (.ok ([], h))) := by
  induction k with
  | zero => exact .inr ⟨rfl, rfl⟩
  | succ k ih =>
    rw [imulOuter, ObjArray.imulOuter]
    cases fuel with
    | zero => exact .inl ⟨rfl, rfl⟩
    | succ fuel => exact ih

theorem imul_granted (hg : GrantsBytes b m) (hb : b ≤ 2 ^ 63 - 1) (fuel : Nat) (s : St) (n : Int)
    (h : 16 * (s.1.vec.length * n.toNat) ≤ b) (hn : n ≤ 1 ∨ s.1.vec = []) :
    shown (imul m fuel s n) = ObjArray.imul fuel s.1 n := by
  have hk : (if n < 0 then (0 : Int) else n).toNat = n.toNat := by split <;> omega
  have hk1 : n ≤ 1 → (if n < 0 then (0 : Int) else n) ≤ 1 := by intro h; split <;> omega
  unfold imul ObjArray.imul
  dsimp only
  rw [← hk] at h
  generalize (if n < 0 then (0 : Int) else n) = k at h hk1 ⊢
  by_cases h0 : k = 0
  · rw [if_pos h0, if_pos h0]; rfl
  · rw [if_neg h0, if_neg h0, product_eq hb h]
    have h1 := reserve_granted hg hb _ s.2 h
    rcases e : reserve m (s.1.vec.length * k.toNat) s.2 with ⟨r, c⟩
    rw [e] at h1
    dsimp only at h1
    subst h1
    dsimp only
    rcases hn with hn | hn
    · have : k.toNat - 1 = 0 := by have := hk1 hn; omega
      rw [this]; rfl
    · obtain ⟨⟨v, h'⟩, r0⟩ := s
      dsimp only at hn
      subst hn
      dsimp only
      rcases imulOuter_nil (m := m) fuel (k.toNat - 1) h' r with ⟨e1, e2⟩ | ⟨e1, e2⟩
      · rw [e1, e2]; rfl
      · rw [e1, e2]; rfl

theorem withHeap_ok {α : Type} {r : Except UB Heap} {k : Heap → Out σ α} {s : σ} {v : α}
    (h : withHeap r k = .ok s v) : ∃ h, k h = .ok s v := by
  cases r with
  | error u => cases h
  | ok h' => exact ⟨h', h⟩

theorem step_enough (cfg : Cfg) (H : OHost) (hg : GrantsBytes b m) (hb : b ≤ 2 ^ 63 - 1) (fuel : Nat) (s : St) (op : OOp)
    (hint : Nat) (h : 16 * spaceFor s.1.vec.length hint op ≤ b)
    (hi : ∀ n, op = .imul n → n ≤ 1 ∨ s.1.vec = []) :
    shown (step cfg H m fuel s op hint) = ObjArray.step cfg H fuel s.1 op := by
  cases op with
  | append o =>
    refine grow_granted hg hb s _ (fun s' v e => .inr ?_)
    obtain ⟨h', e⟩ := withHeap_ok e
    cases e
    simpa [spaceFor] using h
  | insert i o =>
    refine grow_granted hg hb s _ (fun s' v e => .inr ?_)
    unfold ObjArray.insert at e
    split at e
    · cases e
    · rename_i i' _
      dsimp only at e
      generalize (if i' < 0 then max 0 ((s.1.vec.length : Int) + i')
        else if i' > s.1.vec.length then (s.1.vec.length : Int) else i') = j at e
      split at e
      · obtain ⟨h', e⟩ := withHeap_ok e
        cases e
        simp only [spaceFor] at h
        simp only [List.length_append, List.length_cons, List.length_take, List.length_drop]
        omega
      · cases e
  | resize a =>
    refine grow_granted hg hb s _ (fun s' v e => ?_)
    unfold ObjArray.resize at e
    cases a with
    | int v =>
      dsimp only at e
      split at e
      · cases e
      · rename_i hneg
        cases e
        simp only [spaceFor] at h
        have hv : (asSsize (.int v)).1 = v := by
          unfold asSsize at hneg ⊢
          dsimp only at hneg ⊢
          split at hneg
          · rename_i h1; rw [if_pos h1]
          · dsimp only at hneg; omega
        rw [hv]
        simp only [List.length_append, List.length_take, List.length_replicate]
        omega
    | _ => cases e
  | copy =>
    exact guarded_granted (fun s' v e => elsewhere_granted hg hb _ _ (by simpa [spaceFor] using h))
  | extend src =>
    show shown (extend m s src hint) = ObjArray.extend s.1 src
    unfold extend
    cases src with
    | self => exact shown_lift _ _
    | notIterable => exact shown_lift _ _
    | same v => exact orDie_granted (makeRoom_granted hg hb _ _ _ (by simp only [spaceFor, givenBy] at h; omega))
    | list v => exact orDie_granted (makeRoom_granted hg hb _ _ _ (by simp only [spaceFor, givenBy] at h; omega))
    | _ =>
      exact orDie_granted (askItems_granted hg hb _ _ _ _ (by
        simp only [spaceFor, givenBy] at h
        simp only [hintOf, OSrc.elems]
        omega))
  | iadd src =>
    show shown (iadd m s src hint) = ObjArray.iadd s.1 src
    unfold iadd
    cases src with
    | self => exact shown_lift _ _
    | notIterable => exact shown_lift _ _
    | same v => exact orDie_granted (makeRoom_granted hg hb _ _ _ (by simp only [spaceFor, givenBy] at h; omega))
    | _ =>
      exact orDie_granted (askItems_granted hg hb _ _ _ _ (by
        simp only [spaceFor, givenBy] at h
        simp only [hintOf, OSrc.elems]
        omega))
  | imul n => exact imul_granted hg hb fuel s n h (hi n rfl)
  | setSlice sl src => exact setSlice_granted hg hb s sl src h
  | mul n => exact mul_granted hg hb s n h
  | rmul a =>
    show shown (rmul m s a) = ObjArray.rmul s.1 a
    unfold rmul ObjArray.rmul
    rcases e : asLong a with ⟨n, _ | x⟩
    · refine mul_granted hg hb s n ?_
      cases a with
      | int v | index v =>
        have : n = v := by
          unfold asLong at e
          dsimp only at e
          split at e
          · injection e with e1 e2; exact e1.symm
          · injection e with e1 e2; cases e2
        rw [this]; exact h
      | other => injection e with e1 e2; cases e2
    · rfl
  | _ => first | rfl | exact shown_lift s.2 (ObjArray.step cfg H fuel s.1 _)

end Arr

namespace Lnk

open ObjLinked (vec)

variable {m : Machine}

theorem asks_granted (hg : ∀ t, m t = true) (k : Nat) :
    ∀ (size t : Nat), (asks (node m) k size t).2 = true := by
  induction k with
  | zero => intros; rfl
  | succ k ih =>
    intro size t
    rw [asks]
    simp only [node, hg]
    exact ih _ _

theorem growLoop_granted (hg : ∀ t, m t = true) (src : OSrc) (n : Nat) :
    ∀ (i p : Nat) (s : St),
      (∃ u, growLoop m src n i p s = .error u ∧ ObjLinked.grow src n i p s.1 = .error u) ∨
      (∃ s' t, growLoop m src n i p s = .ok ((s', t), true) ∧ ObjLinked.grow src n i p s.1 = .ok s') := by
  induction n with
  | zero => intro i p s; exact .inr ⟨s.1, s.2, rfl, rfl⟩
  | succ n ih =>
    intro i p s
    rw [growLoop, ObjLinked.grow]
    cases (src.elems (vec s.1))[i]? with
    | none => exact .inl ⟨_, rfl, rfl⟩
    | some o =>
      dsimp only
      split
      · simp only [node, hg]
        exact ih _ _ _
      · exact .inl ⟨_, rfl, rfl⟩

theorem setSlice_granted (hg : ∀ t, m t = true) (s : St) (sl : SliceArg) (src : OSrc) :
    shown (setSlice m s sl src) = ObjLinked.setSlice s.1 sl src := by
  unfold setSlice ObjLinked.setSlice
  cases sliceUnpack sl with
  | error e => rfl
  | ok p =>
    obtain ⟨start, stop, step⟩ := p
    dsimp only
    rcases adjustIndices s.1.list.size start stop step with ⟨start', stop', n⟩
    dsimp only
    split
    · rfl
    · split
      · rfl
      · split
        · rename_i hlt
          unfold growSlice ObjLinked.replace
          dsimp only
          have e0 : ¬ src.size (vec s.1) < n := by omega
          simp only [if_neg e0, if_pos hlt]
          rcases e1 : (if stop' < 0 then .ok s.1.list.size else listAt s.1.list.size stop'.toNat : Except UB Nat)
            with u | p
          · rfl
          · dsimp only
            rcases growLoop_granted hg src (src.size (vec s.1) - n).toNat n.toNat p s with ⟨u, e2, e3⟩ | ⟨s', t, e2, e3⟩
            · rw [e2, e3]; rfl
            · rw [e2, e3]
              dsimp only
              cases ObjLinked.overwrite src start' step (src.size (vec s.1)).toNat 0 s' with
              | error u => rfl
              | ok s2 => rfl
        · cases ObjLinked.replace src start' stop' step n (src.size (vec s.1)) s.1 with
          | error u => rfl
          | ok s2 => rfl

theorem mul_granted (hg : ∀ t, m t = true) (s : St) (n : Int) : shown (mul m s n) = ObjLinked.mul s.1 n := by
  unfold mul ObjLinked.mul
  dsimp only
  generalize (if n < 0 then (0 : Int) else n) = k
  by_cases h0 : k = 0
  · rw [if_pos h0, if_pos h0]; rfl
  · rw [if_neg h0, if_neg h0, mulLoop_times]
    obtain ⟨r', h2⟩ := mulPush_granted (node m) (times (vec s.1) k.toNat) [] s.1.heap s.2 (asks_granted hg _ _ _)
    rw [h2]
    cases s.1.heap.increfs (times (vec s.1) k.toNat) with
    | error u => rfl
    | ok h => rfl

theorem imulInner_granted (hg : ∀ t, m t = true) (n : Nat) :
    ∀ (j : Nat) (s : St),
      (∃ u, imulInner m n j s = .error u ∧ ObjLinked.imulInner n j s.1 = .error u) ∨
      (∃ s' t, imulInner m n j s = .ok ((s', t), true) ∧ ObjLinked.imulInner n j s.1 = .ok s') := by
  induction n with
  | zero => intro j s; exact .inr ⟨s.1, s.2, rfl, rfl⟩
  | succ n ih =>
    intro j s
    rw [imulInner, ObjLinked.imulInner]
    cases (vec s.1)[j]? with
    | none => exact .inl ⟨_, rfl, rfl⟩
    | some o =>
      simp only [node, hg]
      cases s.1.heap.incref o with
      | error u => exact .inl ⟨_, rfl, rfl⟩
      | ok h => exact ih _ _

theorem imulOuter_granted (hg : ∀ t, m t = true) (size k : Nat) :
    ∀ (s : St),
      (∃ u, imulOuter m size k s = .error u ∧ ObjLinked.imulOuter size k s.1 = .error u) ∨
      (∃ s' t, imulOuter m size k s = .ok ((s', t), true) ∧ ObjLinked.imulOuter size k s.1 = .ok s') := by
  induction k with
  | zero => intro s; exact .inr ⟨s.1, s.2, rfl, rfl⟩
  | succ k ih =>
    intro s
    rw [imulOuter, ObjLinked.imulOuter]
    rcases imulInner_granted hg size 0 s with ⟨u, e2, e3⟩ | ⟨s', t, e2, e3⟩
    · rw [e2, e3]; exact .inl ⟨u, rfl, rfl⟩
    · rw [e2, e3]; exact ih (s', t)

theorem step_enough (H : OHost) (strict : Bool) (hg : ∀ t, m t = true) (s : St) (op : OOp) :
    shown (step H strict m s op) = ObjLinked.step H strict s.1 op := by
  cases op with
  | append o => exact guarded_granted (fun _ _ _ => hg _)
  | insert i o => exact guarded_granted (fun _ _ _ => hg _)
  | copy => exact guarded_granted (fun _ _ _ => asks_granted hg _ _ _)
  | extend src =>
    show shown (extendWith m s src (ObjLinked.extend strict s.1 src)) = _
    unfold extendWith
    cases src <;> first | exact shown_lift _ _ | exact orDie_granted (asks_granted hg _ _ _)
  | iadd src =>
    show shown (extendWith m s src (ObjLinked.iadd strict s.1 src)) = _
    unfold extendWith
    cases src <;> first | exact shown_lift _ _ | exact orDie_granted (asks_granted hg _ _ _)
  | setSlice sl src => exact setSlice_granted hg s sl src
  | mul n => exact mul_granted hg s n
  | rmul a =>
    show shown (rmul m s a) = ObjLinked.rmul s.1 a
    unfold rmul ObjLinked.rmul
    rcases asLong a with ⟨n, _ | x⟩
    · exact mul_granted hg s n
    · rfl
  | imul n =>
    show shown (imul m s n) = ObjLinked.imul s.1 n
    unfold imul ObjLinked.imul
    dsimp only
    generalize (if n < 0 then (0 : Int) else n) = k
    by_cases h0 : k = 0
    · rw [if_pos h0, if_pos h0]; rfl
    · rw [if_neg h0, if_neg h0]
      rcases imulOuter_granted hg s.1.list.size (k.toNat - 1) s with ⟨u, e2, e3⟩ | ⟨s', t, e2, e3⟩
      · rw [e2, e3]; rfl
      · rw [e2, e3]; rfl
  | _ => first | rfl | exact shown_lift s.2 (ObjLinked.step H strict s.1 _)

end Lnk
end Verif.Refuse
