import Verif.Spec.RefuseInt
import Verif.Lemmas.RefuseEnough
import Verif.Lemmas.StdList

/-! Helper lemmas: refused memory in IntLinkedList. -/

namespace Verif.RefuseInt

open Verif.Spec
open Verif.LinkedList (S LLOut)
open Verif.Refuse (lift orDie asks shown_lift orDie_granted orDie_refused)
open Verif.Refuse.Lnk (Machine node nodes)

theorem grants_mono {m : Machine} {t k k' : Nat} (h : GrantsNext m t k) (hk : k' ≤ k) : GrantsNext m t k' :=
  fun i h1 h2 => h i h1 (by omega)

theorem asks_granted {m : Machine} (k : Nat) :
    ∀ (size t : Nat), GrantsNext m t k → asks (node m) k size t = (t + k, true) := by
  induction k with
  | zero => intros; rfl
  | succ k ih =>
    intro size t h
    rw [asks]
    simp only [node, h t (Nat.le_refl _) (by omega)]
    rw [ih _ _ (fun i h1 h2 => h i (by omega) (by omega))]
    congr 1; omega

theorem nodes_granted {m : Machine} {k t : Nat} (h : GrantsNext m t k) : nodes m k t = (t + k, true) :=
  asks_granted k 0 t h

theorem asks_refused {m : Machine} (k : Nat) :
    ∀ (size t : Nat) {i : Nat}, t ≤ i → i < t + k → m i = false → (asks (node m) k size t).2 = false := by
  induction k with
  | zero => intros; omega
  | succ k ih =>
    intro size t i h1 h2 h
    rw [asks]
    by_cases e : m t = true
    · simp only [node, e]
      have : t ≠ i := by intro e2; subst e2; rw [e] at h; cases h
      exact ih _ _ (by omega) (by omega) h
    · simp only [node, Bool.not_eq_true _ ▸ e]

theorem nodes_refused {m : Machine} {k t i : Nat} (h1 : t ≤ i) (h2 : i < t + k) (h : m i = false) :
    (nodes m k t).2 = false := asks_refused k 0 t h1 h2 h

/-! ### from_range -/

theorem rangeLoop_any (m : Machine) (step : Int) (n : Nat) : ∀ (cur : Int) (t : Nat),
    (∃ u, ArrayList.rangeLoop .i32 step n cur = .error u ∧ rangeLoop m step n cur t = .error u) ∨
    (∃ l, ArrayList.rangeLoop .i32 step n cur = .ok l ∧ rangeLoop m step n cur t = .ok (t + l.length, some l)) ∨
    ∃ k, GrantsNext m t k ∧ m (t + k) = false ∧ rangeLoop m step n cur t = .ok (t + k + 1, none) := by
  induction n with
  | zero => intro cur t; exact .inr (.inl ⟨[], rfl, rfl⟩)
  | succ n ih =>
    intro cur t
    cases hm : m t with
    | false =>
      refine .inr (.inr ⟨0, fun i h1 h2 => by omega, hm, ?_⟩)
      simp only [rangeLoop, node, hm]
    | true =>
      simp only [rangeLoop, node, hm, ArrayList.rangeLoop]
      by_cases hf : FitsS 64 (cur + step)
      · rw [if_pos hf, if_pos hf]
        rcases ih (cur + step) (t + 1) with ⟨u, e1, e2⟩ | ⟨l, e1, e2⟩ | ⟨k, h1, h2, e⟩
        · rw [e1, e2]; exact .inl ⟨u, rfl, rfl⟩
        · rw [e1, e2]
          refine .inr (.inl ⟨wrapS 32 cur :: l, rfl, ?_⟩)
          show Except.ok (t + 1 + l.length, _) = _
          rw [List.length_cons, Nat.add_assoc, Nat.add_comm 1]
        · rw [e]
          refine .inr (.inr ⟨k + 1, fun i a b => ?_, by rw [← h2]; congr 1; omega, ?_⟩)
          · by_cases hi : i = t
            · rw [hi]; exact hm
            · exact h1 i (by omega) (by omega)
          · show Except.ok (t + 1 + k + 1, none) = _
            congr 2; omega
      · rw [if_neg hf, if_neg hf]
        exact .inl ⟨_, rfl, rfl⟩

theorem rangeLoop_length (K : Kind) (step : Int) (n : Nat) : ∀ (cur : Int) (l : List Int),
    ArrayList.rangeLoop K step n cur = .ok l → l.length = n := by
  induction n with
  | zero => intro cur l h; cases h; rfl
  | succ n ih =>
    intro cur l h
    rw [ArrayList.rangeLoop] at h
    split at h
    · cases hr : ArrayList.rangeLoop K step n (cur + step) with
      | error u => rw [hr] at h; cases h
      | ok l' => rw [hr] at h; cases h; rw [List.length_cons, ih _ _ hr]
    · cases h

theorem rangeLoop_asks (m : Machine) (step : Int) (n : Nat) : ∀ (cur : Int) (t t' : Nat),
    rangeLoop m step n cur t = .ok (t', none) → t' ≤ t + n := by
  induction n with
  | zero => intro cur t t' h; cases h
  | succ n ih =>
    intro cur t t' h
    cases hm : m t with
    | false => simp only [rangeLoop, node, hm] at h; cases h; omega
    | true =>
      simp only [rangeLoop, node, hm] at h
      split at h
      · rcases hr : rangeLoop m step n (cur + step) (t + 1) with u | ⟨t2, _ | l⟩
        · rw [hr] at h; cases h
        · rw [hr] at h; cases h; have := ih _ _ _ hr; omega
        · rw [hr] at h; cases h
      · cases h

theorem rangeLoop_refused (m : Machine) (step : Int) (n : Nat) : ∀ (cur : Int) (t : Nat) (l : List Int) (k : Nat), k < n →
    m (t + k) = false → rangeLoop m step n cur t ≠ .ok (t + l.length, some l) := by
  induction n with
  | zero => intro cur t l k hk; omega
  | succ n ih =>
    intro cur t l k hk hm h
    cases hm0 : m t with
    | false =>
      simp only [rangeLoop, node, hm0, Except.ok.injEq, Prod.mk.injEq] at h
      cases h.2
    | true =>
      simp only [rangeLoop, node, hm0] at h
      have hk0 : k ≠ 0 := by rintro rfl; rw [Nat.add_zero, hm0] at hm; cases hm
      split at h
      · rcases hr : rangeLoop m step n (cur + step) (t + 1) with u | ⟨t2, _ | l2⟩
        · rw [hr] at h; cases h
        · rw [hr] at h; cases h
        · rw [hr] at h
          simp only [Except.ok.injEq, Prod.mk.injEq, Option.some.injEq] at h
          obtain ⟨h1, h2⟩ := h
          rw [← h2, List.length_cons] at h1
          refine ih (cur + step) (t + 1) l2 (k - 1) (by omega) (by rw [← hm]; congr 1; omega) ?_
          rw [hr, h1]
          congr 2; omega
      · cases h

theorem rangeLoop_ok (m : Machine) (step : Int) (n : Nat) (cur : Int) (t : Nat) (l : List Int)
    (hl : ArrayList.rangeLoop .i32 step n cur = .ok l) :
    (GrantsNext m t l.length → rangeLoop m step n cur t = .ok (t + l.length, some l)) ∧
    ∀ k, k < l.length → GrantsNext m t k → m (t + k) = false → rangeLoop m step n cur t = .ok (t + k + 1, none) := by
  have hn := rangeLoop_length .i32 step n cur l hl
  rcases rangeLoop_any m step n cur t with ⟨u, e1, e2⟩ | ⟨l', e1, e2⟩ | ⟨k, h1, h2, e⟩
  · rw [hl] at e1; cases e1
  · rw [hl] at e1; cases e1
    refine ⟨fun _ => e2, fun k hk hg hm => ?_⟩
    exact absurd e2 (rangeLoop_refused m step n cur t l k (by omega) hm)
  · have hk : k < n := by have := rangeLoop_asks m step n cur t _ e; omega
    refine ⟨fun hg => ?_, fun k' hk' hg hm => ?_⟩
    · rw [hg (t + k) (by omega) (by omega)] at h2; cases h2
    · have : k = k' := by
        rcases Nat.lt_trichotomy k k' with h | h | h
        · rw [hg (t + k) (by omega) (by omega)] at h2; cases h2
        · exact h
        · rw [h1 (t + k') (by omega) (by omega)] at hm; cases hm
      rw [e, this]

theorem guarded_spared (m : Machine) (k : Nat) (s : St) (out : LLOut) : Spared s.1 out (guarded m k s out) := by
  unfold guarded
  cases out with
  | ok s' v =>
    dsimp only
    rcases nodes m k s.2 with ⟨t, _ | _⟩
    · exact .inr rfl
    · exact .inl rfl
  | pending s' v e =>
    dsimp only
    rcases nodes m k s.2 with ⟨t, _ | _⟩
    · exact .inr rfl
    · exact .inl rfl
  | exc s' e => exact .inl rfl
  | ub u => exact .inl rfl

theorem guarded_granted {m : Machine} {k : Nat} {s : St} {out : LLOut} (h : GrantsNext m s.2 k) :
    shown (guarded m k s out) = out := by
  unfold guarded
  rw [nodes_granted h]
  cases out <;> rfl

theorem step_spared (m : Machine) (cfg : Cfg) (strict : Bool) (s : St) (op : Op) (hop : IntSparing op = true) :
    Spared s.1 (LinkedList.step cfg strict s.1 op) (step m cfg strict s op) := by
  cases op with
  | append a => exact guarded_spared m 1 s _
  | insert i a => exact guarded_spared m 1 s _
  | copy => exact guarded_spared m _ s _
  | extend src => cases hop
  | iadd src => cases hop
  | imul n => cases hop
  | mul n => exact guarded_spared m _ s _
  | rmul a =>
    show Spared s.1 (LinkedList.rmul s.1 a) (rmul m s a)
    unfold rmul LinkedList.rmul
    rcases asLong a with ⟨n, _ | e⟩
    · exact guarded_spared m _ s _
    · exact .inl rfl
  | set k v =>
    cases k with
    | idx a => exact .inl (shown_lift s.2 (LinkedList.step cfg strict s.1 _))
    | slice sl =>
      cases v with
      | inl a => exact .inl (shown_lift s.2 (LinkedList.step cfg strict s.1 _))
      | inr src => cases hop
  | _ => first | exact .inl rfl | exact .inl (shown_lift s.2 (LinkedList.step cfg strict s.1 _))

/-! ### Enough nodes -/

theorem pushes_le (xs : List Arg) : pushes xs ≤ xs.length := by
  induction xs with
  | nil => exact Nat.le_refl _
  | cons a as ih =>
    rw [pushes]
    split
    · simpa using ih
    · simp

theorem asked_le (s : S) (src : Src) : asked s src ≤ itemsOf s.size src := by
  cases src <;> first | exact Nat.le_refl _ | exact pushes_le _

theorem extendWith_granted {m : Machine} {s : St} {src : Src} {out : LLOut} (h : GrantsNext m s.2 (itemsOf s.1.size src)) :
    shown (extendWith m s src out) = out :=
  orDie_granted (by rw [nodes_granted (grants_mono h (asked_le s.1 src))])

theorem insertLoop_granted {m : Machine} (cfg : Cfg) (src : Src) (p n : Nat) :
    ∀ (i : Nat) (cur : St), GrantsNext m cur.2 n →
      shown (insertLoop m cfg src p n i cur) = LinkedList.insertLoop cfg src p n i cur.1 := by
  induction n with
  | zero => intros; rfl
  | succ n ih =>
    intro i cur h
    rw [insertLoop, LinkedList.insertLoop]
    rcases LinkedList.srcItem cfg cur.1 src i with _ | ⟨v, e⟩
    · rfl
    · dsimp only
      split
      · simp only [node, h cur.2 (Nat.le_refl _) (by omega)]
        cases e with
        | some e => rfl
        | none => exact ih _ _ (fun j h1 h2 => h j (by dsimp only at h1; omega) (by dsimp only at h2; omega))
      · rfl

theorem growSlice_granted {m : Machine} (cfg : Cfg) (src : Src) (p : Nat) (n k : Int) (s : St)
    (h : GrantsNext m s.2 (k - n).toNat) :
    shown (growSlice m cfg src p n k s) =
      match LinkedList.assignLoop cfg src p n.toNat 0 s.1 with
      | .ok s' _ => LinkedList.insertLoop cfg src p (k - n).toNat n.toNat s'
      | o => o := by
  unfold growSlice
  rcases LinkedList.assignLoop cfg src p n.toNat 0 s.1 with ⟨s', v⟩ | ⟨s', e⟩ | ⟨s', v, e⟩ | u
  · exact insertLoop_granted cfg src p _ _ (s', s.2) h
  · rfl
  · rfl
  · rfl

theorem srcSize_le (vals : List Int) (src : Src) (h : src.isSequence = true) :
    ArrayList.srcSize vals src ≤ itemsOf vals.length src := by
  cases src <;> simp_all [ArrayList.srcSize, itemsOf, Src.isSequence]

theorem setSlice_granted {m : Machine} (cfg : Cfg) (s : St) (sl : SliceArg) (src : Src)
    (h : GrantsNext m s.2 (itemsOf s.1.size src)) :
    shown (setSlice m cfg s sl src) = LinkedList.assSubscript cfg s.1 (.slice sl) (some (.inr src)) := by
  unfold setSlice
  dsimp only
  rcases e : sliceUnpack sl with e' | ⟨start, stop, step⟩
  · dsimp only; exact shown_lift _ _
  · dsimp only
    split
    · exact shown_lift _ _
    rename_i hs
    split
    · exact shown_lift _ _
    rename_i h1
    split
    · exact shown_lift _ _
    rename_i h2
    unfold LinkedList.assSubscript
    dsimp only
    rw [e]
    dsimp only
    rw [if_neg hs, if_neg h1]
    rcases listAt s.1.size (adjustIndices (↑s.1.size) start stop step).1.toNat with u | p
    · rfl
    · dsimp only
      rw [if_neg (by omega), if_neg (by omega)]
      refine growSlice_granted cfg src p _ _ s (grants_mono h ?_)
      have h3 : step = 1 := by simpa using h1
      subst h3
      have := Refuse.Arr.adjust_one_nonneg s.1.size start stop
      have h5 := srcSize_le s.1.vals src (by simpa using hs)
      rw [LState.length_vals] at h5
      show (ArrayList.srcSize s.1.vals src - (adjustIndices (↑s.1.size) start stop 1).2.2).toNat ≤ _
      omega

theorem imulLoop_granted {m : Machine} (strict : Bool) (k : Nat) :
    ∀ s : St, GrantsNext m s.2 (s.1.size * (2 ^ k - 1)) →
      match LinkedList.imulLoop strict k s.1 with
      | .error u => imulLoop m strict k s = .error u
      | .ok s' => ∃ t, imulLoop m strict k s = .ok ((s', t), true) := by
  induction k with
  | zero => intro s _; exact ⟨s.2, rfl⟩
  | succ k ih =>
    intro s h
    rw [imulLoop, LinkedList.imulLoop]
    cases strict with
    | true => rfl
    | false =>
      simp only [Bool.false_eq_true, if_false]
      obtain ⟨j, hj⟩ : ∃ j, 2 ^ k = j + 1 := ⟨2 ^ k - 1, by have := Nat.two_pow_pos k; omega⟩
      have h2 : s.1.size * (2 ^ (k + 1) - 1) = s.1.size + (s.1.size * j + s.1.size * j) := by
        rw [Nat.pow_succ, hj, show (j + 1) * 2 - 1 = 1 + j + j by omega, Nat.mul_add, Nat.mul_add, Nat.mul_one]; omega
      rw [h2] at h
      rw [nodes_granted (grants_mono h (by omega))]
      dsimp only
      have hsz : (s.1.pushAll s.1.vals).size = s.1.size + s.1.size := by
        rw [LState.vals_length, LState.vals_pushAll, List.length_append, LState.length_vals]
      refine ih (s.1.pushAll s.1.vals, s.2 + s.1.size) (fun i h3 h4 => h i ?_ ?_)
      · dsimp only at h3; omega
      · dsimp only at h4
        rw [hsz, hj, Nat.add_mul, Nat.add_sub_cancel] at h4
        omega

theorem imulLoop_refused {m : Machine} {j k i : Nat} {s : St} (hj : j < k)
    (hg : GrantsNext m s.2 (s.1.size * (2 ^ j - 1)))
    (h1 : s.2 + s.1.size * (2 ^ j - 1) ≤ i) (h2 : i < s.2 + s.1.size * (2 ^ (j + 1) - 1)) (h : m i = false) :
    ∃ s', imulLoop m false k s = .ok (s', false) ∧ s'.1.vals = (List.replicate (2 ^ j) s.1.vals).flatten := by
  induction j generalizing k s with
  | zero =>
    obtain ⟨k, rfl⟩ : ∃ k', k = k' + 1 := ⟨k - 1, by omega⟩
    rw [imulLoop]
    simp only [Bool.false_eq_true, if_false]
    have hr := nodes_refused (k := s.1.size) (by simpa using h1) (by simpa using h2) h
    rcases e : nodes m s.1.size s.2 with ⟨t, b⟩
    rw [e] at hr
    dsimp only at hr
    subst hr
    exact ⟨_, rfl, by simp⟩
  | succ j ih =>
    obtain ⟨k, rfl⟩ : ∃ k', k = k' + 1 := ⟨k - 1, by omega⟩
    obtain ⟨c, hc⟩ : ∃ c, 2 ^ j = c + 1 := ⟨2 ^ j - 1, by have := Nat.two_pow_pos j; omega⟩
    have e1 : s.1.size * (2 ^ (j + 1) - 1) = s.1.size + (s.1.size * c + s.1.size * c) := by
      rw [Nat.pow_succ, hc, show (c + 1) * 2 - 1 = 1 + c + c by omega, Nat.mul_add, Nat.mul_add, Nat.mul_one]; omega
    have e2 : s.1.size * (2 ^ (j + 1 + 1) - 1) = s.1.size * 3 + (s.1.size * c + s.1.size * c + s.1.size * c + s.1.size * c) := by
      rw [Nat.pow_succ, Nat.pow_succ, hc, show (c + 1) * 2 * 2 - 1 = 3 + c + c + c + c by omega]
      simp only [Nat.mul_add]; omega
    rw [e1] at hg h1
    rw [e2] at h2
    rw [imulLoop]
    simp only [Bool.false_eq_true, if_false]
    rw [nodes_granted (grants_mono hg (by omega))]
    dsimp only
    have hsz : (s.1.pushAll s.1.vals).size = s.1.size + s.1.size := by
      rw [LState.vals_length, LState.vals_pushAll, List.length_append, LState.length_vals]
    have e3 : (s.1.size + s.1.size) * (2 ^ j - 1) = s.1.size * c + s.1.size * c := by
      rw [hc, Nat.add_mul, Nat.add_sub_cancel]
    have e4 : (s.1.size + s.1.size) * (2 ^ (j + 1) - 1) =
        s.1.size * 2 + (s.1.size * c + s.1.size * c + s.1.size * c + s.1.size * c) := by
      rw [Nat.pow_succ, hc, show (c + 1) * 2 - 1 = 1 + c + c by omega, Nat.add_mul]
      simp only [Nat.mul_add]; omega
    obtain ⟨s', e5, hv⟩ := ih (k := k) (s := (s.1.pushAll s.1.vals, s.2 + s.1.size)) (by omega)
      (fun x h3 h4 => hg x (by dsimp only at h3; omega) (by dsimp only at h4; rw [hsz, e3] at h4; omega))
      (by dsimp only; rw [hsz, e3]; omega) (by dsimp only; rw [hsz, e4]; omega)
    refine ⟨s', e5, ?_⟩
    rw [hv, LState.vals_pushAll, Nat.pow_succ]
    generalize 2 ^ j = q
    clear hc hg h1 h2 e1 e2 e3 e4 e5 hv ih
    induction q with
    | zero => rfl
    | succ q ih =>
      rw [show (q + 1) * 2 = q * 2 + 1 + 1 by omega]
      simp only [List.replicate_succ, List.flatten_cons, ih, List.append_assoc]

theorem step_enough {m : Machine} (cfg : Cfg) (strict : Bool) (s : St) (op : Op)
    (h : GrantsNext m s.2 (nodesFor s.1.size op)) :
    shown (step m cfg strict s op) = LinkedList.step cfg strict s.1 op := by
  cases op with
  | append a => exact guarded_granted h
  | insert i a => exact guarded_granted h
  | copy => exact guarded_granted (out := LinkedList.step cfg strict s.1 .copy) h
  | extend src => exact extendWith_granted h
  | iadd src => exact extendWith_granted h
  | imul n =>
    show shown (imul m strict s n) = LinkedList.imul strict s.1 n
    unfold imul LinkedList.imul
    dsimp only
    by_cases hneg : n < 0
    · rw [if_pos hneg]; rfl
    rw [if_neg hneg]
    by_cases h0 : n = 0
    · rw [if_pos h0, if_pos h0]; rfl
    rw [if_neg h0, if_neg h0]
    have := imulLoop_granted strict (n.toNat - 1) s h
    rcases e : LinkedList.imulLoop strict (n.toNat - 1) s.1 with u | s'
    · rw [e] at this
      dsimp only at this
      rw [this]
      rfl
    · rw [e] at this
      obtain ⟨t, this⟩ := this
      rw [this]
      rfl
  | mul n => exact guarded_granted h
  | rmul a =>
    show shown (rmul m s a) = LinkedList.rmul s.1 a
    cases a with
    | int v | index v =>
      unfold rmul LinkedList.rmul
      rcases e : asLong _ with ⟨n, _ | x⟩
      · have : n = v := by
          unfold asLong at e
          dsimp only at e
          split at e
          · injection e with e _; exact e.symm
          · injection e with _ e; cases e
        subst this
        exact guarded_granted h
      · rfl
    | _ => rfl
  | set k v =>
    cases k with
    | idx a => exact shown_lift s.2 (LinkedList.step cfg strict s.1 _)
    | slice sl =>
      cases v with
      | inl a => exact shown_lift s.2 (LinkedList.step cfg strict s.1 _)
      | inr src => exact setSlice_granted cfg s sl src h
  | _ => first | rfl | exact shown_lift s.2 (LinkedList.step cfg strict s.1 _)

/-! ### The constructor -/

theorem initPushes_le (xs : List Arg) : initPushes xs ≤ xs.length := by
  induction xs with
  | nil => exact Nat.le_refl _
  | cons a as ih =>
    rw [initPushes]
    split
    · simpa using ih
    · simp

end Verif.RefuseInt
