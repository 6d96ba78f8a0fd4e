import Verif.Lemmas.StdList
import Verif.Model.LinkedIter
import Verif.Spec.Iter

/-! Helper lemmas: node identities, linked list iterators. -/

namespace Verif

namespace LState

variable {α : Type}

/-- Node identities are distinct and older than the next fresh one. -/
def WF (s : LState α) : Prop := s.ids.Nodup ∧ ∀ i ∈ s.ids, i < s.fresh

theorem wf_empty (n m : Nat) : WF (⟨[], n, m⟩ : LState α) := ⟨List.nodup_nil, by simp [ids]⟩

theorem wf_sub {s s' : LState α} (h : s.WF) (hs : s'.ids.Sublist s.ids) (hf : s.fresh ≤ s'.fresh) : s'.WF :=
  ⟨h.1.sublist hs, fun i hi => Nat.lt_of_lt_of_le (h.2 i (hs.subset hi)) hf⟩

theorem ids_push (s : LState α) (v : α) : (s.push v).ids = s.ids ++ [s.fresh] := by simp [ids, push]

theorem wf_push {s : LState α} (h : s.WF) (v : α) : (s.push v).WF := by
  refine ⟨?_, ?_⟩
  · rw [ids_push, List.nodup_append]
    refine ⟨h.1, by simp, ?_⟩
    intro a ha b hb
    simp only [List.mem_singleton] at hb
    have := h.2 a ha
    omega
  · intro i hi
    rw [ids_push, List.mem_append] at hi
    show i < s.fresh + 1
    rcases hi with hi | hi
    · have := h.2 i hi; omega
    · simp only [List.mem_singleton] at hi; omega

theorem wf_pushAll {s : LState α} (h : s.WF) (vs : List α) : (s.pushAll vs).WF := by
  induction vs generalizing s with
  | nil => exact h
  | cons v vs ih => exact ih (wf_push h v)

theorem wf_erase {s : LState α} (h : s.WF) (p : Nat) : (s.erase p).WF := by
  refine wf_sub h ?_ (Nat.le_refl _)
  exact (List.eraseIdx_sublist s.nodes p).map _

theorem wf_eraseRange {s : LState α} (h : s.WF) {p q : Nat} (hpq : p ≤ q) : (s.eraseRange p q).WF := by
  refine wf_sub h ?_ (Nat.le_refl _)
  refine List.Sublist.map _ ?_
  have : s.nodes = s.nodes.take p ++ s.nodes.drop p := (List.take_append_drop p s.nodes).symm
  show (s.nodes.take p ++ s.nodes.drop q).Sublist s.nodes
  conv => rhs; rw [this]
  refine List.Sublist.append_left ?_ _
  have e : s.nodes.drop q = (s.nodes.drop p).drop (q - p) := by rw [List.drop_drop]; congr 1; omega
  rw [e]
  exact List.drop_sublist _ _

theorem ids_insert (s : LState α) (p : Nat) (v : α) :
    (s.insert p v).ids = s.ids.take p ++ s.fresh :: s.ids.drop p := by simp [ids, insert]

theorem wf_insert {s : LState α} (h : s.WF) (p : Nat) (v : α) : (s.insert p v).WF := by
  have hp : (s.insert p v).ids.Perm (s.fresh :: s.ids) := by
    rw [ids_insert]
    refine List.perm_middle.trans ?_
    rw [List.take_append_drop]
  refine ⟨?_, ?_⟩
  · refine hp.nodup_iff.2 (List.nodup_cons.2 ⟨?_, h.1⟩)
    intro hm; exact Nat.lt_irrefl _ (h.2 _ hm)
  · intro i hi
    show i < s.fresh + 1
    rcases List.mem_cons.1 (hp.mem_iff.1 hi) with hi | hi
    · omega
    · have := h.2 i hi; omega

theorem wf_assign {s : LState α} (h : s.WF) (p : Nat) (v : α) : (s.assign p v).WF := by
  refine wf_sub h ?_ (Nat.le_refl _)
  rw [ids_assign]; exact List.Sublist.refl _

theorem wf_reverse {s : LState α} (h : s.WF) : s.reverse.WF := by
  refine wf_sub h ?_ (Nat.le_refl _)
  rw [ids_reverse]; exact List.Sublist.refl _

theorem wf_clear {s : LState α} : s.clear.WF := ⟨List.nodup_nil, by simp [ids, clear]⟩

theorem wf_bump {s : LState α} (h : s.WF) : s.bump.WF := h

end LState

theorem idxOf?_of_getElem? {l : List Nat} (h : l.Nodup) {p id : Nat} (hp : l[p]? = some id) :
    l.idxOf? id = some p := by
  induction l generalizing p with
  | nil => simp at hp
  | cons a as ih =>
    rw [List.nodup_cons] at h
    cases p with
    | zero =>
      simp only [List.getElem?_cons_zero, Option.some.injEq] at hp
      subst hp
      simp [List.idxOf?_cons]
    | succ p =>
      simp only [List.getElem?_cons_succ] at hp
      have hm : id ∈ as := List.mem_of_getElem? hp
      have hne : a ≠ id := by rintro rfl; exact h.1 hm
      rw [List.idxOf?_cons]
      simp only [beq_eq_false_iff_ne.2 hne, Bool.false_eq_true, if_false, ih h.2 hp, Option.map_some]

namespace LIter

variable {α : Type}

theorem locate_atPos {s : LState α} (h : s.WF) {p : Nat} (hp : p < s.size) :
    locate s (atPos s p) = .ok p := by
  have e : s.ids[p]? = some (s.ids[p]'(by simpa using hp)) := List.getElem?_eq_getElem _
  unfold atPos
  rw [e]
  simp only [locate, idxOf?_of_getElem? h.1 e]

theorem getElem?_vals {s : LState α} {p : Nat} (hp : p < s.size) :
    s.vals[p]? = some (s.vals[p]'(by simpa using hp)) := List.getElem?_eq_getElem _

/-- The cached node is at a position not after the index, unless the list has been modified since. -/
def Inv (it : LIter) (s : LState α) : Prop :=
  it.reversed = false ∧ ∃ i, it.index = some i ∧
    (it.cacheMod = s.modCount → ∃ p, p ≤ i ∧ p ≤ s.size ∧ it.cache = atPos s p)

theorem inv_create (s : LState α) : Inv (create s false) s :=
  ⟨rfl, 0, rfl, fun _ => ⟨0, Nat.le_refl _, Nat.zero_le _, rfl⟩⟩

/-- One forward step from the invariant: never undefined, and the invariant is kept. -/
theorem next_inv {it : LIter} {s : LState α} (hw : s.WF) (hi : Inv it s) (hm : it.cacheMod ≤ s.modCount) :
    Inv (it.next s).1 s ∧ (it.next s).1.cacheMod ≤ s.modCount ∧ ∀ u, (it.next s).2 ≠ .ub u := by
  obtain ⟨hr, i, hi, hc⟩ := hi
  have hrec : Inv it s := ⟨hr, i, hi, hc⟩
  unfold next
  by_cases h0 : s.size = 0
  · rw [if_pos h0]; exact ⟨hrec, hm, by simp⟩
  · rw [if_neg h0, hr]
    simp only [Bool.false_eq_true, if_false, hi]
    by_cases hs : i ≥ s.size
    · rw [if_pos hs]; exact ⟨hrec, hm, by simp⟩
    · rw [if_neg hs]
      have hlt : i < s.size := by omega
      unfold updateCache
      by_cases hmc : it.cacheMod = s.modCount
      · rw [if_pos hmc]
        obtain ⟨p, hp1, hp2, hp3⟩ := hc hmc
        have hps : p < s.size := by omega
        simp only [readMove, hp3, locate_atPos hw hps, getElem?_vals hps, hr, Bool.false_eq_true, if_false]
        refine ⟨⟨rfl, i + 1, by simp [hi], fun _ => ⟨p + 1, by omega, by omega, rfl⟩⟩, hm, by simp⟩
      · rw [if_neg hmc, listAt_eq, show min i s.size = i by omega]
        simp only [readMove, locate_atPos hw hlt, getElem?_vals hlt, hr, Bool.false_eq_true, if_false]
        refine ⟨⟨rfl, i + 2, by simp, fun _ => ⟨i + 1, by omega, by omega, rfl⟩⟩, Nat.le_refl _, by simp⟩

/-- The iterator has not been disturbed: the cached node is the one at the index. -/
def Exact (it : LIter) (s : LState α) (i : Nat) : Prop :=
  it = ⟨some i, atPos s i, s.modCount, false⟩

theorem next_exact {it : LIter} {s : LState α} {i : Nat} (hw : s.WF) (h : Exact it s i) :
    (∀ hi : i < s.size, (it.next s).2 = .yield (s.vals[i]'(by simpa using hi)) ∧ Exact (it.next s).1 s (i + 1)) ∧
    (s.size ≤ i → it.next s = (it, .stop)) := by
  subst h
  constructor
  · intro hi
    unfold next
    rw [if_neg (by omega)]
    simp only [Bool.false_eq_true, if_false]
    rw [if_neg (by omega)]
    simp only [updateCache, if_true, readMove, locate_atPos hw hi, getElem?_vals hi, Bool.false_eq_true, if_false]
    exact ⟨trivial, rfl⟩
  · intro hi
    unfold next
    split
    · rfl
    · simp only [Bool.false_eq_true, if_false]
      rw [if_pos hi]

theorem run_exact {s : LState α} (hw : s.WF) (m : Nat) : ∀ (it : LIter) (i : Nat), it.Exact s i →
    it.run (List.replicate m s) = Spec.iterRun i (List.replicate m s.vals) := by
  induction m with
  | zero => intros; rfl
  | succ m ih =>
    intro it i he
    obtain ⟨h1, h2⟩ := next_exact hw he
    rw [List.replicate_succ, List.replicate_succ, run, Spec.iterRun]
    by_cases hi : i < s.size
    · have hlt : i < s.vals.length := by simpa using hi
      obtain ⟨hy, hx⟩ := h1 hi
      have := ih _ _ hx
      generalize it.next s = t at *
      obtain ⟨it', a⟩ := t
      simp only at hy this ⊢
      subst hy
      rw [List.getElem?_eq_getElem hlt]
      simp only [this]
    · have hge : s.vals.length ≤ i := by simpa using hi
      rw [h2 (by simpa using hi), List.getElem?_eq_none hge]
      simp only [ih it i he]
      congr 1
      clear ih
      cases m with
      | zero => rfl
      | succ m => rw [List.replicate_succ, Spec.iterRun, List.getElem?_eq_none hge, List.map_cons]

theorem take_pad (A : List β) (m : Nat) (a : β) :
    (A ++ List.replicate (m + 1) a).take m = (A ++ List.replicate m a).take m := by
  rw [List.replicate_succ', ← List.append_assoc, List.take_append_of_le_length]
  simp

theorem run_dead (s : LState α) (c : Option Nat) (mc m : Nat) :
    (⟨none, c, mc, true⟩ : LIter).run (List.replicate m s) = List.replicate m Next.stop := by
  induction m with
  | zero => rfl
  | succ m ih =>
    rw [List.replicate_succ, run]
    have : (⟨none, c, mc, true⟩ : LIter).next s = (⟨none, c, mc, true⟩, .stop) := by
      unfold next
      split
      · rfl
      · simp only [if_true]
    rw [this, List.replicate_succ]
    simp only [ih]

theorem run_reversed {s : LState α} (hw : s.WF) (x : α) (t : List α) (hv : s.vals = x :: t) (i : Nat) :
    ∀ m, i < s.size → (⟨some i, atPos s i, s.modCount, true⟩ : LIter).run (List.replicate m s) =
      (((t.take i).reverse ++ [(x :: t).getLast (by simp)]).map Next.yield ++ List.replicate m Next.stop).take m := by
  have hlen : s.size = t.length + 1 := by
    have := congrArg List.length hv; simpa using this
  have hne : ¬ s.size = 0 := by omega
  induction i with
  | zero =>
    intro m hi
    cases m with
    | zero => rfl
    | succ m =>
      rw [List.replicate_succ, run]
      have hlast : s.vals[s.size - 1]? = some ((x :: t).getLast (by simp)) := by
        rw [hv, hlen, ← List.getLast?_eq_some_getLast, List.getLast?_eq_getElem?]; rfl
      have : (⟨some 0, atPos s 0, s.modCount, true⟩ : LIter).next s =
          (⟨none, atPos s 0, s.modCount, true⟩, .yield ((x :: t).getLast (by simp))) := by
        unfold next
        rw [if_neg hne]
        simp only [if_true, hlast]
      rw [this]
      simp only [run_dead, List.take_zero, List.reverse_nil, List.nil_append, List.map_cons, List.map_nil,
        List.singleton_append, List.take_succ_cons]
      congr 1
      simp
  | succ i ih =>
    intro m hi
    cases m with
    | zero => rfl
    | succ m =>
      rw [List.replicate_succ, run]
      have hti : i < t.length := by omega
      have hval : s.vals[i + 1]? = some t[i] := by rw [hv]; simp [hti]
      have : (⟨some (i + 1), atPos s (i + 1), s.modCount, true⟩ : LIter).next s =
          (⟨some i, atPos s i, s.modCount, true⟩, .yield t[i]) := by
        unfold next
        rw [if_neg hne]
        simp only [if_true, updateCache, readMove, locate_atPos hw hi, hval, decIndex]
      rw [this]
      simp only [ih m (by omega)]
      rw [List.take_succ_eq_append_getElem hti]
      simp only [List.reverse_append, List.reverse_cons, List.reverse_nil, List.nil_append,
        List.cons_append, List.map_cons, List.take_succ_cons]
      congr 1
      exact (take_pad _ _ _).symm

theorem revRun_replicate (l : List α) : ∀ (n m : Nat), n ≤ l.length → Spec.revRun n (List.replicate m l) =
    (((l.take n).reverse).map Next.yield ++ List.replicate m Next.stop).take m := by
  intro n
  induction n with
  | zero =>
    intro m _
    cases m with
    | zero => rfl
    | succ m => simp [Spec.revRun, List.replicate_succ]
  | succ n ih =>
    intro m hn
    cases m with
    | zero => simp [Spec.revRun]
    | succ m =>
      have hlt : n < l.length := by omega
      rw [List.replicate_succ, Spec.revRun, List.getElem?_eq_getElem hlt]
      simp only [ih m (by omega)]
      rw [List.take_succ_eq_append_getElem hlt]
      simp only [List.reverse_append, List.reverse_cons, List.reverse_nil, List.nil_append,
        List.cons_append, List.map_cons, List.take_succ_cons]
      congr 1
      exact (take_pad _ _ _).symm

/-- The iterator after it has refreshed its cache once: the index is one ahead of the cached node. -/
def Late (it : LIter) (s : LState α) (i : Nat) : Prop :=
  it = ⟨some (i + 1), atPos s i, s.modCount, false⟩

theorem next_late {it : LIter} {s : LState α} {i : Nat} (hw : s.WF) (h : Late it s i) :
    (∀ hi : i + 1 < s.size, (it.next s).2 = .yield (s.vals[i]'(by simp; omega)) ∧ Late (it.next s).1 s (i + 1)) ∧
    (s.size ≤ i + 1 → it.next s = (it, .stop)) := by
  subst h
  constructor
  · intro hi
    have hi' : i < s.size := by omega
    unfold next
    rw [if_neg (by omega)]
    simp only [Bool.false_eq_true, if_false]
    rw [if_neg (by omega)]
    simp only [updateCache, if_true, readMove, locate_atPos hw hi', getElem?_vals hi', Bool.false_eq_true, if_false]
    exact ⟨trivial, rfl⟩
  · intro hi
    unfold next
    split
    · rfl
    · simp only [Bool.false_eq_true, if_false]
      rw [if_pos hi]

/-- First step after a counted modification. -/
theorem next_refresh {it : LIter} {s s' : LState α} {i : Nat} (hw : s'.WF) (h : Exact it s i)
    (hm : s.modCount ≠ s'.modCount) (hi : i < s'.size) :
    (it.next s').2 = .yield (s'.vals[i]'(by simpa using hi)) ∧ Late (it.next s').1 s' (i + 1) := by
  subst h
  unfold next
  rw [if_neg (by omega)]
  simp only [Bool.false_eq_true, if_false]
  rw [if_neg (by omega)]
  simp only [updateCache, hm, if_false, listAt_eq, Nat.min_eq_left (Nat.le_of_lt hi), readMove, locate_atPos hw hi,
    getElem?_vals hi, Bool.false_eq_true]
  exact ⟨trivial, rfl⟩

end LIter
end Verif
