import Verif.Lemmas.CPySortMain
import Verif.Spec.Callbacks

/-!
# The whole of `CPython_sort`
-/

namespace Verif.CPySort

open Verif.Spec

variable {σ ε κ ν : Type}

theorem stable_reverse {lt : ε → ε → Bool} {O W : List ε} (h : StableSort lt O.reverse W) :
    StableSort (fun x y => lt y x) O W.reverse := by
  obtain ⟨p, s, o⟩ := h
  refine ⟨(List.reverse_perm W).trans (p.trans (List.reverse_perm O)), ?_, ?_⟩
  · rw [sortedBy_reverse]; exact s
  · have := o.reverse
    rw [List.reverse_reverse] at this
    intro x
    have e : equivBy (fun x y => lt y x) x = equivBy lt x := by
      funext y; simp only [equivBy, Bool.and_comm]
    rw [e]
    exact this x

theorem stable_small {lt : ε → ε → Bool} {O : List ε} (h : O.length ≤ 1) : StableSort lt O O := by
  refine ⟨List.Perm.refl _, ?_, SameOrder.refl _⟩
  match O, h with
  | [], _ => exact sortedBy_nil
  | [x], _ => exact sortedBy_singleton x

/-- `Raised` without the state record. -/
def RaisedBy (h : Host σ ε) (env : σ) (e : Exc) : Prop :=
  (∃ s0 x y, h.lt s0 x y = (.error e, env)) ∨ (e = .memoryError ∧ ∃ s0 n, h.malloc s0 n = (false, env))

theorem sortSlots_spec (h : Host σ ε) (lt : ε → ε → Bool) (env : σ) (O : List ε) (rev : Bool) (hmax : O.length < 2 ^ 60) :
    ∃ ok out env' err, sortSlots h env O rev = .ok (ok, out, env', err) ∧ out.Perm O ∧
      (ok = false → ∃ e, err = some e ∧ RaisedBy h env' e) ∧
      (ok = true → err = none ∧ (Good h lt → StableSort (dir lt rev) O out)) := by
  obtain ⟨r, s1, hs1, p1, n1, k1⟩ := listsort_spec h lt O rev
    { env := env, mem := O, minGallop := 7, alloced := initAlloced h.keyed O.length, pending := [], err := none } rfl rfl hmax
  have hd : ∀ W, StableSort lt O W → ¬ (rev && decide (1 < O.length)) = true → StableSort (dir lt rev) O W := by
    intro W hW hc
    cases rev with
    | false => exact hW
    | true =>
      have hl : O.length ≤ 1 := by simp at hc; omega
      have hWO : W = O := by
        have hp := hW.1
        match O, hl with
        | [], _ => exact hp.eq_nil
        | [x], _ => exact List.perm_singleton.1 hp
      rw [hWO]
      exact stable_small hl
  unfold sortSlots
  simp only [hs1]
  by_cases hc : (rev && decide (1 < O.length)) = true
  · have hrev : rev = true := by simp at hc; exact hc.1
    obtain ⟨u, s2, hs2, e2⟩ := reverseSlice_spec [] s1.mem [] 0 O.length s1 (by simp) rfl (by rw [p1.length_eq])
    refine ⟨r.isSome, s2.mem, s2.env, s2.err, ?_, ?_, ?_, ?_⟩
    · show (do
        let ((), s) ← (if rev && decide (1 < O.length) then reverseSlice 0 O.length else pure () : M σ ε Unit) s1
        pure (r.isSome, s.mem, s.env, s.err) : Except Fault (Bool × List ε × σ × Option Exc)) = _
      rw [if_pos hc, hs2]
      rfl
    · rw [e2]; simp only [List.nil_append, List.append_nil]; exact (List.reverse_perm _).trans p1
    · intro hf
      cases r with
      | none =>
        obtain ⟨e, he, hr⟩ := n1 rfl
        exact ⟨e, by rw [e2]; exact he, by rw [e2]; exact hr⟩
      | some _ => cases hf
    · intro ht
      obtain ⟨he, hg⟩ := k1 ht
      refine ⟨by rw [e2]; exact he, fun G => ?_⟩
      have := hg G
      rw [if_pos hc] at this
      rw [e2, hrev]
      simpa [dir] using stable_reverse this
  · refine ⟨r.isSome, s1.mem, s1.env, s1.err, ?_, p1, ?_, ?_⟩
    · show (do
        let ((), s) ← (if rev && decide (1 < O.length) then reverseSlice 0 O.length else pure () : M σ ε Unit) s1
        pure (r.isSome, s.mem, s.env, s.err) : Except Fault (Bool × List ε × σ × Option Exc)) = _
      rw [if_neg hc]
      rfl
    · intro hf
      cases r with
      | none =>
        obtain ⟨e, he, hr⟩ := n1 rfl
        exact ⟨e, he, hr⟩
      | some _ => cases hf
    · intro ht
      obtain ⟨he, hg⟩ := k1 ht
      refine ⟨he, fun G => hd _ ?_ hc⟩
      have := hg G
      rwa [if_neg hc] at this

/-! ## With a key function -/

theorem keysOf_len (c : Caller σ κ ν) : ∀ (l : List ν) (env env' : σ) (ks : List κ), keysOf c env l = (.ok ks, env') →
    ks.length = l.length := by
  intro l
  induction l with
  | nil => intro env env' ks h; simp only [keysOf] at h; cases h; rfl
  | cons x xs ih =>
    intro env env' ks h
    simp only [keysOf] at h
    split at h
    · cases h
    · split at h
      · cases h
      · rename_i h2
        cases h
        simp [ih _ _ _ h2]

theorem keysOf_raised (c : Caller σ κ ν) : ∀ (l : List ν) (env env' : σ) (e : Exc), keysOf c env l = (.error e, env') →
    ∃ s0 x, c.key s0 x = (.error e, env') := by
  intro l
  induction l with
  | nil => intro env env' e h; simp only [keysOf] at h; cases h
  | cons x xs ih =>
    intro env env' e h
    simp only [keysOf] at h
    split at h
    · rename_i h1; cases h; exact ⟨env, x, h1⟩
    · split at h
      · rename_i h2; cases h; exact ih _ _ _ h2
      · cases h

theorem keysOf_pure (c : Caller σ κ ν) (kf : ν → κ) (hk : ∀ s x, (c.key s x).1 = .ok (kf x)) : ∀ (l : List ν) (env : σ),
    (keysOf c env l).1 = .ok (l.map kf) := by
  intro l
  induction l with
  | nil => intro env; rfl
  | cons x xs ih =>
    intro env
    have h1 := hk env x
    simp only [keysOf]
    split
    · rename_i h2; rw [h2] at h1; cases h1
    · rename_i k e h2
      rw [h2] at h1
      cases h1
      have h3 := ih e
      split
      · rename_i h4; rw [h4] at h3; cases h3
      · rename_i h4; rw [h4] at h3; cases h3; rfl

theorem map_snd_zip (ks : List κ) (l : List ν) (h : ks.length = l.length) : (ks.zip l).map (·.2) = l := by
  rw [List.map_snd_zip]
  omega

/-- A stable sort of the slots is a stable sort of the values. -/
theorem stable_values (lt : κ → κ → Bool) (kf : ν → κ) (l : List ν) (out : List (κ × ν))
    (h : StableSort (fun p q => lt p.1 q.1) ((l.map kf).zip l) out) :
    StableSort (fun x y => lt (kf x) (kf y)) l (out.map (·.2)) := by
  obtain ⟨p, s, o⟩ := h
  have hkey : ∀ q ∈ (l.map kf).zip l, q.1 = kf q.2 := by
    intro q hq
    rw [List.zip_map_left] at hq
    obtain ⟨a, b, rfl⟩ := List.mem_map.1 hq
    have := List.mem_iff_getElem?.1 b
    obtain ⟨i, hi⟩ := this
    rw [List.getElem?_zip_eq_some] at hi
    simp only [Prod.map]
    have : a.1 = a.2 := by
      have := hi.1.symm.trans hi.2
      simpa using this
    simp [this]
  have hkeyo : ∀ q ∈ out, q.1 = kf q.2 := fun q hq => hkey q (p.mem_iff.1 hq)
  refine ⟨?_, ?_, ?_⟩
  · have := p.map (·.2)
    rwa [map_snd_zip _ _ (by simp)] at this
  · unfold SortedBy
    rw [List.pairwise_map]
    unfold SortedBy at s
    refine s.imp_of_mem ?_
    intro a b ha hb hab
    show lt (kf b.2) (kf a.2) = false
    rw [← hkeyo a ha, ← hkeyo b hb]
    exact hab
  · intro x
    have h1 : ∀ (m : List (κ × ν)), (∀ q ∈ m, q.1 = kf q.2) →
        (m.map (·.2)).filter (equivBy (fun x y => lt (kf x) (kf y)) x) =
          (m.filter (equivBy (fun p q => lt p.1 q.1) (kf x, x))).map (·.2) := by
      intro m hm
      rw [List.filter_map]
      congr 1
      refine List.filter_congr ?_
      intro q hq
      simp only [Function.comp, equivBy, hm q hq]
    have h2 := congrArg (List.map (·.2)) (o (kf x, x))
    rw [← h1 _ hkeyo, ← h1 _ hkey, map_snd_zip _ _ (by simp)] at h2
    exact h2

theorem sortKeyed_spec (c : Caller σ κ ν) (env : σ) (l : List ν) (rev : Bool) (hmax : l.length < 2 ^ 60) :
    ∃ ok out env' err, sortKeyed c env l rev = .ok (ok, out, env', err) ∧ out.Perm l ∧
      (ok = false → ∃ e, err = some e ∧ CallerRaised c env' e) ∧ (ok = true → err = none) ∧
      ∀ (kf : ν → κ) (lt : κ → κ → Bool), (∀ s x, (c.key s x).1 = .ok (kf x)) → (∀ s x y, (c.lt s x y).1 = .ok (lt x y)) →
        StrictWeak lt → ok = true → StableSort (dir (fun x y => lt (kf x) (kf y)) rev) l out := by
  unfold sortKeyed
  generalize hgot : (if l.length < 256 / 2 then (true, env) else c.malloc env l.length) = got
  obtain ⟨got, env1⟩ := got
  cases got with
  | false =>
    simp only [Bool.not_false, if_true]
    refine ⟨_, _, _, _, rfl, List.Perm.refl _, fun _ => ⟨_, rfl, Or.inr (Or.inr ⟨rfl, ?_⟩)⟩, by simp, by simp⟩
    split at hgot
    · cases hgot
    · exact ⟨_, _, hgot⟩
  | true =>
    simp only [Bool.not_true, Bool.false_eq_true, if_false]
    match hk : keysOf c env1 l with
    | (.error x, env2) =>
      exact ⟨_, _, _, _, rfl, List.Perm.refl _, fun _ => ⟨_, rfl, Or.inl (keysOf_raised c l env1 env2 x hk)⟩, by simp, by simp⟩
    | (.ok ks, env2) =>
      have hlen := keysOf_len c l env1 env2 ks hk
      have hzl : (ks.zip l).length = l.length := by rw [List.length_zip]; omega
      -- any comparison will do for the safety part
      obtain ⟨ok, out, env3, err, h1, h2, h3, h4⟩ := sortSlots_spec (keyedHost c) (fun _ _ => false) env2 (ks.zip l) rev (by omega)
      simp only [h1]
      refine ⟨ok, out.map (·.2), env3, err, rfl, ?_, ?_, fun ht => (h4 ht).1, ?_⟩
      · have := h2.map (·.2)
        rwa [map_snd_zip _ _ hlen] at this
      · intro hf
        obtain ⟨e, he, hr⟩ := h3 hf
        refine ⟨e, he, ?_⟩
        rcases hr with ⟨s0, x, y, hr⟩ | ⟨hm, s0, n, hr⟩
        · exact Or.inr (Or.inl ⟨s0, x.1, y.1, hr⟩)
        · exact Or.inr (Or.inr ⟨hm, s0, n, hr⟩)
      · intro kf lt hkf hlt sw ht
        have hks : ks = l.map kf := by
          have := keysOf_pure c kf hkf l env1
          rw [hk] at this
          cases this
          rfl
        subst hks
        obtain ⟨ok', out', env3', err', h1', _, _, h4'⟩ :=
          sortSlots_spec (keyedHost c) (fun p q => lt p.1 q.1) env2 ((l.map kf).zip l) rev (by omega)
        rw [h1] at h1'
        cases h1'
        have hg : Good (keyedHost c) (fun p q => lt p.1 q.1) :=
          ⟨⟨fun x => sw.irrefl _, fun x y z => sw.trans _ _ _, fun x y z => sw.negTrans _ _ _⟩, fun s x y => hlt s x.1 y.1⟩
        have := (h4' ht).2 hg
        cases rev with
        | false => exact stable_values lt kf l out this
        | true => exact stable_values (fun a b => lt b a) kf l out this

theorem sortPlain_spec (c : Caller σ κ κ) (env : σ) (l : List κ) (rev : Bool) (hmax : l.length < 2 ^ 60) :
    ∃ ok out env' err, sortPlain c env l rev = .ok (ok, out, env', err) ∧ out.Perm l ∧
      (ok = false → ∃ e, err = some e ∧ RaisedBy (plainHost c) env' e) ∧ (ok = true → err = none) ∧
      ∀ lt : κ → κ → Bool, (∀ s x y, (c.lt s x y).1 = .ok (lt x y)) → StrictWeak lt → ok = true →
        StableSort (dir lt rev) l out := by
  obtain ⟨ok, out, env3, err, h1, h2, h3, h4⟩ := sortSlots_spec (plainHost c) (fun _ _ => false) env l rev hmax
  refine ⟨ok, out, env3, err, h1, h2, h3, fun ht => (h4 ht).1, ?_⟩
  · intro lt hlt sw ht
    obtain ⟨ok', out', env3', err', h1', _, _, h4'⟩ := sortSlots_spec (plainHost c) lt env l rev hmax
    rw [h1] at h1'
    cases h1'
    exact (h4' ht).2 ⟨sw, hlt⟩

end Verif.CPySort
