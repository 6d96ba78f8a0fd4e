import Verif.Props.Sort

/-!
# C34: exactly the int lists `sort(key=...)` keeps
-/

namespace Verif.Props

open Verif Verif.Spec CPySort ListSort

variable {σ κ : Type}

/-- The values `sort(key=...)` of an int list gives back: all for 64-bit elements, those below 2^30 in absolute
value up to 3.11, and 0, the positive ones and -2^31 from 3.12 on. -/
def C34_Kept (K : Kind) (py : PyVer) (v : Int) : Prop :=
  K = .i64 ∨ (py = .le311 ∧ -(2 ^ 30) < v ∧ v < 2 ^ 30) ∨ (py ≠ .le311 ∧ (0 ≤ v ∨ v = -(2 ^ 31)))

private theorem sum_natAbs_perm {a b : List Int} (h : a.Perm b) : (a.map Int.natAbs).sum = (b.map Int.natAbs).sum :=
  (h.map _).sum_nat

private theorem tmod_small {v : Int} (h1 : -(2 ^ 30) < v) (h2 : v < 2 ^ 30) : v.tmod (2 ^ 30) = v := by
  rcases Int.lt_or_le v 0 with h | h
  · have e : v = -(-v) := by omega
    rw [e, Int.neg_tmod, Int.tmod_eq_of_lt (by omega) (by omega)]
  · exact Int.tmod_eq_of_lt h h2

private theorem natAbs_tmod_le (v : Int) : (v.tmod (2 ^ 30)).natAbs ≤ v.natAbs := by
  rw [Int.natAbs_tmod]; exact Nat.mod_le _ _

private theorem tmod_sum_le (l : List Int) :
    ((l.map fun v => v.tmod (2 ^ 30)).map Int.natAbs).sum ≤ (l.map Int.natAbs).sum := by
  induction l with
  | nil => exact Nat.le_refl _
  | cons x xs ih =>
    simp only [List.map_cons, List.sum_cons]
    exact Nat.add_le_add (natAbs_tmod_le x) ih

private theorem tmod_sum_eq (l : List Int)
    (h : ((l.map fun v => v.tmod (2 ^ 30)).map Int.natAbs).sum = (l.map Int.natAbs).sum) :
    ∀ v ∈ l, (v.tmod (2 ^ 30)).natAbs = v.natAbs := by
  induction l with
  | nil => intro v hv; cases hv
  | cons x xs ih =>
    have h1 := natAbs_tmod_le x
    have h2 := tmod_sum_le xs
    simp only [List.map_cons, List.sum_cons] at h
    intro v hv
    rcases List.mem_cons.1 hv with rfl | hv
    · omega
    · exact ih (by omega) v hv

private theorem no_error {c : Caller σ κ PyLong} {kf : PyLong → κ} {lt : κ → κ → Bool} (ho : Ordered c kf lt) (hm : MemOk c)
    {env' : σ} {err : Option Exc} (h3 : ∀ e, err = some e → CallerRaised c env' e) : err = none := by
  cases err with
  | none => rfl
  | some e =>
    exfalso
    rcases h3 e rfl with ⟨s, x, h⟩ | ⟨s, x, y, h⟩ | ⟨_, s, n, h⟩
    · have := ho.key s x; rw [h] at this; cases this
    · have := ho.lt s x y; rw [h] at this; cases this
    · have := hm s n; rw [h] at this; cases this

private theorem kept_map {K : Kind} {py : PyVer} {l srt : List Int} (hk : ∀ v ∈ l, C34_Kept K py v) (hp : srt.Perm l) :
    srt.map (sent K py) = srt ∧ l.any (Lost K py) = false := by
  have hkept : ∀ v ∈ l, sent K py v = v ∧ Lost K py v = false := by
    intro v hv
    rcases hk v hv with rfl | ⟨rfl, h1, h2⟩ | ⟨hpy, h⟩
    · cases py <;> simp [sent, Lost]
    · cases K with
      | i64 => simp [sent, Lost]
      | i32 =>
        refine ⟨?_, by simp [Lost]⟩
        show v.tmod (2 ^ 30) = v
        exact tmod_small h1 h2
    · cases K with
      | i64 => cases py <;> simp [sent, Lost]
      | i32 =>
        have hn : ¬ (v < 0 ∧ v ≠ -(2 ^ 31)) := by omega
        cases py with
        | le311 => exact absurd rfl hpy
        | _ => exact ⟨if_neg hn, by simp only [Lost, hn, decide_false, Bool.and_false]⟩
  have hany : l.any (Lost K py) = false := by
    rw [List.any_eq_false]; intro v hv; rw [(hkept v hv).2]; simp
  have hmap : srt.map (sent K py) = srt := by
    conv => rhs; rw [← List.map_id srt]
    exact List.map_congr_left fun v hv => (hkept v (hp.mem_iff.1 hv)).1
  exact ⟨hmap, hany⟩

/-- C34 for the int array lists, exactly: with a key function and a comparison that never raise,
`sort(key=...)` succeeds and leaves a permutation of the elements if and only if every element is one of
the values it gives back. -/
theorem C34_int_array_kept_exact (K : Kind) (py : PyVer) (c : Caller σ κ PyLong) (kf : PyLong → κ) (lt : κ → κ → Bool)
    (env : σ) (l : List Int) (rev : Bool) (hf : ∀ v ∈ l, FitsS K.bits v) (ho : Ordered c kf lt) (hm : MemOk c)
    (hmax : l.length < 2 ^ 60) :
    (∃ out env', intArray K py c env l rev = .ok (.ok out (), env') ∧ out.Perm l) ↔ ∀ v ∈ l, C34_Kept K py v := by
  rcases intArray_spec K py c env l rev hf hmax with ⟨e, _, h⟩ | ⟨env1, srt, env', err, _, hp, h2, h3, _⟩
  · have := hm env l.length; rw [h] at this; cases this
  · have he := no_error ho hm h3
    subst he
    rw [h2]
    constructor
    · rintro ⟨out, e', h, hperm⟩ v hv
      cases hK : K with
      | i64 => exact Or.inl rfl
      | i32 =>
        subst hK
        have hv32 : FitsS 32 v := hf v hv
        cases hl : l.any (Lost .i32 py) with
        | true => rw [hl] at h; cases h
        | false =>
          rw [hl] at h
          simp only [Bool.false_eq_true, if_false, finish] at h
          injection h with h
          injection h with h _
          injection h with h _
          subst h
          cases py with
          | le311 =>
            have hq : (l.map fun v => v.tmod (2 ^ 30)).Perm l := (hp.map (sent .i32 .le311)).symm.trans hperm
            have := tmod_sum_eq l (sum_natAbs_perm hq) v hv
            rw [Int.natAbs_tmod] at this
            have hlt : v.natAbs % (2 ^ 30 : Int).natAbs < (2 ^ 30 : Int).natAbs := Nat.mod_lt _ (by decide)
            refine Or.inr (Or.inl ⟨rfl, ?_, ?_⟩) <;> omega
          | _ =>
            have := List.any_eq_false.1 hl v hv
            refine Or.inr (Or.inr ⟨by simp, ?_⟩)
            simp [Lost] at this
            omega
    · intro hk
      obtain ⟨hmap, hany⟩ := kept_map hk hp
      rw [hany, hmap]
      exact ⟨srt, env', rfl, hp⟩

example : (∀ v ∈ [5, 0, 2 ^ 31 - 1, -(2 ^ 31)], FitsS Kind.i32.bits v ∧ C34_Kept .i32 .ge313 v) ∧ ¬ C34_Kept .i32 .ge313 (-7) ∧
    ¬ C34_Kept .i32 .le311 (2 ^ 30) := by unfold C34_Kept; decide

private theorem box_kept {K : Kind} {py : PyVer} {v : Int} (hf : FitsS K.bits v) (h : C34_Kept K py v) :
    (box K py v).value = v := by
  cases K with
  | i64 => exact canon_value v
  | i32 =>
    have hv : FitsS 32 v := hf
    rw [fits32] at hv
    cases py with
    | le311 => exact canon_value v
    | _ =>
      have hk : 0 ≤ v ∨ v = -(2 ^ 31) := by
        rcases h with h | h | h
        · cases h
        · cases h.1
        · exact h.2
      simp only [box, fromInt, PyLong.value, digitsVal]
      split <;> omega

/-- C34 for the int array lists, exactly: with a key function that depends on the value of the int it is
given, `sort(key=...)` succeeds and stably sorts the list if and only if every element is one of the values
it gives back. -/
theorem C34_int_array_exact (K : Kind) (py : PyVer) (c : Caller σ κ PyLong) (g : Int → κ) (lt : κ → κ → Bool)
    (env : σ) (l : List Int) (rev : Bool) (hf : ∀ v ∈ l, FitsS K.bits v) (ho : Ordered c (fun p => g p.value) lt) (hm : MemOk c)
    (hmax : l.length < 2 ^ 60) :
    (∃ out env', intArray K py c env l rev = .ok (.ok out (), env') ∧
      StableSort (dir (fun x y => lt (g x) (g y)) rev) l out) ↔ ∀ v ∈ l, C34_Kept K py v := by
  rw [← C34_int_array_kept_exact K py c _ lt env l rev hf ho hm hmax]
  constructor
  · rintro ⟨out, e', h, hs⟩
    exact ⟨out, e', h, hs.1⟩
  · rintro ⟨out, e', h, hperm⟩
    have hk := (C34_int_array_kept_exact K py c _ lt env l rev hf ho hm hmax).1 ⟨out, e', h, hperm⟩
    rcases intArray_spec K py c env l rev hf hmax with ⟨e, _, hh⟩ | ⟨env1, srt, env', err, _, hp, h2, h3, h4, _⟩
    · have := hm env l.length; rw [hh] at this; cases this
    · have he := no_error ho hm h3
      subst he
      obtain ⟨hmap, hany⟩ := kept_map hk hp
      rw [hany, hmap] at h2
      rw [h2] at h
      injection h with h
      injection h with h _
      injection h with h _
      subst h
      refine ⟨srt, env', h2, ?_⟩
      have := h4 _ lt ho rfl
      refine stable_congr ?_ ?_ this
      · have sw := ho.weak
        cases rev with
        | false => exact ⟨fun x => sw.irrefl _, fun x y z => sw.trans _ _ _, fun x y z => sw.negTrans _ _ _⟩
        | true => exact ⟨fun x => sw.irrefl _, fun x y z h1 h2 => sw.trans _ _ _ h2 h1, fun x y z h1 h2 => sw.negTrans _ _ _ h2 h1⟩
      · intro x hx y hy
        cases rev <;> simp only [dir, Bool.false_eq_true, if_false, if_true, box_kept (hf x hx) (hk x hx), box_kept (hf y hy) (hk y hy)]

/-- C34 for IntLinkedList, exactly: the same values, and then the nodes stay and only their values move. -/
theorem C34_int_linked_exact (py : PyVer) (c : Caller σ κ PyLong) (g : Int → κ) (lt : κ → κ → Bool)
    (env : σ) (s : LState Int) (rev : Bool) (hf : ∀ v ∈ s.vals, FitsS 32 v) (ho : Ordered c (fun p => g p.value) lt) (hm : MemOk c)
    (hmax : s.vals.length < 2 ^ 60) :
    (∃ s' env', intLinked py c env s rev = .ok (.ok s' (), env') ∧
      StableSort (dir (fun x y => lt (g x) (g y)) rev) s.vals s'.vals ∧ s'.ids = s.ids ∧ s'.modCount = s.modCount + 1) ↔
      ∀ v ∈ s.vals, C34_Kept .i32 py v := by
  have hE := C34_int_array_exact .i32 py c g lt env s.vals rev hf ho hm hmax
  rw [← hE]
  have hzip : ∀ out : List Int, out.Perm s.vals →
      (LState.vals { s with nodes := s.ids.zip out, modCount := s.modCount + 1 }) = out ∧
      (LState.ids { s with nodes := s.ids.zip out, modCount := s.modCount + 1 }) = s.ids := by
    intro out hp
    have hlen : s.ids.length = out.length := by rw [hp.length_eq]; simp [LState.ids, LState.vals]
    constructor
    · simp only [LState.vals]; rw [List.map_snd_zip]; omega
    · simp only [LState.ids] at hlen ⊢; rw [List.map_fst_zip]; omega
  constructor
  · rintro ⟨s', e', h, hst, _⟩
    rcases intArray_spec .i32 py c env s.vals rev hf hmax with ⟨e, _, hh⟩ | ⟨env1, srt, env', err, _, hp, h2, h3, h4, _⟩
    · have := hm env s.vals.length; rw [hh] at this; cases this
    · have he := no_error ho hm h3
      subst he
      unfold intLinked at h
      rw [h2] at h
      cases hany : s.vals.any (Lost .i32 py) with
      | true =>
        rw [hany] at h
        cases h
      | false =>
        rw [hany] at h h2
        simp only [Bool.false_eq_true, if_false, finish, bind, Except.bind, pure, Except.pure] at h
        injection h with h
        injection h with h _
        injection h with h _
        subst h
        refine ⟨_, env', h2, ?_⟩
        have hl : s.ids.length = (srt.map (sent .i32 py)).length := by
          rw [List.length_map, hp.length_eq]; simp [LState.ids, LState.vals]
        have : (LState.vals { s with nodes := s.ids.zip (srt.map (sent .i32 py)), modCount := s.modCount + 1 }) =
            srt.map (sent .i32 py) := by
          simp only [LState.vals]; rw [List.map_snd_zip]; omega
        rw [this] at hst
        exact hst
  · rintro ⟨out, env', h1, h2⟩
    refine ⟨{ s with nodes := s.ids.zip out, modCount := s.modCount + 1 }, env', ?_, ?_, (hzip out h2.1).2, rfl⟩
    · unfold intLinked
      simp only [h1, bind, Except.bind, pure, Except.pure]
    · rw [(hzip out h2.1).1]; exact h2

example : Ordered byValue (fun p => id p.value) (fun x y => decide (x < y)) ∧ MemOk byValue :=
  ⟨⟨fun _ _ => rfl, fun _ _ _ => rfl, weak_int⟩, fun _ _ => rfl⟩

end Verif.Props
