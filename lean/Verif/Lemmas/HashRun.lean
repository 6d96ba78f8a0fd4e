import Verif.Lemmas.HashErase
import Verif.Spec.HashMap

/-!
# Histories of the hash map
-/

namespace Verif.HashMap

open Verif.Spec

variable {κ α : Type} {hash : κ → Nat} {b : Nat} {t : Table κ α} {m : FMap κ α}

/-- The values are those of the map. -/
structure Sim (hash : κ → Nat) (t : Table κ α) (m : FMap κ α) : Prop where
  inv : ∃ b, TInv hash b t
  get : ∀ k a, m.get k = some a ↔ (k, a) ∈ t.values
  size : m.size = t.values.length

theorem Sim.has (h : Sim hash t m) {k : κ} {a : α} (hk : m.get k = some a) : ∃ v : Nat, t.values[v]? = some (k, a) :=
  List.getElem?_of_mem ((h.get k a).1 hk)

theorem Sim.hasnt (h : Sim hash t m) {k : κ} (hk : m.get k = none) : ∀ e ∈ t.values, e.1 ≠ k := by
  rintro ⟨k', a⟩ he rfl
  rw [(h.get k' a).2 he] at hk
  cases hk

theorem tinv_nil (hlo : 2 ≤ b) (hhi : b ≤ 25) :
    TInv hash b (⟨[], List.replicate (2 ^ b) ⟨0, 0⟩, capacity (2 ^ b), 64 - b⟩ : Table κ α) :=
  ⟨hlo, hhi, rfl, rfl, List.nodup_nil, inv_nil _ _ _, Nat.zero_le _, show 0 + 1 < 2 ^ 24 by decide⟩

theorem tinv_empty : TInv hash 2 (empty : Table κ α) := tinv_nil (Nat.le_refl _) (by decide)

theorem sim_empty : Sim hash (empty : Table κ α) FMap.empty :=
  ⟨⟨2, tinv_empty⟩, fun k a => ⟨fun h => (by cases h), fun h => (by cases h)⟩, rfl⟩

theorem TInv.modify (h : TInv hash b t) (v : Nat) (x : α) :
    TInv hash b { t with values := t.values.modify v fun e => (e.1, x) } := by
  have hmap : (t.values.modify v fun e => (e.1, x)).map (·.1) = t.values.map (·.1) := by
    apply List.ext_getElem?
    intro i
    rw [List.getElem?_map, List.getElem?_map, List.getElem?_modify]
    cases t.values[i]? with
    | none => rfl
    | some e => simp only [Option.map_some]; split <;> rfl
  have hi := h.inv
  refine ⟨h.lo, h.hi, h.sh, h.cap, by rw [hmap]; exact h.nodup, ⟨hi.len, hi.zero, ?_, ?_, hi.uniq, hi.loc⟩, ?_, ?_⟩
  · intro q hq hz
    obtain ⟨e, d, he, h1, h2, h3⟩ := hi.sound q hq hz
    simp only
    by_cases hv : v = (sl t.buckets q).idx
    · exact ⟨(e.1, x), d, by rw [List.getElem?_modify, he]; simp [hv], h1, h2, h3⟩
    · exact ⟨e, d, by rw [List.getElem?_modify, he]; simp [hv], h1, h2, h3⟩
  · intro u hu
    rw [List.length_modify] at hu
    exact hi.full u hu
  · simp only [List.length_modify]; exact h.le
  · simp only [List.length_modify]; exact h.small

theorem mem_modify {vs : List (κ × α)} (hn : (vs.map (·.1)).Nodup) {v : Nat} {k : κ} {a x : α} (hv : vs[v]? = some (k, a)) (k' : κ) (y : α) :
    (k', y) ∈ vs.modify v (fun e => (e.1, x)) ↔ (k' = k ∧ y = x) ∨ (k' ≠ k ∧ (k', y) ∈ vs) := by
  rw [List.mem_iff_getElem?]
  constructor
  · rintro ⟨i, hi⟩
    rw [List.getElem?_modify] at hi
    by_cases hiv : v = i
    · subst hiv
      rw [hv] at hi
      simp at hi
      exact .inl ⟨hi.1.symm, hi.2.symm⟩
    · simp only [if_neg hiv] at hi
      have hi' : vs[i]? = some (k', y) := by
        cases hvi : vs[i]? with
        | none => rw [hvi] at hi; cases hi
        | some e => rw [hvi] at hi; simpa using hi
      refine .inr ⟨?_, List.mem_of_getElem? hi'⟩
      rintro rfl
      exact hiv (nodup_idx hn hv hi' rfl)
  · rintro (⟨rfl, rfl⟩ | ⟨hne, hm⟩)
    · exact ⟨v, by rw [List.getElem?_modify, hv]; simp⟩
    · obtain ⟨i, hi⟩ := List.getElem?_of_mem hm
      refine ⟨i, ?_⟩
      have : v ≠ i := by
        rintro rfl
        rw [hv] at hi
        cases hi
        exact hne rfl
      rw [List.getElem?_modify, hi]
      simp [this]

variable [DecidableEq κ]

theorem Sim.put_new (h : Sim hash t m) {k : κ} (hk : m.get k = none) {t' : Table κ α} (hi : TInv hash b t') {v : α}
    (hv : t'.values = t.values ++ [(k, v)]) : Sim hash t' (m.put k v) := by
  refine ⟨⟨_, hi⟩, ?_, ?_⟩
  · intro k' a
    unfold FMap.put
    simp only
    rw [hv, List.mem_append, List.mem_singleton]
    by_cases e : k' = k
    · subst e
      rw [if_pos rfl]
      constructor
      · rintro ⟨⟩; exact .inr rfl
      · rintro (h1 | h1)
        · exact absurd rfl (h.hasnt hk _ h1)
        · cases h1; rfl
    · rw [if_neg e, h.get]
      constructor
      · exact .inl
      · rintro (h1 | h1)
        · exact h1
        · cases h1; exact absurd rfl e
  · unfold FMap.put
    rw [hk, hv]
    simp [h.size]

theorem Sim.del (h : Sim hash t m) {k : κ} {a : α} (hk : m.get k = .some a) {t' : Table κ α} (hi : TInv hash b t')
    (hv : t.values.Perm ((k, a) :: t'.values)) : Sim hash t' (m.del k) := by
  have hnd : (((k, a) :: t'.values).map (·.1)).Nodup := by
    obtain ⟨_, ht⟩ := h.inv
    exact (hv.map (·.1)).nodup_iff.1 ht.nodup
  rw [List.map_cons, List.nodup_cons] at hnd
  refine ⟨⟨_, hi⟩, ?_, ?_⟩
  · intro k' x
    unfold FMap.del
    simp only
    by_cases e : k' = k
    · subst e
      rw [if_pos rfl]
      constructor
      · rintro ⟨⟩
      · intro h1
        exact absurd (List.mem_map_of_mem (f := (·.1)) h1) hnd.1
    · rw [if_neg e, h.get, hv.mem_iff, List.mem_cons]
      constructor
      · rintro (h1 | h1)
        · cases h1; exact absurd rfl e
        · exact h1
      · exact .inr
  · have := hv.length_eq
    rw [List.length_cons] at this
    unfold FMap.del
    rw [hk]
    simp [h.size, this]

theorem Sim.del_none (h : Sim hash t m) {k : κ} (hk : m.get k = .none) : Sim hash t (m.del k) := by
  refine ⟨h.inv, ?_, ?_⟩
  · intro k' x
    unfold FMap.del
    simp only
    by_cases e : k' = k
    · subst e
      rw [if_pos rfl, ← h.get, hk]
    · rw [if_neg e, h.get]
  · unfold FMap.del
    rw [hk]
    simp [h.size]

theorem step_ok (dflt : α) (h : Sim hash t m) (op : MapOp κ α) (hs : (m.step op).1.size + 1 < 2 ^ 24) :
    ∃ t', Sim hash t' (m.step op).1 ∧ match (m.step op).2 with
      | .ok a => step hash dflt t op = .ok t' a
      | .error e => step hash dflt t op = .exc t' e := by
  obtain ⟨b, hb⟩ := h.inv
  have hsz := h.size
  cases op with
  | emplace k v =>
    cases hk : m.get k with
    | some a =>
      obtain ⟨i, hi⟩ := h.has hk
      refine ⟨t, ?_⟩
      simp only [FMap.step, hk, Option.isSome_some, if_true, step, emplace_hit hb hi]
      exact ⟨h, trivial⟩
    | none =>
      simp only [FMap.step, hk, FMap.put, Option.isSome_none, Bool.false_eq_true, if_false] at hs
      obtain ⟨b', t', h1, h2, h3⟩ := emplace_miss hb (h.hasnt hk) (by omega) v
      refine ⟨t', ?_⟩
      simp only [FMap.step, hk, Option.isSome_none, Bool.false_eq_true, if_false, step, h1]
      exact ⟨h.put_new hk h2 h3, trivial⟩
  | tryEmplace k v =>
    cases hk : m.get k with
    | some a =>
      obtain ⟨i, hi⟩ := h.has hk
      refine ⟨t, ?_⟩
      simp only [FMap.step, hk, Option.isSome_some, if_true, step, tryEmplace_hit hb hi]
      exact ⟨h, trivial⟩
    | none =>
      simp only [FMap.step, hk, FMap.put, Option.isSome_none, Bool.false_eq_true, if_false] at hs
      obtain ⟨b', t', h1, h2, h3⟩ := tryEmplace_miss hb (h.hasnt hk) (by omega) v
      refine ⟨t', ?_⟩
      simp only [FMap.step, hk, Option.isSome_none, Bool.false_eq_true, if_false, step, h1]
      exact ⟨h.put_new hk h2 h3, trivial⟩
  | assign k v =>
    cases hk : m.get k with
    | some a =>
      obtain ⟨i, hi⟩ := h.has hk
      refine ⟨{ t with values := t.values.modify i fun e => (e.1, v) }, ⟨⟨b, hb.modify i v⟩, ?_, ?_⟩, ?_⟩
      · intro k' x
        simp only [FMap.step, FMap.put]
        rw [mem_modify hb.nodup hi]
        by_cases e : k' = k
        · rw [if_pos e]; simp [e, eq_comm]
        · rw [if_neg e, h.get]; simp [e]
      · simp [FMap.step, FMap.put, hk, h.size]
      · simp only [FMap.step, step, assign, tryEmplace_hit hb hi]
        rw [if_pos (List.getElem?_eq_some_iff.1 hi).1]
    | none =>
      simp only [FMap.step, hk, FMap.put, Option.isSome_none, Bool.false_eq_true, if_false] at hs
      obtain ⟨b', t', h1, h2, h3⟩ := tryEmplace_miss hb (h.hasnt hk) (by omega) dflt
      have hi : t'.values[t.values.length]? = Option.some (k, dflt) := by rw [h3]; simp
      refine ⟨{ t' with values := t'.values.modify t.values.length fun e => (e.1, v) }, ?_, ?_⟩
      · refine h.put_new hk (h2.modify _ _) ?_
        simp only
        rw [h3]
        apply List.ext_getElem?
        intro i
        rw [List.getElem?_modify]
        by_cases hil : i < t.values.length
        · rw [List.getElem?_append_left hil, List.getElem?_append_left hil]
          simp [show t.values.length ≠ i by omega]
        · rw [List.getElem?_append_right (by omega), List.getElem?_append_right (by omega)]
          by_cases hie : i = t.values.length
          · subst hie; simp
          · rw [List.getElem?_eq_none (by simp; omega), List.getElem?_eq_none (by simp; omega)]
            rfl
      · simp only [FMap.step, step, assign, h1]
        rw [if_pos (List.getElem?_eq_some_iff.1 hi).1]
  | «at» k =>
    refine ⟨t, ?_⟩
    cases hk : m.get k with
    | some a =>
      obtain ⟨i, hi⟩ := h.has hk
      simp only [FMap.step, hk, step, lookup, find_hit hb hi, hi]
      exact ⟨h, trivial⟩
    | none =>
      simp only [FMap.step, hk, step, lookup, find_miss hb (h.hasnt hk)]
      exact ⟨h, trivial⟩
  | contains k =>
    refine ⟨t, ?_⟩
    cases hk : m.get k with
    | some a =>
      obtain ⟨i, hi⟩ := h.has hk
      simp only [FMap.step, hk, step, find_hit hb hi, Option.isSome_some]
      exact ⟨h, trivial⟩
    | none =>
      simp only [FMap.step, hk, step, find_miss hb (h.hasnt hk), Option.isSome_none]
      exact ⟨h, trivial⟩
  | erase k =>
    cases hk : m.get k with
    | some a =>
      obtain ⟨i, hi⟩ := h.has hk
      obtain ⟨t', h1, h2, h3⟩ := erase_hit hb hi
      refine ⟨t', ?_⟩
      simp only [FMap.step, hk, step, h1, Option.isSome_some, if_true]
      exact ⟨h.del hk h2 h3, trivial⟩
    | none =>
      refine ⟨t, ?_⟩
      simp only [FMap.step, hk, step, erase_miss hb (h.hasnt hk), Option.isSome_none, Bool.false_eq_true, if_false]
      exact ⟨h.del_none hk, trivial⟩
  | size =>
    refine ⟨t, h, ?_⟩
    simp only [FMap.step, step, h.size]
  | clear =>
    refine ⟨clear t, ⟨⟨b, ?_⟩, ?_, rfl⟩, rfl⟩
    · have := tinv_nil (κ := κ) (α := α) (hash := hash) hb.lo hb.hi
      unfold clear
      rw [hb.inv.len]
      obtain ⟨vs, B, c, s⟩ := t
      have h1 := hb.sh
      have h2 := hb.cap
      simp only at h1 h2
      subst h1 h2
      exact this
    · intro k a
      exact ⟨fun h => (by cases h), fun h => (by cases h)⟩
  | copy =>
    by_cases hv : t.values = []
    · refine ⟨copy t, ⟨⟨2, ?_⟩, ?_, ?_⟩, rfl⟩
      · unfold copy
        rw [hv]
        exact tinv_empty
      · intro k a
        have : (copy t).values = t.values := by unfold copy; rw [hv]; rfl
        rw [this]
        exact h.get k a
      · have : (copy t).values = t.values := by unfold copy; rw [hv]; rfl
        rw [this]
        exact h.size
    · have : copy t = t := by
        unfold copy
        rw [if_neg (by simpa using hv), hb.sh, numBuckets_eq (by have := hb.hi; omega), ← hb.cap, ← hb.sh]
      refine ⟨t, h, ?_⟩
      simp only [FMap.step, step, this]

theorem run_ok (dflt : α) : ∀ (ops : List (MapOp κ α)) (t : Table κ α) (m : FMap κ α), Sim hash t m → m.Within (2 ^ 24 - 2) ops →
    ∃ t', run hash dflt t ops = .ok (t', (m.run ops).2) ∧ Sim hash t' (m.run ops).1 := by
  intro ops
  induction ops with
  | nil => intro t m h _; exact ⟨t, rfl, h⟩
  | cons op ops ih =>
    intro t m h hw
    have hs := hw [op] (by simp)
    simp only [FMap.run] at hs
    obtain ⟨t1, h1, h2⟩ := step_ok dflt h op (by omega)
    have hw' : (m.step op).1.Within (2 ^ 24 - 2) ops := by
      intro pre hp
      have := hw (op :: pre) (List.prefix_cons_inj op |>.2 hp)
      exact this
    obtain ⟨t2, h3, h4⟩ := ih t1 _ h1 hw'
    refine ⟨t2, ?_, h4⟩
    unfold run FMap.run
    cases hr : (m.step op).2 with
    | ok a =>
      rw [hr] at h2
      simp only at h2
      rw [h2]
      simp only
      rw [h3]
      rfl
    | error e =>
      rw [hr] at h2
      simp only at h2
      rw [h2]
      simp only
      rw [h3]
      rfl

end Verif.HashMap
