import Verif.Lemmas.HashRun

/-!
# C46: the hash map is a finite map

The full claim is for all sizes. It is proved for histories that never have more than 2^24 - 2 entries at a time: a bucket
keeps the distance from home in 24 bits (UnorderedDense.h 418-424), and if all keys collide the distance grows with the
number of entries.
-/

namespace Verif.Props

open Verif.HashMap Verif.Spec

variable {κ α : Type} [DecidableEq κ]

/-- Whatever the hash function, and whatever is inserted, assigned, looked up, erased, cleared and copied: as long as there are
never more than 2^24 - 2 entries, every answer is that of a finite map, and nothing is undefined. -/
theorem C46_partial (hash : κ → Nat) (dflt : α) (ops : List (MapOp κ α)) (hw : (FMap.empty : FMap κ α).Within (2 ^ 24 - 2) ops) :
    ∃ t, HashMap.run hash dflt empty ops = .ok (t, (FMap.empty.run ops).2) := by
  obtain ⟨t, h, _⟩ := run_ok (hash := hash) dflt ops empty FMap.empty sim_empty hw
  exact ⟨t, h⟩

omit [DecidableEq κ] in
theorem size_step [DecidableEq κ] (m : FMap κ α) (op : MapOp κ α) : (m.step op).1.size ≤ m.size + 1 := by
  cases op <;> simp only [FMap.step, FMap.put, FMap.del, FMap.empty] <;> (try split) <;> (try simp only) <;> (try split) <;> omega

theorem within_short (c : Nat) : ∀ (ops : List (MapOp κ α)) (m : FMap κ α), m.size + ops.length ≤ c → m.Within c ops := by
  intro ops
  induction ops with
  | nil =>
    intro m h pre hp
    rw [List.prefix_nil.1 hp]
    exact h
  | cons op ops ih =>
    intro m h pre hp
    rw [List.length_cons] at h
    cases pre with
    | nil => show m.size ≤ c; omega
    | cons op' pre =>
      obtain ⟨rfl, hp'⟩ := List.cons_prefix_cons.1 hp
      exact ih _ (by have := size_step m op'; omega) pre hp'

/-- In particular every history of at most 2^24 - 2 operations. -/
theorem C46_short_partial (hash : κ → Nat) (dflt : α) (ops : List (MapOp κ α)) (hl : ops.length ≤ 2 ^ 24 - 2) :
    ∃ t, HashMap.run hash dflt empty ops = .ok (t, (FMap.empty.run ops).2) :=
  C46_partial hash dflt ops (within_short _ ops _ (by show 0 + ops.length ≤ _; omega))

/-- A lookup returns the last value assigned, if the key was not erased since. -/
theorem C46_last_stored_partial (hash : κ → Nat) (dflt : α) (before between : List (MapOp κ α)) (k : κ) (v : α)
    (hb : ∀ op ∈ between, op ≠ .erase k ∧ op ≠ .clear ∧ ∀ x, op ≠ .assign k x)
    (hl : before.length + between.length + 2 ≤ 2 ^ 24 - 2) :
    ∃ t as, HashMap.run hash dflt empty (before ++ .assign k v :: (between ++ [.at k])) = .ok (t, as ++ [.ok (.val v)]) := by
  obtain ⟨t, h⟩ := C46_short_partial hash dflt (before ++ .assign k v :: (between ++ [.at k])) (by simp; omega)
  have hrun : ∀ (xs ys : List (MapOp κ α)) (m : FMap κ α), (m.run (xs ++ ys)).2 = (m.run xs).2 ++ ((m.run xs).1.run ys).2 := by
    intro xs
    induction xs with
    | nil => intro ys m; rfl
    | cons x xs ih => intro ys m; simp [FMap.run, ih]
  have hkeep : ∀ (xs : List (MapOp κ α)) (m : FMap κ α), (∀ op ∈ xs, op ≠ .erase k ∧ op ≠ .clear ∧ ∀ x, op ≠ .assign k x) →
      m.get k = some v → (m.run xs).1.get k = some v := by
    intro xs
    induction xs with
    | nil => intro m _ h; exact h
    | cons op xs ih =>
      intro m hx hm
      obtain ⟨h1, h2, h3⟩ := hx op (by simp)
      refine ih _ (fun o ho => hx o (List.mem_cons_of_mem _ ho)) ?_
      cases op with
      | emplace k' x =>
        simp only [FMap.step]
        split
        · exact hm
        · rename_i hn
          simp only [FMap.put]
          rw [if_neg]
          · exact hm
          · rintro rfl
            rw [hm] at hn
            exact hn rfl
      | tryEmplace k' x =>
        simp only [FMap.step]
        split
        · exact hm
        · rename_i hn
          simp only [FMap.put]
          rw [if_neg]
          · exact hm
          · rintro rfl
            rw [hm] at hn
            exact hn rfl
      | assign k' x =>
        simp only [FMap.step, FMap.put]
        rw [if_neg]
        · exact hm
        · rintro rfl
          exact h3 x rfl
      | erase k' =>
        simp only [FMap.step, FMap.del]
        rw [if_neg]
        · exact hm
        · rintro rfl
          exact h1 rfl
      | clear => exact absurd rfl h2
      | «at» k' => exact hm
      | contains k' => exact hm
      | size => exact hm
      | copy => exact hm
  rw [hrun] at h
  simp only [FMap.run] at h
  rw [hrun] at h
  simp only [FMap.run, FMap.step] at h
  rw [hkeep between _ hb (by simp [FMap.put])] at h
  exact ⟨t, (FMap.empty.run before).2 ++ .ok .none :: (((FMap.empty.run before).1.put k v).run between).2, by
    rw [h, List.append_assoc, List.cons_append]⟩

/-- All keys in one bucket chain, growth from 4 to 16 buckets, overwriting, erasing in the middle, and looking again. -/
example : (HashMap.run (fun _ : Int => 0) (0 : Int) empty
      [.assign 1 10, .emplace 2 20, .tryEmplace 3 30, .assign 4 40, .assign 5 50, .emplace 2 99, .assign 3 33, .erase 1, .erase 7,
       .at 2, .at 3, .at 5, .at 1, .size, .copy, .contains 4, .clear, .contains 4]).map (·.2) =
    .ok [.ok .none, .ok (.bool true), .ok (.bool true), .ok .none, .ok .none, .ok (.bool false), .ok .none, .ok (.num 1), .ok (.num 0),
       .ok (.val 20), .ok (.val 33), .ok (.val 50), .error .runtimeError, .ok (.num 4), .ok .none, .ok (.bool true), .ok .none,
       .ok (.bool false)] := by rfl

/-- The hash of `int` keys is one of the hash functions. -/
example : (HashMap.run hashInt (0 : Int) empty [.assign 1 10, .assign (-1) 20, .at 1, .at (-1), .erase 1, .contains 1]).map (·.2) =
    .ok [.ok .none, .ok .none, .ok (.val 10), .ok (.val 20), .ok (.num 1), .ok (.bool false)] := by rfl

example : (FMap.empty : FMap Int Int).Within (2 ^ 24 - 2) [.assign 1 10, .assign 2 20, .erase 1] :=
  within_short _ _ _ (by decide)

end Verif.Props
