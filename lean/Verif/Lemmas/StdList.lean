import Verif.Model.StdList

/-! Helper lemmas: node lists and positional lookup. -/

namespace Verif

theorem walkFwd_ok (n k p : Nat) (h : p + k ≤ n) : walkFwd n k p = .ok (p + k) := by
  induction k generalizing p with
  | zero => rfl
  | succ k ih =>
    rw [walkFwd, if_pos (by omega), ih (p + 1) (by omega)]
    congr 1; omega

theorem walkFwd_err (n k p : Nat) (hp : p ≤ n) (h : n < p + k) : walkFwd n k p = .error .badIterator := by
  induction k generalizing p with
  | zero => omega
  | succ k ih =>
    rw [walkFwd]
    split
    · exact ih (p + 1) (by omega) (by omega)
    · rfl

theorem walkBack_ok (k p : Nat) (h : k ≤ p) : walkBack k p = .ok (p - k) := by
  induction k generalizing p with
  | zero => rfl
  | succ k ih =>
    rw [walkBack, if_pos (by omega), ih (p - 1) (by omega)]
    congr 1; omega

theorem listAt_eq (n i : Nat) : listAt n i = .ok (min i n) := by
  unfold listAt
  split
  · congr 1; omega
  · split
    · rw [walkBack_ok 1 n (by omega)]
      simp only
      rw [walkBack_ok _ _ (by omega)]
      congr 1; omega
    · rw [walkFwd_ok n i 0 (by omega)]
      congr 1; omega

namespace LState

variable {α : Type}

@[simp] theorem length_vals (s : LState α) : s.vals.length = s.size := by simp [vals, size]
@[simp] theorem length_ids (s : LState α) : s.ids.length = s.size := by simp [ids, size]
@[simp] theorem vals_bump (s : LState α) : s.bump.vals = s.vals := rfl
@[simp] theorem ids_bump (s : LState α) : s.bump.ids = s.ids := rfl
@[simp] theorem vals_clear (s : LState α) : s.clear.vals = [] := rfl
@[simp] theorem vals_push (s : LState α) (v : α) : (s.push v).vals = s.vals ++ [v] := by simp [vals, push]
@[simp] theorem vals_pushAll (s : LState α) (vs : List α) : (s.pushAll vs).vals = s.vals ++ vs := by
  induction vs generalizing s with
  | nil => simp [pushAll]
  | cons v vs ih => simp [pushAll, ih]
@[simp] theorem vals_erase (s : LState α) (p : Nat) : (s.erase p).vals = s.vals.eraseIdx p := by
  simp [vals, erase, List.eraseIdx_eq_take_drop_succ]
@[simp] theorem vals_eraseRange (s : LState α) (p q : Nat) :
    (s.eraseRange p q).vals = s.vals.take p ++ s.vals.drop q := by simp [vals, eraseRange]
@[simp] theorem vals_insert (s : LState α) (p : Nat) (v : α) :
    (s.insert p v).vals = s.vals.take p ++ v :: s.vals.drop p := by simp [vals, insert]
@[simp] theorem vals_assign (s : LState α) (p : Nat) (v : α) : (s.assign p v).vals = s.vals.set p v := by
  simp only [vals, assign]
  apply List.ext_getElem?
  intro i
  simp only [List.getElem?_map, List.getElem?_modify, List.getElem?_set, List.length_map]
  by_cases h : p = i
  · subst h
    by_cases hp : p < s.nodes.length
    · simp [hp]
    · simp [hp]
  · simp [h]
@[simp] theorem vals_reverse (s : LState α) : s.reverse.vals = s.vals.reverse := by
  simp only [vals, reverse, ids]
  rw [List.map_snd_zip]
  simp

@[simp] theorem ids_assign (s : LState α) (p : Nat) (v : α) : (s.assign p v).ids = s.ids := by
  simp only [ids, assign]
  apply List.ext_getElem?
  intro i
  simp only [List.getElem?_map, List.getElem?_modify]
  by_cases h : p = i
  · subst h; cases s.nodes[p]? <;> simp
  · simp [h]
@[simp] theorem ids_reverse (s : LState α) : s.reverse.ids = s.ids := by
  show List.map _ (s.ids.zip s.vals.reverse) = _
  rw [List.map_fst_zip]
  simp

theorem vals_length (s : LState α) : s.size = s.vals.length := (length_vals s).symm

end LState
end Verif
