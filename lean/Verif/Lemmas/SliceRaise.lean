import Verif.Lemmas.ExactSlice

/-!
# Slice assignments of the int array lists that raise
-/

namespace Verif.ArrayList

open Verif

/-- The inserting loop up to the item that raises. -/
theorem insertLoop_raise (cfg : Cfg) (K : Kind) (s : Src) (lo r : Nat) (e : Exc)
    (hget : ∀ cur i, i < r → ∃ v, srcItem cfg K cur s i = some (v, none))
    (hr : ∀ cur, srcItem cfg K cur s r = some (-1, some e)) :
    ∀ (k i : Nat) (cur : List Int), i ≤ r → r < i + k → lo + i ≤ cur.length →
    ∃ s', insertLoop cfg K s lo k i cur = .exc s' e ∧ cur.length < s'.length := by
  intro k
  induction k with
  | zero => intro i cur h1 h2; omega
  | succ k ih =>
    intro i cur h1 h2 h3
    rw [insertLoop]
    by_cases hi : i = r
    · subst hi
      rw [hr]
      dsimp only
      rw [if_pos h3]
      exact ⟨_, rfl, by simp; omega⟩
    · obtain ⟨v, hv⟩ := hget cur i (by omega)
      rw [hv]
      dsimp only
      rw [if_pos h3]
      obtain ⟨s', h4, h5⟩ := ih (i + 1) (cur.take (lo + i) ++ v :: cur.drop (lo + i)) (by omega) (by omega) (by simp; omega)
      refine ⟨s', h4, ?_⟩
      have : (cur.take (lo + i) ++ v :: cur.drop (lo + i)).length = cur.length + 1 := by simp; omega
      omega

/-- Assignment of items of which one is no integer of the machine word: the exception, and when the list is
unchanged. -/
theorem put_raises (cfg : Cfg) (K : Kind) (s : Src) (l : List Int) (xs : List Arg) (lo n : Nat) (hf : AllFits K l)
    (hget : ∀ cur i, srcItem cfg K cur s i = xs[i]?.map (toElem K)) (hlo : lo + n ≤ l.length)
    (hall : ¬ ∀ a ∈ xs, Spec.IsElem 64 a = true) :
    ∃ l' e, put cfg K l s xs.length lo n = .exc l' e ∧ Spec.firstBad 64 xs = some e ∧
      (l' = l ↔ (xs.takeWhile (Spec.IsElem 64)).length < n ∧
        l.getD (lo + (xs.takeWhile (Spec.IsElem 64)).length) 0 = -1 ∧
        ∀ i, i < (xs.takeWhile (Spec.IsElem 64)).length → SameLow K (Spec.argVal (xs.getD i .other)) (l.getD (lo + i) 0)) := by
  obtain ⟨a, ha, hna, hbad⟩ := first_raised hall
  have hpre := fun i => getD_takeWhile (xs := xs) (i := i)
  generalize hr : (xs.takeWhile (Spec.IsElem 64)).length = r at ha hpre
  have hrx : r < xs.length := by
    refine Classical.byContradiction fun hge => ?_
    rw [List.getElem?_eq_none (by omega)] at ha
    cases ha
  let vs := (List.range r).map fun i => wrapS K.bits (Spec.argVal (xs.getD i .other))
  have hvs : vs.length = r := by simp [vs]
  have hv : ∀ cur i, i < r → srcItem cfg K cur s i = vs[i]?.map fun v => (v, none) := by
    intro cur i hi
    obtain ⟨h1, h2⟩ := hpre i hi
    rw [hget, h1]
    simp only [Option.map_some, toElem_word h2, vs, List.getElem?_map, List.getElem?_range hi]
  have hra : ∀ cur, srcItem cfg K cur s r = some (-1, some (raised a)) := by
    intro cur
    rw [hget, ha, Option.map_some, toElem_raised hna]
  by_cases hrn : r < n
  · have key : put cfg K l s xs.length lo n =
        .exc (l.take lo ++ vs ++ -1 :: l.drop (lo + r + 1)) (raised a) := by
      have hloop : ∀ k, r < k → lo + k ≤ l.length → assignLoop cfg K s lo k 0 l =
          .exc (l.take lo ++ vs ++ -1 :: l.drop (lo + r + 1)) (raised a) := by
        intro k h1 h2
        have := assignLoop_raise cfg K s lo r (raised a) vs hvs hv hra k 0 l (by omega) (by omega) (by omega)
        simpa using this
      unfold put
      split
      · exact hloop n hrn hlo
      · split
        · rw [hloop xs.length hrx (by omega)]
        · rw [hloop n hrn hlo]
    refine ⟨_, _, key, hbad, ?_⟩
    have hsplit := split_at l lo r (by omega)
    have hstate : l.take lo ++ vs ++ -1 :: l.drop (lo + r + 1) = l ↔
        l.getD (lo + r) 0 = -1 ∧ ∀ i, i < r → SameLow K (Spec.argVal (xs.getD i .other)) (l.getD (lo + i) 0) := by
      have h1 : l.take lo ++ vs ++ -1 :: l.drop (lo + r + 1) = l ↔
          vs = (l.drop lo).take r ∧ -1 = l.getD (lo + r) 0 := by
        conv => lhs; rhs; rw [hsplit]
        rw [List.append_assoc, List.append_assoc, List.append_cancel_left_eq]
        constructor
        · intro h
          have hl : vs.length = ((l.drop lo).take r).length := by simp [hvs]; omega
          obtain ⟨h1, h2⟩ := List.append_inj h hl
          exact ⟨h1, (List.cons.inj h2).1⟩
        · rintro ⟨h1, h2⟩
          rw [h1, h2]
      rw [h1, and_comm, eq_comm]
      refine and_congr_right fun _ => ?_
      constructor
      · intro h i hi
        have hfit : FitsS K.bits (l.getD (lo + i) 0) := hf _ (getD_mem l (by omega))
        rw [sameLow_iff hfit]
        have := congrArg (fun t => t[i]?) h
        simp only [vs, List.getElem?_map, List.getElem?_range hi, Option.map_some,
          List.getElem?_take_of_lt hi, List.getElem?_drop] at this
        rw [show l.getD (lo + i) 0 = (l[lo + i]?).getD 0 from List.getD_eq_getElem?_getD .., ← this]
        rfl
      · intro h
        refine List.ext_getElem? fun i => ?_
        by_cases hi : i < r
        · have hfit : FitsS K.bits (l.getD (lo + i) 0) := hf _ (getD_mem l (by omega))
          have := (sameLow_iff hfit).1 (h i hi)
          simp only [vs, List.getElem?_map, List.getElem?_range hi, Option.map_some,
            List.getElem?_take_of_lt hi, List.getElem?_drop]
          rw [this, List.getD_eq_getElem?_getD, List.getElem?_eq_getElem (by omega)]
          rfl
        · rw [List.getElem?_eq_none (by omega), List.getElem?_eq_none (by simp; omega)]
    rw [hstate]
    simp only [hrn, true_and]
  · have hass : ∃ l', assignLoop cfg K s lo n 0 l = .ok l' .none ∧ l'.length = l.length := by
      have : ∀ (k i : Nat) (cur : List Int), i + k ≤ r → lo + i + k ≤ cur.length →
          ∃ l', assignLoop cfg K s lo k i cur = .ok l' .none ∧ l'.length = cur.length := by
        intro k
        induction k with
        | zero => intro i cur _ _; exact ⟨cur, rfl, rfl⟩
        | succ k ih =>
          intro i cur h1 h2
          rw [assignLoop, hv cur i (by omega), List.getElem?_eq_getElem (by omega)]
          dsimp only [Option.map_some]
          rw [if_pos (by omega)]
          obtain ⟨l', h3, h4⟩ := ih (i + 1) (cur.set (lo + i) vs[i]) (by omega) (by simp; omega)
          exact ⟨l', h3, by rw [h4]; simp⟩
      exact this n 0 l (by omega) (by omega)
    obtain ⟨l1, h1, h2⟩ := hass
    obtain ⟨l', h3, h4⟩ := insertLoop_raise cfg K s lo r (raised a)
      (fun cur i hi => ⟨_, by rw [hv cur i hi, List.getElem?_eq_getElem (by omega)]; rfl⟩) hra (xs.length - n) n l1 (by omega) (by omega)
      (by omega)
    refine ⟨l', raised a, ?_, hbad, ?_⟩
    · unfold put
      rw [if_neg (by omega), if_neg (by omega), h1]
      exact h3
    · simp only [hrn, false_and, iff_false]
      rintro rfl
      omega

end Verif.ArrayList
