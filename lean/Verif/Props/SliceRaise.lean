import Verif.Lemmas.SliceRaise
import Verif.Props.ArrayListHistory

/-!
# C08: exactly the failing slice assignments that leave an int array list unchanged
-/

namespace Verif.Props

open Verif Verif.ArrayList

/-- A slice assignment that, if it raises, leaves the list as it was. With step 1 and a sequence of items, the
first item that is no integer of the machine word must be one for a position that exists and holds -1, and the
items before it must have the low bits of what is there already. -/
def C08_SliceKept (K : Kind) (l : List Int) (s : SliceArg) (v : Arg ⊕ Src) : Prop :=
  match Spec.fields s, v with
  | .ok (i, j, k), .inr (.list xs) | .ok (i, j, k), .inr (.tuple xs) | .ok (i, j, k), .inr (.seq xs) =>
    let lo := ((i.map (Spec.clampUp l.length)).getD 0).toNat
    let hi := ((j.map (Spec.clampUp l.length)).getD l.length).toNat
    let r := (xs.takeWhile (Spec.IsElem 64)).length
    k = 1 → r < hi - lo ∧ l.getD (lo + r) 0 = -1 ∧ ∀ i, i < r → SameLow K (Spec.argVal (xs.getD i .other)) (l.getD (lo + i) 0)
  | _, _ => True

/-- C08 for slice assignment, exactly: of the slice assignments that raise, for whatever reason, these leave the
contents as they were. -/
theorem C08_slice_exact (cfg : Cfg) (K : Kind) (l l' : List Int) (s : SliceArg) (v : Arg ⊕ Src) (e : Exc) (hf : AllFits K l)
    (hn : (l.length : Int) ≤ ssizeMax) (hp : Possible K (.set (.slice s) v))
    (h : step cfg K l (.set (.slice s) v) = .exc l' e) : l' = l ↔ C08_SliceKept K l s v := by
  have h : assSubscript cfg K l (.slice s) (some v) = .exc l' e := h
  cases hs : Spec.fields s with
  | error e1 =>
    have : l' = l := by
      simp only [assSubscript, (sliceUnpack_fields s).1, hs] at h
      cases h; rfl
    simp [C08_SliceKept, hs, this]
  | ok q =>
    obtain ⟨i, j, k⟩ := q
    cases v with
    | inl a =>
      have : l' = l := by
        simp only [assSubscript, (sliceUnpack_fields s).1, hs] at h
        cases h; rfl
      simp [C08_SliceKept, hs, this]
    | inr src =>
      by_cases hseq : src.isSequence = true
      · by_cases hk : k = 1
        · subst hk
          obtain ⟨b1, b2, b3, b4⟩ := slice_bounds cfg K l s src hn hs hseq
          have hitems : ∀ (src : Src) (xs : List Arg), (∀ cur i, srcItem cfg K cur src i = xs[i]?.map (toElem K)) →
              put cfg K l src xs.length ((i.map (Spec.clampUp l.length)).getD 0).toNat
                (((j.map (Spec.clampUp l.length)).getD l.length).toNat - ((i.map (Spec.clampUp l.length)).getD 0).toNat) = .exc l' e →
              (l' = l ↔ (xs.takeWhile (Spec.IsElem 64)).length <
                  ((j.map (Spec.clampUp l.length)).getD l.length).toNat - ((i.map (Spec.clampUp l.length)).getD 0).toNat ∧
                l.getD (((i.map (Spec.clampUp l.length)).getD 0).toNat + (xs.takeWhile (Spec.IsElem 64)).length) 0 = -1 ∧
                ∀ n, n < (xs.takeWhile (Spec.IsElem 64)).length →
                  SameLow K (Spec.argVal (xs.getD n .other)) (l.getD (((i.map (Spec.clampUp l.length)).getD 0).toNat + n) 0)) := by
            intro src xs hget hput
            have hlo : ((i.map (Spec.clampUp l.length)).getD 0).toNat +
                (((j.map (Spec.clampUp l.length)).getD l.length).toNat - ((i.map (Spec.clampUp l.length)).getD 0).toNat) ≤ l.length := by
              omega
            by_cases hall : ∀ a ∈ xs, Spec.IsElem 64 a = true
            · exfalso
              have hv : ∀ cur i, srcItem cfg K cur src i =
                  (xs.map fun a => wrapS K.bits (Spec.argVal a))[i]?.map fun v => (v, none) := by
                intro cur i
                rw [hget, List.getElem?_map]
                cases hx : xs[i]? with
                | none => rfl
                | some a => simp only [Option.map_some, toElem_word (hall a (List.mem_of_getElem? hx))]
              have := put_vals cfg K src l _ hv _ _ hlo
              rw [List.length_map, hput] at this
              cases this
            · obtain ⟨l1, e1, h1, _, h3⟩ := put_raises cfg K src l xs _ _ hf hget hlo hall
              rw [h1] at hput
              cases hput
              exact h3
          cases src with
          | iter | notIterable => cases hseq
          | seqNoLen xs =>
            exfalso
            refine b4 rfl (l', .error e) ?_
            rw [h]
            exact ⟨rfl, rfl⟩
          | list xs | tuple xs | seq xs =>
            rw [b3 xs.length rfl] at h
            have := hitems _ xs (fun _ _ => rfl) h
            simp only [C08_SliceKept, hs, forall_const]
            exact this
          | same w =>
            exfalso
            have hw : AllFits K w := hp
            have hget : ∀ cur i, srcItem cfg K cur (.same w) i =
                (w.map fun v => (rebox K cfg.py v).1)[i]?.map fun v => (v, none) := by
              intro cur i
              rw [srcItem, List.getElem?_map]
              cases hx : w[i]? with
              | none => rfl
              | some x =>
                have := (rebox_split cfg K (hw x (List.mem_of_getElem? hx))).1
                simp only [Option.map_some]
                rw [← this]
            have hput := put_vals cfg K (.same w) l _ hget ((i.map (Spec.clampUp l.length)).getD 0).toNat
              (((j.map (Spec.clampUp l.length)).getD l.length).toNat - ((i.map (Spec.clampUp l.length)).getD 0).toNat) (by omega)
            rw [List.length_map] at hput
            rw [b3 w.length rfl, hput] at h
            cases h
          | self =>
            exfalso
            rw [b3 l.length rfl, put_self cfg K l _ _ hf (by omega)] at h
            cases h
        · rw [slice_step cfg K l s src hs hk hseq] at h
          cases h
          simp only [true_iff]
          cases src <;> simp [C08_SliceKept, hs, hk]
      · have : l' = l := by
          simp only [assSubscript, (sliceUnpack_fields s).1, hs] at h
          simp only [Bool.eq_false_iff.2 hseq] at h
          cases h; rfl
        cases src with
        | same | self | list | tuple | seq | seqNoLen => exact absurd rfl hseq
        | iter | notIterable => simp [C08_SliceKept, hs, this]

/-- Kept: `l[0:2] = [7 + 2**32, "x"]` on [7, -1]. Not kept: `l[0:1] = ["x"]` on [7]. -/
example : C08_SliceKept .i32 [7, -1] ⟨some (.int 0), some (.int 2), none⟩ (.inr (.list [.int (7 + 2 ^ 32), .other])) ∧
    step ⟨.ge313, false, true, true, true⟩ .i32 [7, -1] (.set (.slice ⟨some (.int 0), some (.int 2), none⟩)
      (.inr (.list [.int (7 + 2 ^ 32), .other]))) = .exc [7, -1] .typeError := by
  constructor
  · intro _
    decide +kernel
  · decide +kernel
example : step ⟨.ge313, false, true, true, true⟩ .i32 [7] (.set (.slice ⟨some (.int 0), some (.int 1), none⟩)
    (.inr (.list [.other]))) = .exc [-1] .typeError := by decide +kernel

end Verif.Props
