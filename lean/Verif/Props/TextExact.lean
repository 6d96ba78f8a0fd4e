import Verif.Lemmas.Text
import Verif.Props.Text

/-!
# C59: exactly the lists whose `repr` is right
-/

namespace Verif.Props

open Verif.Elems (Shape)
open Verif.Text

private theorem inside_first {isList : Nat → Bool} {v : View} {x z : Nat} (h : Spec.Inside isList v x z) :
    isList x = true ∧ ∃ y ∈ v x, y = z ∨ Spec.Inside isList v y z := by
  cases h with
  | here h1 h2 => exact ⟨h1, _, h2, .inl rfl⟩
  | deeper h1 h2 h3 => exact ⟨h1, _, h2, .inr h3⟩

/-- Without cycles, model and specification agree; nothing of `busy` is met again. -/
private theorem acyclic_agree {kind : Nat → Option Shape} {code : Code} {code' : Spec.Code} {T : Nat → Str}
    (hT : ∀ o w, code o w = (w, .ok (T o))) (hT' : ∀ o v, code' o v = (v, .ok (T o))) {fuel : Nat} {w : World}
    (hf : ∀ o, (w o).length < fuel) (hn : NodesOk w) :
    ∀ (limit : Nat) (busy : List Nat) (o : Nat), ¬ Spec.Cyclic (listOf kind) (view w) o →
      (∀ b ∈ busy, b ≠ o ∧ ¬ Spec.Inside (listOf kind) (view w) o b) →
      ∃ a, Text.repr kind code fuel limit o w = some (.ok (w, a)) ∧
        Spec.repr (listOf kind) code' fuel limit busy o (view w) = some (view w, a)
  | 0, busy, o, _, _ => ⟨_, rfl, rfl⟩
  | limit + 1, busy, o, hc, hb => by
    rw [Text.repr, Spec.repr]
    cases hkind : kind o with
    | none =>
      have : listOf kind o = false := by simp [listOf, hkind]
      rw [if_neg (by simp [this]), hT']
      dsimp only
      rw [hT]
      exact ⟨_, rfl, rfl⟩
    | some s =>
      have hl : listOf kind o = true := by simp [listOf, hkind]
      rw [if_pos hl, if_neg (fun h => (hb o h).1 rfl)]
      dsimp only
      have hlt := hf o
      by_cases he : (w o).length = 0
      · rw [if_pos he]
        obtain ⟨f, rfl⟩ : ∃ f, fuel = f + 1 := ⟨fuel - 1, by omega⟩
        have e0 : w o = [] := List.length_eq_zero_iff.1 he
        have e2 : (view w o)[0]? = none := by simp [view, e0]
        rw [Spec.loop, e2]
        exact ⟨_, rfl, rfl⟩
      · rw [if_neg he]
        have hsim : Sim (fun u => u = w) (fun x => x ∈ view w o) (Text.repr kind code fuel limit)
            (Spec.repr (listOf kind) code' fuel limit (o :: busy)) := by
          rintro x u hx rfl
          obtain ⟨a, h1, h2⟩ := acyclic_agree hT hT' hf hn limit (o :: busy) x
            (by
              rintro ⟨l, h1, h2⟩
              refine hc ⟨l, .inr ?_, h2⟩
              rcases h1 with rfl | h1
              · exact .here hl hx
              · exact .deeper hl hx h1)
            (by
              intro b hbm
              rcases List.mem_cons.1 hbm with rfl | hbm
              · refine ⟨?_, fun h => hc ⟨b, .inl rfl, .deeper hl hx h⟩⟩
                rintro rfl
                exact hc ⟨b, .inl rfl, .here hl hx⟩
              · refine ⟨?_, fun h => (hb b hbm).2 (.deeper hl hx h)⟩
                rintro rfl
                exact (hb b hbm).2 (.here hl hx))
          exact ⟨u, a, h1, h2, rfl⟩
        have hK : ∀ u, u = w → NodesOk u ∧ SameNodes w u := by
          rintro u rfl
          exact ⟨hn, .refl u⟩
        have hp : ∀ u, u = w → ∀ x ∈ view u o, x ∈ view w o := by
          rintro u rfl x hx
          exact hx
        cases s with
        | array =>
          obtain ⟨u, a, h1, h2, rfl⟩ := arrayLoop_sim hK hsim hp fuel 0 "[".toList w rfl (by omega) (by omega)
          exact ⟨a, by simpa using h1, h2⟩
        | linked =>
          obtain ⟨u, a, h1, h2, rfl⟩ := linkedLoop_sim hK hsim hp fuel 0 "[".toList w rfl (by omega) (by omega)
          exact ⟨a, by simpa [List.head?_eq_getElem?] using h1, h2⟩

/-- C59, exactly, for elements with any texts whose `__repr__` changes and raises nothing: `repr(o)` is what it is for
Python's lists if and only if `o` neither is nor contains a list that contains itself, or the nesting is so deep that
Python raises RecursionError as well. -/
theorem C59_exact (kind : Nat → Option Shape) (code : Code) (code' : Spec.Code) (T : Nat → Str)
    (hT : ∀ o w, code o w = (w, .ok (T o))) (hT' : ∀ o v, code' o v = (v, .ok (T o))) (fuel limit o : Nat) (w : World)
    (hf : ∀ o, (w o).length < fuel) (hn : NodesOk w) :
    (∃ a, Text.repr kind code fuel limit o w = some (.ok (w, a)) ∧
        Spec.repr (fun o => (kind o).isSome) code' fuel limit [] o (view w) = some (view w, a)) ↔
      ¬ Spec.Cyclic (fun o => (kind o).isSome) (view w) o ∨
      Spec.repr (fun o => (kind o).isSome) code' fuel limit [] o (view w) = some (view w, .error .recursion) := by
  by_cases hc : Spec.Cyclic (fun o => (kind o).isSome) (view w) o
  · have hrec := C59_cycle_negation kind code T hT fuel limit w (fun o => Nat.le_of_lt (hf o)) hn
      (fun x => Spec.Cyclic (fun o => (kind o).isSome) (view w) x)
      (by
        rintro x ⟨l, h1, h2⟩
        rcases h1 with rfl | h1
        · obtain ⟨hl, y, hy, h⟩ := inside_first h2
          refine ⟨hl, y, hy, l, ?_, h2⟩
          rcases h with rfl | h
          · exact .inl rfl
          · exact .inr h
        · obtain ⟨hl, y, hy, h⟩ := inside_first h1
          refine ⟨hl, y, hy, l, ?_, h2⟩
          rcases h with rfl | h
          · exact .inl rfl
          · exact .inr h) o hc
    rw [hrec]
    constructor
    · rintro ⟨a, h1, h2⟩
      cases h1
      exact .inr h2
    · rintro (h | h)
      · exact absurd hc h
      · exact ⟨_, rfl, h⟩
  · refine ⟨fun _ => .inl hc, fun _ => ?_⟩
    exact acyclic_agree hT hT' hf hn limit [] o hc (by simp)

/-- List 2 of the examples contains itself, list 0 does not. -/
example : Spec.Cyclic (fun o => (textKind o).isSome) (view textWorld) 2 :=
  ⟨2, .inl rfl, .here rfl (by decide)⟩
example : ¬ Spec.Cyclic (fun o => (textKind o).isSome) (view textWorld) 1 := by
  have hno : ∀ y, ¬ Spec.Inside (fun o => (textKind o).isSome) (view textWorld) 11 y := by
    intro y h
    exact absurd (inside_first h).1 (by decide)
  have h1 : ∀ y, Spec.Inside (fun o => (textKind o).isSome) (view textWorld) 1 y → y = 11 := by
    intro y h
    obtain ⟨_, z, hz, h⟩ := inside_first h
    have : z = 11 := by simpa [view, textWorld] using hz
    subst this
    rcases h with h | h
    · exact h.symm
    · exact absurd h (hno y)
  rintro ⟨l, h, h2⟩
  rcases h with rfl | h
  · exact absurd (h1 _ h2) (by decide)
  · rw [h1 _ h] at h2
    exact hno _ h2

end Verif.Props
