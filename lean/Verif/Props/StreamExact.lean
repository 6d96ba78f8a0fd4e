import Verif.Lemmas.StreamExact

/-!
# C57: exactly the texts that pass whole
-/

namespace Verif.Props

open Verif Verif.Stream
open Verif.Stream.Spec (Scalar encode utf8)

/-- The strings of the history are strings: code points up to 0x10FFFF. -/
def C57_Strings (ops : List Put) : Prop := ∀ s k, Put.fputs (.str s) k ∈ ops → ∀ c ∈ s, c < 0x110000

/-- How many bytes are lost. -/
private theorem puts_length (ops : List Put) : ∀ io : Std, C57_Strings ops →
    ((puts ops io).1.sent ++ (puts ops io).1.waiting).length ≤ (io.sent ++ io.waiting ++ Spec.written ops).length ∧
    (((puts ops io).1.sent ++ (puts ops io).1.waiting).length = (io.sent ++ io.waiting ++ Spec.written ops).length →
      ∀ s k, Put.fputs (.str s) k ∈ ops → (∀ c ∈ s, Scalar c) → 0 ∉ s) := by
  induction ops with
  | nil =>
    intro io _
    simp [puts, Spec.written]
  | cons op ops ih =>
    intro io hs
    have hs' : C57_Strings ops := fun s k h => hs s k (List.mem_cons_of_mem _ h)
    obtain ⟨h1, h2⟩ := ih (put op io).1 hs'
    rw [puts]
    dsimp only
    cases op with
    | fflush =>
      have e : (put .fflush io).1.sent ++ (put .fflush io).1.waiting = io.sent ++ io.waiting := by
        simp only [put, fflush, send_all]
      rw [e] at h1 h2
      refine ⟨h1, fun h s k hm => ?_⟩
      rcases List.mem_cons.1 hm with hm | hm
      · cases hm
      · exact h2 h s k hm
    | fputs a k =>
      cases a with
      | other =>
        refine ⟨h1, fun h s k hm => ?_⟩
        rcases List.mem_cons.1 hm with hm | hm
        · cases hm
        · exact h2 h s k hm
      | str s =>
        have hlt := hs s k (List.mem_cons_self ..)
        by_cases hsc : ∀ c ∈ s, Scalar c
        · have e : (put (.fputs (.str s) k) io).1.sent ++ (put (.fputs (.str s) k) io).1.waiting =
              io.sent ++ io.waiting ++ cstring (encode s) := by
            simp only [put, fputs, asUTF8_eq hlt, if_pos hsc, send_all, List.append_assoc]
          rw [e] at h1 h2
          obtain ⟨c1, c2⟩ := cstring_encode_le s
          simp only [Spec.written, if_pos hsc, List.length_append] at h1 h2 ⊢
          refine ⟨by omega, fun h s' k' hm => ?_⟩
          rcases List.mem_cons.1 hm with hm | hm
          · cases hm
            exact fun _ => c2.1 (by omega)
          · exact h2 (by omega) s' k' hm
        · have e : (put (.fputs (.str s) k) io).1 = io := by
            simp only [put, fputs, asUTF8_eq hlt, if_neg hsc]
          rw [e] at h1 h2 ⊢
          simp only [Spec.written, if_neg hsc, List.nil_append]
          refine ⟨h1, fun h s' k' hm => ?_⟩
          rcases List.mem_cons.1 hm with hm | hm
          · cases hm
            exact fun h => absurd h hsc
          · exact h2 h s' k' hm

/-- C57 for writing, exactly: after a history of `fputs` and `fflush`, what was sent with what is waiting is what should be
there if and only if no text that was written has a zero character. -/
theorem C57_fputs_exact (ops : List Put) (io : Std) (hs : C57_Strings ops) :
    (puts ops io).1.sent ++ (puts ops io).1.waiting = io.sent ++ io.waiting ++ Spec.written ops ↔
      ∀ s k, Put.fputs (.str s) k ∈ ops → (∀ c ∈ s, Scalar c) → 0 ∉ s := by
  constructor
  · intro h
    exact (puts_length ops io hs).2 (by rw [h])
  · induction ops generalizing io with
    | nil => intro _; simp [puts, Spec.written]
    | cons op ops ih =>
      intro h
      have hs' : C57_Strings ops := fun s k h => hs s k (List.mem_cons_of_mem _ h)
      have ih := ih (put op io).1 hs' fun s k hm => h s k (List.mem_cons_of_mem _ hm)
      rw [puts]
      dsimp only
      rw [ih]
      cases op with
      | fflush => simp only [put, fflush, send_all, Spec.written]
      | fputs a k =>
        cases a with
        | other => rfl
        | str s =>
          have hlt := hs s k (List.mem_cons_self ..)
          by_cases hsc : ∀ c ∈ s, Scalar c
          · have h0 := h s k (List.mem_cons_self ..) hsc
            simp only [put, fputs, asUTF8_eq hlt, if_pos hsc, send_all, Spec.written, cstring_self (encode_ne_zero h0),
              List.append_assoc]
          · simp only [put, fputs, asUTF8_eq hlt, if_neg hsc, Spec.written, List.nil_append]

example : C57_Strings [.fputs (.str [97, 0, 98]) 1, .fflush] := by
  intro s k h
  simp at h
  rw [h.1]
  decide
example : (puts [.fputs (.str [97, 0, 98]) 1, .fflush] ⟨[], [], [], 0⟩).1.sent = [97] := by decide

/-- The buffer `fgets` allocates for an argument: the argument modulo 2^32 with a sign, no buffer (-1) from 2^63 on. -/
def C57_room (v : Int) : Int := if v < 2 ^ 63 then Int.bmod v (2 ^ 32) else -1

private theorem room_eq (v : Int) (h : 0 < v) : bufferSize (.int v) = C57_room v := by
  unfold bufferSize C57_room asLong
  by_cases hv : v < 2 ^ 63
  · have hf : FitsS 64 v := by unfold FitsS; omega
    simp only [if_pos hf, if_pos hv, wrapS]
  · have hf : ¬ FitsS 64 v := by unfold FitsS; omega
    simp only [if_neg hf, if_neg hv]
    rfl

private theorem room_le (v : Int) (h : 0 < v) : C57_room v ≤ v := by
  unfold C57_room
  split
  · unfold Int.bmod
    dsimp only
    split <;> omega
  · omega

private theorem fgets_exact_aux {v r : Int} (hv : 1 ≤ v) (hb : bufferSize (.int v) = r) (hr : r ≤ v) (t : Str) (io : Std)
    (hs : ∀ c ∈ t, Scalar c) (hi : io.input = encode t) :
    ((fgets (.int v) io).2 = .ok (Spec.fgets v.toNat t).1 ∧ (fgets (.int v) io).1.input = encode (Spec.fgets v.toNat t).2) ↔
      (r = 1 ∧ (v = 1 ∨ t = [])) ∨
      (2 ≤ r ∧ t ≠ [] ∧ ((encode (Spec.fgets v.toNat t).1).length : Int) < r ∧ 0 ∉ (Spec.fgets v.toNat t).1) := by
  rw [fgets, hb]
  by_cases h0 : r ≤ 0
  · rw [fgetsInto, if_pos h0]
    constructor
    · rintro ⟨h, _⟩; cases h
    · omega
  · by_cases h1 : r = 1
    · subst h1
      have e : fgetsInto 1 io = ({ io with lost := io.lost + 1 }, .ok []) := rfl
      rw [e, hi]
      by_cases hv1 : v = 1
      · subst hv1
        have : Spec.fgets (Int.toNat 1) t = ([], t) := by unfold Spec.fgets; cases t <;> rfl
        rw [this]
        simp
      · by_cases ht : t = []
        · subst ht
          have : Spec.fgets v.toNat [] = ([], []) := by unfold Spec.fgets; cases v.toNat - 1 <;> rfl
          rw [this]
          simp
        · have hne := (take_props (k := v.toNat - 1) (t := t) (by omega) ht).1
          constructor
          · rintro ⟨h, _⟩
            exact absurd (Except.ok.inj h).symm hne
          · rintro (⟨_, h | h⟩ | ⟨h, _⟩)
            · exact absurd h hv1
            · exact absurd h ht
            · omega
    · obtain ⟨m, rfl⟩ : ∃ m : Nat, r = m := ⟨r.toNat, by omega⟩
      have hm : 2 ≤ m := by omega
      rw [fgetsInto_exact (N := v.toNat) hm (by omega) hs hi]
      constructor
      · rintro ⟨a, b, c⟩; exact .inr ⟨by omega, a, by omega, c⟩
      · rintro (⟨h, _⟩ | ⟨_, a, b, c⟩)
        · omega
        · exact ⟨a, by omega, c⟩

/-- C57 for reading, exactly: `fgets(v)`, `v` positive, returns the next at most `v - 1` characters of the line and leaves the
rest if and only if there is text left, the bytes of these characters fit in a buffer of `C57_room v` with its terminator,
and none of them is a zero character - or the buffer has room for the terminator only, and nothing was to be returned. -/
theorem C57_fgets_exact (v : Int) (hv : 1 ≤ v) (t : Str) (io : Std) (hs : ∀ c ∈ t, Scalar c) (hi : io.input = encode t) :
    ((fgets (.int v) io).2 = .ok (Spec.fgets v.toNat t).1 ∧ (fgets (.int v) io).1.input = encode (Spec.fgets v.toNat t).2) ↔
      (C57_room v = 1 ∧ (v = 1 ∨ t = [])) ∨
      (2 ≤ C57_room v ∧ t ≠ [] ∧ ((encode (Spec.fgets v.toNat t).1).length : Int) < C57_room v ∧
        0 ∉ (Spec.fgets v.toNat t).1) :=
  fgets_exact_aux hv (room_eq v (by omega)) (room_le v (by omega)) t io hs hi

example : C57_room 4 = 4 ∧ (encode (Spec.fgets 4 [97, 0xE9, 98]).1).length = 4 ∧
    (encode (Spec.fgets 4 [97, 98, 99, 0xE9]).1).length = 3 := by decide

end Verif.Props
