import Verif.Model.Unsafe
import Verif.Spec.Blocks

/-!
# The flat memory represents the block store
-/

namespace Verif.Unsafe

open Spec

/-- The memory represents the store. -/
structure Rep (m : Mem) (st : Store) : Prop where
  blocks : m.blocks = st.map fun b => (b.1, b.2.length)
  bytes : ∀ b ∈ st, ∀ i, i < b.2.length → b.2[i]? = some (m.byte (b.1 + i))
  apart : st.Pairwise fun b c => b.1 ≠ c.1 ∧ (b.1 + b.2.length ≤ c.1 ∨ c.1 + c.2.length ≤ b.1)
  room : ∀ b ∈ st, 0 < b.1 ∧ b.1 + b.2.length ≤ 2 ^ 64

theorem word_argK {a : Arg} {n : Nat} (h : asWord a = some n) : argK a = .ok n := by
  cases a with
  | int v =>
    simp only [asWord] at h
    split at h
    · rename_i hv
      cases h
      simp only [argK]
      rw [Int.emod_eq_of_lt hv.1 hv.2]
    · cases h
  | index v => cases h
  | other => cases h

theorem word_asSizeT {a : Arg} {n : Nat} (h : asWord a = some n) : asSizeT a = .ok n := by
  cases a with
  | int v =>
    simp only [asWord] at h
    split at h
    · rename_i hv
      cases h
      simp only [asSizeT]
      rw [if_pos hv]
    · cases h
  | index v => cases h
  | other => cases h

theorem word_asVoidPtr {a : Arg} {n : Nat} (h : asWord a = some n) : asVoidPtr a = .ok n := by
  cases a with
  | int v =>
    simp only [asWord] at h
    split at h
    · rename_i hv
      cases h
      simp only [asVoidPtr]
      rw [if_pos (by omega), Int.emod_eq_of_lt hv.1 hv.2]
    · cases h
  | index v => cases h
  | other => cases h

theorem home_mem {st : Store} {a n : Nat} {b : Nat × List Byte} (h : home st a n = some b) :
    b ∈ st ∧ b.1 ≤ a ∧ a + n ≤ b.1 + b.2.length := by
  have h1 := List.mem_of_find?_eq_some h
  have h2 := List.find?_some h
  exact ⟨h1, by simpa using h2⟩

theorem covers_home {m : Mem} {st : Store} (hr : Rep m st) {a n : Nat} {b : Nat × List Byte}
    (h : home st a n = some b) : m.covers a n = true := by
  obtain ⟨h1, h2⟩ := home_mem h
  unfold Mem.covers
  rw [hr.blocks]
  simp only [Bool.or_eq_true, List.any_map, List.any_eq_true]
  exact .inr ⟨b, h1, by simpa using h2⟩

theorem read_length (m : Mem) (a n : Nat) : (m.read a n).length = n := by simp [Mem.read]

theorem read_getElem? (m : Mem) (a n i : Nat) : (m.read a n)[i]? = if i < n then some (m.byte (a + i)) else none := by
  unfold Mem.read
  by_cases h : i < n
  · simp [h]
  · simp [h]

theorem read_home {m : Mem} {st : Store} (hr : Rep m st) {a n : Nat} {b : Nat × List Byte}
    (h : home st a n = some b) : m.read a n = (b.2.drop (a - b.1)).take n := by
  obtain ⟨h1, h2, h3⟩ := home_mem h
  apply List.ext_getElem?
  intro i
  rw [read_getElem?, List.getElem?_take, List.getElem?_drop]
  split
  · rw [hr.bytes b h1 (a - b.1 + i) (by omega)]
    congr 2; omega
  · rfl

theorem write_byte (m : Mem) (a : Nat) (xs : List Byte) (x : Nat) :
    (m.write a xs).byte x = if a ≤ x then (xs[x - a]?).getD (m.byte x) else m.byte x := rfl

theorem write_byte_out {m : Mem} {a : Nat} {xs : List Byte} {x : Nat} (h : x < a ∨ a + xs.length ≤ x) :
    (m.write a xs).byte x = m.byte x := by
  rw [write_byte]
  split
  · rw [List.getElem?_eq_none (by omega)]; rfl
  · rfl

theorem write_byte_in {m : Mem} {a : Nat} {xs : List Byte} {i : Nat} (h : i < xs.length) :
    (m.write a xs).byte (a + i) = xs[i] := by
  rw [write_byte, if_pos (by omega)]
  have : a + i - a = i := by omega
  rw [this, List.getElem?_eq_getElem h]
  rfl

theorem patch_length {bs xs : List Byte} {k : Nat} (h : k + xs.length ≤ bs.length) :
    (patch bs k xs).length = bs.length := by
  simp [patch]; omega

theorem patch_getElem? {bs xs : List Byte} {k : Nat} (h : k + xs.length ≤ bs.length) (i : Nat) :
    (patch bs k xs)[i]? = if k ≤ i ∧ i < k + xs.length then xs[i - k]? else bs[i]? := by
  unfold patch
  have hk : (bs.take k).length = k := by simp; omega
  by_cases h1 : i < k
  · rw [List.append_assoc, List.getElem?_append_left (by omega), List.getElem?_take, if_pos h1, if_neg (by omega)]
  · by_cases h2 : i < k + xs.length
    · rw [List.getElem?_append_left (by simp; omega), List.getElem?_append_right (by omega), hk, if_pos ⟨by omega, h2⟩]
    · rw [List.getElem?_append_right (by simp; omega), if_neg (by omega), List.getElem?_drop]
      congr 1
      simp; omega

theorem pairwise_any {st : Store}
    (h : st.Pairwise fun b c => b.1 ≠ c.1 ∧ (b.1 + b.2.length ≤ c.1 ∨ c.1 + c.2.length ≤ b.1))
    {b c : Nat × List Byte} (hb : b ∈ st) (hc : c ∈ st) :
    b = c ∨ (b.1 ≠ c.1 ∧ (b.1 + b.2.length ≤ c.1 ∨ c.1 + c.2.length ≤ b.1)) := by
  induction h with
  | nil => cases hb
  | cons hx _ ih =>
    rcases List.mem_cons.1 hb with eb | hb'
    · rcases List.mem_cons.1 hc with ec | hc'
      · exact .inl (eb.trans ec.symm)
      · exact .inr (by have := hx c hc'; rw [← eb] at this; exact this)
    · rcases List.mem_cons.1 hc with ec | hc'
      · have := hx b hb'
        rw [← ec] at this
        exact .inr ⟨Ne.symm this.1, Or.symm this.2⟩
      · exact ih hb' hc'

/-- Two blocks of a represented store that overlap or have the same address are the same. -/
theorem unique {m : Mem} {st : Store} (hr : Rep m st) {b c : Nat × List Byte} (hb : b ∈ st) (hc : c ∈ st)
    (h : b.1 = c.1 ∨ (c.1 < b.1 + b.2.length ∧ b.1 < c.1 + c.2.length)) : b = c := by
  have : b = c ∨ (b.1 ≠ c.1 ∧ (b.1 + b.2.length ≤ c.1 ∨ c.1 + c.2.length ≤ b.1)) := pairwise_any hr.apart hb hc
  rcases this with h' | ⟨h1, h2⟩
  · exact h'
  · rcases h with h | h
    · exact absurd h h1
    · omega

/-- Writing inside a block. -/
theorem poke_rep {m : Mem} {st st' : Store} (hr : Rep m st) {a : Nat} {xs : List Byte} (h : poke st a xs = some st') :
    m.covers a xs.length = true ∧ Rep (m.write a xs) st' := by
  unfold poke at h
  by_cases h0 : xs.length = 0
  · rw [if_pos h0] at h
    cases h
    have : xs = [] := List.length_eq_zero_iff.1 h0
    subst this
    refine ⟨by simp [Mem.covers], ?_⟩
    have : m.write a [] = m := by
      cases m
      simp only [Mem.write, Mem.mk.injEq, true_and]
      funext x
      split <;> simp
    rw [this]
    exact hr
  · rw [if_neg h0] at h
    cases hb : home st a xs.length with
    | none => rw [hb] at h; cases h
    | some b =>
      rw [hb] at h
      simp only [Option.map_some, Option.some.injEq] at h
      obtain ⟨h1, h2, h3⟩ := home_mem hb
      refine ⟨covers_home hr hb, ?_⟩
      have key : ∀ c ∈ st, c.1 = b.1 → c = b := fun c hc e => unique hr hc h1 (.inl e)
      have hlen : ∀ c ∈ st, (if c.1 = b.1 then ((c.1, patch c.2 (a - b.1) xs) : Nat × List Byte) else c).2.length =
          c.2.length ∧ (if c.1 = b.1 then ((c.1, patch c.2 (a - b.1) xs) : Nat × List Byte) else c).1 = c.1 := by
        intro c hc
        split
        · rename_i e
          have := key c hc e
          subst this
          exact ⟨patch_length (by omega), rfl⟩
        · exact ⟨rfl, rfl⟩
      subst h
      refine ⟨?_, ?_, ?_, ?_⟩
      · show m.blocks = _
        rw [hr.blocks, List.map_map]
        apply List.map_congr_left
        intro c hc
        simp only [Function.comp_apply]
        rw [(hlen c hc).1, (hlen c hc).2]
      · intro c' hc' i hi
        obtain ⟨c, hc, rfl⟩ := List.mem_map.1 hc'
        rw [(hlen c hc).1] at hi
        rw [(hlen c hc).2]
        by_cases e : c.1 = b.1
        · have := key c hc e
          subst this
          rw [if_pos rfl]
          simp only
          rw [patch_getElem? (by omega)]
          split
          · rename_i hin
            have e2 : c.1 + i = a + (i - (a - c.1)) := by omega
            rw [e2, write_byte_in (by omega)]
            rw [List.getElem?_eq_getElem (by omega)]
          · rename_i hin
            rw [write_byte_out (by omega)]
            exact hr.bytes c hc i hi
        · rw [if_neg e, hr.bytes c hc i hi, write_byte_out]
          by_cases hx : c.1 + i < a ∨ a + xs.length ≤ c.1 + i
          · exact hx
          · have := unique hr hc h1 (.inr (by omega))
            rw [this] at e
            exact absurd rfl e
      · rw [List.pairwise_map]
        refine List.Pairwise.imp_of_mem ?_ hr.apart
        intro x y hx hy hxy
        rw [(hlen x hx).1, (hlen x hx).2, (hlen y hy).1, (hlen y hy).2]
        exact hxy
      · intro c' hc'
        obtain ⟨c, hc, rfl⟩ := List.mem_map.1 hc'
        rw [(hlen c hc).1, (hlen c hc).2]
        exact hr.room c hc

theorem peek_read {m : Mem} {st : Store} (hr : Rep m st) {a n : Nat} {bs : List Byte} (h : peek st a n = some bs) :
    m.covers a n = true ∧ m.read a n = bs ∧ (n ≠ 0 → 0 < a) := by
  unfold peek at h
  by_cases h0 : n = 0
  · subst h0
    rw [if_pos rfl] at h
    cases h
    exact ⟨by simp [Mem.covers], by simp [Mem.read], fun h => absurd rfl h⟩
  · rw [if_neg h0] at h
    cases hb : home st a n with
    | none => rw [hb] at h; cases h
    | some b =>
      rw [hb] at h
      simp only [Option.map_some, Option.some.injEq] at h
      subst h
      obtain ⟨h1, h2, -⟩ := home_mem hb
      have := (hr.room b h1).1
      exact ⟨covers_home hr hb, read_home hr hb, fun _ => by omega⟩

/-- A new block. -/
theorem new_rep {m : Mem} {st : Store} (hr : Rep m st) {p n : Nat} {junk : Nat → Byte} {bs : List Byte}
    (hf : Fresh st n (some (p, junk))) (hl : bs.length = n) : Rep ((m.add p n).write p bs) ((p, bs) :: st) := by
  obtain ⟨f1, f2, f3⟩ := hf p junk rfl
  refine ⟨?_, ?_, ?_, ?_⟩
  · show (p, n) :: m.blocks = _
    rw [hr.blocks, List.map_cons, hl]
  · intro b hb i hi
    rcases List.mem_cons.1 hb with rfl | hb
    · show bs[i]? = some (((m.add p n).write p bs).byte (p + i))
      have hi : i < bs.length := hi
      rw [write_byte_in hi, List.getElem?_eq_getElem hi]
    · rw [hr.bytes b hb i hi, write_byte_out]
      · rfl
      · have := f3 b hb
        omega
  · refine List.Pairwise.cons (fun b hb => ?_) hr.apart
    have := f3 b hb
    refine ⟨this.1, ?_⟩
    show p + bs.length ≤ b.1 ∨ b.1 + b.2.length ≤ p
    omega
  · intro b hb
    rcases List.mem_cons.1 hb with rfl | hb
    · exact ⟨f1, by show p + bs.length ≤ _; omega⟩
    · exact hr.room b hb

theorem drop_rep {m : Mem} {st : Store} (hr : Rep m st) (p : Nat) : Rep (m.drop p) (without st p) := by
  refine ⟨?_, ?_, ?_, ?_⟩
  · show m.blocks.filter _ = _
    rw [hr.blocks, List.filter_map]
    rfl
  · intro b hb
    exact hr.bytes b (List.mem_filter.1 hb).1
  · exact hr.apart.sublist List.filter_sublist
  · intro b hb
    exact hr.room b (List.mem_filter.1 hb).1

theorem sizeAt_eq {m : Mem} {st : Store} (hr : Rep m st) (p : Nat) : m.sizeAt p = (blockAt st p).map List.length := by
  unfold Mem.sizeAt blockAt
  rw [hr.blocks, List.find?_map]
  simp only [Option.map_map]
  rfl

theorem blockAt_mem {st : Store} {p : Nat} {bs : List Byte} (h : blockAt st p = some bs) : (p, bs) ∈ st := by
  unfold blockAt at h
  cases hb : st.find? fun b => b.1 == p with
  | none => rw [hb] at h; cases h
  | some b =>
    rw [hb] at h
    cases h
    have h1 := List.mem_of_find?_eq_some hb
    have h2 := List.find?_some hb
    have h2 : b.1 = p := by simpa using h2
    rw [← h2]
    exact h1

theorem read_block {m : Mem} {st : Store} (hr : Rep m st) {p : Nat} {bs : List Byte} (h : blockAt st p = some bs)
    (k : Nat) (hk : k ≤ bs.length) : m.read p k = bs.take k := by
  apply List.ext_getElem?
  intro i
  rw [read_getElem?, List.getElem?_take]
  split
  · exact (hr.bytes _ (blockAt_mem h) i (by show i < bs.length; omega)).symm
  · rfl

theorem junkAt_eq (p n : Nat) (junk : Nat → Byte) : junkAt p n junk = found p n junk := rfl

theorem found_length (p n : Nat) (junk : Nat → Byte) : (found p n junk).length = n := by simp [found]

/-- The outcome is the specified one and the memory represents the new store. -/
def Does (o : UOut) (r : URes) : Prop :=
  match r.2 with
  | .ok v => ∃ m, o = .ok m v ∧ Rep m r.1
  | .error e => ∃ m, o = .exc m e ∧ Rep m r.1

theorem new_does {m : Mem} {st : Store} (hr : Rep m st) {n : Nat} {ans : Alloc} (hf : Fresh st n ans)
    (c : Nat → (Nat → Byte) → List Byte) (hc : ∀ p junk, (c p junk).length = n) :
    Does (match ans with
      | none => .exc m .memoryError
      | some (p, junk) => .ok ((m.add p n).write p (c p junk)) (.addr p)) (newBlock st ans c) := by
  cases ans with
  | none => exact ⟨m, rfl, hr⟩
  | some a => exact ⟨_, rfl, new_rep hr hf (hc a.1 a.2)⟩

theorem realloc_list {old junk : List Byte} {n : Nat} : (junk.drop (min old.length n)).length = junk.length - min old.length n := by
  simp

/-- One call inside the contract. -/
theorem step_does (zf : Bool) {m : Mem} {st : Store} (hr : Rep m st) {op : UOp} {ans : Alloc} {r : URes}
    (ha : AllocOk st op ans) (h : ustep st op ans = some r) : Does (step zf m op ans) r := by
  cases op with
  | malloc a =>
    show Does (malloc m a ans) r
    cases a with
    | int v =>
      simp only [ustep] at h
      cases hw : asWord (.int v) with
      | none =>
        rw [hw] at h
        cases h
        have : asSizeT (.int v) = .error .overflowError := by
          simp only [asWord] at hw
          split at hw
          · cases hw
          · rename_i hv
            simp only [asSizeT]
            rw [if_neg hv]
        simp only [malloc, this]
        exact ⟨m, rfl, hr⟩
      | some n =>
        rw [hw] at h
        cases h
        simp only [malloc, word_asSizeT hw]
        cases ans <;> exact new_does hr (ha n hw) (fun p junk => found p n junk) (fun _ _ => found_length _ _ _)
    | index v => cases h; exact ⟨m, rfl, hr⟩
    | other => cases h; exact ⟨m, rfl, hr⟩
  | alignedMalloc a al =>
    show Does (alignedMalloc m a al ans) r
    simp only [ustep] at h
    cases hw : asWord a with
    | none => rw [hw] at h; cases h
    | some n =>
      cases hw2 : asWord al with
      | none => rw [hw, hw2] at h; cases h
      | some n2 =>
        rw [hw, hw2] at h
        cases h
        simp only [alignedMalloc, word_argK hw, word_argK hw2]
        cases ans <;> exact new_does hr (ha n hw) (fun p junk => found p n junk) (fun _ _ => found_length _ _ _)
  | calloc a b =>
    show Does (calloc m a b ans) r
    simp only [ustep] at h
    cases hw : asWord a with
    | none => rw [hw] at h; cases h
    | some x =>
      cases hw2 : asWord b with
      | none => rw [hw, hw2] at h; cases h
      | some y =>
        rw [hw, hw2] at h
        cases h
        simp only [calloc, word_argK hw, word_argK hw2]
        cases ans <;> exact new_does hr (ha x y hw hw2) (fun _ _ => List.replicate (x * y) 0) (fun _ _ => by simp)
  | realloc a b =>
    show Does (realloc zf m a b ans) r
    simp only [ustep] at h
    cases hw : asWord a with
    | none => rw [hw] at h; simp at h
    | some p =>
      cases hw2 : asWord b with
      | none => rw [hw, hw2] at h; simp at h
      | some n =>
        rw [hw, hw2] at h
        have hf := ha p n hw hw2
        simp only [realloc, word_argK hw, word_argK hw2]
        by_cases hp : p = 0
        · subst hp
          rw [if_pos rfl]
          simp only at h
          cases h
          have : without st 0 = st := by
            unfold without
            rw [List.filter_eq_self]
            intro b hb
            have := (hr.room b hb).1
            simp only [bne_iff_ne, ne_eq]
            omega
          rw [this] at hf
          cases ans <;> exact new_does hr hf (fun p junk => found p n junk) (fun _ _ => found_length _ _ _)
        · rw [if_neg hp]
          obtain ⟨q, rfl⟩ : ∃ q, p = q + 1 := ⟨p - 1, by omega⟩
          simp only at h
          rw [sizeAt_eq hr]
          cases ho : blockAt st (q + 1) with
          | none => rw [ho] at h; cases h
          | some old =>
            rw [ho] at h
            simp only [Option.map_some] at h ⊢
            by_cases hn : n = 0
            · rw [if_pos hn] at h; cases h
            · rw [if_neg hn] at h
              rw [if_neg (by intro hx; exact hn hx.1)]
              cases ans with
              | none => cases h; exact ⟨m, rfl, hr⟩
              | some an =>
                obtain ⟨q2, junk⟩ := an
                cases h
                refine ⟨_, rfl, ?_⟩
                have hd := drop_rep hr (q + 1)
                rw [read_block hr ho _ (Nat.min_le_left _ _), junkAt_eq]
                have e : old.take (min old.length n) ++ (found q2 n junk).drop (min old.length n) =
                    old.take n ++ (found q2 n junk).drop old.length := by
                  by_cases hle : n ≤ old.length
                  · rw [Nat.min_eq_right hle, List.drop_eq_nil_of_le (by rw [found_length]; omega),
                      List.drop_eq_nil_of_le (by rw [found_length]; omega)]
                  · rw [Nat.min_eq_left (by omega), List.take_of_length_le (by omega), List.take_of_length_le (by omega)]
                rw [e]
                apply new_rep hd hf
                rw [List.length_append, List.length_take, List.length_drop, found_length]
                omega
  | free a =>
    show Does (free m a) r
    simp only [ustep] at h
    cases hw : asWord a with
    | none => rw [hw] at h; simp at h
    | some p =>
      rw [hw] at h
      simp only [free, word_asSizeT hw]
      by_cases hp : p = 0
      · subst hp
        simp only at h
        cases h
        exact ⟨m, rfl, hr⟩
      · rw [if_neg hp]
        obtain ⟨q, rfl⟩ : ∃ q, p = q + 1 := ⟨p - 1, by omega⟩
        simp only at h
        rw [sizeAt_eq hr]
        cases ho : blockAt st (q + 1) with
        | none => rw [ho] at h; cases h
        | some old =>
          rw [ho] at h
          cases h
          exact ⟨_, rfl, drop_rep hr _⟩
  | alignedFree a =>
    show Does (free m a) r
    simp only [ustep] at h
    cases hw : asWord a with
    | none => rw [hw] at h; simp at h
    | some p =>
      rw [hw] at h
      simp only [free, word_asSizeT hw]
      by_cases hp : p = 0
      · subst hp
        simp only at h
        cases h
        exact ⟨m, rfl, hr⟩
      · rw [if_neg hp]
        obtain ⟨q, rfl⟩ : ∃ q, p = q + 1 := ⟨p - 1, by omega⟩
        simp only at h
        rw [sizeAt_eq hr]
        cases ho : blockAt st (q + 1) with
        | none => rw [ho] at h; cases h
        | some old =>
          rw [ho] at h
          cases h
          exact ⟨_, rfl, drop_rep hr _⟩
  | get a b =>
    show Does (get m a b ans) r
    simp only [ustep] at h
    cases hw : asWord a with
    | none => rw [hw] at h; cases h
    | some p =>
      cases hw2 : asWord b with
      | none => rw [hw, hw2] at h; cases h
      | some n =>
        rw [hw, hw2] at h
        simp only at h
        by_cases hbig : 2 ^ 63 - 34 < n
        · rw [if_pos hbig] at h; cases h
        · rw [if_neg hbig] at h
          cases hp : peek st p n with
          | none => rw [hp] at h; cases h
          | some bs =>
            rw [hp] at h
            cases h
            obtain ⟨c1, c2, c3⟩ := peek_read hr hp
            simp only [get, word_argK hw, word_argK hw2]
            rw [if_neg (by omega)]
            by_cases h0 : n = 0
            · subst h0
              rw [if_pos rfl]
              have : bs = [] := by rw [← c2]; rfl
              subst this
              exact ⟨m, rfl, hr⟩
            · rw [if_neg h0, if_neg hbig, if_neg (by have := c3 h0; omega), if_pos c1, c2]
              exact ⟨m, rfl, hr⟩
  | set a data =>
    show Does (set m a data) r
    simp only [ustep] at h
    cases hw : asWord a with
    | none => rw [hw] at h; cases h
    | some p =>
      rw [hw] at h
      cases data with
      | none =>
        cases h
        simp only [set, word_argK hw]
        exact ⟨m, rfl, hr⟩
      | some xs =>
        simp only at h
        cases hp : poke st p xs with
        | none => rw [hp] at h; cases h
        | some st' =>
          rw [hp] at h
          cases h
          obtain ⟨c1, c2⟩ := poke_rep hr hp
          simp only [set, word_argK hw]
          rw [if_pos c1]
          exact ⟨_, rfl, c2⟩
  | memcpy a b c =>
    show Does (memcpy m a b c) r
    simp only [ustep] at h
    cases hw : asWord a with
    | none => rw [hw] at h; cases h
    | some s =>
      cases hw2 : asWord b with
      | none => rw [hw, hw2] at h; cases h
      | some d =>
        cases hw3 : asWord c with
        | none => rw [hw, hw2, hw3] at h; cases h
        | some n =>
          rw [hw, hw2, hw3] at h
          simp only at h
          by_cases hd : n = 0 ∨ s + n ≤ d ∨ d + n ≤ s
          · rw [if_pos hd] at h
            cases hp : peek st s n with
            | none => rw [hp] at h; cases h
            | some bs =>
              rw [hp] at h
              simp only at h
              obtain ⟨c1, c2, c3⟩ := peek_read hr hp
              have hl : bs.length = n := by rw [← c2, read_length]
              cases hq : poke st d bs with
              | none => rw [hq] at h; cases h
              | some st' =>
                rw [hq] at h
                cases h
                obtain ⟨d1, d2⟩ := poke_rep hr hq
                rw [hl] at d1
                simp only [memcpy, word_asVoidPtr hw, word_asVoidPtr hw2, word_asSizeT hw3]
                by_cases h0 : n = 0
                · rw [if_pos h0]
                  refine ⟨m, rfl, ?_⟩
                  have : poke st d bs = some st := by
                    unfold poke
                    rw [if_pos (by omega)]
                  rw [this] at hq
                  cases hq
                  exact hr
                · rw [if_neg h0, c1, d1, Bool.and_self, if_pos rfl, if_pos (by omega), c2]
                  exact ⟨_, rfl, d2⟩
          · rw [if_neg hd] at h; cases h
  | memset a v c =>
    show Does (memset m a v c) r
    simp only [ustep] at h
    cases hw : asWord a with
    | none => rw [hw] at h; cases h
    | some p =>
      cases v with
      | index v => rw [hw] at h; simp at h
      | other => rw [hw] at h; simp at h
      | int v =>
        cases hw3 : asWord c with
        | none => rw [hw, hw3] at h; simp at h
        | some n =>
          rw [hw, hw3] at h
          simp only at h
          by_cases hv : 0 ≤ v ∧ v < 256
          · rw [if_pos hv] at h
            cases hq : poke st p (List.replicate n (Fin.ofNat 256 v.toNat)) with
            | none => rw [hq] at h; cases h
            | some st' =>
              rw [hq] at h
              cases h
              obtain ⟨d1, d2⟩ := poke_rep hr hq
              rw [List.length_replicate] at d1
              have e1 : asLong (.int v) = (v, none) := by
                have : FitsS 64 v := by unfold FitsS; omega
                simp [asLong, this]
              have e2 : wrapS 32 v % 256 = v := by
                have : wrapS 32 v = v := by
                  unfold wrapS
                  rw [Int.bmod_eq_of_le_mul_two (by omega) (by omega)]
                rw [this]
                omega
              simp only [memset, word_asVoidPtr hw, word_asSizeT hw3, e1, e2]
              rw [if_pos d1]
              exact ⟨_, rfl, d2⟩
          · rw [if_neg hv] at h; cases h

theorem word_nat {n : Nat} (h : n < 2 ^ 64) : asWord (.int (n : Int)) = some n := by
  simp only [asWord]
  rw [if_pos (by omega), Int.toNat_natCast]

theorem set_get_args (zf : Bool) (m : Mem) {p : Nat} {data : List Byte} (ans ans' : Alloc) {a b : Arg} (h0 : 0 < p)
    (w : asWord a = some p) (w2 : asWord b = some data.length)
    (hl : data.length ≤ 2 ^ 63 - 34) (hc : m.covers p data.length = true) :
    ∃ m', step zf m (.set a (some data)) ans = .ok m' .none ∧
      step zf m' (.get a b) ans' = .ok m' (.bytes data) ∧
      m'.blocks = m.blocks ∧ ∀ x, x < p ∨ p + data.length ≤ x → m'.byte x = m.byte x := by
  refine ⟨m.write p data, ?_, ?_, rfl, fun x hx => write_byte_out hx⟩
  · simp only [step, Unsafe.set, word_argK w]
    rw [if_pos hc]
  · have hr : (m.write p data).read p data.length = data := by
      apply List.ext_getElem?
      intro i
      rw [read_getElem?]
      split
      · rename_i hi
        rw [write_byte_in hi, List.getElem?_eq_getElem hi]
      · rw [List.getElem?_eq_none (by omega)]
    have hc' : (m.write p data).covers p data.length = true := hc
    simp only [step, Unsafe.get, word_argK w, word_argK w2]
    rw [if_neg (by omega)]
    by_cases hz : data.length = 0
    · rw [if_pos hz, List.length_eq_zero_iff.1 hz]
    · rw [if_neg hz, if_neg (by omega), if_neg (by omega), if_pos hc', hr]

theorem memcpy_args (zf : Bool) (m : Mem) {src dst n : Nat} {a b c : Arg} (ans : Alloc) (h1 : asWord a = some src)
    (h2 : asWord b = some dst) (h3 : asWord c = some n) (hs : m.covers src n = true) (hd : m.covers dst n = true)
    (hdis : src + n ≤ dst ∨ dst + n ≤ src) :
    ∃ m', step zf m (.memcpy a b c) ans = .ok m' .none ∧ m'.blocks = m.blocks ∧
      (∀ i, i < n → m'.byte (dst + i) = m.byte (src + i)) ∧
      ∀ x, x < dst ∨ dst + n ≤ x → m'.byte x = m.byte x := by
  simp only [step, Unsafe.memcpy, word_asVoidPtr h1, word_asVoidPtr h2, word_asSizeT h3]
  by_cases h0 : n = 0
  · rw [if_pos h0]
    exact ⟨m, rfl, rfl, fun i hi => by omega, fun x _ => rfl⟩
  · rw [if_neg h0, hs, hd, Bool.and_self, if_pos rfl, if_pos hdis]
    refine ⟨_, rfl, rfl, fun i hi => ?_, fun x hx => ?_⟩
    · rw [write_byte_in (by rw [read_length]; exact hi)]
      apply Option.some.inj
      rw [← List.getElem?_eq_getElem, read_getElem?, if_pos hi]
    · exact write_byte_out (by rw [read_length]; exact hx)

theorem memcpy_overlap_args (zf : Bool) (m : Mem) {src dst n : Nat} {a b c : Arg} (ans : Alloc) (h1 : asWord a = some src)
    (h2 : asWord b = some dst) (h3 : asWord c = some n) (hs : m.covers src n = true) (hd : m.covers dst n = true)
    (ho : src < dst + n ∧ dst < src + n) : step zf m (.memcpy a b c) ans = .ub .overlap := by
  simp only [step, Unsafe.memcpy, word_asVoidPtr h1, word_asVoidPtr h2, word_asSizeT h3]
  rw [if_neg (by omega), hs, hd, Bool.and_self, if_pos rfl, if_neg (by omega)]

theorem memset_args (zf : Bool) (m : Mem) {p n : Nat} {v : Int} {a c : Arg} (ans : Alloc) (h1 : asWord a = some p)
    (h2 : asWord c = some n) (hv : -(2 ^ 31) ≤ v ∧ v < 2 ^ 31) (hc : m.covers p n = true) :
    ∃ m', step zf m (.memset a (.int v) c) ans = .ok m' .none ∧ m'.blocks = m.blocks ∧
      (∀ i, i < n → ((m'.byte (p + i)).val : Int) = v % 256) ∧
      ∀ x, x < p ∨ p + n ≤ x → m'.byte x = m.byte x := by
  have e1 : asLong (.int v) = (v, none) := by
    have : FitsS 64 v := by unfold FitsS; omega
    simp [asLong, this]
  have e2 : wrapS 32 v = v := by
    unfold wrapS
    rw [Int.bmod_eq_of_le_mul_two (by omega) (by omega)]
  simp only [step, Unsafe.memset, word_asVoidPtr h1, word_asSizeT h2, e1, e2]
  rw [if_pos hc]
  refine ⟨_, rfl, rfl, fun i hi => ?_, fun x hx => ?_⟩
  · rw [write_byte_in (by rw [List.length_replicate]; exact hi), List.getElem_replicate]
    simp only [Fin.ofNat]
    omega
  · exact write_byte_out (by rw [List.length_replicate]; exact hx)

theorem sizeAt_drop (m : Mem) (p : Nat) : (m.drop p).sizeAt p = none := by
  unfold Mem.sizeAt Mem.drop
  simp only [List.find?_filter, Option.map_eq_none_iff, List.find?_eq_none]
  intro b _
  simp

theorem sizeAt_drop_ne (m : Mem) {p q : Nat} (hq : q ≠ p) : (m.drop p).sizeAt q = m.sizeAt q := by
  unfold Mem.sizeAt Mem.drop
  rw [List.find?_filter]
  congr 2
  funext b
  by_cases e : b.1 = q
  · simp [e, hq]
  · simp [e]

theorem free_none_args (zf : Bool) (m : Mem) {p : Nat} {a : Arg} (ans : Alloc) (h0 : 0 < p) (w : asWord a = some p)
    (hn : m.sizeAt p = none) : step zf m (.free a) ans = .ub .invalidFree := by
  simp only [step, Unsafe.free, word_asSizeT w]
  rw [if_neg (by omega), hn]

theorem free_some_args (zf : Bool) (m : Mem) {p k : Nat} {a : Arg} (ans : Alloc) (h0 : 0 < p) (w : asWord a = some p)
    (hn : m.sizeAt p = some k) : step zf m (.free a) ans = .ok (m.drop p) .none := by
  simp only [step, Unsafe.free, word_asSizeT w]
  rw [if_neg (by omega), hn]

theorem realloc_zero_args (m : Mem) {p k : Nat} {a : Arg} (ans : Alloc) (h0 : 0 < p) (w : asWord a = some p)
    (hp : m.sizeAt p = some k) : step true m (.realloc a (.int 0)) ans = .exc (m.drop p) .memoryError := by
  have w0 : argK (.int 0) = .ok 0 := rfl
  simp only [step, Unsafe.realloc, word_argK w, w0]
  rw [if_neg (by omega), hp]
  rfl

/-- What a caller sees of an outcome: the blocks that are live, and the result. -/
def seen : UOut → Option (List (Nat × Nat) × Except Exc UVal)
  | .ok m v => some (m.blocks, .ok v)
  | .exc m e => some (m.blocks, .error e)
  | _ => none

theorem run_behaves (zf : Bool) {st : Store} {ops : List (UOp × Alloc)} {rs : List URes} (h : Behaves st ops rs) :
    ∀ m, Rep m st →
      (run zf m ops).map seen = rs.map fun r => some (r.1.map fun b => (b.1, b.2.length), r.2) := by
  induction h with
  | nil => intro m _; rfl
  | @cons st st' r op ans ops rs ha hs _ ih =>
    intro m hr
    have := step_does zf hr ha hs
    unfold run
    cases r with
    | ok v =>
      obtain ⟨m', e, hr'⟩ := this
      simp only [e, List.map_cons, seen, ih m' hr', hr'.blocks]
    | error v =>
      obtain ⟨m', e, hr'⟩ := this
      simp only [e, List.map_cons, seen, ih m' hr', hr'.blocks]

end Verif.Unsafe
