import Verif.Lemmas.Stream

/-!
# C57: text written with fputs and read with fgets arrives whole
-/

namespace Verif.Props

open Verif.Stream
open Verif.Stream.Spec (Scalar encode utf8)

/-- Every history of `fputs` and `fflush` with strings free of zero characters, whatever the C library sends when: what was
sent, with what is still waiting, is what was there before followed by the UTF-8 encodings of the strings written, in order,
where a string with a surrogate raises and writes nothing; after `fflush` nothing is waiting. What is missing: strings with
zero characters, see `C57_fputs_nul`. -/
theorem C57_fputs_partial (ops : List Put) (io : Std) (h : Plain ops) :
    (puts ops io).1.sent ++ (puts ops io).1.waiting = io.sent ++ io.waiting ++ Spec.written ops ∧
      (puts ops io).2 = Spec.answers ops ∧
      (puts (ops ++ [.fflush]) io).1.sent = io.sent ++ io.waiting ++ Spec.written ops := by
  refine ⟨puts_written h, ?_, ?_⟩
  · induction ops generalizing io with
    | nil => rfl
    | cons op ops ih =>
      have h2 := (put_written (io := io) h).2
      rw [puts, ih _ h2]
      cases op with
      | fflush => rfl
      | fputs s k =>
        cases s with
        | other => rfl
        | str s =>
          simp only [put, fputs, Spec.answers]
          rw [asUTF8_eq fun c hc => (h.1 c hc).1]
          by_cases hs : ∀ c ∈ s, Scalar c
          · rw [if_pos hs, if_pos hs]
          · rw [if_neg hs, if_neg hs]
  · rw [puts_append, ← puts_written h]
    simp [puts, put, fflush, send]

/-- "é\n", a lone surrogate, "ok", with the C library sending one byte early. -/
example : Plain [.fputs (.str [0xE9, 10]) 1, .fputs (.str [0xD800]) 0, .fputs (.str [111, 107]) 0] ∧
    Spec.written [.fputs (.str [0xE9, 10]) 1, .fputs (.str [0xD800]) 0, .fputs (.str [111, 107]) 0] =
      [0xC3, 0xA9, 10, 111, 107] := by
  constructor
  · simp [Plain]
  · decide

/-- A string with a zero character is cut there: no exception, the rest is not written. -/
theorem C57_fputs_nul (a b : Str) (k : Nat) (io : Std) (ha : ∀ c ∈ a, Scalar c ∧ c ≠ 0) (hb : ∀ c ∈ b, Scalar c) :
    (fputs (.str (a ++ 0 :: b)) k io).2 = none ∧
      (fputs (.str (a ++ 0 :: b)) k io).1.sent ++ (fputs (.str (a ++ 0 :: b)) k io).1.waiting =
        io.sent ++ io.waiting ++ encode a := by
  have hs : ∀ c ∈ a ++ 0 :: b, Scalar c := by
    intro c hc
    simp only [List.mem_append, List.mem_cons] at hc
    rcases hc with hc | rfl | hc
    · exact (ha c hc).1
    · exact .inl (by decide)
    · exact hb c hc
  have hlt : ∀ c ∈ a ++ 0 :: b, c < 0x110000 := by
    intro c hc
    have := hs c hc
    unfold Scalar at this
    omega
  have h0 : 0 ∉ a := fun hm => (ha 0 hm).2 rfl
  have e : cstring (encode (a ++ 0 :: b)) = encode a := by
    rw [encode_append, cstring_append (encode_ne_zero h0)]
    simp [cstring, encode, utf8]
  simp only [fputs, asUTF8_eq hlt, if_pos hs, e, send_all]
  exact ⟨trivial, by simp⟩

/-- Reading a text with `fgets(n)`, where the text is ASCII or its lines fit the buffer: the calls return the text, divided
into lines and full buffers, and only then raise. What is missing: `C57_fgets_end` (the documentation promises an empty string
at the end), `C57_fgets_one`, `C57_fgets_size`, `C57_fgets_nul`, `C57_fgets_split` and `C57_fgets_leak`. -/
theorem C57_fgets_partial (n : Nat) (t : Str) (io : Std) (h2 : 2 ≤ n) (hn : n < 2 ^ 31) (hw : Whole n t)
    (hs : ∀ c ∈ t, Scalar c ∧ c ≠ 0) (hi : io.input = encode t) :
    ∃ ps, Spec.Pieces n t ps ∧ (gets (.int n) (ps.length + 1) io).2 = ps.map .ok ++ [.error .runtimeError] := by
  obtain ⟨ps, h1, h2, _⟩ := gets_text h2 (wrap_small hn) hw hs hi
  exact ⟨ps, h1, h2⟩

/-- One call on a text that is not at its end returns and consumes what the documentation says. -/
theorem C57_fgets_step_partial (n : Nat) (t : Str) (io : Std) (h2 : 2 ≤ n) (hn : n < 2 ^ 31) (hw : Whole n t)
    (hs : ∀ c ∈ t, Scalar c ∧ c ≠ 0) (hi : io.input = encode t) (ht : t ≠ []) :
    (fgets (.int n) io).2 = .ok (Spec.fgets n t).1 ∧ (fgets (.int n) io).1.input = encode (Spec.fgets n t).2 := by
  rw [fgets_text h2 (wrap_small hn) hw hs hi ht]
  exact ⟨rfl, rfl⟩

/-- "aé\nxyz" in a buffer of 6 bytes; "hello" in one of 3. -/
example : Whole 6 [97, 0xE9, 10, 120, 121, 122] ∧ Spec.fgets 6 [97, 0xE9, 10, 120, 121, 122] = ([97, 0xE9, 10], [120, 121, 122]) ∧
    Whole 3 [104, 101, 108, 108, 111] ∧ Spec.fgets 3 [104, 101, 108, 108, 111] = ([104, 101], [108, 108, 111]) := by
  refine ⟨.inr ?_, rfl, .inl (by decide), rfl⟩
  intro b hb h10
  obtain ⟨a, c, e⟩ := hb
  match a, e with
  | [], e =>
    match b, e with
    | [], _ => decide
    | [_], e => simp only [List.nil_append, List.cons_append, List.cons.injEq] at e; rw [e.1]; decide
    | [_, _], e =>
      simp only [List.nil_append, List.cons_append, List.cons.injEq] at e; rw [e.1, e.2.1]; decide
    | _ :: _ :: x :: _, e =>
      simp only [List.nil_append, List.cons_append, List.cons.injEq] at e
      simp [e.2.2.1] at h10
  | [_], e =>
    match b, e with
    | [], _ => decide
    | [_], e => simp only [List.nil_append, List.cons_append, List.cons.injEq] at e; rw [e.2.1]; decide
    | _ :: x :: _, e =>
      simp only [List.nil_append, List.cons_append, List.cons.injEq] at e
      simp [e.2.2.1] at h10
  | [_, _], e =>
    match b, e with
    | [], _ => decide
    | x :: _, e =>
      simp only [List.nil_append, List.cons_append, List.cons.injEq] at e
      simp [e.2.2.1] at h10
  | _ :: _ :: _ :: a, e =>
    simp only [List.cons_append, List.cons.injEq] at e
    have hm : ∀ x ∈ b, x < 128 := by
      intro x hx
      have : x ∈ [120, 121, 122] := by rw [← e.2.2.2]; simp [hx]
      simp at this
      omega
    have hl : b.length ≤ 3 := by
      have := congrArg List.length e.2.2.2
      simp at this
      omega
    rw [encode_ascii hm]
    omega

/-- At the end of the input `fgets` raises RuntimeError; the documentation says it returns an empty string. -/
theorem C57_fgets_end (n : Nat) (io : Std) (h2 : 2 ≤ n) (hn : n < 2 ^ 31) (hi : io.input = []) :
    (fgets (.int n) io).2 = .error .runtimeError := by
  rw [fgets_end h2 (wrap_small hn) hi]

/-- With a buffer for the terminator alone, `fgets` returns an empty string and consumes nothing, for ever. -/
theorem C57_fgets_one (k : Nat) (io : Std) :
    (gets (.int 1) k io).2 = List.replicate k (.ok []) ∧ (gets (.int 1) k io).1.input = io.input := by
  have hb : bufferSize (.int 1) = 1 := wrap_small (n := 1) (by decide)
  have h1 : ∀ io : Std, fgets (.int 1) io = ({ io with lost := io.lost + 1 }, .ok []) := by
    intro io
    rw [fgets, hb]
    rfl
  induction k generalizing io with
  | zero => exact ⟨rfl, rfl⟩
  | succ k ih =>
    rw [gets_succ (h1 io), List.replicate_succ, (ih _).1, (ih _).2]
    exact ⟨rfl, rfl⟩

/-- A character of several bytes at the end of the buffer is destroyed: the call raises UnicodeDecodeError, and the first byte
is gone. -/
theorem C57_fgets_split (c : Nat) (bs : List Nat) (io : Std) (hc : Scalar c) (h : 128 ≤ c) (hi : io.input = utf8 c ++ bs) :
    (fgets (.int 2) io).2 = .error .valueError ∧ (fgets (.int 2) io).1.input = (utf8 c).tail ++ bs := by
  have hb : bufferSize (.int 2) = 2 := wrap_small (n := 2) (by decide)
  obtain ⟨b, r, e, hb1, hb2⟩ : ∃ b r, utf8 c = b :: r ∧ 0xC2 ≤ b ∧ b < 0xF5 := by
    unfold utf8
    unfold Scalar at hc
    rw [if_neg (by omega)]
    split
    · exact ⟨_, _, rfl, by omega, by omega⟩
    · split
      · exact ⟨_, _, rfl, by omega, by omega⟩
      · exact ⟨_, _, rfl, by omega, by omega⟩
  have hcg : cfgets 2 io.input = (some [b], r ++ bs) := by
    rw [hi, e]
    rw [cfgets, if_neg (by decide), if_neg (by simp), List.cons_append]
    have e1 : readUpTo (2 - 1) (b :: (r ++ bs)) = ([b], r ++ bs) := by
      show readUpTo (0 + 1) _ = _
      rw [readUpTo, if_neg (by omega), readUpTo]
    rw [e1]
  have hcs : cstring [b] = [b] := cstring_self (by simp; omega)
  have hd : decode [b] = none := by
    rw [decode.eq_def]
    simp only
    rw [if_neg (by omega), if_neg (by omega)]
    split
    · rfl
    · split
      · rfl
      · rfl
  rw [fgets, hb]
  have h2 : (2 : Int).toNat = 2 := rfl
  simp only [fgetsInto, h2, hcg, hcs, hd]
  rw [if_neg (by decide), e]
  exact ⟨rfl, rfl⟩

example : ∃ (c : Nat) (io : Std), Scalar c ∧ 128 ≤ c ∧ io.input = utf8 c ++ [10] :=
  ⟨0x20AC, ⟨[0xE2, 0x82, 0xAC, 10], [], [], 0⟩, by decide, by decide, by decide⟩

/-- A line with a zero character is cut there, and the rest of the line is lost. -/
theorem C57_fgets_nul (n : Nat) (a b r : Str) (io : Std) (hn : n < 2 ^ 31)
    (hl : (encode (a ++ 0 :: b)).length + 2 ≤ n) (ha : ∀ c ∈ a, Scalar c ∧ c ≠ 0) (ha' : 10 ∉ a) (hb : 10 ∉ b)
    (hi : io.input = encode (a ++ 0 :: b ++ 10 :: r)) :
    (fgets (.int n) io).2 = .ok a ∧ (fgets (.int n) io).1.input = encode r := by
  have h10 : 10 ∉ a ++ 0 :: b := by simp [ha', hb]
  have hrd : readUpTo (n - 1) (encode (a ++ 0 :: b ++ 10 :: r)) = (encode (a ++ 0 :: b) ++ [10], encode r) := by
    rw [encode_append (a ++ 0 :: b), readUpTo_skip (encode_no_newline h10) (by clear hn; omega)]
    obtain ⟨m, hm⟩ : ∃ m, n - 1 - (encode (a ++ 0 :: b)).length = m + 1 :=
      ⟨n - 2 - (encode (a ++ 0 :: b)).length, by clear hn; omega⟩
    have e : encode (10 :: r) = 10 :: encode r := rfl
    rw [hm, e, readUpTo, if_pos rfl]
  have hne : encode (a ++ 0 :: b ++ 10 :: r) ≠ [] := by rw [Ne, encode_nil]; simp
  have hcg : cfgets n (encode (a ++ 0 :: b ++ 10 :: r)) = (some (encode (a ++ 0 :: b) ++ [10]), encode r) := by
    rw [cfgets, if_neg (by clear hn; omega), if_neg hne, hrd]
  have h0 : 0 ∉ a := fun hm => (ha 0 hm).2 rfl
  have hcs : cstring (encode (a ++ 0 :: b) ++ [10]) = encode a := by
    rw [encode_append, List.append_assoc, cstring_append (encode_ne_zero h0)]
    simp [cstring, encode, utf8]
  have hpos : ¬ ((n : Int) ≤ 0) := by clear hn; omega
  rw [fgets, wrap_small hn, fgetsInto, if_neg hpos]
  simp only [Int.toNat_natCast, hi, hcg, hcs, decode_text fun c hc => (ha c hc).1]
  exact ⟨trivial, trivial⟩

example : ∃ io : Std, io.input = encode ([97] ++ 0 :: [98] ++ 10 :: []) ∧ (encode ([97] ++ 0 :: [98])).length + 2 ≤ 80 :=
  ⟨⟨[97, 0, 98, 10], [], [], 0⟩, by decide, by decide⟩

/-- Sizes are cut to 32 bits: some positive sizes are rejected as not positive, and others shrink. -/
theorem C57_fgets_size (io : Std) :
    (∀ v : Int, 2 ^ 31 ≤ v → v ≤ 2 ^ 32 → fgets (.int v) io = (io, .error .valueError)) ∧
    (∀ m : Nat, 0 < m → m < 2 ^ 31 → fgets (.int (2 ^ 32 + m)) io = fgets (.int m) io) := by
  constructor
  · intro v h1 h2
    have hf : FitsS 64 v := by unfold FitsS; omega
    have hb : bufferSize (.int v) ≤ 0 := by
      simp only [bufferSize, asLong, if_pos hf, wrapS, Int.bmod]
      omega
    rw [fgets, fgetsInto, if_pos hb]
  · intro m h0 h1
    have hf : FitsS 64 (2 ^ 32 + m : Int) := by unfold FitsS; omega
    have hb : bufferSize (.int (2 ^ 32 + m)) = m := by
      simp only [bufferSize, asLong, if_pos hf, wrapS, Int.bmod]
      omega
    rw [fgets, hb, fgets, wrap_small h1]

/-- Every call takes memory that is never given back. -/
theorem C57_fgets_leak (n k : Nat) (io : Std) (h1 : 1 ≤ n) (hn : n < 2 ^ 31) :
    (gets (.int n) k io).1.lost = io.lost + n * k := by
  have hpos : ¬ ((n : Int) ≤ 0) := by clear hn; omega
  have hb := wrap_small hn
  clear hn
  have hstep : ∀ io : Std, (fgets (.int n) io).1.lost = io.lost + n := by
    intro io
    rw [fgets, hb, fgetsInto, if_neg hpos]
    simp only [Int.toNat_natCast]
    rcases cfgets n io.input with ⟨_ | bs, rest⟩
    · rfl
    · simp only
      rcases decode (cstring bs) with _ | s <;> rfl
  generalize Arg.int (n : Int) = a at hstep ⊢
  induction k generalizing io with
  | zero => rfl
  | succ k ih =>
    rw [gets]
    simp only [ih, hstep, Nat.mul_succ]
    omega

end Verif.Props
